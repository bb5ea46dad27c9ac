import Verif.Props.RoundedHold
import Verif.Props.ShippedHover

/-!
# The shipped quadrotor in rounded arithmetic (C151)
-/

namespace Verif.Props

open Verif Flt Spec Stability Filter Topology Example

/-! ## Stored numbers -/

section
variable {A : Rounding} {κ κ' : ℝ}

lemma Stores.mono {v a : ℝ} (h : A.Stores κ v a) (hk : κ ≤ κ') : A.Stores κ' v a :=
  ⟨h.1.trans (mul_le_mul_of_nonneg_right hk A.u_nonneg), h.2⟩

lemma Accurate.mono (h : A.Accurate κ) (hk : κ ≤ κ') : A.Accurate κ' :=
  ⟨fun y => (h.sin y).trans (mul_le_mul_of_nonneg_right hk A.u_nonneg),
    fun y => (h.cos y).trans (mul_le_mul_of_nonneg_right hk A.u_nonneg)⟩

/-- Literals. -/
lemma stores_lit {q : ℚ} (h : |(q : ℝ)| ≤ κ) : A.Stores κ (lit q : Fl A).val (lit q : ℝ) := by
  refine ⟨?_, fun h0 => ?_⟩
  · show |A.rnd (q : ℝ) - (q : ℝ)| ≤ _
    refine (A.rnd_err _).trans ?_
    rw [mul_comm]
    exact mul_le_mul_of_nonneg_right h A.u_nonneg
  · show A.rnd (q : ℝ) = 0
    rw [show (q : ℝ) = 0 from h0]; simp

lemma stores_neg {x : Fl A} {a : ℝ} (h : A.Stores κ x.val a) : A.Stores κ (neg x).val (neg a) := by
  refine ⟨?_, fun h0 => ?_⟩
  · show |-x.val - -a| ≤ _
    rw [← neg_sub', abs_neg]; exact h.1
  · show -x.val = 0
    rw [h.2 (neg_eq_zero.1 h0), neg_zero]

lemma stores_vec {a b c : ℚ} (ha : |(a : ℝ)| ≤ κ) (hb : |(b : ℝ)| ≤ κ) (hc : |(c : ℝ)| ≤ κ) (i : Fin 3) :
    A.Stores κ ((![lit a, lit b, lit c] : Vec 3 (Fl A)) i).val ((![lit a, lit b, lit c] : Vec 3 ℝ) i) := by
  match i with
  | 0 => exact stores_lit ha
  | 1 => exact stores_lit hb
  | 2 => exact stores_lit hc

/-- Negated limits. -/
lemma stores_minus {q : ℚ} (h : 7 * |(q : ℝ)| ≤ κ) (hu : A.u ≤ 1) :
    A.Stores κ (lit (-1) ⊠ lit q : Fl A).val (lit (-1) ⊠ lit q : ℝ) := by
  have hu0 := A.u_nonneg
  have e : (lit (-1) ⊠ lit q : ℝ) = -(q : ℝ) := by simp [flt]
  have ea : |A.rnd (((-1 : ℚ) : ℝ)) + 1| ≤ A.u := by simpa using A.rnd_err (((-1 : ℚ) : ℝ))
  have eb := A.rnd_err (q : ℝ)
  set a := A.rnd (((-1 : ℚ) : ℝ)) with ha
  set b := A.rnd (q : ℝ) with hb
  have ev : (lit (-1) ⊠ lit q : Fl A).val = A.rnd (a * b) := rfl
  rw [e, ev]
  have hq := abs_nonneg (q : ℝ)
  refine ⟨?_, fun h0 => ?_⟩
  · have a2 : |a| ≤ 2 := by
      have := abs_sub (a + 1) 1
      rw [add_sub_cancel_right, abs_one] at this
      linarith
    have b2 : |b| ≤ 2 * |(q : ℝ)| := by
      have := abs_add_le (b - q) q
      rw [sub_add_cancel] at this
      nlinarith
    have h1 : |a * b + q| ≤ 3 * (A.u * |(q : ℝ)|) := by
      rw [show a * b + q = a * (b - q) + (a + 1) * q by ring]
      refine (abs_add_le _ _).trans ?_
      rw [abs_mul, abs_mul]
      nlinarith [mul_le_mul a2 eb (abs_nonneg _) (by norm_num), mul_le_mul_of_nonneg_right ea hq]
    have h2 : |A.rnd (a * b) - a * b| ≤ 4 * (A.u * |(q : ℝ)|) := by
      refine (A.rnd_err _).trans ?_
      rw [abs_mul]
      have := mul_le_mul a2 b2 (abs_nonneg _) (by norm_num)
      nlinarith
    have h3 := abs_add_le (A.rnd (a * b) - a * b) (a * b + q)
    rw [show A.rnd (a * b) - a * b + (a * b + q) = A.rnd (a * b) - -(q : ℝ) by ring] at h3
    nlinarith
  · have : (q : ℝ) = 0 := neg_eq_zero.1 h0
    rw [hb, this]; simp

lemma stores_diag {v' : Vec 3 (Fl A)} {v : Vec 3 ℝ} (hk : 0 ≤ κ) (h : ∀ i, A.Stores κ (v' i).val (v i)) (i j : Fin 3) :
    A.Stores κ (mdiag v' i j).val (mdiag v i j) := by
  unfold mdiag
  split
  · exact h i
  · exact stores_lit (by simpa using hk)

lemma stores_ident (hk : 1 ≤ κ) (i j : Fin 3) : A.Stores κ ((mident : Mat 3 3 (Fl A)) i j).val ((mident : Mat 3 3 ℝ) i j) := by
  unfold mident
  split
  · exact stores_lit (by simpa using hk)
  · exact stores_lit (by simp; linarith)

end

/-! ## PID controllers -/

/-- With usable limits the saturation is enabled. -/
lemma Pid.mk_limits {α : Type} [Flt α] (q : PidParams α 3) (hz : (Pid.nonZero q.lower || Pid.nonZero q.upper) = true)
    (h : ∀ i, lt (abs (q.upper i ⊟ q.lower i)) eps = false ∧ lt (q.upper i) (q.lower i) = false) :
    (Pid.mk' q).satFlag = true ∧ (Pid.mk' q).upper = q.upper ∧ (Pid.mk' q).lower = q.lower := by
  have hl : List.finRange 3 = [0, 1, 2] := rfl
  refine ⟨?_, ?_, ?_⟩ <;>
    simp [Pid.mk', Pid.updateParams, hz, Pid.setOutputSaturation, hl, Pid.setSatLoop, h, Pid.reset]

/-- With vanishing limits it is not. -/
lemma Pid.mk_flat {α : Type} [Flt α] (q : PidParams α 3) (hz : (Pid.nonZero q.lower || Pid.nonZero q.upper) = false) :
    (Pid.mk' q).satFlag = false ∧ (Pid.mk' q).upper = vzero ∧ (Pid.mk' q).lower = vzero := by
  refine ⟨?_, ?_, ?_⟩ <;>
    simp [Pid.mk', Pid.updateParams, hz, Pid.disableSat, Pid.reset] <;> rfl

/-- Parameters of a PID as the arithmetic stores them. -/
structure StoredPid {A : Rounding} (κ : ℝ) (q : PidParams (Fl A) 3) (b : PidParams ℝ 3) : Prop where
  kp : ∀ i, A.Stores κ (q.kp i).val (b.kp i)
  ki : ∀ i, A.Stores κ (q.ki i).val (b.ki i)
  kd : ∀ i, A.Stores κ (q.kd i).val (b.kd i)
  antiwindup : ∀ i, A.Stores κ (q.antiwindup i).val (b.antiwindup i)
  alpha : ∀ i, A.Stores κ (q.alpha i).val (b.alpha i)
  upper : ∀ i, A.Stores κ (q.upper i).val (b.upper i)
  lower : ∀ i, A.Stores κ (q.lower i).val (b.lower i)
  resetIntegral : q.resetIntegral = b.resetIntegral
  propSat : q.propSat = b.propSat

section
variable {A : Rounding} {κ : ℝ} {q : PidParams (Fl A) 3} {b : PidParams ℝ 3}

lemma StoredPid.built (h : StoredPid κ q b) (hk : 0 ≤ κ) (hs : (Pid.mk' q).satFlag = (Pid.mk' b).satFlag)
    (hu : ∀ i, A.Stores κ ((Pid.mk' q).upper i).val ((Pid.mk' b).upper i))
    (hl : ∀ i, A.Stores κ ((Pid.mk' q).lower i).val ((Pid.mk' b).lower i)) : Stored κ (Pid.mk' q) (Pid.mk' b) := by
  obtain ⟨f, v, w, e, he, he', -⟩ := Pid.updateParams_eq q Pid.init
  obtain ⟨f2, v2, w2, e2, he2, he2', -⟩ := Pid.updateParams_eq b Pid.init
  have a1 : Pid.mk' q = _ := congrArg Pid.reset he
  have a2 : Pid.mk' b = _ := congrArg Pid.reset he2
  refine ⟨?_, ?_, ?_, ?_, ?_, hu, hl, ?_, hs, ?_⟩
  · rw [a1, a2]; exact stores_diag hk h.kp
  · rw [a1, a2]; exact stores_diag hk h.ki
  · rw [a1, a2]; exact stores_diag hk h.kd
  · rw [a1, a2]; exact h.antiwindup
  · rw [a1, a2]; exact h.alpha
  · rw [a1, a2]; exact h.resetIntegral
  · rw [a1, a2]; exact he'.trans (h.propSat.trans he2'.symm)

/-- Limits at a distance of at least 8 from each other are in use in both arithmetics. -/
lemma StoredPid.limited (h : StoredPid κ q b) (hk : 1 ≤ κ) (hκ : κ * A.u ≤ 1 / 4) (hb : ∀ i, 4 ≤ b.upper i ∧ b.lower i ≤ -4) :
    Stored κ (Pid.mk' q) (Pid.mk' b) := by
  have hu0 := A.u_nonneg
  have hu : A.u ≤ 1 / 4 := le_trans (by nlinarith) hκ
  have key : ∀ i, 3 ≤ (q.upper i).val ∧ (q.lower i).val ≤ -3 := fun i => by
    have h1 := abs_le.1 ((h.upper i).1.trans hκ)
    have h2 := abs_le.1 ((h.lower i).1.trans hκ)
    have := hb i
    exact ⟨by linarith, by linarith⟩
  have e1 := Pid.mk_limits b (by simp [Pid.nonZero, flt, List.finRange_succ]; right; left; linarith [(hb 0).1]) fun i => by
    have := hb i
    constructor
    · simp only [flt, decide_eq_false_iff_not, not_lt]
      rw [abs_of_pos (by linarith)]
      have e : (eps : ℝ) ≤ 1 := by rw [eps_real]; norm_num
      linarith
    · simp only [flt, decide_eq_false_iff_not, not_lt]; linarith
  have e2 := Pid.mk_limits q (by
    have : Pid.nonZero q.upper = true := by
      unfold Pid.nonZero
      rw [List.any_eq_true]
      refine ⟨0, List.mem_finRange _, ?_⟩
      show (!decide ((q.upper 0).val = (lit 0 : Fl A).val)) = true
      rw [lit_zero_val, decide_eq_false (by linarith [(key 0).1])]; rfl
    rw [this, Bool.or_true]) fun i => by
    have hi := key i
    constructor
    · show decide (|A.rnd ((q.upper i).val - (q.lower i).val)| < A.rnd (1 / 4503599627370496)) = false
      rw [decide_eq_false_iff_not, not_lt]
      have h1 := abs_le.1 (A.rnd_err ((q.upper i).val - (q.lower i).val))
      have h2 := abs_le.1 (A.rnd_err (1 / 4503599627370496))
      rw [abs_of_pos (by linarith : 0 < (q.upper i).val - (q.lower i).val)] at h1
      rw [abs_of_pos (by norm_num : (0 : ℝ) < 1 / 4503599627370496)] at h2
      refine le_trans ?_ (le_abs_self _)
      nlinarith
    · show decide ((q.upper i).val < (q.lower i).val) = false
      rw [decide_eq_false_iff_not, not_lt]; linarith
  refine h.built (by linarith) (e2.1.trans e1.1.symm) ?_ ?_
  · rw [e1.2.1, e2.2.1]; exact h.upper
  · rw [e1.2.2, e2.2.2]; exact h.lower

/-- Vanishing limits are not in use in either. -/
lemma StoredPid.unlimited (h : StoredPid κ q b) (hk : 0 ≤ κ) (hb : ∀ i, b.upper i = 0 ∧ b.lower i = 0) :
    Stored κ (Pid.mk' q) (Pid.mk' b) := by
  have e1 := Pid.mk_flat b (by simp [Pid.nonZero, flt, List.finRange_succ, hb])
  have hz : ∀ v : Vec 3 (Fl A), (∀ i, (v i).val = 0) → Pid.nonZero v = false := fun v hv => by
    unfold Pid.nonZero
    rw [List.any_eq_false]
    intro i _
    show ¬ (!decide ((v i).val = (lit 0 : Fl A).val)) = true
    rw [lit_zero_val, decide_eq_true (hv i)]; simp
  have e2 := Pid.mk_flat q (by
    rw [hz _ fun i => (h.lower i).2 (hb i).2, hz _ fun i => (h.upper i).2 (hb i).1]; rfl)
  refine h.built hk (e2.1.trans e1.1.symm) ?_ ?_
  · rw [e1.2.1, e2.2.1]; exact fun i => stores_lit (by simpa using hk)
  · rw [e1.2.2, e2.2.2]; exact fun i => stores_lit (by simpa using hk)

end

/-! ## The shipped file -/

/-- Flags of the shipped file. -/
lemma shipped_flags {α : Type} [Flt α] : ∃ p : SimParams α 4, getParams false (some shipped) = some (lit 0, p) ∧
    (p.ctl.pos.resetIntegral = false ∧ p.ctl.pos.propSat = true) ∧ (p.ctl.vel.resetIntegral = false ∧ p.ctl.vel.propSat = true) ∧
    p.ctl.indi.pid.resetIntegral = false ∧ p.ctl.indi.pid.propSat = true :=
  ⟨_, rfl, ⟨rfl, rfl⟩, ⟨rfl, rfl⟩, rfl, rfl⟩

section
variable {A : Rounding} {p' : SimParams (Fl A) 4} {p : SimParams ℝ 4} {ms' : Fin 4 → Motor (Fl A)} {ms : Fin 4 → Motor ℝ}

/-- The rotors of the shipped file. -/
lemma shipped_rotors (hp' : getParams false (some shipped) = some (lit 0, p')) (hp : getParams false (some shipped) = some (lit 0, p))
    (hm' : p'.dyn.model.motors = List.ofFn ms') (hm : p.dyn.model.motors = List.ofFn ms) (j : Fin 4) :
    StoredMotor 20000 (ms' j) (ms j) := by
  obtain ⟨q', hq', a', -⟩ := shipped_hold (α := Fl A)
  obtain ⟨q, hq, a, -⟩ := shipped_hold (α := ℝ)
  obtain rfl : q' = p' := by rw [hp'] at hq'; exact (Prod.mk.inj (Option.some.inj hq')).2.symm
  obtain rfl : q = p := by rw [hp] at hq; exact (Prod.mk.inj (Option.some.inj hq)).2.symm
  have e' := Model.ofFn_four (a'.symm.trans hm')
  have e := Model.ofFn_four (a.symm.trans hm)
  have l1 : ∀ q : ℚ, |(q : ℝ)| ≤ 20000 → A.Stores 20000 (lit q : Fl A).val (lit q : ℝ) := fun q h => stores_lit h
  have rot := fun i j => stores_ident (A := A) (κ := 20000) (by norm_num) i j
  have key : ∀ (d : ℤ) {x' y' : Fl A} {x y : ℝ}, A.Stores 20000 x'.val x → A.Stores 20000 y'.val y →
      StoredMotor 20000 (⟨d, lit (191 / 100000000), lit (26 / 100000000), mident, ![x', y', lit 0], lit 0, lit 2200, lit (2 / 100),
        lit (662 / 100000000)⟩ : Motor (Fl A)) ⟨d, lit (191 / 100000000), lit (26 / 100000000), mident, ![x, y, lit 0], lit 0,
        lit 2200, lit (2 / 100), lit (662 / 100000000)⟩ := fun d x' y' x y hx hy => by
    refine ⟨rfl, l1 _ (by norm_num [abs_of_pos]), l1 _ (by norm_num [abs_of_pos]), rot, fun i => ?_, l1 _ (by norm_num),
      l1 _ (by norm_num [abs_of_pos]), l1 _ (by norm_num [abs_of_pos]), l1 _ (by norm_num [abs_of_pos])⟩
    match i with
    | 0 => exact hx
    | 1 => exact hy
    | 2 => exact l1 0 (by norm_num)
  have hx := l1 (8 / 100) (by norm_num [abs_of_pos])
  rw [e', e]
  match j with
  | 0 => exact key 1 hx (stores_neg hx)
  | 1 => exact key (-1) hx hx
  | 2 => exact key 1 (stores_neg hx) hx
  | 3 => exact key (-1) (stores_neg hx) (stores_neg hx)

/-- The vehicle and the controllers of the shipped file. -/
lemma shipped_stored (hp' : getParams false (some shipped) = some (lit 0, p')) (hp : getParams false (some shipped) = some (lit 0, p))
    (hu : A.u ≤ 1 / 1000000) :
    StoredParams 20000 { p'.dyn.model with forceNoise := lit 0 } { p.dyn.model with forceNoise := 0 } ∧
    A.Stores 20000 p'.ctl.acro.mass.val p.ctl.acro.mass ∧ (∀ i, A.Stores 20000 (p'.ctl.acro.gravity i).val (p.ctl.acro.gravity i)) ∧
    (∀ i j, A.Stores 20000 (p'.ctl.acro.kpRot i j).val (p.ctl.acro.kpRot i j)) ∧
    (∀ i j, A.Stores 20000 (p'.ctl.indi.inertia i j).val (p.ctl.indi.inertia i j)) ∧
    Stored 20000 (Pid.mk' p'.ctl.pos) (Pid.mk' p.ctl.pos) ∧ Stored 20000 (Pid.mk' p'.ctl.vel) (Pid.mk' p.ctl.vel) ∧
    Stored 20000 (Pid.mk' p'.ctl.indi.pid) (Pid.mk' p.ctl.indi.pid) := by
  obtain ⟨q', hq', -, a1, a2, a3, a4, a5, a6, a7, a8, a9, -, ⟨b1, b2, b3, b4, b5, b6, b7⟩, ⟨c1, c2, c3, c4, c5, c6, c7⟩,
    d1, d2, d3, d4, d5, d6, d7⟩ := shipped_hold (α := Fl A)
  obtain ⟨q, hq, -, A1, A2, A3, A4, A5, A6, A7, A8, A9, -, ⟨B1, B2, B3, B4, B5, B6, B7⟩, ⟨C1, C2, C3, C4, C5, C6, C7⟩,
    D1, D2, D3, D4, D5, D6, D7⟩ := shipped_hold (α := ℝ)
  obtain ⟨f', hf', ⟨g1, g2⟩, ⟨g3, g4⟩, g5, g6⟩ := shipped_flags (α := Fl A)
  obtain ⟨f, hf, ⟨G1, G2⟩, ⟨G3, G4⟩, G5, G6⟩ := shipped_flags (α := ℝ)
  obtain rfl : q' = p' := by rw [hp'] at hq'; exact (Prod.mk.inj (Option.some.inj hq')).2.symm
  obtain rfl : q = p := by rw [hp] at hq; exact (Prod.mk.inj (Option.some.inj hq)).2.symm
  obtain rfl : f' = q' := by rw [hp'] at hf'; exact (Prod.mk.inj (Option.some.inj hf')).2.symm
  obtain rfl : f = q := by rw [hp] at hf; exact (Prod.mk.inj (Option.some.inj hf)).2.symm
  have h20 : (0 : ℝ) ≤ 20000 := by norm_num
  have hu1 : A.u ≤ 1 := by linarith
  have hmul : (20000 : ℝ) * A.u ≤ 1 / 4 := by linarith
  have l1 : ∀ q : ℚ, |(q : ℝ)| ≤ 20000 → A.Stores 20000 (lit q : Fl A).val (lit q : ℝ) := fun q h => stores_lit h
  have lm : ∀ q : ℚ, 7 * |(q : ℝ)| ≤ 20000 → ∀ i : Fin 3,
      A.Stores 20000 (smulL (lit (-1)) (![lit q, lit q, lit q] : Vec 3 (Fl A)) i).val
        (smulL (lit (-1)) (![lit q, lit q, lit q] : Vec 3 ℝ) i) := fun q h i => by
    match i with
    | 0 => exact stores_minus h hu1
    | 1 => exact stores_minus h hu1
    | 2 => exact stores_minus h hu1
  have v3 : ∀ a b c : ℚ, |(a : ℝ)| ≤ 20000 → |(b : ℝ)| ≤ 20000 → |(c : ℝ)| ≤ 20000 → ∀ i : Fin 3,
      A.Stores 20000 ((![lit a, lit b, lit c] : Vec 3 (Fl A)) i).val ((![lit a, lit b, lit c] : Vec 3 ℝ) i) :=
    fun a b c ha hb hc => stores_vec ha hb hc
  have sm : A.Stores 20000 f'.dyn.model.mass.val f.dyn.model.mass := by rw [a1, A1]; exact l1 _ (by norm_num)
  have sg : ∀ i, A.Stores 20000 (f'.dyn.model.gravity i).val (f.dyn.model.gravity i) := by
    rw [a2, A2]; exact v3 _ _ _ (by norm_num) (by norm_num) (by norm_num [abs_div])
  have sJ : ∀ i j, A.Stores 20000 (f'.dyn.model.inertia i j).val (f.dyn.model.inertia i j) := by
    rw [a5, A5]; exact stores_diag h20 (v3 _ _ _ (by norm_num [abs_div]) (by norm_num [abs_div]) (by norm_num [abs_div]))
  have sP : StoredPid 20000 f'.ctl.pos f.ctl.pos := by
    refine ⟨?_, ?_, ?_, ?_, ?_, ?_, ?_, g1.trans G1.symm, g2.trans G2.symm⟩
    · rw [b1, B1]; exact v3 _ _ _ (by norm_num) (by norm_num) (by norm_num)
    · rw [b2, B2]; exact v3 _ _ _ (by norm_num [abs_div]) (by norm_num [abs_div]) (by norm_num [abs_div])
    · rw [b3, B3]; exact v3 _ _ _ (by norm_num) (by norm_num) (by norm_num)
    · rw [b5, B5]; exact v3 _ _ _ (by norm_num [abs_div]) (by norm_num [abs_div]) (by norm_num [abs_div])
    · rw [b4, B4]; exact v3 _ _ _ (by norm_num [abs_div]) (by norm_num [abs_div]) (by norm_num)
    · rw [b6, B6]; exact v3 _ _ _ (by norm_num) (by norm_num) (by norm_num)
    · rw [b7, B7]; exact lm _ (by norm_num)
  have sV : StoredPid 20000 f'.ctl.vel f.ctl.vel := by
    refine ⟨?_, ?_, ?_, ?_, ?_, ?_, ?_, g3.trans G3.symm, g4.trans G4.symm⟩
    · rw [c1, C1]; exact v3 _ _ _ (by norm_num) (by norm_num) (by norm_num)
    · rw [c2, C2]; exact v3 _ _ _ (by norm_num) (by norm_num) (by norm_num)
    · rw [c3, C3]; exact v3 _ _ _ (by norm_num [abs_div]) (by norm_num [abs_div]) (by norm_num)
    · rw [c5, C5]; exact v3 _ _ _ (by norm_num) (by norm_num) (by norm_num)
    · rw [c4, C4]; exact v3 _ _ _ (by norm_num [abs_div]) (by norm_num [abs_div]) (by norm_num)
    · rw [c6, C6]; exact v3 _ _ _ (by norm_num) (by norm_num) (by norm_num)
    · rw [c7, C7]; exact lm _ (by norm_num)
  have sR : StoredPid 20000 f'.ctl.indi.pid f.ctl.indi.pid := by
    refine ⟨?_, ?_, ?_, ?_, ?_, ?_, ?_, g5.trans G5.symm, g6.trans G6.symm⟩
    · rw [d1, D1]; exact v3 _ _ _ (by norm_num) (by norm_num) (by norm_num)
    · rw [d2, D2]; exact v3 _ _ _ (by norm_num) (by norm_num) (by norm_num)
    · rw [d3, D3]; exact v3 _ _ _ (by norm_num [abs_div]) (by norm_num [abs_div]) (by norm_num [abs_div])
    · rw [d5, D5]; exact v3 _ _ _ (by norm_num) (by norm_num) (by norm_num)
    · rw [d4, D4]; exact v3 _ _ _ (by norm_num [abs_div]) (by norm_num [abs_div]) (by norm_num [abs_div])
    · rw [d6, D6]; exact v3 _ _ _ (by norm_num) (by norm_num) (by norm_num)
    · rw [d7, D7]; exact lm _ (by norm_num)
  refine ⟨⟨sm, sJ, ?_, ?_, sg, ?_⟩, ?_, ?_, ?_, ?_, ?_, ?_, ?_⟩
  · show A.Stores 20000 f'.dyn.model.drag.val f.dyn.model.drag
    rw [a3, A3]; exact l1 _ (by norm_num [abs_div])
  · show ∀ i j, A.Stores 20000 (f'.dyn.model.aero i j).val (f.dyn.model.aero i j)
    rw [a4, A4]; exact stores_diag h20 (v3 _ _ _ (by norm_num [abs_div]) (by norm_num [abs_div]) (by norm_num [abs_div]))
  · have := l1 0 (by norm_num)
    rwa [lit_zero] at this
  · rw [a6, A6]; exact sm
  · rw [a7, A7]; exact sg
  · rw [a8, A8]; exact stores_diag h20 (v3 _ _ _ (by norm_num) (by norm_num) (by norm_num))
  · rw [a9, A9]; exact sJ
  · exact sP.limited (by norm_num) hmul fun i => by rw [B6, B7]; fin_cases i <;> norm_num [flt]
  · exact sV.limited (by norm_num) hmul fun i => by rw [C6, C7]; fin_cases i <;> norm_num [flt]
  · exact sR.unlimited h20 fun i => by rw [D6, D7]; fin_cases i <;> norm_num [flt]

end

/-- **C151, the shipped file.** The quadrotor of the shipped file, without the process noise and with all its numbers read in
rounded arithmetic, is attracted to hover at any requested position with any requested heading: from within `b` of hover,
with freshly constructed controllers, it is within `C (q^n b + u)` after `n` cycles.  The constants are the same for all
arithmetics whose sine, cosine and inverse of the mixer are accurate up to `κ` times the unit roundoff `u`. -/
theorem C151_shipped (κ psi : ℝ) (target : Vec 3 ℝ) :
    ∃ B : Mat 4 4 ℝ, docQuadX (191 / 100000000) (26 / 100000000) (8 / 100) (8 / 100) * B = 1 ∧
    ∃ r > 0, ∃ C ≥ 0, ∃ q, 0 ≤ q ∧ q < 1 ∧ ∀ (A : Rounding) [Noise (Fl A)], A.Accurate κ → A.u < r →
      getSimTime (some (shipped : Config (Fl A))) = (lit 60, lit (1 / 1000)) ∧
      ∃ p : SimParams (Fl A) 4, getParams false (some shipped) = some (lit 0, p) ∧
      ∃ ms, p.dyn.model.motors = List.ofFn ms ∧ ((∀ j i, |(p.ctl.indi.mixerInv j (Fin.natAdd 2 i)).val - B j i| ≤ κ * A.u) →
        ∀ (s : Sim (Fl A) 4) (b : ℝ), s.dyn.model.core = some (Model.coreOf { p.dyn.model with forceNoise := lit 0 } ms) →
        s.ctl = Ctl.mk' p.ctl → s.armed = true → s.mode = .position → s.yawMode = .angle →
        |s.refYaw.val - psi| ≤ κ * A.u → (∀ i, |(s.refPos i).val - target i| ≤ κ * A.u) →
        s.floorEnable = false → s.extForce = vzero → NearUnit s.dyn.state.ori →
        NearHover (valState s.dyn.state) psi target shippedSpeed b → b < r →
        ∀ n, ∃ t, Sim.Runs s (roundedCycles (lit (1 / 1000)) n) t ∧ NearUnit t.dyn.state.ori ∧
          NearHover (valState t.dyn.state) psi target shippedSpeed (C * (q ^ n * b + A.u))) := by
  obtain ⟨p, hp, ms, B, hms, H⟩ := shipped_ready
  obtain ⟨l, hl, his, hP, hV, hR, ht, hs, hroom, hin⟩ := H psi target
  have hp0 : getParams false (some shipped) = some (lit 0, p) := by rw [hp, lit_zero]
  obtain ⟨p2, hp2, hmot, A1, A2, -, -, A5, A6, A7, A8, A9, -⟩ := shipped_hold (α := ℝ)
  obtain rfl : p2 = p := by rw [hp0] at hp2; exact (Prod.mk.inj (Option.some.inj hp2)).2.symm
  have hmot' : Model.quadX (191 / 100000000) (26 / 100000000) (8 / 100) (8 / 100) 0 2200 (2 / 100) (662 / 100000000 : ℝ) =
      List.ofFn ms := by
    rw [← hms, hmot]
    simp [flt]
  set κ' : ℝ := max κ 20000 with hκ'
  have k1 : κ ≤ κ' := le_max_left _ _
  have k2 : (20000 : ℝ) ≤ κ' := le_max_right _ _
  obtain ⟨r, hr, C, hC, q, q0, q1, H⟩ := C151_settles { p2.dyn.model with forceNoise := 0 } ms l _ _ _ shippedSpeed κ'
    ⟨his 0, rfl⟩ hP hV hR ht hs hroom (by norm_num [hl, shippedLoop])
  have hB : docQuadX (191 / 100000000) (26 / 100000000) (8 / 100) (8 / 100) * B = 1 := by
    rw [← C28_quadX_documented _ _ _ _ _ _ _ _ _ hmot']
    have := ht.inverse
    rw [hl] at this
    exact this
  refine ⟨B, hB, min r (1 / 1000000), by positivity, C, hC, q, q0, q1, fun A _ ha hu => ⟨rfl, ?_⟩⟩
  rw [lt_min_iff] at hu
  have hA : ∀ {x : ℝ}, x ≤ κ * A.u → x ≤ κ' * A.u := fun h => h.trans (mul_le_mul_of_nonneg_right k1 A.u_nonneg)
  obtain ⟨p', hp', hmot'', -⟩ := shipped_hold (α := Fl A)
  have hms' : ∃ ms' : Fin 4 → Motor (Fl A), p'.dyn.model.motors = List.ofFn ms' := by
    rw [hmot'']
    exact ⟨(Model.quadX _ _ _ _ _ _ _ _).get, (List.ofFn_get _).symm⟩
  obtain ⟨ms', hms'⟩ := hms'
  refine ⟨p', hp', ms', hms', fun hinv s b i1 i2 i3 i4 i5 i6 i7 i8 i9 i10 hnear hb n => ?_⟩
  obtain ⟨e1, e2, e3, e4, e5, e6, e7, e8⟩ := shipped_stored hp' hp0 hu.2.le
  have mS : ∀ {a : Pid ℝ 3} {c : Pid (Fl A) 3}, Stored 20000 c a → Stored κ' c a := fun h =>
    ⟨fun i j => Stores.mono (h.kp i j) k2, fun i j => Stores.mono (h.ki i j) k2, fun i j => Stores.mono (h.kd i j) k2,
      fun i => Stores.mono (h.antiwindup i) k2, fun i => Stores.mono (h.alpha i) k2, fun i => Stores.mono (h.upper i) k2,
      fun i => Stores.mono (h.lower i) k2, h.resetIntegral, h.satFlag, h.propSat⟩
  have hrot : Model.motorFn 4 p2.dyn.model.motors = some ms := by rw [hms]; exact motorFn_ofFn ms
  have g1 : p2.ctl.acro.mass = l.mass := by rw [A6, A1]; simp [hl, shippedLoop, flt]
  have g2 : p2.ctl.acro.gravity = ![0, 0, -l.g] := by rw [A7, A2]; norm_num [hl, shippedLoop, flt]
  have g3 : p2.ctl.acro.kpRot = Matrix.diagonal l.kr := by rw [A8, mdiag_real]; simp [hl, shippedLoop, flt]
  have g4 : p2.ctl.indi.inertia = Matrix.diagonal l.inertia := by rw [A9, A5, mdiag_real]; simp [hl, shippedLoop, flt]
  have hold : RHold κ' s { p2.dyn.model with forceNoise := 0 } ms l (Pid.mk' p2.ctl.pos) (Pid.mk' p2.ctl.vel)
      (Pid.mk' p2.ctl.indi.pid) :=
    { runs := by
        refine ⟨_, ms', i1, ?_, ?_, fun j => ?_⟩
        · show Model.motorFn 4 p'.dyn.model.motors = some ms'
          rw [hms']; exact motorFn_ofFn ms'
        · exact ⟨Stores.mono e1.mass k2, fun i j => Stores.mono (e1.inertia i j) k2, Stores.mono e1.drag k2,
            fun i j => Stores.mono (e1.aero i j) k2, fun i => Stores.mono (e1.gravity i) k2, Stores.mono e1.forceNoise k2⟩
        · have h := shipped_rotors hp' hp0 hms' hms j
          exact ⟨h.dir, Stores.mono h.kf k2, Stores.mono h.kt k2, fun a b => Stores.mono (h.rot a b) k2,
            fun a => Stores.mono (h.pos a) k2, Stores.mono h.minSpeed k2, Stores.mono h.maxSpeed k2, Stores.mono h.tau k2,
            Stores.mono h.inertia k2⟩
      rotors := hrot
      armed := i3
      mode := i4
      yawMode := i5
      heading := by
        have : l.psi = psi := by rw [hl]; rfl
        rw [this]
        exact ⟨(Real.abs_cos_sub_cos_le _ _).trans (hA i6), (Real.abs_sin_sub_sin_le _ _).trans (hA i6)⟩
      request := fun i => by
        have : l.target = target := by rw [hl]; rfl
        rw [this]; exact hA (i7 i)
      floor := i8
      extForce := by rw [i9]; exact funext fun j => lit_zero_val
      knowsMass := by rw [i2, ← g1]; exact Stores.mono e2 k2
      knowsGravity := by rw [i2, ← g2]; exact fun i => Stores.mono (e3 i) k2
      gain := by rw [i2, ← g3]; exact fun i j => Stores.mono (e4 i j) k2
      knowsInertia := by rw [i2, ← g4]; exact fun i j => Stores.mono (e5 i j) k2
      knowsRotors := by
        have : l.alloc = B := by rw [hl]; rfl
        rw [i2, this]; exact fun j i => hA (hinv j i)
      posConfig := by rw [i2]; exact mS e6
      velConfig := by rw [i2]; exact mS e7
      rateConfig := by rw [i2]; exact mS e8 }
  have hdt : |(lit (1 / 1000) : Fl A).val - l.dt| ≤ κ' * A.u := by
    have h := (stores_lit (A := A) (κ := 20000) (q := 1 / 1000) (by norm_num [abs_div])).1
    have e : (lit (1 / 1000) : ℝ) = l.dt := by norm_num [hl, shippedLoop, flt]
    rw [e] at h
    exact h.trans (mul_le_mul_of_nonneg_right k2 A.u_nonneg)
  obtain ⟨t, t1, -, t3, t4⟩ := H A s b (lit (1 / 1000)) (Accurate.mono ha k1) hdt hold i10 (by rw [i2]; rfl) (by rw [i2]; rfl)
    (by rw [i2]; rfl) (by rw [hl]; exact hnear) (hb.trans_le (min_le_left _ _)) hu.1 n
  rw [hl] at t4
  exact ⟨t, t1, t3, t4⟩

/-- Rounding to nearest with `n` digits and a mixer inverse of `B`. -/
noncomputable def digits (n : ℕ) (B : Mat 4 4 ℝ) : Rounding := { binary n with finv4 := fun _ => B }

/-- The shipped quadrotor off the target by `b` in every direction, moving and turning. -/
noncomputable def roundedDrift {A : Rounding} [Noise (Fl A)] (p : SimParams (Fl A) 4) (ms : Fin 4 → Motor (Fl A)) (psi : ℝ) (target : Vec 3 ℝ)
    (b : ℝ) : Sim (Fl A) 4 :=
  { dyn := builtFrom { p.dyn.model with forceNoise := lit 0 } ms p.dyn.seed
      { (State.default : State (Fl A) 4) with
        pos := fun i => ⟨target i + b⟩
        vel := fun _ => ⟨b⟩
        ori := ⟨⟨Real.cos (psi / 2)⟩, ⟨0⟩, ⟨0⟩, ⟨Real.sin (psi / 2)⟩⟩
        angVel := fun _ => ⟨b⟩
        motVel := fun _ => ⟨shippedSpeed + b⟩ }
    ctl := Ctl.mk' p.ctl
    imu := Imu.mk' p.imu
    odom := Odom.reset
      { alpha := lit 1, initOri := Quat.identity, gyroF := vzero, accelF := vzero, pos := vzero
        ori := Quat.identity, vel := vzero, angVel := vzero, acc := vzero }
    armed := true
    floorEnable := false
    floorCollision := false
    floorHeight := lit 0
    refMot := vzero
    refThrust := lit 0
    refAngVel := vzero
    refPos := fun i => ⟨target i⟩
    refVel := vzero
    refAcc := vzero
    refYaw := ⟨psi⟩
    refYawRate := lit 0
    actuation := vzero
    extForce := vzero
    mode := .position
    yawMode := .angle }

/-- Non-vacuity of `C151_shipped`, and thereby of `C151_attracts` and `C151_settles`: arithmetics with finitely many digits and
moving vehicles satisfy the hypotheses. -/
example (κ psi : ℝ) (hκ : 0 ≤ κ) (target : Vec 3 ℝ) (B : Mat 4 4 ℝ) (r : ℝ) (hr : 0 < r) :
    ∃ A : Rounding, 0 < A.u ∧ A.u < r ∧ A.Accurate κ ∧ ∃ (p : SimParams (Fl A) 4) (ms : Fin 4 → Motor (Fl A)),
      getParams false (some shipped) = some (lit 0, p) ∧ p.dyn.model.motors = List.ofFn ms ∧
      (∀ j i, |(p.ctl.indi.mixerInv j (Fin.natAdd 2 i)).val - B j i| ≤ κ * A.u) ∧ ∀ _ : Noise (Fl A), ∃ (s : Sim (Fl A) 4) (b : ℝ), 0 < b ∧ b < r ∧
      s.dyn.model.core = some (Model.coreOf { p.dyn.model with forceNoise := lit 0 } ms) ∧ s.ctl = Ctl.mk' p.ctl ∧
      s.armed = true ∧ s.mode = .position ∧ s.yawMode = .angle ∧ |s.refYaw.val - psi| ≤ κ * A.u ∧
      (∀ i, |(s.refPos i).val - target i| ≤ κ * A.u) ∧ s.floorEnable = false ∧ s.extForce = vzero ∧ NearUnit s.dyn.state.ori ∧
      NearHover (valState s.dyn.state) psi target shippedSpeed b ∧ (∀ i, (s.dyn.state.vel i).val ≠ 0) ∧
      ∀ i, (s.dyn.state.pos i).val ≠ target i := by
  obtain ⟨n, hn⟩ := exists_pow_lt_of_lt_one hr (show (1 / 2 : ℝ) < 1 by norm_num)
  have hu : (digits n B).u = (1 / 2) ^ n := rfl
  have hu0 : 0 < (digits n B).u := by rw [hu]; positivity
  have hk : 0 ≤ κ * (digits n B).u := by positivity
  obtain ⟨p, hp, hmot, -, -, -, -, -, -, -, -, -, k5, -⟩ := shipped_hold (α := Fl (digits n B))
  have hms' : ∃ ms : Fin 4 → Motor (Fl (digits n B)), p.dyn.model.motors = List.ofFn ms := by
    rw [hmot]
    exact ⟨(Model.quadX _ _ _ _ _ _ _ _).get, (List.ofFn_get _).symm⟩
  obtain ⟨ms, hms⟩ := hms'
  refine ⟨digits n B, hu0, hn, ⟨fun y => ?_, fun y => ?_⟩, p, ms, hp, hms, fun j i => ?_, fun _ =>
    ⟨roundedDrift p ms psi target (r / 2), r / 2, by linarith, by linarith, rfl, rfl, rfl, rfl, rfl, ?_, fun i => ?_, rfl, rfl, ?_,
    ⟨fun i => ?_, fun i => ?_, ⟨⟨1, 0, 0, 0⟩, ?_, ?_, ?_, ?_, ?_⟩, fun i => ?_, fun j => ?_⟩, fun i => ?_, fun i => ?_⟩⟩
  · show |Real.sin y - Real.sin y| ≤ _
    simpa using hk
  · show |Real.cos y - Real.cos y| ≤ _
    simpa using hk
  · have e : (p.ctl.indi.mixerInv j (Fin.natAdd 2 i)).val = B j i := by
      unfold allocation at k5
      rw [hms, motorFn_ofFn] at k5
      rw [← Option.some.inj k5]
      match i with
      | 0 => rfl
      | 1 => rfl
      | 2 => rfl
      | 3 => rfl
    rw [e]; simpa using hk
  · simpa [roundedDrift] using hk
  · simpa [roundedDrift] using hk
  · have := Real.cos_sq_add_sin_sq (psi / 2)
    simp only [NearUnit, lengthSq, roundedDrift, builtFrom]
    rw [show Real.cos (psi / 2) ^ 2 + 0 ^ 2 + 0 ^ 2 + Real.sin (psi / 2) ^ 2 - 1 = 0 by linarith, abs_zero]
    positivity
  · simp [roundedDrift, builtFrom, valState, valV, abs_of_pos (half_pos hr)]
  · simp [roundedDrift, builtFrom, valState, valV, abs_of_pos (half_pos hr)]
  · rw [isTurned_iff]
    simp [roundedDrift, builtFrom, valState, valQ]
  · simp; linarith
  · simp; linarith
  · simp; linarith
  · simp; linarith
  · simp [roundedDrift, builtFrom, valState, valV, abs_of_pos (half_pos hr)]
  · simp [roundedDrift, builtFrom, valState, valV, abs_of_pos (half_pos hr)]
  · simp [roundedDrift, builtFrom, hr.ne']
  · simp [roundedDrift, builtFrom, hr.ne']

end Verif.Props
