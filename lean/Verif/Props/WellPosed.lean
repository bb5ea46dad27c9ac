import Verif.Lemmas.Ode
import Verif.Props.Converge
import Verif.Props.RoundedConverge

/-!
# C140: every vehicle and every start determine exactly one motion, for all time

With it the solution that C95 and C102 speak of is no longer a hypothesis: every simulated flight without noise has the
motion it converges to.
-/

namespace Verif.Props

open Verif Flt Spec

/-- A vehicle of positive mass, with a symmetric positive definite inertia, whose air resistance takes energy out, and
whose rotors have positive time constants. -/
structure Physical {n : ℕ} (p : ModelParams ℝ) (ms : Fin n → Motor ℝ) : Prop where
  mass : 0 < p.mass
  symm : ∀ u v, u ⬝ᵥ p.inertia.mulVec v = v ⬝ᵥ p.inertia.mulVec u
  inertia : ∀ v, v ≠ 0 → 0 < v ⬝ᵥ p.inertia.mulVec v
  drag : 0 ≤ p.drag
  aero : ∀ v, 0 ≤ v ⬝ᵥ p.aero.mulVec v
  tau : ∀ i, 0 < (ms i).tau

section
variable {n : ℕ}

lemma Physical.regular {p : ModelParams ℝ} {ms : Fin n → Motor ℝ} (h : Physical p ms) : Regular p ms := by
  refine ⟨h.mass.ne', fun hdet => ?_, fun i => (h.tau i).ne'⟩
  obtain ⟨v, hv, hz⟩ := Matrix.exists_mulVec_eq_zero_iff.2 hdet
  have := h.inertia v hv
  rw [hz, dotProduct_zero] at this
  exact lt_irrefl _ this

/-- The inertia dominates a multiple of the square of the largest component. -/
lemma Physical.coercive {p : ModelParams ℝ} {ms : Fin n → Motor ℝ} (h : Physical p ms) :
    ∃ m, 0 < m ∧ ∀ v : Vec 3 ℝ, m * ‖v‖ ^ 2 ≤ v ⬝ᵥ p.inertia.mulVec v := by
  have hc : Continuous fun v : Vec 3 ℝ => v ⬝ᵥ p.inertia.mulVec v := by
    simp only [dotProduct, Matrix.mulVec, Fin.sum_univ_three]
    fun_prop
  obtain ⟨w, hw, hmin⟩ := (isCompact_sphere (0 : Vec 3 ℝ) 1).exists_isMinOn
    ⟨fun _ => 1, by simp⟩ hc.continuousOn
  have hw0 : w ≠ 0 := by
    rintro rfl
    simp at hw
  refine ⟨_, h.inertia w hw0, fun v => ?_⟩
  rcases eq_or_ne v 0 with rfl | hv
  · simp
  · have hn : 0 < ‖v‖ := norm_pos_iff.2 hv
    have hmem : ‖v‖⁻¹ • v ∈ Metric.sphere (0 : Vec 3 ℝ) 1 := by
      rw [mem_sphere_zero_iff_norm, norm_smul, norm_inv, norm_norm, inv_mul_cancel₀ hn.ne']
    have h1 : w ⬝ᵥ p.inertia.mulVec w ≤ (‖v‖⁻¹ • v) ⬝ᵥ p.inertia.mulVec (‖v‖⁻¹ • v) := hmin hmem
    rw [Matrix.mulVec_smul, dotProduct_smul, smul_dotProduct, smul_eq_mul, smul_eq_mul] at h1
    have h2 := mul_le_mul_of_nonneg_right h1 (sq_nonneg ‖v‖)
    refine h2.trans_eq ?_
    field_simp

/-- The torque of the rotors is bounded while their speeds are. -/
lemma rotor_torque_bounded (ms : Fin n → Motor ℝ) (act : Vec n ℝ) (R : ℝ) (hR : 0 ≤ R) :
    ∃ K, 0 ≤ K ∧ ∀ s : State ℝ n, (∀ i, |s.motVel i| ≤ R) → ∀ r,
      |(∑ i, rotorTorque (ms i) (s.motVel i) (rotAcc ms act s i)) r| ≤ K := by
  have hb : ∀ r : Fin 3, BL fun a : Coord n → ℝ =>
      (∑ i, rotorTorque (ms i) ((dec a).motVel i) (rotAcc ms act (dec a) i)) r := by
    intro r
    simp only [Finset.sum_apply]
    refine .sum _ fun j => ?_
    simp only [rotorTorque, Pi.add_apply]
    have hc := bl_cross (F := fun _ : Coord n → ℝ => (ms j).pos) (fun r => .const _) (bl_force ms j) r
    refine (hc.add (bl_mulVec (ms j).rot (F := fun a => ![0, 0, (ms j).dir * (ms j).kt *
      ((dec a).motVel j * |(dec a).motVel j|)]) (fun r => ?_) r)).add (bl_mulVec (ms j).rot (F := fun a =>
      ![0, 0, (ms j).dir * (ms j).inertia * rotAcc ms act (dec a) j]) (fun r => ?_) r)
    · fin_cases r
      · exact .const 0
      · exact .const 0
      · exact (BL.const _).mul ((bl_mot j).mul (bl_mot j).abs)
    · fin_cases r
      · exact .const 0
      · exact .const 0
      · exact (BL.const _).mul (bl_rotAcc ms act j)
  choose K hK0 hK using fun r => (hb r).bdd R
  refine ⟨∑ r, K r, Finset.sum_nonneg fun r _ => hK0 r, fun s hs r => ?_⟩
  have h1 := hK r (fun | .inr (.inr (.inr (.inr i))) => s.motVel i | _ => 0) (by
    rw [pi_norm_le_iff_of_nonneg hR]
    rintro (i | i | i | i | i)
    · simpa using hR
    · simpa using hR
    · simpa using hR
    · simpa using hR
    · exact hs i)
  exact le_trans h1 (Finset.single_le_sum (f := K) (fun r _ => hK0 r) (Finset.mem_univ r))

/-- The thrust is bounded while the rotor speeds are. -/
lemma rotor_thrust_bounded (ms : Fin n → Motor ℝ) (R : ℝ) (hR : 1 ≤ R) :
    ∃ K, 0 ≤ K ∧ ∀ s : State ℝ n, (∀ i, |s.motVel i| ≤ R) → s.ori.n2 = 1 → ∀ r,
      |s.ori.rotate (∑ i, rotorForce (ms i) (s.motVel i)) r| ≤ K := by
  choose K hK0 hK using fun r => (bl_rotate (n := n) (bl_thrust ms) r).bdd R
  have hR0 : 0 ≤ R := by linarith
  refine ⟨∑ r, K r, Finset.sum_nonneg fun r _ => hK0 r, fun s hs hq r => ?_⟩
  have h1 := hK r (fun
    | .inr (.inr (.inr (.inr i))) => s.motVel i
    | .inr (.inr (.inl i)) => ![s.ori.w, s.ori.x, s.ori.y, s.ori.z] i
    | _ => 0) (by
    rw [pi_norm_le_iff_of_nonneg hR0]
    rintro (i | i | i | i | i)
    · simpa using hR0
    · simpa using hR0
    · have h : ∀ c : ℝ, c ^ 2 ≤ 1 → ‖c‖ ≤ R := fun c hc => by
        rw [Real.norm_eq_abs]
        exact (abs_le_one_iff_mul_self_le_one.2 (by nlinarith)).trans hR
      unfold Quat.n2 at hq
      fin_cases i
      · exact h s.ori.w (by nlinarith [sq_nonneg s.ori.x, sq_nonneg s.ori.y, sq_nonneg s.ori.z])
      · exact h s.ori.x (by nlinarith [sq_nonneg s.ori.w, sq_nonneg s.ori.y, sq_nonneg s.ori.z])
      · exact h s.ori.y (by nlinarith [sq_nonneg s.ori.w, sq_nonneg s.ori.x, sq_nonneg s.ori.z])
      · exact h s.ori.z (by nlinarith [sq_nonneg s.ori.w, sq_nonneg s.ori.x, sq_nonneg s.ori.y])
    · simpa using hR0
    · exact hs i)
  exact le_trans h1 (Finset.single_le_sum (f := K) (fun r _ => hK0 r) (Finset.mem_univ r))

/-! ## Bounds known in advance -/

section
variable {p : ModelParams ℝ} {ms : Fin n → Motor ℝ} {act : Vec n ℝ} {ext : Vec 3 ℝ} {T : ℝ} {a : Coord n → ℝ}

lemma motors_bounded (hp : Physical p ms) (a : Coord n → ℝ) :
    ∃ B, 1 ≤ B ∧ ∀ S, 0 ≤ S → S ≤ T → ∀ y, y 0 = a → Solves (rhs p ms act ext) S y →
      ∀ i, |(dec (y S)).motVel i| ≤ B := by
  have key : ∀ i, ∃ B, 0 ≤ B ∧ ∀ S, 0 ≤ S → S ≤ T → ∀ y, y 0 = a → Solves (rhs p ms act ext) S y →
      |(dec (y S)).motVel i| ≤ B := by
    intro i
    set c := saturate (ms i).minSpeed (ms i).maxSpeed (act i) with hc
    have ht := hp.tau i
    refine ⟨1 + (1 + a (.inr (.inr (.inr (.inr i)))) ^ 2) * Real.exp ((1 + c ^ 2) / (ms i).tau * T), by positivity,
      fun S hS hST y hy0 hy => ?_⟩
    · have := grow_sq (u := fun t => y t (.inr (.inr (.inr (.inr i))))) (K := (1 + c ^ 2) / (ms i).tau) (by positivity) hS
        hST (fun t ht => hy t ht _) (fun t _ => ?_)
      · simp only [hy0] at this
        exact this
      · simp only [rhs, rotAcc, dec]
        rw [← hc]
        set w := y t (.inr (.inr (.inr (.inr i))))
        rw [show 2 * (w * ((c - w) / (ms i).tau)) = (2 * w * (c - w)) / (ms i).tau by ring,
          div_mul_eq_mul_div, div_le_div_iff_of_pos_right ht]
        nlinarith [sq_nonneg (w - c), sq_nonneg (w * c), sq_nonneg w]
  choose B hB0 hB using key
  refine ⟨1 + ∑ i, B i, by linarith [Finset.sum_nonneg fun i (_ : i ∈ Finset.univ) => hB0 i],
    fun S hS hST y hy0 hy i => (hB i S hS hST y hy0 hy).trans ?_⟩
  have := Finset.single_le_sum (f := B) (fun i _ => hB0 i) (Finset.mem_univ i)
  linarith

lemma n2_constant {S : ℝ} {y : ℝ → Coord n → ℝ} (hy : Solves (rhs p ms act ext) S y) :
    ∀ t ∈ Set.Icc 0 S, (dec (y t)).ori.n2 = (dec (y 0)).ori.n2 := by
  refine constant_of_deriv (g := fun t => (dec (y t)).ori.n2) fun t ht => ?_
  have h := fun i => (hy t ht (.inr (.inr (.inl i)))).pow 2
  have := (((h 0).add (h 1)).add (h 2)).add (h 3)
  simp only [Quat.n2, dec]
  refine this.congr_deriv ?_ |>.congr ?_ ?_
  · simp [rhs, oriRate, dec]
    ring
  · intro r _
    simp
  · simp


lemma vel_bounded (hp : Physical p ms) (ha : (dec a).ori.n2 = 1) :
    ∃ B, 0 ≤ B ∧ ∀ S, 0 ≤ S → S ≤ T → ∀ y, y 0 = a → Solves (rhs p ms act ext) S y →
      ∀ i, |(dec (y S)).vel i| ≤ B := by
  obtain ⟨R, hR, hmot⟩ := motors_bounded (act := act) (ext := ext) (T := T) hp a
  obtain ⟨K, hK, hthr⟩ := rotor_thrust_bounded ms R hR
  have hm := hp.mass
  have key : ∀ i, ∃ B, 0 ≤ B ∧ ∀ S, 0 ≤ S → S ≤ T → ∀ y, y 0 = a → Solves (rhs p ms act ext) S y →
      |(dec (y S)).vel i| ≤ B := by
    intro i
    set G := K + |p.gravity i| + |ext i| with hG
    refine ⟨1 + (1 + a (.inr (.inl i)) ^ 2) * Real.exp (p.mass⁻¹ * (1 + G ^ 2) * T), by positivity,
      fun S hS hST y hy0 hy => ?_⟩
    have := grow_sq (u := fun t => y t (.inr (.inl i))) (K := p.mass⁻¹ * (1 + G ^ 2)) (by positivity) hS
        hST (fun t ht => hy t ht _) (fun t ht => ?_)
    · simp only [hy0] at this
      exact this
    · have hq : (dec (y t)).ori.n2 = 1 := by rw [n2_constant hy t ht, hy0, ha]
      have hF := hthr (dec (y t)) (hmot t ht.1 (ht.2.trans hST) y hy0 (hy.mono ht.2)) hq i
      simp only [rhs, linAcc, Pi.smul_apply, Pi.add_apply, smul_eq_mul]
      set F := (dec (y t)).ori.rotate (∑ i, rotorForce (ms i) ((dec (y t)).motVel i)) i
      rw [show (dec (y t)).vel i = y t (.inr (.inl i)) from rfl]
      set v := y t (.inr (.inl i))
      have hw : |F + p.gravity i + ext i| ≤ G := (abs_add_le _ _).trans (by
        have := abs_add_le F (p.gravity i)
        linarith)
      have hw2 : (F + p.gravity i + ext i) ^ 2 ≤ G ^ 2 := sq_le_sq' (by linarith [(abs_le.1 hw).1]) (abs_le.1 hw).2
      have hd : 0 ≤ p.drag * (v * v * |v|) := mul_nonneg hp.drag (mul_nonneg (mul_self_nonneg v) (abs_nonneg v))
      have hmi : 0 < p.mass⁻¹ := inv_pos.2 hm
      rw [show 2 * (v * (p.mass⁻¹ * (F + p.gravity i + -p.drag * (v * |v|) + ext i))) =
        p.mass⁻¹ * (2 * v * (F + p.gravity i + ext i) - 2 * (p.drag * (v * v * |v|))) by ring, mul_assoc p.mass⁻¹]
      refine mul_le_mul_of_nonneg_left ?_ hmi.le
      nlinarith [sq_nonneg (v - (F + p.gravity i + ext i)), sq_nonneg (v * G), sq_nonneg v]
  choose B hB0 hB using key
  exact ⟨∑ i, B i, Finset.sum_nonneg fun i _ => hB0 i, fun S hS hST y hy0 hy i =>
    (hB i S hS hST y hy0 hy).trans (Finset.single_le_sum (f := B) (fun i _ => hB0 i) (Finset.mem_univ i))⟩

lemma pos_bounded (hp : Physical p ms) (ha : (dec a).ori.n2 = 1) :
    ∃ B, 0 ≤ B ∧ ∀ S, 0 ≤ S → S ≤ T → ∀ y, y 0 = a → Solves (rhs p ms act ext) S y →
      ∀ i, |(dec (y S)).pos i| ≤ B := by
  obtain ⟨V, hV, hvel⟩ := vel_bounded (act := act) (ext := ext) (T := T) hp ha
  have key : ∀ i, ∃ B, 0 ≤ B ∧ ∀ S, 0 ≤ S → S ≤ T → ∀ y, y 0 = a → Solves (rhs p ms act ext) S y →
      |(dec (y S)).pos i| ≤ B := by
    intro i
    refine ⟨1 + (1 + a (.inl i) ^ 2) * Real.exp ((1 + V ^ 2) * T), by positivity, fun S hS hST y hy0 hy => ?_⟩
    have := grow_sq (u := fun t => y t (.inl i)) (K := 1 + V ^ 2) (by positivity) hS
        hST (fun t ht => hy t ht _) (fun t ht => ?_)
    · simp only [hy0] at this
      exact this
    · have hv := hvel t ht.1 (ht.2.trans hST) y hy0 (hy.mono ht.2) i
      have hw2 : (dec (y t)).vel i ^ 2 ≤ V ^ 2 := sq_le_sq' (by linarith [(abs_le.1 hv).1]) (abs_le.1 hv).2
      simp only [rhs]
      nlinarith [sq_nonneg (y t (.inl i) - (dec (y t)).vel i), sq_nonneg (y t (.inl i) * V), sq_nonneg (y t (.inl i))]
  choose B hB0 hB using key
  exact ⟨∑ i, B i, Finset.sum_nonneg fun i _ => hB0 i, fun S hS hST y hy0 hy i =>
    (hB i S hS hST y hy0 hy).trans (Finset.single_le_sum (f := B) (fun i _ => hB0 i) (Finset.mem_univ i))⟩

lemma angVel_bounded (hp : Physical p ms) (a : Coord n → ℝ) :
    ∃ B, 0 ≤ B ∧ ∀ S, 0 ≤ S → S ≤ T → ∀ y, y 0 = a → Solves (rhs p ms act ext) S y →
      ∀ i, |(dec (y S)).angVel i| ≤ B := by
  obtain ⟨R, hR, hmot⟩ := motors_bounded (act := act) (ext := ext) (T := T) hp a
  obtain ⟨K, hK, htor⟩ := rotor_torque_bounded ms act R (by linarith)
  obtain ⟨m, hm, hco⟩ := hp.coercive
  obtain ⟨-, hJ, -⟩ := hp.regular
  set E : (Coord n → ℝ) → ℝ := fun b => (dec b).angVel ⬝ᵥ p.inertia.mulVec (dec b).angVel with hE
  set C := 3 / m + 3 * K ^ 2 with hC
  have hC0 : 0 ≤ C := by positivity
  have hE0 : ∀ b, 0 ≤ E b := fun b => (by positivity : 0 ≤ m * ‖(dec b).angVel‖ ^ 2).trans (hco _)
  have hEa := hE0 a
  have main : ∀ S, 0 ≤ S → S ≤ T → ∀ y, y 0 = a → Solves (rhs p ms act ext) S y →
      E (y S) ≤ (1 + E a) * Real.exp (C * T) := by
    intro S hS hST y hy0 hy
    have h1 := grow_le (g := fun t => E (y t)) (K := C)
      (g' := fun t => 2 * ((dec (y t)).angVel ⬝ᵥ torqueOf p ms (dec (y t)) (rotAcc ms act (dec (y t))))) hS
      (fun t ht => ?_) (fun t ht => ?_)
    · rw [hy0] at h1
      refine h1.trans (mul_le_mul_of_nonneg_left (Real.exp_le_exp.2 (mul_le_mul_of_nonneg_left hST hC0)) (by linarith))
    · set b := angularAcc p ms act (dec (y t)) with hb
      have hJb : p.inertia.mulVec b = torqueOf p ms (dec (y t)) (rotAcc ms act (dec (y t))) := by
        rw [hb, angularAcc, Matrix.mulVec_mulVec, Matrix.mul_nonsing_inv _ (isUnit_iff_ne_zero.2 hJ), Matrix.one_mulVec]
      rw [← hJb]
      have hd : ∀ i, HasDerivWithinAt (fun r => (dec (y r)).angVel i) (b i) (Set.Icc 0 S) t := fun i =>
        hy t ht (.inr (.inr (.inr (.inl i))))
      have hmv : ∀ i, HasDerivWithinAt (fun r => p.inertia.mulVec (dec (y r)).angVel i) (p.inertia.mulVec b i)
          (Set.Icc 0 S) t := by
        intro i
        simp only [Matrix.mulVec, dotProduct, Fin.sum_univ_three]
        exact (((hd 0).const_mul _).add ((hd 1).const_mul _)).add ((hd 2).const_mul _)
      have hsum : HasDerivWithinAt (fun r => E (y r)) (b ⬝ᵥ p.inertia.mulVec (dec (y t)).angVel +
          (dec (y t)).angVel ⬝ᵥ p.inertia.mulVec b) (Set.Icc 0 S) t := by
        have := (((hd 0).mul (hmv 0)).add ((hd 1).mul (hmv 1))).add ((hd 2).mul (hmv 2))
        simp only [hE, dotProduct, Fin.sum_univ_three]
        refine this.congr_deriv ?_
        ring
      refine hsum.congr_deriv ?_
      rw [hp.symm b]
      ring
    · have hM := htor (dec (y t)) (hmot t ht.1 (ht.2.trans hST) y hy0 (hy.mono ht.2))
      set om := (dec (y t)).angVel with hom
      set M := ∑ i, rotorTorque (ms i) ((dec (y t)).motVel i) (rotAcc ms act (dec (y t)) i) with hMd
      have e1 : om ⬝ᵥ torqueOf p ms (dec (y t)) (rotAcc ms act (dec (y t))) =
          om ⬝ᵥ M - √(om ⬝ᵥ om) * (om ⬝ᵥ p.aero.mulVec om) := by
        rw [torqueOf, dotProduct_sub, dotProduct_sub, dot_self_cross, dotProduct_smul, smul_eq_mul, sub_zero]
      rw [e1]
      have h2 : 0 ≤ √(om ⬝ᵥ om) * (om ⬝ᵥ p.aero.mulVec om) := mul_nonneg (Real.sqrt_nonneg _) (hp.aero om)
      have h3 : 2 * (om ⬝ᵥ M) ≤ 3 * ‖om‖ ^ 2 + 3 * K ^ 2 := by
        have h4 : ∀ i, 2 * (om i * M i) ≤ ‖om‖ ^ 2 + K ^ 2 := by
          intro i
          have a1 : om i ^ 2 ≤ ‖om‖ ^ 2 := sq_le_sq' (by linarith [(abs_le.1 (norm_le_pi_norm om i)).1])
            (abs_le.1 (norm_le_pi_norm om i)).2
          have a2 : M i ^ 2 ≤ K ^ 2 := sq_le_sq' (by linarith [(abs_le.1 (hM i)).1]) (abs_le.1 (hM i)).2
          nlinarith [sq_nonneg (om i - M i)]
        simp only [dotProduct, Fin.sum_univ_three]
        linarith [h4 0, h4 1, h4 2]
      have h5 : ‖om‖ ^ 2 ≤ E (y t) / m := by
        rw [le_div_iff₀ hm, mul_comm]
        exact hco om
      have h6 : 0 ≤ E (y t) / m := div_nonneg (hE0 _) hm.le
      have h7 : C * (1 + E (y t)) = 3 / m + 3 * K ^ 2 + 3 * (E (y t) / m) + 3 * K ^ 2 * E (y t) := by
        rw [hC]
        ring
      have h8 : 0 ≤ 3 * K ^ 2 * E (y t) := mul_nonneg (by positivity) (hE0 _)
      have h9 : 0 ≤ 3 / m := by positivity
      rw [h7]
      linarith
  refine ⟨1 + (1 + E a) * Real.exp (C * T) / m, by positivity, fun S hS hST y hy0 hy i => ?_⟩
  have h1 := main S hS hST y hy0 hy
  have h2 := hco (dec (y S)).angVel
  have h3 : ‖(dec (y S)).angVel‖ ^ 2 ≤ (1 + E a) * Real.exp (C * T) / m := by
    rw [le_div_iff₀ hm, mul_comm]
    exact h2.trans h1
  have h4 := norm_le_pi_norm (dec (y S)).angVel i
  rw [Real.norm_eq_abs] at h4
  nlinarith [sq_nonneg (‖(dec (y S)).angVel‖ - 1), norm_nonneg (dec (y S)).angVel]

/-- All coordinates are bounded. -/
lemma state_bounded (hp : Physical p ms) (ha : (dec a).ori.n2 = 1) :
    ∃ B, ∀ S, 0 ≤ S → S ≤ T → ∀ y, y 0 = a → Solves (rhs p ms act ext) S y → ‖y S‖ ≤ B := by
  obtain ⟨B1, h1, H1⟩ := pos_bounded (act := act) (ext := ext) (T := T) hp ha
  obtain ⟨B2, h2, H2⟩ := vel_bounded (act := act) (ext := ext) (T := T) hp ha
  obtain ⟨B3, h3, H3⟩ := angVel_bounded (act := act) (ext := ext) (T := T) hp a
  obtain ⟨B4, h4, H4⟩ := motors_bounded (act := act) (ext := ext) (T := T) hp a
  refine ⟨B1 + B2 + 1 + B3 + B4, fun S hS hST y hy0 hy => ?_⟩
  rw [pi_norm_le_iff_of_nonneg (by linarith)]
  rintro (i | i | i | i | i) <;> rw [Real.norm_eq_abs]
  · have : |y S (.inl i)| ≤ B1 := H1 S hS hST y hy0 hy i
    linarith
  · have : |y S (.inr (.inl i))| ≤ B2 := H2 S hS hST y hy0 hy i
    linarith
  · have hq : (dec (y S)).ori.n2 = 1 := by rw [n2_constant hy S ⟨hS, le_rfl⟩, hy0, ha]
    have : |y S (.inr (.inr (.inl i)))| ≤ 1 := by
      refine abs_le_one_iff_mul_self_le_one.2 ?_
      simp only [Quat.n2, dec] at hq
      fin_cases i <;> simp only [Fin.zero_eta, Fin.mk_one, Fin.reduceFinMk] <;>
        nlinarith [sq_nonneg (y S (.inr (.inr (.inl 0)))), sq_nonneg (y S (.inr (.inr (.inl 1)))),
          sq_nonneg (y S (.inr (.inr (.inl 2)))), sq_nonneg (y S (.inr (.inr (.inl 3))))]
    linarith
  · have : |y S (.inr (.inr (.inr (.inl i))))| ≤ B3 := H3 S hS hST y hy0 hy i
    linarith
  · have : |y S (.inr (.inr (.inr (.inr i))))| ≤ B4 := H4 S hS hST y hy0 hy i
    linarith

/-- A solution of the equation is a motion. -/
lemma rhs_motion (hp : Regular p ms) {y : ℝ → Coord n → ℝ} (h0 : (dec (y 0)).ori.n2 = 1)
    (hy : Solves (rhs p ms act ext) T y) : Motion p ms act ext T fun t => dec (y t) := by
  obtain ⟨hm, hJ, htau⟩ := hp
  have hunit : ∀ t ∈ Set.Icc 0 T, IsUnitQ (dec (y t)).ori := fun t ht => by
    rw [Quat.isUnitQ_iff, n2_constant hy t ht, h0]
  refine ⟨hunit, fun t ht i => hy t ht (.inl i), fun t ht => ?_, ?_, fun t ht => ?_⟩
  · refine ⟨linAcc p ms ext (dec (y t)), _, ⟨_, Quat.rotate_isRotated (hunit t ht) _, rfl⟩, ?_,
      fun i => hy t ht (.inr (.inl i))⟩
    rw [linAcc, smul_inv_smul₀ hm]
  · rintro t ht r rfl
    have h := fun i => hy t ht (.inr (.inr (.inl i)))
    refine ⟨(h 0).congr_deriv ?_, (h 1).congr_deriv ?_, (h 2).congr_deriv ?_, (h 3).congr_deriv ?_⟩ <;>
    · simp [rhs, oriRate]
      ring
  · refine ⟨angularAcc p ms act (dec (y t)), rotAcc ms act (dec (y t)), ?_,
      fun i => hy t ht (.inr (.inr (.inr (.inl i)))), fun i => ⟨?_, hy t ht (.inr (.inr (.inr (.inr i))))⟩⟩
    · rw [angularAcc, Matrix.mulVec_mulVec, Matrix.mul_nonsing_inv _ (isUnit_iff_ne_zero.2 hJ), Matrix.one_mulVec]
    · rw [rotAcc, mul_div_cancel₀ _ (htau i)]

end
end

/-! ## C140 -/

/-- **C140 (existence).** Every physical vehicle, from every state with a unit orientation and under every constant
command and external force, has a motion, for all time. -/
theorem C140_existence {n : ℕ} (p : ModelParams ℝ) (ms : Fin n → Motor ℝ) (act : Vec n ℝ) (ext : Vec 3 ℝ)
    (s : State ℝ n) (hp : Physical p ms) (hs : IsUnitQ s.ori) :
    ∃ x : ℝ → State ℝ n, SameMotion (x 0) s ∧ ∀ T, Motion p ms act ext T x := by
  have ha : (dec (enc s)).ori.n2 = 1 := (Quat.isUnitQ_iff _).1 hs
  obtain ⟨y, hy0, hy⟩ := solution_forever (bl_rhs p ms act ext) (enc s) fun T hT => by
    obtain ⟨B, hB⟩ := state_bounded (act := act) (ext := ext) (T := T) hp ha
    exact solution_exists (bl_rhs p ms act ext) hT (enc s) hB
  refine ⟨fun t => dec (y t), ?_, fun T => rhs_motion hp.regular (by rw [hy0]; exact ha) (hy T)⟩
  simp only
  rw [hy0]
  exact dec_enc s

/-- A tilted, fast and turning start with the rotors running. -/
noncomputable def tumbleStart : State ℝ 4 :=
  { State.default with
    vel := ![3, -4, 1]
    ori := ⟨3 / 5, 4 / 5, 0, 0⟩
    angVel := ![1, -2, 5]
    motVel := ![1, 2, 3, 4] }

lemma fixture_physical : Physical Fixture.modelParams Fixture.motors where
  mass := by norm_num [Fixture.modelParams]
  symm u v := by
    simp only [Fixture.modelParams, Matrix.one_mulVec]
    exact dotProduct_comm u v
  inertia v hv := by
    simp only [Fixture.modelParams, Matrix.one_mulVec]
    exact lt_of_le_of_ne (Finset.sum_nonneg fun i _ => mul_self_nonneg (v i)) fun h => hv (dotProduct_self_eq_zero.1 h.symm)
  drag := by norm_num [Fixture.modelParams]
  aero v := by
    simp only [Fixture.modelParams, Matrix.one_mulVec]
    exact Finset.sum_nonneg fun i _ => mul_self_nonneg (v i)
  tau i := by
    rw [(Fixture.motors_speed i).2.2]
    norm_num

lemma tumbleStart_unit : IsUnitQ tumbleStart.ori := by
  simp only [IsUnitQ, tumbleStart]
  norm_num

/-- Non-vacuity: the fixture, with drag and aerodynamic torque, is physical. -/
example : Physical Fixture.modelParams Fixture.motors ∧ IsUnitQ tumbleStart.ori ∧ tumbleStart.angVel ≠ 0 := by
  refine ⟨fixture_physical, tumbleStart_unit, ?_⟩
  · intro h
    have := congrFun h 0
    norm_num [tumbleStart] at this

/-- **C140 (uniqueness).** Two motions of the same vehicle under the same command and external force that start in the
same state agree at all times. -/
theorem C140_unique {n : ℕ} (p : ModelParams ℝ) (ms : Fin n → Motor ℝ) (act : Vec n ℝ) (ext : Vec 3 ℝ) (T : ℝ)
    (x x' : ℝ → State ℝ n) (hp : Regular p ms) (hx : Motion p ms act ext T x) (hx' : Motion p ms act ext T x')
    (h0 : SameMotion (x 0) (x' 0)) : ∀ t ∈ Set.Icc 0 T, SameMotion (x t) (x' t) := by
  intro t ht
  have h := solution_unique (bl_rhs p ms act ext) (y := fun t => enc (x t)) (z := fun t => enc (x' t))
    (motion_rhs hp hx) (motion_rhs hp hx') (by
      obtain ⟨s1, s2, s3, s4, s5⟩ := h0
      funext i
      rcases i with i | i | i | i | i <;> simp only [enc, s1, s2, s3, s4, s5]) ht
  simp only at h
  have a1 := dec_enc (x t)
  have a2 := dec_enc (x' t)
  rw [h] at a1
  exact ⟨a1.1.symm.trans a2.1, a1.2.1.symm.trans a2.2.1, a1.2.2.1.symm.trans a2.2.2.1,
    a1.2.2.2.1.symm.trans a2.2.2.2.1, a1.2.2.2.2.symm.trans a2.2.2.2.2⟩

lemma slick_physical : Physical slick Fixture.motors :=
  ⟨fixture_physical.mass, fixture_physical.symm, fixture_physical.inertia, by simp [slick],
    fun v => by simp [slick], fixture_physical.tau⟩

/-- Non-vacuity: the falling body of C95, and the motion of the same start found by the existence theorem. -/
example : ∃ x : ℝ → State ℝ 4, Regular slick Fixture.motors ∧ Motion slick Fixture.motors 0 0 3 falling ∧
    Motion slick Fixture.motors 0 0 3 x ∧ SameMotion (falling 0) (x 0) := by
  have hp := slick_physical
  obtain ⟨x, hx0, hx⟩ := C140_existence slick Fixture.motors 0 0 (falling 0) hp (by simp [IsUnitQ, falling])
  obtain ⟨r1, r2, r3, r4, r5⟩ := hx0
  exact ⟨x, hp.regular, falling_motion 3, hx 3, r1.symm, r2.symm, r3.symm, r4.symm, r5.symm⟩

/-- **C95 (every flight).** Every physical vehicle, from every state with a unit orientation and rotor speeds within their
limits, has a motion for all time to which its simulations without noise converge on every bounded time span, with the
order one. -/
theorem C95_every_flight [Noise ℝ] {n : ℕ} (p : ModelParams ℝ) (ms : Fin n → Motor ℝ) (act : Vec n ℝ) (ext : Vec 3 ℝ)
    (s : State ℝ n) (hp : Physical p ms) (hs : IsUnitQ s.ori)
    (hlim : ∀ i, (ms i).minSpeed ≤ s.motVel i ∧ s.motVel i ≤ (ms i).maxSpeed) :
    ∃ x : ℝ → State ℝ n, SameMotion (x 0) s ∧ ∀ T, 0 ≤ T → Motion p ms act ext T x ∧
      ∃ C h₀, 0 < C ∧ 0 < h₀ ∧ ∀ (h : ℝ) (d : ℕ → Dyn ℝ n), 0 < h → h ≤ h₀ → RunsOn (d 0) p ms →
        SameMotion (d 0).state s → (∀ k, (d k).process act h ext false = .ok (d (k + 1))) →
        ∀ k : ℕ, k * h ≤ T → Within (C * h) (d k).state (x (k * h)) := by
  obtain ⟨x, hx0, hx⟩ := C140_existence p ms act ext s hp hs
  refine ⟨x, hx0, fun T hT => ⟨hx T, ?_⟩⟩
  obtain ⟨C, h₀, hC, hh, main⟩ := C95_convergence p ms act ext T x hp.regular hp.tau hT (hx T)
    (fun i => by rw [hx0.2.2.2.2]; exact hlim i)
  refine ⟨C, h₀, hC, hh, fun h d h0 hle hr hsame hstep => main h d h0 hle hr ?_ hstep⟩
  obtain ⟨s1, s2, s3, s4, s5⟩ := hsame
  obtain ⟨r1, r2, r3, r4, r5⟩ := hx0
  exact ⟨s1.trans r1.symm, s2.trans r2.symm, s3.trans r3.symm, s4.trans r4.symm, s5.trans r5.symm⟩

/-- The tumbling fixture simulated with the period `h` under the command of five radians per second. -/
noncomputable def tumbles [Noise ℝ] (h : ℝ) : ℕ → Dyn ℝ 4
  | 0 => builtFrom Fixture.modelParams Fixture.motors 7 tumbleStart
  | k + 1 => Dyn.eulerStep Fixture.core Fixture.motors (tumbles h k) (fun _ => 5) h 0 false

/-- Non-vacuity: the tumbling start is within the limits and can be simulated with every small period. -/
example [Noise ℝ] : Physical Fixture.modelParams Fixture.motors ∧ IsUnitQ tumbleStart.ori ∧
    (∀ i, (Fixture.motors i).minSpeed ≤ tumbleStart.motVel i ∧ tumbleStart.motVel i ≤ (Fixture.motors i).maxSpeed) ∧
    ∀ h : ℝ, 0 < h → h ≤ 1 / 100 → RunsOn (tumbles h 0) Fixture.modelParams Fixture.motors ∧
      SameMotion (tumbles h 0).state tumbleStart ∧
      ∀ k, (tumbles h k).process (fun _ => 5) h 0 false = .ok (tumbles h (k + 1)) := by
  refine ⟨fixture_physical, tumbleStart_unit, fun i => ?_, fun h h0 h1 =>
    ⟨runsOn_new _ _ 7 _ rfl Fixture.check Fixture.dirOk, ⟨rfl, rfl, rfl, rfl, rfl⟩, fun k => ?_⟩⟩
  · rw [(Fixture.motors_speed i).1, (Fixture.motors_speed i).2.1]
    fin_cases i <;> norm_num [tumbleStart]
  · refine Fixture.process_ok _ ?_ _ _ h0 h1 _ _
    induction k with
    | zero => rfl
    | succ k ih => exact (Dyn.eulerStep_core ..).trans ih

/-- **C102 (every flight).** The same for simulations in rounded arithmetic. -/
theorem C102_every_flight {n : ℕ} (p : ModelParams ℝ) (ms : Fin n → Motor ℝ) (act : Vec n ℝ) (ext : Vec 3 ℝ)
    (s : State ℝ n) (hp : Physical p ms) (hs : IsUnitQ s.ori)
    (hlim : ∀ i, (ms i).minSpeed ≤ s.motVel i ∧ s.motVel i ≤ (ms i).maxSpeed) :
    ∃ x : ℝ → State ℝ n, SameMotion (x 0) s ∧ ∀ T, 0 ≤ T → Motion p ms act ext T x ∧
      ∃ C, 0 < C ∧ ∀ (A : Rounding) (_ : Noise (Fl A)) (h : ℝ) (d : ℕ → Dyn (Fl A) n), 0 < h → C * (h + A.u / h) ≤ 1 →
        RunsOn (d 0) (liftParams A p) (fun i => liftMotor A (ms i)) → SameMotion (valState (d 0).state) s →
        (∀ k, (d k).process (liftV A act) ⟨h⟩ (liftV A ext) false = .ok (d (k + 1))) →
        ∀ k : ℕ, k * h ≤ T → Within (C * (h + A.u / h)) (valState (d k).state) (x (k * h)) := by
  obtain ⟨x, hx0, hx⟩ := C140_existence p ms act ext s hp hs
  refine ⟨x, hx0, fun T hT => ⟨hx T, ?_⟩⟩
  obtain ⟨C, hC, main⟩ := C102_rounded_convergence p ms act ext T x hp.regular hp.tau hT (hx T)
    (fun i => by rw [hx0.2.2.2.2]; exact hlim i)
  refine ⟨C, hC, fun A N h d h0 hle hr hsame hstep => main A N h d h0 hle hr ?_ hstep⟩
  obtain ⟨s1, s2, s3, s4, s5⟩ := hsame
  obtain ⟨r1, r2, r3, r4, r5⟩ := hx0
  exact ⟨s1.trans r1.symm, s2.trans r2.symm, s3.trans r3.symm, s4.trans r4.symm, s5.trans r5.symm⟩

/-- Non-vacuity: the falling body again; that it can be simulated in every arithmetic is shown beside C102. -/
example : Physical slick Fixture.motors ∧ IsUnitQ (falling 0).ori ∧
    (∀ i, (Fixture.motors i).minSpeed ≤ (falling 0).motVel i ∧ (falling 0).motVel i ≤ (Fixture.motors i).maxSpeed) ∧
    ∀ (A : Rounding) (_ : Noise (Fl A)) (h : ℝ), SameMotion (valState (releasedL A h 0).state) (falling 0) := by
  refine ⟨slick_physical, by simp [IsUnitQ, falling], fun i => ?_, fun A _ h => ⟨rfl, rfl, rfl, rfl, rfl⟩⟩
  rw [(Fixture.motors_speed i).1, (Fixture.motors_speed i).2.1]
  simp [falling]

end Verif.Props
