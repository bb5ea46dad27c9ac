import Verif.Lemmas.PidRounded
import Verif.Props.Rounded

/-!
# C121: rounding errors of the PID

The outputs of the vector PID in rounded arithmetic, compared with the limited law in exact arithmetic.
-/

namespace Verif.Props

open Verif Flt Spec

section
variable {A : Rounding} {n : ℕ}

/-! ## Helper lemmas -/

lemma rounded_nonZero (v : Vec n ℝ) (h : ∀ i, v i = 0) : Pid.nonZero (liftV A v) = false := by
  simp [Pid.nonZero, liftV, Flt.beq, h]

lemma rounded_nonZero_true (v : Vec n ℝ) (i : Fin n) (h : v i ≠ 0) : Pid.nonZero (liftV A v) = true := by
  simp only [Pid.nonZero, List.any_eq_true]
  exact ⟨i, List.mem_finRange i, by simp [liftV, Flt.beq, h]⟩

lemma eps_le_of_apart (hu : A.u ≤ 1 / 16) {x : ℝ} (h : 2 * (1 / 4503599627370496) ≤ x) :
    A.rnd (1 / 4503599627370496) ≤ A.rnd x := by
  have h1 := (abs_le.1 (A.rnd_err (1 / 4503599627370496))).2
  have h2 := (abs_le.1 (A.rnd_err x)).1
  rw [abs_of_pos (by norm_num)] at h1
  rw [abs_of_pos (by linarith)] at h2
  nlinarith

/-- Limits that are apart pass the test of `set_output_saturation` in rounded arithmetic, too. -/
lemma rounded_axisOk (hu : A.u ≤ 1 / 16) {u l : Vec n ℝ} (i : Fin n) (h : 2 * (1 / 4503599627370496) ≤ u i - l i) :
    Pid.AxisOk (liftV A u) (liftV A l) i := by
  have h1 := eps_le_of_apart hu h
  refine ⟨?_, ?_⟩
  · rw [lt_val]
    change decide (|A.rnd (u i - l i)| < A.rnd (1 / 4503599627370496)) = false
    rw [decide_eq_false_iff_not, not_lt]
    exact h1.trans (le_abs_self _)
  · rw [lt_val]
    change decide (u i < l i) = false
    rw [decide_eq_false_iff_not, not_lt]
    linarith

/-- The members that configure the PID, after the constructor. -/
structure Configured (q : PidParams ℝ n) (p : Pid (Fl A) n) : Prop where
  kp : p.kpMat = mdiag (liftV A q.kp)
  ki : p.kiMat = mdiag (liftV A q.ki)
  kd : p.kdMat = mdiag (liftV A q.kd)
  aw : p.antiwindup = liftV A q.antiwindup
  al : p.alpha = liftV A q.alpha
  reset : p.resetIntegral = false
  prop : p.propSat = false
  sat : (p.satFlag = false ∧ ∀ i, q.upper i = 0 ∧ q.lower i = 0) ∨
    (p.satFlag = true ∧ p.upper = liftV A q.upper ∧ p.lower = liftV A q.lower ∧
      ∀ i, 2 * (1 / 4503599627370496) ≤ q.upper i - q.lower i)

lemma configured_mk (hu : A.u ≤ 1 / 16) (q : PidParams ℝ n) (hr : q.resetIntegral = false) (hp : q.propSat = false)
    (hl : SeparatedLimits q.upper q.lower) : Configured q (Pid.mk' (liftPidParams A q)) := by
  rcases hl with h | h
  · have h1 : Pid.nonZero (liftPidParams A q).lower = false := rounded_nonZero _ fun i => (h i).2
    have h2 : Pid.nonZero (liftPidParams A q).upper = false := rounded_nonZero _ fun i => (h i).1
    have e : (Pid.mk' (liftPidParams A q)) = (((((((Pid.init : Pid (Fl A) n).setGains (liftV A q.kp) (liftV A q.ki)
        (liftV A q.kd)).setAntiWindup (liftV A q.antiwindup)).setAlpha (liftV A q.alpha)).setResetIntegral
        q.resetIntegral).setPropSat q.propSat).disableSat).reset := by
      unfold Pid.mk' Pid.updateParams
      simp only [h1, h2, Bool.or_self, Bool.false_eq_true, if_false]
      rfl
    rw [e]
    exact ⟨rfl, rfl, rfl, rfl, rfl, hr, hp, .inl ⟨rfl, h⟩⟩
  · have hok : ∀ i, Pid.AxisOk (liftPidParams A q).upper (liftPidParams A q).lower i := fun i => rounded_axisOk hu i (h i)
    by_cases hz : (Pid.nonZero (liftPidParams A q).lower || Pid.nonZero (liftPidParams A q).upper) = true
    · have e : (Pid.mk' (liftPidParams A q)) = { (((((((Pid.init : Pid (Fl A) n).setGains (liftV A q.kp) (liftV A q.ki)
          (liftV A q.kd)).setAntiWindup (liftV A q.antiwindup)).setAlpha (liftV A q.alpha)).setResetIntegral
          q.resetIntegral).setPropSat q.propSat).reset) with satFlag := true, propSat := q.propSat, upper := liftV A q.upper,
                                                             lower := liftV A q.lower } := by
        unfold Pid.mk' Pid.updateParams
        simp only [hz, if_true]
        rw [Pid.setOutputSaturation_ok _ _ _ _ hok]
        rfl
      rw [e]
      exact ⟨rfl, rfl, rfl, rfl, rfl, hr, hp, .inr ⟨rfl, rfl, rfl, h⟩⟩
    · -- without an axis there is nothing to limit
      have h0 : ∀ i : Fin n, False := by
        intro i
        apply hz
        by_cases hi : q.lower i = 0
        · have : q.upper i ≠ 0 := by
            intro hc
            have := h i
            rw [hi, hc] at this
            norm_num at this
          rw [show Pid.nonZero (liftPidParams A q).upper = true from rounded_nonZero_true _ i this, Bool.or_true]
        · rw [show Pid.nonZero (liftPidParams A q).lower = true from rounded_nonZero_true _ i hi, Bool.true_or]
      have e : (Pid.mk' (liftPidParams A q)) = (((((((Pid.init : Pid (Fl A) n).setGains (liftV A q.kp) (liftV A q.ki)
          (liftV A q.kd)).setAntiWindup (liftV A q.antiwindup)).setAlpha (liftV A q.alpha)).setResetIntegral
          q.resetIntegral).setPropSat q.propSat).disableSat).reset := by
        unfold Pid.mk' Pid.updateParams
        simp only [hz]
        rfl
      rw [e]
      exact ⟨rfl, rfl, rfl, rfl, rfl, hr, hp, .inl ⟨rfl, fun i => (h0 i).elim⟩⟩

lemma Configured.control {q : PidParams ℝ n} {p : Pid (Fl A) n} (h : Configured q p) (dt : Fl A) (e : Vec n (Fl A)) :
    Configured q (p.computeControl dt e).1 := by
  obtain ⟨c1, c2, c3, c4, c5, c6, c7, c8, c9, c10⟩ := Pid.computeControl_config p dt e
  obtain ⟨a1, a2, a3, a4, a5, a6, a7, a8⟩ := h
  exact ⟨c1.trans a1, c2.trans a2, c3.trans a3, c4.trans a4, c5.trans a5, c6.trans a6, c8.trans a7, by rw [c7, c9, c10]; exact a8⟩

/-- One axis of the accumulator. -/
lemma near_accumulate (hu : A.u ≤ 1 / 16) {q : PidParams ℝ n} (haw : UniformAw q.antiwindup) {p : Pid (Fl A) n} (hc : Configured q p)
    {k : ℕ} {S E H w dt : ℝ} {e : Vec n ℝ} (i : Fin n) (hS : q.antiwindup i ≤ S) (hi : A.Near (3 * k) S (p.integral i).val w)
    (he : |e i| ≤ E) (hdt : |dt| ≤ H) :
    A.Near (3 * (k + 1)) (S + H * E) (p.accumulate ⟨dt⟩ (liftV A e) i).val (windup (q.antiwindup i) (w + e i * dt)) := by
  have hE : 0 ≤ E := (abs_nonneg _).trans he
  have hH : 0 ≤ H := (abs_nonneg _).trans hdt
  have h1 : A.Near 1 (H * E) (A.rnd (e i * dt)) (e i * dt) := by
    have := ((Rounding.Near.of_abs (A := A) he 0).mul (Rounding.Near.of_abs (A := A) hdt 0)).rnd
    rwa [mul_comm E H] at this
  have h2 : A.Near (3 * k + 2) (S + H * E) (A.rnd ((p.integral i).val + A.rnd (e i * dt))) (w + e i * dt) := by
    have a1 := hi.mono (by omega : 3 * k ≤ 3 * k + 1) le_rfl
    have a2 := h1.mono (by omega : 1 ≤ 3 * k + 1) le_rfl
    exact (a1.add a2).rnd
  have hra : ∀ j, Pid.resetAxis p.resetIntegral (p.integral j) (p.antiwindup j) (liftV A e j) = p.integral j := by
    intro j; simp [Pid.resetAxis, hc.reset]
  rcases haw with hpos | hz
  · have hnz : Pid.nonZero p.antiwindup = true := by rw [hc.aw]; exact rounded_nonZero_true _ i (hpos i).ne'
    obtain ⟨n1, n2⟩ := near_neg_aw hu (hpos i).le
    have hv : (p.accumulate ⟨dt⟩ (liftV A e) i).val =
        if q.antiwindup i < A.rnd ((p.integral i).val + A.rnd (e i * dt)) then q.antiwindup i
        else if A.rnd ((p.integral i).val + A.rnd (e i * dt)) < A.rnd (A.rnd (-1) * q.antiwindup i) then
          A.rnd (A.rnd (-1) * q.antiwindup i)
        else A.rnd ((p.integral i).val + A.rnd (e i * dt)) := by
      unfold Pid.accumulate
      simp only [hnz, if_true, Pid.saturateOutput, Bool.not_false, hra]
      rw [hc.aw]
      have e1 : (vadd p.integral (smulR (liftV A e) ⟨dt⟩) i).val = A.rnd ((p.integral i).val + A.rnd (e i * dt)) := rfl
      have e2 : (smulL (lit (-1) : Fl A) (liftV A q.antiwindup) i).val = A.rnd (A.rnd (-1) * q.antiwindup i) := by
        change A.rnd (A.rnd ((-1 : ℚ) : ℝ) * q.antiwindup i) = _
        norm_num
      have e3 : (liftV A q.antiwindup i).val = q.antiwindup i := rfl
      change (if lt (liftV A q.antiwindup i) (vadd p.integral (smulR (liftV A e) ⟨dt⟩) i) = true then liftV A q.antiwindup i
        else if lt (vadd p.integral (smulR (liftV A e) ⟨dt⟩) i) (smulL (lit (-1) : Fl A) (liftV A q.antiwindup) i) = true then
          smulL (lit (-1) : Fl A) (liftV A q.antiwindup) i else vadd p.integral (smulR (liftV A e) ⟨dt⟩) i).val = _
      simp only [lt_val, decide_eq_true_eq]
      rw [← e1, ← e2, ← e3]
      split_ifs <;> rfl
    rw [hv, windup, if_pos (hpos i)]
    have hSE : q.antiwindup i ≤ S + H * E := by have := mul_nonneg hH hE; linarith
    exact (h2.mono (by omega) le_rfl).clip (n1.mono (by omega) hSE) n2 (by linarith [hpos i])
      (by rw [abs_of_pos (hpos i)]; exact hSE)
  · have hnz : Pid.nonZero p.antiwindup = false := by rw [hc.aw]; exact rounded_nonZero _ hz
    have hv : (p.accumulate ⟨dt⟩ (liftV A e) i).val = A.rnd ((p.integral i).val + A.rnd (e i * dt)) := by
      unfold Pid.accumulate
      simp only [hnz, hra]
      rfl
    rw [hv, windup, if_neg (by rw [hz i]; exact lt_irrefl _)]
    exact h2.mono (by omega) le_rfl

/-- One axis of the filter. -/
lemma near_filtered (hu : A.u ≤ 1 / 16) {q : PidParams ℝ n} {p : Pid (Fl A) n} (hc : Configured q p)
    {k : ℕ} {E G g dt : ℝ} {e e' : Vec n ℝ} (i : Fin n) (h0 : 0 ≤ q.alpha i) (h1 : q.alpha i ≤ 1) (hpe : p.propErr = liftV A e')
    (hf : A.Near (12 * k) G (p.filtered i).val g) (he : |e i| ≤ E) (he' : |e' i| ≤ E) (hdt : 0 < dt) (hG : 2 * E / dt ≤ G) :
    A.Near (12 * (k + 1)) G (vadd (vmul p.alpha (sdiv (vsub (liftV A e) p.propErr) ⟨dt⟩)) (vmul (vsub vones p.alpha) p.filtered) i).val
      (q.alpha i * ((e i - e' i) / dt) + (1 - q.alpha i) * g) := by
  have hv : (vadd (vmul p.alpha (sdiv (vsub (liftV A e) p.propErr) ⟨dt⟩)) (vmul (vsub vones p.alpha) p.filtered) i).val =
      A.rnd (A.rnd (q.alpha i * A.rnd (A.rnd (e i - e' i) / dt)) + A.rnd (A.rnd (A.rnd 1 - q.alpha i) * (p.filtered i).val)) := by
    have e1 : ((lit 1 : Fl A)).val = A.rnd 1 := by
      change A.rnd ((1 : ℚ) : ℝ) = _
      norm_num
    rw [hc.al, hpe, ← e1]
    rfl
  rw [hv]
  obtain ⟨r1, r2⟩ := quotient_error hu he he' hdt hG
  exact near_filter hu h0 h1 r1 r2 hf

/-- The state after `k + 1` calls. -/
lemma rounded_state (hu : A.u ≤ 1 / 16) (q : PidParams ℝ n) (haw : UniformAw q.antiwindup)
    (hal : ∀ i, 0 ≤ q.alpha i ∧ q.alpha i ≤ 1) {E H G : ℝ} {e : ℕ → Vec n ℝ} {dt : ℕ → ℝ} (hs : Sampled E H G e dt)
    (p : Pid (Fl A) n) (hc : Configured q p) (hf : p.firstRun = true) (k : ℕ) :
    let r := (p.run (roundedCalls A e dt (k + 1))).1
    Configured q r ∧ r.firstRun = false ∧ r.propErr = liftV A (e k) ∧
    (∀ i, A.Near (3 * (k + 1)) (q.antiwindup i + (k + 1) * (H * E)) (r.integral i).val
      (scalarIntegral (q.antiwindup i) (fun j => e j i) dt k)) ∧
    (∀ i, A.Near (12 * (k + 1)) G (r.filtered i).val (scalarRate (q.alpha i) (fun j => e j i) dt k)) ∧
    r.propContrib = mv (mdiag (liftV A q.kp)) (liftV A (e k)) ∧ r.intContrib = mv (mdiag (liftV A q.ki)) r.integral ∧
    r.derivContrib = mv (mdiag (liftV A q.kd)) r.filtered := by
  have hH : ∀ k, |dt k| ≤ H := fun k => by rw [abs_of_pos (hs.pos k)]; exact hs.le k
  have hw0 : ∀ i, 0 ≤ q.antiwindup i := fun i => by
    rcases haw with h | h
    · exact (h i).le
    · rw [h i]
  have hz : (lit 0 : Fl A).val = 0 := lit_zero_val
  induction k with
  | zero =>
    simp only [roundedCalls, calls, zero_add, List.range_one, List.map_cons, List.map_nil, Pid.run, Pid.step]
    obtain ⟨h1, h2, h3, h4, h5, h6, h7⟩ := Pid.computeControl_stores p (⟨dt 0⟩ : Fl A) (liftV A (e 0))
    have hi : p.firstRunInit (liftV A (e 0)) =
        { p with firstRun := false, integral := vzero, propErr := liftV A (e 0), filtered := vzero } := by
      simp [Pid.firstRunInit, hf]
    rw [hi] at h2 h4
    have hc' : Configured q { p with firstRun := false, integral := vzero, propErr := liftV A (e 0), filtered := vzero } :=
      ⟨hc.kp, hc.ki, hc.kd, hc.aw, hc.al, hc.reset, hc.prop, hc.sat⟩
    refine ⟨hc.control _ _, h1, h3, fun i => ?_, fun i => ?_, h5.trans (by rw [hc.kp]), h6.trans (by rw [hc.ki]),
      h7.trans (by rw [hc.kd])⟩
    · rw [h2]
      have h0 : A.Near (3 * 0) (q.antiwindup i) ((vzero : Vec n (Fl A)) i).val 0 := by
        change A.Near 0 (q.antiwindup i) (lit 0 : Fl A).val 0
        rw [hz]
        exact Rounding.Near.of_abs (by rw [abs_zero]; exact hw0 i) 0
      have := near_accumulate hu haw hc' (k := 0) i le_rfl h0 (hs.err 0 i) (hH 0)
      simpa [scalarIntegral] using this
    · rw [h4]
      have h0 : A.Near (12 * 0) G ((vzero : Vec n (Fl A)) i).val 0 := by
        change A.Near 0 G (lit 0 : Fl A).val 0
        rw [hz]
        refine Rounding.Near.of_abs ?_ 0
        rw [abs_zero]
        exact (div_nonneg (by linarith [(abs_nonneg _).trans (hs.err 0 i)]) (hs.pos 0).le).trans (hs.rate 0)
      have := near_filtered hu hc' (k := 0) i (hal i).1 (hal i).2 rfl h0 (hs.err 0 i) (hs.err 0 i) (hs.pos 0) (hs.rate 0)
      simpa [scalarRate] using this
  | succ k ih =>
    have hcs : roundedCalls A e dt (k + 1 + 1) = roundedCalls A e dt (k + 1) ++ [.control ⟨dt (k + 1)⟩ (liftV A (e (k + 1)))] :=
      Pid.calls_succ _ _ _
    rw [hcs, Pid.run_append]
    obtain ⟨i1, i2, i3, i4, i5, -⟩ := ih
    generalize (p.run (roundedCalls A e dt (k + 1))).1 = r at *
    simp only [Pid.run, Pid.step]
    obtain ⟨h1, h2, h3, h4, h5, h6, h7⟩ := Pid.computeControl_stores r (⟨dt (k + 1)⟩ : Fl A) (liftV A (e (k + 1)))
    have hi : r.firstRunInit (liftV A (e (k + 1))) = r := by simp [Pid.firstRunInit, i2]
    rw [hi] at h2 h4
    refine ⟨i1.control _ _, h1, h3, fun i => ?_, fun i => ?_, h5.trans (by rw [i1.kp]), h6.trans (by rw [i1.ki]),
      h7.trans (by rw [i1.kd])⟩
    · rw [h2]
      have hHE : 0 ≤ H * E := mul_nonneg ((abs_nonneg _).trans (hH 0)) ((abs_nonneg _).trans (hs.err 0 i))
      have := near_accumulate hu haw i1 (k := k + 1) i (le_add_of_nonneg_right (by positivity)) (i4 i) (hs.err (k + 1) i) (hH (k + 1))
      refine this.mono le_rfl (le_of_eq ?_)
      push_cast
      ring
    · rw [h4]
      exact near_filtered hu i1 (k := k + 1) i (hal i).1 (hal i).2 i3 (i5 i) (hs.err (k + 1) i) (hs.err k i) (hs.pos (k + 1)) (hs.rate (k + 1))

/-! ## The theorems -/

/-- **C121.** In any rounded arithmetic, each output of a new vector PID differs from that of the exact limited law by at
most `(1 + u)^(12 (k + 1) + n + 3) - 1` times the magnitudes of the three contributions: rounding errors are neither
amplified by the filter nor left behind by anti-windup and limits, they only add up, one sample after the other. -/
theorem C121_rounded_pid (hu : A.u ≤ 1 / 16) (q : PidParams ℝ n) (hr : q.resetIntegral = false) (hp : q.propSat = false)
    (haw : UniformAw q.antiwindup) (hl : SeparatedLimits q.upper q.lower) (hal : ∀ i, 0 ≤ q.alpha i ∧ q.alpha i ≤ 1)
    {E H G : ℝ} {e : ℕ → Vec n ℝ} {dt : ℕ → ℝ} (hs : Sampled E H G e dt) (N : ℕ) :
    ∃ out : ℕ → Vec n (Fl A),
      ((Pid.mk' (liftPidParams A q)).run (roundedCalls A e dt N)).2 = (List.range N).map (fun k => some (out k)) ∧
      ∀ k < N, ∀ i, |(out k i).val - limitedLaw q e dt k i| ≤
        ((1 + A.u) ^ (12 * (k + 1) + n + 3) - 1) * contributions q E H G (k + 1) i := by
  have hc := configured_mk hu q hr hp hl
  set p := Pid.mk' (liftPidParams A q) with hp'
  refine ⟨fun k => (p.run (roundedCalls A e dt (k + 1))).1.output, ?_, ?_⟩
  · induction N with
    | zero => rfl
    | succ N ih =>
      have hcs : roundedCalls A e dt (N + 1) = roundedCalls A e dt N ++ [.control ⟨dt N⟩ (liftV A (e N))] :=
        Pid.calls_succ _ _ _
      rw [hcs, Pid.run_append, ih, List.range_succ, List.map_append]
      simp only [List.map_cons, List.map_nil, hcs, Pid.run_append]
      rfl
  · intro k _ i
    obtain ⟨b1, b2, b3, b4, b5, b6, b7, b8⟩ := rounded_state hu q haw hal hs p hc rfl k
    -- the output in terms of the contributions
    have hout : (p.run (roundedCalls A e dt (k + 1))).1.output =
        let r := (p.run (roundedCalls A e dt (k + 1))).1
        if r.satFlag then Pid.saturateOutput (vadd (vadd r.propContrib r.intContrib) r.derivContrib) r.upper r.lower r.propSat
        else vadd (vadd r.propContrib r.intContrib) r.derivContrib := by
      have hcs : roundedCalls A e dt (k + 1) = roundedCalls A e dt k ++ [.control ⟨dt k⟩ (liftV A (e k))] :=
        Pid.calls_succ _ _ _
      rw [hcs, Pid.run_append]
      simp only [Pid.run, Pid.step]
      obtain ⟨c1, c2, c3, c4, c5, c6, c7, c8, c9, c10⟩ := Pid.computeControl_config (p.run (roundedCalls A e dt k)).1 (⟨dt k⟩ : Fl A) (liftV A (e k))
      have ho := Pid.computeControl_output (p.run (roundedCalls A e dt k)).1 (⟨dt k⟩ : Fl A) (liftV A (e k))
      simp only at ho
      simp only [c7, c8, c9, c10]
      exact ho
    simp only at hout ⊢
    rw [hout]
    generalize (p.run (roundedCalls A e dt (k + 1))).1 = r at *
    -- the three contributions
    have n1 := near_diag q.kp (liftV A (e k)) (e k i) i (Rounding.Near.of_abs (A := A) (hs.err k i) 0)
    have n2 := near_diag q.ki r.integral _ i (b4 i)
    have n3 := near_diag q.kd r.filtered _ i (b5 i)
    have n4 := (n1.mono (by omega : 0 + 1 + n ≤ 12 * (k + 1) + 1 + n) le_rfl).add
      (n2.mono (by omega : 3 * (k + 1) + 1 + n ≤ 12 * (k + 1) + 1 + n) le_rfl)
    have n5 := (n4.rnd.add (n3.mono (by omega : 12 * (k + 1) + 1 + n ≤ 12 * (k + 1) + 1 + n + 1) le_rfl)).rnd
    have hx : (vadd (vadd r.propContrib r.intContrib) r.derivContrib i).val =
        A.rnd (A.rnd ((mv (mdiag (liftV A q.kp)) (liftV A (e k)) i).val + (mv (mdiag (liftV A q.ki)) r.integral i).val) +
          (mv (mdiag (liftV A q.kd)) r.filtered i).val) := by
      rw [b6, b7, b8]
      rfl
    have n6 : |(vadd (vadd r.propContrib r.intContrib) r.derivContrib i).val - (q.kp i * e k i +
        q.ki i * scalarIntegral (q.antiwindup i) (fun j => e j i) dt k + q.kd i * scalarRate (q.alpha i) (fun j => e j i) dt k)| ≤
        ((1 + A.u) ^ (12 * (k + 1) + n + 3) - 1) * contributions q E H G (k + 1) i := by
      rw [hx]
      refine (n5.1).trans (le_of_eq ?_)
      rw [contributions]
      push_cast
      congr 2
      congr 1
      ring
    have heps : (Flt.eps : ℝ) = 1 / 4503599627370496 := by simp [Flt.eps]
    rcases b1.sat with ⟨s1, s2⟩ | ⟨s1, s2, s3, s4⟩
    · have hno : ¬ (Flt.eps : ℝ) ≤ q.upper i - q.lower i := by rw [heps, (s2 i).1, (s2 i).2]; norm_num
      rw [s1, if_neg Bool.false_ne_true, limitedLaw, limited, if_neg hno]
      exact n6
    · have hle : (Flt.eps : ℝ) ≤ q.upper i - q.lower i := by
        rw [heps]
        refine le_trans ?_ (s4 i)
        norm_num
      have hlo : q.lower i ≤ q.upper i := by
        have := s4 i
        have h0 : (0 : ℝ) ≤ 2 * (1 / 4503599627370496) := by norm_num
        linarith
      rw [s1, if_pos rfl, limitedLaw, limited, if_pos hle, b1.prop, s2, s3]
      have hv : (Pid.saturateOutput (vadd (vadd r.propContrib r.intContrib) r.derivContrib) (liftV A q.upper) (liftV A q.lower) false i).val =
          if q.upper i < (vadd (vadd r.propContrib r.intContrib) r.derivContrib i).val then q.upper i
          else if (vadd (vadd r.propContrib r.intContrib) r.derivContrib i).val < q.lower i then q.lower i
          else (vadd (vadd r.propContrib r.intContrib) r.derivContrib i).val := by
        simp only [Pid.saturateOutput, Bool.not_false, if_true, lt_val, decide_eq_true_eq]
        have e1 : (liftV A q.upper i).val = q.upper i := rfl
        have e2 : (liftV A q.lower i).val = q.lower i := rfl
        rw [← e1, ← e2]
        split_ifs <;> rfl
      rw [hv]
      exact clip_error n6 hlo

/-- Few roundings cost little. -/
lemma pow_sub_one_le {m : ℕ} (h : m * A.u ≤ 1) : (1 + A.u) ^ m - 1 ≤ 2 * m * A.u := by
  have hu0 := A.u_nonneg
  have h0 : 0 ≤ m * A.u := by positivity
  have h1 : (1 + A.u) ^ m ≤ Real.exp (m * A.u) := by
    rw [Real.exp_nat_mul]
    exact pow_le_pow_left₀ (by linarith) (by linarith [Real.add_one_le_exp A.u]) m
  have h2 := Real.abs_exp_sub_one_le (x := m * A.u) (by rwa [abs_of_nonneg h0])
  rw [abs_of_nonneg h0] at h2
  linarith [le_abs_self (Real.exp (m * A.u) - 1)]

/-- **C121 for double precision.** With 53 binary digits and fewer than 10¹⁴ samples the error is at most
`12 (k + 1) + n + 3` machine epsilons times the magnitudes of the contributions. -/
theorem C121_double (q : PidParams ℝ n) (hr : q.resetIntegral = false) (hp : q.propSat = false)
    (haw : UniformAw q.antiwindup) (hl : SeparatedLimits q.upper q.lower) (hal : ∀ i, 0 ≤ q.alpha i ∧ q.alpha i ≤ 1)
    {E H G : ℝ} {e : ℕ → Vec n ℝ} {dt : ℕ → ℝ} (hs : Sampled E H G e dt) (N : ℕ) (hN : N ≤ 10 ^ 14) (hn : n ≤ 10 ^ 14) :
    ∃ out : ℕ → Vec n (Fl (binary 53)),
      ((Pid.mk' (liftPidParams (binary 53) q)).run (roundedCalls (binary 53) e dt N)).2 =
        (List.range N).map (fun k => some (out k)) ∧
      ∀ k < N, ∀ i, |(out k i).val - limitedLaw q e dt k i| ≤
        (12 * (k + 1) + n + 3) * (1 / 4503599627370496) * contributions q E H G (k + 1) i := by
  have hu : (binary 53).u = (1 / 2) ^ 53 := rfl
  obtain ⟨out, h1, h2⟩ := C121_rounded_pid (A := binary 53) (by rw [hu]; norm_num) q hr hp haw hl hal hs N
  refine ⟨out, h1, fun k hk i => (h2 k hk i).trans ?_⟩
  have hE : 0 ≤ E := (abs_nonneg _).trans (hs.err 0 i)
  have hG : 0 ≤ G := (div_nonneg (by linarith) (hs.pos 0).le).trans (hs.rate 0)
  have hH : 0 ≤ H := (hs.pos 0).le.trans (hs.le 0)
  have hw : 0 ≤ q.antiwindup i := by
    rcases haw with h | h
    · exact (h i).le
    · rw [h i]
  refine mul_le_mul_of_nonneg_right ?_ (by unfold contributions; positivity)
  have hm : ((12 * (k + 1) + n + 3 : ℕ) : ℝ) ≤ 2 ^ 53 := by
    have : 12 * (k + 1) + n + 3 ≤ 2 ^ 53 := by norm_num at hN hn ⊢; omega
    exact_mod_cast this
  have h3 := pow_sub_one_le (A := binary 53) (m := 12 * (k + 1) + n + 3) (by rw [hu]; norm_num at hm ⊢; linarith)
  refine h3.trans (le_of_eq ?_)
  rw [hu]
  push_cast
  ring

end

/-- Non-vacuity: three axes with all three gains, a filter, anti-windup and limits, errors that change their sign at
every sample; the bound after ten minutes at 100 Hz is below 10⁻⁶. -/
example : ∃ (q : PidParams ℝ 3) (e : ℕ → Vec 3 ℝ) (dt : ℕ → ℝ), q.resetIntegral = false ∧ q.propSat = false ∧
    UniformAw q.antiwindup ∧ SeparatedLimits q.upper q.lower ∧ (∀ i, 0 ≤ q.alpha i ∧ q.alpha i ≤ 1) ∧
    Sampled 1 (1 / 100) 200 e dt ∧ e 0 0 ≠ e 1 0 ∧
    (12 * (59999 + 1) + (3 : ℕ) + 3) * (1 / 4503599627370496) * contributions q 1 (1 / 100) 200 60000 0 < 1 / 10 ^ 6 := by
  refine ⟨⟨fun _ => 6, fun _ => 1, fun _ => 1 / 10, fun _ => 1, fun _ => 1 / 10, false, false, fun _ => 5, fun _ => -5⟩,
    fun k _ => (-1) ^ k, fun _ => 1 / 100, rfl, rfl, .inl fun _ => one_pos, .inr fun _ => by norm_num, fun _ => by norm_num,
    ⟨fun k _ => by simp, fun _ => by norm_num, fun _ => le_rfl, fun _ => by norm_num⟩, by norm_num, ?_⟩
  norm_num [contributions]

end Verif.Props
