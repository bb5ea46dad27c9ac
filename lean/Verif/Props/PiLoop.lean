import Verif.Props.Vertical

/-!
# A PID used as a PI controller of the vertical axis

Definitions for C131 and C132 and the output of such a controller inside its limits.
-/

namespace Verif.Props

open Verif Flt Spec

/-- A PI controller of the vertical axis: proportional and integral gains `kp`, `ki`, no derivative part, bound
`aw` of the integral, bound `lim` of the output if limits are enabled, and no history in the horizontal axes,
whose gains are arbitrary. -/
structure PiAxis (q : Pid ℝ 3) (kp ki aw lim : ℝ) : Prop where
  gains : ∃ a b d : Vec 3 ℝ, q.kpMat = Matrix.diagonal a ∧ q.kiMat = Matrix.diagonal b ∧
    q.kdMat = Matrix.diagonal d ∧ a 2 = kp ∧ b 2 = ki ∧ d 2 = 0
  windup : (∀ i, 0 ≤ q.antiwindup i) ∧ q.antiwindup 2 = aw
  limits : q.satFlag = true → (∀ i, q.lower i ≤ 0 ∧ 0 ≤ q.upper i) ∧ q.lower 2 = -lim ∧ q.upper 2 = lim
  idle : q.firstRun = false → ∀ i, i ≠ 2 → q.integral i = 0 ∧ q.filtered i = 0 ∧ q.propErr i = 0

/-- Accumulated error of the vertical axis that the next call starts from. -/
noncomputable def heldError (q : Pid ℝ 3) : ℝ := if q.firstRun then 0 else q.integral 2

lemma saturateOutput_inside {n : ℕ} {u l o : Vec n ℝ} (prop : Bool) (h : ∀ i, l i ≤ o i ∧ o i ≤ u i) :
    Pid.saturateOutput o u l prop = o := by
  unfold Pid.saturateOutput
  cases prop
  · ext i
    simp [flt, not_lt.2 (h i).1, not_lt.2 (h i).2]
  · have : ∀ is : List (Fin n), is.foldl (Pid.propSatStep u l) o = o := by
      intro is
      induction is with
      | nil => rfl
      | cons j js ih =>
        have : Pid.propSatStep u l o j = o := by
          simp [Pid.propSatStep, flt, not_lt.2 (h j).1, not_lt.2 (h j).2]
        rw [List.foldl_cons, this, ih]
    simp [this]

/-- Accumulated errors after the call, up to the bound. -/
lemma PiAxis.accumulated {q : Pid ℝ 3} {kp ki aw lim : ℝ} (h : PiAxis q kp ki aw lim) {dt e x : ℝ}
    (h1 : |heldError q| ≤ aw) (hx : (|heldError q + e * dt| ≤ aw ∧ x = heldError q + e * dt) ∨
      (0 < aw ∧ x = max (-aw) (min aw (heldError q + e * dt)))) :
    (q.firstRunInit ![0, 0, e]).accumulate dt ![0, 0, e] = ![0, 0, x] := by
  set p0 := q.firstRunInit ![0, 0, e] with hp0
  have m1 : ∀ i, p0.integral i = if i = 2 then heldError q else 0 := by
    intro i
    rw [hp0]
    cases hr : q.firstRun with
    | true => simp [Pid.firstRunInit, hr, heldError, flt]
    | false =>
      by_cases hi : i = 2
      · subst hi; simp [Pid.firstRunInit, hr, heldError]
      · simp [Pid.firstRunInit, hr, hi, (h.idle hr i hi).1]
  have m3 : p0.antiwindup = q.antiwindup := Pid.firstRunInit_config _ _
  have hpre : vadd (fun j => Pid.resetAxis p0.resetIntegral (p0.integral j) (p0.antiwindup j)
      ((![0, 0, e] : Vec 3 ℝ) j)) (smulR ![0, 0, e] dt) = ![0, 0, heldError q + e * dt] := by
    ext j
    have hz : ∀ x y : ℝ, Pid.resetAxis p0.resetIntegral 0 x y = 0 := fun x y => by
      simp [Pid.resetAxis, flt]
    fin_cases j
    · simp [m1, hz, flt]
    · simp [m1, hz, flt]
    · have hk : Pid.resetAxis p0.resetIntegral (heldError q) (p0.antiwindup 2) e = heldError q := by
        rw [m3, h.windup.2]
        simp [Pid.resetAxis, flt, not_lt.2 h1]
      simp [m1, hk, flt]
      ring
  unfold Pid.accumulate
  simp only [hpre]
  rcases hx with ⟨h2, rfl⟩ | ⟨h2, rfl⟩
  · split
    · refine saturateOutput_inside false fun i => ?_
      rw [m3]
      fin_cases i
      · simpa [flt] using h.windup.1 0
      · simpa [flt] using h.windup.1 1
      · simp only [flt]
        simpa [h.windup.2, neg_le] using abs_le.1 h2
    · rfl
  · have hnz : Pid.nonZero p0.antiwindup = true := by
      simp only [Pid.nonZero, m3, List.any_eq_true]
      exact ⟨2, List.mem_finRange _, by simp [h.windup.2, h2.ne', flt]⟩
    rw [if_pos hnz, m3]
    ext i
    fin_cases i
    · simp [Pid.saturateOutput, flt, not_lt.2 (h.windup.1 0)]
    · simp [Pid.saturateOutput, flt, not_lt.2 (h.windup.1 1)]
    · have hs : ∀ y : ℝ, Pid.saturateOutput ![0, 0, y] q.antiwindup (smulL (lit (-1)) q.antiwindup) false 2 =
          if aw < y then aw else if y < -aw then -aw else y := fun y => by
        simp [Pid.saturateOutput, flt, h.windup.2]
      refine (hs _).trans ?_
      show _ = max (-aw) (min aw _)
      split
      · rw [min_eq_left (by linarith), max_eq_right (by linarith)]
      · rw [min_eq_right (by linarith)]
        split
        · rw [max_eq_left (by linarith)]
        · rw [max_eq_right (by linarith)]

/-- Output and accumulated error of a call. -/
lemma PiAxis.step {q : Pid ℝ 3} {kp ki aw lim : ℝ} (h : PiAxis q kp ki aw lim) {dt e x : ℝ}
    (hacc : (q.firstRunInit ![0, 0, e]).accumulate dt ![0, 0, e] = ![0, 0, x]) (h3 : |kp * e + ki * x| ≤ lim) :
    (q.computeControl dt ![0, 0, e]).2 = ![0, 0, kp * e + ki * x] ∧
    PiAxis (q.computeControl dt ![0, 0, e]).1 kp ki aw lim ∧
    heldError (q.computeControl dt ![0, 0, e]).1 = x := by
  obtain ⟨a, b, d, g1, g2, g3, g4, g5, g6⟩ := h.gains
  obtain ⟨f0, f1, f2, f3, f4, f5, f6⟩ := Pid.computeControl_fields q dt ![0, 0, e]
  have hc := Pid.computeControl_config q dt ![0, 0, e]
  have ho := Pid.computeControl_output q dt ![0, 0, e]
  set p0 := q.firstRunInit ![0, 0, e] with hp0
  have m2 : ∀ i, i ≠ 2 → p0.filtered i = 0 ∧ p0.propErr i = 0 := by
    intro i hi
    rw [hp0]
    cases hr : q.firstRun with
    | true =>
      have : (![0, 0, e] : Vec 3 ℝ) i = 0 := by
        fin_cases i
        · rfl
        · rfl
        · exact absurd rfl hi
      simp [Pid.firstRunInit, hr, flt, this]
    | false => simpa [Pid.firstRunInit, hr] using (h.idle hr i hi).2
  have hfil : ∀ i, i ≠ 2 → (q.computeControl dt ![0, 0, e]).1.filtered i = 0 := by
    intro i hi
    have : (![0, 0, e] : Vec 3 ℝ) i = 0 := by
      fin_cases i
      · rfl
      · rfl
      · exact absurd rfl hi
    rw [f3, Pi.add_apply, Pi.mul_apply, Pi.mul_apply, Pi.smul_apply, Pi.sub_apply, this, (m2 i hi).1, (m2 i hi).2]
    simp
  have hsum : vadd (vadd (q.computeControl dt ![0, 0, e]).1.propContrib (q.computeControl dt ![0, 0, e]).1.intContrib)
      (q.computeControl dt ![0, 0, e]).1.derivContrib = ![0, 0, kp * e + ki * x] := by
    rw [f4, f5, f6, f1, hacc, g1, g2, g3]
    ext i
    fin_cases i
    · simp [flt, Matrix.mulVec_diagonal, hfil]
    · simp [flt, Matrix.mulVec_diagonal, hfil]
    · simp [flt, Matrix.mulVec_diagonal, g4, g5, g6]
  refine ⟨?_, ?_, ?_⟩
  · rw [Pid.computeControl_snd, ho, hsum]
    split
    · rename_i hs
      obtain ⟨l1, l2, l3⟩ := h.limits hs
      refine saturateOutput_inside _ fun i => ?_
      fin_cases i
      · exact l1 0
      · exact l1 1
      · simp only [Fin.reduceFinMk, l2, l3]
        exact abs_le.1 h3
    · rfl
  · unfold Pid.SameConfig at hc
    obtain ⟨c1, c2, c3, c4, c5, c6, c7, c8, c9, c10⟩ := hc
    exact {
      gains := ⟨a, b, d, c1.trans g1, c2.trans g2, c3.trans g3, g4, g5, g6⟩
      windup := by rw [c4]; exact h.windup
      limits := by rw [c7, c9, c10]; exact h.limits
      idle := fun _ i hi => by
        have : (![0, 0, e] : Vec 3 ℝ) i = 0 := by
          fin_cases i
          · rfl
          · rfl
          · exact absurd rfl hi
        refine ⟨?_, hfil i hi, ?_⟩
        · rw [f1, hacc]
          fin_cases i
          · rfl
          · rfl
          · exact absurd rfl hi
        · rw [f2, this] }
  · rw [heldError, f0, f1, hacc]
    rfl

/-- Inside its limits it adds the proportional and the integral part. -/
lemma PiAxis.control {q : Pid ℝ 3} {kp ki aw lim : ℝ} (h : PiAxis q kp ki aw lim) {dt e : ℝ}
    (h1 : |heldError q| ≤ aw) (h2 : |heldError q + e * dt| ≤ aw)
    (h3 : |kp * e + ki * (heldError q + e * dt)| ≤ lim) :
    (q.computeControl dt ![0, 0, e]).2 = ![0, 0, kp * e + ki * (heldError q + e * dt)] ∧
    PiAxis (q.computeControl dt ![0, 0, e]).1 kp ki aw lim ∧
    heldError (q.computeControl dt ![0, 0, e]).1 = heldError q + e * dt :=
  h.step (h.accumulated h1 (.inl ⟨h2, rfl⟩)) h3

/-- With its accumulated error limited to its bound. -/
lemma PiAxis.control_bounded {q : Pid ℝ 3} {kp ki aw lim : ℝ} (h : PiAxis q kp ki aw lim) {dt e : ℝ}
    (h1 : |heldError q| ≤ aw) (h0 : 0 < aw) (h3 : |kp * e + ki * max (-aw) (min aw (heldError q + e * dt))| ≤ lim) :
    (q.computeControl dt ![0, 0, e]).2 = ![0, 0, kp * e + ki * max (-aw) (min aw (heldError q + e * dt))] ∧
    PiAxis (q.computeControl dt ![0, 0, e]).1 kp ki aw lim ∧
    heldError (q.computeControl dt ![0, 0, e]).1 = max (-aw) (min aw (heldError q + e * dt)) :=
  h.step (h.accumulated h1 (.inr ⟨h0, rfl⟩)) h3

end Verif.Props
