import Verif.Lemmas.PidRest

/-!
# First output of a PID for an error along one axis
-/

namespace Verif.Pid

open Flt

variable {n : ℕ}

/-- Same sign. -/
def SameSign (s t : ℝ) : Prop := (0 < s → 0 < t) ∧ (s < 0 → t < 0) ∧ (s = 0 → t = 0)

lemma SameSign.refl (s : ℝ) : SameSign s s := ⟨id, id, id⟩

lemma SameSign.trans {a b c : ℝ} (h : SameSign a b) (g : SameSign b c) : SameSign a c :=
  ⟨fun x => g.1 (h.1 x), fun x => g.2.1 (h.2.1 x), fun x => g.2.2 (h.2.2 x)⟩

lemma SameSign.pos_mul {c : ℝ} (hc : 0 < c) (s : ℝ) : SameSign s (c * s) :=
  ⟨fun h => mul_pos hc h, fun h => mul_neg_of_pos_of_neg hc h, fun h => by simp [h]⟩

/-- Limits enclosing zero strictly keep the direction of an output along one axis. -/
lemma saturateOutput_single (u l : Vec n ℝ) (prop : Bool) (h : ∀ i, l i < 0 ∧ 0 < u i) (k : Fin n) (s : ℝ) :
    ∃ t, saturateOutput (Pi.single k s) u l prop = Pi.single k t ∧ SameSign s t := by
  unfold saturateOutput
  cases prop
  · refine ⟨if u k < s then u k else if s < l k then l k else s, ?_, ?_, ?_, ?_⟩
    · ext j
      obtain rfl | hj := eq_or_ne j k
      · simp [flt]
      · simp [flt, hj, (h j).1.le.not_gt, (h j).2.le.not_gt]
    · intro hs
      have := h k
      split_ifs <;> linarith
    · intro hs
      have := h k
      split_ifs <;> linarith
    · rintro rfl
      simp [(h k).1.le.not_gt, (h k).2.le.not_gt]
  · simp only [Bool.not_true, Bool.false_eq_true, if_false]
    have step : ∀ (j : Fin n) (s : ℝ), ∃ t, propSatStep u l (Pi.single k s) j = Pi.single k t ∧ SameSign s t := by
      intro j s
      unfold propSatStep
      simp only [flt, decide_eq_true_eq]
      obtain rfl | hj := eq_or_ne j k
      · simp only [Pi.single_eq_same]
        have hk := h j
        split_ifs with h1 h2
        · refine ⟨u j / s * s, by rw [← Pi.single_smul]; rfl, SameSign.pos_mul (div_pos hk.2 (by linarith)) s⟩
        · refine ⟨l j / s * s, by rw [← Pi.single_smul]; rfl,
            SameSign.pos_mul (div_pos_of_neg_of_neg hk.1 (by linarith)) s⟩
        · exact ⟨s, by simp, SameSign.refl s⟩
      · have hk := h j
        refine ⟨s, ?_, SameSign.refl s⟩
        simp [hj, hk.1.le.not_gt, hk.2.le.not_gt]
    generalize List.finRange n = is
    induction is generalizing s with
    | nil => exact ⟨s, rfl, SameSign.refl s⟩
    | cons j js ih =>
      obtain ⟨t, ht, hst⟩ := step j s
      obtain ⟨t', ht', htt⟩ := ih t
      exact ⟨t', by rw [List.foldl_cons, ht, ht'], hst.trans htt⟩

/-- Steering in the direction of the error: positive proportional gains, no negative integral gains or
anti-windup bounds, limits enclosing zero strictly. -/
structure Steers (p : Pid ℝ n) : Prop where
  first : p.firstRun = true
  kp : ∃ k : Vec n ℝ, p.kpMat = Matrix.diagonal k ∧ ∀ i, 0 < k i
  ki : ∃ k : Vec n ℝ, p.kiMat = Matrix.diagonal k ∧ ∀ i, 0 ≤ k i
  windup : ∀ i, 0 ≤ p.antiwindup i
  limits : p.satFlag = true → ∀ i, p.lower i < 0 ∧ 0 < p.upper i

lemma accumulate_single {p : Pid ℝ n} (hi : p.integral = 0) (ha : ∀ i, 0 ≤ p.antiwindup i) {dt : ℝ}
    (hdt : 0 < dt) (k : Fin n) (s : ℝ) :
    ∃ t, p.accumulate dt (Pi.single k s) = Pi.single k t ∧ (0 < s → 0 ≤ t) ∧ (s < 0 → t ≤ 0) ∧ (s = 0 → t = 0) := by
  have h0 : (fun j => resetAxis p.resetIntegral (p.integral j) (p.antiwindup j) ((Pi.single k s : Vec n ℝ) j)) = 0 := by
    ext j
    simp [resetAxis, hi, flt]
  have h1 : dt • (Pi.single k s : Vec n ℝ) = Pi.single k (s * dt) := by
    rw [← Pi.single_smul, smul_eq_mul, mul_comm]
  unfold accumulate
  simp only [h0, flt, zero_add, h1]
  split
  · refine ⟨if p.antiwindup k < s * dt then p.antiwindup k else if s * dt < -p.antiwindup k then -p.antiwindup k
      else s * dt, ?_, ?_, ?_, ?_⟩
    · ext j
      obtain rfl | hj := eq_or_ne j k
      · simp [saturateOutput, flt]
      · simp [saturateOutput, flt, hj, (ha j).not_gt]
    · intro hs
      have := ha k; have := mul_pos hs hdt
      split_ifs <;> linarith
    · intro hs
      have := ha k; have := mul_neg_of_neg_of_pos hs hdt
      split_ifs <;> linarith
    · rintro rfl
      simp [(ha k).not_gt]
  · exact ⟨s * dt, rfl, fun h => (mul_pos h hdt).le, fun h => (mul_neg_of_neg_of_pos h hdt).le, fun h => by simp [h]⟩

/-- An error along one axis gives an output along that axis in the same direction. -/
lemma computeControl_single {p : Pid ℝ n} (h : p.Steers) {dt : ℝ} (hdt : 0 < dt) (k : Fin n) (s : ℝ) :
    ∃ t, (p.computeControl dt (Pi.single k s)).2 = Pi.single k t ∧ SameSign s t := by
  set e : Vec n ℝ := Pi.single k s with he
  obtain ⟨-, f1, -, f3, f4, f5, f6⟩ := computeControl_fields p dt e
  have hini : (p.firstRunInit e).integral = 0 ∧ (p.firstRunInit e).filtered = 0 ∧ (p.firstRunInit e).propErr = e := by
    simp [firstRunInit, h.first, flt]
  obtain ⟨a, ha, ha1, ha2, ha3⟩ := accumulate_single (p := p.firstRunInit e) hini.1
    (by rw [firstRunInit_config]; exact h.windup) hdt k s
  rw [← he] at ha
  obtain ⟨kp, hkp, hkp0⟩ := h.kp
  obtain ⟨ki, hki, hki0⟩ := h.ki
  have hfil : (p.computeControl dt e).1.filtered = 0 := by
    rw [f3, hini.2.1, hini.2.2]; simp
  have hsum : (p.computeControl dt e).1.propContrib + (p.computeControl dt e).1.intContrib +
      (p.computeControl dt e).1.derivContrib = Pi.single k (kp k * s + ki k * a) := by
    rw [f4, f5, f6, f1, hfil, ha, hkp, hki, he]
    ext j
    obtain rfl | hj := eq_or_ne j k
    · simp only [flt, Pi.add_apply, Matrix.mulVec_diagonal, Matrix.mulVec_zero, Pi.single_eq_same, Pi.zero_apply,
        add_zero]
    · simp only [flt, Pi.add_apply, Matrix.mulVec_diagonal, Matrix.mulVec_zero, Pi.single_eq_of_ne hj,
        Pi.zero_apply, add_zero, mul_zero]
  have hsgn : SameSign s (kp k * s + ki k * a) := by
    refine ⟨fun hs => ?_, fun hs => ?_, fun hs => ?_⟩
    · have := mul_pos (hkp0 k) hs; have := mul_nonneg (hki0 k) (ha1 hs); linarith
    · have := mul_neg_of_pos_of_neg (hkp0 k) hs
      have := mul_nonpos_of_nonneg_of_nonpos (hki0 k) (ha2 hs); linarith
    · simp [hs, ha3 hs]
  have ho := computeControl_output p dt e
  rw [computeControl_snd, ho]
  simp only [flt] at hsum ⊢
  rw [hsum]
  split
  · rename_i hs
    obtain ⟨t, ht, hst⟩ := saturateOutput_single p.upper p.lower p.propSat (h.limits hs) k (kp k * s + ki k * a)
    exact ⟨t, ht, hsgn.trans hst⟩
  · exact ⟨_, rfl, hsgn⟩

end Verif.Pid
