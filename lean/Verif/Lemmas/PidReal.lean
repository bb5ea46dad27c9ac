import Verif.Lemmas.PidReset
import Mathlib.Tactic.Linarith
import Mathlib.Tactic.Ring
import Mathlib.Tactic.FieldSimp
import Mathlib.Tactic.NormNum
import Mathlib.Tactic.Positivity

/-!
# The vector PID over the reals
-/

namespace Verif

open Flt Spec

namespace Pid

section
variable {α : Type} [Flt α] {n : ℕ}

lemma run_append (p : Pid α n) (os os' : List (PidOp α n)) :
    p.run (os ++ os') = (((p.run os).1.run os').1, (p.run os).2 ++ ((p.run os).1.run os').2) := by
  induction os generalizing p with
  | nil => rfl
  | cons o os ih => simp [Pid.run, ih]

omit [Flt α] in
lemma calls_succ (e : ℕ → Vec n α) (dt : ℕ → α) (k : ℕ) :
    calls e dt (k + 1) = calls e dt k ++ [.control (dt k) (e k)] := by
  simp [calls, List.range_succ]

end

variable {n : ℕ}

lemma axisOk_real (u l : Vec n ℝ) (i : Fin n) : AxisOk u l i ↔ (Flt.eps : ℝ) ≤ u i - l i := by
  have := eps_pos
  simp only [AxisOk, flt, decide_eq_false_iff_not, not_lt]
  constructor
  · rintro ⟨h1, h2⟩; rwa [abs_of_nonneg (by linarith)] at h1
  · intro h; exact ⟨h.trans (le_abs_self _), by linarith⟩

lemma propSatStep_real (u l s : Vec n ℝ) (j : Fin n) (hu : 0 ≤ u j) (hl : l j ≤ 0) :
    ∃ c : ℝ, 0 ≤ c ∧ c ≤ 1 ∧ propSatStep u l s j = c • s ∧ l j ≤ c * s j ∧ c * s j ≤ u j := by
  unfold propSatStep
  simp only [flt, decide_eq_true_eq]
  by_cases h1 : u j < s j
  · have hs : 0 < s j := by linarith
    refine ⟨u j / s j, by positivity, by rw [div_le_one hs]; exact h1.le, by simp [h1], ?_, ?_⟩ <;>
      rw [div_mul_cancel₀ _ hs.ne']
    linarith
  · by_cases h2 : s j < l j
    · have hs : s j < 0 := by linarith
      refine ⟨l j / s j, div_nonneg_of_nonpos hl hs.le, ?_, by simp [h1, h2], ?_, ?_⟩
      · rw [div_le_one_of_neg hs]; exact h2.le
      · rw [div_mul_cancel₀ _ hs.ne]
      · rw [div_mul_cancel₀ _ hs.ne]; linarith
    · exact ⟨1, by simp, by simp, by simp [h1, h2], by linarith, by linarith⟩

lemma foldl_propSat (u l : Vec n ℝ) (hu : ∀ j, 0 ≤ u j) (hl : ∀ j, l j ≤ 0) (is : List (Fin n))
    (s : Vec n ℝ) :
    ∃ c : ℝ, 0 ≤ c ∧ c ≤ 1 ∧ is.foldl (propSatStep u l) s = c • s ∧
      ∀ j, (j ∈ is ∨ (l j ≤ s j ∧ s j ≤ u j)) → l j ≤ c * s j ∧ c * s j ≤ u j := by
  induction is generalizing s with
  | nil => exact ⟨1, by simp, by simp, by simp, by simp⟩
  | cons i is ih =>
    obtain ⟨c, hc0, hc1, hc, hcl, hcu⟩ := propSatStep_real u l s i (hu i) (hl i)
    obtain ⟨d, hd0, hd1, hd, hj⟩ := ih (c • s)
    refine ⟨d * c, by positivity, ?_, ?_, ?_⟩
    · exact mul_le_one₀ hd1 hc0 hc1
    · rw [List.foldl_cons, hc, hd, smul_smul]
    · intro j hjm
      have := hj j ?_
      · simpa [mul_assoc] using this
      · rcases hjm with hjm | ⟨h1, h2⟩
        · rcases List.mem_cons.1 hjm with rfl | hjm
          · exact .inr (by simpa using ⟨hcl, hcu⟩)
          · exact .inl hjm
        · right
          have := hu j; have := hl j
          simp only [Pi.smul_apply, smul_eq_mul]
          constructor
          · rcases le_total 0 (s j) with h | h
            · have := mul_nonneg hc0 h; linarith
            · nlinarith
          · rcases le_total 0 (s j) with h | h
            · nlinarith
            · have := mul_nonpos_of_nonneg_of_nonpos hc0 h; linarith

lemma diag_mv (k v : Vec n ℝ) (i : Fin n) : mv (mdiag k) v i = k i * v i := by
  simp [flt, Matrix.mulVec_diagonal]

/-- The accumulator is clamped to the anti-windup constant. -/
lemma accumulate_abs_le (p : Pid ℝ n) (hpos : ∀ i, 0 < p.antiwindup i) (dt : ℝ) (e : Vec n ℝ)
    (i : Fin n) : |p.accumulate dt e i| ≤ p.antiwindup i := by
  have hnz : nonZero p.antiwindup = true := by
    simp only [nonZero, List.any_eq_true]
    exact ⟨i, List.mem_finRange i, by simp [flt, (hpos i).ne']⟩
  unfold accumulate
  simp only [hnz, if_true, saturateOutput, Bool.not_false, flt, decide_eq_true_eq]
  have := hpos i
  simp only [neg_smul, one_smul, Pi.neg_apply, Pi.add_apply]
  split
  · rw [abs_of_pos this]
  · split
    · rw [abs_neg, abs_of_pos this]
    · rw [abs_le]; constructor <;> linarith

lemma computeControl_fields (p : Pid ℝ n) (dt : ℝ) (e : Vec n ℝ) :
    let p0 := p.firstRunInit e
    let r := (p.computeControl dt e).1
    r.firstRun = false ∧ r.integral = p0.accumulate dt e ∧ r.propErr = e ∧
    r.filtered = p.alpha * (dt⁻¹ • (e - p0.propErr)) + (1 - p.alpha) * p0.filtered ∧
    r.propContrib = mv p.kpMat e ∧ r.intContrib = mv p.kiMat r.integral ∧
    r.derivContrib = mv p.kdMat r.filtered := by
  unfold computeControl firstRunInit
  by_cases h : p.firstRun = true
  · simp [h, computeIntegral, computeDerivativeByDeriving, finishOutput, computeDerivative,
      accumulate, flt]
  · simp [h, computeIntegral, computeDerivativeByDeriving, finishOutput, computeDerivative,
      accumulate, flt]

lemma computeControlD_fields (p : Pid ℝ n) (dt : ℝ) (e de : Vec n ℝ) :
    let p0 := p.firstRunInit e
    let r := (p.computeControlD dt e de).1
    r.firstRun = false ∧ r.integral = p0.accumulate dt e ∧ r.propErr = e ∧
    r.filtered = p0.filtered ∧
    r.propContrib = mv p.kpMat e ∧ r.intContrib = mv p.kiMat r.integral ∧
    r.derivContrib = mv p.kdMat de := by
  unfold computeControlD firstRunInit
  by_cases h : p.firstRun = true
  · simp [h, computeIntegral, finishOutput, computeDerivative, accumulate]
  · simp [h, computeIntegral, finishOutput, computeDerivative, accumulate]

end Pid

end Verif
