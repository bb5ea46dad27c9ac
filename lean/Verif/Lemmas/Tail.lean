import Verif.Spec.Chance
import Mathlib.Probability.Moments.SubGaussian

/-!
# Tails of normal samples
-/

namespace Verif

open MeasureTheory ProbabilityTheory

variable {Ω : Type} [MeasurableSpace Ω] {P : Measure Ω}

lemma normal_tail {X : Ω → ℝ} (h : HasLaw X (gaussianReal 0 1) P) {ε : ℝ} (hε : 0 ≤ ε) :
    P {ω | ε < |X ω|} ≤ ENNReal.ofReal (2 * Real.exp (-ε ^ 2 / 2)) := by
  haveI : IsProbabilityMeasure P := by
    have h1 : P.map X Set.univ = 1 := by rw [h.map_eq]; exact measure_univ
    rw [Measure.map_apply_of_aemeasurable h.aemeasurable MeasurableSet.univ] at h1
    exact ⟨by simpa using h1⟩
  have hm : HasSubgaussianMGF X 1 P := by
    refine ⟨fun t => ?_, fun t => ?_⟩
    · have := integrable_exp_mul_gaussianReal (μ := 0) (v := 1) t
      rw [← h.map_eq] at this
      exact this.comp_aemeasurable h.aemeasurable
    · rw [mgf_gaussianReal h.map_eq]; simp
  have t1 := hm.measure_ge_le hε
  have t2 := hm.neg.measure_ge_le hε
  have hsub : {ω | ε < |X ω|} ⊆ {ω | ε ≤ X ω} ∪ {ω | ε ≤ (-X) ω} := fun ω hω => by
    rcases lt_abs.1 (show ε < |X ω| from hω) with h | h
    · exact .inl h.le
    · exact .inr h.le
  have hle : P.real {ω | ε < |X ω|} ≤ 2 * Real.exp (-ε ^ 2 / 2) := by
    refine (measureReal_mono hsub).trans ((measureReal_union_le _ _).trans ?_)
    simp only [NNReal.coe_one, mul_one] at t1 t2
    linarith
  rw [← ENNReal.ofReal_toReal (measure_ne_top P {ω | ε < |X ω|})]
  exact ENNReal.ofReal_le_ofReal hle

/-- The probability that any of finitely many normal samples is large. -/
lemma normal_tails {ι : Type} (s : Finset ι) {X : ι → Ω → ℝ} (h : ∀ i ∈ s, HasLaw (X i) (gaussianReal 0 1) P) {ε : ℝ}
    (hε : 0 ≤ ε) : P {ω | ∃ i ∈ s, ε < |X i ω|} ≤ ENNReal.ofReal (s.card * (2 * Real.exp (-ε ^ 2 / 2))) := by
  have hsub : {ω | ∃ i ∈ s, ε < |X i ω|} = ⋃ i ∈ s, {ω | ε < |X i ω|} := by
    ext ω; simp
  rw [hsub]
  refine (measure_biUnion_finset_le s _).trans ((Finset.sum_le_sum fun i hi => normal_tail (h i hi) hε).trans_eq ?_)
  rw [Finset.sum_const, nsmul_eq_mul, ENNReal.ofReal_mul (Nat.cast_nonneg _), ENNReal.ofReal_natCast]

end Verif
