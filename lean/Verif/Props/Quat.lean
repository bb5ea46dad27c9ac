import Verif.Lemmas.Quat

/-!
# C22: quaternion integration (reals)
-/

namespace Verif.Props

open Verif Flt Spec

/-- **C22.** The computed derivative is `q ⊗ ω / 2` and is orthogonal to `q`. -/
theorem C22_derivative (q : Quat ℝ) (om : Vec 3 ℝ) :
    toH (Quat.ofCoeffs (quatDerivative q om)) = (1 / 2 : ℝ) • (toH q * pureH om) ∧
    q.coeffs ⬝ᵥ quatDerivative q om = 0 := by
  constructor
  · ext <;> simp [Quat.ofCoeffs, quatDerivative, Quat.coeffs, Quat.mul, flt] <;> ring
  · simp [quatDerivative, Quat.coeffs, Quat.mul, flt, dotProduct, Fin.sum_univ_succ]
    ring

/-- **C22.** Integrating any non-zero quaternion gives a unit quaternion: the normalisation of
`q + q ⊗ ω dt / 2`, whose norm is at least that of `q`. -/
theorem C22_integrate (q : Quat ℝ) (hq : NonzeroQ q) (om : Vec 3 ℝ) (dt : ℝ) :
    IsUnitQ (quatIntegrate q om dt) ∧
    ∃ c : ℝ, 0 < c ∧ c ^ 2 * Quaternion.normSq (toH q) ≤ 1 ∧
      toH (quatIntegrate q om dt) = c • (toH q + toH q * pureH ((dt / 2) • om)) := by
  refine ⟨Quat.quatIntegrate_unit hq om dt, ?_⟩
  have hn := Quat.n2_pos (Quat.integrate_nonzero hq om dt)
  have hq' := Quat.n2_pos hq
  refine ⟨(√(Quat.ofCoeffs (vadd q.coeffs (smulR (quatDerivative q om) dt))).n2)⁻¹,
    inv_pos.2 (Real.sqrt_pos.2 hn), ?_, ?_⟩
  · rw [inv_pow, Real.sq_sqrt hn.le, inv_mul_le_iff₀ hn, Quat.integrate_n2]
    have h1 : Quaternion.normSq (toH q) = q.n2 := by rw [Quaternion.normSq_def']; simp [Quat.n2]
    rw [h1, mul_one]
    nlinarith [mul_nonneg hq'.le (show 0 ≤ dt ^ 2 / 4 * (om 0 ^ 2 + om 1 ^ 2 + om 2 ^ 2) by positivity)]
  · unfold quatIntegrate
    rw [Quat.normalized_eq]
    generalize √(Quat.ofCoeffs (vadd q.coeffs (smulR (quatDerivative q om) dt))).n2 = r
    rw [Quat.integrate_eq]
    ext <;> simp <;> ring

/-- **C22.** With zero rate integration is normalisation, and leaves a unit quaternion alone. -/
theorem C22_zero_rate (q : Quat ℝ) (dt : ℝ) :
    toH (quatIntegrate q 0 dt) = (√(Quaternion.normSq (toH q)))⁻¹ • toH q ∧
    (IsUnitQ q → quatIntegrate q 0 dt = q) := by
  have h : Quat.ofCoeffs (vadd q.coeffs (smulR (quatDerivative q 0) dt)) = q := by
    rw [Quat.integrate_eq]; simp
  constructor
  · unfold quatIntegrate
    have h1 : Quaternion.normSq (toH q) = q.n2 := by rw [Quaternion.normSq_def']; simp [Quat.n2]
    rw [h, Quat.normalized_eq, h1]
    ext <;> simp [div_eq_inv_mul]
  · intro hu
    unfold quatIntegrate
    rw [h, Quat.normalized_of_unit hu]

/-- Non-vacuity: a non-zero quaternion that is not a unit quaternion. -/
example : NonzeroQ ⟨1, 2, 3, 4⟩ ∧ ¬ IsUnitQ ⟨1, 2, 3, 4⟩ := by
  constructor
  · simp [NonzeroQ]
  · simp [IsUnitQ]; norm_num

end Verif.Props
