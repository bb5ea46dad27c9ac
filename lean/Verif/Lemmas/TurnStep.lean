import Verif.Props.Drift
import Mathlib.Analysis.Normed.Algebra.QuaternionExponential
import Mathlib.Analysis.SpecialFunctions.Trigonometric.ArctanDeriv
import Mathlib.Analysis.SpecialFunctions.Trigonometric.Bounds

/-!
# A step of the attitude integrator and a rotation with constant rate
-/

namespace Verif.Props

open Verif Flt Spec

lemma arctan_le_id {x : ℝ} (h : 0 ≤ x) : Real.arctan x ≤ x := by
  have hd : ∀ y, HasDerivAt (fun x => x - Real.arctan x) (1 - 1 / (1 + y ^ 2)) y := fun y =>
    (hasDerivAt_id' y).fun_sub (Real.hasDerivAt_arctan y)
  have hm : Monotone fun x => x - Real.arctan x := by
    refine monotone_of_deriv_nonneg (fun y => (hd y).differentiableAt) fun y => ?_
    rw [(hd y).deriv, sub_nonneg, div_le_one (by positivity)]
    nlinarith
  have := hm h
  simp only [Real.arctan_zero, sub_zero] at this
  linarith

lemma id_sub_arctan_le {x : ℝ} (h : 0 ≤ x) : x - Real.arctan x ≤ x ^ 3 / 3 := by
  have hd : ∀ y, HasDerivAt (fun x => x ^ 3 / 3 - (x - Real.arctan x)) (3 * y ^ 2 / 3 - (1 - 1 / (1 + y ^ 2))) y := fun y => by
    have := ((hasDerivAt_pow 3 y).div_const 3).fun_sub ((hasDerivAt_id' y).fun_sub (Real.hasDerivAt_arctan y))
    simpa using this
  have hm : Monotone fun x => x ^ 3 / 3 - (x - Real.arctan x) := by
    refine monotone_of_deriv_nonneg (fun y => (hd y).differentiableAt) fun y => ?_
    rw [(hd y).deriv]
    have e : 3 * y ^ 2 / 3 - (1 - 1 / (1 + y ^ 2)) = y ^ 4 / (1 + y ^ 2) := by
      field_simp
      ring
    rw [e]
    positivity
  have := hm h
  simp only [Real.arctan_zero, sub_zero, ne_eq, OfNat.ofNat_ne_zero, not_false_eq_true, zero_pow, zero_div] at this
  linarith

lemma norm_add_smul_pure {x : Quaternion ℝ} (hx : x.re = 0) (a b : ℝ) :
    ‖(a : Quaternion ℝ) + b • x‖ ^ 2 = a ^ 2 + (b * ‖x‖) ^ 2 := by
  have h1 := Quaternion.normSq_eq_norm_mul_self ((a : Quaternion ℝ) + b • x)
  have h2 := Quaternion.normSq_eq_norm_mul_self x
  rw [Quaternion.normSq_def'] at h1 h2
  simp only [Quaternion.re_add, Quaternion.imI_add, Quaternion.imJ_add, Quaternion.imK_add, Quaternion.re_coe, Quaternion.imI_coe,
    Quaternion.imJ_coe, Quaternion.imK_coe, Quaternion.re_smul, Quaternion.imI_smul, Quaternion.imJ_smul, Quaternion.imK_smul, hx,
    smul_eq_mul] at h1 h2
  rw [pow_two, ← h1, mul_pow, pow_two ‖x‖, ← h2]
  ring

/-- The step of the integrator turns through nearly the same angle as the exponential. -/
lemma step_near_exp {x : Quaternion ℝ} (hx : x.re = 0) :
    ‖‖1 + x‖⁻¹ • (1 + x) - NormedSpace.exp x‖ ≤ ‖x‖ ^ 3 / 3 := by
  rw [Quaternion.exp_of_re_eq_zero x hx]
  rcases eq_or_ne ‖x‖ 0 with h0 | h0
  · have : x = 0 := norm_eq_zero.1 h0
    subst this
    simp
  set θ := ‖x‖ with hθ
  have hn0 : 0 ≤ θ := norm_nonneg x
  have hN : ‖1 + x‖ = √(1 + θ ^ 2) := by
    have := norm_add_smul_pure hx 1 1
    rw [one_smul, one_mul, ← hθ, Quaternion.coe_one] at this
    rw [← Real.sqrt_sq (norm_nonneg (1 + x)), this, one_pow]
  set φ := Real.arctan θ with hφ
  have hc : Real.cos φ = ‖1 + x‖⁻¹ := by rw [hφ, Real.cos_arctan, hN, one_div]
  have hsn : Real.sin φ = θ * ‖1 + x‖⁻¹ := by rw [hφ, Real.sin_arctan, hN, div_eq_mul_inv]
  have e : ‖1 + x‖⁻¹ • (1 + x) - (((Real.cos θ : ℝ) : Quaternion ℝ) + (Real.sin θ / θ) • x) =
      ((Real.cos φ - Real.cos θ : ℝ) : Quaternion ℝ) + (‖1 + x‖⁻¹ - Real.sin θ / θ) • x := by
    have h1 : ‖1 + x‖⁻¹ • (1 : Quaternion ℝ) = ((‖1 + x‖⁻¹ : ℝ) : Quaternion ℝ) := by
      rw [← Quaternion.coe_one, Quaternion.smul_coe, mul_one]
    rw [hc, smul_add, h1, sub_smul, Quaternion.coe_sub]
    abel
  have hsq : ‖‖1 + x‖⁻¹ • (1 + x) - (((Real.cos θ : ℝ) : Quaternion ℝ) + (Real.sin θ / θ) • x)‖ ^ 2 ≤ (θ - φ) ^ 2 := by
    rw [e, norm_add_smul_pure hx, ← hθ, sub_mul, div_mul_cancel₀ _ h0, mul_comm _ θ, ← hsn]
    have h1 := Real.one_sub_sq_div_two_le_cos (x := θ - φ)
    rw [Real.cos_sub] at h1
    nlinarith [Real.sin_sq_add_cos_sq θ, Real.sin_sq_add_cos_sq φ]
  have hφ1 : φ ≤ θ := arctan_le_id hn0
  exact (pow_le_pow_iff_left₀ (norm_nonneg _) (sub_nonneg.2 hφ1) two_ne_zero).1 hsq |>.trans (id_sub_arctan_le hn0)

/-- A step of the integrator compared with a body that turns at a constant rate. -/
lemma turn_step {q g g' : Quat ℝ} (hq : IsUnitQ q) (hg : IsUnitQ g) (om d : Vec 3 ℝ) {dt : ℝ} (h0 : 0 ≤ dt)
    (h : toH g' = toH g * NormedSpace.exp ((dt / 2) • pureH d)) :
    ‖toH (quatIntegrate q om dt) - toH g'‖ ≤ ‖toH q - toH g‖ + dt / 2 * dist3 om d + (dt / 2 * len3 d) ^ 3 / 3 := by
  have h1 := drift_step hq hg om d h0
  have h2 : ‖toH (quatIntegrate g d dt) - toH g'‖ ≤ (dt / 2 * len3 d) ^ 3 / 3 := by
    have hre : ((dt / 2) • pureH d).re = 0 := by simp
    have e := step_near_exp hre
    rw [toH_integrate hg, h, ← mul_smul_comm, ← mul_sub, norm_mul, norm_toH hg, one_mul]
    refine e.trans (le_of_eq ?_)
    rw [norm_smul, Real.norm_of_nonneg (by positivity), len3_eq]
  calc _ = ‖(toH (quatIntegrate q om dt) - toH (quatIntegrate g d dt)) + (toH (quatIntegrate g d dt) - toH g')‖ := by
        rw [sub_add_sub_cancel]
    _ ≤ _ := (norm_add_le _ _).trans (add_le_add h1 h2)

lemma turn_unit {g g' : Quat ℝ} (hg : IsUnitQ g) (d : Vec 3 ℝ) (dt : ℝ)
    (h : toH g' = toH g * NormedSpace.exp ((dt / 2) • pureH d)) : IsUnitQ g' := by
  have hn : ‖toH g'‖ = 1 := by
    rw [h, norm_mul, norm_toH hg, Quaternion.norm_exp]
    simp
  have h1 := Quaternion.normSq_eq_norm_mul_self (toH g')
  rw [Quaternion.normSq_def', hn] at h1
  simp only [Quat.toH_re, Quat.toH_imI, Quat.toH_imJ, Quat.toH_imK, mul_one] at h1
  exact h1

end Verif.Props
