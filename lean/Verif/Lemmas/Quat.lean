import Verif.Spec.Quat
import Verif.Model.State
import Mathlib.Tactic.LinearCombination
import Mathlib.Tactic.FieldSimp
import Mathlib.Tactic.Positivity

/-!
# Helper lemmas about quaternions over the reals
-/

namespace Verif

open Flt Spec

namespace Quat

section
variable (q : Quat ℝ) (v : Vec 3 ℝ)
@[simp] lemma toH_re : (toH q).re = q.w := rfl
@[simp] lemma toH_imI : (toH q).imI = q.x := rfl
@[simp] lemma toH_imJ : (toH q).imJ = q.y := rfl
@[simp] lemma toH_imK : (toH q).imK = q.z := rfl
@[simp] lemma pureH_re : (pureH v).re = 0 := rfl
@[simp] lemma pureH_imI : (pureH v).imI = v 0 := rfl
@[simp] lemma pureH_imJ : (pureH v).imJ = v 1 := rfl
@[simp] lemma pureH_imK : (pureH v).imK = v 2 := rfl
end

/-- Squared norm. -/
def n2 (q : Quat ℝ) : ℝ := q.w ^ 2 + q.x ^ 2 + q.y ^ 2 + q.z ^ 2

lemma coeffs_dot (q : Quat ℝ) : q.coeffs ⬝ᵥ q.coeffs = q.n2 := by
  simp [coeffs, dotProduct, Fin.sum_univ_succ, n2]
  ring

lemma n2_nonneg (q : Quat ℝ) : 0 ≤ q.n2 := by unfold n2; positivity

lemma n2_eq_zero (q : Quat ℝ) : q.n2 = 0 ↔ q.w = 0 ∧ q.x = 0 ∧ q.y = 0 ∧ q.z = 0 := by
  constructor
  · intro h
    unfold n2 at h
    have h1 := sq_nonneg q.w
    have h2 := sq_nonneg q.x
    have h3 := sq_nonneg q.y
    have h4 := sq_nonneg q.z
    refine ⟨?_, ?_, ?_, ?_⟩ <;> apply pow_eq_zero_iff (two_ne_zero) |>.1 <;> linarith
  · rintro ⟨h1, h2, h3, h4⟩
    simp [n2, h1, h2, h3, h4]

lemma n2_pos {q : Quat ℝ} (h : NonzeroQ q) : 0 < q.n2 :=
  lt_of_le_of_ne q.n2_nonneg fun h' => h ((n2_eq_zero q).1 h'.symm)

lemma isUnitQ_iff (q : Quat ℝ) : IsUnitQ q ↔ q.n2 = 1 := Iff.rfl

lemma _root_.Verif.Spec.IsUnitQ.nonzero {q : Quat ℝ} (h : IsUnitQ q) : NonzeroQ q := by
  rintro ⟨h1, h2, h3, h4⟩
  simp [IsUnitQ, h1, h2, h3, h4] at h

lemma normalized_eq (q : Quat ℝ) :
    q.normalized = ⟨q.w / √q.n2, q.x / √q.n2, q.y / √q.n2, q.z / √q.n2⟩ := by
  unfold normalized
  rw [normalized_real, coeffs_dot]
  simp [ofCoeffs, coeffs, div_eq_inv_mul]

lemma normalized_unit {q : Quat ℝ} (h : NonzeroQ q) : IsUnitQ q.normalized := by
  have hp := n2_pos h
  rw [normalized_eq]
  simp only [IsUnitQ, div_pow, Real.sq_sqrt hp.le]
  rw [← add_div, ← add_div, ← add_div]
  exact div_self hp.ne'

lemma normalized_of_unit {q : Quat ℝ} (h : IsUnitQ q) : q.normalized = q := by
  rw [normalized_eq, (isUnitQ_iff q).1 h]
  simp

/-- `get_quaternion_integrate` before normalisation. -/
lemma integrate_eq (q : Quat ℝ) (om : Vec 3 ℝ) (dt : ℝ) :
    ofCoeffs (vadd q.coeffs (smulR (quatDerivative q om) dt)) =
      ⟨q.w + dt / 2 * (-q.x * om 0 - q.y * om 1 - q.z * om 2),
       q.x + dt / 2 * (q.w * om 0 + q.y * om 2 - q.z * om 1),
       q.y + dt / 2 * (q.w * om 1 + q.z * om 0 - q.x * om 2),
       q.z + dt / 2 * (q.w * om 2 + q.x * om 1 - q.y * om 0)⟩ := by
  ext <;> simp [ofCoeffs, coeffs, quatDerivative, mul, flt] <;> ring

lemma integrate_n2 (q : Quat ℝ) (om : Vec 3 ℝ) (dt : ℝ) :
    (ofCoeffs (vadd q.coeffs (smulR (quatDerivative q om) dt))).n2 =
      q.n2 * (1 + dt ^ 2 / 4 * (om 0 ^ 2 + om 1 ^ 2 + om 2 ^ 2)) := by
  rw [integrate_eq]
  simp only [n2]
  ring

lemma integrate_nonzero {q : Quat ℝ} (h : NonzeroQ q) (om : Vec 3 ℝ) (dt : ℝ) :
    NonzeroQ (ofCoeffs (vadd q.coeffs (smulR (quatDerivative q om) dt))) := by
  intro h0
  have h1 := (n2_eq_zero _).2 h0
  rw [integrate_n2] at h1
  have h2 := n2_pos h
  have h3 : 0 < 1 + dt ^ 2 / 4 * (om 0 ^ 2 + om 1 ^ 2 + om 2 ^ 2) := by positivity
  exact (mul_pos h2 h3).ne' h1

lemma quatIntegrate_unit {q : Quat ℝ} (h : NonzeroQ q) (om : Vec 3 ℝ) (dt : ℝ) :
    IsUnitQ (quatIntegrate q om dt) := normalized_unit (integrate_nonzero h om dt)

lemma rotate_eq (q : Quat ℝ) (v : Vec 3 ℝ) :
    q.rotate v =
      ![v 0 + 2 * (q.w * (q.y * v 2 - q.z * v 1) + q.y * (q.x * v 1 - q.y * v 0)
          - q.z * (q.z * v 0 - q.x * v 2)),
        v 1 + 2 * (q.w * (q.z * v 0 - q.x * v 2) + q.z * (q.y * v 2 - q.z * v 1)
          - q.x * (q.x * v 1 - q.y * v 0)),
        v 2 + 2 * (q.w * (q.x * v 1 - q.y * v 0) + q.x * (q.z * v 0 - q.x * v 2)
          - q.y * (q.y * v 2 - q.z * v 1))] := by
  ext i
  simp only [rotate, vec, cross, vadd, smulL]
  fin_cases i <;> simp [flt] <;> ring

lemma inverse_unit {q : Quat ℝ} (h : IsUnitQ q) : q.inverse = ⟨q.w, -q.x, -q.y, -q.z⟩ := by
  have h' := (isUnitQ_iff q).1 h
  unfold inverse
  simp only [normSq_real, coeffs_dot, h', flt]
  simp

lemma inverse_isUnit {q : Quat ℝ} (h : IsUnitQ q) : IsUnitQ q.inverse := by
  rw [inverse_unit h]
  simpa [IsUnitQ] using h

lemma inverse_inverse {q : Quat ℝ} (h : IsUnitQ q) : q.inverse.inverse = q := by
  rw [inverse_unit (inverse_isUnit h), inverse_unit h]
  simp

lemma rotate_add (q : Quat ℝ) (u v : Vec 3 ℝ) : q.rotate (u + v) = q.rotate u + q.rotate v := by
  rw [rotate_eq, rotate_eq, rotate_eq]
  ext i
  fin_cases i <;> simp <;> ring

lemma rotate_smul (q : Quat ℝ) (c : ℝ) (v : Vec 3 ℝ) : q.rotate (c • v) = c • q.rotate v := by
  rw [rotate_eq, rotate_eq]
  ext i
  fin_cases i <;> simp <;> ring

lemma rotate_zero (q : Quat ℝ) : q.rotate 0 = 0 := by
  rw [rotate_eq]
  ext i
  fin_cases i <;> simp

lemma rotate_identity (v : Vec 3 ℝ) : (identity : Quat ℝ).rotate v = v := by
  rw [rotate_eq]
  ext i
  fin_cases i <;> simp [identity, flt]

/-- Rotation by a unit quaternion is undone by its inverse. -/
lemma inverse_rotate_rotate {q : Quat ℝ} (h : IsUnitQ q) (v : Vec 3 ℝ) :
    q.inverse.rotate (q.rotate v) = v := by
  have h' : q.w ^ 2 + q.x ^ 2 + q.y ^ 2 + q.z ^ 2 = 1 := h
  rw [inverse_unit h, rotate_eq, rotate_eq]
  ext i
  fin_cases i <;> simp
  · linear_combination
      (4 * (q.y ^ 2 * v 0 + q.z ^ 2 * v 0 - q.x * q.y * v 1 - q.x * q.z * v 2)) * h'
  · linear_combination
      (4 * (q.x ^ 2 * v 1 + q.z ^ 2 * v 1 - q.x * q.y * v 0 - q.y * q.z * v 2)) * h'
  · linear_combination
      (4 * (q.x ^ 2 * v 2 + q.y ^ 2 * v 2 - q.x * q.z * v 0 - q.y * q.z * v 1)) * h'

lemma rotate_inverse_rotate {q : Quat ℝ} (h : IsUnitQ q) (v : Vec 3 ℝ) :
    q.rotate (q.inverse.rotate v) = v := by
  have := inverse_rotate_rotate (inverse_isUnit h) v
  rwa [inverse_inverse h] at this

/-- Rotation by a unit quaternion preserves the norm. -/
lemma rotate_dot {q : Quat ℝ} (h : IsUnitQ q) (v : Vec 3 ℝ) :
    q.rotate v ⬝ᵥ q.rotate v = v ⬝ᵥ v := by
  have h' : q.w ^ 2 + q.x ^ 2 + q.y ^ 2 + q.z ^ 2 = 1 := h
  rw [rotate_eq]
  simp only [dotProduct, Fin.sum_univ_three, Matrix.cons_val_zero, Matrix.cons_val_one, Matrix.cons_val]
  linear_combination (4 * ((q.y * v 2 - q.z * v 1) ^ 2 + (q.z * v 0 - q.x * v 2) ^ 2 +
    (q.x * v 1 - q.y * v 0) ^ 2)) * h'

/-- `q * v` of Eigen is the sandwich product, for unit quaternions. -/
lemma rotate_isRotated {q : Quat ℝ} (h : IsUnitQ q) (v : Vec 3 ℝ) : IsRotated q v (q.rotate v) := by
  have h' : q.w ^ 2 + q.x ^ 2 + q.y ^ 2 + q.z ^ 2 = 1 := h
  have hn : Quaternion.normSq (toH q) = 1 := by
    rw [Quaternion.normSq_def']; simpa using h'
  unfold IsRotated
  have : (toH q)⁻¹ = star (toH q) := by
    rw [Quaternion.inv_def, hn]; simp
  rw [this, rotate_eq]
  ext
  · simp; ring
  · simp; linear_combination (-v 0) * h'
  · simp; linear_combination (-v 1) * h'
  · simp; linear_combination (-v 2) * h'

end Quat

end Verif
