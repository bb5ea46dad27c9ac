import Verif.Lemmas.Attitude
import Verif.Lemmas.Quat

/-!
# Helper lemmas about rotation matrices of quaternions
-/

namespace Verif

open Flt Spec

namespace Quat

lemma toMat_real (q : Quat ℝ) : q.toMat =
    !![1 - 2 * (q.y * q.y + q.z * q.z), 2 * (q.x * q.y - q.w * q.z), 2 * (q.x * q.z + q.w * q.y);
       2 * (q.x * q.y + q.w * q.z), 1 - 2 * (q.x * q.x + q.z * q.z), 2 * (q.y * q.z - q.w * q.x);
       2 * (q.x * q.z - q.w * q.y), 2 * (q.y * q.z + q.w * q.x), 1 - 2 * (q.x * q.x + q.y * q.y)] := by
  ext i j
  fin_cases i <;> fin_cases j <;> simp [toMat, flt] <;> ring

lemma toMat_mulVec (q : Quat ℝ) (v : Vec 3 ℝ) : q.toMat.mulVec v = q.rotate v := by
  rw [toMat_real, rotate_eq]
  ext i
  fin_cases i <;> simp [Matrix.mulVec, dotProduct, Fin.sum_univ_three] <;> ring

lemma toMat_rotation {q : Quat ℝ} (h : IsUnitQ q) : IsRotation q.toMat := by
  have h' : q.w ^ 2 + q.x ^ 2 + q.y ^ 2 + q.z ^ 2 = 1 := h
  rw [toMat_real]
  constructor
  · ext i j
    fin_cases i <;> fin_cases j <;> simp [Matrix.mul_apply, Fin.sum_univ_three]
    · linear_combination 4 * (q.y ^ 2 + q.z ^ 2) * h'
    · linear_combination -4 * q.x * q.y * h'
    · linear_combination -4 * q.x * q.z * h'
    · linear_combination -4 * q.x * q.y * h'
    · linear_combination 4 * (q.x ^ 2 + q.z ^ 2) * h'
    · linear_combination -4 * q.y * q.z * h'
    · linear_combination -4 * q.x * q.z * h'
    · linear_combination -4 * q.y * q.z * h'
    · linear_combination 4 * (q.x ^ 2 + q.y ^ 2) * h'
  · simp [Matrix.det_fin_three]
    linear_combination 4 * (q.x ^ 2 + q.y ^ 2 + q.z ^ 2) * h'

lemma axis_toMat (q : Quat ℝ) (t : ℝ) : q.rotate ![0, 0, t] = t • axis q.toMat 2 := by
  rw [← toMat_mulVec]
  ext i
  simp [Matrix.mulVec, dotProduct, Fin.sum_univ_three, axis, mul_comm]

end Quat

end Verif
