import Verif.Spec.Attitude
import Verif.Model.Controllers
import Mathlib.LinearAlgebra.Matrix.Adjugate

/-!
# Helper lemmas about the attitude law over the reals
-/

namespace Verif

open Flt Spec

lemma dot3 (u v : Vec 3 ℝ) : u ⬝ᵥ v = u 0 * v 0 + u 1 * v 1 + u 2 * v 2 := by
  simp [dotProduct, Fin.sum_univ_three]

namespace Spec

lemma IsRotation.orth' {R : Mat 3 3 ℝ} (h : IsRotation R) : R * R.transpose = 1 := mul_eq_one_comm.1 h.orth

lemma axis_dot (R : Mat 3 3 ℝ) (i j : Fin 3) : axis R i ⬝ᵥ axis R j = (R.transpose * R) i j := by
  simp [Matrix.mul_apply, dotProduct, axis]

lemma IsRotation.dot {R : Mat 3 3 ℝ} (h : IsRotation R) (i j : Fin 3) :
    axis R i ⬝ᵥ axis R j = if i = j then 1 else 0 := by
  rw [axis_dot, h.orth, Matrix.one_apply]

/-- The cofactors of a rotation are its entries. -/
lemma IsRotation.adjugate {R : Mat 3 3 ℝ} (h : IsRotation R) : R.adjugate = R.transpose := by
  have h1 : R.adjugate * R = 1 := by rw [Matrix.adjugate_mul, h.det, one_smul]
  calc R.adjugate = R.adjugate * (R * R.transpose) := by rw [h.orth', Matrix.mul_one]
    _ = R.transpose := by rw [← Matrix.mul_assoc, h1, Matrix.one_mul]

lemma IsRotation.cross_yz {R : Mat 3 3 ℝ} (h : IsRotation R) :
    crossProduct (axis R 1) (axis R 2) = axis R 0 := by
  have := h.adjugate
  rw [Matrix.adjugate_fin_three] at this
  have h0 := congrFun (congrFun this 0) 0
  have h1 := congrFun (congrFun this 0) 1
  have h2 := congrFun (congrFun this 0) 2
  simp at h0 h1 h2
  ext i; fin_cases i <;> simp [cross_apply, axis] <;> linarith

lemma IsRotation.cross_zx {R : Mat 3 3 ℝ} (h : IsRotation R) :
    crossProduct (axis R 2) (axis R 0) = axis R 1 := by
  have := h.adjugate
  rw [Matrix.adjugate_fin_three] at this
  have h0 := congrFun (congrFun this 1) 0
  have h1 := congrFun (congrFun this 1) 1
  have h2 := congrFun (congrFun this 1) 2
  simp at h0 h1 h2
  ext i; fin_cases i <;> simp [cross_apply, axis] <;> linarith

/-- Expansion of a vector in the axes of a rotation. -/
lemma IsRotation.expand {R : Mat 3 3 ℝ} (h : IsRotation R) (v : Vec 3 ℝ) :
    v = (axis R 0 ⬝ᵥ v) • axis R 0 + (axis R 1 ⬝ᵥ v) • axis R 1 + (axis R 2 ⬝ᵥ v) • axis R 2 := by
  have h1 : R.mulVec (R.transpose.mulVec v) = v := by
    rw [Matrix.mulVec_mulVec, h.orth', Matrix.one_mulVec]
  conv_lhs => rw [← h1]
  ext i
  simp [Matrix.mulVec, dotProduct, Fin.sum_univ_three, axis, Matrix.transpose_apply]
  ring

end Spec

lemma normalized_unit_vec {n : ℕ} {v : Vec n ℝ} (h : v ≠ 0) : Verif.normalized v ⬝ᵥ Verif.normalized v = 1 := by
  have hp := dot_self_pos v h
  rw [normalized_real, smul_dotProduct, dotProduct_smul, smul_eq_mul, smul_eq_mul]
  have h2 : √(v ⬝ᵥ v) * √(v ⬝ᵥ v) = v ⬝ᵥ v := Real.mul_self_sqrt hp.le
  have h3 : √(v ⬝ᵥ v) ≠ 0 := (Real.sqrt_pos.2 hp).ne'
  field_simp
  nlinarith

lemma normalized_of_dot_one {n : ℕ} {v : Vec n ℝ} (h : v ⬝ᵥ v = 1) : Verif.normalized v = v := by
  rw [normalized_real, h]; simp

lemma normalized_smul_unit {n : ℕ} {v : Vec n ℝ} (h : v ⬝ᵥ v = 1) {c : ℝ} (hc : 0 < c) :
    Verif.normalized (c • v) = v := by
  rw [normalized_real]
  have : (c • v) ⬝ᵥ (c • v) = c ^ 2 := by
    rw [smul_dotProduct, dotProduct_smul, h]; simp [sq]
  rw [this, Real.sqrt_sq hc.le, smul_smul, inv_mul_cancel₀ hc.ne', one_smul]

namespace Acro

lemma desiredAttitude_axis (yaw : ℝ) (f : Vec 3 ℝ) :
    axis (desiredAttitude yaw f) 2 = Verif.normalized f ∧
    axis (desiredAttitude yaw f) 1 =
      Verif.normalized (crossProduct (Verif.normalized f) (heading yaw)) ∧
    axis (desiredAttitude yaw f) 0 =
      Verif.normalized (crossProduct (axis (desiredAttitude yaw f) 1) (axis (desiredAttitude yaw f) 2)) := by
  have e : (![Flt.cos yaw, Flt.sin yaw, lit 0] : Vec 3 ℝ) = heading yaw := by
    simp [heading, flt]
  have h2 : axis (desiredAttitude yaw f) 2 = Verif.normalized f := by
    ext i; simp [axis, desiredAttitude]
  have h1 : axis (desiredAttitude yaw f) 1 =
      Verif.normalized (crossProduct (Verif.normalized f) (heading yaw)) := by
    rw [← e, ← cross_real]
    ext i; simp [axis, desiredAttitude]
  refine ⟨h2, h1, ?_⟩
  rw [h1, h2, ← e, ← cross_real, ← cross_real]
  ext i; simp [axis, desiredAttitude]

/-- The attitude the law computes points to the demand. -/
lemma desiredAttitude_pointsTo (yaw : ℝ) (f : Vec 3 ℝ) (h : crossProduct f (heading yaw) ≠ 0) :
    PointsTo (desiredAttitude yaw f) f yaw := by
  have hf : f ≠ 0 := by rintro rfl; simp at h
  obtain ⟨h2, h1, h0⟩ := desiredAttitude_axis yaw f
  set R := desiredAttitude yaw f
  have hp : 0 < √(f ⬝ᵥ f) := Real.sqrt_pos.2 (dot_self_pos f hf)
  have hc : crossProduct (Verif.normalized f) (heading yaw) ≠ 0 := by
    rw [normalized_real, LinearMap.map_smul, LinearMap.smul_apply]
    exact smul_ne_zero (inv_ne_zero hp.ne') h
  have z1 : axis R 2 ⬝ᵥ axis R 2 = 1 := by rw [h2]; exact normalized_unit_vec hf
  have y1 : axis R 1 ⬝ᵥ axis R 1 = 1 := by rw [h1]; exact normalized_unit_vec hc
  set q : Vec 3 ℝ := crossProduct (Verif.normalized f) (heading yaw) with hq
  have hy : axis R 1 = (√(q ⬝ᵥ q))⁻¹ • q := by rw [h1, normalized_real]
  have yz : axis R 1 ⬝ᵥ axis R 2 = 0 := by
    have : q ⬝ᵥ Verif.normalized f = 0 := by rw [dotProduct_comm]; exact dot_self_cross _ _
    rw [hy, h2, smul_dotProduct, this, smul_zero]
  have yh : axis R 1 ⬝ᵥ heading yaw = 0 := by
    have : q ⬝ᵥ heading yaw = 0 := by rw [dotProduct_comm]; exact dot_cross_self _ _
    rw [hy, smul_dotProduct, this, smul_zero]
  have w1 : crossProduct (axis R 1) (axis R 2) ⬝ᵥ crossProduct (axis R 1) (axis R 2) = 1 := by
    rw [cross_dot_cross, y1, z1, yz]; ring
  have hx : axis R 0 = crossProduct (axis R 1) (axis R 2) := by rw [h0, normalized_of_dot_one w1]
  have xy : axis R 0 ⬝ᵥ axis R 1 = 0 := by rw [hx, dotProduct_comm, dot_self_cross]
  have xz : axis R 0 ⬝ᵥ axis R 2 = 0 := by rw [hx, dotProduct_comm, dot_cross_self]
  have x1 : axis R 0 ⬝ᵥ axis R 0 = 1 := by rw [hx, w1]
  refine ⟨⟨?_, ?_⟩, ?_, yh, ?_⟩
  · ext i j
    rw [← axis_dot, Matrix.one_apply]
    fin_cases i <;> fin_cases j <;> simp [x1, y1, z1, xy, yz, xz, dotProduct_comm (axis R 1) (axis R 0),
      dotProduct_comm (axis R 2) (axis R 0), dotProduct_comm (axis R 2) (axis R 1)]
  · have e : R.det = axis R 0 ⬝ᵥ crossProduct (axis R 1) (axis R 2) := by
      rw [Matrix.det_fin_three, dot3]; simp [cross_apply, axis]; ring
    rw [e, ← hx, x1]
  · rw [h2, normalized_real, smul_smul, mul_inv_cancel₀ hp.ne', one_smul]
  · have hq0 := dot_self_pos q hc
    rw [hx, dotProduct_comm, triple_product_permutation, h2, ← hq, hy, smul_dotProduct]
    exact mul_pos (inv_pos.2 (Real.sqrt_pos.2 hq0)) hq0

/-- There is no other attitude pointing to the demand. -/
lemma pointsTo_unique {R : Mat 3 3 ℝ} {f : Vec 3 ℝ} {yaw : ℝ} (hf : f ≠ 0) (h : PointsTo R f yaw) :
    R = desiredAttitude yaw f := by
  obtain ⟨h2, h1, h0⟩ := desiredAttitude_axis yaw f
  have hp : 0 < √(f ⬝ᵥ f) := Real.sqrt_pos.2 (dot_self_pos f hf)
  have z1 := h.rotation.dot 2 2
  have y1 := h.rotation.dot 1 1
  have x1 := h.rotation.dot 0 0
  simp only [if_true] at z1 y1 x1
  have hz : axis (desiredAttitude yaw f) 2 = axis R 2 := by
    rw [h2, ← h.thrust]; exact normalized_smul_unit z1 hp
  have hc : crossProduct (axis R 2) (heading yaw) = (axis R 0 ⬝ᵥ heading yaw) • axis R 1 := by
    conv_lhs => rw [h.rotation.expand (heading yaw), h.side]
    simp [cross_self, h.rotation.cross_zx]
  have hy : axis (desiredAttitude yaw f) 1 = axis R 1 := by
    rw [h1, ← h2, hz, hc, normalized_smul_unit y1 h.nose]
  have hx : axis (desiredAttitude yaw f) 0 = axis R 0 := by
    rw [h0, hz, hy, h.rotation.cross_yz, normalized_of_dot_one x1]
  ext i j
  fin_cases j
  · exact (congrFun hx i).symm
  · exact (congrFun hy i).symm
  · exact (congrFun hz i).symm

end Acro

end Verif
