import Verif.Props.Attitude
import Verif.Lemmas.ToMat

/-!
# One step of the attitude kinematics under the attitude law
-/

namespace Verif

open Flt Spec

namespace Spec

/-- Sine part of a rotation: axis times sine of the angle. -/
noncomputable def sinePart (Q : Mat 3 3 ℝ) : Vec 3 ℝ := ![(Q 2 1 - Q 1 2) / 2, (Q 0 2 - Q 2 0) / 2, (Q 1 0 - Q 0 1) / 2]

lemma IsRotation.mul {P Q : Mat 3 3 ℝ} (hP : IsRotation P) (hQ : IsRotation Q) : IsRotation (P * Q) := by
  constructor
  · rw [Matrix.transpose_mul, Matrix.mul_assoc, ← Matrix.mul_assoc P.transpose, hP.orth, Matrix.one_mul, hQ.orth]
  · rw [Matrix.det_mul, hP.det, hQ.det, mul_one]

lemma IsRotation.transpose {P : Mat 3 3 ℝ} (hP : IsRotation P) : IsRotation P.transpose := by
  constructor
  · rw [Matrix.transpose_transpose, hP.orth']
  · rw [Matrix.det_transpose, hP.det]

/-- The cofactors of a rotation. -/
lemma IsRotation.cof {Q : Mat 3 3 ℝ} (h : IsRotation Q) :
    Q 1 1 * Q 2 2 - Q 1 2 * Q 2 1 = Q 0 0 ∧ Q 0 0 * Q 2 2 - Q 0 2 * Q 2 0 = Q 1 1 ∧
    Q 0 0 * Q 1 1 - Q 0 1 * Q 1 0 = Q 2 2 ∧
    Q 0 1 * Q 2 0 - Q 0 0 * Q 2 1 = Q 1 2 ∧ Q 0 2 * Q 1 0 - Q 0 0 * Q 1 2 = Q 2 1 ∧
    Q 0 1 * Q 1 2 - Q 0 2 * Q 1 1 = Q 2 0 ∧ Q 1 0 * Q 2 1 - Q 1 1 * Q 2 0 = Q 0 2 ∧
    Q 0 2 * Q 2 1 - Q 0 1 * Q 2 2 = Q 1 0 ∧ Q 1 2 * Q 2 0 - Q 1 0 * Q 2 2 = Q 0 1 := by
  have ha := h.adjugate
  rw [Matrix.adjugate_fin_three] at ha
  have e := fun i j => congrFun (congrFun ha i) j
  have e00 := e 0 0; have e01 := e 0 1; have e02 := e 0 2
  have e10 := e 1 0; have e11 := e 1 1; have e12 := e 1 2
  have e20 := e 2 0; have e21 := e 2 1; have e22 := e 2 2
  simp [Matrix.transpose_apply] at e00 e01 e02 e10 e11 e12 e20 e21 e22
  refine ⟨?_, ?_, ?_, ?_, ?_, ?_, ?_, ?_, ?_⟩ <;> linarith

/-- The axis of a rotation is fixed. -/
lemma IsRotation.fixed {Q : Mat 3 3 ℝ} (h : IsRotation Q) : Q.mulVec (sinePart Q) = sinePart Q := by
  obtain ⟨h1, h2, h3, h4, h5, h6, h7, h8, h9⟩ := h.cof
  ext i
  fin_cases i <;> simp [Matrix.mulVec, dotProduct, Fin.sum_univ_three, sinePart] <;> linarith

/-- Sine and cosine. -/
lemma IsRotation.sine_sq {Q : Mat 3 3 ℝ} (h : IsRotation Q) :
    sinePart Q ⬝ᵥ sinePart Q = (1 - Q).trace / 2 * (2 - (1 - Q).trace / 2) := by
  obtain ⟨h1, h2, h3, -⟩ := h.cof
  have e := fun i j => congrFun (congrFun h.orth i) j
  have e00 := e 0 0; have e11 := e 1 1; have e22 := e 2 2
  simp [Matrix.mul_apply, Fin.sum_univ_three] at e00 e11 e22
  simp only [Matrix.trace_sub, Matrix.trace_one, Matrix.trace_fin_three, sinePart, dotProduct, Fin.sum_univ_three]
  simp
  linear_combination (1 / 4) * (e00 + e11 + e22) + (1 / 2) * (h1 + h2 + h3)

/-- The symmetric part of a rotation is the cosine plus a multiple of the projection on the axis. -/
lemma IsRotation.quad {Q : Mat 3 3 ℝ} (h : IsRotation Q) (w : Vec 3 ℝ) :
    (2 - (1 - Q).trace / 2) * (w ⬝ᵥ Q.mulVec w - (1 - (1 - Q).trace / 2) * (w ⬝ᵥ w)) =
      (sinePart Q ⬝ᵥ w) ^ 2 := by
  obtain ⟨h1, h2, h3, h4, h5, h6, h7, h8, h9⟩ := h.cof
  have e := fun i j => congrFun (congrFun h.orth i) j
  have f := fun i j => congrFun (congrFun h.orth' i) j
  have e00 := e 0 0; have e11 := e 1 1; have e22 := e 2 2
  have e01 := e 0 1; have e02 := e 0 2; have e12 := e 1 2
  have f00 := f 0 0; have f11 := f 1 1; have f22 := f 2 2
  have f01 := f 0 1; have f02 := f 0 2; have f12 := f 1 2
  simp [Matrix.mul_apply, Fin.sum_univ_three] at e00 e11 e22 e01 e02 e12 f00 f11 f22 f01 f02 f12
  have k00 : (1 + Q.trace) * (2 * Q 0 0 - Q.trace + 1) = (Q 2 1 - Q 1 2) ^ 2 := by
    rw [Matrix.trace_fin_three]
    linear_combination e00 - f11 - f22 - 2 * h1
  have k11 : (1 + Q.trace) * (2 * Q 1 1 - Q.trace + 1) = (Q 0 2 - Q 2 0) ^ 2 := by
    rw [Matrix.trace_fin_three]
    linear_combination e11 - f00 - f22 - 2 * h2
  have k22 : (1 + Q.trace) * (2 * Q 2 2 - Q.trace + 1) = (Q 1 0 - Q 0 1) ^ 2 := by
    rw [Matrix.trace_fin_three]
    linear_combination e22 - f00 - f11 - 2 * h3
  have k01 : (1 + Q.trace) * (Q 0 1 + Q 1 0) = (Q 2 1 - Q 1 2) * (Q 0 2 - Q 2 0) := by
    rw [Matrix.trace_fin_three]
    linear_combination e01 + f01 - h8 - h9
  have k02 : (1 + Q.trace) * (Q 0 2 + Q 2 0) = (Q 2 1 - Q 1 2) * (Q 1 0 - Q 0 1) := by
    rw [Matrix.trace_fin_three]
    linear_combination e02 + f02 - h6 - h7
  have k12 : (1 + Q.trace) * (Q 1 2 + Q 2 1) = (Q 0 2 - Q 2 0) * (Q 1 0 - Q 0 1) := by
    rw [Matrix.trace_fin_three]
    linear_combination e12 + f12 - h4 - h5
  have ht : (1 - Q).trace / 2 = (3 - Q.trace) / 2 := by
    simp only [Matrix.trace_sub, Matrix.trace_one]; simp
  rw [ht]
  simp only [Matrix.mulVec, dotProduct, Fin.sum_univ_three, sinePart]
  simp
  linear_combination (1 / 4) * (w 0 ^ 2 * k00 + w 1 ^ 2 * k11 + w 2 ^ 2 * k22 + 2 * w 0 * w 1 * k01 +
    2 * w 0 * w 2 * k02 + 2 * w 1 * w 2 * k12)

/-- Both terms of the Cayley form of a small turn. -/
lemma trace_skew (Q : Mat 3 3 ℝ) (w : Vec 3 ℝ) : (Q * skew w).trace = -2 * (sinePart Q ⬝ᵥ w) := by
  simp [Matrix.trace_fin_three, Matrix.mul_apply, Fin.sum_univ_three, skew, sinePart, dotProduct]
  ring

lemma trace_skew_sq (Q : Mat 3 3 ℝ) (w : Vec 3 ℝ) :
    (Q * (skew w * skew w)).trace = w ⬝ᵥ Q.mulVec w - (w ⬝ᵥ w) * Q.trace := by
  simp [Matrix.trace_fin_three, Matrix.mul_apply, Matrix.mulVec, Fin.sum_univ_three, skew, dotProduct]
  ring

end Spec

namespace Quat

/-- Homogeneous form of the rotation matrix. -/
noncomputable def hom (q : Quat ℝ) : Mat 3 3 ℝ :=
  !![q.w ^ 2 + q.x ^ 2 - q.y ^ 2 - q.z ^ 2, 2 * (q.x * q.y - q.w * q.z), 2 * (q.x * q.z + q.w * q.y);
     2 * (q.x * q.y + q.w * q.z), q.w ^ 2 - q.x ^ 2 + q.y ^ 2 - q.z ^ 2, 2 * (q.y * q.z - q.w * q.x);
     2 * (q.x * q.z - q.w * q.y), 2 * (q.y * q.z + q.w * q.x), q.w ^ 2 - q.x ^ 2 - q.y ^ 2 + q.z ^ 2]

lemma toMat_hom {q : Quat ℝ} (h : IsUnitQ q) : q.toMat = q.hom := by
  have h' : q.w ^ 2 + q.x ^ 2 + q.y ^ 2 + q.z ^ 2 = 1 := h
  rw [toMat_real, hom]
  ext i j
  fin_cases i <;> fin_cases j <;> simp <;> linarith

lemma hom_normalized {p : Quat ℝ} (h : NonzeroQ p) : p.n2 • p.normalized.hom = p.hom := by
  have hp := n2_pos h
  have hs : √p.n2 ^ 2 = p.n2 := Real.sq_sqrt hp.le
  have h0 : √p.n2 ≠ 0 := (Real.sqrt_pos.2 hp).ne'
  rw [normalized_eq]
  generalize √p.n2 = s at hs h0
  rw [← hs]
  ext i j
  fin_cases i <;> fin_cases j <;> simp [hom] <;> field_simp

/-- The integrated attitude, as a product with a Cayley transform. -/
lemma toMat_integrate {q : Quat ℝ} (h : IsUnitQ q) (om : Vec 3 ℝ) (dt : ℝ) :
    (1 + ((dt / 2) • om) ⬝ᵥ ((dt / 2) • om)) • (quatIntegrate q om dt).toMat =
      q.toMat * ((1 + ((dt / 2) • om) ⬝ᵥ ((dt / 2) • om)) • 1 + (2 : ℝ) • skew ((dt / 2) • om) +
        (2 : ℝ) • (skew ((dt / 2) • om) * skew ((dt / 2) • om))) := by
  have hnz : NonzeroQ q := by
    intro h0
    have := (n2_eq_zero _).2 h0
    rw [(isUnitQ_iff q).1 h] at this
    exact one_ne_zero this
  have hN := integrate_n2 q om dt
  rw [(isUnitQ_iff q).1 h, one_mul] at hN
  have hN' : 1 + ((dt / 2) • om) ⬝ᵥ ((dt / 2) • om) =
      (ofCoeffs (vadd q.coeffs (smulR (quatDerivative q om) dt))).n2 := by
    rw [hN]; simp [dotProduct, Fin.sum_univ_three]; ring
  rw [toMat_hom (quatIntegrate_unit hnz om dt), toMat_hom h]
  conv_lhs => rw [hN']
  rw [quatIntegrate, hom_normalized (integrate_nonzero hnz om dt), integrate_eq]
  ext i j
  fin_cases i <;> fin_cases j <;>
    simp [hom, Matrix.mul_apply, Fin.sum_univ_three, dotProduct, skew] <;> ring

end Quat

/-- Change of the error of a rotation under a turn. -/
lemma Spec.IsRotation.error_turn {Q Q' : Mat 3 3 ℝ} (h : IsRotation Q) (w : Vec 3 ℝ)
    (hQ : (1 + w ⬝ᵥ w) • Q' = Q * ((1 + w ⬝ᵥ w) • 1 + (2 : ℝ) • skew w + (2 : ℝ) • (skew w * skew w))) :
    let e := (1 - Q).trace / 2
    (2 - e) * ((1 + w ⬝ᵥ w) * (e - (1 - Q').trace / 2)) =
      -2 * (2 - e) * (sinePart Q ⬝ᵥ w) - (2 - e) ^ 2 * (w ⬝ᵥ w) + (sinePart Q ⬝ᵥ w) ^ 2 := by
  intro e
  have ht := congrArg Matrix.trace hQ
  rw [Matrix.trace_smul, Matrix.mul_add, Matrix.mul_add, Matrix.trace_add, Matrix.trace_add,
    Matrix.mul_smul, Matrix.mul_smul, Matrix.mul_smul, Matrix.trace_smul, Matrix.trace_smul, Matrix.trace_smul,
    Matrix.mul_one, trace_skew, trace_skew_sq] at ht
  simp only [smul_eq_mul] at ht
  have hq := h.quad w
  have he' : (1 - Q).trace / 2 = e := rfl
  have he : Q.trace = 3 - 2 * e := by
    simp only [e, Matrix.trace_sub, Matrix.trace_one]; simp; ring
  rw [he'] at hq
  rw [he] at ht
  simp only [Matrix.trace_sub, Matrix.trace_one]
  simp only [Fintype.card_fin]
  push_cast
  linear_combination (2 - e) / 2 * ht + hq

/-- The error of a rotation after a turn against its sine part. -/
lemma Spec.IsRotation.error_step {Q Q' : Mat 3 3 ℝ} (h : IsRotation Q) (a : ℝ)
    (hQ : (1 + (-(a / 2) • sinePart Q) ⬝ᵥ (-(a / 2) • sinePart Q)) • Q' =
      Q * ((1 + (-(a / 2) • sinePart Q) ⬝ᵥ (-(a / 2) • sinePart Q)) • 1 +
        (2 : ℝ) • skew (-(a / 2) • sinePart Q) +
        (2 : ℝ) • (skew (-(a / 2) • sinePart Q) * skew (-(a / 2) • sinePart Q)))) :
    let e := (1 - Q).trace / 2
    (1 - Q').trace / 2 * (1 + a ^ 2 * (e * (2 - e)) / 4) = e * (1 - (2 - e) * a / 2) ^ 2 := by
  intro e
  have ht := congrArg Matrix.trace hQ
  rw [Matrix.trace_smul, Matrix.mul_add, Matrix.mul_add, Matrix.trace_add, Matrix.trace_add,
    Matrix.mul_smul, Matrix.mul_smul, Matrix.mul_smul, Matrix.trace_smul, Matrix.trace_smul, Matrix.trace_smul,
    Matrix.mul_one, trace_skew, trace_skew_sq, Matrix.mulVec_smul, h.fixed] at ht
  simp only [smul_dotProduct, dotProduct_smul, smul_eq_mul, h.sine_sq] at ht
  have he : Q.trace = 3 - 2 * e := by
    simp only [e, Matrix.trace_sub, Matrix.trace_one]; simp; ring
  have he' : (1 - Q).trace / 2 = e := rfl
  rw [he', he] at ht
  simp only [Matrix.trace_sub, Matrix.trace_one]
  simp only [Fintype.card_fin]
  push_cast
  linear_combination (-1 / 2) * ht

end Verif
