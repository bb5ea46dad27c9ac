import Verif.Lemmas.ToMat
import Verif.Props.Attitude
import Verif.Props.DynStep

/-!
# Reported Euler angles (C68)
-/

namespace Verif.Props

open Verif Flt Spec Quaternion

lemma quatToEuler_real (q0 : Quat ℝ) : quatToEuler q0 =
    (Complex.arg ⟨q0.normalized.toMat 2 2, q0.normalized.toMat 2 1⟩,
     Real.arcsin (-q0.normalized.toMat 2 0),
     Complex.arg ⟨q0.normalized.toMat 0 0, q0.normalized.toMat 1 0⟩) := by
  rw [Quat.toMat_real]
  generalize hq : q0.normalized = q
  have hs : -(2 * (q.x * q.z - q.w * q.y)) = 2 * (q.w * q.y - q.z * q.x) := by ring
  have h2 : (lit 2 : ℝ) = 2 := by simp [lit]
  unfold quatToEuler
  simp only [hq, flt, Prod.mk.injEq, Matrix.of_apply, Matrix.cons_val_zero, Matrix.cons_val_one,
    Matrix.cons_val, hs, decide_eq_true_eq]
  refine ⟨?_, ?_, ?_⟩
  · congr 2; ring
  · generalize 2 * (q.w * q.y - q.z * q.x) = s
    have hpi : |Real.pi / 2| = Real.pi / 2 := abs_of_pos (by positivity)
    split
    · rename_i h
      split
      · rename_i hneg
        rw [hpi, Real.arcsin_of_le_neg_one]
        rw [abs_of_neg hneg] at h
        linarith
      · rename_i hpos
        rw [hpi, Real.arcsin_of_one_le]
        rwa [abs_of_nonneg (not_lt.1 hpos)] at h
    · rfl
  · congr 2; ring

/-- A rotation matrix with a non-vertical x axis is determined by one column and one row. -/
lemma rotation_of_angles {R : Mat 3 3 ℝ} (hR : IsRotation R) (r p y c : ℝ) (hc : 0 < c)
    (hcp : Real.cos p = c) (hsp : Real.sin p = -R 2 0) (hcr : c * Real.cos r = R 2 2)
    (hsr : c * Real.sin r = R 2 1) (hcy : c * Real.cos y = R 0 0) (hsy : c * Real.sin y = R 1 0) :
    rotZ y * rotY p * rotX r = R := by
  have hc2 : c ^ 2 = 1 - R 2 0 ^ 2 := by
    have := Real.sin_sq_add_cos_sq p
    rw [hcp, hsp] at this
    linarith
  have hrow : R 2 1 ^ 2 + R 2 2 ^ 2 = c ^ 2 := by
    rw [← hcr, ← hsr]
    have := Real.sin_sq_add_cos_sq r
    linear_combination c ^ 2 * this
  have hadj := hR.adjugate
  rw [Matrix.adjugate_fin_three] at hadj
  have a10 := congrFun (congrFun hadj 0) 1
  have a00 := congrFun (congrFun hadj 0) 0
  have o := hR.orth'
  have o02 := congrFun (congrFun o 0) 2
  have o12 := congrFun (congrFun o 1) 2
  simp [Matrix.mul_apply, Fin.sum_univ_three] at a10 a00 o02 o12
  have hne := (pow_pos hc 2).ne'
  have e01 : c ^ 2 * (Real.cos y * Real.sin p * Real.sin r - Real.sin y * Real.cos r) = c ^ 2 * R 0 1 := by
    calc _ = (c * Real.cos y) * Real.sin p * (c * Real.sin r) - (c * Real.sin y) * (c * Real.cos r) := by ring
      _ = c ^ 2 * R 0 1 := by
        rw [hcy, hsp, hsr, hsy, hcr]
        linear_combination R 0 1 * hrow - R 2 1 * o02 + R 2 2 * a10
  have e02 : c ^ 2 * (Real.cos y * Real.sin p * Real.cos r + Real.sin y * Real.sin r) = c ^ 2 * R 0 2 := by
    calc _ = (c * Real.cos y) * Real.sin p * (c * Real.cos r) + (c * Real.sin y) * (c * Real.sin r) := by ring
      _ = c ^ 2 * R 0 2 := by
        rw [hcy, hsp, hsr, hsy, hcr]
        linear_combination R 0 2 * hrow - R 2 2 * o02 - R 2 1 * a10
  have e11 : c ^ 2 * (Real.sin y * Real.sin p * Real.sin r + Real.cos y * Real.cos r) = c ^ 2 * R 1 1 := by
    calc _ = (c * Real.sin y) * Real.sin p * (c * Real.sin r) + (c * Real.cos y) * (c * Real.cos r) := by ring
      _ = c ^ 2 * R 1 1 := by
        rw [hcy, hsp, hsr, hsy, hcr]
        linear_combination R 1 1 * hrow - R 2 1 * o12 - R 2 2 * a00
  have e12 : c ^ 2 * (Real.sin y * Real.sin p * Real.cos r - Real.cos y * Real.sin r) = c ^ 2 * R 1 2 := by
    calc _ = (c * Real.sin y) * Real.sin p * (c * Real.cos r) - (c * Real.cos y) * (c * Real.sin r) := by ring
      _ = c ^ 2 * R 1 2 := by
        rw [hcy, hsp, hsr, hsy, hcr]
        linear_combination R 1 2 * hrow - R 2 2 * o12 + R 2 1 * a00
  have f01 := mul_left_cancel₀ hne e01
  have f02 := mul_left_cancel₀ hne e02
  have f11 := mul_left_cancel₀ hne e11
  have f12 := mul_left_cancel₀ hne e12
  rw [← hcp] at hcr hsr hcy hsy
  ext i j
  fin_cases i <;> fin_cases j <;> simp [rotZ, rotY, rotX, Matrix.mul_apply, Fin.sum_univ_three] <;> linarith

/-- The pitch is at a right angle exactly when the x axis is vertical. -/
lemma pitch_vertical (q : Quat ℝ) (hq : NonzeroQ q) (h : |(quatToEuler q).2.1| ≠ Real.pi / 2) :
    |q.normalized.toMat 2 0| < 1 := by
  have hR := Quat.toMat_rotation (Quat.normalized_unit hq)
  have h1 := congrFun (congrFun hR.orth' 2) 2
  simp [Matrix.mul_apply, Fin.sum_univ_three] at h1
  have h2 : |q.normalized.toMat 2 0| ≤ 1 := by
    rw [abs_le_one_iff_mul_self_le_one]
    nlinarith [mul_self_nonneg (q.normalized.toMat 2 1), mul_self_nonneg (q.normalized.toMat 2 2)]
  refine lt_of_le_of_ne h2 fun h3 => h ?_
  rw [quatToEuler_real]
  have hpi : |Real.pi / 2| = Real.pi / 2 := abs_of_pos (by positivity)
  rcases (abs_eq zero_le_one).1 h3 with e | e
  · simp [e, hpi]
  · simp [e, hpi]

/-- `normalized` does not change the rotation. -/
lemma isRotated_normalized {q : Quat ℝ} (h : NonzeroQ q) (v r : Vec 3 ℝ) :
    IsRotated q.normalized v r ↔ IsRotated q v r := by
  have hs : 0 < √q.n2 := Real.sqrt_pos.2 (Quat.n2_pos h)
  have e : toH q.normalized = (√q.n2)⁻¹ • toH q := by
    rw [Quat.normalized_eq]
    ext <;> simp [div_eq_inv_mul]
  have h1 : (√q.n2)⁻¹ ≠ 0 := (inv_pos.2 hs).ne'
  have e2 : toH q.normalized * pureH v * (toH q.normalized)⁻¹ = toH q * pureH v * (toH q)⁻¹ := by
    rw [e, ← Quaternion.coe_mul_eq_smul, mul_inv_rev, ← Quaternion.coe_inv, inv_inv]
    calc _ = (((√q.n2)⁻¹ : ℝ) : ℍ[ℝ]) * (toH q * pureH v * (toH q)⁻¹) * ((√q.n2 : ℝ) : ℍ[ℝ]) := by
          simp only [mul_assoc]
      _ = toH q * pureH v * (toH q)⁻¹ := by
          rw [Quaternion.coe_commutes, mul_assoc, ← Quaternion.coe_mul, inv_mul_cancel₀ hs.ne',
            Quaternion.coe_one, mul_one]
  unfold IsRotated
  rw [e2]

/-- **C68.** For every non-zero quaternion whose reported pitch is not a right angle, yawing, pitching and
rolling by the reported angles is the rotation of the quaternion. -/
theorem C68_euler (q : Quat ℝ) (hq : NonzeroQ q) (h : |(quatToEuler q).2.1| ≠ Real.pi / 2) (v : Vec 3 ℝ) :
    IsRotated q v ((rotZ (quatToEuler q).2.2 * rotY (quatToEuler q).2.1 *
      rotX (quatToEuler q).1).mulVec v) := by
  have hu := Quat.normalized_unit hq
  have hR := Quat.toMat_rotation hu
  have hv := pitch_vertical q hq h
  have key : rotZ (quatToEuler q).2.2 * rotY (quatToEuler q).2.1 * rotX (quatToEuler q).1 =
      q.normalized.toMat := by
    rw [quatToEuler_real]
    set R := q.normalized.toMat
    have hsq : R 2 0 ^ 2 < 1 := by rw [← sq_abs]; exact (sq_lt_one_iff₀ (abs_nonneg _)).2 hv
    have hc : 0 < √(1 - R 2 0 ^ 2) := Real.sqrt_pos.2 (by linarith)
    obtain ⟨b1, b2⟩ := abs_lt.1 hv
    have hn : ∀ a b : ℝ, a ^ 2 + b ^ 2 = 1 - R 2 0 ^ 2 →
        √(1 - R 2 0 ^ 2) * Real.cos (Complex.arg ⟨a, b⟩) = a ∧
        √(1 - R 2 0 ^ 2) * Real.sin (Complex.arg ⟨a, b⟩) = b := by
      intro a b hab
      have hnorm : ‖(⟨a, b⟩ : ℂ)‖ = √(1 - R 2 0 ^ 2) := by
        rw [Complex.norm_eq_sqrt_sq_add_sq, hab]
      have hne : (⟨a, b⟩ : ℂ) ≠ 0 := by
        rw [← norm_pos_iff, hnorm]; exact hc
      rw [Complex.cos_arg hne, Complex.sin_arg, hnorm]
      constructor <;> field_simp
    have o := congrFun (congrFun hR.orth' 2) 2
    have o' := congrFun (congrFun hR.orth 0) 0
    simp [Matrix.mul_apply, Fin.sum_univ_three] at o o'
    obtain ⟨r1, r2⟩ := hn (R 2 2) (R 2 1) (by linarith)
    obtain ⟨y1, y2⟩ := hn (R 0 0) (R 1 0) (by linarith)
    refine rotation_of_angles hR _ _ _ _ hc ?_ ?_ r1 r2 y1 y2
    · rw [Real.cos_arcsin]; congr 2; ring
    · exact Real.sin_arcsin (by linarith) (by linarith)
  rw [key, Quat.toMat_mulVec, ← isRotated_normalized hq]
  exact Quat.rotate_isRotated hu v

/-- Rolled and pitched, not normalised: the hypotheses of `C68_euler` hold. -/
example : let q : Quat ℝ := ⟨2, 1, 1, 0⟩
    NonzeroQ q ∧ |(quatToEuler q).2.1| ≠ Real.pi / 2 ∧ (quatToEuler q).2.1 ≠ 0 := by
  have hu : NonzeroQ (⟨2, 1, 1, 0⟩ : Quat ℝ) := by simp [NonzeroQ]
  have e : (Quat.normalized (⟨2, 1, 1, 0⟩ : Quat ℝ)).toMat 2 0 = -2 / 3 := by
    have h6 : √(6 : ℝ) * √6 = 6 := Real.mul_self_sqrt (by norm_num)
    have h7 : √(6 : ℝ) ≠ 0 := by positivity
    rw [Quat.toMat_real, Quat.normalized_eq]
    simp [Quat.n2]
    norm_num
    field_simp
    nlinarith
  refine ⟨hu, ?_, ?_⟩
  · rw [quatToEuler_real]
    simp only [e]
    rw [Ne, abs_eq (by positivity)]
    rintro (h | h)
    · have := congrArg Real.sin h
      rw [Real.sin_arcsin (by norm_num) (by norm_num), Real.sin_pi_div_two] at this
      norm_num at this
    · have := congrArg Real.sin h
      rw [Real.sin_arcsin (by norm_num) (by norm_num), Real.sin_neg, Real.sin_pi_div_two] at this
      norm_num at this
  · rw [quatToEuler_real]
    simp only [e, Ne, Real.arcsin_eq_zero_iff]
    norm_num

/-- **C68.** For every quaternion whatsoever the reported angles are in range. -/
theorem C68_range (q : Quat ℝ) :
    (-Real.pi < (quatToEuler q).1 ∧ (quatToEuler q).1 ≤ Real.pi) ∧
    (-(Real.pi / 2) ≤ (quatToEuler q).2.1 ∧ (quatToEuler q).2.1 ≤ Real.pi / 2) ∧
    (-Real.pi < (quatToEuler q).2.2 ∧ (quatToEuler q).2.2 ≤ Real.pi) := by
  rw [quatToEuler_real]
  exact ⟨⟨Complex.neg_pi_lt_arg _, Complex.arg_le_pi _⟩,
    ⟨Real.neg_pi_div_two_le_arcsin _, Real.arcsin_le_pi_div_two _⟩,
    ⟨Complex.neg_pi_lt_arg _, Complex.arg_le_pi _⟩⟩

/-- At a pitch of 90 degrees the angles do not describe the orientation: looking straight up with a roll
of a quarter turn is reported as roll and yaw zero. -/
theorem C68_gimbal_lock : ∃ q : Quat ℝ, IsUnitQ q ∧ quatToEuler q = (0, Real.pi / 2, 0) ∧
    ¬ IsRotated q ![0, 1, 0] ((rotZ 0 * rotY (Real.pi / 2) * rotX 0).mulVec ![0, 1, 0]) := by
  refine ⟨⟨1 / 2, 1 / 2, 1 / 2, -1 / 2⟩, ?_, ?_, ?_⟩
  · simp only [IsUnitQ]; norm_num
  · rw [quatToEuler_real, Quat.normalized_of_unit (by simp only [IsUnitQ]; norm_num), Quat.toMat_real]
    simp only [Matrix.of_apply, Matrix.cons_val]
    norm_num
    exact Complex.arg_zero
  · intro hrot
    have hu : IsUnitQ (⟨1 / 2, 1 / 2, 1 / 2, -1 / 2⟩ : Quat ℝ) := by simp only [IsUnitQ]; norm_num
    have h2 := isRotated_unique hrot (Quat.rotate_isRotated hu _)
    have h3 := congrFun h2 0
    rw [← Quat.toMat_mulVec, Quat.toMat_real] at h3
    simp [rotZ, rotY, rotX, Matrix.mul_apply, Fin.sum_univ_three, Matrix.mulVec, dotProduct] at h3
    norm_num at h3

end Verif.Props
