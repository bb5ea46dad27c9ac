import Verif.Props.Attitude

/-!
# A level vehicle leans towards the demanded acceleration (C153)
-/

namespace Verif.Props

open Verif Flt Spec

/-- Horizontal direction to the left of a heading. -/
noncomputable def leftOf (yaw : ℝ) : Vec 3 ℝ := ![-Real.sin yaw, Real.cos yaw, 0]

/-- Attitude pointing the thrust along `(a, b, h)`, seen by a vehicle with the demanded heading. -/
noncomputable def leaning (a b h : ℝ) : Mat 3 3 ℝ :=
  let r := √(b ^ 2 + h ^ 2)
  let n := √(a ^ 2 + b ^ 2 + h ^ 2)
  !![r / n, 0, a / n; -(a * b) / (r * n), h / r, b / n; -(a * h) / (r * n), -b / r, h / n]

lemma leaning_pointsTo (yaw : ℝ) (f : Vec 3 ℝ) (h0 : (f ⬝ᵥ leftOf yaw) ^ 2 + (f 2) ^ 2 ≠ 0) :
    PointsTo (rotZ yaw * leaning (f ⬝ᵥ heading yaw) (f ⬝ᵥ leftOf yaw) (f 2)) f yaw := by
  set a := f ⬝ᵥ heading yaw with ha
  set b := f ⬝ᵥ leftOf yaw with hb
  have hcs := Real.sin_sq_add_cos_sq yaw
  have f0 : f 0 = a * Real.cos yaw - b * Real.sin yaw := by
    rw [ha, hb]; simp [heading, leftOf, dotProduct, Fin.sum_univ_three]; linear_combination -(f 0) * hcs
  have f1 : f 1 = a * Real.sin yaw + b * Real.cos yaw := by
    rw [ha, hb]; simp [heading, leftOf, dotProduct, Fin.sum_univ_three]; linear_combination -(f 1) * hcs
  have hN : f ⬝ᵥ f = a ^ 2 + b ^ 2 + (f 2) ^ 2 := by
    simp only [dotProduct, Fin.sum_univ_three, f0, f1]
    linear_combination (a ^ 2 + b ^ 2) * hcs
  set h := f 2
  have hr2 : 0 < b ^ 2 + h ^ 2 := lt_of_le_of_ne (by positivity) (Ne.symm h0)
  have hn2 : 0 < a ^ 2 + b ^ 2 + h ^ 2 := by nlinarith [sq_nonneg a]
  have hr := Real.sqrt_pos.2 hr2
  have hn := Real.sqrt_pos.2 hn2
  have sr := Real.sq_sqrt hr2.le
  have sn := Real.sq_sqrt hn2.le
  set r := √(b ^ 2 + h ^ 2) with hrd
  set n := √(a ^ 2 + b ^ 2 + h ^ 2) with hnd
  have hQ : leaning a b h =
      !![r / n, 0, a / n; -(a * b) / (r * n), h / r, b / n; -(a * h) / (r * n), -b / r, h / n] := rfl
  have hZ : (rotZ yaw).transpose * rotZ yaw = 1 := by
    ext i j
    fin_cases i <;> fin_cases j <;> simp [rotZ, Matrix.mul_apply, Fin.sum_univ_three] <;> linarith
  have hQo : (leaning a b h).transpose * leaning a b h = 1 := by
    have sn' : n ^ 2 = a ^ 2 + r ^ 2 := by rw [sn, sr]; ring
    rw [hQ]
    ext i j
    fin_cases i <;> fin_cases j <;> simp [Matrix.mul_apply, Fin.sum_univ_three] <;> field_simp
    · linear_combination (-r ^ 2) * sn' - a ^ 2 * sr
    · ring
    · linear_combination a * sr
    · ring
    · linear_combination -sr
    · ring
    · linear_combination a * sr
    · ring
    · linear_combination -sn
  refine ⟨⟨?_, ?_⟩, ?_, ?_, ?_⟩
  · rw [Matrix.transpose_mul, Matrix.mul_assoc, ← Matrix.mul_assoc (rotZ yaw).transpose, hZ, Matrix.one_mul, hQo]
  · rw [Matrix.det_mul]
    have d1 : (rotZ yaw).det = 1 := by
      rw [Matrix.det_fin_three]; simp [rotZ]; linarith
    have d2 : (leaning a b h).det = 1 := by
      have sn' : n ^ 2 = a ^ 2 + r ^ 2 := by rw [sn, sr]; ring
      rw [hQ, Matrix.det_fin_three]; simp; field_simp
      linear_combination (-r ^ 2) * sn' - (a ^ 2 + r ^ 2) * sr
    rw [d1, d2, one_mul]
  · rw [hN]
    change n • _ = f
    rw [hQ]
    ext i
    fin_cases i
    · simp [axis, rotZ]; rw [f0]; field_simp; ring
    · simp [axis, rotZ]; rw [f1]; field_simp
    · simp [axis, rotZ]; field_simp; rfl
  · rw [hQ]
    simp [axis, rotZ, heading, dotProduct, Matrix.mul_apply, Fin.sum_univ_three]; ring
  · rw [hQ]
    have : axis (rotZ yaw * !![r / n, 0, a / n; -(a * b) / (r * n), h / r, b / n; -(a * h) / (r * n), -b / r, h / n]) 0
        ⬝ᵥ heading yaw = r / n := by
      simp [axis, rotZ, heading, dotProduct, Matrix.mul_apply, Fin.sum_univ_three]
      linear_combination (r / n) * hcs
    rw [this]; positivity

/-- **C153.** The commanded rates of a level vehicle with the demanded heading, for a force with the components
`a` ahead, `b` to the left and `h` upwards. -/
theorem C153_rates (c : Acro ℝ) (K : Vec 3 ℝ) (hK : c.kpRot = Matrix.diagonal K) (yaw : ℝ) (f : Vec 3 ℝ)
    (h0 : (f ⬝ᵥ leftOf yaw) ^ 2 + (f 2) ^ 2 ≠ 0) :
    let a := f ⬝ᵥ heading yaw
    let b := f ⬝ᵥ leftOf yaw
    let h := f 2
    let r := √(b ^ 2 + h ^ 2)
    let n := √(a ^ 2 + b ^ 2 + h ^ 2)
    (c.yawAngleToAngularVelocity (rotZ yaw) yaw f).2 =
      ![-(K 0 / 2 * (b * (1 / r + 1 / n))), K 1 / 2 * (a / n * (1 + h / r)), -(K 2 / 2 * (a * b / (r * n)))] := by
  intro a b h r n
  have hf : f ≠ 0 := by rintro rfl; simp at h0
  have hu := Acro.pointsTo_unique hf (leaning_pointsTo yaw f h0)
  have hZ : (rotZ yaw).transpose * rotZ yaw = 1 := by
    have hcs := Real.sin_sq_add_cos_sq yaw
    ext i j
    fin_cases i <;> fin_cases j <;> simp [rotZ, Matrix.mul_apply, Fin.sum_univ_three] <;> linarith
  rw [command_real, ← hu, hK, rotationError_real, Matrix.transpose_mul, Matrix.mul_assoc, ← Matrix.mul_assoc
    (rotZ yaw).transpose, hZ, Matrix.one_mul, Matrix.mul_one]
  have hQ : leaning (f ⬝ᵥ heading yaw) (f ⬝ᵥ leftOf yaw) (f 2) =
      !![r / n, 0, a / n; -(a * b) / (r * n), h / r, b / n; -(a * h) / (r * n), -b / r, h / n] := rfl
  rw [hQ]
  have hr : 0 < r := Real.sqrt_pos.2 (lt_of_le_of_ne (by positivity) (Ne.symm h0))
  have hn : 0 < n := Real.sqrt_pos.2 (by
    have : 0 < b ^ 2 + h ^ 2 := lt_of_le_of_ne (by positivity) (Ne.symm h0)
    nlinarith [sq_nonneg a])
  ext i
  rw [Pi.neg_apply, Matrix.mulVec_diagonal]
  fin_cases i <;> simp <;> field_simp <;> ring

/-- **C153.** A level vehicle with the demanded heading is asked for the acceleration `A`, above free fall. It
pitches forward exactly if the demand points ahead and backward exactly if it points back; it rolls to the
left exactly if the demand points to the left and to the right exactly if it points to the right; it does
neither exactly if the demand is vertical. The mass does not matter. -/
theorem C153_leans (c : Acro ℝ) (K : Vec 3 ℝ) (hK : c.kpRot = Matrix.diagonal K) (hK0 : ∀ i, 0 < K i)
    (hm : 0 < c.mass) (hg0 : c.gravity 0 = 0) (hg1 : c.gravity 1 = 0) (yaw : ℝ) (A : Vec 3 ℝ)
    (hA : c.gravity 2 < A 2) :
    let w := (c.yawAngleToAngularVelocity (rotZ yaw) yaw (c.accelerationToThrust A)).2
    (0 < w 1 ↔ 0 < A ⬝ᵥ heading yaw) ∧ (w 1 < 0 ↔ A ⬝ᵥ heading yaw < 0) ∧
    (w 0 < 0 ↔ 0 < A ⬝ᵥ leftOf yaw) ∧ (0 < w 0 ↔ A ⬝ᵥ leftOf yaw < 0) ∧
    (w = 0 ↔ A 0 = 0 ∧ A 1 = 0) := by
  intro w
  have hF : c.accelerationToThrust A = c.mass • (A - c.gravity) := by
    simp only [Acro.accelerationToThrust, flt]
  have ha : c.accelerationToThrust A ⬝ᵥ heading yaw = c.mass * (A ⬝ᵥ heading yaw) := by
    rw [hF, smul_dotProduct, sub_dotProduct]
    simp [heading, dotProduct, Fin.sum_univ_three, hg0, hg1]
  have hb : c.accelerationToThrust A ⬝ᵥ leftOf yaw = c.mass * (A ⬝ᵥ leftOf yaw) := by
    rw [hF, smul_dotProduct, sub_dotProduct]
    simp [leftOf, dotProduct, Fin.sum_univ_three, hg0, hg1]
  have hh : c.accelerationToThrust A 2 = c.mass * (A 2 - c.gravity 2) := by
    rw [hF]; rfl
  have hh0 : 0 < c.accelerationToThrust A 2 := by rw [hh]; exact mul_pos hm (by linarith)
  have h0 : (c.accelerationToThrust A ⬝ᵥ leftOf yaw) ^ 2 + (c.accelerationToThrust A 2) ^ 2 ≠ 0 := by positivity
  have key := C153_rates c K hK yaw (c.accelerationToThrust A) h0
  simp only [ha, hb] at key
  rw [hb] at h0
  set a := A ⬝ᵥ heading yaw with had
  set b := A ⬝ᵥ leftOf yaw with hbd
  set h := c.accelerationToThrust A 2
  set r := √((c.mass * b) ^ 2 + h ^ 2)
  set n := √((c.mass * a) ^ 2 + (c.mass * b) ^ 2 + h ^ 2)
  have hr : 0 < r := Real.sqrt_pos.2 (by positivity)
  have hn : 0 < n := Real.sqrt_pos.2 (by positivity)
  have w0 : w 0 = -(K 0 / 2 * (c.mass * (1 / r + 1 / n)) * b) := by
    change (c.yawAngleToAngularVelocity (rotZ yaw) yaw (c.accelerationToThrust A)).2 0 = _
    rw [key]; simp; ring
  have w1 : w 1 = K 1 / 2 * (c.mass / n * (1 + h / r)) * a := by
    change (c.yawAngleToAngularVelocity (rotZ yaw) yaw (c.accelerationToThrust A)).2 1 = _
    rw [key]; simp; ring
  have w2 : w 2 = -(K 2 / 2 * (c.mass * a * (c.mass * b) / (r * n))) := by
    change (c.yawAngleToAngularVelocity (rotZ yaw) yaw (c.accelerationToThrust A)).2 2 = _
    rw [key]; simp
  have c0 : 0 < K 0 / 2 * (c.mass * (1 / r + 1 / n)) := by have := hK0 0; positivity
  have c1 : 0 < K 1 / 2 * (c.mass / n * (1 + h / r)) := by have := hK0 1; positivity
  refine ⟨?_, ?_, ?_, ?_, ?_⟩
  · rw [w1, mul_pos_iff_of_pos_left c1]
  · rw [w1]; constructor <;> intro hs <;> nlinarith
  · rw [w0, neg_lt_zero, mul_pos_iff_of_pos_left c0]
  · rw [w0]; constructor <;> intro hs <;> nlinarith
  · have hcs := Real.sin_sq_add_cos_sq yaw
    constructor
    · intro hw
      have a0 : a = 0 := by
        have := congrFun hw 1
        rw [w1] at this
        exact (mul_eq_zero.1 this).resolve_left c1.ne'
      have b0 : b = 0 := by
        have := congrFun hw 0
        rw [w0] at this
        exact (mul_eq_zero.1 (neg_eq_zero.1 this)).resolve_left c0.ne'
      rw [had] at a0; rw [hbd] at b0
      simp [heading, leftOf, dotProduct, Fin.sum_univ_three] at a0 b0
      constructor
      · linear_combination Real.cos yaw * a0 - Real.sin yaw * b0 - A 0 * hcs
      · linear_combination Real.sin yaw * a0 + Real.cos yaw * b0 - A 1 * hcs
    · rintro ⟨e0, e1⟩
      have a0 : a = 0 := by rw [had]; simp [heading, dotProduct, Fin.sum_univ_three, e0, e1]
      have b0 : b = 0 := by rw [hbd]; simp [leftOf, dotProduct, Fin.sum_univ_three, e0, e1]
      ext i
      fin_cases i
      · exact w0.trans (by rw [b0]; simp)
      · exact w1.trans (by rw [a0]; simp)
      · exact w2.trans (by rw [b0]; simp)

/-- Below free fall this fails: a level vehicle asked to go straight ahead and to fall faster than free fall does
not move at all, although its attitude is not the demanded one. -/
theorem C153_dead (c : Acro ℝ) (K : Vec 3 ℝ) (hK : c.kpRot = Matrix.diagonal K) (yaw : ℝ) (f : Vec 3 ℝ)
    (hb : f ⬝ᵥ leftOf yaw = 0) (hh : f 2 < 0) :
    (c.yawAngleToAngularVelocity (rotZ yaw) yaw f).2 = 0 ∧ ¬ PointsTo (rotZ yaw) f yaw := by
  have h0 : (f ⬝ᵥ leftOf yaw) ^ 2 + (f 2) ^ 2 ≠ 0 := by
    have : 0 < (f 2) ^ 2 := by nlinarith
    positivity
  constructor
  · rw [C153_rates c K hK yaw f h0]
    have e : √(f 2 ^ 2) = -f 2 := by rw [Real.sqrt_sq_eq_abs, abs_of_neg hh]
    have e2 : 1 + f 2 / √(f 2 ^ 2) = 0 := by rw [e, div_neg, div_self hh.ne]; ring
    rw [hb]
    ext i
    fin_cases i
    · simp
    · simp [e2]
    · simp
  · intro hp
    have h1 := congrFun hp.thrust 2
    simp [axis, rotZ] at h1
    have := Real.sqrt_nonneg (f ⬝ᵥ f)
    linarith

/-- Non-vacuity: unit gains, mass 2, asked to accelerate ahead and to the left at heading 0. -/
example : let c : Acro ℝ := Acro.mk' ⟨2, Matrix.diagonal 1, ![0, 0, -9.81]⟩
    0 < (c.yawAngleToAngularVelocity (rotZ 0) 0 (c.accelerationToThrust ![1, 2, 0])).2 1 ∧
    (c.yawAngleToAngularVelocity (rotZ 0) 0 (c.accelerationToThrust ![1, 2, 0])).2 0 < 0 := by
  intro c
  obtain ⟨h1, -, h2, -⟩ := C153_leans c 1 rfl (fun _ => by simp) (by norm_num [c, Acro.mk']) rfl rfl 0 ![1, 2, 0]
    (by change (-9.81 : ℝ) < 0; norm_num)
  refine ⟨h1.2 ?_, h2.2 ?_⟩
  · simp [heading, dotProduct, Fin.sum_univ_three]
  · simp [leftOf, dotProduct, Fin.sum_univ_three]

example (c : Acro ℝ) (K : Vec 3 ℝ) (hK : c.kpRot = Matrix.diagonal K) :
    (c.yawAngleToAngularVelocity (rotZ 0) 0 ![1, 0, -1]).2 = 0 :=
  (C153_dead c K hK 0 ![1, 0, -1] (by simp [leftOf, dotProduct, Fin.sum_univ_three]) (by change (-1 : ℝ) < 0; norm_num)).1

end Verif.Props
