import Verif.Lemmas.Attitude
import Mathlib.Analysis.Calculus.Deriv.Add
import Mathlib.Analysis.Calculus.Deriv.Mul

/-!
# Attitude control (C43–C46)
-/

namespace Verif.Props

open Verif Flt Spec

/-! ## C43 -/

/-- **C43.** The commanded thrust never compares below zero, in any arithmetic. -/
theorem C43_not_negative {α : Type} [Flt α] [LawfulFlt α] {n : ℕ} (c : Ctl α n) (a : Vec 3 α)
    (R : Mat 3 3 α) (yaw : α) : lt (c.accelerationToAcro a R yaw).2.1 (lit 0) = false := by
  simp only [Ctl.accelerationToAcro]
  split
  · exact LawfulFlt.lt_irrefl _
  · rename_i h; simpa using h

lemma cauchy {n : ℕ} (u v : Vec n ℝ) : (u ⬝ᵥ v) ^ 2 ≤ (u ⬝ᵥ u) * (v ⬝ᵥ v) := by
  have := Finset.sum_mul_sq_le_sq_mul_sq Finset.univ u v
  simpa [dotProduct, sq] using this

lemma cauchy_sqrt {n : ℕ} (u v : Vec n ℝ) : |u ⬝ᵥ v| ≤ √(u ⬝ᵥ u) * √(v ⬝ᵥ v) := by
  rw [← Real.sqrt_mul (dot_self_nonneg u)]
  exact Real.abs_le_sqrt (cauchy u v)

/-- **C43.** Over the reals the commanded thrust is the component of the demanded force
`mass (a - g)` along the thrust axis, cut at zero; it is at most the length of that force; and if the
force points against the thrust axis, thrust and rates are zero. -/
theorem C43_projection {n : ℕ} (c : Ctl ℝ n) (a : Vec 3 ℝ) (R : Mat 3 3 ℝ) (yaw : ℝ) :
    let f := c.acro.mass • (a - c.acro.gravity)
    let r := (c.accelerationToAcro a R yaw).2
    r.1 * √(axis R 2 ⬝ᵥ axis R 2) = max 0 (f ⬝ᵥ axis R 2) ∧
    0 ≤ r.1 ∧ r.1 ≤ |c.acro.mass| * √((a - c.acro.gravity) ⬝ᵥ (a - c.acro.gravity)) ∧
    (f ⬝ᵥ axis R 2 < 0 → r.1 = 0 ∧ r.2 = 0) := by
  intro f r
  have hz : (fun i => R i 2) = axis R 2 := rfl
  have hr : r = if f ⬝ᵥ Verif.normalized (axis R 2) < 0 then (0, 0) else
      (f ⬝ᵥ Verif.normalized (axis R 2), (c.acro.yawAngleToAngularVelocity R yaw f).2) := by
    simp only [r, f, Ctl.accelerationToAcro, Acro.accelerationToThrust, hz, smulR_real, vsub_real,
      dot_real, lt_real, lit_zero, vzero_real, decide_eq_true_eq]
  set z := axis R 2
  have hs : 0 ≤ √(z ⬝ᵥ z) := Real.sqrt_nonneg _
  have hp : f ⬝ᵥ Verif.normalized z = (√(z ⬝ᵥ z))⁻¹ * (f ⬝ᵥ z) := by
    rw [normalized_real, dotProduct_smul, smul_eq_mul]
  have hmul : f ⬝ᵥ Verif.normalized z * √(z ⬝ᵥ z) = f ⬝ᵥ z := by
    rw [hp]
    by_cases h0 : z = 0
    · rw [h0]; simp
    · have := (Real.sqrt_pos.2 (dot_self_pos z h0)).ne'
      field_simp
  have hlen : √(f ⬝ᵥ f) = |c.acro.mass| * √((a - c.acro.gravity) ⬝ᵥ (a - c.acro.gravity)) := by
    have : f ⬝ᵥ f = c.acro.mass ^ 2 * ((a - c.acro.gravity) ⬝ᵥ (a - c.acro.gravity)) := by
      simp only [f, smul_dotProduct, dotProduct_smul, smul_eq_mul]; ring
    rw [this, Real.sqrt_mul (sq_nonneg _), Real.sqrt_sq_eq_abs]
  have hle : f ⬝ᵥ Verif.normalized z ≤ √(f ⬝ᵥ f) := by
    refine (le_abs_self _).trans ((cauchy_sqrt _ _).trans ?_)
    by_cases h0 : z = 0
    · rw [h0]; simp [flt]
    · rw [normalized_unit_vec h0]; simp
  rw [← hlen]
  by_cases hneg : f ⬝ᵥ Verif.normalized z < 0
  · rw [if_pos hneg] at hr
    rw [hr]
    have : f ⬝ᵥ z ≤ 0 := by rw [← hmul]; exact mul_nonpos_of_nonpos_of_nonneg hneg.le hs
    exact ⟨by rw [max_eq_left this, zero_mul], le_refl _, Real.sqrt_nonneg _, fun _ => ⟨rfl, rfl⟩⟩
  · rw [if_neg hneg] at hr
    rw [hr]
    have h0 : 0 ≤ f ⬝ᵥ Verif.normalized z := not_lt.1 hneg
    have : 0 ≤ f ⬝ᵥ z := by rw [← hmul]; exact mul_nonneg h0 hs
    exact ⟨by rw [max_eq_right this, hmul], h0, hle, fun h => absurd this (not_le.2 h)⟩

/-- Non-vacuity: a level vehicle asked to fall faster than gravity pushes downwards, so the demand points
against the thrust axis. -/
example : ((2 : ℝ) • ((![0, 0, -11] : Vec 3 ℝ) - ![0, 0, -10])) ⬝ᵥ axis (1 : Mat 3 3 ℝ) 2 < 0 := by
  rw [dot3]; simp [axis]; norm_num

/-! ## C44 -/

lemma command_real (c : Acro ℝ) (R : Mat 3 3 ℝ) (yaw : ℝ) (f : Vec 3 ℝ) :
    (c.yawAngleToAngularVelocity R yaw f).2 =
      -c.kpRot.mulVec (Acro.rotationError (Acro.desiredAttitude yaw f) R) := by
  simp only [Acro.yawAngleToAngularVelocity, mv_real, mneg_real, Matrix.neg_mulVec]

lemma rotationError_real (Rd R : Mat 3 3 ℝ) : Acro.rotationError Rd R =
    (1 / 2 : ℝ) • ![(Rd.transpose * R - R.transpose * Rd) 2 1, (Rd.transpose * R - R.transpose * Rd) 0 2,
      (Rd.transpose * R - R.transpose * Rd) 1 0] := by
  simp only [Acro.rotationError, flt]

lemma vec_zero : (![0, 0, 0] : Vec 3 ℝ) = 0 := by ext i; fin_cases i <;> rfl

lemma rotationError_self (R : Mat 3 3 ℝ) : Acro.rotationError R R = 0 := by
  rw [rotationError_real, sub_self]; simp [vec_zero]

/-- **C44.** Whenever the demanded force is not parallel to the heading there is exactly one attitude
pointing thrust and nose as demanded, and there the commanded rates are zero for all gains. -/
theorem C44_attitude_demand (f : Vec 3 ℝ) (yaw : ℝ) (h : crossProduct f (heading yaw) ≠ 0) :
    (∃! R, PointsTo R f yaw) ∧
    ∀ R, PointsTo R f yaw → ∀ c : Acro ℝ, (c.yawAngleToAngularVelocity R yaw f).2 = 0 := by
  have hf : f ≠ 0 := by rintro rfl; simp at h
  refine ⟨⟨_, Acro.desiredAttitude_pointsTo yaw f h, fun R hR => Acro.pointsTo_unique hf hR⟩, ?_⟩
  intro R hR c
  rw [command_real, ← Acro.pointsTo_unique hf hR, rotationError_self]
  simp

/-- Only the demanded attitude and those half a turn away from it have zero commanded rates for the
identity gain: the relative rotation must be symmetric. -/
theorem C44_zero_command (f : Vec 3 ℝ) (yaw : ℝ) (R Rd : Mat 3 3 ℝ) (hd : PointsTo Rd f yaw) (hf : f ≠ 0)
    (c : Acro ℝ) (hc : c.kpRot = 1) :
    (c.yawAngleToAngularVelocity R yaw f).2 = 0 ↔ (Rd.transpose * R).IsSymm := by
  rw [command_real, ← Acro.pointsTo_unique hf hd, hc, Matrix.one_mulVec, neg_eq_zero, rotationError_real]
  have ht : R.transpose * Rd = (Rd.transpose * R).transpose := by
    rw [Matrix.transpose_mul, Matrix.transpose_transpose]
  rw [ht]
  generalize Rd.transpose * R = Q
  constructor
  · intro h
    have h0 := congrFun h 0
    have h1 := congrFun h 1
    have h2 := congrFun h 2
    simp at h0 h1 h2
    ext i j
    rw [Matrix.transpose_apply]
    fin_cases i <;> fin_cases j <;> simp <;> linarith
  · intro h
    rw [h.eq, sub_self]; simp [vec_zero]

/-- Non-vacuity: the weight of a hovering vehicle, any yaw. -/
example (yaw : ℝ) : crossProduct (![0, 0, 10] : Vec 3 ℝ) (heading yaw) ≠ 0 := by
  intro h
  have h0 := congrFun h 0
  have h1 := congrFun h 1
  simp [cross_apply, heading] at h0 h1
  have := Real.sin_sq_add_cos_sq yaw
  simp [h0, h1] at this

/-! ## C45 -/

lemma error_deriv (Rd R : Mat 3 3 ℝ) (w : Vec 3 ℝ) (curve : ℝ → Mat 3 3 ℝ) (t : ℝ)
    (hd : ∀ i j, HasDerivAt (fun s => curve s i j) ((R * skew w) i j) t) :
    HasDerivAt (fun s => attError Rd (curve s)) (Acro.rotationError Rd R ⬝ᵥ w) t := by
  have e : (fun s => attError Rd (curve s)) =
      fun s => (3 - ∑ i, ∑ j, Rd i j * curve s i j) * (1 / 2) := by
    ext s
    simp [attError, Matrix.trace, Matrix.diag, Matrix.mul_apply, Fin.sum_univ_three]
    ring
  rw [e]
  have h1 : HasDerivAt (fun s => ∑ i, ∑ j, Rd i j * curve s i j)
      (∑ i, ∑ j, Rd i j * (R * skew w) i j) t :=
    HasDerivAt.fun_sum fun i _ => HasDerivAt.fun_sum fun j _ => (hd i j).const_mul _
  have h2 := (h1.const_sub 3).mul_const (1 / 2)
  have h3 : Acro.rotationError Rd R ⬝ᵥ w = (-∑ i, ∑ j, Rd i j * (R * skew w) i j) * (1 / 2) := by
    rw [rotationError_real, dot3]
    simp [Matrix.mul_apply, skew, Fin.sum_univ_three]
    ring
  rw [h3]
  exact h2

/-- **C45.** When the vehicle follows the commanded rates, the attitude error with respect to the demanded
attitude does not grow for gains with non-negative quadratic form; it strictly decreases for positive
gains unless the relative rotation is symmetric. -/
theorem C45_turns_towards (c : Acro ℝ) (R Rd : Mat 3 3 ℝ) (f : Vec 3 ℝ) (yaw : ℝ) (hf : f ≠ 0)
    (hR : PointsTo Rd f yaw) (hK : ∀ v, 0 ≤ v ⬝ᵥ c.kpRot.mulVec v)
    (curve : ℝ → Mat 3 3 ℝ) (t : ℝ)
    (hd : ∀ i j, HasDerivAt (fun s => curve s i j)
      ((R * skew (c.yawAngleToAngularVelocity R yaw f).2) i j) t) :
    ∃ d, HasDerivAt (fun s => attError Rd (curve s)) d t ∧ d ≤ 0 ∧
      ((∀ v, v ≠ 0 → 0 < v ⬝ᵥ c.kpRot.mulVec v) → ¬ (Rd.transpose * R).IsSymm → d < 0) := by
  refine ⟨_, error_deriv Rd R _ curve t hd, ?_, ?_⟩
  · rw [command_real, ← Acro.pointsTo_unique hf hR, dotProduct_neg]
    simpa using hK _
  · intro hpos hs
    rw [command_real, ← Acro.pointsTo_unique hf hR, dotProduct_neg]
    have : Acro.rotationError Rd R ≠ 0 := by
      intro h
      apply hs
      rw [← C44_zero_command f yaw R Rd hR hf { c with kpRot := 1 } rfl, command_real,
        ← Acro.pointsTo_unique hf hR, h]
      simp
    linarith [hpos _ this]

/-- For rotations the error function vanishes exactly at the demand, and a symmetric relative rotation is
either the identity or half a turn, where the error is maximal. -/
theorem C45_equilibria (R Rd : Mat 3 3 ℝ) (h : IsRotation R) (hd : IsRotation Rd)
    (hs : (Rd.transpose * R).IsSymm) : R = Rd ∨ attError Rd R = 2 := by
  have hQ : IsRotation (Rd.transpose * R) := by
    constructor
    · rw [Matrix.transpose_mul, Matrix.transpose_transpose, Matrix.mul_assoc, ← Matrix.mul_assoc Rd,
        hd.orth', Matrix.one_mul, h.orth]
    · rw [Matrix.det_mul, Matrix.det_transpose, hd.det, h.det, one_mul]
  have hback : R = Rd * (Rd.transpose * R) := by
    rw [← Matrix.mul_assoc, hd.orth', Matrix.one_mul]
  have herr : attError Rd R = (3 - (Rd.transpose * R).trace) / 2 := by
    simp [attError, Matrix.trace_sub, Matrix.trace_one]
  rw [herr]
  have hadj := hQ.adjugate
  have hsq := hQ.orth
  revert hback hadj hsq
  rw [hs.eq]
  have s10 := hs.apply 0 1
  have s20 := hs.apply 0 2
  have s21 := hs.apply 1 2
  generalize Rd.transpose * R = Q at *
  intro hback hadj hsq
  rw [Matrix.adjugate_fin_three] at hadj
  have t : Q.trace = Q 0 0 + Q 1 1 + Q 2 2 := by simp [Matrix.trace, Fin.sum_univ_three]
  have a00 := congrFun (congrFun hadj 0) 0
  have a01 := congrFun (congrFun hadj 0) 1
  have a02 := congrFun (congrFun hadj 0) 2
  have a11 := congrFun (congrFun hadj 1) 1
  have a12 := congrFun (congrFun hadj 1) 2
  have a22 := congrFun (congrFun hadj 2) 2
  have q00 := congrFun (congrFun hsq 0) 0
  have q01 := congrFun (congrFun hsq 0) 1
  have q02 := congrFun (congrFun hsq 0) 2
  have q11 := congrFun (congrFun hsq 1) 1
  have q12 := congrFun (congrFun hsq 1) 2
  have q22 := congrFun (congrFun hsq 2) 2
  simp [Matrix.mul_apply, Fin.sum_univ_three, s10, s20, s21] at a00 a01 a02 a11 a12 a22 q00 q01 q02 q11 q12 q22
  by_cases ht : Q.trace = -1
  · right; rw [ht]; norm_num
  · left
    have hne : 1 + (Q 0 0 + Q 1 1 + Q 2 2) ≠ 0 := by
      intro h; apply ht; rw [t]; linarith
    have z01 : Q 0 1 = 0 := (mul_eq_zero.1 (show (1 + (Q 0 0 + Q 1 1 + Q 2 2)) * Q 0 1 = 0 by
      linear_combination q01 - a01)).resolve_left hne
    have z02 : Q 0 2 = 0 := (mul_eq_zero.1 (show (1 + (Q 0 0 + Q 1 1 + Q 2 2)) * Q 0 2 = 0 by
      linear_combination q02 - a02)).resolve_left hne
    have z12 : Q 1 2 = 0 := (mul_eq_zero.1 (show (1 + (Q 0 0 + Q 1 1 + Q 2 2)) * Q 1 2 = 0 by
      linear_combination q12 - a12)).resolve_left hne
    have o00 : Q 0 0 - 1 = 0 := (mul_eq_zero.1 (show (1 + (Q 0 0 + Q 1 1 + Q 2 2)) * (Q 0 0 - 1) = 0 by
      linear_combination q00 + a11 + a22)).resolve_left hne
    have o11 : Q 1 1 - 1 = 0 := (mul_eq_zero.1 (show (1 + (Q 0 0 + Q 1 1 + Q 2 2)) * (Q 1 1 - 1) = 0 by
      linear_combination q11 + a00 + a22)).resolve_left hne
    have o22 : Q 2 2 - 1 = 0 := (mul_eq_zero.1 (show (1 + (Q 0 0 + Q 1 1 + Q 2 2)) * (Q 2 2 - 1) = 0 by
      linear_combination q22 + a00 + a11)).resolve_left hne
    have : Q = 1 := by
      ext i j
      fin_cases i <;> fin_cases j <;> simp [s10, s20, s21, z01, z02, z12] <;> linarith
    rw [hback, this, Matrix.mul_one]

lemma pointsTo_one : PointsTo (1 : Mat 3 3 ℝ) ![0, 0, 10] 0 := by
  refine ⟨⟨by simp, by simp⟩, ?_, ?_, ?_⟩
  · have : (![0, 0, 10] : Vec 3 ℝ) ⬝ᵥ ![0, 0, 10] = 10 ^ 2 := by simp [dot3]; norm_num
    rw [this, Real.sqrt_sq (by norm_num)]
    ext i; fin_cases i <;> simp [axis]
  · rw [dot3]; simp [axis, heading]
  · rw [dot3]; simp [axis, heading]

lemma rotZ_rotation (a : ℝ) : IsRotation (rotZ a) := by
  have := Real.sin_sq_add_cos_sq a
  constructor
  · ext i j
    fin_cases i <;> fin_cases j <;> simp [rotZ, Matrix.mul_apply, Fin.sum_univ_three] <;> linarith
  · simp [rotZ, Matrix.det_fin_three]; linarith

/-- Non-vacuity of C45: a vehicle a quarter turn away from the demand, with unit gains, on a curve that
follows the commanded rates. -/
example : ∃ (c : Acro ℝ) (R Rd : Mat 3 3 ℝ) (curve : ℝ → Mat 3 3 ℝ),
    IsRotation R ∧ PointsTo Rd ![0, 0, 10] 0 ∧ (∀ v, v ≠ 0 → 0 < v ⬝ᵥ c.kpRot.mulVec v) ∧
    ¬ (Rd.transpose * R).IsSymm ∧
    ∀ i j, HasDerivAt (fun s => curve s i j)
      ((R * skew (c.yawAngleToAngularVelocity R 0 ![0, 0, 10]).2) i j) 0 := by
  let c : Acro ℝ := ⟨1, 1, 0, 0, 0⟩
  let W := rotZ (Real.pi / 2) * skew (c.yawAngleToAngularVelocity (rotZ (Real.pi / 2)) 0 ![0, 0, 10]).2
  refine ⟨c, rotZ (Real.pi / 2), 1, fun s => fun i j => rotZ (Real.pi / 2) i j + s * W i j,
    rotZ_rotation _, pointsTo_one, ?_, ?_, ?_⟩
  · intro v hv
    simpa [c] using dot_self_pos v hv
  · intro h
    have := h.apply 0 1
    simp [rotZ] at this
    norm_num at this
  · intro i j
    have := ((hasDerivAt_id (0 : ℝ)).mul_const (W i j)).const_add (rotZ (Real.pi / 2) i j)
    rw [one_mul] at this
    exact this

/-! ## C46 -/

/-- **C46.** With zero demanded force the commanded thrust and rates are zero. -/
theorem C46_zero_force {n : ℕ} (c : Ctl ℝ n) (R : Mat 3 3 ℝ) (yaw : ℝ) :
    (c.accelerationToAcro c.acro.gravity R yaw).2 = (0, 0) := by
  have h1 : c.acro.accelerationToThrust c.acro.gravity = 0 := by
    simp [Acro.accelerationToThrust, flt]
  have h2 : Acro.desiredAttitude yaw (0 : Vec 3 ℝ) = 0 := by
    obtain ⟨h2, h1, h0⟩ := Acro.desiredAttitude_axis yaw 0
    have hz : Verif.normalized (0 : Vec 3 ℝ) = 0 := by simp [flt]
    rw [hz] at h2 h1
    rw [LinearMap.map_zero, LinearMap.zero_apply, hz] at h1
    rw [h1, LinearMap.map_zero, LinearMap.zero_apply, hz] at h0
    ext i j
    fin_cases j
    · exact congrFun h0 i
    · exact congrFun h1 i
    · exact congrFun h2 i
  have h3 : (c.acro.yawAngleToAngularVelocity R yaw 0).2 = 0 := by
    rw [command_real, h2, rotationError_real]; simp [vec_zero]
  simp [Ctl.accelerationToAcro, h1, h3, flt]

lemma error_components (Rd R : Mat 3 3 ℝ) :
    Acro.rotationError Rd R = ![(axis Rd 2 ⬝ᵥ axis R 1 - axis R 2 ⬝ᵥ axis Rd 1) / 2,
      (axis Rd 0 ⬝ᵥ axis R 2 - axis R 0 ⬝ᵥ axis Rd 2) / 2,
      (axis Rd 1 ⬝ᵥ axis R 0 - axis R 1 ⬝ᵥ axis Rd 0) / 2] := by
  rw [rotationError_real]
  ext i
  fin_cases i <;> simp [Matrix.mul_apply, dotProduct, axis] <;> ring

lemma normalized_le_one {n : ℕ} (v : Vec n ℝ) : Verif.normalized v ⬝ᵥ Verif.normalized v ≤ 1 := by
  by_cases h : v = 0
  · subst h; simp [flt]
  · exact (normalized_unit_vec h).le

lemma desired_axis_le (yaw : ℝ) (f : Vec 3 ℝ) (j : Fin 3) :
    axis (Acro.desiredAttitude yaw f) j ⬝ᵥ axis (Acro.desiredAttitude yaw f) j ≤ 1 := by
  obtain ⟨h2, h1, h0⟩ := Acro.desiredAttitude_axis yaw f
  fin_cases j
  · show axis (Acro.desiredAttitude yaw f) 0 ⬝ᵥ axis (Acro.desiredAttitude yaw f) 0 ≤ 1
    rw [h0]; exact normalized_le_one _
  · show axis (Acro.desiredAttitude yaw f) 1 ⬝ᵥ axis (Acro.desiredAttitude yaw f) 1 ≤ 1
    rw [h1]; exact normalized_le_one _
  · show axis (Acro.desiredAttitude yaw f) 2 ⬝ᵥ axis (Acro.desiredAttitude yaw f) 2 ≤ 1
    rw [h2]; exact normalized_le_one _

lemma axis_bound {R : Mat 3 3 ℝ} (hR : IsRotation R) (yaw : ℝ) (f : Vec 3 ℝ) (i j : Fin 3) :
    |axis (Acro.desiredAttitude yaw f) i ⬝ᵥ axis R j| ≤ 1 := by
  refine (cauchy_sqrt _ _).trans ?_
  rw [hR.dot j j, if_pos rfl, Real.sqrt_one, mul_one, Real.sqrt_le_one]
  exact desired_axis_le yaw f i

lemma row_bound (k e : Vec 3 ℝ) (b : Vec 3 ℝ) (h : ∀ i, |e i| ≤ b i) :
    |k ⬝ᵥ e| ≤ |k 0| * b 0 + |k 1| * b 1 + |k 2| * b 2 := by
  rw [dot3]
  refine (abs_add_three _ _ _).trans ?_
  rw [abs_mul, abs_mul, abs_mul]
  gcongr <;> exact h _

/-- **C46.** For every attitude and every demanded force, degenerate ones included, the commanded rates
are bounded by the gains alone. -/
theorem C46_bounded (c : Acro ℝ) (R : Mat 3 3 ℝ) (hR : IsRotation R) (yaw : ℝ) (f : Vec 3 ℝ) (i : Fin 3) :
    |(c.yawAngleToAngularVelocity R yaw f).2 i| ≤ |c.kpRot i 0| + |c.kpRot i 1| + |c.kpRot i 2| := by
  rw [command_real, Pi.neg_apply, abs_neg]
  have hb := axis_bound hR yaw f
  refine (row_bound (c.kpRot i) _ ![1, 1, 1] ?_).trans (by simp)
  intro j
  rw [error_components]
  have h1 : ∀ a b : ℝ, |a| ≤ 1 → |b| ≤ 1 → |(a - b) / 2| ≤ 1 := by
    intro a b ha hb
    rw [abs_le] at *
    constructor <;> linarith [ha.1, ha.2, hb.1, hb.2]
  fin_cases j <;> simp only [Fin.zero_eta, Fin.mk_one, Fin.reduceFinMk, Matrix.cons_val] <;>
    exact h1 _ _ (hb _ _) (by rw [dotProduct_comm]; exact hb _ _)

/-- **C46.** With the force parallel to the heading the rates are bounded by half the roll and pitch
gains. -/
theorem C46_parallel (c : Acro ℝ) (R : Mat 3 3 ℝ) (hR : IsRotation R) (yaw : ℝ) (f : Vec 3 ℝ)
    (h : crossProduct f (heading yaw) = 0) (i : Fin 3) :
    |(c.yawAngleToAngularVelocity R yaw f).2 i| ≤ (|c.kpRot i 0| + |c.kpRot i 1|) / 2 := by
  obtain ⟨h2, h1, h0⟩ := Acro.desiredAttitude_axis yaw f
  have hz : Verif.normalized (0 : Vec 3 ℝ) = 0 := by simp [flt]
  have e1 : axis (Acro.desiredAttitude yaw f) 1 = 0 := by
    rw [h1, normalized_real f, LinearMap.map_smul, LinearMap.smul_apply, h, smul_zero, hz]
  have e0 : axis (Acro.desiredAttitude yaw f) 0 = 0 := by
    rw [h0, e1, LinearMap.map_zero, LinearMap.zero_apply, hz]
  rw [command_real, Pi.neg_apply, abs_neg]
  have hb := axis_bound hR yaw f
  refine (row_bound (c.kpRot i) _ ![1 / 2, 1 / 2, 0] ?_).trans (by simp; linarith)
  intro j
  rw [error_components, e0, e1]
  have b1 := hb 2 1
  have b0 := hb 2 0
  rw [abs_le] at b1 b0
  fin_cases j
  · simp; rw [abs_le]; constructor <;> linarith [b1.1, b1.2]
  · simp; rw [dotProduct_comm, abs_le]; constructor <;> linarith [b0.1, b0.2]
  · simp

/-- Non-vacuity: a horizontal force along the heading. -/
example : crossProduct (![3, 0, 0] : Vec 3 ℝ) (heading 0) = 0 ∧ IsRotation (1 : Mat 3 3 ℝ) := by
  refine ⟨?_, by simp, by simp⟩
  ext i; fin_cases i <;> simp [cross_apply, heading]

end Verif.Props
