import Verif.Props.Euler
import Verif.Lemmas.AttStep
import Mathlib.Analysis.SpecialFunctions.Complex.LogDeriv
import Mathlib.Analysis.SpecialFunctions.Trigonometric.InverseDeriv

/-!
# The reported angles and the body rates

`get_quaternion_integrate` (utils.hpp) turns the attitude by body rates, and `quaternion_to_Euler` reports
roll, pitch and yaw.  The test `get_quaternion_integrate_values` (utils_gtest.cpp:126-168) assumes that each
reported angle advances by its own body rate times the step.  What the two functions do instead is the
kinematics of the aeronautical angles, proved here as a derivative at step zero.
-/

namespace Verif.Props

open Verif Flt Spec Quaternion

/-- Two angles that differ by at most a hundredth of a radian, up to whole turns. -/
def AnglesNear (a b : ℝ) : Prop := ∃ k : ℤ, |a - b - 2 * Real.pi * k| ≤ 1 / 100

/-- **C155 (claim).** For every attitude and body rates of at most one radian per second, a step of a
millisecond advances each reported angle by its own rate, to a hundredth of a radian. -/
def C155_claim : Prop :=
  ∀ (q : Quat ℝ) (om : Vec 3 ℝ), IsUnitQ q → (∀ i, |om i| ≤ 1) →
    AnglesNear (quatToEuler (quatIntegrate q om (1 / 1000))).1 ((quatToEuler q).1 + om 0 * (1 / 1000)) ∧
    AnglesNear (quatToEuler (quatIntegrate q om (1 / 1000))).2.1
      ((quatToEuler q).2.1 + om 1 * (1 / 1000)) ∧
    AnglesNear (quatToEuler (quatIntegrate q om (1 / 1000))).2.2
      ((quatToEuler q).2.2 + om 2 * (1 / 1000))

/-- A quotient of quadratics whose denominator is one to first order. -/
lemma hasDerivAt_quadratic {f : ℝ → ℝ} {A B C c : ℝ} (hc : 0 ≤ c)
    (hf : ∀ t, (1 + t ^ 2 * c) * f t = A + t * B + t ^ 2 * C) : HasDerivAt f B 0 := by
  have e : f = fun t => (A + t * B + t ^ 2 * C) / (1 + t ^ 2 * c) := by
    funext t
    have : (1 + t ^ 2 * c) ≠ 0 := by positivity
    rw [← hf t]; field_simp
  have h1 : HasDerivAt (fun t : ℝ => A + t * B + t ^ 2 * C) B 0 := by
    exact ((((hasDerivAt_id' (0 : ℝ)).mul_const B).const_add A).fun_add
      (((hasDerivAt_id' (0 : ℝ)).fun_pow 2).mul_const C)).congr_deriv (by simp)
  have h2 : HasDerivAt (fun t : ℝ => 1 + t ^ 2 * c) 0 0 := by
    exact ((((hasDerivAt_id' (0 : ℝ)).fun_pow 2).mul_const c).const_add 1).congr_deriv (by simp)
  rw [e]
  exact (h1.fun_div h2 (by simp)).congr_deriv (by simp)

/-- The rotation matrix turns with the body rates: its derivative is the matrix times the cross-product
matrix of the rates. -/
lemma toMat_deriv {q : Quat ℝ} (h : IsUnitQ q) (om : Vec 3 ℝ) (i j : Fin 3) :
    HasDerivAt (fun t => (quatIntegrate q om t).toMat i j) ((q.toMat * skew om) i j) 0 := by
  refine hasDerivAt_quadratic (A := q.toMat i j) (c := om ⬝ᵥ om / 4)
    (C := om ⬝ᵥ om / 4 * q.toMat i j + (q.toMat * (skew om * skew om)) i j / 2) ?_ (fun t => ?_)
  · have : 0 ≤ om ⬝ᵥ om := by simp [dotProduct, Fin.sum_univ_three]; nlinarith [sq_nonneg (om 0), sq_nonneg (om 1), sq_nonneg (om 2)]
    positivity
  · have k := congrFun (congrFun (Quat.toMat_integrate h om t) i) j
    have hs : skew ((t / 2) • om) = (t / 2) • skew om := by
      ext a b; fin_cases a <;> fin_cases b <;> simp [skew]
    rw [hs] at k
    simp only [Matrix.mul_add, Matrix.mul_smul, Matrix.smul_mul, Matrix.add_apply, Matrix.smul_apply,
      smul_eq_mul, Matrix.mul_one, dotProduct_smul, smul_dotProduct, smul_smul] at k
    linear_combination k

/-- The derivative of a polar angle. -/
lemma hasDerivAt_arg {c s : ℝ → ℝ} {c' s' x : ℝ} (hc : HasDerivAt c c' x) (hs : HasDerivAt s s' x)
    (h0 : (⟨c x, s x⟩ : ℂ) ≠ 0) (hpi : Complex.arg ⟨c x, s x⟩ ≠ Real.pi) :
    HasDerivAt (fun t => Complex.arg ⟨c t, s t⟩) ((s' * c x - c' * s x) / (c x ^ 2 + s x ^ 2)) x := by
  have hf : HasDerivAt (fun t => (⟨c t, s t⟩ : ℂ)) ⟨c', s'⟩ x := by
    have e : (fun t => (⟨c t, s t⟩ : ℂ)) = fun t => (c t : ℂ) + (s t : ℂ) * Complex.I := by
      funext t; apply Complex.ext <;> simp
    rw [e]
    exact (hc.ofReal_comp.fun_add (hs.ofReal_comp.mul_const Complex.I)).congr_deriv
      (by apply Complex.ext <;> simp)
  have hl := hf.clog_real (Complex.mem_slitPlane_iff_arg.2 ⟨hpi, h0⟩)
  have him := Complex.imCLM.hasFDerivAt.comp_hasDerivAt x hl
  refine HasDerivAt.congr_deriv (f' := (Complex.imCLM (⟨c', s'⟩ / ⟨c x, s x⟩ : ℂ))) ?_ ?_
  · have e : (fun t => Complex.arg ⟨c t, s t⟩) =
        Complex.imCLM ∘ fun t => Complex.log ⟨c t, s t⟩ := funext fun t => (Complex.log_im _).symm
    rw [e]
    exact him
  · simp [Complex.div_im, Complex.normSq_apply]
    ring

/-- The rotation matrix from the reported angles. -/
lemma toMat_of_euler {q : Quat ℝ} (hu : IsUnitQ q) (h : |(quatToEuler q).2.1| ≠ Real.pi / 2) :
    q.toMat = rotZ (quatToEuler q).2.2 * rotY (quatToEuler q).2.1 * rotX (quatToEuler q).1 := by
  have hnz : NonzeroQ q := by
    intro h0
    have := (Quat.n2_eq_zero _).2 h0
    rw [(Quat.isUnitQ_iff q).1 hu] at this
    exact one_ne_zero this
  have e : ∀ v, q.toMat.mulVec v = (rotZ (quatToEuler q).2.2 * rotY (quatToEuler q).2.1 *
      rotX (quatToEuler q).1).mulVec v := fun v => by
    rw [Quat.toMat_mulVec]
    exact isRotated_unique (Quat.rotate_isRotated hu v) (C68_euler q hnz h v)
  exact Matrix.mulVec_injective (funext e)

/-- **C155 (what holds).** Away from a pitch of 90 degrees, and where roll and yaw are not at the jump of
their range, the reported angles change as the angles of the aeronautical convention do under body rates
`(p, q, r)`: roll at `p + tan θ (q sin φ + r cos φ)`, pitch at `q cos φ - r sin φ`, yaw at
`(q sin φ + r cos φ) / cos θ`. -/
theorem C155_rates_partial (q : Quat ℝ) (hu : IsUnitQ q) (om : Vec 3 ℝ) (φ θ ψ : ℝ)
    (he : quatToEuler q = (φ, θ, ψ)) (hθ : |θ| ≠ Real.pi / 2) (hφ : φ ≠ Real.pi) (hψ : ψ ≠ Real.pi) :
    HasDerivAt (fun t => (quatToEuler (quatIntegrate q om t)).1)
      (om 0 + Real.tan θ * (om 1 * Real.sin φ + om 2 * Real.cos φ)) 0 ∧
    HasDerivAt (fun t => (quatToEuler (quatIntegrate q om t)).2.1)
      (om 1 * Real.cos φ - om 2 * Real.sin φ) 0 ∧
    HasDerivAt (fun t => (quatToEuler (quatIntegrate q om t)).2.2)
      ((om 1 * Real.sin φ + om 2 * Real.cos φ) / Real.cos θ) 0 := by
  have hnz : NonzeroQ q := by
    intro h0
    have := (Quat.n2_eq_zero _).2 h0
    rw [(Quat.isUnitQ_iff q).1 hu] at this
    exact one_ne_zero this
  have hR := toMat_of_euler hu (by rw [he]; exact hθ)
  rw [he] at hR
  simp only at hR
  have hrange := C68_range q
  rw [he] at hrange
  have hcos : 0 < Real.cos θ := by
    refine Real.cos_pos_of_mem_Ioo ⟨?_, ?_⟩
    · refine lt_of_le_of_ne (by have := hrange; simp only at this; tauto) ?_
      rintro rfl; exact hθ (by rw [abs_neg, abs_of_pos (by positivity)])
    · refine lt_of_le_of_ne (by have := hrange; simp only at this; tauto) ?_
      rintro rfl; exact hθ (abs_of_pos (by positivity))
  have hq0 : quatIntegrate q om 0 = q := by
    have : quatIntegrate q om 0 = q.normalized := by
      rw [quatIntegrate, Quat.integrate_eq]; simp
    rw [this, Quat.normalized_of_unit hu]
  have hn : ∀ t, (quatIntegrate q om t).normalized = quatIntegrate q om t := fun t =>
    Quat.normalized_of_unit (Quat.quatIntegrate_unit hnz om t)
  have hE : ∀ t, quatToEuler (quatIntegrate q om t) =
      (Complex.arg ⟨(quatIntegrate q om t).toMat 2 2, (quatIntegrate q om t).toMat 2 1⟩,
       Real.arcsin (-(quatIntegrate q om t).toMat 2 0),
       Complex.arg ⟨(quatIntegrate q om t).toMat 0 0, (quatIntegrate q om t).toMat 1 0⟩) := fun t => by
    rw [quatToEuler_real, hn]
  have hE0 := hE 0
  rw [hq0, he] at hE0
  simp only [Prod.mk.injEq] at hE0
  obtain ⟨e1, -, e3⟩ := hE0
  have sφ := Real.sin_sq_add_cos_sq φ
  have sψ := Real.sin_sq_add_cos_sq ψ
  have sθ := Real.sin_sq_add_cos_sq θ
  have r20 : q.toMat 2 0 = -Real.sin θ := by
    rw [hR]; simp [rotZ, rotY, rotX, Matrix.mul_apply, Fin.sum_univ_three]
  have r21 : q.toMat 2 1 = Real.cos θ * Real.sin φ := by
    rw [hR]; simp [rotZ, rotY, rotX, Matrix.mul_apply, Fin.sum_univ_three]
  have r22 : q.toMat 2 2 = Real.cos θ * Real.cos φ := by
    rw [hR]; simp [rotZ, rotY, rotX, Matrix.mul_apply, Fin.sum_univ_three]
  have r00 : q.toMat 0 0 = Real.cos ψ * Real.cos θ := by
    rw [hR]; simp [rotZ, rotY, rotX, Matrix.mul_apply, Fin.sum_univ_three]
  have r01 : q.toMat 0 1 = -Real.sin ψ * Real.cos φ + Real.cos ψ * Real.sin θ * Real.sin φ := by
    rw [hR]; simp [rotZ, rotY, rotX, Matrix.mul_apply, Fin.sum_univ_three]
  have r02 : q.toMat 0 2 = Real.sin ψ * Real.sin φ + Real.cos ψ * Real.sin θ * Real.cos φ := by
    rw [hR]; simp [rotZ, rotY, rotX, Matrix.mul_apply, Fin.sum_univ_three]
  have r10 : q.toMat 1 0 = Real.sin ψ * Real.cos θ := by
    rw [hR]; simp [rotZ, rotY, rotX, Matrix.mul_apply, Fin.sum_univ_three]
  have r11 : q.toMat 1 1 = Real.cos ψ * Real.cos φ + Real.sin ψ * Real.sin θ * Real.sin φ := by
    rw [hR]; simp [rotZ, rotY, rotX, Matrix.mul_apply, Fin.sum_univ_three]
  have r12 : q.toMat 1 2 = -Real.cos ψ * Real.sin φ + Real.sin ψ * Real.sin θ * Real.cos φ := by
    rw [hR]; simp [rotZ, rotY, rotX, Matrix.mul_apply, Fin.sum_univ_three]
  have hne : ∀ a : ℝ, (⟨Real.cos θ * Real.cos a, Real.cos θ * Real.sin a⟩ : ℂ) ≠ 0 := by
    intro a h0
    have h1 := congrArg Complex.re h0
    have h2 := congrArg Complex.im h0
    simp [hcos.ne'] at h1 h2
    have := Real.sin_sq_add_cos_sq a
    rw [h1, h2] at this
    norm_num at this
  have D := toMat_deriv hu om
  refine ⟨?_, ?_, ?_⟩
  · simp only [hE]
    have k := hasDerivAt_arg (D 2 2) (D 2 1) (by simp only [hq0, r22, r21]; exact hne φ)
      (by simp only [hq0, ← e1]; exact hφ)
    refine k.congr_deriv ?_
    simp only [hq0]
    simp only [Matrix.mul_apply, Fin.sum_univ_three, skew, r20, r21, r22]
    simp
    rw [Real.tan_eq_sin_div_cos]
    have : (Real.cos θ * Real.cos φ) ^ 2 + (Real.cos θ * Real.sin φ) ^ 2 = Real.cos θ ^ 2 := by
      linear_combination Real.cos θ ^ 2 * sφ
    rw [this]
    field_simp
    linear_combination (om 0 * Real.cos θ) * sφ
  · simp only [hE]
    have hs : |Real.sin θ| < 1 := by
      rw [← sq_lt_one_iff_abs_lt_one]; nlinarith [sq_pos_of_pos hcos]
    obtain ⟨b1, b2⟩ := abs_lt.1 hs
    have k := (Real.hasDerivAt_arcsin (x := -(quatIntegrate q om 0).toMat 2 0)
      (by simp only [hq0, r20]; intro h; linarith) (by simp only [hq0, r20]; intro h; linarith)).comp 0
      (D 2 0).neg
    refine k.congr_deriv ?_
    simp only [hq0]
    simp only [Matrix.mul_apply, Fin.sum_univ_three, skew, r20, r21, r22]
    simp
    have : √(1 - Real.sin θ ^ 2) = Real.cos θ := by
      rw [← Real.cos_sq', Real.sqrt_sq hcos.le]
    rw [this]
    field_simp
    ring
  · simp only [hE]
    have k := hasDerivAt_arg (D 0 0) (D 1 0)
      (by simp only [hq0, r00, r10, mul_comm _ (Real.cos θ)]; exact hne ψ)
      (by simp only [hq0, ← e3]; exact hψ)
    refine k.congr_deriv ?_
    simp only [hq0]
    simp only [Matrix.mul_apply, Fin.sum_univ_three, skew, r00, r01, r02, r10, r11, r12]
    simp
    have : (Real.cos ψ * Real.cos θ) ^ 2 + (Real.sin ψ * Real.cos θ) ^ 2 = Real.cos θ ^ 2 := by
      linear_combination Real.cos θ ^ 2 * sψ
    rw [this]
    field_simp
    linear_combination (om 1 * Real.sin φ + om 2 * Real.cos φ) * sψ

/-- At a level attitude each angle does advance at its own rate, whatever the heading. -/
theorem C155_level_partial (q : Quat ℝ) (hu : IsUnitQ q) (om : Vec 3 ℝ) (ψ : ℝ)
    (he : quatToEuler q = (0, 0, ψ)) (hψ : ψ ≠ Real.pi) :
    HasDerivAt (fun t => (quatToEuler (quatIntegrate q om t)).1) (om 0) 0 ∧
    HasDerivAt (fun t => (quatToEuler (quatIntegrate q om t)).2.1) (om 1) 0 ∧
    HasDerivAt (fun t => (quatToEuler (quatIntegrate q om t)).2.2) (om 2) 0 := by
  have := C155_rates_partial q hu om 0 0 ψ he (by rw [abs_zero]; positivity) Real.pi_pos.ne hψ
  simpa using this

/-- The hypotheses are met at the attitude in which every flight starts. -/
example : IsUnitQ (⟨1, 0, 0, 0⟩ : Quat ℝ) ∧ quatToEuler (⟨1, 0, 0, 0⟩ : Quat ℝ) = (0, 0, 0) := by
  have hu : IsUnitQ (⟨1, 0, 0, 0⟩ : Quat ℝ) := by simp only [IsUnitQ]; norm_num
  refine ⟨hu, ?_⟩
  rw [quatToEuler_real, Quat.normalized_of_unit hu, Quat.toMat_real]
  simp only [Matrix.of_apply, Matrix.cons_val]
  norm_num
  exact Complex.arg_one

/-- And by an attitude that is not level: rolled by a quarter turn, where a pitch rate turns the heading. -/
example : ∃ q : Quat ℝ, IsUnitQ q ∧ quatToEuler q = (Real.pi / 2, 0, 0) := by
  have hs : (√2 / 2 : ℝ) * (√2 / 2) = 1 / 2 := by
    have := Real.mul_self_sqrt (show (0 : ℝ) ≤ 2 by norm_num)
    linear_combination this / 4
  have hu : IsUnitQ (⟨√2 / 2, √2 / 2, 0, 0⟩ : Quat ℝ) := by simp only [IsUnitQ]; linear_combination 2 * hs
  refine ⟨_, hu, ?_⟩
  rw [quatToEuler_real, Quat.normalized_of_unit hu, Quat.toMat_real]
  simp only [Matrix.of_apply, Matrix.cons_val, hs]
  norm_num
  exact ⟨Complex.arg_I, Complex.arg_one⟩

/-- **C155 (violated).** Looking straight up, a yaw rate of one radian per second makes the reported roll
jump by a quarter turn within a millisecond. -/
theorem C155_violated : ¬ C155_claim := by
  intro h
  have hu : IsUnitQ (⟨1 / 2, 1 / 2, 1 / 2, -1 / 2⟩ : Quat ℝ) := by simp only [IsUnitQ]; norm_num
  have hnz : NonzeroQ (⟨1 / 2, 1 / 2, 1 / 2, -1 / 2⟩ : Quat ℝ) := by
    intro h0
    have := (Quat.n2_eq_zero _).2 h0
    rw [(Quat.isUnitQ_iff _).1 hu] at this
    exact one_ne_zero this
  obtain ⟨⟨k, hk⟩, -⟩ := h ⟨1 / 2, 1 / 2, 1 / 2, -1 / 2⟩ ![0, 0, 1] hu (by
    intro i; fin_cases i <;> simp)
  have e0 : (quatToEuler (⟨1 / 2, 1 / 2, 1 / 2, -1 / 2⟩ : Quat ℝ)).1 = 0 := by
    rw [quatToEuler_real, Quat.normalized_of_unit hu, Quat.toMat_real]
    simp only [Matrix.of_apply, Matrix.cons_val]
    norm_num
    exact Complex.arg_zero
  have e1 : (quatToEuler (quatIntegrate (⟨1 / 2, 1 / 2, 1 / 2, -1 / 2⟩ : Quat ℝ) ![0, 0, 1]
      (1 / 1000))).1 = Real.pi / 2 := by
    have k := Quat.toMat_integrate hu ![0, 0, 1] (1 / 1000)
    have hR : (⟨1 / 2, 1 / 2, 1 / 2, -1 / 2⟩ : Quat ℝ).toMat = !![0, 1, 0; 0, 0, -1; -1, 0, 0] := by
      rw [Quat.toMat_real]
      ext i j
      fin_cases i <;> fin_cases j <;> norm_num
    rw [hR] at k
    have k1 := congrFun (congrFun k 2) 1
    have k2 := congrFun (congrFun k 2) 2
    generalize hm : (quatIntegrate (⟨1 / 2, 1 / 2, 1 / 2, -1 / 2⟩ : Quat ℝ) ![0, 0, 1] (1 / 1000)).toMat = m
      at k1 k2
    simp [Matrix.mul_apply, Fin.sum_univ_three, dotProduct, skew] at k1 k2
    norm_num at k1 k2
    rw [quatToEuler_real, Quat.normalized_of_unit (Quat.quatIntegrate_unit hnz _ _)]
    rw [hm, Complex.arg_eq_pi_div_two_iff]
    refine ⟨?_, ?_⟩ <;> simp only <;> linarith
  rw [e0, e1] at hk
  simp at hk
  have hp := Real.two_le_pi
  obtain ⟨h1, h2⟩ := abs_le.1 hk
  rcases le_or_gt k 0 with hk0 | hk0
  · have : (k : ℝ) ≤ 0 := by exact_mod_cast hk0
    nlinarith
  · have : (1 : ℝ) ≤ k := by exact_mod_cast hk0
    nlinarith

end Verif.Props
