import Verif.Lemmas.PidMirror
import Verif.Lemmas.Quat
import Verif.Lemmas.ToMat
import Verif.Lemmas.DynReal

/-!
# Helper lemmas about mirror images
-/

namespace Verif

open Flt Spec Pid

variable {n : ℕ}

/-! ## Vectors -/

lemma vec_ext {u v : Vec 3 ℝ} (h0 : u 0 = v 0) (h1 : u 1 = v 1) (h2 : u 2 = v 2) : u = v := by
  ext i; fin_cases i <;> assumption

section
variable (v : Vec 3 ℝ)
@[simp] lemma mirrorVec_0 : mirrorVec v 0 = v 0 := by simp [mirrorVec, reversed, across]
@[simp] lemma mirrorVec_1 : mirrorVec v 1 = -v 1 := by simp [mirrorVec, reversed, across]
@[simp] lemma mirrorVec_2 : mirrorVec v 2 = v 2 := by simp [mirrorVec, reversed, across]
@[simp] lemma mirrorTurn_0 : mirrorTurn v 0 = -v 0 := by simp [mirrorTurn, reversed, about]
@[simp] lemma mirrorTurn_1 : mirrorTurn v 1 = v 1 := by simp [mirrorTurn, reversed, about]
@[simp] lemma mirrorTurn_2 : mirrorTurn v 2 = -v 2 := by simp [mirrorTurn, reversed, about]
end

lemma mirrorVec_zero : mirrorVec 0 = 0 := reversed_zero _
lemma mirrorTurn_zero : mirrorTurn 0 = 0 := reversed_zero _
lemma mirrorVec_add (u v : Vec 3 ℝ) : mirrorVec (u + v) = mirrorVec u + mirrorVec v := reversed_add _ u v
lemma mirrorTurn_add (u v : Vec 3 ℝ) : mirrorTurn (u + v) = mirrorTurn u + mirrorTurn v := reversed_add _ u v
lemma mirrorVec_sub (u v : Vec 3 ℝ) : mirrorVec (u - v) = mirrorVec u - mirrorVec v := reversed_sub _ u v
lemma mirrorTurn_sub (u v : Vec 3 ℝ) : mirrorTurn (u - v) = mirrorTurn u - mirrorTurn v := reversed_sub _ u v
lemma mirrorVec_smul (c : ℝ) (v : Vec 3 ℝ) : mirrorVec (c • v) = c • mirrorVec v := reversed_smul _ c v
lemma mirrorTurn_smul (c : ℝ) (v : Vec 3 ℝ) : mirrorTurn (c • v) = c • mirrorTurn v := reversed_smul _ c v
lemma mirrorVec_neg (v : Vec 3 ℝ) : mirrorVec (-v) = -mirrorVec v := by
  apply vec_ext <;> simp
lemma mirrorTurn_eq (v : Vec 3 ℝ) : mirrorTurn v = -mirrorVec v := by
  apply vec_ext <;> simp

lemma mirrorVec_dot (u v : Vec 3 ℝ) : mirrorVec u ⬝ᵥ mirrorVec v = u ⬝ᵥ v := by
  simp [dotProduct, Fin.sum_univ_three]
lemma mirrorTurn_dot (u v : Vec 3 ℝ) : mirrorTurn u ⬝ᵥ mirrorTurn v = u ⬝ᵥ v := by
  simp [dotProduct, Fin.sum_univ_three]

lemma mirrorVec_normalized (v : Vec 3 ℝ) : Verif.normalized (mirrorVec v) = mirrorVec (Verif.normalized v) := by
  rw [normalized_real, normalized_real, mirrorVec_dot, mirrorVec_smul]
lemma mirrorTurn_normalized (v : Vec 3 ℝ) : Verif.normalized (mirrorTurn v) = mirrorTurn (Verif.normalized v) := by
  rw [normalized_real, normalized_real, mirrorTurn_dot, mirrorTurn_smul]

lemma cross_mirror_vv (u v : Vec 3 ℝ) : cross (mirrorVec u) (mirrorVec v) = mirrorTurn (cross u v) := by
  apply vec_ext <;> simp [cross, flt] <;> ring
lemma cross_mirror_tv (u v : Vec 3 ℝ) : cross (mirrorTurn u) (mirrorVec v) = mirrorVec (cross u v) := by
  apply vec_ext
  all_goals simp [cross, flt]
  ring
lemma cross_mirror_tt (u v : Vec 3 ℝ) : cross (mirrorTurn u) (mirrorTurn v) = mirrorTurn (cross u v) := by
  apply vec_ext <;> simp [cross, flt] <;> ring

/-! ## Matrices -/

lemma about_iff (i j : Fin 3) : (about i = about j) ↔ (across i = across j) := by
  fin_cases i <;> fin_cases j <;> simp [about, across]

lemma mirrorMat_mirrorMat (A : Mat 3 3 ℝ) : mirrorMat (mirrorMat A) = A := by
  ext i j; simp only [mirrorMat]; split <;> simp

lemma mv_mirror_v (A : Mat 3 3 ℝ) (v : Vec 3 ℝ) : mv (mirrorMat A) (mirrorVec v) = mirrorVec (mv A v) :=
  mv_conj across A v

lemma mv_mirror_t (A : Mat 3 3 ℝ) (v : Vec 3 ℝ) : mv (mirrorMat A) (mirrorTurn v) = mirrorTurn (mv A v) := by
  have := mv_conj about A v
  simp only [about_iff] at this
  exact this

lemma mirrorMat_eq (A : Mat 3 3 ℝ) :
    mirrorMat A = Matrix.diagonal ![1, -1, 1] * A * Matrix.diagonal ![1, -1, 1] := by
  ext i j
  rw [Matrix.mul_diagonal, Matrix.diagonal_mul]
  fin_cases i <;> fin_cases j <;> simp [mirrorMat, across]

lemma diag_sq : (Matrix.diagonal ![1, -1, 1] * Matrix.diagonal ![1, -1, 1] : Mat 3 3 ℝ) = 1 := by
  rw [Matrix.diagonal_mul_diagonal, ← Matrix.diagonal_one]
  congr 1
  ext i; fin_cases i <;> simp

lemma mirrorMat_det (A : Mat 3 3 ℝ) : (mirrorMat A).det = A.det := by
  rw [mirrorMat_eq, Matrix.det_mul, Matrix.det_mul, mul_comm, ← mul_assoc, ← Matrix.det_mul, diag_sq]
  simp

lemma mirrorMat_inv (A : Mat 3 3 ℝ) : (mirrorMat A)⁻¹ = mirrorMat A⁻¹ := by
  have hd : (Matrix.diagonal ![1, -1, 1] : Mat 3 3 ℝ)⁻¹ = Matrix.diagonal ![1, -1, 1] :=
    Matrix.inv_eq_left_inv diag_sq
  rw [mirrorMat_eq, mirrorMat_eq, Matrix.mul_inv_rev, Matrix.mul_inv_rev, hd, mul_assoc]

lemma mirrorMat_mul (A B : Mat 3 3 ℝ) : mirrorMat A * mirrorMat B = mirrorMat (A * B) := by
  rw [mirrorMat_eq, mirrorMat_eq, mirrorMat_eq]
  calc _ = Matrix.diagonal ![1, -1, 1] * A * (Matrix.diagonal ![1, -1, 1] * Matrix.diagonal ![1, -1, 1]) * B *
        Matrix.diagonal ![1, -1, 1] := by simp only [mul_assoc]
    _ = _ := by rw [diag_sq]; simp only [mul_one, mul_assoc]

lemma mirrorMat_transpose (A : Mat 3 3 ℝ) : (mirrorMat A).transpose = mirrorMat A.transpose := by
  ext i j; simp [mirrorMat, Matrix.transpose_apply, eq_comm]

lemma mirrorMat_sub (A B : Mat 3 3 ℝ) : mirrorMat A - mirrorMat B = mirrorMat (A - B) := by
  ext i j; simp only [mirrorMat, Matrix.sub_apply]; split <;> ring

lemma mirrorMat_neg (A : Mat 3 3 ℝ) : -mirrorMat A = mirrorMat (-A) := by
  ext i j; simp only [mirrorMat, Matrix.neg_apply]; split <;> ring

lemma mv_rows {m : ℕ} (f : Fin m → Bool) (A : Mat m n ℝ) (v : Vec n ℝ) :
    mv (mirrorRows f A) v = reversed f (mv A v) := by
  ext i
  simp only [mv, mirrorRows, reversed, flt]
  split
  · rw [← Finset.sum_neg_distrib]
    exact Finset.sum_congr rfl fun j _ => by ring
  · rfl

lemma mv_cols {m : ℕ} (f : Fin m → Bool) (A : Mat n m ℝ) (v : Vec m ℝ) :
    mv (mirrorCols f A) (reversed f v) = mv A v := by
  ext i
  simp only [mv, mirrorCols, reversed, flt]
  refine Finset.sum_congr rfl fun j _ => ?_
  split <;> ring

/-! ## Orientations -/

namespace Quat

lemma mirror_vec (q : Quat ℝ) : (mirrorQuat q).vec = mirrorTurn q.vec := by
  apply vec_ext <;> simp [vec, mirrorQuat]

lemma rotate_mirror_v (q : Quat ℝ) (v : Vec 3 ℝ) : (mirrorQuat q).rotate (mirrorVec v) = mirrorVec (q.rotate v) := by
  unfold rotate
  simp only [mirror_vec, cross_mirror_tv]
  simp only [flt, mirrorQuat]
  rw [mirrorVec_add, mirrorVec_add, mirrorVec_smul, mirrorVec_add, ← cross_real, ← cross_real, ← mirrorVec_add,
    cross_mirror_tv, cross_real, cross_real]

lemma rotate_mirror_t (q : Quat ℝ) (v : Vec 3 ℝ) :
    (mirrorQuat q).rotate (mirrorTurn v) = mirrorTurn (q.rotate v) := by
  have h : ∀ u, q.rotate (-u) = -q.rotate u := fun u => by
    have := rotate_smul q (-1) u
    simpa using this
  rw [mirrorTurn_eq, mirrorTurn_eq, ← mirrorVec_neg, rotate_mirror_v, h, mirrorVec_neg]

lemma mirror_n2 (q : Quat ℝ) : (mirrorQuat q).n2 = q.n2 := by simp [mirrorQuat, n2]

lemma inverse_mirror (q : Quat ℝ) : (mirrorQuat q).inverse = mirrorQuat q.inverse := by
  unfold inverse
  simp only [flt, coeffs_dot, mirror_n2, decide_eq_true_eq]
  split <;> simp [mirrorQuat, neg_div]

lemma normalized_mirror (q : Quat ℝ) : (mirrorQuat q).normalized = mirrorQuat q.normalized := by
  rw [normalized_eq, normalized_eq, mirror_n2]
  simp [mirrorQuat, neg_div]

lemma integrate_mirror (q : Quat ℝ) (om : Vec 3 ℝ) (dt : ℝ) :
    quatIntegrate (mirrorQuat q) (mirrorTurn om) dt = mirrorQuat (quatIntegrate q om dt) := by
  unfold quatIntegrate
  rw [← normalized_mirror]
  congr 1
  simp [ofCoeffs, coeffs, quatDerivative, mul, mirrorQuat, flt]
  ring_nf
  trivial

lemma toMat_mirror (q : Quat ℝ) : (mirrorQuat q).toMat = mirrorMat q.toMat := by
  ext i j
  fin_cases i <;> fin_cases j <;> simp [toMat, mirrorQuat, mirrorMat, across, flt] <;> ring

lemma mirror_mirror (q : Quat ℝ) : mirrorQuat (mirrorQuat q) = q := by
  simp [mirrorQuat]

lemma yaw_mirror (q : Quat ℝ) :
    SameHeading (-(quatToEuler q).2.2) (quatToEuler (mirrorQuat q)).2.2 := by
  unfold quatToEuler
  simp only [normalized_mirror, flt]
  set p := q.normalized
  have h1 : (2 : ℝ) * ((mirrorQuat p).w * (mirrorQuat p).z + (mirrorQuat p).x * (mirrorQuat p).y) =
    -(2 * (p.w * p.z + p.x * p.y)) := by simp only [mirrorQuat]; ring
  have h2 : (1 : ℝ) - 2 * ((mirrorQuat p).y * (mirrorQuat p).y + (mirrorQuat p).z * (mirrorQuat p).z) =
    1 - 2 * (p.y * p.y + p.z * p.z) := by simp only [mirrorQuat]; ring
  rw [h1, h2]
  generalize 2 * (p.w * p.z + p.x * p.y) = s
  generalize 1 - 2 * (p.y * p.y + p.z * p.z) = c
  have hc : (⟨c, -s⟩ : ℂ) = (starRingEnd ℂ) ⟨c, s⟩ := by
    apply Complex.ext <;> simp
  rw [hc, Complex.arg_conj]
  split
  · rename_i h
    rw [h]
    exact ⟨1, by push_cast; ring⟩
  · exact ⟨0, by simp⟩

end Quat

/-! ## The vehicle -/

lemma mirrorVec_mirrorVec (v : Vec 3 ℝ) : mirrorVec (mirrorVec v) = v := reversed_reversed _ v
lemma mirrorTurn_mirrorTurn (v : Vec 3 ℝ) : mirrorTurn (mirrorTurn v) = v := reversed_reversed _ v
lemma mirrorRows_mirrorRows {m : ℕ} (f : Fin m → Bool) (A : Mat m n ℝ) : mirrorRows f (mirrorRows f A) = A := by
  ext r i; simp only [mirrorRows]; split <;> simp

lemma squaredKeepSign_mirror (v : Vec 3 ℝ) : squaredKeepSign (mirrorVec v) = mirrorVec (squaredKeepSign v) := by
  have h : ∀ x : ℝ, (-x ⊠ -x) ⊠ sign (-x) = -((x ⊠ x) ⊠ sign x) := by
    intro x
    simp only [flt, sign_real]
    rcases lt_trichotomy x 0 with h | rfl | h
    · have : ¬ 0 < x := not_lt.2 h.le
      simp [h, this]
    · simp
    · have : ¬ x < 0 := not_lt.2 h.le
      simp [h, this]
  apply vec_ext <;> simp [squaredKeepSign, h]

lemma drag_mirror (k : ℝ) (v : Vec 3 ℝ) : Model.dragForce k (mirrorVec v) = mirrorVec (Model.dragForce k v) := by
  unfold Model.dragForce
  rw [squaredKeepSign_mirror, smulL_real, smulL_real, mirrorVec_smul]

lemma aero_mirror (A : Mat 3 3 ℝ) (om : Vec 3 ℝ) :
    Model.aeroMoment (mirrorMat A) (mirrorTurn om) = mirrorTurn (Model.aeroMoment A om) := by
  unfold Model.aeroMoment
  rw [norm_real, mirrorTurn_dot, ← norm_real]
  refine Eq.trans ?_ (mv_mirror_t _ _)
  congr 1
  ext i j
  simp only [mirrorMat, flt]
  split <;> ring

namespace Model

lemma motorContrib_mirror (m : Motor ℝ) : motorContrib (mirrorMotor m) = reversed wrench (motorContrib m) := by
  have h1 : ∀ x : ℝ, mirrorVec ![0, 0, x] = ![0, 0, x] := fun x => by apply vec_ext <;> simp
  have h2 : ∀ x : ℝ, mirrorTurn ![0, 0, x] = ![0, 0, -x] := fun x => by apply vec_ext <;> simp
  have e1 : mv (mirrorMat m.rot) ![0, 0, m.kf] = mirrorVec (mv m.rot ![0, 0, m.kf]) := by
    rw [← mv_mirror_v, h1]
  have e2 : mv (mirrorMat m.rot) ![0, 0, lit ((-m.dir : ℤ) : ℚ) ⊠ m.kt] =
      mirrorTurn (mv m.rot ![0, 0, lit (m.dir : ℚ) ⊠ m.kt]) := by
    rw [← mv_mirror_t, h2]
    congr 2
    simp [flt]
  unfold motorContrib
  simp only [mirrorMotor, lit_zero, e1, e2, cross_mirror_vv, vadd_real, ← mirrorTurn_add]
  ext r
  fin_cases r <;> simp [reversed, wrench]

lemma mixerInertia_mirror (ms : Fin n → Motor ℝ) :
    mixerInertia (fun i => mirrorMotor (ms i)) = mirrorRows about (mixerInertia ms) := by
  have h2 : ∀ x : ℝ, mirrorTurn ![0, 0, x] = ![0, 0, -x] := fun x => by apply vec_ext <;> simp
  ext r i
  unfold mixerInertia
  have e2 : mv (mirrorMat (ms i).rot) ![0, 0, lit ((-(ms i).dir : ℤ) : ℚ) ⊠ (ms i).inertia] =
      mirrorTurn (mv (ms i).rot ![0, 0, lit ((ms i).dir : ℚ) ⊠ (ms i).inertia]) := by
    rw [← mv_mirror_t, h2]
    congr 2
    simp [flt]
  simp only [mirrorMotor, lit_zero, e2]
  rfl

lemma coreOf_mirror (p : ModelParams ℝ) (ms : Fin n → Motor ℝ) :
    coreOf (mirrorModelParams p) (fun i => mirrorMotor (ms i)) = mirrorCore (coreOf p ms) := by
  unfold coreOf mirrorCore
  simp only [mixerInertia_mirror, mixer6, motorContrib_mirror]
  congr 1
  · ext r i
    fin_cases r <;> simp [mirrorRows, reversed, wrench, across]
  · ext r i
    fin_cases r <;> simp [mirrorRows, reversed, wrench, about]

lemma motorFn_mirror (l : List (Motor ℝ)) :
    motorFn n (l.map mirrorMotor) = (motorFn n l).map fun f i => mirrorMotor (f i) := by
  unfold motorFn
  by_cases h : l.length = n
  · simp [h]
  · simp [h]

lemma checkParams_mirror (p : ModelParams ℝ) : checkParams (mirrorModelParams p) = checkParams p := by
  unfold checkParams
  simp only [mirrorModelParams, det3_real, mirrorMat_det, List.all_map]
  rfl

lemma dirOk_mirror (l : List (Motor ℝ)) : dirOk (l.map mirrorMotor) = dirOk l := by
  unfold dirOk
  rw [List.all_map]
  congr 1
  funext m
  simp only [Function.comp, mirrorMotor]
  rw [Bool.eq_iff_iff]
  simp only [Bool.or_eq_true, beq_iff_eq]
  omega

lemma mk_mirror (p : ModelParams ℝ) (seed : ℤ) :
    Model.mk' (n := n) (mirrorModelParams p) seed = (Model.mk' p seed).map mirrorModel := by
  unfold Model.mk' updateParams
  rw [checkParams_mirror]
  have hz : (vzero : Vec 3 ℝ) = mirrorVec vzero := by rw [vzero_real, mirrorVec_zero]
  have hz' : (vzero : Vec 3 ℝ) = mirrorTurn vzero := by rw [vzero_real, mirrorTurn_zero]
  split
  · simp only [Option.map_some, mirrorModel, ← hz, ← hz']
    rfl
  · rw [show (mirrorModelParams p).motors = p.motors.map mirrorMotor from rfl, motorFn_mirror, dirOk_mirror]
    cases motorFn n p.motors with
    | none => rfl
    | some f =>
      simp only [Option.map_some]
      split
      · simp only [Option.map_some, mirrorModel, ← hz, ← hz', coreOf_mirror]
        rfl
      · rfl

end Model

end Verif
