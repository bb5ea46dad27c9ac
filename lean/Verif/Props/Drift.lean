import Verif.Props.Odom
import Mathlib.Analysis.Quaternion

/-!
# C93, C94: how sensor errors grow in the inertial odometry
-/

namespace Verif.Props

open Verif Flt Spec

/-! ## Distances -/

/-- Euclidean length. -/
noncomputable def len3 (v : Vec 3 ℝ) : ℝ := Real.sqrt (v 0 ^ 2 + v 1 ^ 2 + v 2 ^ 2)

/-- Euclidean distance of two vectors. -/
noncomputable def dist3 (u v : Vec 3 ℝ) : ℝ := len3 (u - v)

/-- Two measurements taken over the same period. -/
structure Pair where
  gyro : Vec 3 ℝ
  gyro' : Vec 3 ℝ
  accel : Vec 3 ℝ
  accel' : Vec 3 ℝ
  dt : ℝ

/-- The first of the two. -/
def Pair.fst (u : Pair) : OdomOp ℝ := .update u.gyro u.accel u.dt
/-- The second of the two. -/
def Pair.snd (u : Pair) : OdomOp ℝ := .update u.gyro' u.accel' u.dt

/-- Total time. -/
def duration (us : List Pair) : ℝ := (us.map Pair.dt).sum

lemma len3_eq (v : Vec 3 ℝ) : len3 v = ‖pureH v‖ := by
  have h := Quaternion.normSq_eq_norm_mul_self (pureH v)
  rw [Quaternion.normSq_def'] at h
  simp only [Quat.pureH_re, Quat.pureH_imI, Quat.pureH_imJ, Quat.pureH_imK] at h
  rw [len3, ← Real.sqrt_mul_self (norm_nonneg (pureH v)), ← h]
  congr 1
  ring

lemma pureH_sub (u v : Vec 3 ℝ) : pureH (u - v) = pureH u - pureH v := by ext <;> simp
lemma pureH_add (u v : Vec 3 ℝ) : pureH (u + v) = pureH u + pureH v := by ext <;> simp
lemma pureH_smul (c : ℝ) (v : Vec 3 ℝ) : pureH (c • v) = c • pureH v := by ext <;> simp

lemma dist3_eq (u v : Vec 3 ℝ) : dist3 u v = ‖pureH u - pureH v‖ := by rw [dist3, len3_eq, pureH_sub]

/-- A quaternion that the filter and the integrator keep away from zero has the norm one. -/
lemma norm_toH {q : Quat ℝ} (h : IsUnitQ q) : ‖toH q‖ = 1 := by
  have h1 := Quaternion.normSq_eq_norm_mul_self (toH q)
  rw [Quaternion.normSq_def'] at h1
  simp only [Quat.toH_re, Quat.toH_imI, Quat.toH_imJ, Quat.toH_imK] at h1
  rw [show q.w ^ 2 + q.x ^ 2 + q.y ^ 2 + q.z ^ 2 = 1 from h] at h1
  nlinarith [norm_nonneg (toH q)]

lemma rotate_sub (q : Quat ℝ) (u v : Vec 3 ℝ) : q.rotate (u - v) = q.rotate u - q.rotate v := by
  rw [sub_eq_add_neg, Quat.rotate_add, ← neg_one_smul ℝ v, Quat.rotate_smul, neg_one_smul, ← sub_eq_add_neg]

lemma len3_rotate {q : Quat ℝ} (h : IsUnitQ q) (v : Vec 3 ℝ) : len3 (q.rotate v) = len3 v := by
  have := Quat.rotate_dot h v
  simp only [dotProduct, Fin.sum_univ_three] at this
  unfold len3
  congr 1
  linarith

/-! ## The integrator as a quaternion product -/

/-- The increment by which one step multiplies the orientation, before normalisation. -/
noncomputable def inc (om : Vec 3 ℝ) (dt : ℝ) : Quaternion ℝ := 1 + (dt / 2) • pureH om

lemma inc_re (om : Vec 3 ℝ) (dt : ℝ) : (inc om dt).re = 1 := by
  simp only [inc, Quaternion.re_add, Quaternion.re_one, Quaternion.re_smul, Quat.pureH_re, smul_eq_mul, mul_zero, add_zero]
lemma inc_imI (om : Vec 3 ℝ) (dt : ℝ) : (inc om dt).imI = dt / 2 * om 0 := by
  simp only [inc, Quaternion.imI_add, Quaternion.imI_one, Quaternion.imI_smul, Quat.pureH_imI, smul_eq_mul, zero_add]
lemma inc_imJ (om : Vec 3 ℝ) (dt : ℝ) : (inc om dt).imJ = dt / 2 * om 1 := by
  simp only [inc, Quaternion.imJ_add, Quaternion.imJ_one, Quaternion.imJ_smul, Quat.pureH_imJ, smul_eq_mul, zero_add]
lemma inc_imK (om : Vec 3 ℝ) (dt : ℝ) : (inc om dt).imK = dt / 2 * om 2 := by
  simp only [inc, Quaternion.imK_add, Quaternion.imK_one, Quaternion.imK_smul, Quat.pureH_imK, smul_eq_mul, zero_add]

lemma norm_inc (om : Vec 3 ℝ) (dt : ℝ) :
    ‖inc om dt‖ * ‖inc om dt‖ = 1 + dt ^ 2 / 4 * (om 0 ^ 2 + om 1 ^ 2 + om 2 ^ 2) := by
  rw [← Quaternion.normSq_eq_norm_mul_self, Quaternion.normSq_def', inc_re, inc_imI, inc_imJ, inc_imK]
  ring

lemma one_le_norm_inc (om : Vec 3 ℝ) (dt : ℝ) : 1 ≤ ‖inc om dt‖ := by
  have h := norm_inc om dt
  have h1 : 0 ≤ dt ^ 2 / 4 * (om 0 ^ 2 + om 1 ^ 2 + om 2 ^ 2) := by positivity
  nlinarith [norm_nonneg (inc om dt)]

lemma toH_integrate {q : Quat ℝ} (h : IsUnitQ q) (om : Vec 3 ℝ) (dt : ℝ) :
    toH (quatIntegrate q om dt) = ‖inc om dt‖⁻¹ • (toH q * inc om dt) := by
  have hn : Real.sqrt ((Quat.ofCoeffs (vadd q.coeffs (smulR (quatDerivative q om) dt))).n2) = ‖inc om dt‖ := by
    rw [Quat.integrate_n2, (Quat.isUnitQ_iff q).1 h, one_mul, ← norm_inc, Real.sqrt_mul_self (norm_nonneg _)]
  rw [quatIntegrate, Quat.normalized_eq, hn, Quat.integrate_eq]
  ext <;>
    simp only [Quaternion.re_smul, Quaternion.imI_smul, Quaternion.imJ_smul, Quaternion.imK_smul, Quaternion.re_mul,
      Quaternion.imI_mul, Quaternion.imJ_mul, Quaternion.imK_mul, inc_re, inc_imI, inc_imJ, inc_imK, Quat.toH_re,
      Quat.toH_imI, Quat.toH_imJ, Quat.toH_imK, smul_eq_mul, div_eq_inv_mul] <;> ring

/-- Projecting two vectors that are not shorter than one on the unit sphere does not increase their distance. -/
lemma normalize_lipschitz {x y : Quaternion ℝ} (hx : 1 ≤ ‖x‖) (hy : 1 ≤ ‖y‖) :
    ‖‖x‖⁻¹ • x - ‖y‖⁻¹ • y‖ ≤ ‖x - y‖ := by
  have hx0 : 0 < ‖x‖ := by linarith
  have hy0 : 0 < ‖y‖ := by linarith
  have e1 : ‖‖x‖⁻¹ • x - ‖y‖⁻¹ • y‖ ^ 2 = 2 - 2 * (‖x‖⁻¹ * ‖y‖⁻¹ * inner ℝ x y) := by
    rw [norm_sub_sq_real, norm_smul, norm_smul, real_inner_smul_left, real_inner_smul_right]
    simp only [norm_inv, norm_norm]
    rw [inv_mul_cancel₀ hx0.ne', inv_mul_cancel₀ hy0.ne']
    ring
  have e2 : ‖x - y‖ ^ 2 = ‖x‖ ^ 2 - 2 * inner ℝ x y + ‖y‖ ^ 2 := norm_sub_sq_real x y
  set c := ‖x‖⁻¹ * ‖y‖⁻¹ * inner ℝ x y with hc
  have e3 : inner ℝ x y = ‖x‖ * ‖y‖ * c := by
    rw [hc]
    field_simp
  have hc1 : c ≤ 1 := by
    have := real_inner_le_norm x y
    rw [e3] at this
    have hxy := mul_pos hx0 hy0
    by_contra hlt
    nlinarith
  have hxy1 : 1 ≤ ‖x‖ * ‖y‖ := by nlinarith
  refine (sq_le_sq₀ (norm_nonneg _) (norm_nonneg _)).1 ?_
  rw [e1, e2, e3]
  nlinarith [sq_nonneg (‖x‖ - ‖y‖)]

/-- One step: the orientations drift apart by at most half the turn error. -/
lemma drift_step {q p : Quat ℝ} (hq : IsUnitQ q) (hp : IsUnitQ p) (om om' : Vec 3 ℝ) {dt : ℝ} (h0 : 0 ≤ dt) :
    ‖toH (quatIntegrate q om dt) - toH (quatIntegrate p om' dt)‖ ≤ ‖toH q - toH p‖ + dt / 2 * dist3 om om' := by
  rw [toH_integrate hq, toH_integrate hp]
  have ha : ‖‖inc om dt‖⁻¹ • inc om dt‖ = 1 := by
    rw [norm_smul, norm_inv, norm_norm, inv_mul_cancel₀ (by linarith [one_le_norm_inc om dt])]
  have e : ‖inc om dt‖⁻¹ • (toH q * inc om dt) - ‖inc om' dt‖⁻¹ • (toH p * inc om' dt) =
      (toH q - toH p) * (‖inc om dt‖⁻¹ • inc om dt) +
        toH p * (‖inc om dt‖⁻¹ • inc om dt - ‖inc om' dt‖⁻¹ • inc om' dt) := by
    rw [sub_mul, mul_sub]
    simp only [mul_smul_comm]
    abel
  rw [e]
  refine (norm_add_le _ _).trans ?_
  rw [norm_mul, norm_mul, ha, norm_toH hp, mul_one, one_mul]
  have h1 := normalize_lipschitz (one_le_norm_inc om dt) (one_le_norm_inc om' dt)
  have h2 : ‖inc om dt - inc om' dt‖ = dt / 2 * dist3 om om' := by
    rw [inc, inc, add_sub_add_left_eq_sub, ← smul_sub, norm_smul, Real.norm_of_nonneg (by positivity), dist3_eq]
  linarith

/-! ## The two odometries -/

/-- One measurement, spelled out. -/
lemma odom_update_real (o : Odom ℝ) (g a : Vec 3 ℝ) (dt : ℝ) :
    o.step (.update g a dt) =
      { o with
        gyroF := o.alpha • g + (1 - o.alpha) • o.gyroF
        accelF := o.alpha • a + (1 - o.alpha) • o.accelF
        angVel := o.alpha • g + (1 - o.alpha) • o.gyroF
        acc := o.ori.inverse.rotate (o.alpha • a + (1 - o.alpha) • o.accelF)
        ori := quatIntegrate o.ori (o.alpha • g + (1 - o.alpha) • o.gyroF) dt
        vel := o.vel + dt • o.ori.inverse.rotate (o.alpha • a + (1 - o.alpha) • o.accelF)
        pos := o.pos + dt • (o.vel + dt • o.ori.inverse.rotate (o.alpha • a + (1 - o.alpha) • o.accelF)) } := by
  simp [Odom.step, Odom.update, Odom.integrate, Odom.filter, flt]

/-- Filtering does not increase a distance. -/
lemma filter_dist {a ε : ℝ} (h0 : 0 < a) (h1 : a ≤ 1) {u u' f f' : Vec 3 ℝ} (hu : dist3 u u' ≤ ε)
    (hf : dist3 f f' ≤ ε) : dist3 (a • u + (1 - a) • f) (a • u' + (1 - a) • f') ≤ ε := by
  rw [dist3_eq] at *
  have e : pureH (a • u + (1 - a) • f) - pureH (a • u' + (1 - a) • f') =
      a • (pureH u - pureH u') + (1 - a) • (pureH f - pureH f') := by
    simp only [pureH_add, pureH_smul, smul_sub]
    abel
  rw [e]
  refine (norm_add_le _ _).trans ?_
  rw [norm_smul, norm_smul, Real.norm_of_nonneg h0.le, Real.norm_of_nonneg (by linarith)]
  nlinarith [norm_nonneg (pureH u - pureH u'), norm_nonneg (pureH f - pureH f')]

lemma dist3_self (u : Vec 3 ℝ) : dist3 u u = 0 := by rw [dist3_eq, sub_self, norm_zero]

/-- Adding increments adds at most their distance. -/
lemma dist3_add_smul {dt : ℝ} (h : 0 ≤ dt) (x y u v : Vec 3 ℝ) :
    dist3 (x + dt • u) (y + dt • v) ≤ dist3 x y + dt * dist3 u v := by
  simp only [dist3_eq, pureH_add, pureH_smul]
  have e : pureH x + dt • pureH u - (pureH y + dt • pureH v) = (pureH x - pureH y) + dt • (pureH u - pureH v) := by
    rw [smul_sub]
    abel
  rw [e]
  refine (norm_add_le _ _).trans ?_
  rw [norm_smul, Real.norm_of_nonneg h]

lemma dist3_rotate {q : Quat ℝ} (h : IsUnitQ q) (u v : Vec 3 ℝ) : dist3 (q.rotate u) (q.rotate v) = dist3 u v := by
  rw [dist3, ← rotate_sub, len3_rotate h, dist3]

/-- Sum of the squares of the periods. -/
def squares (us : List Pair) : ℝ := (us.map fun u => u.dt ^ 2).sum

lemma accel_run {ε : ℝ} {us : List Pair} (hs : ∀ u ∈ us, u.gyro = u.gyro' ∧ 0 ≤ u.dt ∧ dist3 u.accel u.accel' ≤ ε)
    {o o' : Odom ℝ} (ha : o.alpha = o'.alpha) (h0 : 0 < o.alpha) (h1 : o.alpha ≤ 1) (hg : o.gyroF = o'.gyroF)
    (hq : o.ori = o'.ori) (hu : IsUnitQ o.ori) (hw : o.angVel = o'.angVel) (hf : dist3 o.accelF o'.accelF ≤ ε) :
    (o.run (us.map Pair.fst)).ori = (o'.run (us.map Pair.snd)).ori ∧
    (o.run (us.map Pair.fst)).angVel = (o'.run (us.map Pair.snd)).angVel ∧
    dist3 (o.run (us.map Pair.fst)).vel (o'.run (us.map Pair.snd)).vel ≤ dist3 o.vel o'.vel + ε * duration us ∧
    dist3 (o.run (us.map Pair.fst)).pos (o'.run (us.map Pair.snd)).pos ≤ dist3 o.pos o'.pos +
      dist3 o.vel o'.vel * duration us + ε * ((duration us ^ 2 + squares us) / 2) := by
  induction us generalizing o o' with
  | nil => simp [Odom.run, duration, squares, hq, hw]
  | cons u us ih =>
    obtain ⟨g1, g2, g3⟩ := hs u (List.mem_cons_self ..)
    have e1 : o.run ((u :: us).map Pair.fst) = (o.step u.fst).run (us.map Pair.fst) := rfl
    have e2 : o'.run ((u :: us).map Pair.snd) = (o'.step u.snd).run (us.map Pair.snd) := rfl
    have s1 := odom_update_real o u.gyro u.accel u.dt
    have s2 := odom_update_real o' u.gyro' u.accel' u.dt
    have hF := filter_dist h0 h1 g3 hf
    have hacc : dist3 (o.ori.inverse.rotate (o.alpha • u.accel + (1 - o.alpha) • o.accelF))
        (o'.ori.inverse.rotate (o'.alpha • u.accel' + (1 - o'.alpha) • o'.accelF)) ≤ ε := by
      rw [← hq, ← ha, dist3_rotate (Quat.inverse_isUnit hu)]
      exact hF
    have hvel : dist3 (o.step u.fst).vel (o'.step u.snd).vel ≤ dist3 o.vel o'.vel + u.dt * ε := by
      rw [Pair.fst, Pair.snd, s1, s2]
      exact (dist3_add_smul g2 _ _ _ _).trans (add_le_add_right (mul_le_mul_of_nonneg_left hacc g2) _)
    have hpos : dist3 (o.step u.fst).pos (o'.step u.snd).pos ≤
        dist3 o.pos o'.pos + u.dt * (dist3 o.vel o'.vel + u.dt * ε) := by
      have e3 : (o.step u.fst).pos = o.pos + u.dt • (o.step u.fst).vel := by rw [Pair.fst, s1]
      have e4 : (o'.step u.snd).pos = o'.pos + u.dt • (o'.step u.snd).vel := by rw [Pair.snd, s2]
      rw [e3, e4]
      exact (dist3_add_smul g2 _ _ _ _).trans (add_le_add_right (mul_le_mul_of_nonneg_left hvel g2) _)
    obtain ⟨i1, i2, i3, i4⟩ := ih (fun v hv => hs v (List.mem_cons_of_mem _ hv)) (o := o.step u.fst) (o' := o'.step u.snd)
      (by rw [Pair.fst, Pair.snd, s1, s2]; exact ha) (by rw [Pair.fst, s1]; exact h0)
      (by rw [Pair.fst, s1]; exact h1) (by rw [Pair.fst, Pair.snd, s1, s2]; simp only [ha, hg, g1])
      (by rw [Pair.fst, Pair.snd, s1, s2]; simp only [ha, hg, g1, hq])
      (by rw [Pair.fst, s1]; exact Quat.quatIntegrate_unit hu.nonzero _ _)
      (by rw [Pair.fst, Pair.snd, s1, s2]; simp only [ha, hg, g1])
      (by rw [Pair.fst, Pair.snd, s1, s2]; simp only []; rw [← ha]; exact hF)
    have hT : 0 ≤ duration us := List.sum_nonneg fun x hx => by
      obtain ⟨v, hv, rfl⟩ := List.mem_map.1 hx
      exact (hs v (List.mem_cons_of_mem _ hv)).2.1
    have d1 : duration (u :: us) = u.dt + duration us := by simp [duration]
    have d2 : squares (u :: us) = u.dt ^ 2 + squares us := by simp [squares]
    rw [e1, e2, d1, d2]
    refine ⟨i1, i2, ?_, ?_⟩
    · linarith
    · have := mul_le_mul_of_nonneg_right hvel hT
      nlinarith

/-- Odometries that were accepted and only ever aligned to unit quaternions. -/
lemma odom_history {p : OdomParams ℝ} {o : Odom ℝ} (h : Odom.mk' p = some o) (hp : IsUnitQ p.initOri)
    (os : List (OdomOp ℝ)) (hos : initialsNonzero IsUnitQ os) :
    0 < (o.run os).alpha ∧ (o.run os).alpha ≤ 1 ∧ IsUnitQ (o.run os).ori := by
  have ha : ∀ (os : List (OdomOp ℝ)) (o : Odom ℝ), (o.run os).alpha = o.alpha := by
    intro os
    induction os with
    | nil => intro o; rfl
    | cons c os ih =>
      intro o
      refine (ih (o.step c)).trans ?_
      cases c <;> rfl
  obtain ⟨a1, a2, a3⟩ := odom_alpha h
  rw [ha, a1]
  exact ⟨a2, a3, C39_unit_always p o h hp os hos⟩

/-! ## C93 -/

/-- **C93.** Two odometries with the same past that receive the same gyroscope samples and accelerometer samples that
differ by at most `ε` have, after the time `T`, the same orientation and angular velocity, velocities that differ by at
most `ε T`, and positions that differ by at most `ε (T² + Σ dt²) / 2`. -/
theorem C93_accel_drift (p : OdomParams ℝ) (o : Odom ℝ) (h : Odom.mk' p = some o) (hp : IsUnitQ p.initOri)
    (os : List (OdomOp ℝ)) (hos : initialsNonzero IsUnitQ os) (us : List Pair) (ε : ℝ) (hε : 0 ≤ ε)
    (hs : ∀ u ∈ us, u.gyro = u.gyro' ∧ 0 ≤ u.dt ∧ dist3 u.accel u.accel' ≤ ε) :
    (o.run (os ++ us.map Pair.fst)).ori = (o.run (os ++ us.map Pair.snd)).ori ∧
    (o.run (os ++ us.map Pair.fst)).angVel = (o.run (os ++ us.map Pair.snd)).angVel ∧
    dist3 (o.run (os ++ us.map Pair.fst)).vel (o.run (os ++ us.map Pair.snd)).vel ≤ ε * duration us ∧
    dist3 (o.run (os ++ us.map Pair.fst)).pos (o.run (os ++ us.map Pair.snd)).pos ≤
      ε * ((duration us ^ 2 + squares us) / 2) := by
  obtain ⟨h0, h1, hu⟩ := odom_history h hp os hos
  have hr : ∀ l, o.run (os ++ l) = (o.run os).run l := fun l => by simp [Odom.run, List.foldl_append]
  rw [hr, hr]
  have := accel_run hs (o := o.run os) (o' := o.run os) rfl h0 h1 rfl rfl hu rfl (by rw [dist3_self]; exact hε)
  simpa [dist3_self] using this

/-- Non-vacuity, and the bound is attained: one second without rotation and a constant error of 0.1 m/s². -/
example : ∃ o : Odom ℝ, Odom.mk' ⟨1, Quat.identity⟩ = some o ∧ IsUnitQ (Quat.identity : Quat ℝ) ∧
    (∀ u ∈ [(⟨0, 0, 0, ![1 / 10, 0, 0], 1⟩ : Pair)], u.gyro = u.gyro' ∧ 0 ≤ u.dt ∧ dist3 u.accel u.accel' ≤ 1 / 10) ∧
    dist3 (o.run ([(⟨0, 0, 0, ![1 / 10, 0, 0], 1⟩ : Pair)].map Pair.fst)).vel
      (o.run ([(⟨0, 0, 0, ![1 / 10, 0, 0], 1⟩ : Pair)].map Pair.snd)).vel =
      1 / 10 * duration [(⟨0, 0, 0, ![1 / 10, 0, 0], 1⟩ : Pair)] := by
  have hd : dist3 (0 : Vec 3 ℝ) ![1 / 10, 0, 0] = 1 / 10 := by
    simp only [dist3, len3, Pi.sub_apply, Pi.zero_apply, zero_sub, Matrix.cons_val_zero, Matrix.cons_val_one,
      Matrix.cons_val]
    rw [show ((-(1 / 10 : ℝ)) ^ 2 + (-(0 : ℝ)) ^ 2 + (-(0 : ℝ)) ^ 2) = (1 / 10) ^ 2 by norm_num]
    exact Real.sqrt_sq (by norm_num)
  have hi : IsUnitQ (Quat.identity : Quat ℝ) := by simp [IsUnitQ, Quat.identity, flt]
  refine ⟨_, by rw [Odom.mk', if_pos (by simp [flt])], hi, ?_, ?_⟩
  · intro u hu
    rw [List.mem_singleton.1 hu]
    exact ⟨rfl, zero_le_one, hd.le⟩
  · simp only [List.map_cons, List.map_nil, Odom.run, List.foldl_cons, List.foldl_nil, Pair.fst, Pair.snd,
      odom_update_real]
    simp only [Odom.reset, vzero_real, smul_zero, add_zero, sub_self, one_smul, zero_add, Quat.rotate_zero]
    rw [show (0 : Vec 3 ℝ) = (Quat.identity : Quat ℝ).inverse.rotate 0 from (Quat.rotate_zero _).symm,
      dist3_rotate (Quat.inverse_isUnit hi), hd]
    simp [duration]

/-! ## C94 -/

lemma gyro_run {ε : ℝ} {us : List Pair} (hs : ∀ u ∈ us, 0 ≤ u.dt ∧ dist3 u.gyro u.gyro' ≤ ε)
    {o o' : Odom ℝ} (ha : o.alpha = o'.alpha) (h0 : 0 < o.alpha) (h1 : o.alpha ≤ 1)
    (hu : IsUnitQ o.ori) (hu' : IsUnitQ o'.ori) (hf : dist3 o.gyroF o'.gyroF ≤ ε) (hw : dist3 o.angVel o'.angVel ≤ ε) :
    IsUnitQ (o.run (us.map Pair.fst)).ori ∧ IsUnitQ (o'.run (us.map Pair.snd)).ori ∧
    dist3 (o.run (us.map Pair.fst)).angVel (o'.run (us.map Pair.snd)).angVel ≤ ε ∧
    ‖toH (o.run (us.map Pair.fst)).ori - toH (o'.run (us.map Pair.snd)).ori‖ ≤
      ‖toH o.ori - toH o'.ori‖ + ε / 2 * duration us := by
  induction us generalizing o o' with
  | nil => exact ⟨hu, hu', hw, by simp [Odom.run, duration]⟩
  | cons u us ih =>
    obtain ⟨g2, g3⟩ := hs u (List.mem_cons_self ..)
    have e1 : o.run ((u :: us).map Pair.fst) = (o.step u.fst).run (us.map Pair.fst) := rfl
    have e2 : o'.run ((u :: us).map Pair.snd) = (o'.step u.snd).run (us.map Pair.snd) := rfl
    have s1 := odom_update_real o u.gyro u.accel u.dt
    have s2 := odom_update_real o' u.gyro' u.accel' u.dt
    have hF := filter_dist h0 h1 g3 hf
    have hF' : dist3 (o.alpha • u.gyro + (1 - o.alpha) • o.gyroF) (o'.alpha • u.gyro' + (1 - o'.alpha) • o'.gyroF) ≤ ε := by
      rw [← ha]
      exact hF
    obtain ⟨i1, i2, i3, i4⟩ := ih (fun v hv => hs v (List.mem_cons_of_mem _ hv)) (o := o.step u.fst) (o' := o'.step u.snd)
      (by rw [Pair.fst, Pair.snd, s1, s2]; exact ha) (by rw [Pair.fst, s1]; exact h0)
      (by rw [Pair.fst, s1]; exact h1) (by rw [Pair.fst, s1]; exact Quat.quatIntegrate_unit hu.nonzero _ _)
      (by rw [Pair.snd, s2]; exact Quat.quatIntegrate_unit hu'.nonzero _ _)
      (by rw [Pair.fst, Pair.snd, s1, s2]; exact hF') (by rw [Pair.fst, Pair.snd, s1, s2]; exact hF')
    have d1 : duration (u :: us) = u.dt + duration us := by simp [duration]
    have hq : ‖toH (o.step u.fst).ori - toH (o'.step u.snd).ori‖ ≤ ‖toH o.ori - toH o'.ori‖ + u.dt / 2 * ε := by
      rw [Pair.fst, Pair.snd, s1, s2]
      exact (drift_step hu hu' _ _ g2).trans (add_le_add_right (mul_le_mul_of_nonneg_left hF' (by linarith)) _)
    rw [e1, e2, d1]
    refine ⟨i1, i2, i3, ?_⟩
    linarith

/-- Nearby orientations rotate vectors to nearby vectors. -/
lemma rotate_dist {q p : Quat ℝ} (hq : IsUnitQ q) (hp : IsUnitQ p) (v : Vec 3 ℝ) :
    dist3 (q.rotate v) (p.rotate v) ≤ 2 * ‖toH q - toH p‖ * len3 v := by
  have inv : ∀ {r : Quat ℝ}, IsUnitQ r → (toH r)⁻¹ = star (toH r) := by
    intro r hr
    rw [Quaternion.inv_def, Quaternion.normSq_eq_norm_mul_self, norm_toH hr]
    simp
  rw [dist3_eq, Quat.rotate_isRotated hq v, Quat.rotate_isRotated hp v, inv hq, inv hp]
  have e : toH q * pureH v * star (toH q) - toH p * pureH v * star (toH p) =
      (toH q - toH p) * pureH v * star (toH q) + toH p * pureH v * star (toH q - toH p) := by
    rw [star_sub]
    noncomm_ring
  rw [e]
  refine (norm_add_le _ _).trans ?_
  simp only [norm_mul, norm_star]
  rw [norm_toH hq, norm_toH hp, len3_eq]
  linarith

/-- **C94.** Two odometries with the same past that receive gyroscope samples that differ by at most `ε`, and any
accelerometer samples, report angular velocities that differ by at most `ε`, and after the time `T` orientations that
turn no vector `v` to places farther apart than `ε T |v|`: the error of the orientation is at most the error of the
rate times the time, whatever the rotation and the sampling periods. -/
theorem C94_gyro_drift (p : OdomParams ℝ) (o : Odom ℝ) (h : Odom.mk' p = some o) (hp : IsUnitQ p.initOri)
    (os : List (OdomOp ℝ)) (hos : initialsNonzero IsUnitQ os) (us : List Pair) (ε : ℝ) (hε : 0 ≤ ε)
    (hs : ∀ u ∈ us, 0 ≤ u.dt ∧ dist3 u.gyro u.gyro' ≤ ε) (v : Vec 3 ℝ) :
    dist3 (o.run (os ++ us.map Pair.fst)).angVel (o.run (os ++ us.map Pair.snd)).angVel ≤ ε ∧
    dist3 ((o.run (os ++ us.map Pair.fst)).ori.rotate v) ((o.run (os ++ us.map Pair.snd)).ori.rotate v) ≤
      ε * duration us * len3 v := by
  obtain ⟨h0, h1, hu⟩ := odom_history h hp os hos
  have hr : ∀ l, o.run (os ++ l) = (o.run os).run l := fun l => by simp [Odom.run, List.foldl_append]
  rw [hr, hr]
  obtain ⟨k1, k2, k3, k4⟩ := gyro_run hs (o := o.run os) (o' := o.run os) rfl h0 h1 hu hu
    (by rw [dist3_self]; exact hε) (by rw [dist3_self]; exact hε)
  refine ⟨k3, (rotate_dist k1 k2 v).trans ?_⟩
  rw [sub_self, norm_zero, zero_add] at k4
  have hl : 0 ≤ len3 v := Real.sqrt_nonneg _
  nlinarith

/-- Non-vacuity: a spinning odometry, a rate error of 0.1 rad/s and different accelerations. -/
example : ∃ o : Odom ℝ, Odom.mk' ⟨1 / 2, ⟨3 / 5, 4 / 5, 0, 0⟩⟩ = some o ∧ IsUnitQ (⟨3 / 5, 4 / 5, 0, 0⟩ : Quat ℝ) ∧
    initialsNonzero IsUnitQ [.update ![1, 2, 3] 0 1, .reset] ∧
    ∀ u ∈ [(⟨![0, 0, 5], ![1 / 10, 0, 5], 0, ![7, 0, 0], 1 / 100⟩ : Pair)], 0 ≤ u.dt ∧ dist3 u.gyro u.gyro' ≤ 1 / 10 := by
  refine ⟨_, by rw [Odom.mk', if_pos (by simp [flt]; norm_num)], by norm_num [IsUnitQ], ?_, ?_⟩
  · intro c hc q hq
    subst hq
    simp at hc
  · intro u hu
    rw [List.mem_singleton.1 hu]
    refine ⟨by norm_num, ?_⟩
    simp only [dist3, len3, Pi.sub_apply, zero_sub, Matrix.cons_val_zero, Matrix.cons_val_one, Matrix.cons_val]
    rw [show ((-(1 / 10 : ℝ)) ^ 2 + (-0 : ℝ) ^ 2 + (5 - 5 : ℝ) ^ 2) = (1 / 10) ^ 2 by norm_num]
    exact (Real.sqrt_sq (by norm_num)).le

end Verif.Props
