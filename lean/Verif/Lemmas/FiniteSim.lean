import Verif.Lemmas.Finite

/-!
# Finite numbers inside arithmetic with NaN and infinities: sensors, controllers, simulator
-/

namespace Verif

open Flt XReal

/-- An IMU of finite numbers. -/
def Imu.fin (i : Imu ℝ) : Imu XReal where
  rng := i.rng
  gyroVar := .fin i.gyroVar
  accelVar := .fin i.accelVar
  gyroBiasCorr := .fin i.gyroBiasCorr
  accelBiasCorr := .fin i.accelBiasCorr
  ori := qfin i.ori
  oriInv := qfin i.oriInv
  gyroBias := vfin i.gyroBias
  accelBias := vfin i.accelBias
  gyro := vfin i.gyro
  accel := vfin i.accel

/-- Finite IMU parameters. -/
def ImuParams.fin (p : ImuParams ℝ) : ImuParams XReal :=
  ⟨.fin p.gyroVar, .fin p.accelVar, .fin p.gyroBiasCorr, .fin p.accelBiasCorr, qfin p.ori, p.seed⟩

/-- An odometry of finite numbers. -/
def Odom.fin (o : Odom ℝ) : Odom XReal where
  alpha := .fin o.alpha
  initOri := qfin o.initOri
  gyroF := vfin o.gyroF
  accelF := vfin o.accelF
  pos := vfin o.pos
  ori := qfin o.ori
  vel := vfin o.vel
  angVel := vfin o.angVel
  acc := vfin o.acc

/-- Finite odometry parameters. -/
def OdomParams.fin (p : OdomParams ℝ) : OdomParams XReal := ⟨.fin p.alpha, qfin p.initOri⟩

/-- Finite PID parameters. -/
def PidParams.fin {n : ℕ} (q : PidParams ℝ n) : PidParams XReal n where
  kp := vfin q.kp
  ki := vfin q.ki
  kd := vfin q.kd
  antiwindup := vfin q.antiwindup
  alpha := vfin q.alpha
  resetIntegral := q.resetIntegral
  propSat := q.propSat
  upper := vfin q.upper
  lower := vfin q.lower

/-- A PID of finite numbers. -/
def Pid.fin {n : ℕ} (p : Pid ℝ n) : Pid XReal n where
  kpMat := mfin p.kpMat
  kiMat := mfin p.kiMat
  kdMat := mfin p.kdMat
  antiwindup := vfin p.antiwindup
  alpha := vfin p.alpha
  resetIntegral := p.resetIntegral
  satFlag := p.satFlag
  propSat := p.propSat
  upper := vfin p.upper
  lower := vfin p.lower
  firstRun := p.firstRun
  integral := vfin p.integral
  filtered := vfin p.filtered
  propErr := vfin p.propErr
  derivErr := vfin p.derivErr
  propContrib := vfin p.propContrib
  intContrib := vfin p.intContrib
  derivContrib := vfin p.derivContrib
  output := vfin p.output

/-- Finite parameters of the acro controller. -/
def AcroParams.fin (p : AcroParams ℝ) : AcroParams XReal := ⟨.fin p.mass, mfin p.kpRot, vfin p.gravity⟩

/-- An acro controller of finite numbers. -/
def Acro.fin (c : Acro ℝ) : Acro XReal :=
  ⟨mfin c.kpRot, .fin c.mass, vfin c.gravity, .fin c.thrust, vfin c.angVel⟩

/-- Finite parameters of the rate controller. -/
def IndiParams.fin {n : ℕ} (p : IndiParams ℝ n) : IndiParams XReal n :=
  ⟨mfin p.inertia, mfin p.mixerInv, p.pid.fin⟩

/-- A rate controller of finite numbers. -/
def Indi.fin {n : ℕ} (c : Indi ℝ n) : Indi XReal n :=
  ⟨c.pid.fin, mfin c.inertia, mfin c.mixerInv, vfin c.thrust, vfin c.torque, vfin c.motVel⟩

/-- Finite controller parameters. -/
def CtlParams.fin {n : ℕ} (p : CtlParams ℝ n) : CtlParams XReal n :=
  ⟨p.acro.fin, p.indi.fin, p.pos.fin, p.traj.fin, p.vel.fin⟩

/-- A controller of finite numbers. -/
def Ctl.fin {n : ℕ} (c : Ctl ℝ n) : Ctl XReal n where
  acro := c.acro.fin
  indi := c.indi.fin
  pos := c.pos.fin
  traj := c.traj.fin
  vel := c.vel.fin
  desPos := vfin c.desPos
  desVel := vfin c.desVel
  desAcc := vfin c.desAcc
  desThrust := .fin c.desThrust
  desAngVel := vfin c.desAngVel
  desMotVel := vfin c.desMotVel

/-- A simulator of finite numbers. -/
def Sim.fin {n : ℕ} (s : Sim ℝ n) : Sim XReal n where
  dyn := s.dyn.fin
  ctl := s.ctl.fin
  imu := s.imu.fin
  odom := s.odom.fin
  armed := s.armed
  floorEnable := s.floorEnable
  floorCollision := s.floorCollision
  floorHeight := .fin s.floorHeight
  refMot := vfin s.refMot
  refThrust := .fin s.refThrust
  refAngVel := vfin s.refAngVel
  refPos := vfin s.refPos
  refVel := vfin s.refVel
  refAcc := vfin s.refAcc
  refYaw := .fin s.refYaw
  refYawRate := .fin s.refYawRate
  actuation := vfin s.actuation
  extForce := vfin s.extForce
  mode := s.mode
  yawMode := s.yawMode

/-- Finite simulator parameters. -/
def SimParams.fin {n : ℕ} (p : SimParams ℝ n) : SimParams XReal n :=
  ⟨p.dyn.fin, p.ctl.fin, p.imu.fin, p.odom.fin⟩

/-- No variance or bias constant is negative. -/
structure RegularImu (i : Imu ℝ) : Prop where
  gyroVar : 0 ≤ i.gyroVar
  accelVar : 0 ≤ i.accelVar
  gyroBiasCorr : 0 ≤ i.gyroBiasCorr
  accelBiasCorr : 0 ≤ i.accelBiasCorr

/-- Limits of proportional saturation enclose zero. -/
def RegularPid {n : ℕ} (p : Pid ℝ n) : Prop :=
  p.satFlag = true → p.propSat = true → ∀ i, p.lower i ≤ 0 ∧ 0 ≤ p.upper i

namespace Finite

section
variable [Noise ℝ]

lemma scaledDraw_f (s : ℝ) (r : Rng) : Imu.scaledDraw (XReal.fin s) r =
    (vfin (Imu.scaledDraw s r).1, (Imu.scaledDraw (α := ℝ) s r).2) := rfl

lemma imuMk_f (p : ImuParams ℝ) (h1 : 0 ≤ p.gyroVar) (h2 : 0 ≤ p.accelVar) :
    Imu.mk' p.fin = (Imu.mk' p).fin := by
  simp only [Imu.mk', ImuParams.fin, sqrt_f _ h1, sqrt_f _ h2, scaledDraw_f, inverse_f, vzero_f]
  rfl

lemma imuUpdate_f (i : Imu ℝ) (h : RegularImu i) (dt : ℝ) (f om : Vec 3 ℝ) :
    i.fin.update (.fin dt) (vfin f) (vfin om) = (i.update dt f om).fin := by
  unfold Imu.update
  rw [lit_f, le_f]
  by_cases hd : Flt.le dt (lit 0) = true
  · rw [if_pos hd, if_pos hd]
  · rw [if_neg hd, if_neg hd]
    have hd : 0 < dt := not_le.1 (by simpa [flt] using hd)
    have h1 : 0 ≤ i.gyroBiasCorr ⊘ dt := div_nonneg h.gyroBiasCorr hd.le
    have h2 : 0 ≤ i.accelBiasCorr ⊘ dt := div_nonneg h.accelBiasCorr hd.le
    simp only [Imu.processBias, Imu.processMeasurement, Imu.fin, div_f _ _ hd.ne', sqrt_f _ h1, sqrt_f _ h2,
      sqrt_f _ h.gyroVar, sqrt_f _ h.accelVar, scaledDraw_f, rotate_f, vadd_f, smulR_f]

lemma imuUpdate_regular {i : Imu ℝ} (h : RegularImu i) (dt : ℝ) (f om : Vec 3 ℝ) :
    RegularImu (i.update dt f om) := by
  unfold Imu.update
  split
  · exact h
  · exact ⟨h.1, h.2, h.3, h.4⟩
end

lemma odomReset_f (o : Odom ℝ) : o.fin.reset = o.reset.fin := rfl

lemma odomMk_f (p : OdomParams ℝ) : Odom.mk' p.fin = (Odom.mk' p).map Odom.fin := by
  unfold Odom.mk'
  simp only [OdomParams.fin, lit_f, lt_f, le_f]
  cases Flt.lt (lit 0) p.alpha && Flt.le p.alpha (lit 1) <;> rfl

lemma odomUpdate_f (o : Odom ℝ) (g a : Vec 3 ℝ) (dt : ℝ) :
    o.fin.update (vfin g) (vfin a) (.fin dt) = (o.update g a dt).fin := by
  simp only [Odom.update, Odom.filter, Odom.integrate, Odom.fin, lit_f, sub_f, smulL_f, vadd_f, inverse_f,
    rotate_f, quatIntegrate_f, smulR_f]

section
variable {n : ℕ}

lemma nonZero_f (v : Vec n ℝ) : Pid.nonZero (vfin v) = Pid.nonZero v := by
  simp only [Pid.nonZero, vfin_apply, lit_f, beq_f]

lemma setSatLoop_f (u l : Vec n ℝ) (b : Bool) (is : List (Fin n)) (p : Pid ℝ n) :
    Pid.setSatLoop (vfin u) (vfin l) b is p.fin = (Pid.setSatLoop u l b is p).fin := by
  induction is generalizing p with
  | nil => rfl
  | cons i is ih =>
    simp only [Pid.setSatLoop, vfin_apply, sub_f, abs_f, eps_f, lt_f]
    split
    · rfl
    · split
      · rfl
      · exact ih { p with upper := u, lower := l }

lemma pidUpdate_f (q : PidParams ℝ n) (p : Pid ℝ n) : p.fin.updateParams q.fin = (p.updateParams q).fin := by
  have h : (((((p.fin.setGains q.fin.kp q.fin.ki q.fin.kd).setAntiWindup q.fin.antiwindup).setAlpha
      q.fin.alpha).setResetIntegral q.fin.resetIntegral).setPropSat q.fin.propSat) =
      (((((p.setGains q.kp q.ki q.kd).setAntiWindup q.antiwindup).setAlpha q.alpha).setResetIntegral
        q.resetIntegral).setPropSat q.propSat).fin := by
    simp only [Pid.setGains, Pid.setAntiWindup, Pid.setAlpha, Pid.setResetIntegral, Pid.setPropSat,
      PidParams.fin, Pid.fin, mdiag_f]
  unfold Pid.updateParams
  simp only [h]
  rw [show q.fin.lower = vfin q.lower from rfl, show q.fin.upper = vfin q.upper from rfl, nonZero_f,
    nonZero_f]
  split
  · exact setSatLoop_f _ _ _ _ _
  · rfl

lemma pidMk_f (q : PidParams ℝ n) : Pid.mk' q.fin = (Pid.mk' q).fin := by
  unfold Pid.mk'
  rw [show (Pid.init : Pid XReal n) = (Pid.init : Pid ℝ n).fin by
    simp only [Pid.init, Pid.fin, mident_f, vzero_f], pidUpdate_f]
  rfl

lemma propSatStep_f (u l s : Vec n ℝ) (j : Fin n) (h : l j ≤ 0 ∧ 0 ≤ u j) :
    Pid.propSatStep (vfin u) (vfin l) (vfin s) j = vfin (Pid.propSatStep u l s j) := by
  simp only [Pid.propSatStep, vfin_apply, lt_f, lit_f]
  by_cases h1 : Flt.lt (u j) (s j) = true
  · have : u j < s j := by simpa [flt] using h1
    simp only [h1, if_true]
    rw [div_f _ _ (lt_of_le_of_lt h.2 this).ne', smulL_f]
  · simp only [h1, if_false, Bool.false_eq_true]
    by_cases h2 : Flt.lt (s j) (l j) = true
    · have : s j < l j := by simpa [flt] using h2
      simp only [h2, if_true]
      rw [div_f _ _ (lt_of_lt_of_le this h.1).ne, smulL_f]
    · simp only [h2, if_false, Bool.false_eq_true]
      rw [smulL_f]

lemma saturateOutput_f (out u l : Vec n ℝ) (b : Bool) (h : b = true → ∀ i, l i ≤ 0 ∧ 0 ≤ u i) :
    Pid.saturateOutput (vfin out) (vfin u) (vfin l) b = vfin (Pid.saturateOutput out u l b) := by
  cases b with
  | false =>
    ext i
    simp only [Pid.saturateOutput, Bool.not_false, if_true, vfin_apply, lt_f, ite_f]
  | true =>
    simp only [Pid.saturateOutput, Bool.not_true, Bool.false_eq_true, if_false]
    generalize List.finRange n = is
    induction is generalizing out with
    | nil => rfl
    | cons j is ih => rw [List.foldl_cons, List.foldl_cons, propSatStep_f _ _ _ _ (h rfl j), ih]

lemma resetAxis_f (b : Bool) (x y z : ℝ) :
    Pid.resetAxis b (XReal.fin x) (.fin y) (.fin z) = .fin (Pid.resetAxis b x y z) := by
  simp only [Pid.resetAxis, abs_f, lt_f, signbit_f, lit_f, ite_f]

lemma accumulate_f (p : Pid ℝ n) (dt : ℝ) (e : Vec n ℝ) :
    p.fin.accumulate (.fin dt) (vfin e) = vfin (p.accumulate dt e) := by
  have h : (fun j => Pid.resetAxis p.fin.resetIntegral (p.fin.integral j) (p.fin.antiwindup j) (vfin e j)) =
      vfin fun j => Pid.resetAxis p.resetIntegral (p.integral j) (p.antiwindup j) (e j) := by
    ext j; exact resetAxis_f _ _ _ _
  unfold Pid.accumulate
  simp only [h]
  rw [show p.fin.antiwindup = vfin p.antiwindup from rfl, nonZero_f, lit_f, smulL_f, smulR_f, vadd_f,
    saturateOutput_f _ _ _ _ (by simp)]
  split <;> rfl

lemma finishOutput_f (p : Pid ℝ n) (h : RegularPid p) : p.fin.finishOutput = p.finishOutput.fin := by
  unfold Pid.finishOutput
  cases hs : p.satFlag with
  | false => simp only [Pid.fin, hs, vadd_f, Bool.false_eq_true, if_false]
  | true => simp only [Pid.fin, hs, vadd_f, if_true, saturateOutput_f _ _ _ _ (h hs)]

lemma firstRunInit_f (p : Pid ℝ n) (e : Vec n ℝ) : p.fin.firstRunInit (vfin e) = (p.firstRunInit e).fin := by
  unfold Pid.firstRunInit
  cases hs : p.firstRun <;> simp only [Pid.fin, hs, Bool.false_eq_true, if_false, if_true, vzero_f]

lemma firstRunInit_regular {p : Pid ℝ n} (h : RegularPid p) (e : Vec n ℝ) : RegularPid (p.firstRunInit e) := by
  unfold Pid.firstRunInit
  split <;> exact h

lemma computeIntegral_f (p : Pid ℝ n) (dt : ℝ) (e : Vec n ℝ) :
    p.fin.computeIntegral (.fin dt) (vfin e) =
      ((p.computeIntegral dt e).1.fin, vfin (p.computeIntegral dt e).2) := by
  simp only [Pid.computeIntegral, accumulate_f]
  exact Prod.ext rfl (mv_f _ _)

lemma deriving_f (p : Pid ℝ n) (dt : ℝ) (hd : dt ≠ 0) (e : Vec n ℝ) :
    p.fin.computeDerivativeByDeriving (.fin dt) (vfin e) =
      ((p.computeDerivativeByDeriving dt e).1.fin, vfin (p.computeDerivativeByDeriving dt e).2) := by
  simp only [Pid.computeDerivativeByDeriving, Pid.computeDerivative, Pid.fin, vsub_f, sdiv_f _ _ hd, vones_f,
    vmul_f, vadd_f, mv_f]

/-- The part of a control call before the output. -/
lemma control_eq {α : Type} [Flt α] (p : Pid α n) (dt : α) (e : Vec n α) :
    p.computeControl dt e =
      (let q := p.firstRunInit e
       let r := { q with propContrib := mv q.kpMat e }.computeIntegral dt e
       let t := { r.1 with intContrib := r.2 }.computeDerivativeByDeriving dt e
       let z := { t.1 with derivContrib := t.2 }.finishOutput
       ({ z with propErr := e }, z.output)) := rfl

/-- A control call with a non-zero period. -/
lemma control_f (p : Pid ℝ n) (h : RegularPid p) (dt : ℝ) (hd : dt ≠ 0) (e : Vec n ℝ) :
    p.fin.computeControl (.fin dt) (vfin e) =
      ((p.computeControl dt e).1.fin, vfin (p.computeControl dt e).2) := by
  rw [control_eq, control_eq]
  simp only [firstRunInit_f]
  have hq := firstRunInit_regular h e
  generalize p.firstRunInit e = q at hq
  have h1 : ({ q.fin with propContrib := mv q.fin.kpMat (vfin e) } : Pid XReal n) =
      ({ q with propContrib := mv q.kpMat e } : Pid ℝ n).fin := by
    simp only [Pid.fin, mv_f]
  simp only [h1, computeIntegral_f]
  have hr : RegularPid (({ q with propContrib := mv q.kpMat e } : Pid ℝ n).computeIntegral dt e).1 := hq
  generalize ({ q with propContrib := mv q.kpMat e } : Pid ℝ n).computeIntegral dt e = r at hr
  have h2 : ({ r.1.fin with intContrib := vfin r.2 } : Pid XReal n) =
      ({ r.1 with intContrib := r.2 } : Pid ℝ n).fin := rfl
  simp only [h2, deriving_f _ _ hd]
  have ht : RegularPid (({ r.1 with intContrib := r.2 } : Pid ℝ n).computeDerivativeByDeriving dt e).1 := hr
  generalize ({ r.1 with intContrib := r.2 } : Pid ℝ n).computeDerivativeByDeriving dt e = t at ht
  have h3 : ({ t.1.fin with derivContrib := vfin t.2 } : Pid XReal n) =
      ({ t.1 with derivContrib := t.2 } : Pid ℝ n).fin := rfl
  have hz : RegularPid ({ t.1 with derivContrib := t.2 } : Pid ℝ n) := ht
  rw [h3, finishOutput_f _ hz]
  rfl

lemma controlD_eq {α : Type} [Flt α] (p : Pid α n) (dt : α) (e de : Vec n α) :
    p.computeControlD dt e de =
      (let q := p.firstRunInit e
       let r := { q with propContrib := mv q.kpMat e }.computeIntegral dt e
       let t := { r.1 with intContrib := r.2 }
       let z := { t with derivContrib := mv t.kdMat de }.finishOutput
       ({ z with propErr := e, derivErr := de }, z.output)) := rfl

lemma controlD_f (p : Pid ℝ n) (h : RegularPid p) (dt : ℝ) (e de : Vec n ℝ) :
    p.fin.computeControlD (.fin dt) (vfin e) (vfin de) =
      ((p.computeControlD dt e de).1.fin, vfin (p.computeControlD dt e de).2) := by
  rw [controlD_eq, controlD_eq]
  simp only [firstRunInit_f]
  have hq := firstRunInit_regular h e
  generalize p.firstRunInit e = q at hq
  have h1 : ({ q.fin with propContrib := mv q.fin.kpMat (vfin e) } : Pid XReal n) =
      ({ q with propContrib := mv q.kpMat e } : Pid ℝ n).fin := by
    simp only [Pid.fin, mv_f]
  simp only [h1, computeIntegral_f]
  have hr : RegularPid (({ q with propContrib := mv q.kpMat e } : Pid ℝ n).computeIntegral dt e).1 := hq
  generalize ({ q with propContrib := mv q.kpMat e } : Pid ℝ n).computeIntegral dt e = r at hr
  have h3 : ({ r.1.fin with intContrib := vfin r.2, derivContrib := mv r.1.fin.kdMat (vfin de) } : Pid XReal n) =
      ({ r.1 with intContrib := r.2, derivContrib := mv r.1.kdMat de } : Pid ℝ n).fin := by
    simp only [Pid.fin, mv_f]
  have hz : RegularPid ({ r.1 with intContrib := r.2, derivContrib := mv r.1.kdMat de } : Pid ℝ n) := hr
  rw [h3, finishOutput_f _ hz]
  rfl

lemma control_regular {p : Pid ℝ n} (h : RegularPid p) (dt : ℝ) (e : Vec n ℝ) :
    RegularPid (p.computeControl dt e).1 := by
  rw [control_eq]
  exact firstRunInit_regular h e

lemma controlD_regular {p : Pid ℝ n} (h : RegularPid p) (dt : ℝ) (e de : Vec n ℝ) :
    RegularPid (p.computeControlD dt e de).1 := by
  rw [controlD_eq]
  exact firstRunInit_regular h e

end

/-- The proportional limits of all four PIDs enclose zero. -/
structure RegularCtl {n : ℕ} (c : Ctl ℝ n) : Prop where
  pos : RegularPid c.pos
  traj : RegularPid c.traj
  vel : RegularPid c.vel
  indi : RegularPid c.indi.pid

section
variable {n : ℕ}

lemma desiredAttitude_f (yaw : ℝ) (t : Vec 3 ℝ) :
    Acro.desiredAttitude (XReal.fin yaw) (vfin t) = mfin (Acro.desiredAttitude yaw t) := by
  simp only [Acro.desiredAttitude, cos_f, sin_f, lit_f, vec3_f, normalized_f, cross_f, vfin_apply]
  rfl

lemma rotationError_f (A B : Mat 3 3 ℝ) :
    Acro.rotationError (mfin A) (mfin B) = vfin (Acro.rotationError A B) := by
  simp only [Acro.rotationError, mT_f, mm_f, msub_f, mfin_apply, vec3_f, lit_f, smulL_f]

lemma accelerationToAcro_f (c : Ctl ℝ n) (a : Vec 3 ℝ) (R : Mat 3 3 ℝ) (yaw : ℝ) :
    c.fin.accelerationToAcro (vfin a) (mfin R) (.fin yaw) =
      ((c.accelerationToAcro a R yaw).1.fin, .fin (c.accelerationToAcro a R yaw).2.1,
        vfin (c.accelerationToAcro a R yaw).2.2) := by
  have h1 : c.fin.acro.accelerationToThrust (vfin a) = vfin (c.acro.accelerationToThrust a) := by
    simp only [Acro.accelerationToThrust, Ctl.fin, Acro.fin, vsub_f, smulR_f]
  have h2 (t : Vec 3 ℝ) : c.fin.acro.yawAngleToAngularVelocity (mfin R) (.fin yaw) (vfin t) =
      ((c.acro.yawAngleToAngularVelocity R yaw t).1.fin, vfin (c.acro.yawAngleToAngularVelocity R yaw t).2) := by
    simp only [Acro.yawAngleToAngularVelocity, desiredAttitude_f, rotationError_f, Ctl.fin, Acro.fin, mneg_f,
      mv_f]
  have h3 : (fun i => mfin R i 2) = vfin fun i => R i 2 := rfl
  unfold Ctl.accelerationToAcro
  simp only [h1, h2, h3, normalized_f, dot_f, lit_f, lt_f, vzero_f]
  split <;> rfl

lemma vec6_f' (a b c d e f : ℝ) : (Matrix.vecCons (XReal.fin a) (Matrix.vecCons (XReal.fin b)
    (Matrix.vecCons (XReal.fin c) (vfin ![d, e, f]))) : Vec 6 XReal) = vfin ![a, b, c, d, e, f] := by
  ext i; fin_cases i <;> rfl

lemma acroControl_f (c : Ctl ℝ n) (h : RegularCtl c) (om : Vec 3 ℝ) (t : ℝ) (od : Vec 3 ℝ) (dt : ℝ)
    (hd : dt ≠ 0) : c.fin.acroControl (vfin om) (.fin t) (vfin od) (.fin dt) =
      ((c.acroControl om t od dt).1.fin, vfin (c.acroControl om t od dt).2) := by
  have hc := control_f c.indi.pid h.indi dt hd (Pid.getError om od)
  simp only [Ctl.acroControl, Ctl.convertAcro, Indi.acroToMotor]
  rw [show Pid.getError (vfin om) (vfin od) = vfin (Pid.getError om od) from vsub_f _ _,
    show c.fin.indi.pid = c.indi.pid.fin from rfl, hc]
  simp only [Ctl.fin, Indi.fin, mv_f, cross_f, vadd_f, lit_f, vec3_f, vfin_apply]
  simp only [vec6_f', mv_f, sqrtKeepSign_f]

lemma acroControl_regular {c : Ctl ℝ n} (h : RegularCtl c) (om : Vec 3 ℝ) (t : ℝ) (od : Vec 3 ℝ) (dt : ℝ) :
    RegularCtl (c.acroControl om t od dt).1 :=
  ⟨h.pos, h.traj, h.vel, control_regular h.indi _ _⟩

lemma accelerationControl_eq {α : Type} [Flt α] (c : Ctl α n) (R : Mat 3 3 α) (om a : Vec 3 α) (yaw dt : α) :
    c.accelerationControl R om a yaw dt =
      (let r := { c with desAcc := a }.accelerationToAcro a R yaw
       { r.1 with desThrust := r.2.1, desAngVel := r.2.2 }.acroControl om r.2.1 r.2.2 dt) := rfl

lemma accelerationControl_f (c : Ctl ℝ n) (h : RegularCtl c) (R : Mat 3 3 ℝ) (om a : Vec 3 ℝ) (yaw dt : ℝ)
    (hd : dt ≠ 0) : c.fin.accelerationControl (mfin R) (vfin om) (vfin a) (.fin yaw) (.fin dt) =
      ((c.accelerationControl R om a yaw dt).1.fin, vfin (c.accelerationControl R om a yaw dt).2) := by
  rw [accelerationControl_eq, accelerationControl_eq]
  rw [show ({ c.fin with desAcc := vfin a } : Ctl XReal n) = ({ c with desAcc := a } : Ctl ℝ n).fin from rfl,
    accelerationToAcro_f]
  have hr : RegularCtl (({ c with desAcc := a } : Ctl ℝ n).accelerationToAcro a R yaw).1 :=
    ⟨h.pos, h.traj, h.vel, h.indi⟩
  generalize ({ c with desAcc := a } : Ctl ℝ n).accelerationToAcro a R yaw = r at hr
  have hr' : RegularCtl ({ r.1 with desThrust := r.2.1, desAngVel := r.2.2 } : Ctl ℝ n) :=
    ⟨hr.pos, hr.traj, hr.vel, hr.indi⟩
  exact acroControl_f _ hr' om r.2.1 r.2.2 dt hd

lemma accelerationControl_regular {c : Ctl ℝ n} (h : RegularCtl c) (R : Mat 3 3 ℝ) (om a : Vec 3 ℝ)
    (yaw dt : ℝ) : RegularCtl (c.accelerationControl R om a yaw dt).1 := by
  rw [accelerationControl_eq]
  show RegularCtl (Ctl.acroControl _ _ _ _ _).1
  apply acroControl_regular
  exact ⟨h.pos, h.traj, h.vel, h.indi⟩

lemma trajectoryControl_eq {α : Type} [Flt α] (c : Ctl α n) (pos vel : Vec 3 α) (R : Mat 3 3 α)
    (om pd vd ad : Vec 3 α) (yaw dt : α) :
    c.trajectoryControl pos vel R om pd vd ad yaw dt =
      (let r := c.traj.computeControlD dt (vsub pd pos) (vsub vd vel)
       { c with desPos := pd, desVel := vd, traj := r.1, desAcc := vadd r.2 ad }.accelerationControl R om
        (vadd r.2 ad) yaw dt) := rfl

lemma trajectoryControl_f (c : Ctl ℝ n) (h : RegularCtl c) (pos vel : Vec 3 ℝ) (R : Mat 3 3 ℝ)
    (om pd vd ad : Vec 3 ℝ) (yaw dt : ℝ) (hd : dt ≠ 0) :
    c.fin.trajectoryControl (vfin pos) (vfin vel) (mfin R) (vfin om) (vfin pd) (vfin vd) (vfin ad) (.fin yaw)
        (.fin dt) = ((c.trajectoryControl pos vel R om pd vd ad yaw dt).1.fin,
          vfin (c.trajectoryControl pos vel R om pd vd ad yaw dt).2) := by
  rw [trajectoryControl_eq, trajectoryControl_eq, vsub_f, vsub_f,
    show c.fin.traj = c.traj.fin from rfl, controlD_f _ h.traj]
  have hr := controlD_regular h.traj dt (vsub pd pos) (vsub vd vel)
  generalize c.traj.computeControlD dt (vsub pd pos) (vsub vd vel) = r at hr
  have hc : RegularCtl ({ c with desPos := pd, desVel := vd, traj := r.1, desAcc := vadd r.2 ad } : Ctl ℝ n) :=
    ⟨h.pos, hr, h.vel, h.indi⟩
  exact accelerationControl_f _ hc R om (vadd r.2 ad) yaw dt hd

lemma trajectoryControl_regular {c : Ctl ℝ n} (h : RegularCtl c) (pos vel : Vec 3 ℝ) (R : Mat 3 3 ℝ)
    (om pd vd ad : Vec 3 ℝ) (yaw dt : ℝ) : RegularCtl (c.trajectoryControl pos vel R om pd vd ad yaw dt).1 := by
  rw [trajectoryControl_eq]
  show RegularCtl (Ctl.accelerationControl _ _ _ _ _ _).1
  apply accelerationControl_regular
  exact ⟨h.pos, controlD_regular h.traj _ _ _, h.vel, h.indi⟩

lemma velocityControl_eq {α : Type} [Flt α] (c : Ctl α n) (vel : Vec 3 α) (R : Mat 3 3 α) (om vd : Vec 3 α)
    (yaw dt : α) : c.velocityControl vel R om vd yaw dt =
      (let r := c.vel.computeControl dt (vsub vd vel)
       { c with desVel := vd, vel := r.1, desAcc := r.2 }.accelerationControl R om r.2 yaw dt) := rfl

lemma velocityControl_f (c : Ctl ℝ n) (h : RegularCtl c) (vel : Vec 3 ℝ) (R : Mat 3 3 ℝ) (om vd : Vec 3 ℝ)
    (yaw dt : ℝ) (hd : dt ≠ 0) :
    c.fin.velocityControl (vfin vel) (mfin R) (vfin om) (vfin vd) (.fin yaw) (.fin dt) =
      ((c.velocityControl vel R om vd yaw dt).1.fin, vfin (c.velocityControl vel R om vd yaw dt).2) := by
  rw [velocityControl_eq, velocityControl_eq, vsub_f, show c.fin.vel = c.vel.fin from rfl,
    control_f _ h.vel _ hd]
  have hr := control_regular h.vel dt (vsub vd vel)
  generalize c.vel.computeControl dt (vsub vd vel) = r at hr
  have hc : RegularCtl ({ c with desVel := vd, vel := r.1, desAcc := r.2 } : Ctl ℝ n) :=
    ⟨h.pos, h.traj, hr, h.indi⟩
  exact accelerationControl_f _ hc R om r.2 yaw dt hd

lemma velocityControl_regular {c : Ctl ℝ n} (h : RegularCtl c) (vel : Vec 3 ℝ) (R : Mat 3 3 ℝ)
    (om vd : Vec 3 ℝ) (yaw dt : ℝ) : RegularCtl (c.velocityControl vel R om vd yaw dt).1 := by
  rw [velocityControl_eq]
  show RegularCtl (Ctl.accelerationControl _ _ _ _ _ _).1
  apply accelerationControl_regular
  exact ⟨h.pos, h.traj, control_regular h.vel _ _, h.indi⟩

lemma positionControl_eq {α : Type} [Flt α] (c : Ctl α n) (pos : Vec 3 α) (R : Mat 3 3 α)
    (vel om pd : Vec 3 α) (yaw dt : α) : c.positionControl pos R vel om pd yaw dt =
      (let r := c.pos.computeControl dt (vsub pd pos)
       { c with desPos := pd, pos := r.1, desVel := r.2 }.velocityControl vel R om r.2 yaw dt) := rfl

lemma positionControl_f (c : Ctl ℝ n) (h : RegularCtl c) (pos : Vec 3 ℝ) (R : Mat 3 3 ℝ) (vel om pd : Vec 3 ℝ)
    (yaw dt : ℝ) (hd : dt ≠ 0) :
    c.fin.positionControl (vfin pos) (mfin R) (vfin vel) (vfin om) (vfin pd) (.fin yaw) (.fin dt) =
      ((c.positionControl pos R vel om pd yaw dt).1.fin,
        vfin (c.positionControl pos R vel om pd yaw dt).2) := by
  rw [positionControl_eq, positionControl_eq, vsub_f, show c.fin.pos = c.pos.fin from rfl,
    control_f _ h.pos _ hd]
  have hr := control_regular h.pos dt (vsub pd pos)
  generalize c.pos.computeControl dt (vsub pd pos) = r at hr
  have hc : RegularCtl ({ c with desPos := pd, pos := r.1, desVel := r.2 } : Ctl ℝ n) :=
    ⟨hr, h.traj, h.vel, h.indi⟩
  have := velocityControl_f _ hc vel R om r.2 yaw dt hd
  show Ctl.velocityControl ({ c with desPos := pd, pos := r.1, desVel := r.2 } : Ctl ℝ n).fin _ _ _ _ _ _ = _
  exact this

lemma positionControl_regular {c : Ctl ℝ n} (h : RegularCtl c) (pos : Vec 3 ℝ) (R : Mat 3 3 ℝ)
    (vel om pd : Vec 3 ℝ) (yaw dt : ℝ) : RegularCtl (c.positionControl pos R vel om pd yaw dt).1 := by
  rw [positionControl_eq]
  show RegularCtl (Ctl.velocityControl _ _ _ _ _ _ _).1
  apply velocityControl_regular
  exact ⟨control_regular h.pos _ _, h.traj, h.vel, h.indi⟩

lemma yawRateToAngle_f (c : Ctl ℝ n) (y r : ℝ) :
    c.fin.yawRateToAngle (.fin y) (.fin r) = .fin (c.yawRateToAngle y r) := by
  unfold Ctl.yawRateToAngle
  rw [show c.fin.acro.kpRot 2 2 = .fin (c.acro.kpRot 2 2) from rfl, lit_f]
  simp only [beq_f]
  by_cases h : Flt.beq (c.acro.kpRot 2 2) (lit 0) = true
  · rw [if_pos h, if_pos h]
  · rw [if_neg h, if_neg h, div_f, add_f]
    simpa [flt] using h

lemma ctlMk_f (p : CtlParams ℝ n) : Ctl.mk' p.fin = (Ctl.mk' p).fin := by
  simp only [Ctl.mk', CtlParams.fin, Indi.mk', IndiParams.fin, pidMk_f]
  rfl

end

end Finite

open Verif.Finite

/-- A simulator none of whose divisors is zero. -/
structure RegularSim {n : ℕ} (s : Sim ℝ n) : Prop where
  dyn : RegularDyn s.dyn
  ctl : RegularCtl s.ctl
  imu : RegularImu s.imu

namespace Finite

section
variable [Noise ℝ] {n : ℕ}

omit [Noise ℝ] in
lemma belowFloor_f (s : Sim ℝ n) : s.fin.belowFloor = s.belowFloor := by
  simp only [Sim.belowFloor, Sim.fin, Dyn.fin, State.fin, vfin_apply, lt_f]

omit [Noise ℝ] in
lemma collide_f (s : Sim ℝ n) : s.fin.collide = s.collide.fin := by
  have : (fun i : Fin 3 => if i = 2 then s.fin.floorHeight else s.fin.dyn.state.pos i) =
      vfin fun i => if i = 2 then s.floorHeight else s.dyn.state.pos i := by
    ext i; by_cases h : i = 2 <;> simp only [vfin_apply, h, if_true, if_false] <;> rfl
  simp only [Sim.collide, this]
  rfl

/-- An update with its external force. -/
def updateWith {α : Type} [Flt α] [Noise α] (s : Sim α n) (dt : α) : Option (Vec 3 α) → Res (Sim α n)
  | none => .bad
  | some ext =>
    match s.dyn.process s.actuation dt ext (!s.floorCollision) with
    | .bad => .bad
    | .throw d => .throw { s with dyn := d, extForce := ext }
    | .ok d =>
      let z := { s with dyn := d, extForce := vzero, floorCollision := false }
      if z.belowFloor then .ok z.collide else .ok z

omit [Noise ℝ] in
lemma updateWith_eq {α : Type} [Flt α] [Noise α] (s : Sim α n) (dt : α) : s.updateDynamics dt =
    updateWith s dt (if s.belowFloor = true then
      s.dyn.model.core.map fun c => smulR (vneg c.params.gravity) c.params.mass else some s.extForce) := by
  unfold Sim.updateDynamics updateWith
  by_cases hb : s.belowFloor = true
  · simp only [hb, if_true]
    cases s.dyn.model.core with
    | none => rfl
    | some c =>
      simp only [Option.map_some]
      cases s.dyn.process s.actuation dt (smulR (vneg c.params.gravity) c.params.mass) (!s.floorCollision) <;>
        rfl
  · simp only [hb, if_false, Bool.false_eq_true]
    cases s.dyn.process s.actuation dt s.extForce (!s.floorCollision) <;> rfl

lemma updateDynamics_f (s : Sim ℝ n) (h : RegularSim s) (dt : ℝ) :
    s.fin.updateDynamics (.fin dt) = (s.updateDynamics dt).map Sim.fin := by
  have hext : (if s.fin.belowFloor = true then
      s.fin.dyn.model.core.map fun c => smulR (vneg c.params.gravity) c.params.mass else some s.fin.extForce) =
      (if s.belowFloor = true then
      s.dyn.model.core.map fun c => smulR (vneg c.params.gravity) c.params.mass else some s.extForce).map
        vfin := by
    rw [belowFloor_f]
    split
    · rw [show s.fin.dyn.model.core = s.dyn.model.core.map ModelCore.fin from rfl]
      cases s.dyn.model.core <;> rfl
    · rfl
  rw [updateWith_eq, updateWith_eq, hext]
  generalize (if s.belowFloor = true then
      s.dyn.model.core.map fun c => smulR (vneg c.params.gravity) c.params.mass else some s.extForce) = ext
  cases ext with
  | none => rfl
  | some ext =>
    have hp := process_f s.dyn h.dyn s.actuation dt ext (!s.floorCollision)
    unfold updateWith
    simp only [Option.map_some]
    rw [show s.fin.dyn = s.dyn.fin from rfl, show s.fin.actuation = vfin s.actuation from rfl,
      show s.fin.floorCollision = s.floorCollision from rfl, hp]
    cases s.dyn.process s.actuation dt ext (!s.floorCollision) with
    | bad => rfl
    | throw d => rfl
    | ok d =>
      have key (z : Sim ℝ n) : (if z.fin.belowFloor = true then Res.ok z.fin.collide else Res.ok z.fin) =
          (if z.belowFloor = true then Res.ok z.collide else Res.ok z).map Sim.fin := by
        rw [belowFloor_f, collide_f]
        cases z.belowFloor <;> rfl
      exact key { s with dyn := d, extForce := vzero, floorCollision := false }

omit [Noise ℝ] in
lemma updateController_f (s : Sim ℝ n) (h : RegularSim s) (dt : ℝ) (hd : dt ≠ 0) :
    s.fin.updateController (.fin dt) = (s.updateController dt).fin := by
  unfold Sim.updateController
  rw [show s.fin.armed = s.armed from rfl]
  cases s.armed with
  | false => rfl
  | true =>
    simp only [Bool.not_true, Bool.false_eq_true, if_false]
    have hy : (if s.fin.yawMode = .rate then s.fin.updateYawReference else s.fin) =
        (if s.yawMode = .rate then s.updateYawReference else s).fin := by
      rw [show s.fin.yawMode = s.yawMode from rfl]
      split
      · unfold Sim.updateYawReference
        rw [show s.fin.dyn.state.ori = qfin s.dyn.state.ori from rfl, quatToEuler_f,
          show s.fin.ctl = s.ctl.fin from rfl, show s.fin.refYawRate = .fin s.refYawRate from rfl]
        simp only [yawRateToAngle_f]
        rfl
      · rfl
    simp only [hy]
    have hz : RegularSim (if s.yawMode = .rate then s.updateYawReference else s) := by
      split
      · exact ⟨h.dyn, h.ctl, h.imu⟩
      · exact h
    generalize (if s.yawMode = .rate then s.updateYawReference else s) = z at hz
    rw [show z.fin.mode = z.mode from rfl]
    cases z.mode with
    | motorW => rfl
    | acro =>
      have := acroControl_f z.ctl hz.ctl z.dyn.state.angVel z.refThrust z.refAngVel dt hd
      simp only [Sim.fin, Dyn.fin, State.fin, this]
    | trajectory =>
      have := trajectoryControl_f z.ctl hz.ctl z.dyn.state.pos z.dyn.state.vel z.dyn.state.ori.toMat
        z.dyn.state.angVel z.refPos z.refVel z.refAcc z.refYaw dt hd
      simp only [Sim.fin, Dyn.fin, State.fin, toMat_f, this]
    | velocity =>
      have := velocityControl_f z.ctl hz.ctl z.dyn.state.vel z.dyn.state.ori.toMat
        z.dyn.state.angVel z.refVel z.refYaw dt hd
      simp only [Sim.fin, Dyn.fin, State.fin, toMat_f, this]
    | position =>
      have := positionControl_f z.ctl hz.ctl z.dyn.state.pos z.dyn.state.ori.toMat z.dyn.state.vel
        z.dyn.state.angVel z.refPos z.refYaw dt hd
      simp only [Sim.fin, Dyn.fin, State.fin, toMat_f, this]
    | hover =>
      have := positionControl_f z.ctl hz.ctl z.dyn.state.pos z.dyn.state.ori.toMat z.dyn.state.vel
        z.dyn.state.angVel z.refPos z.refYaw dt hd
      simp only [Sim.fin, Dyn.fin, State.fin, toMat_f, this]

lemma updateImu_f (s : Sim ℝ n) (h : RegularSim s) (dt : ℝ) :
    s.fin.updateImu (.fin dt) = (s.updateImu dt).fin := by
  have := imuUpdate_f s.imu h.imu dt (s.dyn.state.ori.rotate s.dyn.state.force) s.dyn.state.angVel
  unfold Sim.updateImu
  simp only [Sim.fin, Dyn.fin, State.fin, rotate_f, this]

omit [Noise ℝ] in
lemma updateOdom_f (s : Sim ℝ n) (dt : ℝ) : s.fin.updateOdom (.fin dt) = (s.updateOdom dt).fin := by
  have := odomUpdate_f s.odom s.imu.gyro s.imu.accel dt
  unfold Sim.updateOdom
  simp only [Sim.fin, Imu.fin] at *
  rw [this]

end

end Finite

end Verif
