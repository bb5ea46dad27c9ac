import Verif.Spec.Sim
import Verif.Spec.Symmetry
import Verif.Real

/-!
# Reversed axes and mirror images

What the theorems about left and right mean: the same numbers with the sign changed on some axes.
-/

namespace Verif.Spec

open Verif Flt

variable {n : ℕ}

/-! ## Axes of a PID -/

/-- The vector with the marked components reversed. -/
def reversed (f : Fin n → Bool) (v : Vec n ℝ) : Vec n ℝ := fun i => if f i then -v i else v i

/-- On a reversed axis the limits change places and sign: `[l, u]` becomes `[-u, -l]`. -/
def reversedLimits (f : Fin n → Bool) (a b : Vec n ℝ) : Vec n ℝ := fun i => if f i then -b i else a i

/-- Parameters of a PID acting on reversed axes: gains, filter and anti-windup constants are the same. -/
def reversedParams (f : Fin n → Bool) (q : PidParams ℝ n) : PidParams ℝ n :=
  { q with upper := reversedLimits f q.upper q.lower, lower := reversedLimits f q.lower q.upper }

/-- The same call on reversed axes. -/
def reversedPidOp (f : Fin n → Bool) : PidOp ℝ n → PidOp ℝ n
  | .updateParams q => .updateParams (reversedParams f q)
  | .setOutputSaturation u l b => .setOutputSaturation (reversedLimits f u l) (reversedLimits f l u) b
  | .control dt e => .control dt (reversed f e)
  | .controlD dt e de => .controlD dt (reversed f e) (reversed f de)
  | o => o

/-- Anti-windup constants handed over by a call are magnitudes. -/
def awNonneg : PidOp ℝ n → Prop
  | .updateParams q => ∀ i, 0 ≤ q.antiwindup i
  | .setAntiWindup a => ∀ i, 0 ≤ a i
  | _ => True

/-- The call does not switch on the reset of the integral. -/
def keepsIntegral : PidOp ℝ n → Prop
  | .updateParams q => q.resetIntegral = false
  | .setResetIntegral b => b = false
  | _ => True

/-- No component of the error handed over by a call is exactly zero. -/
def errorNonzero : PidOp ℝ n → Prop
  | .control _ e => ∀ i, e i ≠ 0
  | .controlD _ e _ => ∀ i, e i ≠ 0
  | _ => True

/-! ## Mirror images

Everything is reflected in the plane spanned by the first and the third axis: left and right are exchanged.  Positions,
velocities and forces change the sign of their second component, turning quantities (angular velocities, torques) that
of the first and the third. -/

/-- Components of positions, velocities, accelerations and forces that change sign. -/
def across : Fin 3 → Bool := ![false, true, false]

/-- Components of angular velocities, angular accelerations and torques that change sign. -/
def about : Fin 3 → Bool := ![true, false, true]

/-- Components of a force and a torque that change sign. -/
def wrench : Fin 6 → Bool := ![false, true, false, true, false, true]

/-- Positions, velocities, accelerations, forces. -/
def mirrorVec (v : Vec 3 ℝ) : Vec 3 ℝ := reversed across v

/-- Angular velocities, angular accelerations, torques. -/
def mirrorTurn (v : Vec 3 ℝ) : Vec 3 ℝ := reversed about v

/-- Orientations. -/
def mirrorQuat (q : Quat ℝ) : Quat ℝ := ⟨q.w, -q.x, q.y, -q.z⟩

/-- Rotation matrices, inertia matrices, gain matrices. -/
def mirrorMat (A : Mat 3 3 ℝ) : Mat 3 3 ℝ := fun i j => if across i = across j then A i j else -A i j

/-- Matrices with one row per component. -/
def mirrorRows {m : ℕ} (f : Fin m → Bool) (A : Mat m n ℝ) : Mat m n ℝ := fun r i => if f r then -A r i else A r i

/-- Matrices with one column per component. -/
def mirrorCols {m : ℕ} (f : Fin m → Bool) (A : Mat n m ℝ) : Mat n m ℝ := fun i j => if f j then -A i j else A i j

/-- A rotor: moved to the other side and turning the other way. -/
def mirrorMotor (m : Motor ℝ) : Motor ℝ :=
  { m with dir := -m.dir, rot := mirrorMat m.rot, pos := mirrorVec m.pos }

/-- Vehicle parameters. -/
def mirrorModelParams (p : ModelParams ℝ) : ModelParams ℝ :=
  { p with
    motors := p.motors.map mirrorMotor
    inertia := mirrorMat p.inertia
    aero := mirrorMat p.aero
    gravity := mirrorVec p.gravity }

/-- The state of the vehicle. -/
def mirrorState (s : State ℝ n) : State ℝ n where
  pos := mirrorVec s.pos
  ori := mirrorQuat s.ori
  vel := mirrorVec s.vel
  angVel := mirrorTurn s.angVel
  acc := mirrorVec s.acc
  angAcc := mirrorTurn s.angAcc
  force := mirrorVec s.force
  torque := mirrorTurn s.torque
  motVel := s.motVel
  motAcc := s.motAcc

/-- The data derived from the vehicle parameters. -/
def mirrorCore (c : ModelCore ℝ n) : ModelCore ℝ n where
  params := mirrorModelParams c.params
  mixForceVec := c.mixForceVec
  mixForce := mirrorRows across c.mixForce
  mixTorque := mirrorRows about c.mixTorque
  mixInertia := mirrorRows about c.mixInertia

/-- The vehicle model. -/
def mirrorModel (m : Model ℝ n) : Model ℝ n where
  core := m.core.map mirrorCore
  mixerMatrix := m.mixerMatrix.map (mirrorCols wrench)
  rng := m.rng
  stochForce := mirrorVec m.stochForce
  stochMoment := mirrorTurn m.stochMoment

/-- The vehicle. -/
def mirrorDyn (d : Dyn ℝ n) : Dyn ℝ n := ⟨mirrorModel d.model, mirrorState d.state⟩

/-- Vehicle parameters with initial state. -/
def mirrorDynParams (p : DynParams ℝ n) : DynParams ℝ n :=
  { p with model := mirrorModelParams p.model, state := mirrorState p.state }

/-- A PID with its memory. -/
def reversedPid (f : Fin n → Bool) (p : Pid ℝ n) : Pid ℝ n where
  kpMat := fun i j => if f i = f j then p.kpMat i j else -p.kpMat i j
  kiMat := fun i j => if f i = f j then p.kiMat i j else -p.kiMat i j
  kdMat := fun i j => if f i = f j then p.kdMat i j else -p.kdMat i j
  antiwindup := p.antiwindup
  alpha := p.alpha
  resetIntegral := p.resetIntegral
  satFlag := p.satFlag
  propSat := p.propSat
  upper := reversedLimits f p.upper p.lower
  lower := reversedLimits f p.lower p.upper
  firstRun := p.firstRun
  integral := reversed f p.integral
  filtered := reversed f p.filtered
  propErr := reversed f p.propErr
  derivErr := reversed f p.derivErr
  propContrib := reversed f p.propContrib
  intContrib := reversed f p.intContrib
  derivContrib := reversed f p.derivContrib
  output := reversed f p.output

/-- Controller parameters. -/
def mirrorCtlParams (p : CtlParams ℝ n) : CtlParams ℝ n where
  acro := { p.acro with kpRot := mirrorMat p.acro.kpRot, gravity := mirrorVec p.acro.gravity }
  indi :=
    { inertia := mirrorMat p.indi.inertia
      mixerInv := mirrorCols wrench p.indi.mixerInv
      pid := reversedParams about p.indi.pid }
  pos := reversedParams across p.pos
  traj := reversedParams across p.traj
  vel := reversedParams across p.vel

/-- The controller. -/
def mirrorCtl (c : Ctl ℝ n) : Ctl ℝ n where
  acro :=
    { c.acro with
      kpRot := mirrorMat c.acro.kpRot
      gravity := mirrorVec c.acro.gravity
      angVel := mirrorTurn c.acro.angVel }
  indi :=
    { pid := reversedPid about c.indi.pid
      inertia := mirrorMat c.indi.inertia
      mixerInv := mirrorCols wrench c.indi.mixerInv
      thrust := mirrorVec c.indi.thrust
      torque := mirrorTurn c.indi.torque
      motVel := c.indi.motVel }
  pos := reversedPid across c.pos
  traj := reversedPid across c.traj
  vel := reversedPid across c.vel
  desPos := mirrorVec c.desPos
  desVel := mirrorVec c.desVel
  desAcc := mirrorVec c.desAcc
  desThrust := c.desThrust
  desAngVel := mirrorTurn c.desAngVel
  desMotVel := c.desMotVel

/-- IMU parameters. -/
def mirrorImuParams (p : ImuParams ℝ) : ImuParams ℝ := { p with ori := mirrorQuat p.ori }

/-- The IMU. -/
def mirrorImu (i : Imu ℝ) : Imu ℝ :=
  { i with
    ori := mirrorQuat i.ori
    oriInv := mirrorQuat i.oriInv
    gyroBias := mirrorTurn i.gyroBias
    accelBias := mirrorVec i.accelBias
    gyro := mirrorTurn i.gyro
    accel := mirrorVec i.accel }

/-- Odometry parameters. -/
def mirrorOdomParams (p : OdomParams ℝ) : OdomParams ℝ := { p with initOri := mirrorQuat p.initOri }

/-- The odometry. -/
def mirrorOdom (o : Odom ℝ) : Odom ℝ where
  alpha := o.alpha
  initOri := mirrorQuat o.initOri
  gyroF := mirrorTurn o.gyroF
  accelF := mirrorVec o.accelF
  pos := mirrorVec o.pos
  ori := mirrorQuat o.ori
  vel := mirrorVec o.vel
  angVel := mirrorTurn o.angVel
  acc := mirrorVec o.acc

/-- Simulator parameters. -/
def mirrorSimParams (p : SimParams ℝ n) : SimParams ℝ n :=
  ⟨mirrorDynParams p.dyn, mirrorCtlParams p.ctl, mirrorImuParams p.imu, mirrorOdomParams p.odom⟩

/-- The simulator: yaw and yaw rate change sign. -/
def mirrorSim (s : Sim ℝ n) : Sim ℝ n :=
  { s with
    dyn := mirrorDyn s.dyn
    ctl := mirrorCtl s.ctl
    imu := mirrorImu s.imu
    odom := mirrorOdom s.odom
    refAngVel := mirrorTurn s.refAngVel
    refPos := mirrorVec s.refPos
    refVel := mirrorVec s.refVel
    refAcc := mirrorVec s.refAcc
    refYaw := -s.refYaw
    refYawRate := -s.refYawRate
    extForce := mirrorVec s.extForce }

/-- A call.  What is done through a reference getter is done in the mirror. -/
def mirrorOp : SimOp ℝ n → SimOp ℝ n
  | .setRefAcro t w => .setRefAcro t (mirrorTurn w)
  | .setRefTrajectory p v a => .setRefTrajectory (mirrorVec p) (mirrorVec v) (mirrorVec a)
  | .setRefVel v => .setRefVel (mirrorVec v)
  | .setRefPos p => .setRefPos (mirrorVec p)
  | .setRefYaw y => .setRefYaw (-y)
  | .setRefYawRate y => .setRefYawRate (-y)
  | .setDynParams p => .setDynParams (mirrorDynParams p)
  | .setCtlParams p => .setCtlParams (mirrorCtlParams p)
  | .setImuParams p => .setImuParams (mirrorImuParams p)
  | .setOdomParams p => .setOdomParams (mirrorOdomParams p)
  | .mutDyn f => .mutDyn fun d => mirrorDyn (f (mirrorDyn d))
  | .mutCtl f => .mutCtl fun c => mirrorCtl (f (mirrorCtl c))
  | .mutImu f => .mutImu fun i => mirrorImu (f (mirrorImu i))
  | .mutOdom f => .mutOdom fun o => mirrorOdom (f (mirrorOdom o))
  | o => o

/-! ## What the mirror image needs

No random disturbance, and no integral reset (which tells the directions apart, C103). -/

/-- Vehicle without random disturbance. -/
def quietModel (p : ModelParams ℝ) : Prop := p.forceNoise = 0 ∧ p.momentNoise = 0

/-- Vehicle without random disturbance. -/
def quietDyn (d : Dyn ℝ n) : Prop := ∀ c, d.model.core = some c → quietModel c.params

/-- PID without integral reset, anti-windup constants that are magnitudes. -/
def plainPidParams (q : PidParams ℝ n) : Prop := q.resetIntegral = false ∧ ∀ i, 0 ≤ q.antiwindup i

/-- PID without integral reset; the limits in force are ordered. -/
def plainPid (p : Pid ℝ n) : Prop :=
  p.resetIntegral = false ∧ (∀ i, 0 ≤ p.antiwindup i) ∧ (p.satFlag = true → ∀ i, p.lower i ≤ p.upper i)

/-- Controller parameters without integral reset. -/
def plainCtlParams (p : CtlParams ℝ n) : Prop :=
  plainPidParams p.indi.pid ∧ plainPidParams p.pos ∧ plainPidParams p.traj ∧ plainPidParams p.vel

/-- Controller without integral reset. -/
def plainCtl (c : Ctl ℝ n) : Prop := plainPid c.indi.pid ∧ plainPid c.pos ∧ plainPid c.traj ∧ plainPid c.vel

/-- Sensor parameters without noise. -/
def quietImuParams (p : ImuParams ℝ) : Prop :=
  p.gyroVar = 0 ∧ p.accelVar = 0 ∧ p.gyroBiasCorr = 0 ∧ p.accelBiasCorr = 0

/-- Sensor without noise; it may have constant biases. -/
def quietImu (i : Imu ℝ) : Prop := i.gyroVar = 0 ∧ i.accelVar = 0 ∧ i.gyroBiasCorr = 0 ∧ i.accelBiasCorr = 0

/-- Simulator parameters without noise and integral reset. -/
def plainSimParams (p : SimParams ℝ n) : Prop :=
  quietModel p.dyn.model ∧ plainCtlParams p.ctl ∧ quietImuParams p.imu

/-- Simulator without noise and integral reset. -/
def plainSim (s : Sim ℝ n) : Prop := quietDyn s.dyn ∧ plainCtl s.ctl ∧ quietImu s.imu

/-- The call does not switch on noise or integral reset. -/
def plainOp : SimOp ℝ n → Prop
  | .setDynParams p => quietModel p.model
  | .setCtlParams p => plainCtlParams p
  | .setImuParams p => quietImuParams p
  | .mutDyn f => ∀ d, quietDyn d → quietDyn (f d)
  | .mutCtl f => ∀ c, plainCtl c → plainCtl (f c)
  | .mutImu f => ∀ i, quietImu i → quietImu (f i)
  | _ => True

/-- The second simulator is the mirror image of the first, up to full turns of the yaw reference (a yaw angle of `π` is
its own mirror image). -/
def MirrorOf (s t : Sim ℝ n) : Prop := SameHeadingSim (mirrorSim s) t

end Verif.Spec
