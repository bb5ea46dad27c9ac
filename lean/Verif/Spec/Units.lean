import Verif.Spec.Sim
import Verif.Real

/-!
# Other units of length and mass

What the theorems about units mean: the same quantities expressed in other units.  Angles and times keep theirs.
-/

namespace Verif.Spec

open Verif Flt

variable {n : ℕ}

/-- Other units: the numbers of new units of length and mass in an old one. -/
structure Units where
  len : ℝ
  mass : ℝ
  len_pos : 0 < len
  mass_pos : 0 < mass

namespace Units
variable (u : Units)

/-- New units of force (and thrust) in an old one: mass times length per time squared. -/
def force : ℝ := u.mass * u.len

/-- New units of torque (and inertia) in an old one: mass times length squared (per time squared). -/
def torque : ℝ := u.mass * (u.len * u.len)

/-- Back to the old units. -/
noncomputable def back : Units := ⟨u.len⁻¹, u.mass⁻¹, inv_pos.2 u.len_pos, inv_pos.2 u.mass_pos⟩

/-- The units of the rows of a force and a torque. -/
def wrench : Vec 6 ℝ := ![u.force, u.force, u.force, u.torque, u.torque, u.torque]

/-- Matrices that map a force and a torque to a number without unit of length or mass. -/
noncomputable def cols (A : Mat n 6 ℝ) : Mat n 6 ℝ := fun i j => A i j / u.wrench j

/-- A rotor: `kf` is a force, `kt` a torque and `inertia` a moment of inertia per speed. -/
def motor (m : Motor ℝ) : Motor ℝ :=
  { m with kf := u.force * m.kf, kt := u.torque * m.kt, pos := u.len • m.pos, inertia := u.torque * m.inertia }

/-- Vehicle parameters: drag is a force per squared speed, the noise parameters are squared forces and torques. -/
noncomputable def modelParams (p : ModelParams ℝ) : ModelParams ℝ where
  motors := p.motors.map u.motor
  mass := u.mass * p.mass
  inertia := u.torque • p.inertia
  drag := u.mass / u.len * p.drag
  aero := u.torque • p.aero
  gravity := u.len • p.gravity
  forceNoise := u.force ^ 2 * p.forceNoise
  momentNoise := u.torque ^ 2 * p.momentNoise

/-- The state of the vehicle. -/
def state (s : State ℝ n) : State ℝ n where
  pos := u.len • s.pos
  ori := s.ori
  vel := u.len • s.vel
  angVel := s.angVel
  acc := u.len • s.acc
  angAcc := s.angAcc
  force := u.force • s.force
  torque := u.torque • s.torque
  motVel := s.motVel
  motAcc := s.motAcc

/-- The data derived from the vehicle parameters. -/
noncomputable def core (c : ModelCore ℝ n) : ModelCore ℝ n where
  params := u.modelParams c.params
  mixForceVec := u.force • c.mixForceVec
  mixForce := u.force • c.mixForce
  mixTorque := u.torque • c.mixTorque
  mixInertia := u.torque • c.mixInertia

/-- The vehicle model. -/
noncomputable def model (m : Model ℝ n) : Model ℝ n where
  core := m.core.map u.core
  mixerMatrix := m.mixerMatrix.map u.cols
  rng := m.rng
  stochForce := u.force • m.stochForce
  stochMoment := u.torque • m.stochMoment

/-- The vehicle. -/
noncomputable def dyn (d : Dyn ℝ n) : Dyn ℝ n := ⟨u.model d.model, u.state d.state⟩

/-- Vehicle parameters with initial state. -/
noncomputable def dynParams (p : DynParams ℝ n) : DynParams ℝ n :=
  { p with model := u.modelParams p.model, state := u.state p.state }

end Units

/-! ## A PID whose errors and outputs have the same unit

`k` is the number of new units in an old one. -/

/-- Parameters: the limits and anti-windup constants have the unit of the errors, the gains have none. -/
def scaledParams (k : ℝ) (q : PidParams ℝ n) : PidParams ℝ n :=
  { q with antiwindup := k • q.antiwindup, upper := k • q.upper, lower := k • q.lower }

/-- The PID with its memory. -/
def scaledPid (k : ℝ) (p : Pid ℝ n) : Pid ℝ n :=
  { p with
    antiwindup := k • p.antiwindup
    upper := k • p.upper
    lower := k • p.lower
    integral := k • p.integral
    filtered := k • p.filtered
    propErr := k • p.propErr
    derivErr := k • p.derivErr
    propContrib := k • p.propContrib
    intContrib := k • p.intContrib
    derivContrib := k • p.derivContrib
    output := k • p.output }

/-- A call. -/
def scaledPidOp (k : ℝ) : PidOp ℝ n → PidOp ℝ n
  | .updateParams q => .updateParams (scaledParams k q)
  | .setOutputSaturation u l b => .setOutputSaturation (k • u) (k • l) b
  | .setAntiWindup a => .setAntiWindup (k • a)
  | .control dt e => .control dt (k • e)
  | .controlD dt e de => .controlD dt (k • e) (k • de)
  | o => o

/-- The limits are told apart, or not, in both units: their distance is compared with the number `eps`. -/
def Resolved (k : ℝ) (u l : Vec n ℝ) : Prop := ∀ i, |u i - l i| < (eps : ℝ) ↔ |k * u i - k * l i| < (eps : ℝ)

/-- The limits handed over by a call are resolved in both units. -/
def resolvedOp (k : ℝ) : PidOp ℝ n → Prop
  | .updateParams q => Resolved k q.upper q.lower
  | .setOutputSaturation u l _ => Resolved k u l
  | _ => True

namespace Units
variable (u : Units)

/-! ## Controller, sensors, simulator -/

/-- Controller parameters. -/
noncomputable def ctlParams (p : CtlParams ℝ n) : CtlParams ℝ n where
  acro := { p.acro with mass := u.mass * p.acro.mass, gravity := u.len • p.acro.gravity }
  indi := { p.indi with inertia := u.torque • p.indi.inertia, mixerInv := u.cols p.indi.mixerInv }
  pos := scaledParams u.len p.pos
  traj := scaledParams u.len p.traj
  vel := scaledParams u.len p.vel

/-- The controller. -/
noncomputable def ctl (c : Ctl ℝ n) : Ctl ℝ n where
  acro := { c.acro with mass := u.mass * c.acro.mass, gravity := u.len • c.acro.gravity, thrust := u.force * c.acro.thrust }
  indi :=
    { c.indi with
      inertia := u.torque • c.indi.inertia
      mixerInv := u.cols c.indi.mixerInv
      thrust := u.force • c.indi.thrust
      torque := u.torque • c.indi.torque }
  pos := scaledPid u.len c.pos
  traj := scaledPid u.len c.traj
  vel := scaledPid u.len c.vel
  desPos := u.len • c.desPos
  desVel := u.len • c.desVel
  desAcc := u.len • c.desAcc
  desThrust := u.force * c.desThrust
  desAngVel := c.desAngVel
  desMotVel := c.desMotVel

/-- IMU parameters: an accelerometer measures accelerations. -/
def imuParams (p : ImuParams ℝ) : ImuParams ℝ :=
  { p with accelVar := u.len ^ 2 * p.accelVar, accelBiasCorr := u.len ^ 2 * p.accelBiasCorr }

/-- The IMU. -/
def imu (i : Imu ℝ) : Imu ℝ :=
  { i with
    accelVar := u.len ^ 2 * i.accelVar
    accelBiasCorr := u.len ^ 2 * i.accelBiasCorr
    accelBias := u.len • i.accelBias
    accel := u.len • i.accel }

/-- The odometry. -/
def odom (o : Odom ℝ) : Odom ℝ :=
  { o with accelF := u.len • o.accelF, pos := u.len • o.pos, vel := u.len • o.vel, acc := u.len • o.acc }

/-- Simulator parameters. -/
noncomputable def simParams (p : SimParams ℝ n) : SimParams ℝ n :=
  ⟨u.dynParams p.dyn, u.ctlParams p.ctl, u.imuParams p.imu, p.odom⟩

/-- The simulator. -/
noncomputable def sim (s : Sim ℝ n) : Sim ℝ n :=
  { s with
    dyn := u.dyn s.dyn
    ctl := u.ctl s.ctl
    imu := u.imu s.imu
    odom := u.odom s.odom
    floorHeight := u.len * s.floorHeight
    refThrust := u.force * s.refThrust
    refPos := u.len • s.refPos
    refVel := u.len • s.refVel
    refAcc := u.len • s.refAcc
    extForce := u.force • s.extForce }

/-- A call.  What is done through a reference getter is done in the old units. -/
noncomputable def op : SimOp ℝ n → SimOp ℝ n
  | .enableFloor h => .enableFloor (u.len * h)
  | .setRefAcro t w => .setRefAcro (u.force * t) w
  | .setRefTrajectory p v a => .setRefTrajectory (u.len • p) (u.len • v) (u.len • a)
  | .setRefVel v => .setRefVel (u.len • v)
  | .setRefPos p => .setRefPos (u.len • p)
  | .setDynParams p => .setDynParams (u.dynParams p)
  | .setCtlParams p => .setCtlParams (u.ctlParams p)
  | .setImuParams p => .setImuParams (u.imuParams p)
  | .mutDyn f => .mutDyn fun d => u.dyn (f (u.back.dyn d))
  | .mutCtl f => .mutCtl fun c => u.ctl (f (u.back.ctl c))
  | .mutImu f => .mutImu fun i => u.imu (f (u.back.imu i))
  | .mutOdom f => .mutOdom fun o => u.odom (f (u.back.odom o))
  | o => o

/-! ## What the change of units needs -/

/-- The vehicle parameters do not mix quantities of different kind: the random force acts as a torque as well
(dynamics.hpp:182), and the gravity vector is added to the forces (dynamics.hpp:403). -/
def Coherent (p : ModelParams ℝ) : Prop := (u.len = 1 ∨ p.forceNoise = 0) ∧ (u.mass = 1 ∨ p.gravity = 0)

/-- Same, for a vehicle. -/
def CoherentDyn (d : Dyn ℝ n) : Prop := ∀ c, d.model.core = some c → u.Coherent c.params

/-- The limits of the controllers are resolved in both units. -/
def ResolvedCtl (p : CtlParams ℝ n) : Prop :=
  Resolved u.len p.pos.upper p.pos.lower ∧ Resolved u.len p.traj.upper p.traj.lower ∧
    Resolved u.len p.vel.upper p.vel.lower

/-- Calls that keep quantities of different kind apart.  The accelerometer is given a force
(multirotor_simulator.hpp:243-248).  Arming sets a thrust reference of 9.81 whatever the unit of force
(multirotor_simulator.hpp:266): either the vehicle is not armed (`arms = false`), or the mode that uses that reference
is not selected. -/
def Kept (arms : Bool) : SimOp ℝ n → Prop
  | .updateImu _ => u.mass = 1
  | .arm => u.force = 1 ∨ arms = true
  | .setControlMode m _ => u.force = 1 ∨ arms = false ∨ m ≠ .acro
  | .setDynParams p => u.Coherent p.model
  | .setCtlParams p => u.ResolvedCtl p
  | .mutDyn f => ∀ d, u.CoherentDyn d → u.CoherentDyn (f d)
  | _ => True

/-- The second simulator is the first in the new units, except for a thrust reference that is not in use. -/
def Expressed (s t : Sim ℝ n) : Prop :=
  t = { u.sim s with refThrust := t.refThrust } ∧ (s.mode = .acro → t.refThrust = u.force * s.refThrust)

end Units

end Verif.Spec
