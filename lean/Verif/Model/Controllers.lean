import Verif.Model.Pid
import Verif.Model.State

/-!
# Flight controllers — /repo/multirotor_simulator/multirotor_controllers
-/

namespace Verif

open Flt

/-- `acro_controller::AcroControllerParams` — acro_controller.hpp:48-61 -/
structure AcroParams (α : Type) where
  mass : α
  kpRot : Mat 3 3 α
  gravity : Vec 3 α

/-- Data members of `acro_controller::AcroController` — acro_controller.hpp:229-238 -/
@[ext] structure Acro (α : Type) where
  kpRot : Mat 3 3 α
  mass : α
  gravity : Vec 3 α
  thrust : α
  angVel : Vec 3 α

namespace Acro
variable {α : Type} [Flt α]

/-- Constructor — acro_controller.hpp:99-100 -/
def mk' (p : AcroParams α) : Acro α := ⟨p.kpRot, p.mass, p.gravity, lit 0, vzero⟩

/-- `acceleration_to_thrust` — acro_controller.hpp:116-119 (writes no member: the local `thrust_`
shadows the member) -/
def accelerationToThrust (c : Acro α) (a : Vec 3 α) : Vec 3 α := smulR (vsub a c.gravity) c.mass

/-- `R_des` — acro_controller.hpp:134-142 (columns `xb`, `yb`, `zb`) -/
def desiredAttitude (yaw : α) (thrust : Vec 3 α) : Mat 3 3 α :=
  let xc : Vec 3 α := ![cos yaw, sin yaw, lit 0]
  let zb := normalized thrust
  let yb := normalized (cross zb xc)
  let xb := normalized (cross yb zb)
  fun i j => (![xb i, yb i, zb i] : Vec 3 α) j

/-- `rotation_error` — acro_controller.hpp:145-152 -/
def rotationError (Rd R : Mat 3 3 α) : Vec 3 α :=
  let E := msub (mm (mT Rd) R) (mm (mT R) Rd)
  smulL (lit (1 / 2)) ![E 2 1, E 0 2, E 1 0]

/-- `yaw_angle_to_angular_velocity` — acro_controller.hpp:130-158 -/
def yawAngleToAngularVelocity (c : Acro α) (R : Mat 3 3 α) (yaw : α) (thrust : Vec 3 α) :
    Acro α × Vec 3 α :=
  let Rd := desiredAttitude yaw thrust
  let w := mv (mneg c.kpRot) (rotationError Rd R)
  ({ c with angVel := w }, w)

/-- `update_params` — acro_controller.hpp:165-190 -/
def updateParams (p : AcroParams α) (c : Acro α) : Acro α :=
  { c with mass := p.mass, gravity := p.gravity, kpRot := p.kpRot }

end Acro

/-- `indi_controller::IndiControllerParams` — indi_controller.hpp:71-85 -/
structure IndiParams (α : Type) (n : ℕ) where
  inertia : Mat 3 3 α
  mixerInv : Mat n 6 α
  pid : PidParams α 3

/-- Data members of `indi_controller::IndiController` (base class `PID` as a member) —
indi_controller.hpp:95-96, 258-266 -/
@[ext] structure Indi (α : Type) (n : ℕ) where
  pid : Pid α 3
  inertia : Mat 3 3 α
  mixerInv : Mat n 6 α
  thrust : Vec 3 α
  torque : Vec 3 α
  motVel : Vec n α

namespace Indi
variable {α : Type} [Flt α] {n : ℕ}

/-- Constructor — indi_controller.hpp:131-133 -/
def mk' (p : IndiParams α n) : Indi α n := ⟨Pid.mk' p.pid, p.inertia, p.mixerInv, vzero, vzero, vzero⟩

/-- `acro_to_motor_angular_velocity` — indi_controller.hpp:151-176 (`sqrt_keep_sign` there is the
text of utils.hpp) -/
def acroToMotor (c : Indi α n) (om : Vec 3 α) (thrust : α) (omDes : Vec 3 α) (dt : α) :
    Indi α n × Vec n α :=
  let e := Pid.getError om omDes
  let r := c.pid.computeControl dt e
  let torque := vadd (mv c.inertia r.2) (cross omDes (mv c.inertia omDes))
  let th : Vec 3 α := ![lit 0, lit 0, thrust]
  let desired : Vec 6 α := ![th 0, th 1, th 2, torque 0, torque 1, torque 2]
  let w := sqrtKeepSign (mv c.mixerInv desired)
  ({ c with pid := r.1, torque := torque, thrust := th, motVel := w }, w)

/-- `update_params` — indi_controller.hpp:183-203 -/
def updateParams (p : IndiParams α n) (c : Indi α n) : Indi α n :=
  { c with inertia := p.inertia, mixerInv := p.mixerInv, pid := c.pid.updateParams p.pid }

/-- inherited `reset_controller` -/
def reset (c : Indi α n) : Indi α n := { c with pid := c.pid.reset }

/-- `compute_quadrotor_mixer_matrix_inverse` — indi_controller.hpp:278-306 -/
def mixerInverse (M : Mat 6 4 α) : Mat 4 6 α :=
  let M4 : Mat 4 4 α := fun r i => M (Fin.natAdd 2 r) i
  let inv := inv4 M4
  fun i j => (![lit 0, lit 0, inv i 0, inv i 1, inv i 2, inv i 3] : Vec 6 α) j

end Indi

/-- `controller::ControllerParams` — multirotor_controllers.hpp:57-79 -/
structure CtlParams (α : Type) (n : ℕ) where
  acro : AcroParams α
  indi : IndiParams α n
  pos : PidParams α 3
  traj : PidParams α 3
  vel : PidParams α 3

/-- Data members of `controller::Controller` — multirotor_controllers.hpp:590-602.  The position,
trajectory and velocity controllers are `PID`s without further data. -/
@[ext] structure Ctl (α : Type) (n : ℕ) where
  acro : Acro α
  indi : Indi α n
  pos : Pid α 3
  traj : Pid α 3
  vel : Pid α 3
  desPos : Vec 3 α
  desVel : Vec 3 α
  desAcc : Vec 3 α
  desThrust : α
  desAngVel : Vec 3 α
  desMotVel : Vec n α

namespace Ctl
variable {α : Type} [Flt α] {n : ℕ}

/-- Constructor — multirotor_controllers.hpp:116-137 -/
def mk' (p : CtlParams α n) : Ctl α n where
  acro := Acro.mk' p.acro
  indi := Indi.mk' p.indi
  pos := Pid.mk' p.pos
  traj := Pid.mk' p.traj
  vel := Pid.mk' p.vel
  desPos := vzero
  desVel := vzero
  desAcc := vzero
  desThrust := lit 0
  desAngVel := vzero
  desMotVel := vzero

/-- `convert_linear_acceleration_to_acro` — multirotor_controllers.hpp:172-193 -/
def accelerationToAcro (c : Ctl α n) (a : Vec 3 α) (R : Mat 3 3 α) (yaw : α) :
    Ctl α n × (α × Vec 3 α) :=
  let tw := c.acro.accelerationToThrust a
  let r := c.acro.yawAngleToAngularVelocity R yaw tw
  let c := { c with acro := r.1 }
  let tb := dot tw (normalized fun i => R i 2)
  (c, if lt tb (lit 0) then (lit 0, vzero) else (tb, r.2))

/-- `convert_acro_to_motor_angular_velocity` — multirotor_controllers.hpp:151-159 -/
def convertAcro (c : Ctl α n) (om : Vec 3 α) (thrust : α) (omDes : Vec 3 α) (dt : α) :
    Ctl α n × Vec n α :=
  let r := c.indi.acroToMotor om thrust omDes dt
  ({ c with indi := r.1 }, r.2)

/-- `convert_trajectory_to_linear_acceleration` — multirotor_controllers.hpp:207-217 (with
trajectory_controller.hpp:113-128) -/
def convertTrajectory (c : Ctl α n) (pos vel pd vd ad : Vec 3 α) (dt : α) : Ctl α n × Vec 3 α :=
  let r := c.traj.computeControlD dt (Pid.getError pos pd) (Pid.getError vel vd)
  ({ c with traj := r.1 }, vadd r.2 ad)

/-- `convert_linear_velocity_to_linear_acceleration` — multirotor_controllers.hpp:228-235 (with
velocity_controller.hpp:108-118) -/
def convertVelocity (c : Ctl α n) (vel vd : Vec 3 α) (dt : α) : Ctl α n × Vec 3 α :=
  let r := c.vel.computeControl dt (Pid.getError vel vd)
  ({ c with vel := r.1 }, r.2)

/-- `convert_position_to_linear_velocity` — multirotor_controllers.hpp:246-252 (with
position_controller.hpp:108-118) -/
def convertPosition (c : Ctl α n) (pos pd : Vec 3 α) (dt : α) : Ctl α n × Vec 3 α :=
  let r := c.pos.computeControl dt (Pid.getError pos pd)
  ({ c with pos := r.1 }, r.2)

/-- `compute_acro_control` — multirotor_controllers.hpp:264-273 -/
def acroControl (c : Ctl α n) (om : Vec 3 α) (thrust : α) (omDes : Vec 3 α) (dt : α) :
    Ctl α n × Vec n α :=
  let c := { c with desAngVel := omDes, desThrust := thrust }
  let r := c.convertAcro om c.desThrust c.desAngVel dt
  ({ r.1 with desMotVel := r.2 }, r.2)

/-- `compute_acceleration_control` — multirotor_controllers.hpp:275-286 -/
def accelerationControl (c : Ctl α n) (R : Mat 3 3 α) (om a : Vec 3 α) (yaw dt : α) :
    Ctl α n × Vec n α :=
  let c := { c with desAcc := a }
  let r := c.accelerationToAcro c.desAcc R yaw
  let c := { r.1 with desThrust := r.2.1, desAngVel := r.2.2 }
  let q := c.acroControl om c.desThrust c.desAngVel dt
  ({ q.1 with desMotVel := q.2 }, q.2)

/-- `compute_trajectory_control` — multirotor_controllers.hpp:303-321 -/
def trajectoryControl (c : Ctl α n) (pos vel : Vec 3 α) (R : Mat 3 3 α) (om pd vd ad : Vec 3 α)
    (yaw dt : α) : Ctl α n × Vec n α :=
  let c := { c with desPos := pd, desVel := vd }
  let r := c.convertTrajectory pos vel pd vd ad dt
  let c := { r.1 with desAcc := r.2 }
  let q := c.accelerationControl R om c.desAcc yaw dt
  ({ q.1 with desMotVel := q.2 }, q.2)

/-- `compute_velocity_control` — multirotor_controllers.hpp:335-348 -/
def velocityControl (c : Ctl α n) (vel : Vec 3 α) (R : Mat 3 3 α) (om vd : Vec 3 α) (yaw dt : α) :
    Ctl α n × Vec n α :=
  let c := { c with desVel := vd }
  let r := c.convertVelocity vel vd dt
  let c := { r.1 with desAcc := r.2 }
  let q := c.accelerationControl R om c.desAcc yaw dt
  ({ q.1 with desMotVel := q.2 }, q.2)

/-- `compute_position_control` — multirotor_controllers.hpp:362-376 -/
def positionControl (c : Ctl α n) (pos : Vec 3 α) (R : Mat 3 3 α) (vel om pd : Vec 3 α) (yaw dt : α) :
    Ctl α n × Vec n α :=
  let c := { c with desPos := pd }
  let r := c.convertPosition pos pd dt
  let c := { r.1 with desVel := r.2 }
  let q := c.velocityControl vel R om c.desVel yaw dt
  ({ q.1 with desMotVel := q.2 }, q.2)

/-- `reset_controller` — multirotor_controllers.hpp:381-386 -/
def reset (c : Ctl α n) : Ctl α n :=
  { c with indi := c.indi.reset, pos := c.pos.reset, traj := c.traj.reset, vel := c.vel.reset }

/-- `update_params` — multirotor_controllers.hpp:393-448 -/
def updateParams (p : CtlParams α n) (c : Ctl α n) : Ctl α n :=
  { c with
    acro := c.acro.updateParams p.acro
    indi := c.indi.updateParams p.indi
    pos := c.pos.updateParams p.pos
    traj := c.traj.updateParams p.traj
    vel := c.vel.updateParams p.vel }

/-- `yaw_rate_to_angle` — multirotor_controllers.hpp:458-464 -/
def yawRateToAngle (c : Ctl α n) (yaw rate : α) : α :=
  let kp := c.acro.kpRot 2 2
  if beq kp (lit 0) then yaw else yaw ⊞ rate ⊘ kp

end Ctl

/-- All public mutating calls of `controller::Controller`.  The calls from `acroThrust` on are the ones
reachable through the non-const reference getters — multirotor_controllers.hpp:473-533. -/
inductive CtlOp (α : Type) (n : ℕ) where
  | acro (om : Vec 3 α) (thrust : α) (omDes : Vec 3 α) (dt : α)
  | acceleration (R : Mat 3 3 α) (om a : Vec 3 α) (yaw dt : α)
  | trajectory (pos vel : Vec 3 α) (R : Mat 3 3 α) (om pd vd ad : Vec 3 α) (yaw dt : α)
  | velocity (vel : Vec 3 α) (R : Mat 3 3 α) (om vd : Vec 3 α) (yaw dt : α)
  | position (pos : Vec 3 α) (R : Mat 3 3 α) (vel om pd : Vec 3 α) (yaw dt : α)
  | convertAcro (om : Vec 3 α) (thrust : α) (omDes : Vec 3 α) (dt : α)
  | convertAcceleration (a : Vec 3 α) (R : Mat 3 3 α) (yaw : α)
  | convertTrajectory (pos vel pd vd ad : Vec 3 α) (dt : α)
  | convertVelocity (vel vd : Vec 3 α) (dt : α)
  | convertPosition (pos pd : Vec 3 α) (dt : α)
  | yawRateToAngle (yaw rate : α)
  | reset
  | updateParams (p : CtlParams α n)
  | updateAcro (p : AcroParams α)
  | updateIndi (p : IndiParams α n)
  | updatePos (p : PidParams α 3)
  | updateTraj (p : PidParams α 3)
  | updateVel (p : PidParams α 3)
  | acroThrust (a : Vec 3 α)
  | acroRate (R : Mat 3 3 α) (yaw : α) (thrust : Vec 3 α)
  | setMass (m : α)
  | setGravity (g : Vec 3 α)
  | setKpRot (k : Mat 3 3 α)
  | setInertia (i : Mat 3 3 α)
  | setMixerInv (m : Mat n 6 α)
  | posPid (o : PidOp α 3)
  | trajPid (o : PidOp α 3)
  | velPid (o : PidOp α 3)
  | indiPid (o : PidOp α 3)

/-- What a call returns. -/
inductive CtlOut (α : Type) (n : ℕ) where
  | none
  | motors (w : Vec n α)
  | vec (v : Vec 3 α)
  | scalar (a : α)
  | acro (thrust : α) (w : Vec 3 α)

namespace Ctl
variable {α : Type} [Flt α] {n : ℕ}

/-- What a PID call returns. -/
def pidOut : Option (Vec 3 α) → CtlOut α n
  | .none => .none
  | .some v => .vec v

/-- Effect of one public call. -/
def step (c : Ctl α n) : CtlOp α n → Ctl α n × CtlOut α n
  | .acro om t od dt => let r := c.acroControl om t od dt; (r.1, .motors r.2)
  | .acceleration R om a yaw dt => let r := c.accelerationControl R om a yaw dt; (r.1, .motors r.2)
  | .trajectory p v R om pd vd ad yaw dt =>
    let r := c.trajectoryControl p v R om pd vd ad yaw dt; (r.1, .motors r.2)
  | .velocity v R om vd yaw dt => let r := c.velocityControl v R om vd yaw dt; (r.1, .motors r.2)
  | .position p R v om pd yaw dt => let r := c.positionControl p R v om pd yaw dt; (r.1, .motors r.2)
  | .convertAcro om t od dt => let r := c.convertAcro om t od dt; (r.1, .motors r.2)
  | .convertAcceleration a R yaw => let r := c.accelerationToAcro a R yaw; (r.1, .acro r.2.1 r.2.2)
  | .convertTrajectory p v pd vd ad dt =>
    let r := c.convertTrajectory p v pd vd ad dt; (r.1, .vec r.2)
  | .convertVelocity v vd dt => let r := c.convertVelocity v vd dt; (r.1, .vec r.2)
  | .convertPosition p pd dt => let r := c.convertPosition p pd dt; (r.1, .vec r.2)
  | .yawRateToAngle y r => (c, .scalar (c.yawRateToAngle y r))
  | .reset => (c.reset, .none)
  | .updateParams p => (c.updateParams p, .none)
  | .updateAcro p => ({ c with acro := c.acro.updateParams p }, .none)
  | .updateIndi p => ({ c with indi := c.indi.updateParams p }, .none)
  | .updatePos p => ({ c with pos := c.pos.updateParams p }, .none)
  | .updateTraj p => ({ c with traj := c.traj.updateParams p }, .none)
  | .updateVel p => ({ c with vel := c.vel.updateParams p }, .none)
  | .acroThrust a => (c, .vec (c.acro.accelerationToThrust a))
  | .acroRate R yaw t =>
    let r := c.acro.yawAngleToAngularVelocity R yaw t; ({ c with acro := r.1 }, .vec r.2)
  | .setMass m => ({ c with acro := { c.acro with mass := m } }, .none)
  | .setGravity g => ({ c with acro := { c.acro with gravity := g } }, .none)
  | .setKpRot k => ({ c with acro := { c.acro with kpRot := k } }, .none)
  | .setInertia i => ({ c with indi := { c.indi with inertia := i } }, .none)
  | .setMixerInv m => ({ c with indi := { c.indi with mixerInv := m } }, .none)
  | .posPid o => let r := c.pos.step o; ({ c with pos := r.1 }, pidOut r.2)
  | .trajPid o => let r := c.traj.step o; ({ c with traj := r.1 }, pidOut r.2)
  | .velPid o => let r := c.vel.step o; ({ c with vel := r.1 }, pidOut r.2)
  | .indiPid o =>
    let r := c.indi.pid.step o; ({ c with indi := { c.indi with pid := r.1 } }, pidOut r.2)

/-- Run a history, collecting what the calls returned. -/
def run (c : Ctl α n) : List (CtlOp α n) → Ctl α n × List (CtlOut α n)
  | [] => (c, [])
  | o :: os =>
    let r := c.step o
    let t := run r.1 os
    (t.1, r.2 :: t.2)

end Ctl

end Verif
