import Verif.Model.Dynamics
import Verif.Model.Imu
import Verif.Model.Controllers

/-!
# `Simulator` — /repo/multirotor_simulator/multirotor_simulator.hpp
-/

namespace Verif

open Flt

/-- `ControlMode` — multirotor_simulator.hpp:55 -/
inductive Mode where
  | hover | motorW | acro | trajectory | velocity | position
  deriving DecidableEq, Repr

/-- `YawControlMode` — multirotor_simulator.hpp:64 -/
inductive YawMode where
  | angle | rate
  deriving DecidableEq, Repr

/-- `SimulatorParams` — multirotor_simulator.hpp:72-88 -/
structure SimParams (α : Type) (n : ℕ) where
  dyn : DynParams α n
  ctl : CtlParams α n
  imu : ImuParams α
  odom : OdomParams α

/-- Data members of `Simulator` — multirotor_simulator.hpp:600-633 -/
@[ext] structure Sim (α : Type) (n : ℕ) where
  dyn : Dyn α n
  ctl : Ctl α n
  imu : Imu α
  odom : Odom α
  armed : Bool
  floorEnable : Bool
  floorCollision : Bool
  floorHeight : α
  refMot : Vec n α
  refThrust : α
  refAngVel : Vec 3 α
  refPos : Vec 3 α
  refVel : Vec 3 α
  refAcc : Vec 3 α
  refYaw : α
  refYawRate : α
  actuation : Vec n α
  extForce : Vec 3 α
  mode : Mode
  yawMode : YawMode

namespace Sim
variable {α : Type} [Flt α] [Noise α] {n : ℕ}

/-- Constructor — multirotor_simulator.hpp:123-127, 600-633; `none` = failing assertion in a member
constructor. -/
def mk' (p : SimParams α n) : Option (Sim α n) :=
  match Dyn.mk' p.dyn, Odom.mk' p.odom with
  | some d, some o => some
    { dyn := d
      ctl := Ctl.mk' p.ctl
      imu := Imu.mk' p.imu
      odom := o
      armed := false
      floorEnable := false
      floorCollision := false
      floorHeight := lit 0
      refMot := vzero
      refThrust := lit 0
      refAngVel := vzero
      refPos := vzero
      refVel := vzero
      refAcc := vzero
      refYaw := lit 0
      refYawRate := lit 0
      actuation := vzero
      extForce := vzero
      mode := .motorW
      yawMode := .angle }
  | _, _ => none

/-- `floor_collision_enable_ && position.z() < floor_height_` — multirotor_simulator.hpp:139, 147 -/
def belowFloor (s : Sim α n) : Bool := s.floorEnable && lt (s.dyn.state.pos 2) s.floorHeight

/-- The reset of the vehicle, IMU and odometry on floor contact —
multirotor_simulator.hpp:148-165 -/
def collide (s : Sim α n) : Sim α n :=
  let old := s.dyn.state
  let st : State α n := State.default
  let st := { st with pos := old.pos }
  let st := { st with pos := fun i => if i = 2 then s.floorHeight else st.pos i }
  let st := { st with ori := old.ori }
  let st := { st with force := old.force, torque := old.torque }
  let st := { st with motVel := old.motVel, motAcc := old.motAcc }
  let d := s.dyn.setState st
  { s with
    floorCollision := true
    dyn := d
    imu := s.imu.reset
    odom := (s.odom.setInitialOrientation d.state.ori).reset }

/-- `update_dynamics` — multirotor_simulator.hpp:138-167 -/
def updateDynamics (s : Sim α n) (dt : α) : Res (Sim α n) :=
  let ext : Option (Vec 3 α) :=
    if s.belowFloor then
      match s.dyn.model.core with
      | none => none
      | some c => some (smulR (vneg c.params.gravity) c.params.mass)
    else some s.extForce
  match ext with
  | none => .bad
  | some ext =>
    let s := { s with extForce := ext }
    match s.dyn.process s.actuation dt s.extForce (!s.floorCollision) with
    | .bad => .bad
    | .throw d => .throw { s with dyn := d }
    | .ok d =>
      let s := { s with dyn := d }
      let s := { s with extForce := vzero }
      let s := { s with floorCollision := false }
      if s.belowFloor then .ok s.collide else .ok s

/-- `update_yaw_reference_with_yaw_rate` — multirotor_simulator.hpp:591-597 -/
def updateYawReference (s : Sim α n) : Sim α n :=
  { s with refYaw := s.ctl.yawRateToAngle (quatToEuler s.dyn.state.ori).2.2 s.refYawRate }

/-- `update_controller` — multirotor_simulator.hpp:174-236 -/
def updateController (s : Sim α n) (dt : α) : Sim α n :=
  if !s.armed then { s with actuation := vzero }
  else
    let s := if s.yawMode = .rate then s.updateYawReference else s
    let st := s.dyn.state
    match s.mode with
    | .motorW => { s with actuation := s.refMot }
    | .acro =>
      let r := s.ctl.acroControl st.angVel s.refThrust s.refAngVel dt
      { s with ctl := r.1, actuation := r.2 }
    | .trajectory =>
      let r := s.ctl.trajectoryControl st.pos st.vel st.ori.toMat st.angVel s.refPos s.refVel s.refAcc
        s.refYaw dt
      { s with ctl := r.1, actuation := r.2 }
    | .velocity =>
      let r := s.ctl.velocityControl st.vel st.ori.toMat st.angVel s.refVel s.refYaw dt
      { s with ctl := r.1, actuation := r.2 }
    | .position =>
      let r := s.ctl.positionControl st.pos st.ori.toMat st.vel st.angVel s.refPos s.refYaw dt
      { s with ctl := r.1, actuation := r.2 }
    | .hover =>
      let r := s.ctl.positionControl st.pos st.ori.toMat st.vel st.angVel s.refPos s.refYaw dt
      { s with ctl := r.1, actuation := r.2 }

/-- `update_imu` — multirotor_simulator.hpp:243-248 -/
def updateImu (s : Sim α n) (dt : α) : Sim α n :=
  { s with imu := s.imu.update dt (s.dyn.state.ori.rotate s.dyn.state.force) s.dyn.state.angVel }

/-- `update_inertial_odometry` — multirotor_simulator.hpp:255-257 -/
def updateOdom (s : Sim α n) (dt : α) : Sim α n :=
  { s with odom := s.odom.update s.imu.gyro s.imu.accel dt }

/-- `arm` — multirotor_simulator.hpp:265-270 -/
def arm (s : Sim α n) : Sim α n :=
  { s with
    armed := true
    refThrust := lit (981 / 100)
    refAngVel := vzero
    refPos := fun i => if i = 2 then s.floorHeight else s.refPos i }

/-- `disarm` — multirotor_simulator.hpp:276-279 -/
def disarm (s : Sim α n) : Sim α n := { s with actuation := vzero, armed := false }

/-- `enable_floor_collision` — multirotor_simulator.hpp:286-290 -/
def enableFloor (h : α) (s : Sim α n) : Sim α n :=
  { s with floorEnable := true, floorHeight := h, extForce := vzero }

/-- `disable_floor_collision` — multirotor_simulator.hpp:296-299 -/
def disableFloor (s : Sim α n) : Sim α n := { s with floorEnable := false, extForce := vzero }

/-- `set_control_mode` — multirotor_simulator.hpp:308-325 -/
def setControlMode (m : Mode) (y : YawMode) (s : Sim α n) : Sim α n :=
  if s.mode = m ∧ s.yawMode = y then s
  else
    { s with
      mode := m
      yawMode := y
      refPos := s.dyn.state.pos
      refYaw := (quatToEuler s.dyn.state.ori).2.2
      refVel := vzero
      refAcc := vzero
      refThrust := lit 0
      refAngVel := vzero }

/-- `set_refence_motors_angular_velocity` — multirotor_simulator.hpp:332-335 -/
def setRefMot (w : Vec n α) (s : Sim α n) : Sim α n := { s with refMot := w }
/-- `set_reference_acro` — multirotor_simulator.hpp:343-347 -/
def setRefAcro (t : α) (w : Vec 3 α) (s : Sim α n) : Sim α n := { s with refThrust := t, refAngVel := w }
/-- `set_reference_trajectory` — multirotor_simulator.hpp:357-363 -/
def setRefTrajectory (p v a : Vec 3 α) (s : Sim α n) : Sim α n :=
  { s with refPos := p, refVel := v, refAcc := a }
/-- `set_reference_velocity` — multirotor_simulator.hpp:371-373 -/
def setRefVel (v : Vec 3 α) (s : Sim α n) : Sim α n := { s with refVel := v }
/-- `set_reference_position` — multirotor_simulator.hpp:381-383 -/
def setRefPos (p : Vec 3 α) (s : Sim α n) : Sim α n := { s with refPos := p }
/-- `set_reference_yaw_angle` — multirotor_simulator.hpp:390-392 -/
def setRefYaw (y : α) (s : Sim α n) : Sim α n := { s with refYaw := y }
/-- `set_reference_yaw_rate` — multirotor_simulator.hpp:399-401 -/
def setRefYawRate (y : α) (s : Sim α n) : Sim α n := { s with refYawRate := y }

/-- `set_dynamics_params` — multirotor_simulator.hpp:548-550 -/
def setDynParams (p : DynParams α n) (s : Sim α n) : Res (Sim α n) :=
  match Dyn.mk' p with
  | none => .bad
  | some d => .ok { s with dyn := d }
/-- `set_controller_params` — multirotor_simulator.hpp:557-559 -/
def setCtlParams (p : CtlParams α n) (s : Sim α n) : Sim α n := { s with ctl := Ctl.mk' p }
/-- `set_imu_params` — multirotor_simulator.hpp:566 -/
def setImuParams (p : ImuParams α) (s : Sim α n) : Sim α n := { s with imu := Imu.mk' p }
/-- `set_inertial_odometry_params` — multirotor_simulator.hpp:573-575 -/
def setOdomParams (p : OdomParams α) (s : Sim α n) : Res (Sim α n) :=
  match Odom.mk' p with
  | none => .bad
  | some o => .ok { s with odom := o }

end Sim

/-- All public mutating calls of `Simulator`.  The four non-const reference getters
(multirotor_simulator.hpp:467, 488, 509, 532) let the user apply any operation to the component: an
arbitrary function. -/
inductive SimOp (α : Type) (n : ℕ) where
  | updateDynamics (dt : α)
  | updateController (dt : α)
  | updateImu (dt : α)
  | updateOdom (dt : α)
  | arm
  | disarm
  | enableFloor (h : α)
  | disableFloor
  | setControlMode (m : Mode) (y : YawMode)
  | setRefMot (w : Vec n α)
  | setRefAcro (t : α) (w : Vec 3 α)
  | setRefTrajectory (p v a : Vec 3 α)
  | setRefVel (v : Vec 3 α)
  | setRefPos (p : Vec 3 α)
  | setRefYaw (y : α)
  | setRefYawRate (y : α)
  | setDynParams (p : DynParams α n)
  | setCtlParams (p : CtlParams α n)
  | setImuParams (p : ImuParams α)
  | setOdomParams (p : OdomParams α)
  | mutDyn (f : Dyn α n → Dyn α n)
  | mutCtl (f : Ctl α n → Ctl α n)
  | mutImu (f : Imu α → Imu α)
  | mutOdom (f : Odom α → Odom α)

namespace Sim
variable {α : Type} [Flt α] [Noise α] {n : ℕ}

/-- Outcome of one public call. -/
def step (s : Sim α n) : SimOp α n → Res (Sim α n)
  | .updateDynamics dt => s.updateDynamics dt
  | .updateController dt => .ok (s.updateController dt)
  | .updateImu dt => .ok (s.updateImu dt)
  | .updateOdom dt => .ok (s.updateOdom dt)
  | .arm => .ok s.arm
  | .disarm => .ok s.disarm
  | .enableFloor h => .ok (s.enableFloor h)
  | .disableFloor => .ok s.disableFloor
  | .setControlMode m y => .ok (s.setControlMode m y)
  | .setRefMot w => .ok (s.setRefMot w)
  | .setRefAcro t w => .ok (s.setRefAcro t w)
  | .setRefTrajectory p v a => .ok (s.setRefTrajectory p v a)
  | .setRefVel v => .ok (s.setRefVel v)
  | .setRefPos p => .ok (s.setRefPos p)
  | .setRefYaw y => .ok (s.setRefYaw y)
  | .setRefYawRate y => .ok (s.setRefYawRate y)
  | .setDynParams p => s.setDynParams p
  | .setCtlParams p => .ok (s.setCtlParams p)
  | .setImuParams p => .ok (s.setImuParams p)
  | .setOdomParams p => s.setOdomParams p
  | .mutDyn f => .ok { s with dyn := f s.dyn }
  | .mutCtl f => .ok { s with ctl := f s.ctl }
  | .mutImu f => .ok { s with imu := f s.imu }
  | .mutOdom f => .ok { s with odom := f s.odom }

/-- Run a history.  The user may catch an exception and go on with the object as it is; a `bad`
outcome ends the execution. -/
inductive Runs : Sim α n → List (SimOp α n) → Sim α n → Prop where
  | nil (s) : Runs s [] s
  | ok {s s' t o os} : s.step o = .ok s' → Runs s' os t → Runs s (o :: os) t
  | throw {s s' t o os} : s.step o = .throw s' → Runs s' os t → Runs s (o :: os) t

end Sim

end Verif
