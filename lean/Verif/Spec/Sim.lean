import Verif.Model.Simulator

/-!
# Specifications about call histories of the simulator
-/

namespace Verif.Spec

open Verif Flt

section
variable {α : Type} [Flt α] [Noise α] {n : ℕ}

/-- One call of a recorded history: the object before the call, the call, and whether it threw. -/
structure Event (α : Type) (n : ℕ) where
  before : Sim α n
  op : SimOp α n
  threw : Bool

/-- Recorded histories: the user may catch an exception and go on. -/
inductive Trace : Sim α n → List (Event α n) → Sim α n → Prop where
  | nil (s) : Trace s [] s
  | ok {s s' t o tr} : s.step o = .ok s' → Trace s' tr t → Trace s (⟨s, o, false⟩ :: tr) t
  | throw {s s' t o tr} : s.step o = .throw s' → Trace s' tr t → Trace s (⟨s, o, true⟩ :: tr) t

/-- Value of a register after a history: the last value written, the initial one if there is none.
`w` tells what a call writes. -/
def lastWrite {β : Type} (w : Event α n → Option β) (init : β) : List (Event α n) → β
  | [] => init
  | e :: tr => lastWrite w ((w e).getD init) tr

/-- Does the call actually change the control mode? -/
def changesMode (s : Sim α n) (m : Mode) (y : YawMode) : Bool :=
  !(decide (s.mode = m) && decide (s.yawMode = y))

/-! What each call writes into each reference. -/

/-- Rotor speed reference. -/
def writesMot (e : Event α n) : Option (Vec n α) :=
  match e.op with
  | .setRefMot w => some w
  | _ => none

/-- Thrust reference. -/
def writesThrust (e : Event α n) : Option α :=
  match e.op with
  | .setRefAcro t _ => some t
  | .arm => some (lit (981 / 100))
  | .setControlMode m y => if changesMode e.before m y then some (lit 0) else none
  | _ => none

/-- Angular velocity reference. -/
def writesAngVel (e : Event α n) : Option (Vec 3 α) :=
  match e.op with
  | .setRefAcro _ w => some w
  | .arm => some vzero
  | .setControlMode m y => if changesMode e.before m y then some vzero else none
  | _ => none

/-- Position reference: arming only replaces its height by the floor height. -/
def writesPos (e : Event α n) : Option (Vec 3 α) :=
  match e.op with
  | .setRefPos p => some p
  | .setRefTrajectory p _ _ => some p
  | .arm => some ![e.before.refPos 0, e.before.refPos 1, e.before.floorHeight]
  | .setControlMode m y => if changesMode e.before m y then some e.before.dyn.state.pos else none
  | _ => none

/-- Velocity reference. -/
def writesVel (e : Event α n) : Option (Vec 3 α) :=
  match e.op with
  | .setRefVel v => some v
  | .setRefTrajectory _ v _ => some v
  | .setControlMode m y => if changesMode e.before m y then some vzero else none
  | _ => none

/-- Acceleration reference. -/
def writesAcc (e : Event α n) : Option (Vec 3 α) :=
  match e.op with
  | .setRefTrajectory _ _ a => some a
  | .setControlMode m y => if changesMode e.before m y then some vzero else none
  | _ => none

/-- Current yaw of the vehicle. -/
def yawOf (s : Sim α n) : α := (quatToEuler s.dyn.state.ori).2.2

/-- Yaw to aim at for turning with a given rate: the proportional attitude law with gain `kp` turns the
lead `rate / kp` into the rate. -/
def leadYaw (yaw rate kp : α) : α := if beq kp (lit 0) then yaw else yaw ⊞ rate ⊘ kp

/-- Yaw reference. -/
def writesYaw (e : Event α n) : Option α :=
  match e.op with
  | .setRefYaw y => some y
  | .setControlMode m y => if changesMode e.before m y then some (yawOf e.before) else none
  | .updateController _ =>
    if e.before.armed && decide (e.before.yawMode = .rate) then
      some (leadYaw (yawOf e.before) e.before.refYawRate (e.before.ctl.acro.kpRot 2 2))
    else none
  | _ => none

/-- Yaw rate reference. -/
def writesYawRate (e : Event α n) : Option α :=
  match e.op with
  | .setRefYawRate y => some y
  | _ => none

/-- Calls that concern only the IMU or the odometry. -/
def isSensor : SimOp α n → Bool
  | .updateImu _ => true
  | .updateOdom _ => true
  | .setImuParams _ => true
  | .setOdomParams _ => true
  | .mutImu _ => true
  | .mutOdom _ => true
  | _ => false

/-- Equal in everything but the IMU and the odometry. -/
def SameFlight (s t : Sim α n) : Prop :=
  s.dyn = t.dyn ∧ s.ctl = t.ctl ∧ s.armed = t.armed ∧ s.floorEnable = t.floorEnable ∧
  s.floorCollision = t.floorCollision ∧ s.floorHeight = t.floorHeight ∧ s.refMot = t.refMot ∧
  s.refThrust = t.refThrust ∧ s.refAngVel = t.refAngVel ∧ s.refPos = t.refPos ∧
  s.refVel = t.refVel ∧ s.refAcc = t.refAcc ∧ s.refYaw = t.refYaw ∧ s.refYawRate = t.refYawRate ∧
  s.actuation = t.actuation ∧ s.extForce = t.extForce ∧ s.mode = t.mode ∧ s.yawMode = t.yawMode

/-- The calls between two dynamics updates. -/
inductive Tick (α : Type) where
  | controller (dt : α)
  | imu (dt : α)
  | odom (dt : α)

/-- The API call. -/
def Tick.op : Tick α → SimOp α n
  | .controller dt => .updateController dt
  | .imu dt => .updateImu dt
  | .odom dt => .updateOdom dt

/-- Is it the controller? -/
def Tick.isController : Tick α → Bool
  | .controller _ => true
  | _ => false

end

end Verif.Spec
