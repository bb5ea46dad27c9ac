import Verif.Spec.Sim

/-!
# Specification: which calls of the simulator reach which part

Controller, IMU and odometry are objects of their own.  The simulator only passes calls on to them, with values taken from
the vehicle, the references and the other parts, and replaces a part when it is given new parameters for it.
-/

namespace Verif.Spec

open Verif Flt

/-- What can happen to a part: one of its calls, its replacement by another object, an access through the reference the
simulator hands out. -/
inductive Message (C O : Type) where
  | call (o : O)
  | replaced (c : C)
  | access (f : C → C)

/-- A part after some messages. -/
def deliver {C O : Type} (step : C → O → C) : C → List (Message C O) → C
  | c, [] => c
  | c, .call o :: ms => deliver step (step c o) ms
  | _, .replaced c' :: ms => deliver step c' ms
  | c, .access f :: ms => deliver step (f c) ms

section
variable {α : Type} [Flt α] [Noise α] {n : ℕ}

/-- All messages of a history ending with `t`; `f` says which those of one call are, knowing the simulator after it. -/
def received {M : Type} (f : Event α n → Sim α n → List M) : List (Event α n) → Sim α n → List M
  | [], _ => []
  | [e], t => f e t
  | e :: e' :: tr, t => f e e'.before ++ received f (e' :: tr) t

/-- Did the call let the vehicle touch the floor? -/
def touchesDown (e : Event α n) (after : Sim α n) : Bool :=
  match e.op with
  | .updateDynamics _ => !e.threw && after.floorCollision
  | _ => false

/-- Messages to the IMU: the measurement of the force in the vehicle frame and of the angular velocity, a reset on floor
contact. -/
def toImu (e : Event α n) (after : Sim α n) : List (Message (Imu α) (ImuOp α)) :=
  match e.op with
  | .updateImu dt =>
    [.call (.update dt (e.before.dyn.state.ori.rotate e.before.dyn.state.force) e.before.dyn.state.angVel)]
  | .setImuParams p => [.replaced (Imu.mk' p)]
  | .mutImu f => [.access f]
  | _ => if touchesDown e after then [.call .reset] else []

/-- Messages to the odometry: the readings of the IMU, on floor contact a restart with the orientation of the vehicle. -/
def toOdom (e : Event α n) (after : Sim α n) : List (Message (Odom α) (OdomOp α)) :=
  match e.op with
  | .updateOdom dt => [.call (.update e.before.imu.gyro e.before.imu.accel dt)]
  | .setOdomParams p => (Odom.mk' p).toList.map .replaced
  | .mutOdom f => [.access f]
  | _ => if touchesDown e after then [.call (.setInitialOrientation after.dyn.state.ori), .call .reset] else []

/-- Messages to the controller: in an armed vehicle the control call of the mode, with the state of the vehicle and the
references. -/
def toController (e : Event α n) (after : Sim α n) : List (Message (Ctl α n) (CtlOp α n)) :=
  match e.op with
  | .updateController dt =>
    let s := e.before
    let v := s.dyn.state
    if s.armed then
      match s.mode with
      | .motorW => []
      | .acro => [.call (.acro v.angVel s.refThrust s.refAngVel dt)]
      | .trajectory =>
        [.call (.trajectory v.pos v.vel v.ori.toMat v.angVel s.refPos s.refVel s.refAcc after.refYaw dt)]
      | .velocity => [.call (.velocity v.vel v.ori.toMat v.angVel s.refVel after.refYaw dt)]
      | .position | .hover => [.call (.position v.pos v.ori.toMat v.vel v.angVel s.refPos after.refYaw dt)]
    else []
  | .setCtlParams p => [.replaced (Ctl.mk' p)]
  | .mutCtl f => [.access f]
  | _ => []

/-! What each call writes into the switches of the simulator. -/

/-- Armed? -/
def writesArmed (e : Event α n) : Option Bool :=
  match e.op with
  | .arm => some true
  | .disarm => some false
  | _ => none

/-- Floor enabled? -/
def writesFloorEnable (e : Event α n) : Option Bool :=
  match e.op with
  | .enableFloor _ => some true
  | .disableFloor => some false
  | _ => none

/-- Height of the floor. -/
def writesFloorHeight (e : Event α n) : Option α :=
  match e.op with
  | .enableFloor h => some h
  | _ => none

/-- Control mode. -/
def writesMode (e : Event α n) : Option (Mode × YawMode) :=
  match e.op with
  | .setControlMode m y => some (m, y)
  | _ => none

/-- What a call other than an update of the dynamics makes of the vehicle. -/
def newVehicle (e : Event α n) : Option (Dyn α n) :=
  match e.op with
  | .setDynParams p => Dyn.mk' p
  | .mutDyn f => some (f e.before.dyn)
  | _ => none

end

end Verif.Spec
