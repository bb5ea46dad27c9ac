import Verif.Model.Simulator

/-!
# References that the mode in force does not read
-/

namespace Verif.Spec

open Verif Flt

section
variable {α : Type} [Flt α] [Noise α] {n : ℕ}

/-- Modes that steer towards a position. -/
def steersPosition (m : Mode) : Prop := m = .position ∨ m = .hover ∨ m = .trajectory

/-- Modes that steer towards a velocity given by the user. -/
def steersVelocity (m : Mode) : Prop := m = .velocity ∨ m = .trajectory

/-- Modes that steer the heading. -/
def steersHeading (m : Mode) : Prop := steersPosition m ∨ steersVelocity m

/-- The call only writes references that are not for the modes in force. -/
def IdleCall (m : Mode) (y : YawMode) : SimOp α n → Prop
  | .setRefMot _ => m ≠ .motorW
  | .setRefAcro _ _ => m ≠ .acro
  | .setRefTrajectory _ _ _ => ¬ steersPosition m ∧ ¬ steersVelocity m
  | .setRefVel _ => ¬ steersVelocity m
  | .setRefPos _ => ¬ steersPosition m
  | .setRefYaw _ => ¬ (steersHeading m ∧ y = .angle)
  | .setRefYawRate _ => ¬ (steersHeading m ∧ y = .rate)
  | _ => False

/-- References that a change of mode leaves as they are. -/
def staysThrough : SimOp α n → Prop
  | .setRefMot _ => True
  | .setRefYawRate _ => True
  | _ => False

/-- A change of mode. -/
def isModeCall : SimOp α n → Prop
  | .setControlMode _ _ => True
  | _ => False

/-- Everything but the references is equal. -/
structure SameButRefs (s t : Sim α n) : Prop where
  dyn : t.dyn = s.dyn
  ctl : t.ctl = s.ctl
  imu : t.imu = s.imu
  odom : t.odom = s.odom
  armed : t.armed = s.armed
  floorEnable : t.floorEnable = s.floorEnable
  floorCollision : t.floorCollision = s.floorCollision
  floorHeight : t.floorHeight = s.floorHeight
  actuation : t.actuation = s.actuation
  extForce : t.extForce = s.extForce
  mode : t.mode = s.mode
  yawMode : t.yawMode = s.yawMode

/-- A history `os` from `s` to `t`, and the same history `os'` with further calls `extra` in between. -/
inductive Woven (extra : Mode → YawMode → SimOp α n → Prop) :
    Sim α n → List (SimOp α n) → List (SimOp α n) → Sim α n → Prop where
  | nil (s) : Woven extra s [] [] s
  | more {s t o os os'} : extra s.mode s.yawMode o → Woven extra s os os' t → Woven extra s os (o :: os') t
  | ok {s s' t o os os'} : s.step o = .ok s' → Woven extra s' os os' t → Woven extra s (o :: os) (o :: os') t
  | throw {s s' t o os os'} : s.step o = .throw s' → Woven extra s' os os' t → Woven extra s (o :: os) (o :: os') t

end

end Verif.Spec
