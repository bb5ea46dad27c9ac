import Verif.Spec.Sim
import Verif.Real

/-!
# What a flight may remember

Specification vocabulary for C110: two simulators in the same situation, moments at which the control
loops ought to start afresh, tunings without memory.
-/

namespace Verif.Spec

open Verif Flt

section
variable {α : Type} [Flt α] [Noise α] {n : ℕ}

/-- Calls that reach into the controller: replacement of its parameters and use of the reference handed
out by `get_controller`. -/
def reachesController : SimOp α n → Bool
  | .setCtlParams _ => true
  | .mutCtl _ => true
  | _ => false

/-- Same vehicle in the same state, same mode, same references, same last command: equal in all members
but the controller object and the two sensors. -/
structure SameSituation (s t : Sim α n) : Prop where
  dyn : s.dyn = t.dyn
  armed : s.armed = t.armed
  floorEnable : s.floorEnable = t.floorEnable
  floorCollision : s.floorCollision = t.floorCollision
  floorHeight : s.floorHeight = t.floorHeight
  refMot : s.refMot = t.refMot
  refThrust : s.refThrust = t.refThrust
  refAngVel : s.refAngVel = t.refAngVel
  refPos : s.refPos = t.refPos
  refVel : s.refVel = t.refVel
  refAcc : s.refAcc = t.refAcc
  refYaw : s.refYaw = t.refYaw
  refYawRate : s.refYawRate = t.refYawRate
  actuation : s.actuation = t.actuation
  extForce : s.extForce = t.extForce
  mode : s.mode = t.mode
  yawMode : s.yawMode = t.yawMode

/-- The simulator has just entered its mode: the last call was a `set_control_mode` that changed the
mode. -/
def EntersMode (s₀ : Sim α n) (os : List (SimOp α n)) (s : Sim α n) : Prop :=
  ∃ os' b m y, os = os' ++ [.setControlMode m y] ∧ s₀.Runs os' b ∧ changesMode b m y = true ∧
    b.step (.setControlMode m y) = .ok s

/-- The vehicle has just been armed again: the last two calls were `disarm` and `arm`. -/
def Rearmed (s₀ : Sim α n) (os : List (SimOp α n)) (s : Sim α n) : Prop :=
  ∃ os', os = os' ++ [.disarm, .arm] ∧ s₀.Runs os s

/-- From here on the two simulators fly alike: whatever is called on one can be called on the other and
leads to the same situation. -/
def FlyAlike (s t : Sim α n) : Prop :=
  ∀ later : List (SimOp α n), (∀ o ∈ later, reachesController o = false) →
    ∀ s', s.Runs later s' → ∃ t', t.Runs later t' ∧ SameSituation s' t'

end

/-- A tuning whose loops have nothing to remember: no integral action anywhere, and no derivative action
in the loops that differentiate their error themselves.  (The trajectory loop is given the derivative.) -/
structure Proportional {n : ℕ} (p : CtlParams ℝ n) : Prop where
  rateI : p.indi.pid.ki = 0
  rateD : p.indi.pid.kd = 0
  posI : p.pos.ki = 0
  posD : p.pos.kd = 0
  velI : p.vel.ki = 0
  velD : p.vel.kd = 0
  trajI : p.traj.ki = 0

end Verif.Spec
