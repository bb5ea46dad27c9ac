import Verif.Spec.Quat
import Verif.Spec.Model
import Verif.Model.Dynamics

/-!
# Rigid-body equations used as specification

/repo/docs/Dynamics.md and /repo/docs/Kinematics.md
-/

namespace Verif.Spec

open Verif

/-- Saturation. -/
noncomputable def saturate (lo hi x : ℝ) : ℝ := max lo (min hi x)

/-- `s'` is the explicit Euler step of the rigid body with rotors from `s`, under the total force `F`
(world frame) and the total torque `M` (body frame, gyroscopic term included).  Mass, inertia and time
constants appear as factors, not as divisors.  /repo/docs/Kinematics.md -/
structure RigidEuler {n : ℕ} (p : ModelParams ℝ) (ms : Fin n → Motor ℝ) (s s' : State ℝ n)
    (act : Vec n ℝ) (dt : ℝ) (F M : Vec 3 ℝ) : Prop where
  pos : s'.pos = s.pos + dt • s.vel
  vel : s'.vel = s.vel + dt • s'.acc
  newton : p.mass • s'.acc = F
  force : s'.force = F
  ori_unit : IsUnitQ s'.ori
  ori : ∃ k : ℝ, 0 < k ∧ toH s'.ori = k • (toH s.ori + (dt / 2) • (toH s.ori * pureH s.angVel))
  angVel : s'.angVel = s.angVel + dt • s'.angAcc
  euler : p.inertia.mulVec s'.angAcc = M
  torque : s'.torque = M
  motAcc : ∀ i, (ms i).tau * s'.motAcc i = saturate (ms i).minSpeed (ms i).maxSpeed (act i) - s.motVel i
  motVel : ∀ i, s'.motVel i =
    saturate (ms i).minSpeed (ms i).maxSpeed (s.motVel i + dt * s'.motAcc i)

/-- `r` is the thrust of all rotors in the world frame. -/
def IsThrust {n : ℕ} (ms : Fin n → Motor ℝ) (s : State ℝ n) (r : Vec 3 ℝ) : Prop :=
  IsRotated s.ori (∑ i, rotorForce (ms i) (s.motVel i)) r

/-- `r` is the documented drag: quadratic in the body velocity, rotated to the world frame.
/repo/docs/Dynamics.md section 3.1.2 -/
def IsDocDrag {n : ℕ} (k : ℝ) (s : State ℝ n) (r : Vec 3 ℝ) : Prop :=
  ∃ vB, IsRotated s.ori vB s.vel ∧ IsRotated s.ori (fun i => -k * (vB i * |vB i|)) r

/-- Documented total force.  /repo/docs/Dynamics.md section 3.1 -/
def DocForce {n : ℕ} (p : ModelParams ℝ) (ms : Fin n → Motor ℝ) (s : State ℝ n) (noise ext F : Vec 3 ℝ) :
    Prop :=
  ∃ T D, IsThrust ms s T ∧ IsDocDrag p.drag s D ∧ F = T + p.mass • p.gravity + D + noise + ext

/-- Documented total torque, gyroscopic term included.  /repo/docs/Dynamics.md section 3.2,
/repo/docs/Kinematics.md section 2 -/
def DocTorque {n : ℕ} (p : ModelParams ℝ) (ms : Fin n → Motor ℝ) (s s' : State ℝ n) (noise M : Vec 3 ℝ) :
    Prop :=
  M = ∑ i, rotorTorque (ms i) (s.motVel i) (s'.motAcc i) +
    -crossProduct s.angVel (p.aero.mulVec s.angVel) + noise -
    crossProduct s.angVel (p.inertia.mulVec s.angVel)

end Verif.Spec
