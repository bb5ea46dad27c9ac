import Verif.Spec.DynRun
import Verif.Spec.Quat
import Mathlib.Analysis.SpecialFunctions.Trigonometric.Basic

/-!
# The same situation seen by an observer who faces another direction
-/

namespace Verif.Spec

open Verif

/-- A world vector turned about the vertical. -/
noncomputable def turnVec (θ : ℝ) (v : Vec 3 ℝ) : Vec 3 ℝ :=
  ![Real.cos θ * v 0 - Real.sin θ * v 1, Real.sin θ * v 0 + Real.cos θ * v 1, v 2]

/-- `r` is the orientation `q` turned about the vertical: the quaternion product with the turn. -/
def IsTurned (θ : ℝ) (q r : Quat ℝ) : Prop :=
  toH r = toH ⟨Real.cos (θ / 2), 0, 0, Real.sin (θ / 2)⟩ * toH q

/-- The vehicle turned about the vertical through the origin: world vectors and the orientation are
turned, body vectors (angular velocity and acceleration, torque) and rotors are not. -/
structure Turned {n : ℕ} (θ : ℝ) (d e : Dyn ℝ n) : Prop where
  model : e.model = d.model
  pos : e.state.pos = turnVec θ d.state.pos
  vel : e.state.vel = turnVec θ d.state.vel
  acc : e.state.acc = turnVec θ d.state.acc
  force : e.state.force = turnVec θ d.state.force
  ori : IsTurned θ d.state.ori e.state.ori
  angVel : e.state.angVel = d.state.angVel
  angAcc : e.state.angAcc = d.state.angAcc
  torque : e.state.torque = d.state.torque
  motVel : e.state.motVel = d.state.motVel
  motAcc : e.state.motAcc = d.state.motAcc

/-- The same update with the external force turned. -/
noncomputable def turnCall {n : ℕ} (θ : ℝ) (c : DynCall ℝ n) : DynCall ℝ n := { c with ext := turnVec θ c.ext }

end Verif.Spec
