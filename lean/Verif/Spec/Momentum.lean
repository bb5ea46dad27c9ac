import Verif.Spec.Model

/-!
# Specification vocabulary for angular momentum
-/

namespace Verif.Spec

open Verif

/-- Axis of a rotor in the body frame. -/
noncomputable def rotorAxis (m : Motor ℝ) : Vec 3 ℝ := m.rot.mulVec ![0, 0, 1]

/-- Angular momentum of a rotor at speed `w` relative to the body, in the body frame.  Rotation direction 1 is
clockwise (model.hpp:70), against the axis. -/
noncomputable def rotorMomentum (m : Motor ℝ) (w : ℝ) : Vec 3 ℝ := (-(m.dir * m.inertia * w)) • rotorAxis m

/-- Torque of the air on a rotor at speed `w`: lever arm of the thrust and reaction against the rotation. -/
noncomputable def airTorque (m : Motor ℝ) (w : ℝ) : Vec 3 ℝ :=
  crossProduct m.pos ((m.kf * (w * |w|)) • rotorAxis m) + (m.dir * m.kt * (w * |w|)) • rotorAxis m

/-- Torque of the air on the body turning at `om`. -/
noncomputable def bodyAirTorque (p : ModelParams ℝ) (om : Vec 3 ℝ) : Vec 3 ℝ := -(√(om ⬝ᵥ om) • p.aero.mulVec om)

/-- Angular momentum of body and rotors about the body's vertical axis. -/
noncomputable def yawMomentum {n : ℕ} (p : ModelParams ℝ) (ms : Fin n → Motor ℝ) (s : State ℝ n) : ℝ :=
  p.inertia.mulVec s.angVel 2 + ∑ i, rotorMomentum (ms i) (s.motVel i) 2

/-- Torque of the air about that axis. -/
noncomputable def yawAirTorque {n : ℕ} (p : ModelParams ℝ) (ms : Fin n → Motor ℝ) (s : State ℝ n) : ℝ :=
  ∑ i, airTorque (ms i) (s.motVel i) 2 + bodyAirTorque p s.angVel 2

end Verif.Spec
