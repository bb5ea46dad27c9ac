import Verif.Real
import Verif.Model.Model
import Mathlib.LinearAlgebra.Matrix.PosDef

/-!
# Specification vocabulary for the physical model
-/

namespace Verif.Spec

open Verif Flt

/-- Public calls that change a model. -/
inductive ModelOp (α : Type) where
  | update (p : ModelParams α)
  | noise (dt : α)
  | disable

/-- One call on a model; `none` = undefined behaviour or failing assertion. -/
def ModelOp.run {α : Type} [Flt α] [Noise α] {n : ℕ} (m : Model α n) : ModelOp α → Option (Model α n)
  | .update p => m.updateParams p
  | .noise dt => m.core.map fun c => m.setNoise c dt
  | .disable => some m.disableNoise

/-- A history of calls on a model. -/
def runModel {α : Type} [Flt α] [Noise α] {n : ℕ} (m : Model α n) :
    List (ModelOp α) → Option (Model α n)
  | [] => some m
  | o :: os => (o.run m).bind fun m' => runModel m' os

/-- The acceptance conditions written out: no listed quantity compares below its bound. -/
def Accepted {α : Type} [Flt α] (p : ModelParams α) : Prop :=
  lt p.mass (lit 0) = false ∧ lt (det3 p.inertia) (lit 0) = false ∧ lt p.drag (lit 0) = false ∧
  lt (det3 p.aero) (lit 0) = false ∧
  ∀ m ∈ p.motors, lt m.maxSpeed m.minSpeed = false ∧ lt m.tau (lit 0) = false ∧
    lt m.inertia (lit 0) = false ∧ lt m.kf (lit 0) = false ∧ lt m.kt (lit 0) = false

/-- The parameters given by the updates of a history, in order. -/
def updatesOf {α : Type} : List (ModelOp α) → List (ModelParams α)
  | [] => []
  | .update p :: os => p :: updatesOf os
  | _ :: os => updatesOf os

/-- A physically meaningful parameter set. -/
def Meaningful (p : ModelParams ℝ) : Prop :=
  0 < p.mass ∧ Matrix.PosDef p.inertia ∧ 0 ≤ p.drag ∧ Matrix.PosSemidef p.aero ∧
  ∀ m ∈ p.motors, m.minSpeed ≤ m.maxSpeed ∧ 0 < m.tau ∧ 0 ≤ m.inertia ∧ 0 ≤ m.kf ∧ 0 ≤ m.kt

/-- Thrust of one rotor at speed `w`, in the body frame. -/
noncomputable def rotorForce (m : Motor ℝ) (w : ℝ) : Vec 3 ℝ :=
  m.rot.mulVec ![0, 0, m.kf * (w * |w|)]

/-- Torque of one rotor about the body origin: lever arm, propeller reaction and rotor inertia. -/
noncomputable def rotorTorque (m : Motor ℝ) (w wd : ℝ) : Vec 3 ℝ :=
  crossProduct m.pos (rotorForce m w) + m.rot.mulVec ![0, 0, m.dir * m.kt * (w * |w|)] +
    m.rot.mulVec ![0, 0, m.dir * m.inertia * wd]

/-- /repo/docs/CommonConfigurations.md, "Quadrotor X Configuration" -/
def docQuadX (kf kt dx dy : ℝ) : Mat 4 4 ℝ :=
  !![kf, kf, kf, kf;
     -dy * kf, dy * kf, dy * kf, -dy * kf;
     -dx * kf, -dx * kf, dx * kf, dx * kf;
     kt, -kt, kt, -kt]

/-- /repo/docs/CommonConfigurations.md, "Quadrotor + Configuration" -/
def docQuadPlus (kf kt dx dy : ℝ) : Mat 4 4 ℝ :=
  !![kf, kf, kf, kf;
     0, dy * kf, 0, -dy * kf;
     -dx * kf, 0, dx * kf, 0;
     kt, -kt, kt, -kt]

/-- /repo/docs/CommonConfigurations.md, "Hexarotor Configuration" -/
noncomputable def docHexa (kf kt r : ℝ) : Mat 4 6 ℝ :=
  !![kf, kf, kf, kf, kf, kf;
     -r * kf, -(1 / 2) * r * kf, 0, (1 / 2) * r * kf, r * kf, (1 / 2) * r * kf;
     0, √3 / 2 * r * kf, √3 / 2 * r * kf, 0, -(√3 / 2) * r * kf, -(√3 / 2) * r * kf;
     kt, -kt, kt, -kt, kt, -kt]

/-- The mixer of a regular hexacopter with the first arm on the x axis, alternating directions. -/
noncomputable def regularHexa (kf kt r : ℝ) : Mat 4 6 ℝ := fun row i =>
  (![kf, r * Real.sin (i.val * (Real.pi / 3)) * kf, -(r * Real.cos (i.val * (Real.pi / 3)) * kf),
    (-1) ^ i.val * kt] : Vec 4 ℝ) row

end Verif.Spec
