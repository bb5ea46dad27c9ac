import Verif.Model.Example
import Verif.Real
import Mathlib.Algebra.Order.Floor.Semiring

/-!
# Specifications about the example flights
-/

namespace Verif.Spec

open Verif Flt Example

variable {n : ℕ}

/-- Simulated time of a history: the sum of the steps of its dynamics updates. -/
noncomputable def simTime : List (SimOp ℝ n) → ℝ
  | [] => 0
  | .updateDynamics dt :: os => dt + simTime os
  | _ :: os => simTime os

/-- The calls a flight makes: updates, choice of the mode, references. -/
def FlightCall : SimOp ℝ n → Prop
  | .updateDynamics dt => 0 < dt
  | .updateController _ => True
  | .updateImu _ => True
  | .updateOdom _ => True
  | .setControlMode _ _ => True
  | .setRefMot _ => True
  | .setRefAcro _ _ => True
  | .setRefTrajectory _ _ _ => True
  | .setRefVel _ => True
  | .setRefPos _ => True
  | .setRefYaw _ => True
  | .setRefYawRate _ => True
  | _ => False

/-- `s` can be reached from `s₀` by calls of a flight that simulate the time `τ`. -/
def FlownTo [Noise ℝ] (s₀ : Sim ℝ n) (τ : ℝ) (s : Sim ℝ n) : Prop :=
  ∃ os, Sim.Runs s₀ os s ∧ (∀ o ∈ os, FlightCall o) ∧ simTime os = τ

/-- The list of references of a flight is not empty (if it has one). -/
def HasReferences : Flight ℝ → Prop
  | .velocity refs => refs ≠ []
  | .position refs => refs ≠ []
  | .positionYawRate refs _ => refs ≠ []
  | _ => True

/-- Number of passes of a flight of `T` seconds with steps of `dt`. -/
noncomputable def passes (T dt : ℝ) : ℕ := ⌈T / dt⌉₊

/-- Number of lines before the first pass. -/
def startLines : Flight ℝ → ℕ
  | .arm => 0
  | _ => 1

/-- Number of passes for which a reference is kept (once it is set) when `T` seconds are shared between `N`
references: the first multiple of `dt` above `T / N`. -/
noncomputable def period (T dt : ℝ) (N : ℕ) : ℕ := ⌊T / N / dt⌋₊ + 1

/-- The reference of the flight in force is the `i`-th of its list (if it has one). -/
def ShowsReference : Flight ℝ → ℕ → Sim ℝ 4 → Prop
  | .velocity refs, i, s => refs[i]? = some s.refVel
  | .position refs, i, s => refs[i]? = some s.refPos
  | .positionYawRate refs _, i, s => refs[i]? = some s.refPos
  | _, _, _ => True

/-- Number of references of a flight. -/
def references : Flight ℝ → ℕ
  | .velocity refs => refs.length
  | .position refs => refs.length
  | .positionYawRate refs _ => refs.length
  | _ => 0

end Verif.Spec
