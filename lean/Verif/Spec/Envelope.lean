import Verif.Spec.Sim
import Verif.Spec.Dyn
import Verif.Real

/-!
# What a vehicle can do at most
-/

namespace Verif.Spec

open Verif Flt

variable {n : ℕ}

/-- Length of a vector. -/
noncomputable def len (v : Vec 3 ℝ) : ℝ := √(v ⬝ᵥ v)

/-- The largest thrust of a rotor within its limits of speed. -/
noncomputable def strongest (m : Motor ℝ) : ℝ :=
  |m.kf| * max (m.minSpeed ^ 2) (m.maxSpeed ^ 2) * len (m.rot.mulVec ![0, 0, 1])

/-- The largest thrust of all rotors together. -/
noncomputable def topThrust (ms : Fin n → Motor ℝ) : ℝ := ∑ i, strongest (ms i)

/-- The largest steady force along axis `i`: thrust of all rotors, gravity as the dynamics apply it, and the force with
which the simulator supports a vehicle that it finds below the floor. -/
noncomputable def topForce (p : ModelParams ℝ) (ms : Fin n → Motor ℝ) (i : Fin 3) : ℝ :=
  topThrust ms + max 1 |1 - p.mass| * |p.gravity i|

/-- Calls that replace the vehicle or manipulate it directly. -/
def rebuilds : SimOp ℝ n → Bool
  | .setDynParams _ => true
  | .mutDyn _ => true
  | _ => false

/-- The time that a call simulates: updates longer than 0.01 s are split into steps of 0.01 s. -/
noncomputable def callTime (e : Event ℝ n) : ℝ :=
  match e.op, e.threw with
  | .updateDynamics dt, false => if dt ≤ 1 / 100 then dt else (⌈100 * dt⌉₊ : ℝ) / 100
  | _, _ => 0

/-- The time simulated during a history. -/
noncomputable def flightTime (tr : List (Event ℝ n)) : ℝ := (tr.map callTime).sum

end Verif.Spec
