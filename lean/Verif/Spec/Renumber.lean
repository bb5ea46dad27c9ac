import Verif.Spec.Sim

/-!
# Another numbering of the rotors

What the same simulator, the same call and the same parameters look like when the rotor that was number `σ i` gets the
number `i`.  Only what carries one entry per rotor changes.
-/

namespace Verif.Spec

open Verif

variable {α : Type} {n : ℕ} (σ : Equiv.Perm (Fin n))

/-- One entry per rotor. -/
def renumVec (v : Vec n α) : Vec n α := fun i => v (σ i)

/-- One column per rotor. -/
def renumCols {m : ℕ} (M : Mat m n α) : Mat m n α := fun r i => M r (σ i)

/-- One row per rotor. -/
def renumRows {m : ℕ} (M : Mat n m α) : Mat n m α := fun i r => M (σ i) r

/-- The list of rotors, if it has the right length. -/
def renumList {β : Type} (l : List β) : List β :=
  if h : l.length = n then List.ofFn fun i : Fin n => l.get ((σ i).cast h.symm) else l

/-- Vehicle parameters. -/
def renumModelParams (p : ModelParams α) : ModelParams α := { p with motors := renumList σ p.motors }

/-- The state of the vehicle. -/
def renumState (s : State α n) : State α n := { s with motVel := renumVec σ s.motVel, motAcc := renumVec σ s.motAcc }

/-- The data derived from the vehicle parameters. -/
def renumCore (c : ModelCore α n) : ModelCore α n where
  params := renumModelParams σ c.params
  mixForceVec := renumVec σ c.mixForceVec
  mixForce := renumCols σ c.mixForce
  mixTorque := renumCols σ c.mixTorque
  mixInertia := renumCols σ c.mixInertia

/-- The vehicle model. -/
def renumModel (m : Model α n) : Model α n :=
  { m with core := m.core.map (renumCore σ), mixerMatrix := m.mixerMatrix.map (renumRows σ) }

/-- The vehicle. -/
def renumDyn (d : Dyn α n) : Dyn α n := ⟨renumModel σ d.model, renumState σ d.state⟩

/-- Vehicle parameters with initial state. -/
def renumDynParams (p : DynParams α n) : DynParams α n :=
  { p with model := renumModelParams σ p.model, state := renumState σ p.state }

/-- Controller parameters: the rows of the allocation matrix. -/
def renumCtlParams (p : CtlParams α n) : CtlParams α n :=
  { p with indi := { p.indi with mixerInv := renumRows σ p.indi.mixerInv } }

/-- The controller. -/
def renumCtl (c : Ctl α n) : Ctl α n :=
  { c with
    indi := { c.indi with mixerInv := renumRows σ c.indi.mixerInv, motVel := renumVec σ c.indi.motVel }
    desMotVel := renumVec σ c.desMotVel }

/-- Simulator parameters. -/
def renumSimParams (p : SimParams α n) : SimParams α n :=
  { p with dyn := renumDynParams σ p.dyn, ctl := renumCtlParams σ p.ctl }

/-- The simulator. -/
def renumSim (s : Sim α n) : Sim α n :=
  { s with
    dyn := renumDyn σ s.dyn
    ctl := renumCtl σ s.ctl
    refMot := renumVec σ s.refMot
    actuation := renumVec σ s.actuation }

/-- A call.  Access through a reference getter is expressed in the new numbers. -/
def renumOp : SimOp α n → SimOp α n
  | .setRefMot w => .setRefMot (renumVec σ w)
  | .setDynParams p => .setDynParams (renumDynParams σ p)
  | .setCtlParams p => .setCtlParams (renumCtlParams σ p)
  | .mutDyn f => .mutDyn fun d => renumDyn σ (f (renumDyn σ.symm d))
  | .mutCtl f => .mutCtl fun c => renumCtl σ (f (renumCtl σ.symm c))
  | o => o

/-- A recorded call. -/
def renumEvent (e : Event α n) : Event α n := ⟨renumSim σ e.before, renumOp σ e.op, e.threw⟩

end Verif.Spec
