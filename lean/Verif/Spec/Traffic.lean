import Verif.Spec.Ctl
import Verif.Spec.PidScalar

/-!
# Specification: which calls reach which control loop

A call of the controller is passed on to its loops.  The demand of an outer loop is the reference of the next inner one;
it is taken from what the controller reports after the call.
-/

namespace Verif.Spec

open Verif Flt

section
variable {α : Type} [Flt α] {n : ℕ}

/-- Reference minus measurement. -/
def deviation (ref is : Vec 3 α) : Vec 3 α := fun i => ref i ⊟ is i

/-- The calls that reach the position loop. -/
def toPosition (o : CtlOp α n) : List (PidOp α 3) :=
  match o with
  | .position pos _ _ _ pd _ dt => [.control dt (deviation pd pos)]
  | .convertPosition pos pd dt => [.control dt (deviation pd pos)]
  | .reset => [.reset]
  | .updateParams p => [.updateParams p.pos]
  | .updatePos p => [.updateParams p]
  | .posPid q => [q]
  | _ => []

/-- The calls that reach the trajectory loop. -/
def toTrajectory (o : CtlOp α n) : List (PidOp α 3) :=
  match o with
  | .trajectory pos vel _ _ pd vd _ _ dt => [.controlD dt (deviation pd pos) (deviation vd vel)]
  | .convertTrajectory pos vel pd vd _ dt => [.controlD dt (deviation pd pos) (deviation vd vel)]
  | .reset => [.reset]
  | .updateParams p => [.updateParams p.traj]
  | .updateTraj p => [.updateParams p]
  | .trajPid q => [q]
  | _ => []

/-- The calls that reach the velocity loop, if `v` is the velocity demanded meanwhile. -/
def toVelocity (v : Vec 3 α) (o : CtlOp α n) : List (PidOp α 3) :=
  match o with
  | .position _ _ vel _ _ _ dt => [.control dt (deviation v vel)]
  | .velocity vel _ _ vd _ dt => [.control dt (deviation vd vel)]
  | .convertVelocity vel vd dt => [.control dt (deviation vd vel)]
  | .reset => [.reset]
  | .updateParams p => [.updateParams p.vel]
  | .updateVel p => [.updateParams p]
  | .velPid q => [q]
  | _ => []

/-- The calls that reach the rate loop, if `w` are the rates demanded meanwhile. -/
def toRate (w : Vec 3 α) (o : CtlOp α n) : List (PidOp α 3) :=
  match o with
  | .acro om _ od dt => [.control dt (deviation od om)]
  | .convertAcro om _ od dt => [.control dt (deviation od om)]
  | .acceleration _ om _ _ dt => [.control dt (deviation w om)]
  | .trajectory _ _ _ om _ _ _ _ dt => [.control dt (deviation w om)]
  | .velocity _ _ om _ _ dt => [.control dt (deviation w om)]
  | .position _ _ _ om _ _ dt => [.control dt (deviation w om)]
  | .reset => [.reset]
  | .updateParams p => [.updateParams p.indi.pid]
  | .updateIndi p => [.updateParams p.pid]
  | .indiPid q => [q]
  | _ => []

/-- All calls of a history that reach a loop; `f` says which those of one call are, knowing the controller after it. -/
def reaching (f : Ctl α n → CtlOp α n → List (PidOp α 3)) : Ctl α n → List (CtlOp α n) → List (PidOp α 3)
  | _, [] => []
  | c, o :: os => f (c.step o).1 o ++ reaching f (c.step o).1 os

/-- What each call writes: the mass. -/
def writesMass : CtlOp α n → Option α
  | .updateParams p => some p.acro.mass
  | .updateAcro p => some p.mass
  | .setMass m => some m
  | _ => none

/-- ... gravity. -/
def writesGravity : CtlOp α n → Option (Vec 3 α)
  | .updateParams p => some p.acro.gravity
  | .updateAcro p => some p.gravity
  | .setGravity g => some g
  | _ => none

/-- ... the gains of the attitude loop. -/
def writesKpRot : CtlOp α n → Option (Mat 3 3 α)
  | .updateParams p => some p.acro.kpRot
  | .updateAcro p => some p.kpRot
  | .setKpRot k => some k
  | _ => none

/-- ... the inertia. -/
def writesInertia : CtlOp α n → Option (Mat 3 3 α)
  | .updateParams p => some p.indi.inertia
  | .updateIndi p => some p.inertia
  | .setInertia j => some j
  | _ => none

/-- ... the allocation matrix. -/
def writesMixer : CtlOp α n → Option (Mat n 6 α)
  | .updateParams p => some p.indi.mixerInv
  | .updateIndi p => some p.mixerInv
  | .setMixerInv m => some m
  | _ => none

/-- What a call returns, given the controller before and after it. -/
def answer (c c' : Ctl α n) (o : CtlOp α n) : CtlOut α n :=
  match o with
  | .acro .. | .acceleration .. | .trajectory .. | .velocity .. | .position .. => .motors c'.desMotVel
  | .convertAcro .. => .motors c'.indi.motVel
  | .convertAcceleration a R _ =>
    let f : Vec 3 α := fun i => (a i ⊟ c.acro.gravity i) ⊠ c.acro.mass
    let t := dot f (normalized fun i => R i 2)
    if lt t (lit 0) then .acro (lit 0) vzero else .acro t c'.acro.angVel
  | .convertTrajectory _ _ _ _ ad _ => .vec fun i => c'.traj.output i ⊞ ad i
  | .convertVelocity .. => .vec c'.vel.output
  | .convertPosition .. => .vec c'.pos.output
  | .yawRateToAngle y r => .scalar (if beq (c.acro.kpRot 2 2) (lit 0) then y else y ⊞ r ⊘ c.acro.kpRot 2 2)
  | .acroThrust a => .vec fun i => (a i ⊟ c.acro.gravity i) ⊠ c.acro.mass
  | .acroRate .. => .vec c'.acro.angVel
  | .posPid (.control ..) | .posPid (.controlD ..) => .vec c'.pos.output
  | .trajPid (.control ..) | .trajPid (.controlD ..) => .vec c'.traj.output
  | .velPid (.control ..) | .velPid (.controlD ..) => .vec c'.vel.output
  | .indiPid (.control ..) | .indiPid (.controlD ..) => .vec c'.indi.pid.output
  | _ => .none

end

end Verif.Spec
