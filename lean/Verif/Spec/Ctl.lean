import Verif.Spec.Pid
import Verif.Model.Controllers

/-!
# Specification vocabulary for the flight controller
-/

namespace Verif.Spec

open Verif

section
variable {α : Type} {n : ℕ}

/-- Does the call only configure the controller (no control law is evaluated)? -/
def isCtlConfig : CtlOp α n → Bool
  | .reset => true
  | .updateParams _ => true
  | .updateAcro _ => true
  | .updateIndi _ => true
  | .updatePos _ => true
  | .updateTraj _ => true
  | .updateVel _ => true
  | .setMass _ => true
  | .setGravity _ => true
  | .setKpRot _ => true
  | .setInertia _ => true
  | .setMixerInv _ => true
  | .posPid o => isConfig o
  | .trajPid o => isConfig o
  | .velPid o => isConfig o
  | .indiPid o => isConfig o
  | _ => false

/-- Everything a PID remembers between control calls. -/
structure SameMemory (p q : Pid α n) : Prop where
  firstRun : p.firstRun = q.firstRun
  integral : p.integral = q.integral
  filtered : p.filtered = q.filtered
  propErr : p.propErr = q.propErr
  derivErr : p.derivErr = q.derivErr
  propContrib : p.propContrib = q.propContrib
  intContrib : p.intContrib = q.intContrib
  derivContrib : p.derivContrib = q.derivContrib
  output : p.output = q.output

/-- All gains and flags, and the limits that are in force. -/
structure SameTuning (p q : Pid α n) : Prop where
  kp : p.kpMat = q.kpMat
  ki : p.kiMat = q.kiMat
  kd : p.kdMat = q.kdMat
  antiwindup : p.antiwindup = q.antiwindup
  alpha : p.alpha = q.alpha
  resetIntegral : p.resetIntegral = q.resetIntegral
  propSat : p.propSat = q.propSat
  satFlag : p.satFlag = q.satFlag
  limits : p.satFlag = true → p.upper = q.upper ∧ p.lower = q.lower

end

end Verif.Spec
