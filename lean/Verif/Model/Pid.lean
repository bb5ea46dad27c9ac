import Verif.Linalg
import Mathlib.Data.List.FinRange

/-!
# `pid_controller::PID` — /repo/pid_controller/include/pid_controller/pid.hpp

The vector PID of dimension `n` (`dim`).  `verbose_` is not modelled.
-/

namespace Verif

open Flt

/-- `pid_controller::PIDParams` — pid.hpp:45-68 -/
@[ext] structure PidParams (α : Type) (n : ℕ) where
  kp : Vec n α
  ki : Vec n α
  kd : Vec n α
  antiwindup : Vec n α
  alpha : Vec n α
  resetIntegral : Bool
  propSat : Bool
  upper : Vec n α
  lower : Vec n α

/-- Default member initialisers of `PIDParams` — pid.hpp:54-67 -/
def PidParams.default {α : Type} [Flt α] {n : ℕ} : PidParams α n where
  kp := vzero
  ki := vzero
  kd := vzero
  antiwindup := vzero
  alpha := vones
  resetIntegral := false
  propSat := false
  upper := vzero
  lower := vzero

/-- Data members of `pid_controller::PID` — pid.hpp:104-131 -/
@[ext] structure Pid (α : Type) (n : ℕ) where
  kpMat : Mat n n α
  kiMat : Mat n n α
  kdMat : Mat n n α
  antiwindup : Vec n α
  alpha : Vec n α
  resetIntegral : Bool
  satFlag : Bool
  propSat : Bool
  upper : Vec n α
  lower : Vec n α
  firstRun : Bool
  integral : Vec n α
  filtered : Vec n α
  propErr : Vec n α
  derivErr : Vec n α
  propContrib : Vec n α
  intContrib : Vec n α
  derivContrib : Vec n α
  output : Vec n α

namespace Pid
variable {α : Type} [Flt α] {n : ℕ}

/-- Default member initialisers — pid.hpp:104-131 -/
def init : Pid α n where
  kpMat := mident
  kiMat := mident
  kdMat := mident
  antiwindup := vzero
  alpha := vzero
  resetIntegral := false
  satFlag := false
  propSat := false
  upper := vzero
  lower := vzero
  firstRun := true
  integral := vzero
  filtered := vzero
  propErr := vzero
  derivErr := vzero
  propContrib := vzero
  intContrib := vzero
  derivContrib := vzero
  output := vzero

/-- `set_gains` — pid.hpp:404-408 -/
def setGains (kp ki kd : Vec n α) (p : Pid α n) : Pid α n :=
  { p with kpMat := mdiag kp, kiMat := mdiag ki, kdMat := mdiag kd }
/-- `set_gains_kp` — pid.hpp:428 -/
def setKp (kp : Vec n α) (p : Pid α n) : Pid α n := { p with kpMat := mdiag kp }
/-- `set_gains_ki` — pid.hpp:442 -/
def setKi (ki : Vec n α) (p : Pid α n) : Pid α n := { p with kiMat := mdiag ki }
/-- `set_gains_kd` — pid.hpp:456 -/
def setKd (kd : Vec n α) (p : Pid α n) : Pid α n := { p with kdMat := mdiag kd }
/-- `set_anti_windup` — pid.hpp:474 -/
def setAntiWindup (a : Vec n α) (p : Pid α n) : Pid α n := { p with antiwindup := a }
/-- `set_alpha` — pid.hpp:495 -/
def setAlpha (a : Vec n α) (p : Pid α n) : Pid α n := { p with alpha := a }
/-- `set_reset_integral_saturation_flag` — pid.hpp:516-518 -/
def setResetIntegral (b : Bool) (p : Pid α n) : Pid α n := { p with resetIntegral := b }
/-- `set_proportional_saturation_flag` — pid.hpp:539-541 -/
def setPropSat (b : Bool) (p : Pid α n) : Pid α n := { p with propSat := b }
/-- `disable_output_saturation` — pid.hpp:205 -/
def disableSat (p : Pid α n) : Pid α n := { p with satFlag := false }
/-- `reset_controller` — pid.hpp:162 -/
def reset (p : Pid α n) : Pid α n := { p with firstRun := true }

/-- The `for` loop of `set_output_saturation` with its early returns, over the remaining axes;
the limits are stored inside the loop — pid.hpp:174-194 -/
def setSatLoop (u l : Vec n α) (prop : Bool) : List (Fin n) → Pid α n → Pid α n
  | [], p => { p with satFlag := true, propSat := prop }
  | i :: is, p =>
    if lt (abs (u i ⊟ l i)) eps then p.disableSat
    else if lt (u i) (l i) then p.disableSat
    else setSatLoop u l prop is { p with upper := u, lower := l }

/-- `set_output_saturation` — pid.hpp:171-195 -/
def setOutputSaturation (u l : Vec n α) (prop : Bool) (p : Pid α n) : Pid α n :=
  setSatLoop u l prop (List.finRange n) p

/-- Eigen `v != Vector::Zero()`: some coefficient compares unequal to zero. -/
def nonZero (v : Vec n α) : Bool := (List.finRange n).any fun j => !(beq (v j) (lit 0))

/-- `update_pid_params` — pid.hpp:141-155 -/
def updateParams (q : PidParams α n) (p : Pid α n) : Pid α n :=
  let p := ((((p.setGains q.kp q.ki q.kd).setAntiWindup q.antiwindup).setAlpha q.alpha).setResetIntegral
    q.resetIntegral).setPropSat q.propSat
  if nonZero q.lower || nonZero q.upper then p.setOutputSaturation q.upper q.lower q.propSat
  else p.disableSat

/-- Constructor — pid.hpp:92-97 -/
def mk' (q : PidParams α n) : Pid α n := (init.updateParams q).reset

/-- `get_params` — pid.hpp:386-395 -/
def getParams (p : Pid α n) : PidParams α n where
  kp := mdiagonal p.kpMat
  ki := mdiagonal p.kiMat
  kd := mdiagonal p.kdMat
  antiwindup := p.antiwindup
  alpha := p.alpha
  resetIntegral := p.resetIntegral
  propSat := p.propSat
  upper := p.upper
  lower := p.lower

/-- `get_error(state, reference)` — pid.hpp:214-217 -/
def getError (state reference : Vec n α) : Vec n α := vsub reference state

/-- One iteration of the proportional branch of `saturate_output` — pid.hpp:367-375 -/
def propSatStep (u l : Vec n α) (s : Vec n α) (j : Fin n) : Vec n α :=
  let factor := if lt (u j) (s j) then u j ⊘ s j
    else if lt (s j) (l j) then l j ⊘ s j else lit 1
  smulL factor s

/-- `saturate_output` — pid.hpp:347-378 -/
def saturateOutput (out u l : Vec n α) (prop : Bool) : Vec n α :=
  if !prop then
    fun j => if lt (u j) (out j) then u j else if lt (out j) (l j) then l j else out j
  else (List.finRange n).foldl (propSatStep u l) out

/-- The reset part of `compute_integral_contribution` on one axis — pid.hpp:631-639 -/
def resetAxis (flag : Bool) (acc aw e : α) : α :=
  if flag && lt aw (abs acc) && (signbit acc != signbit e) then lit 0 else acc

/-- New accumulator in `compute_integral_contribution` — pid.hpp:631-648 -/
def accumulate (p : Pid α n) (dt : α) (e : Vec n α) : Vec n α :=
  let acc := fun j => resetAxis p.resetIntegral (p.integral j) (p.antiwindup j) (e j)
  let acc := vadd acc (smulR e dt)
  if nonZero p.antiwindup then
    saturateOutput acc p.antiwindup (smulL (lit (-1)) p.antiwindup) false
  else acc

/-- `compute_integral_contribution` — pid.hpp:628-653: new object and returned contribution. -/
def computeIntegral (p : Pid α n) (dt : α) (e : Vec n α) : Pid α n × Vec n α :=
  let acc := p.accumulate dt e
  ({ p with integral := acc }, mv p.kiMat acc)

/-- `compute_derivative_contribution` — pid.hpp:686-690 -/
def computeDerivative (p : Pid α n) (de : Vec n α) : Vec n α := mv p.kdMat de

/-- `compute_derivative_contribution_by_deriving` — pid.hpp:662-674 -/
def computeDerivativeByDeriving (p : Pid α n) (dt : α) (e : Vec n α) : Pid α n × Vec n α :=
  let inc := sdiv (vsub e p.propErr) dt
  let f := vadd (vmul p.alpha inc) (vmul (vsub vones p.alpha) p.filtered)
  let p := { p with filtered := f }
  (p, p.computeDerivative f)

/-- First-run initialisation — pid.hpp:251-256 and 300-305 -/
def firstRunInit (p : Pid α n) (e : Vec n α) : Pid α n :=
  if p.firstRun then
    { p with firstRun := false, integral := vzero, propErr := e, filtered := vzero }
  else p

/-- Sum of contributions and saturation — pid.hpp:268-276 and 316-324 -/
def finishOutput (p : Pid α n) : Pid α n :=
  let out := vadd (vadd p.propContrib p.intContrib) p.derivContrib
  { p with output := if p.satFlag then saturateOutput out p.upper p.lower p.propSat else out }

/-- `compute_control(dt, proportional_error)` — pid.hpp:249-282 -/
def computeControl (p : Pid α n) (dt : α) (e : Vec n α) : Pid α n × Vec n α :=
  let p := p.firstRunInit e
  let p := { p with propContrib := mv p.kpMat e }
  let (p, ic) := p.computeIntegral dt e
  let p := { p with intContrib := ic }
  let (p, dc) := p.computeDerivativeByDeriving dt e
  let p := { p with derivContrib := dc }
  let p := p.finishOutput
  let p := { p with propErr := e }
  (p, p.output)

/-- `compute_control(dt, proportional_error, derivative_error)` — pid.hpp:296-331 -/
def computeControlD (p : Pid α n) (dt : α) (e de : Vec n α) : Pid α n × Vec n α :=
  let p := p.firstRunInit e
  let p := { p with propContrib := mv p.kpMat e }
  let (p, ic) := p.computeIntegral dt e
  let p := { p with intContrib := ic }
  let p := { p with derivContrib := p.computeDerivative de }
  let p := p.finishOutput
  let p := { p with propErr := e, derivErr := de }
  (p, p.output)

end Pid

/-- All public mutating calls of `pid_controller::PID`. -/
inductive PidOp (α : Type) (n : ℕ) where
  | updateParams (q : PidParams α n)
  | reset
  | setOutputSaturation (u l : Vec n α) (prop : Bool)
  | disableSat
  | setGains (kp ki kd : Vec n α)
  | setKp (k : Vec n α)
  | setKi (k : Vec n α)
  | setKd (k : Vec n α)
  | setAntiWindup (a : Vec n α)
  | setAlpha (a : Vec n α)
  | setResetIntegral (b : Bool)
  | setPropSat (b : Bool)
  | control (dt : α) (e : Vec n α)
  | controlD (dt : α) (e de : Vec n α)

namespace Pid
variable {α : Type} [Flt α] {n : ℕ}

/-- Effect of one public call; control calls also return the output. -/
def step (p : Pid α n) : PidOp α n → Pid α n × Option (Vec n α)
  | .updateParams q => (p.updateParams q, none)
  | .reset => (p.reset, none)
  | .setOutputSaturation u l b => (p.setOutputSaturation u l b, none)
  | .disableSat => (p.disableSat, none)
  | .setGains kp ki kd => (p.setGains kp ki kd, none)
  | .setKp k => (p.setKp k, none)
  | .setKi k => (p.setKi k, none)
  | .setKd k => (p.setKd k, none)
  | .setAntiWindup a => (p.setAntiWindup a, none)
  | .setAlpha a => (p.setAlpha a, none)
  | .setResetIntegral b => (p.setResetIntegral b, none)
  | .setPropSat b => (p.setPropSat b, none)
  | .control dt e => let r := p.computeControl dt e; (r.1, some r.2)
  | .controlD dt e de => let r := p.computeControlD dt e de; (r.1, some r.2)

/-- Run a history; returns the final object and everything the calls returned. -/
def run (p : Pid α n) : List (PidOp α n) → Pid α n × List (Option (Vec n α))
  | [] => (p, [])
  | o :: os =>
    let r := p.step o
    let t := run r.1 os
    (t.1, r.2 :: t.2)

end Pid

end Verif
