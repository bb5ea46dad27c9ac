import Verif.Linalg

/-!
# `pid_1d_controller::PID` — /repo/pid_controller/include/pid_controller/pid_1d.hpp

Scalar PID.  `std::clamp(v, lo, hi)` with `hi < lo` is undefined behaviour: outcome `bad`.
-/

namespace Verif

open Flt

/-- `std::clamp` with its precondition made explicit: `none` when `hi < lo` (undefined behaviour). -/
def stdClamp {α : Type} [Flt α] (v lo hi : α) : Option α :=
  if lt hi lo then none else some (clampVal v lo hi)

/-- `pid_1d_controller::PIDParams` — pid_1d.hpp:45-65 -/
@[ext] structure Pid1Params (α : Type) where
  kp : α
  ki : α
  kd : α
  antiwindup : α
  alpha : α
  resetIntegral : Bool
  upper : α
  lower : α

/-- Data members of `pid_1d_controller::PID` — pid_1d.hpp:97-123 -/
@[ext] structure Pid1 (α : Type) where
  kp : α
  ki : α
  kd : α
  antiwindup : α
  alpha : α
  resetIntegral : Bool
  satFlag : Bool
  upper : α
  lower : α
  firstRun : Bool
  integral : α
  filtered : α
  propErr : α
  derivErr : α
  propContrib : α
  intContrib : α
  derivContrib : α
  output : α

namespace Pid1
variable {α : Type} [Flt α]

/-- Default member initialisers — pid_1d.hpp:97-123 -/
def init : Pid1 α where
  kp := lit 0
  ki := lit 0
  kd := lit 0
  antiwindup := lit 0
  alpha := lit 1
  resetIntegral := false
  satFlag := false
  upper := lit 0
  lower := lit 0
  firstRun := true
  integral := lit 0
  filtered := lit 0
  propErr := lit 0
  derivErr := lit 0
  propContrib := lit 0
  intContrib := lit 0
  derivContrib := lit 0
  output := lit 0

/-- `set_gains` — pid_1d.hpp:349-353 -/
def setGains (kp ki kd : α) (p : Pid1 α) : Pid1 α := { p with kp := kp, ki := ki, kd := kd }
/-- `set_kp` — pid_1d.hpp:373 -/
def setKp (k : α) (p : Pid1 α) : Pid1 α := { p with kp := k }
/-- `set_ki` — pid_1d.hpp:387 -/
def setKi (k : α) (p : Pid1 α) : Pid1 α := { p with ki := k }
/-- `set_kd` — pid_1d.hpp:401 -/
def setKd (k : α) (p : Pid1 α) : Pid1 α := { p with kd := k }
/-- `set_anti_windup` — pid_1d.hpp:415 -/
def setAntiWindup (a : α) (p : Pid1 α) : Pid1 α := { p with antiwindup := a }
/-- `set_alpha` — pid_1d.hpp:429 -/
def setAlpha (a : α) (p : Pid1 α) : Pid1 α := { p with alpha := a }
/-- `set_reset_integral_saturation_flag` — pid_1d.hpp:447-449 -/
def setResetIntegral (b : Bool) (p : Pid1 α) : Pid1 α := { p with resetIntegral := b }
/-- `disable_output_saturation` — pid_1d.hpp:188 -/
def disableSat (p : Pid1 α) : Pid1 α := { p with satFlag := false }
/-- `reset_controller` — pid_1d.hpp:151 -/
def reset (p : Pid1 α) : Pid1 α := { p with firstRun := true }

/-- `set_output_saturation` — pid_1d.hpp:159-177 -/
def setOutputSaturation (u l : α) (p : Pid1 α) : Pid1 α :=
  if lt (abs (u ⊟ l)) eps then p.disableSat
  else if lt u l then p.disableSat
  else { p with upper := u, lower := l, satFlag := true }

/-- `update_params` — pid_1d.hpp:133-144 -/
def updateParams (q : Pid1Params α) (p : Pid1 α) : Pid1 α :=
  let p := (((p.setGains q.kp q.ki q.kd).setAntiWindup q.antiwindup).setAlpha q.alpha).setResetIntegral
    q.resetIntegral
  if !(beq q.upper (lit 0)) || !(beq q.lower (lit 0)) then p.setOutputSaturation q.upper q.lower
  else p.disableSat

/-- Constructor — pid_1d.hpp:86-90 -/
def mk' (q : Pid1Params α) : Pid1 α := (init.updateParams q).reset

/-- `get_params` — pid_1d.hpp:332-340 -/
def getParams (p : Pid1 α) : Pid1Params α where
  kp := p.kp
  ki := p.ki
  kd := p.kd
  antiwindup := p.antiwindup
  alpha := p.alpha
  resetIntegral := p.resetIntegral
  upper := p.upper
  lower := p.lower

/-- `get_error` — pid_1d.hpp:197-200 -/
def getError (state reference : α) : α := reference ⊟ state

/-- The reset part of `compute_integral_contribution` — pid_1d.hpp:537-543 -/
def resetAcc (p : Pid1 α) (e : α) : α :=
  if p.resetIntegral && lt p.antiwindup (abs p.integral) && (signbit p.integral != signbit e) then lit 0
  else p.integral

/-- `compute_integral_contribution` — pid_1d.hpp:534-557: new accumulator, `none` = undefined
behaviour in `std::clamp`. -/
def accumulate (p : Pid1 α) (dt e : α) : Option α :=
  let acc := p.resetAcc e ⊞ e ⊠ dt
  if !(beq p.antiwindup (lit 0)) then stdClamp acc (lit (-1) ⊠ p.antiwindup) p.antiwindup
  else some acc

/-- First-run initialisation — pid_1d.hpp:234-239 and 276-281 -/
def firstRunInit (p : Pid1 α) (e : α) : Pid1 α :=
  if p.firstRun then
    { p with firstRun := false, integral := lit 0, propErr := e, filtered := lit 0 }
  else p

/-- New filter state in `compute_derivative_contribution_by_deriving` — pid_1d.hpp:566-578 -/
def filter (p : Pid1 α) (dt e : α) : α :=
  let inc := (e ⊟ p.propErr) ⊘ dt
  p.alpha ⊠ inc ⊞ (lit 1 ⊟ p.alpha) ⊠ p.filtered

/-- Sum of contributions and saturation — pid_1d.hpp:251-257 and 292-298 -/
def finishOutput (p : Pid1 α) : Option (Pid1 α) :=
  let out := p.propContrib ⊞ p.intContrib ⊞ p.derivContrib
  if p.satFlag then (stdClamp out p.lower p.upper).map fun o => { p with output := o }
  else some { p with output := out }

/-- `compute_control(dt, proportional_error)` — pid_1d.hpp:232-262 -/
def computeControl (p : Pid1 α) (dt e : α) : Option (Pid1 α × α) :=
  let p := p.firstRunInit e
  let p := { p with propContrib := p.kp ⊠ e }
  match p.accumulate dt e with
  | none => none
  | some acc =>
    let p := { p with integral := acc, intContrib := p.ki ⊠ acc }
    let p := { p with filtered := p.filter dt e }
    let p := { p with derivContrib := p.kd ⊠ p.filtered }
    match p.finishOutput with
    | none => none
    | some p =>
      let p := { p with propErr := e }
      some (p, p.output)

/-- `compute_control(dt, proportional_error, derivative_error)` — pid_1d.hpp:272-304 -/
def computeControlD (p : Pid1 α) (dt e de : α) : Option (Pid1 α × α) :=
  let p := p.firstRunInit e
  let p := { p with propContrib := p.kp ⊠ e }
  match p.accumulate dt e with
  | none => none
  | some acc =>
    let p := { p with integral := acc, intContrib := p.ki ⊠ acc }
    let p := { p with derivContrib := p.kd ⊠ de }
    match p.finishOutput with
    | none => none
    | some p =>
      let p := { p with propErr := e, derivErr := de }
      some (p, p.output)

end Pid1

/-- All public mutating calls of `pid_1d_controller::PID`. -/
inductive Pid1Op (α : Type) where
  | updateParams (q : Pid1Params α)
  | reset
  | setOutputSaturation (u l : α)
  | disableSat
  | setGains (kp ki kd : α)
  | setKp (k : α)
  | setKi (k : α)
  | setKd (k : α)
  | setAntiWindup (a : α)
  | setAlpha (a : α)
  | setResetIntegral (b : Bool)
  | control (dt e : α)
  | controlD (dt e de : α)

namespace Pid1
variable {α : Type} [Flt α]

/-- Effect of one public call; `none` = undefined behaviour. -/
def step (p : Pid1 α) : Pid1Op α → Option (Pid1 α × Option α)
  | .updateParams q => some (p.updateParams q, none)
  | .reset => some (p.reset, none)
  | .setOutputSaturation u l => some (p.setOutputSaturation u l, none)
  | .disableSat => some (p.disableSat, none)
  | .setGains kp ki kd => some (p.setGains kp ki kd, none)
  | .setKp k => some (p.setKp k, none)
  | .setKi k => some (p.setKi k, none)
  | .setKd k => some (p.setKd k, none)
  | .setAntiWindup a => some (p.setAntiWindup a, none)
  | .setAlpha a => some (p.setAlpha a, none)
  | .setResetIntegral b => some (p.setResetIntegral b, none)
  | .control dt e => (p.computeControl dt e).map fun r => (r.1, some r.2)
  | .controlD dt e de => (p.computeControlD dt e de).map fun r => (r.1, some r.2)

/-- Run a history; `none` as soon as a call has undefined behaviour. -/
def run (p : Pid1 α) : List (Pid1Op α) → Option (Pid1 α × List (Option α))
  | [] => some (p, [])
  | o :: os =>
    match p.step o with
    | none => none
    | some r =>
      match run r.1 os with
      | none => none
      | some t => some (t.1, r.2 :: t.2)

end Pid1

end Verif
