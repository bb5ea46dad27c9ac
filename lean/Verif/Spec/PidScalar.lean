import Verif.Spec.Pid

/-!
# Specifications of the scalar PID and of the configuration of both PIDs
-/

namespace Verif.Spec

open Verif

/-- `x` brought into `[-a, a]`; `a = 0` switches this off. -/
noncomputable def windup (a x : ℝ) : ℝ := if 0 < a then max (-a) (min a x) else x

/-- `x` brought into `[l, u]`, if these limits are ordered and distinguishable. -/
noncomputable def limited (u l x : ℝ) : ℝ := if (Flt.eps : ℝ) ≤ u - l then max l (min u x) else x

/-- The integral of the errors with anti-windup, after sample `k`. -/
noncomputable def scalarIntegral (a : ℝ) (e dt : ℕ → ℝ) : ℕ → ℝ
  | 0 => windup a (e 0 * dt 0)
  | k + 1 => windup a (scalarIntegral a e dt k + e (k + 1) * dt (k + 1))

/-- The filtered difference quotient of the errors at sample `k`. -/
noncomputable def scalarRate (α : ℝ) (e dt : ℕ → ℝ) : ℕ → ℝ
  | 0 => 0
  | k + 1 => α * ((e (k + 1) - e k) / dt (k + 1)) + (1 - α) * scalarRate α e dt k

/-- The control calls with errors `e` and periods `dt`, the first `k` of them. -/
def scalarCalls {α : Type} (e dt : ℕ → α) (k : ℕ) : List (Pid1Op α) :=
  (List.range k).map fun j => .control (dt j) (e j)

/-- The limits in force after a call, when `c` were in force before: upper and lower. -/
noncomputable def scalarLimits (c : Option (ℝ × ℝ)) : Pid1Op ℝ → Option (ℝ × ℝ)
  | .updateParams q => if (Flt.eps : ℝ) ≤ q.upper - q.lower then some (q.upper, q.lower) else none
  | .setOutputSaturation u l => if (Flt.eps : ℝ) ≤ u - l then some (u, l) else none
  | .disableSat => none
  | _ => c

open Classical in
/-- The same for the vector PID. -/
noncomputable def vectorLimits {n : ℕ} (c : Option (Vec n ℝ × Vec n ℝ)) : PidOp ℝ n → Option (Vec n ℝ × Vec n ℝ)
  | .updateParams q => if OrderedLimits q.upper q.lower then some (q.upper, q.lower) else none
  | .setOutputSaturation u l _ => if OrderedLimits u l then some (u, l) else none
  | .disableSat => none
  | _ => c

/-- `x` brought into the limits in force. -/
noncomputable def within (c : Option (ℝ × ℝ)) (x : ℝ) : ℝ :=
  match c with
  | some (u, l) => max l (min u x)
  | none => x

/-- Is the call a configuration call (not a control call)? -/
def isConfig1 {α : Type} : Pid1Op α → Bool
  | .control .. => false
  | .controlD .. => false
  | _ => true

/-- The value written by the last of the calls that write one. -/
def lastWritten {o β : Type} (w : o → Option β) (start : β) (os : List o) : β :=
  os.foldl (fun b o => (w o).getD b) start

section
variable {α : Type}

/-- What each call of the scalar PID writes. -/
def writesKp1 : Pid1Op α → Option α
  | .updateParams q => some q.kp
  | .setGains k _ _ => some k
  | .setKp k => some k
  | _ => none

/-- ... -/
def writesKi1 : Pid1Op α → Option α
  | .updateParams q => some q.ki
  | .setGains _ k _ => some k
  | .setKi k => some k
  | _ => none

/-- ... -/
def writesKd1 : Pid1Op α → Option α
  | .updateParams q => some q.kd
  | .setGains _ _ k => some k
  | .setKd k => some k
  | _ => none

/-- ... -/
def writesAw1 : Pid1Op α → Option α
  | .updateParams q => some q.antiwindup
  | .setAntiWindup a => some a
  | _ => none

/-- ... -/
def writesAlpha1 : Pid1Op α → Option α
  | .updateParams q => some q.alpha
  | .setAlpha a => some a
  | _ => none

/-- ... -/
def writesFlag1 : Pid1Op α → Option Bool
  | .updateParams q => some q.resetIntegral
  | .setResetIntegral b => some b
  | _ => none

/-- ... -/
noncomputable def writesLimits1 : Pid1Op ℝ → Option (ℝ × ℝ)
  | .updateParams q => if (Flt.eps : ℝ) ≤ q.upper - q.lower then some (q.upper, q.lower) else none
  | .setOutputSaturation u l => if (Flt.eps : ℝ) ≤ u - l then some (u, l) else none
  | _ => none

variable {n : ℕ}

/-- What each call of the vector PID writes. -/
def writesKp : PidOp α n → Option (Vec n α)
  | .updateParams q => some q.kp
  | .setGains k _ _ => some k
  | .setKp k => some k
  | _ => none

/-- ... -/
def writesKi : PidOp α n → Option (Vec n α)
  | .updateParams q => some q.ki
  | .setGains _ k _ => some k
  | .setKi k => some k
  | _ => none

/-- ... -/
def writesKd : PidOp α n → Option (Vec n α)
  | .updateParams q => some q.kd
  | .setGains _ _ k => some k
  | .setKd k => some k
  | _ => none

/-- ... -/
def writesAw : PidOp α n → Option (Vec n α)
  | .updateParams q => some q.antiwindup
  | .setAntiWindup a => some a
  | _ => none

/-- ... -/
def writesAlpha : PidOp α n → Option (Vec n α)
  | .updateParams q => some q.alpha
  | .setAlpha a => some a
  | _ => none

/-- ... -/
def writesFlag : PidOp α n → Option Bool
  | .updateParams q => some q.resetIntegral
  | .setResetIntegral b => some b
  | _ => none

open Classical in
/-- ... a rejected request for proportional limiting is not stored. -/
noncomputable def writesProp : PidOp ℝ n → Option Bool
  | .updateParams q => some q.propSat
  | .setOutputSaturation u l b => if OrderedLimits u l then some b else none
  | .setPropSat b => some b
  | _ => none

/-- ... limits are stored as soon as they are valid on the first axis (see C62). -/
noncomputable def writesLimits : PidOp ℝ (n + 1) → Option (Vec (n + 1) ℝ × Vec (n + 1) ℝ)
  | .updateParams q => if (Flt.eps : ℝ) ≤ q.upper 0 - q.lower 0 then some (q.upper, q.lower) else none
  | .setOutputSaturation u l _ => if (Flt.eps : ℝ) ≤ u 0 - l 0 then some (u, l) else none
  | _ => none

end

end Verif.Spec
