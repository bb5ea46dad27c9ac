import Verif.Spec.Dyn

/-!
# Sequences of dynamics updates
-/

namespace Verif.Spec

open Verif Flt

/-- Same kind of outcome, with the object transformed. -/
def mapRes {σ τ : Type} (f : σ → τ) : Res σ → Res τ
  | .ok s => .ok (f s)
  | .throw s => .throw (f s)
  | .bad => .bad

/-- `k` successive calls, abandoned at the first exception or undefined behaviour. -/
def callTimes {σ : Type} (f : σ → Res σ) : ℕ → σ → Res σ
  | 0, s => .ok s
  | k + 1, s =>
    match f s with
    | .ok t => callTimes f k t
    | r => r

section
variable {α : Type} [Flt α] [Noise α] {n : ℕ}

/-- Arguments of one `process_euler_explicit` call. -/
structure DynCall (α : Type) (n : ℕ) where
  act : Vec n α
  dt : α
  ext : Vec 3 α
  noise : Bool

/-- Any sequence of calls; exceptions are caught and recorded (`true`); `none` = undefined
behaviour. -/
def runDyn (d : Dyn α n) : List (DynCall α n) → Option (Dyn α n × List Bool)
  | [] => some (d, [])
  | c :: cs =>
    match d.process c.act c.dt c.ext c.noise with
    | .ok e => (runDyn e cs).map fun r => (r.1, false :: r.2)
    | .throw e => (runDyn e cs).map fun r => (r.1, true :: r.2)
    | .bad => none

end

/-- The vehicle displaced by `v`. -/
def displaced {n : ℕ} (v : Vec 3 ℝ) (d : Dyn ℝ n) : Dyn ℝ n :=
  { d with state := { d.state with pos := d.state.pos + v } }

end Verif.Spec
