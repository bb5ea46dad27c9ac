import Verif.Model.Pid
import Verif.Model.Pid1d
import Verif.Real

/-!
# Specifications of the PID controllers, written without reference to the code
-/

namespace Verif.Spec

open Verif

/-- Is the call a configuration call (not a control call)? -/
def isConfig {α : Type} {n : ℕ} : PidOp α n → Bool
  | .control .. => false
  | .controlD .. => false
  | _ => true

section Textbook
variable {n : ℕ} (α : Vec n ℝ) (e : ℕ → Vec n ℝ) (dt : ℕ → ℝ)

/-- Raw difference quotient of the error sequence; zero at the first sample. -/
noncomputable def rate : ℕ → Vec n ℝ
  | 0 => fun _ => 0
  | k + 1 => fun i => (e (k + 1) i - e k i) / dt (k + 1)

/-- Exponentially filtered difference quotient. -/
noncomputable def filteredRate : ℕ → Vec n ℝ
  | 0 => fun _ => 0
  | k + 1 => fun i => α i * rate e dt (k + 1) i + (1 - α i) * filteredRate k i

/-- Textbook PID law on axis `i` at sample `k`. -/
noncomputable def pidLaw (kp ki kd : Vec n ℝ) (k : ℕ) (i : Fin n) : ℝ :=
  kp i * e k i + ki i * (∑ j ∈ Finset.range (k + 1), e j i * dt j) + kd i * filteredRate α e dt k i

end Textbook

/-- The sequence of control calls with errors `e` and periods `dt`, first `k` of them. -/
def calls {α : Type} {n : ℕ} (e : ℕ → Vec n α) (dt : ℕ → α) (k : ℕ) : List (PidOp α n) :=
  (List.range k).map fun j => .control (dt j) (e j)

/-- Limits on which saturation makes sense over the reals: distinguishable and ordered on each axis. -/
def OrderedLimits {n : ℕ} (u l : Vec n ℝ) : Prop := ∀ i, (Flt.eps : ℝ) ≤ u i - l i

/-! ### Projection of a vector PID to one axis -/

variable {α : Type} {n : ℕ}

/-- Parameters of axis `i`. -/
def axisParams (i : Fin n) (q : PidParams α n) : Pid1Params α where
  kp := q.kp i
  ki := q.ki i
  kd := q.kd i
  antiwindup := q.antiwindup i
  alpha := q.alpha i
  resetIntegral := q.resetIntegral
  upper := q.upper i
  lower := q.lower i

/-- The call seen by axis `i`; calls about proportional limiting have no 1-D counterpart. -/
def axisOp (i : Fin n) : PidOp α n → List (Pid1Op α)
  | .updateParams q => [.updateParams (axisParams i q)]
  | .reset => [.reset]
  | .setOutputSaturation u l _ => [.setOutputSaturation (u i) (l i)]
  | .disableSat => [.disableSat]
  | .setGains kp ki kd => [.setGains (kp i) (ki i) (kd i)]
  | .setKp k => [.setKp (k i)]
  | .setKi k => [.setKi (k i)]
  | .setKd k => [.setKd (k i)]
  | .setAntiWindup a => [.setAntiWindup (a i)]
  | .setAlpha a => [.setAlpha (a i)]
  | .setResetIntegral b => [.setResetIntegral b]
  | .setPropSat _ => []
  | .control dt e => [.control dt (e i)]
  | .controlD dt e de => [.controlD dt (e i) (de i)]

/-- All axes are limited (with ordered limits), or none is. -/
def UniformLimits (u l : Vec n ℝ) : Prop :=
  OrderedLimits u l ∨ ((∀ i, u i = 0) ∧ ∀ i, l i = 0)

/-- All axes have anti-windup (with a positive constant), or none has. -/
def UniformAw (a : Vec n ℝ) : Prop := (∀ i, 0 < a i) ∨ ∀ i, a i = 0

/-- Parameters that treat all axes alike and do not use proportional limiting. -/
def UniformParams (q : PidParams ℝ n) : Prop :=
  q.propSat = false ∧ UniformAw q.antiwindup ∧ UniformLimits q.upper q.lower

/-- Calls that treat all axes alike and do not use proportional limiting. -/
def UniformOp : PidOp ℝ n → Prop
  | .updateParams q => UniformParams q
  | .setOutputSaturation u l b => b = false ∧ OrderedLimits u l
  | .setAntiWindup a => UniformAw a
  | .setPropSat b => b = false
  | _ => True

/-- Calls that do not ask for proportional limiting. -/
def PerAxisOp {α : Type} {n : ℕ} : PidOp α n → Prop
  | .updateParams q => q.propSat = false
  | .setOutputSaturation _ _ b => b = false
  | .setPropSat b => b = false
  | _ => True

/-- What the control calls of a vector history returned on axis `i`, in order. -/
def axisOutputs {α : Type} {n : ℕ} (i : Fin n) (l : List (Option (Vec n α))) : List α :=
  l.filterMap fun o => o.map fun v => v i

/-- What the control calls of a 1-D history returned, in order. -/
def outputs {α : Type} (l : List (Option α)) : List α := l.filterMap id

/-- The anti-windup constants a 1-D call configures satisfy `P`. -/
def AwOp {α : Type} (P : α → Prop) : Pid1Op α → Prop
  | .updateParams q => P q.antiwindup
  | .setAntiWindup a => P a
  | _ => True

end Verif.Spec
