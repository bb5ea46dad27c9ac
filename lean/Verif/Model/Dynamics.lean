import Verif.Model.Model

/-!
# `dynamics::Dynamics` — /repo/multirotor_simulator/multirotor_dynamic_model/dynamics.hpp
-/

namespace Verif

open Flt

/-- Largest value of `int` on the supported platforms (32 bits). -/
def intMax : ℕ := 2147483647

/-- `for (int i = i0; i < num; i++) body` with a floating point bound (dynamics.hpp:152).  `fuel` is
the number of increments left before `i++` overflows; overflow is `bad`. -/
def forLoop {α σ : Type} [Flt α] (num : α) (body : σ → Res σ) : ℕ → ℕ → σ → Res σ
  | 0, i, s => if lt (lit (i : ℚ)) num then (body s).bind id (fun _ => Res.bad) else .ok s
  | fuel + 1, i, s =>
    if lt (lit (i : ℚ)) num then (body s).bind id (fun s' => forLoop num body fuel (i + 1) s')
    else .ok s

/-- Data members of `dynamics::Dynamics` — dynamics.hpp:288-289 -/
@[ext] structure Dyn (α : Type) (n : ℕ) where
  model : Model α n
  state : State α n

/-- `dynamics::DynamicsParams` — dynamics.hpp:57-70 -/
structure DynParams (α : Type) (n : ℕ) where
  model : ModelParams α
  state : State α n
  seed : ℤ

namespace Dyn
variable {α : Type} [Flt α] {n : ℕ}

/-- Constructor from parameters — dynamics.hpp:125-127 -/
def mk' (p : DynParams α n) : Option (Dyn α n) :=
  (Model.mk' p.model p.seed).map fun m => ⟨m, p.state⟩

/-- `LOWEST_UPDATE_FREQUENCY` — dynamics.hpp:47 -/
def maxStep : α := lit (1 / 100)

/-- Precondition of the two `std::clamp` loops: no motor has `max_speed < min_speed`. -/
def clampOk (ms : Fin n → Motor α) : Bool :=
  (List.finRange n).all fun i => !(lt (ms i).maxSpeed (ms i).minSpeed)

/-- `clamp_motors_angular_velocity` — dynamics.hpp:301-309 -/
def clampMotors (ms : Fin n → Motor α) (w : Vec n α) : Vec n α :=
  fun i => clampVal (w i) (ms i).minSpeed (ms i).maxSpeed

/-- `get_motors_angular_velocity_derivative` — dynamics.hpp:321-332 -/
def motorDerivative (ms : Fin n → Motor α) (des cur : Vec n α) : Vec n α :=
  fun i => (des i ⊟ cur i) ⊘ (ms i).tau

/-- `vehicle_total_torque` in `get_vehicle_angular_velocity_derivative` — dynamics.hpp:358-360 -/
def totalTorque (om : Vec 3 α) (J : Mat 3 3 α) (control aero stoch : Vec 3 α) : Vec 3 α :=
  vsub (vadd (vadd control aero) stoch) (cross om (mv J om))

/-- `vehicle_total_force` in `get_vehicle_linear_velocity_derivative` — dynamics.hpp:403-404 -/
def totalForce (thrust drag gravity stoch ext : Vec 3 α) : Vec 3 α :=
  vadd (vadd (vadd (vadd thrust gravity) drag) stoch) ext

/-- One integration step on an initialised model with valid motors — dynamics.hpp:159-209 -/
def eulerStep [Noise α] (c : ModelCore α n) (ms : Fin n → Motor α) (d : Dyn α n) (act : Vec n α)
    (dt : α) (ext : Vec 3 α) (noise : Bool) : Dyn α n :=
  let m := if noise then d.model.setNoise c dt else d.model.disableNoise
  let s := d.state
  let des := clampMotors ms act
  let motAcc := motorDerivative ms des s.motVel
  -- the torque sum uses the stochastic *force* (dynamics.hpp:182)
  let torque := totalTorque s.angVel c.params.inertia (Model.motorTorque c s.motVel motAcc)
    (Model.aeroMoment c.params.aero s.angVel) m.stochForce
  let angAcc := mv (inv3 c.params.inertia) torque
  let qdot := quatDerivative s.ori s.angVel
  let force := totalForce (s.ori.rotate (Model.thrustVec c s.motVel))
    (Model.dragForce c.params.drag s.vel) c.params.gravity m.stochForce ext
  let acc := sdiv force c.params.mass
  { model := m
    state :=
      { motVel := clampMotors ms (vadd s.motVel (smulR motAcc dt))
        motAcc := motAcc
        pos := vadd s.pos (smulR s.vel dt)
        vel := vadd s.vel (smulR acc dt)
        ori := (Quat.ofCoeffs (vadd s.ori.coeffs (smulR qdot dt))).normalized
        angVel := vadd s.angVel (smulR angAcc dt)
        acc := acc
        angAcc := angAcc
        force := force
        torque := torque } }

/-- The straight-line part of `process_euler_explicit` with its preconditions: `bad` if the model was
never initialised, the motor vector has the wrong length or `std::clamp` would be undefined. -/
def singleStep [Noise α] (d : Dyn α n) (act : Vec n α) (dt : α) (ext : Vec 3 α) (noise : Bool) :
    Res (Dyn α n) :=
  match d.model.core with
  | none => .bad
  | some c =>
    match Model.motorFn n c.params.motors with
    | none => .bad
    | some ms => if clampOk ms then .ok (eulerStep c ms d act dt ext noise) else .bad

/-- `process_euler_explicit` — dynamics.hpp:143-210.  The recursive call of line 153 is guarded by a
recursion depth (exhausted depth = stack overflow = `bad`). -/
def processDepth [Noise α] (act : Vec n α) (ext : Vec 3 α) (noise : Bool) :
    ℕ → α → Dyn α n → Res (Dyn α n)
  | 0, _, _ => .bad
  | depth + 1, dt, d =>
    if le dt (lit 0) then .throw d
    else if lt maxStep dt then
      forLoop (dt ⊘ maxStep) (fun d => processDepth act ext noise depth maxStep d) intMax 0 d
    else singleStep d act dt ext noise

/-- `process_euler_explicit` — dynamics.hpp:143-210.  A call at depth two would need
`0.01 > 0.01`. -/
def process [Noise α] (d : Dyn α n) (act : Vec n α) (dt : α) (ext : Vec 3 α) (noise : Bool) :
    Res (Dyn α n) := processDepth act ext noise 2 dt d

/-- `set_state` — dynamics.hpp:256 -/
def setState (s : State α n) (d : Dyn α n) : Dyn α n := { d with state := s }

end Dyn

end Verif
