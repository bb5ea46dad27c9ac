import Verif.Model.State

/-!
# `model::Model` — /repo/multirotor_simulator/multirotor_dynamic_model/model.hpp

`n` is the template parameter `num_rotors`; the motor list is a `std::vector` whose length is not tied
to `n` by the type system of the C++ code, so it is a `List` here.
-/

namespace Verif

open Flt

/-- `model::MotorParams` — model.hpp:60-78.  The isometry `pose` is split in rotation matrix and
translation. -/
@[ext] structure Motor (α : Type) where
  dir : ℤ
  kf : α
  kt : α
  rot : Mat 3 3 α
  pos : Vec 3 α
  minSpeed : α
  maxSpeed : α
  tau : α
  inertia : α

/-- `model::ModelParams` — model.hpp:88-115 -/
@[ext] structure ModelParams (α : Type) where
  motors : List (Motor α)
  mass : α
  inertia : Mat 3 3 α
  drag : α
  aero : Mat 3 3 α
  gravity : Vec 3 α
  forceNoise : α
  momentNoise : α

/-- The members written by an accepted `update_params` — model.hpp:165-171 -/
@[ext] structure ModelCore (α : Type) (n : ℕ) where
  params : ModelParams α
  mixForceVec : Vec n α
  mixForce : Mat 3 n α
  mixTorque : Mat 3 n α
  mixInertia : Mat 3 n α

/-- Data members of `model::Model` — model.hpp:163-179.  `core = none`: the members still hold
indeterminate values (no parameter set was ever accepted).  `mixerMatrix` is the member of that name. -/
@[ext] structure Model (α : Type) (n : ℕ) where
  core : Option (ModelCore α n)
  mixerMatrix : Option (Mat n 6 α)
  rng : Rng
  stochForce : Vec 3 α
  stochMoment : Vec 3 α

namespace Model
variable {α : Type} [Flt α] {n : ℕ}

/-- One motor of the loop in `check_params` — model.hpp:513-534 -/
def checkMotor (m : Motor α) : Bool :=
  if lt m.maxSpeed m.minSpeed then false
  else if lt m.tau (lit 0) then false
  else if lt m.inertia (lit 0) then false
  else if lt m.kf (lit 0) then false
  else if lt m.kt (lit 0) then false
  else true

/-- `check_params` — model.hpp:496-536 -/
def checkParams (p : ModelParams α) : Bool :=
  if lt p.mass (lit 0) then false
  else if lt (det3 p.inertia) (lit 0) then false
  else if lt p.drag (lit 0) then false
  else if lt (det3 p.aero) (lit 0) then false
  else p.motors.all checkMotor

/-- `compute_mixer_matrix_4D` — model.hpp:757-796, on `n` motors -/
def mixer4 (ms : Fin n → Motor α) : Mat 4 n α := fun r i =>
  let m := ms i
  (![m.kf, m.pos 1 ⊠ m.kf, lit (-1) ⊠ m.pos 0 ⊠ m.kf, lit (m.dir : ℚ) ⊠ m.kt] : Vec 4 α) r

/-- `motor_contrib` in `compute_mixer_matrix_6D` — model.hpp:832-853 -/
def motorContrib (m : Motor α) : Vec 6 α :=
  let forceBody := mv m.rot ![lit 0, lit 0, m.kf]
  let torqueForce := cross m.pos forceBody
  let torqueRot := mv m.rot ![lit 0, lit 0, lit (m.dir : ℚ) ⊠ m.kt]
  let torque := vadd torqueForce torqueRot
  ![forceBody 0, forceBody 1, forceBody 2, torque 0, torque 1, torque 2]

/-- `compute_mixer_matrix_6D` — model.hpp:808-860, on `n` motors -/
def mixer6 (ms : Fin n → Motor α) : Mat 6 n α := fun r i => motorContrib (ms i) r

/-- `compute_mixer_inertia_matrix` — model.hpp:872-889, on `n` motors -/
def mixerInertia (ms : Fin n → Motor α) : Mat 3 n α := fun r i =>
  mv (ms i).rot ![lit 0, lit 0, lit ((ms i).dir : ℚ) ⊠ (ms i).inertia] r

/-- Access to the `std::vector` of motors as an array of `num_rotors` motors: `none` when the length
differs.  With more motors `col(i)` (model.hpp:857) is out of range; with fewer
`Matrix3N::Zero(3, num_motors)` (model.hpp:875) fails its `eigen_assert`, and with assertions disabled
`motor_params[i]` (dynamics.hpp:306) is out of range at the first step. -/
def motorFn (n : ℕ) (ms : List (Motor α)) : Option (Fin n → Motor α) :=
  if h : ms.length = n then some fun i => ms.get (i.cast h.symm) else none

/-- `assert(motor_rotation_direction == 1 || motor_rotation_direction == -1)` — model.hpp:774, 823,
879 -/
def dirOk (ms : List (Motor α)) : Bool := ms.all fun m => m.dir == 1 || m.dir == -1

/-- The mixers computed from `n` motors — model.hpp:199-207 -/
def coreOf (p : ModelParams α) (ms : Fin n → Motor α) : ModelCore α n :=
  let mm := mixer6 ms
  { params := p
    mixForceVec := fun i => mm 2 i
    mixForce := fun r i => mm (Fin.castLE (by decide) r) i
    mixTorque := fun r i => mm (Fin.natAdd 3 r) i
    mixInertia := mixerInertia ms }

/-- `update_params` — model.hpp:189-208; `none` = failing assertion / out-of-range access.  The mixer
is assigned to a *local* `mixer_matrix_` (line 199), the member of the same name is not written. -/
def updateParams (p : ModelParams α) (m : Model α n) : Option (Model α n) :=
  if !checkParams p then some m
  else match motorFn n p.motors with
    | none => none
    | some ms => if dirOk p.motors then some { m with core := some (coreOf p ms) } else none

/-- Constructor — model.hpp:150-156 -/
def mk' (p : ModelParams α) (seed : ℤ) : Option (Model α n) :=
  updateParams p
    { core := none, mixerMatrix := none, rng := ⟨seed, 0⟩, stochForce := vzero, stochMoment := vzero }

/-- `disable_stochastic_noise` — model.hpp:251-254 -/
def disableNoise (m : Model α n) : Model α n := { m with stochForce := vzero, stochMoment := vzero }

/-- `set_stochastic_noise` — model.hpp:218-242 (on an initialised model) -/
def setNoise [Noise α] (c : ModelCore α n) (dt : α) (m : Model α n) : Model α n :=
  if le dt (lit 0) then m.disableNoise
  else
    let (f, r) := m.rng.draw3 (α := α)
    let (t, r) := r.draw3 (α := α)
    { m with
      rng := r
      stochForce := fun i => sqrt (c.params.forceNoise ⊘ dt) ⊠ f i
      stochMoment := fun i => sqrt (c.params.momentNoise ⊘ dt) ⊠ t i }

/-- `get_aerodynamic_moment` — model.hpp:905-909 -/
def aeroMoment (aero : Mat 3 3 α) (om : Vec 3 α) : Vec 3 α :=
  mv (fun i j => (lit (-1) ⊠ norm om) ⊠ aero i j) om

/-- `get_drag_force` — model.hpp:923-926 -/
def dragForce (c : α) (v : Vec 3 α) : Vec 3 α := smulL (lit (-1) ⊠ c) (squaredKeepSign v)

/-- `get_force_thrust_by_motors` — model.hpp:938-941 -/
def thrust (c : ModelCore α n) (w : Vec n α) : α := dot c.mixForceVec (squaredKeepSign w)

/-- `get_force_vector_thrust_by_motors` — model.hpp:953-956 -/
def thrustVec (c : ModelCore α n) (w : Vec n α) : Vec 3 α := mv c.mixForce (squaredKeepSign w)

/-- `get_torque_by_motors` — model.hpp:970-980 -/
def motorTorque (c : ModelCore α n) (w wd : Vec n α) : Vec 3 α :=
  vadd (mv c.mixTorque (squaredKeepSign w)) (mv c.mixInertia wd)

/-- `create_quadrotor_x_config` — model.hpp:554-594 -/
def quadX (kf kt x y minS maxS tau J : α) : List (Motor α) :=
  let m (d : ℤ) (px py : α) : Motor α :=
    ⟨d, kf, kt, mident, ![px, py, lit 0], minS, maxS, tau, J⟩
  [m 1 x (neg y), m (-1) x y, m 1 (neg x) y, m (-1) (neg x) (neg y)]

/-- `create_quadrotor_plus_config` — model.hpp:612-652 -/
def quadPlus (kf kt x y minS maxS tau J : α) : List (Motor α) :=
  let m (d : ℤ) (px py : α) : Motor α :=
    ⟨d, kf, kt, mident, ![px, py, lit 0], minS, maxS, tau, J⟩
  [m 1 x (lit 0), m (-1) (lit 0) y, m 1 (neg x) (lit 0), m (-1) (lit 0) (neg y)]

/-- `create_hexacopter_config` — model.hpp:668-720 -/
def hexa (kf kt r minS maxS tau J : α) : List (Motor α) :=
  let c := cos (pi ⊘ lit 3)
  let s := sin (pi ⊘ lit 3)
  let m (d : ℤ) (px py : α) : Motor α :=
    ⟨d, kf, kt, mident, ![px, py, lit 0], minS, maxS, tau, J⟩
  [m 1 r (lit 0), m (-1) (r ⊠ c) (r ⊠ s), m 1 (neg r ⊠ c) (r ⊠ s), m (-1) (neg r) (lit 0),
   m 1 (neg r ⊠ c) (neg r ⊠ s), m (-1) (r ⊠ c) (neg r ⊠ s)]

end Model

end Verif
