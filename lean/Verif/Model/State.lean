import Verif.Linalg

/-!
# Utilities and vehicle state

/repo/multirotor_simulator/multirotor_dynamic_model/common/utils.hpp and state.hpp.
The three nested structs of `state::State` (kinematics, dynamics, actuators) are flattened.
-/

namespace Verif

open Flt

section
variable {α : Type} [Flt α] {n : ℕ}

/-- `utils::clamp_vector` — utils.hpp:59-68; `none` = undefined behaviour of `std::clamp` (only
reached when the vector is non-empty). -/
def clampVector (v : Vec n α) (lo hi : α) : Option (Vec n α) :=
  if n = 0 then some v
  else if lt hi lo then none else some fun i => clampVal (v i) lo hi

/-- `utils::get_quaternion_derivative` — utils.hpp:84-106 (same text in inertial_odometry.hpp:264-278):
`0.5 * (q * (0, ω)).coeffs()` -/
def quatDerivative (q : Quat α) (om : Vec 3 α) : Vec 4 α :=
  smulL (lit (1 / 2)) (q.mul ⟨lit 0, om 0, om 1, om 2⟩).coeffs

/-- `utils::get_quaternion_integrate` — utils.hpp:124-149 (same text in
inertial_odometry.hpp:291-305) -/
def quatIntegrate (q : Quat α) (om : Vec 3 α) (dt : α) : Quat α :=
  (Quat.ofCoeffs (vadd q.coeffs (smulR (quatDerivative q om) dt))).normalized

/-- `utils::squared_keep_sign` — utils.hpp:162-165 -/
def squaredKeepSign (v : Vec n α) : Vec n α := fun i => (v i ⊠ v i) ⊠ sign (v i)

/-- `utils::sqrt_keep_sign` — utils.hpp:178-191 -/
def sqrtKeepSign (v : Vec n α) : Vec n α := fun i => sqrt (abs (v i)) ⊠ sign (v i)

/-- `state::internal::quaternion_to_Euler` — state.hpp:109-129 (same text in
inertial_odometry.hpp:308-331): (roll, pitch, yaw) -/
def quatToEuler (q0 : Quat α) : α × α × α :=
  let q := q0.normalized
  let sinr := lit 2 ⊠ (q.w ⊠ q.x ⊞ q.y ⊠ q.z)
  let cosr := lit 1 ⊟ lit 2 ⊠ (q.x ⊠ q.x ⊞ q.y ⊠ q.y)
  let roll := atan2 sinr cosr
  let sinp := lit 2 ⊠ (q.w ⊠ q.y ⊟ q.z ⊠ q.x)
  let pitch := if le (lit 1) (abs sinp) then copysign (pi ⊘ lit 2) sinp else asin sinp
  let siny := lit 2 ⊠ (q.w ⊠ q.z ⊞ q.x ⊠ q.y)
  let cosy := lit 1 ⊟ lit 2 ⊠ (q.y ⊠ q.y ⊞ q.z ⊠ q.z)
  let yaw := atan2 siny cosy
  (roll, pitch, yaw)

end

/-- `state::State` — state.hpp:56-107, 231-240 (flattened). -/
@[ext] structure State (α : Type) (n : ℕ) where
  pos : Vec 3 α
  ori : Quat α
  vel : Vec 3 α
  angVel : Vec 3 α
  acc : Vec 3 α
  angAcc : Vec 3 α
  force : Vec 3 α
  torque : Vec 3 α
  motVel : Vec n α
  motAcc : Vec n α

/-- `State()` — default member initialisers, state.hpp:62-67, 84-85, 103-106 -/
def State.default {α : Type} [Flt α] {n : ℕ} : State α n where
  pos := vzero
  ori := Quat.identity
  vel := vzero
  angVel := vzero
  acc := vzero
  angAcc := vzero
  force := vzero
  torque := vzero
  motVel := vzero
  motAcc := vzero

section
variable {α : Type} [Flt α] {n : ℕ}

/-- Fields written by `operator<<(os, Kinematics)` — state.hpp:131-144 -/
def State.csvKinematics (s : State α n) : List α :=
  let e := quatToEuler s.ori
  [s.pos 0, s.pos 1, s.pos 2, e.1, e.2.1, e.2.2, s.vel 0, s.vel 1, s.vel 2,
   s.angVel 0, s.angVel 1, s.angVel 2, s.acc 0, s.acc 1, s.acc 2,
   s.angAcc 0, s.angAcc 1, s.angAcc 2]

/-- Fields written by `operator<<(os, Dynamics)` — state.hpp:171-176 -/
def State.csvDynamics (s : State α n) : List α :=
  [s.force 0, s.force 1, s.force 2, s.torque 0, s.torque 1, s.torque 2]

end

/-- Text written by `operator<<(os, Actuators)` — state.hpp:189-201: each speed followed by a comma,
then the accelerations with a comma after all but the last.  `pr` prints a number. -/
def State.textActuators {α : Type} {n : ℕ} (pr : α → List Char) (s : State α n) : List Char :=
  ((List.ofFn fun i => pr (s.motVel i) ++ [','])).flatten ++
  ((List.ofFn fun i : Fin n => pr (s.motAcc i) ++ if i.val + 1 < n then [','] else [])).flatten

/-- `os << a << "," << b << ...` -/
def joinComma : List (List Char) → List Char
  | [] => []
  | [x] => x
  | x :: y :: xs => x ++ ',' :: joinComma (y :: xs)

/-- Text written by `operator<<(os, State)` — state.hpp:242-246 -/
def State.text {α : Type} [Flt α] {n : ℕ} (pr : α → List Char) (s : State α n) : List Char :=
  joinComma (s.csvKinematics.map pr) ++ ',' :: (joinComma (s.csvDynamics.map pr) ++ ',' ::
    s.textActuators pr)

end Verif
