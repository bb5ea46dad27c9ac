import Verif.Model.State

/-!
# `imu::IMU` and `imu::InertialOdometry`

/repo/multirotor_simulator/imu_simulator/imu.hpp, inertial_odometry.hpp
-/

namespace Verif

open Flt

/-- `imu::IMUParams` — imu.hpp:53-69 -/
structure ImuParams (α : Type) where
  gyroVar : α
  accelVar : α
  gyroBiasCorr : α
  accelBiasCorr : α
  ori : Quat α
  seed : ℤ

/-- Data members of `imu::IMU` — imu.hpp:293-317 -/
@[ext] structure Imu (α : Type) where
  rng : Rng
  gyroVar : α
  accelVar : α
  gyroBiasCorr : α
  accelBiasCorr : α
  ori : Quat α
  oriInv : Quat α
  gyroBias : Vec 3 α
  accelBias : Vec 3 α
  gyro : Vec 3 α
  accel : Vec 3 α

namespace Imu
variable {α : Type} [Flt α]

/-- `Vector3(s * N(), s * N(), s * N())` -/
def scaledDraw [Noise α] (s : α) (r : Rng) : Vec 3 α × Rng :=
  let (v, r) := r.draw3 (α := α)
  (fun i => s ⊠ v i, r)

/-- Constructor — imu.hpp:97-127, 328-343.  `imu_orientation_inverse` is initialised by its default
member initialiser after `imu_orientation_` (declaration order, imu.hpp:308-309). -/
def mk' [Noise α] (p : ImuParams α) : Imu α :=
  let r : Rng := ⟨p.seed, 0⟩
  let (gb, r) := scaledDraw (sqrt p.gyroVar) r
  let (ab, r) := scaledDraw (sqrt p.accelVar) r
  { rng := r
    gyroVar := p.gyroVar
    accelVar := p.accelVar
    gyroBiasCorr := p.gyroBiasCorr
    accelBiasCorr := p.accelBiasCorr
    ori := p.ori
    oriInv := p.ori.inverse
    gyroBias := gb
    accelBias := ab
    gyro := vzero
    accel := vzero }

/-- `process_bias` — imu.hpp:350-372 -/
def processBias [Noise α] (dt : α) (i : Imu α) : Imu α :=
  let (gd, r) := scaledDraw (sqrt (i.gyroBiasCorr ⊘ dt)) i.rng
  let (ad, r) := scaledDraw (sqrt (i.accelBiasCorr ⊘ dt)) r
  { i with
    rng := r
    gyroBias := vadd i.gyroBias (smulR gd dt)
    accelBias := vadd i.accelBias (smulR ad dt) }

/-- `process_measurement` — imu.hpp:380-394 -/
def processMeasurement [Noise α] (force om : Vec 3 α) (i : Imu α) : Imu α :=
  let (gn, r) := scaledDraw (sqrt i.gyroVar) i.rng
  let (an, r) := scaledDraw (sqrt i.accelVar) r
  { i with
    rng := r
    gyro := vadd (vadd (i.oriInv.rotate om) i.gyroBias) gn
    accel := vadd (vadd (i.oriInv.rotate force) i.accelBias) an }

/-- `update` — imu.hpp:136-146 -/
def update [Noise α] (dt : α) (force om : Vec 3 α) (i : Imu α) : Imu α :=
  if le dt (lit 0) then i else (i.processBias dt).processMeasurement force om

/-- `reset` — imu.hpp:151-159 -/
def reset (i : Imu α) : Imu α :=
  { i with gyroBias := vzero, accelBias := vzero, gyro := vzero, accel := vzero }

/-- `set_random_seed` — imu.hpp:168 -/
def setSeed (s : ℤ) (i : Imu α) : Imu α := { i with rng := ⟨s, 0⟩ }
/-- `set_noise_variances` — imu.hpp:176-179 -/
def setVariances (g a : α) (i : Imu α) : Imu α := { i with gyroVar := g, accelVar := a }
/-- `set_bias_autocorrelation_time` — imu.hpp:187-191 -/
def setBiasCorr (g a : α) (i : Imu α) : Imu α := { i with gyroBiasCorr := g, accelBiasCorr := a }
/-- `set_bias` — imu.hpp:201-208 -/
def setBias (gb ab : Vec 3 α) (g a : α) (i : Imu α) : Imu α :=
  setBiasCorr g a { i with gyroBias := gb, accelBias := ab }
/-- `set_orientation` — imu.hpp:215-218 -/
def setOrientation (q : Quat α) (i : Imu α) : Imu α := { i with ori := q, oriInv := q.inverse }

end Imu

/-- All public mutating calls of `imu::IMU`. -/
inductive ImuOp (α : Type) where
  | update (dt : α) (force om : Vec 3 α)
  | reset
  | setSeed (s : ℤ)
  | setVariances (g a : α)
  | setBiasCorr (g a : α)
  | setBias (gb ab : Vec 3 α) (g a : α)
  | setOrientation (q : Quat α)

namespace Imu
variable {α : Type} [Flt α] [Noise α]

/-- Effect of one public call. -/
def step (i : Imu α) : ImuOp α → Imu α
  | .update dt f om => i.update dt f om
  | .reset => i.reset
  | .setSeed s => i.setSeed s
  | .setVariances g a => i.setVariances g a
  | .setBiasCorr g a => i.setBiasCorr g a
  | .setBias gb ab g a => i.setBias gb ab g a
  | .setOrientation q => i.setOrientation q

/-- Run a history. -/
def run (i : Imu α) (os : List (ImuOp α)) : Imu α := os.foldl step i

end Imu

/-- `imu::InertialOdometryParams` — inertial_odometry.hpp:54-66 -/
structure OdomParams (α : Type) where
  alpha : α
  initOri : Quat α

/-- Data members of `imu::InertialOdometry` — inertial_odometry.hpp:198-212 -/
@[ext] structure Odom (α : Type) where
  alpha : α
  initOri : Quat α
  gyroF : Vec 3 α
  accelF : Vec 3 α
  pos : Vec 3 α
  ori : Quat α
  vel : Vec 3 α
  angVel : Vec 3 α
  acc : Vec 3 α

namespace Odom
variable {α : Type} [Flt α]

/-- `reset` — inertial_odometry.hpp:121-129 -/
def reset (o : Odom α) : Odom α :=
  { o with
    gyroF := vzero, accelF := vzero, acc := vzero, vel := vzero, pos := vzero, angVel := vzero
    ori := o.initOri }

/-- Constructor — inertial_odometry.hpp:90-95; `none` = failing `assert(alpha_ > 0 && alpha_ <= 1)`. -/
def mk' (p : OdomParams α) : Option (Odom α) :=
  if lt (lit 0) p.alpha && le p.alpha (lit 1) then
    some (reset
      { alpha := p.alpha, initOri := p.initOri, gyroF := vzero, accelF := vzero, pos := vzero
        ori := Quat.identity, vel := vzero, angVel := vzero, acc := vzero })
  else none

/-- `set_initial_orientation` — inertial_odometry.hpp:112-115 -/
def setInitialOrientation (q : Quat α) (o : Odom α) : Odom α := { o with initOri := q, ori := q }

/-- `filter_measurement` — inertial_odometry.hpp:221-224 -/
def filter (gyro accel : Vec 3 α) (o : Odom α) : Odom α :=
  { o with
    gyroF := vadd (smulL o.alpha gyro) (smulL (lit 1 ⊟ o.alpha) o.gyroF)
    accelF := vadd (smulL o.alpha accel) (smulL (lit 1 ⊟ o.alpha) o.accelF) }

/-- `integrate_measurement` — inertial_odometry.hpp:231-252 -/
def integrate (dt : α) (o : Odom α) : Odom α :=
  let o := { o with angVel := o.gyroF }
  let o := { o with acc := o.ori.inverse.rotate o.accelF }
  let o := { o with ori := quatIntegrate o.ori o.angVel dt }
  let o := { o with vel := vadd o.vel (smulR o.acc dt) }
  { o with pos := vadd o.pos (smulR o.vel dt) }

/-- `update` — inertial_odometry.hpp:137-140 -/
def update (gyro accel : Vec 3 α) (dt : α) (o : Odom α) : Odom α := (o.filter gyro accel).integrate dt

/-- Fields written by `operator<<` — inertial_odometry.hpp:334-349 -/
def csv (o : Odom α) : List α :=
  let e := quatToEuler o.ori
  [o.pos 0, o.pos 1, o.pos 2, e.1, e.2.1, e.2.2, o.vel 0, o.vel 1, o.vel 2,
   o.angVel 0, o.angVel 1, o.angVel 2, o.acc 0, o.acc 1, o.acc 2]

end Odom

/-- All public mutating calls of `imu::InertialOdometry`. -/
inductive OdomOp (α : Type) where
  | update (gyro accel : Vec 3 α) (dt : α)
  | reset
  | setInitialOrientation (q : Quat α)

namespace Odom
variable {α : Type} [Flt α]

/-- Effect of one public call. -/
def step (o : Odom α) : OdomOp α → Odom α
  | .update g a dt => o.update g a dt
  | .reset => o.reset
  | .setInitialOrientation q => o.setInitialOrientation q

/-- Run a history. -/
def run (o : Odom α) (os : List (OdomOp α)) : Odom α := os.foldl step o

end Odom

end Verif
