import Verif.Model.Imu
import Mathlib.Logic.Equiv.Defs

/-!
# `imu::IMU` with the hidden state of its random numbers

`Verif.Model.Imu` takes the noise as given: the `k`-th triple of a seed.  Here the two members behind it are modelled,
`std::default_random_engine random_number_generator_` and `std::normal_distribution<P> standard_normal_distribution_`
(/repo/multirotor_simulator/imu_simulator/imu.hpp:294-296).  The distribution makes its samples in pairs and holds one
back for the next call, so it has a state of its own, which `random_number_generator_.seed(seed)` (imu.hpp:108, 168)
does not touch.
-/

namespace Verif

open Flt

/-- An engine with the pairs of samples a normal distribution makes from it (the polar method of the C++ libraries). -/
structure PairSource (α E : Type) where
  /-- `engine.seed(s)` -/
  seed : ℤ → E
  /-- two samples and the engine afterwards -/
  pair : E → (α × α) × E

/-- `random_number_generator_` and the sample `standard_normal_distribution_` has in store — imu.hpp:294-296 -/
@[ext] structure Sampler (α E : Type) where
  eng : E
  saved : Option α

namespace Sampler
variable {α E : Type}

/-- `standard_normal_distribution_(random_number_generator_)` -/
def sample (src : PairSource α E) (s : Sampler α E) : α × Sampler α E :=
  match s.saved with
  | some x => (x, { s with saved := none })
  | none => ((src.pair s.eng).1.1, ⟨(src.pair s.eng).2, some (src.pair s.eng).1.2⟩)

/-- `Vector3(k * N(), k * N(), k * N())`.  C++ leaves open in which order the arguments are evaluated: the coordinate
`i` gets the sample number `order i`. -/
def vector [Flt α] (src : PairSource α E) (order : Equiv.Perm (Fin 3)) (k : α) (s : Sampler α E) :
    Vec 3 α × Sampler α E :=
  let a := s.sample src
  let b := a.2.sample src
  let c := b.2.sample src
  (fun i => k ⊠ (![a.1, b.1, c.1] : Vec 3 α) (order i), c.2)

/-- `random_number_generator_.seed(seed)`: the distribution keeps what it has in store. -/
def reseed (src : PairSource α E) (seed : ℤ) (s : Sampler α E) : Sampler α E := { s with eng := src.seed seed }

end Sampler

/-- Data members of `imu::IMU` — imu.hpp:293-317 -/
@[ext] structure SImu (α E : Type) where
  smp : Sampler α E
  gyroVar : α
  accelVar : α
  gyroBiasCorr : α
  accelBiasCorr : α
  ori : Quat α
  oriInv : Quat α
  gyroBias : Vec 3 α
  accelBias : Vec 3 α
  gyro : Vec 3 α
  accel : Vec 3 α

namespace SImu
variable {α E : Type} [Flt α] (src : PairSource α E) (order : Equiv.Perm (Fin 3))

/-- Constructor — imu.hpp:97-127, 328-343 -/
def mk' (p : ImuParams α) : SImu α E :=
  let g := (⟨src.seed p.seed, none⟩ : Sampler α E).vector src order (sqrt p.gyroVar)
  let a := g.2.vector src order (sqrt p.accelVar)
  { smp := a.2
    gyroVar := p.gyroVar
    accelVar := p.accelVar
    gyroBiasCorr := p.gyroBiasCorr
    accelBiasCorr := p.accelBiasCorr
    ori := p.ori
    oriInv := p.ori.inverse
    gyroBias := g.1
    accelBias := a.1
    gyro := vzero
    accel := vzero }

/-- `process_bias` — imu.hpp:350-372 -/
def processBias (dt : α) (i : SImu α E) : SImu α E :=
  let g := i.smp.vector src order (sqrt (i.gyroBiasCorr ⊘ dt))
  let a := g.2.vector src order (sqrt (i.accelBiasCorr ⊘ dt))
  { i with
    smp := a.2
    gyroBias := vadd i.gyroBias (smulR g.1 dt)
    accelBias := vadd i.accelBias (smulR a.1 dt) }

/-- `process_measurement` — imu.hpp:380-394 -/
def processMeasurement (force om : Vec 3 α) (i : SImu α E) : SImu α E :=
  let g := i.smp.vector src order (sqrt i.gyroVar)
  let a := g.2.vector src order (sqrt i.accelVar)
  { i with
    smp := a.2
    gyro := vadd (vadd (i.oriInv.rotate om) i.gyroBias) g.1
    accel := vadd (vadd (i.oriInv.rotate force) i.accelBias) a.1 }

/-- `update` — imu.hpp:136-146 -/
def update (dt : α) (force om : Vec 3 α) (i : SImu α E) : SImu α E :=
  if le dt (lit 0) then i else (i.processBias src order dt).processMeasurement src order force om

/-- `reset` — imu.hpp:151-159 -/
def reset (i : SImu α E) : SImu α E :=
  { i with gyroBias := vzero, accelBias := vzero, gyro := vzero, accel := vzero }

/-- `set_random_seed` — imu.hpp:168 -/
def setSeed (s : ℤ) (i : SImu α E) : SImu α E := { i with smp := i.smp.reseed src s }

/-- Effect of one public call — imu.hpp:136-218 -/
def step (i : SImu α E) : ImuOp α → SImu α E
  | .update dt f om => i.update src order dt f om
  | .reset => i.reset
  | .setSeed s => i.setSeed src s
  | .setVariances g a => { i with gyroVar := g, accelVar := a }
  | .setBiasCorr g a => { i with gyroBiasCorr := g, accelBiasCorr := a }
  | .setBias gb ab g a => { i with gyroBias := gb, accelBias := ab, gyroBiasCorr := g, accelBiasCorr := a }
  | .setOrientation q => { i with ori := q, oriInv := q.inverse }

/-- Run a history. -/
def run (i : SImu α E) (os : List (ImuOp α)) : SImu α E := os.foldl (step src order) i

end SImu

end Verif
