import Verif.Model.Sampler

/-!
# `std::default_random_engine`

/repo/multirotor_simulator/imu_simulator/imu.hpp:108, 168, 294 and
/repo/multirotor_simulator/multirotor_dynamic_model/model.hpp:152, 174 use `std::default_random_engine` and seed it with an
`int`.  In the GNU library it is `std::minstd_rand0`, the linear congruential engine with multiplier 16807, increment 0
and modulus 2147483647, whose numbers are of a 64 bit unsigned type on the supported platforms.
-/

namespace Verif

namespace Engine

/-- The modulus, a prime. -/
def modulus : ℕ := 2147483647

/-- `random_number_generator_.seed(seed)` — imu.hpp:108, 168, model.hpp:152: the seed is converted to the unsigned type;
the state 0 is replaced by 1. -/
def seed (s : ℤ) : ℕ :=
  let u := (s % 2 ^ 64).toNat % modulus
  if u = 0 then 1 else u

/-- The state after one number, which is also the number. -/
def next (x : ℕ) : ℕ := 16807 * x % modulus

/-- The `k`-th number after seeding. -/
def number (s : ℤ) (k : ℕ) : ℕ := next^[k + 1] (seed s)

end Engine

end Verif
