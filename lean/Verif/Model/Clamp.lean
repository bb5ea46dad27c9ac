import Verif.Model.State

/-!
# Calls of `utils::clamp_vector`

/repo/multirotor_simulator/multirotor_dynamic_model/common/utils.hpp:59-68.  The limits are parameters of type `float`:
arguments of another type are converted (`single`) before the body, `clampVector`, runs.
-/

namespace Verif

/-- `utils::clamp_vector(vector, min, max)` with arguments `min`, `max` of the type of the vector's elements —
utils.hpp:59-68 -/
def clampVectorCall {α : Type} [Flt α] {n : ℕ} (single : α → α) (v : Vec n α) (min max : α) : Option (Vec n α) :=
  clampVector v (single min) (single max)

end Verif
