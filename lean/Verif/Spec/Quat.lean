import Verif.Real
import Mathlib.Algebra.Quaternion

/-!
# Quaternions in the sense of Mathlib, used as specification
-/

namespace Verif.Spec

open Verif

/-- The quaternion of Mathlib with the same components. -/
def toH (q : Quat ℝ) : Quaternion ℝ := ⟨q.w, q.x, q.y, q.z⟩

/-- The pure quaternion of a vector. -/
def pureH (v : Vec 3 ℝ) : Quaternion ℝ := ⟨0, v 0, v 1, v 2⟩

/-- Unit quaternion: an orientation. -/
def IsUnitQ (q : Quat ℝ) : Prop := q.w ^ 2 + q.x ^ 2 + q.y ^ 2 + q.z ^ 2 = 1

/-- Not the zero quaternion. -/
def NonzeroQ (q : Quat ℝ) : Prop := ¬ (q.w = 0 ∧ q.x = 0 ∧ q.y = 0 ∧ q.z = 0)

/-- `r` is the vector `v` rotated by the orientation `q`: the sandwich product `q v q⁻¹`. -/
def IsRotated (q : Quat ℝ) (v r : Vec 3 ℝ) : Prop := pureH r = toH q * pureH v * (toH q)⁻¹

end Verif.Spec
