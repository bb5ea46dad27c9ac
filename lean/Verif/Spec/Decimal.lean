import Verif.Real

/-!
# Specification: decimal numbers with six digits
-/

namespace Verif.Spec

/-- A number that can be written with six significant digits. -/
def SixDigits (y : ℝ) : Prop := ∃ n e : ℤ, |n| < 10 ^ 6 ∧ y = n * 10 ^ e

/-- `y` is `x` to six digits: no number of six digits is nearer to `x`. -/
def NearestSix (x y : ℝ) : Prop := SixDigits y ∧ ∀ z, SixDigits z → |y - x| ≤ |z - x|

end Verif.Spec
