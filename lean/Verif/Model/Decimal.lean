import Verif.Real
import Mathlib.Data.Int.Log

/-!
# Decimal text of numbers

`std::ostream << double` with the default flags, as used by the logger (/repo/examples/fly_example.cpp:90-138 and
/repo/multirotor_simulator/multirotor_dynamic_model/state.hpp, inertial_odometry.hpp): the conversion `%g` with six
significant digits of the C standard library; and `float(text)` of the plotting script
(/repo/examples/plot_results.py:144) on such texts.

Simplified: a real number stands for the `double`; there is no negative zero (printed `-0`), and `float` returns the exact
value of the text instead of the nearest `double`.  `float` also accepts blanks, underscores, `inf` and `nan`, which do
not occur here.
-/

namespace Verif.Decimal

/-- Nearest integer; the even one of two. -/
noncomputable def roundEven (x : ℝ) : ℤ :=
  if x - ⌊x⌋ < 1 / 2 then ⌊x⌋
  else if 1 / 2 < x - ⌊x⌋ then ⌊x⌋ + 1
  else if Even ⌊x⌋ then ⌊x⌋ else ⌊x⌋ + 1

/-- The six digits and the exponent of the first one: `x` is about `digits · 10^(exponent - 5)`.  Rounding up may
give a seventh digit. -/
noncomputable def scientific (x : ℝ) : ℕ × ℤ :=
  let e := Int.log 10 x
  let n := (roundEven (x / 10 ^ (e - 5))).toNat
  if n = 1000000 then (100000, e + 1) else (n, e)

/-- The last `w` decimal digits of a number. -/
def digits : ℕ → ℕ → List Char
  | 0, _ => []
  | w + 1, n => digits w (n / 10) ++ [Char.ofNat (48 + n % 10)]

/-- Without the zeros at the end. -/
def stripZeros (l : List Char) : List Char := (l.reverse.dropWhile (· == '0')).reverse

/-- The decimal point and the digits behind it; nothing if there are none. -/
def fraction (l : List Char) : List Char := if stripZeros l = [] then [] else '.' :: stripZeros l

/-- The exponent: sign and at least two digits. -/
def exponent (e : ℤ) : List Char :=
  ['e', if e < 0 then '-' else '+'] ++ digits (max 2 (Nat.log 10 e.natAbs + 1)) e.natAbs

/-- `%g` of a number with digits `n` and exponent `e` -/
def general (n : ℕ) (e : ℤ) : List Char :=
  let ds := digits 6 n
  if -4 ≤ e ∧ e < 6 then
    if e < 0 then '0' :: fraction (List.replicate (-e - 1).toNat '0' ++ ds)
    else ds.take (e + 1).toNat ++ fraction (ds.drop (e + 1).toNat)
  else ds.take 1 ++ fraction (ds.drop 1) ++ exponent e

/-- `std::ostream << double` — fly_example.cpp:90-138 -/
noncomputable def print (x : ℝ) : List Char :=
  if x = 0 then ['0']
  else (if x < 0 then ['-'] else []) ++ general (scientific |x|).1 (scientific |x|).2

/-- Value of a row of digits. -/
def value (l : List Char) : ℕ := l.foldl (fun a c => 10 * a + (c.toNat - 48)) 0

/-- Is there a minus sign, and what follows the sign? -/
def sign : List Char → Bool × List Char
  | [] => (false, [])
  | c :: l => if c = '-' then (true, l) else if c = '+' then (false, l) else (false, c :: l)

/-- Is it a decimal digit? -/
def isDigit (c : Char) : Bool := 48 ≤ c.toNat && c.toNat ≤ 57

/-- The digits behind the decimal point, and what follows. -/
def pointDigits : List Char → List Char × List Char
  | [] => ([], [])
  | c :: l => if c = '.' then l.span isDigit else ([], c :: l)

/-- The exponent; `none` if what is left is not an exponent. -/
def readExponent : List Char → Option ℤ
  | [] => some 0
  | c :: l =>
    if c = 'e' ∨ c = 'E' then
      let ds := (sign l).2
      if ds ≠ [] ∧ ds.all isDigit then some (if (sign l).1 then -(value ds : ℤ) else value ds) else none
    else none

/-- `float(text)` — plot_results.py:144; `none`: `ValueError` -/
noncomputable def parse (text : List Char) : Option ℝ :=
  let s := sign text
  let i := s.2.span isDigit
  let f := pointDigits i.2
  if i.1 = [] ∧ f.1 = [] then none
  else (readExponent f.2).map fun e : ℤ =>
    (if s.1 then -1 else 1) * ((value (i.1 ++ f.1) : ℝ) * 10 ^ (e - f.1.length))

end Verif.Decimal
