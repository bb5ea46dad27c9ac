import Mathlib.Data.Matrix.Basic
import Mathlib.Data.Rat.Defs
import Verif.Attr

/-!
# Scalars

The C++ templates are parametric in a floating point type `Precision` / `P` (default `double`).
The model is parametric in a type `α` with the operations the code uses.  `Flt` has no laws: a theorem
proved for every `[Flt α]` holds for IEEE arithmetic with rounding, signed zeros, infinities and NaN,
for exact reals, and for every association order Eigen may choose in a reduction.
-/

namespace Verif

/-- The scalar operations used by the code (`double`/`float`, `<cmath>`, Eigen reductions and the
Eigen fixed-size `determinant()` / `inverse()` kernels). No laws. -/
class Flt (α : Type) where
  /-- decimal literals and `int → Precision` conversions -/
  lit : ℚ → α
  /-- `M_PI` -/
  pi : α
  /-- `std::numeric_limits<Precision>::epsilon()` -/
  eps : α
  add : α → α → α
  sub : α → α → α
  mul : α → α → α
  div : α → α → α
  neg : α → α
  /-- `std::abs` -/
  abs : α → α
  sqrt : α → α
  sin : α → α
  cos : α → α
  asin : α → α
  atan2 : α → α → α
  copysign : α → α → α
  /-- `a < b` -/
  lt : α → α → Bool
  /-- `a <= b` -/
  le : α → α → Bool
  /-- `a == b` -/
  beq : α → α → Bool
  /-- `std::signbit` -/
  signbit : α → Bool
  /-- Eigen's `.sum()` (used inside `dot`, `norm`, matrix products) in whatever association order -/
  vsum : {n : ℕ} → (Fin n → α) → α
  /-- Eigen `Matrix3::determinant()` -/
  det3 : Matrix (Fin 3) (Fin 3) α → α
  /-- Eigen `Matrix3::inverse()` -/
  inv3 : Matrix (Fin 3) (Fin 3) α → Matrix (Fin 3) (Fin 3) α
  /-- Eigen `Matrix4::inverse()` -/
  inv4 : Matrix (Fin 4) (Fin 4) α → Matrix (Fin 4) (Fin 4) α

scoped infixl:65 " ⊞ " => Flt.add
scoped infixl:65 " ⊟ " => Flt.sub
scoped infixl:70 " ⊠ " => Flt.mul
scoped infixl:70 " ⊘ " => Flt.div

/-- Laws of comparison that IEEE arithmetic satisfies, NaN included (every comparison with NaN is
false).  Used only where a theorem needs them. -/
class LawfulFlt (α : Type) [Flt α] : Prop where
  lt_irrefl : ∀ a : α, Flt.lt a a = false
  lt_asymm : ∀ a b : α, Flt.lt a b = true → Flt.lt b a = false

/-- Source of standard normal samples: `draw seed k` is the `k`-th triple produced by
`std::normal_distribution` on a `std::default_random_engine` seeded with `seed`.  Arbitrary: theorems quantify over
every source. -/
class Noise (α : Type) where
  draw : ℤ → ℕ → Fin 3 → α

/-- State of a `std::default_random_engine` + `std::normal_distribution` pair: the seed and the number of triples
drawn so far. -/
structure Rng where
  seed : ℤ
  idx : ℕ
  deriving DecidableEq, Repr

/-- Draw one triple (`Vector3(dist(gen), dist(gen), dist(gen))`). -/
def Rng.draw3 {α : Type} [Noise α] (r : Rng) : (Fin 3 → α) × Rng :=
  (Noise.draw r.seed r.idx, { r with idx := r.idx + 1 })

/-- Outcome of a call: normal return, exception (with the object state at the throw), or
`bad`: undefined behaviour or a failing assertion. -/
inductive Res (σ : Type) where
  | ok (s : σ)
  | throw (s : σ)
  | bad

namespace Res

/-- Sequencing: continue only after a normal return. -/
def bind {σ τ : Type} (r : Res σ) (onThrow : σ → τ) (k : σ → Res τ) : Res τ :=
  match r with
  | ok s => k s
  | throw s => throw (onThrow s)
  | bad => bad

end Res

end Verif
