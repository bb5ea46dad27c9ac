import Verif.Linalg
import Mathlib.Analysis.SpecialFunctions.Trigonometric.Inverse
import Mathlib.Analysis.SpecialFunctions.Complex.Arg
import Mathlib.LinearAlgebra.Matrix.NonsingularInverse
import Mathlib.LinearAlgebra.CrossProduct
import Mathlib.LinearAlgebra.Matrix.Notation

/-!
# Exact real arithmetic

The `Flt ℝ` instance and the simp set `flt` that turns the generic operations into Mathlib ones.
Division by zero and square roots of negative numbers are totalised by Mathlib (`x / 0 = 0`); real
theorems whose code divides carry explicit non-zero hypotheses.
-/

namespace Verif

open Flt

/-- `double` idealised as `ℝ`. `atan2 y x` is the argument of `x + iy`; `eps` is `2⁻⁵²`. -/
noncomputable instance instFltReal : Flt ℝ where
  lit q := (q : ℝ)
  pi := Real.pi
  eps := ((1 / 4503599627370496 : ℚ) : ℝ)
  add a b := a + b
  sub a b := a - b
  mul a b := a * b
  div a b := a / b
  neg a := -a
  abs a := |a|
  sqrt := Real.sqrt
  sin := Real.sin
  cos := Real.cos
  asin := Real.arcsin
  atan2 y x := Complex.arg ⟨x, y⟩
  copysign a b := if b < 0 then -|a| else |a|
  lt a b := decide (a < b)
  le a b := decide (a ≤ b)
  beq a b := decide (a = b)
  signbit a := decide (a < 0)
  vsum f := ∑ i, f i
  det3 := Matrix.det
  inv3 A := A⁻¹
  inv4 A := A⁻¹

instance : LawfulFlt ℝ where
  lt_irrefl a := by simp [Flt.lt]
  lt_asymm a b h := by simp [Flt.lt] at *; exact h.le

section
variable (a b : ℝ)

@[flt] lemma lit_zero : (lit 0 : ℝ) = 0 := by simp [lit]
@[flt] lemma lit_one : (lit 1 : ℝ) = 1 := by simp [lit]
@[flt] lemma lit_neg_one : (lit (-1) : ℝ) = -1 := by simp [lit]
@[flt] lemma lit_two : (lit 2 : ℝ) = 2 := by simp [lit]
@[flt] lemma lit_half : (lit (1 / 2) : ℝ) = 1 / 2 := by simp [lit]
@[flt low] lemma lit_cast (q : ℚ) : (lit q : ℝ) = (q : ℝ) := rfl
@[flt] lemma add_real : a ⊞ b = a + b := rfl
@[flt] lemma sub_real : a ⊟ b = a - b := rfl
@[flt] lemma mul_real : a ⊠ b = a * b := rfl
@[flt] lemma div_real : a ⊘ b = a / b := rfl
@[flt] lemma neg_real : neg a = -a := rfl
@[flt] lemma abs_real : Flt.abs a = |a| := rfl
@[flt] lemma sqrt_real : Flt.sqrt a = Real.sqrt a := rfl
@[flt] lemma sin_real : Flt.sin a = Real.sin a := rfl
@[flt] lemma cos_real : Flt.cos a = Real.cos a := rfl
@[flt] lemma asin_real : Flt.asin a = Real.arcsin a := rfl
@[flt] lemma atan2_real : atan2 a b = Complex.arg ⟨b, a⟩ := rfl
@[flt] lemma pi_real : (Flt.pi : ℝ) = Real.pi := rfl
@[flt] lemma copysign_real : copysign a b = if b < 0 then -|a| else |a| := rfl
@[flt] lemma lt_real : Flt.lt a b = decide (a < b) := rfl
@[flt] lemma le_real : Flt.le a b = decide (a ≤ b) := rfl
@[flt] lemma beq_real : Flt.beq a b = decide (a = b) := rfl
@[flt] lemma signbit_real : signbit a = decide (a < 0) := rfl
@[flt] lemma vsum_real {n : ℕ} (f : Fin n → ℝ) : vsum f = ∑ i, f i := rfl
@[flt] lemma det3_real (A : Matrix (Fin 3) (Fin 3) ℝ) : det3 A = A.det := rfl
@[flt] lemma inv3_real (A : Matrix (Fin 3) (Fin 3) ℝ) : inv3 A = A⁻¹ := rfl
@[flt] lemma inv4_real (A : Matrix (Fin 4) (Fin 4) ℝ) : inv4 A = A⁻¹ := rfl
lemma eps_real : (Flt.eps : ℝ) = 1 / 4503599627370496 := by simp [Flt.eps]
lemma eps_pos : (0 : ℝ) < Flt.eps := by rw [eps_real]; norm_num
end

section
variable {n m k : ℕ} (u v : Vec n ℝ) (c : ℝ)

@[flt] lemma vzero_real : (vzero : Vec n ℝ) = 0 := by ext; simp [vzero, flt]
@[flt] lemma vones_real : (vones : Vec n ℝ) = 1 := by ext; simp [vones, flt]
@[flt] lemma vadd_real : vadd u v = u + v := rfl
@[flt] lemma vsub_real : vsub u v = u - v := rfl
@[flt] lemma vneg_real : vneg u = -u := rfl
@[flt] lemma smulL_real : smulL c v = c • v := rfl
@[flt] lemma smulR_real : smulR v c = c • v := by ext; simp [smulR, flt, mul_comm]
@[flt] lemma sdiv_real : sdiv v c = c⁻¹ • v := by ext; simp [sdiv, flt, div_eq_inv_mul]
@[flt] lemma vmul_real : vmul u v = u * v := rfl
@[flt] lemma vdiv_real : vdiv u v = u / v := rfl
@[flt] lemma dot_real : dot u v = u ⬝ᵥ v := rfl
@[flt] lemma normSq_real : normSq u = u ⬝ᵥ u := rfl
@[flt] lemma norm_real : Verif.norm u = Real.sqrt (u ⬝ᵥ u) := rfl
@[flt] lemma mzero_real : (mzero : Mat m n ℝ) = 0 := by ext; simp [mzero, flt]
@[flt] lemma mident_real : (mident : Mat n n ℝ) = 1 := by
  ext i j; simp [mident, flt, Matrix.one_apply]
@[flt] lemma mdiag_real : mdiag v = Matrix.diagonal v := by
  ext i j; simp [mdiag, flt, Matrix.diagonal_apply]
@[flt] lemma mv_real (A : Mat m n ℝ) : mv A v = A.mulVec v := rfl
@[flt] lemma mm_real (A : Mat m n ℝ) (B : Mat n k ℝ) : mm A B = A * B := rfl
@[flt] lemma msub_real (A B : Mat m n ℝ) : msub A B = A - B := rfl
@[flt] lemma mneg_real (A : Mat m n ℝ) : mneg A = -A := rfl
@[flt] lemma mT_real (A : Mat m n ℝ) : mT A = A.transpose := rfl
@[flt] lemma mdiagonal_real (A : Mat n n ℝ) : mdiagonal A = A.diag := rfl
@[flt] lemma cross_real (u v : Vec 3 ℝ) : cross u v = crossProduct u v := by
  ext i; fin_cases i <;> simp [cross, cross_apply, flt]

lemma sign_real (a : ℝ) : sign a = if 0 < a then 1 else if a < 0 then -1 else 0 := by
  simp [sign, flt]

lemma dot_self_nonneg : 0 ≤ v ⬝ᵥ v := by
  simpa [dotProduct] using Finset.sum_nonneg fun i _ => mul_self_nonneg (v i)

lemma dot_self_eq_zero : v ⬝ᵥ v = 0 ↔ v = 0 := by
  constructor
  · intro h
    ext i
    have := (Finset.sum_eq_zero_iff_of_nonneg (fun i _ => mul_self_nonneg (v i))).1
      (by simpa [dotProduct] using h) i (Finset.mem_univ i)
    simpa using this
  · rintro rfl; simp

lemma dot_self_pos (h : v ≠ 0) : 0 < v ⬝ᵥ v :=
  lt_of_le_of_ne (dot_self_nonneg v) (Ne.symm (mt (dot_self_eq_zero v).1 h))

/-- `normalized()` over the reals: division by the norm, zero stays zero. -/
@[flt] lemma normalized_real : Verif.normalized v = (Real.sqrt (v ⬝ᵥ v))⁻¹ • v := by
  unfold Verif.normalized
  by_cases h : v = 0
  · subst h; simp [flt]
  · have := dot_self_pos v h
    simp [flt, this]

lemma clampVal_real (a lo hi : ℝ) :
    clampVal a lo hi = if a < lo then lo else if hi < a then hi else a := by
  simp [clampVal, flt]
end

end Verif
