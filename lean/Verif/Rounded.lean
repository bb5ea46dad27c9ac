import Verif.Linalg
import Mathlib.Analysis.SpecialFunctions.Sqrt
import Mathlib.Analysis.SpecialFunctions.Trigonometric.Basic
import Mathlib.Algebra.Order.BigOperators.Group.Finset
import Mathlib.Algebra.BigOperators.Fin
import Mathlib.Algebra.Order.Round
import Mathlib.Data.Int.Log

/-!
# Rounded arithmetic

The standard model of floating point arithmetic: every operation returns the exact result times `1 + δ` with `|δ| ≤ u`.
A `Rounding` is any function with this property, for any `u`; round-to-nearest with 53 bits has `u = 2⁻⁵³`, the other
rounding directions `u = 2⁻⁵²`.  Sums (Eigen's `.sum()`, dot products, matrix products) may be taken in any order: only
the textbook bound for `n` terms is assumed.

Not represented: overflow, underflow and NaN (the exponent range is unbounded).  The elementary functions and the
4×4 inverse, which the dynamics do not use, are arbitrary.
-/

namespace Verif

open Flt

/-- Arithmetic with relative rounding errors of at most `u`. -/
structure Rounding where
  /-- unit roundoff -/
  u : ℝ
  u_nonneg : 0 ≤ u
  /-- rounding of an exact result -/
  rnd : ℝ → ℝ
  rnd_err : ∀ x, |rnd x - x| ≤ u * |x|
  /-- rounded sums, in whatever association order -/
  sum : {n : ℕ} → (Fin n → ℝ) → ℝ
  sum_err : ∀ {n : ℕ} (f : Fin n → ℝ), |sum f - ∑ i, f i| ≤ ((1 + u) ^ n - 1) * ∑ i, |f i|
  /-- unspecified functions -/
  fsin : ℝ → ℝ
  fcos : ℝ → ℝ
  fasin : ℝ → ℝ
  fatan2 : ℝ → ℝ → ℝ
  finv4 : Matrix (Fin 4) (Fin 4) ℝ → Matrix (Fin 4) (Fin 4) ℝ

/-- Numbers of the rounded arithmetic `A`. -/
@[ext] structure Fl (A : Rounding) where
  val : ℝ

namespace Rounding
variable (A : Rounding)

/-- Cofactor of a 3×3 matrix (Eigen/src/LU/InverseImpl.h, `cofactor_3x3`). -/
noncomputable def cof (M : Matrix (Fin 3) (Fin 3) ℝ) (i j : Fin 3) : ℝ :=
  A.rnd (A.rnd (M (i + 1) (j + 1) * M (i + 2) (j + 2)) - A.rnd (M (i + 1) (j + 2) * M (i + 2) (j + 1)))

/-- The determinant by the first column. -/
noncomputable def det (M : Matrix (Fin 3) (Fin 3) ℝ) : ℝ := A.sum fun k => A.rnd (A.cof M k 0 * M k 0)

/-- Eigen's inverse of a 3×3 matrix (`compute_inverse_size3_helper`). -/
noncomputable def inv (M : Matrix (Fin 3) (Fin 3) ℝ) : Matrix (Fin 3) (Fin 3) ℝ :=
  fun i j => A.rnd (A.cof M j i * A.rnd (1 / A.det M))

end Rounding

open Classical in
/-- The operations of the rounded arithmetic.  Negation, absolute value and comparisons are exact. -/
noncomputable instance instFltRounded (A : Rounding) : Flt (Fl A) where
  lit q := ⟨A.rnd (q : ℝ)⟩
  pi := ⟨A.rnd Real.pi⟩
  eps := ⟨A.rnd (1 / 4503599627370496)⟩
  add a b := ⟨A.rnd (a.val + b.val)⟩
  sub a b := ⟨A.rnd (a.val - b.val)⟩
  mul a b := ⟨A.rnd (a.val * b.val)⟩
  div a b := ⟨A.rnd (a.val / b.val)⟩
  neg a := ⟨-a.val⟩
  abs a := ⟨|a.val|⟩
  sqrt a := ⟨A.rnd (Real.sqrt a.val)⟩
  sin a := ⟨A.fsin a.val⟩
  cos a := ⟨A.fcos a.val⟩
  asin a := ⟨A.fasin a.val⟩
  atan2 y x := ⟨A.fatan2 y.val x.val⟩
  copysign a b := ⟨if b.val < 0 then -|a.val| else |a.val|⟩
  lt a b := decide (a.val < b.val)
  le a b := decide (a.val ≤ b.val)
  beq a b := decide (a.val = b.val)
  signbit a := decide (a.val < 0)
  vsum f := ⟨A.sum fun i => (f i).val⟩
  det3 M := ⟨A.det (M.map Fl.val)⟩
  inv3 M := (A.inv (M.map Fl.val)).map Fl.mk
  inv4 M := (A.finv4 (M.map Fl.val)).map Fl.mk

/-! ## Error bounds -/

/-- `x` approximates `y`, a sum of terms whose magnitudes add up to at most `S`, with the error of `k` roundings. -/
def Rounding.Near (A : Rounding) (k : ℕ) (S x y : ℝ) : Prop := |x - y| ≤ ((1 + A.u) ^ k - 1) * S ∧ |y| ≤ S

namespace Rounding.Near
variable {A : Rounding} {k l : ℕ} {S T x y v w : ℝ}

lemma one_le (k : ℕ) : 1 ≤ (1 + A.u) ^ k := one_le_pow₀ (by linarith [A.u_nonneg])

lemma nonneg (h : A.Near k S x y) : 0 ≤ S := (abs_nonneg _).trans h.2

lemma bound (h : A.Near k S x y) : |x| ≤ (1 + A.u) ^ k * S := by
  have := abs_sub_abs_le_abs_sub x y
  have h1 := h.1
  have h2 := h.2
  nlinarith

lemma exact (x : ℝ) : A.Near 0 |x| x x := ⟨by simp, le_rfl⟩

lemma mono (h : A.Near k S x y) (hkl : k ≤ l) (hST : S ≤ T) : A.Near l T x y := by
  refine ⟨h.1.trans (mul_le_mul ?_ hST h.nonneg ?_), h.2.trans hST⟩
  · linarith [pow_le_pow_right₀ (show 1 ≤ 1 + A.u by linarith [A.u_nonneg]) hkl]
  · linarith [one_le (A := A) l]

lemma rnd (h : A.Near k S x y) : A.Near (k + 1) S (A.rnd x) y := by
  refine ⟨?_, h.2⟩
  have h1 := A.rnd_err x
  have h2 := mul_le_mul_of_nonneg_left h.bound A.u_nonneg
  have h3 := h.1
  have e : A.rnd x - y = (A.rnd x - x) + (x - y) := by ring
  rw [e]
  refine (abs_add_le _ _).trans ?_
  rw [pow_succ]
  nlinarith

lemma add (h : A.Near k S x y) (h' : A.Near k T v w) : A.Near k (S + T) (x + v) (y + w) := by
  refine ⟨?_, (abs_add_le _ _).trans (add_le_add h.2 h'.2)⟩
  have e : x + v - (y + w) = (x - y) + (v - w) := by ring
  rw [e, mul_add]
  exact (abs_add_le _ _).trans (add_le_add h.1 h'.1)

lemma neg (h : A.Near k S x y) : A.Near k S (-x) (-y) := by
  refine ⟨?_, by rw [abs_neg]; exact h.2⟩
  rw [← neg_sub', abs_neg]
  exact h.1

lemma sub (h : A.Near k S x y) (h' : A.Near k T v w) : A.Near k (S + T) (x - v) (y - w) := by
  have := h.add h'.neg
  simpa [sub_eq_add_neg] using this

lemma mul (h : A.Near k S x y) (h' : A.Near l T v w) : A.Near (k + l) (S * T) (x * v) (y * w) := by
  refine ⟨?_, by rw [abs_mul]; exact mul_le_mul h.2 h'.2 (abs_nonneg _) h.nonneg⟩
  have e : x * v - y * w = (x - y) * v + y * (v - w) := by ring
  rw [e]
  refine (abs_add_le _ _).trans ?_
  rw [abs_mul, abs_mul]
  have h1 : |x - y| * |v| ≤ (((1 + A.u) ^ k - 1) * S) * ((1 + A.u) ^ l * T) :=
    mul_le_mul h.1 h'.bound (abs_nonneg _) ((abs_nonneg _).trans h.1)
  have h2 : |y| * |v - w| ≤ S * (((1 + A.u) ^ l - 1) * T) := mul_le_mul h.2 h'.1 (abs_nonneg _) h.nonneg
  calc _ ≤ _ := add_le_add h1 h2
    _ = ((1 + A.u) ^ (k + l) - 1) * (S * T) := by rw [pow_add]; ring

lemma div_const (h : A.Near k S x y) (c : ℝ) : A.Near k (S / |c|) (x / c) (y / c) := by
  refine ⟨?_, by rw [abs_div]; exact div_le_div_of_nonneg_right h.2 (abs_nonneg _)⟩
  rw [← sub_div, abs_div, ← mul_div_assoc]
  exact div_le_div_of_nonneg_right h.1 (abs_nonneg _)

lemma finsum {ι : Type} (s : Finset ι) {S x y : ι → ℝ} (h : ∀ i ∈ s, A.Near k (S i) (x i) (y i)) :
    A.Near k (∑ i ∈ s, S i) (∑ i ∈ s, x i) (∑ i ∈ s, y i) := by
  refine ⟨?_, (Finset.abs_sum_le_sum_abs _ _).trans (Finset.sum_le_sum fun i hi => (h i hi).2)⟩
  rw [← Finset.sum_sub_distrib, Finset.mul_sum]
  exact (Finset.abs_sum_le_sum_abs _ _).trans (Finset.sum_le_sum fun i hi => (h i hi).1)

lemma sum {n : ℕ} {S x y : Fin n → ℝ} (h : ∀ i, A.Near k (S i) (x i) (y i)) :
    A.Near (k + n) (∑ i, S i) (A.sum x) (∑ i, y i) := by
  have hf := finsum Finset.univ (fun i _ => h i)
  refine ⟨?_, hf.2⟩
  have h1 := A.sum_err x
  have h2 : ∑ i, |x i| ≤ (1 + A.u) ^ k * ∑ i, S i := by
    rw [Finset.mul_sum]; exact Finset.sum_le_sum fun i _ => (h i).bound
  have h3 := mul_le_mul_of_nonneg_left h2 (show 0 ≤ (1 + A.u) ^ n - 1 by linarith [one_le (A := A) n])
  have e : A.sum x - ∑ i, y i = (A.sum x - ∑ i, x i) + (∑ i, x i - ∑ i, y i) := by ring
  rw [e]
  refine (abs_add_le _ _).trans ((add_le_add (h1.trans h3) hf.1).trans (le_of_eq ?_))
  rw [pow_add]; ring

lemma sqrt (h : A.Near k y x y) (hx : 0 ≤ x) : A.Near k (√y) (√x) (√y) := by
  have hy : 0 ≤ y := h.nonneg
  refine ⟨?_, by rw [abs_of_nonneg (Real.sqrt_nonneg _)]⟩
  rcases hy.eq_or_lt with h0 | h0
  · subst h0
    have : x = 0 := by
      have := h.1
      simp at this
      exact this
    subst this
    simp
  · have hs : 0 < √y := Real.sqrt_pos.2 h0
    have e : (√x - √y) * (√x + √y) = x - y := by
      have h1 := Real.mul_self_sqrt hx
      have h2 := Real.mul_self_sqrt hy
      nlinarith
    have h1 : |√x - √y| * √y ≤ |x - y| := by
      rw [← e, abs_mul]
      refine mul_le_mul_of_nonneg_left ?_ (abs_nonneg _)
      rw [abs_of_nonneg (add_nonneg (Real.sqrt_nonneg _) hs.le)]
      linarith [Real.sqrt_nonneg x]
    have h2 : |√x - √y| * √y ≤ ((1 + A.u) ^ k - 1) * √y * √y := by
      refine h1.trans (h.1.trans (le_of_eq ?_))
      rw [mul_assoc, Real.mul_self_sqrt hy]
    exact le_of_mul_le_mul_right h2 hs

end Rounding.Near

namespace Rounding
variable (A : Rounding)

@[simp] lemma rnd_zero : A.rnd 0 = 0 := by simpa using A.rnd_err 0

/-- The cost of `k` roundings, linearly. -/
lemma pow_sub_le {c : ℝ} (h0 : 0 < c) (hu : A.u ≤ c) (k : ℕ) : (1 + A.u) ^ k - 1 ≤ ((1 + c) ^ k - 1) / c * A.u := by
  rw [div_mul_eq_mul_div, le_div_iff₀ h0]
  induction k with
  | zero => simp
  | succ k ih =>
    have h1 : (1 + A.u) ^ k ≤ (1 + c) ^ k := pow_le_pow_left₀ (by linarith [A.u_nonneg]) (by linarith) k
    have h2 := mul_le_mul_of_nonneg_left h1 (mul_nonneg h0.le A.u_nonneg)
    rw [pow_succ, pow_succ]
    nlinarith

end Rounding

/-! ## Rounding to a fixed number of binary digits -/

/-- Sums from the left, rounding after every addition. -/
noncomputable def seqSum (rnd : ℝ → ℝ) : {n : ℕ} → (Fin n → ℝ) → ℝ
  | 0, _ => 0
  | _ + 1, f => rnd (seqSum rnd (fun i => f i.castSucc) + f (Fin.last _))

lemma seqSum_err {rnd : ℝ → ℝ} {u : ℝ} (hu : 0 ≤ u) (h : ∀ x, |rnd x - x| ≤ u * |x|) :
    ∀ {n : ℕ} (f : Fin n → ℝ), |seqSum rnd f - ∑ i, f i| ≤ ((1 + u) ^ n - 1) * ∑ i, |f i|
  | 0, f => by simp [seqSum]
  | n + 1, f => by
    have ih := seqSum_err hu h (fun i => f i.castSucc)
    rw [Fin.sum_univ_castSucc, Fin.sum_univ_castSucc, seqSum]
    set s := seqSum rnd fun i => f i.castSucc
    set T := ∑ i : Fin n, f i.castSucc
    set S := ∑ i : Fin n, |f i.castSucc|
    set b := f (Fin.last n)
    have hT : |T| ≤ S := Finset.abs_sum_le_sum_abs _ _
    have h1 := h (s + b)
    have h2 : |s + b| ≤ (1 + u) ^ n * S + |b| := by
      have e : s + b = (s - T) + (T + b) := by ring
      rw [e]
      have := abs_add_le (s - T) (T + b)
      have := abs_add_le T b
      nlinarith
    have h3 : 1 ≤ (1 + u) ^ n := one_le_pow₀ (by linarith)
    have e : rnd (s + b) - (T + b) = (rnd (s + b) - (s + b)) + (s - T) := by ring
    rw [e]
    refine (abs_add_le _ _).trans ?_
    have h4 := mul_le_mul_of_nonneg_left h2 hu
    have h5 : u * |b| ≤ ((1 + u) ^ (n + 1) - 1) * |b| := by
      refine mul_le_mul_of_nonneg_right ?_ (abs_nonneg _)
      rw [pow_succ]
      nlinarith
    rw [mul_add]
    have e2 : ((1 + u) ^ (n + 1) - 1) * S = u * ((1 + u) ^ n * S) + ((1 + u) ^ n - 1) * S := by rw [pow_succ]; ring
    rw [e2]
    linarith

/-- `x` rounded to `p` significant binary digits. -/
noncomputable def roundBits (p : ℕ) (x : ℝ) : ℝ :=
  round (x / 2 ^ (Int.log 2 |x| - (p - 1))) * 2 ^ (Int.log 2 |x| - ((p : ℤ) - 1))

lemma roundBits_err (p : ℕ) (x : ℝ) : |roundBits p x - x| ≤ (1 / 2) ^ p * |x| := by
  by_cases hx : x = 0
  · subst hx; simp [roundBits]
  · have h0 : 0 < |x| := abs_pos.2 hx
    set e := Int.log 2 |x| - ((p : ℤ) - 1) with he
    have h2 : (0 : ℝ) < 2 ^ e := zpow_pos (by norm_num) _
    have h1 : (2 : ℝ) ^ Int.log 2 |x| ≤ |x| := by
      have := Int.zpow_log_le_self (b := 2) (r := |x|) (by norm_num) h0
      exact_mod_cast this
    have h3 : (2 : ℝ) ^ e = 2 ^ Int.log 2 |x| * (2 * (1 / 2) ^ p) := by
      rw [he, zpow_sub₀ (by norm_num), zpow_sub₀ (by norm_num), zpow_natCast]
      field_simp
      rw [← mul_pow]
      norm_num
    have h4 := abs_sub_round (x / 2 ^ e)
    have e1 : roundBits p x - x = -((x / 2 ^ e - round (x / 2 ^ e)) * 2 ^ e) := by
      rw [roundBits, ← he, sub_mul, div_mul_cancel₀ _ h2.ne']
      ring
    rw [e1, abs_neg, abs_mul, abs_of_pos h2]
    calc _ ≤ 1 / 2 * 2 ^ e := mul_le_mul_of_nonneg_right h4 h2.le
      _ = (1 / 2) ^ p * 2 ^ Int.log 2 |x| := by rw [h3]; ring
      _ ≤ _ := mul_le_mul_of_nonneg_left h1 (by positivity)

/-- Round to nearest with `p` binary digits and unbounded exponents, sums from the left. -/
noncomputable def binary (p : ℕ) : Rounding where
  u := (1 / 2) ^ p
  u_nonneg := by positivity
  rnd := roundBits p
  rnd_err := roundBits_err p
  sum := seqSum (roundBits p)
  sum_err := seqSum_err (by positivity) (roundBits_err p)
  fsin := Real.sin
  fcos := Real.cos
  fasin := fun _ => 0
  fatan2 := fun _ _ => 0
  finv4 := id

end Verif
