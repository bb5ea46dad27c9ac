import Verif.Real

/-!
# Extended real arithmetic with NaN

`XReal` is exact real arithmetic with IEEE-754 infinities and NaN: comparisons with NaN are false,
`0/0`, `∞-∞`, `0*∞` are NaN, `x/0` is an infinity.  Rounding, overflow and the sign of zero are not
represented (`x/0` takes the sign of `x`).  Used for the properties about NaN propagation only.
-/

namespace Verif

open Flt

/-- Extended reals with NaN. -/
inductive XReal where
  | nan
  | ninf
  | pinf
  | fin (r : ℝ)

namespace XReal

open Classical

/-- Sign in `{-1, 0, 1}` of a non-NaN value. -/
noncomputable def sgn : XReal → ℝ
  | nan => 0
  | ninf => -1
  | pinf => 1
  | fin r => if 0 < r then 1 else if r < 0 then -1 else 0

/-- Infinity with the sign of `s`; NaN for sign zero. -/
noncomputable def infOf (s : ℝ) : XReal := if 0 < s then pinf else if s < 0 then ninf else nan

/-- IEEE addition without rounding. -/
noncomputable def add : XReal → XReal → XReal
  | nan, _ => nan
  | _, nan => nan
  | fin a, fin b => fin (a + b)
  | pinf, ninf => nan
  | ninf, pinf => nan
  | pinf, _ => pinf
  | _, pinf => pinf
  | ninf, _ => ninf
  | _, ninf => ninf

/-- IEEE negation. -/
noncomputable def neg : XReal → XReal
  | nan => nan
  | ninf => pinf
  | pinf => ninf
  | fin r => fin (-r)

/-- IEEE multiplication without rounding. -/
noncomputable def mul : XReal → XReal → XReal
  | nan, _ => nan
  | _, nan => nan
  | fin a, fin b => fin (a * b)
  | a, b => infOf (a.sgn * b.sgn)

/-- IEEE division without rounding; `x / 0` has the sign of `x`. -/
noncomputable def div : XReal → XReal → XReal
  | nan, _ => nan
  | _, nan => nan
  | fin a, fin b => if b = 0 then infOf (fin a).sgn else fin (a / b)
  | fin _, _ => fin 0
  | a, fin b => infOf (a.sgn * (if b < 0 then -1 else 1))
  | _, _ => nan

/-- IEEE `<`. -/
noncomputable def lt : XReal → XReal → Bool
  | nan, _ => false
  | _, nan => false
  | fin a, fin b => decide (a < b)
  | ninf, ninf => false
  | ninf, _ => true
  | _, ninf => false
  | pinf, _ => false
  | _, pinf => true

/-- IEEE `==`. -/
noncomputable def beq : XReal → XReal → Bool
  | fin a, fin b => decide (a = b)
  | ninf, ninf => true
  | pinf, pinf => true
  | _, _ => false

/-- Absolute value. -/
noncomputable def abs : XReal → XReal
  | nan => nan
  | fin r => fin |r|
  | _ => pinf

/-- A real function extended by NaN outside the finite values. -/
noncomputable def lift (f : ℝ → ℝ) : XReal → XReal
  | fin r => fin (f r)
  | _ => nan

/-- Finite part; zero for the others. -/
def toReal : XReal → ℝ
  | fin r => r
  | _ => 0

/-- All entries finite? -/
def AllFin {m n : ℕ} (A : Matrix (Fin m) (Fin n) XReal) : Prop := ∀ i j, ∃ r, A i j = fin r

/-- Extended real arithmetic as an instance of the scalar interface. -/
noncomputable instance instFltXReal : Flt XReal where
  lit q := fin q
  pi := fin Real.pi
  eps := fin ((1 / 4503599627370496 : ℚ) : ℝ)
  add := add
  sub a b := add a (neg b)
  mul := mul
  div := div
  neg := neg
  abs := abs
  sqrt
    | fin r => if r < 0 then nan else fin (Real.sqrt r)
    | pinf => pinf
    | _ => nan
  sin := lift Real.sin
  cos := lift Real.cos
  asin
    | fin r => if |r| ≤ 1 then fin (Real.arcsin r) else nan
    | _ => nan
  atan2
    | fin y, fin x => fin (Complex.arg ⟨x, y⟩)
    | _, _ => nan
  copysign a b := if lt b (fin 0) then neg (abs a) else abs a
  lt := lt
  le a b := lt a b || beq a b
  beq := beq
  signbit a := lt a (fin 0)
  vsum f := (List.ofFn f).foldl add (fin 0)
  det3 A := if AllFin A then fin (Matrix.det (A.map toReal)) else nan
  inv3 A := if AllFin A ∧ Matrix.det (A.map toReal) ≠ 0 then ((A.map toReal)⁻¹).map fin else fun _ _ => nan
  inv4 A := if AllFin A ∧ Matrix.det (A.map toReal) ≠ 0 then ((A.map toReal)⁻¹).map fin else fun _ _ => nan

instance : LawfulFlt XReal where
  lt_irrefl a := by cases a <;> simp [Flt.lt, lt]
  lt_asymm a b h := by
    cases a <;> cases b <;> simp_all [Flt.lt, lt]
    exact h.le

section
variable (a b : XReal) (x y : ℝ)

@[simp] lemma add_nan_left : (nan : XReal) ⊞ a = nan := by cases a <;> rfl
@[simp] lemma add_nan_right : a ⊞ (nan : XReal) = nan := by cases a <;> rfl
@[simp] lemma sub_nan_left : (nan : XReal) ⊟ a = nan := by cases a <;> rfl
@[simp] lemma sub_nan_right : a ⊟ (nan : XReal) = nan := by cases a <;> rfl
@[simp] lemma mul_nan_left : (nan : XReal) ⊠ a = nan := by cases a <;> rfl
@[simp] lemma mul_nan_right : a ⊠ (nan : XReal) = nan := by cases a <;> rfl
@[simp] lemma div_nan_left : (nan : XReal) ⊘ a = nan := by cases a <;> rfl
@[simp] lemma div_nan_right : a ⊘ (nan : XReal) = nan := by cases a <;> rfl
@[simp] lemma lt_nan_left : Flt.lt (nan : XReal) a = false := by cases a <;> rfl
@[simp] lemma lt_nan_right : Flt.lt a (nan : XReal) = false := by cases a <;> rfl
@[simp] lemma le_nan_left : Flt.le (nan : XReal) a = false := by cases a <;> rfl
@[simp] lemma le_nan_right : Flt.le a (nan : XReal) = false := by cases a <;> rfl
@[simp] lemma beq_nan_left : Flt.beq (nan : XReal) a = false := by cases a <;> rfl
@[simp] lemma beq_nan_right : Flt.beq a (nan : XReal) = false := by cases a <;> rfl
@[simp] lemma fin_add : (fin x ⊞ fin y : XReal) = fin (x + y) := rfl
@[simp] lemma fin_sub : (fin x ⊟ fin y : XReal) = fin (x - y) := by
  show add (fin x) (neg (fin y)) = _
  simp [add, neg, sub_eq_add_neg]
@[simp] lemma fin_mul : (fin x ⊠ fin y : XReal) = fin (x * y) := rfl
@[simp] lemma fin_lt : Flt.lt (fin x) (fin y) = decide (x < y) := rfl
@[simp] lemma fin_beq : Flt.beq (fin x) (fin y) = decide (x = y) := rfl
@[simp] lemma fin_le : Flt.le (fin x) (fin y) = decide (x ≤ y) := by
  show (decide (x < y) || decide (x = y)) = _
  simp [le_iff_lt_or_eq]
@[simp] lemma lit_fin (q : ℚ) : (Flt.lit q : XReal) = fin q := rfl
lemma fin_div {y : ℝ} (h : y ≠ 0) : (fin x ⊘ fin y : XReal) = fin (x / y) := by
  show div (fin x) (fin y) = _
  simp [div, h]
@[simp] lemma zero_div_zero : (fin 0 ⊘ fin 0 : XReal) = nan := by
  show div (fin 0) (fin 0) = _
  simp [div, sgn, infOf]

lemma foldl_nan (l : List XReal) : l.foldl add nan = nan := by
  induction l with
  | nil => rfl
  | cons a l ih => simpa using (by cases a <;> simpa [add] using ih)

lemma foldl_mem_nan (l : List XReal) (a : XReal) (h : nan ∈ l) : l.foldl add a = nan := by
  induction l generalizing a with
  | nil => simp at h
  | cons b l ih =>
    rcases List.mem_cons.1 h with h | h
    · subst h
      rw [List.foldl_cons, show add a nan = nan by cases a <;> rfl, foldl_nan]
    · exact ih _ h

/-- A sum with a NaN summand is NaN. -/
lemma vsum_nan {n : ℕ} (f : Fin n → XReal) (i : Fin n) (h : f i = nan) : Flt.vsum f = nan :=
  foldl_mem_nan _ _ (by rw [List.mem_ofFn]; exact ⟨i, h⟩)

lemma foldl_fin (l : List ℝ) (x : ℝ) : (l.map fin).foldl add (fin x) = fin (x + l.sum) := by
  induction l generalizing x with
  | nil => simp
  | cons a l ih => simp [add, ih, add_assoc]

lemma vsum_fin {n : ℕ} (f : Fin n → ℝ) : Flt.vsum (fun i => fin (f i)) = fin (∑ i, f i) := by
  show (List.ofFn fun i => fin (f i)).foldl add (fin 0) = _
  rw [show (fun i => fin (f i)) = fin ∘ f from rfl, ← List.map_ofFn, foldl_fin, zero_add, List.sum_ofFn]

/-- Non-NaN values are totally ordered. -/
lemma le_of_not_lt {a b : XReal} (ha : a ≠ nan) (hb : b ≠ nan) (h : Flt.lt a b = false) :
    Flt.le b a = true := by
  cases a <;> cases b <;> simp_all [Flt.lt, lt, Flt.le, beq]
  exact lt_or_eq_of_le h

lemma le_refl {a : XReal} (ha : a ≠ nan) : Flt.le a a = true := by
  cases a <;> simp_all [Flt.le, lt, beq]

end

end XReal

end Verif
