import Verif.Lemmas.RoundedModel
import Verif.Real
import Mathlib.Analysis.Asymptotics.Lemmas
import Mathlib.Analysis.SpecialFunctions.Trigonometric.Bounds

/-!
# Rounded computations that follow exact ones

A family of rounded numbers follows a family of real numbers if the differences are of the order of the unit roundoff and
the real numbers have a limit.  The operations of the rounded arithmetic preserve this.
-/

namespace Verif

open Flt Filter Topology Asymptotics

variable {ι : Type} {L : Filter ι} {A : ι → Rounding}

/-- The elementary functions are accurate up to a multiple of the unit roundoff. -/
structure Rounding.Accurate (A : Rounding) (κ : ℝ) : Prop where
  sin : ∀ y, |A.fsin y - Real.sin y| ≤ κ * A.u
  cos : ∀ y, |A.fcos y - Real.cos y| ≤ κ * A.u

/-- `v` is what the arithmetic stores for the number `a`: accurate up to a multiple of the unit roundoff, and zero is stored
exactly. -/
def Rounding.Stores (A : Rounding) (κ v a : ℝ) : Prop := |v - a| ≤ κ * A.u ∧ (a = 0 → v = 0)

/-- A family of arithmetics with vanishing rounding errors. -/
class Fine (L : Filter ι) (A : ι → Rounding) : Prop where
  unit : Tendsto (fun i => (A i).u) L (𝓝 0)
  acc : ∃ κ, ∀ i, (A i).Accurate κ

/-- `x` follows `a`, which tends to `a0`. -/
def Trk (L : Filter ι) (x : ∀ i, Fl (A i)) (a : ι → ℝ) (a0 : ℝ) : Prop :=
  ((fun i => (x i).val - a i) =O[L] fun i => (A i).u) ∧ Tendsto a L (𝓝 a0)

/-- Vectors. -/
def TrkV {n : ℕ} (L : Filter ι) (x : ∀ i, Vec n (Fl (A i))) (a : ι → Vec n ℝ) (a0 : Vec n ℝ) : Prop :=
  ∀ j, Trk L (fun i => x i j) (fun i => a i j) (a0 j)

/-- Matrices. -/
def TrkM {m n : ℕ} (L : Filter ι) (x : ∀ i, Mat m n (Fl (A i))) (a : ι → Mat m n ℝ) (a0 : Mat m n ℝ) : Prop :=
  ∀ j k, Trk L (fun i => x i j k) (fun i => a i j k) (a0 j k)

/-- Quaternions. -/
def TrkQ (L : Filter ι) (x : ∀ i, Quat (Fl (A i))) (a : ι → Quat ℝ) (a0 : Quat ℝ) : Prop :=
  Trk L (fun i => (x i).w) (fun i => (a i).w) a0.w ∧ Trk L (fun i => (x i).x) (fun i => (a i).x) a0.x ∧
  Trk L (fun i => (x i).y) (fun i => (a i).y) a0.y ∧ Trk L (fun i => (x i).z) (fun i => (a i).z) a0.z

lemma tendsto_of_isBigO_u [h : Fine L A] {f : ι → ℝ} (hf : f =O[L] fun i => (A i).u) : Tendsto f L (𝓝 0) :=
  hf.trans_tendsto h.unit

lemma isBigO_mul_u {f g : ι → ℝ} {c : ℝ} (hf : f =O[L] fun i => (A i).u) (hg : Tendsto g L (𝓝 c)) :
    (fun i => f i * g i) =O[L] fun i => (A i).u := by
  simpa using hf.mul (hg.isBigO_one ℝ)

namespace Trk
variable {x y : ∀ i, Fl (A i)} {a b : ι → ℝ} {a0 b0 : ℝ}

lemma conv [Fine L A] (h : Trk L x a a0) : Tendsto (fun i => (x i).val) L (𝓝 a0) := by
  have := (tendsto_of_isBigO_u h.1).add h.2
  simpa using this

/-- Rounded numbers with exactly these values. -/
lemma exact (h : ∀ i, (x i).val = a i) (ha : Tendsto a L (𝓝 a0)) : Trk L x a a0 := by
  refine ⟨?_, ha⟩
  simp only [h, sub_self]
  exact isBigO_zero _ _

/-- Rounded numbers within a multiple of the unit roundoff. -/
lemma near {κ : ℝ} (h : ∀ i, |(x i).val - a i| ≤ κ * (A i).u) (ha : Tendsto a L (𝓝 a0)) : Trk L x a a0 := by
  refine ⟨IsBigO.of_bound κ (.of_forall fun i => ?_), ha⟩
  rw [Real.norm_eq_abs, Real.norm_eq_abs, abs_of_nonneg (A i).u_nonneg]
  exact h i

/-- Stored constants. -/
lemma stored {κ c : ℝ} (h : ∀ i, (A i).Stores κ (x i).val c) : Trk L x (fun _ => c) c :=
  near (fun i => (h i).1) tendsto_const_nhds

lemma congr (h : Trk L x a a0) (hx : ∀ᶠ i in L, (x i).val = (y i).val) (ha : ∀ᶠ i in L, a i = b i) : Trk L y b a0 :=
  ⟨h.1.congr' (by filter_upwards [hx, ha] with i h1 h2; rw [h1, h2]) .rfl, h.2.congr' ha⟩

lemma limit (h : Trk L x a a0) (e : a0 = b0) : Trk L x a b0 := e ▸ h

lemma rnd' [Fine L A] {v : ι → ℝ} (h : (fun i => v i - a i) =O[L] fun i => (A i).u) (ha : Tendsto a L (𝓝 a0)) :
    (fun i => (A i).rnd (v i) - a i) =O[L] fun i => (A i).u := by
  have hv : Tendsto v L (𝓝 a0) := by simpa using (tendsto_of_isBigO_u h).add ha
  have h1 : (fun i => (A i).rnd (v i) - v i) =O[L] fun i => (A i).u := by
    have h2 : (fun i => (A i).u * |v i|) =O[L] fun i => (A i).u := isBigO_mul_u (isBigO_refl _ _) hv.abs
    refine IsBigO.trans (IsBigO.of_bound 1 (.of_forall fun i => ?_)) h2
    rw [Real.norm_eq_abs, Real.norm_eq_abs, abs_mul, abs_abs, abs_of_nonneg (A i).u_nonneg, one_mul]
    exact (A i).rnd_err _
  simpa using h1.add h

lemma lit [Fine L A] (q : ℚ) : Trk L (fun i => (lit q : Fl (A i))) (fun _ => (lit q : ℝ)) (lit q : ℝ) :=
  ⟨rnd' (v := fun _ => (q : ℝ)) (a := fun _ => (q : ℝ)) (by simpa using isBigO_zero _ _) tendsto_const_nhds, tendsto_const_nhds⟩

lemma add [Fine L A] (hx : Trk L x a a0) (hy : Trk L y b b0) :
    Trk L (fun i => x i ⊞ y i) (fun i => a i ⊞ b i) (a0 ⊞ b0) := by
  refine ⟨rnd' (v := fun i => (x i).val + (y i).val) ?_ (hx.2.add hy.2), hx.2.add hy.2⟩
  refine (hx.1.add hy.1).congr_left fun i => ?_
  show _ = (x i).val + (y i).val - (a i + b i)
  ring

lemma sub [Fine L A] (hx : Trk L x a a0) (hy : Trk L y b b0) :
    Trk L (fun i => x i ⊟ y i) (fun i => a i ⊟ b i) (a0 ⊟ b0) := by
  refine ⟨rnd' (v := fun i => (x i).val - (y i).val) ?_ (hx.2.sub hy.2), hx.2.sub hy.2⟩
  refine (hx.1.sub hy.1).congr_left fun i => ?_
  show _ = (x i).val - (y i).val - (a i - b i)
  ring

lemma mul [Fine L A] (hx : Trk L x a a0) (hy : Trk L y b b0) :
    Trk L (fun i => x i ⊠ y i) (fun i => a i ⊠ b i) (a0 ⊠ b0) := by
  refine ⟨rnd' (v := fun i => (x i).val * (y i).val) ?_ (hx.2.mul hy.2), hx.2.mul hy.2⟩
  refine ((isBigO_mul_u hx.1 hy.conv).add (isBigO_mul_u hy.1 hx.2)).congr_left fun i => ?_
  show _ = (x i).val * (y i).val - (a i * b i)
  ring

lemma div [Fine L A] (hx : Trk L x a a0) (hy : Trk L y b b0) (h0 : b0 ≠ 0) :
    Trk L (fun i => x i ⊘ y i) (fun i => a i ⊘ b i) (a0 ⊘ b0) := by
  have hd := hx.2.div hy.2 h0
  refine ⟨rnd' (v := fun i => (x i).val / (y i).val) ?_ hd, hd⟩
  have e1 : ∀ᶠ i in L, (y i).val ≠ 0 := hy.conv.eventually_ne h0
  have e2 : ∀ᶠ i in L, b i ≠ 0 := hy.2.eventually_ne h0
  have i1 := isBigO_mul_u hx.1 (hy.conv.inv₀ h0)
  have i2 := isBigO_mul_u hy.1 (hd.mul (hy.conv.inv₀ h0))
  refine (i1.sub i2).congr' ?_ .rfl
  filter_upwards [e1, e2] with i h1 h2
  show _ - _ * (a i / b i * (y i).val⁻¹) = (x i).val / (y i).val - a i / b i
  field_simp
  ring

lemma neg (hx : Trk L x a a0) : Trk L (fun i => Flt.neg (x i)) (fun i => Flt.neg (a i)) (Flt.neg a0) := by
  refine ⟨hx.1.neg_left.congr_left fun i => ?_, hx.2.neg⟩
  show _ = -(x i).val - -(a i)
  ring

lemma abs (hx : Trk L x a a0) : Trk L (fun i => Flt.abs (x i)) (fun i => Flt.abs (a i)) (Flt.abs a0) := by
  refine ⟨IsBigO.trans (IsBigO.of_bound 1 (.of_forall fun i => ?_)) hx.1, hx.2.abs⟩
  rw [Real.norm_eq_abs, Real.norm_eq_abs, one_mul]
  exact abs_abs_sub_abs_le_abs_sub _ _

lemma sqrt [Fine L A] (hx : Trk L x a a0) (h0 : 0 < a0) :
    Trk L (fun i => Flt.sqrt (x i)) (fun i => Flt.sqrt (a i)) (Flt.sqrt a0) := by
  refine ⟨rnd' (v := fun i => √(x i).val) ?_ hx.2.sqrt, hx.2.sqrt⟩
  have hs : (0 : ℝ) < √a0 := Real.sqrt_pos.2 h0
  have ht : Tendsto (fun i => √(x i).val + √(a i)) L (𝓝 (√a0 + √a0)) := hx.conv.sqrt.add hx.2.sqrt
  refine (isBigO_mul_u hx.1 (ht.inv₀ (by positivity))).congr' ?_ .rfl
  filter_upwards [hx.conv.eventually_const_lt h0, hx.2.eventually_const_lt h0] with i h1 h2
  show _ = √(x i).val - √(a i)
  have h3 := Real.sqrt_pos.2 h1
  have h4 := Real.sqrt_pos.2 h2
  have e : (x i).val - a i = (√(x i).val - √(a i)) * (√(x i).val + √(a i)) := by
    have := Real.mul_self_sqrt h1.le
    have := Real.mul_self_sqrt h2.le
    nlinarith
  rw [e, mul_assoc, mul_inv_cancel₀ (by positivity), mul_one]

lemma sin [h : Fine L A] (hx : Trk L x a a0) : Trk L (fun i => Flt.sin (x i)) (fun i => Flt.sin (a i)) (Flt.sin a0) := by
  obtain ⟨κ, hκ⟩ := h.acc
  refine ⟨?_, (Real.continuous_sin.tendsto a0).comp hx.2⟩
  have i1 : (fun i => (A i).fsin (x i).val - Real.sin (x i).val) =O[L] fun i => (A i).u :=
    IsBigO.of_bound κ (.of_forall fun i => by
      rw [Real.norm_eq_abs, Real.norm_eq_abs, abs_of_nonneg (A i).u_nonneg]; exact (hκ i).sin _)
  have i2 : (fun i => Real.sin (x i).val - Real.sin (a i)) =O[L] fun i => (A i).u :=
    IsBigO.trans (IsBigO.of_bound 1 (.of_forall fun i => by
      rw [one_mul, Real.norm_eq_abs, Real.norm_eq_abs]
      exact Real.abs_sin_sub_sin_le _ _)) hx.1
  refine (i1.add i2).congr_left fun i => ?_
  show _ = (A i).fsin (x i).val - Real.sin (a i)
  ring

lemma cos [h : Fine L A] (hx : Trk L x a a0) : Trk L (fun i => Flt.cos (x i)) (fun i => Flt.cos (a i)) (Flt.cos a0) := by
  obtain ⟨κ, hκ⟩ := h.acc
  refine ⟨?_, (Real.continuous_cos.tendsto a0).comp hx.2⟩
  have i1 : (fun i => (A i).fcos (x i).val - Real.cos (x i).val) =O[L] fun i => (A i).u :=
    IsBigO.of_bound κ (.of_forall fun i => by
      rw [Real.norm_eq_abs, Real.norm_eq_abs, abs_of_nonneg (A i).u_nonneg]; exact (hκ i).cos _)
  have i2 : (fun i => Real.cos (x i).val - Real.cos (a i)) =O[L] fun i => (A i).u :=
    IsBigO.trans (IsBigO.of_bound 1 (.of_forall fun i => by
      rw [one_mul, Real.norm_eq_abs, Real.norm_eq_abs]
      exact Real.abs_cos_sub_cos_le _ _)) hx.1
  refine (i1.add i2).congr_left fun i => ?_
  show _ = (A i).fcos (x i).val - Real.cos (a i)
  ring

lemma vsum [Fine L A] {n : ℕ} {v : ∀ i, Vec n (Fl (A i))} {c : ι → Vec n ℝ} {c0 : Vec n ℝ} (h : TrkV L v c c0) :
    Trk L (fun i => Flt.vsum (v i)) (fun i => Flt.vsum (c i)) (Flt.vsum c0) := by
  have hl : Tendsto (fun i => ∑ j, c i j) L (𝓝 (∑ j, c0 j)) := tendsto_finsetSum _ fun j _ => (h j).2
  refine ⟨?_, hl⟩
  have i1 : (fun i => ∑ j, (v i j).val - ∑ j, c i j) =O[L] fun i => (A i).u := by
    refine (IsBigO.fun_sum fun j (_ : j ∈ Finset.univ) => (h j).1).congr_left fun i => ?_
    rw [Finset.sum_sub_distrib]
  have i2 : (fun i => (A i).sum (fun j => (v i j).val) - ∑ j, (v i j).val) =O[L] fun i => (A i).u := by
    have hs : Tendsto (fun i => ∑ j, |(v i j).val|) L (𝓝 (∑ j, |c0 j|)) := tendsto_finsetSum _ fun j _ => (h j).conv.abs
    have hb : (fun i => (A i).u * (((1 + 1 : ℝ) ^ n - 1) / 1 * ∑ j, |(v i j).val|)) =O[L] fun i => (A i).u :=
      isBigO_mul_u (isBigO_refl _ _) (hs.const_mul _)
    refine IsBigO.trans (IsBigO.of_bound 1 ?_) hb
    filter_upwards [(Fine.unit (L := L) (A := A)).eventually_le_const zero_lt_one] with i hi
    rw [one_mul, Real.norm_eq_abs, Real.norm_eq_abs]
    refine ((A i).sum_err _).trans ((mul_le_mul_of_nonneg_right ((A i).pow_sub_le zero_lt_one hi n)
      (Finset.sum_nonneg fun _ _ => abs_nonneg _)).trans (le_trans (le_of_eq ?_) (le_abs_self _)))
    ring
  refine (i2.add i1).congr_left fun i => ?_
  show _ = (A i).sum (fun j => (v i j).val) - ∑ j, c i j
  ring

/-- Comparisons have the same outcome. -/
lemma lt_of [Fine L A] (hx : Trk L x a a0) (hy : Trk L y b b0) (h : a0 < b0) :
    ∀ᶠ i in L, Flt.lt (x i) (y i) = true ∧ Flt.lt (y i) (x i) = false := by
  filter_upwards [hx.conv.eventually_lt hy.conv h] with i hi
  exact ⟨decide_eq_true hi, decide_eq_false (not_lt.2 hi.le)⟩

lemma zero_mul {i : ι} {u v : Fl (A i)} (h : u.val = 0) : (u ⊠ v).val = 0 := by
  show (A i).rnd (u.val * v.val) = 0
  rw [h, MulZeroClass.zero_mul, (A i).rnd_zero]

lemma mul_zero {i : ι} {u v : Fl (A i)} (h : v.val = 0) : (u ⊠ v).val = 0 := by
  show (A i).rnd (u.val * v.val) = 0
  rw [h, MulZeroClass.mul_zero, (A i).rnd_zero]

end Trk

namespace TrkV
variable {n m : ℕ} {x y : ∀ i, Vec n (Fl (A i))} {a b : ι → Vec n ℝ} {a0 b0 : Vec n ℝ}
variable {u : ∀ i, Fl (A i)} {c : ι → ℝ} {c0 : ℝ}

lemma vzero [Fine L A] : TrkV (n := n) L (fun i => (Verif.vzero : Vec n (Fl (A i)))) (fun _ => Verif.vzero) Verif.vzero :=
  fun _ => Trk.lit 0
lemma vones [Fine L A] : TrkV (n := n) L (fun i => (Verif.vones : Vec n (Fl (A i)))) (fun _ => Verif.vones) Verif.vones :=
  fun _ => Trk.lit 1
lemma vadd [Fine L A] (hx : TrkV L x a a0) (hy : TrkV L y b b0) :
    TrkV L (fun i => Verif.vadd (x i) (y i)) (fun i => Verif.vadd (a i) (b i)) (Verif.vadd a0 b0) := fun j => (hx j).add (hy j)
lemma vsub [Fine L A] (hx : TrkV L x a a0) (hy : TrkV L y b b0) :
    TrkV L (fun i => Verif.vsub (x i) (y i)) (fun i => Verif.vsub (a i) (b i)) (Verif.vsub a0 b0) := fun j => (hx j).sub (hy j)
lemma vmul [Fine L A] (hx : TrkV L x a a0) (hy : TrkV L y b b0) :
    TrkV L (fun i => Verif.vmul (x i) (y i)) (fun i => Verif.vmul (a i) (b i)) (Verif.vmul a0 b0) := fun j => (hx j).mul (hy j)
lemma smulL [Fine L A] (hu : Trk L u c c0) (hx : TrkV L x a a0) :
    TrkV L (fun i => Verif.smulL (u i) (x i)) (fun i => Verif.smulL (c i) (a i)) (Verif.smulL c0 a0) := fun j => hu.mul (hx j)
lemma smulR [Fine L A] (hx : TrkV L x a a0) (hu : Trk L u c c0) :
    TrkV L (fun i => Verif.smulR (x i) (u i)) (fun i => Verif.smulR (a i) (c i)) (Verif.smulR a0 c0) := fun j => (hx j).mul hu
lemma sdiv [Fine L A] (hx : TrkV L x a a0) (hu : Trk L u c c0) (h0 : c0 ≠ 0) :
    TrkV L (fun i => Verif.sdiv (x i) (u i)) (fun i => Verif.sdiv (a i) (c i)) (Verif.sdiv a0 c0) := fun j => (hx j).div hu h0
lemma dot [Fine L A] (hx : TrkV L x a a0) (hy : TrkV L y b b0) :
    Trk L (fun i => Verif.dot (x i) (y i)) (fun i => Verif.dot (a i) (b i)) (Verif.dot a0 b0) :=
  Trk.vsum fun j => (hx j).mul (hy j)
lemma normSq [Fine L A] (hx : TrkV L x a a0) :
    Trk L (fun i => Verif.normSq (x i)) (fun i => Verif.normSq (a i)) (Verif.normSq a0) :=
  Trk.vsum fun j => (hx j).mul (hx j)

lemma congr (h : TrkV L x a a0) (hx : ∀ᶠ i in L, x i = y i) (ha : ∀ᶠ i in L, a i = b i) : TrkV L y b a0 := fun j =>
  (h j).congr (hx.mono fun i e => by rw [e]) (ha.mono fun i e => by rw [e])

lemma limit (h : TrkV L x a a0) (e : a0 = b0) : TrkV L x a b0 := e ▸ h

lemma mv [Fine L A] {M : ∀ i, Mat m n (Fl (A i))} {N : ι → Mat m n ℝ} {N0 : Mat m n ℝ} (hM : TrkM L M N N0) (hx : TrkV L x a a0) :
    TrkV L (fun i => Verif.mv (M i) (x i)) (fun i => Verif.mv (N i) (a i)) (Verif.mv N0 a0) := fun j =>
  Trk.vsum fun k => (hM j k).mul (hx k)

lemma of3 {v : ∀ i, Vec 3 (Fl (A i))} {e : ι → Vec 3 ℝ} {e0 : Vec 3 ℝ} (h0 : Trk L (fun i => v i 0) (fun i => e i 0) (e0 0))
    (h1 : Trk L (fun i => v i 1) (fun i => e i 1) (e0 1)) (h2 : Trk L (fun i => v i 2) (fun i => e i 2) (e0 2)) :
    TrkV L v e e0 := fun j => by
  match j with
  | 0 => exact h0
  | 1 => exact h1
  | 2 => exact h2

lemma of4 {v : ∀ i, Vec 4 (Fl (A i))} {e : ι → Vec 4 ℝ} {e0 : Vec 4 ℝ} (h0 : Trk L (fun i => v i 0) (fun i => e i 0) (e0 0))
    (h1 : Trk L (fun i => v i 1) (fun i => e i 1) (e0 1)) (h2 : Trk L (fun i => v i 2) (fun i => e i 2) (e0 2))
    (h3 : Trk L (fun i => v i 3) (fun i => e i 3) (e0 3)) : TrkV L v e e0 := fun j => by
  match j with
  | 0 => exact h0
  | 1 => exact h1
  | 2 => exact h2
  | 3 => exact h3

lemma cross [Fine L A] {x y : ∀ i, Vec 3 (Fl (A i))} {a b : ι → Vec 3 ℝ} {a0 b0 : Vec 3 ℝ} (hx : TrkV L x a a0)
    (hy : TrkV L y b b0) :
    TrkV L (fun i => Verif.cross (x i) (y i)) (fun i => Verif.cross (a i) (b i)) (Verif.cross a0 b0) :=
  .of3 (((hx 1).mul (hy 2)).sub ((hx 2).mul (hy 1))) (((hx 2).mul (hy 0)).sub ((hx 0).mul (hy 2)))
    (((hx 0).mul (hy 1)).sub ((hx 1).mul (hy 0)))

lemma normalized [Fine L A] (hx : TrkV L x a a0) (h0 : 0 < Verif.normSq a0) :
    TrkV L (fun i => Verif.normalized (x i)) (fun i => Verif.normalized (a i)) (Verif.normalized a0) := by
  have hn := hx.normSq
  have h1 : (0 : ℝ) < Flt.sqrt (Verif.normSq a0) := Real.sqrt_pos.2 h0
  have hz : (Flt.lit 0 : ℝ) = 0 := lit_zero
  have key := hx.sdiv (hn.sqrt h0) h1.ne'
  have e0 : Verif.sdiv a0 (Flt.sqrt (Verif.normSq a0)) = Verif.normalized a0 := by
    unfold Verif.normalized
    rw [if_pos]
    simpa [flt] using h0
  refine (key.congr ?_ ?_).limit e0
  · filter_upwards [(Trk.lit (L := L) 0).lt_of hn (by rw [hz]; exact h0)] with i hi
    unfold Verif.normalized
    rw [if_pos hi.1]
  · filter_upwards [hn.2.eventually_const_lt h0] with i hi
    unfold Verif.normalized
    rw [if_pos]
    simpa [flt] using hi

end TrkV

lemma TrkV.const {n : ℕ} (v : Vec n ℝ) : TrkV (A := A) L (fun i => liftV (A i) v) (fun _ => v) v := fun _ =>
  Trk.exact (fun _ => rfl) tendsto_const_nhds

lemma TrkM.const {m n : ℕ} (v : Mat m n ℝ) : TrkM (A := A) L (fun i => liftMat (A i) v) (fun _ => v) v := fun _ _ =>
  Trk.exact (fun _ => rfl) tendsto_const_nhds

lemma TrkM.col {m n : ℕ} {M : ∀ i, Mat m n (Fl (A i))} {N : ι → Mat m n ℝ} {N0 : Mat m n ℝ} (hM : TrkM L M N N0) (j : Fin n) :
    TrkV L (fun i r => M i r j) (fun i r => N i r j) (fun r => N0 r j) := fun r => hM r j

/-! ### Signed squares and roots -/

section
variable [Fine L A] {x : ∀ i, Fl (A i)} {a : ι → ℝ} {a0 : ℝ}

lemma Trk.sign_pos (hx : Trk L x a a0) (h0 : 0 < a0) :
    Trk L (fun i => Verif.sign (x i)) (fun i => Verif.sign (a i)) (Verif.sign a0) := by
  have hz : (Flt.lit 0 : ℝ) = 0 := lit_zero
  have e0 : Verif.sign a0 = Flt.lit 1 := by simp [Verif.sign, flt, h0]
  refine ((Trk.lit (L := L) (A := A) 1).congr ?_ ?_).limit e0.symm
  · filter_upwards [(Trk.lit (L := L) 0).lt_of hx (by rw [hz]; exact h0)] with i hi
    unfold Verif.sign
    rw [if_pos hi.1]
  · filter_upwards [hx.2.eventually_const_lt h0] with i hi
    simp [Verif.sign, flt, hi]

end

/-- The signed square, at zero as well. -/
lemma Trk.signedSquare [Fine L A] {x : ∀ i, Fl (A i)} {a : ι → ℝ} {a0 : ℝ} (hx : Trk L x a a0) :
    Trk L (fun i => (x i ⊠ x i) ⊠ Verif.sign (x i)) (fun i => (a i ⊠ a i) ⊠ Verif.sign (a i)) ((a0 ⊠ a0) ⊠ Verif.sign a0) := by
  have er : ∀ b : ℝ, (b ⊠ b) ⊠ Verif.sign b = b * |b| := fun b => by
    rw [sign_real]
    simp only [flt]
    rcases lt_trichotomy b 0 with h | h | h
    · rw [if_neg (not_lt.2 h.le), if_pos h, abs_of_neg h]; ring
    · simp [h]
    · rw [if_pos h, abs_of_pos h]; ring
  simp only [er]
  set s : ι → ℝ := fun i => if 0 < (x i).val then 1 else if (x i).val < 0 then -1 else 0 with hs
  have hsx : ∀ i, (x i).val * (x i).val * s i = (x i).val * |(x i).val| := fun i => by
    simp only [hs]
    rcases lt_trichotomy (x i).val 0 with h | h | h
    · rw [if_neg (not_lt.2 h.le), if_pos h, abs_of_neg h]; ring
    · simp [h]
    · rw [if_pos h, abs_of_pos h]; ring
  have hse : ∀ i, |(Verif.sign (x i)).val - s i| ≤ (A i).u := fun i => by
    have z : (Flt.lit 0 : Fl (A i)).val = 0 := by
      show (A i).rnd ((0 : ℚ) : ℝ) = 0
      simp
    have p1 : |(Flt.lit 1 : Fl (A i)).val - 1| ≤ (A i).u := by
      have := (A i).rnd_err ((1 : ℚ) : ℝ)
      simpa [Flt.lit] using this
    have p2 : |(Flt.lit (-1) : Fl (A i)).val - -1| ≤ (A i).u := by
      have := (A i).rnd_err ((-1 : ℚ) : ℝ)
      simpa [Flt.lit] using this
    have c1 : Flt.lt (Flt.lit 0) (x i) = decide (0 < (x i).val) := by
      show decide ((Flt.lit 0 : Fl (A i)).val < (x i).val) = _
      rw [z]
    have c2 : Flt.lt (x i) (Flt.lit 0) = decide ((x i).val < 0) := by
      show decide ((x i).val < (Flt.lit 0 : Fl (A i)).val) = _
      rw [z]
    unfold Verif.sign
    rw [c1, c2]
    simp only [hs]
    by_cases h1 : 0 < (x i).val
    · simpa [h1] using p1
    · by_cases h2 : (x i).val < 0
      · simpa [h1, h2] using p2
      · simpa [h1, h2, z] using (A i).u_nonneg
  have sb : ∀ i, |s i| ≤ 1 := fun i => by
    simp only [hs]
    split
    · simp
    · split <;> simp
  have hu := Fine.unit (L := L) (A := A)
  have b1 : (fun i => (Verif.sign (x i)).val) =O[L] fun _ => (1 : ℝ) := by
    refine IsBigO.of_bound 2 ?_
    filter_upwards [hu.eventually_le_const zero_lt_one] with i hi
    rw [Real.norm_eq_abs, norm_one, mul_one]
    have h1 := hse i
    have h2 := sb i
    have h3 := abs_sub_abs_le_abs_sub (Verif.sign (x i)).val (s i)
    linarith
  have i0 : (fun i => (A i).rnd ((x i).val * (x i).val) - (x i).val * (x i).val) =O[L] fun i => (A i).u :=
    Trk.rnd' (v := fun i => (x i).val * (x i).val) (a := fun i => (x i).val * (x i).val) (by simpa using isBigO_zero _ _)
      (hx.conv.mul hx.conv)
  have i1 : (fun i => ((A i).rnd ((x i).val * (x i).val) - (x i).val * (x i).val) * (Verif.sign (x i)).val) =O[L]
      fun i => (A i).u := by simpa using i0.mul b1
  have i2 : (fun i => ((Verif.sign (x i)).val - s i) * ((x i).val * (x i).val)) =O[L] fun i => (A i).u := by
    refine isBigO_mul_u (IsBigO.of_bound 1 (.of_forall fun i => ?_)) (hx.conv.mul hx.conv)
    rw [one_mul, Real.norm_eq_abs, Real.norm_eq_abs, abs_of_nonneg (A i).u_nonneg]
    exact hse i
  have i3 : (fun i => (x i).val * |(x i).val| - a i * |a i|) =O[L] fun i => (A i).u := by
    have j1 := isBigO_mul_u hx.1 hx.conv.abs
    have j2 := isBigO_mul_u (hx.abs).1 hx.2
    refine (j1.add j2).congr_left fun i => ?_
    show _ + (|(x i).val| - |a i|) * a i = _
    ring
  have hl : Tendsto (fun i => a i * |a i|) L (𝓝 (a0 * |a0|)) := hx.2.mul hx.2.abs
  refine ⟨Trk.rnd' (v := fun i => (A i).rnd ((x i).val * (x i).val) * (Verif.sign (x i)).val) ?_ hl, hl⟩
  refine ((i1.add i2).add i3).congr_left fun i => ?_
  rw [← hsx i]
  ring

lemma TrkV.squaredKeepSign [Fine L A] {n : ℕ} {x : ∀ i, Vec n (Fl (A i))} {a : ι → Vec n ℝ} {a0 : Vec n ℝ}
    (hx : TrkV L x a a0) :
    TrkV L (fun i => Verif.squaredKeepSign (x i)) (fun i => Verif.squaredKeepSign (a i)) (Verif.squaredKeepSign a0) := fun j =>
  (hx j).signedSquare

lemma TrkV.sqrtKeepSign [Fine L A] {n : ℕ} {x : ∀ i, Vec n (Fl (A i))} {a : ι → Vec n ℝ} {a0 : Vec n ℝ}
    (hx : TrkV L x a a0) (h0 : ∀ j, 0 < a0 j) :
    TrkV L (fun i => Verif.sqrtKeepSign (x i)) (fun i => Verif.sqrtKeepSign (a i)) (Verif.sqrtKeepSign a0) := fun j =>
  (((hx j).abs).sqrt (abs_pos.2 (h0 j).ne')).mul ((hx j).sign_pos (h0 j))

end Verif
