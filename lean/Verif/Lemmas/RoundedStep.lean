import Verif.Lemmas.RoundedModel
import Verif.Real
import Mathlib.Analysis.Normed.Group.Constructions

/-!
# Helper lemmas: a computation in rounded arithmetic approximates the same computation over the reals
-/

namespace Verif

open Flt

variable {X : Type} [Norm X]

/-- On every ball, for all sufficiently precise arithmetics, `f` is within a multiple of `u` of `g`, and `g` is
bounded. -/
def App (f : Rounding → X → ℝ) (g : X → ℝ) : Prop :=
  ∀ R : ℝ, ∃ K c, 0 ≤ K ∧ 0 < c ∧ ∀ A : Rounding, A.u ≤ c → ∀ x, ‖x‖ ≤ R → |f A x - g x| ≤ K * A.u ∧ |g x| ≤ K

namespace App

variable {f f' : Rounding → X → ℝ} {g g' : X → ℝ}

/-- Common constants, for an arithmetic with `u ≤ 1`. -/
lemma both (h : App f g) (h' : App f' g') (R : ℝ) : ∃ K c, 0 ≤ K ∧ 0 < c ∧ c ≤ 1 ∧ ∀ A : Rounding, A.u ≤ c → ∀ x, ‖x‖ ≤ R →
    (|f A x - g x| ≤ K * A.u ∧ |g x| ≤ K) ∧ |f' A x - g' x| ≤ K * A.u ∧ |g' x| ≤ K := by
  obtain ⟨K, c, hK, hc, h1⟩ := h R
  obtain ⟨L, d, hL, hd, h2⟩ := h' R
  refine ⟨K + L, min 1 (min c d), add_nonneg hK hL, lt_min one_pos (lt_min hc hd), min_le_left _ _, fun A hA x hx => ?_⟩
  have hA' := hA.trans (min_le_right _ _)
  obtain ⟨a1, a2⟩ := h1 A (hA'.trans (min_le_left _ _)) x hx
  obtain ⟨b1, b2⟩ := h2 A (hA'.trans (min_le_right _ _)) x hx
  have p1 := mul_nonneg hK A.u_nonneg
  have p2 := mul_nonneg hL A.u_nonneg
  exact ⟨⟨by linarith, by linarith⟩, by linarith, by linarith⟩

lemma exact (h : ∀ R : ℝ, ∃ K, ∀ x : X, ‖x‖ ≤ R → |g x| ≤ K) : App (fun _ x => g x) g := by
  intro R
  obtain ⟨K, hK⟩ := h R
  refine ⟨max K 0, 1, le_max_right _ _, one_pos, fun A _ x hx => ⟨?_, (hK x hx).trans (le_max_left _ _)⟩⟩
  rw [sub_self, abs_zero]
  exact mul_nonneg (le_max_right _ _) A.u_nonneg

lemma const (c : ℝ) : App (fun _ _ => c) (fun _ : X => c) := exact fun _ => ⟨|c|, fun _ _ => le_rfl⟩

lemma rnd (h : App f g) : App (fun A x => A.rnd (f A x)) g := by
  intro R
  obtain ⟨K, c, hK, hc, hc1, h1⟩ := h.both h R
  refine ⟨3 * K, c, by positivity, hc, fun A hA x hx => ?_⟩
  obtain ⟨⟨a1, a2⟩, -⟩ := h1 A hA x hx
  have hu := A.u_nonneg
  have h2 := A.rnd_err (f A x)
  have h3 : |f A x| ≤ 2 * K := by
    have := abs_sub_abs_le_abs_sub (f A x) (g x)
    nlinarith
  have e : A.rnd (f A x) - g x = (A.rnd (f A x) - f A x) + (f A x - g x) := by ring
  refine ⟨?_, by linarith⟩
  rw [e]
  refine (abs_add_le _ _).trans ?_
  nlinarith

lemma add (h : App f g) (h' : App f' g') : App (fun A x => f A x + f' A x) (fun x => g x + g' x) := by
  intro R
  obtain ⟨K, c, hK, hc, hc1, h1⟩ := h.both h' R
  refine ⟨2 * K, c, by positivity, hc, fun A hA x hx => ?_⟩
  obtain ⟨⟨a1, a2⟩, b1, b2⟩ := h1 A hA x hx
  have e : f A x + f' A x - (g x + g' x) = (f A x - g x) + (f' A x - g' x) := by ring
  rw [e]
  have := abs_add_le (f A x - g x) (f' A x - g' x)
  have := abs_add_le (g x) (g' x)
  exact ⟨by linarith, by linarith⟩

lemma mul (h : App f g) (h' : App f' g') : App (fun A x => f A x * f' A x) (fun x => g x * g' x) := by
  intro R
  obtain ⟨K, c, hK, hc, hc1, h1⟩ := h.both h' R
  refine ⟨3 * (K * K), c, by positivity, hc, fun A hA x hx => ?_⟩
  obtain ⟨⟨a1, a2⟩, b1, b2⟩ := h1 A hA x hx
  have hu := A.u_nonneg
  have h3 : |f A x| ≤ 2 * K := by
    have := abs_sub_abs_le_abs_sub (f A x) (g x)
    nlinarith
  have e : f A x * f' A x - g x * g' x = f A x * (f' A x - g' x) + (f A x - g x) * g' x := by ring
  rw [e]
  refine ⟨(abs_add_le _ _).trans ?_, ?_⟩
  · rw [abs_mul, abs_mul]
    have t1 := mul_le_mul h3 b1 (abs_nonneg _) (by positivity)
    have t2 := mul_le_mul a1 b2 (abs_nonneg _) (by positivity)
    nlinarith
  · rw [abs_mul]
    have := mul_le_mul a2 b2 (abs_nonneg _) hK
    nlinarith [mul_self_nonneg K]

lemma neg (h : App f g) : App (fun A x => -f A x) (fun x => -g x) := by
  intro R
  obtain ⟨K, c, hK, hc, h1⟩ := h R
  refine ⟨K, c, hK, hc, fun A hA x hx => ?_⟩
  obtain ⟨a1, a2⟩ := h1 A hA x hx
  rw [← neg_sub', abs_neg, abs_neg]
  exact ⟨a1, a2⟩

lemma sub (h : App f g) (h' : App f' g') : App (fun A x => f A x - f' A x) (fun x => g x - g' x) := by
  have := h.add h'.neg
  simpa only [sub_eq_add_neg] using this

lemma div_const (h : App f g) (c : ℝ) : App (fun A x => f A x / c) (fun x => g x / c) := by
  have := h.mul (const c⁻¹)
  simpa only [div_eq_mul_inv] using this

lemma finsum {n : ℕ} {f : Fin n → Rounding → X → ℝ} {g : Fin n → X → ℝ} (h : ∀ i, App (f i) (g i)) (s : Finset (Fin n)) :
    App (fun A x => ∑ i ∈ s, f i A x) (fun x => ∑ i ∈ s, g i x) := by
  classical
  induction s using Finset.induction_on with
  | empty => simpa using const (X := X) 0
  | insert k s hk ih =>
    simp only [Finset.sum_insert hk]
    exact (h k).add ih

lemma sum {n : ℕ} {f : Fin n → Rounding → X → ℝ} {g : Fin n → X → ℝ} (h : ∀ i, App (f i) (g i)) :
    App (fun A x => A.sum fun i => f i A x) (fun x => ∑ i, g i x) := by
  intro R
  obtain ⟨K, c, hK, hc, h1⟩ := finsum h Finset.univ R
  choose L d hL hd h2 using fun i => h i R
  obtain ⟨e, he, he'⟩ : ∃ e : ℝ, 0 < e ∧ e ≤ 1 ∧ ∀ i, e ≤ d i := by
    clear h1 h2
    classical
    set S : Finset ℝ := insert 1 (Finset.univ.image d) with hS
    have hne : S.Nonempty := ⟨1, by simp [hS]⟩
    refine ⟨S.min' hne, ?_, S.min'_le _ (by simp [hS]), fun i => S.min'_le _ (by simp [hS])⟩
    rw [Finset.lt_min'_iff]
    intro y hy
    simp only [hS, Finset.mem_insert, Finset.mem_image, Finset.mem_univ, true_and] at hy
    rcases hy with rfl | ⟨i, rfl⟩
    · exact one_pos
    · exact hd i
  have hS0 : 0 ≤ ∑ i, 2 * L i := Finset.sum_nonneg fun i _ => by have := hL i; positivity
  have h2n : (0 : ℝ) ≤ 2 ^ n := by positivity
  refine ⟨K + 2 ^ n * ∑ i, 2 * L i, min c e, by positivity, lt_min hc he, fun A hA x hx => ?_⟩
  have hu := A.u_nonneg
  have hue := hA.trans (min_le_right _ _)
  obtain ⟨a1, a2⟩ := h1 A (hA.trans (min_le_left _ _)) x hx
  refine ⟨?_, by nlinarith⟩
  have hs := A.sum_err fun i => f i A x
  have hb : ∑ i, |f i A x| ≤ ∑ i, 2 * L i := by
    refine Finset.sum_le_sum fun i _ => ?_
    obtain ⟨b1, b2⟩ := h2 i A (hue.trans (he'.2 i)) x hx
    have := abs_sub_abs_le_abs_sub (f i A x) (g i x)
    have := hL i
    have : L i * A.u ≤ L i * 1 := mul_le_mul_of_nonneg_left (hue.trans he'.1) (hL i)
    linarith
  have hp := A.pow_sub_le (c := 1) one_pos (hue.trans he'.1) n
  rw [div_one] at hp
  have hp' : (1 + A.u) ^ n - 1 ≤ 2 ^ n * A.u := by
    refine hp.trans (mul_le_mul_of_nonneg_right ?_ hu)
    norm_num
  have t := mul_le_mul hp' hb (Finset.sum_nonneg fun i _ => abs_nonneg _) (by positivity)
  have e1 : (A.sum fun i => f i A x) - ∑ i, g i x = ((A.sum fun i => f i A x) - ∑ i, f i A x) + (∑ i, f i A x - ∑ i, g i x) := by
    ring
  rw [e1]
  refine (abs_add_le _ _).trans ?_
  nlinarith

/-- Finitely many approximations have common constants. -/
lemma uniform {κ : Type} [Fintype κ] {f : κ → Rounding → X → ℝ} {g : κ → X → ℝ} (h : ∀ i, App (f i) (g i)) (R : ℝ) :
    ∃ K c, 1 ≤ K ∧ 0 < c ∧ ∀ A : Rounding, A.u ≤ c → ∀ x, ‖x‖ ≤ R → ∀ i, |f i A x - g i x| ≤ K * A.u ∧ |g i x| ≤ K := by
  choose L d hL hd h2 using fun i => h i R
  obtain ⟨e, he, he'⟩ : ∃ e : ℝ, 0 < e ∧ ∀ i, e ≤ d i := by
    clear h2
    classical
    set S : Finset ℝ := insert 1 (Finset.univ.image d) with hS
    have hne : S.Nonempty := ⟨1, by simp [hS]⟩
    refine ⟨S.min' hne, ?_, fun i => S.min'_le _ (by simp [hS])⟩
    rw [Finset.lt_min'_iff]
    intro y hy
    simp only [hS, Finset.mem_insert, Finset.mem_image, Finset.mem_univ, true_and] at hy
    rcases hy with rfl | ⟨i, rfl⟩
    · exact one_pos
    · exact hd i
  have hS : ∀ i, L i ≤ 1 + ∑ i, L i := fun i => by
    have := Finset.single_le_sum (f := L) (fun i _ => hL i) (Finset.mem_univ i)
    linarith
  refine ⟨1 + ∑ i, L i, e, by linarith [Finset.sum_nonneg fun i (_ : i ∈ Finset.univ) => hL i], he, fun A hA x hx i => ?_⟩
  obtain ⟨b1, b2⟩ := h2 i A (hA.trans (he' i)) x hx
  exact ⟨b1.trans (mul_le_mul_of_nonneg_right (hS i) A.u_nonneg), b2.trans (hS i)⟩

/-- The reciprocal of an approximation of a non-zero constant. -/
lemma one_div {c : ℝ} (hc0 : c ≠ 0) (h : App f (fun _ => c)) : App (fun A x => 1 / f A x) (fun _ => 1 / c) := by
  intro R
  obtain ⟨K, d, hK, hd, h1⟩ := h R
  have hc : 0 < |c| := abs_pos.2 hc0
  refine ⟨2 * K / (|c| * |c|) + 1 / |c|, min d (|c| / (2 * (K + 1))), by positivity, lt_min hd (by positivity), fun A hA x hx => ?_⟩
  have hu := A.u_nonneg
  obtain ⟨a1, -⟩ := h1 A (hA.trans (min_le_left _ _)) x hx
  have hu2 : K * A.u ≤ |c| / 2 := by
    have := hA.trans (min_le_right _ _)
    rw [le_div_iff₀ (by positivity)] at this
    nlinarith
  have hf : |c| / 2 ≤ |f A x| := by
    have := abs_sub_abs_le_abs_sub c (f A x)
    rw [abs_sub_comm] at this
    linarith
  have hf0 : f A x ≠ 0 := abs_pos.1 (by linarith)
  refine ⟨?_, ?_⟩
  · have e : 1 / f A x - 1 / c = -(f A x - c) / (f A x * c) := by field_simp; ring
    rw [e, abs_div, abs_neg, abs_mul, div_le_iff₀ (by positivity)]
    have e2 : (2 * K / (|c| * |c|) + 1 / |c|) * A.u * (|f A x| * |c|) =
        (K * A.u) * (2 * |f A x| / |c|) + A.u * |f A x| := by field_simp
    rw [e2]
    have h3 : 1 ≤ 2 * |f A x| / |c| := by rw [le_div_iff₀ hc]; linarith
    have h4 : K * A.u ≤ K * A.u * (2 * |f A x| / |c|) := le_mul_of_one_le_right (by positivity) h3
    have h5 : 0 ≤ A.u * |f A x| := by positivity
    linarith
  · rw [abs_div, abs_one]
    have : 0 ≤ 2 * K / (|c| * |c|) := by positivity
    linarith

lemma congr {f₂ : Rounding → X → ℝ} {g₂ : X → ℝ} (h : App f g) (hf : ∀ A x, f₂ A x = f A x) (hg : ∀ x, g₂ x = g x) : App f₂ g₂ := by
  have e1 : f₂ = f := by funext A x; exact hf A x
  have e2 : g₂ = g := by funext x; exact hg x
  rw [e1, e2]
  exact h

end App

/-! ## The operations of the code -/

/-- A rounded number approximates a real one. -/
def AppF (F : (A : Rounding) → X → Fl A) (g : X → ℝ) : Prop := App (fun A x => (F A x).val) g

/-- ... a vector. -/
def AppV {n : ℕ} (F : (A : Rounding) → X → Vec n (Fl A)) (g : X → Vec n ℝ) : Prop :=
  ∀ i, AppF (fun A x => F A x i) (fun x => g x i)

/-- ... a matrix. -/
def AppM {m n : ℕ} (F : (A : Rounding) → X → Mat m n (Fl A)) (g : X → Mat m n ℝ) : Prop :=
  ∀ i j, AppF (fun A x => F A x i j) (fun x => g x i j)

/-- ... a quaternion. -/
def AppQ (F : (A : Rounding) → X → Quat (Fl A)) (g : X → Quat ℝ) : Prop :=
  AppF (fun A x => (F A x).w) (fun x => (g x).w) ∧ AppF (fun A x => (F A x).x) (fun x => (g x).x) ∧
  AppF (fun A x => (F A x).y) (fun x => (g x).y) ∧ AppF (fun A x => (F A x).z) (fun x => (g x).z)

section
variable {F F' : (A : Rounding) → X → Fl A} {g g' : X → ℝ}

namespace AppF

lemma lit (q : ℚ) : AppF (fun A _ => (Flt.lit q : Fl A)) (fun _ : X => (Flt.lit q : ℝ)) := (App.const (q : ℝ)).rnd
lemma const (c : ℝ) : AppF (fun A _ => (⟨c⟩ : Fl A)) (fun _ : X => c) := App.const c
lemma add (h : AppF F g) (h' : AppF F' g') : AppF (fun A x => F A x ⊞ F' A x) (fun x => g x ⊞ g' x) := (App.add h h').rnd
lemma sub (h : AppF F g) (h' : AppF F' g') : AppF (fun A x => F A x ⊟ F' A x) (fun x => g x ⊟ g' x) := (App.sub h h').rnd
lemma mul (h : AppF F g) (h' : AppF F' g') : AppF (fun A x => F A x ⊠ F' A x) (fun x => g x ⊠ g' x) := (App.mul h h').rnd
lemma neg (h : AppF F g) : AppF (fun A x => Flt.neg (F A x)) (fun x => Flt.neg (g x)) := App.neg h
lemma div_const (h : AppF F g) (c : ℝ) : AppF (fun A x => F A x ⊘ ⟨c⟩) (fun x => g x ⊘ c) := (App.div_const h c).rnd
lemma vsum {n : ℕ} {F : Fin n → (A : Rounding) → X → Fl A} {g : Fin n → X → ℝ} (h : ∀ i, AppF (F i) (g i)) :
    AppF (fun A x => Flt.vsum fun i => F i A x) (fun x => Flt.vsum fun i => g i x) := App.sum h

end AppF

namespace AppV
variable {n : ℕ} {F F' : (A : Rounding) → X → Vec n (Fl A)} {g g' : X → Vec n ℝ} {c : (A : Rounding) → X → Fl A} {k : X → ℝ}

lemma const (v : Vec n ℝ) : AppV (fun A _ => liftV A v) (fun _ : X => v) := fun i => AppF.const (v i)
lemma zero : AppV (fun A _ => (vzero : Vec n (Fl A))) (fun _ : X => (vzero : Vec n ℝ)) := fun _ => AppF.lit 0
lemma add (h : AppV F g) (h' : AppV F' g') : AppV (fun A x => vadd (F A x) (F' A x)) (fun x => vadd (g x) (g' x)) :=
  fun i => (h i).add (h' i)
lemma sub (h : AppV F g) (h' : AppV F' g') : AppV (fun A x => vsub (F A x) (F' A x)) (fun x => vsub (g x) (g' x)) :=
  fun i => (h i).sub (h' i)
lemma smulL (hc : AppF c k) (h : AppV F g) : AppV (fun A x => Verif.smulL (c A x) (F A x)) (fun x => Verif.smulL (k x) (g x)) :=
  fun i => hc.mul (h i)
lemma smulR (h : AppV F g) (hc : AppF c k) : AppV (fun A x => Verif.smulR (F A x) (c A x)) (fun x => Verif.smulR (g x) (k x)) :=
  fun i => (h i).mul hc
lemma sdiv (h : AppV F g) (c : ℝ) : AppV (fun A x => Verif.sdiv (F A x) ⟨c⟩) (fun x => Verif.sdiv (g x) c) :=
  fun i => (h i).div_const c
lemma mv {m : ℕ} {M : (A : Rounding) → X → Mat m n (Fl A)} {N : X → Mat m n ℝ} (hM : AppM M N) (h : AppV F g) :
    AppV (fun A x => Verif.mv (M A x) (F A x)) (fun x => Verif.mv (N x) (g x)) :=
  fun i => AppF.vsum fun j => (hM i j).mul (h j)

lemma three {F₀ F₁ F₂ : (A : Rounding) → X → Fl A} {g₀ g₁ g₂ : X → ℝ} (h₀ : AppF F₀ g₀) (h₁ : AppF F₁ g₁) (h₂ : AppF F₂ g₂) :
    AppV (fun A x => ![F₀ A x, F₁ A x, F₂ A x]) (fun x => ![g₀ x, g₁ x, g₂ x]) := by
  intro i
  fin_cases i
  · exact h₀
  · exact h₁
  · exact h₂

lemma cross {F F' : (A : Rounding) → X → Vec 3 (Fl A)} {g g' : X → Vec 3 ℝ} (h : AppV F g) (h' : AppV F' g') :
    AppV (fun A x => Verif.cross (F A x) (F' A x)) (fun x => Verif.cross (g x) (g' x)) :=
  three (((h 1).mul (h' 2)).sub ((h 2).mul (h' 1))) (((h 2).mul (h' 0)).sub ((h 0).mul (h' 2)))
    (((h 0).mul (h' 1)).sub ((h 1).mul (h' 0)))

lemma rotate {Q : (A : Rounding) → X → Quat (Fl A)} {q : X → Quat ℝ} {F : (A : Rounding) → X → Vec 3 (Fl A)} {g : X → Vec 3 ℝ}
    (hq : AppQ Q q) (h : AppV F g) : AppV (fun A x => (Q A x).rotate (F A x)) (fun x => (q x).rotate (g x)) := by
  have hv : AppV (fun A x => (Q A x).vec) (fun x => (q x).vec) := three hq.2.1 hq.2.2.1 hq.2.2.2
  have huv := (hv.cross h).add (hv.cross h)
  exact (h.add (smulL hq.1 huv)).add (hv.cross huv)

end AppV

/-- A number that is a function of the exact argument, without rounding. -/
lemma AppF.sign {g : X → ℝ} : AppF (fun A x => sign (⟨g x⟩ : Fl A)) (fun x => sign (g x)) := by
  intro R
  refine ⟨1, 1, zero_le_one, one_pos, fun A _ x _ => ?_⟩
  have h0 : (Flt.lit 0 : Fl A).val = 0 := by simp [Flt.lit]
  have e : ∀ b : Fl A, Flt.lt (Flt.lit 0) b = decide (0 < b.val) := fun b => by simp [Flt.lt, h0]
  have e' : ∀ b : Fl A, Flt.lt b (Flt.lit 0) = decide (b.val < 0) := fun b => by simp [Flt.lt, h0]
  have r : ∀ q : ℚ, |(Flt.lit q : Fl A).val - (Flt.lit q : ℝ)| ≤ A.u * |(q : ℝ)| := fun q => A.rnd_err q
  have r1 := r 1
  have r2 := r (-1)
  have r0 := r 0
  have l : ∀ q : ℚ, (Flt.lit q : ℝ) = (q : ℝ) := fun q => rfl
  unfold Verif.sign
  simp only [e, e', decide_eq_true_eq, lt_real, lit_zero]
  split_ifs
  · refine ⟨r1.trans (by simp), by simp [l]⟩
  · refine ⟨r2.trans (by simp), by simp [l]⟩
  · refine ⟨?_, by simp⟩
    rw [h0]
    simpa using A.u_nonneg

lemma AppV.squaredKeepSign {n : ℕ} {g : X → Vec n ℝ} (h : AppV (fun A x => liftV A (g x)) g) :
    AppV (fun A x => Verif.squaredKeepSign (liftV A (g x))) (fun x => Verif.squaredKeepSign (g x)) :=
  fun i => ((h i).mul (h i)).mul (AppF.sign (g := fun x => g x i))

/-- The length of an exact vector. -/
lemma AppF.norm {n : ℕ} {g : X → Vec n ℝ} (h : AppV (fun A x => liftV A (g x)) g) :
    AppF (fun A x => Verif.norm (liftV A (g x))) (fun x => Verif.norm (g x)) := by
  intro R
  have hz : AppF (fun A x => normSq (liftV A (g x))) (fun x => normSq (g x)) := AppF.vsum fun i => (h i).mul (h i)
  obtain ⟨K, c, hK, hc, h1⟩ := hz R
  have h2p : (0 : ℝ) < 2 ^ (1 + n) := by positivity
  refine ⟨2 ^ (1 + n + 1) * (1 + K), min c (1 / 2 ^ (1 + n)), by positivity, lt_min hc (by positivity), fun A hA x hx => ?_⟩
  have hu := A.u_nonneg
  have hu1 : A.u ≤ 1 / 2 ^ (1 + n) := hA.trans (min_le_right _ _)
  have hule : A.u ≤ 1 := hu1.trans (by rw [div_le_one h2p]; exact one_le_pow₀ (by norm_num))
  have hp : ∀ m, (1 + A.u) ^ m - 1 ≤ 2 ^ m * A.u := by
    intro m
    have := A.pow_sub_le (c := 1) one_pos hule m
    rw [div_one] at this
    refine this.trans (mul_le_mul_of_nonneg_right ?_ hu)
    norm_num
  obtain ⟨-, a2⟩ := h1 A (hA.trans (min_le_left _ _)) x hx
  have hS : ∀ i, A.Near 1 (g x i * g x i) (A.rnd (g x i * g x i)) (g x i * g x i) := by
    intro i
    have := ((Rounding.Near.exact (A := A) (g x i)).mul (Rounding.Near.exact (g x i))).rnd
    rwa [abs_mul_abs_self] at this
  have hN : A.Near (1 + n) (normSq (g x)) (normSq (liftV A (g x))).val (normSq (g x)) := Rounding.Near.sum hS
  have hn0 : 0 ≤ normSq (g x) := hN.nonneg
  have hx0 : 0 ≤ (normSq (liftV A (g x))).val := by
    have t1 := (abs_le.1 hN.1).1
    have t2 := hp (1 + n)
    have t3 : (2 : ℝ) ^ (1 + n) * A.u ≤ 1 := by
      rw [le_div_iff₀ h2p] at hu1
      linarith
    nlinarith
  have hr : A.Near (1 + n + 1) (√(normSq (g x))) (Verif.norm (liftV A (g x))).val (√(normSq (g x))) := (hN.sqrt hx0).rnd
  have hle : √(normSq (g x)) ≤ 1 + K := by
    rw [Real.sqrt_le_left (by linarith)]
    have := le_abs_self (normSq (g x))
    nlinarith
  have hs0 := Real.sqrt_nonneg (normSq (g x))
  refine ⟨hr.1.trans ?_, ?_⟩
  · have := mul_le_mul (hp (1 + n + 1)) hle hs0 (by positivity)
    linarith
  · show |√(normSq (g x))| ≤ _
    rw [abs_of_nonneg hs0]
    refine hle.trans (le_mul_of_one_le_left (by linarith) ?_)
    exact one_le_pow₀ (by norm_num)

lemma clampVal_val {A : Rounding} (a : Fl A) (lo hi : ℝ) : (clampVal a ⟨lo⟩ ⟨hi⟩).val = clampVal a.val lo hi := by
  have e : ∀ a b : Fl A, Flt.lt a b = decide (a.val < b.val) := fun a b => by simp [Flt.lt]
  unfold clampVal
  simp only [e, lt_real, decide_eq_true_eq]
  split_ifs <;> rfl

lemma AppF.clamp (h : AppF F g) {lo hi : ℝ} (hl : lo ≤ hi) :
    AppF (fun A x => clampVal (F A x) ⟨lo⟩ ⟨hi⟩) (fun x => clampVal (g x) lo hi) := by
  intro R
  obtain ⟨K, c, hK, hc, h1⟩ := h R
  refine ⟨K + |lo| + |hi|, c, by positivity, hc, fun A hA x hx => ?_⟩
  obtain ⟨a1, a2⟩ := h1 A hA x hx
  simp only [clampVal_val]
  have hu := A.u_nonneg
  have lip : ∀ a b : ℝ, |clampVal a lo hi - clampVal b lo hi| ≤ |a - b| := by
    intro a b
    rw [clampVal_real, clampVal_real]
    rw [abs_le]
    have t1 := le_abs_self (a - b)
    have t2 := neg_abs_le (a - b)
    have t3 := abs_nonneg (a - b)
    split_ifs <;> constructor <;> linarith
  constructor
  · refine (lip _ _).trans (a1.trans (mul_le_mul_of_nonneg_right ?_ hu))
    linarith [abs_nonneg lo, abs_nonneg hi]
  · rw [clampVal_real]
    have t1 := abs_nonneg lo
    have t2 := abs_nonneg hi
    split_ifs <;> linarith

/-- The inverse of an exact, regular matrix. -/
lemma AppM.inv {J : Mat 3 3 ℝ} (hJ : J.det ≠ 0) : AppM (fun A _ => inv3 (liftMat A J)) (fun _ : X => inv3 J) := by
  intro i j
  have hcof : ∀ i j, App (fun A _ => A.cof J i j)
      (fun _ : X => J (i + 1) (j + 1) * J (i + 2) (j + 2) - J (i + 1) (j + 2) * J (i + 2) (j + 1)) := fun i j =>
    (((App.const _).mul (App.const _)).rnd.sub ((App.const _).mul (App.const _)).rnd).rnd
  have hdet : App (fun A _ => A.det J) (fun _ : X => J.det) := by
    have := App.sum (f := fun k A (_ : X) => A.rnd (A.cof J k 0 * J k 0)) fun k => ((hcof k 0).mul (App.const (J k 0))).rnd
    refine this.congr (fun _ _ => rfl) fun _ => ?_
    rw [Fin.sum_univ_three, Matrix.det_fin_three]
    simp only [show (0 : Fin 3) + 1 = 1 from rfl, show (0 : Fin 3) + 2 = 2 from rfl, show (1 : Fin 3) + 1 = 2 from rfl,
      show (1 : Fin 3) + 2 = 0 from rfl, show (2 : Fin 3) + 1 = 0 from rfl, show (2 : Fin 3) + 2 = 1 from rfl]
    ring
  have hinv := ((hcof j i).mul (App.one_div hJ hdet).rnd).rnd
  refine App.congr hinv (fun _ _ => rfl) fun _ => ?_
  show (J⁻¹ : Matrix (Fin 3) (Fin 3) ℝ) i j = _
  rw [Matrix.inv_def, Ring.inverse_eq_inv', Matrix.smul_apply, smul_eq_mul, ← one_div, mul_comm]
  congr 1
  rw [Matrix.adjugate_fin_three]
  fin_cases i <;> fin_cases j <;> simp [show (2 : Fin 3) + 1 = 0 from rfl, show (2 : Fin 3) + 2 = 1 from rfl,
    show (1 : Fin 3) + 1 = 2 from rfl, show (1 : Fin 3) + 2 = 0 from rfl] <;> ring

end

end Verif
