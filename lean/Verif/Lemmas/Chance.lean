import Verif.Spec.Chance
import Mathlib.Probability.Independence.InfinitePi
import Mathlib.Algebra.BigOperators.Option

/-!
# Sums of independent normal samples
-/

namespace Verif.Spec

open Verif MeasureTheory ProbabilityTheory

variable {Ω : Type} [MeasurableSpace Ω] {P : Measure Ω} {W : ℕ → Fin 3 → Ω → ℝ}

/-- A linear combination of different samples is normal, its variance is the sum of the squares of the coefficients. -/
lemma StandardNormal.map_sum (h : StandardNormal W P) {ι : Type} (e : ι → ℕ × Fin 3) (he : Function.Injective e)
    (c : ι → ℝ) (s : Finset ι) :
    P.map (∑ x ∈ s, fun ω => c x * W (e x).1 (e x).2 ω) = gaussianReal 0 (∑ x ∈ s, c x ^ 2).toNNReal := by
  classical
  have hp : IsProbabilityMeasure P := (h.law 0 0).isProbabilityMeasure
  have hm : ∀ x : ι, Measurable fun ω => c x * W (e x).1 (e x).2 ω := fun x => (h.measurable _ _).const_mul _
  have hi : iIndepFun (fun (x : ι) ω => c x * W (e x).1 (e x).2 ω) P :=
    (h.indep.precomp he).comp (fun x y => c x * y) fun x => measurable_const_mul _
  induction s using Finset.induction_on with
  | empty =>
    simp only [Finset.sum_empty, Real.toNNReal_zero, gaussianReal_zero_var]
    rw [show (0 : Ω → ℝ) = fun _ => 0 from rfl, Measure.map_const]
    simp
  | insert x s hx ih =>
    have h1 : P.map (fun ω => c x * W (e x).1 (e x).2 ω) = gaussianReal 0 (c x ^ 2).toNNReal := by
      rw [(gaussianReal_const_mul (h.law (e x).1 (e x).2) (c x)).map_eq, mul_zero, mul_one]
      congr 1
      ext
      simp [Real.coe_toNNReal _ (sq_nonneg (c x))]
    have hind : IndepFun (fun ω => c x * W (e x).1 (e x).2 ω) (∑ y ∈ s, fun ω => c y * W (e y).1 (e y).2 ω) P :=
      (hi.indepFun_finsetSum_of_notMem hm hx).symm
    rw [Finset.sum_insert hx, Finset.sum_insert hx, gaussianReal_add_gaussianReal_of_indepFun hind h1 ih, zero_add,
      Real.toNNReal_add (sq_nonneg _) (Finset.sum_nonneg fun _ _ => sq_nonneg _)]

/-- The same over a finite type, with a mean. -/
lemma StandardNormal.hasLaw (h : StandardNormal W P) {ι : Type} [Fintype ι] (e : ι → ℕ × Fin 3)
    (he : Function.Injective e) (a : ℝ) (c : ι → ℝ) :
    HasLaw (fun ω => a + ∑ x, c x * W (e x).1 (e x).2 ω) (gaussianReal a (∑ x, c x ^ 2).toNNReal) P := by
  have hm : Measurable fun ω => ∑ x, c x * W (e x).1 (e x).2 ω :=
    Finset.measurable_sum _ fun x _ => (h.measurable _ _).const_mul _
  have h0 : HasLaw (fun ω => ∑ x, c x * W (e x).1 (e x).2 ω) (gaussianReal 0 (∑ x, c x ^ 2).toNNReal) P := by
    refine ⟨hm.aemeasurable, ?_⟩
    rw [← h.map_sum e he c Finset.univ]
    congr 1
    funext ω
    simp
  have := gaussianReal_const_add h0 a
  rwa [zero_add] at this

/-- Linear combinations of different samples are independent. -/
lemma StandardNormal.indepFun (h : StandardNormal W P) {ι κ : Type} [Fintype ι] [Fintype κ] (e : ι → ℕ × Fin 3)
    (f : κ → ℕ × Fin 3) (hd : ∀ x y, e x ≠ f y) (a b : ℝ) (c : ι → ℝ) (d : κ → ℝ) :
    IndepFun (fun ω => a + ∑ x, c x * W (e x).1 (e x).2 ω) (fun ω => b + ∑ y, d y * W (f y).1 (f y).2 ω) P := by
  classical
  have hST : Disjoint (Finset.univ.image e) (Finset.univ.image f) := by
    rw [Finset.disjoint_left]
    intro z h1 h2
    simp only [Finset.mem_image, Finset.mem_univ, true_and] at h1 h2
    obtain ⟨x, rfl⟩ := h1
    obtain ⟨y, hy⟩ := h2
    exact hd x y hy.symm
  have hi := h.indep.indepFun_finset _ _ hST fun x => h.measurable _ _
  have := hi.comp (φ := fun v => a + ∑ x, c x * v ⟨e x, Finset.mem_image_of_mem _ (Finset.mem_univ x)⟩)
    (ψ := fun v => b + ∑ y, d y * v ⟨f y, Finset.mem_image_of_mem _ (Finset.mem_univ y)⟩)
    (by fun_prop) (by fun_prop)
  exact this

/-- There is such a source. -/
lemma exists_standardNormal : ∃ (Ω : Type) (_ : MeasurableSpace Ω) (P : Measure Ω) (W : ℕ → Fin 3 → Ω → ℝ),
    StandardNormal W P := by
  refine ⟨ℕ × Fin 3 → ℝ, inferInstance, Measure.infinitePi fun _ => gaussianReal 0 1, fun k i ω => ω (k, i), ?_, ?_, ?_⟩
  · intro k i
    exact measurable_pi_apply _
  · intro k i
    exact ⟨(measurable_pi_apply _).aemeasurable, Measure.infinitePi_map_eval _ (k, i)⟩
  · exact iIndepFun_infinitePi (P := fun _ : ℕ × Fin 3 => gaussianReal 0 1) (X := fun _ x => x) fun _ => measurable_id

end Verif.Spec
