import Verif.Lemmas.Converge
import Mathlib.Analysis.ODE.ExistUnique
import Mathlib.Analysis.Calculus.Deriv.MeanValue
import Mathlib.Analysis.SpecialFunctions.ExpDeriv

/-!
# Helper lemmas: existence and uniqueness of solutions under a bound

A differential equation whose right-hand side is Lipschitz on bounded sets has a solution on `[0, T]` if every solution
on a shorter interval is bounded by the same constant.
-/

namespace Verif

variable {ι : Type} [Fintype ι]

/-- `y` solves the equation on `[0, S]`. -/
def Solves (f : (ι → ℝ) → ι → ℝ) (S : ℝ) (y : ℝ → ι → ℝ) : Prop :=
  ∀ t ∈ Set.Icc 0 S, ∀ i, HasDerivWithinAt (fun s => y s i) (f (y t) i) (Set.Icc 0 S) t

omit [Fintype ι] in
lemma Solves.mono {f : (ι → ℝ) → ι → ℝ} {S S' : ℝ} {y : ℝ → ι → ℝ} (h : Solves f S y) (hS : S' ≤ S) : Solves f S' y :=
  fun t ht i => (h t ⟨ht.1, ht.2.trans hS⟩ i).mono (Set.Icc_subset_Icc_right hS)

omit [Fintype ι] in
lemma Solves.continuousOn {f : (ι → ℝ) → ι → ℝ} {S : ℝ} {y : ℝ → ι → ℝ} (h : Solves f S y) :
    ContinuousOn y (Set.Icc 0 S) := by
  rw [continuousOn_pi]
  exact fun i t ht => (h t ht i).continuousWithinAt

/-- Cutting a vector off at `R` in every coordinate. -/
def cutOff (R : ℝ) (a : ι → ℝ) : ι → ℝ := fun i => max (-R) (min R (a i))

omit [Fintype ι] in
lemma cutOff_id {R : ℝ} {a : ι → ℝ} (h : ∀ i, |a i| ≤ R) : cutOff R a = a := by
  funext i
  have := abs_le.1 (h i)
  rw [cutOff, min_eq_right this.2, max_eq_right this.1]

lemma cutOff_norm {R : ℝ} (hR : 0 ≤ R) (a : ι → ℝ) : ‖cutOff R a‖ ≤ R := by
  rw [pi_norm_le_iff_of_nonneg hR]
  intro i
  rw [Real.norm_eq_abs, abs_le, cutOff]
  exact ⟨le_max_left _ _, max_le (by linarith) (min_le_left _ _)⟩

lemma cutOff_dist (R : ℝ) (a b : ι → ℝ) : ‖cutOff R a - cutOff R b‖ ≤ ‖a - b‖ := by
  rw [pi_norm_le_iff_of_nonneg (norm_nonneg _)]
  intro i
  have h1 : |max (-R) (min R (a i)) - max (-R) (min R (b i))| ≤ |min R (a i) - min R (b i)| := by
    have := abs_max_sub_max_le_max (-R) (min R (a i)) (-R) (min R (b i))
    simpa using this
  have h2 : |min R (a i) - min R (b i)| ≤ |a i - b i| := by
    have := abs_min_sub_min_le_max R (a i) R (b i)
    simpa using this
  exact (h1.trans h2).trans (norm_le_pi_norm (a - b) i)

/-- A solution exists if all solutions are bounded in advance. -/
theorem solution_exists {f : (ι → ℝ) → ι → ℝ} (hf : ∀ i, BL fun a => f a i) {T B : ℝ} (hT : 0 ≤ T) (a : ι → ℝ)
    (hB : ∀ S, 0 ≤ S → S ≤ T → ∀ y, y 0 = a → Solves f S y → ‖y S‖ ≤ B) :
    ∃ y, y 0 = a ∧ Solves f T y := by
  have hB0 : 0 ≤ B := by
    have : Solves f 0 fun _ => a := by
      intro t _ i
      have e : Set.Icc (0 : ℝ) 0 = {0} := Set.Icc_self 0
      rw [e]
      have ht : t = 0 := by simpa using ‹t ∈ Set.Icc (0 : ℝ) 0›
      subst ht
      exact HasFDerivWithinAt.of_subsingleton Set.subsingleton_singleton
    exact (norm_nonneg _).trans (hB 0 le_rfl hT _ rfl this)
  set R := B + 1 with hR
  have hR0 : 0 ≤ R := by linarith
  obtain ⟨L, hL, hlip, hbd⟩ := BL.uniform hf R
  set g : (ι → ℝ) → ι → ℝ := fun b => f (cutOff R b) with hg
  have hglip : LipschitzWith ⟨L, hL⟩ g := by
    refine LipschitzWith.of_dist_le_mul fun b c => ?_
    rw [dist_eq_norm, dist_eq_norm]
    exact (hlip _ _ (cutOff_norm hR0 b) (cutOff_norm hR0 c)).trans (mul_le_mul_of_nonneg_left (cutOff_dist R b c) hL)
  obtain ⟨y, hy0, hy⟩ : ∃ y : ℝ → ι → ℝ, y 0 = a ∧ ∀ t ∈ Set.Icc 0 T, HasDerivWithinAt y (g (y t)) (Set.Icc 0 T) t := by
    have := IsPicardLindelof.of_time_independent (f := g) (tmin := 0) (tmax := T) (t₀ := ⟨0, le_rfl, hT⟩) (x₀ := a)
      (a := ⟨L * T, by positivity⟩) (r := 0) (L := ⟨L, hL⟩) (K := ⟨L, hL⟩)
      (fun b _ => hbd _ (cutOff_norm hR0 b)) hglip.lipschitzOnWith (by
        show L * max (T - 0) (0 - 0) ≤ L * T - 0
        rw [sub_zero, sub_zero, sub_zero, max_eq_left hT])
    exact this.exists_eq_forall_mem_Icc_hasDerivWithinAt₀
  have hyc : ContinuousOn y (Set.Icc 0 T) := fun t ht => (hy t ht).continuousWithinAt
  have hsolve : ∀ S, 0 ≤ S → S ≤ T → (∀ t ∈ Set.Icc 0 S, ‖y t‖ ≤ R) → Solves f S y := by
    intro S _ hST hb t ht i
    have h1 := ((hasDerivWithinAt_pi.1 (hy t ⟨ht.1, ht.2.trans hST⟩)) i).mono (Set.Icc_subset_Icc_right hST)
    have e : g (y t) = f (y t) := by
      rw [hg]
      simp only
      rw [cutOff_id fun j => (norm_le_pi_norm (y t) j).trans (hb t ht)]
    rw [e] at h1
    exact h1
  have hall : ∀ t ∈ Set.Icc 0 T, ‖y t‖ ≤ R := by
    by_contra hcon
    push Not at hcon
    obtain ⟨t₁, ht₁, hbig⟩ := hcon
    set K := Set.Icc 0 T ∩ {t | B + 1 / 2 ≤ ‖y t‖} with hK
    have hKc : IsClosed K := by
      have := hyc.norm.preimage_isClosed_of_isClosed isClosed_Icc (isClosed_Ici (a := B + 1 / 2))
      exact this
    have hKne : K.Nonempty := ⟨t₁, ht₁, by simp only [Set.mem_ofPred_eq]; linarith⟩
    have hKb : BddBelow K := ⟨0, fun t ht => ht.1.1⟩
    have hmem := hKc.csInf_mem hKne hKb
    set S := sInf K with hS
    have hbS : ∀ t ∈ Set.Icc 0 S, ‖y t‖ ≤ R := by
      intro t ht
      rcases ht.2.lt_or_eq with h | h
      · by_contra hc
        push Not at hc
        have : t ∈ K := ⟨⟨ht.1, ht.2.trans hmem.1.2⟩, by simp only [Set.mem_ofPred_eq]; linarith⟩
        exact absurd (csInf_le hKb this) (not_le.2 h)
      · -- continuity from the left
        subst h
        rcases ht.1.lt_or_eq with h0 | h0
        · by_contra hc
          push Not at hc
          have hcont := (hyc.norm S hmem.1)
          have hev : ∀ᶠ t in nhdsWithin S (Set.Icc 0 T), R < ‖y t‖ := hcont.eventually (lt_mem_nhds hc)
          have hle : nhdsWithin S (Set.Ioo 0 S) ≤ nhdsWithin S (Set.Icc 0 T) :=
            nhdsWithin_mono _ fun t ht => ⟨ht.1.le, ht.2.le.trans hmem.1.2⟩
          have : (nhdsWithin S (Set.Ioo 0 S)).NeBot := right_nhdsWithin_Ioo_neBot h0
          obtain ⟨t, ht1, ht2⟩ := ((hev.filter_mono hle).and self_mem_nhdsWithin).exists
          have : t ∈ K := ⟨⟨ht2.1.le, ht2.2.le.trans hmem.1.2⟩, by
            simp only [Set.mem_ofPred_eq]
            have : R < ‖y t‖ := ht1
            linarith⟩
          exact absurd (csInf_le hKb this) (not_le.2 ht2.2)
        · have : ‖y S‖ ≤ B := by
            rw [← h0, hy0]
            have h00 : Solves f 0 fun _ => a := by
              intro t ht i
              have ht : t = 0 := by simpa using ht
              subst ht
              rw [Set.Icc_self]
              exact HasFDerivWithinAt.of_subsingleton Set.subsingleton_singleton
            exact hB 0 le_rfl hT (fun _ => a) rfl h00
          linarith
    have := hB S hmem.1.1 hmem.1.2 y hy0 (hsolve S hmem.1.1 hmem.1.2 hbS)
    have h2 : B + 1 / 2 ≤ ‖y S‖ := hmem.2
    linarith
  exact ⟨y, hy0, hsolve T hT le_rfl hall⟩

/-- Two solutions with the same start agree. -/
theorem solution_unique {f : (ι → ℝ) → ι → ℝ} (hf : ∀ i, BL fun a => f a i) {T : ℝ} {y z : ℝ → ι → ℝ}
    (hy : Solves f T y) (hz : Solves f T z) (h0 : y 0 = z 0) : Set.EqOn y z (Set.Icc 0 T) := by
  obtain ⟨R, hR⟩ : ∃ R, ∀ t ∈ Set.Icc 0 T, ‖y t‖ ≤ R ∧ ‖z t‖ ≤ R := by
    obtain ⟨R, hR⟩ := (isCompact_Icc.image_of_continuousOn hy.continuousOn.norm).bddAbove
    obtain ⟨R', hR'⟩ := (isCompact_Icc.image_of_continuousOn hz.continuousOn.norm).bddAbove
    exact ⟨max R R', fun t ht => ⟨(hR ⟨t, ht, rfl⟩).trans (le_max_left _ _), (hR' ⟨t, ht, rfl⟩).trans (le_max_right _ _)⟩⟩
  obtain ⟨L, hL, hlip, -⟩ := BL.uniform hf R
  have hder : ∀ {y : ℝ → ι → ℝ}, Solves f T y → ∀ t ∈ Set.Ico 0 T, HasDerivWithinAt y (f (y t)) (Set.Ici t) t := by
    intro y h t ht
    rw [hasDerivWithinAt_pi]
    intro i
    refine (h t ⟨ht.1, ht.2.le⟩ i).mono_of_mem_nhdsWithin ?_
    exact Filter.mem_of_superset (Icc_mem_nhdsGE ht.2) (Set.Icc_subset_Icc_left ht.1)
  refine ODE_solution_unique_of_mem_Icc_right (K := ⟨L, hL⟩) (v := fun _ => f) (s := fun _ => Metric.closedBall 0 R)
    (fun t _ => ?_) hy.continuousOn (hder hy) (fun t ht => ?_) hz.continuousOn (hder hz) (fun t ht => ?_) h0
  · refine LipschitzOnWith.of_dist_le_mul fun a ha b hb => ?_
    rw [dist_eq_norm, dist_eq_norm]
    exact hlip a b (by simpa using ha) (by simpa using hb)
  · simpa using (hR t ⟨ht.1, ht.2.le⟩).1
  · simpa using (hR t ⟨ht.1, ht.2.le⟩).2

/-- Solutions on all bounded intervals are pieces of one solution for all time. -/
theorem solution_forever {f : (ι → ℝ) → ι → ℝ} (hf : ∀ i, BL fun a => f a i) (a : ι → ℝ)
    (h : ∀ T, 0 ≤ T → ∃ y, y 0 = a ∧ Solves f T y) : ∃ y, y 0 = a ∧ ∀ T, Solves f T y := by
  choose Y hY0 hY using fun T : ℝ => h |T| (abs_nonneg T)
  refine ⟨fun t => Y t t, hY0 0, fun T t ht i => ?_⟩
  have hT : 0 ≤ T := ht.1.trans ht.2
  have heq : ∀ r ∈ Set.Icc 0 T, Y r r = Y T r := by
    intro r hr
    have h1 : Solves f r (Y r) := by simpa only [abs_of_nonneg hr.1] using hY r
    have h2 : Solves f r (Y T) := (by simpa only [abs_of_nonneg hT] using hY T : Solves f T (Y T)).mono hr.2
    exact solution_unique hf h1 h2 (by rw [hY0, hY0]) ⟨hr.1, le_rfl⟩
  have h2 : Solves f T (Y T) := by simpa only [abs_of_nonneg hT] using hY T
  have := h2 t ht i
  simp only
  rw [heq t ht]
  exact this.congr (fun r hr => by rw [heq r hr]) (by rw [heq t ht])

/-- A quantity that grows at most at the rate `K (1 + g)` stays below `(1 + g 0) exp (K t)`. -/
lemma grow_le {g g' : ℝ → ℝ} {K S : ℝ} (hS : 0 ≤ S)
    (hd : ∀ t ∈ Set.Icc 0 S, HasDerivWithinAt g (g' t) (Set.Icc 0 S) t)
    (hle : ∀ t ∈ Set.Icc 0 S, g' t ≤ K * (1 + g t)) : g S ≤ (1 + g 0) * Real.exp (K * S) := by
  have hE : ∀ t, HasDerivAt (fun t => Real.exp (-(K * t))) (Real.exp (-(K * t)) * -K) t := by
    intro t
    have := (((hasDerivAt_id t).const_mul K).neg).exp
    simpa using this
  have hd' : ∀ t ∈ Set.Icc 0 S, HasDerivWithinAt (fun t => (1 + g t) * Real.exp (-(K * t)))
      (g' t * Real.exp (-(K * t)) + (1 + g t) * (Real.exp (-(K * t)) * -K)) (Set.Icc 0 S) t := by
    intro t ht
    have h1 := ((hd t ht).const_add 1).mul (hE t).hasDerivWithinAt
    exact h1
  have anti : AntitoneOn (fun t => (1 + g t) * Real.exp (-(K * t))) (Set.Icc 0 S) := by
    refine antitoneOn_of_hasDerivWithinAt_nonpos (convex_Icc 0 S)
      (f' := fun t => g' t * Real.exp (-(K * t)) + (1 + g t) * (Real.exp (-(K * t)) * -K))
      (fun t ht => (hd' t ht).continuousWithinAt) (fun t ht => ?_) (fun t ht => ?_)
    · exact (hd' t (interior_subset ht)).mono interior_subset
    · have h1 := hle t (interior_subset ht)
      have h2 := Real.exp_pos (-(K * t))
      nlinarith [mul_nonneg (sub_nonneg.2 h1) h2.le]
  have h := anti ⟨le_rfl, hS⟩ ⟨hS, le_rfl⟩ hS
  simp only [mul_zero, neg_zero, Real.exp_zero, mul_one] at h
  have h2 : (1 + g S) * Real.exp (-(K * S)) * Real.exp (K * S) ≤ (1 + g 0) * Real.exp (K * S) :=
    mul_le_mul_of_nonneg_right h (Real.exp_pos _).le
  rw [mul_assoc, ← Real.exp_add, neg_add_cancel, Real.exp_zero, mul_one] at h2
  linarith

/-- The same for the square of a quantity. -/
lemma grow_sq {u u' : ℝ → ℝ} {K S T : ℝ} (hK : 0 ≤ K) (hS : 0 ≤ S) (hST : S ≤ T)
    (hd : ∀ t ∈ Set.Icc 0 S, HasDerivWithinAt u (u' t) (Set.Icc 0 S) t)
    (hle : ∀ t ∈ Set.Icc 0 S, 2 * (u t * u' t) ≤ K * (1 + u t ^ 2)) :
    |u S| ≤ 1 + (1 + u 0 ^ 2) * Real.exp (K * T) := by
  have h := grow_le (g := fun t => u t ^ 2) (g' := fun t => 2 * (u t * u' t)) hS (fun t ht => by
    refine ((hd t ht).pow 2).congr_deriv ?_
    norm_num
    ring) hle
  have h1 : Real.exp (K * S) ≤ Real.exp (K * T) := Real.exp_le_exp.2 (mul_le_mul_of_nonneg_left hST hK)
  have h2 : (1 + u 0 ^ 2) * Real.exp (K * S) ≤ (1 + u 0 ^ 2) * Real.exp (K * T) :=
    mul_le_mul_of_nonneg_left h1 (by positivity)
  have h3 : u S ^ 2 ≤ (1 + u 0 ^ 2) * Real.exp (K * T) := h.trans h2
  have h4 : |u S| ^ 2 ≤ (1 + u 0 ^ 2) * Real.exp (K * T) := by rwa [sq_abs]
  nlinarith [sq_nonneg (|u S| - 1), abs_nonneg (u S)]

/-- A quantity with zero derivative is constant. -/
lemma constant_of_deriv {g : ℝ → ℝ} {S : ℝ} (hd : ∀ t ∈ Set.Icc 0 S, HasDerivWithinAt g 0 (Set.Icc 0 S) t) :
    ∀ t ∈ Set.Icc 0 S, g t = g 0 := by
  intro t ht
  have h0 : (0 : ℝ) ∈ Set.Icc 0 S := ⟨le_rfl, ht.1.trans ht.2⟩
  have h1 : AntitoneOn g (Set.Icc 0 S) := antitoneOn_of_hasDerivWithinAt_nonpos (convex_Icc 0 S) (f' := fun _ => 0)
    (fun t ht => (hd t ht).continuousWithinAt) (fun t ht => (hd t (interior_subset ht)).mono interior_subset)
    (fun _ _ => le_rfl)
  have h2 : MonotoneOn g (Set.Icc 0 S) := monotoneOn_of_hasDerivWithinAt_nonneg (convex_Icc 0 S) (f' := fun _ => 0)
    (fun t ht => (hd t ht).continuousWithinAt) (fun t ht => (hd t (interior_subset ht)).mono interior_subset)
    (fun _ _ => le_rfl)
  exact le_antisymm (h1 h0 ht ht.1) (h2 h0 ht ht.1)

/-- Convergence of a one-step method that starts near the solution. -/
theorem one_step_converges_from {f : (ι → ℝ) → ι → ℝ} (hf : ∀ i, BL fun a => f a i) {T : ℝ} {y : ℝ → ι → ℝ}
    (hy : ∀ t ∈ Set.Icc 0 T, ∀ i, HasDerivWithinAt (fun s => y s i) (f (y t) i) (Set.Icc 0 T) t)
    {step : ℝ → (ι → ℝ) → (ι → ℝ) → Prop} {h₁ : ℝ}
    (hstep : ∀ R, ∃ C, 0 ≤ C ∧ ∀ h a b, 0 < h → h ≤ h₁ → ‖a‖ ≤ R → step h a b → ‖b - a - h • f a‖ ≤ C * h ^ 2) :
    ∃ C, 1 ≤ C ∧ ∀ h δ, 0 < h → h ≤ h₁ → C * (h + δ) ≤ 1 → ∀ a : ℕ → ι → ℝ, ‖a 0 - y 0‖ ≤ δ →
      ∀ N : ℕ, (∀ k < N, step h (a k) (a (k + 1))) → ∀ k ≤ N, k * h ≤ T → ‖a k - y (k * h)‖ ≤ C * (h + δ) := by
  obtain ⟨R, hR⟩ : ∃ R, ∀ t ∈ Set.Icc 0 T, ‖y t‖ ≤ R := by
    have hc : ContinuousOn y (Set.Icc 0 T) := by
      rw [continuousOn_pi]
      exact fun i t ht => (hy t ht i).continuousWithinAt
    obtain ⟨R, hR⟩ := (isCompact_Icc.image_of_continuousOn hc.norm).bddAbove
    exact ⟨R, fun t ht => hR ⟨t, ht, rfl⟩⟩
  obtain ⟨L, hL, hlip, hbd⟩ := BL.uniform hf (R + 1)
  obtain ⟨D, hD, hD'⟩ := hstep (R + 1)
  set K := L * L + D + 1 with hK
  have hK0 : 0 < K := by positivity
  set C := (|T| + 1) * K * Real.exp (L * |T|) with hC
  have hC0 : 0 < C := by positivity
  have hEK : Real.exp (L * |T|) ≤ C := by
    have : 1 ≤ (|T| + 1) * K := by nlinarith [abs_nonneg T, mul_self_nonneg L]
    exact le_mul_of_one_le_left (Real.exp_pos _).le this
  have h1C : 1 ≤ C := (Real.one_le_exp (by positivity)).trans hEK
  refine ⟨C, h1C, fun h δ h0 hh1 hh2 a ha N hs k => ?_⟩
  have hδ : 0 ≤ δ := (norm_nonneg _).trans ha
  have toC : ∀ k : ℕ, (k : ℝ) * h ≤ T → (δ + k * h * K * h) * Real.exp (L * (k * h)) ≤ C * (h + δ) := by
    intro k hk
    have hk0 : 0 ≤ (k : ℝ) * h := by positivity
    have e1 : (k : ℝ) * h ≤ |T| + 1 := by linarith [le_abs_self T]
    have e2 : Real.exp (L * (k * h)) ≤ Real.exp (L * |T|) :=
      Real.exp_le_exp.2 (mul_le_mul_of_nonneg_left (hk.trans (le_abs_self T)) hL)
    have e3 : (δ + k * h * K * h) * Real.exp (L * (k * h)) ≤ (δ + (|T| + 1) * K * h) * Real.exp (L * |T|) := by
      gcongr
    have e4 : δ * Real.exp (L * |T|) ≤ δ * C := mul_le_mul_of_nonneg_left hEK hδ
    have e5 : (|T| + 1) * K * h * Real.exp (L * |T|) = C * h := by
      rw [hC]
      ring
    linarith
  have main : ∀ k ≤ N, (k : ℝ) * h ≤ T → ‖a k - y (k * h)‖ ≤ (δ + k * h * K * h) * Real.exp (L * (k * h)) := by
    intro k
    induction k with
    | zero => intro _ _; simpa using ha
    | succ k ih =>
      intro hkN hk
      have hcast : ((k + 1 : ℕ) : ℝ) * h = k * h + h := by push_cast; ring
      rw [hcast] at hk ⊢
      have hk' : (k : ℝ) * h ≤ T := by linarith
      have hk0 : 0 ≤ (k : ℝ) * h := by positivity
      have hi := ih (by omega) hk'
      have hi1 : ‖a k - y (k * h)‖ ≤ 1 := hi.trans ((toC k hk').trans hh2)
      have hyk : ‖y (k * h)‖ ≤ R := hR _ ⟨hk0, hk'⟩
      have hak : ‖a k‖ ≤ R + 1 := by
        have := norm_le_norm_add_norm_sub' (a k) (y (k * h))
        linarith
      have s1 := hD' h (a k) (a (k + 1)) h0 hh1 hak (hs k (by omega))
      have s2 := euler_consistent hy (fun t ht => (hR t ht).trans (by linarith)) hL hlip hbd hk0 h0.le hk
      have s3 := hlip (a k) (y (k * h)) hak (by linarith)
      have e : a (k + 1) - y (k * h + h) = (a (k + 1) - a k - h • f (a k)) - (y (k * h + h) - y (k * h) - h • f (y (k * h)))
          + (a k - y (k * h)) + h • (f (a k) - f (y (k * h))) := by
        rw [smul_sub]
        abel
      have s4 : ‖a (k + 1) - y (k * h + h)‖ ≤ D * h ^ 2 + L * L * h ^ 2 + ‖a k - y (k * h)‖ +
          h * (L * ‖a k - y (k * h)‖) := by
        rw [e]
        refine (norm_add_le _ _).trans (add_le_add ((norm_add_le _ _).trans (add_le_add ((norm_sub_le _ _).trans
          (add_le_add s1 s2)) le_rfl)) ?_)
        rw [norm_smul, Real.norm_of_nonneg h0.le]
        exact mul_le_mul_of_nonneg_left s3 h0.le
      have hexp : 1 + L * h ≤ Real.exp (L * h) := by
        have := Real.add_one_le_exp (L * h)
        linarith
      have hadd : Real.exp (L * (k * h + h)) = Real.exp (L * (k * h)) * Real.exp (L * h) := by
        rw [← Real.exp_add]
        ring_nf
      have h1exp : 1 ≤ Real.exp (L * (k * h + h)) := Real.one_le_exp (by positivity)
      set X := Real.exp (L * (k * h)) with hX
      have hX0 : 0 < X := Real.exp_pos _
      have t1 : (1 + L * h) * ‖a k - y (k * h)‖ ≤ Real.exp (L * h) * ((δ + k * h * K * h) * X) :=
        mul_le_mul hexp hi (norm_nonneg _) (Real.exp_pos _).le
      have t2 : D * h ^ 2 + L * L * h ^ 2 ≤ h * K * h := by
        rw [hK]
        nlinarith [sq_nonneg h]
      have t3 : h * K * h ≤ h * K * h * Real.exp (L * (k * h + h)) :=
        le_mul_of_one_le_right (by positivity) h1exp
      calc ‖a (k + 1) - y (k * h + h)‖ ≤ (1 + L * h) * ‖a k - y (k * h)‖ + (D * h ^ 2 + L * L * h ^ 2) := by linarith
        _ ≤ Real.exp (L * h) * ((δ + k * h * K * h) * X) + h * K * h * Real.exp (L * (k * h + h)) :=
          add_le_add t1 (t2.trans t3)
        _ = (δ + (k * h + h) * K * h) * Real.exp (L * (k * h + h)) := by rw [hadd]; ring
  intro hkN hk
  exact (main k hkN hk).trans (toC k hk)

end Verif
