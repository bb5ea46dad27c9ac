import Mathlib.Analysis.Calculus.MeanValue
import Mathlib.Analysis.SpecialFunctions.Exp
import Mathlib.Analysis.Normed.Group.Constructions

/-!
# Helper lemmas: functions that are Lipschitz on bounded sets, and the convergence of one-step methods
-/

namespace Verif

variable {ι : Type} [Fintype ι]

/-- Lipschitz on every ball. -/
def BL (g : (ι → ℝ) → ℝ) : Prop :=
  ∀ R : ℝ, ∃ L, 0 ≤ L ∧ ∀ a b, ‖a‖ ≤ R → ‖b‖ ≤ R → |g a - g b| ≤ L * ‖a - b‖

namespace BL

variable {f g : (ι → ℝ) → ℝ}

lemma bdd (h : BL g) (R : ℝ) : ∃ B, 0 ≤ B ∧ ∀ a, ‖a‖ ≤ R → |g a| ≤ B := by
  obtain ⟨L, hL, h⟩ := h (max R 0)
  refine ⟨|g 0| + L * max R 0, by positivity, fun a ha => ?_⟩
  have h1 := h a 0 (ha.trans (le_max_left _ _)) (by simp)
  rw [sub_zero] at h1
  have h2 := abs_sub_abs_le_abs_sub (g a) (g 0)
  have h3 := mul_le_mul_of_nonneg_left (ha.trans (le_max_left R 0)) hL
  linarith

lemma const (c : ℝ) : BL (fun _ : ι → ℝ => c) := fun _ => ⟨0, le_rfl, fun a b _ _ => by simp⟩

lemma coord (i : ι) : BL (fun a : ι → ℝ => a i) := fun _ => ⟨1, zero_le_one, fun a b _ _ => by
  rw [one_mul]
  exact norm_le_pi_norm (a - b) i⟩

lemma add (hf : BL f) (hg : BL g) : BL (fun a => f a + g a) := by
  intro R
  obtain ⟨L, hL, h1⟩ := hf R
  obtain ⟨M, hM, h2⟩ := hg R
  refine ⟨L + M, add_nonneg hL hM, fun a b ha hb => ?_⟩
  have e : f a + g a - (f b + g b) = (f a - f b) + (g a - g b) := by ring
  rw [e, add_mul]
  exact (abs_add_le _ _).trans (add_le_add (h1 a b ha hb) (h2 a b ha hb))

lemma mul (hf : BL f) (hg : BL g) : BL (fun a => f a * g a) := by
  intro R
  obtain ⟨L, hL, h1⟩ := hf R
  obtain ⟨M, hM, h2⟩ := hg R
  obtain ⟨B, hB, h3⟩ := hf.bdd R
  obtain ⟨D, hD, h4⟩ := hg.bdd R
  refine ⟨B * M + D * L, by positivity, fun a b ha hb => ?_⟩
  have e : f a * g a - f b * g b = f a * (g a - g b) + g b * (f a - f b) := by ring
  rw [e, add_mul]
  refine (abs_add_le _ _).trans (add_le_add ?_ ?_)
  · rw [abs_mul, mul_assoc]
    exact mul_le_mul (h3 a ha) (h2 a b ha hb) (abs_nonneg _) hB
  · rw [abs_mul, mul_assoc]
    exact mul_le_mul (h4 b hb) (h1 a b ha hb) (abs_nonneg _) hD

lemma neg (hf : BL f) : BL (fun a => -f a) := by
  have := (const (-1)).mul hf
  simpa using this

lemma sub (hf : BL f) (hg : BL g) : BL (fun a => f a - g a) := by
  have := hf.add hg.neg
  simpa [sub_eq_add_neg] using this

lemma div_const (hf : BL f) (c : ℝ) : BL (fun a => f a / c) := by
  have := hf.mul (const c⁻¹)
  simpa [div_eq_mul_inv] using this

lemma sum {κ : Type} (s : Finset κ) {f : κ → (ι → ℝ) → ℝ} (h : ∀ k, BL (f k)) : BL (fun a => ∑ k ∈ s, f k a) := by
  classical
  induction s using Finset.induction_on with
  | empty => simpa using const (ι := ι) 0
  | insert k s hk ih =>
    simp only [Finset.sum_insert hk]
    exact (h k).add ih

lemma abs (hf : BL f) : BL (fun a => |f a|) := by
  intro R
  obtain ⟨L, hL, h1⟩ := hf R
  exact ⟨L, hL, fun a b ha hb => (abs_abs_sub_abs_le _ _).trans (h1 a b ha hb)⟩

lemma sqrt_three {f g k : (ι → ℝ) → ℝ} (hf : BL f) (hg : BL g) (hk : BL k) :
    BL (fun a => Real.sqrt (f a * f a + g a * g a + k a * k a)) := by
  intro R
  obtain ⟨L, hL, h1⟩ := hf R
  obtain ⟨M, hM, h2⟩ := hg R
  obtain ⟨N, hN, h3⟩ := hk R
  refine ⟨L + M + N, by positivity, fun a b ha hb => ?_⟩
  have key : ∀ x y z x' y' z' : ℝ, Real.sqrt (x * x + y * y + z * z) - Real.sqrt (x' * x' + y' * y' + z' * z') ≤
      |x - x'| + |y - y'| + |z - z'| := by
    intro x y z x' y' z'
    set S := Real.sqrt (x' * x' + y' * y' + z' * z') with hS
    have hS0 : 0 ≤ S := Real.sqrt_nonneg _
    have hS2 : S * S = x' * x' + y' * y' + z' * z' := Real.mul_self_sqrt (by nlinarith [sq_nonneg x', sq_nonneg y', sq_nonneg z'])
    have hx : |x'| ≤ S := Real.abs_le_sqrt (by nlinarith [sq_nonneg y', sq_nonneg z'])
    have hy : |y'| ≤ S := Real.abs_le_sqrt (by nlinarith [sq_nonneg x', sq_nonneg z'])
    have hz : |z'| ≤ S := Real.abs_le_sqrt (by nlinarith [sq_nonneg x', sq_nonneg y'])
    have hD : 0 ≤ |x - x'| + |y - y'| + |z - z'| := by positivity
    have : Real.sqrt (x * x + y * y + z * z) ≤ S + (|x - x'| + |y - y'| + |z - z'|) := by
      rw [Real.sqrt_le_left (by linarith)]
      have e : ∀ u u' : ℝ, |u'| ≤ S → u * u - u' * u' ≤ |u - u'| * |u - u'| + 2 * S * |u - u'| := by
        intro u u' hu
        have e1 : u * u - u' * u' = (u - u') * (u - u') + 2 * (u' * (u - u')) := by ring
        have e2 : u' * (u - u') ≤ S * |u - u'| := by
          refine (le_abs_self _).trans ?_
          rw [abs_mul]
          exact mul_le_mul_of_nonneg_right hu (abs_nonneg _)
        rw [e1, abs_mul_abs_self]
        linarith
      have ex := e x x' hx
      have ey := e y y' hy
      have ez := e z z' hz
      have p1 := mul_nonneg (abs_nonneg (x - x')) (abs_nonneg (y - y'))
      have p2 := mul_nonneg (abs_nonneg (x - x')) (abs_nonneg (z - z'))
      have p3 := mul_nonneg (abs_nonneg (y - y')) (abs_nonneg (z - z'))
      nlinarith
    linarith
  have k1 := key (f a) (g a) (k a) (f b) (g b) (k b)
  have k2 := key (f b) (g b) (k b) (f a) (g a) (k a)
  rw [abs_sub_comm (f b), abs_sub_comm (g b), abs_sub_comm (k b)] at k2
  have h1 := h1 a b ha hb
  have h2 := h2 a b ha hb
  have h3 := h3 a b ha hb
  rw [abs_le]
  constructor <;> linarith

end BL

/-- Finitely many functions have common constants. -/
lemma BL.uniform {f : (ι → ℝ) → ι → ℝ} (hf : ∀ i, BL fun a => f a i) (R : ℝ) :
    ∃ L, 0 ≤ L ∧ (∀ a b, ‖a‖ ≤ R → ‖b‖ ≤ R → ‖f a - f b‖ ≤ L * ‖a - b‖) ∧ ∀ a, ‖a‖ ≤ R → ‖f a‖ ≤ L := by
  choose L hL h using fun i => hf i R
  choose B hB h' using fun i => (hf i).bdd R
  refine ⟨∑ i, (L i + B i), Finset.sum_nonneg fun i _ => add_nonneg (hL i) (hB i), fun a b ha hb => ?_, fun a ha => ?_⟩
  · rw [pi_norm_le_iff_of_nonneg (mul_nonneg (Finset.sum_nonneg fun i _ => add_nonneg (hL i) (hB i)) (norm_nonneg _))]
    intro i
    refine (h i a b ha hb).trans (mul_le_mul_of_nonneg_right ?_ (norm_nonneg _))
    have := Finset.single_le_sum (f := fun i => L i + B i) (fun i _ => add_nonneg (hL i) (hB i)) (Finset.mem_univ i)
    linarith [hB i]
  · rw [pi_norm_le_iff_of_nonneg (Finset.sum_nonneg fun i _ => add_nonneg (hL i) (hB i))]
    intro i
    refine (h' i a ha).trans ?_
    have := Finset.single_le_sum (f := fun i => L i + B i) (fun i _ => add_nonneg (hL i) (hB i)) (Finset.mem_univ i)
    linarith [hL i]

/-- Along a solution one explicit step errs by the square of its size. -/
lemma euler_consistent {f : (ι → ℝ) → ι → ℝ} {T R L : ℝ} {y : ℝ → ι → ℝ}
    (hy : ∀ t ∈ Set.Icc 0 T, ∀ i, HasDerivWithinAt (fun s => y s i) (f (y t) i) (Set.Icc 0 T) t)
    (hR : ∀ t ∈ Set.Icc 0 T, ‖y t‖ ≤ R) (hL : 0 ≤ L) (hlip : ∀ a b, ‖a‖ ≤ R → ‖b‖ ≤ R → ‖f a - f b‖ ≤ L * ‖a - b‖)
    (hbd : ∀ a, ‖a‖ ≤ R → ‖f a‖ ≤ L) {t h : ℝ} (ht : 0 ≤ t) (hh : 0 ≤ h) (hT : t + h ≤ T) :
    ‖y (t + h) - y t - h • f (y t)‖ ≤ L * L * h ^ 2 := by
  have mvt : ∀ s ∈ Set.Icc t (t + h), ∀ i, ∀ C c, (∀ r ∈ Set.Icc t s, |f (y r) i - c| ≤ C) →
      |y s i - y t i - (s - t) * c| ≤ C * (s - t) := by
    intro s hs i C c hC
    have hsub : Set.Icc t s ⊆ Set.Icc 0 T := Set.Icc_subset_Icc ht (hs.2.trans hT)
    have hd : ∀ r ∈ Set.Icc t s, HasDerivWithinAt (fun u => y u i - u * c) (f (y r) i - c) (Set.Icc t s) r := by
      intro r hr
      have h1 := (hy r (hsub hr) i).mono hsub
      have h2 := (hasDerivWithinAt_id r (Set.Icc t s)).mul_const c
      have h3 := h1.sub h2
      rw [one_mul] at h3
      exact h3
    have := (convex_Icc t s).norm_image_sub_le_of_norm_hasDerivWithin_le hd (C := C)
      (fun r hr => hC r hr) (Set.left_mem_Icc.2 hs.1) (Set.right_mem_Icc.2 hs.1)
    rw [Real.norm_eq_abs, Real.norm_of_nonneg (sub_nonneg.2 hs.1)] at this
    have e : y s i - y t i - (s - t) * c = y s i - s * c - (y t i - t * c) := by ring
    rw [e]
    exact this
  have hin : ∀ r ∈ Set.Icc t (t + h), r ∈ Set.Icc 0 T := fun r hr => ⟨ht.trans hr.1, hr.2.trans hT⟩
  have hmove : ∀ s ∈ Set.Icc t (t + h), ‖y s - y t‖ ≤ L * h := by
    intro s hs
    rw [pi_norm_le_iff_of_nonneg (mul_nonneg hL hh)]
    intro i
    have := mvt s hs i L 0 (fun r hr => by
      rw [sub_zero]
      exact (norm_le_pi_norm (f (y r)) i).trans (hbd _ (hR r (hin r ⟨hr.1, hr.2.trans hs.2⟩))))
    rw [mul_zero, sub_zero] at this
    refine this.trans (mul_le_mul_of_nonneg_left ?_ hL)
    linarith [hs.2]
  rw [pi_norm_le_iff_of_nonneg (by positivity)]
  intro i
  have hend : t + h ∈ Set.Icc t (t + h) := ⟨by linarith, le_rfl⟩
  have := mvt (t + h) hend i (L * (L * h)) (f (y t) i) (fun r hr => by
    have h1 := norm_le_pi_norm (f (y r) - f (y t)) i
    have h2 := hlip _ _ (hR r (hin r hr)) (hR t ⟨ht, by linarith⟩)
    have h3 := mul_le_mul_of_nonneg_left (hmove r hr) hL
    rw [Real.norm_eq_abs] at h1
    exact h1.trans (h2.trans h3))
  rw [add_sub_cancel_left] at this
  simp only [Pi.sub_apply, Pi.smul_apply, smul_eq_mul, Real.norm_eq_abs]
  refine this.trans (le_of_eq ?_)
  ring

/-- Convergence of a one-step method: each step is the explicit Euler step up to a multiple of the square of its
size. -/
theorem one_step_converges {f : (ι → ℝ) → ι → ℝ} (hf : ∀ i, BL fun a => f a i) {T : ℝ} {y : ℝ → ι → ℝ}
    (hy : ∀ t ∈ Set.Icc 0 T, ∀ i, HasDerivWithinAt (fun s => y s i) (f (y t) i) (Set.Icc 0 T) t)
    {step : ℝ → (ι → ℝ) → (ι → ℝ) → Prop} {h₁ : ℝ} (h₁pos : 0 < h₁)
    (hstep : ∀ R, ∃ C, 0 ≤ C ∧ ∀ h a b, 0 < h → h ≤ h₁ → ‖a‖ ≤ R → step h a b → ‖b - a - h • f a‖ ≤ C * h ^ 2) :
    ∃ C h₀, 0 < C ∧ 0 < h₀ ∧ ∀ h, 0 < h → h ≤ h₀ → ∀ a : ℕ → ι → ℝ, a 0 = y 0 →
      (∀ k, step h (a k) (a (k + 1))) → ∀ k : ℕ, k * h ≤ T → ‖a k - y (k * h)‖ ≤ C * h := by
  obtain ⟨R, hR⟩ : ∃ R, ∀ t ∈ Set.Icc 0 T, ‖y t‖ ≤ R := by
    have hc : ContinuousOn y (Set.Icc 0 T) := by
      rw [continuousOn_pi]
      exact fun i t ht => (hy t ht i).continuousWithinAt
    obtain ⟨R, hR⟩ := (isCompact_Icc.image_of_continuousOn hc.norm).bddAbove
    exact ⟨R, fun t ht => hR ⟨t, ht, rfl⟩⟩
  obtain ⟨L, hL, hlip, hbd⟩ := BL.uniform hf (R + 1)
  obtain ⟨D, hD, hD'⟩ := hstep (R + 1)
  set K := L * L + D + 1 with hK
  have hK0 : 0 < K := by positivity
  set C := (|T| + 1) * K * Real.exp (L * |T|) with hC
  have hC0 : 0 < C := by positivity
  refine ⟨C, min h₁ (1 / C), hC0, lt_min h₁pos (by positivity), fun h h0 hh a ha hs k => ?_⟩
  have hh1 : h ≤ h₁ := hh.trans (min_le_left _ _)
  have hh2 : C * h ≤ 1 := by
    have := mul_le_mul_of_nonneg_left (hh.trans (min_le_right _ _)) hC0.le
    rwa [mul_one_div_cancel hC0.ne'] at this
  have toC : ∀ k : ℕ, (k : ℝ) * h ≤ T → k * h * K * h * Real.exp (L * (k * h)) ≤ C * h := by
    intro k hk
    have hk0 : 0 ≤ (k : ℝ) * h := by positivity
    have e1 : (k : ℝ) * h ≤ |T| + 1 := by linarith [le_abs_self T]
    have e2 : Real.exp (L * (k * h)) ≤ Real.exp (L * |T|) :=
      Real.exp_le_exp.2 (mul_le_mul_of_nonneg_left (hk.trans (le_abs_self T)) hL)
    have e3 : k * h * K * h * Real.exp (L * (k * h)) ≤ (|T| + 1) * K * h * Real.exp (L * |T|) := by
      gcongr
    refine e3.trans (le_of_eq ?_)
    rw [hC]
    ring
  have main : ∀ k : ℕ, (k : ℝ) * h ≤ T → ‖a k - y (k * h)‖ ≤ k * h * K * h * Real.exp (L * (k * h)) := by
    intro k
    induction k with
    | zero => intro _; simp [ha]
    | succ k ih =>
      intro hk
      have hcast : ((k + 1 : ℕ) : ℝ) * h = k * h + h := by push_cast; ring
      rw [hcast] at hk ⊢
      have hk' : (k : ℝ) * h ≤ T := by linarith
      have hk0 : 0 ≤ (k : ℝ) * h := by positivity
      have hi := ih hk'
      have hi1 : ‖a k - y (k * h)‖ ≤ 1 := hi.trans ((toC k hk').trans hh2)
      have hyk : ‖y (k * h)‖ ≤ R := hR _ ⟨hk0, hk'⟩
      have hak : ‖a k‖ ≤ R + 1 := by
        have := norm_le_norm_add_norm_sub' (a k) (y (k * h))
        linarith
      have s1 := hD' h (a k) (a (k + 1)) h0 hh1 hak (hs k)
      have s2 := euler_consistent hy (fun t ht => (hR t ht).trans (by linarith)) hL hlip hbd hk0 h0.le hk
      have s3 := hlip (a k) (y (k * h)) hak (by linarith)
      have e : a (k + 1) - y (k * h + h) = (a (k + 1) - a k - h • f (a k)) - (y (k * h + h) - y (k * h) - h • f (y (k * h)))
          + (a k - y (k * h)) + h • (f (a k) - f (y (k * h))) := by
        rw [smul_sub]
        abel
      have s4 : ‖a (k + 1) - y (k * h + h)‖ ≤ D * h ^ 2 + L * L * h ^ 2 + ‖a k - y (k * h)‖ +
          h * (L * ‖a k - y (k * h)‖) := by
        rw [e]
        refine (norm_add_le _ _).trans (add_le_add ((norm_add_le _ _).trans (add_le_add ((norm_sub_le _ _).trans
          (add_le_add s1 s2)) le_rfl)) ?_)
        rw [norm_smul, Real.norm_of_nonneg h0.le]
        exact mul_le_mul_of_nonneg_left s3 h0.le
      have hexp : 1 + L * h ≤ Real.exp (L * h) := by
        have := Real.add_one_le_exp (L * h)
        linarith
      have hadd : Real.exp (L * (k * h + h)) = Real.exp (L * (k * h)) * Real.exp (L * h) := by
        rw [← Real.exp_add]
        ring_nf
      have h1exp : 1 ≤ Real.exp (L * (k * h + h)) := Real.one_le_exp (by positivity)
      set X := Real.exp (L * (k * h)) with hX
      have hX0 : 0 < X := Real.exp_pos _
      have t1 : (1 + L * h) * ‖a k - y (k * h)‖ ≤ Real.exp (L * h) * (k * h * K * h * X) :=
        mul_le_mul hexp hi (norm_nonneg _) (Real.exp_pos _).le
      have t2 : D * h ^ 2 + L * L * h ^ 2 ≤ h * K * h := by
        rw [hK]
        nlinarith [sq_nonneg h]
      have t3 : h * K * h ≤ h * K * h * Real.exp (L * (k * h + h)) :=
        le_mul_of_one_le_right (by positivity) h1exp
      calc ‖a (k + 1) - y (k * h + h)‖ ≤ (1 + L * h) * ‖a k - y (k * h)‖ + (D * h ^ 2 + L * L * h ^ 2) := by linarith
        _ ≤ Real.exp (L * h) * (k * h * K * h * X) + h * K * h * Real.exp (L * (k * h + h)) :=
          add_le_add t1 (t2.trans t3)
        _ = (k * h + h) * K * h * Real.exp (L * (k * h + h)) := by rw [hadd]; ring
  intro hk
  exact (main k hk).trans (toC k hk)

/-- ... and when every step may in addition err by a multiple of `u`, the precision of the arithmetic. -/
theorem one_step_converges_perturbed {f : (ι → ℝ) → ι → ℝ} (hf : ∀ i, BL fun a => f a i) {T : ℝ} {y : ℝ → ι → ℝ}
    (hy : ∀ t ∈ Set.Icc 0 T, ∀ i, HasDerivWithinAt (fun s => y s i) (f (y t) i) (Set.Icc 0 T) t)
    {P : Type} {u : P → ℝ} (hu : ∀ p, 0 ≤ u p) {step : P → ℝ → (ι → ℝ) → (ι → ℝ) → Prop}
    (hstep : ∀ R, ∃ C, 0 ≤ C ∧ ∀ p h a b, 0 < h → C * h ≤ 1 → C * u p ≤ 1 → ‖a‖ ≤ R → step p h a b →
      ‖b - a - h • f a‖ ≤ C * (h ^ 2 + u p)) :
    ∃ C, 1 ≤ C ∧ ∀ p h, 0 < h → C * (h + u p / h) ≤ 1 → ∀ a : ℕ → ι → ℝ, a 0 = y 0 →
      (∀ k, step p h (a k) (a (k + 1))) → ∀ k : ℕ, k * h ≤ T → ‖a k - y (k * h)‖ ≤ C * (h + u p / h) := by
  obtain ⟨R, hR⟩ : ∃ R, ∀ t ∈ Set.Icc 0 T, ‖y t‖ ≤ R := by
    have hc : ContinuousOn y (Set.Icc 0 T) := by
      rw [continuousOn_pi]
      exact fun i t ht => (hy t ht i).continuousWithinAt
    obtain ⟨R, hR⟩ := (isCompact_Icc.image_of_continuousOn hc.norm).bddAbove
    exact ⟨R, fun t ht => hR ⟨t, ht, rfl⟩⟩
  obtain ⟨L, hL, hlip, hbd⟩ := BL.uniform hf (R + 1)
  obtain ⟨D, hD, hD'⟩ := hstep (R + 1)
  set K := L * L + D + 1 with hK
  have hK0 : 0 < K := by positivity
  set C := (|T| + 1) * K * Real.exp (L * |T|) with hC
  have hC0 : 0 < C := by positivity
  have hKC : K ≤ C := by
    have h1 : 1 ≤ Real.exp (L * |T|) := Real.one_le_exp (by positivity)
    have h2 : K ≤ (|T| + 1) * K := le_mul_of_one_le_left hK0.le (by linarith [abs_nonneg T])
    exact h2.trans (le_mul_of_one_le_right (by positivity) h1)
  have hDC : D ≤ C := le_trans (by rw [hK]; nlinarith [mul_self_nonneg L]) hKC
  have h1C : 1 ≤ C := le_trans (by rw [hK]; nlinarith [mul_self_nonneg L]) hKC
  refine ⟨C, h1C, fun p h h0 hh2 a ha hs k => ?_⟩
  set ε := h + u p / h with hε
  have hup := hu p
  have hq0 : 0 ≤ u p / h := by positivity
  have hε0 : 0 < ε := by positivity
  have hhε : h ≤ ε := by rw [hε]; linarith
  have hε1 : ε ≤ 1 := by nlinarith
  have hue : h ^ 2 + u p = h * ε := by
    rw [hε, mul_add, mul_div_cancel₀ _ h0.ne']
    ring
  have huε : u p ≤ ε := by
    have : u p ≤ h * ε := by rw [← hue]; nlinarith [sq_nonneg h]
    nlinarith
  have hDh : D * h ≤ 1 := (mul_le_mul hDC hhε h0.le hC0.le).trans hh2
  have hDu : D * u p ≤ 1 := (mul_le_mul hDC huε hup hC0.le).trans hh2
  have toC : ∀ k : ℕ, (k : ℝ) * h ≤ T → k * h * K * ε * Real.exp (L * (k * h)) ≤ C * ε := by
    intro k hk
    have hk0 : 0 ≤ (k : ℝ) * h := by positivity
    have e1 : (k : ℝ) * h ≤ |T| + 1 := by linarith [le_abs_self T]
    have e2 : Real.exp (L * (k * h)) ≤ Real.exp (L * |T|) :=
      Real.exp_le_exp.2 (mul_le_mul_of_nonneg_left (hk.trans (le_abs_self T)) hL)
    have e3 : k * h * K * ε * Real.exp (L * (k * h)) ≤ (|T| + 1) * K * ε * Real.exp (L * |T|) := by
      gcongr
    refine e3.trans (le_of_eq ?_)
    rw [hC]
    ring
  have main : ∀ k : ℕ, (k : ℝ) * h ≤ T → ‖a k - y (k * h)‖ ≤ k * h * K * ε * Real.exp (L * (k * h)) := by
    intro k
    induction k with
    | zero => intro _; simp [ha]
    | succ k ih =>
      intro hk
      have hcast : ((k + 1 : ℕ) : ℝ) * h = k * h + h := by push_cast; ring
      rw [hcast] at hk ⊢
      have hk' : (k : ℝ) * h ≤ T := by linarith
      have hk0 : 0 ≤ (k : ℝ) * h := by positivity
      have hi := ih hk'
      have hi1 : ‖a k - y (k * h)‖ ≤ 1 := hi.trans ((toC k hk').trans hh2)
      have hyk : ‖y (k * h)‖ ≤ R := hR _ ⟨hk0, hk'⟩
      have hak : ‖a k‖ ≤ R + 1 := by
        have := norm_le_norm_add_norm_sub' (a k) (y (k * h))
        linarith
      have s1 := hD' p h (a k) (a (k + 1)) h0 hDh hDu hak (hs k)
      rw [hue] at s1
      have s2 := euler_consistent hy (fun t ht => (hR t ht).trans (by linarith)) hL hlip hbd hk0 h0.le hk
      have s3 := hlip (a k) (y (k * h)) hak (by linarith)
      have e : a (k + 1) - y (k * h + h) = (a (k + 1) - a k - h • f (a k)) - (y (k * h + h) - y (k * h) - h • f (y (k * h)))
          + (a k - y (k * h)) + h • (f (a k) - f (y (k * h))) := by
        rw [smul_sub]
        abel
      have s4 : ‖a (k + 1) - y (k * h + h)‖ ≤ D * (h * ε) + L * L * h ^ 2 + ‖a k - y (k * h)‖ +
          h * (L * ‖a k - y (k * h)‖) := by
        rw [e]
        refine (norm_add_le _ _).trans (add_le_add ((norm_add_le _ _).trans (add_le_add ((norm_sub_le _ _).trans
          (add_le_add s1 s2)) le_rfl)) ?_)
        rw [norm_smul, Real.norm_of_nonneg h0.le]
        exact mul_le_mul_of_nonneg_left s3 h0.le
      have hexp : 1 + L * h ≤ Real.exp (L * h) := by
        have := Real.add_one_le_exp (L * h)
        linarith
      have hadd : Real.exp (L * (k * h + h)) = Real.exp (L * (k * h)) * Real.exp (L * h) := by
        rw [← Real.exp_add]
        ring_nf
      have h1exp : 1 ≤ Real.exp (L * (k * h + h)) := Real.one_le_exp (by positivity)
      set X := Real.exp (L * (k * h)) with hX
      have hX0 : 0 < X := Real.exp_pos _
      have t1 : (1 + L * h) * ‖a k - y (k * h)‖ ≤ Real.exp (L * h) * (k * h * K * ε * X) :=
        mul_le_mul hexp hi (norm_nonneg _) (Real.exp_pos _).le
      have t2 : D * (h * ε) + L * L * h ^ 2 ≤ h * K * ε := by
        have h2 : h ^ 2 ≤ h * ε := by rw [sq]; exact mul_le_mul_of_nonneg_left hhε h0.le
        have h3 := mul_le_mul_of_nonneg_left h2 (mul_self_nonneg L)
        have h4 : 0 ≤ h * ε := by positivity
        rw [hK]
        nlinarith
      have t3 : h * K * ε ≤ h * K * ε * Real.exp (L * (k * h + h)) :=
        le_mul_of_one_le_right (by positivity) h1exp
      calc ‖a (k + 1) - y (k * h + h)‖ ≤ (1 + L * h) * ‖a k - y (k * h)‖ + (D * (h * ε) + L * L * h ^ 2) := by linarith
        _ ≤ Real.exp (L * h) * (k * h * K * ε * X) + h * K * ε * Real.exp (L * (k * h + h)) :=
          add_le_add t1 (t2.trans t3)
        _ = (k * h + h) * K * ε * Real.exp (L * (k * h + h)) := by rw [hadd]; ring
  intro hk
  exact (main k hk).trans (toC k hk)

end Verif
