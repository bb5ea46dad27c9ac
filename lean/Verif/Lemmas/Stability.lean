import Mathlib.Analysis.Calculus.FDeriv.Comp
import Mathlib.Analysis.Calculus.FDeriv.Prod
import Mathlib.Analysis.SpecificLimits.Basic
import Mathlib.Analysis.SpecialFunctions.Pow.Real
import Mathlib.Tactic.LinearCombination
import Mathlib.Tactic.Positivity
import Mathlib.Tactic.Module
import Mathlib.Tactic.NoncommRing

/-!
# Fixed points of iterated maps: stable and unstable linearisations
-/

namespace Verif.Stability

open Filter Topology

/-- Radius of decay of a second order recurrence whose characteristic roots are inside the unit circle. -/
lemma exists_radius {p q : ℝ} (hq : q < 1) (hp : |p| < 1 + q) :
    ∃ r : ℝ, 0 < r ∧ r < 1 ∧ |q| < r ^ 2 ∧ |p| * r < r ^ 2 + q := by
  have hq' : |q| < 1 := by
    rw [abs_lt]; constructor
    · have := abs_nonneg p; linarith
    · exact hq
  have h1 : ∀ᶠ r : ℝ in 𝓝 1, |q| < r ^ 2 := by
    have hc : ContinuousAt (fun r : ℝ => r ^ 2) 1 := by fun_prop
    exact hc.eventually (lt_mem_nhds (by simpa using hq'))
  have h2 : ∀ᶠ r : ℝ in 𝓝 1, 0 < r ^ 2 + q - |p| * r := by
    have hc : ContinuousAt (fun r : ℝ => r ^ 2 + q - |p| * r) 1 := by fun_prop
    exact hc.eventually (lt_mem_nhds (by simp only [one_pow, mul_one]; linarith))
  have h3 : ∀ᶠ r : ℝ in 𝓝 1, 0 < r := lt_mem_nhds one_pos
  obtain ⟨r, ⟨⟨a, b⟩, c⟩, d⟩ :=
    (((h1.and h2).and h3).filter_mono nhdsWithin_le_nhds |>.and
      (self_mem_nhdsWithin : ∀ᶠ r in 𝓝[<] (1 : ℝ), r ∈ Set.Iio 1)).exists
  exact ⟨r, c, d, a, by linarith⟩

/-- Bounded solutions: the quadratic form of Schur and Cohn never increases. -/
lemma recur_bounded {p q : ℝ} (hq : |q| < 1) (hp : |p| < 1 + q) (u : ℕ → ℝ)
    (h : ∀ n, u (n + 2) = p * u (n + 1) - q * u n) : ∃ B, ∀ n, |u n| ≤ B := by
  obtain ⟨q1, q2⟩ := abs_lt.1 hq
  obtain ⟨p1, p2⟩ := abs_lt.1 hp
  set V : ℕ → ℝ := fun n => (1 - q ^ 2) * (u (n + 1) ^ 2 + u n ^ 2) - 2 * p * (1 - q) * (u (n + 1) * u n)
    with hV
  have hstep : ∀ n, V (n + 1) ≤ V n := by
    intro n
    have : V n - V (n + 1) = ((1 - q ^ 2) * u n - p * (1 - q) * u (n + 1)) ^ 2 := by
      simp only [hV, h n, show n + 1 + 1 = n + 2 from rfl]
      ring
    nlinarith [sq_nonneg ((1 - q ^ 2) * u n - p * (1 - q) * u (n + 1))]
  have hbd : ∀ n, V n ≤ V 0 := by
    intro n
    induction n with
    | zero => exact le_rfl
    | succ n ih => exact (hstep n).trans ih
  -- the form is definite
  set c := (1 - q) * (1 + q - |p|) with hc
  have hc0 : 0 < c := mul_pos (by linarith) (by linarith)
  have hlow : ∀ n, c * u n ^ 2 ≤ V n := by
    intro n
    have h1 : 2 * p * (u (n + 1) * u n) ≤ |p| * (u (n + 1) ^ 2 + u n ^ 2) := by
      have := abs_le.1 (le_refl |p|)
      nlinarith [sq_nonneg (u (n + 1) - u n), sq_nonneg (u (n + 1) + u n), abs_nonneg p]
    have h2 : V n = (1 - q) * ((1 + q) * (u (n + 1) ^ 2 + u n ^ 2) - 2 * p * (u (n + 1) * u n)) := by
      simp only [hV]; ring
    rw [h2, hc, mul_assoc]
    refine mul_le_mul_of_nonneg_left ?_ (by linarith)
    nlinarith [sq_nonneg (u (n + 1))]
  refine ⟨V 0 / c + 1, fun n => ?_⟩
  have h1 : u n ^ 2 ≤ V 0 / c := by
    rw [le_div_iff₀ hc0, mul_comm]; exact (hlow n).trans (hbd n)
  have h2 : |u n| ^ 2 = u n ^ 2 := sq_abs _
  nlinarith [sq_nonneg (|u n| - 1), abs_nonneg (u n)]

/-- Second order recurrences with roots inside the unit circle die out geometrically. -/
lemma recur_geometric {p q : ℝ} (hq : q < 1) (hp : |p| < 1 + q) (u : ℕ → ℝ)
    (h : ∀ n, u (n + 2) = p * u (n + 1) - q * u n) : ∃ B r, 0 < r ∧ r < 1 ∧ ∀ n, |u n| ≤ B * r ^ n := by
  obtain ⟨r, r0, r1, rq, rp⟩ := exists_radius hq hp
  have hr2 : 0 < r ^ 2 := by positivity
  obtain ⟨B, hB⟩ := recur_bounded (p := p / r) (q := q / r ^ 2)
    (by rwa [abs_div, abs_of_pos hr2, div_lt_one hr2])
    (by
      rw [abs_div, abs_of_pos r0, div_lt_iff₀ r0]
      have : (1 + q / r ^ 2) * r = (r ^ 2 + q) / r := by field_simp
      rw [this, lt_div_iff₀ r0]; exact rp)
    (fun n => u n / r ^ n) (fun n => by
      simp only [h n]
      field_simp
      ring)
  refine ⟨B, r, r0, r1, fun n => ?_⟩
  have := hB n
  rwa [abs_div, abs_of_pos (pow_pos r0 n), div_le_iff₀ (pow_pos r0 n)] at this

lemma recur_tendsto {p q : ℝ} (hq : q < 1) (hp : |p| < 1 + q) (u : ℕ → ℝ)
    (h : ∀ n, u (n + 2) = p * u (n + 1) - q * u n) : Tendsto u atTop (𝓝 0) := by
  obtain ⟨B, r, r0, r1, hu⟩ := recur_geometric hq hp u h
  refine squeeze_zero_norm hu ?_
  simpa using (tendsto_pow_atTop_nhds_zero_of_lt_one r0.le r1).const_mul B

/-- Jury's criterion for third order recurrences. -/
lemma recur3_tendsto {a0 a1 a2 : ℝ} (h1 : 0 < 1 + a2 + a1 + a0) (hm : 0 < 1 - a2 + a1 - a0) (h0 : |a0| < 1)
    (hj : 0 < 1 - a0 ^ 2 - a1 + a0 * a2) (u : ℕ → ℝ)
    (h : ∀ n, u (n + 3) = -a2 * u (n + 2) - a1 * u (n + 1) - a0 * u n) : Tendsto u atTop (𝓝 0) := by
  -- a real root
  obtain ⟨x, ⟨x1, x2⟩, hx⟩ : ∃ x ∈ Set.Icc (-1 : ℝ) 1, x ^ 3 + a2 * x ^ 2 + a1 * x + a0 = 0 := by
    have hc : ContinuousOn (fun x : ℝ => x ^ 3 + a2 * x ^ 2 + a1 * x + a0) (Set.Icc (-1) 1) := by fun_prop
    have := intermediate_value_Icc (show (-1 : ℝ) ≤ 1 by norm_num) hc
    obtain ⟨x, hx, e⟩ := this (show (0 : ℝ) ∈ _ from ⟨by norm_num; linarith, by norm_num; linarith⟩)
    exact ⟨x, hx, e⟩
  have x1' : -1 < x := lt_of_le_of_ne x1 fun e => by rw [← e] at hx; nlinarith
  have x2' : x < 1 := lt_of_le_of_ne x2 fun e => by rw [e] at hx; nlinarith
  -- the quadratic factor
  set P := -a2 - x with hP
  set Q := a1 - x * P with hQ
  have e0 : a0 = -(x * Q) := by rw [hQ, hP]; linear_combination hx
  have e2 : a2 = -x - P := by rw [hP]; ring
  have e1 : a1 = Q + x * P := by rw [hQ]; ring
  have q1 : 0 < 1 - P + Q := by
    have : 1 + a2 + a1 + a0 = (1 - x) * (1 - P + Q) := by rw [e0, e1, e2]; ring
    rw [this] at h1
    exact (mul_pos_iff_of_pos_left (by linarith)).1 h1
  have q2 : 0 < 1 + P + Q := by
    have : 1 - a2 + a1 - a0 = (1 + x) * (1 + P + Q) := by rw [e0, e1, e2]; ring
    rw [this] at hm
    exact (mul_pos_iff_of_pos_left (by linarith)).1 hm
  have hp : |P| < 1 + Q := by rw [abs_lt]; constructor <;> linarith
  have hxa : |x| < 1 := abs_lt.2 ⟨x1', x2'⟩
  have hq : Q < 1 := by
    have e : 1 - a0 ^ 2 - a1 + a0 * a2 = (1 - Q) * (1 + x ^ 2 * Q - x * P) := by rw [e0, e1, e2]; ring
    rw [e] at hj
    have hQ1 : -1 < Q := by have := abs_nonneg P; linarith
    have hpos : 0 < 1 + x ^ 2 * Q - x * P := by
      have b1 : x * P ≤ |x| * (1 + Q) := by
        refine (le_abs_self _).trans ?_
        rw [abs_mul]; exact mul_le_mul_of_nonneg_left hp.le (abs_nonneg _)
      have b2 : |x| * Q < 1 := by
        rw [e0, abs_neg, abs_mul] at h0
        exact lt_of_le_of_lt (mul_le_mul_of_nonneg_left (le_abs_self _) (abs_nonneg _)) h0
      have b3 : x ^ 2 = |x| ^ 2 := (sq_abs x).symm
      rw [b3]
      nlinarith [mul_pos (sub_pos.2 hxa) (sub_pos.2 b2)]
    by_contra hcon
    push Not at hcon
    nlinarith
  obtain ⟨B, r, r0, r1, hB⟩ := recur_geometric hq hp (fun n => u (n + 1) - x * u n) fun n => by
    simp only [show n + 2 + 1 = n + 3 from rfl, show n + 1 + 1 = n + 2 from rfl, h n, e0, e1, e2]
    ring
  -- the real root is dominated by a radius below one
  set s := (1 + max r |x|) / 2 with hs
  have hmx : max r |x| < 1 := max_lt r1 hxa
  have s1 : s < 1 := by rw [hs]; linarith
  have sr : r < s := by have := le_max_left r |x|; rw [hs]; linarith
  have sx : |x| < s := by have := le_max_right r |x|; rw [hs]; linarith
  have hB0 : 0 ≤ B := by
    have := (abs_nonneg _).trans (hB 0)
    simpa using this
  set D := |u 0| + B / (s - |x|) with hD
  have hdx : 0 < s - |x| := by linarith
  have hD0 : 0 ≤ D := by positivity
  have hDB : |x| * D + B ≤ D * s := by
    have : B ≤ D * (s - |x|) := by
      rw [← div_le_iff₀ hdx, hD]; linarith [abs_nonneg (u 0)]
    linarith
  have hu : ∀ n, |u n| ≤ D * s ^ n := by
    intro n
    induction n with
    | zero => simp only [pow_zero, mul_one, hD]; have : 0 ≤ B / (s - |x|) := by positivity
              linarith
    | succ n ih =>
      have hstep : |u (n + 1)| ≤ |u (n + 1) - x * u n| + |x| * |u n| := by
        rw [← abs_mul]
        calc |u (n + 1)| = |(u (n + 1) - x * u n) + x * u n| := by rw [sub_add_cancel]
          _ ≤ _ := abs_add_le _ _
      have hr : r ^ n ≤ s ^ n := pow_le_pow_left₀ r0.le sr.le n
      have hsn : 0 ≤ s ^ n := pow_nonneg (r0.trans sr).le n
      calc |u (n + 1)| ≤ B * s ^ n + |x| * (D * s ^ n) := by
            refine hstep.trans (add_le_add ((hB n).trans ?_) ?_)
            · exact mul_le_mul_of_nonneg_left hr hB0
            · exact mul_le_mul_of_nonneg_left ih (abs_nonneg _)
        _ = (|x| * D + B) * s ^ n := by ring
        _ ≤ D * s * s ^ n := mul_le_mul_of_nonneg_right hDB hsn
        _ = D * s ^ (n + 1) := by ring
  refine squeeze_zero_norm hu ?_
  simpa using (tendsto_pow_atTop_nhds_zero_of_lt_one (r0.trans sr).le s1).const_mul D

/-- Powers of an element that satisfies a cubic equation with roots inside the unit circle. -/
lemma pow3_tendsto {A : Type*} [NormedRing A] [NormedAlgebra ℝ A] {a0 a1 a2 : ℝ} (h1 : 0 < 1 + a2 + a1 + a0)
    (hm : 0 < 1 - a2 + a1 - a0) (h0 : |a0| < 1) (hj : 0 < 1 - a0 ^ 2 - a1 + a0 * a2) (M : A)
    (h : M ^ 3 = -a2 • M ^ 2 - a1 • M - a0 • (1 : A)) : Tendsto (fun n => M ^ n) atTop (𝓝 0) := by
  let st : ℕ → ℝ × ℝ × ℝ := fun n =>
    Nat.rec (0, 0, 1) (fun _ x => (-a2 * x.1 + x.2.1, -a1 * x.1 + x.2.2, -a0 * x.1)) n
  have hs : ∀ n, M ^ n = (st n).1 • M ^ 2 + (st n).2.1 • M + (st n).2.2 • (1 : A) := by
    intro n
    induction n with
    | zero => simp [st]
    | succ n ih =>
      have e : st (n + 1) = (-a2 * (st n).1 + (st n).2.1, -a1 * (st n).1 + (st n).2.2, -a0 * (st n).1) := rfl
      rw [pow_succ, ih, add_mul, add_mul, smul_mul_assoc, smul_mul_assoc, smul_mul_assoc, one_mul, ← sq,
        ← pow_succ, h, e]
      simp only [smul_sub, smul_smul, add_smul, neg_mul, neg_smul, smul_neg]
      rw [mul_comm a0, mul_comm a1, mul_comm a2]
      abel
  have l1 : Tendsto (fun n => (st n).1) atTop (𝓝 0) := by
    refine recur3_tendsto h1 hm h0 hj _ fun n => ?_
    have e1 : (st (n + 3)).1 = -a2 * (st (n + 2)).1 + (st (n + 2)).2.1 := rfl
    have e2 : (st (n + 2)).2.1 = -a1 * (st (n + 1)).1 + (st (n + 1)).2.2 := rfl
    have e3 : (st (n + 1)).2.2 = -a0 * (st n).1 := rfl
    rw [e1, e2, e3]; ring
  have l3 : Tendsto (fun n => (st n).2.2) atTop (𝓝 0) := by
    rw [← tendsto_add_atTop_iff_nat 1]
    have : (fun n => (st (n + 1)).2.2) = fun n => -a0 * (st n).1 := rfl
    rw [this]
    simpa using l1.const_mul (-a0)
  have l2 : Tendsto (fun n => (st n).2.1) atTop (𝓝 0) := by
    rw [← tendsto_add_atTop_iff_nat 1]
    have : (fun n => (st (n + 1)).2.1) = fun n => -a1 * (st n).1 + (st n).2.2 := rfl
    rw [this]
    simpa using (l1.const_mul (-a1)).add l3
  have h3 := ((l1.smul_const (M ^ 2)).add (l2.smul_const M)).add (l3.smul_const (1 : A))
  simp only [zero_smul, add_zero] at h3
  exact h3.congr fun n => (hs n).symm

/-- The same with the cubic written in powers of `M - 1`. -/
lemma pow3_tendsto_shift {A : Type*} [NormedRing A] [NormedAlgebra ℝ A] {c0 c1 c2 : ℝ} (h0 : 0 < c0)
    (hd : c0 < c1) (h2 : c2 < 2) (hr : c0 < (c1 - c0) * (c2 - (c1 - c0))) (M : A)
    (h : (M - 1) ^ 3 + c2 • (M - 1) ^ 2 + c1 • (M - 1) + c0 • (1 : A) = 0) :
    Tendsto (fun n => M ^ n) atTop (𝓝 0) := by
  have hcd : 0 < c2 - (c1 - c0) := by
    by_contra hcon
    push Not at hcon
    nlinarith
  refine pow3_tendsto (a0 := c0 - c1 + c2 - 1) (a1 := 3 - 2 * c2 + c1) (a2 := c2 - 3) ?_ ?_ ?_ ?_ M ?_
  · linarith
  · linarith
  · rw [abs_lt]; constructor <;> linarith
  · nlinarith
  · have e : (M - 1) ^ 3 + c2 • (M - 1) ^ 2 + c1 • (M - 1) + c0 • (1 : A) =
        M ^ 3 - (-(c2 - 3) • M ^ 2 - (3 - 2 * c2 + c1) • M - (c0 - c1 + c2 - 1) • (1 : A)) := by
      have q2 : (M - 1) ^ 2 = M ^ 2 - (2 : ℝ) • M + (1 : A) := by
        rw [two_smul, sq, sq]; noncomm_ring
      have q3 : (M - 1) ^ 3 = M ^ 3 - (3 : ℝ) • M ^ 2 + (3 : ℝ) • M - (1 : A) := by
        rw [show (3 : ℝ) = 1 + 1 + 1 by norm_num]
        simp only [add_smul, one_smul]
        noncomm_ring
      rw [q2, q3]
      module
    rw [e] at h
    exact sub_eq_zero.1 h

/-- Powers of an element that satisfies a quadratic equation with roots inside the unit circle. -/
lemma pow_tendsto {A : Type*} [NormedRing A] [NormedAlgebra ℝ A] {p q : ℝ} (hq : q < 1)
    (hp : |p| < 1 + q) (M : A) (h : M ^ 2 = p • M - q • (1 : A)) :
    Tendsto (fun n => M ^ n) atTop (𝓝 0) := by
  let st : ℕ → ℝ × ℝ := fun n => Nat.rec (0, 1) (fun _ x => (p * x.1 + x.2, -q * x.1)) n
  have hs : ∀ n, M ^ n = (st n).1 • M + (st n).2 • (1 : A) := by
    intro n
    induction n with
    | zero => simp [st]
    | succ n ih =>
      have e : st (n + 1) = (p * (st n).1 + (st n).2, -q * (st n).1) := rfl
      rw [pow_succ, ih, add_mul, smul_mul_assoc, smul_mul_assoc, one_mul, ← sq, h, e]
      simp only [smul_sub, smul_smul, add_smul, neg_mul, neg_smul]
      rw [mul_comm p, mul_comm q]
      abel
  have h1 : Tendsto (fun n => (st n).1) atTop (𝓝 0) := by
    refine recur_tendsto hq hp _ fun n => ?_
    have e1 : (st (n + 2)).1 = p * (st (n + 1)).1 + (st (n + 1)).2 := rfl
    have e2 : (st (n + 1)).2 = -q * (st n).1 := rfl
    rw [e1, e2]; ring
  have h2 : Tendsto (fun n => (st n).2) atTop (𝓝 0) := by
    rw [← tendsto_add_atTop_iff_nat 1]
    have : (fun n => (st (n + 1)).2) = fun n => -q * (st n).1 := rfl
    rw [this]
    simpa using h1.const_mul (-q)
  have h3 := (h1.smul_const M).add (h2.smul_const (1 : A))
  simp only [zero_smul, add_zero] at h3
  exact h3.congr fun n => (hs n).symm

section
variable {E : Type*} [NormedAddCommGroup E] [NormedSpace ℝ E]

/-- A differentiable map moves a point near a fixed point at most by the norm of the derivative, or a bit
more. -/
lemma near_fixed {f : E → E} {f' : E →L[ℝ] E} {x0 : E} (hf : HasFDerivAt f f' x0) (h0 : f x0 = x0)
    {e : ℝ} (he : 0 < e) : ∃ r > 0, ∀ x, ‖x - x0‖ < r → ‖f x - x0 - f' (x - x0)‖ ≤ e * ‖x - x0‖ := by
  have := (hasFDerivAt_iff_isLittleO.1 hf).def he
  rw [Metric.eventually_nhds_iff] at this
  obtain ⟨r, hr, h⟩ := this
  refine ⟨r, hr, fun x hx => ?_⟩
  have := h (y := x) (by rwa [dist_eq_norm])
  rwa [h0] at this

lemma near_fixed_norm {f : E → E} {f' : E →L[ℝ] E} {x0 : E} (hf : HasFDerivAt f f' x0) (h0 : f x0 = x0)
    {K : ℝ} (hK : ‖f'‖ < K) : ∃ r > 0, ∀ x, ‖x - x0‖ < r → ‖f x - x0‖ ≤ K * ‖x - x0‖ := by
  obtain ⟨r, hr, h⟩ := near_fixed hf h0 (sub_pos.2 hK)
  refine ⟨r, hr, fun x hx => ?_⟩
  have h1 := h x hx
  have h2 := f'.le_opNorm (x - x0)
  have h3 : f x - x0 = (f x - x0 - f' (x - x0)) + f' (x - x0) := by abel
  calc ‖f x - x0‖ = ‖(f x - x0 - f' (x - x0)) + f' (x - x0)‖ := by rw [← h3]
    _ ≤ _ := norm_add_le _ _
    _ ≤ (K - ‖f'‖) * ‖x - x0‖ + ‖f'‖ * ‖x - x0‖ := add_le_add h1 h2
    _ = _ := by ring

/-- A fixed point at which the powers of the derivative tend to zero attracts its neighbourhood at a
geometric rate. -/
lemma attracts {f : E → E} {f' : E →L[ℝ] E} {x0 : E} (hf : HasFDerivAt f f' x0) (h0 : f x0 = x0)
    (hp : Tendsto (fun n => f' ^ n) atTop (𝓝 0)) :
    ∃ r > 0, ∃ C ≥ 0, ∃ q, 0 ≤ q ∧ q < 1 ∧ ∀ x, ‖x - x0‖ < r → ∀ n, ‖f^[n] x - x0‖ ≤ C * q ^ n * ‖x - x0‖ := by
  obtain ⟨N, hN0, hN⟩ : ∃ N, 0 < N ∧ ‖f' ^ N‖ < 1 / 2 := by
    have h1 := (tendsto_zero_iff_norm_tendsto_zero.1 hp).eventually (gt_mem_nhds (show (0 : ℝ) < 1 / 2 by norm_num))
    obtain ⟨N, h, h'⟩ := (h1.and (eventually_gt_atTop 0)).exists
    exact ⟨N, h', h⟩
  obtain ⟨r1, hr1, H1⟩ := near_fixed_norm (hf.iterate h0 N) (Function.iterate_fixed h0 N) hN
  set L := ‖f'‖ + 1 with hL
  have hL1 : 1 ≤ L := by have := norm_nonneg f'; linarith
  obtain ⟨r2, hr2, H2⟩ := near_fixed_norm hf h0 (lt_add_one ‖f'‖)
  have hLN : 0 < L ^ N := by positivity
  have hstep : ∀ x, ‖x - x0‖ < r2 / L ^ N → ∀ j ≤ N, ‖f^[j] x - x0‖ ≤ L ^ j * ‖x - x0‖ := by
    intro x hx j
    induction j with
    | zero => intro _; simp
    | succ j ih =>
      intro hj
      have hi := ih (by omega)
      rw [Function.iterate_succ_apply']
      have : ‖f^[j] x - x0‖ < r2 := by
        refine hi.trans_lt ?_
        rw [lt_div_iff₀ hLN] at hx
        refine lt_of_le_of_lt ?_ hx
        rw [mul_comm]
        exact mul_le_mul_of_nonneg_left (pow_le_pow_right₀ hL1 (by omega)) (norm_nonneg _)
      refine (H2 _ this).trans ?_
      rw [pow_succ', mul_assoc]
      exact mul_le_mul_of_nonneg_left hi (by linarith)
  have hhalf : ∀ x, ‖x - x0‖ < r1 → ∀ k, ‖(f^[N])^[k] x - x0‖ ≤ (1 / 2) ^ k * ‖x - x0‖ := by
    intro x hx k
    induction k with
    | zero => simp
    | succ k ih =>
      rw [Function.iterate_succ_apply']
      have : ‖(f^[N])^[k] x - x0‖ < r1 := by
        refine ih.trans_lt (lt_of_le_of_lt ?_ hx)
        exact mul_le_of_le_one_left (norm_nonneg _) (pow_le_one₀ (by norm_num) (by norm_num))
      refine (H1 _ this).trans ?_
      rw [pow_succ', mul_assoc]
      exact mul_le_mul_of_nonneg_left ih (by norm_num)
  set q : ℝ := (1 / 2 : ℝ) ^ ((1 : ℝ) / N) with hq
  have hq0 : 0 < q := by positivity
  have hq1 : q < 1 := Real.rpow_lt_one (by norm_num) (by norm_num) (by positivity)
  have hqN : q ^ N = 1 / 2 := by
    rw [hq, ← Real.rpow_natCast, ← Real.rpow_mul (by norm_num)]
    have : (N : ℝ) ≠ 0 := by positivity
    rw [one_div_mul_cancel this, Real.rpow_one]
  refine ⟨min r1 (r2 / L ^ N), lt_min hr1 (by positivity), 2 * L ^ N, by positivity, q, hq0.le, hq1, ?_⟩
  intro x hx n
  have hx1 := hx.trans_le (min_le_left _ _)
  have hx2 := hx.trans_le (min_le_right _ _)
  have hn : n = n % N + N * (n / N) := (Nat.mod_add_div n N).symm
  set j := n % N with hj
  set k := n / N with hk
  have hjN : j < N := Nat.mod_lt _ hN0
  have e : f^[n] x = f^[j] ((f^[N])^[k] x) := by
    rw [hn, Function.iterate_add_apply, Function.iterate_mul]
  have a1 := hhalf x hx1 k
  have a2 : ‖(f^[N])^[k] x - x0‖ < r2 / L ^ N := by
    refine a1.trans_lt (lt_of_le_of_lt ?_ hx2)
    exact mul_le_of_le_one_left (norm_nonneg _) (pow_le_one₀ (by norm_num) (by norm_num))
  have a3 := hstep _ a2 j hjN.le
  rw [e]
  have b1 : L ^ j ≤ L ^ N := pow_le_pow_right₀ hL1 hjN.le
  have b2 : (1 / 2 : ℝ) ^ k ≤ 2 * q ^ n := by
    have c1 : q ^ (N * (k + 1)) ≤ q ^ n := pow_le_pow_of_le_one hq0.le hq1.le (by
      rw [hn, mul_add, mul_one]; omega)
    rw [pow_mul, hqN, pow_succ] at c1
    linarith
  calc ‖f^[j] ((f^[N])^[k] x) - x0‖ ≤ L ^ j * ‖(f^[N])^[k] x - x0‖ := a3
    _ ≤ L ^ N * ((1 / 2) ^ k * ‖x - x0‖) :=
        mul_le_mul b1 a1 (norm_nonneg _) hLN.le
    _ ≤ L ^ N * (2 * q ^ n * ‖x - x0‖) :=
        mul_le_mul_of_nonneg_left (mul_le_mul_of_nonneg_right b2 (norm_nonneg _)) hLN.le
    _ = _ := by ring

end

/-- The linear map of a 2×2 matrix. -/
noncomputable def lin2 (a b c d : ℝ) : ℝ × ℝ →L[ℝ] ℝ × ℝ :=
  (a • ContinuousLinearMap.fst ℝ ℝ ℝ + b • ContinuousLinearMap.snd ℝ ℝ ℝ).prod
    (c • ContinuousLinearMap.fst ℝ ℝ ℝ + d • ContinuousLinearMap.snd ℝ ℝ ℝ)

lemma lin2_apply (a b c d : ℝ) (x : ℝ × ℝ) :
    lin2 a b c d x = (a * x.1 + b * x.2, c * x.1 + d * x.2) := rfl

lemma lin2_sq (a b c d : ℝ) :
    lin2 a b c d ^ 2 = (a + d) • lin2 a b c d - (a * d - b * c) • (1 : ℝ × ℝ →L[ℝ] ℝ × ℝ) := by
  refine ContinuousLinearMap.ext fun x => ?_
  rw [sq, mul_apply_eq_comp]
  simp only [sub_apply, smul_apply, one_apply_eq_self, lin2_apply, Prod.smul_mk, smul_eq_mul]
  ext <;> simp <;> ring

/-- Jury's criterion for a fixed point in the plane. -/
lemma attracts2 {f : ℝ × ℝ → ℝ × ℝ} {a b c d : ℝ} {x0 : ℝ × ℝ} (hf : HasFDerivAt f (lin2 a b c d) x0)
    (h0 : f x0 = x0) (hdet : a * d - b * c < 1) (htr : |a + d| < 1 + (a * d - b * c)) :
    ∃ r > 0, ∃ C ≥ 0, ∃ q, 0 ≤ q ∧ q < 1 ∧ ∀ x, ‖x - x0‖ < r → ∀ n, ‖f^[n] x - x0‖ ≤ C * q ^ n * ‖x - x0‖ :=
  attracts hf h0 (pow_tendsto hdet htr _ (lin2_sq a b c d))

/-- The linear map of a 3×3 matrix given by its rows. -/
noncomputable def lin3 (a b c : ℝ × ℝ × ℝ) : ℝ × ℝ × ℝ →L[ℝ] ℝ × ℝ × ℝ :=
  let f := fun r : ℝ × ℝ × ℝ => r.1 • ContinuousLinearMap.fst ℝ ℝ (ℝ × ℝ) +
    r.2.1 • (ContinuousLinearMap.fst ℝ ℝ ℝ).comp (ContinuousLinearMap.snd ℝ ℝ (ℝ × ℝ)) +
    r.2.2 • (ContinuousLinearMap.snd ℝ ℝ ℝ).comp (ContinuousLinearMap.snd ℝ ℝ (ℝ × ℝ))
  (f a).prod ((f b).prod (f c))

lemma lin3_apply (a b c x : ℝ × ℝ × ℝ) :
    lin3 a b c x = (a.1 * x.1 + a.2.1 * x.2.1 + a.2.2 * x.2.2, b.1 * x.1 + b.2.1 * x.2.1 + b.2.2 * x.2.2,
      c.1 * x.1 + c.2.1 * x.2.1 + c.2.2 * x.2.2) := by
  simp [lin3]

/-- A fixed point in the plane with complex eigenvalues outside the unit circle repels every other point of
a neighbourhood. -/
lemma repels2 {f : ℝ × ℝ → ℝ × ℝ} {a b c d : ℝ} {x0 : ℝ × ℝ} (hf : HasFDerivAt f (lin2 a b c d) x0)
    (h0 : f x0 = x0) (hdet : 1 < a * d - b * c) (hb : 0 < b) (hdis : (a - d) ^ 2 + 4 * b * c < 0) :
    ∃ r₀ > 0, ∀ r ≤ r₀, ∀ x, x ≠ x0 → ‖x - x0‖ < r → ∃ n, r ≤ ‖f^[n] x - x0‖ := by
  have hc : c < 0 := by nlinarith [sq_nonneg (a - d)]
  -- the form `det (M u, u)`
  set Q : ℝ × ℝ → ℝ := fun u => -c * u.1 ^ 2 + (a - d) * (u.1 * u.2) + b * u.2 ^ 2 with hQ
  have hQM : ∀ u, Q (lin2 a b c d u) = (a * d - b * c) * Q u := by
    intro u; simp only [hQ, lin2_apply]; ring
  set D := -(4 * b * c) - (a - d) ^ 2 with hD
  have hD0 : 0 < D := by simp only [hD]; linarith
  set k := min (D / (4 * b)) (D / (-(4 * c))) with hk
  have hk0 : 0 < k := lt_min (by positivity) (div_pos hD0 (by linarith))
  have hlow : ∀ u, k * ‖u‖ ^ 2 ≤ Q u := by
    intro u
    have e1 : k * u.1 ^ 2 ≤ Q u := by
      have : D / (4 * b) * u.1 ^ 2 ≤ Q u := by
        rw [div_mul_eq_mul_div, div_le_iff₀ (by positivity)]
        simp only [hQ, hD]
        nlinarith [sq_nonneg (2 * b * u.2 + (a - d) * u.1)]
      exact (mul_le_mul_of_nonneg_right (min_le_left _ _) (sq_nonneg _)).trans this
    have e2 : k * u.2 ^ 2 ≤ Q u := by
      have : D / (-(4 * c)) * u.2 ^ 2 ≤ Q u := by
        rw [div_mul_eq_mul_div, div_le_iff₀ (by linarith)]
        simp only [hQ, hD]
        nlinarith [sq_nonneg (2 * -c * u.1 + (a - d) * u.2)]
      exact (mul_le_mul_of_nonneg_right (min_le_right _ _) (sq_nonneg _)).trans this
    rw [Prod.norm_def]
    rcases max_choice ‖u.1‖ ‖u.2‖ with h | h <;> rw [h, Real.norm_eq_abs, sq_abs] <;> assumption
  set K := -c + |a - d| + b with hK
  have hK0 : 0 < K := by have := abs_nonneg (a - d); simp only [hK]; linarith
  have n1 : ∀ u : ℝ × ℝ, |u.1| ≤ ‖u‖ := fun u => norm_fst_le u
  have n2 : ∀ u : ℝ × ℝ, |u.2| ≤ ‖u‖ := fun u => norm_snd_le u
  have hup : ∀ u, Q u ≤ K * ‖u‖ ^ 2 := by
    intro u
    have h1 : u.1 ^ 2 ≤ ‖u‖ ^ 2 := by rw [← sq_abs]; gcongr; exact n1 u
    have h2 : u.2 ^ 2 ≤ ‖u‖ ^ 2 := by rw [← sq_abs]; gcongr; exact n2 u
    have h3 : (a - d) * (u.1 * u.2) ≤ |a - d| * ‖u‖ ^ 2 := by
      refine (le_abs_self _).trans ?_
      rw [abs_mul, abs_mul, sq]
      gcongr
      · exact n1 u
      · exact n2 u
    simp only [hQ, hK]
    nlinarith
  -- perturbation of the form
  have hpert : ∀ u e : ℝ × ℝ, Q u - 2 * K * (‖u‖ * ‖e‖) ≤ Q (u + e) + K * ‖e‖ ^ 2 := by
    intro u e
    have hm : ∀ i j : ℝ, |i| ≤ ‖u‖ → |j| ≤ ‖e‖ → |i * j| ≤ ‖u‖ * ‖e‖ := fun i j hi hj => by
      rw [abs_mul]; gcongr
    have m11 := abs_le.1 (hm _ _ (n1 u) (n1 e))
    have m12 := hm _ _ (n1 u) (n2 e)
    have m21 := hm _ _ (n2 u) (n1 e)
    have m22 := abs_le.1 (hm _ _ (n2 u) (n2 e))
    have hQe : 0 ≤ Q e + K * ‖e‖ ^ 2 := by
      have := hlow e
      have : 0 ≤ k * ‖e‖ ^ 2 := by positivity
      have : 0 ≤ K * ‖e‖ ^ 2 := by positivity
      linarith
    have hx : |(a - d) * (u.1 * e.2 + u.2 * e.1)| ≤ |a - d| * (2 * (‖u‖ * ‖e‖)) := by
      rw [abs_mul]
      gcongr
      exact (abs_add_le _ _).trans (by linarith)
    have hx' := abs_le.1 hx
    have expand : Q (u + e) = Q u + (-2 * c * (u.1 * e.1) + (a - d) * (u.1 * e.2 + u.2 * e.1) +
        2 * b * (u.2 * e.2)) + Q e := by
      simp only [hQ, Prod.fst_add, Prod.snd_add]; ring
    rw [expand]
    have y1 : -c * -(‖u‖ * ‖e‖) ≤ -c * (u.1 * e.1) := mul_le_mul_of_nonneg_left m11.1 (by linarith)
    have y2 : b * -(‖u‖ * ‖e‖) ≤ b * (u.2 * e.2) := mul_le_mul_of_nonneg_left m22.1 hb.le
    simp only [hK]
    nlinarith
  set q := a * d - b * c with hq
  set L := ‖lin2 a b c d‖ with hL
  have hL0 : 0 ≤ L := norm_nonneg _
  -- the form grows by a fixed factor near the fixed point
  obtain ⟨η, hη, hη1⟩ : ∃ η, 0 < η ∧ 2 * K * (L * η) + K * η ^ 2 ≤ (q - 1) / 2 * k := by
    refine ⟨min 1 ((q - 1) / 2 * k / (2 * K * L + K)), lt_min one_pos ?_, ?_⟩
    · have : 0 < 2 * K * L + K := by positivity
      have : 0 < (q - 1) / 2 * k := mul_pos (by linarith) hk0
      positivity
    · set η := min 1 ((q - 1) / 2 * k / (2 * K * L + K))
      have p1 : η ≤ 1 := min_le_left _ _
      have p2 : η ≤ (q - 1) / 2 * k / (2 * K * L + K) := min_le_right _ _
      have hpos : 0 < 2 * K * L + K := by positivity
      have p3 : 0 ≤ η := le_min zero_le_one (div_nonneg (mul_nonneg (by linarith) hk0.le) hpos.le)
      rw [le_div_iff₀ hpos] at p2
      have p4 : η ^ 2 ≤ η := by nlinarith
      nlinarith
  obtain ⟨r₀, hr₀, H⟩ := near_fixed hf h0 hη
  refine ⟨r₀, hr₀, fun r hr x hx hxr => ?_⟩
  by_contra hcon
  push Not at hcon
  have hgrow : ∀ y, ‖y - x0‖ < r → (1 + (q - 1) / 2) * Q (y - x0) ≤ Q (f y - x0) := by
    intro y hy
    have h1 := H y (hy.trans_le hr)
    have h2 := hpert (lin2 a b c d (y - x0)) (f y - x0 - lin2 a b c d (y - x0))
    rw [add_sub_cancel, hQM] at h2
    have h3 := (lin2 a b c d).le_opNorm (y - x0)
    have h4 : ‖lin2 a b c d (y - x0)‖ * ‖f y - x0 - lin2 a b c d (y - x0)‖ ≤ L * η * ‖y - x0‖ ^ 2 := by
      calc _ ≤ (L * ‖y - x0‖) * (η * ‖y - x0‖) := by gcongr
        _ = _ := by ring
    have h5 : ‖f y - x0 - lin2 a b c d (y - x0)‖ ^ 2 ≤ η ^ 2 * ‖y - x0‖ ^ 2 := by
      rw [← mul_pow]; gcongr
    have h6 := hlow (y - x0)
    have h7 : (2 * K * (L * η) + K * η ^ 2) * ‖y - x0‖ ^ 2 ≤ (q - 1) / 2 * k * ‖y - x0‖ ^ 2 :=
      mul_le_mul_of_nonneg_right hη1 (sq_nonneg _)
    have h8 : (q - 1) / 2 * (k * ‖y - x0‖ ^ 2) ≤ (q - 1) / 2 * Q (y - x0) :=
      mul_le_mul_of_nonneg_left h6 (by linarith)
    have h9 : 2 * K * (‖lin2 a b c d (y - x0)‖ * ‖f y - x0 - lin2 a b c d (y - x0)‖) ≤
        2 * K * (L * η * ‖y - x0‖ ^ 2) := mul_le_mul_of_nonneg_left h4 (by positivity)
    have h10 : K * ‖f y - x0 - lin2 a b c d (y - x0)‖ ^ 2 ≤ K * (η ^ 2 * ‖y - x0‖ ^ 2) :=
      mul_le_mul_of_nonneg_left h5 hK0.le
    linarith
  have hpow : ∀ n, (1 + (q - 1) / 2) ^ n * Q (x - x0) ≤ Q (f^[n] x - x0) := by
    intro n
    induction n with
    | zero => simp
    | succ n ih =>
      rw [Function.iterate_succ_apply', pow_succ', mul_assoc]
      exact (mul_le_mul_of_nonneg_left ih (by linarith)).trans (hgrow _ (hcon n))
  have hQ0 : 0 < Q (x - x0) := by
    have h1 := hlow (x - x0)
    have h2 : 0 < ‖x - x0‖ := norm_pos_iff.2 (sub_ne_zero.2 hx)
    exact lt_of_lt_of_le (by positivity) h1
  have hbound : ∀ n, (1 + (q - 1) / 2) ^ n * Q (x - x0) ≤ K * r ^ 2 := by
    intro n
    refine (hpow n).trans ((hup _).trans ?_)
    gcongr
    exact (hcon n).le
  have htop := (tendsto_pow_atTop_atTop_of_one_lt (show (1 : ℝ) < 1 + (q - 1) / 2 by linarith)).atTop_mul_const hQ0
  obtain ⟨n, hn⟩ := (htop.eventually_gt_atTop (K * r ^ 2)).exists
  exact absurd (hbound n) (not_le.2 hn)

end Verif.Stability
