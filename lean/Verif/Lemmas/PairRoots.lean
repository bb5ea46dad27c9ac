import Mathlib.Analysis.Complex.Basic
import Mathlib.Topology.Order.IntermediateValue
import Mathlib.Algebra.Polynomial.Roots
import Mathlib.Topology.Algebra.Polynomial
import Mathlib.Tactic.ComputeDegree
import Mathlib.Tactic.LinearCombination

/-!
# Polynomials all but two of whose roots are bracketed

A certificate that the roots of a real polynomial are inside the unit circle: intervals of the positive half of it which
contain all but two of them, and three inequalities for the other two.
-/

namespace Verif.Stability

open Polynomial

/-- A real quadratic with these values has its roots inside the unit circle. -/
lemma quadratic_inside {b c : ℝ} (h1 : 0 < 1 + b + c) (h2 : 0 < 1 - b + c) (h3 : c < 1) {z : ℂ}
    (hz : z ^ 2 + b * z + c = 0) : ‖z‖ < 1 := by
  have hre : z.re ^ 2 - z.im ^ 2 + b * z.re + c = 0 := by
    have := congrArg Complex.re hz
    simp [pow_two] at this
    linear_combination this
  have him : z.im * (2 * z.re + b) = 0 := by
    have := congrArg Complex.im hz
    simp [pow_two] at this
    linear_combination this
  rw [← sq_lt_one_iff₀ (norm_nonneg z), Complex.sq_norm, Complex.normSq_apply]
  rcases mul_eq_zero.1 him with h | h
  · rw [h] at hre ⊢
    have h4 : |z.re| < 1 := by
      rw [abs_lt]
      by_contra hcon
      rw [not_and_or, not_lt, not_lt] at hcon
      rcases hcon with hn | hp
      · nlinarith
      · nlinarith
    have := (sq_lt_one_iff_abs_lt_one z.re).2 h4
    nlinarith
  · have : b = -(2 * z.re) := by linarith
    subst this
    nlinarith

/-- A monic real polynomial divided by all but two of its roots. -/
lemma split_pair {n : ℕ} {p : ℝ[X]} (hm : p.Monic) (hd : p.natDegree = n + 2) (x : Fin n → ℝ)
    (hx : Function.Injective x) (hr : ∀ i, p.eval (x i) = 0) :
    ∃ b c : ℝ, p = (∏ i, (X - C (x i))) * (X ^ 2 + C b * X + C c) := by
  have hp : p ≠ 0 := hm.ne_zero
  have hmon : (∏ i, (X - C (x i))).Monic := monic_prod_of_monic _ _ fun i _ => monic_X_sub_C _
  have hdvd : (∏ i, (X - C (x i))) ∣ p := by
    refine Finset.prod_dvd_of_coprime ?_ fun i _ => dvd_iff_isRoot.2 (hr i)
    intro i _ j _ hij
    exact pairwise_coprime_X_sub_C hx hij
  obtain ⟨q, hq⟩ := hdvd
  have hqm : q.Monic := hmon.of_mul_monic_left (hq ▸ hm)
  have hdeg : (∏ i, (X - C (x i))).natDegree = n := by
    rw [natDegree_prod_of_monic _ _ fun i _ => monic_X_sub_C _]
    simp
  have hqd : q.natDegree = 2 := by
    have := hmon.natDegree_mul hqm
    rw [← hq, hd, hdeg] at this
    omega
  refine ⟨q.coeff 1, q.coeff 0, ?_⟩
  conv_lhs => rw [hq]
  congr 1
  rw [hqm.as_sum, hqd]
  simp [Finset.sum_range_succ]
  ring

/-- If all but two roots are in disjoint intervals between zero and one, and the values at one, minus one and zero are of
the right sign and size, then all roots are inside the unit circle. -/
lemma roots_inside {n : ℕ} {p : ℝ[X]} (hm : p.Monic) (hd : p.natDegree = n + 2) (lo hi : Fin n → ℝ)
    (h0 : ∀ i, 0 < lo i) (h1 : ∀ i, hi i ≤ 1) (hlt : ∀ i, lo i ≤ hi i) (hsep : ∀ i j, i < j → hi i ≤ lo j)
    (hsign : ∀ i, (p.eval (lo i) < 0 ∧ 0 < p.eval (hi i)) ∨ (0 < p.eval (lo i) ∧ p.eval (hi i) < 0))
    (c1 : 0 < p.eval 1) (c2 : 0 < (-1) ^ n * p.eval (-1)) (c3 : (-1) ^ n * p.eval 0 < ∏ i, lo i) {z : ℂ}
    (hz : aeval z p = 0) : ‖z‖ < 1 := by
  have hroot : ∀ i, ∃ x, lo i < x ∧ x < hi i ∧ p.eval x = 0 := by
    intro i
    have hc : ContinuousOn (fun x => p.eval x) (Set.Icc (lo i) (hi i)) := p.continuous.continuousOn
    rcases hsign i with h | h
    · obtain ⟨x, ⟨x1, x2⟩, hx⟩ := intermediate_value_Ioo (hlt i) hc (show (0 : ℝ) ∈ _ from h)
      exact ⟨x, x1, x2, hx⟩
    · obtain ⟨x, ⟨x1, x2⟩, hx⟩ := intermediate_value_Ioo' (hlt i) hc (show (0 : ℝ) ∈ _ from ⟨h.2, h.1⟩)
      exact ⟨x, x1, x2, hx⟩
  choose x x1 x2 hx using hroot
  have hmono : StrictMono x := fun i j hij => (x2 i).trans_le ((hsep i j hij).trans (x1 j).le)
  obtain ⟨b, c, hp⟩ := split_pair hm hd x hmono.injective hx
  have hev : ∀ t : ℝ, p.eval t = (∏ i, (t - x i)) * (t ^ 2 + b * t + c) := fun t => by
    conv_lhs => rw [hp]
    simp [eval_prod]
  have p1 : 0 < ∏ i, (1 - x i) := Finset.prod_pos fun i _ => by linarith [x2 i, h1 i]
  have p2 : 0 < ∏ i, (1 + x i) := Finset.prod_pos fun i _ => by linarith [x1 i, h0 i]
  have p3 : ∏ i, lo i ≤ ∏ i, x i := Finset.prod_le_prod (fun i _ => (h0 i).le) fun i _ => (x1 i).le
  have p4 : 0 < ∏ i, x i := Finset.prod_pos fun i _ => (h0 i).trans (x1 i)
  have hsq : ((-1 : ℝ) ^ n) * (-1) ^ n = 1 := by rw [← mul_pow]; norm_num
  rw [hev] at c1 c2 c3
  have e2 : ∏ i, (-1 - x i) = (-1) ^ n * ∏ i, (1 + x i) := by
    rw [show ((-1 : ℝ) ^ n) = ∏ _i : Fin n, (-1 : ℝ) by simp, ← Finset.prod_mul_distrib]
    exact Finset.prod_congr rfl fun i _ => by ring
  have e3 : ∏ i, (0 - x i) = (-1) ^ n * ∏ i, x i := by
    rw [show ((-1 : ℝ) ^ n) = ∏ _i : Fin n, (-1 : ℝ) by simp, ← Finset.prod_mul_distrib]
    exact Finset.prod_congr rfl fun i _ => by ring
  rw [e2, ← mul_assoc, ← mul_assoc, hsq, one_mul] at c2
  rw [e3, ← mul_assoc, ← mul_assoc, hsq, one_mul] at c3
  have q1 : 0 < 1 + b + c := by
    have := (mul_pos_iff_of_pos_left p1).1 c1
    linarith
  have q2 : 0 < 1 - b + c := by
    have := (mul_pos_iff_of_pos_left p2).1 c2
    linarith
  have q3 : c < 1 := by
    have h4 : (∏ i, x i) * c < ∏ i, x i := by
      have := c3.trans_le p3
      simpa using this
    by_contra h5
    rw [not_lt] at h5
    nlinarith
  rw [hp, map_mul, map_prod] at hz
  rcases mul_eq_zero.1 hz with h | h
  · obtain ⟨i, -, hi'⟩ := Finset.prod_eq_zero_iff.1 h
    simp only [map_sub, aeval_X, aeval_C] at hi'
    rw [sub_eq_zero.1 hi']
    rw [show (algebraMap ℝ ℂ (x i)) = ((x i : ℝ) : ℂ) from rfl, Complex.norm_real, Real.norm_eq_abs, abs_lt]
    constructor
    · linarith [h0 i, x1 i]
    · linarith [h1 i, x2 i]
  · refine quadratic_inside q1 q2 q3 (z := z) ?_
    simpa using h

end Verif.Stability
