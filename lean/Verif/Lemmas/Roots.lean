import Mathlib.Analysis.Complex.Basic
import Mathlib.Analysis.Complex.Polynomial.Basic
import Mathlib.Analysis.Normed.Operator.Mul
import Mathlib.Analysis.SpecificLimits.Normed
import Mathlib.Algebra.Polynomial.Splits
import Mathlib.Algebra.Polynomial.AlgebraMap
import Mathlib.Algebra.Polynomial.Div
import Mathlib.Tactic.Linarith
import Mathlib.Tactic.Positivity
import Mathlib.Tactic.Ring

/-!
# Powers of an element annihilated by a polynomial with roots inside the unit circle
-/

namespace Verif.Stability

open Filter Topology Polynomial

/-- Geometric decay of a sequence. -/
def Decays (u : ℕ → ℂ) : Prop := ∃ B r : ℝ, 0 ≤ B ∧ 0 < r ∧ r < 1 ∧ ∀ n, ‖u n‖ ≤ B * r ^ n

lemma Decays.tendsto {u : ℕ → ℂ} (h : Decays u) : Tendsto u atTop (𝓝 0) := by
  obtain ⟨B, r, -, r0, r1, hu⟩ := h
  refine squeeze_zero_norm hu ?_
  simpa using (tendsto_pow_atTop_nhds_zero_of_lt_one r0.le r1).const_mul B

/-- A stable first order recurrence keeps decay. -/
lemma Decays.of_shift {u : ℕ → ℂ} {x : ℂ} (hx : ‖x‖ < 1) (h : Decays fun n => u (n + 1) - x * u n) : Decays u := by
  obtain ⟨B, r, hB0, r0, r1, hB⟩ := h
  set s := (1 + max r ‖x‖) / 2 with hs
  have hmx : max r ‖x‖ < 1 := max_lt r1 hx
  have s1 : s < 1 := by rw [hs]; linarith
  have sr : r < s := by have := le_max_left r ‖x‖; rw [hs]; linarith
  have sx : ‖x‖ < s := by have := le_max_right r ‖x‖; rw [hs]; linarith
  set D := ‖u 0‖ + B / (s - ‖x‖) with hD
  have hdx : 0 < s - ‖x‖ := by linarith
  have hD0 : 0 ≤ D := by positivity
  have hDB : ‖x‖ * D + B ≤ D * s := by
    have : B ≤ D * (s - ‖x‖) := by
      rw [← div_le_iff₀ hdx, hD]; linarith [norm_nonneg (u 0)]
    linarith
  refine ⟨D, s, hD0, r0.trans sr, s1, fun n => ?_⟩
  induction n with
  | zero =>
    have : 0 ≤ B / (s - ‖x‖) := by positivity
    simp only [pow_zero, mul_one, hD]; linarith
  | succ n ih =>
    have hstep : ‖u (n + 1)‖ ≤ ‖u (n + 1) - x * u n‖ + ‖x‖ * ‖u n‖ := by
      rw [← norm_mul]
      calc ‖u (n + 1)‖ = ‖(u (n + 1) - x * u n) + x * u n‖ := by rw [sub_add_cancel]
        _ ≤ _ := norm_add_le _ _
    have hr : r ^ n ≤ s ^ n := pow_le_pow_left₀ r0.le sr.le n
    have hsn : 0 ≤ s ^ n := pow_nonneg (r0.trans sr).le n
    calc ‖u (n + 1)‖ ≤ B * s ^ n + ‖x‖ * (D * s ^ n) := by
          refine hstep.trans (add_le_add ((hB n).trans ?_) ?_)
          · exact mul_le_mul_of_nonneg_left hr hB0
          · exact mul_le_mul_of_nonneg_left ih (norm_nonneg _)
      _ = (‖x‖ * D + B) * s ^ n := by ring
      _ ≤ D * s * s ^ n := mul_le_mul_of_nonneg_right hDB hsn
      _ = D * s ^ (n + 1) := by ring

/-- The shift of sequences. -/
def shift : Module.End ℂ (ℕ → ℂ) where
  toFun u n := u (n + 1)
  map_add' _ _ := rfl
  map_smul' _ _ := rfl

lemma shift_pow (k : ℕ) (u : ℕ → ℂ) (n : ℕ) : (shift ^ k) u n = u (n + k) := by
  induction k generalizing u n with
  | zero => rfl
  | succ k ih =>
    rw [pow_succ', Module.End.mul_apply]
    show (shift ^ k) u (n + 1) = _
    rw [ih]; congr 1; omega

lemma decays_of_prod (m : Multiset ℂ) (hm : ∀ x ∈ m, ‖x‖ < 1) (u : ℕ → ℂ)
    (h : Decays (aeval shift (m.map fun x => X - C x).prod u)) : Decays u := by
  induction m using Multiset.induction_on generalizing u with
  | empty => simpa using h
  | cons x m ih =>
    rw [Multiset.map_cons, Multiset.prod_cons, mul_comm, map_mul, Module.End.mul_apply] at h
    have h1 := ih (fun y hy => hm y (Multiset.mem_cons_of_mem hy)) _ h
    refine Decays.of_shift (hm x (Multiset.mem_cons_self _ _)) ?_
    have e : (aeval shift (X - C x : ℂ[X])) u = fun n => u (n + 1) - x * u n := by
      funext n
      simp only [map_sub, aeval_X, aeval_C, LinearMap.sub_apply, Pi.sub_apply, Module.algebraMap_end_apply,
        Pi.smul_apply, smul_eq_mul]
      rfl
    rwa [e] at h1

/-- A recurrence whose characteristic roots are inside the unit circle decays. -/
lemma decays_of_roots {p : ℂ[X]} (hp : p.Monic) (hr : ∀ z, p.IsRoot z → ‖z‖ < 1) (u : ℕ → ℂ)
    (h : aeval shift p u = 0) : Decays u := by
  have hs := (IsAlgClosed.splits p).eq_prod_roots_of_monic hp
  refine decays_of_prod p.roots (fun x hx => hr x (isRoot_of_mem_roots hx)) u ?_
  rw [← hs, h]
  exact ⟨0, 1 / 2, le_rfl, by norm_num, by norm_num, fun n => by simp⟩

/-- Powers of an element annihilated by a real polynomial with roots inside the unit circle vanish. -/
lemma pow_tendsto_of_roots {A : Type*} [NormedRing A] [NormedAlgebra ℝ A] {p : ℝ[X]} (hp : p.Monic)
    (hr : ∀ z : ℂ, aeval z p = 0 → ‖z‖ < 1) (M : A) (hM : aeval M p = 0) :
    Tendsto (fun n => M ^ n) atTop (𝓝 0) := by
  have key : ∀ k, Tendsto (fun n => ((X ^ n : ℝ[X]) %ₘ p).coeff k) atTop (𝓝 0) := by
    intro k
    have h1 : Decays fun n => ((((X ^ n : ℝ[X]) %ₘ p).coeff k : ℝ) : ℂ) := by
      refine decays_of_roots (hp.map (algebraMap ℝ ℂ)) (fun z hz => hr z ?_) _ ?_
      · rw [IsRoot.def, eval_map_algebraMap] at hz
        exact hz
      · funext n
        rw [aeval_eq_sum_range, LinearMap.sum_apply, Finset.sum_apply]
        simp only [LinearMap.smul_apply, Pi.smul_apply, shift_pow, smul_eq_mul, Pi.zero_apply, coeff_map,
          Complex.coe_algebraMap]
        rw [natDegree_map]
        norm_cast
        have h2 : ((X ^ n * p) %ₘ p).coeff k = 0 := by
          rw [mul_self_modByMonic hp, coeff_zero]
        have h3 : (X ^ n * p) = ∑ j ∈ Finset.range (p.natDegree + 1), C (p.coeff j) * X ^ (n + j) := by
          conv_lhs => rw [p.as_sum_range_C_mul_X_pow]
          rw [Finset.mul_sum]
          refine Finset.sum_congr rfl fun j _ => ?_
          rw [pow_add]; ring
        rw [h3] at h2
        rw [← h2, ← modByMonicHom_apply, map_sum, finsetSum_coeff]
        refine Finset.sum_congr rfl fun j _ => ?_
        rw [← smul_eq_C_mul, map_smul, modByMonicHom_apply, coeff_smul, smul_eq_mul]
    have h2 := (Complex.continuous_re.tendsto _).comp h1.tendsto
    simpa [Function.comp_def] using h2
  have hpow : ∀ n, M ^ n = ∑ k ∈ Finset.range (p.natDegree + 1), ((X ^ n : ℝ[X]) %ₘ p).coeff k • M ^ k := by
    intro n
    have h1 : aeval M ((X ^ n : ℝ[X]) %ₘ p) = M ^ n := by
      conv_rhs => rw [← aeval_X (R := ℝ) M, ← map_pow, ← modByMonic_add_div (X ^ n : ℝ[X]) p, map_add, map_mul, hM,
        zero_mul, add_zero]
    rw [← h1]
    exact aeval_eq_sum_range' (Nat.lt_succ_of_le (natDegree_modByMonic_le _ hp)) M
  have h3 : Tendsto (fun n => ∑ k ∈ Finset.range (p.natDegree + 1), ((X ^ n : ℝ[X]) %ₘ p).coeff k • M ^ k) atTop (𝓝 0) := by
    rw [← Finset.sum_const_zero (s := Finset.range (p.natDegree + 1))]
    refine tendsto_finsetSum _ fun k _ => ?_
    simpa using (key k).smul_const (M ^ k)
  exact h3.congr fun n => (hpow n).symm

end Verif.Stability
