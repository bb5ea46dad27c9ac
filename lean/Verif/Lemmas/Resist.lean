import Verif.Lemmas.Stability

/-!
# Stable fixed points under disturbances
-/

namespace Verif.Stability

open Filter Topology

variable {E : Type*} [NormedAddCommGroup E] [NormedSpace ℝ E]

/-- A norm in which the linear map contracts. -/
lemma contracting_norm {L : E →L[ℝ] E} (hp : Tendsto (fun n => L ^ n) atTop (𝓝 0)) :
    ∃ V : E → ℝ, ∃ M > 0, ∃ q, 0 ≤ q ∧ q < 1 ∧ (∀ y, ‖y‖ ≤ V y) ∧ (∀ y, V y ≤ M * ‖y‖) ∧
      (∀ y z, V (y + z) ≤ V y + V z) ∧ ∀ y, V (L y) ≤ q * V y := by
  obtain ⟨N, hN0, hN⟩ : ∃ N, 0 < N ∧ ‖L ^ N‖ < 1 / 2 := by
    have h1 := (tendsto_zero_iff_norm_tendsto_zero.1 hp).eventually (gt_mem_nhds (show (0 : ℝ) < 1 / 2 by norm_num))
    obtain ⟨N, h, h'⟩ := (h1.and (eventually_gt_atTop 0)).exists
    exact ⟨N, h', h⟩
  set q : ℝ := (1 / 2 : ℝ) ^ ((1 : ℝ) / N) with hq
  have hq0 : 0 < q := by positivity
  have hq1 : q < 1 := Real.rpow_lt_one (by norm_num) (by norm_num) (by positivity)
  have hqN : q ^ N = 1 / 2 := by
    rw [hq, ← Real.rpow_natCast, ← Real.rpow_mul (by norm_num)]
    have : (N : ℝ) ≠ 0 := by positivity
    rw [one_div_mul_cancel this, Real.rpow_one]
  obtain ⟨K, rfl⟩ : ∃ K, N = K + 1 := ⟨N - 1, by omega⟩
  refine ⟨fun y => ∑ j ∈ Finset.range (K + 1), ‖(L ^ j) y‖ / q ^ j, ∑ j ∈ Finset.range (K + 1), ‖L ^ j‖ / q ^ j + 1, ?_, q,
    hq0.le, hq1, fun y => ?_, fun y => ?_, fun y z => ?_, fun y => ?_⟩
  · have : 0 ≤ ∑ j ∈ Finset.range (K + 1), ‖L ^ j‖ / q ^ j := Finset.sum_nonneg fun _ _ => by positivity
    linarith
  · have : ‖(L ^ 0) y‖ / q ^ 0 ≤ ∑ j ∈ Finset.range (K + 1), ‖(L ^ j) y‖ / q ^ j :=
      Finset.single_le_sum (f := fun j => ‖(L ^ j) y‖ / q ^ j) (fun _ _ => by positivity) (by simp)
    simpa using this
  · rw [add_mul, Finset.sum_mul]
    refine (Finset.sum_le_sum fun j _ => ?_).trans (le_add_of_nonneg_right (by positivity))
    rw [div_mul_eq_mul_div]
    gcongr
    exact (L ^ j).le_opNorm y
  · rw [← Finset.sum_add_distrib]
    refine Finset.sum_le_sum fun j _ => ?_
    rw [map_add, ← add_div]
    gcongr
    exact norm_add_le _ _
  · have e : ∀ j, (L ^ j) (L y) = (L ^ (j + 1)) y := fun j => by rw [pow_succ]; rfl
    simp only [e]
    rw [Finset.sum_range_succ, Finset.sum_range_succ' (fun j => ‖(L ^ j) y‖ / q ^ j), mul_add, Finset.mul_sum]
    refine add_le_add (Finset.sum_le_sum fun j _ => le_of_eq ?_) ?_
    · rw [pow_succ q]; field_simp
    · have h1 : ‖(L ^ (K + 1)) y‖ ≤ 1 / 2 * ‖y‖ :=
        ((L ^ (K + 1)).le_opNorm y).trans (mul_le_mul_of_nonneg_right hN.le (norm_nonneg _))
      rw [div_le_iff₀ (by positivity)]
      have : q * (‖(L ^ 0) y‖ / q ^ 0) * q ^ K = q ^ (K + 1) * ‖y‖ := by
        simp [pow_succ]; ring
      rw [this, hqN]
      exact h1

/-- Near a fixed point at which the powers of the derivative tend to zero, the map contracts a norm up to disturbances. -/
lemma resists {f : E → E} {f' : E →L[ℝ] E} {x0 : E} (hf : HasFDerivAt f f' x0) (h0 : f x0 = x0)
    (hp : Tendsto (fun n => f' ^ n) atTop (𝓝 0)) :
    ∃ V : E → ℝ, ∃ M > 0, ∃ q, 0 ≤ q ∧ q < 1 ∧ ∃ r > 0, (∀ y, ‖y‖ ≤ V y) ∧ (∀ y, V y ≤ M * ‖y‖) ∧
      ∀ y e, ‖y - x0‖ < r → V (f y + e - x0) ≤ q * V (y - x0) + M * ‖e‖ := by
  obtain ⟨V, M, hM, q, q0, q1, v1, v2, v3, v4⟩ := contracting_norm hp
  have hε : 0 < (1 - q) / (2 * M) := div_pos (by linarith) (by positivity)
  have := hf.isLittleO.def hε
  rw [Metric.eventually_nhds_iff] at this
  obtain ⟨r, hr, H⟩ := this
  refine ⟨V, M, hM, (1 + q) / 2, by linarith, by linarith, r, hr, v1, v2, fun y e hy => ?_⟩
  have h1 := H (show dist y x0 < r by rwa [dist_eq_norm])
  rw [h0] at h1
  have e1 : f y + e - x0 = f' (y - x0) + (f y - x0 - f' (y - x0)) + e := by abel
  rw [e1]
  have h2 : V (f y - x0 - f' (y - x0)) ≤ (1 - q) / 2 * V (y - x0) := by
    refine (v2 _).trans ((mul_le_mul_of_nonneg_left h1 hM.le).trans ?_)
    have : M * ((1 - q) / (2 * M) * ‖y - x0‖) = (1 - q) / 2 * ‖y - x0‖ := by field_simp
    rw [this]
    exact mul_le_mul_of_nonneg_left (v1 _) (by linarith)
  have := v3 (f' (y - x0) + (f y - x0 - f' (y - x0))) e
  have := v3 (f' (y - x0)) (f y - x0 - f' (y - x0))
  have := v4 (y - x0)
  have := v2 e
  linarith

end Verif.Stability
