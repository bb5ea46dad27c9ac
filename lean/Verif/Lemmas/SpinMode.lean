import Verif.Lemmas.RateDeriv

/-!
# A mode of the rates about the vertical axis
-/

namespace Verif.Stability

open Verif Flt Spec Filter Topology

namespace Loop
variable {l : Loop} {T w : ℝ}

/-- A solution of the scalar equations of the yaw rate gives an eigenvector of the derivative of the cycle. -/
lemma spin_vector (h : l.SpinTrim T w) {q I f E s η : ℝ} (hI : q * I = Stability.nextInt (.id ℝ) (l.R 2) l.dt I (-1))
    (hf : q * f = Stability.nextFil (.id ℝ) (l.R 2) l.dt f E (-1)) (hE : q * E = -1)
    (hs : s = Stability.respond (.id ℝ) (l.R 2) l.dt I f E (-1)) (hη : q * η = η + l.dt / l.tau * (s - η))
    (hω : q = 1 + l.dt * (η + l.lag / (2 * w * l.tau) * (s - η))) :
    ∃ v : RV → ℝ, v (.om 2) = 1 ∧ l.dMap w (v, 0) = q • v := by
  have hw := h.speed.ne'
  have hJ := h.inertia 2
  have htau := h.tau.ne'
  let v : RV → ℝ := fun
    | .om i => if i = 2 then 1 else 0
    | .mot j => l.alloc j 3 * (l.inertia 2 * η) / (2 * w)
    | .iR i => if i = 2 then I else 0
    | .fR i => if i = 2 then f else 0
    | .eR i => if i = 2 then E else 0
  have hinv : ∀ r, ∑ j, l.mix r j * l.alloc j 3 = if r = 3 then 1 else 0 := fun r => by
    have := congrFun (congrFun h.inverse r) 3
    rw [Matrix.mul_apply, Matrix.one_apply] at this
    exact this
  have d1 : ∀ i, dErr (v, (0 : Vec 3 ℝ)) i = if i = 2 then -1 else 0 := fun i => by
    show 0 - (if i = 2 then (1 : ℝ) else 0) = _
    split_ifs <;> simp
  have d2 : ∀ i, l.dSpin (v, 0) i = if i = 2 then s else 0 := fun i => by
    rw [dSpin, d1]
    by_cases hi : i = 2
    · subst hi; rw [hs]; rfl
    · simp only [v, hi, if_false]; exact respond_zero _ _
  have d3 : l.dWrench (v, 0) = ![0, 0, 0, l.inertia 2 * s] := by
    simp [dWrench, d2]
  have d4 : ∀ j, l.dCmd w (v, 0) j = l.alloc j 3 * (l.inertia 2 * s) / (2 * w) := fun j => by
    rw [dCmd, d3]; simp [Fin.sum_univ_four]
  have d5 : ∀ j, l.dAcc w (v, 0) j = l.alloc j 3 * (l.inertia 2 * (s - η) / (2 * w) / l.tau) := fun j => by
    rw [dAcc, d4]
    show (_ - l.alloc j 3 * (l.inertia 2 * η) / (2 * w)) / l.tau = _
    ring
  have d6 : ∀ r, l.dLift w (v, 0) r = if r = 3 then l.inertia 2 * η else 0 := fun r => by
    have e : ∀ j, l.mix r j * (2 * w * (v (.mot j))) = (l.mix r j * l.alloc j 3) * (l.inertia 2 * η) := fun j => by
      show l.mix r j * (2 * w * (l.alloc j 3 * (l.inertia 2 * η) / (2 * w))) = _
      field_simp
    simp only [dLift, e]
    rw [← Finset.sum_mul, hinv]
    split_ifs <;> simp
  have d7 : ∑ j, l.mix 3 j * l.dAcc w (v, 0) j = l.inertia 2 * (s - η) / (2 * w) / l.tau := by
    simp only [d5, ← mul_assoc]
    rw [← Finset.sum_mul, hinv]
    simp
  have d8 : ∀ i, l.dMoment w (v, 0) i = if i = 2 then l.inertia 2 * (η + l.lag / (2 * w * l.tau) * (s - η)) else 0 := fun i => by
    rw [dMoment, d6, d7]
    fin_cases i
    · simp
    · simp
    · simp; field_simp
  refine ⟨v, rfl, ?_⟩
  ext k
  rw [Pi.smul_apply, smul_eq_mul]
  cases k with
  | om i =>
    show v (.om i) + l.dt * (l.dMoment w (v, 0) i / l.inertia i) = q * v (.om i)
    rw [d8]
    by_cases hi : i = 2
    · subst hi
      simp only [v, if_true, mul_one]
      rw [mul_div_cancel_left₀ _ hJ]
      exact hω.symm
    · simp [v, hi]
  | mot j =>
    show v (.mot j) + l.dt * l.dAcc w (v, 0) j = q * v (.mot j)
    rw [d5]
    show l.alloc j 3 * (l.inertia 2 * η) / (2 * w) + l.dt * (l.alloc j 3 * (l.inertia 2 * (s - η) / (2 * w) / l.tau)) =
      q * (l.alloc j 3 * (l.inertia 2 * η) / (2 * w))
    linear_combination (-(l.alloc j 3 * l.inertia 2 / (2 * w))) * hη
  | iR i =>
    show Stability.nextInt (.id ℝ) (l.R i) l.dt (v (.iR i)) (dErr (v, 0) i) = q * v (.iR i)
    rw [d1]
    by_cases hi : i = 2
    · subst hi; simp only [v, if_true]; exact hI.symm
    · simp only [v, hi, if_false, mul_zero]; exact nextInt_zero _ _
  | fR i =>
    show Stability.nextFil (.id ℝ) (l.R i) l.dt (v (.fR i)) (v (.eR i)) (dErr (v, 0) i) = q * v (.fR i)
    rw [d1]
    by_cases hi : i = 2
    · subst hi; simp only [v, if_true]; exact hf.symm
    · simp only [v, hi, if_false, mul_zero]; exact nextFil_zero _ _
  | eR i =>
    show dErr (v, 0) i = q * v (.eR i)
    rw [d1]
    by_cases hi : i = 2
    · subst hi; simp only [v, if_true]; exact hE.symm
    · simp [v, hi]

/-- A mode that grows: after suitably many cycles, small deviations are amplified beyond any bound. -/
lemma spin_grows (h : l.SpinTrim T w) {q : ℝ} {v : RV → ℝ} (hv : v (.om 2) = 1) (he : l.dMap w (v, 0) = q • v) (hq : 1 < |q|)
    (C : ℝ) {r : ℝ} (hr : 0 < r) : ∃ n, ∃ t > 0, t * ‖v‖ < r ∧
      (∀ k < n, ‖(fun x => l.rateMap T x 0)^[k] (rateRest w + t • v) - rateRest w‖ < r) ∧
      C * (t * ‖v‖) < |((fun x => l.rateMap T x 0)^[n] (rateRest w + t • v)) (.om 2)| := by
  set z := rateRest w with hz
  set F := fun x => l.rateMap T x 0 with hF
  choose h0 M hM hL using fun k => s_map h k
  have hd : HasStrictFDerivAt (fun e : RateSpace => l.rateMap T e.1 e.2) (ContinuousLinearMap.pi M) (z, 0) :=
    hasStrictFDerivAt_pi'.2 fun k => hM k
  set A : (RV → ℝ) →L[ℝ] (RV → ℝ) := (ContinuousLinearMap.pi M).comp (ContinuousLinearMap.inl ℝ (RV → ℝ) (Vec 3 ℝ)) with hA
  have hFd : HasFDerivAt F A z := by
    have hi : HasFDerivAt (fun x : RV → ℝ => (x, (0 : Vec 3 ℝ))) (ContinuousLinearMap.inl ℝ (RV → ℝ) (Vec 3 ℝ)) z :=
      hasFDerivAt_prodMk_left z 0
    exact HasFDerivAt.comp (g := fun e : RateSpace => l.rateMap T e.1 e.2) z hd.hasFDerivAt hi
  have hfix : F z = z := funext fun k => h0 k
  have hAv : ∀ n, (A ^ n) v = q ^ n • v := by
    have h1 : A v = q • v := by
      rw [← he]
      ext k
      exact hL k (v, 0)
    intro n
    induction n with
    | zero => simp
    | succ n ih => rw [pow_succ', ContinuousLinearMap.mul_apply, ih, map_smul, h1, smul_smul, pow_succ]
  have hv0 : 0 < ‖v‖ := norm_pos_iff.2 fun h => by rw [h] at hv; simp at hv
  obtain ⟨n, hn⟩ := pow_unbounded_of_one_lt (C * ‖v‖ + 1) hq
  have e1 : ∀ᶠ x in 𝓝 z, ∀ k : Fin n, ‖F^[k] x - z‖ < r := by
    rw [eventually_all]
    intro k
    have hc : ContinuousAt (fun x => ‖F^[k] x - z‖) z := ((hFd.iterate hfix k).continuousAt.sub continuousAt_const).norm
    refine hc.eventually (gt_mem_nhds ?_)
    simp only [Function.iterate_fixed hfix, sub_self, norm_zero]
    exact hr
  have e2 := (hFd.iterate hfix n).isLittleO.def (show 0 < 1 / (2 * ‖v‖) by positivity)
  obtain ⟨ρ, hρ, H⟩ := Metric.eventually_nhds_iff.1 (e1.and e2)
  set t := min (ρ / (2 * ‖v‖)) (r / (2 * ‖v‖)) with ht
  have t0 : 0 < t := by positivity
  have t1 : t * ‖v‖ ≤ ρ / 2 := by
    calc t * ‖v‖ ≤ ρ / (2 * ‖v‖) * ‖v‖ := mul_le_mul_of_nonneg_right (min_le_left _ _) hv0.le
      _ = ρ / 2 := by field_simp
  have t2 : t * ‖v‖ ≤ r / 2 := by
    calc t * ‖v‖ ≤ r / (2 * ‖v‖) * ‖v‖ := mul_le_mul_of_nonneg_right (min_le_right _ _) hv0.le
      _ = r / 2 := by field_simp
  have hnv : ‖t • v‖ = t * ‖v‖ := by rw [norm_smul, Real.norm_of_nonneg t0.le]
  obtain ⟨g1, g2⟩ := @H (z + t • v) (by rw [dist_eq_norm, add_sub_cancel_left, hnv]; linarith)
  refine ⟨n, t, t0, by linarith, fun k hk => g1 ⟨k, hk⟩, ?_⟩
  rw [Function.iterate_fixed hfix, add_sub_cancel_left, map_smul, hAv, hnv] at g2
  have g3 := (norm_le_pi_norm _ (.om 2)).trans g2
  simp only [Pi.sub_apply, Pi.smul_apply, hv, smul_eq_mul, mul_one, show z (.om 2) = 0 from rfl, sub_zero, Real.norm_eq_abs] at g3
  have g4 : 1 / (2 * ‖v‖) * (t * ‖v‖) = t / 2 := by field_simp
  rw [g4] at g3
  have g5 : |t * q ^ n| ≤ |F^[n] (z + t • v) (.om 2)| + t / 2 := by
    have := abs_sub_abs_le_abs_sub (t * q ^ n) (F^[n] (z + t • v) (.om 2))
    rw [abs_sub_comm] at this
    linarith
  rw [abs_mul, abs_of_pos t0, abs_pow] at g5
  have g6 : t * (C * ‖v‖ + 1) < t * |q| ^ n := mul_lt_mul_of_pos_left hn t0
  nlinarith

end Loop

end Verif.Stability
