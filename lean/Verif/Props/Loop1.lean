import Verif.Props.PidScalar
import Verif.Lemmas.Stability

/-!
# A scalar PID steering an integrator (C134)
-/

namespace Verif.Props

open Verif Flt Spec Stability Filter Topology

/-- The closed loop of a scalar PID and a quantity that changes at the commanded rate, for `n` periods `dt` with
reference `r`, using the error function of the PID; `none` = undefined behaviour. -/
noncomputable def chase (r dt : ℝ) : ℕ → Pid1 ℝ × ℝ → Option (Pid1 ℝ × ℝ)
  | 0, s => some s
  | n + 1, s => (s.1.computeControl dt (Pid1.getError s.2 r)).bind fun o => chase r dt n (o.1, s.2 + dt * o.2)

/-- Error and accumulated error after a period. -/
noncomputable def chaseMap (kp ki dt : ℝ) (x : ℝ × ℝ) : ℝ × ℝ :=
  (x.1 - dt * (kp * x.1 + ki * (x.2 + x.1 * dt)), x.2 + x.1 * dt)

lemma chase_eq {kp ki dt r : ℝ} (n : ℕ) (p : Pid1 ℝ) (x i : ℝ) (h1 : p.kp = kp) (h2 : p.ki = ki) (h3 : p.kd = 0)
    (h4 : p.antiwindup = 0) (h5 : p.satFlag = false) (h6 : p.resetIntegral = false)
    (h7 : i = if p.firstRun then 0 else p.integral) :
    ∃ p', chase r dt n (p, x) = some (p', r - ((chaseMap kp ki dt)^[n] (r - x, i)).1) := by
  induction n generalizing p x i with
  | zero => exact ⟨p, by simp [chase]⟩
  | succ n ih =>
    have hc := control1_real p h4.ge (fun h => by rw [h5] at h; cases h) dt (r - x)
    have hacc : (p.firstRunInit (r - x)).resetAcc (r - x) = i := by
      rw [h7]
      unfold Pid1.firstRunInit
      split <;> simp [Pid1.resetAcc, h6, flt]
    have hout : ∀ y, within (limitsOf p) y = y := fun y => by simp [limitsOf, h5, within]
    have hw : ∀ y, windup p.antiwindup y = y := fun y => by simp [windup, h4]
    simp only [hacc, hout, hw, h3, zero_mul, add_zero] at hc
    have herr : Pid1.getError x r = r - x := by simp [Pid1.getError, flt]
    rw [Function.iterate_succ_apply]
    simp only [chase, herr, hc, Option.bind_some]
    have hcfg : ∀ q : Pid1 ℝ, q = p.firstRunInit (r - x) → q.kp = p.kp ∧ q.ki = p.ki ∧ q.kd = p.kd ∧
        q.antiwindup = p.antiwindup ∧ q.satFlag = p.satFlag ∧ q.resetIntegral = p.resetIntegral ∧ q.firstRun = false := by
      rintro q rfl
      unfold Pid1.firstRunInit
      split
      · simp
      · simp_all
    obtain ⟨g1, g2, g3, g4, g5, g6, g7⟩ := hcfg _ rfl
    rw [show chaseMap kp ki dt (r - x, i) = (r - (x + dt * (p.kp * (r - x) + p.ki * (i + (r - x) * dt))),
      i + (r - x) * dt) by rw [h1, h2]; ext <;> simp [chaseMap]; ring]
    exact ih _ _ _ (g1.trans h1) (g2.trans h2) (g3.trans h3) (g4.trans h4) (g5.trans h5) (g6.trans h6) (by simp [g7])

/-- **C134.** A scalar PID with positive proportional and integral gains, without derivative part and limits, brings a
quantity that changes at the commanded rate to every reference from everywhere, without undefined behaviour, if and
only if `2 kp dt + ki dt² < 4`. -/
theorem C134_settles_iff (q : Pid1Params ℝ) (dt : ℝ) (hkp : 0 < q.kp) (hki : 0 < q.ki) (hkd : q.kd = 0)
    (haw : q.antiwindup = 0) (hr : q.resetIntegral = false) (hu : q.upper = 0) (hl : q.lower = 0) (h0 : 0 < dt) :
    (∀ r x, ∃ u : ℕ → ℝ, (∀ n, ∃ p, chase r dt n (Pid1.mk' q, x) = some (p, u n)) ∧ Tendsto u atTop (𝓝 r)) ↔
      2 * q.kp * dt + q.ki * dt ^ 2 < 4 := by
  obtain ⟨-, -, m1, m2, m3, m4, -, m6, m7⟩ := mk1_real q
  have m5 : (Pid1.mk' q).satFlag = false := by
    simp [Pid1.mk', Pid1.updateParams, hu, hl, flt, Pid1.reset, Pid1.disableSat]
  have H : ∀ r x n, ∃ p, chase r dt n (Pid1.mk' q, x) = some (p, r - ((chaseMap q.kp q.ki dt)^[n] (r - x, 0)).1) :=
    fun r x n => chase_eq n _ x 0 m1 m2 (m3.trans hkd) (m4.trans haw) m5 (m6.trans hr) (by simp [m7])
  set f := chaseMap q.kp q.ki dt
  have hf : ∀ x, f x = (x.1 - dt * (q.kp * x.1 + q.ki * (x.2 + x.1 * dt)), x.2 + x.1 * dt) := fun _ => rfl
  constructor
  · intro h
    by_contra hcon
    push Not at hcon
    obtain ⟨u, hu1, hu2⟩ := h 0 1
    have hu' : ∀ n, u n = -(f^[n] (-1, 0)).1 := fun n => by
      obtain ⟨p, hp⟩ := hu1 n
      obtain ⟨p', hp'⟩ := H 0 1 n
      rw [hp] at hp'
      simpa using congrArg Prod.snd (Option.some.inj hp')
    -- a real mode that does not decay
    obtain ⟨z, ⟨z1, z2⟩, hz⟩ : ∃ z ∈ Set.Iic (-1 : ℝ) ∩ Set.univ,
        (z - 1) ^ 2 + dt * (q.kp + q.ki * dt) * (z - 1) + q.ki * dt ^ 2 = 0 := by
      set M := 1 + dt * (q.kp + q.ki * dt) with hM
      have hM1 : 1 < M := by rw [hM]; nlinarith [mul_pos h0 hkp, mul_pos (mul_pos h0 hki) h0]
      have hc : ContinuousOn (fun z : ℝ => (z - 1) ^ 2 + dt * (q.kp + q.ki * dt) * (z - 1) + q.ki * dt ^ 2)
          (Set.Icc (-M) (-1)) := by fun_prop
      have := intermediate_value_Icc' (show -M ≤ -1 by linarith) hc
      obtain ⟨z, hz, hz'⟩ := this (show (0 : ℝ) ∈ _ from ⟨by nlinarith, by
        have : -M - 1 = -(2 + dt * (q.kp + q.ki * dt)) := by rw [hM]; ring
        rw [this]
        nlinarith [mul_pos h0 hkp, mul_pos (mul_pos h0 hki) h0]⟩)
      exact ⟨z, ⟨hz.2, trivial⟩, hz'⟩
    change z ≤ -1 at z1
    have hmode : ∀ n, ∀ x : ℝ × ℝ, (z - 1) * (f^[n] x).1 - dt * q.ki * (f^[n] x).2 =
        z ^ n * ((z - 1) * x.1 - dt * q.ki * x.2) := by
      intro n
      induction n with
      | zero => intro x; simp
      | succ n ih =>
        intro x
        have : (z - 1) * (f x).1 - dt * q.ki * (f x).2 = z * ((z - 1) * x.1 - dt * q.ki * x.2) := by
          rw [hf]
          linear_combination x.1 * (-1) * hz
        rw [Function.iterate_succ_apply, ih (f x), this]
        ring
    -- errors that decay leave nothing accumulated
    have e0 : Tendsto (fun n => (f^[n] (-1, 0)).1) atTop (𝓝 0) := by
      have := hu2.neg
      simp only [hu', neg_neg, neg_zero] at this
      exact this
    have e1 : Tendsto (fun n => (f^[n + 1] (-1, 0)).1) atTop (𝓝 0) := (tendsto_add_atTop_iff_nat 1).2 e0
    have e2 : Tendsto (fun n => dt * q.ki * (f^[n] (-1, 0)).2) atTop (𝓝 0) := by
      have := (e0.const_mul (1 - dt * (q.kp + q.ki * dt))).sub e1
      simp only [mul_zero, sub_zero] at this
      refine this.congr fun n => ?_
      rw [Function.iterate_succ_apply', hf]
      simp only
      ring
    have e3 := (e0.const_mul (z - 1)).sub e2
    simp only [hmode, mul_zero, sub_zero] at e3
    obtain ⟨N, hN⟩ := ((tendsto_zero_iff_norm_tendsto_zero.1 e3).eventually (gt_mem_nhds one_pos)).exists
    rw [norm_mul, norm_pow, Real.norm_eq_abs, Real.norm_eq_abs, abs_of_nonpos (by linarith : z ≤ 0),
      abs_of_nonneg (by linarith : 0 ≤ (z - 1) * -1)] at hN
    have : (1 : ℝ) ≤ (-z) ^ N := one_le_pow₀ (by linarith)
    nlinarith
  · intro h r x
    refine ⟨_, H r x, ?_⟩
    have : Tendsto (fun n => (f^[n] (r - x, 0)).1) atTop (𝓝 0) := by
      refine recur_tendsto (p := 2 - dt * (q.kp + q.ki * dt)) (q := 1 - dt * q.kp) (by nlinarith [mul_pos h0 hkp])
        (by
          rw [abs_lt]
          constructor <;> nlinarith [mul_pos h0 hkp, mul_pos (mul_pos h0 hki) h0]) _ fun n => ?_
      rw [Function.iterate_succ_apply', Function.iterate_succ_apply']
      simp only [hf]
      ring
    simpa using this.const_sub r

/-- Parameters of a scalar PI controller without limits. -/
noncomputable def chaseParams (kp ki : ℝ) : Pid1Params ℝ := ⟨kp, ki, 0, 0, 1, false, 0, 0⟩

/-- Non-vacuity of `C134_settles_iff`: a gain of 10 settles with a period of 0.1, a gain of 20 does not. -/
example :
    (∀ r x, ∃ u : ℕ → ℝ, (∀ n, ∃ p, chase r (1 / 10) n (Pid1.mk' (chaseParams 10 1), x) = some (p, u n)) ∧
      Tendsto u atTop (𝓝 r)) ∧
    ¬ (∀ r x, ∃ u : ℕ → ℝ, (∀ n, ∃ p, chase r (1 / 10) n (Pid1.mk' (chaseParams 20 1), x) = some (p, u n)) ∧
      Tendsto u atTop (𝓝 r)) := by
  constructor
  · refine (C134_settles_iff (chaseParams 10 1) _ ?_ ?_ rfl rfl rfl rfl rfl ?_).2 ?_ <;> norm_num [chaseParams]
  · rw [C134_settles_iff (chaseParams 20 1) _ (by norm_num [chaseParams]) (by norm_num [chaseParams]) rfl rfl rfl rfl rfl
      (by norm_num)]
    norm_num [chaseParams]

end Verif.Props
