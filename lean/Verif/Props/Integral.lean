import Verif.Props.PiLoop
import Verif.Props.Climb

/-!
# Control of the vertical speed with integral action (C131)
-/

namespace Verif.Props

open Verif Flt Spec Stability Filter Topology

/-- Vertical flight in velocity mode with requested climb rate `vref`, the vertical speed being controlled
by a PI controller. -/
structure Steered (s : Sim ℝ 4) (p : ModelParams ℝ) (ms : Fin 4 → Motor ℝ) (c : Craft)
    (kp ki aw lim vref : ℝ) : Prop where
  vertical : Vertical s p ms c
  mode : s.mode = .velocity
  request : s.refVel = ![0, 0, vref]
  pi : PiAxis s.ctl.vel kp ki aw lim

/-- Vertical speed, accumulated error of the velocity controller, and rotor speed. -/
noncomputable def steering (s : Sim ℝ 4) : ℝ × ℝ × ℝ :=
  (s.dyn.state.vel 2, heldError s.ctl.vel, s.dyn.state.motVel 0)

/-- Distance of these from given values. -/
noncomputable def astray (s : Sim ℝ 4) (v i w : ℝ) : ℝ :=
  max |s.dyn.state.vel 2 - v| (max |heldError s.ctl.vel - i| |s.dyn.state.motVel 0 - w|)

/-- Trimmed climb at the requested speed: the rotors carry gravity and drag, and the accumulated error alone
asks for that thrust, all inside the limits. -/
structure Trimmed (p : ModelParams ℝ) (c : Craft) (ki aw lim vref i w : ℝ) : Prop where
  forces : 4 * c.kf * w ^ 2 = c.g + p.drag * (vref * |vref|)
  demand : p.mass * (c.g + ki * i) = 4 * c.kf * w ^ 2
  turning : 0 < w
  speeds : c.lo < w ∧ w < c.hi
  windup : |i| < aw
  limit : |ki * i| < lim

/-- Demanded acceleration. -/
noncomputable def steerAcc (kp ki vref dt : ℝ) (x : ℝ × ℝ × ℝ) : ℝ :=
  kp * (vref - x.1) + ki * (x.2.1 + (vref - x.1) * dt)

/-- Vertical speed, accumulated error, and rotor speed after a cycle. -/
noncomputable def steerMap (p : ModelParams ℝ) (c : Craft) (kp ki vref dt : ℝ) (x : ℝ × ℝ × ℝ) : ℝ × ℝ × ℝ :=
  (x.1 + dt / p.mass * (4 * c.kf * (x.2.2 * |x.2.2|) - c.g - p.drag * (x.1 * |x.1|)),
    x.2.1 + (vref - x.1) * dt,
    x.2.2 + dt / c.tau * (c.speedFor p.mass (steerAcc kp ki vref dt x) - x.2.2))

/-- The cycle is inside all limits. -/
def SteerInside (p : ModelParams ℝ) (c : Craft) (kp ki aw lim vref dt : ℝ) (x : ℝ × ℝ × ℝ) : Prop :=
  0 < c.g + steerAcc kp ki vref dt x ∧ |x.2.1| < aw ∧ |(steerMap p c kp ki vref dt x).2.1| < aw ∧
  |steerAcc kp ki vref dt x| < lim ∧
  (c.lo < c.speedFor p.mass (steerAcc kp ki vref dt x) ∧ c.speedFor p.mass (steerAcc kp ki vref dt x) < c.hi) ∧
  (c.lo < (steerMap p c kp ki vref dt x).2.2 ∧ (steerMap p c kp ki vref dt x).2.2 < c.hi)

section
variable {p : ModelParams ℝ} {ms : Fin 4 → Motor ℝ} {c : Craft} {kp ki aw lim vref dt : ℝ}

/-- A demand of the velocity controller is passed on to the rotors. -/
lemma Steered.demand {s : Sim ℝ 4} (h : Steered s p ms c kp ki aw lim vref) (hc : c.Is p ms) {a i : ℝ}
    (l1 : 0 < c.g + a) (ho : (s.ctl.vel.computeControl dt ![0, 0, vref - s.dyn.state.vel 2]).2 = ![0, 0, a] ∧
      PiAxis (s.ctl.vel.computeControl dt ![0, 0, vref - s.dyn.state.vel 2]).1 kp ki aw lim ∧
      heldError (s.ctl.vel.computeControl dt ![0, 0, vref - s.dyn.state.vel 2]).1 = i) :
    (s.updateController dt).actuation = (fun _ => c.speedFor p.mass a) ∧
    (s.updateController dt).dyn = s.dyn ∧ Steered (s.updateController dt) p ms c kp ki aw lim vref ∧
    heldError (s.updateController dt).ctl.vel = i := by
  have hv := h.vertical
  have hu := Sim.updateController_armed hv.armed dt
  have hy : s.yawRef = s.refYaw := by simp [Sim.yawRef, hv.yawMode]
  have hcmd : s.command s.refYaw dt = s.ctl.velocityControl s.dyn.state.vel s.dyn.state.ori.toMat
      s.dyn.state.angVel s.refVel s.refYaw dt := by
    simp only [Sim.command, h.mode]
  obtain ⟨hst, -, e2⟩ := (C53_cascade s.ctl s.dyn.state.ori.toMat 0 s.dyn.state.vel
    s.dyn.state.angVel 0 s.refVel 0 s.refYaw dt).2.1
  have herr : (fun i => s.refVel i ⊟ s.dyn.state.vel i) = ![0, 0, vref - s.dyn.state.vel 2] := by
    rw [h.request]
    ext i
    fin_cases i
    · simp [flt, hv.upright.1]
    · simp [flt, hv.upright.2]
    · simp [flt]
  simp only [herr] at hst e2
  obtain ⟨o1, o2, o3⟩ := ho
  rw [o1] at hst
  obtain ⟨g1, g2, g3⟩ := hv.stage hc l1 hst
  rw [hu, hy, hcmd]
  refine ⟨g1, rfl, ?_, ?_⟩
  · exact {
      vertical := { hv with
        knowsMass := hv.knowsMass
        knowsGravity := hv.knowsGravity
        knowsRotors := hv.knowsRotors
        ratePid := ⟨g2, g3⟩ }
      mode := h.mode
      request := h.request
      pi := by simp only [e2]; exact o2 }
  · simp only [e2, o3]

lemma Steered.control {s : Sim ℝ 4} (h : Steered s p ms c kp ki aw lim vref) (hc : c.Is p ms)
    (ha : SteerInside p c kp ki aw lim vref dt (steering s)) :
    (s.updateController dt).actuation = (fun _ => c.speedFor p.mass (steerAcc kp ki vref dt (steering s))) ∧
    (s.updateController dt).dyn = s.dyn ∧ Steered (s.updateController dt) p ms c kp ki aw lim vref ∧
    heldError (s.updateController dt).ctl.vel = (steerMap p c kp ki vref dt (steering s)).2.1 := by
  obtain ⟨l1, l2, l3, l4, -⟩ := ha
  exact h.demand hc l1 (h.pi.control (dt := dt) (e := vref - s.dyn.state.vel 2) l2.le l3.le l4.le)

section
variable [Noise ℝ]

/-- A cycle inside all limits. -/
lemma Steered.cycle {s : Sim ℝ 4} (h : Steered s p ms c kp ki aw lim vref) (hc : c.Is p ms)
    (h0 : 0 < dt) (h1 : dt ≤ 1 / 100) (hl : SteerInside p c kp ki aw lim vref dt (steering s)) :
    ∃ t, (∀ os u, Sim.Runs t os u → Sim.Runs s (.updateController dt :: .updateDynamics dt :: os) u) ∧
      Steered t p ms c kp ki aw lim vref ∧ steering t = steerMap p c kp ki vref dt (steering s) := by
  obtain ⟨c1, c2, c3, c4⟩ := h.control hc hl
  obtain ⟨-, -, -, -, ⟨l2, l3⟩, l4, l5⟩ := hl
  obtain ⟨t, t1, t2, t3, t4, -, t6, -, -, -, t10, t11⟩ := c3.vertical.dynamics hc c1
    (by rw [c2]; rfl : _ = (steering s).2.2) (by rw [c2]; rfl : _ = (steering s).1) h0 h1 ⟨l2.le, l3.le⟩ ⟨l4.le, l5.le⟩
  refine ⟨t, fun os u hu => .ok rfl (.ok t1 hu), ⟨t2, ?_, ?_, ?_⟩, ?_⟩
  · rw [t4]; exact c3.mode
  · rw [t6]; exact c3.request
  · rw [t3]; exact c3.pi
  · rw [steering, t10, t11, t3, c4]; rfl

/-- Cycles that stay inside all limits. -/
lemma Steered.flight {s : Sim ℝ 4} (h : Steered s p ms c kp ki aw lim vref) (hc : c.Is p ms)
    (h0 : 0 < dt) (h1 : dt ≤ 1 / 100) (n : ℕ)
    (hl : ∀ j < n, SteerInside p c kp ki aw lim vref dt ((steerMap p c kp ki vref dt)^[j] (steering s))) :
    ∃ t, Sim.Runs s (cycles dt (List.replicate n dt)) t ∧ Steered t p ms c kp ki aw lim vref ∧
      steering t = (steerMap p c kp ki vref dt)^[n] (steering s) := by
  induction n generalizing s with
  | zero => exact ⟨s, .nil s, h, rfl⟩
  | succ n ih =>
    obtain ⟨t, t1, t2, t3⟩ := h.cycle hc h0 h1 (hl 0 (by simp))
    obtain ⟨u, u1, u2, u3⟩ := ih t2 (fun j hj => by
      have := hl (j + 1) (by simpa using hj)
      rwa [Function.iterate_succ_apply, ← t3] at this)
    exact ⟨u, t1 _ _ u1, u2, by rw [u3, t3, Function.iterate_succ_apply]⟩

end

variable {i w : ℝ}

lemma Trimmed.speed (h : Trimmed p c ki aw lim vref i w) (hc : c.Is p ms) :
    steerAcc kp ki vref dt (vref, i, w) = ki * i ∧ c.speedFor p.mass (ki * i) = w ∧ 0 < c.g + ki * i := by
  have hk := hc.coefficient
  have hw := h.turning
  refine ⟨by simp [steerAcc], ?_, ?_⟩
  · rw [Craft.speedFor, h.demand, mul_div_assoc, ← mul_div_assoc, mul_div_cancel_left₀ _ (by positivity),
      Real.sqrt_sq hw.le]
  · have h1 : 0 < p.mass * (c.g + ki * i) := by rw [h.demand]; positivity
    exact (mul_pos_iff_of_pos_left hc.mass).1 h1

lemma Trimmed.fixed (h : Trimmed p c ki aw lim vref i w) (hc : c.Is p ms) :
    steerMap p c kp ki vref dt (vref, i, w) = (vref, i, w) := by
  obtain ⟨s1, s2, -⟩ := h.speed (kp := kp) (dt := dt) hc
  simp only [steerMap, s1, s2, abs_of_pos h.turning]
  have := h.forces
  ext
  · simp only
    rw [show 4 * c.kf * (w * w) - c.g - p.drag * (vref * |vref|) = 0 by linear_combination this]
    simp
  · simp
  · simp

lemma Trimmed.deriv (h : Trimmed p c ki aw lim vref i w) (hc : c.Is p ms) :
    HasFDerivAt (steerMap p c kp ki vref dt)
      (lin3 (1 - dt / p.mass * (p.drag * (2 * |vref|)), 0, dt / p.mass * (4 * c.kf * (2 * w)))
        (-dt, 1, 0)
        (-(dt / c.tau * (p.mass * (kp + ki * dt) / (8 * c.kf * w))), dt / c.tau * (p.mass * ki / (8 * c.kf * w)),
          1 - dt / c.tau)) (vref, i, w) := by
  have hk := hc.coefficient
  have hw := h.turning
  obtain ⟨s1, s2, s3⟩ := h.speed (kp := kp) (dt := dt) hc
  set x0 : ℝ × ℝ × ℝ := (vref, i, w) with hx0
  have f1 : HasFDerivAt (fun x : ℝ × ℝ × ℝ => x.1) (ContinuousLinearMap.fst ℝ ℝ (ℝ × ℝ)) x0 := hasFDerivAt_fst
  have f0 : HasFDerivAt (fun x : ℝ × ℝ × ℝ => x.2) (ContinuousLinearMap.snd ℝ ℝ (ℝ × ℝ)) x0 := hasFDerivAt_snd
  have f2 : HasFDerivAt (fun x : ℝ × ℝ × ℝ => x.2.1)
    ((ContinuousLinearMap.fst ℝ ℝ ℝ).comp (ContinuousLinearMap.snd ℝ ℝ (ℝ × ℝ))) x0 := f0.fst
  have f3 : HasFDerivAt (fun x : ℝ × ℝ × ℝ => x.2.2)
    ((ContinuousLinearMap.snd ℝ ℝ ℝ).comp (ContinuousLinearMap.snd ℝ ℝ (ℝ × ℝ))) x0 := f0.snd
  have a1 := (hasDerivAt_mul_abs vref).comp_hasFDerivAt x0 f1
  have a2 := (hasDerivAt_mul_abs w).comp_hasFDerivAt x0 f3
  have er := f1.const_sub vref
  have ei := f2.add (er.mul_const dt)
  have ac := (er.const_mul kp).add (ei.const_mul ki)
  have hrad : p.mass * (c.g + ki * i) / (4 * c.kf) = w ^ 2 := by
    rw [h.demand, mul_div_cancel_left₀ _ (by positivity)]
  have hsp : HasDerivAt (fun a : ℝ => c.speedFor p.mass a) (p.mass / (8 * c.kf * w)) (steerAcc kp ki vref dt x0) := by
    rw [s1]
    have h1 : HasDerivAt (fun a : ℝ => p.mass * (c.g + a) / (4 * c.kf)) (p.mass * 1 / (4 * c.kf)) (ki * i) :=
      (((hasDerivAt_id _).const_add c.g).const_mul p.mass).div_const _
    have h2 := h1.sqrt (by rw [hrad]; positivity)
    rw [hrad, Real.sqrt_sq hw.le] at h2
    exact h2.congr_deriv (by field_simp; ring)
  have a3 := hsp.comp_hasFDerivAt x0 ac
  have g1 := f1.add (((((a2.const_mul (4 * c.kf)).sub_const c.g).sub (a1.const_mul p.drag))).const_mul (dt / p.mass))
  have g3 := f3.add ((a3.sub f3).const_mul (dt / c.tau))
  refine (g1.prodMk (ei.prodMk g3)).congr_fderiv ?_
  refine ContinuousLinearMap.ext fun x => ?_
  rw [lin3_apply]
  ext
  · simp [abs_of_pos hw]; ring
  · simp; ring
  · simp; ring

/-- Characteristic equation of the linearised cycle. -/
lemma Trimmed.char (h : Trimmed p c ki aw lim vref i w) (hc : c.Is p ms) {M : ℝ × ℝ × ℝ →L[ℝ] ℝ × ℝ × ℝ}
    (hM : M = lin3 (1 - dt / p.mass * (p.drag * (2 * |vref|)), 0, dt / p.mass * (4 * c.kf * (2 * w)))
        (-dt, 1, 0)
        (-(dt / c.tau * (p.mass * (kp + ki * dt) / (8 * c.kf * w))), dt / c.tau * (p.mass * ki / (8 * c.kf * w)),
          1 - dt / c.tau)) {β δ : ℝ} (hβ : β = dt / c.tau) (hδ : δ = 2 * dt * p.drag * |vref| / p.mass) :
    (M - 1) ^ 3 + (β + δ) • (M - 1) ^ 2 + (β * δ + β * ((kp + ki * dt) * dt)) • (M - 1) +
      (β * (ki * dt ^ 2)) • (1 : ℝ × ℝ × ℝ →L[ℝ] ℝ × ℝ × ℝ) = 0 := by
  have hk := hc.coefficient
  have hw := h.turning
  have hm := hc.mass
  set b := dt / p.mass * (4 * c.kf * (2 * w)) with hb
  set A := p.mass / (8 * c.kf * w) with hA
  have hAb : b * A = dt := by rw [hb, hA]; field_simp; ring
  have hN : ∀ x, (M - 1) x = (-δ * x.1 + b * x.2.2, -dt * x.1, β * A * (-(kp + ki * dt) * x.1 + ki * x.2.1) - β * x.2.2) := by
    intro x
    rw [sub_apply, hM, lin3_apply, one_apply_eq_self, hβ, hδ, hA]
    ext
    · simp; ring
    · simp
    · simp; ring
  clear_value b A
  refine ContinuousLinearMap.ext fun x => ?_
  simp only [add_apply, smul_apply, pow_succ, pow_zero, one_mul, mul_apply_eq_comp, one_apply_eq_self, hN, zero_apply]
  ext
  · simp
    linear_combination -β * ((kp + ki * dt) * (-δ * x.1 + b * x.2.2) + ki * dt * x.1) * hAb
  · simp
    linear_combination -dt * β * (-(kp + ki * dt) * x.1 + ki * x.2.1) * hAb
  · simp
    linear_combination -β * ((kp + ki * dt) * (β * A * (-(kp + ki * dt) * x.1 + ki * x.2.1) - β * x.2.2) +
      ki * dt * x.2.2) * hAb

/-- All limits are respected near the trimmed climb. -/
lemma Trimmed.near (h : Trimmed p c ki aw lim vref i w) (hc : c.Is p ms) :
    ∃ r > 0, ∀ x : ℝ × ℝ × ℝ, ‖x - (vref, i, w)‖ < r → SteerInside p c kp ki aw lim vref dt x := by
  obtain ⟨s1, s2, s3⟩ := h.speed (kp := kp) (dt := dt) hc
  have hcont := (h.deriv (kp := kp) (dt := dt) hc).continuousAt
  have hf := h.fixed (kp := kp) (dt := dt) hc
  have k1 : ContinuousAt (fun x : ℝ × ℝ × ℝ => c.speedFor p.mass (steerAcc kp ki vref dt x)) (vref, i, w) := by
    unfold Craft.speedFor steerAcc; fun_prop
  have k2 : ContinuousAt (fun x : ℝ × ℝ × ℝ => c.g + steerAcc kp ki vref dt x) (vref, i, w) := by
    unfold steerAcc; fun_prop
  have k3 : ContinuousAt (fun x : ℝ × ℝ × ℝ => |steerAcc kp ki vref dt x|) (vref, i, w) := by
    unfold steerAcc; fun_prop
  have k4 : ContinuousAt (fun x : ℝ × ℝ × ℝ => |x.2.1|) (vref, i, w) := by fun_prop
  have k5 : ContinuousAt (fun x : ℝ × ℝ × ℝ => |(steerMap p c kp ki vref dt x).2.1|) (vref, i, w) := hcont.snd.fst.abs
  have k6 : ContinuousAt (fun x : ℝ × ℝ × ℝ => (steerMap p c kp ki vref dt x).2.2) (vref, i, w) := hcont.snd.snd
  have e1 : ∀ᶠ x in 𝓝 (vref, i, w), 0 < c.g + steerAcc kp ki vref dt x :=
    k2.eventually (lt_mem_nhds (by simpa only [s1] using s3))
  have e2 : ∀ᶠ x : ℝ × ℝ × ℝ in 𝓝 (vref, i, w), |x.2.1| < aw := k4.eventually (gt_mem_nhds h.windup)
  have e3 : ∀ᶠ x in 𝓝 (vref, i, w), |(steerMap p c kp ki vref dt x).2.1| < aw :=
    k5.eventually (gt_mem_nhds (by simpa only [hf] using h.windup))
  have e4 : ∀ᶠ x in 𝓝 (vref, i, w), |steerAcc kp ki vref dt x| < lim :=
    k3.eventually (gt_mem_nhds (by simpa only [s1] using h.limit))
  have e5 : ∀ᶠ x in 𝓝 (vref, i, w), c.lo < c.speedFor p.mass (steerAcc kp ki vref dt x) :=
    k1.eventually (lt_mem_nhds (by simpa only [s1, s2] using h.speeds.1))
  have e6 : ∀ᶠ x in 𝓝 (vref, i, w), c.speedFor p.mass (steerAcc kp ki vref dt x) < c.hi :=
    k1.eventually (gt_mem_nhds (by simpa only [s1, s2] using h.speeds.2))
  have e7 : ∀ᶠ x in 𝓝 (vref, i, w), c.lo < (steerMap p c kp ki vref dt x).2.2 :=
    k6.eventually (lt_mem_nhds (by simpa only [hf] using h.speeds.1))
  have e8 : ∀ᶠ x in 𝓝 (vref, i, w), (steerMap p c kp ki vref dt x).2.2 < c.hi :=
    k6.eventually (gt_mem_nhds (by simpa only [hf] using h.speeds.2))
  have := e1.and (e2.and (e3.and (e4.and ((e5.and e6).and (e7.and e8)))))
  rw [Metric.eventually_nhds_iff] at this
  obtain ⟨r, hr, H⟩ := this
  exact ⟨r, hr, fun x hx => H (by rwa [dist_eq_norm])⟩

end

lemma astray_norm (s : Sim ℝ 4) (v i w : ℝ) : astray s v i w = ‖steering s - (v, i, w)‖ := by
  rw [Prod.norm_def, Prod.norm_def]; rfl

section
variable [Noise ℝ]

/-- **C131.** With integral action vertical flights near a trimmed climb at the requested speed settle at the
requested speed, at a geometric rate, whatever the mass, if the integral gain times the lag of the rotors is
below `kp (1 - kp dt)`. -/
theorem C131_settles (p : ModelParams ℝ) (ms : Fin 4 → Motor ℝ) (c : Craft) (kp ki aw lim vref i w dt : ℝ)
    (hc : c.Is p ms) (ht : Trimmed p c ki aw lim vref i w) (h0 : 0 < dt) (h1 : dt ≤ 1 / 100) (hlag : dt ≤ c.tau)
    (hd : 0 ≤ p.drag) (hdrag : 2 * dt * p.drag * |vref| < p.mass) (hkp : 0 < kp) (hki : 0 < ki)
    (hgain : ki * c.tau < kp * (1 - kp * dt)) :
    ∃ r > 0, ∃ C ≥ 0, ∃ q, 0 ≤ q ∧ q < 1 ∧ ∀ s, Steered s p ms c kp ki aw lim vref → astray s vref i w < r →
      ∀ n, ∃ t, Sim.Runs s (cycles dt (List.replicate n dt)) t ∧ Steered t p ms c kp ki aw lim vref ∧
        astray t vref i w ≤ C * q ^ n * astray s vref i w := by
  have hm := hc.mass
  have htau := hc.lag
  obtain ⟨β, hβ⟩ : ∃ β, β = dt / c.tau := ⟨_, rfl⟩
  obtain ⟨δ, hδ⟩ : ∃ δ, δ = 2 * dt * p.drag * |vref| / p.mass := ⟨_, rfl⟩
  have hβ0 : 0 < β := by rw [hβ]; positivity
  have hβ1 : β ≤ 1 := by rw [hβ]; exact (div_le_one htau).2 hlag
  have hδ0 : 0 ≤ δ := by rw [hδ]; positivity
  have hδ1 : δ < 1 := by rw [hδ]; exact (div_lt_one hm).2 hdrag
  have hβt : β * c.tau = dt := by rw [hβ]; field_simp
  have hkd : kp * dt < 1 := by
    have : 0 < kp * (1 - kp * dt) := lt_trans (by positivity) hgain
    have := (mul_pos_iff_of_pos_left hkp).1 this
    linarith
  have hcrit : ki * dt ^ 2 < kp * dt * (β * (1 - kp * dt)) := by
    have : ki * c.tau * (dt * β) < kp * (1 - kp * dt) * (dt * β) := mul_lt_mul_of_pos_right hgain (by positivity)
    calc ki * dt ^ 2 = ki * c.tau * (dt * β) := by rw [← hβt]; ring
      _ < _ := this
      _ = _ := by ring
  have hpow := pow3_tendsto_shift (c0 := β * (ki * dt ^ 2)) (c1 := β * δ + β * ((kp + ki * dt) * dt)) (c2 := β + δ)
    (by positivity)
    (by nlinarith [mul_nonneg hβ0.le hδ0, mul_pos hβ0 (mul_pos hkp h0)])
    (by linarith)
    (by
      have e : β * δ + β * ((kp + ki * dt) * dt) - β * (ki * dt ^ 2) = β * (δ + kp * dt) := by ring
      rw [e]
      have g1 : β * (1 - kp * dt) ≤ β + δ - β * (δ + kp * dt) := by nlinarith
      have g2 : 0 < kp * dt := by positivity
      have g3 : 0 < β * (1 - kp * dt) := mul_pos hβ0 (by linarith)
      have g4 : kp * dt * (β * (1 - kp * dt)) ≤ (δ + kp * dt) * (β + δ - β * (δ + kp * dt)) :=
        mul_le_mul (by linarith) g1 g3.le (by linarith)
      rw [mul_assoc]
      exact mul_lt_mul_of_pos_left (hcrit.trans_le g4) hβ0)
    _ (ht.char (kp := kp) (dt := dt) hc rfl hβ hδ)
  obtain ⟨r, hr, C, hC, q, q0, q1, H⟩ := attracts (ht.deriv hc) (ht.fixed hc) hpow
  obtain ⟨r', hr', H'⟩ := ht.near (kp := kp) (dt := dt) hc
  refine ⟨min r (r' / (C + 1)), lt_min hr (by positivity), C, hC, q, q0, q1, fun s hs hsr n => ?_⟩
  rw [astray_norm] at hsr ⊢
  have hs1 := hsr.trans_le (min_le_left _ _)
  have hs2 := hsr.trans_le (min_le_right _ _)
  obtain ⟨t, t1, t2, t3⟩ := hs.flight hc h0 h1 n fun j _ => by
    refine H' _ (lt_of_le_of_lt (H _ hs1 j) ?_)
    rw [lt_div_iff₀ (by positivity)] at hs2
    have hq : q ^ j ≤ 1 := pow_le_one₀ q0 q1.le
    have hn := norm_nonneg (steering s - (vref, i, w))
    have : C * q ^ j ≤ C := mul_le_of_le_one_right hC hq
    nlinarith
  exact ⟨t, t1, t2, by rw [astray_norm, t3]; exact H _ hs1 _⟩

end

/-- A trimmed climb exists if the acceleration that the mass and the drag need is inside the limits. -/
lemma trimmed_exists {p : ModelParams ℝ} {ms : Fin 4 → Motor ℝ} {c : Craft} {ki aw lim vref : ℝ} (hc : c.Is p ms)
    (hki : 0 < ki) (hpos : 0 < c.g + p.drag * (vref * |vref|))
    (hlim : |(c.g + p.drag * (vref * |vref|)) / p.mass - c.g| < min lim (ki * aw))
    (hw : c.lo < √((c.g + p.drag * (vref * |vref|)) / (4 * c.kf)) ∧
      √((c.g + p.drag * (vref * |vref|)) / (4 * c.kf)) < c.hi) :
    Trimmed p c ki aw lim vref (((c.g + p.drag * (vref * |vref|)) / p.mass - c.g) / ki)
      (√((c.g + p.drag * (vref * |vref|)) / (4 * c.kf))) := by
  have hk := hc.coefficient
  have hm := hc.mass
  have hsq : √((c.g + p.drag * (vref * |vref|)) / (4 * c.kf)) ^ 2 = (c.g + p.drag * (vref * |vref|)) / (4 * c.kf) :=
    Real.sq_sqrt (by positivity)
  have hl1 := hlim.trans_le (min_le_left _ _)
  have hl2 := hlim.trans_le (min_le_right _ _)
  refine ⟨?_, ?_, Real.sqrt_pos.2 (by positivity), hw, ?_, ?_⟩
  · rw [hsq]; field_simp
  · rw [hsq, mul_div_cancel₀ _ hki.ne']; field_simp; ring
  · rw [abs_div, abs_of_pos hki, div_lt_iff₀ hki, mul_comm aw]; exact hl2
  · rwa [mul_div_cancel₀ _ hki.ne']

/-- Parameters of a PI controller of the vertical axis. -/
noncomputable def piParams (kp ki aw lim : ℝ) : PidParams ℝ 3 :=
  { PidParams.default with kp := ![1, 1, kp], ki := ![1, 1, ki], kd := ![1, 1, 0], antiwindup := ![1, 1, aw],
                           upper := ![lim, lim, lim], lower := ![-lim, -lim, -lim] }

lemma piParams_axis (kp ki aw lim i : ℝ) (haw : 0 ≤ aw) (hlim : 1 ≤ lim) :
    PiAxis { Pid.mk' (piParams kp ki aw lim) with firstRun := false, integral := ![0, 0, i] } kp ki aw lim := by
  obtain ⟨f, v, w, b, he, -, hf, -⟩ := Pid.updateParams_eq (piParams kp ki aw lim) Pid.init
  unfold Pid.mk'
  rw [he]
  refine ⟨⟨![1, 1, kp], ![1, 1, ki], ![1, 1, 0], ?_, ?_, ?_, rfl, rfl, rfl⟩, ⟨fun j => ?_, rfl⟩, fun hs => ?_,
    fun _ j hj => ?_⟩
  · simp [piParams, flt, Pid.reset]
  · simp [piParams, flt, Pid.reset]
  · simp [piParams, flt, Pid.reset]
  · fin_cases j <;> simp [piParams, Pid.reset, haw]
  · obtain ⟨rfl, rfl, -⟩ := hf hs
    refine ⟨fun j => ?_, rfl, rfl⟩
    fin_cases j <;> simp [piParams, Pid.reset] <;> linarith
  · fin_cases j
    · simp [Pid.reset, Pid.init, flt]
    · simp [Pid.reset, Pid.init, flt]
    · exact absurd rfl hj

/-- The vehicle of `climbSim` with a PI controller that has accumulated the error `i`. -/
noncomputable def steerSim [Noise ℝ] (m kp ki aw lim vref v i w : ℝ) : Sim ℝ 4 :=
  let s := climbSim m kp vref v w
  { s with ctl := { s.ctl with vel := { Pid.mk' (piParams kp ki aw lim) with firstRun := false, integral := ![0, 0, i] } } }

/-- Non-vacuity of `C131_settles`: the vehicle of mass two that overshoots the requested speed with a proportional
controller (`C130_violated`) settles at the requested speed with integral action. -/
example [Noise ℝ] : climbCraft.Is (climbParams 2) Fixture.motors ∧
    Trimmed (climbParams 2) climbCraft 10 1 6 1 (-(1 / 2)) (√(10 / 4)) ∧
    (10 : ℝ) * climbCraft.tau < 20 * (1 - 20 * (1 / 100)) ∧
    ∀ r > 0, ∃ s, Steered s (climbParams 2) Fixture.motors climbCraft 20 10 1 6 1 ∧
      0 < astray s 1 (-(1 / 2)) (√(10 / 4)) ∧ astray s 1 (-(1 / 2)) (√(10 / 4)) < r := by
  refine ⟨climbCraft_is 2 (by norm_num), ?_, by norm_num [climbCraft], fun r hr => ?_⟩
  · have := trimmed_exists (ki := 10) (aw := 1) (lim := 6) (vref := 1) (climbCraft_is 2 (by norm_num)) (by norm_num)
      (by norm_num [climbCraft, climbParams]) (by norm_num [climbCraft, climbParams, abs_lt])
      (by simpa [climbCraft, climbParams] using climb_trim)
    norm_num [climbCraft, climbParams] at this ⊢
    exact this
  · have h := climbSim_climbing 2 20 1 1 (√(10 / 4) + r / 2)
    refine ⟨steerSim 2 20 10 1 6 1 1 (-(1 / 2)) (√(10 / 4) + r / 2),
      ⟨{ h.vertical with }, h.mode, h.request, piParams_axis _ _ _ _ _ (by norm_num) (by norm_num)⟩, ?_, ?_⟩ <;>
      simp [astray, steerSim, climbSim, builtFrom, heldError, abs_of_pos (half_pos hr), hr]

end Verif.Props
