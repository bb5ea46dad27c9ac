import Verif.Props.Integral
import Verif.Lemmas.Roots
import Mathlib.Tactic.ComputeDegree

/-!
# Holding an altitude (C132)
-/

namespace Verif.Props

open Verif Flt Spec Stability Filter Topology

/-- Tuning of a PI controller: gains, bound of the accumulated error, bound of the output. -/
structure PiTuning where
  kp : ℝ
  ki : ℝ
  aw : ℝ
  lim : ℝ

/-- Vertical flight in position mode above the requested point, position and velocity being controlled by PI
controllers with tunings `P` and `V`. -/
structure Holding (s : Sim ℝ 4) (p : ModelParams ℝ) (ms : Fin 4 → Motor ℝ) (c : Craft) (P V : PiTuning) (zref : ℝ) :
    Prop where
  vertical : Vertical s p ms c
  mode : s.mode = .position
  request : s.refPos = ![s.dyn.state.pos 0, s.dyn.state.pos 1, zref]
  outer : PiAxis s.ctl.pos P.kp P.ki P.aw P.lim
  inner : PiAxis s.ctl.vel V.kp V.ki V.aw V.lim

/-- Altitude, accumulated error of the position controller, vertical speed, accumulated error of the velocity
controller, rotor speed. -/
noncomputable def holdState (s : Sim ℝ 4) : ℝ × ℝ × ℝ × ℝ × ℝ :=
  (s.dyn.state.pos 2, heldError s.ctl.pos, s.dyn.state.vel 2, heldError s.ctl.vel, s.dyn.state.motVel 0)

/-- Distance from hovering at `zref` with accumulated error `i` of the velocity controller and rotor speed `w`. -/
noncomputable def adrift (s : Sim ℝ 4) (zref i w : ℝ) : ℝ :=
  max |s.dyn.state.pos 2 - zref| (max |heldError s.ctl.pos| (max |s.dyn.state.vel 2|
    (max |heldError s.ctl.vel - i| |s.dyn.state.motVel 0 - w|)))

/-- Trimmed hover: the rotors carry gravity, and the accumulated error of the velocity controller alone asks for
that thrust, all inside the limits. -/
structure HoverTrim (p : ModelParams ℝ) (c : Craft) (P V : PiTuning) (i w : ℝ) : Prop where
  forces : 4 * c.kf * w ^ 2 = c.g
  demand : p.mass * (c.g + V.ki * i) = 4 * c.kf * w ^ 2
  turning : 0 < w
  speeds : c.lo < w ∧ w < c.hi
  windup : |i| < V.aw
  limit : |V.ki * i| < V.lim
  room : 0 < P.aw ∧ 0 < P.lim

/-- Characteristic function of the loop for lag ratio `β = dt / tau`, in terms of `u = z - 1`. -/
noncomputable def holdChar (P V : PiTuning) (β dt : ℝ) (z : ℂ) : ℂ :=
  (z - 1) ^ 5 + β * (z - 1) ^ 4 + β * dt * ((V.kp + V.ki * dt) * (z - 1) + V.ki * dt) *
    ((z - 1) ^ 2 + dt * (P.kp + P.ki * dt) * (z - 1) + P.ki * dt ^ 2)

/-- Demanded vertical speed. -/
noncomputable def holdVel (P : PiTuning) (zref dt : ℝ) (x : ℝ × ℝ × ℝ × ℝ × ℝ) : ℝ :=
  P.kp * (zref - x.1) + P.ki * (x.2.1 + (zref - x.1) * dt)

/-- Demanded acceleration. -/
noncomputable def holdAcc (P V : PiTuning) (zref dt : ℝ) (x : ℝ × ℝ × ℝ × ℝ × ℝ) : ℝ :=
  V.kp * (holdVel P zref dt x - x.2.2.1) + V.ki * (x.2.2.2.1 + (holdVel P zref dt x - x.2.2.1) * dt)

/-- The five numbers after a cycle. -/
noncomputable def holdMap (p : ModelParams ℝ) (c : Craft) (P V : PiTuning) (zref dt : ℝ)
    (x : ℝ × ℝ × ℝ × ℝ × ℝ) : ℝ × ℝ × ℝ × ℝ × ℝ :=
  (x.1 + dt * x.2.2.1,
    x.2.1 + (zref - x.1) * dt,
    x.2.2.1 + dt / p.mass * (4 * c.kf * (x.2.2.2.2 * |x.2.2.2.2|) - c.g - p.drag * (x.2.2.1 * |x.2.2.1|)),
    x.2.2.2.1 + (holdVel P zref dt x - x.2.2.1) * dt,
    x.2.2.2.2 + dt / c.tau * (c.speedFor p.mass (holdAcc P V zref dt x) - x.2.2.2.2))

/-- The cycle is inside all limits. -/
def HoldInside (p : ModelParams ℝ) (c : Craft) (P V : PiTuning) (zref dt : ℝ) (x : ℝ × ℝ × ℝ × ℝ × ℝ) : Prop :=
  (|x.2.1| < P.aw ∧ |(holdMap p c P V zref dt x).2.1| < P.aw ∧ |holdVel P zref dt x| < P.lim) ∧
  (|x.2.2.2.1| < V.aw ∧ |(holdMap p c P V zref dt x).2.2.2.1| < V.aw ∧ |holdAcc P V zref dt x| < V.lim) ∧
  0 < c.g + holdAcc P V zref dt x ∧
  (c.lo < c.speedFor p.mass (holdAcc P V zref dt x) ∧ c.speedFor p.mass (holdAcc P V zref dt x) < c.hi) ∧
  (c.lo < (holdMap p c P V zref dt x).2.2.2.2 ∧ (holdMap p c P V zref dt x).2.2.2.2 < c.hi)

section
variable {p : ModelParams ℝ} {ms : Fin 4 → Motor ℝ} {c : Craft} {P V : PiTuning} {zref dt : ℝ}

lemma Holding.control {s : Sim ℝ 4} (h : Holding s p ms c P V zref) (hc : c.Is p ms)
    (ha : HoldInside p c P V zref dt (holdState s)) :
    (s.updateController dt).actuation = (fun _ => c.speedFor p.mass (holdAcc P V zref dt (holdState s))) ∧
    (s.updateController dt).dyn = s.dyn ∧ Holding (s.updateController dt) p ms c P V zref ∧
    heldError (s.updateController dt).ctl.pos = (holdMap p c P V zref dt (holdState s)).2.1 ∧
    heldError (s.updateController dt).ctl.vel = (holdMap p c P V zref dt (holdState s)).2.2.2.1 := by
  obtain ⟨⟨l1, l2, l3⟩, ⟨l4, l5, l6⟩, l7, -⟩ := ha
  have hv := h.vertical
  have hu := Sim.updateController_armed hv.armed dt
  have hy : s.yawRef = s.refYaw := by simp [Sim.yawRef, hv.yawMode]
  have hcmd : s.command s.refYaw dt = s.ctl.positionControl s.dyn.state.pos s.dyn.state.ori.toMat s.dyn.state.vel
      s.dyn.state.angVel s.refPos s.refYaw dt := by
    simp only [Sim.command, h.mode]
  obtain ⟨hst, -, -, e1, e2⟩ := (C53_cascade s.ctl s.dyn.state.ori.toMat s.dyn.state.pos s.dyn.state.vel
    s.dyn.state.angVel s.refPos 0 0 s.refYaw dt).1
  have herr : (fun i => s.refPos i ⊟ s.dyn.state.pos i) = ![0, 0, zref - s.dyn.state.pos 2] := by
    rw [h.request]
    ext i
    fin_cases i <;> simp [flt]
  obtain ⟨o1, o2, o3⟩ := h.outer.control (dt := dt) (e := zref - s.dyn.state.pos 2) l1.le l2.le l3.le
  have herr2 : (fun i => (s.ctl.pos.computeControl dt ![0, 0, zref - s.dyn.state.pos 2]).2 i ⊟ s.dyn.state.vel i) =
      ![0, 0, holdVel P zref dt (holdState s) - s.dyn.state.vel 2] := by
    rw [o1]
    ext i
    fin_cases i
    · simp [flt, hv.upright.1]
    · simp [flt, hv.upright.2]
    · simp [flt, holdVel, holdState]
  simp only [herr, herr2] at hst e1 e2
  obtain ⟨o4, o5, o6⟩ := h.inner.control (dt := dt) (e := holdVel P zref dt (holdState s) - s.dyn.state.vel 2)
    l4.le l5.le l6.le
  rw [o4] at hst
  obtain ⟨g1, g2, g3⟩ := hv.stage hc l7 hst
  rw [hu, hy, hcmd]
  refine ⟨g1, rfl, ?_, ?_, ?_⟩
  · exact {
      vertical := { hv with
        knowsMass := hv.knowsMass
        knowsGravity := hv.knowsGravity
        knowsRotors := hv.knowsRotors
        ratePid := ⟨g2, g3⟩ }
      mode := h.mode
      request := h.request
      outer := by simp only [e1]; exact o2
      inner := by simp only [e2]; exact o5 }
  · simp only [e1, o3]
    rfl
  · simp only [e2, o6]
    rfl

section
variable [Noise ℝ]

/-- A cycle inside all limits. -/
lemma Holding.cycle {s : Sim ℝ 4} (h : Holding s p ms c P V zref) (hc : c.Is p ms)
    (h0 : 0 < dt) (h1 : dt ≤ 1 / 100) (hl : HoldInside p c P V zref dt (holdState s)) :
    ∃ t, (∀ os u, Sim.Runs t os u → Sim.Runs s (.updateController dt :: .updateDynamics dt :: os) u) ∧
      Holding t p ms c P V zref ∧ t.dyn.state.pos 0 = s.dyn.state.pos 0 ∧ t.dyn.state.pos 1 = s.dyn.state.pos 1 ∧
      holdState t = holdMap p c P V zref dt (holdState s) := by
  obtain ⟨c1, c2, c3, c4, c5⟩ := h.control hc hl
  obtain ⟨-, -, -, ⟨l2, l3⟩, l4, l5⟩ := hl
  obtain ⟨t, t1, t2, t3, t4, t5, t6, t7, t8, t9, t10, t11⟩ := c3.vertical.dynamics hc c1
    (by rw [c2]; rfl : _ = (holdState s).2.2.2.2) (by rw [c2]; rfl : _ = (holdState s).2.2.1) h0 h1
    ⟨l2.le, l3.le⟩ ⟨l4.le, l5.le⟩
  rw [c2] at t7 t8 t9
  refine ⟨t, fun os u hu => .ok rfl (.ok t1 hu), ⟨t2, ?_, ?_, ?_, ?_⟩, t7, t8, ?_⟩
  · rw [t4]; exact c3.mode
  · rw [t5, c3.request, t7, t8, c2]
  · rw [t3]; exact c3.outer
  · rw [t3]; exact c3.inner
  · rw [holdState, t9, t10, t11, t3, c4, c5]; rfl

/-- Cycles that stay inside all limits. -/
lemma Holding.flight {s : Sim ℝ 4} (h : Holding s p ms c P V zref) (hc : c.Is p ms)
    (h0 : 0 < dt) (h1 : dt ≤ 1 / 100) (n : ℕ)
    (hl : ∀ j < n, HoldInside p c P V zref dt ((holdMap p c P V zref dt)^[j] (holdState s))) :
    ∃ t, Sim.Runs s (cycles dt (List.replicate n dt)) t ∧ Holding t p ms c P V zref ∧
      t.dyn.state.pos 0 = s.dyn.state.pos 0 ∧ t.dyn.state.pos 1 = s.dyn.state.pos 1 ∧
      holdState t = (holdMap p c P V zref dt)^[n] (holdState s) := by
  induction n generalizing s with
  | zero => exact ⟨s, .nil s, h, rfl, rfl, rfl⟩
  | succ n ih =>
    obtain ⟨t, t1, t2, tx, ty, t3⟩ := h.cycle hc h0 h1 (hl 0 (by simp))
    obtain ⟨u, u1, u2, ux, uy, u3⟩ := ih t2 (fun j hj => by
      have := hl (j + 1) (by simpa using hj)
      rwa [Function.iterate_succ_apply, ← t3] at this)
    exact ⟨u, t1 _ _ u1, u2, ux.trans tx, uy.trans ty, by rw [u3, t3, Function.iterate_succ_apply]⟩

end

variable {i w : ℝ}

lemma HoverTrim.speed (h : HoverTrim p c P V i w) (hc : c.Is p ms) :
    holdVel P zref dt (zref, 0, 0, i, w) = 0 ∧ holdAcc P V zref dt (zref, 0, 0, i, w) = V.ki * i ∧
    c.speedFor p.mass (V.ki * i) = w ∧ 0 < c.g + V.ki * i := by
  have hk := hc.coefficient
  have hw := h.turning
  refine ⟨by simp [holdVel], by simp [holdAcc, holdVel], ?_, ?_⟩
  · rw [Craft.speedFor, h.demand, mul_div_assoc, ← mul_div_assoc, mul_div_cancel_left₀ _ (by positivity),
      Real.sqrt_sq hw.le]
  · have h1 : 0 < p.mass * (c.g + V.ki * i) := by rw [h.demand]; positivity
    exact (mul_pos_iff_of_pos_left hc.mass).1 h1

lemma HoverTrim.fixed (h : HoverTrim p c P V i w) (hc : c.Is p ms) :
    holdMap p c P V zref dt (zref, 0, 0, i, w) = (zref, 0, 0, i, w) := by
  obtain ⟨s1, s2, s3, -⟩ := h.speed (zref := zref) (dt := dt) hc
  simp only [holdMap, s1, s2, s3, abs_of_pos h.turning]
  have := h.forces
  ext
  · simp
  · simp
  · simp only
    rw [show 4 * c.kf * (w * w) - c.g - p.drag * (0 * |0|) = 0 by simp; linear_combination this]
    simp
  · simp
  · simp

/-- Linearisation of the cycle, less the identity. -/
noncomputable def holdLin (P V : PiTuning) (β dt b A : ℝ) (x : ℝ × ℝ × ℝ × ℝ × ℝ) : ℝ × ℝ × ℝ × ℝ × ℝ :=
  let e := -(P.kp + P.ki * dt) * x.1 + P.ki * x.2.1 - x.2.2.1
  (dt * x.2.2.1, -dt * x.1, b * x.2.2.2.2, dt * e,
    β * A * ((V.kp + V.ki * dt) * e + V.ki * x.2.2.2.1) - β * x.2.2.2.2)

lemma HoverTrim.deriv (h : HoverTrim p c P V i w) (hc : c.Is p ms) :
    ∃ M : (ℝ × ℝ × ℝ × ℝ × ℝ) →L[ℝ] (ℝ × ℝ × ℝ × ℝ × ℝ), HasFDerivAt (holdMap p c P V zref dt) M (zref, 0, 0, i, w) ∧
      ∀ x, (M - 1) x = holdLin P V (dt / c.tau) dt (dt / p.mass * (4 * c.kf * (2 * w))) (p.mass / (8 * c.kf * w)) x := by
  have hk := hc.coefficient
  have hw := h.turning
  obtain ⟨-, s1, s2, s3⟩ := h.speed (zref := zref) (dt := dt) hc
  set x0 : ℝ × ℝ × ℝ × ℝ × ℝ := (zref, 0, 0, i, w) with hx0
  have f1 : HasFDerivAt (fun x : ℝ × ℝ × ℝ × ℝ × ℝ => x.1) (ContinuousLinearMap.fst ℝ ℝ (ℝ × ℝ × ℝ × ℝ)) x0 :=
    hasFDerivAt_fst
  have r1 : HasFDerivAt (fun x : ℝ × ℝ × ℝ × ℝ × ℝ => x.2) (ContinuousLinearMap.snd ℝ ℝ (ℝ × ℝ × ℝ × ℝ)) x0 :=
    hasFDerivAt_snd
  have f2 := r1.fst
  have f3 := r1.snd.fst
  have f4 := r1.snd.snd.fst
  have f5 := r1.snd.snd.snd
  have a1 := (hasDerivAt_mul_abs 0).comp_hasFDerivAt x0 f3
  have a2 := (hasDerivAt_mul_abs w).comp_hasFDerivAt x0 f5
  have ez := f1.const_sub zref
  have ej := f2.add (ez.mul_const dt)
  have vd := (ez.const_mul P.kp).add (ej.const_mul P.ki)
  have ev := vd.sub f3
  have ei := f4.add (ev.mul_const dt)
  have ac := (ev.const_mul V.kp).add (ei.const_mul V.ki)
  have hrad : p.mass * (c.g + V.ki * i) / (4 * c.kf) = w ^ 2 := by
    rw [h.demand, mul_div_cancel_left₀ _ (by positivity)]
  have hsp : HasDerivAt (fun a : ℝ => c.speedFor p.mass a) (p.mass / (8 * c.kf * w)) (holdAcc P V zref dt x0) := by
    rw [s1]
    have h1 : HasDerivAt (fun a : ℝ => p.mass * (c.g + a) / (4 * c.kf)) (p.mass * 1 / (4 * c.kf)) (V.ki * i) :=
      (((hasDerivAt_id _).const_add c.g).const_mul p.mass).div_const _
    have h2 := h1.sqrt (by rw [hrad]; positivity)
    rw [hrad, Real.sqrt_sq hw.le] at h2
    exact h2.congr_deriv (by field_simp; ring)
  have a3 := hsp.comp_hasFDerivAt x0 ac
  have g1 := f1.add (f3.const_mul dt)
  have g3 := f3.add (((((a2.const_mul (4 * c.kf)).sub_const c.g).sub (a1.const_mul p.drag))).const_mul (dt / p.mass))
  have g5 := f5.add ((a3.sub f5).const_mul (dt / c.tau))
  refine ⟨_, g1.prodMk (ej.prodMk (g3.prodMk (ei.prodMk g5))), fun x => ?_⟩
  rw [sub_apply, one_apply_eq_self, holdLin]
  ext
  · simp
  · simp
  · simp [abs_of_pos hw]; ring
  · simp [-mul_eq_mul_left_iff, -mul_eq_mul_right_iff]; ring
  · simp; ring

/-- All limits are respected near the trimmed hover. -/
lemma HoverTrim.near (h : HoverTrim p c P V i w) (hc : c.Is p ms) :
    ∃ r > 0, ∀ x : ℝ × ℝ × ℝ × ℝ × ℝ, ‖x - (zref, 0, 0, i, w)‖ < r → HoldInside p c P V zref dt x := by
  obtain ⟨s0, s1, s2, s3⟩ := h.speed (zref := zref) (dt := dt) hc
  obtain ⟨M, hM, -⟩ := h.deriv (zref := zref) (dt := dt) hc
  have hcont := hM.continuousAt
  have hf := h.fixed (zref := zref) (dt := dt) hc
  set x0 : ℝ × ℝ × ℝ × ℝ × ℝ := (zref, 0, 0, i, w) with hx0
  have k1 : ContinuousAt (fun x => c.speedFor p.mass (holdAcc P V zref dt x)) x0 := by
    unfold Craft.speedFor holdAcc holdVel; fun_prop
  have k2 : ContinuousAt (fun x => c.g + holdAcc P V zref dt x) x0 := by
    unfold holdAcc holdVel; fun_prop
  have k3 : ContinuousAt (fun x => |holdAcc P V zref dt x|) x0 := by
    unfold holdAcc holdVel; fun_prop
  have k4 : ContinuousAt (fun x => |holdVel P zref dt x|) x0 := by unfold holdVel; fun_prop
  have k5 : ContinuousAt (fun x : ℝ × ℝ × ℝ × ℝ × ℝ => |x.2.1|) x0 := by fun_prop
  have k6 : ContinuousAt (fun x : ℝ × ℝ × ℝ × ℝ × ℝ => |x.2.2.2.1|) x0 := by fun_prop
  have k7 : ContinuousAt (fun x => |(holdMap p c P V zref dt x).2.1|) x0 := hcont.snd.fst.abs
  have k8 : ContinuousAt (fun x => |(holdMap p c P V zref dt x).2.2.2.1|) x0 := hcont.snd.snd.snd.fst.abs
  have k9 : ContinuousAt (fun x => (holdMap p c P V zref dt x).2.2.2.2) x0 := hcont.snd.snd.snd.snd
  have e1 : ∀ᶠ x : ℝ × ℝ × ℝ × ℝ × ℝ in 𝓝 x0, |x.2.1| < P.aw :=
    k5.eventually (gt_mem_nhds (by simpa [hx0] using h.room.1))
  have e2 : ∀ᶠ x in 𝓝 x0, |(holdMap p c P V zref dt x).2.1| < P.aw :=
    k7.eventually (gt_mem_nhds (by simp only [hf]; simpa [hx0] using h.room.1))
  have e3 : ∀ᶠ x in 𝓝 x0, |holdVel P zref dt x| < P.lim :=
    k4.eventually (gt_mem_nhds (by simp only [s0]; simpa using h.room.2))
  have e4 : ∀ᶠ x : ℝ × ℝ × ℝ × ℝ × ℝ in 𝓝 x0, |x.2.2.2.1| < V.aw :=
    k6.eventually (gt_mem_nhds (by simpa [hx0] using h.windup))
  have e5 : ∀ᶠ x in 𝓝 x0, |(holdMap p c P V zref dt x).2.2.2.1| < V.aw :=
    k8.eventually (gt_mem_nhds (by simp only [hf]; simpa [hx0] using h.windup))
  have e6 : ∀ᶠ x in 𝓝 x0, |holdAcc P V zref dt x| < V.lim :=
    k3.eventually (gt_mem_nhds (by simp only [s1]; exact h.limit))
  have e7 : ∀ᶠ x in 𝓝 x0, 0 < c.g + holdAcc P V zref dt x := k2.eventually (lt_mem_nhds (by simp only [s1]; exact s3))
  have e8 : ∀ᶠ x in 𝓝 x0, c.lo < c.speedFor p.mass (holdAcc P V zref dt x) :=
    k1.eventually (lt_mem_nhds (by simpa only [s1, s2] using h.speeds.1))
  have e9 : ∀ᶠ x in 𝓝 x0, c.speedFor p.mass (holdAcc P V zref dt x) < c.hi :=
    k1.eventually (gt_mem_nhds (by simpa only [s1, s2] using h.speeds.2))
  have e10 : ∀ᶠ x in 𝓝 x0, c.lo < (holdMap p c P V zref dt x).2.2.2.2 :=
    k9.eventually (lt_mem_nhds (by simp only [hf]; exact h.speeds.1))
  have e11 : ∀ᶠ x in 𝓝 x0, (holdMap p c P V zref dt x).2.2.2.2 < c.hi :=
    k9.eventually (gt_mem_nhds (by simp only [hf]; exact h.speeds.2))
  have := (e1.and (e2.and e3)).and ((e4.and (e5.and e6)).and (e7.and ((e8.and e9).and (e10.and e11))))
  rw [Metric.eventually_nhds_iff] at this
  obtain ⟨r, hr, H⟩ := this
  exact ⟨r, hr, fun x hx => H (by rwa [dist_eq_norm])⟩

open Polynomial in
/-- The characteristic polynomial. -/
noncomputable def holdPoly (P V : PiTuning) (β dt : ℝ) : ℝ[X] :=
  (X - C 1) ^ 5 + (C β * (X - C 1) ^ 4 + C (β * dt) * (C (V.kp + V.ki * dt) * (X - C 1) + C (V.ki * dt)) *
    ((X - C 1) ^ 2 + C (dt * (P.kp + P.ki * dt)) * (X - C 1) + C (P.ki * dt ^ 2)))

open Polynomial in
lemma holdPoly_monic (P V : PiTuning) (β dt : ℝ) : (holdPoly P V β dt).Monic := by
  have h5 : ((X - C 1 : ℝ[X]) ^ 5).Monic := (monic_X_sub_C 1).pow 5
  refine h5.add_of_left ?_
  have : ((X - C 1 : ℝ[X]) ^ 5).degree = 5 := by
    rw [degree_pow, degree_X_sub_C]; rfl
  rw [this]
  refine lt_of_le_of_lt (b := 4) ?_ (by norm_num)
  compute_degree

open Polynomial in
lemma holdPoly_root (P V : PiTuning) (β dt : ℝ) (z : ℂ) : aeval z (holdPoly P V β dt) = holdChar P V β dt z := by
  simp [holdPoly, holdChar]
  ring

open Polynomial in
lemma holdPoly_annihilates {P V : PiTuning} {β dt b A : ℝ} (hAb : b * A = dt)
    {M : (ℝ × ℝ × ℝ × ℝ × ℝ) →L[ℝ] (ℝ × ℝ × ℝ × ℝ × ℝ)} (hM : ∀ x, (M - 1) x = holdLin P V β dt b A x) :
    aeval M (holdPoly P V β dt) = 0 := by
  subst hAb
  have e : aeval M (holdPoly P V β (b * A)) = (M - 1) ^ 5 + (β • (M - 1) ^ 4 +
      (β * (b * A)) • (((V.kp + V.ki * (b * A)) • (M - 1) + (V.ki * (b * A)) • 1) *
      ((M - 1) ^ 2 + ((b * A) * (P.kp + P.ki * (b * A))) • (M - 1) + (P.ki * (b * A) ^ 2) • 1))) := by
    have gen : ∀ a b c d e f : ℝ, aeval M ((X - C 1 : ℝ[X]) ^ 5 + (C a * (X - C 1) ^ 4 + C b * (C c * (X - C 1) + C d) *
        ((X - C 1) ^ 2 + C e * (X - C 1) + C f))) = (M - 1) ^ 5 + (a • (M - 1) ^ 4 +
        b • ((c • (M - 1) + d • 1) * ((M - 1) ^ 2 + e • (M - 1) + f • 1))) := by
      intro a b c d e f
      simp only [map_add, map_mul, map_sub, map_pow, aeval_X, aeval_C, map_one, Algebra.algebraMap_eq_smul_one,
        smul_mul_assoc, one_mul]
    exact gen _ _ _ _ _ _
  rw [e]
  refine ContinuousLinearMap.ext fun x => ?_
  simp only [add_apply, smul_apply, pow_succ, pow_zero, one_mul, mul_apply_eq_comp, one_apply_eq_self, hM, zero_apply,
    holdLin]
  ext
  · simp; ring
  · simp; ring
  · simp; ring
  · simp; ring
  · simp; ring

end

lemma adrift_norm (s : Sim ℝ 4) (z i w : ℝ) : adrift s z i w = ‖holdState s - (z, 0, 0, i, w)‖ := by
  simp only [Prod.norm_def, holdState, adrift, Prod.fst_sub, Prod.snd_sub, sub_zero, Real.norm_eq_abs]

section
variable [Noise ℝ]

/-- **C132.** If the roots of the characteristic function of the two loops and the rotors are inside the unit circle,
vertical flights near the trimmed hover settle at the requested altitude at a geometric rate, whatever the mass and
drag, without moving sideways. -/
theorem C132_settles (p : ModelParams ℝ) (ms : Fin 4 → Motor ℝ) (c : Craft) (P V : PiTuning) (zref i w dt : ℝ)
    (hc : c.Is p ms) (ht : HoverTrim p c P V i w) (h0 : 0 < dt) (h1 : dt ≤ 1 / 100)
    (hroots : ∀ z, holdChar P V (dt / c.tau) dt z = 0 → ‖z‖ < 1) :
    ∃ r > 0, ∃ C ≥ 0, ∃ q, 0 ≤ q ∧ q < 1 ∧ ∀ s, Holding s p ms c P V zref → adrift s zref i w < r →
      ∀ n, ∃ t, Sim.Runs s (cycles dt (List.replicate n dt)) t ∧ Holding t p ms c P V zref ∧
        t.dyn.state.pos 0 = s.dyn.state.pos 0 ∧ t.dyn.state.pos 1 = s.dyn.state.pos 1 ∧
        adrift t zref i w ≤ C * q ^ n * adrift s zref i w := by
  have hm := hc.mass
  have hk := hc.coefficient
  have hw := ht.turning
  obtain ⟨M, hM, hlin⟩ := ht.deriv (zref := zref) (dt := dt) hc
  have hpow := pow_tendsto_of_roots (holdPoly_monic P V (dt / c.tau) dt)
    (fun z hz => hroots z (by rwa [holdPoly_root] at hz)) M (holdPoly_annihilates (by field_simp; ring) hlin)
  obtain ⟨r, hr, C, hC, q, q0, q1, H⟩ := attracts hM (ht.fixed hc) hpow
  obtain ⟨r', hr', H'⟩ := ht.near (zref := zref) (dt := dt) hc
  refine ⟨min r (r' / (C + 1)), lt_min hr (by positivity), C, hC, q, q0, q1, fun s hs hsr n => ?_⟩
  rw [adrift_norm] at hsr ⊢
  have hs1 := hsr.trans_le (min_le_left _ _)
  have hs2 := hsr.trans_le (min_le_right _ _)
  obtain ⟨t, t1, t2, tx, ty, t3⟩ := hs.flight hc h0 h1 n fun j _ => by
    refine H' _ (lt_of_le_of_lt (H _ hs1 j) ?_)
    rw [lt_div_iff₀ (by positivity)] at hs2
    have hq : q ^ j ≤ 1 := pow_le_one₀ q0 q1.le
    have hn := norm_nonneg (holdState s - (zref, 0, 0, i, w))
    have : C * q ^ j ≤ C := mul_le_of_le_one_right hC hq
    nlinarith
  exact ⟨t, t1, t2, tx, ty, by rw [adrift_norm, t3]; exact H _ hs1 _⟩

end

end Verif.Props
