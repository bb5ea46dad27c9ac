import Verif.Props.Vertical
import Verif.Lemmas.Stability
import Mathlib.Analysis.SpecialFunctions.Sqrt

/-!
# Control of the vertical speed (C129, C130)
-/

namespace Verif.Props

open Verif Flt Spec Stability Filter Topology

/-- Vertical flight in velocity mode with requested climb rate `vref`, the vertical speed being controlled
proportionally with gain `k`. -/
structure Climbing (s : Sim ℝ 4) (p : ModelParams ℝ) (ms : Fin 4 → Motor ℝ) (c : Craft) (k vref : ℝ) : Prop where
  vertical : Vertical s p ms c
  mode : s.mode = .velocity
  request : s.refVel = ![0, 0, vref]
  gain : ∃ kx ky, Proportional s.ctl.vel ![kx, ky, k]

/-- Control cycles: a controller update, told whatever period, then a dynamics update of `dt`. -/
def cycles (dt : ℝ) (ds : List ℝ) : List (SimOp ℝ 4) :=
  ds.flatMap fun d => [.updateController d, .updateDynamics dt]

/-- Distance of vertical speed and rotor speeds from given values. -/
noncomputable def away (s : Sim ℝ 4) (v w : ℝ) : ℝ :=
  max |s.dyn.state.vel 2 - v| |s.dyn.state.motVel 0 - w|

/-- Balanced climb: the rotors carry gravity and drag, and the controller asks for exactly that thrust. -/
structure Balanced (p : ModelParams ℝ) (c : Craft) (k vref v w : ℝ) : Prop where
  forces : 4 * c.kf * w ^ 2 = c.g + p.drag * (v * |v|)
  demand : p.mass * (c.g + k * (vref - v)) = 4 * c.kf * w ^ 2
  turning : 0 < w
  limits : c.lo < w ∧ w < c.hi

/-- Vertical speed and rotor speed after a cycle. -/
noncomputable def climbMap (p : ModelParams ℝ) (c : Craft) (k vref dt : ℝ) (x : ℝ × ℝ) : ℝ × ℝ :=
  (x.1 + dt / p.mass * (4 * c.kf * (x.2 * |x.2|) - c.g - p.drag * (x.1 * |x.1|)),
    x.2 + dt / c.tau * (c.speedFor p.mass (k * (vref - x.1)) - x.2))

/-- The cycle is inside all limits. -/
def Unlimited (p : ModelParams ℝ) (c : Craft) (k vref dt : ℝ) (x : ℝ × ℝ) : Prop :=
  0 < c.g + k * (vref - x.1) ∧
  (c.lo < c.speedFor p.mass (k * (vref - x.1)) ∧ c.speedFor p.mass (k * (vref - x.1)) < c.hi) ∧
  (c.lo < (climbMap p c k vref dt x).2 ∧ (climbMap p c k vref dt x).2 < c.hi)

lemma Climbing.control {s : Sim ℝ 4} {p ms c k vref} (h : Climbing s p ms c k vref) (hc : c.Is p ms) (d : ℝ)
    (ha : 0 < c.g + k * (vref - s.dyn.state.vel 2)) :
    (s.updateController d).actuation = (fun _ => c.speedFor p.mass (k * (vref - s.dyn.state.vel 2))) ∧
    (s.updateController d).dyn = s.dyn ∧ Climbing (s.updateController d) p ms c k vref := by
  have hv := h.vertical
  have hu := Sim.updateController_armed hv.armed d
  have hy : s.yawRef = s.refYaw := by simp [Sim.yawRef, hv.yawMode]
  obtain ⟨kx, ky, hg⟩ := h.gain
  have hcmd : s.command s.refYaw d = s.ctl.velocityControl s.dyn.state.vel s.dyn.state.ori.toMat
      s.dyn.state.angVel s.refVel s.refYaw d := by
    simp only [Sim.command, h.mode]
  obtain ⟨hst, -, e2⟩ := (C53_cascade s.ctl s.dyn.state.ori.toMat 0 s.dyn.state.vel
    s.dyn.state.angVel 0 s.refVel 0 s.refYaw d).2.1
  obtain ⟨o1, o2⟩ := hg.control d (fun i => s.refVel i ⊟ s.dyn.state.vel i)
  have ho : (s.ctl.vel.computeControl d fun i => s.refVel i ⊟ s.dyn.state.vel i).2 =
      ![0, 0, k * (vref - s.dyn.state.vel 2)] := by
    rw [o1, h.request]
    ext i
    fin_cases i
    · simp [flt, hv.upright.1]
    · simp [flt, hv.upright.2]
    · simp [flt]
  rw [ho] at hst
  obtain ⟨g1, g2, g3⟩ := hv.stage hc ha hst
  rw [hu, hy, hcmd]
  refine ⟨g1, rfl, ?_⟩
  exact {
    vertical := { hv with
      knowsMass := hv.knowsMass
      knowsGravity := hv.knowsGravity
      knowsRotors := hv.knowsRotors
      ratePid := ⟨g2, g3⟩ }
    mode := h.mode
    request := h.request
    gain := ⟨kx, ky, by simp only [e2]; exact o2⟩ }

section
variable [Noise ℝ]

/-- A cycle inside all limits. -/
lemma Climbing.cycle {s : Sim ℝ 4} {p ms c k vref dt} (h : Climbing s p ms c k vref) (hc : c.Is p ms)
    (h0 : 0 < dt) (h1 : dt ≤ 1 / 100) (d : ℝ) {x : ℝ × ℝ}
    (hx : (s.dyn.state.vel 2, s.dyn.state.motVel 0) = x) (hl : Unlimited p c k vref dt x) :
    ∃ t, (∀ os u, Sim.Runs t os u → Sim.Runs s (.updateController d :: .updateDynamics dt :: os) u) ∧
      Climbing t p ms c k vref ∧ (t.dyn.state.vel 2, t.dyn.state.motVel 0) = climbMap p c k vref dt x := by
  subst hx
  obtain ⟨l1, ⟨l2, l3⟩, l4, l5⟩ := hl
  obtain ⟨c1, c2, c3⟩ := h.control hc d l1
  obtain ⟨t, t1, t2, t3, t4, -, t6, -, -, -, t10, t11⟩ := c3.vertical.dynamics hc c1 (by rw [c2]) (by rw [c2])
    h0 h1 ⟨l2.le, l3.le⟩ ⟨l4.le, l5.le⟩
  refine ⟨t, fun os u hu => .ok rfl (.ok t1 hu), ⟨t2, ?_, ?_, ?_⟩, ?_⟩
  · rw [t4]; exact c3.mode
  · rw [t6]; exact c3.request
  · rw [t3]; exact c3.gain
  · rw [t10, t11]; rfl

/-- Cycles that stay inside all limits. -/
lemma Climbing.flight {s : Sim ℝ 4} {p ms c k vref dt} (h : Climbing s p ms c k vref) (hc : c.Is p ms)
    (h0 : 0 < dt) (h1 : dt ≤ 1 / 100) (ds : List ℝ) {x : ℝ × ℝ}
    (hx : (s.dyn.state.vel 2, s.dyn.state.motVel 0) = x)
    (hl : ∀ n < ds.length, Unlimited p c k vref dt ((climbMap p c k vref dt)^[n] x)) :
    ∃ t, Sim.Runs s (cycles dt ds) t ∧ Climbing t p ms c k vref ∧
      (t.dyn.state.vel 2, t.dyn.state.motVel 0) = (climbMap p c k vref dt)^[ds.length] x := by
  induction ds generalizing s x with
  | nil => exact ⟨s, .nil s, h, hx⟩
  | cons d ds ih =>
    obtain ⟨t, t1, t2, t3⟩ := h.cycle hc h0 h1 d hx (hl 0 (by simp))
    obtain ⟨u, u1, u2, u3⟩ := ih t2 t3 (fun n hn => by
      have := hl (n + 1) (by simpa using hn)
      rwa [Function.iterate_succ_apply] at this)
    exact ⟨u, t1 _ _ u1, u2, by rw [u3, List.length_cons, Function.iterate_succ_apply]⟩

end

lemma hasDerivAt_mul_abs (v : ℝ) : HasDerivAt (fun x : ℝ => x * |x|) (2 * |v|) v := by
  rcases lt_trichotomy v 0 with h | rfl | h
  · have h1 : HasDerivAt (fun x : ℝ => -(x * x)) (-(1 * v + v * 1)) v :=
      ((hasDerivAt_id v).mul (hasDerivAt_id v)).neg
    have h2 : (fun x : ℝ => x * |x|) =ᶠ[𝓝 v] fun x => -(x * x) := by
      filter_upwards [gt_mem_nhds h] with x hx
      rw [abs_of_neg hx]; ring
    rw [abs_of_neg h]
    exact (h1.congr_of_eventuallyEq h2).congr_deriv (by ring)
  · rw [hasDerivAt_iff_isLittleO_nhds_zero]
    simp only [zero_add, abs_zero, mul_zero, smul_eq_mul, sub_zero]
    rw [Asymptotics.isLittleO_iff]
    intro e he
    filter_upwards [Metric.ball_mem_nhds (0 : ℝ) he] with x hx
    rw [Metric.mem_ball, dist_zero_right] at hx
    rw [norm_mul, Real.norm_eq_abs |x|, abs_abs, ← Real.norm_eq_abs, mul_comm]
    exact mul_le_mul_of_nonneg_right hx.le (norm_nonneg _)
  · have h1 : HasDerivAt (fun x : ℝ => x * x) (1 * v + v * 1) v := (hasDerivAt_id v).mul (hasDerivAt_id v)
    have h2 : (fun x : ℝ => x * |x|) =ᶠ[𝓝 v] fun x => x * x := by
      filter_upwards [lt_mem_nhds h] with x hx
      rw [abs_of_pos hx]
    rw [abs_of_pos h]
    exact (h1.congr_of_eventuallyEq h2).congr_deriv (by ring)

section
variable {p : ModelParams ℝ} {ms : Fin 4 → Motor ℝ} {c : Craft} {k vref v w dt : ℝ}

lemma Balanced.speed (h : Balanced p c k vref v w) (hc : c.Is p ms) :
    c.speedFor p.mass (k * (vref - v)) = w ∧ 0 < c.g + k * (vref - v) := by
  have hk := hc.coefficient
  have hw := h.turning
  constructor
  · rw [Craft.speedFor, h.demand, mul_div_assoc, ← mul_div_assoc, mul_div_cancel_left₀ _ (by positivity),
      Real.sqrt_sq hw.le]
  · have h1 : 0 < p.mass * (c.g + k * (vref - v)) := by rw [h.demand]; positivity
    exact (mul_pos_iff_of_pos_left hc.mass).1 h1

lemma Balanced.fixed (h : Balanced p c k vref v w) (hc : c.Is p ms) : climbMap p c k vref dt (v, w) = (v, w) := by
  simp only [climbMap, (h.speed hc).1, abs_of_pos h.turning]
  have := h.forces
  ext
  · simp only
    rw [show 4 * c.kf * (w * w) - c.g - p.drag * (v * |v|) = 0 by linear_combination this]
    simp
  · simp

lemma Balanced.deriv (h : Balanced p c k vref v w) (hc : c.Is p ms) :
    HasFDerivAt (climbMap p c k vref dt)
      (lin2 (1 - dt / p.mass * (p.drag * (2 * |v|))) (dt / p.mass * (4 * c.kf * (2 * w)))
        (-(dt / c.tau * (p.mass * k / (8 * c.kf * w)))) (1 - dt / c.tau)) (v, w) := by
  have hk := hc.coefficient
  have hw := h.turning
  obtain ⟨hs, hp⟩ := h.speed hc
  have f1 : HasFDerivAt (fun x : ℝ × ℝ => x.1) (ContinuousLinearMap.fst ℝ ℝ ℝ) (v, w) := hasFDerivAt_fst
  have f2 : HasFDerivAt (fun x : ℝ × ℝ => x.2) (ContinuousLinearMap.snd ℝ ℝ ℝ) (v, w) := hasFDerivAt_snd
  have a1 := (hasDerivAt_mul_abs v).comp_hasFDerivAt (v, w) f1
  have a2 := (hasDerivAt_mul_abs w).comp_hasFDerivAt (v, w) f2
  have hin : HasDerivAt (fun x : ℝ => p.mass * (c.g + k * (vref - x)) / (4 * c.kf)) (p.mass * (k * -1) / (4 * c.kf)) v := by
    have h1 : HasDerivAt (fun x : ℝ => vref - x) (-1) v := by
      simpa using (hasDerivAt_id v).const_sub vref
    exact (((h1.const_mul k).const_add c.g).const_mul p.mass).div_const _
  have hrad : p.mass * (c.g + k * (vref - v)) / (4 * c.kf) = w ^ 2 := by
    rw [h.demand, mul_div_cancel_left₀ _ (by positivity)]
  have hsp : HasDerivAt (fun x : ℝ => c.speedFor p.mass (k * (vref - x))) (-(p.mass * k / (8 * c.kf * w))) v := by
    have h2 := hin.sqrt (by rw [hrad]; positivity)
    rw [hrad, Real.sqrt_sq hw.le] at h2
    exact h2.congr_deriv (by field_simp; ring)
  have a3 := hsp.comp_hasFDerivAt (v, w) f1
  have g1 := f1.add (((((a2.const_mul (4 * c.kf)).sub_const c.g).sub (a1.const_mul p.drag))).const_mul (dt / p.mass))
  have g2 := f2.add ((a3.sub f2).const_mul (dt / c.tau))
  refine (g1.prodMk g2).congr_fderiv ?_
  refine ContinuousLinearMap.ext fun x => ?_
  rw [lin2_apply]
  ext
  · simp [abs_of_pos hw]; ring
  · simp; ring

/-- All limits are respected near the balance. -/
lemma Balanced.near (h : Balanced p c k vref v w) (hc : c.Is p ms) :
    ∃ r > 0, ∀ x : ℝ × ℝ, ‖x - (v, w)‖ < r → Unlimited p c k vref dt x := by
  obtain ⟨hs, hp⟩ := h.speed hc
  have hcont := (h.deriv (dt := dt) hc).continuousAt
  have hf := h.fixed (dt := dt) hc
  have s1 : ContinuousAt (fun x : ℝ × ℝ => c.speedFor p.mass (k * (vref - x.1))) (v, w) := by
    unfold Craft.speedFor; fun_prop
  have s2 : ContinuousAt (fun x : ℝ × ℝ => c.g + k * (vref - x.1)) (v, w) := by fun_prop
  have s3 : ContinuousAt (fun x : ℝ × ℝ => (climbMap p c k vref dt x).2) (v, w) := hcont.snd
  have e1 : ∀ᶠ x in 𝓝 (v, w), 0 < c.g + k * (vref - x.1) := s2.eventually (lt_mem_nhds hp)
  have e2 : ∀ᶠ x in 𝓝 (v, w), c.lo < c.speedFor p.mass (k * (vref - x.1)) :=
    s1.eventually (lt_mem_nhds (by simp only [hs]; exact h.limits.1))
  have e3 : ∀ᶠ x in 𝓝 (v, w), c.speedFor p.mass (k * (vref - x.1)) < c.hi :=
    s1.eventually (gt_mem_nhds (by simp only [hs]; exact h.limits.2))
  have e4 : ∀ᶠ x in 𝓝 (v, w), c.lo < (climbMap p c k vref dt x).2 :=
    s3.eventually (lt_mem_nhds (by simp only [hf]; exact h.limits.1))
  have e5 : ∀ᶠ x in 𝓝 (v, w), (climbMap p c k vref dt x).2 < c.hi :=
    s3.eventually (gt_mem_nhds (by simp only [hf]; exact h.limits.2))
  have := e1.and ((e2.and e3).and (e4.and e5))
  rw [Metric.eventually_nhds_iff] at this
  obtain ⟨r, hr, H⟩ := this
  exact ⟨r, hr, fun x hx => H (by rwa [dist_eq_norm])⟩

lemma away_norm (s : Sim ℝ 4) (v w : ℝ) :
    away s v w = ‖((s.dyn.state.vel 2, s.dyn.state.motVel 0) : ℝ × ℝ) - (v, w)‖ := by
  rw [Prod.norm_def]; rfl

/-- Determinant of the linearised cycle. -/
lemma Balanced.det (h : Balanced p c k vref v w) (hc : c.Is p ms) :
    (1 - dt / p.mass * (p.drag * (2 * |v|))) * (1 - dt / c.tau) -
      dt / p.mass * (4 * c.kf * (2 * w)) * -(dt / c.tau * (p.mass * k / (8 * c.kf * w))) =
    (1 - 2 * (dt * p.drag * |v| / p.mass)) * (1 - dt / c.tau) + k * dt * (dt / c.tau) := by
  have hk := hc.coefficient
  have hw := h.turning
  have hm := hc.mass
  have ht := hc.lag
  field_simp
  ring

end

section
variable [Noise ℝ]

/-- **C129.** A balanced climb whose gain is below `1 / dt`, or a little above when drag helps, attracts the
neighbouring vertical flights at a geometric rate, whatever period the controller is told. -/
theorem C129_settles (p : ModelParams ℝ) (ms : Fin 4 → Motor ℝ) (c : Craft) (k vref v w dt : ℝ)
    (hc : c.Is p ms) (hb : Balanced p c k vref v w) (h0 : 0 < dt) (h1 : dt ≤ 1 / 100) (hlag : dt ≤ c.tau)
    (hd : 0 ≤ p.drag) (hdrag : dt * p.drag * |v| < p.mass) (hk : 0 < k)
    (hgain : k * dt < 1 + 2 * p.drag * |v| * (c.tau - dt) / p.mass) :
    ∃ r > 0, ∃ C ≥ 0, ∃ q, 0 ≤ q ∧ q < 1 ∧ ∀ s, Climbing s p ms c k vref → away s v w < r →
      ∀ ds, ∃ t, Sim.Runs s (cycles dt ds) t ∧ Climbing t p ms c k vref ∧
        away t v w ≤ C * q ^ ds.length * away s v w := by
  have hm := hc.mass
  have ht := hc.lag
  set β := dt / c.tau with hβ
  have hβ0 : 0 < β := by positivity
  have hβ1 : β ≤ 1 := (div_le_one ht).2 hlag
  set e := dt * p.drag * |v| / p.mass with he
  have he0 : 0 ≤ e := by positivity
  have he1 : e < 1 := (div_lt_one hm).2 hdrag
  have hdet := hb.det (dt := dt) hc
  rw [← hβ, ← he] at hdet
  have hg : k * dt * β < β + 2 * e * (1 - β) := by
    have e1 : (1 + 2 * p.drag * |v| * (c.tau - dt) / p.mass) * β = β + 2 * e * (1 - β) := by
      rw [hβ, he]; field_simp
    rw [← e1]
    exact mul_lt_mul_of_pos_right hgain hβ0
  have hkb : 0 < k * dt * β := by positivity
  have hder := hb.deriv (dt := dt) hc
  have hA : dt / p.mass * (p.drag * (2 * |v|)) = 2 * e := by rw [he]; ring
  rw [← hβ, hA] at hder
  rw [hA] at hdet
  obtain ⟨r, hr, C, hC, q, q0, q1, H⟩ := attracts2 hder (hb.fixed hc)
    (by rw [hdet]; nlinarith) (by rw [hdet, abs_lt]; constructor <;> nlinarith)
  obtain ⟨r', hr', H'⟩ := hb.near (dt := dt) hc
  refine ⟨min r (r' / (C + 1)), lt_min hr (by positivity), C, hC, q, q0, q1, fun s hs hsr ds => ?_⟩
  rw [away_norm] at hsr ⊢
  have hs1 := hsr.trans_le (min_le_left _ _)
  have hs2 := hsr.trans_le (min_le_right _ _)
  obtain ⟨t, t1, t2, t3⟩ := hs.flight hc h0 h1 ds rfl fun n _ => by
    refine H' _ (lt_of_le_of_lt (H _ hs1 n) ?_)
    rw [lt_div_iff₀ (by positivity)] at hs2
    have hq : q ^ n ≤ 1 := pow_le_one₀ q0 q1.le
    have hn := norm_nonneg (((s.dyn.state.vel 2, s.dyn.state.motVel 0) : ℝ × ℝ) - (v, w))
    have : C * q ^ n ≤ C := mul_le_of_le_one_right hC hq
    nlinarith
  exact ⟨t, t1, t2, by rw [away_norm, t3]; exact H _ hs1 _⟩

/-- **C129.** Above that gain every other vertical flight nearby moves away from the balanced climb. -/
theorem C129_unstable (p : ModelParams ℝ) (ms : Fin 4 → Motor ℝ) (c : Craft) (k vref v w dt : ℝ)
    (hc : c.Is p ms) (hb : Balanced p c k vref v w) (h0 : 0 < dt) (h1 : dt ≤ 1 / 100) (hlag : dt ≤ c.tau)
    (hd : 0 ≤ p.drag) (hdrag : 2 * dt * p.drag * |v| ≤ p.mass)
    (hgain : 1 + 2 * p.drag * |v| * (c.tau - dt) / p.mass < k * dt) :
    ∃ r > 0, ∀ s, Climbing s p ms c k vref → 0 < away s v w → away s v w < r →
      ∃ n, ∀ ds : List ℝ, ds.length = n → ∃ t, Sim.Runs s (cycles dt ds) t ∧ r ≤ away t v w := by
  have hm := hc.mass
  have ht := hc.lag
  have hkf := hc.coefficient
  have hw := hb.turning
  set β := dt / c.tau with hβ
  have hβ0 : 0 < β := by positivity
  have hβ1 : β ≤ 1 := (div_le_one ht).2 hlag
  set e := dt * p.drag * |v| / p.mass with he
  have he0 : 0 ≤ e := by positivity
  have he1 : 2 * e ≤ 1 := by rw [he, ← mul_div_assoc, div_le_one hm]; linarith
  have hdet := hb.det (dt := dt) hc
  rw [← hβ, ← he] at hdet
  have hg : β + 2 * e * (1 - β) < k * dt * β := by
    have e1 : (1 + 2 * p.drag * |v| * (c.tau - dt) / p.mass) * β = β + 2 * e * (1 - β) := by
      rw [hβ, he]; field_simp
    rw [← e1]
    exact mul_lt_mul_of_pos_right hgain hβ0
  have hder := hb.deriv (dt := dt) hc
  have hA : dt / p.mass * (p.drag * (2 * |v|)) = 2 * e := by rw [he]; ring
  rw [← hβ, hA] at hder
  rw [hA] at hdet
  have hbc : dt / p.mass * (4 * c.kf * (2 * w)) * -(β * (p.mass * k / (8 * c.kf * w))) = -(k * dt * β) := by
    rw [hβ]; field_simp; ring
  obtain ⟨r, hr, H⟩ := repels2 hder (hb.fixed hc)
    (by rw [hdet]; nlinarith) (by positivity) (by
      have : (4 : ℝ) * (dt / p.mass * (4 * c.kf * (2 * w))) * -(β * (p.mass * k / (8 * c.kf * w))) =
        -(4 * (k * dt * β)) := by rw [mul_assoc, hbc]; ring
      rw [this]
      nlinarith [sq_nonneg (2 * e), mul_nonneg he0 hβ0.le])
  obtain ⟨r', hr', H'⟩ := hb.near (dt := dt) hc
  refine ⟨min r r', lt_min hr hr', fun s hs hne hsr => ?_⟩
  rw [away_norm] at hsr hne
  have hx : ((s.dyn.state.vel 2, s.dyn.state.motVel 0) : ℝ × ℝ) ≠ (v, w) := by
    rw [← sub_ne_zero]; exact norm_pos_iff.1 hne
  have hex := H (min r r') (min_le_left _ _) _ hx hsr
  classical
  refine ⟨Nat.find hex, fun ds hds => ?_⟩
  obtain ⟨t, t1, -, t3⟩ := hs.flight hc h0 h1 ds rfl fun n hn => by
    refine H' _ (lt_of_lt_of_le ?_ (min_le_right r r'))
    exact not_le.1 (Nat.find_min hex (hds ▸ hn))
  exact ⟨t, t1, by rw [away_norm, t3, hds]; exact Nat.find_spec hex⟩

omit [Noise ℝ] in
/-- Without drag there is exactly one balanced climb: its speed misses the requested one by
`(1 - 1/m) g / k`. -/
lemma balanced_iff {p : ModelParams ℝ} {ms : Fin 4 → Motor ℝ} {c : Craft} {k vref v w : ℝ} (hc : c.Is p ms)
    (hd : p.drag = 0) (hk : k ≠ 0) (hg : 0 < c.g) :
    Balanced p c k vref v w ↔ v = vref + (1 - 1 / p.mass) * c.g / k ∧ w = √(c.g / (4 * c.kf)) ∧
      c.lo < w ∧ w < c.hi := by
  have hkf := hc.coefficient
  have hm := hc.mass.ne'
  constructor
  · intro h
    have h1 := h.forces
    have h2 := h.demand
    rw [hd, zero_mul, add_zero] at h1
    rw [h1] at h2
    refine ⟨?_, ?_, h.limits⟩
    · field_simp
      linear_combination -h2
    · rw [← h1, mul_div_cancel_left₀ _ (by positivity), Real.sqrt_sq h.turning.le]
  · rintro ⟨h1, h2, h3⟩
    have hw : 4 * c.kf * w ^ 2 = c.g := by
      rw [h2, Real.sq_sqrt (by positivity)]; field_simp
    exact ⟨by rw [hw, hd]; ring, by rw [hw, h1]; field_simp; ring, by rw [h2]; positivity, h3⟩

/-- **C130**, every mass: without drag the climb settles at `vref + (1 - 1/m) g / k`. -/
theorem C130_offset (p : ModelParams ℝ) (ms : Fin 4 → Motor ℝ) (c : Craft) (k vref dt : ℝ)
    (hc : c.Is p ms) (hd : p.drag = 0) (hg : 0 < c.g) (hlim : c.lo < √(c.g / (4 * c.kf)) ∧ √(c.g / (4 * c.kf)) < c.hi)
    (h0 : 0 < dt) (h1 : dt ≤ 1 / 100) (hlag : dt ≤ c.tau) (hk : 0 < k) (hgain : k * dt < 1) :
    ∃ r > 0, ∃ C ≥ 0, ∃ q, 0 ≤ q ∧ q < 1 ∧ ∀ s, Climbing s p ms c k vref →
      away s (vref + (1 - 1 / p.mass) * c.g / k) (√(c.g / (4 * c.kf))) < r →
      ∀ ds, ∃ t, Sim.Runs s (cycles dt ds) t ∧
        |t.dyn.state.vel 2 - (vref + (1 - 1 / p.mass) * c.g / k)| ≤ C * q ^ ds.length *
          away s (vref + (1 - 1 / p.mass) * c.g / k) (√(c.g / (4 * c.kf))) := by
  have hb := (balanced_iff (k := k) (vref := vref) hc hd hk.ne' hg).2 ⟨rfl, rfl, hlim⟩
  obtain ⟨r, hr, C, hC, q, q0, q1, H⟩ := C129_settles p ms c k vref _ _ dt hc hb h0 h1 hlag hd.ge
    (by rw [hd]; simpa using hc.mass) hk (by rw [hd]; simpa using hgain)
  refine ⟨r, hr, C, hC, q, q0, q1, fun s hs hsr ds => ?_⟩
  obtain ⟨t, t1, -, t3⟩ := H s hs hsr ds
  exact ⟨t, t1, (le_max_left _ _).trans t3⟩

/-- **C130** for unit mass and no drag: started near the requested speed with trimmed rotors, the vehicle
reaches the requested speed at a geometric rate.  Missing: other masses and drag, for which the claim is
false (`C130_violated`). -/
theorem C130_requested_partial (p : ModelParams ℝ) (ms : Fin 4 → Motor ℝ) (c : Craft) (k vref dt : ℝ)
    (hc : c.Is p ms) (hm : p.mass = 1) (hd : p.drag = 0) (hg : 0 < c.g)
    (hlim : c.lo < √(c.g / (4 * c.kf)) ∧ √(c.g / (4 * c.kf)) < c.hi)
    (h0 : 0 < dt) (h1 : dt ≤ 1 / 100) (hlag : dt ≤ c.tau) (hk : 0 < k) (hgain : k * dt < 1) :
    ∃ r > 0, ∃ C ≥ 0, ∃ q, 0 ≤ q ∧ q < 1 ∧ ∀ s, Climbing s p ms c k vref →
      away s vref (√(c.g / (4 * c.kf))) < r → ∀ ds, ∃ t, Sim.Runs s (cycles dt ds) t ∧
        |t.dyn.state.vel 2 - vref| ≤ C * q ^ ds.length * away s vref (√(c.g / (4 * c.kf))) := by
  have := C130_offset p ms c k vref dt hc hd hg hlim h0 h1 hlag hk hgain
  rwa [hm, show vref + (1 - 1 / 1) * c.g / k = vref by simp] at this

end

/-- Full claim: where the vertical speed settles, it is the requested one. -/
def C130_claim : Prop :=
  ∀ (_ : Noise ℝ) (p : ModelParams ℝ) (ms : Fin 4 → Motor ℝ) (c : Craft) (k vref dt L : ℝ) (s : Sim ℝ 4),
    c.Is p ms → Climbing s p ms c k vref → 0 < dt → dt ≤ 1 / 100 → dt ≤ c.tau → 0 < k → k * dt < 1 →
    (∀ ε > 0, ∃ N, ∀ ds : List ℝ, N ≤ ds.length → ∃ t, Sim.Runs s (cycles dt ds) t ∧ |t.dyn.state.vel 2 - L| < ε) →
    L = vref

/-- The fixture with mass `m`, without drag and process noise. -/
noncomputable def climbParams (m : ℝ) : ModelParams ℝ :=
  { Fixture.modelParams with mass := m, drag := 0, forceNoise := 0 }

/-- Its numbers. -/
noncomputable def climbCraft : Craft := ⟨1, 1, 0, 10, 10⟩

/-- ... climbing with speed `v`, rotor speeds `w`, gain `k`, and request `vref`. -/
noncomputable def climbSim [Noise ℝ] (m k vref v w : ℝ) : Sim ℝ 4 :=
  { Fixture.sim with
    dyn := builtFrom (climbParams m) Fixture.motors 7
      { Fixture.dyn.state with motVel := fun _ => w, vel := ![0, 0, v] }
    ctl := Ctl.mk' { Fixture.ctlParams with
      acro := ⟨m, 1, ![0, 0, -10]⟩
      indi := ⟨1, Indi.mixerInverse (Model.mixer6 Fixture.motors), PidParams.default⟩
      vel := { PidParams.default with kp := ![1, 1, k] } }
    armed := true
    mode := .velocity
    refVel := ![0, 0, vref]
    refYaw := (quatToEuler Fixture.dyn.state.ori).2.2 }

lemma climbCraft_is (m : ℝ) (hm : 0 < m) : climbCraft.Is (climbParams m) Fixture.motors where
  frame := ⟨1, 1, 1, 1, one_ne_zero, one_ne_zero, one_ne_zero, .inl rfl⟩
  coefficient := one_pos
  lag := one_pos
  mass := hm
  gravity := rfl
  quiet := rfl

lemma climbSim_climbing [Noise ℝ] (m k vref v w : ℝ) :
    Climbing (climbSim m k vref v w) (climbParams m) Fixture.motors climbCraft k vref where
  vertical :=
    { runs := rfl
      rotors := rfl
      knowsMass := rfl
      knowsGravity := rfl
      knowsRotors := rfl
      ratePid := ⟨Pid.default_rest, Pid.default_neutral⟩
      armed := rfl
      yawMode := rfl
      level := ⟨by simp [climbSim, builtFrom, Fixture.dyn, State.default, Quat.identity, IsUnitQ, flt], by
        simp [climbSim, builtFrom, Fixture.dyn, State.default, Quat.identity, flt], by
        simp [climbSim, builtFrom, Fixture.dyn, State.default, Quat.identity, flt]⟩
      yaw := rfl
      upright := ⟨rfl, rfl⟩
      angVel := vzero_real
      same := fun _ => rfl
      floor := rfl
      extForce := vzero_real }
  mode := rfl
  request := rfl
  gain := ⟨1, 1, by
    have h : Pid.nonZero (vzero : Vec 3 ℝ) = false := by simp [Pid.nonZero, vzero, flt]
    constructor <;>
      simp only [climbSim, Ctl.mk', Pid.mk', Pid.updateParams, PidParams.default, h, Bool.or_self,
        Bool.false_eq_true, if_false, Pid.reset, Pid.disableSat, Pid.setPropSat, Pid.setResetIntegral,
        Pid.setAlpha, Pid.setAntiWindup, Pid.setGains] <;> ext i j <;> fin_cases i <;> fin_cases j <;>
      simp [mdiag, flt]⟩

/-- Trim speed of the fixture. -/
lemma climb_trim : climbCraft.lo < √(climbCraft.g / (4 * climbCraft.kf)) ∧
    √(climbCraft.g / (4 * climbCraft.kf)) < climbCraft.hi := by
  simp only [climbCraft]
  refine ⟨by positivity, ?_⟩
  rw [Real.sqrt_lt' (by norm_num)]
  norm_num

/-- Non-vacuity of `C129_settles` and `C130_offset`: a vehicle of mass two climbs with speed 3.5 m/s when asked
for 1 m/s, here starting nearby with a rotor speed that is slightly off. -/
example [Noise ℝ] : climbCraft.Is (climbParams 2) Fixture.motors ∧
    Balanced (climbParams 2) climbCraft 2 1 (7 / 2) (√(10 / 4)) ∧
    (2 : ℝ) * (1 / 100) < 1 + 2 * (climbParams 2).drag * |7 / 2| * (climbCraft.tau - 1 / 100) / (climbParams 2).mass ∧
    ∀ r > 0, ∃ s, Climbing s (climbParams 2) Fixture.motors climbCraft 2 1 ∧ 0 < away s (7 / 2) (√(10 / 4)) ∧
      away s (7 / 2) (√(10 / 4)) < r := by
  refine ⟨climbCraft_is 2 (by norm_num), ?_, by norm_num [climbParams], fun r hr => ?_⟩
  · refine (balanced_iff (climbCraft_is 2 (by norm_num)) rfl (by norm_num) (by norm_num [climbCraft])).2 ⟨?_, ?_, ?_⟩
    · norm_num [climbParams, climbCraft]
    · norm_num [climbCraft]
    · simpa [climbCraft] using climb_trim
  · refine ⟨climbSim 2 2 1 (7 / 2) (√(10 / 4) + r / 2), climbSim_climbing _ _ _ _ _, ?_, ?_⟩ <;>
      simp [away, climbSim, builtFrom, abs_of_pos (half_pos hr)] <;> linarith

/-- Non-vacuity of `C129_unstable`: gain 101 with a period of ten milliseconds. -/
example [Noise ℝ] : climbCraft.Is (climbParams 1) Fixture.motors ∧
    Balanced (climbParams 1) climbCraft 101 1 1 (√(10 / 4)) ∧
    1 + 2 * (climbParams 1).drag * |(1 : ℝ)| * (climbCraft.tau - 1 / 100) / (climbParams 1).mass < 101 * (1 / 100) ∧
    ∀ r > 0, ∃ s, Climbing s (climbParams 1) Fixture.motors climbCraft 101 1 ∧ 0 < away s 1 (√(10 / 4)) ∧
      away s 1 (√(10 / 4)) < r := by
  refine ⟨climbCraft_is 1 (by norm_num), ?_, by norm_num [climbParams], fun r hr => ?_⟩
  · refine (balanced_iff (climbCraft_is 1 (by norm_num)) rfl (by norm_num) (by norm_num [climbCraft])).2 ⟨?_, ?_, ?_⟩
    · norm_num [climbParams, climbCraft]
    · norm_num [climbCraft]
    · simpa [climbCraft] using climb_trim
  · refine ⟨climbSim 1 101 1 1 (√(10 / 4) + r / 2), climbSim_climbing _ _ _ _ _, ?_, ?_⟩ <;>
      simp [away, climbSim, builtFrom, abs_of_pos (half_pos hr)] <;> linarith

/-- A vehicle of mass two, asked for 1 m/s, climbs with 3.5 m/s forever. -/
theorem C130_violated : ¬ C130_claim := by
  intro h
  let N : Noise ℝ := ⟨fun _ _ _ => 0⟩
  have hc := climbCraft_is 2 (by norm_num)
  obtain ⟨r, hr, C, hC, q, q0, q1, H⟩ := C130_offset (climbParams 2) Fixture.motors climbCraft 2 1 (1 / 100) hc rfl
    (by norm_num [climbCraft]) climb_trim (by norm_num) le_rfl (by norm_num [climbCraft]) (by norm_num) (by norm_num)
  have e : (1 : ℝ) + (1 - 1 / (climbParams 2).mass) * climbCraft.g / 2 = 7 / 2 := by
    norm_num [climbParams, climbCraft]
  rw [e] at H
  have ha : away (climbSim 2 2 1 (7 / 2) (√(climbCraft.g / (4 * climbCraft.kf)))) (7 / 2)
      (√(climbCraft.g / (4 * climbCraft.kf))) = 0 := by
    simp [away, climbSim, builtFrom]
  have := h N (climbParams 2) Fixture.motors climbCraft 2 1 (1 / 100) (7 / 2) _ hc
    (climbSim_climbing 2 2 1 (7 / 2) (√(climbCraft.g / (4 * climbCraft.kf)))) (by norm_num) le_rfl
    (by norm_num [climbCraft]) (by norm_num) (by norm_num) fun ε hε => ⟨0, fun ds _ => by
      obtain ⟨t, t1, t2⟩ := H _ (climbSim_climbing 2 2 1 (7 / 2) (√(climbCraft.g / (4 * climbCraft.kf))))
        (by rw [ha]; exact hr) ds
      rw [ha, mul_zero] at t2
      exact ⟨t, t1, t2.trans_lt hε⟩⟩
  norm_num at this

end Verif.Props
