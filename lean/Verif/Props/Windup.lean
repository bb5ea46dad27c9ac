import Verif.Props.ShippedHold
import Verif.Props.NoiseStreams

/-!
# Steady vertical flight under integral action (C133)
-/

namespace Verif.Props

open Verif Flt Spec Example

/-- Error accumulated in a cycle, limited to its bound. -/
noncomputable def windHeld (aw vref dt : ℝ) (x : ℝ × ℝ × ℝ) : ℝ := max (-aw) (min aw (x.2.1 + (vref - x.1) * dt))

/-- Demanded acceleration. -/
noncomputable def windAcc (kp ki aw vref dt : ℝ) (x : ℝ × ℝ × ℝ) : ℝ := kp * (vref - x.1) + ki * windHeld aw vref dt x

/-- The demand is inside the limits of the velocity controller and of the rotors. -/
def Roomy (p : ModelParams ℝ) (c : Craft) (kp ki aw lim vref dt : ℝ) (x : ℝ × ℝ × ℝ) : Prop :=
  0 < c.g + windAcc kp ki aw vref dt x ∧ |windAcc kp ki aw vref dt x| < lim ∧
  (c.lo < c.speedFor p.mass (windAcc kp ki aw vref dt x) ∧ c.speedFor p.mass (windAcc kp ki aw vref dt x) < c.hi) ∧
  (c.lo < x.2.2 ∧ x.2.2 < c.hi)

/-- Flight with constant vertical speed and rotor speed, the accumulated error satisfying `P`, and all demands being
inside the limits. -/
def Steady [Noise ℝ] (s : Sim ℝ 4) (p : ModelParams ℝ) (c : Craft) (kp ki aw lim vref dt : ℝ) (P : ℝ → Prop) : Prop :=
  ∀ n, ∃ t, Sim.Runs s (cycles dt (List.replicate n dt)) t ∧ t.dyn.state.vel 2 = s.dyn.state.vel 2 ∧
    t.dyn.state.motVel 0 = s.dyn.state.motVel 0 ∧ Roomy p c kp ki aw lim vref dt (steering t) ∧ P (heldError t.ctl.vel)

/-- **C133, full claim.** Steady vertical flight under integral action, all demands being inside the limits of the
velocity controller and of the rotors, has the requested speed. -/
def C133_claim : Prop :=
  ∀ (_ : Noise ℝ) (p : ModelParams ℝ) (ms : Fin 4 → Motor ℝ) (c : Craft) (kp ki aw lim vref dt : ℝ) (s : Sim ℝ 4),
    c.Is p ms → Steered s p ms c kp ki aw lim vref → 0 < kp → 0 < ki → 0 < aw → 0 < dt → dt ≤ 1 / 100 → dt ≤ c.tau →
    Steady s p c kp ki aw lim vref dt (fun i => |i| ≤ aw) → s.dyn.state.vel 2 = vref

section
variable {p : ModelParams ℝ} {ms : Fin 4 → Motor ℝ} {c : Craft} {kp ki aw lim vref dt : ℝ} [Noise ℝ]

/-- A cycle with demands inside the limits. -/
lemma Steered.cycle_bounded {s : Sim ℝ 4} (h : Steered s p ms c kp ki aw lim vref) (hc : c.Is p ms)
    (h0 : 0 < dt) (h1 : dt ≤ 1 / 100) (hlag : dt ≤ c.tau) (ha : 0 < aw) (hi : |heldError s.ctl.vel| ≤ aw)
    (hl : Roomy p c kp ki aw lim vref dt (steering s)) :
    ∃ t, (∀ os u, Sim.Runs t os u → Sim.Runs s (.updateController dt :: .updateDynamics dt :: os) u) ∧
      Steered t p ms c kp ki aw lim vref ∧ heldError t.ctl.vel = windHeld aw vref dt (steering s) ∧
      t.dyn.state.vel 2 = s.dyn.state.vel 2 + dt / p.mass * (4 * c.kf * (s.dyn.state.motVel 0 * |s.dyn.state.motVel 0|) -
        c.g - p.drag * (s.dyn.state.vel 2 * |s.dyn.state.vel 2|)) ∧
      t.dyn.state.motVel 0 = s.dyn.state.motVel 0 +
        dt / c.tau * (c.speedFor p.mass (windAcc kp ki aw vref dt (steering s)) - s.dyn.state.motVel 0) := by
  obtain ⟨l1, l2, ⟨l3, l4⟩, l5, l6⟩ := hl
  obtain ⟨c1, c2, c3, c4⟩ := h.demand hc l1
    (h.pi.control_bounded (dt := dt) (e := vref - s.dyn.state.vel 2) hi ha l2.le)
  set u := c.speedFor p.mass (windAcc kp ki aw vref dt (steering s)) with hu
  change c.lo < s.dyn.state.motVel 0 at l5
  change s.dyn.state.motVel 0 < c.hi at l6
  have hb0 : 0 < dt / c.tau := div_pos h0 hc.lag
  have hb1 : dt / c.tau ≤ 1 := (div_le_one hc.lag).2 hlag
  obtain ⟨t, t1, t2, t3, t4, -, t6, -, -, -, t10, t11⟩ := c3.vertical.dynamics hc c1 rfl rfl h0 h1 ⟨l3.le, l4.le⟩
    (by rw [c2]; constructor <;> nlinarith)
  rw [c2] at t10 t11
  refine ⟨t, fun os u hu => .ok rfl (.ok t1 hu), ⟨t2, ?_, ?_, ?_⟩, ?_, t10, t11⟩
  · rw [t4]; exact c3.mode
  · rw [t6]; exact c3.request
  · rw [t3]; exact c3.pi
  · rw [t3, c4]; rfl

omit [Noise ℝ] in
/-- Demands of equal rotor speeds are equal. -/
lemma Craft.Is.speedFor_inj (hc : c.Is p ms) {a b : ℝ} (ha : 0 < c.g + a) (hb : 0 < c.g + b)
    (h : c.speedFor p.mass a = c.speedFor p.mass b) : a = b := by
  have hk := hc.coefficient
  have hm := hc.mass
  unfold Craft.speedFor at h
  have := (Real.sqrt_inj (by positivity) (by positivity)).1 h
  rw [div_left_inj' (by positivity), mul_right_inj' hm.ne'] at this
  linarith

/-- **C133, proved part.** ... if the accumulated error does not reach its bound. -/
theorem C133_requested_partial (s : Sim ℝ 4) (hc : c.Is p ms) (hs : Steered s p ms c kp ki aw lim vref)
    (hki : 0 < ki) (ha : 0 < aw) (h0 : 0 < dt) (h1 : dt ≤ 1 / 100) (hlag : dt ≤ c.tau)
    (h : Steady s p c kp ki aw lim vref dt (fun i => |i| < aw)) : s.dyn.state.vel 2 = vref := by
  have free : ∀ x, |max (-aw) (min aw x)| < aw → max (-aw) (min aw x) = x := fun x hx => by
    rw [abs_lt] at hx
    have h1 := hx.2
    have h2 := hx.1
    rcases le_total aw x with hx | hx
    · rw [min_eq_left hx, max_eq_right (by linarith)] at h1
      exact absurd h1 (lt_irrefl _)
    · rw [min_eq_right hx] at h2 ⊢
      rcases le_total (-aw) x with hy | hy
      · exact max_eq_right hy
      · rw [max_eq_left hy] at h2
        exact absurd h2 (lt_irrefl _)
  have hb0 : 0 < dt / c.tau := div_pos h0 hc.lag
  have keep : ∀ x w : ℝ, w + dt / c.tau * (x - w) = w → x = w := fun x w hx => by
    have : dt / c.tau * (x - w) = 0 := by linarith
    rcases mul_eq_zero.1 this with h | h
    · exact absurd h hb0.ne'
    · linarith
  -- before the first cycle
  obtain ⟨s', r0, -, -, q0, i0⟩ := h 0
  obtain rfl := runs_det (Sim.Runs.nil s) r0
  obtain ⟨t, t1, t2, t3, t4, t5⟩ := hs.cycle_bounded hc h0 h1 hlag ha i0.le q0
  -- after it
  obtain ⟨t', r1, v1, w1, q1, i1⟩ := h 1
  obtain rfl := runs_det (t1 [] t (.nil t)) r1
  obtain ⟨u, u1, u2, u3, u4, u5⟩ := t2.cycle_bounded hc h0 h1 hlag ha i1.le q1
  obtain ⟨u', r2, v2, w2, q2, i2⟩ := h 2
  obtain rfl := runs_det (t1 _ u (u1 [] u (.nil u))) r2
  have e1 : windHeld aw vref dt (steering s) = heldError s.ctl.vel + (vref - s.dyn.state.vel 2) * dt :=
    free _ (by simpa only [t3, windHeld] using i1)
  have e2 : windHeld aw vref dt (steering t) = heldError t.ctl.vel + (vref - t.dyn.state.vel 2) * dt :=
    free _ (by simpa only [u3, windHeld] using i2)
  have k1 := keep _ _ (t5.symm.trans w1)
  have k2 := keep _ _ (u5.symm.trans (w2.trans w1.symm))
  have ka := hc.speedFor_inj q0.1 q1.1 (k1.trans (w1.symm.trans k2.symm))
  unfold windAcc at ka
  rw [e2, t3, e1, show (steering t).1 = (steering s).1 from v1, v1] at ka
  change kp * (vref - s.dyn.state.vel 2) + _ = kp * (vref - s.dyn.state.vel 2) + _ at ka
  have : ki * ((vref - s.dyn.state.vel 2) * dt) = 0 := by linarith
  rcases mul_eq_zero.1 this with h | h
  · exact absurd h hki.ne'
  · rcases mul_eq_zero.1 h with h | h
    · linarith
    · exact absurd h h0.ne'

/-- Flight with the accumulated error at its bound in which all forces balance continues. -/
lemma Steered.wound {s : Sim ℝ 4} (hs : Steered s p ms c kp ki aw lim vref) (hc : c.Is p ms)
    (h0 : 0 < dt) (h1 : dt ≤ 1 / 100) (hlag : dt ≤ c.tau) (ha : 0 < aw) {v w : ℝ} (hv : s.dyn.state.vel 2 = v)
    (hw : s.dyn.state.motVel 0 = w) (hi : heldError s.ctl.vel = aw) (hslow : v < vref)
    (hforce : 4 * c.kf * (w * |w|) = c.g + p.drag * (v * |v|))
    (hdem : c.speedFor p.mass (kp * (vref - v) + ki * aw) = w) (hg : 0 < c.g + (kp * (vref - v) + ki * aw))
    (hlim : |kp * (vref - v) + ki * aw| < lim) (hrot : c.lo < w ∧ w < c.hi) :
    Steady s p c kp ki aw lim vref dt (fun i => |i| ≤ aw) := by
  have key : ∀ u : Sim ℝ 4, u.dyn.state.vel 2 = v → u.dyn.state.motVel 0 = w → heldError u.ctl.vel = aw →
      windHeld aw vref dt (steering u) = aw ∧ Roomy p c kp ki aw lim vref dt (steering u) := by
    intro u h2 h3 h4
    have hh : windHeld aw vref dt (steering u) = aw := by
      simp only [windHeld, steering, h2, h4]
      have : 0 < (vref - v) * dt := mul_pos (by linarith) h0
      rw [min_eq_left (by linarith), max_eq_right (by linarith)]
    have hacc : windAcc kp ki aw vref dt (steering u) = kp * (vref - v) + ki * aw := by
      rw [windAcc, hh]
      simp only [steering, h2]
    refine ⟨hh, ?_⟩
    unfold Roomy
    rw [hacc, hdem]
    exact ⟨hg, hlim, hrot, by simp only [steering, h3]; exact hrot⟩
  intro n
  suffices H : ∃ t, Sim.Runs s (cycles dt (List.replicate n dt)) t ∧ t.dyn.state.vel 2 = v ∧ t.dyn.state.motVel 0 = w ∧
      heldError t.ctl.vel = aw by
    obtain ⟨t, t1, t2, t3, t4⟩ := H
    exact ⟨t, t1, by rw [t2, hv], by rw [t3, hw], (key t t2 t3 t4).2, by simp only [t4, abs_of_pos ha, le_refl]⟩
  induction n generalizing s with
  | zero => exact ⟨s, .nil s, hv, hw, hi⟩
  | succ n ih =>
    obtain ⟨k1, k2⟩ := key s hv hw hi
    obtain ⟨t, t1, t2, t3, t4, t5⟩ := hs.cycle_bounded hc h0 h1 hlag ha (by rw [hi, abs_of_pos ha]) k2
    have hacc : windAcc kp ki aw vref dt (steering s) = kp * (vref - v) + ki * aw := by
      rw [windAcc, k1]
      simp only [steering, hv]
    rw [hw, hv, hforce] at t4
    rw [hw, hacc, hdem] at t5
    obtain ⟨u, u1, u2⟩ := ih t2 (by rw [t4]; ring) (by rw [t5]; ring) (by rw [t3, k1])
    exact ⟨u, t1 _ _ u1, u2⟩

end

/-- The shipped quadrotor climbing with 5 m/s, asked for 5.05 m/s, with the error accumulated up to its bound. -/
noncomputable def woundSim [Noise ℝ] (p : SimParams ℝ 4) (ms : Fin 4 → Motor ℝ) (v vref i w : ℝ) : Sim ℝ 4 :=
  let s := holdSim p ms 0 0 w
  { s with
    mode := .velocity
    refVel := ![0, 0, vref]
    dyn := { s.dyn with state := { s.dyn.state with vel := ![0, 0, v] } }
    ctl := { s.ctl with vel := { s.ctl.vel with firstRun := false, integral := ![0, 0, i], filtered := 0, propErr := 0 } } }

/-- The shipped quadrotor in `woundSim` is steered by the shipped controller. -/
lemma woundSim_steered [Noise ℝ] : ∃ (p : SimParams ℝ 4) (ms : Fin 4 → Motor ℝ),
    getParams false (some shipped) = some (0, p) ∧ p.dyn.model.mass = 1 ∧ p.dyn.model.drag = 1 / 10 ∧
    shippedCraft.Is { p.dyn.model with forceNoise := 0 } ms ∧
    ∀ v vref i w, Steered (woundSim p ms v vref i w) { p.dyn.model with forceNoise := 0 } ms shippedCraft 10 2 1 4 vref := by
  obtain ⟨p, hp, hmot, hmass, hgrav, k1, k2, k3, -, ⟨b1, b2, b3, b4, b5, b6⟩, ⟨i1, i2, i3⟩, hdrag⟩ :=
    shipped_vertical (α := ℝ)
  have h0 : (lit 0 : ℝ) = 0 := by simp [flt]
  obtain ⟨ms, hms⟩ := shipped_motors hmot
  refine ⟨p, ms, by rw [hp, h0], by rw [hmass]; simp [flt], by rw [hdrag]; simp [flt],
    shippedCraft_is hmot hms hmass hgrav, fun v vref i w => ?_⟩
  have hv := holdSim_vertical hms k1 k2 k3 i1 i2 i3 0 0 w
  have hside : Sideways (woundSim p ms v vref i w).ctl.vel := by
    intro _ j hj
    fin_cases j
    · exact ⟨rfl, rfl, rfl⟩
    · exact ⟨rfl, rfl, rfl⟩
    · exact absurd rfl hj
  refine ⟨?_, rfl, rfl, piAxis_of_params (q := (woundSim p ms v vref i w).ctl.vel) (r := p.ctl.vel)
    ⟨rfl, rfl, rfl, rfl, rfl, rfl, rfl, rfl, rfl, rfl⟩ hside
    ?_ ?_ ?_ ⟨fun i => ?_, ?_⟩ ⟨fun i => ?_, ?_, ?_⟩⟩
  · exact { hv with
      knowsMass := hv.knowsMass
      upright := ⟨rfl, rfl⟩
      level := hv.level
      yaw := hv.yaw
      angVel := hv.angVel
      same := hv.same
      runs := hv.runs }
  · rw [b1]; simp [flt]
  · rw [b2]; simp [flt]
  · rw [b3]; simp [flt]
  · rw [b4]; fin_cases i <;> simp [flt]
  · rw [b4]; simp [flt]
  · rw [b5, b6]; fin_cases i <;> simp [flt]
  · rw [b6]; simp [flt]
  · rw [b5]; simp [flt]

lemma wound_speed : 0 < √((1231 / 100 : ℝ) / (4 * (191 / 100000000))) ∧
    √((1231 / 100 : ℝ) / (4 * (191 / 100000000))) < 2200 ∧
    √((1231 / 100 : ℝ) / (4 * (191 / 100000000))) ^ 2 = (1231 / 100 : ℝ) / (4 * (191 / 100000000)) :=
  ⟨Real.sqrt_pos.2 (by norm_num), by rw [Real.sqrt_lt' (by norm_num)]; norm_num, Real.sq_sqrt (by norm_num)⟩

/-- **C133 is violated** by the shipped quadrotor with the shipped gains: asked for 5.05 m/s it climbs with 5 m/s for
ever, although the rotors have thrust to spare. -/
theorem C133_violated : ¬ C133_claim := by
  intro h
  let N : Noise ℝ := ⟨fun _ _ _ => 0⟩
  obtain ⟨p, ms, -, hm, hd, hc, hs⟩ := woundSim_steered
  obtain ⟨w0, w1, w2⟩ := wound_speed
  set w := √((1231 / 100 : ℝ) / (4 * (191 / 100000000))) with hw
  have hst := hs 5 (505 / 100) 1 w
  have := h N _ ms _ 10 2 1 4 (505 / 100) (1 / 1000) _ hc hst (by norm_num) (by norm_num) (by norm_num) (by norm_num)
    (by norm_num) (by norm_num [shippedCraft]) (hst.wound hc (by norm_num) (by norm_num) (by norm_num [shippedCraft])
      (by norm_num) (v := 5) (w := w) rfl rfl rfl (by norm_num)
      (by rw [abs_of_pos w0, ← sq, w2]; simp only [hd, shippedCraft]; norm_num)
      (by rw [hw]; simp only [Craft.speedFor, hm, shippedCraft]; norm_num)
      (by simp only [shippedCraft]; norm_num) (by norm_num) ⟨w0, w1⟩)
  have h5 : (woundSim p ms 5 (505 / 100) 1 w).dyn.state.vel 2 = 5 := rfl
  rw [h5] at this
  norm_num at this

/-- Non-vacuity of `C133_requested_partial`: the shipped quadrotor, asked for 4 m/s, climbing with 4 m/s. -/
example [Noise ℝ] : ∃ (p : ModelParams ℝ) (ms : Fin 4 → Motor ℝ) (s : Sim ℝ 4), shippedCraft.Is p ms ∧
    Steered s p ms shippedCraft 10 2 1 4 4 ∧ (1 / 1000 : ℝ) ≤ shippedCraft.tau ∧
    Steady s p shippedCraft 10 2 1 4 4 (1 / 1000) (fun i => |i| < 1) := by
  obtain ⟨p, ms, -, hm, hd, hc, hs⟩ := woundSim_steered
  have w0 : 0 < √((1141 / 100 : ℝ) / (4 * (191 / 100000000))) := Real.sqrt_pos.2 (by norm_num)
  have w1 : √((1141 / 100 : ℝ) / (4 * (191 / 100000000))) < 2200 := by rw [Real.sqrt_lt' (by norm_num)]; norm_num
  have w2 : √((1141 / 100 : ℝ) / (4 * (191 / 100000000))) ^ 2 = (1141 / 100 : ℝ) / (4 * (191 / 100000000)) :=
    Real.sq_sqrt (by norm_num)
  set w := √((1141 / 100 : ℝ) / (4 * (191 / 100000000)))
  have ht : Trimmed { p.dyn.model with forceNoise := 0 } shippedCraft 2 1 4 4 (4 / 5) w :=
    ⟨by rw [w2]; simp only [hd, shippedCraft]; norm_num, by rw [w2]; simp only [hm, shippedCraft]; norm_num, w0, ⟨w0, w1⟩,
      by norm_num [abs_lt], by norm_num [abs_lt]⟩
  refine ⟨_, ms, woundSim p ms 4 4 (4 / 5) w, hc, hs 4 4 (4 / 5) w, by norm_num [shippedCraft], fun n => ?_⟩
  have hsteer : steering (woundSim p ms 4 4 (4 / 5) w) = (4, 4 / 5, w) := rfl
  obtain ⟨s1, s2, s3⟩ := ht.speed (kp := 10) (dt := 1 / 1000) hc
  have hfix : ∀ j, (steerMap { p.dyn.model with forceNoise := 0 } shippedCraft 10 2 4 (1 / 1000))^[j] (4, 4 / 5, w) =
      (4, 4 / 5, w) := Function.iterate_fixed (ht.fixed hc)
  obtain ⟨t, t1, -, t3⟩ := (hs 4 4 (4 / 5) w).flight hc (dt := 1 / 1000) (by norm_num) (by norm_num) n fun j _ => by
    rw [hsteer, hfix]
    unfold SteerInside
    rw [s1, s2, ht.fixed hc]
    exact ⟨s3, ht.windup, ht.windup, ht.limit, ⟨w0, w1⟩, w0, w1⟩
  rw [hsteer, hfix] at t3
  have a1 : windAcc 10 2 1 4 (1 / 1000) (4, 4 / 5, w) = 2 * (4 / 5) := by
    have : max (-1 : ℝ) (min 1 (4 / 5)) = 4 / 5 := by rw [min_eq_right (by norm_num), max_eq_right (by norm_num)]
    simp [windAcc, windHeld, this]
  refine ⟨t, t1, congrArg Prod.fst t3, congrArg (fun x => x.2.2) t3, ?_, ?_⟩
  · rw [t3]
    unfold Roomy
    rw [a1, s2]
    exact ⟨s3, ht.limit, ⟨w0, w1⟩, w0, w1⟩
  · rw [show heldError t.ctl.vel = 4 / 5 from congrArg (fun x => x.2.1) t3]
    norm_num [abs_lt]

end Verif.Props
