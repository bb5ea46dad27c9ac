import Verif.Props.Track
import Verif.Lemmas.CruiseMode

/-!
# A control cycle in velocity mode

Definitions for C145 and the reduction of a cycle to the numbers that describe the vehicle relative to where it is.
-/

namespace Verif.Props

open Verif Flt Spec Stability Filter Topology

/-- An armed vehicle in velocity mode; its controllers have the configurations `cV`, `cR` and know the vehicle. -/
structure InCruise (s : Sim ℝ 4) (p : ModelParams ℝ) (ms : Fin 4 → Motor ℝ) (l : Loop) (cV cR : Pid ℝ 3) : Prop where
  runs : s.dyn.model.core = some (Model.coreOf p ms)
  rotors : Model.motorFn 4 p.motors = some ms
  armed : s.armed = true
  mode : s.mode = .velocity
  yawMode : s.yawMode = .angle
  heading : Real.cos s.refYaw = Real.cos l.psi ∧ Real.sin s.refYaw = Real.sin l.psi
  floor : s.floorEnable = false
  extForce : s.extForce = 0
  knowsMass : s.ctl.acro.mass = l.mass
  knowsGravity : s.ctl.acro.gravity = ![0, 0, -l.g]
  gain : s.ctl.acro.kpRot = Matrix.diagonal l.kr
  knowsInertia : s.ctl.indi.inertia = Matrix.diagonal l.inertia
  knowsRotors : ∀ j r, s.ctl.indi.mixerInv j (Fin.natAdd 2 r) = l.alloc j r
  velConfig : s.ctl.vel.SameConfig cV
  rateConfig : s.ctl.indi.pid.SameConfig cR

/-- A vehicle in velocity mode whose motion, relative to an observer who starts where the vehicle is and moves with velocity `u`,
and whose controllers' memory are given by the numbers `x`. -/
structure Cruises (s : Sim ℝ 4) (p : ModelParams ℝ) (ms : Fin 4 → Motor ℝ) (l : Loop) (cV cR : Pid ℝ 3) (x : HV → ℝ)
    (u : Vec 3 ℝ) : Prop extends InCruise s p ms l cV cR where
  moves : Loop.Moves l.cruise s.dyn.state x s.dyn.state.pos u
  velMemory : Held s.ctl.vel l.V (l.cruise.ev x) (fun i => x (.iV i)) (fun i => x (.fV i)) fun i => x (.eV i)
  rateMemory : Held s.ctl.indi.pid l.R (l.cruise.er x) (fun i => x (.iR i)) (fun i => x (.fR i)) fun i => x (.eR i)

/-- No limit is reached in the cycle. -/
structure Loop.CruiseInside (l : Loop) (ms : Fin 4 → Motor ℝ) (cV cR : Pid ℝ 3) (x : HV → ℝ) : Prop where
  vel : Unwound cV l.V fun i => x (.iV i)
  vel' : Unwound cV l.V fun i => l.cruise.map x (.iV i)
  velOut : Unbounded cV (l.cruise.acc x)
  rate : Unwound cR l.R fun i => x (.iR i)
  rate' : Unwound cR l.R fun i => l.cruise.map x (.iR i)
  rateOut : Unbounded cR (l.cruise.spin x)
  up : 0 < l.cruise.proj x
  command : ∀ j, (ms j).minSpeed < l.cruise.cmd x j ∧ l.cruise.cmd x j < (ms j).maxSpeed
  speed : ∀ j, (ms j).minSpeed < l.cruise.map x (.mot j) ∧ l.cruise.map x (.mot j) < (ms j).maxSpeed

/-- The trimmed flight is within the limits of the controllers and the rotors. -/
structure Loop.CruiseRoom (l : Loop) (ms : Fin 4 → Motor ℝ) (cV cR : Pid ℝ 3) (c w : ℝ) : Prop where
  vel : Unwound cV l.V ![0, 0, c]
  velOut : Unbounded cV ![0, 0, (l.V 2).ki * c]
  rate : Unwound cR l.R 0
  rateOut : Unbounded cR 0
  speed : ∀ j, (ms j).minSpeed < w ∧ w < (ms j).maxSpeed

section
variable {s : Sim ℝ 4} {p : ModelParams ℝ} {ms : Fin 4 → Motor ℝ} {l : Loop} {cV cR : Pid ℝ 3}
  {x : HV → ℝ} {u : Vec 3 ℝ} {c w : ℝ}

/-- No limit is reached near the trimmed flight. -/
lemma Loop.CruiseRoom.near (hr : Loop.CruiseRoom l ms cV cR c w) (h : l.cruise.Trim (c, 0) w) :
    ∃ r > 0, ∀ x, ‖x - l.cruise.rest (c, 0) w‖ < r → Loop.CruiseInside l ms cV cR x := by
  set f := l.cruise with hf
  set z := f.rest (c, 0) w with hz
  have r1 : ∀ i, z (.iV i) = (![0, 0, c] : Vec 3 ℝ) i := fun i => by fin_cases i <;> rfl
  have e4 : ∀ᶠ x in 𝓝 z, Unwound cV l.V fun i => x (.iV i) :=
    hr.vel.near r1 fun i => (Loop.co f (c, 0) w (.iV i)).continuousAt
  have e5 : ∀ᶠ x in 𝓝 z, Unwound cV l.V fun i => f.map x (.iV i) :=
    hr.vel.near (fun i => (Loop.deriv h (.iV i)).1.trans (r1 i)) fun i => (Loop.deriv h (.iV i)).continuousAt
  have e6 : ∀ᶠ x in 𝓝 z, Unbounded cV (f.acc x) :=
    hr.velOut.near (fun i => (Loop.d_acc h i).1.trans (by
      fin_cases i
      · rfl
      · rfl
      · show (l.V 2).ki * c + (l.V 2).kp * (noTuning.ki * 0) = (l.V 2).ki * c
        ring)) fun i => (Loop.d_acc h i).continuousAt
  have e7 : ∀ᶠ x in 𝓝 z, Unwound cR l.R fun i => x (.iR i) :=
    hr.rate.near (fun _ => rfl) fun i => (Loop.co f (c, 0) w (.iR i)).continuousAt
  have e8 : ∀ᶠ x in 𝓝 z, Unwound cR l.R fun i => f.map x (.iR i) :=
    hr.rate.near (fun i => (Loop.deriv h (.iR i)).1) fun i => (Loop.deriv h (.iR i)).continuousAt
  have e9 : ∀ᶠ x in 𝓝 z, Unbounded cR (f.spin x) :=
    hr.rateOut.near (fun i => (Loop.d_spin h i).1) fun i => (Loop.d_spin h i).continuousAt
  have e10 : ∀ᶠ x in 𝓝 z, 0 < f.proj x :=
    (Loop.d_proj h).continuousAt.eventually (lt_mem_nhds (by rw [(Loop.d_proj h).1]; exact h.gravity))
  have e11 : ∀ᶠ x in 𝓝 z, ∀ j, (ms j).minSpeed < f.cmd x j ∧ f.cmd x j < (ms j).maxSpeed := by
    rw [eventually_all]
    intro j
    have hv := (Loop.d_cmd h j).1
    exact ((Loop.d_cmd h j).continuousAt.eventually (lt_mem_nhds (by rw [hv]; exact (hr.speed j).1))).and
      ((Loop.d_cmd h j).continuousAt.eventually (gt_mem_nhds (by rw [hv]; exact (hr.speed j).2)))
  have e12 : ∀ᶠ x in 𝓝 z, ∀ j, (ms j).minSpeed < f.map x (.mot j) ∧ f.map x (.mot j) < (ms j).maxSpeed := by
    rw [eventually_all]
    intro j
    have hv : f.map z (.mot j) = w := (Loop.deriv h (.mot j)).1
    exact ((Loop.deriv h (.mot j)).continuousAt.eventually (lt_mem_nhds (lt_of_lt_of_eq (hr.speed j).1 hv.symm))).and
      ((Loop.deriv h (.mot j)).continuousAt.eventually (gt_mem_nhds (lt_of_eq_of_lt hv (hr.speed j).2)))
  have := ((e4.and (e5.and e6)).and (e7.and e8)).and ((e9.and e10).and (e11.and e12))
  rw [Metric.eventually_nhds_iff] at this
  obtain ⟨r, hr, H⟩ := this
  refine ⟨r, hr, fun x hx => ?_⟩
  obtain ⟨⟨⟨h1, h2, h3⟩, h7, h8⟩, ⟨h9, h10⟩, h11, h12⟩ := H (show dist x z < r by rw [dist_eq_norm]; exact hx)
  exact ⟨h1, h2, h3, h7, h8, h9, h10, h11, h12⟩

/-- The position controller does not take part. -/
lemma cruise_ev (x : HV → ℝ) (i : Fin 3) : l.cruise.ev x i = -x (.vel i) := by
  have : l.cruise.vref x i = 0 := by
    show respond (.id ℝ) noTuning l.dt _ _ _ _ = 0
    simp [respond, noTuning]
  rw [Loop.ev, this, zero_sub]

variable [Noise ℝ]

/-- A cycle in velocity mode in which no limit is reached. -/
lemma Cruises.pushed (h : Cruises s p ms l cV cR x u) (hc : Loop.Craft l p ms)
    (hV : Tuned cV l.V) (hR : Tuned cR l.R) (hJ : ∀ i, l.inertia i ≠ 0) (h0 : 0 < l.dt) (h1 : l.dt ≤ 1 / 100)
    (hi : Loop.CruiseInside l ms cV cR x) (r2 : s.refVel = u) :
    ∃ t, (∀ os v, Sim.Runs t os v → Sim.Runs s (.updateController l.dt :: .updateDynamics l.dt :: os) v) ∧
      Model.Drawn s.dyn.model t.dyn.model (Model.coreOf p ms) l.dt ∧
      (∀ u', Cruises t p ms l cV cR (l.cruiseMap x +
        (l.push t.dyn.model.stochForce (t.dyn.model.stochForce + l.wind x u) + Loop.shift 0 (u - u'))) u') ∧
      (∀ i, t.dyn.state.pos i = s.dyn.state.pos i + l.dt * (u i + x (.vel i))) ∧ t.refVel = s.refVel := by
  have hx0 : ∀ i, x (.pos i) = 0 := fun i => by
    have := h.moves.pos i
    linarith
  have hu := Sim.updateController_armed h.armed l.dt
  have hy : s.yawRef = s.refYaw := by simp [Sim.yawRef, h.yawMode]
  have hcmd : s.command s.refYaw l.dt = s.ctl.velocityControl s.dyn.state.vel s.dyn.state.ori.toMat
      s.dyn.state.angVel s.refVel s.refYaw l.dt := by
    simp only [Sim.command, h.mode]
  obtain ⟨hst, -, e1⟩ := (C53_cascade s.ctl s.dyn.state.ori.toMat s.dyn.state.pos s.dyn.state.vel
    s.dyn.state.angVel 0 s.refVel 0 s.refYaw l.dt).2.1
  have herr : (fun i => s.refVel i ⊟ s.dyn.state.vel i) = l.cruise.ev x := by
    ext i; rw [cruise_ev]; simp [flt, r2, h.moves.vel]
  simp only [herr] at hst e1
  obtain ⟨o4, o5, o6⟩ := hV.control (dt := l.dt) h.velConfig h.velMemory hi.vel hi.vel' hi.velOut
  rw [o4] at hst
  obtain ⟨k0, o8, o9⟩ := Loop.stage (l := l.cruise) (x := x) hR hst h.knowsMass h.knowsGravity h.gain h.knowsInertia
    h.knowsRotors h.rateConfig h.rateMemory h.heading h.moves.ori h.moves.unit h.moves.angVel hi.rate hi.rate' hi.rateOut hi.up
  set v := s.updateController l.dt with hv
  rw [hy, hcmd] at hu
  have hact : v.actuation = l.cruise.cmd x := by rw [hu]; exact k0
  have hmoves : Loop.Moves l.cruise v.dyn.state x s.dyn.state.pos u := by rw [hu]; exact h.moves
  have hc' : Loop.Craft l.cruise p ms := ⟨hc.mass, hc.gravity, hc.drag, hc.aero, hc.inertia, hc.upright, hc.lagging,
    hc.lift, hc.roll, hc.pitch, hc.yaw, hc.wheel⟩
  obtain ⟨d, hupd, d1, d3, d2⟩ := hmoves.pushed hc' hJ h0 h1 (by rw [hu]; exact h.runs) h.rotors
    (by rw [hu]; exact h.floor) (by rw [hu]; exact h.extForce) hact hi.command hi.speed
  refine ⟨_, fun os u hu => .ok rfl (.ok hupd hu), ?_, fun u' => ?_, fun i => ?_, by rw [hu]⟩
  · have : v.dyn = s.dyn := by rw [hu]
    rw [this] at d3
    simp only [d3]
    split
    · exact .inl rfl
    · exact .inr rfl
  · exact {
      runs := d1
      rotors := h.rotors
      armed := by rw [hu]; exact h.armed
      mode := by rw [hu]; exact h.mode
      yawMode := by rw [hu]; exact h.yawMode
      heading := by rw [hu]; exact h.heading
      floor := by rw [hu]; exact h.floor
      extForce := vzero_real
      knowsMass := by rw [hu]; exact h.knowsMass
      knowsGravity := by rw [hu]; exact h.knowsGravity
      gain := by rw [hu]; exact h.gain
      knowsInertia := by rw [hu]; exact h.knowsInertia
      knowsRotors := by rw [hu]; exact h.knowsRotors
      velConfig := by rw [hu]; simp only [e1]; exact o5
      rateConfig := by rw [hu]; exact o8
      moves := by
        have hq : Loop.quat (l.cruiseMap x + (l.push d.model.stochForce (d.model.stochForce + l.wind x u) +
            Loop.shift 0 (u - u'))) =
            Loop.quat (l.cruise.map x + l.cruise.push d.model.stochForce (d.model.stochForce + l.cruise.wind x u)) := by
          simp [Loop.quat, Loop.push, Loop.shift, Loop.cruiseMap, Loop.unplaced]
        refine ⟨fun i => ?_, fun i => ?_, ?_, ?_, fun i => ?_, fun j => ?_⟩
        · simp [Loop.push, Loop.shift, Loop.cruiseMap, Loop.unplaced]
        · rw [d2.vel]
          show u i + (l.cruise.map x (.vel i) + l.dt * ((d.model.stochForce + l.wind x u) i / l.mass)) = u' i +
            (l.cruise.map x (.vel i) + (l.dt * ((d.model.stochForce + l.wind x u) i / l.mass) + (u - u') i))
          rw [Pi.sub_apply]; ring
        · rw [hq]; exact d2.ori
        · rw [hq]; exact d2.unit
        · rw [d2.angVel]; simp [Loop.push, Loop.shift, Loop.cruiseMap, Loop.unplaced, Loop.cruise]
        · rw [d2.motVel]; simp [Loop.push, Loop.shift, Loop.cruiseMap, Loop.unplaced]
      velMemory := by
        simp only [Pi.add_apply, Loop.push, Loop.shift, add_zero, Loop.cruiseMap, Loop.unplaced]
        rw [hu]; simp only [e1]; exact o6 _
      rateMemory := by
        simp only [Pi.add_apply, Loop.push, Loop.shift, add_zero, Loop.cruiseMap, Loop.unplaced]
        rw [hu]; exact o9 _ }
  · rw [d2.pos]
    show s.dyn.state.pos i + l.dt * u i + ((x (.pos i) + l.dt * x (.vel i)) + 0) = _
    rw [hx0]; ring

/-- Calls of a program that requests the velocities `u`, one before every control update, from the `k`-th on. -/
noncomputable def cruiseCalls (dt : ℝ) (u : ℕ → Vec 3 ℝ) : ℕ → ℕ → List (SimOp ℝ 4)
  | _, 0 => []
  | k, n + 1 => .setRefVel (u k) :: .updateController dt :: .updateDynamics dt :: cruiseCalls dt u (k + 1) n

omit [Noise ℝ] in
lemma Cruises.refer (h : Cruises s p ms l cV cR x u) (v : Vec 3 ℝ) : Cruises (s.setRefVel v) p ms l cV cR x u :=
  ⟨⟨h.runs, h.rotors, h.armed, h.mode, h.yawMode, h.heading, h.floor, h.extForce, h.knowsMass, h.knowsGravity, h.gain,
    h.knowsInertia, h.knowsRotors, h.velConfig, h.rateConfig⟩, h.moves, h.velMemory, h.rateMemory⟩

end

end Verif.Props
