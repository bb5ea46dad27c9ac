import Verif.Props.HoverHold
import Verif.Lemmas.TrackMode

/-!
# A control cycle along a trajectory

Definitions for C142 and the reduction of a cycle to the numbers that describe the vehicle relative to the point that it is to
be at.
-/

namespace Verif.Props

open Verif Flt Spec Stability

lemma Pid.computeControlD_fields (q : Pid ℝ 3) (dt : ℝ) (e de : Vec 3 ℝ) :
    (q.computeControlD dt e de).1.firstRun = false ∧
    (q.computeControlD dt e de).1.integral = (q.firstRunInit e).accumulate dt e ∧
    (q.computeControlD dt e de).2 =
      let out := vadd (vadd (mv q.kpMat e) (mv q.kiMat ((q.firstRunInit e).accumulate dt e))) (mv q.kdMat de)
      if q.satFlag then Pid.saturateOutput out q.upper q.lower q.propSat else out := by
  cases hr : q.firstRun
  · refine ⟨?_, ?_, ?_⟩ <;> simp [Pid.computeControlD, Pid.firstRunInit, hr, Pid.computeIntegral, Pid.finishOutput,
      Pid.computeDerivative, Pid.accumulate]
  · refine ⟨?_, ?_, ?_⟩ <;> simp [Pid.computeControlD, Pid.firstRunInit, hr, Pid.computeIntegral, Pid.finishOutput,
      Pid.computeDerivative, Pid.accumulate]

/-- A call with the derivative of the error given, in which no limit is reached. -/
lemma Tuned.controlD {q b : Pid ℝ 3} {k : Fin 3 → PidTuning} {e de I : Vec 3 ℝ} {dt : ℝ} (h : Tuned b k)
    (hc : q.SameConfig b) (hm : ∀ i, I i = if (k i).ki = 0 then 0 else if q.firstRun then 0 else q.integral i)
    (hI : Unwound b k I) (hJ : Unwound b k fun i => nextInt (.id ℝ) (k i) dt (I i) (e i))
    (ho : Unbounded b fun i => (k i).kp * e i + (k i).ki * nextInt (.id ℝ) (k i) dt (I i) (e i) + (k i).kd * de i) :
    (q.computeControlD dt e de).2 =
      (fun i => (k i).kp * e i + (k i).ki * nextInt (.id ℝ) (k i) dt (I i) (e i) + (k i).kd * de i) ∧
    (q.computeControlD dt e de).1.SameConfig b ∧
    ∀ i, nextInt (.id ℝ) (k i) dt (I i) (e i) = if (k i).ki = 0 then 0 else
      if (q.computeControlD dt e de).1.firstRun then 0 else (q.computeControlD dt e de).1.integral i := by
  obtain ⟨c1, c2, c3, c4, c5, c6, c7, c8, c9, c10⟩ := hc
  obtain ⟨f0, f1, f2⟩ := Pid.computeControlD_fields q dt e de
  have hc' := Pid.computeControlD_config q dt e de
  set p0 := q.firstRunInit e with hp0
  have m1 : ∀ i, (k i).ki ≠ 0 → p0.integral i = I i := fun i hi => by
    rw [hm i, if_neg hi, hp0]
    cases hr : q.firstRun <;> simp [Pid.firstRunInit, hr, flt]
  have m4 : p0.antiwindup = b.antiwindup := (Pid.firstRunInit_config _ _ : p0.antiwindup = q.antiwindup).trans c4
  have m5 : p0.resetIntegral = b.resetIntegral := by
    rw [← c6, hp0]
    cases hr : q.firstRun <;> simp [Pid.firstRunInit, hr]
  have hacc := accumulate_inside m1 m4 m5 hI hJ
  have hsum : vadd (vadd (mv q.kpMat e) (mv q.kiMat (p0.accumulate dt e))) (mv q.kdMat de) =
      fun i => (k i).kp * e i + (k i).ki * nextInt (.id ℝ) (k i) dt (I i) (e i) + (k i).kd * de i := by
    rw [c1, c2, c3, h.kp, h.ki, h.kd]
    ext i
    simp only [flt, Matrix.mulVec_diagonal, Pi.add_apply]
    congr 2
    by_cases hi : (k i).ki = 0
    · rw [hi]; simp
    · rw [hacc i hi]
  refine ⟨?_, ?_, fun i => ?_⟩
  · simp only [hsum] at f2
    rw [f2, c7, c9, c10]
    split
    · rename_i hs
      exact saturateOutput_inside _ fun i => ⟨(ho hs i).1.le, (ho hs i).2.le⟩
    · rfl
  · unfold Pid.SameConfig at hc' ⊢
    simp only [hc', c1, c2, c3, c4, c5, c6, c7, c8, c9, c10, and_self]
  · by_cases hi : (k i).ki = 0
    · simp [nextInt, hi]
    · rw [if_neg hi, f0, f1, hacc i hi]; simp

/-- An armed vehicle in trajectory mode; its controllers have the configurations `cT`, `cR` and know the vehicle. -/
structure InFollow (s : Sim ℝ 4) (p : ModelParams ℝ) (ms : Fin 4 → Motor ℝ) (l : Loop) (cT cR : Pid ℝ 3) : Prop where
  runs : s.dyn.model.core = some (Model.coreOf p ms)
  rotors : Model.motorFn 4 p.motors = some ms
  armed : s.armed = true
  mode : s.mode = .trajectory
  yawMode : s.yawMode = .angle
  heading : Real.cos s.refYaw = Real.cos l.psi ∧ Real.sin s.refYaw = Real.sin l.psi
  floor : s.floorEnable = false
  extForce : s.extForce = 0
  knowsMass : s.ctl.acro.mass = l.mass
  knowsGravity : s.ctl.acro.gravity = ![0, 0, -l.g]
  gain : s.ctl.acro.kpRot = Matrix.diagonal l.kr
  knowsInertia : s.ctl.indi.inertia = Matrix.diagonal l.inertia
  knowsRotors : ∀ j r, s.ctl.indi.mixerInv j (Fin.natAdd 2 r) = l.alloc j r
  trajConfig : s.ctl.traj.SameConfig cT
  rateConfig : s.ctl.indi.pid.SameConfig cR

/-- A vehicle in trajectory mode whose motion relative to a point `a` with velocity `u` and whose controllers' memory are given
by the numbers `x`. -/
structure Follows (s : Sim ℝ 4) (p : ModelParams ℝ) (ms : Fin 4 → Motor ℝ) (l : Loop) (T : Fin 3 → PidTuning)
    (cT cR : Pid ℝ 3) (x : HV → ℝ) (a u : Vec 3 ℝ) : Prop extends InFollow s p ms l cT cR where
  moves : Loop.Moves (l.follow T) s.dyn.state x a u
  trajMemory : ∀ i, x (.iP i) = if (T i).ki = 0 then 0 else if s.ctl.traj.firstRun then 0 else s.ctl.traj.integral i
  rateMemory : Held s.ctl.indi.pid l.R ((l.follow T).er x) (fun i => x (.iR i)) (fun i => x (.fR i)) fun i => x (.eR i)

/-- No limit is reached in the cycle; the reference acceleration `e` is added to the output of the controller. -/
structure Loop.FollowInside (l : Loop) (T : Fin 3 → PidTuning) (ms : Fin 4 → Motor ℝ) (cT cR : Pid ℝ 3) (e : Vec 3 ℝ)
    (x : HV → ℝ) : Prop where
  traj : Unwound cT T fun i => x (.iP i)
  traj' : Unwound cT T fun i => (l.follow T).map x (.iP i)
  trajOut : Unbounded cT fun i => (l.follow T).acc x i - e i
  rate : Unwound cR l.R fun i => x (.iR i)
  rate' : Unwound cR l.R fun i => (l.follow T).map x (.iR i)
  rateOut : Unbounded cR ((l.follow T).spin x)
  up : 0 < (l.follow T).proj x
  command : ∀ j, (ms j).minSpeed < (l.follow T).cmd x j ∧ (l.follow T).cmd x j < (ms j).maxSpeed
  speed : ∀ j, (ms j).minSpeed < (l.follow T).map x (.mot j) ∧ (l.follow T).map x (.mot j) < (ms j).maxSpeed

variable {s : Sim ℝ 4} {p : ModelParams ℝ} {ms : Fin 4 → Motor ℝ} {l : Loop} {T : Fin 3 → PidTuning} {cT cR : Pid ℝ 3}
  {x : HV → ℝ} {a u : Vec 3 ℝ}

lemma follow_nextInt (hk : ∀ i, (T i).kd ≠ 0) (x : HV → ℝ) (i : Fin 3) :
    (l.follow T).map x (.iP i) = nextInt (.id ℝ) (T i) l.dt (x (.iP i)) (-x (.pos i)) := by
  show nextInt (.id ℝ) (outerOf (T i)) l.dt (x (.iP i)) (0 - x (.pos i)) = _
  simp only [nextInt, outerOf_ki (hk i), zero_sub]

lemma follow_acc (hk : ∀ i, (T i).kd ≠ 0) (x : HV → ℝ) (i : Fin 3) :
    (l.follow T).acc x i = (T i).kp * -x (.pos i) + (T i).ki * nextInt (.id ℝ) (T i) l.dt (x (.iP i)) (-x (.pos i)) +
      (T i).kd * -x (.vel i) := by
  have hi := hk i
  have e := follow_nextInt (l := l) hk x i
  have hv : (l.follow T).vref x i = (T i).kp / (T i).kd * -x (.pos i) + (T i).ki / (T i).kd *
      nextInt (.id ℝ) (T i) l.dt (x (.iP i)) (-x (.pos i)) := by
    rw [← e]
    show respond (.id ℝ) (outerOf (T i)) l.dt _ _ _ (0 - x (.pos i)) = _
    simp [respond, outerOf, Loop.map, Loop.follow, Loop.ep]
  show respond (.id ℝ) (innerOf (T i)) l.dt _ _ _ ((l.follow T).vref x i - x (.vel i)) = _
  rw [hv]
  simp only [respond, innerOf, RingHom.id_apply, zero_mul, add_zero]
  field_simp
  ring

section
variable [Noise ℝ]

/-- Change of the coordinates when the reference jumps. -/
def Loop.shift (a u : Vec 3 ℝ) : HV → ℝ
  | .pos i => a i
  | .vel i => u i
  | _ => 0

omit [Noise ℝ] in
lemma Loop.shift_zero : Loop.shift 0 0 = 0 := by
  ext k
  cases k <;> simp [Loop.shift]

/-- A cycle along a trajectory in which no limit is reached. A reference acceleration acts like a reference velocity that
is larger by the acceleration over the derivative gain. -/
lemma Follows.pushed (h : Follows s p ms l T cT cR x a u) (hk : ∀ i, (T i).kd ≠ 0) (hc : Loop.Craft l p ms)
    (hT : Tuned cT T) (hR : Tuned cR l.R) (hJ : ∀ i, l.inertia i ≠ 0) (h0 : 0 < l.dt) (h1 : l.dt ≤ 1 / 100)
    (hi : Loop.FollowInside l T ms cT cR s.refAcc x) (r1 : s.refPos = a)
    (r2 : ∀ i, u i = s.refVel i + s.refAcc i / (T i).kd) :
    ∃ t, (∀ os v, Sim.Runs t os v → Sim.Runs s (.updateController l.dt :: .updateDynamics l.dt :: os) v) ∧
      Model.Drawn s.dyn.model t.dyn.model (Model.coreOf p ms) l.dt ∧
      (∀ a' u', Follows t p ms l T cT cR ((l.follow T).map x +
        (l.push t.dyn.model.stochForce (t.dyn.model.stochForce + l.wind x u) + Loop.shift (a + l.dt • u - a') (u - u'))) a' u') ∧
      t.refPos = s.refPos ∧ t.refVel = s.refVel ∧ t.refAcc = s.refAcc := by
  have hu := Sim.updateController_armed h.armed l.dt
  have hy : s.yawRef = s.refYaw := by simp [Sim.yawRef, h.yawMode]
  have hcmd : s.command s.refYaw l.dt = s.ctl.trajectoryControl s.dyn.state.pos s.dyn.state.vel s.dyn.state.ori.toMat
      s.dyn.state.angVel s.refPos s.refVel s.refAcc s.refYaw l.dt := by
    simp only [Sim.command, h.mode]
  obtain ⟨hst, -, -, e1⟩ := (C53_cascade s.ctl s.dyn.state.ori.toMat s.dyn.state.pos s.dyn.state.vel
    s.dyn.state.angVel s.refPos s.refVel s.refAcc s.refYaw l.dt).2.2.1
  set de : Vec 3 ℝ := fun i => -x (.vel i) - s.refAcc i / (T i).kd with hde
  have herr : (fun i => s.refPos i ⊟ s.dyn.state.pos i) = fun i => -x (.pos i) := by
    ext i; simp [flt, r1, h.moves.pos]
  have herr2 : (fun i => s.refVel i ⊟ s.dyn.state.vel i) = de := by
    ext i; simp [flt, h.moves.vel, hde, r2]; ring
  have hout : (fun i => (T i).kp * -x (.pos i) + (T i).ki * nextInt (.id ℝ) (T i) l.dt (x (.iP i)) (-x (.pos i)) +
      (T i).kd * de i) = fun i => (l.follow T).acc x i - s.refAcc i := by
    ext i
    have := hk i
    rw [follow_acc hk, hde]
    field_simp
    ring
  simp only [herr, herr2] at hst e1
  obtain ⟨o1, o2, o3⟩ := hT.controlD (de := de) h.trajConfig h.trajMemory hi.traj
    (by simpa only [follow_nextInt hk] using hi.traj') (by rw [hout]; exact hi.trajOut)
  have hadd : (fun i => (s.ctl.traj.computeControlD l.dt (fun i => -x (.pos i)) de).2 i ⊞ s.refAcc i) =
      (l.follow T).acc x := by
    rw [o1, hout]
    ext i
    simp [flt]
  rw [hadd] at hst
  obtain ⟨k0, o8, o9⟩ := Loop.stage (l := l.follow T) (x := x) hR hst h.knowsMass h.knowsGravity h.gain h.knowsInertia
    h.knowsRotors h.rateConfig h.rateMemory h.heading h.moves.ori h.moves.unit h.moves.angVel hi.rate hi.rate' hi.rateOut hi.up
  set v := s.updateController l.dt with hv
  rw [hy, hcmd] at hu
  have hact : v.actuation = (l.follow T).cmd x := by rw [hu]; exact k0
  have hmoves : Loop.Moves (l.follow T) v.dyn.state x a u := by rw [hu]; exact h.moves
  have hc' : Loop.Craft (l.follow T) p ms := ⟨hc.mass, hc.gravity, hc.drag, hc.aero, hc.inertia, hc.upright, hc.lagging,
    hc.lift, hc.roll, hc.pitch, hc.yaw, hc.wheel⟩
  obtain ⟨d, hupd, d1, d3, d2⟩ := hmoves.pushed hc' hJ h0 h1 (by rw [hu]; exact h.runs) h.rotors
    (by rw [hu]; exact h.floor) (by rw [hu]; exact h.extForce) hact hi.command hi.speed
  refine ⟨_, fun os u hu => .ok rfl (.ok hupd hu), ?_, fun a' u' => ?_, by rw [hu], by rw [hu], by rw [hu]⟩
  · have : v.dyn = s.dyn := by rw [hu]
    rw [this] at d3
    simp only [d3]
    split
    · exact .inl rfl
    · exact .inr rfl
  exact {
    runs := d1
    rotors := h.rotors
    armed := by rw [hu]; exact h.armed
    mode := by rw [hu]; exact h.mode
    yawMode := by rw [hu]; exact h.yawMode
    heading := by rw [hu]; exact h.heading
    floor := by rw [hu]; exact h.floor
    extForce := vzero_real
    knowsMass := by rw [hu]; exact h.knowsMass
    knowsGravity := by rw [hu]; exact h.knowsGravity
    gain := by rw [hu]; exact h.gain
    knowsInertia := by rw [hu]; exact h.knowsInertia
    knowsRotors := by rw [hu]; exact h.knowsRotors
    trajConfig := by rw [hu]; simp only [e1]; exact o2
    rateConfig := by rw [hu]; exact o8
    moves := by
      have hq : Loop.quat ((l.follow T).map x + (l.push d.model.stochForce (d.model.stochForce + l.wind x u) +
          Loop.shift (a + l.dt • u - a') (u - u'))) =
          Loop.quat ((l.follow T).map x + (l.follow T).push d.model.stochForce (d.model.stochForce + (l.follow T).wind x u)) := by
        simp [Loop.quat, Loop.push, Loop.shift]
      refine ⟨fun i => ?_, fun i => ?_, ?_, ?_, fun i => ?_, fun j => ?_⟩
      · rw [d2.pos]; simp [Loop.push, Loop.shift, Loop.follow]; ring
      · rw [d2.vel]
        show u i + ((l.follow T).map x (.vel i) + l.dt * ((d.model.stochForce + l.wind x u) i / l.mass)) = u' i +
          ((l.follow T).map x (.vel i) + (l.dt * ((d.model.stochForce + l.wind x u) i / l.mass) + (u - u') i))
        rw [Pi.sub_apply]; ring
      · rw [hq]; exact d2.ori
      · rw [hq]; exact d2.unit
      · rw [d2.angVel]; simp [Loop.push, Loop.shift, Loop.follow]
      · rw [d2.motVel]; simp [Loop.push, Loop.shift]
    trajMemory := fun i => by
      simp only [Pi.add_apply, Loop.push, Loop.shift, add_zero]
      rw [hu, follow_nextInt hk]; simp only [e1]; exact o3 i
    rateMemory := by
      simp only [Pi.add_apply, Loop.push, Loop.shift, add_zero]
      rw [hu]; exact o9 _ }

/-- A cycle along a trajectory in which no limit is reached, without noise and without a reference acceleration; a moving
reference needs air without drag. -/
lemma Follows.cycle (h : Follows s p ms l T cT cR x a u) (hk : ∀ i, (T i).kd ≠ 0) (hc : Loop.Is l p ms) (hT : Tuned cT T)
    (hR : Tuned cR l.R) (hJ : ∀ i, l.inertia i ≠ 0) (h0 : 0 < l.dt) (h1 : l.dt ≤ 1 / 100)
    (hdr : l.drag = 0 ∨ u = 0) (hi : Loop.FollowInside l T ms cT cR 0 x) (r1 : s.refPos = a) (r2 : s.refVel = u)
    (r3 : s.refAcc = 0) :
    ∃ t, (∀ os v, Sim.Runs t os v → Sim.Runs s (.updateController l.dt :: .updateDynamics l.dt :: os) v) ∧
      Follows t p ms l T cT cR ((l.follow T).map x) (a + l.dt • u) u ∧
      t.refPos = s.refPos ∧ t.refVel = s.refVel ∧ t.refAcc = s.refAcc := by
  obtain ⟨t, t1, t2, t3, t4⟩ := h.pushed hk hc.toCraft hT hR hJ h0 h1 (by rw [r3]; exact hi) r1 (by simp [r2, r3])
  have hw : l.wind x u = 0 := by
    ext i
    rcases hdr with hz | rfl <;> simp [Loop.wind, *]
  have := t3 (a + l.dt • u) u
  rw [t2.quiet hc.quiet, hw, add_zero, Loop.push_zero, sub_self, sub_self, Loop.shift_zero, add_zero, add_zero] at this
  exact ⟨t, t1, this, t4⟩

/-- Calls of a program that follows a point which starts at `a` and moves with velocity `u`. -/
noncomputable def followCalls (dt : ℝ) (u : Vec 3 ℝ) : ℕ → Vec 3 ℝ → List (SimOp ℝ 4)
  | 0, _ => []
  | n + 1, a => .setRefTrajectory a u 0 :: .updateController dt :: .updateDynamics dt :: followCalls dt u n (a + dt • u)

omit [Noise ℝ] in
lemma Follows.refer (h : Follows s p ms l T cT cR x a u) (b v e : Vec 3 ℝ) :
    Follows (s.setRefTrajectory b v e) p ms l T cT cR x a u :=
  ⟨⟨h.runs, h.rotors, h.armed, h.mode, h.yawMode, h.heading, h.floor, h.extForce, h.knowsMass, h.knowsGravity, h.gain,
    h.knowsInertia, h.knowsRotors, h.trajConfig, h.rateConfig⟩, h.moves, h.trajMemory, h.rateMemory⟩

/-- Cycles in which no limit is reached. -/
lemma Follows.flight (h : Follows s p ms l T cT cR x a u) (hk : ∀ i, (T i).kd ≠ 0) (hc : Loop.Is l p ms) (hT : Tuned cT T)
    (hR : Tuned cR l.R) (hJ : ∀ i, l.inertia i ≠ 0) (h0 : 0 < l.dt) (h1 : l.dt ≤ 1 / 100)
    (hdr : l.drag = 0 ∨ u = 0) (n : ℕ) (hi : ∀ j < n, Loop.FollowInside l T ms cT cR 0 ((l.follow T).map^[j] x)) :
    ∃ t, Sim.Runs s (followCalls l.dt u n a) t ∧ Follows t p ms l T cT cR ((l.follow T).map^[n] x) (a + (n * l.dt) • u) u := by
  induction n generalizing s x a with
  | zero => exact ⟨s, .nil s, by simpa using h⟩
  | succ n ih =>
    obtain ⟨t, t1, t2, -⟩ := (h.refer a u 0).cycle hk hc hT hR hJ h0 h1 hdr (hi 0 (by simp)) rfl rfl rfl
    obtain ⟨v, v1, v2⟩ := ih t2 (fun j hj => by
      have := hi (j + 1) (by simpa using hj)
      rwa [Function.iterate_succ_apply] at this)
    refine ⟨v, .ok rfl (t1 _ _ v1), ?_⟩
    rw [Function.iterate_succ_apply]
    have e : a + ((n + 1 : ℕ) * l.dt) • u = a + l.dt • u + (n * l.dt) • u := by
      push_cast; module
    rw [e]
    exact v2

/-- Cycles with a fixed reference in which no limit is reached. -/
lemma Follows.stay (h : Follows s p ms l T cT cR x a 0) (hk : ∀ i, (T i).kd ≠ 0) (hc : Loop.Is l p ms) (hT : Tuned cT T)
    (hR : Tuned cR l.R) (hJ : ∀ i, l.inertia i ≠ 0) (h0 : 0 < l.dt) (h1 : l.dt ≤ 1 / 100)
    (r1 : s.refPos = a) (r2 : s.refVel = 0) (r3 : s.refAcc = 0) (n : ℕ)
    (hi : ∀ j < n, Loop.FollowInside l T ms cT cR 0 ((l.follow T).map^[j] x)) :
    ∃ t, Sim.Runs s (cycles l.dt (List.replicate n l.dt)) t ∧ Follows t p ms l T cT cR ((l.follow T).map^[n] x) a 0 := by
  induction n generalizing s x with
  | zero => exact ⟨s, .nil s, h⟩
  | succ n ih =>
    obtain ⟨t, t1, t2, q1, q2, q3⟩ := h.cycle hk hc hT hR hJ h0 h1 (.inr rfl) (hi 0 (by simp)) r1 r2 r3
    rw [smul_zero, add_zero] at t2
    obtain ⟨v, v1, v2⟩ := ih t2 (q1.trans r1) (q2.trans r2) (q3.trans r3) (fun j hj => by
      have := hi (j + 1) (by simpa using hj)
      rwa [Function.iterate_succ_apply] at this)
    exact ⟨v, t1 _ _ v1, by rwa [Function.iterate_succ_apply]⟩

end

end Verif.Props
