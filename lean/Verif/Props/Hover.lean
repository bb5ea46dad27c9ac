import Verif.Props.Alloc
import Verif.Props.YawRate
import Verif.Props.Parked

/-!
# Hover as an equilibrium of the closed loop (C17)
-/

namespace Verif.Props

open Verif Flt Spec

/-- An armed vehicle of mass `p.mass` hovering at its position reference: level, at rest, heading as
referenced, rotors of an X or + quadrotor trimmed for the weight `m g`, controllers that know mass, gravity
and allocation and remember nothing, above the floor, no process noise. -/
structure Hovering (s : Sim ℝ 4) (p : ModelParams ℝ) (ms : Fin 4 → Motor ℝ) (kf g : ℝ) : Prop where
  quad : ∃ kt x y, kt ≠ 0 ∧ x ≠ 0 ∧ y ≠ 0 ∧ IsQuad kf kt x y ms
  coefficient : 0 < kf
  regular : Regular p ms
  mass : 0 < p.mass
  gravity : p.gravity = ![0, 0, -g]
  down : 0 < g
  quiet : p.forceNoise = 0
  knowsMass : s.ctl.acro.mass = p.mass
  knowsGravity : s.ctl.acro.gravity = p.gravity
  knowsRotors : AllocatedFor s.ctl.indi ms
  posPid : s.ctl.pos.Resting ∧ s.ctl.pos.Neutral
  velPid : s.ctl.vel.Resting ∧ s.ctl.vel.Neutral
  ratePid : s.ctl.indi.pid.Resting ∧ s.ctl.indi.pid.Neutral
  armed : s.armed = true
  mode : s.mode = .hover ∨ s.mode = .position
  yawMode : s.yawMode = .angle
  level : Level s.dyn.state.ori
  yaw : s.refYaw = (quatToEuler s.dyn.state.ori).2.2
  pos : s.dyn.state.pos = s.refPos
  vel : s.dyn.state.vel = 0
  angVel : s.dyn.state.angVel = 0
  trim : ∀ i, 0 ≤ s.dyn.state.motVel i ∧ 4 * kf * s.dyn.state.motVel i ^ 2 = p.mass * g
  limits : ∀ i, (ms i).minSpeed ≤ s.dyn.state.motVel i ∧ s.dyn.state.motVel i ≤ (ms i).maxSpeed
  floor : s.floorEnable = false ∨ s.floorHeight ≤ s.dyn.state.pos 2
  extForce : s.extForce = 0

/-- The trim speed is the same for all rotors. -/
lemma Hovering.speed {s : Sim ℝ 4} {p ms kf g} (h : Hovering s p ms kf g) :
    s.dyn.state.motVel = fun _ => √(p.mass * g / (4 * kf)) := by
  ext i
  obtain ⟨h1, h2⟩ := h.trim i
  have hk := h.coefficient
  rw [← h2]
  have : 4 * kf * s.dyn.state.motVel i ^ 2 / (4 * kf) = s.dyn.state.motVel i ^ 2 := by field_simp
  rw [this, Real.sqrt_sq h1]

/-- Thrust and torque of the trimmed rotors. -/
lemma Hovering.wrench {s : Sim ℝ 4} {p ms kf g} (h : Hovering s p ms kf g) :
    ∑ i, rotorForce (ms i) (s.dyn.state.motVel i) = ![0, 0, p.mass * g] ∧
    ∑ i, rotorTorque (ms i) (s.dyn.state.motVel i) 0 = 0 ∧
    (Model.mixer6 ms : Mat 6 4 ℝ).mulVec (squaredKeepSign s.dyn.state.motVel) =
      ![0, 0, p.mass * g, 0, 0, 0] := by
  obtain ⟨kt, x, y, -, -, -, hq⟩ := h.quad
  have hk := h.coefficient
  have hp : 0 ≤ p.mass * g / (4 * kf) := by have := h.mass; have := h.down; positivity
  have hsq : squaredKeepSign s.dyn.state.motVel = fun _ => p.mass * g / (4 * kf) := by
    rw [squaredKeepSign_real, h.speed]
    ext i
    simp only [abs_of_nonneg (Real.sqrt_nonneg _), Real.mul_self_sqrt hp]
  have key : (Model.mixer6 ms : Mat 6 4 ℝ).mulVec (squaredKeepSign s.dyn.state.motVel) =
      ![0, 0, p.mass * g, 0, 0, 0] := by
    rw [hsq, quad_equal hq]
    have : 4 * kf * (p.mass * g / (4 * kf)) = p.mass * g := by field_simp
    rw [this]
  refine ⟨?_, ?_, key⟩
  · ext i
    rw [(wrench_mixer ms _ i).1, key]
    fin_cases i <;> rfl
  · ext i
    rw [(wrench_mixer ms _ i).2, key]
    fin_cases i <;> rfl

/-- The controller commands the trim speeds and still remembers nothing. -/
lemma Hovering.control {s : Sim ℝ 4} {p ms kf g} (h : Hovering s p ms kf g) (dt : ℝ) :
    (s.updateController dt).actuation = s.dyn.state.motVel ∧
    (s.updateController dt).dyn = s.dyn ∧ Hovering (s.updateController dt) p ms kf g := by
  have hu := Sim.updateController_armed h.armed dt
  have hy : s.yawRef = s.refYaw := by simp [Sim.yawRef, h.yawMode]
  have hcmd : s.command s.refYaw dt = s.ctl.positionControl s.dyn.state.pos s.dyn.state.ori.toMat
      s.dyn.state.vel s.dyn.state.angVel s.refPos s.refYaw dt := by
    rcases h.mode with hm | hm <;> simp only [Sim.command, hm]
  obtain ⟨hst, -, -, e1, e2⟩ := (C53_cascade s.ctl s.dyn.state.ori.toMat s.dyn.state.pos s.dyn.state.vel
    s.dyn.state.angVel s.refPos 0 0 s.refYaw dt).1
  have z1 : (fun i => s.refPos i ⊟ s.dyn.state.pos i) = (0 : Vec 3 ℝ) := by
    rw [h.pos]; ext i; simp [flt]
  simp only [z1] at hst e1 e2
  obtain ⟨p0, p1, p2⟩ := Pid.computeControl_rest h.posPid.1 h.posPid.2 dt
  have z2 : (fun i => (s.ctl.pos.computeControl dt 0).2 i ⊟ s.dyn.state.vel i) = (0 : Vec 3 ℝ) := by
    rw [p0, h.vel]; ext i; simp [flt]
  rw [z2] at hst e2
  obtain ⟨v0, v1, v2⟩ := Pid.computeControl_rest h.velPid.1 h.velPid.2 dt
  rw [v0] at hst
  obtain ⟨T, w, hac, hcases⟩ := hst.acro
  have hF : 0 < p.mass * g := mul_pos h.mass h.down
  have hf : (fun i => ((0 : Vec 3 ℝ) i ⊟ s.ctl.acro.gravity i) ⊠ s.ctl.acro.mass) =
      (![0, 0, p.mass * g] : Vec 3 ℝ) := by
    rw [h.knowsGravity, h.knowsMass, h.gravity]
    ext i
    fin_cases i <;> simp [flt]
    ring
  have hz : (fun i => s.dyn.state.ori.toMat i 2) = axis s.dyn.state.ori.toMat 2 := rfl
  simp only [hf, hz] at hcases
  rw [level_toMat h.level, ← h.yaw] at hcases
  have hax : axis (rotZ s.refYaw) 2 = ![0, 0, 1] := by
    ext i; fin_cases i <;> simp [axis, rotZ]
  have hn : Verif.normalized (![0, 0, 1] : Vec 3 ℝ) = ![0, 0, 1] :=
    normalized_of_dot_one (by simp)
  rw [hax, hn, level_command _ _ _ hF, sub_self, Real.sin_zero, zero_smul] at hcases
  have hTw : T = p.mass * g ∧ w = 0 := by
    rcases hcases with ⟨hneg, -, -⟩ | ⟨-, hT, hw⟩
    · simp [flt] at hneg
      exact absurd hneg (not_lt.2 hF.le)
    · exact ⟨by rw [hT]; simp [flt], hw⟩
  obtain ⟨rfl, rfl⟩ := hTw
  have z3 : (fun i => (0 : Vec 3 ℝ) i ⊟ s.dyn.state.angVel i) = (0 : Vec 3 ℝ) := by
    rw [h.angVel]; ext i; simp [flt]
  have hrate := hac.rate
  rw [z3] at hrate
  obtain ⟨r0, r1, r2⟩ := Pid.computeControl_rest h.ratePid.1 h.ratePid.2 dt
  have hmot : (s.ctl.positionControl s.dyn.state.pos s.dyn.state.ori.toMat
      s.dyn.state.vel s.dyn.state.angVel s.refPos s.refYaw dt).2 = s.dyn.state.motVel := by
    obtain ⟨kt, x, y, ht, hx, hy, hq⟩ := h.quad
    rw [hac.motors, h.angVel]
    have herr : Pid.getError (0 : Vec 3 ℝ) 0 = 0 := by ext i; simp [Pid.getError, flt]
    simp only [Indi.acroToMotor, herr, r0]
    have e : (![(![lit 0, lit 0, p.mass * g] : Vec 3 ℝ) 0, (![lit 0, lit 0, p.mass * g] : Vec 3 ℝ) 1,
        (![lit 0, lit 0, p.mass * g] : Vec 3 ℝ) 2, 
        (vadd (mv s.ctl.indi.inertia 0) (cross 0 (mv s.ctl.indi.inertia 0)) : Vec 3 ℝ) 0,
        (vadd (mv s.ctl.indi.inertia 0) (cross 0 (mv s.ctl.indi.inertia 0)) : Vec 3 ℝ) 1,
        (vadd (mv s.ctl.indi.inertia 0) (cross 0 (mv s.ctl.indi.inertia 0)) : Vec 3 ℝ) 2] : Vec 6 ℝ) =
        ![0, 0, p.mass * g, 0, 0, 0] := by
      simp only [flt, Matrix.mulVec_zero, map_zero, add_zero, Pi.zero_apply,
        Matrix.cons_val_zero, Matrix.cons_val_one, Matrix.cons_val]
    rw [e, ← h.wrench.2.2, h.knowsRotors, mv_real, Matrix.mulVec_mulVec,
      (C30_inverse kf kt x y ms hq h.coefficient.ne' ht hx hy).2, Matrix.one_mulVec]
    exact (C31_inverse 0 _).2.1
  rw [hu, hy, hcmd]
  refine ⟨hmot, rfl, ?_⟩
  exact { h with
    knowsMass := h.knowsMass
    knowsGravity := h.knowsGravity
    knowsRotors := h.knowsRotors
    posPid := by simp only [e1]; exact ⟨p1, p2⟩
    velPid := by simp only [e2]; exact ⟨v1, v2⟩
    ratePid := by simp only [hrate]; exact ⟨r1, r2⟩ }

section
variable [Noise ℝ]

/-- One dynamics update of a hovering vehicle whose rotors keep their speed. -/
lemma Hovering.dynamics {s : Sim ℝ 4} {p ms kf g} (h : Hovering s p ms kf g)
    (hco : s.dyn.model.core = some (Model.coreOf p ms)) (hmo : Model.motorFn 4 p.motors = some ms)
    (ha : s.actuation = s.dyn.state.motVel) (dt : ℝ) (h0 : 0 < dt) (h1 : dt ≤ 1 / 100) :
    ∃ d, s.updateDynamics dt = .ok { s with extForce := vzero, dyn := d, floorCollision := false } ∧
      d.model.core = some (Model.coreOf p ms) ∧ d.state.pos = s.dyn.state.pos ∧
      d.state.ori = s.dyn.state.ori ∧ d.state.angVel = 0 ∧ d.state.motVel = s.dyn.state.motVel ∧
      d.state.acc = ![0, 0, (1 - 1 / p.mass) * g] ∧ d.state.vel = dt • d.state.acc := by
  have hlim : ∀ i, (ms i).minSpeed ≤ (ms i).maxSpeed := fun i => (h.limits i).1.trans (h.limits i).2
  have hnb : s.belowFloor = false := by
    rcases h.floor with hf | hf
    · simp [Sim.belowFloor, hf]
    · simp [Sim.belowFloor, flt, not_lt.2 hf]
  have hp : s.dyn.process s.actuation dt s.extForce (!s.floorCollision) =
      .ok (Dyn.eulerStep (Model.coreOf p ms) ms s.dyn s.actuation dt s.extForce (!s.floorCollision)) := by
    rw [Dyn.process_small_real _ _ _ _ h0 h1]
    have hc : Dyn.clampOk ms = true := by simp [Dyn.clampOk, flt, hlim]
    simp [Dyn.singleStep, hco, show (Model.coreOf p ms).params.motors = p.motors from rfl, hmo, hc]
  set d := Dyn.eulerStep (Model.coreOf p ms) ms s.dyn s.actuation dt s.extForce (!s.floorCollision) with hd
  have hcl : ∀ i, clampVal (s.dyn.state.motVel i) (ms i).minSpeed (ms i).maxSpeed = s.dyn.state.motVel i := by
    intro i
    rw [clampVal_real, if_neg (not_lt.2 (h.limits i).1), if_neg (not_lt.2 (h.limits i).2)]
  have hma : d.state.motAcc = 0 := by
    rw [hd, Dyn.es_motAcc, ha]
    funext i
    simp [hcl]
  have hmv : d.state.motVel = s.dyn.state.motVel := by
    rw [hd, Dyn.es_motVel, ← hd, hma]
    funext i
    simp [hcl]
  have hpos : d.state.pos = s.dyn.state.pos := by
    rw [hd, Dyn.es_pos, h.vel]; simp
  have hori : d.state.ori = s.dyn.state.ori := by
    rw [hd, Dyn.es_ori, h.angVel, quatIntegrate_zero h.level.unit]
  have hq := quiet_noise p ms s.dyn dt (!s.floorCollision) (.inr h.quiet) h0
  have hom : d.state.angVel = 0 := by
    have ht : d.state.torque = 0 := by
      rw [hd, Dyn.es_torque, ← hd, hma, Model.motorTorque_coreOf, hq, h.angVel, aeroMoment_real]
      simp only [Pi.zero_apply]
      rw [h.wrench.2.1]
      simp
    rw [hd, Dyn.es_angVel, Dyn.es_angAcc, ← hd, ht, h.angVel]
    simp
  have hacc : d.state.acc = ![0, 0, (1 - 1 / p.mass) * g] := by
    have hm := h.mass.ne'
    have hr : s.dyn.state.ori.rotate ![0, 0, p.mass * g] = ![0, 0, p.mass * g] := by
      rw [Quat.axis_toMat, level_toMat h.level]
      ext i; fin_cases i <;> simp [axis, rotZ]
    have hdrag : Model.dragForce (Model.coreOf p ms).params.drag (0 : Vec 3 ℝ) = 0 := by
      rw [dragForce_real]; ext i; simp
    rw [hd, Dyn.es_acc, Dyn.es_force, Model.thrustVec_coreOf, h.wrench.1, hr, hq, h.extForce, h.vel,
      hdrag, add_zero, add_zero, add_zero]
    simp only [Model.coreOf, h.gravity]
    ext i
    fin_cases i <;> simp
    field_simp
    ring
  have hvel : d.state.vel = dt • d.state.acc := by
    rw [hd, Dyn.es_vel, h.vel, zero_add]
  refine ⟨d, ?_, by rw [hd, Dyn.eulerStep_core]; exact hco, hpos, hori, hom, hmv, hacc, hvel⟩
  rcases Sim.updateDynamics_cases s dt with ⟨hb, -⟩ | ⟨ext, he, hu⟩
  · rw [hnb] at hb; simp at hb
  · have : ext = s.extForce := by
      rcases he with ⟨-, he⟩ | ⟨hb, -⟩
      · exact he
      · rw [hnb] at hb; simp at hb
    subst this
    rw [hu, hp]
    simp only
    rw [if_neg]
    rcases h.floor with hf | hf
    · simp [Sim.belowFloor, hf]
    · simp [Sim.belowFloor, flt, hpos, not_lt.2 hf]

/-- The invariant of a hovering vehicle of unit mass. -/
def HoverInv (s : Sim ℝ 4) (p : ModelParams ℝ) (ms : Fin 4 → Motor ℝ) (kf g : ℝ) : Prop :=
  Hovering s p ms kf g ∧ s.dyn.model.core = some (Model.coreOf p ms) ∧
    Model.motorFn 4 p.motors = some ms ∧ s.actuation = s.dyn.state.motVel

lemma hover_step {s : Sim ℝ 4} {p ms kf g} (h : HoverInv s p ms kf g) (hm : p.mass = 1)
    (o : SimOp ℝ 4) (ho : CycleCall o) :
    ∃ s', s.step o = .ok s' ∧ HoverInv s' p ms kf g ∧ s'.dyn.state.pos = s.dyn.state.pos ∧
      s'.dyn.state.ori = s.dyn.state.ori ∧ s'.dyn.state.motVel = s.dyn.state.motVel := by
  obtain ⟨hh, hco, hmo, ha⟩ := h
  cases o with
  | updateController dt =>
    obtain ⟨c1, c2, c3⟩ := hh.control dt
    exact ⟨_, rfl, ⟨c3, by rw [c2]; exact hco, hmo, by rw [c1, c2]⟩, by rw [c2], by rw [c2], by rw [c2]⟩
  | updateDynamics dt =>
    obtain ⟨d, e, dc, dp, dor, dom, dm, dacc, dv⟩ := hh.dynamics hco hmo ha dt ho.1 ho.2
    have hz : d.state.vel = 0 := by
      rw [dv, dacc, hm]; ext i; fin_cases i <;> simp
    refine ⟨_, e, ⟨?_, dc, hmo, by simp only; rw [dm]; exact ha⟩, dp, dor, dm⟩
    exact { hh with
      level := by simp only; rw [dor]; exact hh.level
      yaw := by simp only; rw [dor]; exact hh.yaw
      pos := by simp only; rw [dp]; exact hh.pos
      vel := hz
      angVel := dom
      trim := by simp only; rw [dm]; exact hh.trim
      limits := by simp only; rw [dm]; exact hh.limits
      floor := by simp only; rw [dp]; exact hh.floor
      extForce := vzero_real }
  | updateImu dt => exact ⟨_, rfl, ⟨{ hh with }, hco, hmo, ha⟩, rfl, rfl, rfl⟩
  | updateOdom dt => exact ⟨_, rfl, ⟨{ hh with }, hco, hmo, ha⟩, rfl, rfl, rfl⟩
  | _ => exact ho.elim

end

/-- Full claim: after a first controller update, any number of update cycles leaves the vehicle exactly
where it is, whatever its mass. -/
def C17_claim : Prop :=
  ∀ (_ : Noise ℝ) (s t : Sim ℝ 4) (p : ModelParams ℝ) (ms : Fin 4 → Motor ℝ) (kf g dt : ℝ)
    (os : List (SimOp ℝ 4)), RunsOn s.dyn p ms → Hovering s p ms kf g → (∀ o ∈ os, CycleCall o) →
    Sim.Runs s (.updateController dt :: os) t →
    t.dyn.state.pos = s.dyn.state.pos ∧ t.dyn.state.ori = s.dyn.state.ori ∧ t.dyn.state.vel = 0

/-- **C17** for unit mass: the calls succeed, and through any number of them position, orientation and
rotor speeds do not change and all velocities stay zero.  Missing: other masses, for which the claim is
false (`C17_drift`, `C17_violated`). -/
theorem C17_hover_partial [Noise ℝ] (s : Sim ℝ 4) (p : ModelParams ℝ) (ms : Fin 4 → Motor ℝ) (kf g dt : ℝ)
    (os : List (SimOp ℝ 4)) (hr : RunsOn s.dyn p ms) (h : Hovering s p ms kf g) (hm : p.mass = 1)
    (ho : ∀ o ∈ os, CycleCall o) :
    (∃ t, Sim.Runs s (.updateController dt :: os) t) ∧
    ∀ t, Sim.Runs s (.updateController dt :: os) t →
      t.dyn.state.pos = s.dyn.state.pos ∧ t.dyn.state.ori = s.dyn.state.ori ∧ t.dyn.state.vel = 0 ∧
      t.dyn.state.angVel = 0 ∧ t.dyn.state.motVel = s.dyn.state.motVel ∧
      t.actuation = s.dyn.state.motVel := by
  obtain ⟨hco, hmo⟩ := runsOn_core hr
  obtain ⟨c1, c2, c3⟩ := h.control dt
  have hinv : HoverInv (s.updateController dt) p ms kf g := ⟨c3, by rw [c2]; exact hco, hmo, by rw [c1, c2]⟩
  have key : ∀ (os : List (SimOp ℝ 4)) (s : Sim ℝ 4), HoverInv s p ms kf g → (∀ o ∈ os, CycleCall o) →
      (∃ t, Sim.Runs s os t) ∧ ∀ t, Sim.Runs s os t → HoverInv t p ms kf g ∧
        t.dyn.state.pos = s.dyn.state.pos ∧ t.dyn.state.ori = s.dyn.state.ori ∧
        t.dyn.state.motVel = s.dyn.state.motVel := by
    intro os
    induction os with
    | nil =>
      intro s hs _
      refine ⟨⟨s, .nil s⟩, fun t ht => ?_⟩
      cases ht
      exact ⟨hs, rfl, rfl, rfl⟩
    | cons o os ih =>
      intro s hs ho
      obtain ⟨s', e, hs', q1, q2, q3⟩ := hover_step hs hm o (ho o List.mem_cons_self)
      obtain ⟨⟨t, ht⟩, i2⟩ := ih s' hs' fun o h => ho o (List.mem_cons_of_mem _ h)
      refine ⟨⟨t, .ok e ht⟩, fun t ht => ?_⟩
      cases ht with
      | ok e' ht' =>
        rw [e, Res.ok.injEq] at e'
        subst e'
        obtain ⟨j0, j1, j2, j3⟩ := i2 t ht'
        exact ⟨j0, j1.trans q1, j2.trans q2, j3.trans q3⟩
      | throw e' _ => rw [e] at e'; simp at e'
  obtain ⟨⟨t, ht⟩, k2⟩ := key os _ hinv ho
  refine ⟨⟨t, .ok rfl ht⟩, fun t ht => ?_⟩
  cases ht with
  | ok e' ht' =>
    simp only [Sim.step, Res.ok.injEq] at e'
    subst e'
    obtain ⟨⟨j0, -, -, ja⟩, j1, j2, j3⟩ := k2 t ht'
    rw [c2] at j1 j2 j3
    exact ⟨j1, j2, j0.vel, j0.angVel, j3, by rw [ja, j3]⟩
  | throw e' _ => simp [Sim.step] at e'

/-- For every mass: the first cycle gives the vertical acceleration `(1 - 1/m) g`, so the vehicle stays at
rest exactly for unit mass. -/
theorem C17_drift [Noise ℝ] (s : Sim ℝ 4) (p : ModelParams ℝ) (ms : Fin 4 → Motor ℝ) (kf g dtc dt : ℝ)
    (hr : RunsOn s.dyn p ms) (h : Hovering s p ms kf g) (h0 : 0 < dt) (h1 : dt ≤ 1 / 100) :
    ∃ t, Sim.Runs s [.updateController dtc, .updateDynamics dt] t ∧
      t.dyn.state.vel = ![0, 0, dt * ((1 - 1 / p.mass) * g)] ∧ (t.dyn.state.vel = 0 ↔ p.mass = 1) := by
  obtain ⟨hco, hmo⟩ := runsOn_core hr
  obtain ⟨c1, c2, c3⟩ := h.control dtc
  obtain ⟨d, e, -, -, -, -, -, dacc, dv⟩ :=
    c3.dynamics (by rw [c2]; exact hco) hmo (by rw [c1, c2]) dt h0 h1
  have hv : d.state.vel = ![0, 0, dt * ((1 - 1 / p.mass) * g)] := by
    rw [dv, dacc]; ext i; fin_cases i <;> simp
  refine ⟨_, .ok rfl (.ok e (.nil _)), hv, ?_⟩
  show d.state.vel = 0 ↔ _
  rw [hv]
  have hm := h.mass.ne'
  constructor
  · intro hz
    have := congrFun hz 2
    simp [h0.ne', h.down.ne'] at this
    field_simp at this
    linarith
  · intro hm; rw [hm]; ext i; fin_cases i <;> simp

/-- The fixture with mass `m` and no process noise. -/
noncomputable def hoverParams (m : ℝ) : ModelParams ℝ :=
  { Fixture.modelParams with mass := m, forceNoise := 0 }

/-- ... hovering, heading a quarter turn to the left. -/
noncomputable def hoverSim [Noise ℝ] (m : ℝ) : Sim ℝ 4 :=
  let q : Quat ℝ := ⟨√2 / 2, 0, 0, √2 / 2⟩
  { Fixture.sim with
    dyn := builtFrom (hoverParams m) Fixture.motors 7
      { Fixture.dyn.state with motVel := fun _ => √(m * 10 / 4), ori := q, pos := ![1, 2, 3] }
    ctl := Ctl.mk' { Fixture.ctlParams with
      acro := ⟨m, 1, ![0, 0, -10]⟩
      indi := ⟨1, Indi.mixerInverse (Model.mixer6 Fixture.motors), PidParams.default⟩ }
    armed := true
    mode := .hover
    floorEnable := true
    refPos := ![1, 2, 3]
    refYaw := (quatToEuler q).2.2 }

lemma hoverSim_runsOn [Noise ℝ] (m : ℝ) (hm : 0 ≤ m) :
    RunsOn (hoverSim m).dyn (hoverParams m) Fixture.motors := by
  refine runsOn_new _ _ _ _ rfl ?_ Fixture.dirOk
  simp [Model.checkParams, hoverParams, Fixture.modelParams, Model.checkMotor, Model.quadX, flt, hm]

lemma hoverSim_hovering [Noise ℝ] (m : ℝ) (hm : 0 < m) (hm' : m ≤ 40) :
    Hovering (hoverSim m) (hoverParams m) Fixture.motors 1 10 where
  quad := ⟨1, 1, 1, one_ne_zero, one_ne_zero, one_ne_zero, 0, 10, 1, 1, .inl rfl⟩
  coefficient := one_pos
  regular := ⟨hm.ne', by simp [hoverParams, Fixture.modelParams], fun i => by
    rw [(Fixture.motors_speed i).2.2]; norm_num⟩
  mass := hm
  gravity := rfl
  down := by norm_num
  quiet := rfl
  knowsMass := rfl
  knowsGravity := rfl
  knowsRotors := rfl
  posPid := ⟨Pid.default_rest, Pid.default_neutral⟩
  velPid := ⟨Pid.default_rest, Pid.default_neutral⟩
  ratePid := ⟨Pid.default_rest, Pid.default_neutral⟩
  armed := rfl
  mode := .inl rfl
  yawMode := rfl
  level := ⟨by
    have : √(2 : ℝ) ^ 2 = 2 := Real.sq_sqrt (by norm_num)
    simp [hoverSim, builtFrom, IsUnitQ, div_pow, this]; norm_num, rfl, rfl⟩
  yaw := rfl
  pos := rfl
  vel := vzero_real
  angVel := vzero_real
  trim := fun i => by
    refine ⟨Real.sqrt_nonneg _, ?_⟩
    show 4 * 1 * √(m * 10 / 4) ^ 2 = m * 10
    rw [Real.sq_sqrt (by positivity)]; ring
  limits := fun i => by
    rw [(Fixture.motors_speed i).1, (Fixture.motors_speed i).2.1]
    exact ⟨Real.sqrt_nonneg _, Real.sqrt_le_iff.2 ⟨by norm_num, by linarith⟩⟩
  floor := .inr (by simp [hoverSim, Fixture.sim, builtFrom, flt])
  extForce := vzero_real

/-- Non-vacuity of `C17_hover_partial`: unit mass, above an enabled floor. -/
example [Noise ℝ] : RunsOn (hoverSim 1).dyn (hoverParams 1) Fixture.motors ∧
    Hovering (hoverSim 1) (hoverParams 1) Fixture.motors 1 10 ∧ (hoverParams 1).mass = 1 :=
  ⟨hoverSim_runsOn 1 (by norm_num), hoverSim_hovering 1 (by norm_num) (by norm_num), rfl⟩

/-- A vehicle of mass two climbs away. -/
theorem C17_violated : ¬ C17_claim := by
  intro h
  let N : Noise ℝ := ⟨fun _ _ _ => 0⟩
  have hr := hoverSim_runsOn 2 (by norm_num)
  have hh := hoverSim_hovering 2 (by norm_num) (by norm_num)
  obtain ⟨t, ht, -, hv⟩ := C17_drift (hoverSim 2) _ _ 1 10 (1 / 100) (1 / 100) hr hh (by norm_num) le_rfl
  have := (h N (hoverSim 2) t _ _ 1 10 (1 / 100) [.updateDynamics (1 / 100)] hr hh
    (by simp [CycleCall]) ht).2.2
  have hm : (hoverParams 2).mass = 1 := hv.1 this
  norm_num [hoverParams] at hm

end Verif.Props
