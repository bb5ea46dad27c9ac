import Verif.Props.Hover

/-!
# Vertical flight of a quadrotor under proportional control

Definitions for C129 and the reduction of a control cycle to vertical speed and rotor speed.
-/

namespace Verif.Props

open Verif Flt Spec

/-- Numbers of a quadrotor that matter for vertical flight: thrust coefficient, time constant and speed
limits of the rotors, gravity. -/
structure Craft where
  kf : ℝ
  tau : ℝ
  lo : ℝ
  hi : ℝ
  g : ℝ

/-- An accepted X or + quadrotor with these numbers, without process noise. -/
structure Craft.Is (c : Craft) (p : ModelParams ℝ) (ms : Fin 4 → Motor ℝ) : Prop where
  frame : ∃ kt x y J, kt ≠ 0 ∧ x ≠ 0 ∧ y ≠ 0 ∧ (Model.quadX c.kf kt x y c.lo c.hi c.tau J = List.ofFn ms ∨
    Model.quadPlus c.kf kt x y c.lo c.hi c.tau J = List.ofFn ms)
  coefficient : 0 < c.kf
  lag : 0 < c.tau
  mass : 0 < p.mass
  gravity : p.gravity = ![0, 0, -c.g]
  quiet : p.forceNoise = 0

/-- A PID that is a proportional controller with gains `k`, without limits. -/
structure Proportional (p : Pid ℝ 3) (k : Vec 3 ℝ) : Prop where
  kp : p.kpMat = Matrix.diagonal k
  ki : p.kiMat = 0
  kd : p.kdMat = 0
  unlimited : p.satFlag = false

/-- An armed quadrotor moving vertically: level, heading as referenced, not rotating, all rotors equally
fast, away from floors, with controllers that know the vehicle and whose rate loop remembers nothing. -/
structure Vertical (s : Sim ℝ 4) (p : ModelParams ℝ) (ms : Fin 4 → Motor ℝ) (c : Craft) : Prop where
  runs : s.dyn.model.core = some (Model.coreOf p ms)
  rotors : Model.motorFn 4 p.motors = some ms
  knowsMass : s.ctl.acro.mass = p.mass
  knowsGravity : s.ctl.acro.gravity = p.gravity
  knowsRotors : AllocatedFor s.ctl.indi ms
  ratePid : s.ctl.indi.pid.Resting ∧ s.ctl.indi.pid.Neutral
  armed : s.armed = true
  yawMode : s.yawMode = .angle
  level : Level s.dyn.state.ori
  yaw : s.refYaw = (quatToEuler s.dyn.state.ori).2.2
  upright : s.dyn.state.vel 0 = 0 ∧ s.dyn.state.vel 1 = 0
  angVel : s.dyn.state.angVel = 0
  same : ∀ i, s.dyn.state.motVel i = s.dyn.state.motVel 0
  floor : s.floorEnable = false
  extForce : s.extForce = 0

lemma Craft.Is.isQuad {c : Craft} {p ms} (h : c.Is p ms) :
    ∃ kt x y, kt ≠ 0 ∧ x ≠ 0 ∧ y ≠ 0 ∧ IsQuad c.kf kt x y ms := by
  obtain ⟨kt, x, y, J, a, b, d, e⟩ := h.frame
  exact ⟨kt, x, y, a, b, d, c.lo, c.hi, c.tau, J, e⟩

lemma Craft.Is.motor {c : Craft} {p ms} (h : c.Is p ms) (i : Fin 4) :
    (ms i).minSpeed = c.lo ∧ (ms i).maxSpeed = c.hi ∧ (ms i).tau = c.tau := by
  obtain ⟨kt, x, y, J, -, -, -, e | e⟩ := h.frame
  · rw [quadX_fn _ _ _ _ _ _ _ _ _ e]; fin_cases i <;> simp
  · rw [quadPlus_fn _ _ _ _ _ _ _ _ _ e]; fin_cases i <;> simp

/-- Equal rotor speeds and accelerations: pure thrust. -/
lemma Craft.Is.wrench {c : Craft} {p ms} (h : c.Is p ms) (w wd : ℝ) :
    ∑ i, rotorForce (ms i) w = ![0, 0, 4 * c.kf * (w * |w|)] ∧ ∑ i, rotorTorque (ms i) w wd = 0 := by
  obtain ⟨kt, x, y, J, -, -, -, e | e⟩ := h.frame
  · rw [quadX_fn _ _ _ _ _ _ _ _ _ e]
    constructor <;> ext r <;> fin_cases r <;>
      simp [Fin.sum_univ_four, rotorForce, rotorTorque, cross_apply] <;> ring
  · rw [quadPlus_fn _ _ _ _ _ _ _ _ _ e]
    constructor <;> ext r <;> fin_cases r <;>
      simp [Fin.sum_univ_four, rotorForce, rotorTorque, cross_apply] <;> ring

lemma Proportional.control {p : Pid ℝ 3} {k : Vec 3 ℝ} (h : Proportional p k) (dt : ℝ) (e : Vec 3 ℝ) :
    (p.computeControl dt e).2 = (fun i => k i * e i) ∧ Proportional (p.computeControl dt e).1 k := by
  obtain ⟨-, -, -, -, f4, f5, f6⟩ := Pid.computeControl_fields p dt e
  have hc := Pid.computeControl_config p dt e
  have ho := Pid.computeControl_output p dt e
  constructor
  · rw [Pid.computeControl_snd, ho, f4, f5, f6, h.unlimited, h.kp, h.ki, h.kd]
    ext i
    simp [flt, Matrix.mulVec_diagonal]
  · unfold Pid.SameConfig at hc
    exact ⟨by rw [← h.kp]; simp only [hc], by rw [← h.ki]; simp only [hc], by rw [← h.kd]; simp only [hc],
      by rw [← h.unlimited]; simp only [hc]⟩

/-- Rotor speed that balances a vehicle demanded to accelerate upwards by `a`. -/
noncomputable def Craft.speedFor (c : Craft) (m a : ℝ) : ℝ := √(m * (c.g + a) / (4 * c.kf))

/-- A demanded vertical acceleration of more than free fall commands equal speeds on all rotors. -/
lemma Vertical.stage {s : Sim ℝ 4} {p ms c} (h : Vertical s p ms c) (hc : c.Is p ms) {r : Ctl ℝ 4 × Vec 4 ℝ}
    {a dt : ℝ} (ha : 0 < c.g + a)
    (hst : AccelerationStage s.ctl r.1 s.dyn.state.ori.toMat s.dyn.state.angVel ![0, 0, a] s.refYaw dt r.2) :
    r.2 = (fun _ => c.speedFor p.mass a) ∧ r.1.indi.pid.Resting ∧ r.1.indi.pid.Neutral := by
  obtain ⟨T, w, hac, hcases⟩ := hst.acro
  have hF : 0 < p.mass * (c.g + a) := mul_pos hc.mass ha
  have hf : (fun i => ((![0, 0, a] : Vec 3 ℝ) i ⊟ s.ctl.acro.gravity i) ⊠ s.ctl.acro.mass) =
      (![0, 0, p.mass * (c.g + a)] : Vec 3 ℝ) := by
    rw [h.knowsGravity, h.knowsMass, hc.gravity]
    ext i
    fin_cases i <;> simp [flt]
    ring
  have hz : (fun i => s.dyn.state.ori.toMat i 2) = axis s.dyn.state.ori.toMat 2 := rfl
  simp only [hf, hz] at hcases
  rw [level_toMat h.level, ← h.yaw] at hcases
  have hax : axis (rotZ s.refYaw) 2 = ![0, 0, 1] := by
    ext i; fin_cases i <;> simp [axis, rotZ]
  have hn : Verif.normalized (![0, 0, 1] : Vec 3 ℝ) = ![0, 0, 1] :=
    normalized_of_dot_one (by simp)
  rw [hax, hn, level_command _ _ _ hF, sub_self, Real.sin_zero, zero_smul] at hcases
  have hTw : T = p.mass * (c.g + a) ∧ w = 0 := by
    rcases hcases with ⟨hneg, -, -⟩ | ⟨-, hT, hw⟩
    · simp [flt] at hneg
      exact absurd hneg (not_lt.2 hF.le)
    · exact ⟨by rw [hT]; simp [flt], hw⟩
  obtain ⟨rfl, rfl⟩ := hTw
  have z3 : (fun i => (0 : Vec 3 ℝ) i ⊟ s.dyn.state.angVel i) = (0 : Vec 3 ℝ) := by
    rw [h.angVel]; ext i; simp [flt]
  have hrate := hac.rate
  rw [z3] at hrate
  obtain ⟨r0, r1, r2⟩ := Pid.computeControl_rest h.ratePid.1 h.ratePid.2 dt
  refine ⟨?_, by rw [hrate]; exact r1, by rw [hrate]; exact r2⟩
  obtain ⟨kt, x, y, ht, hx, hy, hq⟩ := hc.isQuad
  have hk := hc.coefficient
  have hsq : (fun _ => p.mass * (c.g + a) / (4 * c.kf)) =
      squaredKeepSign (fun _ : Fin 4 => c.speedFor p.mass a) := by
    rw [squaredKeepSign_real]
    ext i
    have : 0 ≤ p.mass * (c.g + a) / (4 * c.kf) := by positivity
    simp only [Craft.speedFor, abs_of_nonneg (Real.sqrt_nonneg _), Real.mul_self_sqrt this]
  have key : (Model.mixer6 ms : Mat 6 4 ℝ).mulVec (squaredKeepSign fun _ => c.speedFor p.mass a) =
      ![0, 0, p.mass * (c.g + a), 0, 0, 0] := by
    rw [← hsq, quad_equal hq]
    have : 4 * c.kf * (p.mass * (c.g + a) / (4 * c.kf)) = p.mass * (c.g + a) := by field_simp
    rw [this]
  rw [hac.motors, h.angVel]
  have herr : Pid.getError (0 : Vec 3 ℝ) 0 = 0 := by ext i; simp [Pid.getError, flt]
  simp only [Indi.acroToMotor, herr, r0]
  have e : (![(![lit 0, lit 0, p.mass * (c.g + a)] : Vec 3 ℝ) 0,
      (![lit 0, lit 0, p.mass * (c.g + a)] : Vec 3 ℝ) 1, (![lit 0, lit 0, p.mass * (c.g + a)] : Vec 3 ℝ) 2, 
      (vadd (mv s.ctl.indi.inertia 0) (cross 0 (mv s.ctl.indi.inertia 0)) : Vec 3 ℝ) 0,
      (vadd (mv s.ctl.indi.inertia 0) (cross 0 (mv s.ctl.indi.inertia 0)) : Vec 3 ℝ) 1,
      (vadd (mv s.ctl.indi.inertia 0) (cross 0 (mv s.ctl.indi.inertia 0)) : Vec 3 ℝ) 2] : Vec 6 ℝ) =
      ![0, 0, p.mass * (c.g + a), 0, 0, 0] := by
    simp only [flt, Matrix.mulVec_zero, map_zero, add_zero, Pi.zero_apply,
      Matrix.cons_val_zero, Matrix.cons_val_one, Matrix.cons_val]
  rw [e, ← key, h.knowsRotors, mv_real, Matrix.mulVec_mulVec,
    (C30_inverse c.kf kt x y ms hq hk.ne' ht hx hy).2, Matrix.one_mulVec]
  exact (C31_inverse 0 _).2.1

section
variable [Noise ℝ]

/-- One dynamics update of a vehicle in vertical flight whose rotors are all commanded the speed `u`. -/
lemma Vertical.dynamics {s : Sim ℝ 4} {p ms c} (h : Vertical s p ms c) (hc : c.Is p ms) {u w v dt : ℝ}
    (hu : s.actuation = fun _ => u) (hw : s.dyn.state.motVel 0 = w) (hv : s.dyn.state.vel 2 = v)
    (h0 : 0 < dt) (h1 : dt ≤ 1 / 100) (hlu : c.lo ≤ u ∧ u ≤ c.hi)
    (hlw : c.lo ≤ w + dt / c.tau * (u - w) ∧ w + dt / c.tau * (u - w) ≤ c.hi) :
    ∃ t, s.updateDynamics dt = .ok t ∧ Vertical t p ms c ∧ t.ctl = s.ctl ∧ t.mode = s.mode ∧
      t.refPos = s.refPos ∧ t.refVel = s.refVel ∧ t.dyn.state.pos 0 = s.dyn.state.pos 0 ∧
      t.dyn.state.pos 1 = s.dyn.state.pos 1 ∧ t.dyn.state.pos 2 = s.dyn.state.pos 2 + dt * v ∧
      t.dyn.state.vel 2 = v + dt / p.mass * (4 * c.kf * (w * |w|) - c.g - p.drag * (v * |v|)) ∧
      t.dyn.state.motVel 0 = w + dt / c.tau * (u - w) := by
  have hlim : ∀ i, (ms i).minSpeed ≤ (ms i).maxSpeed := fun i => by
    rw [(hc.motor i).1, (hc.motor i).2.1]; exact hlu.1.trans hlu.2
  have hnb : ∀ d, ({ s with dyn := d } : Sim ℝ 4).belowFloor = false := fun d => by
    simp [Sim.belowFloor, h.floor]
  have hmw : s.dyn.state.motVel = fun _ => w := funext fun i => (h.same i).trans hw
  have hvel : s.dyn.state.vel = ![0, 0, v] := by
    ext i
    fin_cases i
    · exact h.upright.1
    · exact h.upright.2
    · exact hv
  have hp : s.dyn.process s.actuation dt s.extForce (!s.floorCollision) =
      .ok (Dyn.eulerStep (Model.coreOf p ms) ms s.dyn s.actuation dt s.extForce (!s.floorCollision)) := by
    rw [Dyn.process_small_real _ _ _ _ h0 h1]
    have hcl : Dyn.clampOk ms = true := by simp [Dyn.clampOk, flt, hlim]
    simp [Dyn.singleStep, h.runs, show (Model.coreOf p ms).params.motors = p.motors from rfl, h.rotors, hcl]
  set d := Dyn.eulerStep (Model.coreOf p ms) ms s.dyn s.actuation dt s.extForce (!s.floorCollision) with hd
  have hma : d.state.motAcc = fun _ => (u - w) / c.tau := by
    rw [hd, Dyn.es_motAcc, hu, hmw]
    funext i
    rw [(hc.motor i).1, (hc.motor i).2.1, (hc.motor i).2.2, clampVal_real, if_neg (not_lt.2 hlu.1),
      if_neg (not_lt.2 hlu.2)]
  have hmv : d.state.motVel = fun _ => w + dt / c.tau * (u - w) := by
    rw [hd, Dyn.es_motVel, ← hd, hma, hmw]
    funext i
    have e : w + dt * ((u - w) / c.tau) = w + dt / c.tau * (u - w) := by ring
    simp only [(hc.motor i).1, (hc.motor i).2.1, clampVal_real, e]
    rw [if_neg (not_lt.2 hlw.1), if_neg (not_lt.2 hlw.2)]
  have hpos : d.state.pos = s.dyn.state.pos + dt • s.dyn.state.vel := by rw [hd, Dyn.es_pos]
  have hori : d.state.ori = s.dyn.state.ori := by
    rw [hd, Dyn.es_ori, h.angVel, quatIntegrate_zero h.level.unit]
  have hq := quiet_noise p ms s.dyn dt (!s.floorCollision) (.inr hc.quiet) h0
  have hom : d.state.angVel = 0 := by
    have ht : d.state.torque = 0 := by
      rw [hd, Dyn.es_torque, ← hd, hma, Model.motorTorque_coreOf, hq, h.angVel, aeroMoment_real, hmw]
      simp only []
      rw [(hc.wrench w _).2]
      simp
    rw [hd, Dyn.es_angVel, Dyn.es_angAcc, ← hd, ht, h.angVel]
    simp
  have hacc : d.state.vel = ![0, 0, v + dt / p.mass * (4 * c.kf * (w * |w|) - c.g - p.drag * (v * |v|))] := by
    have hm := hc.mass.ne'
    have hr : s.dyn.state.ori.rotate ![0, 0, 4 * c.kf * (w * |w|)] = ![0, 0, 4 * c.kf * (w * |w|)] := by
      rw [Quat.axis_toMat, level_toMat h.level]
      ext i; fin_cases i <;> simp [axis, rotZ]
    have hforce : d.state.force = ![0, 0, 4 * c.kf * (w * |w|) - c.g - p.drag * (v * |v|)] := by
      rw [hd, Dyn.es_force, Model.thrustVec_coreOf, hmw]
      simp only []
      have hdr : Model.dragForce p.drag ![0, 0, v] = ![0, 0, -(p.drag * (v * |v|))] := by
        rw [dragForce_real]
        ext i; fin_cases i <;> simp
      rw [(hc.wrench w 0).1, hr, hq, h.extForce, hvel]
      simp only [Model.coreOf, hc.gravity, hdr]
      ext i
      fin_cases i <;> simp
      ring
    rw [hd, Dyn.es_vel, Dyn.es_acc, ← hd, hforce, hvel]
    simp only [Model.coreOf]
    ext i
    fin_cases i <;> simp
    ring
  have hupd : s.updateDynamics dt = .ok { s with extForce := vzero, dyn := d, floorCollision := false } := by
    rcases Sim.updateDynamics_cases s dt with ⟨hb, -⟩ | ⟨ext, he, hup⟩
    · rw [show s.belowFloor = false from hnb s.dyn] at hb; simp at hb
    · have : ext = s.extForce := by
        rcases he with ⟨-, he⟩ | ⟨hb, -⟩
        · exact he
        · rw [show s.belowFloor = false from hnb s.dyn] at hb; simp at hb
      subst this
      rw [hup, hp]
      simp only
      rw [if_neg]
      simp [Sim.belowFloor, h.floor]
  refine ⟨_, hupd, ?_, rfl, rfl, rfl, rfl, ?_, ?_, ?_, ?_, ?_⟩
  · exact { h with
      runs := by simp only; rw [hd, Dyn.eulerStep_core]; exact h.runs
      level := by simp only; rw [hori]; exact h.level
      yaw := by simp only; rw [hori]; exact h.yaw
      upright := by simp only; rw [hacc]; simp
      angVel := hom
      same := by simp only; rw [hmv]; simp
      extForce := vzero_real }
  · simp only; rw [hpos, hvel]; simp
  · simp only; rw [hpos, hvel]; simp
  · simp only; rw [hpos, hvel]; simp
  · simp only; rw [hacc]; simp
  · simp only; rw [hmv]

end

end Verif.Props
