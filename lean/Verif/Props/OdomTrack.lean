import Verif.Props.DynRun
import Verif.Props.Orientation
import Verif.Spec.Sim

/-!
# C16: the inertial odometry against the true motion
-/

namespace Verif.Props

open Verif Flt Spec

section
variable [Noise ℝ] {n : ℕ}

/-- Calls that only command the vehicle. -/
def isCommand : SimOp ℝ n → Bool
  | .updateController _ | .arm | .disarm | .setControlMode _ _ | .setRefMot _ | .setRefAcro _ _
  | .setRefTrajectory _ _ _ | .setRefVel _ | .setRefPos _ | .setRefYaw _ | .setRefYawRate _
  | .setCtlParams _ | .mutCtl _ => true
  | _ => false

/-- `k` update cycles of period `dt`: any commands, then dynamics, IMU and odometry. -/
inductive Cycles (dt : ℝ) : ℕ → Sim ℝ n → Sim ℝ n → Prop where
  | zero (s) : Cycles dt 0 s s
  | succ {k s t u v os} : Cycles dt k s t → (∀ o ∈ os, isCommand o = true) → Sim.Runs t os u →
      u.updateDynamics dt = .ok v → Cycles dt (k + 1) s ((v.updateImu dt).updateOdom dt)

/-- Noise-free IMU aligned with the body. -/
structure PerfectImu (i : Imu ℝ) : Prop where
  gyroVar : i.gyroVar = 0
  accelVar : i.accelVar = 0
  gyroBiasCorr : i.gyroBiasCorr = 0
  accelBiasCorr : i.accelBiasCorr = 0
  gyroBias : i.gyroBias = 0
  accelBias : i.accelBias = 0
  mounting : i.ori = Quat.identity
  inverse : i.oriInv = i.ori.inverse

/-- At rest, perfect sensors, unfiltered odometry aligned with the vehicle, no floor. -/
structure TrackingStart (s : Sim ℝ n) (p : ModelParams ℝ) (ms : Fin n → Motor ℝ) : Prop where
  runsOn : RunsOn s.dyn p ms
  mass : 0 < p.mass
  unit : IsUnitQ s.dyn.state.ori
  vel : s.dyn.state.vel = 0
  angVel : s.dyn.state.angVel = 0
  imu : PerfectImu s.imu
  alpha : s.odom.alpha = 1
  ori : s.odom.ori = s.dyn.state.ori
  odomVel : s.odom.vel = 0
  odomPos : s.odom.pos = 0
  floor : s.floorEnable = false

end

/-- Full claim: after every number of cycles the odometry reports the true acceleration and velocity,
and the true orientation advanced by one step. -/
def C16_claim : Prop :=
  ∀ (_ : Noise ℝ) (n : ℕ) (s t : Sim ℝ n) (p : ModelParams ℝ) (ms : Fin n → Motor ℝ) (dt : ℝ) (k : ℕ),
    TrackingStart s p ms → 0 < dt → dt ≤ 1 / 100 → Cycles dt (k + 1) s t →
    t.odom.acc = t.dyn.state.acc ∧ t.odom.vel = t.dyn.state.vel ∧
    t.odom.ori = quatIntegrate t.dyn.state.ori t.dyn.state.angVel dt

section
variable [Noise ℝ] {n : ℕ}

/-- Commands leave vehicle, sensors and floor alone. -/
lemma command_frame {s t : Sim ℝ n} {os : List (SimOp ℝ n)} (h : Sim.Runs s os t)
    (ho : ∀ o ∈ os, isCommand o = true) :
    t.dyn = s.dyn ∧ t.imu = s.imu ∧ t.odom = s.odom ∧ t.floorEnable = s.floorEnable := by
  induction h with
  | nil s => exact ⟨rfl, rfl, rfl, rfl⟩
  | @throw s s' t o os hst _ ih =>
    have hk := ho o (List.mem_cons_self ..)
    cases o <;> first | (simp [isCommand] at hk; done) | (simp [Sim.step] at hst; done)
  | @ok s s' t o os hst _ ih =>
    obtain ⟨i1, i2, i3, i4⟩ := ih (fun o h => ho o (List.mem_cons_of_mem _ h))
    have hk := ho o (List.mem_cons_self ..)
    have : s'.dyn = s.dyn ∧ s'.imu = s.imu ∧ s'.odom = s.odom ∧ s'.floorEnable = s.floorEnable := by
      cases o with
      | updateController dt =>
        simp only [Sim.step, Res.ok.injEq] at hst
        subst hst
        rcases Bool.eq_false_or_eq_true s.armed with hb | hb
        · rw [Sim.updateController_armed hb]; exact ⟨rfl, rfl, rfl, rfl⟩
        · rw [Sim.updateController_disarmed hb]; exact ⟨rfl, rfl, rfl, rfl⟩
      | setControlMode m y =>
        simp only [Sim.step, Res.ok.injEq] at hst
        subst hst
        unfold Sim.setControlMode
        split <;> exact ⟨rfl, rfl, rfl, rfl⟩
      | _ =>
        first
        | (simp [isCommand] at hk; done)
        | (simp only [Sim.step, Res.ok.injEq] at hst; subst hst; exact ⟨rfl, rfl, rfl, rfl⟩)
    exact ⟨i1.trans this.1, i2.trans this.2.1, i3.trans this.2.2.1, i4.trans this.2.2.2⟩

/-- A perfect IMU stays perfect and reports exactly. -/
lemma perfect_update {i : Imu ℝ} (h : PerfectImu i) {dt : ℝ} (h0 : 0 < dt) (f om : Vec 3 ℝ) :
    PerfectImu (i.update dt f om) ∧ (i.update dt f om).gyro = om ∧ (i.update dt f om).accel = f := by
  have hinv : i.oriInv = Quat.identity := by
    rw [h.inverse, h.mounting, Quat.inverse_unit (by simp [IsUnitQ, Quat.identity, flt])]
    simp [Quat.identity, flt]
  have e : i.update dt f om = (i.processBias dt).processMeasurement f om := by
    simp [Imu.update, flt, not_le.2 h0]
  rw [e]
  have b1 : ((i.processBias dt).processMeasurement f om).gyroBias = 0 := by
    simp only [Imu.processMeasurement, Imu.processBias, Imu.scaledDraw, h.gyroBiasCorr, h.gyroBias, flt]
    ext l; simp
  have b2 : ((i.processBias dt).processMeasurement f om).accelBias = 0 := by
    simp only [Imu.processMeasurement, Imu.processBias, Imu.scaledDraw, h.accelBiasCorr, h.accelBias, flt]
    ext l; simp
  refine ⟨⟨h.gyroVar, h.accelVar, h.gyroBiasCorr, h.accelBiasCorr, b1, b2, h.mounting, h.inverse⟩, ?_, ?_⟩
  · simp only [Imu.processMeasurement, Imu.processBias, Imu.scaledDraw, h.gyroBiasCorr, h.gyroBias,
      h.gyroVar, hinv, Quat.rotate_identity, flt]
    ext l; simp
  · simp only [Imu.processMeasurement, Imu.processBias, Imu.scaledDraw, h.accelBiasCorr, h.accelBias,
      h.accelVar, hinv, Quat.rotate_identity, flt]
    ext l; simp

/-- What holds after every cycle. -/
structure Tracking (x₀ : Vec 3 ℝ) (p : ModelParams ℝ) (ms : Fin n → Motor ℝ) (dt : ℝ) (s : Sim ℝ n) :
    Prop where
  core : s.dyn.model.core = some (Model.coreOf p ms)
  unit : IsUnitQ s.dyn.state.ori
  imu : PerfectImu s.imu
  alpha : s.odom.alpha = 1
  ori : s.odom.ori = quatIntegrate s.dyn.state.ori s.dyn.state.angVel dt
  vel : s.odom.vel = p.mass • s.dyn.state.vel
  pos : s.odom.pos = p.mass • (s.dyn.state.pos + dt • s.dyn.state.vel - x₀)
  floor : s.floorEnable = false

lemma tracking_cycle {x₀ : Vec 3 ℝ} {p : ModelParams ℝ} {ms : Fin n → Motor ℝ} {dt : ℝ}
    {t u v : Sim ℝ n} {os : List (SimOp ℝ n)} (hm : 0 < p.mass)
    (hmo : Model.motorFn n p.motors = some ms) (ht : Tracking x₀ p ms dt t) (h0 : 0 < dt)
    (h1 : dt ≤ 1 / 100) (ho : ∀ o ∈ os, isCommand o = true) (hr : Sim.Runs t os u)
    (hu : u.updateDynamics dt = .ok v) :
    Tracking x₀ p ms dt ((v.updateImu dt).updateOdom dt) ∧
    ((v.updateImu dt).updateOdom dt).odom.acc =
      p.mass • ((v.updateImu dt).updateOdom dt).dyn.state.acc := by
  obtain ⟨f1, f2, f3, f4⟩ := command_frame hr ho
  obtain ⟨ext, d, -, hp, hv⟩ := Sim.updateDynamics_ok hu
  have hv' : v = { u with extForce := vzero, dyn := d, floorCollision := false } := by
    rw [hv]
    simp only []
    rw [if_neg]
    simp [Sim.belowFloor, f4, ht.floor]
  rw [f1, Dyn.process_small_real _ _ _ _ h0 h1] at hp
  obtain ⟨-, hd⟩ := step_on ht.core hmo hp
  have hvd : v.dyn = d := by rw [hv']
  have hvi : v.imu = t.imu := by rw [hv', ← f2]
  have hvo : v.odom = t.odom := by rw [hv', ← f3]
  have hvf : v.floorEnable = false := by rw [hv', ← ht.floor, ← f4]
  obtain ⟨g1, g2, g3⟩ := perfect_update (hvi ▸ ht.imu) h0 (v.dyn.state.ori.rotate v.dyn.state.force)
    v.dyn.state.angVel
  have hunit : IsUnitQ d.state.ori := by
    rw [hd, Dyn.es_ori]; exact Quat.quatIntegrate_unit ht.unit.nonzero _ _
  -- the odometry orientation before the cycle is the new true orientation
  have hori : t.odom.ori = d.state.ori := by rw [ht.ori, hd, Dyn.es_ori]
  have hacc : d.state.acc = p.mass⁻¹ • d.state.force := by
    rw [hd, Dyn.es_acc]; rfl
  have hforce : d.state.force = p.mass • d.state.acc := by
    rw [hacc, smul_smul, mul_inv_cancel₀ hm.ne', one_smul]
  set o' := t.odom.update (v.updateImu dt).imu.gyro (v.updateImu dt).imu.accel dt with ho'
  have hwhole : (v.updateImu dt).updateOdom dt = { v with imu := (v.updateImu dt).imu, odom := o' } := by
    rw [ho', ← hvo]; rfl
  have q1 : (v.updateImu dt).imu.gyro = d.state.angVel := by rw [← hvd]; exact g2
  have q2 : (v.updateImu dt).imu.accel = d.state.ori.rotate d.state.force := by rw [← hvd]; exact g3
  have a1 : o'.acc = d.state.force := by
    rw [ho', q1, q2]
    simp only [Odom.update, Odom.integrate, Odom.filter, ht.alpha, hori, flt, one_smul, sub_self,
      zero_smul, add_zero]
    exact Quat.inverse_rotate_rotate hunit _
  have a2 : o'.ori = quatIntegrate d.state.ori d.state.angVel dt := by
    rw [ho', q1, q2]
    simp only [Odom.update, Odom.integrate, Odom.filter, ht.alpha, hori, flt, one_smul, sub_self,
      zero_smul, add_zero]
  have a3 : o'.vel = t.odom.vel + dt • o'.acc := by
    rw [ho']; simp [Odom.update, Odom.integrate, Odom.filter, flt]
  have a4 : o'.pos = t.odom.pos + dt • o'.vel := by
    rw [ho']; simp [Odom.update, Odom.integrate, Odom.filter, flt]
  have hvel : d.state.vel = t.dyn.state.vel + dt • d.state.acc := by
    rw [hd]; exact Dyn.es_vel ..
  have hpos : d.state.pos = t.dyn.state.pos + dt • t.dyn.state.vel := by
    rw [hd]; exact Dyn.es_pos ..
  have v1 : o'.vel = p.mass • d.state.vel := by
    rw [a3, a1, ht.vel, hforce, hvel, smul_add, smul_comm dt]
  rw [hwhole]
  refine ⟨⟨?_, ?_, g1, ?_, ?_, ?_, ?_, hvf⟩, ?_⟩
  · show v.dyn.model.core = _
    rw [hvd, hd, Dyn.eulerStep_core, ht.core]
  · show IsUnitQ v.dyn.state.ori
    rw [hvd]; exact hunit
  · show o'.alpha = 1
    rw [ho']; exact ht.alpha
  · show o'.ori = quatIntegrate v.dyn.state.ori v.dyn.state.angVel dt
    rw [hvd, a2]
  · show o'.vel = p.mass • v.dyn.state.vel
    rw [hvd, v1]
  · show o'.pos = p.mass • (v.dyn.state.pos + dt • v.dyn.state.vel - x₀)
    rw [hvd, a4, v1, ht.pos, hpos, smul_comm dt, ← smul_add]
    congr 1
    abel
  · show o'.acc = p.mass • v.dyn.state.acc
    rw [hvd, a1, hforce]

/-- What is true, for every number of cycles, command and noise sequence: the odometry reports the mass
times the true acceleration and velocity, the true orientation of the next step, and the mass times the
displacement one step ahead; so the claim holds for mass one.  Missing: every other mass. -/
theorem C16_tracking_partial (s t : Sim ℝ n) (p : ModelParams ℝ) (ms : Fin n → Motor ℝ) (dt : ℝ) (k : ℕ)
    (hs : TrackingStart s p ms) (h0 : 0 < dt) (h1 : dt ≤ 1 / 100) (hc : Cycles dt (k + 1) s t) :
    t.odom.acc = p.mass • t.dyn.state.acc ∧ t.odom.vel = p.mass • t.dyn.state.vel ∧
    t.odom.ori = quatIntegrate t.dyn.state.ori t.dyn.state.angVel dt ∧
    t.odom.pos = p.mass • (t.dyn.state.pos + dt • t.dyn.state.vel - s.dyn.state.pos) ∧
    (p.mass = 1 → t.odom.acc = t.dyn.state.acc ∧ t.odom.vel = t.dyn.state.vel) := by
  obtain ⟨hco, hmo⟩ := runsOn_core hs.runsOn
  have key : ∀ k t, Cycles dt k s t → Tracking s.dyn.state.pos p ms dt t ∧
      (k ≠ 0 → t.odom.acc = p.mass • t.dyn.state.acc) := by
    intro k t h
    clear hc
    induction h with
    | zero s =>
      refine ⟨⟨hco, hs.unit, hs.imu, hs.alpha, ?_, ?_, ?_, hs.floor⟩, fun h => absurd rfl h⟩
      · rw [hs.ori, hs.angVel]
        unfold quatIntegrate
        rw [Quat.integrate_eq]
        simp
        exact (Quat.normalized_of_unit hs.unit).symm
      · rw [hs.odomVel, hs.vel, smul_zero]
      · rw [hs.odomPos, hs.vel]; simp
    | succ hc ho hr hu ih =>
      obtain ⟨i1, -⟩ := ih hs hco
      obtain ⟨j1, j2⟩ := tracking_cycle hs.mass hmo i1 h0 h1 ho hr hu
      exact ⟨j1, fun _ => j2⟩
  obtain ⟨i1, i2⟩ := key _ _ hc
  have i2 := i2 (by simp)
  exact ⟨i2, i1.vel, i1.ori, i1.pos, fun hm => ⟨by rw [i2, hm, one_smul], by rw [i1.vel, hm, one_smul]⟩⟩

/-- The fixture with a perfect IMU. -/
noncomputable def trackSim : Sim ℝ 4 :=
  { Fixture.sim with imu := ⟨⟨3, 0⟩, 0, 0, 0, 0, Quat.identity, Quat.identity.inverse, 0, 0, 0, 0⟩ }

lemma trackSim_start : TrackingStart trackSim Fixture.modelParams Fixture.motors where
  runsOn := fixture_runsOn
  mass := by norm_num [Fixture.modelParams]
  unit := fixture_unit
  vel := by simp [trackSim, Fixture.sim, Fixture.dyn, State.default, flt]
  angVel := by simp [trackSim, Fixture.sim, Fixture.dyn, State.default, flt]
  imu := ⟨rfl, rfl, rfl, rfl, rfl, rfl, rfl, rfl⟩
  alpha := rfl
  ori := rfl
  odomVel := by simp [trackSim, Fixture.sim, Odom.reset, flt]
  odomPos := by simp [trackSim, Fixture.sim, Odom.reset, flt]
  floor := rfl

lemma trackSim_cycle : ∃ t, Cycles (1 / 100) (0 + 1) trackSim t ∧
    ∃ v, trackSim.arm.updateDynamics (1 / 100) = .ok v ∧
      t = (v.updateImu (1 / 100)).updateOdom (1 / 100) := by
  obtain ⟨v, hv⟩ := Fixture.updateDynamics_ok trackSim.arm rfl (1 / 100) (by norm_num) le_rfl
  exact ⟨_, .succ (.zero _) (os := [.arm]) (by simp [isCommand]) (.ok rfl (.nil _)) hv, v, hv, rfl⟩

/-- Hypotheses are met by the fixture and one cycle that arms the vehicle. -/
example : TrackingStart trackSim Fixture.modelParams Fixture.motors ∧
    ∃ t, Cycles (1 / 100) (0 + 1) trackSim t :=
  ⟨trackSim_start, trackSim_cycle.imp fun _ h => h.1⟩

end

/-- The fixture has mass two. -/
theorem C16_violated : ¬ C16_claim := by
  intro h
  let N : Noise ℝ := ⟨fun _ _ _ => 0⟩
  obtain ⟨t, hc, v, hv, ht⟩ := trackSim_cycle
  have h1 := (h N 4 trackSim t _ _ _ 0 trackSim_start (by norm_num) le_rfl hc).1
  have h2 := (C16_tracking_partial trackSim t _ _ _ 0 trackSim_start (by norm_num) le_rfl hc).1
  rw [h1] at h2
  have hz : t.dyn.state.acc 2 = -5 := by
    obtain ⟨ext, d, he, hp, hvv⟩ := Sim.updateDynamics_ok hv
    have hb : ∀ s : Sim ℝ 4, s.floorEnable = false → s.belowFloor = false := by
      intro s hs; simp [Sim.belowFloor, hs]
    have hvd : v.dyn = d := by
      rw [hvv]
      simp only []
      rw [if_neg]
      simp [Sim.belowFloor, Sim.arm, trackSim, Fixture.sim]
    have he0 : ext = 0 := by
      rcases he with ⟨-, rfl⟩ | ⟨hb', -⟩
      · simp [Sim.arm, trackSim, Fixture.sim, flt]
      · rw [hb _ rfl] at hb'; simp at hb'
    rw [Fixture.process_ok _ rfl _ _ (by norm_num) le_rfl, Res.ok.injEq, he0] at hp
    rw [ht]
    show v.dyn.state.acc 2 = -5
    rw [hvd, ← hp, Dyn.es_acc, Dyn.es_force]
    have hw : trackSim.arm.dyn.state.motVel = 0 ∧ trackSim.arm.dyn.state.vel = 0 := by
      simp [Sim.arm, trackSim, Fixture.sim, Fixture.dyn, State.default, flt]
    have hth : Model.thrustVec Fixture.core (0 : Vec 4 ℝ) = 0 := by
      show Model.thrustVec (Model.coreOf Fixture.modelParams Fixture.motors) (0 : Vec 4 ℝ) = 0
      rw [Model.thrustVec_coreOf]
      refine Finset.sum_eq_zero fun i _ => ?_
      ext r
      simp [rotorForce, mulVec_z]
    have hno : Dyn.stepNoise Fixture.core trackSim.arm.dyn (1 / 100) true = 0 := by
      funext i
      simp [Dyn.stepNoise, Model.setNoise, flt, Fixture.core, Model.coreOf, Fixture.modelParams, Rng.draw3]
      norm_num
      simp [Noise.draw, N]
    simp only [show (!trackSim.arm.floorCollision) = true from rfl]
    rw [hw.1, hw.2, hth, Quat.rotate_zero, dragForce_real, hno]
    simp only [Pi.add_apply, Pi.smul_apply]
    simp [Fixture.core, Model.coreOf, Fixture.modelParams]
    norm_num
  have h3 := congrFun h2 2
  simp only [Pi.smul_apply, smul_eq_mul, hz] at h3
  norm_num [Fixture.modelParams] at h3

end Verif.Props
