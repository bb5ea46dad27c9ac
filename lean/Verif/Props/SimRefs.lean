import Verif.Fixture
import Verif.Spec.Sim

/-!
# C10, C11, C12: control modes, references and the controller update, in any arithmetic
-/

namespace Verif.Props

open Verif Flt Spec

section
variable {α : Type} [Flt α] [Noise α] {n : ℕ}

/-! ## C10 -/

omit [Noise α] in
/-- **C10.** `set_control_mode`: the same modes change nothing; otherwise the references are captured
and cleared and nothing else changes. -/
theorem C10_set_control_mode (s : Sim α n) (m : Mode) (y : YawMode) :
    (s.mode = m → s.yawMode = y → s.setControlMode m y = s) ∧
    (s.mode ≠ m ∨ s.yawMode ≠ y →
      (s.setControlMode m y).mode = m ∧
      (s.setControlMode m y).yawMode = y ∧
      (s.setControlMode m y).refPos = s.dyn.state.pos ∧
      (s.setControlMode m y).refYaw = yawOf s ∧
      (s.setControlMode m y).refVel = (fun _ => lit 0) ∧
      (s.setControlMode m y).refAcc = (fun _ => lit 0) ∧
      (s.setControlMode m y).refThrust = lit 0 ∧
      (s.setControlMode m y).refAngVel = (fun _ => lit 0) ∧
      (s.setControlMode m y).dyn = s.dyn ∧
      (s.setControlMode m y).ctl = s.ctl ∧
      (s.setControlMode m y).imu = s.imu ∧
      (s.setControlMode m y).odom = s.odom ∧
      (s.setControlMode m y).armed = s.armed ∧
      (s.setControlMode m y).floorEnable = s.floorEnable ∧
      (s.setControlMode m y).floorCollision = s.floorCollision ∧
      (s.setControlMode m y).floorHeight = s.floorHeight ∧
      (s.setControlMode m y).refMot = s.refMot ∧
      (s.setControlMode m y).refYawRate = s.refYawRate ∧
      (s.setControlMode m y).actuation = s.actuation ∧
      (s.setControlMode m y).extForce = s.extForce) := by
  constructor
  · intro h1 h2; simp [Sim.setControlMode, h1, h2]
  · intro h
    have : ¬ (s.mode = m ∧ s.yawMode = y) := by tauto
    unfold Sim.setControlMode
    rw [if_neg this]
    exact ⟨rfl, rfl, rfl, rfl, rfl, rfl, rfl, rfl, rfl, rfl, rfl, rfl, rfl, rfl, rfl, rfl, rfl, rfl, rfl,
      rfl⟩

/-- Non-vacuity: a real change of mode on the concrete simulator, which starts in MOTOR_W. -/
example [Noise ℝ] : Fixture.sim.mode ≠ .hover ∧
    (Fixture.sim.setControlMode .motorW .angle) = Fixture.sim :=
  ⟨by simp [Fixture.sim], (C10_set_control_mode _ _ _).1 rfl rfl⟩

/-! ## C11 -/

/-- A register described by a write table: one call. -/
lemma lastWrite_of_step {β : Type} {reg : Sim α n → β} {w : Event α n → Option β}
    (hok : ∀ s o s', s.step o = .ok s' → reg s' = (w ⟨s, o, false⟩).getD (reg s))
    (hth : ∀ s o s', s.step o = .throw s' → reg s' = (w ⟨s, o, true⟩).getD (reg s))
    {s t : Sim α n} {tr : List (Event α n)} (h : Trace s tr t) : reg t = lastWrite w (reg s) tr := by
  induction h with
  | nil s => rfl
  | ok hs _ ih => rw [ih, lastWrite, hok _ _ _ hs]
  | throw hs _ ih => rw [ih, lastWrite, hth _ _ _ hs]

/-- All references as one tuple. -/
structure Refs (α : Type) (n : ℕ) where
  mot : Vec n α
  thrust : α
  angVel : Vec 3 α
  pos : Vec 3 α
  vel : Vec 3 α
  acc : Vec 3 α
  yaw : α
  yawRate : α

/-- The references of a simulator. -/
def refsOf (s : Sim α n) : Refs α n :=
  ⟨s.refMot, s.refThrust, s.refAngVel, s.refPos, s.refVel, s.refAcc, s.refYaw, s.refYawRate⟩

/-- The references after one recorded call. -/
def refsAfter (e : Event α n) : Refs α n :=
  ⟨(writesMot e).getD e.before.refMot, (writesThrust e).getD e.before.refThrust,
    (writesAngVel e).getD e.before.refAngVel, (writesPos e).getD e.before.refPos,
    (writesVel e).getD e.before.refVel, (writesAcc e).getD e.before.refAcc,
    (writesYaw e).getD e.before.refYaw, (writesYawRate e).getD e.before.refYawRate⟩

lemma updateDynamics_refs_ok {s s' : Sim α n} {dt : α} (h : s.updateDynamics dt = .ok s') :
    refsOf s' = refsOf s := by
  obtain ⟨ext, d, -, -, rfl⟩ := Sim.updateDynamics_ok h
  simp only []
  split <;> rfl

lemma refs_step_ok {s s' : Sim α n} {o : SimOp α n} (h : s.step o = .ok s') :
    refsOf s' = refsAfter ⟨s, o, false⟩ := by
  cases o with
  | updateDynamics dt => exact updateDynamics_refs_ok h
  | updateController dt =>
    simp only [Sim.step, Res.ok.injEq] at h
    subst h
    cases hb : s.armed with
    | true =>
      rw [Sim.updateController_armed hb]
      cases hy : s.yawMode <;>
        simp [refsOf, refsAfter, writesMot, writesThrust, writesAngVel, writesPos, writesVel, writesAcc,
          writesYaw, writesYawRate, Sim.yawRef, hb, hy, yawOf, leadYaw, Ctl.yawRateToAngle]
    | false =>
      rw [Sim.updateController_disarmed hb]
      simp [refsOf, refsAfter, writesMot, writesThrust, writesAngVel, writesPos, writesVel, writesAcc,
          writesYaw, writesYawRate, hb]
  | setDynParams p =>
    simp only [Sim.step, Sim.setDynParams] at h
    split at h
    · simp at h
    · simp only [Res.ok.injEq] at h; subst h; rfl
  | setOdomParams p =>
    simp only [Sim.step, Sim.setOdomParams] at h
    split at h
    · simp at h
    · simp only [Res.ok.injEq] at h; subst h; rfl
  | setControlMode m y =>
    simp only [Sim.step, Res.ok.injEq] at h
    subst h
    by_cases hc : s.mode = m ∧ s.yawMode = y
    · rw [(C10_set_control_mode s m y).1 hc.1 hc.2]
      simp [refsOf, refsAfter, writesMot, writesThrust, writesAngVel, writesPos, writesVel, writesAcc,
          writesYaw, writesYawRate, changesMode, hc.1, hc.2]
    · have h2 : changesMode s m y = true := by
        simp only [changesMode, Bool.not_eq_true', Bool.and_eq_false_iff, decide_eq_false_iff_not]; tauto
      unfold Sim.setControlMode
      rw [if_neg hc]
      simp [refsOf, refsAfter, writesMot, writesThrust, writesAngVel, writesPos, writesVel, writesAcc,
          writesYaw, writesYawRate, h2, yawOf]
  | arm =>
    simp only [Sim.step, Res.ok.injEq] at h
    subst h
    simp only [refsOf, refsAfter, Sim.arm, writesMot, writesThrust, writesAngVel, writesPos, writesVel,
      writesAcc, writesYaw, writesYawRate, Option.getD_some, Option.getD_none]
    congr 1
    funext i
    fin_cases i <;> rfl
  | _ => simp only [Sim.step, Res.ok.injEq] at h; subst h; rfl

lemma refs_step_throw {s s' : Sim α n} {o : SimOp α n} (h : s.step o = .throw s') :
    refsOf s' = refsAfter ⟨s, o, true⟩ := by
  cases o with
  | updateDynamics dt =>
    obtain ⟨ext, d, -, rfl⟩ := Sim.updateDynamics_throw h
    rfl
  | setDynParams p => simp only [Sim.step, Sim.setDynParams] at h; split at h <;> simp at h
  | setOdomParams p => simp only [Sim.step, Sim.setOdomParams] at h; split at h <;> simp at h
  | _ => simp [Sim.step] at h

/-- **C11.** In every history of a new simulator each reference is the last value written to it
according to the write tables `Spec.writesMot`, ..., and zero if it was never written. -/
theorem C11_last_writer_wins (p : SimParams α n) (s₀ s : Sim α n) (h₀ : Sim.mk' p = some s₀)
    (tr : List (Event α n)) (h : Trace s₀ tr s) :
    s.refMot = lastWrite writesMot (fun _ => lit 0) tr ∧
    s.refThrust = lastWrite writesThrust (lit 0) tr ∧
    s.refAngVel = lastWrite writesAngVel (fun _ => lit 0) tr ∧
    s.refPos = lastWrite writesPos (fun _ => lit 0) tr ∧
    s.refVel = lastWrite writesVel (fun _ => lit 0) tr ∧
    s.refAcc = lastWrite writesAcc (fun _ => lit 0) tr ∧
    s.refYaw = lastWrite writesYaw (lit 0) tr ∧
    s.refYawRate = lastWrite writesYawRate (lit 0) tr := by
  have hinit : refsOf s₀ = ⟨fun _ => lit 0, lit 0, fun _ => lit 0, fun _ => lit 0, fun _ => lit 0,
      fun _ => lit 0, lit 0, lit 0⟩ := by
    unfold Sim.mk' at h₀
    split at h₀
    · simp only [Option.some.injEq] at h₀; subst h₀; rfl
    · simp at h₀
  have hok := @refs_step_ok α _ _ n
  have hth := @refs_step_throw α _ _ n
  simp only [refsOf, Refs.mk.injEq] at hinit
  obtain ⟨i1, i2, i3, i4, i5, i6, i7, i8⟩ := hinit
  suffices hmain : s.refMot = lastWrite writesMot s₀.refMot tr ∧
      s.refThrust = lastWrite writesThrust s₀.refThrust tr ∧
      s.refAngVel = lastWrite writesAngVel s₀.refAngVel tr ∧
      s.refPos = lastWrite writesPos s₀.refPos tr ∧
      s.refVel = lastWrite writesVel s₀.refVel tr ∧
      s.refAcc = lastWrite writesAcc s₀.refAcc tr ∧
      s.refYaw = lastWrite writesYaw s₀.refYaw tr ∧
      s.refYawRate = lastWrite writesYawRate s₀.refYawRate tr by
    rw [i1, i2, i3, i4, i5, i6, i7, i8] at hmain
    exact hmain
  simp only [refsOf, refsAfter, Refs.mk.injEq] at hok hth
  refine ⟨lastWrite_of_step (reg := Sim.refMot) (fun s o s' h => (hok h).1) (fun s o s' h => (hth h).1) h,
    lastWrite_of_step (reg := Sim.refThrust) (fun s o s' h => (hok h).2.1)
      (fun s o s' h => (hth h).2.1) h,
    lastWrite_of_step (reg := Sim.refAngVel) (fun s o s' h => (hok h).2.2.1)
      (fun s o s' h => (hth h).2.2.1) h,
    lastWrite_of_step (reg := Sim.refPos) (fun s o s' h => (hok h).2.2.2.1)
      (fun s o s' h => (hth h).2.2.2.1) h,
    lastWrite_of_step (reg := Sim.refVel) (fun s o s' h => (hok h).2.2.2.2.1)
      (fun s o s' h => (hth h).2.2.2.2.1) h,
    lastWrite_of_step (reg := Sim.refAcc) (fun s o s' h => (hok h).2.2.2.2.2.1)
      (fun s o s' h => (hth h).2.2.2.2.2.1) h,
    lastWrite_of_step (reg := Sim.refYaw) (fun s o s' h => (hok h).2.2.2.2.2.2.1)
      (fun s o s' h => (hth h).2.2.2.2.2.2.1) h,
    lastWrite_of_step (reg := Sim.refYawRate) (fun s o s' h => (hok h).2.2.2.2.2.2.2)
      (fun s o s' h => (hth h).2.2.2.2.2.2.2) h⟩

/-- Non-vacuity: a history in which the velocity reference is set, cleared by a mode change and set
again. -/
example [Noise ℝ] (u v : Vec 3 ℝ) : ∃ (s : Sim ℝ 4) (tr : List (Event ℝ 4)), Trace Fixture.sim tr s ∧
    tr.map Event.op = [.setRefVel u, .setControlMode .velocity .angle, .setRefVel v] ∧
    lastWrite writesVel 0 (tr.take 2) = 0 ∧ lastWrite writesVel 0 tr = v := by
  refine ⟨_, _, .ok (o := .setRefVel u) rfl (.ok (o := .setControlMode .velocity .angle) rfl
    (.ok (o := .setRefVel v) rfl (.nil _))), rfl, ?_, ?_⟩
  · simp [lastWrite, writesVel, changesMode, Sim.setRefVel, Fixture.sim, flt]
  · simp [lastWrite, writesVel]

/-! ## C12 -/

omit [Noise α] in
/-- **C12, frame.** What `update_controller` never changes, and when it changes the yaw reference. -/
theorem C12_frame (s : Sim α n) (dt : α) :
    (s.updateController dt).dyn = s.dyn ∧
    (s.updateController dt).imu = s.imu ∧
    (s.updateController dt).odom = s.odom ∧
    (s.updateController dt).armed = s.armed ∧
    (s.updateController dt).floorEnable = s.floorEnable ∧
    (s.updateController dt).floorCollision = s.floorCollision ∧
    (s.updateController dt).floorHeight = s.floorHeight ∧
    (s.updateController dt).refMot = s.refMot ∧
    (s.updateController dt).refThrust = s.refThrust ∧
    (s.updateController dt).refAngVel = s.refAngVel ∧
    (s.updateController dt).refPos = s.refPos ∧
    (s.updateController dt).refVel = s.refVel ∧
    (s.updateController dt).refAcc = s.refAcc ∧
    (s.updateController dt).refYawRate = s.refYawRate ∧
    (s.updateController dt).extForce = s.extForce ∧
    (s.updateController dt).mode = s.mode ∧
    (s.updateController dt).yawMode = s.yawMode ∧
    (¬ (s.armed = true ∧ s.yawMode = .rate) → (s.updateController dt).refYaw = s.refYaw) ∧
    (s.armed = false → (s.updateController dt).ctl = s.ctl ∧
      (s.updateController dt).actuation = fun _ => lit 0) := by
  cases hb : s.armed with
  | true =>
    rw [Sim.updateController_armed hb]
    refine ⟨rfl, rfl, rfl, hb, rfl, rfl, rfl, rfl, rfl, rfl, rfl, rfl, rfl, rfl, rfl, rfl, rfl,
      fun h => ?_, by simp⟩
    have : s.yawMode ≠ .rate := by tauto
    simp [Sim.yawRef, this]
  | false =>
    rw [Sim.updateController_disarmed hb]
    exact ⟨rfl, rfl, rfl, hb, rfl, rfl, rfl, rfl, rfl, rfl, rfl, rfl, rfl, rfl, rfl, rfl, rfl,
      fun _ => rfl, fun _ => ⟨rfl, rfl⟩⟩

omit [Noise α] in
/-- **C12, MOTOR_W.** An armed update passes the rotor reference through and leaves the controllers
alone. -/
theorem C12_motor_mode (s : Sim α n) (dt : α) (ha : s.armed = true) (hm : s.mode = .motorW) :
    (s.updateController dt).actuation = s.refMot ∧ (s.updateController dt).ctl = s.ctl := by
  rw [Sim.updateController_armed ha]
  simp [Sim.command, hm]

omit [Noise α] in
/-- **C12, HOVER and POSITION.** They give the same commands, controller states and references: the
results differ only in the mode. -/
theorem C12_hover_is_position (s : Sim α n) (dt : α) :
    Sim.updateController { s with mode := .hover } dt =
      { Sim.updateController { s with mode := .position } dt with mode := .hover } := by
  rcases Bool.eq_false_or_eq_true s.armed with hb | hb
  · rw [Sim.updateController_armed (by exact hb), Sim.updateController_armed (by exact hb)]
    rfl
  · rw [Sim.updateController_disarmed (by exact hb), Sim.updateController_disarmed (by exact hb)]

/-- Non-vacuity: an armed simulator in MOTOR_W mode with a non-zero reference. -/
example [Noise ℝ] : ∃ s : Sim ℝ 4, s.armed = true ∧ s.mode = .motorW ∧ s.refMot ≠ 0 := by
  refine ⟨(Fixture.sim.arm).setRefMot 1, rfl, rfl, ?_⟩
  simp [Sim.setRefMot]

end

end Verif.Props
