import Verif.Model.Simulator
import Verif.Lemmas.Dyn

/-!
# Helper lemmas about the simulator, for any arithmetic
-/

namespace Verif

open Flt

namespace Sim
variable {α : Type} [Flt α] [Noise α] {n : ℕ}

/-- External force handed to the dynamics — multirotor_simulator.hpp:139-142 -/
lemma updateDynamics_cases (s : Sim α n) (dt : α) :
    (s.belowFloor = true ∧ s.dyn.model.core = none ∧ s.updateDynamics dt = .bad) ∨
    ∃ ext : Vec 3 α,
      ((s.belowFloor = false ∧ ext = s.extForce) ∨
        (s.belowFloor = true ∧ ∃ c, s.dyn.model.core = some c ∧
          ext = smulR (vneg c.params.gravity) c.params.mass)) ∧
      s.updateDynamics dt =
        (match s.dyn.process s.actuation dt ext (!s.floorCollision) with
        | .bad => .bad
        | .throw d => .throw { s with extForce := ext, dyn := d }
        | .ok d =>
          let s' := { s with extForce := vzero, dyn := d, floorCollision := false }
          if s'.belowFloor then .ok s'.collide else .ok s') := by
  unfold updateDynamics
  cases hb : s.belowFloor with
  | false => exact .inr ⟨s.extForce, .inl ⟨rfl, rfl⟩, rfl⟩
  | true =>
    cases hc : s.dyn.model.core with
    | none => left; simp
    | some c =>
      right
      exact ⟨_, .inr ⟨rfl, c, rfl, rfl⟩, rfl⟩

lemma updateDynamics_ok {s s' : Sim α n} {dt : α} (h : s.updateDynamics dt = .ok s') :
    ∃ (ext : Vec 3 α) (d : Dyn α n),
      ((s.belowFloor = false ∧ ext = s.extForce) ∨
        (s.belowFloor = true ∧ ∃ c, s.dyn.model.core = some c ∧
          ext = smulR (vneg c.params.gravity) c.params.mass)) ∧
      s.dyn.process s.actuation dt ext (!s.floorCollision) = .ok d ∧
      s' = (let t := { s with extForce := vzero, dyn := d, floorCollision := false }
            if t.belowFloor then t.collide else t) := by
  rcases updateDynamics_cases s dt with ⟨-, -, hb⟩ | ⟨ext, he, hu⟩
  · rw [hb] at h; simp at h
  · rw [hu] at h
    refine ⟨ext, ?_⟩
    cases hp : s.dyn.process s.actuation dt ext (!s.floorCollision) with
    | bad => simp [hp] at h
    | throw d => simp [hp] at h
    | ok d =>
      refine ⟨d, he, rfl, ?_⟩
      simp only [hp] at h
      simp only []
      split at h
      · rename_i hb; rw [if_pos hb]; simpa using h.symm
      · rename_i hb; rw [if_neg hb]; simpa using h.symm

lemma updateDynamics_throw {s s' : Sim α n} {dt : α} (h : s.updateDynamics dt = .throw s') :
    ∃ (ext : Vec 3 α) (d : Dyn α n),
      s.dyn.process s.actuation dt ext (!s.floorCollision) = .throw d ∧
      s' = { s with extForce := ext, dyn := d } := by
  rcases updateDynamics_cases s dt with ⟨-, -, hb⟩ | ⟨ext, he, hu⟩
  · rw [hb] at h; simp at h
  · rw [hu] at h
    refine ⟨ext, ?_⟩
    cases hp : s.dyn.process s.actuation dt ext (!s.floorCollision) with
    | bad => simp [hp] at h
    | throw d =>
      simp only [hp, Res.throw.injEq] at h
      exact ⟨d, rfl, h.symm⟩
    | ok d =>
      simp only [hp] at h
      split at h <;> simp at h

omit [Noise α] in
lemma updateController_disarmed {s : Sim α n} (h : s.armed = false) (dt : α) :
    s.updateController dt = { s with actuation := vzero } := by
  simp [updateController, h]

/-- The yaw reference after the first part of `update_controller` — multirotor_simulator.hpp:181-183 -/
def yawRef (s : Sim α n) : α :=
  if s.yawMode = .rate then s.ctl.yawRateToAngle (quatToEuler s.dyn.state.ori).2.2 s.refYawRate
  else s.refYaw

/-- What an armed controller update computes — multirotor_simulator.hpp:185-235 -/
def command (s : Sim α n) (yaw dt : α) : Ctl α n × Vec n α :=
  let st := s.dyn.state
  match s.mode with
  | .motorW => (s.ctl, s.refMot)
  | .acro => s.ctl.acroControl st.angVel s.refThrust s.refAngVel dt
  | .trajectory => s.ctl.trajectoryControl st.pos st.vel st.ori.toMat st.angVel s.refPos s.refVel
      s.refAcc yaw dt
  | .velocity => s.ctl.velocityControl st.vel st.ori.toMat st.angVel s.refVel yaw dt
  | .position => s.ctl.positionControl st.pos st.ori.toMat st.vel st.angVel s.refPos yaw dt
  | .hover => s.ctl.positionControl st.pos st.ori.toMat st.vel st.angVel s.refPos yaw dt

omit [Noise α] in
lemma updateController_armed {s : Sim α n} (h : s.armed = true) (dt : α) :
    s.updateController dt =
      { s with
        ctl := (s.command s.yawRef dt).1
        actuation := (s.command s.yawRef dt).2
        refYaw := s.yawRef } := by
  obtain ⟨_, _, _, _, armed, _, _, _, _, _, _, _, _, _, _, _, _, _, m, y⟩ := s
  simp only at h
  subst h
  cases y <;> cases m <;> rfl

end Sim

end Verif
