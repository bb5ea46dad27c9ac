import Verif.Props.Ctl
import Verif.Props.Sim

/-!
# What the simulator passes to the controllers (C12), and floor and rotor limits between updates (C01, C04)
-/

namespace Verif.Props

open Verif Flt Spec

variable {α : Type} [Flt α] {n : ℕ}

/-- **C12, control modes.** An armed update runs, with the current state and the current references, the
controller stages that the mode names, with the yaw reference that it reports afterwards (in yaw-rate mode
the one derived from the current yaw and the rate reference), and the command is their result:
ACRO the rate loop on the thrust and rate references; VELOCITY the velocity loop on the velocity reference;
TRAJECTORY the trajectory loop on the position and velocity references plus the acceleration reference;
POSITION and HOVER the position loop and then the velocity loop.  Any arithmetic. -/
theorem C12_dispatch [Noise α] (s : Sim α n) (dt : α) (ha : s.armed = true) :
    let s' := s.updateController dt
    let st := s.dyn.state
    s'.refYaw = (if s.yawMode = .rate then leadYaw (yawOf s) s.refYawRate (s.ctl.acro.kpRot 2 2)
      else s.refYaw) ∧
    (s.mode = .acro →
      AcroStage s.ctl s'.ctl st.angVel s.refThrust s.refAngVel dt s'.actuation ∧
      s'.ctl.pos = s.ctl.pos ∧ s'.ctl.vel = s.ctl.vel ∧ s'.ctl.traj = s.ctl.traj) ∧
    (s.mode = .velocity →
      let a := s.ctl.vel.computeControl dt fun i => s.refVel i ⊟ st.vel i
      AccelerationStage s.ctl s'.ctl st.ori.toMat st.angVel a.2 s'.refYaw dt s'.actuation ∧
      s'.ctl.vel = a.1 ∧ s'.ctl.pos = s.ctl.pos ∧ s'.ctl.traj = s.ctl.traj ∧
      s'.ctl.desVel = s.refVel) ∧
    (s.mode = .trajectory →
      let a := s.ctl.traj.computeControlD dt (fun i => s.refPos i ⊟ st.pos i)
        fun i => s.refVel i ⊟ st.vel i
      AccelerationStage s.ctl s'.ctl st.ori.toMat st.angVel (fun i => a.2 i ⊞ s.refAcc i) s'.refYaw dt
        s'.actuation ∧
      s'.ctl.traj = a.1 ∧ s'.ctl.pos = s.ctl.pos ∧ s'.ctl.vel = s.ctl.vel ∧
      s'.ctl.desPos = s.refPos ∧ s'.ctl.desVel = s.refVel) ∧
    (s.mode = .position ∨ s.mode = .hover →
      let v := s.ctl.pos.computeControl dt fun i => s.refPos i ⊟ st.pos i
      let a := s.ctl.vel.computeControl dt fun i => v.2 i ⊟ st.vel i
      AccelerationStage s.ctl s'.ctl st.ori.toMat st.angVel a.2 s'.refYaw dt s'.actuation ∧
      s'.ctl.pos = v.1 ∧ s'.ctl.vel = a.1 ∧ s'.ctl.traj = s.ctl.traj ∧
      s'.ctl.desPos = s.refPos ∧ s'.ctl.desVel = v.2) := by
  intro s' st
  have hu : s' = _ := Sim.updateController_armed ha dt
  have hy : s'.refYaw = s.yawRef := by rw [hu]
  have hc := C53_cascade s.ctl st.ori.toMat st.pos st.vel st.angVel s.refPos s.refVel s.refAcc s.yawRef dt
  have hi := C52_isolation s.ctl st.ori.toMat st.pos st.vel st.angVel s.refPos s.refVel s.refAcc
    s.refAngVel s.refThrust s.yawRef dt
  refine ⟨by rw [hy]; rfl, fun hm => ?_, fun hm => ?_, fun hm => ?_, fun hm => ?_⟩
  · have h1 : s'.ctl = (s.ctl.acroControl st.angVel s.refThrust s.refAngVel dt).1 := by
      rw [hu]; simp only [Sim.command, hm]; rfl
    have h2 : s'.actuation = (s.ctl.acroControl st.angVel s.refThrust s.refAngVel dt).2 := by
      rw [hu]; simp only [Sim.command, hm]; rfl
    rw [h1, h2]
    exact ⟨⟨rfl, rfl, rfl, rfl, rfl⟩, rfl, rfl, rfl⟩
  · have h1 : s'.ctl = (s.ctl.velocityControl st.vel st.ori.toMat st.angVel s.refVel s.yawRef dt).1 := by
      rw [hu]; simp only [Sim.command, hm]; rfl
    have h2 : s'.actuation = (s.ctl.velocityControl st.vel st.ori.toMat st.angVel s.refVel s.yawRef dt).2 := by
      rw [hu]; simp only [Sim.command, hm]; rfl
    obtain ⟨a1, a2, a3⟩ := hc.2.1
    obtain ⟨b1, b2, -⟩ := hi.2.2.1
    rw [h1, h2, hy]
    exact ⟨a1, a3, rfl, rfl, rfl⟩
  · have h1 : s'.ctl = (s.ctl.trajectoryControl st.pos st.vel st.ori.toMat st.angVel s.refPos s.refVel
        s.refAcc s.yawRef dt).1 := by rw [hu]; simp only [Sim.command, hm]; rfl
    have h2 : s'.actuation = (s.ctl.trajectoryControl st.pos st.vel st.ori.toMat st.angVel s.refPos
        s.refVel s.refAcc s.yawRef dt).2 := by rw [hu]; simp only [Sim.command, hm]; rfl
    obtain ⟨a1, a2, a3, a4⟩ := hc.2.2.1
    rw [h1, h2, hy]
    exact ⟨a1, a4, rfl, rfl, rfl, rfl⟩
  · have h1 : s'.ctl = (s.ctl.positionControl st.pos st.ori.toMat st.vel st.angVel s.refPos s.yawRef dt).1 := by
      rw [hu]; rcases hm with hm | hm <;> simp only [Sim.command, hm] <;> rfl
    have h2 : s'.actuation =
        (s.ctl.positionControl st.pos st.ori.toMat st.vel st.angVel s.refPos s.yawRef dt).2 := by
      rw [hu]; rcases hm with hm | hm <;> simp only [Sim.command, hm] <;> rfl
    obtain ⟨a1, a2, a3, a4, a5⟩ := hc.1
    rw [h1, h2, hy]
    exact ⟨a1, a4, a5, rfl, rfl, rfl⟩

/-- Non-vacuity: an armed simulator in trajectory mode. -/
example [Noise ℝ] : ∃ s : Sim ℝ 4, Fixture.sim.Runs [.arm, .setControlMode .trajectory .rate] s ∧
    s.armed = true ∧ s.mode = .trajectory ∧ s.yawMode = .rate :=
  ⟨_, .ok rfl (.ok rfl (.nil _)), by simp [Sim.arm, Sim.setControlMode, Fixture.sim],
    by simp [Sim.arm, Sim.setControlMode, Fixture.sim], by simp [Sim.arm, Sim.setControlMode, Fixture.sim]⟩

/-- Calls that put the vehicle or the floor elsewhere without simulating: a new dynamics object, direct
access to it, or a new floor. -/
def relocates : SimOp α n → Bool
  | .setDynParams _ => true
  | .mutDyn _ => true
  | .enableFloor _ => true
  | _ => false

/-- One call that does not relocate: either a successful dynamics update or vehicle, floor height unchanged
and floor not newly enabled. -/
lemma step_keeps [Noise α] (hpos : le (Dyn.maxStep : α) (lit 0) = false) {s s' : Sim α n} {o : SimOp α n}
    (ho : relocates o = false) (h : s.step o = .ok s' ∨ s.step o = .throw s') :
    (∃ dt, s.updateDynamics dt = .ok s') ∨
    (s'.dyn = s.dyn ∧ s'.floorHeight = s.floorHeight ∧ (s'.floorEnable = true → s.floorEnable = true)) := by
  cases o with
  | updateDynamics dt =>
    rcases h with h | h
    · exact .inl ⟨dt, h⟩
    · right
      rcases Sim.updateDynamics_cases s dt with ⟨-, -, hb⟩ | ⟨ext, -, hu⟩
      · rw [Sim.step, hb] at h; simp at h
      · rw [Sim.step, hu] at h
        cases hp : s.dyn.process s.actuation dt ext (!s.floorCollision) with
        | bad => simp [hp] at h
        | ok d => simp only [hp] at h; split at h <;> simp at h
        | throw d =>
          simp only [hp, Res.throw.injEq] at h
          subst h
          exact ⟨(C05_throw_iff hpos _ _ _ _ _ _ hp).2, rfl, id⟩
  | updateController dt =>
    right
    simp only [Sim.step, Res.ok.injEq, reduceCtorEq, or_false] at h
    subst h
    cases ha : s.armed with
    | false => simp [Sim.updateController, ha]
    | true => rw [Sim.updateController_armed ha]; exact ⟨rfl, rfl, id⟩
  | setControlMode m y =>
    right
    simp only [Sim.step, Res.ok.injEq, reduceCtorEq, or_false] at h
    subst h
    unfold Sim.setControlMode
    split <;> exact ⟨rfl, rfl, id⟩
  | setOdomParams p =>
    right
    simp only [Sim.step, Sim.setOdomParams] at h
    cases ho : Odom.mk' p with
    | none => simp [ho] at h
    | some o =>
      simp only [ho, Res.ok.injEq, reduceCtorEq, or_false] at h
      subst h
      exact ⟨rfl, rfl, id⟩
  | setDynParams p => simp [relocates] at ho
  | mutDyn f => simp [relocates] at ho
  | enableFloor p => simp [relocates] at ho
  | disableFloor =>
    right
    simp only [Sim.step, Res.ok.injEq, reduceCtorEq, or_false] at h
    subst h
    exact ⟨rfl, rfl, fun h => by simp [Sim.disableFloor] at h⟩
  | _ =>
    right
    simp only [Sim.step, Res.ok.injEq, reduceCtorEq, or_false] at h
    subst h
    exact ⟨rfl, rfl, id⟩

/-- **C01, for whole histories.** Once an update has returned, the vehicle is never observed below an
enabled floor, through all later calls, exceptions included, that do not relocate vehicle or floor. -/
theorem C01_history [LawfulFlt α] [Noise α] (hpos : le (Dyn.maxStep : α) (lit 0) = false)
    (s s₁ s₂ : Sim α n) (dt : α) (h : s.updateDynamics dt = .ok s₁) (os : List (SimOp α n))
    (hos : ∀ o ∈ os, relocates o = false) (hr : s₁.Runs os s₂) (hf : s₂.floorEnable = true) :
    lt (s₂.dyn.state.pos 2) s₂.floorHeight = false := by
  have h₁ := C01_never_below_floor s s₁ dt h
  clear h
  have key : ∀ (s₁ s' s₂ : Sim α n) (o : SimOp α n), relocates o = false →
      (s₁.step o = .ok s' ∨ s₁.step o = .throw s') →
      (s₁.floorEnable = true → lt (s₁.dyn.state.pos 2) s₁.floorHeight = false) →
      s'.floorEnable = true → lt (s'.dyn.state.pos 2) s'.floorHeight = false := by
    intro s₁ s' s₂ o ho hs h₁ hf
    rcases step_keeps hpos ho hs with ⟨dt, hu⟩ | ⟨hd, hh, he⟩
    · exact C01_never_below_floor _ _ _ hu hf
    · rw [hd, hh]; exact h₁ (he hf)
  induction hr with
  | nil s => exact h₁ hf
  | ok hs _ ih =>
    exact ih (fun o ho => hos o (List.mem_cons_of_mem _ ho)) hf
      (key _ _ s _ (hos _ List.mem_cons_self) (.inl hs) h₁)
  | throw hs _ ih =>
    exact ih (fun o ho => hos o (List.mem_cons_of_mem _ ho)) hf
      (key _ _ s _ (hos _ List.mem_cons_self) (.inr hs) h₁)

/-- Non-vacuity: after an update that ends on a floor above the vehicle the user disarms and then asks for a
rejected update. -/
example [Noise ℝ] : ∃ s s₁ s₂ : Sim ℝ 4, s.updateDynamics (1 / 200) = .ok s₁ ∧
    s₁.Runs [.disarm, .updateDynamics 0] s₂ ∧ le (Dyn.maxStep : ℝ) (lit 0) = false ∧
    (∀ o ∈ ([.disarm, .updateDynamics 0] : List (SimOp ℝ 4)), relocates o = false) := by
  obtain ⟨s₁, h⟩ := Fixture.updateDynamics_ok (Fixture.sim.enableFloor 5) rfl (1 / 200) (by norm_num)
    (by norm_num)
  have hb : s₁.disarm.belowFloor = false := by
    have := C01_never_below_floor _ _ _ h
    cases he : s₁.floorEnable with
    | false => simp [Sim.belowFloor, Sim.disarm, he]
    | true => simpa [Sim.belowFloor, Sim.disarm, he] using this he
  rcases Sim.updateDynamics_cases s₁.disarm (0 : ℝ) with ⟨hb', -, -⟩ | ⟨ext, -, hu⟩
  · rw [hb] at hb'; simp at hb'
  · rw [C05_dynamics_rejects _ _ _ _ _ (by simp [flt])] at hu
    exact ⟨_, _, _, h, .ok rfl (.throw hu (.nil _)), by simp [Dyn.maxStep, flt],
      by simp [relocates]⟩

/-- **C04, for whole histories.** Once an update has returned, the rotor speeds are within their limits
through all later calls, exceptions included, that do not relocate the vehicle. -/
theorem C04_history [LawfulFlt α] [Noise α] (hsub : Dyn.SubstepPos α)
    (hpos : le (Dyn.maxStep : α) (lit 0) = false)
    (s s₁ s₂ : Sim α n) (dt : α) (h : s.updateDynamics dt = .ok s₁) (os : List (SimOp α n))
    (hos : ∀ o ∈ os, relocates o = false) (hr : s₁.Runs os s₂) : WithinLimits s₂.dyn := by
  have h₁ := C04_rotor_limits_sim hsub s s₁ dt h
  clear h
  have key : ∀ (s₁ s' : Sim α n) (o : SimOp α n), relocates o = false →
      (s₁.step o = .ok s' ∨ s₁.step o = .throw s') → WithinLimits s₁.dyn → WithinLimits s'.dyn := by
    intro s₁ s' o ho hs h₁
    rcases step_keeps hpos ho hs with ⟨dt, hu⟩ | ⟨hd, hh, he⟩
    · exact C04_rotor_limits_sim hsub _ _ _ hu
    · rw [hd]; exact h₁
  induction hr with
  | nil s => exact h₁
  | ok hs _ ih =>
    exact ih (fun o ho => hos o (List.mem_cons_of_mem _ ho))
      (key _ _ _ (hos _ List.mem_cons_self) (.inl hs) h₁)
  | throw hs _ ih =>
    exact ih (fun o ho => hos o (List.mem_cons_of_mem _ ho))
      (key _ _ _ (hos _ List.mem_cons_self) (.inr hs) h₁)

/-- Non-vacuity of `C04_history`: real arithmetic, an update, and a rejected one after the vehicle was disarmed and the floor
taken away. -/
example [Noise ℝ] : Dyn.SubstepPos ℝ ∧ le (Dyn.maxStep : ℝ) (lit 0) = false ∧
    ∃ s s₁ s₂ : Sim ℝ 4, s.updateDynamics (1 / 200) = .ok s₁ ∧ s₁.Runs [.disarm, .disableFloor, .updateDynamics 0] s₂ ∧
      ∀ o ∈ ([.disarm, .disableFloor, .updateDynamics 0] : List (SimOp ℝ 4)), relocates o = false := by
  obtain ⟨s₁, h⟩ := Fixture.updateDynamics_ok Fixture.sim rfl (1 / 200) (by norm_num) (by norm_num)
  rcases Sim.updateDynamics_cases s₁.disarm.disableFloor (0 : ℝ) with ⟨hb, -, -⟩ | ⟨ext, -, hu⟩
  · simp [Sim.belowFloor, Sim.disableFloor] at hb
  · rw [C05_dynamics_rejects _ _ _ _ _ (by simp [flt])] at hu
    exact ⟨substepPos_real, by simp [Dyn.maxStep, flt], _, _, _, h, .ok rfl (.ok rfl (.throw hu (.nil _))), by simp [relocates]⟩

end Verif.Props
