import Verif.Props.Progress
import Verif.Lemmas.Symmetry

/-!
# C78, C79: the origin of coordinates and full turns of the yaw reference do not matter

Over the reals, for whole histories of all public calls.
-/

namespace Verif.Props

open Verif Flt Spec

variable {n : ℕ} [Noise ℝ]

/-! ## C78 -/

omit [Noise ℝ] in
lemma getError_moved (x y v : Vec 3 ℝ) : Pid.getError (x + v) (y + v) = Pid.getError x y := by
  simp [Pid.getError, flt]

omit [Noise ℝ] in
/-- The recorded position reference is written, never read. -/
lemma moved_command {v : Vec 3 ℝ} {s t : Sim ℝ n} (h : MovedSim v s t) (y dt : ℝ) :
    MovedCtl (s.command y dt).1 (t.command y dt).1 ∧ (t.command y dt).2 = (s.command y dt).2 := by
  obtain ⟨hd, hc, he⟩ := h
  rw [he]
  generalize t.dyn = e at *
  generalize t.ctl = c at *
  unfold MovedDyn at hd
  unfold MovedCtl at hc
  rw [hd, hc]
  unfold Sim.command
  simp only []
  split
  · exact ⟨rfl, rfl⟩
  · exact ⟨rfl, rfl⟩
  · simp only [Ctl.trajectoryControl, Ctl.convertTrajectory, getError_moved]
    exact ⟨rfl, rfl⟩
  · exact ⟨rfl, rfl⟩
  · simp only [Ctl.positionControl, Ctl.convertPosition, getError_moved]
    exact ⟨rfl, rfl⟩
  · simp only [Ctl.positionControl, Ctl.convertPosition, getError_moved]
    exact ⟨rfl, rfl⟩

lemma moved_process {v : Vec 3 ℝ} {d e : Dyn ℝ n} (h : MovedDyn v d e) (act : Vec n ℝ) (dt : ℝ)
    (ext : Vec 3 ℝ) (noise : Bool) :
    Res.Rel (MovedDyn v) (d.process act dt ext noise) (e.process act dt ext noise) := by
  refine Dyn.process_rel ?_ dt d e h
  rintro dt a _ rfl
  refine Dyn.singleStep_rel rfl fun c ms _ _ => ?_
  simp only [MovedDyn, Dyn.eulerStep, vadd_real, smulR_real]
  congr 2
  abel

omit [Noise ℝ] in
lemma moved_collide {v : Vec 3 ℝ} {s t : Sim ℝ n} (h : MovedSim v s t) :
    MovedSim v s.collide t.collide := by
  obtain ⟨hd, hc, he⟩ := h
  rw [he]
  generalize t.dyn = e at *
  generalize t.ctl = c at *
  unfold MovedDyn at hd
  subst hd
  refine ⟨?_, hc, rfl⟩
  simp only [MovedDyn, Sim.collide, Dyn.setState]
  congr 2
  ext i
  by_cases hi : i = 2 <;> simp [hi]

/-- Related calls on related simulators have related outcomes. -/
lemma moved_step (v : Vec 3 ℝ) (s t : Sim ℝ n) (o o' : SimOp ℝ n) (h : MovedSim v s t)
    (ho : MovedOp v o o') : Res.Rel (MovedSim v) (s.step o) (t.step o') := by
  have h' := h
  have hcmd := moved_command h
  obtain ⟨hd, hc, he⟩ := h
  rw [he] at h' ⊢
  rw [he] at hcmd
  generalize t.dyn = e at *
  generalize t.ctl = c at *
  clear he
  have hd' := hd
  unfold MovedDyn at hd'
  subst hd'
  cases ho with
  | updateDynamics =>
    rename_i dt
    refine Sim.updateDynamics_rel (Rd := MovedDyn v) ?_ rfl rfl
      (fun ext => moved_process hd _ _ _ _) (fun ext d e hde => ⟨hde, hc, rfl⟩)
      (fun d e hde => ⟨?_, ⟨hde, hc, rfl⟩, moved_collide ⟨hde, hc, rfl⟩⟩)
    · simp [Sim.belowFloor, flt]
    · rw [show e = _ from hde]
      simp [Sim.belowFloor, flt]
  | updateController =>
    rename_i dt
    simp only [Sim.step]
    rcases Bool.eq_false_or_eq_true s.armed with hb | hb
    · rw [Sim.updateController_armed hb, Sim.updateController_armed (by exact hb)]
      have e1 : ∀ f r (d : Dyn ℝ n), d = { s.dyn with state := { s.dyn.state with pos := d.state.pos } } →
          Sim.yawRef { s with dyn := d, ctl := c, floorHeight := f, refPos := r } = s.yawRef := by
        intro f r d hd
        rw [hd, show c = _ from hc]
        rfl
      rw [e1 _ _ _ rfl]
      obtain ⟨h1, h2⟩ := hcmd s.yawRef dt
      rw [h2]
      exact ⟨hd, h1, rfl⟩
    · rw [Sim.updateController_disarmed hb, Sim.updateController_disarmed (by exact hb)]
      exact ⟨hd, hc, rfl⟩
  | setControlMode =>
    simp only [Sim.step, Sim.setControlMode]
    split
    · exact h'
    · exact ⟨hd, hc, rfl⟩
  | arm =>
    refine ⟨hd, hc, ?_⟩
    simp only [Sim.arm]
    congr 1
    ext i
    by_cases hi : i = 2 <;> simp [hi]
  | setDynParams =>
    rename_i p
    simp only [Sim.step, Sim.setDynParams, Dyn.mk']
    cases Model.mk' (n := n) p.model p.seed with
    | none => trivial
    | some m => exact ⟨rfl, hc, rfl⟩
  | setCtlParams => exact ⟨hd, rfl, rfl⟩
  | setOdomParams =>
    rename_i p
    simp only [Sim.step, Sim.setOdomParams]
    cases Odom.mk' p with
    | none => trivial
    | some d => exact ⟨hd, hc, rfl⟩
  | mutDyn hf => exact ⟨hf _ _ hd, hc, rfl⟩
  | mutCtl hf => exact ⟨hd, hf _ _ hc, rfl⟩
  | _ => exact ⟨hd, hc, rfl⟩

/-- **C78, histories.** The same closed loop seen from another origin (initial position, floor height and
position references displaced by the same vector): at every moment of every history of all calls the
positions are displaced by that vector, everything else — velocities, attitude, controller memory, rotor
commands, measurements, noise, odometry — is equal, and the same calls throw. -/
theorem C78_histories (v : Vec 3 ℝ) (s t s' : Sim ℝ n) (tr : List (Event ℝ n)) (h : Trace s tr s')
    (hst : MovedSim v s t) (os : List (SimOp ℝ n)) (ho : List.Forall₂ (MovedOp v) (tr.map Event.op) os) :
    ∃ (tr' : List (Event ℝ n)) (t' : Sim ℝ n), Trace t tr' t' ∧ tr'.map Event.op = os ∧
      Corresponds (MovedSim v) (MovedOp v) tr tr' ∧ MovedSim v s' t' :=
  Sim.trace_rel (moved_step v) h t os hst ho

/-- **C78, from construction.** A simulator built at a displaced position, after the first two calls that
tell it the displaced floor and position reference. -/
theorem C78_construction (v : Vec 3 ℝ) (p : SimParams ℝ n) (s : Sim ℝ n) (h : Sim.mk' p = some s) :
    ∃ t, Sim.mk' { p with dyn := { p.dyn with state := { p.dyn.state with
      pos := p.dyn.state.pos + v } } } = some t ∧
    ∀ (x : Vec 3 ℝ) (f : ℝ) (s₁ s₂ : Sim ℝ n), s.step (.setRefPos x) = .ok s₁ →
      s₁.step (.enableFloor f) = .ok s₂ → ∃ t₁ t₂, t.step (.setRefPos (x + v)) = .ok t₁ ∧
        t₁.step (.enableFloor (f + v 2)) = .ok t₂ ∧ MovedSim v s₂ t₂ := by
  simp only [Sim.mk', Dyn.mk'] at h ⊢
  cases hm : Model.mk' (n := n) p.dyn.model p.dyn.seed with
  | none => simp [hm] at h
  | some m =>
    cases ho : Odom.mk' p.odom with
    | none => simp [hm, ho] at h
    | some od =>
      simp only [hm, ho, Option.map_some, Option.some.injEq] at h
      refine ⟨_, rfl, fun x f s₁ s₂ h1 h2 => ⟨_, _, rfl, rfl, ?_⟩⟩
      simp only [Sim.step, Res.ok.injEq] at h1 h2
      subst h1
      subst h2
      subst h
      exact ⟨rfl, rfl, rfl⟩

/-- A displaced fixture and a history with a floor, a mode change and updates. -/
example : ∃ (s t s' : Sim ℝ 4) (tr : List (Event ℝ 4)) (os : List (SimOp ℝ 4)), s ≠ t ∧
    MovedSim ![1, 2, 3] s t ∧ Trace s tr s' ∧
    tr.map Event.op = [.enableFloor 0, .arm, .setControlMode .position .angle, .setRefPos ![0, 0, 1],
      .updateController (1 / 100), .updateDynamics (1 / 100)] ∧
    List.Forall₂ (MovedOp ![1, 2, 3]) (tr.map Event.op) os := by
  obtain ⟨tr, s', ht, ho⟩ := fixture_trace [.enableFloor 0, .arm, .setControlMode .position .angle,
    .setRefPos ![0, 0, 1], .updateController (1 / 100), .updateDynamics (1 / 100)]
    (by simp [Sanctioned]; norm_num)
  refine ⟨Fixture.sim, { Fixture.sim with
    dyn := { Fixture.sim.dyn with state := { Fixture.sim.dyn.state with
      pos := Fixture.sim.dyn.state.pos + ![1, 2, 3] } }
    floorHeight := Fixture.sim.floorHeight + (![1, 2, 3] : Vec 3 ℝ) 2
    refPos := Fixture.sim.refPos + ![1, 2, 3] }, s', tr, [.enableFloor (0 + (![1, 2, 3] : Vec 3 ℝ) 2), .arm,
    .setControlMode .position .angle, .setRefPos (![0, 0, 1] + ![1, 2, 3]), .updateController (1 / 100),
    .updateDynamics (1 / 100)], ?_, ⟨rfl, rfl, rfl⟩, ht, ho, ?_⟩
  · intro h
    have := congrArg (fun s : Sim ℝ 4 => s.dyn.state.pos 0) h
    simp at this
  · rw [ho]
    exact .cons .enableFloor (.cons .arm (.cons .setControlMode (.cons .setRefPos
      (.cons .updateController (.cons .updateDynamics .nil)))))

/-! ## C79 -/

omit [Noise ℝ] in
lemma heading_refl (x : ℝ) : SameHeading x x := ⟨0, by simp⟩

omit [Noise ℝ] in
lemma heading_attitude {x y : ℝ} (h : SameHeading x y) (f : Vec 3 ℝ) :
    Acro.desiredAttitude y f = Acro.desiredAttitude x f := by
  obtain ⟨k, rfl⟩ := h
  unfold Acro.desiredAttitude
  rw [cos_real, sin_real, Real.cos_add_int_mul_two_pi, Real.sin_add_int_mul_two_pi]
  rfl

omit [Noise ℝ] in
lemma heading_command {x y : ℝ} (h : SameHeading x y) (s : Sim ℝ n) (dt : ℝ) :
    s.command y dt = s.command x dt := by
  unfold Sim.command
  cases s.mode <;>
  simp [Ctl.trajectoryControl, Ctl.positionControl, Ctl.velocityControl, Ctl.accelerationControl,
    Ctl.accelerationToAcro, Acro.yawAngleToAngularVelocity, heading_attitude h]

lemma heading_step (s t : Sim ℝ n) (o o' : SimOp ℝ n) (h : SameHeadingSim s t)
    (ho : SameHeadingOp o o') : Res.Rel SameHeadingSim (s.step o) (t.step o') := by
  have h' := h
  obtain ⟨hy, he⟩ := h
  rw [he] at h' ⊢
  generalize t.refYaw = y at *
  clear he
  cases ho with
  | setRefYaw hxy => exact ⟨hxy, rfl⟩
  | same =>
    cases o with
    | updateDynamics dt =>
      refine Sim.updateDynamics_rel (Rd := fun a b => a = b) rfl rfl rfl (fun ext => ?_)
        (fun ext d e hde => ?_) (fun d e hde => ?_)
      · cases s.dyn.process s.actuation dt ext (!s.floorCollision) <;> simp [Res.Rel]
      · subst hde; exact ⟨hy, rfl⟩
      · subst hde; exact ⟨rfl, ⟨hy, rfl⟩, ⟨hy, rfl⟩⟩
    | updateController dt =>
      simp only [Sim.step]
      rcases Bool.eq_false_or_eq_true s.armed with hb | hb
      · rw [Sim.updateController_armed hb, Sim.updateController_armed (by exact hb)]
        have e1 : SameHeading s.yawRef (Sim.yawRef { s with refYaw := y }) := by
          unfold Sim.yawRef
          simp only []
          split
          · exact heading_refl _
          · exact hy
        have e2 : ∀ z, Sim.command { s with refYaw := y } z dt = s.command z dt := fun z => rfl
        rw [e2, heading_command e1]
        exact ⟨e1, rfl⟩
      · rw [Sim.updateController_disarmed hb, Sim.updateController_disarmed (by exact hb)]
        exact ⟨hy, rfl⟩
    | setControlMode m z =>
      simp only [Sim.step, Sim.setControlMode]
      split
      · exact h'
      · exact ⟨heading_refl _, rfl⟩
    | setDynParams p =>
      simp only [Sim.step, Sim.setDynParams]
      cases Dyn.mk' p with
      | none => trivial
      | some d => exact ⟨hy, rfl⟩
    | setOdomParams p =>
      simp only [Sim.step, Sim.setOdomParams]
      cases Odom.mk' p with
      | none => trivial
      | some d => exact ⟨hy, rfl⟩
    | setRefYaw z => exact ⟨heading_refl _, rfl⟩
    | _ => exact ⟨hy, rfl⟩

/-- **C79.** Yaw references that differ by full turns (a different number at every call) give the same
history: at every moment only the stored yaw reference differs, by full turns. -/
theorem C79_full_turns (s t s' : Sim ℝ n) (tr : List (Event ℝ n)) (h : Trace s tr s')
    (hst : SameHeadingSim s t) (os : List (SimOp ℝ n))
    (ho : List.Forall₂ SameHeadingOp (tr.map Event.op) os) :
    ∃ (tr' : List (Event ℝ n)) (t' : Sim ℝ n), Trace t tr' t' ∧ tr'.map Event.op = os ∧
      Corresponds SameHeadingSim SameHeadingOp tr tr' ∧ SameHeadingSim s' t' :=
  Sim.trace_rel heading_step h t os hst ho

/-- Yaw 1 and yaw 1 - 2π, in a history with controller and dynamics updates. -/
example : ∃ (s' : Sim ℝ 4) (tr : List (Event ℝ 4)), Trace Fixture.sim tr s' ∧
    tr.map Event.op = [.arm, .setControlMode .position .angle, .setRefYaw 1, .updateController (1 / 100),
      .updateDynamics (1 / 100)] ∧
    SameHeadingSim Fixture.sim Fixture.sim ∧
    List.Forall₂ SameHeadingOp (tr.map Event.op) [.arm, .setControlMode .position .angle,
      .setRefYaw (1 - 2 * Real.pi), .updateController (1 / 100), .updateDynamics (1 / 100)] := by
  obtain ⟨tr, s', ht, ho⟩ := fixture_trace [.arm, .setControlMode .position .angle, .setRefYaw 1,
    .updateController (1 / 100), .updateDynamics (1 / 100)] (by simp [Sanctioned]; norm_num)
  refine ⟨s', tr, ht, ho, ⟨heading_refl _, rfl⟩, ?_⟩
  rw [ho]
  exact .cons .same (.cons .same (.cons (.setRefYaw ⟨-1, by push_cast; ring⟩) (.cons .same
    (.cons .same .nil))))

end Verif.Props
