import Verif.Spec.Finite
import Verif.Props.Sim
import Verif.Props.PidNan

/-!
# C87: finite numbers stay finite
-/

namespace Verif.Props

open Verif Flt Spec XReal

section helpers
variable {n : ℕ}

lemma setSatLoop_proper (u l : Vec n ℝ) (b : Bool) (is : List (Fin n)) (p : Pid ℝ n)
    (h : b = true → ∀ i, l i ≤ 0 ∧ 0 ≤ u i) (hp : is = [] → p.upper = u ∧ p.lower = l) :
    RegularPid (Pid.setSatLoop u l b is p) := by
  induction is generalizing p with
  | nil =>
    intro _ hb i
    obtain ⟨h1, h2⟩ := hp rfl
    simp only [Pid.setSatLoop] at hb ⊢
    rw [h1, h2]
    exact h hb i
  | cons i is ih =>
    unfold Pid.setSatLoop
    split
    · intro hs; simp [Pid.disableSat] at hs
    · split
      · intro hs; simp [Pid.disableSat] at hs
      · exact ih _ fun _ => ⟨rfl, rfl⟩

lemma properPid_regular {q : PidParams ℝ n} (h : ProperPid q) : RegularPid (Pid.mk' q) := by
  unfold Pid.mk' Pid.updateParams
  split
  · rcases n with - | n
    · intro _ _ i; exact i.elim0
    · exact setSatLoop_proper q.upper q.lower q.propSat _ _ h fun h0 => by
        simp [List.finRange_succ] at h0
  · intro hs; simp [Pid.disableSat, Pid.reset] at hs

lemma properCtl_regular {p : CtlParams ℝ n} (h : ProperCtl p) : Finite.RegularCtl (Ctl.mk' p) :=
  ⟨properPid_regular h.pos, properPid_regular h.traj, properPid_regular h.vel, properPid_regular h.indi⟩

lemma regularDyn_mk {p : DynParams ℝ n} {d : Dyn ℝ n} (h : RegularParams p.model) (hd : Dyn.mk' p = some d) :
    Finite.RegularDyn d := by
  intro c hc
  unfold Dyn.mk' Model.mk' Model.updateParams at hd
  split at hd
  · simp only [Option.map_some, Option.some.injEq] at hd
    subst hd
    simp at hc
  · split at hd
    · simp at hd
    · split at hd
      · simp only [Option.map_some, Option.some.injEq] at hd
        subst hd
        simp only [Option.some.injEq] at hc
        subst hc
        exact h
      · simp at hd

variable [Noise ℝ]

lemma properImu_regular {p : ImuParams ℝ} (h : ProperImu p) : RegularImu (Imu.mk' p) :=
  ⟨h.1, h.2, h.3, h.4⟩

lemma mk_f (p : SimParams ℝ n) (h : ProperImu p.imu) : Sim.mk' p.fin = (Sim.mk' p).map Sim.fin := by
  have h1 := Finite.dynMk_f p.dyn
  have h2 := Finite.odomMk_f p.odom
  have h3 := Finite.ctlMk_f p.ctl
  have h4 := Finite.imuMk_f p.imu h.1 h.2
  unfold Sim.mk'
  rw [show p.fin.dyn = p.dyn.fin from rfl, show p.fin.odom = p.odom.fin from rfl,
    show p.fin.ctl = p.ctl.fin from rfl, show p.fin.imu = p.imu.fin from rfl, h1, h2, h3, h4]
  cases Dyn.mk' p.dyn with
  | none => rfl
  | some d =>
    cases Odom.mk' p.odom <;> rfl

lemma mk_regular {p : SimParams ℝ n} (h : ProperParams p) {s : Sim ℝ n} (hs : Sim.mk' p = some s) :
    RegularSim s := by
  unfold Sim.mk' at hs
  split at hs
  · rename_i d o hd ho
    simp only [Option.some.injEq] at hs
    subst hs
    exact ⟨regularDyn_mk h.model hd, properCtl_regular h.ctl, properImu_regular h.imu⟩
  · simp at hs

omit [Noise ℝ] in
lemma updateController_regular {s : Sim ℝ n} (h : RegularSim s) (dt : ℝ) :
    RegularSim (s.updateController dt) := by
  unfold Sim.updateController
  split
  · exact ⟨h.1, h.2, h.3⟩
  · have hz : RegularSim (if s.yawMode = .rate then s.updateYawReference else s) := by
      split
      · exact ⟨h.1, h.2, h.3⟩
      · exact h
    generalize (if s.yawMode = .rate then s.updateYawReference else s) = z at hz
    simp only []
    cases z.mode with
    | motorW => exact ⟨hz.1, hz.2, hz.3⟩
    | acro => exact ⟨hz.1, Finite.acroControl_regular hz.ctl _ _ _ _, hz.3⟩
    | trajectory => exact ⟨hz.1, Finite.trajectoryControl_regular hz.ctl _ _ _ _ _ _ _ _ _, hz.3⟩
    | velocity => exact ⟨hz.1, Finite.velocityControl_regular hz.ctl _ _ _ _ _ _, hz.3⟩
    | position => exact ⟨hz.1, Finite.positionControl_regular hz.ctl _ _ _ _ _ _ _, hz.3⟩
    | hover => exact ⟨hz.1, Finite.positionControl_regular hz.ctl _ _ _ _ _ _ _, hz.3⟩

lemma step_regular {s s' : Sim ℝ n} {o : SimOp ℝ n} {o' : SimOp XReal n} (ho : FiniteCall True o o')
    (h : RegularSim s) (hs : s.step o = .ok s' ∨ s.step o = .throw s') : RegularSim s' := by
  cases ho with
  | updateDynamics dt =>
    rcases hs with hs | hs
    · obtain ⟨ext, d, -, hp, rfl⟩ := Sim.updateDynamics_ok hs
      have hc := Dyn.process_core hp
      have hd : Finite.RegularDyn d := fun c hc' => h.dyn c (by rw [← hc, hc'])
      simp only []
      split
      · exact ⟨hd, h.2, h.3.1, h.3.2, h.3.3, h.3.4⟩
      · exact ⟨hd, h.2, h.3⟩
    · obtain ⟨ext, d, hp, rfl⟩ := Sim.updateDynamics_throw hs
      obtain ⟨-, rfl⟩ := C05_throw_iff (by simp [Dyn.maxStep, flt]) _ _ _ _ _ _ hp
      exact ⟨h.1, h.2, h.3⟩
  | updateController dt _ =>
    simp only [Sim.step, Res.ok.injEq, reduceCtorEq, or_false] at hs
    subst hs
    exact updateController_regular h dt
  | updateImu dt =>
    simp only [Sim.step, Res.ok.injEq, reduceCtorEq, or_false] at hs
    subst hs
    exact ⟨h.1, h.2, Finite.imuUpdate_regular h.3 _ _ _⟩
  | setDynParams p hp =>
    simp only [Sim.step, Sim.setDynParams] at hs
    cases hd : Dyn.mk' p with
    | none => simp [hd] at hs
    | some d =>
      simp only [hd, Res.ok.injEq, reduceCtorEq, or_false] at hs
      subst hs
      exact ⟨regularDyn_mk (hp trivial) hd, h.2, h.3⟩
  | setOdomParams p =>
    simp only [Sim.step, Sim.setOdomParams] at hs
    cases hd : Odom.mk' p with
    | none => simp [hd] at hs
    | some d =>
      simp only [hd, Res.ok.injEq, reduceCtorEq, or_false] at hs
      subst hs
      exact ⟨h.1, h.2, h.3⟩
  | setControlMode m y =>
    simp only [Sim.step, Res.ok.injEq, reduceCtorEq, or_false] at hs
    subst hs
    unfold Sim.setControlMode
    split
    · exact h
    · exact ⟨h.1, h.2, h.3⟩
  | setCtlParams p hp =>
    simp only [Sim.step, Res.ok.injEq, reduceCtorEq, or_false] at hs
    subst hs
    exact ⟨h.1, properCtl_regular (hp trivial), h.3⟩
  | setImuParams p hp =>
    simp only [Sim.step, Res.ok.injEq, reduceCtorEq, or_false] at hs
    subst hs
    exact ⟨h.1, h.2, properImu_regular (hp trivial)⟩
  | mutDyn f f' hf hr =>
    simp only [Sim.step, Res.ok.injEq, reduceCtorEq, or_false] at hs
    subst hs
    exact ⟨hr trivial _ h.1, h.2, h.3⟩
  | mutCtl f f' hf hr =>
    simp only [Sim.step, Res.ok.injEq, reduceCtorEq, or_false] at hs
    subst hs
    exact ⟨h.1, hr trivial _ h.2, h.3⟩
  | mutImu f f' hf hr =>
    simp only [Sim.step, Res.ok.injEq, reduceCtorEq, or_false] at hs
    subst hs
    exact ⟨h.1, h.2, hr trivial _ h.3⟩
  | _ =>
    simp only [Sim.step, Res.ok.injEq, reduceCtorEq, or_false] at hs
    subst hs
    exact ⟨h.1, h.2, h.3⟩

lemma step_f {s : Sim ℝ n} {o : SimOp ℝ n} {o' : SimOp XReal n} (ho : FiniteCall True o o')
    (h : RegularSim s) : s.fin.step o' = (s.step o).map Sim.fin := by
  cases ho with
  | updateDynamics dt => exact Finite.updateDynamics_f s h dt
  | updateController dt hd => exact congrArg Res.ok (Finite.updateController_f s h dt (hd trivial))
  | updateImu dt => exact congrArg Res.ok (Finite.updateImu_f s h dt)
  | updateOdom dt => exact congrArg Res.ok (Finite.updateOdom_f s dt)
  | arm =>
    refine congrArg Res.ok ?_
    have : (fun i : Fin 3 => if i = 2 then s.fin.floorHeight else s.fin.refPos i) =
        vfin fun i => if i = 2 then s.floorHeight else s.refPos i := by
      ext i; by_cases h : i = 2 <;> simp only [Finite.vfin_apply, h, if_true, if_false] <;> rfl
    unfold Sim.arm
    rw [this]
    rfl
  | setControlMode m y =>
    refine congrArg Res.ok ?_
    unfold Sim.setControlMode
    rw [show s.fin.mode = s.mode from rfl, show s.fin.yawMode = s.yawMode from rfl]
    split
    · rfl
    · rw [show s.fin.dyn.state.ori = qfin s.dyn.state.ori from rfl, Finite.quatToEuler_f]
      rfl
  | setDynParams p hp =>
    have := Finite.dynMk_f p
    simp only [Sim.step, Sim.setDynParams]
    rw [this]
    cases Dyn.mk' p <;> rfl
  | setCtlParams p hp =>
    refine congrArg Res.ok ?_
    unfold Sim.setCtlParams
    rw [Finite.ctlMk_f]
    rfl
  | setImuParams p hp =>
    refine congrArg Res.ok ?_
    unfold Sim.setImuParams
    rw [Finite.imuMk_f p (hp trivial).1 (hp trivial).2]
    rfl
  | setOdomParams p =>
    have := Finite.odomMk_f p
    simp only [Sim.step, Sim.setOdomParams]
    rw [this]
    cases Odom.mk' p <;> rfl
  | mutDyn f f' hf hr =>
    refine congrArg Res.ok ?_
    rw [show s.fin.dyn = s.dyn.fin from rfl, hf]
    rfl
  | mutCtl f f' hf hr =>
    refine congrArg Res.ok ?_
    rw [show s.fin.ctl = s.ctl.fin from rfl, hf]
    rfl
  | mutImu f f' hf hr =>
    refine congrArg Res.ok ?_
    rw [show s.fin.imu = s.imu.fin from rfl, hf]
    rfl
  | mutOdom f f' hf =>
    refine congrArg Res.ok ?_
    rw [show s.fin.odom = s.odom.fin from rfl, hf]
    rfl
  | _ => rfl

lemma runs_f {os : List (SimOp ℝ n)} {os' : List (SimOp XReal n)} (ho : List.Forall₂ (FiniteCall True) os os')
    {s : Sim ℝ n} (h : RegularSim s) (t' : Sim XReal n) :
    Sim.Runs s.fin os' t' ↔ ∃ t, Sim.Runs s os t ∧ t' = t.fin := by
  induction ho generalizing s with
  | nil =>
    constructor
    · intro hr; cases hr; exact ⟨s, .nil s, rfl⟩
    · rintro ⟨t, hr, rfl⟩; cases hr; exact .nil _
  | @cons o o' os os' h1 h2 ih =>
    have hstep := step_f h1 h
    constructor
    · intro hr
      cases hr with
      | ok hs hr =>
        cases hso : s.step o with
        | ok s1 =>
          rw [hstep, hso] at hs
          simp only [Res.map, Res.ok.injEq] at hs
          subst hs
          obtain ⟨t, ht, e⟩ := (ih (step_regular h1 h (.inl hso))).1 hr
          exact ⟨t, .ok hso ht, e⟩
        | throw s1 => rw [hstep, hso] at hs; simp [Res.map] at hs
        | bad => rw [hstep, hso] at hs; simp [Res.map] at hs
      | throw hs hr =>
        cases hso : s.step o with
        | throw s1 =>
          rw [hstep, hso] at hs
          simp only [Res.map, Res.throw.injEq] at hs
          subst hs
          obtain ⟨t, ht, e⟩ := (ih (step_regular h1 h (.inr hso))).1 hr
          exact ⟨t, .throw hso ht, e⟩
        | ok s1 => rw [hstep, hso] at hs; simp [Res.map] at hs
        | bad => rw [hstep, hso] at hs; simp [Res.map] at hs
    · rintro ⟨t, hr, rfl⟩
      cases hr with
      | ok hs hr =>
        exact .ok (by rw [hstep, hs]; rfl) ((ih (step_regular h1 h (.inl hs))).2 ⟨t, hr, rfl⟩)
      | throw hs hr =>
        exact .throw (by rw [hstep, hs]; rfl) ((ih (step_regular h1 h (.inr hs))).2 ⟨t, hr, rfl⟩)

end helpers

/-- The claim of C87: whatever finite parameters a simulator is built from and whatever calls with finite
arguments follow, every number in it is finite. -/
def C87_claim : Prop :=
  ∀ (_ : Noise ℝ) (n : ℕ) (p : SimParams ℝ n) (os : List (SimOp ℝ n)) (os' : List (SimOp XReal n))
    (s' t' : Sim XReal n), List.Forall₂ (FiniteCall False) os os' → Sim.mk' p.fin = some s' →
    Sim.Runs s' os' t' → ∃ t : Sim ℝ n, t' = t.fin

/-- C87 holds if the parameters are proper (non-zero mass and rotor time constants, invertible inertia, no
negative variance, proportional saturation limits that enclose zero) and no controller update has period
zero: every number in the simulator is then finite after every history.  Moreover the history is the one
of exact real arithmetic: no NaN or infinity was ever involved.

Not proved, because false: the same for all finite parameters and periods (`C87_violated`).  Rounding and
overflow of large numbers are outside this arithmetic. -/
theorem C87_finite_partial [Noise ℝ] {n : ℕ} (p : SimParams ℝ n) (hp : ProperParams p)
    (os : List (SimOp ℝ n)) (os' : List (SimOp XReal n)) (ho : List.Forall₂ (FiniteCall True) os os')
    (s' t' : Sim XReal n) :
    (Sim.mk' p.fin = some s' ∧ Sim.Runs s' os' t') ↔
      ∃ s t : Sim ℝ n, Sim.mk' p = some s ∧ Sim.Runs s os t ∧ s' = s.fin ∧ t' = t.fin := by
  rw [mk_f p hp.imu]
  constructor
  · rintro ⟨hm, hr⟩
    cases hs : Sim.mk' p with
    | none => simp [hs] at hm
    | some s =>
      simp only [hs, Option.map_some, Option.some.injEq] at hm
      subst hm
      obtain ⟨t, ht, e⟩ := (runs_f ho (mk_regular hp hs) t').1 hr
      exact ⟨s, t, rfl, ht, rfl, e⟩
  · rintro ⟨s, t, hs, ht, rfl, rfl⟩
    exact ⟨by rw [hs]; rfl, (runs_f ho (mk_regular hp hs) _).2 ⟨t, ht, rfl⟩⟩

lemma properPid_default {n : ℕ} : ProperPid (PidParams.default : PidParams ℝ n) := by
  intro h; simp [PidParams.default] at h

lemma fixture_proper : ProperParams Fixture.simParams := by
  refine ⟨⟨?_, ?_, ?_, ?_, ?_⟩, ⟨properPid_default, properPid_default, properPid_default, properPid_default⟩,
    ⟨?_, ?_, ?_, ?_⟩⟩ <;>
  simp [Fixture.simParams, Fixture.dynParams, Fixture.modelParams, Model.quadX]

/-- A flight of the fixture: a dynamics update, an armed controller update, sensors. -/
example [Noise ℝ] : ∃ (s' t' : Sim XReal 4), Sim.mk' Fixture.simParams.fin = some s' ∧
    Sim.Runs s' [.arm, .setControlMode .acro .angle, .updateController (fin (1 / 100)),
      .updateDynamics (fin (1 / 100)), .updateImu (fin (1 / 100)), .updateOdom (fin (1 / 100))] t' ∧
    ∃ t : Sim ℝ 4, t' = t.fin := by
  obtain ⟨s1, h1⟩ := Fixture.updateDynamics_ok
    (((Fixture.sim.arm).setControlMode .acro .angle).updateController (1 / 100))
    (by simp [Sim.updateController, Sim.setControlMode, Sim.arm, Fixture.sim, Fixture.dyn])
    (1 / 100) (by norm_num) le_rfl
  have hr : Sim.Runs Fixture.sim [.arm, .setControlMode .acro .angle, .updateController (1 / 100),
      .updateDynamics (1 / 100), .updateImu (1 / 100), .updateOdom (1 / 100)]
      ((s1.updateImu (1 / 100)).updateOdom (1 / 100)) :=
    .ok rfl (.ok rfl (.ok rfl (.ok h1 (.ok rfl (.ok rfl (.nil _))))))
  have := (C87_finite_partial Fixture.simParams fixture_proper _
    [.arm, .setControlMode .acro .angle, .updateController (fin (1 / 100)),
      .updateDynamics (fin (1 / 100)), .updateImu (fin (1 / 100)), .updateOdom (fin (1 / 100))]
    (.cons .arm (.cons (.setControlMode _ _) (.cons (.updateController _ fun _ => by norm_num)
      (.cons (.updateDynamics _) (.cons (.updateImu _) (.cons (.updateOdom _) .nil))))))
    Fixture.sim.fin _).2 ⟨_, _, Fixture.mk_sim, hr, rfl, rfl⟩
  exact ⟨_, _, this.1, this.2, _, rfl⟩

/-- C87 is false: an armed controller update with period zero in rate control leaves NaN in the memory of
the rate controller. -/
theorem C87_violated : ¬ C87_claim := by
  intro hc
  let N : Noise ℝ := ⟨fun _ _ _ => 0⟩
  let s0 : Sim XReal 4 := Fixture.sim.fin
  have hm : Sim.mk' Fixture.simParams.fin = some s0 := by
    rw [mk_f _ fixture_proper.imu, Fixture.mk_sim]; rfl
  let s2 : Sim XReal 4 := (s0.setControlMode .acro .angle).arm
  have hr : Sim.Runs s0 [.setControlMode .acro .angle, .arm, .updateController (fin 0)]
      (s2.updateController (fin 0)) := .ok rfl (.ok rfl (.ok rfl (.nil _)))
  obtain ⟨t, ht⟩ := hc N 4 Fixture.simParams [.setControlMode .acro .angle, .arm, .updateController 0] _ _ _
    (.cons (.setControlMode _ _) (.cons .arm (.cons (.updateController 0 (fun h => h.elim)) .nil))) hm hr
  have hmode : s2.mode = .acro := rfl
  have hyaw : s2.yawMode = .angle := rfl
  have harm : s2.armed = true := rfl
  have hf : s2.ctl.indi.pid = Pid.mk' (PidParams.default.fin) := (Finite.pidMk_f _).symm
  have hpid : (s2.updateController (fin 0)).ctl.indi.pid =
      (s2.ctl.indi.pid.computeControl (fin 0) (Pid.getError s2.dyn.state.angVel s2.refAngVel)).1 := by
    unfold Sim.updateController
    simp only [harm, hyaw, hmode, Bool.not_true, Bool.false_eq_true, if_false, reduceCtorEq]
    rfl
  have hfirst : s2.ctl.indi.pid.firstRun = true := by
    rw [hf]; rfl
  have hnan : (s2.updateController (fin 0)).ctl.indi.pid.filtered 0 = nan := by
    rw [hpid, control_filtered]
    have he : Pid.getError s2.dyn.state.angVel s2.refAngVel (0 : Fin 3) = fin 0 := by
      show vsub (vfin (vzero : Vec 3 ℝ)) (vfin vzero) 0 = _
      simp [vsub, vfin, vzero, flt]
    simp [Pid.firstRunInit, hfirst, vadd, vmul, sdiv, vsub, he]
  rw [ht] at hnan
  exact absurd hnan (by simp [Sim.fin, Ctl.fin, Indi.fin, Pid.fin, vfin])

end Verif.Props
