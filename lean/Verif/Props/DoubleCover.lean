import Verif.Props.Progress
import Verif.Lemmas.Symmetry

/-!
# C77: the sign of the orientation quaternion cannot be observed

Over the reals, for whole histories of all public calls.
-/

namespace Verif.Props

open Verif Flt Spec

variable {n : ℕ} [Noise ℝ]

omit [Noise ℝ] in
lemma sameOri_collide {s t : Sim ℝ n} (h : SameOriSim s t) : SameOriSim s.collide t.collide := by
  obtain ⟨⟨hm, hq, hs⟩, ⟨hi1, hi2, hi⟩, ⟨-, -, ho⟩, he⟩ := h
  rw [he]
  generalize t.dyn = e at *
  generalize t.imu = j at *
  generalize t.odom = od at *
  obtain ⟨m, st⟩ := e
  simp only at hm hq hs
  refine ⟨⟨hm, hq, ?_⟩, ⟨hi1, hi2, ?_⟩, ⟨hq, hq, ?_⟩, rfl⟩
  · rw [hs]; rfl
  · rw [hi]; rfl
  · rw [ho]; rfl

lemma sameOri_process {d e : Dyn ℝ n} (h : SameOriDyn d e) (act : Vec n ℝ) (dt : ℝ) (ext : Vec 3 ℝ)
    (noise : Bool) :
    Res.Rel SameOriDyn (d.process act dt ext noise) (e.process act dt ext noise) := by
  refine Dyn.process_rel ?_ dt d e h
  rintro dt d e ⟨hm, hq, hs⟩
  refine Dyn.singleStep_rel (by rw [hm]) fun c ms _ _ => ?_
  obtain ⟨m, st⟩ := e
  simp only at hm hq hs
  subst hm
  rw [hs]
  refine ⟨rfl, hq.integrate _ _, ?_⟩
  simp only [Dyn.eulerStep, hq.rotate]

/-- Related calls on related simulators have related outcomes. -/
lemma sameOri_step (s t : Sim ℝ n) (o o' : SimOp ℝ n) (h : SameOriSim s t) (ho : SameOriOp o o') :
    Res.Rel SameOriSim (s.step o) (t.step o') := by
  have h' := h
  obtain ⟨hd, hi, hod, he⟩ := h
  have hq := hd.2.1
  have hst := hd.2.2
  have hm := hd.1
  rw [he] at h' ⊢
  generalize t.dyn = e at *
  generalize t.imu = j at *
  generalize t.odom = od at *
  clear he
  cases ho with
  | dynParams hp hpq =>
    rename_i p q
    simp only [Sim.step, Sim.setDynParams, Dyn.mk']
    rw [hpq]
    cases Model.mk' p.model p.seed with
    | none => trivial
    | some m => exact ⟨⟨rfl, hp⟩, hi, hod, rfl⟩
  | imuParams hp hpq =>
    rename_i p q
    refine ⟨hd, ?_, hod, rfl⟩
    rw [hpq]
    exact ⟨hp, hp.inverse, rfl⟩
  | odomParams hp hpq =>
    rename_i p q
    simp only [Sim.step, Sim.setOdomParams, Odom.mk']
    rw [hpq]
    by_cases hc : (lt (lit 0) p.alpha && le p.alpha (lit 1)) = true
    · simp only [hc, if_true]
      exact ⟨hd, hi, ⟨hp, hp, rfl⟩, rfl⟩
    · simp only [hc, Bool.false_eq_true, if_false]
      trivial
  | mutDyn hf => exact ⟨hf _ _ hd, hi, hod, rfl⟩
  | mutCtl => exact ⟨hd, hi, hod, rfl⟩
  | mutImu hf => exact ⟨hd, hf _ _ hi, hod, rfl⟩
  | mutOdom hf => exact ⟨hd, hi, hf _ _ hod, rfl⟩
  | same hs =>
    cases o with
    | mutDyn | mutCtl | mutImu | mutOdom => simp [throughReference] at hs
    | updateDynamics dt =>
      refine Sim.updateDynamics_rel (Rd := SameOriDyn) ?_ (by rw [← hm]) rfl
        (fun ext => sameOri_process hd _ _ _ _) (fun ext d e hde => ⟨hde, hi, hod, rfl⟩)
        (fun d e hde => ⟨?_, ⟨hde, hi, hod, rfl⟩, sameOri_collide ⟨hde, hi, hod, rfl⟩⟩)
      · simp only [Sim.belowFloor]
        rw [hst]
      · simp only [Sim.belowFloor]
        rw [hde.2.2]
    | updateController dt =>
      simp only [Sim.step]
      rcases Bool.eq_false_or_eq_true s.armed with hb | hb
      · rw [Sim.updateController_armed hb, Sim.updateController_armed (by exact hb)]
        have e1 : Sim.yawRef { s with dyn := e, imu := j, odom := od } = s.yawRef := by
          simp only [Sim.yawRef]
          rw [hq.euler]
        have e2 : ∀ y, Sim.command { s with dyn := e, imu := j, odom := od } y dt = s.command y dt := by
          intro y
          simp only [Sim.command]
          rw [hq.toMat, hst]
        rw [e1, e2]
        exact ⟨hd, hi, hod, rfl⟩
      · rw [Sim.updateController_disarmed hb, Sim.updateController_disarmed (by exact hb)]
        exact ⟨hd, hi, hod, rfl⟩
    | updateImu dt =>
      refine ⟨hd, ?_, hod, rfl⟩
      show SameOriImu (s.imu.update dt _ _) (j.update dt _ _)
      simp only [Imu.update]
      rw [hq.rotate, hst]
      split
      · exact hi
      · obtain ⟨h1, h2, h3⟩ := hi
        rw [h3]
        refine ⟨h1, h2, ?_⟩
        simp only [Imu.processMeasurement, Imu.processBias, h2.rotate]
    | updateOdom dt =>
      refine ⟨hd, hi, ?_, rfl⟩
      show SameOriOdom (s.odom.update _ _ dt) (od.update _ _ dt)
      obtain ⟨h1, h2, h3⟩ := hod
      obtain ⟨-, -, h5⟩ := hi
      rw [h3, h5]
      refine ⟨h1.integrate _ _, h2, ?_⟩
      simp only [Odom.update, Odom.integrate, Odom.filter, h1.inverse.rotate]
    | setControlMode m y =>
      simp only [Sim.step, Sim.setControlMode]
      rw [hq.euler, hst]
      split
      · exact h'
      · exact ⟨⟨hm, hq, hst⟩, hi, hod, rfl⟩
    | setDynParams p =>
      simp only [Sim.step, Sim.setDynParams]
      cases Dyn.mk' p with
      | none => trivial
      | some d => exact ⟨⟨rfl, .refl _, rfl⟩, hi, hod, rfl⟩
    | setOdomParams p =>
      simp only [Sim.step, Sim.setOdomParams]
      cases Odom.mk' p with
      | none => trivial
      | some d => exact ⟨hd, hi, ⟨.refl _, .refl _, rfl⟩, rfl⟩
    | setImuParams p => exact ⟨hd, ⟨.refl _, .refl _, rfl⟩, hod, rfl⟩
    | _ => exact ⟨hd, hi, hod, rfl⟩

/-- **C77, histories.** Two simulators that differ in the sign of quaternions only, given the same calls
up to the sign of quaternions in their arguments: at every moment of every history they differ in the
sign of quaternions only, and the same calls throw. -/
theorem C77_histories (s t s' : Sim ℝ n) (tr : List (Event ℝ n)) (h : Trace s tr s')
    (hst : SameOriSim s t) (os : List (SimOp ℝ n)) (ho : List.Forall₂ SameOriOp (tr.map Event.op) os) :
    ∃ (tr' : List (Event ℝ n)) (t' : Sim ℝ n), Trace t tr' t' ∧ tr'.map Event.op = os ∧
      Corresponds SameOriSim SameOriOp tr tr' ∧ SameOriSim s' t' :=
  Sim.trace_rel sameOri_step h t os hst ho

/-- **C77, construction.** Parameters that differ in the sign of quaternions only are accepted alike and
give simulators that differ in the sign of quaternions only. -/
theorem C77_construction (p q : SimParams ℝ n) (hd : SameOriState p.dyn.state q.dyn.state)
    (hi : SameOri p.imu.ori q.imu.ori) (ho : SameOri p.odom.initOri q.odom.initOri)
    (he : q = { p with
      dyn := { p.dyn with state := q.dyn.state }
      imu := { p.imu with ori := q.imu.ori }
      odom := { p.odom with initOri := q.odom.initOri } }) :
    (Sim.mk' p = none ↔ Sim.mk' q = none) ∧
    ∀ s t, Sim.mk' p = some s → Sim.mk' q = some t → SameOriSim s t := by
  rw [he]
  simp only [Sim.mk', Dyn.mk', Odom.mk']
  cases hm : Model.mk' (n := n) p.dyn.model p.dyn.seed with
  | none => simp
  | some m =>
    by_cases hc : (lt (lit 0) p.odom.alpha && le p.odom.alpha (lit 1)) = true
    · simp only [hc, if_true, Option.map_some, reduceCtorEq, Option.some.injEq, true_and]
      rintro s t rfl rfl
      exact ⟨⟨rfl, hd⟩, ⟨hi, hi.inverse, rfl⟩, ⟨ho, ho, rfl⟩, rfl⟩
    · simp [hc]

omit [Noise ℝ] in
/-- **C77, observations.** Everything the library prints or lets the user compute from such simulators is
equal: the log text of the state and of the odometry, Euler angles, rotation matrices, rotated vectors,
measurements, commands and references. -/
theorem C77_observations (s t : Sim ℝ n) (h : SameOriSim s t) (pr : ℝ → List Char) :
    t.dyn.state.text pr = s.dyn.state.text pr ∧ t.odom.csv = s.odom.csv ∧
    quatToEuler t.dyn.state.ori = quatToEuler s.dyn.state.ori ∧
    t.dyn.state.ori.toMat = s.dyn.state.ori.toMat ∧
    (∀ v, t.dyn.state.ori.rotate v = s.dyn.state.ori.rotate v) ∧
    t.imu.gyro = s.imu.gyro ∧ t.imu.accel = s.imu.accel ∧ t.actuation = s.actuation ∧
    t.refPos = s.refPos ∧ t.refYaw = s.refYaw := by
  obtain ⟨⟨hm, hq, hs⟩, ⟨hi1, hi2, hi⟩, ⟨ho1, ho2, ho⟩, he⟩ := h
  refine ⟨?_, ?_, hq.euler, hq.toMat, hq.rotate, by rw [hi], by rw [hi], by rw [he], by rw [he],
    by rw [he]⟩
  · rw [hs]
    simp only [State.text, State.csvKinematics, State.csvDynamics, State.textActuators, hq.euler]
  · rw [ho]
    simp only [Odom.csv, ho1.euler]

/-- The fixture and the fixture with the opposite quaternion: they differ, and a history with an update, a
mode change and a rejected call exists. -/
example : ∃ (s t s' : Sim ℝ 4) (tr : List (Event ℝ 4)), s ≠ t ∧ SameOriSim s t ∧ Trace s tr s' ∧
    tr.map Event.op = [.updateDynamics (1 / 100), .setControlMode .hover .angle, .updateDynamics (-1),
      .updateImu 1] ∧
    List.Forall₂ SameOriOp (tr.map Event.op) (tr.map Event.op) := by
  obtain ⟨tr, s', ht, ho⟩ := fixture_trace [.updateDynamics (1 / 100), .setControlMode .hover .angle,
    .updateDynamics (-1), .updateImu 1] (by simp [Sanctioned]; norm_num)
  refine ⟨Fixture.sim, { Fixture.sim with dyn := { Fixture.sim.dyn with
    state := { Fixture.sim.dyn.state with ori := Fixture.sim.dyn.state.ori.opp } } }, s', tr, ?_,
    ⟨⟨rfl, .opp _, rfl⟩, ⟨.refl _, .refl _, rfl⟩, ⟨.refl _, .refl _, rfl⟩, rfl⟩, ht, ho, ?_⟩
  · intro h
    have := congrArg (fun s : Sim ℝ 4 => s.dyn.state.ori.w) h
    simp [Fixture.sim, Fixture.dyn, State.default, Quat.identity, Quat.opp, flt] at this
    linarith
  · rw [ho]
    exact .cons (.same rfl) (.cons (.same rfl) (.cons (.same rfl) (.cons (.same rfl) .nil)))

end Verif.Props
