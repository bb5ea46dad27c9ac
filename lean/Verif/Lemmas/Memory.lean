import Verif.Lemmas.Ctl
import Verif.Lemmas.Sim
import Verif.Spec.Memory

/-!
# Simulators that differ only in what their controllers remember
-/

namespace Verif

open Flt Spec

section
variable {α : Type} [Flt α] [Noise α] {n : ℕ}

/-- A relation between controllers that no control law can see. -/
structure Ctl.Blind (P : Ctl α n → Ctl α n → Prop) : Prop where
  acro : ∀ {c d}, P c d → ∀ om t od dt, (c.acroControl om t od dt).2 = (d.acroControl om t od dt).2 ∧
    P (c.acroControl om t od dt).1 (d.acroControl om t od dt).1
  trajectory : ∀ {c d}, P c d → ∀ p v R om pd vd ad yaw dt,
    (c.trajectoryControl p v R om pd vd ad yaw dt).2 = (d.trajectoryControl p v R om pd vd ad yaw dt).2 ∧
    P (c.trajectoryControl p v R om pd vd ad yaw dt).1 (d.trajectoryControl p v R om pd vd ad yaw dt).1
  velocity : ∀ {c d}, P c d → ∀ v R om vd yaw dt,
    (c.velocityControl v R om vd yaw dt).2 = (d.velocityControl v R om vd yaw dt).2 ∧
    P (c.velocityControl v R om vd yaw dt).1 (d.velocityControl v R om vd yaw dt).1
  position : ∀ {c d}, P c d → ∀ p R v om pd yaw dt,
    (c.positionControl p R v om pd yaw dt).2 = (d.positionControl p R v om pd yaw dt).2 ∧
    P (c.positionControl p R v om pd yaw dt).1 (d.positionControl p R v om pd yaw dt).1
  yaw : ∀ {c d}, P c d → c.acro.kpRot = d.acro.kpRot

omit [Noise α] in
lemma Ctl.blind_rel : Ctl.Blind (Ctl.Rel (α := α) (n := n)) where
  acro h := Ctl.acroControl_rel h
  trajectory h := Ctl.trajectoryControl_rel h
  velocity h := Ctl.velocityControl_rel h
  position h := Ctl.positionControl_rel h
  yaw h := h.kpRot

namespace Sim

/-- The same simulator with another controller and other sensors. -/
def refit (s : Sim α n) (c : Ctl α n) (i : Imu α) (o : Odom α) : Sim α n := { s with ctl := c, imu := i, odom := o }

omit [Flt α] [Noise α] in
lemma SameSituation.iff {s t : Sim α n} : SameSituation s t ↔ s.refit t.ctl t.imu t.odom = t := by
  constructor
  · intro h
    obtain ⟨h1, h2, h3, h4, h5, h6, h7, h8, h9, h10, h11, h12, h13, h14, h15, h16, h17⟩ := h
    cases s; cases t
    simp_all [refit]
  · intro h
    rw [← h]
    constructor <;> rfl

omit [Flt α] [Noise α] in
lemma sameSituation_refit (s : Sim α n) (c : Ctl α n) (i : Imu α) (o : Odom α) : SameSituation s (s.refit c i o) := by
  constructor <;> rfl

omit [Noise α] in
lemma blind_command {P : Ctl α n → Ctl α n → Prop} (hP : Ctl.Blind P) (s : Sim α n) (c : Ctl α n) (i : Imu α)
    (o : Odom α) (hc : P s.ctl c) (y dt : α) :
    ((s.refit c i o).command y dt).2 = (s.command y dt).2 ∧
    P (s.command y dt).1 ((s.refit c i o).command y dt).1 := by
  unfold Sim.command refit
  simp only []
  cases s.mode with
  | motorW => exact ⟨rfl, hc⟩
  | acro => exact ⟨(hP.acro hc _ _ _ _).1.symm, (hP.acro hc _ _ _ _).2⟩
  | trajectory => exact ⟨(hP.trajectory hc _ _ _ _ _ _ _ _ _).1.symm, (hP.trajectory hc _ _ _ _ _ _ _ _ _).2⟩
  | velocity => exact ⟨(hP.velocity hc _ _ _ _ _ _).1.symm, (hP.velocity hc _ _ _ _ _ _).2⟩
  | position => exact ⟨(hP.position hc _ _ _ _ _ _ _).1.symm, (hP.position hc _ _ _ _ _ _ _).2⟩
  | hover => exact ⟨(hP.position hc _ _ _ _ _ _ _).1.symm, (hP.position hc _ _ _ _ _ _ _).2⟩

omit [Noise α] in
lemma blind_yawRef {P : Ctl α n → Ctl α n → Prop} (hP : Ctl.Blind P) (s : Sim α n) (c : Ctl α n) (i : Imu α)
    (o : Odom α) (hc : P s.ctl c) : (s.refit c i o).yawRef = s.yawRef := by
  unfold Sim.yawRef refit Ctl.yawRateToAngle
  simp only [hP.yaw hc]

/-- The dynamics read neither the controller nor the sensors. -/
lemma updateDynamics_refit (s : Sim α n) (c : Ctl α n) (i : Imu α) (o : Odom α) (dt : α) :
    (∀ s', s.updateDynamics dt = .ok s' →
      ∃ i' o', (s.refit c i o).updateDynamics dt = .ok (s'.refit c i' o') ∧ s'.ctl = s.ctl) ∧
    (∀ s', s.updateDynamics dt = .throw s' →
      ∃ i' o', (s.refit c i o).updateDynamics dt = .throw (s'.refit c i' o') ∧ s'.ctl = s.ctl) := by
  unfold updateDynamics
  rw [show (s.refit c i o).belowFloor = s.belowFloor from rfl, show (s.refit c i o).dyn = s.dyn from rfl,
    show (s.refit c i o).extForce = s.extForce from rfl]
  generalize (if s.belowFloor = true then
    match s.dyn.model.core with
    | none => none
    | some c => some (smulR (vneg c.params.gravity) c.params.mass)
    else some s.extForce : Option (Vec 3 α)) = ext
  cases ext with
  | none => simp
  | some ext =>
    simp only []
    rw [show (s.refit c i o).actuation = s.actuation from rfl,
      show (s.refit c i o).floorCollision = s.floorCollision from rfl]
    cases s.dyn.process s.actuation dt ext (!s.floorCollision) with
    | bad => simp
    | throw d =>
      refine ⟨by simp, ?_⟩
      rintro s' h
      cases h
      exact ⟨i, o, rfl, rfl⟩
    | ok d =>
      simp only []
      simp only [belowFloor, refit]
      by_cases hb : (s.floorEnable && lt (d.state.pos 2) s.floorHeight) = true <;>
        simp only [hb, if_true, Bool.false_eq_true, if_false]
      · refine ⟨?_, by simp⟩
        rintro s' h
        cases h
        exact ⟨i.reset, (o.setInitialOrientation d.state.ori).reset, rfl, rfl⟩
      · refine ⟨?_, by simp⟩
        rintro s' h
        cases h
        exact ⟨i, o, rfl, rfl⟩

lemma blind_step {P : Ctl α n → Ctl α n → Prop} (hP : Ctl.Blind P) (s : Sim α n) (c : Ctl α n) (i : Imu α)
    (o : Odom α) (hc : P s.ctl c) (op : SimOp α n) (hop : reachesController op = false) :
    (∀ s', s.step op = .ok s' → ∃ c' i' o', (s.refit c i o).step op = .ok (s'.refit c' i' o') ∧ P s'.ctl c') ∧
    (∀ s', s.step op = .throw s' → ∃ c' i' o', (s.refit c i o).step op = .throw (s'.refit c' i' o') ∧
      P s'.ctl c') := by
  cases op with
  | updateDynamics dt =>
    obtain ⟨h1, h2⟩ := updateDynamics_refit s c i o dt
    constructor
    · intro s' h
      obtain ⟨i', o', h3, h4⟩ := h1 s' h
      exact ⟨c, i', o', h3, h4 ▸ hc⟩
    · intro s' h
      obtain ⟨i', o', h3, h4⟩ := h2 s' h
      exact ⟨c, i', o', h3, h4 ▸ hc⟩
  | updateController dt =>
    refine ⟨?_, by simp [Sim.step]⟩
    rintro s' h
    cases h
    simp only [Sim.step]
    rcases Bool.eq_false_or_eq_true s.armed with hb | hb
    · rw [Sim.updateController_armed hb, Sim.updateController_armed (by exact hb), blind_yawRef hP s c i o hc]
      obtain ⟨h1, h2⟩ := blind_command hP s c i o hc s.yawRef dt
      rw [h1]
      exact ⟨_, i, o, rfl, h2⟩
    · rw [Sim.updateController_disarmed hb, Sim.updateController_disarmed (by exact hb)]
      exact ⟨c, i, o, rfl, hc⟩
  | setControlMode m y =>
    refine ⟨?_, by simp [Sim.step]⟩
    rintro s' h
    cases h
    simp only [Sim.step, Sim.setControlMode]
    rw [show (s.refit c i o).mode = s.mode from rfl, show (s.refit c i o).yawMode = s.yawMode from rfl]
    split
    · exact ⟨c, i, o, rfl, hc⟩
    · exact ⟨c, i, o, rfl, hc⟩
  | setDynParams p =>
    simp only [Sim.step, Sim.setDynParams]
    cases Dyn.mk' p with
    | none => simp
    | some d =>
      refine ⟨?_, by simp⟩
      rintro s' h
      cases h
      exact ⟨c, i, o, rfl, hc⟩
  | setOdomParams p =>
    simp only [Sim.step, Sim.setOdomParams]
    cases Odom.mk' p with
    | none => simp
    | some d =>
      refine ⟨?_, by simp⟩
      rintro s' h
      cases h
      exact ⟨c, i, d, rfl, hc⟩
  | setCtlParams p => simp [reachesController] at hop
  | mutCtl f => simp [reachesController] at hop
  | updateImu dt => exact ⟨by rintro s' h; cases h; exact ⟨c, _, o, rfl, hc⟩, by simp [Sim.step]⟩
  | updateOdom dt => exact ⟨by rintro s' h; cases h; exact ⟨c, i, _, rfl, hc⟩, by simp [Sim.step]⟩
  | setImuParams p => exact ⟨by rintro s' h; cases h; exact ⟨c, _, o, rfl, hc⟩, by simp [Sim.step]⟩
  | mutImu f => exact ⟨by rintro s' h; cases h; exact ⟨c, _, o, rfl, hc⟩, by simp [Sim.step]⟩
  | mutOdom f => exact ⟨by rintro s' h; cases h; exact ⟨c, i, _, rfl, hc⟩, by simp [Sim.step]⟩
  | _ => exact ⟨by rintro s' h; cases h; exact ⟨c, i, o, rfl, hc⟩, by simp [Sim.step]⟩

/-- Simulators in the same situation, with controllers no control law can tell apart, fly alike. -/
lemma flyAlike_of_blind {P : Ctl α n → Ctl α n → Prop} (hP : Ctl.Blind P) {s t : Sim α n} (hst : SameSituation s t)
    (hc : P s.ctl t.ctl) : FlyAlike s t := by
  intro later hl s' hr
  induction hr generalizing t with
  | nil s => exact ⟨t, .nil _, hst⟩
  | @ok s s' u op os hstep _ ih =>
    rw [SameSituation.iff] at hst
    obtain ⟨c', i', o', h1, h2⟩ := (blind_step hP s t.ctl t.imu t.odom hc op (hl op (by simp))).1 s' hstep
    rw [hst] at h1
    obtain ⟨t', h3, h4⟩ := ih (t := s'.refit c' i' o') (sameSituation_refit _ _ _ _) h2
      (fun o ho => hl o (List.mem_cons_of_mem _ ho))
    exact ⟨t', .ok h1 h3, h4⟩
  | @throw s s' u op os hstep _ ih =>
    rw [SameSituation.iff] at hst
    obtain ⟨c', i', o', h1, h2⟩ := (blind_step hP s t.ctl t.imu t.odom hc op (hl op (by simp))).2 s' hstep
    rw [hst] at h1
    obtain ⟨t', h3, h4⟩ := ih (t := s'.refit c' i' o') (sameSituation_refit _ _ _ _) h2
      (fun o ho => hl o (List.mem_cons_of_mem _ ho))
    exact ⟨t', .throw h1 h3, h4⟩

/-- Flying does not change the tuning of the controller. -/
lemma conf_step (s s' : Sim α n) (op : SimOp α n) (hop : reachesController op = false)
    (h : s.step op = .ok s' ∨ s.step op = .throw s') : Ctl.ConfRel s'.ctl s.ctl := by
  cases op with
  | updateDynamics dt =>
    obtain ⟨h1, h2⟩ := updateDynamics_refit s s.ctl s.imu s.odom dt
    rcases h with h | h
    · obtain ⟨-, -, -, h4⟩ := h1 s' h
      rw [h4]; exact .refl _
    · obtain ⟨-, -, -, h4⟩ := h2 s' h
      rw [h4]; exact .refl _
  | updateController dt =>
    rcases h with h | h
    · cases h
      rcases Bool.eq_false_or_eq_true s.armed with hb | hb
      · rw [Sim.updateController_armed hb]
        simp only [Sim.command]
        cases s.mode with
        | motorW => exact .refl _
        | acro => exact Ctl.ConfRel.stepControl s.ctl (.acro _ _ _ _) rfl
        | trajectory => exact Ctl.ConfRel.stepControl s.ctl (.trajectory _ _ _ _ _ _ _ _ _) rfl
        | velocity => exact Ctl.ConfRel.stepControl s.ctl (.velocity _ _ _ _ _ _) rfl
        | position => exact Ctl.ConfRel.stepControl s.ctl (.position _ _ _ _ _ _ _) rfl
        | hover => exact Ctl.ConfRel.stepControl s.ctl (.position _ _ _ _ _ _ _) rfl
      · rw [Sim.updateController_disarmed hb]
        exact .refl _
    · simp [Sim.step] at h
  | setControlMode m y =>
    rcases h with h | h
    · cases h
      simp only [Sim.setControlMode]
      split
      · exact .refl _
      · exact .refl _
    · simp [Sim.step] at h
  | setDynParams p =>
    simp only [Sim.step, Sim.setDynParams] at h
    cases hp : Dyn.mk' p with
    | none => simp [hp] at h
    | some d =>
      simp only [hp, Res.ok.injEq, reduceCtorEq, or_false] at h
      rw [← h]; exact .refl _
  | setOdomParams p =>
    simp only [Sim.step, Sim.setOdomParams] at h
    cases hp : Odom.mk' p with
    | none => simp [hp] at h
    | some d =>
      simp only [hp, Res.ok.injEq, reduceCtorEq, or_false] at h
      rw [← h]; exact .refl _
  | setCtlParams p => simp [reachesController] at hop
  | mutCtl f => simp [reachesController] at hop
  | _ =>
    simp only [Sim.step, Res.ok.injEq, reduceCtorEq, or_false] at h
    rw [← h]; exact .refl _

lemma conf_runs {s s' : Sim α n} {os : List (SimOp α n)} (h : s.Runs os s')
    (ho : ∀ o ∈ os, reachesController o = false) : Ctl.ConfRel s'.ctl s.ctl := by
  induction h with
  | nil s => exact .refl _
  | ok hstep _ ih =>
    exact (ih fun o h => ho o (List.mem_cons_of_mem _ h)).trans (conf_step _ _ _ (ho _ (by simp)) (.inl hstep))
  | throw hstep _ ih =>
    exact (ih fun o h => ho o (List.mem_cons_of_mem _ h)).trans (conf_step _ _ _ (ho _ (by simp)) (.inr hstep))

lemma mk_ctl {p : SimParams α n} {s : Sim α n} (h : Sim.mk' p = some s) : s.ctl = Ctl.mk' p.ctl := by
  unfold Sim.mk' at h
  split at h
  · cases h; rfl
  · cases h

end Sim
end

/-! ## Loops without memory -/

section
variable {n : ℕ}

namespace Pid

/-- The part of the configuration a loop without memory uses. -/
def Plain (p q : Pid ℝ n) : Prop :=
  EffConf p q ∧ (∀ x, mv q.kiMat x = 0) ∧ (∀ x, mv q.kdMat x = 0)

/-- The same for a loop that is given the derivative. -/
def PlainD (p q : Pid ℝ n) : Prop := EffConf p q ∧ ∀ x, mv q.kiMat x = 0

/-- Output of a loop whose integral and derivative parts are off. -/
lemma plain_output (p : Pid ℝ n) (hi : ∀ x, mv p.kiMat x = 0) (hd : ∀ x, mv p.kdMat x = 0) (dt : ℝ)
    (e : Vec n ℝ) : (p.computeControl dt e).2 =
      if p.satFlag then saturateOutput (mv p.kpMat e) p.upper p.lower p.propSat else mv p.kpMat e := by
  cases hf : p.firstRun <;>
    simp [computeControl, firstRunInit, computeIntegral, computeDerivativeByDeriving, finishOutput,
      computeDerivative, hf, hi, hd, vadd_real]

lemma plain_outputD (p : Pid ℝ n) (hi : ∀ x, mv p.kiMat x = 0) (dt : ℝ)
    (e de : Vec n ℝ) : (p.computeControlD dt e de).2 =
      if p.satFlag then saturateOutput (mv p.kpMat e + mv p.kdMat de) p.upper p.lower p.propSat
      else mv p.kpMat e + mv p.kdMat de := by
  cases hf : p.firstRun <;>
    simp [computeControlD, firstRunInit, computeIntegral, finishOutput, computeDerivative, hf, hi, vadd_real]

lemma Plain.control {p q : Pid ℝ n} (h : Plain p q) (dt : ℝ) (e : Vec n ℝ) :
    Plain (p.computeControl dt e).1 (q.computeControl dt e).1 ∧
      (p.computeControl dt e).2 = (q.computeControl dt e).2 := by
  obtain ⟨hc, hi, hd⟩ := h
  refine ⟨⟨?_, ?_, ?_⟩, ?_⟩
  · exact ((computeControl_config p dt e).eff.trans hc).trans (computeControl_config q dt e).eff.symm
  · rw [(computeControl_config q dt e).eff.1.2.1]; exact hi
  · rw [(computeControl_config q dt e).eff.1.2.2.1]; exact hd
  · obtain ⟨⟨h1, h2, h3, -, -, -, h7⟩, h8, h9⟩ := hc
    rw [plain_output p (by rwa [h2]) (by rwa [h3]), plain_output q hi hd, h1, h7, h8]
    split
    · rw [(h9 (h8 ▸ ‹_›)).1, (h9 (h8 ▸ ‹_›)).2]
    · rfl

lemma PlainD.controlD {p q : Pid ℝ n} (h : PlainD p q) (dt : ℝ) (e de : Vec n ℝ) :
    PlainD (p.computeControlD dt e de).1 (q.computeControlD dt e de).1 ∧
      (p.computeControlD dt e de).2 = (q.computeControlD dt e de).2 := by
  obtain ⟨hc, hi⟩ := h
  refine ⟨⟨?_, ?_⟩, ?_⟩
  · exact ((computeControlD_config p dt e de).eff.trans hc).trans (computeControlD_config q dt e de).eff.symm
  · rw [(computeControlD_config q dt e de).eff.1.2.1]; exact hi
  · obtain ⟨⟨h1, h2, h3, -, -, -, h7⟩, h8, h9⟩ := hc
    rw [plain_outputD p (by rwa [h2]), plain_outputD q hi, h1, h3, h7, h8]
    split
    · rw [(h9 (h8 ▸ ‹_›)).1, (h9 (h8 ▸ ‹_›)).2]
    · rfl

end Pid

namespace Ctl

/-- Controllers without memory and with the same tuning. -/
structure Plain (c d : Ctl ℝ n) : Prop where
  kpRot : c.acro.kpRot = d.acro.kpRot
  mass : c.acro.mass = d.acro.mass
  gravity : c.acro.gravity = d.acro.gravity
  inertia : c.indi.inertia = d.indi.inertia
  mixerInv : c.indi.mixerInv = d.indi.mixerInv
  pid : Pid.Plain c.indi.pid d.indi.pid
  pos : Pid.Plain c.pos d.pos
  traj : Pid.PlainD c.traj d.traj
  vel : Pid.Plain c.vel d.vel

lemma Plain.report {c d : Ctl ℝ n} (h : Plain c d) (p v a w : Vec 3 ℝ) (t : ℝ) (m : Vec n ℝ)
    (p' v' a' w' : Vec 3 ℝ) (t' : ℝ) (m' : Vec n ℝ) :
    Plain { c with desPos := p, desVel := v, desAcc := a, desThrust := t, desAngVel := w, desMotVel := m }
      { d with desPos := p', desVel := v', desAcc := a', desThrust := t', desAngVel := w', desMotVel := m' } :=
  ⟨h.kpRot, h.mass, h.gravity, h.inertia, h.mixerInv, h.pid, h.pos, h.traj, h.vel⟩

lemma Plain.acroControl {c d : Ctl ℝ n} (h : Plain c d) (om : Vec 3 ℝ) (t : ℝ) (od : Vec 3 ℝ) (dt : ℝ) :
    (c.acroControl om t od dt).2 = (d.acroControl om t od dt).2 ∧
    Plain (c.acroControl om t od dt).1 (d.acroControl om t od dt).1 := by
  obtain ⟨h1, h2⟩ := h.pid.control dt (Pid.getError om od)
  refine ⟨?_, h.kpRot, h.mass, h.gravity, h.inertia, h.mixerInv, h1, h.pos, h.traj, h.vel⟩
  simp only [Ctl.acroControl, convertAcro, Indi.acroToMotor, h2, h.inertia, h.mixerInv]

lemma Plain.accelerationControl {c d : Ctl ℝ n} (h : Plain c d) (R : Mat 3 3 ℝ) (om a : Vec 3 ℝ) (yaw dt : ℝ) :
    (c.accelerationControl R om a yaw dt).2 = (d.accelerationControl R om a yaw dt).2 ∧
    Plain (c.accelerationControl R om a yaw dt).1 (d.accelerationControl R om a yaw dt).1 := by
  have e : (accelerationToAcro { c with desAcc := a } a R yaw).2 =
      (accelerationToAcro { d with desAcc := a } a R yaw).2 ∧
      Plain (accelerationToAcro { c with desAcc := a } a R yaw).1
        (accelerationToAcro { d with desAcc := a } a R yaw).1 := by
    obtain ⟨⟨k, m, g, t, w⟩, i, p, j, v⟩ := c
    obtain ⟨⟨k', m', g', t', w'⟩, i', p', j', v'⟩ := d
    obtain ⟨h1, h2, h3, h4, h5, h6, h7, h8, h9⟩ := h
    simp only at h1 h2 h3 h4 h5 h6 h7 h8 h9
    subst h1 h2 h3
    exact ⟨rfl, rfl, rfl, rfl, h4, h5, h6, h7, h8, h9⟩
  simp only [Ctl.accelerationControl]
  generalize accelerationToAcro { c with desAcc := a } a R yaw = x at e ⊢
  generalize accelerationToAcro { d with desAcc := a } a R yaw = y at e ⊢
  rw [e.1]
  obtain ⟨g1, g2⟩ := Plain.acroControl (e.2.report x.1.desPos x.1.desVel x.1.desAcc y.2.2 y.2.1 x.1.desMotVel
    y.1.desPos y.1.desVel y.1.desAcc y.2.2 y.2.1 y.1.desMotVel) om y.2.1 y.2.2 dt
  exact ⟨g1, g2.report _ _ _ _ _ _ _ _ _ _ _ _⟩

lemma Plain.trajectoryControl {c d : Ctl ℝ n} (h : Plain c d) (p v : Vec 3 ℝ) (R : Mat 3 3 ℝ)
    (om pd vd ad : Vec 3 ℝ) (yaw dt : ℝ) :
    (c.trajectoryControl p v R om pd vd ad yaw dt).2 = (d.trajectoryControl p v R om pd vd ad yaw dt).2 ∧
    Plain (c.trajectoryControl p v R om pd vd ad yaw dt).1
      (d.trajectoryControl p v R om pd vd ad yaw dt).1 := by
  obtain ⟨h1, h2⟩ := h.traj.controlD dt (Pid.getError p pd) (Pid.getError v vd)
  simp only [Ctl.trajectoryControl, convertTrajectory, h2]
  generalize (c.traj.computeControlD dt (Pid.getError p pd) (Pid.getError v vd)).1 = x at h1 ⊢
  generalize (d.traj.computeControlD dt (Pid.getError p pd) (Pid.getError v vd)).1 = y at h1 ⊢
  generalize (d.traj.computeControlD dt (Pid.getError p pd) (Pid.getError v vd)).2 = z
  obtain ⟨g1, g2⟩ := Plain.accelerationControl
    (c := { c with traj := x, desPos := pd, desVel := vd, desAcc := vadd z ad })
    (d := { d with traj := y, desPos := pd, desVel := vd, desAcc := vadd z ad })
    ⟨h.kpRot, h.mass, h.gravity, h.inertia, h.mixerInv, h.pid, h.pos, h1, h.vel⟩ R om (vadd z ad) yaw dt
  exact ⟨g1, g2.report _ _ _ _ _ _ _ _ _ _ _ _⟩

lemma Plain.velocityControl {c d : Ctl ℝ n} (h : Plain c d) (v : Vec 3 ℝ) (R : Mat 3 3 ℝ)
    (om vd : Vec 3 ℝ) (yaw dt : ℝ) :
    (c.velocityControl v R om vd yaw dt).2 = (d.velocityControl v R om vd yaw dt).2 ∧
    Plain (c.velocityControl v R om vd yaw dt).1 (d.velocityControl v R om vd yaw dt).1 := by
  obtain ⟨h1, h2⟩ := h.vel.control dt (Pid.getError v vd)
  simp only [Ctl.velocityControl, convertVelocity, h2]
  generalize (c.vel.computeControl dt (Pid.getError v vd)).1 = x at h1 ⊢
  generalize (d.vel.computeControl dt (Pid.getError v vd)).1 = y at h1 ⊢
  generalize (d.vel.computeControl dt (Pid.getError v vd)).2 = z
  obtain ⟨g1, g2⟩ := Plain.accelerationControl
    (c := { c with vel := x, desVel := vd, desAcc := z })
    (d := { d with vel := y, desVel := vd, desAcc := z })
    ⟨h.kpRot, h.mass, h.gravity, h.inertia, h.mixerInv, h.pid, h.pos, h.traj, h1⟩ R om z yaw dt
  exact ⟨g1, g2.report _ _ _ _ _ _ _ _ _ _ _ _⟩

lemma Plain.positionControl {c d : Ctl ℝ n} (h : Plain c d) (p : Vec 3 ℝ) (R : Mat 3 3 ℝ)
    (v om pd : Vec 3 ℝ) (yaw dt : ℝ) :
    (c.positionControl p R v om pd yaw dt).2 = (d.positionControl p R v om pd yaw dt).2 ∧
    Plain (c.positionControl p R v om pd yaw dt).1 (d.positionControl p R v om pd yaw dt).1 := by
  obtain ⟨h1, h2⟩ := h.pos.control dt (Pid.getError p pd)
  simp only [Ctl.positionControl, convertPosition, h2]
  generalize (c.pos.computeControl dt (Pid.getError p pd)).1 = x at h1 ⊢
  generalize (d.pos.computeControl dt (Pid.getError p pd)).1 = y at h1 ⊢
  generalize (d.pos.computeControl dt (Pid.getError p pd)).2 = z
  obtain ⟨g1, g2⟩ := Plain.velocityControl
    (c := { c with pos := x, desPos := pd, desVel := z })
    (d := { d with pos := y, desPos := pd, desVel := z })
    ⟨h.kpRot, h.mass, h.gravity, h.inertia, h.mixerInv, h.pid, h1, h.traj, h.vel⟩ v R om z yaw dt
  exact ⟨g1, g2.report _ _ _ _ _ _ _ _ _ _ _ _⟩

lemma blind_plain : Ctl.Blind (Ctl.Plain (n := n)) where
  acro h := h.acroControl
  trajectory h := h.trajectoryControl
  velocity h := h.velocityControl
  position h := h.positionControl
  yaw h := h.kpRot

/-- A proportional tuning makes controllers without memory. -/
lemma Plain.of_conf {p : CtlParams ℝ n} (hp : Proportional p) {c d : Ctl ℝ n} (hc : ConfRel c (Ctl.mk' p))
    (hd : ConfRel d (Ctl.mk' p)) : Plain c d := by
  have hs : ∀ {x y : Ctl ℝ n}, ConfRel x y → ConfRel y x := fun h =>
    ⟨h.kpRot.symm, h.mass.symm, h.gravity.symm, h.inertia.symm, h.mixerInv.symm, h.pid.symm, h.pos.symm,
      h.traj.symm, h.vel.symm⟩
  have h := hc.trans (hs hd)
  have hz : ∀ (k : Vec 3 ℝ) x, k = 0 → mv (mdiag k) x = 0 := by
    rintro k x rfl
    ext i
    simp [mv, mdiag, flt]
  have ki : ∀ (q : PidParams ℝ 3), (Pid.mk' q).kiMat = mdiag q.ki ∧ (Pid.mk' q).kdMat = mdiag q.kd := by
    intro q
    obtain ⟨f, v, w, b, he, -⟩ := Pid.updateParams_eq q Pid.init
    unfold Pid.mk'
    rw [he]
    exact ⟨rfl, rfl⟩
  have pl : ∀ {x y : Pid ℝ 3} {q : PidParams ℝ 3}, Pid.EffConf x y → Pid.EffConf y (Pid.mk' q) → q.ki = 0 →
      q.kd = 0 → Pid.Plain x y := by
    intro x y q h1 h2 h3 h4
    refine ⟨h1, fun x => ?_, fun x => ?_⟩
    · rw [h2.1.2.1, (ki q).1, hz _ _ h3]
    · rw [h2.1.2.2.1, (ki q).2, hz _ _ h4]
  refine ⟨h.kpRot, h.mass, h.gravity, h.inertia, h.mixerInv, pl h.pid hd.pid hp.rateI hp.rateD,
    pl h.pos hd.pos hp.posI hp.posD, ⟨h.traj, fun x => ?_⟩, pl h.vel hd.vel hp.velI hp.velD⟩
  rw [hd.traj.1.2.1]
  exact (congrArg (fun m => mv m x) (ki p.traj).1).trans (hz _ _ hp.trajI)

end Ctl

end
end Verif
