import Verif.Lemmas.PidEff
import Verif.Spec.Ctl

/-!
# Bisimulation of flight controllers
-/

namespace Verif

open Flt Spec

namespace Ctl

variable {α : Type} [Flt α] {n : ℕ}

/-- Controllers that answer every call alike. -/
structure Rel (c d : Ctl α n) : Prop where
  kpRot : c.acro.kpRot = d.acro.kpRot
  mass : c.acro.mass = d.acro.mass
  gravity : c.acro.gravity = d.acro.gravity
  inertia : c.indi.inertia = d.indi.inertia
  mixerInv : c.indi.mixerInv = d.indi.mixerInv
  pid : Pid.EffRel c.indi.pid d.indi.pid
  pos : Pid.EffRel c.pos d.pos
  traj : Pid.EffRel c.traj d.traj
  vel : Pid.EffRel c.vel d.vel

/-- The same for the configuration alone. -/
structure ConfRel (c d : Ctl α n) : Prop where
  kpRot : c.acro.kpRot = d.acro.kpRot
  mass : c.acro.mass = d.acro.mass
  gravity : c.acro.gravity = d.acro.gravity
  inertia : c.indi.inertia = d.indi.inertia
  mixerInv : c.indi.mixerInv = d.indi.mixerInv
  pid : Pid.EffConf c.indi.pid d.indi.pid
  pos : Pid.EffConf c.pos d.pos
  traj : Pid.EffConf c.traj d.traj
  vel : Pid.EffConf c.vel d.vel

omit [Flt α] in
lemma Rel.refl (c : Ctl α n) : Rel c c :=
  ⟨rfl, rfl, rfl, rfl, rfl, .refl _, .refl _, .refl _, .refl _⟩

omit [Flt α] in
lemma Rel.conf {c d : Ctl α n} (h : Rel c d) : ConfRel c d :=
  ⟨h.kpRot, h.mass, h.gravity, h.inertia, h.mixerInv, h.pid.1, h.pos.1, h.traj.1, h.vel.1⟩

omit [Flt α] in
lemma ConfRel.trans {c d e : Ctl α n} (h : ConfRel c d) (g : ConfRel d e) : ConfRel c e :=
  ⟨h.kpRot.trans g.kpRot, h.mass.trans g.mass, h.gravity.trans g.gravity, h.inertia.trans g.inertia,
    h.mixerInv.trans g.mixerInv, h.pid.trans g.pid, h.pos.trans g.pos, h.traj.trans g.traj,
    h.vel.trans g.vel⟩

omit [Flt α] in
lemma ConfRel.reset {c d : Ctl α n} (h : ConfRel c d) : Rel c.reset d.reset :=
  ⟨h.kpRot, h.mass, h.gravity, h.inertia, h.mixerInv, .reset h.pid, .reset h.pos, .reset h.traj,
    .reset h.vel⟩

lemma acroToMotor_rel {c d : Indi α n} (hi : c.inertia = d.inertia) (hm : c.mixerInv = d.mixerInv)
    (hp : Pid.EffRel c.pid d.pid) (om : Vec 3 α) (t : α) (od : Vec 3 α) (dt : α) :
    (c.acroToMotor om t od dt).2 = (d.acroToMotor om t od dt).2 ∧
    (c.acroToMotor om t od dt).1.inertia = (d.acroToMotor om t od dt).1.inertia ∧
    (c.acroToMotor om t od dt).1.mixerInv = (d.acroToMotor om t od dt).1.mixerInv ∧
    Pid.EffRel (c.acroToMotor om t od dt).1.pid (d.acroToMotor om t od dt).1.pid := by
  obtain ⟨h1, h2⟩ := hp.control dt (Pid.getError om od)
  simp only [Indi.acroToMotor, hi, hm, h2]
  exact ⟨trivial, trivial, trivial, h1⟩

lemma convertAcro_rel {c d : Ctl α n} (h : Rel c d) (om : Vec 3 α) (t : α) (od : Vec 3 α) (dt : α) :
    (c.convertAcro om t od dt).2 = (d.convertAcro om t od dt).2 ∧
    Rel (c.convertAcro om t od dt).1 (d.convertAcro om t od dt).1 := by
  obtain ⟨h1, h2, h3, h4⟩ := acroToMotor_rel h.inertia h.mixerInv h.pid om t od dt
  exact ⟨h1, h.kpRot, h.mass, h.gravity, h2, h3, h4, h.pos, h.traj, h.vel⟩

omit [Flt α] in
/-- The reported desired values are irrelevant. -/
lemma Rel.report {c d : Ctl α n} (h : Rel c d) (p v a w : Vec 3 α) (t : α) (m : Vec n α)
    (p' v' a' w' : Vec 3 α) (t' : α) (m' : Vec n α) :
    Rel { c with desPos := p, desVel := v, desAcc := a, desThrust := t, desAngVel := w, desMotVel := m }
      { d with desPos := p', desVel := v', desAcc := a', desThrust := t', desAngVel := w', desMotVel := m' } :=
  ⟨h.kpRot, h.mass, h.gravity, h.inertia, h.mixerInv, h.pid, h.pos, h.traj, h.vel⟩

lemma accelerationToAcro_rel {c d : Ctl α n} (h : Rel c d) (a : Vec 3 α) (R : Mat 3 3 α) (yaw : α) :
    (c.accelerationToAcro a R yaw).2 = (d.accelerationToAcro a R yaw).2 ∧
    Rel (c.accelerationToAcro a R yaw).1 (d.accelerationToAcro a R yaw).1 := by
  obtain ⟨⟨k, m, g, t, w⟩, i, p, j, v⟩ := c
  obtain ⟨⟨k', m', g', t', w'⟩, i', p', j', v'⟩ := d
  obtain ⟨h1, h2, h3, h4, h5, h6, h7, h8, h9⟩ := h
  simp only at h1 h2 h3 h4 h5 h6 h7 h8 h9
  subst h1 h2 h3
  exact ⟨rfl, rfl, rfl, rfl, h4, h5, h6, h7, h8, h9⟩

lemma convertTrajectory_rel {c d : Ctl α n} (h : Rel c d) (p v pd vd ad : Vec 3 α) (dt : α) :
    (c.convertTrajectory p v pd vd ad dt).2 = (d.convertTrajectory p v pd vd ad dt).2 ∧
    Rel (c.convertTrajectory p v pd vd ad dt).1 (d.convertTrajectory p v pd vd ad dt).1 := by
  obtain ⟨h1, h2⟩ := h.traj.controlD dt (Pid.getError p pd) (Pid.getError v vd)
  simp only [convertTrajectory, h2]
  exact ⟨trivial, h.kpRot, h.mass, h.gravity, h.inertia, h.mixerInv, h.pid, h.pos, h1, h.vel⟩

lemma convertVelocity_rel {c d : Ctl α n} (h : Rel c d) (v vd : Vec 3 α) (dt : α) :
    (c.convertVelocity v vd dt).2 = (d.convertVelocity v vd dt).2 ∧
    Rel (c.convertVelocity v vd dt).1 (d.convertVelocity v vd dt).1 := by
  obtain ⟨h1, h2⟩ := h.vel.control dt (Pid.getError v vd)
  exact ⟨h2, h.kpRot, h.mass, h.gravity, h.inertia, h.mixerInv, h.pid, h.pos, h.traj, h1⟩

lemma convertPosition_rel {c d : Ctl α n} (h : Rel c d) (p pd : Vec 3 α) (dt : α) :
    (c.convertPosition p pd dt).2 = (d.convertPosition p pd dt).2 ∧
    Rel (c.convertPosition p pd dt).1 (d.convertPosition p pd dt).1 := by
  obtain ⟨h1, h2⟩ := h.pos.control dt (Pid.getError p pd)
  exact ⟨h2, h.kpRot, h.mass, h.gravity, h.inertia, h.mixerInv, h.pid, h1, h.traj, h.vel⟩

lemma acroControl_rel {c d : Ctl α n} (h : Rel c d) (om : Vec 3 α) (t : α) (od : Vec 3 α) (dt : α) :
    (c.acroControl om t od dt).2 = (d.acroControl om t od dt).2 ∧
    Rel (c.acroControl om t od dt).1 (d.acroControl om t od dt).1 := by
  obtain ⟨h1, h2⟩ := convertAcro_rel
    (h.report c.desPos c.desVel c.desAcc od t c.desMotVel d.desPos d.desVel d.desAcc od t d.desMotVel)
    om t od dt
  exact ⟨h1, h2.report _ _ _ _ _ _ _ _ _ _ _ _⟩

lemma accelerationControl_rel {c d : Ctl α n} (h : Rel c d) (R : Mat 3 3 α) (om a : Vec 3 α) (yaw dt : α) :
    (c.accelerationControl R om a yaw dt).2 = (d.accelerationControl R om a yaw dt).2 ∧
    Rel (c.accelerationControl R om a yaw dt).1 (d.accelerationControl R om a yaw dt).1 := by
  have h0 : Rel { c with desAcc := a } { d with desAcc := a } := h.report _ _ _ _ _ _ _ _ _ _ _ _
  obtain ⟨h1, h2⟩ := accelerationToAcro_rel h0 a R yaw
  simp only [accelerationControl]
  rw [h1]
  have h3 : Rel { ({ c with desAcc := a } : Ctl α n).accelerationToAcro a R yaw |>.1 with
        desThrust := (({ d with desAcc := a } : Ctl α n).accelerationToAcro a R yaw).2.1
        desAngVel := (({ d with desAcc := a } : Ctl α n).accelerationToAcro a R yaw).2.2 }
      { ({ d with desAcc := a } : Ctl α n).accelerationToAcro a R yaw |>.1 with
        desThrust := (({ d with desAcc := a } : Ctl α n).accelerationToAcro a R yaw).2.1
        desAngVel := (({ d with desAcc := a } : Ctl α n).accelerationToAcro a R yaw).2.2 } :=
    h2.report _ _ _ _ _ _ _ _ _ _ _ _
  obtain ⟨h4, h5⟩ := acroControl_rel h3 om
    (({ d with desAcc := a } : Ctl α n).accelerationToAcro a R yaw).2.1
    (({ d with desAcc := a } : Ctl α n).accelerationToAcro a R yaw).2.2 dt
  exact ⟨h4, h5.report _ _ _ _ _ _ _ _ _ _ _ _⟩

lemma trajectoryControl_rel {c d : Ctl α n} (h : Rel c d) (p v : Vec 3 α) (R : Mat 3 3 α)
    (om pd vd ad : Vec 3 α) (yaw dt : α) :
    (c.trajectoryControl p v R om pd vd ad yaw dt).2 = (d.trajectoryControl p v R om pd vd ad yaw dt).2 ∧
    Rel (c.trajectoryControl p v R om pd vd ad yaw dt).1
      (d.trajectoryControl p v R om pd vd ad yaw dt).1 := by
  have h0 : Rel { c with desPos := pd, desVel := vd } { d with desPos := pd, desVel := vd } :=
    h.report _ _ _ _ _ _ _ _ _ _ _ _
  obtain ⟨h1, h2⟩ := convertTrajectory_rel h0 p v pd vd ad dt
  simp only [trajectoryControl]
  rw [h1]
  obtain ⟨h4, h5⟩ := accelerationControl_rel (h2.report
    (({ c with desPos := pd, desVel := vd } : Ctl α n).convertTrajectory p v pd vd ad dt).1.desPos
    (({ c with desPos := pd, desVel := vd } : Ctl α n).convertTrajectory p v pd vd ad dt).1.desVel
    (({ d with desPos := pd, desVel := vd } : Ctl α n).convertTrajectory p v pd vd ad dt).2
    (({ c with desPos := pd, desVel := vd } : Ctl α n).convertTrajectory p v pd vd ad dt).1.desAngVel
    (({ c with desPos := pd, desVel := vd } : Ctl α n).convertTrajectory p v pd vd ad dt).1.desThrust
    (({ c with desPos := pd, desVel := vd } : Ctl α n).convertTrajectory p v pd vd ad dt).1.desMotVel
    (({ d with desPos := pd, desVel := vd } : Ctl α n).convertTrajectory p v pd vd ad dt).1.desPos
    (({ d with desPos := pd, desVel := vd } : Ctl α n).convertTrajectory p v pd vd ad dt).1.desVel
    (({ d with desPos := pd, desVel := vd } : Ctl α n).convertTrajectory p v pd vd ad dt).2
    (({ d with desPos := pd, desVel := vd } : Ctl α n).convertTrajectory p v pd vd ad dt).1.desAngVel
    (({ d with desPos := pd, desVel := vd } : Ctl α n).convertTrajectory p v pd vd ad dt).1.desThrust
    (({ d with desPos := pd, desVel := vd } : Ctl α n).convertTrajectory p v pd vd ad dt).1.desMotVel)
    R om (({ d with desPos := pd, desVel := vd } : Ctl α n).convertTrajectory p v pd vd ad dt).2 yaw dt
  exact ⟨h4, h5.report _ _ _ _ _ _ _ _ _ _ _ _⟩

lemma velocityControl_rel {c d : Ctl α n} (h : Rel c d) (v : Vec 3 α) (R : Mat 3 3 α)
    (om vd : Vec 3 α) (yaw dt : α) :
    (c.velocityControl v R om vd yaw dt).2 = (d.velocityControl v R om vd yaw dt).2 ∧
    Rel (c.velocityControl v R om vd yaw dt).1 (d.velocityControl v R om vd yaw dt).1 := by
  have h0 : Rel { c with desVel := vd } { d with desVel := vd } := h.report _ _ _ _ _ _ _ _ _ _ _ _
  obtain ⟨h1, h2⟩ := convertVelocity_rel h0 v vd dt
  simp only [velocityControl]
  rw [h1]
  obtain ⟨h4, h5⟩ := accelerationControl_rel (h2.report
    (({ c with desVel := vd } : Ctl α n).convertVelocity v vd dt).1.desPos
    (({ c with desVel := vd } : Ctl α n).convertVelocity v vd dt).1.desVel
    (({ d with desVel := vd } : Ctl α n).convertVelocity v vd dt).2
    (({ c with desVel := vd } : Ctl α n).convertVelocity v vd dt).1.desAngVel
    (({ c with desVel := vd } : Ctl α n).convertVelocity v vd dt).1.desThrust
    (({ c with desVel := vd } : Ctl α n).convertVelocity v vd dt).1.desMotVel
    (({ d with desVel := vd } : Ctl α n).convertVelocity v vd dt).1.desPos
    (({ d with desVel := vd } : Ctl α n).convertVelocity v vd dt).1.desVel
    (({ d with desVel := vd } : Ctl α n).convertVelocity v vd dt).2
    (({ d with desVel := vd } : Ctl α n).convertVelocity v vd dt).1.desAngVel
    (({ d with desVel := vd } : Ctl α n).convertVelocity v vd dt).1.desThrust
    (({ d with desVel := vd } : Ctl α n).convertVelocity v vd dt).1.desMotVel)
    R om (({ d with desVel := vd } : Ctl α n).convertVelocity v vd dt).2 yaw dt
  exact ⟨h4, h5.report _ _ _ _ _ _ _ _ _ _ _ _⟩

lemma positionControl_rel {c d : Ctl α n} (h : Rel c d) (p : Vec 3 α) (R : Mat 3 3 α)
    (v om pd : Vec 3 α) (yaw dt : α) :
    (c.positionControl p R v om pd yaw dt).2 = (d.positionControl p R v om pd yaw dt).2 ∧
    Rel (c.positionControl p R v om pd yaw dt).1 (d.positionControl p R v om pd yaw dt).1 := by
  have h0 : Rel { c with desPos := pd } { d with desPos := pd } := h.report _ _ _ _ _ _ _ _ _ _ _ _
  obtain ⟨h1, h2⟩ := convertPosition_rel h0 p pd dt
  simp only [positionControl]
  rw [h1]
  obtain ⟨h4, h5⟩ := velocityControl_rel (h2.report
    (({ c with desPos := pd } : Ctl α n).convertPosition p pd dt).1.desPos
    (({ d with desPos := pd } : Ctl α n).convertPosition p pd dt).2
    (({ c with desPos := pd } : Ctl α n).convertPosition p pd dt).1.desAcc
    (({ c with desPos := pd } : Ctl α n).convertPosition p pd dt).1.desAngVel
    (({ c with desPos := pd } : Ctl α n).convertPosition p pd dt).1.desThrust
    (({ c with desPos := pd } : Ctl α n).convertPosition p pd dt).1.desMotVel
    (({ d with desPos := pd } : Ctl α n).convertPosition p pd dt).1.desPos
    (({ d with desPos := pd } : Ctl α n).convertPosition p pd dt).2
    (({ d with desPos := pd } : Ctl α n).convertPosition p pd dt).1.desAcc
    (({ d with desPos := pd } : Ctl α n).convertPosition p pd dt).1.desAngVel
    (({ d with desPos := pd } : Ctl α n).convertPosition p pd dt).1.desThrust
    (({ d with desPos := pd } : Ctl α n).convertPosition p pd dt).1.desMotVel)
    v R om (({ d with desPos := pd } : Ctl α n).convertPosition p pd dt).2 yaw dt
  exact ⟨h4, h5.report _ _ _ _ _ _ _ _ _ _ _ _⟩

lemma Rel.step {c d : Ctl α n} (h : Rel c d) (o : CtlOp α n) :
    Rel (c.step o).1 (d.step o).1 ∧ (c.step o).2 = (d.step o).2 := by
  cases o with
  | acro om t od dt =>
    obtain ⟨h1, h2⟩ := acroControl_rel h om t od dt
    exact ⟨h2, by simp [Ctl.step, h1]⟩
  | acceleration R om a yaw dt =>
    obtain ⟨h1, h2⟩ := accelerationControl_rel h R om a yaw dt
    exact ⟨h2, by simp [Ctl.step, h1]⟩
  | trajectory p v R om pd vd ad yaw dt =>
    obtain ⟨h1, h2⟩ := trajectoryControl_rel h p v R om pd vd ad yaw dt
    exact ⟨h2, by simp [Ctl.step, h1]⟩
  | velocity v R om vd yaw dt =>
    obtain ⟨h1, h2⟩ := velocityControl_rel h v R om vd yaw dt
    exact ⟨h2, by simp [Ctl.step, h1]⟩
  | position p R v om pd yaw dt =>
    obtain ⟨h1, h2⟩ := positionControl_rel h p R v om pd yaw dt
    exact ⟨h2, by simp [Ctl.step, h1]⟩
  | convertAcro om t od dt =>
    obtain ⟨h1, h2⟩ := convertAcro_rel h om t od dt
    exact ⟨h2, by simp [Ctl.step, h1]⟩
  | convertAcceleration a R yaw =>
    obtain ⟨h1, h2⟩ := accelerationToAcro_rel h a R yaw
    exact ⟨h2, by simp [Ctl.step, h1]⟩
  | convertTrajectory p v pd vd ad dt =>
    obtain ⟨h1, h2⟩ := convertTrajectory_rel h p v pd vd ad dt
    exact ⟨h2, by simp [Ctl.step, h1]⟩
  | convertVelocity v vd dt =>
    obtain ⟨h1, h2⟩ := convertVelocity_rel h v vd dt
    exact ⟨h2, by simp [Ctl.step, h1]⟩
  | convertPosition p pd dt =>
    obtain ⟨h1, h2⟩ := convertPosition_rel h p pd dt
    exact ⟨h2, by simp [Ctl.step, h1]⟩
  | yawRateToAngle y r => exact ⟨h, by simp [Ctl.step, Ctl.yawRateToAngle, h.kpRot]⟩
  | reset => exact ⟨h.conf.reset, rfl⟩
  | updateParams p =>
    exact ⟨⟨rfl, rfl, rfl, rfl, rfl, h.pid.update _, h.pos.update _, h.traj.update _, h.vel.update _⟩, rfl⟩
  | updateAcro p =>
    exact ⟨⟨rfl, rfl, rfl, h.inertia, h.mixerInv, h.pid, h.pos, h.traj, h.vel⟩, rfl⟩
  | updateIndi p =>
    exact ⟨⟨h.kpRot, h.mass, h.gravity, rfl, rfl, h.pid.update _, h.pos, h.traj, h.vel⟩, rfl⟩
  | updatePos p =>
    exact ⟨⟨h.kpRot, h.mass, h.gravity, h.inertia, h.mixerInv, h.pid, h.pos.update _, h.traj, h.vel⟩, rfl⟩
  | updateTraj p =>
    exact ⟨⟨h.kpRot, h.mass, h.gravity, h.inertia, h.mixerInv, h.pid, h.pos, h.traj.update _, h.vel⟩, rfl⟩
  | updateVel p =>
    exact ⟨⟨h.kpRot, h.mass, h.gravity, h.inertia, h.mixerInv, h.pid, h.pos, h.traj, h.vel.update _⟩, rfl⟩
  | acroThrust a => exact ⟨h, by simp [Ctl.step, Acro.accelerationToThrust, h.mass, h.gravity]⟩
  | acroRate R yaw t =>
    exact ⟨⟨h.kpRot, h.mass, h.gravity, h.inertia, h.mixerInv, h.pid, h.pos, h.traj, h.vel⟩,
      by simp [Ctl.step, Acro.yawAngleToAngularVelocity, h.kpRot]⟩
  | setMass m =>
    exact ⟨⟨h.kpRot, rfl, h.gravity, h.inertia, h.mixerInv, h.pid, h.pos, h.traj, h.vel⟩, rfl⟩
  | setGravity g =>
    exact ⟨⟨h.kpRot, h.mass, rfl, h.inertia, h.mixerInv, h.pid, h.pos, h.traj, h.vel⟩, rfl⟩
  | setKpRot k =>
    exact ⟨⟨rfl, h.mass, h.gravity, h.inertia, h.mixerInv, h.pid, h.pos, h.traj, h.vel⟩, rfl⟩
  | setInertia i =>
    exact ⟨⟨h.kpRot, h.mass, h.gravity, rfl, h.mixerInv, h.pid, h.pos, h.traj, h.vel⟩, rfl⟩
  | setMixerInv m =>
    exact ⟨⟨h.kpRot, h.mass, h.gravity, h.inertia, rfl, h.pid, h.pos, h.traj, h.vel⟩, rfl⟩
  | posPid o =>
    obtain ⟨h1, h2⟩ := h.pos.step o
    exact ⟨⟨h.kpRot, h.mass, h.gravity, h.inertia, h.mixerInv, h.pid, h1, h.traj, h.vel⟩,
      by simp [Ctl.step, h2]⟩
  | trajPid o =>
    obtain ⟨h1, h2⟩ := h.traj.step o
    exact ⟨⟨h.kpRot, h.mass, h.gravity, h.inertia, h.mixerInv, h.pid, h.pos, h1, h.vel⟩,
      by simp [Ctl.step, h2]⟩
  | velPid o =>
    obtain ⟨h1, h2⟩ := h.vel.step o
    exact ⟨⟨h.kpRot, h.mass, h.gravity, h.inertia, h.mixerInv, h.pid, h.pos, h.traj, h1⟩,
      by simp [Ctl.step, h2]⟩
  | indiPid o =>
    obtain ⟨h1, h2⟩ := h.pid.step o
    exact ⟨⟨h.kpRot, h.mass, h.gravity, h.inertia, h.mixerInv, h1, h.pos, h.traj, h.vel⟩,
      by simp [Ctl.step, h2]⟩

lemma Rel.run {c d : Ctl α n} (h : Rel c d) (os : List (CtlOp α n)) :
    Rel (c.run os).1 (d.run os).1 ∧ (c.run os).2 = (d.run os).2 := by
  induction os generalizing c d with
  | nil => exact ⟨h, rfl⟩
  | cons o os ih =>
    obtain ⟨h1, h2⟩ := h.step o
    obtain ⟨h3, h4⟩ := ih h1
    exact ⟨h3, by simp [Ctl.run, h2, h4]⟩

lemma acroToMotor_conf (c : Indi α n) (om : Vec 3 α) (t : α) (od : Vec 3 α) (dt : α) :
    Pid.EffConf (c.acroToMotor om t od dt).1.pid c.pid :=
  (Pid.computeControl_config _ _ _).eff

/-- No control call changes the configuration. -/
lemma ConfRel.stepControl (c : Ctl α n) (o : CtlOp α n) (ho : isCtlConfig o = false) :
    ConfRel (c.step o).1 c := by
  cases o with
  | acro om t od dt => exact ⟨rfl, rfl, rfl, rfl, rfl, acroToMotor_conf _ _ _ _ _, .refl _, .refl _, .refl _⟩
  | acceleration R om a yaw dt =>
    exact ⟨rfl, rfl, rfl, rfl, rfl, acroToMotor_conf _ _ _ _ _, .refl _, .refl _, .refl _⟩
  | trajectory p v R om pd vd ad yaw dt =>
    exact ⟨rfl, rfl, rfl, rfl, rfl, acroToMotor_conf _ _ _ _ _, .refl _,
      (Pid.computeControlD_config _ _ _ _).eff, .refl _⟩
  | velocity v R om vd yaw dt =>
    exact ⟨rfl, rfl, rfl, rfl, rfl, acroToMotor_conf _ _ _ _ _, .refl _, .refl _,
      (Pid.computeControl_config _ _ _).eff⟩
  | position p R v om pd yaw dt =>
    exact ⟨rfl, rfl, rfl, rfl, rfl, acroToMotor_conf _ _ _ _ _, (Pid.computeControl_config _ _ _).eff,
      .refl _, (Pid.computeControl_config _ _ _).eff⟩
  | convertAcro om t od dt =>
    exact ⟨rfl, rfl, rfl, rfl, rfl, acroToMotor_conf _ _ _ _ _, .refl _, .refl _, .refl _⟩
  | convertAcceleration a R yaw => exact ⟨rfl, rfl, rfl, rfl, rfl, .refl _, .refl _, .refl _, .refl _⟩
  | convertTrajectory p v pd vd ad dt =>
    exact ⟨rfl, rfl, rfl, rfl, rfl, .refl _, .refl _, (Pid.computeControlD_config _ _ _ _).eff, .refl _⟩
  | convertVelocity v vd dt =>
    exact ⟨rfl, rfl, rfl, rfl, rfl, .refl _, .refl _, .refl _, (Pid.computeControl_config _ _ _).eff⟩
  | convertPosition p pd dt =>
    exact ⟨rfl, rfl, rfl, rfl, rfl, .refl _, (Pid.computeControl_config _ _ _).eff, .refl _, .refl _⟩
  | yawRateToAngle y r => exact ⟨rfl, rfl, rfl, rfl, rfl, .refl _, .refl _, .refl _, .refl _⟩
  | acroThrust a => exact ⟨rfl, rfl, rfl, rfl, rfl, .refl _, .refl _, .refl _, .refl _⟩
  | acroRate R yaw t => exact ⟨rfl, rfl, rfl, rfl, rfl, .refl _, .refl _, .refl _, .refl _⟩
  | posPid o =>
    exact ⟨rfl, rfl, rfl, rfl, rfl, .refl _, (Pid.SameConfig.stepControl c.pos o ho).eff, .refl _, .refl _⟩
  | trajPid o =>
    exact ⟨rfl, rfl, rfl, rfl, rfl, .refl _, .refl _, (Pid.SameConfig.stepControl c.traj o ho).eff, .refl _⟩
  | velPid o =>
    exact ⟨rfl, rfl, rfl, rfl, rfl, .refl _, .refl _, .refl _, (Pid.SameConfig.stepControl c.vel o ho).eff⟩
  | indiPid o =>
    exact ⟨rfl, rfl, rfl, rfl, rfl, (Pid.SameConfig.stepControl c.indi.pid o ho).eff, .refl _, .refl _,
      .refl _⟩
  | _ => simp [isCtlConfig] at ho

lemma ConfRel.stepConfig {c d : Ctl α n} (h : ConfRel c d) (o : CtlOp α n) (ho : isCtlConfig o = true) :
    ConfRel (c.step o).1 (d.step o).1 := by
  cases o with
  | reset => exact ⟨h.kpRot, h.mass, h.gravity, h.inertia, h.mixerInv, h.pid, h.pos, h.traj, h.vel⟩
  | updateParams p =>
    exact ⟨rfl, rfl, rfl, rfl, rfl, .update _ _ _, .update _ _ _, .update _ _ _, .update _ _ _⟩
  | updateAcro p => exact ⟨rfl, rfl, rfl, h.inertia, h.mixerInv, h.pid, h.pos, h.traj, h.vel⟩
  | updateIndi p => exact ⟨h.kpRot, h.mass, h.gravity, rfl, rfl, .update _ _ _, h.pos, h.traj, h.vel⟩
  | updatePos p =>
    exact ⟨h.kpRot, h.mass, h.gravity, h.inertia, h.mixerInv, h.pid, .update _ _ _, h.traj, h.vel⟩
  | updateTraj p =>
    exact ⟨h.kpRot, h.mass, h.gravity, h.inertia, h.mixerInv, h.pid, h.pos, .update _ _ _, h.vel⟩
  | updateVel p =>
    exact ⟨h.kpRot, h.mass, h.gravity, h.inertia, h.mixerInv, h.pid, h.pos, h.traj, .update _ _ _⟩
  | setMass m => exact ⟨h.kpRot, rfl, h.gravity, h.inertia, h.mixerInv, h.pid, h.pos, h.traj, h.vel⟩
  | setGravity m => exact ⟨h.kpRot, h.mass, rfl, h.inertia, h.mixerInv, h.pid, h.pos, h.traj, h.vel⟩
  | setKpRot m => exact ⟨rfl, h.mass, h.gravity, h.inertia, h.mixerInv, h.pid, h.pos, h.traj, h.vel⟩
  | setInertia m => exact ⟨h.kpRot, h.mass, h.gravity, rfl, h.mixerInv, h.pid, h.pos, h.traj, h.vel⟩
  | setMixerInv m => exact ⟨h.kpRot, h.mass, h.gravity, h.inertia, rfl, h.pid, h.pos, h.traj, h.vel⟩
  | posPid o => exact ⟨h.kpRot, h.mass, h.gravity, h.inertia, h.mixerInv, h.pid, h.pos.step o, h.traj, h.vel⟩
  | trajPid o => exact ⟨h.kpRot, h.mass, h.gravity, h.inertia, h.mixerInv, h.pid, h.pos, h.traj.step o, h.vel⟩
  | velPid o => exact ⟨h.kpRot, h.mass, h.gravity, h.inertia, h.mixerInv, h.pid, h.pos, h.traj, h.vel.step o⟩
  | indiPid o => exact ⟨h.kpRot, h.mass, h.gravity, h.inertia, h.mixerInv, h.pid.step o, h.pos, h.traj, h.vel⟩
  | _ => simp [isCtlConfig] at ho

lemma ConfRel.run_filter (os : List (CtlOp α n)) {c d : Ctl α n} (h : ConfRel c d) :
    ConfRel (c.run os).1 (d.run (os.filter isCtlConfig)).1 := by
  induction os generalizing c d with
  | nil => exact h
  | cons o os ih =>
    by_cases ho : isCtlConfig o = true
    · rw [List.filter_cons_of_pos ho]; exact ih (h.stepConfig o ho)
    · rw [List.filter_cons_of_neg ho]
      exact ih ((ConfRel.stepControl c o (by simpa using ho)).trans h)

/-- No loop has run yet. -/
structure Fresh (c : Ctl α n) : Prop where
  pid : c.indi.pid.firstRun = true
  pos : c.pos.firstRun = true
  traj : c.traj.firstRun = true
  vel : c.vel.firstRun = true

omit [Flt α] in
lemma Rel.of_fresh {c d : Ctl α n} (h : ConfRel c d) (hc : Fresh c) (hd : Fresh d) : Rel c d :=
  ⟨h.kpRot, h.mass, h.gravity, h.inertia, h.mixerInv,
    ⟨h.pid, hc.pid.trans hd.pid.symm, fun h => by simp [hc.pid] at h⟩,
    ⟨h.pos, hc.pos.trans hd.pos.symm, fun h => by simp [hc.pos] at h⟩,
    ⟨h.traj, hc.traj.trans hd.traj.symm, fun h => by simp [hc.traj] at h⟩,
    ⟨h.vel, hc.vel.trans hd.vel.symm, fun h => by simp [hc.vel] at h⟩⟩

lemma Fresh.step {c : Ctl α n} (h : Fresh c) (o : CtlOp α n) (ho : isCtlConfig o = true) :
    Fresh (c.step o).1 := by
  have up : ∀ (p : Pid α 3) (r : PidParams α 3), p.firstRun = true → (p.updateParams r).firstRun = true :=
    fun p r hp => (Pid.updateParams_memory r p).1.trans hp
  cases o with
  | reset => exact ⟨rfl, rfl, rfl, rfl⟩
  | updateParams p => exact ⟨up _ _ h.pid, up _ _ h.pos, up _ _ h.traj, up _ _ h.vel⟩
  | updateAcro p => exact ⟨h.pid, h.pos, h.traj, h.vel⟩
  | updateIndi p => exact ⟨up _ _ h.pid, h.pos, h.traj, h.vel⟩
  | updatePos p => exact ⟨h.pid, up _ _ h.pos, h.traj, h.vel⟩
  | updateTraj p => exact ⟨h.pid, h.pos, up _ _ h.traj, h.vel⟩
  | updateVel p => exact ⟨h.pid, h.pos, h.traj, up _ _ h.vel⟩
  | posPid o => exact ⟨h.pid, Pid.step_config_firstRun _ o ho h.pos, h.traj, h.vel⟩
  | trajPid o => exact ⟨h.pid, h.pos, Pid.step_config_firstRun _ o ho h.traj, h.vel⟩
  | velPid o => exact ⟨h.pid, h.pos, h.traj, Pid.step_config_firstRun _ o ho h.vel⟩
  | indiPid o => exact ⟨Pid.step_config_firstRun _ o ho h.pid, h.pos, h.traj, h.vel⟩
  | setMass | setGravity | setKpRot | setInertia | setMixerInv => exact ⟨h.pid, h.pos, h.traj, h.vel⟩
  | _ => simp [isCtlConfig] at ho

lemma Fresh.run (os : List (CtlOp α n)) {c : Ctl α n} (h : Fresh c) :
    Fresh (c.run (os.filter isCtlConfig)).1 := by
  induction os generalizing c with
  | nil => exact h
  | cons o os ih =>
    by_cases ho : isCtlConfig o = true
    · rw [List.filter_cons_of_pos ho]; exact ih (h.step o ho)
    · rw [List.filter_cons_of_neg ho]; exact ih h

omit [Flt α] in
lemma ConfRel.refl (c : Ctl α n) : ConfRel c c := (Rel.refl c).conf

lemma Fresh.ofParams (p : CtlParams α n) : Fresh (Ctl.mk' p) := ⟨rfl, rfl, rfl, rfl⟩

omit [Flt α] in
lemma Fresh.reset (c : Ctl α n) : Fresh c.reset := ⟨rfl, rfl, rfl, rfl⟩

/-- After an update of all parameters the configuration is that of a new controller. -/
lemma ConfRel.update (p : CtlParams α n) (c : Ctl α n) : ConfRel (c.updateParams p) (Ctl.mk' p) :=
  ⟨rfl, rfl, rfl, rfl, rfl, .update p.indi.pid c.indi.pid Pid.init, .update p.pos c.pos Pid.init,
    .update p.traj c.traj Pid.init, .update p.vel c.vel Pid.init⟩

end Ctl

end Verif
