import Verif.Lemmas.Ctl

/-!
# Flight controller: reset, isolation, cascade and parameter updates (C51–C54)
-/

namespace Verif.Props

open Verif Flt Spec

variable {α : Type} [Flt α] {n : ℕ}

/-! ## C51 -/

/-- **C51.** After any history of calls, `reset_controller` makes the controller return, for every later
sequence of calls, exactly what a newly constructed controller returns that received the same
configuration calls but never evaluated a control law.  Any arithmetic. -/
theorem C51_reset_forgets (p : CtlParams α n) (os later : List (CtlOp α n)) :
    (((Ctl.mk' p).run os).1.reset.run later).2 =
      (((Ctl.mk' p).run (os.filter isCtlConfig)).1.run later).2 := by
  refine (Ctl.Rel.run ?_ later).2
  refine Ctl.Rel.of_fresh ?_ (Ctl.Fresh.reset _) (Ctl.Fresh.run os (Ctl.Fresh.ofParams p))
  have h := Ctl.ConfRel.run_filter os (Ctl.ConfRel.refl (Ctl.mk' p))
  exact ⟨h.kpRot, h.mass, h.gravity, h.inertia, h.mixerInv, h.pid, h.pos, h.traj, h.vel⟩

/-- **C51.** Whatever the past: after an update of all parameters and a reset the controller answers
every later sequence of calls like a controller newly built from these parameters. -/
theorem C51_as_new (c : Ctl α n) (p : CtlParams α n) (later : List (CtlOp α n)) :
    ((c.updateParams p).reset.run later).2 = ((Ctl.mk' p).run later).2 ∧
    (c.reset.updateParams p |>.run later).2 = ((Ctl.mk' p).run later).2 := by
  have up : ∀ (q : Pid α 3) (r : PidParams α 3), q.firstRun = true → (q.updateParams r).firstRun = true :=
    fun q r hq => (Pid.updateParams_memory r q).1.trans hq
  constructor
  · refine (Ctl.Rel.run (Ctl.Rel.of_fresh ?_ (Ctl.Fresh.reset _) (Ctl.Fresh.ofParams p)) later).2
    have h := Ctl.ConfRel.update p c
    exact ⟨h.kpRot, h.mass, h.gravity, h.inertia, h.mixerInv, h.pid, h.pos, h.traj, h.vel⟩
  · exact (Ctl.Rel.run (Ctl.Rel.of_fresh (Ctl.ConfRel.update p _)
      ⟨up _ _ rfl, up _ _ rfl, up _ _ rfl, up _ _ rfl⟩ (Ctl.Fresh.ofParams p)) later).2

/-- The same for the PID alone: stale limits are never noticed. -/
theorem C51_pid_as_new {m : ℕ} (p : Pid α m) (r : PidParams α m) (later : List (PidOp α m)) :
    ((p.updateParams r).reset.run later).2 = ((Pid.mk' r).run later).2 :=
  ((Pid.EffRel.fresh r p).run later).2

/-- A controller with an integrating position loop. -/
noncomputable def iParams : CtlParams ℝ 4 where
  acro := ⟨1, 1, ![0, 0, -10]⟩
  indi := ⟨1, 0, PidParams.default⟩
  pos := { PidParams.default with ki := ![1, 1, 1] }
  traj := PidParams.default
  vel := PidParams.default

/-- The memory the theorem speaks of exists: without the reset the second answer differs. -/
example : ((Ctl.mk' iParams).run [.convertPosition 0 ![1, 0, 0] 1, .convertPosition 0 ![1, 0, 0] 1]).2 ≠
    ((Ctl.mk' iParams).run [.convertPosition 0 ![1, 0, 0] 1]).2 ++
      ((Ctl.mk' iParams).run [.convertPosition 0 ![1, 0, 0] 1]).2 := by
  have hm : (Ctl.mk' iParams).pos = { (Pid.init : Pid ℝ 3) with
      kpMat := mdiag vzero, kiMat := mdiag ![1, 1, 1], kdMat := mdiag vzero, alpha := vones } := by
    simp [Ctl.mk', iParams, Pid.mk', Pid.updateParams, PidParams.default, Pid.nonZero, flt]
    simp [Pid.setGains, Pid.setAntiWindup, Pid.setAlpha, Pid.setResetIntegral, Pid.setPropSat,
      Pid.disableSat, Pid.reset, Pid.init, flt]
  intro h
  simp only [Ctl.run, Ctl.step, Ctl.convertPosition, hm, List.cons_append, List.nil_append,
    List.cons.injEq, CtlOut.vec.injEq] at h
  have h2 := congrFun h.2.1 0
  simp [Pid.computeControl, Pid.firstRunInit, Pid.init, Pid.computeIntegral,
    Pid.computeDerivativeByDeriving, Pid.computeDerivative, Pid.finishOutput, Pid.accumulate,
    Pid.resetAxis, Pid.nonZero, Pid.getError, flt, Matrix.mulVec_diagonal] at h2

/-! ## C52 -/

/-- **C52.** Each control law changes only the memory of the loops below it; the parameters of the
attitude law never change. -/
theorem C52_isolation (c : Ctl α n) (R : Mat 3 3 α) (pos vel om pd vd ad wd : Vec 3 α) (t yaw dt : α) :
    (let r := (c.acroControl om t wd dt).1
     r.acro = c.acro ∧ r.pos = c.pos ∧ r.traj = c.traj ∧ r.vel = c.vel ∧ r.desPos = c.desPos ∧
       r.desVel = c.desVel ∧ r.desAcc = c.desAcc) ∧
    (let r := (c.accelerationControl R om ad yaw dt).1
     r.pos = c.pos ∧ r.traj = c.traj ∧ r.vel = c.vel ∧ r.desPos = c.desPos ∧ r.desVel = c.desVel ∧
       r.acro.kpRot = c.acro.kpRot ∧ r.acro.mass = c.acro.mass ∧ r.acro.gravity = c.acro.gravity) ∧
    (let r := (c.velocityControl vel R om vd yaw dt).1
     r.pos = c.pos ∧ r.traj = c.traj ∧ r.desPos = c.desPos ∧
       r.acro.kpRot = c.acro.kpRot ∧ r.acro.mass = c.acro.mass ∧ r.acro.gravity = c.acro.gravity) ∧
    (let r := (c.trajectoryControl pos vel R om pd vd ad yaw dt).1
     r.pos = c.pos ∧ r.vel = c.vel ∧
       r.acro.kpRot = c.acro.kpRot ∧ r.acro.mass = c.acro.mass ∧ r.acro.gravity = c.acro.gravity) ∧
    (let r := (c.positionControl pos R vel om pd yaw dt).1
     r.traj = c.traj ∧
       r.acro.kpRot = c.acro.kpRot ∧ r.acro.mass = c.acro.mass ∧ r.acro.gravity = c.acro.gravity) := by
  refine ⟨⟨rfl, rfl, rfl, rfl, rfl, rfl, rfl⟩, ⟨rfl, rfl, rfl, rfl, rfl, rfl, rfl, rfl⟩,
    ⟨rfl, rfl, rfl, rfl, rfl, rfl⟩, ⟨rfl, rfl, rfl, rfl, rfl⟩, ⟨rfl, rfl, rfl, rfl⟩⟩

/-- **C52.** Conversely the command of a control law depends only on the loops it uses: controllers that
agree on them, and may differ in all others and in all reported values, give the same command. -/
theorem C52_independence (c d : Ctl α n) (R : Mat 3 3 α) (pos vel om pd vd ad wd : Vec 3 α) (t yaw dt : α) :
    (c.indi = d.indi → (c.acroControl om t wd dt).2 = (d.acroControl om t wd dt).2) ∧
    (c.indi = d.indi → c.acro = d.acro →
      (c.accelerationControl R om ad yaw dt).2 = (d.accelerationControl R om ad yaw dt).2) ∧
    (c.indi = d.indi → c.acro = d.acro → c.vel = d.vel →
      (c.velocityControl vel R om vd yaw dt).2 = (d.velocityControl vel R om vd yaw dt).2) ∧
    (c.indi = d.indi → c.acro = d.acro → c.traj = d.traj →
      (c.trajectoryControl pos vel R om pd vd ad yaw dt).2 =
        (d.trajectoryControl pos vel R om pd vd ad yaw dt).2) ∧
    (c.indi = d.indi → c.acro = d.acro → c.vel = d.vel → c.pos = d.pos →
      (c.positionControl pos R vel om pd yaw dt).2 = (d.positionControl pos R vel om pd yaw dt).2) := by
  obtain ⟨a, i, p, j, v⟩ := c
  obtain ⟨a', i', p', j', v'⟩ := d
  refine ⟨?_, ?_, ?_, ?_, ?_⟩
  · rintro ⟨⟩; rfl
  · rintro ⟨⟩ ⟨⟩; rfl
  · rintro ⟨⟩ ⟨⟩ ⟨⟩; rfl
  · rintro ⟨⟩ ⟨⟩ ⟨⟩; rfl
  · rintro ⟨⟩ ⟨⟩ ⟨⟩ ⟨⟩; rfl

/-- Controllers that differ in the position loop but agree on the loops below. -/
example : ∃ d : Ctl ℝ 4, d ≠ Ctl.mk' iParams ∧ (Ctl.mk' iParams).indi = d.indi ∧
    (Ctl.mk' iParams).acro = d.acro ∧ (Ctl.mk' iParams).vel = d.vel :=
  ⟨{ Ctl.mk' iParams with pos := { (Ctl.mk' iParams).pos with firstRun := false } },
    fun h => by
      have := congrArg (fun c => c.pos.firstRun) h
      simp [Ctl.mk', Pid.mk', Pid.reset] at this, rfl, rfl, rfl⟩

/-! ## C53 -/

/-- What remains to be done once thrust `T` and rates `w` are demanded: the rate loop runs on the rate
error, and every stage reports the values it used. -/
structure AcroStage (c c' : Ctl α n) (om : Vec 3 α) (T : α) (w : Vec 3 α) (dt : α) (cmd : Vec n α) : Prop where
  rate : c'.indi.pid = (c.indi.pid.computeControl dt fun i => w i ⊟ om i).1
  motors : cmd = (c.indi.acroToMotor om T w dt).2
  thrust : c'.desThrust = T
  angVel : c'.desAngVel = w
  command : c'.desMotVel = cmd

/-- The acceleration stage: the demanded force is `mass (a - g)`, the thrust its component along the
body axis, zero together with the rates if it points against it. -/
structure AccelerationStage (c c' : Ctl α n) (R : Mat 3 3 α) (om a : Vec 3 α) (yaw dt : α) (cmd : Vec n α) :
    Prop where
  acro : ∃ T w, AcroStage c c' om T w dt cmd ∧
    let f : Vec 3 α := fun i => (a i ⊟ c.acro.gravity i) ⊠ c.acro.mass
    let proj := dot f (normalized fun i => R i 2)
    let rates := (c.acro.yawAngleToAngularVelocity R yaw f).2
    (lt proj (lit 0) = true ∧ T = lit 0 ∧ w = vzero) ∨ (lt proj (lit 0) = false ∧ T = proj ∧ w = rates)
  desired : c'.desAcc = a

/-- **C53.** Position control is the cascade position PID → velocity PID → acceleration to thrust and
rates → rate loop; velocity and trajectory control are its tails (the latter with the trajectory PID and
feed-forward).  Every PID receives reference minus measurement, and all reported desired values are the
ones used. -/
theorem C53_cascade (c : Ctl α n) (R : Mat 3 3 α) (pos vel om pd vd ad : Vec 3 α) (yaw dt : α) :
    (let r := c.positionControl pos R vel om pd yaw dt
     let v := c.pos.computeControl dt fun i => pd i ⊟ pos i
     let a := c.vel.computeControl dt fun i => v.2 i ⊟ vel i
     AccelerationStage c r.1 R om a.2 yaw dt r.2 ∧ r.1.desPos = pd ∧ r.1.desVel = v.2 ∧
       r.1.pos = v.1 ∧ r.1.vel = a.1) ∧
    (let r := c.velocityControl vel R om vd yaw dt
     let a := c.vel.computeControl dt fun i => vd i ⊟ vel i
     AccelerationStage c r.1 R om a.2 yaw dt r.2 ∧ r.1.desVel = vd ∧ r.1.vel = a.1) ∧
    (let r := c.trajectoryControl pos vel R om pd vd ad yaw dt
     let a := c.traj.computeControlD dt (fun i => pd i ⊟ pos i) fun i => vd i ⊟ vel i
     AccelerationStage c r.1 R om (fun i => a.2 i ⊞ ad i) yaw dt r.2 ∧ r.1.desPos = pd ∧
       r.1.desVel = vd ∧ r.1.traj = a.1) ∧
    (let r := c.accelerationControl R om ad yaw dt
     AccelerationStage c r.1 R om ad yaw dt r.2) := by
  have key : ∀ (d : Ctl α n) (a : Vec 3 α), d.acro = c.acro → d.indi = c.indi →
      AccelerationStage c (d.accelerationControl R om a yaw dt).1 R om a yaw dt
        (d.accelerationControl R om a yaw dt).2 := by
    intro d a h1 h2
    refine ⟨⟨(d.accelerationToAcro a R yaw).2.1, (d.accelerationToAcro a R yaw).2.2, ?_, ?_⟩, rfl⟩
    · refine ⟨?_, ?_, rfl, rfl, rfl⟩
      · rw [← h2]; rfl
      · rw [← h2]; rfl
    · simp only [Ctl.accelerationToAcro, Acro.accelerationToThrust, h1]
      cases hb : lt (dot (smulR (vsub a c.acro.gravity) c.acro.mass) (normalized fun i => R i 2)) (lit 0) with
      | true => exact .inl ⟨hb, rfl, rfl⟩
      | false => exact .inr ⟨hb, rfl, rfl⟩
  refine ⟨⟨?_, rfl, rfl, rfl, rfl⟩, ⟨?_, rfl, rfl⟩, ⟨?_, rfl, rfl, rfl⟩, key c ad rfl rfl⟩
  · exact key _ _ rfl rfl
  · exact key _ _ rfl rfl
  · exact key _ _ rfl rfl

/-! ## C54 -/

omit [Flt α] in
lemma tuning_of_eff {p q : Pid α 3} (h : Pid.EffConf p q) : SameTuning p q := by
  obtain ⟨⟨h1, h2, h3, h4, h5, h6, h7⟩, h8, h9⟩ := h
  exact ⟨h1, h2, h3, h4, h5, h6, h7, h8, h9⟩

lemma update_keeps (p : Pid α 3) (r : PidParams α 3) : SameMemory (p.updateParams r) p := by
  obtain ⟨f, v, w, b, he, -⟩ := Pid.updateParams_eq r p
  rw [he]
  exact ⟨rfl, rfl, rfl, rfl, rfl, rfl, rfl, rfl, rfl⟩

/-- **C54.** `update_params` keeps all memory of all loops and every reported value, and afterwards all
gains, flags and active limits are those of a controller built from the new parameters. -/
theorem C54_live_update (c : Ctl α n) (p : CtlParams α n) :
    let r := c.updateParams p
    let f := Ctl.mk' p
    (SameMemory r.indi.pid c.indi.pid ∧ SameMemory r.pos c.pos ∧ SameMemory r.traj c.traj ∧
      SameMemory r.vel c.vel ∧ r.desPos = c.desPos ∧ r.desVel = c.desVel ∧ r.desAcc = c.desAcc ∧
      r.desThrust = c.desThrust ∧ r.desAngVel = c.desAngVel ∧ r.desMotVel = c.desMotVel ∧
      r.acro.angVel = c.acro.angVel ∧ r.indi.torque = c.indi.torque ∧ r.indi.thrust = c.indi.thrust ∧
      r.indi.motVel = c.indi.motVel) ∧
    (SameTuning r.indi.pid f.indi.pid ∧ SameTuning r.pos f.pos ∧ SameTuning r.traj f.traj ∧
      SameTuning r.vel f.vel ∧ r.acro.kpRot = p.acro.kpRot ∧ r.acro.mass = p.acro.mass ∧
      r.acro.gravity = p.acro.gravity ∧ r.indi.inertia = p.indi.inertia ∧
      r.indi.mixerInv = p.indi.mixerInv) := by
  have h := Ctl.ConfRel.update p c
  exact ⟨⟨update_keeps _ _, update_keeps _ _, update_keeps _ _, update_keeps _ _, rfl, rfl, rfl, rfl, rfl,
    rfl, rfl, rfl, rfl, rfl⟩, tuning_of_eff h.pid, tuning_of_eff h.pos, tuning_of_eff h.traj,
    tuning_of_eff h.vel, rfl, rfl, rfl, rfl, rfl⟩

/-- The new gains are the ones given: the diagonal gain matrices of every loop. -/
theorem C54_gains (c : Ctl α n) (p : CtlParams α n) :
    let r := c.updateParams p
    ∀ i j : Fin 3,
      r.pos.kpMat i j = (if i = j then p.pos.kp i else lit 0) ∧
      r.pos.kiMat i j = (if i = j then p.pos.ki i else lit 0) ∧
      r.pos.kdMat i j = (if i = j then p.pos.kd i else lit 0) ∧
      r.vel.kpMat i j = (if i = j then p.vel.kp i else lit 0) ∧
      r.vel.kiMat i j = (if i = j then p.vel.ki i else lit 0) ∧
      r.vel.kdMat i j = (if i = j then p.vel.kd i else lit 0) ∧
      r.traj.kpMat i j = (if i = j then p.traj.kp i else lit 0) ∧
      r.traj.kiMat i j = (if i = j then p.traj.ki i else lit 0) ∧
      r.traj.kdMat i j = (if i = j then p.traj.kd i else lit 0) ∧
      r.indi.pid.kpMat i j = (if i = j then p.indi.pid.kp i else lit 0) ∧
      r.indi.pid.kiMat i j = (if i = j then p.indi.pid.ki i else lit 0) ∧
      r.indi.pid.kdMat i j = (if i = j then p.indi.pid.kd i else lit 0) := by
  have key : ∀ (q : Pid α 3) (s : PidParams α 3), (q.updateParams s).kpMat = mdiag s.kp ∧
      (q.updateParams s).kiMat = mdiag s.ki ∧ (q.updateParams s).kdMat = mdiag s.kd := by
    intro q s
    obtain ⟨f, v, w, b, he, -⟩ := Pid.updateParams_eq s q
    rw [he]; exact ⟨rfl, rfl, rfl⟩
  intro r i j
  obtain ⟨a1, a2, a3⟩ := key c.pos p.pos
  obtain ⟨b1, b2, b3⟩ := key c.vel p.vel
  obtain ⟨c1, c2, c3⟩ := key c.traj p.traj
  obtain ⟨d1, d2, d3⟩ := key c.indi.pid p.indi.pid
  exact ⟨congrFun (congrFun a1 i) j, congrFun (congrFun a2 i) j, congrFun (congrFun a3 i) j,
    congrFun (congrFun b1 i) j, congrFun (congrFun b2 i) j, congrFun (congrFun b3 i) j,
    congrFun (congrFun c1 i) j, congrFun (congrFun c2 i) j, congrFun (congrFun c3 i) j,
    congrFun (congrFun d1 i) j, congrFun (congrFun d2 i) j, congrFun (congrFun d3 i) j⟩

/-- An accumulated integral survives the update. -/
example : (({ Ctl.mk' iParams with
      pos := { (Ctl.mk' iParams).pos with integral := ![1, 2, 3], firstRun := false } } :
      Ctl ℝ 4).updateParams iParams).pos.integral = ![1, 2, 3] :=
  (C54_live_update _ iParams).1.2.1.integral

end Verif.Props
