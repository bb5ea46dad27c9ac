import Verif.Props.SimRefs
import Verif.Props.Csv
import Verif.Spec.Unused

/-!
# C120 — references that the mode in force does not read
-/

namespace Verif.Props

open Verif Flt Spec

section
variable {α : Type} [Flt α] [Noise α] {n : ℕ}

/-- The simulator with other references. -/
def withRefs (s : Sim α n) (r : Refs α n) : Sim α n :=
  { s with refMot := r.mot, refThrust := r.thrust, refAngVel := r.angVel, refPos := r.pos, refVel := r.vel
           refAcc := r.acc, refYaw := r.yaw, refYawRate := r.yawRate }

/-- The references that the modes read are equal. -/
structure UsedEq (m : Mode) (y : YawMode) (a b : Refs α n) : Prop where
  mot : m = .motorW → b.mot = a.mot
  acro : m = .acro → b.thrust = a.thrust ∧ b.angVel = a.angVel
  pos : steersPosition m → b.pos = a.pos
  vel : steersVelocity m → b.vel = a.vel
  acc : m = .trajectory → b.acc = a.acc
  yaw : steersHeading m → y = .angle → b.yaw = a.yaw
  yawRate : steersHeading m → y = .rate → b.yawRate = a.yawRate

/-- Everything is equal but references that the modes do not read. -/
def Rel (s t : Sim α n) : Prop := ∃ r, t = withRefs s r ∧ UsedEq s.mode s.yawMode (refsOf s) r

/-- The references that a change of mode leaves are equal. -/
def Kept (s t : Sim α n) : Prop := t.refMot = s.refMot ∧ t.refYawRate = s.refYawRate

/-- The dynamics do not look at the references. -/
lemma withRefs_dynamics (s : Sim α n) (r : Refs α n) (dt : α) :
    (withRefs s r).updateDynamics dt =
      match s.updateDynamics dt with
      | .ok s' => .ok (withRefs s' r)
      | .throw s' => .throw (withRefs s' r)
      | .bad => .bad := by
  have gen : ∀ ext : Vec 3 α,
      (match (withRefs s r).dyn.process (withRefs s r).actuation dt ext (!(withRefs s r).floorCollision) with
        | .bad => .bad
        | .throw d => .throw { withRefs s r with extForce := ext, dyn := d }
        | .ok d =>
          let s' := { withRefs s r with extForce := vzero, dyn := d, floorCollision := false }
          if s'.belowFloor then .ok s'.collide else .ok s' : Res (Sim α n)) =
      match (match s.dyn.process s.actuation dt ext (!s.floorCollision) with
        | .bad => .bad
        | .throw d => .throw { s with extForce := ext, dyn := d }
        | .ok d =>
          let s' := { s with extForce := vzero, dyn := d, floorCollision := false }
          if s'.belowFloor then .ok s'.collide else .ok s' : Res (Sim α n)) with
      | .ok s' => .ok (withRefs s' r)
      | .throw s' => .throw (withRefs s' r)
      | .bad => .bad := by
    intro ext
    show (match s.dyn.process s.actuation dt ext (!s.floorCollision) with
        | .bad => .bad
        | .throw d => .throw { withRefs s r with extForce := ext, dyn := d }
        | .ok d =>
          let s' := { withRefs s r with extForce := vzero, dyn := d, floorCollision := false }
          if s'.belowFloor then .ok s'.collide else .ok s' : Res (Sim α n)) = _
    cases s.dyn.process s.actuation dt ext (!s.floorCollision) with
    | bad => rfl
    | throw d => rfl
    | ok d =>
      simp only
      have : Sim.belowFloor { withRefs s r with extForce := vzero, dyn := d, floorCollision := false } =
        Sim.belowFloor { s with extForce := vzero, dyn := d, floorCollision := false } := rfl
      rw [this]
      cases Sim.belowFloor { s with extForce := vzero, dyn := d, floorCollision := false } <;> rfl
  rcases Sim.updateDynamics_cases s dt with ⟨hb, hc, hu⟩ | ⟨ext, he, hu⟩
  · rcases Sim.updateDynamics_cases (withRefs s r) dt with ⟨-, -, hu'⟩ | ⟨ext', he', -⟩
    · rw [hu, hu']
    · rcases he' with ⟨hb', -⟩ | ⟨-, c, hc', -⟩
      · have : s.belowFloor = false := hb'
        rw [this] at hb; cases hb
      · have : s.dyn.model.core = some c := hc'
        rw [hc] at this; cases this
  · rcases Sim.updateDynamics_cases (withRefs s r) dt with ⟨hb', hc', -⟩ | ⟨ext', he', hu'⟩
    · have hb'' : s.belowFloor = true := hb'
      have hc'' : s.dyn.model.core = none := hc'
      rcases he with ⟨hb, -⟩ | ⟨-, c, hc, -⟩
      · rw [hb] at hb''; cases hb''
      · rw [hc] at hc''; cases hc''
    · have : ext' = ext := by
        rcases he with ⟨hb, rfl⟩ | ⟨hb, c, hc, rfl⟩ <;> rcases he' with ⟨hb', rfl⟩ | ⟨hb', c', hc', rfl⟩
        · rfl
        · have : s.belowFloor = true := hb'
          rw [hb] at this; cases this
        · have : s.belowFloor = false := hb'
          rw [hb] at this; cases this
        · have : s.dyn.model.core = some c' := hc'
          rw [hc] at this; cases this; rfl
      rw [hu', hu, this]
      exact gen ext

/-- An update of the dynamics keeps references and modes. -/
lemma dynamics_refs {s s' : Sim α n} {dt : α} (h : s.updateDynamics dt = .ok s' ∨ s.updateDynamics dt = .throw s') :
    refsOf s' = refsOf s ∧ s'.mode = s.mode ∧ s'.yawMode = s.yawMode := by
  rcases h with h | h
  · obtain ⟨ext, d, -, -, rfl⟩ := Sim.updateDynamics_ok h
    simp only
    split_ifs <;> exact ⟨rfl, rfl, rfl⟩
  · obtain ⟨ext, d, -, rfl⟩ := Sim.updateDynamics_throw h
    exact ⟨rfl, rfl, rfl⟩

omit [Noise α] in
lemma withRefs_controller (s : Sim α n) (r : Refs α n) (h : UsedEq s.mode s.yawMode (refsOf s) r) (dt : α) :
    ∃ r', (withRefs s r).updateController dt = withRefs (s.updateController dt) r' ∧
      UsedEq s.mode s.yawMode (refsOf (s.updateController dt)) r' ∧ r'.mot = r.mot ∧ r'.yawRate = r.yawRate := by
  by_cases ha : s.armed = true
  · obtain ⟨h1, h2, h3, h4, h5, h6, h7⟩ := h
    refine ⟨refsOf ((withRefs s r).updateController dt), ?_⟩
    obtain ⟨dyn, ctl, imu, odom, armed, fe, fc, fh, rm, rt, rw, rp, rv, ra, ry, rr, act, ext, m, y⟩ := s
    obtain ⟨mot, thrust, angVel, pos, vel, acc, yaw, yawRate⟩ := r
    simp only [refsOf, steersHeading, steersPosition, steersVelocity] at h1 h2 h3 h4 h5 h6 h7 ha
    subst ha
    cases m <;> cases y <;>
      simp at h1 h2 h3 h4 h5 h6 h7
    all_goals
      (try obtain ⟨h2, h2'⟩ := h2)
      subst_vars
      refine ⟨rfl, ⟨?_, ?_, ?_, ?_, ?_, ?_, ?_⟩, rfl, rfl⟩ <;>
        simp [Sim.updateController, withRefs, refsOf, Sim.updateYawReference, steersHeading, steersPosition, steersVelocity]
  · rw [Bool.not_eq_true] at ha
    have ha' : (withRefs s r).armed = false := ha
    rw [Sim.updateController_disarmed ha, Sim.updateController_disarmed ha']
    exact ⟨r, rfl, h, rfl, rfl⟩

/-- The same outcome of a call on related simulators. -/
def SameOutcome (k : Prop) (r r' : Res (Sim α n)) : Prop :=
  match r, r' with
  | .ok s, .ok t => Rel s t ∧ (k → Kept s t)
  | .throw s, .throw t => Rel s t ∧ (k → Kept s t)
  | .bad, .bad => True
  | _, _ => False

omit [Flt α] [Noise α] in
/-- A call that treats references as plain data. -/
lemma rel_of {s t : Sim α n} {r : Refs α n} (h : UsedEq s.mode s.yawMode (refsOf s) r) (ht : t = withRefs s r) :
    Rel s t := ⟨r, ht, h⟩

lemma rel_step {s t : Sim α n} (o : SimOp α n) (h : Rel s t) (hm : isModeCall o → Kept s t) :
    SameOutcome (Kept s t) (s.step o) (t.step o) := by
  obtain ⟨r, rfl, hr⟩ := h
  obtain ⟨h1, h2, h3, h4, h5, h6, h7⟩ := id hr
  cases o with
  | updateDynamics dt =>
    simp only [Sim.step, withRefs_dynamics]
    cases hs : s.updateDynamics dt with
    | bad => trivial
    | ok s' =>
      obtain ⟨e1, e2, e3⟩ := dynamics_refs (.inl hs)
      refine ⟨⟨r, rfl, by rw [e1, e2, e3]; exact hr⟩, fun hk => ?_⟩
      have e4 := congrArg Refs.mot e1
      have e5 := congrArg Refs.yawRate e1
      simp only [refsOf] at e4 e5
      exact ⟨by rw [e4]; exact hk.1, by rw [e5]; exact hk.2⟩
    | throw s' =>
      obtain ⟨e1, e2, e3⟩ := dynamics_refs (.inr hs)
      refine ⟨⟨r, rfl, by rw [e1, e2, e3]; exact hr⟩, fun hk => ?_⟩
      have e4 := congrArg Refs.mot e1
      have e5 := congrArg Refs.yawRate e1
      simp only [refsOf] at e4 e5
      exact ⟨by rw [e4]; exact hk.1, by rw [e5]; exact hk.2⟩
  | updateController dt =>
    obtain ⟨r', e1, e2, e3, e4⟩ := withRefs_controller s r hr dt
    have hf := C12_frame s dt
    simp only [Sim.step, e1]
    refine ⟨⟨r', rfl, by rw [hf.2.2.2.2.2.2.2.2.2.2.2.2.2.2.2.1, hf.2.2.2.2.2.2.2.2.2.2.2.2.2.2.2.2.1]; exact e2⟩,
      fun hk => ⟨?_, ?_⟩⟩
    · rw [hf.2.2.2.2.2.2.2.1]
      exact e3.trans hk.1
    · rw [hf.2.2.2.2.2.2.2.2.2.2.2.2.2.1]
      exact e4.trans hk.2
  | updateImu dt => exact ⟨⟨r, rfl, hr⟩, id⟩
  | updateOdom dt => exact ⟨⟨r, rfl, hr⟩, id⟩
  | arm =>
    refine ⟨⟨{ r with thrust := lit (981 / 100), angVel := vzero, pos := fun i => if i = 2 then s.floorHeight else r.pos i },
      rfl, ⟨h1, fun _ => ⟨rfl, rfl⟩, fun h => ?_, h4, h5, h6, h7⟩⟩, id⟩
    simp only [refsOf, Sim.arm]
    rw [h3 h]
    rfl
  | disarm => exact ⟨⟨r, rfl, hr⟩, id⟩
  | enableFloor z => exact ⟨⟨r, rfl, hr⟩, id⟩
  | disableFloor => exact ⟨⟨r, rfl, hr⟩, id⟩
  | setControlMode m y =>
    have hk := hm trivial
    simp only [Sim.step, Sim.setControlMode]
    by_cases hc : s.mode = m ∧ s.yawMode = y
    · rw [if_pos hc, if_pos (show (withRefs s r).mode = m ∧ (withRefs s r).yawMode = y from hc)]
      exact ⟨⟨r, rfl, hr⟩, id⟩
    · rw [if_neg hc, if_neg (show ¬ ((withRefs s r).mode = m ∧ (withRefs s r).yawMode = y) from hc)]
      exact ⟨⟨⟨r.mot, lit 0, vzero, s.dyn.state.pos, vzero, vzero, (quatToEuler s.dyn.state.ori).2.2, r.yawRate⟩, rfl,
        ⟨fun _ => hk.1, fun _ => ⟨rfl, rfl⟩, fun _ => rfl, fun _ => rfl, fun _ => rfl, fun _ _ => rfl, fun _ _ => hk.2⟩⟩,
        fun hk => hk⟩
  | setRefMot w => exact ⟨⟨{ r with mot := w }, rfl, ⟨fun _ => rfl, h2, h3, h4, h5, h6, h7⟩⟩, fun hk => ⟨rfl, hk.2⟩⟩
  | setRefAcro a w =>
    exact ⟨⟨{ r with thrust := a, angVel := w }, rfl, ⟨h1, fun _ => ⟨rfl, rfl⟩, h3, h4, h5, h6, h7⟩⟩, id⟩
  | setRefTrajectory p v a =>
    exact ⟨⟨{ r with pos := p, vel := v, acc := a }, rfl,
      ⟨h1, h2, fun _ => rfl, fun _ => rfl, fun _ => rfl, h6, h7⟩⟩, id⟩
  | setRefVel v => exact ⟨⟨{ r with vel := v }, rfl, ⟨h1, h2, h3, fun _ => rfl, h5, h6, h7⟩⟩, id⟩
  | setRefPos p => exact ⟨⟨{ r with pos := p }, rfl, ⟨h1, h2, fun _ => rfl, h4, h5, h6, h7⟩⟩, id⟩
  | setRefYaw y => exact ⟨⟨{ r with yaw := y }, rfl, ⟨h1, h2, h3, h4, h5, fun _ _ => rfl, h7⟩⟩, id⟩
  | setRefYawRate y =>
    exact ⟨⟨{ r with yawRate := y }, rfl, ⟨h1, h2, h3, h4, h5, h6, fun _ _ => rfl⟩⟩, fun hk => ⟨hk.1, rfl⟩⟩
  | setDynParams p =>
    simp only [Sim.step, Sim.setDynParams]
    cases Dyn.mk' p with
    | none => trivial
    | some d => exact ⟨⟨r, rfl, hr⟩, id⟩
  | setCtlParams p => exact ⟨⟨r, rfl, hr⟩, id⟩
  | setImuParams p => exact ⟨⟨r, rfl, hr⟩, id⟩
  | setOdomParams p =>
    simp only [Sim.step, Sim.setOdomParams]
    cases Odom.mk' p with
    | none => trivial
    | some o => exact ⟨⟨r, rfl, hr⟩, id⟩
  | mutDyn f => exact ⟨⟨r, rfl, hr⟩, id⟩
  | mutCtl f => exact ⟨⟨r, rfl, hr⟩, id⟩
  | mutImu f => exact ⟨⟨r, rfl, hr⟩, id⟩
  | mutOdom f => exact ⟨⟨r, rfl, hr⟩, id⟩

lemma rel_idle {s t : Sim α n} (o : SimOp α n) (h : Rel s t) (ho : IdleCall s.mode s.yawMode o) :
    ∃ t', t.step o = .ok t' ∧ Rel s t' ∧ (¬ staysThrough o → Kept s t → Kept s t') := by
  obtain ⟨r, rfl, hr⟩ := h
  obtain ⟨h1, h2, h3, h4, h5, h6, h7⟩ := id hr
  cases o with
  | setRefMot w =>
    exact ⟨_, rfl, ⟨{ r with mot := w }, rfl, ⟨fun h => absurd h ho, h2, h3, h4, h5, h6, h7⟩⟩, fun h => absurd trivial h⟩
  | setRefAcro a w =>
    exact ⟨_, rfl, ⟨{ r with thrust := a, angVel := w }, rfl, ⟨h1, fun h => absurd h ho, h3, h4, h5, h6, h7⟩⟩, fun _ => id⟩
  | setRefTrajectory p v a =>
    exact ⟨_, rfl, ⟨{ r with pos := p, vel := v, acc := a }, rfl,
      ⟨h1, h2, fun h => absurd h ho.1, fun h => absurd h ho.2, fun h => absurd (.inr h) ho.2, h6, h7⟩⟩, fun _ => id⟩
  | setRefVel v => exact ⟨_, rfl, ⟨{ r with vel := v }, rfl, ⟨h1, h2, h3, fun h => absurd h ho, h5, h6, h7⟩⟩, fun _ => id⟩
  | setRefPos p => exact ⟨_, rfl, ⟨{ r with pos := p }, rfl, ⟨h1, h2, fun h => absurd h ho, h4, h5, h6, h7⟩⟩, fun _ => id⟩
  | setRefYaw y =>
    exact ⟨_, rfl, ⟨{ r with yaw := y }, rfl, ⟨h1, h2, h3, h4, h5, fun h h' => absurd ⟨h, h'⟩ ho, h7⟩⟩, fun _ => id⟩
  | setRefYawRate y =>
    exact ⟨_, rfl, ⟨{ r with yawRate := y }, rfl, ⟨h1, h2, h3, h4, h5, h6, fun h h' => absurd ⟨h, h'⟩ ho⟩⟩,
      fun h => absurd trivial h⟩
  | _ => exact ho.elim

lemma woven_runs {extra : Mode → YawMode → SimOp α n → Prop} {s t : Sim α n} {os os' : List (SimOp α n)}
    (h : Woven extra s os os' t) (hx : ∀ m y o, extra m y o → IdleCall m y o)
    (hk : (∀ m y o, extra m y o → ¬ staysThrough o) ∨ ∀ o ∈ os, ¬ isModeCall o) :
    ∀ u, Rel s u → ((∀ m y o, extra m y o → ¬ staysThrough o) → Kept s u) → ∃ v, u.Runs os' v ∧ Rel t v := by
  induction h with
  | nil s => exact fun u hu _ => ⟨u, .nil u, hu⟩
  | @more s t o os os' ho _ ih =>
    intro u hu hu'
    obtain ⟨u', e1, e2, e3⟩ := rel_idle o hu (hx _ _ _ ho)
    obtain ⟨v, hv, hr⟩ := ih hk u' e2 fun hn => e3 (hn _ _ _ ho) (hu' hn)
    exact ⟨v, .ok e1 hv, hr⟩
  | @ok s s' t o os os' hs _ ih =>
    intro u hu hu'
    have := rel_step o hu fun hm => by
      rcases hk with hk | hk
      · exact hu' hk
      · exact absurd hm (hk o (by simp))
    rw [hs] at this
    cases ht : u.step o with
    | ok u' =>
      rw [ht] at this
      obtain ⟨v, hv, hr⟩ := ih (hk.imp id fun h o ho => h o (List.mem_cons_of_mem _ ho)) u' this.1
        fun hn => this.2 (hu' hn)
      exact ⟨v, .ok ht hv, hr⟩
    | throw u' => rw [ht] at this; exact this.elim
    | bad => rw [ht] at this; exact this.elim
  | @throw s s' t o os os' hs _ ih =>
    intro u hu hu'
    have := rel_step o hu fun hm => by
      rcases hk with hk | hk
      · exact hu' hk
      · exact absurd hm (hk o (by simp))
    rw [hs] at this
    cases ht : u.step o with
    | throw u' =>
      rw [ht] at this
      obtain ⟨v, hv, hr⟩ := ih (hk.imp id fun h o ho => h o (List.mem_cons_of_mem _ ho)) u' this.1
        fun hn => this.2 (hu' hn)
      exact ⟨v, .throw ht hv, hr⟩
    | ok u' => rw [ht] at this; exact this.elim
    | bad => rw [ht] at this; exact this.elim

omit [Flt α] [Noise α] in
lemma rel_same {s t : Sim α n} (h : Rel s t) : SameButRefs s t := by
  obtain ⟨r, rfl, -⟩ := h
  exact ⟨rfl, rfl, rfl, rfl, rfl, rfl, rfl, rfl, rfl, rfl, rfl, rfl⟩

omit [Flt α] [Noise α] in
lemma rel_self (s : Sim α n) : Rel s s :=
  ⟨refsOf s, rfl, ⟨fun _ => rfl, fun _ => ⟨rfl, rfl⟩, fun _ => rfl, fun _ => rfl, fun _ => rfl, fun _ _ => rfl,
    fun _ _ => rfl⟩⟩

end

/-- Full claim: calls that only write references which are not for the modes in force change nothing but references,
now and later. -/
def C120_claim : Prop :=
  ∀ (α : Type) (_ : Flt α) (_ : LawfulFlt α) (_ : Noise α) (n : ℕ) (p : SimParams α n) (s₀ s t : Sim α n)
    (os₀ os os' : List (SimOp α n)), Sim.mk' p = some s₀ → s₀.Runs os₀ s → Woven IdleCall s os os' t →
    ∃ t', s.Runs os' t' ∧ SameButRefs t t'

section
variable {α : Type} [Flt α] [Noise α] {n : ℕ}

/-- **C120.** In any arithmetic and in every history: further calls that write references which are not for the modes in
force at that moment change nothing but references, now and later, if they are not about rotor speeds or the yaw
rate, or if the mode is not changed afterwards.  Missing: rotor speeds and yaw rate with later changes of mode
(`C120_violated`). -/
theorem C120_unused_references_partial (s t : Sim α n) (os os' : List (SimOp α n))
    (extra : Mode → YawMode → SimOp α n → Prop) (hx : ∀ m y o, extra m y o → IdleCall m y o)
    (hk : (∀ m y o, extra m y o → ¬ staysThrough o) ∨ ∀ o ∈ os, ¬ isModeCall o) (h : Woven extra s os os' t) :
    s.Runs os t ∧ ∃ t', s.Runs os' t' ∧ SameButRefs t t' := by
  refine ⟨?_, ?_⟩
  · clear hk
    induction h with
    | nil s => exact .nil s
    | more _ _ ih => exact ih
    | ok hs _ ih => exact .ok hs ih
    | throw hs _ ih => exact .throw hs ih
  · obtain ⟨v, hv, hr⟩ := woven_runs h hx hk s (rel_self s) fun _ => ⟨rfl, rfl⟩
    exact ⟨v, hv, rel_same hr⟩

end

/-- An armed vehicle in position mode. -/
noncomputable def steered [Noise ℝ] : Sim ℝ 4 := Fixture.sim.arm.setControlMode .position .angle

lemma steered_runs [Noise ℝ] : Fixture.sim.Runs [.arm, .setControlMode .position .angle] steered :=
  .ok rfl (.ok rfl (.nil _))

/-- Non-vacuity: velocity and acro references between the calls of a flight in position mode, and a change of mode. -/
example [Noise ℝ] (v w : Vec 3 ℝ) : ∃ t, Woven (fun m y o => IdleCall m y o ∧ ¬ staysThrough o) steered
    [.setRefPos v, .updateController 1, .setControlMode .velocity .angle]
    [.setRefVel w, .setRefPos v, .setRefAcro 1 w, .updateController 1, .setControlMode .velocity .angle,
      .setRefPos w] t := by
  refine ⟨_, .more ⟨?_, id⟩ (.ok rfl (.more ⟨?_, id⟩ (.ok rfl (.ok rfl (.more ⟨?_, id⟩ (.nil _))))))⟩
  · simp [IdleCall, steersVelocity, steered, Sim.setControlMode, Sim.arm, Fixture.sim]
  · simp [IdleCall, steered, Sim.setControlMode, Sim.arm, Fixture.sim, Sim.setRefPos]
  · have hm : (steered.setRefPos v).mode = .position := rfl
    have hu := (C12_frame (steered.setRefPos v) 1).2.2.2.2.2.2.2.2.2.2.2.2.2.2.2.1
    rw [hm] at hu
    have hv := ((C10_set_control_mode ((steered.setRefPos v).updateController 1) .velocity .angle).2
      (.inl (by rw [hu]; simp))).1
    show ¬ steersPosition _
    rw [hv]
    simp [steersPosition]

/-- Rotor speeds given in position mode come into force with a later change of mode. -/
theorem C120_violated : ¬ C120_claim := by
  intro h
  let N : Noise ℝ := ⟨fun _ _ _ => 0⟩
  let w : Vec 4 ℝ := fun _ => 1
  have ha : ∀ s : Sim ℝ 4, s.armed = true → s.mode = .motorW → ∀ dt, (s.updateController dt).actuation = s.refMot :=
    fun s h1 h2 dt => (C12_motor_mode s dt h1 h2).1
  obtain ⟨t', ht, hs⟩ := h ℝ inferInstance inferInstance N 4 Fixture.simParams Fixture.sim steered
    ((steered.setControlMode .motorW .angle).updateController 1) _
    [.setControlMode .motorW .angle, .updateController 1]
    [.setRefMot w, .setControlMode .motorW .angle, .updateController 1] Fixture.mk_sim steered_runs
    (.more (show (.position : Mode) ≠ .motorW by simp) (.ok rfl (.ok rfl (.nil _))))
  have e : t' = ((steered.setRefMot w).setControlMode .motorW .angle).updateController 1 := by
    cases ht with
    | throw h1 _ => cases h1
    | ok h1 h2 =>
      cases h1
      cases h2 with
      | throw h1 _ => cases h1
      | ok h1 h2 =>
        cases h1
        cases h2 with
        | throw h1 _ => cases h1
        | ok h1 h2 =>
          cases h1
          cases h2
          rfl
  have h1 := hs.actuation
  rw [e, ha _ rfl rfl, ha _ rfl rfl] at h1
  have h2 := congrFun h1 0
  have e1 : ((steered.setRefMot w).setControlMode .motorW .angle).refMot 0 = 1 := rfl
  have e2 : (steered.setControlMode .motorW .angle).refMot 0 = 0 := by
    show (lit 0 : ℝ) = 0
    simp [flt]
  rw [e1, e2] at h2
  norm_num at h2

end Verif.Props
