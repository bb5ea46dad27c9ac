import Verif.Spec.Wiring
import Verif.Props.SimRefs
import Verif.Props.SimFloor
import Verif.Lemmas.DynReal

/-!
# C123, C124: every part of the simulator sees exactly the calls meant for it; a new vehicle
-/

namespace Verif.Props

open Verif Flt Spec

section
variable {α : Type} [Flt α] [Noise α] {n : ℕ}

lemma deliver_append {C O : Type} (step : C → O → C) (c : C) (ms ms' : List (Message C O)) :
    deliver step c (ms ++ ms') = deliver step (deliver step c ms) ms' := by
  induction ms generalizing c with
  | nil => rfl
  | cons m ms ih => cases m <;> exact ih _

/-! ## One call -/

/-- The parts and switches after a call, as the specification says. -/
structure Wired (s s' : Sim α n) (e : Event α n) : Prop where
  imu : s'.imu = deliver Imu.step s.imu (toImu e s')
  odom : s'.odom = deliver Odom.step s.odom (toOdom e s')
  ctl : s'.ctl = deliver (fun c o => (c.step o).1) s.ctl (toController e s')
  armed : s'.armed = (writesArmed e).getD s.armed
  floorEnable : s'.floorEnable = (writesFloorEnable e).getD s.floorEnable
  floorHeight : s'.floorHeight = (writesFloorHeight e).getD s.floorHeight
  mode : (s'.mode, s'.yawMode) = (writesMode e).getD (s.mode, s.yawMode)
  dyn : (∀ dt, e.op ≠ .updateDynamics dt) → s'.dyn = (newVehicle e).getD s.dyn

lemma wired_ok {s s' : Sim α n} {o : SimOp α n} (h : s.step o = .ok s') : Wired s s' ⟨s, o, false⟩ := by
  cases o with
  | updateDynamics dt =>
    obtain ⟨ext, d, -, -, rfl⟩ := Sim.updateDynamics_ok h
    simp only []
    split
    · exact ⟨rfl, rfl, rfl, rfl, rfl, rfl, rfl, fun h => absurd rfl (h dt)⟩
    · exact ⟨rfl, rfl, rfl, rfl, rfl, rfl, rfl, fun h => absurd rfl (h dt)⟩
  | updateController dt =>
    simp only [Sim.step, Res.ok.injEq] at h
    subst h
    refine ⟨?_, ?_, ?_, ?_, ?_, ?_, ?_, fun _ => ?_⟩
    all_goals
      rcases Bool.eq_false_or_eq_true s.armed with hb | hb
      · cases hm : s.mode <;> cases hy : s.yawMode <;>
          simp [Sim.updateController, hb, hm, hy, toImu, toOdom, toController, touchesDown, deliver, writesArmed,
            writesFloorEnable, writesFloorHeight, writesMode, newVehicle, Ctl.step, Sim.updateYawReference]
      · simp [Sim.updateController, hb, toImu, toOdom, toController, touchesDown, deliver, writesArmed,
          writesFloorEnable, writesFloorHeight, writesMode, newVehicle]
  | setDynParams p =>
    simp only [Sim.step, Sim.setDynParams] at h
    split at h
    · simp at h
    · rename_i d hd
      simp only [Res.ok.injEq] at h
      subst h
      exact ⟨rfl, rfl, rfl, rfl, rfl, rfl, rfl, fun _ => by simp [newVehicle, hd]⟩
  | setOdomParams p =>
    simp only [Sim.step, Sim.setOdomParams] at h
    split at h
    · simp at h
    · rename_i d hd
      simp only [Res.ok.injEq] at h
      subst h
      exact ⟨rfl, by simp [toOdom, hd, deliver], rfl, rfl, rfl, rfl, rfl, fun _ => rfl⟩
  | setControlMode m y =>
    simp only [Sim.step, Res.ok.injEq] at h
    subst h
    by_cases hc : s.mode = m ∧ s.yawMode = y
    · rw [(C10_set_control_mode s m y).1 hc.1 hc.2]
      exact ⟨rfl, rfl, rfl, rfl, rfl, rfl, by simp [writesMode, hc], fun _ => rfl⟩
    · unfold Sim.setControlMode
      rw [if_neg hc]
      exact ⟨rfl, rfl, rfl, rfl, rfl, rfl, rfl, fun _ => rfl⟩
  | _ =>
    simp only [Sim.step, Res.ok.injEq] at h
    subst h
    exact ⟨rfl, rfl, rfl, rfl, rfl, rfl, rfl, fun _ => rfl⟩

lemma wired_throw {s s' : Sim α n} {o : SimOp α n} (h : s.step o = .throw s') : Wired s s' ⟨s, o, true⟩ := by
  cases o with
  | updateDynamics dt =>
    obtain ⟨ext, d, -, rfl⟩ := Sim.updateDynamics_throw h
    exact ⟨rfl, rfl, rfl, rfl, rfl, rfl, rfl, fun h => absurd rfl (h dt)⟩
  | setDynParams p => simp only [Sim.step, Sim.setDynParams] at h; split at h <;> simp at h
  | setOdomParams p => simp only [Sim.step, Sim.setOdomParams] at h; split at h <;> simp at h
  | _ => simp [Sim.step] at h

lemma received_trace {C O : Type} (step : C → O → C) (f : Event α n → Sim α n → List (Message C O)) (g : Sim α n → C)
    (hok : ∀ s o s', s.step o = .ok s' → g s' = deliver step (g s) (f ⟨s, o, false⟩ s'))
    (hth : ∀ s o s', s.step o = .throw s' → g s' = deliver step (g s) (f ⟨s, o, true⟩ s'))
    {s t : Sim α n} {tr : List (Event α n)} (h : Trace s tr t) : g t = deliver step (g s) (received f tr t) := by
  have hcons : ∀ (e : Event α n) (s' : Sim α n) (tr : List (Event α n)), Trace s' tr t →
      received f (e :: tr) t = f e s' ++ received f tr t := by
    intro e s' tr h
    cases h <;> simp [received]
  induction h with
  | nil s => rfl
  | ok hs ht ih => rw [hcons _ _ _ ht, deliver_append, ← hok _ _ _ hs]; exact ih hcons
  | throw hs ht ih => rw [hcons _ _ _ ht, deliver_append, ← hth _ _ _ hs]; exact ih hcons

/-! ## C123 -/

/-- **C123.** After any history, calls that threw included, controller, IMU and odometry are what the calls meant for them
have made of them, in their order: the control call of the mode with the state of the vehicle and the references, the
measurement of the force in the vehicle frame and of the angular velocity, the readings of the IMU, the resets on floor
contact, the replacements by objects built from new parameters.  Any arithmetic. -/
theorem C123_parts (s t : Sim α n) (tr : List (Event α n)) (h : Trace s tr t) :
    t.imu = deliver Imu.step s.imu (received toImu tr t) ∧
    t.odom = deliver Odom.step s.odom (received toOdom tr t) ∧
    t.ctl = deliver (fun c o => (c.step o).1) s.ctl (received toController tr t) :=
  ⟨received_trace _ _ (·.imu) (fun _ _ _ h => (wired_ok h).imu) (fun _ _ _ h => (wired_throw h).imu) h,
    received_trace _ _ (·.odom) (fun _ _ _ h => (wired_ok h).odom) (fun _ _ _ h => (wired_throw h).odom) h,
    received_trace _ _ (·.ctl) (fun _ _ _ h => (wired_ok h).ctl) (fun _ _ _ h => (wired_throw h).ctl) h⟩

/-- **C123.** The switches are set by their own calls only: armed, floor, height of the floor, modes. -/
theorem C123_switches (s t : Sim α n) (tr : List (Event α n)) (h : Trace s tr t) :
    t.armed = lastWrite writesArmed s.armed tr ∧
    t.floorEnable = lastWrite writesFloorEnable s.floorEnable tr ∧
    t.floorHeight = lastWrite writesFloorHeight s.floorHeight tr ∧
    (t.mode, t.yawMode) = lastWrite writesMode (s.mode, s.yawMode) tr :=
  ⟨lastWrite_of_step (reg := (·.armed)) (fun _ _ _ h => (wired_ok h).armed) (fun _ _ _ h => (wired_throw h).armed) h,
    lastWrite_of_step (reg := (·.floorEnable)) (fun _ _ _ h => (wired_ok h).floorEnable)
      (fun _ _ _ h => (wired_throw h).floorEnable) h,
    lastWrite_of_step (reg := (·.floorHeight)) (fun _ _ _ h => (wired_ok h).floorHeight)
      (fun _ _ _ h => (wired_throw h).floorHeight) h,
    lastWrite_of_step (reg := fun s => (s.mode, s.yawMode)) (fun _ _ _ h => (wired_ok h).mode)
      (fun _ _ _ h => (wired_throw h).mode) h⟩

/-- **C123.** Between two updates of the dynamics the vehicle changes only by being replaced or through the reference the
simulator hands out. -/
theorem C123_vehicle (s t : Sim α n) (tr : List (Event α n)) (h : Trace s tr t)
    (hn : ∀ e ∈ tr, ∀ dt, e.op ≠ .updateDynamics dt) : t.dyn = lastWrite newVehicle s.dyn tr := by
  induction h with
  | nil s => rfl
  | ok hs _ ih =>
    rw [ih fun e he => hn e (List.mem_cons_of_mem _ he), lastWrite, (wired_ok hs).dyn (hn _ (List.mem_cons_self ..))]
  | throw hs _ ih =>
    rw [ih fun e he => hn e (List.mem_cons_of_mem _ he), lastWrite, (wired_throw hs).dyn (hn _ (List.mem_cons_self ..))]

/-- **C123.** Giving a new simulator other parameters is the same as building it with these: it works if and only if
building works, and leads to the same object. -/
theorem C123_rebuild (p : SimParams α n) (s s' : Sim α n) (h : Sim.mk' p = some s) (d : DynParams α n)
    (c : CtlParams α n) (i : ImuParams α) (o : OdomParams α) :
    (s.step (.setDynParams d) = .ok s' ↔ Sim.mk' { p with dyn := d } = some s') ∧
    (s.step (.setCtlParams c) = .ok s' ↔ Sim.mk' { p with ctl := c } = some s') ∧
    (s.step (.setImuParams i) = .ok s' ↔ Sim.mk' { p with imu := i } = some s') ∧
    (s.step (.setOdomParams o) = .ok s' ↔ Sim.mk' { p with odom := o } = some s') := by
  obtain ⟨pd, pc, pi, po⟩ := p
  simp only [Sim.mk'] at h
  cases hd : Dyn.mk' pd with
  | none => simp [hd] at h
  | some d₀ =>
    cases ho : Odom.mk' po with
    | none => simp [hd, ho] at h
    | some o₀ =>
      simp only [hd, ho, Option.some.injEq] at h
      subst h
      refine ⟨?_, ?_, ?_, ?_⟩
      · cases hd' : Dyn.mk' d <;> simp [Sim.step, Sim.setDynParams, Sim.mk', ho, hd']
      · simp [Sim.step, Sim.setCtlParams, Sim.mk', hd, ho]
      · simp [Sim.step, Sim.setImuParams, Sim.mk', hd, ho]
      · cases ho' : Odom.mk' o <;> simp [Sim.step, Sim.setOdomParams, Sim.mk', hd, ho']

end

/-- Non-vacuity: a history with an arming, a measurement, an odometry update, new IMU parameters and a command in position
mode. -/
example [Noise ℝ] : ∃ (tr : List (Event ℝ 4)) (t : Sim ℝ 4), Trace Fixture.sim tr t ∧
    (received toImu tr t).length = 2 ∧ (received toOdom tr t).length = 1 ∧ (received toController tr t).length = 1 ∧
    lastWrite writesArmed false tr = true := by
  refine ⟨_, _, .ok (o := .arm) rfl (.ok (o := .updateImu (1 / 100)) rfl (.ok (o := .updateOdom (1 / 100)) rfl
    (.ok (o := .setImuParams Fixture.simParams.imu) rfl (.ok (o := .setControlMode .position .angle) rfl
    (.ok (o := .updateController (1 / 100)) rfl (.nil _)))))), rfl, rfl, ?_, rfl⟩
  simp [received, toController, Sim.arm, Sim.updateImu, Sim.updateOdom, Sim.setImuParams, Sim.setControlMode, Fixture.sim]

/-! ## C124 -/

/-- **C124, full claim.** The first update of a vehicle installed by `set_dynamics_params` is like that of a vehicle in a
new simulator: its process noise is drawn. -/
def C124_claim : Prop :=
  ∀ (α : Type) [Flt α] [Noise α] (n : ℕ) (p : SimParams α n) (s₀ s s₁ s₂ : Sim α n) (tr : List (Event α n))
    (d : DynParams α n) (dt : α),
    Sim.mk' p = some s₀ → Trace s₀ tr s → s.step (.setDynParams d) = .ok s₁ → s₁.updateDynamics dt = .ok s₂ →
    le dt (lit 0) = false → lt (Dyn.maxStep : α) dt = false →
    s₂.dyn.model.rng = ⟨d.seed, 2⟩

section
variable {α : Type} [Flt α] [Noise α] {n : ℕ}

omit [Noise α] in
/-- A vehicle built from parameters has its generator at the start. -/
lemma mk_rng {p : DynParams α n} {d : Dyn α n} (h : Dyn.mk' p = some d) : d.model.rng = ⟨p.seed, 0⟩ := by
  simp only [Dyn.mk', Option.map_eq_some_iff] at h
  obtain ⟨m, hm, rfl⟩ := h
  simp only [Model.mk', Model.updateParams] at hm
  split at hm
  · simp only [Option.some.injEq] at hm; subst hm; rfl
  · split at hm
    · simp at hm
    · split at hm
      · simp only [Option.some.injEq] at hm; subst hm; rfl
      · simp at hm

/-- The new vehicle and the contact flag it finds. -/
lemma setDyn_ok {s s₁ : Sim α n} {p : DynParams α n} (h : s.step (.setDynParams p) = .ok s₁) :
    s₁.dyn.model.rng = ⟨p.seed, 0⟩ ∧ s₁.floorCollision = s.floorCollision := by
  simp only [Sim.step, Sim.setDynParams] at h
  split at h
  · simp at h
  · rename_i d hd
    simp only [Res.ok.injEq] at h
    subst h
    exact ⟨mk_rng hd, rfl⟩

/-- **C124, what holds.** If no update of the dynamics succeeded before, or the last one did not end in floor contact, the
first update of the new vehicle draws its noise, from the start of its own sequence.  Missing from the full claim: an update
that ended in floor contact. -/
theorem C124_new_vehicle_partial (p : SimParams α n) (s₀ s s₁ s₂ : Sim α n) (tr : List (Event α n))
    (d : DynParams α n) (dt : α) (h₀ : Sim.mk' p = some s₀)
    (ht : Trace s₀ tr s ∧ (∀ e ∈ tr, ∀ dt, e.op = .updateDynamics dt → e.threw = true) ∨
      ∃ (a b : Sim α n) (tr₁ : List (Event α n)) (dt₁ : α) (x : Dyn α n), Trace s₀ tr₁ a ∧
        a.updateDynamics dt₁ = .ok b ∧ Unconstrained a dt₁ x ∧ ¬ Contact a x ∧ Trace b tr s ∧
        ∀ e ∈ tr, ∀ dt, e.op = .updateDynamics dt → e.threw = true)
    (h₁ : s.step (.setDynParams d) = .ok s₁) (h₂ : s₁.updateDynamics dt = .ok s₂)
    (h3 : le dt (lit 0) = false) (h4 : lt (Dyn.maxStep : α) dt = false) :
    s₂.dyn.model.rng = ⟨d.seed, 2⟩ := by
  obtain ⟨hr, hf⟩ := setDyn_ok h₁
  have hno : s.floorCollision = false := by
    rcases ht with ⟨ht, hn⟩ | ⟨a, b, tr₁, dt₁, x, -, hb, ⟨f, hf1, hx⟩, hc, ht, hn⟩
    · rw [flag_preserved ht hn]
      unfold Sim.mk' at h₀
      split at h₀
      · simp only [Option.some.injEq] at h₀; subst h₀; rfl
      · simp at h₀
    · rw [flag_preserved ht hn]
      obtain ⟨y, ⟨f', hf2, hy⟩, hflag⟩ := C09_flag a b dt₁ hb
      have hff : f' = f := by
        rcases hf1 with ⟨u, c, e, g⟩ | ⟨u, e⟩ <;> rcases hf2 with ⟨u', c', e', g'⟩ | ⟨u', e'⟩
        · rw [e] at e'
          cases e'
          funext i
          rw [g i, g' i]
        · exact absurd u u'
        · exact absurd u' u
        · rw [e, e']
      rw [hff, hx] at hy
      cases hy
      cases hb' : b.floorCollision with
      | false => rfl
      | true => exact absurd (hflag.1 hb') hc
  rw [(noise_by_flag h₂).2 (by rw [hf, hno]) h3 h4, hr]

/-- **C124, the fault in general.** If the last successful update ended in floor contact, the first update of the new
vehicle is without noise, whatever the new parameters are: the vehicle inherits the contact of the old one. -/
theorem C124_inherits (a b s s₁ s₂ : Sim α n) (tr : List (Event α n)) (dt₁ dt : α) (d : DynParams α n)
    (hb : a.updateDynamics dt₁ = .ok b) (ht : Trace b tr s)
    (hn : ∀ e ∈ tr, ∀ dt, e.op = .updateDynamics dt → e.threw = true)
    (h₁ : s.step (.setDynParams d) = .ok s₁) (h₂ : s₁.updateDynamics dt = .ok s₂) :
    ∃ x, Unconstrained a dt₁ x ∧ (Contact a x → s₂.dyn.model.rng = ⟨d.seed, 0⟩) := by
  obtain ⟨x, hx, hflag⟩ := C09_flag a b dt₁ hb
  obtain ⟨hr, hf⟩ := setDyn_ok h₁
  refine ⟨x, hx, fun hc => ?_⟩
  rw [((noise_by_flag h₂).1 (by rw [hf, flag_preserved ht hn]; exact hflag.2 hc)).1, hr]

end

/-- The concrete simulator on the floor, with its vehicle replaced by a new one of the same kind, and one update. -/
lemma inherits_witness [Noise ℝ] : ∃ (s s₁ s₂ : Sim ℝ 4) (tr : List (Event ℝ 4)), Trace Fixture.sim tr s ∧
    s.step (.setDynParams Fixture.dynParams) = .ok s₁ ∧ s₁.updateDynamics (1 / 100) = .ok s₂ ∧
    s₂.dyn.model.rng = ⟨7, 0⟩ := by
  obtain ⟨b, hb⟩ := Fixture.updateDynamics_ok (Fixture.sim.enableFloor 5) rfl (1 / 200) (by norm_num) (by norm_num)
  have h₁ : b.step (.setDynParams Fixture.dynParams) = .ok { b with dyn := Fixture.dyn } := by
    simp [Sim.step, Sim.setDynParams, Fixture.mk_dyn]
  obtain ⟨s₂, h₂⟩ := Fixture.updateDynamics_ok { b with dyn := Fixture.dyn } rfl (1 / 100) (by norm_num) (by norm_num)
  obtain ⟨x, ⟨f, -, hx⟩, hi⟩ := C124_inherits _ b b _ s₂ [] _ _ _ hb (.nil _) (by simp) h₁ h₂
  refine ⟨b, _, s₂, _, .ok (o := .enableFloor 5) rfl (.ok (o := .updateDynamics (1 / 200)) hb (.nil _)), h₁, h₂, hi ?_⟩
  rw [Fixture.process_ok _ rfl _ _ (by norm_num) (by norm_num)] at hx
  cases hx
  refine ⟨rfl, ?_⟩
  rw [Dyn.es_pos]
  simp [Sim.enableFloor, Fixture.sim, Fixture.dyn, State.default, flt]

/-- **C124 is violated.** A simulator whose last update ended in floor contact gets a new vehicle; the first update of the
new vehicle draws no noise. -/
theorem C124_violated : ¬ C124_claim := by
  intro h
  let _ : Noise ℝ := ⟨fun _ _ _ => 1⟩
  obtain ⟨s, s₁, s₂, tr, ht, h₁, h₂, hr⟩ := inherits_witness
  have := h ℝ 4 Fixture.simParams Fixture.sim s s₁ s₂ tr Fixture.dynParams (1 / 100) Fixture.mk_sim ht h₁ h₂
    (by simp [flt]) (by simp [Dyn.maxStep, flt])
  rw [hr] at this
  simp at this

/-- Non-vacuity: a flight without floor, a new vehicle, an update. -/
example [Noise ℝ] : ∃ (s₁ s₂ : Sim ℝ 4), Fixture.sim.step (.setDynParams Fixture.dynParams) = .ok s₁ ∧
    s₁.updateDynamics (1 / 100) = .ok s₂ ∧ s₂.dyn.model.rng = ⟨7, 2⟩ := by
  have h₁ : Fixture.sim.step (.setDynParams Fixture.dynParams) = .ok { Fixture.sim with dyn := Fixture.dyn } := by
    simp [Sim.step, Sim.setDynParams, Fixture.mk_dyn]
  obtain ⟨s₂, h₂⟩ := Fixture.updateDynamics_ok { Fixture.sim with dyn := Fixture.dyn } rfl (1 / 100) (by norm_num)
    (by norm_num)
  exact ⟨_, s₂, h₁, h₂, C124_new_vehicle_partial _ _ _ _ _ [] _ _ Fixture.mk_sim (.inl ⟨.nil _, by simp⟩) h₁ h₂
    (by simp [flt]) (by simp [Dyn.maxStep, flt])⟩

end Verif.Props
