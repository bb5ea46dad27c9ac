import Verif.Props.Parked
import Verif.Props.OdomTrack
import Verif.Props.Alloc

/-!
# C82: when does a vehicle leave the floor?
-/

namespace Verif.Props

open Verif Flt Spec

section
variable [Noise ℝ] {n : ℕ}

/-- At rest on an enabled floor after a contact. -/
structure OnFloor (s : Sim ℝ n) : Prop where
  enabled : s.floorEnable = true
  height : s.dyn.state.pos 2 = s.floorHeight
  vel : s.dyn.state.vel = 0
  angVel : s.dyn.state.angVel = 0
  contact : s.floorCollision = true
  extForce : s.extForce = 0

/-- Every update that reports contact leaves the vehicle like this. -/
theorem C82_contact_rests (s s' : Sim ℝ n) (dt : ℝ) (h : s.updateDynamics dt = .ok s')
    (hc : s'.floorCollision = true) : OnFloor s' := by
  obtain ⟨d, hu, hcon, hnc⟩ := C07_floor_contact s s' dt h
  by_cases hk : Contact s d
  · rw [hcon hk]
    exact ⟨hk.1, rfl, by simp [flt]; rfl, by simp [flt]; rfl, rfl, by simp [flt]; rfl⟩
  · rw [hnc hk] at hc
    simp at hc

lemma command_floor {s t : Sim ℝ n} {os : List (SimOp ℝ n)} (h : Sim.Runs s os t)
    (ho : ∀ o ∈ os, isCommand o = true) :
    t.floorHeight = s.floorHeight ∧ t.extForce = s.extForce ∧ t.floorCollision = s.floorCollision := by
  induction h with
  | nil s => exact ⟨rfl, rfl, rfl⟩
  | @throw s s' t o os hst _ ih =>
    have hk := ho o (List.mem_cons_self ..)
    cases o <;> first | (simp [isCommand] at hk; done) | simp [Sim.step] at hst
  | @ok s s' t o os hst _ ih =>
    obtain ⟨i1, i2, i3⟩ := ih (fun o h => ho o (List.mem_cons_of_mem _ h))
    have hk := ho o (List.mem_cons_self ..)
    have : s'.floorHeight = s.floorHeight ∧ s'.extForce = s.extForce ∧
        s'.floorCollision = s.floorCollision := by
      cases o with
      | updateController dt =>
        simp only [Sim.step, Res.ok.injEq] at hst
        subst hst
        rcases Bool.eq_false_or_eq_true s.armed with hb | hb
        · rw [Sim.updateController_armed hb]; exact ⟨rfl, rfl, rfl⟩
        · rw [Sim.updateController_disarmed hb]; exact ⟨rfl, rfl, rfl⟩
      | setControlMode m y =>
        simp only [Sim.step, Res.ok.injEq] at hst
        subst hst
        unfold Sim.setControlMode
        split <;> exact ⟨rfl, rfl, rfl⟩
      | _ =>
        first
        | (simp [isCommand] at hk; done)
        | (simp only [Sim.step, Res.ok.injEq] at hst
           subst hst
           exact ⟨rfl, rfl, rfl⟩)
    exact ⟨i1.trans this.1, i2.trans this.2.1, i3.trans this.2.2⟩

/-- Two updates from the floor, with commands before, between and after. -/
structure TwoUpdates (s s' : Sim ℝ n) (dt dt' : ℝ) : Prop where
  run : ∃ (os : List (SimOp ℝ n)) (s₁ s₂ : Sim ℝ n), s.updateDynamics dt = .ok s₁ ∧
    (∀ o ∈ os, isCommand o = true) ∧ Sim.Runs s₁ os s₂ ∧ s₂.updateDynamics dt' = .ok s'
  pos : 0 < dt ∧ 0 < dt'
  small : dt ≤ 1 / 100 ∧ dt' ≤ 1 / 100

end

/-- Full claim: the vehicle leaves the floor exactly if the thrust exceeds the weight. -/
def C82_claim : Prop :=
  ∀ (_ : Noise ℝ) (n : ℕ) (s s' : Sim ℝ n) (p : ModelParams ℝ) (ms : Fin n → Motor ℝ) (T : Vec 3 ℝ)
    (g dt dt' : ℝ), RunsOn s.dyn p ms → IsUnitQ s.dyn.state.ori → IsThrust ms s.dyn.state T →
    OnFloor s → 0 < p.mass → p.gravity = ![0, 0, -g] → 0 < g → TwoUpdates s s' dt dt' →
    (s.floorHeight < s'.dyn.state.pos 2 ↔ p.mass * g < T 2)

section
variable [Noise ℝ] {n : ℕ}

/-- What is true: the exact height after two updates, for every attitude and every gravity vector, whatever
is commanded between the updates and whatever the noise generator yields; the vehicle leaves the floor
exactly if the vertical thrust exceeds the *acceleration* of gravity.  Missing: the factor mass. -/
theorem C82_lift_off_partial (s s' : Sim ℝ n) (p : ModelParams ℝ) (ms : Fin n → Motor ℝ) (T : Vec 3 ℝ)
    (dt dt' : ℝ) (hr : RunsOn s.dyn p ms) (hq : IsUnitQ s.dyn.state.ori)
    (hT : IsThrust ms s.dyn.state T) (hs : OnFloor s) (hm : 0 < p.mass) (ht : TwoUpdates s s' dt dt') :
    s'.dyn.state.pos 2 = max s.floorHeight (s.floorHeight + dt' * (dt * ((T 2 + p.gravity 2) / p.mass))) ∧
    (s.floorHeight < s'.dyn.state.pos 2 ↔ -p.gravity 2 < T 2) ∧
    (s'.floorCollision = true ↔ T 2 < -p.gravity 2) := by
  obtain ⟨⟨os, s₁, s₂, h1, ho, hrun, h2⟩, ⟨p1, p2⟩, l1, l2⟩ := ht
  obtain ⟨hco, hmo⟩ := runsOn_core hr
  -- first update
  obtain ⟨d, ⟨f, hf, hp⟩, hc, hnc⟩ := C07_floor_contact s s₁ dt h1
  have hf0 : f = 0 := by
    rcases hf with ⟨⟨-, hb⟩, -⟩ | ⟨-, hf⟩
    · rw [hs.height] at hb
      simp [flt] at hb
    · rw [hf, hs.extForce]
  rw [hf0, hs.contact, Dyn.process_small_real _ _ _ _ p1 l1] at hp
  obtain ⟨-, hd⟩ := step_on hco hmo hp
  have hdp : d.state.pos = s.dyn.state.pos := by rw [hd, Dyn.es_pos, hs.vel]; simp
  have hTe : T = s.dyn.state.ori.rotate (Model.thrustVec (Model.coreOf p ms) s.dyn.state.motVel) := by
    rw [Model.thrustVec_coreOf]
    exact isRotated_unique hT (Quat.rotate_isRotated hq _)
  have hdv : d.state.vel 2 = dt * ((T 2 + p.gravity 2) / p.mass) := by
    rw [hd, Dyn.es_vel, Dyn.es_acc, Dyn.es_force, ← hTe, hs.vel, dragForce_real]
    simp [Model.coreOf]
    field_simp
  have hnc1 : ¬ Contact s d := by
    rintro ⟨-, hb⟩
    rw [hdp, hs.height] at hb
    simp [flt] at hb
  have e1 := hnc hnc1
  obtain ⟨c1, -, -, c4⟩ := command_frame hrun ho
  obtain ⟨c5, c6, c7⟩ := command_floor hrun ho
  have k1 : s₂.dyn = d := by rw [c1, e1]
  have k2 : s₂.floorHeight = s.floorHeight := by rw [c5, e1]
  have k3 : s₂.extForce = 0 := by rw [c6, e1]; simp [flt]; rfl
  have k4 : s₂.floorEnable = true := by rw [c4, e1]; exact hs.enabled
  -- second update
  obtain ⟨d', ⟨f', hf', hp'⟩, hc', hnc'⟩ := C07_floor_contact s₂ s' dt' h2
  have hcore : s₂.dyn.model.core = some (Model.coreOf p ms) := by
    rw [k1, hd, Dyn.eulerStep_core, hco]
  rw [Dyn.process_small_real _ _ _ _ p2 l2] at hp'
  obtain ⟨-, hd'⟩ := step_on hcore hmo hp'
  have hz : d'.state.pos 2 = s.floorHeight + dt' * (dt * ((T 2 + p.gravity 2) / p.mass)) := by
    rw [hd', Dyn.es_pos, k1, hdp]
    simp only [Pi.add_apply, Pi.smul_apply, smul_eq_mul, hs.height, hdv]
  have hpos : 0 < dt' * dt / p.mass := by positivity
  have hsplit : dt' * (dt * ((T 2 + p.gravity 2) / p.mass)) = dt' * dt / p.mass * (T 2 + p.gravity 2) := by
    ring
  by_cases hk : Contact s₂ d'
  · have hb := hk.2
    rw [hz, k2, hsplit] at hb
    simp only [flt, decide_eq_true_eq] at hb
    have hneg : T 2 + p.gravity 2 < 0 := by
      by_contra hcon
      have := mul_nonneg hpos.le (not_lt.1 hcon)
      linarith
    have hzz : s'.dyn.state.pos 2 = s.floorHeight := by rw [hc' hk]; exact k2
    have hfl : s'.floorCollision = true := by rw [hc' hk]
    rw [hzz, hsplit, max_eq_left hb.le]
    refine ⟨rfl, by simp; linarith, ?_⟩
    rw [hfl]; simp; linarith
  · have hb : ¬ lt (d'.state.pos 2) s₂.floorHeight = true := fun hb => hk ⟨k4, hb⟩
    rw [hz, k2, hsplit] at hb
    simp only [flt, decide_eq_true_eq, not_lt] at hb
    have hnn : 0 ≤ T 2 + p.gravity 2 := by
      by_contra hcon
      have := mul_neg_of_pos_of_neg hpos (not_le.1 hcon)
      linarith
    have hzz : s'.dyn.state.pos 2 = d'.state.pos 2 := by rw [hnc' hk]
    have hfl : s'.floorCollision = false := by rw [hnc' hk]
    rw [hzz, hz, hsplit, max_eq_right hb]
    refine ⟨rfl, ?_, ?_⟩
    · constructor
      · intro hlt
        rcases hnn.lt_or_eq with h | h
        · linarith
        · rw [← h] at hlt; simp at hlt
      · intro hlt
        have := mul_pos hpos (show 0 < T 2 + p.gravity 2 by linarith)
        linarith
    · rw [hfl]; simp; linarith

/-- The fixture on the floor with rotors at speed `w`. -/
noncomputable def grounded (w : ℝ) : Sim ℝ 4 :=
  { Fixture.sim with
    dyn := { Fixture.dyn with state := { Fixture.dyn.state with motVel := fun _ => w } }
    floorEnable := true
    floorCollision := true }

lemma grounded_onFloor (w : ℝ) : OnFloor (grounded w) :=
  ⟨rfl, by simp [grounded, Fixture.dyn, Fixture.sim, State.default, flt], by
    simp [grounded, Fixture.dyn, State.default, flt], by
    simp [grounded, Fixture.dyn, State.default, flt], rfl, by simp [grounded, Fixture.sim, flt]⟩

omit [Noise ℝ] in
lemma fixture_thrust (w : ℝ) : ∑ i, rotorForce (Fixture.motors i) w = ![0, 0, 4 * (w * |w|)] := by
  have := quadX_fn 1 1 1 1 0 10 1 1 Fixture.motors rfl
  rw [this]
  ext i
  fin_cases i <;> simp [Fin.sum_univ_four, rotorForce]
  ring

lemma grounded_thrust (w : ℝ) : IsThrust Fixture.motors (grounded w).dyn.state ![0, 0, 4 * (w * |w|)] := by
  unfold IsThrust
  have h1 : (grounded w).dyn.state.motVel = fun _ => w := rfl
  have h2 : (grounded w).dyn.state.ori = Quat.identity := rfl
  rw [h1, h2, fixture_thrust]
  have : toH (Quat.identity : Quat ℝ) = 1 := by
    simp [toH, Quat.identity, flt]; rfl
  simp [IsRotated, this]

lemma grounded_runsOn (w : ℝ) : RunsOn (grounded w).dyn Fixture.modelParams Fixture.motors := fixture_runsOn

lemma grounded_two (w : ℝ) : ∃ s', TwoUpdates (grounded w) s' (1 / 100) (1 / 200) := by
  obtain ⟨s₁, h₁⟩ := Fixture.updateDynamics_ok (grounded w) rfl (1 / 100) (by norm_num) le_rfl
  have hc : s₁.dyn.model.core = some Fixture.core := by
    obtain ⟨d, ⟨f, -, hp⟩, hc, hnc⟩ := C07_floor_contact _ _ _ h₁
    have := Dyn.process_core hp
    by_cases hk : Contact (grounded w) d
    · rw [hc hk]; exact this
    · rw [hnc hk]; exact this
  obtain ⟨s₂, h₂⟩ := Fixture.updateDynamics_ok s₁ hc (1 / 200) (by norm_num) (by norm_num)
  exact ⟨s₂, ⟨[], s₁, s₁, h₁, by simp, .nil _, h₂⟩, by norm_num, by norm_num⟩

end

/-- Non-vacuity: the fixture on the floor with turning rotors, updated twice. -/
example [Noise ℝ] : RunsOn (grounded 2).dyn Fixture.modelParams Fixture.motors ∧
    IsUnitQ (grounded 2).dyn.state.ori ∧ IsThrust Fixture.motors (grounded 2).dyn.state ![0, 0, 4 * (2 * |2|)] ∧
    OnFloor (grounded 2) ∧ 0 < Fixture.modelParams.mass ∧ ∃ s', TwoUpdates (grounded 2) s' (1 / 100) (1 / 200) :=
  ⟨grounded_runsOn 2, by simp [grounded, Fixture.dyn, State.default, Quat.identity, IsUnitQ, flt],
    grounded_thrust 2, grounded_onFloor 2, by norm_num [Fixture.modelParams], grounded_two 2⟩

/-- Mass two in a field of 10 m/s²: sixteen newtons lift a weight of twenty. -/
theorem C82_violated : ¬ C82_claim := by
  intro h
  let N : Noise ℝ := ⟨fun _ _ _ => 0⟩
  have hq : IsUnitQ (grounded 2).dyn.state.ori := by
    simp [grounded, Fixture.dyn, State.default, Quat.identity, IsUnitQ, flt]
  obtain ⟨s', hs'⟩ := grounded_two 2
  have hm : (0 : ℝ) < Fixture.modelParams.mass := by norm_num [Fixture.modelParams]
  have h1 := h N 4 _ s' _ _ _ 10 _ _ (grounded_runsOn 2) hq (grounded_thrust 2) (grounded_onFloor 2) hm rfl
    (by norm_num) hs'
  have h2 := (C82_lift_off_partial _ _ _ _ _ _ _ (grounded_runsOn 2) hq (grounded_thrust 2)
    (grounded_onFloor 2) hm hs').2.1
  rw [h1] at h2
  change (2 : ℝ) * 10 < 4 * (2 * |2|) ↔ -(-10 : ℝ) < 4 * (2 * |2|) at h2
  norm_num at h2

end Verif.Props
