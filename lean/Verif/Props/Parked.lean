import Verif.Lemmas.Sim
import Verif.Props.DynRun
import Verif.Props.SimFloor

/-!
# C15: a parked vehicle stays parked
-/

namespace Verif.Props

open Verif Flt Spec

section
variable [Noise ℝ] {n : ℕ}

/-- A disarmed vehicle at rest on an enabled floor, rotors stopped, gravity pointing down. -/
structure Parked (s : Sim ℝ n) (p : ModelParams ℝ) (ms : Fin n → Motor ℝ) (g : ℝ) : Prop where
  runsOn : RunsOn s.dyn p ms
  limits : ∀ i, (ms i).minSpeed ≤ 0 ∧ 0 ≤ (ms i).maxSpeed
  mass : 0 < p.mass
  gravity : p.gravity = ![0, 0, -g]
  down : 0 < g
  unit : IsUnitQ s.dyn.state.ori
  vel : s.dyn.state.vel = 0
  angVel : s.dyn.state.angVel = 0
  motVel : s.dyn.state.motVel = 0
  disarmed : s.armed = false
  actuation : s.actuation = 0
  floor : s.floorEnable = true
  height : s.dyn.state.pos 2 = s.floorHeight
  extForce : s.extForce = 0

/-- The calls of an update cycle, with time steps that are not sub-stepped. -/
def CycleCall : SimOp ℝ n → Prop
  | .updateController _ => True
  | .updateDynamics dt => 0 < dt ∧ dt ≤ 1 / 100
  | .updateImu _ => True
  | .updateOdom _ => True
  | _ => False

end

/-- Full claim: through any number of update cycles the vehicle keeps position and orientation. -/
def C15_claim : Prop :=
  ∀ (_ : Noise ℝ) (n : ℕ) (s t : Sim ℝ n) (p : ModelParams ℝ) (ms : Fin n → Motor ℝ) (g : ℝ)
    (os : List (SimOp ℝ n)), Parked s p ms g → (∀ o ∈ os, CycleCall o) → Sim.Runs s os t →
    t.dyn.state.pos = s.dyn.state.pos ∧ t.dyn.state.ori = s.dyn.state.ori

lemma quatIntegrate_zero {q : Quat ℝ} (h : IsUnitQ q) (dt : ℝ) : quatIntegrate q 0 dt = q := by
  unfold quatIntegrate
  rw [Quat.integrate_eq]
  simp
  exact Quat.normalized_of_unit h

section
variable [Noise ℝ] {n : ℕ}

/-- One step of a vehicle with stopped rotors that does not rotate. -/
lemma rest_step {d d' : Dyn ℝ n} {p : ModelParams ℝ} {ms : Fin n → Motor ℝ} {dt : ℝ} {noise : Bool}
    (hco : d.model.core = some (Model.coreOf p ms)) (hmo : Model.motorFn n p.motors = some ms)
    (hl : ∀ i, (ms i).minSpeed ≤ 0 ∧ 0 ≤ (ms i).maxSpeed) (hq : IsUnitQ d.state.ori)
    (hom : d.state.angVel = 0) (hw : d.state.motVel = 0) (h0 : 0 < dt) (h1 : dt ≤ 1 / 100)
    (h : d.process 0 dt 0 noise = .ok d') :
    d'.model.core = d.model.core ∧ d'.state.pos = d.state.pos + dt • d.state.vel ∧
    d'.state.ori = d.state.ori ∧ d'.state.motVel = 0 ∧
    (d.state.vel = 0 → noise = false ∨ p.forceNoise = 0 →
      d'.state.angVel = 0 ∧ d'.state.vel = (dt / p.mass) • p.gravity) := by
  rw [Dyn.process_small_real _ _ _ _ h0 h1] at h
  obtain ⟨-, rfl⟩ := step_on hco hmo h
  have hz : ∀ i, clampVal (0 : ℝ) (ms i).minSpeed (ms i).maxSpeed = 0 := by
    intro i
    rw [clampVal_real, if_neg (not_lt.2 (hl i).1), if_neg (not_lt.2 (hl i).2)]
  have hma : (Dyn.eulerStep (Model.coreOf p ms) ms d 0 dt 0 noise).state.motAcc = 0 := by
    rw [Dyn.es_motAcc, hw]
    funext i
    simp [hz]
  refine ⟨Dyn.eulerStep_core .., Dyn.es_pos .., ?_, ?_, fun hv hn => ?_⟩
  · rw [Dyn.es_ori, hom, quatIntegrate_zero hq]
  · rw [Dyn.es_motVel, hma, hw]
    funext i
    simp [hz]
  · have hns : Dyn.stepNoise (Model.coreOf p ms) d dt noise = 0 := by
      rcases hn with rfl | hn
      · simp
      · cases noise
        · simp
        · simp only [Dyn.stepNoise, if_true, Model.setNoise]
          split
          · simp [Model.disableNoise, flt]
          · funext i
            simp [Model.coreOf, hn, flt]
    constructor
    · have hT : (Dyn.eulerStep (Model.coreOf p ms) ms d 0 dt 0 noise).state.torque = 0 := by
        rw [Dyn.es_torque, hma, hw, hom, hns, Model.motorTorque_coreOf, aeroMoment_real]
        have : (∑ i, rotorTorque (ms i) ((0 : Vec n ℝ) i) ((0 : Vec n ℝ) i)) = 0 := by
          refine Finset.sum_eq_zero fun i _ => ?_
          have hz3 : ∀ (A : Mat 3 3 ℝ), A.mulVec ![0, 0, 0] = 0 := fun A => by
            rw [mulVec_z]; ext r; simp
          simp [rotorTorque, rotorForce, hz3]
        rw [this]
        simp
      rw [Dyn.es_angVel, Dyn.es_angAcc, hT, hom]
      simp
    · have hF : (Dyn.eulerStep (Model.coreOf p ms) ms d 0 dt 0 noise).state.force = p.gravity := by
        rw [Dyn.es_force, hw, hv, hns, Model.thrustVec_coreOf, dragForce_real]
        have : (∑ i, rotorForce (ms i) ((0 : Vec n ℝ) i)) = 0 := by
          refine Finset.sum_eq_zero fun i _ => ?_
          ext r
          simp [rotorForce, mulVec_z]
        rw [this, Quat.rotate_zero]
        ext i
        simp [Model.coreOf]
      rw [Dyn.es_vel, Dyn.es_acc, hF, hv, zero_add, smul_smul]
      rfl

/-- What holds between the calls, relative to the initial pose: either at rest (and the next step is free
of noise) or about to fall into the floor. -/
structure ParkedInv (x : Vec 3 ℝ) (q : Quat ℝ) (p : ModelParams ℝ) (ms : Fin n → Motor ℝ) (s : Sim ℝ n) :
    Prop where
  core : s.dyn.model.core = some (Model.coreOf p ms)
  pos : s.dyn.state.pos = x
  ori : s.dyn.state.ori = q
  angVel : s.dyn.state.angVel = 0
  motVel : s.dyn.state.motVel = 0
  disarmed : s.armed = false
  actuation : s.actuation = 0
  floor : s.floorEnable = true
  height : x 2 = s.floorHeight
  extForce : s.extForce = 0
  phase : (s.dyn.state.vel = 0 ∧ (s.floorCollision = true ∨ p.forceNoise = 0)) ∨
    (s.dyn.state.vel 0 = 0 ∧ s.dyn.state.vel 1 = 0 ∧ s.dyn.state.vel 2 < 0)

lemma parked_update {s s' : Sim ℝ n} {x : Vec 3 ℝ} {q : Quat ℝ} {p : ModelParams ℝ}
    {ms : Fin n → Motor ℝ} {g dt : ℝ} (hmo : Model.motorFn n p.motors = some ms)
    (hl : ∀ i, (ms i).minSpeed ≤ 0 ∧ 0 ≤ (ms i).maxSpeed) (hm : 0 < p.mass)
    (hg : p.gravity = ![0, 0, -g]) (hg0 : 0 < g) (hq : IsUnitQ q) (hi : ParkedInv x q p ms s)
    (h0 : 0 < dt) (h1 : dt ≤ 1 / 100) (h : s.updateDynamics dt = .ok s') : ParkedInv x q p ms s' := by
  obtain ⟨d, ⟨f, hf, hp⟩, hc, hnc⟩ := C07_floor_contact s s' dt h
  have hf0 : f = 0 := by
    rcases hf with ⟨⟨-, hb⟩, -⟩ | ⟨-, hf⟩
    · rw [hi.pos, hi.height] at hb
      simp [flt] at hb
    · rw [hf, hi.extForce]
  rw [hf0, hi.actuation] at hp
  obtain ⟨r1, r2, r3, r4, r5⟩ := rest_step hi.core hmo hl (by rw [hi.ori]; exact hq) hi.angVel hi.motVel
    h0 h1 hp
  rcases hi.phase with ⟨hv, hn⟩ | ⟨hv0, hv1, hv2⟩
  · have hpos : d.state.pos = x := by rw [r2, hv, hi.pos]; simp
    have hnc' : ¬ Contact s d := by
      rintro ⟨-, hb⟩
      rw [hpos, hi.height] at hb
      simp [flt] at hb
    obtain ⟨ra, rv⟩ := r5 hv (by
      rcases hn with hn | hn
      · exact .inl (by simp [hn])
      · exact .inr hn)
    rw [hnc hnc']
    refine ⟨r1.trans hi.core, hpos, r3.trans hi.ori, ra, r4, hi.disarmed, hi.actuation, hi.floor,
      hi.height, by simp [flt]; rfl, .inr ?_⟩
    simp only [rv, hg]
    refine ⟨by simp, by simp, ?_⟩
    have : 0 < dt / p.mass * g := by positivity
    simp
    linarith
  · have hpz : d.state.pos 2 < s.floorHeight := by
      rw [r2, hi.pos, ← hi.height]
      simp only [Pi.add_apply, Pi.smul_apply, smul_eq_mul]
      have := mul_neg_of_pos_of_neg h0 hv2
      linarith
    have hc' : Contact s d := ⟨hi.floor, by simpa [flt] using hpz⟩
    rw [hc hc']
    have hxy : d.state.pos 0 = x 0 ∧ d.state.pos 1 = x 1 := by
      rw [r2, hi.pos]
      simp only [Pi.add_apply, Pi.smul_apply, smul_eq_mul, hv0, hv1, mul_zero, add_zero, and_self]
    refine ⟨r1.trans hi.core, ?_, r3.trans hi.ori, by simp [flt]; rfl, r4, hi.disarmed, hi.actuation,
      hi.floor, hi.height, by simp [flt]; rfl, .inl ⟨by simp [flt]; rfl, .inl rfl⟩⟩
    funext i
    fin_cases i
    · exact hxy.1
    · exact hxy.2
    · exact hi.height.symm

/-- What is true: the vehicle keeps its pose through every number of cycles and for every noise sample
if its last update ended in floor contact, or if the force noise has correlation zero; and every such
sequence of cycles runs to the end.  Missing: a vehicle put on the floor without a contact update is
moved by the noise. -/
theorem C15_parked_partial (s : Sim ℝ n) (p : ModelParams ℝ) (ms : Fin n → Motor ℝ) (g : ℝ)
    (os : List (SimOp ℝ n)) (hs : Parked s p ms g) (hf : s.floorCollision = true ∨ p.forceNoise = 0)
    (ho : ∀ o ∈ os, CycleCall o) :
    (∀ t, Sim.Runs s os t →
      t.dyn.state.pos = s.dyn.state.pos ∧ t.dyn.state.ori = s.dyn.state.ori) ∧
    ∃ t, Sim.Runs s os t := by
  obtain ⟨hco, hmo⟩ := runsOn_core hs.runsOn
  have hinv : ParkedInv s.dyn.state.pos s.dyn.state.ori p ms s :=
    ⟨hco, rfl, rfl, hs.angVel, hs.motVel, hs.disarmed, hs.actuation, hs.floor, hs.height, hs.extForce,
      .inl ⟨hs.vel, hf⟩⟩
  have hstep : ∀ (o : SimOp ℝ n), CycleCall o → ∀ u, ParkedInv s.dyn.state.pos s.dyn.state.ori p ms u →
      ∃ u', u.step o = .ok u' ∧ ParkedInv s.dyn.state.pos s.dyn.state.ori p ms u' := by
    intro o hok u hu
    cases o with
    | updateController dt =>
      refine ⟨_, rfl, ?_⟩
      rw [Sim.updateController_disarmed hu.disarmed]
      exact ⟨hu.core, hu.pos, hu.ori, hu.angVel, hu.motVel, hu.disarmed, by simp [flt], hu.floor,
        hu.height, hu.extForce, hu.phase⟩
    | updateDynamics dt =>
      obtain ⟨h0, h1⟩ := hok
      have hex : ∃ u', u.updateDynamics dt = .ok u' := by
        have hcl : Dyn.clampOk ms = true := by
          simp only [Dyn.clampOk, List.all_eq_true, List.mem_finRange, true_imp_iff, Bool.not_eq_true']
          intro i
          simpa [flt] using (hs.limits i).1.trans (hs.limits i).2
        rcases Sim.updateDynamics_cases u dt with ⟨-, hc, -⟩ | ⟨ext, -, hup⟩
        · rw [hu.core] at hc; simp at hc
        · rw [hup, Dyn.process_small_real _ _ _ _ h0 h1]
          simp only [Dyn.singleStep, hu.core, show (Model.coreOf p ms).params.motors = p.motors from rfl,
            hmo, hcl, if_true]
          split
          · exact ⟨_, rfl⟩
          · exact ⟨_, rfl⟩
      obtain ⟨u', hu'⟩ := hex
      exact ⟨u', hu', parked_update hmo hs.limits hs.mass hs.gravity hs.down hs.unit hu h0 h1 hu'⟩
    | updateImu dt =>
      exact ⟨_, rfl, hu.core, hu.pos, hu.ori, hu.angVel, hu.motVel, hu.disarmed, hu.actuation, hu.floor,
        hu.height, hu.extForce, hu.phase⟩
    | updateOdom dt =>
      exact ⟨_, rfl, hu.core, hu.pos, hu.ori, hu.angVel, hu.motVel, hu.disarmed, hu.actuation, hu.floor,
        hu.height, hu.extForce, hu.phase⟩
    | _ => exact hok.elim
  constructor
  · intro t hr
    have : ∀ (os : List (SimOp ℝ n)) u t, (∀ o ∈ os, CycleCall o) →
        ParkedInv s.dyn.state.pos s.dyn.state.ori p ms u → Sim.Runs u os t →
        ParkedInv s.dyn.state.pos s.dyn.state.ori p ms t := by
      intro os u t ho hu hr
      induction hr with
      | nil _ => exact hu
      | @ok u u' t o os hst _ ih =>
        obtain ⟨u'', h1, h2⟩ := hstep o (ho _ (List.mem_cons_self ..)) u hu
        rw [hst, Res.ok.injEq] at h1
        subst h1
        exact ih (fun o h => ho o (List.mem_cons_of_mem _ h)) h2
      | @throw u u' t o os hst _ ih =>
        obtain ⟨u'', h1, h2⟩ := hstep o (ho _ (List.mem_cons_self ..)) u hu
        rw [hst] at h1
        simp at h1
    have h := this os s t ho hinv hr
    exact ⟨h.pos, h.ori⟩
  · have : ∀ (os : List (SimOp ℝ n)) u, (∀ o ∈ os, CycleCall o) →
        ParkedInv s.dyn.state.pos s.dyn.state.ori p ms u → ∃ t, Sim.Runs u os t := by
      intro os
      induction os with
      | nil => intro u _ _; exact ⟨u, .nil u⟩
      | cons o os ih =>
        intro u ho hu
        obtain ⟨u', h1, h2⟩ := hstep o (ho _ (List.mem_cons_self ..)) u hu
        obtain ⟨t, ht⟩ := ih u' (fun o h => ho o (List.mem_cons_of_mem _ h)) h2
        exact ⟨t, .ok h1 ht⟩
    exact this os s ho hinv

/-- The fixture standing on the floor at height 0. -/
lemma fixture_parked : Parked (Fixture.sim.enableFloor 0) Fixture.modelParams Fixture.motors 10 where
  runsOn := fixture_runsOn
  limits i := by
    obtain ⟨h1, h2, -⟩ := Fixture.motors_speed i
    rw [h1, h2]; norm_num
  mass := by norm_num [Fixture.modelParams]
  gravity := rfl
  down := by norm_num
  unit := fixture_unit
  vel := by simp [Sim.enableFloor, Fixture.sim, Fixture.dyn, State.default, flt]
  angVel := by simp [Sim.enableFloor, Fixture.sim, Fixture.dyn, State.default, flt]
  motVel := by simp [Sim.enableFloor, Fixture.sim, Fixture.dyn, State.default, flt]
  disarmed := rfl
  actuation := by simp [Sim.enableFloor, Fixture.sim, flt]
  floor := rfl
  height := by simp [Sim.enableFloor, Fixture.sim, Fixture.dyn, State.default, flt]
  extForce := by simp [Sim.enableFloor, flt]

/-- A parked vehicle after a contact, and a cycle. -/
example : Parked { Fixture.sim.enableFloor 0 with floorCollision := true } Fixture.modelParams
      Fixture.motors 10 ∧
    ∀ o ∈ ([.updateController (1 / 100), .updateDynamics (1 / 100), .updateImu (1 / 100),
      .updateOdom (1 / 100)] : List (SimOp ℝ 4)), CycleCall o := by
  obtain ⟨h1, h2, h3, h4, h5, h6, h7, h8, h9, h10, h11, h12, h13, h14⟩ := fixture_parked
  refine ⟨⟨h1, h2, h3, h4, h5, h6, h7, h8, h9, h10, h11, h12, h13, h14⟩, ?_⟩
  simp [CycleCall]

end

/-- A new simulator with the floor enabled at the height of the vehicle: two updates suffice to move it
sideways. -/
theorem C15_violated : ¬ C15_claim := by
  intro h
  let N : Noise ℝ := ⟨fun _ _ _ => 1⟩
  let s : Sim ℝ 4 := Fixture.sim.enableFloor 0
  have hz : s.dyn.state.pos = 0 ∧ s.dyn.state.vel = 0 ∧ s.dyn.state.motVel = 0 := by
    simp [s, Sim.enableFloor, Fixture.sim, Fixture.dyn, State.default, flt]
  obtain ⟨s1, h1⟩ := Fixture.updateDynamics_ok s rfl (1 / 100) (by norm_num) le_rfl
  -- the first update leaves a horizontal velocity
  obtain ⟨d1, ⟨f, hf, hp⟩, -, hnc⟩ := C07_floor_contact s s1 _ h1
  have hf0 : f = 0 := by
    rcases hf with ⟨⟨-, hb⟩, -⟩ | ⟨-, hf⟩
    · rw [hz.1] at hb
      simp [s, Sim.enableFloor, flt] at hb
    · rw [hf]; simp [s, Sim.enableFloor, flt]
  rw [Fixture.process_ok _ rfl _ _ (by norm_num) le_rfl, Res.ok.injEq, hf0] at hp
  have hpos1 : d1.state.pos = 0 := by
    rw [← hp, Dyn.es_pos, hz.1, hz.2.1]; simp
  have hs1 := hnc (by
    rintro ⟨-, hb⟩
    rw [hpos1] at hb
    simp [s, Sim.enableFloor, flt] at hb)
  have hvx : d1.state.vel 0 = 1 / 20 := by
    have hth : Model.thrustVec Fixture.core (0 : Vec 4 ℝ) = 0 := by
      show Model.thrustVec (Model.coreOf Fixture.modelParams Fixture.motors) (0 : Vec 4 ℝ) = 0
      rw [Model.thrustVec_coreOf]
      refine Finset.sum_eq_zero fun i _ => ?_
      ext r
      simp [rotorForce, mulVec_z]
    have hno : Dyn.stepNoise Fixture.core s.dyn (1 / 100) true 0 = 10 := by
      have : (√100 : ℝ) = 10 := by
        rw [show (100 : ℝ) = 10 ^ 2 by norm_num]; exact Real.sqrt_sq (by norm_num)
      simp [Dyn.stepNoise, Model.setNoise, flt, Fixture.core, Model.coreOf, Fixture.modelParams, this,
        Rng.draw3]
      norm_num
      simp [Noise.draw, N]
    rw [← hp]
    simp only [show (!s.floorCollision) = true from rfl]
    rw [Dyn.es_vel, Dyn.es_acc, Dyn.es_force, hz.2.1, hz.2.2, hth, Quat.rotate_zero, dragForce_real]
    simp only [Pi.add_apply, Pi.smul_apply, hno]
    simp [Fixture.core, Model.coreOf, Fixture.modelParams]
    norm_num
  have hcore1 : s1.dyn.model.core = some Fixture.core := by
    rw [hs1, ← hp]; exact Dyn.eulerStep_core ..
  obtain ⟨s2, h2⟩ := Fixture.updateDynamics_ok s1 hcore1 (1 / 100) (by norm_num) le_rfl
  have hx : s2.dyn.state.pos 0 = 1 / 2000 := by
    obtain ⟨d2, ⟨f2, -, hp2⟩, hc2, hnc2⟩ := C07_floor_contact s1 s2 _ h2
    rw [Fixture.process_ok _ hcore1 _ _ (by norm_num) le_rfl, Res.ok.injEq] at hp2
    have hd2 : d2.state.pos 0 = 1 / 2000 := by
      rw [← hp2, Dyn.es_pos, hs1]
      simp only [Pi.add_apply, Pi.smul_apply, smul_eq_mul, hvx, hpos1, Pi.zero_apply]
      norm_num
    by_cases hc : Contact s1 d2
    · rw [hc2 hc]; exact hd2
    · rw [hnc2 hc]; exact hd2
  have := (h N 4 s s2 _ _ 10 [.updateDynamics (1 / 100), .updateDynamics (1 / 100)] fixture_parked
    (by simp [CycleCall]) (.ok h1 (.ok h2 (.nil _)))).1
  rw [hz.1] at this
  have := congrFun this 0
  rw [hx] at this
  simp at this

end Verif.Props
