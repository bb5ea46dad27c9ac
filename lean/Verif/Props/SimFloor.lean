import Verif.Fixture
import Verif.Spec.Sim

/-!
# C07, C08, C09: floor contact, floor reaction and process noise, in any arithmetic
-/

namespace Verif.Props

open Verif Flt Spec

section
variable {α : Type} [Flt α] [Noise α] {n : ℕ}

/-- The external force of an update: the floor reaction `-m g` if the vehicle starts below an enabled
floor, the stored force otherwise. -/
def IsExternalForce (s : Sim α n) (f : Vec 3 α) : Prop :=
  ((s.floorEnable = true ∧ lt (s.dyn.state.pos 2) s.floorHeight = true) ∧
    ∃ c, s.dyn.model.core = some c ∧ ∀ i, f i = neg (c.params.gravity i) ⊠ c.params.mass) ∨
  (¬ (s.floorEnable = true ∧ lt (s.dyn.state.pos 2) s.floorHeight = true) ∧ f = s.extForce)

/-- `d` is the result of the unconstrained step of an update. -/
def Unconstrained (s : Sim α n) (dt : α) (d : Dyn α n) : Prop :=
  ∃ f, IsExternalForce s f ∧ s.dyn.process s.actuation dt f (!s.floorCollision) = .ok d

/-- The unconstrained step ends below an enabled floor. -/
def Contact (s : Sim α n) (d : Dyn α n) : Prop :=
  s.floorEnable = true ∧ lt (d.state.pos 2) s.floorHeight = true

/-! ## C07 -/

/-- **C07.** The complete effect of a successful update relative to the unconstrained step `d`. -/
theorem C07_floor_contact (s s' : Sim α n) (dt : α) (h : s.updateDynamics dt = .ok s') :
    ∃ d, Unconstrained s dt d ∧
      (Contact s d → s' =
        { s with
          dyn :=
            { model := d.model
              state :=
                { pos := ![d.state.pos 0, d.state.pos 1, s.floorHeight]
                  ori := d.state.ori
                  vel := fun _ => lit 0
                  angVel := fun _ => lit 0
                  acc := fun _ => lit 0
                  angAcc := fun _ => lit 0
                  force := d.state.force
                  torque := d.state.torque
                  motVel := d.state.motVel
                  motAcc := d.state.motAcc } }
          imu :=
            { s.imu with
              gyroBias := fun _ => lit 0, accelBias := fun _ => lit 0
              gyro := fun _ => lit 0, accel := fun _ => lit 0 }
          odom :=
            { alpha := s.odom.alpha
              initOri := d.state.ori
              ori := d.state.ori
              gyroF := fun _ => lit 0
              accelF := fun _ => lit 0
              pos := fun _ => lit 0
              vel := fun _ => lit 0
              angVel := fun _ => lit 0
              acc := fun _ => lit 0 }
          floorCollision := true
          extForce := fun _ => lit 0 }) ∧
      (¬ Contact s d → s' =
        { s with dyn := d, floorCollision := false, extForce := fun _ => lit 0 }) := by
  obtain ⟨ext, d, he, hp, rfl⟩ := Sim.updateDynamics_ok h
  refine ⟨d, ⟨ext, ?_, hp⟩, ?_, ?_⟩
  · simp only [Sim.belowFloor, Bool.and_eq_true, Bool.and_eq_false_iff] at he
    rcases he with ⟨hb, rfl⟩ | ⟨hb, c, hc, rfl⟩
    · exact .inr ⟨by rintro ⟨h1, h2⟩; rw [h1, h2] at hb; simp at hb, rfl⟩
    · exact .inl ⟨hb, c, hc, fun i => rfl⟩
  · rintro ⟨h1, h2⟩
    simp only []
    rw [if_pos (by simp [Sim.belowFloor, h1, h2])]
    unfold Sim.collide
    simp only [Dyn.setState, State.default, Odom.setInitialOrientation, Odom.reset, Imu.reset]
    congr 3
    funext i
    fin_cases i <;> rfl
  · intro hc
    simp only []
    rw [if_neg (by simpa [Sim.belowFloor, Contact] using hc)]
    rfl

/-- Non-vacuity: both cases occur on the concrete simulator with a noise source that is zero. -/
example : ∃ (_ : Noise ℝ) (s s' t t' : Sim ℝ 4),
    (s.updateDynamics (1 / 200) = .ok s' ∧ ∃ d, Unconstrained s (1 / 200) d ∧ Contact s d) ∧
    (t.updateDynamics (1 / 200) = .ok t' ∧ ∃ d, Unconstrained t (1 / 200) d ∧ ¬ Contact t d) := by
  let N : Noise ℝ := ⟨fun _ _ _ => 0⟩
  obtain ⟨s', h⟩ := Fixture.updateDynamics_ok (Fixture.sim.enableFloor 5) rfl (1 / 200) (by norm_num)
    (by norm_num)
  obtain ⟨t', h'⟩ := Fixture.updateDynamics_ok Fixture.sim rfl (1 / 200) (by norm_num) (by norm_num)
  obtain ⟨d, hd, -⟩ := C07_floor_contact _ _ _ h
  obtain ⟨e, he, -⟩ := C07_floor_contact _ _ _ h'
  refine ⟨N, _, s', _, t', ⟨h, d, hd, rfl, ?_⟩, h', e, he, by simp [Contact, Fixture.sim]⟩
  obtain ⟨f, -, hp⟩ := hd
  rw [Fixture.process_ok _ rfl _ _ (by norm_num) (by norm_num)] at hp
  simp only [Res.ok.injEq] at hp
  subst hp
  simp [Dyn.eulerStep, Sim.enableFloor, Fixture.sim, Fixture.dyn, State.default, flt]

/-! ## C08 -/

/-- **C08.** The external force is zero after construction. -/
theorem C08_construction (p : SimParams α n) (s : Sim α n) (h : Sim.mk' p = some s) :
    s.extForce = fun _ => lit 0 := by
  unfold Sim.mk' at h
  split at h
  · simp only [Option.some.injEq] at h; subst h; rfl
  · simp at h

/-- **C08.** The external force is zero after every successful update, whatever it was before. -/
theorem C08_update (s s' : Sim α n) (dt : α) (h : s.updateDynamics dt = .ok s') :
    s'.extForce = fun _ => lit 0 := by
  obtain ⟨d, -, h1, h2⟩ := C07_floor_contact s s' dt h
  by_cases hc : Contact s d
  · rw [h1 hc]
  · rw [h2 hc]

/-- **C08.** In every history without exception the external force is zero between calls. -/
theorem C08_history (p : SimParams α n) (s₀ s : Sim α n) (h₀ : Sim.mk' p = some s₀)
    (tr : List (Event α n)) (h : Trace s₀ tr s) (hn : ∀ e ∈ tr, e.threw = false) :
    s.extForce = fun _ => lit 0 := by
  have := C08_construction p s₀ h₀
  clear h₀
  induction h with
  | nil s => exact this
  | @throw s s' t o tr _ _ _ => simpa using hn _ (List.mem_cons_self ..)
  | @ok s s' t o tr hs _ ih =>
    refine ih (fun e he => hn e (List.mem_cons_of_mem _ he)) ?_
    cases o with
    | updateDynamics dt => exact C08_update _ _ _ hs
    | updateController dt =>
      simp only [Sim.step, Res.ok.injEq] at hs
      subst hs
      cases hb : s.armed with
      | true => rw [Sim.updateController_armed hb]; exact this
      | false => rw [Sim.updateController_disarmed hb]; exact this
    | setDynParams p =>
      simp only [Sim.step, Sim.setDynParams] at hs
      split at hs
      · simp at hs
      · simp only [Res.ok.injEq] at hs; subst hs; exact this
    | setOdomParams p =>
      simp only [Sim.step, Sim.setOdomParams] at hs
      split at hs
      · simp at hs
      · simp only [Res.ok.injEq] at hs; subst hs; exact this
    | setControlMode m y =>
      simp only [Sim.step, Res.ok.injEq] at hs
      subst hs
      unfold Sim.setControlMode
      split <;> exact this
    | enableFloor h => simp only [Sim.step, Res.ok.injEq] at hs; subst hs; rfl
    | disableFloor => simp only [Sim.step, Res.ok.injEq] at hs; subst hs; rfl
    | _ => simp only [Sim.step, Res.ok.injEq] at hs; subst hs; exact this

/-- Non-vacuity: a history with contact. -/
example [Noise ℝ] : ∃ s : Sim ℝ 4, ∃ tr : List (Event ℝ 4), tr.length = 2 ∧
    Trace Fixture.sim tr s ∧ ∀ e ∈ tr, e.threw = false := by
  obtain ⟨s', h⟩ := Fixture.updateDynamics_ok (Fixture.sim.enableFloor 5) rfl (1 / 200) (by norm_num)
    (by norm_num)
  exact ⟨s', _, rfl, .ok (o := .enableFloor 5) rfl (.ok (o := .updateDynamics (1 / 200)) h (.nil _)),
    by simp⟩

/-- The restriction to histories without exception is needed: after a rejected update below the floor
the reaction stays stored, and acts on the vehicle after it has been moved above the floor. -/
theorem C08_leak_after_exception :
    ∃ (_ : Noise ℝ) (p : SimParams ℝ 4) (s₀ s : Sim ℝ 4) (tr : List (Event ℝ 4)),
      Sim.mk' p = some s₀ ∧ Trace s₀ tr s ∧ s.floorHeight < s.dyn.state.pos 2 ∧ s.extForce ≠ 0 := by
  let N : Noise ℝ := ⟨fun _ _ _ => 0⟩
  have hb : (Fixture.sim.enableFloor 5).belowFloor = true := by
    simp [Sim.belowFloor, Sim.enableFloor, Fixture.sim, Fixture.dyn, State.default, flt]
  have hu : (Fixture.sim.enableFloor 5).updateDynamics 0 =
      .throw { Fixture.sim.enableFloor 5 with extForce := ![0, 0, 20] } := by
    rcases Sim.updateDynamics_cases (Fixture.sim.enableFloor 5) 0 with ⟨-, hc, -⟩ | ⟨ext, he, hu⟩
    · simp [Sim.enableFloor, Fixture.sim, Fixture.dyn] at hc
    · rw [Dyn.process_nonpos _ _ _ _ _ (by simp [flt])] at hu
      rcases he with ⟨hb', -⟩ | ⟨-, c, hc, rfl⟩
      · rw [hb] at hb'; simp at hb'
      · have hc' : c = Fixture.core := by
          simpa [Sim.enableFloor, Fixture.sim, Fixture.dyn] using hc.symm
        subst hc'
        have he : smulR (vneg Fixture.core.params.gravity) Fixture.core.params.mass =
            (![0, 0, 20] : Vec 3 ℝ) := by
          ext i
          fin_cases i <;> simp [Fixture.core, Model.coreOf, Fixture.modelParams, flt]
          norm_num
        rw [hu, he]
  refine ⟨N, Fixture.simParams, Fixture.sim, _, _, Fixture.mk_sim,
    .ok (o := .enableFloor (5 : ℝ)) rfl (.throw (o := .updateDynamics (0 : ℝ)) hu
      (.ok (o := .mutDyn fun d : Dyn ℝ 4 => { d with state := { d.state with pos := ![0, 0, 6] } }) rfl (.nil _))),
    ?_, ?_⟩
  · simp [Sim.enableFloor]; norm_num
  · intro h
    have := congrFun h 2
    simp at this

/-! ## C09 -/

lemma eulerStep_noNoise (c : ModelCore α n) (ms : Fin n → Motor α) (d : Dyn α n) (act : Vec n α)
    (dt : α) (ext : Vec 3 α) :
    (Dyn.eulerStep c ms d act dt ext false).model =
      { d.model with stochForce := fun _ => lit 0, stochMoment := fun _ => lit 0 } := rfl

lemma eulerStep_noise (c : ModelCore α n) (ms : Fin n → Motor α) (d : Dyn α n) (act : Vec n α)
    (dt : α) (ext : Vec 3 α) (h : le dt (lit 0) = false) :
    (Dyn.eulerStep c ms d act dt ext true).model.rng = ⟨d.model.rng.seed, d.model.rng.idx + 2⟩ := by
  simp [Dyn.eulerStep, Model.setNoise, h, Rng.draw3]

/-- The contact flag after a successful update tells whether the unconstrained step ended in contact. -/
theorem C09_flag (s s' : Sim α n) (dt : α) (h : s.updateDynamics dt = .ok s') :
    ∃ d, Unconstrained s dt d ∧ (s'.floorCollision = true ↔ Contact s d) := by
  obtain ⟨d, hd, h1, h2⟩ := C07_floor_contact s s' dt h
  refine ⟨d, hd, ?_⟩
  by_cases hc : Contact s d
  · simp [h1 hc, hc]
  · simp [h2 hc, hc]

/-- The calls between two updates do not change the flag. -/
lemma flag_preserved {s t : Sim α n} {tr : List (Event α n)} (h : Trace s tr t)
    (hn : ∀ e ∈ tr, ∀ dt, e.op = .updateDynamics dt → e.threw = true) :
    t.floorCollision = s.floorCollision := by
  induction h with
  | nil s => rfl
  | @throw s s' t o tr hs _ ih =>
    rw [ih fun e he => hn e (List.mem_cons_of_mem _ he)]
    cases o with
    | updateDynamics dt =>
      obtain ⟨ext, d, -, rfl⟩ := Sim.updateDynamics_throw hs
      rfl
    | setDynParams p => simp only [Sim.step, Sim.setDynParams] at hs; split at hs <;> simp at hs
    | setOdomParams p => simp only [Sim.step, Sim.setOdomParams] at hs; split at hs <;> simp at hs
    | _ => simp [Sim.step] at hs
  | @ok s s' t o tr hs _ ih =>
    rw [ih fun e he => hn e (List.mem_cons_of_mem _ he)]
    cases o with
    | updateDynamics dt => simpa using hn _ (List.mem_cons_self ..) dt rfl
    | updateController dt =>
      simp only [Sim.step, Res.ok.injEq] at hs
      subst hs
      cases hb : s.armed with
      | true => rw [Sim.updateController_armed hb]
      | false => rw [Sim.updateController_disarmed hb]
    | setDynParams p =>
      simp only [Sim.step, Sim.setDynParams] at hs
      split at hs
      · simp at hs
      · simp only [Res.ok.injEq] at hs; subst hs; rfl
    | setOdomParams p =>
      simp only [Sim.step, Sim.setOdomParams] at hs
      split at hs
      · simp at hs
      · simp only [Res.ok.injEq] at hs; subst hs; rfl
    | setControlMode m y =>
      simp only [Sim.step, Res.ok.injEq] at hs
      subst hs
      unfold Sim.setControlMode
      split <;> rfl
    | _ => simp only [Sim.step, Res.ok.injEq] at hs; subst hs; rfl

/-- Noise and generator of one update, by the contact flag. -/
lemma noise_by_flag {s s' : Sim α n} {dt : α} (h : s.updateDynamics dt = .ok s') :
    (s.floorCollision = true → s'.dyn.model.rng = s.dyn.model.rng ∧
      (Dyn.SubstepPos α → s'.dyn.model.stochForce = (fun _ => lit 0) ∧
        s'.dyn.model.stochMoment = fun _ => lit 0)) ∧
    (s.floorCollision = false → le dt (lit 0) = false → lt (Dyn.maxStep : α) dt = false →
      s'.dyn.model.rng = ⟨s.dyn.model.rng.seed, s.dyn.model.rng.idx + 2⟩) := by
  obtain ⟨d, ⟨f, -, hp⟩, h1, h2⟩ := C07_floor_contact s s' dt h
  have hm : s'.dyn.model = d.model := by
    by_cases hc : Contact s d
    · rw [h1 hc]
    · rw [h2 hc]
  rw [hm]
  refine ⟨fun hf => ?_, fun hf h3 h4 => ?_⟩
  · rw [hf] at hp
    refine ⟨Dyn.process_ind (P := fun x => x.model.rng = s.dyn.model.rng) ?_ rfl hp, fun hsub =>
      Dyn.process_last (P := fun x => x.model.stochForce = (fun _ => lit 0) ∧
        x.model.stochMoment = fun _ => lit 0) hsub ?_ hp⟩
    · intro dt a b ha hab
      obtain ⟨c, ms, -, -, -, rfl⟩ := Dyn.singleStep_ok hab
      exact ha
    · intro dt a b hab
      obtain ⟨c, ms, -, -, -, rfl⟩ := Dyn.singleStep_ok hab
      exact ⟨rfl, rfl⟩
  · rw [hf, Dyn.process_small _ _ _ _ _ h3 h4] at hp
    obtain ⟨c, ms, -, -, -, rfl⟩ := Dyn.singleStep_ok hp
    exact eulerStep_noise _ _ _ _ _ _ h3

/-- **C09.** Let `s₀ → s₁` be a successful update, `tr` any calls without successful update, and
`s₂ → s₃` the next successful update.  If the first one ended in floor contact, the second applies zero
noise and leaves the generator where it was; otherwise, for a time step in `(0, 0.01]`, it draws exactly
two triples. -/
theorem C09_noise_after_contact (s₀ s₁ s₂ s₃ : Sim α n) (dt₀ dt : α) (tr : List (Event α n))
    (h₀ : s₀.updateDynamics dt₀ = .ok s₁) (htr : Trace s₁ tr s₂)
    (hn : ∀ e ∈ tr, ∀ dt, e.op = .updateDynamics dt → e.threw = true)
    (h : s₂.updateDynamics dt = .ok s₃) :
    ∃ d, Unconstrained s₀ dt₀ d ∧
      (Contact s₀ d → s₃.dyn.model.rng = s₂.dyn.model.rng ∧
        (Dyn.SubstepPos α → s₃.dyn.model.stochForce = (fun _ => lit 0) ∧
          s₃.dyn.model.stochMoment = fun _ => lit 0)) ∧
      (¬ Contact s₀ d → le dt (lit 0) = false → lt (Dyn.maxStep : α) dt = false →
        s₃.dyn.model.rng = ⟨s₂.dyn.model.rng.seed, s₂.dyn.model.rng.idx + 2⟩) := by
  obtain ⟨d, hd, hflag⟩ := C09_flag s₀ s₁ dt₀ h₀
  have hp := flag_preserved htr hn
  obtain ⟨h1, h2⟩ := noise_by_flag h
  refine ⟨d, hd, fun hc => h1 (by rw [hp]; exact hflag.2 hc), fun hc h3 h4 => h2 ?_ h3 h4⟩
  rw [hp]
  cases hb : s₁.floorCollision with
  | false => rfl
  | true => exact absurd (hflag.1 hb) hc

/-- **C09, first update.** Before any update a new simulator draws two triples. -/
theorem C09_first_update (p : SimParams α n) (s₀ s₁ s₂ : Sim α n) (dt : α) (tr : List (Event α n))
    (h₀ : Sim.mk' p = some s₀) (htr : Trace s₀ tr s₁)
    (hn : ∀ e ∈ tr, ∀ dt, e.op = .updateDynamics dt → e.threw = true)
    (h : s₁.updateDynamics dt = .ok s₂) (h3 : le dt (lit 0) = false)
    (h4 : lt (Dyn.maxStep : α) dt = false) :
    s₂.dyn.model.rng = ⟨s₁.dyn.model.rng.seed, s₁.dyn.model.rng.idx + 2⟩ := by
  refine (noise_by_flag h).2 ?_ h3 h4
  rw [flag_preserved htr hn]
  unfold Sim.mk' at h₀
  split at h₀
  · simp only [Option.some.injEq] at h₀; subst h₀; rfl
  · simp at h₀

/-- Non-vacuity: an update in contact, an arming call, another update. -/
example [Noise ℝ] : ∃ s₁ s₂ s₃ : Sim ℝ 4,
    (Fixture.sim.enableFloor 5).updateDynamics (1 / 200) = .ok s₁ ∧
    Trace s₁ [⟨s₁, .arm, false⟩] s₂ ∧ s₂.updateDynamics (1 / 100) = .ok s₃ := by
  obtain ⟨s₁, h⟩ := Fixture.updateDynamics_ok (Fixture.sim.enableFloor 5) rfl (1 / 200) (by norm_num)
    (by norm_num)
  have hc : s₁.dyn.model.core = some Fixture.core := by
    obtain ⟨d, ⟨f, -, hp⟩, h1, h2⟩ := C07_floor_contact _ _ _ h
    have hd := Dyn.process_core hp
    by_cases hc : Contact (Fixture.sim.enableFloor 5) d
    · rw [h1 hc]; exact hd
    · rw [h2 hc]; exact hd
  obtain ⟨s₃, h'⟩ := Fixture.updateDynamics_ok s₁.arm hc (1 / 100) (by norm_num) (by norm_num)
  exact ⟨s₁, _, s₃, h, .ok rfl (.nil _), h'⟩

end

end Verif.Props
