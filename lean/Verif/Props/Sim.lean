import Verif.Fixture
import Verif.Spec.Sim

/-!
# C01, C02, C04, C05, C07 - C14: the simulator in any arithmetic
-/

namespace Verif.Props

open Verif Flt Spec

section
variable {α : Type} [Flt α] [Noise α] {n : ℕ}

/-! ## C01 -/

/-- **C01.** Whenever `update_dynamics` returns while floor collision is enabled, the vehicle is not
below the floor. -/
theorem C01_never_below_floor [LawfulFlt α] (s s' : Sim α n) (dt : α)
    (h : s.updateDynamics dt = .ok s') (hf : s'.floorEnable = true) :
    lt (s'.dyn.state.pos 2) s'.floorHeight = false := by
  obtain ⟨ext, d, -, -, rfl⟩ := Sim.updateDynamics_ok h
  simp only [] at hf ⊢
  split at hf
  · rename_i hb
    rw [if_pos hb]
    simp [Sim.collide, Dyn.setState, LawfulFlt.lt_irrefl]
  · rename_i hb
    rw [if_neg hb]
    simp only [Sim.belowFloor, Bool.and_eq_true, not_and, Bool.not_eq_true] at hb
    exact hb hf

/-- Non-vacuity: a vehicle placed below an enabled floor, advanced by 5 ms. -/
example [Noise ℝ] : ∃ s s' : Sim ℝ 4, s.updateDynamics (1 / 200) = .ok s' ∧ s.floorEnable = true ∧
    s.dyn.state.pos 2 < s.floorHeight := by
  obtain ⟨s', h⟩ := Fixture.updateDynamics_ok (Fixture.sim.enableFloor 5) rfl (1 / 200) (by norm_num)
    (by norm_num)
  refine ⟨_, s', h, rfl, ?_⟩
  simp [Sim.enableFloor, Fixture.sim, Fixture.dyn, State.default, flt]

/-! ## C02 -/

/-- **C02.** In every history of a new simulator, exceptions included: while it is not armed the
commanded rotor speeds are zero. -/
theorem C02_disarmed_zero (p : SimParams α n) (s₀ s : Sim α n) (h₀ : Sim.mk' p = some s₀)
    (os : List (SimOp α n)) (h : s₀.Runs os s) (ha : s.armed = false) : s.actuation = fun _ => lit 0 := by
  have hinv : (s₀.armed = false → s₀.actuation = vzero) := by
    unfold Sim.mk' at h₀
    split at h₀
    · simp only [Option.some.injEq] at h₀; subst h₀; intro _; rfl
    · simp at h₀
  have hdyn : ∀ {t t' : Sim α n} {dt}, t.updateDynamics dt = .ok t' →
      t'.armed = t.armed ∧ t'.actuation = t.actuation := by
    intro t t' dt hu
    obtain ⟨ext, d, -, -, rfl⟩ := Sim.updateDynamics_ok hu
    simp only []
    split <;> exact ⟨rfl, rfl⟩
  have hthr : ∀ {t t' : Sim α n} {dt}, t.updateDynamics dt = .throw t' →
      t'.armed = t.armed ∧ t'.actuation = t.actuation := by
    intro t t' dt hu
    obtain ⟨ext, d, -, rfl⟩ := Sim.updateDynamics_throw hu
    exact ⟨rfl, rfl⟩
  clear h₀
  induction h with
  | nil s => exact hinv ha
  | @ok s s' t o os hs _ ih =>
    apply ih ha
    cases o with
    | updateDynamics dt => intro hb; obtain ⟨h1, h2⟩ := hdyn hs; rw [h2]; exact hinv (h1 ▸ hb)
    | updateController dt =>
      simp only [Sim.step, Res.ok.injEq] at hs
      subst hs
      cases hb : s.armed with
      | true => rw [Sim.updateController_armed hb]; simp [hb]
      | false => rw [Sim.updateController_disarmed hb]; simp
    | setDynParams p =>
      simp only [Sim.step, Sim.setDynParams] at hs
      split at hs
      · simp at hs
      · simp only [Res.ok.injEq] at hs; subst hs; exact hinv
    | setOdomParams p =>
      simp only [Sim.step, Sim.setOdomParams] at hs
      split at hs
      · simp at hs
      · simp only [Res.ok.injEq] at hs; subst hs; exact hinv
    | setControlMode m y =>
      simp only [Sim.step, Res.ok.injEq] at hs
      subst hs
      unfold Sim.setControlMode
      split <;> exact hinv
    | arm =>
      simp only [Sim.step, Res.ok.injEq] at hs
      subst hs
      intro hb; simp [Sim.arm] at hb
    | disarm =>
      simp only [Sim.step, Res.ok.injEq] at hs
      subst hs
      intro _; rfl
    | _ =>
      simp only [Sim.step, Res.ok.injEq] at hs
      subst hs
      exact hinv
  | @throw s s' t o os hs _ ih =>
    apply ih ha
    cases o with
    | updateDynamics dt => intro hb; obtain ⟨h1, h2⟩ := hthr hs; rw [h2]; exact hinv (h1 ▸ hb)
    | setDynParams p =>
      simp only [Sim.step, Sim.setDynParams] at hs
      split at hs <;> simp at hs
    | setOdomParams p =>
      simp only [Sim.step, Sim.setOdomParams] at hs
      split at hs <;> simp at hs
    | _ => simp [Sim.step] at hs

/-- Non-vacuity: a history that arms, commands the rotors and disarms; in the middle the command is
not zero. -/
example [Noise ℝ] : ∃ s₀ s₁ s₂ : Sim ℝ 4, Sim.mk' Fixture.simParams = some s₀ ∧
    s₀.Runs [.arm, .setRefMot fun _ => 3, .updateController 1] s₁ ∧ s₁.actuation ≠ 0 ∧
    s₁.Runs [.disarm, .setRefMot fun _ => 4, .updateController 1] s₂ ∧ s₂.armed = false := by
  refine ⟨Fixture.sim, _, _, Fixture.mk_sim, .ok rfl (.ok rfl (.ok rfl (.nil _))), ?_,
    .ok rfl (.ok rfl (.ok rfl (.nil _))), rfl⟩
  intro h
  have := congrFun h 0
  simp [Sim.updateController, Sim.setRefMot, Sim.arm, Fixture.sim] at this

/-! ## C04 -/

/-- All rotor speeds of `d` are within the limits of its model. -/
def WithinLimits (d : Dyn α n) : Prop :=
  ∃ c, d.model.core = some c ∧ ∀ i : Fin n, ∃ m, c.params.motors[i.val]? = some m ∧
    lt (d.state.motVel i) m.minSpeed = false ∧ lt m.maxSpeed (d.state.motVel i) = false

/-- **C04.** After every successful dynamics update each rotor speed is within the limits of its rotor,
whatever was commanded and whatever the speeds were before. -/
theorem C04_rotor_limits [LawfulFlt α] (hsub : Dyn.SubstepPos α) (d d' : Dyn α n) (act : Vec n α)
    (dt : α) (ext : Vec 3 α) (noise : Bool) (h : d.process act dt ext noise = .ok d') :
    WithinLimits d' := by
  refine Dyn.process_last hsub ?_ h
  intro dt a b hab
  obtain ⟨c, ms, h1, h2, h3, rfl⟩ := Dyn.singleStep_ok hab
  obtain ⟨hl, hg⟩ := Dyn.motorFn_get h2
  refine ⟨c, by rw [Dyn.eulerStep_core, h1], fun i => ⟨ms i, hg i, ?_⟩⟩
  have h3i : lt (ms i).maxSpeed (ms i).minSpeed = false := by
    simp only [Dyn.clampOk, List.all_eq_true, List.mem_finRange, true_imp_iff, Bool.not_eq_true'] at h3
    exact h3 i
  simp only [Dyn.eulerStep, Dyn.clampMotors, clampVal]
  split
  · exact ⟨LawfulFlt.lt_irrefl _, h3i⟩
  · rename_i h5
    split
    · rename_i h6
      exact ⟨h3i, LawfulFlt.lt_irrefl _⟩
    · rename_i h6
      exact ⟨by simpa using h5, by simpa using h6⟩

/-- **C04 for the simulator**: also when the update ends in floor contact. -/
theorem C04_rotor_limits_sim [LawfulFlt α] (hsub : Dyn.SubstepPos α) (s s' : Sim α n) (dt : α)
    (h : s.updateDynamics dt = .ok s') : WithinLimits s'.dyn := by
  obtain ⟨ext, d, -, hp, rfl⟩ := Sim.updateDynamics_ok h
  have := C04_rotor_limits hsub _ _ _ _ _ _ hp
  simp only []
  split
  · exact this
  · exact this

/-- Over the reals sub-stepping takes at least one step. -/
lemma substepPos_real : Dyn.SubstepPos ℝ := by
  intro dt h
  simp only [Dyn.maxStep, flt, decide_eq_true_eq] at h ⊢
  norm_num at h ⊢
  linarith

/-- Non-vacuity: a step with an excessive command. -/
example [Noise ℝ] : ∃ d' : Dyn ℝ 4,
    Fixture.dyn.process (fun _ => 1000) (1 / 100) 0 true = .ok d' :=
  ⟨_, Fixture.process_ok _ rfl _ _ (by norm_num) (by norm_num) _ _⟩

/-! ## C05 -/

/-- **C05, dynamics.** A time step that compares `<= 0` throws and leaves the whole object (state,
model, noise generator, stored noise) as it was. -/
theorem C05_dynamics_rejects (d : Dyn α n) (act : Vec n α) (dt : α) (ext : Vec 3 α) (noise : Bool)
    (h : le dt (lit 0) = true) : d.process act dt ext noise = .throw d :=
  Dyn.process_nonpos d act dt ext noise h

/-- ... and it is the only reason to throw, in every arithmetic where `0.01 <= 0` is false. -/
theorem C05_throw_iff (hpos : le (Dyn.maxStep : α) (lit 0) = false) (d d' : Dyn α n) (act : Vec n α)
    (dt : α) (ext : Vec 3 α) (noise : Bool) (h : d.process act dt ext noise = .throw d') :
    le dt (lit 0) = true ∧ d' = d := by
  have hloop : ∀ {body : Dyn α n → Res (Dyn α n)} (_ : ∀ a b, body a ≠ .throw b) (num : α) fuel i a b,
      forLoop num body fuel i a ≠ .throw b := by
    intro body hb num fuel
    induction fuel with
    | zero =>
      intro i a b hc
      unfold forLoop at hc
      split at hc
      · cases hba : body a with
        | throw c => exact hb a c hba
        | _ => simp [Res.bind, hba] at hc
      · simp at hc
    | succ fuel ih =>
      intro i a b hc
      unfold forLoop at hc
      split at hc
      · cases hba : body a with
        | throw c => exact hb a c hba
        | ok c => simp only [Res.bind, hba] at hc; exact ih _ _ _ hc
        | bad => simp [Res.bind, hba] at hc
      · simp at hc
  have hdepth : ∀ depth a b, Dyn.processDepth act ext noise depth Dyn.maxStep a ≠ .throw b := by
    intro depth
    induction depth with
    | zero => intro a b; simp [Dyn.processDepth]
    | succ depth ih =>
      intro a b
      unfold Dyn.processDepth
      simp only [hpos, Bool.false_eq_true, if_false]
      split
      · exact hloop (fun a b => ih a b) _ _ _ _ _
      · exact Dyn.singleStep_not_throw _ _ _ _ _ _
  unfold Dyn.process Dyn.processDepth at h
  split at h
  · rename_i hle
    simp only [Res.throw.injEq] at h
    exact ⟨hle, h.symm⟩
  · split at h
    · exact absurd h (hloop (fun a b => hdepth 1 a b) _ _ _ _ _)
    · exact absurd h (Dyn.singleStep_not_throw _ _ _ _ _ _)

/-- Non-vacuity: exact arithmetic satisfies the hypothesis, and `dt = 0` throws. -/
example [Noise ℝ] : le (Dyn.maxStep : ℝ) (lit 0) = false ∧
    Fixture.dyn.process 0 0 0 true = .throw Fixture.dyn :=
  ⟨by simp [Dyn.maxStep, flt], C05_dynamics_rejects _ _ _ _ _ (by simp [flt])⟩

end

/-- The claim of C05 for the simulator: a non-positive time step throws and changes nothing. -/
def C05_claim : Prop :=
  ∀ (_ : Noise ℝ) (n : ℕ) (p : SimParams ℝ n) (s₀ s : Sim ℝ n) (os : List (SimOp ℝ n)) (dt : ℝ),
    Sim.mk' p = some s₀ → s₀.Runs os s → dt ≤ 0 → s.updateDynamics dt = .throw s

section
variable {α : Type} [Flt α] [Noise α] {n : ℕ}

/-- **C05 for the simulator (partial).** In any arithmetic: a time step that compares `<= 0` throws.
Above the floor (or with no floor) nothing changes; below an enabled floor the external force is
overwritten with the floor reaction and everything else is unchanged.
Missing: the claim that nothing at all changes, which is false below the floor. -/
theorem C05_simulator_partial (s : Sim α n) (dt : α) (h : le dt (lit 0) = true)
    (hm : s.dyn.model.core ≠ none) :
    (s.belowFloor = false → s.updateDynamics dt = .throw s) ∧
    (s.belowFloor = true → ∃ c, s.dyn.model.core = some c ∧ s.updateDynamics dt =
      .throw { s with extForce := smulR (vneg c.params.gravity) c.params.mass }) := by
  rcases Sim.updateDynamics_cases s dt with ⟨-, hc, -⟩ | ⟨ext, he, hu⟩
  · exact absurd hc hm
  · rw [Dyn.process_nonpos _ _ _ _ _ h] at hu
    simp only [] at hu
    rcases he with ⟨hb, rfl⟩ | ⟨hb, c, hc, rfl⟩
    · exact ⟨fun _ => hu, fun hb' => by rw [hb] at hb'; simp at hb'⟩
    · exact ⟨fun hb' => by rw [hb] at hb'; simp at hb', fun _ => ⟨c, hc, hu⟩⟩

end

/-- **C05 is violated for the simulator**: below an enabled floor the rejected update leaves the floor
reaction in the external force. -/
theorem C05_violated : ¬ C05_claim := by
  intro h
  let _ : Noise ℝ := ⟨fun _ _ _ => 0⟩
  have := h ⟨fun _ _ _ => 0⟩ 4 Fixture.simParams Fixture.sim (Fixture.sim.enableFloor 5)
    [.enableFloor 5] 0 Fixture.mk_sim (.ok rfl (.nil _)) le_rfl
  have hb : (Fixture.sim.enableFloor 5).belowFloor = true := by
    simp [Sim.belowFloor, Sim.enableFloor, Fixture.sim, Fixture.dyn, State.default, flt]
  obtain ⟨c, hc, hu⟩ := (C05_simulator_partial (Fixture.sim.enableFloor 5) 0 (by simp [flt])
    (by simp [Sim.enableFloor, Fixture.sim, Fixture.dyn])).2 hb
  rw [hu] at this
  simp only [Res.throw.injEq] at this
  have hc' : c = Fixture.core := by
    simpa [Sim.enableFloor, Fixture.sim, Fixture.dyn] using hc.symm
  subst hc'
  have h2 := congrFun (congrArg Sim.extForce this) 2
  simp [Sim.enableFloor, Fixture.core, Model.coreOf, Fixture.modelParams, flt] at h2

/-- Non-vacuity of the partial theorem: both branches occur. -/
example [Noise ℝ] : Fixture.sim.belowFloor = false ∧ (Fixture.sim.enableFloor 5).belowFloor = true := by
  simp [Sim.belowFloor, Sim.enableFloor, Fixture.sim, Fixture.dyn, State.default, flt]

end Verif.Props
