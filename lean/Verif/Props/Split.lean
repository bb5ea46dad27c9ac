import Verif.Props.DynRun

/-!
# C90: a long update is a sequence of short ones
-/

namespace Verif.Props

open Verif Flt Spec

/-- Full claim: in every history an update by `k` integration steps is `k` updates by one step each. -/
def C90_claim : Prop :=
  ∀ (_ : Noise ℝ) (n : ℕ) (p : SimParams ℝ n) (s₀ s : Sim ℝ n) (os : List (SimOp ℝ n)) (k : ℕ),
    Sim.mk' p = some s₀ → s₀.Runs os s → 1 ≤ k → k ≤ 2147483647 →
    s.updateDynamics (k / 100) = callTimes (fun s => s.updateDynamics (1 / 100)) k s

section
variable {α : Type} [Flt α] [Noise α] {n : ℕ}

/-- No floor, and nothing left of an earlier one. -/
def NeverFloor (s : Sim α n) : Prop := s.floorEnable = false ∧ s.floorCollision = false ∧ s.extForce = vzero

/-- Without a floor the simulator only advances the vehicle. -/
lemma updateDynamics_neverFloor {s : Sim α n} (h : NeverFloor s) (dt : α) :
    s.updateDynamics dt = mapRes (fun d => { s with dyn := d }) (s.dyn.process s.actuation dt vzero true) := by
  obtain ⟨h1, h2, h3⟩ := h
  rcases Sim.updateDynamics_cases s dt with ⟨hb, -, -⟩ | ⟨ext, he, hu⟩
  · simp [Sim.belowFloor, h1] at hb
  · have hext : ext = vzero := by
      rcases he with ⟨-, he⟩ | ⟨hb, -⟩
      · rw [he, h3]
      · simp [Sim.belowFloor, h1] at hb
    rw [hu, hext, h2]
    simp only [Bool.not_false]
    cases s.dyn.process s.actuation dt vzero true with
    | bad => rfl
    | throw d =>
      simp only [mapRes]
      rw [← h3]
    | ok d =>
      have hb : Sim.belowFloor { s with extForce := vzero, dyn := d, floorCollision := false } = false := by
        simp [Sim.belowFloor, h1]
      simp only [hb, Bool.false_eq_true, if_false, mapRes]
      rw [← h2, ← h3]

omit [Noise α] in
lemma neverFloor_dyn {s : Sim α n} (h : NeverFloor s) (d : Dyn α n) : NeverFloor { s with dyn := d } := h

lemma callTimes_neverFloor (dt : α) : ∀ (k : ℕ) {s : Sim α n} (_ : NeverFloor s),
    callTimes (fun s : Sim α n => s.updateDynamics dt) k s =
      mapRes (fun d => { s with dyn := d })
        (callTimes (fun d : Dyn α n => d.process s.actuation dt vzero true) k s.dyn)
  | 0, s, h => rfl
  | k + 1, s, h => by
    simp only [callTimes]
    rw [updateDynamics_neverFloor h]
    cases s.dyn.process s.actuation dt vzero true with
    | bad => rfl
    | throw d => rfl
    | ok d => exact callTimes_neverFloor dt k (neverFloor_dyn h d)

/-- A history that never enables a floor. -/
def FloorFree : SimOp α n → Prop
  | .enableFloor _ => False
  | _ => True

lemma step_neverFloor {s s' : Sim α n} {o : SimOp α n} (h : NeverFloor s) (ho : FloorFree o)
    (hs : s.step o = .ok s' ∨ s.step o = .throw s') : NeverFloor s' := by
  cases o with
  | updateDynamics dt =>
    rw [Sim.step, updateDynamics_neverFloor h] at hs
    cases hp : s.dyn.process s.actuation dt vzero true with
    | bad => simp [hp, mapRes] at hs
    | throw d => simp only [hp, mapRes, reduceCtorEq, Res.throw.injEq, false_or] at hs; subst hs; exact h
    | ok d => simp only [hp, mapRes, reduceCtorEq, Res.ok.injEq, or_false] at hs; subst hs; exact h
  | updateController dt =>
    simp only [Sim.step, Res.ok.injEq, reduceCtorEq, or_false] at hs
    subst hs
    obtain ⟨_, _, _, _, armed, _, _, _, _, _, _, _, _, _, _, _, _, _, mode, yawMode⟩ := s
    cases armed <;> cases mode <;> cases yawMode <;> exact h
  | enableFloor x => exact ho.elim
  | disableFloor =>
    simp only [Sim.step, Res.ok.injEq, reduceCtorEq, or_false] at hs
    subst hs
    exact ⟨rfl, h.2.1, rfl⟩
  | setDynParams p =>
    simp only [Sim.step, Sim.setDynParams] at hs
    cases hm : Dyn.mk' p with
    | none => simp [hm] at hs
    | some d =>
      simp only [hm, Res.ok.injEq, reduceCtorEq, or_false] at hs
      subst hs
      exact h
  | setOdomParams p =>
    simp only [Sim.step, Sim.setOdomParams] at hs
    cases hm : Odom.mk' p with
    | none => simp [hm] at hs
    | some d =>
      simp only [hm, Res.ok.injEq, reduceCtorEq, or_false] at hs
      subst hs
      exact h
  | setControlMode m y =>
    simp only [Sim.step, Sim.setControlMode, Res.ok.injEq, reduceCtorEq, or_false] at hs
    subst hs
    split <;> exact h
  | _ =>
    simp only [Sim.step, Res.ok.injEq, reduceCtorEq, or_false] at hs
    subst hs
    exact h

lemma runs_neverFloor {s t : Sim α n} {os : List (SimOp α n)} (hr : s.Runs os t) :
    NeverFloor s → (∀ o ∈ os, FloorFree o) → NeverFloor t := by
  induction hr with
  | nil s => exact fun h _ => h
  | ok hs _ ih =>
    exact fun h ho => ih (step_neverFloor h (ho _ (by simp)) (.inl hs)) fun o hm => ho o (by simp [hm])
  | throw hs _ ih =>
    exact fun h ho => ih (step_neverFloor h (ho _ (by simp)) (.inr hs)) fun o hm => ho o (by simp [hm])

lemma mk_neverFloor {p : SimParams α n} {s : Sim α n} (h : Sim.mk' p = some s) : NeverFloor s := by
  simp only [Sim.mk'] at h
  split at h
  · simp only [Option.some.injEq] at h; rw [← h]; exact ⟨rfl, rfl, rfl⟩
  · simp at h

end

/-- **C90, partial.** After every history that never enabled a floor — parameter changes, exceptions and changes of
components included — an update by `k` integration steps has the same outcome as `k` updates by one step: the same
vehicle, noise and generator.  (Missing: histories with a floor, see `C90_violated`.) -/
theorem C90_split_partial [Noise ℝ] {n : ℕ} (p : SimParams ℝ n) (s₀ s : Sim ℝ n) (os : List (SimOp ℝ n)) (k : ℕ)
    (h₀ : Sim.mk' p = some s₀) (hr : s₀.Runs os s) (ho : ∀ o ∈ os, FloorFree o) (h1 : 1 ≤ k)
    (h2 : k ≤ 2147483647) :
    s.updateDynamics (k / 100) = callTimes (fun s => s.updateDynamics (1 / 100)) k s := by
  have h := runs_neverFloor hr (mk_neverFloor h₀) ho
  rw [callTimes_neverFloor _ _ h, updateDynamics_neverFloor h]
  congr 1
  rcases h1.lt_or_eq with h1 | rfl
  · have hk : (100 : ℝ) * (k / 100) = k := by ring
    have hc : ⌈(100 : ℝ) * (k / 100)⌉₊ = k := by rw [hk, Nat.ceil_natCast]
    have h3 : (1 : ℝ) / 100 < k / 100 := by
      have : (1 : ℝ) < k := by exact_mod_cast h1
      linarith
    have := (C06_substeps_partial s.dyn s.actuation (k / 100) vzero true h3).1 (by rw [hc]; exact h2)
    rw [hc] at this
    exact this
  · simp only [Nat.cast_one, callTimes]
    cases s.dyn.process s.actuation (1 / 100) vzero true <;> rfl

/-- Non-vacuity: an armed vehicle with spinning rotors after a rejected update, advanced by three steps at once. -/
example [Noise ℝ] : ∃ (s : Sim ℝ 4) (os : List (SimOp ℝ 4)), Fixture.sim.Runs os s ∧ (∀ o ∈ os, FloorFree o) ∧
    s.actuation = (fun _ => 3) ∧ 3 ≤ os.length ∧ ∃ t, s.updateDynamics (3 / 100) = .ok t := by
  let s1 : Sim ℝ 4 := { Fixture.sim.arm with refMot := fun _ => 3 }
  have hth : s1.updateDynamics (-1) = .throw s1 := by
    have h : s1.dyn.process s1.actuation (-1) vzero true = .throw s1.dyn :=
      Dyn.process_nonpos _ _ _ _ _ (by simp [flt])
    rw [updateDynamics_neverFloor ⟨rfl, rfl, rfl⟩, h]
    rfl
  have hr : Fixture.sim.Runs [.arm, .setRefMot (fun _ => 3), .updateDynamics (-1), .updateController (1 / 100)]
      { s1 with actuation := fun _ => 3 } :=
    .ok rfl (.ok rfl (.throw hth (.ok rfl (.nil _))))
  refine ⟨_, _, hr, by simp [FloorFree], rfl, by simp, ?_⟩
  have := C90_split_partial Fixture.simParams _ _ _ 3 Fixture.mk_sim hr (by simp [FloorFree]) (by norm_num) (by norm_num)
  rw [show (3 : ℝ) / 100 = ((3 : ℕ) : ℝ) / 100 by norm_num, this]
  rw [callTimes_neverFloor _ _ ⟨rfl, rfl, rfl⟩]
  have key : ∀ (k : ℕ) (d : Dyn ℝ 4), d.model.core = some Fixture.core →
      ∃ e, callTimes (fun d : Dyn ℝ 4 => d.process (fun _ => 3) (1 / 100) vzero true) k d = .ok e := by
    intro k
    induction k with
    | zero => exact fun d _ => ⟨d, rfl⟩
    | succ k ih =>
      intro d hd
      simp only [callTimes]
      rw [Fixture.process_ok d hd _ _ (by norm_num) le_rfl]
      exact ih _ (by rw [Dyn.eulerStep_core]; exact hd)
  obtain ⟨e, he⟩ := key 3 Fixture.dyn rfl
  exact ⟨_, by rw [show ({ s1 with actuation := fun _ => 3 } : Sim ℝ 4).dyn = Fixture.dyn from rfl, he]; rfl⟩

/-- The fixture sinking with 1 m/s. -/
noncomputable def sinking : Dyn ℝ 4 :=
  { Fixture.dyn with state := { (State.default : State ℝ 4) with vel := ![0, 0, -1] } }

lemma fixture_thrust_zero : Model.thrustVec Fixture.core (0 : Vec 4 ℝ) = 0 := by
  rw [show Fixture.core = Model.coreOf Fixture.modelParams Fixture.motors from rfl, Model.thrustVec_coreOf]
  have h : ∀ i, rotorForce (Fixture.motors i) 0 = 0 := by
    intro i
    have : (![0, 0, 0] : Vec 3 ℝ) = 0 := by ext j; fin_cases j <;> rfl
    simp [rotorForce, this]
  simp [h]

/-- The vertical acceleration of the fixture with resting rotors and no noise. -/
lemma fixture_fall [Noise ℝ] (hN : ∀ s k i, (Noise.draw s k i : ℝ) = 0) (d : Dyn ℝ 4) (b : Bool)
    (hm : d.state.motVel = 0) :
    (Dyn.eulerStep Fixture.core Fixture.motors d vzero (1 / 100) vzero b).state.vel 2 =
      d.state.vel 2 + 1 / 100 * (1 / 2 * (-10 - d.state.vel 2 * |d.state.vel 2|)) := by
  have hnoise : Dyn.stepNoise Fixture.core d (1 / 100) b = 0 := by
    cases b
    · exact Dyn.stepNoise_false ..
    · funext i
      show (Model.setNoise Fixture.core (1 / 100) d.model).stochForce i = 0
      unfold Model.setNoise
      rw [if_neg (by simp [flt])]
      simp [Rng.draw3, hN, flt]
  rw [Dyn.es_vel, Dyn.es_acc, Dyn.es_force, hm, fixture_thrust_zero, hnoise, dragForce_real, Quat.rotate_zero]
  simp only [Pi.add_apply, Pi.smul_apply, smul_eq_mul, Pi.zero_apply, vzero_real]
  simp only [Fixture.core, Model.coreOf, Fixture.modelParams]
  rw [show (![0, 0, -10] : Vec 3 ℝ) 2 = -10 from rfl]
  ring

/-- An update that starts above the floor. -/
lemma updateDynamics_above {α : Type} [Flt α] [Noise α] {n : ℕ} {s : Sim α n} {dt : α} {d : Dyn α n}
    (hb : s.belowFloor = false) (hp : s.dyn.process s.actuation dt s.extForce (!s.floorCollision) = .ok d) :
    s.updateDynamics dt = .ok (let t := { s with extForce := vzero, dyn := d, floorCollision := false }
      if t.belowFloor then t.collide else t) := by
  rcases Sim.updateDynamics_cases s dt with ⟨h, -, -⟩ | ⟨ext, he, hu⟩
  · rw [hb] at h; simp at h
  · rcases he with ⟨-, rfl⟩ | ⟨h, -⟩
    · rw [hu, hp]
      simp only []
      split <;> rfl
    · rw [hb] at h; simp at h

/-- **C90 is violated**: a vehicle that sinks through the floor is stopped by the first of two short updates and falls
again in the second; one long update looks for the floor only at its end. -/
theorem C90_violated : ¬ C90_claim := by
  intro hc
  let N : Noise ℝ := ⟨fun _ _ _ => 0⟩
  have hN : ∀ s k i, (Noise.draw s k i : ℝ) = 0 := fun _ _ _ => rfl
  have hr : Fixture.sim.Runs [.mutDyn fun d => { d with state := { (State.default : State ℝ 4) with vel := ![0, 0, -1] } },
      .enableFloor (-1 / 200)] (Sim.enableFloor (-1 / 200) { Fixture.sim with dyn := sinking }) :=
    .ok rfl (.ok rfl (.nil _))
  have h := hc N 4 _ _ _ _ 2 Fixture.mk_sim hr (by norm_num) (by norm_num)
  clear hc hr
  have hm0 : sinking.state.motVel = 0 := by simp [sinking, State.default, flt]
  have hv0 : sinking.state.vel 2 = -1 := by simp [sinking]
  have hp0 : sinking.state.pos 2 = 0 := by simp [sinking, State.default, flt]
  -- the first step
  have hp1 : sinking.process vzero (1 / 100) vzero true =
      .ok (Dyn.eulerStep Fixture.core Fixture.motors sinking vzero (1 / 100) vzero true) :=
    Fixture.process_ok sinking rfl _ _ (by norm_num) le_rfl _ _
  generalize hd1 : Dyn.eulerStep Fixture.core Fixture.motors sinking vzero (1 / 100) vzero true = d1 at hp1
  have hc1 : d1.model.core = some Fixture.core := by rw [← hd1, Dyn.eulerStep_core]; rfl
  have hz1 : d1.state.pos 2 = -1 / 100 := by
    rw [← hd1, Dyn.es_pos]
    simp [hp0, hv0]
    norm_num
  have hv1 : d1.state.vel 2 < 0 := by
    rw [← hd1, fixture_fall hN _ _ hm0, hv0]
    norm_num
  have hm1 : d1.state.motVel = 0 := by
    rw [← hd1, Dyn.es_motVel, Dyn.es_motAcc]
    funext i
    simp only [hm0, Fixture.motors_speed, vzero_real, Pi.zero_apply]
    norm_num [clampVal, flt]
  -- the long update
  have hlong : sinking.process vzero (2 / 100) vzero true =
      .ok (Dyn.eulerStep Fixture.core Fixture.motors d1 vzero (1 / 100) vzero true) := by
    have hk : ⌈(100 : ℝ) * (2 / 100)⌉₊ = 2 := by
      rw [show (100 : ℝ) * (2 / 100) = ((2 : ℕ) : ℝ) by norm_num, Nat.ceil_natCast]
    have := (C06_substeps_partial sinking vzero (2 / 100) vzero true (by norm_num)).1 (by rw [hk]; norm_num)
    rw [this, hk]
    simp only [callTimes, hp1, Fixture.process_ok d1 hc1 vzero (1 / 100) (by norm_num) le_rfl]
  have hz2 : (Dyn.eulerStep Fixture.core Fixture.motors d1 vzero (1 / 100) vzero true).state.pos 2 < -1 / 200 := by
    rw [Dyn.es_pos]
    simp only [Pi.add_apply, Pi.smul_apply, smul_eq_mul, hz1]
    linarith
  generalize Dyn.eulerStep Fixture.core Fixture.motors d1 vzero (1 / 100) vzero true = d2 at hlong hz2
  obtain ⟨S, hS⟩ : ∃ S, S = Sim.enableFloor (-1 / 200) { Fixture.sim with dyn := sinking } := ⟨_, rfl⟩
  rw [← hS] at h
  have hf : S.floorEnable = true ∧ S.floorHeight = -1 / 200 ∧ S.floorCollision = false ∧ S.extForce = vzero ∧
      S.actuation = vzero ∧ S.dyn = sinking := by
    subst hS
    exact ⟨rfl, rfl, rfl, rfl, rfl, rfl⟩
  clear hS
  obtain ⟨f1, f2, f3, f4, f5, f6⟩ := hf
  have hb0 : S.belowFloor = false := by
    simp only [Sim.belowFloor, f1, f2, f6, hp0, flt]
    norm_num
  have hl := updateDynamics_above (dt := 2 / 100) hb0 (d := d2) (by rw [f3, f4, f5, f6]; exact hlong)
  have hs1 := updateDynamics_above (dt := 1 / 100) hb0 (d := d1) (by rw [f3, f4, f5, f6]; exact hp1)
  have hb2 : Sim.belowFloor { S with extForce := vzero, dyn := d2, floorCollision := false } = true := by
    simp only [Sim.belowFloor, f1, f2, flt]
    simpa using hz2
  have hb1 : Sim.belowFloor { S with extForce := vzero, dyn := d1, floorCollision := false } = true := by
    simp only [Sim.belowFloor, f1, f2, hz1, flt]
    norm_num
  simp only [hb2, if_true] at hl
  simp only [hb1, if_true] at hs1
  -- the second short update
  generalize hT : Sim.collide { S with extForce := vzero, dyn := d1, floorCollision := false } = T at hs1
  have g : T.floorEnable = true ∧ T.floorHeight = -1 / 200 ∧ T.floorCollision = true ∧ T.extForce = vzero ∧
      T.actuation = vzero ∧ T.dyn.model.core = some Fixture.core ∧ T.dyn.state.motVel = 0 ∧ T.dyn.state.vel 2 = 0 ∧
      T.dyn.state.pos 2 = -1 / 200 := by
    subst hT
    exact ⟨f1, f2, rfl, rfl, f5, hc1, hm1, by simp [Sim.collide, Dyn.setState, State.default, flt],
      by simp [Sim.collide, Dyn.setState, f2]⟩
  obtain ⟨g1, g2, g3, g4, g5, g6, g7, g8, g9⟩ := g
  have hbT : T.belowFloor = false := by
    simp only [Sim.belowFloor, g1, g2, g9, flt]
    norm_num
  have hs2 := updateDynamics_above (dt := 1 / 100) hbT (by
    rw [g3, g4, g5]
    exact Fixture.process_ok T.dyn g6 vzero (1 / 100) (by norm_num) le_rfl vzero false)
  have hv3 := fixture_fall hN T.dyn false g7
  have hz3 : (Dyn.eulerStep Fixture.core Fixture.motors T.dyn vzero (1 / 100) vzero false).state.pos 2 = -1 / 200 := by
    rw [Dyn.es_pos]
    simp [g8, g9]
  generalize Dyn.eulerStep Fixture.core Fixture.motors T.dyn vzero (1 / 100) vzero false = d3 at hs2 hv3 hz3
  have hb3 : Sim.belowFloor { T with extForce := vzero, dyn := d3, floorCollision := false } = false := by
    simp only [Sim.belowFloor, g1, g2, hz3, flt]
    norm_num
  simp only [hb3, Bool.false_eq_true, if_false] at hs2
  rw [Nat.cast_ofNat, hl] at h
  simp only [callTimes, hs1, hs2, Res.ok.injEq] at h
  have hv := congrArg (fun s : Sim ℝ 4 => s.dyn.state.vel 2) h
  simp only [Sim.collide, Dyn.setState, State.default, vzero_real, Pi.zero_apply, hv3, g8] at hv
  norm_num at hv

end Verif.Props
