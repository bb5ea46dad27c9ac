import Verif.Props.Finite

/-!
# C88: periods that are not positive numbers
-/

namespace Verif.Props

open Verif Flt Spec XReal

section
variable [Noise XReal] {n : ℕ}

/-- All that moves is NaN. -/
structure Lost (d : Dyn XReal n) : Prop where
  pos : ∀ i, d.state.pos i = nan
  vel : ∀ i, d.state.vel i = nan
  ori : d.state.ori = ⟨nan, nan, nan, nan⟩
  angVel : ∀ i, d.state.angVel i = nan
  motVel : ∀ i, d.state.motVel i = nan

omit [Noise XReal] in
lemma normalized_nan (v : Vec 4 XReal) (h : ∀ i, v i = nan) : ∀ i, normalized v i = nan := by
  intro i
  unfold normalized
  split
  · simp [sdiv, h]
  · exact h i

lemma euler_lost {c : ModelCore XReal n} {ms : Fin n → Motor XReal} {d : Dyn XReal n} {act : Vec n XReal}
    {dt : XReal} {ext : Vec 3 XReal} {noise : Bool} (h : dt = nan ∨ Lost d) :
    Lost (Dyn.eulerStep c ms d act dt ext noise) := by
  have hq : ∀ v : Vec 4 XReal, ∀ i, vadd d.state.ori.coeffs (smulR v dt) i = nan := by
    intro v i
    rcases h with rfl | h
    · simp [vadd, smulR]
    · rw [vadd, h.ori]
      have : (⟨nan, nan, nan, nan⟩ : Quat XReal).coeffs i = nan := by fin_cases i <;> rfl
      rw [this]; simp
  have hn := fun v => normalized_nan _ (hq v)
  refine ⟨?_, ?_, ?_, ?_, ?_⟩
  · intro i
    rcases h with rfl | h
    · simp [Dyn.eulerStep, vadd, smulR]
    · simp [Dyn.eulerStep, vadd, h.pos]
  · intro i
    rcases h with rfl | h
    · simp [Dyn.eulerStep, vadd, smulR]
    · simp [Dyn.eulerStep, vadd, h.vel]
  · simp only [Dyn.eulerStep, Quat.normalized]
    have e : ∀ v : Vec 4 XReal, (Quat.ofCoeffs v).coeffs = v := by
      intro v; ext i; fin_cases i <;> rfl
    rw [e]
    simp only [Quat.ofCoeffs, hn]
  · intro i
    rcases h with rfl | h
    · simp [Dyn.eulerStep, vadd, smulR]
    · simp [Dyn.eulerStep, vadd, h.angVel]
  · intro i
    rcases h with rfl | h
    · simp [Dyn.eulerStep, Dyn.clampMotors, clampVal, vadd, smulR]
    · simp [Dyn.eulerStep, Dyn.clampMotors, clampVal, vadd, h.motVel]

lemma process_lost {d d' : Dyn XReal n} {act : Vec n XReal} {dt : XReal} {ext : Vec 3 XReal} {noise : Bool}
    (h : Lost d) (hp : d.process act dt ext noise = .ok d') : Lost d' :=
  Dyn.process_ind (P := Lost) (fun dt a b ha hab => by
    obtain ⟨c, ms, h1, h2, h3, h4⟩ := Dyn.singleStep_ok hab
    rw [h4]
    exact euler_lost (.inr ha)) h hp

lemma process_nan (d : Dyn XReal n) (act : Vec n XReal) (ext : Vec 3 XReal) (noise : Bool) :
    d.process act nan ext noise = d.singleStep act nan ext noise :=
  Dyn.process_small _ _ _ _ _ (by simp) (by simp)

omit [Noise XReal] in
lemma forLoop_inf {σ : Type} (f : σ → Res σ) (hf : ∀ a b, f a ≠ .throw b) :
    ∀ fuel i s, forLoop (α := XReal) pinf f fuel i s = .bad
  | 0, i, s => by
    unfold forLoop
    rw [if_pos (by rfl)]
    cases hb : f s with
    | ok t => rfl
    | throw t => exact absurd hb (hf s t)
    | bad => rfl
  | fuel + 1, i, s => by
    unfold forLoop
    rw [if_pos (by rfl)]
    cases hb : f s with
    | ok t => exact forLoop_inf f hf fuel (i + 1) t
    | throw t => exact absurd hb (hf s t)
    | bad => rfl

lemma process_inf (d : Dyn XReal n) (act : Vec n XReal) (ext : Vec 3 XReal) (noise : Bool) :
    d.process act pinf ext noise = .bad := by
  unfold Dyn.process
  rw [Dyn.processDepth, if_neg (by simp [Flt.le, XReal.lt, XReal.beq]), if_pos (by rfl)]
  have : (pinf ⊘ Dyn.maxStep : XReal) = pinf := by
    have h1 : (Dyn.maxStep : XReal) = fin ((1 / 100 : ℚ) : ℝ) := rfl
    rw [h1]
    show XReal.div pinf (fin _) = pinf
    have h2 : ¬ (((1 / 100 : ℚ) : ℝ) < 0) := by norm_num
    simp only [XReal.div, sgn, infOf, if_neg h2]
    simp
  rw [this]
  refine forLoop_inf _ ?_ _ _ _
  intro a b hb
  rw [Dyn.processDepth, if_neg (by simp [Dyn.maxStep]), if_neg (by simp [Dyn.maxStep])] at hb
  exact Dyn.singleStep_not_throw _ _ _ _ _ _ hb

/-- Does the call replace the vehicle or hand it out for arbitrary changes? -/
def replacesVehicle : SimOp XReal n → Bool
  | .setDynParams _ => true
  | .mutDyn _ => true
  | _ => false

lemma step_lost {s s' : Sim XReal n} {o : SimOp XReal n} (h : Lost s.dyn) (ho : replacesVehicle o = false)
    (hs : s.step o = .ok s' ∨ s.step o = .throw s') : Lost s'.dyn := by
  cases o with
  | updateDynamics dt =>
    rcases hs with hs | hs
    · obtain ⟨ext, d, -, hp, rfl⟩ := Sim.updateDynamics_ok hs
      have hl := process_lost h hp
      simp only []
      rw [if_neg]
      · exact hl
      · simp [Sim.belowFloor, hl.pos]
    · obtain ⟨ext, d, hp, rfl⟩ := Sim.updateDynamics_throw hs
      obtain ⟨-, rfl⟩ := C05_throw_iff (by simp [Dyn.maxStep]) _ _ _ _ _ _ hp
      exact h
  | updateController dt =>
    simp only [Sim.step, Res.ok.injEq, reduceCtorEq, or_false] at hs
    subst hs
    cases ha : s.armed with
    | false => rw [Sim.updateController_disarmed ha]; exact h
    | true => rw [Sim.updateController_armed ha]; exact h
  | setControlMode m y =>
    simp only [Sim.step, Res.ok.injEq, reduceCtorEq, or_false] at hs
    subst hs
    unfold Sim.setControlMode
    split <;> exact h
  | setOdomParams p =>
    simp only [Sim.step, Sim.setOdomParams] at hs
    split at hs
    · simp at hs
    · simp only [Res.ok.injEq, reduceCtorEq, or_false] at hs
      subst hs
      exact h
  | setDynParams p => simp [replacesVehicle] at ho
  | mutDyn f => simp [replacesVehicle] at ho
  | _ =>
    simp only [Sim.step, Res.ok.injEq, reduceCtorEq, or_false] at hs
    subst hs
    exact h

end

/-- The claim of C88: a dynamics update whose period is not a positive finite number is rejected. -/
def C88_claim : Prop :=
  ∀ (_ : Noise XReal) (n : ℕ) (p : SimParams XReal n) (s t : Sim XReal n) (os : List (SimOp XReal n))
    (dt : XReal), Sim.mk' p = some s → Sim.Runs s os t → (¬ ∃ r : ℝ, 0 < r ∧ dt = fin r) →
    ∃ t', t.updateDynamics dt = .throw t'

section
variable [Noise XReal] {n : ℕ}

/-- C88 for all periods but NaN and plus infinity, on a vehicle with accepted parameters. -/
theorem C88_rejected_partial (s : Sim XReal n) (hm : s.dyn.model.core ≠ none) (dt : XReal)
    (h : ¬ ∃ r : ℝ, 0 < r ∧ dt = fin r) (h1 : dt ≠ nan) (h2 : dt ≠ pinf) :
    ∃ t, s.updateDynamics dt = .throw t ∧ t.dyn = s.dyn := by
  have hle : Flt.le dt (lit 0) = true := by
    cases dt with
    | nan => exact absurd rfl h1
    | pinf => exact absurd rfl h2
    | ninf => rfl
    | fin r =>
      simp only [lit_fin, Rat.cast_zero, fin_le, decide_eq_true_eq]
      by_contra hr
      exact h ⟨r, not_le.1 hr, rfl⟩
  have := C05_simulator_partial s dt hle hm
  cases hb : s.belowFloor with
  | false => exact ⟨_, this.1 hb, rfl⟩
  | true =>
    obtain ⟨c, -, hu⟩ := this.2 hb
    exact ⟨_, hu, rfl⟩

/-- The period NaN is never rejected. -/
theorem C88_nan_accepted (s t : Sim XReal n) : s.updateDynamics nan ≠ .throw t := by
  intro h
  obtain ⟨ext, d, hp, -⟩ := Sim.updateDynamics_throw h
  rw [process_nan] at hp
  exact Dyn.singleStep_not_throw _ _ _ _ _ _ hp

/-- After an update with period NaN nothing of the motion is left, and no later call brings it back, except
one that replaces the vehicle; in particular the vehicle is never again seen below the floor. -/
theorem C88_nan_for_ever (s s' t : Sim XReal n) (h : s.updateDynamics nan = .ok s') (os : List (SimOp XReal n))
    (hr : Sim.Runs s' os t) (ho : ∀ o ∈ os, replacesVehicle o = false) :
    (∀ i, t.dyn.state.pos i = nan) ∧ (∀ i, t.dyn.state.vel i = nan) ∧
    t.dyn.state.ori = ⟨nan, nan, nan, nan⟩ ∧ (∀ i, t.dyn.state.angVel i = nan) ∧
    (∀ i, t.dyn.state.motVel i = nan) ∧ t.belowFloor = false := by
  have h0 : Lost s'.dyn := by
    obtain ⟨ext, d, -, hp, rfl⟩ := Sim.updateDynamics_ok h
    rw [process_nan] at hp
    obtain ⟨c, ms, h1, h2, h3, h4⟩ := Dyn.singleStep_ok hp
    have hl : Lost d := by rw [h4]; exact euler_lost (.inl rfl)
    simp only []
    rw [if_neg]
    · exact hl
    · simp [Sim.belowFloor, hl.pos]
  have hl : Lost t.dyn := by
    clear h
    induction hr with
    | nil => exact h0
    | ok hs _ ih =>
      exact ih (fun o hm => ho o (List.mem_cons_of_mem _ hm))
        (step_lost h0 (ho _ List.mem_cons_self) (.inl hs))
    | throw hs _ ih =>
      exact ih (fun o hm => ho o (List.mem_cons_of_mem _ hm))
        (step_lost h0 (ho _ List.mem_cons_self) (.inr hs))
  exact ⟨hl.1, hl.2, hl.3, hl.4, hl.5, by simp [Sim.belowFloor, hl.pos]⟩

/-- The period plus infinity is never rejected either: the update runs into the overflow of its step
counter. -/
theorem C88_infinity_overflows (s : Sim XReal n) : s.updateDynamics pinf = .bad := by
  rcases Sim.updateDynamics_cases s pinf with ⟨-, -, hb⟩ | ⟨ext, -, hu⟩
  · exact hb
  · rw [hu, process_inf]

end

/-- The fixture accepts NaN. -/
lemma fixture_nan [Noise ℝ] : ∃ s', Fixture.sim.fin.updateDynamics nan = .ok s' := by
  rcases Sim.updateDynamics_cases Fixture.sim.fin nan with ⟨-, hc, -⟩ | ⟨ext, -, hu⟩
  · simp [Sim.fin, Fixture.sim, Fixture.dyn, Dyn.fin, Model.fin] at hc
  · have hms := Finite.motorFn_f (n := 4) Fixture.modelParams.motors
    rw [Fixture.motorFn_eq] at hms
    have hp : Fixture.sim.fin.dyn.process Fixture.sim.fin.actuation nan ext (!Fixture.sim.fin.floorCollision) =
        .ok (Dyn.eulerStep Fixture.core.fin (fun i => (Fixture.motors i).fin) Fixture.sim.fin.dyn
          Fixture.sim.fin.actuation nan ext (!Fixture.sim.fin.floorCollision)) := by
      rw [process_nan]
      unfold Dyn.singleStep
      rw [show Fixture.sim.fin.dyn.model.core = some Fixture.core.fin from rfl]
      simp only []
      rw [show Fixture.core.fin.params.motors = Fixture.modelParams.motors.map Motor.fin from rfl, hms]
      simp only [Option.map_some]
      rw [if_pos]
      rw [Finite.clampOk_f]
      exact Fixture.clampOk
    rw [hu, hp]
    simp only []
    split <;> exact ⟨_, rfl⟩

example [Noise ℝ] : ∃ s' : Sim XReal 4, Fixture.sim.fin.updateDynamics nan = .ok s' ∧
    Sim.Runs s' [.enableFloor (fin 5), .arm] (s'.enableFloor (fin 5)).arm ∧
    (∀ o ∈ [SimOp.enableFloor (fin 5), SimOp.arm (n := 4)], replacesVehicle o = false) := by
  obtain ⟨s', h⟩ := fixture_nan
  exact ⟨s', h, .ok rfl (.ok rfl (.nil _)), by simp [replacesVehicle]⟩

example [Noise ℝ] : (Fixture.sim.fin).dyn.model.core ≠ none ∧ (¬ ∃ r : ℝ, 0 < r ∧ ninf = fin r) := by
  constructor
  · simp [Sim.fin, Fixture.sim, Fixture.dyn, Dyn.fin, Model.fin]
  · rintro ⟨r, -, h⟩; simp at h

/-- C88 is false. -/
theorem C88_violated : ¬ C88_claim := by
  intro hc
  let N : Noise ℝ := ⟨fun _ _ _ => 0⟩
  have hm : Sim.mk' Fixture.simParams.fin = some Fixture.sim.fin := by
    rw [mk_f _ fixture_proper.imu, Fixture.mk_sim]; rfl
  obtain ⟨t, ht⟩ := hc finNoise 4 Fixture.simParams.fin _ _ [] nan hm (.nil _) (by rintro ⟨r, -, h⟩; simp at h)
  exact C88_nan_accepted _ _ ht

end Verif.Props
