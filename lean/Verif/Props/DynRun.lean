import Verif.Lemmas.DynTime
import Verif.Props.DynStep
import Mathlib.Analysis.SpecificLimits.Basic

/-!
# Sequences of dynamics updates over the reals (C06, C21, C23, C32)
-/

namespace Verif.Props

open Verif Flt Spec

section
variable [Noise ℝ] {n : ℕ}

/-! ## C23 — translation invariance -/

lemma displaced_step (v : Vec 3 ℝ) (d : Dyn ℝ n) (act : Vec n ℝ) (dt : ℝ) (ext : Vec 3 ℝ) (noise : Bool) :
    (displaced v d).process act dt ext noise = mapRes (displaced v) (d.process act dt ext noise) := by
  have h := Dyn.process_rel (R := fun a b => b = displaced v a) (act := act) (act' := act) (ext := ext)
    (ext' := ext) (noise := noise) (noise' := noise) ?_ dt d (displaced v d) rfl
  · cases h1 : d.process act dt ext noise <;> cases h2 : (displaced v d).process act dt ext noise <;>
      simp_all [Res.Rel, mapRes]
  · rintro dt a _ rfl
    refine Dyn.singleStep_rel rfl fun c ms _ _ => ?_
    simp only [displaced, Dyn.eulerStep, vadd_real, smulR_real]
    congr 2
    abel

/-- **C23.** Any sequence of calls from a displaced vehicle gives the same outcomes and the displaced
vehicle, everything else (velocities, forces, noise, generator) being equal. -/
theorem C23_translation (v : Vec 3 ℝ) (d : Dyn ℝ n) (cs : List (DynCall ℝ n)) :
    runDyn (displaced v d) cs = (runDyn d cs).map fun r => (displaced v r.1, r.2) := by
  induction cs generalizing d with
  | nil => rfl
  | cons c cs ih =>
    simp only [runDyn, displaced_step]
    cases h : d.process c.act c.dt c.ext c.noise with
    | ok e => simp [mapRes, ih, Function.comp_def]
    | throw e => simp [mapRes, ih, Function.comp_def]
    | bad => rfl

/-- A run of two steps with a rejected call in between, and a displacement. -/
example : (∃ r, runDyn Fixture.dyn
    [⟨fun _ => 3, 1 / 100, 0, true⟩, ⟨0, -1, 0, true⟩, ⟨0, 1 / 200, ![0, 1, 0], false⟩] = some r) ∧
    displaced ![1, 2, 3] Fixture.dyn ≠ Fixture.dyn := by
  refine ⟨?_, fun h => ?_⟩
  · simp only [runDyn]
    rw [Fixture.process_ok _ rfl _ _ (by norm_num) (by norm_num)]
    simp only
    rw [Dyn.process_nonpos _ _ _ _ _ (by simp [flt])]
    simp only
    rw [Fixture.process_ok _ (by rw [Dyn.eulerStep_core]; rfl) _ _ (by norm_num) (by norm_num)]
    exact ⟨_, rfl⟩
  · have := congrFun (congrArg (fun d : Dyn ℝ 4 => d.state.pos) h) 0
    simp only [displaced, Pi.add_apply] at this
    simp at this

/-! ## C32 — zero correlations mean no noise -/

/-- **C32.** With zero correlations (that of the force is enough, see C20) any sequence of calls with noise enabled gives the outcomes, the
vehicle state and the parameters of the same calls with noise disabled, whatever the seed. -/
theorem C32_zero_noise (d : Dyn ℝ n) (p : ModelParams ℝ) (ms : Fin n → Motor ℝ) (hr : RunsOn d p ms)
    (h1 : p.forceNoise = 0) (cs : List (DynCall ℝ n)) :
    (runDyn d cs).map (fun r => (r.1.state, r.1.model.core, r.2)) =
      (runDyn d (cs.map fun c => { c with noise := false })).map
        (fun r => (r.1.state, r.1.model.core, r.2)) := by
  obtain ⟨hc, -⟩ := runsOn_core hr
  have key : ∀ (cs : List (DynCall ℝ n)) (d e : Dyn ℝ n), d.state = e.state →
      d.model.core = some (Model.coreOf p ms) → e.model.core = some (Model.coreOf p ms) →
      (runDyn d cs).map (fun r => (r.1.state, r.1.model.core, r.2)) =
      (runDyn e (cs.map fun c => { c with noise := false })).map
        (fun r => (r.1.state, r.1.model.core, r.2)) := by
    intro cs
    induction cs with
    | nil => intro d e hs hd he; simp [runDyn, hs, hd, he]
    | cons c cs ih =>
      intro d e hs hd he
      have := Dyn.process_rel (R := fun a b => a.state = b.state ∧
          a.model.core = some (Model.coreOf p ms) ∧ b.model.core = some (Model.coreOf p ms))
        (act := c.act) (act' := c.act) (ext := c.ext) (ext' := c.ext) (noise := c.noise)
        (noise' := false) ?_ c.dt d e ⟨hs, hd, he⟩
      · simp only [runDyn, List.map_cons]
        cases ha : d.process c.act c.dt c.ext c.noise <;>
          cases hb : e.process c.act c.dt c.ext false <;> rw [ha, hb] at this
        · obtain ⟨r1, r2, r3⟩ := this
          have := congrArg (Option.map fun x => (x.1, x.2.1, false :: x.2.2)) (ih _ _ r1 r2 r3)
          simpa only [Option.map_map, Function.comp_def] using this
        all_goals first | exact this.elim | skip
        · obtain ⟨r1, r2, r3⟩ := this
          have := congrArg (Option.map fun x => (x.1, x.2.1, true :: x.2.2)) (ih _ _ r1 r2 r3)
          simpa only [Option.map_map, Function.comp_def] using this
      · rintro dt a b ⟨r1, r2, r3⟩
        refine Dyn.singleStep_rel (by rw [r2, r3]) fun c' ms' hc' _ => ?_
        rw [r2, Option.some.injEq] at hc'
        subst hc'
        have hz : (if c.noise then a.model.setNoise (Model.coreOf p ms) dt else a.model.disableNoise).stochForce
            = vzero := by
          cases c.noise
          · rfl
          · simp only [if_true, Model.setNoise]
            split
            · rfl
            · funext i
              simp [Model.coreOf, h1, flt]
        refine ⟨?_, by rw [Dyn.eulerStep_core, r2], by rw [Dyn.eulerStep_core, r3]⟩
        simp only [Dyn.eulerStep, hz, r1]
        rfl
  exact key cs d d rfl hc hc

/-- Also the stored noise is zero after a step. -/
theorem C32_zero_reported (d d' : Dyn ℝ n) (p : ModelParams ℝ) (ms : Fin n → Motor ℝ) (hr : RunsOn d p ms)
    (h1 : p.forceNoise = 0) (h2 : p.momentNoise = 0) (act : Vec n ℝ) (dt : ℝ) (ext : Vec 3 ℝ)
    (noise : Bool) (h : d.process act dt ext noise = .ok d') :
    d'.model.stochForce = 0 ∧ d'.model.stochMoment = 0 := by
  obtain ⟨hc, -⟩ := runsOn_core hr
  have h' : d'.model.stochForce = 0 ∧ d'.model.stochMoment = 0 ∨
      d'.model.core ≠ some (Model.coreOf p ms) := by
    refine Dyn.process_last (P := fun x => x.model.stochForce = 0 ∧ x.model.stochMoment = 0 ∨
      x.model.core ≠ some (Model.coreOf p ms)) substepPos_real ?_ h
    intro dt a b hab
    obtain ⟨c, ms', e1, -, -, rfl⟩ := Dyn.singleStep_ok hab
    rw [Dyn.eulerStep_core, e1]
    by_cases hcc : c = Model.coreOf p ms
    · left
      subst hcc
      rw [Dyn.es_model]
      cases noise
      · simp [Model.disableNoise, flt]
      · simp only [if_true, Model.setNoise]
        split
        · simp [Model.disableNoise, flt]
        · constructor
          · funext i; simp [Model.coreOf, h1, flt]
          · funext i; simp [Model.coreOf, h2, flt]
    · right
      simpa using hcc
  rcases h' with h' | h'
  · exact h'
  · exact absurd ((Dyn.process_core h).trans hc) h'

/-- A model with zero correlations. -/
example : ∃ (d : Dyn ℝ 4) (p : ModelParams ℝ) (ms : Fin 4 → Motor ℝ), RunsOn d p ms ∧ p.forceNoise = 0 ∧
    p.momentNoise = 0 := by
  let p : ModelParams ℝ := { Fixture.modelParams with forceNoise := 0, momentNoise := 0 }
  let m : Model ℝ 4 := { Fixture.dyn.model with core := some (Model.coreOf p Fixture.motors) }
  have hck : Model.checkParams p = true := by
    simp [p, Model.checkParams, Fixture.modelParams, Model.checkMotor, Model.quadX, flt]
  have hmk : Model.mk' p 7 = some m := by
    unfold Model.mk' Model.updateParams
    rw [hck]
    simp only [Bool.not_true, Bool.false_eq_true, if_false,
      show Model.motorFn 4 p.motors = some Fixture.motors from rfl,
      show Model.dirOk p.motors = true from Fixture.dirOk, if_true]
    rfl
  exact ⟨⟨m, State.default⟩, p, Fixture.motors, ⟨rfl, p, 7, m, [], hmk, rfl, rfl⟩, rfl, rfl⟩

/-! ## C06 — simulated time -/

/-- A body that moves uniformly: no gravity, no drag, rotors stopped, not commanded. -/
def Coasting (d : Dyn ℝ n) (p : ModelParams ℝ) (ms : Fin n → Motor ℝ) : Prop :=
  RunsOn d p ms ∧ p.gravity = 0 ∧ p.drag = 0 ∧ d.state.motVel = 0 ∧
    ∀ i, (ms i).minSpeed ≤ 0 ∧ 0 ≤ (ms i).maxSpeed

/-- Full claim, on the clock that a uniformly moving body is: an update by `dt` moves it by
`dt * velocity`. -/
def C06_claim : Prop :=
  ∀ (_ : Noise ℝ) (n : ℕ) (d d' : Dyn ℝ n) (p : ModelParams ℝ) (ms : Fin n → Motor ℝ) (dt : ℝ),
    Coasting d p ms → 0 < dt → d.process 0 dt 0 false = .ok d' →
    d'.state.pos = d.state.pos + dt • d.state.vel

/-- An update longer than 0.01 s is exactly `⌈100 dt⌉` updates of 0.01 s, from every state and for all
arguments.  It overflows the counter (undefined behaviour) if that number exceeds the range of `int`. -/
theorem C06_substeps_partial (d : Dyn ℝ n) (act : Vec n ℝ) (dt : ℝ) (ext : Vec 3 ℝ) (noise : Bool)
    (h : 1 / 100 < dt) :
    (⌈100 * dt⌉₊ ≤ 2147483647 → d.process act dt ext noise =
      callTimes (fun d => d.process act (1 / 100) ext noise) ⌈100 * dt⌉₊ d) ∧
    (2147483647 < ⌈100 * dt⌉₊ → d.process act dt ext noise = .bad) := by
  rw [Dyn.process_large _ _ _ _ h]
  refine ⟨fun hN => ?_, fun hN => ?_⟩
  · exact Dyn.forLoop_iter _ _ _ _ _ (by simpa [intMax] using hN)
  · refine Dyn.forLoop_overflow _ _ (fun a b => ?_) _ _ _ (by simpa [intMax] using hN)
    rw [Dyn.process_small_real _ _ _ _ (by norm_num) le_rfl]
    exact Dyn.singleStep_not_throw _ _ _ _ _ _

/-- The time actually simulated. -/
noncomputable def simulatedTime (dt : ℝ) : ℝ := if dt ≤ 1 / 100 then dt else (⌈100 * dt⌉₊ : ℝ) / 100

/-- A successful straight-line step on known parameters. -/
lemma step_on {d d' : Dyn ℝ n} {p : ModelParams ℝ} {ms : Fin n → Motor ℝ} {act : Vec n ℝ} {dt : ℝ}
    {ext : Vec 3 ℝ} {noise : Bool} (hco : d.model.core = some (Model.coreOf p ms))
    (hmo : Model.motorFn n p.motors = some ms) (h : d.singleStep act dt ext noise = .ok d') :
    (∀ i, (ms i).minSpeed ≤ (ms i).maxSpeed) ∧
    d' = Dyn.eulerStep (Model.coreOf p ms) ms d act dt ext noise := by
  obtain ⟨c, ms', e1, e2, e3, rfl⟩ := Dyn.singleStep_ok h
  rw [hco, Option.some.injEq] at e1
  subst e1
  have : ms' = ms := by
    rw [show (Model.coreOf p ms).params = p from rfl, hmo, Option.some.injEq] at e2
    exact e2.symm
  subst this
  refine ⟨fun i => ?_, rfl⟩
  simp only [Dyn.clampOk, List.all_eq_true, List.mem_finRange, true_imp_iff, Bool.not_eq_true'] at e3
  simpa [flt] using e3 i

lemma coasting_step {d d' : Dyn ℝ n} {p : ModelParams ℝ} {ms : Fin n → Motor ℝ} {dt : ℝ}
    (hco : d.model.core = some (Model.coreOf p ms)) (hmo : Model.motorFn n p.motors = some ms)
    (hg : p.gravity = 0) (hd : p.drag = 0) (hw : d.state.motVel = 0)
    (hl : ∀ i, (ms i).minSpeed ≤ 0 ∧ 0 ≤ (ms i).maxSpeed) (h : d.singleStep 0 dt 0 false = .ok d') :
    d'.state.pos = d.state.pos + dt • d.state.vel ∧ d'.state.vel = d.state.vel ∧
    d'.state.motVel = 0 ∧ d'.model.core = d.model.core := by
  obtain ⟨-, rfl⟩ := step_on hco hmo h
  refine ⟨Dyn.es_pos .., ?_, ?_, Dyn.eulerStep_core ..⟩
  · have hF : (Dyn.eulerStep (Model.coreOf p ms) ms d 0 dt 0 false).state.force = 0 := by
      rw [Dyn.es_force, hw, Model.thrustVec_coreOf, dragForce_real]
      have : (∑ i, rotorForce (ms i) ((0 : Vec n ℝ) i)) = 0 := by
        refine Finset.sum_eq_zero fun i _ => ?_
        ext r
        simp [rotorForce, mulVec_z]
      rw [this, Quat.rotate_zero]
      ext i
      simp [Model.coreOf, hg, hd]
    rw [Dyn.es_vel, Dyn.es_acc, hF]
    simp
  · rw [Dyn.es_motVel, Dyn.es_motAcc, hw]
    funext i
    have hz : clampVal (0 : ℝ) (ms i).minSpeed (ms i).maxSpeed = 0 := by
      rw [clampVal_real, if_neg (not_lt.2 (hl i).1), if_neg (not_lt.2 (hl i).2)]
    simp [hz]

/-- What is true: the body moves by `simulatedTime dt`, which is never less than `dt`, exceeds it by
less than 0.01 s, and equals it exactly when `dt` is at most 0.01 s or a multiple of 0.01 s.  Missing:
the excess for every other `dt`. -/
theorem C06_time_partial (d d' : Dyn ℝ n) (p : ModelParams ℝ) (ms : Fin n → Motor ℝ) (dt : ℝ)
    (hc : Coasting d p ms) (h0 : 0 < dt) (h : d.process 0 dt 0 false = .ok d') :
    d'.state.pos = d.state.pos + simulatedTime dt • d.state.vel ∧
    dt ≤ simulatedTime dt ∧ simulatedTime dt < dt + 1 / 100 ∧
    (simulatedTime dt = dt ↔ dt ≤ 1 / 100 ∨ ∃ k : ℕ, dt = k / 100) := by
  obtain ⟨hr, hg, hd, hw, hl⟩ := hc
  obtain ⟨hco, hmo⟩ := runsOn_core hr
  refine ⟨?_, ?_⟩
  · unfold simulatedTime
    split
    · rename_i h1
      rw [Dyn.process_small_real _ _ _ _ h0 h1] at h
      exact (coasting_step hco hmo hg hd hw hl h).1
    · rename_i h1
      obtain ⟨ha, hb⟩ := C06_substeps_partial d 0 dt 0 false (not_le.1 h1)
      by_cases hN : ⌈100 * dt⌉₊ ≤ 2147483647
      · rw [ha hN] at h
        have := callTimes_ind (P := fun k e => e.state.pos = d.state.pos + ((k : ℝ) / 100) • d.state.vel ∧
            e.state.vel = d.state.vel ∧ e.state.motVel = 0 ∧ e.model.core = d.model.core) ?_ _ 0 d d'
          ⟨by simp, rfl, hw, rfl⟩ h
        · simpa using this.1
        · rintro k a b ⟨a1, a2, a3, a4⟩ hab
          rw [Dyn.process_small_real _ _ _ _ (by norm_num) le_rfl] at hab
          obtain ⟨b1, b2, b3, b4⟩ := coasting_step (a4.trans hco) hmo hg hd a3 hl hab
          refine ⟨?_, b2.trans a2, b3, b4.trans a4⟩
          rw [b1, a1, a2, add_assoc, ← add_smul]
          congr 2
          push_cast
          ring
      · rw [hb (not_le.1 hN)] at h
        simp at h
  · unfold simulatedTime
    have hceil := Nat.le_ceil (100 * dt)
    have hlt := Nat.ceil_lt_add_one (show 0 ≤ 100 * dt by positivity)
    split
    · rename_i h1
      exact ⟨le_rfl, by linarith, ⟨fun _ => .inl h1, fun _ => rfl⟩⟩
    · rename_i h1
      refine ⟨by linarith, by linarith, ⟨fun h => .inr ⟨⌈100 * dt⌉₊, h.symm⟩, ?_⟩⟩
      rintro (h2 | ⟨k, hk⟩)
      · exact absurd h2 h1
      · rw [show 100 * dt = (k : ℝ) by rw [hk]; ring, Nat.ceil_natCast, hk]

end

/-- A uniformly moving vehicle: the fixture without gravity and drag. -/
noncomputable def coastParams : ModelParams ℝ := { Fixture.modelParams with gravity := 0, drag := 0 }

noncomputable def coaster : Dyn ℝ 4 :=
  ⟨{ Fixture.dyn.model with core := some (Model.coreOf coastParams Fixture.motors) },
    { (State.default : State ℝ 4) with vel := ![1, 0, 0] }⟩

lemma coaster_coasting [Noise ℝ] : Coasting coaster coastParams Fixture.motors := by
  have hck : Model.checkParams coastParams = true := by
    simp [coastParams, Model.checkParams, Fixture.modelParams, Model.checkMotor, Model.quadX, flt]
  have hmk : Model.mk' coastParams 7 = some coaster.model := by
    unfold Model.mk' Model.updateParams
    rw [hck]
    simp only [Bool.not_true, Bool.false_eq_true, if_false,
      show Model.motorFn 4 coastParams.motors = some Fixture.motors from rfl,
      show Model.dirOk coastParams.motors = true from Fixture.dirOk, if_true]
    rfl
  refine ⟨⟨rfl, coastParams, 7, _, [], hmk, rfl, rfl⟩, rfl, rfl, ?_, fun i => ?_⟩
  · simp [coaster, State.default, flt]
  · obtain ⟨h1, h2, -⟩ := Fixture.motors_speed i
    rw [h1, h2]; norm_num

/-- Any step on this model succeeds. -/
lemma coaster_step [Noise ℝ] (d : Dyn ℝ 4) (hd : d.model.core = coaster.model.core) (act : Vec 4 ℝ)
    (dt : ℝ) (ext : Vec 3 ℝ) (noise : Bool) : ∃ d', d.singleStep act dt ext noise = .ok d' := by
  refine ⟨Dyn.eulerStep (Model.coreOf coastParams Fixture.motors) Fixture.motors d act dt ext noise, ?_⟩
  simp only [Dyn.singleStep, hd, coaster, show Model.motorFn 4 (Model.coreOf coastParams
    Fixture.motors).params.motors = some Fixture.motors from rfl, Fixture.clampOk, if_true]

lemma coaster_process [Noise ℝ] : ∃ d', coaster.process 0 (3 / 200) 0 false = .ok d' := by
  obtain ⟨ha, -⟩ := C06_substeps_partial coaster 0 (3 / 200) 0 false (by norm_num)
  have hN : ⌈100 * (3 / 200 : ℝ)⌉₊ = 2 := by
    rw [Nat.ceil_eq_iff (by norm_num)]; norm_num
  rw [ha (by rw [hN]; norm_num), hN]
  obtain ⟨d1, h1⟩ := coaster_step coaster rfl 0 (1 / 100) 0 false
  have h1' := h1
  rw [← Dyn.process_small_real _ _ _ _ (by norm_num) le_rfl] at h1
  obtain ⟨d2, h2⟩ := coaster_step d1 (Dyn.process_core h1) 0 (1 / 100) 0 false
  rw [← Dyn.process_small_real _ _ _ _ (by norm_num) le_rfl] at h2
  exact ⟨d2, by simp only [callTimes, h1, h2]⟩

/-- Hypotheses are met by the coasting vehicle and dt = 0.015, which is sub-stepped. -/
example [Noise ℝ] : Coasting coaster coastParams Fixture.motors ∧
    ∃ d', coaster.process 0 (3 / 200) 0 false = .ok d' := ⟨coaster_coasting, coaster_process⟩

theorem C06_violated : ¬ C06_claim := by
  intro h
  let N : Noise ℝ := ⟨fun _ _ _ => 0⟩
  obtain ⟨d', hd'⟩ := coaster_process
  have h1 := h N 4 coaster d' _ _ _ coaster_coasting (by norm_num) hd'
  have h2 := (C06_time_partial coaster d' _ _ _ coaster_coasting (by norm_num) hd').1
  have hN : ⌈100 * (3 / 200 : ℝ)⌉₊ = 2 := by
    rw [Nat.ceil_eq_iff (by norm_num)]; norm_num
  rw [h1, simulatedTime, if_neg (by norm_num), hN] at h2
  have h3 := congrFun h2 0
  simp [coaster] at h3
  norm_num at h3

/-! ## C21 — rotor response -/

section
variable [Noise ℝ] {n : ℕ}

/-- The factor by which one update shrinks the speed error of a rotor with time constant `tau`. -/
noncomputable def rotorFactor (dt tau : ℝ) : ℝ :=
  if dt ≤ 1 / 100 then 1 - dt / tau else (1 - 1 / 100 / tau) ^ ⌈100 * dt⌉₊

omit [Noise ℝ] in
lemma saturate_mem {lo hi : ℝ} (h : lo ≤ hi) (x : ℝ) : lo ≤ saturate lo hi x ∧ saturate lo hi x ≤ hi :=
  ⟨le_max_left _ _, max_le h (min_le_left _ _)⟩

omit [Noise ℝ] in
lemma saturate_id {lo hi x : ℝ} (h1 : lo ≤ x) (h2 : x ≤ hi) : saturate lo hi x = x := by
  rw [saturate, min_eq_right h2, max_eq_right h1]

lemma rotor_step {d d' : Dyn ℝ n} {p : ModelParams ℝ} {ms : Fin n → Motor ℝ} {act : Vec n ℝ} {dt : ℝ}
    {ext : Vec 3 ℝ} {noise : Bool} (hco : d.model.core = some (Model.coreOf p ms))
    (hmo : Model.motorFn n p.motors = some ms) (h0 : 0 < dt) (i : Fin n) (ht : dt ≤ (ms i).tau)
    (hlo : (ms i).minSpeed ≤ d.state.motVel i) (hhi : d.state.motVel i ≤ (ms i).maxSpeed)
    (h : d.singleStep act dt ext noise = .ok d') :
    d'.model.core = d.model.core ∧ (ms i).minSpeed ≤ d'.state.motVel i ∧
    d'.state.motVel i ≤ (ms i).maxSpeed ∧
    d'.state.motVel i - saturate (ms i).minSpeed (ms i).maxSpeed (act i) =
      (1 - dt / (ms i).tau) * (d.state.motVel i - saturate (ms i).minSpeed (ms i).maxSpeed (act i)) := by
  obtain ⟨hl, rfl⟩ := step_on hco hmo h
  have htau : 0 < (ms i).tau := h0.trans_le ht
  obtain ⟨hc1, hc2⟩ := saturate_mem (hl i) (act i)
  have hr : 0 ≤ dt / (ms i).tau ∧ dt / (ms i).tau ≤ 1 :=
    ⟨by positivity, (div_le_one htau).2 ht⟩
  have e : (Dyn.eulerStep (Model.coreOf p ms) ms d act dt ext noise).state.motVel i =
      d.state.motVel i + dt / (ms i).tau *
        (saturate (ms i).minSpeed (ms i).maxSpeed (act i) - d.state.motVel i) := by
    rw [Dyn.es_motVel, Dyn.es_motAcc]
    simp only [clamp_saturate (hl i)]
    rw [mul_div_assoc', mul_comm dt, mul_div_assoc, mul_comm _ (dt / _)]
    refine saturate_id ?_ ?_
    · nlinarith
    · nlinarith
  refine ⟨Dyn.eulerStep_core .., ?_, ?_, ?_⟩
  · rw [e]; nlinarith
  · rw [e]; nlinarith
  · rw [e]; ring

lemma rotor_update {d d' : Dyn ℝ n} {p : ModelParams ℝ} {ms : Fin n → Motor ℝ} {act : Vec n ℝ} {dt : ℝ}
    {ext : Vec 3 ℝ} {noise : Bool} (hco : d.model.core = some (Model.coreOf p ms))
    (hmo : Model.motorFn n p.motors = some ms) (h0 : 0 < dt) (i : Fin n)
    (ht : min dt (1 / 100) ≤ (ms i).tau)
    (hlo : (ms i).minSpeed ≤ d.state.motVel i) (hhi : d.state.motVel i ≤ (ms i).maxSpeed)
    (h : d.process act dt ext noise = .ok d') :
    d'.model.core = d.model.core ∧ (ms i).minSpeed ≤ d'.state.motVel i ∧
    d'.state.motVel i ≤ (ms i).maxSpeed ∧
    d'.state.motVel i - saturate (ms i).minSpeed (ms i).maxSpeed (act i) =
      rotorFactor dt (ms i).tau *
        (d.state.motVel i - saturate (ms i).minSpeed (ms i).maxSpeed (act i)) := by
  unfold rotorFactor
  split
  · rename_i h1
    rw [min_eq_left h1] at ht
    rw [Dyn.process_small_real _ _ _ _ h0 h1] at h
    exact rotor_step hco hmo h0 i ht hlo hhi h
  · rename_i h1
    rw [min_eq_right (not_le.1 h1).le] at ht
    obtain ⟨ha, hb⟩ := C06_substeps_partial d act dt ext noise (not_le.1 h1)
    by_cases hN : ⌈100 * dt⌉₊ ≤ 2147483647
    · rw [ha hN] at h
      have := callTimes_ind (P := fun k e => e.model.core = d.model.core ∧
          (ms i).minSpeed ≤ e.state.motVel i ∧ e.state.motVel i ≤ (ms i).maxSpeed ∧
          e.state.motVel i - saturate (ms i).minSpeed (ms i).maxSpeed (act i) =
            (1 - 1 / 100 / (ms i).tau) ^ k *
              (d.state.motVel i - saturate (ms i).minSpeed (ms i).maxSpeed (act i))) ?_ _ 0 d d'
        ⟨rfl, hlo, hhi, by simp⟩ h
      · simpa using this
      · rintro k a b ⟨a1, a2, a3, a4⟩ hab
        rw [Dyn.process_small_real _ _ _ _ (by norm_num) le_rfl] at hab
        obtain ⟨b1, b2, b3, b4⟩ := rotor_step (a1.trans hco) hmo (by norm_num) i ht a2 a3 hab
        refine ⟨b1.trans a1, b2, b3, ?_⟩
        rw [b4, a4, pow_succ]
        ring
    · rw [hb (not_le.1 hN)] at h
      simp at h

omit [Noise ℝ] in
lemma rotorFactor_mem {dt tau : ℝ} (h0 : 0 < dt) (ht : min dt (1 / 100) ≤ tau) :
    0 ≤ rotorFactor dt tau ∧ rotorFactor dt tau < 1 := by
  have htau : 0 < tau := (lt_min h0 (by norm_num)).trans_le ht
  unfold rotorFactor
  split
  · rename_i h1
    rw [min_eq_left h1] at ht
    have : 0 < dt / tau := by positivity
    have := (div_le_one htau).2 ht
    constructor <;> linarith
  · rename_i h1
    rw [min_eq_right (not_le.1 h1).le] at ht
    have h2 : 0 < 1 / 100 / tau := by positivity
    have h3 := (div_le_one htau).2 ht
    refine ⟨pow_nonneg (by linarith) _, pow_lt_one₀ (by linarith) (by linarith) ?_⟩
    have : 0 < ⌈100 * dt⌉₊ := Nat.ceil_pos.2 (by positivity)
    omega

/-- **C21.** `d k` is the vehicle after `k` updates with constant command and time step; external forces
and noise may vary.  For every rotor that starts within its limits and whose time constant is at least
the integration step: the error after `k` updates is exactly `ρ ^ k` times the initial one, with
`ρ = 1 - dt / tau` for `dt ≤ 0.01`; the speed moves monotonically towards the saturated command, never
crosses it, and converges to it. -/
theorem C21_rotor_response (d : ℕ → Dyn ℝ n) (p : ModelParams ℝ) (ms : Fin n → Motor ℝ) (act : Vec n ℝ)
    (dt : ℝ) (hr : RunsOn (d 0) p ms)
    (hs : ∀ k, ∃ ext noise, (d k).process act dt ext noise = .ok (d (k + 1)))
    (h0 : 0 < dt) (i : Fin n) (ht : min dt (1 / 100) ≤ (ms i).tau)
    (hlo : (ms i).minSpeed ≤ (d 0).state.motVel i) (hhi : (d 0).state.motVel i ≤ (ms i).maxSpeed) :
    let w := fun k => (d k).state.motVel i
    let target := max (ms i).minSpeed (min (ms i).maxSpeed (act i))
    (∀ k, w k - target = rotorFactor dt (ms i).tau ^ k * (w 0 - target)) ∧
    (dt ≤ 1 / 100 → ∀ k, w k - target = (1 - dt / (ms i).tau) ^ k * (w 0 - target)) ∧
    (w 0 ≤ target → ∀ k, w k ≤ w (k + 1) ∧ w (k + 1) ≤ target) ∧
    (target ≤ w 0 → ∀ k, w (k + 1) ≤ w k ∧ target ≤ w (k + 1)) ∧
    Filter.Tendsto w Filter.atTop (nhds target) := by
  obtain ⟨hco, hmo⟩ := runsOn_core hr
  intro w target
  have key : ∀ k, (d k).model.core = some (Model.coreOf p ms) ∧ (ms i).minSpeed ≤ w k ∧
      w k ≤ (ms i).maxSpeed ∧ w k - target = rotorFactor dt (ms i).tau ^ k * (w 0 - target) := by
    intro k
    induction k with
    | zero => exact ⟨hco, hlo, hhi, by simp⟩
    | succ k ih =>
      obtain ⟨a1, a2, a3, a4⟩ := ih
      obtain ⟨ext, noise, hk⟩ := hs k
      obtain ⟨b1, b2, b3, b4⟩ := rotor_update a1 hmo h0 i ht a2 a3 hk
      refine ⟨b1.trans a1, b2, b3, ?_⟩
      have b4 : w (k + 1) - target = rotorFactor dt (ms i).tau * (w k - target) := b4
      rw [b4, a4, pow_succ]
      ring
  obtain ⟨hρ0, hρ1⟩ := rotorFactor_mem h0 ht
  set ρ := rotorFactor dt (ms i).tau with hρ
  have hcf := fun k => (key k).2.2.2
  have hstep : ∀ k, w (k + 1) - target = ρ * (w k - target) := by
    intro k
    rw [hcf, hcf k, pow_succ]
    ring
  refine ⟨hcf, fun h1 k => ?_, fun h k => ?_, fun h k => ?_, ?_⟩
  · rw [hcf k, hρ, rotorFactor, if_pos h1]
  · have h1 : w k - target ≤ 0 := by
      rw [hcf k]
      exact mul_nonpos_of_nonneg_of_nonpos (pow_nonneg hρ0 _) (by linarith)
    have := hstep k
    constructor <;> nlinarith
  · have h1 : 0 ≤ w k - target := by
      rw [hcf k]
      exact mul_nonneg (pow_nonneg hρ0 _) (by linarith)
    have := hstep k
    constructor <;> nlinarith
  · have h1 : w = fun k => target + ρ ^ k * (w 0 - target) := by
      funext k
      rw [← hcf k]
      ring
    rw [h1]
    have := ((tendsto_pow_atTop_nhds_zero_of_lt_one hρ0 hρ1).mul_const (w 0 - target)).const_add target
    simpa using this

/-- Hypotheses are met by an infinite run of the fixture, time constant 1, from rest to speed 3. -/
example : ∃ d : ℕ → Dyn ℝ 4, RunsOn (d 0) Fixture.modelParams Fixture.motors ∧
    (∀ k, ∃ ext noise, (d k).process (fun _ => 3) (1 / 100) ext noise = .ok (d (k + 1))) ∧
    ∀ i, min (1 / 100) (1 / 100) ≤ (Fixture.motors i).tau ∧
      (Fixture.motors i).minSpeed ≤ (d 0).state.motVel i ∧
      (d 0).state.motVel i ≤ (Fixture.motors i).maxSpeed := by
  let d : ℕ → Dyn ℝ 4 := fun k => Nat.rec Fixture.dyn
    (fun _ d => Dyn.eulerStep Fixture.core Fixture.motors d (fun _ => 3) (1 / 100) 0 true) k
  have hc : ∀ k, (d k).model.core = some Fixture.core := by
    intro k
    induction k with
    | zero => rfl
    | succ k ih => exact (Dyn.eulerStep_core ..).trans ih
  refine ⟨d, fixture_runsOn, fun k => ⟨0, true, ?_⟩, fun i => ?_⟩
  · exact Fixture.process_ok _ (hc k) _ _ (by norm_num) le_rfl _ _
  · obtain ⟨h1, h2, h3⟩ := Fixture.motors_speed i
    rw [h1, h2, h3]
    have : (d 0).state.motVel i = 0 := by
      show (State.default : State ℝ 4).motVel i = 0
      simp [State.default, flt]
    rw [this]
    norm_num

end

end Verif.Props
