import Verif.Props.Sim
import Verif.Lemmas.DynTime
import Verif.Lemmas.Model

/-!
# Call histories without undefined behaviour (C71)
-/

namespace Verif.Props

open Verif Flt Spec

variable {n : ℕ}

/-- Parameters of a vehicle with `n` rotors that the library accepts. -/
def Buildable (n : ℕ) (p : ModelParams ℝ) : Prop :=
  Accepted p ∧ p.motors.length = n ∧ ∀ m ∈ p.motors, m.dir = 1 ∨ m.dir = -1

/-- Calls within what the interface allows: time steps of at most `(2³¹ - 1) / 100` seconds, accepted
vehicle parameters, a positive filter constant of at most one; direct access to the dynamics may do anything
but replace the physical parameters by rejected ones. -/
def Sanctioned : SimOp ℝ n → Prop
  | .updateDynamics dt => 100 * dt ≤ 2 ^ 31 - 1
  | .setDynParams p => Buildable n p.model
  | .setOdomParams p => 0 < p.alpha ∧ p.alpha ≤ 1
  | .mutDyn f => ∀ d, (f d).model.core = d.model.core ∨
      ∃ p ms, Buildable n p ∧ Model.motorFn n p.motors = some ms ∧ (f d).model.core = some (Model.coreOf p ms)
  | _ => True

/-- Calls that must be answered with an exception. -/
def Rejected : SimOp ℝ n → Prop
  | .updateDynamics dt => dt ≤ 0
  | _ => False

/-- A vehicle that runs on accepted parameters. -/
def Healthy (d : Dyn ℝ n) : Prop :=
  ∃ p ms, Accepted p ∧ Model.motorFn n p.motors = some ms ∧ d.model.core = some (Model.coreOf p ms)

lemma clampOk_of_accepted {p : ModelParams ℝ} {ms : Fin n → Motor ℝ} (ha : Accepted p)
    (hm : Model.motorFn n p.motors = some ms) : Dyn.clampOk ms = true := by
  obtain ⟨hl, hg⟩ := Dyn.motorFn_get hm
  simp only [Dyn.clampOk, List.all_eq_true, Bool.not_eq_true', List.mem_finRange, forall_const]
  intro i
  exact (ha.2.2.2.2 (ms i) (List.mem_of_getElem? (hg i))).1

lemma motorFn_of_length {p : ModelParams ℝ} (h : p.motors.length = n) :
    ∃ ms, Model.motorFn n p.motors = some ms := by
  simp [Model.motorFn, h]

lemma mk_of_buildable {p : DynParams ℝ n} (h : Buildable n p.model) :
    ∃ d, Dyn.mk' p = some d ∧ Healthy d := by
  obtain ⟨ha, hl, hd⟩ := h
  obtain ⟨ms, hms⟩ := motorFn_of_length hl
  have hdir : Model.dirOk p.model.motors = true := by
    simp only [Model.dirOk, List.all_eq_true, Bool.or_eq_true, beq_iff_eq]
    exact hd
  simp only [Dyn.mk', Model.mk', Model.updateParams, (Model.checkParams_iff _).2 ha, hms, hdir]
  exact ⟨_, rfl, p.model, ms, ha, hms, rfl⟩

variable [Noise ℝ]

lemma singleStep_healthy {d : Dyn ℝ n} (h : Healthy d) (act : Vec n ℝ) (dt : ℝ) (ext : Vec 3 ℝ)
    (noise : Bool) : ∃ d', d.singleStep act dt ext noise = .ok d' ∧ d'.model.core = d.model.core := by
  obtain ⟨p, ms, ha, hm, hc⟩ := h
  refine ⟨Dyn.eulerStep (Model.coreOf p ms) ms d act dt ext noise, ?_, Dyn.eulerStep_core ..⟩
  simp [Dyn.singleStep, hc, show (Model.coreOf p ms).params = p from rfl, hm, clampOk_of_accepted ha hm]

omit [Noise ℝ] in
lemma healthy_of_core {d d' : Dyn ℝ n} (h : Healthy d) (hc : d'.model.core = d.model.core) : Healthy d' := by
  obtain ⟨p, ms, ha, hm, hd⟩ := h
  exact ⟨p, ms, ha, hm, hc.trans hd⟩

/-- A healthy vehicle can be advanced by any positive time up to the range of the step counter. -/
lemma process_healthy {d : Dyn ℝ n} (h : Healthy d) (act : Vec n ℝ) {dt : ℝ} (ext : Vec 3 ℝ) (noise : Bool)
    (h0 : 0 < dt) (h1 : 100 * dt ≤ 2 ^ 31 - 1) : ∃ d', d.process act dt ext noise = .ok d' := by
  by_cases hs : dt ≤ 1 / 100
  · rw [Dyn.process_small_real _ _ _ _ h0 hs]
    obtain ⟨d', h', -⟩ := singleStep_healthy h act dt ext noise
    exact ⟨d', h'⟩
  · rw [Dyn.process_large _ _ _ _ (not_le.1 hs), Dyn.forLoop_iter]
    · generalize ⌈100 * dt⌉₊ - 0 = k
      induction k generalizing d with
      | zero => exact ⟨d, rfl⟩
      | succ k ih =>
        rw [callTimes_succ, Dyn.process_small_real _ _ _ _ (by norm_num) le_rfl]
        obtain ⟨d', h', hc⟩ := singleStep_healthy h act (1 / 100) ext noise
        rw [h']
        exact ih (healthy_of_core h hc)
    · rw [Nat.zero_add, Nat.ceil_le]
      refine h1.trans (le_of_eq ?_)
      norm_num [intMax]

lemma updateDynamics_healthy {s : Sim ℝ n} (h : Healthy s.dyn) {dt : ℝ} (h1 : 100 * dt ≤ 2 ^ 31 - 1) :
    ∃ s', Healthy s'.dyn ∧ ((0 < dt ∧ s.updateDynamics dt = .ok s') ∨
      (dt ≤ 0 ∧ s.updateDynamics dt = .throw s')) := by
  rcases Sim.updateDynamics_cases s dt with ⟨-, hc, -⟩ | ⟨ext, -, hu⟩
  · obtain ⟨p, ms, -, -, hc'⟩ := h
    rw [hc'] at hc
    simp at hc
  · by_cases h0 : 0 < dt
    · obtain ⟨d', hd⟩ := process_healthy h s.actuation ext (!s.floorCollision) h0 h1
      have hh : Healthy d' := healthy_of_core h (Dyn.process_core hd)
      rw [hd] at hu
      simp only [] at hu
      split at hu
      · exact ⟨_, hh, .inl ⟨h0, hu⟩⟩
      · exact ⟨_, hh, .inl ⟨h0, hu⟩⟩
    · rw [C05_dynamics_rejects _ _ _ _ _ (by simpa [flt] using h0)] at hu
      simp only [] at hu
      exact ⟨{ s with extForce := ext }, h, .inr ⟨not_lt.1 h0, hu⟩⟩

/-- One sanctioned call: it returns, or it throws if it must; the vehicle stays healthy. -/
lemma step_healthy {s : Sim ℝ n} (h : Healthy s.dyn) {o : SimOp ℝ n} (ho : Sanctioned o) :
    ∃ s', Healthy s'.dyn ∧ ((¬ Rejected o ∧ s.step o = .ok s') ∨ (Rejected o ∧ s.step o = .throw s')) := by
  cases o with
  | updateDynamics dt =>
    obtain ⟨s', hs, h'⟩ := updateDynamics_healthy h ho
    refine ⟨s', hs, h'.imp (fun x => ⟨not_le.2 x.1, x.2⟩) id⟩
  | updateController dt =>
    refine ⟨_, ?_, .inl ⟨id, rfl⟩⟩
    cases ha : s.armed with
    | false => rw [Sim.updateController_disarmed ha]; exact h
    | true => rw [Sim.updateController_armed ha]; exact h
  | setControlMode m y =>
    refine ⟨_, ?_, .inl ⟨id, rfl⟩⟩
    unfold Sim.setControlMode
    split <;> exact h
  | setDynParams p =>
    obtain ⟨d, hd, hh⟩ := mk_of_buildable (p := p) ho
    exact ⟨{ s with dyn := d }, hh, .inl ⟨id, by simp [Sim.step, Sim.setDynParams, hd]⟩⟩
  | setOdomParams p =>
    obtain ⟨o, hm⟩ : ∃ o, Odom.mk' p = some o := by
      simp only [Odom.mk', Sanctioned] at ho ⊢
      simp [flt, ho]
    exact ⟨{ s with odom := o }, h, .inl ⟨id, by simp [Sim.step, Sim.setOdomParams, hm]⟩⟩
  | mutDyn f =>
    refine ⟨{ s with dyn := f s.dyn }, ?_, .inl ⟨id, rfl⟩⟩
    rcases ho s.dyn with hc | ⟨p, ms, hb, hm, hc⟩
    · exact healthy_of_core h hc
    · exact ⟨p, ms, hb.1, hm, hc⟩
  | _ => refine ⟨_, ?_, .inl ⟨id, rfl⟩⟩; exact h

/-- Full claim: whatever parameters the constructor is given, if it returns, every history of sanctioned
calls is free of undefined behaviour. -/
def C71_claim : Prop :=
  ∀ (_ : Noise ℝ) (n : ℕ) (p : SimParams ℝ n) (s₀ : Sim ℝ n) (os : List (SimOp ℝ n)),
    Sim.mk' p = some s₀ → (∀ o ∈ os, Sanctioned o) → ∃ t, Sim.Runs s₀ os t

/-- What is true: with accepted vehicle parameters the constructor returns, and every history of sanctioned
calls runs to its end; exactly the dynamics updates with a non-positive time step throw.  Missing: rejected
vehicle parameters, which the constructor ignores, leaving the vehicle uninitialised (`C71_violated`). -/
theorem C71_defined_partial (p : SimParams ℝ n) (hp : Buildable n p.dyn.model)
    (hi : 0 < p.odom.alpha ∧ p.odom.alpha ≤ 1) :
    ∃ s₀, Sim.mk' p = some s₀ ∧ ∀ os : List (SimOp ℝ n), (∀ o ∈ os, Sanctioned o) →
      ∃ t tr, Trace s₀ tr t ∧ tr.map (·.op) = os ∧ (∀ e ∈ tr, e.threw = true ↔ Rejected e.op) ∧
        Sim.Runs s₀ os t := by
  obtain ⟨d, hd, hh⟩ := mk_of_buildable hp
  obtain ⟨o, ho⟩ : ∃ o, Odom.mk' p.odom = some o := by
    simp only [Odom.mk']
    simp [flt, hi]
  refine ⟨_, by simp only [Sim.mk', hd, ho]; rfl, ?_⟩
  have key : ∀ (os : List (SimOp ℝ n)) (s : Sim ℝ n), Healthy s.dyn → (∀ o ∈ os, Sanctioned o) →
      ∃ t tr, Trace s tr t ∧ tr.map (·.op) = os ∧ (∀ e ∈ tr, e.threw = true ↔ Rejected e.op) ∧
        Sim.Runs s os t := by
    intro os
    induction os with
    | nil => exact fun s _ _ => ⟨s, [], .nil s, rfl, by simp, .nil s⟩
    | cons o os ih =>
      intro s hs ho
      obtain ⟨s', hs', h⟩ := step_healthy hs (ho o List.mem_cons_self)
      obtain ⟨t, tr, h1, h2, h3, h4⟩ := ih s' hs' fun x hx => ho x (List.mem_cons_of_mem _ hx)
      rcases h with ⟨hr, h⟩ | ⟨hr, h⟩
      · refine ⟨t, ⟨s, o, false⟩ :: tr, .ok h h1, by simp [h2], ?_, .ok h h4⟩
        simpa [hr] using h3
      · refine ⟨t, ⟨s, o, true⟩ :: tr, .throw h h1, by simp [h2], ?_, .throw h h4⟩
        simpa [hr] using h3
  exact fun os ho => key os _ hh ho

omit [Noise ℝ] in
omit [Noise ℝ] in
lemma fixture_buildable : Buildable 4 Fixture.modelParams := by
  refine ⟨(Model.checkParams_iff _).1 Fixture.check, by simp [Fixture.modelParams, Model.quadX], ?_⟩
  simp [Fixture.modelParams, Model.quadX]

/-- Every history of sanctioned calls exists for the fixture. -/
lemma fixture_trace (os : List (SimOp ℝ 4)) (h : ∀ o ∈ os, Sanctioned o) :
    ∃ tr t, Trace Fixture.sim tr t ∧ tr.map (·.op) = os := by
  obtain ⟨s, hs, hr⟩ := C71_defined_partial Fixture.simParams fixture_buildable
    (by simp [Fixture.simParams])
  rw [Fixture.mk_sim] at hs
  cases hs
  obtain ⟨t, tr, h1, h2, -⟩ := hr os h
  exact ⟨tr, t, h1, h2⟩

/-- Non-vacuity: the fixture, and a history with long and rejected steps. -/
example : Buildable 4 Fixture.simParams.dyn.model ∧
    ∀ o ∈ ([.arm, .updateDynamics 100, .updateDynamics (-1), .setDynParams Fixture.dynParams,
      .setOdomParams ⟨1 / 2, Quat.identity⟩] : List (SimOp ℝ 4)), Sanctioned o := by
  have hb := fixture_buildable
  refine ⟨hb, ?_⟩
  simp only [List.mem_cons, List.not_mem_nil, or_false, forall_eq_or_imp, forall_eq, Sanctioned]
  refine ⟨trivial, by norm_num, by norm_num, hb, by norm_num, by norm_num⟩

omit [Noise ℝ] in
/-- A negative mass is ignored by the constructor; the first dynamics update then reads members that were
never written. -/
theorem C71_violated : ¬ C71_claim := by
  intro h
  let N : Noise ℝ := ⟨fun _ _ _ => 0⟩
  let p : SimParams ℝ 4 := { Fixture.simParams with
    dyn := { Fixture.dynParams with model := { Fixture.modelParams with mass := -1 } } }
  have hc : Model.checkParams p.dyn.model = false := by
    simp [p, Model.checkParams, flt]
  have hm : Dyn.mk' p.dyn = some ⟨⟨none, none, ⟨7, 0⟩, vzero, vzero⟩, State.default⟩ := by
    simp [Dyn.mk', Model.mk', Model.updateParams, hc]
    exact ⟨rfl, rfl⟩
  obtain ⟨o, ho⟩ : ∃ o, Odom.mk' p.odom = some o := by
    simp [p, Odom.mk', Fixture.simParams, flt]
  obtain ⟨s₀, hs, hcore⟩ : ∃ s₀, Sim.mk' p = some s₀ ∧ s₀.dyn.model.core = none := by
    refine ⟨_, by simp only [Sim.mk', hm, ho]; rfl, rfl⟩
  obtain ⟨t, ht⟩ := h N 4 p s₀ [.updateDynamics (1 / 100)] hs (by
    simp only [List.mem_singleton, forall_eq, Sanctioned]
    norm_num)
  have hbad : s₀.updateDynamics (1 / 100) = .bad := by
    rcases Sim.updateDynamics_cases s₀ (1 / 100) with ⟨-, -, hb⟩ | ⟨ext, -, hu⟩
    · exact hb
    · rw [hu, Dyn.process_small_real _ _ _ _ (by norm_num) le_rfl]
      simp [Dyn.singleStep, hcore]
  cases ht with
  | ok hs _ => rw [Sim.step, hbad] at hs; simp at hs
  | throw hs _ => rw [Sim.step, hbad] at hs; simp at hs

end Verif.Props
