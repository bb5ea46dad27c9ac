import Verif.Spec.Dyn
import Verif.Lemmas.DynReal
import Verif.Props.Model
import Verif.Props.Sim

/-!
# One dynamics step over the reals (C18, C19, C20, C24)
-/

namespace Verif.Props

open Verif Flt Spec

lemma clamp_saturate {lo hi : ℝ} (h : lo ≤ hi) (x : ℝ) : clampVal x lo hi = saturate lo hi x := by
  rw [clampVal_real, saturate]
  split
  · rename_i h1
    rw [min_eq_right (by linarith), max_eq_left h1.le]
  · split
    · rename_i h2
      rw [min_eq_left h2.le, max_eq_right h]
    · rename_i h1 h2
      rw [min_eq_right (not_lt.1 h2), max_eq_right (not_lt.1 h1)]

lemma isRotated_unique {q : Quat ℝ} {v r r' : Vec 3 ℝ} (h : IsRotated q v r) (h' : IsRotated q v r') :
    r = r' := by
  have : pureH r = pureH r' := h.trans h'.symm
  ext i
  have h1 := congrArg QuaternionAlgebra.imI this
  have h2 := congrArg QuaternionAlgebra.imJ this
  have h3 := congrArg QuaternionAlgebra.imK this
  fin_cases i
  · exact h1
  · exact h2
  · exact h3

lemma isRotated_zero (q : Quat ℝ) : IsRotated q 0 0 := by
  have : pureH 0 = 0 := by ext <;> rfl
  simp [IsRotated, this]

/-- The orientation after a step. -/
lemma ori_step {q : Quat ℝ} (hq : NonzeroQ q) (om : Vec 3 ℝ) (dt : ℝ) :
    ∃ k : ℝ, 0 < k ∧ toH (quatIntegrate q om dt) = k • (toH q + (dt / 2) • (toH q * pureH om)) := by
  have hz := Quat.integrate_nonzero hq om dt
  have hp := Quat.n2_pos hz
  refine ⟨(√(Quat.ofCoeffs (vadd q.coeffs (smulR (quatDerivative q om) dt))).n2)⁻¹,
    inv_pos.2 (Real.sqrt_pos.2 hp), ?_⟩
  unfold quatIntegrate
  rw [Quat.normalized_eq, Quat.integrate_eq]
  generalize √(Quat.n2 _) = r
  ext <;> simp [div_eq_inv_mul] <;> ring

section
variable [Noise ℝ] {n : ℕ}

/-- A successful small update, unfolded. -/
lemma small_step {d d' : Dyn ℝ n} {act : Vec n ℝ} {dt : ℝ} {ext : Vec 3 ℝ} {noise : Bool}
    (h0 : 0 < dt) (h1 : dt ≤ 1 / 100) (h : d.process act dt ext noise = .ok d') :
    ∃ c ms, d.model.core = some c ∧ Model.motorFn n c.params.motors = some ms ∧
      (∀ i, (ms i).minSpeed ≤ (ms i).maxSpeed) ∧ d' = Dyn.eulerStep c ms d act dt ext noise := by
  rw [Dyn.process_small _ _ _ _ _ (by simp [flt, h0]) (by simp [Dyn.maxStep, flt]; linarith)] at h
  obtain ⟨c, ms, e1, e2, e3, e4⟩ := Dyn.singleStep_ok h
  refine ⟨c, ms, e1, e2, fun i => ?_, e4⟩
  simp only [Dyn.clampOk, List.all_eq_true, List.mem_finRange, true_imp_iff, Bool.not_eq_true'] at e3
  simpa [flt] using e3 i

omit [Noise ℝ] in
/-- `d` runs on parameters `p` with rotors `ms`: the model was built by the library, through any
history, and reports these parameters. -/
def RunsOn {α : Type} [Flt α] [Noise α] {n : ℕ} (d : Dyn α n) (p : ModelParams α) (ms : Fin n → Motor α) : Prop :=
  p.motors = List.ofFn ms ∧ ∃ q seed m0 os, Model.mk' q seed = some m0 ∧ runModel m0 os = some d.model ∧
    d.model.core.map (·.params) = some p

omit [Noise ℝ] in
lemma runsOn_core {α : Type} [Flt α] [Noise α] {n : ℕ} {d : Dyn α n} {p : ModelParams α} {ms : Fin n → Motor α}
    (h : RunsOn d p ms) :
    d.model.core = some (Model.coreOf p ms) ∧ Model.motorFn n p.motors = some ms := by
  obtain ⟨h1, q, seed, m0, os, h2, h3, h4⟩ := h
  rw [Option.map_eq_some_iff] at h4
  obtain ⟨c, hc, rfl⟩ := h4
  obtain ⟨ms', e1, e2⟩ := Model.runModel_consistent (Model.mk'_consistent h2) h3 c hc
  have : ms' = ms := by
    obtain ⟨hl, hg⟩ := Dyn.motorFn_get e1
    ext i : 1
    have := hg i
    rw [h1] at this
    simpa using this.symm
  subst this
  exact ⟨by rw [hc, ← e2], e1⟩

/-- The division-relevant part of being meaningful. -/
def Regular (p : ModelParams ℝ) (ms : Fin n → Motor ℝ) : Prop :=
  p.mass ≠ 0 ∧ p.inertia.det ≠ 0 ∧ ∀ i, (ms i).tau ≠ 0

/-! ## C18 — the step is the Euler step of the documented equations -/

/-- Full claim: every successful small update is the explicit Euler step of the documented equations;
`get_stochastic_force()` and `get_stochastic_moment()` report the noise of the step. -/
def C18_claim : Prop :=
  ∀ (_ : Noise ℝ) (n : ℕ) (d d' : Dyn ℝ n) (p : ModelParams ℝ) (ms : Fin n → Motor ℝ) (act : Vec n ℝ)
    (dt : ℝ) (ext : Vec 3 ℝ) (noise : Bool),
    RunsOn d p ms → Regular p ms → IsUnitQ d.state.ori → 0 < dt → dt ≤ 1 / 100 →
    d.process act dt ext noise = .ok d' →
    ∃ F M, DocForce p ms d.state d'.model.stochForce ext F ∧
      DocTorque p ms d.state d'.state d'.model.stochMoment M ∧
      RigidEuler p ms d.state d'.state act dt F M

/-- What is true: it is the explicit Euler step of the rigid-body equations with the acceleration of
gravity in place of the weight, drag acting on the world velocity axis by axis, aerodynamic torque
`-|ω| C ω`, and the *force* noise added to the torque.  Missing: the documented force and torque. -/
theorem C18_euler_partial (d d' : Dyn ℝ n) (p : ModelParams ℝ) (ms : Fin n → Motor ℝ) (act : Vec n ℝ)
    (dt : ℝ) (ext : Vec 3 ℝ) (noise : Bool) (hr : RunsOn d p ms) (hp : Regular p ms)
    (hq : IsUnitQ d.state.ori) (h0 : 0 < dt) (h1 : dt ≤ 1 / 100)
    (h : d.process act dt ext noise = .ok d') :
    ∃ T F M, IsThrust ms d.state T ∧
      F = T + p.gravity + (fun i => -p.drag * (d.state.vel i * |d.state.vel i|)) + d'.model.stochForce + ext ∧
      M = ∑ i, rotorTorque (ms i) (d.state.motVel i) (d'.state.motAcc i) +
        -(√(d.state.angVel ⬝ᵥ d.state.angVel) • p.aero.mulVec d.state.angVel) + d'.model.stochForce -
        crossProduct d.state.angVel (p.inertia.mulVec d.state.angVel) ∧
      RigidEuler p ms d.state d'.state act dt F M := by
  obtain ⟨hc, hm⟩ := runsOn_core hr
  obtain ⟨c, ms', e1, e2, e3, rfl⟩ := small_step h0 h1 h
  rw [hc, Option.some.injEq] at e1
  subst e1
  have : ms' = ms := by
    rw [show (Model.coreOf p ms).params = p from rfl, hm, Option.some.injEq] at e2
    exact e2.symm
  subst this
  obtain ⟨hm0, hdet, htau⟩ := hp
  refine ⟨d.state.ori.rotate (∑ i, rotorForce (ms' i) (d.state.motVel i)), _, _,
    Quat.rotate_isRotated hq _, rfl, rfl, ?_⟩
  have hF : (Dyn.eulerStep (Model.coreOf p ms') ms' d act dt ext noise).state.force =
      d.state.ori.rotate (∑ i, rotorForce (ms' i) (d.state.motVel i)) + p.gravity +
        (fun i => -p.drag * (d.state.vel i * |d.state.vel i|)) +
        (Dyn.eulerStep (Model.coreOf p ms') ms' d act dt ext noise).model.stochForce + ext := by
    rw [Dyn.es_force, Dyn.stepNoise_eq, Model.thrustVec_coreOf, dragForce_real]
    rfl
  have hM : (Dyn.eulerStep (Model.coreOf p ms') ms' d act dt ext noise).state.torque =
      ∑ i, rotorTorque (ms' i) (d.state.motVel i)
          ((Dyn.eulerStep (Model.coreOf p ms') ms' d act dt ext noise).state.motAcc i) +
        -(√(d.state.angVel ⬝ᵥ d.state.angVel) • p.aero.mulVec d.state.angVel) +
        (Dyn.eulerStep (Model.coreOf p ms') ms' d act dt ext noise).model.stochForce -
        crossProduct d.state.angVel (p.inertia.mulVec d.state.angVel) := by
    rw [Dyn.es_torque, Dyn.stepNoise_eq, Model.motorTorque_coreOf, aeroMoment_real]
    rfl
  constructor
  · exact Dyn.es_pos ..
  · exact Dyn.es_vel ..
  · rw [Dyn.es_acc, show (Model.coreOf p ms').params.mass = p.mass from rfl, smul_smul,
      mul_inv_cancel₀ hm0, one_smul, hF]
  · exact hF
  · rw [Dyn.es_ori]
    exact Quat.quatIntegrate_unit hq.nonzero _ _
  · rw [Dyn.es_ori]
    exact ori_step hq.nonzero _ _
  · exact Dyn.es_angVel ..
  · rw [Dyn.es_angAcc, show (Model.coreOf p ms').params.inertia = p.inertia from rfl, Matrix.mulVec_mulVec,
      Matrix.mul_nonsing_inv _ (isUnit_iff_ne_zero.2 hdet), Matrix.one_mulVec, hM]
  · exact hM
  · intro i
    rw [Dyn.es_motAcc, ← clamp_saturate (e3 i)]
    simp only
    field_simp [htau i]
  · intro i
    rw [← clamp_saturate (e3 i)]
    exact congrFun (Dyn.es_motVel ..) i

/-- With mass one, no drag, no aerodynamic torque and no noise the step is the documented one. -/
theorem C18_documented_partial (d d' : Dyn ℝ n) (p : ModelParams ℝ) (ms : Fin n → Motor ℝ) (act : Vec n ℝ)
    (dt : ℝ) (ext : Vec 3 ℝ) (hr : RunsOn d p ms) (hp : Regular p ms)
    (hq : IsUnitQ d.state.ori) (h0 : 0 < dt) (h1 : dt ≤ 1 / 100)
    (h : d.process act dt ext false = .ok d') (hm : p.mass = 1) (hd : p.drag = 0) (ha : p.aero = 0) :
    ∃ F M, DocForce p ms d.state d'.model.stochForce ext F ∧
      DocTorque p ms d.state d'.state d'.model.stochMoment M ∧
      RigidEuler p ms d.state d'.state act dt F M := by
  have hnoise : d'.model.stochForce = 0 ∧ d'.model.stochMoment = 0 := by
    obtain ⟨c, ms', e1, e2, e3, rfl⟩ := small_step h0 h1 h
    simp [Dyn.eulerStep, Model.disableNoise, flt]
  obtain ⟨T, F, M, hT, hF, hM, he⟩ := C18_euler_partial d d' p ms act dt ext false hr hp hq h0 h1 h
  refine ⟨F, M, ⟨T, 0, hT, ⟨d.state.ori.inverse.rotate d.state.vel, ?_, ?_⟩, ?_⟩, ?_, he⟩
  · have := Quat.rotate_isRotated hq (d.state.ori.inverse.rotate d.state.vel)
    rwa [Quat.rotate_inverse_rotate hq] at this
  · simp only [hd, neg_zero, zero_mul]
    exact isRotated_zero _
  · rw [hF, hd, hm]
    simp only [neg_zero, zero_mul, one_smul]
    rfl
  · unfold DocTorque
    rw [hM, ha, hnoise.1, hnoise.2]
    simp

end

lemma fixture_runsOn [Noise ℝ] : RunsOn Fixture.dyn Fixture.modelParams Fixture.motors :=
  ⟨rfl, Fixture.modelParams, 7, Fixture.dyn.model, [], fixture_mk, rfl, rfl⟩

lemma fixture_regular : Regular Fixture.modelParams Fixture.motors := by
  refine ⟨by norm_num [Fixture.modelParams], ?_, fun i => ?_⟩
  · simp [Fixture.modelParams]
  · rw [(Fixture.motors_speed i).2.2]; norm_num

lemma fixture_unit : IsUnitQ Fixture.dyn.state.ori := by
  simp [IsUnitQ, Fixture.dyn, State.default, Quat.identity, flt]

/-- Hypotheses are met by the fixture at rest, with noise. -/
example [Noise ℝ] : RunsOn Fixture.dyn Fixture.modelParams Fixture.motors ∧
    Regular Fixture.modelParams Fixture.motors ∧ IsUnitQ Fixture.dyn.state.ori ∧
    ∃ d', Fixture.dyn.process (fun _ => 3) (1 / 100) 0 true = .ok d' :=
  ⟨fixture_runsOn, fixture_regular, fixture_unit, _,
    Fixture.process_ok _ rfl _ _ (by norm_num) le_rfl _ _⟩

theorem C18_violated : ¬ C18_claim := by
  intro h
  let N : Noise ℝ := ⟨fun _ _ _ => 0⟩
  have hstep := Fixture.process_ok Fixture.dyn rfl 0 (1 / 100) (by norm_num) le_rfl 0 false
  obtain ⟨F, M, ⟨T, D, hT, ⟨vB, hv, hD⟩, hF⟩, -, he⟩ := h N 4 Fixture.dyn _ Fixture.modelParams
    Fixture.motors 0 (1 / 100) 0 false fixture_runsOn fixture_regular fixture_unit (by norm_num) le_rfl hstep
  have hvB : vB = 0 := by
    have e := hv.symm
    have hid : toH Fixture.dyn.state.ori = 1 := by
      ext <;> simp [Fixture.dyn, State.default, Quat.identity, flt] <;> rfl
    rw [hid] at e
    simp only [one_mul, inv_one, mul_one] at e
    have e1 := congrArg QuaternionAlgebra.imI e
    have e2 := congrArg QuaternionAlgebra.imJ e
    have e3 := congrArg QuaternionAlgebra.imK e
    simp [Fixture.dyn, State.default, flt] at e1 e2 e3
    ext i
    fin_cases i <;> simp_all
  have hD0 : D = 0 := by
    have : (fun i => -Fixture.modelParams.drag * (vB i * |vB i|)) = 0 := by
      rw [hvB]; ext i; simp
    rw [this] at hD
    exact isRotated_unique hD (isRotated_zero _)
  obtain ⟨T', F', M', hT', hF', -, he'⟩ := C18_euler_partial Fixture.dyn _ Fixture.modelParams
    Fixture.motors 0 (1 / 100) 0 false fixture_runsOn fixture_regular fixture_unit (by norm_num) le_rfl hstep
  have h2 := congrFun (he.force.symm.trans he'.force) 2
  rw [hF, hF', isRotated_unique hT hT', hD0] at h2
  simp only [Pi.add_apply] at h2
  simp [Dyn.stepNoise_eq, Fixture.modelParams, Fixture.dyn, State.default, flt] at h2

/-- The drag of the code is not the documented one: for a vehicle yawed by `arctan (4/3)` flying along
its own x axis with speed one the documented drag is `-(3/5, 4/5, 0)`, the code computes
`-(9/25, 16/25, 0)`. -/
theorem C18_drag_frame : ∃ s : State ℝ 4, IsUnitQ s.ori ∧
    IsDocDrag 1 s ![-3 / 5, -4 / 5, 0] ∧ Model.dragForce 1 s.vel = ![-9 / 25, -16 / 25, 0] := by
  have hu : IsUnitQ (⟨2 / √5, 0, 0, 1 / √5⟩ : Quat ℝ) := by
    have : (√5 : ℝ) ^ 2 = 5 := Real.sq_sqrt (by norm_num)
    simp only [IsUnitQ, div_pow, this]; norm_num
  have hr : ∀ a : ℝ, (⟨2 / √5, 0, 0, 1 / √5⟩ : Quat ℝ).rotate ![a, 0, 0] = ![3 / 5 * a, 4 / 5 * a, 0] := by
    intro a
    have h5 : (√5 : ℝ) * √5 = 5 := Real.mul_self_sqrt (by norm_num)
    rw [Quat.rotate_eq]
    ext i
    fin_cases i
    · simp; field_simp; rw [Real.sq_sqrt (by norm_num)]; ring
    · simp; field_simp; rw [Real.sq_sqrt (by norm_num)]; ring
    · simp
  refine ⟨{ (State.default : State ℝ 4) with ori := ⟨2 / √5, 0, 0, 1 / √5⟩, vel := ![3 / 5, 4 / 5, 0] }, hu,
    ⟨![1, 0, 0], ?_, ?_⟩, ?_⟩
  · have := Quat.rotate_isRotated hu ![1, 0, 0]
    rw [hr] at this
    simpa using this
  · have := Quat.rotate_isRotated hu ![-1, 0, 0]
    rw [hr] at this
    convert this using 1
    · ext i; fin_cases i <;> simp
    · ext i; fin_cases i <;> simp <;> norm_num
  · rw [dragForce_real]
    ext i
    fin_cases i <;> simp <;> norm_num [abs_of_pos]

/-- The aerodynamic torque of the code is not the documented one: spinning about z with a unit matrix
the documented torque is zero, the code computes `-1` about z. -/
theorem C18_aero_torque :
    -crossProduct ![0, 0, (1 : ℝ)] ((1 : Mat 3 3 ℝ).mulVec ![0, 0, 1]) = 0 ∧
    Model.aeroMoment (1 : Mat 3 3 ℝ) ![0, 0, 1] = ![0, 0, -1] := by
  constructor
  · ext i; fin_cases i <;> simp
  · rw [aeroMoment_real]; ext i; fin_cases i <;> simp

/-! ## C19 — free fall -/

/-- Full claim: a released body accelerates with the gravity vector whatever its mass. -/
def C19_claim : Prop :=
  ∀ (_ : Noise ℝ) (n : ℕ) (d d' : Dyn ℝ n) (p : ModelParams ℝ) (ms : Fin n → Motor ℝ) (act : Vec n ℝ)
    (dt : ℝ), RunsOn d p ms → 0 < p.mass → IsUnitQ d.state.ori → d.state.motVel = 0 → d.state.vel = 0 →
    0 < dt → dt ≤ 1 / 100 → d.process act dt 0 false = .ok d' → d'.state.acc = p.gravity

/-- What is true: the acceleration is gravity divided by the mass.  Missing: independence of the mass;
the claim holds for mass one only (if there is gravity). -/
theorem C19_free_fall_partial [Noise ℝ] {n : ℕ} (d d' : Dyn ℝ n) (p : ModelParams ℝ)
    (ms : Fin n → Motor ℝ) (act : Vec n ℝ) (dt : ℝ) (hr : RunsOn d p ms) (hm : 0 < p.mass)
    (hw : d.state.motVel = 0) (hv : d.state.vel = 0)
    (h0 : 0 < dt) (h1 : dt ≤ 1 / 100) (h : d.process act dt 0 false = .ok d') :
    p.mass • d'.state.acc = p.gravity ∧
    (p.gravity ≠ 0 → (d'.state.acc = p.gravity ↔ p.mass = 1)) := by
  obtain ⟨hc, hmo⟩ := runsOn_core hr
  obtain ⟨c, ms', e1, e2, e3, rfl⟩ := small_step h0 h1 h
  rw [hc, Option.some.injEq] at e1
  subst e1
  have hF : (Dyn.eulerStep (Model.coreOf p ms) ms' d act dt 0 false).state.force = p.gravity := by
    rw [Dyn.es_force, hw, hv, Model.thrustVec_coreOf, dragForce_real]
    have : (∑ i, rotorForce (ms i) ((0 : Vec n ℝ) i)) = 0 := by
      refine Finset.sum_eq_zero fun i _ => ?_
      ext r
      simp [rotorForce, mulVec_z]
    rw [this, Quat.rotate_zero]
    ext i
    simp [Model.coreOf]
  have ha : (Dyn.eulerStep (Model.coreOf p ms) ms' d act dt 0 false).state.acc = p.mass⁻¹ • p.gravity := by
    rw [Dyn.es_acc, hF]
    rfl
  rw [ha, smul_smul, mul_inv_cancel₀ hm.ne', one_smul]
  refine ⟨rfl, fun hg => ⟨fun h => ?_, fun h => by rw [h, inv_one, one_smul]⟩⟩
  obtain ⟨i, hi⟩ := Function.ne_iff.1 hg
  have h2 := congrFun h i
  simp only [Pi.smul_apply, smul_eq_mul, Pi.zero_apply] at h2 hi
  field_simp at h2
  exact h2.symm

/-- The fixture at rest with mass two is released. -/
example [Noise ℝ] : RunsOn Fixture.dyn Fixture.modelParams Fixture.motors ∧ 0 < Fixture.modelParams.mass ∧
    Fixture.dyn.state.motVel = 0 ∧ Fixture.dyn.state.vel = 0 ∧ Fixture.modelParams.gravity ≠ 0 ∧
    ∃ d', Fixture.dyn.process 0 (1 / 100) 0 false = .ok d' :=
  ⟨fixture_runsOn, by norm_num [Fixture.modelParams], by simp [Fixture.dyn, State.default, flt],
    by simp [Fixture.dyn, State.default, flt], Function.ne_iff.2 ⟨2, by simp [Fixture.modelParams]⟩, _,
    Fixture.process_ok _ rfl _ _ (by norm_num) le_rfl _ _⟩

theorem C19_violated : ¬ C19_claim := by
  intro h
  let N : Noise ℝ := ⟨fun _ _ _ => 0⟩
  have hstep := Fixture.process_ok Fixture.dyn rfl 0 (1 / 100) (by norm_num) le_rfl 0 false
  have hz : Fixture.dyn.state.motVel = 0 ∧ Fixture.dyn.state.vel = 0 := by
    simp [Fixture.dyn, State.default, flt]
  have h1 := h N 4 Fixture.dyn _ Fixture.modelParams Fixture.motors 0 (1 / 100) fixture_runsOn
    (by norm_num [Fixture.modelParams]) fixture_unit hz.1 hz.2 (by norm_num) le_rfl hstep
  have h2 := (C19_free_fall_partial Fixture.dyn _ Fixture.modelParams Fixture.motors 0 (1 / 100)
    fixture_runsOn (by norm_num [Fixture.modelParams]) hz.1 hz.2 (by norm_num) le_rfl hstep).2
  have h3 := (h2 (Function.ne_iff.2 ⟨2, by simp [Fixture.modelParams]⟩)).1 h1
  simp [Fixture.modelParams] at h3

/-! ## C20 — torque noise -/

/-- The torque of a step without noise. -/
noncomputable def quietTorque {n : ℕ} (p : ModelParams ℝ) (ms : Fin n → Motor ℝ) (s s' : State ℝ n) :
    Vec 3 ℝ :=
  ∑ i, rotorTorque (ms i) (s.motVel i) (s'.motAcc i) -
    √(s.angVel ⬝ᵥ s.angVel) • p.aero.mulVec s.angVel - crossProduct s.angVel (p.inertia.mulVec s.angVel)

/-- Full claim: with no force noise the reported torque noise is the disturbance of the torque. -/
def C20_claim : Prop :=
  ∀ (_ : Noise ℝ) (n : ℕ) (d d' : Dyn ℝ n) (p : ModelParams ℝ) (ms : Fin n → Motor ℝ) (act : Vec n ℝ)
    (dt : ℝ) (ext : Vec 3 ℝ) (noise : Bool), RunsOn d p ms → p.forceNoise = 0 → 0 < dt → dt ≤ 1 / 100 →
    d.process act dt ext noise = .ok d' →
    d'.state.torque - quietTorque p ms d.state d'.state = d'.model.stochMoment

/-- What is true: the disturbance of the torque is the *force* noise, so without force noise the
rotation is undisturbed whatever the torque noise.  Missing: any influence of the torque noise. -/
theorem C20_torque_noise_partial [Noise ℝ] {n : ℕ} (d d' : Dyn ℝ n) (p : ModelParams ℝ)
    (ms : Fin n → Motor ℝ) (act : Vec n ℝ) (dt : ℝ) (ext : Vec 3 ℝ) (noise : Bool) (hr : RunsOn d p ms)
    (h0 : 0 < dt) (h1 : dt ≤ 1 / 100) (h : d.process act dt ext noise = .ok d') :
    d'.state.torque - quietTorque p ms d.state d'.state = d'.model.stochForce ∧
    (p.forceNoise = 0 → d'.state.torque = quietTorque p ms d.state d'.state) := by
  obtain ⟨hc, hmo⟩ := runsOn_core hr
  obtain ⟨c, ms', e1, e2, e3, rfl⟩ := small_step h0 h1 h
  rw [hc, Option.some.injEq] at e1
  subst e1
  have key : (Dyn.eulerStep (Model.coreOf p ms) ms' d act dt ext noise).state.torque -
      quietTorque p ms d.state (Dyn.eulerStep (Model.coreOf p ms) ms' d act dt ext noise).state =
      (Dyn.eulerStep (Model.coreOf p ms) ms' d act dt ext noise).model.stochForce := by
    rw [Dyn.es_torque, Dyn.stepNoise_eq, Model.motorTorque_coreOf, aeroMoment_real, quietTorque]
    simp only [Model.coreOf]
    abel
  refine ⟨key, fun hz => ?_⟩
  have : (Dyn.eulerStep (Model.coreOf p ms) ms' d act dt ext noise).model.stochForce = 0 := by
    rw [Dyn.stepNoise_eq]
    cases noise
    · simp
    · ext i
      simp [Dyn.stepNoise, Model.setNoise, flt, not_le.2 h0, Rng.draw3, Model.coreOf, hz]
  rw [this, sub_eq_zero] at key
  exact key

theorem C20_violated : ¬ C20_claim := by
  intro h
  let N : Noise ℝ := ⟨fun _ _ _ => 1⟩
  let p : ModelParams ℝ := { Fixture.modelParams with forceNoise := 0 }
  let m : Model ℝ 4 := { Fixture.dyn.model with core := some (Model.coreOf p Fixture.motors) }
  have hck : Model.checkParams p = true := by
    simp [p, Model.checkParams, Fixture.modelParams, Model.checkMotor, Model.quadX, flt]
  have hmk : Model.mk' p 7 = some m := by
    unfold Model.mk' Model.updateParams
    rw [hck]
    simp only [Bool.not_true, Bool.false_eq_true, if_false,
      show Model.motorFn 4 p.motors = some Fixture.motors from rfl,
      show Model.dirOk p.motors = true from Fixture.dirOk, if_true]
    rfl
  have hr : RunsOn ⟨m, State.default⟩ p Fixture.motors := ⟨rfl, p, 7, m, [], hmk, rfl, rfl⟩
  have hstep : (⟨m, State.default⟩ : Dyn ℝ 4).process 0 (1 / 100) 0 true =
      .ok (Dyn.eulerStep (Model.coreOf p Fixture.motors) Fixture.motors ⟨m, State.default⟩ 0 (1 / 100) 0
        true) := by
    rw [Dyn.process_small _ _ _ _ _ (by simp [flt]) (by simp [Dyn.maxStep, flt])]
    simp [Dyn.singleStep, m, show Model.motorFn 4 (Model.coreOf p Fixture.motors).params.motors =
      some Fixture.motors from rfl, Fixture.clampOk]
  have h1 := h N 4 _ _ p Fixture.motors 0 (1 / 100) 0 true hr rfl (by norm_num) le_rfl hstep
  have h2 := (C20_torque_noise_partial _ _ p Fixture.motors 0 (1 / 100) 0 true hr (by norm_num) le_rfl
    hstep).2 rfl
  rw [h2, sub_self] at h1
  have h3 := congrFun h1 0
  simp [Dyn.eulerStep, Model.setNoise, flt, Rng.draw3, Model.coreOf, p, Fixture.modelParams] at h3
  norm_num at h3
  simp [Noise.draw, N] at h3

/-! ## C24 — drag and aerodynamic torque -/

/-- Drag never feeds energy, opposes every component of the velocity, vanishes exactly for zero velocity
or coefficient, and is odd. -/
theorem C24_drag (k : ℝ) (hk : 0 ≤ k) (v : Vec 3 ℝ) :
    Model.dragForce k v ⬝ᵥ v ≤ 0 ∧ (∀ i, Model.dragForce k v i * v i ≤ 0) ∧
    (Model.dragForce k v ⬝ᵥ v = 0 ↔ k = 0 ∨ v = 0) ∧ (Model.dragForce k v = 0 ↔ k = 0 ∨ v = 0) ∧
    Model.dragForce k (-v) = -Model.dragForce k v := by
  have hi : ∀ i, Model.dragForce k v i * v i = -(k * (v i ^ 2 * |v i|)) := by
    intro i; rw [dragForce_real]; ring
  have hn : ∀ i, Model.dragForce k v i * v i ≤ 0 := by
    intro i; rw [hi]; have : 0 ≤ k * (v i ^ 2 * |v i|) := by positivity
    linarith
  have hz : Model.dragForce k v ⬝ᵥ v = 0 → k = 0 ∨ v = 0 := by
    intro h
    by_contra hc
    push Not at hc
    obtain ⟨j, hj⟩ := Function.ne_iff.1 hc.2
    have hs : ∑ i, -(Model.dragForce k v i * v i) = 0 := by
      rw [Finset.sum_neg_distrib]; simpa [dotProduct] using h
    have := (Finset.sum_eq_zero_iff_of_nonneg (fun i _ => neg_nonneg.2 (hn i))).1 hs j (Finset.mem_univ j)
    rw [hi, neg_neg] at this
    have h0 : v j ≠ 0 := hj
    have : 0 < k * (v j ^ 2 * |v j|) :=
      mul_pos (lt_of_le_of_ne hk (Ne.symm hc.1)) (mul_pos (by positivity) (abs_pos.2 h0))
    linarith
  have hz' : k = 0 ∨ v = 0 → Model.dragForce k v = 0 := by
    rintro (rfl | rfl)
    · rw [dragForce_real]; ext i; simp
    · rw [dragForce_real]; ext i; simp
  refine ⟨?_, hn, ⟨hz, fun h => by rw [hz' h, zero_dotProduct]⟩,
    ⟨fun h => hz (by rw [h, zero_dotProduct]), hz'⟩, ?_⟩
  · exact Finset.sum_nonpos fun i _ => hn i
  · rw [dragForce_real, dragForce_real]; ext i; simp

/-- Full claim about the aerodynamic torque: no accepted model gains energy. -/
def C24_claim : Prop :=
  ∀ (p : ModelParams ℝ) (om : Vec 3 ℝ), Model.checkParams p = true → Model.aeroMoment p.aero om ⬝ᵥ om ≤ 0

/-- What is true: no energy gain if the aerodynamic matrix is positive semidefinite, and strict loss if
it is positive definite and the body rotates.  Missing: the library accepts other matrices. -/
theorem C24_aero_partial (A : Mat 3 3 ℝ) (om : Vec 3 ℝ) :
    (A.PosSemidef → Model.aeroMoment A om ⬝ᵥ om ≤ 0) ∧
    (A.PosDef → om ≠ 0 → Model.aeroMoment A om ⬝ᵥ om < 0) := by
  have e : Model.aeroMoment A om ⬝ᵥ om = -(√(om ⬝ᵥ om) * (om ⬝ᵥ A.mulVec om)) := by
    rw [aeroMoment_real, neg_dotProduct, smul_dotProduct, smul_eq_mul, dotProduct_comm (A.mulVec om)]
  rw [e]
  constructor
  · intro h
    have := h.dotProduct_mulVec_nonneg om
    simp only [star_trivial] at this
    have h2 := mul_nonneg (Real.sqrt_nonneg (om ⬝ᵥ om)) this
    linarith
  · intro h hom
    have := h.dotProduct_mulVec_pos hom
    simp only [star_trivial] at this
    have h2 := mul_pos (Real.sqrt_pos.2 (dot_self_pos om hom)) this
    linarith

theorem C24_violated : ¬ C24_claim := by
  intro h
  have := h _ ![1, 0, 0] C26_aero_negative
  have e : (Matrix.diagonal ![(-1 : ℝ), -1, 1]).mulVec ![1, 0, 0] = ![-1, 0, 0] := by
    ext i; rw [Matrix.mulVec_diagonal]; fin_cases i <;> simp
  rw [aeroMoment_real, e] at this
  norm_num at this

/-- A positive definite matrix and a rotating body exist. -/
example : (1 : Mat 3 3 ℝ).PosDef ∧ (![1, 0, 0] : Vec 3 ℝ) ≠ 0 :=
  ⟨Matrix.PosDef.one, fun h => by simpa using congrFun h 0⟩

end Verif.Props
