import Verif.Props.FreeMotion

/-!
# C154: an external force opposing the weight
-/

namespace Verif.Props

open Verif Flt Spec

section
variable [Noise ℝ] {n : ℕ}

/-- `d k` is the vehicle after `k` updates: at rest with stopped rotors and without noise at first, and under an
external force opposing its weight, mass times gravity. -/
structure Carried (p : ModelParams ℝ) (ms : Fin n → Motor ℝ) (dt : ℕ → ℝ) (d : ℕ → Dyn ℝ n) : Prop where
  runsOn : RunsOn (d 0) p ms
  limits : ∀ i, (ms i).minSpeed ≤ 0 ∧ 0 ≤ (ms i).maxSpeed
  stopped : (d 0).state.motVel = 0
  vel : (d 0).state.vel = 0
  angVel : (d 0).state.angVel = 0
  mass : 0 < p.mass
  step : ∀ k, (d k).process 0 (dt k) (-(p.mass • p.gravity)) false = .ok (d (k + 1))
  pos : ∀ k, 0 < dt k
  small : ∀ k, dt k ≤ 1 / 100

/-- One step from rest with stopped rotors. -/
lemma carried_step {d d' : Dyn ℝ n} {p : ModelParams ℝ} {ms : Fin n → Motor ℝ} {dt : ℝ} {ext : Vec 3 ℝ}
    (hco : d.model.core = some (Model.coreOf p ms)) (hmo : Model.motorFn n p.motors = some ms)
    (hl : ∀ i, (ms i).minSpeed ≤ 0 ∧ 0 ≤ (ms i).maxSpeed) (hw : d.state.motVel = 0)
    (h0 : 0 < dt) (h1 : dt ≤ 1 / 100) (h : d.process 0 dt ext false = .ok d') :
    d'.model.core = d.model.core ∧ d'.state.motVel = 0 ∧ d'.state.pos = d.state.pos + dt • d.state.vel ∧
    (d.state.vel = 0 → d'.state.vel = dt • p.mass⁻¹ • (p.gravity + ext)) ∧
    (d.state.angVel = 0 → d'.state.angVel = 0) := by
  rw [Dyn.process_small_real _ _ _ _ h0 h1] at h
  obtain ⟨-, rfl⟩ := step_on hco hmo h
  have hz : ∀ i, clampVal (0 : ℝ) (ms i).minSpeed (ms i).maxSpeed = 0 := by
    intro i
    rw [clampVal_real, if_neg (not_lt.2 (hl i).1), if_neg (not_lt.2 (hl i).2)]
  have hma : (Dyn.eulerStep (Model.coreOf p ms) ms d 0 dt ext false).state.motAcc = 0 := by
    rw [Dyn.es_motAcc, hw]
    funext i
    simp [hz]
  refine ⟨Dyn.eulerStep_core .., ?_, Dyn.es_pos .., fun hv => ?_, fun ha => ?_⟩
  · rw [Dyn.es_motVel, hma, hw]
    funext i
    simp [hz]
  · have hF : (Dyn.eulerStep (Model.coreOf p ms) ms d 0 dt ext false).state.force = p.gravity + ext := by
      rw [Dyn.es_force, hw, Dyn.stepNoise_false, Model.thrustVec_coreOf, dragForce_real]
      have : (∑ i, rotorForce (ms i) ((0 : Vec n ℝ) i)) = 0 := by
        refine Finset.sum_eq_zero fun i _ => ?_
        ext r
        simp [rotorForce, mulVec_z]
      rw [this, Quat.rotate_zero, hv]
      ext i
      simp [Model.coreOf]
    rw [Dyn.es_vel, Dyn.es_acc, hF, hv, zero_add]; rfl
  · have hT : (Dyn.eulerStep (Model.coreOf p ms) ms d 0 dt ext false).state.torque = 0 := by
      rw [Dyn.es_torque, hma, hw, Dyn.stepNoise_false, Model.motorTorque_coreOf, aeroMoment_real]
      have h0 : (∑ i, rotorTorque (ms i) ((0 : Vec n ℝ) i) ((0 : Vec n ℝ) i)) = 0 := by
        refine Finset.sum_eq_zero fun i _ => ?_
        have hz3 : ∀ (A : Mat 3 3 ℝ), A.mulVec ![0, 0, 0] = 0 := fun A => by
          rw [mulVec_z]; ext r; simp
        simp [rotorTorque, rotorForce, hz3]
      rw [h0, ha]
      simp
    rw [Dyn.es_angVel, Dyn.es_angAcc, hT, ha]; simp

end

/-- Full claim (the repository's test `process_euler_explicit_floor` checks it for one vehicle of mass 1): the
vehicle stays where it is. -/
def C154_claim : Prop :=
  ∀ (_ : Noise ℝ) (n : ℕ) (p : ModelParams ℝ) (ms : Fin n → Motor ℝ) (dt : ℕ → ℝ) (d : ℕ → Dyn ℝ n),
    Carried p ms dt d → ∀ k, (d k).state.pos = (d 0).state.pos

/-- What is true: the vehicle stays where it is exactly if its mass is 1 or there is no gravity; then it does not
turn or get faster either. Otherwise it moves from the second update on. Missing: other masses. -/
theorem C154_carried_partial [Noise ℝ] {n : ℕ} (p : ModelParams ℝ) (ms : Fin n → Motor ℝ) (dt : ℕ → ℝ)
    (d : ℕ → Dyn ℝ n) (h : Carried p ms dt d) :
    ((∀ k, (d k).state.pos = (d 0).state.pos) ↔ p.mass = 1 ∨ p.gravity = 0) ∧
    (p.mass = 1 ∨ p.gravity = 0 → ∀ k, (d k).state.vel = 0 ∧ (d k).state.angVel = 0) ∧
    (d 1).state.vel = (dt 0 * (p.mass⁻¹ - 1)) • p.gravity ∧
    (d 2).state.pos = (d 0).state.pos + (dt 1 * dt 0 * (p.mass⁻¹ - 1)) • p.gravity := by
  obtain ⟨hco, hmo⟩ := runsOn_core h.runsOn
  have hm := h.mass.ne'
  have inv : ∀ k, (d k).model.core = some (Model.coreOf p ms) ∧ (d k).state.motVel = 0 := by
    intro k
    induction k with
    | zero => exact ⟨hco, h.stopped⟩
    | succ k ih =>
      obtain ⟨a, b, -⟩ := carried_step ih.1 hmo h.limits ih.2 (h.pos k) (h.small k) (h.step k)
      exact ⟨a.trans ih.1, b⟩
  have nxt := fun k => carried_step (inv k).1 hmo h.limits (inv k).2 (h.pos k) (h.small k) (h.step k)
  have hacc : ∀ t : ℝ, t • p.mass⁻¹ • (p.gravity + -(p.mass • p.gravity)) = (t * (p.mass⁻¹ - 1)) • p.gravity := by
    intro t
    have e : t * (p.mass⁻¹ - 1) = t * p.mass⁻¹ - t * (p.mass⁻¹ * p.mass) := by
      rw [inv_mul_cancel₀ hm]; ring
    rw [e]; module
  have v1 : (d 1).state.vel = (dt 0 * (p.mass⁻¹ - 1)) • p.gravity := by
    rw [(nxt 0).2.2.2.1 h.vel, hacc]
  have p2 : (d 2).state.pos = (d 0).state.pos + (dt 1 * dt 0 * (p.mass⁻¹ - 1)) • p.gravity := by
    rw [(nxt 1).2.2.1, v1, (nxt 0).2.2.1, h.vel]; module
  have still : p.mass = 1 ∨ p.gravity = 0 → ∀ k, (d k).state.vel = 0 ∧ (d k).state.angVel = 0 ∧
      (d k).state.pos = (d 0).state.pos := by
    intro hc k
    have hc' : ∀ t : ℝ, (t * (p.mass⁻¹ - 1)) • p.gravity = 0 := by
      intro t
      rcases hc with hc | hc
      · rw [hc]; simp
      · rw [hc, smul_zero]
    induction k with
    | zero => exact ⟨h.vel, h.angVel, rfl⟩
    | succ k ih =>
      obtain ⟨-, -, e1, e2, e3⟩ := nxt k
      exact ⟨by rw [e2 ih.1, hacc, hc'], e3 ih.2.1, by rw [e1, ih.1, smul_zero, add_zero, ih.2.2]⟩
  refine ⟨⟨fun hp => ?_, fun hc k => (still hc k).2.2⟩, fun hc k => ⟨(still hc k).1, (still hc k).2.1⟩, v1, p2⟩
  have h2 := hp 2
  rw [p2, add_eq_left, smul_eq_zero] at h2
  rcases h2 with h2 | h2
  · left
    have := (mul_eq_zero.1 h2).resolve_left (mul_pos (h.pos 1) (h.pos 0)).ne'
    have : p.mass⁻¹ = 1 := by linarith
    exact inv_eq_one.1 this
  · exact .inr h2

/-- The fixture's rotors on another body, carried for `k` steps of 10 ms. -/
noncomputable def carriedRun [Noise ℝ] (p : ModelParams ℝ) : ℕ → Dyn ℝ 4
  | 0 => builtFrom p Fixture.motors 7 State.default
  | k + 1 => Dyn.eulerStep (Model.coreOf p Fixture.motors) Fixture.motors (carriedRun p k) 0 (1 / 100)
      (-(p.mass • p.gravity)) false

lemma carriedRun_carried [Noise ℝ] {p : ModelParams ℝ} (hm : p.motors = Fixture.modelParams.motors)
    (hc : Model.checkParams p = true) (h0 : 0 < p.mass) :
    Carried p Fixture.motors (fun _ => 1 / 100) (carriedRun p) where
  runsOn := runsOn_new p Fixture.motors 7 _ (by rw [hm]; rfl) hc (by rw [hm]; exact Fixture.dirOk)
  limits i := by rw [(Fixture.motors_speed i).1, (Fixture.motors_speed i).2.1]; norm_num
  stopped := by simp [carriedRun, builtFrom, State.default, flt]
  vel := by simp [carriedRun, builtFrom, State.default, flt]
  angVel := by simp [carriedRun, builtFrom, State.default, flt]
  mass := h0
  step k := by
    have hco : ∀ k, (carriedRun p k).model.core = some (Model.coreOf p Fixture.motors) := by
      intro k
      induction k with
      | zero => rfl
      | succ k ih => exact (Dyn.eulerStep_core ..).trans ih
    rw [Dyn.process_small_real _ _ _ _ (by norm_num) le_rfl]
    simp only [Dyn.singleStep, hco]
    rw [show (Model.coreOf p Fixture.motors).params.motors = Fixture.modelParams.motors from hm,
      Fixture.motorFn_eq]
    simp [Fixture.clampOk, carriedRun]
  pos _ := by norm_num
  small _ := le_rfl

lemma tumbler_carried [Noise ℝ] : Carried tumbler Fixture.motors (fun _ => 1 / 100) (carriedRun tumbler) := by
  refine carriedRun_carried rfl ?_ (by norm_num [tumbler, slick, Fixture.modelParams])
  simp [Model.checkParams, tumbler, slick, Fixture.modelParams, Model.checkMotor, Model.quadX, flt,
    Fin.prod_univ_three]

/-- Non-vacuity: a body of mass 2 under gravity 10 downwards. -/
example [Noise ℝ] : Carried tumbler Fixture.motors (fun _ => 1 / 100) (carriedRun tumbler) ∧ tumbler.mass = 2 :=
  ⟨tumbler_carried, rfl⟩

/-- That body rises. -/
theorem C154_violated : ¬ C154_claim := by
  intro h
  let N : Noise ℝ := ⟨fun _ _ _ => 0⟩
  have h1 := (C154_carried_partial _ _ _ _ tumbler_carried).1.1 (h N 4 _ _ _ _ tumbler_carried)
  have hg : tumbler.gravity 2 = -10 := rfl
  have hm : tumbler.mass = 2 := rfl
  rcases h1 with h1 | h1
  · rw [hm] at h1; norm_num at h1
  · have := congrFun h1 2
    rw [hg] at this; norm_num at this

end Verif.Props
