import Verif.Spec.Momentum
import Verif.Props.DynRun

/-!
# C113: angular momentum of body and rotors
-/

namespace Verif.Props

open Verif Flt Spec

variable [Noise ℝ] {n : ℕ}

/-- Full claim: in every noise-free step the angular accelerations of body and rotors satisfy the balance of angular
momentum of the whole vehicle, written in the turning body frame: rate of change of the momentum of body and rotors
equals the torque of the air. -/
def C113_claim : Prop :=
  ∀ (n : ℕ) (d d' : Dyn ℝ n) (p : ModelParams ℝ) (ms : Fin n → Motor ℝ) (act : Vec n ℝ) (dt : ℝ) (ext : Vec 3 ℝ),
    RunsOn d p ms → p.inertia.det ≠ 0 → 0 < dt → dt ≤ 1 / 100 → d.process act dt ext false = .ok d' →
    p.inertia.mulVec d'.state.angAcc + ∑ i, rotorMomentum (ms i) (d'.state.motAcc i) +
        crossProduct d.state.angVel
          (p.inertia.mulVec d.state.angVel + ∑ i, rotorMomentum (ms i) (d.state.motVel i)) =
      ∑ i, airTorque (ms i) (d.state.motVel i) + bodyAirTorque p d.state.angVel

omit [Noise ℝ] in
lemma mulVec_axis (R : Mat 3 3 ℝ) (k : ℝ) : R.mulVec ![0, 0, k] = k • R.mulVec ![0, 0, 1] := by
  rw [← Matrix.mulVec_smul]; congr 1; ext i; fin_cases i <;> simp

omit [Noise ℝ] in
lemma rotorTorque_split (m : Motor ℝ) (w wd : ℝ) : rotorTorque m w wd = airTorque m w - rotorMomentum m wd := by
  simp only [rotorTorque, airTorque, rotorMomentum, rotorForce, rotorAxis]
  rw [mulVec_axis m.rot (m.kf * _), mulVec_axis m.rot (m.dir * m.kt * _), mulVec_axis m.rot (m.dir * m.inertia * _),
    neg_smul, sub_neg_eq_add]

lemma balance_core {d d' : Dyn ℝ n} {p : ModelParams ℝ} {ms : Fin n → Motor ℝ} {act : Vec n ℝ} {dt : ℝ}
    {ext : Vec 3 ℝ} (hco : d.model.core = some (Model.coreOf p ms)) (hmo : Model.motorFn n p.motors = some ms)
    (hJ : p.inertia.det ≠ 0) (h0 : 0 < dt) (h1 : dt ≤ 1 / 100) (h : d.process act dt ext false = .ok d') :
    p.inertia.mulVec d'.state.angAcc + ∑ i, rotorMomentum (ms i) (d'.state.motAcc i) +
        crossProduct d.state.angVel (p.inertia.mulVec d.state.angVel) =
      ∑ i, airTorque (ms i) (d.state.motVel i) + bodyAirTorque p d.state.angVel := by
  rw [Dyn.process_small_real _ _ _ _ h0 h1] at h
  obtain ⟨-, rfl⟩ := step_on hco hmo h
  rw [Dyn.es_angAcc, Dyn.es_torque, Dyn.stepNoise_false, Model.motorTorque_coreOf, Matrix.mulVec_mulVec]
  have hc : (Model.coreOf p ms).params = p := rfl
  rw [hc, Matrix.mul_nonsing_inv _ (Ne.isUnit hJ), Matrix.one_mulVec, aeroMoment_real]
  simp only [rotorTorque_split, Finset.sum_sub_distrib, bodyAirTorque]
  abel

/-- **C113, proved part.** The balance holds except for one torque that the code does not have: the gyroscopic torque
of the spinning rotors, `ω × h`.  So it holds exactly when the rotors carry no net momentum across the rotation. -/
theorem C113_balance_partial {d d' : Dyn ℝ n} {p : ModelParams ℝ} {ms : Fin n → Motor ℝ} {act : Vec n ℝ} {dt : ℝ}
    {ext : Vec 3 ℝ} (hr : RunsOn d p ms) (hJ : p.inertia.det ≠ 0) (h0 : 0 < dt) (h1 : dt ≤ 1 / 100)
    (h : d.process act dt ext false = .ok d') :
    p.inertia.mulVec d'.state.angAcc + ∑ i, rotorMomentum (ms i) (d'.state.motAcc i) +
        crossProduct d.state.angVel
          (p.inertia.mulVec d.state.angVel + ∑ i, rotorMomentum (ms i) (d.state.motVel i)) =
      ∑ i, airTorque (ms i) (d.state.motVel i) + bodyAirTorque p d.state.angVel +
        crossProduct d.state.angVel (∑ i, rotorMomentum (ms i) (d.state.motVel i)) := by
  obtain ⟨hco, hmo⟩ := runsOn_core hr
  rw [← balance_core hco hmo hJ h0 h1 h, map_add]
  abel

omit [Noise ℝ] in
/-- The rotors of a hovering quadrotor carry no net momentum. -/
lemma quadX_balanced (kf kt x y lo hi tau J w : ℝ) (ms : Fin 4 → Motor ℝ)
    (h : Model.quadX kf kt x y lo hi tau J = List.ofFn ms) : ∑ i, rotorMomentum (ms i) w = 0 := by
  have e : ∀ i : Fin 4, (Model.quadX kf kt x y lo hi tau J)[i.val]? = some (ms i) := by
    intro i; rw [h]; fin_cases i <;> simp
  have e0 := e 0; have e1 := e 1; have e2 := e 2; have e3 := e 3
  simp [Model.quadX] at e0 e1 e2 e3
  rw [Fin.sum_univ_four, ← e0, ← e1, ← e2, ← e3]
  simp [rotorMomentum, rotorAxis]

/-- The yaw momentum in one step. -/
lemma yaw_step {d d' : Dyn ℝ n} {p : ModelParams ℝ} {ms : Fin n → Motor ℝ} {act : Vec n ℝ} {dt a b : ℝ}
    {ext : Vec 3 ℝ} (hco : d.model.core = some (Model.coreOf p ms)) (hmo : Model.motorFn n p.motors = some ms)
    (hJ : p.inertia = !![a, 0, 0; 0, a, 0; 0, 0, b]) (ha : a ≠ 0) (hb : b ≠ 0)
    (h0 : 0 < dt) (h1 : dt ≤ 1 / 100) (ht : ∀ i, dt ≤ (ms i).tau)
    (hw : ∀ i, (ms i).minSpeed ≤ d.state.motVel i ∧ d.state.motVel i ≤ (ms i).maxSpeed)
    (h : d.process act dt ext false = .ok d') :
    yawMomentum p ms d'.state = yawMomentum p ms d.state + dt * yawAirTorque p ms d.state := by
  have hdet : p.inertia.det ≠ 0 := by
    rw [hJ]; simp [Matrix.det_fin_three]; exact ⟨ha, hb⟩
  have hbal := congrFun (balance_core hco hmo hdet h0 h1 h) 2
  rw [Dyn.process_small_real _ _ _ _ h0 h1] at h
  have hmot : ∀ i, d'.state.motVel i = d.state.motVel i + dt * d'.state.motAcc i := by
    intro i
    obtain ⟨-, -, -, h4⟩ := rotor_step hco hmo h0 i (ht i) (hw i).1 (hw i).2 h
    obtain ⟨hl, rfl⟩ := step_on hco hmo h
    have htau : (ms i).tau ≠ 0 := (h0.trans_le (ht i)).ne'
    rw [Dyn.es_motAcc]
    simp only [clamp_saturate (hl i)]
    have : (Dyn.eulerStep (Model.coreOf p ms) ms d act dt ext false).state.motVel i =
      saturate (ms i).minSpeed (ms i).maxSpeed (act i) + (1 - dt / (ms i).tau) *
        (d.state.motVel i - saturate (ms i).minSpeed (ms i).maxSpeed (act i)) := by linarith
    rw [this]
    field_simp
    ring
  have hang : d'.state.angVel = d.state.angVel + dt • d'.state.angAcc := by
    obtain ⟨-, rfl⟩ := step_on hco hmo h
    exact Dyn.es_angVel _ _ _ _ _ _ _
  have hgyro : crossProduct d.state.angVel (p.inertia.mulVec d.state.angVel) 2 = 0 := by
    rw [hJ]; simp [crossProduct, dotProduct, Fin.sum_univ_three]; ring
  have hH : ∀ i, rotorMomentum (ms i) (d'.state.motVel i) 2 =
      rotorMomentum (ms i) (d.state.motVel i) 2 + dt * rotorMomentum (ms i) (d'.state.motAcc i) 2 := by
    intro i
    rw [hmot i]
    simp only [rotorMomentum, Pi.smul_apply, smul_eq_mul]
    ring
  simp only [Pi.add_apply, hgyro, Finset.sum_apply, add_zero] at hbal
  unfold yawMomentum yawAirTorque
  rw [← hbal, hang, Matrix.mulVec_add, Matrix.mulVec_smul]
  simp only [hH, Finset.sum_add_distrib, ← Finset.mul_sum, Pi.add_apply, Pi.smul_apply, smul_eq_mul]
  ring

/-- **C113, proved part over time.** On an airframe with equal moments of inertia about its horizontal axes, the angular
momentum of body and rotors about the vertical body axis changes, over any sequence of steps with any commands, only by
the torque of the air; if all rotors point upwards and meet no resistance it is conserved: the body turns against the
rotors it spins up. -/
theorem C113_yaw_partial {d : ℕ → Dyn ℝ n} {p : ModelParams ℝ} {ms : Fin n → Motor ℝ} {dt a b : ℝ}
    (hr : RunsOn (d 0) p ms) (hJ : p.inertia = !![a, 0, 0; 0, a, 0; 0, 0, b]) (ha : a ≠ 0) (hb : b ≠ 0)
    (h0 : 0 < dt) (h1 : dt ≤ 1 / 100) (ht : ∀ i, dt ≤ (ms i).tau)
    (hw : ∀ i, (ms i).minSpeed ≤ (d 0).state.motVel i ∧ (d 0).state.motVel i ≤ (ms i).maxSpeed)
    (h : ∀ k, ∃ act ext, (d k).process act dt ext false = .ok (d (k + 1))) :
    (∀ k, yawMomentum p ms (d k).state =
      yawMomentum p ms (d 0).state + dt * ∑ j ∈ Finset.range k, yawAirTorque p ms (d j).state) ∧
    ((∀ i, rotorAxis (ms i) = ![0, 0, 1] ∧ (ms i).kt = 0) → p.aero = 0 → ∀ k,
      yawMomentum p ms (d k).state = yawMomentum p ms (d 0).state) := by
  obtain ⟨hco0, hmo⟩ := runsOn_core hr
  have inv : ∀ k, (d k).model.core = some (Model.coreOf p ms) ∧
      ∀ i, (ms i).minSpeed ≤ (d k).state.motVel i ∧ (d k).state.motVel i ≤ (ms i).maxSpeed := by
    intro k
    induction k with
    | zero => exact ⟨hco0, hw⟩
    | succ k ih =>
      obtain ⟨act, ext, hk⟩ := h k
      refine ⟨(Dyn.process_core hk).trans ih.1, fun i => ?_⟩
      rw [Dyn.process_small_real _ _ _ _ h0 h1] at hk
      obtain ⟨-, h2, h3, -⟩ := rotor_step ih.1 hmo h0 i (ht i) (ih.2 i).1 (ih.2 i).2 hk
      exact ⟨h2, h3⟩
  have key : ∀ k, yawMomentum p ms (d k).state =
      yawMomentum p ms (d 0).state + dt * ∑ j ∈ Finset.range k, yawAirTorque p ms (d j).state := by
    intro k
    induction k with
    | zero => simp
    | succ k ih =>
      obtain ⟨act, ext, hk⟩ := h k
      rw [yaw_step (inv k).1 hmo hJ ha hb h0 h1 ht (inv k).2 hk, ih, Finset.sum_range_succ]
      ring
  refine ⟨key, fun hz hA k => ?_⟩
  rw [key k]
  have : ∀ s : State ℝ n, yawAirTorque p ms s = 0 := by
    intro s
    simp [yawAirTorque, airTorque, bodyAirTorque, hz, hA, crossProduct]
  simp [this]

/-! ### The gyroscopic torque that is missing -/

/-- The fixture vehicle with one rotor at speed 1, rolling at rate 1. -/
noncomputable def gyroState : State ℝ 4 :=
  { (State.default : State ℝ 4) with motVel := ![1, 0, 0, 0], angVel := ![1, 0, 0] }

theorem C113_violated : ¬ C113_claim := by
  intro h
  let d : Dyn ℝ 4 := { Fixture.dyn with state := gyroState }
  have hr : RunsOn d Fixture.modelParams Fixture.motors :=
    ⟨rfl, Fixture.modelParams, 7, Fixture.dyn.model, [], fixture_mk, rfl, rfl⟩
  have hs := Fixture.process_ok d rfl 0 (1 / 100) (by norm_num) le_rfl 0 false
  have hJ : Fixture.modelParams.inertia.det ≠ 0 := by simp [Fixture.modelParams]
  have h1 := h 4 d _ _ _ _ _ _ hr hJ (by norm_num) le_rfl hs
  have h2 := C113_balance_partial hr hJ (by norm_num) le_rfl hs
  rw [h1] at h2
  have h3 : crossProduct d.state.angVel (∑ i, rotorMomentum (Fixture.motors i) (d.state.motVel i)) = 0 := by
    simpa using h2.symm
  have h4 := congrFun h3 1
  simp [d, gyroState, Fin.sum_univ_four, rotorMomentum, rotorAxis, Fixture.motors, Fixture.modelParams, Model.quadX,
    crossProduct, flt] at h4

/-- Non-vacuity of the balance: balanced rotors, so that the full balance holds although the vehicle tumbles. -/
example : ∃ (d d' : Dyn ℝ 4), RunsOn d Fixture.modelParams Fixture.motors ∧ Fixture.modelParams.inertia.det ≠ 0 ∧
    d.process (fun _ => 7) (1 / 100) 0 false = .ok d' ∧ d.state.angVel = ![1, 2, 3] ∧
    ∑ i, rotorMomentum (Fixture.motors i) (d.state.motVel i) = 0 := by
  let d : Dyn ℝ 4 := { Fixture.dyn with
    state := { (State.default : State ℝ 4) with motVel := fun _ => 5, angVel := ![1, 2, 3] } }
  exact ⟨d, _, ⟨rfl, Fixture.modelParams, 7, Fixture.dyn.model, [], fixture_mk, rfl, rfl⟩,
    by simp [Fixture.modelParams], Fixture.process_ok d rfl _ _ (by norm_num) le_rfl _ _, rfl,
    quadX_balanced _ _ _ _ _ _ _ _ _ _ rfl⟩

/-- Non-vacuity over time: the fixture vehicle spins up two of its rotors. -/
example : ∃ d : ℕ → Dyn ℝ 4, RunsOn (d 0) Fixture.modelParams Fixture.motors ∧
    Fixture.modelParams.inertia = !![1, 0, 0; 0, 1, 0; 0, 0, 1] ∧ (∀ i, 1 / 100 ≤ (Fixture.motors i).tau) ∧
    (∀ i, (Fixture.motors i).minSpeed ≤ (d 0).state.motVel i ∧
      (d 0).state.motVel i ≤ (Fixture.motors i).maxSpeed) ∧
    (∀ k, ∃ act ext, (d k).process act (1 / 100) ext false = .ok (d (k + 1))) ∧
    (d 1).state.motVel 0 ≠ (d 0).state.motVel 0 := by
  let f : Dyn ℝ 4 → Dyn ℝ 4 := fun e =>
    Dyn.eulerStep Fixture.core Fixture.motors e ![5, 0, 5, 0] (1 / 100) 0 false
  have hcore : ∀ k, (f^[k] Fixture.dyn).model.core = some Fixture.core := by
    intro k
    induction k with
    | zero => rfl
    | succ k ih => rw [Function.iterate_succ_apply']; exact (Dyn.eulerStep_core ..).trans ih
  refine ⟨fun k => f^[k] Fixture.dyn, fixture_runsOn, ?_, ?_, ?_, fun k => ⟨![5, 0, 5, 0], 0, ?_⟩, ?_⟩
  · ext i j; fin_cases i <;> fin_cases j <;> simp [Fixture.modelParams]
  · intro i; rw [(Fixture.motors_speed i).2.2]; norm_num
  · intro i
    rw [(Fixture.motors_speed i).1, (Fixture.motors_speed i).2.1]
    simp [Fixture.dyn, State.default, flt]
  · simp only [Function.iterate_succ_apply']
    exact Fixture.process_ok _ (hcore k) _ _ (by norm_num) le_rfl _ _
  · show (f Fixture.dyn).state.motVel 0 ≠ Fixture.dyn.state.motVel 0
    simp only [f, Dyn.es_motVel, Dyn.es_motAcc, (Fixture.motors_speed 0).1, (Fixture.motors_speed 0).2.1,
      (Fixture.motors_speed 0).2.2, clampVal_real]
    simp [Fixture.dyn, State.default, flt]
    norm_num

end Verif.Props
