import Verif.Props.DynRun
import Verif.Props.Alloc
import Mathlib.Analysis.Matrix.PosDef

/-!
# C85, C86: motion without forces and torques other than gravity
-/

namespace Verif.Props

open Verif Flt Spec

section
variable [Noise ℝ] {n : ℕ}

/-- `d k` is the vehicle after `k` updates: rotors stopped and not commanded, no noise, no external force,
nothing slows it down. -/
structure FreeMotion (p : ModelParams ℝ) (ms : Fin n → Motor ℝ) (dt : ℕ → ℝ) (d : ℕ → Dyn ℝ n) : Prop where
  runsOn : RunsOn (d 0) p ms
  limits : ∀ i, (ms i).minSpeed ≤ 0 ∧ 0 ≤ (ms i).maxSpeed
  rest : (d 0).state.motVel = 0
  drag : p.drag = 0
  aero : p.aero = 0
  mass : 0 < p.mass
  step : ∀ k, (d k).process 0 (dt k) 0 false = .ok (d (k + 1))
  pos : ∀ k, 0 < dt k
  small : ∀ k, dt k ≤ 1 / 100

lemma free_step {d d' : Dyn ℝ n} {p : ModelParams ℝ} {ms : Fin n → Motor ℝ} {dt : ℝ}
    (hco : d.model.core = some (Model.coreOf p ms)) (hmo : Model.motorFn n p.motors = some ms)
    (hl : ∀ i, (ms i).minSpeed ≤ 0 ∧ 0 ≤ (ms i).maxSpeed) (hw : d.state.motVel = 0)
    (hd : p.drag = 0) (ha : p.aero = 0)
    (h0 : 0 < dt) (h1 : dt ≤ 1 / 100) (h : d.process 0 dt 0 false = .ok d') :
    d'.model.core = d.model.core ∧ d'.state.motVel = 0 ∧ d'.state.pos = d.state.pos + dt • d.state.vel ∧
    d'.state.acc = p.mass⁻¹ • p.gravity ∧ d'.state.vel = d.state.vel + dt • d'.state.acc ∧
    d'.state.angVel = d.state.angVel -
      dt • p.inertia⁻¹.mulVec (crossProduct d.state.angVel (p.inertia.mulVec d.state.angVel)) := by
  rw [Dyn.process_small_real _ _ _ _ h0 h1] at h
  obtain ⟨-, rfl⟩ := step_on hco hmo h
  have hz : ∀ i, clampVal (0 : ℝ) (ms i).minSpeed (ms i).maxSpeed = 0 := by
    intro i
    rw [clampVal_real, if_neg (not_lt.2 (hl i).1), if_neg (not_lt.2 (hl i).2)]
  have hma : (Dyn.eulerStep (Model.coreOf p ms) ms d 0 dt 0 false).state.motAcc = 0 := by
    rw [Dyn.es_motAcc, hw]
    funext i
    simp [hz]
  have hF : (Dyn.eulerStep (Model.coreOf p ms) ms d 0 dt 0 false).state.force = p.gravity := by
    rw [Dyn.es_force, hw, Dyn.stepNoise_false, Model.thrustVec_coreOf, dragForce_real]
    have : (∑ i, rotorForce (ms i) ((0 : Vec n ℝ) i)) = 0 := by
      refine Finset.sum_eq_zero fun i _ => ?_
      ext r
      simp [rotorForce, mulVec_z]
    rw [this, Quat.rotate_zero]
    ext i
    simp [Model.coreOf, hd]
  have hT : (Dyn.eulerStep (Model.coreOf p ms) ms d 0 dt 0 false).state.torque =
      -crossProduct d.state.angVel (p.inertia.mulVec d.state.angVel) := by
    rw [Dyn.es_torque, hma, hw, Dyn.stepNoise_false, Model.motorTorque_coreOf, aeroMoment_real]
    have h0 : (∑ i, rotorTorque (ms i) ((0 : Vec n ℝ) i) ((0 : Vec n ℝ) i)) = 0 := by
      refine Finset.sum_eq_zero fun i _ => ?_
      have hz3 : ∀ (A : Mat 3 3 ℝ), A.mulVec ![0, 0, 0] = 0 := fun A => by
        rw [mulVec_z]; ext r; simp
      simp [rotorTorque, rotorForce, hz3]
    rw [h0, show (Model.coreOf p ms).params = p from rfl, ha]
    simp
  refine ⟨Dyn.eulerStep_core .., ?_, Dyn.es_pos .., ?_, Dyn.es_vel .., ?_⟩
  · rw [Dyn.es_motVel, hma, hw]
    funext i
    simp [hz]
  · rw [Dyn.es_acc, hF]; rfl
  · rw [Dyn.es_angVel, Dyn.es_angAcc, hT, Matrix.mulVec_neg, smul_neg, sub_eq_add_neg]; rfl

lemma free_inv {p : ModelParams ℝ} {ms : Fin n → Motor ℝ} {dt : ℕ → ℝ} {d : ℕ → Dyn ℝ n}
    (h : FreeMotion p ms dt d) (k : ℕ) :
    (d k).model.core = some (Model.coreOf p ms) ∧ (d k).state.motVel = 0 := by
  obtain ⟨hco, hmo⟩ := runsOn_core h.runsOn
  induction k with
  | zero => exact ⟨hco, h.rest⟩
  | succ k ih =>
    obtain ⟨a, b, -⟩ := free_step ih.1 hmo h.limits ih.2 h.drag h.aero (h.pos k) (h.small k) (h.step k)
    exact ⟨a.trans ih.1, b⟩

lemma free_next {p : ModelParams ℝ} {ms : Fin n → Motor ℝ} {dt : ℕ → ℝ} {d : ℕ → Dyn ℝ n}
    (h : FreeMotion p ms dt d) (k : ℕ) :
    (d (k + 1)).state.pos = (d k).state.pos + dt k • (d k).state.vel ∧
    (d (k + 1)).state.acc = p.mass⁻¹ • p.gravity ∧
    (d (k + 1)).state.vel = (d k).state.vel + dt k • (d (k + 1)).state.acc ∧
    (d (k + 1)).state.angVel = (d k).state.angVel -
      dt k • p.inertia⁻¹.mulVec (crossProduct (d k).state.angVel (p.inertia.mulVec (d k).state.angVel)) := by
  obtain ⟨a, b⟩ := free_inv h k
  exact (free_step a (runsOn_core h.runsOn).2 h.limits b h.drag h.aero (h.pos k) (h.small k) (h.step k)).2.2

end

/-- The fixture's rotors on another body, left alone for `k` steps of 10 ms. -/
noncomputable def leftAlone [Noise ℝ] (p : ModelParams ℝ) (s : State ℝ 4) : ℕ → Dyn ℝ 4
  | 0 => builtFrom p Fixture.motors 7 s
  | k + 1 => Dyn.eulerStep (Model.coreOf p Fixture.motors) Fixture.motors (leftAlone p s k) 0 (1 / 100) 0 false

lemma leftAlone_free [Noise ℝ] {p : ModelParams ℝ} {s : State ℝ 4} (hm : p.motors = Fixture.modelParams.motors)
    (hc : Model.checkParams p = true) (hs : s.motVel = 0) (hd : p.drag = 0) (ha : p.aero = 0)
    (h0 : 0 < p.mass) : FreeMotion p Fixture.motors (fun _ => 1 / 100) (leftAlone p s) where
  runsOn := runsOn_new p Fixture.motors 7 s (by rw [hm]; rfl) hc (by rw [hm]; exact Fixture.dirOk)
  limits i := by rw [(Fixture.motors_speed i).1, (Fixture.motors_speed i).2.1]; norm_num
  rest := hs
  drag := hd
  aero := ha
  mass := h0
  step k := by
    have hco : ∀ k, (leftAlone p s k).model.core = some (Model.coreOf p Fixture.motors) := by
      intro k
      induction k with
      | zero => rfl
      | succ k ih => exact (Dyn.eulerStep_core ..).trans ih
    rw [Dyn.process_small_real _ _ _ _ (by norm_num) le_rfl]
    simp only [Dyn.singleStep, hco]
    rw [show (Model.coreOf p Fixture.motors).params.motors = Fixture.modelParams.motors from hm,
      Fixture.motorFn_eq]
    simp [Fixture.clampOk, leftAlone]
  pos _ := by norm_num
  small _ := le_rfl

/-! ## C85 — rotation -/

/-- Kinetic energy of the rotation. -/
noncomputable def spinEnergy (J : Mat 3 3 ℝ) (om : Vec 3 ℝ) : ℝ := (om ⬝ᵥ J.mulVec om) / 2

/-- Full claim: without torques the energy of the rotation is conserved. -/
def C85_claim : Prop :=
  ∀ (_ : Noise ℝ) (n : ℕ) (p : ModelParams ℝ) (ms : Fin n → Motor ℝ) (dt : ℕ → ℝ) (d : ℕ → Dyn ℝ n),
    FreeMotion p ms dt d → p.inertia.PosDef → ∀ k,
      spinEnergy p.inertia (d k).state.angVel = spinEnergy p.inertia (d 0).state.angVel

/-- What is true: the energy never decreases; each step adds exactly `dt²/2 · a·J a` where `a` is the angular
acceleration `J⁻¹ (ω × J ω)`; it is conserved by a step exactly if the vehicle rotates about a principal
axis.  Missing: conservation (the explicit Euler method). -/
theorem C85_energy_partial [Noise ℝ] {n : ℕ} (p : ModelParams ℝ) (ms : Fin n → Motor ℝ) (dt : ℕ → ℝ)
    (d : ℕ → Dyn ℝ n) (h : FreeMotion p ms dt d) (hJ : p.inertia.PosDef) (k : ℕ) :
    let om := (d k).state.angVel
    let tau := crossProduct om (p.inertia.mulVec om)
    spinEnergy p.inertia (d (k + 1)).state.angVel =
      spinEnergy p.inertia om + dt k ^ 2 / 2 * (p.inertia⁻¹.mulVec tau ⬝ᵥ tau) ∧
    spinEnergy p.inertia (d 0).state.angVel ≤ spinEnergy p.inertia om ∧
    (spinEnergy p.inertia (d (k + 1)).state.angVel = spinEnergy p.inertia om ↔ tau = 0) := by
  have hdet : IsUnit p.inertia.det := hJ.det_pos.ne'.isUnit
  have hsym : p.inertia.transpose = p.inertia := by
    have := hJ.isHermitian
    simpa [Matrix.IsHermitian] using this
  have key : ∀ k, spinEnergy p.inertia (d (k + 1)).state.angVel =
      spinEnergy p.inertia (d k).state.angVel + dt k ^ 2 / 2 *
        (p.inertia⁻¹.mulVec (crossProduct (d k).state.angVel (p.inertia.mulVec (d k).state.angVel)) ⬝ᵥ
          crossProduct (d k).state.angVel (p.inertia.mulVec (d k).state.angVel)) := by
    intro k
    rw [(free_next h k).2.2.2]
    set om := (d k).state.angVel
    set tau := crossProduct om (p.inertia.mulVec om) with htau
    set a := p.inertia⁻¹.mulVec tau with ha
    have hJa : p.inertia.mulVec a = tau := by
      rw [ha, Matrix.mulVec_mulVec, Matrix.mul_nonsing_inv _ hdet, Matrix.one_mulVec]
    have horth : om ⬝ᵥ tau = 0 := by rw [htau]; exact dot_self_cross _ _
    have hswap : a ⬝ᵥ p.inertia.mulVec om = om ⬝ᵥ tau := by
      rw [← hJa, Matrix.dotProduct_mulVec, ← Matrix.mulVec_transpose, hsym, dotProduct_comm]
    simp only [spinEnergy, Matrix.mulVec_sub, Matrix.mulVec_smul, hJa, sub_dotProduct, dotProduct_sub,
      smul_dotProduct, dotProduct_smul, hswap, horth, smul_eq_mul]
    ring
  have hpos : ∀ tau : Vec 3 ℝ, 0 ≤ p.inertia⁻¹.mulVec tau ⬝ᵥ tau ∧
      (p.inertia⁻¹.mulVec tau ⬝ᵥ tau = 0 ↔ tau = 0) := by
    intro tau
    have hi := hJ.inv
    constructor
    · have := hi.posSemidef.dotProduct_mulVec_nonneg tau
      rw [dotProduct_comm]
      simpa using this
    · constructor
      · intro h0
        by_contra hne
        have := hi.dotProduct_mulVec_pos hne
        rw [dotProduct_comm] at h0
        simp at this
        linarith
      · rintro rfl; simp
  have hmono : ∀ k, spinEnergy p.inertia (d 0).state.angVel ≤ spinEnergy p.inertia (d k).state.angVel := by
    intro k
    induction k with
    | zero => exact le_rfl
    | succ k ih =>
      rw [key k]
      have := mul_nonneg (show 0 ≤ dt k ^ 2 / 2 by positivity) (hpos (crossProduct (d k).state.angVel
        (p.inertia.mulVec (d k).state.angVel))).1
      linarith
  refine ⟨key k, hmono k, ?_⟩
  rw [key k]
  have hd : dt k ^ 2 / 2 ≠ 0 := by
    have := h.pos k
    positivity
  rw [add_eq_left, mul_eq_zero, or_iff_right hd]
  exact (hpos _).2

/-- A body with three different moments of inertia. -/
noncomputable def tumbler : ModelParams ℝ := { slick with inertia := Matrix.diagonal ![1, 2, 3] }

/-- ... tumbling. -/
noncomputable def tumbling : State ℝ 4 := { State.default with angVel := ![1, 1, 1] }

lemma tumbler_free [Noise ℝ] : FreeMotion tumbler Fixture.motors (fun _ => 1 / 100) (leftAlone tumbler tumbling) := by
  refine leftAlone_free rfl ?_ (by simp [tumbling, State.default, flt]) rfl rfl
    (by norm_num [tumbler, slick, Fixture.modelParams])
  simp [Model.checkParams, tumbler, slick, Fixture.modelParams, Model.checkMotor, Model.quadX, flt,
    Fin.prod_univ_three]

lemma tumbler_inertia : tumbler.inertia.PosDef := by
  refine Matrix.PosDef.diagonal fun i => ?_
  fin_cases i <;> simp

/-- Non-vacuity. -/
example [Noise ℝ] : FreeMotion tumbler Fixture.motors (fun _ => 1 / 100) (leftAlone tumbler tumbling) ∧
    tumbler.inertia.PosDef := ⟨tumbler_free, tumbler_inertia⟩

/-- A tumbling body gains energy in its first step. -/
theorem C85_violated : ¬ C85_claim := by
  intro h
  let N : Noise ℝ := ⟨fun _ _ _ => 0⟩
  have h1 := h N 4 _ _ _ _ tumbler_free tumbler_inertia 1
  have h2 := (C85_energy_partial _ _ _ _ tumbler_free tumbler_inertia 0).2.2.1 h1
  have h3 : (leftAlone tumbler tumbling 0).state.angVel = ![1, 1, 1] := rfl
  rw [h3] at h2
  have h4 := congrFun h2 0
  simp [tumbler, crossProduct, Matrix.mulVec_diagonal] at h4
  norm_num at h4

/-! ## C86 — translation -/

/-- Full claim: in free motion the vehicle follows the parabola given by its velocity and the constant
acceleration it reports. -/
def C86_claim : Prop :=
  ∀ (_ : Noise ℝ) (n : ℕ) (p : ModelParams ℝ) (ms : Fin n → Motor ℝ) (dt : ℕ → ℝ) (d : ℕ → Dyn ℝ n),
    FreeMotion p ms dt d → ∀ k, let T := ∑ j ∈ Finset.range (k + 1), dt j
      (d (k + 1)).state.pos =
        (d 0).state.pos + T • (d 0).state.vel + (T ^ 2 / 2) • (d (k + 1)).state.acc

/-- What is true: acceleration and velocity are exact; the position lags behind the parabola by half the sum
of the squares of the steps, which is at most 5 ms times the time flown.  Missing: the exact parabola. -/
theorem C86_parabola_partial [Noise ℝ] {n : ℕ} (p : ModelParams ℝ) (ms : Fin n → Motor ℝ) (dt : ℕ → ℝ)
    (d : ℕ → Dyn ℝ n) (h : FreeMotion p ms dt d) (k : ℕ) :
    let T := ∑ j ∈ Finset.range (k + 1), dt j
    let L := ∑ j ∈ Finset.range (k + 1), dt j ^ 2
    (d (k + 1)).state.acc = p.mass⁻¹ • p.gravity ∧
    (d (k + 1)).state.vel = (d 0).state.vel + T • (d (k + 1)).state.acc ∧
    (d (k + 1)).state.pos = (d 0).state.pos + T • (d 0).state.vel +
      ((T ^ 2 - L) / 2) • (d (k + 1)).state.acc ∧ 0 < L ∧ L ≤ T / 100 := by
  have main : ∀ k, (d k).state.vel = (d 0).state.vel + (∑ j ∈ Finset.range k, dt j) • p.mass⁻¹ • p.gravity ∧
      (d k).state.pos = (d 0).state.pos + (∑ j ∈ Finset.range k, dt j) • (d 0).state.vel +
        (((∑ j ∈ Finset.range k, dt j) ^ 2 - ∑ j ∈ Finset.range k, dt j ^ 2) / 2) •
          p.mass⁻¹ • p.gravity := by
    intro k
    induction k with
    | zero => simp
    | succ k ih =>
      obtain ⟨e1, e2, e3, -⟩ := free_next h k
      rw [e1, e3, e2, ih.1, ih.2, Finset.sum_range_succ, Finset.sum_range_succ]
      constructor
      · module
      · module
  intro T L
  have hT := main (k + 1)
  have ha := (free_next h k).2.1
  refine ⟨ha, by rw [ha]; exact hT.1, by rw [ha]; exact hT.2, ?_, ?_⟩
  · exact Finset.sum_pos (fun j _ => pow_pos (h.pos j) 2) ⟨0, by simp⟩
  · show ∑ j ∈ Finset.range (k + 1), dt j ^ 2 ≤ (∑ j ∈ Finset.range (k + 1), dt j) / 100
    rw [Finset.sum_div]
    refine Finset.sum_le_sum fun j _ => ?_
    have := h.pos j
    have := h.small j
    nlinarith

/-- Non-vacuity: see above; gravity acts on the body. -/
example [Noise ℝ] : FreeMotion tumbler Fixture.motors (fun _ => 1 / 100) (leftAlone tumbler tumbling) ∧
    tumbler.gravity = ![0, 0, -10] := ⟨tumbler_free, rfl⟩

/-- After one step a released body has not moved at all. -/
theorem C86_violated : ¬ C86_claim := by
  intro h
  let N : Noise ℝ := ⟨fun _ _ _ => 0⟩
  have h1 := h N 4 _ _ _ _ tumbler_free 0
  obtain ⟨h2, -, h3, -⟩ := C86_parabola_partial _ _ _ _ tumbler_free 0
  simp only [h2] at h1 h3
  rw [h3] at h1
  have h4 := congrFun h1 2
  have hg : tumbler.gravity 2 = -10 := rfl
  have hm : tumbler.mass = 2 := rfl
  simp [hg, hm] at h4

end Verif.Props
