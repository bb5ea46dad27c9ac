import Verif.Props.Mixer
import Verif.Props.DynStep
import Verif.Lemmas.ToMat
import Verif.Lemmas.PidRest
import Verif.Props.Attitude

/-!
# Control allocation and model inversion (C47, C48, C49)
-/

namespace Verif.Props

open Verif Flt Spec

/-! ## C47 -/

/-- Force and torque of all rotors are the rows of the mixer. -/
lemma wrench_mixer {n : ℕ} (ms : Fin n → Motor ℝ) (w : Vec n ℝ) (r : Fin 3) :
    (∑ i, rotorForce (ms i) (w i)) r =
      ((Model.mixer6 ms : Mat 6 n ℝ).mulVec (squaredKeepSign w)) (Fin.castLE (by decide) r) ∧
    (∑ i, rotorTorque (ms i) (w i) 0) r =
      ((Model.mixer6 ms : Mat 6 n ℝ).mulVec (squaredKeepSign w)) (Fin.natAdd 3 r) := by
  simp only [squaredKeepSign_real, Finset.sum_apply, Matrix.mulVec, dotProduct]
  constructor
  · refine Finset.sum_congr rfl fun i _ => ?_
    simp only [Model.mixer6, Model.motorContrib, rotorForce, mv_real, lit_zero, mulVec_z]
    fin_cases r <;> simp <;> ring
  · refine Finset.sum_congr rfl fun i _ => ?_
    simp only [Model.mixer6, Model.motorContrib, rotorTorque, rotorForce, mv_real, lit_zero, mulVec_z,
      cross_real, vadd_real, Pi.add_apply]
    fin_cases r <;> simp [cross_apply, flt] <;> ring

/-- The rate loop of a vehicle with rotors `ms`: the allocation matrix is the one the library computes for
them. -/
def AllocatedFor (c : Indi ℝ 4) (ms : Fin 4 → Motor ℝ) : Prop :=
  c.mixerInv = Indi.mixerInverse (Model.mixer6 ms)

/-- **C47.** The commanded rotor speeds produce exactly the commanded thrust along the body z axis and
exactly the torque `I u + ω_des × I ω_des`, `u` being the output of the rate PID; the getters report that
torque and thrust. -/
theorem C47_wrench (kf kt x y : ℝ) (ms : Fin 4 → Motor ℝ) (h : IsQuad kf kt x y ms) (hf : kf ≠ 0)
    (ht : kt ≠ 0) (hx : x ≠ 0) (hy : y ≠ 0) (c : Indi ℝ 4) (hc : AllocatedFor c ms)
    (om omDes : Vec 3 ℝ) (T dt : ℝ) :
    let r := c.acroToMotor om T omDes dt
    let u := (c.pid.computeControl dt (omDes - om)).2
    let M := c.inertia.mulVec u + crossProduct omDes (c.inertia.mulVec omDes)
    ∑ i, rotorForce (ms i) (r.2 i) = ![0, 0, T] ∧ ∑ i, rotorTorque (ms i) (r.2 i) 0 = M ∧
    r.1.thrust = ![0, 0, T] ∧ r.1.torque = M ∧ r.1.motVel = r.2 := by
  intro r u M
  have herr : Pid.getError om omDes = omDes - om := rfl
  have hM : r.1.torque = M := by
    simp only [r, Indi.acroToMotor, herr, flt, M, u]
  have hT : r.1.thrust = ![0, 0, T] := by
    simp only [r, Indi.acroToMotor, flt]
  have hw : squaredKeepSign r.2 = c.mixerInv.mulVec ![0, 0, T, M 0, M 1, M 2] := by
    have : r.2 = sqrtKeepSign (c.mixerInv.mulVec ![0, 0, T, M 0, M 1, M 2]) := by
      rw [← hM]
      simp only [r, Indi.acroToMotor, flt, Matrix.cons_val_zero, Matrix.cons_val_one, Matrix.cons_val]
    rw [this, (C31_inverse 0 _).1]
  have key : (Model.mixer6 ms : Mat 6 4 ℝ).mulVec (squaredKeepSign r.2) = ![0, 0, T, M 0, M 1, M 2] := by
    rw [hw, hc, Matrix.mulVec_mulVec, (C30_inverse kf kt x y ms h hf ht hx hy).1]
    ext i
    rw [Matrix.mulVec_diagonal]
    fin_cases i <;> simp
  refine ⟨?_, ?_, hT, hM, rfl⟩
  · ext i
    rw [(wrench_mixer ms r.2 i).1, key]
    fin_cases i <;> rfl
  · ext i
    rw [(wrench_mixer ms r.2 i).2, key]
    fin_cases i <;> rfl

/-- **C47.** The same with the force and torque of the library's model instead of the rotor laws. -/
theorem C47_model [Noise ℝ] (kf kt x y : ℝ) (ms : Fin 4 → Motor ℝ) (h : IsQuad kf kt x y ms) (hf : kf ≠ 0)
    (ht : kt ≠ 0) (hx : x ≠ 0) (hy : y ≠ 0) (c : Indi ℝ 4) (hc : AllocatedFor c ms)
    (m : Model ℝ 4) (core : ModelCore ℝ 4) (hm : HasMotors m core (List.ofFn ms))
    (om omDes : Vec 3 ℝ) (T dt : ℝ) :
    let r := c.acroToMotor om T omDes dt
    Model.thrustVec core r.2 = ![0, 0, T] ∧ Model.motorTorque core r.2 0 = r.1.torque ∧
    Model.thrust core r.2 = T := by
  intro r
  obtain ⟨ms', h1, h2⟩ := hasMotors_wrench hm
  have : ms' = ms := (List.ofFn_injective h1).symm
  subst this
  obtain ⟨e1, e2, -, e4, -⟩ := C47_wrench kf kt x y ms' h hf ht hx hy c hc om omDes T dt
  have e3 : Model.thrustVec core r.2 = ![0, 0, T] := ((h2 r.2 0).1).trans e1
  refine ⟨e3, ((h2 r.2 0).2).trans (e2.trans e4.symm), ?_⟩
  obtain ⟨p, seed, m0, os, a1, a2, a3, -⟩ := hm
  obtain ⟨ms'', -, b2⟩ := Model.runModel_consistent (Model.mk'_consistent a1) a2 core a3
  have hrow : Model.thrust core r.2 = Model.thrustVec core r.2 2 := by
    rw [b2]; rfl
  rw [hrow, e3]
  rfl

/-- Non-vacuity: the X quadrotor of the fixture with its allocation matrix. -/
example : ∃ (ms : Fin 4 → Motor ℝ) (c : Indi ℝ 4), IsQuad 1 1 1 1 ms ∧ AllocatedFor c ms ∧
    Fixture.modelParams.motors = List.ofFn ms :=
  ⟨Fixture.motors, { Indi.mk' Fixture.ctlParams.indi with
    mixerInv := Indi.mixerInverse (Model.mixer6 Fixture.motors) },
    ⟨0, 10, 1, 1, .inl rfl⟩, rfl, rfl⟩

/-- Equal squared speeds give pure thrust. -/
lemma quad_equal {kf kt x y : ℝ} {ms : Fin 4 → Motor ℝ} (h : IsQuad kf kt x y ms) (s : ℝ) :
    (Model.mixer6 ms : Mat 6 4 ℝ).mulVec (fun _ => s) = ![0, 0, 4 * kf * s, 0, 0, 0] := by
  have hr := isQuad_rot h
  ext r
  simp only [Matrix.mulVec, dotProduct, Fin.sum_univ_four]
  rcases Model.fin6_cases r with rfl | rfl | ⟨q, rfl⟩
  · simp [(Model.mixer6_untilted ms hr _).1]
  · simp [(Model.mixer6_untilted ms hr _).2.1]
  · rw [(Model.mixer6_untilted ms hr _).2.2, (Model.mixer6_untilted ms hr _).2.2,
      (Model.mixer6_untilted ms hr _).2.2, (Model.mixer6_untilted ms hr _).2.2]
    obtain ⟨lo, hi, tau, J, h | h⟩ := h
    · rw [C28_quadX_documented _ _ _ _ _ _ _ _ _ h]
      fin_cases q <;> simp [docQuadX, Fin.natAdd] <;> ring
    · rw [C28_quadPlus_documented _ _ _ _ _ _ _ _ _ h]
      fin_cases q <;> simp [docQuadPlus, Fin.natAdd] <;> ring

/-! ## C48 -/

lemma quiet_noise [Noise ℝ] {n : ℕ} (p : ModelParams ℝ) (ms : Fin n → Motor ℝ) (d : Dyn ℝ n) (dt : ℝ)
    (noise : Bool) (h : noise = false ∨ p.forceNoise = 0) (h0 : 0 < dt) :
    Dyn.stepNoise (Model.coreOf p ms) d dt noise = 0 := by
  rcases h with rfl | hz
  · simp
  · cases noise
    · simp
    · ext i
      simp [Dyn.stepNoise, Model.setNoise, flt, not_le.2 h0, Rng.draw3, Model.coreOf, hz]

/-- **C48.** If the rotors already turn at the speeds the rate loop commands for the current rates, then,
without aerodynamic torque and force noise, the angular acceleration of the next step differs from the
output `u` of the rate PID by exactly the difference of the gyroscopic terms of desired and current
rates; on the desired rates it is `u`. -/
theorem C48_inversion [Noise ℝ] (d d' : Dyn ℝ 4) (p : ModelParams ℝ) (ms : Fin 4 → Motor ℝ)
    (hr : RunsOn d p ms) (hp : Regular p ms) (kf kt x y : ℝ) (h : IsQuad kf kt x y ms) (hf : kf ≠ 0)
    (ht : kt ≠ 0) (hx : x ≠ 0) (hy : y ≠ 0) (c : Indi ℝ 4) (hc : AllocatedFor c ms)
    (hI : c.inertia = p.inertia) (T dtc dt : ℝ) (omDes ext : Vec 3 ℝ) (noise : Bool)
    (hw : d.state.motVel = (c.acroToMotor d.state.angVel T omDes dtc).2)
    (hl : ∀ i, (ms i).minSpeed ≤ d.state.motVel i ∧ d.state.motVel i ≤ (ms i).maxSpeed)
    (ha : p.aero = 0) (hn : noise = false ∨ p.forceNoise = 0) (h0 : 0 < dt) (h1 : dt ≤ 1 / 100)
    (hs : d.process (c.acroToMotor d.state.angVel T omDes dtc).2 dt ext noise = .ok d') :
    let u := (c.pid.computeControl dtc (omDes - d.state.angVel)).2
    p.inertia.mulVec (d'.state.angAcc - u) = crossProduct omDes (p.inertia.mulVec omDes) -
      crossProduct d.state.angVel (p.inertia.mulVec d.state.angVel) ∧
    (d.state.angVel = omDes → d'.state.angAcc = u) := by
  intro u
  obtain ⟨hco, hmo⟩ := runsOn_core hr
  obtain ⟨-, e2, -, -, -⟩ := C47_wrench kf kt x y ms h hf ht hx hy c hc d.state.angVel omDes T dtc
  rw [← hw] at hs e2
  obtain ⟨co, ms', e1, e3, -, rfl⟩ := small_step h0 h1 hs
  rw [hco, Option.some.injEq] at e1
  subst e1
  have : ms' = ms := by
    rw [show (Model.coreOf p ms).params = p from rfl, hmo, Option.some.injEq] at e3
    exact e3.symm
  subst this
  have hacc : (Dyn.eulerStep (Model.coreOf p ms') ms' d d.state.motVel dt ext noise).state.motAcc = 0 := by
    rw [Dyn.es_motAcc]
    ext i
    rw [clampVal_real, if_neg (not_lt.2 (hl i).1), if_neg (not_lt.2 (hl i).2)]
    simp
  have hI' : c.inertia = (Model.coreOf p ms').params.inertia := hI
  have hdet : IsUnit p.inertia.det := isUnit_iff_ne_zero.2 hp.2.1
  have hA : p.inertia.mulVec
      (Dyn.eulerStep (Model.coreOf p ms') ms' d d.state.motVel dt ext noise).state.angAcc =
      p.inertia.mulVec u + crossProduct omDes (p.inertia.mulVec omDes) -
        crossProduct d.state.angVel (p.inertia.mulVec d.state.angVel) := by
    rw [Dyn.es_angAcc, show (Model.coreOf p ms').params.inertia = p.inertia from rfl, Matrix.mulVec_mulVec,
      Matrix.mul_nonsing_inv _ hdet, Matrix.one_mulVec, Dyn.es_torque, hacc, Model.motorTorque_coreOf,
      quiet_noise p ms' d dt noise hn h0, aeroMoment_real,
      show (Model.coreOf p ms').params.aero = p.aero from rfl, ha]
    simp only [Pi.zero_apply]
    rw [e2, hI]
    simp only [Matrix.zero_mulVec, smul_zero, neg_zero, add_zero]
    rfl
  have key : p.inertia.mulVec
      ((Dyn.eulerStep (Model.coreOf p ms') ms' d d.state.motVel dt ext noise).state.angAcc - u) =
      crossProduct omDes (p.inertia.mulVec omDes) -
        crossProduct d.state.angVel (p.inertia.mulVec d.state.angVel) := by
    rw [Matrix.mulVec_sub, hA]; abel
  refine ⟨key, fun he => ?_⟩
  rw [he, sub_self] at key
  have hz := congrArg p.inertia⁻¹.mulVec key
  rw [Matrix.mulVec_mulVec, Matrix.nonsing_inv_mul _ hdet, Matrix.one_mulVec, Matrix.mulVec_zero] at hz
  exact sub_eq_zero.1 hz

/-! ## C49 -/

/-- The thrust command for an attitude whose z axis points along the demanded force realises exactly that
force, zero force included. -/
theorem C49_force {n : ℕ} (c : Ctl ℝ n) (q : Quat ℝ) (hq : IsUnitQ q) (a : Vec 3 ℝ) (yaw : ℝ)
    (h : √((c.acro.mass • (a - c.acro.gravity)) ⬝ᵥ (c.acro.mass • (a - c.acro.gravity))) • axis q.toMat 2 =
      c.acro.mass • (a - c.acro.gravity)) :
    IsRotated q ![0, 0, (c.accelerationToAcro a q.toMat yaw).2.1]
      (c.acro.mass • (a - c.acro.gravity)) := by
  set f := c.acro.mass • (a - c.acro.gravity) with hf
  have hz : axis q.toMat 2 ⬝ᵥ axis q.toMat 2 = 1 := by
    rw [(Quat.toMat_rotation hq).dot 2 2, if_pos rfl]
  have hn : Verif.normalized (axis q.toMat 2) = axis q.toMat 2 := by
    rw [normalized_real, hz]; simp
  have hdot : f ⬝ᵥ axis q.toMat 2 = √(f ⬝ᵥ f) := by
    have := congrArg (· ⬝ᵥ axis q.toMat 2) h
    simp only [smul_dotProduct, hz, smul_eq_mul, mul_one] at this
    exact this.symm
  have hr : (c.accelerationToAcro a q.toMat yaw).2.1 = √(f ⬝ᵥ f) := by
    have e : (fun i => q.toMat i 2) = axis q.toMat 2 := rfl
    simp only [Ctl.accelerationToAcro, Acro.accelerationToThrust, e, hn, smulR_real, vsub_real, dot_real,
      lt_real, lit_zero, decide_eq_true_eq, ← hf, hdot]
    rw [if_neg (not_lt.2 (Real.sqrt_nonneg _))]
  have := Quat.rotate_isRotated hq ![0, 0, (c.accelerationToAcro a q.toMat yaw).2.1]
  rw [Quat.axis_toMat, hr, h] at this
  rw [hr]
  exact this

/-- The situation of the claim: a vehicle of mass `p.mass` without drag and process noise, controlled by a
controller that knows mass and gravity, with its thrust axis along the demanded force and rotors that
produce the commanded thrust. -/
structure Aligned [Noise ℝ] {n : ℕ} (d : Dyn ℝ n) (p : ModelParams ℝ) (ms : Fin n → Motor ℝ)
    (c : Ctl ℝ n) (a : Vec 3 ℝ) (yaw : ℝ) : Prop where
  runs : RunsOn d p ms
  mass_pos : 0 < p.mass
  drag : p.drag = 0
  unit : IsUnitQ d.state.ori
  mass : c.acro.mass = p.mass
  gravity : c.acro.gravity = p.gravity
  aligned : √((p.mass • (a - p.gravity)) ⬝ᵥ (p.mass • (a - p.gravity))) • axis d.state.ori.toMat 2 =
      p.mass • (a - p.gravity)
  thrust : ∑ i, rotorForce (ms i) (d.state.motVel i) =
    ![0, 0, (c.accelerationToAcro a d.state.ori.toMat yaw).2.1]

/-- Full claim: the vehicle accelerates as demanded. -/
def C49_claim : Prop :=
  ∀ (_ : Noise ℝ) (n : ℕ) (d d' : Dyn ℝ n) (p : ModelParams ℝ) (ms : Fin n → Motor ℝ) (c : Ctl ℝ n)
    (a : Vec 3 ℝ) (yaw dt : ℝ) (act : Vec n ℝ), Aligned d p ms c a yaw → 0 < dt → dt ≤ 1 / 100 →
    d.process act dt 0 false = .ok d' → d'.state.acc = a

/-- What is true: the demanded force is produced exactly, but the dynamics adds gravity without the factor
mass, so that the acceleration is off by `(1/m - 1) g`; the claim holds for mass one only (if there is
gravity).  Missing: other masses. -/
theorem C49_acceleration_partial [Noise ℝ] {n : ℕ} (d d' : Dyn ℝ n) (p : ModelParams ℝ)
    (ms : Fin n → Motor ℝ) (c : Ctl ℝ n) (a : Vec 3 ℝ) (yaw dt : ℝ) (act : Vec n ℝ)
    (h : Aligned d p ms c a yaw) (h0 : 0 < dt) (h1 : dt ≤ 1 / 100)
    (hs : d.process act dt 0 false = .ok d') :
    p.mass • d'.state.acc = p.mass • a + (1 - p.mass) • p.gravity ∧
    (p.gravity ≠ 0 → (d'.state.acc = a ↔ p.mass = 1)) := by
  obtain ⟨hco, hmo⟩ := runsOn_core h.runs
  obtain ⟨co, ms', e1, e3, -, rfl⟩ := small_step h0 h1 hs
  rw [hco, Option.some.injEq] at e1
  subst e1
  have hF := C49_force c d.state.ori h.unit a yaw (by rw [h.mass, h.gravity]; exact h.aligned)
  rw [h.mass, h.gravity] at hF
  have hrot : d.state.ori.rotate (∑ i, rotorForce (ms i) (d.state.motVel i)) = p.mass • (a - p.gravity) := by
    rw [h.thrust]
    exact isRotated_unique (Quat.rotate_isRotated h.unit _) hF
  have key : p.mass • (Dyn.eulerStep (Model.coreOf p ms) ms' d act dt 0 false).state.acc =
      p.mass • a + (1 - p.mass) • p.gravity := by
    rw [Dyn.es_acc, show (Model.coreOf p ms).params.mass = p.mass from rfl, smul_smul,
      mul_inv_cancel₀ h.mass_pos.ne', one_smul, Dyn.es_force, Model.thrustVec_coreOf, hrot, dragForce_real,
      show (Model.coreOf p ms).params.drag = p.drag from rfl, h.drag,
      show (Model.coreOf p ms).params.gravity = p.gravity from rfl]
    ext i
    simp
    ring
  refine ⟨key, fun hg => ⟨fun e => ?_, fun e => ?_⟩⟩
  · rw [e] at key
    have h2 : (1 - p.mass) • p.gravity = 0 := by
      rw [left_eq_add] at key
      exact key
    rcases smul_eq_zero.1 h2 with h3 | h3
    · linarith
    · exact absurd h3 hg
  · rw [e] at key
    simpa using key

/-- A vehicle built from accepted parameters. -/
def builtFrom {α : Type} [Flt α] {n : ℕ} (p : ModelParams α) (ms : Fin n → Motor α) (seed : ℤ) (s : State α n) :
    Dyn α n :=
  ⟨⟨some (Model.coreOf p ms), none, ⟨seed, 0⟩, vzero, vzero⟩, s⟩

lemma motorFn_ofFn {α : Type} {n : ℕ} (ms : Fin n → Motor α) : Model.motorFn n (List.ofFn ms) = some ms := by
  simp [Model.motorFn]

lemma builtFrom_mk {α : Type} [Flt α] {n : ℕ} (p : ModelParams α) (ms : Fin n → Motor α) (seed : ℤ) (s : State α n)
    (hm : p.motors = List.ofFn ms) (hc : Model.checkParams p = true) (hd : Model.dirOk p.motors = true) :
    Dyn.mk' ⟨p, s, seed⟩ = some (builtFrom p ms seed s) := by
  have : Model.motorFn n p.motors = some ms := by rw [hm]; exact motorFn_ofFn ms
  simp [Dyn.mk', Model.mk', Model.updateParams, hc, this, hd, builtFrom]

lemma runsOn_new {α : Type} [Flt α] [Noise α] {n : ℕ} (p : ModelParams α) (ms : Fin n → Motor α) (seed : ℤ) (s : State α n)
    (hm : p.motors = List.ofFn ms) (hc : Model.checkParams p = true) (hd : Model.dirOk p.motors = true) :
    RunsOn (builtFrom p ms seed s) p ms := by
  refine ⟨hm, p, seed, (builtFrom p ms seed s).model, [], ?_, rfl, rfl⟩
  have : Model.motorFn n p.motors = some ms := by rw [hm]; exact motorFn_ofFn ms
  simp [Model.mk', Model.updateParams, hc, this, hd, builtFrom]

/-- The fixture without drag and aerodynamic torque. -/
noncomputable def slick : ModelParams ℝ := { Fixture.modelParams with drag := 0, aero := 0 }

lemma slick_check : Model.checkParams slick = true := by
  simp [Model.checkParams, slick, Fixture.modelParams, Model.checkMotor, Model.quadX, flt]

lemma slick_small (d : Dyn ℝ 4) [Noise ℝ] (hd : d.model.core = some (Model.coreOf slick Fixture.motors))
    (act : Vec 4 ℝ) (dt : ℝ) (h0 : 0 < dt) (h1 : dt ≤ 1 / 100) (ext : Vec 3 ℝ) (noise : Bool) :
    d.process act dt ext noise =
      .ok (Dyn.eulerStep (Model.coreOf slick Fixture.motors) Fixture.motors d act dt ext noise) := by
  rw [Dyn.process_small _ _ _ _ _ (by simp [flt, h0]) (by simp [Dyn.maxStep, flt]; linarith)]
  simp only [Dyn.singleStep, hd]
  rw [show (Model.coreOf slick Fixture.motors).params.motors = Fixture.modelParams.motors from rfl,
    Fixture.motorFn_eq]
  simp [Fixture.clampOk]

/-- Hovering vehicle of mass two: it must carry twice its gravity vector. -/
noncomputable def hoverFixture : Dyn ℝ 4 :=
  builtFrom slick Fixture.motors 7 { Fixture.dyn.state with motVel := fun _ => √5 }

lemma hoverFixture_aligned [Noise ℝ] : Aligned hoverFixture slick
    Fixture.motors (Ctl.mk' Fixture.ctlParams) 0 0 := by
  have hmat : hoverFixture.state.ori.toMat = 1 := by
    rw [Quat.toMat_real]
    ext i j
    fin_cases i <;> fin_cases j <;>
      simp [hoverFixture, builtFrom, Fixture.dyn, State.default, Quat.identity, flt]
  have hf : ((2 : ℝ) • ((0 : Vec 3 ℝ) - ![0, 0, -10])) = ![0, 0, 20] := by
    ext i; fin_cases i <;> simp; norm_num
  have hs : √((![0, 0, 20] : Vec 3 ℝ) ⬝ᵥ ![0, 0, 20]) = 20 := by
    rw [show (![0, 0, 20] : Vec 3 ℝ) ⬝ᵥ ![0, 0, 20] = 20 ^ 2 by simp; norm_num]
    exact Real.sqrt_sq (by norm_num)
  have hal : √(((2 : ℝ) • ((0 : Vec 3 ℝ) - ![0, 0, -10])) ⬝ᵥ ((2 : ℝ) • ((0 : Vec 3 ℝ) - ![0, 0, -10]))) •
      axis (1 : Mat 3 3 ℝ) 2 = (2 : ℝ) • ((0 : Vec 3 ℝ) - ![0, 0, -10]) := by
    rw [hf, hs]
    ext i; fin_cases i <;> simp [axis]
  refine ⟨runsOn_new _ _ _ _ rfl slick_check Fixture.dirOk, by norm_num [slick, Fixture.modelParams], rfl,
    fixture_unit, rfl, rfl, ?_, ?_⟩
  · rw [hmat]; exact hal
  · rw [hmat]
    have ht : ((Ctl.mk' Fixture.ctlParams).accelerationToAcro (0 : Vec 3 ℝ) 1 0).2.1 = 20 := by
      have := (C43_projection (Ctl.mk' Fixture.ctlParams) 0 1 0).1
      have e : axis (1 : Mat 3 3 ℝ) 2 = ![0, 0, 1] := by
        funext i; simp only [axis, Matrix.one_apply]; fin_cases i <;> simp
      have hf' : (Ctl.mk' Fixture.ctlParams).acro.mass • ((0 : Vec 3 ℝ) -
          (Ctl.mk' Fixture.ctlParams).acro.gravity) = ![0, 0, 20] := hf
      rw [hf', e] at this
      simpa using this
    rw [ht]
    have h5 : √(5 : ℝ) * |√5| = 5 := by
      rw [abs_of_nonneg (Real.sqrt_nonneg _), Real.mul_self_sqrt (by norm_num)]
    ext i
    fin_cases i <;> simp [Fin.sum_univ_four, rotorForce, hoverFixture, builtFrom, Fixture.motors,
      Fixture.modelParams, Model.quadX, flt, h5]
    norm_num

theorem C49_violated : ¬ C49_claim := by
  intro h
  let N : Noise ℝ := ⟨fun _ _ _ => 0⟩
  have hs := slick_small hoverFixture rfl 0 (1 / 100) (by norm_num) le_rfl 0 false
  have h1 := h N 4 hoverFixture _ slick Fixture.motors _ 0 0 (1 / 100) 0 hoverFixture_aligned (by norm_num)
    le_rfl hs
  have h2 := (C49_acceleration_partial hoverFixture _ slick Fixture.motors _ 0 0 (1 / 100) 0
    hoverFixture_aligned (by norm_num) le_rfl hs).2
  have h3 := (h2 (Function.ne_iff.2 ⟨2, by simp [slick, Fixture.modelParams]⟩)).1 h1
  norm_num [slick, Fixture.modelParams] at h3

/-- Non-vacuity of C48: the same vehicle, spinning, with rotors at the speeds commanded for hovering. -/
example [Noise ℝ] : ∃ (d d' : Dyn ℝ 4) (c : Indi ℝ 4), RunsOn d slick Fixture.motors ∧
    Regular slick Fixture.motors ∧ IsQuad 1 1 1 1 Fixture.motors ∧ AllocatedFor c Fixture.motors ∧
    c.inertia = slick.inertia ∧ d.state.angVel ≠ 0 ∧
    d.state.motVel = (c.acroToMotor d.state.angVel 20 d.state.angVel (1 / 100)).2 ∧
    (∀ i, (Fixture.motors i).minSpeed ≤ d.state.motVel i ∧ d.state.motVel i ≤ (Fixture.motors i).maxSpeed) ∧
    d.process (c.acroToMotor d.state.angVel 20 d.state.angVel (1 / 100)).2 (1 / 100) 0 false = .ok d' := by
  let c : Indi ℝ 4 := { Indi.mk' Fixture.ctlParams.indi with
    mixerInv := Indi.mixerInverse (Model.mixer6 Fixture.motors) }
  have hq : IsQuad 1 1 1 1 Fixture.motors := ⟨0, 10, 1, 1, .inl rfl⟩
  let om : Vec 3 ℝ := ![0, 0, 1]
  have hu : (c.pid.computeControl (1 / 100) (Pid.getError om om)).2 = 0 := by
    have : Pid.getError om om = 0 := sub_self om
    rw [this]
    exact (Pid.computeControl_rest Pid.default_rest Pid.default_neutral _).1
  have hd : (![0, 0, 20, 0, 0, 0] : Vec 6 ℝ) =
      (Model.mixer6 Fixture.motors : Mat 6 4 ℝ).mulVec fun _ => 5 := by
    rw [quad_equal hq]
    norm_num
  have hw : (c.acroToMotor om 20 om (1 / 100)).2 = fun _ => √5 := by
    have hI : c.inertia = 1 := rfl
    have hx : crossProduct om om = 0 := cross_self om
    have hm : c.mixerInv = Indi.mixerInverse (Model.mixer6 Fixture.motors) := rfl
    simp only [Indi.acroToMotor, hu, flt, hI, Matrix.one_mulVec, hx, add_zero, Pi.zero_apply,
      Matrix.cons_val_zero, Matrix.cons_val_one, Matrix.cons_val]
    rw [hd, hm, Matrix.mulVec_mulVec,
      (C30_inverse 1 1 1 1 _ hq one_ne_zero one_ne_zero one_ne_zero one_ne_zero).2, Matrix.one_mulVec]
    ext i
    simp [sqrtKeepSign, flt, sign_real]
  refine ⟨builtFrom slick Fixture.motors 7 { Fixture.dyn.state with motVel := fun _ => √5, angVel := om }, _,
    c, runsOn_new _ _ _ _ rfl slick_check Fixture.dirOk, ⟨by norm_num [slick, Fixture.modelParams], ?_, ?_⟩,
    hq, rfl, rfl, Function.ne_iff.2 ⟨2, by simp [builtFrom, om]⟩, hw.symm, ?_,
    slick_small _ rfl _ _ (by norm_num) le_rfl _ _⟩
  · simp [slick, Fixture.modelParams]
  · intro i; rw [(Fixture.motors_speed i).2.2]; norm_num
  · intro i
    rw [(Fixture.motors_speed i).1, (Fixture.motors_speed i).2.1]
    exact ⟨Real.sqrt_nonneg _, Real.sqrt_le_iff.2 ⟨by norm_num, by norm_num⟩⟩

end Verif.Props
