import Verif.Lemmas.Model
import Verif.Fixture
import Verif.XReal
import Mathlib.Algebra.Order.Star.Real
import Mathlib.Analysis.Matrix.PosDef

/-!
# Model parameters and mixers (C25, C26, C27, C33)
-/

namespace Verif.Props

open Verif Flt Spec

section Any
variable {α : Type} [Flt α] {n : ℕ}

/-! ## C25 — parameter updates are all-or-nothing -/

/-- Rejected parameters change nothing at all. -/
theorem C25_rejected (p : ModelParams α) (m : Model α n) (h : ¬ Accepted p) :
    m.updateParams p = some m := by
  rw [← Model.checkParams_iff, Bool.not_eq_true] at h
  simp [Model.updateParams, h]

/-- Accepted parameters: parameters and mixers are afterwards those of a model newly constructed from
them (with any seed), the generator and the stored noise are untouched. -/
theorem C25_accepted (p : ModelParams α) (m m' : Model α n) (h : Accepted p)
    (hu : m.updateParams p = some m') (seed : ℤ) :
    (∃ f c, Model.mk' p seed = some f ∧ f.core = some c ∧ m'.core = some c ∧ c.params = p) ∧
      m'.rng = m.rng ∧ m'.stochForce = m.stochForce ∧ m'.stochMoment = m.stochMoment := by
  rw [← Model.checkParams_iff] at h
  unfold Model.updateParams at hu
  simp only [h, Bool.not_true, Bool.false_eq_true, if_false] at hu
  split at hu
  · simp at hu
  · rename_i ms hm
    split at hu
    · rename_i hd
      simp only [Option.some.injEq] at hu
      subst hu
      refine ⟨⟨⟨some (Model.coreOf p ms), none, ⟨seed, 0⟩, vzero, vzero⟩, Model.coreOf p ms, ?_, rfl, rfl, rfl⟩, rfl, rfl, rfl⟩
      simp only [Model.mk', Model.updateParams, h, hm, hd]
      rfl
    · simp at hu

/-- The update is undefined (failing assertion or out-of-range access) exactly when acceptable
parameters have a wrong number of rotors or a rotor direction other than `±1`. -/
theorem C25_undefined (p : ModelParams α) (m : Model α n) :
    m.updateParams p = none ↔
      Accepted p ∧ (p.motors.length ≠ n ∨ ∃ mo ∈ p.motors, mo.dir ≠ 1 ∧ mo.dir ≠ -1) := by
  rw [← Model.checkParams_iff]
  unfold Model.updateParams
  cases hc : Model.checkParams p
  · simp
  · simp only [Bool.not_true, Bool.false_eq_true, if_false, true_and]
    by_cases hl : p.motors.length = n
    · have : ∃ ms, Model.motorFn n p.motors = some ms := ⟨_, by simp [Model.motorFn, hl]; rfl⟩
      obtain ⟨ms, hms⟩ := this
      rw [hms]
      simp only [hl, not_true_eq_false, false_or, ne_eq]
      cases hd : Model.dirOk p.motors
      · simp only [Bool.false_eq_true, if_false, true_iff]
        simp only [Model.dirOk, List.all_eq_false, Bool.or_eq_true, beq_iff_eq, not_or] at hd
        exact hd
      · simp only [if_true, reduceCtorEq, false_iff, not_exists, not_and, not_not]
        simp only [Model.dirOk, List.all_eq_true, Bool.or_eq_true, beq_iff_eq] at hd
        intro x hx h1
        exact (hd x hx).resolve_left h1
    · have : Model.motorFn n p.motors = none := by simp [Model.motorFn, hl]
      simp [this, hl]

open Classical in
/-- Through any history of calls the reported parameters are the last accepted ones. -/
theorem C25_last_accepted [Noise α] (p : ModelParams α) (seed : ℤ) (m m' : Model α n)
    (os : List (ModelOp α)) (hm : Model.mk' p seed = some m) (h : runModel m os = some m') :
    m'.core.map (·.params) = ((p :: updatesOf os).filter fun q => decide (Accepted q)).getLast? := by
  have key : ∀ (os : List (ModelOp α)) (m m' : Model α n) (l : List (ModelParams α)),
      m.core.map (·.params) = (l.filter fun q => decide (Accepted q)).getLast? →
      runModel m os = some m' →
      m'.core.map (·.params) = ((l ++ updatesOf os).filter fun q => decide (Accepted q)).getLast? := by
    intro os
    induction os with
    | nil =>
      intro m m' l hl h
      simp only [runModel, Option.some.injEq] at h
      subst h
      simpa [updatesOf] using hl
    | cons o os ih =>
      intro m m' l hl h
      simp only [runModel, Option.bind_eq_some_iff] at h
      obtain ⟨m1, h1, h2⟩ := h
      cases o with
      | update q =>
        have := ih m1 m' (l ++ [q]) ?_ h2
        · simpa [updatesOf] using this
        · rcases Model.updateParams_cases h1 with ⟨hc, rfl⟩ | ⟨hc, ms, -, rfl⟩
          · rw [hl]
            have : ¬ Accepted q := by rw [← Model.checkParams_iff]; simp [hc]
            simp [List.filter_append, this]
          · have : Accepted q := Model.checkParams_iff q |>.1 hc
            simp [List.filter_append, this, Model.coreOf]
      | noise dt =>
        simp only [ModelOp.run, Option.map_eq_some_iff] at h1
        obtain ⟨c, -, rfl⟩ := h1
        simpa [updatesOf] using ih _ m' l (by simpa using hl) h2
      | disable =>
        simp only [ModelOp.run, Option.some.injEq] at h1
        subst h1
        simpa [updatesOf] using ih _ m' l (by simpa using hl) h2
  refine key os m m' [p] ?_ h
  rcases Model.updateParams_cases hm with ⟨hc, rfl⟩ | ⟨hc, ms, -, rfl⟩
  · have : ¬ Accepted p := by rw [← Model.checkParams_iff]; simp [hc]
    simp [this]
  · have : Accepted p := Model.checkParams_iff p |>.1 hc
    simp [this, Model.coreOf]

end Any

/-- Negative mass is rejected and leaves the vehicle of mass 2 as it was. -/
example : Fixture.dyn.model.updateParams { Fixture.modelParams with mass := -1 } =
    some Fixture.dyn.model :=
  C25_rejected _ _ (by simp [Accepted, flt])

/-- The vehicle is repainted with mass 5. -/
example : ∃ m' : Model ℝ 4, Accepted { Fixture.modelParams with mass := 5 } ∧
    Fixture.dyn.model.updateParams { Fixture.modelParams with mass := 5 } = some m' ∧
    m' ≠ Fixture.dyn.model := by
  have hc : Model.checkParams { Fixture.modelParams with mass := (5 : ℝ) } = true := by
    simp [Model.checkParams, Fixture.modelParams, Model.checkMotor, Model.quadX, flt]
  refine ⟨{ Fixture.dyn.model with
    core := some (Model.coreOf { Fixture.modelParams with mass := 5 } Fixture.motors) },
    (Model.checkParams_iff _).1 hc, ?_, ?_⟩
  · unfold Model.updateParams
    rw [hc]
    simp only [Bool.not_true, Bool.false_eq_true, if_false, Fixture.motorFn_eq, Fixture.dirOk, if_true]
  · intro h
    have h1 := congrArg (fun m : Model ℝ 4 => m.core.map fun c => c.params.mass) h
    simp only [Fixture.dyn, Fixture.core, Model.coreOf, Fixture.modelParams, Option.map_some,
      Option.some.injEq] at h1
    norm_num at h1

/-- Five rotors on a four rotor model: accepted by the validation, undefined afterwards. -/
example : Fixture.dyn.model.updateParams
    { Fixture.modelParams with motors := Fixture.motors 0 :: Fixture.modelParams.motors } = none :=
  (C25_undefined _ _).2 ⟨by
    rw [← Model.checkParams_iff]
    simp [Model.checkParams, Fixture.modelParams, Model.checkMotor, Model.quadX, Fixture.motors, flt],
    .inl (by simp [Fixture.modelParams, Model.quadX])⟩

/-- After a rejected update the parameters are the ones of the constructor. -/
example [Noise ℝ] : runModel Fixture.dyn.model [.update { Fixture.modelParams with mass := -1 }] =
      some Fixture.dyn.model ∧
    Fixture.dyn.model.core.map (·.params) = some Fixture.modelParams := by
  refine ⟨?_, rfl⟩
  simp only [runModel, ModelOp.run, C25_rejected { Fixture.modelParams with mass := (-1 : ℝ) }
    Fixture.dyn.model (by simp [Accepted, flt]), Option.bind_some]

/-! ## C26 — validation -/

/-- Full claim: accepted exactly when meaningful. -/
def C26_claim : Prop := ∀ p : ModelParams ℝ, Model.checkParams p = true ↔ Meaningful p

/-- A massless vehicle is accepted. -/
theorem C26_mass_zero : Model.checkParams { Fixture.modelParams with mass := 0 } = true := by
  simp [Model.checkParams, Fixture.modelParams, Model.checkMotor, Model.quadX, flt]

/-- A rotor time constant of zero (a divisor) is accepted. -/
theorem C26_tau_zero :
    Model.checkParams { Fixture.modelParams with motors := Model.quadX 1 1 1 1 0 10 0 1 } = true := by
  simp [Model.checkParams, Fixture.modelParams, Model.checkMotor, Model.quadX, flt]

/-- A singular inertia matrix (inverted at every step) is accepted. -/
theorem C26_inertia_singular :
    Model.checkParams { Fixture.modelParams with inertia := 0 } = true := by
  simp [Model.checkParams, Fixture.modelParams, Model.checkMotor, Model.quadX, flt]

/-- An inertia matrix with negative moments of inertia is accepted. -/
theorem C26_inertia_negative :
    Model.checkParams { Fixture.modelParams with inertia := Matrix.diagonal ![-1, -1, 1] } = true := by
  simp [Model.checkParams, Fixture.modelParams, Model.checkMotor, Model.quadX, flt, Fin.prod_univ_three]

/-- An aerodynamic matrix that feeds energy into the rotation is accepted. -/
theorem C26_aero_negative :
    Model.checkParams { Fixture.modelParams with aero := Matrix.diagonal ![-1, -1, 1] } = true := by
  simp [Model.checkParams, Fixture.modelParams, Model.checkMotor, Model.quadX, flt, Fin.prod_univ_three]

/-- No motors at all is accepted whatever the template parameter says. -/
theorem C26_no_motors : Model.checkParams { Fixture.modelParams with motors := [] } = true := by
  simp [Model.checkParams, Fixture.modelParams, flt]

/-- A mass that is not a number is accepted. -/
theorem C26_nan (p : ModelParams XReal) (h : Model.checkParams p = true) :
    Model.checkParams { p with mass := XReal.nan } = true := by
  rw [Model.checkParams_iff] at *
  exact ⟨by rfl, h.2⟩

theorem C26_violated : ¬ C26_claim := by
  intro h
  have h1 := ((h _).1 C26_mass_zero).1
  simp at h1

/-- What is true: meaningful parameters are accepted; accepted parameters have no negative mass, drag,
time constant, rotor inertia, coefficient or determinant and ordered limits.  Missing for the full
claim: positivity of mass and time constants, definiteness of the two matrices. -/
theorem C26_partial (p : ModelParams ℝ) :
    (Meaningful p → Model.checkParams p = true) ∧
    (Model.checkParams p = true ↔
      0 ≤ p.mass ∧ 0 ≤ p.inertia.det ∧ 0 ≤ p.drag ∧ 0 ≤ p.aero.det ∧
      ∀ m ∈ p.motors, m.minSpeed ≤ m.maxSpeed ∧ 0 ≤ m.tau ∧ 0 ≤ m.inertia ∧ 0 ≤ m.kf ∧ 0 ≤ m.kt) := by
  have key : Model.checkParams p = true ↔
      0 ≤ p.mass ∧ 0 ≤ p.inertia.det ∧ 0 ≤ p.drag ∧ 0 ≤ p.aero.det ∧
      ∀ m ∈ p.motors, m.minSpeed ≤ m.maxSpeed ∧ 0 ≤ m.tau ∧ 0 ≤ m.inertia ∧ 0 ≤ m.kf ∧ 0 ≤ m.kt := by
    rw [Model.checkParams_iff]
    simp [Accepted, flt]
  refine ⟨fun h => key.2 ⟨h.1.le, h.2.1.det_pos.le, h.2.2.1, h.2.2.2.1.det_nonneg, ?_⟩, key⟩
  intro m hm
  have := h.2.2.2.2 m hm
  exact ⟨this.1, this.2.1.le, this.2.2⟩

/-- The fixture is a meaningful vehicle. -/
example : Meaningful Fixture.modelParams := by
  refine ⟨by norm_num [Fixture.modelParams], Matrix.PosDef.one, by norm_num [Fixture.modelParams],
    Matrix.PosSemidef.one, ?_⟩
  simp [Fixture.modelParams, Model.quadX]

/-- Over one dimension the two sides can differ in sign only: with a negative mass nothing is
accepted. -/
example : Model.checkParams { Fixture.modelParams with mass := -1 } = false := by
  rw [← Bool.not_eq_true, (C26_partial _).2]
  simp

/-! ## C27 — forces and torques are the sum over the rotors -/

/-- In every model reached by any history the force and torque of the rotors are the sums over the
rotors of the reported parameters. -/
theorem C27_wrench [Noise ℝ] {n : ℕ} (p : ModelParams ℝ) (seed : ℤ) (m m' : Model ℝ n)
    (os : List (ModelOp ℝ)) (hm : Model.mk' p seed = some m) (h : runModel m os = some m')
    (c : ModelCore ℝ n) (hc : m'.core = some c) (w wd : Vec n ℝ) :
    ∃ ms : Fin n → Motor ℝ, c.params.motors = List.ofFn ms ∧
      Model.thrustVec c w = ∑ i, rotorForce (ms i) (w i) ∧
      Model.thrust c w = ∑ i, rotorForce (ms i) (w i) 2 ∧
      Model.motorTorque c w wd = ∑ i, rotorTorque (ms i) (w i) (wd i) := by
  obtain ⟨ms, h1, h2⟩ := Model.runModel_consistent (Model.mk'_consistent hm) h c hc
  refine ⟨ms, ?_, ?_, ?_, ?_⟩
  · obtain ⟨hl, hg⟩ := Dyn.motorFn_get h1
    apply List.ext_getElem?
    intro i
    by_cases hi : i < n
    · rw [hg ⟨i, hi⟩]
      simp [hi]
    · simp [hi, hl]
  · rw [h2, Model.thrustVec_coreOf]
  · rw [h2, Model.thrust_coreOf]
  · rw [h2, Model.motorTorque_coreOf]

/-- The fixture model, after a rejected update: hypotheses are met and a single spinning rotor at
(1, -1) pushes up with 4 and twists with (-4, -4, 4). -/
example [Noise ℝ] : ∃ m : Model ℝ 4, Model.mk' Fixture.modelParams 7 = some m ∧
    runModel m [.update { Fixture.modelParams with mass := -1 }] = some m ∧
    m.core = some Fixture.core ∧
    rotorTorque (Fixture.motors 0) 2 0 = ![-4, -4, 4] ∧ rotorForce (Fixture.motors 0) 2 = ![0, 0, 4] := by
  have hf : rotorForce (Fixture.motors 0) 2 = ![0, 0, 4] := by
    rw [rotorForce, mulVec_z]
    ext i
    fin_cases i <;> simp [Fixture.motors, Fixture.modelParams, Model.quadX, flt] <;> norm_num
  refine ⟨Fixture.dyn.model, ?_, ?_, rfl, ?_, hf⟩
  · simp [Model.mk', Model.updateParams, Fixture.check, Fixture.motorFn_eq, Fixture.dirOk, Fixture.dyn,
      Fixture.core]
  · have := C25_rejected { Fixture.modelParams with mass := (-1 : ℝ) } Fixture.dyn.model
      (by simp [Accepted, flt])
    simp only [runModel, ModelOp.run, this, Option.bind_some]
  · have e : (Fixture.motors 0).rot = 1 := by
      simp [Fixture.motors, Fixture.modelParams, Model.quadX, flt]
    rw [rotorTorque, hf, mulVec_z, mulVec_z, e]
    ext i
    simp only [Pi.add_apply]
    fin_cases i <;>
      simp [Fixture.motors, Fixture.modelParams, Model.quadX, flt, cross_apply, Matrix.one_apply] <;>
      norm_num

/-! ## C33 — the reported mixer matrix -/

/-- Full claim: after any history, once parameters were accepted, `get_mixer_matrix()` reports a matrix
whose entries are the force and torque of each rotor per unit of squared speed. -/
def C33_claim : Prop :=
  ∀ [Noise ℝ] (n : ℕ) (p : ModelParams ℝ) (seed : ℤ) (m m' : Model ℝ n) (os : List (ModelOp ℝ))
    (c : ModelCore ℝ n) (ms : Fin n → Motor ℝ),
    Model.mk' p seed = some m → runModel m os = some m' → m'.core = some c →
    c.params.motors = List.ofFn ms →
    ∃ M, m'.mixerMatrix = some M ∧ ∀ i r,
      M i r = (![rotorForce (ms i) 1 0, rotorForce (ms i) 1 1, rotorForce (ms i) 1 2,
        rotorTorque (ms i) 1 0 0, rotorTorque (ms i) 1 0 1, rotorTorque (ms i) 1 0 2] : Vec 6 ℝ) r

/-- The member is never written: it is indeterminate after every history (any arithmetic). -/
theorem C33_never_set {α : Type} [Flt α] [Noise α] {n : ℕ} (p : ModelParams α) (seed : ℤ)
    (m m' : Model α n) (os : List (ModelOp α)) (hm : Model.mk' p seed = some m)
    (h : runModel m os = some m') : m'.mixerMatrix = none := by
  refine Model.runModel_ind (P := fun m => m.mixerMatrix = none) ?_ os m m' ?_ h
  · intro a b o ha hb
    cases o with
    | update q => rcases Model.updateParams_cases hb with ⟨-, rfl⟩ | ⟨-, ms, -, rfl⟩ <;> exact ha
    | noise dt =>
      simp only [ModelOp.run, Option.map_eq_some_iff] at hb
      obtain ⟨c, -, rfl⟩ := hb
      unfold Model.setNoise
      split <;> exact ha
    | disable =>
      simp only [ModelOp.run, Option.some.injEq] at hb
      subst hb
      exact ha
  · rcases Model.updateParams_cases hm with ⟨-, rfl⟩ | ⟨-, ms, -, rfl⟩ <;> rfl

lemma fixture_mk : Model.mk' Fixture.modelParams 7 = some Fixture.dyn.model := by
  simp [Model.mk', Model.updateParams, Fixture.check, Fixture.motorFn_eq, Fixture.dirOk, Fixture.dyn,
    Fixture.core]

theorem C33_violated : ¬ C33_claim := by
  intro h
  let _ : Noise ℝ := ⟨fun _ _ _ => 0⟩
  obtain ⟨M, hM, -⟩ := h 4 Fixture.modelParams 7 Fixture.dyn.model Fixture.dyn.model [] Fixture.core
    Fixture.motors fixture_mk rfl rfl rfl
  have := C33_never_set Fixture.modelParams 7 Fixture.dyn.model Fixture.dyn.model [] fixture_mk rfl
  rw [hM] at this
  simp at this

/-- What is true: the four mixer members in use hold, through every history, the force and torque of
each rotor per unit of squared speed and per unit of acceleration.  Missing: `get_mixer_matrix()`. -/
theorem C33_members_partial [Noise ℝ] {n : ℕ} (p : ModelParams ℝ) (seed : ℤ) (m m' : Model ℝ n)
    (os : List (ModelOp ℝ)) (hm : Model.mk' p seed = some m) (h : runModel m os = some m')
    (c : ModelCore ℝ n) (hc : m'.core = some c) :
    ∃ ms : Fin n → Motor ℝ, c.params.motors = List.ofFn ms ∧ ∀ i r,
      c.mixForceVec i = rotorForce (ms i) 1 2 ∧ c.mixForce r i = rotorForce (ms i) 1 r ∧
      c.mixTorque r i = rotorTorque (ms i) 1 0 r ∧ c.mixInertia r i = rotorTorque (ms i) 0 1 r := by
  obtain ⟨ms, h1, -⟩ := C27_wrench p seed m m' os hm h c hc 0 0
  refine ⟨ms, h1, fun i r => ?_⟩
  have hf : ∀ (w : ℝ) (r), Model.thrustVec c (Pi.single i w) r = rotorForce (ms i) w r := by
    intro w r
    obtain ⟨ms', h1', h2, -, -⟩ := C27_wrench p seed m m' os hm h c hc (Pi.single i w) 0
    have : ms' = ms := List.ofFn_injective (h1'.symm.trans h1)
    subst this
    rw [h2, Finset.sum_apply, Finset.sum_eq_single i]
    · simp
    · intro j _ hj
      simp [hj, rotorForce, mulVec_z]
    · simp
  have ht : ∀ (w wd : ℝ) (r), Model.motorTorque c (Pi.single i w) (Pi.single i wd) r =
      rotorTorque (ms i) w wd r := by
    intro w wd r
    obtain ⟨ms', h1', -, -, h2⟩ := C27_wrench p seed m m' os hm h c hc (Pi.single i w) (Pi.single i wd)
    have : ms' = ms := List.ofFn_injective (h1'.symm.trans h1)
    subst this
    rw [h2, Finset.sum_apply, Finset.sum_eq_single i]
    · simp
    · intro j _ hj
      have e : (fun _ : Fin 3 => (0 : ℝ)) = 0 := rfl
      simp [hj, rotorForce, rotorTorque, mulVec_z, e]
    · simp
  have hcc : c.mixForceVec i = c.mixForce 2 i := by
    obtain ⟨ms', -, h2⟩ := Model.runModel_consistent (Model.mk'_consistent hm) h c hc
    rw [h2]
    rfl
  have e1 : ∀ (w : ℝ), (fun j => (Pi.single i w : Vec n ℝ) j * |(Pi.single i w : Vec n ℝ) j|) =
      Pi.single i (w * |w|) := by
    intro w
    ext j
    by_cases hj : j = i
    · subst hj; simp
    · simp [hj]
  have hF : ∀ r, c.mixForce r i = rotorForce (ms i) 1 r := by
    intro r
    rw [← hf]
    simp only [Model.thrustVec, squaredKeepSign_real, e1, mv_real]
    simp
  refine ⟨hcc.trans (hF 2), hF r, ?_, ?_⟩
  · rw [← ht]
    simp only [Model.motorTorque, squaredKeepSign_real, e1, mv_real, vadd_real, Pi.single_zero]
    simp
  · rw [← ht]
    simp only [Model.motorTorque, squaredKeepSign_real, e1, mv_real, vadd_real]
    simp

/-- The hypotheses are met by the fixture; the second rotor pushes at (1, 1) and spins backwards. -/
example [Noise ℝ] : Fixture.core.mixForceVec 1 = 1 ∧ Fixture.core.mixTorque 0 1 = 1 ∧
    Fixture.core.mixTorque 1 1 = -1 ∧ Fixture.core.mixTorque 2 1 = -1 ∧
    Fixture.core.mixInertia 2 1 = -1 := by
  obtain ⟨ms, h1, h2⟩ := C33_members_partial Fixture.modelParams 7 Fixture.dyn.model Fixture.dyn.model []
    fixture_mk rfl Fixture.core rfl
  have : ms = Fixture.motors := List.ofFn_injective (h1.symm.trans rfl)
  subst this
  refine ⟨(h2 1 0).1.trans ?_, (h2 1 0).2.2.1.trans ?_, (h2 1 1).2.2.1.trans ?_,
    (h2 1 2).2.2.1.trans ?_, (h2 1 2).2.2.2.trans ?_⟩ <;>
  simp [rotorForce, rotorTorque, Fixture.motors, Fixture.modelParams, Model.quadX, flt, cross_apply]

end Verif.Props
