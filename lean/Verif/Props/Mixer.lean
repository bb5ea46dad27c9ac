import Verif.Props.Model
import Verif.Lemmas.Mixer
import Mathlib.Analysis.SpecialFunctions.Trigonometric.Basic

/-!
# Mixers of the predefined airframes and signed squares (C28, C29, C30, C31)
-/

namespace Verif.Props

open Verif Flt Spec

/-! ## C31 — signed square and signed root -/

/-- The two functions are inverse to each other, odd and strictly increasing on every component. -/
theorem C31_inverse {n : ℕ} (u v : Vec n ℝ) :
    squaredKeepSign (sqrtKeepSign v) = v ∧ sqrtKeepSign (squaredKeepSign v) = v ∧
    squaredKeepSign (-v) = -squaredKeepSign v ∧ sqrtKeepSign (-v) = -sqrtKeepSign v ∧
    ∀ i, (u i < v i ↔ squaredKeepSign u i < squaredKeepSign v i) ∧
      (u i < v i ↔ sqrtKeepSign u i < sqrtKeepSign v i) := by
  have h1 : ∀ v : Vec n ℝ, squaredKeepSign (sqrtKeepSign v) = v := by
    intro v
    rw [squaredKeepSign_real, sqrtKeepSign_real]
    ext i
    exact squared_sqrt_scalar (v i)
  have h2 : ∀ v : Vec n ℝ, sqrtKeepSign (squaredKeepSign v) = v := by
    intro v
    rw [squaredKeepSign_real, sqrtKeepSign_real]
    ext i
    exact sqrt_squared_scalar (v i)
  have h3 : ∀ v : Vec n ℝ, squaredKeepSign (-v) = -squaredKeepSign v := by
    intro v
    rw [squaredKeepSign_real, squaredKeepSign_real]
    ext i
    simp
  have h5 : ∀ (u v : Vec n ℝ) i, u i < v i ↔ squaredKeepSign u i < squaredKeepSign v i := by
    intro u v i
    rw [squaredKeepSign_real, squaredKeepSign_real]
    exact squared_strictMono.lt_iff_lt.symm
  refine ⟨h1 v, h2 v, h3 v, ?_, fun i => ⟨h5 u v i, ?_⟩⟩
  · rw [← h2 (-sqrtKeepSign v), h3, h1]
  · rw [h5 (sqrtKeepSign u), h1, h1]

/-- Its value at a concrete vector, negative components included. -/
theorem C31_values : squaredKeepSign ![3, -2, 0] = (![9, -4, 0] : Vec 3 ℝ) ∧
    sqrtKeepSign ![9, -4, 0] = (![3, -2, 0] : Vec 3 ℝ) := by
  have h : squaredKeepSign ![3, -2, 0] = (![9, -4, 0] : Vec 3 ℝ) := by
    rw [squaredKeepSign_real]
    ext i
    fin_cases i <;> norm_num
  exact ⟨h, h ▸ (C31_inverse 0 ![3, -2, 0]).2.1⟩

/-! ## C29 — the 4-row mixer inside the 6-row mixer -/

/-- For rotors without tilt rows `Fz, Mx, My, Mz` of the 6-row mixer are the 4-row mixer and rows
`Fx, Fy` vanish. -/
theorem C29_untilted {n : ℕ} (ms : Fin n → Motor ℝ) (h : ∀ i, (ms i).rot = 1) (i : Fin n) :
    (Model.mixer6 ms 0 i = 0 ∧ Model.mixer6 ms 1 i = 0) ∧
    Model.mixer6 ms 2 i = Model.mixer4 ms 0 i ∧ Model.mixer6 ms 3 i = Model.mixer4 ms 1 i ∧
    Model.mixer6 ms 4 i = Model.mixer4 ms 2 i ∧ Model.mixer6 ms 5 i = Model.mixer4 ms 3 i := by
  obtain ⟨h0, h1, h2⟩ := Model.mixer6_untilted ms h i
  exact ⟨⟨h0, h1⟩, h2 0, h2 1, h2 2, h2 3⟩

/-- Both mixers are what they should be: the 4-row one is the vertical force and torque of each
untilted rotor per unit of squared speed. -/
theorem C29_meaning {n : ℕ} (ms : Fin n → Motor ℝ) (h : ∀ i, (ms i).rot = 1) (i : Fin n) :
    Model.mixer4 ms 0 i = rotorForce (ms i) 1 2 ∧ Model.mixer4 ms 1 i = rotorTorque (ms i) 1 0 0 ∧
    Model.mixer4 ms 2 i = rotorTorque (ms i) 1 0 1 ∧ Model.mixer4 ms 3 i = rotorTorque (ms i) 1 0 2 := by
  have e := h i
  simp only [Model.mixer4, rotorForce, rotorTorque, e, Matrix.one_mulVec, flt]
  refine ⟨?_, ?_, ?_, ?_⟩ <;> simp [cross_apply]

/-- Every predefined airframe is untilted. -/
example (kf kt x y : ℝ) : ∀ mo ∈ Model.quadX kf kt x y 0 10 1 1, mo.rot = 1 := by
  simp [Model.quadX, flt]

/-! ## C28 — predefined airframes -/

lemma quadX_fn (kf kt x y lo hi tau J : ℝ) (ms : Fin 4 → Motor ℝ)
    (h : Model.quadX kf kt x y lo hi tau J = List.ofFn ms) :
    ms = ![⟨1, kf, kt, 1, ![x, -y, 0], lo, hi, tau, J⟩, ⟨-1, kf, kt, 1, ![x, y, 0], lo, hi, tau, J⟩,
      ⟨1, kf, kt, 1, ![-x, y, 0], lo, hi, tau, J⟩, ⟨-1, kf, kt, 1, ![-x, -y, 0], lo, hi, tau, J⟩] := by
  rw [Model.ofFn_four h]
  simp [flt]

lemma quadPlus_fn (kf kt x y lo hi tau J : ℝ) (ms : Fin 4 → Motor ℝ)
    (h : Model.quadPlus kf kt x y lo hi tau J = List.ofFn ms) :
    ms = ![⟨1, kf, kt, 1, ![x, 0, 0], lo, hi, tau, J⟩, ⟨-1, kf, kt, 1, ![0, y, 0], lo, hi, tau, J⟩,
      ⟨1, kf, kt, 1, ![-x, 0, 0], lo, hi, tau, J⟩, ⟨-1, kf, kt, 1, ![0, -y, 0], lo, hi, tau, J⟩] := by
  rw [Model.ofFn_four h]
  simp [flt]

lemma hexa_fn (kf kt r lo hi tau J : ℝ) (ms : Fin 6 → Motor ℝ)
    (h : Model.hexa kf kt r lo hi tau J = List.ofFn ms) :
    ms = ![⟨1, kf, kt, 1, ![r, 0, 0], lo, hi, tau, J⟩,
      ⟨-1, kf, kt, 1, ![r * (1 / 2), r * (√3 / 2), 0], lo, hi, tau, J⟩,
      ⟨1, kf, kt, 1, ![-r * (1 / 2), r * (√3 / 2), 0], lo, hi, tau, J⟩,
      ⟨-1, kf, kt, 1, ![-r, 0, 0], lo, hi, tau, J⟩,
      ⟨1, kf, kt, 1, ![-r * (1 / 2), -r * (√3 / 2), 0], lo, hi, tau, J⟩,
      ⟨-1, kf, kt, 1, ![r * (1 / 2), -r * (√3 / 2), 0], lo, hi, tau, J⟩] := by
  rw [Model.ofFn_six h]
  have h3 : (lit 3 : ℝ) = 3 := by simp [lit]
  have hc : Flt.cos (pi ⊘ lit 3) = (1 / 2 : ℝ) := by
    rw [h3]; simp only [flt, Real.cos_pi_div_three]
  have hs : Flt.sin (pi ⊘ lit 3) = (√3 / 2 : ℝ) := by
    rw [h3]; simp only [flt, Real.sin_pi_div_three]
  simp only [hc, hs]
  simp only [flt]

/-- A model whose rotors are those of a predefined airframe. -/
def HasMotors [Noise ℝ] {n : ℕ} (m : Model ℝ n) (c : ModelCore ℝ n) (l : List (Motor ℝ)) : Prop :=
  ∃ (p : ModelParams ℝ) (seed : ℤ) (m0 : Model ℝ n) (os : List (ModelOp ℝ)),
    Model.mk' p seed = some m0 ∧ runModel m0 os = some m ∧ m.core = some c ∧ c.params.motors = l

lemma hasMotors_wrench [Noise ℝ] {n : ℕ} {m : Model ℝ n} {c : ModelCore ℝ n} {l : List (Motor ℝ)}
    (h : HasMotors m c l) : ∃ ms : Fin n → Motor ℝ, l = List.ofFn ms ∧ ∀ w wd,
      Model.thrustVec c w = ∑ i, rotorForce (ms i) (w i) ∧
      Model.motorTorque c w wd = ∑ i, rotorTorque (ms i) (w i) (wd i) := by
  obtain ⟨p, seed, m0, os, h1, h2, h3, rfl⟩ := h
  obtain ⟨ms, hm, -⟩ := C27_wrench p seed m0 m os h1 h2 c h3 0 0
  refine ⟨ms, hm, fun w wd => ?_⟩
  obtain ⟨ms', hm', a, -, b⟩ := C27_wrench p seed m0 m os h1 h2 c h3 w wd
  have : ms' = ms := List.ofFn_injective (hm'.symm.trans hm)
  subst this
  exact ⟨a, b⟩

/-- X quadrotor: equal speeds and accelerations give pure vertical thrust. -/
theorem C28_quadX_balanced [Noise ℝ] (kf kt x y lo hi tau J : ℝ) (m : Model ℝ 4) (c : ModelCore ℝ 4)
    (h : HasMotors m c (Model.quadX kf kt x y lo hi tau J)) (w wd : ℝ) :
    Model.thrustVec c (fun _ => w) = ![0, 0, 4 * kf * (w * |w|)] ∧
    Model.motorTorque c (fun _ => w) (fun _ => wd) = 0 := by
  obtain ⟨ms, h1, h2⟩ := hasMotors_wrench h
  rw [(h2 _ fun _ => wd).1, (h2 _ _).2, quadX_fn _ _ _ _ _ _ _ _ _ h1]
  constructor <;> ext r <;> fin_cases r <;>
    simp [Fin.sum_univ_four, rotorForce, rotorTorque, cross_apply] <;> ring

/-- + quadrotor: equal speeds and accelerations give pure vertical thrust. -/
theorem C28_quadPlus_balanced [Noise ℝ] (kf kt x y lo hi tau J : ℝ) (m : Model ℝ 4) (c : ModelCore ℝ 4)
    (h : HasMotors m c (Model.quadPlus kf kt x y lo hi tau J)) (w wd : ℝ) :
    Model.thrustVec c (fun _ => w) = ![0, 0, 4 * kf * (w * |w|)] ∧
    Model.motorTorque c (fun _ => w) (fun _ => wd) = 0 := by
  obtain ⟨ms, h1, h2⟩ := hasMotors_wrench h
  rw [(h2 _ fun _ => wd).1, (h2 _ _).2, quadPlus_fn _ _ _ _ _ _ _ _ _ h1]
  constructor <;> ext r <;> fin_cases r <;>
    simp [Fin.sum_univ_four, rotorForce, rotorTorque, cross_apply] <;> ring

/-- Hexacopter: equal speeds and accelerations give pure vertical thrust. -/
theorem C28_hexa_balanced [Noise ℝ] (kf kt r lo hi tau J : ℝ) (m : Model ℝ 6) (c : ModelCore ℝ 6)
    (h : HasMotors m c (Model.hexa kf kt r lo hi tau J)) (w wd : ℝ) :
    Model.thrustVec c (fun _ => w) = ![0, 0, 6 * kf * (w * |w|)] ∧
    Model.motorTorque c (fun _ => w) (fun _ => wd) = 0 := by
  obtain ⟨ms, h1, h2⟩ := hasMotors_wrench h
  rw [(h2 _ fun _ => wd).1, (h2 _ _).2, hexa_fn _ _ _ _ _ _ _ _ h1]
  constructor <;> ext r <;> fin_cases r <;>
    simp [Fin.sum_univ_six, rotorForce, rotorTorque, cross_apply] <;> ring

/-- The fixture carries the X airframe. -/
example [Noise ℝ] : HasMotors Fixture.dyn.model Fixture.core (Model.quadX 1 1 1 1 0 10 1 1) :=
  ⟨Fixture.modelParams, 7, Fixture.dyn.model, [], fixture_mk, rfl, rfl, rfl⟩

/-- The 4-row mixer of the X airframe is the documented matrix. -/
theorem C28_quadX_documented (kf kt x y lo hi tau J : ℝ) (ms : Fin 4 → Motor ℝ)
    (h : Model.quadX kf kt x y lo hi tau J = List.ofFn ms) : Model.mixer4 ms = docQuadX kf kt x y := by
  rw [quadX_fn _ _ _ _ _ _ _ _ _ h]
  ext r i
  fin_cases r <;> fin_cases i <;> simp [Model.mixer4, docQuadX, flt]

/-- The 4-row mixer of the + airframe is the documented matrix. -/
theorem C28_quadPlus_documented (kf kt x y lo hi tau J : ℝ) (ms : Fin 4 → Motor ℝ)
    (h : Model.quadPlus kf kt x y lo hi tau J = List.ofFn ms) :
    Model.mixer4 ms = docQuadPlus kf kt x y := by
  rw [quadPlus_fn _ _ _ _ _ _ _ _ _ h]
  ext r i
  fin_cases r <;> fin_cases i <;> simp [Model.mixer4, docQuadPlus, flt]

/-- The 4-row mixer of the hexacopter is that of a regular hexagon with alternating directions.  Missing: the documented
matrix, which is a different one (`C28_violated`). -/
theorem C28_hexa_regular_partial (kf kt r lo hi tau J : ℝ) (ms : Fin 6 → Motor ℝ)
    (h : Model.hexa kf kt r lo hi tau J = List.ofFn ms) : Model.mixer4 ms = regularHexa kf kt r := by
  rw [hexa_fn _ _ _ _ _ _ _ _ h]
  have c1 := Real.cos_pi_div_three
  have s1 := Real.sin_pi_div_three
  have s2 : Real.sin (2 * (Real.pi / 3)) = √3 / 2 := by
    rw [show 2 * (Real.pi / 3) = Real.pi - Real.pi / 3 by ring, Real.sin_pi_sub, s1]
  have c2 : Real.cos (2 * (Real.pi / 3)) = -(1 / 2) := by
    rw [show 2 * (Real.pi / 3) = Real.pi - Real.pi / 3 by ring, Real.cos_pi_sub, c1]
  have s3 : Real.sin (3 * (Real.pi / 3)) = 0 := by
    rw [show 3 * (Real.pi / 3) = Real.pi by ring, Real.sin_pi]
  have c3 : Real.cos (3 * (Real.pi / 3)) = -1 := by
    rw [show 3 * (Real.pi / 3) = Real.pi by ring, Real.cos_pi]
  have s4 : Real.sin (4 * (Real.pi / 3)) = -(√3 / 2) := by
    rw [show 4 * (Real.pi / 3) = Real.pi / 3 + Real.pi by ring, Real.sin_add_pi, s1]
  have c4 : Real.cos (4 * (Real.pi / 3)) = -(1 / 2) := by
    rw [show 4 * (Real.pi / 3) = Real.pi / 3 + Real.pi by ring, Real.cos_add_pi, c1]
  have s5 : Real.sin (5 * (Real.pi / 3)) = -(√3 / 2) := by
    rw [show 5 * (Real.pi / 3) = 2 * Real.pi - Real.pi / 3 by ring, Real.sin_two_pi_sub, s1]
  have c5 : Real.cos (5 * (Real.pi / 3)) = 1 / 2 := by
    rw [show 5 * (Real.pi / 3) = 2 * Real.pi - Real.pi / 3 by ring, Real.cos_two_pi_sub, c1]
  ext row i
  fin_cases row <;> fin_cases i <;>
    simp [Model.mixer4, regularHexa, flt, s1, c1, s2, c2, s3, c3, s4, c4, s5, c5] <;> norm_num

/-- Non-vacuity: rotors of the three airframes exist for all coefficients. -/
example (kf kt x y lo hi tau J : ℝ) : (∃ ms : Fin 4 → Motor ℝ, Model.quadX kf kt x y lo hi tau J = List.ofFn ms) ∧
    (∃ ms : Fin 4 → Motor ℝ, Model.quadPlus kf kt x y lo hi tau J = List.ofFn ms) ∧
    ∃ ms : Fin 6 → Motor ℝ, Model.hexa kf kt x lo hi tau J = List.ofFn ms :=
  ⟨⟨(Model.quadX kf kt x y lo hi tau J).get, (List.ofFn_get _).symm⟩,
    ⟨(Model.quadPlus kf kt x y lo hi tau J).get, (List.ofFn_get _).symm⟩,
    ⟨(Model.hexa kf kt x lo hi tau J).get, (List.ofFn_get _).symm⟩⟩

/-- Full claim: the mixers of the three airframes are the documented ones. -/
def C28_claim : Prop :=
  (∀ (kf kt x y lo hi tau J : ℝ) (ms : Fin 4 → Motor ℝ),
    Model.quadX kf kt x y lo hi tau J = List.ofFn ms → Model.mixer4 ms = docQuadX kf kt x y) ∧
  (∀ (kf kt x y lo hi tau J : ℝ) (ms : Fin 4 → Motor ℝ),
    Model.quadPlus kf kt x y lo hi tau J = List.ofFn ms → Model.mixer4 ms = docQuadPlus kf kt x y) ∧
  (∀ (kf kt r lo hi tau J : ℝ) (ms : Fin 6 → Motor ℝ),
    Model.hexa kf kt r lo hi tau J = List.ofFn ms → Model.mixer4 ms = docHexa kf kt r)

theorem C28_violated : ¬ C28_claim := by
  intro h
  have h1 := h.2.2 1 1 1 0 10 1 1 (Model.hexa 1 1 1 0 10 1 1).get (List.ofFn_get _).symm
  rw [C28_hexa_regular_partial _ _ _ _ _ _ _ _ (List.ofFn_get (Model.hexa 1 1 1 0 10 1 1)).symm] at h1
  have h2 := congrFun (congrFun h1 1) 0
  simp [docHexa, regularHexa] at h2

/-- The documented hexacopter matrix cannot be repaired by renumbering rotors or changing axes: it
describes an airframe that rolls under equal rotor speeds. -/
theorem C28_documented_hexa_unbalanced (kf kt r : ℝ) (hk : kf ≠ 0) (hr : r ≠ 0) :
    ∑ i, docHexa kf kt r 1 i ≠ 0 := by
  have : ∑ i, docHexa kf kt r 1 i = r * kf / 2 := by
    simp [docHexa, Fin.sum_univ_six]; ring
  rw [this]
  positivity

/-! ## C30 — the allocation matrix -/

/-- The airframe is one of the two quadrotor configurations. -/
def IsQuad (kf kt x y : ℝ) (ms : Fin 4 → Motor ℝ) : Prop :=
  ∃ lo hi tau J, Model.quadX kf kt x y lo hi tau J = List.ofFn ms ∨
    Model.quadPlus kf kt x y lo hi tau J = List.ofFn ms

lemma isQuad_rot {kf kt x y : ℝ} {ms : Fin 4 → Motor ℝ} (h : IsQuad kf kt x y ms) (i : Fin 4) :
    (ms i).rot = 1 := by
  obtain ⟨lo, hi, tau, J, h | h⟩ := h
  · rw [quadX_fn _ _ _ _ _ _ _ _ _ h]; fin_cases i <;> rfl
  · rw [quadPlus_fn _ _ _ _ _ _ _ _ _ h]; fin_cases i <;> rfl

lemma isQuad_inverse {kf kt x y : ℝ} {ms : Fin 4 → Motor ℝ} (h : IsQuad kf kt x y ms) (hf : kf ≠ 0)
    (ht : kt ≠ 0) (hx : x ≠ 0) (hy : y ≠ 0) : ∃ B : Mat 4 4 ℝ, (Model.mixer4 ms : Mat 4 4 ℝ) * B = 1 := by
  obtain ⟨lo, hi, tau, J, h | h⟩ := h
  · rw [C28_quadX_documented _ _ _ _ _ _ _ _ _ h]
    refine ⟨!![1 / (4 * kf), -(1 / (4 * y * kf)), -(1 / (4 * x * kf)), 1 / (4 * kt);
      1 / (4 * kf), 1 / (4 * y * kf), -(1 / (4 * x * kf)), -(1 / (4 * kt));
      1 / (4 * kf), 1 / (4 * y * kf), 1 / (4 * x * kf), 1 / (4 * kt);
      1 / (4 * kf), -(1 / (4 * y * kf)), 1 / (4 * x * kf), -(1 / (4 * kt))], ?_⟩
    ext i j
    fin_cases i <;> fin_cases j <;> simp [docQuadX, Matrix.mul_apply, Fin.sum_univ_four] <;>
      field_simp <;> norm_num
  · rw [C28_quadPlus_documented _ _ _ _ _ _ _ _ _ h]
    refine ⟨!![1 / (4 * kf), 0, -(1 / (2 * x * kf)), 1 / (4 * kt);
      1 / (4 * kf), 1 / (2 * y * kf), 0, -(1 / (4 * kt));
      1 / (4 * kf), 0, 1 / (2 * x * kf), 1 / (4 * kt);
      1 / (4 * kf), -(1 / (2 * y * kf)), 0, -(1 / (4 * kt))], ?_⟩
    ext i j
    fin_cases i <;> fin_cases j <;> simp [docQuadPlus, Matrix.mul_apply, Fin.sum_univ_four] <;>
      field_simp <;> norm_num

/-- The library's allocation matrix inverts the airframe on `Fz, Mx, My, Mz`, on both sides. -/
theorem C30_inverse (kf kt x y : ℝ) (ms : Fin 4 → Motor ℝ) (h : IsQuad kf kt x y ms) (hf : kf ≠ 0)
    (ht : kt ≠ 0) (hx : x ≠ 0) (hy : y ≠ 0) :
    (Model.mixer6 ms : Mat 6 4 ℝ) * Indi.mixerInverse (Model.mixer6 ms) =
      Matrix.diagonal ![0, 0, 1, 1, 1, 1] ∧
    Indi.mixerInverse (Model.mixer6 ms) * (Model.mixer6 ms : Mat 6 4 ℝ) = 1 := by
  obtain ⟨B, hB⟩ := isQuad_inverse h hf ht hx hy
  exact Model.mixer6_mul_inverse ms (isQuad_rot h) B hB

/-- With any coefficient or arm equal to zero no matrix whatsoever does that. -/
theorem C30_singular (kf kt x y : ℝ) (ms : Fin 4 → Motor ℝ) (h : IsQuad kf kt x y ms)
    (h0 : kf = 0 ∨ kt = 0 ∨ x = 0 ∨ y = 0) :
    ¬ ∃ B : Mat 4 6 ℝ, (Model.mixer6 ms : Mat 6 4 ℝ) * B = Matrix.diagonal ![0, 0, 1, 1, 1, 1] := by
  rintro ⟨B, hB⟩
  have hrow : ∃ r : Fin 4, ∀ i, Model.mixer4 ms r i = 0 := by
    obtain ⟨lo, hi, tau, J, h | h⟩ := h
    · rw [C28_quadX_documented _ _ _ _ _ _ _ _ _ h]
      rcases h0 with rfl | rfl | rfl | rfl
      · exact ⟨0, fun i => by fin_cases i <;> simp [docQuadX]⟩
      · exact ⟨3, fun i => by fin_cases i <;> simp [docQuadX]⟩
      · exact ⟨2, fun i => by fin_cases i <;> simp [docQuadX]⟩
      · exact ⟨1, fun i => by fin_cases i <;> simp [docQuadX]⟩
    · rw [C28_quadPlus_documented _ _ _ _ _ _ _ _ _ h]
      rcases h0 with rfl | rfl | rfl | rfl
      · exact ⟨0, fun i => by fin_cases i <;> simp [docQuadPlus]⟩
      · exact ⟨3, fun i => by fin_cases i <;> simp [docQuadPlus]⟩
      · exact ⟨2, fun i => by fin_cases i <;> simp [docQuadPlus]⟩
      · exact ⟨1, fun i => by fin_cases i <;> simp [docQuadPlus]⟩
  obtain ⟨r, hr⟩ := hrow
  have h1 := (Model.mixer6_mul ms (isQuad_rot h) B (Fin.natAdd 2 r)).2.2 r
  rw [hB, Matrix.mul_apply, Finset.sum_eq_zero fun i _ => by rw [hr i, zero_mul]] at h1
  fin_cases r <;> simp [Fin.natAdd] at h1

/-- Both airframes exist for all coefficients. -/
example (kf kt x y : ℝ) : ∃ ms, IsQuad kf kt x y ms :=
  ⟨(Model.quadX kf kt x y 0 10 1 1).get, 0, 10, 1, 1, .inl (List.ofFn_get _).symm⟩

end Verif.Props
