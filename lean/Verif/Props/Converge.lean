import Verif.Lemmas.Converge
import Verif.Props.FreeMotion
import Mathlib.Analysis.SpecialFunctions.Trigonometric.Deriv

/-!
# C95: the simulated flight converges to the solution of the equations of motion
-/

namespace Verif.Props

open Verif Flt Spec

/-- The total force on a vehicle in the state `s`: thrust, gravity, drag and external force (compare C18). -/
def IsForce {n : ℕ} (p : ModelParams ℝ) (ms : Fin n → Motor ℝ) (ext : Vec 3 ℝ) (s : State ℝ n) (F : Vec 3 ℝ) : Prop :=
  ∃ T, IsThrust ms s T ∧ F = T + p.gravity + (fun i => -p.drag * (s.vel i * |s.vel i|)) + ext

/-- The total torque, for the rotor accelerations `wd`. -/
noncomputable def torqueOf {n : ℕ} (p : ModelParams ℝ) (ms : Fin n → Motor ℝ) (s : State ℝ n) (wd : Vec n ℝ) : Vec 3 ℝ :=
  ∑ i, rotorTorque (ms i) (s.motVel i) (wd i) - √(s.angVel ⬝ᵥ s.angVel) • p.aero.mulVec s.angVel -
    crossProduct s.angVel (p.inertia.mulVec s.angVel)

/-- `x` moves, during `[0, T]`, according to the equations of motion of the rigid body with first-order rotors, under
a constant rotor command and a constant external force. -/
structure Motion {n : ℕ} (p : ModelParams ℝ) (ms : Fin n → Motor ℝ) (act : Vec n ℝ) (ext : Vec 3 ℝ) (T : ℝ)
    (x : ℝ → State ℝ n) : Prop where
  unit : ∀ t ∈ Set.Icc 0 T, IsUnitQ (x t).ori
  pos : ∀ t ∈ Set.Icc 0 T, ∀ i, HasDerivWithinAt (fun s => (x s).pos i) ((x t).vel i) (Set.Icc 0 T) t
  newton : ∀ t ∈ Set.Icc 0 T, ∃ a F, IsForce p ms ext (x t) F ∧ p.mass • a = F ∧
    ∀ i, HasDerivWithinAt (fun s => (x s).vel i) (a i) (Set.Icc 0 T) t
  turn : ∀ t ∈ Set.Icc 0 T, ∀ r : Quaternion ℝ, r = (1 / 2 : ℝ) • (toH (x t).ori * pureH (x t).angVel) →
    HasDerivWithinAt (fun s => (x s).ori.w) r.re (Set.Icc 0 T) t ∧
    HasDerivWithinAt (fun s => (x s).ori.x) r.imI (Set.Icc 0 T) t ∧
    HasDerivWithinAt (fun s => (x s).ori.y) r.imJ (Set.Icc 0 T) t ∧
    HasDerivWithinAt (fun s => (x s).ori.z) r.imK (Set.Icc 0 T) t
  euler : ∀ t ∈ Set.Icc 0 T, ∃ b wd, p.inertia.mulVec b = torqueOf p ms (x t) wd ∧
    (∀ i, HasDerivWithinAt (fun s => (x s).angVel i) (b i) (Set.Icc 0 T) t) ∧
    ∀ i, (ms i).tau * wd i = saturate (ms i).minSpeed (ms i).maxSpeed (act i) - (x t).motVel i ∧
      HasDerivWithinAt (fun s => (x s).motVel i) (wd i) (Set.Icc 0 T) t

/-- Every quantity of the state differs by at most `c`. -/
def Within {n : ℕ} (c : ℝ) (s t : State ℝ n) : Prop :=
  (∀ i, |s.pos i - t.pos i| ≤ c) ∧ (∀ i, |s.vel i - t.vel i| ≤ c) ∧
  (|s.ori.w - t.ori.w| ≤ c ∧ |s.ori.x - t.ori.x| ≤ c ∧ |s.ori.y - t.ori.y| ≤ c ∧ |s.ori.z - t.ori.z| ≤ c) ∧
  (∀ i, |s.angVel i - t.angVel i| ≤ c) ∧ ∀ i, |s.motVel i - t.motVel i| ≤ c

/-- The same position, velocity, orientation, angular velocity and rotor speeds. -/
def SameMotion {n : ℕ} (s t : State ℝ n) : Prop :=
  s.pos = t.pos ∧ s.vel = t.vel ∧ s.ori = t.ori ∧ s.angVel = t.angVel ∧ s.motVel = t.motVel

/-! ## Coordinates -/

/-- The coordinates of a state: position, velocity, orientation, angular velocity, rotor speeds. -/
abbrev Coord (n : ℕ) := Fin 3 ⊕ Fin 3 ⊕ Fin 4 ⊕ Fin 3 ⊕ Fin n

section
variable {n : ℕ}

/-- A state as a vector. -/
def enc (s : State ℝ n) : Coord n → ℝ
  | .inl i => s.pos i
  | .inr (.inl i) => s.vel i
  | .inr (.inr (.inl i)) => ![s.ori.w, s.ori.x, s.ori.y, s.ori.z] i
  | .inr (.inr (.inr (.inl i))) => s.angVel i
  | .inr (.inr (.inr (.inr i))) => s.motVel i

/-- A vector as a state. -/
noncomputable def dec (a : Coord n → ℝ) : State ℝ n :=
  { State.default with
    pos := fun i => a (.inl i)
    vel := fun i => a (.inr (.inl i))
    ori := ⟨a (.inr (.inr (.inl 0))), a (.inr (.inr (.inl 1))), a (.inr (.inr (.inl 2))), a (.inr (.inr (.inl 3)))⟩
    angVel := fun i => a (.inr (.inr (.inr (.inl i))))
    motVel := fun i => a (.inr (.inr (.inr (.inr i)))) }

lemma dec_enc (s : State ℝ n) : SameMotion (dec (enc s)) s := ⟨rfl, rfl, rfl, rfl, rfl⟩

/-- Right-hand sides. -/
noncomputable def linAcc (p : ModelParams ℝ) (ms : Fin n → Motor ℝ) (ext : Vec 3 ℝ) (s : State ℝ n) : Vec 3 ℝ :=
  p.mass⁻¹ • (s.ori.rotate (∑ i, rotorForce (ms i) (s.motVel i)) + p.gravity +
    (fun i => -p.drag * (s.vel i * |s.vel i|)) + ext)

/-- ... of the rotors. -/
noncomputable def rotAcc (ms : Fin n → Motor ℝ) (act : Vec n ℝ) (s : State ℝ n) : Vec n ℝ := fun i =>
  (saturate (ms i).minSpeed (ms i).maxSpeed (act i) - s.motVel i) / (ms i).tau

/-- ... of the rotation. -/
noncomputable def angularAcc (p : ModelParams ℝ) (ms : Fin n → Motor ℝ) (act : Vec n ℝ) (s : State ℝ n) : Vec 3 ℝ :=
  p.inertia⁻¹.mulVec (torqueOf p ms s (rotAcc ms act s))

/-- ... of the orientation. -/
noncomputable def oriRate (s : State ℝ n) : Fin 4 → ℝ :=
  ![(-s.ori.x * s.angVel 0 - s.ori.y * s.angVel 1 - s.ori.z * s.angVel 2) / 2,
    (s.ori.w * s.angVel 0 + s.ori.y * s.angVel 2 - s.ori.z * s.angVel 1) / 2,
    (s.ori.w * s.angVel 1 + s.ori.z * s.angVel 0 - s.ori.x * s.angVel 2) / 2,
    (s.ori.w * s.angVel 2 + s.ori.x * s.angVel 1 - s.ori.y * s.angVel 0) / 2]

/-- The right-hand side of the equations of motion. -/
noncomputable def rhs (p : ModelParams ℝ) (ms : Fin n → Motor ℝ) (act : Vec n ℝ) (ext : Vec 3 ℝ) (a : Coord n → ℝ) :
    Coord n → ℝ
  | .inl i => (dec a).vel i
  | .inr (.inl i) => linAcc p ms ext (dec a) i
  | .inr (.inr (.inl i)) => oriRate (dec a) i
  | .inr (.inr (.inr (.inl i))) => angularAcc p ms act (dec a) i
  | .inr (.inr (.inr (.inr i))) => rotAcc ms act (dec a) i

/-! ## The right-hand side is Lipschitz on bounded sets -/

lemma bl_vel (i : Fin 3) : BL fun a : Coord n → ℝ => (dec a).vel i := .coord _
lemma bl_om (i : Fin 3) : BL fun a : Coord n → ℝ => (dec a).angVel i := .coord _
lemma bl_mot (i : Fin n) : BL fun a : Coord n → ℝ => (dec a).motVel i := .coord _
lemma bl_w : BL fun a : Coord n → ℝ => (dec a).ori.w := .coord _
lemma bl_x : BL fun a : Coord n → ℝ => (dec a).ori.x := .coord _
lemma bl_y : BL fun a : Coord n → ℝ => (dec a).ori.y := .coord _
lemma bl_z : BL fun a : Coord n → ℝ => (dec a).ori.z := .coord _

lemma bl_mulVec {k : ℕ} (A : Mat k 3 ℝ) {F : (Coord n → ℝ) → Vec 3 ℝ} (h : ∀ i, BL fun a => F a i) (i : Fin k) :
    BL fun a => A.mulVec (F a) i := by
  simp only [Matrix.mulVec, dotProduct]
  exact .sum _ fun j => (BL.const _).mul (h j)

lemma bl_cross {F G : (Coord n → ℝ) → Vec 3 ℝ} (hF : ∀ i, BL fun a => F a i) (hG : ∀ i, BL fun a => G a i) (i : Fin 3) :
    BL fun a => crossProduct (F a) (G a) i := by
  simp only [cross_apply]
  fin_cases i
  · exact ((hF 1).mul (hG 2)).sub ((hF 2).mul (hG 1))
  · exact ((hF 2).mul (hG 0)).sub ((hF 0).mul (hG 2))
  · exact ((hF 0).mul (hG 1)).sub ((hF 1).mul (hG 0))

lemma bl_force (ms : Fin n → Motor ℝ) (j : Fin n) (i : Fin 3) :
    BL fun a : Coord n → ℝ => rotorForce (ms j) ((dec a).motVel j) i := by
  unfold rotorForce
  refine bl_mulVec _ (fun r => ?_) i
  fin_cases r
  · exact .const 0
  · exact .const 0
  · exact (BL.const _).mul ((bl_mot j).mul (bl_mot j).abs)

lemma bl_thrust (ms : Fin n → Motor ℝ) (i : Fin 3) :
    BL fun a : Coord n → ℝ => (∑ j, rotorForce (ms j) ((dec a).motVel j)) i := by
  simp only [Finset.sum_apply]
  exact .sum _ fun j => bl_force ms j i

lemma bl_rotate {F : (Coord n → ℝ) → Vec 3 ℝ} (h : ∀ i, BL fun a => F a i) (i : Fin 3) :
    BL fun a => (dec a).ori.rotate (F a) i := by
  simp only [Quat.rotate_eq]
  have c : BL fun _ : Coord n → ℝ => (2 : ℝ) := .const 2
  fin_cases i
  · exact (h 0).add (c.mul (((bl_w.mul ((bl_y.mul (h 2)).sub (bl_z.mul (h 1)))).add
      (bl_y.mul ((bl_x.mul (h 1)).sub (bl_y.mul (h 0))))).sub (bl_z.mul ((bl_z.mul (h 0)).sub (bl_x.mul (h 2))))))
  · exact (h 1).add (c.mul (((bl_w.mul ((bl_z.mul (h 0)).sub (bl_x.mul (h 2)))).add
      (bl_z.mul ((bl_y.mul (h 2)).sub (bl_z.mul (h 1))))).sub (bl_x.mul ((bl_x.mul (h 1)).sub (bl_y.mul (h 0))))))
  · exact (h 2).add (c.mul (((bl_w.mul ((bl_x.mul (h 1)).sub (bl_y.mul (h 0)))).add
      (bl_x.mul ((bl_z.mul (h 0)).sub (bl_x.mul (h 2))))).sub (bl_y.mul ((bl_y.mul (h 2)).sub (bl_z.mul (h 1))))))

lemma bl_rotAcc (ms : Fin n → Motor ℝ) (act : Vec n ℝ) (i : Fin n) : BL fun a : Coord n → ℝ => rotAcc ms act (dec a) i :=
  ((BL.const _).sub (bl_mot i)).div_const _

lemma bl_torque (p : ModelParams ℝ) (ms : Fin n → Motor ℝ) (act : Vec n ℝ) (i : Fin 3) :
    BL fun a : Coord n → ℝ => torqueOf p ms (dec a) (rotAcc ms act (dec a)) i := by
  simp only [torqueOf, Pi.sub_apply, Finset.sum_apply, Pi.smul_apply, smul_eq_mul]
  refine BL.sub (BL.sub (.sum _ fun j => ?_) (BL.mul ?_ (bl_mulVec p.aero bl_om i)))
    (bl_cross bl_om (bl_mulVec p.inertia bl_om) i)
  · simp only [rotorTorque, Pi.add_apply]
    have hc := bl_cross (F := fun _ : Coord n → ℝ => (ms j).pos) (fun r => .const _) (bl_force ms j) i
    refine (hc.add (bl_mulVec (ms j).rot (F := fun a => ![0, 0, (ms j).dir * (ms j).kt *
      ((dec a).motVel j * |(dec a).motVel j|)]) (fun r => ?_) i)).add (bl_mulVec (ms j).rot (F := fun a =>
      ![0, 0, (ms j).dir * (ms j).inertia * rotAcc ms act (dec a) j]) (fun r => ?_) i)
    · fin_cases r
      · exact .const 0
      · exact .const 0
      · exact (BL.const _).mul ((bl_mot j).mul (bl_mot j).abs)
    · fin_cases r
      · exact .const 0
      · exact .const 0
      · exact (BL.const _).mul (bl_rotAcc ms act j)
  · simp only [dotProduct, Fin.sum_univ_three]
    exact BL.sqrt_three (bl_om 0) (bl_om 1) (bl_om 2)

lemma bl_rhs (p : ModelParams ℝ) (ms : Fin n → Motor ℝ) (act : Vec n ℝ) (ext : Vec 3 ℝ) (i : Coord n) :
    BL fun a => rhs p ms act ext a i := by
  rcases i with i | i | i | i | i
  · exact bl_vel i
  · simp only [rhs, linAcc, Pi.smul_apply, Pi.add_apply, smul_eq_mul]
    exact (BL.const _).mul ((((bl_rotate (bl_thrust ms) i).add (.const _)).add
      ((BL.const _).mul ((bl_vel i).mul (bl_vel i).abs))).add (.const _))
  · simp only [rhs, oriRate]
    fin_cases i
    · exact (((bl_x.neg.mul (bl_om 0)).sub (bl_y.mul (bl_om 1))).sub (bl_z.mul (bl_om 2))).div_const 2
    · exact (((bl_w.mul (bl_om 0)).add (bl_y.mul (bl_om 2))).sub (bl_z.mul (bl_om 1))).div_const 2
    · exact (((bl_w.mul (bl_om 1)).add (bl_z.mul (bl_om 0))).sub (bl_x.mul (bl_om 2))).div_const 2
    · exact (((bl_w.mul (bl_om 2)).add (bl_x.mul (bl_om 1))).sub (bl_y.mul (bl_om 0))).div_const 2
  · simp only [rhs, angularAcc]
    exact bl_mulVec _ (bl_torque p ms act) i
  · exact bl_rotAcc ms act i

/-! ## A motion solves the equation -/

lemma pureH_inj {u v : Vec 3 ℝ} (h : pureH u = pureH v) : u = v := by
  ext i
  fin_cases i
  · exact congrArg QuaternionAlgebra.imI h
  · exact congrArg QuaternionAlgebra.imJ h
  · exact congrArg QuaternionAlgebra.imK h

lemma motion_rhs {p : ModelParams ℝ} {ms : Fin n → Motor ℝ} {act : Vec n ℝ} {ext : Vec 3 ℝ} {T : ℝ} {x : ℝ → State ℝ n}
    (hp : Regular p ms) (h : Motion p ms act ext T x) :
    ∀ t ∈ Set.Icc 0 T, ∀ i, HasDerivWithinAt (fun s => enc (x s) i) (rhs p ms act ext (enc (x t)) i) (Set.Icc 0 T) t := by
  obtain ⟨hm, hJ, htau⟩ := hp
  intro t ht i
  obtain ⟨a, F, ⟨Th, hTh, hF⟩, hma, hv⟩ := h.newton t ht
  obtain ⟨b, wd, hb, hom, hmot⟩ := h.euler t ht
  obtain ⟨t1, t2, t3, t4⟩ := h.turn t ht _ rfl
  have hwd : wd = rotAcc ms act (dec (enc (x t))) := by
    funext j
    have := (hmot j).1
    rw [rotAcc, eq_div_iff (htau j), mul_comm]
    exact this
  rcases i with i | i | i | i | i
  · exact h.pos t ht i
  · have : a = linAcc p ms ext (dec (enc (x t))) := by
      have e : Th = (x t).ori.rotate (∑ i, rotorForce (ms i) ((x t).motVel i)) :=
        pureH_inj ((show pureH Th = _ from hTh).trans (Quat.rotate_isRotated (h.unit t ht) _).symm)
      rw [← inv_smul_smul₀ hm a, hma, hF, e]
      rfl
    rw [this] at hv
    exact hv i
  · fin_cases i
    · refine t1.congr_deriv ?_
      simp [rhs, oriRate, dec, enc]
      ring
    · refine t2.congr_deriv ?_
      simp [rhs, oriRate, dec, enc]
      ring
    · refine t3.congr_deriv ?_
      simp [rhs, oriRate, dec, enc]
      ring
    · refine t4.congr_deriv ?_
      simp [rhs, oriRate, dec, enc]
      ring
  · have : b = angularAcc p ms act (dec (enc (x t))) := by
      rw [angularAcc, ← hwd]
      have e : b = p.inertia⁻¹.mulVec (p.inertia.mulVec b) := by
        rw [Matrix.mulVec_mulVec, Matrix.nonsing_inv_mul _ (isUnit_iff_ne_zero.2 hJ), Matrix.one_mulVec]
      rw [e, hb]
      rfl
    rw [this] at hom
    exact hom i
  · have := (hmot i).2
    rw [hwd] at this
    exact this

/-! ## One step of the simulator -/

variable [Noise ℝ]

/-- Invariant of a simulated flight. -/
structure Flying (p : ModelParams ℝ) (ms : Fin n → Motor ℝ) (d : Dyn ℝ n) : Prop where
  core : d.model.core = some (Model.coreOf p ms)
  unit : IsUnitQ d.state.ori
  lo : ∀ i, (ms i).minSpeed ≤ d.state.motVel i
  hi : ∀ i, d.state.motVel i ≤ (ms i).maxSpeed

/-- One update from a proper state, in coordinates. -/
def stepRel (p : ModelParams ℝ) (ms : Fin n → Motor ℝ) (act : Vec n ℝ) (ext : Vec 3 ℝ) (h : ℝ) (a b : Coord n → ℝ) : Prop :=
  ∃ d d' : Dyn ℝ n, Flying p ms d ∧ d.process act h ext false = .ok d' ∧ enc d.state = a ∧ enc d'.state = b

omit [Noise ℝ] in
/-- The rotor speed of one step stays within the limits by itself. -/
lemma rotor_inside {lo hi c w h tau : ℝ} (h0 : 0 < h) (h1 : h ≤ tau) (hc : lo ≤ c ∧ c ≤ hi) (hw : lo ≤ w ∧ w ≤ hi) :
    lo ≤ w + h * ((c - w) / tau) ∧ w + h * ((c - w) / tau) ≤ hi := by
  have ht : 0 < tau := h0.trans_le h1
  have e : w + h * ((c - w) / tau) = (1 - h / tau) * w + h / tau * c := by
    field_simp
    ring
  have hq1 : h / tau ≤ 1 := by rwa [div_le_one ht]
  have hq0 : 0 ≤ h / tau := by positivity
  rw [e]
  constructor <;> nlinarith

omit [Noise ℝ] in
/-- The error made by renormalising. -/
lemma renormalize {a ν s : ℝ} (h1 : 0 ≤ s) (hν : ν * ν = 1 + s) (hν0 : 0 < ν) (ha : |a| ≤ ν) : |a / ν - a| ≤ s := by
  have hν1 : 1 ≤ ν := by nlinarith
  have e : a / ν - a = -(a / ν * (ν - 1)) := by field_simp; ring
  rw [e, abs_neg, abs_mul, abs_div, abs_of_pos hν0, abs_of_nonneg (by linarith : 0 ≤ ν - 1)]
  have h2 : |a| / ν ≤ 1 := by rwa [div_le_one hν0]
  have h3 : |a| / ν * (ν - 1) ≤ 1 * (ν - 1) := mul_le_mul_of_nonneg_right h2 (by linarith)
  nlinarith

/-- The accelerations of one step are the right-hand sides. -/
lemma step_rates {p : ModelParams ℝ} {ms : Fin n → Motor ℝ} (act : Vec n ℝ) (ext : Vec 3 ℝ) (h : ℝ) (d : Dyn ℝ n)
    (hlim : ∀ i, (ms i).minSpeed ≤ (ms i).maxSpeed) :
    (Dyn.eulerStep (Model.coreOf p ms) ms d act h ext false).state.acc = linAcc p ms ext (dec (enc d.state)) ∧
    (Dyn.eulerStep (Model.coreOf p ms) ms d act h ext false).state.motAcc = rotAcc ms act (dec (enc d.state)) ∧
    (Dyn.eulerStep (Model.coreOf p ms) ms d act h ext false).state.angAcc = angularAcc p ms act (dec (enc d.state)) := by
  have hmacc : (Dyn.eulerStep (Model.coreOf p ms) ms d act h ext false).state.motAcc = rotAcc ms act (dec (enc d.state)) := by
    rw [Dyn.es_motAcc]
    funext j
    rw [clamp_saturate (hlim j)]
    rfl
  refine ⟨?_, hmacc, ?_⟩
  · rw [Dyn.es_acc, Dyn.es_force, Dyn.stepNoise_false, Model.thrustVec_coreOf, dragForce_real, add_zero]
    rfl
  · rw [Dyn.es_angAcc, Dyn.es_torque, Dyn.stepNoise_false, Model.motorTorque_coreOf, aeroMoment_real, hmacc, add_zero,
      ← sub_eq_add_neg]
    rfl

lemma step_error {p : ModelParams ℝ} {ms : Fin n → Motor ℝ} {act : Vec n ℝ} {ext : Vec 3 ℝ} {h₁ : ℝ}
    (hmo : Model.motorFn n p.motors = some ms) (hs : h₁ ≤ 1 / 100) (ht : ∀ i, h₁ ≤ (ms i).tau) (R : ℝ) :
    ∃ C, 0 ≤ C ∧ ∀ h a b, 0 < h → h ≤ h₁ → ‖a‖ ≤ R → stepRel p ms act ext h a b →
      ‖b - a - h • rhs p ms act ext a‖ ≤ C * h ^ 2 := by
  refine ⟨R ^ 2, sq_nonneg _, ?_⟩
  rintro h a b h0 hh ha ⟨d, d', hd, hp, rfl, rfl⟩
  rw [Dyn.process_small_real _ _ _ _ h0 (hh.trans hs)] at hp
  obtain ⟨hlim, rfl⟩ := step_on hd.core hmo hp
  have hC : 0 ≤ R ^ 2 * h ^ 2 := by positivity
  rw [pi_norm_le_iff_of_nonneg hC]
  intro i
  obtain ⟨hacc, hmacc, hang⟩ := step_rates (p := p) act ext h d hlim
  rcases i with i | i | i | i | i
  · simp only [Pi.sub_apply, Pi.smul_apply, enc, rhs, Dyn.es_pos, Pi.add_apply, smul_eq_mul, dec]
    rw [show d.state.pos i + h * d.state.vel i - d.state.pos i - h * d.state.vel i = 0 by ring, norm_zero]
    exact hC
  · simp only [Pi.sub_apply, Pi.smul_apply, enc, rhs, Dyn.es_vel, Pi.add_apply, smul_eq_mul, hacc]
    rw [show ∀ u v : ℝ, u + v - u - v = 0 from fun u v => by ring, norm_zero]
    exact hC
  · have hom : ∀ j, d.state.angVel j ^ 2 ≤ R ^ 2 := by
      intro j
      have := (norm_le_pi_norm (enc d.state) (.inr (.inr (.inr (.inl j))))).trans ha
      change |d.state.angVel j| ≤ R at this
      exact sq_le_sq' (by linarith [(abs_le.1 this).1]) (abs_le.1 this).2
    set s := h ^ 2 / 4 * (d.state.angVel 0 ^ 2 + d.state.angVel 1 ^ 2 + d.state.angVel 2 ^ 2) with hs'
    have hs0 : 0 ≤ s := by positivity
    have hs1 : s ≤ R ^ 2 * h ^ 2 := by
      rw [hs']
      nlinarith [hom 0, hom 1, hom 2, sq_nonneg h]
    have hn2 := Quat.integrate_n2 d.state.ori d.state.angVel h
    rw [(Quat.isUnitQ_iff _).1 hd.unit, one_mul] at hn2
    set q := Quat.ofCoeffs (vadd d.state.ori.coeffs (smulR (quatDerivative d.state.ori d.state.angVel) h)) with hq
    have hν : √q.n2 * √q.n2 = 1 + s := by rw [Real.mul_self_sqrt q.n2_nonneg, hn2]
    have hν0 : 0 < √q.n2 := Real.sqrt_pos.2 (by rw [hn2]; positivity)
    have key := fun (a : ℝ) (ha : a ^ 2 ≤ q.n2) => (renormalize hs0 hν hν0 (Real.abs_le_sqrt ha)).trans hs1
    have hori : (Dyn.eulerStep (Model.coreOf p ms) ms d act h ext false).state.ori = q.normalized := rfl
    have hqe := Quat.integrate_eq d.state.ori d.state.angVel h
    rw [← hq] at hqe
    simp only [Pi.sub_apply, Pi.smul_apply, enc, hori, Quat.normalized_eq]
    fin_cases i
    · refine le_of_eq_of_le ?_ (key q.w (by unfold Quat.n2; nlinarith [sq_nonneg q.x, sq_nonneg q.y, sq_nonneg q.z]))
      rw [Real.norm_eq_abs]
      congr 1
      simp [rhs, oriRate, dec, enc, hqe]
      ring
    · refine le_of_eq_of_le ?_ (key q.x (by unfold Quat.n2; nlinarith [sq_nonneg q.w, sq_nonneg q.y, sq_nonneg q.z]))
      rw [Real.norm_eq_abs]
      congr 1
      simp [rhs, oriRate, dec, enc, hqe]
      ring
    · refine le_of_eq_of_le ?_ (key q.y (by unfold Quat.n2; nlinarith [sq_nonneg q.w, sq_nonneg q.x, sq_nonneg q.z]))
      rw [Real.norm_eq_abs]
      congr 1
      simp [rhs, oriRate, dec, enc, hqe]
      ring
    · refine le_of_eq_of_le ?_ (key q.z (by unfold Quat.n2; nlinarith [sq_nonneg q.w, sq_nonneg q.x, sq_nonneg q.y]))
      rw [Real.norm_eq_abs]
      congr 1
      simp [rhs, oriRate, dec, enc, hqe]
      ring
  · simp only [Pi.sub_apply, Pi.smul_apply, enc, rhs, Dyn.es_angVel, Pi.add_apply, smul_eq_mul, hang]
    rw [show ∀ u v : ℝ, u + v - u - v = 0 from fun u v => by ring, norm_zero]
    exact hC
  · simp only [Pi.sub_apply, Pi.smul_apply, enc, rhs, Dyn.es_motVel, smul_eq_mul, hmacc]
    have := rotor_inside (w := d.state.motVel i) h0 (hh.trans (ht i)) (saturate_mem (hlim i) (act i)) ⟨hd.lo i, hd.hi i⟩
    rw [clamp_saturate (hlim i), show rotAcc ms act (dec (enc d.state)) i =
      (saturate (ms i).minSpeed (ms i).maxSpeed (act i) - d.state.motVel i) / (ms i).tau from rfl,
      saturate_id this.1 this.2, show ∀ u v : ℝ, u + v - u - v = 0 from fun u v => by ring, norm_zero]
    exact hC

/-- The invariant is kept. -/
lemma flying_step {p : ModelParams ℝ} {ms : Fin n → Motor ℝ} {act : Vec n ℝ} {ext : Vec 3 ℝ} {h : ℝ} {d d' : Dyn ℝ n}
    (hmo : Model.motorFn n p.motors = some ms) (h0 : 0 < h) (h1 : h ≤ 1 / 100) (hd : Flying p ms d)
    (hp : d.process act h ext false = .ok d') : Flying p ms d' := by
  rw [Dyn.process_small_real _ _ _ _ h0 h1] at hp
  obtain ⟨hlim, rfl⟩ := step_on hd.core hmo hp
  refine ⟨(Dyn.eulerStep_core ..).trans hd.core, ?_, fun i => ?_, fun i => ?_⟩
  · rw [Dyn.es_ori]
    exact Quat.quatIntegrate_unit hd.unit.nonzero _ _
  · rw [Dyn.es_motVel]
    simp only [clamp_saturate (hlim i)]
    exact (saturate_mem (hlim i) _).1
  · rw [Dyn.es_motVel]
    simp only [clamp_saturate (hlim i)]
    exact (saturate_mem (hlim i) _).2

end

/-! ## C95 -/

/-- **C95.** Let `x` be a solution of the equations of motion on `[0, T]` under a constant command and a constant
external force, starting with rotor speeds within their limits.  There are constants `C` and `h₀` such that every
simulation that starts in the same state and is updated with any period `h ≤ h₀`, without noise, is at all times
`k h ≤ T` within `C h` of the solution, in every quantity of the state.  So the simulation converges to the exact
motion, with the order one, when the period is refined. -/
theorem C95_convergence [Noise ℝ] {n : ℕ} (p : ModelParams ℝ) (ms : Fin n → Motor ℝ) (act : Vec n ℝ) (ext : Vec 3 ℝ)
    (T : ℝ) (x : ℝ → State ℝ n) (hp : Regular p ms) (ht : ∀ i, 0 < (ms i).tau) (hT : 0 ≤ T)
    (hx : Motion p ms act ext T x)
    (hlim : ∀ i, (ms i).minSpeed ≤ (x 0).motVel i ∧ (x 0).motVel i ≤ (ms i).maxSpeed) :
    ∃ C h₀, 0 < C ∧ 0 < h₀ ∧ ∀ (h : ℝ) (d : ℕ → Dyn ℝ n), 0 < h → h ≤ h₀ → RunsOn (d 0) p ms →
      SameMotion (d 0).state (x 0) → (∀ k, (d k).process act h ext false = .ok (d (k + 1))) →
      ∀ k : ℕ, k * h ≤ T → Within (C * h) (d k).state (x (k * h)) := by
  obtain ⟨h₁, h₁pos, h₁small, h₁tau⟩ : ∃ h₁ : ℝ, 0 < h₁ ∧ h₁ ≤ 1 / 100 ∧ ∀ i, h₁ ≤ (ms i).tau := by
    classical
    set S : Finset ℝ := insert (1 / 100 : ℝ) (Finset.univ.image fun i => (ms i).tau) with hS
    have hne : S.Nonempty := ⟨1 / 100, by simp [hS]⟩
    refine ⟨S.min' hne, ?_, S.min'_le _ (by simp [hS]), fun i => S.min'_le _ (by simp [hS])⟩
    rw [Finset.lt_min'_iff]
    intro y hy
    simp only [hS, Finset.mem_insert, Finset.mem_image, Finset.mem_univ, true_and] at hy
    rcases hy with rfl | ⟨i, rfl⟩
    · norm_num
    · exact ht i
  by_cases hex : Model.motorFn n p.motors = some ms
  · obtain ⟨C, h₀, hC, hh₀, main⟩ := one_step_converges (bl_rhs p ms act ext) (y := fun t => enc (x t))
      (motion_rhs hp hx) (step := stepRel p ms act ext) h₁pos (step_error hex h₁small h₁tau)
    refine ⟨C, min h₀ h₁, hC, lt_min hh₀ h₁pos, fun h d h0 hh hr hsame hs k hk => ?_⟩
    obtain ⟨hco, -⟩ := runsOn_core hr
    obtain ⟨s1, s2, s3, s4, s5⟩ := hsame
    have hfly : ∀ k, Flying p ms (d k) := by
      intro k
      induction k with
      | zero =>
        exact ⟨hco, by rw [s3]; exact hx.unit 0 ⟨le_rfl, hT⟩, fun i => by rw [s5]; exact (hlim i).1,
          fun i => by rw [s5]; exact (hlim i).2⟩
      | succ k ih => exact flying_step hex h0 (hh.trans ((min_le_right _ _).trans h₁small)) ih (hs k)
    have h00 : enc (d 0).state = enc (x 0) := by
      funext i
      rcases i with i | i | i | i | i <;> simp only [enc, s1, s2, s3, s4, s5]
    have e := main h h0 (hh.trans (min_le_left _ _)) (fun k => enc (d k).state) h00
      (fun k => ⟨d k, d (k + 1), hfly k, hs k, rfl, rfl⟩) k hk
    have c : ∀ i, |enc (d k).state i - enc (x (k * h)) i| ≤ C * h := fun i =>
      (norm_le_pi_norm (enc (d k).state - enc (x (k * h))) i).trans e
    exact ⟨fun i => c (.inl i), fun i => c (.inr (.inl i)),
      ⟨c (.inr (.inr (.inl 0))), c (.inr (.inr (.inl 1))), c (.inr (.inr (.inl 2))), c (.inr (.inr (.inl 3)))⟩,
      fun i => c (.inr (.inr (.inr (.inl i)))), fun i => c (.inr (.inr (.inr (.inr i))))⟩
  · refine ⟨1, 1, one_pos, one_pos, fun h d _ _ hr => ?_⟩
    exact absurd (runsOn_core hr).2 hex

/-- A body falling and turning about its vertical axis with two radians per second. -/
noncomputable def falling (t : ℝ) : State ℝ 4 :=
  { State.default with
    pos := ![0, 0, -(5 / 2 * t ^ 2)]
    vel := ![0, 0, -(5 * t)]
    ori := ⟨Real.cos t, 0, 0, Real.sin t⟩
    angVel := ![0, 0, 2]
    motVel := 0 }

lemma falling_motion (T : ℝ) : Motion slick Fixture.motors 0 0 T falling := by
  have hunit : ∀ t, IsUnitQ (falling t).ori := by
    intro t
    simp only [IsUnitQ, falling]
    nlinarith [Real.sin_sq_add_cos_sq t]
  have hzero : ∀ t, (∑ i, rotorForce (Fixture.motors i) ((falling t).motVel i)) = 0 := by
    intro t
    refine Finset.sum_eq_zero fun i _ => ?_
    ext r
    simp [rotorForce, mulVec_z, falling]
  refine ⟨fun t _ => hunit t, ?_, ?_, ?_, ?_⟩
  · intro t _ i
    fin_cases i
    · exact hasDerivWithinAt_const ..
    · exact hasDerivWithinAt_const ..
    · have := (((hasDerivAt_id t).pow 2).const_mul (5 / 2 : ℝ)).neg
      refine (this.congr_deriv ?_).hasDerivWithinAt
      simp [falling]
      ring
  · intro t _
    refine ⟨![0, 0, -5], ![0, 0, -10], ⟨0, ?_, ?_⟩, ?_, ?_⟩
    · have := Quat.rotate_isRotated (hunit t) 0
      rw [Quat.rotate_zero] at this
      rw [IsThrust, hzero]
      exact this
    · ext i
      fin_cases i <;> simp [slick, Fixture.modelParams] <;> rfl
    · ext i
      fin_cases i <;> simp [slick, Fixture.modelParams]
      norm_num
    · intro i
      fin_cases i
      · exact hasDerivWithinAt_const ..
      · exact hasDerivWithinAt_const ..
      · have := ((hasDerivAt_id t).const_mul (5 : ℝ)).neg
        refine (this.congr_deriv ?_).hasDerivWithinAt
        simp
  · rintro t _ r rfl
    refine ⟨?_, ?_, ?_, ?_⟩
    · refine ((Real.hasDerivAt_cos t).congr_deriv ?_).hasDerivWithinAt
      simp [falling]
      ring
    · refine (hasDerivWithinAt_const _ _ (0 : ℝ)).congr_deriv ?_
      simp [falling]
    · refine (hasDerivWithinAt_const _ _ (0 : ℝ)).congr_deriv ?_
      simp [falling]
    · refine ((Real.hasDerivAt_sin t).congr_deriv ?_).hasDerivWithinAt
      simp [falling]
      ring
  · intro t _
    refine ⟨0, 0, ?_, fun i => hasDerivWithinAt_const .., fun i => ⟨?_, hasDerivWithinAt_const ..⟩⟩
    · have h1 : (∑ i, rotorTorque (Fixture.motors i) ((falling t).motVel i) ((0 : Vec 4 ℝ) i)) = 0 := by
        refine Finset.sum_eq_zero fun i _ => ?_
        have h0 : rotorForce (Fixture.motors i) ((falling t).motVel i) = 0 := by
          ext r
          simp [rotorForce, mulVec_z, falling]
        ext r
        simp only [rotorTorque, h0]
        simp [falling, mulVec_z]
      rw [torqueOf, h1]
      simp [slick, Fixture.modelParams]
    · rw [(Fixture.motors_speed i).1, (Fixture.motors_speed i).2.1, Pi.zero_apply,
        saturate_id le_rfl (by norm_num)]
      simp [falling]

/-- The fixture's rotors on the body, left alone for `k` steps of any size. -/
noncomputable def released [Noise ℝ] (h : ℝ) : ℕ → Dyn ℝ 4
  | 0 => builtFrom slick Fixture.motors 7 (falling 0)
  | k + 1 => Dyn.eulerStep (Model.coreOf slick Fixture.motors) Fixture.motors (released h k) 0 h 0 false

/-- Non-vacuity: the falling body is a motion, and simulations of it with every small period exist. -/
example [Noise ℝ] : Regular slick Fixture.motors ∧ (∀ i, 0 < (Fixture.motors i).tau) ∧
    Motion slick Fixture.motors 0 0 3 falling ∧
    (∀ i, (Fixture.motors i).minSpeed ≤ (falling 0).motVel i ∧ (falling 0).motVel i ≤ (Fixture.motors i).maxSpeed) ∧
    ∀ h : ℝ, 0 < h → h ≤ 1 / 100 → RunsOn (released h 0) slick Fixture.motors ∧
      SameMotion (released h 0).state (falling 0) ∧
      ∀ k, (released h k).process 0 h 0 false = .ok (released h (k + 1)) := by
  refine ⟨⟨by norm_num [slick, Fixture.modelParams], by simp [slick, Fixture.modelParams], fun i => ?_⟩, fun i => ?_,
    falling_motion 3, fun i => ?_, fun h h0 h1 => ⟨?_, ⟨rfl, rfl, rfl, rfl, rfl⟩, fun k => ?_⟩⟩
  · rw [(Fixture.motors_speed i).2.2]; norm_num
  · rw [(Fixture.motors_speed i).2.2]; norm_num
  · rw [(Fixture.motors_speed i).1, (Fixture.motors_speed i).2.1]
    simp [falling]
  · exact runsOn_new slick Fixture.motors 7 (falling 0) rfl slick_check Fixture.dirOk
  · refine slick_small _ ?_ _ _ h0 h1 _ _
    induction k with
    | zero => rfl
    | succ k ih => exact (Dyn.eulerStep_core ..).trans ih

end Verif.Props
