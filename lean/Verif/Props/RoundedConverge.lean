import Verif.Lemmas.RoundedStep
import Verif.Props.Converge
import Verif.Props.Rounded

/-!
# C102: the simulated flight in rounded arithmetic stays near the solution of the equations of motion
-/

namespace Verif.Props

open Verif Flt Spec

section
variable {n : ℕ}

/-- A period and the coordinates of a state. -/
abbrev Inp (n : ℕ) := ℝ × (Coord n → ℝ)

lemma app_coord (i : Coord n) : AppF (fun A (x : Inp n) => (⟨x.2 i⟩ : Fl A)) (fun x => x.2 i) :=
  App.exact fun R => ⟨R, fun x hx => (norm_le_pi_norm x.2 i).trans ((norm_snd_le x).trans hx)⟩

lemma app_h : AppF (fun A (x : Inp n) => (⟨x.1⟩ : Fl A)) (fun x => x.1) :=
  App.exact fun R => ⟨R, fun x hx => (norm_fst_le x).trans hx⟩

lemma app_pos : AppV (fun A (x : Inp n) => liftV A (dec x.2).pos) (fun x => (dec x.2).pos) := fun _ => app_coord _
lemma app_vel : AppV (fun A (x : Inp n) => liftV A (dec x.2).vel) (fun x => (dec x.2).vel) := fun _ => app_coord _
lemma app_om : AppV (fun A (x : Inp n) => liftV A (dec x.2).angVel) (fun x => (dec x.2).angVel) := fun _ => app_coord _
lemma app_mot : AppV (fun A (x : Inp n) => liftV A (dec x.2).motVel) (fun x => (dec x.2).motVel) := fun _ => app_coord _
lemma app_ori : AppQ (fun A (x : Inp n) => liftQ A (dec x.2).ori) (fun x => (dec x.2).ori) :=
  ⟨app_coord _, app_coord _, app_coord _, app_coord _⟩

lemma app_mat {m k : ℕ} (M : Mat m k ℝ) : AppM (fun A (_ : Inp n) => liftMat A M) (fun _ => M) := fun i j => AppF.const (M i j)

lemma app_contrib (m : Motor ℝ) : AppV (fun A (_ : Inp n) => Model.motorContrib (liftMotor A m)) (fun _ => Model.motorContrib m) := by
  have hf := AppV.mv (app_mat (n := n) m.rot) (AppV.three (AppF.lit 0) (AppF.lit 0) (AppF.const m.kf))
  have ht := AppV.mv (app_mat (n := n) m.rot) (AppV.three (AppF.lit 0) (AppF.lit 0) ((AppF.lit (m.dir : ℚ)).mul (AppF.const m.kt)))
  have hq := ((AppV.const m.pos).cross hf).add ht
  intro i
  fin_cases i
  · exact hf 0
  · exact hf 1
  · exact hf 2
  · exact hq 0
  · exact hq 1
  · exact hq 2

lemma app_inertia (m : Motor ℝ) : AppV (fun A (_ : Inp n) => mv (liftMotor A m).rot ![lit 0, lit 0, lit ((liftMotor A m).dir : ℚ) ⊠
    (liftMotor A m).inertia]) (fun _ => mv m.rot ![lit 0, lit 0, lit (m.dir : ℚ) ⊠ m.inertia]) :=
  AppV.mv (app_mat (n := n) m.rot) (AppV.three (AppF.lit 0) (AppF.lit 0) ((AppF.lit (m.dir : ℚ)).mul (AppF.const m.inertia)))

variable (p : ModelParams ℝ) (ms : Fin n → Motor ℝ) (act : Vec n ℝ) (ext : Vec 3 ℝ)

/-- The model of the vehicle in rounded arithmetic. -/
noncomputable abbrev coreL (A : Rounding) : ModelCore (Fl A) n := Model.coreOf (liftParams A p) fun i => liftMotor A (ms i)

lemma app_thrust : AppV (fun A (x : Inp n) => Model.thrustVec (coreL p ms A) (liftV A (dec x.2).motVel))
    (fun x => Model.thrustVec (Model.coreOf p ms) (dec x.2).motVel) :=
  AppV.mv (M := fun A (_ : Inp n) => (coreL p ms A).mixForce) (N := fun _ => (Model.coreOf p ms).mixForce)
    (fun _ j => app_contrib (ms j) _) app_mot.squaredKeepSign

/-- The rotor accelerations. -/
lemma app_motAcc (hl : ∀ i, (ms i).minSpeed ≤ (ms i).maxSpeed) :
    AppV (fun A (x : Inp n) => Dyn.motorDerivative (fun i => liftMotor A (ms i)) (Dyn.clampMotors (fun i => liftMotor A (ms i))
      (liftV A act)) (liftV A (dec x.2).motVel))
    (fun x => Dyn.motorDerivative ms (Dyn.clampMotors ms act) (dec x.2).motVel) :=
  fun i => (((AppF.const (act i)).clamp (hl i)).sub (app_mot i)).div_const (ms i).tau

lemma app_force : AppV (fun A (x : Inp n) => Dyn.totalForce ((liftQ A (dec x.2).ori).rotate (Model.thrustVec (coreL p ms A)
      (liftV A (dec x.2).motVel))) (Model.dragForce ⟨p.drag⟩ (liftV A (dec x.2).vel)) (liftV A p.gravity) vzero (liftV A ext))
    (fun x => Dyn.totalForce ((dec x.2).ori.rotate (Model.thrustVec (Model.coreOf p ms) (dec x.2).motVel))
      (Model.dragForce p.drag (dec x.2).vel) p.gravity vzero ext) :=
  ((((AppV.rotate app_ori (app_thrust p ms)).add (.const _)).add
    (AppV.smulL ((AppF.lit (-1)).mul (.const p.drag)) app_vel.squaredKeepSign)).add .zero).add (.const _)

lemma app_torque (hl : ∀ i, (ms i).minSpeed ≤ (ms i).maxSpeed) :
    AppV (fun A (x : Inp n) => Dyn.totalTorque (liftV A (dec x.2).angVel) (liftMat A p.inertia)
      (Model.motorTorque (coreL p ms A) (liftV A (dec x.2).motVel) (Dyn.motorDerivative (fun i => liftMotor A (ms i))
        (Dyn.clampMotors (fun i => liftMotor A (ms i)) (liftV A act)) (liftV A (dec x.2).motVel)))
      (Model.aeroMoment (liftMat A p.aero) (liftV A (dec x.2).angVel)) vzero)
    (fun x => Dyn.totalTorque (dec x.2).angVel p.inertia
      (Model.motorTorque (Model.coreOf p ms) (dec x.2).motVel (Dyn.motorDerivative ms (Dyn.clampMotors ms act) (dec x.2).motVel))
      (Model.aeroMoment p.aero (dec x.2).angVel) vzero) := by
  have h1 := AppV.mv (M := fun A (_ : Inp n) => (coreL p ms A).mixTorque) (N := fun _ => (Model.coreOf p ms).mixTorque)
    (fun _ j => app_contrib (ms j) _) app_mot.squaredKeepSign
  have h2 := AppV.mv (M := fun A (_ : Inp n) => (coreL p ms A).mixInertia) (N := fun _ => (Model.coreOf p ms).mixInertia)
    (fun _ j => app_inertia (ms j) _) (app_motAcc ms act hl)
  have h3 := AppV.mv (M := fun A (x : Inp n) => fun i j => (lit (-1) ⊠ Verif.norm (liftV A (dec x.2).angVel)) ⊠ liftMat A p.aero i j)
    (N := fun x => fun i j => (lit (-1) ⊠ Verif.norm (dec x.2).angVel) ⊠ p.aero i j)
    (fun i j => ((AppF.lit (-1)).mul (AppF.norm app_om)).mul (.const _)) app_om
  exact (((h1.add h2).add h3).add .zero).sub (AppV.cross app_om (AppV.mv (app_mat p.inertia) app_om))

lemma app_preori : AppV (fun A (x : Inp n) => vadd (liftQ A (dec x.2).ori).coeffs
      (smulR (quatDerivative (liftQ A (dec x.2).ori) (liftV A (dec x.2).angVel)) ⟨x.1⟩))
    (fun x => vadd (dec x.2).ori.coeffs (smulR (quatDerivative (dec x.2).ori (dec x.2).angVel) x.1)) := by
  have hz : AppF (fun A (_ : Inp n) => (lit 0 : Fl A)) (fun _ => (lit 0 : ℝ)) := AppF.lit 0
  obtain ⟨qw, qx, qy, qz⟩ := app_ori (n := n)
  have o := app_om (n := n)
  have half : AppF (fun A (_ : Inp n) => (lit (1 / 2) : Fl A)) (fun _ => (lit (1 / 2) : ℝ)) := AppF.lit _
  intro i
  fin_cases i
  · exact qx.add ((half.mul ((((qw.mul (o 0)).add (qx.mul hz)).add (qy.mul (o 2))).sub (qz.mul (o 1)))).mul app_h)
  · exact qy.add ((half.mul ((((qw.mul (o 1)).add (qy.mul hz)).add (qz.mul (o 0))).sub (qx.mul (o 2)))).mul app_h)
  · exact qz.add ((half.mul ((((qw.mul (o 2)).add (qz.mul hz)).add (qx.mul (o 1))).sub (qy.mul (o 0)))).mul app_h)
  · exact qw.add ((half.mul ((((qw.mul hz).sub (qx.mul (o 0))).sub (qy.mul (o 1))).sub (qz.mul (o 2)))).mul app_h)

/-- The coordinates after one step, before the orientation is normalised. -/
noncomputable def pre (A : Rounding) (x : Inp n) : Coord n → ℝ
  | .inl i => (vadd (liftV A (dec x.2).pos) (smulR (liftV A (dec x.2).vel) ⟨x.1⟩) i).val
  | .inr (.inl i) => (vadd (liftV A (dec x.2).vel) (smulR (sdiv (Dyn.totalForce ((liftQ A (dec x.2).ori).rotate
      (Model.thrustVec (coreL p ms A) (liftV A (dec x.2).motVel))) (Model.dragForce ⟨p.drag⟩ (liftV A (dec x.2).vel))
      (liftV A p.gravity) vzero (liftV A ext)) ⟨p.mass⟩) ⟨x.1⟩) i).val
  | .inr (.inr (.inl i)) => (vadd (liftQ A (dec x.2).ori).coeffs
      (smulR (quatDerivative (liftQ A (dec x.2).ori) (liftV A (dec x.2).angVel)) ⟨x.1⟩) (i - 1)).val
  | .inr (.inr (.inr (.inl i))) => (vadd (liftV A (dec x.2).angVel) (smulR (mv (inv3 (liftMat A p.inertia))
      (Dyn.totalTorque (liftV A (dec x.2).angVel) (liftMat A p.inertia)
      (Model.motorTorque (coreL p ms A) (liftV A (dec x.2).motVel) (Dyn.motorDerivative (fun i => liftMotor A (ms i))
        (Dyn.clampMotors (fun i => liftMotor A (ms i)) (liftV A act)) (liftV A (dec x.2).motVel)))
      (Model.aeroMoment (liftMat A p.aero) (liftV A (dec x.2).angVel)) vzero)) ⟨x.1⟩) i).val
  | .inr (.inr (.inr (.inr i))) => (clampVal (vadd (liftV A (dec x.2).motVel) (smulR (Dyn.motorDerivative
      (fun i => liftMotor A (ms i)) (Dyn.clampMotors (fun i => liftMotor A (ms i)) (liftV A act)) (liftV A (dec x.2).motVel))
      ⟨x.1⟩) i) ⟨(ms i).minSpeed⟩ ⟨(ms i).maxSpeed⟩).val

/-- ... over the reals. -/
noncomputable def preR (x : Inp n) : Coord n → ℝ
  | .inr (.inr (.inr (.inr i))) => clampVal (x.2 (.inr (.inr (.inr (.inr i)))) +
      x.1 * rhs p ms act ext x.2 (.inr (.inr (.inr (.inr i))))) (ms i).minSpeed (ms i).maxSpeed
  | k => x.2 k + x.1 * rhs p ms act ext x.2 k

variable {p ms act ext}

lemma app_pre (hJ : p.inertia.det ≠ 0) (hl : ∀ i, (ms i).minSpeed ≤ (ms i).maxSpeed) (k : Coord n) :
    App (fun A x => pre p ms act ext A x k) (fun x => preR p ms act ext x k) := by
  let _ : Noise ℝ := ⟨fun _ _ _ => 0⟩
  let d : Inp n → Dyn ℝ n := fun x => ⟨⟨none, none, ⟨0, 0⟩, vzero, vzero⟩, dec x.2⟩
  have hrates := fun x : Inp n => step_rates (p := p) act ext x.1 (d x) hl
  rcases k with i | i | i | i | i
  · refine App.congr (app_pos.add (app_vel.smulR app_h) i) (fun _ _ => rfl) fun x => ?_
    simp only [preR, vadd_real, smulR_real, Pi.add_apply, Pi.smul_apply, smul_eq_mul]
    rfl
  · refine App.congr (app_vel.add (((app_force p ms ext).sdiv p.mass).smulR app_h) i) (fun _ _ => rfl) fun x => ?_
    have := congrFun (Dyn.es_vel (Model.coreOf p ms) ms (d x) act x.1 ext false) i
    rw [(hrates x).1] at this
    exact this.symm
  · have key := fun x : Inp n => Quat.integrate_eq (dec x.2).ori (dec x.2).angVel x.1
    have e : ∀ x : Inp n, vadd (dec x.2).ori.coeffs (smulR (quatDerivative (dec x.2).ori (dec x.2).angVel) x.1) (i - 1) =
        preR p ms act ext x (.inr (.inr (.inl i))) := by
      intro x
      fin_cases i
      · refine (congrArg Quat.w (key x)).trans ?_
        simp [preR, rhs, oriRate, dec]
        ring
      · refine (congrArg Quat.x (key x)).trans ?_
        simp [preR, rhs, oriRate, dec]
        ring
      · refine (congrArg Quat.y (key x)).trans ?_
        simp [preR, rhs, oriRate, dec]
        ring
      · refine (congrArg Quat.z (key x)).trans ?_
        simp [preR, rhs, oriRate, dec]
        ring
    exact App.congr (app_preori (i - 1)) (fun _ _ => rfl) fun x => (e x).symm
  · refine App.congr (app_om.add ((AppV.mv (AppM.inv hJ) (app_torque p ms act hl)).smulR app_h) i) (fun _ _ => rfl) fun x => ?_
    have := congrFun (Dyn.es_angVel (Model.coreOf p ms) ms (d x) act x.1 ext false) i
    rw [(hrates x).2.2] at this
    exact this.symm
  · refine App.congr (AppF.clamp (app_mot.add ((app_motAcc ms act hl).smulR app_h) i) (hl i)) (fun _ _ => rfl) fun x => ?_
    have := congrFun (Dyn.es_motVel (Model.coreOf p ms) ms (d x) act x.1 ext false) i
    rw [(hrates x).2.1] at this
    exact this.symm

end

/-- Normalisation of a vector of length almost one. -/
lemma normalized_close {A : Rounding} {v : Vec 4 (Fl A)} {g : Vec 4 ℝ} {K δ : ℝ} (hK : 1 ≤ K) (hu : A.u ≤ δ)
    (hv : ∀ i, |(v i).val - g i| ≤ K * A.u) (hg : ∀ i, |g i| ≤ K) (hZ : |∑ i, g i ^ 2 - 1| ≤ K * δ)
    (hδ : 1000 * K ^ 2 * δ ≤ 1) (i : Fin 4) : |(Verif.normalized v i).val - g i| ≤ 1000 * K ^ 3 * δ := by
  have hu0 := A.u_nonneg
  have hδ0 : 0 ≤ δ := hu0.trans hu
  have hK2 : 1 ≤ K ^ 2 := one_le_pow₀ hK
  have hKK : K ≤ K ^ 2 := by nlinarith
  have hKδ : K ^ 2 * δ ≤ 1 / 1000 := by linarith
  have hδs : δ ≤ 1 / 1000 := le_trans (le_mul_of_one_le_left hδ0 hK2) hKδ
  have hus : A.u ≤ 1 / 1000 := hu.trans hδs
  have hKu : K * A.u ≤ 1 / 1000 := (mul_le_mul hKK hu hu0 (by positivity)).trans hKδ
  have hvb : ∀ i, |(v i).val| ≤ 2 * K := by
    intro i
    have := abs_sub_abs_le_abs_sub (v i).val (g i)
    have := hv i
    have := hg i
    linarith
  set Z := ∑ i, (v i).val ^ 2 with hZd
  have hZ0 : 0 ≤ Z := Finset.sum_nonneg fun i _ => sq_nonneg _
  have hZg : |Z - ∑ i, g i ^ 2| ≤ 12 * K ^ 2 * δ := by
    rw [hZd, ← Finset.sum_sub_distrib]
    have : ∀ i ∈ Finset.univ, |(v i).val ^ 2 - g i ^ 2| ≤ 3 * K ^ 2 * δ := by
      intro i _
      have e : (v i).val ^ 2 - g i ^ 2 = ((v i).val - g i) * ((v i).val + g i) := by ring
      rw [e, abs_mul]
      have h1 : |(v i).val + g i| ≤ 3 * K := (abs_add_le _ _).trans (by linarith [hvb i, hg i])
      have h2 : |(v i).val - g i| ≤ K * δ := (hv i).trans (mul_le_mul_of_nonneg_left hu (by linarith))
      have := mul_le_mul h2 h1 (abs_nonneg _) (by positivity)
      nlinarith
    refine (Finset.abs_sum_le_sum_abs _ _).trans ((Finset.sum_le_sum this).trans ?_)
    simp
    nlinarith
  have hZ1 : |Z - 1| ≤ 13 * K ^ 2 * δ := by
    have e : Z - 1 = (Z - ∑ i, g i ^ 2) + (∑ i, g i ^ 2 - 1) := by ring
    rw [e]
    refine (abs_add_le _ _).trans ((add_le_add hZg hZ).trans ?_)
    have := mul_le_mul_of_nonneg_right hKK hδ0
    linarith
  have hZh : 1 / 2 ≤ Z := by linarith [(abs_le.1 hZ1).1]
  have hp : ∀ m, (1 + A.u) ^ m - 1 ≤ 2 ^ m * A.u := by
    intro m
    have := A.pow_sub_le (c := 1) one_pos (by linarith) m
    rw [div_one] at this
    refine this.trans (mul_le_mul_of_nonneg_right ?_ hu0)
    norm_num
  have hN : A.Near 5 Z (normSq v).val Z := by
    have h : ∀ i, A.Near 1 ((v i).val ^ 2) ((v i) ⊠ (v i)).val ((v i).val ^ 2) := by
      intro i
      have := near_prod (A := A) (v i).val (v i).val
      rw [abs_mul_abs_self] at this
      rw [sq]
      exact this
    exact Rounding.Near.sum h
  have hpos : 0 < (normSq v).val := by
    have h1 := (abs_le.1 hN.1).1
    have h2 := hp 5
    nlinarith
  have hr : A.Near 6 (√Z) (Flt.sqrt (normSq v)).val (√Z) := (hN.sqrt hpos.le).rnd
  have hlt : Flt.lt (lit 0) (normSq v) = true := by rw [lt_val, lit_zero_val]; simpa using hpos
  have hs1 : |√Z - 1| ≤ 13 * K ^ 2 * δ := by
    have hs := Real.sqrt_nonneg Z
    have e : (√Z - 1) * (√Z + 1) = Z - 1 := by nlinarith [Real.mul_self_sqrt hZ0]
    have : |√Z - 1| * (√Z + 1) ≤ 13 * K ^ 2 * δ := by
      rw [← abs_of_nonneg (show 0 ≤ √Z + 1 by linarith), ← abs_mul, e]
      exact hZ1
    nlinarith [abs_nonneg (√Z - 1)]
  have hs2 : √Z ≤ 2 := by linarith [(abs_le.1 hs1).2]
  have hr1 : |(Flt.sqrt (normSq v)).val - 1| ≤ 141 * K ^ 2 * δ := by
    have e : (Flt.sqrt (normSq v)).val - 1 = ((Flt.sqrt (normSq v)).val - √Z) + (√Z - 1) := by ring
    rw [e]
    have h6 := mul_le_mul (hp 6) hs2 (Real.sqrt_nonneg _) (by positivity)
    have h7 := hr.1
    refine (abs_add_le _ _).trans ?_
    have h8 : δ ≤ K ^ 2 * δ := le_mul_of_one_le_left hδ0 hK2
    linarith
  have hval : (Verif.normalized v i).val = A.rnd ((v i).val / (Flt.sqrt (normSq v)).val) := by
    unfold Verif.normalized
    rw [if_pos hlt]
    rfl
  rw [hval]
  set r := (Flt.sqrt (normSq v)).val
  have hrh : 1 / 2 ≤ r := by linarith [(abs_le.1 hr1).1]
  have hr0 : 0 < r := by linarith
  have hq : |(v i).val / r| ≤ 4 * K := by
    rw [abs_div, abs_of_pos hr0, div_le_iff₀ hr0]
    have := hvb i
    nlinarith
  have hd : |(v i).val / r - (v i).val| ≤ 564 * K ^ 3 * δ := by
    have e : (v i).val / r - (v i).val = (v i).val / r * (1 - r) := by field_simp
    rw [e, abs_mul, abs_sub_comm 1 r]
    refine (mul_le_mul hq hr1 (abs_nonneg _) (by positivity)).trans (le_of_eq ?_)
    ring
  have hrr := A.rnd_err ((v i).val / r)
  have hrr' : |A.rnd ((v i).val / r) - (v i).val / r| ≤ 4 * K ^ 3 * δ := by
    refine hrr.trans ((mul_le_mul hu hq (abs_nonneg _) hδ0).trans ?_)
    have : K ≤ K ^ 3 := by nlinarith
    nlinarith
  have hvv : |(v i).val - g i| ≤ K ^ 3 * δ := by
    refine (hv i).trans (mul_le_mul ?_ hu hu0 (by positivity))
    nlinarith
  have e : A.rnd ((v i).val / r) - g i = (A.rnd ((v i).val / r) - (v i).val / r) + ((v i).val / r - (v i).val) + ((v i).val - g i) := by
    ring
  rw [e]
  refine (abs_add_le _ _).trans ((add_le_add (abs_add_le _ _) le_rfl).trans ?_)
  have : 0 ≤ K ^ 3 * δ := by positivity
  linarith

section
variable {n : ℕ} {p : ModelParams ℝ} {ms : Fin n → Motor ℝ} {act : Vec n ℝ} {ext : Vec 3 ℝ}

/-- Invariant of a simulated flight. -/
structure FlyingL (p : ModelParams ℝ) (ms : Fin n → Motor ℝ) (A : Rounding) (d : Dyn (Fl A) n) : Prop where
  core : d.model.core = some (coreL p ms A)
  near : NearUnit d.state.ori
  lo : ∀ i, (ms i).minSpeed ≤ (d.state.motVel i).val
  hi : ∀ i, (d.state.motVel i).val ≤ (ms i).maxSpeed

/-- One update, in coordinates. -/
def stepL (p : ModelParams ℝ) (ms : Fin n → Motor ℝ) (act : Vec n ℝ) (ext : Vec 3 ℝ) (A : Rounding) (h : ℝ)
    (a b : Coord n → ℝ) : Prop :=
  ∃ (_ : Noise (Fl A)) (d d' : Dyn (Fl A) n), FlyingL p ms A d ∧ d.process (liftV A act) ⟨h⟩ (liftV A ext) false = .ok d' ∧
    enc (valState d.state) = a ∧ enc (valState d'.state) = b

lemma process_small_rounded {A : Rounding} [Noise (Fl A)] (hu : A.u ≤ 1 / 128) {d d' : Dyn (Fl A) n} {act : Vec n (Fl A)} {h : ℝ}
    (h0 : 0 < h) (h1 : h ≤ 1 / 200) {ext : Vec 3 (Fl A)} {noise : Bool} (hco : d.model.core = some (coreL p ms A))
    (hmo : Model.motorFn n (liftParams A p).motors = some fun i => liftMotor A (ms i))
    (hp : d.process act ⟨h⟩ ext noise = .ok d') : (∀ i, (ms i).minSpeed ≤ (ms i).maxSpeed) ∧
    d' = Dyn.eulerStep (coreL p ms A) (fun i => liftMotor A (ms i)) d act ⟨h⟩ ext noise := by
  have hm : h ≤ (Dyn.maxStep : Fl A).val := by
    have h : (Dyn.maxStep : Fl A).val = A.rnd (1 / 100) := by simp [Dyn.maxStep, lit]
    rw [h]
    have := (abs_le.1 (A.rnd_err (1 / 100))).1
    rw [abs_of_pos (by norm_num)] at this
    linarith
  rw [Dyn.process_small _ _ _ _ _ (by simpa [le_val, decide_eq_false_iff_not] using h0)
      (by simpa [lt_val, decide_eq_false_iff_not] using hm)] at hp
  obtain ⟨c, ms', e1, e2, e3, rfl⟩ := Dyn.singleStep_ok hp
  rw [hco, Option.some.injEq] at e1
  subst e1
  have : ms' = fun i => liftMotor A (ms i) := by
    rw [show (coreL p ms A).params = liftParams A p from rfl, hmo, Option.some.injEq] at e2
    exact e2.symm
  subst this
  refine ⟨fun i => ?_, rfl⟩
  simp only [Dyn.clampOk, List.all_eq_true, List.mem_finRange, true_imp_iff, Bool.not_eq_true', lt_val,
    decide_eq_false_iff_not, not_lt] at e3
  exact e3 i

lemma clamp_mem {lo hi : ℝ} (h : lo ≤ hi) (x : ℝ) : lo ≤ clampVal x lo hi ∧ clampVal x lo hi ≤ hi := by
  rw [clamp_saturate h]
  exact saturate_mem h x

/-- The invariant is kept. -/
lemma flyingL_step {A : Rounding} [Noise (Fl A)] (hu : A.u ≤ 1 / 128) {h : ℝ} {d d' : Dyn (Fl A) n}
    (hmo : Model.motorFn n (liftParams A p).motors = some fun i => liftMotor A (ms i)) (h0 : 0 < h) (h1 : h ≤ 1 / 200)
    (hd : FlyingL p ms A d) (hp : d.process (liftV A act) ⟨h⟩ (liftV A ext) false = .ok d') : FlyingL p ms A d' := by
  obtain ⟨hlim, rfl⟩ := process_small_rounded hu h0 h1 hd.core hmo hp
  have hval : ∀ a i, (clampVal a (liftMotor A (ms i)).minSpeed (liftMotor A (ms i)).maxSpeed).val =
    clampVal a.val (ms i).minSpeed (ms i).maxSpeed := fun a i => clampVal_val a _ _
  refine ⟨(Dyn.eulerStep_core ..).trans hd.core, ?_, fun i => ?_, fun i => ?_⟩
  · exact quatIntegrate_near hu (hd.near.nonzero hu) _ _
  · refine le_of_le_of_eq ?_ (hval _ i).symm
    exact (clamp_mem (hlim i) _).1
  · refine le_of_eq_of_le (hval _ i) ?_
    exact (clamp_mem (hlim i) _).2

lemma sum_pre (x : Inp n) : ∑ j : Fin 4, preR p ms act ext x (.inr (.inr (.inl (j + 1)))) ^ 2 =
    (dec x.2).ori.n2 * (1 + x.1 ^ 2 / 4 * ((dec x.2).angVel 0 ^ 2 + (dec x.2).angVel 1 ^ 2 + (dec x.2).angVel 2 ^ 2)) := by
  rw [Fin.sum_univ_four]
  simp only [preR, rhs, oriRate, show (0 : Fin 4) + 1 = 1 from rfl, show (1 : Fin 4) + 1 = 2 from rfl,
    show (2 : Fin 4) + 1 = 3 from rfl, show (3 : Fin 4) + 1 = 0 from rfl, Quat.n2]
  simp [dec]
  ring

/-- One step in coordinates, apart from the orientation. -/
lemma enc_step {A : Rounding} [Noise (Fl A)] (d : Dyn (Fl A) n) (h : ℝ) :
    (∀ i, enc (valState (Dyn.eulerStep (coreL p ms A) (fun i => liftMotor A (ms i)) d (liftV A act) ⟨h⟩ (liftV A ext) false).state)
      (.inl i) = pre p ms act ext A (h, enc (valState d.state)) (.inl i)) ∧
    (∀ i, enc (valState (Dyn.eulerStep (coreL p ms A) (fun i => liftMotor A (ms i)) d (liftV A act) ⟨h⟩ (liftV A ext) false).state)
      (.inr (.inl i)) = pre p ms act ext A (h, enc (valState d.state)) (.inr (.inl i))) ∧
    (∀ i, enc (valState (Dyn.eulerStep (coreL p ms A) (fun i => liftMotor A (ms i)) d (liftV A act) ⟨h⟩ (liftV A ext) false).state)
      (.inr (.inr (.inr (.inl i)))) = pre p ms act ext A (h, enc (valState d.state)) (.inr (.inr (.inr (.inl i))))) ∧
    (∀ i, enc (valState (Dyn.eulerStep (coreL p ms A) (fun i => liftMotor A (ms i)) d (liftV A act) ⟨h⟩ (liftV A ext) false).state)
      (.inr (.inr (.inr (.inr i)))) = pre p ms act ext A (h, enc (valState d.state)) (.inr (.inr (.inr (.inr i))))) :=
  ⟨fun _ => rfl, fun _ => rfl, fun _ => rfl, fun _ => rfl⟩

/-- ... the orientation. -/
lemma enc_step_ori {A : Rounding} [Noise (Fl A)] (d : Dyn (Fl A) n) (h : ℝ) (i : Fin 4) :
    enc (valState (Dyn.eulerStep (coreL p ms A) (fun i => liftMotor A (ms i)) d (liftV A act) ⟨h⟩ (liftV A ext) false).state)
      (.inr (.inr (.inl i))) =
    (Verif.normalized (vadd d.state.ori.coeffs (smulR (quatDerivative d.state.ori d.state.angVel) ⟨h⟩)) (i - 1)).val := by
  have e : (Dyn.eulerStep (coreL p ms A) (fun i => liftMotor A (ms i)) d (liftV A act) ⟨h⟩ (liftV A ext) false).state.ori =
    Quat.ofCoeffs (Verif.normalized (vadd d.state.ori.coeffs (smulR (quatDerivative d.state.ori d.state.angVel) ⟨h⟩))) := by
    have h4 : ∀ v : Vec 4 (Fl A), (Quat.ofCoeffs v).coeffs = v := fun v => by funext j; fin_cases j <;> rfl
    show (Quat.ofCoeffs _).normalized = _
    unfold Quat.normalized
    rw [h4]
  simp only [enc, valState, e, valQ]
  generalize Verif.normalized (vadd d.state.ori.coeffs (smulR (quatDerivative d.state.ori d.state.angVel) ⟨h⟩)) = v
  fin_cases i <;> rfl

lemma pre_ori {A : Rounding} (d : Dyn (Fl A) n) (h : ℝ) (j : Fin 4) :
    pre p ms act ext A (h, enc (valState d.state)) (.inr (.inr (.inl (j + 1)))) =
      (vadd d.state.ori.coeffs (smulR (quatDerivative d.state.ori d.state.angVel) ⟨h⟩) j).val := by
  have hv : j + 1 - 1 = j := by fin_cases j <;> rfl
  simp only [pre, hv]
  rfl

lemma preR_exact (x : Inp n) : (∀ i, preR p ms act ext x (.inl i) = x.2 (.inl i) + x.1 * rhs p ms act ext x.2 (.inl i)) ∧
    (∀ i, preR p ms act ext x (.inr (.inl i)) = x.2 (.inr (.inl i)) + x.1 * rhs p ms act ext x.2 (.inr (.inl i))) ∧
    (∀ i, preR p ms act ext x (.inr (.inr (.inl i))) =
      x.2 (.inr (.inr (.inl i))) + x.1 * rhs p ms act ext x.2 (.inr (.inr (.inl i)))) ∧
    (∀ i, preR p ms act ext x (.inr (.inr (.inr (.inl i)))) =
      x.2 (.inr (.inr (.inr (.inl i)))) + x.1 * rhs p ms act ext x.2 (.inr (.inr (.inr (.inl i))))) :=
  ⟨fun _ => rfl, fun _ => rfl, fun _ => rfl, fun _ => rfl⟩

/-- The orientation after one step. -/
lemma ori_close {A : Rounding} {d : Dyn (Fl A) n} {h K R δ : ℝ} (hu : A.u ≤ 1 / 200)
    (hn : NearUnit d.state.ori) (hR : ‖enc (valState d.state)‖ ≤ R) (hK : 16 + 2 * R ^ 2 ≤ K) (hδ : δ = h ^ 2 + A.u)
    (hm : ∀ k, |pre p ms act ext A (h, enc (valState d.state)) k - preR p ms act ext (h, enc (valState d.state)) k| ≤ K * A.u ∧
      |preR p ms act ext (h, enc (valState d.state)) k| ≤ K) (hs : 1000 * K ^ 2 * δ ≤ 1) (i : Fin 4) :
    |(Verif.normalized (vadd d.state.ori.coeffs (smulR (quatDerivative d.state.ori d.state.angVel) ⟨h⟩)) (i - 1)).val -
      preR p ms act ext (h, enc (valState d.state)) (.inr (.inr (.inl i)))| ≤ 1000 * K ^ 3 * δ := by
  have hu0 := A.u_nonneg
  have hR2 := sq_nonneg R
  have hn' : |(valQ d.state.ori).n2 - 1| ≤ 16 * A.u := hn
  have hom : ∀ j, (d.state.angVel j).val ^ 2 ≤ R ^ 2 := by
    intro j
    have := (norm_le_pi_norm (enc (valState d.state)) (.inr (.inr (.inr (.inl j))))).trans hR
    change |(d.state.angVel j).val| ≤ R at this
    exact sq_le_sq' (by linarith [(abs_le.1 this).1]) (abs_le.1 this).2
  have hlen : |∑ j : Fin 4, preR p ms act ext (h, enc (valState d.state)) (.inr (.inr (.inl (j + 1)))) ^ 2 - 1| ≤ K * δ := by
    rw [sum_pre]
    have e0 : (dec (h, enc (valState d.state)).2).ori = valQ d.state.ori := rfl
    have e1 : ∀ j, (dec (h, enc (valState d.state)).2).angVel j = (d.state.angVel j).val := fun j => rfl
    rw [e0, e1, e1, e1]
    simp only
    set s := h ^ 2 / 4 * ((d.state.angVel 0).val ^ 2 + (d.state.angVel 1).val ^ 2 + (d.state.angVel 2).val ^ 2) with hs
    have hs0 : 0 ≤ s := by positivity
    have hs1 : s ≤ R ^ 2 * h ^ 2 := by
      rw [hs]
      nlinarith [hom 0, hom 1, hom 2, sq_nonneg h]
    have e : (valQ d.state.ori).n2 * (1 + s) - 1 = ((valQ d.state.ori).n2 - 1) + (valQ d.state.ori).n2 * s := by ring
    rw [e]
    refine (abs_add_le _ _).trans ?_
    have h2 : (valQ d.state.ori).n2 ≤ 2 := by linarith [(abs_le.1 hn').2]
    have h3 : |(valQ d.state.ori).n2 * s| ≤ 2 * (R ^ 2 * h ^ 2) := by
      rw [abs_of_nonneg (mul_nonneg (Quat.n2_nonneg _) hs0)]
      exact mul_le_mul h2 hs1 hs0 (by norm_num)
    have h4 : (16 + 2 * R ^ 2) * δ ≤ K * δ := mul_le_mul_of_nonneg_right hK (by rw [hδ]; positivity)
    rw [hδ] at h4 ⊢
    nlinarith [mul_nonneg hR2 hu0, sq_nonneg h]
  have hi : i - 1 + 1 = i := by fin_cases i <;> rfl
  have close := normalized_close (A := A) (K := K) (δ := δ)
    (v := vadd d.state.ori.coeffs (smulR (quatDerivative d.state.ori d.state.angVel) ⟨h⟩))
    (g := fun j => preR p ms act ext (h, enc (valState d.state)) (.inr (.inr (.inl (j + 1))))) (by linarith)
    (by rw [hδ]; nlinarith [sq_nonneg h])
    (fun j => by
      have := (hm (.inr (.inr (.inl (j + 1))))).1
      rwa [pre_ori] at this)
    (fun j => (hm _).2) hlen hs (i - 1)
  simp only [hi] at close
  exact close

lemma step_error_rounded (hJ : p.inertia.det ≠ 0) (ht : ∀ i, 0 < (ms i).tau) (R : ℝ) :
    ∃ C, 0 ≤ C ∧ ∀ A h a b, 0 < h → C * h ≤ 1 → C * A.u ≤ 1 → ‖a‖ ≤ R →
      (Model.motorFn n (liftParams A p).motors = some (fun i => liftMotor A (ms i)) ∧ stepL p ms act ext A h a b) →
      ‖b - a - h • rhs p ms act ext a‖ ≤ C * (h ^ 2 + A.u) := by
  by_cases hl : ∀ i, (ms i).minSpeed ≤ (ms i).maxSpeed
  swap
  · refine ⟨200, by norm_num, ?_⟩
    rintro A h a b h0 hh hu - ⟨hmo, _, d, d', hd, hp, -, -⟩
    exact absurd (process_small_rounded (by linarith) h0 (by linarith) hd.core hmo hp).1 hl
  obtain ⟨K, c, hK, hc, main⟩ := App.uniform (app_pre (act := act) (ext := ext) hJ hl) (max 1 R)
  set K' := K + 16 + 2 * R ^ 2 with hK'
  have hR2 := sq_nonneg R
  have hK1 : 1 ≤ K' := by linarith
  have hKK : K ≤ K' := by linarith
  set τ := ∑ i, 1 / (ms i).tau with hτ
  have hτ0 : 0 ≤ τ := Finset.sum_nonneg fun i _ => (one_div_pos.2 (ht i)).le
  have hcp : 0 < 1 / c := one_div_pos.2 hc
  refine ⟨1000 * K' ^ 3 + 2000 * K' ^ 2 + 1 / c + τ + 200, by positivity, ?_⟩
  rintro A h a b h0 hh hu ha ⟨hmo, _, d, d', hd, hp, rfl, rfl⟩
  have hu0 := A.u_nonneg
  have hK2 : 1 ≤ K' ^ 2 := one_le_pow₀ hK1
  have hK3 : 1 ≤ K' ^ 3 := one_le_pow₀ hK1
  have b1 : 0 ≤ 1000 * K' ^ 3 + 2000 * K' ^ 2 + 1 / c + τ := by positivity
  have hh200 : h ≤ 1 / 200 := by nlinarith
  have hu200 : A.u ≤ 1 / 200 := by nlinarith
  have huc : A.u ≤ c := by
    have : 1 / c * A.u ≤ 1 := by
      refine le_trans (mul_le_mul_of_nonneg_right ?_ hu0) hu
      linarith
    rwa [div_mul_eq_mul_div, one_mul, div_le_one hc] at this
  have hhτ : ∀ i, h ≤ (ms i).tau := by
    intro i
    have h1 : 1 / (ms i).tau ≤ τ := Finset.single_le_sum (f := fun i => 1 / (ms i).tau)
      (fun i _ => (one_div_pos.2 (ht i)).le) (Finset.mem_univ i)
    have : 1 / (ms i).tau * h ≤ 1 := by
      refine le_trans (mul_le_mul_of_nonneg_right ?_ h0.le) hh
      linarith
    rwa [div_mul_eq_mul_div, one_mul, div_le_one (ht i)] at this
  obtain ⟨-, rfl⟩ := process_small_rounded (by linarith) h0 hh200 hd.core hmo hp
  set x : Inp n := (h, enc (valState d.state)) with hx
  have hxn : ‖x‖ ≤ max 1 R := by
    rw [hx, Prod.norm_mk]
    refine max_le_max ?_ ha
    rw [Real.norm_of_nonneg h0.le]
    linarith
  have hm := main A huc x hxn
  set δ := h ^ 2 + A.u with hδ
  have hδ0 : 0 ≤ δ := by positivity
  have huδ : A.u ≤ δ := by rw [hδ]; nlinarith [sq_nonneg h]
  have hC : K' * δ ≤ (1000 * K' ^ 3 + 2000 * K' ^ 2 + 1 / c + τ + 200) * δ := by
    refine mul_le_mul_of_nonneg_right ?_ hδ0
    nlinarith
  have small : ∀ k, |pre p ms act ext A x k - preR p ms act ext x k| ≤ (1000 * K' ^ 3 + 2000 * K' ^ 2 + 1 / c + τ + 200) * δ :=
    fun k => (hm k).1.trans ((mul_le_mul hKK huδ hu0 (by linarith)).trans hC)
  rw [pi_norm_le_iff_of_nonneg (by positivity)]
  intro i
  simp only [Pi.sub_apply, Pi.smul_apply, smul_eq_mul, Real.norm_eq_abs, sub_sub]
  rcases i with i | i | i | i | i
  · rw [(enc_step d h).1, ← (preR_exact x).1 i]
    exact small _
  · rw [(enc_step d h).2.1, ← (preR_exact x).2.1 i]
    exact small _
  · have hsm : 1000 * K' ^ 2 * δ ≤ 1 := by
      have e1 : δ ≤ h + A.u := by rw [hδ]; nlinarith
      have e2 : 2000 * K' ^ 2 * h ≤ 1 := by
        refine le_trans (mul_le_mul_of_nonneg_right ?_ h0.le) hh
        have : 0 ≤ K' ^ 3 := by positivity
        linarith
      have e3 : 2000 * K' ^ 2 * A.u ≤ 1 := by
        refine le_trans (mul_le_mul_of_nonneg_right ?_ hu0) hu
        have : 0 ≤ K' ^ 3 := by positivity
        linarith
      have e4 := mul_le_mul_of_nonneg_left e1 (show 0 ≤ 1000 * K' ^ 2 by positivity)
      linarith
    have close := ori_close (p := p) (ms := ms) (act := act) (ext := ext) (h := h) hu200 hd.near ha
      (show 16 + 2 * R ^ 2 ≤ K' by linarith) hδ
      (fun k => ⟨(hm k).1.trans (mul_le_mul_of_nonneg_right hKK hu0), (hm k).2.trans hKK⟩) hsm i
    rw [enc_step_ori, ← (preR_exact x).2.2.1 i]
    refine close.trans (mul_le_mul_of_nonneg_right ?_ hδ0)
    have : 0 ≤ K' ^ 2 := by positivity
    linarith
  · rw [(enc_step d h).2.2.1, ← (preR_exact x).2.2.2 i]
    exact small _
  · have := rotor_inside (w := (valState d.state).motVel i) h0 (hhτ i) (saturate_mem (hl i) (act i)) ⟨hd.lo i, hd.hi i⟩
    have e : preR p ms act ext x (.inr (.inr (.inr (.inr i)))) = enc (valState d.state) (.inr (.inr (.inr (.inr i)))) +
        h * rhs p ms act ext (enc (valState d.state)) (.inr (.inr (.inr (.inr i)))) := by
      simp only [preR]
      rw [clamp_saturate (hl i)]
      exact saturate_id this.1 this.2
    rw [(enc_step d h).2.2.2, ← e]
    exact small _

end

/-! ## C102 -/

/-- **C102.** Let `x` be a solution of the equations of motion as in C95.  There is a constant `C` such that every
simulation that starts in the same state and runs in any arithmetic with rounding errors of relative size `u`, with any
period `h` for which `C (h + u / h) ≤ 1`, is at all times `k h ≤ T` within `C (h + u / h)` of the solution, in every
quantity of the state.  The constant depends neither on the period nor on the arithmetic. -/
theorem C102_rounded_convergence {n : ℕ} (p : ModelParams ℝ) (ms : Fin n → Motor ℝ) (act : Vec n ℝ) (ext : Vec 3 ℝ)
    (T : ℝ) (x : ℝ → State ℝ n) (hp : Regular p ms) (ht : ∀ i, 0 < (ms i).tau) (hT : 0 ≤ T)
    (hx : Motion p ms act ext T x)
    (hlim : ∀ i, (ms i).minSpeed ≤ (x 0).motVel i ∧ (x 0).motVel i ≤ (ms i).maxSpeed) :
    ∃ C, 0 < C ∧ ∀ (A : Rounding) (_ : Noise (Fl A)) (h : ℝ) (d : ℕ → Dyn (Fl A) n), 0 < h → C * (h + A.u / h) ≤ 1 →
      RunsOn (d 0) (liftParams A p) (fun i => liftMotor A (ms i)) → SameMotion (valState (d 0).state) (x 0) →
      (∀ k, (d k).process (liftV A act) ⟨h⟩ (liftV A ext) false = .ok (d (k + 1))) →
      ∀ k : ℕ, k * h ≤ T → Within (C * (h + A.u / h)) (valState (d k).state) (x (k * h)) := by
  obtain ⟨C, hC, main⟩ := one_step_converges_perturbed (bl_rhs p ms act ext) (y := fun t => enc (x t))
    (motion_rhs hp hx) (P := Rounding) (u := fun A => A.u) (fun A => A.u_nonneg)
    (step_error_rounded (act := act) (ext := ext) hp.2.1 ht)
  refine ⟨C + 200, by linarith, fun A _ h d h0 hh hr hsame hs k hk => ?_⟩
  have hu0 := A.u_nonneg
  have hq0 : 0 ≤ A.u / h := by positivity
  have hε0 : 0 < h + A.u / h := by positivity
  have hhC : C * (h + A.u / h) ≤ 1 := by nlinarith
  have hε : h + A.u / h ≤ 1 / 200 := by nlinarith
  have hh200 : h ≤ 1 / 200 := by linarith
  have hu200 : A.u ≤ 1 / 128 := by
    have h1 : A.u / h ≤ 1 / 200 := by linarith
    rw [div_le_iff₀ h0] at h1
    linarith
  obtain ⟨hco, hmo⟩ := runsOn_core hr
  obtain ⟨s1, s2, s3, s4, s5⟩ := hsame
  have hfly : ∀ k, FlyingL p ms A (d k) := by
    intro k
    induction k with
    | zero =>
      refine ⟨hco, ?_, fun i => ?_, fun i => ?_⟩
      · have h1 : (valQ (d 0).state.ori).n2 = 1 := by
          have := (Quat.isUnitQ_iff _).1 (hx.unit 0 ⟨le_rfl, hT⟩)
          rw [← s3] at this
          exact this
        have h2 : lengthSq (d 0).state.ori = 1 := h1
        rw [NearUnit, h2]
        simpa using hu0
      · have := congrFun s5 i
        rw [show ((d 0).state.motVel i).val = (valState (d 0).state).motVel i from rfl, this]
        exact (hlim i).1
      · have := congrFun s5 i
        rw [show ((d 0).state.motVel i).val = (valState (d 0).state).motVel i from rfl, this]
        exact (hlim i).2
    | succ k ih => exact flyingL_step hu200 hmo h0 hh200 ih (hs k)
  have h00 : enc (valState (d 0).state) = enc (x 0) := by
    funext i
    rcases i with i | i | i | i | i <;> simp only [enc, s1, s2, s3, s4, s5]
  have e := main A h h0 hhC (fun k => enc (valState (d k).state)) h00
    (fun k => ⟨hmo, _, d k, d (k + 1), hfly k, hs k, rfl, rfl⟩) k hk
  have c : ∀ i, |enc (valState (d k).state) i - enc (x (k * h)) i| ≤ (C + 200) * (h + A.u / h) := fun i =>
    ((norm_le_pi_norm (enc (valState (d k).state) - enc (x (k * h))) i).trans e).trans
      (mul_le_mul_of_nonneg_right (by linarith) hε0.le)
  exact ⟨fun i => c (.inl i), fun i => c (.inr (.inl i)),
    ⟨c (.inr (.inr (.inl 0))), c (.inr (.inr (.inl 1))), c (.inr (.inr (.inl 2))), c (.inr (.inr (.inl 3)))⟩,
    fun i => c (.inr (.inr (.inr (.inl i)))), fun i => c (.inr (.inr (.inr (.inr i))))⟩

/-! ## A concrete flight -/

lemma check_lift_slick {A : Rounding} (hu : A.u ≤ 1 / 128) : Model.checkParams (liftParams A slick) = true := by
  have hd : lt (det3 (liftMat A (1 : Mat 3 3 ℝ))) (lit 0) = false := by
    rw [lt_val, lit_zero_val]
    have e : (det3 (liftMat A (1 : Mat 3 3 ℝ))).val = A.det 1 := rfl
    rw [e]
    exact decide_eq_false (not_lt.2 (det_one hu))
  have hz : lt (det3 (liftMat A (0 : Mat 3 3 ℝ))) (lit 0) = false := by
    rw [lt_val, lit_zero_val]
    have e : (det3 (liftMat A (0 : Mat 3 3 ℝ))).val = A.det 0 := rfl
    have e0 : A.det 0 = 0 := by
      have := A.sum_err (fun _ : Fin 3 => (0 : ℝ))
      unfold Rounding.det
      simpa using this
    rw [e, e0]
    simp
  have := check_lift_fixture hu
  unfold Model.checkParams at this ⊢
  split_ifs at this with h1 h2 h3 h4
  rw [if_neg (show ¬ lt (liftParams A slick).mass (lit 0) = true from h1),
    if_neg (show ¬ lt (det3 (liftParams A slick).inertia) (lit 0) = true from h2), if_neg, if_neg]
  · exact this
  · exact fun h => absurd (hz.symm.trans h) (by simp)
  · simp [lt_val, liftParams, slick]

/-- The falling body in rounded arithmetic. -/
noncomputable def releasedL (A : Rounding) [Noise (Fl A)] (h : ℝ) : ℕ → Dyn (Fl A) 4
  | 0 => builtFrom (liftParams A slick) (fun i => liftMotor A (Fixture.motors i)) 7 (liftState A (falling 0))
  | k + 1 => Dyn.eulerStep (coreL slick Fixture.motors A) (fun i => liftMotor A (Fixture.motors i)) (releasedL A h k) (liftV A 0) ⟨h⟩
      (liftV A 0) false

/-- Non-vacuity: the falling body is a motion; in every arithmetic with at least seven digits and with every small
period it can be simulated from the same initial state. -/
example : Regular slick Fixture.motors ∧ (∀ i, 0 < (Fixture.motors i).tau) ∧ Motion slick Fixture.motors 0 0 3 falling ∧
    (∀ i, (Fixture.motors i).minSpeed ≤ (falling 0).motVel i ∧ (falling 0).motVel i ≤ (Fixture.motors i).maxSpeed) ∧
    ∀ (A : Rounding) (_ : Noise (Fl A)) (h : ℝ), A.u ≤ 1 / 128 → 0 < h → h ≤ 1 / 200 →
      RunsOn (releasedL A h 0) (liftParams A slick) (fun i => liftMotor A (Fixture.motors i)) ∧
      SameMotion (valState (releasedL A h 0).state) (falling 0) ∧
      ∀ k, (releasedL A h k).process (liftV A 0) ⟨h⟩ (liftV A 0) false = .ok (releasedL A h (k + 1)) := by
  refine ⟨⟨by norm_num [slick, Fixture.modelParams], by simp [slick, Fixture.modelParams], fun i => ?_⟩, fun i => ?_,
    falling_motion 3, fun i => ?_, fun A _ h hu h0 h1 => ⟨?_, ⟨rfl, rfl, rfl, rfl, rfl⟩, fun k => ?_⟩⟩
  · rw [(Fixture.motors_speed i).2.2]; norm_num
  · rw [(Fixture.motors_speed i).2.2]; norm_num
  · rw [(Fixture.motors_speed i).1, (Fixture.motors_speed i).2.1]
    simp [falling]
  · refine runsOn_new _ _ 7 _ ?_ (check_lift_slick hu) ?_
    · have : slick.motors = List.ofFn Fixture.motors := rfl
      simp only [liftParams, this, List.map_ofFn, Function.comp_def]
    · simp only [liftParams, dirOk_lift]
      exact Fixture.dirOk
  · have hco : (releasedL A h k).model.core = some (coreL slick Fixture.motors A) := by
      induction k with
      | zero => rfl
      | succ k ih => exact (Dyn.eulerStep_core ..).trans ih
    have hm : h ≤ (Dyn.maxStep : Fl A).val := by
      have h : (Dyn.maxStep : Fl A).val = A.rnd (1 / 100) := by simp [Dyn.maxStep, lit]
      rw [h]
      have := (abs_le.1 (A.rnd_err (1 / 100))).1
      rw [abs_of_pos (by norm_num)] at this
      linarith
    have hk : Dyn.clampOk (fun i => liftMotor A (Fixture.motors i)) = true := by
      simp [Dyn.clampOk, lt_val, liftMotor, Fixture.motors_speed, decide_eq_false_iff_not]
    rw [Dyn.process_small _ _ _ _ _ (by simpa [le_val, decide_eq_false_iff_not] using h0)
      (by simpa [lt_val, decide_eq_false_iff_not] using hm)]
    simp only [Dyn.singleStep, hco, show (coreL slick Fixture.motors A).params.motors =
      Fixture.modelParams.motors.map (liftMotor A) from rfl, motorFn_lift Fixture.motorFn_eq, hk, if_true]
    rfl

/-- In double precision there are periods that satisfy the condition, for every constant up to ten million. -/
example (C : ℝ) (hC' : C ≤ 10 ^ 7) : ∃ h : ℝ, 0 < h ∧ C * (h + (binary 53).u / h) ≤ 1 := by
  refine ⟨(1 / 2) ^ 26, by positivity, ?_⟩
  have e : (1 / 2 : ℝ) ^ 26 + (binary 53).u / (1 / 2) ^ 26 = 3 / 2 ^ 27 := by norm_num [binary]
  rw [e]
  have : C * (3 / 2 ^ 27) ≤ 10 ^ 7 * (3 / 2 ^ 27) := mul_le_mul_of_nonneg_right hC' (by positivity)
  exact this.trans (by norm_num)

end Verif.Props
