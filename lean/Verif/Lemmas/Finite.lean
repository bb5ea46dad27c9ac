import Verif.XReal
import Verif.Model.Simulator
import Verif.Lemmas.Dyn

/-!
# Finite numbers inside arithmetic with NaN and infinities

The embedding `fin : ℝ → XReal` commutes with every operation of the code as long as no divisor is zero and
no root is taken of a negative number.  The definitions map it over the data structures.
-/

namespace Verif

open Flt XReal

/-- Map over the outcome of a call. -/
def Res.map {σ τ : Type} (f : σ → τ) : Res σ → Res τ
  | .ok s => .ok (f s)
  | .throw s => .throw (f s)
  | .bad => .bad

/-- A vector of finite numbers. -/
def vfin {n : ℕ} (v : Vec n ℝ) : Vec n XReal := fun i => fin (v i)
/-- A matrix of finite numbers. -/
def mfin {m n : ℕ} (A : Mat m n ℝ) : Mat m n XReal := fun i j => fin (A i j)
/-- A quaternion of finite numbers. -/
def qfin (q : Quat ℝ) : Quat XReal := ⟨fin q.w, fin q.x, fin q.y, fin q.z⟩

/-- The same random source. -/
noncomputable instance finNoise [Noise ℝ] : Noise XReal := ⟨fun s k i => fin (Noise.draw s k i)⟩

namespace Finite

section
variable (x y : ℝ)

lemma add_f : fin x ⊞ fin y = fin (x ⊞ y) := rfl
lemma sub_f : fin x ⊟ fin y = fin (x ⊟ y) := fin_sub x y
lemma mul_f : fin x ⊠ fin y = fin (x ⊠ y) := rfl
lemma neg_f : Flt.neg (fin x) = fin (Flt.neg x) := rfl
lemma abs_f : Flt.abs (fin x) = fin (Flt.abs x) := rfl
lemma lt_f : Flt.lt (fin x) (fin y) = Flt.lt x y := by rw [fin_lt]; rfl
lemma le_f : Flt.le (fin x) (fin y) = Flt.le x y := by rw [fin_le]; rfl
lemma beq_f : Flt.beq (fin x) (fin y) = Flt.beq x y := by rw [fin_beq]; rfl
lemma lit_f (q : ℚ) : (lit q : XReal) = fin (lit q) := rfl
lemma pi_f : (Flt.pi : XReal) = fin Flt.pi := rfl
lemma eps_f : (Flt.eps : XReal) = fin Flt.eps := rfl
lemma sin_f : Flt.sin (fin x) = fin (Flt.sin x) := rfl
lemma cos_f : Flt.cos (fin x) = fin (Flt.cos x) := rfl
lemma atan2_f : atan2 (fin x) (fin y) = fin (atan2 x y) := rfl
lemma signbit_f : signbit (fin x) = signbit x := by
  show Flt.lt (fin x) (fin 0) = _
  rw [fin_lt]; rfl
lemma copysign_f : copysign (fin x) (fin y) = fin (copysign x y) := by
  show (if Flt.lt (fin y) (fin 0) = true then Flt.neg (Flt.abs (fin x)) else Flt.abs (fin x)) = _
  rw [fin_lt]
  by_cases h : y < 0 <;> simp [h, flt, abs_f, neg_f]
lemma sqrt_f (h : 0 ≤ x) : Flt.sqrt (fin x) = fin (Flt.sqrt x) := by
  show (if x < 0 then nan else fin (Real.sqrt x)) = _
  rw [if_neg (not_lt.2 h)]; rfl
lemma asin_f (h : |x| ≤ 1) : Flt.asin (fin x) = fin (Flt.asin x) := by
  show (if |x| ≤ 1 then fin (Real.arcsin x) else nan) = _
  rw [if_pos h]; rfl
lemma div_f (h : y ≠ 0) : fin x ⊘ fin y = fin (x ⊘ y) := fin_div x h
lemma vsum_f {n : ℕ} (f : Fin n → ℝ) : vsum (fun i => fin (f i)) = fin (vsum f) := vsum_fin f

lemma ite_f (b : Bool) : (if b = true then fin x else fin y) = fin (if b = true then x else y) := by
  cases b <;> rfl

lemma sign_f : sign (fin x) = fin (sign x) := by
  unfold sign
  rw [lit_f, lt_f, lt_f, lit_f, lit_f, ite_f, ite_f]

lemma clampVal_f (z : ℝ) : clampVal (fin x) (fin y) (fin z) = fin (clampVal x y z) := by
  unfold clampVal
  rw [lt_f, lt_f, ite_f, ite_f]
end

open Classical in
lemma det3_f (A : Mat 3 3 ℝ) : det3 (mfin A) = fin (det3 A) := by
  have h : AllFin (mfin A) := fun i j => ⟨A i j, rfl⟩
  show (if AllFin (mfin A) then fin (Matrix.det ((mfin A).map toReal)) else nan) = _
  rw [if_pos h]; rfl

open Classical in
lemma inv3_f (A : Mat 3 3 ℝ) (hd : A.det ≠ 0) : inv3 (mfin A) = mfin (inv3 A) := by
  have h : AllFin (mfin A) ∧ Matrix.det ((mfin A).map toReal) ≠ 0 := ⟨fun i j => ⟨A i j, rfl⟩, hd⟩
  exact if_pos h

open Classical in
lemma inv4_f (A : Mat 4 4 ℝ) (hd : A.det ≠ 0) : inv4 (mfin A) = mfin (inv4 A) := by
  have h : AllFin (mfin A) ∧ Matrix.det ((mfin A).map toReal) ≠ 0 := ⟨fun i j => ⟨A i j, rfl⟩, hd⟩
  exact if_pos h

section
variable {m n k : ℕ} (u v : Vec n ℝ) (c : ℝ)

lemma vzero_f : (vzero : Vec n XReal) = vfin vzero := rfl
lemma vones_f : (vones : Vec n XReal) = vfin vones := rfl
lemma vadd_f : vadd (vfin u) (vfin v) = vfin (vadd u v) := rfl
lemma vsub_f : vsub (vfin u) (vfin v) = vfin (vsub u v) := by ext i; exact sub_f _ _
lemma vneg_f : vneg (vfin u) = vfin (vneg u) := rfl
lemma smulL_f : smulL (fin c) (vfin v) = vfin (smulL c v) := rfl
lemma smulR_f : smulR (vfin v) (fin c) = vfin (smulR v c) := rfl
lemma sdiv_f (h : c ≠ 0) : sdiv (vfin v) (fin c) = vfin (sdiv v c) := by ext i; exact div_f _ _ h
lemma vmul_f : vmul (vfin u) (vfin v) = vfin (vmul u v) := rfl
lemma dot_f : dot (vfin u) (vfin v) = fin (dot u v) := vsum_f _
lemma normSq_f : normSq (vfin v) = fin (normSq v) := vsum_f _
lemma normSq_nonneg : 0 ≤ normSq v := by rw [normSq_real]; exact dot_self_nonneg v
lemma norm_f : Verif.norm (vfin v) = fin (Verif.norm v) := by
  unfold Verif.norm
  rw [normSq_f, sqrt_f _ (normSq_nonneg v)]
lemma normalized_f : Verif.normalized (vfin v) = vfin (Verif.normalized v) := by
  unfold Verif.normalized
  rw [normSq_f, lit_f, lt_f, sqrt_f _ (normSq_nonneg v)]
  by_cases h : Flt.lt (lit 0) (normSq v) = true
  · rw [if_pos h, if_pos h, sdiv_f]
    have : 0 < normSq v := by simpa [flt] using h
    rw [sqrt_real]
    exact (Real.sqrt_pos.2 this).ne'
  · rw [if_neg h, if_neg h]

lemma vec3_f (a b c : ℝ) : (![fin a, fin b, fin c] : Vec 3 XReal) = vfin ![a, b, c] := by
  ext i; fin_cases i <;> rfl
lemma vec4_f (a b c d : ℝ) : (![fin a, fin b, fin c, fin d] : Vec 4 XReal) = vfin ![a, b, c, d] := by
  ext i; fin_cases i <;> rfl
lemma vec6_f (a b c d e f : ℝ) :
    (![fin a, fin b, fin c, fin d, fin e, fin f] : Vec 6 XReal) = vfin ![a, b, c, d, e, f] := by
  ext i; fin_cases i <;> rfl
lemma vfin_apply (i : Fin n) : vfin v i = fin (v i) := rfl
lemma mfin_apply (A : Mat m n ℝ) (i : Fin m) (j : Fin n) : mfin A i j = fin (A i j) := rfl

lemma cross_f (u v : Vec 3 ℝ) : cross (vfin u) (vfin v) = vfin (cross u v) := by
  simp only [cross, vfin_apply, mul_f, sub_f, vec3_f]

lemma mzero_f : (mzero : Mat m n XReal) = mfin mzero := rfl
lemma mident_f : (mident : Mat n n XReal) = mfin mident := by
  ext i j; by_cases h : i = j <;> simp only [mident, mfin, h, if_true, if_false, lit_f]
lemma mdiag_f : mdiag (vfin v) = mfin (mdiag v) := by
  ext i j; by_cases h : i = j <;> simp only [mdiag, mfin, vfin, h, if_true, if_false, lit_f]
lemma mv_f (A : Mat m n ℝ) : mv (mfin A) (vfin v) = vfin (mv A v) := by
  ext i; exact vsum_f _
lemma mm_f (A : Mat m n ℝ) (B : Mat n k ℝ) : mm (mfin A) (mfin B) = mfin (mm A B) := by
  ext i j; exact vsum_f _
lemma msub_f (A B : Mat m n ℝ) : msub (mfin A) (mfin B) = mfin (msub A B) := by
  ext i j; exact sub_f _ _
lemma mneg_f (A : Mat m n ℝ) : mneg (mfin A) = mfin (mneg A) := rfl
lemma mT_f (A : Mat m n ℝ) : mT (mfin A) = mfin (mT A) := rfl
lemma mdiagonal_f (A : Mat n n ℝ) : mdiagonal (mfin A) = vfin (mdiagonal A) := rfl
end

section
variable (p q : Quat ℝ) (v : Vec 3 ℝ)

lemma identity_f : (Quat.identity : Quat XReal) = qfin Quat.identity := rfl
lemma vec_f : (qfin q).vec = vfin q.vec := vec3_f _ _ _
lemma coeffs_f : (qfin q).coeffs = vfin q.coeffs := vec4_f _ _ _ _
lemma ofCoeffs_f (c : Vec 4 ℝ) : Quat.ofCoeffs (vfin c) = qfin (Quat.ofCoeffs c) := rfl
lemma qmul_f : (qfin p).mul (qfin q) = qfin (p.mul q) := by
  simp only [Quat.mul, qfin, mul_f, sub_f, add_f]
lemma rotate_f : (qfin q).rotate (vfin v) = vfin (q.rotate v) := by
  simp only [Quat.rotate, vec_f, cross_f, vadd_f]
  rw [show (qfin q).w = fin q.w from rfl, smulL_f, vadd_f, vadd_f]
lemma qnormalized_f : (qfin q).normalized = qfin q.normalized := by
  simp only [Quat.normalized, coeffs_f, normalized_f, ofCoeffs_f]
lemma inverse_f : (qfin q).inverse = qfin q.inverse := by
  unfold Quat.inverse
  simp only [coeffs_f, normSq_f, lit_f, lt_f]
  by_cases h : Flt.lt (lit 0) (normSq q.coeffs) = true
  · have : 0 < normSq q.coeffs := by simpa [flt] using h
    rw [if_pos h, if_pos h]
    simp only [qfin, neg_f, div_f _ _ this.ne']
  · rw [if_neg h, if_neg h]
    rfl
lemma toMat_f : (qfin q).toMat = mfin q.toMat := by
  ext i j
  simp only [Quat.toMat, qfin, lit_f, mul_f, add_f, sub_f]
  fin_cases i <;> fin_cases j <;> rfl

lemma quatDerivative_f : quatDerivative (qfin q) (vfin v) = vfin (quatDerivative q v) := by
  unfold quatDerivative
  simp only [lit_f, vfin_apply]
  rw [show (⟨fin (lit 0), fin (v 0), fin (v 1), fin (v 2)⟩ : Quat XReal) =
    qfin ⟨lit 0, v 0, v 1, v 2⟩ from rfl, qmul_f, coeffs_f, smulL_f]
lemma quatIntegrate_f (dt : ℝ) :
    quatIntegrate (qfin q) (vfin v) (fin dt) = qfin (quatIntegrate q v dt) := by
  simp only [quatIntegrate, quatDerivative_f, coeffs_f, smulR_f, vadd_f, ofCoeffs_f, qnormalized_f]
end

lemma squaredKeepSign_f {n : ℕ} (v : Vec n ℝ) : squaredKeepSign (vfin v) = vfin (squaredKeepSign v) := by
  ext i; simp only [squaredKeepSign, vfin_apply, sign_f, mul_f]
lemma sqrtKeepSign_f {n : ℕ} (v : Vec n ℝ) : sqrtKeepSign (vfin v) = vfin (sqrtKeepSign v) := by
  ext i
  simp only [sqrtKeepSign, vfin_apply, sign_f, abs_f]
  rw [sqrt_f _ (by rw [abs_real]; positivity), mul_f]

/-- Euler angles are finite. -/
lemma quatToEuler_f (q : Quat ℝ) : quatToEuler (qfin q) =
    (fin (quatToEuler q).1, fin (quatToEuler q).2.1, fin (quatToEuler q).2.2) := by
  unfold quatToEuler
  simp only [qnormalized_f]
  generalize q.normalized = r
  simp only [qfin, lit_f, mul_f, add_f, sub_f, atan2_f, pi_f, abs_f, le_f]
  refine Prod.ext rfl (Prod.ext ?_ rfl)
  simp only
  rw [div_f _ _ (by rw [lit_two]; norm_num), copysign_f]
  generalize lit 2 ⊠ (r.w ⊠ r.y ⊟ r.z ⊠ r.x) = t
  by_cases h : Flt.le (lit 1) (Flt.abs t) = true
  · rw [if_pos h, if_pos h]
  · rw [if_neg h, if_neg h, asin_f]
    have : ¬ (1 ≤ |t|) := by simpa [flt] using h
    exact (not_le.1 this).le

end Finite

/-- A vehicle state of finite numbers. -/
def State.fin {n : ℕ} (s : State ℝ n) : State XReal n where
  pos := vfin s.pos
  ori := qfin s.ori
  vel := vfin s.vel
  angVel := vfin s.angVel
  acc := vfin s.acc
  angAcc := vfin s.angAcc
  force := vfin s.force
  torque := vfin s.torque
  motVel := vfin s.motVel
  motAcc := vfin s.motAcc

/-- A motor with finite parameters. -/
def Motor.fin (m : Motor ℝ) : Motor XReal where
  dir := m.dir
  kf := .fin m.kf
  kt := .fin m.kt
  rot := mfin m.rot
  pos := vfin m.pos
  minSpeed := .fin m.minSpeed
  maxSpeed := .fin m.maxSpeed
  tau := .fin m.tau
  inertia := .fin m.inertia

/-- Finite model parameters. -/
def ModelParams.fin (p : ModelParams ℝ) : ModelParams XReal where
  motors := p.motors.map Motor.fin
  mass := .fin p.mass
  inertia := mfin p.inertia
  drag := .fin p.drag
  aero := mfin p.aero
  gravity := vfin p.gravity
  forceNoise := .fin p.forceNoise
  momentNoise := .fin p.momentNoise

/-- Finite model constants. -/
def ModelCore.fin {n : ℕ} (c : ModelCore ℝ n) : ModelCore XReal n where
  params := c.params.fin
  mixForceVec := vfin c.mixForceVec
  mixForce := mfin c.mixForce
  mixTorque := mfin c.mixTorque
  mixInertia := mfin c.mixInertia

/-- A model of finite numbers. -/
def Model.fin {n : ℕ} (m : Model ℝ n) : Model XReal n where
  core := m.core.map ModelCore.fin
  mixerMatrix := m.mixerMatrix.map mfin
  rng := m.rng
  stochForce := vfin m.stochForce
  stochMoment := vfin m.stochMoment

/-- A vehicle of finite numbers. -/
def Dyn.fin {n : ℕ} (d : Dyn ℝ n) : Dyn XReal n := ⟨d.model.fin, d.state.fin⟩

/-- Finite dynamics parameters. -/
def DynParams.fin {n : ℕ} (p : DynParams ℝ n) : DynParams XReal n := ⟨p.model.fin, p.state.fin, p.seed⟩

/-- No divisor of the dynamics is zero and no noise intensity negative. -/
structure RegularParams (p : ModelParams ℝ) : Prop where
  mass : p.mass ≠ 0
  inertia : p.inertia.det ≠ 0
  tau : ∀ m ∈ p.motors, m.tau ≠ 0
  forceNoise : 0 ≤ p.forceNoise
  momentNoise : 0 ≤ p.momentNoise

namespace Finite

section
variable {n : ℕ}

lemma default_f : (State.default : State XReal n) = (State.default : State ℝ n).fin := rfl

lemma motorFn_f (l : List (Motor ℝ)) :
    Model.motorFn n (l.map Motor.fin) = (Model.motorFn n l).map fun ms i => (ms i).fin := by
  unfold Model.motorFn
  by_cases h : l.length = n
  · rw [dif_pos h, dif_pos (by simpa using h)]
    simp
  · rw [dif_neg h, dif_neg (by simpa using h)]
    rfl

lemma checkMotor_f (m : Motor ℝ) : Model.checkMotor m.fin = Model.checkMotor m := by
  simp only [Model.checkMotor, Motor.fin, lit_f, lt_f]

lemma checkParams_f (p : ModelParams ℝ) : Model.checkParams p.fin = Model.checkParams p := by
  simp only [Model.checkParams, ModelParams.fin, lit_f, lt_f, det3_f, List.all_map]
  rw [show Model.checkMotor ∘ Motor.fin = Model.checkMotor from funext checkMotor_f]

lemma dirOk_f (l : List (Motor ℝ)) : Model.dirOk (l.map Motor.fin) = Model.dirOk l := by
  simp only [Model.dirOk, List.all_map]
  rfl

lemma motorContrib_f (m : Motor ℝ) : Model.motorContrib m.fin = vfin (Model.motorContrib m) := by
  simp only [Model.motorContrib, Motor.fin, lit_f, mul_f, vec3_f, mv_f, cross_f, vadd_f, vfin_apply]
  ext i; fin_cases i <;> rfl

lemma coreOf_f (p : ModelParams ℝ) (ms : Fin n → Motor ℝ) :
    Model.coreOf p.fin (fun i => (ms i).fin) = (Model.coreOf p ms).fin := by
  have h (r : Fin 6) (i : Fin n) : Model.mixer6 (fun i => (ms i).fin) r i = .fin (Model.mixer6 ms r i) := by
    simp only [Model.mixer6, motorContrib_f, vfin_apply]
  have h' : Model.mixerInertia (fun i => (ms i).fin) = mfin (Model.mixerInertia ms) := by
    ext r i
    simp only [Model.mixerInertia, Motor.fin, lit_f, mul_f, vec3_f, mv_f, vfin_apply, mfin_apply]
  unfold Model.coreOf ModelCore.fin
  simp only [h, h']
  rfl

lemma updateParams_f (p : ModelParams ℝ) (m : Model ℝ n) :
    Model.updateParams p.fin m.fin = (Model.updateParams p m).map Model.fin := by
  unfold Model.updateParams
  rw [checkParams_f]
  cases Model.checkParams p with
  | false => rfl
  | true =>
    simp only [Bool.not_true, Bool.false_eq_true, if_false]
    rw [show p.fin.motors = p.motors.map Motor.fin from rfl, motorFn_f, dirOk_f]
    cases Model.motorFn n p.motors with
    | none => rfl
    | some ms =>
      simp only [Option.map_some, coreOf_f]
      cases Model.dirOk p.motors <;> rfl

lemma dynMk_f (p : DynParams ℝ n) : Dyn.mk' p.fin = (Dyn.mk' p).map Dyn.fin := by
  unfold Dyn.mk' Model.mk'
  have := updateParams_f p.model
    (⟨none, none, ⟨p.seed, 0⟩, vzero, vzero⟩ : Model ℝ n)
  rw [show (⟨none, none, ⟨p.seed, 0⟩, vzero, vzero⟩ : Model ℝ n).fin =
    ⟨none, none, ⟨p.seed, 0⟩, vzero, vzero⟩ from rfl] at this
  rw [show p.fin.model = p.model.fin from rfl, show p.fin.seed = p.seed from rfl, this, Option.map_map,
    Option.map_map]
  rfl

variable [Noise ℝ]

lemma setNoise_f (c : ModelCore ℝ n) (hc : RegularParams c.params) (dt : ℝ) (m : Model ℝ n) :
    m.fin.setNoise c.fin (.fin dt) = (m.setNoise c dt).fin := by
  unfold Model.setNoise
  rw [lit_f, le_f]
  by_cases h : Flt.le dt (lit 0) = true
  · rw [if_pos h, if_pos h]; rfl
  · rw [if_neg h, if_neg h]
    have hd : 0 < dt := not_le.1 (by simpa [flt] using h)
    have h1 : Flt.sqrt (c.fin.params.forceNoise ⊘ .fin dt) = .fin (Flt.sqrt (c.params.forceNoise ⊘ dt)) := by
      rw [show c.fin.params.forceNoise = .fin c.params.forceNoise from rfl, div_f _ _ hd.ne', sqrt_f]
      exact div_nonneg hc.forceNoise hd.le
    have h2 : Flt.sqrt (c.fin.params.momentNoise ⊘ .fin dt) =
        .fin (Flt.sqrt (c.params.momentNoise ⊘ dt)) := by
      rw [show c.fin.params.momentNoise = .fin c.params.momentNoise from rfl, div_f _ _ hd.ne', sqrt_f]
      exact div_nonneg hc.momentNoise hd.le
    simp only [h1, h2]
    rfl

omit [Noise ℝ] in
lemma clampMotors_f (ms : Fin n → Motor ℝ) (w : Vec n ℝ) :
    Dyn.clampMotors (fun i => (ms i).fin) (vfin w) = vfin (Dyn.clampMotors ms w) := by
  ext i; exact clampVal_f _ _ _

omit [Noise ℝ] in
lemma motorDerivative_f (ms : Fin n → Motor ℝ) (h : ∀ i, (ms i).tau ≠ 0) (a b : Vec n ℝ) :
    Dyn.motorDerivative (fun i => (ms i).fin) (vfin a) (vfin b) = vfin (Dyn.motorDerivative ms a b) := by
  ext i
  simp only [Dyn.motorDerivative, Motor.fin, vfin_apply, sub_f, div_f _ _ (h i)]

omit [Noise ℝ] in
lemma aeroMoment_f (A : Mat 3 3 ℝ) (om : Vec 3 ℝ) :
    Model.aeroMoment (mfin A) (vfin om) = vfin (Model.aeroMoment A om) := by
  simp only [Model.aeroMoment, norm_f, lit_f, mul_f, mfin_apply]
  exact mv_f _ _

lemma eulerStep_f (c : ModelCore ℝ n) (hc : RegularParams c.params) (ms : Fin n → Motor ℝ)
    (h : ∀ i, (ms i).tau ≠ 0) (d : Dyn ℝ n) (act : Vec n ℝ) (dt : ℝ) (ext : Vec 3 ℝ) (noise : Bool) :
    Dyn.eulerStep c.fin (fun i => (ms i).fin) d.fin (vfin act) (.fin dt) (vfin ext) noise =
      (Dyn.eulerStep c ms d act dt ext noise).fin := by
  have hm : (if noise = true then d.fin.model.setNoise c.fin (.fin dt) else d.fin.model.disableNoise) =
      (if noise = true then d.model.setNoise c dt else d.model.disableNoise).fin := by
    cases noise
    · rfl
    · exact setNoise_f c hc dt d.model
  unfold Dyn.eulerStep
  simp only [hm]
  generalize (if noise = true then d.model.setNoise c dt else d.model.disableNoise) = m
  simp only [Dyn.fin, State.fin, Model.fin, ModelCore.fin, ModelParams.fin, clampMotors_f,
    motorDerivative_f ms h, Dyn.totalTorque, Dyn.totalForce, Model.motorTorque, Model.thrustVec,
    Model.dragForce, aeroMoment_f, squaredKeepSign_f, mv_f, vadd_f, vsub_f, cross_f, lit_f, mul_f, smulL_f,
    inv3_f _ hc.inertia, rotate_f, sdiv_f _ _ hc.mass, smulR_f, quatDerivative_f, coeffs_f, ofCoeffs_f,
    qnormalized_f]

/-- A vehicle that was never initialised, or whose parameters are regular. -/
def RegularDyn (d : Dyn ℝ n) : Prop := ∀ c, d.model.core = some c → RegularParams c.params

omit [Noise ℝ] in
lemma clampOk_f (ms : Fin n → Motor ℝ) : Dyn.clampOk (fun i => (ms i).fin) = Dyn.clampOk ms := by
  simp only [Dyn.clampOk, Motor.fin, lt_f]

lemma singleStep_f (d : Dyn ℝ n) (h : RegularDyn d) (act : Vec n ℝ) (dt : ℝ) (ext : Vec 3 ℝ) (noise : Bool) :
    Dyn.singleStep d.fin (vfin act) (.fin dt) (vfin ext) noise =
      (Dyn.singleStep d act dt ext noise).map Dyn.fin := by
  unfold Dyn.singleStep
  rw [show d.fin.model.core = d.model.core.map ModelCore.fin from rfl]
  cases hc : d.model.core with
  | none => rfl
  | some c =>
    simp only [Option.map_some]
    rw [show c.fin.params.motors = c.params.motors.map Motor.fin from rfl, motorFn_f]
    cases hm : Model.motorFn n c.params.motors with
    | none => rfl
    | some ms =>
      simp only [Option.map_some, clampOk_f]
      have ht : ∀ i, (ms i).tau ≠ 0 := fun i => (h c hc).tau _ (List.mem_of_getElem? ((Dyn.motorFn_get hm).2 i))
      cases Dyn.clampOk ms with
      | false => rfl
      | true => simp only [if_true, eulerStep_f c (h c hc) ms ht]; rfl

omit [Noise ℝ] in
lemma forLoop_f {σ τ : Type} (F : σ → τ) (P : σ → Prop) (num : ℝ) (body : σ → Res σ) (body' : τ → Res τ)
    (h : ∀ s, P s → body' (F s) = (body s).map F) (hP : ∀ s s', P s → body s = .ok s' → P s')
    (fuel i : ℕ) (s : σ) (hs : P s) :
    forLoop (XReal.fin num) body' fuel i (F s) = (forLoop num body fuel i s).map F := by
  induction fuel generalizing i s with
  | zero =>
    unfold forLoop
    rw [lit_f, lt_f, h s hs]
    by_cases hc : Flt.lt (lit (i : ℚ)) num = true
    · rw [if_pos hc, if_pos hc]; cases body s <;> rfl
    · rw [if_neg hc, if_neg hc]; rfl
  | succ fuel ih =>
    unfold forLoop
    rw [lit_f, lt_f, h s hs]
    by_cases hc : Flt.lt (lit (i : ℚ)) num = true
    · rw [if_pos hc, if_pos hc]
      cases hb : body s with
      | ok s' => exact ih (i + 1) s' (hP s s' hs hb)
      | throw s' => rfl
      | bad => rfl
    · rw [if_neg hc, if_neg hc]; rfl

lemma singleStep_core {d d' : Dyn ℝ n} {act : Vec n ℝ} {dt : ℝ} {ext : Vec 3 ℝ} {noise : Bool}
    (h : d.singleStep act dt ext noise = .ok d') : d'.model.core = d.model.core := by
  unfold Dyn.singleStep at h
  cases hc : d.model.core with
  | none => simp [hc] at h
  | some c =>
    simp only [hc] at h
    cases hm : Model.motorFn n c.params.motors with
    | none => simp [hm] at h
    | some ms =>
      simp only [hm] at h
      split at h
      · cases h; rw [Dyn.eulerStep_core, hc]
      · cases h

lemma processDepth_f (act : Vec n ℝ) (ext : Vec 3 ℝ) (noise : Bool) (k : ℕ) (dt : ℝ) (d : Dyn ℝ n)
    (h : RegularDyn d) : Dyn.processDepth (vfin act) (vfin ext) noise k (.fin dt) d.fin =
      (Dyn.processDepth act ext noise k dt d).map Dyn.fin ∧
    ∀ d', Dyn.processDepth act ext noise k dt d = .ok d' → d'.model.core = d.model.core := by
  induction k generalizing dt d with
  | zero => exact ⟨rfl, fun _ h => by cases h⟩
  | succ k ih =>
    unfold Dyn.processDepth
    rw [lit_f, le_f, show (Dyn.maxStep : XReal) = .fin Dyn.maxStep from rfl, lt_f]
    by_cases h0 : Flt.le dt (lit 0) = true
    · simp only [h0, if_true]
      exact ⟨rfl, fun _ h => by cases h⟩
    · simp only [h0, if_false, Bool.false_eq_true]
      by_cases h1 : Flt.lt Dyn.maxStep dt = true
      · simp only [h1, if_true]
        rw [div_f _ _ (by simp [Dyn.maxStep, flt])]
        have hP : ∀ s s' : Dyn ℝ n, (s.model.core = d.model.core) →
            Dyn.processDepth act ext noise k Dyn.maxStep s = .ok s' → s'.model.core = d.model.core :=
          fun s s' hs hs' => ((ih Dyn.maxStep s (fun c hc => h c (hs ▸ hc))).2 s' hs').trans hs
        refine ⟨forLoop_f Dyn.fin (fun s => s.model.core = d.model.core) _ _ _
          (fun s hs => (ih Dyn.maxStep s (fun c hc => h c (hs ▸ hc))).1) hP _ _ _ rfl, ?_⟩
        have : ∀ fuel i (s : Dyn ℝ n), s.model.core = d.model.core → ∀ d',
            forLoop (dt ⊘ Dyn.maxStep) (fun d => Dyn.processDepth act ext noise k Dyn.maxStep d) fuel i s =
              .ok d' → d'.model.core = d.model.core := by
          intro fuel
          induction fuel with
          | zero =>
            intro i s hs d' h'
            unfold forLoop at h'
            split at h'
            · revert h'; cases Dyn.processDepth act ext noise k Dyn.maxStep s <;> intro h' <;> cases h'
            · cases h'; exact hs
          | succ fuel ihf =>
            intro i s hs d' h'
            unfold forLoop at h'
            split at h'
            · cases hb : Dyn.processDepth act ext noise k Dyn.maxStep s with
              | ok s' => rw [hb] at h'; exact ihf _ _ (hP s s' hs hb) d' h'
              | throw s' => rw [hb] at h'; cases h'
              | bad => rw [hb] at h'; cases h'
            · cases h'; exact hs
        exact this _ _ _ rfl
      · simp only [h1, Bool.false_eq_true, if_false]
        exact ⟨singleStep_f d h act dt ext noise, fun _ h => singleStep_core h⟩

/-- The dynamics of a regular vehicle yield finite numbers only. -/
lemma process_f (d : Dyn ℝ n) (h : RegularDyn d) (act : Vec n ℝ) (dt : ℝ) (ext : Vec 3 ℝ) (noise : Bool) :
    d.fin.process (vfin act) (.fin dt) (vfin ext) noise = (d.process act dt ext noise).map Dyn.fin :=
  (processDepth_f act ext noise 2 dt d h).1

end

end Finite

end Verif
