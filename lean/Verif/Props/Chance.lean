import Verif.Lemmas.Chance
import Verif.Props.Imu

/-!
# C125: the errors of the IMU in distribution
-/

namespace Verif.Props

open Verif Flt Spec MeasureTheory ProbabilityTheory

/-- Where the samples of a bias come from: the initial one, then one per update. -/
def biasIndex (N a : ℕ) (j : Fin 3) : Option (Fin N) → ℕ × Fin 3
  | none => (a, j)
  | some k => (2 + 4 * k + a, j)

lemma biasIndex_injective (N : ℕ) {a : ℕ} (_ : a < 2) (j : Fin 3) : Function.Injective (biasIndex N a j) := by
  intro x y h
  rcases x with _ | x <;> rcases y with _ | y <;> simp only [biasIndex, Prod.mk.injEq, and_true] at h
  · rfl
  · omega
  · omega
  · congr 1; ext; omega

/-- The coefficients: `√v` at the start, `√(q dt)` per update. -/
noncomputable def biasCoeff (v q : ℝ) (us : List (ImuIn ℝ)) : Option (Fin us.length) → ℝ
  | none => √v
  | some k => √(q * (us.get k).dt)

lemma sum_dt (us : List (ImuIn ℝ)) : ∑ k : Fin us.length, (us.get k).dt = total (us.map (·.dt)) := by
  induction us with
  | nil => rfl
  | cons u us ih =>
    rw [List.map_cons, total, ← ih]
    exact Fin.sum_univ_succ _

lemma biasCoeff_sq {v q : ℝ} (hv : 0 ≤ v) (hq : 0 ≤ q) {us : List (ImuIn ℝ)} (hdt : ∀ u ∈ us, 0 < u.dt) :
    ∑ x, biasCoeff v q us x ^ 2 = v + q * total (us.map (·.dt)) := by
  rw [Fintype.sum_option, ← sum_dt, Finset.mul_sum]
  congr 1
  · simp [biasCoeff, Real.sq_sqrt hv]
  · refine Finset.sum_congr rfl fun k _ => ?_
    rw [biasCoeff, Real.sq_sqrt (mul_nonneg hq (hdt _ (List.get_mem _ _)).le)]

section
variable {Ω : Type} [MeasurableSpace Ω]

omit [MeasurableSpace Ω] in
lemma imuAfter_biases (W : ℤ → ℕ → Fin 3 → Ω → ℝ) (p : ImuParams ℝ) (us : List (ImuIn ℝ)) (hdt : ∀ u ∈ us, 0 < u.dt)
    (h1 : 0 ≤ p.gyroBiasCorr) (h2 : 0 ≤ p.accelBiasCorr) (ω : Ω) (j : Fin 3) :
    (imuAfter W p us ω).gyroBias j =
      ∑ x, biasCoeff p.gyroVar p.gyroBiasCorr us x *
        W p.seed (biasIndex us.length 0 j x).1 (biasIndex us.length 0 j x).2 ω ∧
    (imuAfter W p us ω).accelBias j =
      ∑ x, biasCoeff p.accelVar p.accelBiasCorr us x *
        W p.seed (biasIndex us.length 1 j x).1 (biasIndex us.length 1 j x).2 ω := by
  let _ := outcome W ω
  obtain ⟨e1, e2⟩ := C38_random_walk (Imu.mk' p) us hdt h1 h2
  have r : (Imu.mk' p).rng = ⟨p.seed, 2⟩ := rfl
  constructor
  · rw [show (imuAfter W p us ω).gyroBias = _ from e1, Fintype.sum_option]
    simp only [Pi.add_apply, Finset.sum_apply, Pi.smul_apply, smul_eq_mul, r, biasIndex, biasCoeff, add_zero]
    congr 1
  · rw [show (imuAfter W p us ω).accelBias = _ from e2, Fintype.sum_option]
    simp only [Pi.add_apply, Finset.sum_apply, Pi.smul_apply, smul_eq_mul, r, biasIndex, biasCoeff]
    congr 1

omit [MeasurableSpace Ω] in
lemma imuAfter_snoc (W : ℤ → ℕ → Fin 3 → Ω → ℝ) (p : ImuParams ℝ) (us : List (ImuIn ℝ)) (u : ImuIn ℝ) (ω : Ω) :
    imuAfter W p (us ++ [u]) ω =
      (let _ := outcome W ω; (imuAfter W p us ω).update u.dt u.force u.om) := by
  simp [imuAfter, Imu.run, Imu.step, ImuIn.op]

omit [MeasurableSpace Ω] in
lemma imuAfter_frame (W : ℤ → ℕ → Fin 3 → Ω → ℝ) (p : ImuParams ℝ) (us : List (ImuIn ℝ)) (hdt : ∀ u ∈ us, 0 < u.dt)
    (ω : Ω) : (imuAfter W p us ω).rng = ⟨p.seed, 2 + 4 * us.length⟩ ∧ (imuAfter W p us ω).gyroVar = p.gyroVar ∧
      (imuAfter W p us ω).accelVar = p.accelVar ∧ (imuAfter W p us ω).oriInv = p.ori.inverse ∧
      (imuAfter W p us ω).gyroBiasCorr = p.gyroBiasCorr ∧ (imuAfter W p us ω).accelBiasCorr = p.accelBiasCorr := by
  induction us using List.reverseRecOn with
  | nil => exact ⟨rfl, rfl, rfl, rfl, rfl, rfl⟩
  | append_singleton us u ih =>
    obtain ⟨h1, h2, h3, h4, h5, h6⟩ := ih fun v hv => hdt v (by simp [hv])
    have hu : 0 < u.dt := hdt u (by simp)
    let _ := outcome W ω
    have e : imuAfter W p (us ++ [u]) ω =
        ((imuAfter W p us ω).processBias u.dt).processMeasurement u.force u.om := by
      rw [imuAfter_snoc]
      simp [Imu.update, flt, hu]
    rw [e]
    refine ⟨?_, h2, h3, h4, h5, h6⟩
    simp only [Imu.processMeasurement, Imu.processBias, Imu.scaledDraw, Rng.draw3, h1, List.length_append,
      List.length_singleton, Rng.mk.injEq, true_and]
    ring

omit [MeasurableSpace Ω] in
lemma imuAfter_readings (W : ℤ → ℕ → Fin 3 → Ω → ℝ) (p : ImuParams ℝ) (us : List (ImuIn ℝ)) (u : ImuIn ℝ)
    (hdt : ∀ u ∈ us, 0 < u.dt) (hu : 0 < u.dt) (ω : Ω) (j : Fin 3) :
    (imuAfter W p (us ++ [u]) ω).gyro j = p.ori.inverse.rotate u.om j + (imuAfter W p (us ++ [u]) ω).gyroBias j +
      √p.gyroVar * W p.seed (2 + 4 * us.length + 2) j ω ∧
    (imuAfter W p (us ++ [u]) ω).accel j = p.ori.inverse.rotate u.force j + (imuAfter W p (us ++ [u]) ω).accelBias j +
      √p.accelVar * W p.seed (2 + 4 * us.length + 3) j ω := by
  obtain ⟨h1, h2, h3, h4, -, -⟩ := imuAfter_frame W p us hdt ω
  let _ := outcome W ω
  have e : imuAfter W p (us ++ [u]) ω =
      ((imuAfter W p us ω).processBias u.dt).processMeasurement u.force u.om := by
    rw [imuAfter_snoc]
    simp [Imu.update, flt, hu]
  rw [e]
  simp only [Imu.processMeasurement, Imu.processBias, Imu.scaledDraw, Rng.draw3, h1, h2, h3, h4, flt]
  exact ⟨rfl, rfl⟩

/-- Where the samples of a reading come from: those of the bias and one more. -/
def readingIndex (N a : ℕ) (j : Fin 3) : Option (Option (Fin N)) → ℕ × Fin 3
  | none => (4 * N + a, j)
  | some x => biasIndex N a j x

lemma readingIndex_injective (N : ℕ) {a : ℕ} (ha : a < 2) (hN : 0 < N) (j : Fin 3) :
    Function.Injective (readingIndex N a j) := by
  intro x y h
  rcases x with _ | x <;> rcases y with _ | y
  · rfl
  · rcases y with _ | y <;> simp only [readingIndex, biasIndex, Prod.mk.injEq, and_true] at h <;> omega
  · rcases x with _ | x <;> simp only [readingIndex, biasIndex, Prod.mk.injEq, and_true] at h <;> omega
  · exact congrArg some (biasIndex_injective N ha j h)

/-- The coefficients of a reading. -/
noncomputable def readingCoeff (v q : ℝ) (us : List (ImuIn ℝ)) : Option (Option (Fin us.length)) → ℝ
  | none => √v
  | some x => biasCoeff v q us x

lemma readingCoeff_sq {v q : ℝ} (hv : 0 ≤ v) (hq : 0 ≤ q) {us : List (ImuIn ℝ)} (hdt : ∀ u ∈ us, 0 < u.dt) :
    ∑ x, readingCoeff v q us x ^ 2 = 2 * v + q * total (us.map (·.dt)) := by
  rw [Fintype.sum_option]
  simp only [readingCoeff]
  rw [biasCoeff_sq hv hq hdt, Real.sq_sqrt hv]
  ring

omit [MeasurableSpace Ω] in
lemma imuAfter_readings_sum (W : ℤ → ℕ → Fin 3 → Ω → ℝ) (p : ImuParams ℝ) (us : List (ImuIn ℝ)) (u : ImuIn ℝ)
    (hdt : ∀ v ∈ us ++ [u], 0 < v.dt) (h1 : 0 ≤ p.gyroBiasCorr) (h2 : 0 ≤ p.accelBiasCorr) (ω : Ω) (j : Fin 3) :
    (imuAfter W p (us ++ [u]) ω).gyro j = p.ori.inverse.rotate u.om j +
      ∑ x, readingCoeff p.gyroVar p.gyroBiasCorr (us ++ [u]) x *
        W p.seed (readingIndex (us ++ [u]).length 0 j x).1 (readingIndex (us ++ [u]).length 0 j x).2 ω ∧
    (imuAfter W p (us ++ [u]) ω).accel j = p.ori.inverse.rotate u.force j +
      ∑ x, readingCoeff p.accelVar p.accelBiasCorr (us ++ [u]) x *
        W p.seed (readingIndex (us ++ [u]).length 1 j x).1 (readingIndex (us ++ [u]).length 1 j x).2 ω := by
  obtain ⟨e1, e2⟩ := imuAfter_readings W p us u (fun v hv => hdt v (by simp [hv])) (hdt u (by simp)) ω j
  obtain ⟨b1, b2⟩ := imuAfter_biases W p (us ++ [u]) hdt h1 h2 ω j
  have s1 : ∀ (f : Option (Option (Fin (us ++ [u]).length)) → ℝ), ∑ x, f x = f none + ∑ x, f (some x) :=
    fun f => Fintype.sum_option f
  rw [e1, e2, b1, b2, s1, s1]
  simp only [readingIndex, readingCoeff]
  have l1 : 4 * (us ++ [u]).length + 0 = 2 + 4 * us.length + 2 := by simp; ring
  have l2 : 4 * (us ++ [u]).length + 1 = 2 + 4 * us.length + 3 := by simp; ring
  rw [l1, l2]
  constructor <;> ring

/-- Where the samples of the change of a bias come from. -/
def changeIndex (M N a : ℕ) (j : Fin 3) (k : Fin N) : ℕ × Fin 3 := (2 + 4 * M + 4 * k + a, j)

lemma changeIndex_injective (M N a : ℕ) (j : Fin 3) : Function.Injective (changeIndex M N a j) := by
  intro x y h
  simp only [changeIndex, Prod.mk.injEq, and_true] at h
  ext; omega

omit [MeasurableSpace Ω] in
lemma imuAfter_change (W : ℤ → ℕ → Fin 3 → Ω → ℝ) (p : ImuParams ℝ) (us vs : List (ImuIn ℝ))
    (hdt : ∀ u ∈ us ++ vs, 0 < u.dt) (h1 : 0 ≤ p.gyroBiasCorr) (h2 : 0 ≤ p.accelBiasCorr) (ω : Ω) (j : Fin 3) :
    (imuAfter W p (us ++ vs) ω).gyroBias j - (imuAfter W p us ω).gyroBias j =
      ∑ k : Fin vs.length, √(p.gyroBiasCorr * (vs.get k).dt) *
        W p.seed (changeIndex us.length vs.length 0 j k).1 (changeIndex us.length vs.length 0 j k).2 ω ∧
    (imuAfter W p (us ++ vs) ω).accelBias j - (imuAfter W p us ω).accelBias j =
      ∑ k : Fin vs.length, √(p.accelBiasCorr * (vs.get k).dt) *
        W p.seed (changeIndex us.length vs.length 1 j k).1 (changeIndex us.length vs.length 1 j k).2 ω := by
  obtain ⟨r, -, -, -, q1, q2⟩ := imuAfter_frame W p us (fun u hu => hdt u (by simp [hu])) ω
  let _ := outcome W ω
  have e : imuAfter W p (us ++ vs) ω = (imuAfter W p us ω).run (vs.map ImuIn.op) := by
    simp [imuAfter, Imu.run, List.foldl_append]
  obtain ⟨e1, e2⟩ := C38_random_walk (imuAfter W p us ω) vs (fun u hu => hdt u (by simp [hu])) (by rw [q1]; exact h1)
    (by rw [q2]; exact h2)
  rw [e, e1, e2]
  simp only [Pi.add_apply, Finset.sum_apply, Pi.smul_apply, smul_eq_mul, r, q1, q2, changeIndex, add_zero,
    add_sub_cancel_left]
  exact ⟨rfl, rfl⟩

lemma changeCoeff_sq {q : ℝ} (hq : 0 ≤ q) {us : List (ImuIn ℝ)} (hdt : ∀ u ∈ us, 0 < u.dt) :
    ∑ k : Fin us.length, √(q * (us.get k).dt) ^ 2 = q * total (us.map (·.dt)) := by
  rw [← sum_dt, Finset.mul_sum]
  refine Finset.sum_congr rfl fun k _ => ?_
  rw [Real.sq_sqrt (mul_nonneg hq (hdt _ (List.get_mem _ _)).le)]

/-! ## The theorems -/

/-- **C125.** After updates with positive periods each bias is normally distributed around zero; its variance is the
variance of the initial bias plus the intensity times the elapsed time, however this is divided into updates. -/
theorem C125_bias (W : ℤ → ℕ → Fin 3 → Ω → ℝ) (P : Measure Ω) (p : ImuParams ℝ) (h : StandardNormal (W p.seed) P)
    (hg : 0 ≤ p.gyroVar) (ha : 0 ≤ p.accelVar) (hgb : 0 ≤ p.gyroBiasCorr) (hab : 0 ≤ p.accelBiasCorr)
    (us : List (ImuIn ℝ)) (hdt : ∀ u ∈ us, 0 < u.dt) (j : Fin 3) :
    HasLaw (fun ω => (imuAfter W p us ω).gyroBias j)
      (gaussianReal 0 (p.gyroVar + p.gyroBiasCorr * total (us.map (·.dt))).toNNReal) P ∧
    HasLaw (fun ω => (imuAfter W p us ω).accelBias j)
      (gaussianReal 0 (p.accelVar + p.accelBiasCorr * total (us.map (·.dt))).toNNReal) P := by
  rw [← biasCoeff_sq hg hgb hdt, ← biasCoeff_sq ha hab hdt]
  constructor
  · have := h.hasLaw _ (biasIndex_injective us.length (a := 0) (by norm_num) j) 0
      (biasCoeff p.gyroVar p.gyroBiasCorr us)
    refine this.congr (Filter.Eventually.of_forall fun ω => ?_)
    exact ((imuAfter_biases W p us hdt hgb hab ω j).1).trans (zero_add _).symm
  · have := h.hasLaw _ (biasIndex_injective us.length (a := 1) (by norm_num) j) 0
      (biasCoeff p.accelVar p.accelBiasCorr us)
    refine this.congr (Filter.Eventually.of_forall fun ω => ?_)
    exact ((imuAfter_biases W p us hdt hgb hab ω j).2).trans (zero_add _).symm

/-- **C125.** A reading of an IMU mounted with a unit quaternion is normally distributed around the true quantity in sensor
axes; its variance is that of the bias plus that of the measurement noise. -/
theorem C125_reading (W : ℤ → ℕ → Fin 3 → Ω → ℝ) (P : Measure Ω) (p : ImuParams ℝ) (h : StandardNormal (W p.seed) P)
    (hg : 0 ≤ p.gyroVar) (ha : 0 ≤ p.accelVar) (hgb : 0 ≤ p.gyroBiasCorr) (hab : 0 ≤ p.accelBiasCorr)
    (hq : IsUnitQ p.ori) (us : List (ImuIn ℝ)) (u : ImuIn ℝ) (hdt : ∀ v ∈ us ++ [u], 0 < v.dt) :
    ∃ om f : Vec 3 ℝ, IsRotated p.ori om u.om ∧ IsRotated p.ori f u.force ∧ ∀ j : Fin 3,
      HasLaw (fun ω => (imuAfter W p (us ++ [u]) ω).gyro j)
        (gaussianReal (om j) (2 * p.gyroVar + p.gyroBiasCorr * total ((us ++ [u]).map (·.dt))).toNNReal) P ∧
      HasLaw (fun ω => (imuAfter W p (us ++ [u]) ω).accel j)
        (gaussianReal (f j) (2 * p.accelVar + p.accelBiasCorr * total ((us ++ [u]).map (·.dt))).toNNReal) P := by
  have hr : ∀ v, IsRotated p.ori (p.ori.inverse.rotate v) v := by
    intro v
    have := Quat.rotate_isRotated hq (p.ori.inverse.rotate v)
    rwa [Quat.rotate_inverse_rotate hq] at this
  refine ⟨p.ori.inverse.rotate u.om, p.ori.inverse.rotate u.force, hr _, hr _,
    fun j => ?_⟩
  rw [← readingCoeff_sq hg hgb hdt, ← readingCoeff_sq ha hab hdt]
  constructor
  · have := h.hasLaw _ (readingIndex_injective (us ++ [u]).length (a := 0) (by norm_num) (by simp) j)
      (p.ori.inverse.rotate u.om j) (readingCoeff p.gyroVar p.gyroBiasCorr (us ++ [u]))
    exact this.congr (Filter.Eventually.of_forall fun ω => (imuAfter_readings_sum W p us u hdt hgb hab ω j).1)
  · have := h.hasLaw _ (readingIndex_injective (us ++ [u]).length (a := 1) (by norm_num) (by simp) j)
      (p.ori.inverse.rotate u.force j) (readingCoeff p.accelVar p.accelBiasCorr (us ++ [u]))
    exact this.congr (Filter.Eventually.of_forall fun ω => (imuAfter_readings_sum W p us u hdt hgb hab ω j).2)

/-- **C125.** The axes do not influence each other, nor do the two sensors. -/
theorem C125_independent (W : ℤ → ℕ → Fin 3 → Ω → ℝ) (P : Measure Ω) (p : ImuParams ℝ) (h : StandardNormal (W p.seed) P)
    (hgb : 0 ≤ p.gyroBiasCorr) (hab : 0 ≤ p.accelBiasCorr) (us : List (ImuIn ℝ)) (u : ImuIn ℝ)
    (hdt : ∀ v ∈ us ++ [u], 0 < v.dt) (j k : Fin 3) :
    (j ≠ k → IndepFun (fun ω => (imuAfter W p (us ++ [u]) ω).gyro j) (fun ω => (imuAfter W p (us ++ [u]) ω).gyro k) P) ∧
    (j ≠ k →
      IndepFun (fun ω => (imuAfter W p (us ++ [u]) ω).accel j) (fun ω => (imuAfter W p (us ++ [u]) ω).accel k) P) ∧
    IndepFun (fun ω => (imuAfter W p (us ++ [u]) ω).gyro j) (fun ω => (imuAfter W p (us ++ [u]) ω).accel k) P := by
  have e1 : ∀ j, (fun ω => (imuAfter W p (us ++ [u]) ω).gyro j) = _ :=
    fun j => funext fun ω => (imuAfter_readings_sum W p us u hdt hgb hab ω j).1
  have e2 : ∀ j, (fun ω => (imuAfter W p (us ++ [u]) ω).accel j) = _ :=
    fun j => funext fun ω => (imuAfter_readings_sum W p us u hdt hgb hab ω j).2
  rw [e1, e1, e2, e2]
  refine ⟨fun hjk => h.indepFun _ _ ?_ _ _ _ _, fun hjk => h.indepFun _ _ ?_ _ _ _ _, h.indepFun _ _ ?_ _ _ _ _⟩
  · rintro (_ | _ | x) (_ | _ | y) <;> simp [readingIndex, biasIndex, hjk]
  · rintro (_ | _ | x) (_ | _ | y) <;> simp [readingIndex, biasIndex, hjk]
  · rintro (_ | _ | x) (_ | _ | y) <;>
      simp only [readingIndex, biasIndex, ne_eq, Prod.mk.injEq, not_and_or] <;> left <;> omega

/-- **C125.** A bias has independent increments: its change over some updates does not depend on its value before them, and
is normally distributed with variance proportional to the elapsed time. -/
theorem C125_increments (W : ℤ → ℕ → Fin 3 → Ω → ℝ) (P : Measure Ω) (p : ImuParams ℝ) (h : StandardNormal (W p.seed) P)
    (hgb : 0 ≤ p.gyroBiasCorr) (hab : 0 ≤ p.accelBiasCorr) (us vs : List (ImuIn ℝ))
    (hdt : ∀ u ∈ us ++ vs, 0 < u.dt) (j : Fin 3) :
    let dg := fun ω => (imuAfter W p (us ++ vs) ω).gyroBias j - (imuAfter W p us ω).gyroBias j
    let da := fun ω => (imuAfter W p (us ++ vs) ω).accelBias j - (imuAfter W p us ω).accelBias j
    IndepFun (fun ω => (imuAfter W p us ω).gyroBias j) dg P ∧ IndepFun (fun ω => (imuAfter W p us ω).accelBias j) da P ∧
    HasLaw dg (gaussianReal 0 (p.gyroBiasCorr * total (vs.map (·.dt))).toNNReal) P ∧
    HasLaw da (gaussianReal 0 (p.accelBiasCorr * total (vs.map (·.dt))).toNNReal) P := by
  have hv : ∀ u ∈ vs, 0 < u.dt := fun u hu => hdt u (by simp [hu])
  have b1 : (fun ω => (imuAfter W p us ω).gyroBias j) = fun ω => 0 + _ :=
    funext fun ω => ((imuAfter_biases W p us (fun u hu => hdt u (by simp [hu])) hgb hab ω j).1).trans (zero_add _).symm
  have b2 : (fun ω => (imuAfter W p us ω).accelBias j) = fun ω => 0 + _ :=
    funext fun ω => ((imuAfter_biases W p us (fun u hu => hdt u (by simp [hu])) hgb hab ω j).2).trans (zero_add _).symm
  have e1 : (fun ω => (imuAfter W p (us ++ vs) ω).gyroBias j - (imuAfter W p us ω).gyroBias j) = fun ω => 0 + _ :=
    funext fun ω => ((imuAfter_change W p us vs hdt hgb hab ω j).1).trans (zero_add _).symm
  have e2 : (fun ω => (imuAfter W p (us ++ vs) ω).accelBias j - (imuAfter W p us ω).accelBias j) = fun ω => 0 + _ :=
    funext fun ω => ((imuAfter_change W p us vs hdt hgb hab ω j).2).trans (zero_add _).symm
  intro dg da
  simp only [dg, da]
  rw [b1, b2, e1, e2, ← changeCoeff_sq hgb hv, ← changeCoeff_sq hab hv]
  refine ⟨h.indepFun _ _ ?_ _ _ _ _, h.indepFun _ _ ?_ _ _ _ _, h.hasLaw _ (changeIndex_injective ..) _ _,
    h.hasLaw _ (changeIndex_injective ..) _ _⟩
  · rintro (_ | x) y <;> simp only [changeIndex, biasIndex, ne_eq, Prod.mk.injEq, and_true] <;> omega
  · rintro (_ | x) y <;> simp only [changeIndex, biasIndex, ne_eq, Prod.mk.injEq, and_true] <;> omega

/-- Non-vacuity: such a source exists, here for an IMU mounted upside down, after two unequal periods. -/
example : ∃ (Ω : Type) (_ : MeasurableSpace Ω) (P : Measure Ω) (W : ℤ → ℕ → Fin 3 → Ω → ℝ) (p : ImuParams ℝ)
    (us : List (ImuIn ℝ)), StandardNormal (W p.seed) P ∧ 0 < p.gyroVar ∧ 0 < p.accelVar ∧ 0 < p.gyroBiasCorr ∧
      0 < p.accelBiasCorr ∧ IsUnitQ p.ori ∧ p.ori.x = 1 ∧ (∀ u ∈ us, 0 < u.dt) ∧ us.map (·.dt) = [1, 2] := by
  obtain ⟨Ω, m, P, W, h⟩ := exists_standardNormal
  exact ⟨Ω, m, P, fun _ => W, ⟨1, 2, 3, 4, ⟨0, 1, 0, 0⟩, 7⟩, [⟨1, 0, 0⟩, ⟨2, 0, 1⟩], h, by norm_num, by norm_num,
    by norm_num, by norm_num, by simp [IsUnitQ], rfl, by simp, rfl⟩

end

end Verif.Props
