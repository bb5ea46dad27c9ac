import Verif.Props.Chance
import Verif.Props.Parked
import Verif.Props.DynStep

/-!
# C138: the error of the dead-reckoned velocity and the update rate

The measurement noise of the accelerometer has the same variance at every update, whatever the period, so the velocity which
the odometry integrates from it depends on how the elapsed time is divided into updates.
-/

namespace Verif.Props

open Verif Flt Spec MeasureTheory ProbabilityTheory

/-- The IMU and the odometry fed by it at the same rate — multirotor_simulator.hpp:243-257. -/
noncomputable def sense [Noise ℝ] (s : Imu ℝ × Odom ℝ) (u : ImuIn ℝ) : Imu ℝ × Odom ℝ :=
  let i := s.1.update u.dt u.force u.om
  (i, s.2.update i.gyro i.accel u.dt)

/-- The odometry after some measurements in the outcome `ω`, both sensors freshly constructed. -/
noncomputable def reckoned {Ω : Type} (W : ℤ → ℕ → Fin 3 → Ω → ℝ) (p : ImuParams ℝ) (o : Odom ℝ) (us : List (ImuIn ℝ))
    (ω : Ω) : Odom ℝ :=
  let _ := outcome W ω
  (us.foldl sense (Imu.mk' p, o)).2

/-- Each period, weighted with the `k`-th power of the time from its beginning to the end. -/
noncomputable def moment (k : ℕ) : List ℝ → ℝ
  | [] => 0
  | dt :: dts => dt * total (dt :: dts) ^ k + moment k dts

/-- The sum of the squares of the periods. -/
noncomputable def sumSquares : List ℝ → ℝ
  | [] => 0
  | dt :: dts => dt ^ 2 + sumSquares dts

/-- The velocity reached from rest under the specific forces, `g` taking these to sensor axes. -/
noncomputable def reached (g : Vec 3 ℝ → Vec 3 ℝ) : List (ImuIn ℝ) → Vec 3 ℝ
  | [] => 0
  | u :: us => u.dt • g u.force + reached g us

/-- **C138**, full statement: without gyroscope errors and without forces, an odometry which does not filter reports a
velocity whose distribution depends on the elapsed time only, not on its division into updates. -/
def C138_claim : Prop :=
  ∀ (Ω : Type) (_ : MeasurableSpace Ω) (W : ℤ → ℕ → Fin 3 → Ω → ℝ) (P : Measure Ω) (p : ImuParams ℝ) (o : Odom ℝ),
    StandardNormal (W p.seed) P → p.gyroVar = 0 → 0 ≤ p.accelVar → p.gyroBiasCorr = 0 → 0 ≤ p.accelBiasCorr →
    IsUnitQ p.ori → Odom.mk' ⟨1, Quat.identity⟩ = some o →
    ∀ us vs : List (ImuIn ℝ), (∀ u ∈ us ++ vs, 0 < u.dt ∧ u.force = 0 ∧ u.om = 0) →
      total (us.map (·.dt)) = total (vs.map (·.dt)) → ∀ (j : Fin 3) (μ : Measure ℝ),
        HasLaw (fun ω => (reckoned W p o us ω).vel j) μ P → HasLaw (fun ω => (reckoned W p o vs ω).vel j) μ P

/-! ## Helper lemmas -/

lemma total_snoc (dts : List ℝ) (dt : ℝ) : total (dts ++ [dt]) = total dts + dt := by
  induction dts with
  | nil => simp [total]
  | cons x dts ih => simp only [List.cons_append, total, ih]; ring

lemma sumSquares_snoc (dts : List ℝ) (dt : ℝ) : sumSquares (dts ++ [dt]) = sumSquares dts + dt ^ 2 := by
  induction dts with
  | nil => simp [sumSquares]
  | cons x dts ih => simp only [List.cons_append, sumSquares, ih]; ring

lemma moment_one_snoc (dts : List ℝ) (dt : ℝ) :
    moment 1 (dts ++ [dt]) = moment 1 dts + dt * total dts + dt ^ 2 := by
  induction dts with
  | nil => simp [moment, total]; ring
  | cons x dts ih => simp only [List.cons_append, moment, total, total_snoc, ih]; ring

lemma moment_two_snoc (dts : List ℝ) (dt : ℝ) :
    moment 2 (dts ++ [dt]) = moment 2 dts + 2 * dt * moment 1 dts + dt ^ 2 * total dts + dt ^ 3 := by
  induction dts with
  | nil => simp [moment, total]; ring
  | cons x dts ih => simp only [List.cons_append, moment, total, total_snoc, ih]; ring

lemma reached_snoc (g : Vec 3 ℝ → Vec 3 ℝ) (us : List (ImuIn ℝ)) (u : ImuIn ℝ) :
    reached g (us ++ [u]) = reached g us + u.dt • g u.force := by
  induction us with
  | nil => simp [reached]
  | cons x us ih => simp only [List.cons_append, reached, ih]; abel

section
variable {Ω : Type}

lemma sensed_fst (W : ℤ → ℕ → Fin 3 → Ω → ℝ) (p : ImuParams ℝ) (o : Odom ℝ) (us : List (ImuIn ℝ)) (ω : Ω) :
    (let _ := outcome W ω; (us.foldl sense (Imu.mk' p, o)).1) = imuAfter W p us ω := by
  induction us using List.reverseRecOn with
  | nil => rfl
  | append_singleton us u ih =>
    rw [imuAfter_snoc, ← ih]
    simp [sense]

lemma reckoned_snoc (W : ℤ → ℕ → Fin 3 → Ω → ℝ) (p : ImuParams ℝ) (o : Odom ℝ) (us : List (ImuIn ℝ)) (u : ImuIn ℝ)
    (ω : Ω) : reckoned W p o (us ++ [u]) ω = (reckoned W p o us ω).update (imuAfter W p (us ++ [u]) ω).gyro
      (imuAfter W p (us ++ [u]) ω).accel u.dt := by
  rw [← sensed_fst W p o]
  simp [reckoned, sense]

/-- Without gyroscope errors and rotation the gyroscope reads zero. -/
lemma gyro_zero (W : ℤ → ℕ → Fin 3 → Ω → ℝ) (p : ImuParams ℝ) (hg : p.gyroVar = 0) (hgb : p.gyroBiasCorr = 0)
    (hab : 0 ≤ p.accelBiasCorr) (us : List (ImuIn ℝ)) (u : ImuIn ℝ) (hdt : ∀ v ∈ us ++ [u], 0 < v.dt) (hom : u.om = 0)
    (ω : Ω) : (imuAfter W p (us ++ [u]) ω).gyro = 0 := by
  funext j
  rw [(imuAfter_readings W p us u (fun v hv => hdt v (by simp [hv])) (hdt u (by simp)) ω j).1,
    (imuAfter_biases W p (us ++ [u]) hdt hgb.ge hab ω j).1, Fintype.sum_option, hom, Quat.rotate_zero]
  simp [biasCoeff, hg, hgb]

lemma reckoned_frame (W : ℤ → ℕ → Fin 3 → Ω → ℝ) (p : ImuParams ℝ) {o : Odom ℝ}
    (ho : Odom.mk' ⟨1, Quat.identity⟩ = some o) (hg : p.gyroVar = 0) (hgb : p.gyroBiasCorr = 0)
    (hab : 0 ≤ p.accelBiasCorr) (us : List (ImuIn ℝ)) (hdt : ∀ u ∈ us, 0 < u.dt) (hom : ∀ u ∈ us, u.om = 0) (ω : Ω) :
    (reckoned W p o us ω).alpha = 1 ∧ (reckoned W p o us ω).ori = Quat.identity := by
  induction us using List.reverseRecOn with
  | nil =>
    simp only [Odom.mk', flt] at ho
    simp only [zero_lt_one, decide_true, le_refl, Bool.and_self, if_true, Option.some.injEq] at ho
    subst ho
    exact ⟨rfl, rfl⟩
  | append_singleton us u ih =>
    obtain ⟨h1, h2⟩ := ih (fun v hv => hdt v (by simp [hv])) (fun v hv => hom v (by simp [hv]))
    rw [reckoned_snoc, gyro_zero W p hg hgb hab us u hdt (hom u (by simp))]
    refine ⟨h1, ?_⟩
    have : ((reckoned W p o us ω).update 0 (imuAfter W p (us ++ [u]) ω).accel u.dt).ori =
        quatIntegrate (reckoned W p o us ω).ori
          ((reckoned W p o us ω).filter 0 (imuAfter W p (us ++ [u]) ω).accel).gyroF u.dt := rfl
    have h3 : ((reckoned W p o us ω).filter 0 (imuAfter W p (us ++ [u]) ω).accel).gyroF = 0 := by
      simp [Odom.filter, h1, flt]
    rw [this, h3, h2]
    exact quatIntegrate_zero (by simp [IsUnitQ, Quat.identity, flt]) _

lemma reckoned_vel (W : ℤ → ℕ → Fin 3 → Ω → ℝ) (p : ImuParams ℝ) {o : Odom ℝ}
    (ho : Odom.mk' ⟨1, Quat.identity⟩ = some o) (hg : p.gyroVar = 0) (hgb : p.gyroBiasCorr = 0)
    (hab : 0 ≤ p.accelBiasCorr) (us : List (ImuIn ℝ)) (u : ImuIn ℝ) (hdt : ∀ v ∈ us ++ [u], 0 < v.dt)
    (hom : ∀ v ∈ us ++ [u], v.om = 0) (ω : Ω) :
    (reckoned W p o (us ++ [u]) ω).vel =
      (reckoned W p o us ω).vel + u.dt • (imuAfter W p (us ++ [u]) ω).accel := by
  obtain ⟨h1, h2⟩ := reckoned_frame W p ho hg hgb hab us (fun v hv => hdt v (by simp [hv]))
    (fun v hv => hom v (by simp [hv])) ω
  have hi : (Quat.identity : Quat ℝ).inverse = Quat.identity := by
    simp [Quat.inverse, Quat.identity, Quat.coeffs, dotProduct, Fin.sum_univ_succ, flt]
  rw [reckoned_snoc]
  simp [Odom.update, Odom.integrate, Odom.filter, h1, h2, hi, Quat.rotate_identity, flt]

/-- The bias and the velocity as combinations of the samples drawn so far. -/
lemma reckoned_combination (W : ℤ → ℕ → Fin 3 → Ω → ℝ) (p : ImuParams ℝ) {o : Odom ℝ}
    (ho : Odom.mk' ⟨1, Quat.identity⟩ = some o) (hg : p.gyroVar = 0) (ha : 0 ≤ p.accelVar) (hgb : p.gyroBiasCorr = 0)
    (hab : 0 ≤ p.accelBiasCorr) (us : List (ImuIn ℝ)) (hdt : ∀ v ∈ us, 0 < v.dt)
    (hom : ∀ v ∈ us, v.om = 0) :
    ∃ b c : ℕ → ℝ, (∀ j ω, (imuAfter W p us ω).accelBias j =
        ∑ n ∈ Finset.range (2 + 4 * us.length), b n * W p.seed n j ω) ∧
      (∀ j ω, (reckoned W p o us ω).vel j =
        reached p.ori.inverse.rotate us j + ∑ n ∈ Finset.range (2 + 4 * us.length), c n * W p.seed n j ω) ∧
      (∑ n ∈ Finset.range (2 + 4 * us.length), b n ^ 2 =
        p.accelVar + p.accelBiasCorr * total (us.map (·.dt))) ∧
      (∑ n ∈ Finset.range (2 + 4 * us.length), b n * c n =
        p.accelVar * total (us.map (·.dt)) + p.accelBiasCorr * moment 1 (us.map (·.dt))) ∧
      ∑ n ∈ Finset.range (2 + 4 * us.length), c n ^ 2 =
        p.accelVar * (sumSquares (us.map (·.dt)) + total (us.map (·.dt)) ^ 2) +
          p.accelBiasCorr * moment 2 (us.map (·.dt)) := by
  induction us using List.reverseRecOn with
  | nil =>
    refine ⟨fun n => if n = 1 then √p.accelVar else 0, 0, ?_, ?_, ?_, ?_, ?_⟩
    · intro j ω
      rw [(imuAfter_biases W p [] hdt hgb.ge hab ω j).2, Fintype.sum_option]
      simp [biasCoeff, biasIndex]
    · intro j ω
      simp only [Odom.mk', flt] at ho
      simp only [zero_lt_one, decide_true, le_refl, Bool.and_self, if_true, Option.some.injEq] at ho
      subst ho
      simp [reckoned, reached, Odom.reset, flt]
    · simp [total, Real.sq_sqrt ha]
    · simp [total, moment]
    · simp [total, moment, sumSquares]
  | append_singleton us u ih =>
    obtain ⟨b, c, hb, hc, hB, hC, hV⟩ := ih (fun v hv => hdt v (by simp [hv])) (fun v hv => hom v (by simp [hv]))
    have hu : 0 < u.dt := hdt u (by simp)
    set M := 2 + 4 * us.length with hM
    have hM' : 2 + 4 * (us ++ [u]).length = M + 1 + 1 + 1 + 1 := by simp; omega
    set s := √(p.accelBiasCorr * u.dt) with hs
    have hss : s ^ 2 = p.accelBiasCorr * u.dt := Real.sq_sqrt (mul_nonneg hab hu.le)
    set a := √p.accelVar with haa
    have has : a ^ 2 = p.accelVar := Real.sq_sqrt ha
    let b' : ℕ → ℝ := fun n => if n < M then b n else if n = M + 1 then s else 0
    let c' : ℕ → ℝ := fun n => if n < M then c n + u.dt * b n else
      if n = M + 1 then u.dt * s else if n = M + 3 then u.dt * a else 0
    have split : ∀ f : ℕ → ℝ, ∑ n ∈ Finset.range (2 + 4 * (us ++ [u]).length), f n =
        ∑ n ∈ Finset.range M, f n + f M + f (M + 1) + f (M + 2) + f (M + 3) := by
      intro f
      rw [hM', Finset.sum_range_succ, Finset.sum_range_succ, Finset.sum_range_succ, Finset.sum_range_succ]
    have b0 : b' M = 0 := by simp [b']
    have b1 : b' (M + 1) = s := by simp [b']
    have b2 : b' (M + 2) = 0 := by simp [b']
    have b3 : b' (M + 3) = 0 := by simp [b']
    have c0 : c' M = 0 := by simp [c']
    have c1 : c' (M + 1) = u.dt * s := by simp [c']
    have c2 : c' (M + 2) = 0 := by simp [c']
    have c3 : c' (M + 3) = u.dt * a := by simp [c']
    have bl : ∀ n ∈ Finset.range M, b' n = b n := fun n hn => by simp [b', Finset.mem_range.mp hn]
    have cl : ∀ n ∈ Finset.range M, c' n = c n + u.dt * b n := fun n hn => by simp [c', Finset.mem_range.mp hn]
    have hbias : ∀ j ω, (imuAfter W p (us ++ [u]) ω).accelBias j =
        ∑ n ∈ Finset.range M, b n * W p.seed n j ω + s * W p.seed (M + 1) j ω := by
      intro j ω
      have := (imuAfter_change W p us [u] hdt hgb.ge hab ω j).2
      rw [hb j ω, sub_eq_iff_eq_add'] at this
      rw [this]
      simp [changeIndex, hs, hM]
    refine ⟨b', c', ?_, ?_, ?_, ?_, ?_⟩
    · intro j ω
      rw [hbias, split, b0, b1, b2, b3]
      rw [Finset.sum_congr (f := fun n => b' n * W p.seed n j ω) rfl fun n hn => by rw [bl n hn]]
      ring
    · intro j ω
      rw [reckoned_vel W p ho hg hgb hab us u hdt hom ω, reached_snoc, split, c0, c1, c2, c3,
        Finset.sum_congr (f := fun n => c' n * W p.seed n j ω) rfl fun n hn => by rw [cl n hn]]
      simp only [Pi.add_apply, Pi.smul_apply, smul_eq_mul]
      rw [hc j ω, (imuAfter_readings W p us u (fun v hv => hdt v (by simp [hv])) hu ω j).2, hbias]
      simp only [add_mul, Finset.sum_add_distrib, mul_assoc, ← Finset.mul_sum]
      rw [← hM, ← haa]
      ring
    · rw [split, b0, b1, b2, b3, Finset.sum_congr rfl fun n hn => by rw [bl n hn], hB, hss]
      simp only [List.map_append, List.map_cons, List.map_nil, total_snoc]
      ring
    · rw [split, b0, b1, b2, b3, c1, Finset.sum_congr rfl fun n hn => by rw [bl n hn, cl n hn]]
      have : ∑ n ∈ Finset.range M, b n * (c n + u.dt * b n) =
          ∑ n ∈ Finset.range M, b n * c n + u.dt * ∑ n ∈ Finset.range M, b n ^ 2 := by
        rw [Finset.mul_sum, ← Finset.sum_add_distrib]
        exact Finset.sum_congr rfl fun n _ => by ring
      rw [this, hC, hB]
      simp only [List.map_append, List.map_cons, List.map_nil, total_snoc, moment_one_snoc]
      linear_combination u.dt * hss
    · rw [split, c0, c1, c2, c3, Finset.sum_congr rfl fun n hn => by rw [cl n hn]]
      have : ∑ n ∈ Finset.range M, (c n + u.dt * b n) ^ 2 =
          ∑ n ∈ Finset.range M, c n ^ 2 + 2 * u.dt * ∑ n ∈ Finset.range M, b n * c n +
            u.dt ^ 2 * ∑ n ∈ Finset.range M, b n ^ 2 := by
        rw [Finset.mul_sum, Finset.mul_sum, ← Finset.sum_add_distrib, ← Finset.sum_add_distrib]
        exact Finset.sum_congr rfl fun n _ => by ring
      rw [this, hC, hB, hV]
      simp only [List.map_append, List.map_cons, List.map_nil, total_snoc, moment_two_snoc, sumSquares_snoc]
      linear_combination u.dt ^ 2 * hss + u.dt ^ 2 * has

lemma sensor_axes {q : Quat ℝ} (hq : IsUnitQ q) {g : Vec 3 ℝ → Vec 3 ℝ} (hr : ∀ f, IsRotated q (g f) f) :
    g = q.inverse.rotate := by
  funext f
  have : f = q.rotate (g f) := isRotated_unique (hr f) (Quat.rotate_isRotated hq _)
  conv_rhs => rw [this]
  exact (Quat.inverse_rotate_rotate hq _).symm

lemma equal_periods (dt : ℝ) (N : ℕ) : total (List.replicate N dt) = N * dt ∧
    sumSquares (List.replicate N dt) = N * dt * dt ∧ moment 1 (List.replicate N dt) = N * dt * (N * dt + dt) / 2 ∧
    moment 2 (List.replicate N dt) = N * dt * (N * dt + dt) * (2 * (N * dt) + dt) / 6 := by
  induction N with
  | zero => simp [total, sumSquares, moment]
  | succ N ih =>
    obtain ⟨h1, h2, h3, h4⟩ := ih
    simp only [List.replicate_succ, total, sumSquares, moment, h1, h2, h3, h4]
    push_cast
    refine ⟨by ring, by ring, by ring, by ring⟩

end

/-! ## The theorems -/

section
variable {Ω : Type} [MeasurableSpace Ω]

/-- **C138** (partial: the distribution which the code does bring about). Around the true velocity the reported one is
normally distributed; the variance has a part which depends on the division into updates. -/
theorem C138_law_partial (W : ℤ → ℕ → Fin 3 → Ω → ℝ) (P : Measure Ω) (p : ImuParams ℝ) {o : Odom ℝ}
    (h : StandardNormal (W p.seed) P) (ho : Odom.mk' ⟨1, Quat.identity⟩ = some o) (hg : p.gyroVar = 0)
    (ha : 0 ≤ p.accelVar) (hgb : p.gyroBiasCorr = 0) (hab : 0 ≤ p.accelBiasCorr) (us : List (ImuIn ℝ))
    (hdt : ∀ v ∈ us, 0 < v.dt) (hom : ∀ v ∈ us, v.om = 0) (hq : IsUnitQ p.ori) {g : Vec 3 ℝ → Vec 3 ℝ}
    (hr : ∀ f, IsRotated p.ori (g f) f) (j : Fin 3) :
    HasLaw (fun ω => (reckoned W p o us ω).vel j)
      (gaussianReal (reached g us j) (p.accelVar * (sumSquares (us.map (·.dt)) + total (us.map (·.dt)) ^ 2) +
        p.accelBiasCorr * moment 2 (us.map (·.dt))).toNNReal) P := by
  obtain rfl := sensor_axes hq hr
  obtain ⟨b, c, -, hc, -, -, hV⟩ := reckoned_combination W p ho hg ha hgb hab us hdt hom
  rw [← hV, ← Fin.sum_univ_eq_sum_range (fun n => c n ^ 2)]
  have := h.hasLaw (fun n : Fin (2 + 4 * us.length) => ((n : ℕ), j)) (fun x y hxy => by
    simp only [Prod.mk.injEq, and_true] at hxy
    exact Fin.ext hxy) (reached p.ori.inverse.rotate us j) fun n => c n
  refine this.congr (Filter.Eventually.of_forall fun ω => ?_)
  simp only [hc j ω, ← Fin.sum_univ_eq_sum_range (fun n => c n * W p.seed n j ω)]

/-- **C138** (partial). With `N` equal periods over the time `T` the variance is `v T (T + T/N)` from the noise and
`q T (T + T/N) (2 T + T/N) / 6` from the wandering bias: it falls with the rate of the updates, but not below
`v T² + q T³ / 3`. -/
theorem C138_equal_periods_partial (W : ℤ → ℕ → Fin 3 → Ω → ℝ) (P : Measure Ω) (p : ImuParams ℝ) {o : Odom ℝ}
    (h : StandardNormal (W p.seed) P) (ho : Odom.mk' ⟨1, Quat.identity⟩ = some o) (hg : p.gyroVar = 0)
    (ha : 0 ≤ p.accelVar) (hgb : p.gyroBiasCorr = 0) (hab : 0 ≤ p.accelBiasCorr) {T : ℝ} (hT : 0 < T) {N : ℕ}
    (hN : 0 < N) (hq : IsUnitQ p.ori) (f : Vec 3 ℝ) {f' : Vec 3 ℝ} (hf : IsRotated p.ori f' f) (j : Fin 3) :
    HasLaw (fun ω => (reckoned W p o (List.replicate N ⟨T / N, f, 0⟩) ω).vel j)
      (gaussianReal (T * f' j)
        (p.accelVar * (T * (T + T / N)) + p.accelBiasCorr * (T * (T + T / N) * (2 * T + T / N) / 6)).toNNReal) P := by
  have hN' : (0 : ℝ) < N := by exact_mod_cast hN
  have hf' : f' = p.ori.inverse.rotate f := by
    rw [show f = p.ori.rotate f' from isRotated_unique hf (Quat.rotate_isRotated hq _), Quat.inverse_rotate_rotate hq]
  have hi : ∀ f, IsRotated p.ori (p.ori.inverse.rotate f) f := by
    intro f
    have := Quat.rotate_isRotated hq (p.ori.inverse.rotate f)
    rwa [Quat.rotate_inverse_rotate hq] at this
  have hr : ∀ (M : ℕ) (dt : ℝ), reached p.ori.inverse.rotate (List.replicate M ⟨dt, f, 0⟩) =
      (M * dt) • p.ori.inverse.rotate f := by
    intro M dt
    induction M with
    | zero => simp [reached]
    | succ M ih =>
      rw [List.replicate_succ, reached, ih, ← add_smul]
      push_cast
      congr 1
      ring
  have key := C138_law_partial W P p h ho hg ha hgb hab (List.replicate N ⟨T / N, f, 0⟩)
    (fun v hv => by rw [List.eq_of_mem_replicate hv]; exact div_pos hT hN')
    (fun v hv => by rw [List.eq_of_mem_replicate hv]) hq hi j
  obtain ⟨e1, e2, -, e4⟩ := equal_periods (T / N) N
  have e : (N : ℝ) * (T / N) = T := by field_simp
  rw [hr, List.map_replicate, e1, e2, e4, e] at key
  simp only [Pi.smul_apply, smul_eq_mul, ← hf'] at key
  convert key using 3
  ring

end

/-- **C138**: violated. Without wandering bias, one update of two seconds gives the velocity the variance 8, two updates of
one second the variance 6. -/
theorem C138_violated : ¬ C138_claim := by
  intro hc
  obtain ⟨Ω, m, P, W, h⟩ := exists_standardNormal
  obtain ⟨o, ho⟩ : ∃ o : Odom ℝ, Odom.mk' ⟨1, Quat.identity⟩ = some o := by
    simp [Odom.mk', flt]
  let p : ImuParams ℝ := ⟨0, 1, 0, 0, Quat.identity, 7⟩
  have hp : IsUnitQ p.ori := by simp [p, IsUnitQ, Quat.identity, flt]
  have hi : ∀ f, IsRotated p.ori (p.ori.inverse.rotate f) f := by
    intro f
    have := Quat.rotate_isRotated hp (p.ori.inverse.rotate f)
    rwa [Quat.rotate_inverse_rotate hp] at this
  have h1 := C138_law_partial (fun _ => W) P p h ho rfl zero_le_one rfl le_rfl [⟨2, 0, 0⟩] (by simp) (by simp) hp hi 0
  have h2 := C138_law_partial (fun _ => W) P p h ho rfl zero_le_one rfl le_rfl [⟨1, 0, 0⟩, ⟨1, 0, 0⟩] (by simp)
    (by simp) hp hi 0
  have h3 := hc Ω m (fun _ => W) P p o h rfl zero_le_one rfl le_rfl hp ho
    [⟨2, 0, 0⟩] [⟨1, 0, 0⟩, ⟨1, 0, 0⟩] (by simp) (by norm_num [total]) 0 _ h1
  have e := h3.map_eq.symm.trans h2.map_eq
  have v := congrArg (fun μ => variance id μ) e
  simp only [variance_id_gaussianReal] at v
  norm_num [p, sumSquares, total, moment] at v

/-- Non-vacuity: a source, a level odometry and an IMU with errors, mounted upside down, flown with unequal periods. -/
example : ∃ (Ω : Type) (_ : MeasurableSpace Ω) (P : Measure Ω) (W : ℤ → ℕ → Fin 3 → Ω → ℝ) (p : ImuParams ℝ)
    (o : Odom ℝ) (us : List (ImuIn ℝ)), StandardNormal (W p.seed) P ∧ Odom.mk' ⟨1, Quat.identity⟩ = some o ∧
      p.gyroVar = 0 ∧ 0 < p.accelVar ∧ p.gyroBiasCorr = 0 ∧ 0 < p.accelBiasCorr ∧ (∀ u ∈ us, 0 < u.dt) ∧
      (∀ u ∈ us, u.om = 0) ∧ us.map (·.dt) = [1, 2] ∧ moment 2 (us.map (·.dt)) = 17 ∧ 
      IsUnitQ p.ori ∧ reached p.ori.inverse.rotate us = ![0, 0, -4] := by
  obtain ⟨Ω, m, P, W, h⟩ := exists_standardNormal
  obtain ⟨o, ho⟩ : ∃ o : Odom ℝ, Odom.mk' ⟨1, Quat.identity⟩ = some o := by
    simp [Odom.mk', flt]
  refine ⟨Ω, m, P, fun _ => W, ⟨0, 2, 0, 4, ⟨0, 1, 0, 0⟩, 7⟩, o, [⟨1, 0, 0⟩, ⟨2, ![0, 0, 2], 0⟩], h, ho, rfl, by norm_num,
    rfl, by norm_num, by simp, by simp, rfl, by norm_num [moment, total],
    by norm_num [IsUnitQ], ?_⟩
  funext i
  fin_cases i <;>
    norm_num [reached, Quat.rotate, Quat.inverse, Quat.vec, cross_apply, Quat.coeffs, dotProduct, Fin.sum_univ_succ, flt]
  · exact Or.inl rfl
  · change (0 : ℝ) + 2 * 0 = 0
    norm_num
  · change (2 : ℝ) * (2 + (-2 + -2)) = -4
    norm_num

end Verif.Props
