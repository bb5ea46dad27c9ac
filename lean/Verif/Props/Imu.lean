import Verif.Lemmas.Quat
import Verif.Spec.Sensors
import Mathlib.Algebra.BigOperators.Fin

/-!
# C34 - C38: the IMU
-/

namespace Verif.Props

open Verif Flt Spec

section
variable {α : Type} [Flt α] [Noise α]

/-! ## C34 -/

/-- **C34.** A period that compares `<= 0` changes nothing. Any arithmetic. -/
theorem C34_nonpositive_period (i : Imu α) (dt : α) (f om : Vec 3 α) (h : le dt (lit 0) = true) :
    i.update dt f om = i := by
  simp [Imu.update, h]

/-- ... while any other period draws exactly four triples and replaces the readings. -/
theorem C34_positive_period (i : Imu α) (dt : α) (f om : Vec 3 α) (h : le dt (lit 0) = false) :
    (i.update dt f om).rng = ⟨i.rng.seed, i.rng.idx + 4⟩ := by
  simp [Imu.update, h, Imu.processBias, Imu.processMeasurement, Imu.scaledDraw, Rng.draw3]

/-- Non-vacuity. -/
example : le (-1 : ℝ) (lit 0) = true ∧ le (1 : ℝ) (lit 0) = false := by simp [flt]

/-! ## C36 -/

/-- **C36.** In every history the inverse mounting used for measurements is the inverse of the mounting
configured last, and each reading is the input rotated with it plus bias plus noise. Any arithmetic. -/
theorem C36_mounting (p : ImuParams α) (os : List (ImuOp α)) :
    let q := lastMounting p.ori os
    let i := (Imu.mk' p).run os
    i.ori = q ∧
    ∀ (dt : α) (f om : Vec 3 α), le dt (lit 0) = false →
      (∀ j, (i.update dt f om).gyro j =
        (q.inverse.rotate om j ⊞ (i.update dt f om).gyroBias j) ⊞
          (sqrt i.gyroVar ⊠ Noise.draw i.rng.seed (i.rng.idx + 2) j)) ∧
      (∀ j, (i.update dt f om).accel j =
        (q.inverse.rotate f j ⊞ (i.update dt f om).accelBias j) ⊞
          (sqrt i.accelVar ⊠ Noise.draw i.rng.seed (i.rng.idx + 3) j)) := by
  have key : ∀ (os : List (ImuOp α)) (i : Imu α), i.oriInv = i.ori.inverse →
      (i.run os).ori = lastMounting i.ori os ∧ (i.run os).oriInv = (i.run os).ori.inverse := by
    intro os
    induction os with
    | nil => intro i hi; exact ⟨rfl, hi⟩
    | cons o os ih =>
      intro i hi
      have hrun : i.run (o :: os) = (i.step o).run os := rfl
      rw [hrun]
      cases o with
      | update dt f om =>
        have h1 : (i.step (.update dt f om)).ori = i.ori ∧
            (i.step (.update dt f om)).oriInv = i.oriInv := by
          simp only [Imu.step, Imu.update]
          split
          · exact ⟨rfl, rfl⟩
          · exact ⟨rfl, rfl⟩
        have := ih (i.step (.update dt f om)) (by rw [h1.1, h1.2, hi])
        rw [h1.1] at this
        exact this
      | setOrientation q => exact ih (i.step (.setOrientation q)) rfl
      | reset => exact ih (i.step .reset) hi
      | setSeed s => exact ih (i.step (.setSeed s)) hi
      | setVariances g a => exact ih (i.step (.setVariances g a)) hi
      | setBiasCorr g a => exact ih (i.step (.setBiasCorr g a)) hi
      | setBias gb ab g a => exact ih (i.step (.setBias gb ab g a)) hi
  intro q i
  obtain ⟨h1, h2⟩ := key os (Imu.mk' p) rfl
  have h1' : i.ori = q := h1
  refine ⟨h1', fun dt f om hdt => ?_⟩
  have h2' : i.oriInv = q.inverse := by rw [← h1']; exact h2
  simp only [Imu.update, hdt, Bool.false_eq_true, if_false]
  rw [← h2']
  exact ⟨fun j => rfl, fun j => rfl⟩

/-- Non-vacuity: the mounting is changed twice, with an update in between. -/
example [Noise ℝ] (q r : Quat ℝ) (f om : Vec 3 ℝ) :
    lastMounting Quat.identity [.setOrientation q, .update 1 f om, .setOrientation r, .reset] = r := rfl

/-! ## C37 -/

omit [Noise α] in
/-- **C37.** What `reset` does, and nothing else. -/
theorem C37_reset (i : Imu α) :
    i.reset = { rng := i.rng, gyroVar := i.gyroVar, accelVar := i.accelVar
                gyroBiasCorr := i.gyroBiasCorr, accelBiasCorr := i.accelBiasCorr
                ori := i.ori, oriInv := i.oriInv
                gyroBias := fun _ => lit 0, accelBias := fun _ => lit 0
                gyro := fun _ => lit 0, accel := fun _ => lit 0 } := rfl

/-- **C37.** IMUs that differ only in biases and readings behave identically after `reset`, for ever. -/
theorem C37_forgets (i j : Imu α) (h1 : i.rng = j.rng) (h2 : i.gyroVar = j.gyroVar)
    (h3 : i.accelVar = j.accelVar) (h4 : i.gyroBiasCorr = j.gyroBiasCorr)
    (h5 : i.accelBiasCorr = j.accelBiasCorr) (h6 : i.ori = j.ori) (h7 : i.oriInv = j.oriInv)
    (os : List (ImuOp α)) : i.run (.reset :: os) = j.run (.reset :: os) := by
  have : i.step .reset = j.step .reset := by
    simp only [Imu.step, Imu.reset, h1, h2, h3, h4, h5, h6, h7]
  simp only [Imu.run, List.foldl_cons, this]

end

/-- Non-vacuity: two IMUs with different biases and readings. -/
example [Noise ℝ] : ∃ i j : Imu ℝ, i ≠ j ∧ i.rng = j.rng ∧ i.gyroVar = j.gyroVar ∧
    i.accelVar = j.accelVar ∧ i.gyroBiasCorr = j.gyroBiasCorr ∧ i.accelBiasCorr = j.accelBiasCorr ∧
    i.ori = j.ori ∧ i.oriInv = j.oriInv :=
  ⟨⟨⟨0, 0⟩, 1, 1, 1, 1, Quat.identity, Quat.identity, 0, 0, 0, 0⟩,
   ⟨⟨0, 0⟩, 1, 1, 1, 1, Quat.identity, Quat.identity, 1, 0, 0, 1⟩, by simp [Imu.ext_iff],
   rfl, rfl, rfl, rfl, rfl, rfl, rfl⟩

section
variable [Noise ℝ]

/-! ## C35 -/

/-- **C35.** A noise-free IMU in any state reached by any history: through any further updates the
biases stay, and after an update with `dt > 0` the gyro and accelerometer readings minus the biases are
the angular velocity and force seen from the mounting frame; so without biases the norms are
preserved. -/
theorem C35_noise_free (p : ImuParams ℝ) (os : List (ImuOp ℝ)) (i : Imu ℝ)
    (hi : i = (Imu.mk' p).run os) (h1 : i.gyroVar = 0) (h2 : i.accelVar = 0) (h3 : i.gyroBiasCorr = 0)
    (h4 : i.accelBiasCorr = 0) (hu : IsUnitQ i.ori) (us : List (ImuIn ℝ)) (dt : ℝ) (hdt : 0 < dt)
    (f om : Vec 3 ℝ) :
    let j := (i.run (us.map ImuIn.op)).update dt f om
    j.gyroBias = i.gyroBias ∧ j.accelBias = i.accelBias ∧
    IsRotated i.ori (j.gyro - i.gyroBias) om ∧ IsRotated i.ori (j.accel - i.accelBias) f ∧
    (i.gyroBias = 0 → j.gyro ⬝ᵥ j.gyro = om ⬝ᵥ om) ∧
    (i.accelBias = 0 → j.accel ⬝ᵥ j.accel = f ⬝ᵥ f) := by
  have hinv : i.oriInv = i.ori.inverse := by
    subst hi
    have key : ∀ (os : List (ImuOp ℝ)) (i : Imu ℝ), i.oriInv = i.ori.inverse →
        (i.run os).oriInv = (i.run os).ori.inverse := by
      intro os
      induction os with
      | nil => intro i hi; exact hi
      | cons o os ih =>
        intro i hi
        refine ih (i.step o) ?_
        cases o <;> try exact hi
        · simp only [Imu.step, Imu.update]
          split <;> exact hi
        · rfl
    exact key os _ rfl
  -- configuration and biases are invariant
  have hk : ∀ (us : List (ImuIn ℝ)) (k : Imu ℝ), (k.gyroVar = 0 ∧ k.accelVar = 0 ∧ k.gyroBiasCorr = 0 ∧
      k.accelBiasCorr = 0 ∧ k.oriInv = i.ori.inverse ∧ k.gyroBias = i.gyroBias ∧
      k.accelBias = i.accelBias) →
      let k' := k.run (us.map ImuIn.op)
      (k'.gyroVar = 0 ∧ k'.accelVar = 0 ∧ k'.gyroBiasCorr = 0 ∧
      k'.accelBiasCorr = 0 ∧ k'.oriInv = i.ori.inverse ∧ k'.gyroBias = i.gyroBias ∧
      k'.accelBias = i.accelBias) := by
    intro us
    induction us with
    | nil => intro k hk; exact hk
    | cons u us ih =>
      intro k hk
      refine ih (k.step u.op) ?_
      obtain ⟨a1, a2, a3, a4, a5, a6, a7⟩ := hk
      simp only [Imu.step, ImuIn.op, Imu.update]
      split
      · exact ⟨a1, a2, a3, a4, a5, a6, a7⟩
      · refine ⟨a1, a2, a3, a4, a5, ?_, ?_⟩
        · simp only [Imu.processMeasurement, Imu.processBias, Imu.scaledDraw, a3, flt]
          ext l; simp [a6]
        · simp only [Imu.processMeasurement, Imu.processBias, Imu.scaledDraw, a4, flt]
          ext l; simp [a7]
  obtain ⟨a1, a2, a3, a4, a5, a6, a7⟩ := hk us i ⟨h1, h2, h3, h4, hinv, rfl, rfl⟩
  intro j
  have hb1 : j.gyroBias = i.gyroBias := by
    simp only [j, Imu.update, flt, not_le.2 hdt, decide_false, Bool.false_eq_true, if_false,
      Imu.processMeasurement, Imu.processBias, Imu.scaledDraw, a3]
    ext l; simp [a6]
  have hb2 : j.accelBias = i.accelBias := by
    simp only [j, Imu.update, flt, not_le.2 hdt, decide_false, Bool.false_eq_true, if_false,
      Imu.processMeasurement, Imu.processBias, Imu.scaledDraw, a4]
    ext l; simp [a7]
  have hg : j.gyro = i.ori.inverse.rotate om + i.gyroBias := by
    simp only [j, Imu.update, flt, not_le.2 hdt, decide_false, Bool.false_eq_true, if_false,
      Imu.processMeasurement, Imu.processBias, Imu.scaledDraw, a1, a3, a5]
    ext l; simp [a6]
  have ha : j.accel = i.ori.inverse.rotate f + i.accelBias := by
    simp only [j, Imu.update, flt, not_le.2 hdt, decide_false, Bool.false_eq_true, if_false,
      Imu.processMeasurement, Imu.processBias, Imu.scaledDraw, a2, a4, a5]
    ext l; simp [a7]
  refine ⟨hb1, hb2, ?_, ?_, ?_, ?_⟩
  · have := Quat.rotate_isRotated hu (i.ori.inverse.rotate om)
    rw [Quat.rotate_inverse_rotate hu] at this
    rw [hg, add_sub_cancel_right]
    exact this
  · have := Quat.rotate_isRotated hu (i.ori.inverse.rotate f)
    rw [Quat.rotate_inverse_rotate hu] at this
    rw [ha, add_sub_cancel_right]
    exact this
  · intro h0
    rw [hg, h0, add_zero, Quat.rotate_dot (Quat.inverse_isUnit hu)]
  · intro h0
    rw [ha, h0, add_zero, Quat.rotate_dot (Quat.inverse_isUnit hu)]

/-- Non-vacuity: a noise-free IMU mounted upside down with a gyro bias. -/
example : ∃ (p : ImuParams ℝ) (os : List (ImuOp ℝ)) (i : Imu ℝ), i = (Imu.mk' p).run os ∧
    i.gyroVar = 0 ∧ i.accelVar = 0 ∧ i.gyroBiasCorr = 0 ∧ i.accelBiasCorr = 0 ∧ IsUnitQ i.ori ∧
    i.gyroBias = 1 := by
  refine ⟨⟨0, 0, 1, 1, ⟨0, 1, 0, 0⟩, 3⟩, [.setBias 1 0 0 0], _, rfl, ?_⟩
  simp [Imu.run, Imu.step, Imu.setBias, Imu.setBiasCorr, Imu.mk', Imu.scaledDraw, IsUnitQ]

/-! ## C38 -/

/-- **C38.** After any sequence of updates with positive periods the biases are the initial ones plus
the sum of `√(q dt)` times the standard normal samples drawn for them: a random walk whose variance grows
by `q` per second. -/
theorem C38_random_walk (i : Imu ℝ) (us : List (ImuIn ℝ)) (hdt : ∀ u ∈ us, 0 < u.dt)
    (h1 : 0 ≤ i.gyroBiasCorr) (h2 : 0 ≤ i.accelBiasCorr) :
    (i.run (us.map ImuIn.op)).gyroBias = i.gyroBias + ∑ k : Fin us.length,
      √(i.gyroBiasCorr * (us.get k).dt) • Noise.draw i.rng.seed (i.rng.idx + 4 * k) ∧
    (i.run (us.map ImuIn.op)).accelBias = i.accelBias + ∑ k : Fin us.length,
      √(i.accelBiasCorr * (us.get k).dt) • Noise.draw i.rng.seed (i.rng.idx + 4 * k + 1) := by
  induction us generalizing i with
  | nil => simp [Imu.run]
  | cons u us ih =>
    have hu : 0 < u.dt := hdt u (List.mem_cons_self ..)
    have hs : ∀ q : ℝ, 0 ≤ q → √(q / u.dt) * u.dt = √(q * u.dt) := by
      intro q hq
      rw [Real.sqrt_div hq, Real.sqrt_mul hq]
      have : √u.dt ≠ 0 := (Real.sqrt_pos.2 hu).ne'
      field_simp
      rw [Real.sq_sqrt hu.le]
    have hrun : i.run ((u :: us).map ImuIn.op) = (i.step u.op).run (us.map ImuIn.op) := rfl
    rw [hrun]
    have e : i.step u.op = (i.processBias u.dt).processMeasurement u.force u.om := by
      simp [Imu.step, ImuIn.op, Imu.update, flt, hu]
    have e1 : (i.step u.op).gyroBiasCorr = i.gyroBiasCorr := by rw [e]; rfl
    have e2 : (i.step u.op).accelBiasCorr = i.accelBiasCorr := by rw [e]; rfl
    have e3 : (i.step u.op).rng = ⟨i.rng.seed, i.rng.idx + 4⟩ := by rw [e]; rfl
    have e4 : (i.step u.op).gyroBias = i.gyroBias +
        √(i.gyroBiasCorr * u.dt) • Noise.draw i.rng.seed i.rng.idx := by
      rw [e, ← hs _ h1]
      simp only [Imu.processMeasurement, Imu.processBias, Imu.scaledDraw, Rng.draw3, flt]
      ext l
      simp only [Pi.add_apply, Pi.smul_apply, smul_eq_mul]
      ring
    have e5 : (i.step u.op).accelBias = i.accelBias +
        √(i.accelBiasCorr * u.dt) • Noise.draw i.rng.seed (i.rng.idx + 1) := by
      rw [e, ← hs _ h2]
      simp only [Imu.processMeasurement, Imu.processBias, Imu.scaledDraw, Rng.draw3, flt]
      ext l
      simp only [Pi.add_apply, Pi.smul_apply, smul_eq_mul]
      ring
    obtain ⟨i1, i2⟩ := ih (i.step u.op) (fun v hv => hdt v (List.mem_cons_of_mem _ hv))
      (by rw [e1]; exact h1) (by rw [e2]; exact h2)
    have e3s : (i.step u.op).rng.seed = i.rng.seed := by rw [e3]
    have e3i : (i.step u.op).rng.idx = i.rng.idx + 4 := by rw [e3]
    constructor
    · rw [i1, e1, e3s, e3i, e4, add_assoc]
      congr 1
      simp only [List.length_cons, Fin.sum_univ_succ]
      congr 1
      apply Finset.sum_congr rfl
      intro k _
      simp only [List.get_eq_getElem, Fin.val_succ, List.getElem_cons_succ]
      congr 2
      ring
    · rw [i2, e2, e3s, e3i, e5, add_assoc]
      congr 1
      simp only [List.length_cons, Fin.sum_univ_succ]
      congr 1
      apply Finset.sum_congr rfl
      intro k _
      simp only [List.get_eq_getElem, Fin.val_succ, List.getElem_cons_succ]
      congr 2
      ring

/-- Non-vacuity: two updates of a constructed IMU. -/
example (f : Vec 3 ℝ) : (∀ u ∈ [(⟨1, f, f⟩ : ImuIn ℝ), ⟨2, f, f⟩], 0 < u.dt) ∧
    0 ≤ (Imu.mk' (⟨1, 1, 1, 2, Quat.identity, 3⟩ : ImuParams ℝ)).gyroBiasCorr ∧
    0 ≤ (Imu.mk' (⟨1, 1, 1, 2, Quat.identity, 3⟩ : ImuParams ℝ)).accelBiasCorr := by
  simp [Imu.mk', Imu.scaledDraw]

end

end Verif.Props
