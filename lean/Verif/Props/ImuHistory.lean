import Verif.Spec.ImuHistory
import Verif.Props.Imu

/-!
# C112: the IMU over its history
-/

namespace Verif.Props

open Verif Flt Spec

variable [Noise ℝ]

lemma imu_run_concat (i : Imu ℝ) (os : List (ImuOp ℝ)) (o : ImuOp ℝ) : i.run (os ++ [o]) = (i.run os).step o := by
  simp [Imu.run]

omit [Noise ℝ] in
lemma lastVariances_append (v : ℝ × ℝ) (as bs : List (ImuOp ℝ)) :
    lastVariances v (as ++ bs) = lastVariances (lastVariances v as) bs := by
  induction as generalizing v with
  | nil => rfl
  | cons a as ih => cases a <;> exact ih _

omit [Noise ℝ] in
lemma lastIntensities_append (v : ℝ × ℝ) (as bs : List (ImuOp ℝ)) :
    lastIntensities v (as ++ bs) = lastIntensities (lastIntensities v as) bs := by
  induction as generalizing v with
  | nil => rfl
  | cons a as ih => cases a <;> exact ih _

omit [Noise ℝ] in
lemma streamAfter_append (v : ℤ × ℕ) (as bs : List (ImuOp ℝ)) :
    streamAfter v (as ++ bs) = streamAfter (streamAfter v as) bs := by
  induction as generalizing v with
  | nil => rfl
  | cons a as ih => cases a <;> exact ih _

omit [Noise ℝ] in
lemma lastMounting_append (v : Quat ℝ) (as bs : List (ImuOp ℝ)) :
    lastMounting v (as ++ bs) = lastMounting (lastMounting v as) bs := by
  induction as generalizing v with
  | nil => rfl
  | cons a as ih => cases a <;> exact ih _

/-- An update with a positive period. -/
lemma imu_update_pos (i : Imu ℝ) {dt : ℝ} (h : 0 < dt) (f om : Vec 3 ℝ) :
    i.update dt f om = (i.processBias dt).processMeasurement f om := by
  simp [Imu.update, flt, h]

lemma imu_update_nonpos (i : Imu ℝ) {dt : ℝ} (h : dt ≤ 0) (f om : Vec 3 ℝ) : i.update dt f om = i := by
  simp [Imu.update, flt, h]

lemma imu_settings_step (i : Imu ℝ) (o : ImuOp ℝ) :
    ((i.step o).gyroVar, (i.step o).accelVar) = lastVariances (i.gyroVar, i.accelVar) [o] ∧
    ((i.step o).gyroBiasCorr, (i.step o).accelBiasCorr) = lastIntensities (i.gyroBiasCorr, i.accelBiasCorr) [o] ∧
    ((i.step o).rng.seed, (i.step o).rng.idx) = streamAfter (i.rng.seed, i.rng.idx) [o] := by
  cases o with
  | update dt f om =>
    by_cases h : 0 < dt
    · simp only [Imu.step, imu_update_pos i h]
      exact ⟨rfl, rfl, by simp only [streamAfter, h, if_true]; rfl⟩
    · simp only [Imu.step, imu_update_nonpos i (not_lt.1 h)]
      exact ⟨rfl, rfl, by simp only [streamAfter, h, if_false]⟩
  | _ => exact ⟨rfl, rfl, rfl⟩

/-- **C112, settings.** After any history the noise variances and the bias walk intensities are those set last, and the
random stream is the one seeded last, advanced by four triples per measurement. -/
theorem C112_settings (p : ImuParams ℝ) (os : List (ImuOp ℝ)) :
    let i := (Imu.mk' p).run os
    (i.gyroVar, i.accelVar) = ImuParams.variances p os ∧
    (i.gyroBiasCorr, i.accelBiasCorr) = ImuParams.intensities p os ∧
    (i.rng.seed, i.rng.idx) = ImuParams.stream p os := by
  induction os using List.reverseRecOn with
  | nil => exact ⟨rfl, rfl, rfl⟩
  | append_singleton os o ih =>
    obtain ⟨h1, h2, h3⟩ := ih
    intro i
    have hi : i = ((Imu.mk' p).run os).step o := imu_run_concat _ _ _
    obtain ⟨s1, s2, s3⟩ := imu_settings_step ((Imu.mk' p).run os) o
    rw [← hi, h1] at s1
    rw [← hi, h2] at s2
    rw [← hi, h3] at s3
    refine ⟨s1.trans ?_, s2.trans ?_, s3.trans ?_⟩
    · rw [ImuParams.variances, ImuParams.variances, lastVariances_append]
    · rw [ImuParams.intensities, ImuParams.intensities, lastIntensities_append]
    · rw [ImuParams.stream, ImuParams.stream, streamAfter_append]

omit [Noise ℝ] in
lemma intensities_nonneg {p : ImuParams ℝ} (hp : 0 ≤ p.gyroBiasCorr ∧ 0 ≤ p.accelBiasCorr)
    {os : List (ImuOp ℝ)} (hs : ∀ o ∈ os, SaneCall o) :
    0 ≤ (ImuParams.intensities p os).1 ∧ 0 ≤ (ImuParams.intensities p os).2 := by
  unfold ImuParams.intensities
  have key : ∀ (os : List (ImuOp ℝ)) (c : ℝ × ℝ), 0 ≤ c.1 ∧ 0 ≤ c.2 → (∀ o ∈ os, SaneCall o) →
      0 ≤ (lastIntensities c os).1 ∧ 0 ≤ (lastIntensities c os).2 := by
    intro os
    induction os with
    | nil => intro c hc _; exact hc
    | cons o os ih =>
      intro c hc h
      have ho := h o (List.mem_cons_self ..)
      have ht := fun o hm => h o (List.mem_cons_of_mem _ hm)
      cases o with
      | setBiasCorr g a => exact ih (g, a) ho ht
      | setBias gb ab g a => exact ih (g, a) ho ht
      | _ => exact ih c hc ht
  exact key os _ hp hs

/-- Bias step of a call that puts no bias in place. -/
lemma imu_bias_step (i : Imu ℝ) (o : ImuOp ℝ) (ho : assignsBias o = none) (h1 : 0 ≤ i.gyroBiasCorr)
    (h2 : 0 ≤ i.accelBiasCorr) :
    (i.step o).gyroBias = i.gyroBias + √(i.gyroBiasCorr * measuringTime o) • Noise.draw i.rng.seed i.rng.idx ∧
    (i.step o).accelBias = i.accelBias + √(i.accelBiasCorr * measuringTime o) • Noise.draw i.rng.seed (i.rng.idx + 1) := by
  cases o with
  | update dt f om =>
    by_cases h : 0 < dt
    · have hr := C38_random_walk i [⟨dt, f, om⟩] (by simpa using h) h1 h2
      simpa [Imu.run, ImuIn.op, measuringTime, max_eq_left h.le] using hr
    · have hd := not_lt.1 h
      simp [Imu.step, imu_update_nonpos i hd, measuringTime, max_eq_right hd]
  | reset => simp [assignsBias] at ho
  | setBias gb ab g a => simp [assignsBias] at ho
  | _ => simp [Imu.step, measuringTime, Imu.setSeed, Imu.setVariances, Imu.setBiasCorr, Imu.setOrientation]

lemma imu_walk (p : ImuParams ℝ) (hp : 0 ≤ p.gyroBiasCorr ∧ 0 ≤ p.accelBiasCorr) (pre post : List (ImuOp ℝ))
    (hs : ∀ o ∈ pre ++ post, SaneCall o) (hn : ∀ o ∈ post, assignsBias o = none) :
    let i := (Imu.mk' p).run pre
    let j := (Imu.mk' p).run (pre ++ post)
    j.gyroBias = i.gyroBias + ImuParams.gyroWalk p pre post ∧
    j.accelBias = i.accelBias + ImuParams.accelWalk p pre post := by
  induction post using List.reverseRecOn with
  | nil => simp [ImuParams.gyroWalk, ImuParams.accelWalk]
  | append_singleton post o ih =>
    have hs' : ∀ o ∈ pre ++ post, SaneCall o := fun x hx => hs x (by
      rw [← List.append_assoc]; exact List.mem_append_left _ hx)
    obtain ⟨i1, i2⟩ := ih hs' (fun x hx => hn x (List.mem_append_left _ hx))
    have hset := C112_settings p (pre ++ post)
    obtain ⟨-, s2, s3⟩ := hset
    have hint := intensities_nonneg hp hs'
    rw [← s2] at hint
    obtain ⟨b1, b2⟩ := imu_bias_step ((Imu.mk' p).run (pre ++ post)) o (hn o (by simp)) hint.1 hint.2
    have hj : (Imu.mk' p).run (pre ++ (post ++ [o])) = ((Imu.mk' p).run (pre ++ post)).step o := by
      rw [← List.append_assoc, imu_run_concat]
    have e1 := congrArg Prod.fst s2
    have e2 := congrArg Prod.snd s2
    have e3 := congrArg Prod.fst s3
    have e4 := congrArg Prod.snd s3
    dsimp only at e1 e2 e3 e4
    rw [e1, e3, e4] at b1
    rw [e2, e3, e4] at b2
    have hsum : ∀ g : List (ImuOp ℝ) → ImuOp ℝ → Vec 3 ℝ,
        ∑ k : Fin (post ++ [o]).length, g ((post ++ [o]).take k) ((post ++ [o]).get k) =
        ∑ k : Fin post.length, g (post.take k) (post.get k) + g post o := by
      intro g
      have hl : (post ++ [o]).length = post.length + 1 := by simp
      rw [← Fin.sum_congr' _ hl.symm, Fin.sum_univ_castSucc]
      congr 1
      · refine Finset.sum_congr rfl fun k _ => ?_
        congr 1
        · simp [List.take_append_of_le_length k.isLt.le]
        · simp [List.getElem_append_left]
      · simp
    intro i j
    constructor
    · show ((Imu.mk' p).run (pre ++ (post ++ [o]))).gyroBias = _
      rw [hj, b1, i1, add_assoc]
      congr 1
      exact (hsum fun t x => √((ImuParams.intensities p (pre ++ t)).1 * measuringTime x) •
        Noise.draw (ImuParams.stream p (pre ++ t)).1 (ImuParams.stream p (pre ++ t)).2).symm
    · show ((Imu.mk' p).run (pre ++ (post ++ [o]))).accelBias = _
      rw [hj, b2, i2, add_assoc]
      congr 1
      exact (hsum fun t x => √((ImuParams.intensities p (pre ++ t)).2 * measuringTime x) •
        Noise.draw (ImuParams.stream p (pre ++ t)).1 ((ImuParams.stream p (pre ++ t)).2 + 1)).symm

/-- **C112, biases.** After any history the biases are those put in place last — by `set_bias`, by `reset`, or drawn at
construction — plus one step of variance `intensity * dt` for each later measurement, where the intensity is the one in
force at that measurement and the samples come from the stream seeded last. -/
theorem C112_bias (p : ImuParams ℝ) (hp : 0 ≤ p.gyroBiasCorr ∧ 0 ≤ p.accelBiasCorr) :
    (∀ os : List (ImuOp ℝ), (∀ o ∈ os, SaneCall o) → (∀ o ∈ os, assignsBias o = none) →
      ((Imu.mk' p).run os).gyroBias = √p.gyroVar • Noise.draw p.seed 0 + ImuParams.gyroWalk p [] os ∧
      ((Imu.mk' p).run os).accelBias = √p.accelVar • Noise.draw p.seed 1 + ImuParams.accelWalk p [] os) ∧
    ∀ (pre : List (ImuOp ℝ)) (a : ImuOp ℝ) (gb ab : Vec 3 ℝ) (post : List (ImuOp ℝ)),
      (∀ o ∈ pre ++ a :: post, SaneCall o) → assignsBias a = some (gb, ab) → (∀ o ∈ post, assignsBias o = none) →
      ((Imu.mk' p).run (pre ++ a :: post)).gyroBias = gb + ImuParams.gyroWalk p (pre ++ [a]) post ∧
      ((Imu.mk' p).run (pre ++ a :: post)).accelBias = ab + ImuParams.accelWalk p (pre ++ [a]) post := by
  constructor
  · intro os hs hn
    have := imu_walk p hp [] os hs hn
    have e1 : ((Imu.mk' p).run []).gyroBias = √p.gyroVar • Noise.draw p.seed 0 := by
      ext l; simp [Imu.run, Imu.mk', Imu.scaledDraw, Rng.draw3, flt]
    have e2 : ((Imu.mk' p).run []).accelBias = √p.accelVar • Noise.draw p.seed 1 := by
      ext l; simp [Imu.run, Imu.mk', Imu.scaledDraw, Rng.draw3, flt]
    simpa only [e1, e2, List.nil_append] using this
  · intro pre a gb ab post hs ha hn
    have hl : pre ++ a :: post = pre ++ [a] ++ post := by simp
    rw [hl] at hs ⊢
    have := imu_walk p hp (pre ++ [a]) post hs hn
    have e : ((Imu.mk' p).run (pre ++ [a])).gyroBias = gb ∧ ((Imu.mk' p).run (pre ++ [a])).accelBias = ab := by
      rw [imu_run_concat]
      cases a with
      | reset =>
        simp only [assignsBias, Option.some.injEq, Prod.mk.injEq] at ha
        rw [← ha.1, ← ha.2]
        simp [Imu.step, Imu.reset, flt]
      | setBias g' a' c d =>
        simp only [assignsBias, Option.some.injEq, Prod.mk.injEq] at ha
        rw [← ha.1, ← ha.2]
        exact ⟨rfl, rfl⟩
      | _ => simp [assignsBias] at ha
    rw [← e.1, ← e.2]
    exact this

/-- Calls that neither measure nor clear leave the readings alone. -/
lemma imu_quiet (i : Imu ℝ) (os : List (ImuOp ℝ)) (h : ∀ o ∈ os, Quiet o) :
    (i.run os).gyro = i.gyro ∧ (i.run os).accel = i.accel := by
  induction os generalizing i with
  | nil => exact ⟨rfl, rfl⟩
  | cons o os ih =>
    have ho := h o (List.mem_cons_self ..)
    have := ih (i.step o) (fun x hx => h x (List.mem_cons_of_mem _ hx))
    have e : (i.step o).gyro = i.gyro ∧ (i.step o).accel = i.accel := by
      cases o with
      | update dt f om => simp [Imu.step, imu_update_nonpos i (show dt ≤ 0 from ho)]
      | reset => exact ho.elim
      | _ => exact ⟨rfl, rfl⟩
    exact ⟨this.1.trans e.1, this.2.trans e.2⟩

/-- **C112, readings.** The readings are zero until the first measurement and after a reset; otherwise they are those of
the last measurement: the inputs seen from the mounting in force then, plus the biases then, plus noise of the variance
in force then. -/
theorem C112_readings (p : ImuParams ℝ) (later : List (ImuOp ℝ)) (hq : ∀ o ∈ later, Quiet o) :
    (((Imu.mk' p).run later).gyro = 0 ∧ ((Imu.mk' p).run later).accel = 0) ∧
    (∀ pre, ((Imu.mk' p).run (pre ++ .reset :: later)).gyro = 0 ∧
      ((Imu.mk' p).run (pre ++ .reset :: later)).accel = 0) ∧
    ∀ (pre : List (ImuOp ℝ)) (dt : ℝ) (f om : Vec 3 ℝ), 0 < dt →
      let now := (Imu.mk' p).run (pre ++ [.update dt f om])
      let q := lastMounting p.ori pre
      let s := ImuParams.stream p pre
      ((Imu.mk' p).run (pre ++ .update dt f om :: later)).gyro =
        q.inverse.rotate om + now.gyroBias + √(ImuParams.variances p pre).1 • Noise.draw s.1 (s.2 + 2) ∧
      ((Imu.mk' p).run (pre ++ .update dt f om :: later)).accel =
        q.inverse.rotate f + now.accelBias + √(ImuParams.variances p pre).2 • Noise.draw s.1 (s.2 + 3) := by
  have hz := imu_quiet (Imu.mk' p) later hq
  have split : ∀ pre (o : ImuOp ℝ), (Imu.mk' p).run (pre ++ o :: later) =
      ((Imu.mk' p).run (pre ++ [o])).run later := fun pre o => by
    simp [Imu.run]
  refine ⟨⟨?_, ?_⟩, fun pre => ?_, fun pre dt f om hdt => ?_⟩
  · rw [hz.1]; simp [Imu.mk', flt]
  · rw [hz.2]; simp [Imu.mk', flt]
  · rw [split, (imu_quiet _ later hq).1, (imu_quiet _ later hq).2, imu_run_concat]
    simp [Imu.step, Imu.reset, flt]
  · intro now q s
    obtain ⟨-, hm⟩ := C36_mounting p pre
    obtain ⟨m1, m2⟩ := hm dt f om (by simp [flt, hdt])
    obtain ⟨s1, -, s3⟩ := C112_settings p pre
    have e1 := congrArg Prod.fst s1
    have e2 := congrArg Prod.snd s1
    have e3 := congrArg Prod.fst s3
    have e4 := congrArg Prod.snd s3
    dsimp only at e1 e2 e3 e4
    have hn : now = ((Imu.mk' p).run pre).update dt f om := imu_run_concat _ _ _
    rw [split, (imu_quiet _ later hq).1, (imu_quiet _ later hq).2]
    constructor
    · ext l
      show now.gyro l = _
      rw [hn, m1 l, e1, e3, e4]
      simp [flt, q, s]
    · ext l
      show now.accel l = _
      rw [hn, m2 l, e2, e3, e4]
      simp [flt, q, s]

/-- Non-vacuity: a history that exercises every call; the biases come from `set_bias` and one walk step with the
intensity set after it, the readings from the measurement before the last two calls. -/
example (f om gb ab : Vec 3 ℝ) (r : Quat ℝ) :
    let os : List (ImuOp ℝ) := [.setSeed 5, .update 1 f om, .reset, .setBias gb ab 1 2, .setVariances 3 4,
      .setBiasCorr 7 8, .update 2 om f, .setOrientation r, .update (-1) f f]
    (∀ o ∈ os, SaneCall o) ∧
    ((Imu.mk' ⟨1, 1, 1, 1, Quat.identity, 0⟩).run os).gyroBias = gb + √14 • Noise.draw 5 4 ∧
    ((Imu.mk' ⟨1, 1, 1, 1, Quat.identity, 0⟩).run os).gyro =
      (Quat.identity : Quat ℝ).inverse.rotate f + (gb + √14 • Noise.draw 5 4) + √3 • Noise.draw 5 6 := by
  intro os
  have hs : ∀ o ∈ os, SaneCall o := by simp [os, SaneCall]
  have hb := fun post h1 h2 => (C112_bias ⟨1, 1, 1, 1, Quat.identity, 0⟩ (by norm_num)).2
    [.setSeed 5, .update 1 f om, .reset] (.setBias gb ab 1 2) gb ab post h1 rfl h2
  have hb1 := (hb [.setVariances 3 4, .setBiasCorr 7 8, .update 2 om f, .setOrientation r, .update (-1) f f]
    (by simpa [os] using hs) (by simp [assignsBias])).1
  have hb2 := (hb [.setVariances 3 4, .setBiasCorr 7 8, .update 2 om f] (by simp [SaneCall])
    (by simp [assignsBias])).1
  have hw : √(7 * 2 : ℝ) = √14 := by norm_num
  have w1 : ImuParams.gyroWalk ⟨1, 1, 1, 1, Quat.identity, 0⟩ ([.setSeed 5, .update 1 f om, .reset] ++
      [.setBias gb ab 1 2]) [.setVariances 3 4, .setBiasCorr 7 8, .update 2 om f, .setOrientation r,
      .update (-1) f f] = √14 • Noise.draw 5 4 := by
    simp [ImuParams.gyroWalk, Fin.sum_univ_succ, measuringTime, ImuParams.intensities, lastIntensities, ImuParams.stream,
      streamAfter, hw]
  have w2 : ImuParams.gyroWalk ⟨1, 1, 1, 1, Quat.identity, 0⟩ ([.setSeed 5, .update 1 f om, .reset] ++
      [.setBias gb ab 1 2]) [.setVariances 3 4, .setBiasCorr 7 8, .update 2 om f] = √14 • Noise.draw 5 4 := by
    simp [ImuParams.gyroWalk, Fin.sum_univ_succ, measuringTime, ImuParams.intensities, lastIntensities, ImuParams.stream,
      streamAfter, hw]
  refine ⟨hs, ?_, ?_⟩
  · rw [← w1]; exact hb1
  · have hr := ((C112_readings ⟨1, 1, 1, 1, Quat.identity, 0⟩ [.setOrientation r, .update (-1) f f]
      (by simp [Quiet])).2.2 [.setSeed 5, .update 1 f om, .reset, .setBias gb ab 1 2, .setVariances 3 4,
      .setBiasCorr 7 8] 2 om f (by norm_num)).1
    rw [← w2, ← hb2]
    refine hr.trans ?_
    simp [lastMounting, ImuParams.variances, lastVariances, ImuParams.stream, streamAfter]

end Verif.Props
