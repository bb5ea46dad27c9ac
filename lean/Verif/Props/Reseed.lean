import Verif.Lemmas.Sampler
import Verif.Real

/-!
# C149: reseeding the IMU repeats its noise
-/

namespace Verif.Props

open Flt

section
variable {α E : Type} [Flt α]

/-- Two IMUs with the same settings, biases and readings; their random numbers may be in any state. -/
structure AlikeImu (i j : SImu α E) : Prop where
  gyroVar : i.gyroVar = j.gyroVar
  accelVar : i.accelVar = j.accelVar
  gyroBiasCorr : i.gyroBiasCorr = j.gyroBiasCorr
  accelBiasCorr : i.accelBiasCorr = j.accelBiasCorr
  ori : i.ori = j.ori
  oriInv : i.oriInv = j.oriInv
  gyroBias : i.gyroBias = j.gyroBias
  accelBias : i.accelBias = j.accelBias
  gyro : i.gyro = j.gyro
  accel : i.accel = j.accel

/-- **C149.** Whatever two IMUs have been through since their construction: if their settings, biases and readings agree
and both are given the same seed, they agree from then on under the same calls.  The sample that the normal distribution
holds back, which reseeding does not clear, never has an effect. -/
theorem C149_repeats (src : PairSource α E) (order : Equiv.Perm (Fin 3)) (p q : ImuParams α) (hp hq : List (ImuOp α))
    (h : AlikeImu ((SImu.mk' src order p).run src order hp) ((SImu.mk' src order q).run src order hq))
    (s : ℤ) (os : List (ImuOp α)) :
    ((SImu.mk' src order p).run src order hp).run src order (.setSeed s :: os) =
      ((SImu.mk' src order q).run src order hq).run src order (.setSeed s :: os) := by
  have a := SImu.run_saved src order hp _ (SImu.mk_saved src order p)
  have b := SImu.run_saved src order hq _ (SImu.mk_saved src order q)
  revert h a b
  generalize (SImu.mk' src order p).run src order hp = i
  generalize (SImu.mk' src order q).run src order hq = j
  intro h a b
  simp only [SImu.run, List.foldl_cons]
  congr 1
  obtain ⟨h1, h2, h3, h4, h5, h6, h7, h8, h9, h10⟩ := h
  have e : i.smp.reseed src s = j.smp.reseed src s := by
    simp only [Sampler.reseed, a, b]
  simp only [SImu.step, SImu.setSeed]
  ext1 <;> assumption

/-- The samples of an engine as the source of noise of `Verif.Model.Imu`: the triple number `k` of a seed is the vector
number `k` made after seeding a new generator. -/
@[reducible] def vectorNoise (src : PairSource α E) (order : Equiv.Perm (Fin 3)) : Noise α where
  draw seed k := fun i =>
    let a := ((⟨src.seed seed, none⟩ : Sampler α E).after src order k).sample src
    let b := a.2.sample src
    let c := b.2.sample src
    (![a.1, b.1, c.1] : Vec 3 α) (order i)

/-- The IMU of `Verif.Model.Imu` stands for the IMU with the hidden state. -/
structure StandsFor (src : PairSource α E) (order : Equiv.Perm (Fin 3)) (i : SImu α E) (a : Imu α) : Prop where
  gyroVar : i.gyroVar = a.gyroVar
  accelVar : i.accelVar = a.accelVar
  gyroBiasCorr : i.gyroBiasCorr = a.gyroBiasCorr
  accelBiasCorr : i.accelBiasCorr = a.accelBiasCorr
  ori : i.ori = a.ori
  oriInv : i.oriInv = a.oriInv
  gyroBias : i.gyroBias = a.gyroBias
  accelBias : i.accelBias = a.accelBias
  gyro : i.gyro = a.gyro
  accel : i.accel = a.accel
  smp : i.smp = (⟨src.seed a.rng.seed, none⟩ : Sampler α E).after src order a.rng.idx
  even : a.rng.idx % 2 = 0

theorem StandsFor.mk' (src : PairSource α E) (order : Equiv.Perm (Fin 3)) (p : ImuParams α) :
    letI := vectorNoise src order
    StandsFor src order (SImu.mk' src order p) (Imu.mk' p) :=
  letI := vectorNoise src order
  ⟨rfl, rfl, rfl, rfl, rfl, rfl, rfl, rfl, rfl, rfl, rfl, show (0 + 1 + 1) % 2 = 0 from rfl⟩

theorem StandsFor.step {src : PairSource α E} {order : Equiv.Perm (Fin 3)} {i : SImu α E} {a : Imu α}
    (h : StandsFor src order i a) (o : ImuOp α) :
    letI := vectorNoise src order
    StandsFor src order (i.step src order o) (a.step o) := by
  let _ := vectorNoise src order
  obtain ⟨is, v1, v2, v3, v4, v5, v6, v7, v8, v9, v10⟩ := i
  obtain ⟨⟨sd, k⟩, w1, w2, w3, w4, w5, w6, w7, w8, w9, w10⟩ := a
  obtain ⟨h1, h2, h3, h4, h5, h6, h7, h8, h9, h10, hs, he⟩ := h
  simp only at h1 h2 h3 h4 h5 h6 h7 h8 h9 h10 hs he
  subst h1 h2 h3 h4 h5 h6 h7 h8 h9 h10 hs
  cases o with
  | update dt f om =>
    simp only [SImu.step, SImu.update, Imu.step, Imu.update]
    split
    · exact ⟨rfl, rfl, rfl, rfl, rfl, rfl, rfl, rfl, rfl, rfl, rfl, he⟩
    · have nx := fun k => Sampler.after_succ src order k (⟨src.seed sd, none⟩ : Sampler α E)
      simp only [SImu.processBias, SImu.processMeasurement, Imu.processBias, Imu.processMeasurement, nx]
      refine ⟨rfl, rfl, rfl, rfl, rfl, rfl, rfl, rfl, rfl, rfl, ?_, ?_⟩
      · rfl
      · show (k + 1 + 1 + 1 + 1) % 2 = 0
        omega
  | setSeed s =>
    refine ⟨rfl, rfl, rfl, rfl, rfl, rfl, rfl, rfl, rfl, rfl, ?_, rfl⟩
    have e : ((⟨src.seed sd, none⟩ : Sampler α E).after src order k).saved = none := by
      obtain ⟨m, rfl⟩ : ∃ m, k = 2 * m := ⟨k / 2, by omega⟩
      exact Sampler.after_even src order m _ rfl
    show Sampler.reseed src s _ = _
    simp only [Sampler.reseed, e]
    rfl
  | _ => exact ⟨rfl, rfl, rfl, rfl, rfl, rfl, rfl, rfl, rfl, rfl, rfl, he⟩

/-- **C149**, its consequence for the model: an IMU with the hidden state of its generator and of its distribution, for
every engine and every order of evaluation, behaves under all calls like the IMU of `Verif.Model.Imu`, whose noise is a
function of the seed and of the number of samples drawn since seeding. -/
theorem C149_oracle (src : PairSource α E) (order : Equiv.Perm (Fin 3)) (p : ImuParams α) (os : List (ImuOp α)) :
    letI := vectorNoise src order
    StandsFor src order ((SImu.mk' src order p).run src order os) ((Imu.mk' p).run os) := by
  let _ := vectorNoise src order
  suffices ∀ i : SImu α E, ∀ a : Imu α, StandsFor src order i a →
      StandsFor src order (i.run src order os) (a.run os) from this _ _ (StandsFor.mk' src order p)
  induction os with
  | nil => exact fun _ _ h => h
  | cons o os ih => exact fun i a h => ih _ _ (h.step o)

end

/-- A counter as engine: the samples are `e` and `-e`. -/
noncomputable def countSource : PairSource ℝ ℤ := ⟨id, fun e => ((e, -e), e + 1)⟩

/-- The parameters of an IMU with noise of variance one and no drift, seed `s`. -/
noncomputable def noisyImu (s : ℤ) : ImuParams ℝ := ⟨1, 1, 0, 0, Quat.identity, s⟩

/-- An IMU with seed 5 that has made a measurement and one with seed 8 that has not, both with their biases set to zero
and their readings cleared, agree for ever after they are given the seed 3; the next gyro reading is not zero. -/
example :
    (∀ os, ((SImu.mk' countSource 1 (noisyImu 5)).run countSource 1 [.update 1 0 0, .reset]).run countSource 1
        (.setSeed 3 :: os) =
      ((SImu.mk' countSource 1 (noisyImu 8)).run countSource 1 [.reset]).run countSource 1 (.setSeed 3 :: os)) ∧
    (((SImu.mk' countSource 1 (noisyImu 8)).run countSource 1 [.reset]).run countSource 1
        [.setSeed 3, .update 1 0 0]).gyro ≠ 0 := by
  refine ⟨fun os => ?_, fun h => ?_⟩
  · refine C149_repeats countSource 1 (noisyImu 5) (noisyImu 8) _ _ ?_ 3 os
    have d : ¬ (Flt.le (1 : ℝ) (lit 0) = true) := by simp [flt]
    constructor <;> simp [SImu.run, SImu.step, SImu.update, SImu.reset, d, SImu.processBias, SImu.processMeasurement,
      SImu.mk', noisyImu]
  · have g := congrFun h 0
    have d : ¬ (1 : ℝ) ≤ 0 := by norm_num
    simp [SImu.run, SImu.step, SImu.update, SImu.reset, d, SImu.processBias, SImu.processMeasurement, SImu.mk',
      noisyImu, SImu.setSeed, Sampler.reseed, Sampler.vector, Sampler.sample, countSource, flt, Quat.rotate] at g

/-- That the calls draw an even number of samples is essential: after an odd number, a sample from before the reseeding
comes first. -/
example : ((Sampler.reseed countSource 3 ((⟨5, none⟩ : Sampler ℝ ℤ).sample countSource).2).sample countSource).1 = -5 ∧
    ((Sampler.reseed countSource 3 (⟨5, none⟩ : Sampler ℝ ℤ)).sample countSource).1 = 3 := by
  constructor <;> norm_num [Sampler.reseed, Sampler.sample, countSource]

end Verif.Props
