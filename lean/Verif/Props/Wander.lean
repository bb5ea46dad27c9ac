import Verif.Lemmas.Chance
import Verif.Props.FreeMotion

/-!
# C126: the velocity of a vehicle in free flight with process noise, in distribution
-/

namespace Verif.Props

open Verif Flt Spec MeasureTheory ProbabilityTheory

/-- One step with noise. -/
lemma wander_step [Noise ℝ] {n : ℕ} {d : Dyn ℝ n} {p : ModelParams ℝ} {ms : Fin n → Motor ℝ} {dt : ℝ}
    (hco : d.model.core = some (Model.coreOf p ms)) (hmo : Model.motorFn n p.motors = some ms)
    (hl : ∀ i, (ms i).minSpeed ≤ 0 ∧ 0 ≤ (ms i).maxSpeed) (hw : d.state.motVel = 0) (hd : p.drag = 0)
    (hF : 0 ≤ p.forceNoise) (h0 : 0 < dt) (h1 : dt ≤ 1 / 100) :
    ∃ d', d.process 0 dt 0 true = .ok d' ∧ d'.model.core = d.model.core ∧ d'.state.motVel = 0 ∧
      d'.model.rng = ⟨d.model.rng.seed, d.model.rng.idx + 2⟩ ∧
      ∀ j, d'.state.vel j = d.state.vel j + dt * (p.gravity j / p.mass) +
        √(p.forceNoise * dt) / p.mass * Noise.draw d.model.rng.seed d.model.rng.idx j := by
  have hok : Dyn.clampOk ms = true := by
    simp only [Dyn.clampOk, List.all_eq_true, flt]
    intro i _
    simpa using (hl i).1.trans (hl i).2
  have hz : ∀ i, clampVal (0 : ℝ) (ms i).minSpeed (ms i).maxSpeed = 0 := by
    intro i
    rw [clampVal_real, if_neg (not_lt.2 (hl i).1), if_neg (not_lt.2 (hl i).2)]
  have hma : (Dyn.eulerStep (Model.coreOf p ms) ms d 0 dt 0 true).state.motAcc = 0 := by
    rw [Dyn.es_motAcc, hw]
    funext i
    simp [hz]
  have hN : ∀ j, Dyn.stepNoise (Model.coreOf p ms) d dt true j =
      √(p.forceNoise / dt) * Noise.draw d.model.rng.seed d.model.rng.idx j := by
    intro j
    simp [Dyn.stepNoise, Model.setNoise, flt, not_le.2 h0, Rng.draw3, Model.coreOf]
  have hFo : ∀ j, (Dyn.eulerStep (Model.coreOf p ms) ms d 0 dt 0 true).state.force j = p.gravity j +
      √(p.forceNoise / dt) * Noise.draw d.model.rng.seed d.model.rng.idx j := by
    intro j
    rw [Dyn.es_force, hw, Model.thrustVec_coreOf, dragForce_real]
    have : (∑ i, rotorForce (ms i) ((0 : Vec n ℝ) i)) = 0 := by
      refine Finset.sum_eq_zero fun i _ => ?_
      ext r
      simp [rotorForce, mulVec_z]
    rw [this, Quat.rotate_zero]
    simp only [Pi.add_apply, Pi.zero_apply, hN]
    simp [Model.coreOf, hd]
  have hs : √(p.forceNoise / dt) * dt = √(p.forceNoise * dt) := by
    rw [Real.sqrt_div hF, Real.sqrt_mul hF]
    have : √dt ≠ 0 := (Real.sqrt_pos.2 h0).ne'
    field_simp
    rw [Real.sq_sqrt h0.le]
  refine ⟨Dyn.eulerStep (Model.coreOf p ms) ms d 0 dt 0 true, ?_, Dyn.eulerStep_core .., ?_, ?_, ?_⟩
  · rw [Dyn.process_small_real _ _ _ _ h0 h1]
    simp only [Dyn.singleStep, hco]
    rw [show (Model.coreOf p ms).params.motors = p.motors from rfl, hmo]
    simp [hok]
  · rw [Dyn.es_motVel, hma, hw]
    funext i
    simp [hz]
  · simp [Dyn.eulerStep, Model.setNoise, flt, not_le.2 h0, Rng.draw3]
  · intro j
    rw [Dyn.es_vel, Dyn.es_acc, ← hs]
    simp only [Pi.add_apply, Pi.smul_apply, smul_eq_mul, hFo]
    rw [show (Model.coreOf p ms).params.mass = p.mass from rfl]
    ring

/-- Several steps. -/
lemma wander_run [Noise ℝ] {n : ℕ} {p : ModelParams ℝ} {ms : Fin n → Motor ℝ}
    (hmo : Model.motorFn n p.motors = some ms) (hl : ∀ i, (ms i).minSpeed ≤ 0 ∧ 0 ≤ (ms i).maxSpeed) (hd : p.drag = 0)
    (hF : 0 ≤ p.forceNoise) (dts : List ℝ) (hdt : ∀ dt ∈ dts, 0 < dt ∧ dt ≤ 1 / 100) (d : Dyn ℝ n)
    (hco : d.model.core = some (Model.coreOf p ms)) (hw : d.state.motVel = 0) :
    ∃ d', fly d dts = .ok d' ∧ ∀ j, d'.state.vel j = d.state.vel j + total dts * (p.gravity j / p.mass) +
      ∑ k : Fin dts.length, √(p.forceNoise * dts.get k) / p.mass *
        Noise.draw d.model.rng.seed (d.model.rng.idx + 2 * k) j := by
  induction dts generalizing d with
  | nil => exact ⟨d, rfl, fun j => by simp [total]⟩
  | cons dt dts ih =>
    obtain ⟨h0, h1⟩ := hdt dt (by simp)
    obtain ⟨e, he, hc, hm, hr, hv⟩ := wander_step hco hmo hl hw hd hF h0 h1
    obtain ⟨e', he', hv'⟩ := ih (fun x hx => hdt x (by simp [hx])) e (hc.trans hco) hm
    refine ⟨e', by rw [fly, he]; exact he', fun j => ?_⟩
    rw [hv' j, hv j, hr, total]
    have : ∑ k : Fin (dt :: dts).length, √(p.forceNoise * (dt :: dts).get k) / p.mass *
        Noise.draw d.model.rng.seed (d.model.rng.idx + 2 * k) j =
        √(p.forceNoise * dt) / p.mass * Noise.draw d.model.rng.seed d.model.rng.idx j +
        ∑ k : Fin dts.length, √(p.forceNoise * dts.get k) / p.mass *
          Noise.draw d.model.rng.seed (d.model.rng.idx + 2 + 2 * k) j := by
      rw [show (∑ k : Fin (dt :: dts).length, √(p.forceNoise * (dt :: dts).get k) / p.mass *
        Noise.draw d.model.rng.seed (d.model.rng.idx + 2 * k) j) = _ from Fin.sum_univ_succ _]
      congr 1
      refine Finset.sum_congr rfl fun k _ => ?_
      rw [show d.model.rng.idx + 2 * ((k.succ : Fin (dts.length + 1)) : ℕ) = d.model.rng.idx + 2 + 2 * k from by
        rw [Fin.val_succ]; ring]
      rfl
    rw [this]
    ring

lemma total_eq_sum (dts : List ℝ) : ∑ k : Fin dts.length, dts.get k = total dts := by
  induction dts with
  | nil => rfl
  | cons dt dts ih => rw [total, ← ih]; exact Fin.sum_univ_succ _

/-- Where the samples come from. -/
def wanderIndex (N : ℕ) (j : Fin 3) (k : Fin N) : ℕ × Fin 3 := (2 * k, j)

lemma wanderIndex_injective (N : ℕ) (j : Fin 3) : Function.Injective (wanderIndex N j) := by
  intro x y h
  simp only [wanderIndex, Prod.mk.injEq, and_true] at h
  ext; omega

section
variable {Ω : Type} [MeasurableSpace Ω]

/-- **C126.** A vehicle without drag whose rotors stand still, released with process noise: whatever the samples, every
update succeeds; each component of the velocity is normally distributed around the velocity of the noise-free vehicle,
with variance `forceNoise · T / mass²` after the time `T`, however `T` is divided into updates of at most 10 ms; the
components are independent. -/
theorem C126_velocity {n : ℕ} (W : ℤ → ℕ → Fin 3 → Ω → ℝ) (P : Measure Ω) (q : DynParams ℝ n) (d : Dyn ℝ n)
    (h : StandardNormal (W q.seed) P) (hm : Dyn.mk' q = some d) (hc : Model.checkParams q.model = true)
    (hl : ∀ m ∈ q.model.motors, m.minSpeed ≤ 0 ∧ 0 ≤ m.maxSpeed) (hw : q.state.motVel = 0) (hd : q.model.drag = 0)
    (hF : 0 ≤ q.model.forceNoise) (_hmass : 0 < q.model.mass) (dts : List ℝ)
    (hdt : ∀ dt ∈ dts, 0 < dt ∧ dt ≤ 1 / 100) :
    ∃ X : Ω → Dyn ℝ n, (∀ ω, flown W d dts ω = .ok (X ω)) ∧
      (∀ j, HasLaw (fun ω => (X ω).state.vel j)
        (gaussianReal (q.state.vel j + total dts * (q.model.gravity j / q.model.mass))
          (q.model.forceNoise * total dts / q.model.mass ^ 2).toNNReal) P) ∧
      ∀ j k, j ≠ k → IndepFun (fun ω => (X ω).state.vel j) (fun ω => (X ω).state.vel k) P := by
  obtain ⟨ms, hmo, rfl⟩ : ∃ ms, Model.motorFn n q.model.motors = some ms ∧
      d = ⟨⟨some (Model.coreOf q.model ms), none, ⟨q.seed, 0⟩, vzero, vzero⟩, q.state⟩ := by
    simp only [Dyn.mk', Model.mk', Model.updateParams, hc, Bool.not_true, Bool.false_eq_true, if_false] at hm
    cases e : Model.motorFn n q.model.motors with
    | none => simp [e] at hm
    | some ms =>
      rw [e] at hm
      by_cases hdir : Model.dirOk q.model.motors = true
      · simp only [hdir, if_true, Option.map_some, Option.some.injEq] at hm
        exact ⟨ms, rfl, hm.symm⟩
      · simp [hdir] at hm
  have hl' : ∀ i, (ms i).minSpeed ≤ 0 ∧ 0 ≤ (ms i).maxSpeed := by
    intro i
    refine hl _ ?_
    unfold Model.motorFn at hmo
    split at hmo
    · rw [← Option.some.inj hmo]
      exact List.get_mem _ _
    · simp at hmo
  have key : ∀ ω, ∃ X, flown W (⟨⟨some (Model.coreOf q.model ms), none, ⟨q.seed, 0⟩, vzero, vzero⟩, q.state⟩ : Dyn ℝ n)
      dts ω = .ok X ∧ ∀ j, X.state.vel j = (q.state.vel j + total dts * (q.model.gravity j / q.model.mass)) +
      ∑ k : Fin dts.length, √(q.model.forceNoise * dts.get k) / q.model.mass *
        W q.seed (wanderIndex dts.length j k).1 (wanderIndex dts.length j k).2 ω := by
    intro ω
    let _ := outcome W ω
    obtain ⟨X, h1, h2⟩ := wander_run hmo hl' hd hF dts hdt
      ⟨⟨some (Model.coreOf q.model ms), none, ⟨q.seed, 0⟩, vzero, vzero⟩, q.state⟩ rfl hw
    exact ⟨X, h1, fun j => by rw [h2 j]; simp only [wanderIndex, zero_add]; rfl⟩
  choose X hX hv using key
  have ef : ∀ j, (fun ω => (X ω).state.vel j) = _ := fun j => funext fun ω => hv ω j
  refine ⟨X, hX, fun j => ?_, fun j k hjk => ?_⟩
  · have hs : q.model.forceNoise * total dts / q.model.mass ^ 2 =
        ∑ k : Fin dts.length, (√(q.model.forceNoise * dts.get k) / q.model.mass) ^ 2 := by
      rw [← total_eq_sum, Finset.mul_sum, Finset.sum_div]
      refine Finset.sum_congr rfl fun k _ => ?_
      rw [div_pow, Real.sq_sqrt (mul_nonneg hF (hdt _ (List.get_mem _ _)).1.le)]
    rw [ef, hs]
    exact h.hasLaw _ (wanderIndex_injective dts.length j) _ _
  · rw [ef, ef]
    exact h.indepFun _ _ (fun x y => by simp [wanderIndex, hjk]) _ _ _ _

/-- Non-vacuity: the fixture without drag, with noise, tossed up. -/
example : ∃ (Ω : Type) (_ : MeasurableSpace Ω) (P : Measure Ω) (W : ℤ → ℕ → Fin 3 → Ω → ℝ) (q : DynParams ℝ 4)
    (d : Dyn ℝ 4), StandardNormal (W q.seed) P ∧ Dyn.mk' q = some d ∧ Model.checkParams q.model = true ∧
      (∀ m ∈ q.model.motors, m.minSpeed ≤ 0 ∧ 0 ≤ m.maxSpeed) ∧ q.state.motVel = 0 ∧ q.model.drag = 0 ∧
      q.model.forceNoise = 3 ∧ 0 < q.model.mass ∧ q.state.vel = ![0, 0, 5] := by
  obtain ⟨Ω, m, P, W, h⟩ := exists_standardNormal
  refine ⟨Ω, m, P, fun _ => W, ⟨{ slick with forceNoise := 3 }, { State.default with vel := ![0, 0, 5] }, 7⟩,
    builtFrom { slick with forceNoise := 3 } Fixture.motors 7 { State.default with vel := ![0, 0, 5] }, h, ?_, ?_, ?_,
    by simp [State.default, flt], rfl, rfl, by norm_num [slick, Fixture.modelParams], rfl⟩
  · have hc : Model.checkParams ({ slick with forceNoise := 3 } : ModelParams ℝ) = true := slick_check
    have hmo : Model.motorFn 4 ({ slick with forceNoise := 3 } : ModelParams ℝ).motors = some Fixture.motors :=
      Fixture.motorFn_eq
    have hdir : Model.dirOk ({ slick with forceNoise := 3 } : ModelParams ℝ).motors = true := Fixture.dirOk
    simp [Dyn.mk', Model.mk', Model.updateParams, hc, hmo, hdir, builtFrom]
  · exact slick_check
  · intro m hm
    simp only [slick, Fixture.modelParams, Model.quadX, List.mem_cons, List.not_mem_nil, or_false] at hm
    rcases hm with rfl | rfl | rfl | rfl <;> norm_num

end

end Verif.Props
