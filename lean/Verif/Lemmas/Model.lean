import Verif.Spec.Model
import Verif.Lemmas.Dyn
import Mathlib.Tactic.FinCases
import Mathlib.Tactic.Ring
import Mathlib.Tactic.Linarith
import Mathlib.Tactic.Positivity
import Mathlib.Tactic.FieldSimp
import Mathlib.Tactic.LinearCombination

/-!
# Helper lemmas about the physical model
-/

namespace Verif

open Flt Spec

lemma sq_sign_real (a : ℝ) : a * a * sign a = a * |a| := by
  rw [sign_real]
  rcases lt_trichotomy a 0 with h | h | h
  · simp [h, not_lt_of_gt h, abs_of_neg h]
  · simp [h]
  · simp [h, abs_of_pos h]

lemma squaredKeepSign_real {n : ℕ} (v : Vec n ℝ) : squaredKeepSign v = fun i => v i * |v i| := by
  ext i
  exact sq_sign_real (v i)

lemma sqrtKeepSign_real {n : ℕ} (v : Vec n ℝ) :
    sqrtKeepSign v = fun i => √|v i| * sign (v i) := rfl

lemma mulVec_z {m : ℕ} (A : Mat m 3 ℝ) (a : ℝ) : A.mulVec ![0, 0, a] = fun r => A r 2 * a := by
  ext r
  simp [Matrix.mulVec, dotProduct, Fin.sum_univ_three]

namespace Model

section
variable {α : Type} [Flt α] {n : ℕ}

lemma checkMotor_iff (m : Motor α) : checkMotor m = true ↔
    lt m.maxSpeed m.minSpeed = false ∧ lt m.tau (lit 0) = false ∧
    lt m.inertia (lit 0) = false ∧ lt m.kf (lit 0) = false ∧ lt m.kt (lit 0) = false := by
  unfold checkMotor
  cases lt m.maxSpeed m.minSpeed <;> cases lt m.tau (lit 0) <;> cases lt m.inertia (lit 0) <;>
    cases lt m.kf (lit 0) <;> cases lt m.kt (lit 0) <;> simp

lemma checkParams_iff (p : ModelParams α) : checkParams p = true ↔ Accepted p := by
  unfold checkParams Accepted
  cases lt p.mass (lit 0) <;> cases lt (det3 p.inertia) (lit 0) <;> cases lt p.drag (lit 0) <;>
    cases lt (det3 p.aero) (lit 0) <;> simp [checkMotor_iff]

lemma updateParams_cases {p : ModelParams α} {m m' : Model α n} (h : m.updateParams p = some m') :
    (checkParams p = false ∧ m' = m) ∨
    (checkParams p = true ∧ ∃ ms, motorFn n p.motors = some ms ∧
      m' = { m with core := some (coreOf p ms) }) := by
  unfold updateParams at h
  cases hc : checkParams p
  · simp only [hc, Bool.not_false, if_true, Option.some.injEq] at h
    exact .inl ⟨rfl, h.symm⟩
  · simp only [hc, Bool.not_true, Bool.false_eq_true, if_false] at h
    split at h
    · simp at h
    · rename_i ms hm
      split at h
      · simp only [Option.some.injEq] at h
        exact .inr ⟨rfl, ms, hm, h.symm⟩
      · simp at h

/-- The stored mixers belong to the stored parameters. -/
def Consistent (m : Model α n) : Prop :=
  ∀ c, m.core = some c → ∃ ms, motorFn n c.params.motors = some ms ∧ c = coreOf c.params ms

lemma updateParams_consistent {p : ModelParams α} {m m' : Model α n} (hm : m.Consistent)
    (h : m.updateParams p = some m') : m'.Consistent := by
  rcases updateParams_cases h with ⟨-, rfl⟩ | ⟨-, ms, h1, rfl⟩
  · exact hm
  · intro c hc
    simp only [Option.some.injEq] at hc
    subst hc
    exact ⟨ms, h1, rfl⟩

lemma mk'_consistent {p : ModelParams α} {seed : ℤ} {m : Model α n} (h : mk' p seed = some m) :
    m.Consistent :=
  updateParams_consistent (fun c hc => by simp at hc) h

variable [Noise α]

lemma op_consistent {m m' : Model α n} (hm : m.Consistent) (o : ModelOp α) (h : o.run m = some m') :
    m'.Consistent := by
  cases o with
  | update p => exact updateParams_consistent hm h
  | noise dt =>
    simp only [ModelOp.run, Option.map_eq_some_iff] at h
    obtain ⟨c, -, rfl⟩ := h
    simpa [Consistent] using hm
  | disable =>
    simp only [ModelOp.run, Option.some.injEq] at h
    subst h
    exact hm

lemma runModel_ind {P : Model α n → Prop} (hP : ∀ m m' o, P m → ModelOp.run m o = some m' → P m') :
    ∀ (os : List (ModelOp α)) (m m' : Model α n), P m → runModel m os = some m' → P m'
  | [], m, m', hm, h => by
    simp only [runModel, Option.some.injEq] at h
    exact h ▸ hm
  | o :: os, m, m', hm, h => by
    simp only [runModel, Option.bind_eq_some_iff] at h
    obtain ⟨m1, h1, h2⟩ := h
    exact runModel_ind hP os m1 m' (hP m m1 o hm h1) h2

lemma runModel_consistent {m m' : Model α n} {os : List (ModelOp α)} (hm : m.Consistent)
    (h : runModel m os = some m') : m'.Consistent :=
  runModel_ind (fun _ _ o ha hb => op_consistent ha o hb) os m m' hm h

end

section
variable {n : ℕ} (p : ModelParams ℝ) (ms : Fin n → Motor ℝ) (w wd : Vec n ℝ)

lemma thrustVec_coreOf : thrustVec (coreOf p ms) w = ∑ i, rotorForce (ms i) (w i) := by
  ext r
  simp only [thrustVec, coreOf, mv, vsum_real, squaredKeepSign_real, Finset.sum_apply, mul_real]
  refine Finset.sum_congr rfl fun i _ => ?_
  simp only [mixer6, motorContrib, rotorForce, mv_real, lit_zero, mulVec_z]
  fin_cases r <;> simp <;> ring

lemma motorTorque_coreOf :
    motorTorque (coreOf p ms) w wd = ∑ i, rotorTorque (ms i) (w i) (wd i) := by
  ext r
  simp only [motorTorque, vadd, coreOf, mv, vsum_real, squaredKeepSign_real, Finset.sum_apply, mul_real,
    add_real]
  rw [← Finset.sum_add_distrib]
  refine Finset.sum_congr rfl fun i _ => ?_
  simp only [mixer6, motorContrib, mixerInertia, rotorTorque, rotorForce, mv_real,
    lit_cast, Rat.cast_zero, mul_real, mulVec_z, vadd_real, cross_real, Rat.cast_intCast, Pi.add_apply]
  fin_cases r <;> simp [cross_apply, Fin.natAdd] <;> ring

lemma thrust_coreOf : thrust (coreOf p ms) w = ∑ i, rotorForce (ms i) (w i) 2 := by
  have := congrFun (thrustVec_coreOf p ms w) 2
  rw [Finset.sum_apply] at this
  rw [← this]
  rfl

end

end Model

end Verif
