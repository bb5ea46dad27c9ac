import Verif.Lemmas.PidMirror

/-!
# C103: the PID treats both directions of an axis alike
-/

namespace Verif.Props

open Verif Flt Spec

/-- Full claim: reversing any choice of axes (errors and limits) reverses the outputs on these axes, in
every history, as long as the anti-windup constants are magnitudes. -/
def C103_claim : Prop :=
  ∀ (n : ℕ) (f : Fin n → Bool) (q : PidParams ℝ n) (os : List (PidOp ℝ n)),
    (∀ i, 0 ≤ q.antiwindup i) → (∀ o ∈ os, awNonneg o) →
      ((Pid.mk' (reversedParams f q)).run (os.map (reversedPidOp f))).2 =
        ((Pid.mk' q).run os).2.map (Option.map (reversed f))

lemma reversed_run {n : ℕ} (f : Fin n → Bool) (os : List (PidOp ℝ n)) (p : Pid ℝ n) (hp : p.Inv)
    (ho : ∀ o ∈ os, awNonneg o)
    (hf : (p.resetIntegral = false ∧ ∀ o ∈ os, keepsIntegral o) ∨ ∀ o ∈ os, errorNonzero o) :
    ((p.rev f).run (os.map (reversedPidOp f))).2 = (p.run os).2.map (Option.map (reversed f)) := by
  induction os generalizing p with
  | nil => rfl
  | cons o os ih =>
    have h1 := Pid.step_rev f p hp o (hf.imp (fun h => h.1) fun h => h o (by simp))
    simp only [List.map_cons, Pid.run, h1]
    rw [ih _ (Pid.inv_step hp o (ho o (by simp))) fun a ha => ho a (by simp [ha])]
    rcases hf with ⟨h2, h3⟩ | h2
    · left
      refine ⟨?_, fun a ha => h3 a (by simp [ha])⟩
      have hk := h3 o (by simp)
      cases o with
      | updateParams q =>
        obtain ⟨s, v, w, b, he, -⟩ := Pid.updateParams_eq q p
        simp only [Pid.step, he]; exact hk
      | setOutputSaturation u l b =>
        by_cases h : ∀ i, Pid.AxisOk u l i
        · simp only [Pid.step, Pid.setOutputSaturation_ok _ _ _ _ h]; exact h2
        · obtain ⟨v, w, hv, -⟩ := Pid.setOutputSaturation_bad u l b p h
          simp only [Pid.step, hv]; exact h2
      | setResetIntegral b => exact hk
      | control dt e => simpa [Pid.step, (Pid.computeControl_config p dt e).2.2.2.2.2.1] using h2
      | controlD dt e de => simpa [Pid.step, (Pid.computeControlD_config p dt e de).2.2.2.2.2.1] using h2
      | _ => exact h2
    · exact .inr fun a ha => h2 a (by simp [ha])

/-- **C103 (what holds).** Every history in which the reset-integral option stays off, or in which no
error component is exactly zero.  Missing: an error of exactly zero with the option on
(`C103_violated`). -/
theorem C103_directions_partial {n : ℕ} (f : Fin n → Bool) (q : PidParams ℝ n) (os : List (PidOp ℝ n))
    (hq : ∀ i, 0 ≤ q.antiwindup i) (ho : ∀ o ∈ os, awNonneg o)
    (hf : (q.resetIntegral = false ∧ ∀ o ∈ os, keepsIntegral o) ∨ ∀ o ∈ os, errorNonzero o) :
    ((Pid.mk' (reversedParams f q)).run (os.map (reversedPidOp f))).2 =
      ((Pid.mk' q).run os).2.map (Option.map (reversed f)) := by
  rw [Pid.mk_rev]
  refine reversed_run f os _ (Pid.inv_mk hq) ho ?_
  refine hf.imp (fun h => ⟨?_, h.2⟩) id
  obtain ⟨s, v, w, b, he, -⟩ := Pid.updateParams_eq q (Pid.init : Pid ℝ n)
  unfold Pid.mk'
  rw [he]; exact h.1

/-- Hypotheses: two axes, the second one reversed, asymmetric limits, integral action with anti-windup and
the reset option on. -/
example : ∃ (q : PidParams ℝ 2) (os : List (PidOp ℝ 2)), (∀ i, 0 ≤ q.antiwindup i) ∧
    q.resetIntegral = true ∧ (∀ o ∈ os, awNonneg o) ∧ (∀ o ∈ os, errorNonzero o) ∧ os.length = 3 ∧
    q.upper ≠ -q.lower := by
  refine ⟨⟨![1, 2], ![1, 1], ![0, 1], ![1, 2], ![1, 1], true, true, ![2, 1], ![-1, -3]⟩,
    [.control (1 / 100) ![1, -2], .control (1 / 50) ![3, 1], .setAntiWindup ![0, 1]], ?_, rfl, ?_, ?_, rfl, ?_⟩
  · intro i; fin_cases i <;> simp
  · simp only [List.mem_cons, List.not_mem_nil, or_false, forall_eq_or_imp, forall_eq, awNonneg, true_and]
    intro i; fin_cases i <;> simp
  · simp only [List.mem_cons, List.not_mem_nil, or_false, forall_eq_or_imp, forall_eq, errorNonzero, and_true]
    refine ⟨fun i => ?_, fun i => ?_⟩ <;> fin_cases i <;> simp
  · intro h
    have := congrFun h 0
    simp at this

/-- Pure integral controller without anti-windup constant and with the reset option. -/
noncomputable def q103 : PidParams ℝ 1 :=
  { PidParams.default with ki := ![1], resetIntegral := true }

lemma q103_mk : Pid.mk' q103 = { (Pid.init : Pid ℝ 1) with
    kpMat := mdiag vzero, kiMat := mdiag ![1], kdMat := mdiag vzero, alpha := vones, resetIntegral := true } := by
  simp [Pid.mk', Pid.updateParams, q103, PidParams.default, Pid.nonZero, Pid.init, Pid.setGains,
    Pid.setAntiWindup, Pid.setAlpha, Pid.setResetIntegral, Pid.setPropSat, Pid.disableSat, Pid.reset, flt]

/-- What `q103` returns for the errors `e` and then `0` at period 1. -/
lemma q103_run (e : ℝ) : ((Pid.mk' q103).run [.control 1 ![e], .control 1 ![0]]).2 =
    [some ![e], some ![if e < 0 then 0 else e]] := by
  rw [q103_mk]
  simp only [Pid.run, Pid.step, Pid.computeControl, Pid.firstRunInit, Pid.init, Pid.computeIntegral,
    Pid.accumulate, Pid.nonZero, Pid.computeDerivativeByDeriving, Pid.computeDerivative, Pid.finishOutput,
    Pid.resetAxis, flt]
  simp
  refine ⟨?_, ?_⟩
  · ext i; fin_cases i; simp [Matrix.mulVec_diagonal]
  · ext i; fin_cases i
    rcases lt_trichotomy e 0 with h | rfl | h
    · simp [Matrix.mulVec_diagonal, h, h.ne]
    · simp [Matrix.mulVec_diagonal]
    · simp [Matrix.mulVec_diagonal, not_lt.2 h.le]

/-- **C103 is violated**: after the error `-1` an error of exactly zero drops the integral, after the error
`1` it does not (`std::signbit(0.0)` counts zero as positive). -/
theorem C103_violated : ¬ C103_claim := by
  intro h
  have h1 := h 1 (fun _ => true) q103 [.control 1 ![1], .control 1 ![0]]
    (fun i => by simp [q103, PidParams.default, flt]) (by simp [awNonneg])
  have e1 : reversedParams (fun _ => true) q103 = q103 := by
    unfold reversedParams q103
    simp only [PidParams.default, flt]
    congr 1 <;> (ext i; simp [reversedLimits])
  have e2 : ∀ x : ℝ, reversed (fun _ : Fin 1 => true) ![x] = ![-x] := fun x => by
    ext i; fin_cases i; simp [reversed]
  simp only [e1, List.map_cons, List.map_nil, reversedPidOp, e2, neg_zero] at h1
  rw [q103_run, q103_run] at h1
  simp only [List.map_cons, List.map_nil, Option.map_some, e2, List.cons.injEq, Option.some.injEq] at h1
  have := congrFun h1.2.1 0
  norm_num at this

end Verif.Props
