import Verif.Lemmas.Pid1d
import Mathlib.Tactic.FinCases

/-!
# C65, C66: the 1-D PID
-/

namespace Verif.Props

open Verif Flt Spec

/-! ## C65 -/

/-- The claim of C65: with per-axis limiting, every axis of the vector PID returns what a 1-D PID with
the parameters of that axis returns (whenever the 1-D PID does not run into undefined behaviour). -/
def C65_claim : Prop :=
  ∀ (n : ℕ) (q : PidParams ℝ n) (os : List (PidOp ℝ n)) (i : Fin n),
    q.propSat = false → (∀ o ∈ os, PerAxisOp o) →
    ∀ r, (Pid1.mk' (axisParams i q)).run (os.flatMap (axisOp i)) = some r →
      axisOutputs i ((Pid.mk' q).run os).2 = outputs r.2

/-- Two axes, anti-windup only on the second. -/
noncomputable def q65 : PidParams ℝ 2 :=
  { PidParams.default with ki := ![1, 0], antiwindup := ![0, 1] }

/-- **C65 is violated**: anti-windup on one axis makes the vector PID clamp the integral of every axis,
an axis without anti-windup to zero. -/
theorem C65_violated : ¬ C65_claim := by
  intro h
  have hm : Pid.mk' q65 = { (Pid.init : Pid ℝ 2) with
      kpMat := mdiag vzero, kiMat := mdiag ![1, 0], kdMat := mdiag vzero, alpha := vones,
      antiwindup := ![0, 1] } := by
    simp [Pid.mk', q65, Pid.updateParams, PidParams.default, Pid.nonZero, flt]
    simp [Pid.setGains, Pid.setAntiWindup, Pid.setAlpha, Pid.setResetIntegral, Pid.setPropSat,
      Pid.disableSat, Pid.reset, Pid.init, flt]
  have h1 : (Pid1.mk' (axisParams 0 q65)).computeControl 1 1 = some ({ (Pid1.init : Pid1 ℝ) with
      ki := 1, firstRun := false, integral := 1, propErr := 1, intContrib := 1, output := 1 }, 1) := by
    simp [Pid1.mk', axisParams, q65, PidParams.default, Pid1.updateParams, Pid1.computeControl,
      Pid1.firstRunInit, Pid1.accumulate, Pid1.resetAcc, Pid1.finishOutput, Pid1.reset, Pid1.init,
      Pid1.setGains, Pid1.setAntiWindup, Pid1.setAlpha, Pid1.setResetIntegral, Pid1.disableSat,
      Pid1.filter, flt]
  have := h 2 q65 [.control 1 ![1, 0]] 0 rfl (by simp [PerAxisOp]) _
    (by simp [axisOp, Pid1.run, Pid1.step, h1]; rfl)
  obtain ⟨-, f2, -, f4, f5, f6, f7⟩ := Pid.computeControl_fields (Pid.mk' q65) 1 ![1, 0]
  have hnz : Pid.nonZero (![0, 1] : Vec 2 ℝ) = true := by
    simp [Pid.nonZero, flt, List.finRange_succ]
  simp only [Pid.run, Pid.step, axisOutputs, outputs, Pid.computeControl_snd,
    Pid.computeControl_output] at this
  rw [f5, f6, f7, f4, f2] at this
  simp [hm, Pid.firstRunInit, Pid.init, Pid.accumulate, hnz, Pid.saturateOutput, Pid.resetAxis, flt,
    Matrix.mulVec_diagonal] at this

/-- **C65 (partial).** When the calls treat all axes alike (anti-windup on all axes or on none, limits
on all axes or on none) every axis of the vector PID returns, over any call history, exactly the
outputs of a 1-D PID with the parameters of that axis, and the 1-D PID never runs into undefined
behaviour. Missing: mixed configurations, for which the claim is false. -/
theorem C65_axes_independent_partial {n : ℕ} (q : PidParams ℝ n) (hq : UniformParams q)
    (os : List (PidOp ℝ n)) (ho : ∀ o ∈ os, UniformOp o) (i : Fin n) :
    ∃ r, (Pid1.mk' (axisParams i q)).run (os.flatMap (axisOp i)) = some r ∧
      axisOutputs i ((Pid.mk' q).run os).2 = outputs r.2 := by
  have h0 : AxisRel i (Pid.mk' q) (Pid1.mk' (axisParams i q)) := by
    have := AxisRel.update (i := i) (p := Pid.init) (s := Pid1.init) rfl (by simp [Pid.init]) q hq
    exact { this with first := rfl, mem := fun h => by simp [Pid.mk', Pid.reset] at h }
  obtain ⟨r, h1, -, h3⟩ := AxisRel.run os ho h0
  exact ⟨r, h1, h3.symm⟩

/-- Non-vacuity: two axes with limits and anti-windup, a history with a limit change. -/
example : ∃ (q : PidParams ℝ 2) (os : List (PidOp ℝ 2)), UniformParams q ∧ (∀ o ∈ os, UniformOp o) ∧
    q.ki ≠ 0 ∧ os.length = 3 := by
  refine ⟨{ PidParams.default with
      kp := ![1, 2], ki := ![1, 1], antiwindup := ![1, 2], upper := ![1, 2], lower := ![-1, -3] },
    [.control 1 ![1, 5], .setOutputSaturation ![3, 4] ![-1, 0] false, .control 1 ![0, 1]], ?_, ?_, ?_, rfl⟩
  · refine ⟨rfl, .inl ?_, .inl ?_⟩
    · intro i; fin_cases i <;> simp
    · intro i; rw [eps_real]; fin_cases i <;> norm_num
  · simp only [List.mem_cons, List.not_mem_nil, or_false, forall_eq_or_imp, forall_eq, UniformOp,
      true_and, and_true, OrderedLimits]
    intro i; rw [eps_real]; fin_cases i <;> norm_num
  · intro h; have := congrFun h 0; simp at this

/-! ## C66 -/

section
variable {α : Type} [Flt α]

/-- The claim of C66: no history runs into undefined behaviour. -/
def C66_claim : Prop :=
  ∀ (q : Pid1Params ℝ) (os : List (Pid1Op ℝ)), (Pid1.mk' q).run os ≠ none

/-- **C66 (partial).** In any arithmetic: if no anti-windup constant ever configured exceeds its own
opposite downwards (`a < -1 * a` is false, or the constant is zero), no call history runs into the
undefined case of `std::clamp`, whatever limits, gains, errors and periods are used.
Missing: negative anti-windup constants, for which the claim is false. -/
theorem C66_no_ub_partial (q : Pid1Params α) (os : List (Pid1Op α))
    (hq : beq q.antiwindup (lit 0) = true ∨ lt q.antiwindup (lit (-1) ⊠ q.antiwindup) = false)
    (ho : ∀ o ∈ os, AwOp (fun a => beq a (lit 0) = true ∨ lt a (lit (-1) ⊠ a) = false) o) :
    (Pid1.mk' q).run os ≠ none := by
  have key : ∀ (os : List (Pid1Op α)) (p : Pid1 α), p.LimitsOk → p.AwOk →
      (∀ o ∈ os, AwOp (fun a => beq a (lit 0) = true ∨ lt a (lit (-1) ⊠ a) = false) o) →
      p.run os ≠ none := by
    intro os
    induction os with
    | nil => intro p _ _ _; simp [Pid1.run]
    | cons o os ih =>
      intro p hl ha ho
      have ho1 := ho o (by simp)
      have hos : ∀ o' ∈ os, AwOp (fun a => beq a (lit 0) = true ∨ lt a (lit (-1) ⊠ a) = false) o' :=
        fun o' h' => ho o' (by simp [h'])
      have hstep : ∃ r, p.step o = some r ∧ r.1.LimitsOk ∧ r.1.AwOk := by
        cases o with
        | control dt e =>
          obtain ⟨r, h1, h2, h3⟩ := Pid1.control_some p hl ha dt e
          exact ⟨(r.1, some r.2), by simp [Pid1.step, h1], h2, by rw [Pid1.AwOk, h3]; exact ha⟩
        | controlD dt e de =>
          obtain ⟨r, h1, h2, h3⟩ := Pid1.controlD_some p hl ha dt e de
          exact ⟨(r.1, some r.2), by simp [Pid1.step, h1], h2, by rw [Pid1.AwOk, h3]; exact ha⟩
        | updateParams q =>
          exact ⟨_, rfl, Pid1.limitsOk_update q p, by rw [Pid1.AwOk, Pid1.update_aw]; exact ho1⟩
        | setOutputSaturation u l =>
          exact ⟨_, rfl, Pid1.limitsOk_setSat u l p, by rw [Pid1.AwOk, Pid1.setSat_aw]; exact ha⟩
        | disableSat => exact ⟨_, rfl, fun h => by simp [Pid1.disableSat] at h, ha⟩
        | setAntiWindup a => exact ⟨_, rfl, hl, ho1⟩
        | _ => exact ⟨_, rfl, hl, ha⟩
      obtain ⟨r, h1, h2, h3⟩ := hstep
      have := ih r.1 h2 h3 hos
      simp only [Pid1.run, h1]
      cases h : r.1.run os with
      | none => exact absurd h this
      | some t => simp
  refine key os _ ?_ ?_ ho
  · exact Pid1.limitsOk_update q Pid1.init
  · show Pid1.AwOk (Pid1.updateParams q Pid1.init)
    rw [Pid1.AwOk, Pid1.update_aw]; exact hq

end

/-- **C66, exact condition over the reals**: the first control call of a new 1-D PID is undefined
exactly when the anti-windup constant is negative. -/
theorem C66_ub_iff (q : Pid1Params ℝ) (dt e : ℝ) :
    (Pid1.mk' q).run [.control dt e] = none ↔ q.antiwindup < 0 := by
  constructor
  · intro h
    by_contra hn
    push Not at hn
    refine C66_no_ub_partial q [.control dt e] (.inr ?_) (by simp [AwOp]) h
    simp only [flt, decide_eq_false_iff_not]; linarith
  · intro h
    have haw : ((Pid1.mk' q).firstRunInit e).antiwindup = q.antiwindup := by
      rw [(Pid1.firstRunInit_config _ _).1]
      show (Pid1.updateParams q Pid1.init).antiwindup = _
      rw [Pid1.update_aw]
    have h1 : (Pid1.mk' q).computeControl dt e = none := by
      unfold Pid1.computeControl
      have : ({ (Pid1.mk' q).firstRunInit e with
          propContrib := ((Pid1.mk' q).firstRunInit e).kp ⊠ e } : Pid1 ℝ).accumulate dt e = none := by
        simp only [Pid1.accumulate, haw, stdClamp, flt]
        rw [if_pos (by simp [h.ne]), if_pos (by simp; linarith)]
      simp only [this]
    simp [Pid1.run, Pid1.step, h1]

/-- **C66 is violated** by a negative anti-windup constant. -/
theorem C66_violated : ¬ C66_claim := by
  intro h
  exact h { kp := 1, ki := 1, kd := 0, antiwindup := -1, alpha := 1, resetIntegral := false,
            upper := 0, lower := 0 } [.control 1 1] ((C66_ub_iff _ 1 1).2 (by norm_num))

/-- Non-vacuity: a positive constant and a later change to zero. -/
example : (lt (2 : ℝ) (lit (-1) ⊠ 2) = false) ∧
    AwOp (fun a : ℝ => beq a (lit 0) = true ∨ lt a (lit (-1) ⊠ a) = false) (.setAntiWindup 0) := by
  constructor
  · simp [flt]
  · left; simp [flt]

end Verif.Props
