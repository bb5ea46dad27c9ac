import Verif.Spec.Units
import Verif.Lemmas.PidReal

/-!
# The vector PID in other units
-/

namespace Verif

open Flt Spec

namespace Pid

variable {n : ℕ} {k : ℝ}

lemma mv_smul (A : Mat n n ℝ) (v : Vec n ℝ) : mv A (k • v) = k • mv A v := by
  rw [mv_real, mv_real, Matrix.mulVec_smul]

lemma smul_mul (u v : Vec n ℝ) : u * (k • v) = k • (u * v) := by
  ext i; simp only [Pi.mul_apply, Pi.smul_apply, smul_eq_mul]; ring

lemma nonZero_smul (hk : 0 < k) (v : Vec n ℝ) : nonZero (k • v) = nonZero v := by
  unfold nonZero
  congr 1
  funext j
  simp [flt, hk.ne']

lemma propSatStep_smul (hk : 0 < k) (u l s : Vec n ℝ) (j : Fin n) :
    propSatStep (k • u) (k • l) (k • s) j = k • propSatStep u l s j := by
  unfold propSatStep
  simp only [flt, decide_eq_true_eq, Pi.smul_apply, smul_eq_mul, mul_lt_mul_iff_right₀ hk,
    mul_div_mul_left _ _ hk.ne']
  rw [smul_comm]

lemma saturate_smul (hk : 0 < k) (out u l : Vec n ℝ) (b : Bool) :
    saturateOutput (k • out) (k • u) (k • l) b = k • saturateOutput out u l b := by
  cases b
  · ext i
    simp only [saturateOutput, flt, decide_eq_true_eq, Bool.not_false, if_true, Pi.smul_apply, smul_eq_mul,
      mul_lt_mul_iff_right₀ hk]
    split
    · rfl
    · split <;> rfl
  · simp only [saturateOutput, Bool.not_true, Bool.false_eq_true, if_false]
    generalize List.finRange n = is
    induction is generalizing out with
    | nil => rfl
    | cons i is ih => simp only [List.foldl_cons]; rw [propSatStep_smul hk, ih]

lemma accumulate_smul (hk : 0 < k) (p : Pid ℝ n) (dt : ℝ) (e : Vec n ℝ) :
    (scaledPid k p).accumulate dt (k • e) = k • p.accumulate dt e := by
  have hr : (fun j => resetAxis p.resetIntegral ((k • p.integral) j) ((k • p.antiwindup) j) ((k • e) j)) =
      k • fun j => resetAxis p.resetIntegral (p.integral j) (p.antiwindup j) (e j) := by
    ext j
    have h0 : ∀ x : ℝ, k * x < 0 ↔ x < 0 := fun x => by
      constructor
      · intro h; by_contra hx; nlinarith [mul_nonneg hk.le (not_lt.1 hx)]
      · exact fun h => mul_neg_of_pos_of_neg hk h
    simp only [resetAxis, flt, Pi.smul_apply, smul_eq_mul, abs_mul, abs_of_pos hk, mul_lt_mul_iff_right₀ hk, h0]
    split <;> simp
  unfold accumulate
  simp only [scaledPid, hr, nonZero_smul hk]
  simp only [flt]
  rw [smul_comm dt k e, ← smul_add]
  split
  · rw [smul_comm (-1 : ℝ) k, saturate_smul hk]
  · rfl

lemma firstRunInit_smul (p : Pid ℝ n) (e : Vec n ℝ) :
    (scaledPid k p).firstRunInit (k • e) = scaledPid k (p.firstRunInit e) := by
  unfold firstRunInit
  cases h : p.firstRun
  · simp [scaledPid, h]
  · simp only [scaledPid, h, if_true, vzero_real, smul_zero]

lemma finishOutput_smul (hk : 0 < k) (p : Pid ℝ n) :
    (scaledPid k p).finishOutput = scaledPid k p.finishOutput := by
  unfold finishOutput
  cases h : p.satFlag
  · simp [scaledPid, h, flt]
  · simp only [scaledPid, h, flt, ← smul_add, if_true, saturate_smul hk]

lemma computeControl_smul (hk : 0 < k) (p : Pid ℝ n) (dt : ℝ) (e : Vec n ℝ) :
    (scaledPid k p).computeControl dt (k • e) =
      (scaledPid k (p.computeControl dt e).1, k • (p.computeControl dt e).2) := by
  unfold computeControl
  simp only [firstRunInit_smul]
  generalize p.firstRunInit e = p
  have e1 : ({ scaledPid k p with propContrib := mv (scaledPid k p).kpMat (k • e) } : Pid ℝ n) =
      scaledPid k { p with propContrib := mv p.kpMat e } := by
    simp only [scaledPid, mv_smul]
  rw [e1]
  generalize ({ p with propContrib := mv p.kpMat e } : Pid ℝ n) = p
  unfold computeIntegral
  simp only [accumulate_smul hk p dt e]
  have e2 : ({ scaledPid k p with
        integral := k • p.accumulate dt e
        intContrib := mv (scaledPid k p).kiMat (k • p.accumulate dt e) } : Pid ℝ n) =
      scaledPid k { p with integral := p.accumulate dt e, intContrib := mv p.kiMat (p.accumulate dt e) } := by
    simp only [scaledPid, mv_smul]
  rw [e2]
  generalize ({ p with integral := p.accumulate dt e, intContrib := mv p.kiMat (p.accumulate dt e) } :
      Pid ℝ n) = p
  unfold computeDerivativeByDeriving computeDerivative
  simp only []
  have e3 : vadd (vmul (scaledPid k p).alpha (sdiv (vsub (k • e) (scaledPid k p).propErr) dt))
      (vmul (vsub vones (scaledPid k p).alpha) (scaledPid k p).filtered) =
      k • (vadd (vmul p.alpha (sdiv (vsub e p.propErr) dt)) (vmul (vsub vones p.alpha) p.filtered)) := by
    simp only [scaledPid, flt, ← smul_sub, smul_mul, smul_add, smul_comm dt⁻¹ k]
  rw [e3]
  generalize vadd (vmul p.alpha (sdiv (vsub e p.propErr) dt)) (vmul (vsub vones p.alpha) p.filtered) = v
  have e4 : ({ scaledPid k p with filtered := k • v, derivContrib := mv (scaledPid k p).kdMat (k • v) } :
      Pid ℝ n) = scaledPid k { p with filtered := v, derivContrib := mv p.kdMat v } := by
    simp only [scaledPid, mv_smul]
  rw [e4]
  generalize ({ p with filtered := v, derivContrib := mv p.kdMat v } : Pid ℝ n) = p
  rw [finishOutput_smul hk p]
  rfl

lemma computeControlD_smul (hk : 0 < k) (p : Pid ℝ n) (dt : ℝ) (e de : Vec n ℝ) :
    (scaledPid k p).computeControlD dt (k • e) (k • de) =
      (scaledPid k (p.computeControlD dt e de).1, k • (p.computeControlD dt e de).2) := by
  unfold computeControlD
  simp only [firstRunInit_smul]
  generalize p.firstRunInit e = p
  have e1 : ({ scaledPid k p with propContrib := mv (scaledPid k p).kpMat (k • e) } : Pid ℝ n) =
      scaledPid k { p with propContrib := mv p.kpMat e } := by
    simp only [scaledPid, mv_smul]
  rw [e1]
  generalize ({ p with propContrib := mv p.kpMat e } : Pid ℝ n) = p
  unfold computeIntegral
  simp only [accumulate_smul hk p dt e]
  unfold computeDerivative
  have e2 : ({ scaledPid k p with
        integral := k • p.accumulate dt e
        intContrib := mv (scaledPid k p).kiMat (k • p.accumulate dt e)
        derivContrib := mv (scaledPid k p).kdMat (k • de) } : Pid ℝ n) =
      scaledPid k { p with
        integral := p.accumulate dt e
        intContrib := mv p.kiMat (p.accumulate dt e)
        derivContrib := mv p.kdMat de } := by
    simp only [scaledPid, mv_smul]
  rw [e2]
  generalize ({ p with
        integral := p.accumulate dt e
        intContrib := mv p.kiMat (p.accumulate dt e)
        derivContrib := mv p.kdMat de } : Pid ℝ n) = p
  rw [finishOutput_smul hk p]
  rfl

lemma setSatLoop_smul (hk : 0 < k) (u l : Vec n ℝ) (h : Resolved k u l) (b : Bool) (is : List (Fin n)) (p : Pid ℝ n) :
    setSatLoop (k • u) (k • l) b is (scaledPid k p) = scaledPid k (setSatLoop u l b is p) := by
  induction is generalizing p with
  | nil => rfl
  | cons i is ih =>
    rw [setSatLoop, setSatLoop]
    simp only [flt, decide_eq_true_eq, Pi.smul_apply, smul_eq_mul, mul_lt_mul_iff_right₀ hk, ← flt, h i]
    split
    · rfl
    · split
      · rfl
      · rw [← ih]; rfl

lemma updateParams_smul (hk : 0 < k) (q : PidParams ℝ n) (h : Resolved k q.upper q.lower) (p : Pid ℝ n) :
    (scaledPid k p).updateParams (scaledParams k q) = scaledPid k (p.updateParams q) := by
  unfold updateParams
  simp only [scaledParams, nonZero_smul hk]
  split
  · exact setSatLoop_smul hk _ _ h _ _
      (((((p.setGains q.kp q.ki q.kd).setAntiWindup q.antiwindup).setAlpha q.alpha).setResetIntegral
        q.resetIntegral).setPropSat q.propSat)
  · rfl

lemma mk_smul (hk : 0 < k) (q : PidParams ℝ n) (h : Resolved k q.upper q.lower) :
    Pid.mk' (scaledParams k q) = scaledPid k (Pid.mk' q) := by
  unfold Pid.mk'
  have : scaledPid k (Pid.init : Pid ℝ n) = Pid.init := by
    unfold Pid.init scaledPid
    simp only [vzero_real, smul_zero]
  rw [← this, updateParams_smul hk q h, this]
  rfl

lemma step_smul (hk : 0 < k) (p : Pid ℝ n) (o : PidOp ℝ n) (h : resolvedOp k o) :
    (scaledPid k p).step (scaledPidOp k o) = (scaledPid k (p.step o).1, (p.step o).2.map (k • ·)) := by
  cases o with
  | updateParams q => simp [Pid.step, scaledPidOp, updateParams_smul hk q h]
  | setOutputSaturation u l b =>
    simp only [Pid.step, scaledPidOp, Option.map_none]
    rw [setOutputSaturation, setSatLoop_smul hk u l h]; rfl
  | control dt e => simp [Pid.step, scaledPidOp, computeControl_smul hk p dt e]
  | controlD dt e de => simp [Pid.step, scaledPidOp, computeControlD_smul hk p dt e de]
  | _ => rfl

end Pid

end Verif
