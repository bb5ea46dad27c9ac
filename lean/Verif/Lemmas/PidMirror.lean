import Verif.Spec.Mirror
import Verif.Lemmas.PidReal

/-!
# The vector PID on reversed axes
-/

namespace Verif

open Flt Spec

namespace Pid

variable {n : ℕ} (f : Fin n → Bool)

/-- The PID that has seen the reversed history. -/
abbrev rev (p : Pid ℝ n) : Pid ℝ n := reversedPid f p

lemma reversed_zero : reversed f (0 : Vec n ℝ) = 0 := by ext i; simp [reversed]

lemma reversed_add (u v : Vec n ℝ) : reversed f (u + v) = reversed f u + reversed f v := by
  ext i; simp only [reversed, Pi.add_apply]; split <;> ring

lemma reversed_sub (u v : Vec n ℝ) : reversed f (u - v) = reversed f u - reversed f v := by
  ext i; simp only [reversed, Pi.sub_apply]; split <;> ring

lemma reversed_smul (c : ℝ) (v : Vec n ℝ) : reversed f (c • v) = c • reversed f v := by
  ext i; simp only [reversed, Pi.smul_apply, smul_eq_mul]; split <;> ring

lemma reversed_mul (u v : Vec n ℝ) : reversed f (u * v) = u * reversed f v := by
  ext i; simp only [reversed, Pi.mul_apply]; split <;> ring

lemma reversed_reversed (v : Vec n ℝ) : reversed f (reversed f v) = v := by
  ext i; simp only [reversed]; split <;> simp

lemma mv_conj (A : Mat n n ℝ) (v : Vec n ℝ) :
    mv (fun i j => if f i = f j then A i j else -A i j) (reversed f v) = reversed f (mv A v) := by
  ext i
  simp only [mv, flt, reversed]
  have : ∀ j, (if f i = f j then A i j else -A i j) * (if f j then -v j else v j) =
      (if f i then -1 else 1) * (A i j * v j) := by
    intro j
    cases f i <;> cases f j <;> simp
  rw [Finset.sum_congr rfl fun j _ => this j, ← Finset.mul_sum]
  cases f i <;> simp

lemma conj_mdiag (k : Vec n ℝ) : (fun i j => if f i = f j then mdiag k i j else -mdiag k i j) = mdiag k := by
  ext i j
  by_cases h : i = j
  · subst h; simp
  · simp [mdiag, h, flt]

lemma saturate_clip (out u l : Vec n ℝ) (h : ∀ i, l i ≤ u i) :
    saturateOutput (reversed f out) (reversedLimits f u l) (reversedLimits f l u) false =
      reversed f (saturateOutput out u l false) := by
  ext i
  have := h i
  simp only [saturateOutput, reversed, reversedLimits, flt, decide_eq_true_eq, Bool.not_false, if_true]
  split_ifs <;> first | rfl | (exfalso; linarith)

lemma propSatStep_rev (s u l : Vec n ℝ) (h : ∀ i, l i ≤ u i) (j : Fin n) :
    propSatStep (reversedLimits f u l) (reversedLimits f l u) (reversed f s) j =
      reversed f (propSatStep u l s j) := by
  have := h j
  unfold propSatStep
  simp only [flt, decide_eq_true_eq]
  rw [reversed_smul]
  congr 1
  simp only [reversed, reversedLimits]
  by_cases hj : f j = true
  swap
  · simp [hj]
  · simp only [hj, if_true, neg_lt_neg_iff]
    split_ifs <;> first | rfl | (exfalso; linarith) | simp

lemma saturate_rev (out u l : Vec n ℝ) (b : Bool) (h : ∀ i, l i ≤ u i) :
    saturateOutput (reversed f out) (reversedLimits f u l) (reversedLimits f l u) b =
      reversed f (saturateOutput out u l b) := by
  cases b
  · exact saturate_clip f out u l h
  · simp only [saturateOutput, Bool.not_true, Bool.false_eq_true, if_false]
    generalize List.finRange n = is
    induction is generalizing out with
    | nil => rfl
    | cons i is ih => simp only [List.foldl_cons]; rw [propSatStep_rev f out u l h, ih]

/-- Well-formed: magnitudes as anti-windup constants, ordered limits in force. -/
def Inv (p : Pid ℝ n) : Prop :=
  (∀ i, 0 ≤ p.antiwindup i) ∧ (p.satFlag = true → ∀ i, p.lower i ≤ p.upper i)

/-- The reset of the integral cannot tell the directions apart. -/
def Fair (p : Pid ℝ n) (e : Vec n ℝ) : Prop := p.resetIntegral = false ∨ ∀ i, e i ≠ 0

lemma accumulate_rev (p : Pid ℝ n) (hp : p.Inv) (dt : ℝ) (e : Vec n ℝ) (hf : p.Fair e) :
    (p.rev f).accumulate dt (reversed f e) = reversed f (p.accumulate dt e) := by
  have hr : (fun j => resetAxis p.resetIntegral (reversed f p.integral j) (p.antiwindup j) (reversed f e j)) =
      reversed f fun j => resetAxis p.resetIntegral (p.integral j) (p.antiwindup j) (e j) := by
    ext j
    have h0 := hp.1 j
    rcases hf with hf | hf
    · simp [resetAxis, hf]
    · have he := hf j
      simp only [reversed, resetAxis, flt]
      cases f j
      · simp
      · simp only [if_true, abs_neg]
        by_cases ha : p.antiwindup j < |p.integral j|
        · have hi : p.integral j ≠ 0 := by intro h; rw [h] at ha; simp at ha; linarith
          rcases lt_or_gt_of_ne hi with h1 | h1 <;> rcases lt_or_gt_of_ne he with h2 | h2 <;>
            cases p.resetIntegral <;> simp [h1, h2, ha, not_lt.2 h1.le, not_lt.2 h2.le]
        · simp [ha]
  unfold accumulate
  simp only [reversedPid, hr]
  simp only [flt]
  rw [← reversed_smul, ← reversed_add]
  split
  · have e1 : reversedLimits f p.antiwindup ((-1 : ℝ) • p.antiwindup) = p.antiwindup := by
      ext i; simp [reversedLimits]
    have e2 : reversedLimits f ((-1 : ℝ) • p.antiwindup) p.antiwindup = (-1 : ℝ) • p.antiwindup := by
      ext i; simp [reversedLimits]
    have := saturate_clip f ((fun j => resetAxis p.resetIntegral (p.integral j) (p.antiwindup j) (e j)) + dt • e)
      p.antiwindup ((-1 : ℝ) • p.antiwindup) fun i => by have := hp.1 i; simp; linarith
    rw [e1, e2] at this
    exact this
  · rfl

lemma firstRunInit_rev (p : Pid ℝ n) (e : Vec n ℝ) :
    (p.rev f).firstRunInit (reversed f e) = (p.firstRunInit e).rev f := by
  unfold firstRunInit
  cases h : p.firstRun
  · simp [reversedPid, h]
  · simp only [reversedPid, h, if_true, vzero_real, reversed_zero]

lemma finishOutput_rev (p : Pid ℝ n) (hp : p.Inv) : (p.rev f).finishOutput = (p.finishOutput).rev f := by
  unfold finishOutput
  cases h : p.satFlag
  · simp [reversedPid, h, flt, reversed_add]
  · simp only [reversedPid, h, flt, ← reversed_add, if_true, saturate_rev f _ _ _ _ (hp.2 h)]

lemma inv_firstRunInit {p : Pid ℝ n} (hp : p.Inv) (e : Vec n ℝ) : (p.firstRunInit e).Inv := by
  unfold firstRunInit; split <;> exact hp

lemma fair_firstRunInit {p : Pid ℝ n} {e : Vec n ℝ} (hf : p.Fair e) : (p.firstRunInit e).Fair e := by
  unfold firstRunInit; split <;> exact hf

lemma computeControl_rev (p : Pid ℝ n) (hp : p.Inv) (dt : ℝ) (e : Vec n ℝ) (hf : p.Fair e) :
    (p.rev f).computeControl dt (reversed f e) =
      ((p.computeControl dt e).1.rev f, reversed f (p.computeControl dt e).2) := by
  unfold computeControl
  simp only [firstRunInit_rev]
  have hp := inv_firstRunInit hp e
  have hf := fair_firstRunInit hf
  generalize p.firstRunInit e = p at hp hf
  have e1 : ({ p.rev f with propContrib := mv (p.rev f).kpMat (reversed f e) } : Pid ℝ n) =
      ({ p with propContrib := mv p.kpMat e } : Pid ℝ n).rev f := by
    simp only [reversedPid, mv_conj]
  rw [e1]
  have hp1 : ({ p with propContrib := mv p.kpMat e } : Pid ℝ n).Inv := hp
  have hf1 : ({ p with propContrib := mv p.kpMat e } : Pid ℝ n).Fair e := hf
  generalize ({ p with propContrib := mv p.kpMat e } : Pid ℝ n) = p at hp1 hf1
  unfold computeIntegral
  simp only [accumulate_rev f p hp1 dt e hf1]
  have e2 : ({ p.rev f with
        integral := reversed f (p.accumulate dt e)
        intContrib := mv (p.rev f).kiMat (reversed f (p.accumulate dt e)) } : Pid ℝ n) =
      ({ p with integral := p.accumulate dt e, intContrib := mv p.kiMat (p.accumulate dt e) } : Pid ℝ n).rev f := by
    simp only [reversedPid, mv_conj]
  rw [e2]
  have hp2 : ({ p with integral := p.accumulate dt e, intContrib := mv p.kiMat (p.accumulate dt e) } :
      Pid ℝ n).Inv := hp1
  generalize ({ p with integral := p.accumulate dt e, intContrib := mv p.kiMat (p.accumulate dt e) } :
      Pid ℝ n) = p at hp2
  unfold computeDerivativeByDeriving computeDerivative
  simp only []
  have e3 : vadd (vmul (p.rev f).alpha (sdiv (vsub (reversed f e) (p.rev f).propErr) dt))
      (vmul (vsub vones (p.rev f).alpha) (p.rev f).filtered) =
      reversed f (vadd (vmul p.alpha (sdiv (vsub e p.propErr) dt)) (vmul (vsub vones p.alpha) p.filtered)) := by
    simp only [reversedPid, flt, reversed_add, reversed_mul, reversed_smul, reversed_sub]
  rw [e3]
  generalize vadd (vmul p.alpha (sdiv (vsub e p.propErr) dt)) (vmul (vsub vones p.alpha) p.filtered) = v
  have e4 : ({ p.rev f with filtered := reversed f v, derivContrib := mv (p.rev f).kdMat (reversed f v) } :
      Pid ℝ n) = ({ p with filtered := v, derivContrib := mv p.kdMat v } : Pid ℝ n).rev f := by
    simp only [reversedPid, mv_conj]
  rw [e4]
  have hp3 : ({ p with filtered := v, derivContrib := mv p.kdMat v } : Pid ℝ n).Inv := hp2
  generalize ({ p with filtered := v, derivContrib := mv p.kdMat v } : Pid ℝ n) = p at hp3
  rw [finishOutput_rev f p hp3]
  rfl

lemma computeControlD_rev (p : Pid ℝ n) (hp : p.Inv) (dt : ℝ) (e de : Vec n ℝ) (hf : p.Fair e) :
    (p.rev f).computeControlD dt (reversed f e) (reversed f de) =
      ((p.computeControlD dt e de).1.rev f, reversed f (p.computeControlD dt e de).2) := by
  unfold computeControlD
  simp only [firstRunInit_rev]
  have hp := inv_firstRunInit hp e
  have hf := fair_firstRunInit hf
  generalize p.firstRunInit e = p at hp hf
  have e1 : ({ p.rev f with propContrib := mv (p.rev f).kpMat (reversed f e) } : Pid ℝ n) =
      ({ p with propContrib := mv p.kpMat e } : Pid ℝ n).rev f := by
    simp only [reversedPid, mv_conj]
  rw [e1]
  have hp1 : ({ p with propContrib := mv p.kpMat e } : Pid ℝ n).Inv := hp
  have hf1 : ({ p with propContrib := mv p.kpMat e } : Pid ℝ n).Fair e := hf
  generalize ({ p with propContrib := mv p.kpMat e } : Pid ℝ n) = p at hp1 hf1
  unfold computeIntegral
  simp only [accumulate_rev f p hp1 dt e hf1]
  unfold computeDerivative
  have e2 : ({ p.rev f with
        integral := reversed f (p.accumulate dt e)
        intContrib := mv (p.rev f).kiMat (reversed f (p.accumulate dt e))
        derivContrib := mv (p.rev f).kdMat (reversed f de) } : Pid ℝ n) =
      ({ p with
        integral := p.accumulate dt e
        intContrib := mv p.kiMat (p.accumulate dt e)
        derivContrib := mv p.kdMat de } : Pid ℝ n).rev f := by
    simp only [reversedPid, mv_conj]
  rw [e2]
  have hp2 : ({ p with
        integral := p.accumulate dt e
        intContrib := mv p.kiMat (p.accumulate dt e)
        derivContrib := mv p.kdMat de } : Pid ℝ n).Inv := hp1
  generalize ({ p with
        integral := p.accumulate dt e
        intContrib := mv p.kiMat (p.accumulate dt e)
        derivContrib := mv p.kdMat de } : Pid ℝ n) = p at hp2
  rw [finishOutput_rev f p hp2]
  rfl

lemma setSatLoop_rev (u l : Vec n ℝ) (b : Bool) (is : List (Fin n)) (p : Pid ℝ n) :
    setSatLoop (reversedLimits f u l) (reversedLimits f l u) b is (p.rev f) =
      (setSatLoop u l b is p).rev f := by
  induction is generalizing p with
  | nil => rfl
  | cons i is ih =>
    have h1 : |reversedLimits f u l i - reversedLimits f l u i| = |u i - l i| := by
      simp only [reversedLimits]; cases f i
      · simp
      · simp only [if_true]; congr 1; ring
    have h2 : (reversedLimits f u l i < reversedLimits f l u i) ↔ u i < l i := by
      simp only [reversedLimits]; cases f i <;> simp
    rw [setSatLoop, setSatLoop]
    simp only [flt, h1, h2, decide_eq_true_eq]
    split
    · rfl
    · split
      · rfl
      · rw [← ih]; rfl

lemma nonZero_rev (q : PidParams ℝ n) :
    (nonZero (reversedLimits f q.lower q.upper) || nonZero (reversedLimits f q.upper q.lower)) =
      (nonZero q.lower || nonZero q.upper) := by
  rw [Bool.eq_iff_iff]
  simp only [nonZero, Bool.or_eq_true, List.any_eq_true, List.mem_finRange, true_and, flt, reversedLimits,
    Bool.not_eq_true', decide_eq_false_iff_not]
  constructor
  · rintro (⟨i, h⟩ | ⟨i, h⟩) <;> cases hi : f i <;> simp only [hi, if_true, Bool.false_eq_true, if_false,
      neg_eq_zero] at h
    · exact .inl ⟨i, h⟩
    · exact .inr ⟨i, h⟩
    · exact .inr ⟨i, h⟩
    · exact .inl ⟨i, h⟩
  · rintro (⟨i, h⟩ | ⟨i, h⟩) <;> cases hi : f i
    · exact .inl ⟨i, by simpa [hi] using h⟩
    · exact .inr ⟨i, by simpa [hi] using h⟩
    · exact .inr ⟨i, by simpa [hi] using h⟩
    · exact .inl ⟨i, by simpa [hi] using h⟩

lemma updateParams_rev (q : PidParams ℝ n) (p : Pid ℝ n) :
    (p.rev f).updateParams (reversedParams f q) = (p.updateParams q).rev f := by
  unfold updateParams
  have e1 : (((((p.rev f).setGains q.kp q.ki q.kd).setAntiWindup q.antiwindup).setAlpha q.alpha).setResetIntegral
      q.resetIntegral).setPropSat q.propSat =
      (((((p.setGains q.kp q.ki q.kd).setAntiWindup q.antiwindup).setAlpha q.alpha).setResetIntegral
        q.resetIntegral).setPropSat q.propSat).rev f := by
    simp only [setGains, setAntiWindup, setAlpha, setResetIntegral, setPropSat, reversedPid, conj_mdiag]
  simp only [reversedParams, nonZero_rev, e1]
  split
  · exact setSatLoop_rev f _ _ _ _ _
  · rfl

lemma mk_rev (q : PidParams ℝ n) : Pid.mk' (reversedParams f q) = (Pid.mk' q).rev f := by
  unfold Pid.mk'
  have : (Pid.init : Pid ℝ n).rev f = Pid.init := by
    unfold Pid.init rev reversedPid
    have hm : (fun i j => if f i = f j then (mident : Mat n n ℝ) i j else -(mident : Mat n n ℝ) i j) = mident := by
      ext i j
      by_cases h : i = j
      · subst h; simp
      · simp [mident, h, flt]
    simp only [hm, vzero_real, reversed_zero]
    congr 1 <;> (ext i; simp [reversedLimits])
  rw [← this, updateParams_rev, this]
  rfl

lemma inv_setSat {p : Pid ℝ n} (hp : p.Inv) (u l : Vec n ℝ) (b : Bool) : (p.setOutputSaturation u l b).Inv := by
  by_cases h : ∀ i, AxisOk u l i
  · rw [setOutputSaturation_ok _ _ _ _ h]
    refine ⟨hp.1, fun _ i => ?_⟩
    have := (axisOk_real u l i).1 (h i)
    have := eps_pos
    simp only
    linarith
  · obtain ⟨v, w, hv, -⟩ := setOutputSaturation_bad u l b p h
    rw [hv]
    exact ⟨hp.1, fun hs => by simp at hs⟩

lemma inv_update {q : PidParams ℝ n} (hq : ∀ i, 0 ≤ q.antiwindup i) (p : Pid ℝ n) : (p.updateParams q).Inv := by
  obtain ⟨s, v, w, b, he, -, h1, -⟩ := updateParams_eq q p
  rw [he]
  refine ⟨hq, fun hs i => ?_⟩
  obtain ⟨rfl, rfl, h2⟩ := h1 hs
  have := (axisOk_real _ _ i).1 (h2 i)
  have := eps_pos
  simp only
  linarith

lemma inv_mk {q : PidParams ℝ n} (hq : ∀ i, 0 ≤ q.antiwindup i) : (Pid.mk' q).Inv := inv_update hq _

lemma inv_step {p : Pid ℝ n} (hp : p.Inv) (o : PidOp ℝ n) (ho : awNonneg o) : (p.step o).1.Inv := by
  cases o with
  | updateParams q => exact inv_update ho p
  | setOutputSaturation u l b => exact inv_setSat hp u l b
  | setAntiWindup a => exact ⟨ho, hp.2⟩
  | disableSat => exact ⟨hp.1, fun h => by simp [Pid.step, disableSat] at h⟩
  | control dt e =>
    obtain ⟨-, -, -, h4, -, -, h7, -, h9, h10⟩ := computeControl_config p dt e
    exact ⟨by simpa [Pid.step, h4] using hp.1, by simpa [Pid.step, h7, h9, h10] using hp.2⟩
  | controlD dt e de =>
    obtain ⟨-, -, -, h4, -, -, h7, -, h9, h10⟩ := computeControlD_config p dt e de
    exact ⟨by simpa [Pid.step, h4] using hp.1, by simpa [Pid.step, h7, h9, h10] using hp.2⟩
  | _ => exact hp

lemma step_rev (p : Pid ℝ n) (hp : p.Inv) (o : PidOp ℝ n)
    (hf : p.resetIntegral = false ∨ errorNonzero o) :
    (p.rev f).step (reversedPidOp f o) = ((p.step o).1.rev f, (p.step o).2.map (reversed f)) := by
  cases o with
  | updateParams q => simp [Pid.step, reversedPidOp, updateParams_rev]
  | setOutputSaturation u l b =>
    simp only [Pid.step, reversedPidOp, Option.map_none]
    rw [setOutputSaturation, setSatLoop_rev]; rfl
  | control dt e => simp [Pid.step, reversedPidOp, computeControl_rev f p hp dt e hf]
  | controlD dt e de => simp [Pid.step, reversedPidOp, computeControlD_rev f p hp dt e de hf]
  | setGains kp ki kd => simp [Pid.step, reversedPidOp, setGains, reversedPid, conj_mdiag]
  | setKp k => simp [Pid.step, reversedPidOp, setKp, reversedPid, conj_mdiag]
  | setKi k => simp [Pid.step, reversedPidOp, setKi, reversedPid, conj_mdiag]
  | setKd k => simp [Pid.step, reversedPidOp, setKd, reversedPid, conj_mdiag]
  | _ => rfl

end Pid

end Verif
