import Verif.Lemmas.PidReal

/-!
# Helper lemmas about the 1-D PID and its relation to the vector PID
-/

namespace Verif

open Flt Spec

namespace Pid1

section
variable {α : Type} [Flt α]

/-- Limits accepted by `set_output_saturation` are not crossed. -/
def LimitsOk (p : Pid1 α) : Prop := p.satFlag = true → lt p.upper p.lower = false

/-- The anti-windup interval `[-a, a]` is not crossed. -/
def AwOk (p : Pid1 α) : Prop :=
  beq p.antiwindup (lit 0) = true ∨ lt p.antiwindup (lit (-1) ⊠ p.antiwindup) = false

lemma limitsOk_setSat (u l : α) (p : Pid1 α) : LimitsOk (p.setOutputSaturation u l) := by
  unfold setOutputSaturation
  split
  · intro h; simp [disableSat] at h
  · split
    · intro h; simp [disableSat] at h
    · rename_i h; intro _; simpa using h

lemma limitsOk_update (q : Pid1Params α) (p : Pid1 α) : LimitsOk (p.updateParams q) := by
  unfold updateParams
  simp only []
  split
  · exact limitsOk_setSat _ _ _
  · intro h; simp [disableSat] at h

lemma setSat_aw (u l : α) (p : Pid1 α) : (p.setOutputSaturation u l).antiwindup = p.antiwindup := by
  unfold setOutputSaturation
  split
  · rfl
  · split <;> rfl

lemma update_aw (q : Pid1Params α) (p : Pid1 α) : (p.updateParams q).antiwindup = q.antiwindup := by
  unfold updateParams
  simp only []
  split
  · rw [setSat_aw]; rfl
  · rfl

lemma accumulate_some (p : Pid1 α) (h : AwOk p) (dt e : α) : ∃ a, p.accumulate dt e = some a := by
  unfold accumulate
  rcases h with h | h
  · simp [h]
  · simp only [stdClamp, h]; split <;> simp

lemma finishOutput_some (p : Pid1 α) (h : LimitsOk p) :
    ∃ o, p.finishOutput = some { p with output := o } := by
  unfold finishOutput
  by_cases hf : p.satFlag = true
  · have h' : lt p.upper p.lower = false := h hf
    simp [hf, stdClamp, h']
  · simp [hf]

lemma firstRunInit_config (p : Pid1 α) (e : α) :
    (p.firstRunInit e).antiwindup = p.antiwindup ∧ (p.firstRunInit e).satFlag = p.satFlag ∧
    (p.firstRunInit e).upper = p.upper ∧ (p.firstRunInit e).lower = p.lower := by
  unfold firstRunInit; split <;> simp

lemma firstRunInit_idem (p : Pid1 α) (e : α) :
    (p.firstRunInit e).firstRunInit e = p.firstRunInit e := by
  unfold firstRunInit; by_cases h : p.firstRun = true <;> simp [h]

lemma control_some (p : Pid1 α) (hl : LimitsOk p) (ha : AwOk p) (dt e : α) :
    ∃ r, p.computeControl dt e = some r ∧ LimitsOk r.1 ∧ r.1.antiwindup = p.antiwindup := by
  obtain ⟨c1, c2, c3, c4⟩ := firstRunInit_config p e
  unfold computeControl
  obtain ⟨a, ha'⟩ := accumulate_some { p.firstRunInit e with propContrib := (p.firstRunInit e).kp ⊠ e }
    (by simpa only [AwOk, c1] using ha) dt e
  simp only [ha']
  obtain ⟨o, ho⟩ := finishOutput_some ({ p.firstRunInit e with
      propContrib := (p.firstRunInit e).kp ⊠ e
      integral := a
      intContrib := (p.firstRunInit e).ki ⊠ a
      filtered := ({ p.firstRunInit e with
        propContrib := (p.firstRunInit e).kp ⊠ e
        integral := a
        intContrib := (p.firstRunInit e).ki ⊠ a } : Pid1 α).filter dt e
      derivContrib := (p.firstRunInit e).kd ⊠ ({ p.firstRunInit e with
        propContrib := (p.firstRunInit e).kp ⊠ e
        integral := a
        intContrib := (p.firstRunInit e).ki ⊠ a } : Pid1 α).filter dt e } : Pid1 α)
    (by simpa only [LimitsOk, c2, c3, c4] using hl)
  simp only [ho]
  exact ⟨_, rfl, by simpa only [LimitsOk, c2, c3, c4] using hl, c1⟩

lemma controlD_some (p : Pid1 α) (hl : LimitsOk p) (ha : AwOk p) (dt e de : α) :
    ∃ r, p.computeControlD dt e de = some r ∧ LimitsOk r.1 ∧ r.1.antiwindup = p.antiwindup := by
  obtain ⟨c1, c2, c3, c4⟩ := firstRunInit_config p e
  unfold computeControlD
  obtain ⟨a, ha'⟩ := accumulate_some { p.firstRunInit e with propContrib := (p.firstRunInit e).kp ⊠ e }
    (by simpa only [AwOk, c1] using ha) dt e
  simp only [ha']
  obtain ⟨o, ho⟩ := finishOutput_some ({ p.firstRunInit e with
      propContrib := (p.firstRunInit e).kp ⊠ e
      integral := a
      intContrib := (p.firstRunInit e).ki ⊠ a
      derivContrib := (p.firstRunInit e).kd ⊠ de } : Pid1 α)
    (by simpa only [LimitsOk, c2, c3, c4] using hl)
  simp only [ho]
  exact ⟨_, rfl, by simpa only [LimitsOk, c2, c3, c4] using hl, c1⟩

end

end Pid1

/-! ### Axis `i` of the vector PID and a 1-D PID -/

variable {n : ℕ}

/-- The 1-D controller `s` agrees with axis `i` of `p`. -/
structure AxisRel (i : Fin n) (p : Pid ℝ n) (s : Pid1 ℝ) : Prop where
  diag : p.Diag
  kp : p.kpMat i i = s.kp
  ki : p.kiMat i i = s.ki
  kd : p.kdMat i i = s.kd
  aw : p.antiwindup i = s.antiwindup
  uni : UniformAw p.antiwindup
  alpha : p.alpha i = s.alpha
  flag : p.resetIntegral = s.resetIntegral
  sat : p.satFlag = s.satFlag
  prop : p.propSat = false
  lim : p.satFlag = true → (Flt.eps : ℝ) ≤ p.upper i - p.lower i ∧ p.upper i = s.upper ∧
    p.lower i = s.lower
  first : p.firstRun = s.firstRun
  mem : p.firstRun = false → p.integral i = s.integral ∧ p.filtered i = s.filtered ∧
    p.propErr i = s.propErr

namespace AxisRel
variable {i : Fin n} {p : Pid ℝ n} {s : Pid1 ℝ}

lemma firstRunInit (h : AxisRel i p s) (e : Vec n ℝ) :
    AxisRel i (p.firstRunInit e) (s.firstRunInit (e i)) ∧ (p.firstRunInit e).firstRun = false := by
  by_cases hf : p.firstRun = true
  · have hf' : s.firstRun = true := h.first ▸ hf
    simp only [Pid.firstRunInit, Pid1.firstRunInit, hf, hf', if_true, and_true]
    exact ⟨h.diag, h.kp, h.ki, h.kd, h.aw, h.uni, h.alpha, h.flag, h.sat, h.prop, h.lim, rfl,
      fun _ => ⟨rfl, rfl, rfl⟩⟩
  · have hf' : ¬ s.firstRun = true := h.first ▸ hf
    simp only [Pid.firstRunInit, Pid1.firstRunInit, hf, hf']
    exact ⟨h, by simpa using hf⟩

lemma accumulate (h : AxisRel i p s) (hf : p.firstRun = false) (dt : ℝ) (e : Vec n ℝ) :
    s.accumulate dt (e i) = some (p.accumulate dt e i) := by
  obtain ⟨m1, -, -⟩ := h.mem hf
  have hr : s.resetAcc (e i) = Pid.resetAxis p.resetIntegral (p.integral i) (p.antiwindup i) (e i) := by
    simp only [Pid1.resetAcc, Pid.resetAxis, h.flag, h.aw, m1]
  unfold Pid1.accumulate Pid.accumulate
  rw [hr]
  rcases h.uni with hu | hu
  · have hnz : Pid.nonZero p.antiwindup = true := by
      simp only [Pid.nonZero, List.any_eq_true]
      exact ⟨i, List.mem_finRange i, by simp [flt, (hu i).ne']⟩
    have hp := hu i
    have hp' := hp
    rw [h.aw] at hp'
    simp only [hnz, if_true, Pid.saturateOutput, Bool.not_false, stdClamp, clampVal_real, flt, ← h.aw,
      decide_eq_true_eq]
    rw [if_pos (by simp [hp.ne']), if_neg (by linarith)]
    congr 1
    simp only [Pi.add_apply, Pi.smul_apply, smul_eq_mul,
      mul_comm (e i), neg_mul, one_mul]
    generalize Pid.resetAxis p.resetIntegral (p.integral i) (p.antiwindup i) (e i) = c
    split_ifs <;> first | rfl | linarith
  · have hnz : Pid.nonZero p.antiwindup = false := by
      simp only [Pid.nonZero, List.any_eq_false]
      intro j _; simp [flt, hu j]
    simp [hnz, ← h.aw, hu i, flt, mul_comm]

lemma mv_eq {A : Mat n n ℝ} {k : Vec n ℝ} (h : A = mdiag k) (v : Vec n ℝ) : mv A v i = A i i * v i := by
  subst h; rw [Pid.diag_mv]; simp [flt]

lemma finish (h : AxisRel i p s) (c : Vec n ℝ) (c1 : ℝ) (hc : c1 = c i) :
    (if s.satFlag then stdClamp c1 s.lower s.upper else some c1) =
      some ((if p.satFlag then Pid.saturateOutput c p.upper p.lower p.propSat else c) i) := by
  subst hc
  rw [← h.sat]
  by_cases hf : p.satFlag = true
  · obtain ⟨l1, l2, l3⟩ := h.lim hf
    have := eps_pos
    simp only [hf, if_true, h.prop, Pid.saturateOutput, Bool.not_false, stdClamp, clampVal_real, flt,
      ← l2, ← l3, decide_eq_true_eq]
    rw [if_neg (by linarith)]
    congr 1
    split_ifs <;> first | rfl | linarith
  · simp [hf]

lemma finishOutput (s : Pid1 ℝ) {o : ℝ}
    (h : (if s.satFlag then stdClamp (s.propContrib + s.intContrib + s.derivContrib) s.lower s.upper
      else some (s.propContrib + s.intContrib + s.derivContrib)) = some o) :
    s.finishOutput = some { s with output := o } := by
  unfold Pid1.finishOutput
  by_cases hf : s.satFlag = true
  · simp only [hf, if_true] at h ⊢
    rw [show s.propContrib ⊞ s.intContrib ⊞ s.derivContrib =
      s.propContrib + s.intContrib + s.derivContrib from rfl, h]
    simp
  · simp only [hf] at h ⊢
    simp at h
    simp [flt, h]

lemma control (h : AxisRel i p s) (dt : ℝ) (e : Vec n ℝ) :
    ∃ r, s.computeControl dt (e i) = some r ∧ AxisRel i (p.computeControl dt e).1 r.1 ∧
      r.2 = (p.computeControl dt e).2 i := by
  obtain ⟨h0, hf⟩ := h.firstRunInit e
  have e1 : p.computeControl dt e = (p.firstRunInit e).computeControl dt e := by
    rw [Pid.computeControl, Pid.computeControl, Pid.firstRunInit_idem]
  have e2 : s.computeControl dt (e i) = (s.firstRunInit (e i)).computeControl dt (e i) := by
    rw [Pid1.computeControl, Pid1.computeControl, Pid1.firstRunInit_idem]
  rw [e1, e2]
  clear e1 e2 h
  generalize p.firstRunInit e = p at *
  generalize s.firstRunInit (e i) = s at *
  have hs : s.firstRun = false := h0.first ▸ hf
  have es : s.firstRunInit (e i) = s := by simp [Pid1.firstRunInit, hs]
  have ep : p.firstRunInit e = p := by simp [Pid.firstRunInit, hf]
  obtain ⟨m1, m2, m3⟩ := h0.mem hf
  obtain ⟨f1, f2, f3, f4, f5, f6, f7⟩ := Pid.computeControl_fields p dt e
  have fo := Pid.computeControl_output p dt e
  have fc := Pid.computeControl_config p dt e
  obtain ⟨kp, ki, kd, d1, d2, d3⟩ := h0.diag
  rw [ep] at f2 f4
  simp only [] at fo
  have hfil : s.filter dt (e i) = (p.computeControl dt e).1.filtered i := by
    rw [f4]
    simp only [Pid1.filter, flt, ← m2, ← m3, ← h0.alpha, Pi.add_apply, Pi.mul_apply, Pi.smul_apply,
      Pi.sub_apply, Pi.one_apply, smul_eq_mul, div_eq_inv_mul]
  set a := p.accumulate dt e i with ha
  have hacc := h0.accumulate hf dt e
  have hfin := h0.finish (vadd (vadd (p.computeControl dt e).1.propContrib
    (p.computeControl dt e).1.intContrib) (p.computeControl dt e).1.derivContrib)
    (s.kp * e i + s.ki * a + s.kd * s.filter dt (e i)) (by
      simp only [flt, Pi.add_apply]
      rw [f5, f6, f7, mv_eq d1, mv_eq d2, mv_eq d3, h0.kp, h0.ki, h0.kd, hfil, f2])
  rw [← fo] at hfin
  refine ⟨({ s with
      propContrib := s.kp * e i, integral := a, intContrib := s.ki * a, filtered := s.filter dt (e i),
      derivContrib := s.kd * s.filter dt (e i), output := (p.computeControl dt e).1.output i,
      propErr := e i }, (p.computeControl dt e).1.output i), ?_, ?_, ?_⟩
  · unfold Pid1.computeControl
    simp only [es]
    have : ({ s with propContrib := s.kp ⊠ e i } : Pid1 ℝ).accumulate dt (e i) = some a := hacc
    simp only [this]
    rw [AxisRel.finishOutput _ hfin]
    rfl
  · obtain ⟨c1, c2, c3, c4, c5, c6, c7, c8, c9, c10⟩ := fc
    constructor
    · exact ⟨kp, ki, kd, c1.trans d1, c2.trans d2, c3.trans d3⟩
    · rw [c1]; exact h0.kp
    · rw [c2]; exact h0.ki
    · rw [c3]; exact h0.kd
    · rw [c4]; exact h0.aw
    · rw [c4]; exact h0.uni
    · rw [c5]; exact h0.alpha
    · rw [c6]; exact h0.flag
    · rw [c7]; exact h0.sat
    · rw [c8]; exact h0.prop
    · rw [c7, c9, c10]; exact h0.lim
    · rw [f1]; exact hs.symm
    · intro _; exact ⟨by rw [f2], hfil.symm, by rw [f3]⟩
  · rfl

lemma controlD (h : AxisRel i p s) (dt : ℝ) (e de : Vec n ℝ) :
    ∃ r, s.computeControlD dt (e i) (de i) = some r ∧ AxisRel i (p.computeControlD dt e de).1 r.1 ∧
      r.2 = (p.computeControlD dt e de).2 i := by
  obtain ⟨h0, hf⟩ := h.firstRunInit e
  have e1 : p.computeControlD dt e de = (p.firstRunInit e).computeControlD dt e de := by
    rw [Pid.computeControlD, Pid.computeControlD, Pid.firstRunInit_idem]
  have e2 : s.computeControlD dt (e i) (de i) =
      (s.firstRunInit (e i)).computeControlD dt (e i) (de i) := by
    rw [Pid1.computeControlD, Pid1.computeControlD, Pid1.firstRunInit_idem]
  rw [e1, e2]
  clear e1 e2 h
  generalize p.firstRunInit e = p at *
  generalize s.firstRunInit (e i) = s at *
  have hs : s.firstRun = false := h0.first ▸ hf
  have es : s.firstRunInit (e i) = s := by simp [Pid1.firstRunInit, hs]
  have ep : p.firstRunInit e = p := by simp [Pid.firstRunInit, hf]
  obtain ⟨m1, m2, m3⟩ := h0.mem hf
  obtain ⟨f1, f2, f3, f4, f5, f6, f7⟩ := Pid.computeControlD_fields p dt e de
  have fo := Pid.computeControlD_output p dt e de
  have fc := Pid.computeControlD_config p dt e de
  obtain ⟨kp, ki, kd, d1, d2, d3⟩ := h0.diag
  rw [ep] at f2 f4
  simp only [] at fo
  set a := p.accumulate dt e i with ha
  have hacc := h0.accumulate hf dt e
  have hfin := h0.finish (vadd (vadd (p.computeControlD dt e de).1.propContrib
    (p.computeControlD dt e de).1.intContrib) (p.computeControlD dt e de).1.derivContrib)
    (s.kp * e i + s.ki * a + s.kd * de i) (by
      simp only [flt, Pi.add_apply]
      rw [f5, f6, f7, mv_eq d1, mv_eq d2, mv_eq d3, h0.kp, h0.ki, h0.kd, f2])
  rw [← fo] at hfin
  refine ⟨({ s with
      propContrib := s.kp * e i, integral := a, intContrib := s.ki * a,
      derivContrib := s.kd * de i, output := (p.computeControlD dt e de).1.output i,
      propErr := e i, derivErr := de i }, (p.computeControlD dt e de).1.output i), ?_, ?_, ?_⟩
  · unfold Pid1.computeControlD
    simp only [es]
    have : ({ s with propContrib := s.kp ⊠ e i } : Pid1 ℝ).accumulate dt (e i) = some a := hacc
    simp only [this]
    rw [AxisRel.finishOutput _ hfin]
    rfl
  · obtain ⟨c1, c2, c3, c4, c5, c6, c7, c8, c9, c10⟩ := fc
    constructor
    · exact ⟨kp, ki, kd, c1.trans d1, c2.trans d2, c3.trans d3⟩
    · rw [c1]; exact h0.kp
    · rw [c2]; exact h0.ki
    · rw [c3]; exact h0.kd
    · rw [c4]; exact h0.aw
    · rw [c4]; exact h0.uni
    · rw [c5]; exact h0.alpha
    · rw [c6]; exact h0.flag
    · rw [c7]; exact h0.sat
    · rw [c8]; exact h0.prop
    · rw [c7, c9, c10]; exact h0.lim
    · rw [f1]; exact hs.symm
    · intro _; exact ⟨by rw [f2], by rw [f4]; exact m2, by rw [f3]⟩
  · rfl

lemma update (h1 : p.firstRun = s.firstRun) (h2 : p.firstRun = false → p.integral i = s.integral ∧
    p.filtered i = s.filtered ∧ p.propErr i = s.propErr) (q : PidParams ℝ n) (hq : UniformParams q) :
    AxisRel i (p.updateParams q) (s.updateParams (axisParams i q)) := by
  obtain ⟨q1, q2, q3⟩ := hq
  have hd := Pid.Diag.update q p
  rcases q3 with q3 | ⟨q3, q4⟩
  · have hok : ∀ j, Pid.AxisOk q.upper q.lower j := fun j => (Pid.axisOk_real _ _ _).2 (q3 j)
    have := eps_pos
    have hi := q3 i
    have hnz : (Pid.nonZero q.lower || Pid.nonZero q.upper) = true := by
      by_contra hc
      simp only [Bool.or_eq_true, not_or, Bool.not_eq_true, Pid.nonZero, List.any_eq_false,
        List.mem_finRange, true_imp_iff, Bool.not_eq_true, Bool.not_eq_false', flt,
        decide_eq_true_eq] at hc
      have := hc.1 i; have := hc.2 i
      linarith
    have hnz1 : (!(beq (q.upper i) (lit 0)) || !(beq (q.lower i) (lit 0))) = true := by
      by_contra hc
      simp [flt] at hc
      linarith [hc.1, hc.2]
    have hv : p.updateParams q = { p with
        kpMat := mdiag q.kp, kiMat := mdiag q.ki, kdMat := mdiag q.kd, antiwindup := q.antiwindup,
        alpha := q.alpha, resetIntegral := q.resetIntegral, propSat := q.propSat, satFlag := true,
        upper := q.upper, lower := q.lower } := by
      simp only [Pid.updateParams, hnz, if_true]
      rw [Pid.setOutputSaturation_ok _ _ _ _ hok]
      rfl
    have hs : s.updateParams (axisParams i q) = { s with
        kp := q.kp i, ki := q.ki i, kd := q.kd i, antiwindup := q.antiwindup i, alpha := q.alpha i,
        resetIntegral := q.resetIntegral, satFlag := true, upper := q.upper i, lower := q.lower i } := by
      simp only [Pid1.updateParams, axisParams, hnz1, if_true, Pid1.setOutputSaturation,
        (hok i).1, (hok i).2]
      rfl
    rw [hv] at hd ⊢
    rw [hs]
    exact ⟨hd, by simp [flt], by simp [flt], by simp [flt], rfl, q2, rfl, rfl, rfl, q1,
      fun _ => ⟨hi, rfl, rfl⟩, h1, h2⟩
  · have hnz : (Pid.nonZero q.lower || Pid.nonZero q.upper) = false := by
      simp [Pid.nonZero, List.any_eq_false, flt, q3, q4]
    have hnz1 : (!(beq (q.upper i) (lit 0)) || !(beq (q.lower i) (lit 0))) = false := by
      simp [flt, q3, q4]
    have hv : p.updateParams q = { p with
        kpMat := mdiag q.kp, kiMat := mdiag q.ki, kdMat := mdiag q.kd, antiwindup := q.antiwindup,
        alpha := q.alpha, resetIntegral := q.resetIntegral, propSat := q.propSat, satFlag := false } := by
      simp only [Pid.updateParams, hnz]
      rfl
    have hs : s.updateParams (axisParams i q) = { s with
        kp := q.kp i, ki := q.ki i, kd := q.kd i, antiwindup := q.antiwindup i, alpha := q.alpha i,
        resetIntegral := q.resetIntegral, satFlag := false } := by
      simp only [Pid1.updateParams, axisParams, hnz1]
      rfl
    rw [hv] at hd ⊢
    rw [hs]
    exact ⟨hd, by simp [flt], by simp [flt], by simp [flt], rfl, q2, rfl, rfl, rfl, q1,
      fun h => by simp at h, h1, h2⟩

lemma step (h : AxisRel i p s) (o : PidOp ℝ n) (ho : UniformOp o) :
    ∃ r, s.run (axisOp i o) = some r ∧ AxisRel i (p.step o).1 r.1 ∧
      r.2.filterMap id = axisOutputs i [(p.step o).2] := by
  cases o with
  | control dt e =>
    obtain ⟨r, h1, h2, h3⟩ := h.control dt e
    refine ⟨(r.1, [some r.2]), ?_, h2, ?_⟩
    · simp [axisOp, Pid1.run, Pid1.step, h1]
    · simp [Pid.step, axisOutputs, h3]
  | controlD dt e de =>
    obtain ⟨r, h1, h2, h3⟩ := h.controlD dt e de
    refine ⟨(r.1, [some r.2]), ?_, h2, ?_⟩
    · simp [axisOp, Pid1.run, Pid1.step, h1]
    · simp [Pid.step, axisOutputs, h3]
  | updateParams q =>
    exact ⟨_, rfl, update h.first h.mem q ho, rfl⟩
  | setOutputSaturation u l b =>
    obtain ⟨hb, hl⟩ := ho
    have hok : ∀ j, Pid.AxisOk u l j := fun j => (Pid.axisOk_real _ _ _).2 (hl j)
    have hs : s.setOutputSaturation (u i) (l i) = { s with upper := u i, lower := l i, satFlag := true } := by
      simp [Pid1.setOutputSaturation, (hok i).1, (hok i).2]
    refine ⟨(s.setOutputSaturation (u i) (l i), [none]), rfl, ?_, rfl⟩
    simp only [Pid.step, hs]
    rw [Pid.setOutputSaturation_ok _ _ _ _ hok]
    exact { h with sat := rfl, prop := hb, lim := fun _ => ⟨hl i, rfl, rfl⟩ }
  | disableSat =>
    exact ⟨_, rfl, { h with sat := rfl, lim := fun h => by simp [Pid.step, Pid.disableSat] at h }, rfl⟩
  | reset =>
    exact ⟨_, rfl, { h with first := rfl, mem := fun h => by simp [Pid.step, Pid.reset] at h }, rfl⟩
  | setGains a b c =>
    refine ⟨_, rfl, { h with diag := ⟨a, b, c, rfl, rfl, rfl⟩, kp := ?_, ki := ?_, kd := ?_ }, rfl⟩ <;>
      simp [Pid.step, Pid.setGains, Pid1.setGains, flt]
  | setKp k =>
    exact ⟨_, rfl, { h with
      diag := Pid.Diag.step p (.setKp k) h.diag, kp := by simp [Pid.step, Pid.setKp, Pid1.setKp, flt] }, rfl⟩
  | setKi k =>
    exact ⟨_, rfl, { h with
      diag := Pid.Diag.step p (.setKi k) h.diag, ki := by simp [Pid.step, Pid.setKi, Pid1.setKi, flt] }, rfl⟩
  | setKd k =>
    exact ⟨_, rfl, { h with
      diag := Pid.Diag.step p (.setKd k) h.diag, kd := by simp [Pid.step, Pid.setKd, Pid1.setKd, flt] }, rfl⟩
  | setAntiWindup a => exact ⟨_, rfl, { h with aw := rfl, uni := ho }, rfl⟩
  | setAlpha a => exact ⟨_, rfl, { h with alpha := rfl }, rfl⟩
  | setResetIntegral b => exact ⟨_, rfl, { h with flag := rfl }, rfl⟩
  | setPropSat b => exact ⟨_, rfl, { h with prop := ho }, rfl⟩

end AxisRel

lemma Pid1.run_append {α : Type} [Flt α] (s : Pid1 α) (os os' : List (Pid1Op α)) {r r' : Pid1 α × List (Option α)}
    (h : s.run os = some r) (h' : r.1.run os' = some r') : s.run (os ++ os') = some (r'.1, r.2 ++ r'.2) := by
  induction os generalizing s r with
  | nil =>
    simp [Pid1.run] at h; subst h; simpa using h'
  | cons o os ih =>
    simp only [Pid1.run, List.cons_append] at h ⊢
    cases h1 : s.step o with
    | none => simp [h1] at h
    | some t =>
      simp only [h1] at h ⊢
      cases h2 : t.1.run os with
      | none => simp [h2] at h
      | some w =>
        simp only [h2, Option.some.injEq] at h
        subst h
        rw [ih _ h2 h']
        simp

lemma AxisRel.run {i : Fin n} (os : List (PidOp ℝ n)) (ho : ∀ o ∈ os, UniformOp o) {p : Pid ℝ n}
    {s : Pid1 ℝ} (h : AxisRel i p s) :
    ∃ r, s.run (os.flatMap (axisOp i)) = some r ∧ AxisRel i (p.run os).1 r.1 ∧
      r.2.filterMap id = axisOutputs i (p.run os).2 := by
  induction os generalizing p s with
  | nil => exact ⟨(s, []), rfl, h, rfl⟩
  | cons o os ih =>
    obtain ⟨r, h1, h2, h3⟩ := h.step o (ho o (by simp))
    obtain ⟨t, t1, t2, t3⟩ := ih (fun o' h' => ho o' (by simp [h'])) h2
    refine ⟨(t.1, r.2 ++ t.2), Pid1.run_append s _ _ h1 t1, t2, ?_⟩
    rw [List.filterMap_append, h3, t3]
    simp only [axisOutputs, Pid.run, ← List.filterMap_append, List.singleton_append]

end Verif
