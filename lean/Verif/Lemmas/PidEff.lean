import Verif.Lemmas.PidReset

/-!
# Configurations that cannot be told apart by control calls

Limits are compared only while saturation is enabled: a disabled PID may hold stale limits.
-/

namespace Verif

open Flt Spec

namespace Pid

variable {α : Type} [Flt α] {n : ℕ}

/-- Same effective configuration. -/
def EffConf (p q : Pid α n) : Prop :=
  (p.kpMat = q.kpMat ∧ p.kiMat = q.kiMat ∧ p.kdMat = q.kdMat ∧ p.antiwindup = q.antiwindup ∧
    p.alpha = q.alpha ∧ p.resetIntegral = q.resetIntegral ∧ p.propSat = q.propSat) ∧
  p.satFlag = q.satFlag ∧ (p.satFlag = true → p.upper = q.upper ∧ p.lower = q.lower)

/-- Same effective configuration, same first-run status and, if running, same memory. -/
def EffRel (p q : Pid α n) : Prop :=
  EffConf p q ∧ p.firstRun = q.firstRun ∧
    (p.firstRun = false → p.integral = q.integral ∧ p.filtered = q.filtered ∧ p.propErr = q.propErr)

omit [Flt α] in
lemma SameConfig.eff {p q : Pid α n} (h : SameConfig p q) : EffConf p q := by
  obtain ⟨h1, h2, h3, h4, h5, h6, h7, h8, h9, h10⟩ := h
  exact ⟨⟨h1, h2, h3, h4, h5, h6, h8⟩, h7, fun _ => ⟨h9, h10⟩⟩

omit [Flt α] in
lemma Rel.eff {p q : Pid α n} (h : Rel p q) : EffRel p q := ⟨h.1.eff, h.2⟩

omit [Flt α] in
lemma EffRel.refl (p : Pid α n) : EffRel p p := Rel.eff ⟨SameConfig.refl p, rfl, fun _ => ⟨rfl, rfl, rfl⟩⟩

omit [Flt α] in
lemma EffConf.trans {p q r : Pid α n} (h : EffConf p q) (g : EffConf q r) : EffConf p r := by
  obtain ⟨⟨h1, h2, h3, h4, h5, h6, h7⟩, h8, h9⟩ := h
  obtain ⟨⟨g1, g2, g3, g4, g5, g6, g7⟩, g8, g9⟩ := g
  refine ⟨⟨h1.trans g1, h2.trans g2, h3.trans g3, h4.trans g4, h5.trans g5, h6.trans g6, h7.trans g7⟩,
    h8.trans g8, fun hs => ?_⟩
  have a := h9 hs
  have b := g9 (h8 ▸ hs)
  exact ⟨a.1.trans b.1, a.2.trans b.2⟩

omit [Flt α] in
lemma EffConf.symm {p q : Pid α n} (h : EffConf p q) : EffConf q p := by
  obtain ⟨⟨h1, h2, h3, h4, h5, h6, h7⟩, h8, h9⟩ := h
  exact ⟨⟨h1.symm, h2.symm, h3.symm, h4.symm, h5.symm, h6.symm, h7.symm⟩, h8.symm,
    fun hs => let a := h9 (h8 ▸ hs); ⟨a.1.symm, a.2.symm⟩⟩

lemma EffConf.setSat {p q : Pid α n} (h : EffConf p q) (u l : Vec n α) (b : Bool) :
    EffConf (p.setOutputSaturation u l b) (q.setOutputSaturation u l b) := by
  by_cases ho : ∀ i, AxisOk u l i
  · rw [setOutputSaturation_ok _ _ _ _ ho, setOutputSaturation_ok _ _ _ _ ho]
    obtain ⟨⟨h1, h2, h3, h4, h5, h6, h7⟩, h8, h9⟩ := h
    exact ⟨⟨h1, h2, h3, h4, h5, h6, rfl⟩, rfl, fun _ => ⟨rfl, rfl⟩⟩
  · obtain ⟨v, w, hv, -⟩ := setOutputSaturation_bad u l b p ho
    obtain ⟨v', w', hv', -⟩ := setOutputSaturation_bad u l b q ho
    rw [hv, hv']
    exact ⟨h.1, rfl, fun hs => by simp at hs⟩

/-- After an update of all parameters the effective configuration does not depend on the past. -/
lemma EffConf.update (r : PidParams α n) (p q : Pid α n) :
    EffConf (p.updateParams r) (q.updateParams r) := by
  unfold Pid.updateParams
  simp only []
  split
  · by_cases ho : ∀ i, AxisOk r.upper r.lower i
    · rw [setOutputSaturation_ok _ _ _ _ ho, setOutputSaturation_ok _ _ _ _ ho]
      exact ⟨⟨rfl, rfl, rfl, rfl, rfl, rfl, rfl⟩, rfl, fun _ => ⟨rfl, rfl⟩⟩
    · obtain ⟨v, w, hv, -⟩ := setOutputSaturation_bad r.upper r.lower r.propSat
        (((((p.setGains r.kp r.ki r.kd).setAntiWindup r.antiwindup).setAlpha r.alpha).setResetIntegral
          r.resetIntegral).setPropSat r.propSat) ho
      obtain ⟨v', w', hv', -⟩ := setOutputSaturation_bad r.upper r.lower r.propSat
        (((((q.setGains r.kp r.ki r.kd).setAntiWindup r.antiwindup).setAlpha r.alpha).setResetIntegral
          r.resetIntegral).setPropSat r.propSat) ho
      rw [hv, hv']
      exact ⟨⟨rfl, rfl, rfl, rfl, rfl, rfl, rfl⟩, rfl, fun hs => by simp at hs⟩
  · exact ⟨⟨rfl, rfl, rfl, rfl, rfl, rfl, rfl⟩, rfl, fun hs => by simp [disableSat] at hs⟩

lemma EffRel.control {p q : Pid α n} (h : EffRel p q) (dt : α) (e : Vec n α) :
    EffRel (p.computeControl dt e).1 (q.computeControl dt e).1 ∧
      (p.computeControl dt e).2 = (q.computeControl dt e).2 := by
  obtain ⟨⟨⟨h1, h2, h3, h4, h5, h6, h7⟩, h8, h9⟩, hf, hm⟩ := h
  cases p; cases q
  simp only at h1 h2 h3 h4 h5 h6 h7 h8 h9 hf hm
  subst h1 h2 h3 h4 h5 h6 h7 h8 hf
  rename_i sf _ _ _ f _ _ _ _ _ _ _ _ _ _ _ _ _ _ _ _ _ _
  cases f
  · obtain ⟨rfl, rfl, rfl⟩ := hm rfl
    cases sf
    · simp [computeControl, firstRunInit, computeIntegral, computeDerivativeByDeriving, finishOutput,
        accumulate, computeDerivative, EffRel, EffConf]
    · obtain ⟨rfl, rfl⟩ := h9 rfl
      simp [computeControl, firstRunInit, computeIntegral, computeDerivativeByDeriving, finishOutput,
        accumulate, computeDerivative, EffRel, EffConf]
  · cases sf
    · simp [computeControl, firstRunInit, computeIntegral, computeDerivativeByDeriving, finishOutput,
        accumulate, computeDerivative, EffRel, EffConf]
    · obtain ⟨rfl, rfl⟩ := h9 rfl
      simp [computeControl, firstRunInit, computeIntegral, computeDerivativeByDeriving, finishOutput,
        accumulate, computeDerivative, EffRel, EffConf]

lemma EffRel.controlD {p q : Pid α n} (h : EffRel p q) (dt : α) (e de : Vec n α) :
    EffRel (p.computeControlD dt e de).1 (q.computeControlD dt e de).1 ∧
      (p.computeControlD dt e de).2 = (q.computeControlD dt e de).2 := by
  obtain ⟨⟨⟨h1, h2, h3, h4, h5, h6, h7⟩, h8, h9⟩, hf, hm⟩ := h
  cases p; cases q
  simp only at h1 h2 h3 h4 h5 h6 h7 h8 h9 hf hm
  subst h1 h2 h3 h4 h5 h6 h7 h8 hf
  rename_i sf _ _ _ f _ _ _ _ _ _ _ _ _ _ _ _ _ _ _ _ _ _
  cases f
  · obtain ⟨rfl, rfl, rfl⟩ := hm rfl
    cases sf
    · simp [computeControlD, firstRunInit, computeIntegral, finishOutput,
        accumulate, computeDerivative, EffRel, EffConf]
    · obtain ⟨rfl, rfl⟩ := h9 rfl
      simp [computeControlD, firstRunInit, computeIntegral, finishOutput,
        accumulate, computeDerivative, EffRel, EffConf]
  · cases sf
    · simp [computeControlD, firstRunInit, computeIntegral, finishOutput,
        accumulate, computeDerivative, EffRel, EffConf]
    · obtain ⟨rfl, rfl⟩ := h9 rfl
      simp [computeControlD, firstRunInit, computeIntegral, finishOutput,
        accumulate, computeDerivative, EffRel, EffConf]

lemma EffRel.update {p q : Pid α n} (h : EffRel p q) (r : PidParams α n) :
    EffRel (p.updateParams r) (q.updateParams r) := by
  obtain ⟨a1, a2, a3, a4⟩ := updateParams_memory r p
  obtain ⟨b1, b2, b3, b4⟩ := updateParams_memory r q
  refine ⟨EffConf.update r p q, ?_⟩
  rw [a1, a2, a3, a4, b1, b2, b3, b4]
  exact h.2

omit [Flt α] in
lemma EffRel.reset {p q : Pid α n} (h : EffConf p q) : EffRel p.reset q.reset :=
  ⟨h, rfl, fun hf => by simp [Pid.reset] at hf⟩

lemma EffRel.step {p q : Pid α n} (h : EffRel p q) (o : PidOp α n) :
    EffRel (p.step o).1 (q.step o).1 ∧ (p.step o).2 = (q.step o).2 := by
  cases o with
  | control dt e =>
    obtain ⟨h1, h2⟩ := h.control dt e
    exact ⟨h1, by simp [Pid.step, h2]⟩
  | controlD dt e de =>
    obtain ⟨h1, h2⟩ := h.controlD dt e de
    exact ⟨h1, by simp [Pid.step, h2]⟩
  | updateParams r => exact ⟨h.update r, rfl⟩
  | reset => exact ⟨EffRel.reset h.1, rfl⟩
  | setOutputSaturation u l b =>
    refine ⟨⟨h.1.setSat u l b, ?_⟩, rfl⟩
    obtain ⟨a1, a2, a3, a4⟩ := setSatLoop_memory u l b (List.finRange n) p
    obtain ⟨b1, b2, b3, b4⟩ := setSatLoop_memory u l b (List.finRange n) q
    simp only [Pid.step, setOutputSaturation, a1, a2, a3, a4, b1, b2, b3, b4]
    exact h.2
  | disableSat => exact ⟨⟨⟨h.1.1, rfl, fun hs => by simp [Pid.step, disableSat] at hs⟩, h.2⟩, rfl⟩
  | setGains kp ki kd =>
    obtain ⟨⟨⟨h1, h2, h3, h4, h5, h6, h7⟩, h8⟩, hm⟩ := h
    exact ⟨⟨⟨⟨rfl, rfl, rfl, h4, h5, h6, h7⟩, h8⟩, hm⟩, rfl⟩
  | setKp k =>
    obtain ⟨⟨⟨h1, h2, h3, h4, h5, h6, h7⟩, h8⟩, hm⟩ := h
    exact ⟨⟨⟨⟨rfl, h2, h3, h4, h5, h6, h7⟩, h8⟩, hm⟩, rfl⟩
  | setKi k =>
    obtain ⟨⟨⟨h1, h2, h3, h4, h5, h6, h7⟩, h8⟩, hm⟩ := h
    exact ⟨⟨⟨⟨h1, rfl, h3, h4, h5, h6, h7⟩, h8⟩, hm⟩, rfl⟩
  | setKd k =>
    obtain ⟨⟨⟨h1, h2, h3, h4, h5, h6, h7⟩, h8⟩, hm⟩ := h
    exact ⟨⟨⟨⟨h1, h2, rfl, h4, h5, h6, h7⟩, h8⟩, hm⟩, rfl⟩
  | setAntiWindup a =>
    obtain ⟨⟨⟨h1, h2, h3, h4, h5, h6, h7⟩, h8⟩, hm⟩ := h
    exact ⟨⟨⟨⟨h1, h2, h3, rfl, h5, h6, h7⟩, h8⟩, hm⟩, rfl⟩
  | setAlpha a =>
    obtain ⟨⟨⟨h1, h2, h3, h4, h5, h6, h7⟩, h8⟩, hm⟩ := h
    exact ⟨⟨⟨⟨h1, h2, h3, h4, rfl, h6, h7⟩, h8⟩, hm⟩, rfl⟩
  | setResetIntegral b =>
    obtain ⟨⟨⟨h1, h2, h3, h4, h5, h6, h7⟩, h8⟩, hm⟩ := h
    exact ⟨⟨⟨⟨h1, h2, h3, h4, h5, rfl, h7⟩, h8⟩, hm⟩, rfl⟩
  | setPropSat b =>
    obtain ⟨⟨⟨h1, h2, h3, h4, h5, h6, h7⟩, h8⟩, hm⟩ := h
    exact ⟨⟨⟨⟨h1, h2, h3, h4, h5, h6, rfl⟩, h8⟩, hm⟩, rfl⟩

lemma EffConf.step {p q : Pid α n} (h : EffConf p q) (o : PidOp α n) :
    EffConf (p.step o).1 (q.step o).1 := by
  cases o with
  | control dt e =>
    exact (computeControl_config p dt e).eff.trans (h.trans (computeControl_config q dt e).eff.symm)
  | controlD dt e de =>
    exact (computeControlD_config p dt e de).eff.trans (h.trans (computeControlD_config q dt e de).eff.symm)
  | updateParams r => exact EffConf.update r p q
  | reset => exact h
  | setOutputSaturation u l b => exact h.setSat u l b
  | disableSat => exact ⟨h.1, rfl, fun hs => by simp [Pid.step, disableSat] at hs⟩
  | setGains kp ki kd =>
    obtain ⟨⟨h1, h2, h3, h4, h5, h6, h7⟩, h8⟩ := h
    exact ⟨⟨rfl, rfl, rfl, h4, h5, h6, h7⟩, h8⟩
  | setKp k =>
    obtain ⟨⟨h1, h2, h3, h4, h5, h6, h7⟩, h8⟩ := h
    exact ⟨⟨rfl, h2, h3, h4, h5, h6, h7⟩, h8⟩
  | setKi k =>
    obtain ⟨⟨h1, h2, h3, h4, h5, h6, h7⟩, h8⟩ := h
    exact ⟨⟨h1, rfl, h3, h4, h5, h6, h7⟩, h8⟩
  | setKd k =>
    obtain ⟨⟨h1, h2, h3, h4, h5, h6, h7⟩, h8⟩ := h
    exact ⟨⟨h1, h2, rfl, h4, h5, h6, h7⟩, h8⟩
  | setAntiWindup a =>
    obtain ⟨⟨h1, h2, h3, h4, h5, h6, h7⟩, h8⟩ := h
    exact ⟨⟨h1, h2, h3, rfl, h5, h6, h7⟩, h8⟩
  | setAlpha a =>
    obtain ⟨⟨h1, h2, h3, h4, h5, h6, h7⟩, h8⟩ := h
    exact ⟨⟨h1, h2, h3, h4, rfl, h6, h7⟩, h8⟩
  | setResetIntegral b =>
    obtain ⟨⟨h1, h2, h3, h4, h5, h6, h7⟩, h8⟩ := h
    exact ⟨⟨h1, h2, h3, h4, h5, rfl, h7⟩, h8⟩
  | setPropSat b =>
    obtain ⟨⟨h1, h2, h3, h4, h5, h6, h7⟩, h8⟩ := h
    exact ⟨⟨h1, h2, h3, h4, h5, h6, rfl⟩, h8⟩

omit [Flt α] in
lemma EffConf.refl (p : Pid α n) : EffConf p p := (SameConfig.refl p).eff

/-- Configuration calls do not end the first run. -/
lemma step_config_firstRun (p : Pid α n) (o : PidOp α n) (ho : isConfig o = true)
    (hp : p.firstRun = true) : (p.step o).1.firstRun = true := by
  cases o with
  | updateParams r => exact (updateParams_memory r p).1.trans hp
  | setOutputSaturation u l b => exact (setSatLoop_memory u l b _ p).1.trans hp
  | control dt e => simp [isConfig] at ho
  | controlD dt e de => simp [isConfig] at ho
  | reset => rfl
  | _ => exact hp

lemma EffRel.run {p q : Pid α n} (h : EffRel p q) (os : List (PidOp α n)) :
    EffRel (p.run os).1 (q.run os).1 ∧ (p.run os).2 = (q.run os).2 := by
  induction os generalizing p q with
  | nil => exact ⟨h, rfl⟩
  | cons o os ih =>
    obtain ⟨h1, h2⟩ := h.step o
    obtain ⟨h3, h4⟩ := ih h1
    exact ⟨h3, by simp [Pid.run, h2, h4]⟩

/-- A PID whose parameters were all updated and that was then reset behaves like a new one. -/
lemma EffRel.fresh (r : PidParams α n) (p : Pid α n) : EffRel (p.updateParams r).reset (Pid.mk' r) :=
  EffRel.reset (EffConf.update r p init)

end Pid

end Verif
