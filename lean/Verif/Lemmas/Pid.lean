import Verif.Model.Pid
import Verif.Real

/-!
# Helper lemmas about the vector PID
-/

namespace Verif

open Flt

namespace Pid

section
variable {α : Type} [Flt α] {n : ℕ}

/-- The limits pass the test of `set_output_saturation` on axis `i`. -/
def AxisOk (u l : Vec n α) (i : Fin n) : Prop :=
  lt (abs (u i ⊟ l i)) eps = false ∧ lt (u i) (l i) = false

instance (u l : Vec n α) (i : Fin n) : Decidable (AxisOk u l i) := by
  unfold AxisOk; infer_instance

lemma setSatLoop_ok (u l : Vec n α) (b : Bool) (is : List (Fin n)) (p : Pid α n)
    (h : ∀ i ∈ is, AxisOk u l i) :
    setSatLoop u l b is p =
      if is = [] then { p with satFlag := true, propSat := b }
      else { p with satFlag := true, propSat := b, upper := u, lower := l } := by
  induction is generalizing p with
  | nil => rfl
  | cons i is ih =>
    have hi := h i (by simp)
    rw [setSatLoop, if_neg (by simp [hi.1]), if_neg (by simp [hi.2]), ih _ fun j hj => h j (by simp [hj])]
    by_cases he : is = [] <;> simp [he]

lemma setSatLoop_bad (u l : Vec n α) (b : Bool) (is : List (Fin n)) (p : Pid α n)
    (h : ¬ ∀ i ∈ is, AxisOk u l i) :
    ∃ v w, setSatLoop u l b is p = { p with satFlag := false, upper := v, lower := w } ∧
      ((v = p.upper ∧ w = p.lower) ∨ (v = u ∧ w = l)) := by
  induction is generalizing p with
  | nil => simp at h
  | cons i is ih =>
    rw [setSatLoop]
    by_cases h1 : lt (abs (u i ⊟ l i)) eps = true
    · rw [if_pos h1]; exact ⟨p.upper, p.lower, rfl, .inl ⟨rfl, rfl⟩⟩
    rw [if_neg h1]
    by_cases h2 : lt (u i) (l i) = true
    · rw [if_pos h2]; exact ⟨p.upper, p.lower, rfl, .inl ⟨rfl, rfl⟩⟩
    rw [if_neg h2]
    have h3 : ¬ ∀ j ∈ is, AxisOk u l j := by
      intro h3
      apply h
      intro j hj
      rcases List.mem_cons.1 hj with rfl | hj
      · exact ⟨by simpa using h1, by simpa using h2⟩
      · exact h3 j hj
    obtain ⟨v, w, hv, hw⟩ := ih { p with upper := u, lower := l } h3
    refine ⟨v, w, hv, ?_⟩
    rcases hw with ⟨rfl, rfl⟩ | hw
    · exact .inr ⟨rfl, rfl⟩
    · exact .inr hw

lemma setOutputSaturation_ok (u l : Vec n α) (b : Bool) (p : Pid α n) (h : ∀ i, AxisOk u l i) :
    setOutputSaturation u l b p =
      { p with satFlag := true, propSat := b, upper := u, lower := l } := by
  rw [setOutputSaturation, setSatLoop_ok _ _ _ _ _ fun i _ => h i]
  split
  · rename_i hn
    have hn : n = 0 := by simpa using congrArg List.length hn
    subst hn
    have e1 : p.upper = u := funext fun i => i.elim0
    have e2 : p.lower = l := funext fun i => i.elim0
    subst e1 e2; rfl
  · rfl

lemma setOutputSaturation_bad (u l : Vec n α) (b : Bool) (p : Pid α n) (h : ¬ ∀ i, AxisOk u l i) :
    ∃ v w, setOutputSaturation u l b p = { p with satFlag := false, upper := v, lower := w } ∧
      ((v = p.upper ∧ w = p.lower) ∨ (v = u ∧ w = l)) :=
  setSatLoop_bad _ _ _ _ _ (by simpa using h)

lemma updateParams_eq (q : PidParams α n) (p : Pid α n) :
    ∃ f v w b, p.updateParams q =
      { p with kpMat := mdiag q.kp, kiMat := mdiag q.ki, kdMat := mdiag q.kd,
               antiwindup := q.antiwindup, alpha := q.alpha, resetIntegral := q.resetIntegral,
               propSat := b, satFlag := f, upper := v, lower := w } ∧ b = q.propSat ∧
      (f = true → (v = q.upper ∧ w = q.lower ∧ ∀ i, AxisOk v w i)) ∧
      ((v = p.upper ∧ w = p.lower) ∨ (v = q.upper ∧ w = q.lower)) := by
  unfold updateParams
  simp only []
  split
  · by_cases h : ∀ i, AxisOk q.upper q.lower i
    · rw [setOutputSaturation_ok _ _ _ _ h]
      exact ⟨true, q.upper, q.lower, q.propSat, rfl, rfl, fun _ => ⟨rfl, rfl, h⟩, .inr ⟨rfl, rfl⟩⟩
    · obtain ⟨v, w, hv, hw⟩ := setOutputSaturation_bad q.upper q.lower q.propSat
        (((((p.setGains q.kp q.ki q.kd).setAntiWindup q.antiwindup).setAlpha q.alpha).setResetIntegral
          q.resetIntegral).setPropSat q.propSat) h
      refine ⟨false, v, w, q.propSat, ?_, rfl, by simp, hw⟩
      rw [hv]; rfl
  · exact ⟨false, p.upper, p.lower, q.propSat, rfl, rfl, by simp, .inl ⟨rfl, rfl⟩⟩

/-- Principle of induction over histories. -/
lemma run_induct {P : Pid α n → Prop} (hs : ∀ p o, P p → P (p.step o).1) :
    ∀ os p, P p → P (p.run os).1
  | [], _, h => h
  | o :: os, p, h => run_induct hs os _ (hs p o h)

/-- The memory-free part of a PID. -/
def SameConfig (p q : Pid α n) : Prop :=
  p.kpMat = q.kpMat ∧ p.kiMat = q.kiMat ∧ p.kdMat = q.kdMat ∧ p.antiwindup = q.antiwindup ∧
  p.alpha = q.alpha ∧ p.resetIntegral = q.resetIntegral ∧ p.satFlag = q.satFlag ∧
  p.propSat = q.propSat ∧ p.upper = q.upper ∧ p.lower = q.lower

@[simp] lemma computeControl_config (p : Pid α n) (dt : α) (e : Vec n α) :
    SameConfig (p.computeControl dt e).1 p := by
  simp only [computeControl, firstRunInit, computeIntegral, computeDerivativeByDeriving, finishOutput,
    SameConfig]
  split <;> simp

@[simp] lemma computeControlD_config (p : Pid α n) (dt : α) (e de : Vec n α) :
    SameConfig (p.computeControlD dt e de).1 p := by
  simp only [computeControlD, firstRunInit, computeIntegral, finishOutput, SameConfig]
  split <;> simp

/-- Enabled limits are ordered (and distinguishable) on every axis. -/
def LimitsOk (p : Pid α n) : Prop := p.satFlag = true → ∀ i, AxisOk p.upper p.lower i

lemma LimitsOk.of_config {p q : Pid α n} (h : SameConfig p q) (hq : LimitsOk q) : LimitsOk p := by
  obtain ⟨-, -, -, -, -, -, h1, -, h2, h3⟩ := h
  intro hf; rw [h2, h3]; exact hq (h1 ▸ hf)

lemma LimitsOk.setSat (u l : Vec n α) (b : Bool) (p : Pid α n) :
    LimitsOk (p.setOutputSaturation u l b) := by
  by_cases h : ∀ i, AxisOk u l i
  · rw [setOutputSaturation_ok _ _ _ _ h]; exact fun _ => h
  · obtain ⟨v, w, hv, -⟩ := setOutputSaturation_bad u l b p h
    rw [hv]; intro hf; simp at hf

lemma LimitsOk.step (p : Pid α n) (o : PidOp α n) (h : LimitsOk p) : LimitsOk (p.step o).1 := by
  cases o with
  | updateParams q =>
    obtain ⟨f, v, w, b, he, -, hf, -⟩ := updateParams_eq q p
    show LimitsOk (p.updateParams q)
    rw [he]; intro hf'; exact (hf hf').2.2
  | setOutputSaturation u l b => exact LimitsOk.setSat u l b p
  | disableSat => intro hf; simp [Pid.step, disableSat] at hf
  | control dt e => exact h.of_config (computeControl_config p dt e)
  | controlD dt e de => exact h.of_config (computeControlD_config p dt e de)
  | _ => exact h

lemma LimitsOk.mk (q : PidParams α n) : LimitsOk (Pid.mk' q) := by
  obtain ⟨f, v, w, b, he, -, hf, -⟩ := updateParams_eq q (init : Pid α n)
  unfold mk'; rw [he]; intro hf'; exact (hf hf').2.2

lemma LimitsOk.run (q : PidParams α n) (os : List (PidOp α n)) : LimitsOk ((Pid.mk' q).run os).1 :=
  run_induct LimitsOk.step os _ (LimitsOk.mk q)

/-- The gain matrices are diagonal. -/
def Diag (p : Pid α n) : Prop :=
  ∃ kp ki kd : Vec n α, p.kpMat = mdiag kp ∧ p.kiMat = mdiag ki ∧ p.kdMat = mdiag kd

lemma Diag.of_config {p q : Pid α n} (h : SameConfig p q) (hq : Diag q) : Diag p := by
  obtain ⟨h1, h2, h3, -⟩ := h
  rw [Diag, h1, h2, h3]; exact hq

lemma Diag.update (q : PidParams α n) (p : Pid α n) : Diag (p.updateParams q) := by
  obtain ⟨f, v, w, b, he, -⟩ := updateParams_eq q p
  rw [he]; exact ⟨_, _, _, rfl, rfl, rfl⟩

lemma Diag.step (p : Pid α n) (o : PidOp α n) (h : Diag p) : Diag (p.step o).1 := by
  cases o with
  | updateParams q => exact Diag.update q p
  | setOutputSaturation u l b =>
    show Diag (p.setOutputSaturation u l b)
    by_cases hb : ∀ i, AxisOk u l i
    · rw [setOutputSaturation_ok _ _ _ _ hb]; exact h
    · obtain ⟨v, w, hv, -⟩ := setOutputSaturation_bad u l b p hb
      rw [hv]; exact h
  | control dt e => exact h.of_config (computeControl_config p dt e)
  | controlD dt e de => exact h.of_config (computeControlD_config p dt e de)
  | setGains kp ki kd => exact ⟨kp, ki, kd, rfl, rfl, rfl⟩
  | setKp k => obtain ⟨kp, ki, kd, h1, h2, h3⟩ := h; exact ⟨k, ki, kd, rfl, h2, h3⟩
  | setKi k => obtain ⟨kp, ki, kd, h1, h2, h3⟩ := h; exact ⟨kp, k, kd, h1, rfl, h3⟩
  | setKd k => obtain ⟨kp, ki, kd, h1, h2, h3⟩ := h; exact ⟨kp, ki, k, h1, h2, rfl⟩
  | _ => exact h

lemma Diag.run (q : PidParams α n) (os : List (PidOp α n)) : Diag ((Pid.mk' q).run os).1 :=
  run_induct Diag.step os _ (Diag.update q init)

lemma firstRunInit_idem (p : Pid α n) (e : Vec n α) :
    (p.firstRunInit e).firstRunInit e = p.firstRunInit e := by
  unfold firstRunInit; by_cases h : p.firstRun = true <;> simp [h]

lemma computeControl_snd (p : Pid α n) (dt : α) (e : Vec n α) :
    (p.computeControl dt e).2 = (p.computeControl dt e).1.output := rfl

lemma computeControlD_snd (p : Pid α n) (dt : α) (e de : Vec n α) :
    (p.computeControlD dt e de).2 = (p.computeControlD dt e de).1.output := rfl

/-- The output in terms of the contributions the getters report after the call. -/
lemma computeControl_output (p : Pid α n) (dt : α) (e : Vec n α) :
    let r := (p.computeControl dt e).1
    r.output = if p.satFlag then
        saturateOutput (vadd (vadd r.propContrib r.intContrib) r.derivContrib) p.upper p.lower p.propSat
      else vadd (vadd r.propContrib r.intContrib) r.derivContrib := by
  simp only [computeControl, firstRunInit, computeIntegral, computeDerivativeByDeriving, finishOutput]
  by_cases h : p.firstRun = true <;> simp [h]

lemma computeControlD_output (p : Pid α n) (dt : α) (e de : Vec n α) :
    let r := (p.computeControlD dt e de).1
    r.output = if p.satFlag then
        saturateOutput (vadd (vadd r.propContrib r.intContrib) r.derivContrib) p.upper p.lower p.propSat
      else vadd (vadd r.propContrib r.intContrib) r.derivContrib := by
  simp only [computeControlD, firstRunInit, computeIntegral, finishOutput]
  by_cases h : p.firstRun = true <;> simp [h]

end

end Pid

end Verif
