import Verif.Lemmas.Pid
import Verif.Spec.Pid

/-!
# Bisimulations of the vector PID
-/

namespace Verif

open Flt Spec

namespace Pid

variable {α : Type} [Flt α] {n : ℕ}

/-- Same configuration, same first-run status and, if running, same memory. -/
def Rel (p q : Pid α n) : Prop :=
  SameConfig p q ∧ p.firstRun = q.firstRun ∧
    (p.firstRun = false → p.integral = q.integral ∧ p.filtered = q.filtered ∧ p.propErr = q.propErr)

omit [Flt α] in
lemma SameConfig.refl (p : Pid α n) : SameConfig p p := by simp [SameConfig]

omit [Flt α] in
lemma SameConfig.symm {p q : Pid α n} (h : SameConfig p q) : SameConfig q p := by
  obtain ⟨h1, h2, h3, h4, h5, h6, h7, h8, h9, h10⟩ := h
  exact ⟨h1.symm, h2.symm, h3.symm, h4.symm, h5.symm, h6.symm, h7.symm, h8.symm, h9.symm, h10.symm⟩

omit [Flt α] in
lemma SameConfig.trans {p q r : Pid α n} (h : SameConfig p q) (h' : SameConfig q r) :
    SameConfig p r := by
  obtain ⟨h1, h2, h3, h4, h5, h6, h7, h8, h9, h10⟩ := h
  obtain ⟨g1, g2, g3, g4, g5, g6, g7, g8, g9, g10⟩ := h'
  exact ⟨h1.trans g1, h2.trans g2, h3.trans g3, h4.trans g4, h5.trans g5, h6.trans g6, h7.trans g7,
    h8.trans g8, h9.trans g9, h10.trans g10⟩

lemma setSatLoop_memory (u l : Vec n α) (b : Bool) (is : List (Fin n)) (p : Pid α n) :
    (setSatLoop u l b is p).firstRun = p.firstRun ∧ (setSatLoop u l b is p).integral = p.integral ∧
    (setSatLoop u l b is p).filtered = p.filtered ∧ (setSatLoop u l b is p).propErr = p.propErr := by
  induction is generalizing p with
  | nil => simp [setSatLoop]
  | cons i is ih =>
    rw [setSatLoop]
    split
    · simp [disableSat]
    · split
      · simp [disableSat]
      · exact ih _

lemma SameConfig.setSatLoop {p q : Pid α n} (h : SameConfig p q) (u l : Vec n α) (b : Bool)
    (is : List (Fin n)) : SameConfig (setSatLoop u l b is p) (setSatLoop u l b is q) := by
  induction is generalizing p q with
  | nil =>
    obtain ⟨h1, h2, h3, h4, h5, h6, h7, h8, h9, h10⟩ := h
    exact ⟨h1, h2, h3, h4, h5, h6, rfl, rfl, h9, h10⟩
  | cons i is ih =>
    obtain ⟨h1, h2, h3, h4, h5, h6, h7, h8, h9, h10⟩ := h
    rw [Pid.setSatLoop, Pid.setSatLoop]
    split
    · exact ⟨h1, h2, h3, h4, h5, h6, rfl, h8, h9, h10⟩
    · split
      · exact ⟨h1, h2, h3, h4, h5, h6, rfl, h8, h9, h10⟩
      · exact ih ⟨h1, h2, h3, h4, h5, h6, h7, h8, rfl, rfl⟩

lemma updateParams_memory (q : PidParams α n) (p : Pid α n) :
    (p.updateParams q).firstRun = p.firstRun ∧ (p.updateParams q).integral = p.integral ∧
    (p.updateParams q).filtered = p.filtered ∧ (p.updateParams q).propErr = p.propErr := by
  unfold updateParams; simp only []
  split
  · exact setSatLoop_memory _ _ _ _ _
  · exact ⟨rfl, rfl, rfl, rfl⟩

lemma SameConfig.updateParams {p q : Pid α n} (h : SameConfig p q) (r : PidParams α n) :
    SameConfig (p.updateParams r) (q.updateParams r) := by
  obtain ⟨h1, h2, h3, h4, h5, h6, h7, h8, h9, h10⟩ := h
  unfold Pid.updateParams; simp only []
  split
  · refine SameConfig.setSatLoop ?_ _ _ _ _
    exact ⟨rfl, rfl, rfl, rfl, rfl, rfl, h7, rfl, h9, h10⟩
  · exact ⟨rfl, rfl, rfl, rfl, rfl, rfl, rfl, rfl, h9, h10⟩

lemma SameConfig.stepConfig {p q : Pid α n} (h : SameConfig p q) (o : PidOp α n)
    (ho : isConfig o = true) : SameConfig (p.step o).1 (q.step o).1 := by
  cases o with
  | updateParams r => exact h.updateParams r
  | setOutputSaturation u l b => exact h.setSatLoop u l b _
  | control dt e => simp [isConfig] at ho
  | controlD dt e de => simp [isConfig] at ho
  | reset => exact h
  | disableSat =>
    obtain ⟨h1, h2, h3, h4, h5, h6, h7, h8, h9, h10⟩ := h
    exact ⟨h1, h2, h3, h4, h5, h6, rfl, h8, h9, h10⟩
  | setGains =>
    obtain ⟨h1, h2, h3, h4, h5, h6, h7, h8, h9, h10⟩ := h
    exact ⟨rfl, rfl, rfl, h4, h5, h6, h7, h8, h9, h10⟩
  | setKp =>
    obtain ⟨h1, h2, h3, h4, h5, h6, h7, h8, h9, h10⟩ := h
    exact ⟨rfl, h2, h3, h4, h5, h6, h7, h8, h9, h10⟩
  | setKi =>
    obtain ⟨h1, h2, h3, h4, h5, h6, h7, h8, h9, h10⟩ := h
    exact ⟨h1, rfl, h3, h4, h5, h6, h7, h8, h9, h10⟩
  | setKd =>
    obtain ⟨h1, h2, h3, h4, h5, h6, h7, h8, h9, h10⟩ := h
    exact ⟨h1, h2, rfl, h4, h5, h6, h7, h8, h9, h10⟩
  | setAntiWindup =>
    obtain ⟨h1, h2, h3, h4, h5, h6, h7, h8, h9, h10⟩ := h
    exact ⟨h1, h2, h3, rfl, h5, h6, h7, h8, h9, h10⟩
  | setAlpha =>
    obtain ⟨h1, h2, h3, h4, h5, h6, h7, h8, h9, h10⟩ := h
    exact ⟨h1, h2, h3, h4, rfl, h6, h7, h8, h9, h10⟩
  | setResetIntegral =>
    obtain ⟨h1, h2, h3, h4, h5, h6, h7, h8, h9, h10⟩ := h
    exact ⟨h1, h2, h3, h4, h5, rfl, h7, h8, h9, h10⟩
  | setPropSat =>
    obtain ⟨h1, h2, h3, h4, h5, h6, h7, h8, h9, h10⟩ := h
    exact ⟨h1, h2, h3, h4, h5, h6, h7, rfl, h9, h10⟩

lemma SameConfig.stepControl (p : Pid α n) (o : PidOp α n) (ho : isConfig o = false) :
    SameConfig (p.step o).1 p := by
  cases o with
  | control dt e => exact computeControl_config p dt e
  | controlD dt e de => exact computeControlD_config p dt e de
  | _ => simp [isConfig] at ho

/-- Dropping the control calls from a history does not change the final configuration. -/
lemma SameConfig.run_filter (os : List (PidOp α n)) {p q : Pid α n} (h : SameConfig p q) :
    SameConfig (p.run os).1 (q.run (os.filter isConfig)).1 := by
  induction os generalizing p q with
  | nil => exact h
  | cons o os ih =>
    by_cases ho : isConfig o = true
    · rw [List.filter_cons_of_pos ho]; exact ih (h.stepConfig o ho)
    · rw [List.filter_cons_of_neg ho]
      exact ih ((SameConfig.stepControl p o (by simpa using ho)).trans h)

lemma run_config_firstRun (os : List (PidOp α n)) (p : Pid α n) (hp : p.firstRun = true) :
    (p.run (os.filter isConfig)).1.firstRun = true := by
  induction os generalizing p with
  | nil => exact hp
  | cons o os ih =>
    by_cases ho : isConfig o = true
    · rw [List.filter_cons_of_pos ho]
      apply ih
      cases o with
      | updateParams r => exact (updateParams_memory r p).1.trans hp
      | setOutputSaturation u l b => exact (setSatLoop_memory u l b _ p).1.trans hp
      | control dt e => simp [isConfig] at ho
      | controlD dt e de => simp [isConfig] at ho
      | reset => rfl
      | _ => exact hp
    · rw [List.filter_cons_of_neg ho]; exact ih p hp

/-- Every field a control call reads is fixed by `Rel`. -/
lemma Rel.control {p q : Pid α n} (h : Rel p q) (dt : α) (e : Vec n α) :
    Rel (p.computeControl dt e).1 (q.computeControl dt e).1 ∧
      (p.computeControl dt e).2 = (q.computeControl dt e).2 := by
  obtain ⟨⟨h1, h2, h3, h4, h5, h6, h7, h8, h9, h10⟩, hf, hm⟩ := h
  cases p; cases q
  simp only at h1 h2 h3 h4 h5 h6 h7 h8 h9 h10 hf hm
  subst h1 h2 h3 h4 h5 h6 h7 h8 h9 h10 hf
  rename_i f _ _ _ _ _ _ _ _ _ _ _ _ _ _ _ _
  cases f
  · obtain ⟨rfl, rfl, rfl⟩ := hm rfl
    simp [computeControl, firstRunInit, computeIntegral, computeDerivativeByDeriving, finishOutput,
      accumulate, computeDerivative, Rel, SameConfig]
  · simp [computeControl, firstRunInit, computeIntegral, computeDerivativeByDeriving, finishOutput,
      accumulate, computeDerivative, Rel, SameConfig]

lemma Rel.controlD {p q : Pid α n} (h : Rel p q) (dt : α) (e de : Vec n α) :
    Rel (p.computeControlD dt e de).1 (q.computeControlD dt e de).1 ∧
      (p.computeControlD dt e de).2 = (q.computeControlD dt e de).2 := by
  obtain ⟨⟨h1, h2, h3, h4, h5, h6, h7, h8, h9, h10⟩, hf, hm⟩ := h
  cases p; cases q
  simp only at h1 h2 h3 h4 h5 h6 h7 h8 h9 h10 hf hm
  subst h1 h2 h3 h4 h5 h6 h7 h8 h9 h10 hf
  rename_i f _ _ _ _ _ _ _ _ _ _ _ _ _ _ _ _
  cases f
  · obtain ⟨rfl, rfl, rfl⟩ := hm rfl
    simp [computeControlD, firstRunInit, computeIntegral, finishOutput,
      accumulate, computeDerivative, Rel, SameConfig]
  · simp [computeControlD, firstRunInit, computeIntegral, finishOutput,
      accumulate, computeDerivative, Rel, SameConfig]

lemma Rel.stepConfig {p q : Pid α n} (h : Rel p q) (o : PidOp α n)
    (ho : isConfig o = true) : Rel (p.step o).1 (q.step o).1 ∧ (p.step o).2 = (q.step o).2 := by
  refine ⟨⟨h.1.stepConfig o ho, ?_⟩, ?_⟩
  · obtain ⟨-, hf, hm⟩ := h
    cases o with
    | updateParams r =>
      obtain ⟨a1, a2, a3, a4⟩ := updateParams_memory r p
      obtain ⟨b1, b2, b3, b4⟩ := updateParams_memory r q
      simp only [Pid.step, a1, a2, a3, a4, b1, b2, b3, b4]
      exact ⟨hf, hm⟩
    | setOutputSaturation u l b =>
      obtain ⟨a1, a2, a3, a4⟩ := setSatLoop_memory u l b (List.finRange n) p
      obtain ⟨b1, b2, b3, b4⟩ := setSatLoop_memory u l b (List.finRange n) q
      simp only [Pid.step, setOutputSaturation, a1, a2, a3, a4, b1, b2, b3, b4]
      exact ⟨hf, hm⟩
    | reset => exact ⟨rfl, fun h => by simp [Pid.step, reset] at h⟩
    | control dt e => simp [isConfig] at ho
    | controlD dt e de => simp [isConfig] at ho
    | _ => exact ⟨hf, hm⟩
  · cases o <;> first | rfl | simp [isConfig] at ho

lemma Rel.step {p q : Pid α n} (h : Rel p q) (o : PidOp α n) :
    Rel (p.step o).1 (q.step o).1 ∧ (p.step o).2 = (q.step o).2 := by
  by_cases ho : isConfig o = true
  · exact h.stepConfig o ho
  · cases o with
    | control dt e =>
      obtain ⟨h1, h2⟩ := h.control dt e
      exact ⟨h1, by simp [Pid.step, h2]⟩
    | controlD dt e de =>
      obtain ⟨h1, h2⟩ := h.controlD dt e de
      exact ⟨h1, by simp [Pid.step, h2]⟩
    | _ => simp [isConfig] at ho

lemma Rel.run {p q : Pid α n} (h : Rel p q) (os : List (PidOp α n)) :
    Rel (p.run os).1 (q.run os).1 ∧ (p.run os).2 = (q.run os).2 := by
  induction os generalizing p q with
  | nil => exact ⟨h, rfl⟩
  | cons o os ih =>
    obtain ⟨h1, h2⟩ := h.step o
    obtain ⟨h3, h4⟩ := ih h1
    exact ⟨h3, by simp [Pid.run, h2, h4]⟩

end Pid

end Verif
