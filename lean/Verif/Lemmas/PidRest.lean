import Verif.Lemmas.PidReal

/-!
# A PID with zero error and no history returns zero
-/

namespace Verif.Pid

open Flt

variable {n : ℕ}

/-- No history: newly reset, or only zeros remembered. -/
def Resting (p : Pid ℝ n) : Prop :=
  p.firstRun = true ∨ (p.integral = 0 ∧ p.filtered = 0 ∧ p.propErr = 0)

/-- The limits allow zero output. -/
def Neutral (p : Pid ℝ n) : Prop :=
  (p.satFlag = true → ∀ i, p.lower i ≤ 0 ∧ 0 ≤ p.upper i) ∧ ∀ i, 0 ≤ p.antiwindup i

lemma saturateOutput_zero (u l : Vec n ℝ) (prop : Bool) (h : ∀ i, l i ≤ 0 ∧ 0 ≤ u i) :
    saturateOutput 0 u l prop = 0 := by
  unfold saturateOutput
  cases prop
  · ext i
    simp [flt, not_lt.2 (h i).1, not_lt.2 (h i).2]
  · have : ∀ is : List (Fin n), is.foldl (propSatStep u l) 0 = 0 := by
      intro is
      induction is with
      | nil => rfl
      | cons j js ih =>
        have : propSatStep u l 0 j = 0 := by simp [propSatStep, flt]
        rw [List.foldl_cons, this, ih]
    simp [this]

lemma firstRunInit_resting {p : Pid ℝ n} (h : p.Resting) :
    (p.firstRunInit 0).integral = 0 ∧ (p.firstRunInit 0).filtered = 0 ∧ (p.firstRunInit 0).propErr = 0 := by
  unfold firstRunInit
  split
  · simp [flt]
  · rename_i hf
    exact h.resolve_left hf

lemma firstRunInit_config (p : Pid ℝ n) (e : Vec n ℝ) :
    (p.firstRunInit e).antiwindup = p.antiwindup := by
  unfold firstRunInit
  split <;> rfl

lemma accumulate_zero {p : Pid ℝ n} (hi : p.integral = 0) (ha : ∀ i, 0 ≤ p.antiwindup i) (dt : ℝ) :
    p.accumulate dt 0 = 0 := by
  have h0 : (fun j => resetAxis p.resetIntegral (p.integral j) (p.antiwindup j) ((0 : Vec n ℝ) j)) = 0 := by
    ext j
    simp [resetAxis, hi, flt]
  unfold accumulate
  simp only [h0, flt, smul_zero, add_zero]
  split
  · exact saturateOutput_zero _ _ _ fun i => ⟨by simpa using ha i, ha i⟩
  · rfl

/-- Zero error: zero output, still no history, same configuration. -/
lemma computeControl_rest {p : Pid ℝ n} (h : p.Resting) (hn : p.Neutral) (dt : ℝ) :
    (p.computeControl dt 0).2 = 0 ∧ (p.computeControl dt 0).1.Resting ∧ (p.computeControl dt 0).1.Neutral := by
  obtain ⟨h1, h2, h3⟩ := firstRunInit_resting h
  obtain ⟨f0, f1, f2, f3, f4, f5, f6⟩ := computeControl_fields p dt 0
  have hacc : (p.computeControl dt 0).1.integral = 0 := by
    rw [f1]
    exact accumulate_zero h1 (by rw [firstRunInit_config]; exact hn.2) dt
  have hfil : (p.computeControl dt 0).1.filtered = 0 := by
    rw [f3, h2, h3]; simp
  have hc := computeControl_config p dt 0
  have ho := computeControl_output p dt 0
  have hn' : (p.computeControl dt 0).1.Neutral := by
    unfold SameConfig at hc
    unfold Neutral
    simp only [hc]
    exact hn
  refine ⟨?_, .inr ⟨hacc, hfil, f2⟩, hn'⟩
  rw [computeControl_snd, ho, f4, f5, f6, hacc, hfil]
  simp only [flt, Matrix.mulVec_zero, add_zero]
  split
  · rename_i h
    exact saturateOutput_zero _ _ _ (hn.1 h)
  · rfl

lemma default_rest : (mk' (PidParams.default : PidParams ℝ n)).Resting := .inl rfl

lemma default_neutral : (mk' (PidParams.default : PidParams ℝ n)).Neutral := by
  have h : nonZero (vzero : Vec n ℝ) = false := by simp [nonZero, vzero, flt]
  constructor
  · intro hs
    simp [mk', updateParams, reset, PidParams.default, h, disableSat] at hs
  · intro i
    simp only [mk', updateParams, reset, PidParams.default, h, disableSat, setPropSat, setResetIntegral,
      setAlpha, setAntiWindup, Bool.or_self]
    simp [flt]

end Verif.Pid
