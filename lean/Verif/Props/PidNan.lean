import Verif.XReal
import Verif.Lemmas.Pid
import Verif.Model.Pid1d
import Mathlib.Tactic.NormNum

/-!
# C67: a zero time step and output limits, in arithmetic with NaN and infinities
-/

namespace Verif.Props

open Verif Flt XReal

variable {n : ℕ}

/-- The claim of C67: a control call with period zero returns an output within the enabled limits. -/
def C67_claim : Prop :=
  ∀ (n : ℕ) (q : PidParams XReal n) (e : Vec n XReal) (i : Fin n),
    (Pid.mk' q).satFlag = true → (∀ i, ∃ r, e i = fin r) →
      le ((Pid.mk' q).lower i) (((Pid.mk' q).computeControl (fin 0) e).2 i) = true ∧
      le (((Pid.mk' q).computeControl (fin 0) e).2 i) ((Pid.mk' q).upper i) = true

lemma saturate_nan (out u l : Vec n XReal) (b : Bool) (h : ∀ i, out i = nan) :
    ∀ i, Pid.saturateOutput out u l b i = nan := by
  cases b with
  | false => intro i; simp [Pid.saturateOutput, h i]
  | true =>
    have : ∀ (is : List (Fin n)) (s : Vec n XReal), (∀ i, s i = nan) →
        ∀ i, is.foldl (Pid.propSatStep u l) s i = nan := by
      intro is
      induction is with
      | nil => intro s hs; exact hs
      | cons j is ih =>
        intro s hs
        exact ih _ fun i => by simp [Pid.propSatStep, smulL, hs i]
    intro i
    simpa [Pid.saturateOutput] using this (List.finRange n) out h i

/-- A NaN in the filter state reaches the output on every axis of that NaN. -/
lemma control_nan (p : Pid XReal n) (dt : XReal) (e : Vec n XReal)
    (h : ∀ i, (p.computeControl dt e).1.filtered i = nan) :
    ∀ i, (p.computeControl dt e).2 i = nan := by
  have ho := Pid.computeControl_output p dt e
  have hd : ∀ i, (p.computeControl dt e).1.derivContrib i = nan := by
    intro i
    have : (p.computeControl dt e).1.derivContrib = mv p.kdMat (p.computeControl dt e).1.filtered := by
      unfold Pid.computeControl Pid.firstRunInit
      by_cases hf : p.firstRun = true <;>
        simp [hf, Pid.computeIntegral, Pid.computeDerivativeByDeriving, Pid.finishOutput,
          Pid.computeDerivative]
    rw [this]
    exact vsum_nan _ i (by simp [h i])
  intro i
  rw [Pid.computeControl_snd, ho]
  split
  · exact saturate_nan _ _ _ _ (fun j => by simp [vadd, hd j]) i
  · simp [vadd, hd i]

lemma control_filtered (p : Pid XReal n) (dt : XReal) (e : Vec n XReal) :
    (p.computeControl dt e).1.filtered =
      vadd (vmul p.alpha (sdiv (vsub e (p.firstRunInit e).propErr) dt))
        (vmul (vsub vones p.alpha) (p.firstRunInit e).filtered) := by
  unfold Pid.computeControl Pid.firstRunInit
  by_cases hf : p.firstRun = true <;>
    simp [hf, Pid.computeIntegral, Pid.computeDerivativeByDeriving, Pid.finishOutput]

/-- The first control call with period zero returns NaN on every axis: for every controller (any gains,
even all zero, any limits, limiting mode, anti-windup) and every finite error. -/
theorem C67_zero_dt_nan (p : Pid XReal n) (hf : p.firstRun = true) (e : Vec n XReal)
    (he : ∀ i, ∃ r, e i = fin r) : ∀ i, (p.computeControl (fin 0) e).2 i = nan := by
  apply control_nan
  intro i
  obtain ⟨r, hr⟩ := he i
  rw [control_filtered]
  simp [Pid.firstRunInit, hf, vadd, vmul, sdiv, vsub, hr]

/-- ... and so does every later control call, whatever the periods and errors, until a reset. -/
theorem C67_poisoned (p : Pid XReal n) (hf : p.firstRun = true) (e : Vec n XReal)
    (he : ∀ i, ∃ r, e i = fin r) (later : List (XReal × Vec n XReal)) :
    ∀ v ∈ (p.run (.control (fin 0) e :: later.map fun c => .control c.1 c.2)).2,
      ∃ w : Vec n XReal, v = some w ∧ ∀ i, w i = nan := by
  have hinv : ∀ (later : List (XReal × Vec n XReal)) (p : Pid XReal n), p.firstRun = false →
      (∀ i, p.filtered i = nan) → ∀ v ∈ (p.run (later.map fun c => .control c.1 c.2)).2,
        ∃ w : Vec n XReal, v = some w ∧ ∀ i, w i = nan := by
    intro later
    induction later with
    | nil => intro p _ _ v hv; simp [Pid.run] at hv
    | cons c cs ih =>
      intro p hp hn v hv
      have h1 : ∀ i, (p.computeControl c.1 c.2).1.filtered i = nan := by
        intro i
        rw [control_filtered]
        simp [Pid.firstRunInit, hp, vadd, vmul, hn i]
      have h2 : (p.computeControl c.1 c.2).1.firstRun = false := by
        unfold Pid.computeControl Pid.firstRunInit
        simp [hp, Pid.computeIntegral, Pid.computeDerivativeByDeriving, Pid.finishOutput]
      simp only [List.map_cons, Pid.run, Pid.step, List.mem_cons] at hv
      rcases hv with rfl | hv
      · exact ⟨_, rfl, control_nan p _ _ h1⟩
      · exact ih _ h2 h1 v hv
  intro v hv
  simp only [Pid.run, Pid.step, List.mem_cons] at hv
  rcases hv with rfl | hv
  · exact ⟨_, rfl, C67_zero_dt_nan p hf e he⟩
  · refine hinv later _ ?_ ?_ v hv
    · unfold Pid.computeControl Pid.firstRunInit
      simp [hf, Pid.computeIntegral, Pid.computeDerivativeByDeriving, Pid.finishOutput]
    · intro i
      obtain ⟨r, hr⟩ := he i
      rw [control_filtered]
      simp [Pid.firstRunInit, hf, vadd, vmul, sdiv, vsub, hr]

/-- The same for the 1-D PID, when the call is defined at all. -/
theorem C67_zero_dt_nan_1d (p : Pid1 XReal) (hf : p.firstRun = true) (e : ℝ) (r : Pid1 XReal × XReal)
    (h : p.computeControl (fin 0) (fin e) = some r) : r.2 = nan := by
  unfold Pid1.computeControl at h
  simp only [] at h
  split at h
  · simp at h
  · split at h
    · simp at h
    · rename_i acc _ t ht
      simp only [Option.some.injEq] at h
      subst h
      simp only [Pid1.finishOutput, Pid1.filter, Pid1.firstRunInit, hf, if_true, fin_sub, sub_self,
        zero_div_zero, mul_nan_right, add_nan_left, add_nan_right] at ht
      split at ht
      · simp only [stdClamp] at ht
        split at ht
        · simp at ht
        · simp [clampVal] at ht
          rw [← ht]
      · simp at ht
        rw [← ht]

/-- One axis, unit proportional gain, limits [-1, 1]. -/
noncomputable def q67 : PidParams XReal 1 :=
  { PidParams.default with kp := fun _ => fin 1, upper := fun _ => fin 1, lower := fun _ => fin (-1) }

lemma q67_sat : (Pid.mk' q67).satFlag = true := by
  have hok : ∀ i, Pid.AxisOk q67.upper q67.lower i := by
    intro i
    refine ⟨?_, ?_⟩
    · show Flt.lt (Flt.abs (fin 1 ⊟ fin (-1))) (fin _) = false
      rw [fin_sub]
      show Flt.lt (fin |1 - (-1)|) (fin _) = false
      rw [fin_lt]
      norm_num
    · show Flt.lt (fin 1) (fin (-1)) = false
      rw [fin_lt]; norm_num
  have hnz : Pid.nonZero q67.upper = true := by
    simp [Pid.nonZero, q67]
  simp only [Pid.mk', Pid.updateParams, hnz, Bool.or_true, if_true]
  rw [Pid.setOutputSaturation_ok _ _ _ _ hok]
  rfl

/-- **C67 is violated**: the output of a limited PID after a zero period is NaN, not within limits. -/
theorem C67_violated : ¬ C67_claim := by
  intro h
  have := (h 1 q67 (fun _ => fin 1) 0 q67_sat (fun _ => ⟨1, rfl⟩)).1
  rw [C67_zero_dt_nan (Pid.mk' q67) rfl _ (fun _ => ⟨1, rfl⟩)] at this
  simp at this

/-- Non-vacuity of the NaN theorems: a new controller is in its first run. -/
example : (Pid.mk' q67).firstRun = true ∧ ∀ i : Fin 1, ∃ r, (fun _ => fin 1 : Vec 1 XReal) i = fin r :=
  ⟨rfl, fun _ => ⟨1, rfl⟩⟩

/-- **C67 (partial).** With per-axis limiting enabled, in arithmetic with infinities and NaN and for any
period (zero, negative, infinite or NaN): on every axis where the unlimited output (the sum of the
contributions the getters report) and the limits are not NaN, the output is within the limits,
infinities included.
Missing: axes where the unlimited output is NaN; there the output is NaN. -/
theorem C67_within_limits_partial (q : PidParams XReal n) (os : List (PidOp XReal n)) (dt : XReal)
    (e : Vec n XReal) (i : Fin n) :
    let p := ((Pid.mk' q).run os).1
    let r := (p.computeControl dt e).1
    p.satFlag = true → p.propSat = false → p.upper i ≠ nan → p.lower i ≠ nan →
    ((r.propContrib i ⊞ r.intContrib i) ⊞ r.derivContrib i ≠ nan →
      le (p.lower i) ((p.computeControl dt e).2 i) = true ∧
      le ((p.computeControl dt e).2 i) (p.upper i) = true) ∧
    ((r.propContrib i ⊞ r.intContrib i) ⊞ r.derivContrib i = nan →
      (p.computeControl dt e).2 i = nan) := by
  intro p r hs hp hu hl
  have hlim := (Pid.LimitsOk.run q os hs i).2
  have ho := Pid.computeControl_output p dt e
  rw [Pid.computeControl_snd, ho]
  have key : ∀ x : XReal,
      let y := if Flt.lt (p.upper i) x = true then p.upper i
        else if Flt.lt x (p.lower i) = true then p.lower i else x
      (x ≠ nan → le (p.lower i) y = true ∧ le y (p.upper i) = true) ∧ (x = nan → y = nan) := by
    intro x
    constructor
    · intro hx0
      by_cases h1 : Flt.lt (p.upper i) x = true
      · rw [if_pos h1]; exact ⟨le_of_not_lt hu hl hlim, le_refl hu⟩
      · rw [if_neg h1]
        by_cases h2 : Flt.lt x (p.lower i) = true
        · rw [if_pos h2]; exact ⟨le_refl hl, le_of_not_lt hu hl hlim⟩
        · rw [if_neg h2]
          exact ⟨le_of_not_lt hx0 hl (by simpa using h2), le_of_not_lt hu hx0 (by simpa using h1)⟩
    · intro hx0; subst hx0; simp
  simp only [hs, if_true, hp]
  exact key _

/-- Non-vacuity: a call with a proper period on the limited controller `q67` has a finite sum. -/
example : let p := ((Pid.mk' q67).run []).1
    let r := (p.computeControl (fin 1) (fun _ => fin 5)).1
    p.satFlag = true ∧ p.propSat = false ∧ p.upper 0 ≠ nan ∧ p.lower 0 ≠ nan ∧
    (r.propContrib 0 ⊞ r.intContrib 0) ⊞ r.derivContrib 0 ≠ nan := by
  intro p r
  have hok : Pid.mk' q67 = { (Pid.init : Pid XReal 1) with
      kpMat := mdiag q67.kp, kiMat := mdiag q67.ki, kdMat := mdiag q67.kd, alpha := q67.alpha,
      antiwindup := q67.antiwindup, upper := q67.upper, lower := q67.lower, satFlag := true } := by
    have hok : ∀ i, Pid.AxisOk q67.upper q67.lower i := by
      intro i
      refine ⟨?_, ?_⟩
      · show Flt.lt (Flt.abs (fin 1 ⊟ fin (-1))) (fin _) = false
        rw [fin_sub]
        show Flt.lt (fin |1 - (-1)|) (fin _) = false
        rw [fin_lt]
        norm_num
      · show Flt.lt (fin 1) (fin (-1)) = false
        rw [fin_lt]; norm_num
    have hnz : Pid.nonZero q67.upper = true := by simp [Pid.nonZero, q67]
    simp only [Pid.mk', Pid.updateParams, hnz, Bool.or_true, if_true]
    rw [Pid.setOutputSaturation_ok _ _ _ _ hok]
    rfl
  refine ⟨q67_sat, ?_, ?_, ?_, ?_⟩
  · simp [p, Pid.run, hok, Pid.init]
  · simp only [p, Pid.run, hok]; simp [q67]
  · simp only [p, Pid.run, hok]; simp [q67]
  · have hd : ((1 : ℝ) ≠ 0) := one_ne_zero
    have hz : ∀ i : Fin 1, i = 0 := fun i => by omega
    simp only [r, p, Pid.run, hok]
    simp [Pid.computeControl, Pid.firstRunInit, Pid.init, Pid.computeIntegral,
      Pid.computeDerivativeByDeriving, Pid.finishOutput, Pid.computeDerivative, mv, mdiag, q67,
      PidParams.default, vzero, vones, vadd, vmul, vsub, sdiv, fin_div _ hd, Pid.accumulate, smulR,
      Pid.nonZero, Pid.resetAxis, vsum_fin, hz]

end Verif.Props
