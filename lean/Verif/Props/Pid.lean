import Verif.Lemmas.PidReal

/-!
# Properties of the vector PID (C55–C64)
-/

namespace Verif.Props

open Verif Flt Spec

/-! ## C55 -/

/-- **C55.** In every history from the constructor, whenever saturation is enabled and proportional
mode off, no component of any returned output is above its upper or below its lower limit.  Any
arithmetic. -/
theorem C55_output_limits {α : Type} [Flt α] [LawfulFlt α] {n : ℕ} (q : PidParams α n)
    (os : List (PidOp α n)) (o : PidOp α n) (out : Vec n α) :
    let p := ((Pid.mk' q).run os).1
    p.satFlag = true → p.propSat = false → (p.step o).2 = some out →
      ∀ i, lt (p.upper i) (out i) = false ∧ lt (out i) (p.lower i) = false := by
  intro p hs hp ho i
  have hlim := (Pid.LimitsOk.run q os hs i).2
  have key : ∀ v : Vec n α, Pid.saturateOutput v p.upper p.lower p.propSat = out →
      lt (p.upper i) (out i) = false ∧ lt (out i) (p.lower i) = false := by
    rintro v rfl
    simp only [Pid.saturateOutput, hp, Bool.not_false, if_true]
    by_cases h1 : lt (p.upper i) (v i) = true
    · rw [if_pos h1]; exact ⟨LawfulFlt.lt_irrefl _, hlim⟩
    · rw [if_neg h1]
      by_cases h2 : lt (v i) (p.lower i) = true
      · rw [if_pos h2]; exact ⟨hlim, LawfulFlt.lt_irrefl _⟩
      · rw [if_neg h2]; exact ⟨by simpa using h1, by simpa using h2⟩
  cases o with
  | control dt e =>
    simp only [Pid.step, Option.some.injEq] at ho
    rw [Pid.computeControl_snd, Pid.computeControl_output, hs, if_pos rfl] at ho
    exact key _ ho
  | controlD dt e de =>
    simp only [Pid.step, Option.some.injEq] at ho
    rw [Pid.computeControlD_snd, Pid.computeControlD_output, hs, if_pos rfl] at ho
    exact key _ ho
  | _ => simp [Pid.step] at ho

/-- C55 over the reals: the output lies in the closed interval. -/
theorem C55_output_limits_real {n : ℕ} (q : PidParams ℝ n) (os : List (PidOp ℝ n)) (o : PidOp ℝ n)
    (out : Vec n ℝ) (hs : ((Pid.mk' q).run os).1.satFlag = true)
    (hp : ((Pid.mk' q).run os).1.propSat = false)
    (ho : (((Pid.mk' q).run os).1.step o).2 = some out) (i : Fin n) :
    ((Pid.mk' q).run os).1.lower i ≤ out i ∧ out i ≤ ((Pid.mk' q).run os).1.upper i := by
  have := C55_output_limits q os o out hs hp ho i
  simp only [flt, decide_eq_false_iff_not, not_lt] at this
  exact ⟨this.2, this.1⟩

/-- A two-axis configuration with enabled limits. -/
noncomputable def q2 : PidParams ℝ 2 :=
  { PidParams.default with kp := ![5, 5], upper := ![1, 2], lower := ![-1, -2] }

lemma eps_small : (Flt.eps : ℝ) ≤ 1 / 1000 := by rw [eps_real]; norm_num

lemma q2_mk : Pid.mk' q2 = { (Pid.init : Pid ℝ 2) with
    kpMat := mdiag ![5, 5], kiMat := mdiag vzero, kdMat := mdiag vzero, alpha := vones,
    satFlag := true, upper := ![1, 2], lower := ![-1, -2] } := by
  have hok : ∀ i, Pid.AxisOk (![1, 2] : Vec 2 ℝ) ![-1, -2] i := by
    intro i
    have := eps_small
    rw [Pid.axisOk_real]
    fin_cases i <;> simp <;> linarith
  have hnz : Pid.nonZero (![1, 2] : Vec 2 ℝ) = true := by
    simp [Pid.nonZero, flt]
  simp only [Pid.mk', Pid.updateParams, q2, PidParams.default, hnz, Bool.or_true, if_true]
  rw [Pid.setOutputSaturation_ok _ _ _ _ hok]
  rfl

/-- The hypotheses of C55 are met by a real configuration, and the limit is active: error `(1, 0)`
with gain 5 gives output exactly 1, not 5. -/
example : ((Pid.mk' q2).run []).1.satFlag = true ∧ ((Pid.mk' q2).run []).1.propSat = false ∧
    (Pid.mk' q2).step (.control 1 ![1, 0]) = ((Pid.mk' q2).computeControl 1 ![1, 0]).map id some ∧
    ((Pid.mk' q2).computeControl 1 ![1, 0]).2 0 = 1 := by
  refine ⟨?_, ?_, rfl, ?_⟩
  · simp [Pid.run, q2_mk]
  · simp [Pid.run, q2_mk, Pid.init]
  · rw [Pid.computeControl_snd, Pid.computeControl_output]
    obtain ⟨-, -, -, -, h1, h2, h3⟩ := Pid.computeControl_fields (Pid.mk' q2) 1 ![1, 0]
    rw [h1, h2, h3]
    simp [q2_mk, Pid.saturateOutput, Pid.init, flt, Matrix.mulVec_diagonal]

/-! ## C56 -/

/-- The sum of the three contributions reported by the getters after a call. -/
def unsaturated {n : ℕ} (p : Pid ℝ n) : Vec n ℝ := fun i =>
  p.propContrib i + p.intContrib i + p.derivContrib i

/-- The full claim of C56. -/
def C56_claim : Prop :=
  ∀ (n : ℕ) (q : PidParams ℝ n) (os : List (PidOp ℝ n)) (o : PidOp ℝ n) (out : Vec n ℝ),
    let p := ((Pid.mk' q).run os).1
    p.satFlag = true → p.propSat = true → (p.step o).2 = some out →
      ∃ c : ℝ, 0 ≤ c ∧ c ≤ 1 ∧ (∀ i, out i = c * unsaturated (p.step o).1 i) ∧
        ∀ i, p.lower i ≤ out i ∧ out i ≤ p.upper i

lemma prop_output {n : ℕ} (p : Pid ℝ n) (o : PidOp ℝ n) (out : Vec n ℝ)
    (hs : p.satFlag = true) (hp : p.propSat = true) (ho : (p.step o).2 = some out) :
    out = (List.finRange n).foldl (Pid.propSatStep p.upper p.lower) (unsaturated (p.step o).1) := by
  cases o with
  | control dt e =>
    simp only [Pid.step, Option.some.injEq] at ho
    rw [Pid.computeControl_snd, Pid.computeControl_output, hs, if_pos rfl] at ho
    rw [hp] at ho
    exact ho.symm
  | controlD dt e de =>
    simp only [Pid.step, Option.some.injEq] at ho
    rw [Pid.computeControlD_snd, Pid.computeControlD_output, hs, if_pos rfl] at ho
    rw [hp] at ho
    exact ho.symm
  | _ => simp [Pid.step] at ho

/-- **C56 (partial).** With limits that contain zero on every axis the proportionally limited output
is `c` times the unlimited one with one common `c ∈ [0, 1]`, and lies within the limits.
Missing: limits that exclude zero, see `C56_violated`. -/
theorem C56_proportional_partial {n : ℕ} (q : PidParams ℝ n) (os : List (PidOp ℝ n)) (o : PidOp ℝ n)
    (out : Vec n ℝ) :
    let p := ((Pid.mk' q).run os).1
    p.satFlag = true → p.propSat = true → (∀ i, p.lower i ≤ 0 ∧ 0 ≤ p.upper i) →
    (p.step o).2 = some out →
      ∃ c : ℝ, 0 ≤ c ∧ c ≤ 1 ∧ (∀ i, out i = c * unsaturated (p.step o).1 i) ∧
        ∀ i, p.lower i ≤ out i ∧ out i ≤ p.upper i := by
  intro p hs hp hz ho
  rw [prop_output p o out hs hp ho]
  obtain ⟨c, h0, h1, hc, hj⟩ := Pid.foldl_propSat p.upper p.lower (fun j => (hz j).2)
    (fun j => (hz j).1) (List.finRange n) (unsaturated (p.step o).1)
  refine ⟨c, h0, h1, fun i => by rw [hc]; simp, fun i => ?_⟩
  rw [hc]
  simpa using hj i (.inl (List.mem_finRange i))

/-- One axis, accepted limits `[1, 2]`, proportional mode, gain 1. -/
noncomputable def q56 : PidParams ℝ 1 :=
  { PidParams.default with kp := ![1], upper := ![2], lower := ![1], propSat := true }

lemma q56_mk : Pid.mk' q56 = { (Pid.init : Pid ℝ 1) with
    kpMat := mdiag ![1], kiMat := mdiag vzero, kdMat := mdiag vzero, alpha := vones,
    satFlag := true, propSat := true, upper := ![2], lower := ![1] } := by
  have hok : ∀ i, Pid.AxisOk (![2] : Vec 1 ℝ) ![1] i := by
    intro i
    have := eps_small
    rw [Pid.axisOk_real]
    fin_cases i; simp; linarith
  have hnz : Pid.nonZero (![2] : Vec 1 ℝ) = true := by
    simp [Pid.nonZero, flt]
  simp only [Pid.mk', Pid.updateParams, q56, PidParams.default, hnz, Bool.or_true, if_true]
  rw [Pid.setOutputSaturation_ok _ _ _ _ hok]
  rfl

/-- **C56 is violated**: limits `[1, 2]` are accepted, error `-1/2` gives output `+1`: the factor is
`-2`, the direction is reversed. -/
theorem C56_violated : ¬ C56_claim := by
  intro h
  obtain ⟨c, h0, h1, hc, -⟩ := h 1 q56 [] (.control 1 ![-1/2])
    ((Pid.mk' q56).computeControl 1 ![-1/2]).2 (by simp [Pid.run, q56_mk]) (by simp [Pid.run, q56_mk]) rfl
  have hout : ((Pid.mk' q56).computeControl 1 ![-1/2]).2 0 = 1 ∧
      unsaturated ((Pid.mk' q56).computeControl 1 ![-1/2]).1 0 = -1/2 := by
    obtain ⟨-, -, -, -, e1, e2, e3⟩ := Pid.computeControl_fields (Pid.mk' q56) 1 ![-1/2]
    rw [Pid.computeControl_snd, Pid.computeControl_output, unsaturated, e1, e2, e3]
    simp [q56_mk, Pid.saturateOutput, Pid.init, flt, Matrix.mulVec_diagonal, Pid.propSatStep,
      List.finRange_succ]
    norm_num [Matrix.mulVec_diagonal]
  have := hc 0
  rw [hout.1, Pid.run] at this
  simp only [Pid.step, hout.2] at this
  linarith

/-- Non-vacuity of the partial theorem: proportional limits `[-1, 2]` containing zero. -/
example : let p := (((Pid.mk' q56).run [.setOutputSaturation ![2] ![-1] true]).1)
    p.satFlag = true ∧ p.propSat = true ∧ ∀ i, p.lower i ≤ 0 ∧ 0 ≤ p.upper i := by
  have hok : ∀ i, Pid.AxisOk (![2] : Vec 1 ℝ) ![-1] i := by
    intro i
    have := eps_small
    rw [Pid.axisOk_real]
    fin_cases i; simp; linarith
  simp only [Pid.run, Pid.step, Pid.setOutputSaturation_ok _ _ _ _ hok]
  refine ⟨trivial, trivial, fun i => ?_⟩
  fin_cases i; norm_num

/-! ## C57 -/

/-- **C57.** At any point of any history, with a positive anti-windup constant on every axis, a control
call leaves an integral contribution of magnitude at most `|Ki| * antiwindup` on each axis. -/
theorem C57_integral_bounded {n : ℕ} (q : PidParams ℝ n) (os : List (PidOp ℝ n)) (o : PidOp ℝ n)
    (out : Vec n ℝ) :
    let p := ((Pid.mk' q).run os).1
    (∀ i, 0 < p.antiwindup i) → (p.step o).2 = some out →
      ∀ i, |(p.step o).1.intContrib i| ≤ |p.getParams.ki i| * p.antiwindup i := by
  intro p hpos ho i
  obtain ⟨kp, ki, kd, -, hki, -⟩ := Pid.Diag.run q os
  have hk : p.getParams.ki i = ki i := by
    have : p.kiMat = mdiag ki := hki
    simp [Pid.getParams, mdiagonal, this, mdiag]
  have hinit : ∀ e, (∀ i, 0 < (p.firstRunInit e).antiwindup i) ∧
      (p.firstRunInit e).antiwindup = p.antiwindup := by
    intro e; unfold Pid.firstRunInit; split <;> exact ⟨hpos, rfl⟩
  rw [hk]
  cases o with
  | control dt e =>
    obtain ⟨-, h1, -, -, -, h2, -⟩ := Pid.computeControl_fields p dt e
    simp only [Pid.step, h2, h1]
    rw [show p.kiMat = mdiag ki from hki, Pid.diag_mv, abs_mul]
    have := Pid.accumulate_abs_le _ (hinit e).1 dt e i
    rw [(hinit e).2] at this
    gcongr
  | controlD dt e de =>
    obtain ⟨-, h1, -, -, -, h2, -⟩ := Pid.computeControlD_fields p dt e de
    simp only [Pid.step, h2, h1]
    rw [show p.kiMat = mdiag ki from hki, Pid.diag_mv, abs_mul]
    have := Pid.accumulate_abs_le _ (hinit e).1 dt e i
    rw [(hinit e).2] at this
    gcongr
  | _ => simp [Pid.step] at ho

/-- Non-vacuity: a history that configures a positive constant. -/
example : ∀ i, 0 < (((Pid.mk' q2).run [.setAntiWindup ![3, 4]]).1).antiwindup i := by
  intro i; fin_cases i <;> simp [Pid.run, Pid.step, Pid.setAntiWindup]

/-! ## C58 -/

/-- **C58.** After any history, `reset_controller` makes the PID return, for every later sequence of
calls, exactly the values returned by a newly constructed PID that received the same configuration
calls but never computed anything.  Any arithmetic. -/
theorem C58_reset_forgets {α : Type} [Flt α] {n : ℕ} (q : PidParams α n) (os later : List (PidOp α n)) :
    (((Pid.mk' q).run os).1.reset.run later).2 =
      (((Pid.mk' q).run (os.filter isConfig)).1.run later).2 := by
  refine (Pid.Rel.run ⟨?_, ?_, ?_⟩ later).2
  · exact Pid.SameConfig.run_filter os (Pid.SameConfig.refl _)
  · rw [Pid.run_config_firstRun os _ rfl]; rfl
  · intro h; simp [Pid.reset] at h

/-- A history on which the memory matters: without the reset the second output differs. -/
example : let p : Pid ℝ 1 := Pid.mk' { PidParams.default with ki := ![1] }
    (p.run [.control 1 ![1], .reset, .control 1 ![1]]).2.getLast? ≠
      (p.run [.control 1 ![1], .control 1 ![1]]).2.getLast? := by
  have hm : Pid.mk' { (PidParams.default : PidParams ℝ 1) with ki := ![1] } =
      { (Pid.init : Pid ℝ 1) with
        kpMat := mdiag vzero, kiMat := mdiag ![1], kdMat := mdiag vzero, alpha := vones } := by
    simp [Pid.mk', Pid.updateParams, PidParams.default, Pid.nonZero, flt]
    simp [Pid.setGains, Pid.setAntiWindup, Pid.setAlpha, Pid.setResetIntegral, Pid.setPropSat,
      Pid.disableSat, Pid.reset, Pid.init, flt]
  intro p
  simp only [p, hm]
  simp [Pid.run, Pid.step, Pid.computeControl, Pid.firstRunInit, Pid.init, Pid.computeIntegral,
    Pid.computeDerivativeByDeriving, Pid.computeDerivative, Pid.finishOutput, Pid.accumulate,
    Pid.resetAxis, Pid.nonZero, Pid.reset, flt]
  intro h
  have := congrFun h 0
  simp [Matrix.mulVec_diagonal] at this

/-! ## C59 -/

/-- **C59.** The first control call after `reset_controller` (whatever happened before) and the first
control call after construction and any configuration have zero derivative contribution. -/
theorem C59_no_derivative_kick {n : ℕ} (q : PidParams ℝ n) (os : List (PidOp ℝ n)) (dt : ℝ)
    (_hdt : dt ≠ 0) (e : Vec n ℝ) :
    (((Pid.mk' q).run os).1.reset.computeControl dt e).1.derivContrib = (fun _ => 0) ∧
    (((Pid.mk' q).run (os.filter isConfig)).1.computeControl dt e).1.derivContrib = (fun _ => 0) := by
  have key : ∀ p : Pid ℝ n, p.firstRun = true →
      (p.computeControl dt e).1.derivContrib = fun _ => 0 := by
    intro p hp
    obtain ⟨-, -, -, h1, -, -, h2⟩ := Pid.computeControl_fields p dt e
    rw [h2, h1]
    simp only [Pid.firstRunInit, hp, if_true, flt]
    simp
    rfl
  exact ⟨key _ rfl, key _ (Pid.run_config_firstRun os _ rfl)⟩

/-- The derivative contribution is not identically zero: the second call of this history has one. -/
example : ((Pid.mk' { (PidParams.default : PidParams ℝ 1) with kd := ![1] }).run
    [.control 1 ![1], .control 1 ![3]]).1.derivContrib 0 = 2 := by
  have hm : Pid.mk' { (PidParams.default : PidParams ℝ 1) with kd := ![1] } =
      { (Pid.init : Pid ℝ 1) with
        kpMat := mdiag vzero, kiMat := mdiag vzero, kdMat := mdiag ![1], alpha := vones } := by
    simp [Pid.mk', Pid.updateParams, PidParams.default, Pid.nonZero, flt]
    simp [Pid.setGains, Pid.setAntiWindup, Pid.setAlpha, Pid.setResetIntegral, Pid.setPropSat,
      Pid.disableSat, Pid.reset, Pid.init, flt]
  simp only [hm]
  simp [Pid.run, Pid.step, Pid.computeControl, Pid.firstRunInit, Pid.init, Pid.computeIntegral,
    Pid.computeDerivativeByDeriving, Pid.computeDerivative, Pid.finishOutput, flt,
    Matrix.mulVec_diagonal]
  norm_num

/-! ## C60 -/

lemma nonZero_zero {n : ℕ} : Pid.nonZero (fun _ => 0 : Vec n ℝ) = false := by
  simp [Pid.nonZero, flt]

/-- State after `k + 1` unlimited calls. -/
lemma textbook_state {n : ℕ} (p : Pid ℝ n) (hf : p.firstRun = true) (hs : p.satFlag = false)
    (haw : p.antiwindup = fun _ => 0) (hr : p.resetIntegral = false) (e : ℕ → Vec n ℝ) (dt : ℕ → ℝ)
    (k : ℕ) :
    let r := (p.run (calls e dt (k + 1))).1
    Pid.SameConfig r p ∧ r.firstRun = false ∧ r.propErr = e k ∧
    (r.integral = fun i => ∑ j ∈ Finset.range (k + 1), e j i * dt j) ∧
    r.filtered = filteredRate p.alpha e dt k ∧
    r.output = fun i => mv p.kpMat (e k) i + mv p.kiMat r.integral i + mv p.kdMat r.filtered i := by
  induction k with
  | zero =>
    simp only [calls, zero_add, List.range_one, List.map_cons, List.map_nil, Pid.run, Pid.step]
    obtain ⟨h1, h2, h3, h4, h5, h6, h7⟩ := Pid.computeControl_fields p (dt 0) (e 0)
    refine ⟨Pid.computeControl_config p _ _, h1, h3, ?_, ?_, ?_⟩
    · rw [h2]
      simp only [Pid.firstRunInit, hf, if_true, Pid.accumulate, haw, nonZero_zero, Pid.resetAxis, hr]
      ext i; simp [flt, mul_comm]
    · rw [h4]
      simp only [Pid.firstRunInit, hf, if_true, flt]
      ext i; simp [filteredRate]
    · rw [Pid.computeControl_output, hs, h5, h6, h7]
      rfl
  | succ k ih =>
    rw [Pid.calls_succ, Pid.run_append]
    obtain ⟨hc, i1, i2, i3, i4, -⟩ := ih
    generalize hr' : (p.run (calls e dt (k + 1))).1 = r at *
    simp only [Pid.run, Pid.step]
    obtain ⟨h1, h2, h3, h4, h5, h6, h7⟩ := Pid.computeControl_fields r (dt (k + 1)) (e (k + 1))
    have hc' := hc
    obtain ⟨c1, c2, c3, c4, c5, c6, c7, c8, c9, c10⟩ := hc'
    have hinit : r.firstRunInit (e (k + 1)) = r := by simp [Pid.firstRunInit, i1]
    rw [hinit] at h2 h4
    refine ⟨(Pid.computeControl_config r _ _).trans hc, h1, h3, ?_, ?_, ?_⟩
    · rw [h2]
      simp only [Pid.accumulate, c4, c6, haw, hr, nonZero_zero, Pid.resetAxis, i3]
      ext i
      rw [Finset.sum_range_succ _ (k + 1)]
      simp [flt, mul_comm]
    · rw [h4, i4, i2, c5]
      ext i
      simp [filteredRate, rate, div_eq_inv_mul]
      ring
    · rw [Pid.computeControl_output, c7, hs, h5, h6, h7, c1, c2, c3]
      rfl

/-- **C60.** Without limits, anti-windup and integral reset, the outputs of any sequence of control
calls on a new PID are those of the textbook law. -/
theorem C60_textbook_law {n : ℕ} (q : PidParams ℝ n) (hu : ∀ i, q.upper i = 0)
    (hl : ∀ i, q.lower i = 0) (haw : ∀ i, q.antiwindup i = 0) (hr : q.resetIntegral = false)
    (e : ℕ → Vec n ℝ) (dt : ℕ → ℝ) (_hdt : ∀ k, dt k ≠ 0) (k : ℕ) :
    ((Pid.mk' q).run (calls e dt k)).2 =
      (List.range k).map fun j => some fun i => pidLaw q.alpha e dt q.kp q.ki q.kd j i := by
  have hu' : q.upper = fun _ => 0 := funext hu
  have hl' : q.lower = fun _ => 0 := funext hl
  have haw' : q.antiwindup = fun _ => 0 := funext haw
  have hmk : Pid.mk' q = { (Pid.init : Pid ℝ n) with
      kpMat := mdiag q.kp, kiMat := mdiag q.ki, kdMat := mdiag q.kd, antiwindup := q.antiwindup,
      alpha := q.alpha, resetIntegral := q.resetIntegral, propSat := q.propSat } := by
    simp only [Pid.mk', Pid.updateParams, hu', hl', nonZero_zero]
    simp [Pid.setGains, Pid.setAntiWindup, Pid.setAlpha, Pid.setResetIntegral, Pid.setPropSat,
      Pid.disableSat, Pid.reset, Pid.init]
  induction k with
  | zero => rfl
  | succ k ih =>
    have hst := textbook_state (Pid.mk' q) rfl (by rw [hmk]; rfl) (by rw [hmk]; exact haw')
      (by rw [hmk]; exact hr) e dt k
    obtain ⟨-, -, -, h3, h4, h5⟩ := hst
    rw [List.range_succ, List.map_append, ← ih, Pid.calls_succ, Pid.run_append]
    rw [Pid.calls_succ, Pid.run_append] at h3 h4 h5
    have hout : ∀ p : Pid ℝ n, (p.run [.control (dt k) (e k)]).2 =
        [some (p.run [.control (dt k) (e k)]).1.output] := fun p => rfl
    rw [hout, h5, h3, h4, hmk]
    simp only [Pid.diag_mv, List.map_cons, List.map_nil, pidLaw]

/-- Non-vacuity and a sanity check of the specification: PI control of errors `1, 1, 1, …` at
period 2 gives `3·1 + 1·(k+1)·2` at sample `k`. -/
example : ∃ q : PidParams ℝ 1, (∀ i, q.upper i = 0) ∧ (∀ i, q.lower i = 0) ∧
    (∀ i, q.antiwindup i = 0) ∧ q.resetIntegral = false ∧
    ∀ k, pidLaw q.alpha (fun _ => ![1]) (fun _ => 2) q.kp q.ki q.kd k 0 = 3 + (k + 1) * 2 := by
  refine ⟨⟨![3], ![1], ![0], ![0], ![1], false, false, ![0], ![0]⟩, ?_, ?_, ?_, rfl, ?_⟩
  · intro i; fin_cases i; rfl
  · intro i; fin_cases i; rfl
  · intro i; fin_cases i; rfl
  · intro k; simp [pidLaw]

/-! ## C61 -/

/-- Filter state after `k + 1` calls on a just reset PID, whatever its configuration. -/
lemma filter_state {n : ℕ} (p : Pid ℝ n) (hf : p.firstRun = true) (e : ℕ → Vec n ℝ) (dt : ℕ → ℝ)
    (k : ℕ) :
    let r := (p.run (calls e dt (k + 1))).1
    Pid.SameConfig r p ∧ r.firstRun = false ∧ r.propErr = e k ∧
    r.filtered = filteredRate p.alpha e dt k ∧ r.derivContrib = mv p.kdMat r.filtered := by
  induction k with
  | zero =>
    simp only [calls, zero_add, List.range_one, List.map_cons, List.map_nil, Pid.run, Pid.step]
    obtain ⟨h1, h2, h3, h4, h5, h6, h7⟩ := Pid.computeControl_fields p (dt 0) (e 0)
    refine ⟨Pid.computeControl_config p _ _, h1, h3, ?_, h7⟩
    rw [h4]
    simp only [Pid.firstRunInit, hf, if_true, flt]
    ext i; simp [filteredRate]
  | succ k ih =>
    rw [Pid.calls_succ, Pid.run_append]
    obtain ⟨hc, i1, i2, i4, -⟩ := ih
    generalize hr' : (p.run (calls e dt (k + 1))).1 = r at *
    simp only [Pid.run, Pid.step]
    obtain ⟨h1, h2, h3, h4, h5, h6, h7⟩ := Pid.computeControl_fields r (dt (k + 1)) (e (k + 1))
    have hinit : r.firstRunInit (e (k + 1)) = r := by simp [Pid.firstRunInit, i1]
    rw [hinit] at h4
    refine ⟨(Pid.computeControl_config r _ _).trans hc, h1, h3, ?_, ?_⟩
    · rw [h4, i4, i2, hc.2.2.2.2.1]
      ext i
      simp [filteredRate, rate, div_eq_inv_mul]
      ring
    · rw [h7, hc.2.2.1]

/-- **C61.** From any reachable configuration, after a reset, with `alpha ∈ [0, 1]`: the derivative
contribution is at most `|Kd|` times any bound of the raw difference quotients since the reset. -/
theorem C61_derivative_bounded {n : ℕ} (q : PidParams ℝ n) (os : List (PidOp ℝ n)) (e : ℕ → Vec n ℝ)
    (dt : ℕ → ℝ) (_hdt : ∀ k, dt k ≠ 0) (k : ℕ) (i : Fin n) (M : ℝ) :
    let p := ((Pid.mk' q).run os).1
    0 ≤ p.alpha i → p.alpha i ≤ 1 → (∀ j ≤ k, |rate e dt j i| ≤ M) →
      |(p.reset.run (calls e dt (k + 1))).1.derivContrib i| ≤ |p.getParams.kd i| * M := by
  intro p ha0 ha1 hM
  obtain ⟨kp, ki, kd, -, -, hkd⟩ := Pid.Diag.run q os
  have hkd : p.kdMat = mdiag kd := hkd
  have hk : p.getParams.kd i = kd i := by simp [Pid.getParams, mdiagonal, hkd, mdiag]
  obtain ⟨-, -, -, h1, h2⟩ := filter_state p.reset rfl e dt k
  rw [h2, hk, show p.reset.kdMat = mdiag kd from hkd, Pid.diag_mv, abs_mul, h1]
  have : |filteredRate p.reset.alpha e dt k i| ≤ M := by
    clear h1 h2
    induction k with
    | zero => simpa [filteredRate, rate] using hM 0 le_rfl
    | succ k ih =>
      have hih := ih fun j hj => hM j (by omega)
      have hk1 := hM (k + 1) le_rfl
      simp only [filteredRate]
      rw [show p.reset.alpha = p.alpha from rfl] at hih ⊢
      calc |p.alpha i * rate e dt (k + 1) i + (1 - p.alpha i) * filteredRate p.alpha e dt k i|
          ≤ |p.alpha i * rate e dt (k + 1) i| + |(1 - p.alpha i) * filteredRate p.alpha e dt k i| :=
            abs_add_le _ _
        _ = p.alpha i * |rate e dt (k + 1) i| + (1 - p.alpha i) * |filteredRate p.alpha e dt k i| := by
            rw [abs_mul, abs_mul, abs_of_nonneg ha0, abs_of_nonneg (by linarith : 0 ≤ 1 - p.alpha i)]
        _ ≤ p.alpha i * M + (1 - p.alpha i) * M := by
            have : 0 ≤ 1 - p.alpha i := by linarith
            gcongr
        _ = M := by ring
  gcongr

/-- Non-vacuity: default `alpha = 1`, ramp error with slope 2. -/
example : let p := ((Pid.mk' q2).run []).1
    0 ≤ p.alpha 0 ∧ p.alpha 0 ≤ 1 ∧
      ∀ j ≤ 5, |rate (fun k => ![2 * k, 0] : ℕ → Vec 2 ℝ) (fun _ => 1) j 0| ≤ 2 := by
  refine ⟨?_, ?_, ?_⟩
  · simp [Pid.run, q2_mk, flt]
  · simp [Pid.run, q2_mk, flt]
  · intro j _
    cases j with
    | zero => simp [rate]
    | succ j => simp [rate]; ring_nf; norm_num

/-! ## C62 -/

/-- The full claim of C62 for dimension `n`. -/
def C62_claim (n : ℕ) : Prop :=
  ∀ (p : Pid ℝ n) (u l : Vec n ℝ) (b : Bool),
    (OrderedLimits u l → p.setOutputSaturation u l b =
        { p with satFlag := true, propSat := b, upper := u, lower := l }) ∧
    (¬ OrderedLimits u l → (p.setOutputSaturation u l b).satFlag = false ∧
      (p.setOutputSaturation u l b).upper = p.upper ∧ (p.setOutputSaturation u l b).lower = p.lower)

/-- **C62 (partial).** Ordered limits are stored and enabled, and nothing else changes; otherwise
saturation is disabled, and the limits are either untouched or the rejected ones; they are untouched
if the first axis is already invalid.  Missing: rejected limits are never stored — false for
dimension ≥ 2, see `C62_violated`. -/
theorem C62_set_limits_partial {n : ℕ} (p : Pid ℝ n) (u l : Vec n ℝ) (b : Bool) :
    (OrderedLimits u l → p.setOutputSaturation u l b =
        { p with satFlag := true, propSat := b, upper := u, lower := l }) ∧
    (¬ OrderedLimits u l → ∃ v w, p.setOutputSaturation u l b =
        { p with satFlag := false, upper := v, lower := w } ∧
        ((v = p.upper ∧ w = p.lower) ∨ (v = u ∧ w = l)) ∧
        ((∃ h : 0 < n, ¬ (Flt.eps : ℝ) ≤ u ⟨0, h⟩ - l ⟨0, h⟩) → v = p.upper ∧ w = p.lower)) := by
  constructor
  · intro h
    exact Pid.setOutputSaturation_ok u l b p fun i => (Pid.axisOk_real u l i).2 (h i)
  · intro h
    by_cases h0 : ∃ h : 0 < n, ¬ (Flt.eps : ℝ) ≤ u ⟨0, h⟩ - l ⟨0, h⟩
    · refine ⟨p.upper, p.lower, ?_, .inl ⟨rfl, rfl⟩, fun _ => ⟨rfl, rfl⟩⟩
      obtain ⟨hn, h0⟩ := h0
      cases n with
      | zero => omega
      | succ n =>
        rw [show (⟨0, hn⟩ : Fin (n + 1)) = 0 from rfl, ← Pid.axisOk_real] at h0
        rw [Pid.setOutputSaturation, List.finRange_succ, Pid.setSatLoop]
        by_cases h1 : lt (Flt.abs (u 0 ⊟ l 0)) (Flt.eps : ℝ) = true
        · rw [if_pos h1]; rfl
        · rw [if_neg h1]
          by_cases h2 : lt (u 0) (l 0) = true
          · rw [if_pos h2]; rfl
          · exact absurd ⟨by simpa using h1, by simpa using h2⟩ h0
    · obtain ⟨v, w, h1, h2⟩ := Pid.setOutputSaturation_bad u l b p
        fun hh => h fun i => (Pid.axisOk_real u l i).1 (hh i)
      exact ⟨v, w, h1, h2, fun h => absurd h h0⟩

/-- The full claim holds for one axis. -/
theorem C62_set_limits_one_axis : C62_claim 1 := by
  intro p u l b
  obtain ⟨h1, h2⟩ := C62_set_limits_partial p u l b
  refine ⟨h1, fun h => ?_⟩
  obtain ⟨v, w, h3, -, h4⟩ := h2 h
  obtain ⟨rfl, rfl⟩ := h4 ⟨by omega, fun h0 => h fun i => by fin_cases i; exact h0⟩
  rw [h3]; exact ⟨rfl, rfl, rfl⟩

/-- **C62 is violated** for two axes: limits rejected on the second axis are nevertheless stored. -/
theorem C62_violated : ¬ C62_claim 2 := by
  intro h
  have := (h Pid.init ![1, 0] ![-1, 0] false).2 ?_
  · have h1 := congrFun this.2.1 0
    have hs : ¬ (2 : ℝ) < Flt.eps := by have := eps_small; linarith
    simp [Pid.setOutputSaturation, List.finRange_succ, Pid.setSatLoop, Pid.init, flt, Pid.disableSat,
      eps_pos] at h1
    norm_num at h1
    simp [hs] at h1
  · intro ho
    have := ho 1
    have := eps_pos
    simp_all
    linarith

/-- Both cases of C62 occur. -/
example : OrderedLimits (![1, 2] : Vec 2 ℝ) ![-1, -2] ∧ ¬ OrderedLimits (![1, 0] : Vec 2 ℝ) ![-1, 0] := by
  have h1 := eps_small
  have h2 := eps_pos
  constructor
  · intro i; fin_cases i <;> simp <;> linarith
  · intro ho
    have := ho 1
    simp at this
    linarith

/-! ## C63 -/

/-- The full claim of C63. -/
def C63_claim : Prop :=
  ∀ (n : ℕ) (q : PidParams ℝ n) (os later : List (PidOp ℝ n)),
    let p := ((Pid.mk' q).run os).1
    ((p.updateParams p.getParams).run later).2 = (p.run later).2

lemma mdiag_mdiagonal {n : ℕ} (k : Vec n ℝ) : mdiag (mdiagonal (mdiag k)) = mdiag k := by
  ext i j; simp only [mdiag, mdiagonal, if_true]

/-- **C63 (partial), exact condition.** For every reachable PID with at least one axis, re-applying the
parameters that were read back leaves the object literally unchanged if and only if saturation is
enabled or the stored limits are not applicable.  Missing: the case of disabled saturation with stored
applicable limits, where the round trip silently enables saturation (`C63_violated`). -/
theorem C63_round_trip_partial {n : ℕ} (hn : 0 < n) (q : PidParams ℝ n) (os : List (PidOp ℝ n)) :
    let p := ((Pid.mk' q).run os).1
    p.updateParams p.getParams = p ↔ (p.satFlag = true ∨ ¬ OrderedLimits p.upper p.lower) := by
  intro p
  obtain ⟨kp, ki, kd, h1, h2, h3⟩ : Pid.Diag p := Pid.Diag.run q os
  have hlim : Pid.LimitsOk p := Pid.LimitsOk.run q os
  have hbase : ((((p.setGains p.getParams.kp p.getParams.ki p.getParams.kd).setAntiWindup
      p.getParams.antiwindup).setAlpha p.getParams.alpha).setResetIntegral
      p.getParams.resetIntegral).setPropSat p.getParams.propSat = p := by
    simp only [Pid.setGains, Pid.setAntiWindup, Pid.setAlpha, Pid.setResetIntegral, Pid.setPropSat,
      Pid.getParams]
    rw [h1, h2, h3, mdiag_mdiagonal, mdiag_mdiagonal, mdiag_mdiagonal, ← h1, ← h2, ← h3]
  rw [Pid.updateParams]
  simp only [hbase]
  by_cases ho : OrderedLimits p.upper p.lower
  · have hax : ∀ i, Pid.AxisOk p.upper p.lower i := fun i => (Pid.axisOk_real _ _ i).2 (ho i)
    have hnz : (Pid.nonZero p.getParams.lower || Pid.nonZero p.getParams.upper) = true := by
      have h0 := ho ⟨0, hn⟩
      have := eps_pos
      by_contra hc
      simp only [Pid.getParams, Bool.or_eq_true, Pid.nonZero, List.any_eq_true, List.mem_finRange,
        true_and, flt, Bool.not_eq_true', decide_eq_false_iff_not, not_or, not_exists, not_not] at hc
      rw [hc.1, hc.2] at h0
      linarith
    rw [hnz, if_pos rfl]
    rw [show p.getParams.upper = p.upper from rfl, show p.getParams.lower = p.lower from rfl,
      Pid.setOutputSaturation_ok _ _ _ _ hax]
    simp only [ho, not_true_eq_false, or_false]
    constructor
    · intro h; rw [← h]
    · intro h; ext <;> simp [h, Pid.getParams]
  · have hf : p.satFlag = false := by
      by_contra hc
      exact ho fun i => (Pid.axisOk_real _ _ i).1 (hlim (by simpa using hc) i)
    simp only [ho, not_false_eq_true, or_true, iff_true]
    split
    · obtain ⟨v, w, hv, hw⟩ := Pid.setOutputSaturation_bad p.upper p.lower p.propSat p
        fun hh => ho fun i => (Pid.axisOk_real _ _ i).1 (hh i)
      rw [show p.getParams.upper = p.upper from rfl, show p.getParams.lower = p.lower from rfl,
        show p.getParams.propSat = p.propSat from rfl, hv]
      have : v = p.upper ∧ w = p.lower := by rcases hw with h | h <;> exact h
      obtain ⟨rfl, rfl⟩ := this
      ext <;> simp [hf]
    · ext <;> simp [Pid.disableSat, hf]

/-- **C63 is violated**: after `disable_output_saturation`, reading the parameters back and re-applying
them enables the limits again: error 1 with gain 5 gives 1 instead of 5. -/
theorem C63_violated : ¬ C63_claim := by
  intro h
  have h1 := h 2 q2 [.disableSat] [.control 1 ![1, 0]]
  have hok : ∀ i, Pid.AxisOk (![1, 2] : Vec 2 ℝ) ![-1, -2] i := by
    intro i
    have := eps_small
    rw [Pid.axisOk_real]
    fin_cases i <;> simp <;> linarith
  simp only [Pid.run, Pid.step, List.cons.injEq, Option.some.injEq, and_true] at h1
  have h2 := congrFun h1 0
  rw [Pid.computeControl_snd, Pid.computeControl_snd, Pid.computeControl_output,
    Pid.computeControl_output] at h2
  obtain ⟨-, -, -, -, e1, e2, e3⟩ := Pid.computeControl_fields (Pid.mk' q2).disableSat 1 ![1, 0]
  obtain ⟨-, -, -, -, f1, f2, f3⟩ := Pid.computeControl_fields
    ((Pid.mk' q2).disableSat.updateParams (Pid.mk' q2).disableSat.getParams) 1 ![1, 0]
  rw [e1, e2, e3, f1, f2, f3] at h2
  have hu : (Pid.mk' q2).disableSat.updateParams (Pid.mk' q2).disableSat.getParams = Pid.mk' q2 := by
    have hnz : Pid.nonZero (![1, 2] : Vec 2 ℝ) = true := by simp [Pid.nonZero, flt]
    simp only [Pid.updateParams, q2_mk, Pid.disableSat, Pid.getParams, hnz, Bool.or_true, if_true]
    rw [Pid.setOutputSaturation_ok _ _ _ _ hok]
    ext <;> simp [Pid.setGains, Pid.setAntiWindup, Pid.setAlpha, Pid.setResetIntegral, Pid.setPropSat,
      mdiag_mdiagonal]
  rw [hu] at h2
  simp [q2_mk, Pid.disableSat, Pid.saturateOutput, Pid.init, flt, Matrix.mulVec_diagonal] at h2

/-- Both sides of the exact condition occur: the new `q2` controller is unchanged by the round trip. -/
example : (Pid.mk' q2).updateParams (Pid.mk' q2).getParams = Pid.mk' q2 :=
  (C63_round_trip_partial (by omega) q2 []).2 (.inl (by simp [Pid.run, q2_mk]))

/-! ## C64 -/

/-- Calls that touch neither the anti-windup constant nor the reset-integral flag. -/
def keepsAw {n : ℕ} : PidOp ℝ n → Bool
  | .updateParams _ => false
  | .setAntiWindup _ => false
  | .setResetIntegral _ => false
  | _ => true

/-- The claim of C64 at one control call: with the flag set, a saturated integral (magnitude at the
anti-windup constant) whose sign is opposite to the error is dropped, so the new integral is `e * dt`
clamped to the constant. -/
def C64_claim : Prop :=
  ∀ (q : PidParams ℝ 1) (os : List (PidOp ℝ 1)) (dt e : ℝ),
    let p := ((Pid.mk' q).run os).1
    p.resetIntegral = true → 0 < p.antiwindup 0 → p.firstRun = false →
    p.antiwindup 0 ≤ |p.integral 0| → p.integral 0 * e < 0 → |e * dt| ≤ p.antiwindup 0 →
      (p.computeControl dt ![e]).1.integral 0 = e * dt

/-- State relation for C64: equal up to the flag, integral within the constant. -/
def AwRel {n : ℕ} (p p' : Pid ℝ n) : Prop :=
  p' = { p with resetIntegral := p'.resetIntegral } ∧ (∀ i, 0 < p.antiwindup i) ∧
    (p.firstRun = false → ∀ i, |p.integral i| ≤ p.antiwindup i)

lemma AwRel.accumulate {n : ℕ} {p p' : Pid ℝ n} (h : AwRel p p') (hf : p.firstRun = false) (dt : ℝ)
    (e : Vec n ℝ) : p'.accumulate dt e = p.accumulate dt e := by
  obtain ⟨h1, -, h3⟩ := h
  have hr : ∀ b i, Pid.resetAxis b (p.integral i) (p.antiwindup i) (e i) = p.integral i := by
    intro b i
    have := h3 hf i
    simp only [Pid.resetAxis, flt, not_lt.2 this, decide_false, Bool.and_false, Bool.false_and]
    simp
  rw [h1]
  simp only [Pid.accumulate, hr]

lemma AwRel.firstRunInit {n : ℕ} {p p' : Pid ℝ n} (h : AwRel p p') (e : Vec n ℝ) :
    AwRel (p.firstRunInit e) (p'.firstRunInit e) ∧ (p.firstRunInit e).firstRun = false := by
  obtain ⟨h1, h2, h3⟩ := h
  by_cases hf : p.firstRun = true
  · have hf' : p'.firstRun = true := by rw [h1]; exact hf
    simp only [Pid.firstRunInit, hf, hf', if_true, and_true]
    refine ⟨?_, h2, fun _ i => ?_⟩
    · rw [h1]
    · simpa [flt] using (h2 i).le
  · have hf' : ¬ p'.firstRun = true := by rw [h1]; exact hf
    simp only [Pid.firstRunInit, hf, hf']
    exact ⟨⟨h1, h2, h3⟩, by simpa using hf⟩

lemma AwRel.step {n : ℕ} {p p' : Pid ℝ n} (h : AwRel p p') (o : PidOp ℝ n) (ho : keepsAw o = true) :
    AwRel (p.step o).1 (p'.step o).1 ∧ (p'.step o).2 = (p.step o).2 := by
  have hsat : ∀ u l b (is : List (Fin n)) (r r' : Pid ℝ n), AwRel r r' →
      AwRel (Pid.setSatLoop u l b is r) (Pid.setSatLoop u l b is r') := by
    intro u l b is
    induction is with
    | nil => rintro r r' ⟨h1, h2, h3⟩; rw [h1]; exact ⟨rfl, h2, h3⟩
    | cons i is ih =>
      rintro r r' ⟨h1, h2, h3⟩
      rw [Pid.setSatLoop, Pid.setSatLoop]
      split
      · rw [h1]; exact ⟨rfl, h2, h3⟩
      · split
        · rw [h1]; exact ⟨rfl, h2, h3⟩
        · exact ih _ _ ⟨by rw [h1], h2, h3⟩
  cases o with
  | control dt e =>
    obtain ⟨hi, hf⟩ := h.firstRunInit e
    have hacc := hi.accumulate hf dt e
    have hle := Pid.accumulate_abs_le (p.firstRunInit e) hi.2.1 dt e
    have e1 : p.computeControl dt e = (p.firstRunInit e).computeControl dt e := by
      rw [Pid.computeControl, Pid.computeControl, Pid.firstRunInit_idem]
    have e2 : p'.computeControl dt e = (p'.firstRunInit e).computeControl dt e := by
      rw [Pid.computeControl, Pid.computeControl, Pid.firstRunInit_idem]
    simp only [Pid.step, e1, e2]
    generalize p.firstRunInit e = r at *
    generalize p'.firstRunInit e = r' at *
    obtain ⟨h1, h2, h3⟩ := hi
    generalize r'.resetIntegral = b at h1
    subst h1
    have e3 : r.firstRunInit e = r := by simp [Pid.firstRunInit, hf]
    have e4 : ({ r with resetIntegral := b } : Pid ℝ n).firstRunInit e =
        { r with resetIntegral := b } := by simp [Pid.firstRunInit, hf]
    have hacc' : ∀ c, ({ r with resetIntegral := b, propContrib := c } : Pid ℝ n).accumulate dt e =
        ({ r with propContrib := c } : Pid ℝ n).accumulate dt e := fun _ => hacc
    simp only [Pid.computeControl, e3, e4, Pid.computeIntegral, hacc',
      Pid.computeDerivativeByDeriving, Pid.computeDerivative, Pid.finishOutput]
    exact ⟨⟨rfl, h2, fun _ => hle⟩, trivial⟩
  | controlD dt e de =>
    obtain ⟨hi, hf⟩ := h.firstRunInit e
    have hacc := hi.accumulate hf dt e
    have hle := Pid.accumulate_abs_le (p.firstRunInit e) hi.2.1 dt e
    have e1 : p.computeControlD dt e de = (p.firstRunInit e).computeControlD dt e de := by
      rw [Pid.computeControlD, Pid.computeControlD, Pid.firstRunInit_idem]
    have e2 : p'.computeControlD dt e de = (p'.firstRunInit e).computeControlD dt e de := by
      rw [Pid.computeControlD, Pid.computeControlD, Pid.firstRunInit_idem]
    simp only [Pid.step, e1, e2]
    generalize p.firstRunInit e = r at *
    generalize p'.firstRunInit e = r' at *
    obtain ⟨h1, h2, h3⟩ := hi
    generalize r'.resetIntegral = b at h1
    subst h1
    have e3 : r.firstRunInit e = r := by simp [Pid.firstRunInit, hf]
    have e4 : ({ r with resetIntegral := b } : Pid ℝ n).firstRunInit e =
        { r with resetIntegral := b } := by simp [Pid.firstRunInit, hf]
    have hacc' : ∀ c, ({ r with resetIntegral := b, propContrib := c } : Pid ℝ n).accumulate dt e =
        ({ r with propContrib := c } : Pid ℝ n).accumulate dt e := fun _ => hacc
    simp only [Pid.computeControlD, e3, e4, Pid.computeIntegral, hacc',
      Pid.computeDerivative, Pid.finishOutput]
    exact ⟨⟨rfl, h2, fun _ => hle⟩, trivial⟩
  | setOutputSaturation u l b => exact ⟨hsat u l b _ _ _ h, rfl⟩
  | updateParams q => simp [keepsAw] at ho
  | setAntiWindup q => simp [keepsAw] at ho
  | setResetIntegral q => simp [keepsAw] at ho
  | reset =>
    obtain ⟨h1, h2, h3⟩ := h
    refine ⟨⟨?_, h2, fun hf => ?_⟩, rfl⟩
    · simp only [Pid.step, Pid.reset]; rw [h1]
    · simp [Pid.step, Pid.reset] at hf
  | disableSat =>
    obtain ⟨h1, h2, h3⟩ := h
    refine ⟨⟨?_, h2, h3⟩, rfl⟩
    simp only [Pid.step, Pid.disableSat]; rw [h1]
  | setGains a b c =>
    obtain ⟨h1, h2, h3⟩ := h
    refine ⟨⟨?_, h2, h3⟩, rfl⟩
    simp only [Pid.step, Pid.setGains]; rw [h1]
  | setKp a =>
    obtain ⟨h1, h2, h3⟩ := h
    refine ⟨⟨?_, h2, h3⟩, rfl⟩
    simp only [Pid.step, Pid.setKp]; rw [h1]
  | setKi a =>
    obtain ⟨h1, h2, h3⟩ := h
    refine ⟨⟨?_, h2, h3⟩, rfl⟩
    simp only [Pid.step, Pid.setKi]; rw [h1]
  | setKd a =>
    obtain ⟨h1, h2, h3⟩ := h
    refine ⟨⟨?_, h2, h3⟩, rfl⟩
    simp only [Pid.step, Pid.setKd]; rw [h1]
  | setAlpha a =>
    obtain ⟨h1, h2, h3⟩ := h
    refine ⟨⟨?_, h2, h3⟩, rfl⟩
    simp only [Pid.step, Pid.setAlpha]; rw [h1]
  | setPropSat a =>
    obtain ⟨h1, h2, h3⟩ := h
    refine ⟨⟨?_, h2, h3⟩, rfl⟩
    simp only [Pid.step, Pid.setPropSat]; rw [h1]

lemma AwRel.run {n : ℕ} (os : List (PidOp ℝ n)) (ho : ∀ o ∈ os, keepsAw o = true) {p p' : Pid ℝ n}
    (h : AwRel p p') : (p'.run os).2 = (p.run os).2 := by
  induction os generalizing p p' with
  | nil => rfl
  | cons o os ih =>
    obtain ⟨h1, h2⟩ := h.step o (ho o (by simp))
    simp only [Pid.run, h2, ih (fun o' ho' => ho o' (by simp [ho'])) h1]

/-- **C64 (what holds).** With positive anti-windup constants fixed at construction the reset-integral
option never has any effect: every history returns the same outputs with the flag set and cleared. -/
theorem C64_flag_inert {n : ℕ} (q : PidParams ℝ n) (hpos : ∀ i, 0 < q.antiwindup i)
    (os : List (PidOp ℝ n)) (ho : ∀ o ∈ os, keepsAw o = true) :
    ((Pid.mk' { q with resetIntegral := true }).run os).2 =
      ((Pid.mk' { q with resetIntegral := false }).run os).2 := by
  apply AwRel.run os ho
  have hb : ∀ b, Pid.mk' { q with resetIntegral := b } =
      { (Pid.mk' { q with resetIntegral := false } : Pid ℝ n) with resetIntegral := b } := by
    intro b
    have hl : ∀ (is : List (Fin n)) (r : Pid ℝ n),
        Pid.setSatLoop q.upper q.lower q.propSat is { r with resetIntegral := b } =
          { Pid.setSatLoop q.upper q.lower q.propSat is r with resetIntegral := b } := by
      intro is
      induction is with
      | nil => intro r; rfl
      | cons i is ih =>
        intro r
        rw [Pid.setSatLoop, Pid.setSatLoop]
        split
        · rfl
        · split
          · rfl
          · exact ih { r with upper := q.upper, lower := q.lower }
    simp only [Pid.mk', Pid.updateParams]
    split
    · simp only [Pid.setOutputSaturation]
      exact congrArg Pid.reset (hl (List.finRange n) (Pid.setPropSat q.propSat (Pid.setResetIntegral false
        (Pid.setAlpha q.alpha (Pid.setAntiWindup q.antiwindup (Pid.setGains q.kp q.ki q.kd Pid.init))))))
    · rfl
  obtain ⟨f, v, w, b, he, -⟩ := Pid.updateParams_eq { q with resetIntegral := false } (Pid.init : Pid ℝ n)
  refine ⟨?_, ?_, ?_⟩
  · rw [hb true]
  · rw [Pid.mk', he]; exact hpos
  · intro h; simp [Pid.mk', Pid.reset] at h

/-- Non-vacuity: constant 1 on the only axis. -/
example : ∀ i, 0 < (![1] : Vec 1 ℝ) i := by simp

/-- The anti-windup scenario: constant 1, integral gain 1, flag set. -/
noncomputable def q64 : PidParams ℝ 1 :=
  { PidParams.default with ki := ![1], antiwindup := ![1], resetIntegral := true }

lemma q64_mk : Pid.mk' q64 = { (Pid.init : Pid ℝ 1) with
    kpMat := mdiag vzero, kiMat := mdiag ![1], kdMat := mdiag vzero, alpha := vones,
    antiwindup := ![1], resetIntegral := true } := by
  simp [Pid.mk', q64, Pid.updateParams, PidParams.default, Pid.nonZero, flt]
  simp [Pid.setGains, Pid.setAntiWindup, Pid.setAlpha, Pid.setResetIntegral, Pid.setPropSat,
    Pid.disableSat, Pid.reset, Pid.init, flt]

/-- **C64 is violated**: with constant 1, errors 2 then -1/2 at period 1 leave the integral at 1/2: the
saturated integral was not dropped although the error changed sign. -/
theorem C64_violated : ¬ C64_claim := by
  intro h
  have hf : ((Pid.mk' q64).computeControl 1 ![2]).1.integral 0 = 1 ∧
      ((Pid.mk' q64).computeControl 1 ![2]).1.firstRun = false := by
    obtain ⟨h0, h1, -⟩ := Pid.computeControl_fields (Pid.mk' q64) 1 ![2]
    refine ⟨?_, h0⟩
    rw [h1]
    simp [q64_mk, Pid.init, Pid.firstRunInit, Pid.accumulate, Pid.nonZero, Pid.saturateOutput,
      Pid.resetAxis, flt]
  have hc := Pid.computeControl_config (Pid.mk' q64) 1 ![2]
  obtain ⟨-, -, -, c4, -, c6, -⟩ := hc
  have haw : ((Pid.mk' q64).computeControl 1 ![2]).1.antiwindup = ![1] := by rw [c4, q64_mk]
  have := h q64 [.control 1 ![2]] 1 (-1/2) (by simpa [Pid.run, Pid.step, q64_mk] using c6)
    (by simp [Pid.run, Pid.step, haw]) hf.2 (by simp [Pid.run, Pid.step, haw, hf.1])
    (by simp only [Pid.run, Pid.step, hf.1]; norm_num)
    (by simp only [Pid.run, Pid.step, haw]; norm_num [abs_of_nonpos])
  simp only [Pid.run, Pid.step] at this
  obtain ⟨h0, h1, -⟩ := Pid.computeControl_fields ((Pid.mk' q64).computeControl 1 ![2]).1 1 ![-1/2]
  rw [h1] at this
  simp only [Pid.firstRunInit, hf.2, Bool.false_eq_true, if_false, Pid.accumulate, haw] at this
  simp [Pid.nonZero, Pid.saturateOutput, Pid.resetAxis, flt, hf.1] at this
  norm_num at this

/-- **C64 (partial).** The option does act when the constant was lowered after the integral had grown:
an integral strictly beyond the constant, of opposite sign to the error, is dropped.
Missing: an integral saturated at the constant, which is the only saturated value that occurs with an
unchanged constant. -/
theorem C64_reset_beyond_partial {n : ℕ} (p : Pid ℝ n) (dt : ℝ) (e : Vec n ℝ) (i : Fin n)
    (hflag : p.resetIntegral = true) (hpos : ∀ i, 0 < p.antiwindup i) (hrun : p.firstRun = false)
    (hsat : p.antiwindup i < |p.integral i|) (hsign : p.integral i * e i < 0)
    (hsmall : |e i * dt| ≤ p.antiwindup i) :
    (p.computeControl dt e).1.integral i = e i * dt ∧
      ∀ de, (p.computeControlD dt e de).1.integral i = e i * dt := by
  have key : (p.firstRunInit e).accumulate dt e i = e i * dt := by
    have hnz : Pid.nonZero p.antiwindup = true := by
      simp only [Pid.nonZero, List.any_eq_true]
      exact ⟨i, List.mem_finRange i, by simp [flt, (hpos i).ne']⟩
    have hs : ¬ (p.integral i < 0 ↔ e i < 0) := by
      rcases lt_trichotomy (p.integral i) 0 with h | h | h
      · have : ¬ e i < 0 := by intro h'; nlinarith
        simp [h, this]
      · rw [h] at hsign; simp at hsign
      · have : e i < 0 := by by_contra h'; push Not at h'; nlinarith
        simp [this, h.le]
    have hb := abs_le.1 hsmall
    have h1 : ¬ p.antiwindup i < dt * e i := by rw [mul_comm]; linarith [hb.2]
    have h2 : ¬ dt * e i < -p.antiwindup i := by rw [mul_comm]; linarith [hb.1]
    have hc : p.antiwindup i < |p.integral i| ∧ ¬ (p.integral i < 0 ↔ e i < 0) := ⟨hsat, hs⟩
    simp only [Pid.firstRunInit, hrun, Bool.false_eq_true, if_false, Pid.accumulate, hnz, if_true,
      Pid.saturateOutput, Bool.not_false, Pid.resetAxis, hflag, flt, Bool.true_and]
    simp [hc, h1, h2, mul_comm (e i)]
  obtain ⟨-, h1, -⟩ := Pid.computeControl_fields p dt e
  refine ⟨by rw [h1, key], fun de => ?_⟩
  obtain ⟨-, h1, -⟩ := Pid.computeControlD_fields p dt e de
  rw [h1, key]

/-- Non-vacuity: an integral of 4 with the constant lowered to 1 and error -1/2. -/
example : let p : Pid ℝ 1 := { Pid.mk' q64 with integral := ![4], firstRun := false }
    p.resetIntegral = true ∧ (∀ i, 0 < p.antiwindup i) ∧ p.firstRun = false ∧
    p.antiwindup 0 < |p.integral 0| ∧ p.integral 0 * (-1/2) < 0 ∧ |(-1/2 : ℝ) * 1| ≤ p.antiwindup 0 := by
  simp [q64_mk]
  norm_num [abs_of_neg]

end Verif.Props
