import Verif.Lemmas.Pid1d
import Verif.Spec.PidScalar

/-!
# C96–C99: the scalar PID, the limits in force and the parameters read back
-/

namespace Verif.Props

open Verif Flt Spec

/-! ## One control call of the scalar PID over the reals -/

/-- Limits in force are ordered. -/
def Sane (p : Pid1 ℝ) : Prop := p.satFlag = true → (Flt.eps : ℝ) ≤ p.upper - p.lower

/-- The limits in force, as the specification keeps them. -/
noncomputable def limitsOf (p : Pid1 ℝ) : Option (ℝ × ℝ) := if p.satFlag then some (p.upper, p.lower) else none

lemma setSat1_real (p : Pid1 ℝ) (u l : ℝ) : p.setOutputSaturation u l =
    if (Flt.eps : ℝ) ≤ u - l then { p with upper := u, lower := l, satFlag := true } else p.disableSat := by
  have := eps_pos
  unfold Pid1.setOutputSaturation
  simp only [flt, decide_eq_true_eq]
  by_cases h : (Flt.eps : ℝ) ≤ u - l
  · rw [if_neg (by rw [not_lt]; exact h.trans (le_abs_self _)), if_neg (by linarith), if_pos h]
  · rw [if_neg h]
    split
    · rfl
    · rename_i h1
      rw [if_pos]
      by_contra h2
      rw [abs_of_nonneg (by linarith)] at h1
      exact h (not_lt.1 h1)

lemma update1_real (p : Pid1 ℝ) (q : Pid1Params ℝ) : p.updateParams q =
    let r := { p with
      kp := q.kp, ki := q.ki, kd := q.kd, antiwindup := q.antiwindup, alpha := q.alpha
      resetIntegral := q.resetIntegral }
    if (Flt.eps : ℝ) ≤ q.upper - q.lower then { r with upper := q.upper, lower := q.lower, satFlag := true }
    else r.disableSat := by
  have := eps_pos
  unfold Pid1.updateParams
  simp only [Pid1.setGains, Pid1.setAntiWindup, Pid1.setAlpha, Pid1.setResetIntegral]
  by_cases h : (Flt.eps : ℝ) ≤ q.upper - q.lower
  · rw [if_pos, setSat1_real]
    simp only [flt, Bool.or_eq_true, Bool.not_eq_true', decide_eq_false_iff_not]
    by_contra h2
    push Not at h2
    rw [h2.1, h2.2] at h
    linarith
  · rw [setSat1_real, if_neg h]
    simp only [ite_self]

lemma stdClamp_real (v l u : ℝ) (h : l ≤ u) : stdClamp v l u = some (max l (min u v)) := by
  simp only [stdClamp, clampVal, flt, decide_eq_true_eq]
  rw [if_neg (by linarith)]
  congr 1
  split_ifs with h1 h2
  · rw [min_eq_right (by linarith), max_eq_left h1.le]
  · rw [min_eq_left h2.le, max_eq_right h]
  · rw [min_eq_right (by linarith), max_eq_right (by linarith)]

lemma accumulate1_real (p : Pid1 ℝ) (ha : 0 ≤ p.antiwindup) (dt e : ℝ) :
    p.accumulate dt e = some (windup p.antiwindup (p.resetAcc e + e * dt)) := by
  unfold Pid1.accumulate windup
  simp only [flt, neg_mul, one_mul]
  rcases ha.eq_or_lt with h | h
  · simp [← h]
  · rw [stdClamp_real _ _ _ (by linarith)]
    simp [h, h.ne']

lemma finish1_real (p : Pid1 ℝ) (h : Sane p) : p.finishOutput = some { p with
    output := within (limitsOf p) (p.propContrib + p.intContrib + p.derivContrib) } := by
  have := eps_pos
  unfold Pid1.finishOutput limitsOf
  by_cases hf : p.satFlag = true
  · have := h hf
    simp only [hf, if_true, flt, within]
    rw [stdClamp_real _ _ _ (by linarith)]
    rfl
  · simp [hf, within, flt]

lemma sane_firstRunInit {p : Pid1 ℝ} (e : ℝ) : limitsOf (p.firstRunInit e) = limitsOf p := by
  unfold Pid1.firstRunInit limitsOf; split <;> rfl

/-- A control call in terms of the initialised object. -/
lemma control1_real (p : Pid1 ℝ) (ha : 0 ≤ p.antiwindup) (h : Sane p) (dt e : ℝ) :
    let p0 := p.firstRunInit e
    let i := windup p.antiwindup (p0.resetAcc e + e * dt)
    let d := p.alpha * ((e - p0.propErr) / dt) + (1 - p.alpha) * p0.filtered
    let out := within (limitsOf p) (p.kp * e + p.ki * i + p.kd * d)
    p.computeControl dt e = some ({ p0 with
      propContrib := p.kp * e, integral := i, intContrib := p.ki * i, filtered := d, derivContrib := p.kd * d
      output := out, propErr := e }, out) := by
  intro p0 i d out
  have hc : p0.kp = p.kp ∧ p0.ki = p.ki ∧ p0.kd = p.kd ∧ p0.antiwindup = p.antiwindup ∧ p0.alpha = p.alpha ∧
      limitsOf p0 = limitsOf p ∧ Sane p0 := by
    simp only [p0, Pid1.firstRunInit, limitsOf, Sane]
    split <;> exact ⟨rfl, rfl, rfl, rfl, rfl, rfl, h⟩
  obtain ⟨h1, h2, h3, h4, h5, h6, h7⟩ := hc
  unfold Pid1.computeControl
  simp only []
  rw [accumulate1_real _ (by rw [show (p.firstRunInit e) = p0 from rfl]; simpa [h4] using ha)]
  simp only []
  rw [finish1_real _ (by exact h7)]
  simp only [show (p.firstRunInit e) = p0 from rfl, Pid1.filter, flt, limitsOf, Pid1.resetAcc, h1, h2, h3, h4, h5] at h6 ⊢
  simp only [h6, out, i, d, limitsOf, Pid1.resetAcc, flt, h4]

lemma controlD1_real (p : Pid1 ℝ) (ha : 0 ≤ p.antiwindup) (h : Sane p) (dt e de : ℝ) :
    let p0 := p.firstRunInit e
    let i := windup p.antiwindup (p0.resetAcc e + e * dt)
    let out := within (limitsOf p) (p.kp * e + p.ki * i + p.kd * de)
    p.computeControlD dt e de = some ({ p0 with
      propContrib := p.kp * e, integral := i, intContrib := p.ki * i, derivContrib := p.kd * de
      output := out, propErr := e, derivErr := de }, out) := by
  intro p0 i out
  have hc : p0.kp = p.kp ∧ p0.ki = p.ki ∧ p0.kd = p.kd ∧ p0.antiwindup = p.antiwindup ∧ p0.alpha = p.alpha ∧
      limitsOf p0 = limitsOf p ∧ Sane p0 := by
    simp only [p0, Pid1.firstRunInit, limitsOf, Sane]
    split <;> exact ⟨rfl, rfl, rfl, rfl, rfl, rfl, h⟩
  obtain ⟨h1, h2, h3, h4, h5, h6, h7⟩ := hc
  unfold Pid1.computeControlD
  simp only []
  rw [accumulate1_real _ (by rw [show (p.firstRunInit e) = p0 from rfl]; simpa [h4] using ha)]
  simp only []
  rw [finish1_real _ (by exact h7)]
  simp only [show (p.firstRunInit e) = p0 from rfl, flt, limitsOf, Pid1.resetAcc, h1, h2, h3, h4, h5] at h6 ⊢
  simp only [h6, out, i, limitsOf, Pid1.resetAcc, flt, h4]

lemma sane_control {p : Pid1 ℝ} (h : Sane p) (e : ℝ) : Sane (p.firstRunInit e) := by
  unfold Pid1.firstRunInit; split <;> exact h

lemma mk1_real (q : Pid1Params ℝ) : Sane (Pid1.mk' q) ∧
    limitsOf (Pid1.mk' q) = scalarLimits none (.updateParams q) ∧
    (Pid1.mk' q).kp = q.kp ∧ (Pid1.mk' q).ki = q.ki ∧ (Pid1.mk' q).kd = q.kd ∧
    (Pid1.mk' q).antiwindup = q.antiwindup ∧ (Pid1.mk' q).alpha = q.alpha ∧
    (Pid1.mk' q).resetIntegral = q.resetIntegral ∧ (Pid1.mk' q).firstRun = true := by
  unfold Pid1.mk'
  rw [update1_real]
  by_cases h : (Flt.eps : ℝ) ≤ q.upper - q.lower
  · simp [h, Pid1.reset, Sane, limitsOf, scalarLimits]
  · simp [h, Pid1.reset, Sane, limitsOf, scalarLimits, Pid1.disableSat]

lemma run1_append {α : Type} [Flt α] (p : Pid1 α) (os os' : List (Pid1Op α)) :
    p.run (os ++ os') = (p.run os).bind fun r => (r.1.run os').map fun t => (t.1, r.2 ++ t.2) := by
  induction os generalizing p with
  | nil => simp [Pid1.run]
  | cons o os ih =>
    simp only [List.cons_append, Pid1.run]
    cases p.step o with
    | none => rfl
    | some r =>
      simp only [ih]
      cases r.1.run os with
      | none => rfl
      | some t =>
        simp only [Option.bind_some]
        cases t.1.run os' with
        | none => rfl
        | some t' => rfl

lemma windup_abs {a : ℝ} (h : 0 < a) (x : ℝ) : |windup a x| ≤ a := by
  rw [windup, if_pos h, abs_le]
  exact ⟨le_max_left _ _, max_le (by linarith) (min_le_left _ _)⟩

/-! ## C96 -/

/-- **C96.** The outputs of a new scalar PID over any sequence of control calls are those of the textbook law with
anti-windup and output limits: the integral is brought into `[-a, a]` after every sample, the difference
quotient is filtered and starts at zero, and the sum is brought into the limits, if these are ordered.  The option
that resets the integral changes nothing unless it is used without anti-windup. -/
theorem C96_scalar_law (q : Pid1Params ℝ) (ha : 0 ≤ q.antiwindup) (hr : q.resetIntegral = false ∨ 0 < q.antiwindup)
    (e dt : ℕ → ℝ) (_hdt : ∀ k, dt k ≠ 0) (k : ℕ) :
    ∃ p, (Pid1.mk' q).run (scalarCalls e dt k) = some (p, (List.range k).map fun j => some (limited q.upper q.lower
      (q.kp * e j + q.ki * scalarIntegral q.antiwindup e dt j + q.kd * scalarRate q.alpha e dt j))) := by
  obtain ⟨m1, m2, m3, m4, m5, m6, m7, m8, m9⟩ := mk1_real q
  have hlim : ∀ x, within (limitsOf (Pid1.mk' q)) x = limited q.upper q.lower x := by
    intro x
    rw [m2]
    unfold within scalarLimits limited
    by_cases h : (Flt.eps : ℝ) ≤ q.upper - q.lower <;> simp [h]
  -- the memory after `k + 1` calls
  have key : ∀ k, ∃ p, (Pid1.mk' q).run (scalarCalls e dt (k + 1)) = some (p, (List.range (k + 1)).map fun j =>
        some (limited q.upper q.lower
          (q.kp * e j + q.ki * scalarIntegral q.antiwindup e dt j + q.kd * scalarRate q.alpha e dt j))) ∧
      p.firstRun = false ∧ p.integral = scalarIntegral q.antiwindup e dt k ∧
      p.filtered = scalarRate q.alpha e dt k ∧ p.propErr = e k ∧ Sane p ∧ limitsOf p = limitsOf (Pid1.mk' q) ∧
      p.kp = q.kp ∧ p.ki = q.ki ∧ p.kd = q.kd ∧ p.antiwindup = q.antiwindup ∧ p.alpha = q.alpha ∧
      p.resetIntegral = q.resetIntegral := by
    intro k
    induction k with
    | zero =>
      have h := control1_real (Pid1.mk' q) (by rw [m6]; exact ha) m1 (dt 0) (e 0)
      simp only [m3, m4, m5, m6, m7] at h
      have hi : (Pid1.mk' q).firstRunInit (e 0) = { Pid1.mk' q with
          firstRun := false, integral := 0, propErr := e 0, filtered := 0 } := by
        simp [Pid1.firstRunInit, m9, flt]
      have hacc : ((Pid1.mk' q).firstRunInit (e 0)).resetAcc (e 0) = 0 := by
        simp [hi, Pid1.resetAcc, flt]
      rw [hacc, hi] at h
      have hrun : (Pid1.mk' q).run (scalarCalls e dt (0 + 1)) =
          ((Pid1.mk' q).computeControl (dt 0) (e 0)).map fun r => (r.1, [some r.2]) := by
        simp only [scalarCalls, zero_add, List.range_one, List.map_cons, List.map_nil, Pid1.run, Pid1.step, h,
          Option.map_some]
      rw [h, Option.map_some] at hrun
      refine ⟨_, hrun.trans (congrArg (fun l => some (_, l)) ?_), rfl, ?_, ?_, rfl, m1, rfl, m3, m4, m5, m6, m7, m8⟩
      · rw [hlim]
        simp [scalarIntegral, scalarRate]
      · simp [scalarIntegral]
      · simp [scalarRate]
    | succ k ih =>
      obtain ⟨p, h0, h1, h2, h3, h4, h5, h6, h7, h8, h9, h10, h11, h12⟩ := ih
      have h := control1_real p (by rw [h10]; exact ha) h5 (dt (k + 1)) (e (k + 1))
      have hi : p.firstRunInit (e (k + 1)) = p := by simp [Pid1.firstRunInit, h1]
      have hacc : p.resetAcc (e (k + 1)) = scalarIntegral q.antiwindup e dt k := by
        unfold Pid1.resetAcc
        rw [h12, h10, h2]
        rcases hr with hr | hr
        · simp [hr]
        · rw [if_neg]
          simp only [flt, Bool.and_eq_true, decide_eq_true_eq, not_and, Bool.not_eq_true]
          rintro ⟨-, h'⟩
          have : |scalarIntegral q.antiwindup e dt k| ≤ q.antiwindup := by
            cases k <;> exact windup_abs hr _
          linarith
      simp only [hi, hacc, h3, h4, h6, h7, h8, h9, h10, h11, hlim] at h
      have hrun := run1_append (Pid1.mk' q) (scalarCalls e dt (k + 1)) [.control (dt (k + 1)) (e (k + 1))]
      simp only [h0, Option.bind_some, Pid1.run, Pid1.step, h, Option.map_some] at hrun
      rw [show scalarCalls e dt (k + 1) ++ [.control (dt (k + 1)) (e (k + 1))] = scalarCalls e dt (k + 1 + 1) by
        simp [scalarCalls, List.range_succ]] at hrun
      refine ⟨_, hrun.trans (congrArg (fun l => some (_, l)) ?_), h1, rfl, rfl, rfl, h5, h6, rfl, rfl, rfl, rfl, rfl, h12⟩
      rw [List.range_succ (n := k + 1), List.map_append]
      rfl
  cases k with
  | zero => exact ⟨Pid1.mk' q, rfl⟩
  | succ k => obtain ⟨p, h, -⟩ := key k; exact ⟨p, h⟩

/-- A sanity check of the specification and non-vacuity: a PI controller with anti-windup at 2 and limits `[-1, 4]`,
errors 1 at period 1: integral 1, 2, 2, ..., output 2, 3, 3 with unit gains, and 4 with gain 3. -/
example : scalarIntegral 2 (fun _ => 1) (fun _ => 1) 0 = 1 ∧ scalarIntegral 2 (fun _ => 1) (fun _ => 1) 1 = 2 ∧
    scalarIntegral 2 (fun _ => 1) (fun _ => 1) 2 = 2 ∧ limited 4 (-1) (3 * 1 + 2) = 4 ∧
    ∃ q : Pid1Params ℝ, q.antiwindup = 2 ∧ q.upper = 4 ∧ q.lower = -1 ∧
      (q.resetIntegral = false ∨ 0 < q.antiwindup) := by
  have h : (Flt.eps : ℝ) ≤ 4 - -1 := by rw [eps_real]; norm_num
  refine ⟨by norm_num [scalarIntegral, windup], by norm_num [scalarIntegral, windup],
    by norm_num [scalarIntegral, windup], by rw [limited, if_pos h]; norm_num,
    ⟨1, 1, 0, 2, 1, true, 4, -1⟩, rfl, rfl, rfl, .inr (by norm_num)⟩

/-! ## C97 -/

lemma control1_limits (p : Pid1 ℝ) (h : Sane p) (dt e : ℝ) (r : Pid1 ℝ × ℝ) (hr : p.computeControl dt e = some r) :
    Sane r.1 ∧ limitsOf r.1 = limitsOf p ∧
      r.2 = within (limitsOf p) (r.1.propContrib + r.1.intContrib + r.1.derivContrib) := by
  have hi := sane_control h e
  have hl := sane_firstRunInit (p := p) e
  unfold Pid1.computeControl at hr
  simp only [] at hr
  split at hr
  · simp at hr
  · rename_i acc hacc
    rw [finish1_real _ (by exact hi)] at hr
    obtain rfl := Option.some.inj hr
    exact ⟨hi, hl, by rw [← hl]; rfl⟩

lemma controlD1_limits (p : Pid1 ℝ) (h : Sane p) (dt e de : ℝ) (r : Pid1 ℝ × ℝ)
    (hr : p.computeControlD dt e de = some r) :
    Sane r.1 ∧ limitsOf r.1 = limitsOf p ∧
      r.2 = within (limitsOf p) (r.1.propContrib + r.1.intContrib + r.1.derivContrib) := by
  have hi := sane_control h e
  have hl := sane_firstRunInit (p := p) e
  unfold Pid1.computeControlD at hr
  simp only [] at hr
  split at hr
  · simp at hr
  · rename_i acc hacc
    rw [finish1_real _ (by exact hi)] at hr
    obtain rfl := Option.some.inj hr
    exact ⟨hi, hl, by rw [← hl]; rfl⟩

lemma step1_limits (p : Pid1 ℝ) (h : Sane p) (o : Pid1Op ℝ) (r : Pid1 ℝ × Option ℝ) (hr : p.step o = some r) :
    Sane r.1 ∧ limitsOf r.1 = scalarLimits (limitsOf p) o ∧ ∀ out, r.2 = some out →
      out = within (limitsOf p) (r.1.propContrib + r.1.intContrib + r.1.derivContrib) := by
  cases o with
  | control dt e =>
    simp only [Pid1.step, Option.map_eq_some_iff] at hr
    obtain ⟨a, ha, rfl⟩ := hr
    obtain ⟨h1, h2, h3⟩ := control1_limits p h dt e a ha
    exact ⟨h1, h2, fun out ho => by rw [← Option.some.inj ho, h3]⟩
  | controlD dt e de =>
    simp only [Pid1.step, Option.map_eq_some_iff] at hr
    obtain ⟨a, ha, rfl⟩ := hr
    obtain ⟨h1, h2, h3⟩ := controlD1_limits p h dt e de a ha
    exact ⟨h1, h2, fun out ho => by rw [← Option.some.inj ho, h3]⟩
  | updateParams q =>
    obtain rfl := Option.some.inj hr
    refine ⟨?_, ?_, by simp⟩
    all_goals simp only [update1_real]
    · by_cases hq : (Flt.eps : ℝ) ≤ q.upper - q.lower <;> simp [hq, Sane, Pid1.disableSat]
    · by_cases hq : (Flt.eps : ℝ) ≤ q.upper - q.lower <;> simp [hq, limitsOf, scalarLimits, Pid1.disableSat]
  | setOutputSaturation u l =>
    obtain rfl := Option.some.inj hr
    refine ⟨?_, ?_, by simp⟩
    all_goals simp only [setSat1_real]
    · by_cases hq : (Flt.eps : ℝ) ≤ u - l <;> simp [hq, Sane, Pid1.disableSat]
    · by_cases hq : (Flt.eps : ℝ) ≤ u - l <;> simp [hq, limitsOf, scalarLimits, Pid1.disableSat]
  | disableSat =>
    obtain rfl := Option.some.inj hr
    exact ⟨fun hf => by simp [Pid1.disableSat] at hf, by simp [limitsOf, scalarLimits, Pid1.disableSat], by simp⟩
  | _ =>
    obtain rfl := Option.some.inj hr
    exact ⟨h, rfl, by simp⟩

lemma run1_limits (os : List (Pid1Op ℝ)) (p : Pid1 ℝ) (h : Sane p) (r : Pid1 ℝ × List (Option ℝ))
    (hr : p.run os = some r) : Sane r.1 ∧ limitsOf r.1 = os.foldl scalarLimits (limitsOf p) := by
  induction os generalizing p r with
  | nil => obtain rfl := Option.some.inj hr; exact ⟨h, rfl⟩
  | cons o os ih =>
    simp only [Pid1.run] at hr
    cases hs : p.step o with
    | none => simp [hs] at hr
    | some a =>
      cases ht : a.1.run os with
      | none => simp [hs, ht] at hr
      | some t =>
        simp only [hs, ht] at hr
        obtain rfl := Option.some.inj hr
        obtain ⟨h1, h2, -⟩ := step1_limits p h o a hs
        obtain ⟨h3, h4⟩ := ih a.1 h1 t ht
        exact ⟨h3, by rw [h4, h2]; rfl⟩

/-- **C97, scalar PID.** At any point of any history, what a control call returns is the sum of the three
contributions that the getters report, brought into the limits that the configuration calls so far have put in
force: the last accepted ones, or none, if limits have been rejected or switched off since. -/
theorem C97_limits_scalar (q : Pid1Params ℝ) (os : List (Pid1Op ℝ)) (r : Pid1 ℝ × List (Option ℝ))
    (hr : (Pid1.mk' q).run os = some r) (o : Pid1Op ℝ) (p : Pid1 ℝ) (out : ℝ) (ho : r.1.step o = some (p, some out)) :
    out = within ((Pid1Op.updateParams q :: os).foldl scalarLimits none)
      (p.propContrib + p.intContrib + p.derivContrib) := by
  obtain ⟨m1, m2, -⟩ := mk1_real q
  obtain ⟨h1, h2⟩ := run1_limits os _ m1 r hr
  obtain ⟨-, -, h3⟩ := step1_limits r.1 h1 o _ ho
  rw [h3 out rfl, h2, m2]
  rfl

/-- The limits of the vector PID, as the specification keeps them. -/
noncomputable def limitsOfV {n : ℕ} (p : Pid ℝ n) : Option (Vec n ℝ × Vec n ℝ) :=
  if p.satFlag then some (p.upper, p.lower) else none

lemma orderedLimits_iff {n : ℕ} (u l : Vec n ℝ) : OrderedLimits u l ↔ ∀ i, Pid.AxisOk u l i :=
  forall_congr' fun i => (Pid.axisOk_real u l i).symm

open Classical in
lemma setSatV {n : ℕ} (p : Pid ℝ n) (u l : Vec n ℝ) (b : Bool) :
    limitsOfV (p.setOutputSaturation u l b) = (if OrderedLimits u l then some (u, l) else none) ∧
    (p.setOutputSaturation u l b).propSat = if OrderedLimits u l then b else p.propSat := by
  by_cases h : OrderedLimits u l
  · rw [Pid.setOutputSaturation_ok _ _ _ _ ((orderedLimits_iff u l).1 h)]
    simp [limitsOfV, h]
  · obtain ⟨v, w, hv, -⟩ := Pid.setOutputSaturation_bad u l b p (fun h' => h ((orderedLimits_iff u l).2 h'))
    rw [hv]
    simp [limitsOfV, h]

lemma nonZero_of_ordered {n : ℕ} (i : Fin n) {u l : Vec n ℝ} (h : (Flt.eps : ℝ) ≤ u i - l i) :
    (Pid.nonZero l || Pid.nonZero u) = true := by
  have := eps_pos
  by_contra hc
  simp only [Bool.or_eq_true, not_or, Bool.not_eq_true, Pid.nonZero, List.any_eq_false] at hc
  have h1 := hc.1 i (List.mem_finRange i)
  have h2 := hc.2 i (List.mem_finRange i)
  simp only [flt, Bool.not_eq_false', decide_eq_true_eq] at h1 h2
  rw [h1, h2] at h
  linarith

open Classical in
lemma updateV {n : ℕ} (hn : 0 < n) (p : Pid ℝ n) (q : PidParams ℝ n) :
    limitsOfV (p.updateParams q) = (if OrderedLimits q.upper q.lower then some (q.upper, q.lower) else none) ∧
    (p.updateParams q).propSat = q.propSat := by
  unfold Pid.updateParams
  simp only []
  split
  · obtain ⟨h1, h2⟩ := setSatV (((((p.setGains q.kp q.ki q.kd).setAntiWindup q.antiwindup).setAlpha
      q.alpha).setResetIntegral q.resetIntegral).setPropSat q.propSat) q.upper q.lower q.propSat
    refine ⟨h1, h2.trans ?_⟩
    split <;> rfl
  · rename_i hz
    rw [if_neg]
    · exact ⟨rfl, rfl⟩
    · intro h
      exact hz (nonZero_of_ordered ⟨0, hn⟩ (h ⟨0, hn⟩))

lemma stepV {n : ℕ} (hn : 0 < n) (p : Pid ℝ n) (hp : p.propSat = false) (o : PidOp ℝ n) (ho : PerAxisOp o) :
    limitsOfV (p.step o).1 = vectorLimits (limitsOfV p) o ∧ (p.step o).1.propSat = false := by
  cases o with
  | updateParams q => exact ⟨(updateV hn p q).1, (updateV hn p q).2.trans ho⟩
  | setOutputSaturation u l b =>
    refine ⟨(setSatV p u l b).1, (setSatV p u l b).2.trans ?_⟩
    split
    · exact ho
    · exact hp
  | disableSat => exact ⟨rfl, hp⟩
  | control dt e =>
    obtain ⟨-, -, -, -, -, -, h1, h2, h3, h4⟩ := Pid.computeControl_config p dt e
    exact ⟨by simp only [Pid.step, limitsOfV, h1, h3, h4, vectorLimits], by simp only [Pid.step, h2, hp]⟩
  | controlD dt e de =>
    obtain ⟨-, -, -, -, -, -, h1, h2, h3, h4⟩ := Pid.computeControlD_config p dt e de
    exact ⟨by simp only [Pid.step, limitsOfV, h1, h3, h4, vectorLimits], by simp only [Pid.step, h2, hp]⟩
  | setPropSat b => exact ⟨rfl, ho⟩
  | _ => exact ⟨rfl, hp⟩

lemma runV {n : ℕ} (hn : 0 < n) (os : List (PidOp ℝ n)) (ho : ∀ o ∈ os, PerAxisOp o) (p : Pid ℝ n)
    (hp : p.propSat = false) :
    limitsOfV (p.run os).1 = os.foldl vectorLimits (limitsOfV p) ∧ (p.run os).1.propSat = false := by
  induction os generalizing p with
  | nil => exact ⟨rfl, hp⟩
  | cons o os ih =>
    obtain ⟨h1, h2⟩ := stepV hn p hp o (ho o (by simp))
    obtain ⟨h3, h4⟩ := ih (fun o' h' => ho o' (by simp [h'])) _ h2
    exact ⟨by rw [Pid.run]; simp only [h3, h1]; rfl, h4⟩

/-- **C97, vector PID.** The same on every axis of the vector PID, as long as proportional limiting is not
requested: the limits in force are those of the last configuration call about limits, if they are ordered on every axis,
and none otherwise. -/
theorem C97_limits_vector {n : ℕ} (q : PidParams ℝ n) (hq : q.propSat = false) (os : List (PidOp ℝ n))
    (ho : ∀ o ∈ os, PerAxisOp o) (o : PidOp ℝ n) (out : Vec n ℝ)
    (h : (((Pid.mk' q).run os).1.step o).2 = some out) (i : Fin n) :
    let p := (((Pid.mk' q).run os).1.step o).1
    out i = within (((PidOp.updateParams q :: os).foldl vectorLimits none).map fun c => (c.1 i, c.2 i))
      (p.propContrib i + p.intContrib i + p.derivContrib i) := by
  have hn : 0 < n := i.pos
  obtain ⟨m1, m2⟩ := updateV hn Pid.init q
  have e0 : limitsOfV (Pid.mk' q) = vectorLimits none (.updateParams q) := m1
  obtain ⟨h1, h2⟩ := runV hn os ho (Pid.mk' q) (m2.trans hq)
  rw [e0] at h1
  have hok := Pid.LimitsOk.run q os
  intro p
  rw [List.foldl_cons, ← h1]
  have key : ∀ (f : Bool) (v : Vec n ℝ), f = ((Pid.mk' q).run os).1.satFlag →
      (if f then Pid.saturateOutput v ((Pid.mk' q).run os).1.upper ((Pid.mk' q).run os).1.lower
        ((Pid.mk' q).run os).1.propSat else v) i =
      within ((limitsOfV ((Pid.mk' q).run os).1).map fun c => (c.1 i, c.2 i)) (v i) := by
    rintro f v rfl
    by_cases hf : ((Pid.mk' q).run os).1.satFlag = true
    · have := (Pid.axisOk_real _ _ _).1 (hok hf i)
      have := eps_pos
      simp only [hf, if_true, h2, Pid.saturateOutput, Bool.not_false, limitsOfV, Option.map_some, within, flt,
        decide_eq_true_eq]
      split_ifs with g1 g2
      · rw [min_eq_left g1.le, max_eq_right (by linarith)]
      · rw [min_eq_right (by linarith), max_eq_left g2.le]
      · rw [min_eq_right (by linarith), max_eq_right (by linarith)]
    · simp [hf, limitsOfV, within]
  cases o with
  | control dt e =>
    obtain rfl := Option.some.inj h
    rw [Pid.computeControl_snd, Pid.computeControl_output]
    exact key _ _ rfl
  | controlD dt e de =>
    obtain rfl := Option.some.inj h
    rw [Pid.computeControlD_snd, Pid.computeControlD_output]
    exact key _ _ rfl
  | _ => simp [Pid.step] at h

/-- Non-vacuity: limits that are accepted, replaced, and lost again by a rejected request; a call that returns a limited
output. -/
example : ∃ q : Pid1Params ℝ, q.kp = 5 ∧
    [Pid1Op.updateParams q, .setOutputSaturation 3 (-3)].foldl scalarLimits none = some (3, -3) ∧
    [Pid1Op.updateParams q, .setOutputSaturation 3 (-3), .setKp 1, .setOutputSaturation 0 5].foldl scalarLimits none
      = none ∧
    (∃ r, (Pid1.mk' q).run [.setOutputSaturation 3 (-3)] = some r ∧ ∃ p, r.1.step (.control 1 1) = some (p, some 3)) := by
  have e1 : (Flt.eps : ℝ) ≤ 1 - -1 := by rw [eps_real]; norm_num
  have e2 : (Flt.eps : ℝ) ≤ 3 - -3 := by rw [eps_real]; norm_num
  have e3 : ¬ (Flt.eps : ℝ) ≤ 0 - 5 := by rw [eps_real]; norm_num
  refine ⟨⟨5, 0, 0, 0, 1, false, 1, -1⟩, rfl, by simp only [List.foldl, scalarLimits, if_pos e2],
    by simp only [List.foldl, scalarLimits, if_neg e3], _, rfl, ?_⟩
  obtain ⟨m1, m2, m3, m4, m5, m6, m7, m8, m9⟩ := mk1_real ⟨5, 0, 0, 0, 1, false, 1, -1⟩
  set p := Pid1.mk' (⟨5, 0, 0, 0, 1, false, 1, -1⟩ : Pid1Params ℝ)
  have h := control1_real (p.setOutputSaturation 3 (-3)) (by rw [Pid1.setSat_aw, m6]) (by
    rw [setSat1_real, if_pos e2]; exact fun _ => e2) 1 1
  have key : ∀ (x : Option (Pid1 ℝ × ℝ)) (y : Pid1 ℝ × ℝ), x = some y → y.2 = 3 →
      ∃ p, x.map (fun r => (r.1, some r.2)) = some (p, some 3) := by
    rintro x ⟨y, z⟩ rfl rfl; exact ⟨_, rfl⟩
  refine key _ _ h ?_
  show within _ _ = 3
  rw [setSat1_real, if_pos e2]
  simp [limitsOf, within, m3, m4, m5]
  norm_num

/-! ## C98 -/

section
variable {α : Type} [Flt α]

/-- Same configuration, same first-run status and, if running, same memory. -/
def Rel1 (p q : Pid1 α) : Prop :=
  q = { p with
    firstRun := q.firstRun, integral := q.integral, filtered := q.filtered, propErr := q.propErr
    derivErr := q.derivErr, propContrib := q.propContrib, intContrib := q.intContrib
    derivContrib := q.derivContrib, output := q.output } ∧ p.firstRun = q.firstRun ∧
  (p.firstRun = false → p.integral = q.integral ∧ p.filtered = q.filtered ∧ p.propErr = q.propErr)

/-- Same configuration. -/
def Same1 (p q : Pid1 α) : Prop :=
  p.kp = q.kp ∧ p.ki = q.ki ∧ p.kd = q.kd ∧ p.antiwindup = q.antiwindup ∧ p.alpha = q.alpha ∧
  p.resetIntegral = q.resetIntegral ∧ p.satFlag = q.satFlag ∧ p.upper = q.upper ∧ p.lower = q.lower

omit [Flt α] in
lemma rel1_iff (p q : Pid1 α) : Rel1 p q ↔ Same1 p q ∧ p.firstRun = q.firstRun ∧
    (p.firstRun = false → p.integral = q.integral ∧ p.filtered = q.filtered ∧ p.propErr = q.propErr) := by
  refine and_congr_left fun _ => ⟨fun h => ?_, fun h => ?_⟩
  · rw [h]; exact ⟨rfl, rfl, rfl, rfl, rfl, rfl, rfl, rfl, rfl⟩
  · obtain ⟨h1, h2, h3, h4, h5, h6, h7, h8, h9⟩ := h
    ext <;> simp [h1, h2, h3, h4, h5, h6, h7, h8, h9]

/-- Two results related, or both undefined. -/
def Both {β : Type} (R : β → β → Prop) : Option β → Option β → Prop
  | none, none => True
  | some a, some b => R a b
  | _, _ => False

omit [Flt α] in
lemma both_map {β γ : Type} {R : γ → γ → Prop} (x : Option β) (f g : β → γ) (h : ∀ b, R (f b) (g b)) :
    Both R (x.map f) (x.map g) := by
  cases x
  · trivial
  · exact h _

/-- The memory at the start of a control call, for related controllers. -/
lemma rel1_start {p q : Pid1 α} (h : Rel1 p q) (e : α) : ∃ a b c,
    p.firstRunInit e = { p with firstRun := false, integral := a, propErr := b, filtered := c } ∧
    q.firstRunInit e = { q with firstRun := false, integral := a, propErr := b, filtered := c } := by
  obtain ⟨-, hf, hm⟩ := h
  unfold Pid1.firstRunInit
  by_cases hp : p.firstRun = true
  · rw [if_pos hp, if_pos (hf ▸ hp)]; exact ⟨_, _, _, rfl, rfl⟩
  · have hp' : p.firstRun = false := by simpa using hp
    obtain ⟨g1, g2, g3⟩ := hm hp'
    have hq' : q.firstRun = false := hf ▸ hp'
    rw [if_neg hp, if_neg (hf ▸ hp)]
    refine ⟨p.integral, p.propErr, p.filtered, ?_, ?_⟩
    · ext <;> simp [hp']
    · ext <;> simp [hq', g1, g2, g3]

lemma rel1_control {p q : Pid1 α} (h : Rel1 p q) (dt e : α) :
    Both (fun a b => Rel1 a.1 b.1 ∧ a.2 = b.2) (p.computeControl dt e) (q.computeControl dt e) := by
  obtain ⟨⟨h1, h2, h3, h4, h5, h6, h7, h8, h9⟩, -⟩ := (rel1_iff p q).1 h
  obtain ⟨a, b, c, hp, hq⟩ := rel1_start h e
  unfold Pid1.computeControl
  rw [hp, hq]
  have hacc : ({ p with
        firstRun := false, integral := a, propErr := b, filtered := c, propContrib := p.kp ⊠ e } : Pid1 α).accumulate dt e =
      ({ q with
        firstRun := false, integral := a, propErr := b, filtered := c, propContrib := q.kp ⊠ e } : Pid1 α).accumulate dt e := by
    simp only [Pid1.accumulate, Pid1.resetAcc, h4, h6]
  simp only [hacc]
  cases ({ q with
        firstRun := false, integral := a, propErr := b, filtered := c, propContrib := q.kp ⊠ e } : Pid1 α).accumulate dt e with
  | none => trivial
  | some acc =>
    simp only [Pid1.filter, Pid1.finishOutput, h1, h2, h3, h5, h7, h8, h9]
    by_cases hs : q.satFlag = true
    · simp only [hs, if_true]
      cases stdClamp (q.kp ⊠ e ⊞ q.ki ⊠ acc ⊞ q.kd ⊠ (q.alpha ⊠ ((e ⊟ b) ⊘ dt) ⊞ (lit 1 ⊟ q.alpha) ⊠ c))
          q.lower q.upper with
      | none => trivial
      | some o =>
        exact ⟨(rel1_iff _ _).2 ⟨⟨rfl, rfl, rfl, h4, rfl, h6, rfl, rfl, rfl⟩, rfl, fun _ => ⟨rfl, rfl, rfl⟩⟩, rfl⟩
    · simp only [hs]
      exact ⟨(rel1_iff _ _).2 ⟨⟨rfl, rfl, rfl, h4, rfl, h6, rfl, rfl, rfl⟩, rfl, fun _ => ⟨rfl, rfl, rfl⟩⟩, rfl⟩

lemma rel1_controlD {p q : Pid1 α} (h : Rel1 p q) (dt e de : α) :
    Both (fun a b => Rel1 a.1 b.1 ∧ a.2 = b.2) (p.computeControlD dt e de) (q.computeControlD dt e de) := by
  obtain ⟨⟨h1, h2, h3, h4, h5, h6, h7, h8, h9⟩, -⟩ := (rel1_iff p q).1 h
  obtain ⟨a, b, c, hp, hq⟩ := rel1_start h e
  unfold Pid1.computeControlD
  rw [hp, hq]
  have hacc : ({ p with
        firstRun := false, integral := a, propErr := b, filtered := c, propContrib := p.kp ⊠ e } : Pid1 α).accumulate dt e =
      ({ q with
        firstRun := false, integral := a, propErr := b, filtered := c, propContrib := q.kp ⊠ e } : Pid1 α).accumulate dt e := by
    simp only [Pid1.accumulate, Pid1.resetAcc, h4, h6]
  simp only [hacc]
  cases ({ q with
        firstRun := false, integral := a, propErr := b, filtered := c, propContrib := q.kp ⊠ e } : Pid1 α).accumulate dt e with
  | none => trivial
  | some acc =>
    simp only [Pid1.finishOutput, h1, h2, h3, h5, h7, h8, h9]
    by_cases hs : q.satFlag = true
    · simp only [hs, if_true]
      cases stdClamp (q.kp ⊠ e ⊞ q.ki ⊠ acc ⊞ q.kd ⊠ de) q.lower q.upper with
      | none => trivial
      | some o =>
        exact ⟨(rel1_iff _ _).2 ⟨⟨rfl, rfl, rfl, h4, rfl, h6, rfl, rfl, rfl⟩, rfl, fun _ => ⟨rfl, rfl, rfl⟩⟩, rfl⟩
    · simp only [hs]
      exact ⟨(rel1_iff _ _).2 ⟨⟨rfl, rfl, rfl, h4, rfl, h6, rfl, rfl, rfl⟩, rfl, fun _ => ⟨rfl, rfl, rfl⟩⟩, rfl⟩

/-- What a configuration call does, as a function. -/
def config1 (p : Pid1 α) (o : Pid1Op α) : Pid1 α := ((p.step o).map (·.1)).getD p

lemma step_config1 (p : Pid1 α) (o : Pid1Op α) (ho : isConfig1 o = true) : p.step o = some (config1 p o, none) := by
  cases o <;> first | rfl | simp [isConfig1] at ho

lemma same1_config {p q : Pid1 α} (h : Same1 p q) (o : Pid1Op α) (ho : isConfig1 o = true) :
    Same1 (config1 p o) (config1 q o) := by
  obtain ⟨h1, h2, h3, h4, h5, h6, h7, h8, h9⟩ := h
  cases o with
  | control => simp [isConfig1] at ho
  | controlD => simp [isConfig1] at ho
  | updateParams r =>
    simp only [config1, Pid1.step, Option.map_some, Option.getD_some, Pid1.updateParams, Pid1.setOutputSaturation]
    split_ifs <;> simp [Same1, Pid1.setGains, Pid1.setAntiWindup, Pid1.setAlpha, Pid1.setResetIntegral,
      Pid1.disableSat, h8, h9]
  | setOutputSaturation u l =>
    simp only [config1, Pid1.step, Option.map_some, Option.getD_some, Pid1.setOutputSaturation]
    split_ifs <;> simp [Same1, Pid1.disableSat, h1, h2, h3, h4, h5, h6, h8, h9]
  | _ => simp [config1, Pid1.step, Same1, Pid1.setGains, Pid1.setAntiWindup, Pid1.setAlpha, Pid1.setResetIntegral,
      Pid1.disableSat, Pid1.setKp, Pid1.setKi, Pid1.setKd, Pid1.reset, h1, h2, h3, h4, h5, h6, h7, h8, h9]

lemma memory1_config (p : Pid1 α) (o : Pid1Op α) (ho : isConfig1 o = true) :
    ((config1 p o).firstRun = true ∨ (config1 p o).firstRun = p.firstRun) ∧
    ((config1 p o).firstRun = p.firstRun ∨ ∀ q : Pid1 α, (config1 q o).firstRun = true) ∧
    (config1 p o).integral = p.integral ∧
    (config1 p o).filtered = p.filtered ∧ (config1 p o).propErr = p.propErr := by
  cases o with
  | control => simp [isConfig1] at ho
  | controlD => simp [isConfig1] at ho
  | updateParams r =>
    simp only [config1, Pid1.step, Option.map_some, Option.getD_some, Pid1.updateParams, Pid1.setOutputSaturation]
    split_ifs <;> simp [Pid1.setGains, Pid1.setAntiWindup, Pid1.setAlpha, Pid1.setResetIntegral, Pid1.disableSat]
  | setOutputSaturation u l =>
    simp only [config1, Pid1.step, Option.map_some, Option.getD_some, Pid1.setOutputSaturation]
    split_ifs <;> simp [Pid1.disableSat]
  | _ => simp [config1, Pid1.step, Pid1.setGains, Pid1.setAntiWindup, Pid1.setAlpha, Pid1.setResetIntegral,
      Pid1.disableSat, Pid1.setKp, Pid1.setKi, Pid1.setKd, Pid1.reset]

lemma rel1_step {p q : Pid1 α} (h : Rel1 p q) (o : Pid1Op α) :
    Both (fun a b => Rel1 a.1 b.1 ∧ a.2 = b.2) (p.step o) (q.step o) := by
  by_cases ho : isConfig1 o = true
  · rw [step_config1 p o ho, step_config1 q o ho]
    obtain ⟨hs, hf, hm⟩ := (rel1_iff p q).1 h
    refine ⟨(rel1_iff _ _).2 ⟨same1_config hs o ho, ?_, ?_⟩, rfl⟩
    · rcases (memory1_config p o ho).2.1 with h1 | h1
      · rcases (memory1_config q o ho).2.1 with h2 | h2
        · rw [h1, h2, hf]
        · rw [h2 p, h2 q]
      · rw [h1 p, h1 q]
    · intro hr
      obtain ⟨-, -, p1, p2, p3⟩ := memory1_config p o ho
      obtain ⟨-, -, q1, q2, q3⟩ := memory1_config q o ho
      rw [p1, p2, p3, q1, q2, q3]
      refine hm ?_
      rcases (memory1_config p o ho).1 with h1 | h1
      · rw [h1] at hr; simp at hr
      · rw [← h1]; exact hr
  · cases o with
    | control dt e =>
      have := rel1_control h dt e
      simp only [Pid1.step]
      cases hp : p.computeControl dt e <;> cases hq : q.computeControl dt e <;> rw [hp, hq] at this
      · trivial
      · exact this.elim
      · exact this.elim
      · exact ⟨this.1, congrArg some this.2⟩
    | controlD dt e de =>
      have := rel1_controlD h dt e de
      simp only [Pid1.step]
      cases hp : p.computeControlD dt e de <;> cases hq : q.computeControlD dt e de <;> rw [hp, hq] at this
      · trivial
      · exact this.elim
      · exact this.elim
      · exact ⟨this.1, congrArg some this.2⟩
    | _ => simp [isConfig1] at ho

lemma rel1_run (os : List (Pid1Op α)) {p q : Pid1 α} (h : Rel1 p q) :
    (p.run os).map (·.2) = (q.run os).map (·.2) := by
  induction os generalizing p q with
  | nil => rfl
  | cons o os ih =>
    have hs := rel1_step h o
    simp only [Pid1.run]
    cases hp : p.step o <;> cases hq : q.step o <;> simp only [hp, hq] at hs
    · rfl
    · exact hs.elim
    · exact hs.elim
    · rename_i a b
      have ht := ih hs.1
      simp only []
      cases ha : a.1.run os <;> cases hb : b.1.run os <;> simp only [ha, hb] at ht
      · rfl
      · simp at ht
      · simp at ht
      · simp only [Option.map_some, Option.some.injEq] at ht ⊢
        rw [hs.2, ht]

lemma same1_control (p : Pid1 α) (o : Pid1Op α) (ho : isConfig1 o = false) (r : Pid1 α × Option α)
    (hr : p.step o = some r) : Same1 r.1 p := by
  cases o with
  | control dt e =>
    simp only [Pid1.step, Option.map_eq_some_iff] at hr
    obtain ⟨a, ha, rfl⟩ := hr
    unfold Pid1.computeControl at ha
    simp only [] at ha
    split at ha
    · simp at ha
    · split at ha
      · simp at ha
      · rename_i p' hp'
        obtain rfl := Option.some.inj ha
        unfold Pid1.finishOutput at hp'
        simp only [] at hp'
        split at hp'
        · simp only [Option.map_eq_some_iff] at hp'
          obtain ⟨o, -, rfl⟩ := hp'
          simp only [Same1, Pid1.firstRunInit]
          split <;> simp
        · obtain rfl := Option.some.inj hp'
          simp only [Same1, Pid1.firstRunInit]
          split <;> simp
  | controlD dt e de =>
    simp only [Pid1.step, Option.map_eq_some_iff] at hr
    obtain ⟨a, ha, rfl⟩ := hr
    unfold Pid1.computeControlD at ha
    simp only [] at ha
    split at ha
    · simp at ha
    · split at ha
      · simp at ha
      · rename_i p' hp'
        obtain rfl := Option.some.inj ha
        unfold Pid1.finishOutput at hp'
        simp only [] at hp'
        split at hp'
        · simp only [Option.map_eq_some_iff] at hp'
          obtain ⟨o, -, rfl⟩ := hp'
          simp only [Same1, Pid1.firstRunInit]
          split <;> simp
        · obtain rfl := Option.some.inj hp'
          simp only [Same1, Pid1.firstRunInit]
          split <;> simp
  | _ => simp [isConfig1] at ho

omit [Flt α] in
lemma same1_trans {p q r : Pid1 α} (h : Same1 p q) (h' : Same1 q r) : Same1 p r := by
  obtain ⟨h1, h2, h3, h4, h5, h6, h7, h8, h9⟩ := h
  obtain ⟨g1, g2, g3, g4, g5, g6, g7, g8, g9⟩ := h'
  exact ⟨h1.trans g1, h2.trans g2, h3.trans g3, h4.trans g4, h5.trans g5, h6.trans g6, h7.trans g7,
    h8.trans g8, h9.trans g9⟩

/-- Dropping the control calls does not change the final configuration. -/
lemma same1_run (os : List (Pid1Op α)) {p q : Pid1 α} (h : Same1 p q) (hq : q.firstRun = true)
    (r : Pid1 α × List (Option α)) (hr : p.run os = some r) :
    ∃ t, q.run (os.filter isConfig1) = some t ∧ Same1 r.1 t.1 ∧ t.1.firstRun = true := by
  induction os generalizing p q r with
  | nil => obtain rfl := Option.some.inj hr; exact ⟨_, rfl, h, hq⟩
  | cons o os ih =>
    simp only [Pid1.run] at hr
    cases hs : p.step o with
    | none => simp [hs] at hr
    | some a =>
      cases ht : a.1.run os with
      | none => simp [hs, ht] at hr
      | some t =>
        simp only [hs, ht] at hr
        obtain rfl := Option.some.inj hr
        by_cases ho : isConfig1 o = true
        · rw [List.filter_cons_of_pos ho]
          rw [step_config1 p o ho] at hs
          obtain rfl := Option.some.inj hs
          have hf : (config1 q o).firstRun = true := by
            rcases (memory1_config q o ho).1 with h1 | h1
            · exact h1
            · rw [h1, hq]
          obtain ⟨t', h1, h2, h3⟩ := ih (same1_config h o ho) hf t ht
          refine ⟨(t'.1, none :: t'.2), ?_, h2, h3⟩
          simp only [Pid1.run, step_config1 q o ho, h1]
        · rw [List.filter_cons_of_neg ho]
          exact ih (same1_trans (same1_control p o (by simpa using ho) a hs) h) hq t ht

/-- **C98.** After any history, `reset_controller` makes the scalar PID return, for every later sequence of calls,
exactly the values returned by a newly constructed PID that received the same configuration calls but never computed
anything (undefined calls included).  Any arithmetic. -/
theorem C98_scalar_reset (q : Pid1Params α) (os later : List (Pid1Op α)) (r : Pid1 α × List (Option α))
    (hr : (Pid1.mk' q).run os = some r) :
    ∃ t, (Pid1.mk' q).run (os.filter isConfig1) = some t ∧
      (r.1.reset.run later).map (·.2) = (t.1.run later).map (·.2) := by
  obtain ⟨t, h1, h2, h3⟩ := same1_run os (p := Pid1.mk' q) (q := Pid1.mk' q)
    ⟨rfl, rfl, rfl, rfl, rfl, rfl, rfl, rfl, rfl⟩ rfl r hr
  refine ⟨t, h1, rel1_run later ((rel1_iff _ _).2 ⟨h2, h3.symm, fun h => ?_⟩)⟩
  simp [Pid1.reset] at h

end

/-- **C98, no derivative kick.** The first control call after a reset has no derivative contribution, whatever
happened before. -/
theorem C98_scalar_no_kick (q : Pid1Params ℝ) (os : List (Pid1Op ℝ)) (r : Pid1 ℝ × List (Option ℝ))
    (hr : (Pid1.mk' q).run os = some r) (dt e : ℝ) (_hdt : dt ≠ 0) (t : Pid1 ℝ × ℝ)
    (ht : r.1.reset.computeControl dt e = some t) : t.1.derivContrib = 0 := by
  have hs : Sane r.1.reset := (run1_limits os _ (mk1_real q).1 r hr).1
  have hi : r.1.reset.firstRunInit e = { r.1.reset with
      firstRun := false, integral := 0, propErr := e, filtered := 0 } := by
    simp [Pid1.firstRunInit, Pid1.reset, flt]
  unfold Pid1.computeControl at ht
  rw [hi] at ht
  simp only [] at ht
  split at ht
  · simp at ht
  · rw [finish1_real _ (by exact hs)] at ht
    obtain rfl := Option.some.inj ht
    simp [Pid1.filter, flt]

/-- Non-vacuity: a history with an output, a change of gains and a reset; the controller had memory before. -/
example : ∃ (q : Pid1Params ℝ) (os : List (Pid1Op ℝ)) (r : Pid1 ℝ × List (Option ℝ)),
    (Pid1.mk' q).run os = some r ∧ os.length = 2 ∧ r.1.firstRun = false ∧ r.1.integral ≠ 0 ∧
    ∃ t, r.1.reset.computeControl 1 2 = some t := by
  obtain ⟨m1, m2, m3, m4, m5, m6, m7, m8, m9⟩ := mk1_real ⟨1, 1, 1, 0, 1, false, 0, 0⟩
  set p := Pid1.mk' (⟨1, 1, 1, 0, 1, false, 0, 0⟩ : Pid1Params ℝ)
  have h := control1_real (p.setKp 4) m6.ge m1 1 3
  have hf : (p.setKp 4).firstRun = true := m9
  have hs : Sane (p.setKp 4) := m1
  have hw : (p.setKp 4).antiwindup = 0 := m6
  obtain ⟨y, hy, h1, h2, h3, h4⟩ : ∃ y, (p.setKp 4).computeControl 1 3 = some y ∧ y.1.firstRun = false ∧
      y.1.integral = 3 ∧ y.1.antiwindup = 0 ∧ Sane y.1 := by
    refine ⟨_, h, ?_, ?_, ?_, ?_⟩
    · simp [Pid1.firstRunInit, hf]
    · have : (p.setKp 4).resetIntegral = false := m8
      simp [Pid1.firstRunInit, hf, hw, windup, Pid1.resetAcc, this, flt]
    · simp [Pid1.firstRunInit, hf, hw]
    · simp only [Pid1.firstRunInit, hf, if_true]; exact hs
  refine ⟨⟨1, 1, 1, 0, 1, false, 0, 0⟩, [.setKp 4, .control 1 3], (y.1, [none, some y.2]), ?_, rfl, h1, ?_, _,
    control1_real y.1.reset h3.ge h4 1 2⟩
  · show p.run _ = _
    simp [Pid1.run, Pid1.step, hy]
  · rw [h2]; norm_num

/-! ## C99 -/

lemma last_run1 {α β : Type} [Flt α] (g : Pid1 α → β) (w : Pid1Op α → Option β)
    (hs : ∀ p o r, Pid1.step p o = some r → g r.1 = (w o).getD (g p)) (os : List (Pid1Op α)) (p : Pid1 α)
    (r : Pid1 α × List (Option α)) (hr : p.run os = some r) : g r.1 = lastWritten w (g p) os := by
  induction os generalizing p r with
  | nil => obtain rfl := Option.some.inj hr; rfl
  | cons o os ih =>
    simp only [Pid1.run] at hr
    cases ha : p.step o with
    | none => simp [ha] at hr
    | some a =>
      cases hb : a.1.run os with
      | none => simp [ha, hb] at hr
      | some t =>
        simp only [ha, hb] at hr
        obtain rfl := Option.some.inj hr
        rw [ih a.1 t hb, hs p o a ha]; rfl

lemma last_run {α β : Type} [Flt α] {n : ℕ} (g : Pid α n → β) (w : PidOp α n → Option β)
    (hs : ∀ p o, g (Pid.step p o).1 = (w o).getD (g p)) (os : List (PidOp α n)) (p : Pid α n) :
    g (p.run os).1 = lastWritten w (g p) os := by
  induction os generalizing p with
  | nil => rfl
  | cons o os ih =>
    show g ((p.step o).1.run os).1 = _
    rw [ih, hs]; rfl

lemma written1 (p : Pid1 ℝ) (o : Pid1Op ℝ) (r : Pid1 ℝ × Option ℝ) (hr : p.step o = some r) :
    r.1.kp = (writesKp1 o).getD p.kp ∧ r.1.ki = (writesKi1 o).getD p.ki ∧ r.1.kd = (writesKd1 o).getD p.kd ∧
    r.1.antiwindup = (writesAw1 o).getD p.antiwindup ∧ r.1.alpha = (writesAlpha1 o).getD p.alpha ∧
    r.1.resetIntegral = (writesFlag1 o).getD p.resetIntegral ∧
    (r.1.upper, r.1.lower) = (writesLimits1 o).getD (p.upper, p.lower) := by
  by_cases ho : isConfig1 o = true
  · rw [step_config1 p o ho] at hr
    obtain rfl := Option.some.inj hr
    cases o with
    | updateParams q =>
      simp only [config1, Pid1.step, Option.map_some, Option.getD_some, update1_real, writesKp1, writesKi1, writesKd1,
        writesAw1, writesAlpha1, writesFlag1, writesLimits1]
      split_ifs <;> simp [Pid1.disableSat]
    | setOutputSaturation u l =>
      simp only [config1, Pid1.step, Option.map_some, Option.getD_some, setSat1_real, writesKp1, writesKi1, writesKd1,
        writesAw1, writesAlpha1, writesFlag1, writesLimits1]
      split_ifs <;> simp [Pid1.disableSat]
    | control => simp [isConfig1] at ho
    | controlD => simp [isConfig1] at ho
    | _ => exact ⟨rfl, rfl, rfl, rfl, rfl, rfl, rfl⟩
  · obtain ⟨h1, h2, h3, h4, h5, h6, h7, h8, h9⟩ := same1_control p o (by simpa using ho) r hr
    cases o with
    | control => exact ⟨h1, h2, h3, h4, h5, h6, by rw [h8, h9]; rfl⟩
    | controlD => exact ⟨h1, h2, h3, h4, h5, h6, by rw [h8, h9]; rfl⟩
    | _ => simp [isConfig1] at ho

/-- **C99.** `get_params` of the scalar PID returns, after any history (the constructor call counts as the first
configuration call), exactly the values written last: each gain, anti-windup, filter constant and flag by the last call
that carries it, and the limits by the last call whose limits were accepted — control calls, resets, rejected limits and
`disable_output_saturation` change none of them. -/
theorem C99_read_back_scalar (q : Pid1Params ℝ) (os : List (Pid1Op ℝ)) (r : Pid1 ℝ × List (Option ℝ))
    (hr : (Pid1.mk' q).run os = some r) :
    let all := Pid1Op.updateParams q :: os
    let lim := lastWritten writesLimits1 (0, 0) all
    r.1.getParams =
      { kp := lastWritten writesKp1 0 all, ki := lastWritten writesKi1 0 all, kd := lastWritten writesKd1 0 all
        antiwindup := lastWritten writesAw1 0 all, alpha := lastWritten writesAlpha1 0 all
        resetIntegral := lastWritten writesFlag1 false all, upper := lim.1, lower := lim.2 } := by
  intro all lim
  have hu := written1 Pid1.init (.updateParams q) _ rfl
  have hl : (r.1.upper, r.1.lower) = lim := by
    rw [last_run1 (fun p => (p.upper, p.lower)) writesLimits1 (fun p o r h => (written1 p o r h).2.2.2.2.2.2) os _ r hr]
    show lastWritten _ ((Pid1.init.updateParams q).upper, (Pid1.init.updateParams q).lower) os = _
    rw [hu.2.2.2.2.2.2]
    simp only [Pid1.init, flt]
    rfl
  have e1 := last_run1 (·.kp) writesKp1 (fun p o r h => (written1 p o r h).1) os _ r hr
  have e2 := last_run1 (·.ki) writesKi1 (fun p o r h => (written1 p o r h).2.1) os _ r hr
  have e3 := last_run1 (·.kd) writesKd1 (fun p o r h => (written1 p o r h).2.2.1) os _ r hr
  have e4 := last_run1 (·.antiwindup) writesAw1 (fun p o r h => (written1 p o r h).2.2.2.1) os _ r hr
  have e5 := last_run1 (·.alpha) writesAlpha1 (fun p o r h => (written1 p o r h).2.2.2.2.1) os _ r hr
  have e6 := last_run1 (·.resetIntegral) writesFlag1 (fun p o r h => (written1 p o r h).2.2.2.2.2.1) os _ r hr
  obtain ⟨m1, m2, m3, m4, m5, m6, m7, m8, m9⟩ := mk1_real q
  simp only [m3, m4, m5, m6, m7, m8] at e1 e2 e3 e4 e5 e6
  simp only [Pid1.getParams, e1, e2, e3, e4, e5, e6, ← hl]
  rfl

lemma diagonal_diag {n : ℕ} (v : Vec n ℝ) : mdiagonal (mdiag v) = v := by
  funext i; simp [mdiagonal, mdiag]

lemma setSatLoop_stored {n : ℕ} (u l : Vec n ℝ) (b : Bool) (is : List (Fin n)) (p : Pid ℝ n) (hu : p.upper = u)
    (hl : p.lower = l) : (Pid.setSatLoop u l b is p).upper = u ∧ (Pid.setSatLoop u l b is p).lower = l := by
  induction is generalizing p with
  | nil => exact ⟨hu, hl⟩
  | cons i is ih =>
    unfold Pid.setSatLoop
    split_ifs
    · exact ⟨hu, hl⟩
    · exact ⟨hu, hl⟩
    · exact ih _ rfl rfl

lemma setSat_stored {n : ℕ} (u l : Vec (n + 1) ℝ) (b : Bool) (p : Pid ℝ (n + 1)) :
    ((p.setOutputSaturation u l b).upper, (p.setOutputSaturation u l b).lower) =
      if (Flt.eps : ℝ) ≤ u 0 - l 0 then (u, l) else (p.upper, p.lower) := by
  unfold Pid.setOutputSaturation
  rw [List.finRange_succ]
  have hax := Pid.axisOk_real u l 0
  unfold Pid.AxisOk at hax
  unfold Pid.setSatLoop
  by_cases h : (Flt.eps : ℝ) ≤ u 0 - l 0
  · obtain ⟨h1, h2⟩ := hax.2 h
    rw [if_pos h, if_neg (by simp [h1]), if_neg (by simp [h2])]
    obtain ⟨e1, e2⟩ := setSatLoop_stored u l b (List.map Fin.succ (List.finRange n)) { p with upper := u, lower := l }
      rfl rfl
    rw [e1, e2]
  · rw [if_neg h]
    split_ifs with h1 h2
    · rfl
    · rfl
    · exact absurd (hax.1 ⟨by simpa using h1, by simpa using h2⟩) h

lemma written {n : ℕ} (p : Pid ℝ (n + 1)) (o : PidOp ℝ (n + 1)) :
    mdiagonal (p.step o).1.kpMat = (writesKp o).getD (mdiagonal p.kpMat) ∧
    mdiagonal (p.step o).1.kiMat = (writesKi o).getD (mdiagonal p.kiMat) ∧
    mdiagonal (p.step o).1.kdMat = (writesKd o).getD (mdiagonal p.kdMat) ∧
    (p.step o).1.antiwindup = (writesAw o).getD p.antiwindup ∧ (p.step o).1.alpha = (writesAlpha o).getD p.alpha ∧
    (p.step o).1.resetIntegral = (writesFlag o).getD p.resetIntegral ∧
    (p.step o).1.propSat = (writesProp o).getD p.propSat ∧
    ((p.step o).1.upper, (p.step o).1.lower) = (writesLimits o).getD (p.upper, p.lower) := by
  have ctl : ∀ r : Pid ℝ (n + 1), Pid.SameConfig r p →
      mdiagonal r.kpMat = mdiagonal p.kpMat ∧ mdiagonal r.kiMat = mdiagonal p.kiMat ∧
      mdiagonal r.kdMat = mdiagonal p.kdMat ∧ r.antiwindup = p.antiwindup ∧ r.alpha = p.alpha ∧
      r.resetIntegral = p.resetIntegral ∧ r.propSat = p.propSat ∧ (r.upper, r.lower) = (p.upper, p.lower) := by
    rintro r ⟨h1, h2, h3, h4, h5, h6, -, h8, h9, h10⟩
    rw [h1, h2, h3, h4, h5, h6, h8, h9, h10]; exact ⟨rfl, rfl, rfl, rfl, rfl, rfl, rfl, rfl⟩
  have dd := @diagonal_diag (n + 1)
  cases o with
  | updateParams q =>
    obtain ⟨f, v, w, b, he, hb, -, -⟩ := Pid.updateParams_eq q p
    have hl : ((p.updateParams q).upper, (p.updateParams q).lower) =
        if (Flt.eps : ℝ) ≤ q.upper 0 - q.lower 0 then (q.upper, q.lower) else (p.upper, p.lower) := by
      unfold Pid.updateParams
      simp only []
      split
      · exact setSat_stored _ _ _ _
      · rename_i hz
        rw [if_neg fun h => hz (nonZero_of_ordered 0 h)]; rfl
    simp only [Pid.step, writesLimits]
    rw [hl, he]
    refine ⟨dd _, dd _, dd _, rfl, rfl, rfl, hb, ?_⟩
    split <;> rfl
  | setOutputSaturation u l b =>
    have hl := setSat_stored u l b p
    have hp := (setSatV p u l b).2
    simp only [Pid.step, writesLimits, writesProp]
    rw [hl, hp]
    have hrest : ∃ v w f b', p.setOutputSaturation u l b =
        { p with satFlag := f, propSat := b', upper := v, lower := w } := by
      by_cases h : OrderedLimits u l
      · exact ⟨_, _, _, _, Pid.setOutputSaturation_ok _ _ _ _ ((orderedLimits_iff u l).1 h)⟩
      · obtain ⟨v, w, hv, -⟩ := Pid.setOutputSaturation_bad u l b p (fun h' => h ((orderedLimits_iff u l).2 h'))
        exact ⟨_, _, _, _, hv⟩
    obtain ⟨v, w, f, b', hr⟩ := hrest
    rw [hr]
    refine ⟨rfl, rfl, rfl, rfl, rfl, rfl, ?_, ?_⟩ <;> split <;> rfl
  | control dt e => exact ctl _ (Pid.computeControl_config p dt e)
  | controlD dt e de => exact ctl _ (Pid.computeControlD_config p dt e de)
  | setGains kp ki kd => exact ⟨dd _, dd _, dd _, rfl, rfl, rfl, rfl, rfl⟩
  | setKp k => exact ⟨dd _, rfl, rfl, rfl, rfl, rfl, rfl, rfl⟩
  | setKi k => exact ⟨rfl, dd _, rfl, rfl, rfl, rfl, rfl, rfl⟩
  | setKd k => exact ⟨rfl, rfl, dd _, rfl, rfl, rfl, rfl, rfl⟩
  | _ => exact ⟨rfl, rfl, rfl, rfl, rfl, rfl, rfl, rfl⟩

/-- **C99, vector PID.** The same for the vector PID, with two differences that are part of the statement: limits are
stored (and read back) as soon as they are valid on the *first* axis, even if the request is rejected because of another
axis; and a rejected request does not store its proportional-limiting flag. -/
theorem C99_read_back_vector {n : ℕ} (q : PidParams ℝ (n + 1)) (os : List (PidOp ℝ (n + 1))) :
    let all := PidOp.updateParams q :: os
    let lim := lastWritten writesLimits (0, 0) all
    ((Pid.mk' q).run os).1.getParams =
      { kp := lastWritten writesKp 0 all, ki := lastWritten writesKi 0 all, kd := lastWritten writesKd 0 all
        antiwindup := lastWritten writesAw 0 all, alpha := lastWritten writesAlpha 0 all
        resetIntegral := lastWritten writesFlag false all, propSat := lastWritten writesProp false all
        upper := lim.1, lower := lim.2 } := by
  intro all lim
  obtain ⟨u1, u2, u3, u4, u5, u6, u7, u8⟩ := written Pid.init (.updateParams q)
  have hl : (((Pid.mk' q).run os).1.upper, ((Pid.mk' q).run os).1.lower) = lim := by
    rw [last_run (fun p : Pid ℝ (n + 1) => (p.upper, p.lower)) writesLimits
      (fun p o => (written p o).2.2.2.2.2.2.2) os (Pid.mk' q)]
    have hz : ((Pid.init : Pid ℝ (n + 1)).upper, (Pid.init : Pid ℝ (n + 1)).lower) = (0, 0) := by
      simp only [Pid.init, flt]
    rw [hz] at u8
    exact congrArg (fun b => lastWritten writesLimits b os) u8
  have e1 := last_run (fun p => mdiagonal p.kpMat) writesKp (fun p o => (written p o).1) os (Pid.mk' q)
  have e2 := last_run (fun p => mdiagonal p.kiMat) writesKi (fun p o => (written p o).2.1) os (Pid.mk' q)
  have e3 := last_run (fun p => mdiagonal p.kdMat) writesKd (fun p o => (written p o).2.2.1) os (Pid.mk' q)
  have e4 := last_run (fun p => p.antiwindup) writesAw (fun p o => (written p o).2.2.2.1) os (Pid.mk' q)
  have e5 := last_run (fun p => p.alpha) writesAlpha (fun p o => (written p o).2.2.2.2.1) os (Pid.mk' q)
  have e6 := last_run (fun p => p.resetIntegral) writesFlag (fun p o => (written p o).2.2.2.2.2.1) os (Pid.mk' q)
  have e7 := last_run (fun p => p.propSat) writesProp (fun p o => (written p o).2.2.2.2.2.2.1) os (Pid.mk' q)
  simp only [Pid.getParams, e1, e2, e3, e4, e5, e6, e7, ← hl]
  congr 1
  · exact congrArg (fun b => lastWritten writesKp b os) u1
  · exact congrArg (fun b => lastWritten writesKi b os) u2
  · exact congrArg (fun b => lastWritten writesKd b os) u3
  · exact congrArg (fun b => lastWritten writesAw b os) u4
  · exact congrArg (fun b => lastWritten writesAlpha b os) u5
  · exact congrArg (fun b => lastWritten writesFlag b os) u6
  · exact congrArg (fun b => lastWritten writesProp b os) u7

/-- Non-vacuity: limits accepted, replaced by a request that is refused because of the second axis but stored all the
same, and a gain changed afterwards. -/
example : ∃ q : PidParams ℝ 2, q.upper 1 = 1 ∧
    let p := ((Pid.mk' q).run [.setOutputSaturation ![2, 0] ![-2, 1] true, .setKp ![7, 8], .control 1 ![1, 1]]).1
    p.getParams.upper = ![2, 0] ∧ p.getParams.lower = ![-2, 1] ∧ p.getParams.propSat = false ∧
    p.getParams.kp = ![7, 8] := by
  have e1 : (Flt.eps : ℝ) ≤ 2 - -2 := by rw [eps_real]; norm_num
  have e2 : ¬ OrderedLimits (![2, 0] : Vec 2 ℝ) ![-2, 1] := fun h => by
    have := h 1
    rw [eps_real] at this
    norm_num at this
  refine ⟨⟨![1, 1], ![0, 0], ![0, 0], ![0, 0], ![1, 1], false, false, ![1, 1], ![-1, -1]⟩, rfl, ?_⟩
  intro p
  have := C99_read_back_vector (n := 1) ⟨![1, 1], ![0, 0], ![0, 0], ![0, 0], ![1, 1], false, false, ![1, 1], ![-1, -1]⟩
    [.setOutputSaturation ![2, 0] ![-2, 1] true, .setKp ![7, 8], .control 1 ![1, 1]]
  show _ ∧ _ ∧ _ ∧ _
  rw [this]
  have e1' : (Flt.eps : ℝ) ≤ (![2, 0] : Vec 2 ℝ) 0 - (![-2, 1] : Vec 2 ℝ) 0 := e1
  simp only [lastWritten, List.foldl, writesLimits, writesProp, writesKp, if_pos e1', if_neg e2, Option.getD]
  exact ⟨trivial, trivial, trivial, trivial⟩

end Verif.Props
