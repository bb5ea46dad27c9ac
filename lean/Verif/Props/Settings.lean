import Mathlib.Data.List.ReduceOption
import Verif.Props.PidScalar
import Verif.Props.Ctl

/-!
# What a PID remembers across changes of its settings (C136)

A program may change the settings of a PID between control calls.  C136 says that the detours do not matter: what the
control calls return is determined by the settings *in force* at each of them.
-/

namespace Verif.Props

open Verif Flt Spec

/-! ## Specification -/

section
variable {α : Type} [Flt α] {n : ℕ}

/-- One turn of two programs that use a PID: the settings calls of the first one, the settings calls of the second one,
and the control call both make afterwards. -/
structure Turn (o : Type) where
  first : List o
  second : List o
  control : o

/-- All calls of the first program (`Turn.second`: of the second). -/
def firstCalls {o : Type} (ts : List (Turn o)) : List o := ts.flatMap fun t => t.first ++ [t.control]
/-- ... -/
def secondCalls {o : Type} (ts : List (Turn o)) : List o := ts.flatMap fun t => t.second ++ [t.control]

/-- The two programs make settings calls only, both or neither of them reset the PID, and at every control call the same
settings are in force. -/
def SameInForce (p q : Pid α n) : List (Turn (PidOp α n)) → Prop
  | [] => True
  | t :: ts =>
    (∀ o ∈ t.first, isConfig o = true) ∧ (∀ o ∈ t.second, isConfig o = true) ∧ isConfig t.control = false ∧
    (PidOp.reset ∈ t.first ↔ PidOp.reset ∈ t.second) ∧
    SameTuning (p.run t.first).1 (q.run t.second).1 ∧
    SameInForce (p.run (t.first ++ [t.control])).1 (q.run (t.second ++ [t.control])).1 ts

/-- The same settings in force, for the scalar PID. -/
structure SameTuning1 (p q : Pid1 α) : Prop where
  kp : p.kp = q.kp
  ki : p.ki = q.ki
  kd : p.kd = q.kd
  antiwindup : p.antiwindup = q.antiwindup
  alpha : p.alpha = q.alpha
  resetIntegral : p.resetIntegral = q.resetIntegral
  satFlag : p.satFlag = q.satFlag
  limits : p.satFlag = true → p.upper = q.upper ∧ p.lower = q.lower

/-- The same for the scalar PID.  Its calls may be undefined; the condition then ends. -/
def SameInForce1 (p q : Pid1 α) : List (Turn (Pid1Op α)) → Prop
  | [] => True
  | t :: ts =>
    (∀ o ∈ t.first, isConfig1 o = true) ∧ (∀ o ∈ t.second, isConfig1 o = true) ∧ isConfig1 t.control = false ∧
    (Pid1Op.reset ∈ t.first ↔ Pid1Op.reset ∈ t.second) ∧
    (∀ a b, p.run t.first = some a → q.run t.second = some b → SameTuning1 a.1 b.1) ∧
    (∀ a b, p.run (t.first ++ [t.control]) = some a → q.run (t.second ++ [t.control]) = some b →
      SameInForce1 a.1 b.1 ts)

/-! ## The vector PID -/

omit [Flt α] in
lemma sameMemory_trans {p q r : Pid α n} (h : SameMemory p q) (g : SameMemory q r) : SameMemory p r :=
  ⟨h.1.trans g.1, h.2.trans g.2, h.3.trans g.3, h.4.trans g.4, h.5.trans g.5, h.6.trans g.6, h.7.trans g.7,
    h.8.trans g.8, h.9.trans g.9⟩

lemma setSatLoop_keeps (u l : Vec n α) (b : Bool) (is : List (Fin n)) (p : Pid α n) :
    SameMemory (Pid.setSatLoop u l b is p) p := by
  induction is generalizing p with
  | nil => exact ⟨rfl, rfl, rfl, rfl, rfl, rfl, rfl, rfl, rfl⟩
  | cons i is ih =>
    rw [Pid.setSatLoop]
    split
    · exact ⟨rfl, rfl, rfl, rfl, rfl, rfl, rfl, rfl, rfl⟩
    · split
      · exact ⟨rfl, rfl, rfl, rfl, rfl, rfl, rfl, rfl, rfl⟩
      · exact sameMemory_trans (ih _) ⟨rfl, rfl, rfl, rfl, rfl, rfl, rfl, rfl, rfl⟩

/-- **C136, one call.** A settings call other than `reset_controller` keeps everything the PID remembers: the flag of the
first run, the accumulated error, the filter state, the last errors, the three contributions and the output. -/
theorem C136_memory (p : Pid α n) (o : PidOp α n) (ho : isConfig o = true) (hr : o ≠ .reset) :
    SameMemory (p.step o).1 p := by
  cases o with
  | control => simp [isConfig] at ho
  | controlD => simp [isConfig] at ho
  | reset => exact (hr rfl).elim
  | updateParams r =>
    obtain ⟨f, v, w, b, he, -⟩ := Pid.updateParams_eq r p
    rw [Pid.step, he]
    exact ⟨rfl, rfl, rfl, rfl, rfl, rfl, rfl, rfl, rfl⟩
  | setOutputSaturation u l b => exact setSatLoop_keeps u l b _ p
  | _ => exact ⟨rfl, rfl, rfl, rfl, rfl, rfl, rfl, rfl, rfl⟩

/-- Settings calls keep what a control call reads. -/
lemma settings_keep (os : List (PidOp α n)) (hos : ∀ o ∈ os, isConfig o = true) (p : Pid α n) :
    ((p.run os).1.firstRun = true ↔ PidOp.reset ∈ os ∨ p.firstRun = true) ∧
    (p.run os).1.integral = p.integral ∧ (p.run os).1.filtered = p.filtered ∧
    (p.run os).1.propErr = p.propErr ∧ (p.run os).2.reduceOption = [] := by
  induction os generalizing p with
  | nil => simp [Pid.run]
  | cons o os ih =>
    have ho := hos o (List.mem_cons_self ..)
    obtain ⟨a, b, c, d, e⟩ := ih (fun o ho => hos o (List.mem_cons_of_mem _ ho)) (p.step o).1
    have hn : (p.step o).2 = none := by cases o <;> first | rfl | simp [isConfig] at ho
    simp only [Pid.run, a, b, c, d, hn, List.reduceOption_cons_of_none, e]
    by_cases hr : o = .reset
    · subst hr; simp [Pid.step, Pid.reset]
    · obtain ⟨m1, m2, m3, m4, -⟩ := C136_memory p o ho hr
      rw [m1, m2, m3, m4]
      exact ⟨by simp [Ne.symm hr], rfl, rfl, rfl, trivial⟩

omit [Flt α] in
lemma eff_of_tuning {p q : Pid α n} (h : SameTuning p q) : Pid.EffConf p q :=
  ⟨⟨h.kp, h.ki, h.kd, h.antiwindup, h.alpha, h.resetIntegral, h.propSat⟩, h.satFlag, h.limits⟩

lemma settings_run (ts : List (Turn (PidOp α n))) (p q : Pid α n) (hf : p.firstRun = q.firstRun)
    (hm : p.firstRun = false → p.integral = q.integral ∧ p.filtered = q.filtered ∧ p.propErr = q.propErr)
    (h : SameInForce p q ts) :
    (p.run (firstCalls ts)).2.reduceOption = (q.run (secondCalls ts)).2.reduceOption := by
  induction ts generalizing p q with
  | nil => rfl
  | cons t ts ih =>
    obtain ⟨h1, h2, h3, h4, h5, h6⟩ := h
    obtain ⟨a1, a2, a3, a4, a5⟩ := settings_keep t.first h1 p
    obtain ⟨b1, b2, b3, b4, b5⟩ := settings_keep t.second h2 q
    have hr : Pid.EffRel (p.run t.first).1 (q.run t.second).1 := by
      refine ⟨eff_of_tuning h5, ?_, fun hx => ?_⟩
      · rw [Bool.eq_iff_iff, a1, b1, h4, hf]
      · rw [a2, a3, a4, b2, b3, b4]
        apply hm
        by_contra hc
        have : (p.run t.first).1.firstRun = true := a1.2 (Or.inr (by simpa using hc))
        rw [this] at hx; simp at hx
    obtain ⟨s1, s2⟩ := hr.step t.control
    have e1 : firstCalls (t :: ts) = (t.first ++ [t.control]) ++ firstCalls ts := by simp [firstCalls]
    have e2 : secondCalls (t :: ts) = (t.second ++ [t.control]) ++ secondCalls ts := by simp [secondCalls]
    have r1 : (p.run (t.first ++ [t.control])).1 = ((p.run t.first).1.step t.control).1 := by
      rw [Pid.run_append]; rfl
    have r2 : (q.run (t.second ++ [t.control])).1 = ((q.run t.second).1.step t.control).1 := by
      rw [Pid.run_append]; rfl
    have o1 : (p.run (t.first ++ [t.control])).2.reduceOption =
        [((p.run t.first).1.step t.control).2].reduceOption := by
      rw [Pid.run_append]; simp [List.reduceOption_append, a5, Pid.run]
    have o2 : (q.run (t.second ++ [t.control])).2.reduceOption =
        [((q.run t.second).1.step t.control).2].reduceOption := by
      rw [Pid.run_append]; simp [List.reduceOption_append, b5, Pid.run]
    rw [e1, e2, Pid.run_append p, Pid.run_append q]
    simp only [List.reduceOption_append, o1, o2, s2]
    rw [ih _ _ (by rw [r1, r2]; exact s1.2.1) (by rw [r1, r2]; exact s1.2.2) h6]

/-- **C136.** Two programs use a PID each.  They build it from any parameters, make any settings calls in any order and
number between the control calls, both or neither of them resetting it, and make the same control calls.  If at every
control call the same settings are in force, the control calls return the same values.  Any arithmetic. -/
theorem C136_only_settings_in_force (r s : PidParams α n) (ts : List (Turn (PidOp α n)))
    (h : SameInForce (Pid.mk' r) (Pid.mk' s) ts) :
    ((Pid.mk' r).run (firstCalls ts)).2.reduceOption = ((Pid.mk' s).run (secondCalls ts)).2.reduceOption :=
  settings_run ts _ _ rfl (fun h => by simp [Pid.mk', Pid.reset] at h) h

/-- Non-vacuity: different detours between two control calls; the first program also passes through other gains, another
filter weight and disables limits; both reset once before the second call. -/
example (r : PidParams ℝ 3) (k w e e' : Vec 3 ℝ) (hr : r.alpha = 1/2) : ∃ ts : List (Turn (PidOp ℝ 3)),
    SameInForce (Pid.mk' r) (Pid.mk' r) ts ∧ firstCalls ts ≠ secondCalls ts ∧
    ((Pid.mk' r).run (firstCalls ts)).2.reduceOption.length = 2 := by
  refine ⟨[⟨[.setKp w, .setAlpha 7, .setKp k, .disableSat, .setAlpha (1/2)], [.disableSat, .setKp k], .control 1 e⟩,
    ⟨[.reset, .setKi w, .reset], [.setKi w, .reset], .control 1 e'⟩], ?_, by simp [firstCalls, secondCalls], ?_⟩
  · have ha : (Pid.mk' r).alpha = 1/2 := by
      obtain ⟨f, v, w, b, he, -⟩ := Pid.updateParams_eq r Pid.init
      rw [Pid.mk', he]; exact hr
    refine ⟨by simp [isConfig], by simp [isConfig], rfl, by simp, ?_, by simp [isConfig], by simp [isConfig], rfl,
      by simp, ?_, trivial⟩
    · exact ⟨rfl, rfl, rfl, rfl, ha.symm, rfl, rfl, rfl, fun _ => ⟨rfl, rfl⟩⟩
    · exact ⟨rfl, rfl, rfl, rfl, ha.symm, rfl, rfl, rfl, fun _ => ⟨rfl, rfl⟩⟩
  · rfl

/-! ## The scalar PID -/

/-- Same settings in force, same first-run status and, if running, same memory. -/
def EffRel1 (p q : Pid1 α) : Prop :=
  SameTuning1 p q ∧ p.firstRun = q.firstRun ∧
  (p.firstRun = false → p.integral = q.integral ∧ p.filtered = q.filtered ∧ p.propErr = q.propErr)

/-- The limits replaced. -/
def withLimits (p : Pid1 α) (u l : α) : Pid1 α := { p with upper := u, lower := l }

lemma stale1_control (p : Pid1 α) (h : p.satFlag = false) (u l dt e : α) :
    (withLimits p u l).computeControl dt e = (p.computeControl dt e).map fun x => (withLimits x.1 u l, x.2) := by
  cases p
  simp only at h
  subst h
  rename_i f _ _ _ _ _ _ _ _
  cases f
  all_goals
    simp only [withLimits, Pid1.computeControl, Pid1.firstRunInit, Pid1.accumulate, Pid1.resetAcc, Pid1.finishOutput,
      Pid1.filter, if_true, Bool.false_eq_true, if_false]
    split_ifs
    all_goals first | rfl | skip
    all_goals
      generalize (stdClamp _ _ _ : Option α) = x
      cases x <;> rfl

lemma stale1_controlD (p : Pid1 α) (h : p.satFlag = false) (u l dt e de : α) :
    (withLimits p u l).computeControlD dt e de =
      (p.computeControlD dt e de).map fun x => (withLimits x.1 u l, x.2) := by
  cases p
  simp only at h
  subst h
  rename_i f _ _ _ _ _ _ _ _
  cases f
  all_goals
    simp only [withLimits, Pid1.computeControlD, Pid1.firstRunInit, Pid1.accumulate, Pid1.resetAcc, Pid1.finishOutput,
      if_true, Bool.false_eq_true, if_false]
    split_ifs
    all_goals first | rfl | skip
    all_goals
      generalize (stdClamp _ _ _ : Option α) = x
      cases x <;> rfl

lemma stale1_step (p : Pid1 α) (h : p.satFlag = false) (u l : α) (o : Pid1Op α) (ho : isConfig1 o = false) :
    (withLimits p u l).step o = (p.step o).map fun x => (withLimits x.1 u l, x.2) := by
  cases o with
  | control dt e => simp only [Pid1.step, stale1_control p h, Option.map_map]; rfl
  | controlD dt e de => simp only [Pid1.step, stale1_controlD p h, Option.map_map]; rfl
  | _ => simp [isConfig1] at ho

omit [Flt α] in
lemma rel1_eff {p q : Pid1 α} (h : Rel1 p q) : EffRel1 p q := by
  obtain ⟨⟨h1, h2, h3, h4, h5, h6, h7, h8, h9⟩, h⟩ := (rel1_iff p q).1 h
  exact ⟨⟨h1, h2, h3, h4, h5, h6, h7, fun _ => ⟨h8, h9⟩⟩, h⟩

lemma effRel1_control {p q : Pid1 α} (h : EffRel1 p q) (o : Pid1Op α) (ho : isConfig1 o = false) :
    Both (fun a b => EffRel1 a.1 b.1 ∧ a.2 = b.2) (p.step o) (q.step o) := by
  obtain ⟨⟨h1, h2, h3, h4, h5, h6, h7, h8⟩, hf, hm⟩ := h
  by_cases hs : p.satFlag = true
  · have hr : Rel1 p q := (rel1_iff p q).2 ⟨⟨h1, h2, h3, h4, h5, h6, h7, (h8 hs).1, (h8 hs).2⟩, hf, hm⟩
    have := rel1_step hr o
    cases hp : p.step o <;> cases hq : q.step o <;> rw [hp, hq] at this <;> first | exact this.elim | trivial | skip
    exact ⟨rel1_eff this.1, this.2⟩
  · have hs' : p.satFlag = false := by simpa using hs
    have hr : Rel1 (withLimits p q.upper q.lower) q :=
      (rel1_iff _ q).2 ⟨⟨h1, h2, h3, h4, h5, h6, h7, rfl, rfl⟩, hf, hm⟩
    have := rel1_step hr o
    rw [stale1_step p hs' _ _ o ho] at this
    cases hp : p.step o <;> cases hq : q.step o <;> rw [hp, hq] at this <;> first | exact this.elim | trivial | skip
    rename_i a b
    obtain ⟨⟨⟨g1, g2, g3, g4, g5, g6, g7, g8⟩, g⟩, g'⟩ := (⟨rel1_eff this.1, this.2⟩ :
      EffRel1 (withLimits a.1 q.upper q.lower) b.1 ∧ a.2 = b.2)
    have hc := (same1_control p o ho a hp).2.2.2.2.2.2.1
    exact ⟨⟨⟨g1, g2, g3, g4, g5, g6, g7, fun hx => by rw [hc] at hx; exact (hs hx).elim⟩, g⟩, g'⟩

/-- **C136, one call of the scalar PID.** A settings call other than `reset_controller` is always defined, returns nothing
and keeps everything the scalar PID remembers. -/
theorem C136_memory_scalar (p : Pid1 α) (o : Pid1Op α) (ho : isConfig1 o = true) (hr : o ≠ .reset) :
    ∃ q, p.step o = some (q, none) ∧ q.firstRun = p.firstRun ∧ q.integral = p.integral ∧ q.filtered = p.filtered ∧
      q.propErr = p.propErr ∧ q.derivErr = p.derivErr ∧ q.propContrib = p.propContrib ∧
      q.intContrib = p.intContrib ∧ q.derivContrib = p.derivContrib ∧ q.output = p.output := by
  cases o with
  | control => simp [isConfig1] at ho
  | controlD => simp [isConfig1] at ho
  | reset => exact (hr rfl).elim
  | updateParams r =>
    refine ⟨_, rfl, ?_⟩
    simp only [Pid1.updateParams, Pid1.setOutputSaturation]
    split_ifs <;> exact ⟨rfl, rfl, rfl, rfl, rfl, rfl, rfl, rfl, rfl⟩
  | setOutputSaturation u l =>
    refine ⟨_, rfl, ?_⟩
    simp only [Pid1.setOutputSaturation]
    split_ifs <;> exact ⟨rfl, rfl, rfl, rfl, rfl, rfl, rfl, rfl, rfl⟩
  | _ => exact ⟨_, rfl, rfl, rfl, rfl, rfl, rfl, rfl, rfl, rfl, rfl⟩

lemma settings_keep1 (os : List (Pid1Op α)) (hos : ∀ o ∈ os, isConfig1 o = true) (p : Pid1 α) :
    ∃ a, p.run os = some a ∧ (a.1.firstRun = true ↔ Pid1Op.reset ∈ os ∨ p.firstRun = true) ∧
    a.1.integral = p.integral ∧ a.1.filtered = p.filtered ∧ a.1.propErr = p.propErr ∧ a.2.reduceOption = [] := by
  induction os generalizing p with
  | nil => exact ⟨_, rfl, by simp⟩
  | cons o os ih =>
    have ho := hos o (List.mem_cons_self ..)
    have hrest := fun o ho => hos o (List.mem_cons_of_mem _ ho)
    by_cases hr : o = .reset
    · subst hr
      obtain ⟨a, ha, a1, a2, a3, a4, a5⟩ := ih hrest p.reset
      refine ⟨(a.1, none :: a.2), by simp [Pid1.run, Pid1.step, ha], ?_⟩
      simp only [a1, a2, a3, a4, List.reduceOption_cons_of_none, a5]
      simp [Pid1.reset]
    · obtain ⟨q, hq, m1, m2, m3, m4, -⟩ := C136_memory_scalar p o ho hr
      obtain ⟨a, ha, a1, a2, a3, a4, a5⟩ := ih hrest q
      refine ⟨(a.1, none :: a.2), by simp [Pid1.run, hq, ha], ?_⟩
      simp only [a1, a2, a3, a4, List.reduceOption_cons_of_none, a5, m1, m2, m3, m4]
      exact ⟨by simp [Ne.symm hr], trivial, trivial, trivial, trivial⟩

lemma settings_run1 (ts : List (Turn (Pid1Op α))) (p q : Pid1 α) (hf : p.firstRun = q.firstRun)
    (hm : p.firstRun = false → p.integral = q.integral ∧ p.filtered = q.filtered ∧ p.propErr = q.propErr)
    (h : SameInForce1 p q ts) :
    (p.run (firstCalls ts)).map (·.2.reduceOption) = (q.run (secondCalls ts)).map (·.2.reduceOption) := by
  induction ts generalizing p q with
  | nil => rfl
  | cons t ts ih =>
    obtain ⟨h1, h2, h3, h4, h5, h6⟩ := h
    obtain ⟨a, ha, a1, a2, a3, a4, a5⟩ := settings_keep1 t.first h1 p
    obtain ⟨b, hb, b1, b2, b3, b4, b5⟩ := settings_keep1 t.second h2 q
    have hr : EffRel1 a.1 b.1 := by
      refine ⟨h5 a b ha hb, ?_, fun hx => ?_⟩
      · rw [Bool.eq_iff_iff, a1, b1, h4, hf]
      · rw [a2, a3, a4, b2, b3, b4]
        apply hm
        by_contra hc
        have : a.1.firstRun = true := a1.2 (Or.inr (by simpa using hc))
        rw [this] at hx; simp at hx
    have hs := effRel1_control hr t.control h3
    have e1 : firstCalls (t :: ts) = (t.first ++ [t.control]) ++ firstCalls ts := by simp [firstCalls]
    have e2 : secondCalls (t :: ts) = (t.second ++ [t.control]) ++ secondCalls ts := by simp [secondCalls]
    have r1 : p.run (t.first ++ [t.control]) = (a.1.step t.control).map fun x => (x.1, a.2 ++ [x.2]) := by
      rw [run1_append, ha]
      cases hx : a.1.step t.control <;> simp [Pid1.run, hx]
    have r2 : q.run (t.second ++ [t.control]) = (b.1.step t.control).map fun x => (x.1, b.2 ++ [x.2]) := by
      rw [run1_append, hb]
      cases hx : b.1.step t.control <;> simp [Pid1.run, hx]
    rw [e1, e2, run1_append p, run1_append q]
    cases hp : a.1.step t.control <;> cases hq : b.1.step t.control <;> rw [hp, hq] at hs
    · simp [r1, r2, hp, hq]
    · exact hs.elim
    · exact hs.elim
    · rename_i x y
      rw [hp] at r1
      rw [hq] at r2
      have := ih x.1 y.1 hs.1.2.1 hs.1.2.2 (h6 _ _ r1 r2)
      simp only [r1, r2, Option.map_some, Option.bind_some, Option.map_map, Function.comp_def,
        List.reduceOption_append, a5, b5, hs.2]
      cases hu : x.1.run (firstCalls ts) <;> cases hv : y.1.run (secondCalls ts) <;> rw [hu, hv] at this <;>
        simp at this ⊢
      exact this

/-- **C136 for the scalar PID.** The same, undefined control calls included: they are undefined in both programs or in
neither. -/
theorem C136_only_settings_in_force_scalar (r s : Pid1Params α) (ts : List (Turn (Pid1Op α)))
    (h : SameInForce1 (Pid1.mk' r) (Pid1.mk' s) ts) :
    ((Pid1.mk' r).run (firstCalls ts)).map (·.2.reduceOption) =
      ((Pid1.mk' s).run (secondCalls ts)).map (·.2.reduceOption) :=
  settings_run1 ts _ _ rfl (fun h => by simp [Pid1.mk', Pid1.reset] at h) h

end

/-- Non-vacuity: the same for the scalar PID, with calls that are defined. -/
example : ∃ (r : Pid1Params ℝ) (ts : List (Turn (Pid1Op ℝ))), SameInForce1 (Pid1.mk' r) (Pid1.mk' r) ts ∧
    firstCalls ts ≠ secondCalls ts ∧ ts.length = 2 ∧
    ((Pid1.mk' r).run (firstCalls ts)).map (·.2.reduceOption) = some [3, 5] := by
  refine ⟨⟨1, 0, 0, 0, 1, false, 0, 0⟩, [⟨[.setKp 8, .disableSat, .setKp 3], [.setKp 3], .control 1 1⟩,
    ⟨[.reset, .setKp 5], [.setKp 5, .reset, .reset], .control 1 1⟩], ?_, by simp [firstCalls, secondCalls], rfl, ?_⟩
  · refine ⟨by simp [isConfig1], by simp [isConfig1], rfl, by simp, ?_, ?_⟩
    · intro a b ha hb
      simp [Pid1.run, Pid1.step] at ha hb
      subst ha hb
      exact ⟨rfl, rfl, rfl, rfl, rfl, rfl,
        by simp [Pid1.mk', Pid1.updateParams, Pid1.disableSat, Pid1.setKp, flt, Pid1.reset], fun _ => ⟨rfl, rfl⟩⟩
    · intro a b ha hb
      simp [Pid1.run, Pid1.step, Pid1.mk', Pid1.updateParams, Pid1.disableSat, Pid1.setKp, flt, Pid1.reset,
        Pid1.init, Pid1.setGains, Pid1.setAntiWindup, Pid1.setAlpha, Pid1.setResetIntegral, Pid1.computeControl,
        Pid1.firstRunInit, Pid1.accumulate, Pid1.resetAcc, Pid1.finishOutput, Pid1.filter] at ha hb
      subst ha hb
      refine ⟨by simp [isConfig1], by simp [isConfig1], rfl, by simp, ?_, ?_⟩
      · intro a b ha hb
        simp [Pid1.run, Pid1.step, Pid1.setKp, flt, Pid1.reset] at ha hb
        subst ha hb
        exact ⟨rfl, rfl, rfl, rfl, rfl, rfl, rfl, fun _ => ⟨rfl, rfl⟩⟩
      · exact fun _ _ _ _ => trivial
  · simp [firstCalls, Pid1.run, Pid1.step, Pid1.mk', Pid1.updateParams, Pid1.disableSat, Pid1.setKp, flt, Pid1.reset,
        Pid1.init, Pid1.setGains, Pid1.setAntiWindup, Pid1.setAlpha, Pid1.setResetIntegral, Pid1.computeControl,
        Pid1.firstRunInit, Pid1.accumulate, Pid1.resetAcc, Pid1.finishOutput, Pid1.filter]

end Verif.Props
