import Verif.Lemmas.Example
import Verif.Props.Alloc

/-!
# The example programs (C72, C73, C74, C75)
-/

namespace Verif.Props

open Verif Flt Spec Example

section flights
variable [Noise ℝ]

/-- The simulator of the examples exists for accepted parameters; it is armed, with the floor enabled. -/
lemma getSimulator_ok {p : SimParams ℝ 4} (hp : Buildable 4 p.dyn.model)
    (hi : 0 < p.odom.alpha ∧ p.odom.alpha ≤ 1) (floor : ℝ) :
    ∃ s₀, getSimulator p floor = some s₀ ∧ Airborne floor s₀ ∧ s₀.armed = true ∧
      s₀.dyn.state = p.dyn.state := by
  obtain ⟨d, hd, hh⟩ := mk_of_buildable hp
  obtain ⟨o, ho⟩ : ∃ o, Odom.mk' p.odom = some o := by
    simp only [Odom.mk']
    simp [flt, hi]
  have hst : d.state = p.dyn.state := by
    simp only [Dyn.mk', Option.map_eq_some_iff] at hd
    obtain ⟨m, -, rfl⟩ := hd
    rfl
  simp only [getSimulator, Sim.mk', hd, ho]
  exact ⟨_, rfl, ⟨hh, rfl, rfl⟩, rfl, hst⟩

/-- **C72.** Every test flight with accepted parameters, a positive step (and at least one reference, if it
flies to references) ends normally after exactly `⌈T / dt⌉` passes and not before; it then has written one
line per pass, and one before the first pass except for the arming test.  The line of pass `j` is the record of
a state reached from the constructed simulator by updates and references only, after `j + 1` steps, with the
vehicle not below the floor and all rotors within their limits. -/
theorem C72_flight (pr : ℝ → List Char) (p : SimParams ℝ 4) (hp : Buildable 4 p.dyn.model)
    (hi : 0 < p.odom.alpha ∧ p.odom.alpha ≤ 1) (floor : ℝ) (fl : Flight ℝ) (hr : HasReferences fl) (T dt : ℝ)
    (h0 : 0 < dt) (h1 : 100 * dt ≤ 2 ^ 31 - 1) :
    ∃ s₀, getSimulator p floor = some s₀ ∧ ∀ fuel : ℕ,
      (fuel < ⌈T / dt⌉₊ → fly pr fl T dt fuel s₀ = none) ∧
      (⌈T / dt⌉₊ ≤ fuel → ∃ v, fly pr fl T dt fuel s₀ = some (.ok v) ∧
        v.log.length = startLines fl + ⌈T / dt⌉₊ ∧
        (startLines fl = 1 → ∃ s l, FlownTo s₀ 0 s ∧ s.dyn = s₀.dyn ∧ Logger.save pr 0 s = some l ∧
          v.log[0]? = some l) ∧
        ∀ j < ⌈T / dt⌉₊, ∃ s l, FlownTo s₀ ((j + 1) * dt) s ∧ floor ≤ s.dyn.state.pos 2 ∧
          WithinLimits s.dyn ∧ Logger.save pr (j * dt) s = some l ∧ v.log[startLines fl + j]? = some l) := by
  obtain ⟨s₀, hs, ha, -⟩ := getSimulator_ok hp hi floor
  refine ⟨s₀, hs, fun fuel => ⟨fun h => (fly_ok pr ha hr h0 h1 fuel).2 h, fun h => ?_⟩⟩
  obtain ⟨v, hv, hinv⟩ := (fly_ok (T := T) pr ha hr h0 h1 fuel).1 h
  refine ⟨v, hv, hinv.length, fun hst => ?_, fun j hj => ?_⟩
  · obtain ⟨s, l, e1, e2, -, e3, e4⟩ := hinv.start hst
    exact ⟨s, l, e1, e2, e3, e4⟩
  · obtain ⟨l, e1, s, e2, e3, e4, -, e5⟩ := hinv.lines j hj
    exact ⟨s, l, e2, e3, e4, e5, e1⟩

/-- A list of references that exists but is empty is read out of range. -/
theorem C72_no_references (pr : ℝ → List Char) (s : Sim ℝ 4) (T dt rate : ℝ) (fuel : ℕ) :
    fly pr (.velocity []) T dt fuel s = some .bad ∧ fly pr (.position []) T dt fuel s = some .bad ∧
    fly pr (.positionYawRate [] rate) T dt fuel s = some .bad := ⟨rfl, rfl, rfl⟩

/-- A step that is not positive ends every flight by an exception in its first pass. -/
theorem C72_nonpositive_step (pr : ℝ → List Char) (p : SimParams ℝ 4) (hp : Buildable 4 p.dyn.model)
    (hi : 0 < p.odom.alpha ∧ p.odom.alpha ≤ 1) (floor : ℝ) (fl : Flight ℝ) (hr : HasReferences fl) (T dt : ℝ)
    (hT : 0 < T) (h0 : dt ≤ 0) (fuel : ℕ) (hf : 0 < fuel) :
    ∃ s₀ v, getSimulator p floor = some s₀ ∧ fly pr fl T dt fuel s₀ = some (.throw v) ∧
      v.log.length = startLines fl := by
  obtain ⟨s₀, hs, ha, -⟩ := getSimulator_ok hp hi floor
  obtain ⟨s, hpre, hfl, has, hd, hsh⟩ := prepare_ok ha hr
  obtain ⟨l, hl⟩ := save_ok pr 0 has.healthy
  let v₀ : Vars ℝ := ⟨s, 0, 0, 0, if startLines fl = 1 then [l] else []⟩
  have hfly : fly pr fl T dt fuel s₀ =
      loop T (pass pr dt (before (quatToEuler s₀.dyn.state.ori).2.2 fl) (after T fl)) fuel v₀ := by
    simp only [fly, hpre]
    have hlit : (lit 0 : ℝ) = 0 := by simp [flt]
    rw [hlit]
    cases fl <;> simp [recordsStart, record, hl, v₀, startLines]
  obtain ⟨hb1, hb2, -⟩ := before_ok hfl has (quatToEuler s₀.dyn.state.ori).2.2 0 fl hsh
  have hc : ∃ c a y, (before (quatToEuler s₀.dyn.state.ori).2.2 fl 0 s).updateController dt =
      { before (quatToEuler s₀.dyn.state.ori).2.2 fl 0 s with ctl := c, actuation := a, refYaw := y } := by
    rcases Bool.eq_false_or_eq_true (before (quatToEuler s₀.dyn.state.ori).2.2 fl 0 s).armed with h | h
    · exact ⟨_, _, _, Sim.updateController_armed h dt⟩
    · exact ⟨_, vzero, (before (quatToEuler s₀.dyn.state.ori).2.2 fl 0 s).refYaw,
        Sim.updateController_disarmed h dt⟩
  obtain ⟨c, a, y, hc⟩ := hc
  obtain ⟨s', -, h'⟩ := updateDynamics_healthy
    (s := (before (quatToEuler s₀.dyn.state.ori).2.2 fl 0 s).updateController dt) (dt := dt)
    (by rw [hc]; exact hb2.healthy) (by linarith)
  have h' := (h'.resolve_left fun h => absurd h.1 (not_lt.2 h0)).2
  refine ⟨s₀, { v₀ with sim := s' }, hs, ?_, ?_⟩
  · rw [hfly]
    obtain ⟨k, rfl⟩ : ∃ k, fuel = k + 1 := ⟨fuel - 1, by omega⟩
    have hlt : v₀.t < T := hT
    have hbody : pass pr dt (before (quatToEuler s₀.dyn.state.ori).2.2 fl) (after T fl) v₀ =
        .throw { v₀ with sim := s' } := by
      simp only [pass, cycle, v₀, h']
    simp only [loop, flt, hlt, decide_true, if_true, hbody]
  · cases fl <;> simp [v₀, startLines]

omit [Noise ℝ] in
/-- The built-in parameters are accepted. -/
lemma codeParams_ok : ∃ p : SimParams ℝ 4, codeParams = some p ∧ Buildable 4 p.dyn.model ∧
    (0 < p.odom.alpha ∧ p.odom.alpha ≤ 1) := by
  refine ⟨_, rfl, ⟨(Model.checkParams_iff _).1 ?_, rfl, ?_⟩, ?_⟩
  · simp [Model.checkParams, codeMotors, Model.checkMotor, Model.quadX, flt, diag3, Matrix.det_fin_three]
    norm_num
  · simp [codeMotors, Model.quadX]
  · simp [flt]
    norm_num

/-- **C72, the program as shipped.** Without a configuration file the first example flies ten seconds in steps of
a millisecond and ends normally with a log of 10 001 lines. -/
theorem C72_main (pr : ℝ → List Char) (fuel : ℕ) (hf : 10000 ≤ fuel) :
    ∃ v, Example.main pr none fuel = some (some (.ok v)) ∧ v.log.length = 10001 := by
  obtain ⟨p, hp, hb, hi⟩ := codeParams_ok
  have hn : ⌈(10 : ℝ) / (1 / 1000)⌉₊ = 10000 := by
    rw [show (10 : ℝ) / (1 / 1000) = ((10000 : ℕ) : ℝ) by norm_num, Nat.ceil_natCast]
  obtain ⟨s₀, hs, h⟩ := C72_flight pr p hb hi 0 (.position [![0, 0, 1]]) (by simp [HasReferences]) 10 (1 / 1000)
    (by norm_num) (by norm_num)
  obtain ⟨v, hv, hl, -⟩ := (h fuel).2 (by rw [hn]; exact hf)
  refine ⟨v, ?_, by rw [hl, hn]; rfl⟩
  have e0 : (lit 0 : ℝ) = 0 := by simp [flt]
  have e1 : (lit 1 : ℝ) = 1 := by simp [flt]
  have e10 : (lit 10 : ℝ) = 10 := by simp [flt]
  have em : (lit 1000⁻¹ : ℝ) = 1000⁻¹ := by simp [flt]
  simp [Example.main, getParams, hp, e0, hs, getSimTime, getRows, e10, em, e1]
  simpa using hv

/-- Non-vacuity of C72: the built-in parameters and two references. -/
example : ∃ p : SimParams ℝ 4, codeParams = some p ∧ Buildable 4 p.dyn.model ∧
    (0 < p.odom.alpha ∧ p.odom.alpha ≤ 1) ∧ HasReferences (.velocity [![0, 0, 1], ![1, 0, 0]]) := by
  obtain ⟨p, h1, h2, h3⟩ := codeParams_ok
  exact ⟨p, h1, h2, h3, by simp [HasReferences]⟩

end flights

/-- Full claim: a flight that has time for its references ends with the last of them in force. -/
def C73_claim : Prop :=
  ∀ (_ : Noise ℝ) (pr : ℝ → List Char) (p : SimParams ℝ 4) (s₀ : Sim ℝ 4) (floor T dt : ℝ)
    (refs : List (Vec 3 ℝ)) (fuel : ℕ) (v : Vars ℝ), getSimulator p floor = some s₀ → 0 < dt →
    refs.length * dt ≤ T → fly pr (.position refs) T dt fuel s₀ = some (.ok v) →
    refs.getLast? = some v.sim.refPos

/-- What is true: a reference is kept for `k = ⌊T / (N dt)⌋ + 1` passes (the first for one more), so that the
line of pass `j` shows reference `j / k` and the flight ends with reference `(⌈T / dt⌉ - 1) / k`; the index
never leaves the list, and the last reference is reached exactly if `(N - 1) k < ⌈T / dt⌉`.  Missing: other
cases, in which references at the end of the list are never flown (`C73_violated`). -/
theorem C73_schedule_partial [Noise ℝ] (pr : ℝ → List Char) (p : SimParams ℝ 4) (hp : Buildable 4 p.dyn.model)
    (hi : 0 < p.odom.alpha ∧ p.odom.alpha ≤ 1) (floor : ℝ) (fl : Flight ℝ) (hr : HasReferences fl)
    (hN : references fl ≠ 0) (T dt : ℝ) (hT : 0 < T) (h0 : 0 < dt) (h1 : 100 * dt ≤ 2 ^ 31 - 1) (fuel : ℕ)
    (hf : ⌈T / dt⌉₊ ≤ fuel) :
    let k := ⌊T / references fl / dt⌋₊ + 1
    ∃ s₀ v, getSimulator p floor = some s₀ ∧ fly pr fl T dt fuel s₀ = some (.ok v) ∧
      (∀ j < ⌈T / dt⌉₊, j / k < references fl ∧ ∃ s l, FlownTo s₀ ((j + 1) * dt) s ∧
        Logger.save pr (j * dt) s = some l ∧ v.log[startLines fl + j]? = some l ∧ ShowsReference fl (j / k) s) ∧
      ShowsReference fl ((⌈T / dt⌉₊ - 1) / k) v.sim ∧
      ((⌈T / dt⌉₊ - 1) / k = references fl - 1 ↔ (references fl - 1) * k < ⌈T / dt⌉₊) := by
  intro k
  obtain ⟨s₀, hs, ha, -⟩ := getSimulator_ok hp hi floor
  obtain ⟨v, hv, hinv⟩ := (fly_ok (T := T) pr ha hr h0 h1 fuel).1 hf
  have hpos : 0 < ⌈T / dt⌉₊ := Nat.ceil_pos.2 (div_pos hT h0)
  have hlt : ∀ j < ⌈T / dt⌉₊, j / k < references fl := fun j hj =>
    schedule_lt h0 (Nat.pos_of_ne_zero hN) ((lt_div_iff₀ h0).1 (Nat.lt_ceil.1 hj))
  refine ⟨s₀, v, hs, hv, fun j hj => ⟨hlt j hj, ?_⟩, ?_, ?_⟩
  · obtain ⟨l, e1, s, e2, -, -, e3, e4⟩ := hinv.lines j hj
    exact ⟨s, l, e2, e4, e1, e3⟩
  · have := hinv.shows
    rwa [(hinv.schedule hN).1] at this
  · have h2 := hlt (⌈T / dt⌉₊ - 1) (by omega)
    have h3 : references fl - 1 ≤ (⌈T / dt⌉₊ - 1) / k ↔ (references fl - 1) * k ≤ ⌈T / dt⌉₊ - 1 :=
      Nat.le_div_iff_mul_le (Nat.succ_pos _)
    omega

/-- Two references, two seconds, steps of one second: the second reference is never set. -/
theorem C73_violated : ¬ C73_claim := by
  intro h
  let N : Noise ℝ := ⟨fun _ _ _ => 0⟩
  obtain ⟨p, -, hb, hi⟩ := codeParams_ok
  have hc : ⌈(2 : ℝ) / 1⌉₊ = 2 := by norm_num
  have hfl : ⌊(2 : ℝ) / (2 : ℕ) / 1⌋₊ = 1 := by norm_num
  obtain ⟨s₀, v, hs, hv, -, h3, -⟩ := C73_schedule_partial (fun _ => []) p hb hi 0
    (.position [![0, 0, 1], ![0, 0, 2]]) (by simp [HasReferences]) (by simp [references]) 2 1 (by norm_num)
    (by norm_num) (by norm_num) 2 (by rw [hc])
  have := h N (fun _ => []) p s₀ 0 2 1 [![0, 0, 1], ![0, 0, 2]] 2 v hs (by norm_num) (by norm_num) hv
  rw [hc] at h3
  simp only [references, List.length_cons, List.length_nil] at h3
  norm_num [ShowsReference] at h3
  rw [← h3] at this
  have h4 := congrFun (Option.some.inj this) 2
  simp at h4

/-- Non-vacuity: the values of the shipped configuration file (60 s, 1 ms, nine references) reach all
references. -/
example : (9 - 1) * (⌊(60 : ℝ) / (9 : ℕ) / (1 / 1000)⌋₊ + 1) < ⌈(60 : ℝ) / (1 / 1000)⌉₊ := by
  have h1 : ⌊(60 : ℝ) / (9 : ℕ) / (1 / 1000)⌋₊ = 6666 := by
    rw [Nat.floor_eq_iff (by positivity)]
    norm_num
  have h2 : ⌈(60 : ℝ) / (1 / 1000)⌉₊ = 60000 := by
    rw [show (60 : ℝ) / (1 / 1000) = ((60000 : ℕ) : ℝ) by norm_num, Nat.ceil_natCast]
  rw [h1, h2]
  norm_num

/-- Full claim: no two lines of the log carry the same time, if the printed numbers tell the instants of the
flight apart. -/
def C74_claim : Prop :=
  ∀ (_ : Noise ℝ) (pr : ℝ → List Char) (p : SimParams ℝ 4) (s₀ : Sim ℝ 4) (floor T dt : ℝ) (fl : Flight ℝ)
    (fuel : ℕ) (v : Vars ℝ), PlainNumbers pr → (∀ i j : ℕ, pr (i * dt) = pr (j * dt) → i = j) →
    getSimulator p floor = some s₀ → 0 < dt → fly pr fl T dt fuel s₀ = some (.ok v) →
    ∀ (i j : ℕ) (l l' : List Char), v.log[i]? = some l → v.log[j]? = some l' →
      (splitComma l).head? = (splitComma l').head? → i = j

lemma save_head {pr : ℝ → List Char} (h : PlainNumbers pr) [Noise ℝ] {t : ℝ} {s : Sim ℝ 4} {l : List Char}
    (hs : Logger.save pr t s = some l) : (splitComma l).head? = some (pr t) := by
  obtain ⟨c, hc⟩ : ∃ c, s.dyn.model.core = some c := by
    cases hc : s.dyn.model.core with
    | none => simp [Logger.save, Logger.forceRef, hc] at hs
    | some c => exact ⟨c, rfl⟩
  obtain ⟨l', hl, hf, -⟩ := C70_line_partial pr h t s c hc
  rw [hs, Option.some.injEq] at hl
  subst hl
  rw [hf]
  simp [kept, flt]

/-- What is true: the line of pass `j` carries the time `j dt` at which the pass began, although its record is
the state one step later; the line before the first pass carries the time zero.  So the times increase
from the first pass on, one step behind the simulated time.  Missing: the first two lines, which both carry
the time zero (`C74_violated`). -/
theorem C74_times_partial [Noise ℝ] (pr : ℝ → List Char) (hpr : PlainNumbers pr) (p : SimParams ℝ 4)
    (hp : Buildable 4 p.dyn.model) (hi : 0 < p.odom.alpha ∧ p.odom.alpha ≤ 1) (floor : ℝ) (fl : Flight ℝ)
    (hr : HasReferences fl) (T dt : ℝ) (h0 : 0 < dt) (h1 : 100 * dt ≤ 2 ^ 31 - 1) (fuel : ℕ)
    (hf : ⌈T / dt⌉₊ ≤ fuel) :
    ∃ s₀ v, getSimulator p floor = some s₀ ∧ fly pr fl T dt fuel s₀ = some (.ok v) ∧
      (∀ l, startLines fl = 1 → v.log[0]? = some l → (splitComma l).head? = some (pr 0)) ∧
      ∀ j l, v.log[startLines fl + j]? = some l → (splitComma l).head? = some (pr (j * dt)) ∧
        ∃ s, FlownTo s₀ (j * dt + dt) s ∧ Logger.save pr (j * dt) s = some l := by
  obtain ⟨s₀, hs, h⟩ := C72_flight pr p hp hi floor fl hr T dt h0 h1
  obtain ⟨v, hv, hl, hst, hj⟩ := (h fuel).2 hf
  refine ⟨s₀, v, hs, hv, fun l h1 h2 => ?_, fun j l h2 => ?_⟩
  · obtain ⟨s, l', -, -, e1, e2⟩ := hst h1
    rw [e2, Option.some.injEq] at h2
    subst h2
    exact save_head hpr e1
  · have hlt : j < ⌈T / dt⌉₊ := by
      have := (List.getElem?_eq_some_iff.1 h2).1
      omega
    obtain ⟨s, l', e0, -, -, e1, e2⟩ := hj j hlt
    rw [e2, Option.some.injEq] at h2
    subst h2
    exact ⟨save_head hpr e1, s, by rw [add_mul, one_mul] at e0; exact e0, e1⟩

/-- The same in the terms of the claim: apart from the first line, no two lines carry the same time. -/
theorem C74_distinct_partial [Noise ℝ] (pr : ℝ → List Char) (hpr : PlainNumbers pr) (p : SimParams ℝ 4)
    (hp : Buildable 4 p.dyn.model) (hi : 0 < p.odom.alpha ∧ p.odom.alpha ≤ 1) (floor : ℝ) (fl : Flight ℝ)
    (hr : HasReferences fl) (T dt : ℝ) (h0 : 0 < dt) (h1 : 100 * dt ≤ 2 ^ 31 - 1) (fuel : ℕ)
    (hf : ⌈T / dt⌉₊ ≤ fuel) (hd : ∀ i j : ℕ, pr (i * dt) = pr (j * dt) → i = j) :
    ∃ s₀ v, getSimulator p floor = some s₀ ∧ fly pr fl T dt fuel s₀ = some (.ok v) ∧
      ∀ (i j : ℕ) (l l' : List Char), startLines fl ≤ i → startLines fl ≤ j → v.log[i]? = some l → v.log[j]? = some l' →
        (splitComma l).head? = (splitComma l').head? → i = j := by
  obtain ⟨s₀, v, hs, hv, -, h⟩ := C74_times_partial pr hpr p hp hi floor fl hr T dt h0 h1 fuel hf
  refine ⟨s₀, v, hs, hv, fun i j l l' hi hj e1 e2 e3 => ?_⟩
  obtain ⟨a, rfl⟩ := Nat.exists_eq_add_of_le hi
  obtain ⟨b, rfl⟩ := Nat.exists_eq_add_of_le hj
  rw [(h a l e1).1, (h b l' e2).1, Option.some.injEq] at e3
  rw [hd a b e3]

/-- Numbers printed by a row of ones: enough to tell the natural numbers apart. -/
noncomputable def tally (x : ℝ) : List Char := List.replicate (⌊x⌋₊ + 1) '1'

lemma tally_plain : PlainNumbers tally := by
  intro x
  simp [tally, List.mem_replicate]

lemma tally_tells (i j : ℕ) (h : tally (i * 1) = tally (j * 1)) : i = j := by
  have := congrArg List.length h
  simpa [tally] using this

/-- The first two lines of a flight both carry the time zero. -/
theorem C74_violated : ¬ C74_claim := by
  intro h
  let N : Noise ℝ := ⟨fun _ _ _ => 0⟩
  obtain ⟨p, -, hb, hi⟩ := codeParams_ok
  have hc : ⌈(1 : ℝ) / 1⌉₊ = 1 := by norm_num
  obtain ⟨s₀, v, hs, hv, h2, h3⟩ := C74_times_partial tally tally_plain p hb hi 0 .motorW trivial 1 1 (by norm_num)
    (by norm_num) 1 (by rw [hc])
  obtain ⟨s₁, hs₁, h4⟩ := C72_flight tally p hb hi 0 .motorW trivial 1 1 (by norm_num) (by norm_num)
  obtain ⟨v', hv', hl, -⟩ := (h4 1).2 (by rw [hc])
  obtain rfl : s₀ = s₁ := Option.some.inj (hs.symm.trans hs₁)
  obtain rfl : v = v' := by
    have := hv.symm.trans hv'
    simpa using this
  rw [hc] at hl
  have l0 : v.log[0]? = some (v.log[0]'(by omega)) := List.getElem?_eq_getElem _
  have l1 : v.log[1]? = some (v.log[1]'(by rw [hl]; decide)) := List.getElem?_eq_getElem _
  have := h N tally p s₀ 0 1 1 .motorW 1 v tally_plain tally_tells hs (by norm_num) hv 0 1 _ _ l0 l1 (by
    rw [h2 _ rfl l0, (h3 0 _ l1).1]
    simp)
  exact absurd this (by decide)

/-- Non-vacuity of C74: such a printer exists for steps of one second. -/
example : PlainNumbers tally ∧ ∀ i j : ℕ, tally (i * 1) = tally (j * 1) → i = j := ⟨tally_plain, tally_tells⟩

end Verif.Props
