import Verif.Lemmas.Flight
import Verif.Props.ExampleParams

/-!
# The calls of the example flights and the plan of the trajectory flights (C105, C106)
-/

namespace Verif.Props

open Verif Flt Spec Example

section
variable [Noise ℝ]

/-- **C105.** A test flight makes exactly the scheduled calls: its first line records the simulator after the
opening calls, the line of pass `j` the simulator after the opening calls and the calls of passes `0, ..., j`,
and it ends with the simulator after all passes. -/
theorem C105_calls (pr : ℝ → List Char) (p : SimParams ℝ 4) (hp : Buildable 4 p.dyn.model)
    (hi : 0 < p.odom.alpha ∧ p.odom.alpha ≤ 1) (floor : ℝ) (fl : Flight ℝ) (hr : HasReferences fl) (T dt : ℝ)
    (h0 : 0 < dt) (h1 : 100 * dt ≤ 2 ^ 31 - 1) (fuel : ℕ) (hf : ⌈T / dt⌉₊ ≤ fuel) :
    ∃ s₀ v, getSimulator p floor = some s₀ ∧ fly pr fl T dt fuel s₀ = some (.ok v) ∧
      s₀.Runs (flightCalls s₀ T dt fl ⌈T / dt⌉₊) v.sim ∧ v.log.length = startLines fl + ⌈T / dt⌉₊ ∧
      (startLines fl = 1 → ∃ s l, s₀.Runs (opening s₀ fl) s ∧ Logger.save pr 0 s = some l ∧
        v.log[0]? = some l) ∧
      ∀ j < ⌈T / dt⌉₊, ∃ s l, s₀.Runs (flightCalls s₀ T dt fl (j + 1)) s ∧
        Logger.save pr (j * dt) s = some l ∧ v.log[startLines fl + j]? = some l := by
  obtain ⟨s₀, hs, ha, -⟩ := getSimulator_ok hp hi floor
  obtain ⟨v, hv, hinv, hc⟩ := fly_calls pr ha hr h0 h1 fuel hf
  exact ⟨s₀, v, hs, hv, hc.runs, hinv.length, hc.start, hc.lines⟩

omit [Noise ℝ] in
/-- The built-in parameters of the trajectory example are accepted; the vehicle starts at the origin. -/
lemma trajCodeParams_ok : ∃ p : SimParams ℝ 4, trajCodeParams = some p ∧ Buildable 4 p.dyn.model ∧
    (0 < p.odom.alpha ∧ p.odom.alpha ≤ 1) ∧ p.dyn.state = State.default := by
  obtain ⟨p, h1, h2, h3⟩ := codeParams_ok
  have h4 : p.dyn.state = State.default := by
    simp only [codeParams, Option.map_eq_some_iff] at h1
    obtain ⟨A, -, rfl⟩ := h1
    rfl
  rw [trajCodeParams, h1, Option.map_some]
  exact ⟨_, rfl, h2, h3, h4⟩

/-- **C105, the first program.** With parameters that are accepted, from a file or built in, `main` flies to
the position references of the file. -/
theorem C105_main (pr : ℝ → List Char) (file : Option (Config ℝ)) (floor : ℝ) (p : SimParams ℝ 4)
    (h : getParams false file = some (floor, p)) (hp : Buildable 4 p.dyn.model)
    (hi : 0 < p.odom.alpha ∧ p.odom.alpha ≤ 1) (T dt : ℝ) (ht : getSimTime file = (T, dt)) (h0 : 0 < dt)
    (h1 : 100 * dt ≤ 2 ^ 31 - 1) (fuel : ℕ) (hf : ⌈T / dt⌉₊ ≤ fuel) (refs : List (Vec 3 ℝ)) (hr : refs ≠ [])
    (hrefs : getRows file "position_references" = refs) :
    ∃ s₀ v, getSimulator p floor = some s₀ ∧ Example.main pr file fuel = some (some (.ok v)) ∧
      v.log.length = 1 + ⌈T / dt⌉₊ ∧ s₀.Runs (flightCalls s₀ T dt (.position refs) ⌈T / dt⌉₊) v.sim := by
  obtain ⟨s₀, v, e1, e2, e3, e4, -⟩ := C105_calls pr p hp hi floor (.position refs) hr T dt h0 h1 fuel hf
  refine ⟨s₀, v, e1, ?_, e4, e3⟩
  simp [Example.main, h, e1, ht, hrefs, e2]

/-- **C105, the trajectory program.** With parameters that are accepted, from a file or built in, `main` climbs
three metres above the initial position with a speed of 1 m/s and then flies through the waypoints of the file
with the speed of the file. -/
theorem C105_trajectory (gen : Vec 3 ℝ → List (Vec 3 ℝ) → ℝ → Trajectory ℝ) (pr : ℝ → List Char)
    (file : Option (Config ℝ)) (floor : ℝ) (p : SimParams ℝ 4) (h : getParams true file = some (floor, p))
    (hp : Buildable 4 p.dyn.model) (hi : 0 < p.odom.alpha ∧ p.odom.alpha ≤ 1) (T dt : ℝ)
    (ht : getSimTime file = (T, dt)) (h0 : 0 < dt) (h1 : 100 * dt ≤ 2 ^ 31 - 1) (fuel : ℕ)
    (hf : ⌈T / dt⌉₊ ≤ fuel) :
    let x := p.dyn.state.pos
    let up : Vec 3 ℝ := ![x 0, x 1, x 2 + 3]
    let speed := ((file.bind fun c => c.num ["sim_config", "trajectory_generator_max_speed"]).getD 1)
    let course := ((file.bind fun c => c.rows ["sim_config", "trajectory_generator_waypoints"]).getD [![0, 0, 1]])
    ∃ s₀ v, getSimulator p floor = some s₀ ∧ trajMain gen pr file fuel = some (some (.ok v)) ∧
      v.log.length = 1 + ⌈T / dt⌉₊ ∧
      s₀.Runs (flightCalls s₀ T dt (.takeoff (gen x [up] 1) (gen up course speed)) ⌈T / dt⌉₊) v.sim := by
  intro x up speed course
  obtain ⟨s₁, hs₁, -, -, hst⟩ := getSimulator_ok hp hi floor
  obtain ⟨s₀, v, e1, e2, e3, e4, -⟩ := C105_calls pr p hp hi floor (.takeoff (gen x [up] 1) (gen up course speed))
    trivial T dt h0 h1 fuel hf
  obtain rfl : s₀ = s₁ := Option.some.inj (e1.symm.trans hs₁)
  have hx : s₀.dyn.state.pos = x := by rw [hst]
  have hup : vadd x ![0, 0, lit 3] = up := by
    funext i
    fin_cases i <;> simp [vadd, up, flt]
  have hl1 : (lit 1 : ℝ) = 1 := by simp [flt]
  have hl0 : (lit 0 : ℝ) = 0 := by simp [flt]
  refine ⟨s₀, v, e1, ?_, e4, e3⟩
  simp only [trajMain, h, e1, ht, hx, hl1, hl0, hup, getRows, Option.bind_eq_bind, Option.bind_some]
  exact congrArg some e2

/-- **C105, the trajectory program as shipped.** Without a configuration file the vehicle climbs to three metres,
then flies to the point one metre above the origin; the flight ends normally after ten seconds in steps of a
millisecond with a log of 10 001 lines. -/
theorem C105_as_shipped (gen : Vec 3 ℝ → List (Vec 3 ℝ) → ℝ → Trajectory ℝ) (pr : ℝ → List Char) (fuel : ℕ)
    (hf : 10000 ≤ fuel) :
    ∃ p s₀ v, trajCodeParams = some p ∧ getSimulator p 0 = some s₀ ∧
      trajMain gen pr none fuel = some (some (.ok v)) ∧ v.log.length = 10001 ∧
      s₀.Runs (flightCalls s₀ 10 (1 / 1000)
        (.takeoff (gen ![0, 0, 0] [![0, 0, 3]] 1) (gen ![0, 0, 3] [![0, 0, 1]] 1)) 10000) v.sim := by
  obtain ⟨p, hp, hb, hi, hst⟩ := trajCodeParams_ok
  have hn : ⌈(10 : ℝ) / (1 / 1000)⌉₊ = 10000 := by
    rw [show (10 : ℝ) / (1 / 1000) = ((10000 : ℕ) : ℝ) by norm_num, Nat.ceil_natCast]
  have hg : getParams true (none : Option (Config ℝ)) = some (0, p) := by
    simp [getParams, hp, flt]
  have ht : getSimTime (none : Option (Config ℝ)) = (10, 1 / 1000) := by
    simp [getSimTime, flt]
  have hx : p.dyn.state.pos = ![0, 0, 0] := by
    rw [hst]
    funext i
    fin_cases i <;> simp [State.default, flt]
  obtain ⟨s₀, v, e1, e2, e4, e3⟩ := C105_trajectory gen pr none 0 p hg hb hi 10 (1 / 1000) ht (by norm_num) (by norm_num)
    fuel (by rw [hn]; exact hf)
  simp only [hx, Option.bind_none, Option.getD_none, Matrix.cons_val_zero, Matrix.cons_val_one, Matrix.cons_val,
    zero_add] at e2 e3
  rw [hn] at e3 e4
  exact ⟨p, s₀, v, hp, e1, e2, by omega, e3⟩

/-- Non-vacuity of C105: a configuration that is complete except for the flight, namely none at all, is accepted,
with two references, a step of 10 ms and a flight of 1 s; the second reference is due in the 51st pass (and in no
other). -/
example : (∃ p : SimParams ℝ 4, getParams false none = some (0, p) ∧ Buildable 4 p.dyn.model ∧
      (0 < p.odom.alpha ∧ p.odom.alpha ≤ 1)) ∧
    ∀ j < 100, due 1 (1 / 100) [![0, 0, 1], ![1, 0, 1]] j = if j = 51 then some ![1, 0, 1] else none := by
  obtain ⟨p, h1, h2, h3⟩ := codeParams_ok
  refine ⟨⟨p, by simp [getParams, h1, flt], h2, h3⟩, fun j hj => ?_⟩
  have hk : period 1 (1 / 100) 2 = 51 := by
    have : (1 : ℝ) / (2 : ℕ) / (1 / 100) = (50 : ℕ) := by norm_num
    rw [period, this, Nat.floor_natCast]
  simp only [due, List.length_cons, List.length_nil, zero_add, Nat.reduceAdd, hk]
  by_cases h : j = 51
  · subst h; simp
  · rw [if_neg (by omega), if_neg h]

/-- **C106.** A flight along a plan pursues its plan: the line of pass `j` shows as reference what is planned for
the time `j dt` at which the pass begins; after the end of the plan it shows what was planned last, and a flight
with an empty plan keeps the state in which it found the vehicle. -/
theorem C106_plan (pr : ℝ → List Char) (p : SimParams ℝ 4) (hp : Buildable 4 p.dyn.model)
    (hi : 0 < p.odom.alpha ∧ p.odom.alpha ≤ 1) (floor : ℝ) (fl : Flight ℝ) (hfl : Planned fl) (T dt : ℝ)
    (h0 : 0 < dt) (h1 : 100 * dt ≤ 2 ^ 31 - 1) (fuel : ℕ) (hf : ⌈T / dt⌉₊ ≤ fuel) :
    ∃ s₀ v, getSimulator p floor = some s₀ ∧ s₀.dyn.state = p.dyn.state ∧
      fly pr fl T dt fuel s₀ = some (.ok v) ∧
      ∀ j < ⌈T / dt⌉₊, ∃ s l, s₀.Runs (flightCalls s₀ T dt fl (j + 1)) s ∧ Logger.save pr (j * dt) s = some l ∧
        v.log[1 + j]? = some l ∧
        (∀ r, plan (headingOf s₀) fl (j * dt) = some r → Pursues r s) ∧
        (∀ i ≤ j, ∀ r, plan (headingOf s₀) fl (i * dt) = some r →
          (∀ k, i < k → k ≤ j → plan (headingOf s₀) fl (k * dt) = none) → Pursues r s) ∧
        ((∀ i ≤ j, plan (headingOf s₀) fl (i * dt) = none) →
          Pursues ((p.dyn.state.pos, p.dyn.state.vel, p.dyn.state.acc), headingOf s₀) s) := by
  have hr : HasReferences fl := by cases fl <;> trivial
  have hst : startLines fl = 1 := by cases fl <;> first | rfl | exact absurd hfl id
  obtain ⟨s₀, hs, ha, -, hstate⟩ := getSimulator_ok hp hi floor
  obtain ⟨v, hv, hinv, hc⟩ := fly_calls pr ha hr h0 h1 fuel hf
  refine ⟨s₀, v, hs, hstate, hv, fun j hj => ?_⟩
  obtain ⟨s, l, e1, e2, e3⟩ := hc.lines j hj
  obtain ⟨-, g2, g3⟩ := flightCalls_planned hfl (j + 1) e1
  refine ⟨s, l, e1, e2, hst ▸ e3, fun r hr => ?_, fun i hi r hr hk => ?_, fun hn => ?_⟩
  · exact g2 j (Nat.lt_succ_self j) r hr fun k h1 h2 => by omega
  · exact g2 i (by omega) r hr fun k h1 h2 => hk k h1 (by omega)
  · rw [← hstate]
    exact g3 fun i hi => hn i (by omega)

/-- Non-vacuity of C106: take-off for two seconds, a course of three seconds; what is planned for 1 s, 4 s and 6 s. -/
example (up tr : ℝ → Vec 3 ℝ × Vec 3 ℝ × Vec 3 ℝ) (yaw : ℝ) :
    Planned (.takeoff ⟨2, up⟩ ⟨3, tr⟩) ∧ plan yaw (.takeoff ⟨2, up⟩ ⟨3, tr⟩) 1 = some (up 1, yaw) ∧
    plan yaw (.takeoff ⟨2, up⟩ ⟨3, tr⟩) 4 = some (tr 2, 0) ∧ plan yaw (.takeoff ⟨2, up⟩ ⟨3, tr⟩) 6 = none := by
  refine ⟨trivial, ?_, ?_, ?_⟩ <;> norm_num [plan]

end

/-- Full claim: along a plan the vehicle is asked to keep the heading it had before the flight. -/
def C107_claim : Prop :=
  ∀ (_ : Noise ℝ) (pr : ℝ → List Char) (p : SimParams ℝ 4) (s₀ : Sim ℝ 4) (floor T dt : ℝ) (fl : Flight ℝ)
    (fuel : ℕ) (v : Vars ℝ), Planned fl → getSimulator p floor = some s₀ → 0 < dt →
    fly pr fl T dt fuel s₀ = some (.ok v) → v.sim.refYaw = headingOf s₀

/-- The pass `j` of a flight lies before the course: it has no take-off, or the take-off is not over. -/
def BeforeCourse (dt : ℝ) (j : ℕ) : Flight ℝ → Prop
  | .takeoff up _ => j * dt < up.maxTime
  | _ => True

/-- What is true: the heading before the flight is asked for in a flight without take-off, until the end of the
take-off, and throughout if it is zero.  Missing: the course after a take-off with another heading, for which the
heading zero is asked at once (`C107_course_partial`, `C107_violated`). -/
theorem C107_heading_partial [Noise ℝ] (pr : ℝ → List Char) (p : SimParams ℝ 4) (hp : Buildable 4 p.dyn.model)
    (hi : 0 < p.odom.alpha ∧ p.odom.alpha ≤ 1) (floor : ℝ) (fl : Flight ℝ) (hfl : Planned fl) (T dt : ℝ)
    (h0 : 0 < dt) (h1 : 100 * dt ≤ 2 ^ 31 - 1) (fuel : ℕ) (hf : ⌈T / dt⌉₊ ≤ fuel) :
    ∃ s₀ v, getSimulator p floor = some s₀ ∧ fly pr fl T dt fuel s₀ = some (.ok v) ∧
      ∀ j < ⌈T / dt⌉₊, BeforeCourse dt j fl ∨ headingOf s₀ = 0 → ∃ s l, Logger.save pr (j * dt) s = some l ∧
        v.log[1 + j]? = some l ∧ s₀.Runs (flightCalls s₀ T dt fl (j + 1)) s ∧ s.refYaw = headingOf s₀ := by
  obtain ⟨s₀, v, hs, -, hv, h⟩ := C106_plan pr p hp hi floor fl hfl T dt h0 h1 fuel hf
  refine ⟨s₀, v, hs, hv, fun j hj hb => ?_⟩
  obtain ⟨s, l, e1, e2, e3, -, e4, e5⟩ := h j hj
  refine ⟨s, l, e2, e3, e1, ?_⟩
  have hyaw : ∀ i ≤ j, ∀ r, plan (headingOf s₀) fl (i * dt) = some r → r.2 = headingOf s₀ := by
    intro i hij r hr
    cases fl with
    | geometric tr =>
      simp only [plan] at hr
      split at hr
      · rw [Option.some.injEq] at hr; rw [← hr]
      · simp at hr
    | takeoff up tr =>
      simp only [plan] at hr
      split at hr
      · rw [Option.some.injEq] at hr; rw [← hr]
      · next hn =>
        rcases hb with hb | hb
        · refine absurd (lt_of_le_of_lt ?_ hb) hn
          exact mul_le_mul_of_nonneg_right (Nat.cast_le.2 hij) h0.le
        · split at hr
          · rw [Option.some.injEq] at hr; rw [← hr, hb]
          · simp at hr
    | _ => exact absurd hfl id
  by_cases hn : ∀ i ≤ j, plan (headingOf s₀) fl (i * dt) = none
  · exact (e5 hn).2.2.2
  · push Not at hn
    let S := (Finset.range (j + 1)).filter fun i : ℕ => plan (headingOf s₀) fl (i * dt) ≠ none
    have hS : S.Nonempty := by
      obtain ⟨i, hi, hne⟩ := hn
      exact ⟨i, Finset.mem_filter.2 ⟨Finset.mem_range.2 (by omega), hne⟩⟩
    obtain ⟨m1, m2⟩ := Finset.mem_filter.1 (S.max'_mem hS)
    obtain ⟨r, hr⟩ := Option.ne_none_iff_exists'.1 m2
    have hm : S.max' hS ≤ j := Nat.lt_succ_iff.1 (Finset.mem_range.1 m1)
    have := e4 _ hm r hr fun k hk1 hk2 => by
      by_contra hne
      exact absurd (S.le_max' k (Finset.mem_filter.2 ⟨Finset.mem_range.2 (by omega), hne⟩)) (by omega)
    rw [this.2.2.2, hyaw _ hm r hr]

/-- During the course after a take-off the heading zero is asked for, whatever the heading before. -/
theorem C107_course_partial [Noise ℝ] (pr : ℝ → List Char) (p : SimParams ℝ 4) (hp : Buildable 4 p.dyn.model)
    (hi : 0 < p.odom.alpha ∧ p.odom.alpha ≤ 1) (floor : ℝ) (up tr : Trajectory ℝ) (T dt : ℝ)
    (h0 : 0 < dt) (h1 : 100 * dt ≤ 2 ^ 31 - 1) (fuel : ℕ) (hf : ⌈T / dt⌉₊ ≤ fuel) :
    ∃ s₀ v, getSimulator p floor = some s₀ ∧ fly pr (.takeoff up tr) T dt fuel s₀ = some (.ok v) ∧
      ∀ j < ⌈T / dt⌉₊, up.maxTime ≤ j * dt → j * dt < up.maxTime + tr.maxTime →
        ∃ s l, Logger.save pr (j * dt) s = some l ∧ v.log[1 + j]? = some l ∧
          s₀.Runs (flightCalls s₀ T dt (.takeoff up tr) (j + 1)) s ∧ s.refYaw = 0 := by
  obtain ⟨s₀, v, hs, -, hv, h⟩ := C106_plan pr p hp hi floor (.takeoff up tr) trivial T dt h0 h1 fuel hf
  refine ⟨s₀, v, hs, hv, fun j hj hb hb' => ?_⟩
  obtain ⟨s, l, e1, e2, e3, e4, -⟩ := h j hj
  refine ⟨s, l, e2, e3, e1, ?_⟩
  have := e4 (tr.eval (j * dt - up.maxTime), 0) (by simp only [plan]; rw [if_neg (not_lt.2 hb), if_pos hb'])
  exact this.2.2.2

/-- A vehicle that starts facing backwards is asked to face forwards at the beginning of its course. -/
theorem C107_violated : ¬ C107_claim := by
  intro h
  let N : Noise ℝ := ⟨fun _ _ _ => 0⟩
  obtain ⟨p, -, hb, hi, -⟩ := trajCodeParams_ok
  let q : SimParams ℝ 4 := { p with dyn := { p.dyn with state := { p.dyn.state with ori := ⟨0, 0, 0, 1⟩ } } }
  let still : ℝ → Vec 3 ℝ × Vec 3 ℝ × Vec 3 ℝ := fun _ => (0, 0, 0)
  have hc : ⌈(1 : ℝ) / 1⌉₊ = 1 := by norm_num
  obtain ⟨s₀, hs, ha, -, hstate⟩ := getSimulator_ok (p := q) hb hi 0
  obtain ⟨v, hv, -, hcall⟩ := fly_calls (T := 1) (fl := .takeoff ⟨0, still⟩ ⟨2, still⟩) (fun _ => []) ha trivial
    one_pos (by norm_num) 1 (by rw [passes, hc])
  have hyaw := h N (fun _ => []) q s₀ 0 1 1 (.takeoff ⟨0, still⟩ ⟨2, still⟩) 1 v trivial hs one_pos hv
  have hr := hcall.runs
  rw [passes, hc] at hr
  have := (flightCalls_planned (fl := .takeoff ⟨0, still⟩ ⟨2, still⟩) trivial 1 hr).2.1 0 one_pos (still 0, 0)
    (by norm_num [plan, still]) (fun k h1 h2 => by omega)
  rw [this.2.2.2] at hyaw
  have hq : headingOf s₀ = Real.pi := by
    rw [headingOf, hstate]
    have hn : Quat.normalized (⟨0, 0, 0, 1⟩ : Quat ℝ) = ⟨0, 0, 0, 1⟩ := by
      rw [Quat.normalized_eq]
      simp [Quat.n2]
    simp only [quatToEuler, q, hn, flt]
    norm_num
    rw [show ({ re := -1, im := 0 } : ℂ) = ((-1 : ℝ) : ℂ) from rfl, Complex.arg_ofReal_of_neg (by norm_num)]
  rw [hq] at hyaw
  exact Real.pi_ne_zero hyaw.symm

/-- Non-vacuity of C107: a flight of take-off and course with a pass before the course and one within it. -/
example (up tr : ℝ → Vec 3 ℝ × Vec 3 ℝ × Vec 3 ℝ) :
    Planned (.takeoff ⟨2, up⟩ ⟨3, tr⟩) ∧ BeforeCourse 1 1 (.takeoff ⟨2, up⟩ ⟨3, tr⟩) ∧
    ¬ BeforeCourse 1 2 (.takeoff ⟨2, up⟩ ⟨3, tr⟩) := by
  refine ⟨trivial, ?_, ?_⟩ <;> norm_num [BeforeCourse]

end Verif.Props
