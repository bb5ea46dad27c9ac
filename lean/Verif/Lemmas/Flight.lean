import Verif.Spec.Flight
import Verif.Lemmas.Example

/-!
# Helper lemmas about the calls of the example flights
-/

namespace Verif

open Flt Spec Example Props

section one
variable {α : Type} [Flt α] [Noise α] {n : ℕ}

lemma Sim.Runs.one {s s' : Sim α n} {o : SimOp α n} (h : s.step o = .ok s') : s.Runs [o] s' := .ok h (.nil _)

lemma Sim.Runs.two {s s' s'' : Sim α n} {o o' : SimOp α n} (h : s.step o = .ok s') (h' : s'.step o' = .ok s'') :
    s.Runs [o, o'] s'' := .ok h (.ok h' (.nil _))

end one

variable [Noise ℝ]

lemma before_runs (yaw t : ℝ) (fl : Flight ℝ) (s : Sim ℝ 4) :
    s.Runs ((plan yaw fl t).toList.flatMap pursue) (before yaw fl t s) := by
  cases fl with
  | geometric tr =>
    by_cases h : t < tr.maxTime
    · simp only [plan, before, flt, h, decide_true, if_true]
      exact .two rfl rfl
    · simp only [plan, before, flt, h, decide_false, if_false]
      exact .nil _
  | takeoff up tr =>
    by_cases h : t < up.maxTime
    · simp only [plan, before, flt, h, decide_true, if_true]
      exact .two rfl rfl
    · by_cases h' : t < up.maxTime + tr.maxTime
      · have h2 : up.maxTime ≤ t := not_lt.1 h
        simp only [plan, before, flt, h, h', h2, decide_true, decide_false, Bool.and_self, if_true, if_false]
        exact Sim.Runs.two rfl (by simp [Sim.step, flt])
      · simp only [plan, before, flt, h, h', decide_false, Bool.and_false, if_false]
        exact .nil _
  | _ => exact .nil _

lemma cycle_runs {dt : ℝ} {s s' : Sim ℝ 4} (h : cycle dt s = .ok s') :
    s.Runs [.updateController dt, .updateDynamics dt, .updateImu dt, .updateOdom dt] s' := by
  simp only [cycle] at h
  split at h
  · next s1 h1 =>
    rw [Res.ok.injEq] at h
    subst h
    exact .ok rfl (.ok h1 (.two rfl rfl))
  · simp at h
  · simp at h

omit [Noise ℝ] in
/-- The switching of references: a reference is set exactly in the passes in which one is due. -/
lemma switchRef_due {T dt : ℝ} {refs : List (Vec 3 ℝ)} {set : Vec 3 ℝ → Sim ℝ 4 → Sim ℝ 4} (hdt : 0 < dt) {j : ℕ}
    (hj : j * dt < T) {v v' : Vars ℝ} (hi : v.refIndex = (j - 1) / period T dt refs.length)
    (ht : v.refTime = (j - period T dt refs.length * v.refIndex) * dt) (h : switchRef T refs set v = .ok v') :
    (∃ r, due T dt refs j = some r ∧ v'.sim = set r v.sim) ∨ (due T dt refs j = none ∧ v'.sim = v.sim) := by
  have hT : 0 ≤ T := (by positivity : 0 ≤ (j : ℝ) * dt).trans hj.le
  obtain ⟨h1, h2⟩ := schedule_step (N := refs.length) (j := j) hdt hT
  have hk : 0 < period T dt refs.length := Nat.succ_pos _
  rw [← hi, ← ht] at h1 h2
  by_cases hs : T / refs.length < v.refTime
  · obtain ⟨h3, h4⟩ := h1 hs
    have h4 : j = period T dt refs.length * (v.refIndex + 1) := by exact_mod_cast h4
    simp only [switchRef, flt, Rat.cast_natCast, hs, decide_true, if_true] at h
    split at h
    · next r hr =>
      rw [Res.ok.injEq] at h
      subst h
      refine .inl ⟨r, ?_, rfl⟩
      have h0 : 0 < j := by rw [h4]; positivity
      simp only [due, h0, true_and]
      rw [if_pos ⟨_, h4⟩, h3, hr]
    · simp at h
  · have h3 := h2 hs
    simp only [switchRef, flt, Rat.cast_natCast, hs, decide_false] at h
    simp only [Bool.false_eq_true, if_false, Res.ok.injEq] at h
    subst h
    refine .inr ⟨if_neg ?_, rfl⟩
    rintro ⟨h0, c, hc⟩
    rw [hi] at h3
    have hc0 : 0 < c := by
      rcases Nat.eq_zero_or_pos c with rfl | h
      · omega
      · exact h
    have e1 : j / period T dt refs.length = c := by rw [hc, Nat.mul_div_cancel_left _ hk]
    have e2 : (j - 1) / period T dt refs.length < c := by
      rw [Nat.div_lt_iff_lt_mul hk, Nat.mul_comm, ← hc]
      omega
    omega

lemma after_runs {T dt : ℝ} {fl : Flight ℝ} (hr : HasReferences fl) (hdt : 0 < dt) {j : ℕ} (hj : j * dt < T)
    {v v' : Vars ℝ} (ht : v.t = j * dt) (hs : OnSchedule fl T dt j v) (h : after T fl v = .ok v') :
    v.sim.Runs (change T dt j fl) v'.sim := by
  cases fl with
  | velocity refs =>
    have hN : refs.length ≠ 0 := fun h => hr (List.length_eq_zero_iff.1 h)
    obtain ⟨h1, h2⟩ := hs hN
    rcases switchRef_due hdt hj h1 h2 h with ⟨r, e1, e2⟩ | ⟨e1, e2⟩
    · simp only [change, e1, e2]; exact .one rfl
    · simp only [change, e1, e2]; exact .nil _
  | position refs =>
    have hN : refs.length ≠ 0 := fun h => hr (List.length_eq_zero_iff.1 h)
    obtain ⟨h1, h2⟩ := hs hN
    rcases switchRef_due hdt hj h1 h2 h with ⟨r, e1, e2⟩ | ⟨e1, e2⟩
    · simp only [change, e1, e2]; exact .one rfl
    · simp only [change, e1, e2]; exact .nil _
  | positionYawRate refs rate =>
    have hN : refs.length ≠ 0 := fun h => hr (List.length_eq_zero_iff.1 h)
    obtain ⟨h1, h2⟩ := hs hN
    rcases switchRef_due (set := fun r s => (s.setRefPos r).setRefYawRate rate) hdt hj h1 h2 h with
      ⟨r, e1, e2⟩ | ⟨e1, e2⟩
    · simp only [change, e1, e2]; exact .two rfl rfl
    · simp only [change, e1, e2]; exact .nil _
  | acro =>
    by_cases h2 : 2 < (j : ℝ) * dt
    · simp only [after, ht, flt, Rat.cast_ofNat, h2, decide_true, if_true, Res.ok.injEq] at h
      subst h
      simp only [change, h2, if_true]
      exact .one (by simp [Sim.step])
    · simp only [after, ht, flt, Rat.cast_ofNat, h2, decide_false, Bool.false_eq_true, if_false, Res.ok.injEq] at h
      subst h
      simp only [change, h2, if_false]
      exact .nil _
  | _ =>
    simp only [after, Res.ok.injEq] at h
    subst h
    exact .nil _

/-- A pass of the loop makes its calls and writes one line. -/
lemma pass_runs {pr : ℝ → List Char} {fl : Flight ℝ} {T dt yaw : ℝ} (hr : HasReferences fl) (hdt : 0 < dt) {j : ℕ}
    (hj : j * dt < T) {v v' : Vars ℝ} (ht : v.t = j * dt) (hs : OnSchedule fl T dt j v)
    (h : pass pr dt (before yaw fl) (after T fl) v = .ok v') :
    v.sim.Runs (passCalls yaw T dt fl j) v'.sim ∧
      ∃ l, Logger.save pr (j * dt) v'.sim = some l ∧ v'.log = v.log ++ [l] := by
  have hb := before_runs yaw (j * dt) fl v.sim
  rw [← ht] at hb
  simp only [pass] at h
  split at h
  · simp at h
  · simp at h
  · next s hc =>
    split at h
    · simp at h
    · simp at h
    · next w ha =>
      have hw : w.t = v.t ∧ w.log = v.log := by
        cases fl <;> simp only [after, switchRef] at ha <;> (repeat' split at ha) <;>
          simp only [Res.ok.injEq, reduceCtorEq] at ha <;> subst ha <;> exact ⟨rfl, rfl⟩
      simp only [record] at h
      split at h
      · simp at h
      · simp at h
      · next u hu =>
        split at hu
        · next l hl =>
          rw [Res.ok.injEq] at hu h
          subst hu
          subst h
          refine ⟨?_, l, ?_, by simp only [hw.2]⟩
          · have har := after_runs (v := { v with sim := s }) hr hdt hj ht hs ha
            rw [ht] at hb
            exact (hb.append (cycle_runs (ht ▸ hc))).append har
          · rw [← ht, ← hw.1]; exact hl
        · simp at hu

lemma prepare_runs {s₀ s : Sim ℝ 4} {fl : Flight ℝ} (h : prepare s₀ fl = some s) : s₀.Runs (opening s₀ fl) s := by
  have hst : ∀ m y, (s₀.setControlMode m y).dyn = s₀.dyn := by
    intro m y
    unfold Sim.setControlMode
    split <;> rfl
  cases fl with
  | arm =>
    simp only [prepare, Option.some.injEq] at h
    subst h
    exact .nil _
  | motorW =>
    simp only [prepare, Option.some.injEq] at h
    subst h
    exact .two rfl (by simp [Sim.step, flt])
  | acro =>
    simp only [prepare, Option.some.injEq] at h
    subst h
    exact .two rfl (by simp [Sim.step, flt])
  | velocity refs =>
    cases refs with
    | nil => simp [prepare] at h
    | cons r rs =>
      simp only [prepare, List.getElem?_cons_zero, Option.map_some, Option.some.injEq] at h
      subst h
      exact .ok rfl (.two rfl (by simp [Sim.step, flt]))
  | position refs =>
    cases refs with
    | nil => simp [prepare] at h
    | cons r rs =>
      simp only [prepare, List.getElem?_cons_zero, Option.map_some, Option.some.injEq] at h
      subst h
      exact .ok rfl (.two rfl (by simp [Sim.step, flt]))
  | positionYawRate refs rate =>
    cases refs with
    | nil => simp [prepare] at h
    | cons r rs =>
      simp only [prepare, List.getElem?_cons_zero, Option.map_some, Option.some.injEq] at h
      subst h
      exact .ok rfl (.two rfl rfl)
  | geometric tr =>
    simp only [prepare, Option.some.injEq, hst] at h
    subst h
    exact .ok rfl (.two rfl rfl)
  | takeoff up tr =>
    simp only [prepare, Option.some.injEq, hst] at h
    subst h
    exact .ok rfl (.two rfl rfl)

/-- The calls made and the lines written before pass `j`. -/
structure CallInv (pr : ℝ → List Char) (s₀ : Sim ℝ 4) (fl : Flight ℝ) (T dt : ℝ) (j : ℕ) (v : Vars ℝ) : Prop where
  runs : s₀.Runs (flightCalls s₀ T dt fl j) v.sim
  start : startLines fl = 1 → ∃ s l, s₀.Runs (opening s₀ fl) s ∧ Logger.save pr 0 s = some l ∧ v.log[0]? = some l
  lines : ∀ i < j, ∃ s l, s₀.Runs (flightCalls s₀ T dt fl (i + 1)) s ∧ Logger.save pr (i * dt) s = some l ∧
    v.log[startLines fl + i]? = some l

lemma fly_calls (pr : ℝ → List Char) {s₀ : Sim ℝ 4} {fl : Flight ℝ} {floor T dt : ℝ} (ha : Airborne floor s₀)
    (hr : HasReferences fl) (h0 : 0 < dt) (h1 : 100 * dt ≤ 2 ^ 31 - 1) (fuel : ℕ) (hf : passes T dt ≤ fuel) :
    ∃ v, fly pr fl T dt fuel s₀ = some (.ok v) ∧ FlightInv pr s₀ fl floor T dt (passes T dt) v ∧
      CallInv pr s₀ fl T dt (passes T dt) v := by
  obtain ⟨s, hp, hf', has, hd, hsh⟩ := prepare_ok ha hr
  obtain ⟨l, hl⟩ := save_ok pr 0 has.healthy
  let v₀ : Vars ℝ := ⟨s, 0, 0, 0, if startLines fl = 1 then [l] else []⟩
  have hinv : FlightInv pr s₀ fl floor T dt 0 v₀ := by
    refine ⟨by simp [v₀], by simpa using hf', has, fun _ => by simp [v₀], hsh, ?_, ?_, by simp⟩
    · cases fl <;> simp [v₀, startLines]
    · intro h
      exact ⟨s, l, hf', hd, hsh, hl, by simp [v₀, h]⟩
  have hrun := prepare_runs hp
  have hcall : CallInv pr s₀ fl T dt 0 v₀ := by
    refine ⟨by simpa [flightCalls] using hrun, fun h => ⟨s, l, hrun, hl, by simp [v₀, h]⟩, by simp⟩
  have hfly : fly pr fl T dt fuel s₀ =
      loop T (pass pr dt (before (headingOf s₀) fl) (after T fl)) fuel v₀ := by
    simp only [fly, hp, headingOf]
    have hlit : (lit 0 : ℝ) = 0 := by simp [flt]
    rw [hlit]
    cases fl <;> simp [recordsStart, record, hl, v₀, startLines]
  rw [hfly]
  have := loop_ok (T := T) h0 (body := pass pr dt (before (headingOf s₀) fl) (after T fl))
    (Inv := fun j v => FlightInv pr s₀ fl floor T dt j v ∧ CallInv pr s₀ fl T dt j v)
    (fun j v hi => hi.1.time) ?_ fuel 0 v₀ ⟨hinv, hcall⟩ (Nat.zero_le _)
  · obtain ⟨v, e1, e2, e3⟩ := this.1 (by omega)
    exact ⟨v, e1, e2, e3⟩
  · rintro j v ⟨hi, hc⟩ hj
    obtain ⟨v', e1, e2⟩ := pass_ok (yaw := headingOf s₀) hr h0 h1 hi hj
    obtain ⟨h3, l', h4, h5⟩ := pass_runs hr h0 hj hi.time hi.schedule e1
    have hruns : s₀.Runs (flightCalls s₀ T dt fl (j + 1)) v'.sim := by
      have := hc.runs.append h3
      simpa [flightCalls, List.range_succ, List.flatMap_append] using this
    refine ⟨v', e1, e2, hruns, fun h => ?_, fun i hij => ?_⟩
    · obtain ⟨s, l, g1, g2, g3⟩ := hc.start h
      refine ⟨s, l, g1, g2, ?_⟩
      rw [h5, List.getElem?_append_left (by rw [hi.length]; omega)]
      exact g3
    · rcases Nat.lt_succ_iff_lt_or_eq.1 hij with hlt | rfl
      · obtain ⟨s, l, g1, g2, g3⟩ := hc.lines i hlt
        refine ⟨s, l, g1, g2, ?_⟩
        rw [h5, List.getElem?_append_left (by rw [hi.length]; omega)]
        exact g3
      · exact ⟨v'.sim, l', hruns, h4, by simp [h5, hi.length]⟩

/-! ## The plan of a trajectory flight -/

lemma Sim.Runs.split {s t : Sim ℝ 4} {os os' : List (SimOp ℝ 4)} (h : s.Runs (os ++ os') t) :
    ∃ u, s.Runs os u ∧ u.Runs os' t := by
  induction os generalizing s with
  | nil => exact ⟨s, .nil s, h⟩
  | cons o os ih =>
    cases h with
    | ok hs h => obtain ⟨u, h1, h2⟩ := ih h; exact ⟨u, .ok hs h1, h2⟩
    | throw hs h => obtain ⟨u, h1, h2⟩ := ih h; exact ⟨u, .throw hs h1, h2⟩

/-- A call that keeps the references of a trajectory flight. -/
lemma Sim.step_keeps {s t : Sim ℝ 4} {dt : ℝ} (hy : s.yawMode = .angle) {o : SimOp ℝ 4}
    (ho : o ∈ [.updateController dt, .updateDynamics dt, .updateImu dt, .updateOdom dt])
    (h : s.step o = .ok t ∨ s.step o = .throw t) : t.yawMode = .angle ∧ ∀ r, Pursues r s → Pursues r t := by
  simp only [List.mem_cons, List.not_mem_nil, or_false] at ho
  rcases ho with rfl | rfl | rfl | rfl
  · simp only [Sim.step, Res.ok.injEq, reduceCtorEq, or_false] at h
    subst h
    rcases Bool.eq_false_or_eq_true s.armed with h | h
    · have hyr : s.yawRef = s.refYaw := by simp [Sim.yawRef, hy]
      rw [Sim.updateController_armed h dt, hyr]
      exact ⟨hy, fun _ h => h⟩
    · rw [Sim.updateController_disarmed h dt]
      exact ⟨hy, fun _ h => h⟩
  · rcases h with h | h
    · obtain ⟨e, d, -, -, rfl⟩ := Sim.updateDynamics_ok h
      simp only []
      split <;> exact ⟨hy, fun _ h => h⟩
    · obtain ⟨e, d, -, rfl⟩ := Sim.updateDynamics_throw h
      exact ⟨hy, fun _ h => h⟩
  · simp only [Sim.step, Res.ok.injEq, reduceCtorEq, or_false] at h
    subst h
    exact ⟨hy, fun _ h => h⟩
  · simp only [Sim.step, Res.ok.injEq, reduceCtorEq, or_false] at h
    subst h
    exact ⟨hy, fun _ h => h⟩

lemma Sim.Runs.keeps {s t : Sim ℝ 4} {dt : ℝ} {os : List (SimOp ℝ 4)} (hr : s.Runs os t) (hy : s.yawMode = .angle)
    (hos : ∀ o ∈ os, o ∈ [SimOp.updateController dt, .updateDynamics dt, .updateImu dt, .updateOdom dt]) :
    t.yawMode = .angle ∧ ∀ r, Pursues r s → Pursues r t := by
  induction hr with
  | nil s => exact ⟨hy, fun _ h => h⟩
  | ok hs _ ih =>
    obtain ⟨h1, h2⟩ := Sim.step_keeps hy (hos _ (List.mem_cons_self ..)) (.inl hs)
    obtain ⟨h3, h4⟩ := ih h1 fun o ho => hos o (List.mem_cons_of_mem _ ho)
    exact ⟨h3, fun r h => h4 r (h2 r h)⟩
  | throw hs _ ih =>
    obtain ⟨h1, h2⟩ := Sim.step_keeps hy (hos _ (List.mem_cons_self ..)) (.inr hs)
    obtain ⟨h3, h4⟩ := ih h1 fun o ho => hos o (List.mem_cons_of_mem _ ho)
    exact ⟨h3, fun r h => h4 r (h2 r h)⟩

lemma pursue_runs {r : (Vec 3 ℝ × Vec 3 ℝ × Vec 3 ℝ) × ℝ} {s t : Sim ℝ 4} (h : s.Runs (pursue r) t) :
    t.yawMode = s.yawMode ∧ Pursues r t := by
  cases h with
  | ok h1 h =>
    cases h with
    | ok h2 h =>
      cases h
      simp only [Sim.step, Res.ok.injEq] at h1 h2
      subst h1
      subst h2
      exact ⟨rfl, rfl, rfl, rfl, rfl⟩
    | throw h2 h => simp [Sim.step] at h2
  | throw h1 h => simp [Sim.step] at h1

omit [Noise ℝ] in
lemma change_planned {fl : Flight ℝ} (hp : Planned fl) (T dt : ℝ) (j : ℕ) : change T dt j fl = [] := by
  cases fl <;> first | rfl | exact absurd hp id

/-- One pass of a flight along a plan. -/
lemma passCalls_planned {fl : Flight ℝ} (hp : Planned fl) {yaw T dt : ℝ} {j : ℕ} {s t : Sim ℝ 4}
    (hy : s.yawMode = .angle) (h : s.Runs (passCalls yaw T dt fl j) t) :
    t.yawMode = .angle ∧ (∀ r, plan yaw fl (j * dt) = some r → Pursues r t) ∧
      (plan yaw fl (j * dt) = none → ∀ r, Pursues r s → Pursues r t) := by
  rw [passCalls, change_planned hp, List.append_nil] at h
  obtain ⟨u, h1, h2⟩ := h.split
  cases hpl : plan yaw fl (j * dt) with
  | none =>
    simp only [hpl, Option.toList_none, List.flatMap_nil] at h1
    cases h1
    obtain ⟨h3, h4⟩ := h2.keeps hy fun o ho => ho
    exact ⟨h3, by simp, fun _ => h4⟩
  | some r =>
    simp only [hpl, Option.toList_some, List.flatMap_cons, List.flatMap_nil, List.append_nil] at h1
    obtain ⟨h3, h4⟩ := pursue_runs h1
    obtain ⟨h5, h6⟩ := h2.keeps (h3.trans hy) fun o ho => ho
    refine ⟨h5, fun r' hr => ?_, by simp⟩
    rw [Option.some.injEq] at hr
    subst hr
    exact h6 _ h4

/-- The reference after a number of passes of a flight along a plan. -/
lemma flightCalls_planned {fl : Flight ℝ} (hp : Planned fl) {s₀ : Sim ℝ 4} {T dt : ℝ} (m : ℕ) {t : Sim ℝ 4}
    (h : s₀.Runs (flightCalls s₀ T dt fl m) t) :
    t.yawMode = .angle ∧
      (∀ i < m, ∀ r, plan (headingOf s₀) fl (i * dt) = some r →
        (∀ k, i < k → k < m → plan (headingOf s₀) fl (k * dt) = none) → Pursues r t) ∧
      ((∀ i < m, plan (headingOf s₀) fl (i * dt) = none) →
        Pursues ((s₀.dyn.state.pos, s₀.dyn.state.vel, s₀.dyn.state.acc), headingOf s₀) t) := by
  induction m generalizing t with
  | zero =>
    have ho : opening s₀ fl = [.setControlMode .trajectory .angle] ++
        pursue ((s₀.dyn.state.pos, s₀.dyn.state.vel, s₀.dyn.state.acc), headingOf s₀) := by
      cases fl <;> first | rfl | exact absurd hp id
    simp only [flightCalls, List.range_zero, List.flatMap_nil, List.append_nil, ho] at h
    obtain ⟨u, h1, h2⟩ := h.split
    obtain ⟨h3, h4⟩ := pursue_runs h2
    refine ⟨?_, by simp, fun _ => h4⟩
    rw [h3]
    cases h1 with
    | ok h1 h =>
      cases h
      simp only [Sim.step, Res.ok.injEq] at h1
      subst h1
      unfold Sim.setControlMode
      split
      · next hm => exact hm.2
      · rfl
    | throw h1 h => simp [Sim.step] at h1
  | succ m ih =>
    have hsplit : flightCalls s₀ T dt fl (m + 1) =
        flightCalls s₀ T dt fl m ++ passCalls (headingOf s₀) T dt fl m := by
      simp [flightCalls, List.range_succ, List.flatMap_append]
    rw [hsplit] at h
    obtain ⟨u, h1, h2⟩ := h.split
    obtain ⟨g1, g2, g3⟩ := ih h1
    obtain ⟨e1, e2, e3⟩ := passCalls_planned hp g1 h2
    refine ⟨e1, fun i hi r hr hk => ?_, fun hn => ?_⟩
    · rcases Nat.lt_succ_iff_lt_or_eq.1 hi with hlt | rfl
      · exact e3 (hk m hlt (Nat.lt_succ_self m)) r (g2 i hlt r hr fun k hk1 hk2 => hk k hk1 (by omega))
      · exact e2 r hr
    · exact e3 (hn m (Nat.lt_succ_self m)) _ (g3 fun i hi => hn i (by omega))

end Verif
