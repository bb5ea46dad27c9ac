import Verif.Spec.Example
import Verif.Props.Progress
import Verif.Props.Csv

/-!
# Helper lemmas about the example flights
-/

namespace Verif

open Flt Spec Example Props

section runs
variable {α : Type} [Flt α] [Noise α] {n : ℕ}

lemma Sim.Runs.append {s t u : Sim α n} {os os' : List (SimOp α n)} (h : s.Runs os t) (h' : t.Runs os' u) :
    s.Runs (os ++ os') u := by
  induction h with
  | nil => exact h'
  | ok hs _ ih => exact .ok hs (ih h')
  | throw hs _ ih => exact .throw hs (ih h')

end runs

variable {n : ℕ}

lemma simTime_append (os os' : List (SimOp ℝ n)) : simTime (os ++ os') = simTime os + simTime os' := by
  induction os with
  | nil => simp [simTime]
  | cons o os ih => cases o <;> simp [simTime, ih, add_assoc]

variable [Noise ℝ]

lemma Spec.FlownTo.refl (s : Sim ℝ n) : FlownTo s 0 s := ⟨[], .nil s, by simp, rfl⟩

lemma Spec.FlownTo.step {s₀ s s' : Sim ℝ n} {τ τ' : ℝ} (h : FlownTo s₀ τ s) {o : SimOp ℝ n} (hs : s.step o = .ok s')
    (ho : FlightCall o) (ht : τ' = τ + simTime [o]) : FlownTo s₀ τ' s' := by
  obtain ⟨os, h1, h2, h3⟩ := h
  refine ⟨os ++ [o], h1.append (.ok hs (.nil _)), ?_, ?_⟩
  · intro x hx
    rcases List.mem_append.1 hx with hx | hx
    · exact h2 x hx
    · rw [List.mem_singleton.1 hx]; exact ho
  · rw [simTime_append, h3, ht]

/-- A call other than a dynamics update. -/
lemma Spec.FlownTo.quiet {s₀ s s' : Sim ℝ n} {τ : ℝ} (h : FlownTo s₀ τ s) (o : SimOp ℝ n) (hs : s.step o = .ok s')
    (ho : FlightCall o) (ht : simTime [o] = 0) : FlownTo s₀ τ s' := h.step hs ho (by rw [ht, add_zero])

/-- What a flight keeps: accepted parameters and the floor. -/
structure Airborne (floor : ℝ) (s : Sim ℝ 4) : Prop where
  healthy : Healthy s.dyn
  enabled : s.floorEnable = true
  height : s.floorHeight = floor

lemma cycle_ok {s₀ s : Sim ℝ 4} {τ dt floor : ℝ} (hf : FlownTo s₀ τ s) (ha : Airborne floor s) (h0 : 0 < dt)
    (h1 : 100 * dt ≤ 2 ^ 31 - 1) : ∃ s', cycle dt s = .ok s' ∧ FlownTo s₀ (τ + dt) s' ∧ Airborne floor s' ∧
      floor ≤ s'.dyn.state.pos 2 ∧ WithinLimits s'.dyn ∧ s'.refPos = s.refPos ∧ s'.refVel = s.refVel := by
  have hc : ∃ c a y, s.updateController dt = { s with ctl := c, actuation := a, refYaw := y } := by
    rcases Bool.eq_false_or_eq_true s.armed with h | h
    · exact ⟨_, _, _, Sim.updateController_armed h dt⟩
    · exact ⟨s.ctl, vzero, s.refYaw, Sim.updateController_disarmed h dt⟩
  have hf1 : FlownTo s₀ τ (s.updateController dt) :=
    hf.quiet (.updateController dt) rfl trivial (by simp [simTime])
  obtain ⟨c, a, y, hc⟩ := hc
  obtain ⟨s2, hh, h2⟩ := updateDynamics_healthy (s := s.updateController dt) (dt := dt)
    (by rw [hc]; exact ha.healthy) h1
  have h2 : (s.updateController dt).updateDynamics dt = .ok s2 := by
    rcases h2 with h2 | h2
    · exact h2.2
    · exact absurd h2.1 (not_le.2 h0)
  have hf2 : FlownTo s₀ (τ + dt) s2 := hf1.step (o := .updateDynamics dt) h2 h0 (by simp [simTime])
  obtain ⟨ext, d, -, -, hs2⟩ := Sim.updateDynamics_ok h2
  have hk : s2.floorEnable = true ∧ s2.floorHeight = floor ∧ s2.refPos = s.refPos ∧ s2.refVel = s.refVel := by
    rw [hs2]
    simp only [hc]
    split
    · exact ⟨ha.enabled, ha.height, rfl, rfl⟩
    · exact ⟨ha.enabled, ha.height, rfl, rfl⟩
  have hfl := C01_never_below_floor _ _ _ h2 hk.1
  rw [hk.2.1] at hfl
  have hl : WithinLimits s2.dyn := C04_rotor_limits_sim substepPos_real _ _ _ h2
  refine ⟨(s2.updateImu dt).updateOdom dt, by simp only [cycle, h2], ?_, ⟨hh, hk.1, hk.2.1⟩, ?_,
    hl, hk.2.2.1, hk.2.2.2⟩
  · exact (hf2.quiet (.updateImu dt) rfl trivial (by simp [simTime])).quiet (.updateOdom dt) rfl trivial
      (by simp [simTime])
  · simpa [flt, Sim.updateOdom, Sim.updateImu] using hfl

omit [Noise ℝ] in
/-- The loop of a flight: an invariant that determines the time makes it end after exactly `passes` passes. -/
lemma loop_ok {T dt : ℝ} (hdt : 0 < dt) {body : Vars ℝ → Res (Vars ℝ)} {Inv : ℕ → Vars ℝ → Prop}
    (ht : ∀ j v, Inv j v → v.t = j * dt)
    (hs : ∀ j v, Inv j v → j * dt < T → ∃ v', body v = .ok v' ∧ Inv (j + 1) v') :
    ∀ (fuel j : ℕ) (v : Vars ℝ), Inv j v → j ≤ passes T dt →
      (passes T dt ≤ j + fuel → ∃ v', loop T body fuel v = some (.ok v') ∧ Inv (passes T dt) v') ∧
      (j + fuel < passes T dt → loop T body fuel v = none) := by
  have hlt : ∀ j : ℕ, (j : ℝ) * dt < T ↔ j < passes T dt := by
    intro j
    rw [passes, Nat.lt_ceil, lt_div_iff₀ hdt]
  intro fuel
  induction fuel with
  | zero =>
    intro j v hi hj
    refine ⟨fun h => ?_, fun h => ?_⟩
    · have : j = passes T dt := le_antisymm hj (by simpa using h)
      have hn : ¬ v.t < T := by rw [ht j v hi, hlt]; omega
      refine ⟨v, ?_, this ▸ hi⟩
      simp [loop, flt, hn]
    · have hn : v.t < T := by rw [ht j v hi, hlt]; omega
      simp [loop, flt, hn]
  | succ fuel ih =>
    intro j v hi hj
    by_cases hn : j < passes T dt
    · have hl : v.t < T := by rw [ht j v hi, hlt]; exact hn
      obtain ⟨v', hb, hi'⟩ := hs j v hi ((hlt j).2 hn)
      have := ih (j + 1) v' hi' hn
      simp only [loop, flt, hl, decide_true, if_true, hb]
      exact ⟨fun h => this.1 (by omega), fun h => this.2 (by omega)⟩
    · have hl : ¬ v.t < T := by rw [ht j v hi, hlt]; exact hn
      have he : j = passes T dt := le_antisymm hj (not_lt.1 hn)
      refine ⟨fun _ => ⟨v, ?_, he ▸ hi⟩, fun h => by omega⟩
      simp [loop, flt, hl]

/-! Arithmetic of the reference schedule. -/

omit [Noise ℝ] in
lemma schedule_step {T dt : ℝ} {N j : ℕ} (hdt : 0 < dt) (hT : 0 ≤ T) :
    let k := period T dt N
    let i := (j - 1) / k
    (T / N < ((j : ℝ) - k * i) * dt → j / k = i + 1 ∧ (j : ℝ) = k * (i + 1)) ∧
    (¬ T / N < ((j : ℝ) - k * i) * dt → j / k = i) := by
  intro k i
  have hk : 0 < k := Nat.succ_pos _
  have h1 : k * i ≤ j - 1 := Nat.mul_div_le _ _
  have h2 : j - 1 < k * i + k := by
    have := Nat.lt_mul_div_succ (j - 1) hk
    rw [Nat.mul_succ] at this
    exact this
  have hc : (j : ℝ) - k * i = ((j - k * i : ℕ) : ℝ) := by
    rw [Nat.cast_sub (by omega)]; push_cast; ring
  have hiff : T / N < ((j : ℝ) - k * i) * dt ↔ k ≤ j - k * i := by
    rw [hc, ← div_lt_iff₀ hdt, ← Nat.floor_lt (by positivity)]
    exact Nat.lt_iff_add_one_le
  rw [hiff]
  refine ⟨fun h => ?_, fun h => ?_⟩
  · have hj : j = k * (i + 1) := by rw [Nat.mul_succ]; omega
    refine ⟨by rw [hj, Nat.mul_div_cancel_left _ hk], ?_⟩
    rw [← Nat.cast_one, ← Nat.cast_add, ← Nat.cast_mul, ← hj]
  · refine Nat.div_eq_of_lt_le ?_ ?_
    · rw [Nat.mul_comm]; omega
    · rw [Nat.mul_comm, Nat.mul_succ]; omega

omit [Noise ℝ] in
lemma schedule_lt {T dt : ℝ} {N j : ℕ} (hdt : 0 < dt) (hN : 0 < N) (hj : j * dt < T) :
    j / period T dt N < N := by
  rw [Nat.div_lt_iff_lt_mul (show 0 < period T dt N from Nat.succ_pos _)]
  have hN' : (0 : ℝ) < N := Nat.cast_pos.2 hN
  have h1 : T / N / dt < period T dt N := by
    simpa [period] using Nat.lt_floor_add_one (T / N / dt)
  have h2 : T / dt < N * period T dt N := by
    rw [div_lt_iff₀ hdt] at h1 ⊢
    rw [div_lt_iff₀ hN'] at h1
    calc T < _ := h1
      _ = _ := by ring
  have h3 : (j : ℝ) < T / dt := (lt_div_iff₀ hdt).2 hj
  exact_mod_cast h3.trans h2

/-- The switching of references in pass `j`. -/
lemma switchRef_ok {s₀ : Sim ℝ 4} {T dt floor τ : ℝ} {refs : List (Vec 3 ℝ)} {get : Sim ℝ 4 → Vec 3 ℝ}
    {set : Vec 3 ℝ → Sim ℝ 4 → Sim ℝ 4}
    (hset : ∀ r s, FlownTo s₀ τ s → FlownTo s₀ τ (set r s) ∧ (set r s).dyn = s.dyn ∧
      (set r s).floorEnable = s.floorEnable ∧ (set r s).floorHeight = s.floorHeight ∧ get (set r s) = r)
    (hr : refs ≠ []) (hdt : 0 < dt) {j : ℕ} (hj : j * dt < T) {v : Vars ℝ} (hf : FlownTo s₀ τ v.sim)
    (ha : Airborne floor v.sim) (hi : v.refIndex = (j - 1) / period T dt refs.length)
    (ht : v.refTime = (j - period T dt refs.length * v.refIndex) * dt)
    (hg : refs[v.refIndex]? = some (get v.sim)) :
    ∃ v', switchRef T refs set v = .ok v' ∧ v'.t = v.t ∧ v'.log = v.log ∧ FlownTo s₀ τ v'.sim ∧
      Airborne floor v'.sim ∧ v'.sim.dyn = v.sim.dyn ∧ v'.refIndex = j / period T dt refs.length ∧
      v'.refTime + dt = ((j + 1 : ℕ) - period T dt refs.length * v'.refIndex) * dt ∧
      refs[v'.refIndex]? = some (get v'.sim) := by
  have hT : 0 ≤ T := (by positivity : 0 ≤ (j : ℝ) * dt).trans hj.le
  have hN : 0 < refs.length := List.length_pos_of_ne_nil hr
  obtain ⟨h1, h2⟩ := schedule_step (N := refs.length) (j := j) hdt hT
  rw [← hi] at h1 h2
  by_cases hs : T / refs.length < ((j : ℝ) - period T dt refs.length * v.refIndex) * dt
  · obtain ⟨h3, h4⟩ := h1 hs
    have hlt : v.refIndex + 1 < refs.length := h3 ▸ schedule_lt hdt hN hj
    obtain ⟨e1, e2, e3, e4, e5⟩ := hset refs[v.refIndex + 1] v.sim hf
    refine ⟨{ v with refTime := 0, refIndex := v.refIndex + 1, sim := set refs[v.refIndex + 1] v.sim },
      ?_, rfl, rfl, e1, ⟨e2 ▸ ha.healthy, e3.trans ha.enabled, e4.trans ha.height⟩, e2, h3.symm, ?_, ?_⟩
    · rw [← ht] at hs
      simp [switchRef, flt, hs, hlt]
    · simp only
      push_cast
      rw [h4]
      ring
    · simp [hlt, e5]
  · refine ⟨v, ?_, rfl, rfl, hf, ha, rfl, (h2 hs).symm, ?_, hg⟩
    · rw [← ht] at hs
      simp [switchRef, flt, hs]
    · rw [ht]; push_cast; ring

lemma prepare_ok {s₀ : Sim ℝ 4} {floor : ℝ} (ha : Airborne floor s₀) {fl : Flight ℝ} (hr : HasReferences fl) :
    ∃ s, prepare s₀ fl = some s ∧ FlownTo s₀ 0 s ∧ Airborne floor s ∧ s.dyn = s₀.dyn ∧
      ShowsReference fl 0 s := by
  have hm : ∀ m y, FlownTo s₀ 0 (s₀.setControlMode m y) := fun m y =>
    (FlownTo.refl s₀).quiet (.setControlMode m y) rfl trivial (by simp [simTime])
  have hk : ∀ m y, (s₀.setControlMode m y).dyn = s₀.dyn ∧ (s₀.setControlMode m y).floorEnable = true ∧
      (s₀.setControlMode m y).floorHeight = floor := by
    intro m y
    unfold Sim.setControlMode
    split <;> exact ⟨rfl, ha.enabled, ha.height⟩
  have hq : ∀ m y, Healthy (s₀.setControlMode m y).dyn := fun m y => (hk m y).1 ▸ ha.healthy
  cases fl with
  | arm => exact ⟨s₀, rfl, .refl s₀, ha, rfl, trivial⟩
  | motorW =>
    exact ⟨_, rfl, (hm _ _).quiet (.setRefMot _) rfl trivial (by simp [simTime]),
      ⟨hq .motorW .angle, (hk _ _).2.1, (hk _ _).2.2⟩, (hk .motorW .angle).1, trivial⟩
  | acro =>
    exact ⟨_, rfl, (hm _ _).quiet (.setRefAcro _ _) rfl trivial (by simp [simTime]),
      ⟨hq .acro .angle, (hk _ _).2.1, (hk _ _).2.2⟩, (hk .acro .angle).1, trivial⟩
  | velocity refs =>
    obtain ⟨r, rs, rfl⟩ := List.exists_cons_of_ne_nil hr
    exact ⟨_, rfl, ((hm _ _).quiet (.setRefVel _) rfl trivial (by simp [simTime])).quiet (.setRefYaw _) rfl
      trivial (by simp [simTime]), ⟨hq .velocity .angle, (hk _ _).2.1, (hk _ _).2.2⟩, (hk .velocity .angle).1, rfl⟩
  | position refs =>
    obtain ⟨r, rs, rfl⟩ := List.exists_cons_of_ne_nil hr
    exact ⟨_, rfl, ((hm _ _).quiet (.setRefPos _) rfl trivial (by simp [simTime])).quiet (.setRefYaw _) rfl
      trivial (by simp [simTime]), ⟨hq .position .angle, (hk _ _).2.1, (hk _ _).2.2⟩, (hk .position .angle).1, rfl⟩
  | positionYawRate refs rate =>
    obtain ⟨r, rs, rfl⟩ := List.exists_cons_of_ne_nil hr
    exact ⟨_, rfl, ((hm _ _).quiet (.setRefPos _) rfl trivial (by simp [simTime])).quiet (.setRefYawRate _) rfl
      trivial (by simp [simTime]), ⟨hq .position .rate, (hk _ _).2.1, (hk _ _).2.2⟩, (hk .position .rate).1, rfl⟩
  | geometric tr =>
    exact ⟨_, rfl, ((hm _ _).quiet (.setRefTrajectory _ _ _) rfl trivial (by simp [simTime])).quiet
      (.setRefYaw _) rfl trivial (by simp [simTime]), ⟨hq .trajectory .angle, (hk _ _).2.1, (hk _ _).2.2⟩,
      (hk .trajectory .angle).1, trivial⟩
  | takeoff up tr =>
    exact ⟨_, rfl, ((hm _ _).quiet (.setRefTrajectory _ _ _) rfl trivial (by simp [simTime])).quiet
      (.setRefYaw _) rfl trivial (by simp [simTime]), ⟨hq .trajectory .angle, (hk _ _).2.1, (hk _ _).2.2⟩,
      (hk .trajectory .angle).1, trivial⟩

lemma before_ok {s₀ s : Sim ℝ 4} {floor τ : ℝ} (hf : FlownTo s₀ τ s) (ha : Airborne floor s) (yaw t : ℝ)
    (fl : Flight ℝ) {i : ℕ} (hr : ShowsReference fl i s) :
    FlownTo s₀ τ (before yaw fl t s) ∧ Airborne floor (before yaw fl t s) ∧
      ShowsReference fl i (before yaw fl t s) := by
  have key : ∀ p v a y, FlownTo s₀ τ ((s.setRefTrajectory p v a).setRefYaw y) ∧
      Airborne floor ((s.setRefTrajectory p v a).setRefYaw y) := fun p v a y =>
    ⟨(hf.quiet (.setRefTrajectory p v a) rfl trivial (by simp [simTime])).quiet (.setRefYaw y) rfl trivial
      (by simp [simTime]), ⟨ha.healthy, ha.enabled, ha.height⟩⟩
  cases fl with
  | geometric tr =>
    simp only [before]
    split
    · exact ⟨(key _ _ _ _).1, (key _ _ _ _).2, trivial⟩
    · exact ⟨hf, ha, trivial⟩
  | takeoff up tr =>
    simp only [before]
    split
    · exact ⟨(key _ _ _ _).1, (key _ _ _ _).2, trivial⟩
    · split
      · exact ⟨(key _ _ _ _).1, (key _ _ _ _).2, trivial⟩
      · exact ⟨hf, ha, trivial⟩
  | _ => exact ⟨hf, ha, hr⟩

/-- The variables of the schedule at the start of pass `j`. -/
def OnSchedule (fl : Flight ℝ) (T dt : ℝ) (j : ℕ) (v : Vars ℝ) : Prop :=
  references fl ≠ 0 → v.refIndex = (j - 1) / period T dt (references fl) ∧
    v.refTime = (j - period T dt (references fl) * v.refIndex) * dt

lemma after_ok {s₀ : Sim ℝ 4} {T dt floor τ : ℝ} {fl : Flight ℝ} (hr : HasReferences fl) (hdt : 0 < dt) {j : ℕ}
    (hj : j * dt < T) {v : Vars ℝ} (hf : FlownTo s₀ τ v.sim) (ha : Airborne floor v.sim)
    (hs : OnSchedule fl T dt j v) (hg : ShowsReference fl v.refIndex v.sim) :
    ∃ v', after T fl v = .ok v' ∧ v'.t = v.t ∧ v'.log = v.log ∧ FlownTo s₀ τ v'.sim ∧ Airborne floor v'.sim ∧
      v'.sim.dyn = v.sim.dyn ∧ OnSchedule fl T dt (j + 1) { v' with refTime := v'.refTime + dt } ∧
      (references fl ≠ 0 → v'.refIndex = j / period T dt (references fl)) ∧
      ShowsReference fl v'.refIndex v'.sim := by
  cases fl with
  | velocity refs =>
    have hN : refs.length ≠ 0 := fun h => hr (List.length_eq_zero_iff.1 h)
    obtain ⟨h1, h2⟩ := hs hN
    obtain ⟨v', e1, e2, e3, e4, e5, e6, e7, e8, e9⟩ := switchRef_ok (get := Sim.refVel) (set := Sim.setRefVel)
      (fun r s h => ⟨h.quiet (.setRefVel r) rfl trivial (by simp [simTime]), rfl, rfl, rfl, rfl⟩)
      hr hdt hj hf ha h1 h2 hg
    exact ⟨v', e1, e2, e3, e4, e5, e6, fun _ => ⟨e7, e8⟩, fun _ => e7, e9⟩
  | position refs =>
    have hN : refs.length ≠ 0 := fun h => hr (List.length_eq_zero_iff.1 h)
    obtain ⟨h1, h2⟩ := hs hN
    obtain ⟨v', e1, e2, e3, e4, e5, e6, e7, e8, e9⟩ := switchRef_ok (get := Sim.refPos) (set := Sim.setRefPos)
      (fun r s h => ⟨h.quiet (.setRefPos r) rfl trivial (by simp [simTime]), rfl, rfl, rfl, rfl⟩)
      hr hdt hj hf ha h1 h2 hg
    exact ⟨v', e1, e2, e3, e4, e5, e6, fun _ => ⟨e7, e8⟩, fun _ => e7, e9⟩
  | positionYawRate refs rate =>
    have hN : refs.length ≠ 0 := fun h => hr (List.length_eq_zero_iff.1 h)
    obtain ⟨h1, h2⟩ := hs hN
    obtain ⟨v', e1, e2, e3, e4, e5, e6, e7, e8, e9⟩ := switchRef_ok (get := Sim.refPos)
      (set := fun r s => (s.setRefPos r).setRefYawRate rate)
      (fun r s h => ⟨(h.quiet (.setRefPos r) rfl trivial (by simp [simTime])).quiet (.setRefYawRate rate) rfl
        trivial (by simp [simTime]), rfl, rfl, rfl, rfl⟩)
      hr hdt hj hf ha h1 h2 hg
    exact ⟨v', e1, e2, e3, e4, e5, e6, fun _ => ⟨e7, e8⟩, fun _ => e7, e9⟩
  | acro =>
    simp only [after]
    split
    · exact ⟨_, rfl, rfl, rfl, hf.quiet (.setRefAcro _ _) rfl trivial (by simp [simTime]),
        ⟨ha.healthy, ha.enabled, ha.height⟩, rfl, fun h => absurd rfl h, fun h => absurd rfl h, trivial⟩
    · exact ⟨_, rfl, rfl, rfl, hf, ha, rfl, fun h => absurd rfl h, fun h => absurd rfl h, trivial⟩
  | _ => exact ⟨_, rfl, rfl, rfl, hf, ha, rfl, fun h => absurd rfl h, fun h => absurd rfl h, trivial⟩

/-- A line written after the updates of pass `i`. -/
def LineOf (pr : ℝ → List Char) (s₀ : Sim ℝ 4) (fl : Flight ℝ) (floor T dt : ℝ) (i : ℕ) (l : List Char) : Prop :=
  ∃ s, FlownTo s₀ ((i + 1) * dt) s ∧ floor ≤ s.dyn.state.pos 2 ∧ WithinLimits s.dyn ∧
    ShowsReference fl (i / period T dt (references fl)) s ∧ Logger.save pr (i * dt) s = some l

/-- What holds at the start of pass `j`. -/
structure FlightInv (pr : ℝ → List Char) (s₀ : Sim ℝ 4) (fl : Flight ℝ) (floor T dt : ℝ) (j : ℕ) (v : Vars ℝ) :
    Prop where
  time : v.t = j * dt
  flown : FlownTo s₀ (j * dt) v.sim
  airborne : Airborne floor v.sim
  schedule : OnSchedule fl T dt j v
  shows : ShowsReference fl v.refIndex v.sim
  length : v.log.length = startLines fl + j
  start : startLines fl = 1 → ∃ s l, FlownTo s₀ 0 s ∧ s.dyn = s₀.dyn ∧ ShowsReference fl 0 s ∧
    Logger.save pr 0 s = some l ∧ v.log[0]? = some l
  lines : ∀ i < j, ∃ l, v.log[startLines fl + i]? = some l ∧ LineOf pr s₀ fl floor T dt i l

omit [Noise ℝ] in
lemma showsReference_cycle {fl : Flight ℝ} {i : ℕ} {s s' : Sim ℝ 4} (h : ShowsReference fl i s)
    (h1 : s'.refPos = s.refPos) (h2 : s'.refVel = s.refVel) : ShowsReference fl i s' := by
  cases fl <;> simp_all [ShowsReference]

omit [Noise ℝ] in
lemma save_ok (pr : ℝ → List Char) (t : ℝ) {s : Sim ℝ 4} (h : Healthy s.dyn) :
    ∃ l, Logger.save pr t s = some l := by
  obtain ⟨p, ms, -, -, hc⟩ := h
  simp [Logger.save, Logger.forceRef, hc]

lemma pass_ok {pr : ℝ → List Char} {s₀ : Sim ℝ 4} {fl : Flight ℝ} {floor T dt yaw : ℝ} (hr : HasReferences fl)
    (h0 : 0 < dt) (h1 : 100 * dt ≤ 2 ^ 31 - 1) {j : ℕ} {v : Vars ℝ} (hi : FlightInv pr s₀ fl floor T dt j v)
    (hj : j * dt < T) : ∃ v', pass pr dt (before yaw fl) (after T fl) v = .ok v' ∧
      FlightInv pr s₀ fl floor T dt (j + 1) v' := by
  obtain ⟨hb1, hb2, hb3⟩ := before_ok hi.flown hi.airborne yaw v.t fl hi.shows
  obtain ⟨s, hc, hc1, hc2, hc3, hc4, hc5, hc6⟩ := cycle_ok hb1 hb2 h0 h1
  obtain ⟨v', ha, ha1, ha2, ha3, ha4, ha5, ha6, ha7, ha8⟩ := after_ok (v := { v with sim := s }) hr h0 hj hc1 hc2
    hi.schedule (showsReference_cycle hb3 hc5 hc6)
  obtain ⟨l, hl⟩ := save_ok pr v'.t ha4.healthy
  have hτ : (j : ℝ) * dt + dt = ((j + 1 : ℕ) : ℝ) * dt := by push_cast; ring
  refine ⟨{ v' with log := v'.log ++ [l], t := v'.t + dt, refTime := v'.refTime + dt }, ?_, ?_⟩
  · simp only [pass, hc, ha, record, hl]
    rfl
  · have ht : v'.t = j * dt := ha1.trans hi.time
    refine ⟨?_, hτ ▸ ha3, ha4, ha6, ha8, ?_, ?_, ?_⟩
    · simp only [ht, hτ]
    · simp [ha2, hi.length, Nat.add_assoc]
    · intro h
      obtain ⟨s, l', h1, h2, h3, h4, h5⟩ := hi.start h
      refine ⟨s, l', h1, h2, h3, h4, ?_⟩
      simp only [ha2]
      rw [List.getElem?_append_left (by rw [hi.length]; omega)]
      exact h5
    · intro i hij
      rcases Nat.lt_succ_iff_lt_or_eq.1 hij with hlt | rfl
      · obtain ⟨l', h1, h2⟩ := hi.lines i hlt
        refine ⟨l', ?_, h2⟩
        simp only [ha2]
        rw [List.getElem?_append_left (by rw [hi.length]; omega)]
        exact h1
      · refine ⟨l, ?_, v'.sim, by rw [add_mul, one_mul]; exact ha3, ha5 ▸ hc3, ha5 ▸ hc4, ?_, ht ▸ hl⟩
        · simp [ha2, hi.length]
        · by_cases hN : references fl = 0
          · cases fl <;> simp_all [ShowsReference, references, HasReferences]
          · rw [← ha7 hN]; exact ha8

/-- A whole flight. -/
lemma fly_ok (pr : ℝ → List Char) {s₀ : Sim ℝ 4} {fl : Flight ℝ} {floor T dt : ℝ} (ha : Airborne floor s₀)
    (hr : HasReferences fl) (h0 : 0 < dt) (h1 : 100 * dt ≤ 2 ^ 31 - 1) (fuel : ℕ) :
    (passes T dt ≤ fuel → ∃ v, fly pr fl T dt fuel s₀ = some (.ok v) ∧
      FlightInv pr s₀ fl floor T dt (passes T dt) v) ∧
    (fuel < passes T dt → fly pr fl T dt fuel s₀ = none) := by
  obtain ⟨s, hp, hf, has, hd, hsh⟩ := prepare_ok ha hr
  obtain ⟨l, hl⟩ := save_ok pr 0 has.healthy
  let v₀ : Vars ℝ := ⟨s, 0, 0, 0, if startLines fl = 1 then [l] else []⟩
  have hinv : FlightInv pr s₀ fl floor T dt 0 v₀ := by
    refine ⟨by simp [v₀], by simpa using hf, has, fun _ => by simp [v₀], hsh, ?_, ?_, by simp⟩
    · cases fl <;> simp [v₀, startLines]
    · intro h
      exact ⟨s, l, hf, hd, hsh, hl, by simp [v₀, h]⟩
  have hfly : fly pr fl T dt fuel s₀ =
      loop T (pass pr dt (before (quatToEuler s₀.dyn.state.ori).2.2 fl) (after T fl)) fuel v₀ := by
    simp only [fly, hp]
    have hlit : (lit 0 : ℝ) = 0 := by simp [flt]
    rw [hlit]
    cases fl <;> simp [recordsStart, record, hl, v₀, startLines]
  rw [hfly]
  have := loop_ok (T := T) h0 (body := pass pr dt (before (quatToEuler s₀.dyn.state.ori).2.2 fl) (after T fl))
    (fun j v (hi : FlightInv pr s₀ fl floor T dt j v) => hi.time)
    (fun j v hi hj => pass_ok hr h0 h1 hi hj) fuel 0 v₀ hinv (Nat.zero_le _)
  simpa using this

end Verif
