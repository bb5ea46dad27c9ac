import Verif.Props.DynRun
import Verif.Props.SimFloor
import Verif.Props.Alloc
import Verif.Props.Progress
import Mathlib.Analysis.SpecialFunctions.Exp

/-!
# C83: rotors after disarming
-/

namespace Verif.Props

open Verif Flt Spec

section
variable {n : ℕ}

/-- Calls that neither arm the vehicle nor replace or reach into its dynamics. -/
def keepsDisarmed : SimOp ℝ n → Bool
  | .arm | .setDynParams _ | .mutDyn _ => false
  | _ => true

/-- The time of an update that was carried out. -/
def flownBy (e : Event ℝ n) : ℝ :=
  match e.op with
  | .updateDynamics dt => if e.threw then 0 else dt
  | _ => 0

/-- The time flown in a history. -/
def flownTime (tr : List (Event ℝ n)) : ℝ := (tr.map flownBy).sum

end

/-- Full claim: after disarming the rotors run out exponentially, with their time constant, whatever else is
called except arming. -/
def C83_claim : Prop :=
  ∀ (_ : Noise ℝ) (n : ℕ) (s t : Sim ℝ n) (p : ModelParams ℝ) (ms : Fin n → Motor ℝ)
    (tr : List (Event ℝ n)) (i : Fin n), RunsOn s.dyn p ms → 1 / 100 ≤ (ms i).tau →
    (ms i).minSpeed ≤ s.dyn.state.motVel i → s.dyn.state.motVel i ≤ (ms i).maxSpeed →
    (∀ e ∈ tr, keepsDisarmed e.op = true) → Trace s.disarm tr t →
    |t.dyn.state.motVel i| ≤ Real.exp (-(flownTime tr / (ms i).tau)) * |s.dyn.state.motVel i|

lemma rotorFactor_exp {dt tau : ℝ} (h0 : 0 < dt) (ht : 1 / 100 ≤ tau) :
    0 ≤ rotorFactor dt tau ∧ rotorFactor dt tau ≤ Real.exp (-(dt / tau)) := by
  have htau : 0 < tau := lt_of_lt_of_le (by norm_num) ht
  refine ⟨(rotorFactor_mem h0 ((min_le_right _ _).trans ht)).1, ?_⟩
  have key : ∀ x : ℝ, 1 - x ≤ Real.exp (-x) := fun x => by
    have := Real.add_one_le_exp (-x); linarith
  unfold rotorFactor
  split
  · exact key _
  · have h1 : 1 / 100 / tau ≤ 1 := (div_le_one htau).2 ht
    calc (1 - 1 / 100 / tau) ^ ⌈100 * dt⌉₊
        ≤ Real.exp (-(1 / 100 / tau)) ^ ⌈100 * dt⌉₊ := pow_le_pow_left₀ (by linarith) (key _) _
      _ = Real.exp (⌈100 * dt⌉₊ * (-(1 / 100 / tau))) := by rw [Real.exp_nat_mul]
      _ ≤ Real.exp (-(dt / tau)) := by
        apply Real.exp_le_exp.2
        have h2 : 100 * dt ≤ ⌈100 * dt⌉₊ := Nat.le_ceil _
        have h3 : dt / tau = (100 * dt) * (1 / 100 / tau) := by field_simp
        have h4 : (0 : ℝ) ≤ 1 / 100 / tau := by positivity
        rw [h3]
        nlinarith

section
variable [Noise ℝ] {n : ℕ}

/-- What happens to the rotors in one successful simulator update. -/
lemma rotor_sim {s s' : Sim ℝ n} {dt : ℝ} (h : s.updateDynamics dt = .ok s') :
    ∃ ext noise d, s.dyn.process s.actuation dt ext noise = .ok d ∧ s'.dyn.state.motVel = d.state.motVel ∧
      s'.dyn.model = d.model ∧ s'.armed = s.armed ∧ s'.actuation = s.actuation := by
  obtain ⟨d, ⟨f, -, hp⟩, hc, hnc⟩ := C07_floor_contact s s' dt h
  refine ⟨f, _, d, hp, ?_⟩
  by_cases hk : Contact s d
  · rw [hc hk]; exact ⟨rfl, rfl, rfl, rfl⟩
  · rw [hnc hk]; exact ⟨rfl, rfl, rfl, rfl⟩

/-- Invariant of a disarmed vehicle: rotor `i` between its limits, at distance `x` from its idle speed. -/
structure Idling (p : ModelParams ℝ) (ms : Fin n → Motor ℝ) (i : Fin n) (x : ℝ) (s : Sim ℝ n) : Prop where
  core : s.dyn.model.core = some (Model.coreOf p ms)
  disarmed : s.armed = false
  act : s.actuation = 0
  lo : (ms i).minSpeed ≤ s.dyn.state.motVel i
  hi : s.dyn.state.motVel i ≤ (ms i).maxSpeed
  dist : s.dyn.state.motVel i - saturate (ms i).minSpeed (ms i).maxSpeed 0 = x

lemma idling_step {p : ModelParams ℝ} {ms : Fin n → Motor ℝ} {i : Fin n} {x : ℝ} {s : Sim ℝ n}
    (hmo : Model.motorFn n p.motors = some ms) (ht : 1 / 100 ≤ (ms i).tau) (hs : Idling p ms i x s)
    (o : SimOp ℝ n) (ho : keepsDisarmed o = true) (s' : Sim ℝ n) :
    (s.step o = .throw s' → Idling p ms i x s') ∧
    (s.step o = .ok s' → ∃ y, Idling p ms i y s' ∧
      |y| ≤ Real.exp (-(flownBy ⟨s, o, false⟩ / (ms i).tau)) * |x|) := by
  have hsame : ∀ s'' : Sim ℝ n, s''.dyn = s.dyn → s''.armed = s.armed → s''.actuation = 0 →
      Idling p ms i x s'' := fun s'' h1 h2 h3 =>
    ⟨by rw [h1]; exact hs.core, by rw [h2]; exact hs.disarmed, h3, by rw [h1]; exact hs.lo,
      by rw [h1]; exact hs.hi, by rw [h1]; exact hs.dist⟩
  have htriv : ∀ s'' : Sim ℝ n, s''.dyn = s.dyn → s''.armed = s.armed → s''.actuation = 0 →
      ∃ y, Idling p ms i y s'' ∧ |y| ≤ Real.exp (-(0 / (ms i).tau)) * |x| := fun s'' h1 h2 h3 =>
    ⟨x, hsame s'' h1 h2 h3, by simp⟩
  cases o with
  | arm | setDynParams p | mutDyn f => simp [keepsDisarmed] at ho
  | updateDynamics dt =>
    refine ⟨fun h => ?_, fun h => ?_⟩
    · obtain ⟨ext, d, hp, rfl⟩ := Sim.updateDynamics_throw h
      have := (C05_throw_iff (by simp [flt, Dyn.maxStep]) _ _ _ _ _ _ hp).2
      exact hsame _ this rfl hs.act
    · obtain ⟨ext, noise, d, hp, h1, h2, h3, h4⟩ := rotor_sim h
      rw [hs.act] at hp
      have h0 : 0 < dt := by
        by_contra hcon
        rw [Dyn.process_nonpos _ _ _ _ _ (by simpa [flt] using not_lt.1 hcon)] at hp
        simp at hp
      obtain ⟨b1, b2, b3, b4⟩ := rotor_update hs.core hmo h0 i ((min_le_right _ _).trans ht) hs.lo hs.hi hp
      obtain ⟨e0, e1⟩ := rotorFactor_exp h0 ht
      refine ⟨_, ⟨by rw [h2, b1, hs.core], by rw [h3, hs.disarmed], by rw [h4, hs.act], by rw [h1]; exact b2,
        by rw [h1]; exact b3, rfl⟩, ?_⟩
      have b4 : d.state.motVel i - saturate (ms i).minSpeed (ms i).maxSpeed 0 =
        rotorFactor dt (ms i).tau * (s.dyn.state.motVel i - saturate (ms i).minSpeed (ms i).maxSpeed 0) := b4
      rw [h1, b4, hs.dist, abs_mul, abs_of_nonneg e0]
      simp only [flownBy, Bool.false_eq_true, if_false]
      exact mul_le_mul_of_nonneg_right e1 (abs_nonneg _)
  | updateController dt =>
    refine ⟨fun h => by simp [Sim.step] at h, fun h => ?_⟩
    simp only [Sim.step, Res.ok.injEq] at h
    subst h
    rw [Sim.updateController_disarmed hs.disarmed]
    exact htriv _ rfl rfl (by simp [flt])
  | setControlMode m y =>
    refine ⟨fun h => by simp [Sim.step] at h, fun h => ?_⟩
    simp only [Sim.step, Res.ok.injEq] at h
    subst h
    unfold Sim.setControlMode
    split
    · exact htriv _ rfl rfl hs.act
    · exact htriv _ rfl rfl hs.act
  | disarm =>
    refine ⟨fun h => by simp [Sim.step] at h, fun h => ?_⟩
    simp only [Sim.step, Res.ok.injEq] at h
    subst h
    exact htriv _ rfl hs.disarmed.symm (by simp [Sim.disarm, flt])
  | setOdomParams p =>
    simp only [Sim.step, Sim.setOdomParams]
    cases Odom.mk' p with
    | none => simp
    | some o =>
      refine ⟨by simp, fun h => ?_⟩
      simp only [Res.ok.injEq] at h; subst h; exact htriv _ rfl rfl hs.act
  | _ =>
    refine ⟨fun h => by simp [Sim.step] at h, fun h => ?_⟩
    simp only [Sim.step, Res.ok.injEq] at h
    subst h
    exact htriv _ rfl rfl hs.act

/-- What is true: after disarming, whatever is called except arming or replacing the dynamics (exceptions,
sub-stepped updates and floor contacts included), each rotor approaches its idle speed exponentially with
its time constant; the idle speed is zero exactly if zero is an admissible speed.
Missing: rotors with a positive minimum speed never stop. -/
theorem C83_spin_down_partial (s t : Sim ℝ n) (p : ModelParams ℝ) (ms : Fin n → Motor ℝ)
    (tr : List (Event ℝ n)) (i : Fin n) (hr : RunsOn s.dyn p ms) (ht : 1 / 100 ≤ (ms i).tau)
    (hlo : (ms i).minSpeed ≤ s.dyn.state.motVel i) (hhi : s.dyn.state.motVel i ≤ (ms i).maxSpeed)
    (ho : ∀ e ∈ tr, keepsDisarmed e.op = true) (h : Trace s.disarm tr t) :
    (let idle := max (ms i).minSpeed (min (ms i).maxSpeed 0)
     (idle = 0 ↔ (ms i).minSpeed ≤ 0 ∧ 0 ≤ (ms i).maxSpeed) ∧
      |t.dyn.state.motVel i - idle| ≤
        Real.exp (-(flownTime tr / (ms i).tau)) * |s.dyn.state.motVel i - idle|) ∧
    ((ms i).minSpeed ≤ 0 → 0 ≤ (ms i).maxSpeed → |t.dyn.state.motVel i| ≤
      Real.exp (-(flownTime tr / (ms i).tau)) * |s.dyn.state.motVel i|) ∧
    t.actuation = 0 := by
  obtain ⟨hco, hmo⟩ := runsOn_core hr
  have main : ∀ (u : Sim ℝ n) (x : ℝ), Idling p ms i x u → Trace u tr t → ∃ y, Idling p ms i y t ∧
      |y| ≤ Real.exp (-(flownTime tr / (ms i).tau)) * |x| := by
    clear h
    induction tr with
    | nil =>
      intro u x hu h
      cases h
      exact ⟨x, hu, by simp [flownTime]⟩
    | cons e tr ih =>
      intro u x hu h
      have hk := ho e (List.mem_cons_self ..)
      have ih := ih fun e he => ho e (List.mem_cons_of_mem _ he)
      cases h with
      | @ok s s' t o tr hst htr =>
        obtain ⟨y, hy, hyx⟩ := (idling_step hmo ht hu o hk s').2 hst
        obtain ⟨z, hz, hzy⟩ := ih s' y hy htr
        refine ⟨z, hz, hzy.trans ?_⟩
        calc _ ≤ Real.exp (-(flownTime tr / (ms i).tau)) *
              (Real.exp (-(flownBy ⟨u, o, false⟩ / (ms i).tau)) * |x|) :=
              mul_le_mul_of_nonneg_left hyx (Real.exp_pos _).le
          _ = _ := by
            rw [← mul_assoc, ← Real.exp_add]
            congr 2
            simp only [flownTime, List.map_cons, List.sum_cons]
            ring
      | @throw s s' t o tr hst htr =>
        have hy := (idling_step hmo ht hu o hk s').1 hst
        obtain ⟨z, hz, hzy⟩ := ih s' x hy htr
        refine ⟨z, hz, hzy.trans (le_of_eq ?_)⟩
        congr 3
        have : flownBy ⟨u, o, true⟩ = 0 := by cases o <;> simp [flownBy]
        simp [flownTime, this]
  have hstart : Idling p ms i (s.dyn.state.motVel i - saturate (ms i).minSpeed (ms i).maxSpeed 0) s.disarm :=
    ⟨hco, rfl, by simp [Sim.disarm, flt], hlo, hhi, rfl⟩
  obtain ⟨y, hy, hyx⟩ := main _ _ hstart h
  have hlh := hlo.trans hhi
  change ((saturate (ms i).minSpeed (ms i).maxSpeed 0 = 0 ↔ _) ∧ |_ - saturate (ms i).minSpeed (ms i).maxSpeed 0|
    ≤ _ * |_ - saturate (ms i).minSpeed (ms i).maxSpeed 0|) ∧ _
  refine ⟨⟨?_, ?_⟩, fun h1 h2 => ?_, hy.act⟩
  · constructor
    · intro h
      obtain ⟨a, b⟩ := saturate_mem hlh 0
      rw [h] at a b
      exact ⟨a, b⟩
    · rintro ⟨a, b⟩
      exact saturate_id a b
  · rw [hy.dist]; exact hyx
  · have hz := saturate_id h1 h2
    have := hy.dist
    rw [hz, sub_zero] at this hyx
    rw [this]; exact hyx

/-- The fixture with rotors at speed 5. -/
noncomputable def running : Sim ℝ 4 :=
  { Fixture.sim with
    dyn := { Fixture.dyn with state := { Fixture.dyn.state with motVel := fun _ => 5 } }
    armed := true }

/-- Non-vacuity: a disarmed vehicle with rotors at speed 5, a history with a controller update, a
sub-stepped update and a rejected one. -/
example : RunsOn running.dyn Fixture.modelParams Fixture.motors ∧ 1 / 100 ≤ (Fixture.motors 0).tau ∧
    (Fixture.motors 0).minSpeed ≤ running.dyn.state.motVel 0 ∧
    running.dyn.state.motVel 0 ≤ (Fixture.motors 0).maxSpeed ∧
    ∃ tr t, (∀ e ∈ tr, keepsDisarmed (n := 4) e.op = true) ∧ Trace running.disarm tr t ∧
      flownTime tr = 1 / 2 + 1 / 200 := by
  refine ⟨fixture_runsOn, by rw [(Fixture.motors_speed 0).2.2]; norm_num, by
    rw [(Fixture.motors_speed 0).1]; norm_num [running], by
    rw [(Fixture.motors_speed 0).2.1]; norm_num [running], ?_⟩
  have hh : Healthy (running.disarm.updateController 1).dyn :=
    ⟨Fixture.modelParams, Fixture.motors, fixture_buildable.1, rfl, rfl⟩
  obtain ⟨s₁, h₁, ⟨-, u₁⟩ | ⟨c₁, -⟩⟩ := updateDynamics_healthy hh (dt := 1 / 2) (by norm_num)
  swap; · norm_num at c₁
  obtain ⟨s₂, h₂, ⟨c₂, -⟩ | ⟨-, u₂⟩⟩ := updateDynamics_healthy h₁ (dt := -1) (by norm_num)
  · norm_num at c₂
  obtain ⟨s₃, -, ⟨-, u₃⟩ | ⟨c₃, -⟩⟩ := updateDynamics_healthy h₂ (dt := 1 / 200) (by norm_num)
  swap; · norm_num at c₃
  refine ⟨_, s₃, ?_, .ok (o := .updateController 1) rfl (.ok (o := .updateDynamics (1 / 2)) u₁
    (.throw (o := .updateDynamics (-1)) u₂ (.ok (o := .updateDynamics (1 / 200)) u₃ (.nil _)))), ?_⟩
  · simp [keepsDisarmed]
  · simp [flownTime, flownBy]

end

/-- The fixture with a minimum rotor speed of one. -/
noncomputable def restless : ModelParams ℝ :=
  { Fixture.modelParams with motors := Model.quadX 1 1 1 1 1 10 1 1 }

/-- ... its rotors. -/
noncomputable def restlessMotors (i : Fin 4) : Motor ℝ := restless.motors.get (i.cast rfl)

lemma restless_speed : (restlessMotors 0).minSpeed = 1 ∧ (restlessMotors 0).maxSpeed = 10 ∧
    (restlessMotors 0).tau = 1 := by
  simp [restlessMotors, restless, Model.quadX]

/-- Rotors with a minimum speed of one, turning at that speed, still turn after any time. -/
theorem C83_violated : ¬ C83_claim := by
  intro h
  let N : Noise ℝ := ⟨fun _ _ _ => 0⟩
  have hc : Model.checkParams restless = true := by
    simp [Model.checkParams, restless, Fixture.modelParams, Model.checkMotor, Model.quadX, flt]
  have hd : Model.dirOk restless.motors = true := by
    simp [Model.dirOk, restless, Model.quadX]
  let s : Sim ℝ 4 := { Fixture.sim with
    dyn := builtFrom restless restlessMotors 7 { Fixture.dyn.state with motVel := fun _ => 1 } }
  have hr : RunsOn s.dyn restless restlessMotors := runsOn_new _ _ _ _ rfl hc hd
  have hh : Healthy s.disarm.dyn := ⟨restless, restlessMotors, (Model.checkParams_iff _).1 hc, rfl, rfl⟩
  obtain ⟨t, -, ⟨-, u⟩ | ⟨c, -⟩⟩ := updateDynamics_healthy hh (dt := 1 / 100) (by norm_num)
  swap; · norm_num at c
  have ht : Trace s.disarm [⟨s.disarm, .updateDynamics (1 / 100), false⟩] t := .ok u (.nil _)
  obtain ⟨e1, e2, e3⟩ := restless_speed
  have hs : s.dyn.state.motVel 0 = 1 := rfl
  have hk := h N 4 s t _ _ _ 0 hr (by rw [e3]; norm_num) (by rw [e1, hs]) (by rw [e2, hs]; norm_num)
    (by simp [keepsDisarmed]) ht
  have hw := (C83_spin_down_partial s t _ _ _ 0 hr (by rw [e3]; norm_num) (by rw [e1, hs])
    (by rw [e2, hs]; norm_num) (by simp [keepsDisarmed]) ht).1.2
  rw [hs, e1, e2, e3] at hw
  rw [hs, e3] at hk
  norm_num [flownTime, flownBy] at hw hk
  have hw' : t.dyn.state.motVel 0 = 1 := by linarith
  rw [hw'] at hk
  have : Real.exp (-(1 / 100)) < 1 := by
    rw [Real.exp_lt_one_iff]; norm_num
  linarith

end Verif.Props
