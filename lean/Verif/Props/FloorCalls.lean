import Verif.Props.SimFloor
import Verif.Props.Sim

/-!
# C01, C07, C08 in terms of the calls that enabled or disabled the floor
-/

namespace Verif.Props

open Verif Flt Spec

section
variable {α : Type} [Flt α] [Noise α] {n : ℕ}

/-- The floor after a call: its height, nothing if there is no floor. -/
def floorStep (f : Option α) : SimOp α n → Option α
  | .enableFloor h => some h
  | .disableFloor => none
  | _ => f

/-- The floor that the calls of a history ask for. -/
def floorAfter (init : Option α) : List (Event α n) → Option α
  | [] => init
  | e :: tr => floorAfter (floorStep init e.op) tr

/-- The flag, the height and the external force that belong to a floor. -/
def HasFloor (s : Sim α n) : Option α → Prop
  | none => s.floorEnable = false ∧ s.extForce = fun _ => lit 0
  | some h => s.floorEnable = true ∧ s.floorHeight = h

omit [Noise α] in
lemma hasFloor_congr {s s' : Sim α n} {f : Option α} (h : HasFloor s f) (h1 : s'.floorEnable = s.floorEnable)
    (h2 : s'.floorHeight = s.floorHeight) (h3 : s.floorEnable = false → s'.extForce = s.extForce) :
    HasFloor s' f := by
  cases f with
  | none => exact ⟨h1.trans h.1, (h3 h.1).trans h.2⟩
  | some x => exact ⟨h1.trans h.1, h2.trans h.2⟩

lemma step_floor {s s' : Sim α n} {o : SimOp α n} {f : Option α} (h : HasFloor s f)
    (hs : s.step o = .ok s' ∨ s.step o = .throw s') :
    HasFloor s' (floorStep f o) := by
  cases o with
  | updateDynamics dt =>
    rcases hs with hs | hs
    · obtain ⟨ext, d, -, -, rfl⟩ := Sim.updateDynamics_ok hs
      have hz : s.floorEnable = false → (vzero : Vec 3 α) = s.extForce := by
        intro hf
        cases f with
        | none => exact h.2.symm
        | some x => have := h.1; simp [hf] at this
      simp only []
      split
      · exact hasFloor_congr h rfl rfl hz
      · exact hasFloor_congr h rfl rfl hz
    · rcases Sim.updateDynamics_cases s dt with ⟨-, -, hb⟩ | ⟨ext, he, hu⟩
      · rw [Sim.step, hb] at hs; simp at hs
      · rw [Sim.step, hu] at hs
        cases hp : s.dyn.process s.actuation dt ext (!s.floorCollision) with
        | bad => simp [hp] at hs
        | ok d => simp only [hp] at hs; split at hs <;> simp at hs
        | throw d =>
          simp only [hp, Res.throw.injEq] at hs
          subst hs
          refine hasFloor_congr h rfl rfl ?_
          intro hf
          rcases he with ⟨-, rfl⟩ | ⟨hb, -⟩
          · rfl
          · simp [Sim.belowFloor, hf] at hb
  | updateController dt =>
    simp only [Sim.step, Res.ok.injEq, reduceCtorEq, or_false] at hs
    subst hs
    cases ha : s.armed with
    | false => rw [Sim.updateController_disarmed ha]; exact hasFloor_congr h rfl rfl fun _ => rfl
    | true => rw [Sim.updateController_armed ha]; exact hasFloor_congr h rfl rfl fun _ => rfl
  | enableFloor x =>
    simp only [Sim.step, Res.ok.injEq, reduceCtorEq, or_false] at hs
    subst hs
    exact ⟨rfl, rfl⟩
  | disableFloor =>
    simp only [Sim.step, Res.ok.injEq, reduceCtorEq, or_false] at hs
    subst hs
    exact ⟨rfl, rfl⟩
  | setControlMode m y =>
    simp only [Sim.step, Res.ok.injEq, reduceCtorEq, or_false] at hs
    subst hs
    unfold Sim.setControlMode
    split
    · exact h
    · exact hasFloor_congr h rfl rfl fun _ => rfl
  | setOdomParams p =>
    simp only [Sim.step, Sim.setOdomParams] at hs
    split at hs
    · simp at hs
    · simp only [Res.ok.injEq, reduceCtorEq, or_false] at hs
      subst hs
      exact hasFloor_congr h rfl rfl fun _ => rfl
  | setDynParams p =>
    simp only [Sim.step, Sim.setDynParams] at hs
    split at hs
    · simp at hs
    · simp only [Res.ok.injEq, reduceCtorEq, or_false] at hs
      subst hs
      exact hasFloor_congr h rfl rfl fun _ => rfl
  | _ =>
    simp only [Sim.step, Res.ok.injEq, reduceCtorEq, or_false] at hs
    subst hs
    exact hasFloor_congr h rfl rfl fun _ => rfl

lemma trace_floor {s t : Sim α n} {tr : List (Event α n)} (hr : Trace s tr t) :
    ∀ f, HasFloor s f → HasFloor t (floorAfter f tr) := by
  induction hr with
  | nil => exact fun _ h => h
  | ok hs _ ih => exact fun f h => ih _ (step_floor h (.inl hs))
  | throw hs _ ih => exact fun f h => ih _ (step_floor h (.inr hs))

lemma mk_floor {p : SimParams α n} {s : Sim α n} (h : Sim.mk' p = some s) : HasFloor s none := by
  unfold Sim.mk' at h
  split at h
  · simp only [Option.some.injEq] at h
    subst h
    exact ⟨rfl, rfl⟩
  · simp at h

/-- **C01, for the floor the user asked for.** In every history of a new simulator, exceptions included, an
update that returns leaves the vehicle not below the floor that was enabled last, at the height that was
passed. -/
theorem C01_enabled_floor [LawfulFlt α] (p : SimParams α n) (s₀ s s' : Sim α n) (tr : List (Event α n))
    (dt h : α) (h₀ : Sim.mk' p = some s₀) (hr : Trace s₀ tr s) (hs : s.updateDynamics dt = .ok s')
    (hf : floorAfter none tr = some h) : lt (s'.dyn.state.pos 2) h = false := by
  have h1 := trace_floor hr none (mk_floor h₀)
  rw [hf] at h1
  have h2 := step_floor (o := .updateDynamics dt) h1 (.inl hs)
  have h3 := C01_never_below_floor s s' dt hs h2.1
  rwa [h2.2] at h3

/-- **C07, without floor.** In every history of a new simulator, exceptions included: while no floor is
enabled (never, or disabled since) an update is exactly the step of the vehicle with its commands and without
external force; sensors and the contact flag show no contact. -/
theorem C07_no_floor (p : SimParams α n) (s₀ s s' : Sim α n) (tr : List (Event α n))
    (dt : α) (h₀ : Sim.mk' p = some s₀) (hr : Trace s₀ tr s) (hs : s.updateDynamics dt = .ok s')
    (hf : floorAfter none tr = none) :
    s.dyn.process s.actuation dt (fun _ => lit 0) (!s.floorCollision) = .ok s'.dyn ∧
    s'.floorCollision = false ∧ s'.imu = s.imu ∧ s'.odom = s.odom := by
  have h1 := trace_floor hr none (mk_floor h₀)
  rw [hf] at h1
  obtain ⟨ext, d, he, hp, rfl⟩ := Sim.updateDynamics_ok hs
  have hext : ext = fun _ => lit 0 := by
    rcases he with ⟨-, rfl⟩ | ⟨hb, -⟩
    · exact h1.2
    · simp [Sim.belowFloor, h1.1] at hb
  subst hext
  simp only []
  rw [if_neg (by simp [Sim.belowFloor, h1.1])]
  exact ⟨hp, rfl, rfl, rfl⟩

/-- **C08, without floor.** In every history of a new simulator, exceptions included, no external force is
left while no floor is enabled. -/
theorem C08_no_floor (p : SimParams α n) (s₀ s : Sim α n) (tr : List (Event α n))
    (h₀ : Sim.mk' p = some s₀) (hr : Trace s₀ tr s) (hf : floorAfter none tr = none) :
    s.extForce = fun _ => lit 0 := by
  have h1 := trace_floor hr none (mk_floor h₀)
  rw [hf] at h1
  exact h1.2

end

/-- Non-vacuity: a floor above the vehicle, an update, and another one after the floor was disabled. -/
example [Noise ℝ] : ∃ (s s' : Sim ℝ 4) (tr : List (Event ℝ 4)), Trace Fixture.sim tr s ∧
    s.updateDynamics (1 / 200) = .ok s' ∧ floorAfter none tr = some 5 ∧
    ∃ (tr' : List (Event ℝ 4)) (t : Sim ℝ 4), Trace Fixture.sim (tr ++ tr') t ∧
      floorAfter none (tr ++ tr') = none ∧ ∃ t', t.updateDynamics (1 / 100) = .ok t' := by
  obtain ⟨s', hs⟩ := Fixture.updateDynamics_ok (Fixture.sim.enableFloor 5) rfl (1 / 200) (by norm_num)
    (by norm_num)
  have hc : s'.disableFloor.dyn.model.core = some Fixture.core := by
    obtain ⟨ext, d, -, hp, rfl⟩ := Sim.updateDynamics_ok hs
    have := Dyn.process_core hp
    simp only [Sim.disableFloor]
    split <;> exact this.trans rfl
  obtain ⟨t', ht⟩ := Fixture.updateDynamics_ok s'.disableFloor hc (1 / 100) (by norm_num) le_rfl
  refine ⟨_, s', [⟨Fixture.sim, .enableFloor 5, false⟩], .ok rfl (.nil _), hs, rfl,
    [⟨_, .updateDynamics (1 / 200), false⟩, ⟨s', .disableFloor, false⟩], _,
    .ok rfl (.ok hs (.ok rfl (.nil _))), rfl, t', ht⟩

end Verif.Props
