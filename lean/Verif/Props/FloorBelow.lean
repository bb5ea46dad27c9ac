import Verif.Spec.Sim
import Verif.Fixture

/-!
# A floor that is not reached

Enabling the floor (`enable_floor_collision`, multirotor_simulator.hpp:286-290) makes `update_dynamics`
compare the height of the vehicle with the floor twice per update, and replace the external force, the state
and the sensors on contact.  A flight that never gets below the floor is the same with and without it.
-/

namespace Verif

open Flt Spec

/-! ## Specification -/

namespace Spec

variable {α : Type} {n : ℕ}

/-- The same simulator with a floor at height `h`. -/
def floored (h : α) (s : Sim α n) : Sim α n := { s with floorEnable := true, floorHeight := h }

/-- Calls that switch the floor. -/
def switchesFloor : SimOp α n → Bool
  | .enableFloor _ => true
  | .disableFloor => true
  | _ => false

/-- Arming reads the height of the floor: it becomes the height of the position reference. -/
def arms : SimOp α n → Bool
  | .arm => true
  | _ => false

/-- The vehicle is not below the height `h`. -/
def Clears [Flt α] (h : α) (s : Sim α n) : Prop := lt (s.dyn.state.pos 2) h = false

end Spec

namespace Props

variable {α : Type} [Flt α] [Noise α] {n : ℕ}

lemma floored_updateDynamics {s : Sim α n} {h dt : α} (hf : s.floorEnable = false) (h0 : Clears h s) :
    (∀ s', s.updateDynamics dt = .ok s' → s'.floorEnable = false ∧ s'.floorHeight = s.floorHeight ∧
      (Clears h s' → (floored h s).updateDynamics dt = .ok (floored h s') ∧ s'.floorCollision = false)) ∧
    (∀ s', s.updateDynamics dt = .throw s' → s'.floorEnable = false ∧ s'.floorHeight = s.floorHeight ∧
      (floored h s).updateDynamics dt = .throw (floored h s')) := by
  have e1 : s.belowFloor = false := by simp [Sim.belowFloor, hf]
  have e2 : (floored h s).belowFloor = false := by
    unfold Clears at h0
    simp [Sim.belowFloor, floored, h0]
  unfold Sim.updateDynamics
  rw [e1, e2]
  simp only [Bool.false_eq_true, if_false]
  rw [show (floored h s).dyn = s.dyn from rfl, show (floored h s).actuation = s.actuation from rfl,
    show (floored h s).extForce = s.extForce from rfl,
    show (floored h s).floorCollision = s.floorCollision from rfl]
  cases s.dyn.process s.actuation dt s.extForce (!s.floorCollision) with
  | bad => simp
  | throw d =>
    refine ⟨by simp, ?_⟩
    rintro s' e
    cases e
    exact ⟨hf, rfl, rfl⟩
  | ok d =>
    simp only [Sim.belowFloor, hf, Bool.false_and, Bool.false_eq_true, if_false]
    refine ⟨?_, by simp⟩
    rintro s' e
    cases e
    refine ⟨rfl, rfl, fun hc => ⟨?_, rfl⟩⟩
    have hc' : lt (d.state.pos 2) h = false := hc
    simp [floored, hc']

omit [Noise α] in
lemma floored_updateController (s : Sim α n) (h dt : α) :
    (floored h s).updateController dt = floored h (s.updateController dt) ∧
    (s.updateController dt).floorEnable = s.floorEnable ∧ (s.updateController dt).floorHeight = s.floorHeight ∧
    (s.updateController dt).dyn = s.dyn := by
  unfold Sim.updateController
  rw [show (floored h s).armed = s.armed from rfl, show (floored h s).yawMode = s.yawMode from rfl]
  cases s.armed with
  | false => exact ⟨rfl, rfl, rfl, rfl⟩
  | true =>
    simp only [Bool.not_true, Bool.false_eq_true, if_false]
    by_cases hy : s.yawMode = .rate
    · rw [if_pos hy, if_pos hy]
      rw [show (floored h s).updateYawReference.mode = s.mode from rfl,
        show s.updateYawReference.mode = s.mode from rfl]
      cases s.mode <;> exact ⟨rfl, rfl, rfl, rfl⟩
    · rw [if_neg hy, if_neg hy]
      rw [show (floored h s).mode = s.mode from rfl]
      cases s.mode <;> exact ⟨rfl, rfl, rfl, rfl⟩

/-- One call. -/
lemma floored_step {s : Sim α n} {h : α} (o : SimOp α n) (hf : s.floorEnable = false) (h0 : Clears h s)
    (ho : switchesFloor o = false) (ha : arms o = false ∨ s.floorHeight = h) :
    (∀ s', s.step o = .ok s' → s'.floorEnable = false ∧ s'.floorHeight = s.floorHeight ∧
      (Clears h s' → (floored h s).step o = .ok (floored h s'))) ∧
    (∀ s', s.step o = .throw s' → s'.floorEnable = false ∧ s'.floorHeight = s.floorHeight ∧
      (floored h s).step o = .throw (floored h s')) := by
  cases o with
  | updateDynamics dt =>
    obtain ⟨k1, k2⟩ := floored_updateDynamics (dt := dt) hf h0
    exact ⟨fun s' e => ⟨(k1 s' e).1, (k1 s' e).2.1, fun c => ((k1 s' e).2.2 c).1⟩, k2⟩
  | updateController dt =>
    obtain ⟨k1, k2, k3, -⟩ := floored_updateController s h dt
    refine ⟨?_, by simp [Sim.step]⟩
    rintro s' e
    cases e
    exact ⟨k2.trans hf, k3, fun _ => congrArg Res.ok k1⟩
  | enableFloor _ => simp [switchesFloor] at ho
  | disableFloor => simp [switchesFloor] at ho
  | arm =>
    refine ⟨?_, by simp [Sim.step]⟩
    rintro s' e
    cases e
    rcases ha with ha | ha
    · simp [arms] at ha
    · refine ⟨hf, rfl, fun _ => ?_⟩
      simp [Sim.step, Sim.arm, floored, ha]
  | setControlMode m y =>
    refine ⟨?_, by simp [Sim.step]⟩
    rintro s' e
    cases e
    have key : (floored h s).setControlMode m y = floored h (s.setControlMode m y) ∧
        (s.setControlMode m y).floorEnable = s.floorEnable ∧
        (s.setControlMode m y).floorHeight = s.floorHeight := by
      unfold Sim.setControlMode
      rw [show (floored h s).mode = s.mode from rfl, show (floored h s).yawMode = s.yawMode from rfl]
      split <;> exact ⟨rfl, rfl, rfl⟩
    exact ⟨key.2.1.trans hf, key.2.2, fun _ => congrArg Res.ok key.1⟩
  | setDynParams p =>
    simp only [Sim.step, Sim.setDynParams]
    cases Dyn.mk' p with
    | none => simp
    | some d =>
      refine ⟨?_, by simp⟩
      rintro s' e
      cases e
      exact ⟨hf, rfl, fun _ => rfl⟩
  | setOdomParams p =>
    simp only [Sim.step, Sim.setOdomParams]
    cases Odom.mk' p with
    | none => simp
    | some d =>
      refine ⟨?_, by simp⟩
      rintro s' e
      cases e
      exact ⟨hf, rfl, fun _ => rfl⟩
  | _ =>
    refine ⟨?_, by simp [Sim.step]⟩
    rintro s' e
    cases e
    exact ⟨hf, rfl, fun _ => rfl⟩

/-- **C156.** A flight that is never below the height `h` before or after a call is the same with a floor at
`h`: every call has the same outcome, and the vehicle, the controllers, the sensors, the references and all
other settings agree at every moment; only the switch and the height of the floor differ.  Calls that switch
the floor are excluded, and arming, which aims at the height of the floor, unless that height was set to `h`
already. -/
theorem C156_unnoticed {s t : Sim α n} {tr : List (Event α n)} (h : α) (hr : Trace s tr t)
    (hf : s.floorEnable = false) (ho : ∀ e ∈ tr, switchesFloor e.op = false)
    (ha : (∀ e ∈ tr, arms e.op = false) ∨ s.floorHeight = h) (hc : ∀ e ∈ tr, Clears h e.before)
    (ht : Clears h t) :
    Trace (floored h s) (tr.map fun e => ⟨floored h e.before, e.op, e.threw⟩) (floored h t) := by
  have hd : ∀ {s' t : Sim α n} {tr : List (Event α n)}, Trace s' tr t → (∀ e ∈ tr, Clears h e.before) →
      Clears h t → Clears h s' := by
    intro s' t tr hr hc ht
    cases hr with
    | nil => exact ht
    | ok _ _ => exact hc _ (List.mem_cons_self ..)
    | throw _ _ => exact hc _ (List.mem_cons_self ..)
  induction hr with
  | nil s => exact .nil _
  | @ok s s' t o tr hs hr ih =>
    have ha' : arms o = false ∨ s.floorHeight = h := ha.imp_left fun k => k ⟨s, o, false⟩ (List.mem_cons_self ..)
    obtain ⟨k1, k2, k3⟩ := (floored_step o hf (hc _ (List.mem_cons_self ..))
      (ho ⟨s, o, false⟩ (List.mem_cons_self ..)) ha').1 s' hs
    have hc' : ∀ e ∈ tr, Clears h e.before := fun e he => hc e (List.mem_cons_of_mem _ he)
    refine .ok (k3 (hd hr hc' ht)) (ih k1 (fun e he => ho e (List.mem_cons_of_mem _ he)) ?_ hc' ht)
    exact ha.imp (fun k e he => k e (List.mem_cons_of_mem _ he)) (fun k => k2.trans k)
  | @throw s s' t o tr hs hr ih =>
    have ha' : arms o = false ∨ s.floorHeight = h := ha.imp_left fun k => k ⟨s, o, true⟩ (List.mem_cons_self ..)
    obtain ⟨k1, k2, k3⟩ := (floored_step o hf (hc _ (List.mem_cons_self ..))
      (ho ⟨s, o, true⟩ (List.mem_cons_self ..)) ha').2 s' hs
    have hc' : ∀ e ∈ tr, Clears h e.before := fun e he => hc e (List.mem_cons_of_mem _ he)
    refine .throw k3 (ih k1 (fun e he => ho e (List.mem_cons_of_mem _ he)) ?_ hc' ht)
    exact ha.imp (fun k e he => k e (List.mem_cons_of_mem _ he)) (fun k => k2.trans k)

/-- The hypotheses are met by a vehicle that moves for 5 ms, with a floor at the lower end of its way. -/
example [Noise ℝ] : ∃ (s t : Sim ℝ 4) (h : ℝ) (tr : List (Event ℝ 4)), tr ≠ [] ∧ Trace s tr t ∧
    s.floorEnable = false ∧ (∀ e ∈ tr, switchesFloor e.op = false) ∧ (∀ e ∈ tr, arms e.op = false) ∧
    (∀ e ∈ tr, Clears h e.before) ∧ Clears h t := by
  obtain ⟨t, ht⟩ := Fixture.updateDynamics_ok Fixture.sim rfl (1 / 200) (by norm_num) (by norm_num)
  refine ⟨Fixture.sim, t, min (Fixture.sim.dyn.state.pos 2) (t.dyn.state.pos 2),
    [⟨Fixture.sim, .updateDynamics (1 / 200), false⟩], by simp, .ok ht (.nil _), rfl, ?_, ?_, ?_, ?_⟩
  · simp [switchesFloor]
  · simp [arms]
  · simp [Clears, flt]
  · simp [Clears, flt]

omit [Noise α] in
/-- The exception for arming is needed: with another height of the floor the armed vehicle aims elsewhere. -/
theorem C156_arming (s : Sim α n) (h : α) (hne : s.floorHeight ≠ h) :
    (floored h s).arm ≠ floored h s.arm := by
  intro e
  have := congrFun (congrArg Sim.refPos e) 2
  simp [Sim.arm, floored] at this
  exact hne this.symm

end Props

end Verif
