import Verif.Props.LandingSpin

/-!
# C157: landing whatever else is called
-/

namespace Verif.Props

open Verif Flt Spec

section
variable {α : Type} [Flt α] [Noise α] {n : ℕ}

/-- Two simulators that agree on the vehicle, the floor and the command. -/
def SameBody (s u : Sim α n) : Prop :=
  s.dyn = u.dyn ∧ s.armed = u.armed ∧ s.floorEnable = u.floorEnable ∧ s.floorCollision = u.floorCollision ∧
    s.floorHeight = u.floorHeight ∧ s.actuation = u.actuation ∧ s.extForce = u.extForce

omit [Noise α] in
lemma SameBody.floor {s u : Sim α n} (h : SameBody s u) : s.belowFloor = u.belowFloor := by
  obtain ⟨h1, -, h3, -, h5, -⟩ := h
  simp only [Sim.belowFloor, h1, h3, h5]

/-- An update of the vehicle depends on these only. -/
lemma SameBody.update {s u : Sim α n} (dt : α) (h : SameBody s u) :
    Res.Rel (fun s' u' => SameBody s' u' ∧ u'.armed = u.armed ∧ u'.actuation = u.actuation) (s.updateDynamics dt)
      (u.updateDynamics dt) := by
  have hb := h.floor
  obtain ⟨h1, h2, h3, h4, h5, h6, h7⟩ := h
  unfold Sim.updateDynamics
  simp only [hb, h1, h4, h6, h7]
  generalize (if u.belowFloor = true then _ else _ : Option (Vec 3 α)) = e
  cases e with
  | none => trivial
  | some e =>
    simp only
    cases u.dyn.process u.actuation dt e (!u.floorCollision) with
    | bad => trivial
    | throw d => exact ⟨⟨rfl, h2, h3, rfl, h5, rfl, rfl⟩, rfl, rfl⟩
    | ok d =>
      simp only [Sim.belowFloor, h3, h5]
      rcases Bool.eq_false_or_eq_true (u.floorEnable && lt (d.state.pos 2) u.floorHeight) with hc | hc
      · simp only [hc, if_true]
        refine ⟨⟨?_, h2, rfl, rfl, rfl, rfl, rfl⟩, rfl, rfl⟩
        simp [Sim.collide, Dyn.setState]
      · simp only [hc, Bool.false_eq_true, if_false]
        exact ⟨⟨rfl, h2, rfl, rfl, rfl, rfl, rfl⟩, rfl, rfl⟩

/-- The updates of vehicle and controller among the calls. -/
def isUpdate : SimOp α n → Bool
  | .updateDynamics _ => true
  | .updateController _ => true
  | _ => false

/-- Calls that leave vehicle, floor and arming alone, apart from updates. -/
def KeepsOff : SimOp α n → Prop
  | .arm => False
  | .enableFloor _ => False
  | .disableFloor => False
  | .setDynParams _ => False
  | .mutDyn _ => False
  | .setOdomParams p => (Odom.mk' p).isSome
  | _ => True

/-- The other calls do not matter to a disarmed vehicle. -/
lemma sameBody_runs (os : List (SimOp α n)) : ∀ s u t : Sim α n, SameBody s u → u.armed = false →
    u.actuation = vzero → (∀ o ∈ os, KeepsOff o) → u.Runs (os.filter isUpdate) t →
    ∃ t', s.Runs os t' ∧ SameBody t' t ∧ t.armed = false ∧ t.actuation = vzero := by
  induction os with
  | nil =>
    intro s u t h hd ha _ hr
    cases hr
    exact ⟨s, .nil s, h, hd, ha⟩
  | cons o os ih =>
    intro s u t h hd ha ho hr
    have ho1 := ho _ (List.mem_cons_self ..)
    have ho2 : ∀ o ∈ os, KeepsOff o := fun o h => ho o (List.mem_cons_of_mem _ h)
    have skip : ∀ s', isUpdate o = false → s.step o = .ok s' → SameBody s' u →
        ∃ t', s.Runs (o :: os) t' ∧ SameBody t' t ∧ t.armed = false ∧ t.actuation = vzero := by
      intro s' h1 h2 h3
      rw [List.filter_cons, h1] at hr
      obtain ⟨t', h4, h5⟩ := ih s' u t h3 hd ha ho2 hr
      exact ⟨t', .ok h2 h4, h5⟩
    have hb := h
    obtain ⟨h1, h2, h3, h4, h5, h6, h7⟩ := h
    cases o with
    | updateDynamics dt =>
      rw [List.filter_cons, show isUpdate (SimOp.updateDynamics dt : SimOp α n) = true from rfl, if_pos rfl] at hr
      have hrel := hb.update dt
      cases hr with
      | ok hst hr =>
        simp only [Sim.step] at hst
        rw [hst] at hrel
        cases hs : s.updateDynamics dt with
        | ok s' =>
          rw [hs] at hrel
          obtain ⟨r1, r2, r3⟩ := hrel
          obtain ⟨t', h4, h5⟩ := ih s' _ t r1 (r2.trans hd) (r3.trans ha) ho2 hr
          exact ⟨t', .ok hs h4, h5⟩
        | throw s' => rw [hs] at hrel; exact hrel.elim
        | bad => rw [hs] at hrel; exact hrel.elim
      | throw hst hr =>
        simp only [Sim.step] at hst
        rw [hst] at hrel
        cases hs : s.updateDynamics dt with
        | throw s' =>
          rw [hs] at hrel
          obtain ⟨r1, r2, r3⟩ := hrel
          obtain ⟨t', h4, h5⟩ := ih s' _ t r1 (r2.trans hd) (r3.trans ha) ho2 hr
          exact ⟨t', .throw hs h4, h5⟩
        | ok s' => rw [hs] at hrel; exact hrel.elim
        | bad => rw [hs] at hrel; exact hrel.elim
    | updateController dt =>
      rw [List.filter_cons, show isUpdate (SimOp.updateController dt : SimOp α n) = true from rfl, if_pos rfl] at hr
      cases hr with
      | ok hst hr =>
        simp only [Sim.step, Res.ok.injEq] at hst
        subst hst
        rw [Sim.updateController_disarmed hd] at hr
        obtain ⟨t', h8, h9⟩ := ih { s with actuation := vzero } { u with actuation := vzero } t
          ⟨h1, h2, h3, h4, h5, rfl, h7⟩ hd rfl ho2 hr
        exact ⟨t', .ok (by simp only [Sim.step, Sim.updateController_disarmed (h2.trans hd)]) h8, h9⟩
      | throw hst _ => simp [Sim.step] at hst
    | disarm => exact skip _ rfl rfl ⟨h1, hd.symm, h3, h4, h5, ha.symm, h7⟩
    | setControlMode m y =>
      refine skip _ rfl rfl ?_
      unfold Sim.setControlMode
      split
      · exact hb
      · exact ⟨h1, h2, h3, h4, h5, h6, h7⟩
    | setOdomParams p =>
      obtain ⟨q, hq⟩ := Option.isSome_iff_exists.1 ho1
      exact skip { s with odom := q } rfl (by simp only [Sim.step, Sim.setOdomParams, hq])
        ⟨h1, h2, h3, h4, h5, h6, h7⟩
    | arm => exact ho1.elim
    | enableFloor => exact ho1.elim
    | disableFloor => exact ho1.elim
    | setDynParams => exact ho1.elim
    | mutDyn => exact ho1.elim
    | _ => exact skip _ rfl rfl ⟨h1, h2, h3, h4, h5, h6, h7⟩

end

section
variable [Noise ℝ] {n : ℕ}

/-- Any call but those that arm, switch the floor, or replace vehicle or state; with the time steps of the vehicle
between `a` and `b`. -/
def AnyWithin (a b : ℝ) : SimOp ℝ n → Prop
  | .updateDynamics dt => a ≤ dt ∧ dt ≤ b
  | o => KeepsOff o

omit [Noise ℝ] in
lemma updates_filter (os : List (SimOp ℝ n)) : updates (os.filter isUpdate) = updates os := by
  induction os with
  | nil => rfl
  | cons o os ih =>
    cases o <;> simp [List.filter_cons, isUpdate, updates, ih]

omit [Noise ℝ] in
lemma within_filter {a b : ℝ} {os : List (SimOp ℝ n)} (h : ∀ o ∈ os, AnyWithin a b o) :
    (∀ o ∈ os, KeepsOff o) ∧ ∀ o ∈ os.filter isUpdate, CycleWithin a b o := by
  constructor
  · intro o ho
    have := h o ho
    cases o <;> first | exact trivial | exact this
  · intro o ho
    obtain ⟨h1, h2⟩ := List.mem_filter.1 ho
    have := h o h1
    cases o <;> first | exact this | exact trivial | simp [isUpdate] at h2

/-- **C157.** The vehicle comes down also if modes, references and controller parameters are set, the sensors are
replaced, or components other than the dynamics are changed directly in the meantime. -/
theorem C157_whatever (s : Sim ℝ n) (p : ModelParams ℝ) (ms : Fin n → Motor ℝ) (g a b : ℝ)
    (hs : CutOff s p ms g) (ht : ∀ i, b ≤ (ms i).tau) (ha : 0 < a) (hab : a ≤ b) (hb : b ≤ 1 / 100)
    (hslow : p.drag * b * |s.dyn.state.vel 2| ≤ p.mass)
    (hst : p.drag * b ^ 2 * (g + thrustSum ms s.dyn.state.motVel) ≤ 3 / 4 * p.mass ^ 2) :
    ∃ N, ∀ os : List (SimOp ℝ n), (∀ o ∈ os, AnyWithin a b o) → N ≤ updates os →
      ∃ t, s.Runs os t ∧ t.dyn.state.pos 2 = s.floorHeight ∧ t.dyn.state.vel 2 ≤ 0 := by
  obtain ⟨N, hN⟩ := C157_spinning s p ms g a b hs ht ha hab hb hslow hst
  refine ⟨N, fun os ho hu => ?_⟩
  obtain ⟨k1, k2⟩ := within_filter ho
  obtain ⟨t, h1, h2, h3⟩ := hN _ k2 (by rwa [updates_filter])
  obtain ⟨t', h4, h5, -⟩ := sameBody_runs os s s t ⟨rfl, rfl, rfl, rfl, rfl, rfl, rfl⟩ hs.disarmed
    (by rw [hs.actuation]; funext i; simp [vzero, flt]) k1 h1
  exact ⟨t', h4, by rw [h5.1, h2], by rw [h5.1]; exact h3⟩

/-- Calls allowed between the updates. -/
example : ∀ o ∈ ([.disarm, .setControlMode .position .rate, .setRefMot (fun _ => 7), .updateDynamics (1 / 200),
    .updateController 3, .mutCtl id, .setRefPos ![1, 2, 3], .updateDynamics (1 / 100)] : List (SimOp ℝ 4)),
    AnyWithin (1 / 200) (1 / 100) o := by
  simp [AnyWithin, KeepsOff]
  norm_num

end

end Verif.Props
