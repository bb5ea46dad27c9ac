import Verif.Props.LandingCalls
import Verif.Props.NoiseStreams

/-!
# C15: a parked vehicle stays parked whatever else is called
-/

namespace Verif.Props

open Verif Flt Spec

section
variable [Noise ℝ] {n : ℕ}

/-- Any call but those that arm, switch the floor, or replace vehicle or state; with time steps of the vehicle that
are not sub-stepped. -/
def ParkedCall : SimOp ℝ n → Prop
  | .updateDynamics dt => 0 < dt ∧ dt ≤ 1 / 100
  | o => KeepsOff o

/-- The vehicle of `C15_parked_partial` keeps its pose also if modes, references and controller parameters are set,
the sensors are replaced, or components other than the dynamics are changed directly in the meantime; and every such
history runs to the end.  Missing, as there: a vehicle put on the floor without a contact update is moved by the
noise. -/
theorem C15_calls_partial (s : Sim ℝ n) (p : ModelParams ℝ) (ms : Fin n → Motor ℝ) (g : ℝ)
    (os : List (SimOp ℝ n)) (hs : Parked s p ms g) (hf : s.floorCollision = true ∨ p.forceNoise = 0)
    (ho : ∀ o ∈ os, ParkedCall o) :
    (∀ t, Sim.Runs s os t →
      t.dyn.state.pos = s.dyn.state.pos ∧ t.dyn.state.ori = s.dyn.state.ori) ∧
    ∃ t, Sim.Runs s os t := by
  have k1 : ∀ o ∈ os, KeepsOff o := fun o h => by
    have := ho o h
    cases o <;> first | exact trivial | exact this
  have k2 : ∀ o ∈ os.filter isUpdate, CycleCall o := fun o h => by
    obtain ⟨h1, h2⟩ := List.mem_filter.1 h
    have := ho o h1
    cases o <;> first | exact this | exact trivial | simp [isUpdate] at h2
  obtain ⟨h1, t, h2⟩ := C15_parked_partial s p ms g (os.filter isUpdate) hs hf k2
  obtain ⟨t', h4, h5, -⟩ := sameBody_runs os s s t ⟨rfl, rfl, rfl, rfl, rfl, rfl, rfl⟩ hs.disarmed
    (by rw [hs.actuation]; funext i; simp [vzero, flt]) k1 h2
  obtain ⟨e1, e2⟩ := h1 t h2
  refine ⟨fun u hu => ?_, t', h4⟩
  obtain rfl := runs_det h4 hu
  exact ⟨by rw [h5.1, e1], by rw [h5.1, e2]⟩

/-- Calls around a parked vehicle. -/
example : ∀ o ∈ ([.setControlMode .position .angle, .setRefPos ![1, 2, 3], .updateController (1 / 100),
    .updateDynamics (1 / 100), .mutCtl id, .updateImu 1, .disarm] : List (SimOp ℝ 4)), ParkedCall o := by
  simp [ParkedCall, KeepsOff]

/-- **C157.** The same after a landing: from some number of updates on, a vehicle that was let go with stopped rotors
keeps its pose through every further history of such calls. -/
theorem C157_stays (s : Sim ℝ n) (p : ModelParams ℝ) (ms : Fin n → Motor ℝ) (g a b : ℝ)
    (hs : LetGo s p ms g) (ha : 0 < a) (hb : b ≤ 1 / 100)
    (hslow : p.drag * b * |s.dyn.state.vel 2| ≤ p.mass)
    (hst : p.drag * b ^ 2 * g ≤ 3 / 4 * p.mass ^ 2) :
    ∃ N, ∀ os os' : List (SimOp ℝ n), (∀ o ∈ os, AnyWithin a b o) → N ≤ updates os → (∀ o ∈ os', ParkedCall o) →
      ∃ t t', s.Runs os t ∧ t.Runs os' t' ∧ t.dyn.state.pos 2 = s.floorHeight ∧
        t'.dyn.state.pos = t.dyn.state.pos ∧ t'.dyn.state.ori = t.dyn.state.ori := by
  obtain ⟨N, hN⟩ := C157_lands s p ms g a b hs ha hb hslow hst
  refine ⟨N, fun os os' ho hu ho' => ?_⟩
  obtain ⟨k1, k2⟩ := within_filter ho
  have k1' : ∀ o ∈ os', KeepsOff o := fun o h => by
    have := ho' o h
    cases o <;> first | exact trivial | exact this
  have k2' : ∀ o ∈ os'.filter isUpdate, CycleCall o := fun o h => by
    obtain ⟨h1, h2⟩ := List.mem_filter.1 h
    have := ho' o h1
    cases o <;> first | exact this | exact trivial | simp [isUpdate] at h2
  obtain ⟨u, h1, h2, h3⟩ := hN _ k2 (by rwa [updates_filter])
  obtain ⟨u', h4, h5, h6⟩ := h3 _ k2'
  have hz : s.actuation = vzero := by rw [hs.actuation]; funext i; simp [vzero, flt]
  obtain ⟨t, r1, r2, r3, r4⟩ := sameBody_runs os s s u ⟨rfl, rfl, rfl, rfl, rfl, rfl, rfl⟩ hs.disarmed hz k1 h1
  obtain ⟨t', r5, r6, -⟩ := sameBody_runs os' t u u' r2 r3 r4 k1' h4
  exact ⟨t, t', r1, r5, by rw [r2.1, h2], by rw [r6.1, r2.1, h5], by rw [r6.1, r2.1, h6]⟩

end

end Verif.Props
