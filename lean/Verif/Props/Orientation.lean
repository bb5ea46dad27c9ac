import Verif.Lemmas.Quat
import Verif.Lemmas.DynReal
import Verif.Fixture
import Verif.Props.Sim

/-!
# C03: the orientation stays a unit quaternion
-/

namespace Verif.Props

open Verif Flt Spec

section
variable {α : Type} [Flt α] [Noise α] {n : ℕ}

/-- The call does not by itself destroy `P` of the orientation: constructing new dynamics uses an
orientation with `P`, and manipulation of the dynamics object by the user keeps `P`. -/
def KeepsOri (P : Quat α → Prop) : SimOp α n → Prop
  | .setDynParams p => P p.state.ori
  | .mutDyn f => ∀ d, P d.state.ori → P (f d).state.ori
  | _ => True

lemma process_ori {P : Quat α → Prop} (hP : ∀ q om dt, P q → P (quatIntegrate q om dt)) {d d' : Dyn α n}
    {act : Vec n α} {dt : α} {ext : Vec 3 α} {noise : Bool} (hd : P d.state.ori)
    (h : d.process act dt ext noise = .ok d') : P d'.state.ori := by
  refine Dyn.process_ind (P := fun x => P x.state.ori) ?_ hd h
  intro dt a b ha hab
  obtain ⟨c, ms, -, -, -, rfl⟩ := Dyn.singleStep_ok hab
  exact hP _ _ _ ha

/-- An invariant of integration is an invariant of every history that respects it. -/
lemma runs_ori (hm : le (Dyn.maxStep : α) (lit 0) = false) {P : Quat α → Prop}
    (hP : ∀ q om dt, P q → P (quatIntegrate q om dt)) {s t : Sim α n}
    {os : List (SimOp α n)} (h : Sim.Runs s os t) (ho : ∀ o ∈ os, KeepsOri P o) (hs : P s.dyn.state.ori) :
    P t.dyn.state.ori := by
  induction h with
  | nil s => exact hs
  | @throw s s' t o os hst _ ih =>
    refine ih (fun o h => ho o (List.mem_cons_of_mem _ h)) ?_
    cases o with
    | updateDynamics dt =>
      obtain ⟨ext, d, hp, rfl⟩ := Sim.updateDynamics_throw hst
      rw [(C05_throw_iff hm _ _ _ _ _ _ hp).2]
      exact hs
    | setDynParams p => simp only [Sim.step, Sim.setDynParams] at hst; split at hst <;> simp at hst
    | setOdomParams p => simp only [Sim.step, Sim.setOdomParams] at hst; split at hst <;> simp at hst
    | _ => simp [Sim.step] at hst
  | @ok s s' t o os hst _ ih =>
    refine ih (fun o h => ho o (List.mem_cons_of_mem _ h)) ?_
    have hk := ho o (List.mem_cons_self ..)
    cases o with
    | updateDynamics dt =>
      obtain ⟨ext, d, -, hp, rfl⟩ := Sim.updateDynamics_ok hst
      have := process_ori hP hs hp
      simp only []
      split
      · exact this
      · exact this
    | updateController dt =>
      simp only [Sim.step, Res.ok.injEq] at hst
      subst hst
      rcases Bool.eq_false_or_eq_true s.armed with hb | hb
      · rw [Sim.updateController_armed hb]; exact hs
      · rw [Sim.updateController_disarmed hb]; exact hs
    | setDynParams p =>
      simp only [Sim.step, Sim.setDynParams] at hst
      split at hst
      · simp at hst
      · rename_i d hd
        simp only [Res.ok.injEq] at hst
        subst hst
        simp only [Dyn.mk', Option.map_eq_some_iff] at hd
        obtain ⟨m, -, rfl⟩ := hd
        exact hk
    | setOdomParams p =>
      simp only [Sim.step, Sim.setOdomParams] at hst
      split at hst
      · simp at hst
      · simp only [Res.ok.injEq] at hst; subst hst; exact hs
    | setControlMode m y =>
      simp only [Sim.step, Res.ok.injEq] at hst
      subst hst
      unfold Sim.setControlMode
      split <;> exact hs
    | mutDyn f =>
      simp only [Sim.step, Res.ok.injEq] at hst
      subst hst
      exact hk _ hs
    | _ => simp only [Sim.step, Res.ok.injEq] at hst; subst hst; exact hs

end

lemma maxStep_real : le (Dyn.maxStep : ℝ) (lit 0) = false := by simp [Dyn.maxStep, flt]

section
variable [Noise ℝ] {n : ℕ}

/-- A successful update ends with a normalisation. -/
lemma unit_of_process {d d' : Dyn ℝ n} {act : Vec n ℝ} {dt : ℝ} {ext : Vec 3 ℝ} {noise : Bool}
    (hd : NonzeroQ d.state.ori) (h : d.process act dt ext noise = .ok d') : IsUnitQ d'.state.ori := by
  have h1 : NonzeroQ d'.state.ori :=
    process_ori (P := NonzeroQ) (fun q om dt h => (Quat.quatIntegrate_unit h om dt).nonzero) hd h
  have h2 : IsUnitQ d'.state.ori ∨ ¬ NonzeroQ d'.state.ori := by
    refine Dyn.process_last (P := fun x => IsUnitQ x.state.ori ∨ ¬ NonzeroQ x.state.ori) substepPos_real
      ?_ h
    intro dt a b hab
    obtain ⟨c, ms, -, -, -, rfl⟩ := Dyn.singleStep_ok hab
    rw [Dyn.es_ori]
    by_cases hz : NonzeroQ a.state.ori
    · exact .inl (Quat.quatIntegrate_unit hz _ _)
    · right
      simp only [NonzeroQ, not_not] at hz ⊢
      obtain ⟨z1, z2, z3, z4⟩ := hz
      unfold quatIntegrate
      rw [Quat.integrate_eq, Quat.normalized_eq]
      simp [z1, z2, z3, z4]
  exact h2.resolve_right (not_not.2 h1)

/-- **C03.** Start from any non-zero orientation, through any history that does not itself install a
zero orientation; after a successful update, and then for ever as long as the user does not install
another orientation, the orientation is a unit quaternion.  Both histories may contain anything else:
updates, collisions, noise, commands, rejected calls. -/
theorem C03_unit_orientation (p : SimParams ℝ n) (s₀ s s' t : Sim ℝ n) (h₀ : Sim.mk' p = some s₀)
    (hq : NonzeroQ p.dyn.state.ori) (os os' : List (SimOp ℝ n)) (dt : ℝ)
    (ho : ∀ o ∈ os, KeepsOri NonzeroQ o) (hr : Sim.Runs s₀ os s) (hu : s.updateDynamics dt = .ok s')
    (ho' : ∀ o ∈ os', KeepsOri IsUnitQ o) (hr' : Sim.Runs s' os' t) :
    IsUnitQ t.dyn.state.ori := by
  have h1 : NonzeroQ s₀.dyn.state.ori := by
    unfold Sim.mk' at h₀
    split at h₀
    · rename_i d o hd ho
      simp only [Option.some.injEq] at h₀
      subst h₀
      simp only [Dyn.mk', Option.map_eq_some_iff] at hd
      obtain ⟨m, -, rfl⟩ := hd
      exact hq
    · simp at h₀
  have hnz : ∀ q om (dt : ℝ), NonzeroQ q → NonzeroQ (quatIntegrate q om dt) :=
    fun q om dt h => (Quat.quatIntegrate_unit h om dt).nonzero
  have h2 := runs_ori maxStep_real hnz hr ho h1
  refine runs_ori maxStep_real (fun q om dt h => Quat.quatIntegrate_unit h.nonzero om dt) hr' ho' ?_
  obtain ⟨ext, d, -, hp, rfl⟩ := Sim.updateDynamics_ok hu
  have h3 := unit_of_process h2 hp
  simp only []
  split
  · exact h3
  · exact h3

/-- A history with a non-normalised initial orientation, a rejected update, an update, arming and another
update. -/
example : ∃ (s₀ s s' t : Sim ℝ 4) (p : SimParams ℝ 4) (os os' : List (SimOp ℝ 4)),
    Sim.mk' p = some s₀ ∧ NonzeroQ p.dyn.state.ori ∧ ¬ IsUnitQ p.dyn.state.ori ∧
    (∀ o ∈ os, KeepsOri NonzeroQ o) ∧ Sim.Runs s₀ os s ∧ s.updateDynamics (1 / 100) = .ok s' ∧
    (∀ o ∈ os', KeepsOri IsUnitQ o) ∧ os'.length = 2 ∧ Sim.Runs s' os' t := by
  let st : State ℝ 4 := { (State.default : State ℝ 4) with ori := ⟨1, 2, 3, 4⟩ }
  let p : SimParams ℝ 4 := { Fixture.simParams with dyn := { Fixture.dynParams with state := st } }
  let s₀ : Sim ℝ 4 := { Fixture.sim with dyn := { Fixture.dyn with state := st } }
  have hmk : Sim.mk' p = some s₀ := by
    have := Fixture.mk_sim
    unfold Sim.mk' at this ⊢
    have hd : Dyn.mk' p.dyn = some s₀.dyn := by
      have := Fixture.mk_dyn
      simp only [Dyn.mk', Option.map_eq_some_iff] at this ⊢
      obtain ⟨m, h1, h2⟩ := this
      exact ⟨m, h1, by rw [show m = Fixture.dyn.model from congrArg Dyn.model h2]⟩
    have ho : Odom.mk' p.odom = some s₀.odom := by
      split at this
      · rename_i d o _ ho
        simp only [Option.some.injEq] at this
        rw [show p.odom = Fixture.simParams.odom from rfl, ho]
        exact congrArg some (congrArg Sim.odom this)
      · simp at this
    rw [hd, ho]
    rfl
  have hthrow : s₀.step (.updateDynamics (-1)) = .throw s₀ := by
    show s₀.updateDynamics (-1) = _
    rcases Sim.updateDynamics_cases s₀ (-1) with ⟨hb, -, -⟩ | ⟨ext, he, hu⟩
    · simp [s₀, Fixture.sim, Sim.belowFloor] at hb
    · rw [hu, Dyn.process_nonpos _ _ _ _ _ (by simp [flt])]
      rcases he with ⟨-, rfl⟩ | ⟨hb, -⟩
      · rfl
      · simp [s₀, Fixture.sim, Sim.belowFloor] at hb
  obtain ⟨s', h'⟩ := Fixture.updateDynamics_ok s₀ rfl (1 / 100) (by norm_num) le_rfl
  have hc' : s'.dyn.model.core = some Fixture.core := by
    obtain ⟨ext, d, -, hp, rfl⟩ := Sim.updateDynamics_ok h'
    have := Dyn.process_core hp
    simp only []
    split
    · exact this
    · exact this
  obtain ⟨t, ht⟩ := Fixture.updateDynamics_ok s'.arm hc' (1 / 200) (by norm_num) (by norm_num)
  refine ⟨s₀, s₀, s', t, p, [.updateDynamics (-1)], [.arm, .updateDynamics (1 / 200)], hmk, ?_, ?_, ?_,
    .throw hthrow (.nil _), h', ?_, rfl, .ok rfl (.ok ht (.nil _))⟩
  · simp [p, st, NonzeroQ]
  · simp [p, st, IsUnitQ]; norm_num
  · simp [KeepsOri]
  · simp [KeepsOri]

end

end Verif.Props
