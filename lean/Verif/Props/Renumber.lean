import Verif.Spec.Renumber
import Verif.Props.Progress
import Verif.Lemmas.Symmetry
import Mathlib.Data.List.FinRange

/-!
# C101: the numbering of the rotors does not matter
-/

namespace Verif.Props

open Verif Flt Spec

variable {n : ℕ}

section
variable {α : Type} (σ : Equiv.Perm (Fin n))

lemma renumVec_symm (v : Vec n α) : renumVec σ.symm (renumVec σ v) = v := by
  funext i; simp [renumVec]

lemma renumRows_symm {m : ℕ} (v : Mat n m α) : renumRows σ.symm (renumRows σ v) = v := by
  funext i r; simp [renumRows]

lemma renumCols_symm {m : ℕ} (v : Mat m n α) : renumCols σ.symm (renumCols σ v) = v := by
  funext r i; simp [renumCols]

lemma renumList_length {β : Type} (l : List β) : (renumList σ l).length = l.length := by
  unfold renumList
  split
  · rename_i h; simp [h]
  · rfl

lemma renumList_perm {β : Type} (l : List β) : (renumList σ l).Perm l := by
  unfold renumList
  split
  · rename_i h
    subst h
    have := Equiv.Perm.ofFn_comp_perm σ (fun i => l.get i)
    rwa [List.ofFn_get] at this
  · exact .refl _

lemma renumList_symm {β : Type} (l : List β) : renumList σ.symm (renumList σ l) = l := by
  by_cases h : l.length = n
  · subst h
    unfold renumList
    rw [dif_pos (by simp)]
    simp
  · unfold renumList
    rw [dif_neg h, dif_neg h]

lemma renumModelParams_symm (p : ModelParams α) : renumModelParams σ.symm (renumModelParams σ p) = p := by
  simp [renumModelParams, renumList_symm]

lemma renumDyn_symm (d : Dyn α n) : renumDyn σ.symm (renumDyn σ d) = d := by
  have hc : ∀ c : ModelCore α n, renumCore σ.symm (renumCore σ c) = c := by
    intro c
    simp [renumCore, renumModelParams_symm, renumVec_symm, renumCols_symm]
  have hr : ∀ M : Mat n 6 α, renumRows σ.symm (renumRows σ M) = M := renumRows_symm σ
  obtain ⟨⟨c, mm, r, f, g⟩, s⟩ := d
  simp only [renumDyn, renumModel, renumState, renumVec_symm, Option.map_map]
  congr 2
  · cases c <;> simp [hc]
  · cases mm <;> simp [hr]

lemma renumCtl_symm (c : Ctl α n) : renumCtl σ.symm (renumCtl σ c) = c := by
  simp [renumCtl, renumVec_symm, renumRows_symm]

lemma motorFn_renum (l : List (Motor α)) :
    Model.motorFn n (renumList σ l) = (Model.motorFn n l).map fun f i => f (σ i) := by
  unfold Model.motorFn
  by_cases h : l.length = n
  · rw [dif_pos ((renumList_length σ l).trans h), dif_pos h]
    simp only [Option.map_some, Option.some.injEq]
    funext i
    unfold renumList
    simp [h]
  · rw [dif_neg (by rwa [renumList_length]), dif_neg h]
    rfl

variable [Flt α]

lemma renumVec_zero : renumVec σ (vzero : Vec n α) = vzero := rfl

lemma checkParams_renum (p : ModelParams α) : Model.checkParams (renumModelParams σ p) = Model.checkParams p := by
  unfold Model.checkParams renumModelParams
  simp only [(renumList_perm σ p.motors).all_eq]

omit [Flt α] in
lemma dirOk_renum (l : List (Motor α)) : Model.dirOk (renumList σ l) = Model.dirOk l :=
  (renumList_perm σ l).all_eq

lemma coreOf_renum (p : ModelParams α) (f : Fin n → Motor α) :
    Model.coreOf (renumModelParams σ p) (fun i => f (σ i)) = renumCore σ (Model.coreOf p f) := rfl

lemma clampOk_renum (f : Fin n → Motor α) : Dyn.clampOk (fun i => f (σ i)) = Dyn.clampOk f := by
  rw [Bool.eq_iff_iff]
  simp only [Dyn.clampOk, List.all_eq_true, List.mem_finRange, true_implies]
  exact ⟨fun h i => by simpa using h (σ.symm i), fun h i => h (σ i)⟩

lemma mk_renum (p : ModelParams α) (seed : ℤ) :
    (Model.mk' (renumModelParams σ p) seed : Option (Model α n)) = (Model.mk' p seed).map (renumModel σ) := by
  unfold Model.mk' Model.updateParams
  rw [checkParams_renum]
  split
  · simp [renumModel]
  · rw [show (renumModelParams σ p).motors = renumList σ p.motors from rfl, motorFn_renum, dirOk_renum]
    cases Model.motorFn n p.motors with
    | none => rfl
    | some f =>
      simp only [Option.map_some]
      split
      · simp [renumModel, coreOf_renum]
      · rfl

end

section
variable (σ : Equiv.Perm (Fin n))

lemma mv_renum {m : ℕ} (M : Mat m n ℝ) (v : Vec n ℝ) : mv (renumCols σ M) (renumVec σ v) = mv M v := by
  rw [mv_real, mv_real]
  funext r
  simp only [Matrix.mulVec, dotProduct, renumCols, renumVec]
  exact Equiv.sum_comp σ fun i => M r i * v i

lemma mv_rows {m : ℕ} (M : Mat n m ℝ) (v : Vec m ℝ) : mv (renumRows σ M) v = renumVec σ (mv M v) := rfl

variable [Noise ℝ]

lemma eulerStep_renum (c : ModelCore ℝ n) (f : Fin n → Motor ℝ) (d : Dyn ℝ n) (act : Vec n ℝ) (dt : ℝ)
    (ext : Vec 3 ℝ) (noise : Bool) :
    Dyn.eulerStep (renumCore σ c) (fun i => f (σ i)) (renumDyn σ d) (renumVec σ act) dt ext noise =
      renumDyn σ (Dyn.eulerStep c f d act dt ext noise) := by
  have hT : ∀ w, Model.thrustVec (renumCore σ c) (renumVec σ w) = Model.thrustVec c w := fun w =>
    mv_renum σ c.mixForce (squaredKeepSign w)
  have hM : ∀ w a, Model.motorTorque (renumCore σ c) (renumVec σ w) (renumVec σ a) = Model.motorTorque c w a := by
    intro w a
    show vadd (mv (renumCols σ c.mixTorque) (renumVec σ (squaredKeepSign w)))
      (mv (renumCols σ c.mixInertia) (renumVec σ a)) = _
    rw [mv_renum, mv_renum]
    rfl
  have hn : (if noise then (renumModel σ d.model).setNoise (renumCore σ c) dt else (renumModel σ d.model).disableNoise) =
      renumModel σ (if noise then d.model.setNoise c dt else d.model.disableNoise) := by
    split
    · unfold Model.setNoise
      split <;> rfl
    · rfl
  have ha : Dyn.motorDerivative (fun i => f (σ i)) (Dyn.clampMotors (fun i => f (σ i)) (renumVec σ act))
      (renumVec σ d.state.motVel) =
      renumVec σ (Dyn.motorDerivative f (Dyn.clampMotors f act) d.state.motVel) := rfl
  unfold Dyn.eulerStep
  simp only [show (renumDyn σ d).model = renumModel σ d.model from rfl,
    show (renumDyn σ d).state = renumState σ d.state from rfl, hn, ha,
    show (renumState σ d.state).motVel = renumVec σ d.state.motVel from rfl, hT, hM]
  rfl

lemma process_renum (d : Dyn ℝ n) (act : Vec n ℝ) (dt : ℝ) (ext : Vec 3 ℝ) (noise : Bool) :
    Res.Rel (fun d e => e = renumDyn σ d) (d.process act dt ext noise)
      ((renumDyn σ d).process (renumVec σ act) dt ext noise) := by
  refine Dyn.process_rel ?_ dt d _ rfl
  rintro dt d _ rfl
  unfold Dyn.singleStep
  rw [show (renumDyn σ d).model.core = d.model.core.map (renumCore σ) from rfl]
  cases d.model.core with
  | none => trivial
  | some c =>
    simp only [Option.map_some]
    rw [show (renumCore σ c).params.motors = renumList σ c.params.motors from rfl, motorFn_renum]
    cases Model.motorFn n c.params.motors with
    | none => trivial
    | some f =>
      simp only [Option.map_some, clampOk_renum]
      split
      · exact eulerStep_renum σ c f d act dt ext noise
      · trivial

omit [Noise ℝ] in
lemma acroToMotor_renum (c : Ctl ℝ n) (om : Vec 3 ℝ) (t : ℝ) (od : Vec 3 ℝ) (dt : ℝ) :
    (renumCtl σ c).acroControl om t od dt =
      (renumCtl σ (c.acroControl om t od dt).1, renumVec σ (c.acroControl om t od dt).2) := rfl

omit [Noise ℝ] in
lemma command_renum (s : Sim ℝ n) (y dt : ℝ) :
    (renumSim σ s).command y dt = (renumCtl σ (s.command y dt).1, renumVec σ (s.command y dt).2) := by
  unfold Sim.command
  simp only [renumSim]
  split <;> rfl

/-- Renumbered calls on renumbered simulators have renumbered outcomes. -/
lemma renum_step (s : Sim ℝ n) (o : SimOp ℝ n) :
    Res.Rel (fun s t => t = renumSim σ s) (s.step o) ((renumSim σ s).step (renumOp σ o)) := by
  cases o with
  | updateDynamics dt =>
    show Res.Rel _ (s.updateDynamics dt) ((renumSim σ s).updateDynamics dt)
    have hb : (renumSim σ s).belowFloor = s.belowFloor := rfl
    have hcore : (renumSim σ s).dyn.model.core = s.dyn.model.core.map (renumCore σ) := rfl
    rcases Sim.updateDynamics_cases s dt with ⟨h1, h2, h3⟩ | ⟨ext, h1, h2⟩ <;>
      rcases Sim.updateDynamics_cases (renumSim σ s) dt with ⟨k1, k2, k3⟩ | ⟨ext', k1, k2⟩
    · rw [h3, k3]
      trivial
    · exfalso
      rw [hb, h1, hcore, h2] at k1
      simp at k1
    · exfalso
      rw [hb] at k1
      rw [hcore, Option.map_eq_none_iff] at k2
      simp [k1, k2] at h1
    · obtain rfl : ext' = ext := by
        rcases h1 with ⟨a, rfl⟩ | ⟨a, c, e, rfl⟩ <;> rcases k1 with ⟨b, rfl⟩ | ⟨b, c', e', rfl⟩
        · rfl
        · rw [hb, a] at b; simp at b
        · rw [hb, a] at b; simp at b
        · rw [hcore, e] at e'
          obtain rfl : renumCore σ c = c' := Option.some.inj e'
          rfl
      rw [h2, k2]
      have := process_renum σ s.dyn s.actuation dt ext' (!s.floorCollision)
      have e1 : (renumSim σ s).dyn.process (renumSim σ s).actuation dt ext' (!(renumSim σ s).floorCollision) =
        (renumDyn σ s.dyn).process (renumVec σ s.actuation) dt ext' (!s.floorCollision) := rfl
      rw [e1]
      cases h1 : s.dyn.process s.actuation dt ext' (!s.floorCollision) <;>
        cases h2 : (renumDyn σ s.dyn).process (renumVec σ s.actuation) dt ext' (!s.floorCollision) <;>
        rw [h1, h2] at this <;> try exact this.elim
      · rename_i d e
        obtain rfl : e = renumDyn σ d := this
        simp only []
        have hb2 : Sim.belowFloor { renumSim σ s with
            dyn := renumDyn σ d, floorCollision := false, extForce := vzero } =
          Sim.belowFloor { s with dyn := d, floorCollision := false, extForce := vzero } := rfl
        rw [hb2]
        split <;> rfl
      · rename_i d e
        obtain rfl : e = renumDyn σ d := this
        rfl
      · trivial
  | updateController dt =>
    simp only [Sim.step, renumOp]
    rcases Bool.eq_false_or_eq_true s.armed with hb | hb
    · rw [Sim.updateController_armed hb, Sim.updateController_armed (s := renumSim σ s) hb]
      have hy : (renumSim σ s).yawRef = s.yawRef := rfl
      rw [hy, command_renum]
      rfl
    · rw [Sim.updateController_disarmed hb, Sim.updateController_disarmed (s := renumSim σ s) hb]
      rfl
  | setControlMode m y =>
    simp only [Sim.step, renumOp, Sim.setControlMode]
    have hm : (renumSim σ s).mode = s.mode := rfl
    have hy : (renumSim σ s).yawMode = s.yawMode := rfl
    rw [hm, hy]
    split <;> rfl
  | setDynParams p =>
    simp only [Sim.step, renumOp, Sim.setDynParams, Dyn.mk']
    rw [show (renumDynParams σ p).model = renumModelParams σ p.model from rfl, mk_renum,
      show (renumDynParams σ p).seed = p.seed from rfl]
    cases Model.mk' (n := n) p.model p.seed with
    | none => trivial
    | some m => rfl
  | setOdomParams p =>
    simp only [Sim.step, renumOp, Sim.setOdomParams]
    cases Odom.mk' p with
    | none => trivial
    | some d => rfl
  | mutDyn f =>
    show _ = _
    simp only [renumSim, renumDyn_symm]
  | mutCtl f =>
    show _ = _
    simp only [renumSim, renumCtl_symm]
  | _ => rfl

/-- **C101.** Renumber the rotors of a vehicle, with the rows of its allocation matrix, and give rotor references in the
new numbers: every history of all public calls has the same exceptions and, at every moment, the same simulator in the
new numbers — position, attitude, velocities, forces, controller memory, measurements, odometry and noise are equal,
rotor speeds and commands are renumbered. -/
theorem C101_renumbering (s s' : Sim ℝ n) (tr : List (Event ℝ n)) (h : Trace s tr s') :
    Trace (renumSim σ s) (tr.map (renumEvent σ)) (renumSim σ s') := by
  induction h with
  | nil s => exact .nil _
  | @ok s s' u o tr hs _ ih =>
    have := renum_step σ s o
    rw [hs] at this
    cases ht : (renumSim σ s).step (renumOp σ o) with
    | ok t =>
      rw [ht] at this
      obtain rfl : t = renumSim σ s' := this
      exact .ok ht ih
    | throw t => rw [ht] at this; exact this.elim
    | bad => rw [ht] at this; exact this.elim
  | @throw s s' u o tr hs _ ih =>
    have := renum_step σ s o
    rw [hs] at this
    cases ht : (renumSim σ s).step (renumOp σ o) with
    | throw t =>
      rw [ht] at this
      obtain rfl : t = renumSim σ s' := this
      exact .throw ht ih
    | ok t => rw [ht] at this; exact this.elim
    | bad => rw [ht] at this; exact this.elim

/-- **C101, construction.** A simulator constructed from renumbered parameters is the renumbered simulator. -/
theorem C101_construction (p : SimParams ℝ n) : Sim.mk' (renumSimParams σ p) = (Sim.mk' p).map (renumSim σ) := by
  unfold Sim.mk' Dyn.mk'
  rw [show (renumSimParams σ p).dyn.model = renumModelParams σ p.dyn.model from rfl, mk_renum,
    show (renumSimParams σ p).dyn.seed = p.dyn.seed from rfl, show (renumSimParams σ p).odom = p.odom from rfl]
  cases Model.mk' (n := n) p.dyn.model p.dyn.seed with
  | none => rfl
  | some m =>
    cases Odom.mk' p.odom with
    | none => rfl
    | some o => rfl

/-- A history of the fixture whose first two rotors are exchanged: they differ in their sense of rotation. -/
example : ∃ (s' : Sim ℝ 4) (tr : List (Event ℝ 4)), Trace Fixture.sim tr s' ∧
    tr.map Event.op = [.setRefMot ![1, 2, 3, 4], .arm, .updateController (1 / 100), .updateDynamics (1 / 100),
      .setControlMode .position .angle, .updateController (1 / 100), .updateDynamics (1 / 50)] ∧
    renumSim (Equiv.swap 0 1) Fixture.sim ≠ Fixture.sim ∧
    (renumOp (Equiv.swap 0 1) (.setRefMot ![1, 2, 3, 4]) : SimOp ℝ 4) = .setRefMot ![2, 1, 3, 4] := by
  obtain ⟨tr, s', ht, ho⟩ := fixture_trace [.setRefMot ![1, 2, 3, 4], .arm, .updateController (1 / 100),
    .updateDynamics (1 / 100), .setControlMode .position .angle, .updateController (1 / 100), .updateDynamics (1 / 50)]
    (by simp [Sanctioned]; norm_num)
  refine ⟨s', tr, ht, ho, fun h => ?_, ?_⟩
  · have h1 : (renumSim (Equiv.swap 0 1) Fixture.sim).dyn.model.core = Fixture.sim.dyn.model.core := by rw [h]
    have h2 : renumCore (Equiv.swap 0 1) Fixture.core = Fixture.core := Option.some.inj h1
    have h3 := congrArg (fun c => c.mixInertia 2 0) h2
    simp [renumCore, renumCols, Fixture.core, Model.coreOf, Model.mixerInertia, Fixture.motors, Fixture.modelParams,
      Model.quadX, flt] at h3
    norm_num at h3
  · have : renumVec (Equiv.swap 0 1) (![1, 2, 3, 4] : Vec 4 ℝ) = ![2, 1, 3, 4] := by
      funext i
      fin_cases i <;> rfl
    simp only [renumOp, this]

end

/-- **C101, allocation.** The allocation matrix computed for the renumbered rotors is the renumbered allocation matrix,
so that a controller set up from its own vehicle needs no extra care. -/
theorem C101_allocation (σ : Equiv.Perm (Fin 4)) (f : Fin 4 → Motor ℝ) :
    Indi.mixerInverse (Model.mixer6 fun i => f (σ i)) = renumRows σ (Indi.mixerInverse (Model.mixer6 f)) := by
  have h : (fun r i => Model.mixer6 (fun i => f (σ i)) (Fin.natAdd 2 r) i : Mat 4 4 ℝ) =
      Matrix.submatrix (fun r i => Model.mixer6 f (Fin.natAdd 2 r) i) (Equiv.refl (Fin 4)) σ := rfl
  have h4 : inv4 (fun r i => Model.mixer6 (fun i => f (σ i)) (Fin.natAdd 2 r) i : Mat 4 4 ℝ) =
      fun i j => inv4 (fun r i => Model.mixer6 f (Fin.natAdd 2 r) i : Mat 4 4 ℝ) (σ i) j := by
    rw [h, inv4_real]
    exact Matrix.inv_submatrix_equiv _ (Equiv.refl (Fin 4)) σ
  unfold Indi.mixerInverse
  simp only [h4]
  rfl

/-- Rotors of a cross-shaped vehicle, two of them exchanged. -/
example : ∃ f : Fin 4 → Motor ℝ, Model.motorFn 4 (Model.quadX 1 1 1 1 0 10 1 1) = some f ∧
    f 0 ≠ f 1 := by
  refine ⟨_, rfl, fun h => ?_⟩
  have := congrArg Motor.dir h
  simp [Model.quadX] at this

end Verif.Props
