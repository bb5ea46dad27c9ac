import Verif.Lemmas.MirrorSim
import Verif.Props.Origin
import Verif.Props.Renumber

/-!
# C104: mirror-image flights
-/

namespace Verif.Props

open Verif Flt Spec

variable {n : ℕ}

section
variable [Noise ℝ]

omit [Noise ℝ] in
lemma sameHeading_trans {x y z : ℝ} (h : SameHeading x y) (k : SameHeading y z) : SameHeading x z := by
  obtain ⟨a, rfl⟩ := h
  obtain ⟨b, rfl⟩ := k
  exact ⟨a + b, by push_cast; ring⟩

omit [Noise ℝ] in
lemma sameHeadingSim_trans {s t u : Sim ℝ n} (h : SameHeadingSim s t) (k : SameHeadingSim t u) : SameHeadingSim s u := by
  obtain ⟨h1, h2⟩ := h
  obtain ⟨k1, k2⟩ := k
  refine ⟨sameHeading_trans h1 k1, ?_⟩
  rw [k2]
  simp only
  rw [h2]

omit [Noise ℝ] in
lemma sameHeadingSim_refl (s : Sim ℝ n) : SameHeadingSim s s := ⟨heading_refl _, rfl⟩

/-- Noise-free simulators that are mirror images of each other. -/
def Mirrored (s t : Sim ℝ n) : Prop := plainSim s ∧ MirrorOf s t

lemma mirror_updateDynamics (s : Sim ℝ n) (h : plainSim s) (dt : ℝ) :
    Res.Rel Mirrored (s.updateDynamics dt) ((mirrorSim s).updateDynamics dt) := by
  have hb : ∀ s : Sim ℝ n, (mirrorSim s).belowFloor = s.belowFloor := fun s => by
    unfold Sim.belowFloor
    rw [show (mirrorSim s).dyn.state.pos 2 = s.dyn.state.pos 2 from mirrorVec_2 _]
    rfl
  have hcore : (mirrorSim s).dyn.model.core = s.dyn.model.core.map mirrorCore := rfl
  rcases Sim.updateDynamics_cases s dt with ⟨h1, h2, h3⟩ | ⟨ext, h1, h2⟩ <;>
    rcases Sim.updateDynamics_cases (mirrorSim s) dt with ⟨k1, k2, k3⟩ | ⟨ext', k1, k2⟩
  · rw [h3, k3]
    trivial
  · exfalso
    rw [hb, h1, hcore, h2] at k1
    simp at k1
  · exfalso
    rw [hb] at k1
    rw [hcore, Option.map_eq_none_iff] at k2
    simp [k1, k2] at h1
  · obtain rfl : ext' = mirrorVec ext := by
      rcases h1 with ⟨a, rfl⟩ | ⟨a, c, e, rfl⟩ <;> rcases k1 with ⟨b, rfl⟩ | ⟨b, c', e', rfl⟩
      · rfl
      · rw [hb, a] at b; simp at b
      · rw [hb, a] at b; simp at b
      · rw [hcore, e] at e'
        obtain rfl : mirrorCore c = c' := Option.some.inj e'
        simp only [flt, mirrorVec_smul, mirrorVec_neg]
        rfl
    rw [h2, k2]
    have := process_mirror s.dyn h.1 s.actuation dt ext (!s.floorCollision)
    have e1 : (mirrorSim s).dyn.process (mirrorSim s).actuation dt (mirrorVec ext) (!(mirrorSim s).floorCollision) =
      (mirrorDyn s.dyn).process s.actuation dt (mirrorVec ext) (!s.floorCollision) := rfl
    rw [e1]
    cases h1 : s.dyn.process s.actuation dt ext (!s.floorCollision) <;>
      cases h2 : (mirrorDyn s.dyn).process s.actuation dt (mirrorVec ext) (!s.floorCollision) <;>
      rw [h1, h2] at this <;> try exact this.elim
    · rename_i d e
      obtain ⟨hd, rfl⟩ := this
      simp only []
      have e2 : ({ mirrorSim s with extForce := vzero, dyn := mirrorDyn d, floorCollision := false } : Sim ℝ n) =
          mirrorSim { s with extForce := vzero, dyn := d, floorCollision := false } := by
        simp only [mirrorSim, vzero_real, mirrorVec_zero]
      rw [e2, hb]
      have hp : plainSim { s with extForce := vzero, dyn := d, floorCollision := false } := ⟨hd, h.2⟩
      generalize ({ s with extForce := vzero, dyn := d, floorCollision := false } : Sim ℝ n) = s at hp
      split
      · refine ⟨⟨hp.1, hp.2⟩, ?_⟩
        have : (mirrorSim s).collide = mirrorSim s.collide := by
          have hz : (vzero : Vec 3 ℝ) = mirrorVec vzero := by rw [vzero_real, mirrorVec_zero]
          have hz' : (vzero : Vec 3 ℝ) = mirrorTurn vzero := by rw [vzero_real, mirrorTurn_zero]
          have hpos : (fun i => if i = 2 then s.floorHeight else mirrorVec s.dyn.state.pos i) =
              mirrorVec fun i => if i = 2 then s.floorHeight else s.dyn.state.pos i := by
            apply vec_ext <;> simp
          have e : ∀ q, ((mirrorOdom s.odom).setInitialOrientation (mirrorQuat q)).reset =
              mirrorOdom (s.odom.setInitialOrientation q).reset := fun q => odom_reset_mirror (s.odom.setInitialOrientation q)
          unfold Sim.collide
          simp only [mirrorSim, imu_reset_mirror, Dyn.setState, mirrorDyn, mirrorState, State.default, e, hpos, ← hz, ← hz']
        rw [this]
        exact sameHeadingSim_refl _
      · exact ⟨hp, sameHeadingSim_refl _⟩
    · rename_i d e
      obtain ⟨hd, rfl⟩ := this
      exact ⟨⟨hd, h.2⟩, sameHeadingSim_refl _⟩
    · trivial

omit [Noise ℝ] in
lemma quiet_model_mk {p : ModelParams ℝ} (h : quietModel p) {seed : ℤ} {m : Model ℝ n}
    (hm : Model.mk' p seed = some m) : ∀ c, m.core = some c → quietModel c.params := by
  intro c hc
  unfold Model.mk' Model.updateParams at hm
  split at hm
  · obtain rfl := Option.some.inj hm
    simp at hc
  · split at hm
    · simp at hm
    · split at hm
      · obtain rfl := Option.some.inj hm
        obtain rfl := Option.some.inj hc
        exact h
      · simp at hm

/-- Mirrored calls on mirrored simulators have mirrored outcomes. -/
lemma mirror_step (s : Sim ℝ n) (o : SimOp ℝ n) (h : plainSim s) (ho : plainOp o) :
    Res.Rel Mirrored (s.step o) ((mirrorSim s).step (mirrorOp o)) := by
  have hz : (vzero : Vec 3 ℝ) = mirrorVec vzero := by rw [vzero_real, mirrorVec_zero]
  have hz' : (vzero : Vec 3 ℝ) = mirrorTurn vzero := by rw [vzero_real, mirrorTurn_zero]
  cases o with
  | updateDynamics dt => exact mirror_updateDynamics s h dt
  | updateController dt =>
    simp only [Sim.step, mirrorOp]
    rcases Bool.eq_false_or_eq_true s.armed with hb | hb
    · rw [Sim.updateController_armed hb, Sim.updateController_armed (s := mirrorSim s) hb]
      have hy : SameHeading (-s.yawRef) (mirrorSim s).yawRef := by
        unfold Sim.yawRef
        rw [show (mirrorSim s).yawMode = s.yawMode from rfl]
        split
        · obtain ⟨k, hk⟩ := Quat.yaw_mirror s.dyn.state.ori
          have hk' : (quatToEuler (mirrorSim s).dyn.state.ori).2.2 = _ := hk
          unfold Ctl.yawRateToAngle
          have hkp : (mirrorSim s).ctl.acro.kpRot 2 2 = s.ctl.acro.kpRot 2 2 := by
            simp [mirrorSim, mirrorCtl, mirrorMat]
          rw [hkp, hk', show (mirrorSim s).refYawRate = -s.refYawRate from rfl]
          simp only [flt, decide_eq_true_eq]
          split
          · exact ⟨k, rfl⟩
          · exact ⟨k, by ring⟩
        · exact heading_refl _
      rw [heading_command hy, command_mirror s h.2.1]
      refine ⟨⟨h.1, plain_command h.2.1 _ _, h.2.2⟩, hy, rfl⟩
    · rw [Sim.updateController_disarmed hb, Sim.updateController_disarmed (s := mirrorSim s) hb]
      exact ⟨h, sameHeadingSim_refl _⟩
  | updateImu dt =>
    refine ⟨⟨h.1, h.2.1, quiet_imu_update h.2.2 _ _ _⟩, ?_⟩
    have : (mirrorSim s).updateImu dt = mirrorSim (s.updateImu dt) := by
      simp only [Sim.updateImu, mirrorSim, ← imu_update_mirror h.2.2, ← Quat.rotate_mirror_v]
      rfl
    rw [this]
    exact sameHeadingSim_refl _
  | updateOdom dt =>
    refine ⟨h, ?_⟩
    have : (mirrorSim s).updateOdom dt = mirrorSim (s.updateOdom dt) := by
      simp only [Sim.updateOdom, mirrorSim, ← odom_update_mirror]
      rfl
    rw [this]
    exact sameHeadingSim_refl _
  | arm =>
    refine ⟨h, ?_⟩
    have : (mirrorSim s).arm = mirrorSim s.arm := by
      have hpos : (fun i => if i = 2 then s.floorHeight else mirrorVec s.refPos i) =
          mirrorVec fun i => if i = 2 then s.floorHeight else s.refPos i := by
        apply vec_ext <;> simp
      simp only [Sim.arm, mirrorSim, hpos, ← hz']
    rw [this]
    exact sameHeadingSim_refl _
  | disarm => exact ⟨h, sameHeadingSim_refl _⟩
  | enableFloor z =>
    refine ⟨h, ?_⟩
    have : (mirrorSim s).enableFloor z = mirrorSim (s.enableFloor z) := by
      simp only [Sim.enableFloor, mirrorSim, ← hz]
    rw [this]
    exact sameHeadingSim_refl _
  | disableFloor =>
    refine ⟨h, ?_⟩
    have : (mirrorSim s).disableFloor = mirrorSim s.disableFloor := by
      simp only [Sim.disableFloor, mirrorSim, ← hz]
    rw [this]
    exact sameHeadingSim_refl _
  | setControlMode m y =>
    simp only [Sim.step, mirrorOp, Sim.setControlMode]
    rw [show (mirrorSim s).mode = s.mode from rfl, show (mirrorSim s).yawMode = s.yawMode from rfl]
    split
    · exact ⟨h, sameHeadingSim_refl _⟩
    · refine ⟨h, Quat.yaw_mirror _, ?_⟩
      simp only [mirrorSim, ← hz, ← hz']
      rfl
  | setDynParams p =>
    simp only [Sim.step, mirrorOp, Sim.setDynParams, Dyn.mk']
    rw [show (mirrorDynParams p).model = mirrorModelParams p.model from rfl, Model.mk_mirror,
      show (mirrorDynParams p).seed = p.seed from rfl]
    cases hm : Model.mk' (n := n) p.model p.seed with
    | none => trivial
    | some m => exact ⟨⟨quiet_model_mk ho hm, h.2⟩, sameHeadingSim_refl _⟩
  | setCtlParams p =>
    refine ⟨⟨h.1, plain_ctl_mk ho, h.2.2⟩, ?_⟩
    have : (mirrorSim s).setCtlParams (mirrorCtlParams p) = mirrorSim (s.setCtlParams p) := by
      simp only [Sim.setCtlParams, mirrorSim, ctl_mk_mirror]
    rw [this]
    exact sameHeadingSim_refl _
  | setImuParams p =>
    refine ⟨⟨h.1, h.2.1, ho⟩, ?_⟩
    have : (mirrorSim s).setImuParams (mirrorImuParams p) = mirrorSim (s.setImuParams p) := by
      simp only [Sim.setImuParams, mirrorSim, imu_mk_mirror ho]
    rw [this]
    exact sameHeadingSim_refl _
  | setOdomParams p =>
    simp only [Sim.step, mirrorOp, Sim.setOdomParams, odom_mk_mirror]
    cases Odom.mk' p with
    | none => trivial
    | some d => exact ⟨h, sameHeadingSim_refl _⟩
  | mutDyn f =>
    refine ⟨⟨ho _ h.1, h.2⟩, ?_⟩
    simp only [mirrorSim, mirrorDyn_mirror]
    exact sameHeadingSim_refl _
  | mutCtl f =>
    refine ⟨⟨h.1, ho _ h.2.1, h.2.2⟩, ?_⟩
    simp only [mirrorSim, mirrorCtl_mirror]
    exact sameHeadingSim_refl _
  | mutImu f =>
    refine ⟨⟨h.1, h.2.1, ho _ h.2.2⟩, ?_⟩
    simp only [mirrorSim, mirrorImu_mirror]
    exact sameHeadingSim_refl _
  | mutOdom f =>
    refine ⟨h, ?_⟩
    simp only [mirrorSim, mirrorOdom_mirror]
    exact sameHeadingSim_refl _
  | _ => exact ⟨h, sameHeadingSim_refl _⟩

/-- **C104.** Mirror the vehicle, its state, its controller and its sensors, and give mirrored references: every history
of all public calls without random disturbances and integral reset has a mirrored history — the same exceptions and, at
every moment, the mirrored simulator with the same rotor speeds and commands. -/
theorem C104_mirror (s s' : Sim ℝ n) (tr : List (Event ℝ n)) (h : Trace s tr s') (hs : plainSim s)
    (ho : ∀ e ∈ tr, plainOp e.op) :
    ∃ (tr' : List (Event ℝ n)) (t : Sim ℝ n), Trace (mirrorSim s) tr' t ∧
      Corresponds MirrorOf (fun o o' => o' = mirrorOp o) tr tr' ∧ MirrorOf s' t := by
  obtain ⟨tr', t, h1, h2, h3, h4⟩ := Sim.trace_rel (R := Mirrored) (Ro := fun o o' => plainOp o ∧ o' = mirrorOp o)
    (by
      rintro s t o _ ⟨hp, hm⟩ ⟨ho, rfl⟩
      have a := mirror_step s o hp ho
      have b := heading_step (mirrorSim s) t (mirrorOp o) (mirrorOp o) hm .same
      cases e1 : s.step o <;> cases e2 : (mirrorSim s).step (mirrorOp o) <;> cases e3 : t.step (mirrorOp o) <;>
        rw [e1, e2] at a <;> rw [e2, e3] at b <;> first
          | exact a.elim
          | exact b.elim
          | trivial
          | exact ⟨a.1, sameHeadingSim_trans a.2 b⟩) h (mirrorSim s)
    (tr.map fun e => mirrorOp e.op) ⟨hs, sameHeadingSim_refl _⟩ (by
      clear h
      induction tr with
      | nil => exact .nil
      | cons e tr ih =>
        exact .cons ⟨ho e (by simp), rfl⟩ (ih fun a ha => ho a (by simp [ha])))
  exact ⟨tr', t, h1, h3.imp fun _ _ h => ⟨h.1.2, h.2.1.2, h.2.2⟩, h4.2⟩

lemma plain_construct {p : SimParams ℝ n} (hp : plainSimParams p) {s : Sim ℝ n} (h : Sim.mk' p = some s) :
    plainSim s := by
  unfold Sim.mk' at h
  split at h
  · rename_i d o hd ho
    obtain rfl := Option.some.inj h
    refine ⟨?_, plain_ctl_mk hp.2.1, hp.2.2⟩
    unfold Dyn.mk' at hd
    cases hm : Model.mk' (n := n) p.dyn.model p.dyn.seed with
    | none => simp [hm] at hd
    | some m =>
      rw [hm] at hd
      obtain rfl := Option.some.inj hd
      exact quiet_model_mk hp.1 hm
  · simp at h

/-- **C104, construction.** A simulator constructed from mirrored parameters is the mirrored simulator. -/
theorem C104_construction (p : SimParams ℝ n) (hp : plainSimParams p) :
    Sim.mk' (mirrorSimParams p) = (Sim.mk' p).map mirrorSim := by
  have hz : (vzero : Vec 3 ℝ) = mirrorVec vzero := by rw [vzero_real, mirrorVec_zero]
  have hz' : (vzero : Vec 3 ℝ) = mirrorTurn vzero := by rw [vzero_real, mirrorTurn_zero]
  unfold Sim.mk' Dyn.mk'
  rw [show (mirrorSimParams p).dyn.model = mirrorModelParams p.dyn.model from rfl, Model.mk_mirror,
    show (mirrorSimParams p).dyn.seed = p.dyn.seed from rfl,
    show (mirrorSimParams p).odom = mirrorOdomParams p.odom from rfl, odom_mk_mirror,
    show (mirrorSimParams p).ctl = mirrorCtlParams p.ctl from rfl, ctl_mk_mirror,
    show (mirrorSimParams p).imu = mirrorImuParams p.imu from rfl, imu_mk_mirror hp.2.2]
  cases Model.mk' (n := n) p.dyn.model p.dyn.seed with
  | none => rfl
  | some m =>
    cases Odom.mk' p.odom with
    | none => rfl
    | some o =>
      simp only [Option.map_some, mirrorSim, ← hz, ← hz', lit_zero, neg_zero]
      rfl

omit [Noise ℝ] in
lemma renumSim_symm (σ : Equiv.Perm (Fin n)) (s : Sim ℝ n) : renumSim σ.symm (renumSim σ s) = s := by
  simp only [renumSim, renumDyn_symm, renumCtl_symm, renumVec_symm]

/-- **C104, one vehicle.** A vehicle whose mirror image is the vehicle itself with its rotors exchanged (`σ`) flies left
as it flies right: for every history of a simulator constructed from such parameters, the same simulator given the
mirrored references has the mirrored history, with the rotors exchanged. -/
theorem C104_left_right (p : SimParams ℝ n) (hp : plainSimParams p) (σ : Equiv.Perm (Fin n))
    (hsym : mirrorSimParams p = renumSimParams σ p) (s s' : Sim ℝ n) (hs : Sim.mk' p = some s)
    (tr : List (Event ℝ n)) (h : Trace s tr s') (ho : ∀ e ∈ tr, plainOp e.op) :
    ∃ (tr' : List (Event ℝ n)) (t : Sim ℝ n), Trace s tr' t ∧
      Corresponds (fun a b => MirrorOf a (renumSim σ b)) (fun o o' => o' = renumOp σ.symm (mirrorOp o)) tr tr' ∧
      MirrorOf s' (renumSim σ t) := by
  have hm : mirrorSim s = renumSim σ s := by
    have h1 := C104_construction p hp
    rw [hsym, C101_construction, hs] at h1
    exact (Option.some.inj h1).symm
  obtain ⟨tr', t, h1, h2, h3⟩ := C104_mirror s s' tr h (plain_construct hp hs) ho
  rw [hm] at h1
  have h4 := C101_renumbering σ.symm _ _ _ h1
  rw [renumSim_symm] at h4
  have hr : ∀ u : Sim ℝ n, renumSim σ (renumSim σ.symm u) = u := fun u => renumSim_symm σ.symm u
  refine ⟨_, _, h4, ?_, by rw [hr]; exact h3⟩
  unfold Corresponds
  rw [List.forall₂_map_right_iff]
  refine h2.imp fun e e' he => ⟨?_, ?_, he.2.2⟩
  · show MirrorOf e.before (renumSim σ (renumSim σ.symm e'.before))
    rw [hr]; exact he.1
  · show renumOp σ.symm e'.op = _
    rw [he.2.1]

end

/-! ## The cross-shaped quadrotor is such a vehicle -/

/-- Front left and front right, back left and back right are exchanged. -/
def exchanged : Equiv.Perm (Fin 4) := Equiv.swap 0 1 * Equiv.swap 2 3

/-- **C104, cross.** The mirror image of the cross-shaped quadrotor is the quadrotor with its rotors exchanged. -/
theorem C104_cross (kf kt x y lo hi tau J : ℝ) :
    (Model.quadX kf kt x y lo hi tau J).map mirrorMotor = renumList exchanged (Model.quadX kf kt x y lo hi tau J) := by
  have h1 : ∀ a b : ℝ, mirrorVec ![a, b, 0] = ![a, -b, 0] := fun a b => by apply vec_ext <;> simp
  have h2 : mirrorMat (1 : Mat 3 3 ℝ) = 1 := by
    ext i j; fin_cases i <;> fin_cases j <;> simp [mirrorMat, across]
  have e0 : exchanged 0 = 1 := by decide
  have e1 : exchanged 1 = 0 := by decide
  have e2 : exchanged 2 = 3 := by decide
  have e3 : exchanged 3 = 2 := by decide
  simp only [renumList, Model.quadX, List.length_cons, List.length_nil]
  simp [List.ofFn_succ, mirrorMotor, flt, h1, h2, e0, e1, e2, e3]

/-- **C104, allocation.** The allocation matrix of the mirrored rotors is the mirrored allocation matrix. -/
theorem C104_allocation (f : Fin 4 → Motor ℝ) :
    Indi.mixerInverse (Model.mixer6 fun i => mirrorMotor (f i)) =
      mirrorCols wrench (Indi.mixerInverse (Model.mixer6 f)) := by
  let M : Mat 4 4 ℝ := fun r i => Model.mixer6 f (Fin.natAdd 2 r) i
  have h : (fun r i => Model.mixer6 (fun i => mirrorMotor (f i)) (Fin.natAdd 2 r) i : Mat 4 4 ℝ) =
      (Matrix.diagonal ![1, -1, 1, -1] : Mat 4 4 ℝ) * M := by
    ext r i
    rw [Matrix.diagonal_mul]
    simp only [M, Model.mixer6, Model.motorContrib_mirror]
    fin_cases r <;> simp [reversed, wrench]
  have hd : (Matrix.diagonal ![1, -1, 1, -1] : Mat 4 4 ℝ)⁻¹ = Matrix.diagonal ![1, -1, 1, -1] := by
    apply Matrix.inv_eq_left_inv
    rw [Matrix.diagonal_mul_diagonal, ← Matrix.diagonal_one]
    congr 1
    ext i; fin_cases i <;> simp
  have hi : ∀ i j, inv4 (fun r i => Model.mixer6 (fun i => mirrorMotor (f i)) (Fin.natAdd 2 r) i : Mat 4 4 ℝ) i j =
      inv4 M i j * (![1, -1, 1, -1] : Vec 4 ℝ) j := by
    intro i j
    rw [h, inv4_real, inv4_real, Matrix.mul_inv_rev, hd, Matrix.mul_diagonal]
  unfold Indi.mixerInverse
  ext i j
  fin_cases j <;> simp [mirrorCols, wrench, lit_zero, hi, M]

lemma motors_exchanged (i : Fin 4) : mirrorMotor (Fixture.motors i) = Fixture.motors (exchanged i) := by
  have h1 : ∀ a b : ℝ, mirrorVec ![a, b, 0] = ![a, -b, 0] := fun a b => by apply vec_ext <;> simp
  have h2 : mirrorMat (1 : Mat 3 3 ℝ) = 1 := by
    ext i j; fin_cases i <;> fin_cases j <;> simp [mirrorMat, across]
  have e0 : exchanged 0 = 1 := by decide
  have e1 : exchanged 1 = 0 := by decide
  have e2 : exchanged 2 = 3 := by decide
  have e3 : exchanged 3 = 2 := by decide
  fin_cases i <;> simp [Fixture.motors, Fixture.modelParams, Model.quadX, mirrorMotor, flt, h1, h2, e0, e1, e2, e3]

/-- A noise-free quadrotor with its own allocation matrix, proportional controllers and different moments of inertia. -/
noncomputable def twin : SimParams ℝ 4 where
  dyn :=
    { model := { Fixture.modelParams with inertia := Matrix.diagonal ![1, 2, 3], forceNoise := 0, momentNoise := 0 }
      state := State.default
      seed := 7 }
  ctl :=
    { acro := ⟨2, Matrix.diagonal ![5, 5, 1], ![0, 0, -10]⟩
      indi := ⟨Matrix.diagonal ![1, 2, 3], Indi.mixerInverse (Model.mixer6 Fixture.motors),
        { PidParams.default with kp := ![20, 20, 2] }⟩
      pos := { PidParams.default with kp := 1 }
      traj := PidParams.default
      vel := { PidParams.default with kp := 2, ki := 1, antiwindup := 1 } }
  imu := ⟨0, 0, 0, 0, Quat.identity, 3⟩
  odom := ⟨1, Quat.identity⟩

lemma twin_plain : plainSimParams twin := by
  simp [plainSimParams, twin, quietModel, plainCtlParams, plainPidParams, quietImuParams, PidParams.default, flt]

lemma twin_symmetric : mirrorSimParams twin = renumSimParams exchanged twin := by
  have hd : ∀ v : Vec 3 ℝ, mirrorMat (Matrix.diagonal v) = Matrix.diagonal v := by
    intro v; ext i j; fin_cases i <;> fin_cases j <;> simp [mirrorMat, across]
  have h1 : mirrorMat (1 : Mat 3 3 ℝ) = 1 := by
    ext i j; fin_cases i <;> fin_cases j <;> simp [mirrorMat, across]
  have hg : mirrorVec ![0, 0, -10] = ![0, 0, -10] := by apply vec_ext <;> simp
  have hl : ∀ f : Fin 3 → Bool, reversedLimits f (0 : Vec 3 ℝ) 0 = 0 := fun f => by ext i; simp [reversedLimits]
  have hq : mirrorQuat (Quat.identity : Quat ℝ) = Quat.identity := by simp [mirrorQuat, Quat.identity, flt]
  have hm := C104_cross 1 1 1 1 0 10 1 1
  have ha : mirrorCols wrench (Indi.mixerInverse (Model.mixer6 Fixture.motors)) =
      renumRows exchanged (Indi.mixerInverse (Model.mixer6 Fixture.motors)) := by
    rw [← C104_allocation, ← C101_allocation]
    simp only [motors_exchanged]
  have hv : renumVec exchanged (0 : Vec 4 ℝ) = 0 := rfl
  simp only [mirrorSimParams, renumSimParams, mirrorDynParams, renumDynParams, mirrorModelParams, renumModelParams,
    mirrorCtlParams, renumCtlParams, mirrorState, renumState, mirrorImuParams, mirrorOdomParams, twin,
    reversedParams, Fixture.modelParams, State.default, PidParams.default, hd, h1, hg, hq, hm, ha, vzero_real, hl, hv,
    mirrorVec_zero, mirrorTurn_zero]

/-- The hypotheses of `C104_mirror` and `C104_left_right`: the quadrotor flying to the left, and back to the ground. -/
example [Noise ℝ] : ∃ (s s' : Sim ℝ 4) (tr : List (Event ℝ 4)), Sim.mk' twin = some s ∧ plainSimParams twin ∧
    plainSim s ∧ mirrorSimParams twin = renumSimParams exchanged twin ∧ Trace s tr s' ∧ (∀ e ∈ tr, plainOp e.op) ∧
    tr.map Event.op = [.arm, .setControlMode .position .rate, .setRefPos ![0, 1, 2], .setRefYawRate 1,
      .updateController (1 / 100), .updateDynamics (1 / 100), .updateImu (1 / 100), .updateOdom (1 / 100),
      .updateDynamics 0, .enableFloor 5, .updateDynamics (1 / 50)] ∧
    (mirrorOp (.setRefPos ![0, 1, 2]) : SimOp ℝ 4) = .setRefPos ![0, -1, 2] := by
  obtain ⟨s, hs, hr⟩ := C71_defined_partial twin ⟨(Model.checkParams_iff _).1 (by
      simp [Model.checkParams, twin, Fixture.modelParams, Model.checkMotor, Model.quadX, flt, Matrix.det_diagonal,
        Fin.prod_univ_three]), by simp [twin, Fixture.modelParams, Model.quadX],
      by simp [twin, Fixture.modelParams, Model.quadX]⟩ (by simp [twin])
  obtain ⟨t, tr, h1, h2, -⟩ := hr [.arm, .setControlMode .position .rate, .setRefPos ![0, 1, 2], .setRefYawRate 1,
      .updateController (1 / 100), .updateDynamics (1 / 100), .updateImu (1 / 100), .updateOdom (1 / 100),
      .updateDynamics 0, .enableFloor 5, .updateDynamics (1 / 50)] (by simp [Sanctioned]; norm_num)
  refine ⟨s, t, tr, hs, twin_plain, plain_construct twin_plain hs, twin_symmetric, h1, ?_, h2, ?_⟩
  · have : ∀ o ∈ tr.map Event.op, plainOp o := by
      rw [h2]; simp [plainOp]
    exact fun e he => this _ (List.mem_map_of_mem he)
  · have : mirrorVec ![0, 1, 2] = ![0, -1, 2] := by apply vec_ext <;> simp
    simp only [mirrorOp, this]

end Verif.Props
