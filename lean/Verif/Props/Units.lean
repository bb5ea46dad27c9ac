import Verif.Lemmas.Units
import Verif.Props.Origin
import Verif.Props.Mirror

/-!
# C115: the units of length and mass
-/

namespace Verif.Props

open Verif Flt Spec

variable {n : ℕ}

/-! ## The PID -/

/-- **C115, PID.** Express the errors, limits, anti-windup constants and memory of a vector PID in another unit: every
history of public calls returns the same outputs in that unit, provided that the limits handed over are resolved in both
units. -/
theorem C115_pid (k : ℝ) (hk : 0 < k) (p : Pid ℝ n) (os : List (PidOp ℝ n)) (ho : ∀ o ∈ os, resolvedOp k o) :
    (scaledPid k p).run (os.map (scaledPidOp k)) =
      (scaledPid k (p.run os).1, (p.run os).2.map (Option.map (k • ·))) := by
  induction os generalizing p with
  | nil => rfl
  | cons o os ih =>
    rw [List.map_cons, Pid.run, Pid.run, Pid.step_smul hk p o (ho o (by simp))]
    simp only [ih _ fun a ha => ho a (by simp [ha]), List.map_cons]

section
variable [Noise ℝ]

/-- Simulators that are the same in the old and the new units, and stay so. -/
def SameUnits (u : Units) (arms : Bool) (s t : Sim ℝ n) : Prop :=
  u.CoherentDyn s.dyn ∧ (u.force = 1 ∨ arms = false ∨ s.mode ≠ .acro) ∧ u.Expressed s t

/-- The simulator in the new units with another thrust reference. -/
noncomputable abbrev inUnits (u : Units) (w : ℝ) (s : Sim ℝ n) : Sim ℝ n := { u.sim s with refThrust := w }

omit [Noise ℝ] in
lemma expressed_iff {u : Units} {s t : Sim ℝ n} :
    u.Expressed s t ↔ ∃ w, t = inUnits u w s ∧ (s.mode = .acro → w = u.force * s.refThrust) := by
  constructor
  · rintro ⟨h1, h2⟩
    exact ⟨_, h1, h2⟩
  · rintro ⟨w, rfl, h⟩
    exact ⟨rfl, h⟩

lemma units_updateDynamics (u : Units) (arms : Bool) (s : Sim ℝ n) (w dt : ℝ) (h : u.CoherentDyn s.dyn)
    (hm : u.force = 1 ∨ arms = false ∨ s.mode ≠ .acro) (hw : s.mode = .acro → w = u.force * s.refThrust) :
    Res.Rel (SameUnits u arms) (s.updateDynamics dt) ((inUnits u w s).updateDynamics dt) := by
  have hb : ∀ s : Sim ℝ n, (inUnits u w s).belowFloor = s.belowFloor := fun s => by
    unfold Sim.belowFloor
    rw [show (inUnits u w s).dyn.state.pos 2 = u.len * s.dyn.state.pos 2 from rfl,
      show (inUnits u w s).floorHeight = u.len * s.floorHeight from rfl]
    simp only [flt, mul_lt_mul_iff_right₀ u.len_pos]
    rfl
  have hcore : (inUnits u w s).dyn.model.core = s.dyn.model.core.map u.core := rfl
  rcases Sim.updateDynamics_cases s dt with ⟨h1, h2, h3⟩ | ⟨ext, h1, h2⟩ <;>
    rcases Sim.updateDynamics_cases (inUnits u w s) dt with ⟨k1, k2, k3⟩ | ⟨ext', k1, k2⟩
  · rw [h3, k3]
    trivial
  · exfalso
    rw [hb, h1, hcore, h2] at k1
    simp at k1
  · exfalso
    rw [hb] at k1
    rw [hcore, Option.map_eq_none_iff] at k2
    simp [k1, k2] at h1
  · obtain rfl : ext' = u.force • ext := by
      rcases h1 with ⟨a, rfl⟩ | ⟨a, c, e, rfl⟩ <;> rcases k1 with ⟨b, rfl⟩ | ⟨b, c', e', rfl⟩
      · rfl
      · rw [hb, a] at b; simp at b
      · rw [hb, a] at b; simp at b
      · rw [hcore, e] at e'
        obtain rfl : u.core c = c' := Option.some.inj e'
        simp only [flt]
        show (u.mass * c.params.mass) • -(u.len • c.params.gravity) = _
        rw [← smul_neg, smul_smul, smul_smul, Units.force]
        congr 1; ring
    rw [h2, k2]
    have := u.process s.dyn h s.actuation dt ext (!s.floorCollision)
    have e1 : (inUnits u w s).dyn.process (inUnits u w s).actuation dt (u.force • ext)
        (!(inUnits u w s).floorCollision) =
      (u.dyn s.dyn).process s.actuation dt (u.force • ext) (!s.floorCollision) := rfl
    rw [e1]
    cases h1 : s.dyn.process s.actuation dt ext (!s.floorCollision) <;>
      cases h2 : (u.dyn s.dyn).process s.actuation dt (u.force • ext) (!s.floorCollision) <;>
      rw [h1, h2] at this <;> try exact this.elim
    · rename_i d e
      obtain ⟨hd, rfl⟩ := this
      simp only []
      have e2 : ({ inUnits u w s with extForce := vzero, dyn := u.dyn d, floorCollision := false } : Sim ℝ n) =
          inUnits u w { s with extForce := vzero, dyn := d, floorCollision := false } := by
        simp only [inUnits, Units.sim, vzero_real, smul_zero]
      rw [e2, hb]
      have hp : u.CoherentDyn ({ s with extForce := vzero, dyn := d, floorCollision := false } : Sim ℝ n).dyn := hd
      have hm' : u.force = 1 ∨ arms = false ∨
        ({ s with extForce := vzero, dyn := d, floorCollision := false } : Sim ℝ n).mode ≠ .acro := hm
      have hw' : ({ s with extForce := vzero, dyn := d, floorCollision := false } : Sim ℝ n).mode = .acro →
        w = u.force * ({ s with extForce := vzero, dyn := d, floorCollision := false } : Sim ℝ n).refThrust := hw
      generalize ({ s with extForce := vzero, dyn := d, floorCollision := false } : Sim ℝ n) = s at hp hm' hw'
      split
      · refine ⟨hp, hm', expressed_iff.2 ⟨w, ?_, hw'⟩⟩
        have hpos : (fun i => if i = 2 then u.len * s.floorHeight else (u.len • s.dyn.state.pos) i) =
            u.len • fun i => if i = 2 then s.floorHeight else s.dyn.state.pos i := by
          ext i; fin_cases i <;> simp
        have e : ∀ q, ((u.odom s.odom).setInitialOrientation q).reset =
            u.odom (s.odom.setInitialOrientation q).reset := fun q => u.odom_reset (s.odom.setInitialOrientation q)
        unfold Sim.collide
        simp only [inUnits, Units.sim, u.imu_reset, Dyn.setState, Units.dyn, Units.state, State.default, e, hpos,
          vzero_real, smul_zero]
      · exact ⟨hp, hm', expressed_iff.2 ⟨w, rfl, hw'⟩⟩
    · rename_i d e
      obtain ⟨hd, rfl⟩ := this
      exact ⟨hd, hm, expressed_iff.2 ⟨w, rfl, hw⟩⟩
    · trivial

omit [Noise ℝ] in
lemma coherent_model_mk {u : Units} {p : ModelParams ℝ} (h : u.Coherent p) {seed : ℤ} {m : Model ℝ n}
    (hm : Model.mk' p seed = some m) : ∀ c, m.core = some c → u.Coherent c.params := by
  intro c hc
  unfold Model.mk' Model.updateParams at hm
  split at hm
  · obtain rfl := Option.some.inj hm
    simp at hc
  · split at hm
    · simp at hm
    · split at hm
      · obtain rfl := Option.some.inj hm
        obtain rfl := Option.some.inj hc
        exact h
      · simp at hm

omit [Noise ℝ] in
lemma units_command (u : Units) (s : Sim ℝ n) (w y dt : ℝ) (hw : s.mode = .acro → w = u.force * s.refThrust) :
    (inUnits u w s).command y dt = (u.ctl (s.command y dt).1, (s.command y dt).2) := by
  unfold Sim.command
  rw [show (inUnits u w s).mode = s.mode from rfl]
  cases hm : s.mode with
  | motorW => rfl
  | acro =>
    simp only []
    rw [hw hm]
    exact u.acroControl _ _ _ _ _
  | trajectory => exact u.trajectoryControl _ _ _ _ _ _ _ _ _ _
  | velocity => exact u.velocityControl _ _ _ _ _ _ _
  | position => exact u.positionControl _ _ _ _ _ _ _ _
  | hover => exact u.positionControl _ _ _ _ _ _ _ _

/-- The same call in the new units has the same outcome. -/
lemma units_step (u : Units) (arms : Bool) (s : Sim ℝ n) (w : ℝ) (o : SimOp ℝ n) (h : u.CoherentDyn s.dyn)
    (hm : u.force = 1 ∨ arms = false ∨ s.mode ≠ .acro) (hw : s.mode = .acro → w = u.force * s.refThrust)
    (ho : u.Kept arms o) :
    Res.Rel (SameUnits u arms) (s.step o) ((inUnits u w s).step (u.op o)) := by
  cases o with
  | updateDynamics dt => exact units_updateDynamics u arms s w dt h hm hw
  | updateController dt =>
    simp only [Sim.step, Units.op]
    rcases Bool.eq_false_or_eq_true s.armed with hb | hb
    · rw [Sim.updateController_armed hb, Sim.updateController_armed (s := inUnits u w s) hb]
      have hy : (inUnits u w s).yawRef = s.yawRef := rfl
      rw [hy, units_command u s w _ _ hw]
      exact ⟨h, hm, expressed_iff.2 ⟨w, rfl, hw⟩⟩
    · rw [Sim.updateController_disarmed hb, Sim.updateController_disarmed (s := inUnits u w s) hb]
      exact ⟨h, hm, expressed_iff.2 ⟨w, rfl, hw⟩⟩
  | updateImu dt =>
    refine ⟨h, hm, expressed_iff.2 ⟨w, ?_, hw⟩⟩
    have ho : u.mass = 1 := ho
    have hf : u.force = u.len := by rw [Units.force, ho, one_mul]
    simp only [Sim.updateImu, inUnits, Units.sim, Units.dyn, Units.state]
    rw [Quat.rotate_smul, hf, u.imu_update]
  | updateOdom dt =>
    refine ⟨h, hm, expressed_iff.2 ⟨w, ?_, hw⟩⟩
    simp only [Sim.updateOdom, inUnits, Units.sim, ← u.odom_update]
    rfl
  | arm =>
    have hpos : (fun i => if i = 2 then u.len * s.floorHeight else (u.len • s.refPos) i) =
        u.len • fun i => if i = 2 then s.floorHeight else s.refPos i := by
      ext i; fin_cases i <;> simp
    refine ⟨h, hm, expressed_iff.2 ⟨lit (981 / 100), ?_, ?_⟩⟩
    · simp only [Sim.arm, inUnits, Units.sim, hpos]
    · intro ha
      rcases hm with hm | hm | hm
      · simp [Sim.arm, hm]
      · rcases ho with ho | ho
        · simp [Sim.arm, ho]
        · rw [hm] at ho; simp at ho
      · exact absurd ha hm
  | enableFloor z =>
    refine ⟨h, hm, expressed_iff.2 ⟨w, ?_, hw⟩⟩
    simp only [Sim.enableFloor, inUnits, Units.sim, vzero_real, smul_zero]
  | disableFloor =>
    refine ⟨h, hm, expressed_iff.2 ⟨w, ?_, hw⟩⟩
    simp only [Sim.disableFloor, inUnits, Units.sim, vzero_real, smul_zero]
  | setControlMode m y =>
    simp only [Sim.step, Units.op, Sim.setControlMode]
    rw [show (inUnits u w s).mode = s.mode from rfl, show (inUnits u w s).yawMode = s.yawMode from rfl]
    split
    · exact ⟨h, hm, expressed_iff.2 ⟨w, rfl, hw⟩⟩
    · refine ⟨h, ho, expressed_iff.2 ⟨lit 0, ?_, fun _ => ?_⟩⟩
      · simp only [inUnits, Units.sim, vzero_real, smul_zero]
        rfl
      · simp [lit_zero]
  | setRefAcro t a => exact ⟨h, hm, expressed_iff.2 ⟨u.force * t, rfl, fun _ => rfl⟩⟩
  | setDynParams p =>
    simp only [Sim.step, Units.op, Sim.setDynParams, Dyn.mk']
    rw [show (u.dynParams p).model = u.modelParams p.model from rfl, u.model_mk,
      show (u.dynParams p).seed = p.seed from rfl]
    cases hk : Model.mk' (n := n) p.model p.seed with
    | none => trivial
    | some m => exact ⟨coherent_model_mk ho hk, hm, expressed_iff.2 ⟨w, rfl, hw⟩⟩
  | setCtlParams p =>
    refine ⟨h, hm, expressed_iff.2 ⟨w, ?_, hw⟩⟩
    simp only [Sim.setCtlParams, inUnits, Units.sim, u.ctl_mk p ho]
  | setImuParams p =>
    refine ⟨h, hm, expressed_iff.2 ⟨w, ?_, hw⟩⟩
    simp only [Sim.setImuParams, inUnits, Units.sim, u.imu_mk]
  | setOdomParams p =>
    simp only [Sim.step, Units.op, Sim.setOdomParams]
    have ho := u.odom_mk p
    cases hp : Odom.mk' p with
    | none => trivial
    | some d =>
      refine ⟨h, hm, expressed_iff.2 ⟨w, ?_, hw⟩⟩
      rw [hp] at ho
      have ho : d = u.odom d := Option.some.inj ho
      simp only [inUnits, Units.sim, ← ho]
  | mutDyn f =>
    refine ⟨ho _ h, hm, expressed_iff.2 ⟨w, ?_, hw⟩⟩
    simp only [inUnits, Units.sim, u.dyn_back]
  | mutCtl f =>
    refine ⟨h, hm, expressed_iff.2 ⟨w, ?_, hw⟩⟩
    simp only [inUnits, Units.sim, u.ctl_back]
  | mutImu f =>
    refine ⟨h, hm, expressed_iff.2 ⟨w, ?_, hw⟩⟩
    simp only [inUnits, Units.sim, u.imu_back]
  | mutOdom f =>
    refine ⟨h, hm, expressed_iff.2 ⟨w, ?_, hw⟩⟩
    simp only [inUnits, Units.sim, u.odom_back]
  | _ => exact ⟨h, hm, expressed_iff.2 ⟨w, rfl, hw⟩⟩

/-- **C115, the claim.** Express the vehicle, its state, its controller, its sensors and all references in other units
of length and mass: every history has the same history in these units. -/
def C115_claim : Prop :=
  ∀ (u : Units) (s s' : Sim ℝ 4) (tr : List (Event ℝ 4)), Trace s tr s' →
    ∃ (tr' : List (Event ℝ 4)) (t : Sim ℝ 4), Trace (u.sim s) tr' t ∧
      Corresponds (fun a b => b = u.sim a) (fun o o' => o' = u.op o) tr tr' ∧ t = u.sim s'

/-- **C115.** Every history of calls that keep quantities of different kind apart is, call by call and with the same
exceptions, a history in the new units: the same rotor speeds and attitudes, and all other quantities expressed in the
new units.  Without random force and without a change of the unit of mass this covers all calls except arming (or, when
the vehicle is armed, selecting the acro mode) and limits that are closer than `eps`. -/
theorem C115_units_partial (u : Units) (arms : Bool) (s s' : Sim ℝ n) (tr : List (Event ℝ n)) (h : Trace s tr s')
    (hs : u.CoherentDyn s.dyn) (hm : u.force = 1 ∨ arms = false ∨ s.mode ≠ .acro) (ho : ∀ e ∈ tr, u.Kept arms e.op) :
    ∃ (tr' : List (Event ℝ n)) (t : Sim ℝ n), Trace (u.sim s) tr' t ∧
      Corresponds u.Expressed (fun o o' => o' = u.op o) tr tr' ∧ u.Expressed s' t := by
  obtain ⟨tr', t, h1, h2, h3, h4⟩ := Sim.trace_rel (R := SameUnits u arms)
    (Ro := fun o o' => u.Kept arms o ∧ o' = u.op o)
    (by
      rintro s t o _ ⟨hc, hm, he⟩ ⟨ho, rfl⟩
      obtain ⟨w, rfl, hw⟩ := expressed_iff.1 he
      exact units_step u arms s w o hc hm hw ho) h (u.sim s)
    (tr.map fun e => u.op e.op) ⟨hs, hm, rfl, fun _ => rfl⟩ (by
      clear h
      induction tr with
      | nil => exact .nil
      | cons e tr ih =>
        exact .cons ⟨ho e (by simp), rfl⟩ (ih fun a ha => ho a (by simp [ha])))
  exact ⟨tr', t, h1, h3.imp fun _ _ h => ⟨h.1.2.2, h.2.1.2, h.2.2⟩, h4.2.2⟩

/-- **C115, construction.** A simulator constructed from parameters in the new units is the simulator in the new
units. -/
theorem C115_construction (u : Units) (p : SimParams ℝ n) (hp : u.ResolvedCtl p.ctl) :
    Sim.mk' (u.simParams p) = (Sim.mk' p).map u.sim := by
  unfold Sim.mk' Dyn.mk'
  have ho := u.odom_mk p.odom
  rw [show (u.simParams p).dyn.model = u.modelParams p.dyn.model from rfl, u.model_mk,
    show (u.simParams p).dyn.seed = p.dyn.seed from rfl,
    show (u.simParams p).odom = p.odom from rfl,
    show (u.simParams p).ctl = u.ctlParams p.ctl from rfl, u.ctl_mk p.ctl hp,
    show (u.simParams p).imu = u.imuParams p.imu from rfl, u.imu_mk]
  cases Model.mk' (n := n) p.dyn.model p.dyn.seed with
  | none => rfl
  | some m =>
    cases hk : Odom.mk' p.odom with
    | none => rfl
    | some o =>
      rw [hk] at ho
      have ho : o = u.odom o := Option.some.inj ho
      simp only [Option.map_some, Units.sim, ← ho, vzero_real, smul_zero, lit_zero, mul_zero]
      rfl

omit [Noise ℝ] in
/-- **C115, allocation.** The allocation matrix computed from the rotors in the new units is the allocation matrix in
the new units. -/
theorem C115_allocation (u : Units) (f : Fin 4 → Motor ℝ) :
    Indi.mixerInverse (Model.mixer6 fun i => u.motor (f i)) = u.cols (Indi.mixerInverse (Model.mixer6 f)) := by
  let M : Mat 4 4 ℝ := fun r i => Model.mixer6 f (Fin.natAdd 2 r) i
  let e : Vec 4 ℝ := fun r => u.wrench (Fin.natAdd 2 r)
  have he : ∀ r, e r ≠ 0 := fun r => u.wrench_ne _
  have h : (fun r i => Model.mixer6 (fun i => u.motor (f i)) (Fin.natAdd 2 r) i : Mat 4 4 ℝ) =
      (Matrix.diagonal e : Mat 4 4 ℝ) * M := by
    ext r i
    rw [Matrix.diagonal_mul]
    simp only [M, e, Model.mixer6, u.contrib]
  have hd : (Matrix.diagonal e : Mat 4 4 ℝ)⁻¹ = Matrix.diagonal fun r => (e r)⁻¹ := by
    apply Matrix.inv_eq_left_inv
    rw [Matrix.diagonal_mul_diagonal, ← Matrix.diagonal_one]
    congr 1
    ext i; exact inv_mul_cancel₀ (he i)
  have hi : ∀ i j, inv4 (fun r i => Model.mixer6 (fun i => u.motor (f i)) (Fin.natAdd 2 r) i : Mat 4 4 ℝ) i j =
      inv4 M i j * (e j)⁻¹ := by
    intro i j
    rw [h, inv4_real, inv4_real, Matrix.mul_inv_rev, hd, Matrix.mul_diagonal]
  unfold Indi.mixerInverse
  ext i j
  fin_cases j <;> simp [Units.cols, Units.wrench, lit_zero, hi, M, e, div_eq_mul_inv]

/-! ## The exceptions are real -/

/-- Centimetres. -/
def centimetres : Units := ⟨100, 1, by norm_num, by norm_num⟩

/-- Grams. -/
def grams : Units := ⟨1, 1000, by norm_num, by norm_num⟩

omit [Noise ℝ] in
/-- **C115, arming.** Arming sets the thrust reference to the number 9.81 in every unit of force. -/
theorem C115_arming (s : Sim ℝ n) : s.arm.refThrust = 981 / 100 := by
  simp [Sim.arm, flt]

/-- **C115 is violated**, already by the unit of length: a vehicle armed in centimetres has a hundredth of the thrust
reference of the vehicle armed in metres. -/
theorem C115_violated : ¬ C115_claim := by
  intro h
  obtain ⟨tr', t, h1, h2, h3⟩ := h centimetres Fixture.sim Fixture.sim.arm [⟨Fixture.sim, .arm, false⟩]
    (.ok rfl (.nil _))
  unfold Corresponds at h2
  cases h2 with
  | cons ha hb =>
    cases hb
    rename_i e
    obtain ⟨hx, hy, hz⟩ := ha
    cases h1 with
    | ok hk hn =>
      cases hn
      simp only at hy
      subst hy
      simp only [Units.op, Sim.step, Res.ok.injEq] at hk
      have := congrArg Sim.refThrust h3
      rw [← hk, C115_arming] at this
      simp only [Units.sim, C115_arming] at this
      simp [centimetres, Units.force] at this
    | throw hk hn =>
      simp only at hy
      subst hy
      simp [Units.op, Sim.step] at hk

/-- **C115, weight.** The gravity vector is added to the forces: in another unit of mass a step of the vehicle leads to
another velocity. -/
theorem C115_weight (u : Units) (d d' e' : Dyn ℝ n) (c : ModelCore ℝ n) (hc : d.model.core = some c)
    (hmass : c.params.mass ≠ 0) (act : Vec n ℝ) (dt : ℝ) (h0 : 0 < dt) (h1 : dt ≤ 1 / 100) (ext : Vec 3 ℝ)
    (noise : Bool) (hd : d.process act dt ext noise = .ok d')
    (he : (u.dyn d).process act dt (u.force • ext) noise = .ok e') :
    e'.state.vel = u.len • d'.state.vel +
      (dt * (u.len * (1 - u.mass) / (u.mass * c.params.mass))) • c.params.gravity := by
  rw [Dyn.process_small_real _ _ _ _ h0 h1] at hd he
  obtain ⟨c1, ms1, a1, a2, -, rfl⟩ := Dyn.singleStep_ok hd
  obtain ⟨c2, ms2, b1, b2, -, rfl⟩ := Dyn.singleStep_ok he
  obtain rfl : c = c1 := Option.some.inj (hc.symm.trans a1)
  rw [show (u.dyn d).model.core = d.model.core.map u.core from rfl, hc] at b1
  obtain rfl : u.core c = c2 := Option.some.inj b1
  have hT : Model.thrustVec (u.core c) d.state.motVel = u.force • Model.thrustVec c d.state.motVel := by
    simp only [Model.thrustVec, Units.core, mv_real, Matrix.smul_mulVec]
  rw [Dyn.es_vel, Dyn.es_vel, Dyn.es_acc, Dyn.es_acc, Dyn.es_force, Dyn.es_force, u.stepNoise]
  show u.len • d.state.vel + dt • (u.mass * c.params.mass)⁻¹ •
    (d.state.ori.rotate (Model.thrustVec (u.core c) d.state.motVel) + u.len • c.params.gravity +
      Model.dragForce (u.mass / u.len * c.params.drag) (u.len • d.state.vel) + _ + _) = _
  rw [hT, u.drag, Quat.rotate_smul]
  have hm := u.mass_pos.ne'
  ext i
  simp only [Pi.add_apply, Pi.smul_apply, smul_eq_mul, Units.force]
  field_simp
  ring

/-- **C115, accelerometer.** The accelerometer measures a force: in another unit of mass its reading changes by a factor
that the unit of acceleration does not account for. -/
theorem C115_accelerometer (u : Units) (s : Sim ℝ n) (dt : ℝ) (h0 : 0 < dt) :
    ((u.sim s).updateImu dt).imu.accel = u.len • (s.updateImu dt).imu.accel +
      (u.len * (u.mass - 1)) • s.imu.oriInv.rotate (s.dyn.state.ori.rotate s.dyn.state.force) := by
  have h : ∀ f om, ((u.imu s.imu).update dt f om).accel =
      u.len • (s.imu.update dt ((u.len)⁻¹ • f) om).accel := by
    intro f om
    have := congrArg Imu.accel (u.imu_update s.imu dt ((u.len)⁻¹ • f) om)
    rwa [smul_inv_smul₀ u.len_pos.ne'] at this
  have ha : ∀ f g om, (s.imu.update dt f om).accel = (s.imu.update dt g om).accel + s.imu.oriInv.rotate (f - g) := by
    intro f g om
    have : le dt (lit 0 : ℝ) = false := by simp [flt, h0]
    unfold Imu.update
    rw [this]
    simp only [Bool.false_eq_true, if_false, Imu.processBias, Imu.processMeasurement, vadd_real]
    rw [← add_sub_cancel g f, Quat.rotate_add, add_sub_cancel_left]
    abel
  simp only [Sim.updateImu]
  rw [show (u.sim s).imu = u.imu s.imu from rfl, h,
    ha _ (s.dyn.state.ori.rotate s.dyn.state.force) _, smul_add]
  congr 1
  show u.len • s.imu.oriInv.rotate ((u.len)⁻¹ • s.dyn.state.ori.rotate (u.force • s.dyn.state.force) - _) = _
  have hl := u.len_pos.ne'
  have e : (u.len)⁻¹ • s.dyn.state.ori.rotate (u.force • s.dyn.state.force) - s.dyn.state.ori.rotate s.dyn.state.force =
      (u.mass - 1) • s.dyn.state.ori.rotate s.dyn.state.force := by
    rw [Quat.rotate_smul, smul_smul, sub_smul, one_smul, Units.force]
    congr 2
    field_simp
  rw [e, Quat.rotate_smul, smul_smul]

omit [Noise ℝ] in
/-- **C115, resolution.** The distance of the limits of a PID is compared with a fixed number: limits that are switched
off in one unit are in force in another. -/
theorem C115_resolution : ∃ (q : PidParams ℝ 1), (Pid.mk' q).satFlag = false ∧ (Pid.mk' (scaledParams 2 q)).satFlag = true := by
  have he := eps_pos
  refine ⟨{ PidParams.default with upper := fun _ => 3 / 4 * eps, lower := 0 }, ?_, ?_⟩
  · have h : |(3 : ℝ) / 4| * |(eps : ℝ)| < eps := by
      rw [abs_of_pos he, abs_of_pos (by norm_num)]; linarith
    simp only [Pid.mk', Pid.updateParams, Pid.setOutputSaturation, List.finRange_succ, List.finRange_zero, List.map_nil,
      Pid.setSatLoop, Pid.reset]
    simp [Pid.nonZero, PidParams.default, flt, he.ne', h, Pid.disableSat, ← flt]
  · have h : ¬ 2 * (|(3 : ℝ) / 4| * |(eps : ℝ)|) < eps := by
      rw [abs_of_pos he, abs_of_pos (by norm_num)]; linarith
    simp only [Pid.mk', Pid.updateParams, Pid.setOutputSaturation, List.finRange_succ, List.finRange_zero, List.map_nil,
      Pid.setSatLoop, Pid.reset]
    have h2 : ¬ 2 * (3 / 4 * (eps : ℝ)) < 0 := by linarith
    simp [Pid.nonZero, PidParams.default, flt, he.ne', h, h2, scaledParams, ← flt]

/-- The hypotheses of `C115_units_partial` and `C115_construction`: a quadrotor that is armed, flies to a position,
measures, and comes back to the ground, in centimetres. -/
example : ∃ (s s' : Sim ℝ 4) (tr : List (Event ℝ 4)), Sim.mk' twin = some s ∧ centimetres.ResolvedCtl twin.ctl ∧
    Trace s tr s' ∧ centimetres.CoherentDyn s.dyn ∧ s.mode ≠ .acro ∧ (∀ e ∈ tr, centimetres.Kept true e.op) ∧
    tr.map Event.op = [.arm, .setControlMode .position .rate, .setRefPos ![0, 1, 2], .setRefYawRate 1,
      .updateController (1 / 100), .updateDynamics (1 / 100), .updateImu (1 / 100), .updateOdom (1 / 100),
      .updateDynamics 0, .enableFloor 5, .updateDynamics (1 / 50)] ∧
    (centimetres.op (.setRefPos ![0, 1, 2]) : SimOp ℝ 4) = .setRefPos ![0, 100, 200] ∧
    (centimetres.simParams twin).dyn.model.gravity = ![0, 0, -1000] := by
  obtain ⟨s, hs, hr⟩ := C71_defined_partial twin ⟨(Model.checkParams_iff _).1 (by
      simp [Model.checkParams, twin, Fixture.modelParams, Model.checkMotor, Model.quadX, flt, Matrix.det_diagonal,
        Fin.prod_univ_three]), by simp [twin, Fixture.modelParams, Model.quadX],
      by simp [twin, Fixture.modelParams, Model.quadX]⟩ (by simp [twin])
  obtain ⟨t, tr, h1, h2, -⟩ := hr [.arm, .setControlMode .position .rate, .setRefPos ![0, 1, 2], .setRefYawRate 1,
      .updateController (1 / 100), .updateDynamics (1 / 100), .updateImu (1 / 100), .updateOdom (1 / 100),
      .updateDynamics 0, .enableFloor 5, .updateDynamics (1 / 50)] (by simp [Sanctioned]; norm_num)
  have hp := plain_construct twin_plain hs
  refine ⟨s, t, tr, hs, ?_, h1, ?_, ?_, ?_, h2, ?_, ?_⟩
  · simp [Units.ResolvedCtl, Resolved, twin, PidParams.default, flt]
  · exact fun c hc => ⟨.inr (hp.1 c hc).1, .inl rfl⟩
  · unfold Sim.mk' at hs
    split at hs
    · obtain rfl := Option.some.inj hs
      simp
    · simp at hs
  · have : ∀ o ∈ tr.map Event.op, centimetres.Kept true o := by
      rw [h2]; simp [Units.Kept, centimetres]
    exact fun e he => this _ (List.mem_map_of_mem he)
  · simp only [Units.op, centimetres, SimOp.setRefPos.injEq]
    ext i; fin_cases i <;> norm_num
  · show (100 : ℝ) • (![0, 0, -10] : Vec 3 ℝ) = _
    ext i; fin_cases i <;> norm_num

/-- The hypotheses of `C115_weight`, and what it says: a vehicle of mass 2 kg falling for 0.01 s gains 0.05 m/s, and
0.00005 m/s when its mass is given in grams. -/
example : ∃ d' e' : Dyn ℝ 4, Fixture.dyn.process 0 (1 / 100) 0 false = .ok d' ∧
    (grams.dyn Fixture.dyn).process 0 (1 / 100) (grams.force • (0 : Vec 3 ℝ)) false = .ok e' ∧
    Fixture.dyn.model.core = some Fixture.core ∧ Fixture.core.params.mass ≠ 0 ∧
    d'.state.vel 2 = -1 / 20 ∧ e'.state.vel 2 = -1 / 20000 := by
  have hd := Fixture.process_ok Fixture.dyn rfl 0 (1 / 100) (by norm_num) le_rfl 0 false
  have he : (grams.dyn Fixture.dyn).process 0 (1 / 100) (grams.force • (0 : Vec 3 ℝ)) false =
      .ok (Dyn.eulerStep (grams.core Fixture.core) (fun i => grams.motor (Fixture.motors i)) (grams.dyn Fixture.dyn) 0
        (1 / 100) (grams.force • (0 : Vec 3 ℝ)) false) := by
    rw [Dyn.process_small_real _ _ _ _ (by norm_num) le_rfl]
    unfold Dyn.singleStep
    rw [show (grams.dyn Fixture.dyn).model.core = some (grams.core Fixture.core) from rfl]
    simp only []
    rw [show (grams.core Fixture.core).params.motors = Fixture.modelParams.motors.map grams.motor from rfl,
      grams.motorFn, Fixture.motorFn_eq]
    simp only [Option.map_some]
    rw [show Dyn.clampOk (fun i => grams.motor (Fixture.motors i)) = Dyn.clampOk Fixture.motors from rfl, Fixture.clampOk]
    rfl
  have hv : (Dyn.eulerStep Fixture.core Fixture.motors Fixture.dyn 0 (1 / 100) 0 false).state.vel 2 = -1 / 20 := by
    have ht : Model.thrustVec Fixture.core Fixture.dyn.state.motVel = 0 := by
      simp [Model.thrustVec, squaredKeepSign_real, Fixture.dyn, State.default, flt]
      exact Matrix.mulVec_zero _
    rw [Dyn.es_vel, Dyn.es_acc, Dyn.es_force, ht, dragForce_real, Quat.rotate_zero]
    have hz : (Fixture.dyn.state.vel : Vec 3 ℝ) = 0 := vzero_real
    have hg : Fixture.core.params.gravity 2 = -10 := rfl
    have hm : Fixture.core.params.mass = 2 := rfl
    simp only [hz, hm, Pi.add_apply, Pi.smul_apply, smul_eq_mul, Pi.zero_apply, Dyn.stepNoise_false, hg]
    norm_num
  refine ⟨_, _, hd, he, rfl, by simp [Fixture.core, Model.coreOf, Fixture.modelParams], hv, ?_⟩
  rw [C115_weight grams Fixture.dyn _ _ Fixture.core rfl (by simp [Fixture.core, Model.coreOf, Fixture.modelParams]) 0
    (1 / 100) (by norm_num) le_rfl 0 false hd he]
  simp only [Pi.add_apply, Pi.smul_apply, smul_eq_mul, hv]
  simp [grams, Fixture.core, Model.coreOf, Fixture.modelParams]
  norm_num

end

end Verif.Props
