import Verif.Props.Example

/-!
# The parameters of the example programs (C75, C76)
-/

namespace Verif.Props

open Verif Flt Spec Example

/-- The vehicle and the controller of a set of parameters agree: mass, gravity and inertia of the controller are
those of the vehicle, and its allocation matrix is the one computed for the vehicle's rotors, which form an X
airframe. -/
def KnowsVehicle {α : Type} [Flt α] (p : SimParams α 4) : Prop :=
  p.ctl.acro.mass = p.dyn.model.mass ∧ p.ctl.acro.gravity = p.dyn.model.gravity ∧
  p.ctl.indi.inertia = p.dyn.model.inertia ∧
  ∃ (kf kt x y lo hi tau J : α) (ms : Fin 4 → Motor α),
    p.dyn.model.motors = Model.quadX kf kt x y lo hi tau J ∧ p.dyn.model.motors = List.ofFn ms ∧
    p.ctl.indi.mixerInv = Indi.mixerInverse (Model.mixer6 ms)

lemma allocation_ok {α : Type} [Flt α] {l : List (Motor α)} {A : Mat 4 6 α} (h : allocation l = some A) :
    ∃ ms : Fin 4 → Motor α, l = List.ofFn ms ∧ A = Indi.mixerInverse (Model.mixer6 ms) := by
  simp only [allocation, Option.map_eq_some_iff] at h
  obtain ⟨ms, h1, rfl⟩ := h
  refine ⟨ms, ?_, rfl⟩
  obtain ⟨hl, hg⟩ := Dyn.motorFn_get h1
  apply List.ext_getElem?
  intro i
  by_cases hi : i < 4
  · rw [hg ⟨i, hi⟩]
    simp only [List.getElem?_ofFn, hi, dite_true]
  · rw [List.getElem?_eq_none (by omega), List.getElem?_eq_none (by simp; omega)]

lemma dynOfYaml_ok {α : Type} [Flt α] {c : Config α} {d : DynParams α 4} (h : dynOfYaml c = some d) :
    ∃ kf kt x y lo hi tau J : α, d.model.motors = Model.quadX kf kt x y lo hi tau J := by
  unfold dynOfYaml at h
  iterate 24 replace h := (Option.bind_eq_some_iff.1 h).choose_spec.2
  rw [← Option.some.inj h]
  exact ⟨_, _, _, _, _, _, _, _, rfl⟩

lemma yamlParams_ok {α : Type} [Flt α] {traj : Bool} {c : Config α} {floor : α} {p : SimParams α 4}
    (h : yamlParams traj c = some (floor, p)) : ∃ dyn A, dynOfYaml c = some dyn ∧
      allocation dyn.model.motors = some A ∧ p.dyn = dyn ∧ p.ctl.acro.mass = dyn.model.mass ∧
      p.ctl.acro.gravity = dyn.model.gravity ∧ p.ctl.indi.inertia = dyn.model.inertia ∧
      p.ctl.indi.mixerInv = A ∧ p.odom.initOri = dyn.state.ori := by
  unfold yamlParams at h
  obtain ⟨_, -, h⟩ := Option.bind_eq_some_iff.1 h
  obtain ⟨dyn, hd, h⟩ := Option.bind_eq_some_iff.1 h
  obtain ⟨A, hA, h⟩ := Option.bind_eq_some_iff.1 h
  iterate 10 replace h := (Option.bind_eq_some_iff.1 h).choose_spec.2
  have h := (Prod.mk.inj (Option.some.inj h)).2
  refine ⟨dyn, A, hd, hA, ?_⟩
  rw [← h]
  exact ⟨rfl, rfl, rfl, rfl, rfl, rfl⟩

/-- **C75.** Whatever the configuration file contains, and without one, the parameters the examples build describe
a controller that knows its vehicle (for any arithmetic). -/
theorem C75_consistent {α : Type} [Flt α] (traj : Bool) (file : Option (Config α)) (floor : α)
    (p : SimParams α 4) (h : getParams traj file = some (floor, p)) : KnowsVehicle p := by
  have code : ∀ q : SimParams α 4, codeParams = some q → KnowsVehicle q := by
    intro q hq
    simp only [codeParams, Option.map_eq_some_iff] at hq
    obtain ⟨A, hA, rfl⟩ := hq
    obtain ⟨ms, h1, h2⟩ := allocation_ok hA
    exact ⟨rfl, rfl, rfl, _, _, _, _, _, _, _, _, ms, rfl, h1, h2⟩
  cases file with
  | none =>
    cases traj with
    | false =>
      simp only [getParams, Option.map_eq_some_iff, Bool.false_eq_true, if_false] at h
      obtain ⟨q, hq, h⟩ := h
      rw [Prod.mk.injEq] at h
      rw [← h.2]
      exact code q hq
    | true =>
      simp only [getParams, Option.map_eq_some_iff, if_true, trajCodeParams] at h
      obtain ⟨q, ⟨q', hq', rfl⟩, h⟩ := h
      rw [Prod.mk.injEq] at h
      rw [← h.2]
      exact code q' hq'
  | some c =>
    obtain ⟨dyn, A, hdyn, hA, h1, h2, h3, h4, h5, -⟩ := yamlParams_ok h
    obtain ⟨ms, e1, e2⟩ := allocation_ok hA
    obtain ⟨kf, kt, x, y, lo, hi, tau, J, e3⟩ := dynOfYaml_ok hdyn
    refine ⟨by rw [h2, h1], by rw [h3, h1], by rw [h4, h1], kf, kt, x, y, lo, hi, tau, J, ms, ?_, ?_, ?_⟩
    · rw [h1, e3]
    · rw [h1, e1]
    · rw [h5, e2]

/-- **C75, what it is good for.** In a simulator built from these parameters the rotor speeds commanded by the rate
loop produce, in the vehicle's own model, exactly the commanded thrust and torque, unless a coefficient of the
rotors is zero. -/
theorem C75_wrench [Noise ℝ] (traj : Bool) (file : Option (Config ℝ)) (floor : ℝ) (p : SimParams ℝ 4)
    (h : getParams traj file = some (floor, p)) (s : Sim ℝ 4) (hs : getSimulator p floor = some s)
    (core : ModelCore ℝ 4) (hc : s.dyn.model.core = some core)
    (hz : ∀ m ∈ p.dyn.model.motors, m.kf ≠ 0 ∧ m.kt ≠ 0 ∧ m.pos 0 ≠ 0 ∧ m.pos 1 ≠ 0)
    (om omDes : Vec 3 ℝ) (T dt : ℝ) :
    let r := s.ctl.indi.acroToMotor om T omDes dt
    Model.thrustVec core r.2 = ![0, 0, T] ∧ Model.motorTorque core r.2 0 = r.1.torque := by
  obtain ⟨-, -, -, kf, kt, x, y, lo, hi, tau, J, ms, h1, h2, h3⟩ := C75_consistent traj file floor p h
  have hq : IsQuad kf kt x y ms := ⟨lo, hi, tau, J, .inl (by rw [← h1, h2])⟩
  have h4 : p.dyn.model.motors = [⟨1, kf, kt, 1, ![x, -y, 0], lo, hi, tau, J⟩, ⟨-1, kf, kt, 1, ![x, y, 0], lo, hi, tau, J⟩,
      ⟨1, kf, kt, 1, ![-x, y, 0], lo, hi, tau, J⟩, ⟨-1, kf, kt, 1, ![-x, -y, 0], lo, hi, tau, J⟩] := by
    rw [h2, quadX_fn _ _ _ _ _ _ _ _ _ (h1.symm.trans h2)]
    simp
  have hz := hz ⟨-1, kf, kt, 1, ![x, y, 0], lo, hi, tau, J⟩ (by rw [h4]; simp)
  simp only [getSimulator, Sim.mk', Option.map_eq_some_iff] at hs
  obtain ⟨s', hs', rfl⟩ := hs
  split at hs'
  · next d o hd ho =>
    rw [Option.some.injEq] at hs'
    subst hs'
    simp only [Dyn.mk', Option.map_eq_some_iff] at hd
    obtain ⟨m, hm, rfl⟩ := hd
    have hcore : core.params = p.dyn.model := by
      simp only [Model.mk', Model.updateParams] at hm
      split at hm
      · rw [Option.some.injEq] at hm
        subst hm
        exact absurd hc (by simp [Sim.arm, Sim.enableFloor])
      · split at hm
        · exact absurd hm (by simp)
        · split at hm
          · rw [Option.some.injEq] at hm
            subst hm
            simp only [Sim.arm, Sim.enableFloor, Option.some.injEq] at hc
            rw [← hc]
            rfl
          · exact absurd hm (by simp)
    have := C47_model kf kt x y ms hq hz.1 hz.2.1 (by simpa using hz.2.2.1) (by simpa using hz.2.2.2)
      (Indi.mk' p.ctl.indi) h3 m core ⟨p.dyn.model, p.dyn.seed, m, [], hm, rfl, hc, by rw [hcore, h2]⟩ om omDes T dt
    exact ⟨this.1, this.2.1⟩
  · exact absurd hs' (by simp)

/-- Non-vacuity of C75: the built-in parameters. -/
example [Noise ℝ] : ∃ (p : SimParams ℝ 4) (s : Sim ℝ 4) (core : ModelCore ℝ 4),
    getParams false none = some (0, p) ∧ getSimulator p 0 = some s ∧ s.dyn.model.core = some core ∧
    ∀ m ∈ p.dyn.model.motors, m.kf ≠ 0 ∧ m.kt ≠ 0 ∧ m.pos 0 ≠ 0 ∧ m.pos 1 ≠ 0 := by
  obtain ⟨p, hp, hb, hi⟩ := codeParams_ok
  obtain ⟨s, hs, ha, -⟩ := getSimulator_ok hb hi 0
  obtain ⟨q, ms, -, -, hc⟩ := ha.healthy
  refine ⟨p, s, _, by simp [getParams, hp, flt], hs, hc, ?_⟩
  simp only [codeParams, Option.map_eq_some_iff] at hp
  obtain ⟨A, -, rfl⟩ := hp
  simp [codeMotors, Model.quadX, flt]

/-- What a sensor fusion user expects of the start: the odometry begins with the pose and the velocity of the
vehicle. -/
def OdomStartsRight (p : SimParams ℝ 4) (s : Sim ℝ 4) : Prop :=
  s.odom.ori = p.dyn.state.ori ∧ s.odom.pos = p.dyn.state.pos ∧ s.odom.vel = p.dyn.state.vel

/-- Full claim: in the simulators of the examples the odometry starts with the state of the vehicle. -/
def C76_claim : Prop :=
  ∀ (_ : Noise ℝ) (traj : Bool) (file : Option (Config ℝ)) (floor : ℝ) (p : SimParams ℝ 4) (s : Sim ℝ 4),
    getParams traj file = some (floor, p) → getSimulator p floor = some s → OdomStartsRight p s

lemma odom_start [Noise ℝ] {p : SimParams ℝ 4} {floor : ℝ} {s : Sim ℝ 4} (h : getSimulator p floor = some s) :
    s.odom.ori = p.odom.initOri ∧ s.odom.pos = 0 ∧ s.odom.vel = 0 := by
  simp only [getSimulator, Sim.mk', Option.map_eq_some_iff] at h
  obtain ⟨s', hs', rfl⟩ := h
  split at hs'
  · next d o hd ho =>
    rw [Option.some.injEq] at hs'
    subst hs'
    simp only [Odom.mk'] at ho
    split at ho
    · rw [Option.some.injEq] at ho
      subst ho
      refine ⟨rfl, ?_, ?_⟩ <;> ext i <;> simp [Sim.arm, Sim.enableFloor, Odom.reset, flt]
    · exact absurd ho (by simp)
  · exact absurd hs' (by simp)

/-- What is true: the orientation is that of the vehicle, position and velocity start at zero, so that the claim
holds exactly if the vehicle starts at rest in the origin, as it does without a configuration file.  Missing:
other initial states, as a file may give them (`C76_violated`). -/
theorem C76_odom_start_partial [Noise ℝ] (traj : Bool) (file : Option (Config ℝ)) (floor : ℝ)
    (p : SimParams ℝ 4) (s : Sim ℝ 4) (h : getParams traj file = some (floor, p))
    (hs : getSimulator p floor = some s) :
    s.odom.ori = p.dyn.state.ori ∧
    (OdomStartsRight p s ↔ p.dyn.state.pos = 0 ∧ p.dyn.state.vel = 0) ∧ (file = none → OdomStartsRight p s) := by
  obtain ⟨h1, h2, h3⟩ := odom_start hs
  have hcode : ∀ q : SimParams ℝ 4, codeParams = some q →
      q.odom.initOri = q.dyn.state.ori ∧ q.dyn.state.pos = 0 ∧ q.dyn.state.vel = 0 := by
    intro q hq
    simp only [codeParams, Option.map_eq_some_iff] at hq
    obtain ⟨A, -, rfl⟩ := hq
    refine ⟨rfl, ?_, ?_⟩ <;> ext i <;> simp [State.default, flt]
  have key : p.odom.initOri = p.dyn.state.ori ∧
      (file = none → p.dyn.state.pos = 0 ∧ p.dyn.state.vel = 0) := by
    cases file with
    | some c =>
      obtain ⟨dyn, A, -, -, e1, -, -, -, -, e2⟩ := yamlParams_ok h
      exact ⟨by rw [e2, e1], fun h => absurd h (by simp)⟩
    | none =>
      cases traj with
      | false =>
        simp only [getParams, Option.map_eq_some_iff, Bool.false_eq_true, if_false] at h
        obtain ⟨q, hq, h⟩ := h
        rw [Prod.mk.injEq] at h
        rw [← h.2]
        exact ⟨(hcode q hq).1, fun _ => (hcode q hq).2⟩
      | true =>
        simp only [getParams, Option.map_eq_some_iff, if_true, trajCodeParams] at h
        obtain ⟨q, ⟨q', hq', rfl⟩, h⟩ := h
        rw [Prod.mk.injEq] at h
        rw [← h.2]
        exact ⟨(hcode q' hq').1, fun _ => (hcode q' hq').2⟩
  have hiff : OdomStartsRight p s ↔ p.dyn.state.pos = 0 ∧ p.dyn.state.vel = 0 := by
    unfold OdomStartsRight
    rw [h1, h2, h3]
    exact ⟨fun h => ⟨h.2.1.symm, h.2.2.symm⟩, fun h => ⟨key.1, h.1.symm, h.2.symm⟩⟩
  exact ⟨by rw [h1, key.1], hiff, fun hn => hiff.2 (key.2 hn)⟩

/-- Non-vacuity of `C76_odom_start_partial`: the built-in parameters. -/
example [Noise ℝ] : ∃ (p : SimParams ℝ 4) (s : Sim ℝ 4), getParams false none = some (0, p) ∧ getSimulator p 0 = some s := by
  obtain ⟨p, hp, hb, hi⟩ := codeParams_ok
  obtain ⟨s, hs, -⟩ := getSimulator_ok hb hi 0
  exact ⟨p, s, by simp [getParams, hp, flt], hs⟩

/-- A file in which every number is one half: the vehicle starts at (1/2, 1/2, 1/2). -/
theorem C76_violated : ¬ C76_claim := by
  intro h
  let N : Noise ℝ := ⟨fun _ _ _ => 0⟩
  let c : Config ℝ := ⟨fun _ => some (1 / 2), fun _ _ => some (1 / 2), fun _ => none⟩
  obtain ⟨q, hq⟩ : ∃ q, getParams false (some c) = some (1 / 2, q) := ⟨_, rfl⟩
  obtain ⟨dyn, A, hd, -, e1, -⟩ := yamlParams_ok (traj := false) hq
  have hdyn : dyn = _ := (Option.some.inj hd).symm
  have hb : Buildable 4 q.dyn.model := by
    rw [e1, hdyn]
    refine ⟨(Model.checkParams_iff _).1 ?_, rfl, ?_⟩
    · simp [Model.checkParams, Model.checkMotor, Model.quadX, flt]
      simp [diag3, Matrix.det_fin_three, flt]
    · simp [Model.quadX]
  have ha : q.odom.alpha = 1 / 2 := by
    rw [← (Prod.mk.inj (Option.some.inj hq)).2]
  obtain ⟨s, hs, -⟩ := getSimulator_ok hb (by rw [ha]; norm_num) (1 / 2)
  have h1 := (C76_odom_start_partial false (some c) (1 / 2) q s hq hs).2.1.1
    (h N false (some c) (1 / 2) q s hq hs)
  have h2 := congrFun h1.1 0
  rw [e1, hdyn] at h2
  simp at h2

end Verif.Props
