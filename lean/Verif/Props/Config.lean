import Verif.Props.Flight
import Verif.Props.Euler
import Verif.Props.ExampleParams
import Verif.Lemmas.Config

/-!
# The configuration file (C108, C109)
-/

namespace Verif.Props

open Verif Flt Spec Example

section
variable {α : Type} [Flt α]

/-- **C108.** Every entry of the file reaches the parameter it names: the vector and scalar parameters are those of
the table, all four rotors have the common parameters of the file and stand at the given distances in the four
quadrants, the matrices given by three numbers are diagonal, and the limits of the controllers are symmetric (for any
arithmetic). -/
theorem C108_values (traj : Bool) (c : Config α) (q : α × SimParams α 4) (h : yamlParams traj c = some q) :
    (∀ e ∈ scalarKeys, c.num e.1 = some (e.2 q)) ∧
    (∀ e ∈ vectorKeys traj, ∀ i : Fin 3, c.entry e.1 i = some (e.2 q i)) ∧
    (q.2.dyn.model.motors.length = 4 ∧ ∀ m ∈ q.2.dyn.model.motors, ∀ e ∈ rotorKeys, c.num e.1 = some (e.2 m)) ∧
    (∃ x y, c.num ["dynamics", "model", "motors_params", "x_dist"] = some x ∧
      c.num ["dynamics", "model", "motors_params", "y_dist"] = some y ∧
      q.2.dyn.model.motors.map Motor.pos =
        [![x, neg y, lit 0], ![x, y, lit 0], ![neg x, y, lit 0], ![neg x, neg y, lit 0]]) ∧
    (c.entry orientationKey 0 = some q.2.dyn.state.ori.w ∧ c.entry orientationKey 1 = some q.2.dyn.state.ori.x ∧
      c.entry orientationKey 2 = some q.2.dyn.state.ori.y ∧ c.entry orientationKey 3 = some q.2.dyn.state.ori.z) ∧
    (IsDiag q.2.dyn.model.inertia ∧ IsDiag q.2.dyn.model.aero ∧ IsDiag q.2.ctl.acro.kpRot) ∧
    ∀ l ∈ loops traj, (l.2.2.2 q).lower = (fun i => lit (-1) ⊠ (l.2.2.2 q).upper i) ∧ (l.2.2.2 q).propSat = true := by
  unfold yamlParams at h
  obtain ⟨floor, hfl, h⟩ := Option.bind_eq_some_iff.1 h
  obtain ⟨dyn, hd, h⟩ := Option.bind_eq_some_iff.1 h
  obtain ⟨A, hA, h⟩ := Option.bind_eq_some_iff.1 h
  obtain ⟨indi, hindi, h⟩ := Option.bind_eq_some_iff.1 h
  obtain ⟨kpRot, hkp, h⟩ := Option.bind_eq_some_iff.1 h
  obtain ⟨tr, htr, h⟩ := Option.bind_eq_some_iff.1 h
  obtain ⟨vel, hvel, h⟩ := Option.bind_eq_some_iff.1 h
  obtain ⟨pos, hpos, h⟩ := Option.bind_eq_some_iff.1 h
  obtain ⟨gv, hgv, h⟩ := Option.bind_eq_some_iff.1 h
  obtain ⟨av, hav, h⟩ := Option.bind_eq_some_iff.1 h
  obtain ⟨gb, hgb, h⟩ := Option.bind_eq_some_iff.1 h
  obtain ⟨ab, hab, h⟩ := Option.bind_eq_some_iff.1 h
  obtain ⟨al, hal, h⟩ := Option.bind_eq_some_iff.1 h
  obtain rfl := Option.some.inj h
  unfold dynOfYaml at hd
  obtain ⟨sp, h1, hd⟩ := Option.bind_eq_some_iff.1 hd
  obtain ⟨qw, h2, hd⟩ := Option.bind_eq_some_iff.1 hd
  obtain ⟨qx, h3, hd⟩ := Option.bind_eq_some_iff.1 hd
  obtain ⟨qy, h4, hd⟩ := Option.bind_eq_some_iff.1 hd
  obtain ⟨qz, h5, hd⟩ := Option.bind_eq_some_iff.1 hd
  obtain ⟨sv, h6, hd⟩ := Option.bind_eq_some_iff.1 hd
  obtain ⟨sw, h7, hd⟩ := Option.bind_eq_some_iff.1 hd
  obtain ⟨sa, h8, hd⟩ := Option.bind_eq_some_iff.1 hd
  obtain ⟨sb, h9, hd⟩ := Option.bind_eq_some_iff.1 hd
  obtain ⟨g, h10, hd⟩ := Option.bind_eq_some_iff.1 hd
  obtain ⟨mass, h11, hd⟩ := Option.bind_eq_some_iff.1 hd
  obtain ⟨inr, h12, hd⟩ := Option.bind_eq_some_iff.1 hd
  obtain ⟨drag, h13, hd⟩ := Option.bind_eq_some_iff.1 hd
  obtain ⟨aero, h14, hd⟩ := Option.bind_eq_some_iff.1 hd
  obtain ⟨fn, h15, hd⟩ := Option.bind_eq_some_iff.1 hd
  obtain ⟨mn, h16, hd⟩ := Option.bind_eq_some_iff.1 hd
  obtain ⟨kf, h17, hd⟩ := Option.bind_eq_some_iff.1 hd
  obtain ⟨kt, h18, hd⟩ := Option.bind_eq_some_iff.1 hd
  obtain ⟨x, h19, hd⟩ := Option.bind_eq_some_iff.1 hd
  obtain ⟨y, h20, hd⟩ := Option.bind_eq_some_iff.1 hd
  obtain ⟨lo, h21, hd⟩ := Option.bind_eq_some_iff.1 hd
  obtain ⟨hi, h22, hd⟩ := Option.bind_eq_some_iff.1 hd
  obtain ⟨tau, h23, hd⟩ := Option.bind_eq_some_iff.1 hd
  obtain ⟨rot, h24, hd⟩ := Option.bind_eq_some_iff.1 hd
  obtain rfl := Option.some.inj hd
  have hdiag : ∀ v : Vec 3 α, IsDiag (diag3 v) := fun v i j hij => if_neg hij
  have hd : ∀ (v : Vec 3 α) (i : Fin 3), diag3 v i i = v i := fun v i => if_pos rfl
  refine ⟨?_, ?_, ⟨rfl, ?_⟩, ⟨x, y, h19, h20, rfl⟩, ⟨h2, h3, h4, h5⟩, ⟨hdiag _, hdiag _, hdiag _⟩, ?_⟩
  · simp only [scalarKeys, List.forall_mem_cons, List.not_mem_nil, false_imp_iff, implies_true, and_true]
    exact ⟨hfl, h11, h13, h15, h16, hgv, hav, hgb, hab, hal⟩
  · simp only [vectorKeys, List.forall_mem_append, List.forall_mem_cons, List.not_mem_nil, false_imp_iff, implies_true,
      and_true]
    refine ⟨⟨Config.vec_eq.1 h1, Config.vec_eq.1 h6, Config.vec_eq.1 h7, Config.vec_eq.1 h8, Config.vec_eq.1 h9,
      Config.vec_eq.1 h10, ?_, ?_, ?_⟩, ?_⟩
    · exact fun i => (Config.vec_eq.1 h12 i).trans (by rw [hd])
    · exact fun i => (Config.vec_eq.1 h14 i).trans (by rw [hd])
    · exact fun i => (Config.vec_eq.1 hkp i).trans (by rw [hd])
    · cases traj with
      | true =>
        simp only [loops, if_true, List.flatMap_cons, List.flatMap_nil, List.append_nil, List.forall_mem_append]
        exact ⟨pidOfYaml_values hindi _ _ rfl, pidOfYaml_values htr _ _ rfl⟩
      | false =>
        simp only [loops, Bool.false_eq_true, if_false, List.flatMap_cons, List.flatMap_nil, List.append_nil,
          List.forall_mem_append]
        exact ⟨pidOfYaml_values hindi _ _ rfl, pidOfYaml_values hvel _ _ rfl,
          pidOfYaml_values hpos _ _ rfl⟩
  · intro m hm
    simp only [rotorKeys, List.forall_mem_cons, List.not_mem_nil, false_imp_iff, implies_true, and_true]
    simp only [Model.quadX, List.mem_cons, List.not_mem_nil, or_false] at hm
    rcases hm with rfl | rfl | rfl | rfl <;> exact ⟨h17, h18, h21, h22, h23, h24⟩
  · cases traj with
    | true =>
      simp only [loops, if_true, List.forall_mem_cons, List.not_mem_nil, false_imp_iff, implies_true, and_true]
      exact ⟨pidOfYaml_limits hindi,
        pidOfYaml_limits htr⟩
    | false =>
      simp only [loops, Bool.false_eq_true, if_false, List.forall_mem_cons, List.not_mem_nil, false_imp_iff,
        implies_true, and_true]
      exact ⟨pidOfYaml_limits hindi,
        pidOfYaml_limits hvel, pidOfYaml_limits hpos⟩

/-- **C108, completeness.** The parameters are read exactly if the file has all the entries of the table. -/
theorem C108_complete (traj : Bool) (c : Config α) : (∃ q, yamlParams traj c = some q) ↔ Complete traj c := by
  constructor
  · rintro ⟨q, h⟩
    obtain ⟨h1, h2, ⟨h3, h4⟩, ⟨x, y, hx, hy, -⟩, ⟨hw, hqx, hqy, hqz⟩, -⟩ := C108_values traj c q h
    refine ⟨fun e he => by simp [h1 e he], fun e he => ?_, ?_, fun e he i => by simp [h2 e he i], ?_⟩
    · obtain ⟨m, hm⟩ := List.exists_mem_of_length_pos (l := q.2.dyn.model.motors) (by omega)
      simp [h4 m hm e he]
    · simp [distanceKeys, hx, hy]
    · intro i
      fin_cases i <;> simp [hw, hqx, hqy, hqz]
  · rintro ⟨h1, h2, h3, h4, h5⟩
    simp only [scalarKeys, rotorKeys, distanceKeys, vectorKeys, List.forall_mem_append, List.forall_mem_cons,
      List.not_mem_nil, false_imp_iff, implies_true, and_true, Option.isSome_iff_exists] at h1 h2 h3 h4
    obtain ⟨⟨floor, hfl⟩, ⟨mass, h11⟩, ⟨drag, h13⟩, ⟨fn, h15⟩, ⟨mn, h16⟩, ⟨gv, hgv⟩, ⟨av, hav⟩, ⟨gb, hgb⟩, ⟨ab, hab⟩,
      ⟨al, hal⟩⟩ := h1
    obtain ⟨⟨kf, h17⟩, ⟨kt, h18⟩, ⟨lo, h21⟩, ⟨hi, h22⟩, ⟨tau, h23⟩, ⟨rot, h24⟩⟩ := h2
    obtain ⟨⟨x, h19⟩, ⟨y, h20⟩⟩ := h3
    obtain ⟨⟨e1, e6, e7, e8, e9, e10, e12, e14, ekp⟩, eloops⟩ := h4
    simp only [← Option.isSome_iff_exists] at e1 e6 e7 e8 e9 e10 e12 e14 ekp eloops
    obtain ⟨sp, h1⟩ := Config.vec_isSome e1
    obtain ⟨sv, h6⟩ := Config.vec_isSome e6
    obtain ⟨sw, h7⟩ := Config.vec_isSome e7
    obtain ⟨sa, h8⟩ := Config.vec_isSome e8
    obtain ⟨sb, h9⟩ := Config.vec_isSome e9
    obtain ⟨g, h10⟩ := Config.vec_isSome e10
    obtain ⟨inr, h12⟩ := Config.vec_isSome e12
    obtain ⟨aero, h14⟩ := Config.vec_isSome e14
    obtain ⟨kpRot, hkp⟩ := Config.vec_isSome ekp
    obtain ⟨qw, hw⟩ : ∃ a, c.entry ["dynamics", "state", "orientation"] 0 = some a := Option.isSome_iff_exists.1 (h5 0)
    obtain ⟨qx, hqx⟩ : ∃ a, c.entry ["dynamics", "state", "orientation"] 1 = some a := Option.isSome_iff_exists.1 (h5 1)
    obtain ⟨qy, hqy⟩ : ∃ a, c.entry ["dynamics", "state", "orientation"] 2 = some a := Option.isSome_iff_exists.1 (h5 2)
    obtain ⟨qz, hqz⟩ : ∃ a, c.entry ["dynamics", "state", "orientation"] 3 = some a := Option.isSome_iff_exists.1 (h5 3)
    obtain ⟨d, hd, A, hA⟩ : ∃ d, dynOfYaml c = some d ∧ ∃ A, allocation d.model.motors = some A := by
      simp only [dynOfYaml, List.cons_append, List.nil_append, h1, hw, hqx, hqy, hqz, h6, h7, h8, h9, h10, h11, h12, h13,
        h14, h15, h16, h17, h18, h19, h20, h21, h22, h23, h24, Option.bind_eq_bind, Option.bind_some]
      exact ⟨_, rfl, allocation_quadX _ _ _ _ _ _ _ _⟩
    cases traj with
    | true =>
      simp only [loops, if_true, List.flatMap_cons, List.flatMap_nil, List.append_nil, List.forall_mem_append] at eloops
      obtain ⟨indi, hindi⟩ := pidOfYaml_isSome _ eloops.1
      obtain ⟨tr, htr⟩ := pidOfYaml_isSome _ eloops.2
      simp only [yamlParams, hfl, hd, hA, hindi, hkp, htr, hgv, hav, hgb, hab, hal, if_true, Option.bind_eq_bind,
        Option.bind_some]
      exact ⟨_, rfl⟩
    | false =>
      simp only [loops, Bool.false_eq_true, if_false, List.flatMap_cons, List.flatMap_nil, List.append_nil,
        List.forall_mem_append] at eloops
      obtain ⟨indi, hindi⟩ := pidOfYaml_isSome _ eloops.1
      obtain ⟨vel, hvel⟩ := pidOfYaml_isSome _ eloops.2.1
      obtain ⟨pos, hpos⟩ := pidOfYaml_isSome _ eloops.2.2
      simp only [yamlParams, hfl, hd, hA, hindi, hkp, hvel, hpos, hgv, hav, hgb, hab, hal, Bool.false_eq_true, if_false,
        Option.bind_eq_bind, Option.bind_some]
      exact ⟨_, rfl⟩

/-- **C108, nothing else.** Files with the same entries of the table give the same parameters, whatever else they
contain. -/
theorem C108_only (traj : Bool) (c c' : Config α) (h : SameEntries traj c c') :
    yamlParams traj c = yamlParams traj c' := by
  obtain ⟨h1, h2, h3, h4, h5⟩ := h
  simp only [scalarKeys, rotorKeys, distanceKeys, vectorKeys, List.forall_mem_append, List.forall_mem_cons,
    List.not_mem_nil, false_imp_iff, implies_true, and_true] at h1 h2 h3 h4
  obtain ⟨hfl, h11, h13, h15, h16, hgv, hav, hgb, hab, hal⟩ := h1
  obtain ⟨h17, h18, h21, h22, h23, h24⟩ := h2
  obtain ⟨h19, h20⟩ := h3
  obtain ⟨⟨e1, e6, e7, e8, e9, e10, e12, e14, ekp⟩, eloops⟩ := h4
  have hw : c.entry ["dynamics", "state", "orientation"] 0 = c'.entry ["dynamics", "state", "orientation"] 0 := h5 0
  have hqx : c.entry ["dynamics", "state", "orientation"] 1 = c'.entry ["dynamics", "state", "orientation"] 1 := h5 1
  have hqy : c.entry ["dynamics", "state", "orientation"] 2 = c'.entry ["dynamics", "state", "orientation"] 2 := h5 2
  have hqz : c.entry ["dynamics", "state", "orientation"] 3 = c'.entry ["dynamics", "state", "orientation"] 3 := h5 3
  have hd : dynOfYaml c = dynOfYaml c' := by
    simp only [dynOfYaml, List.cons_append, List.nil_append, Config.vec_congr e1, Config.vec_congr e6,
      Config.vec_congr e7, Config.vec_congr e8, Config.vec_congr e9, Config.vec_congr e10, Config.vec_congr e12,
      Config.vec_congr e14, hw, hqx, hqy, hqz, h11, h13, h15, h16, h17, h18, h19, h20, h21, h22, h23, h24]
  cases traj with
  | true =>
    simp only [loops, if_true, List.flatMap_cons, List.flatMap_nil, List.append_nil, List.forall_mem_append] at eloops
    simp only [yamlParams, hfl, hd, Config.vec_congr ekp, pidOfYaml_congr _ eloops.1, pidOfYaml_congr _ eloops.2, hgv, hav,
      hgb, hab, hal, if_true]
  | false =>
    simp only [loops, Bool.false_eq_true, if_false, List.flatMap_cons, List.flatMap_nil, List.append_nil,
      List.forall_mem_append] at eloops
    simp only [yamlParams, hfl, hd, Config.vec_congr ekp, pidOfYaml_congr _ eloops.1, pidOfYaml_congr _ eloops.2.1,
      pidOfYaml_congr _ eloops.2.2, hgv, hav, hgb, hab, hal, Bool.false_eq_true, if_false]

end

/-- Non-vacuity of C108: the file shipped with the examples is complete for both programs; a file without entries is
not. -/
example : (∀ traj, Complete (α := ℝ) traj shipped) ∧
    ¬ Complete (α := ℝ) false ⟨fun _ => none, fun _ _ => none, fun _ => none⟩ := by
  refine ⟨fun traj => (C108_complete traj _).1 ?_, fun h => ?_⟩
  · cases traj
    · exact ⟨_, rfl⟩
    · exact ⟨_, rfl⟩
  · have := h.1 _ (List.mem_cons_self ..)
    simp at this

/-- The parameters of the shipped file. -/
lemma shipped_ok (traj : Bool) : ∃ p : SimParams ℝ 4, getParams traj (some shipped) = some (0, p) ∧
    Buildable 4 p.dyn.model ∧ (0 < p.odom.alpha ∧ p.odom.alpha ≤ 1) ∧ p.dyn.state.pos = ![0, 0, 0] ∧
    p.dyn.state.ori = ⟨9659258 / 10000000, 0, 0, 2588192 / 10000000⟩ := by
  have h0 : (lit 0 : ℝ) = 0 := by simp [flt]
  obtain ⟨q, hq⟩ : ∃ q, getParams traj (some (shipped : Config ℝ)) = some (lit 0, q) := by
    cases traj
    · exact ⟨_, rfl⟩
    · exact ⟨_, rfl⟩
  obtain ⟨dyn, A, hd, -, e1, -⟩ := yamlParams_ok hq
  have hdyn : dyn = _ := (Option.some.inj hd).symm
  obtain ⟨h1, -⟩ := C108_values traj shipped _ hq
  have ha : some q.odom.alpha = some (lit (9 / 10)) :=
    (h1 (["inertial_odometry", "alpha"], fun q => q.2.odom.alpha) (by simp [scalarKeys])).symm
  refine ⟨q, by rw [hq, h0], ⟨(Model.checkParams_iff _).1 ?_, ?_, ?_⟩, ?_, ?_, ?_⟩
  · rw [e1, hdyn]
    simp [Model.checkParams, Model.checkMotor, Model.quadX, flt, diag3, Matrix.det_fin_three]
    norm_num
  · rw [e1, hdyn]
    rfl
  · rw [e1, hdyn]
    simp [Model.quadX]
  · rw [Option.some.inj ha]
    simp only [flt]
    norm_num
  · rw [e1, hdyn]
    simp [flt]
  · rw [e1, hdyn]
    simp [flt]

/-- The shipped and the built-in parameters side by side. -/
lemma shipped_builtin {α : Type} [Flt α] (traj : Bool) : ∃ p p₀ : SimParams α 4,
    getParams traj (some shipped) = some (lit 0, p) ∧ getParams traj none = some (lit 0, p₀) ∧
    p.dyn.model = p₀.dyn.model ∧ p.ctl.acro = p₀.ctl.acro ∧
    p.ctl.indi = { p₀.ctl.indi with pid := { p₀.ctl.indi.pid with
      propSat := true, upper := ![lit 0, lit 0, lit 0], lower := smulL (lit (-1)) ![lit 0, lit 0, lit 0] } } ∧
    (traj = true → p.ctl.traj = { p₀.ctl.traj with
      propSat := true, alpha := vones
      upper := ![lit 0, lit 0, lit 0], lower := smulL (lit (-1)) ![lit 0, lit 0, lit 0] }) ∧
    (p₀.ctl.indi.pid.upper = vzero ∧ p₀.ctl.indi.pid.lower = vzero) ∧
    (traj = true → p₀.ctl.traj.upper = vzero ∧ p₀.ctl.traj.lower = vzero) := by
  cases traj
  · exact ⟨_, _, rfl, rfl, rfl, rfl, rfl, by simp, ⟨rfl, rfl⟩, by simp⟩
  · exact ⟨_, _, rfl, rfl, rfl, rfl, rfl, fun _ => rfl, ⟨rfl, rfl⟩, fun _ => ⟨rfl, rfl⟩⟩

/-- **C109, the vehicle.** With the shipped file the examples simulate the built-in vehicle: the same model,
attitude controller, rate controller and, in the trajectory example, trajectory controller, up to the flag that says
how limits act, where there are no limits, and a filter constant that is not used. -/
theorem C109_vehicle (traj : Bool) : ∃ p p₀ : SimParams ℝ 4, getParams traj (some shipped) = some (0, p) ∧
    getParams traj none = some (0, p₀) ∧ p.dyn.model = p₀.dyn.model ∧ p.ctl.acro = p₀.ctl.acro ∧
    p.ctl.indi = { p₀.ctl.indi with pid := { p₀.ctl.indi.pid with propSat := true } } ∧
    (traj = true → p.ctl.traj = { p₀.ctl.traj with propSat := true, alpha := 1 }) ∧
    p.ctl.indi.pid.upper = 0 ∧ p.ctl.indi.pid.lower = 0 := by
  have h0 : (lit 0 : ℝ) = 0 := by simp [flt]
  have hz : (![lit 0, lit 0, lit 0] : Vec 3 ℝ) = vzero := by funext i; fin_cases i <;> rfl
  have hz' : smulL (lit (-1)) (vzero : Vec 3 ℝ) = vzero := by
    funext i
    simp [flt]
  have hv : (vzero : Vec 3 ℝ) = 0 := by funext i; simp [flt]
  have hv1 : (vones : Vec 3 ℝ) = 1 := by funext i; simp [vones, flt]
  obtain ⟨p, p₀, h1, h2, h3, h4, h5, h6, h7, h8⟩ := shipped_builtin (α := ℝ) traj
  rw [hz, hz'] at h5
  refine ⟨p, p₀, by rw [h1, h0], by rw [h2, h0], h3, h4, ?_, fun ht => ?_, ?_, ?_⟩
  · rw [h5]
    simp only [h7.1, h7.2]
  · have h9 := h6 ht
    rw [hz, hz', hv1] at h9
    rw [h9]
    simp only [(h8 ht).1, (h8 ht).2]
  · rw [h5, ← hv]
  · rw [h5, ← hv]

/-- **C109, the first program.** With the shipped file it flies sixty seconds in steps of a millisecond, ends
normally with a log of 60 001 lines, and flies to all nine positions of the file in their order. -/
theorem C109_flight [Noise ℝ] (pr : ℝ → List Char) (fuel : ℕ) (hf : 60000 ≤ fuel) :
    ∃ v refs, Example.main pr (some shipped) fuel = some (some (.ok v)) ∧ v.log.length = 60001 ∧
      shipped.rows ["sim_config", "position_references"] = some refs ∧ refs.length = 9 ∧
      ∃ f : ℕ → ℕ, Monotone f ∧ (∀ k < 9, ∃ j < 60000, f j = k) ∧ ∀ j : ℕ, j < 60000 → ∃ s l,
        Logger.save pr (j / 1000) s = some l ∧ v.log[1 + j]? = some l ∧ refs[f j]? = some s.refPos := by
  obtain ⟨p, hp, hb, hi, -⟩ := shipped_ok false
  obtain ⟨refs, hrefs⟩ : ∃ refs, (shipped : Config ℝ).rows ["sim_config", "position_references"] = some refs :=
    ⟨_, rfl⟩
  have hlen : refs.length = 9 := by rw [← Option.some.inj hrefs]; rfl
  have hrows : getRows (some shipped) "position_references" = refs := by
    simp [getRows, hrefs]
  have ht : getSimTime (some (shipped : Config ℝ)) = (60, 1 / 1000) := by
    have : getSimTime (some (shipped : Config ℝ)) = (lit 60, lit (1 / 1000)) := rfl
    rw [this]
    simp [flt]
  have hn : ⌈(60 : ℝ) / (1 / 1000)⌉₊ = 60000 := by
    rw [show (60 : ℝ) / (1 / 1000) = ((60000 : ℕ) : ℝ) by norm_num, Nat.ceil_natCast]
  have hk : ⌊(60 : ℝ) / (9 : ℕ) / (1 / 1000)⌋₊ = 6666 := by
    rw [Nat.floor_eq_iff (by positivity)]
    norm_num
  have hne : refs ≠ [] := by rintro rfl; simp at hlen
  obtain ⟨s₀, v, e1, e2, e3, -⟩ := C105_main pr (some shipped) 0 p hp hb hi 60 (1 / 1000) ht (by norm_num) (by norm_num)
    fuel (by rw [hn]; exact hf) refs hne hrows
  obtain ⟨s₁, v', g1, g2, g3, -⟩ := C73_schedule_partial pr p hb hi 0 (.position refs) hne (by simp [references, hlen]) 60
    (1 / 1000) (by norm_num) (by norm_num) (by norm_num) fuel (by rw [hn]; exact hf)
  obtain rfl : s₀ = s₁ := Option.some.inj (e1.symm.trans g1)
  obtain rfl : v = v' := by
    simp only [Example.main, hp, e1, ht, hrows, g2, Option.bind_eq_bind, Option.bind_some, Option.pure_def,
      Option.some.injEq, Res.ok.injEq] at e2
    exact e2.symm
  rw [hn] at e3 g3
  simp only [references, hlen, hk, startLines] at g3
  refine ⟨v, refs, e2, by omega, hrefs, hlen, fun j => j / 6667, fun a b h => Nat.div_le_div_right h, fun k h => ?_,
    fun j hj => ?_⟩
  · exact ⟨k * 6667, by omega, by simp⟩
  · obtain ⟨-, s, l, -, k1, k2, k3⟩ := g3 j hj
    exact ⟨s, l, by rw [← k1]; congr 1; ring, k2, k3⟩

/-- **C109, the trajectory program.** With the shipped file it climbs to three metres and flies through the five
waypoints of the file with the speed of the file; the flight ends normally after sixty seconds. -/
theorem C109_trajectory [Noise ℝ] (gen : Vec 3 ℝ → List (Vec 3 ℝ) → ℝ → Trajectory ℝ) (pr : ℝ → List Char) (fuel : ℕ)
    (hf : 60000 ≤ fuel) :
    ∃ p s₀ v, getParams true (some shipped) = some (0, p) ∧ getSimulator p 0 = some s₀ ∧
      trajMain gen pr (some shipped) fuel = some (some (.ok v)) ∧ v.log.length = 60001 ∧
      s₀.Runs (flightCalls s₀ 60 (1 / 1000) (.takeoff (gen ![0, 0, 0] [![0, 0, 3]] 1) (gen ![0, 0, 3]
        [![10, -10, 6], ![10, 10, 3], ![-10, -10, 6], ![-10, 10, 3], ![0, 0, 3]] 10)) 60000) v.sim := by
  obtain ⟨p, hp, hb, hi, hx, -⟩ := shipped_ok true
  have ht : getSimTime (some (shipped : Config ℝ)) = (60, 1 / 1000) := by
    have : getSimTime (some (shipped : Config ℝ)) = (lit 60, lit (1 / 1000)) := rfl
    rw [this]
    simp [flt]
  have hn : ⌈(60 : ℝ) / (1 / 1000)⌉₊ = 60000 := by
    rw [show (60 : ℝ) / (1 / 1000) = ((60000 : ℕ) : ℝ) by norm_num, Nat.ceil_natCast]
  have hsp : (shipped : Config ℝ).num ["sim_config", "trajectory_generator_max_speed"] = some 10 := by
    have : (shipped : Config ℝ).num ["sim_config", "trajectory_generator_max_speed"] = some (lit 10) := rfl
    rw [this]
    simp [flt]
  have hwp : (shipped : Config ℝ).rows ["sim_config", "trajectory_generator_waypoints"] =
      some [![10, -10, 6], ![10, 10, 3], ![-10, -10, 6], ![-10, 10, 3], ![0, 0, 3]] := by
    have : (shipped : Config ℝ).rows ["sim_config", "trajectory_generator_waypoints"] = some
      [![lit 10, lit (-10), lit 6], ![lit 10, lit 10, lit 3], ![lit (-10), lit (-10), lit 6],
       ![lit (-10), lit 10, lit 3], ![lit 0, lit 0, lit 3]] := rfl
    rw [this]
    simp [flt]
  obtain ⟨s₀, v, e1, e2, e4, e3⟩ := C105_trajectory gen pr (some shipped) 0 p hp hb hi 60 (1 / 1000) ht (by norm_num)
    (by norm_num) fuel (by rw [hn]; exact hf)
  simp only [hx, Option.bind_some, hsp, hwp, Option.getD_some, Matrix.cons_val_zero, Matrix.cons_val_one,
    Matrix.cons_val, zero_add] at e3
  rw [hn] at e3 e4
  exact ⟨p, s₀, v, hp, e1, e2, by omega, e3⟩

/-- C107 with the shipped file: the vehicle starts with a heading (thirty degrees) that is not the heading of zero it
is asked for on the course. -/
theorem C107_shipped_partial [Noise ℝ] : ∃ p s₀, getParams true (some (shipped : Config ℝ)) = some (0, p) ∧
    getSimulator p 0 = some s₀ ∧ headingOf s₀ ≠ 0 := by
  obtain ⟨p, hp, hb, hi, -, ho⟩ := shipped_ok true
  obtain ⟨s₀, hs, -, -, hst⟩ := getSimulator_ok hb hi 0
  refine ⟨p, s₀, hp, hs, fun h => ?_⟩
  rw [headingOf, hst, quatToEuler_real, ho, Complex.arg_eq_zero_iff] at h
  have h2 := h.2
  rw [Quat.normalized_eq, Quat.toMat_real] at h2
  norm_num [Quat.n2] at h2

end Verif.Props
