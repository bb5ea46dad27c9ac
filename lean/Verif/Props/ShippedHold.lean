import Verif.Props.Altitude
import Verif.Props.Config

/-!
# The shipped controllers hold an altitude (C132)
-/

namespace Verif.Props

open Verif Flt Spec Stability Filter Topology Example

/-- Position and velocity tuning of the vertical axis in /repo/examples/simulation_config.yaml -/
noncomputable def shippedP : PiTuning := ⟨1, 1 / 100, 1 / 2, 10⟩
noncomputable def shippedV : PiTuning := ⟨10, 2, 1, 4⟩

/-- Rotors and gravity of /repo/examples/simulation_config.yaml -/
noncomputable def shippedCraft : Craft := ⟨191 / 100000000, 2 / 100, 0, 2200, 981 / 100⟩

/-- The horizontal axes of a controller remember nothing. -/
def Sideways (q : Pid ℝ 3) : Prop :=
  q.firstRun = false → ∀ i, i ≠ 2 → q.integral i = 0 ∧ q.filtered i = 0 ∧ q.propErr i = 0

open Polynomial in
/-- A monic real polynomial of degree five with five real roots has no other complex roots. -/
lemma real_roots {q : ℝ[X]} (hm : q.Monic) (hd : q.natDegree = 5) {a b c d e : ℝ} (ha : q.eval a = 0) (hb : q.eval b = 0)
    (hc : q.eval c = 0) (hdd : q.eval d = 0) (he : q.eval e = 0) (h1 : a < b) (h2 : b < c) (h3 : c < d) (h4 : d < e)
    {z : ℂ} (hz : aeval z q = 0) : z = a ∨ z = b ∨ z = c ∨ z = d ∨ z = e := by
  set Q := q.map (algebraMap ℝ ℂ) with hQ
  have hQm : Q.Monic := hm.map _
  have hroot : ∀ x : ℝ, q.eval x = 0 → (x : ℂ) ∈ Q.roots.toFinset := fun x hx => by
    rw [Multiset.mem_toFinset, mem_roots hQm.ne_zero, IsRoot.def, hQ, eval_map_algebraMap]
    have : aeval (algebraMap ℝ ℂ x) q = algebraMap ℝ ℂ (aeval x q) := aeval_algebraMap_apply ℂ x q
    rw [show (x : ℂ) = algebraMap ℝ ℂ x from rfl, this, coe_aeval_eq_eval, hx, map_zero]
  set S : Finset ℂ := {(a : ℂ), (b : ℂ), (c : ℂ), (d : ℂ), (e : ℂ)} with hS
  have hsub : S ⊆ Q.roots.toFinset := by
    intro x hx
    simp only [hS, Finset.mem_insert, Finset.mem_singleton] at hx
    rcases hx with rfl | rfl | rfl | rfl | rfl
    · exact hroot _ ha
    · exact hroot _ hb
    · exact hroot _ hc
    · exact hroot _ hdd
    · exact hroot _ he
  have hcard : S.card = 5 := by
    have n : ∀ {x y : ℝ}, x < y → (x : ℂ) ≠ y := fun h => by exact_mod_cast h.ne
    rw [hS, Finset.card_insert_of_notMem, Finset.card_insert_of_notMem, Finset.card_insert_of_notMem,
      Finset.card_insert_of_notMem, Finset.card_singleton]
    · simpa using h4.ne
    · simp only [Finset.mem_insert, Finset.mem_singleton, not_or]
      exact ⟨n h3, n (h3.trans h4)⟩
    · simp only [Finset.mem_insert, Finset.mem_singleton, not_or]
      exact ⟨n h2, n (h2.trans h3), n (h2.trans (h3.trans h4))⟩
    · simp only [Finset.mem_insert, Finset.mem_singleton, not_or]
      exact ⟨n h1, n (h1.trans h2), n (h1.trans (h2.trans h3)), n (h1.trans (h2.trans (h3.trans h4)))⟩
  have hle : Q.roots.toFinset.card ≤ S.card := by
    rw [hcard]
    refine (Multiset.toFinset_card_le _).trans ((card_roots' Q).trans ?_)
    rw [hQ, natDegree_map, hd]
  have heq := Finset.eq_of_subset_of_card_le hsub hle
  have hzm : z ∈ Q.roots.toFinset := by
    rw [Multiset.mem_toFinset, mem_roots hQm.ne_zero, IsRoot.def, hQ, eval_map_algebraMap]
    exact hz
  rw [← heq, hS] at hzm
  simpa only [Finset.mem_insert, Finset.mem_singleton] using hzm

open Polynomial in
/-- With the shipped gains, time step and rotors all five roots are real and between 0.95 and 1. -/
lemma shipped_roots (z : ℂ) (hz : holdChar shippedP shippedV (1 / 20) (1 / 1000) z = 0) : ‖z‖ < 1 := by
  set q := holdPoly shippedP shippedV (1 / 20) (1 / 1000) with hq
  have hm : q.Monic := holdPoly_monic _ _ _ _
  have hev : ∀ u : ℝ, q.eval (1 + u / 1000) = (u ^ 5 + 50 * u ^ 4 +
      50 * (10002 / 1000 * u + 2) * (u ^ 2 + 100001 / 100000 * u + 1 / 100)) / 1000 ^ 5 := by
    intro u
    simp only [hq, holdPoly, shippedP, shippedV, eval_add, eval_mul, eval_pow, eval_sub, eval_X, eval_C]
    ring
  have hd : q.natDegree = 5 := by
    have h5 : ((X - C 1 : ℝ[X]) ^ 5).degree = 5 := by rw [degree_pow, degree_X_sub_C]; rfl
    have : q.degree = 5 := by
      rw [hq, holdPoly, degree_add_eq_left_of_degree_lt, h5]
      rw [h5]
      refine lt_of_le_of_lt (b := 4) ?_ (by norm_num)
      compute_degree
    exact natDegree_eq_of_degree_eq_some this
  have hroot : ∀ u v : ℝ, u ≤ v → ((q.eval (1 + u / 1000) < 0 ∧ 0 < q.eval (1 + v / 1000)) ∨
      (0 < q.eval (1 + u / 1000) ∧ q.eval (1 + v / 1000) < 0)) →
      ∃ x, 1 + u / 1000 < x ∧ x < 1 + v / 1000 ∧ q.eval x = 0 := by
    intro u v huv h
    have huv' : 1 + u / 1000 ≤ 1 + v / 1000 := by linarith
    have hc : ContinuousOn (fun x => q.eval x) (Set.Icc (1 + u / 1000) (1 + v / 1000)) := q.continuous.continuousOn
    rcases h with ⟨h1, h2⟩ | ⟨h1, h2⟩
    · obtain ⟨x, ⟨x1, x2⟩, hx⟩ := intermediate_value_Ioo huv' hc (show (0 : ℝ) ∈ _ from ⟨h1, h2⟩)
      exact ⟨x, x1, x2, hx⟩
    · obtain ⟨x, ⟨x1, x2⟩, hx⟩ := intermediate_value_Ioo' huv' hc (show (0 : ℝ) ∈ _ from ⟨h2, h1⟩)
      exact ⟨x, x1, x2, hx⟩
  obtain ⟨a, a1, a2, ha⟩ := hroot (-50) (-20) (by norm_num) (by rw [hev, hev]; norm_num)
  obtain ⟨b, b1, b2, hb⟩ := hroot (-20) (-3 / 2) (by norm_num) (by rw [hev, hev]; norm_num)
  obtain ⟨c, c1, c2, hc⟩ := hroot (-3 / 2) (-1 / 2) (by norm_num) (by rw [hev, hev]; norm_num)
  obtain ⟨d, d1, d2, hd'⟩ := hroot (-1 / 2) (-1 / 10) (by norm_num) (by rw [hev, hev]; norm_num)
  obtain ⟨e, e1, e2, he⟩ := hroot (-1 / 10) 0 (by norm_num) (by rw [hev, hev]; norm_num)
  rw [← holdPoly_root] at hz
  have key : ∀ x : ℝ, 1 + -50 / 1000 < x → x < 1 + 0 / 1000 → ‖(x : ℂ)‖ < 1 := fun x h1 h2 => by
    rw [Complex.norm_real, Real.norm_eq_abs, abs_lt]
    constructor <;> linarith
  rcases real_roots hm hd ha hb hc hd' he (a2.trans b1) (b2.trans c1) (c2.trans d1) (d2.trans e1) hz with
    rfl | rfl | rfl | rfl | rfl
  · exact key _ a1 (by linarith)
  · exact key _ (by linarith) (by linarith)
  · exact key _ (by linarith) (by linarith)
  · exact key _ (by linarith) (by linarith)
  · exact key _ (by linarith) e2

/-- Parameters of the shipped file that matter for vertical flight. -/
lemma shipped_vertical {α : Type} [Flt α] : ∃ p : SimParams α 4, getParams false (some shipped) = some (lit 0, p) ∧
    p.dyn.model.motors = Model.quadX (lit (191 / 100000000)) (lit (26 / 100000000)) (lit (8 / 100)) (lit (8 / 100))
      (lit 0) (lit 2200) (lit (2 / 100)) (lit (662 / 100000000)) ∧
    p.dyn.model.mass = lit 1 ∧ p.dyn.model.gravity = ![lit 0, lit 0, lit (-981 / 100)] ∧
    p.ctl.acro.mass = p.dyn.model.mass ∧ p.ctl.acro.gravity = p.dyn.model.gravity ∧
    allocation p.dyn.model.motors = some p.ctl.indi.mixerInv ∧
    (p.ctl.pos.kp = ![lit 1, lit 1, lit 1] ∧ p.ctl.pos.ki = ![lit (1 / 100), lit (1 / 100), lit (1 / 100)] ∧
      p.ctl.pos.kd = ![lit 0, lit 0, lit 0] ∧ p.ctl.pos.antiwindup = ![lit (5 / 10), lit (5 / 10), lit (5 / 10)] ∧
      p.ctl.pos.upper = ![lit 10, lit 10, lit 10] ∧ p.ctl.pos.lower = smulL (lit (-1)) ![lit 10, lit 10, lit 10]) ∧
    (p.ctl.vel.kp = ![lit 6, lit 6, lit 10] ∧ p.ctl.vel.ki = ![lit 1, lit 1, lit 2] ∧
      p.ctl.vel.kd = ![lit (4 / 10), lit (4 / 10), lit 0] ∧ p.ctl.vel.antiwindup = ![lit 1, lit 1, lit 1] ∧
      p.ctl.vel.upper = ![lit 4, lit 4, lit 4] ∧ p.ctl.vel.lower = smulL (lit (-1)) ![lit 4, lit 4, lit 4]) ∧
    (p.ctl.indi.pid.antiwindup = ![lit 1, lit 1, lit 1] ∧ p.ctl.indi.pid.upper = ![lit 0, lit 0, lit 0] ∧
      p.ctl.indi.pid.lower = smulL (lit (-1)) ![lit 0, lit 0, lit 0]) ∧ p.dyn.model.drag = lit (1 / 10) :=
  ⟨_, rfl, rfl, rfl, rfl, rfl, rfl, rfl, ⟨rfl, rfl, rfl, rfl, rfl, rfl⟩, ⟨rfl, rfl, rfl, rfl, rfl, rfl⟩, ⟨rfl, rfl, rfl⟩, rfl⟩

/-- A controller configured by parameters with these numbers in the vertical axis. -/
lemma piAxis_of_params {q : Pid ℝ 3} {r : PidParams ℝ 3} (h : Pid.SameConfig q (Pid.mk' r)) (hs : Sideways q)
    {kp ki aw lim : ℝ} (h1 : r.kp 2 = kp) (h2 : r.ki 2 = ki) (h3 : r.kd 2 = 0)
    (h4 : (∀ i, 0 ≤ r.antiwindup i) ∧ r.antiwindup 2 = aw)
    (h5 : (∀ i, r.lower i ≤ 0 ∧ 0 ≤ r.upper i) ∧ r.lower 2 = -lim ∧ r.upper 2 = lim) : PiAxis q kp ki aw lim := by
  obtain ⟨f, v, w, b, he, -, hf, -⟩ := Pid.updateParams_eq r Pid.init
  unfold Pid.mk' at h
  rw [he] at h
  obtain ⟨c1, c2, c3, c4, -, -, c7, -, c9, c10⟩ := h
  refine ⟨⟨r.kp, r.ki, r.kd, ?_, ?_, ?_, h1, h2, h3⟩, ?_, fun hsat => ?_, hs⟩
  · rw [c1]; simp [flt, Pid.reset]
  · rw [c2]; simp [flt, Pid.reset]
  · rw [c3]; simp [flt, Pid.reset]
  · rw [c4]; exact h4
  · rw [c7] at hsat
    obtain ⟨rfl, rfl, -⟩ := hf hsat
    rw [c9, c10]
    exact h5

/-- The shipped motors. -/
lemma shipped_motors {p : SimParams ℝ 4} (hmot : p.dyn.model.motors = Model.quadX (lit (191 / 100000000))
    (lit (26 / 100000000)) (lit (8 / 100)) (lit (8 / 100)) (lit 0) (lit 2200) (lit (2 / 100)) (lit (662 / 100000000))) :
    ∃ ms : Fin 4 → Motor ℝ, p.dyn.model.motors = List.ofFn ms := by
  rw [hmot]
  exact ⟨(Model.quadX _ _ _ _ _ _ _ _).get, (List.ofFn_get _).symm⟩

lemma shippedCraft_is {p : SimParams ℝ 4} {ms : Fin 4 → Motor ℝ} (hmot : p.dyn.model.motors =
      Model.quadX (lit (191 / 100000000)) (lit (26 / 100000000)) (lit (8 / 100)) (lit (8 / 100)) (lit 0) (lit 2200)
        (lit (2 / 100)) (lit (662 / 100000000))) (hms : p.dyn.model.motors = List.ofFn ms)
    (hmass : p.dyn.model.mass = lit 1) (hgrav : p.dyn.model.gravity = ![lit 0, lit 0, lit (-981 / 100)]) :
    shippedCraft.Is { p.dyn.model with forceNoise := 0 } ms := by
  refine ⟨⟨26 / 100000000, 8 / 100, 8 / 100, 662 / 100000000, by norm_num, by norm_num, by norm_num, .inl ?_⟩, ?_, ?_, ?_, ?_,
    rfl⟩
  · rw [← hms, hmot]
    simp [shippedCraft, flt]
  · norm_num [shippedCraft]
  · norm_num [shippedCraft]
  · simp only [hmass, flt]; norm_num
  · simp only [hgrav, shippedCraft, flt]
    ext i; fin_cases i <;> norm_num

/-- **C132, the shipped file.** The quadrotor of the shipped file, without the process noise, settles at the requested
altitude under its position controller with the shipped gains and limits and the shipped period. -/
theorem C132_shipped [Noise ℝ] : ∃ p : SimParams ℝ 4, getParams false (some shipped) = some (0, p) ∧
    getSimTime (some (shipped : Config ℝ)) = (60, 1 / 1000) ∧ ∃ ms,
    shippedCraft.Is { p.dyn.model with forceNoise := 0 } ms ∧ ∀ zref, ∃ r > 0, ∃ C ≥ 0, ∃ q, 0 ≤ q ∧ q < 1 ∧
    ∀ s, Vertical s { p.dyn.model with forceNoise := 0 } ms shippedCraft → s.mode = .position →
      s.refPos = ![s.dyn.state.pos 0, s.dyn.state.pos 1, zref] →
      Pid.SameConfig s.ctl.pos (Pid.mk' p.ctl.pos) → Pid.SameConfig s.ctl.vel (Pid.mk' p.ctl.vel) →
      Sideways s.ctl.pos → Sideways s.ctl.vel →
      adrift s zref 0 (√(shippedCraft.g / (4 * shippedCraft.kf))) < r →
      ∀ n, ∃ t, Sim.Runs s (cycles (1 / 1000) (List.replicate n (1 / 1000))) t ∧
        t.dyn.state.pos 0 = s.dyn.state.pos 0 ∧ t.dyn.state.pos 1 = s.dyn.state.pos 1 ∧
        adrift t zref 0 (√(shippedCraft.g / (4 * shippedCraft.kf))) ≤
          C * q ^ n * adrift s zref 0 (√(shippedCraft.g / (4 * shippedCraft.kf))) := by
  obtain ⟨p, hp, hmot, hmass, hgrav, -, -, -, ⟨a1, a2, a3, a4, a5, a6⟩, ⟨b1, b2, b3, b4, b5, b6⟩, -⟩ :=
    shipped_vertical (α := ℝ)
  have h0 : (lit 0 : ℝ) = 0 := by simp [flt]
  have ht : getSimTime (some (shipped : Config ℝ)) = (60, 1 / 1000) := by
    have : getSimTime (some (shipped : Config ℝ)) = (lit 60, lit (1 / 1000)) := rfl
    rw [this]
    simp [flt]
  obtain ⟨ms, hms⟩ := shipped_motors hmot
  have hc := shippedCraft_is hmot hms hmass hgrav
  have hw : 0 < √(shippedCraft.g / (4 * shippedCraft.kf)) := by
    rw [Real.sqrt_pos]; norm_num [shippedCraft]
  have hsq : √(shippedCraft.g / (4 * shippedCraft.kf)) ^ 2 = shippedCraft.g / (4 * shippedCraft.kf) :=
    Real.sq_sqrt (by norm_num [shippedCraft])
  have htrim : HoverTrim { p.dyn.model with forceNoise := 0 } shippedCraft shippedP shippedV 0
      (√(shippedCraft.g / (4 * shippedCraft.kf))) := by
    refine ⟨?_, ?_, hw, ⟨hw, ?_⟩, ?_, ?_, ?_⟩
    · rw [hsq]; norm_num [shippedCraft]
    · rw [hsq]; simp only [hmass, flt]; norm_num [shippedCraft]
    · rw [Real.sqrt_lt' (by norm_num [shippedCraft])]; norm_num [shippedCraft]
    · norm_num [shippedV]
    · norm_num [shippedV]
    · norm_num [shippedP]
  refine ⟨p, by rw [hp, h0], ht, ms, hc, fun zref => ?_⟩
  obtain ⟨r, hr, C, hC, q, q0, q1, H⟩ := C132_settles _ ms shippedCraft shippedP shippedV zref 0 _ (1 / 1000) hc htrim
    (by norm_num) (by norm_num) (fun z hz => shipped_roots z (by
      rwa [show (1 / 1000 : ℝ) / shippedCraft.tau = 1 / 20 by norm_num [shippedCraft]] at hz))
  refine ⟨r, hr, C, hC, q, q0, q1, fun s hs hmode href k1 k2 k3 k4 hsr n => ?_⟩
  have hhold : Holding s { p.dyn.model with forceNoise := 0 } ms shippedCraft shippedP shippedV zref := by
    refine ⟨hs, hmode, href, ?_, ?_⟩
    · refine piAxis_of_params k1 k3 ?_ ?_ ?_ ⟨fun i => ?_, ?_⟩ ⟨fun i => ?_, ?_, ?_⟩
      · rw [a1]; simp [shippedP, flt]
      · rw [a2]; simp [shippedP, flt]
      · rw [a3]; simp [flt]
      · rw [a4]; fin_cases i <;> simp [flt] <;> norm_num
      · rw [a4]; simp [shippedP, flt]; norm_num
      · rw [a5, a6]; fin_cases i <;> simp [flt]
      · rw [a6]; simp [shippedP, flt]
      · rw [a5]; simp [shippedP, flt]
    · refine piAxis_of_params k2 k4 ?_ ?_ ?_ ⟨fun i => ?_, ?_⟩ ⟨fun i => ?_, ?_, ?_⟩
      · rw [b1]; simp [shippedV, flt]
      · rw [b2]; simp [shippedV, flt]
      · rw [b3]; simp [flt]
      · rw [b4]; fin_cases i <;> simp [flt]
      · rw [b4]; simp [shippedV, flt]
      · rw [b5, b6]; fin_cases i <;> simp [flt]
      · rw [b6]; simp [shippedV, flt]
      · rw [b5]; simp [shippedV, flt]
  obtain ⟨t, t1, -, t3, t4, t5⟩ := H s hhold hsr n
  exact ⟨t, t1, t3, t4, t5⟩

/-- The shipped quadrotor, level and pointing along x, hovering `off` above the requested altitude. -/
noncomputable def holdSim [Noise ℝ] (p : SimParams ℝ 4) (ms : Fin 4 → Motor ℝ) (zref off w : ℝ) : Sim ℝ 4 :=
  { Fixture.sim with
    dyn := builtFrom { p.dyn.model with forceNoise := 0 } ms p.dyn.seed
      { Fixture.dyn.state with motVel := fun _ => w, vel := 0, pos := ![0, 0, zref + off] }
    ctl := Ctl.mk' p.ctl
    armed := true
    mode := .position
    refPos := ![0, 0, zref]
    refYaw := (quatToEuler Fixture.dyn.state.ori).2.2 }

lemma holdSim_vertical [Noise ℝ] {p : SimParams ℝ 4} {ms : Fin 4 → Motor ℝ} (hms : p.dyn.model.motors = List.ofFn ms)
    (k1 : p.ctl.acro.mass = p.dyn.model.mass) (k2 : p.ctl.acro.gravity = p.dyn.model.gravity)
    (k3 : allocation p.dyn.model.motors = some p.ctl.indi.mixerInv)
    (i1 : p.ctl.indi.pid.antiwindup = ![lit 1, lit 1, lit 1]) (i2 : p.ctl.indi.pid.upper = ![lit 0, lit 0, lit 0])
    (i3 : p.ctl.indi.pid.lower = smulL (lit (-1)) ![lit 0, lit 0, lit 0]) (zref off w : ℝ) :
    Vertical (holdSim p ms zref off w) { p.dyn.model with forceNoise := 0 } ms shippedCraft := by
  have hrot : Model.motorFn 4 p.dyn.model.motors = some ms := by rw [hms]; exact motorFn_ofFn ms
  exact
  { runs := rfl
    rotors := hrot
    knowsMass := k1
    knowsGravity := k2
    knowsRotors := by
      unfold allocation at k3
      rw [hrot] at k3
      exact (Option.some.inj k3).symm
    ratePid := ⟨.inl rfl, by
      obtain ⟨f, v, w, b, he, -, hf, -⟩ := Pid.updateParams_eq p.ctl.indi.pid Pid.init
      show (Pid.mk' p.ctl.indi.pid).Neutral
      unfold Pid.mk'
      rw [he]
      refine ⟨fun hs => ?_, fun i => ?_⟩
      · obtain ⟨rfl, rfl, -⟩ := hf hs
        intro i
        simp only [Pid.reset, i2, i3]
        fin_cases i <;> simp [flt]
      · simp only [Pid.reset, i1]
        fin_cases i <;> simp [flt]⟩
    armed := rfl
    yawMode := rfl
    level := ⟨by simp [holdSim, builtFrom, Fixture.dyn, State.default, Quat.identity, IsUnitQ, flt], by
      simp [holdSim, builtFrom, Fixture.dyn, State.default, Quat.identity, flt], by
      simp [holdSim, builtFrom, Fixture.dyn, State.default, Quat.identity, flt]⟩
    yaw := rfl
    upright := ⟨rfl, rfl⟩
    angVel := vzero_real
    same := fun _ => rfl
    floor := rfl
    extForce := vzero_real }

/-- Non-vacuity of `C132_shipped`, and thereby of `C132_settles`. -/
example [Noise ℝ] : ∃ (p : SimParams ℝ 4) (ms : Fin 4 → Motor ℝ), getParams false (some shipped) = some (0, p) ∧
    ∀ zref, ∀ r > 0, ∃ s : Sim ℝ 4, Vertical s { p.dyn.model with forceNoise := 0 } ms shippedCraft ∧
      s.mode = .position ∧ s.refPos = ![s.dyn.state.pos 0, s.dyn.state.pos 1, zref] ∧
      Pid.SameConfig s.ctl.pos (Pid.mk' p.ctl.pos) ∧ Pid.SameConfig s.ctl.vel (Pid.mk' p.ctl.vel) ∧
      Sideways s.ctl.pos ∧ Sideways s.ctl.vel ∧
      0 < adrift s zref 0 (√(shippedCraft.g / (4 * shippedCraft.kf))) ∧
      adrift s zref 0 (√(shippedCraft.g / (4 * shippedCraft.kf))) < r := by
  obtain ⟨p, hp, hmot, hmass, hgrav, k1, k2, k3, -, -, ⟨i1, i2, i3⟩, -⟩ := shipped_vertical (α := ℝ)
  have h0 : (lit 0 : ℝ) = 0 := by simp [flt]
  obtain ⟨ms, hms⟩ := shipped_motors hmot
  refine ⟨p, ms, by rw [hp, h0], fun zref r hr =>
    ⟨holdSim p ms zref (r / 2) (√(shippedCraft.g / (4 * shippedCraft.kf))), ?_, rfl, rfl,
      ⟨rfl, rfl, rfl, rfl, rfl, rfl, rfl, rfl, rfl, rfl⟩, ⟨rfl, rfl, rfl, rfl, rfl, rfl, rfl, rfl, rfl, rfl⟩, fun h => ?_, fun h => ?_, ?_, ?_⟩⟩
  · exact holdSim_vertical hms k1 k2 k3 i1 i2 i3 _ _ _
  · cases h
  · cases h
  all_goals
    have e1 : heldError (holdSim p ms zref (r / 2) (√(shippedCraft.g / (4 * shippedCraft.kf)))).ctl.pos = 0 := rfl
    have e2 : heldError (holdSim p ms zref (r / 2) (√(shippedCraft.g / (4 * shippedCraft.kf)))).ctl.vel = 0 := rfl
    simp only [adrift, e1, e2]
    simp [holdSim, builtFrom, abs_of_pos (half_pos hr), hr]

end Verif.Props
