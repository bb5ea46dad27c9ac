import Verif.Props.TrackCycle
import Verif.Lemmas.Stability

/-!
# Trajectory mode attracts nearby flights (C142)
-/

namespace Verif.Props

open Verif Flt Spec Stability Filter Topology

/-- The vehicle is within `b` of hovering, with heading `psi` and rotor speed `w`, at a point `a` that moves with velocity
`u`. -/
structure NearFlight (s : State ℝ 4) (psi : ℝ) (a u : Vec 3 ℝ) (w b : ℝ) : Prop where
  pos : ∀ i, |s.pos i - a i| ≤ b
  vel : ∀ i, |s.vel i - u i| ≤ b
  ori : ∃ q, IsTurned psi q s.ori ∧ |q.w - 1| ≤ b ∧ |q.x| ≤ b ∧ |q.y| ≤ b ∧ |q.z| ≤ b
  angVel : ∀ i, |s.angVel i| ≤ b
  motVel : ∀ j, |s.motVel j - w| ≤ b

/-- The trimmed flight is within the limits of the controllers and the rotors. -/
structure Loop.FollowRoom (l : Loop) (T : Fin 3 → PidTuning) (ms : Fin 4 → Motor ℝ) (cT cR : Pid ℝ 3) (c w : ℝ) : Prop where
  traj : Unwound cT T ![0, 0, c]
  trajOut : Unbounded cT ![0, 0, (T 2).ki * c]
  rate : Unwound cR l.R 0
  rateOut : Unbounded cR 0
  speed : ∀ j, (ms j).minSpeed < w ∧ w < (ms j).maxSpeed

section
variable {s : Sim ℝ 4} {p : ModelParams ℝ} {ms : Fin 4 → Motor ℝ} {l : Loop} {T : Fin 3 → PidTuning} {cT cR : Pid ℝ 3}
  {x : HV → ℝ} {a u : Vec 3 ℝ} {c w : ℝ}

/-- No limit is reached near the trimmed flight. -/
lemma Loop.FollowRoom.near (hr : Loop.FollowRoom l T ms cT cR c w) (hk : (T 2).kd ≠ 0) (h : (l.follow T).Trim (0, c) w) :
    ∃ r > 0, ∀ x e, ‖x - (l.follow T).rest (0, c) w‖ < r → ‖e‖ < r → Loop.FollowInside l T ms cT cR e x := by
  set f := l.follow T with hf
  set z := f.rest (0, c) w with hz
  have r0 : ∀ i, z (.iP i) = (![0, 0, c] : Vec 3 ℝ) i := fun i => by fin_cases i <;> rfl
  have e1 : ∀ᶠ x in 𝓝 z, Unwound cT T fun i => x (.iP i) :=
    hr.traj.near r0 fun i => (Loop.co f (0, c) w (.iP i)).continuousAt
  have e2 : ∀ᶠ x in 𝓝 z, Unwound cT T fun i => f.map x (.iP i) :=
    hr.traj.near (fun i => (Loop.deriv h (.iP i)).1.trans (r0 i)) fun i => (Loop.deriv h (.iP i)).continuousAt
  have ha : f.acc z = ![0, 0, (T 2).ki * c] := by
    ext i
    refine (Loop.d_acc h i).1.trans ?_
    fin_cases i
    · rfl
    · rfl
    · show (innerOf (T 2)).ki * 0 + (innerOf (T 2)).kp * ((outerOf (T 2)).ki * c) = (T 2).ki * c
      simp only [innerOf, outerOf]
      field_simp
      ring
  have e6 : ∀ᶠ y : (HV → ℝ) × Vec 3 ℝ in 𝓝 (z, 0), Unbounded cT fun i => f.acc y.1 i - y.2 i := by
    have hca : ∀ i, ContinuousAt (fun y : (HV → ℝ) × Vec 3 ℝ => f.acc y.1 i - y.2 i) (z, 0) := fun i => by
      refine ContinuousAt.sub ?_ (by fun_prop)
      exact ContinuousAt.comp (f := Prod.fst) (x := (z, (0 : Vec 3 ℝ))) (Loop.d_acc h i).continuousAt continuousAt_fst
    by_cases hs : cT.satFlag = true
    · have : ∀ᶠ y : (HV → ℝ) × Vec 3 ℝ in 𝓝 (z, 0), ∀ i, cT.lower i < f.acc y.1 i - y.2 i ∧
          f.acc y.1 i - y.2 i < cT.upper i := by
        rw [eventually_all]
        intro i
        have hb := hr.trajOut hs i
        rw [← ha] at hb
        exact ((hca i).eventually (lt_mem_nhds (by simpa using hb.1))).and
          ((hca i).eventually (gt_mem_nhds (by simpa using hb.2)))
      exact this.mono fun y hy _ => hy
    · exact .of_forall fun y hy => absurd hy hs
  have e7 : ∀ᶠ x in 𝓝 z, Unwound cR l.R fun i => x (.iR i) :=
    hr.rate.near (fun _ => rfl) fun i => (Loop.co f (0, c) w (.iR i)).continuousAt
  have e8 : ∀ᶠ x in 𝓝 z, Unwound cR l.R fun i => f.map x (.iR i) :=
    hr.rate.near (fun i => (Loop.deriv h (.iR i)).1) fun i => (Loop.deriv h (.iR i)).continuousAt
  have e9 : ∀ᶠ x in 𝓝 z, Unbounded cR (f.spin x) :=
    hr.rateOut.near (fun i => (Loop.d_spin h i).1) fun i => (Loop.d_spin h i).continuousAt
  have e10 : ∀ᶠ x in 𝓝 z, 0 < f.proj x :=
    (Loop.d_proj h).continuousAt.eventually (lt_mem_nhds (by rw [(Loop.d_proj h).1]; exact h.gravity))
  have e11 : ∀ᶠ x in 𝓝 z, ∀ j, (ms j).minSpeed < f.cmd x j ∧ f.cmd x j < (ms j).maxSpeed := by
    rw [eventually_all]
    intro j
    have hv := (Loop.d_cmd h j).1
    exact ((Loop.d_cmd h j).continuousAt.eventually (lt_mem_nhds (by rw [hv]; exact (hr.speed j).1))).and
      ((Loop.d_cmd h j).continuousAt.eventually (gt_mem_nhds (by rw [hv]; exact (hr.speed j).2)))
  have e12 : ∀ᶠ x in 𝓝 z, ∀ j, (ms j).minSpeed < f.map x (.mot j) ∧ f.map x (.mot j) < (ms j).maxSpeed := by
    rw [eventually_all]
    intro j
    have hv : f.map z (.mot j) = w := (Loop.deriv h (.mot j)).1
    exact ((Loop.deriv h (.mot j)).continuousAt.eventually (lt_mem_nhds (lt_of_lt_of_eq (hr.speed j).1 hv.symm))).and
      ((Loop.deriv h (.mot j)).continuousAt.eventually (gt_mem_nhds (lt_of_eq_of_lt hv (hr.speed j).2)))
  have := ((e1.and e2).and (e7.and e8)).and ((e9.and e10).and (e11.and e12))
  rw [Metric.eventually_nhds_iff] at this e6
  obtain ⟨r, hr, H⟩ := this
  obtain ⟨r', hr', H'⟩ := e6
  refine ⟨min r r', lt_min hr hr', fun x e hx he => ?_⟩
  obtain ⟨⟨⟨h1, h2⟩, h7, h8⟩, ⟨h9, h10⟩, h11, h12⟩ :=
    H (show dist x z < r by rw [dist_eq_norm]; exact hx.trans_le (min_le_left _ _))
  have h6 := H' (y := (x, e)) (by
    rw [Prod.dist_eq, max_lt_iff, dist_eq_norm, dist_eq_norm, sub_zero]
    exact ⟨hx.trans_le (min_le_right _ _), he.trans_le (min_le_right _ _)⟩)
  exact ⟨h1, h2, h6, h7, h8, h9, h10, h11, h12⟩

end

section
variable [Noise ℝ]

/-- **C142.** If the roots of the characteristic functions are inside the unit circle, every flight in trajectory mode that
starts near the requested one converges to it at a geometric rate: along any uniformly moving reference, sent before every
control update, in air without drag, and at a fixed reference, sent once, with any drag. -/
theorem C142_attracts (p : ModelParams ℝ) (ms : Fin 4 → Motor ℝ) (l : Loop) (T : Fin 3 → PidTuning) (cT cR : Pid ℝ 3)
    (c w : ℝ) (hc : Loop.Is l p ms) (hT : Tuned cT T) (hR : Tuned cR l.R) (ht : l.FollowTrim T c w)
    (hs : l.FollowStable T w) (hr : Loop.FollowRoom l T ms cT cR c w) (h1 : l.dt ≤ 1 / 100) :
    ∃ r > 0, ∃ C ≥ 0, ∃ q, 0 ≤ q ∧ q < 1 ∧ ∀ s x a u, Follows s p ms l T cT cR x a u →
      ‖x - (l.follow T).rest (0, c) w‖ < r → ∀ n,
      (l.drag = 0 ∨ u = 0 → ∃ t y, Sim.Runs s (followCalls l.dt u n a) t ∧
        Follows t p ms l T cT cR y (a + (n * l.dt) • u) u ∧
        ‖y - (l.follow T).rest (0, c) w‖ ≤ C * q ^ n * ‖x - (l.follow T).rest (0, c) w‖) ∧
      (s.refPos = a → s.refVel = u → s.refAcc = 0 → u = 0 → ∃ t y, Sim.Runs s (cycles l.dt (List.replicate n l.dt)) t ∧
        Follows t p ms l T cT cR y a u ∧
        ‖y - (l.follow T).rest (0, c) w‖ ≤ C * q ^ n * ‖x - (l.follow T).rest (0, c) w‖) := by
  have htr := ht.trim (hs.derivative 2)
  obtain ⟨L, hL, hpow⟩ := Loop.linearised htr hs.stable
  obtain ⟨r, hr0, C, hC, q, q0, q1, H⟩ := attracts hL (Loop.fixed htr) hpow
  obtain ⟨r', hr', H'⟩ := hr.near (hs.derivative 2) htr
  refine ⟨min r (r' / (C + 1)), lt_min hr0 (by positivity), C, hC, q, q0, q1, fun s x a u hx hsr n => ?_⟩
  have hs1 := hsr.trans_le (min_le_left _ _)
  have hs2 := hsr.trans_le (min_le_right _ _)
  have hin : ∀ j < n, Loop.FollowInside l T ms cT cR 0 ((l.follow T).map^[j] x) := fun j _ => by
    refine H' _ _ (lt_of_le_of_lt (H _ hs1 j) ?_) (by simpa using hr')
    rw [lt_div_iff₀ (by positivity)] at hs2
    have hq : q ^ j ≤ 1 := pow_le_one₀ q0 q1.le
    have hn := norm_nonneg (x - (l.follow T).rest (0, c) w)
    have : C * q ^ j ≤ C := mul_le_of_le_one_right hC hq
    nlinarith
  refine ⟨fun hdr => ?_, fun r1 r2 r3 hu => ?_⟩
  · obtain ⟨t, t1, t2⟩ := hx.flight hs.derivative hc hT hR ht.inertia ht.dt h1 hdr n hin
    exact ⟨t, _, t1, t2, H _ hs1 _⟩
  · subst hu
    obtain ⟨t, t1, t2⟩ := hx.stay hs.derivative hc hT hR ht.inertia ht.dt h1 r1 r2 r3 n hin
    exact ⟨t, _, t1, t2, H _ hs1 _⟩

end

section
variable {s : Sim ℝ 4} {p : ModelParams ℝ} {ms : Fin 4 → Motor ℝ} {l : Loop} {T : Fin 3 → PidTuning} {cT cR : Pid ℝ 3}
  {x : HV → ℝ} {a u : Vec 3 ℝ} {c w : ℝ}

lemma Follows.near (h : Follows s p ms l T cT cR x a u) :
    NearFlight s.dyn.state l.psi a u w ‖x - (l.follow T).rest (0, c) w‖ := by
  have key : ∀ k, |x k - (l.follow T).rest (0, c) w k| ≤ ‖x - (l.follow T).rest (0, c) w‖ := fun k =>
    norm_le_pi_norm (x - (l.follow T).rest (0, c) w) k
  have hm := h.moves
  refine ⟨fun i => ?_, fun i => ?_, ⟨_, hm.ori, ?_, ?_, ?_, ?_⟩, fun i => ?_, fun j => ?_⟩
  · rw [hm.pos]; simpa [Loop.rest, Loop.follow] using key (.pos i)
  · rw [hm.vel]; simpa [Loop.rest] using key (.vel i)
  · simpa [Loop.rest, Loop.quat] using key (.ori 0)
  · simpa [Loop.rest, Loop.quat] using key (.ori 1)
  · simpa [Loop.rest, Loop.quat] using key (.ori 2)
  · simpa [Loop.rest, Loop.quat] using key (.ori 3)
  · rw [hm.angVel]; simpa [Loop.rest] using key (.om i)
  · rw [hm.motVel]; exact key (.mot j)

namespace HV

/-- Motion of the vehicle relative to a moving point. -/
noncomputable def relative (s : State ℝ 4) (a u : Vec 3 ℝ) : State ℝ 4 :=
  { s with pos := fun i => s.pos i - a i, vel := fun i => s.vel i - u i }

/-- Memory of the trajectory controller. -/
noncomputable def withT (b : Pid ℝ 3) (T : Fin 3 → PidTuning) (y : HV → ℝ) : HV → ℝ
  | .iP i => if (T i).ki = 0 then 0 else if b.firstRun then 0 else b.integral i
  | k => y k

/-- The numbers that describe a vehicle in trajectory mode. -/
noncomputable def describeT (s : Sim ℝ 4) (l : Loop) (T : Fin 3 → PidTuning) (q : Quat ℝ) (a u : Vec 3 ℝ) : HV → ℝ :=
  withR s.ctl.indi.pid (l.follow T) (withV Pid.init (l.follow T) (withT s.ctl.traj T
    (withP Pid.init (l.follow T) (motion (relative s.dyn.state a u) q))))

end HV

lemma InFollow.follows (h : InFollow s p ms l cT cR) {q : Quat ℝ} (ho : IsTurned l.psi q s.dyn.state.ori)
    (hq : IsUnitQ q) : Follows s p ms l T cT cR (HV.describeT s l T q a u) a u :=
  { h with
    moves := ⟨fun i => by simp [HV.describeT, HV.withR, HV.withV, HV.withT, HV.withP, HV.motion, HV.relative],
      fun i => by simp [HV.describeT, HV.withR, HV.withV, HV.withT, HV.withP, HV.motion, HV.relative], ho, hq,
      fun _ => rfl, fun _ => rfl⟩
    trajMemory := fun _ => rfl
    rateMemory := ⟨fun _ => rfl, fun _ => rfl, fun _ => rfl⟩ }

/-- **C142, coverage.** Every vehicle in trajectory mode with a unit orientation is described by some numbers relative to any
moving point. -/
theorem C142_described (h : InFollow s p ms l cT cR) (hu : IsUnitQ s.dyn.state.ori) (T : Fin 3 → PidTuning)
    (a u : Vec 3 ℝ) : ∃ x, Follows s p ms l T cT cR x a u := by
  obtain ⟨q, hq⟩ := turned_exists l.psi s.dyn.state.ori
  exact ⟨_, h.follows hq (turned_back hq hu)⟩

end

section
variable [Noise ℝ]

/-- **C142, freshly started controllers.** A vehicle whose thrust at hover is what its controllers demand without accumulated
error settles on the requested motion: a flight that starts within `b` of it with controllers which have not run yet is within
`C q^n b` of it after `n` cycles. -/
theorem C142_settles (p : ModelParams ℝ) (ms : Fin 4 → Motor ℝ) (l : Loop) (T : Fin 3 → PidTuning) (cT cR : Pid ℝ 3)
    (w : ℝ) (hc : Loop.Is l p ms) (hT : Tuned cT T) (hR : Tuned cR l.R) (ht : l.FollowTrim T 0 w)
    (hs : l.FollowStable T w) (hr : Loop.FollowRoom l T ms cT cR 0 w) (h1 : l.dt ≤ 1 / 100) :
    ∃ r > 0, ∃ C ≥ 0, ∃ q, 0 ≤ q ∧ q < 1 ∧ ∀ s b a u, InFollow s p ms l cT cR → IsUnitQ s.dyn.state.ori →
      s.ctl.traj.firstRun = true → s.ctl.indi.pid.firstRun = true → NearFlight s.dyn.state l.psi a u w b → b < r → ∀ n,
      (l.drag = 0 ∨ u = 0 → ∃ t, Sim.Runs s (followCalls l.dt u n a) t ∧ InFollow t p ms l cT cR ∧
        IsUnitQ t.dyn.state.ori ∧ NearFlight t.dyn.state l.psi (a + (n * l.dt) • u) u w (C * q ^ n * b)) ∧
      (s.refPos = a → s.refVel = u → s.refAcc = 0 → u = 0 → ∃ t, Sim.Runs s (cycles l.dt (List.replicate n l.dt)) t ∧
        InFollow t p ms l cT cR ∧ IsUnitQ t.dyn.state.ori ∧ NearFlight t.dyn.state l.psi a u w (C * q ^ n * b)) := by
  obtain ⟨r, hr0, C, hC, q, q0, q1, H⟩ := C142_attracts p ms l T cT cR 0 w hc hT hR ht hs hr h1
  have htr : (l.follow T).Trim 0 w := ht.trim (hs.derivative 2)
  obtain ⟨r', hr', K, hK, HK⟩ := HV.start_near htr
  refine ⟨min r' (r / K), by positivity, C * K, by positivity, q, q0, q1,
    fun s b a u hh hu f1 f3 hn hb n => ?_⟩
  obtain ⟨o, ho, hq⟩ := hn.ori
  have hb0 : 0 ≤ b := (abs_nonneg _).trans (hn.vel 0)
  rw [lt_min_iff, lt_div_iff₀ hK] at hb
  have m1 : ‖HV.motion (HV.relative s.dyn.state a u) o - (l.follow T).rest 0 w‖ ≤ b := by
    refine HV.motion_near hb0 ⟨fun i => ?_, fun i => hn.vel i, ⟨o, ho, hq⟩, hn.angVel, hn.motVel⟩ hq
    simpa [HV.relative, Loop.follow] using hn.pos i
  have hd : HV.describeT s l T o a u = HV.withR s.ctl.indi.pid (l.follow T) (HV.withV Pid.init (l.follow T)
      (HV.withP Pid.init (l.follow T) (HV.motion (HV.relative s.dyn.state a u) o))) := by
    have : ∀ y, HV.withT s.ctl.traj T (HV.withP Pid.init (l.follow T) y) = HV.withP Pid.init (l.follow T) y := fun y => by
      funext k
      cases k <;> simp [HV.withT, HV.withP, f1, Pid.init]
    rw [HV.describeT, this]
  have m2 : ‖HV.describeT s l T o a u - (l.follow T).rest 0 w‖ ≤ K * b := by
    rw [hd]
    exact (HK _ Pid.init Pid.init s.ctl.indi.pid rfl rfl f3 (m1.trans_lt hb.1)).trans (mul_le_mul_of_nonneg_left m1 hK.le)
  obtain ⟨H1, H2⟩ := H s _ a u (hh.follows ho (turned_back ho hu)) (m2.trans_lt (by linarith [hb.2])) n
  have fin : ∀ {t y a'}, Follows t p ms l T cT cR y a' u →
      ‖y - (l.follow T).rest (0, 0) w‖ ≤ C * q ^ n * ‖HV.describeT s l T o a u - (l.follow T).rest (0, 0) w‖ →
      NearFlight t.dyn.state l.psi a' u w (C * K * q ^ n * b) := by
    intro t y a' t2 t3
    have hle : ‖y - (l.follow T).rest (0, 0) w‖ ≤ C * K * q ^ n * b :=
      t3.trans ((mul_le_mul_of_nonneg_left m2 (by positivity)).trans_eq (by ring))
    obtain ⟨g1, g2, ⟨o', g3, g4, g5, g6, g7⟩, g8, g9⟩ := t2.near (c := 0) (w := w)
    exact ⟨fun i => (g1 i).trans hle, fun i => (g2 i).trans hle,
      ⟨o', g3, g4.trans hle, g5.trans hle, g6.trans hle, g7.trans hle⟩, fun i => (g8 i).trans hle, fun j => (g9 j).trans hle⟩
  refine ⟨fun hdr => ?_, fun r1 r2 r3 hu => ?_⟩
  · obtain ⟨t, y, t1, t2, t3⟩ := H1 hdr
    exact ⟨t, t1, t2.toInFollow, turned_unit t2.moves.ori t2.moves.unit, fin t2 t3⟩
  · obtain ⟨t, y, t1, t2, t3⟩ := H2 r1 r2 r3 hu
    exact ⟨t, t1, t2.toInFollow, turned_unit t2.moves.ori t2.moves.unit, fin t2 t3⟩

end

end Verif.Props
