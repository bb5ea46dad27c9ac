import Verif.Props.TrackHold
import Verif.Props.Disturbed
import Mathlib.Analysis.Calculus.Deriv.Prod
import Mathlib.Analysis.Calculus.MeanValue

/-!
# Trajectory mode follows gentle trajectories (C144)
-/

namespace Verif.Props

open Verif Flt Spec Stability Filter Topology

/-- Calls of a program that sends the references `a`, `u`, `e` (position, velocity and acceleration), one before every control
update, from the `k`-th on. -/
noncomputable def trackCalls (dt : ℝ) (a u e : ℕ → Vec 3 ℝ) : ℕ → ℕ → List (SimOp ℝ 4)
  | _, 0 => []
  | k, n + 1 => .setRefTrajectory (a k) (u k) (e k) :: .updateController dt :: .updateDynamics dt ::
      trackCalls dt a u e (k + 1) n

/-- The velocity which the trajectory controller aims at. -/
noncomputable def aimed (T : Fin 3 → PidTuning) (u e : ℕ → Vec 3 ℝ) (k : ℕ) : Vec 3 ℝ := fun i => u k i + e k i / (T i).kd

/-- The references change slowly: up to `δ`, they move with the velocity aimed at, this does not accelerate, no acceleration is
requested, and the drag at this velocity is negligible. -/
structure Gentle (l : Loop) (T : Fin 3 → PidTuning) (a u e : ℕ → Vec 3 ℝ) (δ : ℝ) : Prop where
  moves : ∀ k i, |a (k + 1) i - a k i - l.dt * aimed T u e k i| ≤ l.dt * δ
  steady : ∀ k i, |aimed T u e (k + 1) i - aimed T u e k i| ≤ l.dt * δ
  acc : ∀ k i, |e k i| ≤ δ
  air : ∀ k i, |l.drag| * (|aimed T u e k i| * (|aimed T u e k i| + 1)) ≤ δ

section
variable {l : Loop} {x : HV → ℝ} {u : Vec 3 ℝ}

lemma wind_bound {δ : ℝ} (hx : ∀ i, |x (.vel i)| ≤ 1 / 2) (hu : ∀ i, |l.drag| * (|u i| * (|u i| + 1)) ≤ δ) (i : Fin 3) :
    |l.wind x u i| ≤ δ := by
  refine le_trans ?_ (hu i)
  have e : l.wind x u i = l.drag * (x (.vel i) * |x (.vel i)| - (u i + x (.vel i)) * |u i + x (.vel i)|) := by
    simp only [Loop.wind]; ring
  rw [e, abs_mul]
  refine mul_le_mul_of_nonneg_left ?_ (abs_nonneg _)
  have h1 := hx i
  set v := x (.vel i)
  set y := u i
  have e2 : v * |v| - (y + v) * |y + v| = v * (|v| - |y + v|) - y * |y + v| := by ring
  rw [e2]
  have a1 : |(|v| - |y + v|)| ≤ |y| := by
    have := abs_abs_sub_abs_le_abs_sub v (y + v)
    rwa [show v - (y + v) = -y by ring, abs_neg] at this
  have a2 : |y + v| ≤ |y| + |v| := abs_add_le _ _
  have a3 : |v * (|v| - |y + v|)| ≤ 1 / 2 * |y| := by
    rw [abs_mul]
    exact mul_le_mul h1 a1 (abs_nonneg _) (by norm_num)
  have a4 : |(y * |y + v|)| ≤ |y| * (|y| + 1 / 2) := by
    rw [abs_mul, abs_abs]
    exact mul_le_mul_of_nonneg_left (by linarith) (abs_nonneg _)
  calc _ ≤ |v * (|v| - |y + v|)| + |(y * |y + v|)| := abs_sub _ _
    _ ≤ 1 / 2 * |y| + |y| * (|y| + 1 / 2) := add_le_add a3 a4
    _ = |y| * (|y| + 1) := by ring

lemma shift_norm {a u : Vec 3 ℝ} {δ : ℝ} (hδ : 0 ≤ δ) (ha : ∀ i, |a i| ≤ δ) (hu : ∀ i, |u i| ≤ δ) :
    ‖Loop.shift a u‖ ≤ δ := by
  rw [pi_norm_le_iff_of_nonneg hδ]
  intro k
  rw [Real.norm_eq_abs]
  cases k with
  | pos i => exact ha i
  | vel i => exact hu i
  | _ => simpa [Loop.shift] using hδ

end

section

/-- **C144.** Under the conditions of C142, trajectory mode follows every gentle trajectory, with the drag of the air and the
process noise: as long as the references are gentle and the samples drawn give forces up to `δ`, the flight stays within
`C (q^n b + δ)` of them after `n` cycles. -/
theorem C144_follows (ms : Fin 4 → Motor ℝ) (l : Loop) (T : Fin 3 → PidTuning) (cT cR : Pid ℝ 3)
    (c w : ℝ) (hT : Tuned cT T) (hR : Tuned cR l.R) (ht : l.FollowTrim T c w)
    (hs : l.FollowStable T w) (hr : Loop.FollowRoom l T ms cT cR c w) (h1 : l.dt ≤ 1 / 100) :
    ∃ r > 0, ∃ C ≥ 0, ∃ q, 0 ≤ q ∧ q < 1 ∧ ∀ [Noise ℝ] p s x a u e δ n, Loop.Craft l p ms →
      Follows s p ms l T cT cR x (a 0) (aimed T u e 0) →
      ‖x - (l.follow T).rest (0, c) w‖ < r → 0 ≤ δ → δ < r → Gentle l T a u e δ → Calm s.dyn.model p.forceNoise l.dt δ n →
      ∃ t y, Sim.Runs s (trackCalls l.dt a u e 0 n) t ∧ Follows t p ms l T cT cR y (a n) (aimed T u e n) ∧
        ‖y - (l.follow T).rest (0, c) w‖ ≤ C * (q ^ n * ‖x - (l.follow T).rest (0, c) w‖ + δ) := by
  have htr := ht.trim (hs.derivative 2)
  obtain ⟨L, hL, hpow⟩ := Loop.linearised htr hs.stable
  obtain ⟨V, M, hM, q, q0, q1, r, hr0, v1, v2, v3⟩ := resists hL (Loop.fixed htr) hpow
  obtain ⟨r', hr', H'⟩ := hr.near (hs.derivative 2) htr
  set z := (l.follow T).rest (0, c) w with hz
  set κ := pushGain l * 2 + l.dt with hκ
  have k0 : 0 ≤ κ := by
    have := pushGain_nonneg (l := l) ht.dt
    have := ht.dt
    positivity
  have q2 : 0 < 1 - q := by linarith
  set ρ := min (min r r') (1 / 2) with hρ
  have hρ0 : 0 < ρ := lt_min (lt_min hr0 hr') (by norm_num)
  have ρ1 : ρ ≤ r := (min_le_left _ _).trans (min_le_left _ _)
  have ρ2 : ρ ≤ r' := (min_le_left _ _).trans (min_le_right _ _)
  have ρ3 : ρ ≤ 1 / 2 := min_le_right _ _
  set C := M + M * κ / (1 - q) with hC
  have hC0 : 0 < C := by positivity
  have key : ∀ [Noise ℝ] p, Loop.Craft l p ms → ∀ n k s x B a u e δ, 0 ≤ δ → δ < ρ → 0 ≤ B → Follows s p ms l T cT cR x (a k) (aimed T u e k) →
      Gentle l T a u e δ → Calm s.dyn.model p.forceNoise l.dt δ n →
      V (x - z) ≤ B + M * κ * δ / (1 - q) → B + M * κ * δ / (1 - q) < ρ →
      ∃ t y, Sim.Runs s (trackCalls l.dt a u e k n) t ∧ Follows t p ms l T cT cR y (a (k + n)) (aimed T u e (k + n)) ∧
        V (y - z) ≤ q ^ n * B + M * κ * δ / (1 - q) := by
    intro _ p hc n
    induction n with
    | zero => exact fun k s x B a u e δ _ _ _ h _ _ hv _ => ⟨s, x, .nil s, h, by simpa using hv⟩
    | succ n ih =>
      intro k s x B a u e δ hδ hδr hB h hg hcalm hv hb
      have hx : ‖x - z‖ < ρ := (v1 _).trans_lt (hv.trans_lt hb)
      have he : ‖e k‖ < r' := by
        refine lt_of_le_of_lt ?_ (hδr.trans_le ρ2)
        rw [pi_norm_le_iff_of_nonneg hδ]
        exact fun i => hg.acc k i
      obtain ⟨t, t1, t2, t3, -⟩ := (h.refer (a k) (u k) (e k)).pushed hs.derivative hc hT hR ht.inertia ht.dt h1
        (H' _ _ (hx.trans_le ρ2) he) rfl fun _ => rfl
      obtain ⟨n1, n2⟩ := hcalm.next ht.dt t2
      have hvel : ∀ i, |x (.vel i)| ≤ 1 / 2 := fun i => by
        have := (norm_le_pi_norm (x - z) (.vel i)).trans (hx.le.trans ρ3)
        rwa [Real.norm_eq_abs, Pi.sub_apply, show z (.vel i) = 0 from rfl, sub_zero] at this
      have hw : ∀ i, |l.wind x (aimed T u e k) i| ≤ δ := wind_bound hvel (hg.air k)
      set σ := t.dyn.model.stochForce with hσ
      set d := l.push σ (σ + l.wind x (aimed T u e k)) + Loop.shift (a k + l.dt • aimed T u e k - a (k + 1))
        (aimed T u e k - aimed T u e (k + 1)) with hd
      have hp : ‖d‖ ≤ κ * δ := by
        have p1 : ‖l.push σ (σ + l.wind x (aimed T u e k))‖ ≤ pushGain l * (2 * δ) := by
          refine Loop.push_norm ht.dt (by linarith) (fun i => (n1 i).trans (by linarith)) fun i => ?_
          rw [Pi.add_apply]
          exact (abs_add_le _ _).trans (by linarith [n1 i, hw i])
        have p2 : ‖Loop.shift (a k + l.dt • aimed T u e k - a (k + 1)) (aimed T u e k - aimed T u e (k + 1))‖ ≤
            l.dt * δ := by
          refine shift_norm (mul_nonneg ht.dt.le hδ) (fun i => ?_) fun i => ?_
          · have := hg.moves k i
            rw [← abs_neg] at this
            convert this using 2
            simp only [Pi.sub_apply, Pi.add_apply, Pi.smul_apply, smul_eq_mul]
            ring
          · have := hg.steady k i
            rwa [← abs_neg, neg_sub] at this
        calc ‖d‖ ≤ _ := norm_add_le _ _
          _ ≤ pushGain l * (2 * δ) + l.dt * δ := add_le_add p1 p2
          _ = κ * δ := by rw [hκ]; ring
      have hstep := v3 x d (hx.trans_le ρ1)
      have hle : V ((l.follow T).map x + d - z) ≤ q * B + M * κ * δ / (1 - q) := by
        have a1 : q * V (x - z) ≤ q * (B + M * κ * δ / (1 - q)) := mul_le_mul_of_nonneg_left hv q0
        have a2 : M * ‖d‖ ≤ M * (κ * δ) := mul_le_mul_of_nonneg_left hp hM.le
        have a3 : q * (B + M * κ * δ / (1 - q)) + M * (κ * δ) = q * B + M * κ * δ / (1 - q) := by
          field_simp
          ring
        linarith
      obtain ⟨t', y, u1, u2, u3⟩ := ih (k + 1) t _ (q * B) a u e δ hδ hδr (by positivity) (t3 (a (k + 1)) _) hg n2 hle
        (by nlinarith)
      refine ⟨t', y, .ok rfl (t1 _ _ u1), ?_, u3.trans_eq (by rw [pow_succ]; ring)⟩
      rwa [show k + (n + 1) = k + 1 + n by omega]
  refine ⟨min ρ (ρ / (2 * C)), by positivity, C, hC0.le, q, q0, q1, fun p s x a u e δ n hc hx hxr hδ hδr hg hcalm => ?_⟩
  rw [lt_min_iff] at hxr hδr
  have hn := norm_nonneg (x - z)
  have b2 : M * κ * δ / (1 - q) ≤ C * δ := by
    rw [mul_div_right_comm]
    exact mul_le_mul_of_nonneg_right (le_add_of_nonneg_left hM.le) hδ
  have hsum : M * ‖x - z‖ + M * κ * δ / (1 - q) < ρ := by
    have c1 := (lt_div_iff₀ (by positivity)).1 hxr.2
    have c2 := (lt_div_iff₀ (by positivity)).1 hδr.2
    have b1 : M * ‖x - z‖ ≤ C * ‖x - z‖ := mul_le_mul_of_nonneg_right (le_add_of_nonneg_right (by positivity)) hn
    linarith
  have hD : 0 ≤ M * κ * δ / (1 - q) := by positivity
  obtain ⟨t, y, t1, t2, t3⟩ := key p hc n 0 s x (M * ‖x - z‖) a u e δ hδ hδr.1 (by positivity) hx hg hcalm
    ((v2 _).trans (le_add_of_nonneg_right hD)) hsum
  rw [zero_add] at t2
  refine ⟨t, y, t1, t2, (v1 _).trans (t3.trans ?_)⟩
  have b1 : q ^ n * (M * ‖x - z‖) ≤ C * (q ^ n * ‖x - z‖) := by
    rw [show q ^ n * (M * ‖x - z‖) = M * (q ^ n * ‖x - z‖) by ring]
    exact mul_le_mul_of_nonneg_right (le_add_of_nonneg_right (by positivity)) (by positivity)
  exact (add_le_add b1 b2).trans_eq (mul_add _ _ _).symm

/-- **C144, freshly started controllers.** -/
theorem C144_settles (ms : Fin 4 → Motor ℝ) (l : Loop) (T : Fin 3 → PidTuning) (cT cR : Pid ℝ 3)
    (w : ℝ) (hT : Tuned cT T) (hR : Tuned cR l.R) (ht : l.FollowTrim T 0 w)
    (hs : l.FollowStable T w) (hr : Loop.FollowRoom l T ms cT cR 0 w) (h1 : l.dt ≤ 1 / 100) :
    ∃ r > 0, ∃ C ≥ 0, ∃ q, 0 ≤ q ∧ q < 1 ∧ ∀ [Noise ℝ] p s b a u e δ n, Loop.Craft l p ms →
      InFollow s p ms l cT cR → IsUnitQ s.dyn.state.ori →
      s.ctl.traj.firstRun = true → s.ctl.indi.pid.firstRun = true →
      NearFlight s.dyn.state l.psi (a 0) (aimed T u e 0) w b → b < r → 0 ≤ δ → δ < r → Gentle l T a u e δ →
      Calm s.dyn.model p.forceNoise l.dt δ n →
      ∃ t, Sim.Runs s (trackCalls l.dt a u e 0 n) t ∧ InFollow t p ms l cT cR ∧
        IsUnitQ t.dyn.state.ori ∧ NearFlight t.dyn.state l.psi (a n) (aimed T u e n) w (C * (q ^ n * b + δ)) := by
  obtain ⟨r, hr0, C, hC, q, q0, q1, H⟩ := C144_follows ms l T cT cR 0 w hT hR ht hs hr h1
  have htr : (l.follow T).Trim 0 w := ht.trim (hs.derivative 2)
  obtain ⟨r', hr', K, hK, HK⟩ := HV.start_near htr
  refine ⟨min r (min r' (r / K)), by positivity, C * (K + 1), by positivity, q, q0, q1,
    fun p s b a u e δ n hc hh hu f1 f3 hn hb hδ hδr hg hcalm => ?_⟩
  obtain ⟨o, ho, hq⟩ := hn.ori
  have hb0 : 0 ≤ b := (abs_nonneg _).trans (hn.vel 0)
  rw [lt_min_iff, lt_min_iff, lt_div_iff₀ hK] at hb
  have m1 : ‖HV.motion (HV.relative s.dyn.state (a 0) (aimed T u e 0)) o - (l.follow T).rest 0 w‖ ≤ b := by
    refine HV.motion_near hb0 ⟨fun i => ?_, fun i => hn.vel i, ⟨o, ho, hq⟩, hn.angVel, hn.motVel⟩ hq
    simpa [HV.relative, Loop.follow] using hn.pos i
  have hd : HV.describeT s l T o (a 0) (aimed T u e 0) = HV.withR s.ctl.indi.pid (l.follow T) (HV.withV Pid.init (l.follow T)
      (HV.withP Pid.init (l.follow T) (HV.motion (HV.relative s.dyn.state (a 0) (aimed T u e 0)) o))) := by
    have : ∀ y, HV.withT s.ctl.traj T (HV.withP Pid.init (l.follow T) y) = HV.withP Pid.init (l.follow T) y := fun y => by
      funext k
      cases k <;> simp [HV.withT, HV.withP, f1, Pid.init]
    rw [HV.describeT, this]
  have m2 : ‖HV.describeT s l T o (a 0) (aimed T u e 0) - (l.follow T).rest 0 w‖ ≤ K * b := by
    rw [hd]
    exact (HK _ Pid.init Pid.init s.ctl.indi.pid rfl rfl f3 (m1.trans_lt hb.2.1)).trans (mul_le_mul_of_nonneg_left m1 hK.le)
  obtain ⟨t, y, t1, t2, t3⟩ := H p s _ a u e δ n hc (hh.follows ho (turned_back ho hu)) (m2.trans_lt (by linarith [hb.2.2])) hδ
    (hδr.trans_le (min_le_left _ _)) hg hcalm
  refine ⟨t, t1, t2.toInFollow, turned_unit t2.moves.ori t2.moves.unit, ?_⟩
  have hqn : 0 ≤ q ^ n := by positivity
  have hle : ‖y - (l.follow T).rest (0, 0) w‖ ≤ C * (K + 1) * (q ^ n * b + δ) := by
    refine t3.trans ?_
    rw [mul_assoc]
    refine mul_le_mul_of_nonneg_left ?_ hC
    have b1 : q ^ n * ‖HV.describeT s l T o (a 0) (aimed T u e 0) - (l.follow T).rest (0, 0) w‖ ≤ q ^ n * (K * b) :=
      mul_le_mul_of_nonneg_left m2 hqn
    have b2 : 0 ≤ q ^ n * b + K * δ := by positivity
    nlinarith
  obtain ⟨g1, g2, ⟨o', g3, g4, g5, g6, g7⟩, g8, g9⟩ := t2.near (c := 0) (w := w)
  exact ⟨fun i => (g1 i).trans hle, fun i => (g2 i).trans hle,
    ⟨o', g3, g4.trans hle, g5.trans hle, g6.trans hle, g7.trans hle⟩, fun i => (g8 i).trans hle, fun j => (g9 j).trans hle⟩

end

/-! ## Smooth paths -/

/-- A path with velocity `P1`, acceleration `P2` and jerk `P3`, at most `U`, `A` and `J` in every component. -/
structure Path (P P1 P2 P3 : ℝ → Vec 3 ℝ) (U A J : ℝ) : Prop where
  vel : ∀ t, HasDerivAt P (P1 t) t
  acc : ∀ t, HasDerivAt P1 (P2 t) t
  jerk : ∀ t, HasDerivAt P2 (P3 t) t
  velBound : ∀ t i, |P1 t i| ≤ U
  accBound : ∀ t i, |P2 t i| ≤ A
  jerkBound : ∀ t i, |P3 t i| ≤ J

section
variable {P P1 P2 P3 : ℝ → Vec 3 ℝ} {U A J : ℝ}

/-- Mean value. -/
lemma coordinate_change {f f' : ℝ → Vec 3 ℝ} {B : ℝ} (h : ∀ t, HasDerivAt f (f' t) t) (hb : ∀ t i, |f' t i| ≤ B) (i : Fin 3)
    (s t : ℝ) : |f t i - f s i| ≤ B * |t - s| := by
  have hi : ∀ x ∈ (Set.univ : Set ℝ), HasDerivWithinAt (fun x => f x i) (f' x i) Set.univ x := fun x _ =>
    ((hasDerivAt_pi.1 (h x)) i).hasDerivWithinAt
  exact convex_univ.norm_image_sub_le_of_norm_hasDerivWithin_le hi (fun x _ => hb x i) (Set.mem_univ s) (Set.mem_univ t)

/-- The distance from the tangent. -/
lemma tangent_distance (h : Path P P1 P2 P3 U A J) (hA : 0 ≤ A) {dt : ℝ} (h0 : 0 ≤ dt) (t : ℝ) (i : Fin 3) :
    |P (t + dt) i - P t i - dt * P1 t i| ≤ A * dt * dt := by
  have hi : ∀ x ∈ Set.Icc t (t + dt), HasDerivWithinAt (fun x => P x i - x * P1 t i) (P1 x i - P1 t i) (Set.Icc t (t + dt)) x :=
    fun x _ => by
      have := (((hasDerivAt_pi.1 (h.vel x)) i).sub ((hasDerivAt_id x).mul_const (P1 t i))).hasDerivWithinAt
        (s := Set.Icc t (t + dt))
      rwa [one_mul] at this
  have hb : ∀ x ∈ Set.Icc t (t + dt), ‖P1 x i - P1 t i‖ ≤ A * dt := fun x hx => by
    refine (coordinate_change h.acc h.accBound i t x).trans (mul_le_mul_of_nonneg_left ?_ hA)
    rw [abs_of_nonneg (by linarith [hx.1])]
    linarith [hx.2]
  have := (convex_Icc t (t + dt)).norm_image_sub_le_of_norm_hasDerivWithin_le hi hb
    (Set.left_mem_Icc.2 (by linarith)) (Set.right_mem_Icc.2 (by linarith))
  rw [Real.norm_eq_abs, Real.norm_eq_abs, add_sub_cancel_left, abs_of_nonneg h0] at this
  convert this using 2
  ring

/-- References sampled from a smooth path are gentle. -/
lemma Path.gentle (h : Path P P1 P2 P3 U A J) {l : Loop} {T : Fin 3 → PidTuning} {κ δ : ℝ} (h0 : 0 < l.dt)
    (h1 : l.dt ≤ 1 / 100) (hκ : 0 < κ) (hk : ∀ i, κ ≤ |(T i).kd|) (hδ : (1 + 1 / κ) * A + J / κ ≤ δ)
    (hair : |l.drag| * ((U + A / κ) * (U + A / κ + 1)) ≤ δ) :
    Gentle l T (fun k => P (k * l.dt)) (fun k => P1 (k * l.dt)) (fun k => P2 (k * l.dt)) δ := by
  have hA : 0 ≤ A := (abs_nonneg _).trans (h.accBound 0 0)
  have hJ : 0 ≤ J := (abs_nonneg _).trans (h.jerkBound 0 0)
  have hU : 0 ≤ U := (abs_nonneg _).trans (h.velBound 0 0)
  have hdiv : ∀ (x B : ℝ) i, 0 ≤ B → |x| ≤ B → |x / (T i).kd| ≤ B / κ := fun x B i hB hx => by
    rw [abs_div]
    exact div_le_div₀ hB hx hκ (hk i)
  have hAκ : 0 ≤ A / κ := by positivity
  have hJκ : 0 ≤ J / κ := by positivity
  have hδ' : A + A / κ + J / κ ≤ δ := by
    have : (1 + 1 / κ) * A = A + A / κ := by ring
    linarith
  have hstep : ∀ k : ℕ, ((k + 1 : ℕ) : ℝ) * l.dt = k * l.dt + l.dt := fun k => by push_cast; ring
  have haim : ∀ k i, |aimed T (fun k => P1 (k * l.dt)) (fun k => P2 (k * l.dt)) k i| ≤ U + A / κ := fun k i =>
    (abs_add_le _ _).trans (add_le_add (h.velBound _ _) (hdiv _ _ _ hA (h.accBound _ _)))
  refine ⟨fun k i => ?_, fun k i => ?_, fun k i => (h.accBound _ _).trans (by linarith), fun k i => ?_⟩
  · have b1 := tangent_distance h hA h0.le (k * l.dt) i
    have b2 := hdiv _ _ i hA (h.accBound (k * l.dt) i)
    have e : P ((k + 1 : ℕ) * l.dt) i - P (k * l.dt) i - l.dt * aimed T (fun k => P1 (k * l.dt)) (fun k => P2 (k * l.dt)) k i =
        (P (k * l.dt + l.dt) i - P (k * l.dt) i - l.dt * P1 (k * l.dt) i) - l.dt * (P2 (k * l.dt) i / (T i).kd) := by
      rw [hstep]; simp only [aimed]; ring
    rw [e]
    calc _ ≤ |P (k * l.dt + l.dt) i - P (k * l.dt) i - l.dt * P1 (k * l.dt) i| + |l.dt * (P2 (k * l.dt) i / (T i).kd)| :=
          abs_sub _ _
      _ ≤ A * l.dt * l.dt + l.dt * (A / κ) := by
          rw [abs_mul, abs_of_pos h0]
          exact add_le_add b1 (mul_le_mul_of_nonneg_left b2 h0.le)
      _ = l.dt * (A * l.dt + A / κ) := by ring
      _ ≤ l.dt * δ := mul_le_mul_of_nonneg_left (by nlinarith) h0.le
  · have b1 := coordinate_change h.acc h.accBound i (k * l.dt) (k * l.dt + l.dt)
    have b2 := coordinate_change h.jerk h.jerkBound i (k * l.dt) (k * l.dt + l.dt)
    rw [add_sub_cancel_left, abs_of_pos h0] at b1 b2
    have b3 := hdiv _ _ i (by positivity) b2
    have e : aimed T (fun k => P1 (k * l.dt)) (fun k => P2 (k * l.dt)) (k + 1) i -
        aimed T (fun k => P1 (k * l.dt)) (fun k => P2 (k * l.dt)) k i =
        (P1 (k * l.dt + l.dt) i - P1 (k * l.dt) i) + (P2 (k * l.dt + l.dt) i - P2 (k * l.dt) i) / (T i).kd := by
      simp only [aimed]; rw [hstep]; ring
    rw [e]
    calc _ ≤ A * l.dt + J * l.dt / κ := (abs_add_le _ _).trans (add_le_add b1 b3)
      _ = l.dt * (A + J / κ) := by ring
      _ ≤ l.dt * δ := mul_le_mul_of_nonneg_left (by linarith) h0.le
  · refine le_trans (mul_le_mul_of_nonneg_left ?_ (abs_nonneg _)) hair
    have := haim k i
    exact mul_le_mul this (by linarith) (by positivity) (by positivity)

end

section

/-- **C144, smooth paths.** A flight that starts within `b` of a slow path and is sent position, velocity and acceleration of the
path before every control update is within `C (q^n b + δ)` of the path after `n` cycles, where `δ` bounds the process noise and
measures the slowness. -/
theorem C144_path (ms : Fin 4 → Motor ℝ) (l : Loop) (T : Fin 3 → PidTuning) (cT cR : Pid ℝ 3)
    (w κ : ℝ) (hT : Tuned cT T) (hR : Tuned cR l.R) (ht : l.FollowTrim T 0 w)
    (hs : l.FollowStable T w) (hr : Loop.FollowRoom l T ms cT cR 0 w) (h1 : l.dt ≤ 1 / 100) (hκ : 0 < κ)
    (hk : ∀ i, κ ≤ |(T i).kd|) :
    ∃ r > 0, ∃ C ≥ 0, ∃ q, 0 ≤ q ∧ q < 1 ∧ ∀ [Noise ℝ] p s b P P1 P2 P3 U A J δ n,
      Loop.Craft l p ms → InFollow s p ms l cT cR → IsUnitQ s.dyn.state.ori →
      s.ctl.traj.firstRun = true → s.ctl.indi.pid.firstRun = true → Path P P1 P2 P3 U A J →
      NearFlight s.dyn.state l.psi (P 0) (P1 0) w b → b < r → δ < r → (1 + 1 / κ) * A + J / κ ≤ δ →
      |l.drag| * ((U + A / κ) * (U + A / κ + 1)) ≤ δ → Calm s.dyn.model p.forceNoise l.dt δ n →
      ∃ t, Sim.Runs s (trackCalls l.dt (fun k => P (k * l.dt)) (fun k => P1 (k * l.dt)) (fun k => P2 (k * l.dt)) 0 n) t ∧
        InFollow t p ms l cT cR ∧ IsUnitQ t.dyn.state.ori ∧
        NearFlight t.dyn.state l.psi (P (n * l.dt)) (P1 (n * l.dt)) w (C * (q ^ n * b + δ)) := by
  obtain ⟨r, hr0, C, hC, q, q0, q1, H⟩ := C144_settles ms l T cT cR w hT hR ht hs hr h1
  refine ⟨r / 2, by positivity, 2 * C + 1, by positivity, q, q0, q1,
    fun p s b P P1 P2 P3 U A J δ n hc hh hu f1 f3 hP hn hb hδr hδ hair hcalm => ?_⟩
  have hb0 : 0 ≤ b := (abs_nonneg _).trans (hn.vel 0)
  have hA : 0 ≤ A := (abs_nonneg _).trans (hP.accBound 0 0)
  have hJ : 0 ≤ J := (abs_nonneg _).trans (hP.jerkBound 0 0)
  have hAκ : 0 ≤ A / κ := by positivity
  have hJκ : 0 ≤ J / κ := by positivity
  have hδ' : A / κ ≤ δ := by
    have : (1 + 1 / κ) * A = A + A / κ := by ring
    linarith
  have δ0 : 0 ≤ δ := hAκ.trans hδ'
  have haim : ∀ k i, |aimed T (fun k => P1 (k * l.dt)) (fun k => P2 (k * l.dt)) k i - P1 (k * l.dt) i| ≤ δ := fun k i => by
    rw [show aimed T (fun k => P1 (k * l.dt)) (fun k => P2 (k * l.dt)) k i - P1 (k * l.dt) i = P2 (k * l.dt) i / (T i).kd by
      simp only [aimed]; ring, abs_div]
    exact (div_le_div₀ hA (hP.accBound _ _) hκ (hk i)).trans hδ'
  have hn' : NearFlight s.dyn.state l.psi ((fun k : ℕ => P (k * l.dt)) 0)
      (aimed T (fun k => P1 (k * l.dt)) (fun k => P2 (k * l.dt)) 0) w (b + δ) := by
    obtain ⟨g1, g2, ⟨o', g3, g4, g5, g6, g7⟩, g8, g9⟩ := hn
    refine ⟨fun i => ?_, fun i => ?_, ⟨o', g3, by linarith, by linarith, by linarith, by linarith⟩,
      fun i => (g8 i).trans (by linarith), fun j => (g9 j).trans (by linarith)⟩
    · have := g1 i
      simp only [Nat.cast_zero, zero_mul]
      linarith
    · have a1 := g2 i
      have a2 := haim 0 i
      rw [Nat.cast_zero, zero_mul, abs_sub_comm] at a2
      have := abs_sub_le (s.dyn.state.vel i) (P1 0 i) (aimed T (fun k => P1 (k * l.dt)) (fun k => P2 (k * l.dt)) 0 i)
      linarith
  obtain ⟨t, t1, t2, t3, t4⟩ := H p s (b + δ) _ _ _ δ n hc hh hu f1 f3 hn' (by linarith) δ0 (by linarith)
    (hP.gentle ht.dt h1 hκ hk hδ hair) hcalm
  refine ⟨t, t1, t2, t3, ?_⟩
  have hqn : 0 ≤ q ^ n := by positivity
  have hqn1 : q ^ n ≤ 1 := pow_le_one₀ q0 q1.le
  have hle : C * (q ^ n * (b + δ) + δ) + δ ≤ (2 * C + 1) * (q ^ n * b + δ) := by
    have c1 : C * (q ^ n * δ) ≤ C * δ := mul_le_mul_of_nonneg_left (mul_le_of_le_one_left δ0 hqn1) hC
    have c2 : 0 ≤ q ^ n * b := by positivity
    have c3 : 0 ≤ C * (q ^ n * b) := by positivity
    nlinarith
  obtain ⟨g1, g2, ⟨o', g3, g4, g5, g6, g7⟩, g8, g9⟩ := t4
  have hle' : C * (q ^ n * (b + δ) + δ) ≤ (2 * C + 1) * (q ^ n * b + δ) := by linarith
  refine ⟨fun i => (g1 i).trans hle', fun i => ?_, ⟨o', g3, g4.trans hle', g5.trans hle', g6.trans hle', g7.trans hle'⟩,
    fun i => (g8 i).trans hle', fun j => (g9 j).trans hle'⟩
  have := abs_sub_le (t.dyn.state.vel i) (aimed T (fun k => P1 (k * l.dt)) (fun k => P2 (k * l.dt)) n i) (P1 (n * l.dt) i)
  linarith [g2 i, haim n i]

end

end Verif.Props
