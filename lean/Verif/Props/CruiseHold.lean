import Verif.Props.CruiseCycle

/-!
# Velocity mode keeps requested velocities (C145)
-/

namespace Verif.Props

open Verif Flt Spec Stability Filter Topology

/-- The requested velocities change slowly and the drag at these velocities is negligible, up to `δ`. -/
structure Mild (l : Loop) (u : ℕ → Vec 3 ℝ) (δ : ℝ) : Prop where
  steady : ∀ k i, |u (k + 1) i - u k i| ≤ l.dt * δ
  air : ∀ k i, |l.drag| * (|u k i| * (|u k i| + 1)) ≤ δ

/-- The vehicle is within `b` of a level flight with velocity `u`, heading `psi` and rotor speed `w`. -/
structure NearCruise (s : State ℝ 4) (psi : ℝ) (u : Vec 3 ℝ) (w b : ℝ) : Prop where
  vel : ∀ i, |s.vel i - u i| ≤ b
  ori : ∃ q, IsTurned psi q s.ori ∧ |q.w - 1| ≤ b ∧ |q.x| ≤ b ∧ |q.y| ≤ b ∧ |q.z| ≤ b
  angVel : ∀ i, |s.angVel i| ≤ b
  motVel : ∀ j, |s.motVel j - w| ≤ b

/-- **C145.** If the roots of the characteristic functions are inside the unit circle, every flight in velocity mode that starts
near the trimmed one, with any memory of the controllers, keeps the requested velocities: as long as these change slowly and the
samples drawn give forces of at most `δ`, it stays within `C (q^n b + δ)` of them after `n` cycles, and the way covered differs from
what was requested by at most `C (b + n dt δ)`. -/
theorem C145_tracks (ms : Fin 4 → Motor ℝ) (l : Loop) (cV cR : Pid ℝ 3)
    (c w : ℝ) (hV : Tuned cV l.V) (hR : Tuned cR l.R) (ht : l.CruiseTrim c w)
    (hs : l.CruiseStable w) (hr : Loop.CruiseRoom l ms cV cR c w) (h1 : l.dt ≤ 1 / 100) :
    ∃ r > 0, ∃ C ≥ 0, ∃ q, 0 ≤ q ∧ q < 1 ∧ ∀ [Noise ℝ] p s x u δ n, Loop.Craft l p ms →
      Cruises s p ms l cV cR x (u 0) → ‖x - l.cruise.rest (c, 0) w‖ < r → 0 ≤ δ → δ < r → Mild l u δ →
      Calm s.dyn.model p.forceNoise l.dt δ n →
      ∃ t y, Sim.Runs s (cruiseCalls l.dt u 0 n) t ∧ Cruises t p ms l cV cR y (u n) ∧
        ‖y - l.cruise.rest (c, 0) w‖ ≤ C * (q ^ n * ‖x - l.cruise.rest (c, 0) w‖ + δ) ∧
        ∀ i, |t.dyn.state.pos i - s.dyn.state.pos i - l.dt * ∑ k ∈ Finset.range n, u k i| ≤
          C * (‖x - l.cruise.rest (c, 0) w‖ + n * l.dt * δ) := by
  obtain ⟨L, hL, hfix, hpow⟩ := Loop.cruise_linearised ht hs
  obtain ⟨V, M, hM, q, q0, q1, r, hr0, v1, v2, v3⟩ := resists hL hfix hpow
  obtain ⟨r', hr', H'⟩ := hr.near ht.trim
  set z := l.cruise.rest (c, 0) w with hz
  have hdt := ht.dt
  set κ := pushGain l * 2 + l.dt with hκ
  have k0 : 0 ≤ κ := by
    have := pushGain_nonneg (l := l) ht.dt
    positivity
  have q2 : 0 < 1 - q := by linarith
  set ρ := min (min r r') (1 / 2) with hρ
  have hρ0 : 0 < ρ := lt_min (lt_min hr0 hr') (by norm_num)
  have ρ1 : ρ ≤ r := (min_le_left _ _).trans (min_le_left _ _)
  have ρ2 : ρ ≤ r' := (min_le_left _ _).trans (min_le_right _ _)
  have ρ3 : ρ ≤ 1 / 2 := min_le_right _ _
  set C := M + M * κ / (1 - q) with hC
  have hC0 : 0 < C := by positivity
  have key : ∀ [Noise ℝ] p, Loop.Craft l p ms → ∀ n k s x B u δ, 0 ≤ δ → δ < ρ → 0 ≤ B → Cruises s p ms l cV cR x (u k) →
      Mild l u δ → Calm s.dyn.model p.forceNoise l.dt δ n →
      V (x - z) ≤ B + M * κ * δ / (1 - q) → B + M * κ * δ / (1 - q) < ρ →
      ∃ t y, Sim.Runs s (cruiseCalls l.dt u k n) t ∧ Cruises t p ms l cV cR y (u (k + n)) ∧
        V (y - z) ≤ q ^ n * B + M * κ * δ / (1 - q) ∧
        ∀ i, |t.dyn.state.pos i - s.dyn.state.pos i - l.dt * ∑ j ∈ Finset.range n, u (k + j) i| ≤
          l.dt * (B / (1 - q) + n * (M * κ * δ / (1 - q))) := by
    intro _ p hc n
    induction n with
    | zero =>
      intro k s x B u δ _ _ hB h _ _ hv _
      refine ⟨s, x, .nil s, h, by simpa using hv, fun i => ?_⟩
      simp only [Finset.range_zero, Finset.sum_empty, sub_self, mul_zero, abs_zero, Nat.cast_zero, zero_mul, add_zero]
      positivity
    | succ n ih =>
      intro k s x B u δ hδ hδr hB h hg hcalm hv hb
      have hx : ‖x - z‖ < ρ := (v1 _).trans_lt (hv.trans_lt hb)
      obtain ⟨t, t1, t2, t3, t4, -⟩ := (h.refer (u k)).pushed hc hV hR ht.inertia ht.dt h1 (H' _ (hx.trans_le ρ2)) rfl
      obtain ⟨n1, n2⟩ := hcalm.next ht.dt t2
      have hvel0 : ∀ i, |x (.vel i)| ≤ ‖x - z‖ := fun i => by
        have := norm_le_pi_norm (x - z) (.vel i)
        rwa [Real.norm_eq_abs, Pi.sub_apply, show z (.vel i) = 0 from rfl, sub_zero] at this
      have hvel : ∀ i, |x (.vel i)| ≤ 1 / 2 := fun i => (hvel0 i).trans (hx.le.trans ρ3)
      have hw : ∀ i, |l.wind x (u k) i| ≤ δ := wind_bound hvel (hg.air k)
      set σ := t.dyn.model.stochForce with hσ
      set d := l.push σ (σ + l.wind x (u k)) + Loop.shift 0 (u k - u (k + 1)) with hd
      have hp : ‖d‖ ≤ κ * δ := by
        have p1 : ‖l.push σ (σ + l.wind x (u k))‖ ≤ pushGain l * (2 * δ) := by
          refine Loop.push_norm ht.dt (by linarith) (fun i => (n1 i).trans (by linarith)) fun i => ?_
          rw [Pi.add_apply]
          exact (abs_add_le _ _).trans (by linarith [n1 i, hw i])
        have p2 : ‖Loop.shift 0 (u k - u (k + 1))‖ ≤ l.dt * δ := by
          refine shift_norm (mul_nonneg ht.dt.le hδ) (fun i => ?_) fun i => ?_
          · rw [Pi.zero_apply, abs_zero]; positivity
          · have := hg.steady k i
            rwa [← abs_neg, neg_sub] at this
        calc ‖d‖ ≤ _ := norm_add_le _ _
          _ ≤ pushGain l * (2 * δ) + l.dt * δ := add_le_add p1 p2
          _ = κ * δ := by rw [hκ]; ring
      have hstep := v3 x d (hx.trans_le ρ1)
      have hle : V (l.cruiseMap x + d - z) ≤ q * B + M * κ * δ / (1 - q) := by
        have a1 : q * V (x - z) ≤ q * (B + M * κ * δ / (1 - q)) := mul_le_mul_of_nonneg_left hv q0
        have a2 : M * ‖d‖ ≤ M * (κ * δ) := mul_le_mul_of_nonneg_left hp hM.le
        have a3 : q * (B + M * κ * δ / (1 - q)) + M * (κ * δ) = q * B + M * κ * δ / (1 - q) := by
          field_simp
          ring
        linarith
      obtain ⟨t', y, u1, u2, u3, u4⟩ := ih (k + 1) t _ (q * B) u δ hδ hδr (by positivity) (t3 (u (k + 1))) hg n2 hle
        (by nlinarith)
      refine ⟨t', y, .ok rfl (t1 _ _ u1), ?_, u3.trans_eq (by rw [pow_succ]; ring), fun i => ?_⟩
      · rwa [show k + (n + 1) = k + 1 + n by omega]
      have e4 := t4 i
      have f4 := u4 i
      have g4 := (hvel0 i).trans ((v1 _).trans hv)
      have es : ∑ j ∈ Finset.range (n + 1), u (k + j) i = (∑ j ∈ Finset.range n, u (k + 1 + j) i) + u k i := by
        rw [Finset.sum_range_succ']
        congr 1
        exact Finset.sum_congr rfl fun j _ => by rw [show k + (j + 1) = k + 1 + j by omega]
      have ed : t'.dyn.state.pos i - s.dyn.state.pos i - l.dt * ∑ j ∈ Finset.range (n + 1), u (k + j) i =
          (t'.dyn.state.pos i - t.dyn.state.pos i - l.dt * ∑ j ∈ Finset.range n, u (k + 1 + j) i) + l.dt * x (.vel i) := by
        rw [es, e4]
        show _ - s.dyn.state.pos i - _ = _ - (s.dyn.state.pos i + _) - _ + _
        ring
      rw [ed]
      refine (abs_add_le _ _).trans ?_
      rw [abs_mul, abs_of_pos hdt]
      refine (add_le_add f4 (mul_le_mul_of_nonneg_left g4 hdt.le)).trans_eq ?_
      push_cast
      field_simp
      ring
  refine ⟨min ρ (ρ / (2 * C)), by positivity, C + l.dt * (M / (1 - q)) , by positivity, q, q0, q1,
    fun p s x u δ n hc hx hxr hδ hδr hg hcalm => ?_⟩
  rw [lt_min_iff] at hxr hδr
  have hn := norm_nonneg (x - z)
  have b2 : M * κ * δ / (1 - q) ≤ C * δ := by
    rw [mul_div_right_comm]
    exact mul_le_mul_of_nonneg_right (le_add_of_nonneg_left hM.le) hδ
  have hsum : M * ‖x - z‖ + M * κ * δ / (1 - q) < ρ := by
    have c1 := (lt_div_iff₀ (by positivity)).1 hxr.2
    have c2 := (lt_div_iff₀ (by positivity)).1 hδr.2
    have b1 : M * ‖x - z‖ ≤ C * ‖x - z‖ := mul_le_mul_of_nonneg_right (le_add_of_nonneg_right (by positivity)) hn
    linarith
  have hD : 0 ≤ M * κ * δ / (1 - q) := by positivity
  obtain ⟨t, y, t1, t2, t3, t4⟩ := key p hc n 0 s x (M * ‖x - z‖) u δ hδ hδr.1 (by positivity) hx hg hcalm
    ((v2 _).trans (le_add_of_nonneg_right hD)) hsum
  simp only [zero_add] at t2 t4
  have hE : 0 ≤ l.dt * (M / (1 - q)) := by positivity
  refine ⟨t, y, t1, t2, (v1 _).trans (t3.trans ?_), fun i => (t4 i).trans ?_⟩
  · have b1 : q ^ n * (M * ‖x - z‖) ≤ C * (q ^ n * ‖x - z‖) := by
      rw [show q ^ n * (M * ‖x - z‖) = M * (q ^ n * ‖x - z‖) by ring]
      exact mul_le_mul_of_nonneg_right (le_add_of_nonneg_right (by positivity)) (by positivity)
    refine (add_le_add b1 b2).trans ?_
    rw [← mul_add]
    exact mul_le_mul_of_nonneg_right (le_add_of_nonneg_right hE) (by positivity)
  · have b3 : n * (M * κ * δ / (1 - q)) ≤ n * (C * δ) := mul_le_mul_of_nonneg_left b2 (by positivity)
    calc l.dt * (M * ‖x - z‖ / (1 - q) + n * (M * κ * δ / (1 - q)))
        ≤ l.dt * (M * ‖x - z‖ / (1 - q) + n * (C * δ)) := mul_le_mul_of_nonneg_left (by linarith) hdt.le
      _ = l.dt * (M / (1 - q)) * ‖x - z‖ + C * (n * l.dt * δ) := by ring
      _ ≤ (C + l.dt * (M / (1 - q))) * ‖x - z‖ + (C + l.dt * (M / (1 - q))) * (n * l.dt * δ) :=
          add_le_add (mul_le_mul_of_nonneg_right (le_add_of_nonneg_left hC0.le) hn)
            (mul_le_mul_of_nonneg_right (le_add_of_nonneg_right hE) (by positivity))
      _ = _ := by ring

section
variable {s : Sim ℝ 4} {p : ModelParams ℝ} {ms : Fin 4 → Motor ℝ} {l : Loop} {cV cR : Pid ℝ 3}
  {x : HV → ℝ} {u : Vec 3 ℝ} {c w : ℝ}

lemma Cruises.near (h : Cruises s p ms l cV cR x u) :
    NearCruise s.dyn.state l.psi u w ‖x - l.cruise.rest (c, 0) w‖ := by
  have key : ∀ k, |x k - l.cruise.rest (c, 0) w k| ≤ ‖x - l.cruise.rest (c, 0) w‖ := fun k =>
    norm_le_pi_norm (x - l.cruise.rest (c, 0) w) k
  have hm := h.moves
  refine ⟨fun i => ?_, ⟨_, hm.ori, ?_, ?_, ?_, ?_⟩, fun i => ?_, fun j => ?_⟩
  · rw [hm.vel]; simpa [Loop.rest] using key (.vel i)
  · simpa [Loop.rest, Loop.quat] using key (.ori 0)
  · simpa [Loop.rest, Loop.quat] using key (.ori 1)
  · simpa [Loop.rest, Loop.quat] using key (.ori 2)
  · simpa [Loop.rest, Loop.quat] using key (.ori 3)
  · rw [hm.angVel]; simpa [Loop.rest] using key (.om i)
  · rw [hm.motVel]; exact key (.mot j)

/-- The numbers that describe a vehicle in velocity mode. -/
noncomputable def HV.describeV (s : Sim ℝ 4) (l : Loop) (q : Quat ℝ) (u : Vec 3 ℝ) : HV → ℝ :=
  HV.withR s.ctl.indi.pid l.cruise (HV.withV s.ctl.vel l.cruise
    (HV.withP Pid.init l.cruise (HV.motion (HV.relative s.dyn.state s.dyn.state.pos u) q)))

lemma InCruise.cruises (h : InCruise s p ms l cV cR) {q : Quat ℝ} (ho : IsTurned l.psi q s.dyn.state.ori)
    (hq : IsUnitQ q) : Cruises s p ms l cV cR (HV.describeV s l q u) u :=
  { h with
    moves := ⟨fun i => by simp [HV.describeV, HV.withR, HV.withV, HV.withP, HV.motion, HV.relative],
      fun i => by simp [HV.describeV, HV.withR, HV.withV, HV.withP, HV.motion, HV.relative], ho, hq,
      fun _ => rfl, fun _ => rfl⟩
    velMemory := ⟨fun _ => rfl, fun _ => rfl, fun _ => rfl⟩
    rateMemory := ⟨fun _ => rfl, fun _ => rfl, fun _ => rfl⟩ }

/-- **C145, coverage.** Every vehicle in velocity mode with a unit orientation is described by some numbers relative to any
velocity. -/
theorem C145_described (h : InCruise s p ms l cV cR) (hu : IsUnitQ s.dyn.state.ori) (u : Vec 3 ℝ) :
    ∃ x, Cruises s p ms l cV cR x u := by
  obtain ⟨q, hq⟩ := turned_exists l.psi s.dyn.state.ori
  exact ⟨_, h.cruises hq (turned_back hq hu)⟩

end

/-- **C145, freshly started controllers.** A vehicle whose thrust at hover is what its controllers demand without accumulated
error keeps the requested velocities: a flight that starts within `b` of the first one with controllers which have not run yet is
within `C (q^n b + δ)` of the last one after `n` cycles, and the way covered differs from what was requested by at most
`C (b + n dt δ)`. -/
theorem C145_settles (ms : Fin 4 → Motor ℝ) (l : Loop) (cV cR : Pid ℝ 3)
    (w : ℝ) (hV : Tuned cV l.V) (hR : Tuned cR l.R) (ht : l.CruiseTrim 0 w)
    (hs : l.CruiseStable w) (hr : Loop.CruiseRoom l ms cV cR 0 w) (h1 : l.dt ≤ 1 / 100) :
    ∃ r > 0, ∃ C ≥ 0, ∃ q, 0 ≤ q ∧ q < 1 ∧ ∀ [Noise ℝ] p s b u δ n, Loop.Craft l p ms →
      InCruise s p ms l cV cR → IsUnitQ s.dyn.state.ori →
      s.ctl.vel.firstRun = true → s.ctl.indi.pid.firstRun = true →
      NearCruise s.dyn.state l.psi (u 0) w b → b < r → 0 ≤ δ → δ < r → Mild l u δ →
      Calm s.dyn.model p.forceNoise l.dt δ n →
      ∃ t, Sim.Runs s (cruiseCalls l.dt u 0 n) t ∧ InCruise t p ms l cV cR ∧
        IsUnitQ t.dyn.state.ori ∧ NearCruise t.dyn.state l.psi (u n) w (C * (q ^ n * b + δ)) ∧
        ∀ i, |t.dyn.state.pos i - s.dyn.state.pos i - l.dt * ∑ k ∈ Finset.range n, u k i| ≤ C * (b + n * l.dt * δ) := by
  obtain ⟨r, hr0, C, hC, q, q0, q1, H⟩ := C145_tracks ms l cV cR 0 w hV hR ht hs hr h1
  have htr : l.cruise.Trim 0 w := ht.trim
  obtain ⟨r', hr', K, hK, HK⟩ := HV.start_near htr
  refine ⟨min r (min r' (r / K)), by positivity, C * (K + 1), by positivity, q, q0, q1,
    fun p s b u δ n hc hh hu f1 f3 hn hb hδ hδr hg hcalm => ?_⟩
  obtain ⟨o, ho, hq⟩ := hn.ori
  have hb0 : 0 ≤ b := (abs_nonneg _).trans (hn.vel 0)
  rw [lt_min_iff, lt_min_iff, lt_div_iff₀ hK] at hb
  have m1 : ‖HV.motion (HV.relative s.dyn.state s.dyn.state.pos (u 0)) o - l.cruise.rest 0 w‖ ≤ b := by
    refine HV.motion_near hb0 ⟨fun i => ?_, fun i => hn.vel i, ⟨o, ho, hq⟩, hn.angVel, hn.motVel⟩ hq
    simpa [HV.relative, Loop.cruise] using hb0
  have m2 : ‖HV.describeV s l o (u 0) - l.cruise.rest 0 w‖ ≤ K * b :=
    (HK _ Pid.init s.ctl.vel s.ctl.indi.pid rfl f1 f3 (m1.trans_lt hb.2.1)).trans (mul_le_mul_of_nonneg_left m1 hK.le)
  obtain ⟨t, y, t1, t2, t3, t4⟩ := H p s _ u δ n hc (hh.cruises ho (turned_back ho hu)) (m2.trans_lt (by linarith [hb.2.2])) hδ
    (hδr.trans_le (min_le_left _ _)) hg hcalm
  have hdt := ht.dt
  have hqn : 0 ≤ q ^ n := by positivity
  have hle : ‖y - l.cruise.rest (0, 0) w‖ ≤ C * (K + 1) * (q ^ n * b + δ) := by
    refine t3.trans ?_
    rw [mul_assoc]
    refine mul_le_mul_of_nonneg_left ?_ hC
    have b1 : q ^ n * ‖HV.describeV s l o (u 0) - l.cruise.rest (0, 0) w‖ ≤ q ^ n * (K * b) :=
      mul_le_mul_of_nonneg_left m2 hqn
    have b2 : 0 ≤ q ^ n * b + K * δ := by positivity
    nlinarith
  refine ⟨t, t1, t2.toInCruise, turned_unit t2.moves.ori t2.moves.unit, ?_, fun i => (t4 i).trans ?_⟩
  · obtain ⟨g2, ⟨o', g3, g4, g5, g6, g7⟩, g8, g9⟩ := t2.near (c := 0) (w := w)
    exact ⟨fun i => (g2 i).trans hle,
      ⟨o', g3, g4.trans hle, g5.trans hle, g6.trans hle, g7.trans hle⟩, fun i => (g8 i).trans hle, fun j => (g9 j).trans hle⟩
  · rw [mul_assoc C]
    refine mul_le_mul_of_nonneg_left ?_ hC
    have b3 : 0 ≤ n * l.dt * δ := by positivity
    have b4 : ‖HV.describeV s l o (u 0) - l.cruise.rest (0, 0) w‖ ≤ K * b := m2
    nlinarith

end Verif.Props
