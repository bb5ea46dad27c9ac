import Verif.Props.AcroCycle

/-!
# Acro mode attains requested rates and thrust (C146)
-/

namespace Verif.Props

open Verif Flt Spec Stability Filter Topology

section
variable {s : Sim ℝ 4} {p : ModelParams ℝ} {ms : Fin 4 → Motor ℝ} {l : Loop} {cR : Pid ℝ 3} {x y : RV → ℝ} {d : Vec 3 ℝ} {T w : ℝ}

lemma twist_norm {t : Vec 3 ℝ} {δ : ℝ} (h0 : 0 < l.dt) (hδ : 0 ≤ δ) (ht : ∀ i, |t i| ≤ δ) :
    ‖l.twist t‖ ≤ (∑ i, l.dt / |l.inertia i|) * δ := by
  have hs : 0 ≤ (∑ i, l.dt / |l.inertia i|) * δ :=
    mul_nonneg (Finset.sum_nonneg fun i _ => div_nonneg h0.le (abs_nonneg _)) hδ
  rw [pi_norm_le_iff_of_nonneg hs]
  intro k
  cases k with
  | om i =>
    show ‖l.dt * (t i / l.inertia i)‖ ≤ _
    rw [Real.norm_eq_abs, abs_mul, abs_div, abs_of_pos h0]
    calc l.dt * (|t i| / |l.inertia i|) = l.dt / |l.inertia i| * |t i| := by ring
      _ ≤ l.dt / |l.inertia i| * δ := mul_le_mul_of_nonneg_left (ht i) (div_nonneg h0.le (abs_nonneg _))
      _ ≤ _ := mul_le_mul_of_nonneg_right (Finset.single_le_sum (f := fun i => l.dt / |l.inertia i|)
          (fun i _ => div_nonneg h0.le (abs_nonneg _)) (Finset.mem_univ i)) hδ
  | _ => simpa [Loop.twist] using hs

lemma square_sign_sub {a b B : ℝ} (ha : |a| ≤ B) (hb : |b| ≤ B) : |(a * |a| - b * |b|)| ≤ 2 * B * |a - b| := by
  have e : a * |a| - b * |b| = (a - b) * |a| + b * (|a| - |b|) := by ring
  rw [e]
  refine (abs_add_le _ _).trans ?_
  rw [abs_mul, abs_mul, abs_abs]
  have h1 := abs_abs_sub_abs_le a b
  have h2 : |a - b| * |a| ≤ |a - b| * B := mul_le_mul_of_nonneg_left ha (abs_nonneg _)
  have h3 : |b| * |(|a| - |b|)| ≤ B * |a - b| := mul_le_mul hb h1 (abs_nonneg _) ((abs_nonneg _).trans hb)
  linarith

/-- The thrust depends continuously on the rotor speeds. -/
lemma lift_sub {B : ℝ} (hx : ∀ j, |x (.mot j)| ≤ B) (hy : ∀ j, |y (.mot j)| ≤ B) :
    |l.rateLift x 0 - l.rateLift y 0| ≤ (∑ j, |l.mix 0 j| * (2 * B)) * ‖x - y‖ := by
  have hB : 0 ≤ B := (abs_nonneg _).trans (hx 0)
  rw [Loop.rateLift, Loop.rateLift, ← Finset.sum_sub_distrib, Finset.sum_mul]
  refine (Finset.abs_sum_le_sum_abs _ _).trans (Finset.sum_le_sum fun j _ => ?_)
  rw [← mul_sub, abs_mul, mul_assoc]
  refine mul_le_mul_of_nonneg_left ((square_sign_sub (hx j) (hy j)).trans ?_) (abs_nonneg _)
  exact mul_le_mul_of_nonneg_left (norm_le_pi_norm (x - y) (.mot j)) (by positivity)

/-- Force of the rotors. -/
lemma Spins.force (h : Spins s p ms l cR x d) (hc : Loop.Craft l p ms) :
    ∑ j, rotorForce (ms j) (s.dyn.state.motVel j) = ![0, 0, l.rateLift x 0] := by
  ext i
  rw [Finset.sum_apply]
  simp only [rotorForce, hc.upright, Matrix.one_mulVec, h.motVel, Loop.rateLift, hc.lift]
  fin_cases i <;> simp

end

/-- **C146.** If the roots of the characteristic functions of the rate loops are inside the unit circle, every flight in acro mode
that starts with rates, rotor speeds and controller memory near those at the requested thrust without rotation attains requested
rates: as long as these are small and change slowly and the samples drawn give torques of at most `δ`, its numbers differ by at most
`C (q^n e + δ)` from those of a steady rotation with the requested rates after `n` cycles, `e` being the difference at the start, and
the force of the rotors differs by no more than that from the requested thrust. Position, velocity, attitude and external forces are
arbitrary. -/
theorem C146_tracks (ms : Fin 4 → Motor ℝ) (l : Loop) (cR : Pid ℝ 3) (T w : ℝ) (hR : Tuned cR l.R) (ht : l.SpinTrim T w)
    (hs : l.SpinStable w) (hr : Loop.SpinRoom l ms cR w) (h1 : l.dt ≤ 1 / 100) :
    ∃ r > 0, ∃ C ≥ 0, ∃ q, 0 ≤ q ∧ q < 1 ∧ ∀ [Noise ℝ] p s x d δ n, Loop.Craft l p ms →
      Spins s p ms l cR x (d 0) → ‖x - Loop.rateRest w‖ < r → 0 ≤ δ → δ < r → (∀ k i, |d k i| < r) →
      (∀ k i, |d (k + 1) i - d k i| ≤ l.dt * δ) → Calm s.dyn.model p.forceNoise l.dt δ n →
      ∃ t y, Sim.Runs s (acroCalls l.dt T d 0 n) t ∧ Spins t p ms l cR y (d n) ∧
        ‖y - l.rateHold T (d n)‖ ≤ C * (q ^ n * ‖x - l.rateHold T (d 0)‖ + δ) ∧
        ∀ i, |(∑ j, rotorForce (ms j) (t.dyn.state.motVel j)) i - (![0, 0, T] : Vec 3 ℝ) i| ≤
          C * (q ^ n * ‖x - l.rateHold T (d 0)‖ + δ) := by
  obtain ⟨V, M, hM, q, q0, q1, r, hr0, v1, v2, v3⟩ := Loop.rate_contracts ht hs
  obtain ⟨rH, hrH, K, hK, hpos, hlip⟩ := Loop.hold_near ht
  obtain ⟨r', hr', H'⟩ := hr.near ht
  set z := Loop.rateRest w with hz
  have hz0 : l.rateHold T 0 = z := Loop.hold_zero ht
  have hdt := ht.dt
  set g := ∑ i, l.dt / |l.inertia i| with hg
  have g0 : 0 ≤ g := Finset.sum_nonneg fun i _ => div_nonneg hdt.le (abs_nonneg _)
  set κ := g + K * l.dt with hκ
  have k0 : 0 ≤ κ := by positivity
  have q2 : 0 < 1 - q := by linarith
  set ρ := min r r' with hρ
  have hρ0 : 0 < ρ := lt_min hr0 hr'
  have ρ1 : ρ ≤ r := min_le_left _ _
  have ρ2 : ρ ≤ r' := min_le_right _ _
  set ρd := min (min ρ rH) (ρ / (2 * K)) with hρd
  have hρd0 : 0 < ρd := by positivity
  have ρd1 : ρd ≤ ρ := (min_le_left _ _).trans (min_le_left _ _)
  have ρd2 : ρd ≤ rH := (min_le_left _ _).trans (min_le_right _ _)
  have ρd3 : K * ρd ≤ ρ / 2 := by
    have : ρd ≤ ρ / (2 * K) := min_le_right _ _
    calc K * ρd ≤ K * (ρ / (2 * K)) := mul_le_mul_of_nonneg_left this hK.le
      _ = ρ / 2 := by field_simp
  have hnd : ∀ d : Vec 3 ℝ, (∀ i, |d i| < ρd) → ‖d‖ < ρd := fun d h => (pi_norm_lt_iff hρd0).2 h
  have hhold : ∀ d : Vec 3 ℝ, ‖d‖ < ρd → ‖l.rateHold T d - z‖ < ρ / 2 := fun d hd => by
    rw [← hz0]
    refine (hlip d 0 (hd.trans_le ρd2) (by simpa using hrH)).trans_lt ?_
    rw [sub_zero]
    exact (mul_lt_mul_of_pos_left hd hK).trans_le ρd3
  set L := ∑ j, |l.mix 0 j| * (2 * (w + ρ)) with hL
  have hw := ht.speed
  have L0 : 0 ≤ L := Finset.sum_nonneg fun j _ => by positivity
  set C := (M + M * κ / (1 - q)) * (1 + L) with hC
  have hC0 : 0 < C := by positivity
  have key : ∀ [Noise ℝ] p, Loop.Craft l p ms → ∀ n k s x B d δ, 0 ≤ δ → 0 ≤ B → Spins s p ms l cR x (d k) →
      (∀ k i, |d k i| < ρd) → (∀ k i, |d (k + 1) i - d k i| ≤ l.dt * δ) → Calm s.dyn.model p.forceNoise l.dt δ n →
      V (x - l.rateHold T (d k)) ≤ B + M * κ * δ / (1 - q) → B + M * κ * δ / (1 - q) < ρ / 2 →
      ∃ t y, Sim.Runs s (acroCalls l.dt T d k n) t ∧ Spins t p ms l cR y (d (k + n)) ∧
        V (y - l.rateHold T (d (k + n))) ≤ q ^ n * B + M * κ * δ / (1 - q) := by
    intro _ p hc n
    induction n with
    | zero => exact fun k s x B d δ _ hB h _ _ _ hv _ => ⟨s, x, .nil s, h, by simpa using hv⟩
    | succ n ih =>
      intro k s x B d δ hδ hB h hd hd' hcalm hv hb
      have nd := fun k => hnd (d k) (hd k)
      have hx : ‖x - z‖ < ρ := by
        have e : x - z = (x - l.rateHold T (d k)) + (l.rateHold T (d k) - z) := by abel
        rw [e]
        refine (norm_add_le _ _).trans_lt ?_
        have := (v1 _).trans_lt (hv.trans_lt hb)
        linarith [hhold _ (nd k)]
      obtain ⟨t, t1, t2, t3⟩ := (h.refer T (d k)).cycle hc hR ht.inertia hdt h1
        (H' _ _ (hx.trans_le ρ2) ((nd k).trans_le (ρd1.trans ρ2))) rfl rfl
      obtain ⟨n1, n2⟩ := hcalm.next hdt t2
      set e := l.twist t.dyn.model.stochForce + (l.rateHold T (d k) - l.rateHold T (d (k + 1))) with he
      have hp : ‖e‖ ≤ κ * δ := by
        have p1 : ‖l.twist t.dyn.model.stochForce‖ ≤ g * δ := twist_norm hdt hδ n1
        have p2 : ‖l.rateHold T (d k) - l.rateHold T (d (k + 1))‖ ≤ K * (l.dt * δ) := by
          refine (hlip _ _ ((nd k).trans_le ρd2) ((nd (k + 1)).trans_le ρd2)).trans (mul_le_mul_of_nonneg_left ?_ hK.le)
          rw [pi_norm_le_iff_of_nonneg (by positivity)]
          intro i
          have := hd' k i
          rwa [← abs_neg, neg_sub] at this
        calc ‖e‖ ≤ _ := norm_add_le _ _
          _ ≤ g * δ + K * (l.dt * δ) := add_le_add p1 p2
          _ = κ * δ := by rw [hκ]; ring
      have hfix := Loop.hold_fixed ht (hpos _ ((nd k).trans_le ρd2))
      have hstep := v3 x (l.rateHold T (d k)) (d k) e (hx.trans_le ρ1) ((hhold _ (nd k)).trans_le (by linarith))
        ((nd k).trans_le (ρd1.trans ρ1))
      rw [hfix] at hstep
      have hle : V (l.rateMap T x (d k) + l.twist t.dyn.model.stochForce - l.rateHold T (d (k + 1))) ≤
          q * B + M * κ * δ / (1 - q) := by
        have a0 : l.rateMap T x (d k) + l.twist t.dyn.model.stochForce - l.rateHold T (d (k + 1)) =
            l.rateMap T x (d k) + e - l.rateHold T (d k) := by rw [he]; abel
        rw [a0]
        have a1 : q * V (x - l.rateHold T (d k)) ≤ q * (B + M * κ * δ / (1 - q)) := mul_le_mul_of_nonneg_left hv q0
        have a2 : M * ‖e‖ ≤ M * (κ * δ) := mul_le_mul_of_nonneg_left hp hM.le
        have a3 : q * (B + M * κ * δ / (1 - q)) + M * (κ * δ) = q * B + M * κ * δ / (1 - q) := by
          field_simp
          ring
        linarith
      obtain ⟨t', y, u1, u2, u3⟩ := ih (k + 1) t _ (q * B) d δ hδ (by positivity) (t3 (d (k + 1))) hd hd' n2 hle
        (by nlinarith)
      rw [show k + 1 + n = k + (n + 1) by omega] at u2 u3
      exact ⟨t', y, .ok rfl (t1 _ _ u1), u2, u3.trans_eq (by rw [pow_succ]; ring)⟩
  set D := M + M * κ / (1 - q) with hD
  have hD0 : 0 < D := by positivity
  set r1 := ρ / (8 * D) with hr1
  have hr1' : 0 < r1 := by positivity
  set r2 := min ρd (r1 / K) with hr2
  have hr2' : 0 < r2 := by positivity
  refine ⟨min r1 r2, by positivity, C, hC0.le, q, q0, q1, fun p s x d δ n hc hx hxr hδ hδr hd hd' hcalm => ?_⟩
  rw [lt_min_iff] at hxr hδr
  have hdr : ∀ k i, |d k i| < ρd := fun k i => ((hd k i).trans_le (min_le_right _ _)).trans_le (min_le_left _ _)
  have hstart : ‖x - l.rateHold T (d 0)‖ < 2 * r1 := by
    have e : x - l.rateHold T (d 0) = (x - z) + (z - l.rateHold T (d 0)) := by abel
    rw [e]
    refine (norm_add_le _ _).trans_lt ?_
    have n0 : ‖d 0‖ < r2 := (pi_norm_lt_iff hr2').2 fun i => (hd 0 i).trans_le (min_le_right _ _)
    have : ‖z - l.rateHold T (d 0)‖ < r1 := by
      rw [← hz0]
      refine (hlip 0 (d 0) (by simpa using hrH) ((hnd _ (hdr 0)).trans_le ρd2)).trans_lt ?_
      rw [zero_sub, norm_neg]
      have := n0.trans_le (min_le_right _ _)
      rwa [lt_div_iff₀ hK, mul_comm] at this
    linarith [hxr.1]
  set E := ‖x - l.rateHold T (d 0)‖ with hE
  have hE0 : 0 ≤ E := norm_nonneg _
  have b1 : M * E ≤ D * E := mul_le_mul_of_nonneg_right (le_add_of_nonneg_right (by positivity)) hE0
  have b2 : M * κ * δ / (1 - q) ≤ D * δ := by
    rw [mul_div_right_comm]
    exact mul_le_mul_of_nonneg_right (le_add_of_nonneg_left hM.le) hδ
  have hsum : M * E + M * κ * δ / (1 - q) < ρ / 2 := by
    have c1 : D * E < D * (2 * r1) := mul_lt_mul_of_pos_left hstart hD0
    have c2 : D * δ < D * r1 := mul_lt_mul_of_pos_left hδr.1 hD0
    have c3 : D * r1 = ρ / 8 := by rw [hr1]; field_simp
    linarith
  obtain ⟨t, y, t1, t2, t3⟩ := key p hc n 0 s x (M * E) d δ hδ (by positivity) hx hdr hd' hcalm
    ((v2 _).trans (le_add_of_nonneg_right (by positivity))) hsum
  simp only [zero_add] at t2 t3
  have hqn : q ^ n ≤ 1 := pow_le_one₀ q0 q1.le
  have hqn0 : 0 ≤ q ^ n := by positivity
  have hfin : ‖y - l.rateHold T (d n)‖ ≤ D * (q ^ n * E + δ) := by
    refine (v1 _).trans (t3.trans ?_)
    have : q ^ n * (M * E) ≤ q ^ n * (D * E) := mul_le_mul_of_nonneg_left b1 hqn0
    nlinarith
  have hnear : ‖y - l.rateHold T (d n)‖ < ρ / 2 := by
    refine (v1 _).trans_lt (t3.trans_lt (lt_of_le_of_lt ?_ hsum))
    have : q ^ n * (M * E) ≤ 1 * (M * E) := mul_le_mul_of_nonneg_right hqn (by positivity)
    linarith
  have hF : 0 ≤ D * (q ^ n * E + δ) := by positivity
  have hCD : C * (q ^ n * E + δ) = D * (q ^ n * E + δ) + L * (D * (q ^ n * E + δ)) := by rw [hC]; ring
  refine ⟨t, y, t1, t2, hfin.trans (by rw [hCD]; exact le_add_of_nonneg_right (by positivity)), fun i => ?_⟩
  rw [t2.force hc]
  have hh := hhold _ (hnd _ (hdr n))
  have m1 : ∀ j, |l.rateHold T (d n) (.mot j)| ≤ w + ρ := fun j => by
    have := (norm_le_pi_norm (l.rateHold T (d n) - z) (.mot j)).trans hh.le
    rw [Real.norm_eq_abs, Pi.sub_apply, show z (.mot j) = w from rfl] at this
    have e := abs_add_le (l.rateHold T (d n) (.mot j) - w) w
    rw [sub_add_cancel, abs_of_pos hw] at e
    linarith
  have m2 : ∀ j, |y (.mot j)| ≤ w + ρ := fun j => by
    have e0 : y - z = (y - l.rateHold T (d n)) + (l.rateHold T (d n) - z) := by abel
    have h3 : ‖y - z‖ ≤ ρ := by rw [e0]; exact (norm_add_le _ _).trans (by linarith)
    have := (norm_le_pi_norm (y - z) (.mot j)).trans h3
    rw [Real.norm_eq_abs, Pi.sub_apply, show z (.mot j) = w from rfl] at this
    have e := abs_add_le (y (.mot j) - w) w
    rw [sub_add_cancel, abs_of_pos hw] at e
    linarith
  have m3 := lift_sub (l := l) m2 m1
  rw [Loop.hold_lift ht (hpos _ ((hnd _ (hdr n)).trans_le ρd2))] at m3
  have m4 : |l.rateLift y 0 - T| ≤ C * (q ^ n * E + δ) := by
    have : L * ‖y - l.rateHold T (d n)‖ ≤ L * (D * (q ^ n * E + δ)) := mul_le_mul_of_nonneg_left hfin L0
    exact m3.trans (by rw [hCD]; linarith)
  fin_cases i
  · simpa using hF.trans (by rw [hCD]; exact le_add_of_nonneg_right (by positivity))
  · simpa using hF.trans (by rw [hCD]; exact le_add_of_nonneg_right (by positivity))
  · exact m4

/-- The numbers that describe the rotation of a vehicle in acro mode. -/
noncomputable def RV.describe (s : Sim ℝ 4) (l : Loop) (d : Vec 3 ℝ) : RV → ℝ
  | .om i => s.dyn.state.angVel i
  | .mot j => s.dyn.state.motVel j
  | .iR i => if (l.R i).ki = 0 then 0 else if s.ctl.indi.pid.firstRun then 0 else s.ctl.indi.pid.integral i
  | .fR i => if (l.R i).kd = 0 then 0 else if s.ctl.indi.pid.firstRun then 0 else s.ctl.indi.pid.filtered i
  | .eR i => if s.ctl.indi.pid.firstRun then d i - s.dyn.state.angVel i else s.ctl.indi.pid.propErr i

/-- **C146, coverage.** Every vehicle in acro mode is described by some numbers, whatever rates are requested. -/
theorem C146_described {s : Sim ℝ 4} {p : ModelParams ℝ} {ms : Fin 4 → Motor ℝ} {l : Loop} {cR : Pid ℝ 3}
    (h : InAcro s p ms l cR) (d : Vec 3 ℝ) : Spins s p ms l cR (RV.describe s l d) d :=
  { h with
    angVel := fun _ => rfl
    motVel := fun _ => rfl
    rateMemory := ⟨fun _ => rfl, fun _ => rfl, fun _ => rfl⟩ }

/-- **C146, freshly started controller.** A vehicle in acro mode with a rate controller that has not run yet attains requested
rates and thrust: if its rates and the requested ones are at most `b` at the start and its rotor speeds within `b` of `w`, then after
`n` cycles its rates are within `C (q^n b + δ)` of the requested ones and the force of the rotors is as close to the requested
thrust. -/
theorem C146_settles (ms : Fin 4 → Motor ℝ) (l : Loop) (cR : Pid ℝ 3) (T w : ℝ) (hR : Tuned cR l.R) (ht : l.SpinTrim T w)
    (hs : l.SpinStable w) (hr : Loop.SpinRoom l ms cR w) (h1 : l.dt ≤ 1 / 100) :
    ∃ r > 0, ∃ C ≥ 0, ∃ q, 0 ≤ q ∧ q < 1 ∧ ∀ [Noise ℝ] p s b (d : ℕ → Vec 3 ℝ) δ n, Loop.Craft l p ms →
      InAcro s p ms l cR → s.ctl.indi.pid.firstRun = true →
      (∀ i, |s.dyn.state.angVel i| ≤ b) → (∀ j, |s.dyn.state.motVel j - w| ≤ b) → (∀ i, |d 0 i| ≤ b) → b < r →
      0 ≤ δ → δ < r → (∀ k i, |d k i| < r) → (∀ k i, |d (k + 1) i - d k i| ≤ l.dt * δ) →
      Calm s.dyn.model p.forceNoise l.dt δ n →
      ∃ t, Sim.Runs s (acroCalls l.dt T d 0 n) t ∧ InAcro t p ms l cR ∧
        (∀ i, |t.dyn.state.angVel i - d n i| ≤ C * (q ^ n * b + δ)) ∧
        ∀ i, |(∑ j, rotorForce (ms j) (t.dyn.state.motVel j)) i - (![0, 0, T] : Vec 3 ℝ) i| ≤ C * (q ^ n * b + δ) := by
  obtain ⟨r, hr0, C, hC, q, q0, q1, H⟩ := C146_tracks ms l cR T w hR ht hs hr h1
  obtain ⟨rH, hrH, K, hK, -, hlip⟩ := Loop.hold_near ht
  refine ⟨min (r / 3) rH, by positivity, C * (3 + K), by positivity, q, q0, q1,
    fun p s b d δ n hc hh hf ha hm hd0 hb hδ hδr hd hd' hcalm => ?_⟩
  rw [lt_min_iff] at hb hδr
  have hb0 : 0 ≤ b := (abs_nonneg _).trans (ha 0)
  have hdr : ∀ k i, |d k i| < r := fun k i => ((hd k i).trans_le (min_le_left _ _)).trans (by linarith)
  set x := RV.describe s l (d 0) with hx
  have hdesc : ‖x - Loop.rateRest w‖ ≤ 2 * b := by
    rw [pi_norm_le_iff_of_nonneg (by positivity)]
    intro k
    rw [Real.norm_eq_abs, Pi.sub_apply]
    cases k with
    | om i => simpa [hx, RV.describe, Loop.rateRest] using (ha i).trans (by linarith)
    | mot j => exact (hm j).trans (by linarith)
    | iR i => simp [hx, RV.describe, Loop.rateRest, hf, hb0]
    | fR i => simp [hx, RV.describe, Loop.rateRest, hf, hb0]
    | eR i =>
      simp only [hx, RV.describe, Loop.rateRest, hf, if_true, sub_zero]
      exact (abs_sub _ _).trans (by linarith [ha i, hd0 i])
  have hnd : ‖d 0‖ ≤ b := (pi_norm_le_iff_of_nonneg hb0).2 hd0
  have hE : ‖x - l.rateHold T (d 0)‖ ≤ (2 + K) * b := by
    have e : x - l.rateHold T (d 0) = (x - Loop.rateRest w) + (l.rateHold T 0 - l.rateHold T (d 0)) := by
      rw [Loop.hold_zero ht]; abel
    rw [e]
    refine (norm_add_le _ _).trans ?_
    have := hlip 0 (d 0) (by simpa using hrH) (hnd.trans_lt hb.2)
    rw [zero_sub, norm_neg] at this
    have h2 : K * ‖d 0‖ ≤ K * b := mul_le_mul_of_nonneg_left hnd hK.le
    linarith
  obtain ⟨t, y, t1, t2, t3, t4⟩ := H p s x d δ n hc (C146_described hh (d 0)) (hdesc.trans_lt (by linarith)) hδ
    (by linarith) hdr hd' hcalm
  have hqn : 0 ≤ q ^ n := by positivity
  have hle : C * (q ^ n * ‖x - l.rateHold T (d 0)‖ + δ) ≤ C * (3 + K) * (q ^ n * b + δ) := by
    rw [mul_assoc]
    refine mul_le_mul_of_nonneg_left ?_ hC
    have b1 : q ^ n * ‖x - l.rateHold T (d 0)‖ ≤ q ^ n * ((2 + K) * b) := mul_le_mul_of_nonneg_left hE hqn
    have b2 : 0 ≤ q ^ n * b + (2 + K) * δ := by positivity
    nlinarith
  refine ⟨t, t1, t2.toInAcro, fun i => ?_, fun i => (t4 i).trans hle⟩
  have := (norm_le_pi_norm (y - l.rateHold T (d n)) (.om i)).trans (t3.trans hle)
  rw [t2.angVel]
  exact this

end Verif.Props
