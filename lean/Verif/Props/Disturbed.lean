import Verif.Props.HoverHold
import Verif.Lemmas.Resist

/-!
# Position hold under process noise (C143)
-/

namespace Verif.Props

open Verif Flt Spec Stability Filter Topology

section
variable {l : Loop}

/-- How strongly forces and torques act. -/
noncomputable def pushGain (l : Loop) : ℝ := l.dt / |l.mass| + ∑ i, l.dt / |l.inertia i|

lemma pushGain_nonneg (h0 : 0 < l.dt) : 0 ≤ pushGain l :=
  add_nonneg (by positivity) (Finset.sum_nonneg fun _ _ => by positivity)

lemma Loop.push_norm (h0 : 0 < l.dt) {t f : Vec 3 ℝ} {δ : ℝ} (hδ : 0 ≤ δ) (ht : ∀ i, |t i| ≤ δ) (hf : ∀ i, |f i| ≤ δ) :
    ‖l.push t f‖ ≤ pushGain l * δ := by
  have hs : 0 ≤ ∑ i, l.dt / |l.inertia i| := Finset.sum_nonneg fun _ _ => by positivity
  have hm : 0 ≤ l.dt / |l.mass| := by positivity
  have hg := mul_nonneg (pushGain_nonneg h0) hδ
  rw [pi_norm_le_iff_of_nonneg hg]
  intro k
  rw [Real.norm_eq_abs]
  cases k with
  | vel i =>
    show |l.dt * (f i / l.mass)| ≤ _
    rw [abs_mul, abs_div, abs_of_pos h0]
    calc l.dt * (|f i| / |l.mass|) = l.dt / |l.mass| * |f i| := by ring
      _ ≤ l.dt / |l.mass| * δ := mul_le_mul_of_nonneg_left (hf i) hm
      _ ≤ pushGain l * δ := mul_le_mul_of_nonneg_right (le_add_of_nonneg_right hs) hδ
  | om i =>
    show |l.dt * (t i / l.inertia i)| ≤ _
    rw [abs_mul, abs_div, abs_of_pos h0]
    have h1 : l.dt / |l.inertia i| ≤ ∑ i, l.dt / |l.inertia i| :=
      Finset.single_le_sum (f := fun i => l.dt / |l.inertia i|) (fun _ _ => by positivity) (Finset.mem_univ i)
    calc l.dt * (|t i| / |l.inertia i|) = l.dt / |l.inertia i| * |t i| := by ring
      _ ≤ l.dt / |l.inertia i| * δ := mul_le_mul_of_nonneg_left (ht i) (by positivity)
      _ ≤ pushGain l * δ := mul_le_mul_of_nonneg_right (h1.trans (le_add_of_nonneg_left hm)) hδ
  | _ => simpa [Loop.push] using hg

end

section

/-- **C143.** Under the conditions of C139, position hold also withstands the process noise: as long as the samples drawn give
forces of at most `δ`, the flight stays within `C (q^n b + δ)` of the trimmed hover after `n` cycles. -/
theorem C143_withstands (ms : Fin 4 → Motor ℝ) (l : Loop) (cP cV cR : Pid ℝ 3) (c : ℝ × ℝ) (w : ℝ)
    (hP : Tuned cP l.P) (hV : Tuned cV l.V) (hR : Tuned cR l.R) (ht : l.Trim c w)
    (hs : l.Stable w) (hr : Loop.Room l ms cP cV cR c w) (h1 : l.dt ≤ 1 / 100) :
    ∃ r > 0, ∃ C ≥ 0, ∃ q, 0 ≤ q ∧ q < 1 ∧ ∀ [Noise ℝ] p s x δ n, Loop.Craft l p ms → Hovers s p ms l cP cV cR x → ‖x - l.rest c w‖ < r → 0 ≤ δ → δ < r →
      Calm s.dyn.model p.forceNoise l.dt δ n →
      ∃ t y, Sim.Runs s (cycles l.dt (List.replicate n l.dt)) t ∧ Hovers t p ms l cP cV cR y ∧
        ‖y - l.rest c w‖ ≤ C * (q ^ n * ‖x - l.rest c w‖ + δ) := by
  obtain ⟨L, hL, hpow⟩ := Loop.linearised ht hs
  obtain ⟨V, M, hM, q, q0, q1, r, hr0, v1, v2, v3⟩ := resists hL (Loop.fixed ht) hpow
  obtain ⟨r', hr', H'⟩ := hr.near ht
  set κ := pushGain l with hκ
  have k0 : 0 ≤ κ := pushGain_nonneg ht.dt
  have q2 : 0 < 1 - q := by linarith
  set ρ := min r r' with hρ
  have hρ0 : 0 < ρ := lt_min hr0 hr'
  set C := M + M * κ / (1 - q) with hC
  have hC0 : 0 < C := by positivity
  -- the invariant
  have key : ∀ [Noise ℝ] p, Loop.Craft l p ms → ∀ n s x B δ, 0 ≤ δ → 0 ≤ B → Hovers s p ms l cP cV cR x → Calm s.dyn.model p.forceNoise l.dt δ n →
      V (x - l.rest c w) ≤ B + M * κ * δ / (1 - q) → B + M * κ * δ / (1 - q) < ρ →
      ∃ t y, Sim.Runs s (cycles l.dt (List.replicate n l.dt)) t ∧ Hovers t p ms l cP cV cR y ∧
        V (y - l.rest c w) ≤ q ^ n * B + M * κ * δ / (1 - q) := by
    intro _ p hc n
    induction n with
    | zero => exact fun s x B δ _ _ h _ hv _ => ⟨s, x, .nil s, h, by simpa using hv⟩
    | succ n ih =>
      intro s x B δ hδ hB h hcalm hv hb
      have hx : ‖x - l.rest c w‖ < ρ := (v1 _).trans_lt (hv.trans_lt hb)
      obtain ⟨t, t1, t2, t3⟩ := h.pushed hc hP hV hR ht.inertia ht.dt h1 (H' _ (hx.trans_le (min_le_right _ _)))
      obtain ⟨n1, n2⟩ := hcalm.next ht.dt t2
      have hp := Loop.push_norm (l := l) ht.dt hδ n1 n1
      have hstep := v3 x (l.push t.dyn.model.stochForce t.dyn.model.stochForce) (hx.trans_le (min_le_left _ _))
      have hle : V (l.map x + l.push t.dyn.model.stochForce t.dyn.model.stochForce - l.rest c w) ≤
          q * B + M * κ * δ / (1 - q) := by
        have a1 : q * V (x - l.rest c w) ≤ q * (B + M * κ * δ / (1 - q)) := mul_le_mul_of_nonneg_left hv q0
        have a2 : M * ‖l.push t.dyn.model.stochForce t.dyn.model.stochForce‖ ≤ M * (κ * δ) :=
          mul_le_mul_of_nonneg_left hp hM.le
        have a3 : q * (B + M * κ * δ / (1 - q)) + M * (κ * δ) = q * B + M * κ * δ / (1 - q) := by
          field_simp
          ring
        linarith
      obtain ⟨t', y, u1, u2, u3⟩ := ih t _ (q * B) δ hδ (by positivity) t3 n2 hle (by nlinarith)
      refine ⟨t', y, t1 _ _ u1, u2, u3.trans_eq ?_⟩
      rw [pow_succ]; ring
  refine ⟨ρ / (2 * C), by positivity, C, hC0.le, q, q0, q1, fun p s x δ n hc hx hxr hδ hδr hcalm => ?_⟩
  have hn := norm_nonneg (x - l.rest c w)
  have hsum : M * ‖x - l.rest c w‖ + M * κ * δ / (1 - q) < ρ := by
    rw [lt_div_iff₀ (by positivity)] at hxr hδr
    have b1 : M * ‖x - l.rest c w‖ ≤ C * ‖x - l.rest c w‖ :=
      mul_le_mul_of_nonneg_right (le_add_of_nonneg_right (by positivity)) hn
    have b2 : M * κ * δ / (1 - q) ≤ C * δ := by
      rw [mul_div_right_comm]
      exact mul_le_mul_of_nonneg_right (le_add_of_nonneg_left hM.le) hδ
    linarith
  have hD : 0 ≤ M * κ * δ / (1 - q) := by positivity
  obtain ⟨t, y, t1, t2, t3⟩ := key p hc n s x (M * ‖x - l.rest c w‖) δ hδ (by positivity) hx hcalm
    ((v2 _).trans (le_add_of_nonneg_right hD)) hsum
  refine ⟨t, y, t1, t2, (v1 _).trans (t3.trans ?_)⟩
  have b1 : q ^ n * (M * ‖x - l.rest c w‖) ≤ C * (q ^ n * ‖x - l.rest c w‖) := by
    rw [show q ^ n * (M * ‖x - l.rest c w‖) = M * (q ^ n * ‖x - l.rest c w‖) by ring]
    exact mul_le_mul_of_nonneg_right (le_add_of_nonneg_right (by positivity)) (by positivity)
  have b2 : M * κ * δ / (1 - q) ≤ C * δ := by
    rw [mul_div_right_comm]
    exact mul_le_mul_of_nonneg_right (le_add_of_nonneg_left hM.le) hδ
  rw [mul_add]
  exact add_le_add b1 b2

/-- **C143, freshly started controllers.** -/
theorem C143_settles (ms : Fin 4 → Motor ℝ) (l : Loop) (cP cV cR : Pid ℝ 3) (w : ℝ)
    (hP : Tuned cP l.P) (hV : Tuned cV l.V) (hR : Tuned cR l.R) (ht : l.Trim 0 w)
    (hs : l.Stable w) (hr : Loop.Room l ms cP cV cR 0 w) (h1 : l.dt ≤ 1 / 100) :
    ∃ r > 0, ∃ C ≥ 0, ∃ q, 0 ≤ q ∧ q < 1 ∧ ∀ [Noise ℝ] p s b δ n, Loop.Craft l p ms → InHold s p ms l cP cV cR → IsUnitQ s.dyn.state.ori →
      s.ctl.pos.firstRun = true → s.ctl.vel.firstRun = true → s.ctl.indi.pid.firstRun = true →
      NearHover s.dyn.state l.psi l.target w b → b < r → 0 ≤ δ → δ < r → Calm s.dyn.model p.forceNoise l.dt δ n →
      ∃ t, Sim.Runs s (cycles l.dt (List.replicate n l.dt)) t ∧ InHold t p ms l cP cV cR ∧
        IsUnitQ t.dyn.state.ori ∧ NearHover t.dyn.state l.psi l.target w (C * (q ^ n * b + δ)) := by
  obtain ⟨r, hr0, C, hC, q, q0, q1, H⟩ := C143_withstands ms l cP cV cR 0 w hP hV hR ht hs hr h1
  obtain ⟨r', hr', K, hK, HK⟩ := HV.start_near ht
  refine ⟨min r (min r' (r / K)), by positivity, C * (K + 1), by positivity, q, q0, q1,
    fun p s b δ n hc hh hu f1 f2 f3 hn hb hδ hδr hcalm => ?_⟩
  obtain ⟨o, ho, hq⟩ := hn.ori
  have hb0 : 0 ≤ b := (abs_nonneg _).trans (hn.vel 0)
  rw [lt_min_iff, lt_min_iff, lt_div_iff₀ hK] at hb
  have m1 := HV.motion_near hb0 hn hq
  have m2 : ‖HV.describe s l o - l.rest 0 w‖ ≤ K * b :=
    (HK _ s.ctl.pos s.ctl.vel s.ctl.indi.pid f1 f2 f3 (m1.trans_lt hb.2.1)).trans (mul_le_mul_of_nonneg_left m1 hK.le)
  obtain ⟨t, y, t1, t2, t3⟩ := H p s _ δ n hc (hh.hovers ho (turned_back ho hu)) (m2.trans_lt (by linarith [hb.2.2])) hδ
    (hδr.trans_le (min_le_left _ _)) hcalm
  refine ⟨t, t1, t2.toInHold, turned_unit t2.ori t2.unit, ?_⟩
  have hqn : 0 ≤ q ^ n := by positivity
  have hle : ‖y - l.rest 0 w‖ ≤ C * (K + 1) * (q ^ n * b + δ) := by
    refine t3.trans ?_
    rw [mul_assoc]
    refine mul_le_mul_of_nonneg_left ?_ hC
    have b1 : q ^ n * ‖HV.describe s l o - l.rest 0 w‖ ≤ q ^ n * (K * b) := mul_le_mul_of_nonneg_left m2 hqn
    have b2 : 0 ≤ q ^ n * b + K * δ := by positivity
    nlinarith
  have := t2.near (c := 0) (w := w)
  obtain ⟨g1, g2, ⟨o', g3, g4, g5, g6, g7⟩, g8, g9⟩ := this
  exact ⟨fun i => (g1 i).trans hle, fun i => (g2 i).trans hle,
    ⟨o', g3, g4.trans hle, g5.trans hle, g6.trans hle, g7.trans hle⟩, fun i => (g8 i).trans hle, fun j => (g9 j).trans hle⟩

end

end Verif.Props
