import Verif.Props.ShippedAcro
import Verif.Lemmas.SpinMode

/-!
# Acro mode at low thrust (C147)
-/

namespace Verif.Props

open Verif Flt Spec Stability Example

/-- The shipped vehicle in acro mode without process noise, whose rates, rotor speeds and memory of the rate controller are within
`b` of what they are in steady flight without rotation at the thrust `T`. -/
structure Stirred (s : Sim ℝ 4) (p : SimParams ℝ 4) (ms : Fin 4 → Motor ℝ) (T b : ℝ) : Prop where
  runs : s.dyn.model.core = some (Model.coreOf { p.dyn.model with forceNoise := 0 } ms)
  inertia : s.ctl.indi.inertia = p.ctl.indi.inertia
  mixerInv : s.ctl.indi.mixerInv = p.ctl.indi.mixerInv
  config : s.ctl.indi.pid.SameConfig (Pid.mk' p.ctl.indi.pid)
  armed : s.armed = true
  mode : s.mode = .acro
  floor : s.floorEnable = false
  angVel : ∀ i, |s.dyn.state.angVel i| ≤ b
  motVel : ∀ j, |s.dyn.state.motVel j - thrustSpeed T| ≤ b
  memory : ∀ i, |s.ctl.indi.pid.integral i| ≤ b ∧ |s.ctl.indi.pid.filtered i| ≤ b ∧ |s.ctl.indi.pid.propErr i| ≤ b

/-- **C147.** With the shipped tuning, acro mode does not amplify small rates when none are requested: at every thrust that the rotors
can produce there is a bound `C` such that flights which start within a small `b` of rest never have rates above `C b`. -/
def C147_claim : Prop := ∀ (p : SimParams ℝ 4) (ms : Fin 4 → Motor ℝ), getParams false (some shipped) = some (0, p) →
  p.dyn.model.motors = List.ofFn ms → ∀ T, 0 < T → T ≤ 36 → ∃ r > 0, ∃ C, ∀ [Noise ℝ] (s : Sim ℝ 4) (b : ℝ) (n : ℕ),
    Stirred s p ms T b → b < r → ∃ t, Sim.Runs s (acroCalls (1 / 1000) T (fun _ => 0) 0 n) t ∧
      ∀ i, |t.dyn.state.angVel i| ≤ C * b

/-- Uniqueness of the end of a run. -/
lemma acro_runs_unique [Noise ℝ] {os : List (SimOp ℝ 4)} : ∀ {s t t' : Sim ℝ 4}, Sim.Runs s os t → Sim.Runs s os t' → t = t' := by
  induction os with
  | nil => intro s t t' h h'; cases h; cases h'; rfl
  | cons o os ih =>
    intro s t t' h h'
    cases h with
    | ok e r =>
      cases h' with
      | ok e' r' => rw [e] at e'; cases e'; exact ih r r'
      | throw e' r' => rw [e] at e'; cases e'
    | throw e r =>
      cases h' with
      | ok e' r' => rw [e] at e'; cases e'
      | throw e' r' => rw [e] at e'; cases e'; exact ih r r'

/-- Cycles without process noise in which no limit is reached. -/
lemma Spins.iterate [Noise ℝ] {p : ModelParams ℝ} {ms : Fin 4 → Motor ℝ} {l : Loop} {cR : Pid ℝ 3} {T : ℝ} (hc : Loop.Craft l p ms)
    (hq : p.forceNoise = 0) (hR : Tuned cR l.R) (hJ : ∀ i, l.inertia i ≠ 0) (h0 : 0 < l.dt) (h1 : l.dt ≤ 1 / 100) (n : ℕ) :
    ∀ (m : ℕ) (s : Sim ℝ 4) (x : RV → ℝ), Spins s p ms l cR x 0 →
      (∀ k < n, Loop.SpinInside l ms cR T ((fun x => l.rateMap T x 0)^[k] x) 0) →
      ∃ t, Sim.Runs s (acroCalls l.dt T (fun _ => 0) m n) t ∧ Spins t p ms l cR ((fun x => l.rateMap T x 0)^[n] x) 0 := by
  induction n with
  | zero => exact fun m s x h _ => ⟨s, .nil s, h⟩
  | succ n ih =>
    intro m s x h hi
    obtain ⟨t, t1, t2, t3⟩ := (h.refer T 0).cycle hc hR hJ h0 h1 (hi 0 (by omega)) rfl rfl
    have e := t3 0
    have hz : l.twist t.dyn.model.stochForce = 0 := by
      rw [t2.quiet hq]
      ext k
      cases k <;> simp [Loop.twist]
    rw [hz, add_zero] at e
    obtain ⟨t', u1, u2⟩ := ih (m + 1) t _ e fun k hk => by
      have := hi (k + 1) (by omega)
      rwa [Function.iterate_succ_apply] at this
    exact ⟨t', .ok rfl (t1 _ _ u1), by rwa [Function.iterate_succ_apply]⟩

/-- The yaw rate has a mode that alternates and grows if the rotors are slow. -/
lemma slow_mode {l : Loop} {T : ℝ} (h : l.SpinTrim T 50) (h1 : l.R 2 = shippedRate) (h2 : l.dt = 1 / 1000) (h3 : l.tau = 2 / 100)
    (h4 : l.lag = 662 / 26) : ∃ (q : ℝ) (v : RV → ℝ), 1 < |q| ∧ v (.om 2) = 1 ∧ l.dMap 50 (v, 0) = q • v := by
  set f : ℝ → ℝ := fun t : ℝ => (t - 1) ^ 2 * (t - 2 / 5) * (t - 19 / 20) +
      1 / 1000 * (9 * ((t - 1) * (t - 2 / 5)) + 3 / 1000 * t * (t - 2 / 5) + 180 * (t - 1) ^ 2) *
        (1 / 20 + 331 / 26 * (t - 1)) with hf
  have hc : ContinuousOn f (Set.Icc (-10) (-1)) := by
    rw [hf]; fun_prop
  obtain ⟨q, ⟨q1, q2⟩, hq⟩ := intermediate_value_Ioo' (by norm_num) hc (show (0 : ℝ) ∈ _ from by
    constructor
    · simp only [hf]; norm_num
    · simp only [hf]; norm_num)
  simp only [hf] at hq
  have n1 : q - 1 ≠ 0 := by intro h; linarith
  have n2 : q ≠ 0 := by intro h; linarith
  have n3 : q - 2 / 5 ≠ 0 := by intro h; linarith
  have n4 : q - 19 / 20 ≠ 0 := by intro h; linarith
  set s : ℝ := -(9 * ((q - 1) * (q - 2 / 5)) + 3 / 1000 * q * (q - 2 / 5) + 180 * (q - 1) ^ 2) / ((q - 1) * (q - 2 / 5)) with hs
  have hs' : s * ((q - 1) * (q - 2 / 5)) = -(9 * ((q - 1) * (q - 2 / 5)) + 3 / 1000 * q * (q - 2 / 5) + 180 * (q - 1) ^ 2) := by
    rw [hs, div_mul_cancel₀ _ (mul_ne_zero n1 n3)]
  set η : ℝ := 1 / 20 * s / (q - 19 / 20) with hη
  have hη' : η * (q - 19 / 20) = 1 / 20 * s := by rw [hη, div_mul_cancel₀ _ n4]
  obtain ⟨v, v1, v2⟩ := Loop.spin_vector h (q := q) (I := -(1 / 1000) / (q - 1)) (f := -600 * (q - 1) / (q * (q - 2 / 5))) (E := -1 / q)
    (s := s) (η := η)
    (by
      rw [h1, h2]
      simp only [nextInt, shippedRate, RingHom.id_apply]
      norm_num
      field_simp
      ring)
    (by
      rw [h1, h2]
      simp only [nextFil, shippedRate, RingHom.id_apply]
      norm_num
      have n3' : q * 5 - 2 ≠ 0 := by intro h; linarith
      field_simp
      ring)
    (by field_simp)
    (by
      rw [h1, h2]
      simp only [respond, nextInt, nextFil, shippedRate, RingHom.id_apply]
      norm_num
      rw [hs]
      have n3' : q * 5 - 2 ≠ 0 := by intro h; linarith
      field_simp
      ring)
    (by
      rw [h2, h3]
      linear_combination hη')
    (by
      rw [h2, h3, h4]
      have e : (q - 1) * (q - 2 / 5) * (q - 19 / 20) *
          (q - (1 + 1 / 1000 * (η + 662 / 26 / (2 * 50 * (2 / 100)) * (s - η)))) = 0 := by
        linear_combination hq - 1 / 1000 * (q - 1) * (q - 2 / 5) * (1 - 331 / 26) * hη' -
          1 / 1000 * (1 / 20 + 331 / 26 * (q - 1)) * hs'
      have := (mul_eq_zero.1 e).resolve_left (mul_ne_zero (mul_ne_zero n1 n3) n4)
      linarith)
  exact ⟨q, v, by rw [abs_of_neg (by linarith)]; linarith, v1, v2⟩

/-- The shipped vehicle with given rates, rotor speeds and memory. -/
noncomputable def stirSim [Noise ℝ] (p : SimParams ℝ 4) (ms : Fin 4 → Motor ℝ) (x : RV → ℝ) : Sim ℝ 4 :=
  let s := rollSim p ms 0 0
  { s with
    ctl := { s.ctl with indi := { s.ctl.indi with pid := { s.ctl.indi.pid with
      firstRun := false, integral := fun i => x (.iR i), filtered := fun i => x (.fR i), propErr := fun i => x (.eR i) } } }
    dyn := builtFrom { p.dyn.model with forceNoise := 0 } ms 0 { s.dyn.state with
      angVel := fun i => x (.om i), motVel := fun j => x (.mot j) } }

lemma stir_stirred [Noise ℝ] (p : SimParams ℝ 4) (ms : Fin 4 → Motor ℝ) {x : RV → ℝ} {T b : ℝ}
    (h : ‖x - Loop.rateRest (thrustSpeed T)‖ ≤ b) : Stirred (stirSim p ms x) p ms T b := by
  have key : ∀ k, |x k - Loop.rateRest (thrustSpeed T) k| ≤ b := fun k =>
    (norm_le_pi_norm (x - Loop.rateRest (thrustSpeed T)) k).trans h
  refine ⟨rfl, rfl, rfl, ⟨rfl, rfl, rfl, rfl, rfl, rfl, rfl, rfl, rfl, rfl⟩, rfl, rfl, rfl, fun i => ?_, fun j => key (.mot j),
    fun i => ⟨?_, ?_, ?_⟩⟩
  · have e : |x (.om i)| ≤ b := by simpa [Loop.rateRest] using key (.om i)
    exact e
  · have e : |x (.iR i)| ≤ b := by simpa [Loop.rateRest] using key (.iR i)
    exact e
  · have e : |x (.fR i)| ≤ b := by simpa [Loop.rateRest] using key (.fR i)
    exact e
  · have e : |x (.eR i)| ≤ b := by simpa [Loop.rateRest] using key (.eR i)
    exact e

/-- **C147 is violated.** At a thrust of 0.0191 N, for which the rotors turn with 50 rad/s, small deviations of the yaw rate are
amplified without bound: the torque that accelerates the rotors exceeds the one they are to produce, and the rate controller does not
reckon with it. -/
theorem C147_violated : ¬ C147_claim := by
  intro hcl
  obtain ⟨p, hp, ms, B, hms, H⟩ := shipped_acro
  set T : ℝ := 191 / 10000 with hT
  have hTw : thrustSpeed T = 50 := by
    have : T / (4 * (191 / 100000000)) = 50 ^ 2 := by rw [hT]; norm_num
    rw [thrustSpeed, this, Real.sqrt_sq (by norm_num)]
  obtain ⟨l, hl, his, hR, ht, -, hin⟩ := H p.dyn.model.drag
  obtain ⟨ht, hroom⟩ := ht T (by norm_num) (by norm_num)
  obtain ⟨r, hr, C, hC⟩ := hcl p ms hp hms T (by norm_num) (by norm_num)
  obtain ⟨r', hr', hins⟩ := hroom.near ht
  rw [hTw] at ht hins
  have hdt : l.dt = 1 / 1000 := by rw [hl]; rfl
  obtain ⟨q, v, q1, v1, v2⟩ := slow_mode ht (by rw [hl]; rfl) hdt (by rw [hl]; rfl) (by rw [hl]; rfl)
  obtain ⟨n, t, t0, t1, t2, t3⟩ := Loop.spin_grows ht v1 v2 q1 C (lt_min hr hr')
  rw [lt_min_iff] at t1
  let _ : Noise ℝ := ⟨fun _ _ _ => 0⟩
  set x := Loop.rateRest 50 + t • v with hx
  have hnx : ‖x - Loop.rateRest (thrustSpeed T)‖ ≤ t * ‖v‖ := by
    rw [hTw, hx, add_sub_cancel_left, norm_smul, Real.norm_of_nonneg t0.le]
  have hst := stir_stirred p ms hnx
  obtain ⟨u, u1, u2⟩ := hC (stirSim p ms x) (t * ‖v‖) n hst t1.1
  have hac := hin (stirSim p ms x) 0 hst.runs hst.inertia hst.mixerInv hst.config hst.armed hst.mode hst.floor
  have hki : ∀ i, (l.R i).ki ≠ 0 ∧ (l.R i).kd ≠ 0 := fun i => by
    rw [hl]; fin_cases i <;> norm_num [followLoop, shippedLoop, shippedRate]
  have hsp : Spins (stirSim p ms x) _ ms l (Pid.mk' p.ctl.indi.pid) x 0 :=
    { hac with
      angVel := fun _ => rfl
      motVel := fun _ => rfl
      rateMemory := ⟨fun i => by rw [if_neg (hki i).1]; rfl, fun i => by rw [if_neg (hki i).2]; rfl, fun _ => rfl⟩ }
  obtain ⟨u', w1, w2⟩ := Spins.iterate (T := T) (his 0) rfl hR ht.inertia ht.dt (by rw [hdt]; norm_num) n 0 _ x hsp fun k hk =>
    hins _ _ ((t2 k hk).trans_le (min_le_right _ _)) (by simpa using hr')
  rw [hdt] at w1
  obtain rfl := acro_runs_unique u1 w1
  have := u2 2
  rw [w2.angVel] at this
  exact absurd this (not_le.2 t3)

/-- **C147, from 0.1 N on.** At every thrust between 0.1 N and 36 N the rates stay below `C b`, and they decay exponentially. What
is missing is the claim for lower thrust, where it is false. -/
theorem C147_damped_partial : ∀ (p : SimParams ℝ 4) (ms : Fin 4 → Motor ℝ), getParams false (some shipped) = some (0, p) →
    p.dyn.model.motors = List.ofFn ms → ∀ T, 1 / 10 ≤ T → T ≤ 36 → ∃ r > 0, ∃ C, ∃ q, 0 ≤ q ∧ q < 1 ∧
      ∀ [Noise ℝ] (s : Sim ℝ 4) (b : ℝ) (n : ℕ), Stirred s p ms T b → b < r →
      ∃ t, Sim.Runs s (acroCalls (1 / 1000) T (fun _ => 0) 0 n) t ∧ ∀ i, |t.dyn.state.angVel i| ≤ C * (q ^ n * b) := by
  intro p ms hp hms T hT1 hT2
  obtain ⟨p', hp', ms', B, hms', H⟩ := shipped_acro
  obtain rfl : p' = p := by
    rw [hp] at hp'
    simpa using hp'.symm
  obtain rfl : ms' = ms := List.ofFn_injective (hms'.symm.trans hms)
  obtain ⟨l, hl, his, hR, ht, hs, hin⟩ := H p'.dyn.model.drag
  obtain ⟨ht, hroom⟩ := ht T (by linarith) hT2
  have hdt : l.dt = 1 / 1000 := by rw [hl]; rfl
  obtain ⟨r, hr, C, hC, q, q0, q1, H⟩ := C146_tracks ms' l _ T _ hR ht (hs T hT1) hroom (by rw [hdt]; norm_num)
  rw [hdt] at H
  refine ⟨r, hr, C, q, q0, q1, fun s b n h hb => ?_⟩
  have hb0 : 0 ≤ b := (abs_nonneg _).trans (h.angVel 0)
  have hac := hin s 0 h.runs h.inertia h.mixerInv h.config h.armed h.mode h.floor
  have hx : ‖RV.describe s l 0 - Loop.rateRest (thrustSpeed T)‖ ≤ b := by
    rw [pi_norm_le_iff_of_nonneg hb0]
    intro k
    rw [Real.norm_eq_abs, Pi.sub_apply]
    cases k with
    | om i => simpa [RV.describe, Loop.rateRest] using h.angVel i
    | mot j => exact h.motVel j
    | iR i =>
      simp only [RV.describe, Loop.rateRest, sub_zero]
      split_ifs
      · simpa using hb0
      · simpa using hb0
      · exact (h.memory i).1
    | fR i =>
      simp only [RV.describe, Loop.rateRest, sub_zero]
      split_ifs
      · simpa using hb0
      · simpa using hb0
      · exact (h.memory i).2.1
    | eR i =>
      simp only [RV.describe, Loop.rateRest, sub_zero]
      split_ifs
      · simpa using h.angVel i
      · exact (h.memory i).2.2
  obtain ⟨t, y, t1, t2, t3, -⟩ := H _ s _ (fun _ => 0) 0 n (his 0) (C146_described hac 0) (hx.trans_lt hb) le_rfl hr
    (fun _ _ => by simpa using hr) (fun _ _ => by simp) (fun k _ _ i => by simp)
  refine ⟨t, t1, fun i => ?_⟩
  have e := norm_le_pi_norm (y - l.rateHold T 0) (.om i)
  rw [Real.norm_eq_abs, Pi.sub_apply, show l.rateHold T 0 (.om i) = 0 from rfl, sub_zero, ← t2.angVel] at e
  rw [Loop.hold_zero ht] at t3 e
  refine e.trans (t3.trans (mul_le_mul_of_nonneg_left ?_ hC))
  rw [add_zero]
  exact mul_le_mul_of_nonneg_left hx (by positivity)

/-- Non-vacuity of `C147_damped_partial`: a vehicle with rates, unequal rotor speeds and memory. -/
example : ∃ (_ : Noise ℝ) (p : SimParams ℝ 4) (ms : Fin 4 → Motor ℝ), getParams false (some shipped) = some (0, p) ∧
    p.dyn.model.motors = List.ofFn ms ∧ ∀ T, ∀ b > 0, ∃ s : Sim ℝ 4, Stirred s p ms T b ∧ (∀ i, s.dyn.state.angVel i ≠ 0) ∧
      ∀ i, s.ctl.indi.pid.integral i ≠ 0 := by
  let nz : Noise ℝ := ⟨fun _ _ _ => 0⟩
  obtain ⟨p, hp, ms, B, hms, -⟩ := shipped_acro
  refine ⟨nz, p, ms, hp, hms, fun T b hb => ⟨stirSim p ms (Loop.rateRest (thrustSpeed T) + fun _ => b), stir_stirred p ms ?_, fun i => ?_,
    fun i => ?_⟩⟩
  · rw [add_sub_cancel_left, pi_norm_le_iff_of_nonneg hb.le]
    intro _
    rw [Real.norm_eq_abs, abs_of_pos hb]
  · simp [stirSim, builtFrom, Loop.rateRest, hb.ne']
  · simp [stirSim, Loop.rateRest, hb.ne']

end Verif.Props
