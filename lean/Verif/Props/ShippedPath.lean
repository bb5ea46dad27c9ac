import Verif.Props.Gusts
import Verif.Props.ShippedTrack

/-!
# The shipped trajectory controller follows slow paths (C144)
-/

namespace Verif.Props

open Verif Flt Spec Stability MeasureTheory ProbabilityTheory Example

lemma shipped_air : ∃ p : SimParams ℝ 4, getParams true (some shipped) = some (0, p) ∧
    p.dyn.model.forceNoise = 5 / 10000 ∧ p.dyn.model.drag = 1 / 10 := by
  have : ∃ p : SimParams ℝ 4, getParams true (some shipped) = some (lit 0, p) ∧
    p.dyn.model.forceNoise = lit (5 / 10000) ∧ p.dyn.model.drag = lit (1 / 10) := ⟨_, rfl, rfl, rfl⟩
  simpa [flt] using this

/-- **C144, the shipped file.** The quadrotor of the shipped file in air with any drag coefficient, with process noise of any
intensity and the controllers of the trajectory example freshly constructed: starting within `b` of a slow path and sent position,
velocity and acceleration of the path before every control update, it is within `C (q^n b + δ)` of the path after `n` cycles, if the
samples drawn meanwhile give forces of at most `δ`. -/
theorem C144_shipped : ∃ p : SimParams ℝ 4, getParams true (some shipped) = some (0, p) ∧
    getSimTime (some (shipped : Config ℝ)) = (60, 1 / 1000) ∧ ∃ ms, p.dyn.model.motors = List.ofFn ms ∧
    ∀ psi d, ∃ r > 0, ∃ C ≥ 0, ∃ q, 0 ≤ q ∧ q < 1 ∧ ∀ [Noise ℝ] (s : Sim ℝ 4) (X X1 X2 X3 : ℝ → Vec 3 ℝ) (U A J σ b δ : ℝ)
      (n : ℕ), s.dyn.model.core = some (Model.coreOf { p.dyn.model with forceNoise := σ, drag := d } ms) →
      s.ctl = Ctl.mk' p.ctl → s.armed = true → s.mode = .trajectory → s.yawMode = .angle → s.refYaw = psi →
      s.floorEnable = false → s.extForce = 0 → IsUnitQ s.dyn.state.ori → Path X X1 X2 X3 U A J →
      NearFlight s.dyn.state psi (X 0) (X1 0) shippedSpeed b → b < r → δ < r → 7 / 6 * A + J / 6 ≤ δ →
      |d| * ((U + A / 6) * (U + A / 6 + 1)) ≤ δ → Calm s.dyn.model σ (1 / 1000) δ n →
      ∃ t, Sim.Runs s (trackCalls (1 / 1000) (fun k => X (k * (1 / 1000))) (fun k => X1 (k * (1 / 1000)))
          (fun k => X2 (k * (1 / 1000))) 0 n) t ∧
        NearFlight t.dyn.state psi (X (n * (1 / 1000))) (X1 (n * (1 / 1000))) shippedSpeed (C * (q ^ n * b + δ)) := by
  obtain ⟨p, hp, ms, B, hms, H⟩ := shipped_chase
  refine ⟨p, hp, shipped_time, ms, hms, fun psi d => ?_⟩
  obtain ⟨l, hl, his, hT, hR, ht, hs, hroom, hin⟩ := H psi d
  obtain ⟨r, hr, C, hC, q, q0, q1, H⟩ := C144_path ms l _ _ _ shippedSpeed 6 hT hR ht hs hroom
    (by norm_num [hl, followLoop, shippedLoop]) (by norm_num) (fun i => by norm_num [shippedTraj])
  refine ⟨r, hr, C, hC, q, q0, q1,
    fun s X X1 X2 X3 U A J σ b δ n i1 i2 i3 i4 i5 i6 i8 i9 i10 hX hnear hb hδr hδ hair hcalm => ?_⟩
  obtain ⟨t, t1, -, -, t4⟩ := H _ s b X X1 X2 X3 U A J δ n (his σ) (hin s σ i1 i2 i3 i4 i5 i6 i8 i9) i10
    (by rw [i2]; rfl) (by rw [i2]; rfl) hX (by rw [hl]; exact hnear) hb hδr (by norm_num; linarith)
    (by rw [hl]; exact hair) (by rw [hl]; exact hcalm)
  rw [hl] at t1 t4
  exact ⟨t, t1, t4⟩

/-- A horizontal circle of radius 1 around `m` with angular velocity `ν`, and its derivatives. -/
noncomputable def circle (m : Vec 3 ℝ) (ν t : ℝ) : Vec 3 ℝ := ![m 0 + Real.cos (ν * t), m 1 + Real.sin (ν * t), m 2]
noncomputable def circle1 (ν t : ℝ) : Vec 3 ℝ := ![-(ν * Real.sin (ν * t)), ν * Real.cos (ν * t), 0]
noncomputable def circle2 (ν t : ℝ) : Vec 3 ℝ := ![-(ν ^ 2 * Real.cos (ν * t)), -(ν ^ 2 * Real.sin (ν * t)), 0]
noncomputable def circle3 (ν t : ℝ) : Vec 3 ℝ := ![ν ^ 3 * Real.sin (ν * t), -(ν ^ 3 * Real.cos (ν * t)), 0]

lemma circle_path (m : Vec 3 ℝ) {ν : ℝ} (hν : 0 ≤ ν) :
    Path (circle m ν) (circle1 ν) (circle2 ν) (circle3 ν) ν (ν ^ 2) (ν ^ 3) := by
  have hs : ∀ t, HasDerivAt (fun t => Real.sin (ν * t)) (Real.cos (ν * t) * ν) t := fun t =>
    (((hasDerivAt_id' t).const_mul ν).sin).congr_deriv (by rw [mul_one])
  have hc : ∀ t, HasDerivAt (fun t => Real.cos (ν * t)) (-Real.sin (ν * t) * ν) t := fun t =>
    (((hasDerivAt_id' t).const_mul ν).cos).congr_deriv (by rw [mul_one])
  have bs : ∀ t k : ℝ, 0 ≤ k → |k * Real.sin (ν * t)| ≤ k := fun t k hk => by
    rw [abs_mul, abs_of_nonneg hk]
    exact mul_le_of_le_one_right hk (Real.abs_sin_le_one _)
  have bc : ∀ t k : ℝ, 0 ≤ k → |k * Real.cos (ν * t)| ≤ k := fun t k hk => by
    rw [abs_mul, abs_of_nonneg hk]
    exact mul_le_of_le_one_right hk (Real.abs_cos_le_one _)
  have p2 : 0 ≤ ν ^ 2 := by positivity
  have p3 : 0 ≤ ν ^ 3 := by positivity
  refine ⟨fun t => hasDerivAt_pi.2 fun i => ?_, fun t => hasDerivAt_pi.2 fun i => ?_, fun t => hasDerivAt_pi.2 fun i => ?_,
    fun t i => ?_, fun t i => ?_, fun t i => ?_⟩
  · fin_cases i
    · exact ((hc t).const_add (m 0)).congr_deriv (by simp [circle1]; ring)
    · exact ((hs t).const_add (m 1)).congr_deriv (by simp [circle1]; ring)
    · exact (hasDerivAt_const t (m 2))
  · fin_cases i
    · exact ((hs t).const_mul ν).neg.congr_deriv (by simp [circle2]; ring)
    · exact ((hc t).const_mul ν).congr_deriv (by simp [circle2]; ring)
    · exact (hasDerivAt_const t (0 : ℝ))
  · fin_cases i
    · exact ((hc t).const_mul (ν ^ 2)).neg.congr_deriv (by simp [circle3]; ring)
    · exact ((hs t).const_mul (ν ^ 2)).neg.congr_deriv (by simp [circle3]; ring)
    · exact (hasDerivAt_const t (0 : ℝ))
  · fin_cases i
    · show |-(ν * _)| ≤ _
      rw [abs_neg]; exact bs t ν hν
    · exact bc t ν hν
    · simpa [circle1] using hν
  · fin_cases i
    · show |-(ν ^ 2 * _)| ≤ _
      rw [abs_neg]; exact bc t _ p2
    · show |-(ν ^ 2 * _)| ≤ _
      rw [abs_neg]; exact bs t _ p2
    · simpa [circle2] using p2
  · fin_cases i
    · exact bs t _ p3
    · show |-(ν ^ 3 * _)| ≤ _
      rw [abs_neg]; exact bc t _ p3
    · simpa [circle3] using p3

/-- The shipped quadrotor near the beginning of a path, with its process noise. -/
noncomputable def orbitSim [Noise ℝ] (p : SimParams ℝ 4) (ms : Fin 4 → Motor ℝ) (psi : ℝ) (a u : Vec 3 ℝ) (b : ℝ) :
    Sim ℝ 4 :=
  { chaseSim p ms psi 0 a u b with
    dyn := builtFrom p.dyn.model ms p.dyn.seed (chaseSim p ms psi 0 a u b).dyn.state }

/-- Non-vacuity of `C144_shipped`, and thereby of `C144_follows`, `C144_settles` and `C144_path`: circles, with the shipped drag and
noise, the samples not being zero. -/
example : ∀ r > 0, ∃ (_ : Noise ℝ) (p : SimParams ℝ 4) (ms : Fin 4 → Motor ℝ), (∀ a k i, (Noise.draw a k i : ℝ) ≠ 0) ∧
    getParams true (some shipped) = some (0, p) ∧ 0 < p.dyn.model.forceNoise ∧ p.dyn.model.drag = 1 / 10 ∧
    p.dyn.model.motors = List.ofFn ms ∧ ∀ psi m, ∃ (s : Sim ℝ 4) (b δ ν : ℝ), 0 < ν ∧
      Path (circle m ν) (circle1 ν) (circle2 ν) (circle3 ν) ν (ν ^ 2) (ν ^ 3) ∧ 0 < b ∧ b < r ∧ δ < r ∧
      s.dyn.model.core = some (Model.coreOf p.dyn.model ms) ∧ s.ctl = Ctl.mk' p.ctl ∧
      s.armed = true ∧ s.mode = .trajectory ∧ s.yawMode = .angle ∧ s.refYaw = psi ∧
      s.floorEnable = false ∧ s.extForce = 0 ∧ IsUnitQ s.dyn.state.ori ∧
      NearFlight s.dyn.state psi (circle m ν 0) (circle1 ν 0) shippedSpeed b ∧ 7 / 6 * ν ^ 2 + ν ^ 3 / 6 ≤ δ ∧
      |(1 / 10 : ℝ)| * ((ν + ν ^ 2 / 6) * (ν + ν ^ 2 / 6 + 1)) ≤ δ ∧
      ∀ n, Calm s.dyn.model p.dyn.model.forceNoise (1 / 1000) δ n := by
  intro r hr
  let nz : Noise ℝ := ⟨fun _ _ _ => r / 2⟩
  obtain ⟨p, hp, hmot, -⟩ := shipped_follow (α := ℝ)
  have h0 : (lit 0 : ℝ) = 0 := by simp [flt]
  rw [h0] at hp
  obtain ⟨p', hp', hn, hd⟩ := shipped_air
  obtain rfl : p' = p := by
    rw [hp] at hp'
    simpa using hp'.symm
  obtain ⟨ms, hms⟩ := shipped_motors hmot
  refine ⟨nz, p', ms, fun _ _ _ => (half_pos hr).ne', hp, by rw [hn]; norm_num, hd, hms, fun psi m => ?_⟩
  set ν := min 1 (r / 4) with hν
  have ν0 : 0 < ν := lt_min one_pos (by linarith)
  have ν1 : ν ≤ 1 := min_le_left _ _
  have ν2 : ν ≤ r / 4 := min_le_right _ _
  have ν3 : ν ^ 2 ≤ ν := by nlinarith
  have ν4 : ν ^ 3 ≤ ν := by
    calc ν ^ 3 = ν ^ 2 * ν := by ring
      _ ≤ ν * 1 := mul_le_mul ν3 ν1 ν0.le ν0.le
      _ = ν := mul_one _
  refine ⟨orbitSim p' ms psi (circle m ν 0) (circle1 ν 0) (r / 2), r / 2, r / 2, ν, ν0, circle_path m ν0.le, by linarith,
    by linarith, by linarith, rfl, rfl, rfl, rfl, rfl, rfl, rfl, vzero_real, ?_, ⟨fun i => ?_, fun i => ?_,
      ⟨⟨1, 0, 0, 0⟩, ?_, ?_, ?_, ?_, ?_⟩, fun i => ?_, fun j => ?_⟩, by linarith, ?_, fun n k _ _ i => ?_⟩
  · have := Real.cos_sq_add_sin_sq (psi / 2)
    simp [IsUnitQ, orbitSim, chaseSim, builtFrom]
  · simp [orbitSim, chaseSim, builtFrom, abs_of_pos (half_pos hr)]
  · simp [orbitSim, chaseSim, builtFrom, abs_of_pos (half_pos hr)]
  · rw [isTurned_iff]
    simp [orbitSim, chaseSim, builtFrom]
  · simp; linarith
  · simp; linarith
  · simp; linarith
  · simp; linarith
  · simp [orbitSim, chaseSim, builtFrom, abs_of_pos (half_pos hr)]
  · simp [orbitSim, chaseSim, builtFrom, abs_of_pos (half_pos hr)]
  · have a1 : ν + ν ^ 2 / 6 ≤ 2 * ν := by linarith
    have a2 : ν + ν ^ 2 / 6 + 1 ≤ 4 := by linarith
    have a3 : (ν + ν ^ 2 / 6) * (ν + ν ^ 2 / 6 + 1) ≤ 2 * ν * 4 := mul_le_mul a1 a2 (by positivity) (by positivity)
    rw [abs_of_pos (by norm_num)]
    linarith
  · rw [hn]
    show √(5 / 10000 / (1 / 1000)) * |r / 2| ≤ r / 2
    rw [abs_of_pos (half_pos hr)]
    refine mul_le_of_le_one_left (half_pos hr).le ?_
    rw [Real.sqrt_le_one]
    norm_num

/-- Non-vacuity of `C143_likely`: the shipped quadrotor near hover in position hold, whatever the samples. -/
example : ∃ (Ω : Type) (_ : MeasurableSpace Ω) (P : Measure Ω) (W : ℤ → ℕ → Fin 3 → Ω → ℝ) (p : SimParams ℝ 4)
    (ms : Fin 4 → Motor ℝ) (l : Loop), StandardNormal (W p.dyn.seed) P ∧ Loop.Craft l p.dyn.model ms ∧
    0 < p.dyn.model.forceNoise ∧ ∀ b > 0, ∃ s : Ω → Sim ℝ 4, ∀ ω,
      InHold (s ω) p.dyn.model ms l (Pid.mk' p.ctl.pos) (Pid.mk' p.ctl.vel) (Pid.mk' p.ctl.indi.pid) ∧
      IsUnitQ (s ω).dyn.state.ori ∧ (s ω).ctl.pos.firstRun = true ∧ (s ω).ctl.vel.firstRun = true ∧
      (s ω).ctl.indi.pid.firstRun = true ∧ NearHover (s ω).dyn.state l.psi l.target shippedSpeed b ∧
      (s ω).dyn.model.rng = ⟨p.dyn.seed, 0⟩ := by
  obtain ⟨Ω, m, P, W, h⟩ := exists_standardNormal
  obtain ⟨p, hp, ms, B, hms, H⟩ := shipped_ready
  obtain ⟨p', hp', hn⟩ := shipped_noise
  obtain rfl : p' = p := by
    rw [hp] at hp'
    simpa using hp'.symm
  obtain ⟨l, hl, his, -, -, -, -, -, -, hin⟩ := H 1 ![3, 4, 5]
  refine ⟨Ω, m, P, fun _ => W, p', ms, l, h, his p'.dyn.model.forceNoise, by rw [hn]; norm_num, fun b hb => ?_⟩
  refine ⟨fun ω => let _ := outcome (fun _ => W) ω; gustSim p' ms 1 ![3, 4, 5] b, fun ω => ?_⟩
  refine ⟨hin _ p'.dyn.model.forceNoise rfl rfl rfl rfl rfl rfl rfl rfl vzero_real, ?_, rfl, rfl, rfl,
    ⟨fun i => ?_, fun i => ?_, ⟨⟨1, 0, 0, 0⟩, ?_, ?_, ?_, ?_, ?_⟩, fun i => ?_, fun j => ?_⟩, rfl⟩
  · have := Real.cos_sq_add_sin_sq (1 / 2)
    simpa [IsUnitQ, gustSim, driftSim, builtFrom] using this
  · rw [hl]; simp [gustSim, driftSim, builtFrom, abs_of_pos hb, shippedLoop]
  · simp [gustSim, driftSim, builtFrom, abs_of_pos hb]
  · rw [isTurned_iff, hl]
    simp [gustSim, driftSim, builtFrom, shippedLoop]
  · simp; linarith
  · simp; linarith
  · simp; linarith
  · simp; linarith
  · simp [gustSim, driftSim, builtFrom, abs_of_pos hb]
  · simp [gustSim, driftSim, builtFrom, abs_of_pos hb]

/-- Non-vacuity of `C144_likely`: the shipped quadrotor near a circle in trajectory mode, whatever the samples. -/
example : ∃ (Ω : Type) (_ : MeasurableSpace Ω) (P : Measure Ω) (W : ℤ → ℕ → Fin 3 → Ω → ℝ) (p : SimParams ℝ 4)
    (ms : Fin 4 → Motor ℝ) (l : Loop), StandardNormal (W p.dyn.seed) P ∧ Loop.Craft l p.dyn.model ms ∧
    0 < p.dyn.model.forceNoise ∧ ∀ b > 0, ∀ ν > 0, ∃ s : Ω → Sim ℝ 4, ∀ ω,
      InFollow (s ω) p.dyn.model ms l (Pid.mk' p.ctl.traj) (Pid.mk' p.ctl.indi.pid) ∧
      IsUnitQ (s ω).dyn.state.ori ∧ (s ω).ctl.traj.firstRun = true ∧
      (s ω).ctl.indi.pid.firstRun = true ∧ NearFlight (s ω).dyn.state l.psi (circle 0 ν 0) (circle1 ν 0) shippedSpeed b ∧
      (s ω).dyn.model.rng = ⟨p.dyn.seed, 0⟩ := by
  obtain ⟨Ω, m, P, W, h⟩ := exists_standardNormal
  obtain ⟨p, hp, ms, B, hms, H⟩ := shipped_chase
  obtain ⟨p', hp', hn, hd⟩ := shipped_air
  obtain rfl : p' = p := by
    rw [hp] at hp'
    simpa using hp'.symm
  obtain ⟨l, hl, his, -, -, -, -, -, hin⟩ := H 1 p'.dyn.model.drag
  refine ⟨Ω, m, P, fun _ => W, p', ms, l, h, his p'.dyn.model.forceNoise, by rw [hn]; norm_num, fun b hb ν _ => ?_⟩
  refine ⟨fun ω => let _ := outcome (fun _ => W) ω; orbitSim p' ms 1 (circle 0 ν 0) (circle1 ν 0) b, fun ω => ?_⟩
  refine ⟨hin _ p'.dyn.model.forceNoise rfl rfl rfl rfl rfl rfl rfl vzero_real, ?_, rfl, rfl,
    ⟨fun i => ?_, fun i => ?_, ⟨⟨1, 0, 0, 0⟩, ?_, ?_, ?_, ?_, ?_⟩, fun i => ?_, fun j => ?_⟩, rfl⟩
  · have := Real.cos_sq_add_sin_sq (1 / 2)
    simpa [IsUnitQ, orbitSim, chaseSim, builtFrom] using this
  · simp [orbitSim, chaseSim, builtFrom, abs_of_pos hb]
  · simp [orbitSim, chaseSim, builtFrom, abs_of_pos hb]
  · rw [isTurned_iff, hl]
    simp [orbitSim, chaseSim, builtFrom, followLoop, shippedLoop]
  · simp; linarith
  · simp; linarith
  · simp; linarith
  · simp; linarith
  · simp [orbitSim, chaseSim, builtFrom, abs_of_pos hb]
  · simp [orbitSim, chaseSim, builtFrom, abs_of_pos hb]

end Verif.Props
