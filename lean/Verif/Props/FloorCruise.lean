import Verif.Props.FloorMore

/-!
# The shipped velocity controller above an enabled floor (C156)
-/

namespace Verif.Props

open Verif Flt Spec Stability Example

/-- **C156, the shipped velocity controller.** What C145 says about the shipped quadrotor in velocity mode holds with the
floor enabled at any height that the requested way clears, for any drag and any intensity of the noise. -/
theorem C156_shipped_cruise : ∃ p : SimParams ℝ 4, getParams false (some shipped) = some (0, p) ∧
    getSimTime (some (shipped : Config ℝ)) = (60, 1 / 1000) ∧ ∃ ms, p.dyn.model.motors = List.ofFn ms ∧
    ∀ psi d, ∃ r > 0, ∃ C ≥ 0, ∃ q, 0 ≤ q ∧ q < 1 ∧ ∀ [Noise ℝ] (s : Sim ℝ 4) (u : ℕ → Vec 3 ℝ) (σ b δ h : ℝ) (n : ℕ),
      s.dyn.model.core = some (Model.coreOf { p.dyn.model with forceNoise := σ, drag := d } ms) →
      s.ctl = Ctl.mk' p.ctl → s.armed = true → s.mode = .velocity → s.yawMode = .angle → s.refYaw = psi →
      s.floorEnable = false → s.extForce = 0 → IsUnitQ s.dyn.state.ori →
      NearCruise s.dyn.state psi (u 0) shippedSpeed b → b < r → 0 ≤ δ → δ < r →
      (∀ k i, |u (k + 1) i - u k i| ≤ 1 / 1000 * δ) → (∀ k i, |d| * (|u k i| * (|u k i| + 1)) ≤ δ) →
      Calm s.dyn.model σ (1 / 1000) δ n →
      (∀ k ≤ n, h ≤ s.dyn.state.pos 2 + 1 / 1000 * ∑ j ∈ Finset.range k, u j 2 - C * (b + k * (1 / 1000) * δ)) →
      ∃ t, Sim.Runs s (.enableFloor h :: cruiseCalls (1 / 1000) u 0 n) t ∧ t.floorEnable = true ∧ t.floorHeight = h ∧
        NearCruise t.dyn.state psi (u n) shippedSpeed (C * (q ^ n * b + δ)) ∧
        ∀ i, |t.dyn.state.pos i - s.dyn.state.pos i - 1 / 1000 * ∑ k ∈ Finset.range n, u k i| ≤ C * (b + n * (1 / 1000) * δ) := by
  obtain ⟨p, hp, ms, B, hms, H⟩ := shipped_cruise
  refine ⟨p, hp, shipped_time, ms, hms, fun psi d => ?_⟩
  obtain ⟨l, hl, his, hV, hR, ht, hs, hroom, hin⟩ := H psi d
  obtain ⟨r, hr, C, hC, q, q0, q1, H⟩ := C156_cruise ms l _ _ shippedSpeed hV hR ht hs hroom
    (by norm_num [hl, followLoop, shippedLoop])
  refine ⟨r, hr, C, hC, q, q0, q1, fun s u σ b δ h n i1 i2 i3 i4 i5 i6 i8 i9 i10 hnear hb hδ hδr hu hair hcalm hfl => ?_⟩
  have K := H _ s b u δ h n (his σ) (hin s σ i1 i2 i3 i4 i5 i6 i8 i9) i10
    (by rw [i2]; rfl) (by rw [i2]; rfl) (by rw [hl]; exact hnear) hb hδ hδr ⟨by rw [hl]; exact hu, by rw [hl]; exact hair⟩
    (by rw [hl]; exact hcalm) (by rw [hl]; exact hfl)
  rw [hl] at K
  exact K

/-- Non-vacuity of `C156_shipped_cruise`, and thereby of `C156_cruise`: a vehicle high above a floor at height zero that is to
speed up, with the shipped drag and noise, the samples not being zero. -/
example : ∀ r > 0, ∀ C ≥ 0, ∀ n : ℕ, ∃ (_ : Noise ℝ) (p : SimParams ℝ 4) (ms : Fin 4 → Motor ℝ),
    (∀ a k i, (Noise.draw a k i : ℝ) ≠ 0) ∧
    getParams false (some shipped) = some (0, p) ∧ 0 < p.dyn.model.forceNoise ∧ p.dyn.model.drag = 1 / 10 ∧
    p.dyn.model.motors = List.ofFn ms ∧ ∀ psi, ∃ (s : Sim ℝ 4) (b δ ν : ℝ), 0 < ν ∧ 0 < b ∧ b < r ∧ 0 ≤ δ ∧ δ < r ∧
      s.dyn.model.core = some (Model.coreOf p.dyn.model ms) ∧ s.ctl = Ctl.mk' p.ctl ∧
      s.armed = true ∧ s.mode = .velocity ∧ s.yawMode = .angle ∧ s.refYaw = psi ∧
      s.floorEnable = false ∧ s.extForce = 0 ∧ IsUnitQ s.dyn.state.ori ∧
      NearCruise s.dyn.state psi (speedUp ν 0) shippedSpeed b ∧
      (∀ k i, |speedUp ν (k + 1) i - speedUp ν k i| ≤ 1 / 1000 * δ) ∧ (∀ i, speedUp ν 1000 i ≠ speedUp ν 0 i) ∧
      (∀ k i, |(1 / 10 : ℝ)| * (|speedUp ν k i| * (|speedUp ν k i| + 1)) ≤ δ) ∧
      Calm s.dyn.model p.dyn.model.forceNoise (1 / 1000) δ n ∧
      ∀ k ≤ n, 0 ≤ s.dyn.state.pos 2 + 1 / 1000 * ∑ j ∈ Finset.range k, speedUp ν j 2 - C * (b + k * (1 / 1000) * δ) := by
  intro r hr C hC n
  let nz : Noise ℝ := ⟨fun _ _ _ => r / 2⟩
  obtain ⟨p, hp, hmot, -, -, hd, -⟩ := shipped_hold (α := ℝ)
  have h0 : (lit 0 : ℝ) = 0 := by simp [flt]
  rw [h0] at hp
  obtain ⟨p', hp', hn⟩ := shipped_noise
  obtain rfl : p' = p := by
    rw [hp] at hp'
    simpa using hp'.symm
  obtain ⟨ms, hms⟩ := shipped_motors hmot
  refine ⟨nz, p', ms, fun _ _ _ => (half_pos hr).ne', hp, by rw [hn]; norm_num, by rw [hd]; simp [flt], hms, fun psi => ?_⟩
  set ν := min 1 (r / 4) with hν
  have ν0 : 0 < ν := lt_min one_pos (by linarith)
  have ν1 : ν ≤ 1 := min_le_left _ _
  have ν2 : ν ≤ r / 4 := min_le_right _ _
  refine ⟨sailSim p' ms psi (fun _ => C * (r / 2 + n * (1 / 1000) * (r / 2))) (speedUp ν 0) (r / 2), r / 2, r / 2, ν, ν0,
    by linarith, by linarith, by linarith, by linarith,
    rfl, rfl, rfl, rfl, rfl, rfl, rfl, vzero_real, ?_, ⟨fun i => ?_,
      ⟨⟨1, 0, 0, 0⟩, ?_, ?_, ?_, ?_, ?_⟩, fun i => ?_, fun j => ?_⟩, fun k i => ?_, fun i => ?_, fun k i => ?_,
      fun k _ _ i => ?_, fun k hk => ?_⟩
  · simp [IsUnitQ, sailSim, orbitSim, chaseSim, builtFrom]
  · simp [sailSim, orbitSim, chaseSim, builtFrom, abs_of_pos (half_pos hr)]
  · rw [isTurned_iff]
    simp [sailSim, orbitSim, chaseSim, builtFrom]
  · simp; linarith
  · simp; linarith
  · simp; linarith
  · simp; linarith
  · simp [sailSim, orbitSim, chaseSim, builtFrom, abs_of_pos (half_pos hr)]
  · simp [sailSim, orbitSim, chaseSim, builtFrom, abs_of_pos (half_pos hr)]
  · exact (speedUp_mild ν0.le k i).trans (by linarith)
  · simp [speedUp, ν0.ne']
  · obtain ⟨g1, g2⟩ := speedUp_le ν0.le k i
    rw [abs_of_nonneg g1, abs_of_pos (by norm_num)]
    have : speedUp ν k i * (speedUp ν k i + 1) ≤ ν * 2 := mul_le_mul g2 (by linarith) (by linarith) ν0.le
    linarith
  · rw [hn]
    show √(5 / 10000 / (1 / 1000)) * |r / 2| ≤ r / 2
    rw [abs_of_pos (half_pos hr)]
    refine mul_le_of_le_one_left (half_pos hr).le ?_
    rw [Real.sqrt_le_one]
    norm_num
  · show 0 ≤ C * (r / 2 + n * (1 / 1000) * (r / 2)) + r / 2 + 1 / 1000 * ∑ j ∈ Finset.range k, speedUp ν j 2 -
      C * (r / 2 + k * (1 / 1000) * (r / 2))
    have e1 : 0 ≤ ∑ j ∈ Finset.range k, speedUp ν j 2 := Finset.sum_nonneg fun j _ => (speedUp_le ν0.le j 2).1
    have e2 : C * (r / 2 + k * (1 / 1000) * (r / 2)) ≤ C * (r / 2 + n * (1 / 1000) * (r / 2)) := by
      have : (k : ℝ) ≤ n := Nat.cast_le.2 hk
      gcongr
    linarith

/-- Non-vacuity of `C156_shipped`, and thereby of `C156_hold`: a target high above a floor at height zero. -/
example : ∀ r > 0, ∀ C ≥ 0, ∃ (_ : Noise ℝ) (p : SimParams ℝ 4) (ms : Fin 4 → Motor ℝ), (∀ a k i, (Noise.draw a k i : ℝ) ≠ 0) ∧
    getParams false (some shipped) = some (0, p) ∧ 0 < p.dyn.model.forceNoise ∧
    p.dyn.model.motors = List.ofFn ms ∧ ∀ psi (target : Vec 3 ℝ), C * r ≤ target 2 → ∃ (s : Sim ℝ 4) (b δ : ℝ), 0 < b ∧ b < r ∧ 0 ≤ δ ∧ δ < r ∧
      s.dyn.model.core = some (Model.coreOf p.dyn.model ms) ∧ s.ctl = Ctl.mk' p.ctl ∧
      s.armed = true ∧ s.mode = .position ∧ s.yawMode = .angle ∧ s.refYaw = psi ∧ s.refPos = target ∧
      s.floorEnable = false ∧ s.extForce = 0 ∧ IsUnitQ s.dyn.state.ori ∧
      NearHover s.dyn.state psi target shippedSpeed b ∧
      (∀ n, Calm s.dyn.model p.dyn.model.forceNoise (1 / 1000) δ n) ∧ 0 ≤ target 2 - C * (b + δ) := by
  intro r hr C hC
  let nz : Noise ℝ := ⟨fun _ _ _ => r / 2⟩
  obtain ⟨p, hp, hmot, -⟩ := shipped_hold (α := ℝ)
  have h0 : (lit 0 : ℝ) = 0 := by simp [flt]
  rw [h0] at hp
  obtain ⟨p', hp', hn⟩ := shipped_noise
  obtain rfl : p' = p := by
    rw [hp] at hp'
    simpa using hp'.symm
  obtain ⟨ms, hms⟩ := shipped_motors hmot
  refine ⟨nz, p', ms, fun _ _ _ => (half_pos hr).ne', hp, by rw [hn]; norm_num, hms, fun psi target hz =>
    ⟨gustSim p' ms psi target (r / 2), r / 2, r / 2, by linarith, by linarith, by linarith, by linarith,
    rfl, rfl, rfl, rfl, rfl, rfl, rfl, rfl, vzero_real, ?_, ⟨fun i => ?_, fun i => ?_, ⟨⟨1, 0, 0, 0⟩, ?_, ?_, ?_, ?_, ?_⟩,
      fun i => ?_, fun j => ?_⟩, fun n k _ _ i => ?_, ?_⟩⟩
  · have := Real.cos_sq_add_sin_sq (psi / 2)
    simp [IsUnitQ, gustSim, driftSim, builtFrom]
  · simp [gustSim, driftSim, builtFrom, abs_of_pos (half_pos hr)]
  · simp [gustSim, driftSim, builtFrom, abs_of_pos (half_pos hr)]
  · rw [isTurned_iff]
    simp [gustSim, driftSim, builtFrom]
  · simp; linarith
  · simp; linarith
  · simp; linarith
  · simp; linarith
  · simp [gustSim, driftSim, builtFrom, abs_of_pos (half_pos hr)]
  · simp [gustSim, driftSim, builtFrom, abs_of_pos (half_pos hr)]
  · rw [hn]
    show √(5 / 10000 / (1 / 1000)) * |r / 2| ≤ r / 2
    rw [abs_of_pos (half_pos hr)]
    refine mul_le_of_le_one_left (half_pos hr).le ?_
    rw [Real.sqrt_le_one]
    norm_num
  · rw [add_halves]; exact sub_nonneg.2 hz

/-- Non-vacuity of `C156_shipped_path`, and thereby of `C156_path`: circles high above a floor at height zero. -/
example : ∀ r > 0, ∀ C ≥ 0, ∃ (_ : Noise ℝ) (p : SimParams ℝ 4) (ms : Fin 4 → Motor ℝ), (∀ a k i, (Noise.draw a k i : ℝ) ≠ 0) ∧
    getParams true (some shipped) = some (0, p) ∧ 0 < p.dyn.model.forceNoise ∧ p.dyn.model.drag = 1 / 10 ∧
    p.dyn.model.motors = List.ofFn ms ∧ ∀ psi (m : Vec 3 ℝ), C * r ≤ m 2 → ∃ (s : Sim ℝ 4) (b δ ν : ℝ), 0 < ν ∧
      Path (circle m ν) (circle1 ν) (circle2 ν) (circle3 ν) ν (ν ^ 2) (ν ^ 3) ∧ 0 < b ∧ b < r ∧ δ < r ∧
      s.dyn.model.core = some (Model.coreOf p.dyn.model ms) ∧ s.ctl = Ctl.mk' p.ctl ∧
      s.armed = true ∧ s.mode = .trajectory ∧ s.yawMode = .angle ∧ s.refYaw = psi ∧
      s.floorEnable = false ∧ s.extForce = 0 ∧ IsUnitQ s.dyn.state.ori ∧
      NearFlight s.dyn.state psi (circle m ν 0) (circle1 ν 0) shippedSpeed b ∧ 7 / 6 * ν ^ 2 + ν ^ 3 / 6 ≤ δ ∧
      |(1 / 10 : ℝ)| * ((ν + ν ^ 2 / 6) * (ν + ν ^ 2 / 6 + 1)) ≤ δ ∧
      (∀ n, Calm s.dyn.model p.dyn.model.forceNoise (1 / 1000) δ n) ∧ ∀ τ, 0 ≤ circle m ν τ 2 - C * (b + δ) := by
  intro r hr C hC
  let nz : Noise ℝ := ⟨fun _ _ _ => r / 2⟩
  obtain ⟨p, hp, hmot, -⟩ := shipped_follow (α := ℝ)
  have h0 : (lit 0 : ℝ) = 0 := by simp [flt]
  rw [h0] at hp
  obtain ⟨p', hp', hn, hd⟩ := shipped_air
  obtain rfl : p' = p := by
    rw [hp] at hp'
    simpa using hp'.symm
  obtain ⟨ms, hms⟩ := shipped_motors hmot
  refine ⟨nz, p', ms, fun _ _ _ => (half_pos hr).ne', hp, by rw [hn]; norm_num, hd, hms, fun psi m hz => ?_⟩
  set ν := min 1 (r / 4) with hν
  have ν0 : 0 < ν := lt_min one_pos (by linarith)
  have ν1 : ν ≤ 1 := min_le_left _ _
  have ν2 : ν ≤ r / 4 := min_le_right _ _
  have ν3 : ν ^ 2 ≤ ν := by nlinarith
  have ν4 : ν ^ 3 ≤ ν := by
    calc ν ^ 3 = ν ^ 2 * ν := by ring
      _ ≤ ν * 1 := mul_le_mul ν3 ν1 ν0.le ν0.le
      _ = ν := mul_one _
  refine ⟨orbitSim p' ms psi (circle m ν 0) (circle1 ν 0) (r / 2), r / 2, r / 2, ν, ν0, circle_path m ν0.le, by linarith,
    by linarith, by linarith, rfl, rfl, rfl, rfl, rfl, rfl, rfl, vzero_real, ?_, ⟨fun i => ?_, fun i => ?_,
      ⟨⟨1, 0, 0, 0⟩, ?_, ?_, ?_, ?_, ?_⟩, fun i => ?_, fun j => ?_⟩, by linarith, ?_, fun n k _ _ i => ?_, fun τ => ?_⟩
  · have := Real.cos_sq_add_sin_sq (psi / 2)
    simp [IsUnitQ, orbitSim, chaseSim, builtFrom]
  · simp [orbitSim, chaseSim, builtFrom, abs_of_pos (half_pos hr)]
  · simp [orbitSim, chaseSim, builtFrom, abs_of_pos (half_pos hr)]
  · rw [isTurned_iff]
    simp [orbitSim, chaseSim, builtFrom]
  · simp; linarith
  · simp; linarith
  · simp; linarith
  · simp; linarith
  · simp [orbitSim, chaseSim, builtFrom, abs_of_pos (half_pos hr)]
  · simp [orbitSim, chaseSim, builtFrom, abs_of_pos (half_pos hr)]
  · have a1 : ν + ν ^ 2 / 6 ≤ 2 * ν := by linarith
    have a2 : ν + ν ^ 2 / 6 + 1 ≤ 4 := by linarith
    have a3 : (ν + ν ^ 2 / 6) * (ν + ν ^ 2 / 6 + 1) ≤ 2 * ν * 4 := mul_le_mul a1 a2 (by positivity) (by positivity)
    rw [abs_of_pos (by norm_num)]
    linarith
  · rw [hn]
    show √(5 / 10000 / (1 / 1000)) * |r / 2| ≤ r / 2
    rw [abs_of_pos (half_pos hr)]
    refine mul_le_of_le_one_left (half_pos hr).le ?_
    rw [Real.sqrt_le_one]
    norm_num
  · rw [add_halves]; exact sub_nonneg.2 hz

end Verif.Props
