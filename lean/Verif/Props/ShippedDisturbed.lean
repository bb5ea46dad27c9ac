import Verif.Props.Disturbed
import Verif.Props.ShippedHover

/-!
# The shipped controllers hold a position under the shipped process noise (C143)
-/

namespace Verif.Props

open Verif Flt Spec Stability Filter Topology Example

lemma shipped_noise : ∃ p : SimParams ℝ 4, getParams false (some shipped) = some (0, p) ∧ p.dyn.model.forceNoise = 5 / 10000 := by
  have : ∃ p : SimParams ℝ 4, getParams false (some shipped) = some (lit 0, p) ∧
    p.dyn.model.forceNoise = lit (5 / 10000) := ⟨_, rfl, rfl⟩
  simpa [flt] using this

/-- **C143, the shipped file.** The quadrotor of the shipped file, with process noise of any intensity, in position hold with any
heading at any position, with freshly constructed controllers: from within `b` of hover it is within `C (q^n b + δ)` after `n`
cycles, if the samples drawn meanwhile give forces of at most `δ`. -/
theorem C143_shipped : ∃ p : SimParams ℝ 4, getParams false (some shipped) = some (0, p) ∧
    getSimTime (some (shipped : Config ℝ)) = (60, 1 / 1000) ∧ ∃ ms, p.dyn.model.motors = List.ofFn ms ∧
    ∀ psi target, ∃ r > 0, ∃ C ≥ 0, ∃ q, 0 ≤ q ∧ q < 1 ∧ ∀ [Noise ℝ] (s : Sim ℝ 4) (σ b δ : ℝ) (n : ℕ),
      s.dyn.model.core = some (Model.coreOf { p.dyn.model with forceNoise := σ } ms) → s.ctl = Ctl.mk' p.ctl →
      s.armed = true → s.mode = .position → s.yawMode = .angle → s.refYaw = psi → s.refPos = target →
      s.floorEnable = false → s.extForce = 0 → IsUnitQ s.dyn.state.ori →
      NearHover s.dyn.state psi target shippedSpeed b → b < r → 0 ≤ δ → δ < r →
      Calm s.dyn.model σ (1 / 1000) δ n →
      ∃ t, Sim.Runs s (cycles (1 / 1000) (List.replicate n (1 / 1000))) t ∧
        NearHover t.dyn.state psi target shippedSpeed (C * (q ^ n * b + δ)) := by
  obtain ⟨p, hp, ms, B, hms, H⟩ := shipped_ready
  refine ⟨p, hp, shipped_time, ms, hms, fun psi target => ?_⟩
  obtain ⟨l, hl, his, hP, hV, hR, ht, hs, hroom, hin⟩ := H psi target
  obtain ⟨r, hr, C, hC, q, q0, q1, H⟩ := C143_settles ms l _ _ _ shippedSpeed hP hV hR ht hs hroom (by norm_num [hl, shippedLoop])
  refine ⟨r, hr, C, hC, q, q0, q1, fun s σ b δ n i1 i2 i3 i4 i5 i6 i7 i8 i9 i10 hnear hb hδ hδr hcalm => ?_⟩
  obtain ⟨t, t1, -, -, t4⟩ := H _ s b δ n (his σ) (hin s σ i1 i2 i3 i4 i5 i6 i7 i8 i9) i10
    (by rw [i2]; rfl) (by rw [i2]; rfl) (by rw [i2]; rfl) (by rw [hl]; exact hnear) hb hδ hδr (by rw [hl]; exact hcalm)
  rw [hl] at t1 t4
  exact ⟨t, t1, t4⟩

/-- The shipped quadrotor off the target, with its process noise. -/
noncomputable def gustSim [Noise ℝ] (p : SimParams ℝ 4) (ms : Fin 4 → Motor ℝ) (psi : ℝ) (target : Vec 3 ℝ) (b : ℝ) :
    Sim ℝ 4 :=
  { driftSim p ms psi target b with
    dyn := builtFrom p.dyn.model ms p.dyn.seed (driftSim p ms psi target b).dyn.state }

/-- Non-vacuity of `C143_shipped`, and thereby of `C143_withstands` and `C143_settles`: the shipped noise, samples that are not
zero. -/
example : ∀ r > 0, ∃ (_ : Noise ℝ) (p : SimParams ℝ 4) (ms : Fin 4 → Motor ℝ), (∀ a k i, (Noise.draw a k i : ℝ) ≠ 0) ∧
    getParams false (some shipped) = some (0, p) ∧ 0 < p.dyn.model.forceNoise ∧
    p.dyn.model.motors = List.ofFn ms ∧ ∀ psi target, ∃ (s : Sim ℝ 4) (b δ : ℝ), 0 < b ∧ b < r ∧ 0 ≤ δ ∧ δ < r ∧
      s.dyn.model.core = some (Model.coreOf p.dyn.model ms) ∧ s.ctl = Ctl.mk' p.ctl ∧
      s.armed = true ∧ s.mode = .position ∧ s.yawMode = .angle ∧ s.refYaw = psi ∧ s.refPos = target ∧
      s.floorEnable = false ∧ s.extForce = 0 ∧ IsUnitQ s.dyn.state.ori ∧
      NearHover s.dyn.state psi target shippedSpeed b ∧
      ∀ n, Calm s.dyn.model p.dyn.model.forceNoise (1 / 1000) δ n := by
  intro r hr
  let nz : Noise ℝ := ⟨fun _ _ _ => r / 2⟩
  obtain ⟨p, hp, hmot, -⟩ := shipped_hold (α := ℝ)
  have h0 : (lit 0 : ℝ) = 0 := by simp [flt]
  rw [h0] at hp
  obtain ⟨p', hp', hn⟩ := shipped_noise
  obtain rfl : p' = p := by
    rw [hp] at hp'
    simpa using hp'.symm
  obtain ⟨ms, hms⟩ := shipped_motors hmot
  refine ⟨nz, p', ms, fun _ _ _ => (half_pos hr).ne', hp, by rw [hn]; norm_num, hms, fun psi target =>
    ⟨gustSim p' ms psi target (r / 2), r / 2, r / 2, by linarith, by linarith, by linarith, by linarith,
    rfl, rfl, rfl, rfl, rfl, rfl, rfl, rfl, vzero_real, ?_, ⟨fun i => ?_, fun i => ?_, ⟨⟨1, 0, 0, 0⟩, ?_, ?_, ?_, ?_, ?_⟩,
      fun i => ?_, fun j => ?_⟩, fun n k _ _ i => ?_⟩⟩
  · have := Real.cos_sq_add_sin_sq (psi / 2)
    simp [IsUnitQ, gustSim, driftSim, builtFrom]
  · simp [gustSim, driftSim, builtFrom, abs_of_pos (half_pos hr)]
  · simp [gustSim, driftSim, builtFrom, abs_of_pos (half_pos hr)]
  · rw [isTurned_iff]
    simp [gustSim, driftSim, builtFrom]
  · simp; linarith
  · simp; linarith
  · simp; linarith
  · simp; linarith
  · simp [gustSim, driftSim, builtFrom, abs_of_pos (half_pos hr)]
  · simp [gustSim, driftSim, builtFrom, abs_of_pos (half_pos hr)]
  · rw [hn]
    show √(5 / 10000 / (1 / 1000)) * |r / 2| ≤ r / 2
    rw [abs_of_pos (half_pos hr)]
    refine mul_le_of_le_one_left (half_pos hr).le ?_
    rw [Real.sqrt_le_one]
    norm_num

end Verif.Props
