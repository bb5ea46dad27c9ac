import Verif.Props.LandingSpin
import Verif.Props.ShippedHold

/-!
# C157: the shipped quadrotor comes down when it is disarmed
-/

namespace Verif.Props

open Verif Flt Spec Stability Example

/-- **C157, the shipped file.** The quadrotor of the shipped file, without the process noise, comes down to the floor
when it is disarmed: in any attitude, at vertical speeds up to 1000 m/s, with rotors at any speeds they can have, and
with all time steps up to 0.01 s. -/
theorem C157_shipped : ∃ p : SimParams ℝ 4, getParams false (some shipped) = some (0, p) ∧
    ∃ ms, p.dyn.model.motors = List.ofFn ms ∧ ∀ [Noise ℝ] (s : Sim ℝ 4) (a h : ℝ),
      RunsOn s.dyn { p.dyn.model with forceNoise := 0 } ms → IsUnitQ s.dyn.state.ori →
      |s.dyn.state.vel 2| ≤ 1000 → (∀ i, |s.dyn.state.motVel i| ≤ 2200) → h ≤ s.dyn.state.pos 2 →
      0 < a → a ≤ 1 / 100 →
      ∃ N, ∀ os : List (SimOp ℝ 4), (∀ o ∈ os, CycleWithin a (1 / 100) o) → N ≤ updates os →
        ∃ t, s.Runs (.enableFloor h :: .disarm :: os) t ∧ t.dyn.state.pos 2 = h ∧ t.dyn.state.vel 2 ≤ 0 := by
  obtain ⟨p, hp, hmot, hmass, hgrav, -, -, -, -, -, -, hdrag⟩ := shipped_vertical (α := ℝ)
  obtain ⟨ms, hms⟩ := shipped_motors hmot
  have hmo : ∀ i, (ms i).rot = 1 ∧ (ms i).kf = 191 / 100000000 ∧ (ms i).tau = 2 / 100 ∧
      (ms i).minSpeed = 0 ∧ (ms i).maxSpeed = 2200 := by
    have h : List.ofFn ms = Model.quadX (lit (191 / 100000000)) (lit (26 / 100000000)) (lit (8 / 100))
      (lit (8 / 100)) (lit 0) (lit 2200) (lit (2 / 100)) (lit (662 / 100000000)) := hms.symm.trans hmot
    simp only [List.ofFn_succ, List.ofFn_zero, Model.quadX, List.cons.injEq] at h
    obtain ⟨h0, h1, h2, h3, -⟩ := h
    intro i
    fin_cases i
    · simp only [Fin.zero_eta, h0]; simp [flt]
    · rw [show ms ((fun i => i) ⟨1, by omega⟩) = _ from h1]; simp [flt]
    · rw [show ms ((fun i => i) ⟨2, by omega⟩) = _ from h2]; simp [flt]
    · rw [show ms ((fun i => i) ⟨3, by omega⟩) = _ from h3]; simp [flt]
  refine ⟨p, by rw [hp, show (lit 0 : ℝ) = 0 by simp [flt]], ms, hms, fun s a h hr hu hv hw hh ha hab => ?_⟩
  have hm1 : p.dyn.model.mass = 1 := by rw [hmass]; simp [flt]
  have hd1 : p.dyn.model.drag = 1 / 10 := by rw [hdrag]; simp [flt]
  have hT : thrustSum ms s.dyn.state.motVel ≤ 40 := by
    have : ∀ i, ∑ r, |rotorForce (ms i) (s.dyn.state.motVel i) r| ≤ 10 := by
      intro i
      obtain ⟨m1, m2, -⟩ := hmo i
      have e : ∀ r, |rotorForce (ms i) (s.dyn.state.motVel i) r| =
          if r = 2 then 191 / 100000000 * (|s.dyn.state.motVel i| * |s.dyn.state.motVel i|) else 0 := by
        intro r
        rw [rotorForce, mulVec_z, m1, m2]
        show |(if r = 2 then (1 : ℝ) else 0) * _| = _
        split_ifs
        · rw [one_mul, abs_mul, abs_mul, abs_abs]; norm_num
        · simp
      simp only [e, Finset.sum_ite_eq', Finset.mem_univ, if_true]
      have := mul_le_mul (hw i) (hw i) (abs_nonneg _) (by norm_num)
      linarith
    calc thrustSum ms s.dyn.state.motVel ≤ ∑ _i : Fin 4, (10 : ℝ) := Finset.sum_le_sum fun i _ => this i
      _ = 40 := by norm_num
  refine C157_disarm s { p.dyn.model with forceNoise := 0 } ms (981 / 100) a (1 / 100) h hr (fun i => ?_) ?_ ?_
    (by norm_num) ?_ rfl hu hh (fun i => ?_) ha hab le_rfl ?_ ?_
  · rw [(hmo i).2.2.2.1, (hmo i).2.2.2.2]; norm_num
  · simp only [hm1]; norm_num
  · simp only [hgrav, flt]
    ext i; fin_cases i <;> norm_num
  · simp only [hd1]; norm_num
  · rw [(hmo i).2.2.1]; norm_num
  · simp only [hd1, hm1]; linarith
  · simp only [hd1, hm1]; linarith

/-- The shipped quadrotor upside down at a height of 100 m, at 20 m/s upwards and with rotors at 1000 rad/s. -/
example [Noise ℝ] : ∃ p : SimParams ℝ 4, getParams false (some shipped) = some (0, p) ∧
    ∃ ms, p.dyn.model.motors = List.ofFn ms ∧ ∃ s : Sim ℝ 4,
      RunsOn s.dyn { p.dyn.model with forceNoise := 0 } ms ∧ IsUnitQ s.dyn.state.ori ∧
      s.dyn.state.ori = ⟨0, 1, 0, 0⟩ ∧ s.dyn.state.vel = ![0, 0, 20] ∧ |s.dyn.state.vel 2| ≤ 1000 ∧
      (∀ i, s.dyn.state.motVel i = 1000 ∧ |s.dyn.state.motVel i| ≤ 2200) ∧ s.dyn.state.pos 2 = 100 := by
  obtain ⟨p, hp, ⟨hb1, hb2, hb3⟩, -⟩ := shipped_ok false
  obtain ⟨p', hp', hmot, -⟩ := shipped_vertical (α := ℝ)
  obtain rfl : p = p' := by
    rw [hp', Option.some.injEq, Prod.mk.injEq] at hp
    exact hp.2.symm
  obtain ⟨ms, hms⟩ := shipped_motors hmot
  refine ⟨p, hp, ms, hms, { Fixture.sim with
    dyn := builtFrom { p.dyn.model with forceNoise := 0 } ms 7
      { State.default with pos := ![0, 0, 100], vel := ![0, 0, 20], ori := ⟨0, 1, 0, 0⟩, motVel := fun _ => 1000 } },
    runsOn_new _ _ _ _ hms ((Model.checkParams_iff _).2 hb1) ?_, ?_, rfl, rfl, ?_, fun i => ⟨rfl, ?_⟩, rfl⟩
  · show Model.dirOk p.dyn.model.motors = true
    rw [hmot]
    simp [Model.dirOk, Model.quadX]
  · simp [builtFrom, IsUnitQ]
  · show |(20 : ℝ)| ≤ 1000
    norm_num
  · show |(1000 : ℝ)| ≤ 2200
    norm_num

end Verif.Props
