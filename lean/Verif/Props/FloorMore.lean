import Verif.Props.FloorHold
import Verif.Props.ShippedCruise
import Verif.Props.RoundedShipped

/-!
# Velocity mode, and position hold in rounded arithmetic, above an enabled floor
-/

namespace Verif.Props

open Verif Flt Spec Stability Example

lemma cruiseCalls_snoc (dt : ℝ) (u : ℕ → Vec 3 ℝ) (k n : ℕ) : cruiseCalls dt u k (n + 1) =
    cruiseCalls dt u k n ++ ([.setRefVel (u (k + n)), .updateController dt] ++ [.updateDynamics dt]) := by
  induction n generalizing k with
  | zero => simp [cruiseCalls]
  | succ n ih =>
    rw [cruiseCalls, ih (k + 1), cruiseCalls]
    simp [Nat.add_assoc, Nat.add_comm 1 n]

lemma floored_cruise [Noise ℝ] {s : Sim ℝ 4} {h dt : ℝ} {N : ℕ} {u : ℕ → Vec 3 ℝ} (hf : s.floorEnable = false)
    (he : s.extForce = 0)
    (H : ∀ k ≤ N, ∃ t, s.Runs (cruiseCalls dt u 0 k) t ∧ h ≤ t.dyn.state.pos 2) {t : Sim ℝ 4}
    (hr : s.Runs (cruiseCalls dt u 0 N) t) :
    s.Runs (.enableFloor h :: cruiseCalls dt u 0 N) (floored h t) := by
  refine .ok (s' := s.enableFloor h) rfl ?_
  rw [enableFloor_eq he]
  refine (floored_cycles (N := N) (fun k => cruiseCalls dt u 0 k)
    (fun k => [.setRefVel (u (0 + k)), .updateController dt]) dt rfl
    (fun k => cruiseCalls_snoc dt u 0 k) (fun k o ho => ?_) hf (fun k hk => ?_) N le_rfl t hr).1
  · rcases List.mem_cons.1 ho with rfl | ho
    · trivial
    · rw [List.mem_singleton.1 ho]; trivial
  · obtain ⟨t, t1, t2⟩ := H k hk
    exact ⟨t, t1, by simpa [Clears, flt] using t2⟩

/-- **C156, velocity mode.** What C145 says about velocity mode, with the floor enabled, if the way given by the
requested velocities is high enough above it. -/
theorem C156_cruise (ms : Fin 4 → Motor ℝ) (l : Loop) (cV cR : Pid ℝ 3)
    (w : ℝ) (hV : Tuned cV l.V) (hR : Tuned cR l.R) (ht : l.CruiseTrim 0 w)
    (hs : l.CruiseStable w) (hr : Loop.CruiseRoom l ms cV cR 0 w) (h1 : l.dt ≤ 1 / 100) :
    ∃ r > 0, ∃ C ≥ 0, ∃ q, 0 ≤ q ∧ q < 1 ∧ ∀ [Noise ℝ] p s b u δ h n, Loop.Craft l p ms →
      InCruise s p ms l cV cR → IsUnitQ s.dyn.state.ori →
      s.ctl.vel.firstRun = true → s.ctl.indi.pid.firstRun = true →
      NearCruise s.dyn.state l.psi (u 0) w b → b < r → 0 ≤ δ → δ < r → Mild l u δ →
      Calm s.dyn.model p.forceNoise l.dt δ n →
      (∀ k ≤ n, h ≤ s.dyn.state.pos 2 + l.dt * ∑ j ∈ Finset.range k, u j 2 - C * (b + k * l.dt * δ)) →
      ∃ t, Sim.Runs s (.enableFloor h :: cruiseCalls l.dt u 0 n) t ∧ t.floorEnable = true ∧ t.floorHeight = h ∧
        NearCruise t.dyn.state l.psi (u n) w (C * (q ^ n * b + δ)) ∧
        ∀ i, |t.dyn.state.pos i - s.dyn.state.pos i - l.dt * ∑ k ∈ Finset.range n, u k i| ≤ C * (b + n * l.dt * δ) := by
  obtain ⟨r, hr0, C, hC, q, q0, q1, H⟩ := C145_settles ms l cV cR w hV hR ht hs hr h1
  refine ⟨r, hr0, C, hC, q, q0, q1, fun p s b u δ h n hc hh hu f1 f2 hn hb hδ hδr hm hcalm hfl => ?_⟩
  obtain ⟨t, t1, -, -, t4, t5⟩ := H p s b u δ n hc hh hu f1 f2 hn hb hδ hδr hm hcalm
  refine ⟨floored h t, floored_cruise hh.floor hh.extForce (fun k hk => ?_) t1, rfl, rfl, t4, t5⟩
  obtain ⟨t', r1, -, -, -, r5⟩ := H p s b u δ k hc hh hu f1 f2 hn hb hδ hδr hm (hcalm.mono hk)
  refine ⟨t', r1, ?_⟩
  have e1 := (abs_le.1 (r5 2)).1
  have e2 := hfl k hk
  linarith

/-- **C156, rounded arithmetic.** The flight in position hold of the shipped configuration, computed in rounded
arithmetic as in C151, with the floor enabled at any height far enough below the target. -/
theorem C156_rounded (κ psi : ℝ) (target : Vec 3 ℝ) :
    ∃ B : Mat 4 4 ℝ, docQuadX (191 / 100000000) (26 / 100000000) (8 / 100) (8 / 100) * B = 1 ∧
    ∃ r > 0, ∃ C ≥ 0, ∃ q, 0 ≤ q ∧ q < 1 ∧ ∀ (A : Rounding) [Noise (Fl A)], A.Accurate κ → A.u < r →
      getSimTime (some (shipped : Config (Fl A))) = (lit 60, lit (1 / 1000)) ∧
      ∃ p : SimParams (Fl A) 4, getParams false (some shipped) = some (lit 0, p) ∧
      ∃ ms, p.dyn.model.motors = List.ofFn ms ∧ ((∀ j i, |(p.ctl.indi.mixerInv j (Fin.natAdd 2 i)).val - B j i| ≤ κ * A.u) →
        ∀ (s : Sim (Fl A) 4) (b : ℝ) (h : Fl A),
        s.dyn.model.core = some (Model.coreOf { p.dyn.model with forceNoise := lit 0 } ms) →
        s.ctl = Ctl.mk' p.ctl → s.armed = true → s.mode = .position → s.yawMode = .angle →
        |s.refYaw.val - psi| ≤ κ * A.u → (∀ i, |(s.refPos i).val - target i| ≤ κ * A.u) →
        s.floorEnable = false → s.extForce = vzero → NearUnit s.dyn.state.ori →
        NearHover (valState s.dyn.state) psi target shippedSpeed b → b < r →
        h.val ≤ target 2 - C * (b + A.u) →
        ∀ n, ∃ t, Sim.Runs s (.enableFloor h :: roundedCycles (lit (1 / 1000)) n) t ∧ t.floorEnable = true ∧
          t.floorHeight = h ∧ NearUnit t.dyn.state.ori ∧
          NearHover (valState t.dyn.state) psi target shippedSpeed (C * (q ^ n * b + A.u))) := by
  obtain ⟨B, hB, r, hr, C, hC, q, q0, q1, H⟩ := C151_shipped κ psi target
  refine ⟨B, hB, r, hr, C, hC, q, q0, q1, fun A _ hA hu => ?_⟩
  obtain ⟨e1, p, e2, ms, e3, H⟩ := H A hA hu
  refine ⟨e1, p, e2, ms, e3, fun hm s b h a1 a2 a3 a4 a5 a6 a7 a8 a9 a10 hn hb hfl n => ?_⟩
  have K := H hm s b a1 a2 a3 a4 a5 a6 a7 a8 a9 a10 hn hb
  obtain ⟨t, t1, t2, t3⟩ := K n
  refine ⟨floored h t, .ok (s' := s.enableFloor h) rfl ?_, rfl, rfl, t2, t3⟩
  have e : s.enableFloor h = floored h s := by
    unfold Sim.enableFloor floored
    rw [← a9]
  rw [e]
  refine (floored_cycles (N := n) (fun k => roundedCycles (lit (1 / 1000)) k)
    (fun _ => [.updateController (lit (1 / 1000))]) (lit (1 / 1000)) rfl (fun k => ?_) (fun k o ho => ?_) a8
    (fun k hk => ?_) n le_rfl t t1).1
  · simp [roundedCycles, List.replicate_succ', List.flatten_append]
  · rw [List.mem_singleton.1 ho]; trivial
  · obtain ⟨t', r1, -, r3⟩ := K k
    refine ⟨t', r1, ?_⟩
    have := high_enough hC q0 q1 ((abs_nonneg _).trans (hn.pos 0)) (r3.pos 2) hfl
    exact decide_eq_false (not_lt.2 this)

end Verif.Props
