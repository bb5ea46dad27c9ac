import Verif.Props.FloorBelow
import Verif.Props.NoiseStreams
import Verif.Props.ShippedDisturbed
import Verif.Props.ShippedPath

/-!
# Position hold and trajectory following above an enabled floor

The examples of the repository enable the floor (fly_example.cpp:549, traj_gen_example.cpp:555).  The
theorems about position hold and trajectory mode (C139, C143, C144) are about simulators without floor; here
they are carried over to an enabled floor that is far enough below.
-/

namespace Verif.Props

open Verif Flt Spec Stability Example

section
variable {α : Type} [Flt α] [Noise α] {n : ℕ}

/-- Calls of a control cycle before its dynamics update. -/
def Prepares : SimOp α n → Prop
  | .updateController _ => True
  | .setRefTrajectory _ _ _ => True
  | .setRefVel _ => True
  | _ => False

lemma floored_block {h dt : α} (l : List (SimOp α n)) (hl : ∀ o ∈ l, Prepares o) :
    ∀ {s t : Sim α n}, s.Runs (l ++ [.updateDynamics dt]) t → s.floorEnable = false → Clears h s → Clears h t →
      (floored h s).Runs (l ++ [.updateDynamics dt]) (floored h t) ∧ t.floorEnable = false := by
  induction l with
  | nil =>
    intro s t hr hf hs ht
    obtain ⟨k1, k2⟩ := floored_updateDynamics (dt := dt) hf hs
    cases hr with
    | ok e hr =>
      cases hr
      obtain ⟨a1, -, a2⟩ := k1 _ e
      exact ⟨.ok (a2 ht).1 (.nil _), a1⟩
    | throw e hr =>
      cases hr
      obtain ⟨a1, -, a2⟩ := k2 _ e
      exact ⟨.throw a2 (.nil _), a1⟩
  | cons o l ih =>
    intro s t hr hf hs ht
    have ho := hl o (List.mem_cons_self ..)
    have ih := @ih (fun x hx => hl x (List.mem_cons_of_mem _ hx))
    cases o with
    | updateController d =>
      obtain ⟨e1, e2, -, e4⟩ := floored_updateController s h d
      cases hr with
      | ok e hr =>
        cases e
        have hs' : Clears h (s.updateController d) := by unfold Clears; rw [e4]; exact hs
        obtain ⟨a1, a2⟩ := ih hr (e2.trans hf) hs' ht
        exact ⟨.ok (congrArg Res.ok e1) a1, a2⟩
      | throw e hr => simp [Sim.step] at e
    | setRefTrajectory p v a =>
      cases hr with
      | ok e hr =>
        cases e
        obtain ⟨a1, a2⟩ := ih hr hf hs ht
        exact ⟨.ok rfl a1, a2⟩
      | throw e hr => simp [Sim.step] at e
    | setRefVel v =>
      cases hr with
      | ok e hr =>
        cases e
        obtain ⟨a1, a2⟩ := ih hr hf hs ht
        exact ⟨.ok rfl a1, a2⟩
      | throw e hr => simp [Sim.step] at e
    | _ => exact ho.elim

lemma Runs_split {s t : Sim α n} {os os' : List (SimOp α n)} (h : s.Runs (os ++ os') t) :
    ∃ m, s.Runs os m ∧ m.Runs os' t := by
  induction os generalizing s with
  | nil => exact ⟨s, .nil s, h⟩
  | cons o os ih =>
    cases h with
    | ok e h => obtain ⟨m, m1, m2⟩ := ih h; exact ⟨m, .ok e m1, m2⟩
    | throw e h => obtain ⟨m, m1, m2⟩ := ih h; exact ⟨m, .throw e m1, m2⟩

/-- Flights made of control cycles. -/
lemma floored_cycles {s : Sim α n} {h : α} {N : ℕ} (os pre : ℕ → List (SimOp α n)) (dt : α) (h0 : os 0 = [])
    (hos : ∀ k, os (k + 1) = os k ++ (pre k ++ [.updateDynamics dt])) (hpre : ∀ k, ∀ o ∈ pre k, Prepares o)
    (hf : s.floorEnable = false) (H : ∀ k ≤ N, ∃ t, s.Runs (os k) t ∧ Clears h t) :
    ∀ k ≤ N, ∀ t, s.Runs (os k) t → (floored h s).Runs (os k) (floored h t) ∧ t.floorEnable = false := by
  intro k
  induction k with
  | zero =>
    intro _ t hr
    rw [h0] at hr ⊢
    cases hr
    exact ⟨.nil _, hf⟩
  | succ k ih =>
    intro hk t hr
    obtain ⟨t', r', c'⟩ := H (k + 1) hk
    obtain rfl := runs_det hr r'
    rw [hos] at hr ⊢
    obtain ⟨m, m1, m2⟩ := Runs_split hr
    obtain ⟨m', r'', c''⟩ := H k (by omega)
    obtain rfl := runs_det m1 r''
    obtain ⟨a1, a2⟩ := ih (by omega) m m1
    obtain ⟨b1, b2⟩ := floored_block (pre k) (hpre k) m2 a2 c'' c'
    exact ⟨a1.append b1, b2⟩

end

variable [Noise ℝ]

omit [Noise ℝ] in
lemma enableFloor_eq {s : Sim ℝ 4} (he : s.extForce = 0) (h : ℝ) : s.enableFloor h = floored h s := by
  have : s.extForce = vzero := by rw [he]; funext i; simp [vzero, flt]
  unfold Sim.enableFloor floored
  rw [← this]

lemma floored_hold {s : Sim ℝ 4} {h dt : ℝ} {N : ℕ} (hf : s.floorEnable = false) (he : s.extForce = 0)
    (H : ∀ k ≤ N, ∃ t, s.Runs (cycles dt (List.replicate k dt)) t ∧ h ≤ t.dyn.state.pos 2) {t : Sim ℝ 4}
    (hr : s.Runs (cycles dt (List.replicate N dt)) t) :
    s.Runs (.enableFloor h :: cycles dt (List.replicate N dt)) (floored h t) := by
  refine .ok (s' := s.enableFloor h) rfl ?_
  rw [enableFloor_eq he]
  refine (floored_cycles (N := N) (fun k => cycles dt (List.replicate k dt)) (fun _ => [.updateController dt]) dt rfl
    (fun k => ?_) (fun k o ho => ?_) hf (fun k hk => ?_) N le_rfl t hr).1
  · simp only [cycles, List.replicate_succ', List.flatMap_append, List.flatMap_cons, List.flatMap_nil,
      List.append_nil, List.cons_append, List.nil_append]
  · rw [List.mem_singleton.1 ho]; trivial
  · obtain ⟨t, t1, t2⟩ := H k hk
    exact ⟨t, t1, by simpa [Clears, flt] using t2⟩

omit [Noise ℝ] in
lemma trackCalls_snoc (dt : ℝ) (a u e : ℕ → Vec 3 ℝ) (k n : ℕ) : trackCalls dt a u e k (n + 1) =
    trackCalls dt a u e k n ++ ([.setRefTrajectory (a (k + n)) (u (k + n)) (e (k + n)), .updateController dt] ++
      [.updateDynamics dt]) := by
  induction n generalizing k with
  | zero => simp [trackCalls]
  | succ n ih =>
    rw [trackCalls, ih (k + 1), trackCalls]
    simp [Nat.add_assoc, Nat.add_comm 1 n]

lemma floored_track {s : Sim ℝ 4} {h dt : ℝ} {N : ℕ} {a u e : ℕ → Vec 3 ℝ} (hf : s.floorEnable = false)
    (he : s.extForce = 0)
    (H : ∀ k ≤ N, ∃ t, s.Runs (trackCalls dt a u e 0 k) t ∧ h ≤ t.dyn.state.pos 2) {t : Sim ℝ 4}
    (hr : s.Runs (trackCalls dt a u e 0 N) t) :
    s.Runs (.enableFloor h :: trackCalls dt a u e 0 N) (floored h t) := by
  refine .ok (s' := s.enableFloor h) rfl ?_
  rw [enableFloor_eq he]
  refine (floored_cycles (N := N) (fun k => trackCalls dt a u e 0 k)
    (fun k => [.setRefTrajectory (a (0 + k)) (u (0 + k)) (e (0 + k)), .updateController dt]) dt rfl
    (fun k => trackCalls_snoc dt a u e 0 k) (fun k o ho => ?_) hf (fun k hk => ?_) N le_rfl t hr).1
  · rcases List.mem_cons.1 ho with rfl | ho
    · trivial
    · rw [List.mem_singleton.1 ho]; trivial
  · obtain ⟨t, t1, t2⟩ := H k hk
    exact ⟨t, t1, by simpa [Clears, flt] using t2⟩

omit [Noise ℝ] in
lemma high_enough {C q b δ z a h : ℝ} {k : ℕ} (hC : 0 ≤ C) (q0 : 0 ≤ q) (q1 : q < 1) (hb : 0 ≤ b)
    (hz : |z - a| ≤ C * (q ^ k * b + δ)) (hh : h ≤ a - C * (b + δ)) : h ≤ z := by
  have : q ^ k * b ≤ b := mul_le_of_le_one_left hb (pow_le_one₀ q0 q1.le)
  have := mul_le_mul_of_nonneg_left this hC
  have := (abs_le.1 hz).1
  nlinarith

lemma Calm.mono {m : Model ℝ 4} {q dt δ : ℝ} {n k : ℕ} (h : Calm m q dt δ n) (hk : k ≤ n) : Calm m q dt δ k :=
  fun j h1 h2 i => h j h1 (by omega) i

omit [Noise ℝ] in
/-- **C156, position hold.** What C143 says about position hold, with the floor enabled, if the target is high
enough above it. -/
theorem C156_hold (ms : Fin 4 → Motor ℝ) (l : Loop) (cP cV cR : Pid ℝ 3) (w : ℝ)
    (hP : Tuned cP l.P) (hV : Tuned cV l.V) (hR : Tuned cR l.R) (ht : l.Trim 0 w)
    (hs : l.Stable w) (hr : Loop.Room l ms cP cV cR 0 w) (h1 : l.dt ≤ 1 / 100) :
    ∃ r > 0, ∃ C ≥ 0, ∃ q, 0 ≤ q ∧ q < 1 ∧ ∀ [Noise ℝ] p s b δ h n, Loop.Craft l p ms → InHold s p ms l cP cV cR →
      IsUnitQ s.dyn.state.ori → s.ctl.pos.firstRun = true → s.ctl.vel.firstRun = true →
      s.ctl.indi.pid.firstRun = true → NearHover s.dyn.state l.psi l.target w b → b < r → 0 ≤ δ → δ < r →
      Calm s.dyn.model p.forceNoise l.dt δ n → h ≤ l.target 2 - C * (b + δ) →
      ∃ t, Sim.Runs s (.enableFloor h :: cycles l.dt (List.replicate n l.dt)) t ∧
        t.floorEnable = true ∧ t.floorHeight = h ∧ NearHover t.dyn.state l.psi l.target w (C * (q ^ n * b + δ)) := by
  obtain ⟨r, hr0, C, hC, q, q0, q1, H⟩ := C143_settles ms l cP cV cR w hP hV hR ht hs hr h1
  refine ⟨r, hr0, C, hC, q, q0, q1, fun p s b δ h n hc hh hu f1 f2 f3 hn hb hδ hδr hcalm hfl => ?_⟩
  obtain ⟨t, t1, -, -, t4⟩ := H p s b δ n hc hh hu f1 f2 f3 hn hb hδ hδr hcalm
  refine ⟨floored h t, floored_hold hh.floor hh.extForce (fun k hk => ?_) t1, rfl, rfl, t4⟩
  obtain ⟨t', r1, -, -, r4⟩ := H p s b δ k hc hh hu f1 f2 f3 hn hb hδ hδr (hcalm.mono hk)
  exact ⟨t', r1, high_enough hC q0 q1 ((abs_nonneg _).trans (hn.pos 0)) (r4.pos 2) hfl⟩

omit [Noise ℝ] in
/-- **C156, trajectory mode.** What C144 says about following a slow path, with the floor enabled, if the path
is high enough above it. -/
theorem C156_path (ms : Fin 4 → Motor ℝ) (l : Loop) (T : Fin 3 → PidTuning) (cT cR : Pid ℝ 3)
    (w κ : ℝ) (hT : Tuned cT T) (hR : Tuned cR l.R) (ht : l.FollowTrim T 0 w)
    (hs : l.FollowStable T w) (hr : Loop.FollowRoom l T ms cT cR 0 w) (h1 : l.dt ≤ 1 / 100) (hκ : 0 < κ)
    (hk : ∀ i, κ ≤ |(T i).kd|) :
    ∃ r > 0, ∃ C ≥ 0, ∃ q, 0 ≤ q ∧ q < 1 ∧ ∀ [Noise ℝ] p s b P P1 P2 P3 U A J δ h n,
      Loop.Craft l p ms → InFollow s p ms l cT cR → IsUnitQ s.dyn.state.ori →
      s.ctl.traj.firstRun = true → s.ctl.indi.pid.firstRun = true → Path P P1 P2 P3 U A J →
      NearFlight s.dyn.state l.psi (P 0) (P1 0) w b → b < r → δ < r → (1 + 1 / κ) * A + J / κ ≤ δ →
      |l.drag| * ((U + A / κ) * (U + A / κ + 1)) ≤ δ → Calm s.dyn.model p.forceNoise l.dt δ n →
      (∀ τ, h ≤ P τ 2 - C * (b + δ)) →
      ∃ t, Sim.Runs s (.enableFloor h :: trackCalls l.dt (fun k => P (k * l.dt)) (fun k => P1 (k * l.dt))
          (fun k => P2 (k * l.dt)) 0 n) t ∧
        t.floorEnable = true ∧ t.floorHeight = h ∧
        NearFlight t.dyn.state l.psi (P (n * l.dt)) (P1 (n * l.dt)) w (C * (q ^ n * b + δ)) := by
  obtain ⟨r, hr0, C, hC, q, q0, q1, H⟩ := C144_path ms l T cT cR w κ hT hR ht hs hr h1 hκ hk
  refine ⟨r, hr0, C, hC, q, q0, q1, fun p s b P P1 P2 P3 U A J δ h n hc hh hu f1 f3 hpath hn hb hδr hδ hair hcalm hfl => ?_⟩
  obtain ⟨t, t1, -, -, t4⟩ := H p s b P P1 P2 P3 U A J δ n hc hh hu f1 f3 hpath hn hb hδr hδ hair hcalm
  refine ⟨floored h t, floored_track hh.floor hh.extForce (fun k hk => ?_) t1, rfl, rfl, t4⟩
  obtain ⟨t', r1, -, -, r4⟩ := H p s b P P1 P2 P3 U A J δ k hc hh hu f1 f3 hpath hn hb hδr hδ hair (hcalm.mono hk)
  exact ⟨t', r1, high_enough hC q0 q1 ((abs_nonneg _).trans (hn.pos 0)) (r4.pos 2) (hfl _)⟩

omit [Noise ℝ] in
/-- The hypotheses are met by the shipped configuration, as in C143. -/
theorem C156_shipped : ∃ p : SimParams ℝ 4, getParams false (some shipped) = some (0, p) ∧
    getSimTime (some (shipped : Config ℝ)) = (60, 1 / 1000) ∧ ∃ ms, p.dyn.model.motors = List.ofFn ms ∧
    ∀ psi target, ∃ r > 0, ∃ C ≥ 0, ∃ q, 0 ≤ q ∧ q < 1 ∧ ∀ [Noise ℝ] (s : Sim ℝ 4) (σ b δ h : ℝ) (n : ℕ),
      s.dyn.model.core = some (Model.coreOf { p.dyn.model with forceNoise := σ } ms) → s.ctl = Ctl.mk' p.ctl →
      s.armed = true → s.mode = .position → s.yawMode = .angle → s.refYaw = psi → s.refPos = target →
      s.floorEnable = false → s.extForce = 0 → IsUnitQ s.dyn.state.ori →
      NearHover s.dyn.state psi target shippedSpeed b → b < r → 0 ≤ δ → δ < r →
      Calm s.dyn.model σ (1 / 1000) δ n → h ≤ target 2 - C * (b + δ) →
      ∃ t, Sim.Runs s (.enableFloor h :: cycles (1 / 1000) (List.replicate n (1 / 1000))) t ∧
        t.floorEnable = true ∧ t.floorHeight = h ∧
        NearHover t.dyn.state psi target shippedSpeed (C * (q ^ n * b + δ)) := by
  obtain ⟨p, e1, e2, ms, e3, H⟩ := C143_shipped
  refine ⟨p, e1, e2, ms, e3, fun psi target => ?_⟩
  obtain ⟨r, hr0, C, hC, q, q0, q1, H⟩ := H psi target
  refine ⟨r, hr0, C, hC, q, q0, q1, fun s σ b δ h n a1 a2 a3 a4 a5 a6 a7 a8 a9 a10 hn hb hδ hδr hcalm hfl => ?_⟩
  obtain ⟨t, t1, t4⟩ := H s σ b δ n a1 a2 a3 a4 a5 a6 a7 a8 a9 a10 hn hb hδ hδr hcalm
  refine ⟨floored h t, floored_hold a8 a9 (fun k hk => ?_) t1, rfl, rfl, t4⟩
  obtain ⟨t', r1, r4⟩ := H s σ b δ k a1 a2 a3 a4 a5 a6 a7 a8 a9 a10 hn hb hδ hδr (hcalm.mono hk)
  exact ⟨t', r1, high_enough hC q0 q1 ((abs_nonneg _).trans (hn.pos 0)) (r4.pos 2) hfl⟩

omit [Noise ℝ] in
/-- The same for the trajectory controller of the shipped configuration, as in C144. -/
theorem C156_shipped_path : ∃ p : SimParams ℝ 4, getParams true (some shipped) = some (0, p) ∧
    getSimTime (some (shipped : Config ℝ)) = (60, 1 / 1000) ∧ ∃ ms, p.dyn.model.motors = List.ofFn ms ∧
    ∀ psi d, ∃ r > 0, ∃ C ≥ 0, ∃ q, 0 ≤ q ∧ q < 1 ∧ ∀ [Noise ℝ] (s : Sim ℝ 4) (X X1 X2 X3 : ℝ → Vec 3 ℝ)
      (U A J σ b δ h : ℝ) (n : ℕ),
      s.dyn.model.core = some (Model.coreOf { p.dyn.model with forceNoise := σ, drag := d } ms) →
      s.ctl = Ctl.mk' p.ctl → s.armed = true → s.mode = .trajectory → s.yawMode = .angle → s.refYaw = psi →
      s.floorEnable = false → s.extForce = 0 → IsUnitQ s.dyn.state.ori → Path X X1 X2 X3 U A J →
      NearFlight s.dyn.state psi (X 0) (X1 0) shippedSpeed b → b < r → δ < r → 7 / 6 * A + J / 6 ≤ δ →
      |d| * ((U + A / 6) * (U + A / 6 + 1)) ≤ δ → Calm s.dyn.model σ (1 / 1000) δ n →
      (∀ τ, h ≤ X τ 2 - C * (b + δ)) →
      ∃ t, Sim.Runs s (.enableFloor h :: trackCalls (1 / 1000) (fun k => X (k * (1 / 1000)))
          (fun k => X1 (k * (1 / 1000))) (fun k => X2 (k * (1 / 1000))) 0 n) t ∧
        t.floorEnable = true ∧ t.floorHeight = h ∧
        NearFlight t.dyn.state psi (X (n * (1 / 1000))) (X1 (n * (1 / 1000))) shippedSpeed (C * (q ^ n * b + δ)) := by
  obtain ⟨p, e1, e2, ms, e3, H⟩ := C144_shipped
  refine ⟨p, e1, e2, ms, e3, fun psi d => ?_⟩
  obtain ⟨r, hr0, C, hC, q, q0, q1, H⟩ := H psi d
  refine ⟨r, hr0, C, hC, q, q0, q1,
    fun s X X1 X2 X3 U A J σ b δ h n a1 a2 a3 a4 a5 a6 a8 a9 a10 hX hn hb hδr hδ hair hcalm hfl => ?_⟩
  obtain ⟨t, t1, t4⟩ := H s X X1 X2 X3 U A J σ b δ n a1 a2 a3 a4 a5 a6 a8 a9 a10 hX hn hb hδr hδ hair hcalm
  refine ⟨floored h t, floored_track a8 a9 (fun k hk => ?_) t1, rfl, rfl, t4⟩
  obtain ⟨t', r1, r4⟩ := H s X X1 X2 X3 U A J σ b δ k a1 a2 a3 a4 a5 a6 a8 a9 a10 hX hn hb hδr hδ hair (hcalm.mono hk)
  exact ⟨t', r1, high_enough hC q0 q1 ((abs_nonneg _).trans (hn.pos 0)) (r4.pos 2) (hfl _)⟩

end Verif.Props
