import Verif.Props.AcroThrust
import Verif.Lemmas.TurnStep

/-!
# In acro mode the vehicle turns like a body with the requested rates (C148)
-/

namespace Verif.Props

open Verif Flt Spec Stability Example

/-- The attitudes `g` are those of a body that turns during the `k`-th period about the axis `d k`, fixed in the body, through the
angle `|d k| dt`. -/
def TurnsAt (g : ℕ → Quat ℝ) (dt : ℝ) (d : ℕ → Vec 3 ℝ) : Prop :=
  ∀ k, toH (g (k + 1)) = toH (g k) * NormedSpace.exp ((dt / 2) • pureH (d k))

/-- The calls of a further cycle. -/
lemma acroCalls_succ (dt T : ℝ) (d : ℕ → Vec 3 ℝ) (n : ℕ) : ∀ k, acroCalls dt T d k (n + 1) =
    acroCalls dt T d k n ++ [.setRefAcro T (d (k + n)), .updateController dt, .updateDynamics dt] := by
  induction n with
  | zero => intro k; rfl
  | succ n ih =>
    intro k
    rw [acroCalls, ih (k + 1), acroCalls, show k + 1 + n = k + (n + 1) by ring]
    rfl

section
variable [Noise ℝ]

lemma runs_split {os os' : List (SimOp ℝ 4)} : ∀ {s v : Sim ℝ 4}, Sim.Runs s (os ++ os') v → ∃ t, Sim.Runs s os t ∧ Sim.Runs t os' v := by
  induction os with
  | nil => exact fun h => ⟨_, .nil _, h⟩
  | cons o os ih =>
    intro s v h
    cases h with
    | ok e r => obtain ⟨t, t1, t2⟩ := ih r; exact ⟨t, .ok e t1, t2⟩
    | throw e r => obtain ⟨t, t1, t2⟩ := ih r; exact ⟨t, .throw e t1, t2⟩

/-- The attitude after a cycle. -/
lemma acro_cycle_ori {s t : Sim ℝ 4} {p : ModelParams ℝ} {ms : Fin 4 → Motor ℝ} {l : Loop} {cR : Pid ℝ 3} {T dt : ℝ} {d : Vec 3 ℝ}
    (h : InAcro s p ms l cR) (h0 : 0 < dt) (h1 : dt ≤ 1 / 100)
    (hr : Sim.Runs s [.setRefAcro T d, .updateController dt, .updateDynamics dt] t) :
    t.dyn.state.ori = quatIntegrate s.dyn.state.ori s.dyn.state.angVel dt := by
  set v := (s.setRefAcro T d).updateController dt with hv
  have hd : v.dyn = s.dyn := by
    rw [hv, Sim.updateController_armed (s := s.setRefAcro T d) h.armed dt]; rfl
  have hf : v.floorEnable = false := by
    rw [hv, Sim.updateController_armed (s := s.setRefAcro T d) h.armed dt]; exact h.floor
  have key : (∃ u, v.updateDynamics dt = .ok u ∧ t = u) ∨ ∃ u, v.updateDynamics dt = .throw u := by
    cases hr with
    | throw e _ => cases e
    | ok e r =>
      cases e
      cases r with
      | throw e _ => cases e
      | ok e r =>
        cases e
        cases r with
        | throw e r => exact .inr ⟨_, e⟩
        | ok e r => cases r; exact .inl ⟨_, e, rfl⟩
  have hb : ∀ d, Sim.belowFloor { v with extForce := vzero, dyn := d, floorCollision := false } = false := fun d => by
    simp [Sim.belowFloor, hf]
  rcases Sim.updateDynamics_cases v dt with ⟨hb', -⟩ | ⟨ext, -, hup⟩
  · simp [Sim.belowFloor, hf] at hb'
  · rw [Dyn.process_small_real _ _ _ _ h0 h1] at hup
    cases hs : v.dyn.singleStep v.actuation dt ext (!v.floorCollision) with
    | bad => rw [hs] at hup; rcases key with ⟨u, e, -⟩ | ⟨u, e⟩ <;> rw [e] at hup <;> cases hup
    | throw _ =>
      simp only [Dyn.singleStep] at hs
      split at hs
      · cases hs
      · split at hs
        · cases hs
        · split at hs <;> cases hs
    | ok e =>
      rw [hs] at hup
      simp only [hb] at hup
      obtain ⟨c, ms', -, -, -, rfl⟩ := Dyn.singleStep_ok hs
      rcases key with ⟨u, e, rfl⟩ | ⟨u, e⟩
      · rw [e] at hup
        simp only [Bool.false_eq_true, if_false] at hup
        cases hup
        rw [← hd]
        rfl
      · rw [e] at hup
        simp at hup

omit [Noise ℝ] in
lemma dist3_le_of_abs {u v : Vec 3 ℝ} {ε : ℝ} (h : ∀ i, |u i - v i| ≤ ε) : dist3 u v ≤ 2 * ε := by
  have h0 : 0 ≤ ε := (abs_nonneg _).trans (h 0)
  rw [dist3, len3]
  refine Real.sqrt_le_iff.2 ⟨by positivity, ?_⟩
  have k : ∀ i, (u - v) i ^ 2 ≤ ε ^ 2 := fun i => sq_le_sq' (neg_le_of_abs_le (h i)) (le_of_abs_le (h i))
  nlinarith [k 0, k 1, k 2, sq_nonneg ε]

omit [Noise ℝ] in
lemma Calm.le [Noise ℝ] {m : Model ℝ 4} {q dt δ : ℝ} {n k : ℕ} (h : Calm m q dt δ n) (hk : k ≤ n) : Calm m q dt δ k :=
  fun j h1 h2 i => h j h1 (by omega) i

end

/-- **C148.** Under the conditions of C146 the vehicle turns like a body with exactly the requested rates, whatever its attitude: after
`n` cycles the places to which the two attitudes turn a vector `v` are apart by at most `C (b + n δ) |v|` and the third order error of
the integrator, which is `(|d| dt)³ / 12` per cycle. -/
theorem C148_turns (ms : Fin 4 → Motor ℝ) (l : Loop) (cR : Pid ℝ 3) (T w : ℝ) (hR : Tuned cR l.R) (ht : l.SpinTrim T w)
    (hs : l.SpinStable w) (hr : Loop.SpinRoom l ms cR w) (h1 : l.dt ≤ 1 / 100) :
    ∃ r > 0, ∃ C ≥ 0, ∀ [Noise ℝ] p s b (d : ℕ → Vec 3 ℝ) δ n (g : ℕ → Quat ℝ), Loop.Craft l p ms →
      InAcro s p ms l cR → s.ctl.indi.pid.firstRun = true → IsUnitQ s.dyn.state.ori →
      (∀ i, |s.dyn.state.angVel i| ≤ b) → (∀ j, |s.dyn.state.motVel j - w| ≤ b) → (∀ i, |d 0 i| ≤ b) → b < r →
      0 ≤ δ → δ < r → (∀ k i, |d k i| < r) → (∀ k i, |d (k + 1) i - d k i| ≤ l.dt * δ) →
      Calm s.dyn.model p.forceNoise l.dt δ n → g 0 = s.dyn.state.ori → TurnsAt g l.dt d →
      ∃ t, Sim.Runs s (acroCalls l.dt T d 0 n) t ∧ ∀ v, dist3 (t.dyn.state.ori.rotate v) ((g n).rotate v) ≤
        (C * (b + n * δ) + ∑ k ∈ Finset.range n, (l.dt * len3 (d k)) ^ 3 / 12) * len3 v := by
  obtain ⟨r, hr0, C, hC, q, q0, q1, H⟩ := C146_settles ms l cR T w hR ht hs hr h1
  have hdt := ht.dt
  refine ⟨r, hr0, 2 * l.dt * C / (1 - q), div_nonneg (by positivity) (by linarith),
    fun p s b d δ n g hc hh hf hu ha hm hd0 hb hδ hδr hd hd' hcalm hg0 hg => ?_⟩
  have hb0 : 0 ≤ b := (abs_nonneg _).trans (ha 0)
  have hgu : ∀ k, IsUnitQ (g k) := fun k => by
    induction k with
    | zero => rw [hg0]; exact hu
    | succ k ih => exact turn_unit ih _ _ (hg k)
  have key : ∀ k ≤ n, ∃ t, Sim.Runs s (acroCalls l.dt T d 0 k) t ∧ InAcro t p ms l cR ∧ IsUnitQ t.dyn.state.ori ∧
      (∀ i, |t.dyn.state.angVel i - d k i| ≤ C * (q ^ k * b + δ)) ∧ ‖toH t.dyn.state.ori - toH (g k)‖ ≤
        ∑ j ∈ Finset.range k, (l.dt * (C * (q ^ j * b + δ)) + (l.dt * len3 (d j)) ^ 3 / 24) := by
    intro k
    induction k with
    | zero =>
      intro _
      obtain ⟨t, t1, t2, t3, -⟩ := H p s b d δ 0 hc hh hf ha hm hd0 hb hδ hδr hd hd' (Calm.le hcalm (by omega))
      cases t1
      exact ⟨s, .nil _, t2, hu, t3, by simp [hg0]⟩
    | succ k ih =>
      intro hk
      obtain ⟨t, t1, t2, t3, t4, t5⟩ := ih (by omega)
      obtain ⟨t', u1, u2, u3, -⟩ := H p s b d δ (k + 1) hc hh hf ha hm hd0 hb hδ hδr hd hd' (Calm.le hcalm hk)
      have u1' := u1
      rw [acroCalls_succ] at u1'
      obtain ⟨t'', w1, w2⟩ := runs_split u1'
      obtain rfl := acro_runs_unique t1 w1
      have ho := acro_cycle_ori t2 hdt h1 w2
      refine ⟨t', u1, u2, ?_, u3, ?_⟩
      · rw [ho]
        exact Quat.quatIntegrate_unit (fun hz => by
          have h2 := (Quat.n2_eq_zero _).2 hz
          rw [(Quat.isUnitQ_iff _).1 t3] at h2
          exact one_ne_zero h2) _ _
      · rw [ho, Finset.sum_range_succ]
        refine (turn_step t3 (hgu k) _ (d k) hdt.le (hg k)).trans ?_
        have e := mul_le_mul_of_nonneg_left (dist3_le_of_abs t4) (half_pos hdt).le
        have e2 : (l.dt / 2 * len3 (d k)) ^ 3 / 3 = (l.dt * len3 (d k)) ^ 3 / 24 := by ring
        linarith
  obtain ⟨t, t1, -, t3, -, t5⟩ := key n le_rfl
  refine ⟨t, t1, fun v => (rotate_dist t3 (hgu n) v).trans (mul_le_mul_of_nonneg_right ?_ (Real.sqrt_nonneg _))⟩
  rw [Finset.sum_add_distrib] at t5
  have hgeom : ∑ j ∈ Finset.range n, l.dt * (C * (q ^ j * b + δ)) ≤ l.dt * C / (1 - q) * (b + n * δ) := by
    have e : ∑ j ∈ Finset.range n, l.dt * (C * (q ^ j * b + δ)) = l.dt * C * ((∑ j ∈ Finset.range n, q ^ j) * b + n * δ) := by
      rw [Finset.sum_mul, mul_add, Finset.mul_sum]
      have : (n : ℝ) * δ = ∑ _j ∈ Finset.range n, δ := by simp
      rw [this, Finset.mul_sum, ← Finset.sum_add_distrib]
      exact Finset.sum_congr rfl fun j _ => by ring
    have h3 : 0 < 1 - q := by linarith
    have g1 : ∑ j ∈ Finset.range n, q ^ j ≤ (1 - q)⁻¹ := by
      rw [geom_sum_eq (by linarith), ← neg_div_neg_eq, neg_sub, neg_sub, div_eq_mul_inv]
      refine mul_le_of_le_one_left (inv_nonneg.2 h3.le) ?_
      have : 0 ≤ q ^ n := by positivity
      linarith
    have g2 : 1 ≤ (1 - q)⁻¹ := (one_le_inv₀ h3).2 (by linarith)
    have g3 : (n : ℝ) * δ ≤ (1 - q)⁻¹ * (n * δ) := le_mul_of_one_le_left (by positivity) g2
    rw [e, div_eq_mul_inv, mul_assoc (l.dt * C)]
    refine mul_le_mul_of_nonneg_left ?_ (by positivity)
    rw [mul_add]
    exact add_le_add (mul_le_mul_of_nonneg_right g1 hb0) g3
  have hcub : ∑ k ∈ Finset.range n, (l.dt * len3 (d k)) ^ 3 / 12 = 2 * ∑ k ∈ Finset.range n, (l.dt * len3 (d k)) ^ 3 / 24 := by
    rw [Finset.mul_sum]
    exact Finset.sum_congr rfl fun j _ => by ring
  have e3 : 2 * l.dt * C / (1 - q) * (b + n * δ) = 2 * (l.dt * C / (1 - q) * (b + n * δ)) := by ring
  rw [hcub, e3]
  linarith

/-- **C148, no rotation requested.** The vehicle keeps its attitude: it turns no vector `v` by more than `C (b + n δ) |v|`, without
noise by no more than `C b |v|`, however long it flies. -/
theorem C148_keeps (ms : Fin 4 → Motor ℝ) (l : Loop) (cR : Pid ℝ 3) (T w : ℝ) (hR : Tuned cR l.R) (ht : l.SpinTrim T w)
    (hs : l.SpinStable w) (hr : Loop.SpinRoom l ms cR w) (h1 : l.dt ≤ 1 / 100) :
    ∃ r > 0, ∃ C ≥ 0, ∀ [Noise ℝ] p s b δ n, Loop.Craft l p ms →
      InAcro s p ms l cR → s.ctl.indi.pid.firstRun = true → IsUnitQ s.dyn.state.ori →
      (∀ i, |s.dyn.state.angVel i| ≤ b) → (∀ j, |s.dyn.state.motVel j - w| ≤ b) → b < r →
      0 ≤ δ → δ < r → Calm s.dyn.model p.forceNoise l.dt δ n →
      ∃ t, Sim.Runs s (acroCalls l.dt T (fun _ _ => 0) 0 n) t ∧
        ∀ v, dist3 (t.dyn.state.ori.rotate v) (s.dyn.state.ori.rotate v) ≤ C * (b + n * δ) * len3 v := by
  obtain ⟨r, hr0, C, hC, H⟩ := C148_turns ms l cR T w hR ht hs hr h1
  refine ⟨r, hr0, C, hC, fun p s b δ n hc hh hf hu ha hm hb hδ hδr hcalm => ?_⟩
  have hb0 : 0 ≤ b := (abs_nonneg _).trans (ha 0)
  have hz : pureH (fun _ => 0) = 0 := rfl
  obtain ⟨t, t1, t2⟩ := H p s b (fun _ _ => 0) δ n (fun _ => s.dyn.state.ori) hc hh hf hu ha hm (fun i => by simpa using hb0) hb hδ hδr
    (fun _ _ => by simpa using hr0) (fun _ _ => by simpa using mul_nonneg ht.dt.le hδ) hcalm rfl (fun k => by
      rw [hz, smul_zero, NormedSpace.exp_zero, mul_one])
  refine ⟨t, t1, fun v => (t2 v).trans (le_of_eq ?_)⟩
  simp [len3]

/-- **C148, shipped configuration.** The quadrotor of the examples at their period of 1 ms, whatever its drag and process noise, with
its controllers freshly constructed, at every thrust between 0.1 N and 36 N. -/
theorem C148_shipped : ∃ p : SimParams ℝ 4, getParams false (some shipped) = some (0, p) ∧
    getSimTime (some (shipped : Config ℝ)) = (60, 1 / 1000) ∧ ∃ ms, p.dyn.model.motors = List.ofFn ms ∧
    ∀ c T, 1 / 10 ≤ T → T ≤ 36 → ∃ r > 0, ∃ C ≥ 0,
      ∀ [Noise ℝ] (s : Sim ℝ 4) (d : ℕ → Vec 3 ℝ) (σ b δ : ℝ) (n : ℕ) (g : ℕ → Quat ℝ),
      s.dyn.model.core = some (Model.coreOf { p.dyn.model with forceNoise := σ, drag := c } ms) →
      s.ctl = Ctl.mk' p.ctl → s.armed = true → s.mode = .acro → s.floorEnable = false → IsUnitQ s.dyn.state.ori →
      (∀ i, |s.dyn.state.angVel i| ≤ b) → (∀ j, |s.dyn.state.motVel j - thrustSpeed T| ≤ b) → (∀ i, |d 0 i| ≤ b) → b < r →
      0 ≤ δ → δ < r → (∀ k i, |d k i| < r) → (∀ k i, |d (k + 1) i - d k i| ≤ 1 / 1000 * δ) →
      Calm s.dyn.model σ (1 / 1000) δ n → g 0 = s.dyn.state.ori → TurnsAt g (1 / 1000) d →
      ∃ t, Sim.Runs s (acroCalls (1 / 1000) T d 0 n) t ∧ ∀ v, dist3 (t.dyn.state.ori.rotate v) ((g n).rotate v) ≤
        (C * (b + n * δ) + ∑ k ∈ Finset.range n, (1 / 1000 * len3 (d k)) ^ 3 / 12) * len3 v := by
  obtain ⟨p, hp, ms, B, hms, H⟩ := shipped_acro
  refine ⟨p, hp, shipped_time, ms, hms, fun c T hT1 hT2 => ?_⟩
  obtain ⟨l, hl, his, hR, ht, hs, hin⟩ := H c
  obtain ⟨ht, hroom⟩ := ht T (by linarith) hT2
  have hdt : l.dt = 1 / 1000 := by rw [hl]; rfl
  obtain ⟨r, hr, C, hC, H⟩ := C148_turns ms l _ T _ hR ht (hs T hT1) hroom (by rw [hdt]; norm_num)
  rw [hdt] at H
  exact ⟨r, hr, C, hC, fun s d σ b δ n g i1 i2 i3 i4 i5 hu ha hm hd0 hb hδ hδr hd hd' hcalm hg0 hg =>
    H _ s b d δ n g (his σ) (hin s σ i1 (by rw [i2]; rfl) (by rw [i2]; rfl)
      (by rw [i2]; exact ⟨rfl, rfl, rfl, rfl, rfl, rfl, rfl, rfl, rfl, rfl⟩) i3 i4 i5) (by rw [i2]; rfl) hu ha hm hd0 hb hδ hδr hd hd'
      hcalm hg0 hg⟩

/-- Non-vacuity of `C148_shipped`, and thereby of `C148_turns` and `C148_keeps`: the vehicle of `shipped_roll`, upside down, which is to
rotate ever faster; a body with these rates exists. -/
example : ∀ r > 0, ∃ (_ : Noise ℝ) (p : SimParams ℝ 4) (ms : Fin 4 → Motor ℝ), getParams false (some shipped) = some (0, p) ∧
    0 < p.dyn.model.forceNoise ∧ ∀ T, ∃ (s : Sim ℝ 4) (b δ ν : ℝ) (g : ℕ → Quat ℝ), 0 < ν ∧ 0 < b ∧ b < r ∧ 0 ≤ δ ∧ δ < r ∧
      s.dyn.model.core = some (Model.coreOf p.dyn.model ms) ∧ s.ctl = Ctl.mk' p.ctl ∧ s.armed = true ∧ s.mode = .acro ∧
      s.floorEnable = false ∧ IsUnitQ s.dyn.state.ori ∧
      (∀ i, |s.dyn.state.angVel i| ≤ b) ∧ (∀ j, |s.dyn.state.motVel j - thrustSpeed T| ≤ b) ∧
      (∀ i, |speedUp ν 0 i| ≤ b) ∧ (∀ k i, |speedUp ν k i| < r) ∧
      (∀ k i, |speedUp ν (k + 1) i - speedUp ν k i| ≤ 1 / 1000 * δ) ∧
      (∀ n, Calm s.dyn.model p.dyn.model.forceNoise (1 / 1000) δ n) ∧ g 0 = s.dyn.state.ori ∧ TurnsAt g (1 / 1000) (speedUp ν) := by
  intro r hr
  obtain ⟨nz, p, ms, -, hp, hn, -, H⟩ := shipped_roll r hr
  refine ⟨nz, p, ms, hp, hn, fun T => ?_⟩
  obtain ⟨s, b, δ, ν, h1, h2, h3, h4, h5, h6, h7, h8, h9, h10, -, h12, -, h14, -, h16, h17, h18, h19, -, h21⟩ := H T
  let ofH : Quaternion ℝ → Quat ℝ := fun a => ⟨a.re, a.imI, a.imJ, a.imK⟩
  let g : ℕ → Quat ℝ := fun k => Nat.rec s.dyn.state.ori
    (fun k q => ofH (toH q * NormedSpace.exp (((1 / 1000 : ℝ) / 2) • pureH (speedUp ν k)))) k
  exact ⟨s, b, δ, ν, g, h1, h2, h3, h4, h5, h6, h7, h8, h9, h10, by rw [h12]; norm_num [IsUnitQ], h14, h16, h17, h18, h19, h21, rfl,
    fun _ => rfl⟩

end Verif.Props
