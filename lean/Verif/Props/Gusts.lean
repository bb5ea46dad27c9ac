import Verif.Props.ShippedDisturbed
import Verif.Props.Track
import Verif.Props.Chance
import Verif.Lemmas.Tail

/-!
# How likely the process noise is withstood (C143, C144)
-/

namespace Verif.Props

open Verif Flt Spec Stability MeasureTheory ProbabilityTheory

variable {Ω : Type} [MeasurableSpace Ω]

/-- The samples of the next `n` cycles give forces of at most `δ`, in the outcome `ω`. -/
def CalmIn (W : ℤ → ℕ → Fin 3 → Ω → ℝ) (ω : Ω) (m : Model ℝ 4) (q dt δ : ℝ) (n : ℕ) : Prop :=
  let _ := outcome W ω
  Calm m q dt δ n

/-- These calls succeed and lead from `s` to `t`, in the outcome `ω`. -/
def RunsIn (W : ℤ → ℕ → Fin 3 → Ω → ℝ) (ω : Ω) (s : Sim ℝ 4) (os : List (SimOp ℝ 4)) (t : Sim ℝ 4) : Prop :=
  let _ := outcome W ω
  Sim.Runs s os t

lemma calm_chance (W : ℤ → ℕ → Fin 3 → Ω → ℝ) (P : Measure Ω) {seed : ℤ} (h : StandardNormal (W seed) P) (idx : ℕ)
    {q dt δ : ℝ} (hq : 0 < q) (hdt : 0 < dt) (hδ : 0 ≤ δ) (n : ℕ) (m : Ω → Model ℝ 4) (hm : ∀ ω, (m ω).rng = ⟨seed, idx⟩) :
    P {ω | ¬ CalmIn W ω (m ω) q dt δ n} ≤ ENNReal.ofReal (12 * n * Real.exp (-(δ ^ 2 * dt) / (2 * q))) := by
  set c := √(q / dt) with hc
  have c0 : 0 < c := Real.sqrt_pos.2 (div_pos hq hdt)
  have c2 : c ^ 2 = q / dt := Real.sq_sqrt (div_pos hq hdt).le
  have ht := normal_tails (P := P) ((Finset.Ico idx (idx + 2 * n)) ×ˢ (Finset.univ : Finset (Fin 3)))
    (X := fun x => W seed x.1 x.2) (fun x _ => h.law x.1 x.2) (ε := δ / c) (by positivity)
  refine (measure_mono fun ω hω => ?_).trans (ht.trans_eq ?_)
  · simp only [CalmIn, Calm, hm, not_forall, not_le] at hω
    obtain ⟨k, k1, k2, i, hi⟩ := hω
    refine ⟨(k, i), by simp [k1, k2], ?_⟩
    rw [div_lt_iff₀' c0]
    exact hi
  · congr 1
    have e : -(δ / c) ^ 2 / 2 = -(δ ^ 2 * dt) / (2 * q) := by
      rw [div_pow, c2]; field_simp
    rw [e, Finset.card_product, Nat.card_Ico, Finset.card_univ, Fintype.card_fin]
    push_cast
    rw [show (idx : ℕ) + 2 * n - idx = 2 * n by omega]
    push_cast
    ring

/-- **C143, likelihood.** With independent normal samples, the position hold of C143 fails to stay within `C (q^n b + δ)` of hover
after `n` cycles with a probability of at most `12 n exp (-δ² dt / (2 σ))`, where `σ` is the intensity of the noise. -/
theorem C143_likely (ms : Fin 4 → Motor ℝ) (l : Loop) (cP cV cR : Pid ℝ 3) (w : ℝ) (hP : Tuned cP l.P) (hV : Tuned cV l.V)
    (hR : Tuned cR l.R) (ht : l.Trim 0 w) (hs : l.Stable w) (hr : Loop.Room l ms cP cV cR 0 w) (h1 : l.dt ≤ 1 / 100) :
    ∃ r > 0, ∃ C ≥ 0, ∃ q, 0 ≤ q ∧ q < 1 ∧ ∀ (W : ℤ → ℕ → Fin 3 → Ω → ℝ) (P : Measure Ω) (p : ModelParams ℝ) (seed : ℤ)
      (idx : ℕ) (s : Ω → Sim ℝ 4) (b δ : ℝ) (n : ℕ), StandardNormal (W seed) P → Loop.Craft l p ms → 0 < p.forceNoise →
      (∀ ω, InHold (s ω) p ms l cP cV cR ∧ IsUnitQ (s ω).dyn.state.ori ∧ (s ω).ctl.pos.firstRun = true ∧
        (s ω).ctl.vel.firstRun = true ∧ (s ω).ctl.indi.pid.firstRun = true ∧
        NearHover (s ω).dyn.state l.psi l.target w b ∧ (s ω).dyn.model.rng = ⟨seed, idx⟩) →
      b < r → 0 ≤ δ → δ < r →
      P {ω | ¬ ∃ t, RunsIn W ω (s ω) (cycles l.dt (List.replicate n l.dt)) t ∧
        NearHover t.dyn.state l.psi l.target w (C * (q ^ n * b + δ))} ≤
          ENNReal.ofReal (12 * n * Real.exp (-(δ ^ 2 * l.dt) / (2 * p.forceNoise))) := by
  obtain ⟨r, hr, C, hC, q, q0, q1, H⟩ := C143_settles ms l cP cV cR w hP hV hR ht hs hr h1
  refine ⟨r, hr, C, hC, q, q0, q1, fun W P p seed idx s b δ n hW hc hn hin hb hδ hδr => ?_⟩
  refine (measure_mono fun ω hω => ?_).trans
    (calm_chance W P hW idx hn ht.dt hδ n (fun ω => (s ω).dyn.model) fun ω => (hin ω).2.2.2.2.2.2)
  intro hcalm
  refine hω ?_
  obtain ⟨i1, i2, i3, i4, i5, i6, -⟩ := hin ω
  obtain ⟨t, t1, -, -, t4⟩ := @H (outcome W ω) p (s ω) b δ n hc i1 i2 i3 i4 i5 i6 hb hδ hδr hcalm
  exact ⟨t, t1, t4⟩

/-- **C144, likelihood.** With independent normal samples, a flight along a slow path fails to stay within `C (q^n b + δ)` of the
path after `n` cycles with a probability of at most `12 n exp (-δ² dt / (2 σ))`. -/
theorem C144_likely (ms : Fin 4 → Motor ℝ) (l : Loop) (T : Fin 3 → PidTuning) (cT cR : Pid ℝ 3)
    (w κ : ℝ) (hT : Tuned cT T) (hR : Tuned cR l.R) (ht : l.FollowTrim T 0 w)
    (hs : l.FollowStable T w) (hr : Loop.FollowRoom l T ms cT cR 0 w) (h1 : l.dt ≤ 1 / 100) (hκ : 0 < κ)
    (hk : ∀ i, κ ≤ |(T i).kd|) :
    ∃ r > 0, ∃ C ≥ 0, ∃ q, 0 ≤ q ∧ q < 1 ∧ ∀ (W : ℤ → ℕ → Fin 3 → Ω → ℝ) (P : Measure Ω) (p : ModelParams ℝ) (seed : ℤ)
      (idx : ℕ) (s : Ω → Sim ℝ 4) (X X1 X2 X3 : ℝ → Vec 3 ℝ) (U A J b δ : ℝ) (n : ℕ), StandardNormal (W seed) P →
      Loop.Craft l p ms → 0 < p.forceNoise → Path X X1 X2 X3 U A J →
      (∀ ω, InFollow (s ω) p ms l cT cR ∧ IsUnitQ (s ω).dyn.state.ori ∧ (s ω).ctl.traj.firstRun = true ∧
        (s ω).ctl.indi.pid.firstRun = true ∧ NearFlight (s ω).dyn.state l.psi (X 0) (X1 0) w b ∧
        (s ω).dyn.model.rng = ⟨seed, idx⟩) →
      b < r → δ < r → (1 + 1 / κ) * A + J / κ ≤ δ → |l.drag| * ((U + A / κ) * (U + A / κ + 1)) ≤ δ →
      P {ω | ¬ ∃ t, RunsIn W ω (s ω) (trackCalls l.dt (fun k => X (k * l.dt)) (fun k => X1 (k * l.dt))
          (fun k => X2 (k * l.dt)) 0 n) t ∧
        NearFlight t.dyn.state l.psi (X (n * l.dt)) (X1 (n * l.dt)) w (C * (q ^ n * b + δ))} ≤
          ENNReal.ofReal (12 * n * Real.exp (-(δ ^ 2 * l.dt) / (2 * p.forceNoise))) := by
  obtain ⟨r, hr, C, hC, q, q0, q1, H⟩ := C144_path ms l T cT cR w κ hT hR ht hs hr h1 hκ hk
  refine ⟨r, hr, C, hC, q, q0, q1, fun W P p seed idx s X X1 X2 X3 U A J b δ n hW hc hn hX hin hb hδr hδ hair => ?_⟩
  have hδ0 : 0 ≤ δ := by
    have hA : 0 ≤ A := (abs_nonneg _).trans (hX.accBound 0 0)
    have hJ : 0 ≤ J := (abs_nonneg _).trans (hX.jerkBound 0 0)
    exact le_trans (by positivity) hδ
  refine (measure_mono fun ω hω => ?_).trans
    (calm_chance W P hW idx hn ht.dt hδ0 n (fun ω => (s ω).dyn.model) fun ω => (hin ω).2.2.2.2.2)
  intro hcalm
  refine hω ?_
  obtain ⟨i1, i2, i3, i4, i5, -⟩ := hin ω
  obtain ⟨t, t1, -, -, t4⟩ := @H (outcome W ω) p (s ω) b X X1 X2 X3 U A J δ n hc i1 i2 i3 i4 hX i5 hb hδr hδ hair hcalm
  exact ⟨t, t1, t4⟩

end Verif.Props
