import Verif.Props.AcroHold
import Verif.Props.ShippedCruise

/-!
# The shipped rate controller attains requested rates and thrust (C146)
-/

namespace Verif.Props

open Verif Flt Spec Stability MeasureTheory ProbabilityTheory Example Polynomial

variable {Ω : Type} [MeasurableSpace Ω]

/-- **C146, likelihood.** With independent normal samples, a flight in acro mode fails to come within `C (q^n b + δ)` of the
requested rates and thrust with a probability of at most `12 n exp (-δ² dt / (2 σ))`, where `σ` is the intensity of the noise. -/
theorem C146_likely (ms : Fin 4 → Motor ℝ) (l : Loop) (cR : Pid ℝ 3) (T w : ℝ) (hR : Tuned cR l.R) (ht : l.SpinTrim T w)
    (hs : l.SpinStable w) (hr : Loop.SpinRoom l ms cR w) (h1 : l.dt ≤ 1 / 100) :
    ∃ r > 0, ∃ C ≥ 0, ∃ q, 0 ≤ q ∧ q < 1 ∧ ∀ (W : ℤ → ℕ → Fin 3 → Ω → ℝ) (P : Measure Ω) (p : ModelParams ℝ) (seed : ℤ)
      (idx : ℕ) (s : Ω → Sim ℝ 4) (d : ℕ → Vec 3 ℝ) (b δ : ℝ) (n : ℕ), StandardNormal (W seed) P →
      Loop.Craft l p ms → 0 < p.forceNoise → (∀ k i, |d k i| < r) → (∀ k i, |d (k + 1) i - d k i| ≤ l.dt * δ) →
      (∀ ω, InAcro (s ω) p ms l cR ∧ (s ω).ctl.indi.pid.firstRun = true ∧ (∀ i, |(s ω).dyn.state.angVel i| ≤ b) ∧
        (∀ j, |(s ω).dyn.state.motVel j - w| ≤ b) ∧ (s ω).dyn.model.rng = ⟨seed, idx⟩) →
      (∀ i, |d 0 i| ≤ b) → b < r → 0 ≤ δ → δ < r →
      P {ω | ¬ ∃ t, RunsIn W ω (s ω) (acroCalls l.dt T d 0 n) t ∧
        (∀ i, |t.dyn.state.angVel i - d n i| ≤ C * (q ^ n * b + δ)) ∧
        ∀ i, |(∑ j, rotorForce (ms j) (t.dyn.state.motVel j)) i - (![0, 0, T] : Vec 3 ℝ) i| ≤ C * (q ^ n * b + δ)} ≤
          ENNReal.ofReal (12 * n * Real.exp (-(δ ^ 2 * l.dt) / (2 * p.forceNoise))) := by
  obtain ⟨r, hr, C, hC, q, q0, q1, H⟩ := C146_settles ms l cR T w hR ht hs hr h1
  refine ⟨r, hr, C, hC, q, q0, q1, fun W P p seed idx s d b δ n hW hc hn hd hd' hin hd0 hb hδ hδr => ?_⟩
  refine (measure_mono fun ω hω => ?_).trans
    (calm_chance W P hW idx hn ht.dt hδ n (fun ω => (s ω).dyn.model) fun ω => (hin ω).2.2.2.2)
  intro hcalm
  refine hω ?_
  obtain ⟨i1, i2, i3, i4, -⟩ := hin ω
  obtain ⟨t, t1, -, t4⟩ := @H (outcome W ω) p (s ω) b d δ n hc i1 i2 i3 i4 hd0 hb hδ hδr hd hd' hcalm
  exact ⟨t, t1, t4⟩

/-- Characteristic polynomial of the rates. -/
noncomputable def shippedSpin (ρ : ℝ) : ℝ[X] :=
  (X - C 1) * (X - C (2 / 5)) * (X - C 1) * (X - C (19 / 20)) +
    C (1 / 1000) * ratePoly * (C (1 / 20) + C ρ * (X - C 1))

lemma spin_root (ρ : ℝ) (z : ℂ) : aeval z (shippedSpin ρ) = rateChar shippedRate (1 / 20) ρ (1 / 1000) z := by
  simp only [shippedSpin, ratePoly, rateChar, PidTuning.den, PidTuning.num, PidTuning.intDen,
    PidTuning.filDen, shippedRate, map_add, map_mul, map_sub, map_pow, aeval_X, aeval_C]
  norm_num
  ring

lemma spin_degree (ρ : ℝ) : (shippedSpin ρ).Monic ∧ (shippedSpin ρ).natDegree = 2 + 2 := by
  have m : ∀ a : ℝ, (X - C a).Monic := monic_X_sub_C
  refine degree_of_add (n := 3) ?_ ?_ ?_
  · exact ((((m _).mul (m _)).mul (m _)).mul (m _))
  · compute_degree!
  · unfold ratePoly
    compute_degree!

/-- With the shipped gains and time step the rates are stable, as long as the rotors are not too slow. -/
lemma spin_stable {ρ : ℝ} (h1 : 0 ≤ ρ) (h2 : ρ ≤ 7) (z : ℂ) (hz : 1 ≤ ‖z‖) :
    rateChar shippedRate (1 / 20) ρ (1 / 1000) z ≠ 0 := by
  rw [← spin_root]
  intro h
  have hev : ∀ t : ℝ, (shippedSpin ρ).eval t = (t - 1) ^ 2 * (t - 2 / 5) * (t - 19 / 20) +
      1 / 1000 * (9 * ((t - 1) * (t - 2 / 5)) + 3 / 1000 * t * (t - 2 / 5) + 180 * (t - 1) ^ 2) *
        (1 / 20 + ρ * (t - 1)) := fun t => by
    simp only [shippedSpin, ratePoly, eval_add, eval_mul, eval_pow, eval_sub, eval_X, eval_C]
    ring
  refine absurd (roots_inside (spin_degree ρ).1 (spin_degree ρ).2 ![98 / 100, 999 / 1000] ![999 / 1000, 1]
    ?_ ?_ ?_ ?_ ?_ ?_ ?_ ?_ h) (not_lt.2 hz)
  · intro i; fin_cases i <;> norm_num
  · intro i; fin_cases i <;> norm_num
  · intro i; fin_cases i <;> norm_num
  · intro i j hij; fin_cases i <;> fin_cases j <;> first | exact absurd hij (by decide) | norm_num
  · intro i
    fin_cases i
    · right
      simp only [hev]
      constructor
      · norm_num; linarith
      · norm_num; linarith
    · left
      simp only [hev]
      constructor
      · norm_num; linarith
      · norm_num
  · rw [hev]; norm_num
  · rw [hev]; norm_num; linarith
  · rw [hev, Fin.prod_univ_two]
    show _ < (98 / 100 : ℝ) * (999 / 1000)
    norm_num; linarith

/-- Rotor speed at which the shipped rotors produce the thrust `T`. -/
noncomputable def thrustSpeed (T : ℝ) : ℝ := √(T / (4 * (191 / 100000000)))

lemma thrustSpeed_sq {T : ℝ} (h : 0 ≤ T) : thrustSpeed T ^ 2 = T / (4 * (191 / 100000000)) := Real.sq_sqrt (by positivity)

lemma thrustSpeed_gt {T : ℝ} (h1 : 1 / 10 ≤ T) : 91 < thrustSpeed T := by
  have h := thrustSpeed_sq (show (0 : ℝ) ≤ T by linarith)
  refine lt_of_pow_lt_pow_left₀ 2 (Real.sqrt_nonneg _) ?_
  rw [h, lt_div_iff₀ (by norm_num)]; linarith

lemma thrustSpeed_lt {T : ℝ} (h1 : 0 < T) (h2 : T ≤ 36) : thrustSpeed T < 2200 := by
  refine lt_of_pow_lt_pow_left₀ 2 (by norm_num) ?_
  rw [thrustSpeed_sq h1.le, div_lt_iff₀ (by norm_num)]; linarith

lemma followLoop_spin_stable (psi d : ℝ) (mix alloc : Mat 4 4 ℝ) {w : ℝ} (hw : 91 < w) :
    (followLoop psi d mix alloc).SpinStable w := by
  have hlag : (1 / 1000 : ℝ) / (2 / 100) = 1 / 20 := by norm_num
  have h := shippedLoop_stable psi 0 mix alloc
  refine ⟨h.filterR, fun z hz => ?_, fun z hz => ?_, fun z hz => ?_⟩
  · simp only [followLoop, shippedLoop, hlag]; exact spin_stable le_rfl (by norm_num) z hz
  · simp only [followLoop, shippedLoop, hlag]; exact spin_stable le_rfl (by norm_num) z hz
  · simp only [followLoop, shippedLoop, hlag]
    refine spin_stable (by positivity) ?_ z hz
    rw [div_le_iff₀ (by positivity)]
    linarith

/-- The shipped quadrotor and its rate controller are those of the loop, whatever the process noise, the drag and the requested
thrust. -/
lemma shipped_acro : ∃ p : SimParams ℝ 4, getParams false (some shipped) = some (0, p) ∧
    ∃ ms B, p.dyn.model.motors = List.ofFn ms ∧ ∀ d, ∃ l, l = followLoop 0 d (Model.mixer4 ms) B ∧
      (∀ σ, Loop.Craft l { p.dyn.model with forceNoise := σ, drag := d } ms) ∧ Tuned (Pid.mk' p.ctl.indi.pid) l.R ∧
      (∀ T, 0 < T → T ≤ 36 → l.SpinTrim T (thrustSpeed T) ∧
        Loop.SpinRoom l ms (Pid.mk' p.ctl.indi.pid) (thrustSpeed T)) ∧
      (∀ T, 1 / 10 ≤ T → l.SpinStable (thrustSpeed T)) ∧
      ∀ (s : Sim ℝ 4) σ, s.dyn.model.core = some (Model.coreOf { p.dyn.model with forceNoise := σ, drag := d } ms) →
        s.ctl.indi.inertia = p.ctl.indi.inertia → s.ctl.indi.mixerInv = p.ctl.indi.mixerInv →
        s.ctl.indi.pid.SameConfig (Pid.mk' p.ctl.indi.pid) → s.armed = true → s.mode = .acro → s.floorEnable = false →
        InAcro s { p.dyn.model with forceNoise := σ, drag := d } ms l (Pid.mk' p.ctl.indi.pid) := by
  obtain ⟨p, hp, ms, B, hms, H⟩ := shipped_cruise
  obtain ⟨p', hp', hmot, -⟩ := shipped_hold (α := ℝ)
  have h0 : (lit 0 : ℝ) = 0 := by simp [flt]
  rw [h0] at hp'
  obtain rfl : p' = p := by
    rw [hp] at hp'
    simpa using hp'.symm
  have hmot' : Model.quadX (191 / 100000000) (26 / 100000000) (8 / 100) (8 / 100) 0 2200 (2 / 100) (662 / 100000000 : ℝ) =
      List.ofFn ms := by
    rw [← hms, hmot]
    simp [flt]
  have hfn := quadX_fn _ _ _ _ _ _ _ _ _ hmot'
  refine ⟨p', hp, ms, B, hms, fun d => ?_⟩
  obtain ⟨l, hl, his, -, hR, ht, -, hroom, hin⟩ := H 0 d
  refine ⟨l, hl, his, hR, fun T h1 h2 => ?_, fun T h1 => by rw [hl]; exact followLoop_spin_stable 0 d _ _ (thrustSpeed_gt h1),
    fun s σ i1 i2 i2' i2'' i3 i4 i5 => ?_⟩
  · have w2 := thrustSpeed_lt h1 h2
    have w1 : 0 < thrustSpeed T := Real.sqrt_pos.2 (by positivity)
    refine ⟨⟨h1, ht.tau, ht.dt, ht.lag, ht.inertia, w1, ?_, ht.balance, ht.inverse, fun i hi => ?_⟩,
      ⟨hroom.rate, hroom.rateOut, fun j => ?_⟩⟩
    · have hdoc := C28_quadX_documented _ _ _ _ _ _ _ _ _ hmot'
      rw [hl]
      simp only [followLoop, shippedLoop, hdoc]
      rw [thrustSpeed_sq h1.le, (docQuadX_sums _ _ _ _).1]
      field_simp
    · refine absurd hi ?_
      rw [hl]
      fin_cases i <;> norm_num [followLoop, shippedLoop, shippedRate]
    · rw [hfn]
      fin_cases j <;> exact ⟨by show (0 : ℝ) < _; linarith, by show _ < (2200 : ℝ); linarith⟩
  · have h := hin { s with ctl := Ctl.mk' p'.ctl, mode := .velocity, yawMode := .angle, refYaw := 0, extForce := 0 } σ i1 rfl i3
      rfl rfl rfl i5 rfl
    exact ⟨i1, h.rotors, i3, i4, i5, i2.trans h.knowsInertia, by rw [i2']; exact h.knowsRotors, i2''⟩

/-- **C146, the shipped file.** The quadrotor of the shipped file with any drag coefficient, with process noise of any intensity,
its controllers freshly constructed, anywhere, with any velocity and attitude: for every requested thrust between 0.1 N and 36 N,
requested rates which are small and change by at most `δ` per second are attained up to `C (q^n b + δ)` after `n` cycles, and so is
the thrust, if the samples drawn meanwhile give torques of at most `δ`. -/
theorem C146_shipped : ∃ p : SimParams ℝ 4, getParams false (some shipped) = some (0, p) ∧
    getSimTime (some (shipped : Config ℝ)) = (60, 1 / 1000) ∧ ∃ ms, p.dyn.model.motors = List.ofFn ms ∧
    ∀ c T, 1 / 10 ≤ T → T ≤ 36 → ∃ r > 0, ∃ C ≥ 0, ∃ q, 0 ≤ q ∧ q < 1 ∧
      ∀ [Noise ℝ] (s : Sim ℝ 4) (d : ℕ → Vec 3 ℝ) (σ b δ : ℝ) (n : ℕ),
      s.dyn.model.core = some (Model.coreOf { p.dyn.model with forceNoise := σ, drag := c } ms) →
      s.ctl = Ctl.mk' p.ctl → s.armed = true → s.mode = .acro → s.floorEnable = false →
      (∀ i, |s.dyn.state.angVel i| ≤ b) → (∀ j, |s.dyn.state.motVel j - thrustSpeed T| ≤ b) → (∀ i, |d 0 i| ≤ b) → b < r →
      0 ≤ δ → δ < r → (∀ k i, |d k i| < r) → (∀ k i, |d (k + 1) i - d k i| ≤ 1 / 1000 * δ) →
      Calm s.dyn.model σ (1 / 1000) δ n →
      ∃ t, Sim.Runs s (acroCalls (1 / 1000) T d 0 n) t ∧
        (∀ i, |t.dyn.state.angVel i - d n i| ≤ C * (q ^ n * b + δ)) ∧
        ∀ i, |(∑ j, rotorForce (ms j) (t.dyn.state.motVel j)) i - (![0, 0, T] : Vec 3 ℝ) i| ≤ C * (q ^ n * b + δ) := by
  obtain ⟨p, hp, ms, B, hms, H⟩ := shipped_acro
  refine ⟨p, hp, shipped_time, ms, hms, fun c T hT1 hT2 => ?_⟩
  obtain ⟨l, hl, his, hR, ht, hs, hin⟩ := H c
  obtain ⟨ht, hroom⟩ := ht T (by linarith) hT2
  have hdt : l.dt = 1 / 1000 := by rw [hl]; rfl
  obtain ⟨r, hr, C, hC, q, q0, q1, H⟩ := C146_settles ms l _ T _ hR ht (hs T hT1) hroom (by rw [hdt]; norm_num)
  rw [hdt] at H
  refine ⟨r, hr, C, hC, q, q0, q1, fun s d σ b δ n i1 i2 i3 i4 i5 ha hm hd0 hb hδ hδr hd hd' hcalm => ?_⟩
  obtain ⟨t, t1, -, t4⟩ := H _ s b d δ n (his σ) (hin s σ i1 (by rw [i2]; rfl) (by rw [i2]; rfl)
    (by rw [i2]; exact ⟨rfl, rfl, rfl, rfl, rfl, rfl, rfl, rfl, rfl, rfl⟩) i3 i4 i5) (by rw [i2]; rfl) ha hm hd0 hb hδ hδr hd hd' hcalm
  exact ⟨t, t1, t4⟩

/-- The shipped quadrotor in acro mode, with its process noise, upside down and drifting. -/
noncomputable def rollSim [Noise ℝ] (p : SimParams ℝ 4) (ms : Fin 4 → Motor ℝ) (T b : ℝ) : Sim ℝ 4 :=
  let s := sailSim p ms 0 0 ![3, 4, 5] b
  { s with
    mode := .acro
    extForce := ![1, 2, 3]
    dyn := { s.dyn with state := { s.dyn.state with ori := ⟨0, 1, 0, 0⟩, angVel := fun _ => b, motVel := fun _ => thrustSpeed T + b } } }

/-- A vehicle upside down which is to rotate ever faster for a second, pushed by an external force, the samples not being zero. -/
lemma shipped_roll : ∀ r > 0, ∃ (_ : Noise ℝ) (p : SimParams ℝ 4) (ms : Fin 4 → Motor ℝ), (∀ a k i, (Noise.draw a k i : ℝ) ≠ 0) ∧
    getParams false (some shipped) = some (0, p) ∧ 0 < p.dyn.model.forceNoise ∧
    p.dyn.model.motors = List.ofFn ms ∧ ∀ T, ∃ (s : Sim ℝ 4) (b δ ν : ℝ), 0 < ν ∧ 0 < b ∧ b < r ∧ 0 ≤ δ ∧ δ < r ∧
      s.dyn.model.core = some (Model.coreOf p.dyn.model ms) ∧ s.ctl = Ctl.mk' p.ctl ∧ s.armed = true ∧ s.mode = .acro ∧
      s.floorEnable = false ∧ s.extForce ≠ 0 ∧ s.dyn.state.ori = ⟨0, 1, 0, 0⟩ ∧ (∀ i, s.dyn.state.vel i ≠ 0) ∧
      (∀ i, |s.dyn.state.angVel i| ≤ b) ∧ (∀ i, s.dyn.state.angVel i ≠ 0) ∧ (∀ j, |s.dyn.state.motVel j - thrustSpeed T| ≤ b) ∧
      (∀ i, |speedUp ν 0 i| ≤ b) ∧ (∀ k i, |speedUp ν k i| < r) ∧
      (∀ k i, |speedUp ν (k + 1) i - speedUp ν k i| ≤ 1 / 1000 * δ) ∧ (∀ i, speedUp ν 1000 i ≠ speedUp ν 0 i) ∧
      ∀ n, Calm s.dyn.model p.dyn.model.forceNoise (1 / 1000) δ n := by
  intro r hr
  let nz : Noise ℝ := ⟨fun _ _ _ => r / 2⟩
  obtain ⟨p, hp, hmot, -⟩ := shipped_hold (α := ℝ)
  have h0 : (lit 0 : ℝ) = 0 := by simp [flt]
  rw [h0] at hp
  obtain ⟨p', hp', hn⟩ := shipped_noise
  obtain rfl : p' = p := by
    rw [hp] at hp'
    simpa using hp'.symm
  obtain ⟨ms, hms⟩ := shipped_motors hmot
  refine ⟨nz, p', ms, fun _ _ _ => (half_pos hr).ne', hp, by rw [hn]; norm_num, hms, fun T => ?_⟩
  have hr2 := half_pos hr
  set b := min 1 (r / 2) with hb
  have b0 : 0 < b := by positivity
  have b1 : b ≤ 1 := min_le_left _ _
  have b2 : b ≤ r / 2 := min_le_right _ _
  refine ⟨rollSim p' ms T b, b, r / 2, r / 2, by linarith, b0, by linarith, by linarith, by linarith,
    rfl, rfl, rfl, rfl, rfl, fun h => ?_, rfl, fun i => ?_, fun i => ?_, fun i => ?_, fun j => ?_, fun i => ?_, fun k i => ?_,
    fun k i => ?_, fun i => ?_, fun n k _ _ i => ?_⟩
  · have := congrFun h 0
    simp [rollSim] at this
  · have : (rollSim p' ms T b).dyn.state.vel i = ![3, 4, 5] i + b := by
      simp [rollSim, sailSim, orbitSim, chaseSim, builtFrom]
    rw [this]
    fin_cases i <;> simp <;> linarith
  · simp [rollSim, abs_of_pos b0]
  · simp [rollSim, b0.ne']
  · simp [rollSim, abs_of_pos b0]
  · simp [speedUp, b0.le]
  · obtain ⟨g1, g2⟩ := speedUp_le hr2.le k i
    rw [abs_of_nonneg g1]; linarith
  · exact speedUp_mild hr2.le k i
  · simp [speedUp, hr2.ne']
  · rw [hn]
    show √(5 / 10000 / (1 / 1000)) * |r / 2| ≤ r / 2
    rw [abs_of_pos hr2]
    refine mul_le_of_le_one_left hr2.le ?_
    rw [Real.sqrt_le_one]
    norm_num

/-- Non-vacuity of `C146_shipped`, and thereby of `C146_tracks`, `C146_described` and `C146_settles`: the vehicle of `shipped_roll`. -/
example := shipped_roll

/-- Non-vacuity of `C146_likely`: the shipped quadrotor upside down, whatever the samples. -/
example : ∃ (Ω : Type) (_ : MeasurableSpace Ω) (P : Measure Ω) (W : ℤ → ℕ → Fin 3 → Ω → ℝ) (p : SimParams ℝ 4)
    (ms : Fin 4 → Motor ℝ) (l : Loop), StandardNormal (W p.dyn.seed) P ∧ Loop.Craft l p.dyn.model ms ∧
    0 < p.dyn.model.forceNoise ∧ Tuned (Pid.mk' p.ctl.indi.pid) l.R ∧ l.dt ≤ 1 / 100 ∧ ∀ T, 1 / 10 ≤ T → T ≤ 36 →
    l.SpinTrim T (thrustSpeed T) ∧ l.SpinStable (thrustSpeed T) ∧
    Loop.SpinRoom l ms (Pid.mk' p.ctl.indi.pid) (thrustSpeed T) ∧ ∀ b > 0, ∃ s : Ω → Sim ℝ 4, ∀ ω,
      InAcro (s ω) p.dyn.model ms l (Pid.mk' p.ctl.indi.pid) ∧ (s ω).ctl.indi.pid.firstRun = true ∧
      (∀ i, |(s ω).dyn.state.angVel i| ≤ b) ∧ (∀ j, |(s ω).dyn.state.motVel j - thrustSpeed T| ≤ b) ∧
      (s ω).dyn.model.rng = ⟨p.dyn.seed, 0⟩ := by
  obtain ⟨Ω, m, P, W, h⟩ := exists_standardNormal
  obtain ⟨p, hp, ms, B, hms, H⟩ := shipped_acro
  obtain ⟨p', hp', hn⟩ := shipped_noise
  obtain rfl : p' = p := by
    rw [hp] at hp'
    simpa using hp'.symm
  obtain ⟨l, hl, his, hR, ht, hs, hin⟩ := H p'.dyn.model.drag
  refine ⟨Ω, m, P, fun _ => W, p', ms, l, h, his p'.dyn.model.forceNoise, by rw [hn]; norm_num, hR,
    by rw [hl]; norm_num [followLoop, shippedLoop], fun T h1 h2 => ⟨(ht T (by linarith) h2).1, hs T h1,
    (ht T (by linarith) h2).2, fun b hb => ⟨fun ω => let _ := outcome (fun _ => W) ω; rollSim p' ms T b,
      fun ω => ⟨hin _ p'.dyn.model.forceNoise rfl rfl rfl ⟨rfl, rfl, rfl, rfl, rfl, rfl, rfl, rfl, rfl, rfl⟩ rfl rfl rfl,
      rfl, fun i => ?_, fun j => ?_, rfl⟩⟩⟩⟩
  · simp [rollSim, abs_of_pos hb]
  · simp [rollSim, abs_of_pos hb]

end Verif.Props
