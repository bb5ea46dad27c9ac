import Verif.Props.CruiseHold
import Verif.Props.ShippedPath

/-!
# The shipped velocity controller keeps requested velocities (C145)
-/

namespace Verif.Props

open Verif Flt Spec Stability MeasureTheory ProbabilityTheory Example

variable {Ω : Type} [MeasurableSpace Ω]

/-- **C145, likelihood.** With independent normal samples, a flight in velocity mode fails to stay within `C (q^n b + δ)` of the
requested velocities and within `C (b + n dt δ)` of the requested way with a probability of at most
`12 n exp (-δ² dt / (2 σ))`, where `σ` is the intensity of the noise. -/
theorem C145_likely (ms : Fin 4 → Motor ℝ) (l : Loop) (cV cR : Pid ℝ 3)
    (w : ℝ) (hV : Tuned cV l.V) (hR : Tuned cR l.R) (ht : l.CruiseTrim 0 w)
    (hs : l.CruiseStable w) (hr : Loop.CruiseRoom l ms cV cR 0 w) (h1 : l.dt ≤ 1 / 100) :
    ∃ r > 0, ∃ C ≥ 0, ∃ q, 0 ≤ q ∧ q < 1 ∧ ∀ (W : ℤ → ℕ → Fin 3 → Ω → ℝ) (P : Measure Ω) (p : ModelParams ℝ) (seed : ℤ)
      (idx : ℕ) (s : Ω → Sim ℝ 4) (u : ℕ → Vec 3 ℝ) (b δ : ℝ) (n : ℕ), StandardNormal (W seed) P →
      Loop.Craft l p ms → 0 < p.forceNoise → Mild l u δ →
      (∀ ω, InCruise (s ω) p ms l cV cR ∧ IsUnitQ (s ω).dyn.state.ori ∧ (s ω).ctl.vel.firstRun = true ∧
        (s ω).ctl.indi.pid.firstRun = true ∧ NearCruise (s ω).dyn.state l.psi (u 0) w b ∧
        (s ω).dyn.model.rng = ⟨seed, idx⟩) →
      b < r → 0 ≤ δ → δ < r →
      P {ω | ¬ ∃ t, RunsIn W ω (s ω) (cruiseCalls l.dt u 0 n) t ∧
        NearCruise t.dyn.state l.psi (u n) w (C * (q ^ n * b + δ)) ∧
        ∀ i, |t.dyn.state.pos i - (s ω).dyn.state.pos i - l.dt * ∑ k ∈ Finset.range n, u k i| ≤ C * (b + n * l.dt * δ)} ≤
          ENNReal.ofReal (12 * n * Real.exp (-(δ ^ 2 * l.dt) / (2 * p.forceNoise))) := by
  obtain ⟨r, hr, C, hC, q, q0, q1, H⟩ := C145_settles ms l cV cR w hV hR ht hs hr h1
  refine ⟨r, hr, C, hC, q, q0, q1, fun W P p seed idx s u b δ n hW hc hn hu hin hb hδ hδr => ?_⟩
  refine (measure_mono fun ω hω => ?_).trans
    (calm_chance W P hW idx hn ht.dt hδ n (fun ω => (s ω).dyn.model) fun ω => (hin ω).2.2.2.2.2)
  intro hcalm
  refine hω ?_
  obtain ⟨i1, i2, i3, i4, i5, -⟩ := hin ω
  obtain ⟨t, t1, -, -, t4⟩ := @H (outcome W ω) p (s ω) b u δ n hc i1 i2 i3 i4 i5 hb hδ hδr hu hcalm
  exact ⟨t, t1, t4⟩

lemma followLoop_cruise_stable (psi d : ℝ) (mix alloc : Mat 4 4 ℝ) : (followLoop psi d mix alloc).CruiseStable shippedSpeed := by
  have hlag : (1 / 1000 : ℝ) / (2 / 100) = 1 / 20 := by norm_num
  have h := shippedLoop_stable psi 0 mix alloc
  refine ⟨rfl, h.filterV, h.filterR, fun z hz => ?_, fun z hz => ?_, fun z hz => ?_, h.heading⟩
  · simp only [followLoop, shippedLoop, hlag]; exact cruiseTilt_stable z hz
  · simp only [followLoop, shippedLoop, hlag]; exact cruiseTilt_stable z hz
  · simp only [followLoop, shippedLoop, hlag]; exact cruiseLift_stable z hz

lemma followLoop_cruise_trim {ms : Fin 4 → Motor ℝ} (psi d : ℝ) {B : Mat 4 4 ℝ}
    (hmot : Model.quadX (191 / 100000000) (26 / 100000000) (8 / 100) (8 / 100) 0 2200 (2 / 100) (662 / 100000000) =
      List.ofFn ms) (hB : (Model.mixer4 ms : Mat 4 4 ℝ) * B = 1) :
    (followLoop psi d (Model.mixer4 ms) B).CruiseTrim 0 shippedSpeed := by
  have h := shippedLoop_trim psi 0 hmot hB
  refine ⟨h.mass, h.gravity, h.tau, h.dt, h.lag, h.inertia, h.speed, fun _ => rfl, ?_, h.carry, h.balance, h.inverse⟩
  norm_num [followLoop, shippedLoop]

/-- The shipped quadrotor and its controllers in velocity mode are those of the loop, whatever the process noise and the drag. -/
lemma shipped_cruise : ∃ p : SimParams ℝ 4, getParams false (some shipped) = some (0, p) ∧
    ∃ ms B, p.dyn.model.motors = List.ofFn ms ∧ ∀ psi d, ∃ l, l = followLoop psi d (Model.mixer4 ms) B ∧
      (∀ σ, Loop.Craft l { p.dyn.model with forceNoise := σ, drag := d } ms) ∧
      Tuned (Pid.mk' p.ctl.vel) l.V ∧ Tuned (Pid.mk' p.ctl.indi.pid) l.R ∧
      l.CruiseTrim 0 shippedSpeed ∧ l.CruiseStable shippedSpeed ∧
      Loop.CruiseRoom l ms (Pid.mk' p.ctl.vel) (Pid.mk' p.ctl.indi.pid) 0 shippedSpeed ∧
      ∀ (s : Sim ℝ 4) σ, s.dyn.model.core = some (Model.coreOf { p.dyn.model with forceNoise := σ, drag := d } ms) →
        s.ctl = Ctl.mk' p.ctl → s.armed = true → s.mode = .velocity → s.yawMode = .angle → s.refYaw = psi →
        s.floorEnable = false → s.extForce = 0 →
        InCruise s { p.dyn.model with forceNoise := σ, drag := d } ms l (Pid.mk' p.ctl.vel) (Pid.mk' p.ctl.indi.pid) := by
  obtain ⟨p, hp, hmot, hmass, hgrav, hdrag, haero, hin, k1, k2, k3, k4, k5, -,
    ⟨b1, b2, b3, b4, b5, b6, b7⟩, c1, c2, c3, c4, c5, c6, c7⟩ := shipped_hold (α := ℝ)
  have h0 : (lit 0 : ℝ) = 0 := by simp [flt]
  obtain ⟨ms, hms⟩ := shipped_motors hmot
  have hmot' : Model.quadX (191 / 100000000) (26 / 100000000) (8 / 100) (8 / 100) 0 2200 (2 / 100) (662 / 100000000 : ℝ) =
      List.ofFn ms := by
    rw [← hms, hmot]
    simp [flt]
  have hq : IsQuad (191 / 100000000) (26 / 100000000) (8 / 100) (8 / 100) ms := ⟨_, _, _, _, .inl hmot'⟩
  obtain ⟨B, hB⟩ := isQuad_inverse hq (by norm_num) (by norm_num) (by norm_num) (by norm_num)
  have hfn := quadX_fn _ _ _ _ _ _ _ _ _ hmot'
  have hw1 := shippedSpeed_gt
  have hw2 := shippedSpeed_lt
  refine ⟨p, by rw [hp, h0], ms, B, hms, fun psi d => ?_⟩
  set l := followLoop psi d (Model.mixer4 ms) B with hl
  have hmass' : p.dyn.model.mass = 1 := by rw [hmass]; simp [flt]
  have hgrav' : p.dyn.model.gravity = ![0, 0, -981 / 100] := by rw [hgrav]; simp [flt]
  have hin' : p.dyn.model.inertia = Matrix.diagonal ![49 / 10000, 49 / 10000, 69 / 10000] := by
    rw [hin, mdiag_real]; simp [flt]
  have his : Loop.Is l { p.dyn.model with forceNoise := 0, drag := d } ms := by
    have := shippedLoop_is (p := { p.dyn.model with forceNoise := 0, drag := 1 / 10 }) psi 0 B hmot' hmass' hgrav' rfl
      (by simp only [haero, mdiag_real, flt]; norm_num) hin' rfl
    obtain ⟨⟨e1, e2, -, e4, e5, e6, e7, e8, e9, e10, e11, e12⟩, -⟩ := this
    exact ⟨⟨e1, e2, rfl, e4, e5, e6, e7, e8, e9, e10, e11, e12⟩, rfl⟩
  have hV : Tuned (Pid.mk' p.ctl.vel) l.V := by
    refine tuned_of_params (fun i => ?_) (fun i => ?_) (fun i => ?_) fun i => ?_
    · rw [b1]; fin_cases i <;> simp [hl, followLoop, shippedLoop, shippedVel, shippedVelZ, flt]
    · rw [b2]; fin_cases i <;> simp [hl, followLoop, shippedLoop, shippedVel, shippedVelZ, flt]
    · rw [b3]; fin_cases i <;> simp [hl, followLoop, shippedLoop, shippedVel, shippedVelZ, flt]
    · rw [b4]; fin_cases i <;> simp [hl, followLoop, shippedLoop, shippedVel, shippedVelZ, flt]
  have hR : Tuned (Pid.mk' p.ctl.indi.pid) l.R := by
    refine tuned_of_params (fun i => ?_) (fun i => ?_) (fun i => ?_) fun i => ?_
    · rw [c1]; fin_cases i <;> simp [hl, followLoop, shippedLoop, shippedRate, flt]
    · rw [c2]; fin_cases i <;> simp [hl, followLoop, shippedLoop, shippedRate, flt]
    · rw [c3]; fin_cases i <;> simp [hl, followLoop, shippedLoop, shippedRate, flt]
    · rw [c4]; fin_cases i <;> simp [hl, followLoop, shippedLoop, shippedRate, flt]
  have hroom : Loop.CruiseRoom l ms (Pid.mk' p.ctl.vel) (Pid.mk' p.ctl.indi.pid) 0 shippedSpeed := by
    obtain ⟨v1, v2⟩ := limits_of_params p.ctl.vel
    obtain ⟨u1, u2⟩ := limits_of_params p.ctl.indi.pid
    refine ⟨.inr fun i _ => ?_, fun hs i => ?_, .inr fun i _ => ?_, fun hs => ?_, fun j => ?_⟩
    · rw [v1, b5]; fin_cases i <;> simp [flt]
    · rw [(v2 hs).1, (v2 hs).2.1, b6, b7]; fin_cases i <;> simp [flt]
    · rw [u1, c5]; fin_cases i <;> simp [flt]
    · refine absurd ?_ ((u2 hs).2.2 0)
      rw [c6, c7]; simp [flt]
    · rw [hfn]; fin_cases j <;> exact ⟨by simp only [Fin.zero_eta, Fin.isValue]; show (0 : ℝ) < _; linarith, by
        show _ < (2200 : ℝ); linarith⟩
  have hrot : Model.motorFn 4 p.dyn.model.motors = some ms := by rw [hms]; exact motorFn_ofFn ms
  refine ⟨l, rfl, fun σ => ?_, hV, hR, followLoop_cruise_trim psi d hmot' hB, followLoop_cruise_stable psi d _ B, hroom,
    fun s σ i1 i2 i3 i4 i5 i6 i8 i9 => ?_⟩
  · obtain ⟨⟨e1, e2, e3, e4, e5, e6, e7, e8, e9, e10, e11, e12⟩, -⟩ := his
    exact ⟨e1, e2, e3, e4, e5, e6, e7, e8, e9, e10, e11, e12⟩
  exact
    { runs := i1
      rotors := hrot
      armed := i3
      mode := i4
      yawMode := i5
      heading := by rw [i6]; exact ⟨rfl, rfl⟩
      floor := i8
      extForce := i9
      knowsMass := by rw [i2]; exact k1.trans hmass'
      knowsGravity := by rw [i2]; exact (k2.trans hgrav').trans (by norm_num [hl, followLoop, shippedLoop])
      gain := by rw [i2]; exact k3.trans (by simp [mdiag_real, hl, followLoop, shippedLoop, flt])
      knowsInertia := by rw [i2]; exact k4.trans hin'
      knowsRotors := by
        rw [i2]
        unfold allocation at k5
        rw [hrot] at k5
        have : p.ctl.indi.mixerInv = Model.padded B :=
          (Option.some.inj k5).symm.trans (Model.mixerInverse_eq ms (isQuad_rot hq) B hB)
        intro j r
        show p.ctl.indi.mixerInv j (Fin.natAdd 2 r) = _
        rw [this]
        fin_cases r <;> rfl
      velConfig := by rw [i2]; exact ⟨rfl, rfl, rfl, rfl, rfl, rfl, rfl, rfl, rfl, rfl⟩
      rateConfig := by rw [i2]; exact ⟨rfl, rfl, rfl, rfl, rfl, rfl, rfl, rfl, rfl, rfl⟩ }

/-- **C145, the shipped file.** The quadrotor of the shipped file in air with any drag coefficient, with process noise of any
intensity and its controllers freshly constructed: requested velocities `u k`, one before every control update, which change by at most
`δ` per second and at which the drag is at most `δ`, are kept up to `C (q^n b + δ)` after `n` cycles, and the way covered is the
requested one up to `C (b + n dt δ)`, if the samples drawn meanwhile give forces of at most `δ`. -/
theorem C145_shipped : ∃ p : SimParams ℝ 4, getParams false (some shipped) = some (0, p) ∧
    getSimTime (some (shipped : Config ℝ)) = (60, 1 / 1000) ∧ ∃ ms, p.dyn.model.motors = List.ofFn ms ∧
    ∀ psi d, ∃ r > 0, ∃ C ≥ 0, ∃ q, 0 ≤ q ∧ q < 1 ∧ ∀ [Noise ℝ] (s : Sim ℝ 4) (u : ℕ → Vec 3 ℝ) (σ b δ : ℝ) (n : ℕ),
      s.dyn.model.core = some (Model.coreOf { p.dyn.model with forceNoise := σ, drag := d } ms) →
      s.ctl = Ctl.mk' p.ctl → s.armed = true → s.mode = .velocity → s.yawMode = .angle → s.refYaw = psi →
      s.floorEnable = false → s.extForce = 0 → IsUnitQ s.dyn.state.ori →
      NearCruise s.dyn.state psi (u 0) shippedSpeed b → b < r → 0 ≤ δ → δ < r →
      (∀ k i, |u (k + 1) i - u k i| ≤ 1 / 1000 * δ) → (∀ k i, |d| * (|u k i| * (|u k i| + 1)) ≤ δ) →
      Calm s.dyn.model σ (1 / 1000) δ n →
      ∃ t, Sim.Runs s (cruiseCalls (1 / 1000) u 0 n) t ∧
        NearCruise t.dyn.state psi (u n) shippedSpeed (C * (q ^ n * b + δ)) ∧
        ∀ i, |t.dyn.state.pos i - s.dyn.state.pos i - 1 / 1000 * ∑ k ∈ Finset.range n, u k i| ≤ C * (b + n * (1 / 1000) * δ) := by
  obtain ⟨p, hp, ms, B, hms, H⟩ := shipped_cruise
  refine ⟨p, hp, shipped_time, ms, hms, fun psi d => ?_⟩
  obtain ⟨l, hl, his, hV, hR, ht, hs, hroom, hin⟩ := H psi d
  obtain ⟨r, hr, C, hC, q, q0, q1, H⟩ := C145_settles ms l _ _ shippedSpeed hV hR ht hs hroom
    (by norm_num [hl, followLoop, shippedLoop])
  refine ⟨r, hr, C, hC, q, q0, q1, fun s u σ b δ n i1 i2 i3 i4 i5 i6 i8 i9 i10 hnear hb hδ hδr hu hair hcalm => ?_⟩
  obtain ⟨t, t1, -, -, t4, t5⟩ := H _ s b u δ n (his σ) (hin s σ i1 i2 i3 i4 i5 i6 i8 i9) i10
    (by rw [i2]; rfl) (by rw [i2]; rfl) (by rw [hl]; exact hnear) hb hδ hδr ⟨by rw [hl]; exact hu, by rw [hl]; exact hair⟩
    (by rw [hl]; exact hcalm)
  rw [hl] at t1 t4 t5
  exact ⟨t, t1, t4, t5⟩

/-- The shipped quadrotor in velocity mode, with its process noise. -/
noncomputable def sailSim [Noise ℝ] (p : SimParams ℝ 4) (ms : Fin 4 → Motor ℝ) (psi : ℝ) (a u : Vec 3 ℝ) (b : ℝ) : Sim ℝ 4 :=
  { orbitSim p ms psi a u b with mode := .velocity }

/-- Requested velocities that increase to `ν` within one second. -/
noncomputable def speedUp (ν : ℝ) (k : ℕ) : Vec 3 ℝ := fun _ => ν * min 1 ((k : ℝ) * (1 / 1000))

lemma speedUp_le {ν : ℝ} (hν : 0 ≤ ν) (k : ℕ) (i : Fin 3) : 0 ≤ speedUp ν k i ∧ speedUp ν k i ≤ ν :=
  ⟨mul_nonneg hν (le_min zero_le_one (by positivity)), mul_le_of_le_one_right hν (min_le_left _ _)⟩

lemma speedUp_mild {ν : ℝ} (hν : 0 ≤ ν) (k : ℕ) (i : Fin 3) : |speedUp ν (k + 1) i - speedUp ν k i| ≤ 1 / 1000 * ν := by
  simp only [speedUp]
  rw [← mul_sub, abs_mul, abs_of_nonneg hν, mul_comm (1 / 1000)]
  refine mul_le_mul_of_nonneg_left ((abs_min_sub_min_le_max _ _ _ _).trans ?_) hν
  rw [sub_self, abs_zero]
  refine max_le (by norm_num) ?_
  push_cast
  rw [← sub_mul, add_sub_cancel_left]
  norm_num

/-- Non-vacuity of `C145_shipped`, and thereby of `C145_tracks`, `C145_described` and `C145_settles`: a vehicle that is to speed up,
with the shipped drag and noise, the samples not being zero. -/
example : ∀ r > 0, ∃ (_ : Noise ℝ) (p : SimParams ℝ 4) (ms : Fin 4 → Motor ℝ), (∀ a k i, (Noise.draw a k i : ℝ) ≠ 0) ∧
    getParams false (some shipped) = some (0, p) ∧ 0 < p.dyn.model.forceNoise ∧ p.dyn.model.drag = 1 / 10 ∧
    p.dyn.model.motors = List.ofFn ms ∧ ∀ psi, ∃ (s : Sim ℝ 4) (b δ ν : ℝ), 0 < ν ∧ 0 < b ∧ b < r ∧ 0 ≤ δ ∧ δ < r ∧
      s.dyn.model.core = some (Model.coreOf p.dyn.model ms) ∧ s.ctl = Ctl.mk' p.ctl ∧
      s.armed = true ∧ s.mode = .velocity ∧ s.yawMode = .angle ∧ s.refYaw = psi ∧
      s.floorEnable = false ∧ s.extForce = 0 ∧ IsUnitQ s.dyn.state.ori ∧
      NearCruise s.dyn.state psi (speedUp ν 0) shippedSpeed b ∧
      (∀ k i, |speedUp ν (k + 1) i - speedUp ν k i| ≤ 1 / 1000 * δ) ∧ (∀ i, speedUp ν 1000 i ≠ speedUp ν 0 i) ∧
      (∀ k i, |(1 / 10 : ℝ)| * (|speedUp ν k i| * (|speedUp ν k i| + 1)) ≤ δ) ∧
      ∀ n, Calm s.dyn.model p.dyn.model.forceNoise (1 / 1000) δ n := by
  intro r hr
  let nz : Noise ℝ := ⟨fun _ _ _ => r / 2⟩
  obtain ⟨p, hp, hmot, -, -, hd, -⟩ := shipped_hold (α := ℝ)
  have h0 : (lit 0 : ℝ) = 0 := by simp [flt]
  rw [h0] at hp
  obtain ⟨p', hp', hn⟩ := shipped_noise
  obtain rfl : p' = p := by
    rw [hp] at hp'
    simpa using hp'.symm
  obtain ⟨ms, hms⟩ := shipped_motors hmot
  refine ⟨nz, p', ms, fun _ _ _ => (half_pos hr).ne', hp, by rw [hn]; norm_num, by rw [hd]; simp [flt], hms, fun psi => ?_⟩
  set ν := min 1 (r / 4) with hν
  have ν0 : 0 < ν := lt_min one_pos (by linarith)
  have ν1 : ν ≤ 1 := min_le_left _ _
  have ν2 : ν ≤ r / 4 := min_le_right _ _
  refine ⟨sailSim p' ms psi 0 (speedUp ν 0) (r / 2), r / 2, r / 2, ν, ν0, by linarith, by linarith, by linarith, by linarith,
    rfl, rfl, rfl, rfl, rfl, rfl, rfl, vzero_real, ?_, ⟨fun i => ?_,
      ⟨⟨1, 0, 0, 0⟩, ?_, ?_, ?_, ?_, ?_⟩, fun i => ?_, fun j => ?_⟩, fun k i => ?_, fun i => ?_, fun k i => ?_, fun n k _ _ i => ?_⟩
  · have := Real.cos_sq_add_sin_sq (psi / 2)
    simp [IsUnitQ, sailSim, orbitSim, chaseSim, builtFrom]
  · simp [sailSim, orbitSim, chaseSim, builtFrom, abs_of_pos (half_pos hr)]
  · rw [isTurned_iff]
    simp [sailSim, orbitSim, chaseSim, builtFrom]
  · simp; linarith
  · simp; linarith
  · simp; linarith
  · simp; linarith
  · simp [sailSim, orbitSim, chaseSim, builtFrom, abs_of_pos (half_pos hr)]
  · simp [sailSim, orbitSim, chaseSim, builtFrom, abs_of_pos (half_pos hr)]
  · exact (speedUp_mild ν0.le k i).trans (by linarith)
  · simp [speedUp, ν0.ne']
  · obtain ⟨g1, g2⟩ := speedUp_le ν0.le k i
    rw [abs_of_nonneg g1, abs_of_pos (by norm_num)]
    have : speedUp ν k i * (speedUp ν k i + 1) ≤ ν * 2 := mul_le_mul g2 (by linarith) (by linarith) ν0.le
    linarith
  · rw [hn]
    show √(5 / 10000 / (1 / 1000)) * |r / 2| ≤ r / 2
    rw [abs_of_pos (half_pos hr)]
    refine mul_le_of_le_one_left (half_pos hr).le ?_
    rw [Real.sqrt_le_one]
    norm_num

/-- Non-vacuity of `C145_likely`: the shipped quadrotor near hover in velocity mode, whatever the samples. -/
example : ∃ (Ω : Type) (_ : MeasurableSpace Ω) (P : Measure Ω) (W : ℤ → ℕ → Fin 3 → Ω → ℝ) (p : SimParams ℝ 4)
    (ms : Fin 4 → Motor ℝ) (l : Loop), StandardNormal (W p.dyn.seed) P ∧ Loop.Craft l p.dyn.model ms ∧
    0 < p.dyn.model.forceNoise ∧ ∀ b > 0, ∀ ν ≥ 0, Mild l (speedUp ν) (ν + |l.drag| * (ν * (ν + 1))) ∧ ∃ s : Ω → Sim ℝ 4, ∀ ω,
      InCruise (s ω) p.dyn.model ms l (Pid.mk' p.ctl.vel) (Pid.mk' p.ctl.indi.pid) ∧
      IsUnitQ (s ω).dyn.state.ori ∧ (s ω).ctl.vel.firstRun = true ∧
      (s ω).ctl.indi.pid.firstRun = true ∧ NearCruise (s ω).dyn.state l.psi (speedUp ν 0) shippedSpeed b ∧
      (s ω).dyn.model.rng = ⟨p.dyn.seed, 0⟩ := by
  obtain ⟨Ω, m, P, W, h⟩ := exists_standardNormal
  obtain ⟨p, hp, ms, B, hms, H⟩ := shipped_cruise
  obtain ⟨p', hp', hn⟩ := shipped_noise
  obtain rfl : p' = p := by
    rw [hp] at hp'
    simpa using hp'.symm
  obtain ⟨l, hl, his, -, -, -, -, -, hin⟩ := H 1 p'.dyn.model.drag
  refine ⟨Ω, m, P, fun _ => W, p', ms, l, h, his p'.dyn.model.forceNoise, by rw [hn]; norm_num, fun b hb ν hν => ⟨⟨fun k i => ?_,
    fun k i => ?_⟩, ?_⟩⟩
  · have e : l.dt = 1 / 1000 := by rw [hl]; rfl
    rw [e]
    exact (speedUp_mild hν k i).trans (mul_le_mul_of_nonneg_left (le_add_of_nonneg_right (by positivity)) (by norm_num))
  · obtain ⟨g1, g2⟩ := speedUp_le hν k i
    rw [abs_of_nonneg g1]
    refine le_trans (mul_le_mul_of_nonneg_left ?_ (abs_nonneg _)) (le_add_of_nonneg_left hν)
    exact mul_le_mul g2 (by linarith) (by linarith) hν
  refine ⟨fun ω => let _ := outcome (fun _ => W) ω; sailSim p' ms 1 0 (speedUp ν 0) b, fun ω => ?_⟩
  refine ⟨hin _ p'.dyn.model.forceNoise rfl rfl rfl rfl rfl rfl rfl vzero_real, ?_, rfl, rfl,
    ⟨fun i => ?_, ⟨⟨1, 0, 0, 0⟩, ?_, ?_, ?_, ?_, ?_⟩, fun i => ?_, fun j => ?_⟩, rfl⟩
  · have := Real.cos_sq_add_sin_sq (1 / 2)
    simpa [IsUnitQ, sailSim, orbitSim, chaseSim, builtFrom] using this
  · simp [sailSim, orbitSim, chaseSim, builtFrom, abs_of_pos hb]
  · rw [isTurned_iff, hl]
    simp [sailSim, orbitSim, chaseSim, builtFrom, followLoop, shippedLoop]
  · simp; linarith
  · simp; linarith
  · simp; linarith
  · simp; linarith
  · simp [sailSim, orbitSim, chaseSim, builtFrom, abs_of_pos hb]
  · simp [sailSim, orbitSim, chaseSim, builtFrom, abs_of_pos hb]

end Verif.Props
