import Verif.Props.TrackHold
import Verif.Props.ShippedHover

/-!
# The shipped trajectory controller follows a moving reference (C142)
-/

namespace Verif.Props

open Verif Flt Spec Stability Filter Topology Example

/-- Numbers of the shipped file that matter in trajectory mode. -/
lemma shipped_follow {α : Type} [Flt α] : ∃ p : SimParams α 4, getParams true (some shipped) = some (lit 0, p) ∧
    p.dyn.model.motors = Model.quadX (lit (191 / 100000000)) (lit (26 / 100000000)) (lit (8 / 100)) (lit (8 / 100))
      (lit 0) (lit 2200) (lit (2 / 100)) (lit (662 / 100000000)) ∧
    p.dyn.model.mass = lit 1 ∧ p.dyn.model.gravity = ![lit 0, lit 0, lit (-981 / 100)] ∧
    p.dyn.model.aero = mdiag ![lit (3 / 1000), lit (3 / 1000), lit (3 / 1000)] ∧
    p.dyn.model.inertia = mdiag ![lit (49 / 10000), lit (49 / 10000), lit (69 / 10000)] ∧
    p.ctl.acro.mass = p.dyn.model.mass ∧ p.ctl.acro.gravity = p.dyn.model.gravity ∧
    p.ctl.acro.kpRot = mdiag ![lit 20, lit 20, lit 8] ∧
    p.ctl.indi.inertia = p.dyn.model.inertia ∧ allocation p.dyn.model.motors = some p.ctl.indi.mixerInv ∧
    (p.ctl.traj.kp = ![lit 10, lit 10, lit 10] ∧ p.ctl.traj.ki = ![lit (5 / 1000), lit (5 / 1000), lit (5 / 1000)] ∧
      p.ctl.traj.kd = ![lit 6, lit 6, lit 6] ∧ p.ctl.traj.alpha = vones ∧
      p.ctl.traj.antiwindup = ![lit 1, lit 1, lit 1] ∧
      p.ctl.traj.upper = ![lit 0, lit 0, lit 0] ∧ p.ctl.traj.lower = smulL (lit (-1)) ![lit 0, lit 0, lit 0]) ∧
    (p.ctl.indi.pid.kp = ![lit 9, lit 9, lit 9] ∧ p.ctl.indi.pid.ki = ![lit 3, lit 3, lit 3] ∧
      p.ctl.indi.pid.kd = ![lit (3 / 10), lit (3 / 10), lit (3 / 10)] ∧
      p.ctl.indi.pid.alpha = ![lit (6 / 10), lit (6 / 10), lit (6 / 10)] ∧
      p.ctl.indi.pid.antiwindup = ![lit 1, lit 1, lit 1] ∧ p.ctl.indi.pid.upper = ![lit 0, lit 0, lit 0] ∧
      p.ctl.indi.pid.lower = smulL (lit (-1)) ![lit 0, lit 0, lit 0]) :=
  ⟨_, rfl, rfl, rfl, rfl, rfl, rfl, rfl, rfl, rfl, rfl, rfl, ⟨rfl, rfl, rfl, rfl, rfl, rfl, rfl⟩,
    ⟨rfl, rfl, rfl, rfl, rfl, rfl, rfl⟩⟩

/-- The shipped quadrotor in air with the drag coefficient `d`, with heading `psi`. -/
noncomputable def followLoop (psi d : ℝ) (mix alloc : Mat 4 4 ℝ) : Loop := { shippedLoop psi 0 mix alloc with drag := d }

lemma followLoop_stable (psi d : ℝ) (mix alloc : Mat 4 4 ℝ) :
    (followLoop psi d mix alloc).FollowStable (fun _ => shippedTraj) shippedSpeed := by
  have hlag : (1 / 1000 : ℝ) / (2 / 100) = 1 / 20 := by norm_num
  have h := shippedLoop_stable psi 0 mix alloc
  refine ⟨rfl, fun _ => by norm_num [shippedTraj], h.filterR, fun z hz => ?_, fun z hz => ?_, fun z hz => ?_, h.heading⟩
  · simp only [followLoop, shippedLoop, hlag]; exact followTilt_stable z hz
  · simp only [followLoop, shippedLoop, hlag]; exact followTilt_stable z hz
  · simp only [followLoop, shippedLoop, hlag]; exact followLift_stable z hz

lemma followLoop_trim {ms : Fin 4 → Motor ℝ} (psi d : ℝ) {B : Mat 4 4 ℝ}
    (hmot : Model.quadX (191 / 100000000) (26 / 100000000) (8 / 100) (8 / 100) 0 2200 (2 / 100) (662 / 100000000) =
      List.ofFn ms) (hB : (Model.mixer4 ms : Mat 4 4 ℝ) * B = 1) :
    (followLoop psi d (Model.mixer4 ms) B).FollowTrim (fun _ => shippedTraj) 0 shippedSpeed := by
  have h := shippedLoop_trim psi 0 hmot hB
  refine ⟨h.mass, h.gravity, h.tau, h.dt, h.lag, h.inertia, h.speed, fun _ => rfl, ?_, h.carry, h.balance, h.inverse⟩
  norm_num [followLoop, shippedLoop]

/-- The shipped quadrotor and its controllers in trajectory mode are those of the loop, whatever the process noise. -/
lemma shipped_chase : ∃ p : SimParams ℝ 4, getParams true (some shipped) = some (0, p) ∧
    ∃ ms B, p.dyn.model.motors = List.ofFn ms ∧ ∀ psi d, ∃ l, l = followLoop psi d (Model.mixer4 ms) B ∧
      (∀ σ, Loop.Craft l { p.dyn.model with forceNoise := σ, drag := d } ms) ∧
      Tuned (Pid.mk' p.ctl.traj) (fun _ => shippedTraj) ∧ Tuned (Pid.mk' p.ctl.indi.pid) l.R ∧
      l.FollowTrim (fun _ => shippedTraj) 0 shippedSpeed ∧ l.FollowStable (fun _ => shippedTraj) shippedSpeed ∧
      Loop.FollowRoom l (fun _ => shippedTraj) ms (Pid.mk' p.ctl.traj) (Pid.mk' p.ctl.indi.pid) 0 shippedSpeed ∧
      ∀ (s : Sim ℝ 4) σ, s.dyn.model.core = some (Model.coreOf { p.dyn.model with forceNoise := σ, drag := d } ms) →
        s.ctl = Ctl.mk' p.ctl → s.armed = true → s.mode = .trajectory → s.yawMode = .angle → s.refYaw = psi →
        s.floorEnable = false → s.extForce = 0 →
        InFollow s { p.dyn.model with forceNoise := σ, drag := d } ms l (Pid.mk' p.ctl.traj) (Pid.mk' p.ctl.indi.pid) := by
  obtain ⟨p, hp, hmot, hmass, hgrav, haero, hin, k1, k2, k3, k4, k5, ⟨a1, a2, a3, a4, a5, a6, a7⟩,
    c1, c2, c3, c4, c5, c6, c7⟩ := shipped_follow (α := ℝ)
  have h0 : (lit 0 : ℝ) = 0 := by simp [flt]
  obtain ⟨ms, hms⟩ := shipped_motors hmot
  have hmot' : Model.quadX (191 / 100000000) (26 / 100000000) (8 / 100) (8 / 100) 0 2200 (2 / 100) (662 / 100000000 : ℝ) =
      List.ofFn ms := by
    rw [← hms, hmot]
    simp [flt]
  have hq : IsQuad (191 / 100000000) (26 / 100000000) (8 / 100) (8 / 100) ms := ⟨_, _, _, _, .inl hmot'⟩
  obtain ⟨B, hB⟩ := isQuad_inverse hq (by norm_num) (by norm_num) (by norm_num) (by norm_num)
  have hfn := quadX_fn _ _ _ _ _ _ _ _ _ hmot'
  have hw1 := shippedSpeed_gt
  have hw2 := shippedSpeed_lt
  refine ⟨p, by rw [hp, h0], ms, B, hms, fun psi d => ?_⟩
  set l := followLoop psi d (Model.mixer4 ms) B with hl
  have hmass' : p.dyn.model.mass = 1 := by rw [hmass]; simp [flt]
  have hgrav' : p.dyn.model.gravity = ![0, 0, -981 / 100] := by rw [hgrav]; simp [flt]
  have hin' : p.dyn.model.inertia = Matrix.diagonal ![49 / 10000, 49 / 10000, 69 / 10000] := by
    rw [hin, mdiag_real]; simp [flt]
  have his : Loop.Is l { p.dyn.model with forceNoise := 0, drag := d } ms := by
    have := shippedLoop_is (p := { p.dyn.model with forceNoise := 0, drag := 1 / 10 }) psi 0 B hmot' hmass' hgrav' rfl
      (by simp only [haero, mdiag_real, flt]; norm_num) hin' rfl
    obtain ⟨⟨e1, e2, -, e4, e5, e6, e7, e8, e9, e10, e11, e12⟩, -⟩ := this
    exact ⟨⟨e1, e2, rfl, e4, e5, e6, e7, e8, e9, e10, e11, e12⟩, rfl⟩
  have hT : Tuned (Pid.mk' p.ctl.traj) fun _ => shippedTraj := by
    refine tuned_of_params (fun i => ?_) (fun i => ?_) (fun i => ?_) fun i => ?_
    · rw [a1]; fin_cases i <;> simp [shippedTraj, flt]
    · rw [a2]; fin_cases i <;> simp [shippedTraj, flt]
    · rw [a3]; fin_cases i <;> simp [shippedTraj, flt]
    · rw [a4]; simp [shippedTraj, flt]
  have hR : Tuned (Pid.mk' p.ctl.indi.pid) l.R := by
    refine tuned_of_params (fun i => ?_) (fun i => ?_) (fun i => ?_) fun i => ?_
    · rw [c1]; fin_cases i <;> simp [hl, followLoop, shippedLoop, shippedRate, flt]
    · rw [c2]; fin_cases i <;> simp [hl, followLoop, shippedLoop, shippedRate, flt]
    · rw [c3]; fin_cases i <;> simp [hl, followLoop, shippedLoop, shippedRate, flt]
    · rw [c4]; fin_cases i <;> simp [hl, followLoop, shippedLoop, shippedRate, flt]
  have hroom : Loop.FollowRoom l (fun _ => shippedTraj) ms (Pid.mk' p.ctl.traj) (Pid.mk' p.ctl.indi.pid) 0
      shippedSpeed := by
    obtain ⟨w1, w2⟩ := limits_of_params p.ctl.traj
    obtain ⟨u1, u2⟩ := limits_of_params p.ctl.indi.pid
    refine ⟨.inr fun i _ => ?_, fun hs => ?_, .inr fun i _ => ?_, fun hs => ?_, fun j => ?_⟩
    · rw [w1, a5]; fin_cases i <;> simp [flt]
    · refine absurd ?_ ((w2 hs).2.2 0)
      rw [a6, a7]; simp [flt]
    · rw [u1, c5]; fin_cases i <;> simp [flt]
    · refine absurd ?_ ((u2 hs).2.2 0)
      rw [c6, c7]; simp [flt]
    · rw [hfn]; fin_cases j <;> exact ⟨by simp only [Fin.zero_eta, Fin.isValue]; show (0 : ℝ) < _; linarith, by
        show _ < (2200 : ℝ); linarith⟩
  have hrot : Model.motorFn 4 p.dyn.model.motors = some ms := by rw [hms]; exact motorFn_ofFn ms
  refine ⟨l, rfl, fun σ => ?_, hT, hR, followLoop_trim psi d hmot' hB, followLoop_stable psi d _ B, hroom,
    fun s σ i1 i2 i3 i4 i5 i6 i8 i9 => ?_⟩
  · obtain ⟨⟨e1, e2, e3, e4, e5, e6, e7, e8, e9, e10, e11, e12⟩, -⟩ := his
    exact ⟨e1, e2, e3, e4, e5, e6, e7, e8, e9, e10, e11, e12⟩
  exact
    { runs := i1
      rotors := hrot
      armed := i3
      mode := i4
      yawMode := i5
      heading := by rw [i6]; exact ⟨rfl, rfl⟩
      floor := i8
      extForce := i9
      knowsMass := by rw [i2]; exact k1.trans hmass'
      knowsGravity := by rw [i2]; exact (k2.trans hgrav').trans (by norm_num [hl, followLoop, shippedLoop])
      gain := by rw [i2]; exact k3.trans (by simp [mdiag_real, hl, followLoop, shippedLoop, flt])
      knowsInertia := by rw [i2]; exact k4.trans hin'
      knowsRotors := by
        rw [i2]
        unfold allocation at k5
        rw [hrot] at k5
        have : p.ctl.indi.mixerInv = Model.padded B :=
          (Option.some.inj k5).symm.trans (Model.mixerInverse_eq ms (isQuad_rot hq) B hB)
        intro j r
        show p.ctl.indi.mixerInv j (Fin.natAdd 2 r) = _
        rw [this]
        fin_cases r <;> rfl
      trajConfig := by rw [i2]; exact ⟨rfl, rfl, rfl, rfl, rfl, rfl, rfl, rfl, rfl, rfl⟩
      rateConfig := by rw [i2]; exact ⟨rfl, rfl, rfl, rfl, rfl, rfl, rfl, rfl, rfl, rfl⟩ }

/-- **C142, the shipped file.** The quadrotor of the shipped file, without the process noise, with the controllers of the
trajectory example freshly constructed: within `b` of a hover relative to the reference, it is within `C q^n b` of it after `n`
cycles. The reference stands still, or it moves uniformly and the air has no drag. -/
theorem C142_shipped [Noise ℝ] : ∃ p : SimParams ℝ 4, getParams true (some shipped) = some (0, p) ∧
    getSimTime (some (shipped : Config ℝ)) = (60, 1 / 1000) ∧ ∃ ms, p.dyn.model.motors = List.ofFn ms ∧
    ∀ psi d, ∃ r > 0, ∃ C ≥ 0, ∃ q, 0 ≤ q ∧ q < 1 ∧ ∀ (s : Sim ℝ 4) (b : ℝ) (a u : Vec 3 ℝ),
      s.dyn.model.core = some (Model.coreOf { p.dyn.model with forceNoise := 0, drag := d } ms) → s.ctl = Ctl.mk' p.ctl →
      s.armed = true → s.mode = .trajectory → s.yawMode = .angle → s.refYaw = psi →
      s.floorEnable = false → s.extForce = 0 → IsUnitQ s.dyn.state.ori → d = 0 ∨ u = 0 →
      NearFlight s.dyn.state psi a u shippedSpeed b → b < r →
      ∀ n, ∃ t, Sim.Runs s (followCalls (1 / 1000) u n a) t ∧
        NearFlight t.dyn.state psi (a + (n * (1 / 1000) : ℝ) • u) u shippedSpeed (C * q ^ n * b) := by
  obtain ⟨p, hp, ms, B, hms, H⟩ := shipped_chase
  refine ⟨p, hp, shipped_time, ms, hms, fun psi d => ?_⟩
  obtain ⟨l, hl, his, hT, hR, ht, hs, hroom, hin⟩ := H psi d
  obtain ⟨r, hr, C, hC, q, q0, q1, H⟩ := C142_settles { p.dyn.model with forceNoise := 0, drag := d } ms l _ _ _ shippedSpeed
    ⟨his 0, rfl⟩ hT hR ht hs hroom (by norm_num [hl, followLoop, shippedLoop])
  refine ⟨r, hr, C, hC, q, q0, q1, fun s b a u i1 i2 i3 i4 i5 i6 i8 i9 i10 hdr hnear hb n => ?_⟩
  obtain ⟨t, t1, -, -, t4⟩ := (H s b a u (hin s 0 i1 i2 i3 i4 i5 i6 i8 i9) i10 (by rw [i2]; rfl) (by rw [i2]; rfl)
    (by rw [hl]; exact hnear) hb n).1 (by rw [hl]; exact hdr)
  rw [hl] at t1 t4
  exact ⟨t, t1, t4⟩

/-- The shipped quadrotor near a reference at `a` with velocity `u`, off by `b` in every direction. -/
noncomputable def chaseSim [Noise ℝ] (p : SimParams ℝ 4) (ms : Fin 4 → Motor ℝ) (psi d : ℝ) (a u : Vec 3 ℝ) (b : ℝ) :
    Sim ℝ 4 :=
  { Fixture.sim with
    dyn := builtFrom { p.dyn.model with forceNoise := 0, drag := d } ms p.dyn.seed
      { Fixture.dyn.state with
        pos := fun i => a i + b
        vel := fun i => u i + b
        ori := ⟨Real.cos (psi / 2), 0, 0, Real.sin (psi / 2)⟩
        angVel := fun _ => b
        motVel := fun _ => shippedSpeed + b }
    ctl := Ctl.mk' p.ctl
    armed := true
    mode := .trajectory
    refYaw := psi }

/-- Non-vacuity of `C142_shipped`, and thereby of `C142_attracts`, `C142_described` and `C142_settles`: any reference velocity,
without drag, and any drag at a fixed reference. -/
example [Noise ℝ] : ∃ (p : SimParams ℝ 4) (ms : Fin 4 → Motor ℝ), getParams true (some shipped) = some (0, p) ∧
    p.dyn.model.motors = List.ofFn ms ∧ ∀ psi d a u, ∀ r > 0, ∃ (s : Sim ℝ 4) (b : ℝ), 0 < b ∧ b < r ∧
      s.dyn.model.core = some (Model.coreOf { p.dyn.model with forceNoise := 0, drag := d } ms) ∧ s.ctl = Ctl.mk' p.ctl ∧
      s.armed = true ∧ s.mode = .trajectory ∧ s.yawMode = .angle ∧ s.refYaw = psi ∧
      s.floorEnable = false ∧ s.extForce = 0 ∧ IsUnitQ s.dyn.state.ori ∧
      NearFlight s.dyn.state psi a u shippedSpeed b ∧ (∀ i, s.dyn.state.vel i ≠ u i) ∧
      ∀ i, s.dyn.state.pos i ≠ a i := by
  obtain ⟨p, hp, hmot, -⟩ := shipped_follow (α := ℝ)
  have h0 : (lit 0 : ℝ) = 0 := by simp [flt]
  obtain ⟨ms, hms⟩ := shipped_motors hmot
  refine ⟨p, ms, by rw [hp, h0], hms, fun psi d a u r hr => ⟨chaseSim p ms psi d a u (r / 2), r / 2, by linarith, by linarith,
    rfl, rfl, rfl, rfl, rfl, rfl, rfl, vzero_real, ?_, ⟨fun i => ?_, fun i => ?_, ⟨⟨1, 0, 0, 0⟩, ?_, ?_, ?_, ?_, ?_⟩,
      fun i => ?_, fun j => ?_⟩, fun i => ?_, fun i => ?_⟩⟩
  · have := Real.cos_sq_add_sin_sq (psi / 2)
    simp [IsUnitQ, chaseSim, builtFrom]
  · simp [chaseSim, builtFrom, abs_of_pos (half_pos hr)]
  · simp [chaseSim, builtFrom, abs_of_pos (half_pos hr)]
  · rw [isTurned_iff]
    simp [chaseSim, builtFrom]
  · simp; linarith
  · simp; linarith
  · simp; linarith
  · simp; linarith
  · simp [chaseSim, builtFrom, abs_of_pos (half_pos hr)]
  · simp [chaseSim, builtFrom, abs_of_pos (half_pos hr)]
  · simp [chaseSim, builtFrom, hr.ne']
  · simp [chaseSim, builtFrom, hr.ne']

end Verif.Props
