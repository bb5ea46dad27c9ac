import Verif.Props.HoverHold
import Verif.Props.ShippedHold
import Verif.Lemmas.ShippedRoots

/-!
# The shipped controllers hold a position (C139)
-/

namespace Verif.Props

open Verif Flt Spec Stability Filter Topology Example

/-- Numbers of the shipped file that matter for position hold. -/
lemma shipped_hold {α : Type} [Flt α] : ∃ p : SimParams α 4, getParams false (some shipped) = some (lit 0, p) ∧
    p.dyn.model.motors = Model.quadX (lit (191 / 100000000)) (lit (26 / 100000000)) (lit (8 / 100)) (lit (8 / 100))
      (lit 0) (lit 2200) (lit (2 / 100)) (lit (662 / 100000000)) ∧
    p.dyn.model.mass = lit 1 ∧ p.dyn.model.gravity = ![lit 0, lit 0, lit (-981 / 100)] ∧ p.dyn.model.drag = lit (1 / 10) ∧
    p.dyn.model.aero = mdiag ![lit (3 / 1000), lit (3 / 1000), lit (3 / 1000)] ∧
    p.dyn.model.inertia = mdiag ![lit (49 / 10000), lit (49 / 10000), lit (69 / 10000)] ∧
    p.ctl.acro.mass = p.dyn.model.mass ∧ p.ctl.acro.gravity = p.dyn.model.gravity ∧
    p.ctl.acro.kpRot = mdiag ![lit 20, lit 20, lit 8] ∧
    p.ctl.indi.inertia = p.dyn.model.inertia ∧ allocation p.dyn.model.motors = some p.ctl.indi.mixerInv ∧
    (p.ctl.pos.kp = ![lit 1, lit 1, lit 1] ∧ p.ctl.pos.ki = ![lit (1 / 100), lit (1 / 100), lit (1 / 100)] ∧
      p.ctl.pos.kd = ![lit 0, lit 0, lit 0] ∧ p.ctl.pos.alpha = ![lit (1 / 10), lit (1 / 10), lit 0] ∧
      p.ctl.pos.antiwindup = ![lit (5 / 10), lit (5 / 10), lit (5 / 10)] ∧
      p.ctl.pos.upper = ![lit 10, lit 10, lit 10] ∧ p.ctl.pos.lower = smulL (lit (-1)) ![lit 10, lit 10, lit 10]) ∧
    (p.ctl.vel.kp = ![lit 6, lit 6, lit 10] ∧ p.ctl.vel.ki = ![lit 1, lit 1, lit 2] ∧
      p.ctl.vel.kd = ![lit (4 / 10), lit (4 / 10), lit 0] ∧ p.ctl.vel.alpha = ![lit (5 / 100), lit (5 / 100), lit 0] ∧
      p.ctl.vel.antiwindup = ![lit 1, lit 1, lit 1] ∧
      p.ctl.vel.upper = ![lit 4, lit 4, lit 4] ∧ p.ctl.vel.lower = smulL (lit (-1)) ![lit 4, lit 4, lit 4]) ∧
    (p.ctl.indi.pid.kp = ![lit 9, lit 9, lit 9] ∧ p.ctl.indi.pid.ki = ![lit 3, lit 3, lit 3] ∧
      p.ctl.indi.pid.kd = ![lit (3 / 10), lit (3 / 10), lit (3 / 10)] ∧
      p.ctl.indi.pid.alpha = ![lit (6 / 10), lit (6 / 10), lit (6 / 10)] ∧
      p.ctl.indi.pid.antiwindup = ![lit 1, lit 1, lit 1] ∧ p.ctl.indi.pid.upper = ![lit 0, lit 0, lit 0] ∧
      p.ctl.indi.pid.lower = smulL (lit (-1)) ![lit 0, lit 0, lit 0]) :=
  ⟨_, rfl, rfl, rfl, rfl, rfl, rfl, rfl, rfl, rfl, rfl, rfl, rfl, ⟨rfl, rfl, rfl, rfl, rfl, rfl, rfl⟩,
    ⟨rfl, rfl, rfl, rfl, rfl, rfl, rfl⟩, ⟨rfl, rfl, rfl, rfl, rfl, rfl, rfl⟩⟩

/-- The shipped quadrotor in position hold with heading `psi` at `target`. -/
noncomputable def shippedLoop (psi : ℝ) (target : Vec 3 ℝ) (mix alloc : Mat 4 4 ℝ) : Loop where
  mass := 1
  g := 981 / 100
  drag := 1 / 10
  tau := 2 / 100
  dt := 1 / 1000
  inertia := ![49 / 10000, 49 / 10000, 69 / 10000]
  kr := ![20, 20, 8]
  aero := Matrix.diagonal ![3 / 1000, 3 / 1000, 3 / 1000]
  P := ![shippedPos, shippedPos, shippedPosZ]
  V := ![shippedVel, shippedVel, shippedVelZ]
  R := ![shippedRate, shippedRate, shippedRate]
  mix := mix
  alloc := alloc
  lag := 662 / 26
  psi := psi
  target := target

/-- Rotor speed of the shipped quadrotor at hover. -/
noncomputable def shippedSpeed : ℝ := √((981 / 100) / (4 * (191 / 100000000)))

lemma shippedSpeed_sq : shippedSpeed ^ 2 = (981 / 100) / (4 * (191 / 100000000)) := Real.sq_sqrt (by norm_num)

lemma shippedSpeed_gt : 1133 < shippedSpeed := by
  rw [shippedSpeed, Real.lt_sqrt (by norm_num)]; norm_num

lemma shippedSpeed_lt : shippedSpeed < 1134 := by
  rw [shippedSpeed, Real.sqrt_lt' (by norm_num)]; norm_num

lemma shippedLoop_stable (psi : ℝ) (target : Vec 3 ℝ) (mix alloc : Mat 4 4 ℝ) :
    (shippedLoop psi target mix alloc).Stable shippedSpeed := by
  have hlag : (1 / 1000 : ℝ) / (2 / 100) = 1 / 20 := by norm_num
  have h1 := shippedSpeed_gt
  have h2 := shippedSpeed_lt
  refine ⟨rfl, rfl, fun i => ?_, fun i => ?_, fun i => ?_, fun z hz => ?_, fun z hz => ?_, fun z hz => ?_, fun z hz => ?_⟩
  · left; fin_cases i <;> rfl
  · fin_cases i
    · right; norm_num [shippedLoop, shippedVel]
    · right; norm_num [shippedLoop, shippedVel]
    · left; rfl
  · right; fin_cases i <;> norm_num [shippedLoop, shippedRate]
  · simp only [shippedLoop, hlag]; exact tilt_stable z hz
  · simp only [shippedLoop, hlag]; exact tilt_stable z hz
  · simp only [shippedLoop, hlag]; exact lift_stable z hz
  · simp only [shippedLoop, hlag]
    refine yaw_stable ?_ ?_ z hz
    · rw [lt_div_iff₀ (by positivity)]; linarith
    · rw [div_lt_iff₀ (by positivity)]; linarith

/-- Configuration made from parameters. -/
lemma tuned_of_params {r : PidParams ℝ 3} {k : Fin 3 → PidTuning} (h1 : ∀ i, r.kp i = (k i).kp) (h2 : ∀ i, r.ki i = (k i).ki)
    (h3 : ∀ i, r.kd i = (k i).kd) (h4 : ∀ i, r.alpha i = (k i).alpha) : Tuned (Pid.mk' r) k := by
  obtain ⟨f, v, w, b, he, -⟩ := Pid.updateParams_eq r Pid.init
  unfold Pid.mk'
  rw [he]
  refine ⟨?_, ?_, ?_, h4⟩
  · simp only [Pid.reset, mdiag_real, ← h1]
  · simp only [Pid.reset, mdiag_real, ← h2]
  · simp only [Pid.reset, mdiag_real, ← h3]

lemma limits_of_params (r : PidParams ℝ 3) : (Pid.mk' r).antiwindup = r.antiwindup ∧
    ((Pid.mk' r).satFlag = true → (Pid.mk' r).upper = r.upper ∧ (Pid.mk' r).lower = r.lower ∧
      ∀ i, r.upper i ≠ r.lower i) := by
  obtain ⟨f, v, w, b, he, -, hf, -⟩ := Pid.updateParams_eq r Pid.init
  unfold Pid.mk'
  rw [he]
  refine ⟨rfl, fun hs => ?_⟩
  obtain ⟨rfl, rfl, hax⟩ := hf hs
  refine ⟨rfl, rfl, fun i hi => ?_⟩
  have := (hax i).1
  rw [hi] at this
  revert this
  simp [flt, eps_pos]

/-- The shipped quadrotor is the one of the loop. -/
lemma shippedLoop_is {p : ModelParams ℝ} {ms : Fin 4 → Motor ℝ} (psi : ℝ) (target : Vec 3 ℝ) (B : Mat 4 4 ℝ)
    (hmot : Model.quadX (191 / 100000000) (26 / 100000000) (8 / 100) (8 / 100) 0 2200 (2 / 100) (662 / 100000000) =
      List.ofFn ms) (hmass : p.mass = 1) (hgrav : p.gravity = ![0, 0, -981 / 100]) (hdrag : p.drag = 1 / 10)
    (haero : p.aero = Matrix.diagonal ![3 / 1000, 3 / 1000, 3 / 1000])
    (hin : p.inertia = Matrix.diagonal ![49 / 10000, 49 / 10000, 69 / 10000]) (hn : p.forceNoise = 0) :
    Loop.Is (shippedLoop psi target (Model.mixer4 ms) B) p ms := by
  have hms := quadX_fn _ _ _ _ _ _ _ _ _ hmot
  refine ⟨⟨hmass, ?_, hdrag, haero, hin, fun j => ?_, fun j => ?_, fun j => ?_, fun j => ?_, fun j => ?_, fun j => ?_,
    fun j => ?_⟩, hn⟩
  · rw [hgrav]; norm_num [shippedLoop]
  · rw [hms]; fin_cases j <;> rfl
  · rw [hms]; fin_cases j <;> rfl
  · rfl
  · rfl
  · simp [shippedLoop, Model.mixer4, flt]
  · simp [shippedLoop, Model.mixer4, flt]
  · have e : (shippedLoop psi target (Model.mixer4 ms) B).mix 3 j = (ms j).dir * (ms j).kt := by
      simp [shippedLoop, Model.mixer4, flt]
    rw [e, hms]
    fin_cases j <;> norm_num [shippedLoop]

lemma docQuadX_sums (kf kt x y : ℝ) : (∑ j, docQuadX kf kt x y 0 j = 4 * kf) ∧
    ∀ r : Fin 3, ∑ j, docQuadX kf kt x y r.succ j = 0 := by
  refine ⟨?_, fun r => ?_⟩
  · simp [docQuadX, Fin.sum_univ_four]; ring
  · fin_cases r <;> simp [docQuadX, Fin.sum_univ_four]

lemma shippedLoop_trim {ms : Fin 4 → Motor ℝ} (psi : ℝ) (target : Vec 3 ℝ) {B : Mat 4 4 ℝ}
    (hmot : Model.quadX (191 / 100000000) (26 / 100000000) (8 / 100) (8 / 100) 0 2200 (2 / 100) (662 / 100000000) =
      List.ofFn ms) (hB : (Model.mixer4 ms : Mat 4 4 ℝ) * B = 1) :
    (shippedLoop psi target (Model.mixer4 ms) B).Trim 0 shippedSpeed := by
  have hdoc := C28_quadX_documented _ _ _ _ _ _ _ _ _ hmot
  have hw := shippedSpeed_gt
  refine ⟨?_, ?_, ?_, ?_, ?_, fun i => ?_, ?_, ⟨fun _ => rfl, fun _ => rfl⟩, .inr rfl, ?_, ?_, fun r => ?_, hB⟩
  · norm_num [shippedLoop]
  · norm_num [shippedLoop]
  · norm_num [shippedLoop]
  · norm_num [shippedLoop]
  · norm_num [shippedLoop]
  · fin_cases i <;> norm_num [shippedLoop]
  · linarith
  · norm_num [shippedLoop]
  · simp only [shippedLoop, hdoc]
    rw [shippedSpeed_sq, (docQuadX_sums _ _ _ _).1]
    norm_num
  · simp only [shippedLoop, hdoc]
    exact (docQuadX_sums _ _ _ _).2 r

lemma shipped_time : getSimTime (some (shipped : Config ℝ)) = (60, 1 / 1000) := by
  have : getSimTime (some (shipped : Config ℝ)) = (lit 60, lit (1 / 1000)) := rfl
  rw [this]
  simp [flt]

/-- The shipped quadrotor and its controllers are those of the loop, whatever the process noise. -/
lemma shipped_ready : ∃ p : SimParams ℝ 4, getParams false (some shipped) = some (0, p) ∧
    ∃ ms B, p.dyn.model.motors = List.ofFn ms ∧ ∀ psi target, ∃ l, l = shippedLoop psi target (Model.mixer4 ms) B ∧
      (∀ σ, Loop.Craft l { p.dyn.model with forceNoise := σ } ms) ∧
      Tuned (Pid.mk' p.ctl.pos) l.P ∧ Tuned (Pid.mk' p.ctl.vel) l.V ∧ Tuned (Pid.mk' p.ctl.indi.pid) l.R ∧
      l.Trim 0 shippedSpeed ∧ l.Stable shippedSpeed ∧
      Loop.Room l ms (Pid.mk' p.ctl.pos) (Pid.mk' p.ctl.vel) (Pid.mk' p.ctl.indi.pid) 0 shippedSpeed ∧
      ∀ (s : Sim ℝ 4) σ, s.dyn.model.core = some (Model.coreOf { p.dyn.model with forceNoise := σ } ms) →
        s.ctl = Ctl.mk' p.ctl → s.armed = true → s.mode = .position → s.yawMode = .angle → s.refYaw = psi →
        s.refPos = target → s.floorEnable = false → s.extForce = 0 →
        InHold s { p.dyn.model with forceNoise := σ } ms l (Pid.mk' p.ctl.pos) (Pid.mk' p.ctl.vel) (Pid.mk' p.ctl.indi.pid) := by
  obtain ⟨p, hp, hmot, hmass, hgrav, hdrag, haero, hin, k1, k2, k3, k4, k5, ⟨a1, a2, a3, a4, a5, a6, a7⟩,
    ⟨b1, b2, b3, b4, b5, b6, b7⟩, c1, c2, c3, c4, c5, c6, c7⟩ := shipped_hold (α := ℝ)
  have h0 : (lit 0 : ℝ) = 0 := by simp [flt]
  obtain ⟨ms, hms⟩ := shipped_motors hmot
  have hmot' : Model.quadX (191 / 100000000) (26 / 100000000) (8 / 100) (8 / 100) 0 2200 (2 / 100) (662 / 100000000 : ℝ) =
      List.ofFn ms := by
    rw [← hms, hmot]
    simp [flt]
  have hq : IsQuad (191 / 100000000) (26 / 100000000) (8 / 100) (8 / 100) ms := ⟨_, _, _, _, .inl hmot'⟩
  obtain ⟨B, hB⟩ := isQuad_inverse hq (by norm_num) (by norm_num) (by norm_num) (by norm_num)
  have hfn := quadX_fn _ _ _ _ _ _ _ _ _ hmot'
  have hw1 := shippedSpeed_gt
  have hw2 := shippedSpeed_lt
  refine ⟨p, by rw [hp, h0], ms, B, hms, fun psi target => ?_⟩
  set l := shippedLoop psi target (Model.mixer4 ms) B with hl
  have hmass' : p.dyn.model.mass = 1 := by rw [hmass]; simp [flt]
  have hgrav' : p.dyn.model.gravity = ![0, 0, -981 / 100] := by rw [hgrav]; simp [flt]
  have hin' : p.dyn.model.inertia = Matrix.diagonal ![49 / 10000, 49 / 10000, 69 / 10000] := by
    rw [hin, mdiag_real]; simp [flt]
  have his : Loop.Is l { p.dyn.model with forceNoise := 0 } ms := by
    refine shippedLoop_is psi target B hmot' hmass' hgrav' ?_ ?_ hin' rfl
    · simp only [hdrag, flt]; norm_num
    · simp only [haero, mdiag_real, flt]; norm_num
  have hP : Tuned (Pid.mk' p.ctl.pos) l.P := by
    refine tuned_of_params (fun i => ?_) (fun i => ?_) (fun i => ?_) fun i => ?_
    · rw [a1]; fin_cases i <;> simp [hl, shippedLoop, shippedPos, shippedPosZ, flt]
    · rw [a2]; fin_cases i <;> simp [hl, shippedLoop, shippedPos, shippedPosZ, flt]
    · rw [a3]; fin_cases i <;> simp [hl, shippedLoop, shippedPos, shippedPosZ, flt]
    · rw [a4]; fin_cases i <;> simp [hl, shippedLoop, shippedPos, shippedPosZ, flt]
  have hV : Tuned (Pid.mk' p.ctl.vel) l.V := by
    refine tuned_of_params (fun i => ?_) (fun i => ?_) (fun i => ?_) fun i => ?_
    · rw [b1]; fin_cases i <;> simp [hl, shippedLoop, shippedVel, shippedVelZ, flt]
    · rw [b2]; fin_cases i <;> simp [hl, shippedLoop, shippedVel, shippedVelZ, flt]
    · rw [b3]; fin_cases i <;> simp [hl, shippedLoop, shippedVel, shippedVelZ, flt]
    · rw [b4]; fin_cases i <;> simp [hl, shippedLoop, shippedVel, shippedVelZ, flt]
  have hR : Tuned (Pid.mk' p.ctl.indi.pid) l.R := by
    refine tuned_of_params (fun i => ?_) (fun i => ?_) (fun i => ?_) fun i => ?_
    · rw [c1]; fin_cases i <;> simp [hl, shippedLoop, shippedRate, flt]
    · rw [c2]; fin_cases i <;> simp [hl, shippedLoop, shippedRate, flt]
    · rw [c3]; fin_cases i <;> simp [hl, shippedLoop, shippedRate, flt]
    · rw [c4]; fin_cases i <;> simp [hl, shippedLoop, shippedRate, flt]
  have hroom : Loop.Room l ms (Pid.mk' p.ctl.pos) (Pid.mk' p.ctl.vel) (Pid.mk' p.ctl.indi.pid) 0 shippedSpeed := by
    obtain ⟨w1, w2⟩ := limits_of_params p.ctl.pos
    obtain ⟨v1, v2⟩ := limits_of_params p.ctl.vel
    obtain ⟨u1, u2⟩ := limits_of_params p.ctl.indi.pid
    refine ⟨.inr fun i _ => ?_, fun hs i => ?_, .inr fun i _ => ?_, fun hs i => ?_, .inr fun i _ => ?_, fun hs => ?_,
      fun j => ?_⟩
    · rw [w1, a5]; fin_cases i <;> simp [flt]
    · rw [(w2 hs).1, (w2 hs).2.1, a6, a7]; fin_cases i <;> simp [flt]
    · rw [v1, b5]; fin_cases i <;> simp [flt]
    · rw [(v2 hs).1, (v2 hs).2.1, b6, b7]; fin_cases i <;> simp [flt]
    · rw [u1, c5]; fin_cases i <;> simp [flt]
    · refine absurd ?_ ((u2 hs).2.2 0)
      rw [c6, c7]; simp [flt]
    · rw [hfn]; fin_cases j <;> exact ⟨by simp only [Fin.zero_eta, Fin.isValue]; show (0 : ℝ) < _; linarith, by
        show _ < (2200 : ℝ); linarith⟩
  refine ⟨l, rfl, fun σ => ?_, hP, hV, hR, shippedLoop_trim psi target hmot' hB, shippedLoop_stable psi target _ B, hroom,
    fun s σ i1 i2 i3 i4 i5 i6 i7 i8 i9 => ?_⟩
  · obtain ⟨⟨e1, e2, e3, e4, e5, e6, e7, e8, e9, e10, e11, e12⟩, -⟩ := his
    exact ⟨e1, e2, e3, e4, e5, e6, e7, e8, e9, e10, e11, e12⟩
  have hrot : Model.motorFn 4 p.dyn.model.motors = some ms := by rw [hms]; exact motorFn_ofFn ms
  exact
    { runs := i1
      rotors := hrot
      armed := i3
      mode := i4
      yawMode := i5
      heading := by rw [i6]; exact ⟨rfl, rfl⟩
      request := i7
      floor := i8
      extForce := i9
      knowsMass := by rw [i2]; exact k1.trans hmass'
      knowsGravity := by rw [i2]; exact (k2.trans hgrav').trans (by norm_num [hl, shippedLoop])
      gain := by rw [i2]; exact k3.trans (by simp [mdiag_real, hl, shippedLoop, flt])
      knowsInertia := by rw [i2]; exact k4.trans hin'
      knowsRotors := by
        rw [i2]
        unfold allocation at k5
        rw [hrot] at k5
        have : p.ctl.indi.mixerInv = Model.padded B :=
          (Option.some.inj k5).symm.trans (Model.mixerInverse_eq ms (isQuad_rot hq) B hB)
        intro j r
        show p.ctl.indi.mixerInv j (Fin.natAdd 2 r) = _
        rw [this]
        fin_cases r <;> rfl
      posConfig := by rw [i2]; exact ⟨rfl, rfl, rfl, rfl, rfl, rfl, rfl, rfl, rfl, rfl⟩
      velConfig := by rw [i2]; exact ⟨rfl, rfl, rfl, rfl, rfl, rfl, rfl, rfl, rfl, rfl⟩
      rateConfig := by rw [i2]; exact ⟨rfl, rfl, rfl, rfl, rfl, rfl, rfl, rfl, rfl, rfl⟩ }

/-- **C139, the shipped file.** The quadrotor of the shipped file, without the process noise, is attracted to hover at any
requested position with any requested heading by its position controller with the shipped gains, limits and period: from
within `b` of hover, with freshly constructed controllers, it is within `C q^n b` after `n` cycles. -/
theorem C139_shipped [Noise ℝ] : ∃ p : SimParams ℝ 4, getParams false (some shipped) = some (0, p) ∧
    getSimTime (some (shipped : Config ℝ)) = (60, 1 / 1000) ∧ ∃ ms, p.dyn.model.motors = List.ofFn ms ∧
    ∀ psi target, ∃ r > 0, ∃ C ≥ 0, ∃ q, 0 ≤ q ∧ q < 1 ∧ ∀ (s : Sim ℝ 4) (b : ℝ),
      s.dyn.model.core = some (Model.coreOf { p.dyn.model with forceNoise := 0 } ms) → s.ctl = Ctl.mk' p.ctl →
      s.armed = true → s.mode = .position → s.yawMode = .angle → s.refYaw = psi → s.refPos = target →
      s.floorEnable = false → s.extForce = 0 → IsUnitQ s.dyn.state.ori →
      NearHover s.dyn.state psi target shippedSpeed b → b < r →
      ∀ n, ∃ t, Sim.Runs s (cycles (1 / 1000) (List.replicate n (1 / 1000))) t ∧
        NearHover t.dyn.state psi target shippedSpeed (C * q ^ n * b) := by
  obtain ⟨p, hp, ms, B, hms, H⟩ := shipped_ready
  refine ⟨p, hp, shipped_time, ms, hms, fun psi target => ?_⟩
  obtain ⟨l, hl, his, hP, hV, hR, ht, hs, hroom, hin⟩ := H psi target
  obtain ⟨r, hr, C, hC, q, q0, q1, H⟩ := C139_settles { p.dyn.model with forceNoise := 0 } ms l _ _ _ shippedSpeed
    ⟨his 0, rfl⟩ hP hV hR ht hs hroom (by norm_num [hl, shippedLoop])
  refine ⟨r, hr, C, hC, q, q0, q1, fun s b i1 i2 i3 i4 i5 i6 i7 i8 i9 i10 hnear hb n => ?_⟩
  obtain ⟨t, t1, -, -, t4⟩ := H s b (hin s 0 i1 i2 i3 i4 i5 i6 i7 i8 i9) i10 (by rw [i2]; rfl) (by rw [i2]; rfl)
    (by rw [i2]; rfl) (by rw [hl]; exact hnear) hb n
  rw [hl] at t1 t4
  exact ⟨t, t1, t4⟩

/-- The shipped quadrotor off the target by `b` in every direction, moving and turning. -/
noncomputable def driftSim [Noise ℝ] (p : SimParams ℝ 4) (ms : Fin 4 → Motor ℝ) (psi : ℝ) (target : Vec 3 ℝ) (b : ℝ) :
    Sim ℝ 4 :=
  { Fixture.sim with
    dyn := builtFrom { p.dyn.model with forceNoise := 0 } ms p.dyn.seed
      { Fixture.dyn.state with
        pos := fun i => target i + b
        vel := fun _ => b
        ori := ⟨Real.cos (psi / 2), 0, 0, Real.sin (psi / 2)⟩
        angVel := fun _ => b
        motVel := fun _ => shippedSpeed + b }
    ctl := Ctl.mk' p.ctl
    armed := true
    mode := .position
    refPos := target
    refYaw := psi }

/-- Non-vacuity of `C139_shipped`, and thereby of `C139_attracts`, `C139_described` and `C139_settles`. -/
example [Noise ℝ] : ∃ (p : SimParams ℝ 4) (ms : Fin 4 → Motor ℝ), getParams false (some shipped) = some (0, p) ∧
    p.dyn.model.motors = List.ofFn ms ∧ ∀ psi target, ∀ r > 0, ∃ (s : Sim ℝ 4) (b : ℝ), 0 < b ∧ b < r ∧
      s.dyn.model.core = some (Model.coreOf { p.dyn.model with forceNoise := 0 } ms) ∧ s.ctl = Ctl.mk' p.ctl ∧
      s.armed = true ∧ s.mode = .position ∧ s.yawMode = .angle ∧ s.refYaw = psi ∧ s.refPos = target ∧
      s.floorEnable = false ∧ s.extForce = 0 ∧ IsUnitQ s.dyn.state.ori ∧
      NearHover s.dyn.state psi target shippedSpeed b ∧ (∀ i, s.dyn.state.vel i ≠ 0) ∧
      ∀ i, s.dyn.state.pos i ≠ target i := by
  obtain ⟨p, hp, hmot, -⟩ := shipped_hold (α := ℝ)
  have h0 : (lit 0 : ℝ) = 0 := by simp [flt]
  obtain ⟨ms, hms⟩ := shipped_motors hmot
  refine ⟨p, ms, by rw [hp, h0], hms, fun psi target r hr => ⟨driftSim p ms psi target (r / 2), r / 2, by linarith, by linarith,
    rfl, rfl, rfl, rfl, rfl, rfl, rfl, rfl, vzero_real, ?_, ⟨fun i => ?_, fun i => ?_, ⟨⟨1, 0, 0, 0⟩, ?_, ?_, ?_, ?_, ?_⟩,
      fun i => ?_, fun j => ?_⟩, fun i => ?_, fun i => ?_⟩⟩
  · have := Real.cos_sq_add_sin_sq (psi / 2)
    simp [IsUnitQ, driftSim, builtFrom]
  · simp [driftSim, builtFrom, abs_of_pos (half_pos hr)]
  · simp [driftSim, builtFrom, abs_of_pos (half_pos hr)]
  · rw [isTurned_iff]
    simp [driftSim, builtFrom]
  · simp; linarith
  · simp; linarith
  · simp; linarith
  · simp; linarith
  · simp [driftSim, builtFrom, abs_of_pos (half_pos hr)]
  · simp [driftSim, builtFrom, abs_of_pos (half_pos hr)]
  · simp [driftSim, builtFrom, hr.ne']
  · simp [driftSim, builtFrom, hr.ne']

end Verif.Props
