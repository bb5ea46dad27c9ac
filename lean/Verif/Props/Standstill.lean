import Verif.Spec.Standstill
import Verif.Lemmas.Memory
import Verif.Props.Hover
import Verif.Props.AttLoop

/-!
# C114: where the closed loop comes to rest
-/

namespace Verif.Props

open Verif Flt Spec

/-- An armed quadrotor in position hold with a yaw reference, whose controllers know mass, gravity and rotors;
no process noise, above the floor, no rotor at a speed limit. -/
structure HoldsPosition (s : Sim ℝ 4) (p : ModelParams ℝ) (ms : Fin 4 → Motor ℝ) (g : ℝ) : Prop where
  quad : ∃ kf kt x y, kf ≠ 0 ∧ kt ≠ 0 ∧ x ≠ 0 ∧ y ≠ 0 ∧ IsQuad kf kt x y ms
  regular : Regular p ms
  mass : 0 < p.mass
  gravity : p.gravity = ![0, 0, -g]
  down : 0 < g
  quiet : p.forceNoise = 0
  knowsMass : s.ctl.acro.mass = p.mass
  knowsGravity : s.ctl.acro.gravity = p.gravity
  knowsRotors : AllocatedFor s.ctl.indi ms
  kpRot : ∀ v, v ≠ 0 → s.ctl.acro.kpRot.mulVec v ≠ 0
  armed : s.armed = true
  mode : s.mode = .hover ∨ s.mode = .position
  yawMode : s.yawMode = .angle
  unit : IsUnitQ s.dyn.state.ori
  limits : ∀ i, (ms i).minSpeed < s.dyn.state.motVel i ∧ s.dyn.state.motVel i < (ms i).maxSpeed
  floor : s.floorEnable = false ∨ s.floorHeight < s.dyn.state.pos 2
  extForce : s.extForce = 0

/-- Rate loop: proportional with positive gains in the metric of the controller's inertia, or with free
integrators that have come to rest. -/
def RatesSettled (s t : Sim ℝ 4) : Prop :=
  (∃ k, OnlyProportional s.ctl.indi.pid k ∧
    ∀ v, v ≠ 0 → 0 < v ⬝ᵥ s.ctl.indi.inertia.mulVec fun i => k i * v i) ∨
  (FreeIntegral s.ctl.indi.pid ∧ t.ctl.indi.pid.integral = s.ctl.indi.pid.integral)

/-! ## The loops -/

lemma only_output {p : Pid ℝ 3} {k : Vec 3 ℝ} (h : OnlyProportional p k) (dt : ℝ) (e : Vec 3 ℝ) :
    (p.computeControl dt e).2 = fun i => k i * e i := by
  rw [Pid.plain_output p (by simp [h.ki, mv_real]) (by simp [h.kd, mv_real]), h.free, h.kp]
  ext i
  simp [mv_real, Matrix.mulVec_diagonal]

lemma free_integral {p : Pid ℝ 3} (h : FreeIntegral p) {dt : ℝ} (h0 : dt ≠ 0) {e : Vec 3 ℝ}
    (hs : (p.computeControl dt e).1.integral = p.integral) : e = 0 := by
  have hi : (p.computeControl dt e).1.integral = p.accumulate dt e := by
    have hr : p.firstRunInit e = p := by simp [Pid.firstRunInit, h.running]
    unfold Pid.computeControl
    rw [hr]
    rfl
  rw [hi] at hs
  ext i
  have hsi := congrFun hs i
  have fin : p.integral i + e i * dt = p.integral i → e i = 0 := by
    intro hh
    have : e i * dt = 0 := by linarith
    exact (mul_eq_zero.1 this).resolve_right h0
  rcases h.inside with hin | ⟨h1, h2⟩
  · have hr : Pid.resetAxis p.resetIntegral (p.integral i) (p.antiwindup i) (e i) = p.integral i := by
      have : ¬ p.antiwindup i < |p.integral i| := not_lt.2 (hin i).le
      simp [Pid.resetAxis, flt, this]
    have hl := abs_lt.1 (hin i)
    unfold Pid.accumulate at hsi
    simp only [hr, vadd_real, smulR_real] at hsi
    split at hsi
    · simp only [Pid.saturateOutput, flt, Pi.add_apply, Pi.smul_apply, smul_eq_mul] at hsi
      apply fin
      simp only [Bool.not_false, if_true, decide_eq_true_eq] at hsi
      split_ifs at hsi <;> simp_all
      all_goals linarith
    · simp only [Pi.add_apply, Pi.smul_apply, smul_eq_mul] at hsi
      apply fin; linarith
  · unfold Pid.accumulate at hsi
    have hz : Pid.nonZero p.antiwindup = false := by
      simp [Pid.nonZero, h1, flt]
    simp only [hz, Pid.resetAxis, h2, flt] at hsi
    apply fin
    simp at hsi
    simp [hsi.symm]

/-! ## The vehicle -/

lemma quat_still {q : Quat ℝ} (hq : IsUnitQ q) {om : Vec 3 ℝ} {dt : ℝ} (h0 : 0 < dt)
    (h : quatIntegrate q om dt = q) : om = 0 := by
  have hu : q.w ^ 2 + q.x ^ 2 + q.y ^ 2 + q.z ^ 2 = 1 := hq
  have hnz := Quat.integrate_nonzero (nonzero_of_unit hq) om dt
  have hN := Quat.integrate_n2 q om dt
  rw [(Quat.isUnitQ_iff q).1 hq, one_mul] at hN
  rw [quatIntegrate, Quat.normalized_eq, hN, Quat.integrate_eq] at h
  set N := 1 + dt ^ 2 / 4 * (om 0 ^ 2 + om 1 ^ 2 + om 2 ^ 2) with hNd
  have hN1 : 1 ≤ N := by rw [hNd]; have : 0 ≤ dt ^ 2 / 4 * (om 0 ^ 2 + om 1 ^ 2 + om 2 ^ 2) := by positivity
                         linarith
  have hs : 0 < √N := Real.sqrt_pos.2 (by linarith)
  have ew := congrArg Quat.w h
  have ex := congrArg Quat.x h
  have ey := congrArg Quat.y h
  have ez := congrArg Quat.z h
  simp only at ew ex ey ez
  rw [div_eq_iff hs.ne'] at ew ex ey ez
  have h1 : √N = 1 := by
    linear_combination (1 - √N) * hu - q.w * ew - q.x * ex - q.y * ey - q.z * ez
  rw [Real.sqrt_eq_one] at h1
  have h2 : dt ^ 2 / 4 * (om 0 ^ 2 + om 1 ^ 2 + om 2 ^ 2) = 0 := by linarith
  have h3 : om 0 ^ 2 + om 1 ^ 2 + om 2 ^ 2 = 0 := (mul_eq_zero.1 h2).resolve_left (by positivity)
  ext i
  fin_cases i <;> simp <;> nlinarith [sq_nonneg (om 0), sq_nonneg (om 1), sq_nonneg (om 2)]

section
variable [Noise ℝ]

/-- What it takes for the vehicle to be unmoved by a step: it is at rest, the commands are the rotor speeds, the
thrust carries the weight as the dynamics have it, and the rotors exert no torque. -/
lemma still_dynamics {s t : Sim ℝ 4} {p ms g dt} (h : HoldsPosition s p ms g)
    (hco : s.dyn.model.core = some (Model.coreOf p ms)) (hmo : Model.motorFn 4 p.motors = some ms)
    (h0 : 0 < dt) (h1 : dt ≤ 1 / 100) (hu : s.updateDynamics dt = .ok t)
    (hst : Unmoved s.dyn.state t.dyn.state) :
    s.dyn.state.vel = 0 ∧ s.dyn.state.angVel = 0 ∧ s.actuation = s.dyn.state.motVel ∧
    s.dyn.state.ori.rotate (∑ i, rotorForce (ms i) (s.dyn.state.motVel i)) = -p.gravity ∧
    ∑ i, rotorTorque (ms i) (s.dyn.state.motVel i) 0 = 0 ∧ t.ctl = s.ctl := by
  have hnb : s.belowFloor = false := by
    rcases h.floor with hf | hf
    · simp [Sim.belowFloor, hf]
    · simp [Sim.belowFloor, flt, hf.le]
  obtain ⟨ext, d, he, hp, ht⟩ := Sim.updateDynamics_ok hu
  have hext : ext = 0 := by
    rcases he with ⟨-, he⟩ | ⟨hb, -⟩
    · rw [he, h.extForce]
    · rw [hnb] at hb; simp at hb
  have htd : t.dyn = d ∧ t.ctl = s.ctl := by
    dsimp only at ht
    split at ht
    · exfalso
      rename_i hb
      rcases h.floor with hf | hf
      · simp [Sim.belowFloor, hf] at hb
      · have := congrFun hst.pos 2
        rw [ht] at this
        simp [Sim.collide, Dyn.setState] at this
        linarith
    · rw [ht]; exact ⟨rfl, rfl⟩
  obtain ⟨htd, htc⟩ := htd
  rw [htd] at hst
  rw [Dyn.process_small_real _ _ _ _ h0 h1] at hp
  obtain ⟨hl, hd⟩ := step_on hco hmo hp
  have hvel : s.dyn.state.vel = 0 := by
    have := hst.pos
    rw [hd, Dyn.es_pos] at this
    exact (smul_eq_zero.1 (add_eq_left.1 this)).resolve_left h0.ne'
  have hom : s.dyn.state.angVel = 0 := by
    have := hst.ori
    rw [hd, Dyn.es_ori] at this
    exact quat_still h.unit h0 this
  have hact : s.actuation = s.dyn.state.motVel := by
    ext i
    have := congrFun hst.motVel i
    rw [hd, Dyn.es_motVel, Dyn.es_motAcc] at this
    obtain ⟨l1, l2⟩ := h.limits i
    have ht := h.regular.2.2 i
    simp only [clampVal_real] at this
    have e : dt * (((if s.actuation i < (ms i).minSpeed then (ms i).minSpeed else
        if (ms i).maxSpeed < s.actuation i then (ms i).maxSpeed else s.actuation i) - s.dyn.state.motVel i) /
        (ms i).tau) = 0 := by
      generalize dt * (((if s.actuation i < (ms i).minSpeed then (ms i).minSpeed else
        if (ms i).maxSpeed < s.actuation i then (ms i).maxSpeed else s.actuation i) - s.dyn.state.motVel i) /
        (ms i).tau) = y at this
      split_ifs at this <;> linarith
    have e2 := ((div_eq_zero_iff.1 ((mul_eq_zero.1 e).resolve_left h0.ne')).resolve_right ht)
    split_ifs at e2 <;> linarith
  have hma : d.state.motAcc = 0 := by
    rw [hd, Dyn.es_motAcc, hact]
    funext i
    obtain ⟨l1, l2⟩ := h.limits i
    rw [clampVal_real, if_neg (not_lt.2 l1.le), if_neg (not_lt.2 l2.le)]
    simp
  have hq := quiet_noise p ms s.dyn dt (!s.floorCollision) (.inr h.quiet) h0
  have hdrag : Model.dragForce (Model.coreOf p ms).params.drag (0 : Vec 3 ℝ) = 0 := by
    rw [dragForce_real]; ext i; simp
  refine ⟨hvel, hom, hact, ?_, ?_, htc⟩
  · have := hst.vel
    rw [hd, Dyn.es_vel] at this
    have ha := (smul_eq_zero.1 (add_eq_left.1 this)).resolve_left h0.ne'
    rw [Dyn.es_acc] at ha
    have hf := (smul_eq_zero.1 ha).resolve_left (inv_ne_zero h.regular.1)
    rw [Dyn.es_force, Model.thrustVec_coreOf, hq, hext, hvel, hdrag, add_zero, add_zero, add_zero] at hf
    exact eq_neg_of_add_eq_zero_left hf
  · have := hst.angVel
    rw [hd, Dyn.es_angVel] at this
    have ha := (smul_eq_zero.1 (add_eq_left.1 this)).resolve_left h0.ne'
    rw [Dyn.es_angAcc] at ha
    have ht : d.state.torque = 0 := by
      rw [hd, ← Matrix.one_mulVec (Dyn.eulerStep (Model.coreOf p ms) ms s.dyn s.actuation dt ext
        (!s.floorCollision)).state.torque, ← Matrix.mul_nonsing_inv _ (Ne.isUnit h.regular.2.1),
        ← Matrix.mulVec_mulVec]
      have : (Model.coreOf p ms).params = p := rfl
      rw [this] at ha
      rw [ha, Matrix.mulVec_zero]
    rw [hd, Dyn.es_torque, ← hd, hma, Model.motorTorque_coreOf, hq, hom, aeroMoment_real] at ht
    simpa using ht

/-- **C114, attitude and acceleration.** If one cycle of controller and dynamics leaves the vehicle unmoved, either it
is exactly half a turn away from the attitude the controller asks for, or it is level, points along the referenced
heading, and the controller asks for the acceleration `(1 - 1/m) g`. -/
theorem C114_attitude_partial {s t : Sim ℝ 4} {p : ModelParams ℝ} {ms : Fin 4 → Motor ℝ} {g dtc dt : ℝ}
    (hr : RunsOn s.dyn p ms) (h : HoldsPosition s p ms g) (hc : dtc ≠ 0) (h0 : 0 < dt) (h1 : dt ≤ 1 / 100)
    (hu : (s.updateController dtc).updateDynamics dt = .ok t) (hst : Unmoved s.dyn.state t.dyn.state)
    (hrate : RatesSettled s t) :
    s.dyn.state.vel = 0 ∧ s.dyn.state.angVel = 0 ∧
    ((∃ Rd, PointsTo Rd (p.mass • (t.ctl.desAcc - p.gravity)) s.refYaw ∧ attError Rd s.dyn.state.ori.toMat = 2) ∨
      (s.dyn.state.ori.toMat = rotZ s.refYaw ∧ t.ctl.desAcc = (1 - 1 / p.mass) • p.gravity)) := by
  obtain ⟨hco, hmo⟩ := runsOn_core hr
  have hu' := Sim.updateController_armed h.armed dtc
  have hy : s.yawRef = s.refYaw := by simp [Sim.yawRef, h.yawMode]
  have hcmd : s.command s.refYaw dtc = s.ctl.positionControl s.dyn.state.pos s.dyn.state.ori.toMat
      s.dyn.state.vel s.dyn.state.angVel s.refPos s.refYaw dtc := by
    rcases h.mode with hm | hm <;> simp only [Sim.command, hm]
  obtain ⟨hsta, -⟩ := (C53_cascade s.ctl s.dyn.state.ori.toMat s.dyn.state.pos s.dyn.state.vel
    s.dyn.state.angVel s.refPos 0 0 s.refYaw dtc).1
  rw [hu', hy, hcmd] at hu
  set r := s.ctl.positionControl s.dyn.state.pos s.dyn.state.ori.toMat
      s.dyn.state.vel s.dyn.state.angVel s.refPos s.refYaw dtc with hrdef
  have h' : HoldsPosition { s with ctl := r.1, actuation := r.2 } p ms g := { h with
    knowsMass := h.knowsMass
    knowsGravity := h.knowsGravity
    knowsRotors := h.knowsRotors
    kpRot := h.kpRot }
  obtain ⟨hv, hom, hact, hforce, htorque, htc⟩ := still_dynamics h' hco hmo h0 h1 hu hst
  simp only at hv hom hact hforce htorque htc
  refine ⟨hv, hom, ?_⟩
  obtain ⟨T, w, hac, hcases⟩ := hsta.acro
  have hdes := hsta.desired
  rw [← hdes] at hcases
  obtain ⟨kf, kt, x, y, hkf, hkt, hx, hy', hq⟩ := h.quad
  obtain ⟨w1, w2, -⟩ := C47_wrench kf kt x y ms hq hkf hkt hx hy' s.ctl.indi h.knowsRotors s.dyn.state.angVel w T dtc
  rw [← hac.motors, hact] at w1 w2
  rw [w1, Quat.axis_toMat, h.gravity] at hforce
  rw [w2] at htorque
  have hR := Quat.toMat_rotation h.unit
  set R := s.dyn.state.ori.toMat with hRdef
  have hax1 : axis R 2 ⬝ᵥ axis R 2 = 1 := by have := hR.dot 2 2; simpa using this
  have hf0 := congrFun hforce 0
  have hf1 := congrFun hforce 1
  have hf2 := congrFun hforce 2
  simp at hf0 hf1 hf2
  have hg := h.down
  have hT0 : T ≠ 0 := by rintro rfl; simp at hf2; linarith
  have ha0 : axis R 2 0 = 0 := hf0.resolve_left hT0
  have ha1 : axis R 2 1 = 0 := hf1.resolve_left hT0
  have hf : (fun i => (r.1.desAcc i ⊟ s.ctl.acro.gravity i) ⊠ s.ctl.acro.mass) =
      p.mass • (r.1.desAcc - p.gravity) := by
    rw [h.knowsGravity, h.knowsMass]
    ext i
    simp [flt, mul_comm]
  have hz : (fun i => R i 2) = axis R 2 := rfl
  simp only [hf, hz, normalized_of_dot_one hax1] at hcases
  rcases hcases with ⟨-, hT, -⟩ | ⟨hneg, hT, hw⟩
  · exact absurd hT (by simpa [flt] using hT0)
  set f := p.mass • (r.1.desAcc - p.gravity) with hfd
  rw [htc]
  have hpos : 0 ≤ T := by
    rw [hT]; simpa [flt] using hneg
  have ha2 : axis R 2 2 = 1 := by
    rw [dotProduct, Fin.sum_univ_three, ha0, ha1] at hax1
    have : (axis R 2 2 - 1) * (axis R 2 2 + 1) = 0 := by linarith
    rcases mul_eq_zero.1 this with h | h
    · linarith
    · have : axis R 2 2 = -1 := by linarith
      rw [this] at hf2
      linarith
  have hax : axis R 2 = ![0, 0, 1] := by
    ext i; fin_cases i
    · exact ha0
    · exact ha1
    · exact ha2
  have hTg : T = g := by rw [ha2] at hf2; linarith
  have hfz : f 2 = g := by
    rw [← hTg, hT, hax]; simp [dot_real]; rfl
  have hne : crossProduct f (heading s.refYaw) ≠ 0 := by
    intro hc
    have c0 := congrFun hc 0
    have c1 := congrFun hc 1
    simp [heading, crossProduct, hfz, hg.ne'] at c0 c1
    have := Real.sin_sq_add_cos_sq s.refYaw
    rw [c0, c1] at this
    simp at this
  have hfne : f ≠ 0 := by intro hc; rw [hc] at hfz; simp at hfz; linarith
  have hP := Acro.desiredAttitude_pointsTo s.refYaw f hne
  have hw0 : w = 0 := by
    have hdiff : w - s.dyn.state.angVel = w := by rw [hom, sub_zero]
    rcases hrate with ⟨k, hk, hkp⟩ | ⟨hfr, hint⟩
    · by_contra hne
      have := hkp w hne
      rw [hdiff, only_output hk] at htorque
      have hd := congrArg (fun v => w ⬝ᵥ v) htorque
      simp only [dotProduct_add, dotProduct_zero] at hd
      rw [dot_self_cross, add_zero] at hd
      linarith
    · refine free_integral hfr hc (dt := dtc) ?_
      rw [← hint, htc, hac.rate]
      congr 3
      rw [hom]; ext i; simp [flt]
  rw [hw0, command_real] at hw
  have hre : Acro.rotationError (Acro.desiredAttitude s.refYaw f) R = 0 := by
    by_contra hne
    exact h.kpRot _ hne (neg_eq_zero.1 hw.symm)
  set Rd := Acro.desiredAttitude s.refYaw f with hRd
  have hsym : (Rd.transpose * R).IsSymm := by
    rw [rotationError_sine] at hre
    generalize Rd.transpose * R = Q at hre ⊢
    have e0 := congrFun hre 0
    have e1 := congrFun hre 1
    have e2 := congrFun hre 2
    simp [sinePart] at e0 e1 e2
    refine Matrix.IsSymm.ext fun i j => ?_
    fin_cases i <;> fin_cases j <;> simp <;> linarith
  rcases C45_equilibria R Rd hR hP.rotation hsym with he | he
  · right
    rw [← he] at hP
    have hth := hP.thrust
    rw [hax] at hth
    have e0 := congrFun hth 0
    have e1 := congrFun hth 1
    simp at e0 e1
    have hfv : f = ![0, 0, g] := by
      ext i; fin_cases i
      · exact e0.symm
      · exact e1.symm
      · exact hfz
    constructor
    · rw [he, hRd, hfv, ← Acro.pointsTo_unique (vertical_ne hg) (pointsTo_rotZ hg s.refYaw)]
    · have hm := h.mass.ne'
      have : r.1.desAcc - p.gravity = p.mass⁻¹ • f := by rw [hfd, smul_smul, inv_mul_cancel₀ hm, one_smul]
      rw [eq_add_of_sub_eq this, hfv, h.gravity]
      ext i
      fin_cases i <;> simp
      ring
  · exact .inl ⟨Rd, hP, he⟩

end

/-- Full claim: with proportional loops of positive gain, a vehicle that one cycle leaves unmoved is at its
position reference. -/
def C114_claim : Prop :=
  ∀ (_ : Noise ℝ) (s t : Sim ℝ 4) (p : ModelParams ℝ) (ms : Fin 4 → Motor ℝ) (g dtc dt : ℝ) (kp kv : Vec 3 ℝ),
    RunsOn s.dyn p ms → HoldsPosition s p ms g → 0 < dtc → 0 < dt → dt ≤ 1 / 100 →
    (s.updateController dtc).updateDynamics dt = .ok t → Unmoved s.dyn.state t.dyn.state → RatesSettled s t →
    OnlyProportional s.ctl.pos kp → OnlyProportional s.ctl.vel kv → (∀ i, 0 < kp i ∧ 0 < kv i) →
    s.dyn.state.pos = s.refPos

lemma holds_after {s : Sim ℝ 4} {p ms g} (h : HoldsPosition s p ms g) (dtc : ℝ) :
    HoldsPosition (s.updateController dtc) p ms g ∧ (s.updateController dtc).dyn = s.dyn := by
  have hu' := Sim.updateController_armed h.armed dtc
  have hcmd : s.command s.yawRef dtc = s.ctl.positionControl s.dyn.state.pos s.dyn.state.ori.toMat
      s.dyn.state.vel s.dyn.state.angVel s.refPos s.yawRef dtc := by
    rcases h.mode with hm | hm <;> simp only [Sim.command, hm]
  rw [hcmd] at hu'
  rw [hu']
  exact ⟨{ h with
    knowsMass := h.knowsMass
    knowsGravity := h.knowsGravity
    knowsRotors := h.knowsRotors
    kpRot := h.kpRot }, rfl⟩

/-- What the loops above the attitude do in the controller call. -/
lemma outer_loops {s : Sim ℝ 4} {p ms g} (h : HoldsPosition s p ms g) (dtc : ℝ) (hv : s.dyn.state.vel = 0) :
    let v := s.ctl.pos.computeControl dtc (s.refPos - s.dyn.state.pos)
    let a := s.ctl.vel.computeControl dtc v.2
    (s.updateController dtc).ctl.desAcc = a.2 ∧ (s.updateController dtc).ctl.vel = a.1 := by
  intro v a
  have hu' := Sim.updateController_armed h.armed dtc
  have hy : s.yawRef = s.refYaw := by simp [Sim.yawRef, h.yawMode]
  have hcmd : s.command s.refYaw dtc = s.ctl.positionControl s.dyn.state.pos s.dyn.state.ori.toMat
      s.dyn.state.vel s.dyn.state.angVel s.refPos s.refYaw dtc := by
    rcases h.mode with hm | hm <;> simp only [Sim.command, hm]
  obtain ⟨hsta, -, -, -, e2⟩ := (C53_cascade s.ctl s.dyn.state.ori.toMat s.dyn.state.pos s.dyn.state.vel
    s.dyn.state.angVel s.refPos 0 0 s.refYaw dtc).1
  have hdes := hsta.desired
  have z1 : (fun i => s.refPos i ⊟ s.dyn.state.pos i) = s.refPos - s.dyn.state.pos := by ext i; simp [flt]
  have z2 : (fun i => v.2 i ⊟ s.dyn.state.vel i) = v.2 := by rw [hv]; ext i; simp [flt]
  rw [z1, z2] at hdes e2
  rw [hu', hy, hcmd]
  exact ⟨hdes, e2⟩

section
variable [Noise ℝ]

lemma updateDynamics_ctl {s t : Sim ℝ 4} {dt : ℝ} (h : s.updateDynamics dt = .ok t) : t.ctl = s.ctl := by
  obtain ⟨ext, d, -, -, ht⟩ := Sim.updateDynamics_ok h
  dsimp only at ht
  split at ht <;> rw [ht]
  rfl

/-- **C114, proportional loops.** Unless it is half a turn away from the demanded attitude, an unmoved vehicle is level,
points along the referenced heading and is displaced from its reference by exactly the vertical error that makes the
loops ask for `(1 - 1/m) g`: it is where it was asked to be exactly if its mass is one. -/
theorem C114_offset_partial {s t : Sim ℝ 4} {p : ModelParams ℝ} {ms : Fin 4 → Motor ℝ} {g dtc dt : ℝ}
    {kp kv : Vec 3 ℝ} (hr : RunsOn s.dyn p ms) (h : HoldsPosition s p ms g) (hc : dtc ≠ 0) (h0 : 0 < dt)
    (h1 : dt ≤ 1 / 100) (hu : (s.updateController dtc).updateDynamics dt = .ok t)
    (hst : Unmoved s.dyn.state t.dyn.state) (hrate : RatesSettled s t)
    (hp : OnlyProportional s.ctl.pos kp) (hv : OnlyProportional s.ctl.vel kv) (hk : ∀ i, kp i ≠ 0 ∧ kv i ≠ 0)
    (hatt : ∀ Rd, PointsTo Rd (p.mass • (t.ctl.desAcc - p.gravity)) s.refYaw →
      attError Rd s.dyn.state.ori.toMat ≠ 2) :
    s.dyn.state.vel = 0 ∧ s.dyn.state.angVel = 0 ∧ s.dyn.state.ori.toMat = rotZ s.refYaw ∧
    s.refPos - s.dyn.state.pos = ![0, 0, -((1 - 1 / p.mass) * g / (kp 2 * kv 2))] ∧
    (s.dyn.state.pos = s.refPos ↔ p.mass = 1) := by
  obtain ⟨e1, e2, e3⟩ := C114_attitude_partial hr h hc h0 h1 hu hst hrate
  obtain ⟨e4, e5⟩ := e3.resolve_left fun ⟨Rd, a, b⟩ => hatt Rd a b
  have hoff : s.refPos - s.dyn.state.pos = ![0, 0, -((1 - 1 / p.mass) * g / (kp 2 * kv 2))] := by
    have ho := (outer_loops h dtc e1).1
    rw [updateDynamics_ctl hu, ho, only_output hp, only_output hv, h.gravity] at e5
    ext i
    have hi := congrFun e5 i
    obtain ⟨k1, k2⟩ := hk i
    fin_cases i
    · simp at hi k1 k2 ⊢
      exact (hi.resolve_left k2).resolve_left k1
    · simp at hi k1 k2 ⊢
      exact (hi.resolve_left k2).resolve_left k1
    · simp at hi k1 k2 ⊢
      field_simp
      field_simp at hi
      linarith
  refine ⟨e1, e2, e4, hoff, ?_⟩
  have hm := h.mass.ne'
  obtain ⟨k1, k2⟩ := hk 2
  have hg := h.down.ne'
  constructor
  · intro he
    rw [he, sub_self] at hoff
    have := congrFun hoff 2
    simp [k1, k2, hg] at this
    field_simp at this
    linarith
  · intro he
    rw [he] at hoff
    simp [vec_zero] at hoff
    exact (sub_eq_zero.1 hoff).symm

/-- **C114, integral action.** If the velocity loop has integrators that are free and have come to rest as well, the
vehicle is at its reference whatever its mass, whatever its attitude and however the rates are controlled. -/
theorem C114_integral {s t : Sim ℝ 4} {p : ModelParams ℝ} {ms : Fin 4 → Motor ℝ} {g dtc dt : ℝ}
    {kp : Vec 3 ℝ} (hr : RunsOn s.dyn p ms) (h : HoldsPosition s p ms g) (hc : dtc ≠ 0) (h0 : 0 < dt)
    (h1 : dt ≤ 1 / 100) (hu : (s.updateController dtc).updateDynamics dt = .ok t)
    (hst : Unmoved s.dyn.state t.dyn.state)
    (hp : OnlyProportional s.ctl.pos kp) (hk : ∀ i, kp i ≠ 0) (hv : FreeIntegral s.ctl.vel)
    (hi : t.ctl.vel.integral = s.ctl.vel.integral) : s.dyn.state.pos = s.refPos := by
  obtain ⟨hco, hmo⟩ := runsOn_core hr
  have hvel : s.dyn.state.vel = 0 := by
    obtain ⟨h', hd⟩ := holds_after h dtc
    rw [← hd] at hco hst ⊢
    exact (still_dynamics h' hco hmo h0 h1 hu hst).1
  have ho := (outer_loops h dtc hvel).2
  have hz := free_integral hv hc (by rw [← ho, ← updateDynamics_ctl hu]; exact hi)
  rw [only_output hp] at hz
  ext i
  have := congrFun hz i
  simp [hk i] at this
  linarith

lemma rest_core {s : Sim ℝ 4} {p : ModelParams ℝ} {ms : Fin 4 → Motor ℝ} {g dtc dt kf kt x y : ℝ}
    {k : Vec 3 ℝ} (hr : RunsOn s.dyn p ms) (h : HoldsPosition s p ms g) (h0 : 0 < dt)
    (h1 : dt ≤ 1 / 100) (hq : IsQuad kf kt x y ms) (hn : 0 < kf ∧ kt ≠ 0 ∧ x ≠ 0 ∧ y ≠ 0)
    (hk : OnlyProportional s.ctl.indi.pid k)
    (hacc : (s.updateController dtc).ctl.desAcc = (1 - 1 / p.mass) • p.gravity)
    (hvel : s.dyn.state.vel = 0) (hom : s.dyn.state.angVel = 0) (hori : s.dyn.state.ori.toMat = rotZ s.refYaw)
    (htrim : ∀ i, 0 ≤ s.dyn.state.motVel i ∧ 4 * kf * s.dyn.state.motVel i ^ 2 = g) :
    ∃ t, (s.updateController dtc).updateDynamics dt = .ok t ∧ Unmoved s.dyn.state t.dyn.state := by
  obtain ⟨hco, hmo⟩ := runsOn_core hr
  have hu' := Sim.updateController_armed h.armed dtc
  have hy : s.yawRef = s.refYaw := by simp [Sim.yawRef, h.yawMode]
  have hcmd : s.command s.refYaw dtc = s.ctl.positionControl s.dyn.state.pos s.dyn.state.ori.toMat
      s.dyn.state.vel s.dyn.state.angVel s.refPos s.refYaw dtc := by
    rcases h.mode with hm | hm <;> simp only [Sim.command, hm]
  obtain ⟨hsta, -⟩ := (C53_cascade s.ctl s.dyn.state.ori.toMat s.dyn.state.pos s.dyn.state.vel
    s.dyn.state.angVel s.refPos 0 0 s.refYaw dtc).1
  have hdes := hsta.desired
  obtain ⟨T, w, hac, hcases⟩ := hsta.acro
  rw [← hdes] at hcases
  obtain ⟨hH, hdyn⟩ := holds_after h dtc
  rw [hu', hy, hcmd] at hacc hH hdyn ⊢
  set r := s.ctl.positionControl s.dyn.state.pos s.dyn.state.ori.toMat
      s.dyn.state.vel s.dyn.state.angVel s.refPos s.refYaw dtc with hrdef
  have hg := h.down
  have hm := h.mass.ne'
  have hf : (fun i => (r.1.desAcc i ⊟ s.ctl.acro.gravity i) ⊠ s.ctl.acro.mass) = (![0, 0, g] : Vec 3 ℝ) := by
    have : r.1.desAcc = (1 - 1 / p.mass) • p.gravity := hacc
    rw [this, h.knowsGravity, h.knowsMass, h.gravity]
    ext i
    fin_cases i <;> simp [flt]
    field_simp
    ring
  have hz : (fun i => s.dyn.state.ori.toMat i 2) = axis s.dyn.state.ori.toMat 2 := rfl
  have hax : axis (rotZ s.refYaw) 2 = ![0, 0, 1] := by
    ext i; fin_cases i <;> simp [axis, rotZ]
  have hn1 : Verif.normalized (![0, 0, 1] : Vec 3 ℝ) = ![0, 0, 1] := normalized_of_dot_one (by simp)
  simp only [hf, hz] at hcases
  rw [hori, hax, hn1, level_command _ _ _ hg, sub_self, Real.sin_zero, zero_smul] at hcases
  have hTw : T = g ∧ w = 0 := by
    rcases hcases with ⟨hneg, -, -⟩ | ⟨-, hT, hw⟩
    · simp [flt] at hneg
      exact absurd hneg (not_lt.2 hg.le)
    · exact ⟨by rw [hT]; simp [flt], hw⟩
  obtain ⟨rfl, rfl⟩ := hTw
  obtain ⟨hkf, hkt, hx, hy'⟩ := hn
  have hspeed : s.dyn.state.motVel = fun _ => √(T / (4 * kf)) := by
    ext i
    obtain ⟨t1, t2⟩ := htrim i
    rw [← t2]
    have : 4 * kf * s.dyn.state.motVel i ^ 2 / (4 * kf) = s.dyn.state.motVel i ^ 2 := by field_simp
    rw [this, Real.sqrt_sq t1]
  have hsq : squaredKeepSign s.dyn.state.motVel = fun _ => T / (4 * kf) := by
    rw [squaredKeepSign_real, hspeed]
    ext i
    simp only [abs_of_nonneg (Real.sqrt_nonneg _), Real.mul_self_sqrt (show 0 ≤ T / (4 * kf) by positivity)]
  have key : (Model.mixer6 ms : Mat 6 4 ℝ).mulVec (squaredKeepSign s.dyn.state.motVel) = ![0, 0, T, 0, 0, 0] := by
    rw [hsq, quad_equal hq]
    have : 4 * kf * (T / (4 * kf)) = T := by field_simp
    rw [this]
  have wf : ∑ i, rotorForce (ms i) (s.dyn.state.motVel i) = ![0, 0, T] := by
    ext i; rw [(wrench_mixer ms _ i).1, key]; fin_cases i <;> rfl
  have wt : ∑ i, rotorTorque (ms i) (s.dyn.state.motVel i) 0 = 0 := by
    ext i; rw [(wrench_mixer ms _ i).2, key]; fin_cases i <;> rfl
  have hmot : r.2 = s.dyn.state.motVel := by
    rw [hac.motors, hom]
    have herr : Pid.getError (0 : Vec 3 ℝ) 0 = 0 := by ext i; simp [Pid.getError, flt]
    have r0 : (s.ctl.indi.pid.computeControl dtc 0).2 = 0 := by rw [only_output hk]; ext i; simp
    simp only [Indi.acroToMotor, herr, r0]
    have e : (![(![lit 0, lit 0, T] : Vec 3 ℝ) 0, (![lit 0, lit 0, T] : Vec 3 ℝ) 1,
        (![lit 0, lit 0, T] : Vec 3 ℝ) 2,
        (vadd (mv s.ctl.indi.inertia 0) (cross 0 (mv s.ctl.indi.inertia 0)) : Vec 3 ℝ) 0,
        (vadd (mv s.ctl.indi.inertia 0) (cross 0 (mv s.ctl.indi.inertia 0)) : Vec 3 ℝ) 1,
        (vadd (mv s.ctl.indi.inertia 0) (cross 0 (mv s.ctl.indi.inertia 0)) : Vec 3 ℝ) 2] : Vec 6 ℝ) =
        ![0, 0, T, 0, 0, 0] := by
      simp only [flt, Matrix.mulVec_zero, map_zero, add_zero, Pi.zero_apply,
        Matrix.cons_val_zero, Matrix.cons_val_one, Matrix.cons_val]
    rw [e, ← key, h.knowsRotors, mv_real, Matrix.mulVec_mulVec,
      (C30_inverse kf kt x y ms hq hkf.ne' hkt hx hy').2, Matrix.one_mulVec]
    exact (C31_inverse 0 _).2.1
  have hl : ∀ i, (ms i).minSpeed ≤ (ms i).maxSpeed := fun i => ((h.limits i).1.trans (h.limits i).2).le
  have hcl : ∀ i, clampVal (s.dyn.state.motVel i) (ms i).minSpeed (ms i).maxSpeed = s.dyn.state.motVel i := by
    intro i
    rw [clampVal_real, if_neg (not_lt.2 (h.limits i).1.le), if_neg (not_lt.2 (h.limits i).2.le)]
  set d := Dyn.eulerStep (Model.coreOf p ms) ms s.dyn r.2 dt s.extForce (!s.floorCollision) with hd
  have hpr : s.dyn.process r.2 dt s.extForce (!s.floorCollision) = .ok d := by
    rw [Dyn.process_small_real _ _ _ _ h0 h1]
    have hc : Dyn.clampOk ms = true := by simp [Dyn.clampOk, flt, hl]
    simp [Dyn.singleStep, hco, show (Model.coreOf p ms).params.motors = p.motors from rfl, hmo, hc, hd]
  have hma : d.state.motAcc = 0 := by
    rw [hd, Dyn.es_motAcc, hmot]
    funext i
    simp [hcl]
  have hmv : d.state.motVel = s.dyn.state.motVel := by
    rw [hd, Dyn.es_motVel, ← hd, hma]
    funext i
    simp [hcl]
  have hdp : d.state.pos = s.dyn.state.pos := by rw [hd, Dyn.es_pos, hvel]; simp
  have hdo : d.state.ori = s.dyn.state.ori := by rw [hd, Dyn.es_ori, hom, quatIntegrate_zero h.unit]
  have hqn := quiet_noise p ms s.dyn dt (!s.floorCollision) (.inr h.quiet) h0
  have hdom : d.state.angVel = s.dyn.state.angVel := by
    have ht : d.state.torque = 0 := by
      rw [hd, Dyn.es_torque, ← hd, hma, Model.motorTorque_coreOf, hqn, hom, aeroMoment_real]
      simp only [Pi.zero_apply]
      rw [wt]
      simp
    rw [hd, Dyn.es_angVel, Dyn.es_angAcc, ← hd, ht]
    simp
  have hdv : d.state.vel = s.dyn.state.vel := by
    have hrot : s.dyn.state.ori.rotate ![0, 0, T] = ![0, 0, T] := by
      rw [Quat.axis_toMat, hori, hax]
      ext i; fin_cases i <;> simp
    have hdrag : Model.dragForce (Model.coreOf p ms).params.drag (0 : Vec 3 ℝ) = 0 := by
      rw [dragForce_real]; ext i; simp
    have hF : d.state.force = 0 := by
      rw [hd, Dyn.es_force, Model.thrustVec_coreOf, wf, hrot, hqn, h.extForce, hvel,
        hdrag, add_zero, add_zero, add_zero]
      simp only [Model.coreOf, h.gravity]
      ext i
      fin_cases i <;> simp
    rw [hd, Dyn.es_vel, Dyn.es_acc, ← hd, hF]
    simp
  refine ⟨{ s with ctl := r.1, actuation := r.2, extForce := vzero, dyn := d, floorCollision := false }, ?_,
    ⟨hdp, hdv, hdo, hdom, hmv⟩⟩
  have hnb : s.belowFloor = false := by
    rcases h.floor with hf | hf
    · simp [Sim.belowFloor, hf]
    · simp [Sim.belowFloor, flt, hf.le]
  rcases Sim.updateDynamics_cases { s with ctl := r.1, actuation := r.2 } dt with ⟨hb, -⟩ | ⟨ext, he, hu⟩
  · exact absurd hb (by simpa [Sim.belowFloor] using hnb)
  · have : ext = s.extForce := by
      rcases he with ⟨-, he⟩ | ⟨hb, -⟩
      · exact he
      · exact absurd hb (by simpa [Sim.belowFloor] using hnb)
    subst this
    rw [hu]
    simp only [hpr]
    rw [if_neg]
    rcases h.floor with hf | hf
    · simp [Sim.belowFloor, hf]
    · simp [Sim.belowFloor, flt, hdp, hf.le]

/-- **C114, the rest states exist.** With proportional loops every quadrotor has such a rest state: level and at rest,
heading as referenced, rotors carrying the weight as the dynamics have it, displaced by the offset of
`C114_offset_partial`; the cycle succeeds and leaves it unmoved. -/
theorem C114_rest {s : Sim ℝ 4} {p : ModelParams ℝ} {ms : Fin 4 → Motor ℝ} {g dtc dt kf kt x y : ℝ}
    {kp kv k : Vec 3 ℝ} (hr : RunsOn s.dyn p ms) (h : HoldsPosition s p ms g) (h0 : 0 < dt)
    (h1 : dt ≤ 1 / 100) (hq : IsQuad kf kt x y ms) (hn : 0 < kf ∧ kt ≠ 0 ∧ x ≠ 0 ∧ y ≠ 0)
    (hp : OnlyProportional s.ctl.pos kp) (hv : OnlyProportional s.ctl.vel kv)
    (hk : OnlyProportional s.ctl.indi.pid k)
    (hpos : ∀ i, kv i * (kp i * (s.refPos i - s.dyn.state.pos i)) = (1 - 1 / p.mass) * p.gravity i)
    (hvel : s.dyn.state.vel = 0) (hom : s.dyn.state.angVel = 0) (hori : s.dyn.state.ori.toMat = rotZ s.refYaw)
    (htrim : ∀ i, 0 ≤ s.dyn.state.motVel i ∧ 4 * kf * s.dyn.state.motVel i ^ 2 = g) :
    ∃ t, (s.updateController dtc).updateDynamics dt = .ok t ∧ Unmoved s.dyn.state t.dyn.state := by
  refine rest_core hr h h0 h1 hq hn hk ?_ hvel hom hori htrim
  rw [(outer_loops h dtc hvel).1, only_output hp, only_output hv]
  ext i
  simpa using hpos i

end

/-! ## A vehicle of mass two at rest below its reference -/

/-- Unit proportional gain. -/
noncomputable def unitGain : PidParams ℝ 3 := { PidParams.default with kp := fun _ => 1 }

lemma unitGain_only : OnlyProportional (Pid.mk' unitGain) fun _ => 1 := by
  constructor <;> simp [Pid.mk', Pid.updateParams, Pid.nonZero, unitGain, PidParams.default, Pid.reset, Pid.disableSat,
    Pid.setGains, Pid.setAntiWindup, Pid.setAlpha, Pid.setResetIntegral,
    Pid.setPropSat, flt]

/-- The fixture with mass `m`, proportional loops, at rest at height `z` with reference height 3. -/
noncomputable def restSim [Noise ℝ] (m z : ℝ) : Sim ℝ 4 :=
  { Fixture.sim with
    dyn := builtFrom (hoverParams m) Fixture.motors 7
      { Fixture.dyn.state with motVel := fun _ => √(10 / 4), ori := Quat.identity, pos := ![1, 2, z] }
    ctl := Ctl.mk' { Fixture.ctlParams with
      acro := ⟨m, 1, ![0, 0, -10]⟩
      indi := ⟨1, Indi.mixerInverse (Model.mixer6 Fixture.motors), unitGain⟩
      pos := unitGain
      vel := unitGain }
    armed := true
    mode := .position
    floorEnable := true
    refPos := ![1, 2, 3]
    refYaw := 0 }

lemma restSim_runsOn [Noise ℝ] (m z : ℝ) (hm : 0 ≤ m) :
    RunsOn (restSim m z).dyn (hoverParams m) Fixture.motors := by
  refine runsOn_new _ _ _ _ rfl ?_ Fixture.dirOk
  simp [Model.checkParams, hoverParams, Fixture.modelParams, Model.checkMotor, Model.quadX, flt, hm]

lemma restSim_holds [Noise ℝ] (m z : ℝ) (hm : 0 < m) (hz : 0 < z) :
    HoldsPosition (restSim m z) (hoverParams m) Fixture.motors 10 where
  quad := ⟨1, 1, 1, 1, one_ne_zero, one_ne_zero, one_ne_zero, one_ne_zero, 0, 10, 1, 1, .inl rfl⟩
  regular := ⟨hm.ne', by simp [hoverParams, Fixture.modelParams], fun i => by
    rw [(Fixture.motors_speed i).2.2]; norm_num⟩
  mass := hm
  gravity := rfl
  down := by norm_num
  quiet := rfl
  knowsMass := rfl
  knowsGravity := rfl
  knowsRotors := rfl
  kpRot := fun v hv => by
    show (1 : Mat 3 3 ℝ).mulVec v ≠ 0
    simpa using hv
  armed := rfl
  mode := .inr rfl
  yawMode := rfl
  unit := by simp [restSim, builtFrom, IsUnitQ, Quat.identity, flt]
  limits := fun i => by
    rw [(Fixture.motors_speed i).1, (Fixture.motors_speed i).2.1]
    show 0 < √(10 / 4 : ℝ) ∧ √(10 / 4 : ℝ) < 10
    exact ⟨Real.sqrt_pos.2 (by norm_num), (Real.sqrt_lt' (by norm_num)).2 (by norm_num)⟩
  floor := .inr (by simp [restSim, Fixture.sim, builtFrom, flt, hz])
  extForce := vzero_real

lemma restSim_settled [Noise ℝ] (m z : ℝ) (t : Sim ℝ 4) : RatesSettled (restSim m z) t := by
  refine .inl ⟨fun _ => 1, unitGain_only, fun v hv => ?_⟩
  show 0 < v ⬝ᵥ (1 : Mat 3 3 ℝ).mulVec fun i => 1 * v i
  simpa using dot_self_pos v hv

lemma restSim_level [Noise ℝ] (m z : ℝ) : (restSim m z).dyn.state.ori.toMat = rotZ 0 := by
  show (Quat.identity : Quat ℝ).toMat = _
  rw [Quat.toMat_real]
  ext i j
  fin_cases i <;> fin_cases j <;> simp [Quat.identity, rotZ, flt]

/-- At the height at which the loops ask for `(1 - 1/m) g`, the vehicle is unmoved. -/
lemma restSim_rest [Noise ℝ] (m : ℝ) (hm : 0 < m) (hz : 0 < 3 + (1 - 1 / m) * 10) :
    ∃ t, ((restSim m (3 + (1 - 1 / m) * 10)).updateController (1 / 100)).updateDynamics (1 / 100) = .ok t ∧
      Unmoved (restSim m (3 + (1 - 1 / m) * 10)).dyn.state t.dyn.state := by
  refine C114_rest (restSim_runsOn m _ hm.le) (restSim_holds m _ hm hz) (by norm_num) le_rfl
    (kf := 1) (kt := 1) (x := 1) (y := 1) ⟨0, 10, 1, 1, .inl rfl⟩
    ⟨one_pos, one_ne_zero, one_ne_zero, one_ne_zero⟩ unitGain_only unitGain_only unitGain_only ?_ vzero_real
    vzero_real (restSim_level m _) fun i => ?_
  · intro i
    fin_cases i <;> simp [restSim, builtFrom, hoverParams, Fixture.modelParams]
  · refine ⟨Real.sqrt_nonneg _, ?_⟩
    show 4 * 1 * √(10 / 4) ^ 2 = 10
    rw [Real.sq_sqrt (by norm_num)]; norm_num

/-- A vehicle of mass two rests five metres above its reference. -/
theorem C114_violated : ¬ C114_claim := by
  intro h
  let N : Noise ℝ := ⟨fun _ _ _ => 0⟩
  obtain ⟨t, hu, hst⟩ := restSim_rest 2 (by norm_num) (by norm_num)
  have := h N _ t _ _ 10 (1 / 100) (1 / 100) (fun _ => 1) (fun _ => 1) (restSim_runsOn 2 _ (by norm_num))
    (restSim_holds 2 _ (by norm_num) (by norm_num)) (by norm_num) (by norm_num) le_rfl hu hst
    (restSim_settled 2 _ t) unitGain_only unitGain_only (by simp)
  have := congrFun this 2
  simp [restSim, builtFrom] at this
  norm_num at this

/-- Non-vacuity of `C114_attitude_partial` and `C114_offset_partial`: the vehicle of mass two, which is not half a turn
away from what the controller asks for. -/
example [Noise ℝ] : ∃ s t : Sim ℝ 4, RunsOn s.dyn (hoverParams 2) Fixture.motors ∧
    HoldsPosition s (hoverParams 2) Fixture.motors 10 ∧
    (s.updateController (1 / 100)).updateDynamics (1 / 100) = .ok t ∧ Unmoved s.dyn.state t.dyn.state ∧
    RatesSettled s t ∧ OnlyProportional s.ctl.pos (fun _ => 1) ∧ OnlyProportional s.ctl.vel (fun _ => 1) ∧
    (∀ Rd, PointsTo Rd ((hoverParams 2).mass • (t.ctl.desAcc - (hoverParams 2).gravity)) s.refYaw →
      attError Rd s.dyn.state.ori.toMat ≠ 2) ∧ s.refPos - s.dyn.state.pos = ![0, 0, -5] := by
  obtain ⟨t, hu, hst⟩ := restSim_rest 2 (by norm_num) (by norm_num)
  have hr := restSim_runsOn 2 (3 + (1 - 1 / 2) * 10) (by norm_num)
  have hh := restSim_holds 2 (3 + (1 - 1 / 2) * 10) (by norm_num) (by norm_num)
  refine ⟨_, t, hr, hh, hu, hst, restSim_settled 2 _ t, unitGain_only, unitGain_only, ?_, ?_⟩
  · have hacc : t.ctl.desAcc = ![0, 0, -5] := by
      have e1 : OnlyProportional (restSim 2 (3 + (1 - 1 / 2) * 10)).ctl.pos fun _ => 1 := unitGain_only
      have e2 : OnlyProportional (restSim 2 (3 + (1 - 1 / 2) * 10)).ctl.vel fun _ => 1 := unitGain_only
      rw [updateDynamics_ctl hu, (outer_loops hh _ vzero_real).1, only_output e1, only_output e2]
      ext i
      fin_cases i <;> simp [restSim, builtFrom]
      norm_num
    have hf : (hoverParams 2).mass • (t.ctl.desAcc - (hoverParams 2).gravity) = ![0, 0, 10] := by
      rw [hacc]
      ext i
      fin_cases i <;> simp [hoverParams, Fixture.modelParams]
      norm_num
    intro Rd hP
    rw [hf] at hP
    have h0 : (restSim 2 (3 + (1 - 1 / 2) * 10)).refYaw = 0 := rfl
    rw [Acro.pointsTo_unique (vertical_ne (by norm_num)) hP, h0,
      ← Acro.pointsTo_unique (vertical_ne (by norm_num)) (pointsTo_rotZ (by norm_num) 0), restSim_level]
    simp [attError, (rotZ_rotation 0).orth]
  · ext i
    fin_cases i <;> simp [restSim, builtFrom]
    norm_num

/-- A loop without error puts out what its integrators hold. -/
lemma held_output {p : Pid ℝ 3} {k : Vec 3 ℝ} (hf : p.firstRun = false) (hi : p.kiMat = Matrix.diagonal k)
    (hd : p.kdMat = 0) (hs : p.satFlag = false) (hr : p.resetIntegral = false)
    (hw : ∀ i, |p.integral i| ≤ p.antiwindup i) (dt : ℝ) :
    (p.computeControl dt 0).2 = (fun i => k i * p.integral i) ∧
      (p.computeControl dt 0).1.integral = p.integral := by
  have hrun : p.firstRunInit 0 = p := by simp [Pid.firstRunInit, hf]
  have hacc : p.accumulate dt 0 = p.integral := by
    ext i
    obtain ⟨a, b⟩ := abs_le.1 (hw i)
    unfold Pid.accumulate
    simp only [Pid.resetAxis, hr, flt]
    split
    · simp [Pid.saturateOutput, flt, not_lt.2 a, not_lt.2 b]
    · simp
  constructor
  · unfold Pid.computeControl
    rw [hrun]
    simp only [Pid.computeIntegral, Pid.computeDerivativeByDeriving, Pid.computeDerivative, Pid.finishOutput, hs,
      hd, hi]
    show vadd (vadd (mv p.kpMat 0) (mv _ (p.accumulate dt 0))) _ = _
    rw [hacc]
    ext i
    simp [flt, Matrix.mulVec_diagonal]
  · unfold Pid.computeControl
    rw [hrun]
    exact hacc

/-- Loop with unit proportional and integral gain. -/
noncomputable def unitPI : Pid ℝ 3 :=
  { Pid.mk' { unitGain with ki := fun _ => 1, antiwindup := fun _ => 10 } with
    firstRun := false, integral := ![0, 0, -5] }

lemma unitPI_spec : unitPI.kiMat = Matrix.diagonal (fun _ => 1) ∧ unitPI.kdMat = 0 ∧ unitPI.satFlag = false ∧
    unitPI.antiwindup = (fun _ => 10) ∧ unitPI.resetIntegral = false := by
  simp [unitPI, Pid.mk', Pid.updateParams, Pid.nonZero, unitGain, PidParams.default, Pid.reset, Pid.disableSat,
    Pid.setGains, Pid.setAntiWindup, Pid.setAlpha, Pid.setResetIntegral, Pid.setPropSat, flt]

lemma unitPI_inside (i : Fin 3) : |unitPI.integral i| < unitPI.antiwindup i := by
  rw [unitPI_spec.2.2.2.1, show unitPI.integral = ![0, 0, -5] from rfl]
  fin_cases i <;> simp
  norm_num

/-- ... the same vehicle with integrators in the velocity loop, which hold what the loop has to ask for, at its
reference. -/
noncomputable def integralSim [Noise ℝ] : Sim ℝ 4 :=
  { restSim 2 3 with ctl := { (restSim 2 3).ctl with vel := unitPI } }

lemma integralSim_holds [Noise ℝ] : HoldsPosition integralSim (hoverParams 2) Fixture.motors 10 :=
  have h := restSim_holds 2 3 (by norm_num) (by norm_num)
  ⟨h.quad, h.regular, h.mass, h.gravity, h.down, h.quiet, h.knowsMass, h.knowsGravity, h.knowsRotors, h.kpRot,
    h.armed, h.mode, h.yawMode, h.unit, h.limits, h.floor, h.extForce⟩

lemma integralSim_loops [Noise ℝ] : (integralSim.updateController (1 / 100)).ctl.desAcc = ![0, 0, -5] ∧
    (integralSim.updateController (1 / 100)).ctl.vel.integral = ![0, 0, -5] := by
  have hp : OnlyProportional integralSim.ctl.pos fun _ => 1 := unitGain_only
  have hz : (integralSim.ctl.pos.computeControl (1 / 100) (integralSim.refPos - integralSim.dyn.state.pos)).2 = 0 := by
    rw [only_output hp]
    ext i
    fin_cases i <;> simp [integralSim, restSim, builtFrom]
  obtain ⟨o1, o2⟩ := outer_loops integralSim_holds (1 / 100) vzero_real
  rw [hz] at o1 o2
  obtain ⟨q2, q3, q4, q5, q6⟩ := unitPI_spec
  obtain ⟨r1, r2⟩ := held_output (p := unitPI) rfl q2 q3 q4 q6 (fun i => (unitPI_inside i).le) (1 / 100)
  rw [o1, o2]
  refine ⟨?_, r2⟩
  show (unitPI.computeControl (1 / 100) 0).2 = _
  rw [r1]
  ext i
  fin_cases i <;> simp [unitPI]

lemma integralSim_runsOn [Noise ℝ] : RunsOn integralSim.dyn (hoverParams 2) Fixture.motors :=
  restSim_runsOn 2 3 (by norm_num)

/-- Non-vacuity of `C114_integral`. -/
example [Noise ℝ] : ∃ t : Sim ℝ 4, RunsOn integralSim.dyn (hoverParams 2) Fixture.motors ∧
    HoldsPosition integralSim (hoverParams 2) Fixture.motors 10 ∧
    (integralSim.updateController (1 / 100)).updateDynamics (1 / 100) = .ok t ∧
    Unmoved integralSim.dyn.state t.dyn.state ∧ OnlyProportional integralSim.ctl.pos (fun _ => 1) ∧
    FreeIntegral integralSim.ctl.vel ∧ t.ctl.vel.integral = integralSim.ctl.vel.integral := by
  obtain ⟨l1, l2⟩ := integralSim_loops
  obtain ⟨t, hu, hst⟩ := rest_core (s := integralSim) (dtc := 1 / 100) (dt := 1 / 100) (kf := 1) (kt := 1)
    (x := 1) (y := 1) (k := fun _ => 1) integralSim_runsOn integralSim_holds (by norm_num) le_rfl
    ⟨0, 10, 1, 1, .inl rfl⟩ ⟨one_pos, one_ne_zero, one_ne_zero, one_ne_zero⟩ unitGain_only (by
      rw [l1]
      ext i
      fin_cases i <;> simp [hoverParams, Fixture.modelParams]
      norm_num) vzero_real vzero_real (restSim_level 2 3) (fun i => by
        refine ⟨Real.sqrt_nonneg _, ?_⟩
        show 4 * 1 * √(10 / 4) ^ 2 = 10
        rw [Real.sq_sqrt (by norm_num)]; norm_num)
  refine ⟨t, integralSim_runsOn, integralSim_holds, hu, hst, unitGain_only, ⟨rfl, .inl unitPI_inside⟩, ?_⟩
  rw [updateDynamics_ctl hu, l2]
  rfl

end Verif.Props
