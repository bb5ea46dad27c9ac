import Verif.Props.PiLoop
import Verif.Props.Heading
import Verif.Props.Climb
import Verif.Lemmas.HoverEigen

/-!
# A control cycle of position hold

Definitions for C139 and the reduction of a cycle to the numbers that describe the vehicle and the memory of its
controllers.
-/

namespace Verif.Props

open Verif Flt Spec Stability

/-! ## Controllers -/

/-- A PID with these tunings of its axes. -/
structure Tuned (b : Pid ℝ 3) (k : Fin 3 → PidTuning) : Prop where
  kp : b.kpMat = Matrix.diagonal fun i => (k i).kp
  ki : b.kiMat = Matrix.diagonal fun i => (k i).ki
  kd : b.kdMat = Matrix.diagonal fun i => (k i).kd
  alpha : ∀ i, b.alpha i = (k i).alpha

/-- Accumulated error `I`, filtered derivative `f` and last error `E` which a call with error `e` starts from, as far as
they matter. -/
structure Held (q : Pid ℝ 3) (k : Fin 3 → PidTuning) (e I f E : Vec 3 ℝ) : Prop where
  int : ∀ i, I i = if (k i).ki = 0 then 0 else if q.firstRun then 0 else q.integral i
  fil : ∀ i, f i = if (k i).kd = 0 then 0 else if q.firstRun then 0 else q.filtered i
  err : ∀ i, E i = if q.firstRun then e i else q.propErr i

/-- The anti-windup bound affects neither of these accumulated errors. -/
def Unwound (b : Pid ℝ 3) (k : Fin 3 → PidTuning) (I : Vec 3 ℝ) : Prop :=
  (b.resetIntegral = false ∧ b.antiwindup = 0) ∨ ∀ i, (k i).ki ≠ 0 → |I i| < b.antiwindup i

/-- The output limits do not affect this output. -/
def Unbounded (b : Pid ℝ 3) (o : Vec 3 ℝ) : Prop := b.satFlag = true → ∀ i, b.lower i < o i ∧ o i < b.upper i

/-- The accumulated error after a call in which the anti-windup bound does nothing. -/
lemma accumulate_inside {p b : Pid ℝ 3} {k : Fin 3 → PidTuning} {e I : Vec 3 ℝ} {dt : ℝ}
    (h1 : ∀ i, (k i).ki ≠ 0 → p.integral i = I i) (h2 : p.antiwindup = b.antiwindup)
    (h3 : p.resetIntegral = b.resetIntegral) (hI : Unwound b k I)
    (hJ : Unwound b k fun i => nextInt (.id ℝ) (k i) dt (I i) (e i)) (i : Fin 3) (hi : (k i).ki ≠ 0) :
    p.accumulate dt e i = nextInt (.id ℝ) (k i) dt (I i) (e i) := by
  unfold Pid.accumulate nextInt
  rw [if_neg hi]
  have hra : Pid.resetAxis p.resetIntegral (p.integral i) (p.antiwindup i) (e i) = I i := by
    rw [h1 i hi, h2, h3]
    rcases hI with ⟨a, -⟩ | a
    · simp [Pid.resetAxis, a]
    · simp [Pid.resetAxis, flt, not_lt.2 (a i hi).le]
  have hsum : vadd (fun j => Pid.resetAxis p.resetIntegral (p.integral j) (p.antiwindup j) (e j)) (smulR e dt) i =
      I i + e i * dt := by
    simp [hra, flt, mul_comm]
  rcases hJ with ⟨-, a⟩ | a
  · have : Pid.nonZero p.antiwindup = false := by
      rw [h2, a]; simp [Pid.nonZero, flt]
    simp only [this]
    exact hsum
  · have h1 := a i hi
    simp only [nextInt, if_neg hi, RingHom.id_apply] at h1
    obtain ⟨l1, l2⟩ := abs_lt.1 h1
    have hsat : ∀ o : Vec 3 ℝ, o i = I i + e i * dt →
        Pid.saturateOutput o p.antiwindup (smulL (lit (-1)) p.antiwindup) false i = I i + e i * dt := fun o ho => by
      rw [h2]
      simp [Pid.saturateOutput, flt, ho, not_lt.2 l2.le, not_lt.2 l1.le]
    split
    · exact hsat _ hsum
    · exact hsum

lemma Tuned.control {q b : Pid ℝ 3} {k : Fin 3 → PidTuning} {e I f E : Vec 3 ℝ} {dt : ℝ} (h : Tuned b k)
    (hc : q.SameConfig b) (hm : Held q k e I f E) (hI : Unwound b k I)
    (hJ : Unwound b k fun i => nextInt (.id ℝ) (k i) dt (I i) (e i))
    (ho : Unbounded b fun i => respond (.id ℝ) (k i) dt (I i) (f i) (E i) (e i)) :
    (q.computeControl dt e).2 = (fun i => respond (.id ℝ) (k i) dt (I i) (f i) (E i) (e i)) ∧
    (q.computeControl dt e).1.SameConfig b ∧
    ∀ e', Held (q.computeControl dt e).1 k e' (fun i => nextInt (.id ℝ) (k i) dt (I i) (e i))
      (fun i => nextFil (.id ℝ) (k i) dt (f i) (E i) (e i)) e := by
  obtain ⟨c1, c2, c3, c4, c5, c6, c7, c8, c9, c10⟩ := hc
  obtain ⟨f0, f1, f2, f3, f4, f5, f6⟩ := Pid.computeControl_fields q dt e
  have hc' := Pid.computeControl_config q dt e
  have hout := Pid.computeControl_output q dt e
  set p0 := q.firstRunInit e with hp0
  have m1 : ∀ i, (k i).ki ≠ 0 → p0.integral i = I i := fun i hi => by
    rw [hm.int i, if_neg hi, hp0]
    cases hr : q.firstRun <;> simp [Pid.firstRunInit, hr, flt]
  have m2 : ∀ i, (k i).kd ≠ 0 → p0.filtered i = f i := fun i hi => by
    rw [hm.fil i, if_neg hi, hp0]
    cases hr : q.firstRun <;> simp [Pid.firstRunInit, hr, flt]
  have m3 : ∀ i, p0.propErr i = E i := fun i => by
    rw [hm.err i, hp0]
    cases hr : q.firstRun <;> simp [Pid.firstRunInit, hr]
  have m4 : p0.antiwindup = b.antiwindup := (Pid.firstRunInit_config _ _ : p0.antiwindup = q.antiwindup).trans c4
  have m5 : p0.resetIntegral = b.resetIntegral := by
    rw [← c6, hp0]
    cases hr : q.firstRun <;> simp [Pid.firstRunInit, hr]
  have hacc := accumulate_inside m1 m4 m5 hI hJ
  have hfil : ∀ i, (k i).kd ≠ 0 → (q.computeControl dt e).1.filtered i = nextFil (.id ℝ) (k i) dt (f i) (E i) (e i) := by
    intro i hi
    rw [f3, nextFil, if_neg hi]
    simp only [Pi.add_apply, Pi.mul_apply, Pi.smul_apply, Pi.sub_apply, Pi.one_apply, m3, m2 i hi, c5, h.alpha,
      smul_eq_mul, RingHom.id_apply]
    ring
  have hsum : vadd (vadd (q.computeControl dt e).1.propContrib (q.computeControl dt e).1.intContrib)
      (q.computeControl dt e).1.derivContrib = fun i => respond (.id ℝ) (k i) dt (I i) (f i) (E i) (e i) := by
    rw [f4, f5, f6, f1, c1, c2, c3, h.kp, h.ki, h.kd]
    ext i
    simp only [flt, Matrix.mulVec_diagonal, Pi.add_apply, respond, RingHom.id_apply]
    congr 1
    · congr 1
      by_cases hi : (k i).ki = 0
      · rw [hi]; simp
      · rw [hacc i hi]
    · by_cases hi : (k i).kd = 0
      · rw [hi]; simp
      · rw [hfil i hi]
  refine ⟨?_, ?_, fun e' => ⟨fun i => ?_, fun i => ?_, fun i => ?_⟩⟩
  · rw [Pid.computeControl_snd, hout, hsum, c7, c9, c10]
    split
    · rename_i hs
      exact saturateOutput_inside _ fun i => ⟨(ho hs i).1.le, (ho hs i).2.le⟩
    · rfl
  · unfold Pid.SameConfig at hc' ⊢
    simp only [hc', c1, c2, c3, c4, c5, c6, c7, c8, c9, c10, and_self]
  · by_cases hi : (k i).ki = 0
    · simp [nextInt, hi]
    · rw [if_neg hi, f0, f1, hacc i hi]; simp
  · by_cases hi : (k i).kd = 0
    · simp [nextFil, hi]
    · rw [if_neg hi, f0, hfil i hi]; simp
  · rw [f0, f2]; simp

/-! ## Turning about the vertical -/

section
variable {θ : ℝ}

lemma turnVec_dot (u v : Vec 3 ℝ) : turnVec θ u ⬝ᵥ turnVec θ v = u ⬝ᵥ v := by
  simp only [turnVec, dotProduct, Fin.sum_univ_three, Matrix.cons_val_zero, Matrix.cons_val_one, Matrix.cons_val]
  linear_combination (u 0 * v 0 + u 1 * v 1) * Real.cos_sq_add_sin_sq θ

lemma turnVec_cross (u v : Vec 3 ℝ) : crossProduct (turnVec θ u) (turnVec θ v) = turnVec θ (crossProduct u v) := by
  ext i
  fin_cases i
  · simp [turnVec, cross_apply]; ring
  · simp [turnVec, cross_apply]; ring
  · simp [turnVec, cross_apply]
    linear_combination (u 0 * v 1 - u 1 * v 0) * Real.cos_sq_add_sin_sq θ

lemma turnVec_normalized (v : Vec 3 ℝ) : Verif.normalized (turnVec θ v) = turnVec θ (Verif.normalized v) := by
  rw [normalized_real, normalized_real, turnVec_dot, turnVec_smul]

lemma turned_axis {q r : Quat ℝ} (h : IsTurned θ q r) (hq : IsUnitQ q) (j : Fin 3) :
    axis r.toMat j = turnVec θ (axis q.toMat j) := by
  have e : ∀ p : Quat ℝ, axis p.toMat j = p.rotate (Pi.single j 1) := fun p => by
    rw [← Quat.toMat_mulVec, Matrix.mulVec_single_one]; rfl
  rw [e, e, turned_rotate h hq]

lemma turned_desired {yaw : ℝ} (hc : Real.cos yaw = Real.cos θ) (hs : Real.sin yaw = Real.sin θ) (F : Vec 3 ℝ)
    (j : Fin 3) : axis (Acro.desiredAttitude yaw (turnVec θ F)) j = turnVec θ (axis (Acro.desiredAttitude 0 F) j) := by
  have e : (![cos yaw, sin yaw, lit 0] : Vec 3 ℝ) = turnVec θ ![cos (0 : ℝ), sin (0 : ℝ), lit 0] := by
    ext i
    fin_cases i <;> simp [flt, turnVec, hc, hs]
  have k : ∀ (xb yb zb : Vec 3 ℝ), axis (fun i j => (![xb i, yb i, zb i] : Vec 3 ℝ) j) j = (![xb, yb, zb] : Fin 3 → Vec 3 ℝ) j :=
    fun xb yb zb => by ext i; fin_cases j <;> rfl
  unfold Acro.desiredAttitude
  simp only [k, e, cross_real, turnVec_normalized, turnVec_cross]
  fin_cases j <;> rfl

lemma turned_error {q r : Quat ℝ} (h : IsTurned θ q r) (hq : IsUnitQ q) {yaw : ℝ} (hc : Real.cos yaw = Real.cos θ)
    (hs : Real.sin yaw = Real.sin θ) (F : Vec 3 ℝ) :
    Acro.rotationError (Acro.desiredAttitude yaw (turnVec θ F)) r.toMat =
      Acro.rotationError (Acro.desiredAttitude 0 F) q.toMat := by
  rw [rotationError_axes, rotationError_axes]
  simp only [turned_axis h hq, turned_desired hc hs, turnVec_dot]

end

/-! ## The vehicle -/

/-- The vehicle behind the constants: four upright rotors with a common time constant and a common ratio of inertia and
torque coefficient, anywhere on the frame; diagonal inertia. -/
structure Loop.Craft (l : Loop) (p : ModelParams ℝ) (ms : Fin 4 → Motor ℝ) : Prop where
  mass : p.mass = l.mass
  gravity : p.gravity = ![0, 0, -l.g]
  drag : p.drag = l.drag
  aero : p.aero = l.aero
  inertia : p.inertia = Matrix.diagonal l.inertia
  upright : ∀ j, (ms j).rot = 1
  lagging : ∀ j, (ms j).tau = l.tau
  lift : ∀ j, l.mix 0 j = (ms j).kf
  roll : ∀ j, l.mix 1 j = (ms j).pos 1 * (ms j).kf
  pitch : ∀ j, l.mix 2 j = -((ms j).pos 0 * (ms j).kf)
  yaw : ∀ j, l.mix 3 j = (ms j).dir * (ms j).kt
  wheel : ∀ j, (ms j).dir * (ms j).inertia = l.lag * l.mix 3 j

/-- The same without process noise. -/
structure Loop.Is (l : Loop) (p : ModelParams ℝ) (ms : Fin 4 → Motor ℝ) : Prop extends Loop.Craft l p ms where
  quiet : p.forceNoise = 0

/-- An armed vehicle in position hold; its controllers have the configurations `cP`, `cV`, `cR` and know the vehicle. -/
structure InHold (s : Sim ℝ 4) (p : ModelParams ℝ) (ms : Fin 4 → Motor ℝ) (l : Loop) (cP cV cR : Pid ℝ 3) : Prop where
  runs : s.dyn.model.core = some (Model.coreOf p ms)
  rotors : Model.motorFn 4 p.motors = some ms
  armed : s.armed = true
  mode : s.mode = .position
  yawMode : s.yawMode = .angle
  heading : Real.cos s.refYaw = Real.cos l.psi ∧ Real.sin s.refYaw = Real.sin l.psi
  request : s.refPos = l.target
  floor : s.floorEnable = false
  extForce : s.extForce = 0
  knowsMass : s.ctl.acro.mass = l.mass
  knowsGravity : s.ctl.acro.gravity = ![0, 0, -l.g]
  gain : s.ctl.acro.kpRot = Matrix.diagonal l.kr
  knowsInertia : s.ctl.indi.inertia = Matrix.diagonal l.inertia
  knowsRotors : ∀ j r, s.ctl.indi.mixerInv j (Fin.natAdd 2 r) = l.alloc j r
  posConfig : s.ctl.pos.SameConfig cP
  velConfig : s.ctl.vel.SameConfig cV
  rateConfig : s.ctl.indi.pid.SameConfig cR

/-- A vehicle in position hold whose motion and whose controllers' memory are given by the numbers `x`. -/
structure Hovers (s : Sim ℝ 4) (p : ModelParams ℝ) (ms : Fin 4 → Motor ℝ) (l : Loop) (cP cV cR : Pid ℝ 3) (x : HV → ℝ) :
    Prop extends InHold s p ms l cP cV cR where
  pos : ∀ i, s.dyn.state.pos i = x (.pos i)
  vel : ∀ i, s.dyn.state.vel i = x (.vel i)
  ori : IsTurned l.psi ⟨x (.ori 0), x (.ori 1), x (.ori 2), x (.ori 3)⟩ s.dyn.state.ori
  unit : IsUnitQ (⟨x (.ori 0), x (.ori 1), x (.ori 2), x (.ori 3)⟩ : Quat ℝ)
  angVel : ∀ i, s.dyn.state.angVel i = x (.om i)
  motVel : ∀ j, s.dyn.state.motVel j = x (.mot j)
  posMemory : Held s.ctl.pos l.P (l.ep x) (fun i => x (.iP i)) (fun i => x (.fP i)) fun i => x (.eP i)
  velMemory : Held s.ctl.vel l.V (l.ev x) (fun i => x (.iV i)) (fun i => x (.fV i)) fun i => x (.eV i)
  rateMemory : Held s.ctl.indi.pid l.R (l.er x) (fun i => x (.iR i)) (fun i => x (.fR i)) fun i => x (.eR i)

/-- No limit is reached in the cycle. -/
structure Loop.Inside (l : Loop) (ms : Fin 4 → Motor ℝ) (cP cV cR : Pid ℝ 3) (x : HV → ℝ) : Prop where
  pos : Unwound cP l.P fun i => x (.iP i)
  pos' : Unwound cP l.P fun i => l.map x (.iP i)
  posOut : Unbounded cP (l.vref x)
  vel : Unwound cV l.V fun i => x (.iV i)
  vel' : Unwound cV l.V fun i => l.map x (.iV i)
  velOut : Unbounded cV (l.acc x)
  rate : Unwound cR l.R fun i => x (.iR i)
  rate' : Unwound cR l.R fun i => l.map x (.iR i)
  rateOut : Unbounded cR (l.spin x)
  up : 0 < l.proj x
  command : ∀ j, (ms j).minSpeed < l.cmd x j ∧ l.cmd x j < (ms j).maxSpeed
  speed : ∀ j, (ms j).minSpeed < l.map x (.mot j) ∧ l.map x (.mot j) < (ms j).maxSpeed

variable {s : Sim ℝ 4} {p : ModelParams ℝ} {ms : Fin 4 → Motor ℝ} {l : Loop} {cP cV cR : Pid ℝ 3} {x : HV → ℝ}

/-- Everything but what the rest of the cycle changes. -/
structure Commanded (s t : Sim ℝ 4) (l : Loop) (cP cV cR : Pid ℝ 3) (x : HV → ℝ) : Prop where
  actuation : t.actuation = l.cmd x
  dyn : t.dyn = s.dyn
  armed : t.armed = s.armed
  mode : t.mode = s.mode
  yawMode : t.yawMode = s.yawMode
  refYaw : t.refYaw = s.refYaw
  refPos : t.refPos = s.refPos
  floor : t.floorEnable = s.floorEnable
  extForce : t.extForce = s.extForce
  acro : t.ctl.acro.mass = s.ctl.acro.mass ∧ t.ctl.acro.gravity = s.ctl.acro.gravity ∧ t.ctl.acro.kpRot = s.ctl.acro.kpRot
  indi : t.ctl.indi.inertia = s.ctl.indi.inertia ∧ t.ctl.indi.mixerInv = s.ctl.indi.mixerInv
  posConfig : t.ctl.pos.SameConfig cP
  velConfig : t.ctl.vel.SameConfig cV
  rateConfig : t.ctl.indi.pid.SameConfig cR
  posMemory : ∀ e, Held t.ctl.pos l.P e (fun i => l.map x (.iP i)) (fun i => l.map x (.fP i)) fun i => l.map x (.eP i)
  velMemory : ∀ e, Held t.ctl.vel l.V e (fun i => l.map x (.iV i)) (fun i => l.map x (.fV i)) fun i => l.map x (.eV i)
  rateMemory : ∀ e, Held t.ctl.indi.pid l.R e (fun i => l.map x (.iR i)) (fun i => l.map x (.fR i)) fun i =>
    l.map x (.eR i)

/-- The acceleration, attitude and rate stages with the demanded acceleration of the cycle. -/
lemma Loop.stage (hR : Tuned cR l.R) {c c' : Ctl ℝ 4} {o : Quat ℝ} {om : Vec 3 ℝ} {yaw : ℝ} {cmd : Vec 4 ℝ}
    (hst : AccelerationStage c c' o.toMat om (l.acc x) yaw l.dt cmd)
    (hm : c.acro.mass = l.mass) (hg : c.acro.gravity = ![0, 0, -l.g]) (hk : c.acro.kpRot = Matrix.diagonal l.kr)
    (hin : c.indi.inertia = Matrix.diagonal l.inertia) (hmx : ∀ j r, c.indi.mixerInv j (Fin.natAdd 2 r) = l.alloc j r)
    (hc : c.indi.pid.SameConfig cR)
    (hmem : Held c.indi.pid l.R (l.er x) (fun i => x (.iR i)) (fun i => x (.fR i)) fun i => x (.eR i))
    (hyaw : Real.cos yaw = Real.cos l.psi ∧ Real.sin yaw = Real.sin l.psi) (ho : IsTurned l.psi (Loop.quat x) o)
    (hu : IsUnitQ (Loop.quat x)) (ha : ∀ i, om i = x (.om i)) (i1 : Unwound cR l.R fun i => x (.iR i))
    (i2 : Unwound cR l.R fun i => l.map x (.iR i)) (i3 : Unbounded cR (l.spin x)) (i4 : 0 < l.proj x) :
    cmd = l.cmd x ∧ c'.indi.pid.SameConfig cR ∧
    ∀ e, Held c'.indi.pid l.R e (fun i => l.map x (.iR i)) (fun i => l.map x (.fR i)) fun i => l.map x (.eR i) := by
  obtain ⟨T, w, hac, hcases⟩ := hst.acro
  have hf : (fun i => (l.acc x i ⊟ c.acro.gravity i) ⊠ c.acro.mass) = turnVec l.psi (l.force x) := by
    rw [hg, hm]
    have hcs := Real.cos_sq_add_sin_sq l.psi
    ext i
    fin_cases i
    · simp [flt, turnVec, Loop.force]; linear_combination -(l.acc x 0 * l.mass) * hcs
    · simp [flt, turnVec, Loop.force]; linear_combination -(l.acc x 1 * l.mass) * hcs
    · simp [flt, turnVec, Loop.force]; ring
  have hz : (fun i => o.toMat i 2) = turnVec l.psi (Loop.bodyZ x) := turned_axis ho hu 2
  have hpr : dot (turnVec l.psi (l.force x)) (Verif.normalized (turnVec l.psi (Loop.bodyZ x))) = l.proj x := by
    rw [turnVec_normalized, dot_real, turnVec_dot]; rfl
  have hra : (c.acro.yawAngleToAngularVelocity o.toMat yaw (turnVec l.psi (l.force x))).2 = l.rates x := by
    simp only [Acro.yawAngleToAngularVelocity]
    rw [turned_error ho hu hyaw.1 hyaw.2, hk]
    ext i
    simp [flt, Loop.rates, Matrix.mulVec_diagonal, -Matrix.diagonal_neg, Loop.quat, Matrix.neg_mulVec]
  simp only [hf, hz, hpr, hra] at hcases
  have hTw : T = l.proj x ∧ w = l.rates x := by
    rcases hcases with ⟨hneg, -, -⟩ | ⟨-, hT, hw⟩
    · simp [flt] at hneg
      exact absurd hneg (not_lt.2 i4.le)
    · exact ⟨hT, hw⟩
  obtain ⟨rfl, rfl⟩ := hTw
  have herr3 : (fun i => l.rates x i ⊟ om i) = l.er x := by
    ext i; simp [flt, ha, Loop.er]
  have hrate := hac.rate
  rw [herr3] at hrate
  obtain ⟨o7, o8, o9⟩ := hR.control hc hmem i1 i2 i3
  have hmot : (c.indi.acroToMotor om (l.proj x) (l.rates x) l.dt).2 = l.cmd x := by
    have hge : Pid.getError om (l.rates x) = l.er x := herr3
    simp only [Indi.acroToMotor, hge, o7, hin]
    rw [sqrtKeepSign_real]
    have hsq : ∀ j, mv c.indi.mixerInv ![(![lit 0, lit 0, l.proj x] : Vec 3 ℝ) 0,
        (![lit 0, lit 0, l.proj x] : Vec 3 ℝ) 1, (![lit 0, lit 0, l.proj x] : Vec 3 ℝ) 2, 
        (vadd (mv (Matrix.diagonal l.inertia) fun i => respond (.id ℝ) (l.R i) l.dt (x (.iR i)) (x (.fR i)) (x (.eR i))
          (l.er x i)) (cross (l.rates x) (mv (Matrix.diagonal l.inertia) (l.rates x))) : Vec 3 ℝ) 0,
        (vadd (mv (Matrix.diagonal l.inertia) fun i => respond (.id ℝ) (l.R i) l.dt (x (.iR i)) (x (.fR i)) (x (.eR i))
          (l.er x i)) (cross (l.rates x) (mv (Matrix.diagonal l.inertia) (l.rates x))) : Vec 3 ℝ) 1,
        (vadd (mv (Matrix.diagonal l.inertia) fun i => respond (.id ℝ) (l.R i) l.dt (x (.iR i)) (x (.fR i)) (x (.eR i))
          (l.er x i)) (cross (l.rates x) (mv (Matrix.diagonal l.inertia) (l.rates x))) : Vec 3 ℝ) 2] j = l.square x j := by
      intro j
      have k := hmx j
      have k0 := k 0
      have k1 := k 1
      have k2 := k 2
      have k3 := k 3
      simp only [show Fin.natAdd 2 (0 : Fin 4) = (2 : Fin 6) from rfl, show Fin.natAdd 2 (1 : Fin 4) = (3 : Fin 6) from rfl,
        show Fin.natAdd 2 (2 : Fin 4) = (4 : Fin 6) from rfl, show Fin.natAdd 2 (3 : Fin 4) = (5 : Fin 6) from rfl] at k0 k1 k2 k3
      have hd : ∀ v : Vec 3 ℝ, (Matrix.diagonal l.inertia).mulVec v = fun i => l.inertia i * v i := fun v => by
        ext i; rw [Matrix.mulVec_diagonal]
      simp only [flt, hd, Matrix.mulVec, dotProduct, Fin.sum_univ_six]
      simp only [Loop.square, Fin.sum_univ_four, Loop.wrench, Loop.torque, Loop.spin]
      simp [k0, k1, k2, k3]
    ext j
    exact (congrArg (fun a : ℝ => √|a| * sign a) (hsq j))
  exact ⟨hac.motors.trans hmot, by rw [hrate]; exact o8, by rw [hrate]; exact o9⟩

lemma Hovers.control (h : Hovers s p ms l cP cV cR x) (hP : Tuned cP l.P) (hV : Tuned cV l.V) (hR : Tuned cR l.R)
    (hi : Loop.Inside l ms cP cV cR x) : Commanded s (s.updateController l.dt) l cP cV cR x := by
  have hu := Sim.updateController_armed h.armed l.dt
  have hy : s.yawRef = s.refYaw := by simp [Sim.yawRef, h.yawMode]
  have hcmd : s.command s.refYaw l.dt = s.ctl.positionControl s.dyn.state.pos s.dyn.state.ori.toMat s.dyn.state.vel
      s.dyn.state.angVel s.refPos s.refYaw l.dt := by
    simp only [Sim.command, h.mode]
  obtain ⟨hst, -, -, e1, e2⟩ := (C53_cascade s.ctl s.dyn.state.ori.toMat s.dyn.state.pos s.dyn.state.vel
    s.dyn.state.angVel s.refPos 0 0 s.refYaw l.dt).1
  have herr : (fun i => s.refPos i ⊟ s.dyn.state.pos i) = l.ep x := by
    ext i; simp [flt, h.request, h.pos, Loop.ep]
  obtain ⟨o1, o2, o3⟩ := hP.control h.posConfig h.posMemory hi.pos hi.pos' hi.posOut
  have herr2 : (fun i => (s.ctl.pos.computeControl l.dt (l.ep x)).2 i ⊟ s.dyn.state.vel i) = l.ev x := by
    rw [o1]
    ext i; simp [flt, h.vel, Loop.ev, Loop.vref]
  simp only [herr, herr2] at hst e1 e2
  obtain ⟨o4, o5, o6⟩ := hV.control h.velConfig h.velMemory hi.vel hi.vel' hi.velOut
  rw [o4] at hst
  obtain ⟨k0, o8, o9⟩ := Loop.stage (x := x) hR hst h.knowsMass h.knowsGravity h.gain h.knowsInertia h.knowsRotors h.rateConfig
    h.rateMemory h.heading h.ori h.unit h.angVel hi.rate hi.rate' hi.rateOut hi.up
  rw [hu, hy, hcmd]
  exact { actuation := k0, dyn := rfl, armed := rfl, mode := rfl, yawMode := rfl, refYaw := rfl, refPos := rfl, floor := rfl,
          extForce := rfl, acro := ⟨rfl, rfl, rfl⟩, indi := ⟨rfl, rfl⟩
          posConfig := by simp only [e1]; exact o2
          velConfig := by simp only [e2]; exact o5
          rateConfig := o8
          posMemory := by simp only [e1]; exact o3
          velMemory := by simp only [e2]; exact o6
          rateMemory := o9 }

lemma Loop.Craft.wrench (h : Loop.Craft l p ms) {s : State ℝ 4} (hm : ∀ j, s.motVel j = x (.mot j)) (wd : Vec 4 ℝ)
    (hw : wd = l.motAcc x) :
    ∑ j, rotorForce (ms j) (s.motVel j) = ![0, 0, l.lift x 0] ∧
    ∑ j, rotorTorque (ms j) (s.motVel j) (wd j) = fun i =>
      l.lift x i.succ + (![0, 0, l.lag * ∑ j, l.mix 3 j * l.motAcc x j] : Vec 3 ℝ) i := by
  subst hw
  have hl := h.lift
  have hr := h.roll
  have hp := h.pitch
  have hy := h.yaw
  have hwh : ∀ j, ((ms j).dir : ℝ) * (ms j).inertia = l.lag * ((ms j).dir * (ms j).kt) := fun j => by
    rw [h.wheel, hy]
  constructor
  · ext i
    rw [Finset.sum_apply]
    simp only [rotorForce, h.upright, Matrix.one_mulVec, hm, Loop.lift, hl]
    fin_cases i <;> simp
  · ext i
    rw [Finset.sum_apply]
    simp only [rotorTorque, rotorForce, h.upright, Matrix.one_mulVec, hm, Loop.lift, Finset.mul_sum]
    fin_cases i
    · simp [cross_apply]
      refine Finset.sum_congr rfl fun j _ => ?_
      rw [hr]; ring
    · simp [cross_apply]
      rw [← Finset.sum_neg_distrib]
      refine Finset.sum_congr rfl fun j _ => ?_
      rw [hp]; ring
    · simp [cross_apply]
      rw [← Finset.sum_add_distrib]
      refine Finset.sum_congr rfl fun j _ => ?_
      rw [hy]
      linear_combination (l.motAcc x j) * hwh j

section
variable [Noise ℝ]

/-- A vehicle at `x` relative to a point `a` that moves with velocity `u`. -/
structure Loop.Moves (l : Loop) (s : State ℝ 4) (x : HV → ℝ) (a u : Vec 3 ℝ) : Prop where
  pos : ∀ i, s.pos i = a i + x (.pos i)
  vel : ∀ i, s.vel i = u i + x (.vel i)
  ori : IsTurned l.psi (Loop.quat x) s.ori
  unit : IsUnitQ (Loop.quat x)
  angVel : ∀ i, s.angVel i = x (.om i)
  motVel : ∀ j, s.motVel j = x (.mot j)

/-- A dynamics update in which the rotors stay within their limits. -/
lemma Loop.Moves.pushed {v : Sim ℝ 4} {a u : Vec 3 ℝ} (h : Loop.Moves l v.dyn.state x a u) (hc : Loop.Craft l p ms)
    (hJ : ∀ i, l.inertia i ≠ 0) (h0 : 0 < l.dt) (h1 : l.dt ≤ 1 / 100)
    (hruns : v.dyn.model.core = some (Model.coreOf p ms)) (hrot : Model.motorFn 4 p.motors = some ms)
    (hfl : v.floorEnable = false) (hext : v.extForce = 0) (hact : v.actuation = l.cmd x)
    (hcmd : ∀ j, (ms j).minSpeed < l.cmd x j ∧ l.cmd x j < (ms j).maxSpeed)
    (hspd : ∀ j, (ms j).minSpeed < l.map x (.mot j) ∧ l.map x (.mot j) < (ms j).maxSpeed) :
    ∃ d, v.updateDynamics l.dt = .ok { v with extForce := vzero, dyn := d, floorCollision := false } ∧
      d.model.core = some (Model.coreOf p ms) ∧
      d.model = (if !v.floorCollision then v.dyn.model.setNoise (Model.coreOf p ms) l.dt else v.dyn.model.disableNoise) ∧
      Loop.Moves l d.state (l.map x + l.push d.model.stochForce (d.model.stochForce + l.wind x u)) (a + l.dt • u) u := by
  have hlim : ∀ i, (ms i).minSpeed ≤ (ms i).maxSpeed := fun i => ((hcmd i).1.trans (hcmd i).2).le
  have hnb : ∀ d, ({ v with dyn := d } : Sim ℝ 4).belowFloor = false := fun d => by
    simp [Sim.belowFloor, hfl]
  have hp : v.dyn.process v.actuation l.dt v.extForce (!v.floorCollision) =
      .ok (Dyn.eulerStep (Model.coreOf p ms) ms v.dyn v.actuation l.dt v.extForce (!v.floorCollision)) := by
    rw [Dyn.process_small_real _ _ _ _ h0 h1]
    have hcl : Dyn.clampOk ms = true := by simp [Dyn.clampOk, flt, hlim]
    simp [Dyn.singleStep, hruns, show (Model.coreOf p ms).params.motors = p.motors from rfl, hrot, hcl]
  set d := Dyn.eulerStep (Model.coreOf p ms) ms v.dyn v.actuation l.dt v.extForce (!v.floorCollision) with hd
  have hma : d.state.motAcc = l.motAcc x := by
    rw [hd, Dyn.es_motAcc, hact]
    funext i
    rw [clampVal_real, if_neg (not_lt.2 (hcmd i).1.le), if_neg (not_lt.2 (hcmd i).2.le), hc.lagging, h.motVel]
    rfl
  have hmv : ∀ j, d.state.motVel j = l.map x (.mot j) := by
    intro j
    have e : v.dyn.state.motVel j + l.dt * d.state.motAcc j = l.map x (.mot j) := by
      rw [hma, h.motVel]; rfl
    rw [hd, Dyn.es_motVel, ← hd]
    simp only [e, clampVal_real]
    rw [if_neg (not_lt.2 (hspd j).1.le), if_neg (not_lt.2 (hspd j).2.le)]
  have hpos : ∀ i, d.state.pos i = (a + l.dt • u) i + l.map x (.pos i) := by
    intro i
    rw [hd, Dyn.es_pos, Pi.add_apply, Pi.smul_apply, h.pos, h.vel]
    simp only [Pi.add_apply, Pi.smul_apply, smul_eq_mul, Loop.map]
    ring
  have hom : v.dyn.state.angVel = Loop.omega x := funext fun i => h.angVel i
  have hori : IsTurned l.psi (quatIntegrate (Loop.quat x) (Loop.omega x) l.dt) d.state.ori := by
    rw [hd, Dyn.es_ori, hom]
    exact turned_integrate h.ori _ _
  have hq : Dyn.stepNoise (Model.coreOf p ms) v.dyn l.dt (!v.floorCollision) = d.model.stochForce := by
    rw [hd, Dyn.stepNoise_eq]
  obtain ⟨w1, w2⟩ := hc.wrench h.motVel d.state.motAcc hma
  have htq : d.state.torque = l.moment x + d.model.stochForce := by
    rw [hd, Dyn.es_torque, ← hd, Model.motorTorque_coreOf, hq, w2, aeroMoment_real, hom]
    simp only [Model.coreOf, hc.aero, hc.inertia]
    ext i
    have hdg : (Matrix.diagonal l.inertia).mulVec (Loop.omega x) = fun i => l.inertia i * Loop.omega x i := by
      ext i; rw [Matrix.mulVec_diagonal]
    rw [hdg]
    simp only [Pi.add_apply, Pi.sub_apply, Pi.neg_apply, Pi.smul_apply, smul_eq_mul, Loop.moment]
    ring
  have hav : ∀ i, d.state.angVel i = l.map x (.om i) + l.dt * (d.model.stochForce i / l.inertia i) := by
    intro i
    rw [hd, Dyn.es_angVel, Dyn.es_angAcc, ← hd, htq]
    simp only [Model.coreOf, hc.inertia, Pi.add_apply, Pi.smul_apply, h.angVel]
    have hinv : (Matrix.diagonal l.inertia)⁻¹ = Matrix.diagonal fun i => (l.inertia i)⁻¹ := by
      refine Matrix.inv_eq_right_inv ?_
      rw [Matrix.diagonal_mul_diagonal, ← Matrix.diagonal_one]
      congr 1
      ext i
      exact mul_inv_cancel₀ (hJ i)
    rw [hinv, Matrix.mulVec_diagonal, smul_eq_mul, Loop.map, Pi.add_apply]
    ring
  have hfo : d.state.force = fun i => l.thrust x i + (![0, 0, -l.g] : Vec 3 ℝ) i - l.drag * (x (.vel i) * |x (.vel i)|) +
      (d.model.stochForce + l.wind x u) i := by
    rw [hd, Dyn.es_force, ← hd, Model.thrustVec_coreOf, hq, w1, hext]
    simp only [Model.coreOf, hc.gravity, hc.drag]
    have hr : v.dyn.state.ori.rotate ![0, 0, l.lift x 0] = l.thrust x := by
      rw [turned_rotate h.ori h.unit, Quat.axis_toMat]
      rfl
    rw [hr, dragForce_real]
    ext i
    simp only [Pi.add_apply, Pi.zero_apply, h.vel]
    simp only [Loop.wind]
    ring
  have hve : ∀ i, d.state.vel i = u i + (l.map x (.vel i) + l.dt * ((d.model.stochForce + l.wind x u) i / l.mass)) := by
    intro i
    rw [hd, Dyn.es_vel, Dyn.es_acc, ← hd, hfo]
    simp only [Model.coreOf, hc.mass, Pi.add_apply, Pi.smul_apply, h.vel, smul_eq_mul, Loop.map]
    ring
  have hupd : v.updateDynamics l.dt = .ok { v with extForce := vzero, dyn := d, floorCollision := false } := by
    rcases Sim.updateDynamics_cases v l.dt with ⟨hb, -⟩ | ⟨ext, he, hup⟩
    · rw [show v.belowFloor = false from hnb v.dyn] at hb; simp at hb
    · have : ext = v.extForce := by
        rcases he with ⟨-, he⟩ | ⟨hb, -⟩
        · exact he
        · rw [show v.belowFloor = false from hnb v.dyn] at hb; simp at hb
      subst this
      rw [hup, hp]
      simp only
      rw [if_neg]
      simp [Sim.belowFloor, hfl]
  have hquat : Loop.quat (l.map x + l.push d.model.stochForce (d.model.stochForce + l.wind x u)) =
      quatIntegrate (Loop.quat x) (Loop.omega x) l.dt := by
    simp [Loop.quat, Loop.push, Loop.map]
  refine ⟨d, hupd, by rw [hd, Dyn.eulerStep_core]; exact hruns, by rw [hd, Dyn.es_model], fun i => ?_, fun i => ?_, ?_, ?_,
    fun i => ?_, fun j => ?_⟩
  · simpa [Loop.push] using hpos i
  · simpa [Loop.push] using hve i
  · rw [hquat]; exact hori
  · rw [hquat]
    have : NonzeroQ (Loop.quat x) := h.unit.nonzero
    exact Quat.quatIntegrate_unit this _ _
  · simpa [Loop.push] using hav i
  · simpa [Loop.push] using hmv j

/-- The samples which are drawn in the next `n` cycles give forces of at most `δ`. -/
def Calm (m : Model ℝ 4) (q dt δ : ℝ) (n : ℕ) : Prop :=
  ∀ k, m.rng.idx ≤ k → k < m.rng.idx + 2 * n → ∀ i, √(q / dt) * |(Noise.draw m.rng.seed k i : ℝ)| ≤ δ

/-- The model after an update, with or without noise. -/
def Model.Drawn (m m' : Model ℝ 4) (c : ModelCore ℝ 4) (dt : ℝ) : Prop :=
  m' = m.setNoise c dt ∨ m' = m.disableNoise

lemma Calm.next {m m' : Model ℝ 4} {dt δ : ℝ} {n : ℕ} (h : Calm m p.forceNoise dt δ (n + 1)) (h0 : 0 < dt)
    (hd : Model.Drawn m m' (Model.coreOf p ms) dt) : (∀ i, |m'.stochForce i| ≤ δ) ∧ Calm m' p.forceNoise dt δ n := by
  have hz : ∀ i, 0 ≤ √(p.forceNoise / dt) * |(Noise.draw m.rng.seed m.rng.idx i : ℝ)| := fun i => by positivity
  have h1 := fun i => h m.rng.idx le_rfl (by omega) i
  rcases hd with rfl | rfl
  · refine ⟨fun i => ?_, fun k hk hk' i => ?_⟩
    · have e : (m.setNoise (Model.coreOf p ms) dt).stochForce i =
          √(p.forceNoise / dt) * Noise.draw m.rng.seed m.rng.idx i := by
        simp [Model.setNoise, flt, not_le.2 h0, Rng.draw3, Model.coreOf]
      rw [e, abs_mul, abs_of_nonneg (Real.sqrt_nonneg _)]
      exact h1 i
    · have e : (m.setNoise (Model.coreOf p ms) dt).rng = ⟨m.rng.seed, m.rng.idx + 1 + 1⟩ := by
        simp [Model.setNoise, flt, not_le.2 h0, Rng.draw3]
      rw [e] at hk hk' ⊢
      exact h k (by simp only at hk; omega) (by simp only at hk'; omega) i
  · refine ⟨fun i => ?_, fun k hk hk' i => h k hk (by simp only [Model.disableNoise] at hk'; omega) i⟩
    simp only [Model.disableNoise, flt, Pi.zero_apply, abs_zero]
    exact (hz i).trans (h1 i)

/-- A cycle in which no limit is reached. -/
lemma Hovers.pushed (h : Hovers s p ms l cP cV cR x) (hc : Loop.Craft l p ms) (hP : Tuned cP l.P) (hV : Tuned cV l.V)
    (hR : Tuned cR l.R) (hJ : ∀ i, l.inertia i ≠ 0) (h0 : 0 < l.dt) (h1 : l.dt ≤ 1 / 100)
    (hi : Loop.Inside l ms cP cV cR x) :
    ∃ t, (∀ os u, Sim.Runs t os u → Sim.Runs s (.updateController l.dt :: .updateDynamics l.dt :: os) u) ∧
      Model.Drawn s.dyn.model t.dyn.model (Model.coreOf p ms) l.dt ∧
      Hovers t p ms l cP cV cR (l.map x + l.push t.dyn.model.stochForce t.dyn.model.stochForce) := by
  have hk := h.control hP hV hR hi
  set v := s.updateController l.dt with hv
  have hmoves : Loop.Moves l v.dyn.state x 0 0 := by
    rw [hk.dyn]
    exact ⟨fun i => by simp [h.pos], fun i => by simp [h.vel], h.ori, h.unit, h.angVel, h.motVel⟩
  obtain ⟨d, hupd, d1, d3, d2⟩ := hmoves.pushed hc hJ h0 h1 (by rw [hk.dyn]; exact h.runs) h.rotors
    (hk.floor.trans h.floor) (hk.extForce.trans h.extForce) hk.actuation hi.command hi.speed
  have hw : l.wind x 0 = 0 := by
    ext i
    simp [Loop.wind]
  rw [hw, add_zero] at d2
  refine ⟨_, fun os u hu => .ok rfl (.ok hupd hu), ?_, ?_⟩
  · rw [hk.dyn] at d3
    simp only [d3]
    split
    · exact .inl rfl
    · exact .inr rfl
  exact {
    runs := d1
    rotors := h.rotors
    armed := hk.armed.trans h.armed
    mode := hk.mode.trans h.mode
    yawMode := hk.yawMode.trans h.yawMode
    heading := by simp only [hk.refYaw]; exact h.heading
    request := hk.refPos.trans h.request
    floor := hk.floor.trans h.floor
    extForce := vzero_real
    knowsMass := hk.acro.1.trans h.knowsMass
    knowsGravity := hk.acro.2.1.trans h.knowsGravity
    gain := hk.acro.2.2.trans h.gain
    knowsInertia := hk.indi.1.trans h.knowsInertia
    knowsRotors := fun j r => by simp only [hk.indi.2]; exact h.knowsRotors j r
    posConfig := hk.posConfig
    velConfig := hk.velConfig
    rateConfig := hk.rateConfig
    pos := fun i => by simpa using d2.pos i
    vel := fun i => by simpa using d2.vel i
    ori := d2.ori
    unit := d2.unit
    angVel := d2.angVel
    motVel := d2.motVel
    posMemory := by simpa [Loop.push] using hk.posMemory _
    velMemory := by simpa [Loop.push] using hk.velMemory _
    rateMemory := by simpa [Loop.push] using hk.rateMemory _ }

omit [Noise ℝ] in
lemma Loop.push_zero : l.push 0 0 = 0 := by
  ext k
  cases k <;> simp [Loop.push]

lemma Model.Drawn.quiet {m m' : Model ℝ 4} {dt : ℝ} (h : Model.Drawn m m' (Model.coreOf p ms) dt) (hq : p.forceNoise = 0) :
    m'.stochForce = 0 := by
  rcases h with rfl | rfl
  · unfold Model.setNoise
    split
    · simp [Model.disableNoise, flt]
    · ext i
      simp [flt, Model.coreOf, hq]
  · simp [Model.disableNoise, flt]

/-- A cycle in which no limit is reached, without noise. -/
lemma Hovers.cycle (h : Hovers s p ms l cP cV cR x) (hc : Loop.Is l p ms) (hP : Tuned cP l.P) (hV : Tuned cV l.V)
    (hR : Tuned cR l.R) (hJ : ∀ i, l.inertia i ≠ 0) (h0 : 0 < l.dt) (h1 : l.dt ≤ 1 / 100)
    (hi : Loop.Inside l ms cP cV cR x) :
    ∃ t, (∀ os u, Sim.Runs t os u → Sim.Runs s (.updateController l.dt :: .updateDynamics l.dt :: os) u) ∧
      Hovers t p ms l cP cV cR (l.map x) := by
  obtain ⟨t, t1, t2, t3⟩ := h.pushed hc.toCraft hP hV hR hJ h0 h1 hi
  rw [t2.quiet hc.quiet, Loop.push_zero, add_zero] at t3
  exact ⟨t, t1, t3⟩

/-- Cycles in which no limit is reached. -/
lemma Hovers.flight (h : Hovers s p ms l cP cV cR x) (hc : Loop.Is l p ms) (hP : Tuned cP l.P) (hV : Tuned cV l.V)
    (hR : Tuned cR l.R) (hJ : ∀ i, l.inertia i ≠ 0) (h0 : 0 < l.dt) (h1 : l.dt ≤ 1 / 100) (n : ℕ)
    (hi : ∀ j < n, Loop.Inside l ms cP cV cR (l.map^[j] x)) :
    ∃ t, Sim.Runs s (cycles l.dt (List.replicate n l.dt)) t ∧ Hovers t p ms l cP cV cR (l.map^[n] x) := by
  induction n generalizing s x with
  | zero => exact ⟨s, .nil s, h⟩
  | succ n ih =>
    obtain ⟨t, t1, t2⟩ := h.cycle hc hP hV hR hJ h0 h1 (hi 0 (by simp))
    obtain ⟨u, u1, u2⟩ := ih t2 (fun j hj => by
      have := hi (j + 1) (by simpa using hj)
      rwa [Function.iterate_succ_apply] at this)
    exact ⟨u, t1 _ _ u1, by rwa [Function.iterate_succ_apply]⟩

end

end Verif.Props
