import Verif.Lemmas.Mirror
import Verif.Lemmas.Symmetry

/-!
# The mirror image of a simulator
-/

namespace Verif

open Flt Spec Pid

variable {n : ℕ}

/-! ## Twice mirrored -/

lemma mirrorCols_mirrorCols {m : ℕ} (f : Fin m → Bool) (A : Mat n m ℝ) : mirrorCols f (mirrorCols f A) = A := by
  ext r i; simp only [mirrorCols]; split <;> simp

lemma mirrorMotor_mirrorMotor (m : Motor ℝ) : mirrorMotor (mirrorMotor m) = m := by
  simp [mirrorMotor, mirrorMat_mirrorMat, mirrorVec_mirrorVec]

lemma mirrorModelParams_mirror (p : ModelParams ℝ) : mirrorModelParams (mirrorModelParams p) = p := by
  simp only [mirrorModelParams, mirrorMat_mirrorMat, mirrorVec_mirrorVec, List.map_map]
  have : (mirrorMotor ∘ mirrorMotor) = id := funext mirrorMotor_mirrorMotor
  rw [this, List.map_id]

lemma mirrorState_mirror (s : State ℝ n) : mirrorState (mirrorState s) = s := by
  simp [mirrorState, mirrorVec_mirrorVec, mirrorTurn_mirrorTurn, Quat.mirror_mirror]

lemma mirrorCore_mirror (c : ModelCore ℝ n) : mirrorCore (mirrorCore c) = c := by
  simp [mirrorCore, mirrorModelParams_mirror, mirrorRows_mirrorRows]

lemma mirrorModel_mirror (m : Model ℝ n) : mirrorModel (mirrorModel m) = m := by
  simp only [mirrorModel, mirrorVec_mirrorVec, mirrorTurn_mirrorTurn, Option.map_map]
  have h1 : (mirrorCore ∘ mirrorCore : ModelCore ℝ n → _) = id := funext mirrorCore_mirror
  have h2 : (mirrorCols wrench ∘ mirrorCols wrench : Mat n 6 ℝ → _) = id :=
    funext fun A => mirrorCols_mirrorCols wrench A
  rw [h1, h2, Option.map_id, Option.map_id]
  rfl

lemma mirrorDyn_mirror (d : Dyn ℝ n) : mirrorDyn (mirrorDyn d) = d := by
  simp [mirrorDyn, mirrorModel_mirror, mirrorState_mirror]

lemma reversedLimits_reversed (f : Fin n → Bool) (a b : Vec n ℝ) :
    reversedLimits f (reversedLimits f a b) (reversedLimits f b a) = a := by
  ext i; simp only [reversedLimits]; split <;> simp

lemma reversedPid_reversedPid (f : Fin n → Bool) (p : Pid ℝ n) : reversedPid f (reversedPid f p) = p := by
  have h : ∀ A : Mat n n ℝ, (fun i j => if f i = f j then (if f i = f j then A i j else -A i j)
      else -(if f i = f j then A i j else -A i j) : Mat n n ℝ) = A := by
    intro A; ext i j; split <;> simp
  simp only [reversedPid, h, reversed_reversed, reversedLimits_reversed]

lemma mirrorCtl_mirror (c : Ctl ℝ n) : mirrorCtl (mirrorCtl c) = c := by
  simp only [mirrorCtl, mirrorMat_mirrorMat, mirrorVec_mirrorVec, mirrorTurn_mirrorTurn, mirrorCols_mirrorCols,
    reversedPid_reversedPid]

lemma mirrorImu_mirror (i : Imu ℝ) : mirrorImu (mirrorImu i) = i := by
  simp only [mirrorImu, mirrorVec_mirrorVec, mirrorTurn_mirrorTurn, Quat.mirror_mirror]

lemma mirrorOdom_mirror (o : Odom ℝ) : mirrorOdom (mirrorOdom o) = o := by
  simp only [mirrorOdom, mirrorVec_mirrorVec, mirrorTurn_mirrorTurn, Quat.mirror_mirror]

/-! ## The vehicle -/

section
variable [Noise ℝ]

lemma setNoise_quiet {c : ModelCore ℝ n} (hc : quietModel c.params) (dt : ℝ) (m : Model ℝ n) :
    (m.setNoise c dt).stochForce = 0 ∧ (m.setNoise c dt).stochMoment = 0 := by
  unfold Model.setNoise
  split
  · exact ⟨vzero_real, vzero_real⟩
  · simp only [hc.1, hc.2, flt]
    constructor <;> ext i <;> simp

lemma setNoise_mirror {c : ModelCore ℝ n} (hc : quietModel c.params) (dt : ℝ) (m : Model ℝ n) :
    (mirrorModel m).setNoise (mirrorCore c) dt = mirrorModel (m.setNoise c dt) := by
  have hc' : quietModel (mirrorCore c).params := hc
  obtain ⟨h1, h2⟩ := setNoise_quiet hc dt m
  obtain ⟨h3, h4⟩ := setNoise_quiet hc' dt (mirrorModel m)
  refine Model.ext ?_ ?_ ?_ ?_ ?_
  · unfold Model.setNoise; split <;> rfl
  · unfold Model.setNoise; split <;> rfl
  · unfold Model.setNoise; split <;> rfl
  · rw [h3]; simp [mirrorModel, h1, mirrorVec_zero]
  · rw [h4]; simp [mirrorModel, h2, mirrorTurn_zero]

omit [Noise ℝ] in
lemma disableNoise_mirror (m : Model ℝ n) : (mirrorModel m).disableNoise = mirrorModel m.disableNoise := by
  simp [Model.disableNoise, mirrorModel, flt, mirrorVec_zero, mirrorTurn_zero]

lemma stepNoise_quiet {c : ModelCore ℝ n} (hc : quietModel c.params) (d : Dyn ℝ n) (dt : ℝ) (noise : Bool) :
    Dyn.stepNoise c d dt noise = 0 := by
  cases noise
  · simp
  · exact (setNoise_quiet hc dt d.model).1

lemma eulerStep_mirror {c : ModelCore ℝ n} (hc : quietModel c.params) (ms : Fin n → Motor ℝ) (d : Dyn ℝ n)
    (act : Vec n ℝ) (dt : ℝ) (ext : Vec 3 ℝ) (noise : Bool) :
    Dyn.eulerStep (mirrorCore c) (fun i => mirrorMotor (ms i)) (mirrorDyn d) act dt (mirrorVec ext) noise =
      mirrorDyn (Dyn.eulerStep c ms d act dt ext noise) := by
  have hc' : quietModel (mirrorCore c).params := hc
  have hmot : (Dyn.eulerStep (mirrorCore c) (fun i => mirrorMotor (ms i)) (mirrorDyn d) act dt (mirrorVec ext)
      noise).state.motAcc = (Dyn.eulerStep c ms d act dt ext noise).state.motAcc := rfl
  have hT : Model.thrustVec (mirrorCore c) d.state.motVel = mirrorVec (Model.thrustVec c d.state.motVel) :=
    mv_rows across _ _
  have hM : ∀ a, Model.motorTorque (mirrorCore c) d.state.motVel a = mirrorTurn (Model.motorTorque c d.state.motVel a) := by
    intro a
    unfold Model.motorTorque
    rw [vadd_real, vadd_real, mirrorTurn_add]
    exact congrArg₂ _ (mv_rows about _ _) (mv_rows about _ _)
  have hforce : (Dyn.eulerStep (mirrorCore c) (fun i => mirrorMotor (ms i)) (mirrorDyn d) act dt (mirrorVec ext)
      noise).state.force = mirrorVec (Dyn.eulerStep c ms d act dt ext noise).state.force := by
    rw [Dyn.es_force, Dyn.es_force, stepNoise_quiet hc, stepNoise_quiet hc']
    simp only [mirrorVec_add, mirrorVec_zero]
    rw [← Quat.rotate_mirror_v, ← drag_mirror, ← hT]
    rfl
  have htorque : (Dyn.eulerStep (mirrorCore c) (fun i => mirrorMotor (ms i)) (mirrorDyn d) act dt (mirrorVec ext)
      noise).state.torque = mirrorTurn (Dyn.eulerStep c ms d act dt ext noise).state.torque := by
    rw [Dyn.es_torque, Dyn.es_torque, stepNoise_quiet hc, stepNoise_quiet hc', hmot]
    simp only [mirrorTurn_add, mirrorTurn_sub, mirrorTurn_zero]
    rw [← cross_real, ← cross_real, ← cross_mirror_tt, ← mv_real, ← mv_real, ← mv_mirror_t, ← aero_mirror, ← hM]
    rfl
  have hacc : (Dyn.eulerStep (mirrorCore c) (fun i => mirrorMotor (ms i)) (mirrorDyn d) act dt (mirrorVec ext)
      noise).state.acc = mirrorVec (Dyn.eulerStep c ms d act dt ext noise).state.acc := by
    rw [Dyn.es_acc, Dyn.es_acc, hforce, mirrorVec_smul]
    rfl
  have hang : (Dyn.eulerStep (mirrorCore c) (fun i => mirrorMotor (ms i)) (mirrorDyn d) act dt (mirrorVec ext)
      noise).state.angAcc = mirrorTurn (Dyn.eulerStep c ms d act dt ext noise).state.angAcc := by
    rw [Dyn.es_angAcc, Dyn.es_angAcc, htorque]
    rw [show (mirrorCore c).params.inertia = mirrorMat c.params.inertia from rfl, mirrorMat_inv, ← mv_real, ← mv_real,
      mv_mirror_t]
  refine Dyn.ext ?_ (State.ext ?_ ?_ ?_ ?_ hacc hang hforce htorque ?_ ?_)
  · simp only [mirrorDyn, Dyn.es_model]
    cases noise
    · exact disableNoise_mirror _
    · exact setNoise_mirror hc _ _
  · rw [Dyn.es_pos]
    simp only [mirrorDyn, mirrorState]
    rw [Dyn.es_pos, mirrorVec_add, mirrorVec_smul]
  · rw [Dyn.es_ori]
    simp only [mirrorDyn, mirrorState]
    rw [Dyn.es_ori, Quat.integrate_mirror]
  · rw [Dyn.es_vel, hacc]
    simp only [mirrorDyn, mirrorState]
    rw [Dyn.es_vel, mirrorVec_add, mirrorVec_smul]
  · rw [Dyn.es_angVel, hang]
    simp only [mirrorDyn, mirrorState]
    rw [Dyn.es_angVel, mirrorTurn_add, mirrorTurn_smul]
  · rfl
  · rfl

lemma process_mirror (d : Dyn ℝ n) (hd : quietDyn d) (act : Vec n ℝ) (dt : ℝ) (ext : Vec 3 ℝ) (noise : Bool) :
    Res.Rel (fun d e => quietDyn d ∧ e = mirrorDyn d) (d.process act dt ext noise)
      ((mirrorDyn d).process act dt (mirrorVec ext) noise) := by
  refine Dyn.process_rel ?_ dt d _ ⟨hd, rfl⟩
  rintro dt d _ ⟨hd, rfl⟩
  unfold Dyn.singleStep
  rw [show (mirrorDyn d).model.core = d.model.core.map mirrorCore from rfl]
  cases hcore : d.model.core with
  | none => trivial
  | some c =>
    simp only [Option.map_some]
    rw [show (mirrorCore c).params.motors = c.params.motors.map mirrorMotor from rfl, Model.motorFn_mirror]
    cases Model.motorFn n c.params.motors with
    | none => trivial
    | some f =>
      simp only [Option.map_some]
      have : Dyn.clampOk (fun i => mirrorMotor (f i)) = Dyn.clampOk f := rfl
      rw [this]
      split
      · refine ⟨?_, eulerStep_mirror (hd c hcore) f d act dt ext noise⟩
        unfold quietDyn
        rw [Dyn.eulerStep_core]
        exact hd
      · trivial

end

/-! ## The controller -/

lemma desiredAttitude_mirror (yaw : ℝ) (f : Vec 3 ℝ) :
    Acro.desiredAttitude (-yaw) (mirrorVec f) = mirrorMat (Acro.desiredAttitude yaw f) := by
  have hx : (![Flt.cos (-yaw), Flt.sin (-yaw), lit 0] : Vec 3 ℝ) = mirrorVec ![Flt.cos yaw, Flt.sin yaw, lit 0] := by
    apply vec_ext <;> simp [flt]
  unfold Acro.desiredAttitude
  simp only [hx, mirrorVec_normalized, cross_mirror_vv, mirrorTurn_normalized, cross_mirror_tv]
  ext i j
  fin_cases i <;> fin_cases j <;> simp [mirrorMat, across]

lemma rotationError_mirror (A B : Mat 3 3 ℝ) :
    Acro.rotationError (mirrorMat A) (mirrorMat B) = mirrorTurn (Acro.rotationError A B) := by
  unfold Acro.rotationError
  simp only [msub_real, mm_real, mT_real, mirrorMat_transpose, mirrorMat_mul, mirrorMat_sub, smulL_real]
  rw [mirrorTurn_smul]
  congr 1
  apply vec_ext <;> simp [mirrorMat, across]

lemma acro_mirror (c : Ctl ℝ n) (a : Vec 3 ℝ) (R : Mat 3 3 ℝ) (yaw : ℝ) :
    (mirrorCtl c).accelerationToAcro (mirrorVec a) (mirrorMat R) (-yaw) =
      (mirrorCtl (c.accelerationToAcro a R yaw).1, (c.accelerationToAcro a R yaw).2.1,
        mirrorTurn (c.accelerationToAcro a R yaw).2.2) := by
  have ht : (mirrorCtl c).acro.accelerationToThrust (mirrorVec a) = mirrorVec (c.acro.accelerationToThrust a) := by
    simp only [Acro.accelerationToThrust, mirrorCtl, vsub_real, smulR_real, ← mirrorVec_sub, mirrorVec_smul]
  have hw : mv (mneg (mirrorCtl c).acro.kpRot) (Acro.rotationError
      (Acro.desiredAttitude (-yaw) (mirrorVec (c.acro.accelerationToThrust a))) (mirrorMat R)) =
      mirrorTurn (mv (mneg c.acro.kpRot)
        (Acro.rotationError (Acro.desiredAttitude yaw (c.acro.accelerationToThrust a)) R)) := by
    rw [desiredAttitude_mirror, rotationError_mirror, ← mv_mirror_t, mneg_real, mneg_real, ← mirrorMat_neg]
    rfl
  have hz : (fun i => mirrorMat R i 2) = mirrorVec fun i => R i 2 := by
    apply vec_ext <;> simp [mirrorMat, across]
  unfold Ctl.accelerationToAcro Acro.yawAngleToAngularVelocity
  simp only [ht, hw, hz, mirrorVec_normalized]
  rw [dot_real, mirrorVec_dot, ← dot_real]
  refine Prod.ext rfl ?_
  simp only
  split
  · refine Prod.ext rfl ?_
    simp only [vzero_real, mirrorTurn_zero]
  · rfl

/-- A plain PID meets what the reversal lemmas need. -/
lemma plainPid.inv {p : Pid ℝ n} (h : plainPid p) : p.Inv := h.2

lemma plain_mk {q : PidParams ℝ n} (h : plainPidParams q) : plainPid (Pid.mk' q) := by
  refine ⟨?_, Pid.inv_mk h.2⟩
  obtain ⟨s, v, w, b, he, -⟩ := Pid.updateParams_eq q (Pid.init : Pid ℝ n)
  unfold Pid.mk'
  rw [he]; exact h.1

lemma plain_control {p : Pid ℝ n} (h : plainPid p) (dt : ℝ) (e : Vec n ℝ) : plainPid (p.computeControl dt e).1 := by
  refine ⟨?_, Pid.inv_step (o := .control dt e) h.2 trivial⟩
  simpa [(Pid.computeControl_config p dt e).2.2.2.2.2.1] using h.1

lemma plain_controlD {p : Pid ℝ n} (h : plainPid p) (dt : ℝ) (e de : Vec n ℝ) :
    plainPid (p.computeControlD dt e de).1 := by
  refine ⟨?_, Pid.inv_step (o := .controlD dt e de) h.2 trivial⟩
  simpa [(Pid.computeControlD_config p dt e de).2.2.2.2.2.1] using h.1

lemma ctl_mk_mirror (p : CtlParams ℝ n) : Ctl.mk' (mirrorCtlParams p) = mirrorCtl (Ctl.mk' p) := by
  simp only [Ctl.mk', mirrorCtlParams, mirrorCtl, Acro.mk', Indi.mk', Pid.mk_rev, vzero_real, mirrorVec_zero,
    mirrorTurn_zero]

lemma plain_ctl_mk {p : CtlParams ℝ n} (h : plainCtlParams p) : plainCtl (Ctl.mk' p) :=
  ⟨plain_mk h.1, plain_mk h.2.1, plain_mk h.2.2.1, plain_mk h.2.2.2⟩

lemma indi_mirror (c : Ctl ℝ n) (h : plainCtl c) (om : Vec 3 ℝ) (t : ℝ) (od : Vec 3 ℝ) (dt : ℝ) :
    (mirrorCtl c).convertAcro (mirrorTurn om) t (mirrorTurn od) dt =
      (mirrorCtl (c.convertAcro om t od dt).1, (c.convertAcro om t od dt).2) := by
  have he : Pid.getError (mirrorTurn om) (mirrorTurn od) = mirrorTurn (Pid.getError om od) :=
    (mirrorTurn_sub od om).symm
  have hp : (mirrorCtl c).indi.pid.computeControl dt (mirrorTurn (Pid.getError om od)) =
      (reversedPid about (c.indi.pid.computeControl dt (Pid.getError om od)).1,
        mirrorTurn (c.indi.pid.computeControl dt (Pid.getError om od)).2) :=
    Pid.computeControl_rev about c.indi.pid h.1.2 dt _ (.inl h.1.1)
  have hj : (mirrorCtl c).indi.inertia = mirrorMat c.indi.inertia := rfl
  have htau : ∀ a : Vec 3 ℝ, vadd (mv (mirrorMat c.indi.inertia) (mirrorTurn a))
      (cross (mirrorTurn od) (mv (mirrorMat c.indi.inertia) (mirrorTurn od))) =
      mirrorTurn (vadd (mv c.indi.inertia a) (cross od (mv c.indi.inertia od))) := by
    intro a
    rw [mv_mirror_t, mv_mirror_t, cross_mirror_tt, vadd_real, vadd_real, mirrorTurn_add]
  have hd : ∀ (f τ : Vec 3 ℝ), (![mirrorVec f 0, mirrorVec f 1, mirrorVec f 2, mirrorTurn τ 0, mirrorTurn τ 1,
      mirrorTurn τ 2] : Vec 6 ℝ) = reversed wrench ![f 0, f 1, f 2, τ 0, τ 1, τ 2] := by
    intro f τ
    ext i
    fin_cases i <;> simp [reversed, wrench]
  have hth : (![lit 0, lit 0, t] : Vec 3 ℝ) = mirrorVec ![lit 0, lit 0, t] := by
    apply vec_ext <;> simp [flt]
  unfold Ctl.convertAcro Indi.acroToMotor
  simp only [he, hp, hj, htau]
  have hm : ∀ w : Vec 6 ℝ, mv (mirrorCtl c).indi.mixerInv (reversed wrench w) = mv c.indi.mixerInv w :=
    fun w => mv_cols wrench _ w
  have hw : (![(![lit 0, lit 0, t] : Vec 3 ℝ) 0, (![lit 0, lit 0, t] : Vec 3 ℝ) 1, (![lit 0, lit 0, t] : Vec 3 ℝ) 2,
      mirrorTurn (vadd (mv c.indi.inertia (c.indi.pid.computeControl dt (Pid.getError om od)).2)
        (cross od (mv c.indi.inertia od))) 0,
      mirrorTurn (vadd (mv c.indi.inertia (c.indi.pid.computeControl dt (Pid.getError om od)).2)
        (cross od (mv c.indi.inertia od))) 1,
      mirrorTurn (vadd (mv c.indi.inertia (c.indi.pid.computeControl dt (Pid.getError om od)).2)
        (cross od (mv c.indi.inertia od))) 2] : Vec 6 ℝ) = reversed wrench
      ![(![lit 0, lit 0, t] : Vec 3 ℝ) 0, (![lit 0, lit 0, t] : Vec 3 ℝ) 1, (![lit 0, lit 0, t] : Vec 3 ℝ) 2,
      vadd (mv c.indi.inertia (c.indi.pid.computeControl dt (Pid.getError om od)).2)
        (cross od (mv c.indi.inertia od)) 0,
      vadd (mv c.indi.inertia (c.indi.pid.computeControl dt (Pid.getError om od)).2)
        (cross od (mv c.indi.inertia od)) 1,
      vadd (mv c.indi.inertia (c.indi.pid.computeControl dt (Pid.getError om od)).2)
        (cross od (mv c.indi.inertia od)) 2] := by
    rw [← hd, ← hth]
  rw [hw, hm]
  refine Prod.ext ?_ rfl
  simp only [mirrorCtl, ← hth]

lemma plain_convertAcro {c : Ctl ℝ n} (h : plainCtl c) (om : Vec 3 ℝ) (t : ℝ) (od : Vec 3 ℝ) (dt : ℝ) :
    plainCtl (c.convertAcro om t od dt).1 := ⟨plain_control h.1 _ _, h.2⟩

lemma acroControl_mirror (c : Ctl ℝ n) (h : plainCtl c) (om : Vec 3 ℝ) (t : ℝ) (od : Vec 3 ℝ) (dt : ℝ) :
    (mirrorCtl c).acroControl (mirrorTurn om) t (mirrorTurn od) dt =
      (mirrorCtl (c.acroControl om t od dt).1, (c.acroControl om t od dt).2) := by
  unfold Ctl.acroControl
  have e : ({ mirrorCtl c with desAngVel := mirrorTurn od, desThrust := t } : Ctl ℝ n) =
      mirrorCtl { c with desAngVel := od, desThrust := t } := rfl
  simp only [e]
  have h' : plainCtl { c with desAngVel := od, desThrust := t } := h
  generalize ({ c with desAngVel := od, desThrust := t } : Ctl ℝ n) = c at h'
  rw [indi_mirror c h']
  rfl

lemma plain_acroControl {c : Ctl ℝ n} (h : plainCtl c) (om : Vec 3 ℝ) (t : ℝ) (od : Vec 3 ℝ) (dt : ℝ) :
    plainCtl (c.acroControl om t od dt).1 := ⟨plain_control h.1 _ _, h.2⟩

lemma accelerationControl_mirror (c : Ctl ℝ n) (h : plainCtl c) (R : Mat 3 3 ℝ) (om a : Vec 3 ℝ) (yaw dt : ℝ) :
    (mirrorCtl c).accelerationControl (mirrorMat R) (mirrorTurn om) (mirrorVec a) (-yaw) dt =
      (mirrorCtl (c.accelerationControl R om a yaw dt).1, (c.accelerationControl R om a yaw dt).2) := by
  unfold Ctl.accelerationControl
  have e : ({ mirrorCtl c with desAcc := mirrorVec a } : Ctl ℝ n) = mirrorCtl { c with desAcc := a } := rfl
  simp only [e]
  have h' : plainCtl { c with desAcc := a } := h
  generalize ({ c with desAcc := a } : Ctl ℝ n) = c at h'
  rw [acro_mirror]
  simp only []
  have h2 : plainCtl (c.accelerationToAcro a R yaw).1 := h'
  generalize c.accelerationToAcro a R yaw = r at h2
  have e2 : ({ mirrorCtl r.1 with desThrust := r.2.1, desAngVel := mirrorTurn r.2.2 } : Ctl ℝ n) =
      mirrorCtl { r.1 with desThrust := r.2.1, desAngVel := r.2.2 } := rfl
  have h3 : plainCtl { r.1 with desThrust := r.2.1, desAngVel := r.2.2 } := h2
  rw [e2, acroControl_mirror _ h3]
  rfl

lemma plain_accelerationControl {c : Ctl ℝ n} (h : plainCtl c) (R : Mat 3 3 ℝ) (om a : Vec 3 ℝ) (yaw dt : ℝ) :
    plainCtl (c.accelerationControl R om a yaw dt).1 := ⟨plain_control h.1 _ _, h.2⟩

lemma velocityControl_mirror (c : Ctl ℝ n) (h : plainCtl c) (v : Vec 3 ℝ) (R : Mat 3 3 ℝ) (om vd : Vec 3 ℝ)
    (yaw dt : ℝ) :
    (mirrorCtl c).velocityControl (mirrorVec v) (mirrorMat R) (mirrorTurn om) (mirrorVec vd) (-yaw) dt =
      (mirrorCtl (c.velocityControl v R om vd yaw dt).1, (c.velocityControl v R om vd yaw dt).2) := by
  unfold Ctl.velocityControl Ctl.convertVelocity
  have he : Pid.getError (mirrorVec v) (mirrorVec vd) = mirrorVec (Pid.getError v vd) :=
    (mirrorVec_sub vd v).symm
  have hp : (mirrorCtl c).vel.computeControl dt (mirrorVec (Pid.getError v vd)) =
      (reversedPid across (c.vel.computeControl dt (Pid.getError v vd)).1,
        mirrorVec (c.vel.computeControl dt (Pid.getError v vd)).2) :=
    Pid.computeControl_rev across c.vel h.2.2.2.2 dt _ (.inl h.2.2.2.1)
  have hpl : plainPid (c.vel.computeControl dt (Pid.getError v vd)).1 := plain_control h.2.2.2 _ _
  simp only [he, hp]
  generalize c.vel.computeControl dt (Pid.getError v vd) = r at hpl
  have e : ({ mirrorCtl c with
        vel := reversedPid across r.1
        desVel := mirrorVec vd
        desAcc := mirrorVec r.2 } : Ctl ℝ n) =
      mirrorCtl { c with vel := r.1, desVel := vd, desAcc := r.2 } := rfl
  have hq : plainCtl { c with vel := r.1, desVel := vd, desAcc := r.2 } := ⟨h.1, h.2.1, h.2.2.1, hpl⟩
  rw [e, accelerationControl_mirror _ hq]
  rfl

lemma plain_velocityControl {c : Ctl ℝ n} (h : plainCtl c) (v : Vec 3 ℝ) (R : Mat 3 3 ℝ) (om vd : Vec 3 ℝ)
    (yaw dt : ℝ) : plainCtl (c.velocityControl v R om vd yaw dt).1 :=
  ⟨plain_control h.1 _ _, h.2.1, h.2.2.1, plain_control h.2.2.2 _ _⟩

lemma positionControl_mirror (c : Ctl ℝ n) (h : plainCtl c) (p : Vec 3 ℝ) (R : Mat 3 3 ℝ) (v om pd : Vec 3 ℝ)
    (yaw dt : ℝ) :
    (mirrorCtl c).positionControl (mirrorVec p) (mirrorMat R) (mirrorVec v) (mirrorTurn om) (mirrorVec pd) (-yaw) dt =
      (mirrorCtl (c.positionControl p R v om pd yaw dt).1, (c.positionControl p R v om pd yaw dt).2) := by
  unfold Ctl.positionControl Ctl.convertPosition
  have he : Pid.getError (mirrorVec p) (mirrorVec pd) = mirrorVec (Pid.getError p pd) :=
    (mirrorVec_sub pd p).symm
  have hp : (mirrorCtl c).pos.computeControl dt (mirrorVec (Pid.getError p pd)) =
      (reversedPid across (c.pos.computeControl dt (Pid.getError p pd)).1,
        mirrorVec (c.pos.computeControl dt (Pid.getError p pd)).2) :=
    Pid.computeControl_rev across c.pos h.2.1.2 dt _ (.inl h.2.1.1)
  have hpl : plainPid (c.pos.computeControl dt (Pid.getError p pd)).1 := plain_control h.2.1 _ _
  simp only [he, hp]
  generalize c.pos.computeControl dt (Pid.getError p pd) = r at hpl
  have e : ({ mirrorCtl c with
        pos := reversedPid across r.1
        desPos := mirrorVec pd
        desVel := mirrorVec r.2 } : Ctl ℝ n) =
      mirrorCtl { c with pos := r.1, desPos := pd, desVel := r.2 } := rfl
  have hq : plainCtl { c with pos := r.1, desPos := pd, desVel := r.2 } := ⟨h.1, hpl, h.2.2⟩
  rw [e, velocityControl_mirror _ hq]
  rfl

lemma plain_positionControl {c : Ctl ℝ n} (h : plainCtl c) (p : Vec 3 ℝ) (R : Mat 3 3 ℝ) (v om pd : Vec 3 ℝ)
    (yaw dt : ℝ) : plainCtl (c.positionControl p R v om pd yaw dt).1 :=
  ⟨plain_control h.1 _ _, plain_control h.2.1 _ _, h.2.2.1, plain_control h.2.2.2 _ _⟩

lemma trajectoryControl_mirror (c : Ctl ℝ n) (h : plainCtl c) (p v : Vec 3 ℝ) (R : Mat 3 3 ℝ) (om pd vd ad : Vec 3 ℝ)
    (yaw dt : ℝ) :
    (mirrorCtl c).trajectoryControl (mirrorVec p) (mirrorVec v) (mirrorMat R) (mirrorTurn om) (mirrorVec pd)
        (mirrorVec vd) (mirrorVec ad) (-yaw) dt =
      (mirrorCtl (c.trajectoryControl p v R om pd vd ad yaw dt).1, (c.trajectoryControl p v R om pd vd ad yaw dt).2) := by
  unfold Ctl.trajectoryControl Ctl.convertTrajectory
  have he : Pid.getError (mirrorVec p) (mirrorVec pd) = mirrorVec (Pid.getError p pd) :=
    (mirrorVec_sub pd p).symm
  have he' : Pid.getError (mirrorVec v) (mirrorVec vd) = mirrorVec (Pid.getError v vd) :=
    (mirrorVec_sub vd v).symm
  have hp : (mirrorCtl c).traj.computeControlD dt (mirrorVec (Pid.getError p pd)) (mirrorVec (Pid.getError v vd)) =
      (reversedPid across (c.traj.computeControlD dt (Pid.getError p pd) (Pid.getError v vd)).1,
        mirrorVec (c.traj.computeControlD dt (Pid.getError p pd) (Pid.getError v vd)).2) :=
    Pid.computeControlD_rev across c.traj h.2.2.1.2 dt _ _ (.inl h.2.2.1.1)
  have hpl : plainPid (c.traj.computeControlD dt (Pid.getError p pd) (Pid.getError v vd)).1 :=
    plain_controlD h.2.2.1 _ _ _
  simp only [he, he', hp]
  generalize c.traj.computeControlD dt (Pid.getError p pd) (Pid.getError v vd) = r at hpl
  have hs : vadd (mirrorVec r.2) (mirrorVec ad) = mirrorVec (vadd r.2 ad) := (mirrorVec_add r.2 ad).symm
  have e : ({ mirrorCtl c with
        traj := reversedPid across r.1
        desPos := mirrorVec pd
        desVel := mirrorVec vd
        desAcc := mirrorVec (vadd r.2 ad) } : Ctl ℝ n) =
      mirrorCtl { c with traj := r.1, desPos := pd, desVel := vd, desAcc := vadd r.2 ad } := rfl
  have hq : plainCtl { c with traj := r.1, desPos := pd, desVel := vd, desAcc := vadd r.2 ad } :=
    ⟨h.1, h.2.1, hpl, h.2.2.2⟩
  rw [hs, e, accelerationControl_mirror _ hq]
  rfl

lemma plain_trajectoryControl {c : Ctl ℝ n} (h : plainCtl c) (p v : Vec 3 ℝ) (R : Mat 3 3 ℝ) (om pd vd ad : Vec 3 ℝ)
    (yaw dt : ℝ) : plainCtl (c.trajectoryControl p v R om pd vd ad yaw dt).1 :=
  ⟨plain_control h.1 _ _, h.2.1, plain_controlD h.2.2.1 _ _ _, h.2.2.2⟩

lemma command_mirror (s : Sim ℝ n) (h : plainCtl s.ctl) (y dt : ℝ) :
    (mirrorSim s).command (-y) dt = (mirrorCtl (s.command y dt).1, (s.command y dt).2) := by
  unfold Sim.command
  rw [show (mirrorSim s).mode = s.mode from rfl]
  have hm : (mirrorSim s).dyn.state.ori.toMat = mirrorMat s.dyn.state.ori.toMat := Quat.toMat_mirror _
  simp only [hm]
  cases s.mode with
  | motorW => rfl
  | acro => exact acroControl_mirror _ h _ _ _ _
  | trajectory => exact trajectoryControl_mirror _ h _ _ _ _ _ _ _ _ _
  | velocity => exact velocityControl_mirror _ h _ _ _ _ _ _
  | position => exact positionControl_mirror _ h _ _ _ _ _ _ _
  | hover => exact positionControl_mirror _ h _ _ _ _ _ _ _

lemma plain_command {s : Sim ℝ n} (h : plainCtl s.ctl) (y dt : ℝ) : plainCtl (s.command y dt).1 := by
  unfold Sim.command
  split
  · exact h
  · exact plain_acroControl h _ _ _ _
  · exact plain_trajectoryControl h _ _ _ _ _ _ _ _ _
  · exact plain_velocityControl h _ _ _ _ _ _
  · exact plain_positionControl h _ _ _ _ _ _ _
  · exact plain_positionControl h _ _ _ _ _ _ _

/-! ## Sensors -/

section
variable [Noise ℝ]

lemma scaledDraw_zero (r : Rng) : (Imu.scaledDraw (0 : ℝ) r).1 = 0 := by
  unfold Imu.scaledDraw
  ext i
  simp [flt]

lemma imu_mk_mirror {p : ImuParams ℝ} (h : quietImuParams p) : Imu.mk' (mirrorImuParams p) = mirrorImu (Imu.mk' p) := by
  obtain ⟨h1, h2, h3, h4⟩ := h
  simp only [Imu.mk', mirrorImuParams, mirrorImu, h1, h2, sqrt_real, Real.sqrt_zero, scaledDraw_zero,
    Quat.inverse_mirror, vzero_real, mirrorVec_zero, mirrorTurn_zero]

lemma quiet_imu_mk {p : ImuParams ℝ} (h : quietImuParams p) : quietImu (Imu.mk' p) := h

lemma imu_update_mirror {i : Imu ℝ} (h : quietImu i) (dt : ℝ) (f om : Vec 3 ℝ) :
    (mirrorImu i).update dt (mirrorVec f) (mirrorTurn om) = mirrorImu (i.update dt f om) := by
  obtain ⟨h1, h2, h3, h4⟩ := h
  unfold Imu.update
  split
  · rfl
  · simp only [Imu.processBias, Imu.processMeasurement, mirrorImu, h1, h2, h3, h4, div_real, zero_div, sqrt_real,
      Real.sqrt_zero, scaledDraw_zero, Quat.rotate_mirror_v, Quat.rotate_mirror_t, vadd_real, smulR_real, smul_zero,
      add_zero, mirrorVec_add, mirrorTurn_add]

lemma quiet_imu_update {i : Imu ℝ} (h : quietImu i) (dt : ℝ) (f om : Vec 3 ℝ) : quietImu (i.update dt f om) := by
  unfold Imu.update
  split <;> exact h

omit [Noise ℝ] in
lemma imu_reset_mirror (i : Imu ℝ) : (mirrorImu i).reset = mirrorImu i.reset := by
  simp only [Imu.reset, mirrorImu, vzero_real, mirrorVec_zero, mirrorTurn_zero]

omit [Noise ℝ] in
lemma odom_reset_mirror (o : Odom ℝ) : (mirrorOdom o).reset = mirrorOdom o.reset := by
  simp only [Odom.reset, mirrorOdom, vzero_real, mirrorVec_zero, mirrorTurn_zero]

omit [Noise ℝ] in
lemma odom_update_mirror (o : Odom ℝ) (g a : Vec 3 ℝ) (dt : ℝ) :
    (mirrorOdom o).update (mirrorTurn g) (mirrorVec a) dt = mirrorOdom (o.update g a dt) := by
  simp only [Odom.update, Odom.filter, Odom.integrate, mirrorOdom, vadd_real, smulL_real, smulR_real, sub_real,
    lit_one, ← mirrorVec_smul, ← mirrorTurn_smul, ← mirrorVec_add, ← mirrorTurn_add, Quat.inverse_mirror,
    Quat.rotate_mirror_v, Quat.integrate_mirror]

omit [Noise ℝ] in
lemma odom_mk_mirror (p : OdomParams ℝ) : Odom.mk' (mirrorOdomParams p) = (Odom.mk' p).map mirrorOdom := by
  unfold Odom.mk'
  rw [show (mirrorOdomParams p).alpha = p.alpha from rfl]
  split
  · simp only [Option.map_some, ← odom_reset_mirror]
    simp only [Odom.reset, mirrorOdom, mirrorOdomParams]
  · rfl

end

end Verif
