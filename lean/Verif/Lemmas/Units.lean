import Verif.Lemmas.PidUnits
import Verif.Lemmas.Quat
import Verif.Lemmas.DynReal
import Verif.Lemmas.Symmetry

/-!
# Helper lemmas about other units
-/

namespace Verif

open Flt Spec Pid

variable {n : ℕ}

namespace Spec.Units
variable (u : Units)

lemma force_pos : 0 < u.force := mul_pos u.mass_pos u.len_pos
lemma torque_pos : 0 < u.torque := mul_pos u.mass_pos (mul_pos u.len_pos u.len_pos)
lemma torque_eq : u.torque = u.len * u.force := by unfold torque force; ring

lemma wrench_ne (j : Fin 6) : u.wrench j ≠ 0 := by
  have h1 := u.force_pos.ne'
  have h2 := u.torque_pos.ne'
  fin_cases j <;> simpa [wrench]

/-! ## There and back -/

lemma back_force : u.back.force = u.force⁻¹ := by simp [back, force, mul_comm]
lemma back_torque : u.back.torque = u.torque⁻¹ := by simp [back, torque, mul_comm]
lemma back_len : u.back.len = u.len⁻¹ := rfl
lemma back_mass : u.back.mass = u.mass⁻¹ := rfl

lemma there {k x : ℝ} (h : 0 < k) : k⁻¹ * (k * x) = x := by rw [← mul_assoc, inv_mul_cancel₀ h.ne', one_mul]

lemma there_sq {k x : ℝ} (h : 0 < k) : k⁻¹ ^ 2 * (k ^ 2 * x) = x := by
  rw [← mul_assoc, ← mul_pow, inv_mul_cancel₀ h.ne', one_pow, one_mul]

lemma there_v {ι : Type} {k : ℝ} {x : ι → ℝ} (h : 0 < k) : k⁻¹ • k • x = x := inv_smul_smul₀ h.ne' x

lemma there_m {m n : ℕ} {k : ℝ} {x : Mat m n ℝ} (h : 0 < k) : k⁻¹ • k • x = x := inv_smul_smul₀ h.ne' x

lemma cols_back (A : Mat n 6 ℝ) : u.back.cols (u.cols A) = A := by
  ext i j
  have h := u.wrench_ne j
  have : u.back.wrench j = (u.wrench j)⁻¹ := by
    fin_cases j <;> simp [wrench, back_force, back_torque]
  simp only [cols, this]
  field_simp

lemma motor_back (m : Motor ℝ) : u.back.motor (u.motor m) = m := by
  simp only [motor, back_force, back_torque, back_len, there u.force_pos, there u.torque_pos, there_v u.len_pos]

lemma modelParams_back (p : ModelParams ℝ) : u.back.modelParams (u.modelParams p) = p := by
  have hl := u.len_pos.ne'
  have hm := u.mass_pos.ne'
  have hd : u.mass⁻¹ / u.len⁻¹ * (u.mass / u.len * p.drag) = p.drag := by field_simp
  have hc : u.back.motor ∘ u.motor = id := funext u.motor_back
  simp only [modelParams, back_force, back_torque, back_len, back_mass, there u.mass_pos,
    there_sq u.force_pos, there_sq u.torque_pos, there_v u.len_pos, there_m u.torque_pos, hd, List.map_map, hc,
    List.map_id]

lemma state_back (s : State ℝ n) : u.back.state (u.state s) = s := by
  simp only [state, back_force, back_torque, back_len, there_v u.len_pos, there_v u.force_pos, there_v u.torque_pos]

lemma core_back (c : ModelCore ℝ n) : u.back.core (u.core c) = c := by
  simp only [core, modelParams_back, back_force, back_torque, there_v u.force_pos, there_m u.force_pos,
    there_m u.torque_pos]

lemma model_back (m : Model ℝ n) : u.back.model (u.model m) = m := by
  have h1 : (u.back.core ∘ u.core : ModelCore ℝ n → _) = id := funext u.core_back
  have h2 : (u.back.cols ∘ u.cols : Mat n 6 ℝ → _) = id := funext u.cols_back
  simp only [model, Option.map_map, h1, h2, Option.map_id, back_force, back_torque, there_v u.force_pos,
    there_v u.torque_pos]
  rfl

lemma dyn_back (d : Dyn ℝ n) : u.back.dyn (u.dyn d) = d := by
  simp only [dyn, model_back, state_back]

lemma pid_back {k : ℝ} (h : 0 < k) (p : Pid ℝ n) : scaledPid k⁻¹ (scaledPid k p) = p := by
  simp only [scaledPid, there_v h]

lemma ctl_back (c : Ctl ℝ n) : u.back.ctl (u.ctl c) = c := by
  simp only [ctl, back_force, back_torque, back_len, back_mass, cols_back, pid_back u.len_pos, there u.mass_pos,
    there u.force_pos, there_v u.len_pos, there_v u.force_pos, there_v u.torque_pos, there_m u.torque_pos]

lemma imu_back (i : Imu ℝ) : u.back.imu (u.imu i) = i := by
  simp only [imu, back_len, there_sq u.len_pos, there_v u.len_pos]

lemma odom_back (o : Odom ℝ) : u.back.odom (u.odom o) = o := by
  simp only [odom, back_len, there_v u.len_pos]

/-! ## The vehicle -/

lemma inv_smul_mat (k : ℝ) (hk : k ≠ 0) (A : Mat 3 3 ℝ) : (k • A)⁻¹ = (k⁻¹ • A⁻¹ : Mat 3 3 ℝ) := by
  by_cases h : IsUnit (Matrix.det A)
  · have := invertibleOfNonzero hk
    rw [Matrix.inv_smul A k h, invOf_eq_inv]
  · have h' : ¬ IsUnit (Matrix.det (k • A)) := by
      rw [Matrix.det_smul]
      simp only [isUnit_iff_ne_zero, ne_eq, not_not] at h
      rw [h]; simp
    rw [Matrix.nonsing_inv_apply_not_isUnit _ h, Matrix.nonsing_inv_apply_not_isUnit _ h', smul_zero]

lemma drag (k : ℝ) (v : Vec 3 ℝ) :
    Model.dragForce (u.mass / u.len * k) (u.len • v) = u.force • Model.dragForce k v := by
  have hl := u.len_pos.ne'
  rw [dragForce_real, dragForce_real]
  ext i
  simp only [Pi.smul_apply, smul_eq_mul, abs_mul, abs_of_pos u.len_pos, force]
  field_simp

lemma aero (A : Mat 3 3 ℝ) (om : Vec 3 ℝ) :
    Model.aeroMoment (u.torque • A) om = u.torque • Model.aeroMoment A om := by
  rw [aeroMoment_real, aeroMoment_real, Matrix.smul_mulVec, smul_comm, smul_neg]

lemma contrib (m : Motor ℝ) (r : Fin 6) :
    Model.motorContrib (u.motor m) r = u.wrench r * Model.motorContrib m r := by
  unfold Model.motorContrib
  simp only [motor, flt, mulVec_z]
  fin_cases r <;> simp [wrench, cross_apply, torque_eq] <;> ring

lemma mixerInertia (ms : Fin n → Motor ℝ) :
    Model.mixerInertia (fun i => u.motor (ms i)) = u.torque • Model.mixerInertia ms := by
  ext r i
  rw [Matrix.smul_apply, smul_eq_mul]
  unfold Model.mixerInertia
  simp only [motor, flt, mulVec_z]
  ring

lemma coreOf (p : ModelParams ℝ) (ms : Fin n → Motor ℝ) :
    Model.coreOf (u.modelParams p) (fun i => u.motor (ms i)) = u.core (Model.coreOf p ms) := by
  unfold Model.coreOf core
  simp only [mixerInertia, Model.mixer6, contrib]
  congr 1
  · ext r i
    show _ = u.force * _
    fin_cases r <;> simp [wrench]
  · ext r i
    show _ = u.torque * _
    fin_cases r <;> simp [wrench]

lemma motorFn (l : List (Motor ℝ)) :
    Model.motorFn n (l.map u.motor) = (Model.motorFn n l).map fun f i => u.motor (f i) := by
  unfold Model.motorFn
  by_cases h : l.length = n
  · simp [h]
  · simp [h]

lemma neg_iff {k : ℝ} (hk : 0 < k) (x : ℝ) : k * x < 0 ↔ x < 0 := by
  constructor
  · intro h; by_contra hx; nlinarith [mul_nonneg hk.le (not_lt.1 hx)]
  · exact fun h => mul_neg_of_pos_of_neg hk h

lemma checkMotor (m : Motor ℝ) : Model.checkMotor (u.motor m) = Model.checkMotor m := by
  unfold Model.checkMotor
  simp only [motor, flt, neg_iff u.force_pos, neg_iff u.torque_pos]

lemma checkParams (p : ModelParams ℝ) : Model.checkParams (u.modelParams p) = Model.checkParams p := by
  unfold Model.checkParams
  have h3 : 0 < u.torque ^ 3 := pow_pos u.torque_pos 3
  simp only [modelParams, flt, Matrix.det_smul, Fintype.card_fin, neg_iff u.mass_pos, neg_iff h3,
    neg_iff (div_pos u.mass_pos u.len_pos), List.all_map, Function.comp_def, checkMotor]

lemma dirOk (l : List (Motor ℝ)) : Model.dirOk (l.map u.motor) = Model.dirOk l := by
  unfold Model.dirOk
  rw [List.all_map]
  rfl

lemma model_mk (p : ModelParams ℝ) (seed : ℤ) :
    Model.mk' (n := n) (u.modelParams p) seed = (Model.mk' p seed).map u.model := by
  unfold Model.mk' Model.updateParams
  rw [checkParams]
  split
  · simp only [Option.map_some, model, vzero_real, smul_zero]
    rfl
  · rw [show (u.modelParams p).motors = p.motors.map u.motor from rfl, motorFn, dirOk]
    cases Model.motorFn n p.motors with
    | none => rfl
    | some f =>
      simp only [Option.map_some]
      split
      · simp only [Option.map_some, model, coreOf, vzero_real, smul_zero]
        rfl
      · rfl

section
variable [Noise ℝ]

lemma setNoise (c : ModelCore ℝ n) (dt : ℝ) (m : Model ℝ n) :
    (u.model m).setNoise (u.core c) dt = u.model (m.setNoise c dt) := by
  have h : ∀ k x : ℝ, 0 < k → √(k ^ 2 * x / dt) = k * √(x / dt) := fun k x hk => by
    rw [mul_div_assoc, Real.sqrt_mul (sq_nonneg k), Real.sqrt_sq hk.le]
  unfold Model.setNoise
  split
  · simp only [Model.disableNoise, model, vzero_real, smul_zero]
  · simp only [model, core, modelParams, flt, h _ _ u.force_pos, h _ _ u.torque_pos]
    congr 1
    · ext i; simp [mul_assoc]
    · ext i; simp [mul_assoc]

omit [Noise ℝ] in
lemma disableNoise (m : Model ℝ n) : (u.model m).disableNoise = u.model m.disableNoise := by
  simp only [Model.disableNoise, model, vzero_real, smul_zero]

lemma stepNoise (c : ModelCore ℝ n) (d : Dyn ℝ n) (dt : ℝ) (noise : Bool) :
    Dyn.stepNoise (u.core c) (u.dyn d) dt noise = u.force • Dyn.stepNoise c d dt noise := by
  cases noise
  · simp
  · exact congrArg Model.stochForce (u.setNoise c dt d.model)

lemma stepNoise_zero {c : ModelCore ℝ n} (hc : c.params.forceNoise = 0) (d : Dyn ℝ n) (dt : ℝ) (noise : Bool) :
    Dyn.stepNoise c d dt noise = 0 := by
  cases noise
  · simp
  · show (d.model.setNoise c dt).stochForce = 0
    unfold Model.setNoise
    split
    · exact vzero_real
    · simp only [hc, flt]
      ext i; simp

lemma eulerStep {c : ModelCore ℝ n} (hc : u.Coherent c.params) (ms : Fin n → Motor ℝ) (d : Dyn ℝ n)
    (act : Vec n ℝ) (dt : ℝ) (ext : Vec 3 ℝ) (noise : Bool) :
    Dyn.eulerStep (u.core c) (fun i => u.motor (ms i)) (u.dyn d) act dt (u.force • ext) noise =
      u.dyn (Dyn.eulerStep c ms d act dt ext noise) := by
  have hmot : (Dyn.eulerStep (u.core c) (fun i => u.motor (ms i)) (u.dyn d) act dt (u.force • ext)
      noise).state.motAcc = (Dyn.eulerStep c ms d act dt ext noise).state.motAcc := rfl
  have hT : Model.thrustVec (u.core c) d.state.motVel = u.force • Model.thrustVec c d.state.motVel := by
    simp only [Model.thrustVec, core, mv_real, Matrix.smul_mulVec]
  have hM : ∀ a, Model.motorTorque (u.core c) d.state.motVel a = u.torque • Model.motorTorque c d.state.motVel a := by
    intro a
    simp only [Model.motorTorque, core, mv_real, vadd_real, Matrix.smul_mulVec, smul_add]
  have hg : (u.core c).params.gravity = u.force • c.params.gravity := by
    show u.len • c.params.gravity = _
    rcases hc.2 with h | h
    · rw [force, h, one_mul]
    · rw [h, smul_zero, smul_zero]
  have hn : u.force • Dyn.stepNoise c d dt noise = u.torque • Dyn.stepNoise c d dt noise := by
    rcases hc.1 with h | h
    · rw [force, torque, h, one_mul]
    · rw [stepNoise_zero h, smul_zero, smul_zero]
  have hforce : (Dyn.eulerStep (u.core c) (fun i => u.motor (ms i)) (u.dyn d) act dt (u.force • ext)
      noise).state.force = u.force • (Dyn.eulerStep c ms d act dt ext noise).state.force := by
    rw [Dyn.es_force, Dyn.es_force, u.stepNoise, hg]
    show d.state.ori.rotate (Model.thrustVec (u.core c) d.state.motVel) + u.force • c.params.gravity +
      Model.dragForce (u.mass / u.len * c.params.drag) (u.len • d.state.vel) + _ + _ = _
    rw [hT, drag, Quat.rotate_smul]
    simp only [smul_add]
  have htorque : (Dyn.eulerStep (u.core c) (fun i => u.motor (ms i)) (u.dyn d) act dt (u.force • ext)
      noise).state.torque = u.torque • (Dyn.eulerStep c ms d act dt ext noise).state.torque := by
    rw [Dyn.es_torque, Dyn.es_torque, u.stepNoise, hmot, hn]
    show Model.motorTorque (u.core c) d.state.motVel _ + Model.aeroMoment (u.torque • c.params.aero) d.state.angVel + _ -
      crossProduct d.state.angVel (Matrix.mulVec (u.torque • c.params.inertia) d.state.angVel) = _
    rw [hM, aero, Matrix.smul_mulVec, map_smul]
    simp only [smul_add, smul_sub]
  have hacc : (Dyn.eulerStep (u.core c) (fun i => u.motor (ms i)) (u.dyn d) act dt (u.force • ext)
      noise).state.acc = u.len • (Dyn.eulerStep c ms d act dt ext noise).state.acc := by
    rw [Dyn.es_acc, Dyn.es_acc, hforce]
    show (u.mass * c.params.mass)⁻¹ • _ = _
    rw [smul_smul, smul_smul, mul_inv, force]
    have := u.mass_pos.ne'
    congr 1
    field_simp
  have hang : (Dyn.eulerStep (u.core c) (fun i => u.motor (ms i)) (u.dyn d) act dt (u.force • ext)
      noise).state.angAcc = (Dyn.eulerStep c ms d act dt ext noise).state.angAcc := by
    rw [Dyn.es_angAcc, Dyn.es_angAcc, htorque]
    show Matrix.mulVec (u.torque • c.params.inertia)⁻¹ _ = _
    rw [inv_smul_mat _ u.torque_pos.ne', Matrix.smul_mulVec, Matrix.mulVec_smul, smul_smul,
      inv_mul_cancel₀ u.torque_pos.ne', one_smul]
  refine Dyn.ext ?_ (State.ext ?_ ?_ ?_ ?_ hacc hang hforce htorque ?_ ?_)
  · simp only [dyn, Dyn.es_model]
    cases noise
    · exact u.disableNoise _
    · exact u.setNoise _ _ _
  · rw [Dyn.es_pos]
    simp only [dyn, state]
    rw [Dyn.es_pos, smul_add, smul_comm]
  · rfl
  · rw [Dyn.es_vel, hacc]
    simp only [dyn, state]
    rw [Dyn.es_vel, smul_add, smul_comm]
  · rw [Dyn.es_angVel, hang]
    simp only [dyn, state]
    rw [Dyn.es_angVel]
  · rfl
  · rfl

lemma process (d : Dyn ℝ n) (hd : u.CoherentDyn d) (act : Vec n ℝ) (dt : ℝ) (ext : Vec 3 ℝ) (noise : Bool) :
    Res.Rel (fun d e => u.CoherentDyn d ∧ e = u.dyn d) (d.process act dt ext noise)
      ((u.dyn d).process act dt (u.force • ext) noise) := by
  refine Dyn.process_rel ?_ dt d _ ⟨hd, rfl⟩
  rintro dt d _ ⟨hd, rfl⟩
  unfold Dyn.singleStep
  rw [show (u.dyn d).model.core = d.model.core.map u.core from rfl]
  cases hcore : d.model.core with
  | none => trivial
  | some c =>
    simp only [Option.map_some]
    rw [show (u.core c).params.motors = c.params.motors.map u.motor from rfl, motorFn]
    cases Model.motorFn n c.params.motors with
    | none => trivial
    | some f =>
      simp only [Option.map_some]
      have : Dyn.clampOk (fun i => u.motor (f i)) = Dyn.clampOk f := rfl
      rw [this]
      split
      · refine ⟨?_, u.eulerStep (hd c hcore) f d act dt ext noise⟩
        unfold CoherentDyn
        rw [Dyn.eulerStep_core]
        exact hd
      · trivial

end

/-! ## The controller -/

lemma normalized_smul {k : ℝ} (hk : 0 < k) (v : Vec 3 ℝ) : normalized (k • v) = normalized v := by
  rw [normalized_real, normalized_real, smul_dotProduct, dotProduct_smul, smul_eq_mul, smul_eq_mul, ← mul_assoc,
    Real.sqrt_mul (by positivity), Real.sqrt_mul_self hk.le, mul_inv, smul_smul]
  congr 1
  field_simp

lemma desiredAttitude {k : ℝ} (hk : 0 < k) (yaw : ℝ) (f : Vec 3 ℝ) :
    Acro.desiredAttitude yaw (k • f) = Acro.desiredAttitude yaw f := by
  unfold Acro.desiredAttitude
  rw [normalized_smul hk]

lemma acro (c : Ctl ℝ n) (a : Vec 3 ℝ) (R : Mat 3 3 ℝ) (yaw : ℝ) :
    (u.ctl c).accelerationToAcro (u.len • a) R yaw =
      (u.ctl (c.accelerationToAcro a R yaw).1, u.force * (c.accelerationToAcro a R yaw).2.1,
        (c.accelerationToAcro a R yaw).2.2) := by
  have ht : (u.ctl c).acro.accelerationToThrust (u.len • a) = u.force • c.acro.accelerationToThrust a := by
    simp only [Acro.accelerationToThrust, ctl, vsub_real, smulR_real, ← smul_sub, smul_smul, force]
    congr 1; ring
  unfold Ctl.accelerationToAcro Acro.yawAngleToAngularVelocity
  simp only [ht, desiredAttitude u.force_pos]
  rw [dot_real, smul_dotProduct, smul_eq_mul, ← dot_real]
  refine Prod.ext rfl ?_
  simp only [flt, neg_iff u.force_pos]
  split
  · simp
  · rfl

lemma cols_mv (A : Mat n 6 ℝ) (w : Vec 6 ℝ) : mv (u.cols A) (fun j => u.wrench j * w j) = mv A w := by
  ext i
  simp only [mv, flt, cols]
  refine Finset.sum_congr rfl fun j _ => ?_
  have := u.wrench_ne j
  field_simp

lemma indi (c : Ctl ℝ n) (om : Vec 3 ℝ) (t : ℝ) (od : Vec 3 ℝ) (dt : ℝ) :
    (u.ctl c).convertAcro om (u.force * t) od dt =
      (u.ctl (c.convertAcro om t od dt).1, (c.convertAcro om t od dt).2) := by
  have htau : ∀ a : Vec 3 ℝ, vadd (mv (u.torque • c.indi.inertia) a) (cross od (mv (u.torque • c.indi.inertia) od)) =
      u.torque • vadd (mv c.indi.inertia a) (cross od (mv c.indi.inertia od)) := by
    intro a
    simp only [flt, Matrix.smul_mulVec, map_smul, smul_add]
  have hth : (![lit 0, lit 0, u.force * t] : Vec 3 ℝ) = u.force • ![lit 0, lit 0, t] := by
    ext i; fin_cases i <;> simp [flt]
  have hd : ∀ (f τ : Vec 3 ℝ), (![(u.force • f) 0, (u.force • f) 1, (u.force • f) 2, (u.torque • τ) 0,
      (u.torque • τ) 1, (u.torque • τ) 2] : Vec 6 ℝ) =
      fun j => u.wrench j * (![f 0, f 1, f 2, τ 0, τ 1, τ 2] : Vec 6 ℝ) j := by
    intro f τ
    ext i
    fin_cases i <;> simp [wrench]
  unfold Ctl.convertAcro Indi.acroToMotor
  simp only [ctl, hth]
  rw [htau, hd, cols_mv]

lemma acroControl (c : Ctl ℝ n) (om : Vec 3 ℝ) (t : ℝ) (od : Vec 3 ℝ) (dt : ℝ) :
    (u.ctl c).acroControl om (u.force * t) od dt =
      (u.ctl (c.acroControl om t od dt).1, (c.acroControl om t od dt).2) := by
  unfold Ctl.acroControl
  have e : ({ u.ctl c with desAngVel := od, desThrust := u.force * t } : Ctl ℝ n) =
      u.ctl { c with desAngVel := od, desThrust := t } := rfl
  simp only [e]
  generalize ({ c with desAngVel := od, desThrust := t } : Ctl ℝ n) = c
  rw [indi]
  rfl

lemma accelerationControl (c : Ctl ℝ n) (R : Mat 3 3 ℝ) (om a : Vec 3 ℝ) (yaw dt : ℝ) :
    (u.ctl c).accelerationControl R om (u.len • a) yaw dt =
      (u.ctl (c.accelerationControl R om a yaw dt).1, (c.accelerationControl R om a yaw dt).2) := by
  unfold Ctl.accelerationControl
  have e : ({ u.ctl c with desAcc := u.len • a } : Ctl ℝ n) = u.ctl { c with desAcc := a } := rfl
  simp only [e]
  generalize ({ c with desAcc := a } : Ctl ℝ n) = c
  rw [acro]
  simp only []
  generalize c.accelerationToAcro a R yaw = r
  have e2 : ({ u.ctl r.1 with desThrust := u.force * r.2.1, desAngVel := r.2.2 } : Ctl ℝ n) =
      u.ctl { r.1 with desThrust := r.2.1, desAngVel := r.2.2 } := rfl
  rw [e2, acroControl]
  rfl

lemma error (a b : Vec 3 ℝ) : Pid.getError (u.len • a) (u.len • b) = u.len • Pid.getError a b := (smul_sub _ b a).symm

lemma velocityControl (c : Ctl ℝ n) (v : Vec 3 ℝ) (R : Mat 3 3 ℝ) (om vd : Vec 3 ℝ) (yaw dt : ℝ) :
    (u.ctl c).velocityControl (u.len • v) R om (u.len • vd) yaw dt =
      (u.ctl (c.velocityControl v R om vd yaw dt).1, (c.velocityControl v R om vd yaw dt).2) := by
  unfold Ctl.velocityControl Ctl.convertVelocity
  have hp := Pid.computeControl_smul u.len_pos c.vel dt (Pid.getError v vd)
  simp only [error]
  rw [show ({ u.ctl c with desVel := u.len • vd } : Ctl ℝ n).vel = scaledPid u.len c.vel from rfl, hp]
  generalize c.vel.computeControl dt (Pid.getError v vd) = r
  have e : ({ u.ctl c with
        vel := scaledPid u.len r.1
        desVel := u.len • vd
        desAcc := u.len • r.2 } : Ctl ℝ n) =
      u.ctl { c with vel := r.1, desVel := vd, desAcc := r.2 } := rfl
  simp only []
  rw [e, accelerationControl]
  rfl

lemma positionControl (c : Ctl ℝ n) (p : Vec 3 ℝ) (R : Mat 3 3 ℝ) (v om pd : Vec 3 ℝ) (yaw dt : ℝ) :
    (u.ctl c).positionControl (u.len • p) R (u.len • v) om (u.len • pd) yaw dt =
      (u.ctl (c.positionControl p R v om pd yaw dt).1, (c.positionControl p R v om pd yaw dt).2) := by
  unfold Ctl.positionControl Ctl.convertPosition
  have hp := Pid.computeControl_smul u.len_pos c.pos dt (Pid.getError p pd)
  simp only [error]
  rw [show ({ u.ctl c with desPos := u.len • pd } : Ctl ℝ n).pos = scaledPid u.len c.pos from rfl, hp]
  generalize c.pos.computeControl dt (Pid.getError p pd) = r
  have e : ({ u.ctl c with
        pos := scaledPid u.len r.1
        desPos := u.len • pd
        desVel := u.len • r.2 } : Ctl ℝ n) =
      u.ctl { c with pos := r.1, desPos := pd, desVel := r.2 } := rfl
  simp only []
  rw [e, velocityControl]
  rfl

lemma trajectoryControl (c : Ctl ℝ n) (p v : Vec 3 ℝ) (R : Mat 3 3 ℝ) (om pd vd ad : Vec 3 ℝ) (yaw dt : ℝ) :
    (u.ctl c).trajectoryControl (u.len • p) (u.len • v) R om (u.len • pd) (u.len • vd) (u.len • ad) yaw dt =
      (u.ctl (c.trajectoryControl p v R om pd vd ad yaw dt).1, (c.trajectoryControl p v R om pd vd ad yaw dt).2) := by
  unfold Ctl.trajectoryControl Ctl.convertTrajectory
  have hp := Pid.computeControlD_smul u.len_pos c.traj dt (Pid.getError p pd) (Pid.getError v vd)
  simp only [error]
  rw [show ({ u.ctl c with desPos := u.len • pd, desVel := u.len • vd } : Ctl ℝ n).traj = scaledPid u.len c.traj
    from rfl, hp]
  generalize c.traj.computeControlD dt (Pid.getError p pd) (Pid.getError v vd) = r
  have hs : vadd (u.len • r.2) (u.len • ad) = u.len • vadd r.2 ad := (smul_add _ r.2 ad).symm
  have e : ({ u.ctl c with
        traj := scaledPid u.len r.1
        desPos := u.len • pd
        desVel := u.len • vd
        desAcc := u.len • vadd r.2 ad } : Ctl ℝ n) =
      u.ctl { c with traj := r.1, desPos := pd, desVel := vd, desAcc := vadd r.2 ad } := rfl
  simp only []
  rw [hs, e, accelerationControl]
  rfl

lemma ctl_mk (p : CtlParams ℝ n) (h : u.ResolvedCtl p) : Ctl.mk' (u.ctlParams p) = u.ctl (Ctl.mk' p) := by
  simp only [Ctl.mk', ctlParams, ctl, Acro.mk', Indi.mk', Pid.mk_smul u.len_pos _ h.1, Pid.mk_smul u.len_pos _ h.2.1,
    Pid.mk_smul u.len_pos _ h.2.2, vzero_real, smul_zero, lit_zero, mul_zero]

/-! ## Sensors -/

section
variable [Noise ℝ]

lemma draw {k : ℝ} (hk : 0 < k) (x : ℝ) (r : Rng) :
    Imu.scaledDraw (Flt.sqrt (k ^ 2 * x)) r = (k • (Imu.scaledDraw (Flt.sqrt x) r).1, (Imu.scaledDraw (Flt.sqrt x) r).2) := by
  unfold Imu.scaledDraw
  refine Prod.ext ?_ rfl
  ext i
  simp only [flt, Real.sqrt_mul (sq_nonneg k), Real.sqrt_sq hk.le, Pi.smul_apply, smul_eq_mul]
  ring

lemma imu_mk (p : ImuParams ℝ) : Imu.mk' (u.imuParams p) = u.imu (Imu.mk' p) := by
  simp only [Imu.mk', imuParams, imu, draw u.len_pos, vzero_real, smul_zero]

lemma imu_update (i : Imu ℝ) (dt : ℝ) (f om : Vec 3 ℝ) :
    (u.imu i).update dt (u.len • f) om = u.imu (i.update dt f om) := by
  unfold Imu.update
  split
  · rfl
  · have h : ∀ x : ℝ, u.len ^ 2 * x ⊘ dt = u.len ^ 2 * (x ⊘ dt) := fun x => by simp only [flt]; ring
    simp only [Imu.processBias, Imu.processMeasurement, imu, h, draw u.len_pos, Quat.rotate_smul, vadd_real, smulR_real,
      smul_add, smul_comm dt u.len]

omit [Noise ℝ] in
lemma imu_reset (i : Imu ℝ) : (u.imu i).reset = u.imu i.reset := by
  simp only [Imu.reset, imu, vzero_real, smul_zero]

omit [Noise ℝ] in
lemma odom_reset (o : Odom ℝ) : (u.odom o).reset = u.odom o.reset := by
  simp only [Odom.reset, odom, vzero_real, smul_zero]

omit [Noise ℝ] in
lemma odom_update (o : Odom ℝ) (g a : Vec 3 ℝ) (dt : ℝ) :
    (u.odom o).update g (u.len • a) dt = u.odom (o.update g a dt) := by
  simp only [Odom.update, Odom.filter, Odom.integrate, odom, vadd_real, smulL_real, smulR_real, sub_real,
    lit_one, smul_comm _ u.len, ← smul_add, Quat.rotate_smul]

omit [Noise ℝ] in
lemma odom_mk (p : OdomParams ℝ) : Odom.mk' p = (Odom.mk' p).map u.odom := by
  unfold Odom.mk'
  split
  · simp only [Option.map_some, ← odom_reset]
    simp only [Odom.reset, odom]
  · rfl

end

end Spec.Units

end Verif
