import Verif.Props.Euler
import Verif.Props.Ctl
import Verif.Lemmas.PidRest
import Verif.Fixture
import Mathlib.Analysis.SpecialFunctions.Trigonometric.Bounds

/-!
# Yaw rate control of a level vehicle (C50)
-/

namespace Verif.Props

open Verif Flt Spec

/-- A level orientation: a rotation about the vertical. -/
structure Level (q : Quat ℝ) : Prop where
  unit : IsUnitQ q
  roll : q.x = 0
  pitch : q.y = 0

/-- The matrix of a level orientation is the rotation by its reported yaw. -/
lemma level_toMat {q : Quat ℝ} (h : Level q) : q.toMat = rotZ (quatToEuler q).2.2 := by
  have hu : q.w ^ 2 + q.x ^ 2 + q.y ^ 2 + q.z ^ 2 = 1 := h.unit
  rw [quatToEuler_real, Quat.normalized_of_unit h.unit, Quat.toMat_real]
  simp only [Matrix.of_apply, Matrix.cons_val, h.roll, h.pitch] at hu ⊢
  have hn : ‖(⟨1 - 2 * (0 * 0 + q.z * q.z), 2 * (0 * 0 + q.w * q.z)⟩ : ℂ)‖ = 1 := by
    rw [Complex.norm_eq_sqrt_sq_add_sq, Real.sqrt_eq_one]
    linear_combination 4 * q.z ^ 2 * hu
  have hne : (⟨1 - 2 * (0 * 0 + q.z * q.z), 2 * (0 * 0 + q.w * q.z)⟩ : ℂ) ≠ 0 := by
    rw [← norm_pos_iff, hn]; exact one_pos
  have hc := Complex.cos_arg hne
  have hs := Complex.sin_arg (⟨1 - 2 * (0 * 0 + q.z * q.z), 2 * (0 * 0 + q.w * q.z)⟩ : ℂ)
  rw [hn, div_one] at hc hs
  ext i j
  fin_cases i <;> fin_cases j <;> simp [rotZ] <;> simp at hc hs <;> linarith

lemma pointsTo_rotZ {F : ℝ} (hF : 0 < F) (yaw : ℝ) : PointsTo (rotZ yaw) ![0, 0, F] yaw := by
  refine ⟨rotZ_rotation yaw, ?_, ?_, ?_⟩
  · have : (![0, 0, F] : Vec 3 ℝ) ⬝ᵥ ![0, 0, F] = F ^ 2 := by simp [sq]
    rw [this, Real.sqrt_sq hF.le]
    ext i; fin_cases i <;> simp [axis, rotZ]
  · rw [dot3]; simp [axis, heading, rotZ]; ring
  · rw [dot3]; simp only [axis, heading, rotZ]; simp
    have := Real.sin_sq_add_cos_sq yaw
    nlinarith

lemma vertical_ne {F : ℝ} (hF : 0 < F) : (![0, 0, F] : Vec 3 ℝ) ≠ 0 := by
  intro h
  have := congrFun h 2
  simp at this
  exact hF.ne' this

/-- Rates commanded to a level vehicle with yaw `a` that is to point to yaw `b`. -/
lemma level_command (c : Acro ℝ) (a b : ℝ) {F : ℝ} (hF : 0 < F) :
    (c.yawAngleToAngularVelocity (rotZ a) b ![0, 0, F]).2 = Real.sin (b - a) • axis c.kpRot 2 := by
  rw [command_real, ← Acro.pointsTo_unique (vertical_ne hF) (pointsTo_rotZ hF b), rotationError_real]
  rw [Real.sin_sub]
  ext i
  simp [rotZ, Matrix.mul_apply, Fin.sum_univ_three, Matrix.mulVec, dotProduct, axis]
  ring

/-- Modes in which the controller turns a demanded acceleration and a yaw into rates. -/
def controlsAttitude : Mode → Prop
  | .motorW => False
  | .acro => False
  | _ => True

/-- In every such mode the reported desired rates are those of the acceleration stage. -/
lemma mode_stage {n : ℕ} (s : Sim ℝ n) (yaw dt : ℝ) (hm : controlsAttitude s.mode) :
    ∃ w, AccelerationStage s.ctl (s.command yaw dt).1 s.dyn.state.ori.toMat s.dyn.state.angVel
      (s.command yaw dt).1.desAcc yaw dt w := by
  obtain ⟨a1, -⟩ := (C53_cascade s.ctl s.dyn.state.ori.toMat s.dyn.state.pos s.dyn.state.vel
    s.dyn.state.angVel s.refPos s.refVel s.refAcc yaw dt).1
  obtain ⟨a2, -⟩ := (C53_cascade s.ctl s.dyn.state.ori.toMat s.dyn.state.pos s.dyn.state.vel
    s.dyn.state.angVel s.refPos s.refVel s.refAcc yaw dt).2.1
  obtain ⟨a3, -⟩ := (C53_cascade s.ctl s.dyn.state.ori.toMat s.dyn.state.pos s.dyn.state.vel
    s.dyn.state.angVel s.refPos s.refVel s.refAcc yaw dt).2.2.1
  cases h : s.mode <;> simp only [Sim.command, h] <;> rw [h] at hm
  · exact ⟨_, by rw [a1.desired]; exact a1⟩
  · exact hm.elim
  · exact hm.elim
  · exact ⟨_, by rw [a3.desired]; exact a3⟩
  · exact ⟨_, by rw [a2.desired]; exact a2⟩
  · exact ⟨_, by rw [a1.desired]; exact a1⟩

/-- The situation of the claim: an armed simulator in a mode that controls the attitude, with yaw rate
control, a level vehicle, and a demanded acceleration that needs an upward vertical force. -/
structure LevelTurn {n : ℕ} (s : Sim ℝ n) (dt : ℝ) : Prop where
  armed : s.armed = true
  mode : controlsAttitude s.mode
  yawMode : s.yawMode = .rate
  level : Level s.dyn.state.ori
  demand : ∃ F : ℝ, 0 < F ∧
    s.ctl.acro.mass • ((s.updateController dt).ctl.desAcc - s.ctl.acro.gravity) = ![0, 0, F]

/-- Full claim: the commanded yaw rate is the requested one. -/
def C50_claim : Prop :=
  ∀ (n : ℕ) (s : Sim ℝ n) (dt : ℝ), LevelTurn s dt → s.ctl.acro.kpRot 2 2 ≠ 0 →
    (s.updateController dt).ctl.desAngVel 2 = s.refYawRate

/-- What is commanded: `kp sin (rate / kp)`.  It is never more than `kp`, off by at most
`|rate|³ / (6 kp²)`, of the requested sign up to `π kp`, and zero for gain zero.  Missing: equality with
the requested rate, which is false (`C50_violated`). -/
theorem C50_yaw_rate_partial {n : ℕ} (s : Sim ℝ n) (dt : ℝ) (h : LevelTurn s dt) :
    let kp := s.ctl.acro.kpRot 2 2
    let w := (s.updateController dt).ctl.desAngVel 2
    (kp = 0 → w = 0) ∧
    (kp ≠ 0 → w = kp * Real.sin (s.refYawRate / kp) ∧ |w| ≤ |kp| ∧
      |s.refYawRate - w| ≤ |s.refYawRate| ^ 3 / (6 * kp ^ 2)) ∧
    (0 < kp → 0 < s.refYawRate → s.refYawRate < Real.pi * kp → 0 < w) := by
  intro kp w
  obtain ⟨F, hF, hd⟩ := h.demand
  have hu := Sim.updateController_armed h.armed dt
  obtain ⟨wm, hst⟩ := mode_stage s s.yawRef dt h.mode
  have hacc : (s.updateController dt).ctl.desAcc = (s.command s.yawRef dt).1.desAcc := by rw [hu]
  have hw : w = (s.command s.yawRef dt).1.desAngVel 2 := by simp only [w]; rw [hu]
  rw [hacc] at hd
  obtain ⟨T, om, hstage, hcases⟩ := hst.acro
  have hyaw : s.yawRef = s.ctl.yawRateToAngle (quatToEuler s.dyn.state.ori).2.2 s.refYawRate := by
    simp [Sim.yawRef, h.yawMode]
  have hf : (fun i => ((s.command s.yawRef dt).1.desAcc i ⊟ s.ctl.acro.gravity i) ⊠ s.ctl.acro.mass) =
      (![0, 0, F] : Vec 3 ℝ) := by
    rw [← hd]
    ext i
    simp [flt, mul_comm]
  have hz : (fun i => s.dyn.state.ori.toMat i 2) = axis s.dyn.state.ori.toMat 2 := rfl
  simp only [hf, hz] at hcases
  rw [level_toMat h.level] at hcases
  set ψ := (quatToEuler s.dyn.state.ori).2.2 with hψ
  have hax : axis (rotZ ψ) 2 = ![0, 0, 1] := by
    ext i; fin_cases i <;> simp [axis, rotZ]
  have hn : Verif.normalized (![0, 0, 1] : Vec 3 ℝ) = ![0, 0, 1] :=
    normalized_of_dot_one (by simp)
  rw [hax, hn, level_command _ _ _ hF] at hcases
  have hw2 : w = kp * Real.sin (s.yawRef - ψ) := by
    rcases hcases with ⟨hneg, -, -⟩ | ⟨-, -, hom⟩
    · simp [flt] at hneg
      exact absurd hneg (not_lt.2 hF.le)
    · rw [hw, hstage.angVel, hom]
      simp [axis, kp, mul_comm]
  have hzero : kp = 0 → w = 0 := fun h0 => by rw [hw2, h0, zero_mul]
  have hexact : kp ≠ 0 → w = kp * Real.sin (s.refYawRate / kp) := by
    intro h0
    have h0' : ¬ s.ctl.acro.kpRot 2 2 = 0 := h0
    rw [hw2, hyaw]
    simp only [Ctl.yawRateToAngle, flt, decide_eq_true_eq, if_neg h0']
    rw [add_sub_cancel_left]
  refine ⟨hzero, fun h0 => ⟨hexact h0, ?_, ?_⟩, fun hk hr hb => ?_⟩
  · rw [hexact h0, abs_mul]
    exact mul_le_of_le_one_right (abs_nonneg _) (Real.abs_sin_le_one _)
  · rw [hexact h0]
    have := Real.abs_sub_sin_le (s.refYawRate / kp)
    have e : s.refYawRate - kp * Real.sin (s.refYawRate / kp) =
        kp * (s.refYawRate / kp - Real.sin (s.refYawRate / kp)) := by
      field_simp
    rw [e, abs_mul]
    calc _ ≤ |kp| * (|s.refYawRate / kp| ^ 3 / 6) := by gcongr
      _ = _ := by
        rw [abs_div, ← sq_abs kp]
        have : |kp| ≠ 0 := abs_ne_zero.2 h0
        field_simp
  · rw [hexact hk.ne']
    exact mul_pos hk (Real.sin_pos_of_pos_of_lt_pi (div_pos hr hk) ((div_lt_iff₀ hk).2 hb))

/-- An armed level vehicle in velocity control with a requested yaw rate. -/
noncomputable def turning [Noise ℝ] (r : ℝ) : Sim ℝ 4 :=
  { Fixture.sim with armed := true, mode := .velocity, yawMode := .rate, refYawRate := r }

lemma turning_ok [Noise ℝ] (r dt : ℝ) : LevelTurn (turning r) dt := by
  refine ⟨rfl, trivial, rfl, ⟨?_, ?_, ?_⟩, 20, by norm_num, ?_⟩
  · simp [turning, Fixture.sim, Fixture.dyn, State.default, Quat.identity, IsUnitQ, flt]
  · simp [turning, Fixture.sim, Fixture.dyn, State.default, Quat.identity, flt]
  · simp [turning, Fixture.sim, Fixture.dyn, State.default, Quat.identity, flt]
  · have h : ((turning r).updateController dt).ctl.desAcc = 0 := by
      rw [Sim.updateController_armed rfl]
      have e : Pid.getError (vzero : Vec 3 ℝ) vzero = 0 := by ext i; simp [Pid.getError, flt]
      show ((Pid.mk' (PidParams.default : PidParams ℝ 3)).computeControl dt (Pid.getError vzero vzero)).2 = 0
      rw [e]
      exact (Pid.computeControl_rest Pid.default_rest Pid.default_neutral dt).1
    rw [h]
    ext i
    fin_cases i <;> simp [turning, Fixture.sim, Ctl.mk', Acro.mk', Fixture.ctlParams]
    norm_num

/-- A requested rate of `π` with gain one gives the command zero. -/
theorem C50_violated : ¬ C50_claim := by
  intro h
  let N : Noise ℝ := ⟨fun _ _ _ => 0⟩
  have hk : (turning Real.pi).ctl.acro.kpRot 2 2 = 1 := by
    simp [turning, Fixture.sim, Ctl.mk', Acro.mk', Fixture.ctlParams]
  have h1 := h 4 (turning Real.pi) 1 (turning_ok _ _) (by rw [hk]; exact one_ne_zero)
  obtain ⟨-, h2, -⟩ := C50_yaw_rate_partial (turning Real.pi) 1 (turning_ok _ _)
  have h3 := (h2 (by rw [hk]; exact one_ne_zero)).1
  rw [h1, hk] at h3
  have hp : (turning Real.pi).refYawRate = Real.pi := rfl
  rw [hp] at h3
  simp at h3

/-- The hypotheses of `C50_yaw_rate_partial` hold for every rate, a reversing one included. -/
example [Noise ℝ] : LevelTurn (turning 4) (1 / 100) := turning_ok _ _

end Verif.Props
