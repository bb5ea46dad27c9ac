import Verif.Lemmas.Memory
import Verif.Lemmas.Model
import Verif.Fixture

/-!
# C110: what the control loops remember across a change of mode or a re-arming
-/

namespace Verif.Props

open Verif Flt Spec

variable {n : ℕ}

/-! ## C110 -/

/-- **C110, full statement for a change of mode.**  Take a simulator that has just entered a mode, and
another one of the same make that has just entered it too, in the same situation.  What happened before
does not matter: they fly alike. -/
def C110_mode_claim : Prop :=
  ∀ [Noise ℝ] (p : SimParams ℝ 4) (s₀ : Sim ℝ 4), Sim.mk' p = some s₀ →
    ∀ os₁ os₂ : List (SimOp ℝ 4), (∀ o ∈ os₁, reachesController o = false) →
      (∀ o ∈ os₂, reachesController o = false) →
      ∀ s₁ s₂, EntersMode s₀ os₁ s₁ → EntersMode s₀ os₂ s₂ → SameSituation s₁ s₂ → FlyAlike s₁ s₂

/-- **C110, full statement for arming.**  The same after `disarm` and `arm`. -/
def C110_arm_claim : Prop :=
  ∀ [Noise ℝ] (p : SimParams ℝ 4) (s₀ : Sim ℝ 4), Sim.mk' p = some s₀ →
    ∀ os₁ os₂ : List (SimOp ℝ 4), (∀ o ∈ os₁, reachesController o = false) →
      (∀ o ∈ os₂, reachesController o = false) →
      ∀ s₁ s₂, Rearmed s₀ os₁ s₁ → Rearmed s₀ os₂ s₂ → SameSituation s₁ s₂ → FlyAlike s₁ s₂

/-- A mixer that makes rotor 0 answer for the torque about x. -/
noncomputable def windMix : Mat 4 6 ℝ := Matrix.of fun i j => if i = 0 ∧ j = 3 then 1 else 0

/-- The vehicle of `Fixture`, with an integrating rate loop. -/
noncomputable def windParams : SimParams ℝ 4 :=
  { Fixture.simParams with
    ctl := { Fixture.ctlParams with
      indi := ⟨1, windMix, { PidParams.default with ki := ![1, 1, 1] }⟩ } }

section
variable [Noise ℝ]

noncomputable def wind : Sim ℝ 4 := { Fixture.sim with ctl := Ctl.mk' windParams.ctl }

lemma wind_mk : Sim.mk' windParams = some wind := by
  have h := Fixture.mk_sim
  unfold Sim.mk' at h ⊢
  rw [show windParams.dyn = Fixture.simParams.dyn from rfl, show windParams.odom = Fixture.simParams.odom from rfl]
  split at h
  · next d o hd ho =>
    simp only [Option.some.injEq] at h ⊢
    unfold wind
    rw [← h]
    rfl
  · cases h

omit [Noise ℝ] in
lemma wind_pid : (Ctl.mk' windParams.ctl).indi.pid = { (Pid.init : Pid ℝ 3) with
    kpMat := mdiag vzero, kiMat := mdiag ![1, 1, 1], kdMat := mdiag vzero, alpha := vones } := by
  simp [Ctl.mk', Indi.mk', windParams, Pid.mk', Pid.updateParams, PidParams.default, Pid.nonZero, flt]
  simp [Pid.setGains, Pid.setAntiWindup, Pid.setAlpha, Pid.setResetIntegral, Pid.setPropSat,
    Pid.disableSat, Pid.reset, Pid.init, flt]

omit [Noise ℝ] in
lemma change_mode (s : Sim ℝ 4) (m : Mode) (y : YawMode) (h : s.mode ≠ m) : s.setControlMode m y =
    { s with mode := m, yawMode := y, refPos := s.dyn.state.pos, refYaw := (quatToEuler s.dyn.state.ori).2.2,
             refVel := vzero, refAcc := vzero, refThrust := lit 0, refAngVel := vzero } :=
  if_neg fun h' => h h'.1

/-- A turn about the x axis is asked for during one controller update. -/
noncomputable def wound : Sim ℝ 4 :=
  ((wind.arm.setControlMode .acro .angle).setRefAcro 0 ![1, 0, 0]).updateController 1

omit [Noise ℝ] in
/-- Rotor 0 of this vehicle is driven by the output of the rate loop about x. -/
lemma wind_rotor (c : Ctl ℝ 4) (hi : c.indi.inertia = 1)
    (hm : c.indi.mixerInv = windMix) (t : ℝ) :
    (c.acroControl 0 t 0 1).2 0 = sqrtKeepSign (fun _ : Fin 1 => (c.indi.pid.computeControl 1 0).2 0) 0 := by
  have he : Pid.getError (0 : Vec 3 ℝ) 0 = 0 := by simp [Pid.getError, flt]
  have hx : mv (1 : Mat 3 3 ℝ) (c.indi.pid.computeControl 1 0).2 0 = (c.indi.pid.computeControl 1 0).2 0 := by
    rw [mv_real]; simp
  simp only [Ctl.acroControl, Ctl.convertAcro, Indi.acroToMotor, he, hi, hm, sqrtKeepSign]
  generalize (c.indi.pid.computeControl 1 0).2 = o at hx ⊢
  have hz : mv windMix
      ![(![lit 0, lit 0, t] : Vec 3 ℝ) 0, (![lit 0, lit 0, t] : Vec 3 ℝ) 1, (![lit 0, lit 0, t] : Vec 3 ℝ) 2,
        vadd (mv (1 : Mat 3 3 ℝ) o) (cross 0 (mv (1 : Mat 3 3 ℝ) 0)) 0, vadd (mv (1 : Mat 3 3 ℝ) o) (cross 0 (mv (1 : Mat 3 3 ℝ) 0)) 1, vadd (mv (1 : Mat 3 3 ℝ) o) (cross 0 (mv (1 : Mat 3 3 ℝ) 0)) 2] 0
      = o 0 := by
    simp [windMix, flt, cross, Matrix.mulVec, dotProduct]
  rw [hz]

/-- The command that follows when no turn is asked for any more: the integral of the rate error drives rotor
0. -/
lemma wound_command (t : ℝ) : (wound.ctl.acroControl 0 t 0 1).2 0 = 1 := by
  rw [wind_rotor _ rfl rfl]
  have h : wound.ctl.indi.pid = ((Ctl.mk' windParams.ctl).indi.pid.computeControl 1 (Pid.getError vzero ![1, 0, 0])).1 := by
    unfold wound
    rw [change_mode _ _ _ (by simp [wind, Fixture.sim, Sim.arm]), Sim.updateController_armed rfl]
    rfl
  rw [h, wind_pid, sqrtKeepSign_real]
  simp [Pid.computeControl, Pid.firstRunInit, Pid.init, Pid.computeIntegral,
    Pid.computeDerivativeByDeriving, Pid.computeDerivative, Pid.finishOutput, Pid.accumulate,
    Pid.resetAxis, Pid.nonZero, Pid.getError, flt, Matrix.mulVec_diagonal, sign]

/-- Without that past the rotor stands still. -/
lemma wind_command (t : ℝ) : (wind.ctl.acroControl 0 t 0 1).2 0 = 0 := by
  rw [wind_rotor _ rfl rfl]
  rw [show wind.ctl.indi.pid = (Ctl.mk' windParams.ctl).indi.pid from rfl, wind_pid, sqrtKeepSign_real]
  simp [Pid.computeControl, Pid.firstRunInit, Pid.init, Pid.computeIntegral,
    Pid.computeDerivativeByDeriving, Pid.computeDerivative, Pid.finishOutput, Pid.accumulate,
    Pid.resetAxis, Pid.nonZero, flt, Matrix.mulVec_diagonal]

lemma wound_eq : wound = { wind with
    armed := true, mode := .acro, yawMode := .angle, refPos := wind.dyn.state.pos
    refYaw := (quatToEuler wind.dyn.state.ori).2.2, refVel := vzero, refAcc := vzero, refThrust := 0
    refAngVel := ![1, 0, 0], ctl := wound.ctl, actuation := wound.actuation } := by
  have h : wound = (({ wind.arm with
    mode := .acro, yawMode := .angle, refPos := wind.dyn.state.pos
    refYaw := (quatToEuler wind.dyn.state.ori).2.2, refVel := vzero, refAcc := vzero, refThrust := lit 0
    refAngVel := vzero } : Sim ℝ 4).setRefAcro 0 ![1, 0, 0]).updateController 1 := by
    unfold wound
    rw [change_mode _ _ _ (by simp [wind, Fixture.sim, Sim.arm])]
    rfl
  rw [h, Sim.updateController_armed rfl]
  rfl

/-- Afterwards the rotors are commanded directly, and stand still; then rate control is resumed. -/
noncomputable def resumed : Sim ℝ 4 := { wind with
    armed := true, mode := .acro, yawMode := .angle, refPos := wind.dyn.state.pos
    refYaw := (quatToEuler wind.dyn.state.ori).2.2, refVel := vzero, refAcc := vzero, refThrust := lit 0
    refAngVel := vzero, ctl := wound.ctl, actuation := vzero }

omit [Noise ℝ] in
lemma rearm_same {s t : Sim ℝ 4} (h : SameSituation s t) : SameSituation s.disarm.arm t.disarm.arm := by
  obtain ⟨h1, h2, h3, h4, h5, h6, h7, h8, h9, h10, h11, h12, h13, h14, h15, h16, h17⟩ := h
  constructor <;> simp [Sim.disarm, Sim.arm, *]

/-- History with the turn: afterwards the rotors are commanded directly, and stand still. -/
noncomputable def windOps₁ : List (SimOp ℝ 4) :=
  [.arm, .setControlMode .acro .angle, .setRefAcro 0 ![1, 0, 0], .updateController 1,
    .setControlMode .motorW .angle, .updateController 1, .setControlMode .acro .angle]

/-- History without. -/
noncomputable def windOps₂ : List (SimOp ℝ 4) := [.arm, .setControlMode .acro .angle]

end

/-- **C110 is violated.**  `set_control_mode` clears the references but not the integrals: on the vehicle of
`windParams` a turn asked for before an excursion to direct rotor commands drives a rotor after the return to
rate control, although everything the user can see is as if it had never been asked for. -/
theorem C110_mode_violated : ¬ C110_mode_claim := by
  intro h
  let _ : Noise ℝ := ⟨fun _ _ _ => 0⟩
  have e2 : EntersMode wind windOps₂ (wind.arm.setControlMode .acro .angle) :=
    ⟨[.arm], wind.arm, .acro, .angle, rfl, .ok rfl (.nil _), by simp [changesMode, wind, Fixture.sim, Sim.arm], rfl⟩
  have hb : (wound.setControlMode .motorW .angle).updateController 1 = { resumed with mode := .motorW } := by
    rw [change_mode _ _ _ (by rw [wound_eq]; simp), wound_eq, Sim.updateController_armed rfl]
    rfl
  have e1 : EntersMode wind windOps₁ resumed := by
    refine ⟨windOps₁.take 6, { resumed with mode := .motorW }, .acro, .angle, rfl, ?_, by simp [changesMode], ?_⟩
    · refine .ok rfl (.ok rfl (.ok rfl (.ok rfl (.ok rfl (.ok ?_ (.nil _))))))
      exact congrArg Res.ok hb
    · refine congrArg Res.ok ?_
      rw [change_mode _ _ _ (by simp)]
      rfl
  have c1 : wind.arm.setControlMode .acro .angle = { resumed with ctl := wind.ctl } := by
    rw [change_mode _ _ _ (by simp [wind, Fixture.sim, Sim.arm])]
    rfl
  rw [c1] at e2
  have hs : SameSituation resumed { resumed with ctl := wind.ctl } := by constructor <;> rfl
  obtain ⟨t, h1, h2⟩ := h windParams wind wind_mk windOps₁ windOps₂ (by simp [windOps₁, reachesController])
    (by simp [windOps₂, reachesController]) _ _ e1 e2 hs [.updateController 1] (by simp [reachesController]) _
    (.ok rfl (.nil _))
  cases h1 with
  | throw h3 _ => simp [Sim.step] at h3
  | ok h3 h4 =>
    cases h4
    cases h3
    have h5 := congrFun h2.actuation 0
    rw [Sim.updateController_armed rfl, Sim.updateController_armed rfl] at h5
    have z : (vzero : Vec 3 ℝ) = 0 := by simp [flt]
    change (wound.ctl.acroControl vzero (lit 0) vzero 1).2 0 = (wind.ctl.acroControl vzero (lit 0) vzero 1).2 0 at h5
    rw [z, wound_command, wind_command] at h5
    norm_num at h5

/-- **C110 is violated** for arming, too. -/
theorem C110_arm_violated : ¬ C110_arm_claim := by
  intro h
  let _ : Noise ℝ := ⟨fun _ _ _ => 0⟩
  have c1 : wind.arm.setControlMode .acro .angle = { resumed with ctl := wind.ctl } := by
    rw [change_mode _ _ _ (by simp [wind, Fixture.sim, Sim.arm])]
    rfl
  have e1 : Rearmed wind (windOps₁.take 4 ++ [.disarm, .arm]) wound.disarm.arm :=
    ⟨_, rfl, .ok rfl (.ok rfl (.ok rfl (.ok rfl (.ok rfl (.ok rfl (.nil _))))))⟩
  have e2 : Rearmed wind (windOps₂ ++ [.disarm, .arm]) { resumed with ctl := wind.ctl }.disarm.arm := by
    refine ⟨_, rfl, .ok rfl (.ok ?_ (.ok rfl (.ok rfl (.nil _))))⟩
    exact congrArg Res.ok c1
  have e3 : wound.disarm.arm = resumed.disarm.arm := by
    rw [wound_eq]
    rfl
  rw [e3] at e1
  have hs : SameSituation resumed.disarm.arm { resumed with ctl := wind.ctl }.disarm.arm :=
    rearm_same (Sim.sameSituation_refit resumed wind.ctl resumed.imu resumed.odom)
  obtain ⟨t, h1, h2⟩ := h windParams wind wind_mk _ _ (by simp [windOps₁, reachesController])
    (by simp [windOps₂, reachesController]) _ _ e1 e2 hs [.updateController 1] (by simp [reachesController]) _
    (.ok rfl (.nil _))
  cases h1 with
  | throw h3 _ => simp [Sim.step] at h3
  | ok h3 h4 =>
    cases h4
    cases h3
    have h5 := congrFun h2.actuation 0
    rw [Sim.updateController_armed rfl, Sim.updateController_armed rfl] at h5
    have z : (vzero : Vec 3 ℝ) = 0 := by simp [flt]
    change (wound.ctl.acroControl vzero (lit (981 / 100)) vzero 1).2 0 =
      (wind.ctl.acroControl vzero (lit (981 / 100)) vzero 1).2 0 at h5
    rw [z, wound_command, wind_command] at h5
    norm_num at h5

/-- **C110, partial.**  What is missing is a call of `reset_controller`, which the simulator never makes.  If
the user makes it through `get_controller`, the past does not matter: any two simulators that were once equal and
are in the same situation, whatever was called on them, fly alike from there.  Any arithmetic, noise included. -/
theorem C110_reset_partial {α : Type} [Flt α] [Noise α] (s₀ : Sim α n) (os₁ os₂ : List (SimOp α n)) (h₁ : ∀ o ∈ os₁, reachesController o = false)
    (h₂ : ∀ o ∈ os₂, reachesController o = false) (s₁ s₂ t₁ t₂ : Sim α n) (r₁ : s₀.Runs os₁ s₁)
    (r₂ : s₀.Runs os₂ s₂) (h : SameSituation s₁ s₂) (e₁ : s₁.step (.mutCtl Ctl.reset) = .ok t₁)
    (e₂ : s₂.step (.mutCtl Ctl.reset) = .ok t₂) : FlyAlike t₁ t₂ := by
  simp only [Sim.step, Res.ok.injEq] at e₁ e₂
  subst e₁ e₂
  refine Sim.flyAlike_of_blind Ctl.blind_rel ?_ ?_
  · exact ⟨h.dyn, h.armed, h.floorEnable, h.floorCollision, h.floorHeight, h.refMot, h.refThrust, h.refAngVel,
      h.refPos, h.refVel, h.refAcc, h.refYaw, h.refYawRate, h.actuation, h.extForce, h.mode, h.yawMode⟩
  · have c₁ := Sim.conf_runs r₁ h₁
    have c₂ := Sim.conf_runs r₂ h₂
    refine Ctl.ConfRel.reset (c₁.trans ⟨c₂.kpRot.symm, c₂.mass.symm, c₂.gravity.symm, c₂.inertia.symm,
      c₂.mixerInv.symm, c₂.pid.symm, c₂.pos.symm, c₂.traj.symm, c₂.vel.symm⟩)

/-- **C110, partial.**  The claim holds for tunings that have nothing to remember: without integral action, and
without derivative action except in the trajectory loop. -/
theorem C110_proportional_partial [Noise ℝ] (p : SimParams ℝ n) (hpr : Proportional p.ctl) (s₀ : Sim ℝ n)
    (hp : Sim.mk' p = some s₀) (os₁ os₂ : List (SimOp ℝ n)) (h₁ : ∀ o ∈ os₁, reachesController o = false)
    (h₂ : ∀ o ∈ os₂, reachesController o = false) (s₁ s₂ : Sim ℝ n) (r₁ : s₀.Runs os₁ s₁)
    (r₂ : s₀.Runs os₂ s₂) (h : SameSituation s₁ s₂) : FlyAlike s₁ s₂ := by
  refine Sim.flyAlike_of_blind Ctl.blind_plain h (Ctl.Plain.of_conf hpr ?_ ?_)
  · rw [← Sim.mk_ctl hp]; exact Sim.conf_runs r₁ h₁
  · rw [← Sim.mk_ctl hp]; exact Sim.conf_runs r₂ h₂

/-- The tuning of `Fixture` is proportional, that of `windParams` is not; and simulators in the same situation with
different pasts exist. -/
example : Proportional Fixture.simParams.ctl ∧ ¬ Proportional windParams.ctl := by
  refine ⟨?_, fun h => ?_⟩
  · constructor <;> simp [Fixture.simParams, Fixture.ctlParams, PidParams.default, flt]
  · have := congrFun h.rateI 0
    simp [windParams] at this

example [Noise ℝ] : SameSituation wound.disarm.arm { resumed with ctl := wind.ctl }.disarm.arm ∧
    wound.ctl.indi.pid ≠ wind.ctl.indi.pid := by
  refine ⟨?_, fun h => ?_⟩
  · rw [show wound.disarm.arm = resumed.disarm.arm by rw [wound_eq]; rfl]
    exact rearm_same (Sim.sameSituation_refit resumed wind.ctl resumed.imu resumed.odom)
  have h1 := wound_command 0
  rw [wind_rotor _ rfl rfl, h, ← wind_rotor wind.ctl rfl rfl 0, wind_command] at h1
  norm_num at h1

end Verif.Props
