import Verif.Real
import Verif.Model.Simulator
import Verif.Lemmas.Sim
import Mathlib.Tactic.NormNum
import Mathlib.Tactic.FinCases
import Mathlib.Tactic.Linarith

/-!
# A concrete simulator over the reals

Used by the examples that show that hypotheses of the theorems can be met, and as a witness in
refutations.
-/

namespace Verif.Fixture

open Verif Flt

/-- A quadrotor of mass 2 with unit coefficients and rotor speeds in [0, 10]. -/
noncomputable def modelParams : ModelParams ℝ where
  motors := Model.quadX 1 1 1 1 0 10 1 1
  mass := 2
  inertia := 1
  drag := 1
  aero := 1
  gravity := ![0, 0, -10]
  forceNoise := 1
  momentNoise := 1

noncomputable def dynParams : DynParams ℝ 4 := ⟨modelParams, State.default, 7⟩

noncomputable def ctlParams : CtlParams ℝ 4 where
  acro := ⟨2, 1, ![0, 0, -10]⟩
  indi := ⟨1, 0, PidParams.default⟩
  pos := PidParams.default
  traj := PidParams.default
  vel := PidParams.default

noncomputable def simParams : SimParams ℝ 4 where
  dyn := dynParams
  ctl := ctlParams
  imu := ⟨1, 1, 1, 1, Quat.identity, 3⟩
  odom := ⟨1, Quat.identity⟩

/-- The four motors as a function. -/
noncomputable def motors (i : Fin 4) : Motor ℝ := modelParams.motors.get (i.cast rfl)

noncomputable def core : ModelCore ℝ 4 := Model.coreOf modelParams motors

noncomputable def dyn : Dyn ℝ 4 :=
  ⟨⟨some core, none, ⟨7, 0⟩, vzero, vzero⟩, State.default⟩

lemma check : Model.checkParams modelParams = true := by
  simp [Model.checkParams, modelParams, Model.checkMotor, Model.quadX, flt]

lemma motorFn_eq : Model.motorFn 4 modelParams.motors = some motors := rfl

lemma dirOk : Model.dirOk modelParams.motors = true := by
  simp [Model.dirOk, modelParams, Model.quadX]

lemma mk_dyn : Dyn.mk' dynParams = some dyn := by
  simp [Dyn.mk', dynParams, Model.mk', Model.updateParams, check, motorFn_eq, dirOk, dyn, core]

lemma motors_speed (i : Fin 4) : (motors i).minSpeed = 0 ∧ (motors i).maxSpeed = 10 ∧
    (motors i).tau = 1 := by
  fin_cases i <;> simp [motors, modelParams, Model.quadX]

lemma clampOk : Dyn.clampOk motors = true := by
  simp [Dyn.clampOk, motors_speed, flt]

variable [Noise ℝ]

/-- The simulator built from `simParams`. -/
noncomputable def sim : Sim ℝ 4 :=
  { dyn := dyn
    ctl := Ctl.mk' ctlParams
    imu := Imu.mk' simParams.imu
    odom := Odom.reset
      { alpha := 1, initOri := Quat.identity, gyroF := vzero, accelF := vzero, pos := vzero
        ori := Quat.identity, vel := vzero, angVel := vzero, acc := vzero }
    armed := false
    floorEnable := false
    floorCollision := false
    floorHeight := lit 0
    refMot := vzero
    refThrust := lit 0
    refAngVel := vzero
    refPos := vzero
    refVel := vzero
    refAcc := vzero
    refYaw := lit 0
    refYawRate := lit 0
    actuation := vzero
    extForce := vzero
    mode := .motorW
    yawMode := .angle }

lemma mk_sim : Sim.mk' simParams = some sim := by
  have ho : Odom.mk' simParams.odom = some (Odom.reset
      { alpha := (1 : ℝ), initOri := Quat.identity, gyroF := vzero, accelF := vzero, pos := vzero
        ori := Quat.identity, vel := vzero, angVel := vzero, acc := vzero }) := by
    simp [Odom.mk', simParams, flt]
  simp only [Sim.mk', show simParams.dyn = dynParams from rfl, mk_dyn, ho]
  rfl

/-- Any state on this model can be advanced by a small step. -/
lemma process_ok (d : Dyn ℝ 4) (hd : d.model.core = some core) (act : Vec 4 ℝ) (dt : ℝ) (h0 : 0 < dt)
    (h1 : dt ≤ 1 / 100) (ext : Vec 3 ℝ) (noise : Bool) :
    d.process act dt ext noise = .ok (Dyn.eulerStep core motors d act dt ext noise) := by
  rw [Dyn.process_small _ _ _ _ _ (by simp [flt, h0]) (by simp [Dyn.maxStep, flt]; linarith)]
  simp [Dyn.singleStep, hd, show core.params.motors = modelParams.motors from rfl, motorFn_eq, clampOk]

/-- ... and so can the simulator. -/
lemma updateDynamics_ok (s : Sim ℝ 4) (hd : s.dyn.model.core = some core) (dt : ℝ) (h0 : 0 < dt)
    (h1 : dt ≤ 1 / 100) : ∃ s', s.updateDynamics dt = .ok s' := by
  rcases Sim.updateDynamics_cases s dt with ⟨-, hc, -⟩ | ⟨ext, -, hu⟩
  · rw [hd] at hc; simp at hc
  · rw [hu, process_ok _ hd _ _ h0 h1]
    simp only []
    split
    · exact ⟨_, rfl⟩
    · exact ⟨_, rfl⟩

end Verif.Fixture
