import Verif.Lemmas.FiniteSim

/-!
# Specification of histories with finite arguments

`x.fin` is the finite number, vector, object ... `x` seen as a value of the arithmetic with NaN and
infinities.
-/

namespace Verif.Spec

open Verif

/-- The limits used by proportional saturation enclose zero. -/
def ProperPid {n : ℕ} (q : PidParams ℝ n) : Prop :=
  q.propSat = true → ∀ i, q.lower i ≤ 0 ∧ 0 ≤ q.upper i

/-- ... of all PIDs of the controller. -/
structure ProperCtl {n : ℕ} (p : CtlParams ℝ n) : Prop where
  pos : ProperPid p.pos
  traj : ProperPid p.traj
  vel : ProperPid p.vel
  indi : ProperPid p.indi.pid

/-- Variances and bias constants are not negative. -/
structure ProperImu (p : ImuParams ℝ) : Prop where
  gyroVar : 0 ≤ p.gyroVar
  accelVar : 0 ≤ p.accelVar
  gyroBiasCorr : 0 ≤ p.gyroBiasCorr
  accelBiasCorr : 0 ≤ p.accelBiasCorr

/-- Parameters with which no division by zero or square root of a negative number can happen. -/
structure ProperParams {n : ℕ} (p : SimParams ℝ n) : Prop where
  model : RegularParams p.dyn.model
  ctl : ProperCtl p.ctl
  imu : ProperImu p.imu

/-- A call with finite arguments, and its twin over the reals.  If `proper` holds then moreover no
controller update has period zero and all new parameters are proper. -/
inductive FiniteCall {n : ℕ} (proper : Prop) : SimOp ℝ n → SimOp XReal n → Prop where
  | updateDynamics (dt : ℝ) : FiniteCall proper (.updateDynamics dt) (.updateDynamics (.fin dt))
  | updateController (dt : ℝ) (h : proper → dt ≠ 0) :
      FiniteCall proper (.updateController dt) (.updateController (.fin dt))
  | updateImu (dt : ℝ) : FiniteCall proper (.updateImu dt) (.updateImu (.fin dt))
  | updateOdom (dt : ℝ) : FiniteCall proper (.updateOdom dt) (.updateOdom (.fin dt))
  | arm : FiniteCall proper .arm .arm
  | disarm : FiniteCall proper .disarm .disarm
  | enableFloor (h : ℝ) : FiniteCall proper (.enableFloor h) (.enableFloor (.fin h))
  | disableFloor : FiniteCall proper .disableFloor .disableFloor
  | setControlMode (m : Mode) (y : YawMode) : FiniteCall proper (.setControlMode m y) (.setControlMode m y)
  | setRefMot (w : Vec n ℝ) : FiniteCall proper (.setRefMot w) (.setRefMot (vfin w))
  | setRefAcro (t : ℝ) (w : Vec 3 ℝ) : FiniteCall proper (.setRefAcro t w) (.setRefAcro (.fin t) (vfin w))
  | setRefTrajectory (p v a : Vec 3 ℝ) :
      FiniteCall proper (.setRefTrajectory p v a) (.setRefTrajectory (vfin p) (vfin v) (vfin a))
  | setRefVel (v : Vec 3 ℝ) : FiniteCall proper (.setRefVel v) (.setRefVel (vfin v))
  | setRefPos (p : Vec 3 ℝ) : FiniteCall proper (.setRefPos p) (.setRefPos (vfin p))
  | setRefYaw (y : ℝ) : FiniteCall proper (.setRefYaw y) (.setRefYaw (.fin y))
  | setRefYawRate (y : ℝ) : FiniteCall proper (.setRefYawRate y) (.setRefYawRate (.fin y))
  | setDynParams (p : DynParams ℝ n) (h : proper → RegularParams p.model) :
      FiniteCall proper (.setDynParams p) (.setDynParams p.fin)
  | setCtlParams (p : CtlParams ℝ n) (h : proper → ProperCtl p) :
      FiniteCall proper (.setCtlParams p) (.setCtlParams p.fin)
  | setImuParams (p : ImuParams ℝ) (h : proper → ProperImu p) :
      FiniteCall proper (.setImuParams p) (.setImuParams p.fin)
  | setOdomParams (p : OdomParams ℝ) : FiniteCall proper (.setOdomParams p) (.setOdomParams p.fin)
  | mutDyn (f : Dyn ℝ n → Dyn ℝ n) (f' : Dyn XReal n → Dyn XReal n) (hf : ∀ d, f' d.fin = (f d).fin)
      (h : proper → ∀ d, Finite.RegularDyn d → Finite.RegularDyn (f d)) :
      FiniteCall proper (.mutDyn f) (.mutDyn f')
  | mutCtl (f : Ctl ℝ n → Ctl ℝ n) (f' : Ctl XReal n → Ctl XReal n) (hf : ∀ d, f' d.fin = (f d).fin)
      (h : proper → ∀ d, Finite.RegularCtl d → Finite.RegularCtl (f d)) :
      FiniteCall proper (.mutCtl f) (.mutCtl f')
  | mutImu (f : Imu ℝ → Imu ℝ) (f' : Imu XReal → Imu XReal) (hf : ∀ d, f' d.fin = (f d).fin)
      (h : proper → ∀ d, RegularImu d → RegularImu (f d)) :
      FiniteCall proper (.mutImu f) (.mutImu f')
  | mutOdom (f : Odom ℝ → Odom ℝ) (f' : Odom XReal → Odom XReal) (hf : ∀ d, f' d.fin = (f d).fin) :
      FiniteCall proper (.mutOdom f) (.mutOdom f')

end Verif.Spec
