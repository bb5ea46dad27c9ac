import Verif.Model.Imu

/-!
# Specifications about sensor histories
-/

namespace Verif.Spec

open Verif

/-- The mounting orientation configured last. -/
def lastMounting {α : Type} (init : Quat α) : List (ImuOp α) → Quat α
  | [] => init
  | .setOrientation q :: os => lastMounting q os
  | _ :: os => lastMounting init os

/-- The initial orientation configured last. -/
def lastInitial {α : Type} (init : Quat α) : List (OdomOp α) → Quat α
  | [] => init
  | .setInitialOrientation q :: os => lastInitial q os
  | _ :: os => lastInitial init os

/-- One IMU period. -/
structure ImuIn (α : Type) where
  dt : α
  force : Vec 3 α
  om : Vec 3 α

/-- The API call. -/
def ImuIn.op {α : Type} (u : ImuIn α) : ImuOp α := .update u.dt u.force u.om

/-- One odometry measurement. -/
structure OdomIn (α : Type) where
  gyro : Vec 3 α
  accel : Vec 3 α
  dt : α

/-- The API call. -/
def OdomIn.op {α : Type} (u : OdomIn α) : OdomOp α := .update u.gyro u.accel u.dt

/-- What the odometry reports after each of a sequence of measurements, with the periods. -/
def reports {α : Type} [Flt α] (o : Odom α) : List (OdomIn α) → List (α × Odom α)
  | [] => []
  | u :: us => (u.dt, o.step u.op) :: reports (o.step u.op) us

/-- The orientations a history puts into the odometry are not zero. -/
def initialsNonzero (P : Quat ℝ → Prop) (os : List (OdomOp ℝ)) : Prop :=
  ∀ o ∈ os, ∀ q, o = .setInitialOrientation q → P q

end Verif.Spec
