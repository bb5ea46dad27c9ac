import Verif.Model.Simulator

/-!
# What the log of a flight is about: the name and the meaning of every column
-/

namespace Verif.Spec

open Flt

variable {α : Type}

/-- One moment of a flight that is logged: the time, the simulator and the data of its vehicle. -/
structure Moment (α : Type) where
  time : α
  sim : Sim α 4
  core : ModelCore α 4

/-- The columns `names` hold the components of a vector. -/
def axisColumns {k : ℕ} (names : Fin k → String) (f : Moment α → Vec k α) : List (String × (Moment α → α)) :=
  List.ofFn fun i => (names i, fun m => f m i)

variable [Flt α]

/-- The columns of the true motion. -/
def truthColumns : List (String × (Moment α → α)) :=
  axisColumns ![ "x", "y", "z" ] (fun m => m.sim.dyn.state.pos) ++
  [("roll", fun m => (quatToEuler m.sim.dyn.state.ori).1), ("pitch", fun m => (quatToEuler m.sim.dyn.state.ori).2.1),
   ("yaw", fun m => (quatToEuler m.sim.dyn.state.ori).2.2)] ++
  axisColumns ![ "vx", "vy", "vz" ] (fun m => m.sim.dyn.state.vel) ++
  axisColumns ![ "wx", "wy", "wz" ] (fun m => m.sim.dyn.state.angVel) ++
  axisColumns ![ "ax", "ay", "az" ] (fun m => m.sim.dyn.state.acc) ++
  axisColumns ![ "dwx", "dwy", "dwz" ] (fun m => m.sim.dyn.state.angAcc) ++
  axisColumns ![ "fx", "fy", "fz" ] (fun m => m.sim.dyn.state.force) ++
  axisColumns ![ "tx", "ty", "tz" ] (fun m => m.sim.dyn.state.torque) ++
  axisColumns ![ "mw1", "mw2", "mw3", "mw4" ] (fun m => m.sim.dyn.state.motVel) ++
  axisColumns ![ "mdw1", "mdw2", "mdw3", "mdw4" ] (fun m => m.sim.dyn.state.motAcc)

/-- The columns of references and commands. -/
def commandColumns : List (String × (Moment α → α)) :=
  axisColumns ![ "x_ref", "y_ref", "z_ref" ] (fun m => m.sim.refPos) ++
  [("yaw_ref", fun m => m.sim.refYaw)] ++
  axisColumns ![ "vx_ref", "vy_ref", "vz_ref" ] (fun m => m.sim.refVel) ++
  axisColumns ![ "wx_ref", "wy_ref", "wz_ref" ] (fun m => m.sim.ctl.desAngVel) ++
  axisColumns ![ "ax_ref", "ay_ref", "az_ref" ] (fun m => m.sim.refAcc) ++
  axisColumns ![ "dwx_ref", "dwy_ref", "dwz_ref" ] (fun m => m.sim.ctl.indi.pid.output) ++
  axisColumns ![ "fx_ref", "fy_ref", "fz_ref" ] (fun m i =>
    m.sim.dyn.state.ori.rotate m.sim.ctl.indi.thrust i ⊞ m.core.params.gravity i ⊠ m.core.params.mass) ++
  axisColumns ![ "tx_ref", "ty_ref", "tz_ref" ] (fun m => m.sim.ctl.indi.torque) ++
  axisColumns ![ "mw1_ref", "mw2_ref", "mw3_ref", "mw4_ref" ] (fun m => m.sim.actuation)

/-- The columns of the odometry. -/
def odometryColumns : List (String × (Moment α → α)) :=
  axisColumns ![ "x_io", "y_io", "z_io" ] (fun m => m.sim.odom.pos) ++
  [("roll_io", fun m => (quatToEuler m.sim.odom.ori).1), ("pitch_io", fun m => (quatToEuler m.sim.odom.ori).2.1),
   ("yaw_io", fun m => (quatToEuler m.sim.odom.ori).2.2)] ++
  axisColumns ![ "vx_io", "vy_io", "vz_io" ] (fun m => m.sim.odom.vel) ++
  axisColumns ![ "wx_io", "wy_io", "wz_io" ] (fun m => m.sim.odom.angVel) ++
  axisColumns ![ "ax_io", "ay_io", "az_io" ] (fun m => m.sim.odom.acc)

/-- The columns of the log: the time, the true motion, the references and commands, the odometry. -/
def columns : List (String × (Moment α → α)) :=
  [("time", fun m => m.time)] ++ truthColumns ++ commandColumns ++ odometryColumns

/-- The quantity a column name stands for. -/
def meaning (name : String) : Option (Moment α → α) := (columns.find? fun c => c.1 = name).map Prod.snd

/-- The time, the references and the commands are numbers. -/
def NumberCommands (m : Moment α) : Prop :=
  beq m.time m.time = true ∧ ∀ c ∈ commandColumns, beq (c.2 m) (c.2 m) = true

/-- Printed numbers are read back: `rd x` is the number that the text of `x` stands for (`x` rounded to the digits
printed); the text is not empty and has no comma. -/
def ReadsBack (pr : α → List Char) (parse : List Char → Option α) (rd : α → α) : Prop :=
  ∀ x, pr x ≠ [] ∧ ',' ∉ pr x ∧ parse (pr x) = some (rd x)

/-- The values of a column over the logged moments, as they can be read back. -/
def series (rd : α → α) (ms : List (Moment α)) (f : Moment α → α) : List α := ms.map fun m => rd (f m)

end Verif.Spec
