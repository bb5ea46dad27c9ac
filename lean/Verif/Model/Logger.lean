import Verif.Model.Simulator

/-!
# CSV text — `operator<<` of the odometry and `CsvLogger`

/repo/examples/fly_example.cpp:72-185; the same text in
/repo/examples/trajectory_fly_example/traj_gen_example.cpp:77-190.
A number is printed by `pr : α → List Char` (`std::ostream << double`).
-/

namespace Verif

open Flt

variable {α : Type} [Flt α]

/-- Text written by `operator<<(os, InertialOdometry)` — inertial_odometry.hpp:334-349 -/
def Odom.text (pr : α → List Char) (o : Odom α) : List Char := joinComma (o.csv.map pr)

namespace Logger

/-- `std::isnan` -/
def isNan (x : α) : Bool := !beq x x

/-- Column names written by the constructor — fly_example.cpp:77-84 -/
def header : List Char :=
  ("time,x,y,z,roll,pitch,yaw,vx,vy,vz,wx,wy,wz,ax,ay,az,dwx,dwy,dwz," ++
   "fx,fy,fz,tx,ty,tz,mw1,mw2,mw3,mw4,mdw1,mdw2,mdw3,mdw4,x_ref,y_ref," ++
   "z_ref,yaw_ref,vx_ref,vy_ref,vz_ref,wx_ref,wy_ref," ++
   "wz_ref,ax_ref,ay_ref,az_ref,dwx_ref,dwy_ref,dwz_ref,fx_ref,fy_ref,fz_ref," ++
   "tx_ref,ty_ref,tz_ref,mw1_ref,mw2_ref,mw3_ref,mw4_ref," ++
   "x_io,y_io,z_io,roll_io,pitch_io,yaw_io,vx_io,vy_io,vz_io,wx_io,wy_io," ++
   "wz_io,ax_io,ay_io,az_io").toList

/-- `add_double` — fly_example.cpp:90-98 (the exception object is created but not thrown) -/
def addDouble (pr : α → List Char) (x : α) : List Char := if isNan x then [] else pr x ++ [',']

/-- The loop of `add_vector_row` from some index on; all calls use the default `add_final_comma = true`
— fly_example.cpp:105-138 -/
def addEntries (pr : α → List Char) : List α → List Char
  | [] => []
  | x :: xs => if isNan x then [] else pr x ++ ',' :: addEntries pr xs

/-- `add_vector_row` — fly_example.cpp:105-138 -/
def addRow (pr : α → List Char) {k : ℕ} (v : Vec k α) : List Char := addEntries pr (List.ofFn v)

/-- `force_ref` — fly_example.cpp:165-169; `none` = read of an uninitialised model -/
def forceRef (s : Sim α 4) : Option (Vec 3 α) :=
  s.dyn.model.core.map fun c =>
    vadd (s.dyn.state.ori.rotate s.ctl.indi.thrust) (smulR c.params.gravity c.params.mass)

/-- One line written by `save` without the line end — fly_example.cpp:140-185 -/
def save (pr : α → List Char) (time : α) (s : Sim α 4) : Option (List Char) :=
  (forceRef s).map fun f =>
    addDouble pr time ++ (s.dyn.state.text pr ++ [',']) ++ addRow pr s.refPos ++ addDouble pr s.refYaw ++
    addRow pr s.refVel ++ addRow pr s.ctl.desAngVel ++ addRow pr s.refAcc ++ addRow pr s.ctl.indi.pid.output ++
    addRow pr f ++ addRow pr s.ctl.indi.torque ++ addRow pr s.actuation ++ s.odom.text pr

end Logger

end Verif
