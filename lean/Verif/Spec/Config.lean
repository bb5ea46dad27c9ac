import Verif.Model.Example

/-!
# Specification of the configuration file

Which parameter each entry of a configuration file names, as a table of key and parameter, and the file shipped with
the examples.
-/

namespace Verif.Spec

open Verif Flt Example

section
variable {α : Type} [Flt α]

/-- The entries with a single number. -/
def scalarKeys : List (List String × (α × SimParams α 4 → α)) :=
  [(["sim_config", "floor_height"], fun q => q.1),
   (["dynamics", "model", "vehicle_mass"], fun q => q.2.dyn.model.mass),
   (["dynamics", "model", "vehicle_drag_coefficient"], fun q => q.2.dyn.model.drag),
   (["dynamics", "model", "force_process_noise_auto_correlation"], fun q => q.2.dyn.model.forceNoise),
   (["dynamics", "model", "moment_process_noise_auto_correlation"], fun q => q.2.dyn.model.momentNoise),
   (["imu", "gyro_noise_var"], fun q => q.2.imu.gyroVar),
   (["imu", "accel_noise_var"], fun q => q.2.imu.accelVar),
   (["imu", "gyro_bias_noise_autocorr_time"], fun q => q.2.imu.gyroBiasCorr),
   (["imu", "accel_bias_noise_autocorr_time"], fun q => q.2.imu.accelBiasCorr),
   (["inertial_odometry", "alpha"], fun q => q.2.odom.alpha)]

/-- The entries about the rotors, common to all four. -/
def rotorKeys : List (List String × (Motor α → α)) :=
  [(["dynamics", "model", "motors_params", "thrust_coefficient"], Motor.kf),
   (["dynamics", "model", "motors_params", "torque_coefficient"], Motor.kt),
   (["dynamics", "model", "motors_params", "min_speed"], Motor.minSpeed),
   (["dynamics", "model", "motors_params", "max_speed"], Motor.maxSpeed),
   (["dynamics", "model", "motors_params", "time_constant"], Motor.tau),
   (["dynamics", "model", "motors_params", "rotational_inertia"], Motor.inertia)]

/-- The distances of the rotors from the axes of the vehicle. -/
def distanceKeys : List (List String) :=
  [["dynamics", "model", "motors_params", "x_dist"], ["dynamics", "model", "motors_params", "y_dist"]]

/-- The entries of a controller section. -/
def gainKeys (sec : List String) (limit : String) (filter : Bool) (f : α × SimParams α 4 → PidParams α 3) :
    List (List String × (α × SimParams α 4 → Vec 3 α)) :=
  [(sec ++ ["Kp"], fun q => (f q).kp), (sec ++ ["Ki"], fun q => (f q).ki), (sec ++ ["Kd"], fun q => (f q).kd),
   (sec ++ ["antiwindup_cte"], fun q => (f q).antiwindup), (sec ++ [limit], fun q => (f q).upper)] ++
  if filter then [(sec ++ ["alpha"], fun q => (f q).alpha)] else []

/-- The controllers a file configures: section, name of the limit, whether there is a filter, parameters.  `traj`
tells the trajectory example from the other. -/
def loops (traj : Bool) : List (List String × String × Bool × (α × SimParams α 4 → PidParams α 3)) :=
  (["controller", "indi"], "angular_acceleration_limit", true, fun q => q.2.ctl.indi.pid) ::
  if traj then [(["controller", "trajectory"], "linear_acceleration_limit", false, fun q => q.2.ctl.traj)]
  else [(["controller", "velocity"], "acceleration_limit", true, fun q => q.2.ctl.vel),
        (["controller", "position"], "velocity_limit", true, fun q => q.2.ctl.pos)]

/-- The entries with a list of three numbers. -/
def vectorKeys (traj : Bool) : List (List String × (α × SimParams α 4 → Vec 3 α)) :=
  [(["dynamics", "state", "position"], fun q => q.2.dyn.state.pos),
   (["dynamics", "state", "linear_velocity"], fun q => q.2.dyn.state.vel),
   (["dynamics", "state", "angular_velocity"], fun q => q.2.dyn.state.angVel),
   (["dynamics", "state", "linear_acceleration"], fun q => q.2.dyn.state.acc),
   (["dynamics", "state", "angular_acceleration"], fun q => q.2.dyn.state.angAcc),
   (["dynamics", "model", "gravity"], fun q => q.2.dyn.model.gravity),
   (["dynamics", "model", "vehicle_inertia"], fun q i => q.2.dyn.model.inertia i i),
   (["dynamics", "model", "vehicle_aero_moment_coefficient"], fun q i => q.2.dyn.model.aero i i),
   (["controller", "acro", "kp_rot"], fun q i => q.2.ctl.acro.kpRot i i)] ++
  (loops traj).flatMap fun l => gainKeys l.1 l.2.1 l.2.2.1 l.2.2.2

/-- The orientation, a list of four numbers: first the real part. -/
def orientationKey : List String := ["dynamics", "state", "orientation"]

/-- The file has all entries it needs. -/
def Complete (traj : Bool) (c : Config α) : Prop :=
  (∀ e ∈ scalarKeys (α := α), (c.num e.1).isSome) ∧ (∀ e ∈ rotorKeys (α := α), (c.num e.1).isSome) ∧
  (∀ k ∈ distanceKeys, (c.num k).isSome) ∧ (∀ e ∈ vectorKeys (α := α) traj, ∀ i : Fin 3, (c.entry e.1 i).isSome) ∧
  ∀ i : Fin 4, (c.entry orientationKey i).isSome

/-- Two files agree on the entries that are needed. -/
def SameEntries (traj : Bool) (c c' : Config α) : Prop :=
  (∀ e ∈ scalarKeys (α := α), c.num e.1 = c'.num e.1) ∧ (∀ e ∈ rotorKeys (α := α), c.num e.1 = c'.num e.1) ∧
  (∀ k ∈ distanceKeys, c.num k = c'.num k) ∧
  (∀ e ∈ vectorKeys (α := α) traj, ∀ i : Fin 3, c.entry e.1 i = c'.entry e.1 i) ∧
  ∀ i : Fin 4, c.entry orientationKey i = c'.entry orientationKey i

/-- The matrix is zero off its diagonal. -/
def IsDiag (M : Mat 3 3 α) : Prop := ∀ i j, i ≠ j → M i j = lit 0

/-- The single numbers of /repo/examples/simulation_config.yaml -/
def shippedNumbers : List (List String × α) :=
  [(["sim_config", "sim_time"], lit 60),
   (["sim_config", "dt"], lit (1 / 1000)),
   (["sim_config", "trajectory_generator_max_speed"], lit 10),
   (["sim_config", "yaw_rate_reference"], lit (1 / 10)),
   (["sim_config", "floor_height"], lit 0),
   (["dynamics", "model", "vehicle_mass"], lit 1),
   (["dynamics", "model", "vehicle_drag_coefficient"], lit (1 / 10)),
   (["dynamics", "model", "force_process_noise_auto_correlation"], lit (5 / 10000)),
   (["dynamics", "model", "moment_process_noise_auto_correlation"], lit (125 / 1000000000)),
   (["dynamics", "model", "motors_params", "thrust_coefficient"], lit (191 / 100000000)),
   (["dynamics", "model", "motors_params", "torque_coefficient"], lit (26 / 100000000)),
   (["dynamics", "model", "motors_params", "x_dist"], lit (8 / 100)),
   (["dynamics", "model", "motors_params", "y_dist"], lit (8 / 100)),
   (["dynamics", "model", "motors_params", "min_speed"], lit 0),
   (["dynamics", "model", "motors_params", "max_speed"], lit 2200),
   (["dynamics", "model", "motors_params", "time_constant"], lit (2 / 100)),
   (["dynamics", "model", "motors_params", "rotational_inertia"], lit (662 / 100000000)),
   (["imu", "gyro_noise_var"], lit (3 / 1000)),
   (["imu", "accel_noise_var"], lit (5 / 10000)),
   (["imu", "gyro_bias_noise_autocorr_time"], lit 0),
   (["imu", "accel_bias_noise_autocorr_time"], lit 0),
   (["inertial_odometry", "alpha"], lit (9 / 10))]

/-- The lists of three or four numbers of /repo/examples/simulation_config.yaml -/
def shippedEntries : List (List String × List α) :=
  [(["dynamics", "state", "position"], [lit 0, lit 0, lit 0]),
   (["dynamics", "state", "orientation"], [lit (9659258 / 10000000), lit 0, lit 0, lit (2588192 / 10000000)]),
   (["dynamics", "state", "linear_velocity"], [lit 0, lit 0, lit 0]),
   (["dynamics", "state", "angular_velocity"], [lit 0, lit 0, lit 0]),
   (["dynamics", "state", "linear_acceleration"], [lit 0, lit 0, lit 0]),
   (["dynamics", "state", "angular_acceleration"], [lit 0, lit 0, lit 0]),
   (["dynamics", "model", "gravity"], [lit 0, lit 0, lit (-981 / 100)]),
   (["dynamics", "model", "vehicle_inertia"], [lit (49 / 10000), lit (49 / 10000), lit (69 / 10000)]),
   (["dynamics", "model", "vehicle_aero_moment_coefficient"], [lit (3 / 1000), lit (3 / 1000), lit (3 / 1000)]),
   (["controller", "indi", "Kp"], [lit 9, lit 9, lit 9]),
   (["controller", "indi", "Ki"], [lit 3, lit 3, lit 3]),
   (["controller", "indi", "Kd"], [lit (3 / 10), lit (3 / 10), lit (3 / 10)]),
   (["controller", "indi", "alpha"], [lit (6 / 10), lit (6 / 10), lit (6 / 10)]),
   (["controller", "indi", "antiwindup_cte"], [lit 1, lit 1, lit 1]),
   (["controller", "indi", "angular_acceleration_limit"], [lit 0, lit 0, lit 0]),
   (["controller", "acro", "kp_rot"], [lit 20, lit 20, lit 8]),
   (["controller", "trajectory", "Kp"], [lit 10, lit 10, lit 10]),
   (["controller", "trajectory", "Ki"], [lit (5 / 1000), lit (5 / 1000), lit (5 / 1000)]),
   (["controller", "trajectory", "Kd"], [lit 6, lit 6, lit 6]),
   (["controller", "trajectory", "antiwindup_cte"], [lit 1, lit 1, lit 1]),
   (["controller", "trajectory", "linear_acceleration_limit"], [lit 0, lit 0, lit 0]),
   (["controller", "velocity", "Kp"], [lit 6, lit 6, lit 10]),
   (["controller", "velocity", "Ki"], [lit 1, lit 1, lit 2]),
   (["controller", "velocity", "Kd"], [lit (4 / 10), lit (4 / 10), lit 0]),
   (["controller", "velocity", "alpha"], [lit (5 / 100), lit (5 / 100), lit 0]),
   (["controller", "velocity", "antiwindup_cte"], [lit 1, lit 1, lit 1]),
   (["controller", "velocity", "acceleration_limit"], [lit 4, lit 4, lit 4]),
   (["controller", "position", "Kp"], [lit 1, lit 1, lit 1]),
   (["controller", "position", "Ki"], [lit (1 / 100), lit (1 / 100), lit (1 / 100)]),
   (["controller", "position", "Kd"], [lit 0, lit 0, lit 0]),
   (["controller", "position", "alpha"], [lit (1 / 10), lit (1 / 10), lit 0]),
   (["controller", "position", "antiwindup_cte"], [lit (5 / 10), lit (5 / 10), lit (5 / 10)]),
   (["controller", "position", "velocity_limit"], [lit 10, lit 10, lit 10])]

/-- The lists of triples of /repo/examples/simulation_config.yaml -/
def shippedRows : List (List String × List (Vec 3 α)) :=
  [(["sim_config", "trajectory_generator_waypoints"],
    [![lit 10, lit (-10), lit 6], ![lit 10, lit 10, lit 3], ![lit (-10), lit (-10), lit 6],
     ![lit (-10), lit 10, lit 3], ![lit 0, lit 0, lit 3]]),
   (["sim_config", "velocity_references"],
    [![lit 0, lit 0, lit 2], ![lit 0, lit 0, lit 0], ![lit 1, lit 0, lit 0], ![lit 0, lit 0, lit 0],
     ![lit 0, lit 1, lit 0], ![lit 0, lit 0, lit 0], ![lit 1, lit 1, lit 0], ![lit 0, lit 0, lit 0]]),
   (["sim_config", "position_references"],
    [![lit 0, lit 0, lit 1], ![lit 0, lit 0, lit 2], ![lit 0, lit 0, lit 1], ![lit 1, lit 0, lit 1],
     ![lit 0, lit 0, lit 1], ![lit 0, lit 1, lit 1], ![lit 0, lit 0, lit 1], ![lit 1, lit 1, lit 1],
     ![lit 0, lit 0, lit 1]])]

/-- The file /repo/examples/simulation_config.yaml -/
def shipped : Config α where
  num k := shippedNumbers.lookup k
  entry k i := (shippedEntries.lookup k).bind fun l => l[i]?
  rows k := shippedRows.lookup k

end

end Verif.Spec
