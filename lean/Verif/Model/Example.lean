import Verif.Model.Logger

/-!
# The example programs

/repo/examples/fly_example.cpp and /repo/examples/trajectory_fly_example/traj_gen_example.cpp: building the
simulator from the built-in parameters or the configuration file, and the test flights.  Messages on
standard output are not modelled.
-/

namespace Verif

open Flt

namespace Example
variable {α : Type} [Flt α]

/-- `asDiagonal()` -/
def diag3 (v : Vec 3 α) : Mat 3 3 α := fun i j => if i = j then v i else lit 0

/-- Parameters of the built-in rotors — fly_example.cpp:429-442, traj_gen_example.cpp:409-422 -/
def codeMotors : List (Motor α) :=
  Model.quadX (lit (191 / 100000000)) (lit (26 / 100000000)) (lit (8 / 100)) (lit (8 / 100)) (lit 0) (lit 2200)
    (lit (2 / 100)) (lit (662 / 100000000))

/-- The allocation matrix both parameter functions compute — fly_example.cpp:306-309, 447-450;
`none` = not four motors -/
def allocation (motors : List (Motor α)) : Option (Mat 4 6 α) :=
  (Model.motorFn 4 motors).map fun ms => Indi.mixerInverse (Model.mixer6 ms)

/-- `get_simulation_params_from_code` — fly_example.cpp:406-490.  Members not assigned there keep their
default initialisers; both seeds are the default 0. -/
def codeParams : Option (SimParams α 4) :=
  (allocation (codeMotors (α := α))).map fun alloc =>
  let gravity : Vec 3 α := ![lit 0, lit 0, lit (-981 / 100)]
  let inertia : Mat 3 3 α := diag3 ![lit (49 / 10000), lit (49 / 10000), lit (69 / 10000)]
  let pid : PidParams α 3 := PidParams.default
  { dyn :=
      { model :=
          { motors := codeMotors
            mass := lit 1
            inertia := inertia
            drag := lit (1 / 10)
            aero := diag3 ![lit (3 / 1000), lit (3 / 1000), lit (3 / 1000)]
            gravity := gravity
            forceNoise := lit (5 / 10000)
            momentNoise := lit (125 / 1000000000) }
        state := State.default
        seed := 0 }
    ctl :=
      { acro := { mass := lit 1, kpRot := diag3 ![lit 20, lit 20, lit 8], gravity := gravity }
        indi :=
          { inertia := inertia
            mixerInv := alloc
            pid := { pid with
              kp := ![lit 9, lit 9, lit 9]
              ki := ![lit 3, lit 3, lit 3]
              kd := ![lit (3 / 10), lit (3 / 10), lit (3 / 10)]
              alpha := ![lit (6 / 10), lit (6 / 10), lit (6 / 10)]
              antiwindup := ![lit 1, lit 1, lit 1] } }
        vel := { pid with kp := ![lit (5 / 10), lit (5 / 10), lit (5 / 10)] }
        traj := pid
        pos := { pid with kp := ![lit (5 / 10), lit (5 / 10), lit (5 / 10)] } }
    imu :=
      { gyroVar := lit (3 / 1000)
        accelVar := lit (5 / 1000)
        gyroBiasCorr := lit (1 / 10000000)
        accelBiasCorr := lit (1 / 10000000)
        ori := Quat.identity
        seed := 0 }
    odom := { alpha := lit (9 / 10), initOri := Quat.identity } }

/-- `get_simulation_params_from_code` of the trajectory example: the same with gains for the trajectory
controller — traj_gen_example.cpp:386-482 -/
def trajCodeParams : Option (SimParams α 4) :=
  (codeParams (α := α)).map fun p =>
  { p with
    ctl := { p.ctl with
      traj := { p.ctl.traj with
        kp := ![lit 10, lit 10, lit 10]
        ki := ![lit (5 / 1000), lit (5 / 1000), lit (5 / 1000)]
        kd := ![lit 6, lit 6, lit 6]
        alpha := vzero
        antiwindup := ![lit 1, lit 1, lit 1] } } }

/-- A configuration file as far as it is read here: the number at a path of keys, an entry of a list of
three or four numbers, and a list of triples.  `none` = absent or not a number, for which `as<double>()`
throws.  Simplification: the rows of a list of triples are numbers. -/
structure Config (α : Type) where
  num : List String → Option α
  entry : List String → ℕ → Option α
  rows : List String → Option (List (Vec 3 α))

/-- `Eigen::Vector3d(yml[..][0].as<double>(), ...)` -/
def Config.vec (c : Config α) (path : List String) : Option (Vec 3 α) := do
  let x ← c.entry path 0
  let y ← c.entry path 1
  let z ← c.entry path 2
  return ![x, y, z]

/-- Gains and limits of one controller section — fly_example.cpp:302, 310-329, 342-363, 365-386.
`limit` is the name of the entry with the output limit; `filter` tells whether `alpha` is read (not for the
trajectory controller, traj_gen_example.cpp:347-367). -/
def pidOfYaml (c : Config α) (sec : List String) (limit : String) (filter : Bool) :
    Option (PidParams α 3) := do
  let d : PidParams α 3 := PidParams.default
  let kp ← c.vec (sec ++ ["Kp"])
  let ki ← c.vec (sec ++ ["Ki"])
  let kd ← c.vec (sec ++ ["Kd"])
  let alpha ← (if filter then c.vec (sec ++ ["alpha"]) else some d.alpha)
  let aw ← c.vec (sec ++ ["antiwindup_cte"])
  let lim ← c.vec (sec ++ [limit])
  return { d with
    kp := kp, ki := ki, kd := kd, alpha := alpha, antiwindup := aw
    lower := smulL (lit (-1)) lim, upper := lim, propSat := true }

/-- The part of `get_simulation_params_from_yaml` about the vehicle — fly_example.cpp:239-299,
traj_gen_example.cpp:244-304 -/
def dynOfYaml (c : Config α) : Option (DynParams α 4) := do
  let st := ["dynamics", "state"]
  let pos ← c.vec (st ++ ["position"])
  let qw ← c.entry (st ++ ["orientation"]) 0
  let qx ← c.entry (st ++ ["orientation"]) 1
  let qy ← c.entry (st ++ ["orientation"]) 2
  let qz ← c.entry (st ++ ["orientation"]) 3
  let vel ← c.vec (st ++ ["linear_velocity"])
  let angVel ← c.vec (st ++ ["angular_velocity"])
  let acc ← c.vec (st ++ ["linear_acceleration"])
  let angAcc ← c.vec (st ++ ["angular_acceleration"])
  let mo := ["dynamics", "model"]
  let gravity ← c.vec (mo ++ ["gravity"])
  let mass ← c.num (mo ++ ["vehicle_mass"])
  let inertia ← c.vec (mo ++ ["vehicle_inertia"])
  let drag ← c.num (mo ++ ["vehicle_drag_coefficient"])
  let aero ← c.vec (mo ++ ["vehicle_aero_moment_coefficient"])
  let fn ← c.num (mo ++ ["force_process_noise_auto_correlation"])
  let mn ← c.num (mo ++ ["moment_process_noise_auto_correlation"])
  let ro := ["dynamics", "model", "motors_params"]
  let kf ← c.num (ro ++ ["thrust_coefficient"])
  let kt ← c.num (ro ++ ["torque_coefficient"])
  let x ← c.num (ro ++ ["x_dist"])
  let y ← c.num (ro ++ ["y_dist"])
  let lo ← c.num (ro ++ ["min_speed"])
  let hi ← c.num (ro ++ ["max_speed"])
  let tau ← c.num (ro ++ ["time_constant"])
  let rot ← c.num (ro ++ ["rotational_inertia"])
  return {
    model :=
      { motors := Model.quadX kf kt x y lo hi tau rot
        mass := mass
        inertia := diag3 inertia
        drag := drag
        aero := diag3 aero
        gravity := gravity
        forceNoise := fn
        momentNoise := mn }
    state := { (State.default : State α 4) with
      pos := pos, ori := ⟨qw, qx, qy, qz⟩, vel := vel, angVel := angVel, acc := acc, angAcc := angAcc }
    seed := 0 }

/-- `get_simulation_params_from_yaml`: floor height and parameters — fly_example.cpp:228-404 (`traj = false`),
traj_gen_example.cpp:233-384 (`traj = true`); `none` = an exception. -/
def yamlParams (traj : Bool) (c : Config α) : Option (α × SimParams α 4) := do
  let floor ← c.num ["sim_config", "floor_height"]
  let dyn ← dynOfYaml c
  let alloc ← allocation dyn.model.motors
  let indi ← pidOfYaml c ["controller", "indi"] "angular_acceleration_limit" true
  let kpRot ← c.vec ["controller", "acro", "kp_rot"]
  let d : PidParams α 3 := PidParams.default
  let tr ← (if traj then pidOfYaml c ["controller", "trajectory"] "linear_acceleration_limit" false
    else some d)
  let vel ← (if traj then some d else pidOfYaml c ["controller", "velocity"] "acceleration_limit" true)
  let pos ← (if traj then some d else pidOfYaml c ["controller", "position"] "velocity_limit" true)
  let gv ← c.num ["imu", "gyro_noise_var"]
  let av ← c.num ["imu", "accel_noise_var"]
  let gb ← c.num ["imu", "gyro_bias_noise_autocorr_time"]
  let ab ← c.num ["imu", "accel_bias_noise_autocorr_time"]
  let al ← c.num ["inertial_odometry", "alpha"]
  return (floor,
    { dyn := dyn
      ctl :=
        { acro := { mass := dyn.model.mass, kpRot := diag3 kpRot, gravity := dyn.model.gravity }
          indi := { inertia := dyn.model.inertia, mixerInv := alloc, pid := indi }
          vel := vel
          traj := tr
          pos := pos }
      imu := { gyroVar := gv, accelVar := av, gyroBiasCorr := gb, accelBiasCorr := ab
               ori := Quat.identity, seed := 0 }
      odom := { alpha := al, initOri := dyn.state.ori } })

/-- `get_simulation_params` with the global `floor_height` it may set: the file if there is one, otherwise
the built-in parameters — fly_example.cpp:46, 492-499; traj_gen_example.cpp:484-490 -/
def getParams (traj : Bool) (file : Option (Config α)) : Option (α × SimParams α 4) :=
  match file with
  | some c => yamlParams traj c
  | none => (if traj then trajCodeParams else codeParams).map fun p => (lit 0, p)

variable [Noise α]

/-- The simulator that `get_simulator` returns for given parameters — fly_example.cpp:546-552,
traj_gen_example.cpp:552-558; `none` = failing assertion of a constructor -/
def getSimulator (p : SimParams α 4) (floor : α) : Option (Sim α 4) :=
  (Sim.mk' p).map fun s => (s.enableFloor floor).arm

/-- Local variables of a test flight and the lines written to the log so far. -/
structure Vars (α : Type) where
  sim : Sim α 4
  t : α
  refTime : α
  refIndex : ℕ
  log : List (List Char)

/-- The four updates at the start of every loop body — fly_example.cpp:561-564 and the same lines in
all flights -/
def cycle (dt : α) (s : Sim α 4) : Res (Sim α 4) :=
  match (s.updateController dt).updateDynamics dt with
  | .ok s => .ok ((s.updateImu dt).updateOdom dt)
  | .throw s => .throw s
  | .bad => .bad

/-- `logger.save(t, simulator)` — fly_example.cpp:565 -/
def record (pr : α → List Char) (v : Vars α) : Res (Vars α) :=
  match Logger.save pr v.t v.sim with
  | some l => .ok { v with log := v.log ++ [l] }
  | none => .bad

/-- One pass of the loop of a flight: `before` and `after` are what the flight does around the updates;
`reference_time` is counted in all flights, used in some.  An exception ends the flight. -/
def pass (pr : α → List Char) (dt : α) (before : α → Sim α 4 → Sim α 4) (after : Vars α → Res (Vars α))
    (v : Vars α) : Res (Vars α) :=
  match cycle dt (before v.t v.sim) with
  | .bad => .bad
  | .throw s => .throw { v with sim := s }
  | .ok s =>
    match after { v with sim := s } with
    | .bad => .bad
    | .throw v => .throw v
    | .ok v =>
      match record pr v with
      | .bad => .bad
      | .throw v => .throw v
      | .ok v => .ok { v with t := v.t ⊞ dt, refTime := v.refTime ⊞ dt }

/-- `while (t < sim_max_t)`, followed for `fuel` passes; `none` = still running. -/
def loop (tmax : α) (body : Vars α → Res (Vars α)) : ℕ → Vars α → Option (Res (Vars α))
  | 0, v => if lt v.t tmax then none else some (.ok v)
  | fuel + 1, v =>
    if lt v.t tmax then
      match body v with
      | .ok v => loop tmax body fuel v
      | r => some r
    else some (.ok v)

/-- A trajectory generator (external library): duration, and position, velocity and acceleration at a
time. -/
structure Trajectory (α : Type) where
  maxTime : α
  eval : α → Vec 3 α × Vec 3 α × Vec 3 α

/-- The test flights of both examples. -/
inductive Flight (α : Type) where
  | arm
  | motorW
  | acro
  | velocity (refs : List (Vec 3 α))
  | position (refs : List (Vec 3 α))
  | positionYawRate (refs : List (Vec 3 α)) (rate : α)
  | geometric (tr : Trajectory α)
  | takeoff (up tr : Trajectory α)

/-- What a flight does before its loop apart from the first record; `none` = out-of-range access to an empty
list of references.
`test_arm` fly_example.cpp:554-559, `test_motor_w_ref` :574-577, `test_indi_controller` :597-600,
`test_velocity_controller` :623-630, `test_position_controller` :659-666,
`test_position_controller_yaw_rate` :695-703, `test_geometric_controller` traj_gen_example.cpp:661-680,
`test_trajectory_controller_with_takeoff` :707-733. -/
def prepare (s : Sim α 4) : Flight α → Option (Sim α 4)
  | .arm => some s
  | .motorW => some ((s.setControlMode .motorW .angle).setRefMot fun _ => lit 1 ⊠ lit 2200)
  | .acro => some ((s.setControlMode .acro .angle).setRefAcro (lit 15) ![lit 0, lit (1 / 10), lit 0])
  | .velocity refs => (refs[0]?).map fun r =>
      ((s.setControlMode .velocity .angle).setRefVel r).setRefYaw (lit 0)
  | .position refs => (refs[0]?).map fun r =>
      ((s.setControlMode .position .angle).setRefPos r).setRefYaw (lit 0)
  | .positionYawRate refs rate => (refs[0]?).map fun r =>
      ((s.setControlMode .position .rate).setRefPos r).setRefYawRate rate
  | .geometric _ | .takeoff _ _ =>
      let s := s.setControlMode .trajectory .angle
      let st := s.dyn.state
      some ((s.setRefTrajectory st.pos st.vel st.acc).setRefYaw (quatToEuler st.ori).2.2)

/-- What a flight does at the start of a pass, `yaw` being the yaw before the flight —
traj_gen_example.cpp:686-691, 739-749 -/
def before (yaw : α) : Flight α → α → Sim α 4 → Sim α 4
  | .geometric tr, t, s =>
    if lt t tr.maxTime then
      let r := tr.eval t
      (s.setRefTrajectory r.1 r.2.1 r.2.2).setRefYaw yaw
    else s
  | .takeoff up tr, t, s =>
    if lt t up.maxTime then
      let r := up.eval t
      (s.setRefTrajectory r.1 r.2.1 r.2.2).setRefYaw yaw
    else if le up.maxTime t && lt t (up.maxTime ⊞ tr.maxTime) then
      let r := tr.eval (t ⊟ up.maxTime)
      (s.setRefTrajectory r.1 r.2.1 r.2.2).setRefYaw (lit 0)
    else s
  | _, _, s => s

/-- The reference switching of the loops over references — fly_example.cpp:632-633, 643-647, 679-683, 716-721;
an index out of range is `bad`. -/
def switchRef (tmax : α) (refs : List (Vec 3 α)) (set : Vec 3 α → Sim α 4 → Sim α 4) (v : Vars α) :
    Res (Vars α) :=
  if lt (tmax ⊘ lit (refs.length : ℚ)) v.refTime then
    match refs[v.refIndex + 1]? with
    | some r => .ok { v with refTime := lit 0, refIndex := v.refIndex + 1, sim := set r v.sim }
    | none => .bad
  else .ok v

/-- What a flight does between the updates and the record of a pass — fly_example.cpp:610-612 and
`switchRef` -/
def after (tmax : α) : Flight α → Vars α → Res (Vars α)
  | .acro, v =>
    if lt (lit 2) v.t then .ok { v with sim := v.sim.setRefAcro (lit 15) ![lit 0, lit 0, lit 0] } else .ok v
  | .velocity refs, v => switchRef tmax refs Sim.setRefVel v
  | .position refs, v => switchRef tmax refs Sim.setRefPos v
  | .positionYawRate refs rate, v => switchRef tmax refs (fun r s => (s.setRefPos r).setRefYawRate rate) v
  | _, v => .ok v

/-- Is the initial state recorded?  Not by `test_arm` — fly_example.cpp:554-568, traj_gen_example.cpp:591-605 -/
def recordsStart : Flight α → Bool
  | .arm => false
  | _ => true

/-- A test flight with simulation time `tmax` and step `dt`, followed for `fuel` passes —
fly_example.cpp:554-727, traj_gen_example.cpp:591-758.  The trajectory flights take the yaw reference from the
state before the flight (traj_gen_example.cpp:675-676, 728-729). -/
def fly (pr : α → List Char) (fl : Flight α) (tmax dt : α) (fuel : ℕ) (s : Sim α 4) :
    Option (Res (Vars α)) :=
  match prepare s fl with
  | none => some .bad
  | some s' =>
    let v : Vars α := ⟨s', lit 0, lit 0, 0, []⟩
    match (if recordsStart fl then record pr v else .ok v) with
    | .ok v =>
      loop tmax (pass pr dt (before (quatToEuler s.dyn.state.ori).2.2 fl) (after tmax fl)) fuel v
    | r => some r

/-- `get_sim_time` with `read_yaml_param` — fly_example.cpp:204-226, 501-512; traj_gen_example.cpp:209-231, 492-503.
Simplification: an entry that is not a number counts as absent. -/
def getSimTime (file : Option (Config α)) : α × α :=
  match file with
  | none => (lit 10, lit (1 / 1000))
  | some c => ((c.num ["sim_config", "sim_time"]).getD (lit 10), (c.num ["sim_config", "dt"]).getD (lit (1 / 1000)))

omit [Noise α] in
/-- `get_references` — fly_example.cpp:514-534; `get_trajectory_generator_waypoints` —
traj_gen_example.cpp:516-539 -/
def getRows (file : Option (Config α)) (name : String) : List (Vec 3 α) :=
  ((file.bind fun c => c.rows ["sim_config", name]).getD [![lit 0, lit 0, lit 1]])

/-- `main` of the first example — fly_example.cpp:731-754: `none` = an exception or a failing assertion
before the flight -/
def main (pr : α → List Char) (file : Option (Config α)) (fuel : ℕ) : Option (Option (Res (Vars α))) := do
  let (floor, p) ← getParams false file
  let s ← getSimulator p floor
  let (tmax, dt) := getSimTime file
  return fly pr (.position (getRows file "position_references")) tmax dt fuel s

/-- `main` of the trajectory example — traj_gen_example.cpp:505-514, 762-784, with `get_trajectory_generator` (an
external library behind it) as a parameter: start, waypoints and speed to trajectory -/
def trajMain (gen : Vec 3 α → List (Vec 3 α) → α → Trajectory α) (pr : α → List Char)
    (file : Option (Config α)) (fuel : ℕ) : Option (Option (Res (Vars α))) := do
  let (floor, p) ← getParams true file
  let s ← getSimulator p floor
  let (tmax, dt) := getSimTime file
  let speed := ((file.bind fun c => c.num ["sim_config", "trajectory_generator_max_speed"]).getD (lit 1))
  let x := s.dyn.state.pos
  let up := vadd x ![lit 0, lit 0, lit 3]
  return fly pr (.takeoff (gen x [up] (lit 1)) (gen up (getRows file "trajectory_generator_waypoints") speed))
    tmax dt fuel s

end Example

end Verif
