{"id": "C01", "title": "The vehicle is never observed below an enabled floor", "statement": "Whenever update_dynamics returns normally while floor collision is enabled, the reported z position is not below the reported floor height, whatever the state, motor commands, noise, time step and previous calls were.", "quantifier": "for every simulator state, every dt, every rotor count and every arithmetic (including rounding, infinities and NaN) on which update_dynamics returns", "why_tests_cant": "tests drive a handful of flights; the guarantee is about every state and input, including states injected through get_dynamics().set_state and floors raised in flight", "anchors": [{"file": "multirotor_simulator/multirotor_simulator.hpp", "symbols": ["Simulator::update_dynamics", "Simulator::enable_floor_collision"]}]}
{"id": "C02", "title": "A disarmed vehicle commands zero rotor speed, at any moment of any history", "statement": "At every point of every sequence of public API calls on a freshly constructed simulator, if get_armed() is false then get_actuation_motors_angular_velocity() is the zero vector.", "quantifier": "for every initial parameter set and every finite sequence of API calls (including calls that throw)", "why_tests_cant": "a test observes a few call orders; the safety claim is an invariant over all interleavings of arm, disarm, mode changes, reference changes and updates", "anchors": [{"file": "multirotor_simulator/multirotor_simulator.hpp", "symbols": ["Simulator::disarm", "Simulator::arm", "Simulator::update_controller"]}]}
{"id": "C03", "title": "The vehicle orientation stays a unit quaternion forever", "statement": "If the initial orientation is any non-zero quaternion, then after every successful update the reported orientation has norm exactly one, for all later calls, with collisions, noise and arbitrary commands.", "quantifier": "for every non-zero initial quaternion, every model, every sequence of time steps, commands and noise samples (real arithmetic)", "why_tests_cant": "the normalisation only works if the pre-normalised quaternion can never be zero; this has to hold for every angular velocity and step size", "anchors": [{"file": "multirotor_simulator/multirotor_dynamic_model/dynamics.hpp", "symbols": ["Dynamics::process_euler_explicit"]}, {"file": "multirotor_simulator/multirotor_dynamic_model/common/utils.hpp", "symbols": ["get_quaternion_derivative"]}]}
{"id": "C04", "title": "Rotor speeds never leave their physical limits", "statement": "After every successful dynamics update the speed of each rotor i is neither below its min_speed nor above its max_speed, whatever was commanded and whatever the speeds were before.", "quantifier": "for every model accepted by the library, every state, command, dt, and every arithmetic (including NaN and rounding)", "why_tests_cant": "limits must hold for every command and every integration step size, also when the integration step overshoots", "anchors": [{"file": "multirotor_simulator/multirotor_dynamic_model/dynamics.hpp", "symbols": ["Dynamics::process_euler_explicit", "Dynamics::clamp_motors_angular_velocity"]}]}
{"id": "C05", "title": "A non-positive time step is rejected without side effects on the vehicle", "statement": "process_euler_explicit with dt <= 0 throws and leaves vehicle state, model, noise generator and stored noise unchanged; update_dynamics with dt <= 0 throws and leaves every observable of the simulator unchanged (strong exception guarantee).", "quantifier": "for every state and every dt that compares <= 0", "why_tests_cant": "exception safety is about every state at the moment of the throw; a test sees a few. (The second half is violated: the external force is left set when the vehicle is below the floor.)", "anchors": [{"file": "multirotor_simulator/multirotor_dynamic_model/dynamics.hpp", "symbols": ["Dynamics::process_euler_explicit"]}, {"file": "multirotor_simulator/multirotor_simulator.hpp", "symbols": ["Simulator::update_dynamics"]}]}
{"id": "C06", "title": "An update of dt seconds simulates exactly dt seconds", "statement": "The physical time simulated by one process_euler_explicit(dt) call equals dt: internal sub-stepping is invisible apart from accuracy.", "quantifier": "for every dt > 0", "why_tests_cant": "a test tries a few dt, typically multiples of the internal step; the claim is about all dt. (It is violated for dt > 0.01 that is not a multiple of 0.01: the time is rounded up.)", "anchors": [{"file": "multirotor_simulator/multirotor_dynamic_model/dynamics.hpp", "symbols": ["Dynamics::process_euler_explicit", "LOWEST_UPDATE_FREQUENCY"]}]}
{"id": "C07", "title": "Floor contact resets exactly the documented parts", "statement": "When an update ends in floor contact, x, y, orientation, force/torque record and rotor state are those of the unconstrained step, z is the floor height, all velocities and accelerations are zero, the IMU readings and biases and the odometry are reset with the odometry aligned to the vehicle orientation; when it does not end in contact, the IMU and odometry are untouched and the vehicle state is exactly that of the unconstrained step.", "quantifier": "for every simulator state and dt", "why_tests_cant": "it is a full frame condition over every field and both branches, not a sampled value", "anchors": [{"file": "multirotor_simulator/multirotor_simulator.hpp", "symbols": ["Simulator::update_dynamics"]}]}
{"id": "C08", "title": "The floor reaction force never leaks into later updates", "statement": "get_external_force() is zero after construction and after every update_dynamics that returned normally; in any call history without an exception it is zero between calls.", "quantifier": "for every finite sequence of API calls", "why_tests_cant": "a leak needs a specific order (exception, then move, then update) that a test has to guess", "anchors": [{"file": "multirotor_simulator/multirotor_simulator.hpp", "symbols": ["Simulator::update_dynamics", "Simulator::get_external_force", "Simulator::enable_floor_collision", "Simulator::disable_floor_collision"]}]}
{"id": "C09", "title": "Process noise is suppressed exactly in the update after a floor contact", "statement": "An update that follows a floor contact applies zero process noise and consumes no random numbers; every other update with dt in (0, 0.01] consumes exactly the same number of samples from the generator.", "quantifier": "for every simulator state and dt", "why_tests_cant": "noise consumption determines reproducibility of whole runs, over every history", "anchors": [{"file": "multirotor_simulator/multirotor_simulator.hpp", "symbols": ["Simulator::update_dynamics"]}, {"file": "multirotor_simulator/multirotor_dynamic_model/model.hpp", "symbols": ["Model::set_stochastic_noise", "Model::disable_stochastic_noise"]}]}
{"id": "C10", "title": "Changing the control mode captures the current pose and clears motion references", "statement": "set_control_mode with the current mode and yaw mode changes nothing; otherwise it sets the modes, makes the current position and yaw the references, zeroes velocity, acceleration, thrust and angular-velocity references, and changes nothing else (vehicle, controllers, sensors, arming, rotor and yaw-rate references).", "quantifier": "for every simulator state and every pair of modes", "why_tests_cant": "frame conditions over all fields and all 12x12 mode transitions from arbitrary states", "anchors": [{"file": "multirotor_simulator/multirotor_simulator.hpp", "symbols": ["Simulator::set_control_mode"]}]}
{"id": "C11", "title": "References are last-writer-wins registers", "statement": "At every moment each reference getter returns the value given by the most recent call that writes that reference (its setter, arm, a mode change, or a yaw-rate update), and otherwise its initial value.", "quantifier": "for every finite sequence of API calls", "why_tests_cant": "it is a refinement between the simulator and an abstract register file over every history", "anchors": [{"file": "multirotor_simulator/multirotor_simulator.hpp", "symbols": ["Simulator::set_reference_trajectory", "Simulator::set_reference_position", "Simulator::set_reference_velocity", "Simulator::set_reference_acro", "Simulator::set_reference_yaw_angle", "Simulator::set_reference_yaw_rate", "Simulator::set_refence_motors_angular_velocity", "Simulator::arm", "Simulator::set_control_mode"]}]}
{"id": "C12", "title": "The controller update only computes commands", "statement": "update_controller never changes the vehicle, sensors, odometry, arming, modes, floor settings or any reference except the yaw reference, and that one only when armed in yaw-rate mode; in MOTOR_W mode the command is exactly the rotor reference; HOVER and POSITION give identical commands and identical controller states.", "quantifier": "for every simulator state, mode and dt", "why_tests_cant": "frame condition over all fields in all 12 mode combinations and arbitrary states", "anchors": [{"file": "multirotor_simulator/multirotor_simulator.hpp", "symbols": ["Simulator::update_controller"]}]}
{"id": "C13", "title": "Sensors never influence the flight", "statement": "Deleting every IMU and odometry call (updates, parameter changes, mutations) from a call history, or changing IMU/odometry parameters and seeds at construction, does not change the vehicle state, controller state, commands, references or any exception raised.", "quantifier": "for every finite sequence of API calls and every pair of sensor configurations", "why_tests_cant": "non-interference is a property of pairs of executions (2-safety), not of one run", "anchors": [{"file": "multirotor_simulator/multirotor_simulator.hpp", "symbols": ["Simulator::update_imu", "Simulator::update_inertial_odometry", "Simulator::update_dynamics"]}]}
{"id": "C14", "title": "Sensor updates and controller updates can be interleaved in any order", "statement": "update_controller commutes with update_imu and with update_inertial_odometry: any interleaving of the three between two dynamics updates that keeps the IMU/odometry order leaves the same simulator.", "quantifier": "for every simulator state and every dt for each call", "why_tests_cant": "schedule independence quantifies over all schedules", "anchors": [{"file": "multirotor_simulator/multirotor_simulator.hpp", "symbols": ["Simulator::update_controller", "Simulator::update_imu", "Simulator::update_inertial_odometry"]}]}
{"id": "C15", "title": "A parked vehicle stays parked", "statement": "A disarmed vehicle at rest on the floor, with rotors stopped, gravity pointing down and level thrust axis irrelevant, keeps its position and orientation exactly, for every number of updates, for every process-noise sample.", "quantifier": "for every number of update_controller/update_dynamics cycles, every dt in (0,0.01], every mass, inertia and every noise sequence (real arithmetic)", "why_tests_cant": "it is an unbounded-time invariant under arbitrary noise", "anchors": [{"file": "multirotor_simulator/multirotor_simulator.hpp", "symbols": ["Simulator::update_dynamics", "Simulator::update_controller"]}, {"file": "multirotor_simulator/multirotor_dynamic_model/dynamics.hpp", "symbols": ["Dynamics::process_euler_explicit"]}]}
{"id": "C16", "title": "With perfect sensors the inertial odometry reproduces the true motion", "statement": "Starting from rest with matching orientation, with noise-free aligned IMU and unfiltered odometry, after any number of equal update cycles the odometry acceleration and velocity equal the true ones, and the odometry orientation equals the true orientation advanced by one step.", "quantifier": "for every number of cycles, every equal dt in (0,0.01], every command sequence and process-noise sequence, with no floor contact (real arithmetic)", "why_tests_cant": "it is an inductive relation between two state machines over unbounded time. (It holds exactly for mass 1; for other masses odometry velocity is mass times true velocity.)", "anchors": [{"file": "multirotor_simulator/multirotor_simulator.hpp", "symbols": ["Simulator::update_imu", "Simulator::update_inertial_odometry"]}, {"file": "multirotor_simulator/imu_simulator/inertial_odometry.hpp", "symbols": ["InertialOdometry::integrate_measurement"]}]}
{"id": "C17", "title": "Hover is an equilibrium of the closed loop", "statement": "A vehicle hovering at its position reference, level, with rotors trimmed for the weight the position controller assumes (mass times gravity) stays exactly there for ever under HOVER control.", "quantifier": "for every number of cycles, every dt in (0,0.01], every mass, inertia, geometry and gain set with zero process noise (real arithmetic)", "why_tests_cant": "an equilibrium is a statement about infinitely many steps and all parameters. (It fails for mass different from 1, because gravity is applied as a force without the mass factor.)", "anchors": [{"file": "multirotor_simulator/multirotor_simulator.hpp", "symbols": ["Simulator::update_controller", "Simulator::update_dynamics"]}, {"file": "multirotor_simulator/multirotor_controllers/multirotor_controllers.hpp", "symbols": ["Controller::compute_position_control"]}, {"file": "multirotor_simulator/multirotor_dynamic_model/dynamics.hpp", "symbols": ["Dynamics::get_vehicle_linear_velocity_derivative"]}]}
{"id": "C18", "title": "One dynamics step is the explicit Euler step of the documented rigid-body equations", "statement": "For dt in (0,0.01] the new state is the old state plus dt times the right-hand side of the documented equations (position, velocity, quaternion with renormalisation, angular velocity, first-order rotors with saturation), with force = rotated thrust + mass*gravity + drag + noise + external and torque = rotor torque + aerodynamic torque + torque noise - gyroscopic term.", "quantifier": "for every state, command, model, noise sample and external force (real arithmetic)", "why_tests_cant": "an equation over all real states, not sampled values. (Violated in two terms: gravity lacks the mass factor and torque noise uses the force sample.)", "anchors": [{"file": "multirotor_simulator/multirotor_dynamic_model/dynamics.hpp", "symbols": ["Dynamics::process_euler_explicit", "Dynamics::get_vehicle_linear_velocity_derivative", "Dynamics::get_vehicle_angular_velocity_derivative"]}, {"file": "docs/Dynamics.md", "symbols": []}]}
{"id": "C19", "title": "All bodies fall with the acceleration of gravity", "statement": "With rotors stopped, no velocity, no noise and no contact, the reported linear acceleration after an update is the gravity vector of the model, independent of the mass.", "quantifier": "for every mass > 0, gravity, inertia and dt in (0,0.01]", "why_tests_cant": "universally quantified over mass; the tests all use mass 1. (Violated: acceleration is gravity / mass.)", "anchors": [{"file": "multirotor_simulator/multirotor_dynamic_model/dynamics.hpp", "symbols": ["Dynamics::get_vehicle_linear_velocity_derivative", "Dynamics::process_euler_explicit"]}]}
{"id": "C20", "title": "Torque noise is what disturbs the rotation", "statement": "With the force noise correlation zero, the torque noise sample is the disturbance torque: the recorded torque minus the deterministic torque equals get_stochastic_moment().", "quantifier": "for every state, dt and noise sequence", "why_tests_cant": "needs relating recorded torque to the drawn sample for every sample. (Violated: the force sample is added to the torque and the moment sample is never used.)", "anchors": [{"file": "multirotor_simulator/multirotor_dynamic_model/dynamics.hpp", "symbols": ["Dynamics::process_euler_explicit"]}, {"file": "multirotor_simulator/multirotor_dynamic_model/model.hpp", "symbols": ["Model::set_stochastic_noise", "Model::get_stochastic_moment"]}]}
{"id": "C21", "title": "Rotors approach the commanded speed monotonically without overshoot", "statement": "Under a constant command, with dt not larger than the rotor time constant, each rotor speed moves monotonically towards the saturated command, never crosses it, the remaining error after k updates is exactly (1-dt/tau)^k of the initial one and tends to zero.", "quantifier": "for every initial speed within limits, command, tau >= dt > 0, and every number of updates (real arithmetic)", "why_tests_cant": "asymptotic and for all k", "anchors": [{"file": "multirotor_simulator/multirotor_dynamic_model/dynamics.hpp", "symbols": ["Dynamics::get_motors_angular_velocity_derivative", "Dynamics::clamp_motors_angular_velocity"]}]}
{"id": "C22", "title": "Quaternion integration is norm preserving and never degenerates", "statement": "The quaternion derivative is orthogonal to the quaternion, so integration of any non-zero quaternion yields a unit quaternion for every angular velocity and dt, and integrating with zero rate is exactly normalisation.", "quantifier": "for every non-zero quaternion, angular velocity and dt (real arithmetic)", "why_tests_cant": "continuous input space", "anchors": [{"file": "multirotor_simulator/multirotor_dynamic_model/common/utils.hpp", "symbols": ["get_quaternion_derivative", "get_quaternion_integrate"]}, {"file": "multirotor_simulator/imu_simulator/inertial_odometry.hpp", "symbols": ["InertialOdometry::get_quaternion_integrate"]}]}
{"id": "C23", "title": "The dynamics do not depend on where the vehicle is", "statement": "Translating the initial position by any vector translates the whole trajectory by the same vector and changes nothing else, for any sequence of process_euler_explicit calls.", "quantifier": "for every state, displacement and call sequence (real arithmetic)", "why_tests_cant": "relates two unbounded executions", "anchors": [{"file": "multirotor_simulator/multirotor_dynamic_model/dynamics.hpp", "symbols": ["Dynamics::process_euler_explicit"]}]}
{"id": "C24", "title": "Drag and aerodynamic torque only remove energy", "statement": "The drag force never has positive power along the velocity, vanishes only when it should, and is odd in the velocity; the aerodynamic torque never has positive power for any model accepted by the library.", "quantifier": "for every velocity / angular velocity and every accepted model (real arithmetic)", "why_tests_cant": "inequality over a continuum. (The torque half is violated: acceptance only checks the determinant, which admits energy-producing coefficient matrices.)", "anchors": [{"file": "multirotor_simulator/multirotor_dynamic_model/model.hpp", "symbols": ["Model::get_drag_force", "Model::get_aerodynamic_moment", "Model::check_params"]}, {"file": "multirotor_simulator/multirotor_dynamic_model/common/utils.hpp", "symbols": ["squared_keep_sign"]}]}
{"id": "C25", "title": "Parameter updates of the model are all-or-nothing", "statement": "update_params with parameters that fail validation leaves the model (parameters, mixers, noise) exactly as before; with parameters that pass, every getter afterwards reports the new parameters and mixers computed from them, and the noise generator is not disturbed.", "quantifier": "for every model and parameter set", "why_tests_cant": "atomicity is over all inputs and all fields", "anchors": [{"file": "multirotor_simulator/multirotor_dynamic_model/model.hpp", "symbols": ["Model::update_params", "Model::check_params"]}]}
{"id": "C26", "title": "Validation accepts exactly the physically meaningful models", "statement": "Parameters are accepted if and only if the mass is positive, inertia and aerodynamic matrices are positive (semi)definite, drag, time constants, inertias and coefficients are valid and each rotor's limits are ordered, so that every later update divides by non-zero quantities.", "quantifier": "for every parameter set", "why_tests_cant": "iff over a continuum, and NaN inputs. (Violated: zero mass, zero time constant, indefinite inertia, wrong rotor count and NaN are accepted; the exact acceptance condition is proved instead.)", "anchors": [{"file": "multirotor_simulator/multirotor_dynamic_model/model.hpp", "symbols": ["Model::check_params"]}]}
{"id": "C27", "title": "Rotor forces and torques add up to the rigid-body wrench", "statement": "For any rotor arrangement the force and torque computed by the model equal the sum over rotors of the rotated thrust kf*w|w| and of position x thrust + rotated reaction torque dir*kt*w|w| + rotated inertia reaction dir*J*dw.", "quantifier": "for every number of rotors, poses, coefficients, speeds and accelerations (real arithmetic)", "why_tests_cant": "for all n and all poses", "anchors": [{"file": "multirotor_simulator/multirotor_dynamic_model/model.hpp", "symbols": ["Model::compute_mixer_matrix_6D", "Model::compute_mixer_inertia_matrix", "Model::get_force_vector_thrust_by_motors", "Model::get_torque_by_motors"]}]}
{"id": "C28", "title": "Predefined airframes are balanced", "statement": "For the X, + and hexacopter configurations, equal rotor speeds give zero torque and vertical thrust n*kf*w|w|, and their mixer matrices are the documented ones.", "quantifier": "for every coefficient, arm length and speed (real arithmetic)", "why_tests_cant": "symbolic identity in all parameters. (The documented hexacopter matrix differs from the code.)", "anchors": [{"file": "multirotor_simulator/multirotor_dynamic_model/model.hpp", "symbols": ["Model::create_quadrotor_x_config", "Model::create_quadrotor_plus_config", "Model::create_hexacopter_config"]}, {"file": "docs/CommonConfigurations.md", "symbols": []}]}
{"id": "C29", "title": "The 4-row mixer is the vertical part of the 6-row mixer", "statement": "For rotors without tilt, compute_mixer_matrix<4> equals rows Fz,Mx,My,Mz of compute_mixer_matrix<6> and rows Fx,Fy are zero.", "quantifier": "for every list of un-tilted rotors of any length (real arithmetic)", "why_tests_cant": "for all rotor counts and positions", "anchors": [{"file": "multirotor_simulator/multirotor_dynamic_model/model.hpp", "symbols": ["Model::compute_mixer_matrix_4D", "Model::compute_mixer_matrix_6D"]}]}
{"id": "C30", "title": "The allocation matrix inverts the airframe", "statement": "For X and + quadrotors with non-zero coefficients and arms, multiplying the mixer by compute_quadrotor_mixer_matrix_inverse gives the identity on [Fz,Mx,My,Mz] and zero on [Fx,Fy]; with any of them zero the inverse does not exist.", "quantifier": "for every kf, kt, x and y arm (real arithmetic)", "why_tests_cant": "symbolic determinant, all parameters", "anchors": [{"file": "multirotor_simulator/multirotor_controllers/controllers/indi_controller.hpp", "symbols": ["compute_quadrotor_mixer_matrix_inverse"]}, {"file": "multirotor_simulator/multirotor_dynamic_model/model.hpp", "symbols": ["Model::create_quadrotor_x_config", "Model::create_quadrotor_plus_config"]}]}
{"id": "C31", "title": "Signed square and signed root are inverse to each other", "statement": "squared_keep_sign(sqrt_keep_sign(v)) = v and sqrt_keep_sign(squared_keep_sign(v)) = v, both are odd and strictly increasing, for the two copies of the function.", "quantifier": "for every vector of every length (real arithmetic)", "why_tests_cant": "continuum", "anchors": [{"file": "multirotor_simulator/multirotor_dynamic_model/common/utils.hpp", "symbols": ["squared_keep_sign", "sqrt_keep_sign"]}, {"file": "multirotor_simulator/multirotor_controllers/controllers/indi_controller.hpp", "symbols": ["sqrt_keep_sign"]}]}
{"id": "C32", "title": "Zero noise correlations mean no noise", "statement": "With both process-noise correlations zero, a step with noise enabled leaves exactly the vehicle state of a step with noise disabled, for any seed.", "quantifier": "for every state, command, dt and seed (real arithmetic)", "why_tests_cant": "relates two executions for every seed", "anchors": [{"file": "multirotor_simulator/multirotor_dynamic_model/model.hpp", "symbols": ["Model::set_stochastic_noise"]}, {"file": "multirotor_simulator/multirotor_dynamic_model/dynamics.hpp", "symbols": ["Dynamics::process_euler_explicit"]}]}
{"id": "C33", "title": "The reported mixer matrix is the mixer in use", "statement": "get_mixer_matrix() returns the mixer of the current parameters after any accepted update.", "quantifier": "for every model history", "why_tests_cant": "reads of indeterminate memory pass or fail by luck in tests. (Violated: the member is never assigned because a local variable shadows it.)", "anchors": [{"file": "multirotor_simulator/multirotor_dynamic_model/model.hpp", "symbols": ["Model::get_mixer_matrix", "Model::update_params"]}]}
{"id": "C34", "title": "A non-positive IMU period changes nothing", "statement": "IMU::update with dt <= 0 leaves readings, biases and the random generator unchanged.", "quantifier": "for every IMU state, input and dt that compares <= 0", "why_tests_cant": "all states including the generator position", "anchors": [{"file": "multirotor_simulator/imu_simulator/imu.hpp", "symbols": ["IMU::update"]}]}
{"id": "C35", "title": "A noise-free IMU reports the rotated truth plus its bias", "statement": "With zero noise and bias-drift variances, after update the gyro reads the angular velocity and the accelerometer the force, rotated into the IMU frame, plus the constant biases; with zero bias the norms are preserved; the biases never change.", "quantifier": "for every input, unit mounting orientation, dt > 0, any history of updates (real arithmetic)", "why_tests_cant": "all inputs and histories", "anchors": [{"file": "multirotor_simulator/imu_simulator/imu.hpp", "symbols": ["IMU::process_measurement", "IMU::process_bias", "IMU::update"]}]}
{"id": "C36", "title": "The IMU mounting rotation is always consistent", "statement": "Through any sequence of constructor, set_orientation and other calls, readings are produced with the inverse of the mounting orientation most recently configured.", "quantifier": "for every finite sequence of IMU calls", "why_tests_cant": "cached inverse must be coherent over all histories, including constructor initialisation order", "anchors": [{"file": "multirotor_simulator/imu_simulator/imu.hpp", "symbols": ["IMU::IMU", "IMU::set_orientation", "IMU::process_measurement"]}]}
{"id": "C37", "title": "IMU reset forgets biases and readings but not the configuration", "statement": "After reset the readings and biases are zero; variances, drift, mounting and generator are unchanged, and two IMUs that differ only in biases and readings behave identically after reset for ever.", "quantifier": "for every IMU state and every later sequence of updates", "why_tests_cant": "relates two unbounded executions", "anchors": [{"file": "multirotor_simulator/imu_simulator/imu.hpp", "symbols": ["IMU::reset"]}]}
{"id": "C38", "title": "IMU biases perform the documented random walk", "statement": "After any number of updates the bias equals the initial bias plus the sum of sqrt(q*dt_k) times the k-th standard normal sample: the variance increment per second is the configured correlation.", "quantifier": "for every sequence of positive periods and every noise sequence (real arithmetic)", "why_tests_cant": "closed form over unbounded histories", "anchors": [{"file": "multirotor_simulator/imu_simulator/imu.hpp", "symbols": ["IMU::process_bias"]}]}
{"id": "C39", "title": "The odometry orientation stays a unit quaternion", "statement": "From any non-zero initial orientation, after every odometry update its orientation has norm one, for any measurements and periods.", "quantifier": "for every sequence of measurements, periods and resets (real arithmetic)", "why_tests_cant": "all histories", "anchors": [{"file": "multirotor_simulator/imu_simulator/inertial_odometry.hpp", "symbols": ["InertialOdometry::integrate_measurement", "InertialOdometry::get_quaternion_integrate"]}]}
{"id": "C40", "title": "The odometry filter is a bounded low-pass filter", "statement": "With alpha in (0,1], each axis of the reported angular velocity stays within any interval containing zero and all gyro samples; with alpha = 1 it equals the last sample; with constant input it converges to the input geometrically.", "quantifier": "for every measurement history and alpha in (0,1] (real arithmetic)", "why_tests_cant": "bounds and limits over unbounded histories", "anchors": [{"file": "multirotor_simulator/imu_simulator/inertial_odometry.hpp", "symbols": ["InertialOdometry::filter_measurement", "InertialOdometry::update"]}]}
{"id": "C41", "title": "Odometry reset is a complete restart", "statement": "After reset the odometry is indistinguishable, for all later calls, from a newly constructed one with the same filter constant and the most recently set initial orientation.", "quantifier": "for every prior history and every later history", "why_tests_cant": "relates two unbounded executions", "anchors": [{"file": "multirotor_simulator/imu_simulator/inertial_odometry.hpp", "symbols": ["InertialOdometry::reset", "InertialOdometry::set_initial_orientation", "InertialOdometry::InertialOdometry"]}]}
{"id": "C42", "title": "Odometry dead-reckons by summing what it reports", "statement": "After any sequence of updates the odometry velocity is the sum of reported accelerations times their periods and the position the sum of velocities times periods.", "quantifier": "for every measurement sequence and periods (real arithmetic)", "why_tests_cant": "closed form over unbounded histories", "anchors": [{"file": "multirotor_simulator/imu_simulator/inertial_odometry.hpp", "symbols": ["InertialOdometry::integrate_measurement"]}]}
{"id": "C43", "title": "Commanded thrust is never negative and never exceeds the demand", "statement": "convert_linear_acceleration_to_acro returns a thrust that is not negative and, over the reals, at most mass*|a-g|; when the demand points against the current thrust axis it returns zero thrust and zero angular velocity.", "quantifier": "for every desired acceleration, attitude matrix, yaw and gains; sign part for every arithmetic", "why_tests_cant": "all attitudes and demands", "anchors": [{"file": "multirotor_simulator/multirotor_controllers/multirotor_controllers.hpp", "symbols": ["Controller::convert_linear_acceleration_to_acro"]}, {"file": "multirotor_simulator/multirotor_controllers/controllers/acro_controller.hpp", "symbols": ["AcroController::acceleration_to_thrust"]}]}
{"id": "C44", "title": "The attitude demand is a genuine rotation pointing the thrust and the nose correctly", "statement": "Whenever the demanded force is not parallel to the heading, the attitude at which the controller commands zero rotation for every gain is a proper rotation whose z axis is the demanded force direction, whose y axis is horizontal-heading-orthogonal and whose x axis has positive projection on the heading; at this attitude the commanded angular velocity is zero.", "quantifier": "for every force and yaw with force not parallel to heading, and all gain matrices (real arithmetic)", "why_tests_cant": "geometry over a continuum", "anchors": [{"file": "multirotor_simulator/multirotor_controllers/controllers/acro_controller.hpp", "symbols": ["AcroController::yaw_angle_to_angular_velocity"]}]}
{"id": "C45", "title": "The attitude loop always turns towards the demand", "statement": "Along the commanded angular velocity the attitude error function trace(I - Rd^T R)/2 is non-increasing for positive semidefinite gains, and strictly decreasing for positive gains unless the rotation error vector is zero.", "quantifier": "for every attitude, demand and gain matrix (real arithmetic)", "why_tests_cant": "Lyapunov inequality over the rotation group", "anchors": [{"file": "multirotor_simulator/multirotor_controllers/controllers/acro_controller.hpp", "symbols": ["AcroController::yaw_angle_to_angular_velocity"]}]}
{"id": "C46", "title": "Degenerate thrust demands give a defined command", "statement": "With zero demanded force the commanded angular velocity is exactly zero and the thrust zero; with force parallel to the heading the command stays finite and bounded by the gain times a constant.", "quantifier": "for every attitude, yaw and gains (real arithmetic)", "why_tests_cant": "singular inputs form measure-zero sets that random tests never hit", "anchors": [{"file": "multirotor_simulator/multirotor_controllers/controllers/acro_controller.hpp", "symbols": ["AcroController::yaw_angle_to_angular_velocity"]}, {"file": "multirotor_simulator/multirotor_controllers/multirotor_controllers.hpp", "symbols": ["Controller::convert_linear_acceleration_to_acro"]}]}
{"id": "C47", "title": "The commanded rotor speeds realise the commanded wrench", "statement": "For an X or + quadrotor with the library's own allocation matrix, the model's thrust and torque at the commanded rotor speeds equal exactly the commanded thrust and I*acc + w x I w.", "quantifier": "for every command, current rate, controller state and dt, for all non-zero geometry parameters (real arithmetic)", "why_tests_cant": "identity over all inputs, composing three modules", "anchors": [{"file": "multirotor_simulator/multirotor_controllers/controllers/indi_controller.hpp", "symbols": ["IndiController::acro_to_motor_angular_velocity", "compute_quadrotor_mixer_matrix_inverse"]}, {"file": "multirotor_simulator/multirotor_dynamic_model/model.hpp", "symbols": ["Model::get_force_thrust_by_motors", "Model::get_torque_by_motors"]}]}
{"id": "C48", "title": "The rate loop inverts the rotational dynamics", "statement": "If the rotors run at the commanded speeds and the current rate equals the desired one, then with no aerodynamic torque and noise the vehicle's angular acceleration in the next step is exactly the PID output; in general the mismatch is exactly the difference of the gyroscopic terms.", "quantifier": "for every state and command (real arithmetic)", "why_tests_cant": "composition of controller and dynamics for all inputs", "anchors": [{"file": "multirotor_simulator/multirotor_controllers/controllers/indi_controller.hpp", "symbols": ["IndiController::acro_to_motor_angular_velocity"]}, {"file": "multirotor_simulator/multirotor_dynamic_model/dynamics.hpp", "symbols": ["Dynamics::get_vehicle_angular_velocity_derivative"]}]}
{"id": "C49", "title": "An aligned vehicle realises the demanded acceleration", "statement": "When the thrust axis is aligned with the demanded force, thrust times axis equals mass*(a-g); applied by the dynamics (no drag, noise) the vehicle's acceleration is the demanded acceleration.", "quantifier": "for every demanded acceleration and aligned attitude, every mass > 0 (real arithmetic)", "why_tests_cant": "composition over all inputs. (Second half violated for mass different from 1.)", "anchors": [{"file": "multirotor_simulator/multirotor_controllers/multirotor_controllers.hpp", "symbols": ["Controller::convert_linear_acceleration_to_acro"]}, {"file": "multirotor_simulator/multirotor_dynamic_model/dynamics.hpp", "symbols": ["Dynamics::get_vehicle_linear_velocity_derivative"]}]}
{"id": "C50", "title": "In yaw-rate mode a level vehicle is commanded the requested yaw rate", "statement": "For a level vehicle with vertical thrust demand, the commanded body yaw rate in yaw-rate mode equals the requested yaw rate.", "quantifier": "for every yaw, requested rate and gain", "why_tests_cant": "all rates. (Violated: the command is kp*sin(rate/kp), which saturates at kp and even reverses.)", "anchors": [{"file": "multirotor_simulator/multirotor_controllers/multirotor_controllers.hpp", "symbols": ["Controller::yaw_rate_to_angle"]}, {"file": "multirotor_simulator/multirotor_simulator.hpp", "symbols": ["Simulator::update_yaw_reference_with_yaw_rate"]}, {"file": "multirotor_simulator/multirotor_controllers/controllers/acro_controller.hpp", "symbols": ["AcroController::yaw_angle_to_angular_velocity"]}]}
{"id": "C51", "title": "Resetting the controller forgets all history", "statement": "After Controller::reset_controller the outputs of every later sequence of control calls equal those of a newly constructed controller with the same parameters.", "quantifier": "for every prior history and every later call sequence", "why_tests_cant": "relates two unbounded executions", "anchors": [{"file": "multirotor_simulator/multirotor_controllers/multirotor_controllers.hpp", "symbols": ["Controller::reset_controller"]}, {"file": "pid_controller/include/pid_controller/pid.hpp", "symbols": ["PID::reset_controller"]}]}
{"id": "C52", "title": "Control loops are isolated from each other", "statement": "compute_acro_control touches only the rate loop; acceleration control only acro and rate loops; velocity control does not touch the position and trajectory loops; trajectory control does not touch position and velocity loops.", "quantifier": "for every controller state and input", "why_tests_cant": "frame conditions over all states", "anchors": [{"file": "multirotor_simulator/multirotor_controllers/multirotor_controllers.hpp", "symbols": ["Controller::compute_acro_control", "Controller::compute_acceleration_control", "Controller::compute_trajectory_control", "Controller::compute_velocity_control", "Controller::compute_position_control"]}]}
{"id": "C53", "title": "Position control is the documented cascade", "statement": "The command of compute_position_control equals velocity control of the position PID's output, which equals acceleration control of the velocity PID's output, which equals acro control of the converted thrust and rates; all intermediate desired values reported by the getters are those actually used.", "quantifier": "for every controller state and input", "why_tests_cant": "equalities over all states and inputs", "anchors": [{"file": "multirotor_simulator/multirotor_controllers/multirotor_controllers.hpp", "symbols": ["Controller::compute_position_control", "Controller::compute_velocity_control", "Controller::compute_acceleration_control", "Controller::compute_acro_control"]}]}
{"id": "C54", "title": "Live parameter updates change gains, not memory", "statement": "Controller::update_params leaves every accumulated integral, filter and first-run status as it was, and afterwards all gains and flags equal those of a controller built from the new parameters.", "quantifier": "for every controller state and parameter set", "why_tests_cant": "frame condition over all fields", "anchors": [{"file": "multirotor_simulator/multirotor_controllers/multirotor_controllers.hpp", "symbols": ["Controller::update_params"]}, {"file": "pid_controller/include/pid_controller/pid.hpp", "symbols": ["PID::update_pid_params"]}, {"file": "multirotor_simulator/multirotor_controllers/controllers/acro_controller.hpp", "symbols": ["AcroController::update_params"]}, {"file": "multirotor_simulator/multirotor_controllers/controllers/indi_controller.hpp", "symbols": ["IndiController::update_params"]}]}
{"id": "C55", "title": "An enabled output limit is always respected", "statement": "In every history of calls on a PID, whenever output saturation is reported enabled and proportional mode off, every component of every returned output is neither above its upper nor below its lower limit.", "quantifier": "for every sequence of configuration and control calls, every dimension, every arithmetic (including NaN and rounding)", "why_tests_cant": "all histories of reconfiguration, not one configuration", "anchors": [{"file": "pid_controller/include/pid_controller/pid.hpp", "symbols": ["PID::compute_control", "PID::saturate_output", "PID::set_output_saturation"]}]}
{"id": "C56", "title": "Proportional limiting keeps direction and respects limits", "statement": "With proportional saturation the output is a scalar multiple c in [0,1] of the unsaturated output and lies within the limits, for every enabled pair of limits.", "quantifier": "for every dimension, output and accepted limits", "why_tests_cant": "all vectors and limits. (Violated for limits that do not contain zero; proved when they do.)", "anchors": [{"file": "pid_controller/include/pid_controller/pid.hpp", "symbols": ["PID::saturate_output"]}]}
{"id": "C57", "title": "The integral term is bounded by the anti-windup constant", "statement": "With a positive anti-windup constant on every axis, after every control call the integral contribution on each axis is at most |Ki|*antiwindup in magnitude, for any errors and time steps.", "quantifier": "for every call history (real arithmetic)", "why_tests_cant": "unbounded histories", "anchors": [{"file": "pid_controller/include/pid_controller/pid.hpp", "symbols": ["PID::compute_integral_contribution"]}, {"file": "pid_controller/include/pid_controller/pid_1d.hpp", "symbols": ["PID::compute_integral_contribution"]}]}
{"id": "C58", "title": "Resetting a PID forgets all history", "statement": "After reset_controller every later sequence of control calls returns the same outputs as a newly constructed PID with the same configuration.", "quantifier": "for every prior history, every configuration reached, and every later sequence of calls, every arithmetic", "why_tests_cant": "relates two unbounded executions", "anchors": [{"file": "pid_controller/include/pid_controller/pid.hpp", "symbols": ["PID::reset_controller", "PID::compute_control"]}, {"file": "pid_controller/include/pid_controller/pid_1d.hpp", "symbols": ["PID::reset_controller"]}]}
{"id": "C59", "title": "No derivative kick on the first call", "statement": "On the first control call after construction or reset the derivative contribution is zero for every dt different from 0, whatever happened before.", "quantifier": "for every configuration, error and dt != 0 (real arithmetic)", "why_tests_cant": "all prior states", "anchors": [{"file": "pid_controller/include/pid_controller/pid.hpp", "symbols": ["PID::compute_control", "PID::compute_derivative_contribution_by_deriving"]}, {"file": "pid_controller/include/pid_controller/pid_1d.hpp", "symbols": ["PID::compute_control"]}]}
{"id": "C60", "title": "The PID computes the textbook control law", "statement": "Without limits, after any sequence of calls the output is Kp*e_k + Ki*sum(e_j*dt_j) + Kd*d_k with d_k the exponentially filtered difference quotient.", "quantifier": "for every sequence of errors and time steps, every dimension and gains (real arithmetic)", "why_tests_cant": "closed form for histories of any length", "anchors": [{"file": "pid_controller/include/pid_controller/pid.hpp", "symbols": ["PID::compute_control"]}, {"file": "pid_controller/include/pid_controller/pid_1d.hpp", "symbols": ["PID::compute_control"]}]}
{"id": "C61", "title": "The derivative filter never amplifies", "statement": "With alpha in [0,1] the derivative contribution on each axis is at most |Kd| times the largest magnitude of the raw difference quotients seen since the last reset.", "quantifier": "for every call history (real arithmetic)", "why_tests_cant": "unbounded histories", "anchors": [{"file": "pid_controller/include/pid_controller/pid.hpp", "symbols": ["PID::compute_derivative_contribution_by_deriving"]}]}
{"id": "C62", "title": "Setting output limits succeeds exactly for ordered limits and is otherwise without effect on the limits", "statement": "set_output_saturation enables saturation with exactly the given limits if every axis has upper - lower >= epsilon, and otherwise disables saturation and keeps the previous limits.", "quantifier": "for every PID state and limits", "why_tests_cant": "all inputs. (Second half violated for dimension > 1: rejected limits are stored if an earlier axis was valid; it holds for the 1-D controller.)", "anchors": [{"file": "pid_controller/include/pid_controller/pid.hpp", "symbols": ["PID::set_output_saturation", "PID::get_saturation_limits"]}, {"file": "pid_controller/include/pid_controller/pid_1d.hpp", "symbols": ["PID::set_output_saturation"]}]}
{"id": "C63", "title": "Reading back parameters and re-applying them changes nothing", "statement": "update_pid_params(get_params()) leaves the behaviour of the controller unchanged.", "quantifier": "for every reachable PID state", "why_tests_cant": "all reachable states. (Violated: after disabling saturation the stale limits are reported and re-applying them re-enables saturation.)", "anchors": [{"file": "pid_controller/include/pid_controller/pid.hpp", "symbols": ["PID::get_params", "PID::update_pid_params"]}, {"file": "pid_controller/include/pid_controller/pid_1d.hpp", "symbols": ["PID::get_params", "PID::update_params"]}]}
{"id": "C64", "title": "The reset-integral option acts when the integral is saturated and the error changes sign", "statement": "With reset_integral_flag set, a saturated integral is zeroed when the error has the opposite sign.", "quantifier": "for every call history", "why_tests_cant": "all histories. (Violated: with positive anti-windup the flag has no effect on any output of any history, because the accumulator never exceeds the limit strictly.)", "anchors": [{"file": "pid_controller/include/pid_controller/pid.hpp", "symbols": ["PID::compute_integral_contribution"]}, {"file": "pid_controller/include/pid_controller/pid_1d.hpp", "symbols": ["PID::compute_integral_contribution"]}]}
{"id": "C65", "title": "The vector PID is a bank of independent 1-D PIDs", "statement": "With per-axis limiting, each axis of the vector PID produces the same outputs as the 1-D PID configured with that axis' parameters, for any call history.", "quantifier": "for every dimension, configuration and call history (real arithmetic)", "why_tests_cant": "refinement between two implementations over unbounded histories. (Needs: anti-windup constants all zero or all positive.)", "anchors": [{"file": "pid_controller/include/pid_controller/pid.hpp", "symbols": ["PID::compute_control"]}, {"file": "pid_controller/include/pid_controller/pid_1d.hpp", "symbols": ["PID::compute_control"]}]}
{"id": "C66", "title": "The 1-D PID is free of undefined behaviour", "statement": "No history of calls on the 1-D PID reaches the undefined case of std::clamp (upper limit below lower limit).", "quantifier": "for every call history and every arithmetic", "why_tests_cant": "undefined behaviour may be invisible in tests. (Violated exactly by a negative anti-windup constant; proved otherwise.)", "anchors": [{"file": "pid_controller/include/pid_controller/pid_1d.hpp", "symbols": ["PID::saturate_output", "PID::compute_integral_contribution", "PID::set_output_saturation"]}]}
{"id": "C67", "title": "A zero time step cannot poison a limited PID", "statement": "A control call with dt = 0 returns an output within the enabled limits.", "quantifier": "for every configuration and error, in arithmetic with IEEE infinities and NaN", "why_tests_cant": "NaN propagation through comparisons is not visible in real-number reasoning or ordinary tests. (Violated: the output is NaN.)", "anchors": [{"file": "pid_controller/include/pid_controller/pid.hpp", "symbols": ["PID::compute_control", "PID::saturate_output"]}, {"file": "pid_controller/include/pid_controller/pid_1d.hpp", "symbols": ["PID::compute_control"]}]}
{"id": "C68", "title": "Reported Euler angles describe the orientation", "statement": "For every non-zero quaternion with pitch not at +-90 degrees, the rotation Rz(yaw)Ry(pitch)Rx(roll) built from the reported angles equals the rotation of the quaternion; the angles lie in (-pi,pi], [-pi/2,pi/2], (-pi,pi].", "quantifier": "for every non-zero quaternion (real arithmetic)", "why_tests_cant": "trigonometric identity over a continuum", "anchors": [{"file": "multirotor_simulator/multirotor_dynamic_model/common/state.hpp", "symbols": ["quaternion_to_Euler"]}]}
{"id": "C69", "title": "Every CSV record has the same number of fields", "statement": "The text of a State has exactly 24+2n comma-separated fields and that of the odometry exactly 15, for every state and rotor count, provided numbers print without commas.", "quantifier": "for every n > 0 and state", "why_tests_cant": "all n", "anchors": [{"file": "multirotor_simulator/multirotor_dynamic_model/common/state.hpp", "symbols": ["operator<<"]}, {"file": "multirotor_simulator/imu_simulator/inertial_odometry.hpp", "symbols": ["operator<<"]}]}
{"id": "C70", "title": "Every line of the flight log has the columns of its header", "statement": "Each line that CsvLogger::save writes for a simulator reached by any calls has as many comma-separated fields as the header, in the header's order.", "quantifier": "for every simulator state reachable by public calls and every time", "why_tests_cant": "needs the NaN case of every logged reference and command, which ordinary runs do not produce. (Violated: NaN values are skipped, shifting later columns.)", "anchors": [{"file": "examples/fly_example.cpp", "symbols": ["CsvLogger::save", "CsvLogger::add_double", "CsvLogger::add_vector_row", "CsvLogger::CsvLogger"]}]}
{"id": "C71", "title": "Call histories on an accepted vehicle are free of undefined behaviour", "statement": "A simulator can be constructed from any parameters, and every history of public calls with valid arguments runs to its end without undefined behaviour; the only exceptions are those of dynamics updates with a non-positive period.", "quantifier": "for every parameter set, rotor count and history of public calls (real arithmetic)", "why_tests_cant": "histories of any length and all parameters. (Violated: rejected parameters are ignored silently by the constructor and the first update reads an uninitialised model; proved for accepted parameters.)", "anchors": [{"file": "multirotor_simulator/multirotor_simulator.hpp", "symbols": ["Simulator::Simulator", "Simulator::update_dynamics"]}, {"file": "multirotor_simulator/multirotor_dynamic_model/model.hpp", "symbols": ["Model::update_params", "Model::check_params"]}]}
{"id": "C72", "title": "The example flights complete", "statement": "Every test flight of the examples with accepted parameters, positive step and at least one reference ends after exactly ceil(T/dt) passes, having written one log line per pass plus the initial one; every line records a state reached by updates only, above the floor and with rotors within limits. A non-positive step ends the flight by an exception, an empty list of references is undefined behaviour.", "quantifier": "for all accepted parameters, flights, references, trajectories, durations and step sizes (real arithmetic)", "why_tests_cant": "loops of any length", "anchors": [{"file": "examples/fly_example.cpp", "symbols": ["main", "test_position_controller", "test_velocity_controller", "test_arm"]}, {"file": "examples/trajectory_fly_example/traj_gen_example.cpp", "symbols": ["test_geometric_controller", "test_trajectory_controller_with_takeoff"]}]}
{"id": "C73", "title": "A flight with enough time visits all its references", "statement": "A test flight whose duration is at least one step per reference ends with the last listed reference in force.", "quantifier": "for all reference lists, durations and step sizes (real arithmetic)", "why_tests_cant": "depends on the arithmetic of durations and steps for all values. (Violated: a reference is kept for floor(T/(N dt))+1 steps, so the last ones may never be set; the exact schedule is proved.)", "anchors": [{"file": "examples/fly_example.cpp", "symbols": ["test_position_controller", "test_velocity_controller", "test_position_controller_yaw_rate"]}]}
{"id": "C74", "title": "The time stamps of a flight log are distinct", "statement": "No two lines of the log of a test flight carry the same time.", "quantifier": "for all flights, durations and step sizes (real arithmetic)", "why_tests_cant": "all lengths. (Violated: the first two lines both carry time zero; all later lines are stamped one step before the state they record, which is proved.)", "anchors": [{"file": "examples/fly_example.cpp", "symbols": ["CsvLogger::save", "test_position_controller"]}]}
{"id": "C75", "title": "The controller of the examples knows its vehicle", "statement": "Whatever the configuration file contains, mass, gravity and inertia of the controller are those of the vehicle and its allocation matrix is that of the vehicle's rotors, so commanded thrust and torque are realised exactly.", "quantifier": "for every configuration file (any arithmetic; the wrench over the reals)", "why_tests_cant": "all configuration files", "anchors": [{"file": "examples/fly_example.cpp", "symbols": ["get_simulation_params", "get_simulation_params_from_yaml", "get_simulation_params_from_code"]}, {"file": "examples/trajectory_fly_example/traj_gen_example.cpp", "symbols": ["get_simulation_params"]}]}
{"id": "C76", "title": "The odometry of the examples starts with the state of the vehicle", "statement": "In the simulators that the examples build, the odometry starts with orientation, position and velocity of the vehicle.", "quantifier": "for every configuration file (real arithmetic)", "why_tests_cant": "all configuration files. (Violated: position and velocity start at zero whatever the file says; the orientation agrees.)", "anchors": [{"file": "examples/fly_example.cpp", "symbols": ["get_simulation_params", "get_simulator"]}, {"file": "multirotor_simulator/imu_simulator/inertial_odometry.hpp", "symbols": ["InertialOdometry::reset"]}]}
{"id": "C77", "title": "The sign of an orientation quaternion is unobservable", "statement": "Replacing orientation quaternions by their opposites (initial state, IMU and odometry parameters, arguments of later calls) changes nothing but signs of quaternions: positions, velocities, rotor commands, controller memory, measurements, Euler angles, log text and exceptions are equal at every moment.", "quantifier": "for all simulators and all call histories (real arithmetic)", "why_tests_cant": "relates pairs of runs of any length for every orientation", "anchors": [{"file": "multirotor_simulator/multirotor_simulator.hpp", "symbols": ["Simulator::update_dynamics", "Simulator::update_controller"]}, {"file": "multirotor_simulator/imu_simulator/inertial_odometry.hpp", "symbols": ["InertialOdometry::update"]}, {"file": "multirotor_simulator/imu_simulator/imu.hpp", "symbols": ["IMU::update"]}, {"file": "multirotor_simulator/multirotor_dynamic_model/common/state.hpp", "symbols": ["quaternion_to_Euler"]}]}
{"id": "C78", "title": "The origin of coordinates does not matter", "statement": "Displacing initial position, floor height and position references by the same vector displaces the flight by that vector and changes nothing else: velocities, attitude, controller memory, rotor commands, measurements, odometry and exceptions are equal.", "quantifier": "for all displacements, simulators and call histories (real arithmetic)", "why_tests_cant": "relates pairs of runs of any length for every displacement", "anchors": [{"file": "multirotor_simulator/multirotor_simulator.hpp", "symbols": ["Simulator::update_dynamics", "Simulator::update_controller", "Simulator::set_reference_position", "Simulator::enable_floor_collision"]}]}
{"id": "C79", "title": "Full turns of the yaw reference do not matter", "statement": "Yaw references that differ by whole turns, a different number at each call, give the same history except for the stored reference.", "quantifier": "for all simulators, call histories and numbers of turns (real arithmetic)", "why_tests_cant": "relates pairs of runs of any length for every angle", "anchors": [{"file": "multirotor_simulator/multirotor_simulator.hpp", "symbols": ["Simulator::set_reference_yaw_angle", "Simulator::update_controller"]}, {"file": "multirotor_simulator/multirotor_controllers/controllers/acro_controller.hpp", "symbols": ["AcroController::yaw_angle_to_angular_velocity"]}]}
{"id": "C80", "title": "The flight does not depend on the compass direction", "statement": "Turning the vehicle (position, velocity, orientation) and the external forces about the vertical turns the flight.", "quantifier": "for all vehicles with vertical gravity, all angles and all sequences of noise-free updates (real arithmetic)", "why_tests_cant": "relates pairs of runs of any length for every angle. (Violated: drag is squared component by component along the world axes, so it is weaker in diagonal flight; proved for every angle without drag and for quarter turns with drag.)", "anchors": [{"file": "multirotor_simulator/multirotor_dynamic_model/dynamics.hpp", "symbols": ["Dynamics::process_euler_explicit"]}, {"file": "multirotor_simulator/multirotor_dynamic_model/model.hpp", "symbols": ["Model::get_drag_force", "Model::get_force_vector_thrust_by_motors"]}]}
{"id": "C81", "title": "The acro controller reports the demand it computed", "statement": "After converting an acceleration, the acro controller reports exactly the thrust and body rates it returned, whatever was called before.", "quantifier": "for all controller parameters, call histories and accelerations", "why_tests_cant": "all call histories. (Violated: the reported thrust is always 0 because a local variable shadows the member; rates, and all reports of the other controllers, are proved in any arithmetic.)", "anchors": [{"file": "multirotor_simulator/multirotor_controllers/controllers/acro_controller.hpp", "symbols": ["AcroController::acceleration_to_thrust", "AcroController::yaw_angle_to_angular_velocity", "AcroController::get_desired_thrust", "AcroController::get_desired_angular_velocity"]}, {"file": "multirotor_simulator/multirotor_controllers/multirotor_controllers.hpp", "symbols": ["Controller::convert_linear_acceleration_to_acro"]}]}
{"id": "C82", "title": "A vehicle leaves the floor exactly when its thrust exceeds its weight", "statement": "From rest on the floor, two updates with any commands in between end above the floor exactly if the vertical thrust exceeds mass times gravity; otherwise the vehicle stays on the floor.", "quantifier": "for all vehicles, attitudes, rotor speeds, periods up to 10 ms and commands (real arithmetic)", "why_tests_cant": "a threshold over all masses, thrusts and attitudes. (Violated: gravity is added without the factor mass, so the threshold is the number g; the exact height after two updates is proved.)", "anchors": [{"file": "multirotor_simulator/multirotor_simulator.hpp", "symbols": ["Simulator::update_dynamics"]}, {"file": "multirotor_simulator/multirotor_dynamic_model/dynamics.hpp", "symbols": ["Dynamics::process_euler_explicit"]}]}
{"id": "C83", "title": "Rotors run out after disarming", "statement": "After disarm, whatever is called except arming or replacing the dynamics, the speed of each rotor decays at least as fast as exp(-t/tau) in the simulated time.", "quantifier": "for all vehicles with time constants of at least 10 ms and all call histories (real arithmetic)", "why_tests_cant": "histories of any length, exceptions, sub-steps and floor contacts included. (Violated: a rotor with a positive minimum speed never stops; decay towards the admissible speed nearest to zero is proved.)", "anchors": [{"file": "multirotor_simulator/multirotor_simulator.hpp", "symbols": ["Simulator::disarm", "Simulator::update_dynamics", "Simulator::update_controller"]}, {"file": "multirotor_simulator/multirotor_dynamic_model/dynamics.hpp", "symbols": ["Dynamics::process_euler_explicit", "Dynamics::clamp_motors_angular_velocity"]}]}
{"id": "C84", "title": "Rotation about a fixed axis turns through rate times time", "statement": "A vehicle that rotates about a body-fixed axis, and the odometry fed with such gyro samples, turns through the sum of rate times period.", "quantifier": "for all axes, sequences of rates and periods (real arithmetic)", "why_tests_cant": "sequences of any length. (Violated: a step turns through 2 atan(rate*dt/2); this exact angle and a cubic error bound are proved.)", "anchors": [{"file": "multirotor_simulator/multirotor_dynamic_model/dynamics.hpp", "symbols": ["Dynamics::process_euler_explicit"]}, {"file": "multirotor_simulator/multirotor_dynamic_model/common/utils.hpp", "symbols": ["get_quaternion_integrate"]}, {"file": "multirotor_simulator/imu_simulator/inertial_odometry.hpp", "symbols": ["InertialOdometry::update"]}]}
{"id": "C85", "title": "Free rotation conserves energy", "statement": "Without torques the kinetic energy of the rotation stays constant.", "quantifier": "for all inertias, angular velocities and sequences of periods (real arithmetic)", "why_tests_cant": "sequences of any length. (Violated: the explicit Euler method adds dt^2/2 a.Ja in each step; exact increment, monotonicity and the case of equality are proved.)", "anchors": [{"file": "multirotor_simulator/multirotor_dynamic_model/dynamics.hpp", "symbols": ["Dynamics::process_euler_explicit"]}]}
{"id": "C86", "title": "Free motion follows a parabola", "statement": "Without thrust, drag, noise and external force the vehicle follows the parabola given by its velocity and its constant acceleration.", "quantifier": "for all vehicles, initial states and sequences of periods (real arithmetic)", "why_tests_cant": "sequences of any length. (Violated: the position lags by half the sum of the squared periods times the acceleration; velocity and acceleration are exact, lag and bound are proved.)", "anchors": [{"file": "multirotor_simulator/multirotor_dynamic_model/dynamics.hpp", "symbols": ["Dynamics::process_euler_explicit"]}]}
{"id": "C87", "title": "Finite numbers stay finite", "statement": "A simulator built from finite parameters holds only finite numbers after every sequence of calls with finite arguments: no NaN or infinity arises.", "quantifier": "for all vehicles, parameters, histories of any length and arguments (real arithmetic with IEEE NaN and infinities)", "why_tests_cant": "histories of any length through all components. (Violated: a controller update with period zero leaves NaN; proved for proper parameters and non-zero controller periods, where every history is the one of exact real arithmetic.)", "anchors": [{"file": "multirotor_simulator/multirotor_simulator.hpp", "symbols": ["Simulator::update_dynamics", "Simulator::update_controller", "Simulator::update_imu", "Simulator::update_inertial_odometry"]}, {"file": "pid_controller/include/pid_controller/pid.hpp", "symbols": ["PID::compute_control"]}]}
{"id": "C88", "title": "A period that is not a positive finite number is rejected", "statement": "update_dynamics throws whenever its period is zero, negative, infinite or NaN.", "quantifier": "for all simulators, histories and periods (real arithmetic with IEEE NaN and infinities)", "why_tests_cant": "special values and what they do to all later calls. (Violated: NaN is accepted and destroys the state for ever, plus infinity overflows the step counter; all other values are rejected.)", "anchors": [{"file": "multirotor_simulator/multirotor_simulator.hpp", "symbols": ["Simulator::update_dynamics"]}, {"file": "multirotor_simulator/multirotor_dynamic_model/dynamics.hpp", "symbols": ["Dynamics::process_euler_explicit"]}]}
{"id": "C89", "title": "Vehicle and sensor noise are different random numbers", "statement": "No random number is used both for the disturbance of the vehicle and for the errors of the IMU.", "quantifier": "for all parameters, seeds, random sources and histories without a floor (sensor part) or of any kind (flight part)", "why_tests_cant": "dependence of whole executions on a random source. (Violated: the dynamics and the IMU have the same default seed and then draw the same numbers, so the first disturbance force is the initial gyroscope bias up to a factor; proved for different seeds.)", "anchors": [{"file": "multirotor_simulator/multirotor_dynamic_model/dynamics.hpp", "symbols": ["DynamicsParams"]}, {"file": "multirotor_simulator/imu_simulator/imu.hpp", "symbols": ["IMUParams", "IMU::update"]}, {"file": "multirotor_simulator/multirotor_dynamic_model/model.hpp", "symbols": ["Model::set_stochastic_noise"]}, {"file": "multirotor_simulator/multirotor_simulator.hpp", "symbols": ["Simulator::update_dynamics", "Simulator::update_imu"]}]}
{"id": "C90", "title": "A long update is a sequence of short ones", "statement": "update_dynamics(k*0.01) leaves the simulator exactly as k calls of update_dynamics(0.01) do, noise and generator included.", "quantifier": "for all histories of calls and all step counts up to the range of int (real arithmetic)", "why_tests_cant": "relates two executions of different length from every reachable state. (Violated: with a floor enabled the long update looks for contact only at its end; proved for all histories without a floor.)", "anchors": [{"file": "multirotor_simulator/multirotor_simulator.hpp", "symbols": ["Simulator::update_dynamics"]}, {"file": "multirotor_simulator/multirotor_dynamic_model/dynamics.hpp", "symbols": ["Dynamics::process_euler_explicit"]}]}
{"id": "C91", "title": "A coasting vehicle slows down and never reverses", "statement": "With stopped rotors and no external force, the speed along an axis without gravity never grows and never changes sign.", "quantifier": "for all parameters with drag at least zero, speeds and step sequences up to 0.01 s", "why_tests_cant": "needs a bound that stays valid over arbitrarily many steps of the explicit integrator. (Violated at very high speed: one step of drag can throw the vehicle back faster than it came; proved while c|v|dt <= m at the start, with the bound |v0|/(1+(c/m)|v0|T).)", "anchors": [{"file": "multirotor_simulator/multirotor_dynamic_model/dynamics.hpp", "symbols": ["Dynamics::process_euler_explicit"]}, {"file": "multirotor_simulator/multirotor_dynamic_model/model.hpp", "symbols": ["Model::get_drag_force"]}]}
{"id": "C92", "title": "A dropped vehicle approaches its terminal velocity", "statement": "A vehicle dropped from rest falls ever faster, never exceeds the speed at which drag and weight balance and converges to it.", "quantifier": "for all parameters with positive drag and gravity, and all step sequences up to 0.01 s", "why_tests_cant": "a limit over infinitely many steps. (Violated: the final speed does not depend on the mass, and long steps overshoot; proved with the final speed sqrt(g/c) for steps short against the time in which drag acts, with a geometric error bound.)", "anchors": [{"file": "multirotor_simulator/multirotor_dynamic_model/dynamics.hpp", "symbols": ["Dynamics::process_euler_explicit"]}, {"file": "multirotor_simulator/multirotor_dynamic_model/model.hpp", "symbols": ["Model::get_drag_force"]}, {"file": "multirotor_simulator/multirotor_dynamic_model/model.hpp", "symbols": ["Model::get_gravity"]}]}
{"id": "C93", "title": "Accelerometer errors grow at most linearly in velocity and quadratically in position", "statement": "Two odometries with the same past and the same gyroscope samples, whose accelerometer samples differ by at most e, keep equal orientations; after time T their velocities differ by at most e*T and their positions by at most e*(T^2+sum dt^2)/2.", "quantifier": "for all pasts, all sample sequences, all non-negative periods, all filter constants in (0,1]", "why_tests_cant": "a bound relating two executions of arbitrary length", "anchors": [{"file": "multirotor_simulator/imu_simulator/inertial_odometry.hpp", "symbols": ["InertialOdometry::update"]}, {"file": "multirotor_simulator/imu_simulator/inertial_odometry.hpp", "symbols": ["InertialOdometry::integrate_measurement"]}, {"file": "multirotor_simulator/imu_simulator/inertial_odometry.hpp", "symbols": ["InertialOdometry::filter_measurement"]}]}
{"id": "C94", "title": "Gyroscope errors turn the orientation at most by rate error times time", "statement": "Two odometries with the same past whose gyroscope samples differ by at most e report rates that differ by at most e, and after time T orientations that take no vector v to places farther apart than e*T*|v|, whatever the rotation and the accelerations.", "quantifier": "for all pasts, all sample sequences, all non-negative periods, all filter constants in (0,1], all vectors", "why_tests_cant": "a bound relating two executions of arbitrary length through a nonlinear, renormalising integrator", "anchors": [{"file": "multirotor_simulator/imu_simulator/inertial_odometry.hpp", "symbols": ["InertialOdometry::update"]}, {"file": "multirotor_simulator/imu_simulator/inertial_odometry.hpp", "symbols": ["InertialOdometry::integrate_measurement"]}, {"file": "multirotor_simulator/imu_simulator/inertial_odometry.hpp", "symbols": ["InertialOdometry::get_quaternion_integrate"]}]}
{"id": "C95", "title": "Refining the update period converges to the solution of the equations of motion", "statement": "For every solution of the equations of motion on [0,T] (forces and torques as the code adds them up, see C18: gravity without the factor mass, drag per axis of the earth frame, first-order rotors, constant rotor command and constant external force) that starts with rotor speeds within their limits there are constants C and h0 such that every noise-free simulation from the same state with period h<=h0 stays within C*h of the solution in position, velocity, orientation, angular velocity and rotor speeds at all times k*h<=T.", "quantifier": "for all airframes with regular parameters and any number of rotors, all solutions, all horizons, all small enough periods", "why_tests_cant": "a limit statement over all step sizes and all trajectories; needs an error analysis, not a simulation", "anchors": [{"file": "multirotor_simulator/multirotor_dynamic_model/dynamics.hpp", "symbols": ["Dynamics::process_euler_explicit"]}, {"file": "multirotor_simulator/multirotor_dynamic_model/model.hpp", "symbols": ["Model::get_force_vector_thrust_by_motors", "Model::get_drag_force"]}, {"file": "multirotor_simulator/multirotor_dynamic_model/common/utils.hpp", "symbols": ["get_quaternion_integrate"]}]}
{"id": "C96", "title": "The 1-D PID follows the textbook law", "statement": "The k-th output of a new 1-D PID is Kp*e_k + Ki*I_k + Kd*D_k brought into the accepted limits, where I is the sum of e*dt with anti-windup and D the low-pass filtered difference quotient, starting from zero.", "quantifier": "for all configurations with anti-windup >= 0, all sequences of errors and non-zero periods of any length (real arithmetic)", "why_tests_cant": "sequences of any length; closed form over a continuum of inputs", "anchors": [{"file": "pid_controller/include/pid_controller/pid_1d.hpp", "symbols": ["PID::compute_control"]}, {"file": "pid_controller/include/pid_controller/pid_1d.hpp", "symbols": ["PID::compute_integral_contribution"]}, {"file": "pid_controller/include/pid_controller/pid_1d.hpp", "symbols": ["PID::compute_derivative_contribution_by_deriving"]}, {"file": "pid_controller/include/pid_controller/pid_1d.hpp", "symbols": ["PID::PID"]}]}
{"id": "C97", "title": "The limits in force are those of the last call about limits", "statement": "After any history the output of a control call is the sum of its three contributions brought into the limits that were given last, if these were ordered; a rejected request or disable_output_saturation switches limiting off until the next accepted request. The constructor counts as the first request.", "quantifier": "for every history of public calls on the 1-D PID, and on the vector PID of any dimension with per-axis limiting (real arithmetic)", "why_tests_cant": "interleavings of configuration and control calls of any length", "anchors": [{"file": "pid_controller/include/pid_controller/pid_1d.hpp", "symbols": ["PID::set_output_saturation"]}, {"file": "pid_controller/include/pid_controller/pid_1d.hpp", "symbols": ["PID::disable_output_saturation"]}, {"file": "pid_controller/include/pid_controller/pid_1d.hpp", "symbols": ["PID::compute_control"]}, {"file": "pid_controller/include/pid_controller/pid.hpp", "symbols": ["PID::set_output_saturation"]}, {"file": "pid_controller/include/pid_controller/pid.hpp", "symbols": ["PID::disable_output_saturation"]}, {"file": "pid_controller/include/pid_controller/pid.hpp", "symbols": ["PID::saturate_output"]}]}
{"id": "C98", "title": "Resetting the 1-D PID erases the past", "statement": "After reset_controller every later sequence of calls returns the values that a new 1-D PID with the same configuration calls would return; the first control call after a reset has no derivative contribution.", "quantifier": "for every history before and every sequence of calls after the reset (any arithmetic; the derivative part over the reals)", "why_tests_cant": "non-interference over all pairs of histories", "anchors": [{"file": "pid_controller/include/pid_controller/pid_1d.hpp", "symbols": ["PID::reset_controller"]}, {"file": "pid_controller/include/pid_controller/pid_1d.hpp", "symbols": ["PID::compute_control"]}, {"file": "pid_controller/include/pid_controller/pid_1d.hpp", "symbols": ["PID::update_params"]}]}
{"id": "C99", "title": "get_params reports what was written last", "statement": "After any history get_params returns each gain, constant and flag as carried by the last call that sets it, and the limits of the last accepted request; control calls, resets and disable_output_saturation change none of them. In the vector PID limits are stored as soon as the first axis is valid, and the proportional flag of a rejected request is dropped.", "quantifier": "for every history of public calls on the 1-D PID and on the vector PID of any dimension (real arithmetic)", "why_tests_cant": "all histories", "anchors": [{"file": "pid_controller/include/pid_controller/pid_1d.hpp", "symbols": ["PID::get_params"]}, {"file": "pid_controller/include/pid_controller/pid_1d.hpp", "symbols": ["PID::update_params"]}, {"file": "pid_controller/include/pid_controller/pid_1d.hpp", "symbols": ["PID::set_output_saturation"]}, {"file": "pid_controller/include/pid_controller/pid.hpp", "symbols": ["PID::get_params"]}, {"file": "pid_controller/include/pid_controller/pid.hpp", "symbols": ["PID::update_pid_params"]}, {"file": "pid_controller/include/pid_controller/pid.hpp", "symbols": ["PID::set_output_saturation"]}]}
{"id": "C100", "title": "Rounding errors do not accumulate in the orientation", "statement": "In arithmetic that rounds every operation with relative error at most u <= 1/128, in any summation order, the squared length of the vehicle orientation is within 16u of one after the first successful update and for ever after; the same holds for the orientation estimate of the inertial odometry.", "quantifier": "for every rounding function, every non-zero initial quaternion, every model, every sequence of time steps, commands and noise samples of any length", "why_tests_cant": "all histories of any length, for every rounding mode and summation order at once; long-run drift cannot be excluded by finite runs", "anchors": [{"file": "multirotor_simulator/multirotor_dynamic_model/dynamics.hpp", "symbols": ["Dynamics::process_euler_explicit"]}, {"file": "multirotor_simulator/multirotor_dynamic_model/common/utils.hpp", "symbols": ["get_quaternion_derivative", "get_quaternion_integrate"]}, {"file": "multirotor_simulator/imu_simulator/inertial_odometry.hpp", "symbols": ["InertialOdometry::get_quaternion_integrate"]}]}
{"id": "C101", "title": "The numbering of the rotors does not matter", "statement": "Renumbering the rotors of a vehicle, together with the rows of the allocation matrix and the rotor references, renumbers rotor speeds and rotor commands and changes nothing else: trajectory, attitude, forces, controller memory, measurements, odometry, noise and exceptions are the same. The allocation matrix computed for the renumbered vehicle is the renumbered allocation matrix.", "quantifier": "for every permutation, every number of rotors, every history of public calls (real arithmetic); the allocation part for four rotors", "why_tests_cant": "all permutations and all histories; a wrong index in one of five per-rotor tables shows only for particular numberings", "anchors": [{"file": "multirotor_simulator/multirotor_dynamic_model/model.hpp", "symbols": ["Model::compute_mixer_matrix_6D"]}, {"file": "multirotor_simulator/multirotor_dynamic_model/model.hpp", "symbols": ["Model::compute_mixer_inertia_matrix"]}, {"file": "multirotor_simulator/multirotor_dynamic_model/dynamics.hpp", "symbols": ["Dynamics::process_euler_explicit"]}, {"file": "multirotor_simulator/multirotor_dynamic_model/dynamics.hpp", "symbols": ["clamp_motors_angular_velocity"]}, {"file": "multirotor_simulator/multirotor_controllers/controllers/indi_controller.hpp", "symbols": ["IndiController::acro_to_motor_angular_velocity"]}, {"file": "multirotor_simulator/multirotor_simulator.hpp", "symbols": ["Simulator::update_controller"]}]}
{"id": "C102", "title": "The flight computed in rounded arithmetic stays near the equations of motion", "statement": "For every solution of the equations of motion (those of C95) under a constant command and a constant external force there is a constant C such that the flight computed with period h in an arithmetic with relative rounding errors u stays within C (h + u / h) of it, in position, velocity, orientation, angular velocity and rotor speeds, provided C (h + u / h) is at most 1. The constant depends neither on the period nor on the arithmetic.", "quantifier": "for every vehicle, motion, period, rounding mode, precision and summation order (noise off)", "why_tests_cant": "the trade-off between truncation error and accumulated rounding error concerns all periods and all precisions at once; a test compares one run with one tolerance", "anchors": [{"file": "multirotor_simulator/multirotor_dynamic_model/dynamics.hpp", "symbols": ["Dynamics::process_euler_explicit"]}, {"file": "multirotor_simulator/multirotor_dynamic_model/dynamics.hpp", "symbols": ["Dynamics::get_vehicle_angular_velocity_derivative"]}, {"file": "multirotor_simulator/multirotor_dynamic_model/dynamics.hpp", "symbols": ["Dynamics::get_vehicle_linear_velocity_derivative"]}, {"file": "multirotor_simulator/multirotor_dynamic_model/model.hpp", "symbols": ["Model::get_torque_by_motors"]}, {"file": "multirotor_simulator/multirotor_dynamic_model/common/utils.hpp", "symbols": ["get_quaternion_derivative"]}, {"file": "multirotor_simulator/multirotor_dynamic_model/common/utils.hpp", "symbols": ["squared_keep_sign"]}]}
{"id": "C103", "title": "The PID treats both directions of an axis alike", "statement": "Reverse any choice of axes of a PID: negate the errors and error rates on these axes and exchange and negate their limits. Then the outputs on these axes are negated and the others unchanged, in every history of calls, provided the anti-windup constants are not negative.", "quantifier": "for every number of axes, choice of reversed axes, parameters, and history of public calls with any periods and errors", "why_tests_cant": "symmetry of the whole state machine (integral, anti-windup, reset, filter, saturation) over unbounded histories; a test tries one error and its negative", "anchors": [{"file": "pid_controller/include/pid_controller/pid.hpp", "symbols": ["PID::compute_control"]}, {"file": "pid_controller/include/pid_controller/pid.hpp", "symbols": ["PID::compute_integral_contribution"]}, {"file": "pid_controller/include/pid_controller/pid.hpp", "symbols": ["PID::compute_derivative_contribution_by_deriving"]}, {"file": "pid_controller/include/pid_controller/pid.hpp", "symbols": ["PID::saturate_output"]}, {"file": "pid_controller/include/pid_controller/pid.hpp", "symbols": ["PID::set_output_saturation"]}, {"file": "pid_controller/include/pid_controller/pid.hpp", "symbols": ["PID::update_pid_params"]}]}
{"id": "C104", "title": "Mirror-image flights", "statement": "Exchange left and right: mirror the vehicle (positions, axes and sense of rotation of the rotors, inertia), its state, the controller and the sensors, and give mirrored references (yaw and yaw rate negated). Then every history of calls without random disturbances and without integral reset has the mirrored history: the same exceptions, mirrored motion, measurements, odometry and controller memory, and the same rotor commands. A vehicle that is its own mirror image up to an exchange of rotors, such as the cross-shaped quadrotor, flies left exactly as it flies right.", "quantifier": "for every vehicle, controller, state and history of public calls (noise variances zero, reset option off)", "why_tests_cant": "a sign error in any one term of attitude control, allocation, dynamics or odometry breaks the symmetry only on some trajectories; tests compare single flights with tolerances", "anchors": [{"file": "multirotor_simulator/multirotor_simulator.hpp", "symbols": ["Simulator::update_controller"]}, {"file": "multirotor_simulator/multirotor_simulator.hpp", "symbols": ["Simulator::update_dynamics"]}, {"file": "multirotor_simulator/multirotor_dynamic_model/dynamics.hpp", "symbols": ["Dynamics::process_euler_explicit"]}, {"file": "multirotor_simulator/multirotor_dynamic_model/model.hpp", "symbols": ["Model::compute_mixer_matrix_6D"]}, {"file": "multirotor_simulator/multirotor_dynamic_model/model.hpp", "symbols": ["Model::compute_mixer_inertia_matrix"]}, {"file": "multirotor_simulator/multirotor_controllers/controllers/acro_controller.hpp", "symbols": ["AcroController::yaw_angle_to_angular_velocity"]}, {"file": "multirotor_simulator/multirotor_controllers/controllers/indi_controller.hpp", "symbols": ["IndiController::acro_to_motor_angular_velocity"]}, {"file": "multirotor_simulator/imu_simulator/inertial_odometry.hpp", "symbols": ["InertialOdometry::update"]}, {"file": "multirotor_simulator/imu_simulator/imu.hpp", "symbols": ["IMU::update"]}]}
{"id": "C105", "title": "An example flight makes exactly the scheduled calls", "statement": "Every test flight of the example programs consists of a fixed sequence of public calls: mode and first references, then in every pass the planned reference (trajectory flights), the updates of controller, dynamics, IMU and odometry in this order, and the change of reference that is due. The k-th log line records the simulator after exactly these calls; the trajectory program climbs three metres above the initial position at 1 m/s and then flies the course of the configuration file at its speed.", "quantifier": "for every accepted configuration, flight, duration, positive step, trajectory generator and number of passes", "why_tests_cant": "the schedule depends on accumulated floating-point time and on the number of references; tests run one configuration and look at the end of the log", "anchors": [{"file": "examples/fly_example.cpp", "symbols": ["test_position_controller"]}, {"file": "examples/fly_example.cpp", "symbols": ["test_velocity_controller"]}, {"file": "examples/fly_example.cpp", "symbols": ["test_indi_controller"]}, {"file": "examples/trajectory_fly_example/traj_gen_example.cpp", "symbols": ["test_geometric_controller"]}, {"file": "examples/trajectory_fly_example/traj_gen_example.cpp", "symbols": ["test_trajectory_controller_with_takeoff"]}, {"file": "examples/trajectory_fly_example/traj_gen_example.cpp", "symbols": ["main"]}]}
{"id": "C106", "title": "A trajectory flight pursues its plan", "statement": "In a flight along a trajectory, the reference in force in a pass is the position, velocity and acceleration planned for the time at which the pass begins: first the take-off, then, with time counted from its end, the course. After the end of the plan the last planned motion stays in force; a flight with an empty plan keeps the state in which it found the vehicle.", "quantifier": "for every accepted configuration, trajectory generator, duration and positive step, for every pass", "why_tests_cant": "the hand-over from take-off to course and the end of the plan fall between sampling instants that depend on step and generator", "anchors": [{"file": "examples/trajectory_fly_example/traj_gen_example.cpp", "symbols": ["test_geometric_controller"]}, {"file": "examples/trajectory_fly_example/traj_gen_example.cpp", "symbols": ["test_trajectory_controller_with_takeoff"]}, {"file": "multirotor_simulator/multirotor_simulator.hpp", "symbols": ["Simulator::set_reference_trajectory"]}]}
{"id": "C107", "title": "A trajectory flight keeps the heading of the vehicle", "statement": "Along a planned trajectory the yaw reference is the heading the vehicle had before the flight.", "quantifier": "for every accepted configuration, initial orientation, trajectory generator, duration and positive step", "why_tests_cant": "the wrong yaw reference appears only after the take-off and only for a vehicle that started with another heading", "anchors": [{"file": "examples/trajectory_fly_example/traj_gen_example.cpp", "symbols": ["test_geometric_controller"]}, {"file": "examples/trajectory_fly_example/traj_gen_example.cpp", "symbols": ["test_trajectory_controller_with_takeoff"]}, {"file": "multirotor_simulator/multirotor_simulator.hpp", "symbols": ["Simulator::set_reference_yaw_angle"]}]}
{"id": "C108", "title": "Every entry of the configuration file reaches the parameter it names", "statement": "The parameters read from a configuration file are, entry by entry, those the keys name: state, model, rotors (the same for all four, in the four quadrants at the given distances), gains, limits (symmetric), noise and filter constants. Reading succeeds exactly if all these entries are present, and no other entry has any influence.", "quantifier": "for every configuration file, both example programs, any arithmetic", "why_tests_cant": "a swapped or misspelt key shows only for files in which the two entries differ; the shipped file has equal values in many places", "anchors": [{"file": "examples/fly_example.cpp", "symbols": ["get_simulation_params_from_yaml"]}, {"file": "examples/trajectory_fly_example/traj_gen_example.cpp", "symbols": ["get_simulation_params_from_yaml"]}]}
{"id": "C109", "title": "The shipped configuration file is sound", "statement": "The configuration file shipped with the examples is accepted by both programs and describes the built-in vehicle, attitude and rate controller. With it the first example flies sixty seconds, ends normally with 60 001 lines and flies to all nine positions in order; the trajectory example climbs to three metres and flies through the five waypoints.", "quantifier": "for every sequence of random numbers, number format and trajectory generator", "why_tests_cant": "the flights take 60 000 passes with process and sensor noise; a test sees one noise sequence", "anchors": [{"file": "examples/fly_example.cpp", "symbols": ["main"]}, {"file": "examples/fly_example.cpp", "symbols": ["get_simulation_params_from_yaml"]}, {"file": "examples/fly_example.cpp", "symbols": ["get_simulation_params_from_code"]}, {"file": "examples/trajectory_fly_example/traj_gen_example.cpp", "symbols": ["main"]}]}
{"id": "C110", "title": "A change of mode or a new arming starts the control loops afresh", "statement": "Two simulators of the same make that have just entered the same mode (or have just been disarmed and armed again) and agree in vehicle state, mode, references and last command, but not in their past, fly alike from then on.", "quantifier": "for all pairs of call histories and all later calls", "why_tests_cant": "integrals and filtered derivatives left over from an earlier mode show only in flights that switch modes with a wound-up loop; a test compares no two pasts", "anchors": [{"file": "multirotor_simulator/multirotor_simulator.hpp", "symbols": ["set_control_mode"]}, {"file": "multirotor_simulator/multirotor_simulator.hpp", "symbols": ["arm"]}, {"file": "multirotor_simulator/multirotor_simulator.hpp", "symbols": ["disarm"]}, {"file": "multirotor_simulator/multirotor_simulator.hpp", "symbols": ["update_controller"]}, {"file": "multirotor_simulator/multirotor_controllers/multirotor_controllers.hpp", "symbols": ["reset_controller"]}, {"file": "pid_controller/include/pid_controller/pid.hpp", "symbols": ["reset_controller"]}, {"file": "pid_controller/include/pid_controller/pid.hpp", "symbols": ["compute_control"]}]}
{"id": "C111", "title": "The attitude loop converges in discrete time", "statement": "A vehicle that turns at the body rates commanded by the attitude law converges to the demanded attitude from every attitude that is not exactly half a turn away, at an explicit geometric rate, provided the largest gain times the integration step is below two; with equal gains the error after a step is an explicit function of the error before, and it shrinks exactly if gain times step times the cosine of the error angle is below two.", "quantifier": "for all gain matrices, demands, initial attitudes, steps up to 0.01 s and all histories", "why_tests_cant": "convergence is a statement about infinitely many steps from every attitude; a finite flight from one attitude cannot show the stability limit of the step size", "anchors": [{"file": "multirotor_simulator/multirotor_controllers/controllers/acro_controller.hpp", "symbols": ["yaw_angle_to_angular_velocity"]}, {"file": "multirotor_simulator/multirotor_dynamic_model/common/utils.hpp", "symbols": ["get_quaternion_integrate"]}, {"file": "multirotor_simulator/multirotor_dynamic_model/dynamics.hpp", "symbols": ["process_euler_explicit"]}]}
{"id": "C112", "title": "The IMU measures according to the settings in force", "statement": "After any history of calls the noise variances, bias walk intensities and random stream are those set last; the biases are the ones put in place last (construction, set_bias, reset) plus one random-walk step per later measurement with the intensity in force at that measurement; the readings are those of the last measurement, with mounting, bias and variance of that moment, and zero before the first one and after a reset.", "quantifier": "for all constructor parameters and all histories of public calls", "why_tests_cant": "the setters are independent registers read at different times; an error in one of them shows only in particular orders of calls and only in the statistics of random numbers", "anchors": [{"file": "multirotor_simulator/imu_simulator/imu.hpp", "symbols": ["set_noise_variances"]}, {"file": "multirotor_simulator/imu_simulator/imu.hpp", "symbols": ["set_bias_autocorrelation_time"]}, {"file": "multirotor_simulator/imu_simulator/imu.hpp", "symbols": ["set_bias"]}, {"file": "multirotor_simulator/imu_simulator/imu.hpp", "symbols": ["set_random_seed"]}, {"file": "multirotor_simulator/imu_simulator/imu.hpp", "symbols": ["set_orientation"]}, {"file": "multirotor_simulator/imu_simulator/imu.hpp", "symbols": ["reset"]}, {"file": "multirotor_simulator/imu_simulator/imu.hpp", "symbols": ["update"]}, {"file": "multirotor_simulator/imu_simulator/imu.hpp", "symbols": ["process_bias"]}, {"file": "multirotor_simulator/imu_simulator/imu.hpp", "symbols": ["process_measurement"]}]}
{"id": "C113", "title": "Angular momentum of body and rotors is balanced", "statement": "In every noise-free step the rate of change of the angular momentum of the whole vehicle (body and spinning rotors), written in the turning body frame, equals the torque of the air; in particular, without resistance of the air the body turns against the rotors it spins up so that the momentum about the vertical body axis is conserved.", "quantifier": "for all vehicles with invertible inertia, all states, commands and sequences of steps", "why_tests_cant": "a missing gyroscopic torque only bends the attitude slightly when rotor speeds are unequal during a fast roll or pitch; no plausibility test of a flight reveals it", "anchors": [{"file": "multirotor_simulator/multirotor_dynamic_model/model.hpp", "symbols": ["compute_mixer_inertia_matrix"]}, {"file": "multirotor_simulator/multirotor_dynamic_model/model.hpp", "symbols": ["get_torque_by_motors"]}, {"file": "multirotor_simulator/multirotor_dynamic_model/dynamics.hpp", "symbols": ["get_vehicle_angular_velocity_derivative"]}, {"file": "multirotor_simulator/multirotor_dynamic_model/dynamics.hpp", "symbols": ["process_euler_explicit"]}]}
{"id": "C114", "title": "A vehicle at rest in position hold is at its reference", "statement": "If one cycle of controller and dynamics leaves an armed quadrotor in position hold unmoved, it is at its position reference, level and pointing along its heading reference.", "quantifier": "for all quadrotors, states, references, proportional gains and masses; for integral action, all integrator states inside their limits", "why_tests_cant": "the resting height depends on mass and gains; tests fly one vehicle and accept a height within a tolerance", "anchors": [{"file": "multirotor_simulator/multirotor_simulator.hpp", "symbols": ["update_controller"]}, {"file": "multirotor_simulator/multirotor_simulator.hpp", "symbols": ["update_dynamics"]}, {"file": "multirotor_simulator/multirotor_controllers/multirotor_controllers.hpp", "symbols": ["compute_position_control"]}, {"file": "multirotor_simulator/multirotor_controllers/multirotor_controllers.hpp", "symbols": ["compute_acceleration_control"]}, {"file": "multirotor_simulator/multirotor_dynamic_model/dynamics.hpp", "symbols": ["get_vehicle_linear_velocity_derivative"]}, {"file": "pid_controller/include/pid_controller/pid.hpp", "symbols": ["compute_integral_contribution"]}]}
{"id": "C115", "title": "The units of length and mass do not matter", "statement": "Express vehicle, state, gains, limits, sensors and references in other units of length and mass. Then every history of calls, seen in the new units, is the same history: the same exceptions, the same rotor commands, the same rotation, and positions, velocities, forces, torques, measurements and odometry converted.", "quantifier": "for all positive unit factors, vehicles, controllers, states and histories of public calls", "why_tests_cant": "a constant or a term with the wrong dimension is invisible as long as all flights are described in metres and kilograms with a vehicle of about one kilogram", "anchors": [{"file": "multirotor_simulator/multirotor_simulator.hpp", "symbols": ["arm", "update_imu", "update_controller", "update_dynamics"]}, {"file": "multirotor_simulator/multirotor_dynamic_model/dynamics.hpp", "symbols": ["get_vehicle_linear_velocity_derivative", "process_euler_explicit"]}, {"file": "multirotor_simulator/multirotor_dynamic_model/model.hpp", "symbols": ["compute_mixer_matrix_6D"]}, {"file": "pid_controller/include/pid_controller/pid.hpp", "symbols": ["set_output_saturation", "compute_control"]}, {"file": "multirotor_simulator/imu_simulator/inertial_odometry.hpp", "symbols": ["update"]}]}
{"id": "C116", "title": "A vehicle with drag has a top speed", "statement": "Along each axis a vehicle never moves faster than the speed at which the drag balances the largest force that rotors and gravity can exert (or than at the start, if that is faster), and sideways it never comes further than this speed times the simulated time.", "quantifier": "for every vehicle, initial state, flight mode, reference and history of public calls without random forces", "why_tests_cant": "the bound concerns all command histories of any length; a test flies one and sees no worst case", "anchors": [{"file": "multirotor_simulator/multirotor_dynamic_model/dynamics.hpp", "symbols": ["process_euler_explicit", "get_vehicle_linear_velocity_derivative", "clamp_motors_angular_velocity"]}, {"file": "multirotor_simulator/multirotor_dynamic_model/model.hpp", "symbols": ["get_drag_force", "get_force_vector_thrust_by_motors"]}, {"file": "multirotor_simulator/multirotor_simulator.hpp", "symbols": ["update_dynamics"]}]}
{"id": "C117", "title": "A vehicle too heavy for its rotors never rises", "statement": "A vehicle that is not rising, and whose rotors at full speed together cannot carry its weight, never rises, whatever it is commanded.", "quantifier": "for every vehicle, attitude, flight mode, reference and history of public calls that does not put the floor above the vehicle", "why_tests_cant": "no test can try all command histories; a wrong sign or a missing factor in one force shows for some attitudes and masses only", "anchors": [{"file": "multirotor_simulator/multirotor_dynamic_model/dynamics.hpp", "symbols": ["process_euler_explicit", "get_vehicle_linear_velocity_derivative"]}, {"file": "multirotor_simulator/multirotor_dynamic_model/model.hpp", "symbols": ["get_force_vector_thrust_by_motors"]}, {"file": "multirotor_simulator/multirotor_simulator.hpp", "symbols": ["update_dynamics", "enable_floor_collision"]}]}
{"id": "C118", "title": "The plotting script reads back what the logger wrote", "statement": "From the log of a flight the plotting script recovers each of the 74 logged quantities under its own name and in the order of logging, draws truth, reference and odometry of each quantity over the logged times, prints the mean distance between quantity and reference, and ends without an exception.", "quantifier": "for every flight of any length, every arithmetic and every way of printing numbers that can be read back", "why_tests_cant": "logger and script agree only through column positions; a shifted or dropped column shows for some values (NaN) and in files no test compares", "anchors": [{"file": "examples/plot_results.py", "symbols": ["read_csv", "plot_values", "compute_mean_error", "update_plot_figure1", "update_plot_figure2", "update_plot_figure3"]}, {"file": "examples/fly_example.cpp", "symbols": ["save", "add_double", "add_vector_row", "CsvLogger"]}]}
{"id": "C119", "title": "The first figure shows the whole flight", "statement": "Every logged position of the vehicle lies within the axis limits of the three-dimensional figure.", "quantifier": "for every flight of any length and every way of printing numbers that can be read back", "why_tests_cant": "the limits depend on all positions of the flight; a test looks at one picture", "anchors": [{"file": "examples/plot_results.py", "symbols": ["plot_values_3d", "update_plot_figure0"]}, {"file": "examples/fly_example.cpp", "symbols": ["save"]}]}
{"id": "C120", "title": "References for another mode have no effect", "statement": "A call that only writes references which the control modes in force do not read changes nothing but those references: vehicle, commands, controllers and sensors go on as without the call, at that moment and in the whole later history.", "quantifier": "for every vehicle, arithmetic and history of public calls, with any number of such calls inserted at any moments", "why_tests_cant": "a leak shows only if a reference of another mode was set to a particular value before; tests set the references of the mode they test", "anchors": [{"file": "multirotor_simulator/multirotor_simulator.hpp", "symbols": ["update_controller", "set_control_mode", "set_reference_velocity", "set_reference_position", "set_reference_acro", "set_refence_motors_angular_velocity", "set_reference_yaw_rate"]}]}
{"id": "C121", "title": "Rounding errors of the PID only add up", "statement": "In rounded arithmetic every output of the vector PID differs from that of the exact law (with filter, anti-windup and limits) by at most (1+u)^(12(k+1)+n+3)-1 times the sum of the magnitudes of its three contributions after k+1 samples; with double precision that is 12(k+1)+n+3 machine epsilons.", "quantifier": "for every rounded arithmetic with u at most 1/16, all gains, limits and anti-windup constants, and all sequences of errors and periods of any length", "why_tests_cant": "an error that grows exponentially with the number of samples (an unstable filter, a wrongly limited accumulator) is far below the tolerance of a test for the few samples a test takes", "anchors": [{"file": "pid_controller/include/pid_controller/pid.hpp", "symbols": ["compute_control", "compute_integral_contribution", "compute_derivative_contribution_by_deriving", "saturate_output", "update_pid_params"]}]}
{"id": "C122", "title": "The controller passes every call on to its loops and works with the settings written last", "statement": "After any history the position, trajectory, velocity and rate PID are in the state into which exactly the calls addressed to them have brought them; mass, gravity, attitude gains, inertia and allocation matrix are those written last; each call returns the output of the loop it asked.", "quantifier": "for every controller, every history of public calls (including those through the non-const getters) and every arithmetic", "why_tests_cant": "needs all orders of thirty kinds of calls; a loop that is called twice or with the arguments swapped behaves almost correctly", "anchors": [{"file": "multirotor_simulator/multirotor_controllers/multirotor_controllers.hpp", "symbols": ["compute_acro_control", "compute_acceleration_control", "compute_trajectory_control", "compute_velocity_control", "compute_position_control", "convert_position_to_linear_velocity", "convert_linear_velocity_to_linear_acceleration", "convert_trajectory_to_linear_acceleration", "convert_acro_to_motor_angular_velocity", "convert_linear_acceleration_to_acro", "update_params", "reset_controller", "yaw_rate_to_angle"]}]}
{"id": "C123", "title": "Every part of the simulator sees exactly the calls meant for it", "statement": "After any history controller, IMU and odometry are what the calls meant for them have made of them: the control call of the mode with the state of the vehicle and the references, the measurement of force and angular velocity, the readings of the IMU, the resets on floor contact and the replacements by objects built from new parameters. The switches (armed, floor, height, modes) are set by their own calls only, the vehicle changes only in updates of the dynamics and by being replaced, and giving a new simulator other parameters is the same as building it with these.", "quantifier": "for every simulator, every history of public calls including those that threw, and every arithmetic", "why_tests_cant": "needs all interleavings of some twenty-five kinds of calls on four parts and six modes", "anchors": [{"file": "multirotor_simulator/multirotor_simulator.hpp", "symbols": ["update_controller", "update_imu", "update_inertial_odometry", "update_dynamics", "set_dynamics_params", "set_controller_params", "set_imu_params", "set_inertial_odometry_params", "arm", "disarm", "enable_floor_collision", "disable_floor_collision", "set_control_mode"]}]}
{"id": "C124", "title": "A new vehicle does not inherit the floor contact of the old one", "statement": "The first update of a vehicle installed by set_dynamics_params is like that of a vehicle in a new simulator: its process noise is drawn from the start of its sequence.", "quantifier": "for every history before the replacement and every accepted vehicle", "why_tests_cant": "needs a replacement directly after an update that ended in floor contact; the effect is one update without noise", "anchors": [{"file": "multirotor_simulator/multirotor_simulator.hpp", "symbols": ["set_dynamics_params", "update_dynamics"]}]}
{"id": "C125", "title": "The errors of the IMU are normally distributed and do not depend on the update rate", "statement": "If the random samples are independent and standard normal, then after updates with positive periods each bias is normally distributed around zero with variance (initial variance) + (walk intensity) times (elapsed time), and each reading around the true value in sensor axes with the noise variance added; the division of the time into updates does not matter. The axes and the two sensors are independent, and the change of a bias is independent of its value before.", "quantifier": "for every IMU with non-negative variances, every probability space with such samples, every sequence of positive periods and inputs", "why_tests_cant": "a statement about distributions; tests see samples", "anchors": [{"file": "multirotor_simulator/imu_simulator/imu.hpp", "symbols": ["process_bias", "process_measurement", "update", "IMU"]}]}
{"id": "C126", "title": "The disturbance of the velocity is a random walk that does not depend on the update rate", "statement": "If the random samples are independent and standard normal, a vehicle without drag and with stopped rotors has after time T a velocity that is normally distributed around the noise-free one, with variance forceNoise*T/mass^2 in each component and independent components, however T is divided into updates of at most 10 ms.", "quantifier": "for every accepted vehicle with non-negative force noise, every probability space with such samples and every sequence of periods in (0, 0.01]", "why_tests_cant": "a statement about distributions; tests see samples", "anchors": [{"file": "multirotor_simulator/multirotor_dynamic_model/model.hpp", "symbols": ["set_stochastic_noise"]}, {"file": "multirotor_simulator/multirotor_dynamic_model/dynamics.hpp", "symbols": ["process_euler_explicit", "get_vehicle_linear_velocity_derivative"]}]}
{"id": "C127", "title": "Logged numbers are accurate to six digits", "statement": "A number written by the logger (stream output with default precision) is read back by the plotting script as the nearest number with six significant digits: the error is at most five millionths of the number, numbers of six digits are read back exactly, and the order of numbers is kept. So the script has all 74 quantities of every flight at every logged moment to six digits.", "quantifier": "for every real number; for every flight whose simulators have a vehicle", "why_tests_cant": "needs all magnitudes, ties and carries (999999.5), both notations and all trailing zeros", "anchors": [{"file": "examples/fly_example.cpp", "symbols": ["add_double", "add_vector_row", "save"]}, {"file": "examples/plot_results.py", "symbols": ["read_csv"]}]}
{"id": "C128", "title": "The times in a log increase from line to line", "statement": "In the log of a flight sampled every dt the times read back are strictly increasing.", "quantifier": "for every period dt > 0 and every length of the log", "why_tests_cant": "the first failure is a million lines into a log", "anchors": [{"file": "examples/fly_example.cpp", "symbols": ["add_double", "save"]}, {"file": "examples/plot_results.py", "symbols": ["read_csv"]}]}
{"id": "C129", "title": "Vertical speed control settles for gains below the inverse period", "statement": "With a proportional velocity loop the vertical speed and the rotor speeds of a level quadrotor settle, at a geometric rate, at the speed at which thrust, weight and drag balance, provided the gain is positive and below 1/period plus a reserve due to drag; beyond that gain every other nearby vertical flight leaves the equilibrium.", "quantifier": "for every X or + quadrotor, gain, requested speed, period not above the rotor time constant, and every start near the equilibrium, over an unbounded number of cycles", "why_tests_cant": "an asymptotic statement with an exact threshold for a nonlinear closed loop of controller, mixer, rotors and rigid body", "anchors": [{"file": "multirotor_simulator/multirotor_simulator.hpp", "symbols": ["Simulator::update_controller", "Simulator::update_dynamics"]}, {"file": "multirotor_simulator/multirotor_dynamic_model/dynamics.hpp", "symbols": ["Dynamics::process_euler_explicit"]}, {"file": "multirotor_simulator/multirotor_controllers/controllers/velocity_controller.hpp", "symbols": ["VelocityController::linear_velocity_to_linear_acceleration"]}, {"file": "multirotor_simulator/multirotor_controllers/controllers/acro_controller.hpp", "symbols": ["AcroController::acceleration_to_thrust"]}, {"file": "multirotor_simulator/multirotor_controllers/controllers/indi_controller.hpp", "symbols": ["IndiController::acro_to_motor_angular_velocity"]}]}
{"id": "C130", "title": "Where the vertical speed settles it is the requested one", "statement": "A quadrotor whose vertical speed is controlled by a proportional velocity loop and that has no drag settles at the requested speed.", "quantifier": "for every X or + quadrotor without drag, stabilising gain and requested speed", "why_tests_cant": "a statement on limits of flights, for all masses", "anchors": [{"file": "multirotor_simulator/multirotor_simulator.hpp", "symbols": ["Simulator::update_controller"]}, {"file": "multirotor_simulator/multirotor_dynamic_model/dynamics.hpp", "symbols": ["Dynamics::process_euler_explicit"]}, {"file": "multirotor_simulator/multirotor_controllers/controllers/velocity_controller.hpp", "symbols": ["VelocityController::linear_velocity_to_linear_acceleration"]}, {"file": "multirotor_simulator/multirotor_controllers/controllers/acro_controller.hpp", "symbols": ["AcroController::acceleration_to_thrust"]}]}
{"id": "C131", "title": "With integral action the vertical speed settles at the requested one", "statement": "With a proportional-integral velocity loop the vertical speed of a level quadrotor settles, at a geometric rate, at exactly the requested speed, whatever the mass and the drag, if ki*tau < kp*(1-kp*period) and the trimmed flight at that speed is inside all limits.", "quantifier": "for every X or + quadrotor, mass, drag, gains satisfying the inequality, limits containing the trimmed flight, period not above the rotor time constant, and every start near that flight, over an unbounded number of cycles", "why_tests_cant": "an asymptotic statement on a nonlinear closed loop, for all gains", "anchors": [{"file": "multirotor_simulator/multirotor_simulator.hpp", "symbols": ["Simulator::update_controller", "Simulator::update_dynamics"]}, {"file": "multirotor_simulator/multirotor_dynamic_model/dynamics.hpp", "symbols": ["Dynamics::process_euler_explicit"]}, {"file": "multirotor_simulator/multirotor_controllers/controllers/velocity_controller.hpp", "symbols": ["VelocityController::linear_velocity_to_linear_acceleration"]}, {"file": "multirotor_simulator/multirotor_controllers/controllers/acro_controller.hpp", "symbols": ["AcroController::acceleration_to_thrust"]}, {"file": "multirotor_simulator/multirotor_controllers/controllers/indi_controller.hpp", "symbols": ["IndiController::acro_to_motor_angular_velocity"]}, {"file": "pid_controller/include/pid_controller/pid.hpp", "symbols": ["PID::compute_control"]}]}
{"id": "C132", "title": "The position controller settles at the requested altitude", "statement": "In position mode a level quadrotor above the requested point settles at the requested altitude, at a geometric rate, if all roots of the characteristic polynomial of the loop (position PI, velocity PI, rotor lag, vertical motion) are inside the unit circle; this holds for the gains, limits, rotors and period of the shipped configuration file.", "quantifier": "for every X or + quadrotor, tuning, period up to ten milliseconds and every start near the hover, over an unbounded number of cycles; for the shipped file with every requested altitude", "why_tests_cant": "asymptotic stability of a nonlinear closed loop of five states; the shipped numbers are read from the file by the modelled parser", "anchors": [{"file": "multirotor_simulator/multirotor_simulator.hpp", "symbols": ["Simulator::update_controller", "Simulator::update_dynamics"]}, {"file": "multirotor_simulator/multirotor_dynamic_model/dynamics.hpp", "symbols": ["Dynamics::process_euler_explicit"]}, {"file": "multirotor_simulator/multirotor_controllers/controllers/position_controller.hpp", "symbols": ["PositionController::position_to_linear_velocity"]}, {"file": "multirotor_simulator/multirotor_controllers/controllers/velocity_controller.hpp", "symbols": ["VelocityController::linear_velocity_to_linear_acceleration"]}, {"file": "multirotor_simulator/multirotor_controllers/controllers/indi_controller.hpp", "symbols": ["IndiController::acro_to_motor_angular_velocity"]}, {"file": "pid_controller/include/pid_controller/pid.hpp", "symbols": ["PID::compute_control"]}]}
{"id": "C133", "title": "Steady flight under integral action has the requested speed", "statement": "Vertical flight at constant speed and constant rotor speed in velocity mode with integral action, all demands being inside the limits of the velocity controller and of the rotors, has exactly the requested speed.", "quantifier": "for every X or + quadrotor, gains, limits, period and requested speed, over an unbounded number of cycles", "why_tests_cant": "a statement about flights of unbounded length under all tunings", "anchors": [{"file": "multirotor_simulator/multirotor_simulator.hpp", "symbols": ["Simulator::update_controller", "Simulator::update_dynamics"]}, {"file": "multirotor_simulator/multirotor_controllers/controllers/velocity_controller.hpp", "symbols": ["VelocityController::linear_velocity_to_linear_acceleration"]}, {"file": "pid_controller/include/pid_controller/pid.hpp", "symbols": ["PID::compute_control", "PID::compute_integral_contribution"]}]}
{"id": "C134", "title": "When a scalar PID settles", "statement": "A 1-D PID with positive proportional and integral gains and without derivative part and limits, fed with its own error function, brings a quantity that changes at the commanded rate to every reference from everywhere if and only if 2*kp*dt + ki*dt^2 < 4, never reaching undefined behaviour.", "quantifier": "for every gain, period, reference and start, over an unbounded number of calls", "why_tests_cant": "an exact threshold for an asymptotic statement", "anchors": [{"file": "pid_controller/include/pid_controller/pid_1d.hpp", "symbols": ["PID::get_error", "PID::compute_control"]}]}
{"id": "C135", "title": "Clamping a vector moves it to the nearest point between the limits", "statement": "clamp_vector moves a vector of doubles to the nearest point whose components are between the given limits.", "quantifier": "for every dimension, vector and pair of limits in order", "why_tests_cant": "the limits are converted to single precision, which only shows for limits that are not single precision numbers; the test uses -1 and 1", "anchors": [{"file": "multirotor_simulator/multirotor_dynamic_model/common/utils.hpp", "symbols": ["clamp_vector"]}]}
{"id": "C136", "title": "Only the settings in force at a control call matter", "statement": "If two programs make the same control calls on their PIDs, both or neither reset it in between, and at every control call the same gains, flags and active limits are in force, the control calls return the same values, whatever detours the settings took in between. A settings call other than reset keeps everything the PID remembers. Both for the vector PID and the 1-D PID, undefined calls included.", "quantifier": "for every pair of histories of calls and every arithmetic", "why_tests_cant": "a relation between all pairs of call histories", "anchors": [{"file": "pid_controller/include/pid_controller/pid.hpp", "symbols": ["PID::set_gains_kp", "PID::set_gains_ki", "PID::set_gains_kd", "PID::set_output_saturation", "PID::update_pid_params", "PID::compute_control"]}, {"file": "pid_controller/include/pid_controller/pid_1d.hpp", "symbols": ["PID::compute_control", "PID::update_params"]}]}
{"id": "C137", "title": "The rotors bring about the commanded thrust", "statement": "If the rotors of a quadrotor can produce the commanded total thrust at all and the command of the rate loop is kept, the total thrust approaches the commanded one, whatever torque is commanded at the same time.", "quantifier": "for every quadrotor, demand and start, over an unbounded number of updates", "why_tests_cant": "a limit, combined over controller, allocation and rotor dynamics; the tests check the parts separately and with small torques", "anchors": [{"file": "multirotor_simulator/multirotor_controllers/controllers/indi_controller.hpp", "symbols": ["IndiController::acro_to_motor_angular_velocity"]}, {"file": "multirotor_simulator/multirotor_dynamic_model/dynamics.hpp", "symbols": ["Dynamics::process_euler_explicit"]}]}
{"id": "C138", "title": "The error of the dead-reckoned velocity does not depend on the update rate", "statement": "With no forces and no gyroscope errors, the velocity the inertial odometry integrates from the accelerometer has a distribution which depends on the elapsed time only, not on how that time is divided into updates.", "quantifier": "for every probability space with independent standard normal samples, every IMU with a unit mounting quaternion and every two divisions of the same time into updates", "why_tests_cant": "a statement about distributions and all divisions of the time; the tests check single readings with the noise switched off or within loose bounds", "anchors": [{"file": "multirotor_simulator/imu_simulator/imu.hpp", "symbols": ["IMU::process_measurement", "IMU::process_bias"]}, {"file": "multirotor_simulator/imu_simulator/inertial_odometry.hpp", "symbols": ["InertialOdometry::integrate_measurement"]}, {"file": "multirotor_simulator/multirotor_simulator.hpp", "symbols": ["Simulator::update_imu", "Simulator::update_inertial_odometry"]}]}
{"id": "C139", "title": "Position hold attracts nearby flights", "statement": "If the roots of the characteristic functions of the horizontal, the vertical and the heading loop (PIDs with filtered derivative, attitude gain, rotor lag, at the control period) are inside the unit circle and the trimmed hover is within the limits, then every flight under the position controller which starts close enough to it - off the target, moving, tilted, turned, with other rotor speeds and whatever the controllers remember - runs without error and converges to it in all coordinates at a geometric rate, for every heading, drag and aerodynamic moment. The quadrotor, gains, limits and period of the shipped configuration file satisfy this.", "quantifier": "for all vehicles with upright rotors, all tunings, headings and targets meeting the root condition, all start states near hover and all numbers of control cycles", "why_tests_cant": "a statement about all start states in a neighbourhood and unboundedly many cycles; a test follows one flight for a bounded time", "anchors": [{"file": "multirotor_simulator/multirotor_controllers/controllers/position_controller.hpp", "symbols": ["PositionController::position_to_linear_velocity"]}, {"file": "multirotor_simulator/multirotor_controllers/controllers/velocity_controller.hpp", "symbols": ["VelocityController::linear_velocity_to_linear_acceleration"]}, {"file": "multirotor_simulator/multirotor_controllers/controllers/acro_controller.hpp", "symbols": ["AcroController::acceleration_to_thrust", "AcroController::yaw_angle_to_angular_velocity"]}, {"file": "multirotor_simulator/multirotor_controllers/controllers/indi_controller.hpp", "symbols": ["IndiController::acro_to_motor_angular_velocity"]}, {"file": "multirotor_simulator/multirotor_dynamic_model/dynamics.hpp", "symbols": ["Dynamics::process_euler_explicit"]}, {"file": "pid_controller/include/pid_controller/pid.hpp", "symbols": ["PID::compute_control"]}, {"file": "multirotor_simulator/multirotor_simulator.hpp", "symbols": ["Simulator::update_controller", "Simulator::update_dynamics"]}]}
{"id": "C140", "title": "Each start determines exactly one motion, for all time", "statement": "Every vehicle of positive mass with a symmetric positive definite inertia, non-negative drag, an aerodynamic moment that takes energy out and positive rotor time constants has, from every state with a unit orientation and under every constant command and external force, a solution of the equations of motion (those of C95) for all time, and any two solutions with the same start agree. So the motion that the simulation is shown to converge to (C95, C102) always exists and is the only one.", "quantifier": "for all physical vehicles, all start states with unit orientation, all constant commands and external forces, all times", "why_tests_cant": "existence and uniqueness of a solution for all time cannot be observed by running the simulator", "anchors": [{"file": "multirotor_simulator/multirotor_dynamic_model/dynamics.hpp", "symbols": ["Dynamics::process_euler_explicit"]}]}
{"id": "C141", "title": "Flights under changing commands converge, from starts that are a little off", "statement": "Every physical vehicle has, for every schedule of rotor commands and external forces each held for a time D, a motion from every start with unit orientation for all time; and for every number of holds there is a constant C such that every noise-free simulation which starts within d of the motion and is updated N times per hold stays within C (D/N + d) of it in position, velocity, orientation, angular velocity and rotor speeds, whenever C (D/N + d) is at most 1.", "quantifier": "for all vehicles with non-zero mass, invertible inertia and positive rotor time constants, all schedules, all holds, all start errors and all numbers of updates per hold for which the bound is at most one", "why_tests_cant": "a bound uniform in the number of updates and the start error; a test runs one resolution and knows no exact motion", "anchors": [{"file": "multirotor_simulator/multirotor_dynamic_model/dynamics.hpp", "symbols": ["Dynamics::process_euler_explicit"]}]}
{"id": "C142", "title": "Trajectory mode attracts nearby flights to the reference", "statement": "If the roots of the characteristic functions of the horizontal, the vertical and the heading loop of trajectory mode are inside the unit circle and the trimmed flight is within the limits, then every flight in trajectory mode which starts close enough to the reference runs without error and converges to it in all coordinates at a geometric rate: to a reference that moves uniformly in air without drag, when position and velocity are sent before every control update, and to a fixed reference with any drag. The radius and the rate do not depend on the velocity of the reference. The quadrotor, the gains of the trajectory controller and the period of the shipped configuration file satisfy this.", "quantifier": "for all vehicles with upright rotors, all tunings and headings meeting the root condition, all reference positions and velocities, all start states near the reference and all numbers of control cycles", "why_tests_cant": "a statement about all start states in a neighbourhood of all uniform motions and unboundedly many cycles; a test follows one flight for a bounded time", "anchors": [{"file": "multirotor_simulator/multirotor_controllers/controllers/trajectory_controller.hpp", "symbols": ["TrajectoryController::trajectory_to_linear_acceleration"]}, {"file": "multirotor_simulator/multirotor_controllers/controllers/acro_controller.hpp", "symbols": ["AcroController::acceleration_to_thrust", "AcroController::yaw_angle_to_angular_velocity"]}, {"file": "multirotor_simulator/multirotor_controllers/controllers/indi_controller.hpp", "symbols": ["IndiController::acro_to_motor_angular_velocity"]}, {"file": "multirotor_simulator/multirotor_dynamic_model/dynamics.hpp", "symbols": ["Dynamics::process_euler_explicit"]}, {"file": "pid_controller/include/pid_controller/pid.hpp", "symbols": ["PID::compute_control"]}, {"file": "multirotor_simulator/multirotor_simulator.hpp", "symbols": ["Simulator::update_controller", "Simulator::update_dynamics"]}]}
{"id": "C143", "title": "Position hold withstands process noise", "statement": "Under the conditions of C139, and with the process noise switched on, every flight in position hold that starts within b of hover runs without error and is within C (q^n b + delta) of hover after n control cycles as long as the noise forces drawn meanwhile are at most delta; C and q < 1 depend on the vehicle and its tuning only. With independent standard normal samples this fails with a probability of at most 12 n exp(-delta^2 dt / (2 s)), where s is the intensity of the process noise.", "quantifier": "for all vehicles with upright rotors and tunings meeting the root condition, all noise samples and intensities, all start states near hover, all disturbance bounds below a radius and all numbers of cycles", "why_tests_cant": "quantifies over all sequences of samples, and over their distribution; a test sees the samples of one seed", "anchors": [{"file": "multirotor_simulator/multirotor_controllers/controllers/position_controller.hpp", "symbols": ["PositionController::position_to_linear_velocity"]}, {"file": "multirotor_simulator/multirotor_controllers/controllers/velocity_controller.hpp", "symbols": ["VelocityController::linear_velocity_to_linear_acceleration"]}, {"file": "multirotor_simulator/multirotor_controllers/controllers/indi_controller.hpp", "symbols": ["IndiController::acro_to_motor_angular_velocity"]}, {"file": "multirotor_simulator/multirotor_dynamic_model/dynamics.hpp", "symbols": ["Dynamics::process_euler_explicit"]}, {"file": "multirotor_simulator/multirotor_simulator.hpp", "symbols": ["Simulator::update_controller", "Simulator::update_dynamics"]}]}
{"id": "C144", "title": "Trajectory mode follows slow paths with drag and noise", "statement": "Under the conditions of C142, with drag and process noise: if the references sent before every control update change slowly, and in particular if they are position, velocity and acceleration of a slow smooth path sampled at the control period, every flight that starts within b of the path runs without error and is within C (q^n b + delta) of it after n cycles, where delta bounds the noise forces, the acceleration and jerk of the path and the drag at its speed. With independent standard normal samples this fails with a probability of at most 12 n exp(-delta^2 dt / (2 s)).", "quantifier": "for all vehicles with upright rotors and tunings meeting the root condition, all paths with bounded velocity, acceleration and jerk, all noise samples and intensities, all start states near the path and all numbers of cycles", "why_tests_cant": "quantifies over all paths and all sequences of samples; a test follows one path with one seed", "anchors": [{"file": "multirotor_simulator/multirotor_controllers/controllers/trajectory_controller.hpp", "symbols": ["TrajectoryController::trajectory_to_linear_acceleration"]}, {"file": "multirotor_simulator/multirotor_controllers/controllers/acro_controller.hpp", "symbols": ["AcroController::acceleration_to_thrust", "AcroController::yaw_angle_to_angular_velocity"]}, {"file": "multirotor_simulator/multirotor_controllers/controllers/indi_controller.hpp", "symbols": ["IndiController::acro_to_motor_angular_velocity"]}, {"file": "multirotor_simulator/multirotor_dynamic_model/dynamics.hpp", "symbols": ["Dynamics::process_euler_explicit"]}, {"file": "multirotor_simulator/multirotor_simulator.hpp", "symbols": ["Simulator::update_controller", "Simulator::update_dynamics"]}]}
{"id": "C145", "title": "Velocity mode keeps slowly changing velocities with drag and noise", "statement": "For every vehicle with upright rotors and every tuning of the velocity and rate controllers whose characteristic polynomials have all roots inside the unit disc, velocity mode is locally exponentially stable: a flight that starts within b of the requested velocity runs without error, is within C (q^n b + delta) of the velocity requested after n control cycles, and has covered the way given by the requested velocities up to C (b + n dt delta); delta bounds the noise forces, the rate of change of the requested velocity and the drag at it. The shipped configuration meets the conditions at its 1 ms period. With independent standard normal samples this fails with a probability of at most 12 n exp(-delta^2 dt / (2 s)), where s is the intensity of the process noise.", "quantifier": "for all vehicles with upright rotors and tunings meeting the root condition, all slowly changing sequences of requested velocities, all noise samples and intensities, all start states near the first of them and all numbers of cycles", "why_tests_cant": "quantifies over all sequences of commands and samples, all start states in a neighbourhood and unboundedly many cycles; a test flies one sequence with one seed", "anchors": [{"file": "multirotor_simulator/multirotor_controllers/controllers/velocity_controller.hpp", "symbols": ["VelocityController::linear_velocity_to_linear_acceleration"]}, {"file": "multirotor_simulator/multirotor_controllers/controllers/acro_controller.hpp", "symbols": ["AcroController::acceleration_to_thrust", "AcroController::yaw_angle_to_angular_velocity"]}, {"file": "multirotor_simulator/multirotor_controllers/controllers/indi_controller.hpp", "symbols": ["IndiController::acro_to_motor_angular_velocity"]}, {"file": "multirotor_simulator/multirotor_dynamic_model/dynamics.hpp", "symbols": ["Dynamics::process_euler_explicit"]}, {"file": "multirotor_simulator/multirotor_simulator.hpp", "symbols": ["Simulator::update_controller", "Simulator::update_dynamics"]}]}
{"id": "C146", "title": "Acro mode attains slowly changing rates and the requested thrust in any attitude", "statement": "For every vehicle with upright rotors, every requested thrust the rotors can balance and every tuning of the rate controller whose characteristic polynomials have all roots inside the unit disc, acro mode is locally exponentially stable around rotation at the requested rates: a flight that starts with rates and rotor speeds within b, with any position, velocity, attitude and external force, runs without error, and after n control cycles its body rates are within C (q^n b + delta) of the ones requested and the force of its rotors is within C (q^n b + delta) of the requested thrust; delta bounds the noise torques and the rate of change of the requested rates. The shipped configuration meets the conditions at its 1 ms period for every thrust between 0.1 N and 36 N. With independent standard normal samples this fails with a probability of at most 12 n exp(-delta^2 dt / (2 s)), where s is the intensity of the process noise.", "quantifier": "for all vehicles with upright rotors and tunings meeting the root condition, all thrusts, all slowly changing sequences of small requested rates, all noise samples and intensities, all positions, velocities, attitudes and external forces, all rates and rotor speeds near those of the request and all numbers of cycles", "why_tests_cant": "quantifies over all sequences of commands and samples, all start states and unboundedly many cycles; a test flies one sequence with one seed", "anchors": [{"file": "multirotor_simulator/multirotor_controllers/controllers/indi_controller.hpp", "symbols": ["IndiController::acro_to_motor_angular_velocity"]}, {"file": "pid_controller/include/pid_controller/pid.hpp", "symbols": ["PID::compute_control"]}, {"file": "multirotor_simulator/multirotor_dynamic_model/dynamics.hpp", "symbols": ["Dynamics::process_euler_explicit"]}, {"file": "multirotor_simulator/multirotor_simulator.hpp", "symbols": ["Simulator::update_controller", "Simulator::update_dynamics"]}]}
{"id": "C147", "title": "Acro mode with the shipped tuning does not amplify small rates at any thrust", "statement": "With the shipped tuning at 1 ms and no process noise, for every thrust the rotors can produce (0 < T <= 36 N) there are r > 0 and C such that every acro flight with no requested rates that starts with body rates, rotor speeds and rate-controller memory within b < r of steady flight keeps its body rates below C b for any number of cycles.", "quantifier": "for all thrusts, all start states near steady flight in any attitude, all numbers of cycles", "why_tests_cant": "a bound on amplification quantifies over all small starts and unboundedly many cycles; tests fly near hover thrust, where the loop is stable", "anchors": [{"file": "multirotor_simulator/multirotor_controllers/controllers/indi_controller.hpp", "symbols": ["IndiController::acro_to_motor_angular_velocity"]}, {"file": "multirotor_simulator/multirotor_dynamic_model/model.hpp", "symbols": ["Model::get_torque_by_motors"]}, {"file": "multirotor_simulator/multirotor_dynamic_model/dynamics.hpp", "symbols": ["Dynamics::process_euler_explicit"]}, {"file": "multirotor_simulator/multirotor_simulator.hpp", "symbols": ["Simulator::update_controller", "Simulator::update_dynamics"]}]}
{"id": "C148", "title": "In acro mode the vehicle turns like a body with the requested rates", "statement": "For every vehicle with upright rotors, every thrust the rotors can balance and every tuning of the rate controller whose characteristic polynomials have all roots inside the unit disc: an acro flight that starts with rates and rotor speeds within b of rest, in any attitude, follows the attitude of an ideal body that turns during each period about the requested axis through exactly the requested angle. After n cycles the two attitudes turn a vector v to places at most (C (b + n delta) + sum of (|d| dt)^3 / 12) |v| apart, where delta bounds the noise torques and the rate of change of the requested rates d. In particular, with no rates requested and no noise the vehicle never turns by more than C b, however long it flies. The shipped configuration meets the conditions for every thrust between 0.1 N and 36 N.", "quantifier": "for all vehicles with upright rotors and tunings meeting the root condition, all thrusts, all slowly changing sequences of small requested rates, all noise samples, all attitudes, positions, velocities and external forces, all rates and rotor speeds near rest and all numbers of cycles", "why_tests_cant": "the bound holds for unboundedly many cycles and all sequences of commands and samples; a test flies one sequence for a while", "anchors": [{"file": "multirotor_simulator/multirotor_controllers/controllers/indi_controller.hpp", "symbols": ["IndiController::acro_to_motor_angular_velocity"]}, {"file": "multirotor_simulator/multirotor_dynamic_model/dynamics.hpp", "symbols": ["Dynamics::process_euler_explicit"]}, {"file": "multirotor_simulator/multirotor_simulator.hpp", "symbols": ["Simulator::update_controller", "Simulator::update_dynamics"]}]}
{"id": "C149", "title": "Reseeding the IMU repeats its noise", "statement": "After set_random_seed(s) the biases and readings of an IMU depend only on s, on its settings, biases and readings at that time and on the calls that follow. Random numbers drawn before have no effect, although the normal distribution keeps one sample of each pair in store and reseeding does not clear it.", "quantifier": "for all engines, all distributions that make samples in pairs, all orders of evaluation, all parameters, all histories of public calls before and after the reseeding, all arithmetic", "why_tests_cant": "whether a sample is left over depends on the whole history of calls; a test tries a few histories", "anchors": [{"file": "multirotor_simulator/imu_simulator/imu.hpp", "symbols": ["IMU::set_random_seed", "IMU::process_bias", "IMU::process_measurement", "IMU::update"]}]}
{"id": "C150", "title": "Different seeds give different random numbers", "statement": "Two different seeds of the dynamics or the IMU give different sequences of random numbers.", "quantifier": "for all pairs of int seeds and all positions in the sequence", "why_tests_cant": "there are 2^63 pairs of seeds; a test compares a few", "anchors": [{"file": "multirotor_simulator/multirotor_dynamic_model/model.hpp", "symbols": ["Model::set_stochastic_noise"]}, {"file": "multirotor_simulator/imu_simulator/imu.hpp", "symbols": ["IMU::set_random_seed", "IMU::update"]}]}
{"id": "C151", "title": "Position hold works in rounded arithmetic", "statement": "Under the conditions of C139 every flight in position hold computed in floating point, with all parameters, requests and the period rounded as well, runs without error and is within C (q^n b + u) of hover after n control cycles if it starts within b of hover, where u is the unit roundoff. C, q < 1 and the admissible b depend on the vehicle and its tuning only, not on the arithmetic. In particular this holds for the shipped file read in that arithmetic.", "quantifier": "for all vehicles and tunings of C139, all arithmetics with a sufficiently small relative rounding error, all states near hover and all numbers of cycles", "why_tests_cant": "rounding errors enter every one of unboundedly many cycles and feed back into the controllers; a test runs one arithmetic from a few states for a finite time", "anchors": [{"file": "multirotor_simulator/multirotor_simulator.hpp", "symbols": ["Simulator::update_controller", "Simulator::update_dynamics"]}, {"file": "multirotor_simulator/multirotor_controllers/controllers/position_controller.hpp", "symbols": ["PositionController::position_to_linear_velocity"]}, {"file": "multirotor_simulator/multirotor_controllers/controllers/velocity_controller.hpp", "symbols": ["VelocityController::linear_velocity_to_linear_acceleration"]}, {"file": "multirotor_simulator/multirotor_controllers/controllers/acro_controller.hpp", "symbols": ["AcroController::yaw_angle_to_angular_velocity"]}, {"file": "multirotor_simulator/multirotor_controllers/controllers/indi_controller.hpp", "symbols": ["IndiController::acro_to_motor_angular_velocity"]}, {"file": "multirotor_simulator/multirotor_dynamic_model/dynamics.hpp", "symbols": ["Dynamics::process_euler_explicit"]}, {"file": "pid_controller/include/pid_controller/pid.hpp", "symbols": ["PID::compute_control"]}]}
{"id": "C152", "title": "Rotors that turn the vehicle the requested way run faster", "statement": "On an X or + quadrotor with the library's allocation every rotor carries a quarter of the thrust and of the torque about each body axis the share proportional to its leverage about that axis, and no other rotor speeds produce that force and torque. Hence, when a freshly reset rate controller asks a vehicle turning about one axis at rate v to turn at rate w > v, one rotor is commanded to run faster than another exactly if it has the larger leverage about that axis; for w < v exactly if it has the smaller one; for w = v all speeds are equal.", "quantifier": "for all X and + quadrotors with nonzero coefficients and arms, all diagonal positive inertias, all tunings with positive proportional and non-negative integral gains and limits around zero, all thrusts, rates, axes and periods (real arithmetic)", "why_tests_cant": "the repository's test compares the speeds for one vehicle with unit parameters and a few demands; a sign error for particular coefficients, thrusts or limits passes it", "anchors": [{"file": "multirotor_simulator/multirotor_controllers/controllers/indi_controller.hpp", "symbols": ["IndiController::acro_to_motor_angular_velocity"]}, {"file": "pid_controller/include/pid_controller/pid.hpp", "symbols": ["PID::compute_control"]}]}
{"id": "C153", "title": "A level vehicle leans towards the demanded acceleration", "statement": "A level vehicle with the demanded heading that is asked for an acceleration above free fall gets a pitch rate with the sign of the forward component of the demand and a roll rate with the sign opposite to its component to the left; all three rates are zero exactly if the demand is vertical. The rates are given in closed form. For demands straight ahead below free fall the command is zero although the attitude is not the demanded one.", "quantifier": "for all masses, positive diagonal gains, vertical gravities, headings and demanded accelerations (real arithmetic)", "why_tests_cant": "the repository's test looks at a handful of demands at heading zero with mass one and equal gains", "anchors": [{"file": "multirotor_simulator/multirotor_controllers/controllers/acro_controller.hpp", "symbols": ["AcroController::acceleration_to_thrust", "AcroController::yaw_angle_to_angular_velocity"]}]}
{"id": "C154", "title": "An external force opposing the weight holds the vehicle", "statement": "A vehicle at rest with stopped rotors on which the external force -mass*gravity acts stays where it is.", "quantifier": "for all vehicles, gravities and sequences of periods up to 0.01 s (real arithmetic)", "why_tests_cant": "the repository's test of this (process_euler_explicit_floor) uses one vehicle of mass 1, where the missing factor mass on gravity cannot be seen", "anchors": [{"file": "multirotor_simulator/multirotor_dynamic_model/dynamics.hpp", "symbols": ["Dynamics::process_euler_explicit"]}]}
{"id": "C155", "title": "Reported roll, pitch and yaw follow the body rates", "statement": "A step of a millisecond at body rates of at most 1 rad/s advances each reported angle (roll, pitch, yaw) by its own body rate times the step, to within 0.01 rad and up to whole turns.", "quantifier": "for all unit attitudes and body rates (real arithmetic)", "why_tests_cant": "the repository's test of this kind (get_quaternion_integrate_values) draws ten random attitudes; the attitudes at which it fails have measure zero or lie in a thin set around the vertical", "anchors": [{"file": "multirotor_simulator/multirotor_dynamic_model/common/utils.hpp", "symbols": ["get_quaternion_integrate"]}, {"file": "multirotor_simulator/multirotor_dynamic_model/common/state.hpp", "symbols": ["quaternion_to_Euler"]}]}
{"id": "C156", "title": "A floor that is not reached has no effect", "statement": "If a flight never is below a height h, the same calls with a floor enabled at h have the same outcomes and leave vehicle, controllers, sensors, references and settings equal at every moment, except for arming at another floor height, which moves the position reference. In particular position hold (C143), trajectory following (C144) and velocity mode (C145) converge as without a floor if the floor is far enough below the target, the path or the way requested, with an explicit distance in terms of the constants of those properties; also position hold of the shipped configuration in rounded arithmetic (C151).", "quantifier": "for all simulators, heights and histories of calls that do not switch the floor, including calls that throw (any arithmetic); for position hold and trajectory mode all vehicles, tunings, noise and starts of C143 and C144", "why_tests_cant": "the examples run with a floor and one height only; that contact handling leaves flights above it untouched concerns every history", "anchors": [{"file": "multirotor_simulator/multirotor_simulator.hpp", "symbols": ["Simulator::update_dynamics", "Simulator::enable_floor_collision", "Simulator::arm"]}]}
{"id": "C157", "title": "A vehicle that is let go comes down to the floor and stays there", "statement": "A disarmed vehicle with stopped rotors at or above an enabled floor, in any attitude, at any speed and turning in any way, is on the floor after finitely many updates, an explicit number of them, if gravity points down, there is no force noise, and the drag of one time step cannot turn the vertical motion round (drag times step times speed at most the mass, and drag times step squared times weight at most 3/4 of the mass squared). From then on it keeps position and orientation through every further sequence of update cycles. If the rotors are still turning, with time constants not shorter than the steps, and the second bound holds with their thrust added to the weight, the vehicle is at the height of the floor from some number of updates on, without upward speed, though the thrust may take it off the floor before; so disarming in flight, in whatever mode, brings the vehicle down, and the shipped vehicle in particular at all speeds up to 1000 m/s.", "quantifier": "for all vehicles, starts, numbers of rotors and sequences of update calls with varying time steps between a > 0 and b <= 0.01; coming down with stopped rotors, staying down, and coming down with turning rotors also with any other calls in between that do not arm, switch the floor or replace the vehicle or its state (real arithmetic)", "why_tests_cant": "a test can only show that one drop ends; that every one does, and that the vehicle never leaves the floor afterwards, concerns runs of unbounded length", "anchors": [{"file": "multirotor_simulator/multirotor_simulator.hpp", "symbols": ["Simulator::update_dynamics", "Simulator::enable_floor_collision", "Simulator::disarm"]}, {"file": "multirotor_simulator/multirotor_dynamic_model/dynamics.hpp", "symbols": ["Dynamics::process_euler_explicit"]}, {"file": "multirotor_simulator/multirotor_dynamic_model/model.hpp", "symbols": ["Model::get_drag_force"]}]}
