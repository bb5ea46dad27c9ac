{"claims": [
  {"property": "C01", "status": "proved", "theorems": ["Verif.Props.C01_enabled_floor", "Verif.Props.C01_never_below_floor", "Verif.Props.C01_history"], "note": "Any arithmetic with irreflexive <."},
  {"property": "C02", "status": "proved", "theorems": ["Verif.Props.C02_disarmed_zero"], "note": "Any arithmetic; every history from the constructor, exceptions included."},
  {"property": "C03", "status": "proved", "theorems": ["Verif.Props.C03_unit_orientation"], "note": "Reals; every history from the constructor, rejected calls included."},
  {"property": "C04", "status": "proved", "theorems": ["Verif.Props.C04_rotor_limits", "Verif.Props.C04_rotor_limits_sim", "Verif.Props.C04_history"], "note": "Any arithmetic with irreflexive <, provided 0 < dt/0.01 when 0.01 < dt; dynamics and simulator."},
  {"property": "C05", "status": "partial", "theorems": ["Verif.Props.C05_dynamics_rejects", "Verif.Props.C05_throw_iff", "Verif.Props.C05_simulator_partial", "Verif.Props.C05_violated"], "note": "Proved for the dynamics, in any arithmetic. The simulator violates the claim below an enabled floor (the floor reaction stays stored); the exact effect of the rejected call is the partial theorem."},
  {"property": "C06", "status": "partial", "theorems": ["Verif.Props.C06_substeps_partial", "Verif.Props.C06_time_partial", "Verif.Props.C06_violated"], "note": "The code violates the claim: a step longer than 0.01 s simulates a whole number of hundredths (proved for every state), at most 0.01 s too much; the exact simulated time is proved."},
  {"property": "C07", "status": "proved", "theorems": ["Verif.Props.C07_no_floor", "Verif.Props.C07_floor_contact"], "note": "Any arithmetic; whole object after the call, both branches."},
  {"property": "C08", "status": "proved", "theorems": ["Verif.Props.C08_no_floor", "Verif.Props.C08_construction", "Verif.Props.C08_update", "Verif.Props.C08_history", "Verif.Props.C08_leak_after_exception"], "note": "Any arithmetic; all exception-free histories. The leak after an exception is exhibited."},
  {"property": "C09", "status": "proved", "theorems": ["Verif.Props.C09_flag", "Verif.Props.C09_noise_after_contact", "Verif.Props.C09_first_update"], "note": "Any arithmetic; next update after a contact, with any calls in between."},
  {"property": "C10", "status": "proved", "theorems": ["Verif.Props.C10_set_control_mode"], "note": "Any arithmetic; every field."},
  {"property": "C11", "status": "proved", "theorems": ["Verif.Props.C11_last_writer_wins"], "note": "Any arithmetic; every history, exceptions included."},
  {"property": "C12", "status": "proved", "theorems": ["Verif.Props.C12_dispatch", "Verif.Props.C12_frame", "Verif.Props.C12_motor_mode", "Verif.Props.C12_hover_is_position"], "note": "Any arithmetic."},
  {"property": "C13", "status": "proved", "theorems": ["Verif.Props.C13_sensors_do_not_matter", "Verif.Props.C13_deterministic", "Verif.Props.C13_construction"], "note": "Any arithmetic; all histories and all pairs of sensor configurations."},
  {"property": "C14", "status": "proved", "theorems": ["Verif.Props.C14_controller_imu", "Verif.Props.C14_controller_odom", "Verif.Props.C14_interleavings"], "note": "Any arithmetic; all interleavings."},
  {"property": "C15", "status": "partial", "theorems": ["Verif.Props.C15_parked_partial", "Verif.Props.C15_violated", "Verif.Props.C15_calls_partial"], "note": "The code violates the claim for a vehicle put on the floor without a contact update (two updates move it sideways); proved for all histories after a contact, or without force noise, also with other calls in between (C15_calls_partial)."},
  {"property": "C16", "status": "partial", "theorems": ["Verif.Props.C16_tracking_partial", "Verif.Props.C16_violated"], "note": "The code violates the claim: the odometry reports force, not acceleration; the exact relation (factor mass, one step ahead) is proved for all cycles, so the claim holds for unit mass."},
  {"property": "C17", "status": "partial", "theorems": ["Verif.Props.C17_hover_partial", "Verif.Props.C17_drift", "Verif.Props.C17_violated"], "note": "The code violates the claim: gravity is added without the factor mass, so a vehicle of mass other than 1 leaves the hover point at (1-1/m)g; proved for unit mass over any number of control cycles, and the exact drift for every mass."},
  {"property": "C18", "status": "partial", "theorems": ["Verif.Props.C18_euler_partial", "Verif.Props.C18_documented_partial", "Verif.Props.C18_violated", "Verif.Props.C18_drag_frame", "Verif.Props.C18_aero_torque"], "note": "The code violates the claim (weight, drag frame, aerodynamic torque, torque noise); the exact Euler step that it computes is proved for every state, and the documented one for unit mass without drag, aerodynamic torque and noise."},
  {"property": "C19", "status": "partial", "theorems": ["Verif.Props.C19_free_fall_partial", "Verif.Props.C19_violated"], "note": "The code violates the claim: the acceleration is gravity divided by mass; exact relation proved."},
  {"property": "C20", "status": "partial", "theorems": ["Verif.Props.C20_torque_noise_partial", "Verif.Props.C20_violated"], "note": "The code violates the claim: the torque disturbance is the force noise; exact relation proved."},
  {"property": "C21", "status": "proved", "theorems": ["Verif.Props.C21_rotor_response"], "note": "Reals; every number of updates, sub-stepped ones included."},
  {"property": "C22", "status": "proved", "theorems": ["Verif.Props.C22_derivative", "Verif.Props.C22_integrate", "Verif.Props.C22_zero_rate"], "note": "Reals."},
  {"property": "C23", "status": "proved", "theorems": ["Verif.Props.C23_translation"], "note": "Reals; call sequences of any length, exceptions included."},
  {"property": "C24", "status": "partial", "theorems": ["Verif.Props.C24_drag", "Verif.Props.C24_aero_partial", "Verif.Props.C24_violated"], "note": "Drag proved. The claim about the aerodynamic torque is violated by accepted indefinite matrices; proved for positive semidefinite ones."},
  {"property": "C25", "status": "proved", "theorems": ["Verif.Props.C25_rejected", "Verif.Props.C25_accepted", "Verif.Props.C25_undefined", "Verif.Props.C25_last_accepted"], "note": "Any arithmetic; every call and every history of calls."},
  {"property": "C26", "status": "partial", "theorems": ["Verif.Props.C26_mass_zero", "Verif.Props.C26_tau_zero", "Verif.Props.C26_inertia_singular", "Verif.Props.C26_inertia_negative", "Verif.Props.C26_aero_negative", "Verif.Props.C26_no_motors", "Verif.Props.C26_nan", "Verif.Props.C26_violated", "Verif.Props.C26_partial"], "note": "The code violates the claim (zero mass, zero time constant, singular or indefinite matrices, NaN, no motors); what is accepted is characterised exactly."},
  {"property": "C27", "status": "proved", "theorems": ["Verif.Props.C27_wrench"], "note": "Reals; every rotor count and every rotor pose."},
  {"property": "C28", "status": "partial", "theorems": ["Verif.Props.C28_quadX_balanced", "Verif.Props.C28_quadPlus_balanced", "Verif.Props.C28_hexa_balanced", "Verif.Props.C28_quadX_documented", "Verif.Props.C28_quadPlus_documented", "Verif.Props.C28_hexa_regular_partial", "Verif.Props.C28_violated", "Verif.Props.C28_documented_hexa_unbalanced"], "note": "Library quad-X, quad-plus and hexa layouts proved balanced; the documented hexa matrix disagrees with the code and is itself unbalanced."},
  {"property": "C29", "status": "proved", "theorems": ["Verif.Props.C29_untilted", "Verif.Props.C29_meaning"], "note": "Reals; untilted rotors."},
  {"property": "C30", "status": "proved", "theorems": ["Verif.Props.C30_inverse", "Verif.Props.C30_singular"], "note": "Reals; X and + quadrotors with non-degenerate rotor constants (C30_inverse) and mixers without inverse (C30_singular)."},
  {"property": "C31", "status": "proved", "theorems": ["Verif.Props.C31_inverse", "Verif.Props.C31_values"], "note": "Reals."},
  {"property": "C32", "status": "proved", "theorems": ["Verif.Props.C32_zero_noise", "Verif.Props.C32_zero_reported"], "note": "Reals; call sequences of any length."},
  {"property": "C33", "status": "partial", "theorems": ["Verif.Props.C33_never_set", "Verif.Props.C33_violated", "Verif.Props.C33_members_partial"], "note": "The code violates the claim: the member is never written; the recomputed matrices agree after every history."},
  {"property": "C34", "status": "proved", "theorems": ["Verif.Props.C34_nonpositive_period", "Verif.Props.C34_positive_period"], "note": "Any arithmetic."},
  {"property": "C35", "status": "proved", "theorems": ["Verif.Props.C35_noise_free"], "note": "Reals; any history of updates, unit mounting orientation."},
  {"property": "C36", "status": "proved", "theorems": ["Verif.Props.C36_mounting"], "note": "Any arithmetic; every history from the constructor."},
  {"property": "C37", "status": "proved", "theorems": ["Verif.Props.C37_reset", "Verif.Props.C37_forgets"], "note": "Any arithmetic; bisimulation for all later call sequences."},
  {"property": "C38", "status": "proved", "theorems": ["Verif.Props.C38_random_walk"], "note": "Reals; all sequences of positive periods and all noise sequences."},
  {"property": "C39", "status": "proved", "theorems": ["Verif.Props.C39_unit_after_update", "Verif.Props.C39_unit_always"], "note": "Reals; all histories with non-zero initial orientations."},
  {"property": "C40", "status": "proved", "theorems": ["Verif.Props.C40_bounded", "Verif.Props.C40_unfiltered", "Verif.Props.C40_converges"], "note": "Reals; all measurement histories."},
  {"property": "C41", "status": "proved", "theorems": ["Verif.Props.C41_reset_is_restart"], "note": "Any arithmetic; all prior and later histories."},
  {"property": "C42", "status": "proved", "theorems": ["Verif.Props.C42_dead_reckoning", "Verif.Props.C42_last_report"], "note": "Reals; all measurement histories."},
  {"property": "C43", "status": "proved", "theorems": ["Verif.Props.C43_not_negative", "Verif.Props.C43_projection"], "note": "Sign part for any arithmetic, projection and bound over the reals."},
  {"property": "C44", "status": "proved", "theorems": ["Verif.Props.C44_attitude_demand", "Verif.Props.C44_zero_command"], "note": "Reals; existence, uniqueness and zero command for all gains."},
  {"property": "C45", "status": "proved", "theorems": ["Verif.Props.C45_turns_towards", "Verif.Props.C45_equilibria"], "note": "Reals; the vehicle is assumed to follow the commanded rates (attitude kinematics)."},
  {"property": "C46", "status": "proved", "theorems": ["Verif.Props.C46_zero_force", "Verif.Props.C46_bounded", "Verif.Props.C46_parallel"], "note": "Reals."},
  {"property": "C47", "status": "proved", "theorems": ["Verif.Props.C47_wrench", "Verif.Props.C47_model"], "note": "Reals; X and + layouts with the library allocation matrix."},
  {"property": "C48", "status": "proved", "theorems": ["Verif.Props.C48_inversion"], "note": "Reals; includes the exact gyroscopic mismatch when the rates differ."},
  {"property": "C49", "status": "partial", "theorems": ["Verif.Props.C49_force", "Verif.Props.C49_acceleration_partial", "Verif.Props.C49_violated"], "note": "Reals. Force part proved for all masses. The acceleration part is refuted (C49_violated): gravity is added without the factor mass; the exact error (1/m-1)g is proved."},
  {"property": "C50", "status": "partial", "theorems": ["Verif.Props.C50_yaw_rate_partial", "Verif.Props.C50_violated"], "note": "The code violates the claim: the turn rate is kp*sin(rate/kp); this exact value, the sign and a cubic error bound are proved."},
  {"property": "C51", "status": "proved", "theorems": ["Verif.Props.C51_reset_forgets", "Verif.Props.C51_as_new", "Verif.Props.C51_pid_as_new"], "note": "Any arithmetic; every public call, including those through the mutable getters."},
  {"property": "C52", "status": "proved", "theorems": ["Verif.Props.C52_isolation", "Verif.Props.C52_independence"], "note": "Any arithmetic; every public call."},
  {"property": "C53", "status": "proved", "theorems": ["Verif.Props.C53_cascade"], "note": "Any arithmetic."},
  {"property": "C54", "status": "proved", "theorems": ["Verif.Props.C54_live_update", "Verif.Props.C54_gains"], "note": "Any arithmetic; every later history of control calls is compared."},
  {"property": "C55", "status": "proved", "theorems": ["Verif.Props.C55_output_limits", "Verif.Props.C55_output_limits_real"], "note": "Any arithmetic with irreflexive, asymmetric < (NaN outputs are not ordered, see C67); second theorem is the real-number reading."},
  {"property": "C56", "status": "partial", "theorems": ["Verif.Props.C56_proportional_partial", "Verif.Props.C56_violated"], "note": "The code violates the claim when 0 lies outside the limits; proved when lower <= 0 <= upper on every axis."},
  {"property": "C57", "status": "proved", "theorems": ["Verif.Props.C57_integral_bounded"], "note": "All histories; positive anti-windup constants."},
  {"property": "C58", "status": "proved", "theorems": ["Verif.Props.C58_reset_forgets"], "note": "Any arithmetic; bisimulation of the reset controller with a new one."},
  {"property": "C59", "status": "proved", "theorems": ["Verif.Props.C59_no_derivative_kick"], "note": "Reals; first call after construction or reset."},
  {"property": "C60", "status": "proved", "theorems": ["Verif.Props.C60_textbook_law"], "note": "Reals; call sequences of any length, no limits, no anti-windup."},
  {"property": "C61", "status": "proved", "theorems": ["Verif.Props.C61_derivative_bounded"], "note": "Reals; filter coefficient in [0,1]."},
  {"property": "C62", "status": "partial", "theorems": ["Verif.Props.C62_set_limits_partial", "Verif.Props.C62_set_limits_one_axis", "Verif.Props.C62_violated"], "note": "The code violates the claim from dimension 2 (limits rejected by a later axis stay stored); the one-axis case and the exact behaviour are proved."},
  {"property": "C63", "status": "partial", "theorems": ["Verif.Props.C63_round_trip_partial", "Verif.Props.C63_violated"], "note": "The code violates the claim (a disabled saturation is re-enabled by the round trip); the exact condition under which the round trip is the identity is proved."},
  {"property": "C64", "status": "partial", "theorems": ["Verif.Props.C64_flag_inert", "Verif.Props.C64_violated", "Verif.Props.C64_reset_beyond_partial"], "note": "The code violates the claim: with an unchanged positive constant the flag never acts (proved for all histories); it acts only beyond the constant (partial)."},
  {"property": "C65", "status": "partial", "theorems": ["Verif.Props.C65_violated", "Verif.Props.C65_axes_independent_partial"], "note": "The code violates the claim for mixed anti-windup; proved for all histories that treat the axes alike."},
  {"property": "C66", "status": "partial", "theorems": ["Verif.Props.C66_no_ub_partial", "Verif.Props.C66_ub_iff", "Verif.Props.C66_violated"], "note": "The code violates the claim for negative anti-windup constants; proved in any arithmetic otherwise, with the exact condition over the reals."},
  {"property": "C67", "status": "partial", "theorems": ["Verif.Props.C67_zero_dt_nan", "Verif.Props.C67_poisoned", "Verif.Props.C67_zero_dt_nan_1d", "Verif.Props.C67_violated", "Verif.Props.C67_within_limits_partial"], "note": "The code violates the claim: the output is NaN, for every configuration, and stays NaN until a reset; proved within limits whenever the unlimited output is not NaN."},
  {"property": "C68", "status": "proved", "theorems": ["Verif.Props.C68_euler", "Verif.Props.C68_range", "Verif.Props.C68_gimbal_lock"], "note": "Reals; a witness shows that the exclusion of 90 degree pitch is needed."},
  {"property": "C69", "status": "proved", "theorems": ["Verif.Props.C69_state", "Verif.Props.C69_odometry"], "note": "Any arithmetic and every rotor count; assumes that numbers print without commas."},
  {"property": "C70", "status": "partial", "theorems": ["Verif.Props.C70_line_partial", "Verif.Props.C70_violated"], "note": "The code violates the claim: NaN references are skipped, so later fields move left; the exact fields of every line are proved."},
  {"property": "C71", "status": "partial", "theorems": ["Verif.Props.C71_defined_partial", "Verif.Props.C71_violated"], "note": "Reals. The code violates the claim: rejected parameters leave the model uninitialised; for accepted parameters every history is proved to run to its end, throwing exactly on non-positive periods."},
  {"property": "C72", "status": "proved", "theorems": ["Verif.Props.C72_flight", "Verif.Props.C72_no_references", "Verif.Props.C72_nonpositive_step", "Verif.Props.C72_main"], "note": "Reals; all eight test flights of both example programs, any trajectory generator."},
  {"property": "C73", "status": "partial", "theorems": ["Verif.Props.C73_schedule_partial", "Verif.Props.C73_violated"], "note": "Reals. The code violates the claim; the exact schedule and the exact condition for reaching the last reference are proved."},
  {"property": "C74", "status": "partial", "theorems": ["Verif.Props.C74_times_partial", "Verif.Props.C74_distinct_partial", "Verif.Props.C74_violated"], "note": "Reals. The code violates the claim for the first two lines; the stamp of every other line and its one-step lag are proved."},
  {"property": "C75", "status": "proved", "theorems": ["Verif.Props.C75_consistent", "Verif.Props.C75_wrench"], "note": "Any arithmetic; wrench consequence over the reals."},
  {"property": "C76", "status": "partial", "theorems": ["Verif.Props.C76_odom_start_partial", "Verif.Props.C76_violated"], "note": "Reals. The code violates the claim for initial positions or velocities other than zero; the exact condition is proved."},
  {"property": "C77", "status": "proved", "theorems": ["Verif.Props.C77_histories", "Verif.Props.C77_construction", "Verif.Props.C77_observations"], "note": "Reals; histories over all calls, construction and observations."},
  {"property": "C78", "status": "proved", "theorems": ["Verif.Props.C78_histories", "Verif.Props.C78_construction"], "note": "Reals; histories over all calls including the reference getters that respect the displacement."},
  {"property": "C79", "status": "proved", "theorems": ["Verif.Props.C79_full_turns"], "note": "Reals; histories over all calls."},
  {"property": "C80", "status": "partial", "theorems": ["Verif.Props.C80_turned_partial", "Verif.Props.C80_violated"], "note": "Reals, noise-free sequences. The code violates the claim in the presence of drag (squared along world axes); proved for every angle without drag and for quarter turns with drag."},
  {"property": "C81", "status": "partial", "theorems": ["Verif.Props.C81_reported_partial", "Verif.Props.C81_violated"], "note": "Any arithmetic. The code violates the claim: the reported thrust is always zero and a rejected demand is reported with the rates of the attitude law; the rest is proved."},
  {"property": "C82", "status": "partial", "theorems": ["Verif.Props.C82_contact_rests", "Verif.Props.C82_lift_off_partial", "Verif.Props.C82_violated"], "note": "Reals. The code violates the claim: the threshold lacks the factor mass; exact height after two updates proved for every attitude, gravity and command."},
  {"property": "C83", "status": "partial", "theorems": ["Verif.Props.C83_spin_down_partial", "Verif.Props.C83_violated"], "note": "Reals; every history without arming or replacement of the dynamics. The code violates the claim for rotors with a positive minimum speed; exponential approach to the admissible speed nearest to zero is proved."},
  {"property": "C84", "status": "partial", "theorems": ["Verif.Props.C84_turning_partial", "Verif.Props.C84_odometry_partial", "Verif.Props.C84_violated"], "note": "Reals. The code violates the claim: a step turns through 2 atan(rate dt/2); exact angle and cubic error bound proved for vehicle and odometry."},
  {"property": "C85", "status": "partial", "theorems": ["Verif.Props.C85_energy_partial", "Verif.Props.C85_violated"], "note": "Reals. The code violates the claim (explicit Euler); exact increment, monotonicity and the case of equality proved."},
  {"property": "C86", "status": "partial", "theorems": ["Verif.Props.C86_parabola_partial", "Verif.Props.C86_violated"], "note": "Reals. The code violates the claim (explicit Euler); exact velocity, acceleration, lag and its bound proved."},
  {"property": "C87", "status": "partial", "theorems": ["Verif.Props.C87_finite_partial", "Verif.Props.C87_violated"], "note": "Extended reals; every history. The code violates the claim (period zero in a controller update); proved for proper parameters and non-zero controller periods, with equality to the real-arithmetic history. Rounding and overflow are outside this arithmetic."},
  {"property": "C88", "status": "partial", "theorems": ["Verif.Props.C88_rejected_partial", "Verif.Props.C88_nan_accepted", "Verif.Props.C88_nan_for_ever", "Verif.Props.C88_infinity_overflows", "Verif.Props.C88_violated"], "note": "Extended reals; every history. The code violates the claim for NaN (accepted, everything NaN for ever) and plus infinity (undefined behaviour); proved for all other values."},
  {"property": "C89", "status": "partial", "theorems": ["Verif.Props.C89_flight", "Verif.Props.C89_sensors", "Verif.Props.C89_separate_partial", "Verif.Props.C89_readings", "Verif.Props.C89_same_numbers", "Verif.Props.C89_violated"], "note": "Any arithmetic, any random source, whole histories. The code violates the claim when the two seeds are equal, which is the default; proved for different seeds. C89_same_numbers gives the exact relation between disturbance and bias for equal seeds."},
  {"property": "C90", "status": "partial", "theorems": ["Verif.Props.C90_split_partial", "Verif.Props.C90_violated"], "note": "Real arithmetic, whole histories. The code violates the claim when a floor is enabled; proved for every history that never enables one."},
  {"property": "C91", "status": "partial", "theorems": ["Verif.Props.C91_coasting_partial", "Verif.Props.C91_violated"], "note": "Real arithmetic, step sequences of any length. The code violates the claim at very high speed; proved while c|v|dt <= m at the start, with the exact quadratic-drag bound."},
  {"property": "C92", "status": "partial", "theorems": ["Verif.Props.C92_terminal_partial", "Verif.Props.C92_violated"], "note": "Real arithmetic, step sequences of any length. The code violates the claim (gravity is not multiplied by the mass; long steps overshoot); proved with the final speed the code has, for short steps."},
  {"property": "C93", "status": "proved", "theorems": ["Verif.Props.C93_accel_drift"], "note": "Real arithmetic; all histories and sample sequences. The bound is attained (example)."},
  {"property": "C94", "status": "proved", "theorems": ["Verif.Props.C94_gyro_drift"], "note": "Real arithmetic; all histories and sample sequences. Uses that projecting on the unit sphere from outside does not increase distances."},
  {"property": "C95", "status": "proved", "theorems": ["Verif.Props.C95_convergence", "Verif.Props.C95_every_flight"], "note": "Real arithmetic, no noise, constant command and external force. The right-hand side is the one of C18_euler_partial, not the documented one; C95_every_flight adds that the solution always exists (C140)."},
  {"property": "C96", "status": "proved", "theorems": ["Verif.Props.C96_scalar_law"], "note": "Real arithmetic, anti-windup >= 0 (C66 shows the negative case is undefined); reset_integral_flag off or anti-windup > 0 (with anti-windup 0 the flag zeroes the integral at sign changes)."},
  {"property": "C97", "status": "proved", "theorems": ["Verif.Props.C97_limits_scalar", "Verif.Props.C97_limits_vector"], "note": "Real arithmetic. The vector version excludes the proportional limiting mode, which is treated in C56."},
  {"property": "C98", "status": "proved", "theorems": ["Verif.Props.C98_scalar_reset", "Verif.Props.C98_scalar_no_kick"], "note": "Any arithmetic, undefined calls included; C98_scalar_no_kick over the reals."},
  {"property": "C99", "status": "proved", "theorems": ["Verif.Props.C99_read_back_scalar", "Verif.Props.C99_read_back_vector"], "note": "Real arithmetic. The storing of rejected limits in the vector PID is part of the statement (C62)."},
  {"property": "C100", "status": "proved", "theorems": ["Verif.Props.C100_orientation_rounded", "Verif.Props.C100_odometry_rounded"], "note": "Standard model of rounding: relative error per operation, no overflow, underflow or NaN, no fused multiply-add. Round-to-nearest with 53 binary digits is an instance (binary 53)."},
  {"property": "C101", "status": "proved", "theorems": ["Verif.Props.C101_renumbering", "Verif.Props.C101_construction", "Verif.Props.C101_allocation"], "note": "Real arithmetic (rounded sums depend on the order). Lists of the wrong length are left unchanged by the renumbering; they are rejected or undefined before and after. Access through reference getters is conjugated with the renumbering."},
  {"property": "C102", "status": "proved", "theorems": ["Verif.Props.C102_rounded_convergence", "Verif.Props.C102_every_flight"], "note": "Standard model of rounding (no overflow, underflow or NaN); the parameters are the exact values of the rounded vehicle. The inverse of the inertia matrix is computed with cofactors as Eigen does. C102_every_flight adds that the solution always exists (C140)."},
  {"property": "C103", "status": "partial", "theorems": ["Verif.Props.C103_directions_partial", "Verif.Props.C103_violated"], "note": "Violated by std::signbit with an error of exactly zero while the reset option is on (error zero means +0.0, the value of the difference of equal numbers). Proved for every history with the option off, or with no error component exactly zero."},
  {"property": "C104", "status": "proved", "theorems": ["Verif.Props.C104_mirror", "Verif.Props.C104_construction", "Verif.Props.C104_left_right", "Verif.Props.C104_cross", "Verif.Props.C104_allocation"], "note": "Over the reals. Random disturbances are excluded because the code adds the stochastic force to the torque as well; integral reset because of C103. Yaw references agree up to full turns (a yaw of pi is its own mirror image)."},
  {"property": "C105", "status": "proved", "theorems": ["Verif.Props.C105_calls", "Verif.Props.C105_main", "Verif.Props.C105_trajectory", "Verif.Props.C105_as_shipped"], "note": "Over the reals, so that the loop variable t is an exact multiple of the step. The trajectory generator (an external library) is a parameter."},
  {"property": "C106", "status": "proved", "theorems": ["Verif.Props.C106_plan"], "note": "Over the reals; the trajectory generator (an external library) is a parameter."},
  {"property": "C107", "status": "partial", "theorems": ["Verif.Props.C107_shipped_partial", "Verif.Props.C107_heading_partial", "Verif.Props.C107_course_partial", "Verif.Props.C107_violated"], "note": "Violated after a take-off: the course asks for heading zero at once. The partial theorems say when the heading is kept and what is asked for otherwise."},
  {"property": "C108", "status": "proved", "theorems": ["Verif.Props.C108_values", "Verif.Props.C108_complete", "Verif.Props.C108_only"], "note": "For any arithmetic. The file is a map from keys to numbers; the YAML library is not modelled."},
  {"property": "C109", "status": "proved", "theorems": ["Verif.Props.C109_vehicle", "Verif.Props.C109_flight", "Verif.Props.C109_trajectory"], "note": "Over the reals; the file is transcribed in Spec/Config.lean."},
  {"property": "C110", "status": "partial", "theorems": ["Verif.Props.C110_mode_violated", "Verif.Props.C110_arm_violated", "Verif.Props.C110_reset_partial", "Verif.Props.C110_proportional_partial"], "note": "Violated: the simulator never resets the controller, so integrals survive a change of mode and a disarming (C110_mode_violated, C110_arm_violated). Holds if the user resets the controller (any arithmetic) and for tunings without integral and derivative action."},
  {"property": "C111", "status": "proved", "theorems": ["Verif.Props.C111_step", "Verif.Props.C111_threshold", "Verif.Props.C111_converges", "Verif.Props.C111_half_turn", "Verif.Props.C111_shipped"], "note": "Proved: exact one-step formula and threshold for equal gains, geometric convergence for any gains between bounds (not necessarily symmetric), the example gains as instance, and the half-turn attitudes that are excluded never move. That the vehicle turns at the commanded rates is a hypothesis (Follows), satisfiable by every vehicle of the model."},
  {"property": "C112", "status": "proved", "theorems": ["Verif.Props.C112_settings", "Verif.Props.C112_bias", "Verif.Props.C112_readings"], "note": "Proved as a complete description of the IMU over its history: C112_settings, C112_bias, C112_readings (intensities must not be negative, otherwise the square root is NaN)."},
  {"property": "C113", "status": "partial", "theorems": ["Verif.Props.C113_balance_partial", "Verif.Props.C113_yaw_partial", "Verif.Props.C113_violated"], "note": "Violated: the code has the torque of accelerating rotors but not the gyroscopic torque of spinning ones (C113_violated). Proved: the balance up to exactly that term, and conservation about the vertical body axis over any sequence of steps for symmetric airframes."},
  {"property": "C114", "status": "partial", "theorems": ["Verif.Props.C114_attitude_partial", "Verif.Props.C114_offset_partial", "Verif.Props.C114_integral", "Verif.Props.C114_rest", "Verif.Props.C114_violated"], "note": "Violated for masses other than one: the dynamics add gravity as a force, so a vehicle with proportional loops rests at the height error (1-1/m) g/(kp kv) (C114_violated). Proved: the exact rest states (existence, and uniqueness unless half a turn away from the demanded attitude); with free integrators in the velocity loop the reference is reached for every mass."},
  {"property": "C115", "status": "partial", "theorems": ["Verif.Props.C115_pid", "Verif.Props.C115_units_partial", "Verif.Props.C115_construction", "Verif.Props.C115_allocation", "Verif.Props.C115_arming", "Verif.Props.C115_violated", "Verif.Props.C115_weight", "Verif.Props.C115_accelerometer", "Verif.Props.C115_resolution"], "note": "Violated: arming sets the thrust reference 9.81 in every unit (C115_violated), gravity enters as a force (C115_weight), the accelerometer is given a force (C115_accelerometer), limits closer than a fixed distance are refused (C115_resolution). Proved for histories in which the vehicle is not armed in acro mode, for any unit of length, and for another unit of mass in the absence of gravity. The unit of time is left out because the largest integration step is a fixed number of seconds."},
  {"property": "C116", "status": "partial", "theorems": ["Verif.Props.C116_top_speed_partial", "Verif.Props.C116_violated"], "note": "Violated when the steps are too long for the drag (C116_violated: drag 1000000). Proved for 2 c U <= 100 m, c the drag, U the top speed, m the mass."},
  {"property": "C117", "status": "partial", "theorems": ["Verif.Props.C117_never_rises_partial", "Verif.Props.C117_violated"], "note": "Violated because the dynamics apply gravity without the mass (C117_violated: 16 N lift 2 kg). Proved with the gravity that the dynamics apply; with drag, for speeds that the steps resolve."},
  {"property": "C118", "status": "partial", "theorems": ["Verif.Props.C118_reads_back_partial", "Verif.Props.C118_figures", "Verif.Props.C118_mixed", "Verif.Props.C118_violated", "Verif.Props.C118_draws_all"], "note": "Violated for a NaN reference (C118_violated), which shifts the columns; a flight where only some moments have NaN makes the script end with an exception (C118_mixed). Proved for all flights whose references and commands are numbers."},
  {"property": "C119", "status": "partial", "theorems": ["Verif.Props.C119_view_partial", "Verif.Props.C119_violated"], "note": "Violated below height zero (C119_violated): the vertical axis starts at zero. Proved: a position is shown exactly if its height is not negative."},
  {"property": "C120", "status": "partial", "theorems": ["Verif.Props.C120_unused_references_partial", "Verif.Props.C120_violated"], "note": "Violated for the rotor speeds and the yaw rate, which a change of mode does not clear: values given in another mode come into force with a later change (C120_violated). Proved for all other references in all histories, and for these two while the mode is not changed."},
  {"property": "C121", "status": "proved", "theorems": ["Verif.Props.C121_rounded_pid", "Verif.Props.C121_double"], "note": "Proved for the vector PID without proportional limiting and integral reset, from construction on; by C58 the same holds after a reset. Overflow and underflow are not represented."},
  {"property": "C122", "status": "proved", "theorems": ["Verif.Props.C122_traffic", "Verif.Props.C122_settings", "Verif.Props.C122_answers"], "note": "Proved for all histories and any arithmetic; demands of outer loops are taken as reported by the getters, which C53 and C81 tie to the loops."},
  {"property": "C123", "status": "proved", "theorems": ["Verif.Props.C123_parts", "Verif.Props.C123_switches", "Verif.Props.C123_vehicle", "Verif.Props.C123_rebuild"], "note": "Proved for all histories and any arithmetic."},
  {"property": "C124", "status": "partial", "theorems": ["Verif.Props.C124_new_vehicle_partial", "Verif.Props.C124_inherits", "Verif.Props.C124_violated"], "note": "Violated: the contact flag survives set_dynamics_params, so the first update of the new vehicle is without noise if the last update of the old one ended in floor contact (C124_violated, in general C124_inherits). Proved for all other histories (C124_new_vehicle_partial)."},
  {"property": "C125", "status": "proved", "theorems": ["Verif.Props.C125_bias", "Verif.Props.C125_reading", "Verif.Props.C125_independent", "Verif.Props.C125_increments"], "note": "Over the reals, for samples that are independent standard normal variables (the ideal std::normal_distribution); such a source exists (example). Law of biases and readings, independence of axes and sensors, independent increments."},
  {"property": "C126", "status": "proved", "theorems": ["Verif.Props.C126_velocity"], "note": "Over the reals, for samples that are independent standard normal variables. The rotation is disturbed too but does not act on the velocity without thrust and drag."},
  {"property": "C127", "status": "proved", "theorems": ["Verif.Props.C127_precision", "Verif.Props.C127_log"], "note": "Over the reals (no NaN, no negative zero). The printer is a model of the C library conversion %g, the reader of Python float(); this also discharges the assumptions on printer and reader of C118."},
  {"property": "C128", "status": "partial", "theorems": ["Verif.Props.C128_times_partial", "Verif.Props.C128_violated"], "note": "Violated: the logger prints six digits, so after 1000 s two lines a millisecond apart have the same time (C128_violated). Proved for periods of at least 1 ms and logs of at most 1000 s (C128_times_partial)."},
  {"property": "C129", "status": "proved", "theorems": ["Verif.Props.C129_settles", "Verif.Props.C129_unstable"], "note": "Exact real arithmetic, no noise, no limits in the velocity loop; the controller and the dynamics run once per cycle with the same dynamics period. C129_settles is local: a radius around the equilibrium exists. C129_unstable shows the gain bound is the exact threshold."},
  {"property": "C130", "status": "partial", "theorems": ["Verif.Props.C130_offset", "Verif.Props.C130_requested_partial", "Verif.Props.C130_violated"], "note": "Violated: gravity enters the dynamics as a force that is not multiplied by the mass while the controller multiplies it by the mass, so the speed settles at v + (1-1/m)g/k (C130_offset; witness of mass 2 that is asked for 1 m/s and climbs at 3.5 m/s for ever). Proved for unit mass (C130_requested_partial)."},
  {"property": "C131", "status": "proved", "theorems": ["Verif.Props.C131_settles"], "note": "Exact real arithmetic, no noise; local: a radius around the trimmed flight exists. Vertical motion only."},
  {"property": "C132", "status": "proved", "theorems": ["Verif.Props.C132_settles", "Verif.Props.C132_shipped"], "note": "Exact real arithmetic, no noise; local. C132_shipped takes all numbers from the shipped file as read by the modelled parser, except that the process noise is switched off."},
  {"property": "C133", "status": "partial", "theorems": ["Verif.Props.C133_requested_partial", "Verif.Props.C133_violated"], "note": "Violated by the shipped file: its anti-windup bound 1 limits the integral contribution to 2 m/s^2, which carries the drag only up to sqrt(20) = 4.47 m/s. Asked for 5.05 m/s the shipped quadrotor climbs at 5 m/s for ever (C133_violated, the numbers are read from the file by the modelled parser). Proved if the accumulated error stays off its bound (C133_requested_partial)."},
  {"property": "C134", "status": "proved", "theorems": ["Verif.Props.C134_settles_iff"], "note": "Exact real arithmetic."},
  {"property": "C135", "status": "partial", "theorems": ["Verif.Props.C135_converted", "Verif.Props.C135_nearest_partial", "Verif.Props.C135_excess", "Verif.Props.C135_violated"], "note": "Violated: the limits are parameters of type float, so a double limit such as 0.1 is rounded first and components may end beyond it (C135_violated). Proved for single precision limits (C135_nearest_partial), with the exact case of undefined behaviour (C135_converted) and a bound on the excess (C135_excess)."},
  {"property": "C136", "status": "proved", "theorems": ["Verif.Props.C136_memory", "Verif.Props.C136_only_settings_in_force", "Verif.Props.C136_memory_scalar", "Verif.Props.C136_only_settings_in_force_scalar"], "note": "Any arithmetic."},
  {"property": "C137", "status": "partial", "theorems": ["Verif.Props.C137_realised_partial", "Verif.Props.C137_attainable_partial", "Verif.Props.C137_violated"], "note": "Violated: the rate loop ignores the limits of the rotors; asked for 4 N and a yaw rate of 8 rad/s, two rotors would have to pull downwards, stand still, and the thrust becomes 6 N (C137_violated). Proved: thrust and torque are brought about if and only if every commanded speed is within its limits (C137_realised_partial), and a condition in terms of thrust and torque (C137_attainable_partial)."},
  {"property": "C138", "status": "partial", "theorems": ["Verif.Props.C138_law_partial", "Verif.Props.C138_equal_periods_partial", "Verif.Props.C138_violated"], "note": "Violated: the measurement noise has the same variance at every update whatever the period, so one update of two seconds gives the velocity the variance 8, two of one second the variance 6 (C138_violated). Proved: the distribution is normal around the true velocity with a variance given in closed form for any division of the time (C138_law_partial) and for equal periods (C138_equal_periods_partial)."},
  {"property": "C139", "status": "proved", "theorems": ["Verif.Props.C139_attracts", "Verif.Props.C139_described", "Verif.Props.C139_settles", "Verif.Props.C139_shipped"], "note": "The whole cycle is linearised at hover, its modes are computed axis by axis, and the linearised cycle is shown to decay; C139_shipped certifies the roots of the shipped tuning (degrees ten, five and five) by sign changes. An accumulated position error is allowed in the trim. Without process noise (see C143)."},
  {"property": "C140", "status": "proved", "theorems": ["Verif.Props.C140_existence", "Verif.Props.C140_unique"], "note": "Solutions are bounded in advance by energy estimates for rotors, rotation, velocity and position; a solution of the equation cut off beyond the bound is then a solution of the equation itself."},
  {"property": "C141", "status": "proved", "theorems": ["Verif.Props.C141_existence", "Verif.Props.C141_convergence"], "note": "Real arithmetic, no noise. The switching times are multiples of the update period. C141_existence glues the motions of C140; uniqueness on each hold is C140_unique."},
  {"property": "C142", "status": "proved", "theorems": ["Verif.Props.C142_shipped", "Verif.Props.C142_attracts", "Verif.Props.C142_described", "Verif.Props.C142_settles"], "note": "In trajectory mode the cycle is that of position hold with the gains split as kp/kd, ki/kd and kd, relative to the moving point; the roots of the shipped tuning (degrees eight and four) are certified by the test of Jury. Without process noise. With drag, a moving reference is not reached exactly and is not covered."},
  {"property": "C143", "status": "proved", "theorems": ["Verif.Props.C143_withstands", "Verif.Props.C143_settles", "Verif.Props.C143_likely", "Verif.Props.C143_shipped"], "note": "The cycle with noise is the cycle of C139 plus a disturbance; a norm in which the linearised cycle contracts bounds its effect. The bound on the probability is the union bound over the samples and is only informative for intensities that are small compared with the square of the radius, which is not computed."},
  {"property": "C144", "status": "proved", "theorems": ["Verif.Props.C144_likely", "Verif.Props.C144_shipped", "Verif.Props.C144_follows", "Verif.Props.C144_settles", "Verif.Props.C144_path"], "note": "A reference acceleration acts like a larger reference velocity; the changes of the reference, the drag seen by an observer moving with it and the noise are disturbances of the cycle of C142. The radius is not computed."},
  {"property": "C145", "status": "proved", "theorems": ["Verif.Props.C145_tracks", "Verif.Props.C145_described", "Verif.Props.C145_settles", "Verif.Props.C145_likely", "Verif.Props.C145_shipped"], "note": "Seen by an observer moving at the requested velocity, changes of the command, drag and noise are disturbances of the cycle at hover, in which the position plays no part; the roots of its characteristic polynomials are bounded for the shipped tuning by the Jury criterion. The radius is not computed."},
  {"property": "C146", "status": "proved", "theorems": ["Verif.Props.C146_tracks", "Verif.Props.C146_described", "Verif.Props.C146_settles", "Verif.Props.C146_likely", "Verif.Props.C146_shipped"], "note": "The cycle of rates, rotors and rate controller is independent of position and attitude. It is strictly differentiable at rest although the aerodynamic torque is only once differentiable there, so all cycles with small requested rates contract one norm; their fixed points are the steady rotations. For the shipped tuning the roots are bracketed for all thrusts between 0.1 N and 36 N at once. The radius is not computed."},
  {"property": "C147", "status": "partial", "theorems": ["Verif.Props.C147_violated", "Verif.Props.C147_damped_partial"], "note": "Violated at low thrust: at 0.0191 N the yaw rate has a real mode below -1, so small deviations alternate and grow beyond any multiple of their size. Between 0.1 N and 36 N the claim is proved with exponential decay."},
  {"property": "C148", "status": "proved", "theorems": ["Verif.Props.C148_turns", "Verif.Props.C148_keeps", "Verif.Props.C148_shipped"], "note": "The rate errors of C146 are summed over the cycles; one step of the attitude integrator is compared with the exponential, whose angle it misses by a third of the cube of half the angle. The ideal body is described with the quaternion exponential, independently of the integrator of the model."},
  {"property": "C149", "status": "proved", "theorems": ["Verif.Props.C149_repeats", "Verif.Props.C149_oracle"], "note": "The engine and the stored sample of the distribution are modelled explicitly; every public call draws an even number of samples. The theorem C149_oracle also justifies the treatment of randomness in the rest of the model."},
  {"property": "C150", "status": "partial", "theorems": ["Verif.Props.C150_violated", "Verif.Props.C150_positive_partial", "Verif.Props.C150_repeats_partial", "Verif.Props.C150_imu_partial"], "note": "Violated for std::minstd_rand0, the default engine of the GNU library: the default seed 0 gives the numbers of the seed 1, -1 those of 3. Proved: the seeds from 1 to 2147483646 differ at every place, and every other seed repeats one of them."},
  {"property": "C151", "status": "proved", "theorems": ["Verif.Props.C151_attracts", "Verif.Props.C151_settles", "Verif.Props.C151_shipped"], "note": "C151_attracts covers controllers with any memory, C151_settles freshly constructed ones, C151_shipped the shipped file. Sine, cosine and the inverse of the mixer matrix of the arithmetic are assumed to be accurate up to a fixed multiple of u; overflow and underflow are not modelled. How small u must be is not computed."},
  {"property": "C152", "status": "proved", "theorems": ["Verif.Props.C152_shares", "Verif.Props.C152_turns"], "note": "C152_shares for every demand, C152_turns for the first command after a reset and demands about one axis."},
  {"property": "C153", "status": "proved", "theorems": ["Verif.Props.C153_rates", "Verif.Props.C153_leans", "Verif.Props.C153_dead"], "note": "C153_rates closed form, C153_leans signs, C153_dead the boundary of the claim."},
  {"property": "C154", "status": "partial", "theorems": ["Verif.Props.C154_carried_partial", "Verif.Props.C154_violated"], "note": "The code violates the claim (gravity lacks the factor mass); proved that it holds exactly for mass 1 or without gravity, with the exact first motion otherwise."},
  {"property": "C155", "status": "partial", "theorems": ["Verif.Props.C155_rates_partial", "Verif.Props.C155_level_partial", "Verif.Props.C155_violated"], "note": "The code violates the claim (looking straight up the reported roll jumps by a quarter turn); proved that away from there the angles have exactly the derivatives of the aeronautical kinematics, which are the body rates only at a level attitude."},
  {"property": "C156", "status": "proved", "theorems": ["Verif.Props.C156_unnoticed", "Verif.Props.C156_arming", "Verif.Props.C156_shipped_cruise", "Verif.Props.C156_hold", "Verif.Props.C156_path", "Verif.Props.C156_shipped", "Verif.Props.C156_shipped_path", "Verif.Props.C156_cruise", "Verif.Props.C156_rounded"], "note": "C156_unnoticed holds in any arithmetic and for histories with exceptions; C156_hold, C156_path, C156_cruise, C156_rounded, C156_shipped, C156_shipped_path and C156_shipped_cruise carry C143, C144, C145 and C151 over to an enabled floor. C156_arming shows that the exception for arming is needed."},
  {"property": "C157", "status": "proved", "theorems": ["Verif.Props.C157_lands_within", "Verif.Props.C157_lands", "Verif.Props.C157_whatever", "Verif.Props.C157_shipped", "Verif.Props.C157_spinning", "Verif.Props.C157_disarm", "Verif.Props.C157_stays"], "note": "C157_lands_within gives the number of updates explicitly, C157_lands that there is one; landing is followed by the state of C15. C157_spinning starts with turning rotors, C157_disarm with a call of disarm in flight, C157_shipped with the vehicle of the shipped file; C157_whatever and C157_stays allow other calls in between. The bound on the speed is the one under which explicit Euler steps of the drag are damping."}
]}
