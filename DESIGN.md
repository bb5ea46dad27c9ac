# Design: a Lean 4 model of RPS98/quadrotor_model

The repository is a header-only C++ library: two PID controllers (`pid.hpp`, `pid_1d.hpp`), a
multirotor rigid-body model with process noise (`model.hpp`, `dynamics.hpp`, `state.hpp`,
`utils.hpp`), an IMU and an inertial odometry (`imu.hpp`, `inertial_odometry.hpp`), a cascaded flight
controller (`multirotor_controllers.hpp`, `controllers/*.hpp`) and a simulator façade that joins them
(`multirotor_simulator.hpp`). The C++ code is neither built nor run here; it is read as text.

## 1. How the code is modelled

**Scalars.** Every definition is generic over a type `α` with the operation class `Flt α`
(`Verif/Scalar.lean`): literals, `+ - * /`, `sqrt sin cos asin atan2 copysign abs`, boolean comparisons,
`signbit`, an n-ary sum `vsum` (Eigen reductions have unspecified association order), and the Eigen
kernels `det` and `inverse` for 3x3 and 4x4 matrices. `Flt` has **no laws**, so a theorem for all `Flt α`
holds for IEEE double/float with rounding, infinities and NaN as well as for reals. Three levels of theorem:

* *any arithmetic* (`[Flt α]`, occasionally with the tiny law class `LawfulFlt α` whose laws IEEE
  comparison satisfies, NaN included): control flow, frame conditions, bounds by clamping, state machines,
  non-interference, reset equivalence;
* *real arithmetic* (`α := ℝ`): algebra, geometry, convergence. Rounding error is **not** modelled there;
* *rounded arithmetic* (`Fl A`): each operation returns the exact result times 1 + δ, |δ| ≤ u, for an arbitrary
  rounding function; sums in any order. No overflow, underflow, NaN or fused multiply-add. Negation, absolute
  value and comparisons are exact;
* *extended reals with NaN* (`XReal`): witnesses for division by zero and NaN findings.

**Vectors and matrices** are functions `Fin n → α`, `Matrix (Fin m) (Fin n) α`; `n` (template parameters
`num_rotors`, `dim`) is arbitrary except where the C++ itself fixes 4 (mixer inverse).

**Outcomes.** `Res σ = ok s | throw s | bad`. `throw s` keeps the state at the throw. `bad` stands for
undefined behaviour or a failing `assert`/`eigen_assert`: out-of-range access to the `motors` vector,
`std::clamp` with `hi < lo`, signed overflow of the `int` sub-step counter, reads of members that were never
initialised, `assert` in the mixer (direction ±1) and in the odometry constructor (0 < alpha ≤ 1).

**Randomness.** A generator is a pair (seed, number of triples drawn) and an oracle `Noise.draw seed k`
gives the k-th triple of standard normals. Theorems quantify over every oracle. The C++ evaluates three
`distribution(generator)` calls as constructor arguments in unspecified order — hence the triple is the
unit. Each public call draws a multiple of six values, so the one-value cache that
`std::normal_distribution` may hold is empty between public calls: C149 proves this for the IMU on a model with the
engine and the cache (`Model/Sampler.lean`), and that the oracle stands for them.  C150 uses the definition of
`std::minstd_rand0` (`Model/Engine.lean`).  C125 and C126 speak about distributions: there
the samples of a seed are assumed to be independent standard normal random variables on some probability space.

**Histories.** `PidOp`, `ImuOp`, `SimOp`... list the public mutating calls; run functions fold them.
Non-const reference getters (`get_dynamics()` etc.) are modelled as arbitrary mutation of the component.

**Text output.** The CSV operators of the state and the odometry and the logger of the examples
(`CsvLogger`) are modelled as character lists; a number is printed by an arbitrary function.
For C127 and C128 this function is `Decimal.print`, the conversion `%g` with six digits, and `float` is `Decimal.parse`
(real numbers in place of doubles, no negative zero).
The plotting script (`examples/plot_results.py`, Model/Plot.lean) is modelled from the lines of the file to the curves,
axis limits and printed errors; `float()` is an arbitrary partial function, an uncaught Python exception is `none`.

**Not modelled.** Messages to `std::cout`, `verbose` flags, compile-time template rejection, thread
interleavings (the library has none), performance, floating-point rounding in the real-arithmetic theorems.
The examples are modelled with two simplifications: a configuration file is a function from key paths to
numbers (the YAML syntax is not modelled; the assignments of `YAML::Node` in the readers, which make the node
assigned to an alias in the loaded tree, are harmless because no node is read after it was assigned to), and a trajectory generator, which is an external library, is an
arbitrary function of time.

## 2. Trusted base

Lean 4.33.0 kernel; Mathlib definitions used in statements (ℝ, `Real.sqrt`, `Real.sin`, `Complex.arg`,
`Matrix.det`, `Matrix.inv`); axioms `propext`, `Classical.choice`, `Quot.sound` only; my reading of the
C++ and of Eigen/std semantics listed in section 1. No own axioms.

## 3. Plan per property

* **C01** The vehicle is never observed below an enabled floor — simulator `updateDynamics` for any arithmetic; case split on the final floor test.
* **C02** A disarmed vehicle commands zero rotor speed, at any moment of any history — invariant over `SimOp` lists from the constructor.
* **C03** The vehicle orientation stays a unit quaternion forever — `process` over ℝ: the norm of q + dt q̇ is bounded below by |q| since q̇ ⟂ q; invariant over histories.
* **C04** Rotor speeds never leave their physical limits — clamp model; any lawful arithmetic; needs ordered limits, which acceptance guarantees.
* **C05** A non-positive time step is rejected without side effects on the vehicle — `throw` outcome carries the state; witness for the leaked external force.
* **C06** An update of dt seconds simulates exactly dt seconds — sub-step count = ⌈dt/0.01⌉ over ℝ; ideal statement refuted, `_partial` for dt ≤ 0.01 or multiples.
* **C07** Floor contact resets exactly the documented parts — case split; equality with the unconstrained step written in the spec.
* **C08** The floor reaction force never leaks into later updates — invariant over exception-free histories; witness of the leak after an exception.
* **C09** Process noise is suppressed exactly in the update after a floor contact — generator position before/after one update.
* **C10** Changing the control mode captures the current pose and clears motion references — record equality.
* **C11** References are last-writer-wins registers — refinement to an abstract register file (`RefSpec`) over histories.
* **C12** The controller update only computes commands — record equality in all modes.
* **C13** Sensors never influence the flight — simulation relation ignoring sensor fields; projection of histories.
* **C14** Sensor updates and controller updates can be interleaved in any order — record equality.
* **C15** A parked vehicle stays parked — two-phase invariant (contact step / noise-free step) over ℝ.
* **C16** With perfect sensors the inertial odometry reproduces the true motion — induction on cycles with relation q_odom(k) = q_true(k+1).
* **C17** Hover is an equilibrium of the closed loop — invariant over any number of cycles for mass 1; exact drift for every mass; refutation for mass 2.
* **C18** One dynamics step is the explicit Euler step of the documented rigid-body equations — separate spec of the ODE right-hand side; `_partial` with the two deviating terms made explicit; refutations.
* **C19** All bodies fall with the acceleration of gravity — one step at rest: acceleration = g/m; refutation for m=2; `_partial` m=1.
* **C20** Torque noise is what disturbs the rotation — refutation with a witness; `_partial`: when both samples agree.
* **C21** Rotors approach the commanded speed monotonically without overshoot — closed form by induction, limit by geometric convergence.
* **C22** Quaternion integration is norm preserving and never degenerates — ring identity plus normalisation.
* **C23** The dynamics do not depend on where the vehicle is — simulation relation over any list of steps.
* **C24** Drag and aerodynamic torque only remove energy — sum of -c|v|^3; refutation of the torque half; `_partial` for PSD coefficient matrix.
* **C25** Parameter updates of the model are all-or-nothing — record equality on the reject branch, getters on the accept branch, any arithmetic.
* **C26** Validation accepts exactly the physically meaningful models — exact characterisation; refutations for zero mass, τ=0, indefinite inertia, rotor count, NaN.
* **C27** Rotor forces and torques add up to the rigid-body wrench — finite sums over ℝ against a spec written with cross products.
* **C28** Predefined airframes are balanced — symbolic matrices over ℝ; documented matrices as literals in the spec.
* **C29** The 4-row mixer is the vertical part of the 6-row mixer — entrywise, any rotor list.
* **C30** The allocation matrix inverts the airframe — explicit inverse / determinant.
* **C31** Signed square and signed root are inverse to each other — sign algebra, any n.
* **C32** Zero noise correlations mean no noise — noise sample is zero; step equality.
* **C33** The reported mixer matrix is the mixer in use — member is `none` through every history (indeterminate): refuted.
* **C34** A non-positive IMU period changes nothing — record equality, any arithmetic.
* **C35** A noise-free IMU reports the rotated truth plus its bias — ℝ, induction on updates.
* **C36** The IMU mounting rotation is always consistent — invariant over IMU histories, any arithmetic.
* **C37** IMU reset forgets biases and readings but not the configuration — record equality and bisimulation.
* **C38** IMU biases perform the documented random walk — closed form by induction.
* **C39** The odometry orientation stays a unit quaternion — as C03.
* **C40** The odometry filter is a bounded low-pass filter — convexity induction; geometric limit.
* **C41** Odometry reset is a complete restart — bisimulation, any arithmetic.
* **C42** Odometry dead-reckons by summing what it reports — induction.
* **C43** Commanded thrust is never negative and never exceeds the demand — branch analysis; Cauchy-Schwarz.
* **C44** The attitude demand is a genuine rotation pointing the thrust and the nose correctly — vector algebra in ℝ³.
* **C45** The attitude loop always turns towards the demand — derivative of the trace function along R·hat(ω).
* **C46** Degenerate thrust demands give a defined command — case analysis with Eigen's normalize-if-nonzero semantics; operator bounds.
* **C47** The commanded rotor speeds realise the commanded wrench — composition of INDI, signed root/square, mixer inverse.
* **C48** The rate loop inverts the rotational dynamics — composition with the dynamics step.
* **C49** An aligned vehicle realises the demanded acceleration — composition; refuted for m≠1, `_partial` m=1.
* **C50** In yaw-rate mode a level vehicle is commanded the requested yaw rate — closed form kp·sin(rate/kp); refutation; `_partial` with the exact value, sign and a cubic error bound.
* **C51** Resetting the controller forgets all history — bisimulation over controller call lists, any arithmetic.
* **C52** Control loops are isolated from each other — record equality.
* **C53** Position control is the documented cascade — record equality.
* **C54** Live parameter updates change gains, not memory — record equality.
* **C55** An enabled output limit is always respected — invariant-free: last branch of `computeControl`, with limits ordered by an invariant over histories.
* **C56** Proportional limiting keeps direction and respects limits — sequential scaling over ℝ; refutation for limits excluding 0; `_partial` otherwise.
* **C57** The integral term is bounded by the anti-windup constant — clamp bound.
* **C58** Resetting a PID forgets all history — bisimulation.
* **C59** No derivative kick on the first call — ℝ.
* **C60** The PID computes the textbook control law — closed form by induction.
* **C61** The derivative filter never amplifies — induction.
* **C62** Setting output limits succeeds exactly for ordered limits and is otherwise without effect on the limits — loop analysis, any arithmetic; refutation of the second half for n ≥ 2.
* **C63** Reading back parameters and re-applying them changes nothing — refutation; `_partial` when limits and flag agree.
* **C64** The reset-integral option acts when the integral is saturated and the error changes sign — bisimulation showing the flag inert (refutation of the claim).
* **C65** The vector PID is a bank of independent 1-D PIDs — simulation relation per axis.
* **C66** The 1-D PID is free of undefined behaviour — outcome analysis; witness with negative constant.
* **C67** A zero time step cannot poison a limited PID — XReal witness.
* **C68** Reported Euler angles describe the orientation — trigonometric identities through `Complex.arg`.
* **C69** Every CSV record has the same number of fields — text modelled; splitting at commas gives exactly the documented fields.
* **C70** Every line of the flight log has the columns of its header — exact fields of each line; refuted by a NaN reference.
* **C71** Call histories on an accepted vehicle are free of undefined behaviour — invariant "initialised, accepted, limits ordered" over `SimOp` lists; refuted by rejected parameters.
* **C72** The example flights complete — loop invariant over passes with the exact time j·dt; number of passes ⌈T/dt⌉.
* **C73** A flight with enough time visits all its references — the same invariant carries the schedule j / (⌊T/(N dt)⌋+1); refutation with two references.
* **C74** The time stamps of a flight log are distinct — first field of every line; refuted by the first two lines.
* **C75** The controller of the examples knows its vehicle — unfolding the parameter functions for any file, any arithmetic.
* **C76** The odometry of the examples starts with the state of the vehicle — exact condition; refuted by a file with a non-zero initial position.
* **C77** The sign of an orientation quaternion is unobservable — simulation relation preserved by every call (`Sim.trace_rel`).
* **C78** The origin of coordinates does not matter — the same, relation "displaced by v".
* **C79** Full turns of the yaw reference do not matter — the same, relation "yaw references differ by 2πk".
* **C80** The flight does not depend on the compass direction — turn relation over `runDyn`; quaternion product commutes with the integrator; refuted with drag at 45°.
* **C81** The acro controller reports the demand it computed — invariant "reported thrust is 0" over `CtlOp` lists; refuted by an upward demand.
* **C82** A vehicle leaves the floor exactly when its thrust exceeds its weight — exact height after two updates; refuted with mass 2.
* **C83** Rotors run out after disarming — invariant over histories, sub-step bound by `1+x ≤ exp x`; refuted with minimum speed 1.
* **C84** Rotation about a fixed axis turns through rate times time — normalised quaternion increment equals a turn by the arctangent; induction; refuted at 200 rad/s.
* **C85** Free rotation conserves energy — exact increment of the quadratic form; refuted by a tumbling body.
* **C86** Free motion follows a parabola — closed form of the Euler sums; refuted by the first step.
* **C87** Finite numbers stay finite — the embedding of the reals commutes with every call (`Lemmas/Finite*.lean`); refuted by a controller update with period 0.
* **C88** A period that is not a positive finite number is rejected — case split; NaN invariant over histories; refuted by NaN.
* **C89** Vehicle and sensor noise are different random numbers — two worlds with different random sources: what the flight and the biases can depend on; refuted by equal seeds.
* **C90** A long update is a sequence of short ones — without a floor the simulator update is the vehicle update, then C06; refuted by a vehicle sinking through a floor.
* **C91** Coasting — induction with the invariant 1/|v_k| ≥ 1/|v_0| + (c/m)T; refuted at 500 m/s.
* **C92** Terminal velocity — factorised recursion of the error, squeeze; refuted with mass 2.
* **C93** Accelerometer drift — filter is a convex combination, rotation an isometry; induction over the samples.
* **C94** Gyroscope drift — the integrator as a product with a normalised quaternion; 1-Lipschitz normalisation; Mathlib quaternion norm.
* **C95** Convergence of the integration — consistency and stability of a one-step method on a bounded set, discrete Gronwall, renormalisation as a second-order error.
* **C96** Textbook law of the 1-D PID — closed form by induction over the calls.
* **C97** Limits in force — fold over the configuration calls, for both PIDs.
* **C98** Reset of the 1-D PID — simulation relation, undefined outcomes included.
* **C99** Reading back the parameters — last-writer semantics for both PIDs.
* **C100** Orientation under rounding — error algebra `Near` for the standard model of floating point; the length is pulled back to one at every step, so the bound does not grow.
* **C101** Rotor numbering — the renumbering is a function on simulators and calls that commutes with every call; sums reindexed, inverse of a column permutation.
* **C102** Convergence in rounded arithmetic — every quantity of one step approximates its real counterpart up to a multiple of `u` on bounded sets (closed under the operations of the code); one-step method with perturbed steps.
* **C103** Reversed PID axes — violated (sign of zero); simulation of the reversed state machine otherwise, with the invariant that the limits in force are ordered.
* **C104** Mirror images — reflection of every object and every call; one step commutes with it up to full turns of the yaw reference; combined with C101 for a vehicle that is symmetric up to an exchange of rotors.
* **C105** Calls of the example flights — closed form of the schedule by number of the pass; invariant of the loop: calls made so far.
* **C106** Plan of the trajectory flights — which planned motion is in force in a pass, from the calls of C105.
* **C107** Heading of the trajectory flights — from C106; a vehicle facing backwards refutes the full claim.
* **C108** Configuration file — table of key and parameter; values, completeness and independence of other entries.
* **C109** Shipped configuration file — transcription of the file; acceptance, comparison with the built-in parameters, flights by C72, C73, C105.
* **C110** Fresh loops — two histories, one situation; violated with a wound-up rate loop; partial: after an explicit
  reset (bisimulation of C51) and for proportional tunings.
* **C111** Attitude loop in discrete time — `toMat (integrate q ω)` as a Cayley transform of `toMat q`, rotation identities
  (`Q s = s`, `|s|² = Ψ(2-Ψ)`, symmetric part), exact error recursion, geometric decay, threshold, half turns fixed.
* **C112** IMU over its history — registers as functions of the call list, biases as a sum over the calls since the last
  assignment, readings as those of the last measurement.
* **C113** Angular momentum — balance of body and rotors; violated by the missing `ω × h`; partial: the exact defect, and
  the yaw momentum over any sequence of steps.
* **C114** Rest states of the closed loop — violated (mass); partial: all rest states of proportional position hold are
  determined, up to attitudes half a turn from the demand; integral action removes the error.
* **C115** Units of length and mass — violated (hard-coded thrust reference, gravity as a force); partial: all histories
  that do not arm in acro mode, any unit of length, and any unit of mass without gravity.
* **C116** Top speed — violated (explicit Euler with strong drag); partial: all histories if `2 c U ≤ 100 m`.
* **C117** Too heavy to rise — violated (mass); partial: all histories, weight as the dynamics apply it.
* **C118** Plotting script reads back the log — violated for NaN; partial: every flight without NaN in the commands.
* **C119** First figure shows the whole flight — violated below height zero; partial: exactly the other positions.
* **C120** References for another mode have no effect — violated (rotor speeds, yaw rate survive a mode change); partial: all others, all histories.
* **C121** Rounding errors of the PID only add up — proved (rounded arithmetic, any number of samples; double precision as corollary).
* **C122** The controller passes every call on to its loops and works with the settings written last — proved.
* **C123** Every part of the simulator sees exactly the calls meant for it — proved.
* **C124** A new vehicle does not inherit the floor contact of the old one — violated; proved without contact.
* **C125** The errors of the IMU are normally distributed and do not depend on the update rate — proved.
* **C126** The disturbance of the velocity is a random walk that does not depend on the update rate — proved.
* **C127** Logged numbers are accurate to six digits — proved.
* **C128** The times in a log increase from line to line — violated; proved for the first thousand seconds.
* **C129** Vertical speed control settles for gains below the inverse period — proved, with the exact threshold.
* **C130** Where the vertical speed settles it is the requested one — violated; proved for unit mass.
* **C131** With integral action the vertical speed settles at the requested one — proved.
* **C132** The position controller settles at the requested altitude — proved, including the shipped file.
* **C133** Steady flight under integral action has the requested speed — violated (shipped anti-windup bound); proved off the bound.
* **C134** When a scalar PID settles — proved, with the exact threshold.
* **C135** Clamping a vector moves it to the nearest point between the limits — violated (single precision limits); proved for such limits.
* **C136** Only the settings in force at a control call matter — proved, vector and scalar PID.
* **C137** The rotors bring about the commanded thrust — violated (limits of the rotors are ignored by the allocation); exact condition proved.
* **C138** The error of the dead-reckoned velocity does not depend on the update rate — violated (the measurement noise is not scaled with the period); exact distribution proved.
* **C139** Position hold attracts nearby flights — proved, including the shipped file (in exact arithmetic, without process noise).
* **C140** Each start determines exactly one motion, for all time — proved (gives C95_every_flight and C102_every_flight).
* **C141** Flights under changing commands converge, from starts that are a little off — proved.
* **C142** Trajectory mode attracts nearby flights to the reference — proved for uniform references (without drag unless fixed), including the shipped file.
* **C143** Position hold withstands process noise — proved, for all samples and with a bound on the probability of larger ones.
* **C144** Trajectory mode follows slow paths with drag and noise — proved for slow paths; the radius is existential.
* **C145** Velocity mode keeps slowly changing velocities with drag and noise — proved; the radius is existential.
* **C146** Acro mode attains slowly changing rates and the requested thrust in any attitude — proved; the radius is existential.
* **C147** Acro mode with the shipped tuning does not amplify small rates at any thrust — violated below about 0.05 N; proved with decay from 0.1 N to 36 N.
* **C148** In acro mode the vehicle turns like a body with the requested rates — proved; radius and factor are existential.
* **C149** Reseeding the IMU repeats its noise — proved on a model with the hidden state of engine and distribution, which the oracle of the main model is shown to stand for.
* **C150** Different seeds give different random numbers — refuted by the seeds 0 and 1; the classes of equal seeds are determined.
* **C151** Position hold works in rounded arithmetic — a calculus of families of arithmetics with u tending to 0 (each quantity of a cycle follows its exact counterpart up to O(u)), made uniform by a filter over all arithmetics, combined with the resistance to disturbances of C143.
* **C152** Rotors that turn the vehicle the requested way run faster — uniqueness of the allocation and an explicit solution by leverages; signs of the first PID output for an error along one axis.
* **C153** A level vehicle leans towards the demanded acceleration — the demanded attitude written out in the frame of the vehicle.
* **C154** An external force opposing the weight holds the vehicle — violated; exact condition and first motion.
* **C155** Reported roll, pitch and yaw follow the body rates — violated; exact angle kinematics proved instead.
* **C156** A floor that is not reached has no effect; position hold and trajectory following above an enabled floor.
* **C157** A vehicle that is let go comes down to the floor and stays there.

## 4. Layout

* `Verif/Scalar.lean`, `Linalg.lean` — the arithmetic interface and the used fragment of Eigen.
* `Verif/Real.lean`, `XReal.lean` — its two instances with the translation to Mathlib operations.
* `Verif/Model/*` — the code, function by function, each definition with file and lines.
* `Verif/Spec/*` — specifications that do not mention model helpers.
* `Verif/Lemmas/*` — facts about the model used by several properties.
* `Verif/Props/*` — the property theorems `Cxx_...`, their witnesses and non-vacuity examples.
* `Verif/Fixture.lean` — a concrete quadrotor used by examples and refutations.
* `seeded/LOG.jsonl` — wrong programs against which the theorems were tested.

A property that the code violates has `def Cxx_claim : Prop` (the full English claim),
`theorem Cxx_violated : ¬ Cxx_claim` and `theorem Cxx_..._partial` (what does hold).

## 5. Where code, documentation and expectation disagree

All of these are theorems or witnesses in the model unless marked (read).

1. A period above 0.01 s simulates ⌈100·dt⌉/100 s, not dt (C06). In binary64 some multiples of 0.01 s are divided with
   an excess, for example 0.07/0.01 = 7.000000000000001, and get one step more than in exact arithmetic (read).
2. The rotational disturbance is the *force* noise; the moment noise is drawn and never used (C20).
3. Gravity is added to the force sum without the factor mass. Free fall accelerates at g/m (C19), the floor
   reaction −m·g does not cancel it unless m = 1, the hover trim drifts with (1−1/m)g (C17), a demanded
   acceleration is missed by (1/m−1)g (C49).
4. The IMU is given `q * force`: the world force rotated once more into the world direction, not divided
   by mass and including gravity. The odometry applies the inverse rotation, so the error cancels up to the
   factor mass; its orientation is one step ahead (C16).
5. The member `mixer_matrix_` of the model is never written: a local of the same name shadows it (C33).
   Rejected constructor parameters leave the model uninitialised (`core = none`).
6. `check_params` accepts zero mass, zero time constants, singular or indefinite matrices, NaN and any
   number of motors (C26). A default-constructed simulator has mass zero.
7. `set_output_saturation` of the vector PID stores limits that it then rejects if an earlier axis was
   fine (C62). Reading the parameters and applying them again enables a disabled saturation (C63).
8. Proportional saturation respects the limits only if they enclose zero (C56).
9. The reset-integral flag is inert with a constant positive anti-windup bound (C64).
10. The PID does not validate its period: dt = 0 makes the output NaN for ever (C67). A NaN period passes
    the guard dt ≤ 0 of the dynamics, an infinite one overflows the `int` counter (C88). Zero is the only finite
    period that makes NaN out of proper parameters (C87).
11. `AcroController::get_desired_thrust` is always 0: a local shadows the member (C81, modelled in
    `Acro.accelerationToThrust`).
12. The rate loop compensates the gyroscopic torque of the *desired* rates (C48).
13. `update_dynamics` with dt ≤ 0 throws after setting the external force, so the floor reaction leaks into
    the next update if the vehicle was below the floor (C05, C08).
14. A parked vehicle alternates between a noise-free step and a contact step (C15).
15. `set_control_mode(X)` with its default argument leaves yaw-rate mode. Motor references, yaw rate and PID
    memories are untouched by a mode change (C10).
16. Yaw-rate mode turns at kp·sin(rate/kp), at most |kp| (C50).
17. `arm` sets the thrust reference 9.81 whatever the mass; with a positive minimum rotor speed the rotors
    never stop after `disarm` (C83).
18. The aerodynamic torque dissipates only for positive semidefinite coefficients (C24).
19. The documented hexacopter matrix differs from the code and is itself unbalanced (C28). The documented
    rigid-body equations differ in the drag frame, the aerodynamic torque and the weight (C18).
20. Euler angles do not describe the attitude at ±90° pitch (C68_gimbal_lock).
21. `CsvLogger` constructs an exception without throwing it and drops NaN values, which shifts all later
    columns of the line (C70).
22. `IMU::get_measurement()` returns references to temporaries, the pointer setters of the simulator are
    ill-formed if instantiated, `utils::clamp_vector` takes `float` limits, a simulator with other than four
    rotors does not compile (read).
23. The simulator constructor ignores rejected parameters without any sign; the first update then reads an
    uninitialised model (C71).
24. The example flights stamp a record with the time before the step it shows, and write time 0 twice (C74).
25. The example flights keep each reference one step longer than its share, so the last references of a list
    may never be flown (C73); an empty list in the configuration file is read out of range (C72).
26. The examples start the odometry at the origin whatever initial position the file gives (C76).
27. Drag is `-c v|v|` component by component in the world frame: the same vehicle meets less resistance flying
    diagonally than along an axis (C80).
28. A vehicle of mass m lifts off when its thrust exceeds the number g instead of m·g (C82, a consequence of 3).
29. One integration step turns the vehicle through 2·atan(ω dt/2) instead of ω dt (C84), adds energy to a free
    rotation (C85) and lets a falling body lag behind its parabola (C86): properties of the explicit Euler method.
30. The dynamics and the IMU are both seeded with 0 by default and draw from equal generators: the disturbance force of
    the first step is the initial gyroscope bias up to a factor (C89). `std::default_random_engine` of libstdc++ maps
    the seed 0 to the same state as the seed 1, so the seeds 0 and 1 are not different either (read).
31. An update longer than 0.01 s looks for floor contact only at its end, so its result differs from that of the
    corresponding short updates (C90). The floor reaction of a vehicle below the floor acts during the whole long
    update but only in the first of the short ones.
32. The explicit integrator overshoots drag: a body so fast that `c |v| dt > 2 m` is thrown back faster than it came
    (C91). Since gravity acts as a force without the mass (disagreement on the weight above), the terminal velocity is
    `√(g/c)` for every mass (C92).
33. With the reset option on, a PID drops a wound-up negative integral when the error becomes exactly zero but keeps a
    positive one: `std::signbit(+0.0)` is false, so zero counts as a positive error (`pid.hpp:634`, C103). A difference of
    equal numbers is `+0.0` whichever direction it is reached from.
34. The trajectory example asks for the initial heading during take-off but for heading zero during the course
    (traj_gen_example.cpp:741-749), so a vehicle with another initial heading is asked to turn at once when the take-off
    ends: `C107_violated`; the shipped configuration file starts with a heading of
    thirty degrees (`C107_shipped_partial`).
35. `set_control_mode`, `arm` and `disarm` never reset the controller, although `set_control_mode` carefully clears the
    references: integrals wound up in one mode act in the next one and after a landing (`C110_mode_violated`,
    `C110_arm_violated`).
36. The spinning rotors have inertia when they accelerate but no gyroscopic effect: the torque `ω × h` of their momentum
    `h` is missing in `get_vehicle_angular_velocity_derivative` (`C113_violated`).
37. Because gravity is added as a force (see C17), a vehicle of mass `m` in position hold with proportional loops rests
    `(1 - 1/m) g / (kp kv)` above its reference (`C114_violated`).
38. Four places use numbers or terms that are right in one system of units only: `arm()` sets the thrust reference to
    9.81 (multirotor_simulator.hpp:266), the dynamics add the gravity vector to forces (dynamics.hpp:403), the random
    force vector is used as a torque as well (dynamics.hpp:182), and `set_output_saturation` compares the limits with a fixed distance
    (pid.hpp:174-194). The accelerometer is given a force (multirotor_simulator.hpp:243-248). See the `C115` theorems.
39. With very strong drag the explicit Euler step overshoots: a vehicle exceeds the speed at which drag balances the
    strongest force (`C116_violated`); rotors lift a mass that they could not carry (`C117_violated`, see C17).
40. `plot_results.py` does not check for `None` in three of its four figures: one line of the log with a NaN reference among
    lines without (such a line has a field less, disagreement on C70) ends the script with a `TypeError` (`C118_mixed`).
    If all lines have the NaN the columns are silently shifted.  The vertical axis of the first figure starts at zero, so
    a flight below height zero is not shown (`C119_violated`).
41. `set_control_mode` clears all references but the rotor speeds and the yaw rate: rotor speeds that were given while another
    mode was in force are commanded at once after a change to MOTOR_W (`C120_violated`).
42. **C124** `set_dynamics_params` (multirotor_simulator.hpp:548-550) replaces the vehicle but keeps the flag
    `floor_collision_`, so the first update of the new vehicle is computed without process noise if the last update of the
    old vehicle ended in floor contact.
43. **C128** The logger prints with the default precision of six digits (fly_example.cpp:90-98), so in a log of more than
    1000 s with the default period of 1 ms neighbouring lines have the same time.
44. **C130** With a proportional velocity loop and mass m the vertical speed settles off the requested one by (1-1/m)g/k,
    because gravity is used as a force in the dynamics (not multiplied by the mass) and as an acceleration in the controller.
45. **C133** The shipped anti-windup bound of the velocity controller (1) is too small for its integral gain (2) to carry the
    drag at vertical speeds above 4.47 m/s; faster requests are never reached although thrust suffices.
46. **C135** `utils::clamp_vector` converts its limits to single precision, so clamped doubles may pass the limits.
47. **C137** The allocation ignores the limits of the rotors, so a large torque demand changes the total thrust.
48. **C138** The bias of the IMU is scaled with the period, the measurement noise is not, so the error of the integrated velocity depends on the update rate.
49. **C147** The rate controller ignores the reaction torque of accelerating rotors (indi_controller.hpp against model.hpp:971-981), whose effect relative to the drag torque is inversely proportional to the rotor speed; with the shipped tuning the yaw rate is unstable at thrusts below about 0.05 N. See `C147_violated`.
50. The default seed 0 gives the random numbers of the seed 1, -1 those of 3, -5 those of 2147483646 (C150, for
    `std::minstd_rand0`, the `std::default_random_engine` of libstdc++).
51. The repository's test `process_euler_explicit_floor` (dynamics_gtest.cpp:820) expects a vehicle carried by the external
    force -mass*gravity to stay in place. It passes for its mass of 1; with any other mass the vehicle moves (C154).
52. The repository's test `get_quaternion_integrate_values` (utils_gtest.cpp:126) expects every Euler angle to advance by its
    own body rate. It reads Eigen's x-y-z angles; for the angles reported by `quaternion_to_Euler` the expectation is false
    near the vertical, and in general the rates are mixed by roll and pitch (C155).
