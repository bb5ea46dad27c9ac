import Verif.Attr
import Verif.Fixture
import Verif.Lemmas.Approx
import Verif.Lemmas.ApproxModel
import Verif.Lemmas.AttStep
import Verif.Lemmas.Attitude
import Verif.Lemmas.Chance
import Verif.Lemmas.Config
import Verif.Lemmas.Converge
import Verif.Lemmas.CruiseMode
import Verif.Lemmas.Ctl
import Verif.Lemmas.Decimal
import Verif.Lemmas.Dual
import Verif.Lemmas.Dyn
import Verif.Lemmas.DynReal
import Verif.Lemmas.DynTime
import Verif.Lemmas.Eigen
import Verif.Lemmas.Example
import Verif.Lemmas.Finite
import Verif.Lemmas.FiniteSim
import Verif.Lemmas.Flight
import Verif.Lemmas.HoverDeriv
import Verif.Lemmas.HoverEigen
import Verif.Lemmas.HoverLoop
import Verif.Lemmas.HoverMode
import Verif.Lemmas.Jury
import Verif.Lemmas.Memory
import Verif.Lemmas.Mirror
import Verif.Lemmas.MirrorSim
import Verif.Lemmas.Mixer
import Verif.Lemmas.Model
import Verif.Lemmas.Ode
import Verif.Lemmas.PairRoots
import Verif.Lemmas.Pid
import Verif.Lemmas.Pid1d
import Verif.Lemmas.PidAxis
import Verif.Lemmas.PidEff
import Verif.Lemmas.PidMirror
import Verif.Lemmas.PidReal
import Verif.Lemmas.PidReset
import Verif.Lemmas.PidRest
import Verif.Lemmas.PidRounded
import Verif.Lemmas.PidUnits
import Verif.Lemmas.Quat
import Verif.Lemmas.RateDeriv
import Verif.Lemmas.RateLoop
import Verif.Lemmas.Resist
import Verif.Lemmas.Roots
import Verif.Lemmas.RoundedModel
import Verif.Lemmas.RoundedStep
import Verif.Lemmas.Sampler
import Verif.Lemmas.ShippedRoots
import Verif.Lemmas.Sim
import Verif.Lemmas.SpinMode
import Verif.Lemmas.Stability
import Verif.Lemmas.Strict
import Verif.Lemmas.Symmetry
import Verif.Lemmas.Tail
import Verif.Lemmas.ToMat
import Verif.Lemmas.TrackMode
import Verif.Lemmas.TurnStep
import Verif.Lemmas.Units
import Verif.Linalg
import Verif.Model.Clamp
import Verif.Model.Controllers
import Verif.Model.Decimal
import Verif.Model.Dynamics
import Verif.Model.Engine
import Verif.Model.Example
import Verif.Model.Imu
import Verif.Model.Logger
import Verif.Model.Model
import Verif.Model.Pid
import Verif.Model.Pid1d
import Verif.Model.Plot
import Verif.Model.Sampler
import Verif.Model.Simulator
import Verif.Model.State
import Verif.Props.AcroCycle
import Verif.Props.AcroHold
import Verif.Props.AcroThrust
import Verif.Props.AcroTurn
import Verif.Props.Alloc
import Verif.Props.Altitude
import Verif.Props.AttLoop
import Verif.Props.Attain
import Verif.Props.Attitude
import Verif.Props.Carried
import Verif.Props.Chance
import Verif.Props.Clamp
import Verif.Props.Climb
import Verif.Props.Config
import Verif.Props.Converge
import Verif.Props.CruiseCycle
import Verif.Props.CruiseHold
import Verif.Props.Csv
import Verif.Props.Ctl
import Verif.Props.DeadReckon
import Verif.Props.Decimal
import Verif.Props.Disturbed
import Verif.Props.DoubleCover
import Verif.Props.Drag
import Verif.Props.Drift
import Verif.Props.DynRun
import Verif.Props.DynStep
import Verif.Props.Envelope
import Verif.Props.Euler
import Verif.Props.EulerRates
import Verif.Props.Example
import Verif.Props.ExampleParams
import Verif.Props.Finite
import Verif.Props.Flight
import Verif.Props.FloorBelow
import Verif.Props.FloorCalls
import Verif.Props.FloorCruise
import Verif.Props.FloorHold
import Verif.Props.FloorMore
import Verif.Props.FreeMotion
import Verif.Props.Gusts
import Verif.Props.Heading
import Verif.Props.Hover
import Verif.Props.HoverCycle
import Verif.Props.HoverHold
import Verif.Props.Imu
import Verif.Props.ImuHistory
import Verif.Props.Integral
import Verif.Props.Landing
import Verif.Props.LandingCalls
import Verif.Props.LandingShipped
import Verif.Props.LandingSpin
import Verif.Props.LiftOff
import Verif.Props.Loop1
import Verif.Props.Memory
import Verif.Props.Mirror
import Verif.Props.Mixer
import Verif.Props.Model
import Verif.Props.Momentum
import Verif.Props.NoiseStreams
import Verif.Props.Odom
import Verif.Props.OdomTrack
import Verif.Props.Orientation
import Verif.Props.Origin
import Verif.Props.Parked
import Verif.Props.ParkedCalls
import Verif.Props.Period
import Verif.Props.PiLoop
import Verif.Props.Pid
import Verif.Props.Pid1d
import Verif.Props.PidMirror
import Verif.Props.PidNan
import Verif.Props.PidRounded
import Verif.Props.PidScalar
import Verif.Props.Plot
import Verif.Props.Progress
import Verif.Props.Quat
import Verif.Props.Renumber
import Verif.Props.Reported
import Verif.Props.Reseed
import Verif.Props.Rounded
import Verif.Props.RoundedConverge
import Verif.Props.RoundedCycle
import Verif.Props.RoundedHold
import Verif.Props.RoundedPid
import Verif.Props.RoundedShipped
import Verif.Props.RoundedStep
import Verif.Props.Schedule
import Verif.Props.Seeds
import Verif.Props.Settings
import Verif.Props.ShippedAcro
import Verif.Props.ShippedCruise
import Verif.Props.ShippedDisturbed
import Verif.Props.ShippedHold
import Verif.Props.ShippedHover
import Verif.Props.ShippedPath
import Verif.Props.ShippedTrack
import Verif.Props.Sim
import Verif.Props.SimCtl
import Verif.Props.SimFloor
import Verif.Props.SimRefs
import Verif.Props.SimSensors
import Verif.Props.SpinDown
import Verif.Props.Split
import Verif.Props.Standstill
import Verif.Props.Steering
import Verif.Props.Tilt
import Verif.Props.Track
import Verif.Props.TrackCycle
import Verif.Props.TrackHold
import Verif.Props.Traffic
import Verif.Props.Turning
import Verif.Props.Units
import Verif.Props.Unused
import Verif.Props.Vertical
import Verif.Props.Wander
import Verif.Props.WellPosed
import Verif.Props.Windup
import Verif.Props.Wiring
import Verif.Props.Witnesses
import Verif.Props.YawRate
import Verif.Real
import Verif.Rounded
import Verif.Scalar
import Verif.Spec.AttLoop
import Verif.Spec.Attitude
import Verif.Spec.Chance
import Verif.Spec.Config
import Verif.Spec.Csv
import Verif.Spec.Ctl
import Verif.Spec.Decimal
import Verif.Spec.Dyn
import Verif.Spec.DynRun
import Verif.Spec.Envelope
import Verif.Spec.Example
import Verif.Spec.Finite
import Verif.Spec.Flight
import Verif.Spec.ImuHistory
import Verif.Spec.Memory
import Verif.Spec.Mirror
import Verif.Spec.Model
import Verif.Spec.Momentum
import Verif.Spec.Pid
import Verif.Spec.PidLimited
import Verif.Spec.PidScalar
import Verif.Spec.Plot
import Verif.Spec.Quat
import Verif.Spec.Renumber
import Verif.Spec.Sensors
import Verif.Spec.Sim
import Verif.Spec.Standstill
import Verif.Spec.Symmetry
import Verif.Spec.Traffic
import Verif.Spec.Turn
import Verif.Spec.Units
import Verif.Spec.Unused
import Verif.Spec.Wiring
import Verif.XReal
