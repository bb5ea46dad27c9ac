import Verif.Spec.Example

/-!
# Specification of the calls an example flight makes

Which public calls a flight makes, pass by pass: in terms of the number of the pass and the time at which it
begins, without the loop variables of the program.
-/

namespace Verif.Spec

open Verif Flt Example

/-- The heading of the vehicle. -/
noncomputable def headingOf (s : Sim ℝ 4) : ℝ := (quatToEuler s.dyn.state.ori).2.2

/-- The calls before the loop: mode and first references. -/
noncomputable def opening (s : Sim ℝ 4) : Flight ℝ → List (SimOp ℝ 4)
  | .arm => []
  | .motorW => [.setControlMode .motorW .angle, .setRefMot fun _ => 2200]
  | .acro => [.setControlMode .acro .angle, .setRefAcro 15 ![0, 1 / 10, 0]]
  | .velocity refs => .setControlMode .velocity .angle :: (refs.head?.toList.map .setRefVel ++ [.setRefYaw 0])
  | .position refs => .setControlMode .position .angle :: (refs.head?.toList.map .setRefPos ++ [.setRefYaw 0])
  | .positionYawRate refs rate =>
    .setControlMode .position .rate :: (refs.head?.toList.map .setRefPos ++ [.setRefYawRate rate])
  | .geometric _ | .takeoff _ _ =>
    [.setControlMode .trajectory .angle,
      .setRefTrajectory s.dyn.state.pos s.dyn.state.vel s.dyn.state.acc, .setRefYaw (headingOf s)]

/-- What a trajectory flight plans for time `t`: position, velocity, acceleration and heading; `none` after
the end of the plan and in flights without a plan.  `yaw` is the heading before the flight. -/
noncomputable def plan (yaw : ℝ) : Flight ℝ → ℝ → Option ((Vec 3 ℝ × Vec 3 ℝ × Vec 3 ℝ) × ℝ)
  | .geometric tr, t => if t < tr.maxTime then some (tr.eval t, yaw) else none
  | .takeoff up tr, t =>
    if t < up.maxTime then some (up.eval t, yaw)
    else if t < up.maxTime + tr.maxTime then some (tr.eval (t - up.maxTime), 0)
    else none
  | _, _ => none

/-- The calls that pass a planned motion on. -/
def pursue (r : (Vec 3 ℝ × Vec 3 ℝ × Vec 3 ℝ) × ℝ) : List (SimOp ℝ 4) :=
  [.setRefTrajectory r.1.1 r.1.2.1 r.1.2.2, .setRefYaw r.2]

/-- The reference that becomes due in pass `j`. -/
noncomputable def due (T dt : ℝ) (refs : List (Vec 3 ℝ)) (j : ℕ) : Option (Vec 3 ℝ) :=
  if 0 < j ∧ period T dt refs.length ∣ j then refs[j / period T dt refs.length]? else none

/-- The calls after the updates of pass `j`. -/
noncomputable def change (T dt : ℝ) (j : ℕ) : Flight ℝ → List (SimOp ℝ 4)
  | .acro => if 2 < j * dt then [.setRefAcro 15 ![0, 0, 0]] else []
  | .velocity refs => (due T dt refs j).toList.map .setRefVel
  | .position refs => (due T dt refs j).toList.map .setRefPos
  | .positionYawRate refs rate => (due T dt refs j).toList.flatMap fun r => [.setRefPos r, .setRefYawRate rate]
  | _ => []

/-- All calls of pass `j`. -/
noncomputable def passCalls (yaw T dt : ℝ) (fl : Flight ℝ) (j : ℕ) : List (SimOp ℝ 4) :=
  (plan yaw fl (j * dt)).toList.flatMap pursue ++
    [.updateController dt, .updateDynamics dt, .updateImu dt, .updateOdom dt] ++ change T dt j fl

/-- All calls of a flight that starts with simulator `s`, up to the beginning of pass `m`. -/
noncomputable def flightCalls (s : Sim ℝ 4) (T dt : ℝ) (fl : Flight ℝ) (m : ℕ) : List (SimOp ℝ 4) :=
  opening s fl ++ (List.range m).flatMap (passCalls (headingOf s) T dt fl)

/-- A flight along a plan. -/
def Planned : Flight ℝ → Prop
  | .geometric _ => True
  | .takeoff _ _ => True
  | _ => False

/-- The simulator has the motion `r` as its reference. -/
def Pursues (r : (Vec 3 ℝ × Vec 3 ℝ × Vec 3 ℝ) × ℝ) (s : Sim ℝ 4) : Prop :=
  s.refPos = r.1.1 ∧ s.refVel = r.1.2.1 ∧ s.refAcc = r.1.2.2 ∧ s.refYaw = r.2

end Verif.Spec
