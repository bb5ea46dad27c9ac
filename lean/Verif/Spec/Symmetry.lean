import Verif.Spec.Sim
import Verif.Real

/-!
# Symmetries of whole histories

A symmetry is a pair of relations: one between simulators, one between calls.  `Corresponds` says that
two recorded histories are related at every moment and have the same exceptions.
-/

namespace Verif.Spec

open Verif Flt

variable {n : ℕ}

/-- Call by call the objects and the calls are related, and the same calls threw. -/
def Corresponds (R : Sim ℝ n → Sim ℝ n → Prop) (Ro : SimOp ℝ n → SimOp ℝ n → Prop)
    (tr tr' : List (Event ℝ n)) : Prop :=
  List.Forall₂ (fun e e' => R e.before e'.before ∧ Ro e.op e'.op ∧ e.threw = e'.threw) tr tr'

/-- Calls that go through one of the four non-const reference getters. -/
def throughReference : SimOp ℝ n → Bool
  | .mutDyn _ | .mutCtl _ | .mutImu _ | .mutOdom _ => true
  | _ => false

/-! ## The two quaternions of one orientation -/

/-- The same orientation: equal or opposite quaternions. -/
def SameOri (p q : Quat ℝ) : Prop := q = p ∨ q = ⟨-p.w, -p.x, -p.y, -p.z⟩

/-- Vehicle states that differ in the sign of the quaternion only. -/
def SameOriState (s t : State ℝ n) : Prop := SameOri s.ori t.ori ∧ t = { s with ori := t.ori }

/-- Dynamics objects that differ in the sign of the quaternion only. -/
def SameOriDyn (d e : Dyn ℝ n) : Prop := e.model = d.model ∧ SameOriState d.state e.state

/-- IMUs that differ in the sign of the quaternions only. -/
def SameOriImu (i j : Imu ℝ) : Prop :=
  SameOri i.ori j.ori ∧ SameOri i.oriInv j.oriInv ∧ j = { i with ori := j.ori, oriInv := j.oriInv }

/-- Odometries that differ in the sign of the quaternions only. -/
def SameOriOdom (o p : Odom ℝ) : Prop :=
  SameOri o.ori p.ori ∧ SameOri o.initOri p.initOri ∧ p = { o with ori := p.ori, initOri := p.initOri }

/-- Simulators that differ in the sign of quaternions only. -/
def SameOriSim (s t : Sim ℝ n) : Prop :=
  SameOriDyn s.dyn t.dyn ∧ SameOriImu s.imu t.imu ∧ SameOriOdom s.odom t.odom ∧
    t = { s with dyn := t.dyn, imu := t.imu, odom := t.odom }

/-- Calls that differ in the sign of quaternions only.  What the user does through a reference getter
must itself not depend on the sign. -/
inductive SameOriOp : SimOp ℝ n → SimOp ℝ n → Prop
  | same {o} : throughReference o = false → SameOriOp o o
  | dynParams {p q : DynParams ℝ n} : SameOriState p.state q.state → q = { p with state := q.state } →
      SameOriOp (.setDynParams p) (.setDynParams q)
  | imuParams {p q : ImuParams ℝ} : SameOri p.ori q.ori → q = { p with ori := q.ori } →
      SameOriOp (.setImuParams p) (.setImuParams q)
  | odomParams {p q : OdomParams ℝ} : SameOri p.initOri q.initOri → q = { p with initOri := q.initOri } →
      SameOriOp (.setOdomParams p) (.setOdomParams q)
  | mutDyn {f g : Dyn ℝ n → Dyn ℝ n} : (∀ d e, SameOriDyn d e → SameOriDyn (f d) (g e)) →
      SameOriOp (.mutDyn f) (.mutDyn g)
  | mutCtl {f : Ctl ℝ n → Ctl ℝ n} : SameOriOp (.mutCtl f) (.mutCtl f)
  | mutImu {f g : Imu ℝ → Imu ℝ} : (∀ d e, SameOriImu d e → SameOriImu (f d) (g e)) →
      SameOriOp (.mutImu f) (.mutImu g)
  | mutOdom {f g : Odom ℝ → Odom ℝ} : (∀ d e, SameOriOdom d e → SameOriOdom (f d) (g e)) →
      SameOriOp (.mutOdom f) (.mutOdom g)

/-! ## Another origin of coordinates -/

/-- The dynamics object seen from an origin displaced by `-v`. -/
def MovedDyn (v : Vec 3 ℝ) (d e : Dyn ℝ n) : Prop :=
  e = { d with state := { d.state with pos := d.state.pos + v } }

/-- Controllers that differ in the recorded position reference only (nothing reads it). -/
def MovedCtl (c e : Ctl ℝ n) : Prop := e = { c with desPos := e.desPos }

/-- The simulator seen from an origin displaced by `-v`: position, position reference and floor height
change; the odometry, which starts at its own origin, does not. -/
def MovedSim (v : Vec 3 ℝ) (s t : Sim ℝ n) : Prop :=
  MovedDyn v s.dyn t.dyn ∧ MovedCtl s.ctl t.ctl ∧
    t = { s with dyn := t.dyn, ctl := t.ctl, floorHeight := s.floorHeight + v 2, refPos := s.refPos + v }

/-- The same call expressed in the other coordinates. -/
inductive MovedOp (v : Vec 3 ℝ) : SimOp ℝ n → SimOp ℝ n → Prop
  | updateDynamics {dt} : MovedOp v (.updateDynamics dt) (.updateDynamics dt)
  | updateController {dt} : MovedOp v (.updateController dt) (.updateController dt)
  | updateImu {dt} : MovedOp v (.updateImu dt) (.updateImu dt)
  | updateOdom {dt} : MovedOp v (.updateOdom dt) (.updateOdom dt)
  | arm : MovedOp v .arm .arm
  | disarm : MovedOp v .disarm .disarm
  | enableFloor {h} : MovedOp v (.enableFloor h) (.enableFloor (h + v 2))
  | disableFloor : MovedOp v .disableFloor .disableFloor
  | setControlMode {m y} : MovedOp v (.setControlMode m y) (.setControlMode m y)
  | setRefMot {w} : MovedOp v (.setRefMot w) (.setRefMot w)
  | setRefAcro {t w} : MovedOp v (.setRefAcro t w) (.setRefAcro t w)
  | setRefTrajectory {p u a} : MovedOp v (.setRefTrajectory p u a) (.setRefTrajectory (p + v) u a)
  | setRefVel {u} : MovedOp v (.setRefVel u) (.setRefVel u)
  | setRefPos {p} : MovedOp v (.setRefPos p) (.setRefPos (p + v))
  | setRefYaw {y} : MovedOp v (.setRefYaw y) (.setRefYaw y)
  | setRefYawRate {y} : MovedOp v (.setRefYawRate y) (.setRefYawRate y)
  | setDynParams {p : DynParams ℝ n} : MovedOp v (.setDynParams p)
      (.setDynParams { p with state := { p.state with pos := p.state.pos + v } })
  | setCtlParams {p} : MovedOp v (.setCtlParams p) (.setCtlParams p)
  | setImuParams {p} : MovedOp v (.setImuParams p) (.setImuParams p)
  | setOdomParams {p} : MovedOp v (.setOdomParams p) (.setOdomParams p)
  | mutDyn {f g : Dyn ℝ n → Dyn ℝ n} : (∀ d e, MovedDyn v d e → MovedDyn v (f d) (g e)) →
      MovedOp v (.mutDyn f) (.mutDyn g)
  | mutCtl {f g : Ctl ℝ n → Ctl ℝ n} : (∀ d e, MovedCtl d e → MovedCtl (f d) (g e)) →
      MovedOp v (.mutCtl f) (.mutCtl g)
  | mutImu {f} : MovedOp v (.mutImu f) (.mutImu f)
  | mutOdom {f} : MovedOp v (.mutOdom f) (.mutOdom f)

/-! ## Full turns of the yaw reference -/

/-- The same heading. -/
def SameHeading (x y : ℝ) : Prop := ∃ k : ℤ, y = x + k * (2 * Real.pi)

/-- Simulators that differ by full turns of the yaw reference only. -/
def SameHeadingSim (s t : Sim ℝ n) : Prop :=
  SameHeading s.refYaw t.refYaw ∧ t = { s with refYaw := t.refYaw }

/-- Calls that differ by full turns of the yaw reference only. -/
inductive SameHeadingOp : SimOp ℝ n → SimOp ℝ n → Prop
  | same {o} : SameHeadingOp o o
  | setRefYaw {x y} : SameHeading x y → SameHeadingOp (.setRefYaw x) (.setRefYaw y)

end Verif.Spec
