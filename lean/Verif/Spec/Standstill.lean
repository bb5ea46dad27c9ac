import Verif.Spec.Attitude
import Verif.Model.Dynamics
import Verif.Model.Controllers

/-!
# Specification vocabulary for the states in which the closed loop comes to rest
-/

namespace Verif.Spec

open Verif

/-- The vehicle is in the same state of motion. -/
structure Unmoved {n : ℕ} (s t : State ℝ n) : Prop where
  pos : t.pos = s.pos
  vel : t.vel = s.vel
  ori : t.ori = s.ori
  angVel : t.angVel = s.angVel
  motVel : t.motVel = s.motVel

/-- A loop with proportional action only, gains `k`, and no output limits. -/
structure OnlyProportional (p : Pid ℝ 3) (k : Vec 3 ℝ) : Prop where
  kp : p.kpMat = Matrix.diagonal k
  ki : p.kiMat = 0
  kd : p.kdMat = 0
  free : p.satFlag = false

/-- A loop that has been running and whose integrators are not at their limits. -/
structure FreeIntegral (p : Pid ℝ 3) : Prop where
  running : p.firstRun = false
  inside : (∀ i, |p.integral i| < p.antiwindup i) ∨ (p.antiwindup = 0 ∧ p.resetIntegral = false)

end Verif.Spec
