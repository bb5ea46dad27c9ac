import Verif.Spec.Attitude
import Verif.Model.Controllers
import Verif.Model.Dynamics

/-!
# Specification vocabulary for the attitude loop in discrete time
-/

namespace Verif.Spec

open Verif

/-- The attitude goes from `q` to `q'` in one integration step of some vehicle of the project that turns at
the body rates which the attitude law `c` commands at `q` for the force demand `f` and the yaw demand.
Motors, position, velocity, wind and noise are left open. -/
def Follows [Noise ℝ] (c : Acro ℝ) (yaw : ℝ) (f : Vec 3 ℝ) (dt : ℝ) (q q' : Quat ℝ) : Prop :=
  ∃ (n : ℕ) (d d' : Dyn ℝ n) (act : Vec n ℝ) (ext : Vec 3 ℝ) (noise : Bool),
    d.state.ori = q ∧ d.state.angVel = (c.yawAngleToAngularVelocity q.toMat yaw f).2 ∧
    d.process act dt ext noise = .ok d' ∧ d'.state.ori = q'

/-- The gain matrix acts between `lo` and `hi` in every direction. -/
structure GainBetween (K : Mat 3 3 ℝ) (lo hi : ℝ) : Prop where
  low : ∀ v, lo * (v ⬝ᵥ v) ≤ v ⬝ᵥ K.mulVec v
  high : ∀ v, K.mulVec v ⬝ᵥ K.mulVec v ≤ hi * (v ⬝ᵥ K.mulVec v)

/-- Factor by which the attitude error shrinks at least per step, for gains between `lo` and `hi` and an
initial error `e`. -/
noncomputable def shrink (lo hi dt e : ℝ) : ℝ := 1 - dt * lo * (2 - e) * (1 - dt * hi / 2) / 2

end Verif.Spec
