import Verif.Real

/-!
# Specification vocabulary for attitude control
-/

namespace Verif.Spec

open Verif

/-- The horizontal direction of a yaw angle. -/
noncomputable def heading (yaw : ℝ) : Vec 3 ℝ := ![Real.cos yaw, Real.sin yaw, 0]

/-- Proper rotation matrix. -/
structure IsRotation (R : Mat 3 3 ℝ) : Prop where
  orth : R.transpose * R = 1
  det : R.det = 1

/-- Axis `j` of an attitude. -/
def axis (R : Mat 3 3 ℝ) (j : Fin 3) : Vec 3 ℝ := fun i => R i j

/-- The attitude `R` points the thrust axis along the force `f` and the nose along the heading: the z axis
is the direction of `f`, the y axis is orthogonal to the heading and the x axis has a positive component
along it. -/
structure PointsTo (R : Mat 3 3 ℝ) (f : Vec 3 ℝ) (yaw : ℝ) : Prop where
  rotation : IsRotation R
  thrust : √(f ⬝ᵥ f) • axis R 2 = f
  side : axis R 1 ⬝ᵥ heading yaw = 0
  nose : 0 < axis R 0 ⬝ᵥ heading yaw

/-- Matrix of the cross product with `w`. -/
def skew (w : Vec 3 ℝ) : Mat 3 3 ℝ := !![0, -w 2, w 1; w 2, 0, -w 0; -w 1, w 0, 0]

/-- The usual attitude error function on rotations: `1 - cos` of the angle between two attitudes. -/
noncomputable def attError (Rd R : Mat 3 3 ℝ) : ℝ := (1 - Rd.transpose * R).trace / 2

/-- Elementary rotation about the vertical. -/
noncomputable def rotZ (a : ℝ) : Mat 3 3 ℝ :=
  !![Real.cos a, -Real.sin a, 0; Real.sin a, Real.cos a, 0; 0, 0, 1]
/-- Elementary rotation about y. -/
noncomputable def rotY (a : ℝ) : Mat 3 3 ℝ :=
  !![Real.cos a, 0, Real.sin a; 0, 1, 0; -Real.sin a, 0, Real.cos a]
/-- Elementary rotation about x. -/
noncomputable def rotX (a : ℝ) : Mat 3 3 ℝ :=
  !![1, 0, 0; 0, Real.cos a, -Real.sin a; 0, Real.sin a, Real.cos a]

end Verif.Spec
