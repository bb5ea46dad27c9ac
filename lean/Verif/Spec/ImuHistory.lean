import Verif.Spec.Sensors
import Verif.Real

/-!
# Specification vocabulary: what an IMU does according to the calls made so far
-/

namespace Verif.Spec

open Verif

/-- The (gyroscope, accelerometer) noise variances set last. -/
def lastVariances {α : Type} (v : α × α) : List (ImuOp α) → α × α
  | [] => v
  | .setVariances g a :: os => lastVariances (g, a) os
  | _ :: os => lastVariances v os

/-- The bias walk intensities set last, with or without a bias. -/
def lastIntensities {α : Type} (c : α × α) : List (ImuOp α) → α × α
  | [] => c
  | .setBiasCorr g a :: os => lastIntensities (g, a) os
  | .setBias _ _ g a :: os => lastIntensities (g, a) os
  | _ :: os => lastIntensities c os

/-- The random stream in use and how many triples have been taken from it: a seed starts a stream, an update with a
positive period takes four triples. -/
noncomputable def streamAfter (s : ℤ × ℕ) : List (ImuOp ℝ) → ℤ × ℕ
  | [] => s
  | .setSeed z :: os => streamAfter (z, 0) os
  | .update dt _ _ :: os => streamAfter (if 0 < dt then (s.1, s.2 + 4) else s) os
  | _ :: os => streamAfter s os

/-- The biases a call puts in place, if it does. -/
def assignsBias : ImuOp ℝ → Option (Vec 3 ℝ × Vec 3 ℝ)
  | .setBias gb ab _ _ => some (gb, ab)
  | .reset => some (0, 0)
  | _ => none

/-- The call neither measures nor clears the readings. -/
def Quiet : ImuOp ℝ → Prop
  | .update dt _ _ => dt ≤ 0
  | .reset => False
  | _ => True

/-- The call sets no negative bias walk intensity. -/
def SaneCall : ImuOp ℝ → Prop
  | .setBiasCorr g a => 0 ≤ g ∧ 0 ≤ a
  | .setBias _ _ g a => 0 ≤ g ∧ 0 ≤ a
  | _ => True

/-- Length of the period of a measuring call, 0 for all others. -/
noncomputable def measuringTime : ImuOp ℝ → ℝ
  | .update dt _ _ => max dt 0
  | _ => 0

variable [Noise ℝ]

/-- Settings after the calls `os` on an IMU constructed with `p`. -/
def ImuParams.variances (p : ImuParams ℝ) (os : List (ImuOp ℝ)) : ℝ × ℝ := lastVariances (p.gyroVar, p.accelVar) os
/-- Likewise. -/
def ImuParams.intensities (p : ImuParams ℝ) (os : List (ImuOp ℝ)) : ℝ × ℝ :=
  lastIntensities (p.gyroBiasCorr, p.accelBiasCorr) os
/-- Likewise; the constructor takes two triples. -/
noncomputable def ImuParams.stream (p : ImuParams ℝ) (os : List (ImuOp ℝ)) : ℤ × ℕ := streamAfter (p.seed, 2) os

/-- Sum of the steps of the gyroscope bias walk during the calls `post` that come after `pre`: in each period `dt` a
step of variance `intensity * dt`. -/
noncomputable def ImuParams.gyroWalk (p : ImuParams ℝ) (pre post : List (ImuOp ℝ)) : Vec 3 ℝ :=
  ∑ k : Fin post.length,
    √((ImuParams.intensities p (pre ++ post.take k)).1 * measuringTime (post.get k)) •
      (Noise.draw (ImuParams.stream p (pre ++ post.take k)).1 (ImuParams.stream p (pre ++ post.take k)).2 : Vec 3 ℝ)

/-- ... and of the accelerometer bias walk. -/
noncomputable def ImuParams.accelWalk (p : ImuParams ℝ) (pre post : List (ImuOp ℝ)) : Vec 3 ℝ :=
  ∑ k : Fin post.length,
    √((ImuParams.intensities p (pre ++ post.take k)).2 * measuringTime (post.get k)) •
      (Noise.draw (ImuParams.stream p (pre ++ post.take k)).1
        ((ImuParams.stream p (pre ++ post.take k)).2 + 1) : Vec 3 ℝ)

end Verif.Spec
