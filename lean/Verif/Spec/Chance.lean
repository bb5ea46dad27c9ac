import Verif.Spec.Sensors
import Verif.Model.Dynamics
import Verif.Real
import Mathlib.Probability.Distributions.Gaussian.Real

/-!
# Specification: random sources

The oracle of the model seen as a family of random variables: the samples drawn with one seed are independent and standard
normal, as the samples of `std::normal_distribution` on an ideal generator.
-/

namespace Verif.Spec

open Verif MeasureTheory ProbabilityTheory

variable {Ω : Type} [MeasurableSpace Ω]

/-- `W k i` is the sample for component `i` of triple `k`: independent standard normal variables. -/
structure StandardNormal (W : ℕ → Fin 3 → Ω → ℝ) (P : Measure Ω) : Prop where
  measurable : ∀ k i, Measurable (W k i)
  law : ∀ k i, HasLaw (W k i) (gaussianReal 0 1) P
  indep : iIndepFun (fun x : ℕ × Fin 3 => W x.1 x.2) P

/-- The oracle in the outcome `ω` of the experiment; `W seed` are the samples of a seed. -/
@[reducible] def outcome (W : ℤ → ℕ → Fin 3 → Ω → ℝ) (ω : Ω) : Noise ℝ := ⟨fun s k i => W s k i ω⟩

/-- The IMU after some measurements in the outcome `ω`. -/
noncomputable def imuAfter (W : ℤ → ℕ → Fin 3 → Ω → ℝ) (p : ImuParams ℝ) (us : List (ImuIn ℝ)) (ω : Ω) : Imu ℝ :=
  let _ := outcome W ω
  (Imu.mk' p).run (us.map ImuIn.op)

/-- Updates of a vehicle with process noise, nothing commanded and no external force. -/
noncomputable def fly {n : ℕ} [Noise ℝ] (d : Dyn ℝ n) : List ℝ → Res (Dyn ℝ n)
  | [] => .ok d
  | dt :: dts => match d.process 0 dt 0 true with
    | .ok d => fly d dts
    | .throw d => .throw d
    | .bad => .bad

/-- The vehicle after some updates in the outcome `ω`. -/
noncomputable def flown {n : ℕ} (W : ℤ → ℕ → Fin 3 → Ω → ℝ) (d : Dyn ℝ n) (dts : List ℝ) (ω : Ω) : Res (Dyn ℝ n) :=
  let _ := outcome W ω
  fly d dts

/-- Total time of some periods. -/
def total : List ℝ → ℝ
  | [] => 0
  | dt :: dts => dt + total dts

end Verif.Spec
