import Verif.Spec.PidScalar

/-!
# Specification for the PID in rounded arithmetic

The exact limited law on one axis, and the data its error depends on.
-/

namespace Verif.Spec

open Verif

/-- The limited PID law on axis `i` at sample `k`, in exact arithmetic. -/
noncomputable def limitedLaw {n : ℕ} (q : PidParams ℝ n) (e : ℕ → Vec n ℝ) (dt : ℕ → ℝ) (k : ℕ) (i : Fin n) : ℝ :=
  limited (q.upper i) (q.lower i) (q.kp i * e k i + q.ki i * scalarIntegral (q.antiwindup i) (fun j => e j i) dt k +
    q.kd i * scalarRate (q.alpha i) (fun j => e j i) dt k)

/-- Limits that are all absent, or ordered on each axis and at least two machine epsilons apart. -/
def SeparatedLimits {n : ℕ} (u l : Vec n ℝ) : Prop :=
  (∀ i, u i = 0 ∧ l i = 0) ∨ ∀ i, 2 * (1 / 4503599627370496) ≤ u i - l i

/-- Errors of magnitude at most `E`, sampled with positive periods of at most `H`, so that no difference quotient can exceed
`G`. -/
structure Sampled {n : ℕ} (E H G : ℝ) (e : ℕ → Vec n ℝ) (dt : ℕ → ℝ) : Prop where
  err : ∀ k i, |e k i| ≤ E
  pos : ∀ k, 0 < dt k
  le : ∀ k, dt k ≤ H
  rate : ∀ k, 2 * E / dt k ≤ G

/-- The magnitudes of the three contributions after `k` samples, added up, as far as the bounds tell. -/
noncomputable def contributions {n : ℕ} (q : PidParams ℝ n) (E H G : ℝ) (k : ℕ) (i : Fin n) : ℝ :=
  |q.kp i| * E + |q.ki i| * (q.antiwindup i + k * (H * E)) + |q.kd i| * G

end Verif.Spec
