import Verif.Lemmas.Roots
import Mathlib.LinearAlgebra.Matrix.Charpoly.Basic
import Mathlib.LinearAlgebra.Matrix.ToLinearEquiv
import Mathlib.Topology.Algebra.Module.FiniteDimension
import Mathlib.Analysis.Normed.Module.FiniteDimension

/-!
# Powers of a linear map whose eigenvalues are inside the unit circle
-/

namespace Verif.Stability

open Filter Topology Polynomial

/-- If every eigenvalue of the complex extension is inside the unit circle, the powers tend to zero. -/
lemma pow_tendsto_of_eigen {ι : Type} [Fintype ι] [DecidableEq ι] (L : (ι → ℝ) →L[ℝ] (ι → ℝ))
    (K : (ι → ℂ) → (ι → ℂ)) (hadd : ∀ x y, K (x + y) = K x + K y) (hsmul : ∀ (z : ℂ) x, K (z • x) = z • K x)
    (hK : ∀ x i, K (fun j => ((x j : ℝ) : ℂ)) i = ((L x i : ℝ) : ℂ))
    (heig : ∀ (z : ℂ) v, K v = z • v → 1 ≤ ‖z‖ → v = 0) : Tendsto (fun n => L ^ n) atTop (𝓝 0) := by
  let A : Matrix ι ι ℝ := LinearMap.toMatrixAlgEquiv' (L : (ι → ℝ) →ₗ[ℝ] (ι → ℝ))
  have hA : Module.End.toContinuousLinearMap (ι → ℝ) (Matrix.toLinAlgEquiv' A) = L := by
    simp only [A, Matrix.toLinAlgEquiv'_toMatrixAlgEquiv']
    rfl
  have hmul : ∀ x, A.mulVec x = L x := by
    intro x
    rw [← Matrix.toLinAlgEquiv'_apply, Matrix.toLinAlgEquiv'_toMatrixAlgEquiv']
    rfl
  let K' : (ι → ℂ) →ₗ[ℂ] (ι → ℂ) := ⟨⟨K, hadd⟩, hsmul⟩
  have hC : ∀ v, (A.map (algebraMap ℝ ℂ)).mulVec v = K v := by
    intro v
    have h1 : (Matrix.toLin' (A.map (algebraMap ℝ ℂ))) = K' := by
      refine LinearMap.pi_ext' fun j => LinearMap.ext_ring ?_
      funext i
      have e : (LinearMap.single ℂ (fun _ : ι => ℂ) j) 1 = fun k => (((Pi.single j (1 : ℝ) : ι → ℝ) k : ℝ) : ℂ) := by
        funext k
        by_cases h : k = j
        · subst h; simp
        · simp [Pi.single_eq_of_ne h]
      rw [LinearMap.comp_apply, LinearMap.comp_apply, e]
      show _ = K _ i
      rw [hK, ← hmul, Matrix.toLin'_apply, Matrix.mulVec, Matrix.mulVec, dotProduct, dotProduct]
      simp
    rw [← Matrix.toLin'_apply, h1]
    rfl
  refine pow_tendsto_of_roots (Matrix.charpoly_monic A) (fun z hz => ?_) L ?_
  · by_contra hlt
    rw [aeval_def, ← eval_map, ← Matrix.charpoly_map, Matrix.eval_charpoly] at hz
    obtain ⟨v, hv, hv0⟩ := Matrix.exists_mulVec_eq_zero_iff.2 hz
    refine hv (heig z v ?_ (not_lt.1 hlt))
    rw [Matrix.sub_mulVec, sub_eq_zero] at hv0
    rw [← hC, ← hv0]
    simp
  · rw [← hA, aeval_algHom_apply, aeval_algHom_apply, Matrix.aeval_self_charpoly, map_zero, map_zero]

end Verif.Stability
