import Verif.Props.Alloc
import Verif.Props.AttLoop

/-!
# Further cases that meet the hypotheses of C49 and C111
-/

namespace Verif.Props

open Verif Flt Spec Example

variable [Noise ℝ]

/-- Non-vacuity of `C49_force` and `C49_acceleration_partial`, and what the latter says: the hovering vehicle of mass two is to
keep still, and accelerates upwards with 5 m/s². -/
example : ∃ d' : Dyn ℝ 4, Aligned hoverFixture slick Fixture.motors (Ctl.mk' Fixture.ctlParams) 0 0 ∧
    hoverFixture.process 0 (1 / 100) 0 false = .ok d' ∧ slick.mass = 2 ∧ d'.state.acc = ![0, 0, 5] := by
  have hs := slick_small hoverFixture rfl 0 (1 / 100) (by norm_num) le_rfl 0 false
  refine ⟨_, hoverFixture_aligned, hs, by simp [slick, Fixture.modelParams], ?_⟩
  have h := (C49_acceleration_partial hoverFixture _ slick Fixture.motors _ 0 0 (1 / 100) 0
    hoverFixture_aligned (by norm_num) le_rfl hs).1
  generalize (Dyn.eulerStep (Model.coreOf slick Fixture.motors) Fixture.motors hoverFixture 0 (1 / 100) 0 false).state.acc = a
    at h ⊢
  funext i
  have hi := congrFun h i
  simp only [slick, Fixture.modelParams, Pi.smul_apply, Pi.add_apply, smul_eq_mul] at hi
  fin_cases i <;> simp at hi ⊢ <;> linarith

/-- Non-vacuity of `C111_half_turn`: a vehicle that faces backwards and is to face forwards. -/
example : ∃ (p : SimParams ℝ 4) (q q' : Quat ℝ) (Rd : Mat 3 3 ℝ), codeParams = some p ∧ IsUnitQ q ∧
    PointsTo Rd ![0, 0, 10] 0 ∧ Follows (Acro.mk' p.ctl.acro) 0 ![0, 0, 10] (1 / 1000) q q' ∧
    attError Rd q.toMat = 2 := by
  obtain ⟨p, hp, -⟩ := codeParams_ok
  obtain ⟨q', h⟩ := follows_exists (Acro.mk' p.ctl.acro) 0 ![0, 0, 10] (dt := 1 / 1000) (by norm_num) (by norm_num)
    ⟨0, 0, 0, 1⟩
  refine ⟨p, _, q', 1, hp, by simp [IsUnitQ], pointsTo_one, h, ?_⟩
  rw [Quat.toMat_real]
  simp [attError, Matrix.trace_fin_three]
  norm_num

end Verif.Props
