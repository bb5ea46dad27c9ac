import Verif.Fixture
import Verif.Lemmas.Ctl

/-!
# C81: the controllers report the demands they computed
-/

namespace Verif.Props

open Verif Flt Spec

/-- Full claim: whatever the controller was used for before, after converting an acceleration into thrust and
body rates the acro controller reports this thrust and these rates. -/
def C81_claim : Prop :=
  ∀ (n : ℕ) (p : CtlParams ℝ n) (os : List (CtlOp ℝ n)) (a : Vec 3 ℝ) (R : Mat 3 3 ℝ) (yaw thrust : ℝ)
    (w : Vec 3 ℝ) (c : Ctl ℝ n), ((Ctl.mk' p).run os).1.step (.convertAcceleration a R yaw) = (c, .acro thrust w) →
    c.acro.thrust = thrust ∧ c.acro.angVel = w

section
variable {α : Type} [Flt α] {n : ℕ}

lemma acro_thrust_step (c : Ctl α n) (o : CtlOp α n) : (c.step o).1.acro.thrust = c.acro.thrust := by
  cases o <;> rfl

lemma acro_thrust_run (c : Ctl α n) (os : List (CtlOp α n)) : (c.run os).1.acro.thrust = c.acro.thrust := by
  induction os generalizing c with
  | nil => rfl
  | cons o os ih => rw [Ctl.run]; simp only []; rw [ih, acro_thrust_step]

/-- What is true, in any arithmetic: the reported thrust is zero after every history of calls; the reported
rates are the demanded ones unless the demand was rejected because it points downwards, in which case the
demand is zero and the reported rates are those of the attitude law.  The controller that owns the acro
controller reports the demand of every command it computes, and the rotor speeds of the command.
Missing: the thrust, and the rates of a rejected demand. -/
theorem C81_reported_partial (p : CtlParams α n) (os : List (CtlOp α n)) :
    let c := ((Ctl.mk' p).run os).1
    c.acro.thrust = lit 0 ∧
    (∀ (a : Vec 3 α) (R : Mat 3 3 α) (yaw thrust : α) (w : Vec 3 α) (c' : Ctl α n),
      c.step (.convertAcceleration a R yaw) = (c', .acro thrust w) →
      c'.acro.angVel = w ∨ (thrust = lit 0 ∧ w = vzero)) ∧
    (∀ (o : CtlOp α n) (c' : Ctl α n) (m : Vec n α), c.step o = (c', .motors m) →
      c'.indi.motVel = m ∧ c'.indi.thrust 2 = (match o with
        | .convertAcro _ t _ _ => t
        | _ => c'.desThrust) ∧
      ((∀ om t w dt, o ≠ .convertAcro om t w dt) → c'.desMotVel = m)) := by
  intro c
  refine ⟨?_, ?_, ?_⟩
  · show (((Ctl.mk' p).run os).1).acro.thrust = lit 0
    rw [acro_thrust_run]; rfl
  · intro a R yaw thrust w c' h
    simp only [Ctl.step, Ctl.accelerationToAcro, Prod.mk.injEq, CtlOut.acro.injEq] at h
    obtain ⟨rfl, h1, h2⟩ := h
    split at h1
    · rename_i hb
      rw [if_pos hb] at h2
      exact .inr ⟨h1.symm, h2.symm⟩
    · rename_i hb
      rw [if_neg hb] at h2
      left
      rw [← h2]
      rfl
  · intro o c' m h
    cases o <;> simp only [Ctl.step, Prod.mk.injEq, CtlOut.motors.injEq, reduceCtorEq, and_false] at h <;>
      try (obtain ⟨rfl, rfl⟩ := h; exact ⟨rfl, rfl, fun _ => rfl⟩)
    · obtain ⟨rfl, rfl⟩ := h; exact ⟨rfl, rfl, fun hc => absurd rfl (hc _ _ _ _)⟩
    all_goals exact absurd h.2 (by unfold Ctl.pidOut; split <;> simp)

end

/-- A demand of 1 m/s² upwards for the fixture: the thrust 22 is computed, 0 is reported. -/
theorem C81_violated : ¬ C81_claim := by
  intro h
  have h1 := (h 4 Fixture.ctlParams [] ![0, 0, 1] 1 0 _ _ _ rfl).1
  have h2 : normalized (fun i => (1 : Mat 3 3 ℝ) i 2) = ![0, 0, 1] := by
    rw [normalized_real]
    ext i
    fin_cases i <;> simp [dotProduct, Fin.sum_univ_three]
  simp only [Ctl.accelerationToAcro, h2, Acro.accelerationToThrust, Ctl.run, Ctl.mk', Acro.mk',
    Fixture.ctlParams, Acro.yawAngleToAngularVelocity, flt] at h1
  simp [dotProduct, Fin.sum_univ_three] at h1
  norm_num at h1

/-- Non-vacuity: the upward demand is converted, a downward one is rejected. -/
example : (∃ c, (Ctl.mk' Fixture.ctlParams).step (.convertAcceleration ![0, 0, 1] 1 0) =
      (c, .acro 22 c.acro.angVel)) ∧
    ∃ c, (Ctl.mk' Fixture.ctlParams).step (.convertAcceleration ![0, 0, -11] 1 0) = (c, .acro 0 0) := by
  have h2 : normalized (fun i => (1 : Mat 3 3 ℝ) i 2) = ![0, 0, 1] := by
    rw [normalized_real]
    ext i
    fin_cases i <;> simp [dotProduct, Fin.sum_univ_three]
  constructor
  · refine ⟨((Ctl.mk' Fixture.ctlParams).step (.convertAcceleration ![0, 0, 1] 1 0)).1, ?_⟩
    simp only [Ctl.step, Ctl.accelerationToAcro, h2, Acro.accelerationToThrust, Ctl.mk', Acro.mk',
      Fixture.ctlParams, Acro.yawAngleToAngularVelocity, flt]
    simp [dotProduct, Fin.sum_univ_three]
    norm_num
  · refine ⟨((Ctl.mk' Fixture.ctlParams).step (.convertAcceleration ![0, 0, -11] 1 0)).1, ?_⟩
    simp only [Ctl.step, Ctl.accelerationToAcro, h2, Acro.accelerationToThrust, Ctl.mk', Acro.mk',
      Fixture.ctlParams, Acro.yawAngleToAngularVelocity, flt]
    simp [dotProduct, Fin.sum_univ_three]
    norm_num

end Verif.Props
