import Verif.Lemmas.HoverMode
import Verif.Lemmas.PairRoots

/-!
# Roots of the characteristic polynomials of the shipped controllers
-/

namespace Verif.Props

open Spec Stability Polynomial

/-- Tunings of the controllers in /repo/examples/simulation_config.yaml -/
noncomputable def shippedPos : PidTuning := ⟨1, 1 / 100, 0, 1 / 10⟩
noncomputable def shippedPosZ : PidTuning := ⟨1, 1 / 100, 0, 0⟩
noncomputable def shippedVel : PidTuning := ⟨6, 1, 4 / 10, 5 / 100⟩
noncomputable def shippedVelZ : PidTuning := ⟨10, 2, 0, 0⟩
noncomputable def shippedRate : PidTuning := ⟨9, 3, 3 / 10, 6 / 10⟩

noncomputable def ratePoly : ℝ[X] := C 9 * ((X - C 1) * (X - C (2 / 5))) + C (3 / 1000) * X * (X - C (2 / 5)) +
  C 180 * (X - C 1) * (X - C 1)

noncomputable def velPoly : ℝ[X] := C 6 * ((X - C 1) * (X - C (19 / 20))) + C (1 / 1000) * X * (X - C (19 / 20)) +
  C 20 * (X - C 1) * (X - C 1)

noncomputable def posPoly : ℝ[X] := (X - C 1) + C (1 / 100000) * X

/-- Characteristic polynomial of horizontal motion. -/
noncomputable def shippedTilt : ℝ[X] :=
  (X - C 1) * ((X - C 1) * (X - C (19 / 20))) * ((X - C 1) * (X - C (2 / 5))) * (X - C 1) ^ 4 * (X - C (19 / 20)) +
    C (1 / 20) * ratePoly * (C (1 / 1000) * (X - C 1) * ((X - C 1) * (X - C (19 / 20))) * (X - C 1) ^ 2 * (X - C (98 / 100)) +
      C (2 / 100000000) * velPoly * ((X - C 1) * (X - C 1) + C (1 / 1000) * posPoly))

lemma tilt_root (z : ℂ) : aeval z shippedTilt = tiltChar shippedPos shippedVel shippedRate 20 (1 / 20) (1 / 1000) z := by
  simp only [shippedTilt, ratePoly, velPoly, posPoly, tiltChar, PidTuning.den, PidTuning.num, PidTuning.intDen,
    PidTuning.filDen, shippedPos, shippedVel, shippedRate, map_add, map_mul, map_sub, map_pow, aeval_X, aeval_C]
  norm_num
  ring

lemma degree_of_add {p q : ℝ[X]} {n : ℕ} (hp : p.Monic) (hd : p.natDegree = n + 1) (hq : q.natDegree ≤ n) :
    (p + q).Monic ∧ (p + q).natDegree = n + 1 := by
  have h : q.degree < p.degree := by
    rw [degree_eq_natDegree hp.ne_zero, hd]
    exact (natDegree_le_iff_degree_le.1 hq).trans_lt (by exact_mod_cast Nat.lt_succ_self n)
  refine ⟨hp.add_of_left h, ?_⟩
  rw [natDegree_add_eq_left_of_degree_lt h, hd]

lemma tilt_degree : shippedTilt.Monic ∧ shippedTilt.natDegree = 8 + 2 := by
  have m : ∀ a : ℝ, (X - C a).Monic := monic_X_sub_C
  refine degree_of_add (n := 9) ?_ ?_ ?_
  · exact (((((m _).mul ((m _).mul (m _))).mul ((m _).mul (m _))).mul ((m _).pow 4)).mul (m _))
  · compute_degree!
  · unfold ratePoly velPoly posPoly
    compute_degree!

/-- With the shipped gains, time step and rotors, horizontal motion is stable. -/
lemma tilt_stable (z : ℂ) (hz : 1 ≤ ‖z‖) : tiltChar shippedPos shippedVel shippedRate 20 (1 / 20) (1 / 1000) z ≠ 0 := by
  rw [← tilt_root]
  intro h
  refine absurd (roots_inside tilt_degree.1 tilt_degree.2
    ![4162 / 10000, 9381 / 10000, 9556 / 10000, 9966 / 10000, 9986 / 10000, 99966 / 100000, 99983 / 100000, 999989 / 1000000]
    ![4164 / 10000, 9383 / 10000, 9558 / 10000, 9968 / 10000, 9987 / 10000, 99967 / 100000, 99984 / 100000, 99999 / 100000]
    ?_ ?_ ?_ ?_ ?_ ?_ ?_ ?_ h) (not_lt.2 hz)
  · intro i; fin_cases i <;> norm_num
  · intro i; fin_cases i <;> norm_num
  · intro i; fin_cases i <;> norm_num
  · intro i j hij; fin_cases i <;> fin_cases j <;> first | exact absurd hij (by decide) | norm_num
  · intro i
    fin_cases i <;> norm_num [shippedTilt, ratePoly, velPoly, posPoly]
  · norm_num [shippedTilt, ratePoly, velPoly, posPoly]
  · norm_num [shippedTilt, ratePoly, velPoly, posPoly]
  · rw [Fin.prod_univ_eight]
    show _ < (4162 / 10000 : ℝ) * (9381 / 10000) * (9556 / 10000) * (9966 / 10000) * (9986 / 10000) * (99966 / 100000) *
      (99983 / 100000) * (999989 / 1000000)
    norm_num [shippedTilt, ratePoly, velPoly, posPoly]

/-- Characteristic polynomial of the heading. -/
noncomputable def shippedYaw (ρ : ℝ) : ℝ[X] :=
  (X - C 1) * (X - C (2 / 5)) * (X - C 1) ^ 2 * (X - C (19 / 20)) +
    C (1 / 1000) * ratePoly * (C (1 / 20) + C ρ * (X - C 1)) * (X - C (992 / 1000))

lemma yaw_root (ρ : ℝ) (z : ℂ) : aeval z (shippedYaw ρ) = yawChar shippedRate 8 (1 / 20) ρ (1 / 1000) z := by
  simp only [shippedYaw, ratePoly, yawChar, PidTuning.den, PidTuning.num, PidTuning.intDen,
    PidTuning.filDen, shippedRate, map_add, map_mul, map_sub, map_pow, aeval_X, aeval_C]
  norm_num
  ring

lemma yaw_degree (ρ : ℝ) : (shippedYaw ρ).Monic ∧ (shippedYaw ρ).natDegree = 3 + 2 := by
  have m : ∀ a : ℝ, (X - C a).Monic := monic_X_sub_C
  refine degree_of_add (n := 4) ?_ ?_ ?_
  · exact ((((m _).mul (m _)).mul ((m _).pow 2)).mul (m _))
  · compute_degree!
  · unfold ratePoly
    compute_degree!

/-- With the shipped gains, time step and rotors, the heading is stable. -/
lemma yaw_stable {ρ : ℝ} (h1 : 561 / 1000 < ρ) (h2 : ρ < 562 / 1000) (z : ℂ) (hz : 1 ≤ ‖z‖) :
    yawChar shippedRate 8 (1 / 20) ρ (1 / 1000) z ≠ 0 := by
  rw [← yaw_root]
  intro h
  have hev : ∀ t : ℝ, (shippedYaw ρ).eval t = (t - 1) ^ 3 * (t - 2 / 5) * (t - 19 / 20) +
      1 / 1000 * (9 * ((t - 1) * (t - 2 / 5)) + 3 / 1000 * t * (t - 2 / 5) + 180 * (t - 1) ^ 2) *
        (1 / 20 + ρ * (t - 1)) * (t - 992 / 1000) := fun t => by
    simp only [shippedYaw, ratePoly, eval_add, eval_mul, eval_pow, eval_sub, eval_X, eval_C]
    ring
  refine absurd (roots_inside (yaw_degree ρ).1 (yaw_degree ρ).2
    ![305 / 1000, 947 / 1000, 99966 / 100000] ![307 / 1000, 948 / 1000, 99967 / 100000]
    ?_ ?_ ?_ ?_ ?_ ?_ ?_ ?_ h) (not_lt.2 hz)
  · intro i; fin_cases i <;> norm_num
  · intro i; fin_cases i <;> norm_num
  · intro i; fin_cases i <;> norm_num
  · intro i j hij; fin_cases i <;> fin_cases j <;> first | exact absurd hij (by decide) | norm_num
  · intro i
    fin_cases i
    · left
      simp only [hev]
      constructor
      · norm_num; linarith
      · norm_num; linarith
    · right
      simp only [hev]
      constructor
      · norm_num; linarith
      · norm_num; linarith
    · left
      simp only [hev]
      constructor
      · norm_num; linarith
      · norm_num; linarith
  · rw [hev]; norm_num
  · rw [hev]; norm_num; linarith
  · rw [hev, Fin.prod_univ_three]
    show _ < (305 / 1000 : ℝ) * (947 / 1000) * (99966 / 100000)
    norm_num; linarith

/-- Characteristic polynomial of vertical motion. -/
noncomputable def shippedLift : ℝ[X] :=
  (X - C 1) * (X - C 1) * (X - C 1) ^ 2 * (X - C (19 / 20)) +
    C (1 / 20000) * (C 10 * (X - C 1) + C (2 / 1000) * X) * ((X - C 1) * (X - C 1) + C (1 / 1000) * posPoly)

lemma lift_root (z : ℂ) : aeval z shippedLift = liftChar shippedPosZ shippedVelZ (1 / 20) (1 / 1000) z := by
  simp only [shippedLift, posPoly, liftChar, PidTuning.den, PidTuning.num, PidTuning.intDen,
    PidTuning.filDen, shippedPosZ, shippedVelZ, map_add, map_mul, map_sub, map_pow, aeval_X, aeval_C]
  norm_num [-mul_eq_mul_left_iff, -mul_eq_mul_right_iff]
  ring

lemma lift_degree : shippedLift.Monic ∧ shippedLift.natDegree = 3 + 2 := by
  have m : ∀ a : ℝ, (X - C a).Monic := monic_X_sub_C
  refine degree_of_add (n := 4) ?_ ?_ ?_
  · exact ((((m _).mul (m _)).mul ((m _).pow 2)).mul (m _))
  · compute_degree!
  · unfold posPoly
    compute_degree!

/-- With the shipped gains, time step and rotors, vertical motion is stable. -/
lemma lift_stable (z : ℂ) (hz : 1 ≤ ‖z‖) : liftChar shippedPosZ shippedVelZ (1 / 20) (1 / 1000) z ≠ 0 := by
  rw [← lift_root]
  intro h
  refine absurd (roots_inside lift_degree.1 lift_degree.2
    ![96312 / 100000, 98823 / 100000, 998853 / 1000000] ![96313 / 100000, 98824 / 100000, 998854 / 1000000]
    ?_ ?_ ?_ ?_ ?_ ?_ ?_ ?_ h) (not_lt.2 hz)
  · intro i; fin_cases i <;> norm_num
  · intro i; fin_cases i <;> norm_num
  · intro i; fin_cases i <;> norm_num
  · intro i j hij; fin_cases i <;> fin_cases j <;> first | exact absurd hij (by decide) | norm_num
  · intro i
    fin_cases i <;> norm_num [shippedLift, posPoly]
  · norm_num [shippedLift, posPoly]
  · norm_num [shippedLift, posPoly]
  · rw [Fin.prod_univ_three]
    show _ < (96312 / 100000 : ℝ) * (98823 / 100000) * (998853 / 1000000)
    norm_num [shippedLift, posPoly]

end Verif.Props
