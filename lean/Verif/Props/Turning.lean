import Verif.Props.DynRun
import Verif.Props.Orientation
import Verif.Props.Alloc
import Verif.Spec.Sensors
import Mathlib.Analysis.SpecialFunctions.Trigonometric.ArctanDeriv
import Mathlib.Analysis.Real.Pi.Bounds
import Mathlib.Algebra.BigOperators.Fin

/-!
# C84: how far a vehicle turns in a step
-/

namespace Verif.Props

open Verif Flt Spec

/-- The unit quaternion of a turn by the angle `2 θ` about the axis `u`. -/
noncomputable def turnH (u : Vec 3 ℝ) (θ : ℝ) : Quaternion ℝ := toH ⟨Real.cos θ, 0, 0, 0⟩ + Real.sin θ • pureH u

/-- A unit axis. -/
def IsAxis (u : Vec 3 ℝ) : Prop := u ⬝ᵥ u = 1

lemma axis_sq {u : Vec 3 ℝ} (h : IsAxis u) : u 0 ^ 2 + u 1 ^ 2 + u 2 ^ 2 = 1 := by
  have : u ⬝ᵥ u = 1 := h
  simp only [dotProduct, Fin.sum_univ_three] at this
  linarith [this]

lemma turnH_mul {u : Vec 3 ℝ} (h : IsAxis u) (a b : ℝ) : turnH u a * turnH u b = turnH u (a + b) := by
  have hs := axis_sq h
  ext
  · simp [turnH, Real.cos_add]
    linear_combination (-Real.sin a * Real.sin b) * hs
  all_goals
    simp [turnH, Real.sin_add]
    ring

lemma turnH_zero (u : Vec 3 ℝ) : turnH u 0 = 1 := by
  ext <;> simp [turnH] <;> rfl

/-- One step turns by twice the arctangent of half the angle. -/
lemma integrate_axis {q : Quat ℝ} (hq : IsUnitQ q) {u : Vec 3 ℝ} (hu : IsAxis u) (r dt : ℝ) :
    toH (quatIntegrate q (r • u) dt) = toH q * turnH u (Real.arctan (r * dt / 2)) := by
  have hs := axis_sq hu
  have hn : (Quat.ofCoeffs (vadd q.coeffs (smulR (quatDerivative q (r • u)) dt))).n2 =
      1 + (r * dt / 2) ^ 2 := by
    rw [Quat.integrate_n2, (Quat.isUnitQ_iff q).1 hq]
    simp only [Pi.smul_apply, smul_eq_mul]
    linear_combination (dt ^ 2 / 4 * r ^ 2) * hs
  unfold quatIntegrate
  rw [Quat.normalized_eq, hn, Quat.integrate_eq]
  have hp : 0 < √(1 + (r * dt / 2) ^ 2) := Real.sqrt_pos.2 (by positivity)
  ext <;> simp [turnH, Real.cos_arctan, Real.sin_arctan] <;> field_simp <;> ring

/-- The cubic bound on the angle that is lost in a step. -/
lemma arctan_bound (x : ℝ) : |x - Real.arctan x| ≤ |x| ^ 3 / 3 := by
  have key : ∀ x : ℝ, 0 ≤ x → 0 ≤ x - Real.arctan x ∧ x - Real.arctan x ≤ x ^ 3 / 3 := by
    intro x hx
    have m1 : Monotone fun x : ℝ => x - Real.arctan x := by
      refine monotone_of_deriv_nonneg (differentiable_id.sub Real.differentiable_arctan) fun y => ?_
      have : deriv (fun x : ℝ => x - Real.arctan x) y = 1 - 1 / (1 + y ^ 2) :=
        ((hasDerivAt_id y).sub (Real.hasDerivAt_arctan y)).deriv
      rw [this]
      have h2 : 1 / (1 + y ^ 2) ≤ 1 := by
        rw [div_le_one (by positivity)]
        nlinarith [sq_nonneg y]
      linarith
    have m2 : Monotone fun x : ℝ => x ^ 3 / 3 - (x - Real.arctan x) := by
      refine monotone_of_deriv_nonneg (((differentiable_id.pow 3).div_const 3).sub
        (differentiable_id.sub Real.differentiable_arctan)) fun y => ?_
      have : deriv (fun x : ℝ => x ^ 3 / 3 - (x - Real.arctan x)) y =
          (3 : ℕ) * y ^ 2 * 1 / 3 - (1 - 1 / (1 + y ^ 2)) :=
        ((((hasDerivAt_id y).pow 3).div_const 3).sub
          ((hasDerivAt_id y).sub (Real.hasDerivAt_arctan y))).deriv
      rw [this]
      have h2 : (3 : ℕ) * y ^ 2 * 1 / 3 - (1 - 1 / (1 + y ^ 2)) = y ^ 4 / (1 + y ^ 2) := by
        push_cast
        field_simp
        ring
      rw [h2]
      positivity
    have h1 := m1 hx
    have h2 := m2 hx
    simp only [Real.arctan_zero] at h1 h2
    constructor <;> linarith
  rcases le_total 0 x with h | h
  · obtain ⟨a, b⟩ := key x h
    rw [abs_of_nonneg a, abs_of_nonneg h]
    exact b
  · obtain ⟨a, b⟩ := key (-x) (by linarith)
    rw [Real.arctan_neg] at a b
    have : x - Real.arctan x ≤ 0 := by linarith
    rw [abs_of_nonpos this, abs_of_nonpos h]
    linarith

/-- Half of the angle turned through by integration steps with rates `r j` and periods `dt j`. -/
noncomputable def halfTurned (r dt : ℕ → ℝ) (k : ℕ) : ℝ := ∑ j ∈ Finset.range k, Real.arctan (r j * dt j / 2)

lemma turned_of_steps {q : ℕ → Quat ℝ} {u : Vec 3 ℝ} {r dt : ℕ → ℝ} (hq : IsUnitQ (q 0)) (hu : IsAxis u)
    (h : ∀ k, q (k + 1) = quatIntegrate (q k) (r k • u) (dt k)) (k : ℕ) :
    IsUnitQ (q k) ∧ toH (q k) = toH (q 0) * turnH u (halfTurned r dt k) := by
  induction k with
  | zero => exact ⟨hq, by simp [halfTurned, turnH_zero]⟩
  | succ k ih =>
    refine ⟨h k ▸ Quat.quatIntegrate_unit ih.1.nonzero _ _, ?_⟩
    rw [h k, integrate_axis ih.1 hu, ih.2, mul_assoc, turnH_mul hu, halfTurned, halfTurned,
      Finset.sum_range_succ]

lemma halfTurned_error (r dt : ℕ → ℝ) (k : ℕ) :
    |∑ j ∈ Finset.range k, r j * dt j - 2 * halfTurned r dt k| ≤
      ∑ j ∈ Finset.range k, |r j * dt j| ^ 3 / 12 := by
  rw [halfTurned, Finset.mul_sum, ← Finset.sum_sub_distrib]
  refine (Finset.abs_sum_le_sum_abs _ _).trans (Finset.sum_le_sum fun j _ => ?_)
  have := arctan_bound (r j * dt j / 2)
  rw [abs_div, abs_two, div_pow] at this
  have h2 : r j * dt j - 2 * Real.arctan (r j * dt j / 2) =
      2 * (r j * dt j / 2 - Real.arctan (r j * dt j / 2)) := by ring
  rw [h2, abs_mul, abs_two]
  linarith

section
variable [Noise ℝ] {n : ℕ}

/-- `d k` is the vehicle after `k` updates with any commands, forces and noise, all the time rotating about
the body-fixed axis `u`, with rate `r k` during step `k`. -/
structure RotatesAbout (u : Vec 3 ℝ) (r dt : ℕ → ℝ) (d : ℕ → Dyn ℝ n) : Prop where
  step : ∀ k, ∃ act ext noise, (d k).process act (dt k) ext noise = .ok (d (k + 1))
  pos : ∀ k, 0 < dt k
  small : ∀ k, dt k ≤ 1 / 100
  rate : ∀ k, (d k).state.angVel = r k • u

end

/-- Full claim: rotating about a fixed axis the vehicle turns through rate times time. -/
def C84_claim : Prop :=
  ∀ (_ : Noise ℝ) (n : ℕ) (u : Vec 3 ℝ) (r dt : ℕ → ℝ) (d : ℕ → Dyn ℝ n), IsAxis u → RotatesAbout u r dt d →
    IsUnitQ (d 0).state.ori → ∀ k, toH (d k).state.ori =
      toH (d 0).state.ori * turnH u ((∑ j ∈ Finset.range k, r j * dt j) / 2)

/-- What is true: each step turns through twice the arctangent of half the angle, so the angle after any
number of steps falls short of rate times time by at most one twelfth of the sum of the cubes.
Missing: the exact angle. -/
theorem C84_turning_partial [Noise ℝ] {n : ℕ} (u : Vec 3 ℝ) (r dt : ℕ → ℝ) (d : ℕ → Dyn ℝ n) (hu : IsAxis u)
    (h : RotatesAbout u r dt d) (hq : IsUnitQ (d 0).state.ori) (k : ℕ) :
    ∃ angle, toH (d k).state.ori = toH (d 0).state.ori * turnH u (angle / 2) ∧
      angle = ∑ j ∈ Finset.range k, 2 * Real.arctan (r j * dt j / 2) ∧
      |∑ j ∈ Finset.range k, r j * dt j - angle| ≤ ∑ j ∈ Finset.range k, |r j * dt j| ^ 3 / 12 := by
  have hstep : ∀ k, (d (k + 1)).state.ori = quatIntegrate (d k).state.ori (r k • u) (dt k) := by
    intro k
    obtain ⟨act, ext, noise, hk⟩ := h.step k
    obtain ⟨c, ms, -, -, -, e⟩ := small_step (h.pos k) (h.small k) hk
    rw [e, Dyn.es_ori, h.rate k]
  have := (turned_of_steps (q := fun k => (d k).state.ori) hq hu hstep k).2
  refine ⟨2 * halfTurned r dt k, ?_, ?_, halfTurned_error r dt k⟩
  · rw [mul_div_cancel_left₀ _ two_ne_zero]
    exact this
  · rw [halfTurned, Finset.mul_sum]

/-- The odometry likewise: unfiltered gyro samples along a fixed axis, any accelerations, any periods. -/
theorem C84_odometry_partial (o : Odom ℝ) (u : Vec 3 ℝ) (r dt : ℕ → ℝ) (a : ℕ → Vec 3 ℝ) (hu : IsAxis u)
    (ha : o.alpha = 1) (hq : IsUnitQ o.ori) (k : ℕ) :
    ∃ angle, toH (o.run ((List.range k).map fun j => .update (r j • u) (a j) (dt j))).ori =
        toH o.ori * turnH u (angle / 2) ∧
      angle = ∑ j ∈ Finset.range k, 2 * Real.arctan (r j * dt j / 2) ∧
      |∑ j ∈ Finset.range k, r j * dt j - angle| ≤ ∑ j ∈ Finset.range k, |r j * dt j| ^ 3 / 12 := by
  have hrun : ∀ k, o.run ((List.range (k + 1)).map fun j => .update (r j • u) (a j) (dt j)) =
      (o.run ((List.range k).map fun j => .update (r j • u) (a j) (dt j))).update (r k • u) (a k) (dt k) := by
    intro k
    simp [List.range_succ, Odom.run, Odom.step]
  have hal : ∀ k, (o.run ((List.range k).map fun j => .update (r j • u) (a j) (dt j))).alpha = 1 := by
    intro k
    induction k with
    | zero => exact ha
    | succ k ih => rw [hrun k]; exact ih
  have hstep : ∀ k, (o.run ((List.range (k + 1)).map fun j => .update (r j • u) (a j) (dt j))).ori =
      quatIntegrate (o.run ((List.range k).map fun j => .update (r j • u) (a j) (dt j))).ori (r k • u) (dt k) := by
    intro k
    rw [hrun k]
    simp [Odom.update, Odom.integrate, Odom.filter, hal k, flt]
  have := (turned_of_steps (q := fun k => (o.run ((List.range k).map fun j =>
    .update (r j • u) (a j) (dt j))).ori) hq hu hstep k).2
  refine ⟨2 * halfTurned r dt k, ?_, ?_, halfTurned_error r dt k⟩
  · rw [mul_div_cancel_left₀ _ two_ne_zero]
    exact this
  · rw [halfTurned, Finset.mul_sum]

/-- The fixture without drag, spinning about its vertical axis with rate `R`, after `k` updates of 10 ms. -/
noncomputable def spinner [Noise ℝ] (R : ℝ) : ℕ → Dyn ℝ 4
  | 0 => builtFrom slick Fixture.motors 7 { Fixture.dyn.state with angVel := ![0, 0, R] }
  | k + 1 => Dyn.eulerStep (Model.coreOf slick Fixture.motors) Fixture.motors (spinner R k) 0 (1 / 100) 0 false

lemma spinner_rest [Noise ℝ] (R : ℝ) (k : ℕ) :
    (spinner R k).model.core = some (Model.coreOf slick Fixture.motors) ∧
    (spinner R k).state.motVel = 0 ∧ (spinner R k).state.angVel = ![0, 0, R] := by
  induction k with
  | zero => exact ⟨rfl, by simp [spinner, builtFrom, Fixture.dyn, State.default, flt], rfl⟩
  | succ k ih =>
    obtain ⟨h1, h2, h3⟩ := ih
    have hz : ∀ i, clampVal (0 : ℝ) (Fixture.motors i).minSpeed (Fixture.motors i).maxSpeed = 0 := by
      intro i
      rw [(Fixture.motors_speed i).1, (Fixture.motors_speed i).2.1]
      simp [clampVal_real]
    have hma : (spinner R (k + 1)).state.motAcc = 0 := by
      show (Dyn.eulerStep _ _ _ _ _ _ _).state.motAcc = 0
      rw [Dyn.es_motAcc, h2]
      funext i
      simp [hz]
    refine ⟨(Dyn.eulerStep_core ..).trans h1, ?_, ?_⟩
    · show (Dyn.eulerStep _ _ _ _ _ _ _).state.motVel = 0
      rw [Dyn.es_motVel]
      funext i
      have : (Dyn.eulerStep (Model.coreOf slick Fixture.motors) Fixture.motors (spinner R k) 0 (1 / 100) 0
        false).state.motAcc = 0 := hma
      simp only [this, h2]
      simp [hz]
    · have hT : (spinner R (k + 1)).state.torque = 0 := by
        show (Dyn.eulerStep _ _ _ _ _ _ _).state.torque = 0
        rw [Dyn.es_torque, h2, h3, Dyn.stepNoise_false, aeroMoment_real, Model.motorTorque_coreOf]
        have : (Dyn.eulerStep (Model.coreOf slick Fixture.motors) Fixture.motors (spinner R k) 0 (1 / 100) 0
          false).state.motAcc = 0 := hma
        rw [this]
        have h0 : (∑ i, rotorTorque (Fixture.motors i) ((0 : Vec 4 ℝ) i) ((0 : Vec 4 ℝ) i)) = 0 := by
          refine Finset.sum_eq_zero fun i _ => ?_
          have hz3 : ∀ (A : Mat 3 3 ℝ), A.mulVec ![0, 0, 0] = 0 := fun A => by
            rw [mulVec_z]; ext r; simp
          simp [rotorTorque, rotorForce, hz3]
        rw [h0]
        have hA : (Model.coreOf slick Fixture.motors).params.aero = 0 := rfl
        have hJ : (Model.coreOf slick Fixture.motors).params.inertia = 1 := rfl
        rw [hA, hJ]
        simp
      show (Dyn.eulerStep _ _ _ _ _ _ _).state.angVel = _
      rw [Dyn.es_angVel, Dyn.es_angAcc, h3]
      have : (Dyn.eulerStep (Model.coreOf slick Fixture.motors) Fixture.motors (spinner R k) 0 (1 / 100) 0
        false).state.torque = 0 := hT
      rw [this]
      simp

lemma spinner_rotates [Noise ℝ] (R : ℝ) :
    RotatesAbout ![0, 0, 1] (fun _ => R) (fun _ => 1 / 100) (spinner R) where
  step k := ⟨0, 0, false, slick_small _ (spinner_rest R k).1 _ _ (by norm_num) le_rfl _ _⟩
  pos _ := by norm_num
  small _ := le_rfl
  rate k := by rw [(spinner_rest R k).2.2]; ext i; fin_cases i <;> simp

/-- Non-vacuity: a spinning vehicle, and gyro samples about another axis. -/
example [Noise ℝ] : IsAxis ![0, 0, 1] ∧ RotatesAbout ![0, 0, 1] (fun _ => 5) (fun _ => 1 / 100) (spinner 5) ∧
    IsUnitQ (spinner 5 0).state.ori ∧ IsAxis ![3 / 5, 0, 4 / 5] ∧
    ∃ o, Odom.mk' ⟨1, Quat.identity⟩ = some o ∧ o.alpha = 1 ∧ IsUnitQ o.ori := by
  refine ⟨by simp [IsAxis], spinner_rotates 5, by
    simp [spinner, builtFrom, Fixture.dyn, State.default, Quat.identity, IsUnitQ, flt], by
    simp [IsAxis]; norm_num, ?_⟩
  simp only [Odom.mk', flt]
  norm_num
  simp [Odom.reset, Quat.identity, IsUnitQ, flt]

/-- At 200 rad/s a step of 10 ms turns by 90 degrees instead of two radians. -/
theorem C84_violated : ¬ C84_claim := by
  intro h
  let N : Noise ℝ := ⟨fun _ _ _ => 0⟩
  have hu : IsAxis ![0, 0, 1] := by simp [IsAxis]
  have hq : IsUnitQ (spinner 200 0).state.ori := by
    simp [spinner, builtFrom, Fixture.dyn, State.default, Quat.identity, IsUnitQ, flt]
  have h1 := h N 4 _ _ _ _ hu (spinner_rotates 200) hq 1
  obtain ⟨angle, h2, h3, -⟩ := C84_turning_partial _ _ _ _ hu (spinner_rotates 200) hq 1
  have hi : toH (spinner 200 0).state.ori = 1 := by
    ext <;> simp [spinner, builtFrom, Fixture.dyn, State.default, Quat.identity, flt] <;> rfl
  rw [h2, hi, one_mul, one_mul] at h1
  have h4 := congrArg (fun q : Quaternion ℝ => q.re) h1
  norm_num [turnH] at h3
  simp [turnH, h3] at h4
  norm_num at h4
  rw [← Real.cos_pi_div_four] at h4
  have hpi := Real.pi_lt_four
  have := Real.injOn_cos ⟨by linarith [Real.pi_pos], by linarith [Real.pi_pos]⟩ ⟨by norm_num, by
    linarith [Real.pi_gt_three]⟩ h4
  linarith

end Verif.Props
