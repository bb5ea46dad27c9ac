import Verif.Lemmas.HoverEigen
import Verif.Lemmas.Jury
import Verif.Lemmas.ShippedRoots

/-!
# Modes of a vehicle that follows a trajectory

The trajectory controller demands `kp e + ki ∫ e + kd ė`, which a position loop with gains `kp / kd`, `ki / kd` around a
velocity loop with gain `kd` demands as well; the characteristic functions in terms of the gains of the former.
-/

namespace Verif.Spec

/-- Characteristic function of horizontal motion: trajectory and rate loops with tunings `T`, `R`, attitude gain `kr`, rotors
with lag ratio `β`. -/
noncomputable def followTiltChar (T R : PidTuning) (kr β dt : ℝ) (z : ℂ) : ℂ :=
  T.intDen z * R.den z * (z - 1) ^ 4 * (z - 1 + β) +
    β * R.num dt z * (dt * T.intDen z * (z - 1) ^ 2 * (z - 1 + kr * dt) +
      kr * dt ^ 3 * (T.kd * T.intDen z * (z - 1) + dt * (T.kp * T.intDen z + T.ki * dt * z)))

/-- Characteristic function of vertical motion. -/
noncomputable def followLiftChar (T : PidTuning) (β dt : ℝ) (z : ℂ) : ℂ :=
  T.intDen z * (z - 1) ^ 2 * (z - 1 + β) +
    β * dt * (T.kd * T.intDen z * (z - 1) + dt * (T.kp * T.intDen z + T.ki * dt * z))

end Verif.Spec

namespace Verif.Stability

open Verif Flt Spec Filter Topology

/-- The position loop of the equivalent cascade. -/
noncomputable def outerOf (T : PidTuning) : PidTuning := ⟨T.kp / T.kd, T.ki / T.kd, 0, 0⟩

/-- The velocity loop of the equivalent cascade. -/
noncomputable def innerOf (T : PidTuning) : PidTuning := ⟨T.kd, 0, 0, 0⟩

lemma outerOf_ki {T : PidTuning} (h : T.kd ≠ 0) : (outerOf T).ki = 0 ↔ T.ki = 0 := by
  simp [outerOf, div_eq_zero_iff, h]

lemma outerOf_int {T : PidTuning} (h : T.kd ≠ 0) (z : ℂ) : (outerOf T).intDen z = T.intDen z := by
  simp only [PidTuning.intDen, outerOf_ki h]

lemma tilt_follow {T R : PidTuning} (h : T.kd ≠ 0) (kr β dt : ℝ) (z : ℂ) :
    tiltChar (outerOf T) (innerOf T) R kr β dt z = followTiltChar T R kr β dt z := by
  have hc : (T.kd : ℂ) ≠ 0 := by exact_mod_cast h
  have e1 : (outerOf T).den z = T.intDen z := by
    rw [PidTuning.den, outerOf_int h]; simp [PidTuning.filDen, outerOf]
  have e2 : (innerOf T).den z = 1 := by simp [PidTuning.den, PidTuning.intDen, PidTuning.filDen, innerOf]
  have e3 : (innerOf T).num dt z = T.kd := by
    rw [PidTuning.num, e2]; simp [innerOf]
  have e4 : T.kd * (outerOf T).num dt z = T.kp * T.intDen z + T.ki * dt * z := by
    rw [PidTuning.num, e1]
    simp only [outerOf, PidTuning.filDen]
    push_cast
    simp
    field_simp
  rw [tiltChar, followTiltChar, e1, e2, e3]
  linear_combination (β * R.num dt z * (kr * dt ^ 3 * dt) : ℂ) * e4

lemma lift_follow {T : PidTuning} (h : T.kd ≠ 0) (β dt : ℝ) (z : ℂ) :
    liftChar (outerOf T) (innerOf T) β dt z = followLiftChar T β dt z := by
  have hc : (T.kd : ℂ) ≠ 0 := by exact_mod_cast h
  have e1 : (outerOf T).den z = T.intDen z := by
    rw [PidTuning.den, outerOf_int h]; simp [PidTuning.filDen, outerOf]
  have e2 : (innerOf T).den z = 1 := by simp [PidTuning.den, PidTuning.intDen, PidTuning.filDen, innerOf]
  have e3 : (innerOf T).num dt z = T.kd := by
    rw [PidTuning.num, e2]; simp [innerOf]
  have e4 : T.kd * (outerOf T).num dt z = T.kp * T.intDen z + T.ki * dt * z := by
    rw [PidTuning.num, e1]
    simp only [outerOf, PidTuning.filDen]
    push_cast
    simp
    field_simp
  rw [liftChar, followLiftChar, e1, e2, e3]
  linear_combination (β * dt * dt : ℂ) * e4

namespace Loop
variable (l : Loop) (T : Fin 3 → PidTuning)

/-- The constants of a vehicle that follows a trajectory, relative to the point it is to be at. -/
noncomputable def follow : Loop := { l with P := fun i => outerOf (T i), V := fun i => innerOf (T i), target := 0 }

/-- The rotors carry the vehicle and the accumulated vertical error `c` demands that. -/
structure FollowTrim (c w : ℝ) : Prop where
  mass : 0 < l.mass
  gravity : 0 < l.g
  tau : 0 < l.tau
  dt : 0 < l.dt
  lag : l.dt / l.tau < 2
  inertia : ∀ i, l.inertia i ≠ 0
  speed : 0 < w
  unused : (T 2).ki = 0 → c = 0
  demand : l.mass * (l.g + (T 2).ki * c) = l.g
  carry : (∑ j, l.mix 0 j) * w ^ 2 = l.g
  balance : ∀ r : Fin 3, ∑ j, l.mix r.succ j = 0
  inverse : l.mix * l.alloc = 1

/-- What the modes are judged by. -/
structure FollowStable (w : ℝ) : Prop where
  same : T 1 = T 0
  derivative : ∀ i, (T i).kd ≠ 0
  filterR : ∀ i, (l.R i).kd = 0 ∨ (0 < (l.R i).alpha ∧ (l.R i).alpha ≤ 1)
  forward : ∀ z : ℂ, 1 ≤ ‖z‖ → followTiltChar (T 0) (l.R 1) (l.kr 1) (l.dt / l.tau) l.dt z ≠ 0
  left : ∀ z : ℂ, 1 ≤ ‖z‖ → followTiltChar (T 0) (l.R 0) (l.kr 0) (l.dt / l.tau) l.dt z ≠ 0
  vertical : ∀ z : ℂ, 1 ≤ ‖z‖ → followLiftChar (T 2) (l.dt / l.tau) l.dt z ≠ 0
  heading : ∀ z : ℂ, 1 ≤ ‖z‖ → yawChar (l.R 2) (l.kr 2) (l.dt / l.tau) (l.lag / (2 * w * l.tau)) l.dt z ≠ 0

variable {l T} {c w : ℝ}

lemma FollowTrim.trim (h : l.FollowTrim T c w) (hk : (T 2).kd ≠ 0) : (l.follow T).Trim (0, c) w where
  mass := h.mass
  gravity := h.gravity
  tau := h.tau
  dt := h.dt
  lag := h.lag
  inertia := h.inertia
  speed := h.speed
  unused := ⟨fun _ => rfl, fun hi => h.unused ((outerOf_ki hk).1 hi)⟩
  steady := .inl rfl
  demand := by
    have := h.demand
    have e : (innerOf (T 2)).kp * ((outerOf (T 2)).ki * c) = (T 2).ki * c := by
      simp only [innerOf, outerOf]; field_simp
    simp only [follow, e]
    linarith
  carry := h.carry
  balance := h.balance
  inverse := h.inverse

lemma FollowStable.stable (h : l.FollowStable T w) : (l.follow T).Stable w where
  samePos := by simp only [follow, h.same]
  sameVel := by simp only [follow, h.same]
  filterP := fun _ => .inl rfl
  filterV := fun _ => .inl rfl
  filterR := h.filterR
  forward := fun z hz => by
    simp only [follow]; rw [tilt_follow (h.derivative 0)]; exact h.forward z hz
  left := fun z hz => by
    simp only [follow]; rw [tilt_follow (h.derivative 0)]; exact h.left z hz
  vertical := fun z hz => by
    simp only [follow]; rw [lift_follow (h.derivative 2)]; exact h.vertical z hz
  heading := h.heading

end Loop

end Verif.Stability

namespace Verif.Props

open Spec Stability

/-- Tuning of the trajectory controller in /repo/examples/simulation_config.yaml -/
noncomputable def shippedTraj : PidTuning := ⟨10, 5 / 1000, 6, 1⟩

def followTilt : List ℤ := [388997499764000000000, -3684431092045187082000, 14937199484616356136994,
  -34034437049153169054985, 47839462663818000000000, -42586241657000000000000, 23489450150000000000000,
  -7350000000000000000000, 1000000000000000000000]

def followLift : List ℤ := [3801198000000, -15402397999999, 23401200000000, -15800000000000, 4000000000000]

/-- With the shipped gains, time step and rotors, horizontal motion along a trajectory is stable. -/
lemma followTilt_stable (z : ℂ) (hz : 1 ≤ ‖z‖) : followTiltChar shippedTraj shippedRate 20 (1 / 20) (1 / 1000) z ≠ 0 := by
  have h := no_root_of_jury (n := 9) (a := followTilt) (by decide +kernel) hz
  have e : polyVal followTilt z = 1000000000000000000000 *
      followTiltChar shippedTraj shippedRate 20 (1 / 20) (1 / 1000) z := by
    simp only [followTilt, polyVal_cons, polyVal_nil, followTiltChar, PidTuning.den, PidTuning.num, PidTuning.intDen,
      PidTuning.filDen, shippedTraj, shippedRate]
    norm_num
    ring
  rw [e] at h
  exact right_ne_zero_of_mul h

/-- With the shipped gains, time step and rotors, vertical motion along a trajectory is stable. -/
lemma followLift_stable (z : ℂ) (hz : 1 ≤ ‖z‖) : followLiftChar shippedTraj (1 / 20) (1 / 1000) z ≠ 0 := by
  have h := no_root_of_jury (n := 5) (a := followLift) (by decide +kernel) hz
  have e : polyVal followLift z = 4000000000000 * followLiftChar shippedTraj (1 / 20) (1 / 1000) z := by
    simp only [followLift, polyVal_cons, polyVal_nil, followLiftChar, PidTuning.intDen, shippedTraj]
    norm_num
    ring
  rw [e] at h
  exact right_ne_zero_of_mul h

end Verif.Props
