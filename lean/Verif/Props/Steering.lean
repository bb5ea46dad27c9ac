import Verif.Props.Alloc
import Verif.Lemmas.PidAxis

/-!
# Steering by rotor speeds (C152)

Which rotors of a quadrotor run faster for a demanded torque or turn.
-/

namespace Verif.Props

open Verif Flt Spec

/-- Torque about axis `k` of rotor `m` at unit speed: its leverage about that axis. -/
noncomputable def leverage (m : Motor ℝ) (k : Fin 3) : ℝ := rotorTorque m 1 0 k

lemma leverage_quad {kf kt x y : ℝ} {ms : Fin 4 → Motor ℝ} (h : IsQuad kf kt x y ms) :
    (fun i => leverage (ms i)) =
      ![![-(y * kf), -(x * kf), kt], ![y * kf, -(x * kf), -kt], ![y * kf, x * kf, kt],
        ![-(y * kf), x * kf, -kt]] ∨
    (fun i => leverage (ms i)) =
      ![![0, -(x * kf), kt], ![y * kf, 0, -kt], ![0, x * kf, kt], ![-(y * kf), 0, -kt]] := by
  obtain ⟨lo, hi, tau, J, h | h⟩ := h
  · left
    rw [quadX_fn _ _ _ _ _ _ _ _ _ h]
    ext i k
    fin_cases i <;> fin_cases k <;> simp [leverage, rotorTorque, rotorForce, cross_apply]
  · right
    rw [quadPlus_fn _ _ _ _ _ _ _ _ _ h]
    ext i k
    fin_cases i <;> fin_cases k <;> simp [leverage, rotorTorque, rotorForce, cross_apply]

/-- The speeds solving an allocation problem are unique. -/
lemma wrench_unique {kf kt x y : ℝ} {ms : Fin 4 → Motor ℝ} (h : IsQuad kf kt x y ms) (hf : kf ≠ 0)
    (ht : kt ≠ 0) (hx : x ≠ 0) (hy : y ≠ 0) {v w : Vec 4 ℝ}
    (hvw : (Model.mixer6 ms : Mat 6 4 ℝ).mulVec v = (Model.mixer6 ms : Mat 6 4 ℝ).mulVec w) : v = w := by
  have := congrArg (Indi.mixerInverse (Model.mixer6 ms)).mulVec hvw
  simpa only [Matrix.mulVec_mulVec, (C30_inverse kf kt x y ms h hf ht hx hy).2, Matrix.one_mulVec] using this

/-- The mixer applied to squared speeds, by force and leverage. -/
lemma mixer_leverage {kf kt x y : ℝ} {ms : Fin 4 → Motor ℝ} (h : IsQuad kf kt x y ms) (v : Vec 4 ℝ) :
    (Model.mixer6 ms : Mat 6 4 ℝ).mulVec v =
      ![0, 0, kf * ∑ i, v i, ∑ i, v i * leverage (ms i) 0, ∑ i, v i * leverage (ms i) 1,
        ∑ i, v i * leverage (ms i) 2] := by
  have hv := (C31_inverse 0 v).1
  set w : Vec 4 ℝ := sqrtKeepSign v
  have hv' : ∀ i, v i = w i * |w i| := by intro i; rw [← hv, squaredKeepSign_real]
  have hm : ∀ q, (Model.mixer6 ms : Mat 6 4 ℝ).mulVec v q =
      ![(∑ i, rotorForce (ms i) (w i)) 0, (∑ i, rotorForce (ms i) (w i)) 1, (∑ i, rotorForce (ms i) (w i)) 2,
        (∑ i, rotorTorque (ms i) (w i) 0) 0, (∑ i, rotorTorque (ms i) (w i) 0) 1,
        (∑ i, rotorTorque (ms i) (w i) 0) 2] q := by
    intro q
    rw [← hv]
    have w0 := wrench_mixer ms w 0
    have w1 := wrench_mixer ms w 1
    have w2 := wrench_mixer ms w 2
    fin_cases q
    exacts [w0.1.symm, w1.1.symm, w2.1.symm, w0.2.symm, w1.2.symm, w2.2.symm]
  ext q
  rw [hm]
  simp only [hv']
  obtain ⟨lo, hi, tau, J, h | h⟩ := h
  · rw [quadX_fn _ _ _ _ _ _ _ _ _ h]
    fin_cases q <;> simp [Fin.sum_univ_four, leverage, rotorTorque, rotorForce, cross_apply] <;> ring
  · rw [quadPlus_fn _ _ _ _ _ _ _ _ _ h]
    fin_cases q <;> simp [Fin.sum_univ_four, leverage, rotorTorque, rotorForce, cross_apply] <;> ring

/-- **C152.** On an X or + quadrotor with the library's allocation every rotor carries a quarter of the thrust
and of the torque about each axis the share proportional to its leverage about that axis; no other speeds
produce the demanded force and torque. -/
theorem C152_shares (kf kt x y : ℝ) (ms : Fin 4 → Motor ℝ) (h : IsQuad kf kt x y ms) (hf : kf ≠ 0)
    (ht : kt ≠ 0) (hx : x ≠ 0) (hy : y ≠ 0) (c : Indi ℝ 4) (hc : AllocatedFor c ms)
    (om omDes : Vec 3 ℝ) (T dt : ℝ) :
    let r := c.acroToMotor om T omDes dt
    (∀ i, r.2 i * |r.2 i| = T / (4 * kf) +
      ∑ k, r.1.torque k * (leverage (ms i) k / ∑ j, leverage (ms j) k ^ 2)) ∧
    ∀ w : Vec 4 ℝ, ∑ i, rotorForce (ms i) (w i) = ![0, 0, T] → ∑ i, rotorTorque (ms i) (w i) 0 = r.1.torque →
      w = r.2 := by
  intro r
  obtain ⟨e1, e2, -, e4, -⟩ := C47_wrench kf kt x y ms h hf ht hx hy c hc om omDes T dt
  rw [← e4] at e2
  have key : ∀ w : Vec 4 ℝ, ∑ i, rotorForce (ms i) (w i) = ![0, 0, T] →
      ∑ i, rotorTorque (ms i) (w i) 0 = r.1.torque →
      (Model.mixer6 ms : Mat 6 4 ℝ).mulVec (squaredKeepSign w) =
        ![0, 0, T, r.1.torque 0, r.1.torque 1, r.1.torque 2] := by
    intro w h1 h2
    ext q
    have w0 := wrench_mixer ms w 0
    have w1 := wrench_mixer ms w 1
    have w2 := wrench_mixer ms w 2
    rw [h1, h2] at w0 w1 w2
    fin_cases q
    exacts [w0.1.symm, w1.1.symm, w2.1.symm, w0.2.symm, w1.2.symm, w2.2.symm]
  have kr := key r.2 e1 e2
  constructor
  · have hs : squaredKeepSign r.2 = fun i => T / (4 * kf) +
        ∑ k, r.1.torque k * (leverage (ms i) k / ∑ j, leverage (ms j) k ^ 2) := by
      refine wrench_unique h hf ht hx hy ?_
      rw [kr, mixer_leverage h]
      rcases leverage_quad h with hq | hq <;> have l := fun i k => congrFun (congrFun hq i) k <;>
        ext q <;> fin_cases q <;>
        simp [Fin.sum_univ_four, Fin.sum_univ_three, l] <;> field_simp <;> ring
    intro i
    rw [← congrFun hs i, squaredKeepSign_real]
  · intro w h1 h2
    have := wrench_unique h hf ht hx hy ((key w h1 h2).trans kr.symm)
    rw [← (C31_inverse 0 w).2.1, this, (C31_inverse 0 r.2).2.1]

/-- Rotors compare as their shares of the squared speed do. -/
lemma speed_lt_iff (a b : ℝ) : a < b ↔ a * |a| < b * |b| := by
  have := ((C31_inverse (n := 1) (fun _ => a) (fun _ => b)).2.2.2.2 0).1
  simpa only [squaredKeepSign_real] using this

/-- **C152.** A vehicle turning about body axis `k` at rate `v` is asked to turn at rate `w`; the controller has
just been reset. If it is to turn faster, rotor `j` is commanded to run faster than rotor `i` exactly if its
leverage about axis `k` is larger; if it is to turn slower, exactly if its leverage is smaller; if the rate
is already right, all rotors get the same speed. This holds for every demanded thrust. -/
theorem C152_turns (kf kt x y : ℝ) (ms : Fin 4 → Motor ℝ) (h : IsQuad kf kt x y ms) (hf : kf ≠ 0)
    (ht : kt ≠ 0) (hx : x ≠ 0) (hy : y ≠ 0) (c : Indi ℝ 4) (hc : AllocatedFor c ms) (hp : c.pid.Steers)
    (I : Vec 3 ℝ) (hI : c.inertia = Matrix.diagonal I) (hI0 : ∀ k, 0 < I k)
    (k : Fin 3) (v w T dt : ℝ) (hdt : 0 < dt) (i j : Fin 4) :
    let r := c.acroToMotor (Pi.single k v) T (Pi.single k w) dt
    (v < w → (r.2 i < r.2 j ↔ leverage (ms i) k < leverage (ms j) k)) ∧
    (w < v → (r.2 i < r.2 j ↔ leverage (ms j) k < leverage (ms i) k)) ∧
    (v = w → r.2 i = r.2 j) := by
  intro r
  obtain ⟨t, hu, hs⟩ := Pid.computeControl_single hp hdt k (w - v)
  have herr : (Pi.single k w - Pi.single k v : Vec 3 ℝ) = Pi.single k (w - v) := by
    ext q
    obtain rfl | hq := eq_or_ne q k
    · simp
    · simp [hq]
  have hM : r.1.torque = Pi.single k (I k * t) := by
    have h1 := (C47_wrench kf kt x y ms h hf ht hx hy c hc (Pi.single k v) (Pi.single k w) T dt).2.2.2.1
    rw [herr, hu, hI] at h1
    have h2 : ∀ z : ℝ, (Matrix.diagonal I).mulVec (Pi.single k z) = Pi.single k (I k * z) := by
      intro z
      ext q
      obtain rfl | hq := eq_or_ne q k
      · rw [Matrix.mulVec_diagonal, Pi.single_eq_same, Pi.single_eq_same]
      · rw [Matrix.mulVec_diagonal, Pi.single_eq_of_ne hq, Pi.single_eq_of_ne hq, mul_zero]
    rw [h2, h2] at h1
    have h3 : crossProduct (Pi.single k w : Vec 3 ℝ) (Pi.single k (I k * w)) = 0 := by
      have : (Pi.single k (I k * w) : Vec 3 ℝ) = I k • Pi.single k w := by
        rw [← Pi.single_smul]; rfl
      rw [this, LinearMap.map_smul, cross_self, smul_zero]
    rw [h3, add_zero] at h1
    exact h1
  have hsh := (C152_shares kf kt x y ms h hf ht hx hy c hc (Pi.single k v) (Pi.single k w) T dt).1
  have hsh' : ∀ i, r.2 i * |r.2 i| = T / (4 * kf) + I k * t / (∑ j, leverage (ms j) k ^ 2) * leverage (ms i) k := by
    intro i
    rw [hsh i]
    congr 1
    rw [Finset.sum_eq_single k]
    · change r.1.torque k * _ = _
      rw [hM, Pi.single_eq_same]; ring
    · intro q _ hq
      change r.1.torque q * _ = 0
      rw [hM, Pi.single_eq_of_ne hq, zero_mul]
    · simp
  have hden : 0 < ∑ j, leverage (ms j) k ^ 2 := by
    rcases leverage_quad h with hq | hq <;> have l := fun i k => congrFun (congrFun hq i) k <;>
      fin_cases k <;> simp [Fin.sum_univ_four, l] <;> positivity
  set D := ∑ j, leverage (ms j) k ^ 2
  refine ⟨fun hvw => ?_, fun hvw => ?_, ?_⟩
  · have hc0 : 0 < I k * t / D := div_pos (mul_pos (hI0 k) (hs.1 (by linarith))) hden
    rw [speed_lt_iff, hsh', hsh', add_lt_add_iff_left, mul_lt_mul_iff_right₀ hc0]
  · have hc0 : I k * t / D < 0 :=
      div_neg_of_neg_of_pos (mul_neg_of_pos_of_neg (hI0 k) (hs.2.1 (by linarith))) hden
    rw [speed_lt_iff, hsh', hsh', add_lt_add_iff_left, mul_lt_mul_left_of_neg hc0]
  · rintro rfl
    have ht0 : t = 0 := hs.2.2 (by ring)
    have e : r.2 i * |r.2 i| = r.2 j * |r.2 j| := by rw [hsh', hsh', ht0]; simp
    refine le_antisymm (not_lt.1 fun hlt => ?_) (not_lt.1 fun hlt => ?_)
    · exact absurd ((speed_lt_iff _ _).1 hlt) (by rw [e]; exact lt_irrefl _)
    · exact absurd ((speed_lt_iff _ _).1 hlt) (by rw [e]; exact lt_irrefl _)

/-- Non-vacuity: the X quadrotor of the fixture with a proportional rate controller; for a turn to the left
about the vertical rotors 0 and 2 run faster than 1 and 3. -/
example : ∃ (ms : Fin 4 → Motor ℝ) (c : Indi ℝ 4), IsQuad 1 1 1 1 ms ∧ AllocatedFor c ms ∧ c.pid.Steers ∧
    c.inertia = Matrix.diagonal 1 ∧ leverage (ms 1) 2 < leverage (ms 0) 2 ∧
    (c.acroToMotor 0 4 ![0, 0, 1] 1).2 1 < (c.acroToMotor 0 4 ![0, 0, 1] 1).2 0 := by
  have hq : IsQuad 1 1 1 1 Fixture.motors := ⟨0, 10, 1, 1, .inl rfl⟩
  let q : PidParams ℝ 3 := { PidParams.default with kp := 1 }
  let c : Indi ℝ 4 := Indi.mk' ⟨Matrix.diagonal 1, Indi.mixerInverse (Model.mixer6 Fixture.motors), q⟩
  have hs : c.pid.Steers := by
    have hz : Pid.nonZero (0 : Vec 3 ℝ) = false := by simp [Pid.nonZero, flt]
    have e : c.pid = ((((((Pid.init.setGains 1 0 0).setAntiWindup 0).setAlpha 1).setResetIntegral
        false).setPropSat false).disableSat).reset := by
      simp [c, q, Indi.mk', Pid.mk', Pid.updateParams, PidParams.default, flt, hz]
    rw [e]
    refine ⟨rfl, ⟨1, ?_, fun _ => by simp⟩, ⟨0, ?_, fun _ => le_rfl⟩, fun _ => le_rfl, fun h => ?_⟩
    · simp [Pid.reset, Pid.disableSat, Pid.setPropSat, Pid.setResetIntegral, Pid.setAlpha, Pid.setAntiWindup,
        Pid.setGains, flt]
    · simp [Pid.reset, Pid.disableSat, Pid.setPropSat, Pid.setResetIntegral, Pid.setAlpha, Pid.setAntiWindup,
        Pid.setGains, flt]
    · cases h
  have hl : leverage (Fixture.motors 1) 2 < leverage (Fixture.motors 0) 2 := by
    rcases leverage_quad hq with l | l <;>
      rw [show leverage (Fixture.motors 1) = _ from congrFun l 1,
        show leverage (Fixture.motors 0) = _ from congrFun l 0] <;> simp
  refine ⟨Fixture.motors, c, hq, rfl, hs, rfl, hl, ?_⟩
  have := ((C152_turns 1 1 1 1 _ hq one_ne_zero one_ne_zero one_ne_zero one_ne_zero c rfl hs 1 rfl
    (fun _ => by simp) 2 0 1 4 1 one_pos 1 0).1 one_pos).2 hl
  have e : (![0, 0, 1] : Vec 3 ℝ) = Pi.single 2 1 := by ext i; fin_cases i <;> simp
  rw [e]
  simpa using this

end Verif.Props
