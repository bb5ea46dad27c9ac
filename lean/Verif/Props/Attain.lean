import Verif.Props.Alloc
import Verif.Props.DynRun
import Verif.Props.Standstill

/-!
# Do the rotors bring about what the rate loop commands? (C137)

C47 says that the commanded rotor speeds produce the commanded thrust and torque; C04 and C21 say that the rotors only
reach speeds between their limits.  C137 puts the two together.
-/

namespace Verif.Props

open Verif Flt Spec Filter

/-! ## Specification -/

/-- Thrust vector and torque of rotors that turn at the speeds `w`. -/
noncomputable def steadyWrench (ms : Fin 4 → Motor ℝ) (w : Vec 4 ℝ) : Vec 3 ℝ × Vec 3 ℝ :=
  (∑ i, rotorForce (ms i) (w i), ∑ i, rotorTorque (ms i) (w i) 0)

/-- `d k` is the vehicle after `k` updates of length `dt` during which the command `act` is kept; external forces and noise
may vary.  The rotors start within their limits and the steps resolve their time constants. -/
structure Keeps [Noise ℝ] (d : ℕ → Dyn ℝ 4) (p : ModelParams ℝ) (ms : Fin 4 → Motor ℝ) (act : Vec 4 ℝ) (dt : ℝ) :
    Prop where
  runs : RunsOn (d 0) p ms
  update : ∀ k, ∃ ext noise, (d k).process act dt ext noise = .ok (d (k + 1))
  pos : 0 < dt
  tau : ∀ i, min dt (1 / 100) ≤ (ms i).tau
  low : ∀ i, (ms i).minSpeed ≤ (d 0).state.motVel i
  high : ∀ i, (d 0).state.motVel i ≤ (ms i).maxSpeed

/-- The claim: if the rotors can produce the commanded total thrust at all, and the command is kept, the total thrust
approaches the commanded one. -/
def C137_claim [Noise ℝ] : Prop :=
  ∀ (kf kt x y : ℝ) (ms : Fin 4 → Motor ℝ), IsQuad kf kt x y ms → 0 < kf → 0 < kt → 0 < x → 0 < y →
    ∀ (c : Indi ℝ 4), AllocatedFor c ms → ∀ (om omDes : Vec 3 ℝ) (T dtc : ℝ),
    ∑ i, rotorForce (ms i) (ms i).minSpeed 2 ≤ T → T ≤ ∑ i, rotorForce (ms i) (ms i).maxSpeed 2 →
    ∀ (d : ℕ → Dyn ℝ 4) (p : ModelParams ℝ) (dt : ℝ), Keeps d p ms (c.acroToMotor om T omDes dtc).2 dt →
      Tendsto (fun k => (steadyWrench ms (d k).state.motVel).1 2) atTop (nhds T)

/-! ## Proofs -/

section
variable [Noise ℝ]

omit [Noise ℝ] in
lemma steadyWrench_continuous (ms : Fin 4 → Motor ℝ) : Continuous (steadyWrench ms) := by
  have hf : ∀ i, Continuous fun w : Vec 4 ℝ => rotorForce (ms i) (w i) := by
    intro i
    unfold rotorForce
    refine Continuous.matrix_mulVec continuous_const ?_
    refine continuous_pi fun r => ?_
    fin_cases r
    · exact continuous_const
    · exact continuous_const
    · exact continuous_const.mul ((continuous_apply i).mul (continuous_apply i).abs)
  have hc : ∀ a : Vec 3 ℝ, Continuous fun v : Vec 3 ℝ => crossProduct a v := by
    intro a
    refine continuous_pi fun r => ?_
    fin_cases r <;> simp [cross_apply] <;> fun_prop
  refine Continuous.prodMk (continuous_finsetSum _ fun i _ => hf i) (continuous_finsetSum _ fun i _ => ?_)
  unfold rotorTorque
  refine ((hc _).comp (hf i)).add ?_ |>.add continuous_const
  refine Continuous.matrix_mulVec continuous_const ?_
  refine continuous_pi fun r => ?_
  fin_cases r
  · exact continuous_const
  · exact continuous_const
  · exact continuous_const.mul ((continuous_apply i).mul (continuous_apply i).abs)

/-- The speeds the rotors settle at. -/
noncomputable def settled (ms : Fin 4 → Motor ℝ) (act : Vec 4 ℝ) : Vec 4 ℝ :=
  fun i => max (ms i).minSpeed (min (ms i).maxSpeed (act i))

lemma Keeps.tendsto {d : ℕ → Dyn ℝ 4} {p : ModelParams ℝ} {ms : Fin 4 → Motor ℝ} {act : Vec 4 ℝ} {dt : ℝ}
    (h : Keeps d p ms act dt) :
    Tendsto (fun k => steadyWrench ms (d k).state.motVel) atTop (nhds (steadyWrench ms (settled ms act))) := by
  refine ((steadyWrench_continuous ms).tendsto _).comp (tendsto_pi_nhds.2 fun i => ?_)
  exact (C21_rotor_response d p ms act dt h.runs h.update h.pos i (h.tau i) (h.low i) (h.high i)).2.2.2.2

omit [Noise ℝ] in
/-- Different rotor speeds of a quadrotor have different effects. -/
lemma steadyWrench_injective {kf kt x y : ℝ} {ms : Fin 4 → Motor ℝ} (h : IsQuad kf kt x y ms) (hf : kf ≠ 0)
    (ht : kt ≠ 0) (hx : x ≠ 0) (hy : y ≠ 0) {v w : Vec 4 ℝ} (hvw : steadyWrench ms v = steadyWrench ms w) : v = w := by
  have h1 := congrArg Prod.fst hvw
  have h2 := congrArg Prod.snd hvw
  have key : (Model.mixer6 ms : Mat 6 4 ℝ).mulVec (squaredKeepSign v) =
      (Model.mixer6 ms : Mat 6 4 ℝ).mulVec (squaredKeepSign w) := by
    have e1 : ∀ r : Fin 3, _ := fun r => ((wrench_mixer ms v r).1.symm.trans (congrFun h1 r)).trans (wrench_mixer ms w r).1
    have e2 : ∀ r : Fin 3, _ := fun r => ((wrench_mixer ms v r).2.symm.trans (congrFun h2 r)).trans (wrench_mixer ms w r).2
    ext i
    fin_cases i
    · exact e1 0
    · exact e1 1
    · exact e1 2
    · exact e2 0
    · exact e2 1
    · exact e2 2
  have := congrArg (Indi.mixerInverse (Model.mixer6 ms)).mulVec key
  rw [Matrix.mulVec_mulVec, Matrix.mulVec_mulVec, (C30_inverse kf kt x y ms h hf ht hx hy).2, Matrix.one_mulVec,
    Matrix.one_mulVec] at this
  rw [← (C31_inverse 0 v).2.1, this, (C31_inverse 0 w).2.1]

/-- **C137, partial.** The rotors bring about the commanded thrust and torque if and only if every commanded speed is
within the limits of its rotor.  Missing: the rate loop does not take the limits into account, so this may fail although
the thrust is one that the rotors can produce (`C137_violated`). -/
theorem C137_realised_partial (kf kt x y : ℝ) (ms : Fin 4 → Motor ℝ) (h : IsQuad kf kt x y ms) (hf : kf ≠ 0)
    (ht : kt ≠ 0) (hx : x ≠ 0) (hy : y ≠ 0) (c : Indi ℝ 4) (hc : AllocatedFor c ms) (om omDes : Vec 3 ℝ) (T dtc : ℝ)
    (d : ℕ → Dyn ℝ 4) (p : ModelParams ℝ) (dt : ℝ) (hd : Keeps d p ms (c.acroToMotor om T omDes dtc).2 dt) :
    let r := c.acroToMotor om T omDes dtc
    Tendsto (fun k => steadyWrench ms (d k).state.motVel) atTop (nhds (![0, 0, T], r.1.torque)) ↔
      ∀ i, (ms i).minSpeed ≤ r.2 i ∧ r.2 i ≤ (ms i).maxSpeed := by
  intro r
  obtain ⟨e1, e2, -, e4, -⟩ := C47_wrench kf kt x y ms h hf ht hx hy c hc om omDes T dtc
  have hw : steadyWrench ms r.2 = (![0, 0, T], r.1.torque) := Prod.ext e1 (e2.trans e4.symm)
  have hl : ∀ i, (ms i).minSpeed ≤ (ms i).maxSpeed := fun i => (hd.low i).trans (hd.high i)
  rw [← hw]
  constructor
  · intro hlim i
    have hs := steadyWrench_injective h hf ht hx hy (tendsto_nhds_unique hd.tendsto hlim)
    have hi : max (ms i).minSpeed (min (ms i).maxSpeed (r.2 i)) = r.2 i := congrFun hs i
    rw [← hi]
    exact ⟨le_max_left _ _, max_le (hl i) (min_le_left _ _)⟩
  · intro hin
    have hs : settled ms r.2 = r.2 := funext fun i => by
      unfold settled
      rw [min_eq_right (hin i).2, max_eq_right (hin i).1]
    exact hs ▸ hd.tendsto

omit [Noise ℝ] in
lemma signed_square_le {a b : ℝ} (h : a * |a| ≤ b * |b|) : a ≤ b := by
  by_contra hc
  have hc := not_le.1 hc
  have := ((C31_inverse (fun _ : Fin 1 => b) (fun _ => a)).2.2.2.2 0).1.1 hc
  simp only [squaredKeepSign_real] at this
  exact absurd h (not_le.2 this)

/-- **C137, partial, in terms of the demand.** An X quadrotor brings about a thrust and torque whose roll, pitch and yaw
parts together leave enough room to the least and to the greatest thrust. -/
theorem C137_attainable_partial (kf kt x y lo hi tau J : ℝ) (ms : Fin 4 → Motor ℝ)
    (h : Model.quadX kf kt x y lo hi tau J = List.ofFn ms) (hf : 0 < kf) (ht : 0 < kt) (hx : 0 < x) (hy : 0 < y)
    (hlo : 0 ≤ lo) (c : Indi ℝ 4) (hc : AllocatedFor c ms) (om omDes : Vec 3 ℝ) (T dtc : ℝ)
    (d : ℕ → Dyn ℝ 4) (p : ModelParams ℝ) (dt : ℝ) (hd : Keeps d p ms (c.acroToMotor om T omDes dtc).2 dt)
    (M : Vec 3 ℝ) (hM : (c.acroToMotor om T omDes dtc).1.torque = M)
    (h1 : |M 0| / y + |M 1| / x + |M 2| * (kf / kt) ≤ T - 4 * kf * lo ^ 2)
    (h2 : |M 0| / y + |M 1| / x + |M 2| * (kf / kt) ≤ 4 * kf * hi ^ 2 - T) :
    Tendsto (fun k => steadyWrench ms (d k).state.motVel) atTop (nhds (![0, 0, T], M)) := by
  have hq : IsQuad kf kt x y ms := ⟨lo, hi, tau, J, .inl h⟩
  rw [← hM]
  refine (C137_realised_partial kf kt x y ms hq hf.ne' ht.ne' hx.ne' hy.ne' c hc om omDes T dtc d p dt hd).2 ?_
  obtain ⟨e1, e2, -, e4, -⟩ := C47_wrench kf kt x y ms hq hf.ne' ht.ne' hx.ne' hy.ne' c hc om omDes T dtc
  have e3 := e2.trans (e4.symm.trans hM)
  set w := (c.acroToMotor om T omDes dtc).2 with hw
  have hl : lo ≤ hi := by
    have := (hd.low 0).trans (hd.high 0)
    rwa [quadX_fn _ _ _ _ _ _ _ _ _ h] at this
  have f1 := congrFun e1 2
  have f2 := congrFun e3 0
  have f3 := congrFun e3 1
  have f4 := congrFun e3 2
  rw [quadX_fn _ _ _ _ _ _ _ _ _ h] at f1 f2 f3 f4
  simp [rotorForce, rotorTorque, Fin.sum_univ_four, cross_apply] at f1 f2 f3 f4
  have g2 : M 0 / y = kf * (-(w 0 * |w 0|) + w 1 * |w 1| + w 2 * |w 2| - w 3 * |w 3|) := by
    rw [← f2]; field_simp; ring
  have g3 : M 1 / x = kf * (-(w 0 * |w 0|) - w 1 * |w 1| + w 2 * |w 2| + w 3 * |w 3|) := by
    rw [← f3]; field_simp; ring
  have g4 : M 2 * (kf / kt) = kf * (w 0 * |w 0| - w 1 * |w 1| + w 2 * |w 2| - w 3 * |w 3|) := by
    rw [← f4]; field_simp; ring
  have a2 : |M 0| / y = |M 0 / y| := by rw [abs_div, abs_of_pos hy]
  have a3 : |M 1| / x = |M 1 / x| := by rw [abs_div, abs_of_pos hx]
  have a4 : |M 2| * (kf / kt) = |M 2 * (kf / kt)| := by rw [abs_mul, abs_of_pos (div_pos hf ht)]
  rw [a2, a3, a4] at h1 h2
  obtain ⟨b1, b2⟩ := abs_le.1 (le_refl |M 0 / y|)
  obtain ⟨b3, b4⟩ := abs_le.1 (le_refl |M 1 / x|)
  obtain ⟨b5, b6⟩ := abs_le.1 (le_refl |M 2 * (kf / kt)|)
  have fin : ∀ i, kf * lo ^ 2 ≤ kf * (w i * |w i|) → kf * (w i * |w i|) ≤ kf * hi ^ 2 → lo ≤ w i ∧ w i ≤ hi := by
    intro i c1 c2
    have c1 := le_of_mul_le_mul_left c1 hf
    have c2 := le_of_mul_le_mul_left c2 hf
    refine ⟨signed_square_le ?_, signed_square_le ?_⟩
    · rw [abs_of_nonneg hlo]; linarith [sq lo]
    · rw [abs_of_nonneg (hlo.trans hl)]; linarith [sq hi]
  have hms : ∀ i, (ms i).minSpeed = lo ∧ (ms i).maxSpeed = hi := by
    intro i
    rw [quadX_fn _ _ _ _ _ _ _ _ _ h]
    fin_cases i <;> exact ⟨rfl, rfl⟩
  intro i
  rw [(hms i).1, (hms i).2]
  refine fin i ?_ ?_
  · fin_cases i <;> simp only [Fin.zero_eta, Fin.mk_one, Fin.reduceFinMk] <;> linarith
  · fin_cases i <;> simp only [Fin.zero_eta, Fin.mk_one, Fin.reduceFinMk] <;> linarith

/-! ## Refutation -/

/-- The rate loop of the fixture, proportional with gain one. -/
noncomputable def yawIndi : Indi ℝ 4 :=
  Indi.mk' ⟨1, Indi.mixerInverse (Model.mixer6 Fixture.motors), unitGain⟩

/-- The fixture that keeps a command. -/
noncomputable def keptDyn (act : Vec 4 ℝ) (k : ℕ) : Dyn ℝ 4 :=
  Nat.rec Fixture.dyn (fun _ d => Dyn.eulerStep Fixture.core Fixture.motors d act (1 / 100) 0 true) k

lemma keptDyn_keeps (act : Vec 4 ℝ) : Keeps (keptDyn act) Fixture.modelParams Fixture.motors act (1 / 100) := by
  have hc : ∀ k, (keptDyn act k).model.core = some Fixture.core := by
    intro k
    induction k with
    | zero => rfl
    | succ k ih => exact (Dyn.eulerStep_core ..).trans ih
  have h0 : ∀ i, (keptDyn act 0).state.motVel i = 0 := by
    intro i
    show (State.default : State ℝ 4).motVel i = 0
    simp [State.default, flt]
  refine ⟨fixture_runsOn, fun k => ⟨0, true, ?_⟩, by norm_num, fun i => ?_, fun i => ?_, fun i => ?_⟩
  · exact Fixture.process_ok _ (hc k) _ _ (by norm_num) le_rfl _ _
  · rw [(Fixture.motors_speed i).2.2]; norm_num
  · rw [(Fixture.motors_speed i).1, h0]
  · rw [(Fixture.motors_speed i).2.1, h0]; norm_num

omit [Noise ℝ] in
lemma yawIndi_torque (T : ℝ) (e : Vec 3 ℝ) : (yawIndi.acroToMotor 0 T e 1).1.torque = e := by
  obtain ⟨-, -, -, e4, -⟩ := C47_wrench 1 1 1 1 Fixture.motors ⟨0, 10, 1, 1, .inl rfl⟩ one_ne_zero one_ne_zero
    one_ne_zero one_ne_zero yawIndi rfl 0 e T 1
  rw [e4, sub_zero]
  have : (yawIndi.pid.computeControl 1 e).2 = e := by
    refine (only_output unitGain_only 1 e).trans ?_
    funext i
    exact one_mul _
  rw [this]
  show (1 : Mat 3 3 ℝ).mulVec e + crossProduct e ((1 : Mat 3 3 ℝ).mulVec e) = e
  simp

omit [Noise ℝ] in
/-- What the four rotors of the fixture do together. -/
lemma fixture_wrench (w : Vec 4 ℝ) :
    (steadyWrench Fixture.motors w).1 2 = w 0 * |w 0| + w 1 * |w 1| + w 2 * |w 2| + w 3 * |w 3| ∧
    (steadyWrench Fixture.motors w).2 0 = -(w 0 * |w 0|) + w 1 * |w 1| + w 2 * |w 2| - w 3 * |w 3| ∧
    (steadyWrench Fixture.motors w).2 1 = -(w 0 * |w 0|) - w 1 * |w 1| + w 2 * |w 2| + w 3 * |w 3| ∧
    (steadyWrench Fixture.motors w).2 2 = w 0 * |w 0| - w 1 * |w 1| + w 2 * |w 2| - w 3 * |w 3| := by
  have h : Model.quadX 1 1 1 1 0 10 1 1 = List.ofFn Fixture.motors := rfl
  rw [quadX_fn _ _ _ _ _ _ _ _ _ h]
  refine ⟨?_, ?_, ?_, ?_⟩ <;>
    simp [steadyWrench, rotorForce, rotorTorque, Fin.sum_univ_four, cross_apply] <;> ring

/-- Four newtons and a yaw rate of 8 rad/s are asked for; two rotors would have to pull downwards, stand still instead,
and the total thrust becomes six newtons. -/
theorem C137_violated : ¬ C137_claim := by
  intro h
  have hq : IsQuad 1 1 1 1 Fixture.motors := ⟨0, 10, 1, 1, .inl rfl⟩
  set act := (yawIndi.acroToMotor 0 4 ![0, 0, 8] 1).2 with hact
  have hk := keptDyn_keeps act
  have hlim := h 1 1 1 1 Fixture.motors hq one_pos one_pos one_pos one_pos yawIndi rfl 0 ![0, 0, 8] 4 1
    (by
      simp only [(Fixture.motors_speed _).1]
      have := (fixture_wrench fun _ => 0).1
      simp only [steadyWrench, Finset.sum_apply] at this
      rw [this]; norm_num)
    (by
      have := (fixture_wrench fun _ => 10).1
      simp only [(Fixture.motors_speed _).2.1]
      simp only [steadyWrench, Finset.sum_apply] at this
      rw [this]; norm_num)
    (keptDyn act) Fixture.modelParams (1 / 100) hk
  have h1 : Tendsto (fun k => (steadyWrench Fixture.motors (keptDyn act k).state.motVel).1 2) atTop
      (nhds ((steadyWrench Fixture.motors (settled Fixture.motors act)).1 2)) :=
    ((continuous_apply (2 : Fin 3)).comp continuous_fst).tendsto _ |>.comp hk.tendsto
  have h2 := tendsto_nhds_unique h1 hlim
  obtain ⟨e1, e2, -, e4, -⟩ := C47_wrench 1 1 1 1 Fixture.motors hq one_ne_zero one_ne_zero
    one_ne_zero one_ne_zero yawIndi rfl 0 ![0, 0, 8] 4 1
  have e3 := e2.trans (e4.symm.trans (yawIndi_torque 4 ![0, 0, 8]))
  obtain ⟨f1, f2, f3, f4⟩ := fixture_wrench act
  have g1 : (steadyWrench Fixture.motors act).1 2 = 4 := congrFun e1 2
  have g2 : (steadyWrench Fixture.motors act).2 0 = 0 := congrFun e3 0
  have g3 : (steadyWrench Fixture.motors act).2 1 = 0 := congrFun e3 1
  have g4 : (steadyWrench Fixture.motors act).2 2 = 8 := congrFun e3 2
  have s0 : act 0 * |act 0| = 3 := by linarith
  have s1 : act 1 * |act 1| = -1 := by linarith
  have s2 : act 2 * |act 2| = 3 := by linarith
  have s3 : act 3 * |act 3| = -1 := by linarith
  have neg : ∀ a : ℝ, a * |a| = -1 → max 0 (min 10 a) = 0 := by
    intro a ha
    have : a ≤ 0 := by
      by_contra hc
      have hc := not_le.1 hc
      nlinarith [abs_nonneg a, abs_pos.2 hc.ne']
    rw [min_eq_right (by linarith), max_eq_left this]
  have pos : ∀ a : ℝ, a * |a| = 3 → max 0 (min 10 a) = a ∧ 0 ≤ a := by
    intro a ha
    have h0 : 0 ≤ a := by
      by_contra hc
      have hc := not_le.1 hc
      nlinarith [abs_nonneg a, abs_pos.2 hc.ne]
    rw [abs_of_nonneg h0] at ha
    refine ⟨?_, h0⟩
    rw [min_eq_right (by nlinarith), max_eq_right h0]
  rw [(fixture_wrench _).1] at h2
  simp only [settled, (Fixture.motors_speed _).1, (Fixture.motors_speed _).2.1, neg _ s1, neg _ s3, (pos _ s0).1,
    (pos _ s2).1, s0, s2] at h2
  norm_num at h2

/-- Non-vacuity of both partial theorems: the fixture asked for a thrust of 40 newtons and a torque about all axes. -/
example : ∃ c : Indi ℝ 4, AllocatedFor c Fixture.motors ∧
    Keeps (keptDyn (c.acroToMotor 0 40 ![3, -2, 1] 1).2) Fixture.modelParams Fixture.motors
      (c.acroToMotor 0 40 ![3, -2, 1] 1).2 (1 / 100) ∧
    Tendsto (fun k => steadyWrench Fixture.motors (keptDyn (c.acroToMotor 0 40 ![3, -2, 1] 1).2 k).state.motVel) atTop
      (nhds (![0, 0, 40], ![3, -2, 1])) := by
  refine ⟨yawIndi, rfl, keptDyn_keeps _, ?_⟩
  refine C137_attainable_partial 1 1 1 1 0 10 1 1 Fixture.motors rfl one_pos one_pos one_pos one_pos le_rfl yawIndi rfl 0
    ![3, -2, 1] 40 1 _ Fixture.modelParams (1 / 100) (keptDyn_keeps _) _ (yawIndi_torque 40 _) ?_ ?_
  · simp; norm_num
  · simp; norm_num

end

end Verif.Props
