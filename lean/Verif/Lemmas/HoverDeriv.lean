import Verif.Lemmas.HoverLoop

/-!
# Derivative of the cycle at hover
-/

namespace Verif.Stability

open Verif Flt Spec Filter Topology

section
variable {E : Type} [NormedAddCommGroup E] [NormedSpace ℝ E] {x0 : E} {fI ff fE fe dI df dE de : E → ℝ} {I f E0 e : ℝ}

lemma Dual.nextInt (k : PidTuning) (dt : ℝ) (hI : Dual fI x0 I dI) (he : Dual fe x0 e de) :
    Dual (fun x => nextInt (.id ℝ) k dt (fI x) (fe x)) x0 (nextInt (.id ℝ) k dt I e)
      fun x => nextInt (.id ℝ) k dt (dI x) (de x) := by
  unfold Stability.nextInt
  split
  · exact .const 0
  · exact hI.add (he.mul_const _)

lemma Dual.nextFil (k : PidTuning) (dt : ℝ) (hf : Dual ff x0 f df) (hE : Dual fE x0 E0 dE) (he : Dual fe x0 e de) :
    Dual (fun x => nextFil (.id ℝ) k dt (ff x) (fE x) (fe x)) x0 (nextFil (.id ℝ) k dt f E0 e)
      fun x => nextFil (.id ℝ) k dt (df x) (dE x) (de x) := by
  unfold Stability.nextFil
  split
  · exact .const 0
  · exact (((he.sub hE).div_const _).const_mul _).add (hf.const_mul _)

lemma Dual.respond (k : PidTuning) (dt : ℝ) (hI : Dual fI x0 I dI) (hf : Dual ff x0 f df) (hE : Dual fE x0 E0 dE)
    (he : Dual fe x0 e de) :
    Dual (fun x => respond (.id ℝ) k dt (fI x) (ff x) (fE x) (fe x)) x0 (respond (.id ℝ) k dt I f E0 e)
      fun x => respond (.id ℝ) k dt (dI x) (df x) (dE x) (de x) :=
  ((he.const_mul _).add ((hI.nextInt k dt he).const_mul _)).add ((hf.nextFil k dt hE he).const_mul _)

lemma nextInt_zero (k : PidTuning) (dt : ℝ) : nextInt (.id ℝ) k dt 0 0 = 0 := by simp [nextInt]
lemma nextFil_zero (k : PidTuning) (dt : ℝ) : nextFil (.id ℝ) k dt 0 0 0 = 0 := by simp [nextFil]
lemma respond_zero (k : PidTuning) (dt : ℝ) : respond (.id ℝ) k dt 0 0 0 0 = 0 := by
  simp [respond, nextInt_zero, nextFil_zero]

end

/-- `sqrt_keep_sign` at a positive argument. -/
lemma hasDerivAt_sqrt_sign {w : ℝ} (hw : 0 < w) : HasDerivAt (fun a : ℝ => √|a| * sign a) (1 / (2 * w)) (w ^ 2) := by
  have h := Real.hasDerivAt_sqrt (show w ^ 2 ≠ 0 by positivity)
  rw [Real.sqrt_sq hw.le] at h
  refine h.congr_of_eventuallyEq ?_
  filter_upwards [lt_mem_nhds (show 0 < w ^ 2 by positivity)] with a ha
  rw [sign_real, if_pos ha, abs_of_pos ha, mul_one]

lemma hasDerivAt_square_sign {w : ℝ} (hw : 0 < w) : HasDerivAt (fun a : ℝ => a * |a|) (2 * w) w := by
  have h := hasDerivAt_pow 2 w
  refine (h.congr_of_eventuallyEq ?_).congr_deriv (by simp)
  filter_upwards [lt_mem_nhds hw] with a ha
  rw [abs_of_pos ha]; ring

lemma rotationError_axes (Rd R : Mat 3 3 ℝ) : Acro.rotationError Rd R =
    ![(axis Rd 2 ⬝ᵥ axis R 1 - axis R 2 ⬝ᵥ axis Rd 1) / 2, (axis Rd 0 ⬝ᵥ axis R 2 - axis R 0 ⬝ᵥ axis Rd 2) / 2,
      (axis Rd 1 ⬝ᵥ axis R 0 - axis R 1 ⬝ᵥ axis Rd 0) / 2] := by
  ext i
  fin_cases i <;> simp [Acro.rotationError, flt, Matrix.mul_apply, Fin.sum_univ_three, axis, dot3] <;> ring

namespace Loop
variable {l : Loop} {c : ℝ × ℝ} {w : ℝ}

lemma co (l : Loop) (c : ℝ × ℝ) (w : ℝ) (k : HV) : Dual (fun x : HV → ℝ => x k) (l.rest c w) (l.rest c w k) fun x => x k :=
  .coord _ k

lemma d_ep (i : Fin 3) : Dual (fun x => l.ep x i) (l.rest c w) 0 fun x => -x (.pos i) :=
  ((Dual.const (l.target i)).sub (co l c w (.pos i))).congr (by simp [rest]) fun x => by simp

lemma d_vref (i : Fin 3) : Dual (fun x => l.vref x i) (l.rest c w) (if i = 2 then (l.P 2).ki * c.2 else 0) fun x =>
    l.vrefL (.id ℝ) x i := by
  refine (Dual.respond (l.P i) l.dt (co l c w (.iP i)) (co l c w (.fP i)) (co l c w (.eP i))
    (d_ep (l := l) (c := c) (w := w) i)).congr ?_ fun _ => rfl
  by_cases hi : i = 2
  · subst hi
    simp only [respond, rest, if_true, nextFil_zero, nextInt]
    split
    · rename_i hk; simp [hk]
    · simp
  · simp [hi, rest, respond_zero]

lemma d_ev (i : Fin 3) : Dual (fun x => l.ev x i) (l.rest c w) (if i = 2 then (l.P 2).ki * c.2 else 0) fun x =>
    l.evL (.id ℝ) x i :=
  ((d_vref (l := l) (c := c) (w := w) i).sub (co l c w (.vel i))).congr (by simp [rest]) fun _ => rfl

lemma nextFil_same (k : PidTuning) (dt e : ℝ) : nextFil (.id ℝ) k dt 0 e e = 0 := by simp [nextFil]

lemma d_acc (h : l.Trim c w) (i : Fin 3) :
    Dual (fun x => l.acc x i) (l.rest c w) (if i = 2 then (l.V 2).ki * c.1 + (l.V 2).kp * ((l.P 2).ki * c.2) else 0)
      fun x => l.accL (.id ℝ) x i := by
  refine (Dual.respond (l.V i) l.dt (co l c w (.iV i)) (co l c w (.fV i)) (co l c w (.eV i)) (d_ev (l := l) (c := c) (w := w) i)).congr ?_ fun _ => rfl
  by_cases hi : i = 2
  · subst hi
    simp only [respond, rest, if_true, nextFil_same, nextInt, RingHom.id_apply]
    split
    · rename_i hk; simp [hk]
    · rename_i hk
      rw [h.steady.resolve_left hk]; simp
  · simp [hi, rest, respond_zero]

lemma d_force (h : l.Trim c w) : DualV (fun x => l.force x) (l.rest c w) ![0, 0, l.g] fun x =>
    ![l.mass * l.forwardL (.id ℝ) x, l.mass * l.leftL (.id ℝ) x, l.mass * l.accL (.id ℝ) x 2] := by
  have h0 := d_acc h 0
  have h1 := d_acc h 1
  have h2 := d_acc h 2
  simp only [show (0 : Fin 3) ≠ 2 by decide, show (1 : Fin 3) ≠ 2 by decide, if_false, if_true] at h0 h1 h2
  intro i
  fin_cases i
  · exact (((h0.const_mul (Real.cos l.psi)).add (h1.const_mul (Real.sin l.psi))).const_mul l.mass).congr (by simp)
      fun x => rfl
  · exact (((h1.const_mul (Real.cos l.psi)).sub (h0.const_mul (Real.sin l.psi))).const_mul l.mass).congr (by simp)
      fun x => rfl
  · exact ((h2.add (.const l.g)).const_mul l.mass).congr (by simp only []; rw [add_comm, h.demand]; rfl) fun x => by simp

lemma d_q (i : Fin 4) : Dual (fun x : HV → ℝ => x (.ori i)) (l.rest c w) (if i = 0 then 1 else 0) fun x => x (.ori i) :=
  (Dual.coord (l.rest c w) (.ori i)).congr (by simp [rest]) fun _ => rfl

lemma d_axis (j : Fin 3) : DualV (fun x => axis (quat x).toMat j) (l.rest c w) (fun i => if i = j then 1 else 0) fun x i =>
    (!![0, -(2 * x (.ori 3)), 2 * x (.ori 2); 2 * x (.ori 3), 0, -(2 * x (.ori 1));
      -(2 * x (.ori 2)), 2 * x (.ori 1), 0] : Mat 3 3 ℝ) i j := by
  have hw := d_q (l := l) (c := c) (w := w) 0
  have hx := d_q (l := l) (c := c) (w := w) 1
  have hy := d_q (l := l) (c := c) (w := w) 2
  have hz := d_q (l := l) (c := c) (w := w) 3
  simp only [show (1 : Fin 4) ≠ 0 by decide, show (2 : Fin 4) ≠ 0 by decide, show (3 : Fin 4) ≠ 0 by decide, if_false,
    if_true] at hw hx hy hz
  have e1 : ∀ {a b : (HV → ℝ) → ℝ} {da db : (HV → ℝ) → ℝ}, Dual a (l.rest c w) 0 da → Dual b (l.rest c w) 0 db →
      Dual (fun x => 1 - 2 * (a x * a x + b x * b x)) (l.rest c w) 1 fun _ => 0 := fun ha hb =>
    ((Dual.const 1).sub (((ha.mul ha).add (hb.mul hb)).const_mul 2)).congr (by simp) fun x => by simp
  have e2 : ∀ {a b u : (HV → ℝ) → ℝ} {da db du : (HV → ℝ) → ℝ}, Dual a (l.rest c w) 0 da → Dual b (l.rest c w) 0 db →
      Dual u (l.rest c w) 0 du → Dual (fun x => 2 * (a x * b x - x (.ori 0) * u x)) (l.rest c w) 0 fun x => -(2 * du x) :=
    fun ha hb hu => (((ha.mul hb).sub (hw.mul hu)).const_mul 2).congr (by simp) fun x => by simp
  have e3 : ∀ {a b u : (HV → ℝ) → ℝ} {da db du : (HV → ℝ) → ℝ}, Dual a (l.rest c w) 0 da → Dual b (l.rest c w) 0 db →
      Dual u (l.rest c w) 0 du → Dual (fun x => 2 * (a x * b x + x (.ori 0) * u x)) (l.rest c w) 0 fun x => 2 * du x :=
    fun ha hb hu => (((ha.mul hb).add (hw.mul hu)).const_mul 2).congr (by simp) fun x => by simp
  intro i
  simp only [axis, Quat.toMat_real, quat]
  fin_cases j <;> fin_cases i
  · exact e1 hy hz
  · exact e3 hx hy hz
  · exact e2 hx hz hy
  · exact e2 hx hy hz
  · exact e1 hx hz
  · exact e3 hy hz hx
  · exact e3 hx hz hy
  · exact e2 hy hz hx
  · exact e1 hx hy

lemma d_proj (h : l.Trim c w) : Dual (fun x => l.proj x) (l.rest c w) l.g fun x => l.mass * l.accL (.id ℝ) x 2 := by
  have hn := (d_axis (l := l) (c := c) (w := w) 2).normalized (r := 1) one_pos (fun i => (one_mul _).symm)
    (by simp [dotProduct, Fin.sum_univ_three])
  refine ((d_force h).dot hn).congr ?_ fun x => ?_
  · simp [dotProduct, Fin.sum_univ_three]
  · simp [dotProduct, Fin.sum_univ_three]

lemma d_error (h : l.Trim c w) : DualV (fun x => Acro.rotationError (Acro.desiredAttitude 0 (l.force x)) (quat x).toMat)
    (l.rest c w) 0 fun x => ![l.leftL (.id ℝ) x / l.gamma + 2 * x (.ori 1), 2 * x (.ori 2) - l.forwardL (.id ℝ) x / l.gamma,
      2 * x (.ori 3)] := by
  have hg := h.gravity
  have hm := h.mass
  have hzb : DualV (fun x => Verif.normalized (l.force x)) (l.rest c w) ![0, 0, 1] fun x =>
      ![l.forwardL (.id ℝ) x / l.gamma, l.leftL (.id ℝ) x / l.gamma, 0] := by
    refine ((d_force h).normalized (w := ![0, 0, 1]) hg (fun i => ?_) (by simp)).congr (fun _ => rfl) fun x i => ?_
    · fin_cases i <;> simp
    · fin_cases i <;> simp [gamma, dotProduct, Fin.sum_univ_three] <;> field_simp
  have hxc : DualV (fun _ : HV → ℝ => (![1, 0, 0] : Vec 3 ℝ)) (l.rest c w) ![1, 0, 0] fun _ => 0 := fun i => .const _
  have hyb : DualV (fun x => Verif.normalized (crossProduct (Verif.normalized (l.force x)) ![1, 0, 0])) (l.rest c w)
      ![0, 1, 0] fun x => ![0, 0, -(l.leftL (.id ℝ) x / l.gamma)] := by
    refine ((hzb.cross hxc).normalized (w := ![0, 1, 0]) one_pos (fun i => ?_) (by simp)).congr (fun _ => rfl) fun x i => ?_
    · fin_cases i <;> simp [cross_apply]
    · fin_cases i <;> simp [cross_apply, dotProduct, Fin.sum_univ_three]
  have hxb : DualV (fun x => Verif.normalized (crossProduct (Verif.normalized (crossProduct (Verif.normalized (l.force x))
      ![1, 0, 0])) (Verif.normalized (l.force x)))) (l.rest c w) ![1, 0, 0] fun x =>
      ![0, 0, -(l.forwardL (.id ℝ) x / l.gamma)] := by
    refine ((hyb.cross hzb).normalized (w := ![1, 0, 0]) one_pos (fun i => ?_) (by simp)).congr (fun _ => rfl) fun x i => ?_
    · fin_cases i <;> simp [cross_apply]
    · fin_cases i <;> simp [cross_apply, dotProduct, Fin.sum_univ_three]
  have hd : ∀ x, axis (Acro.desiredAttitude 0 (l.force x)) 2 = Verif.normalized (l.force x) ∧
      axis (Acro.desiredAttitude 0 (l.force x)) 1 =
        Verif.normalized (crossProduct (Verif.normalized (l.force x)) ![1, 0, 0]) ∧
      axis (Acro.desiredAttitude 0 (l.force x)) 0 =
        Verif.normalized (crossProduct (Verif.normalized (crossProduct (Verif.normalized (l.force x))
      ![1, 0, 0])) (Verif.normalized (l.force x))) := by
    intro x
    have e : (![cos (0 : ℝ), sin (0 : ℝ), lit 0] : Vec 3 ℝ) = ![1, 0, 0] := by simp [flt]
    refine ⟨?_, ?_, ?_⟩ <;> ext i <;> simp only [axis, Acro.desiredAttitude, e, cross_real] <;> rfl
  have a0 := d_axis (l := l) (c := c) (w := w) 0
  have a1 := d_axis (l := l) (c := c) (w := w) 1
  have a2 := d_axis (l := l) (c := c) (w := w) 2
  intro i
  simp only [rotationError_axes, hd]
  fin_cases i
  · exact (((hzb.dot a1).sub (a2.dot hyb)).div_const 2).congr (by simp [dotProduct, Fin.sum_univ_three]) fun x => by
      simp [dotProduct, Fin.sum_univ_three]; try ring
  · exact (((hxb.dot a2).sub (a0.dot hzb)).div_const 2).congr (by simp [dotProduct, Fin.sum_univ_three]) fun x => by
      simp [dotProduct, Fin.sum_univ_three]; try ring
  · exact (((hyb.dot a0).sub (a1.dot hxb)).div_const 2).congr (by simp [dotProduct, Fin.sum_univ_three]) fun x => by
      simp [dotProduct, Fin.sum_univ_three]; try ring

lemma d_rates (h : l.Trim c w) : DualV (fun x => l.rates x) (l.rest c w) 0 fun x => l.ratesL (.id ℝ) x := by
  intro i
  refine (((d_error h i).const_mul (l.kr i)).neg).congr (by simp) fun x => ?_
  fin_cases i
  · simp [ratesL]
  · simp [ratesL]; ring
  · simp [ratesL]

lemma d_er (h : l.Trim c w) (i : Fin 3) : Dual (fun x => l.er x i) (l.rest c w) 0 fun x => l.erL (.id ℝ) x i :=
  ((d_rates h i).sub (co l c w (.om i))).congr (by simp [rest]) fun _ => rfl

lemma d_spin (h : l.Trim c w) (i : Fin 3) : Dual (fun x => l.spin x i) (l.rest c w) 0 fun x => l.spinL (.id ℝ) x i :=
  (Dual.respond (l.R i) l.dt (co l c w (.iR i)) (co l c w (.fR i)) (co l c w (.eR i)) (d_er h i)).congr
    (respond_zero _ _) fun _ => rfl

lemma d_torque (h : l.Trim c w) : DualV (fun x => l.torque x) (l.rest c w) 0 fun x i =>
    l.inertia i * l.spinL (.id ℝ) x i := by
  have hr := d_rates h
  have hI : DualV (fun x i => l.inertia i * l.rates x i) (l.rest c w) 0 fun x i => l.inertia i * l.ratesL (.id ℝ) x i :=
    fun i => ((hr i).const_mul _).congr (by simp) fun _ => rfl
  intro i
  exact (((d_spin h i).const_mul (l.inertia i)).add (hr.cross hI i)).congr (by simp) fun x => by simp

lemma d_wrench (h : l.Trim c w) : DualV (fun x => l.wrench x) (l.rest c w) ![l.g, 0, 0, 0] fun x =>
    l.wrenchL (.id ℝ) x := by
  intro i
  fin_cases i
  · exact d_proj h
  · exact d_torque h 0
  · exact d_torque h 1
  · exact d_torque h 2

lemma Trim.square (h : l.Trim c w) (j : Fin 4) : l.alloc j 0 * l.g = w ^ 2 := by
  have h1 : l.alloc * l.mix = 1 := mul_eq_one_comm.1 h.inverse
  have h2 : (l.alloc * l.mix).mulVec (fun _ => w ^ 2) j = w ^ 2 := by rw [h1, Matrix.one_mulVec]
  rw [← Matrix.mulVec_mulVec] at h2
  have h3 : l.mix.mulVec (fun _ => w ^ 2) = ![l.g, 0, 0, 0] := by
    ext r
    simp only [Matrix.mulVec, dotProduct, ← Finset.sum_mul]
    refine Fin.cases ?_ (fun r => ?_) r
    · exact h.carry
    · rw [h.balance r, zero_mul]; fin_cases r <;> rfl
  rw [h3] at h2
  simpa [Matrix.mulVec, dotProduct, Fin.sum_univ_four] using h2

lemma d_square (h : l.Trim c w) (j : Fin 4) : Dual (fun x => l.square x j) (l.rest c w) (w ^ 2) fun x =>
    ∑ r, l.alloc j r * l.wrenchL (.id ℝ) x r :=
  (Dual.sum Finset.univ fun r => (d_wrench h r).const_mul (l.alloc j r)).congr
    (by simp [Fin.sum_univ_four, h.square]) fun _ => rfl

lemma d_cmd (h : l.Trim c w) (j : Fin 4) : Dual (fun x => l.cmd x j) (l.rest c w) w fun x => l.cmdL (.id ℝ) w x j := by
  have hw := h.speed
  refine ((d_square h j).comp (hasDerivAt_sqrt_sign hw)).congr ?_ fun x => ?_
  · have : 0 < w ^ 2 := by positivity
    rw [sign_real, if_pos this, abs_of_pos this, Real.sqrt_sq hw.le, mul_one]
  · simp only [cmdL, RingHom.id_apply]; ring

lemma d_motAcc (h : l.Trim c w) (j : Fin 4) : Dual (fun x => l.motAcc x j) (l.rest c w) 0 fun x =>
    l.motAccL (.id ℝ) w x j :=
  (((d_cmd h j).sub (co l c w (.mot j))).div_const l.tau).congr (by simp [rest]) fun _ => rfl

lemma d_lift (h : l.Trim c w) (r : Fin 4) : Dual (fun x => l.lift x r) (l.rest c w) (if r = 0 then l.g else 0) fun x =>
    l.liftL (.id ℝ) w x r := by
  have hw := h.speed
  refine (Dual.sum Finset.univ fun j => ((Dual.coord (l.rest c w) (.mot j)).comp
    (hasDerivAt_square_sign (w := w) hw)).const_mul (l.mix r j)).congr ?_ fun x => rfl
  simp only [rest, abs_of_pos hw, ← Finset.sum_mul]
  refine Fin.cases ?_ (fun r => ?_) r
  · rw [if_pos rfl, ← h.carry]; ring
  · rw [h.balance r, if_neg (Fin.succ_ne_zero r), zero_mul]

lemma d_thrust (h : l.Trim c w) : DualV (fun x => l.thrust x) (l.rest c w) ![0, 0, l.g] fun x =>
    l.thrustL (.id ℝ) w x := by
  have hl := d_lift h 0
  have ha := d_axis (l := l) (c := c) (w := w) 2
  rw [if_pos rfl] at hl
  have hb : ∀ i, Dual (fun x => l.lift x 0 * bodyZ x i) (l.rest c w) _ _ := fun i => hl.mul (ha i)
  intro i
  fin_cases i
  · exact (((hb 0).const_mul (Real.cos l.psi)).sub ((hb 1).const_mul (Real.sin l.psi))).congr (by simp) fun x => by
      simp [thrustL]
  · exact (((hb 0).const_mul (Real.sin l.psi)).add ((hb 1).const_mul (Real.cos l.psi))).congr (by simp) fun x => by
      simp [thrustL]; ring
  · exact (hb 2).congr (by simp) fun x => by simp [thrustL]

lemma d_omega : DualV omega (l.rest c w) 0 fun x i => x (.om i) := fun i => (co l c w (.om i)).congr rfl fun _ => rfl

lemma d_moment (h : l.Trim c w) : DualV (fun x => l.moment x) (l.rest c w) 0 fun x => l.momentL (.id ℝ) w x := by
  have ho := d_omega (l := l) (c := c) (w := w)
  have hI : DualV (fun x i => l.inertia i * omega x i) (l.rest c w) 0 fun x i => l.inertia i * x (.om i) :=
    fun i => ((ho i).const_mul _).congr (by simp) fun _ => rfl
  have hn : ContinuousAt (fun x => √(omega x ⬝ᵥ omega x)) (l.rest c w) :=
    ((ho.dot ho).continuousAt).sqrt
  have h0 : √(omega (l.rest c w) ⬝ᵥ omega (l.rest c w)) = 0 := by
    have : omega (l.rest c w) = 0 := rfl
    rw [this]; simp
  have ha : ∀ i, Dual (fun x => (l.aero.mulVec (omega x)) i) (l.rest c w) 0 fun x => ∑ j, l.aero i j * x (.om j) :=
    fun i => (Dual.sum Finset.univ fun j => (ho j).const_mul (l.aero i j)).congr (by simp) fun _ => rfl
  have hs : Dual (fun x => l.lag * ∑ j, l.mix 3 j * l.motAcc x j) (l.rest c w) 0 fun x =>
      l.lag * ∑ j, l.mix 3 j * l.motAccL (.id ℝ) w x j :=
    ((Dual.sum Finset.univ fun j => (d_motAcc h j).const_mul (l.mix 3 j)).const_mul l.lag).congr (by simp) fun _ => rfl
  intro i
  have hi : Dual (fun x => (![0, 0, l.lag * ∑ j, l.mix 3 j * l.motAcc x j] : Vec 3 ℝ) i) (l.rest c w) 0 fun x =>
      (![0, 0, l.lag * ∑ j, l.mix 3 j * l.motAccL (.id ℝ) w x j] : Vec 3 ℝ) i := by
    fin_cases i
    · exact .const 0
    · exact .const 0
    · exact hs
  refine ((((d_lift h i.succ).add hi).sub (.flat hn h0 (ha i))).sub (ho.cross hI i)).congr ?_ fun x => ?_
  · rw [if_neg (Fin.succ_ne_zero i)]; simp
  · simp [momentL]

lemma d_ori : DualV (fun x => (![(quatIntegrate (quat x) (omega x) l.dt).w, (quatIntegrate (quat x) (omega x) l.dt).x,
    (quatIntegrate (quat x) (omega x) l.dt).y, (quatIntegrate (quat x) (omega x) l.dt).z] : Vec 4 ℝ)) (l.rest c w)
    ![1, 0, 0, 0] fun x => ![0, x (.ori 1) + l.dt / 2 * x (.om 0), x (.ori 2) + l.dt / 2 * x (.om 1),
      x (.ori 3) + l.dt / 2 * x (.om 2)] := by
  have ho := d_omega (l := l) (c := c) (w := w)
  have hw := d_q (l := l) (c := c) (w := w) 0
  have hx := d_q (l := l) (c := c) (w := w) 1
  have hy := d_q (l := l) (c := c) (w := w) 2
  have hz := d_q (l := l) (c := c) (w := w) 3
  simp only [show (1 : Fin 4) ≠ 0 by decide, show (2 : Fin 4) ≠ 0 by decide, show (3 : Fin 4) ≠ 0 by decide, if_false,
    if_true] at hw hx hy hz
  have hv : DualV (fun x => (![x (.ori 0) + l.dt / 2 * (-x (.ori 1) * omega x 0 - x (.ori 2) * omega x 1 - x (.ori 3) * omega x 2),
      x (.ori 1) + l.dt / 2 * (x (.ori 0) * omega x 0 + x (.ori 2) * omega x 2 - x (.ori 3) * omega x 1),
      x (.ori 2) + l.dt / 2 * (x (.ori 0) * omega x 1 + x (.ori 3) * omega x 0 - x (.ori 1) * omega x 2),
      x (.ori 3) + l.dt / 2 * (x (.ori 0) * omega x 2 + x (.ori 1) * omega x 1 - x (.ori 2) * omega x 0)] : Vec 4 ℝ))
      (l.rest c w) ![1, 0, 0, 0] fun x => ![x (.ori 0), x (.ori 1) + l.dt / 2 * x (.om 0),
        x (.ori 2) + l.dt / 2 * x (.om 1), x (.ori 3) + l.dt / 2 * x (.om 2)] := by
    intro i
    fin_cases i
    · exact (hw.add ((((hx.neg.mul (ho 0)).sub (hy.mul (ho 1))).sub (hz.mul (ho 2))).const_mul (l.dt / 2))).congr
        (by simp) fun x => by simp
    · exact (hx.add ((((hw.mul (ho 0)).add (hy.mul (ho 2))).sub (hz.mul (ho 1))).const_mul (l.dt / 2))).congr
        (by simp) fun x => by simp
    · exact (hy.add ((((hw.mul (ho 1)).add (hz.mul (ho 0))).sub (hx.mul (ho 2))).const_mul (l.dt / 2))).congr
        (by simp) fun x => by simp
    · exact (hz.add ((((hw.mul (ho 2)).add (hx.mul (ho 1))).sub (hy.mul (ho 0))).const_mul (l.dt / 2))).congr
        (by simp) fun x => by simp
  have hn := hv.normalized (w := ![1, 0, 0, 0]) one_pos (fun i => (one_mul _).symm) (by simp [dotProduct, Fin.sum_univ_four])
  intro i
  refine ((hn i).of_eq fun x => ?_).congr rfl fun x => ?_
  · simp only [quatIntegrate, Quat.normalized_eq, Quat.integrate_eq, quat, normalized_real]
    fin_cases i <;> simp [Quat.n2, dotProduct, Fin.sum_univ_four, div_eq_inv_mul, sq]
  · fin_cases i <;> simp [dotProduct, Fin.sum_univ_four]

/-- The derivative of the cycle. -/
lemma deriv (h : l.Trim c w) (k : HV) : Dual (fun x => l.map x k) (l.rest c w) (l.rest c w k) fun x =>
    l.lin (.id ℝ) w x k := by
  cases k with
  | pos i => exact ((co l c w (.pos i)).add ((co l c w (.vel i)).const_mul l.dt)).congr (by simp [rest]) fun _ => rfl
  | vel i =>
    have hf := d_thrust h i
    have hd : Dual (fun x : HV → ℝ => x (.vel i) * |x (.vel i)|) (l.rest c w) 0 fun _ => 0 := by
      have h1 : Dual (fun x : HV → ℝ => x (.vel i)) (l.rest c w) 0 fun x => x (.vel i) :=
        (co l c w (.vel i)).congr rfl fun _ => rfl
      exact (Dual.flat (c := fun x => |x (.vel i)|) h1.continuousAt.abs (by simp [rest]) h1).of_eq fun x => mul_comm _ _
    refine ((co l c w (.vel i)).add ((((hf.add (.const _)).sub (hd.const_mul l.drag)).div_const l.mass).const_mul
      l.dt)).congr ?_ fun x => ?_
    · fin_cases i <;> simp [rest]
    · simp [lin]
  | ori i => exact (d_ori i).congr (by fin_cases i <;> simp [rest]) fun _ => rfl
  | om i =>
    exact ((co l c w (.om i)).add (((d_moment h i).div_const _).const_mul l.dt)).congr (by simp [rest]) fun _ => rfl
  | mot j => exact ((co l c w (.mot j)).add ((d_motAcc h j).const_mul l.dt)).congr (by simp) fun _ => rfl
  | iP i =>
    refine (Dual.nextInt (l.P i) l.dt (co l c w (.iP i)) (d_ep (l := l) (c := c) (w := w) i)).congr ?_ fun _ => rfl
    by_cases hi : i = 2
    · subst hi
      simp only [rest, if_true, nextInt]
      split
      · rename_i hk; exact (h.unused.2 hk).symm
      · simp
    · simp [rest, hi, nextInt_zero]
  | fP i =>
    exact (Dual.nextFil (l.P i) l.dt (co l c w (.fP i)) (co l c w (.eP i)) (d_ep (l := l) (c := c) (w := w) i)).congr (nextFil_zero _ _) fun _ => rfl
  | eP i => exact d_ep i
  | iV i =>
    refine (Dual.nextInt (l.V i) l.dt (co l c w (.iV i)) (d_ev (l := l) (c := c) (w := w) i)).congr ?_ fun _ => rfl
    by_cases hi : i = 2
    · subst hi
      simp only [rest, if_true, nextInt]
      split
      · rename_i hk; exact (h.unused.1 hk).symm
      · rename_i hk
        rw [h.steady.resolve_left hk]; simp
    · simp [rest, hi, nextInt_zero]
  | fV i =>
    exact (Dual.nextFil (l.V i) l.dt (co l c w (.fV i)) (co l c w (.eV i)) (d_ev (l := l) (c := c) (w := w) i)).congr (nextFil_same _ _ _) fun _ => rfl
  | eV i => exact d_ev i
  | iR i => exact (Dual.nextInt (l.R i) l.dt (co l c w (.iR i)) (d_er h i)).congr (nextInt_zero _ _) fun _ => rfl
  | fR i =>
    exact (Dual.nextFil (l.R i) l.dt (co l c w (.fR i)) (co l c w (.eR i)) (d_er h i)).congr (nextFil_zero _ _) fun _ => rfl
  | eR i => exact d_er h i

lemma hasFDerivAt (h : l.Trim c w) : ∃ L : (HV → ℝ) →L[ℝ] (HV → ℝ), HasFDerivAt l.map L (l.rest c w) ∧
    ∀ x k, L x k = l.lin (.id ℝ) w x k := by
  choose h0 M hM hL using fun k => deriv h k
  exact ⟨ContinuousLinearMap.pi M, hasFDerivAt_pi.2 hM, fun x k => hL k x⟩

lemma fixed (h : l.Trim c w) : l.map (l.rest c w) = l.rest c w := funext fun k => (deriv h k).1

end Loop

end Verif.Stability
