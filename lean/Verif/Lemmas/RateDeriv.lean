import Verif.Lemmas.RateLoop
import Mathlib.Analysis.InnerProductSpace.PiL2

/-!
# Derivative of the cycle of the rates, and its equilibria
-/

namespace Verif.Stability

open Verif Flt Spec Filter Topology Asymptotics

section
variable {E : Type} [NormedAddCommGroup E] [NormedSpace ℝ E] {x0 : E} {fI ff fE fe dI df dE de : E → ℝ} {I f E0 e : ℝ}

lemma Strict.nextInt (k : PidTuning) (dt : ℝ) (hI : Strict fI x0 I dI) (he : Strict fe x0 e de) :
    Strict (fun x => nextInt (.id ℝ) k dt (fI x) (fe x)) x0 (nextInt (.id ℝ) k dt I e)
      fun x => nextInt (.id ℝ) k dt (dI x) (de x) := by
  unfold Stability.nextInt
  split
  · exact .const 0
  · exact hI.add (he.mul_const _)

lemma Strict.nextFil (k : PidTuning) (dt : ℝ) (hf : Strict ff x0 f df) (hE : Strict fE x0 E0 dE) (he : Strict fe x0 e de) :
    Strict (fun x => nextFil (.id ℝ) k dt (ff x) (fE x) (fe x)) x0 (nextFil (.id ℝ) k dt f E0 e)
      fun x => nextFil (.id ℝ) k dt (df x) (dE x) (de x) := by
  unfold Stability.nextFil
  split
  · exact .const 0
  · exact (((he.sub hE).div_const _).const_mul _).add (hf.const_mul _)

lemma Strict.respond (k : PidTuning) (dt : ℝ) (hI : Strict fI x0 I dI) (hf : Strict ff x0 f df) (hE : Strict fE x0 E0 dE)
    (he : Strict fe x0 e de) :
    Strict (fun x => respond (.id ℝ) k dt (fI x) (ff x) (fE x) (fe x)) x0 (respond (.id ℝ) k dt I f E0 e)
      fun x => respond (.id ℝ) k dt (dI x) (df x) (dE x) (de x) :=
  ((he.const_mul _).add ((hI.nextInt k dt he).const_mul _)).add ((hf.nextFil k dt hE he).const_mul _)

/-- The cross product of vectors that vanish. -/
lemma StrictV.cross {f g : E → Vec 3 ℝ} {d e : E → Vec 3 ℝ} (h : StrictV f x0 0 d) (k : StrictV g x0 0 e) :
    StrictV (fun x => crossProduct (f x) (g x)) x0 0 fun _ => 0 := by
  intro i
  fin_cases i <;> simp only [cross_apply]
  · exact (((h 1).mul (k 2)).sub ((h 2).mul (k 1))).congr (by simp) fun x => by simp
  · exact (((h 2).mul (k 0)).sub ((h 0).mul (k 2))).congr (by simp) fun x => by simp
  · exact (((h 0).mul (k 1)).sub ((h 1).mul (k 0))).congr (by simp) fun x => by simp

/-- The length of a vector that depends linearly. -/
lemma length_eq (A : E →L[ℝ] (Fin 3 → ℝ)) (x : E) :
    √(A x ⬝ᵥ A x) = ‖((PiLp.continuousLinearEquiv 2 ℝ fun _ : Fin 3 => ℝ).symm.toContinuousLinearMap.comp A) x‖ := by
  rw [EuclideanSpace.norm_eq]
  congr 1
  simp [dotProduct, sq]

/-- Aerodynamic torque at rest. -/
lemma Strict.air (A : E →L[ℝ] (Fin 3 → ℝ)) (hA : A x0 = 0) (M : Mat 3 3 ℝ) (i : Fin 3) :
    Strict (fun x => √(A x ⬝ᵥ A x) * (M.mulVec (A x)) i) x0 0 fun _ => 0 := by
  have hg : Strict (fun x => (M.mulVec (A x)) i) x0 0 fun x => ∑ j, M i j * A x j := by
    refine (Strict.sum Finset.univ fun j => (Strict.linear ((ContinuousLinearMap.proj j).comp A)).const_mul (M i j)).congr
      ?_ fun _ => rfl
    simp [hA]
  exact (Strict.flat ((PiLp.continuousLinearEquiv 2 ℝ fun _ : Fin 3 => ℝ).symm.toContinuousLinearMap.comp A) (by simp [hA])
    hg).of_eq fun x => by rw [length_eq]

end

lemma hasStrictDerivAt_sqrt_sign {w : ℝ} (hw : 0 < w) : HasStrictDerivAt (fun a : ℝ => √|a| * sign a) (1 / (2 * w)) (w ^ 2) := by
  have h := Real.hasStrictDerivAt_sqrt (show w ^ 2 ≠ 0 by positivity)
  rw [Real.sqrt_sq hw.le] at h
  rw [hasStrictDerivAt_iff_hasStrictFDerivAt] at h ⊢
  refine h.congr_of_eventuallyEq ?_
  filter_upwards [lt_mem_nhds (show 0 < w ^ 2 by positivity)] with a ha
  rw [sign_real, if_pos ha, abs_of_pos ha, mul_one]

lemma hasStrictDerivAt_square_sign {w : ℝ} (hw : 0 < w) : HasStrictDerivAt (fun a : ℝ => a * |a|) (2 * w) w := by
  have h := (hasStrictDerivAt_id w).mul (hasStrictDerivAt_id w)
  have e : (1 * id w + id w * 1 : ℝ) = 2 * w := by simp; ring
  rw [e] at h
  rw [hasStrictDerivAt_iff_hasStrictFDerivAt] at h ⊢
  refine h.congr_of_eventuallyEq ?_
  filter_upwards [lt_mem_nhds hw] with a ha
  rw [abs_of_pos ha]; rfl

namespace Loop
variable {l : Loop} {T w : ℝ}

/-- Numbers and requested rates. -/
abbrev RateSpace := (RV → ℝ) × Vec 3 ℝ

section
variable (l : Loop) (w : ℝ) (e : RateSpace)

noncomputable def dErr (e : RateSpace) (i : Fin 3) : ℝ := e.2 i - e.1 (.om i)
noncomputable def dSpin (i : Fin 3) : ℝ :=
  respond (.id ℝ) (l.R i) l.dt (e.1 (.iR i)) (e.1 (.fR i)) (e.1 (.eR i)) (dErr e i)
noncomputable def dWrench : Vec 4 ℝ := ![0, l.inertia 0 * l.dSpin e 0, l.inertia 1 * l.dSpin e 1, l.inertia 2 * l.dSpin e 2]
noncomputable def dCmd (j : Fin 4) : ℝ := (∑ r, l.alloc j r * l.dWrench e r) / (2 * w)
noncomputable def dAcc (j : Fin 4) : ℝ := (l.dCmd w e j - e.1 (.mot j)) / l.tau
noncomputable def dLift (r : Fin 4) : ℝ := ∑ j, l.mix r j * (2 * w * e.1 (.mot j))
noncomputable def dMoment (i : Fin 3) : ℝ :=
  l.dLift w e i.succ + (![0, 0, l.lag * ∑ j, l.mix 3 j * l.dAcc w e j] : Vec 3 ℝ) i

/-- Derivative of the cycle. -/
noncomputable def dMap : RV → ℝ
  | .om i => e.1 (.om i) + l.dt * (l.dMoment w e i / l.inertia i)
  | .mot j => e.1 (.mot j) + l.dt * l.dAcc w e j
  | .iR i => Stability.nextInt (.id ℝ) (l.R i) l.dt (e.1 (.iR i)) (dErr e i)
  | .fR i => Stability.nextFil (.id ℝ) (l.R i) l.dt (e.1 (.fR i)) (e.1 (.eR i)) (dErr e i)
  | .eR i => dErr e i

end

/-- The derivative with respect to the state is the linearised cycle. -/
lemma dMap_lin (y : RV → ℝ) (k : RV) : l.dMap w (y, 0) k = rateLin l T w (.id ℝ) y k := by
  have h1 : ∀ i, dErr (y, (0 : Vec 3 ℝ)) i = -y (.om i) := fun i => by simp [dErr]
  have h2 : ∀ i, l.dSpin (y, 0) i = (l.acro T).spinL (.id ℝ) (RV.embed y) i := fun i => by
    rw [acro_spin, dSpin, h1]
  have h3 : l.dWrench (y, 0) = (l.acro T).wrenchL (.id ℝ) (RV.embed y) := by
    ext r
    simp only [dWrench, wrenchL, acro_acc, h2, mul_zero]
    rfl
  have h4 : ∀ j, l.dAcc w (y, 0) j = (l.acro T).motAccL (.id ℝ) w (RV.embed y) j := fun j => by
    simp only [dAcc, dCmd, h3]; rfl
  have h5 : ∀ i, l.dMoment w (y, 0) i = (l.acro T).momentL (.id ℝ) w (RV.embed y) i := fun i => by
    simp only [dMoment, h4]; rfl
  cases k with
  | om i => simp only [dMap, h5]; rfl
  | mot j => simp only [dMap, h4]; rfl
  | iR i => simp only [dMap, h1, rateLin, RV.toHV, lin, acro_er]; rfl
  | fR i => simp only [dMap, h1, rateLin, RV.toHV, lin, acro_er]; rfl
  | eR i => simp only [dMap, h1, rateLin, RV.toHV, lin, acro_er]

section
variable (w : ℝ)

lemma s_co (k : RV) : Strict (fun e : RateSpace => e.1 k) (rateRest w, 0) (rateRest w k) fun e => e.1 k :=
  (Strict.linear ((ContinuousLinearMap.proj k).comp (ContinuousLinearMap.fst ℝ (RV → ℝ) (Vec 3 ℝ)))).congr rfl fun _ => rfl

lemma s_ref : StrictV (fun e : RateSpace => e.2) (rateRest w, 0) 0 fun e => e.2 := fun i =>
  (Strict.linear ((ContinuousLinearMap.proj i).comp (ContinuousLinearMap.snd ℝ (RV → ℝ) (Vec 3 ℝ)))).congr rfl fun _ => rfl

lemma s_err (i : Fin 3) : Strict (fun e : RateSpace => rateErr e.1 e.2 i) (rateRest w, 0) 0 fun e => dErr e i :=
  ((s_ref w i).sub (s_co w (.om i))).congr (by simp [rateRest]) fun _ => rfl

lemma s_spin (i : Fin 3) : Strict (fun e : RateSpace => l.rateSpin e.1 e.2 i) (rateRest w, 0) 0 fun e => l.dSpin e i :=
  (Strict.respond (l.R i) l.dt (s_co w (.iR i)) (s_co w (.fR i)) (s_co w (.eR i)) (s_err w i)).congr (respond_zero _ _)
    fun _ => rfl

lemma s_torque (i : Fin 3) : Strict (fun e : RateSpace => l.rateTorque e.1 e.2 i) (rateRest w, 0) 0 fun e =>
    l.inertia i * l.dSpin e i := by
  have hI : StrictV (fun (e : RateSpace) i => l.inertia i * e.2 i) (rateRest w, 0) 0 fun e i => l.inertia i * e.2 i :=
    fun i => ((s_ref w i).const_mul _).congr (by simp) fun _ => rfl
  exact (((s_spin (l := l) w i).const_mul (l.inertia i)).add ((s_ref w).cross hI i)).congr (by simp) fun e => by simp

lemma s_omega : StrictV (fun e : RateSpace => rateOmega e.1) (rateRest w, 0) 0 fun e i => e.1 (.om i) := fun i =>
  (s_co w (.om i)).congr rfl fun _ => rfl

end

lemma s_square (h : l.SpinTrim T w) (j : Fin 4) :
    Strict (fun e : RateSpace => l.rateSquare T e.1 e.2 j) (rateRest w, 0) (w ^ 2) fun e => ∑ r, l.alloc j r * l.dWrench e r := by
  have hw : StrictV (fun e : RateSpace => l.rateWrench T e.1 e.2) (rateRest w, 0) ![T, 0, 0, 0] fun e => l.dWrench e := by
    intro i
    fin_cases i
    · exact .const T
    · exact s_torque w 0
    · exact s_torque w 1
    · exact s_torque w 2
  refine (Strict.sum Finset.univ fun r => (hw r).const_mul (l.alloc j r)).congr ?_ fun _ => rfl
  have := h.trim.square j
  rw [← this]
  simp [Fin.sum_univ_four, acro]

lemma s_cmd (h : l.SpinTrim T w) (j : Fin 4) : Strict (fun e : RateSpace => l.rateCmd T e.1 e.2 j) (rateRest w, 0) w fun e =>
    l.dCmd w e j := by
  have hw := h.speed
  refine ((s_square h j).comp (hasStrictDerivAt_sqrt_sign hw)).congr ?_ fun x => ?_
  · have : 0 < w ^ 2 := by positivity
    rw [sign_real, if_pos this, abs_of_pos this, Real.sqrt_sq hw.le, mul_one]
  · simp only [dCmd]; ring

lemma s_acc (h : l.SpinTrim T w) (j : Fin 4) : Strict (fun e : RateSpace => l.rateAcc T e.1 e.2 j) (rateRest w, 0) 0 fun e =>
    l.dAcc w e j :=
  (((s_cmd h j).sub (s_co w (.mot j))).div_const l.tau).congr (by simp [rateRest]) fun _ => rfl

lemma s_lift (h : l.SpinTrim T w) (r : Fin 4) : Strict (fun e : RateSpace => l.rateLift e.1 r) (rateRest w, 0)
    (if r = 0 then T else 0) fun e => l.dLift w e r := by
  have hw := h.speed
  refine (Strict.sum Finset.univ fun j => ((s_co w (.mot j)).comp
    (hasStrictDerivAt_square_sign (w := w) hw)).const_mul (l.mix r j)).congr ?_ fun x => rfl
  simp only [rateRest, abs_of_pos hw, ← Finset.sum_mul]
  refine Fin.cases ?_ (fun r => ?_) r
  · rw [if_pos rfl, ← h.carry]; ring
  · rw [h.balance r, if_neg (Fin.succ_ne_zero r), zero_mul]

lemma s_moment (h : l.SpinTrim T w) (i : Fin 3) : Strict (fun e : RateSpace => l.rateMoment T e.1 e.2 i) (rateRest w, 0) 0
    fun e => l.dMoment w e i := by
  have ho := s_omega w
  have hI : StrictV (fun (e : RateSpace) i => l.inertia i * rateOmega e.1 i) (rateRest w, 0) 0 fun e i =>
      l.inertia i * e.1 (.om i) := fun i => ((ho i).const_mul _).congr (by simp) fun _ => rfl
  have ha : Strict (fun e : RateSpace => √(rateOmega e.1 ⬝ᵥ rateOmega e.1) * (l.aero.mulVec (rateOmega e.1)) i) (rateRest w, 0) 0
      fun _ => 0 :=
    Strict.air ((ContinuousLinearMap.pi fun i => ContinuousLinearMap.proj (RV.om i)).comp
      (ContinuousLinearMap.fst ℝ (RV → ℝ) (Vec 3 ℝ))) (by ext i; simp [rateRest]) l.aero i
  have hs : Strict (fun e : RateSpace => l.lag * ∑ j, l.mix 3 j * l.rateAcc T e.1 e.2 j) (rateRest w, 0) 0 fun e =>
      l.lag * ∑ j, l.mix 3 j * l.dAcc w e j :=
    ((Strict.sum Finset.univ fun j => (s_acc h j).const_mul (l.mix 3 j)).const_mul l.lag).congr (by simp) fun _ => rfl
  have hi : Strict (fun e : RateSpace => (![0, 0, l.lag * ∑ j, l.mix 3 j * l.rateAcc T e.1 e.2 j] : Vec 3 ℝ) i) (rateRest w, 0) 0
      fun e => (![0, 0, l.lag * ∑ j, l.mix 3 j * l.dAcc w e j] : Vec 3 ℝ) i := by
    fin_cases i
    · exact .const 0
    · exact .const 0
    · exact hs
  refine ((((s_lift h i.succ).add hi).sub ha).sub (ho.cross hI i)).congr ?_ fun x => ?_
  · rw [if_neg (Fin.succ_ne_zero i)]; simp
  · simp [dMoment]

/-- The strict derivative of the cycle. -/
lemma s_map (h : l.SpinTrim T w) (k : RV) : Strict (fun e : RateSpace => l.rateMap T e.1 e.2 k) (rateRest w, 0) (rateRest w k)
    fun e => l.dMap w e k := by
  cases k with
  | om i => exact ((s_co w (.om i)).add (((s_moment h i).div_const _).const_mul l.dt)).congr (by simp [rateRest]) fun _ => rfl
  | mot j => exact ((s_co w (.mot j)).add ((s_acc h j).const_mul l.dt)).congr (by simp) fun _ => rfl
  | iR i => exact (Strict.nextInt (l.R i) l.dt (s_co w (.iR i)) (s_err w i)).congr (nextInt_zero _ _) fun _ => rfl
  | fR i => exact (Strict.nextFil (l.R i) l.dt (s_co w (.fR i)) (s_co w (.eR i)) (s_err w i)).congr (nextFil_zero _ _) fun _ => rfl
  | eR i => exact s_err w i

/-- Near rest, all cycles with small requested rates contract a norm up to disturbances. -/
lemma rate_contracts (h : l.SpinTrim T w) (hs : l.SpinStable w) :
    ∃ V : (RV → ℝ) → ℝ, ∃ M > 0, ∃ q, 0 ≤ q ∧ q < 1 ∧ ∃ r > 0, (∀ y, ‖y‖ ≤ V y) ∧ (∀ y, V y ≤ M * ‖y‖) ∧
      ∀ y y' (d : Vec 3 ℝ) e, ‖y - rateRest w‖ < r → ‖y' - rateRest w‖ < r → ‖d‖ < r →
        V (l.rateMap T y d + e - l.rateMap T y' d) ≤ q * V (y - y') + M * ‖e‖ := by
  choose h0 M hM hL using fun k => s_map h k
  have hd : HasStrictFDerivAt (fun e : RateSpace => l.rateMap T e.1 e.2) (ContinuousLinearMap.pi M) (rateRest w, 0) :=
    hasStrictFDerivAt_pi'.2 fun k => hM k
  refine family_contracts hd (pow_tendsto_of_eigen _ (rateLin l T w Complex.ofRealHom) (fun x y => ?_) (fun z x => ?_)
    (fun x k => ?_) fun z v hv hz => rate_eigen h hs z v hv hz)
  · ext k
    have : RV.embed (x + y) = RV.embed x + RV.embed y := by
      ext k; cases k <;> simp [RV.embed]
    simp only [rateLin, this, lin_add, Pi.add_apply]
  · ext k
    have : RV.embed (z • x) = z • RV.embed x := by
      ext k; cases k <;> simp [RV.embed]
    simp only [rateLin, this, lin_smul, Pi.smul_apply]
  · have e1 : RV.embed (fun j => ((x j : ℝ) : ℂ)) = fun j => Complex.ofRealHom (RV.embed x j) := by
      ext k; cases k <;> simp [RV.embed]
    show rateLin l T w Complex.ofRealHom (fun j => ((x j : ℝ) : ℂ)) k = ((M k (x, 0) : ℝ) : ℂ)
    rw [hL]
    show _ = ((l.dMap w (x, 0) k : ℝ) : ℂ)
    rw [dMap_lin (T := T), rateLin, e1, lin_map]
    rfl

/-! ### Equilibria -/

section
variable (l) (T : ℝ) (d : Vec 3 ℝ)

/-- Torque that keeps up the rates `d`. -/
noncomputable def holdTorque : Vec 3 ℝ := fun i => √(d ⬝ᵥ d) * (l.aero.mulVec d) i + crossProduct d (fun i => l.inertia i * d i) i
noncomputable def holdSquare (j : Fin 4) : ℝ :=
  ∑ r, l.alloc j r * (![T, l.holdTorque d 0, l.holdTorque d 1, l.holdTorque d 2] : Vec 4 ℝ) r

/-- Steady rotation with the rates `d`. -/
noncomputable def rateHold : RV → ℝ
  | .om i => d i
  | .mot j => √|l.holdSquare T d j| * sign (l.holdSquare T d j)
  | .iR i => if (l.R i).ki = 0 then 0 else √(d ⬝ᵥ d) * (l.aero.mulVec d) i / l.inertia i / (l.R i).ki
  | _ => 0

end

lemma sqrt_sign_pos {a : ℝ} (ha : 0 < a) : √|a| * sign a = √a := by
  rw [sign_real, if_pos ha, abs_of_pos ha, mul_one]

/-- The rotors produce the requested thrust and the torque that is needed. -/
lemma hold_lift (h : l.SpinTrim T w) {d : Vec 3 ℝ} (hp : ∀ j, 0 < l.holdSquare T d j) (r : Fin 4) :
    l.rateLift (l.rateHold T d) r = (![T, l.holdTorque d 0, l.holdTorque d 1, l.holdTorque d 2] : Vec 4 ℝ) r := by
  have e : ∀ j, l.rateHold T d (.mot j) * |l.rateHold T d (.mot j)| = l.holdSquare T d j := fun j => by
    show √|l.holdSquare T d j| * sign (l.holdSquare T d j) * |√|l.holdSquare T d j| * sign (l.holdSquare T d j)| = _
    rw [sqrt_sign_pos (hp j), abs_of_nonneg (Real.sqrt_nonneg _), Real.mul_self_sqrt (hp j).le]
  have hm := congrFun (congrArg (fun M : Mat 4 4 ℝ => M.mulVec (![T, l.holdTorque d 0, l.holdTorque d 1, l.holdTorque d 2] : Vec 4 ℝ))
    h.inverse) r
  simp only [← Matrix.mulVec_mulVec, Matrix.one_mulVec] at hm
  rw [← hm, rateLift]
  simp only [e]
  rfl

/-- Steady rotation persists. -/
lemma hold_fixed (h : l.SpinTrim T w) {d : Vec 3 ℝ} (hp : ∀ j, 0 < l.holdSquare T d j) :
    l.rateMap T (l.rateHold T d) d = l.rateHold T d := by
  have he : ∀ i, rateErr (l.rateHold T d) d i = 0 := fun i => sub_self _
  have hint : ∀ i, Stability.nextInt (.id ℝ) (l.R i) l.dt (l.rateHold T d (.iR i)) 0 = l.rateHold T d (.iR i) := fun i => by
    simp only [rateHold, Stability.nextInt]
    split_ifs <;> simp
  have hsp : ∀ i, l.rateSpin (l.rateHold T d) d i = √(d ⬝ᵥ d) * (l.aero.mulVec d) i / l.inertia i := fun i => by
    rw [rateSpin, he, respond, hint]
    have hf : Stability.nextFil (.id ℝ) (l.R i) l.dt (l.rateHold T d (.fR i)) (l.rateHold T d (.eR i)) 0 = 0 := nextFil_zero _ _
    rw [hf]
    simp only [rateHold]
    split_ifs with hk
    · have : (l.aero.mulVec d) i = 0 := by simp [Matrix.mulVec, dotProduct, h.unused i hk]
      rw [this]; simp
    · simp [mul_div_cancel₀ _ hk]
  have hto : l.rateTorque (l.rateHold T d) d = l.holdTorque d := by
    ext i
    rw [rateTorque, hsp, holdTorque, mul_div_cancel₀ _ (h.inertia i)]
  have hcm : ∀ j, l.rateCmd T (l.rateHold T d) d j = l.rateHold T d (.mot j) := fun j => by
    rw [rateCmd, rateSquare, rateWrench, hto]; rfl
  have hac : ∀ j, l.rateAcc T (l.rateHold T d) d j = 0 := fun j => by rw [rateAcc, hcm, sub_self, zero_div]
  have hmo : ∀ i, l.rateMoment T (l.rateHold T d) d i = 0 := fun i => by
    have ho : rateOmega (l.rateHold T d) = d := rfl
    rw [rateMoment, hold_lift h hp, ho]
    simp only [hac]
    fin_cases i <;> simp [holdTorque]
  ext k
  cases k with
  | om i => simp only [rateMap, hmo]; simp
  | mot j => simp only [rateMap, hac]; simp
  | iR i => simp only [rateMap, he]; exact hint i
  | fR i => simp only [rateMap, he]; exact nextFil_zero _ _
  | eR i => simp only [rateMap, he]; rfl

lemma h_torque (i : Fin 3) : Strict (fun d : Vec 3 ℝ => l.holdTorque d i) 0 0 fun _ => 0 := by
  have hd : StrictV (fun d : Vec 3 ℝ => d) (0 : Vec 3 ℝ) 0 fun d => d := fun i =>
    (Strict.linear (ContinuousLinearMap.proj (R := ℝ) (φ := fun _ : Fin 3 => ℝ) i)).congr rfl fun _ => rfl
  have hI : StrictV (fun (d : Vec 3 ℝ) i => l.inertia i * d i) (0 : Vec 3 ℝ) 0 fun d i => l.inertia i * d i :=
    fun i => ((hd i).const_mul _).congr (by simp) fun _ => rfl
  exact ((Strict.air (ContinuousLinearMap.id ℝ (Vec 3 ℝ)) (by simp) l.aero i).add (hd.cross hI i)).congr (by simp) fun _ => by simp

lemma h_square (h : l.SpinTrim T w) (j : Fin 4) : Strict (fun d : Vec 3 ℝ => l.holdSquare T d j) 0 (w ^ 2) fun _ => 0 := by
  have hw : StrictV (fun d : Vec 3 ℝ => (![T, l.holdTorque d 0, l.holdTorque d 1, l.holdTorque d 2] : Vec 4 ℝ)) 0 ![T, 0, 0, 0]
      fun _ => 0 := by
    intro i
    fin_cases i
    · exact .const T
    · exact h_torque 0
    · exact h_torque 1
    · exact h_torque 2
  refine (Strict.sum Finset.univ fun r => (hw r).const_mul (l.alloc j r)).congr ?_ fun _ => by simp
  have := h.trim.square j
  rw [← this]
  simp [Fin.sum_univ_four, acro]

/-- Without rotation the rotors run with the speed `w`. -/
lemma hold_zero (h : l.SpinTrim T w) : l.rateHold T 0 = rateRest w := by
  have hw := h.speed
  ext k
  cases k with
  | mot j =>
    show √|l.holdSquare T 0 j| * sign (l.holdSquare T 0 j) = w
    have e : l.holdSquare T 0 j = w ^ 2 := (h_square h j).1
    rw [e, sqrt_sign_pos (by positivity), Real.sqrt_sq hw.le]
  | iR i => simp [rateHold, rateRest]
  | _ => rfl

/-- Steady rotations depend smoothly on the rates. -/
lemma hold_near (h : l.SpinTrim T w) : ∃ r > 0, ∃ K > 0, (∀ d : Vec 3 ℝ, ‖d‖ < r → ∀ j, 0 < l.holdSquare T d j) ∧
    ∀ d d' : Vec 3 ℝ, ‖d‖ < r → ‖d'‖ < r → ‖l.rateHold T d - l.rateHold T d'‖ ≤ K * ‖d - d'‖ := by
  have hw := h.speed
  have hd : ∀ i, Strict (fun d : Vec 3 ℝ => d i) (0 : Vec 3 ℝ) 0 fun d => d i := fun i =>
    (Strict.linear (ContinuousLinearMap.proj (R := ℝ) (φ := fun _ : Fin 3 => ℝ) i)).congr rfl fun _ => rfl
  have hs : ∀ k, ∃ e, Strict (fun d : Vec 3 ℝ => l.rateHold T d k) 0 (rateRest w k) e := by
    intro k
    cases k with
    | om i => exact ⟨_, hd i⟩
    | mot j =>
      refine ⟨_, ((h_square h j).comp (hasStrictDerivAt_sqrt_sign hw)).congr ?_ fun _ => rfl⟩
      rw [sqrt_sign_pos (by positivity), Real.sqrt_sq hw.le]; rfl
    | iR i =>
      simp only [rateHold]
      split
      · exact ⟨_, .const 0⟩
      · exact ⟨_, (((Strict.air (ContinuousLinearMap.id ℝ (Vec 3 ℝ)) (by simp) l.aero i).div_const _).div_const _).congr
          (by simp [rateRest]) fun _ => rfl⟩
    | fR i => exact ⟨_, .const 0⟩
    | eR i => exact ⟨_, .const 0⟩
  choose e he using hs
  choose h0 M hM hL using he
  have hd' : HasStrictFDerivAt (fun d : Vec 3 ℝ => l.rateHold T d) (ContinuousLinearMap.pi M) 0 :=
    hasStrictFDerivAt_pi'.2 fun k => hM k
  obtain ⟨K, S, hS, hK⟩ := hd'.exists_lipschitzOnWith
  have hp : ∀ᶠ d in 𝓝 (0 : Vec 3 ℝ), ∀ j, 0 < l.holdSquare T d j := by
    rw [eventually_all]
    intro j
    exact (h_square h j).continuousAt.eventually (lt_mem_nhds (by rw [(h_square h j).1]; positivity))
  have := hp.and hS
  rw [Metric.eventually_nhds_iff] at this
  obtain ⟨r, hr, H⟩ := this
  have H' : ∀ d : Vec 3 ℝ, ‖d‖ < r → (∀ j, 0 < l.holdSquare T d j) ∧ d ∈ S := fun d hd => H (by rwa [dist_zero_right])
  refine ⟨r, hr, K + 1, by positivity, fun d hd => (H' d hd).1, fun d d' hd hd' => ?_⟩
  have := hK.norm_sub_le (H' d hd).2 (H' d' hd').2
  refine this.trans ?_
  nlinarith [norm_nonneg (d - d')]

end Loop

end Verif.Stability
