import Verif.Lemmas.HoverDeriv

/-!
# Modes of the linearised cycle
-/

namespace Verif.Stability

open Verif Flt Spec Filter Topology

section
variable {𝕜 : Type} [Field 𝕜] (ρ : ℝ →+* 𝕜) (k : PidTuning) (dt : ℝ) (a b : 𝕜)

lemma nextInt_comb (I I' e e' : 𝕜) :
    nextInt ρ k dt (a * I + b * I') (a * e + b * e') = a * nextInt ρ k dt I e + b * nextInt ρ k dt I' e' := by
  unfold nextInt; split_ifs <;> ring

lemma nextFil_comb (f f' E E' e e' : 𝕜) :
    nextFil ρ k dt (a * f + b * f') (a * E + b * E') (a * e + b * e')
      = a * nextFil ρ k dt f E e + b * nextFil ρ k dt f' E' e' := by
  unfold nextFil; split_ifs <;> ring

lemma respond_comb (I I' f f' E E' e e' : 𝕜) :
    respond ρ k dt (a * I + b * I') (a * f + b * f') (a * E + b * E') (a * e + b * e')
      = a * respond ρ k dt I f E e + b * respond ρ k dt I' f' E' e' := by
  unfold respond; rw [nextInt_comb, nextFil_comb]; ring

lemma nextInt_map (I e : ℝ) : nextInt ρ k dt (ρ I) (ρ e) = ρ (nextInt (.id ℝ) k dt I e) := by
  unfold nextInt; split_ifs <;> simp

lemma nextFil_map (f E e : ℝ) : nextFil ρ k dt (ρ f) (ρ E) (ρ e) = ρ (nextFil (.id ℝ) k dt f E e) := by
  unfold nextFil; split_ifs <;> simp

lemma respond_map (I f E e : ℝ) : respond ρ k dt (ρ I) (ρ f) (ρ E) (ρ e) = ρ (respond (.id ℝ) k dt I f E e) := by
  unfold respond; rw [nextInt_map, nextFil_map]; simp

end

namespace Loop
variable (l : Loop) {c : ℝ × ℝ} {w : ℝ}

section
variable {𝕜 : Type} [Field 𝕜] (ρ : ℝ →+* 𝕜) (w : ℝ) (a b : 𝕜) (x y : HV → 𝕜)

/-- Combination of two vectors. -/
def mixed : HV → 𝕜 := fun i => a * x i + b * y i

lemma neg_comb (s t : 𝕜) : -(a * s + b * t) = a * -s + b * -t := by ring

lemma vrefL_comb (i : Fin 3) : l.vrefL ρ (mixed a b x y) i = a * l.vrefL ρ x i + b * l.vrefL ρ y i := by
  simp only [vrefL, mixed, neg_comb, respond_comb]

lemma evL_comb (i : Fin 3) : l.evL ρ (mixed a b x y) i = a * l.evL ρ x i + b * l.evL ρ y i := by
  simp only [evL, vrefL_comb, mixed]; ring

lemma accL_comb (i : Fin 3) : l.accL ρ (mixed a b x y) i = a * l.accL ρ x i + b * l.accL ρ y i := by
  rw [accL, evL_comb]
  simp only [mixed, respond_comb]; rfl

lemma ratesL_comb (i : Fin 3) : l.ratesL ρ (mixed a b x y) i = a * l.ratesL ρ x i + b * l.ratesL ρ y i := by
  fin_cases i <;> simp [ratesL, forwardL, leftL, accL_comb, mixed] <;> ring

lemma erL_comb (i : Fin 3) : l.erL ρ (mixed a b x y) i = a * l.erL ρ x i + b * l.erL ρ y i := by
  simp only [erL, ratesL_comb, mixed]; ring

lemma spinL_comb (i : Fin 3) : l.spinL ρ (mixed a b x y) i = a * l.spinL ρ x i + b * l.spinL ρ y i := by
  rw [spinL, erL_comb]
  simp only [mixed, respond_comb]; rfl

lemma wrenchL_comb (i : Fin 4) : l.wrenchL ρ (mixed a b x y) i = a * l.wrenchL ρ x i + b * l.wrenchL ρ y i := by
  fin_cases i <;> simp [wrenchL, spinL_comb, accL_comb] <;> ring

lemma motAccL_comb (j : Fin 4) : l.motAccL ρ w (mixed a b x y) j = a * l.motAccL ρ w x j + b * l.motAccL ρ w y j := by
  simp only [motAccL, cmdL, wrenchL_comb, mixed, Fin.sum_univ_four]; ring

lemma liftL_comb (r : Fin 4) : l.liftL ρ w (mixed a b x y) r = a * l.liftL ρ w x r + b * l.liftL ρ w y r := by
  simp only [liftL, mixed, Fin.sum_univ_four]; ring

lemma lin_comb (k : HV) : l.lin ρ w (mixed a b x y) k = a * l.lin ρ w x k + b * l.lin ρ w y k := by
  cases k with
  | pos i => simp only [lin, mixed]; ring
  | vel i =>
    fin_cases i <;> simp [lin, thrustL, liftL_comb] <;> simp only [mixed] <;> ring
  | ori i => fin_cases i <;> simp [lin, mixed] <;> ring
  | om i =>
    fin_cases i <;> simp [lin, momentL, liftL_comb, motAccL_comb, Fin.sum_univ_four] <;> simp only [mixed] <;> ring
  | mot j => simp only [lin, motAccL_comb]; simp only [mixed]; ring
  | iP i => simp only [lin, mixed, neg_comb, nextInt_comb]
  | fP i => simp only [lin, mixed, neg_comb, nextFil_comb]
  | eP i => simp only [lin, mixed, neg_comb]
  | iV i => simp only [lin, evL_comb]; simp only [mixed, nextInt_comb]
  | fV i => simp only [lin, evL_comb]; simp only [mixed, nextFil_comb]
  | eV i => simp only [lin, evL_comb]
  | iR i => simp only [lin, erL_comb]; simp only [mixed, nextInt_comb]
  | fR i => simp only [lin, erL_comb]; simp only [mixed, nextFil_comb]
  | eR i => simp only [lin, erL_comb]

lemma lin_add : l.lin ρ w (x + y) = l.lin ρ w x + l.lin ρ w y := by
  have h : x + y = mixed 1 1 x y := by ext i; simp [mixed]
  ext k
  rw [h, lin_comb]; simp

lemma lin_smul : l.lin ρ w (a • x) = a • l.lin ρ w x := by
  have h : a • x = mixed a 0 x x := by ext i; simp [mixed]
  ext k
  rw [h, lin_comb]; simp

end

section
variable {𝕜 : Type} [Field 𝕜] (ρ : ℝ →+* 𝕜) (w : ℝ) (x : HV → ℝ)

lemma map_two : ρ 2 = 2 := map_ofNat ρ 2

lemma vrefL_map (i : Fin 3) : l.vrefL ρ (fun j => ρ (x j)) i = ρ (l.vrefL (.id ℝ) x i) := by
  simp only [vrefL, ← map_neg, respond_map]

lemma evL_map (i : Fin 3) : l.evL ρ (fun j => ρ (x j)) i = ρ (l.evL (.id ℝ) x i) := by
  simp only [evL, vrefL_map, map_sub]

lemma accL_map (i : Fin 3) : l.accL ρ (fun j => ρ (x j)) i = ρ (l.accL (.id ℝ) x i) := by
  simp only [accL, evL_map, respond_map]

lemma ratesL_map (i : Fin 3) : l.ratesL ρ (fun j => ρ (x j)) i = ρ (l.ratesL (.id ℝ) x i) := by
  fin_cases i <;> simp [ratesL, forwardL, leftL, accL_map, map_two]

lemma erL_map (i : Fin 3) : l.erL ρ (fun j => ρ (x j)) i = ρ (l.erL (.id ℝ) x i) := by
  simp only [erL, ratesL_map, map_sub]

lemma spinL_map (i : Fin 3) : l.spinL ρ (fun j => ρ (x j)) i = ρ (l.spinL (.id ℝ) x i) := by
  simp only [spinL, erL_map, respond_map]

lemma wrenchL_map (i : Fin 4) : l.wrenchL ρ (fun j => ρ (x j)) i = ρ (l.wrenchL (.id ℝ) x i) := by
  fin_cases i <;> simp [wrenchL, accL_map, spinL_map]

lemma motAccL_map (j : Fin 4) : l.motAccL ρ w (fun j => ρ (x j)) j = ρ (l.motAccL (.id ℝ) w x j) := by
  simp [motAccL, cmdL, wrenchL_map]

lemma liftL_map (r : Fin 4) : l.liftL ρ w (fun j => ρ (x j)) r = ρ (l.liftL (.id ℝ) w x r) := by
  simp [liftL]

lemma lin_map (k : HV) : l.lin ρ w (fun j => ρ (x j)) k = ρ (l.lin (.id ℝ) w x k) := by
  cases k with
  | pos i => simp [lin]
  | vel i => fin_cases i <;> simp [lin, thrustL, liftL_map, map_two]
  | ori i => fin_cases i <;> simp [lin, map_two]
  | om i => fin_cases i <;> simp [lin, momentL, liftL_map, motAccL_map]
  | mot j => simp [lin, motAccL_map]
  | iP i => simp only [lin, ← map_neg, nextInt_map]
  | fP i => simp only [lin, ← map_neg, nextFil_map]
  | eP i => simp [lin]
  | iV i => simp only [lin, evL_map, nextInt_map]
  | fV i => simp only [lin, evL_map, nextFil_map]
  | eV i => simp only [lin, evL_map]
  | iR i => simp only [lin, erL_map, nextInt_map]
  | fR i => simp only [lin, erL_map, nextFil_map]
  | eR i => simp only [lin, erL_map]

end

variable {l}

/-- What the modes are judged by. -/
structure Stable (l : Loop) (w : ℝ) : Prop where
  samePos : l.P 1 = l.P 0
  sameVel : l.V 1 = l.V 0
  filterP : ∀ i, (l.P i).kd = 0 ∨ (0 < (l.P i).alpha ∧ (l.P i).alpha ≤ 1)
  filterV : ∀ i, (l.V i).kd = 0 ∨ (0 < (l.V i).alpha ∧ (l.V i).alpha ≤ 1)
  filterR : ∀ i, (l.R i).kd = 0 ∨ (0 < (l.R i).alpha ∧ (l.R i).alpha ≤ 1)
  forward : ∀ z : ℂ, 1 ≤ ‖z‖ → tiltChar (l.P 0) (l.V 0) (l.R 1) (l.kr 1) (l.dt / l.tau) l.dt z ≠ 0
  left : ∀ z : ℂ, 1 ≤ ‖z‖ → tiltChar (l.P 0) (l.V 0) (l.R 0) (l.kr 0) (l.dt / l.tau) l.dt z ≠ 0
  vertical : ∀ z : ℂ, 1 ≤ ‖z‖ → liftChar (l.P 2) (l.V 2) (l.dt / l.tau) l.dt z ≠ 0
  heading : ∀ z : ℂ, 1 ≤ ‖z‖ → yawChar (l.R 2) (l.kr 2) (l.dt / l.tau) (l.lag / (2 * w * l.tau)) l.dt z ≠ 0

/-- Change of the force and the torques of the rotors by their acceleration. -/
lemma rotor_acc (h : l.Trim c w) (v : HV → ℂ) (r : Fin 4) :
    ∑ j, (l.mix r j : ℂ) * (2 * w * l.motAccL Complex.ofRealHom w v j) =
      (l.wrenchL Complex.ofRealHom v r - l.liftL Complex.ofRealHom w v r) / l.tau := by
  set ρ := Complex.ofRealHom with hρ
  have hρa : ∀ a : ℝ, ρ a = (a : ℂ) := fun _ => rfl
  have ht : (l.tau : ℂ) ≠ 0 := by exact_mod_cast h.tau.ne'
  have hw : (w : ℂ) ≠ 0 := by exact_mod_cast h.speed.ne'
  have hmix : ∀ r s, ∑ j, (l.mix r j : ℂ) * l.alloc j s = if r = s then 1 else 0 := fun r s => by
    have := congrFun (congrFun h.inverse r) s
    rw [Matrix.mul_apply, Matrix.one_apply] at this
    have h' := congrArg (fun a : ℝ => (a : ℂ)) this
    simpa [apply_ite (fun a : ℝ => (a : ℂ))] using h'
  have hcmd : ∀ r, ∑ j, (l.mix r j : ℂ) * (2 * w * l.cmdL ρ w v j) = l.wrenchL ρ v r := fun r => by
    calc ∑ j, (l.mix r j : ℂ) * (2 * w * l.cmdL ρ w v j)
        = ∑ j, ∑ s, (l.mix r j : ℂ) * l.alloc j s * l.wrenchL ρ v s := by
          refine Finset.sum_congr rfl fun j _ => ?_
          simp only [cmdL, hρa, Complex.ofReal_mul, Complex.ofReal_ofNat]
          rw [mul_div_cancel₀ _ (mul_ne_zero two_ne_zero hw), Finset.mul_sum]
          exact Finset.sum_congr rfl fun s _ => by ring
      _ = ∑ s, (∑ j, (l.mix r j : ℂ) * l.alloc j s) * l.wrenchL ρ v s := by
          rw [Finset.sum_comm]
          exact Finset.sum_congr rfl fun s _ => by rw [Finset.sum_mul]
      _ = l.wrenchL ρ v r := by simp [hmix]
  rw [← hcmd, liftL, ← Finset.sum_sub_distrib, Finset.sum_div]
  refine Finset.sum_congr rfl fun j _ => ?_
  simp only [motAccL, hρa, Complex.ofReal_mul, Complex.ofReal_ofNat]
  field_simp

/-- The force and the torques of the rotors in a mode. -/
lemma lift_next (h : l.Trim c w) (z : ℂ) (v : HV → ℂ) (hv : ∀ j, z * v (.mot j) = l.lin Complex.ofRealHom w v (.mot j)) (r : Fin 4) :
    z * l.liftL Complex.ofRealHom w v r = l.liftL Complex.ofRealHom w v r +
      (l.dt / l.tau : ℝ) * (l.wrenchL Complex.ofRealHom v r - l.liftL Complex.ofRealHom w v r) := by
  set ρ := Complex.ofRealHom with hρ
  have hρa : ∀ a : ℝ, ρ a = (a : ℂ) := fun _ => rfl
  have e1 : z * l.liftL ρ w v r = ∑ j, ρ (l.mix r j) * (ρ (2 * w) * (z * v (.mot j))) := by
    rw [liftL, Finset.mul_sum]
    exact Finset.sum_congr rfl fun j _ => by ring
  have e2 : ∑ j, ρ (l.mix r j) * (ρ (2 * w) * (z * v (.mot j))) = l.liftL ρ w v r +
      l.dt * ∑ j, (l.mix r j : ℂ) * (2 * w * l.motAccL ρ w v j) := by
    rw [liftL, Finset.mul_sum, ← Finset.sum_add_distrib]
    refine Finset.sum_congr rfl fun j _ => ?_
    rw [hv]
    simp only [lin, hρa, Complex.ofReal_mul, Complex.ofReal_ofNat]
    ring
  rw [e1, e2, hρ, rotor_acc h]
  push_cast
  ring

/-- Rotors without force and torques. -/
lemma still_rotors (h : l.Trim c w) (v : HV → ℂ) (L : ∀ r, l.liftL Complex.ofRealHom w v r = 0) (j : Fin 4) : v (.mot j) = 0 := by
  set ρ := Complex.ofRealHom with hρ
  have hρa : ∀ a : ℝ, ρ a = (a : ℂ) := fun _ => rfl
  have hw : (w : ℂ) ≠ 0 := by exact_mod_cast h.speed.ne'
  have h1 : l.alloc * l.mix = 1 := mul_eq_one_comm.1 h.inverse
  have h2 : ∀ i, ∑ r, (l.alloc j r : ℂ) * l.mix r i = if j = i then 1 else 0 := fun i => by
    have := congrFun (congrFun h1 j) i
    rw [Matrix.mul_apply, Matrix.one_apply] at this
    have h' := congrArg (fun a : ℝ => (a : ℂ)) this
    simpa [apply_ite (fun a : ℝ => (a : ℂ))] using h'
  have h3 : ∑ r, (l.alloc j r : ℂ) * l.liftL ρ w v r = 2 * w * v (.mot j) := by
    calc ∑ r, (l.alloc j r : ℂ) * l.liftL ρ w v r
        = ∑ r, ∑ i, (l.alloc j r : ℂ) * l.mix r i * (2 * w * v (.mot i)) := by
          refine Finset.sum_congr rfl fun r _ => ?_
          rw [liftL, Finset.mul_sum]
          refine Finset.sum_congr rfl fun i _ => ?_
          simp only [hρa, Complex.ofReal_mul, Complex.ofReal_ofNat]; ring
      _ = ∑ i, (∑ r, (l.alloc j r : ℂ) * l.mix r i) * (2 * w * v (.mot i)) := by
          rw [Finset.sum_comm]
          exact Finset.sum_congr rfl fun s _ => by rw [Finset.sum_mul]
      _ = _ := by simp [h2]
  simp only [L, mul_zero, Finset.sum_const_zero] at h3
  exact (mul_eq_zero.1 h3.symm).resolve_left (mul_ne_zero two_ne_zero hw)

lemma eigen (h : l.Trim c w) (hs : l.Stable w) (z : ℂ) (v : HV → ℂ) (hv : l.lin Complex.ofRealHom w v = z • v)
    (hz : 1 ≤ ‖z‖) : v = 0 := by
  set ρ := Complex.ofRealHom with hρ
  have hρa : ∀ a : ℝ, ρ a = (a : ℂ) := fun _ => rfl
  have hv : ∀ k, z * v k = l.lin ρ w v k := fun k => by rw [hv]; rfl
  have hz0 : z ≠ 0 := by rintro rfl; norm_num at hz
  have hm : (l.mass : ℂ) ≠ 0 := by exact_mod_cast h.mass.ne'
  have hg : (l.g : ℂ) ≠ 0 := by exact_mod_cast h.gravity.ne'
  have ht : (l.tau : ℂ) ≠ 0 := by exact_mod_cast h.tau.ne'
  have hw : (w : ℂ) ≠ 0 := by exact_mod_cast h.speed.ne'
  have hI : ∀ i, (l.inertia i : ℂ) ≠ 0 := fun i => by exact_mod_cast h.inertia i
  have hdt : l.dt ≠ 0 := h.dt.ne'
  have hβ : l.dt / l.tau ≠ 0 := div_ne_zero hdt h.tau.ne'
  have hγ : l.gamma ≠ 0 := div_ne_zero h.gravity.ne' h.mass.ne'
  have hmg : (l.mass : ℂ) * l.gamma = l.g := by
    rw [gamma]; push_cast; field_simp
  -- the controllers
  have mP : ∀ i, PidMode (l.P i) l.dt z (-v (.pos i)) (v (.iP i)) (v (.fP i)) (v (.eP i)) (l.vrefL ρ v i) := fun i =>
    ⟨hv (.iP i), hv (.fP i), hv (.eP i), by rw [hv, hv]; rfl⟩
  have mV : ∀ i, PidMode (l.V i) l.dt z (l.vrefL ρ v i - v (.vel i)) (v (.iV i)) (v (.fV i)) (v (.eV i)) (l.accL ρ v i) :=
    fun i => ⟨hv (.iV i), hv (.fV i), hv (.eV i), by rw [hv, hv]; rfl⟩
  have mR : ∀ i, PidMode (l.R i) l.dt z (l.ratesL ρ v i - v (.om i)) (v (.iR i)) (v (.fR i)) (v (.eR i)) (l.spinL ρ v i) :=
    fun i => ⟨hv (.iR i), hv (.fR i), hv (.eR i), by rw [hv, hv]; rfl⟩
  have hacc : ∀ r, ∑ j, (l.mix r j : ℂ) * (2 * w * l.motAccL ρ w v j) = (l.wrenchL ρ v r - l.liftL ρ w v r) / l.tau :=
    rotor_acc h v
  have hlift : ∀ r, z * l.liftL ρ w v r = l.liftL ρ w v r + (l.dt / l.tau : ℝ) * (l.wrenchL ρ v r - l.liftL ρ w v r) :=
    lift_next h z v fun j => hv (.mot j)
  -- vertical motion
  have w0 : l.wrenchL ρ v 0 = l.mass * l.accL ρ v 2 := rfl
  have w1 : l.wrenchL ρ v 1 = l.inertia 0 * l.spinL ρ v 0 := rfl
  have w2 : l.wrenchL ρ v 2 = l.inertia 1 * l.spinL ρ v 1 := rfl
  have w3 : l.wrenchL ρ v 3 = l.inertia 2 * l.spinL ρ v 2 := rfl
  have V := lift_mode (η := l.liftL ρ w v 0 / l.mass) hz hdt hβ (hs.filterP 2) (hs.filterV 2) (hs.vertical z hz)
    (mP 2) (mV 2) (hv (.pos 2)) (by rw [hv]; rfl) (by
      have := hlift 0
      rw [w0] at this
      field_simp
      linear_combination this)
  -- heading
  have Y := yaw_mode (η := l.liftL ρ w v 3 / l.inertia 2) (θ := 2 * v (.ori 3)) (ω := v (.om 2)) hz hdt hβ h.lag
    (div_pos h.dt h.tau) (hs.filterR 2) (hs.heading z hz)
    (by
      have := mR 2
      have e : l.ratesL ρ v 2 = l.kr 2 * -(2 * v (.ori 3)) := by
        show -(ρ (l.kr 2) * (2 * v (.ori 3))) = _
        rw [hρa]; ring
      rwa [e] at this)
    (by
      have := hv (.ori 3)
      have e : l.lin ρ w v (.ori 3) = v (.ori 3) + l.dt / 2 * v (.om 2) := rfl
      rw [e] at this
      linear_combination 2 * this)
    (by
      have := hacc 3
      rw [hv]
      show v (.om 2) + (l.dt : ℂ) * ((l.liftL ρ w v 3 + (l.lag : ℂ) * ∑ j, (l.mix 3 j : ℂ) * l.motAccL ρ w v j) /
        l.inertia 2) = _
      have e : ∑ j, (l.mix 3 j : ℂ) * l.motAccL ρ w v j = (l.wrenchL ρ v 3 - l.liftL ρ w v 3) / l.tau / (2 * w) := by
        rw [← this, Finset.sum_div]
        exact Finset.sum_congr rfl fun j _ => by field_simp
      rw [e, w3]
      have := hI 2
      push_cast
      field_simp)
    (by
      have h3 := hlift 3
      rw [w3] at h3
      have := hI 2
      field_simp
      linear_combination h3)
  -- tilting
  have cs : (Real.cos l.psi : ℂ) ^ 2 + (Real.sin l.psi : ℂ) ^ 2 = 1 := by
    exact_mod_cast Real.cos_sq_add_sin_sq l.psi
  have v0 : z * v (.vel 0) = v (.vel 0) + l.dt * (l.gamma * (Real.cos l.psi * (2 * v (.ori 2)) +
      Real.sin l.psi * (2 * v (.ori 1)))) := by
    rw [hv]
    show v (.vel 0) + (l.dt : ℂ) * (((Real.cos l.psi : ℂ) * (l.g * (2 * v (.ori 2))) + (Real.sin l.psi : ℂ) * (l.g *
      (2 * v (.ori 1)))) / l.mass) = _
    rw [← hmg]; field_simp
  have v1 : z * v (.vel 1) = v (.vel 1) + l.dt * (l.gamma * (Real.sin l.psi * (2 * v (.ori 2)) -
      Real.cos l.psi * (2 * v (.ori 1)))) := by
    rw [hv]
    show v (.vel 1) + (l.dt : ℂ) * (((Real.sin l.psi : ℂ) * (l.g * (2 * v (.ori 2))) - (Real.cos l.psi : ℂ) * (l.g *
      (2 * v (.ori 1)))) / l.mass) = _
    rw [← hmg]; field_simp
  have p0 : z * v (.pos 0) = v (.pos 0) + l.dt * v (.vel 0) := hv (.pos 0)
  have p1 : z * v (.pos 1) = v (.pos 1) + l.dt * v (.vel 1) := hv (.pos 1)
  have q1 : z * v (.ori 1) = v (.ori 1) + l.dt / 2 * v (.om 0) := hv (.ori 1)
  have q2 : z * v (.ori 2) = v (.ori 2) + l.dt / 2 * v (.om 1) := hv (.ori 2)
  have o0 : z * v (.om 0) = v (.om 0) + l.dt * (l.liftL ρ w v 1 / l.inertia 0) := by
    rw [hv]
    show v (.om 0) + (l.dt : ℂ) * ((l.liftL ρ w v 1 + 0) / l.inertia 0) = _
    rw [add_zero]
  have o1 : z * v (.om 1) = v (.om 1) + l.dt * (l.liftL ρ w v 2 / l.inertia 1) := by
    rw [hv]
    show v (.om 1) + (l.dt : ℂ) * ((l.liftL ρ w v 2 + 0) / l.inertia 1) = _
    rw [add_zero]
  have P1 := mP 1
  have V1 := mV 1
  rw [hs.samePos] at P1
  rw [hs.sameVel] at V1
  have F := tilt_mode (x := Real.cos l.psi * v (.pos 0) + Real.sin l.psi * v (.pos 1))
    (v := Real.cos l.psi * v (.vel 0) + Real.sin l.psi * v (.vel 1)) (θ := 2 * v (.ori 2)) (ω := v (.om 1))
    (η := l.liftL ρ w v 2 / l.inertia 1) hz hdt hγ hβ (hs.filterP 0) (hs.filterV 0) (hs.filterR 1) (hs.forward z hz)
    (by
      have := (mP 0).comb P1 (Real.cos l.psi) (Real.sin l.psi)
      have e : (Real.cos l.psi : ℂ) * -v (.pos 0) + Real.sin l.psi * -v (.pos 1) =
        -(Real.cos l.psi * v (.pos 0) + Real.sin l.psi * v (.pos 1)) := by ring
      rwa [e] at this)
    (by
      have := (mV 0).comb V1 (Real.cos l.psi) (Real.sin l.psi)
      have e : (Real.cos l.psi : ℂ) * (l.vrefL ρ v 0 - v (.vel 0)) + Real.sin l.psi * (l.vrefL ρ v 1 - v (.vel 1)) =
        (Real.cos l.psi * l.vrefL ρ v 0 + Real.sin l.psi * l.vrefL ρ v 1) -
          (Real.cos l.psi * v (.vel 0) + Real.sin l.psi * v (.vel 1)) := by ring
      rwa [e] at this)
    (mR 1)
    (by linear_combination Real.cos l.psi * p0 + Real.sin l.psi * p1)
    (by linear_combination Real.cos l.psi * v0 + Real.sin l.psi * v1 + l.dt * l.gamma * (2 * v (.ori 2)) * cs)
    (by linear_combination 2 * q2)
    o1
    (by
      have := hI 1
      have h2 := hlift 2
      rw [w2] at h2
      field_simp
      linear_combination h2)
  have G := tilt_mode (x := Real.cos l.psi * v (.pos 1) + -Real.sin l.psi * v (.pos 0))
    (v := Real.cos l.psi * v (.vel 1) + -Real.sin l.psi * v (.vel 0)) (θ := -(2 * v (.ori 1))) (ω := -v (.om 0))
    (η := -(l.liftL ρ w v 1 / l.inertia 0)) hz hdt hγ hβ (hs.filterP 0) (hs.filterV 0) (hs.filterR 0) (hs.left z hz)
    (by
      have := P1.comb (mP 0) (Real.cos l.psi) (-Real.sin l.psi)
      have e : (Real.cos l.psi : ℂ) * -v (.pos 1) + -Real.sin l.psi * -v (.pos 0) =
        -(Real.cos l.psi * v (.pos 1) + -Real.sin l.psi * v (.pos 0)) := by ring
      rwa [e] at this)
    (by
      have := V1.comb (mV 0) (Real.cos l.psi) (-Real.sin l.psi)
      have e : (Real.cos l.psi : ℂ) * (l.vrefL ρ v 1 - v (.vel 1)) + -Real.sin l.psi * (l.vrefL ρ v 0 - v (.vel 0)) =
        (Real.cos l.psi * l.vrefL ρ v 1 + -Real.sin l.psi * l.vrefL ρ v 0) -
          (Real.cos l.psi * v (.vel 1) + -Real.sin l.psi * v (.vel 0)) := by ring
      rwa [e] at this)
    (by
      have := (mR 0).neg
      have e : -(l.ratesL ρ v 0 - v (.om 0)) = l.kr 0 * ((Real.cos l.psi * l.accL ρ v 1 + -Real.sin l.psi * l.accL ρ v 0) /
          l.gamma - -(2 * v (.ori 1))) - -v (.om 0) := by
        show -(-((l.kr 0 : ℂ) * ((Real.cos l.psi * l.accL ρ v 1 - Real.sin l.psi * l.accL ρ v 0) / l.gamma +
          2 * v (.ori 1))) - v (.om 0)) = _
        ring
      rwa [e] at this)
    (by linear_combination Real.cos l.psi * p1 - Real.sin l.psi * p0)
    (by linear_combination Real.cos l.psi * v1 - Real.sin l.psi * v0 - l.dt * l.gamma * (2 * v (.ori 1)) * cs)
    (by linear_combination -2 * q1)
    (by linear_combination -o0)
    (by
      have := hI 0
      have h1 := hlift 1
      rw [w1] at h1
      field_simp
      linear_combination -h1)
  obtain ⟨⟨V1, V2, V3⟩, ⟨V4, V5, V6⟩, V7, V8, V9⟩ := V
  obtain ⟨⟨Y1, Y2, Y3⟩, Y4, Y5, Y6⟩ := Y
  obtain ⟨⟨F1, F2, F3, F4, F5⟩, ⟨F6, F7, F8⟩, ⟨F9, F10, F11⟩, F12, F13, F14⟩ := F
  obtain ⟨⟨G1, G2, G3, G4, G5⟩, ⟨G6, G7, G8⟩, ⟨G9, G10, G11⟩, G12, G13, G14⟩ := G
  have un : ∀ {a b : ℂ}, Real.cos l.psi * a + Real.sin l.psi * b = 0 → Real.cos l.psi * b + -Real.sin l.psi * a = 0 →
      a = 0 ∧ b = 0 := fun {a b} h1 h2 =>
    ⟨by linear_combination Real.cos l.psi * h1 - Real.sin l.psi * h2 - a * cs,
      by linear_combination Real.sin l.psi * h1 + Real.cos l.psi * h2 - b * cs⟩
  have L : ∀ r, l.liftL ρ w v r = 0 := by
    intro r
    fin_cases r
    · exact (div_eq_zero_iff.1 V3).resolve_right hm
    · exact (div_eq_zero_iff.1 (neg_eq_zero.1 G5)).resolve_right (hI 0)
    · exact (div_eq_zero_iff.1 F5).resolve_right (hI 1)
    · exact (div_eq_zero_iff.1 Y3).resolve_right (hI 2)
  have hmot := still_rotors h v L
  have two : ∀ {a : ℂ}, 2 * a = 0 → a = 0 := fun h => (mul_eq_zero.1 h).resolve_left two_ne_zero
  funext k
  show v k = 0
  cases k with
  | pos i => fin_cases i; exacts [(un F1 G1).1, (un F1 G1).2, V1]
  | vel i => fin_cases i; exacts [(un F2 G2).1, (un F2 G2).2, V2]
  | ori i =>
    fin_cases i
    · exact (mul_eq_zero.1 (hv (.ori 0))).resolve_left hz0
    · exact two (neg_eq_zero.1 G3)
    · exact two F3
    · exact two Y1
  | om i => fin_cases i; exacts [neg_eq_zero.1 G4, F4, Y2]
  | mot j => exact hmot j
  | iP i => fin_cases i; exacts [(un F6 G6).1, (un F6 G6).2, V4]
  | fP i => fin_cases i; exacts [(un F7 G7).1, (un F7 G7).2, V5]
  | eP i => fin_cases i; exacts [(un F8 G8).1, (un F8 G8).2, V6]
  | iV i => fin_cases i; exacts [(un F9 G9).1, (un F9 G9).2, V7]
  | fV i => fin_cases i; exacts [(un F10 G10).1, (un F10 G10).2, V8]
  | eV i => fin_cases i; exacts [(un F11 G11).1, (un F11 G11).2, V9]
  | iR i => fin_cases i; exacts [neg_eq_zero.1 G12, F12, Y4]
  | fR i => fin_cases i; exacts [neg_eq_zero.1 G13, F13, Y5]
  | eR i => fin_cases i; exacts [neg_eq_zero.1 G14, F14, Y6]

/-- The cycle contracts near hover in the long run. -/
lemma linearised (h : l.Trim c w) (hs : l.Stable w) : ∃ L : (HV → ℝ) →L[ℝ] (HV → ℝ),
    HasFDerivAt l.map L (l.rest c w) ∧ Tendsto (fun n => L ^ n) atTop (𝓝 0) := by
  obtain ⟨L, hL, e⟩ := hasFDerivAt h
  refine ⟨L, hL, pow_tendsto_of_eigen L (l.lin Complex.ofRealHom w) (fun x y => l.lin_add _ _ x y)
    (fun z x => l.lin_smul _ _ z x) (fun x k => ?_) fun z v hv hz => eigen h hs z v hv hz⟩
  rw [e]
  exact l.lin_map Complex.ofRealHom w x k

end Loop

end Verif.Stability
