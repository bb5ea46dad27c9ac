import Verif.Lemmas.Strict
import Verif.Lemmas.CruiseMode

/-!
# The rate loop

One control cycle of the rates and the rotors under requested rates and thrust, its linearisation and the modes of the latter.
-/

namespace Verif.Spec

/-- Characteristic function of a rate loop; `ρ` is the part of a change of torque which the acceleration of the rotors produces at
once. -/
noncomputable def rateChar (R : PidTuning) (β ρ dt : ℝ) (z : ℂ) : ℂ :=
  R.den z * (z - 1) * (z - 1 + β) + dt * R.num dt z * (β + ρ * (z - 1))

end Verif.Spec

namespace Verif.Stability

open Verif Flt Spec Filter Topology

/-- A mode of a rate loop without root on or outside the unit circle vanishes. -/
lemma rate_mode {R : PidTuning} {β ρ dt : ℝ} {z : ℂ} (hz : 1 ≤ ‖z‖) (hdt : dt ≠ 0) (hβ : β ≠ 0) (hb : β < 2) (hb0 : 0 < β)
    (hR : R.kd = 0 ∨ (0 < R.alpha ∧ R.alpha ≤ 1)) (hc : rateChar R β ρ dt z ≠ 0)
    {ω η IR fR ER α : ℂ} (r : PidMode R dt z (-ω) IR fR ER α)
    (eω : z * ω = ω + dt * (η + ρ * (α - η))) (eη : z * η = η + β * (α - η)) :
    (ω = 0 ∧ η = 0) ∧ (IR = 0 ∧ fR = 0 ∧ ER = 0) := by
  have hdt' : (dt : ℂ) ≠ 0 := by exact_mod_cast hdt
  have hβ' : (β : ℂ) ≠ 0 := by exact_mod_cast hβ
  have tr := r.transfer
  set s := z - 1 with hs
  have eω' : dt * (η + ρ * (α - η)) = s * ω := by rw [hs]; linear_combination -eω
  have eη' : β * α = (s + β) * η := by rw [hs]; linear_combination -eη
  have hsb : s + β ≠ 0 := by
    intro h
    have h2 : z = ((1 - β : ℝ) : ℂ) := by push_cast; rw [hs] at h; linear_combination h
    rw [h2, Complex.norm_real, Real.norm_eq_abs] at hz
    exact absurd hz (not_le.2 (abs_lt.2 ⟨by linarith, by linarith⟩))
  have ec : rateChar R β ρ dt z * ω = 0 := by
    have e1 : dt * (β + ρ * s) * α = (s + β) * s * ω := by
      linear_combination (s + β) * eω' + dt * (1 - ρ) * eη'
    unfold rateChar
    rw [← hs]
    linear_combination (-R.den z) * e1 + dt * (β + ρ * s) * tr
  have ω0 : ω = 0 := (mul_eq_zero.1 ec).resolve_left hc
  subst ω0
  rw [mul_zero] at eω'
  have e2 := (mul_eq_zero.1 eω').resolve_left hdt'
  simp only [neg_zero, mul_zero] at tr
  have α0 : α = 0 := by
    by_cases hD : R.den z = 0
    · have h1 := PidMode.den_eq_zero hz hR hD
      have hs0 : s = 0 := by rw [hs, h1, sub_self]
      rw [hs0, zero_add] at eη'
      have h3 : α = η := mul_left_cancel₀ hβ' eη'
      rw [h3, sub_self, mul_zero, add_zero] at e2
      rw [h3, e2]
    · exact (mul_eq_zero.1 tr).resolve_left hD
  subst α0
  have η0 : η = 0 := by
    rw [mul_zero] at eη'
    exact (mul_eq_zero.1 eη'.symm).resolve_left hsb
  subst η0
  exact ⟨⟨rfl, rfl⟩, r.rest hz hR (by simp) rfl⟩

/-- The numbers that describe the rotation of a vehicle: rates, rotor speeds, and accumulated error, filtered derivative and last
error of the rate controller. -/
inductive RV where
  | om (i : Fin 3)
  | mot (j : Fin 4)
  | iR (i : Fin 3)
  | fR (i : Fin 3)
  | eR (i : Fin 3)
deriving DecidableEq, Fintype

/-- The same numbers among those of `HV`. -/
def RV.toHV : RV → HV
  | .om i => .om i
  | .mot j => .mot j
  | .iR i => .iR i
  | .fR i => .fR i
  | .eR i => .eR i

/-- All other numbers zero. -/
def RV.embed {𝕜 : Type} [Field 𝕜] (y : RV → 𝕜) : HV → 𝕜
  | .om i => y (.om i)
  | .mot j => y (.mot j)
  | .iR i => y (.iR i)
  | .fR i => y (.fR i)
  | .eR i => y (.eR i)
  | _ => 0

namespace Loop
variable (l : Loop) (T : ℝ) (x : RV → ℝ) (d : Vec 3 ℝ)

noncomputable def rateErr (x : RV → ℝ) (d : Vec 3 ℝ) (i : Fin 3) : ℝ := d i - x (.om i)
noncomputable def rateSpin (i : Fin 3) : ℝ :=
  respond (.id ℝ) (l.R i) l.dt (x (.iR i)) (x (.fR i)) (x (.eR i)) (rateErr x d i)
noncomputable def rateTorque : Vec 3 ℝ := fun i => l.inertia i * l.rateSpin x d i +
  crossProduct d (fun i => l.inertia i * d i) i
noncomputable def rateWrench : Vec 4 ℝ := ![T, l.rateTorque x d 0, l.rateTorque x d 1, l.rateTorque x d 2]
noncomputable def rateSquare (j : Fin 4) : ℝ := ∑ r, l.alloc j r * l.rateWrench T x d r
noncomputable def rateCmd (j : Fin 4) : ℝ := √|l.rateSquare T x d j| * sign (l.rateSquare T x d j)
noncomputable def rateAcc (j : Fin 4) : ℝ := (l.rateCmd T x d j - x (.mot j)) / l.tau
noncomputable def rateLift (r : Fin 4) : ℝ := ∑ j, l.mix r j * (x (.mot j) * |x (.mot j)|)
noncomputable def rateOmega (x : RV → ℝ) : Vec 3 ℝ := fun i => x (.om i)

/-- Torque on the vehicle. -/
noncomputable def rateMoment : Vec 3 ℝ := fun i =>
  l.rateLift x i.succ + (![0, 0, l.lag * ∑ j, l.mix 3 j * l.rateAcc T x d j] : Vec 3 ℝ) i
    - √(rateOmega x ⬝ᵥ rateOmega x) * (l.aero.mulVec (rateOmega x)) i
    - crossProduct (rateOmega x) (fun i => l.inertia i * rateOmega x i) i

/-- One cycle under the requested thrust `T` and the requested rates `d`. -/
noncomputable def rateMap : RV → ℝ
  | .om i => x (.om i) + l.dt * (l.rateMoment T x d i / l.inertia i)
  | .mot j => x (.mot j) + l.dt * l.rateAcc T x d j
  | .iR i => nextInt (.id ℝ) (l.R i) l.dt (x (.iR i)) (rateErr x d i)
  | .fR i => nextFil (.id ℝ) (l.R i) l.dt (x (.fR i)) (x (.eR i)) (rateErr x d i)
  | .eR i => rateErr x d i

/-- Change of the rates by a torque `t` that acts during a cycle. -/
noncomputable def twist (t : Vec 3 ℝ) : RV → ℝ
  | .om i => l.dt * (t i / l.inertia i)
  | _ => 0

/-- No rotation, rotor speed `w`. -/
def rateRest (w : ℝ) : RV → ℝ
  | .mot _ => w
  | _ => 0

/-- With rotor speed `w` the rotors produce the requested thrust. -/
structure SpinTrim (w : ℝ) : Prop where
  thrust : 0 < T
  tau : 0 < l.tau
  dt : 0 < l.dt
  lag : l.dt / l.tau < 2
  inertia : ∀ i, l.inertia i ≠ 0
  speed : 0 < w
  carry : (∑ j, l.mix 0 j) * w ^ 2 = T
  balance : ∀ r : Fin 3, ∑ j, l.mix r.succ j = 0
  inverse : l.mix * l.alloc = 1
  unused : ∀ i, (l.R i).ki = 0 → ∀ j, l.aero i j = 0

/-- What the modes are judged by. -/
structure SpinStable (w : ℝ) : Prop where
  filterR : ∀ i, (l.R i).kd = 0 ∨ (0 < (l.R i).alpha ∧ (l.R i).alpha ≤ 1)
  roll : ∀ z : ℂ, 1 ≤ ‖z‖ → rateChar (l.R 0) (l.dt / l.tau) 0 l.dt z ≠ 0
  pitch : ∀ z : ℂ, 1 ≤ ‖z‖ → rateChar (l.R 1) (l.dt / l.tau) 0 l.dt z ≠ 0
  yaw : ∀ z : ℂ, 1 ≤ ‖z‖ → rateChar (l.R 2) (l.dt / l.tau) (l.lag / (2 * w * l.tau)) l.dt z ≠ 0

/-- A loop of which only the rates matter. -/
noncomputable def acro : Loop :=
  { l with P := fun _ => noTuning, V := fun _ => noTuning, kr := 0, mass := 1, g := T }

variable {l T} {w : ℝ}

lemma SpinTrim.trim (h : l.SpinTrim T w) : (l.acro T).Trim (0, 0) w where
  mass := one_pos
  gravity := h.thrust
  tau := h.tau
  dt := h.dt
  lag := h.lag
  inertia := h.inertia
  speed := h.speed
  unused := ⟨fun _ => rfl, fun _ => rfl⟩
  steady := .inr rfl
  demand := by simp [acro]
  carry := h.carry
  balance := h.balance
  inverse := h.inverse

/-! ### Linearisation -/

section
variable (ρ : ℝ →+* ℂ) (y : RV → ℂ)

/-- The linearised cycle. -/
noncomputable def rateLin {𝕜 : Type} [Field 𝕜] (l : Loop) (T w : ℝ) (ρ : ℝ →+* 𝕜) (y : RV → 𝕜) : RV → 𝕜 := fun k =>
  (l.acro T).lin ρ w (RV.embed y) k.toHV

end

section
variable {𝕜 : Type} [Field 𝕜] (ρ : ℝ →+* 𝕜) (y : RV → 𝕜)

lemma acro_er (i : Fin 3) : (l.acro T).erL ρ (RV.embed y) i = -y (.om i) := by
  have : (l.acro T).ratesL ρ (RV.embed y) i = 0 := by
    fin_cases i <;> simp [ratesL, acro]
  rw [erL, this, zero_sub]; rfl

lemma acro_acc (i : Fin 3) : (l.acro T).accL ρ (RV.embed y) i = 0 := by
  show respond ρ noTuning l.dt _ _ _ _ = 0
  simp [respond, noTuning]

lemma acro_spin (i : Fin 3) : (l.acro T).spinL ρ (RV.embed y) i =
    respond ρ (l.R i) l.dt (y (.iR i)) (y (.fR i)) (y (.eR i)) (-y (.om i)) := by
  rw [spinL, acro_er]; rfl

end

lemma rate_eigen (h : l.SpinTrim T w) (hs : l.SpinStable w) (z : ℂ) (v : RV → ℂ)
    (hv : rateLin l T w Complex.ofRealHom v = z • v) (hz : 1 ≤ ‖z‖) : v = 0 := by
  set ρ := Complex.ofRealHom with hρ
  have hρa : ∀ a : ℝ, ρ a = (a : ℂ) := fun _ => rfl
  set u := RV.embed v with hu
  set a := l.acro T with ha
  have ht := h.trim
  have hw : (w : ℂ) ≠ 0 := by exact_mod_cast h.speed.ne'
  have hta : (l.tau : ℂ) ≠ 0 := by exact_mod_cast h.tau.ne'
  have hdt := h.dt
  have htau := h.tau
  have hv' : ∀ k, z * v k = a.lin ρ w u k.toHV := fun k => by
    have := congrFun hv k
    simp only [Pi.smul_apply, smul_eq_mul] at this
    exact this.symm
  have hb0 : 0 < l.dt / l.tau := by positivity
  have hlift := fun r => lift_next ht z u (fun j => hv' (.mot j)) r
  have hpid : ∀ i, PidMode (l.R i) l.dt z (-v (.om i)) (v (.iR i)) (v (.fR i)) (v (.eR i)) (a.spinL ρ u i) := fun i => by
    have e1 := hv' (.iR i)
    have e2 := hv' (.fR i)
    have e3 := hv' (.eR i)
    simp only [RV.toHV, lin, ha, hu, acro_er] at e1 e2 e3
    refine ⟨e1, e2, e3, ?_⟩
    rw [ha, hu, acro_spin, respond, e1, e2]
    rfl
  have hJ : ∀ i, (l.inertia i : ℂ) ≠ 0 := fun i => by exact_mod_cast h.inertia i
  have hacc := rotor_acc ht u 3
  -- thrust
  have L0 : a.liftL ρ w u 0 = 0 := by
    have := hlift 0
    have e : a.wrenchL ρ u 0 = 0 := by
      show ρ a.mass * a.accL ρ u 2 = 0
      rw [ha, hu, acro_acc, mul_zero]
    rw [← hρ, e] at this
    have e2 : (z - 1 + (l.dt / l.tau : ℝ)) * a.liftL ρ w u 0 = 0 := by
      have e3 : (a.dt / a.tau : ℝ) = l.dt / l.tau := rfl
      rw [e3] at this
      linear_combination this
    refine (mul_eq_zero.1 e2).resolve_left fun hzero => ?_
    have h2 : z = ((1 - l.dt / l.tau : ℝ) : ℂ) := by push_cast at hzero ⊢; linear_combination hzero
    rw [h2, Complex.norm_real, Real.norm_eq_abs] at hz
    exact absurd hz (not_le.2 (abs_lt.2 ⟨by linarith [h.lag], by linarith⟩))
  have wr : ∀ i : Fin 3, a.wrenchL ρ u i.succ = l.inertia i * a.spinL ρ u i := fun i => by fin_cases i <;> rfl
  -- roll and pitch
  have axisw : ∀ (i : Fin 3) (r : ℝ), rateChar (l.R i) (l.dt / l.tau) r l.dt z ≠ 0 →
      a.momentL ρ w u i = a.liftL ρ w u i.succ + r * (l.inertia i * a.spinL ρ u i - a.liftL ρ w u i.succ) →
      (v (.om i) = 0 ∧ a.liftL ρ w u i.succ = 0) ∧ (v (.iR i) = 0 ∧ v (.fR i) = 0 ∧ v (.eR i) = 0) := by
    intro i r hc hm
    have eo := hv' (.om i)
    simp only [RV.toHV, lin] at eo
    rw [hm] at eo
    have el := hlift i.succ
    rw [← hρ, wr i] at el
    obtain ⟨⟨g1, g2⟩, g3⟩ := rate_mode (η := a.liftL ρ w u i.succ / l.inertia i) hz hdt.ne' hb0.ne' h.lag hb0 (hs.filterR i) hc
      (hpid i) (by
        rw [eo]
        show v (.om i) + (l.dt : ℂ) * (_ / (l.inertia i : ℂ)) = _
        have := hJ i
        field_simp) (by
        have e3 : (a.dt / a.tau : ℝ) = l.dt / l.tau := rfl
        rw [e3] at el
        have := hJ i
        field_simp
        linear_combination el)
    exact ⟨⟨g1, (div_eq_zero_iff.1 g2).resolve_right (hJ i)⟩, g3⟩
  have x0 := axisw 0 0 (hs.roll z hz) (by simp [momentL])
  have x1 := axisw 1 0 (hs.pitch z hz) (by simp [momentL])
  have x2 := axisw 2 (l.lag / (2 * w * l.tau)) (hs.yaw z hz) (by
    have e : a.wrenchL ρ u 3 = l.inertia 2 * a.spinL ρ u 2 := wr 2
    rw [← hρ, e] at hacc
    have hsum : ∑ j, (a.mix 3 j : ℂ) * (2 * w * a.motAccL ρ w u j) = 2 * w * ∑ j, ρ (a.mix 3 j) * a.motAccL ρ w u j := by
      rw [Finset.mul_sum]
      exact Finset.sum_congr rfl fun j _ => by rw [hρa]; ring
    rw [hsum] at hacc
    have e3 : (2 : Fin 3).succ = (3 : Fin 4) := rfl
    have e4 : a.tau = l.tau := rfl
    have e5 : a.lag = l.lag := rfl
    rw [e4] at hacc
    simp only [momentL, e3, e5, hρa, Matrix.cons_val, Complex.ofReal_div, Complex.ofReal_mul, Complex.ofReal_ofNat] at hacc ⊢
    have : ∑ j, (a.mix 3 j : ℂ) * a.motAccL ρ w u j = (l.inertia 2 * a.spinL ρ u 2 - a.liftL ρ w u 3) / l.tau / (2 * w) := by
      rw [← hacc]; field_simp
    rw [this]
    field_simp)
  have hax : ∀ i, (v (.om i) = 0 ∧ a.liftL ρ w u i.succ = 0) ∧ (v (.iR i) = 0 ∧ v (.fR i) = 0 ∧ v (.eR i) = 0) := fun i => by
    fin_cases i
    · exact x0
    · exact x1
    · exact x2
  have hrot := still_rotors ht u (fun r => by
    refine Fin.cases L0 (fun i => (hax i).1.2) r)
  ext k
  cases k with
  | om i => exact (hax i).1.1
  | mot j => exact hrot j
  | iR i => exact (hax i).2.1
  | fR i => exact (hax i).2.2.1
  | eR i => exact (hax i).2.2.2

end Loop

end Verif.Stability
