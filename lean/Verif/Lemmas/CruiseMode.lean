import Verif.Lemmas.TrackMode

/-!
# Modes of a vehicle that keeps a velocity

In velocity mode the position does not matter. The cycle is that of position hold with a position controller whose gains are
zero, and the position, which nothing brings back, is left out.
-/

namespace Verif.Spec

/-- Characteristic function of horizontal motion in velocity mode. -/
noncomputable def cruiseTiltChar (V R : PidTuning) (kr β dt : ℝ) (z : ℂ) : ℂ :=
  V.den z * R.den z * (z - 1) ^ 3 * (z - 1 + β) +
    β * R.num dt z * (dt * V.den z * (z - 1) * (z - 1 + kr * dt) + kr * dt ^ 3 * V.num dt z)

/-- Characteristic function of vertical motion in velocity mode. -/
noncomputable def cruiseLiftChar (V : PidTuning) (β dt : ℝ) (z : ℂ) : ℂ :=
  V.den z * (z - 1) * (z - 1 + β) + β * dt * V.num dt z

end Verif.Spec

namespace Verif.Stability

open Verif Flt Spec Filter Topology

section
variable {V R : PidTuning} {kr β dt γ : ℝ} {z : ℂ}

/-- A horizontal mode is trivial unless its eigenvalue is a root of the characteristic function. -/
lemma cruise_tilt_mode (hz : 1 ≤ ‖z‖) (hdt : dt ≠ 0) (hγ : γ ≠ 0) (hβ : β ≠ 0)
    (hV : V.kd = 0 ∨ (0 < V.alpha ∧ V.alpha ≤ 1))
    (hR : R.kd = 0 ∨ (0 < R.alpha ∧ R.alpha ≤ 1)) (hc : cruiseTiltChar V R kr β dt z ≠ 0)
    {v θ ω η IV fV EV a IR fR ER α : ℂ} (q : PidMode V dt z (-v) IV fV EV a)
    (r : PidMode R dt z (kr * (a / γ - θ) - ω) IR fR ER α)
    (ev : z * v = v + dt * (γ * θ)) (eθ : z * θ = θ + dt * ω) (eω : z * ω = ω + dt * η)
    (eη : z * η = η + β * (α - η)) :
    (v = 0 ∧ θ = 0 ∧ ω = 0 ∧ η = 0) ∧ (IV = 0 ∧ fV = 0 ∧ EV = 0) ∧ (IR = 0 ∧ fR = 0 ∧ ER = 0) := by
  have hdt' : (dt : ℂ) ≠ 0 := by exact_mod_cast hdt
  have hγ' : (γ : ℂ) ≠ 0 := by exact_mod_cast hγ
  have hβ' : (β : ℂ) ≠ 0 := by exact_mod_cast hβ
  have tq := q.transfer
  have tr := r.transfer
  set s := z - 1 with hs
  have ev' : dt * (γ * θ) = s * v := by rw [hs]; linear_combination -ev
  have eθ' : dt * ω = s * θ := by rw [hs]; linear_combination -eθ
  have eω' : dt * η = s * ω := by rw [hs]; linear_combination -eω
  have eη' : β * α = (s + β) * η := by rw [hs]; linear_combination -eη
  have ec : cruiseTiltChar V R kr β dt z * v = 0 := by
    have ha : γ * (a / γ) = a := by field_simp
    have e1 : dt ^ 3 * γ * (β * α) = (s + β) * s ^ 3 * v := by
      rw [eη']
      linear_combination (s + β) * (dt ^ 2 * γ * eω' + s * dt * γ * eθ' + s ^ 2 * ev')
    have e3 : dt ^ 2 * γ * ω = s ^ 2 * v := by linear_combination dt * γ * eθ' + s * ev'
    unfold cruiseTiltChar
    rw [← hs]
    linear_combination (-(V.den z * R.den z)) * e1 + β * dt ^ 3 * γ * V.den z * tr +
      β * R.num dt z * kr * dt ^ 3 * tq
      - β * R.num dt z * V.den z * dt * e3 - β * R.num dt z * V.den z * kr * dt ^ 2 * ev'
      + β * R.num dt z * V.den z * kr * dt ^ 3 * ha
  have v0 : v = 0 := (mul_eq_zero.1 ec).resolve_left hc
  subst v0
  have θ0 : θ = 0 := by
    rw [mul_zero] at ev'
    exact (mul_eq_zero.1 ((mul_eq_zero.1 ev').resolve_left hdt')).resolve_left hγ'
  subst θ0
  have ω0 : ω = 0 := by
    rw [mul_zero] at eθ'
    exact (mul_eq_zero.1 eθ').resolve_left hdt'
  subst ω0
  have η0 : η = 0 := by
    rw [mul_zero] at eω'
    exact (mul_eq_zero.1 eω').resolve_left hdt'
  subst η0
  have α0 : α = 0 := by
    rw [mul_zero] at eη'
    exact (mul_eq_zero.1 eη').resolve_left hβ'
  subst α0
  simp only [neg_zero, mul_zero, sub_zero] at tq tr
  have a0 : a = 0 := by
    by_cases hD : V.den z = 0
    · obtain rfl := PidMode.den_eq_zero hz hV hD
      have : cruiseTiltChar V R kr β dt 1 = β * R.num dt 1 * (kr * dt ^ 3 * V.num dt 1) := by
        unfold cruiseTiltChar; ring
      rw [this] at hc
      have m1 : R.num dt 1 ≠ 0 := by intro h; rw [h] at hc; simp at hc
      have m2 : (kr : ℂ) ≠ 0 := by intro h; rw [h] at hc; simp at hc
      have := (mul_eq_zero.1 tr.symm).resolve_left m1
      exact (div_eq_zero_iff.1 ((mul_eq_zero.1 this).resolve_left m2)).resolve_right hγ'
    · exact (mul_eq_zero.1 tq).resolve_left hD
  subst a0
  exact ⟨⟨rfl, rfl, rfl, rfl⟩, q.rest hz hV (by simp) rfl, r.rest hz hR (by simp) rfl⟩

/-- The same for vertical motion. -/
lemma cruise_lift_mode (hz : 1 ≤ ‖z‖) (hdt : dt ≠ 0) (hβ : β ≠ 0)
    (hV : V.kd = 0 ∨ (0 < V.alpha ∧ V.alpha ≤ 1)) (hc : cruiseLiftChar V β dt z ≠ 0) {v η IV fV EV a : ℂ}
    (q : PidMode V dt z (-v) IV fV EV a) (ev : z * v = v + dt * η) (eη : z * η = η + β * (a - η)) :
    (v = 0 ∧ η = 0) ∧ (IV = 0 ∧ fV = 0 ∧ EV = 0) := by
  have hdt' : (dt : ℂ) ≠ 0 := by exact_mod_cast hdt
  have hβ' : (β : ℂ) ≠ 0 := by exact_mod_cast hβ
  have tq := q.transfer
  set s := z - 1 with hs
  have ev' : dt * η = s * v := by rw [hs]; linear_combination -ev
  have eη' : β * a = (s + β) * η := by rw [hs]; linear_combination -eη
  have ec : cruiseLiftChar V β dt z * v = 0 := by
    have e1 : dt * (β * a) = (s + β) * s * v := by
      rw [eη']
      linear_combination (s + β) * ev'
    unfold cruiseLiftChar
    rw [← hs]
    linear_combination (-V.den z) * e1 + β * dt * tq
  have v0 : v = 0 := (mul_eq_zero.1 ec).resolve_left hc
  subst v0
  have η0 : η = 0 := by
    rw [mul_zero] at ev'
    exact (mul_eq_zero.1 ev').resolve_left hdt'
  subst η0
  have a0 : a = 0 := by
    rw [mul_zero] at eη'
    exact (mul_eq_zero.1 eη').resolve_left hβ'
  subst a0
  exact ⟨⟨rfl, rfl⟩, q.rest hz hV (by simp) rfl⟩

end

/-- Tuning of a controller that does nothing. -/
noncomputable def noTuning : PidTuning := ⟨0, 0, 0, 0⟩

namespace Loop
variable (l : Loop)

/-- The constants of a vehicle in velocity mode, relative to the requested velocity. -/
noncomputable def cruise : Loop := { l with P := fun _ => noTuning, target := 0 }

/-- The rotors carry the vehicle and the accumulated error `c` of the vertical velocity demands that. -/
structure CruiseTrim (c w : ℝ) : Prop where
  mass : 0 < l.mass
  gravity : 0 < l.g
  tau : 0 < l.tau
  dt : 0 < l.dt
  lag : l.dt / l.tau < 2
  inertia : ∀ i, l.inertia i ≠ 0
  speed : 0 < w
  unused : (l.V 2).ki = 0 → c = 0
  demand : l.mass * (l.g + (l.V 2).ki * c) = l.g
  carry : (∑ j, l.mix 0 j) * w ^ 2 = l.g
  balance : ∀ r : Fin 3, ∑ j, l.mix r.succ j = 0
  inverse : l.mix * l.alloc = 1

/-- What the modes are judged by. -/
structure CruiseStable (w : ℝ) : Prop where
  same : l.V 1 = l.V 0
  filterV : ∀ i, (l.V i).kd = 0 ∨ (0 < (l.V i).alpha ∧ (l.V i).alpha ≤ 1)
  filterR : ∀ i, (l.R i).kd = 0 ∨ (0 < (l.R i).alpha ∧ (l.R i).alpha ≤ 1)
  forward : ∀ z : ℂ, 1 ≤ ‖z‖ → cruiseTiltChar (l.V 0) (l.R 1) (l.kr 1) (l.dt / l.tau) l.dt z ≠ 0
  left : ∀ z : ℂ, 1 ≤ ‖z‖ → cruiseTiltChar (l.V 0) (l.R 0) (l.kr 0) (l.dt / l.tau) l.dt z ≠ 0
  vertical : ∀ z : ℂ, 1 ≤ ‖z‖ → cruiseLiftChar (l.V 2) (l.dt / l.tau) l.dt z ≠ 0
  heading : ∀ z : ℂ, 1 ≤ ‖z‖ → yawChar (l.R 2) (l.kr 2) (l.dt / l.tau) (l.lag / (2 * w * l.tau)) l.dt z ≠ 0

/-- Without the position. -/
def unplaced {𝕜 : Type} [Zero 𝕜] (x : HV → 𝕜) : HV → 𝕜
  | .pos _ => 0
  | .eP _ => 0
  | k => x k

variable {l} {c : ℝ × ℝ} {w : ℝ}

lemma CruiseTrim.trim {c : ℝ} (h : l.CruiseTrim c w) : l.cruise.Trim (c, 0) w where
  mass := h.mass
  gravity := h.gravity
  tau := h.tau
  dt := h.dt
  lag := h.lag
  inertia := h.inertia
  speed := h.speed
  unused := ⟨h.unused, fun _ => rfl⟩
  steady := .inr rfl
  demand := by
    have := h.demand
    simp only [cruise, mul_zero, add_zero]
    exact this
  carry := h.carry
  balance := h.balance
  inverse := h.inverse

lemma cruise_eigen (h : l.Trim c w) (hs : l.CruiseStable w) (hP : ∀ i, l.P i = noTuning) (z : ℂ) (v : HV → ℂ)
    (hv : unplaced (l.lin Complex.ofRealHom w v) = z • v) (hz : 1 ≤ ‖z‖) : v = 0 := by
  set ρ := Complex.ofRealHom with hρ
  have hρa : ∀ a : ℝ, ρ a = (a : ℂ) := fun _ => rfl
  have hw0 : ∀ k, z * v k = unplaced (l.lin ρ w v) k := fun k => by rw [hv]; rfl
  have hz0 : z ≠ 0 := by rintro rfl; norm_num at hz
  have zero : ∀ {a : ℂ}, z * a = 0 → a = 0 := fun h => (mul_eq_zero.1 h).resolve_left hz0
  have hpos : ∀ i, v (.pos i) = 0 := fun i => zero (hw0 (.pos i))
  have heP : ∀ i, v (.eP i) = 0 := fun i => zero (hw0 (.eP i))
  have hiP : ∀ i, v (.iP i) = 0 := fun i => zero ((hw0 (.iP i)).trans (by simp [unplaced, lin, nextInt, hP, noTuning]))
  have hfP : ∀ i, v (.fP i) = 0 := fun i => zero ((hw0 (.fP i)).trans (by simp [unplaced, lin, nextFil, hP, noTuning]))
  have href : ∀ i, l.vrefL ρ v i = 0 := fun i => by simp [vrefL, respond, hP, noTuning]
  have hm : (l.mass : ℂ) ≠ 0 := by exact_mod_cast h.mass.ne'
  have hg : (l.g : ℂ) ≠ 0 := by exact_mod_cast h.gravity.ne'
  have ht : (l.tau : ℂ) ≠ 0 := by exact_mod_cast h.tau.ne'
  have hw : (w : ℂ) ≠ 0 := by exact_mod_cast h.speed.ne'
  have hI : ∀ i, (l.inertia i : ℂ) ≠ 0 := fun i => by exact_mod_cast h.inertia i
  have hdt : l.dt ≠ 0 := h.dt.ne'
  have hβ : l.dt / l.tau ≠ 0 := div_ne_zero hdt h.tau.ne'
  have hγ : l.gamma ≠ 0 := div_ne_zero h.gravity.ne' h.mass.ne'
  have hmg : (l.mass : ℂ) * l.gamma = l.g := by
    rw [gamma]; push_cast; field_simp
  -- the controllers
  have mV : ∀ i, PidMode (l.V i) l.dt z (-v (.vel i)) (v (.iV i)) (v (.fV i)) (v (.eV i)) (l.accL ρ v i) :=
    fun i => by
      have he : l.evL ρ v i = -v (.vel i) := by rw [evL, href, zero_sub]
      rw [← he]
      exact ⟨hw0 (.iV i), hw0 (.fV i), hw0 (.eV i), by rw [hw0, hw0]; rfl⟩
  have mR : ∀ i, PidMode (l.R i) l.dt z (l.ratesL ρ v i - v (.om i)) (v (.iR i)) (v (.fR i)) (v (.eR i)) (l.spinL ρ v i) :=
    fun i => ⟨hw0 (.iR i), hw0 (.fR i), hw0 (.eR i), by rw [hw0, hw0]; rfl⟩
  have hacc : ∀ r, ∑ j, (l.mix r j : ℂ) * (2 * w * l.motAccL ρ w v j) = (l.wrenchL ρ v r - l.liftL ρ w v r) / l.tau :=
    rotor_acc h v
  have hlift : ∀ r, z * l.liftL ρ w v r = l.liftL ρ w v r + (l.dt / l.tau : ℝ) * (l.wrenchL ρ v r - l.liftL ρ w v r) :=
    lift_next h z v fun j => hw0 (.mot j)
  -- vertical motion
  have w0 : l.wrenchL ρ v 0 = l.mass * l.accL ρ v 2 := rfl
  have w1 : l.wrenchL ρ v 1 = l.inertia 0 * l.spinL ρ v 0 := rfl
  have w2 : l.wrenchL ρ v 2 = l.inertia 1 * l.spinL ρ v 1 := rfl
  have w3 : l.wrenchL ρ v 3 = l.inertia 2 * l.spinL ρ v 2 := rfl
  have V := cruise_lift_mode (η := l.liftL ρ w v 0 / l.mass) hz hdt hβ (hs.filterV 2) (hs.vertical z hz)
    (mV 2) (by rw [hw0]; rfl) (by
      have := hlift 0
      rw [w0] at this
      field_simp
      linear_combination this)
  -- heading
  have Y := yaw_mode (η := l.liftL ρ w v 3 / l.inertia 2) (θ := 2 * v (.ori 3)) (ω := v (.om 2)) hz hdt hβ h.lag
    (div_pos h.dt h.tau) (hs.filterR 2) (hs.heading z hz)
    (by
      have := mR 2
      have e : l.ratesL ρ v 2 = l.kr 2 * -(2 * v (.ori 3)) := by
        show -(ρ (l.kr 2) * (2 * v (.ori 3))) = _
        rw [hρa]; ring
      rwa [e] at this)
    (by
      have : z * v (.ori 3) = l.lin ρ w v (.ori 3) := hw0 (.ori 3)
      have e : l.lin ρ w v (.ori 3) = v (.ori 3) + l.dt / 2 * v (.om 2) := rfl
      rw [e] at this
      linear_combination 2 * this)
    (by
      have := hacc 3
      rw [hw0]
      show v (.om 2) + (l.dt : ℂ) * ((l.liftL ρ w v 3 + (l.lag : ℂ) * ∑ j, (l.mix 3 j : ℂ) * l.motAccL ρ w v j) /
        l.inertia 2) = _
      have e : ∑ j, (l.mix 3 j : ℂ) * l.motAccL ρ w v j = (l.wrenchL ρ v 3 - l.liftL ρ w v 3) / l.tau / (2 * w) := by
        rw [← this, Finset.sum_div]
        exact Finset.sum_congr rfl fun j _ => by field_simp
      rw [e, w3]
      have := hI 2
      push_cast
      field_simp)
    (by
      have h3 := hlift 3
      rw [w3] at h3
      have := hI 2
      field_simp
      linear_combination h3)
  -- tilting
  have cs : (Real.cos l.psi : ℂ) ^ 2 + (Real.sin l.psi : ℂ) ^ 2 = 1 := by
    exact_mod_cast Real.cos_sq_add_sin_sq l.psi
  have v0 : z * v (.vel 0) = v (.vel 0) + l.dt * (l.gamma * (Real.cos l.psi * (2 * v (.ori 2)) +
      Real.sin l.psi * (2 * v (.ori 1)))) := by
    rw [hw0]
    show v (.vel 0) + (l.dt : ℂ) * (((Real.cos l.psi : ℂ) * (l.g * (2 * v (.ori 2))) + (Real.sin l.psi : ℂ) * (l.g *
      (2 * v (.ori 1)))) / l.mass) = _
    rw [← hmg]; field_simp
  have v1 : z * v (.vel 1) = v (.vel 1) + l.dt * (l.gamma * (Real.sin l.psi * (2 * v (.ori 2)) -
      Real.cos l.psi * (2 * v (.ori 1)))) := by
    rw [hw0]
    show v (.vel 1) + (l.dt : ℂ) * (((Real.sin l.psi : ℂ) * (l.g * (2 * v (.ori 2))) - (Real.cos l.psi : ℂ) * (l.g *
      (2 * v (.ori 1)))) / l.mass) = _
    rw [← hmg]; field_simp
  have q1 : z * v (.ori 1) = v (.ori 1) + l.dt / 2 * v (.om 0) := hw0 (.ori 1)
  have q2 : z * v (.ori 2) = v (.ori 2) + l.dt / 2 * v (.om 1) := hw0 (.ori 2)
  have o0 : z * v (.om 0) = v (.om 0) + l.dt * (l.liftL ρ w v 1 / l.inertia 0) := by
    rw [hw0]
    show v (.om 0) + (l.dt : ℂ) * ((l.liftL ρ w v 1 + 0) / l.inertia 0) = _
    rw [add_zero]
  have o1 : z * v (.om 1) = v (.om 1) + l.dt * (l.liftL ρ w v 2 / l.inertia 1) := by
    rw [hw0]
    show v (.om 1) + (l.dt : ℂ) * ((l.liftL ρ w v 2 + 0) / l.inertia 1) = _
    rw [add_zero]
  have V1 := mV 1
  rw [hs.same] at V1
  have F := cruise_tilt_mode
    (v := Real.cos l.psi * v (.vel 0) + Real.sin l.psi * v (.vel 1)) (θ := 2 * v (.ori 2)) (ω := v (.om 1))
    (η := l.liftL ρ w v 2 / l.inertia 1) hz hdt hγ hβ (hs.filterV 0) (hs.filterR 1) (hs.forward z hz)
    (by
      have := (mV 0).comb V1 (Real.cos l.psi) (Real.sin l.psi)
      have e : (Real.cos l.psi : ℂ) * -v (.vel 0) + Real.sin l.psi * -v (.vel 1) =
        -(Real.cos l.psi * v (.vel 0) + Real.sin l.psi * v (.vel 1)) := by ring
      rwa [e] at this)
    (mR 1)
    (by linear_combination Real.cos l.psi * v0 + Real.sin l.psi * v1 + l.dt * l.gamma * (2 * v (.ori 2)) * cs)
    (by linear_combination 2 * q2)
    o1
    (by
      have := hI 1
      have h2 := hlift 2
      rw [w2] at h2
      field_simp
      linear_combination h2)
  have G := cruise_tilt_mode
    (v := Real.cos l.psi * v (.vel 1) + -Real.sin l.psi * v (.vel 0)) (θ := -(2 * v (.ori 1))) (ω := -v (.om 0))
    (η := -(l.liftL ρ w v 1 / l.inertia 0)) hz hdt hγ hβ (hs.filterV 0) (hs.filterR 0) (hs.left z hz)
    (by
      have := V1.comb (mV 0) (Real.cos l.psi) (-Real.sin l.psi)
      have e : (Real.cos l.psi : ℂ) * -v (.vel 1) + -Real.sin l.psi * -v (.vel 0) =
        -(Real.cos l.psi * v (.vel 1) + -Real.sin l.psi * v (.vel 0)) := by ring
      rwa [e] at this)
    (by
      have := (mR 0).neg
      have e : -(l.ratesL ρ v 0 - v (.om 0)) = l.kr 0 * ((Real.cos l.psi * l.accL ρ v 1 + -Real.sin l.psi * l.accL ρ v 0) /
          l.gamma - -(2 * v (.ori 1))) - -v (.om 0) := by
        show -(-((l.kr 0 : ℂ) * ((Real.cos l.psi * l.accL ρ v 1 - Real.sin l.psi * l.accL ρ v 0) / l.gamma +
          2 * v (.ori 1))) - v (.om 0)) = _
        ring
      rwa [e] at this)
    (by linear_combination Real.cos l.psi * v1 - Real.sin l.psi * v0 - l.dt * l.gamma * (2 * v (.ori 1)) * cs)
    (by linear_combination -2 * q1)
    (by linear_combination -o0)
    (by
      have := hI 0
      have h1 := hlift 1
      rw [w1] at h1
      field_simp
      linear_combination -h1)
  obtain ⟨⟨V2, V3⟩, V7, V8, V9⟩ := V
  obtain ⟨⟨Y1, Y2, Y3⟩, Y4, Y5, Y6⟩ := Y
  obtain ⟨⟨F2, F3, F4, F5⟩, ⟨F9, F10, F11⟩, F12, F13, F14⟩ := F
  obtain ⟨⟨G2, G3, G4, G5⟩, ⟨G9, G10, G11⟩, G12, G13, G14⟩ := G
  have un : ∀ {a b : ℂ}, Real.cos l.psi * a + Real.sin l.psi * b = 0 → Real.cos l.psi * b + -Real.sin l.psi * a = 0 →
      a = 0 ∧ b = 0 := fun {a b} h1 h2 =>
    ⟨by linear_combination Real.cos l.psi * h1 - Real.sin l.psi * h2 - a * cs,
      by linear_combination Real.sin l.psi * h1 + Real.cos l.psi * h2 - b * cs⟩
  have L : ∀ r, l.liftL ρ w v r = 0 := by
    intro r
    fin_cases r
    · exact (div_eq_zero_iff.1 V3).resolve_right hm
    · exact (div_eq_zero_iff.1 (neg_eq_zero.1 G5)).resolve_right (hI 0)
    · exact (div_eq_zero_iff.1 F5).resolve_right (hI 1)
    · exact (div_eq_zero_iff.1 Y3).resolve_right (hI 2)
  have hmot := still_rotors h v L
  have two : ∀ {a : ℂ}, 2 * a = 0 → a = 0 := fun h => (mul_eq_zero.1 h).resolve_left two_ne_zero
  funext k
  show v k = 0
  cases k with
  | pos i => exact hpos i
  | vel i => fin_cases i; exacts [(un F2 G2).1, (un F2 G2).2, V2]
  | ori i =>
    fin_cases i
    · exact zero (hw0 (.ori 0))
    · exact two (neg_eq_zero.1 G3)
    · exact two F3
    · exact two Y1
  | om i => fin_cases i; exacts [neg_eq_zero.1 G4, F4, Y2]
  | mot j => exact hmot j
  | iP i => exact hiP i
  | fP i => exact hfP i
  | eP i => exact heP i
  | iV i => fin_cases i; exacts [(un F9 G9).1, (un F9 G9).2, V7]
  | fV i => fin_cases i; exacts [(un F10 G10).1, (un F10 G10).2, V8]
  | eV i => fin_cases i; exacts [(un F11 G11).1, (un F11 G11).2, V9]
  | iR i => fin_cases i; exacts [neg_eq_zero.1 G12, F12, Y4]
  | fR i => fin_cases i; exacts [neg_eq_zero.1 G13, F13, Y5]
  | eR i => fin_cases i; exacts [neg_eq_zero.1 G14, F14, Y6]

/-- The cycle without the position. -/
noncomputable def cruiseMap (l : Loop) (x : HV → ℝ) : HV → ℝ := unplaced (l.cruise.map x)

lemma unplaced_norm (x : HV → ℝ) : ‖unplaced x‖ ≤ ‖x‖ := by
  rw [pi_norm_le_iff_of_nonneg (norm_nonneg _)]
  intro k
  cases k <;> first | exact norm_le_pi_norm x _ | simp [unplaced]

lemma unplaced_rest (c w : ℝ) : unplaced (l.cruise.rest (c, 0) w) = l.cruise.rest (c, 0) w := by
  funext k
  cases k <;> simp [unplaced, rest, cruise]

lemma unplaced_add {𝕜 : Type} [Field 𝕜] (x y : HV → 𝕜) : unplaced (x + y) = unplaced x + unplaced y := by
  funext k
  cases k <;> simp [unplaced]

lemma unplaced_smul {𝕜 : Type} [Field 𝕜] (a : 𝕜) (x : HV → 𝕜) : unplaced (a • x) = a • unplaced x := by
  funext k
  cases k <;> simp [unplaced]

/-- The cycle without the position contracts near the trimmed flight in the long run. -/
lemma cruise_linearised {c : ℝ} (h : l.CruiseTrim c w) (hs : l.CruiseStable w) : ∃ L : (HV → ℝ) →L[ℝ] (HV → ℝ),
    HasFDerivAt l.cruiseMap L (l.cruise.rest (c, 0) w) ∧ l.cruiseMap (l.cruise.rest (c, 0) w) = l.cruise.rest (c, 0) w ∧
      Tendsto (fun n => L ^ n) atTop (𝓝 0) := by
  obtain ⟨L, hL, e⟩ := hasFDerivAt h.trim
  let U : (HV → ℝ) →L[ℝ] (HV → ℝ) := LinearMap.mkContinuous ⟨⟨unplaced, unplaced_add⟩, unplaced_smul⟩ 1
    fun x => by rw [one_mul]; exact unplaced_norm x
  have hU : ∀ x, U x = unplaced x := fun _ => rfl
  refine ⟨U.comp L, U.hasFDerivAt.comp _ hL, ?_, ?_⟩
  · rw [cruiseMap, fixed h.trim, unplaced_rest]
  · refine pow_tendsto_of_eigen (U.comp L) (fun v => unplaced (l.cruise.lin Complex.ofRealHom w v)) (fun x y => ?_)
      (fun z x => ?_) (fun x k => ?_) fun z v hv hz => ?_
    · simp only [lin_add, unplaced_add]
    · simp only [lin_smul, unplaced_smul]
    · have this : ∀ k, l.cruise.lin Complex.ofRealHom w (fun j => (x j : ℂ)) k = (L x k : ℂ) := fun k =>
        (l.cruise.lin_map Complex.ofRealHom w x k).trans (congrArg Complex.ofRealHom (e x k).symm)
      rw [ContinuousLinearMap.comp_apply, hU]
      cases k with
      | pos i => exact Complex.ofReal_zero.symm
      | eP i => exact Complex.ofReal_zero.symm
      | vel i => exact this (.vel i)
      | ori i => exact this (.ori i)
      | om i => exact this (.om i)
      | mot i => exact this (.mot i)
      | iP i => exact this (.iP i)
      | fP i => exact this (.fP i)
      | iV i => exact this (.iV i)
      | fV i => exact this (.fV i)
      | eV i => exact this (.eV i)
      | iR i => exact this (.iR i)
      | fR i => exact this (.fR i)
      | eR i => exact this (.eR i)
    · have hs' : l.cruise.CruiseStable w := ⟨hs.same, hs.filterV, hs.filterR, hs.forward, hs.left, hs.vertical, hs.heading⟩
      exact cruise_eigen h.trim hs' (fun _ => rfl) z v hv hz

end Loop

end Verif.Stability

namespace Verif.Props

open Spec Stability

def cruiseTilt : List ℤ := [36955129852000000, -351967421400526000, 1435513355216671114, -3291481850589845405,
  4656712686871700300, -4172926914950000000, 2317195015000000000, -730000000000000000, 100000000000000000]

def cruiseLift : List ℤ := [-9505000, 29005001, -29500000, 10000000]

/-- With the shipped gains, time step and rotors, horizontal motion in velocity mode is stable. -/
lemma cruiseTilt_stable (z : ℂ) (hz : 1 ≤ ‖z‖) : cruiseTiltChar shippedVel shippedRate 20 (1 / 20) (1 / 1000) z ≠ 0 := by
  have h := no_root_of_jury (n := 9) (a := cruiseTilt) (by decide +kernel) hz
  have e : polyVal cruiseTilt z = 100000000000000000 *
      cruiseTiltChar shippedVel shippedRate 20 (1 / 20) (1 / 1000) z := by
    simp only [cruiseTilt, polyVal_cons, polyVal_nil, cruiseTiltChar, PidTuning.den, PidTuning.num, PidTuning.intDen,
      PidTuning.filDen, shippedVel, shippedRate]
    norm_num
    ring
  rw [e] at h
  exact right_ne_zero_of_mul h

/-- With the shipped gains, time step and rotors, vertical motion in velocity mode is stable. -/
lemma cruiseLift_stable (z : ℂ) (hz : 1 ≤ ‖z‖) : cruiseLiftChar shippedVelZ (1 / 20) (1 / 1000) z ≠ 0 := by
  have h := no_root_of_jury (n := 4) (a := cruiseLift) (by decide +kernel) hz
  have e : polyVal cruiseLift z = 10000000 * cruiseLiftChar shippedVelZ (1 / 20) (1 / 1000) z := by
    simp only [cruiseLift, polyVal_cons, polyVal_nil, cruiseLiftChar, PidTuning.den, PidTuning.num, PidTuning.intDen,
      PidTuning.filDen, shippedVelZ]
    norm_num
    ring
  rw [e] at h
  exact right_ne_zero_of_mul h

end Verif.Props
