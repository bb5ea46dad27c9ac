import Mathlib.Analysis.Complex.Basic
import Mathlib.Tactic.LinearCombination
import Mathlib.Tactic.FieldSimp
import Mathlib.Tactic.Linarith

/-!
# Modes of a hovering vehicle

The equations which an eigenvector of the linearised control cycle satisfies, axis by axis, and the characteristic functions
of the axes in terms of the loops.
-/

namespace Verif.Spec

/-- Tuning of one axis of a PID: gains and coefficient of the derivative filter. -/
structure PidTuning where
  kp : ℝ
  ki : ℝ
  kd : ℝ
  alpha : ℝ

/-- Denominator of the integral part of the transfer function. -/
noncomputable def PidTuning.intDen (k : PidTuning) (z : ℂ) : ℂ := if k.ki = 0 then 1 else z - 1

/-- Denominator of the derivative part of the transfer function. -/
noncomputable def PidTuning.filDen (k : PidTuning) (z : ℂ) : ℂ := if k.kd = 0 then 1 else z - 1 + k.alpha

/-- Denominator of the transfer function of a sampled PID. -/
noncomputable def PidTuning.den (k : PidTuning) (z : ℂ) : ℂ := k.intDen z * k.filDen z

/-- Numerator of the transfer function of a sampled PID:
`kp + ki dt z / (z - 1) + kd alpha (z - 1) / (dt (z - 1 + alpha))`. -/
noncomputable def PidTuning.num (k : PidTuning) (dt : ℝ) (z : ℂ) : ℂ :=
  k.kp * k.den z + k.ki * dt * z * k.filDen z + k.kd * k.alpha * ((z - 1) / dt) * k.intDen z

/-- Characteristic function of horizontal motion: position, velocity and rate loops with tunings `P`, `V`, `R`, attitude gain
`kr`, rotors with lag ratio `β`. -/
noncomputable def tiltChar (P V R : PidTuning) (kr β dt : ℝ) (z : ℂ) : ℂ :=
  P.den z * V.den z * R.den z * (z - 1) ^ 4 * (z - 1 + β) +
    β * R.num dt z * (dt * P.den z * V.den z * (z - 1) ^ 2 * (z - 1 + kr * dt) +
      kr * dt ^ 3 * V.num dt z * (P.den z * (z - 1) + dt * P.num dt z))

/-- Characteristic function of vertical motion. -/
noncomputable def liftChar (P V : PidTuning) (β dt : ℝ) (z : ℂ) : ℂ :=
  P.den z * V.den z * (z - 1) ^ 2 * (z - 1 + β) +
    β * dt * V.num dt z * (P.den z * (z - 1) + dt * P.num dt z)

/-- Characteristic function of the heading; `ρ` is the part of a change of torque which the acceleration of the rotors
produces at once. -/
noncomputable def yawChar (R : PidTuning) (kr β ρ dt : ℝ) (z : ℂ) : ℂ :=
  R.den z * (z - 1) ^ 2 * (z - 1 + β) + dt * R.num dt z * (β + ρ * (z - 1)) * (z - 1 + kr * dt)

end Verif.Spec

namespace Verif.Stability

open Verif.Spec

/-- The memory of a PID axis in a mode with eigenvalue `z`: error `e`, accumulated error `I`, filtered derivative `f`, last
error `E`, output `o`. -/
structure PidMode (k : PidTuning) (dt : ℝ) (z e I f E o : ℂ) : Prop where
  int : z * I = if k.ki = 0 then 0 else I + e * dt
  fil : z * f = if k.kd = 0 then 0 else k.alpha * ((e - E) / dt) + (1 - k.alpha) * f
  err : z * E = e
  out : o = k.kp * e + k.ki * (z * I) + k.kd * (z * f)

namespace PidMode
variable {k : PidTuning} {dt : ℝ} {z e I f E o : ℂ}

lemma neg (h : PidMode k dt z e I f E o) : PidMode k dt z (-e) (-I) (-f) (-E) (-o) where
  int := by have := h.int; split_ifs at this ⊢ with c <;> linear_combination -this
  fil := by have := h.fil; split_ifs at this ⊢ with c <;> linear_combination -this
  err := by linear_combination -h.err
  out := by linear_combination -h.out

lemma comb {e' I' f' E' o' : ℂ} (h : PidMode k dt z e I f E o) (h' : PidMode k dt z e' I' f' E' o') (a b : ℂ) :
    PidMode k dt z (a * e + b * e') (a * I + b * I') (a * f + b * f') (a * E + b * E') (a * o + b * o') where
  int := by
    have h1 := h.int
    have h2 := h'.int
    split_ifs at h1 h2 ⊢ with c <;> linear_combination a * h1 + b * h2
  fil := by
    have h1 := h.fil
    have h2 := h'.fil
    split_ifs at h1 h2 ⊢ with c <;> linear_combination a * h1 + b * h2
  err := by linear_combination a * h.err + b * h'.err
  out := by linear_combination a * h.out + b * h'.out

lemma transfer (h : PidMode k dt z e I f E o) : k.den z * o = k.num dt z * e := by
  have h1 : k.intDen z * (k.ki * (z * I)) = k.ki * dt * z * e := by
    have := h.int
    unfold PidTuning.intDen
    split_ifs at this ⊢ with c
    · simp [c]
    · linear_combination k.ki * z * this
  have h2 : k.filDen z * (k.kd * (z * f)) = k.kd * k.alpha * ((z - 1) / dt) * e := by
    have := h.fil
    unfold PidTuning.filDen
    split_ifs at this ⊢ with c
    · simp [c]
    · linear_combination k.kd * z * this - k.kd * k.alpha / dt * h.err
  rw [h.out, PidTuning.num, PidTuning.den]
  linear_combination k.filDen z * h1 + k.intDen z * h2

lemma rest (hz : 1 ≤ ‖z‖) (hα : k.kd = 0 ∨ (0 < k.alpha ∧ k.alpha ≤ 1)) (h : PidMode k dt z e I f E o) (he : e = 0)
    (ho : o = 0) : I = 0 ∧ f = 0 ∧ E = 0 := by
  have hz0 : z ≠ 0 := by rintro rfl; norm_num at hz
  subst he ho
  have hE : E = 0 := (mul_eq_zero.1 h.err).resolve_left hz0
  subst hE
  have hf : f = 0 := by
    have := h.fil
    split_ifs at this with c
    · exact (mul_eq_zero.1 this).resolve_left hz0
    · obtain ⟨h0, h1⟩ := hα.resolve_left c
      have h2 : (z - (1 - k.alpha : ℝ)) * f = 0 := by
        push_cast
        linear_combination this
      refine (mul_eq_zero.1 h2).resolve_left fun h3 => ?_
      rw [sub_eq_zero.1 h3, Complex.norm_real, Real.norm_eq_abs, abs_of_nonneg (by linarith)] at hz
      linarith
  subst hf
  refine ⟨?_, rfl, rfl⟩
  have := h.int
  split_ifs at this with c
  · exact (mul_eq_zero.1 this).resolve_left hz0
  · have h2 : (k.ki : ℂ) * (z * I) = 0 := by have := h.out; linear_combination -this
    have h3 : (k.ki : ℂ) ≠ 0 := by exact_mod_cast c
    exact (mul_eq_zero.1 ((mul_eq_zero.1 h2).resolve_left h3)).resolve_left hz0

lemma den_eq_zero (hz : 1 ≤ ‖z‖) (hα : k.kd = 0 ∨ (0 < k.alpha ∧ k.alpha ≤ 1)) (h : k.den z = 0) : z = 1 := by
  rw [PidTuning.den, mul_eq_zero] at h
  rcases h with h | h
  · unfold PidTuning.intDen at h
    split_ifs at h
    · simp at h
    · linear_combination h
  · unfold PidTuning.filDen at h
    split_ifs at h with c
    · simp at h
    · obtain ⟨h0, h1⟩ := hα.resolve_left c
      have h2 : z = ((1 - k.alpha : ℝ) : ℂ) := by push_cast; linear_combination h
      rw [h2, Complex.norm_real, Real.norm_eq_abs, abs_of_nonneg (by linarith)] at hz
      linarith

end PidMode

variable {P V R : PidTuning} {kr β dt γ ρ : ℝ} {z : ℂ}

/-- A horizontal mode is trivial unless its eigenvalue is a root of the characteristic function. -/
lemma tilt_mode (hz : 1 ≤ ‖z‖) (hdt : dt ≠ 0) (hγ : γ ≠ 0) (hβ : β ≠ 0)
    (hP : P.kd = 0 ∨ (0 < P.alpha ∧ P.alpha ≤ 1)) (hV : V.kd = 0 ∨ (0 < V.alpha ∧ V.alpha ≤ 1))
    (hR : R.kd = 0 ∨ (0 < R.alpha ∧ R.alpha ≤ 1)) (hc : tiltChar P V R kr β dt z ≠ 0)
    {x v θ ω η IP fP EP u IV fV EV a IR fR ER α : ℂ}
    (p : PidMode P dt z (-x) IP fP EP u) (q : PidMode V dt z (u - v) IV fV EV a)
    (r : PidMode R dt z (kr * (a / γ - θ) - ω) IR fR ER α)
    (ex : z * x = x + dt * v) (ev : z * v = v + dt * (γ * θ)) (eθ : z * θ = θ + dt * ω) (eω : z * ω = ω + dt * η)
    (eη : z * η = η + β * (α - η)) :
    (x = 0 ∧ v = 0 ∧ θ = 0 ∧ ω = 0 ∧ η = 0) ∧ (IP = 0 ∧ fP = 0 ∧ EP = 0) ∧ (IV = 0 ∧ fV = 0 ∧ EV = 0) ∧
      (IR = 0 ∧ fR = 0 ∧ ER = 0) := by
  have hdt' : (dt : ℂ) ≠ 0 := by exact_mod_cast hdt
  have hγ' : (γ : ℂ) ≠ 0 := by exact_mod_cast hγ
  have hβ' : (β : ℂ) ≠ 0 := by exact_mod_cast hβ
  have tp := p.transfer
  have tq := q.transfer
  have tr := r.transfer
  set s := z - 1 with hs
  have ex' : dt * v = s * x := by rw [hs]; linear_combination -ex
  have ev' : dt * (γ * θ) = s * v := by rw [hs]; linear_combination -ev
  have eθ' : dt * ω = s * θ := by rw [hs]; linear_combination -eθ
  have eω' : dt * η = s * ω := by rw [hs]; linear_combination -eω
  have eη' : β * α = (s + β) * η := by rw [hs]; linear_combination -eη
  have ec : tiltChar P V R kr β dt z * x = 0 := by
    have ha : γ * (a / γ) = a := by field_simp
    have e1 : dt ^ 4 * γ * (β * α) = (s + β) * s ^ 4 * x := by
      rw [eη']
      linear_combination (s + β) * (dt ^ 3 * γ * eω' + s * dt ^ 2 * γ * eθ' + s ^ 2 * dt * ev' + s ^ 3 * ex')
    have e2 : dt ^ 2 * γ * θ = s ^ 2 * x := by linear_combination dt * ev' + s * ex'
    have e3 : dt ^ 3 * γ * ω = s ^ 3 * x := by linear_combination dt ^ 2 * γ * eθ' + s * e2
    unfold tiltChar
    rw [← hs]
    linear_combination (-(P.den z * V.den z * R.den z)) * e1 + β * dt ^ 4 * γ * P.den z * V.den z * tr +
      β * R.num dt z * kr * dt ^ 4 * P.den z * tq + β * R.num dt z * kr * dt ^ 4 * V.num dt z * tp
      - β * R.num dt z * kr * dt ^ 3 * V.num dt z * P.den z * ex'
      - β * R.num dt z * P.den z * V.den z * dt * e3 - β * R.num dt z * P.den z * V.den z * kr * dt ^ 2 * e2
      + β * R.num dt z * P.den z * V.den z * kr * dt ^ 4 * ha
  have x0 : x = 0 := (mul_eq_zero.1 ec).resolve_left hc
  subst x0
  have v0 : v = 0 := by
    rw [mul_zero] at ex'
    exact (mul_eq_zero.1 ex').resolve_left hdt'
  subst v0
  have θ0 : θ = 0 := by
    rw [mul_zero] at ev'
    exact (mul_eq_zero.1 ((mul_eq_zero.1 ev').resolve_left hdt')).resolve_left hγ'
  subst θ0
  have ω0 : ω = 0 := by
    rw [mul_zero] at eθ'
    exact (mul_eq_zero.1 eθ').resolve_left hdt'
  subst ω0
  have η0 : η = 0 := by
    rw [mul_zero] at eω'
    exact (mul_eq_zero.1 eω').resolve_left hdt'
  subst η0
  have α0 : α = 0 := by
    rw [mul_zero] at eη'
    exact (mul_eq_zero.1 eη').resolve_left hβ'
  subst α0
  simp only [neg_zero, mul_zero, sub_zero] at tp tq tr
  -- at `z = 1` the numerators do not vanish
  have n1 : z = 1 → R.num dt z ≠ 0 ∧ (kr : ℂ) ≠ 0 ∧ V.num dt z ≠ 0 := by
    rintro rfl
    have : tiltChar P V R kr β dt 1 = β * R.num dt 1 * (kr * dt ^ 4 * V.num dt 1 * P.num dt 1) := by
      unfold tiltChar; ring
    rw [this] at hc
    refine ⟨?_, ?_, ?_⟩ <;> intro h <;> rw [h] at hc <;> simp at hc
  have w0 : z = 1 → a = 0 := by
    intro h1
    obtain ⟨m1, m2, -⟩ := n1 h1
    have := (mul_eq_zero.1 tr.symm).resolve_left m1
    exact (div_eq_zero_iff.1 ((mul_eq_zero.1 this).resolve_left m2)).resolve_right hγ'
  have u0 : u = 0 := by
    by_cases hD : P.den z = 0
    · have h1 := PidMode.den_eq_zero hz hP hD
      rw [w0 h1, mul_zero] at tq
      exact (mul_eq_zero.1 tq.symm).resolve_left (n1 h1).2.2
    · exact (mul_eq_zero.1 tp).resolve_left hD
  subst u0
  have a0 : a = 0 := by
    by_cases hD : V.den z = 0
    · exact w0 (PidMode.den_eq_zero hz hV hD)
    · rw [mul_zero] at tq
      exact (mul_eq_zero.1 tq).resolve_left hD
  subst a0
  exact ⟨⟨rfl, rfl, rfl, rfl, rfl⟩, p.rest hz hP (by simp) rfl, q.rest hz hV (by simp) rfl, r.rest hz hR (by simp) rfl⟩

/-- The same for vertical motion. -/
lemma lift_mode (hz : 1 ≤ ‖z‖) (hdt : dt ≠ 0) (hβ : β ≠ 0)
    (hP : P.kd = 0 ∨ (0 < P.alpha ∧ P.alpha ≤ 1)) (hV : V.kd = 0 ∨ (0 < V.alpha ∧ V.alpha ≤ 1))
    (hc : liftChar P V β dt z ≠ 0) {x v η IP fP EP u IV fV EV a : ℂ}
    (p : PidMode P dt z (-x) IP fP EP u) (q : PidMode V dt z (u - v) IV fV EV a)
    (ex : z * x = x + dt * v) (ev : z * v = v + dt * η) (eη : z * η = η + β * (a - η)) :
    (x = 0 ∧ v = 0 ∧ η = 0) ∧ (IP = 0 ∧ fP = 0 ∧ EP = 0) ∧ (IV = 0 ∧ fV = 0 ∧ EV = 0) := by
  have hdt' : (dt : ℂ) ≠ 0 := by exact_mod_cast hdt
  have hβ' : (β : ℂ) ≠ 0 := by exact_mod_cast hβ
  have tp := p.transfer
  have tq := q.transfer
  set s := z - 1 with hs
  have ex' : dt * v = s * x := by rw [hs]; linear_combination -ex
  have ev' : dt * η = s * v := by rw [hs]; linear_combination -ev
  have eη' : β * a = (s + β) * η := by rw [hs]; linear_combination -eη
  have ec : liftChar P V β dt z * x = 0 := by
    have e1 : dt ^ 2 * (β * a) = (s + β) * s ^ 2 * x := by
      rw [eη']
      linear_combination (s + β) * (dt * ev' + s * ex')
    unfold liftChar
    rw [← hs]
    linear_combination (-(P.den z * V.den z)) * e1 + β * dt ^ 2 * P.den z * tq + β * dt ^ 2 * V.num dt z * tp
      - β * dt * V.num dt z * P.den z * ex'
  have x0 : x = 0 := (mul_eq_zero.1 ec).resolve_left hc
  subst x0
  have v0 : v = 0 := by
    rw [mul_zero] at ex'
    exact (mul_eq_zero.1 ex').resolve_left hdt'
  subst v0
  have η0 : η = 0 := by
    rw [mul_zero] at ev'
    exact (mul_eq_zero.1 ev').resolve_left hdt'
  subst η0
  have a0 : a = 0 := by
    rw [mul_zero] at eη'
    exact (mul_eq_zero.1 eη').resolve_left hβ'
  subst a0
  simp only [neg_zero, mul_zero, sub_zero] at tp tq
  have u0 : u = 0 := by
    by_cases hD : P.den z = 0
    · have h1 := PidMode.den_eq_zero hz hP hD
      refine (mul_eq_zero.1 tq.symm).resolve_left fun h => ?_
      subst h1
      have : liftChar P V β dt 1 = β * dt * V.num dt 1 * (dt * P.num dt 1) := by
        unfold liftChar; ring
      rw [this, h] at hc
      simp at hc
    · exact (mul_eq_zero.1 tp).resolve_left hD
  subst u0
  exact ⟨⟨rfl, rfl, rfl⟩, p.rest hz hP (by simp) rfl, q.rest hz hV (by simp) rfl⟩

/-- The same for the heading. -/
lemma yaw_mode (hz : 1 ≤ ‖z‖) (hdt : dt ≠ 0) (hβ : β ≠ 0) (hb : β < 2) (hb0 : 0 < β)
    (hR : R.kd = 0 ∨ (0 < R.alpha ∧ R.alpha ≤ 1)) (hc : yawChar R kr β ρ dt z ≠ 0)
    {θ ω η IR fR ER α : ℂ} (r : PidMode R dt z (kr * -θ - ω) IR fR ER α)
    (eθ : z * θ = θ + dt * ω) (eω : z * ω = ω + dt * (η + ρ * (α - η))) (eη : z * η = η + β * (α - η)) :
    (θ = 0 ∧ ω = 0 ∧ η = 0) ∧ (IR = 0 ∧ fR = 0 ∧ ER = 0) := by
  have hdt' : (dt : ℂ) ≠ 0 := by exact_mod_cast hdt
  have hβ' : (β : ℂ) ≠ 0 := by exact_mod_cast hβ
  have tr := r.transfer
  set s := z - 1 with hs
  have eθ' : dt * ω = s * θ := by rw [hs]; linear_combination -eθ
  have eω' : dt * (η + ρ * (α - η)) = s * ω := by rw [hs]; linear_combination -eω
  have eη' : β * α = (s + β) * η := by rw [hs]; linear_combination -eη
  have hsb : s + β ≠ 0 := by
    intro h
    have h2 : z = ((1 - β : ℝ) : ℂ) := by push_cast; rw [hs] at h; linear_combination h
    rw [h2, Complex.norm_real, Real.norm_eq_abs] at hz
    exact absurd hz (not_le.2 (abs_lt.2 ⟨by linarith, by linarith⟩))
  have ec : yawChar R kr β ρ dt z * θ = 0 := by
    have e1 : dt ^ 2 * (β + ρ * s) * α = (s + β) * s ^ 2 * θ := by
      linear_combination (s + β) * dt * eω' + (s + β) * s * eθ' + dt ^ 2 * (1 - ρ) * eη'
    unfold yawChar
    rw [← hs]
    linear_combination (-R.den z) * e1 + dt ^ 2 * (β + ρ * s) * tr - dt * (β + ρ * s) * R.num dt z * eθ'
  have θ0 : θ = 0 := (mul_eq_zero.1 ec).resolve_left hc
  subst θ0
  have ω0 : ω = 0 := by
    rw [mul_zero] at eθ'
    exact (mul_eq_zero.1 eθ').resolve_left hdt'
  subst ω0
  rw [mul_zero] at eω'
  have e2 := (mul_eq_zero.1 eω').resolve_left hdt'
  simp only [neg_zero, mul_zero, sub_zero] at tr
  have α0 : α = 0 := by
    by_cases hD : R.den z = 0
    · have h1 := PidMode.den_eq_zero hz hR hD
      have hs0 : s = 0 := by rw [hs, h1, sub_self]
      rw [hs0, zero_add] at eη'
      have h3 : α = η := mul_left_cancel₀ hβ' eη'
      rw [h3, sub_self, mul_zero, add_zero] at e2
      rw [h3, e2]
    · exact (mul_eq_zero.1 tr).resolve_left hD
  subst α0
  have η0 : η = 0 := by
    rw [mul_zero] at eη'
    exact (mul_eq_zero.1 eη'.symm).resolve_left hsb
  subst η0
  exact ⟨⟨rfl, rfl, rfl⟩, r.rest hz hR (by simp) rfl⟩

end Verif.Stability
