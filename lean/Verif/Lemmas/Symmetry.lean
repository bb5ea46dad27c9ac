import Verif.Spec.Symmetry
import Verif.Lemmas.DynReal
import Verif.Lemmas.Sim
import Verif.Lemmas.ToMat

/-!
# Helper lemmas about symmetries
-/

namespace Verif

open Flt Spec

variable {n : ℕ}

namespace Sim
variable [Noise ℝ]

/-- Related calls give related histories. -/
lemma trace_rel {R : Sim ℝ n → Sim ℝ n → Prop} {Ro : SimOp ℝ n → SimOp ℝ n → Prop}
    (h : ∀ s t o o', R s t → Ro o o' → Res.Rel R (s.step o) (t.step o')) {s s' : Sim ℝ n}
    {tr : List (Event ℝ n)} (ht : Trace s tr s') :
    ∀ (t : Sim ℝ n) (os : List (SimOp ℝ n)), R s t → List.Forall₂ Ro (tr.map Event.op) os →
      ∃ (tr' : List (Event ℝ n)) (t' : Sim ℝ n), Trace t tr' t' ∧ tr'.map Event.op = os ∧
        Corresponds R Ro tr tr' ∧ R s' t' := by
  induction ht with
  | nil s =>
    intro t os hr ho
    cases ho
    exact ⟨[], t, .nil _, rfl, .nil, hr⟩
  | @ok s s' u o tr hstep _ ih =>
    intro t os hr ho
    rw [List.map_cons] at ho
    cases ho with
    | cons ho1 ho2 =>
      rename_i o' os
      have := h s t o o' hr ho1
      rw [hstep] at this
      cases ht : t.step o' with
      | ok t' =>
        rw [ht] at this
        obtain ⟨tr', t'', h1, h2, h3, h4⟩ := ih t' os this ho2
        exact ⟨_, t'', .ok ht h1, by simp [h2], .cons ⟨hr, ho1, rfl⟩ h3, h4⟩
      | throw t' => rw [ht] at this; exact this.elim
      | bad => rw [ht] at this; exact this.elim
  | @throw s s' u o tr hstep _ ih =>
    intro t os hr ho
    rw [List.map_cons] at ho
    cases ho with
    | cons ho1 ho2 =>
      rename_i o' os
      have := h s t o o' hr ho1
      rw [hstep] at this
      cases ht : t.step o' with
      | throw t' =>
        rw [ht] at this
        obtain ⟨tr', t'', h1, h2, h3, h4⟩ := ih t' os this ho2
        exact ⟨_, t'', .throw ht h1, by simp [h2], .cons ⟨hr, ho1, rfl⟩ h3, h4⟩
      | ok t' => rw [ht] at this; exact this.elim
      | bad => rw [ht] at this; exact this.elim

/-- Dynamics updates of related simulators. -/
lemma updateDynamics_rel {R : Sim ℝ n → Sim ℝ n → Prop} {Rd : Dyn ℝ n → Dyn ℝ n → Prop} {s t : Sim ℝ n}
    {dt : ℝ} (hb : s.belowFloor = t.belowFloor) (hc : s.dyn.model.core = t.dyn.model.core)
    (he : s.extForce = t.extForce)
    (hp : ∀ ext, Res.Rel Rd (s.dyn.process s.actuation dt ext (!s.floorCollision))
      (t.dyn.process t.actuation dt ext (!t.floorCollision)))
    (ht : ∀ ext d e, Rd d e → R { s with extForce := ext, dyn := d } { t with extForce := ext, dyn := e })
    (hk : ∀ d e, Rd d e →
      (belowFloor { s with dyn := d } = belowFloor { t with dyn := e }) ∧
      R { s with extForce := vzero, dyn := d, floorCollision := false }
        { t with extForce := vzero, dyn := e, floorCollision := false } ∧
      R (collide { s with extForce := vzero, dyn := d, floorCollision := false })
        (collide { t with extForce := vzero, dyn := e, floorCollision := false })) :
    Res.Rel R (s.updateDynamics dt) (t.updateDynamics dt) := by
  unfold updateDynamics
  rw [hb, hc, he]
  simp only []
  generalize (if t.belowFloor = true then _ else _ : Option (Vec 3 ℝ)) = e
  cases e with
  | none => trivial
  | some ext =>
    simp only []
    have := hp ext
    cases h1 : s.dyn.process s.actuation dt ext (!s.floorCollision) <;>
      cases h2 : t.dyn.process t.actuation dt ext (!t.floorCollision) <;> rw [h1, h2] at this <;>
      try exact this.elim
    · rename_i d e
      obtain ⟨k1, k2, k3⟩ := hk d e this
      simp only []
      have e1 : belowFloor { s with extForce := vzero, dyn := d, floorCollision := false } =
        belowFloor { t with extForce := vzero, dyn := e, floorCollision := false } := k1
      rw [e1]
      split
      · exact k3
      · exact k2
    · exact ht _ _ _ this
    · trivial

end Sim

/-! ## Opposite quaternions -/


namespace Quat

/-- Opposite quaternion. -/
noncomputable def opp (q : Quat ℝ) : Quat ℝ := ⟨-q.w, -q.x, -q.y, -q.z⟩

lemma opp_coeffs (q : Quat ℝ) : q.opp.coeffs = -q.coeffs := by
  ext i; fin_cases i <;> simp [opp, coeffs]

lemma rotate_opp (q : Quat ℝ) (v : Vec 3 ℝ) : q.opp.rotate v = q.rotate v := by
  rw [← toMat_mulVec, ← toMat_mulVec]
  congr 1
  rw [toMat_real, toMat_real]; simp [opp]

lemma toMat_opp (q : Quat ℝ) : q.opp.toMat = q.toMat := by
  rw [toMat_real, toMat_real]; simp [opp]

lemma ofCoeffs_neg (c : Vec 4 ℝ) : ofCoeffs (-c) = (ofCoeffs c).opp := rfl

lemma normalized_opp (q : Quat ℝ) : q.opp.normalized = q.normalized.opp := by
  unfold normalized
  rw [opp_coeffs, normalized_real, normalized_real, neg_dotProduct_neg, smul_neg, ofCoeffs_neg]

lemma inverse_opp (q : Quat ℝ) : q.opp.inverse = q.inverse.opp := by
  unfold inverse
  rw [opp_coeffs]
  simp only [flt, neg_dotProduct_neg]
  split <;> simp [opp, neg_div]

lemma derivative_opp (q : Quat ℝ) (om : Vec 3 ℝ) : quatDerivative q.opp om = -quatDerivative q om := by
  ext i
  fin_cases i <;> simp [quatDerivative, opp, mul, coeffs, flt] <;> ring

lemma integrate_opp (q : Quat ℝ) (om : Vec 3 ℝ) (dt : ℝ) :
    (ofCoeffs (vadd q.opp.coeffs (smulR (quatDerivative q.opp om) dt))).normalized =
      (ofCoeffs (vadd q.coeffs (smulR (quatDerivative q om) dt))).normalized.opp := by
  rw [derivative_opp, opp_coeffs]
  simp only [flt]
  rw [smul_neg, ← neg_add, ofCoeffs_neg, normalized_opp]

lemma toEuler_opp (q : Quat ℝ) : quatToEuler q.opp = quatToEuler q := by
  unfold quatToEuler
  rw [normalized_opp]
  simp [opp, flt]

end Quat

namespace Spec.SameOri

variable {p q : Quat ℝ}

lemma cases_opp (h : SameOri p q) : q = p ∨ q = p.opp := h
lemma refl (p : Quat ℝ) : SameOri p p := .inl rfl
lemma opp (p : Quat ℝ) : SameOri p p.opp := .inr rfl
lemma rotate (h : SameOri p q) (v : Vec 3 ℝ) : q.rotate v = p.rotate v := by
  rcases h.cases_opp with rfl | rfl
  · rfl
  · exact p.rotate_opp v
lemma toMat (h : SameOri p q) : q.toMat = p.toMat := by
  rcases h.cases_opp with rfl | rfl
  · rfl
  · exact p.toMat_opp
lemma euler (h : SameOri p q) : quatToEuler q = quatToEuler p := by
  rcases h.cases_opp with rfl | rfl
  · rfl
  · exact p.toEuler_opp
lemma inverse (h : SameOri p q) : SameOri p.inverse q.inverse := by
  rcases h.cases_opp with rfl | rfl
  · exact refl _
  · rw [p.inverse_opp]; exact opp _
lemma integrate (h : SameOri p q) (om : Vec 3 ℝ) (dt : ℝ) :
    SameOri (Quat.ofCoeffs (vadd p.coeffs (smulR (quatDerivative p om) dt))).normalized
      (Quat.ofCoeffs (vadd q.coeffs (smulR (quatDerivative q om) dt))).normalized := by
  rcases h.cases_opp with rfl | rfl
  · exact refl _
  · rw [p.integrate_opp]; exact opp _

end Spec.SameOri

end Verif
