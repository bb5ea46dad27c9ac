import Verif.Lemmas.Approx
import Verif.Model.Simulator
import Mathlib.Analysis.InnerProductSpace.PiL2
import Mathlib.LinearAlgebra.Matrix.Adjugate

/-!
# Rounded controllers and dynamics that follow exact ones
-/

namespace Verif

open Flt Filter Topology Asymptotics

variable {ι : Type} {L : Filter ι} {A : ι → Rounding}

/-! ### Lengths -/

lemma abs_length_sub {n : ℕ} (v a : Fin n → ℝ) : |√(∑ j, v j * v j) - √(∑ j, a j * a j)| ≤ ∑ j, |v j - a j| := by
  have e : ∀ b : Fin n → ℝ, √(∑ j, b j * b j) = ‖(WithLp.toLp 2 b : EuclideanSpace ℝ (Fin n))‖ := fun b => by
    rw [EuclideanSpace.norm_eq]
    congr 1
    refine Finset.sum_congr rfl fun j _ => ?_
    simp [sq]
  rw [e, e]
  refine (abs_norm_sub_norm_le _ _).trans ?_
  rw [← WithLp.toLp_sub, EuclideanSpace.norm_eq]
  refine Real.sqrt_le_iff.2 ⟨Finset.sum_nonneg fun _ _ => abs_nonneg _, ?_⟩
  calc ∑ i, ‖(WithLp.toLp 2 (v - a) : EuclideanSpace ℝ (Fin n)) i‖ ^ 2 = ∑ i, |v i - a i| ^ 2 := by simp
    _ ≤ (∑ i, |v i - a i|) ^ 2 := Finset.sum_sq_le_sq_sum_of_nonneg fun _ _ => abs_nonneg _

lemma TrkV.norm [Fine L A] {n : ℕ} {x : ∀ i, Vec n (Fl (A i))} {a : ι → Vec n ℝ} {a0 : Vec n ℝ} (hx : TrkV L x a a0) :
    Trk L (fun i => Verif.norm (x i)) (fun i => Verif.norm (a i)) (Verif.norm a0) := by
  have hl : Tendsto (fun i => √(∑ j, a i j * a i j)) L (𝓝 √(∑ j, a0 j * a0 j)) := hx.normSq.2.sqrt
  have hv : Tendsto (fun i => √(∑ j, (x i j).val * (x i j).val)) L (𝓝 √(∑ j, a0 j * a0 j)) :=
    (tendsto_finsetSum _ fun j _ => (hx j).conv.mul (hx j).conv).sqrt
  have i2 : (fun i => √(∑ j, (x i j).val * (x i j).val) - √(∑ j, a i j * a i j)) =O[L] fun i => (A i).u := by
    have h1 : (fun i => ∑ j, |(x i j).val - a i j|) =O[L] fun i => (A i).u :=
      IsBigO.fun_sum fun j _ => (hx j).1.abs_left
    refine IsBigO.trans (IsBigO.of_bound 1 (.of_forall fun i => ?_)) h1
    rw [one_mul, Real.norm_eq_abs, Real.norm_eq_abs]
    exact (abs_length_sub _ _).trans (le_abs_self _)
  have i1 : (fun i => (A i).rnd √((A i).sum fun j => (A i).rnd ((x i j).val * (x i j).val)) -
      √(∑ j, (x i j).val * (x i j).val)) =O[L] fun i => (A i).u := by
    have hb : (fun i => (A i).u * (((1 + 1 : ℝ) ^ (1 + n + 1) - 1) / 1 * √(∑ j, (x i j).val * (x i j).val))) =O[L]
        fun i => (A i).u := isBigO_mul_u (isBigO_refl _ _) (hv.const_mul _)
    have hsm : Tendsto (fun i => (1 + (A i).u) ^ (1 + n) - 1) L (𝓝 ((1 + 0) ^ (1 + n) - 1)) :=
      ((tendsto_const_nhds.add (Fine.unit (L := L) (A := A))).pow _).sub_const 1
    refine IsBigO.trans (IsBigO.of_bound 1 ?_) hb
    filter_upwards [(Fine.unit (L := L) (A := A)).eventually_le_const zero_lt_one,
      hsm.eventually_le_const (show (1 + 0 : ℝ) ^ (1 + n) - 1 < 1 by simp)] with i hi hi'
    rw [one_mul, Real.norm_eq_abs, Real.norm_eq_abs]
    have hn : (A i).Near (1 + n) (∑ j, (x i j).val * (x i j).val)
        ((A i).sum fun j => (A i).rnd ((x i j).val * (x i j).val)) (∑ j, (x i j).val * (x i j).val) := by
      refine Rounding.Near.sum fun j => ?_
      have := (Rounding.Near.exact (A := A i) ((x i j).val * (x i j).val)).rnd
      rwa [abs_mul_self, zero_add] at this
    have h0 : 0 ≤ ∑ j, (x i j).val * (x i j).val := hn.nonneg
    have hpos : 0 ≤ (A i).sum fun j => (A i).rnd ((x i j).val * (x i j).val) := by
      have h1 := abs_le.1 hn.1
      nlinarith
    have hs := (hn.sqrt hpos).rnd
    refine hs.1.trans ((mul_le_mul_of_nonneg_right ((A i).pow_sub_le zero_lt_one hi _) (Real.sqrt_nonneg _)).trans
      (le_trans (le_of_eq ?_) (le_abs_self _)))
    ring
  refine ⟨(i1.add i2).congr_left fun i => ?_, hl⟩
  show _ = (A i).rnd √((A i).sum fun j => (A i).rnd ((x i j).val * (x i j).val)) - √(∑ j, a i j * a i j)
  ring

/-! ### Quaternions -/

namespace TrkQ
variable [Fine L A] {q r : ∀ i, Quat (Fl (A i))} {a b : ι → Quat ℝ} {a0 b0 : Quat ℝ}

omit [Fine L A] in
lemma vec (h : TrkQ L q a a0) : TrkV L (fun i => (q i).vec) (fun i => (a i).vec) a0.vec := .of3 h.2.1 h.2.2.1 h.2.2.2

omit [Fine L A] in
lemma coeffs (h : TrkQ L q a a0) : TrkV L (fun i => (q i).coeffs) (fun i => (a i).coeffs) a0.coeffs :=
  .of4 h.2.1 h.2.2.1 h.2.2.2 h.1

omit [Fine L A] in
lemma ofCoeffs {c : ∀ i, Vec 4 (Fl (A i))} {d : ι → Vec 4 ℝ} {d0 : Vec 4 ℝ} (h : TrkV L c d d0) :
    TrkQ L (fun i => Quat.ofCoeffs (c i)) (fun i => Quat.ofCoeffs (d i)) (Quat.ofCoeffs d0) := ⟨h 3, h 0, h 1, h 2⟩

lemma mul (h : TrkQ L q a a0) (h' : TrkQ L r b b0) :
    TrkQ L (fun i => (q i).mul (r i)) (fun i => (a i).mul (b i)) (a0.mul b0) := by
  obtain ⟨w, x, y, z⟩ := h
  obtain ⟨w', x', y', z'⟩ := h'
  exact ⟨(((w.mul w').sub (x.mul x')).sub (y.mul y')).sub (z.mul z'),
    (((w.mul x').add (x.mul w')).add (y.mul z')).sub (z.mul y'),
    (((w.mul y').add (y.mul w')).add (z.mul x')).sub (x.mul z'),
    (((w.mul z').add (z.mul w')).add (x.mul y')).sub (y.mul x')⟩

lemma rotate (h : TrkQ L q a a0) {v : ∀ i, Vec 3 (Fl (A i))} {c : ι → Vec 3 ℝ} {c0 : Vec 3 ℝ} (hv : TrkV L v c c0) :
    TrkV L (fun i => (q i).rotate (v i)) (fun i => (a i).rotate (c i)) (a0.rotate c0) := by
  have u1 := h.vec.cross hv
  have u2 := u1.vadd u1
  exact (hv.vadd (TrkV.smulL h.1 u2)).vadd (h.vec.cross u2)

lemma normalized (h : TrkQ L q a a0) (h0 : 0 < normSq a0.coeffs) :
    TrkQ L (fun i => (q i).normalized) (fun i => (a i).normalized) a0.normalized := ofCoeffs (h.coeffs.normalized h0)

lemma toMat (h : TrkQ L q a a0) : TrkM L (fun i => (q i).toMat) (fun i => (a i).toMat) a0.toMat := by
  obtain ⟨w, x, y, z⟩ := h
  have two := Trk.lit (L := L) (A := A) 2
  have one := Trk.lit (L := L) (A := A) 1
  have tx := two.mul x
  have ty := two.mul y
  have tz := two.mul z
  have twx := tx.mul w
  have twy := ty.mul w
  have twz := tz.mul w
  have txx := tx.mul x
  have txy := ty.mul x
  have txz := tz.mul x
  have tyy := ty.mul y
  have tyz := tz.mul y
  have tzz := tz.mul z
  intro j k
  match j, k with
  | 0, 0 => exact one.sub (tyy.add tzz)
  | 0, 1 => exact txy.sub twz
  | 0, 2 => exact txz.add twy
  | 1, 0 => exact txy.add twz
  | 1, 1 => exact one.sub (txx.add tzz)
  | 1, 2 => exact tyz.sub twx
  | 2, 0 => exact txz.sub twy
  | 2, 1 => exact tyz.add twx
  | 2, 2 => exact one.sub (txx.add tyy)

lemma derivative (h : TrkQ L q a a0) {v : ∀ i, Vec 3 (Fl (A i))} {c : ι → Vec 3 ℝ} {c0 : Vec 3 ℝ} (hv : TrkV L v c c0) :
    TrkV L (fun i => quatDerivative (q i) (v i)) (fun i => quatDerivative (a i) (c i)) (quatDerivative a0 c0) :=
  TrkV.smulL (.lit _) (h.mul ⟨.lit 0, hv 0, hv 1, hv 2⟩).coeffs

lemma integrate (h : TrkQ L q a a0) {v : ∀ i, Vec 3 (Fl (A i))} {c : ι → Vec 3 ℝ} {c0 : Vec 3 ℝ} (hv : TrkV L v c c0)
    {t : ∀ i, Fl (A i)} {d : ι → ℝ} {d0 : ℝ} (ht : Trk L t d d0)
    (h0 : 0 < normSq (Quat.ofCoeffs (vadd a0.coeffs (smulR (quatDerivative a0 c0) d0))).coeffs) :
    TrkQ L (fun i => quatIntegrate (q i) (v i) (t i)) (fun i => quatIntegrate (a i) (c i) (d i)) (quatIntegrate a0 c0 d0) :=
  (ofCoeffs (h.coeffs.vadd ((h.derivative hv).smulR ht))).normalized h0

end TrkQ

/-! ### Matrices -/

namespace TrkM
variable [Fine L A] {m n k : ℕ} {M : ∀ i, Mat m n (Fl (A i))} {N : ι → Mat m n ℝ} {N0 : Mat m n ℝ}

omit [Fine L A] in
lemma mT (h : TrkM L M N N0) : TrkM L (fun i => Verif.mT (M i)) (fun i => Verif.mT (N i)) (Verif.mT N0) := fun j k => h k j

omit [Fine L A] in
lemma mneg (h : TrkM L M N N0) : TrkM L (fun i => Verif.mneg (M i)) (fun i => Verif.mneg (N i)) (Verif.mneg N0) := fun j k =>
  (h j k).neg

lemma msub {M' : ∀ i, Mat m n (Fl (A i))} {N' : ι → Mat m n ℝ} {N0' : Mat m n ℝ} (h : TrkM L M N N0) (h' : TrkM L M' N' N0') :
    TrkM L (fun i => Verif.msub (M i) (M' i)) (fun i => Verif.msub (N i) (N' i)) (Verif.msub N0 N0') := fun j k =>
  (h j k).sub (h' j k)

lemma mm {M' : ∀ i, Mat n k (Fl (A i))} {N' : ι → Mat n k ℝ} {N0' : Mat n k ℝ} (h : TrkM L M N N0) (h' : TrkM L M' N' N0') :
    TrkM L (fun i => Verif.mm (M i) (M' i)) (fun i => Verif.mm (N i) (N' i)) (Verif.mm N0 N0') := fun j _ =>
  Trk.vsum fun l => (h j l).mul (h' l _)

lemma cof {M : ∀ i, Mat 3 3 (Fl (A i))} {N : ι → Mat 3 3 ℝ} {N0 : Mat 3 3 ℝ} (h : TrkM L M N N0) (r c : Fin 3) :
    Trk L (fun i => (⟨(A i).cof ((M i).map Fl.val) r c⟩ : Fl (A i)))
      (fun i => N i (r + 1) (c + 1) * N i (r + 2) (c + 2) - N i (r + 1) (c + 2) * N i (r + 2) (c + 1))
      (N0 (r + 1) (c + 1) * N0 (r + 2) (c + 2) - N0 (r + 1) (c + 2) * N0 (r + 2) (c + 1)) :=
  ((h _ _).mul (h _ _)).sub ((h _ _).mul (h _ _))

lemma det3_cof (N : Mat 3 3 ℝ) : N.det = ∑ k : Fin 3, (N (k + 1) 1 * N (k + 2) 2 - N (k + 1) 2 * N (k + 2) 1) * N k 0 := by
  rw [Matrix.det_fin_three, Fin.sum_univ_three]
  simp only [show (0 : Fin 3) + 1 = 1 from rfl, show (0 : Fin 3) + 2 = 2 from rfl, show (1 : Fin 3) + 1 = 2 from rfl,
    show (1 : Fin 3) + 2 = 0 from rfl, show (2 : Fin 3) + 1 = 0 from rfl, show (2 : Fin 3) + 2 = 1 from rfl]
  ring

lemma inv3_cof (N : Mat 3 3 ℝ) (r c : Fin 3) : N⁻¹ r c =
    (N (c + 1) (r + 1) * N (c + 2) (r + 2) - N (c + 1) (r + 2) * N (c + 2) (r + 1)) * (1 / N.det) := by
  rw [Matrix.inv_def, Ring.inverse_eq_inv', Matrix.smul_apply, smul_eq_mul, Matrix.adjugate_fin_three, one_div, mul_comm]
  congr 1
  fin_cases r <;> fin_cases c <;>
    simp only [Matrix.of_apply, Matrix.cons_val, Fin.zero_eta, Fin.mk_one, Fin.reduceFinMk, Matrix.cons_val_zero, Matrix.cons_val_one,
      show (0 : Fin 3) + 1 = 1 from rfl, show (0 : Fin 3) + 2 = 2 from rfl, show (1 : Fin 3) + 1 = 2 from rfl,
      show (1 : Fin 3) + 2 = 0 from rfl, show (2 : Fin 3) + 1 = 0 from rfl, show (2 : Fin 3) + 2 = 1 from rfl] <;> ring

lemma inv3 {M : ∀ i, Mat 3 3 (Fl (A i))} {N : ι → Mat 3 3 ℝ} {N0 : Mat 3 3 ℝ} (h : TrkM L M N N0) (h0 : N0.det ≠ 0) :
    TrkM L (fun i => Flt.inv3 (M i)) (fun i => Flt.inv3 (N i)) (Flt.inv3 N0) := by
  have hd : Trk L (fun i => (⟨(A i).det ((M i).map Fl.val)⟩ : Fl (A i))) (fun i => (N i).det) N0.det := by
    simp only [det3_cof]
    exact Trk.vsum (v := fun i k => ((⟨(A i).cof ((M i).map Fl.val) k 0⟩ : Fl (A i)) ⊠ M i k 0))
      (c := fun i (k : Fin 3) => (N i (k + 1) 1 * N i (k + 2) 2 - N i (k + 1) 2 * N i (k + 2) 1) * N i k 0)
      (c0 := fun k => (N0 (k + 1) 1 * N0 (k + 2) 2 - N0 (k + 1) 2 * N0 (k + 2) 1) * N0 k 0)
      fun k => (h.cof k 0).mul (h k 0)
  have h1 : Trk (A := A) L (fun i => (⟨1⟩ : Fl (A i))) (fun _ => (1 : ℝ)) 1 := .exact (fun _ => rfl) tendsto_const_nhds
  intro r c
  have := (h.cof c r).mul (h1.div hd h0)
  refine (this.congr (.of_forall fun i => rfl) (.of_forall fun i => (inv3_cof _ _ _).symm)).limit (inv3_cof _ _ _).symm

end TrkM

/-! ### Attitude control -/

section
variable [Fine L A]

lemma trk_desiredAttitude {y : ∀ i, Fl (A i)} {c : ι → ℝ} {c0 : ℝ}
    (hyc : Trk L (fun i => cos (y i)) (fun i => cos (c i)) (cos c0)) (hys : Trk L (fun i => sin (y i)) (fun i => sin (c i)) (sin c0)) {v : ∀ i, Vec 3 (Fl (A i))}
    {a : ι → Vec 3 ℝ} {a0 : Vec 3 ℝ} (hv : TrkV L v a a0) (h0 : 0 < normSq a0)
    (h1 : 0 < normSq (cross (normalized a0) ![cos c0, sin c0, lit 0]))
    (h2 : 0 < normSq (cross (normalized (cross (normalized a0) ![cos c0, sin c0, lit 0])) (normalized a0))) :
    TrkM L (fun i => Acro.desiredAttitude (y i) (v i)) (fun i => Acro.desiredAttitude (c i) (a i))
      (Acro.desiredAttitude c0 a0) := by
  have xc : TrkV L (fun i => (![cos (y i), sin (y i), lit 0] : Vec 3 (Fl (A i)))) (fun i => ![cos (c i), sin (c i), lit 0])
      ![cos c0, sin c0, lit 0] := .of3 hyc hys (.lit 0)
  have zb := hv.normalized h0
  have yb := (zb.cross xc).normalized h1
  have xb := (yb.cross zb).normalized h2
  intro j k
  match k with
  | 0 => exact xb j
  | 1 => exact yb j
  | 2 => exact zb j

lemma trk_rotationError {M M' : ∀ i, Mat 3 3 (Fl (A i))} {N N' : ι → Mat 3 3 ℝ} {N0 N0' : Mat 3 3 ℝ} (h : TrkM L M N N0)
    (h' : TrkM L M' N' N0') :
    TrkV L (fun i => Acro.rotationError (M i) (M' i)) (fun i => Acro.rotationError (N i) (N' i)) (Acro.rotationError N0 N0') := by
  have E := ((h.mT).mm h').msub ((h'.mT).mm h)
  exact TrkV.smulL (.lit _) (.of3 (E 2 1) (E 0 2) (E 1 0))

end

end Verif
