import Verif.Real
import Mathlib.Analysis.Calculus.FDeriv.Mul
import Mathlib.Analysis.Calculus.FDeriv.Prod
import Mathlib.Analysis.Calculus.Deriv.Inv
import Mathlib.Analysis.SpecialFunctions.Sqrt

/-!
# Values and derivatives of composite functions at a point

`Dual f x0 v d` says that `f` has the value `v` and the derivative `d` at `x0`.
-/

namespace Verif.Stability

open Filter Topology Asymptotics

variable {E : Type} [NormedAddCommGroup E] [NormedSpace ℝ E]

/-- `f` has the value `v` and the derivative `d` at `x0`. -/
def Dual (f : E → ℝ) (x0 : E) (v : ℝ) (d : E → ℝ) : Prop :=
  f x0 = v ∧ ∃ L : E →L[ℝ] ℝ, HasFDerivAt f L x0 ∧ ∀ x, L x = d x

namespace Dual
variable {f g : E → ℝ} {x0 : E} {v w : ℝ} {d e : E → ℝ}

lemma congr (h : Dual f x0 v d) (hv : v = w) (hd : ∀ x, d x = e x) : Dual f x0 w e := by
  subst hv
  obtain ⟨h1, L, h2, h3⟩ := h
  exact ⟨h1, L, h2, fun x => (h3 x).trans (hd x)⟩

lemma of_eq (h : Dual f x0 v d) (hf : ∀ x, g x = f x) : Dual g x0 v d := by
  rwa [show g = f from funext hf]

lemma continuousAt (h : Dual f x0 v d) : ContinuousAt f x0 := by
  obtain ⟨-, L, h2, -⟩ := h
  exact h2.continuousAt

lemma const (c : ℝ) : Dual (fun _ => c) x0 c fun _ => 0 := ⟨rfl, 0, hasFDerivAt_const c x0, fun _ => rfl⟩

lemma add (h : Dual f x0 v d) (k : Dual g x0 w e) : Dual (fun x => f x + g x) x0 (v + w) fun x => d x + e x := by
  obtain ⟨rfl, L, h2, h3⟩ := h
  obtain ⟨rfl, M, k2, k3⟩ := k
  exact ⟨rfl, L + M, h2.add k2, fun x => by simp [h3, k3]⟩

lemma sub (h : Dual f x0 v d) (k : Dual g x0 w e) : Dual (fun x => f x - g x) x0 (v - w) fun x => d x - e x := by
  obtain ⟨rfl, L, h2, h3⟩ := h
  obtain ⟨rfl, M, k2, k3⟩ := k
  exact ⟨rfl, L - M, h2.sub k2, fun x => by simp [h3, k3]⟩

lemma neg (h : Dual f x0 v d) : Dual (fun x => -f x) x0 (-v) fun x => -d x := by
  obtain ⟨rfl, L, h2, h3⟩ := h
  exact ⟨rfl, -L, h2.neg, fun x => by simp [h3]⟩

lemma mul (h : Dual f x0 v d) (k : Dual g x0 w e) :
    Dual (fun x => f x * g x) x0 (v * w) fun x => v * e x + d x * w := by
  obtain ⟨rfl, L, h2, h3⟩ := h
  obtain ⟨rfl, M, k2, k3⟩ := k
  exact ⟨rfl, _, h2.mul k2, fun x => by simp [h3, k3]; ring⟩

lemma const_mul (c : ℝ) (h : Dual f x0 v d) : Dual (fun x => c * f x) x0 (c * v) fun x => c * d x :=
  ((const c).mul h).congr rfl fun x => by ring

lemma mul_const (c : ℝ) (h : Dual f x0 v d) : Dual (fun x => f x * c) x0 (v * c) fun x => d x * c :=
  (h.mul (const c)).congr rfl fun x => by ring

lemma comp {φ : ℝ → ℝ} {φ' : ℝ} (h : Dual f x0 v d) (hφ : HasDerivAt φ φ' v) :
    Dual (fun x => φ (f x)) x0 (φ v) fun x => φ' * d x := by
  obtain ⟨rfl, L, h2, h3⟩ := h
  exact ⟨rfl, _, hφ.comp_hasFDerivAt x0 h2, fun x => by simp [h3]⟩

lemma div (h : Dual f x0 v d) (k : Dual g x0 w e) (hw : w ≠ 0) :
    Dual (fun x => f x / g x) x0 (v / w) fun x => (d x - v / w * e x) / w := by
  have hi := k.comp (hasDerivAt_inv hw)
  exact ((h.mul hi).of_eq fun x => div_eq_mul_inv _ _).congr (div_eq_mul_inv _ _).symm fun x => by field_simp; ring

lemma div_const (c : ℝ) (h : Dual f x0 v d) : Dual (fun x => f x / c) x0 (v / c) fun x => d x / c :=
  ((h.mul_const c⁻¹).of_eq fun _ => div_eq_mul_inv _ _).congr (div_eq_mul_inv _ _).symm fun _ =>
    (div_eq_mul_inv _ _).symm

lemma sqrt (h : Dual f x0 v d) (hv : v ≠ 0) : Dual (fun x => √(f x)) x0 (√v) fun x => d x / (2 * √v) :=
  (h.comp (Real.hasDerivAt_sqrt hv)).congr rfl fun x => by ring

lemma sum {ι : Type} (s : Finset ι) {f : ι → E → ℝ} {v : ι → ℝ} {d : ι → E → ℝ} (h : ∀ i, Dual (f i) x0 (v i) (d i)) :
    Dual (fun x => ∑ i ∈ s, f i x) x0 (∑ i ∈ s, v i) fun x => ∑ i ∈ s, d i x := by
  classical
  induction s using Finset.induction_on with
  | empty => simpa using const 0
  | insert a s ha ih =>
    simp only [Finset.sum_insert ha]
    exact (h a).add ih

/-- A product both factors of which vanish is flat, even if one of them is only continuous. -/
lemma flat {c : E → ℝ} (hc : ContinuousAt c x0) (h0 : c x0 = 0) (h : Dual f x0 0 d) :
    Dual (fun x => c x * f x) x0 0 fun _ => 0 := by
  obtain ⟨h1, L, h2, -⟩ := h
  refine ⟨by simp [h0], 0, ?_, fun _ => rfl⟩
  have hO : f =O[𝓝 x0] fun x => x - x0 := by
    have := h2.isBigO_sub
    simpa [h1] using this
  have ho : c =o[𝓝 x0] fun _ => (1 : ℝ) := by
    rw [isLittleO_one_iff]
    have : Tendsto c (𝓝 x0) (𝓝 (c x0)) := hc
    rwa [h0] at this
  have := ho.mul_isBigO hO.norm_right
  refine .of_isLittleO ?_
  simp only [h1, mul_zero, zero_apply, sub_zero]
  rw [← isLittleO_norm_right]
  simpa using this

lemma coord {ι : Type} [Fintype ι] (x0 : ι → ℝ) (i : ι) : Dual (fun x : ι → ℝ => x i) x0 (x0 i) fun x => x i :=
  ⟨rfl, ContinuousLinearMap.proj i, hasFDerivAt_apply i x0, fun _ => rfl⟩

end Dual

/-- The same for vectors. -/
def DualV {n : ℕ} (f : E → Vec n ℝ) (x0 : E) (v : Vec n ℝ) (d : E → Vec n ℝ) : Prop :=
  ∀ i, Dual (fun x => f x i) x0 (v i) fun x => d x i

namespace DualV
variable {n : ℕ} {f g : E → Vec n ℝ} {x0 : E} {v w : Vec n ℝ} {d e : E → Vec n ℝ}

lemma congr (h : DualV f x0 v d) (hv : ∀ i, v i = w i) (hd : ∀ x i, d x i = e x i) : DualV f x0 w e :=
  fun i => (h i).congr (hv i) fun x => hd x i

lemma dot (h : DualV f x0 v d) (k : DualV g x0 w e) :
    Dual (fun x => f x ⬝ᵥ g x) x0 (v ⬝ᵥ w) fun x => v ⬝ᵥ e x + d x ⬝ᵥ w := by
  have := Dual.sum Finset.univ fun i => (h i).mul (k i)
  refine this.congr rfl fun x => ?_
  simp [dotProduct, Finset.sum_add_distrib]

lemma cross {f g : E → Vec 3 ℝ} {v w : Vec 3 ℝ} {d e : E → Vec 3 ℝ} (h : DualV f x0 v d) (k : DualV g x0 w e) :
    DualV (fun x => crossProduct (f x) (g x)) x0 (crossProduct v w) fun x => crossProduct v (e x) + crossProduct (d x) w := by
  intro i
  fin_cases i <;> simp only [cross_apply]
  · exact (((h 1).mul (k 2)).sub ((h 2).mul (k 1))).congr (by simp) fun x => by simp; ring
  · exact (((h 2).mul (k 0)).sub ((h 0).mul (k 2))).congr (by simp) fun x => by simp; ring
  · exact (((h 0).mul (k 1)).sub ((h 1).mul (k 0))).congr (by simp) fun x => by simp; ring

/-- Normalisation of a vector with value `r u`, `u` of unit length: the derivative loses its part along `u`. -/
lemma normalized {r : ℝ} (h : DualV f x0 v d) (hr : 0 < r) (hw : ∀ i, v i = r * w i) (hu : w ⬝ᵥ w = 1) :
    DualV (fun x => Verif.normalized (f x)) x0 w fun x i => (d x i - w i * (w ⬝ᵥ d x)) / r := by
  have hv : v = r • w := by ext i; simp [hw]
  have hd := h.dot h
  have hvv : v ⬝ᵥ v = r ^ 2 := by rw [hv]; simp [hu]; ring
  rw [hvv] at hd
  have hs := hd.sqrt (by positivity)
  rw [Real.sqrt_sq hr.le] at hs
  intro i
  have := (h i).div hs hr.ne'
  refine (this.of_eq fun x => by simp only [normalized_real]; simp [div_eq_inv_mul]).congr ?_ fun x => ?_
  · rw [hw]; field_simp
  · rw [hv, smul_dotProduct, dotProduct_smul, dotProduct_comm (d x)]
    simp
    field_simp
    ring

end DualV

end Verif.Stability
