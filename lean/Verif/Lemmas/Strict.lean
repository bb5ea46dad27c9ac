import Verif.Lemmas.Resist
import Mathlib.Analysis.Calculus.FDeriv.Mul
import Mathlib.Analysis.Calculus.FDeriv.Add
import Mathlib.Analysis.Calculus.FDeriv.Prod
import Mathlib.Analysis.SpecialFunctions.Sqrt

/-!
# Strict derivatives of composite functions, and families of maps with stable fixed points

`Strict f x0 v d` says that `f` has the value `v` and the strict derivative `d` at `x0`.
-/

namespace Verif.Stability

open Filter Topology Asymptotics

variable {E : Type} [NormedAddCommGroup E] [NormedSpace ℝ E]

/-- `f` has the value `v` and the strict derivative `d` at `x0`. -/
def Strict (f : E → ℝ) (x0 : E) (v : ℝ) (d : E → ℝ) : Prop :=
  f x0 = v ∧ ∃ L : E →L[ℝ] ℝ, HasStrictFDerivAt f L x0 ∧ ∀ x, L x = d x

namespace Strict
variable {f g : E → ℝ} {x0 : E} {v w : ℝ} {d e : E → ℝ}

lemma congr (h : Strict f x0 v d) (hv : v = w) (hd : ∀ x, d x = e x) : Strict f x0 w e := by
  subst hv
  obtain ⟨h1, L, h2, h3⟩ := h
  exact ⟨h1, L, h2, fun x => (h3 x).trans (hd x)⟩

lemma of_eq (h : Strict f x0 v d) (hf : ∀ x, g x = f x) : Strict g x0 v d := by
  rwa [show g = f from funext hf]

lemma continuousAt (h : Strict f x0 v d) : ContinuousAt f x0 := by
  obtain ⟨-, L, h2, -⟩ := h
  exact h2.continuousAt

lemma const (c : ℝ) : Strict (fun _ => c) x0 c fun _ => 0 := ⟨rfl, 0, hasStrictFDerivAt_const c x0, fun _ => rfl⟩

/-- Linear functions. -/
lemma linear (L : E →L[ℝ] ℝ) : Strict (fun x => L x) x0 (L x0) fun x => L x := ⟨rfl, L, L.hasStrictFDerivAt, fun _ => rfl⟩

lemma add (h : Strict f x0 v d) (k : Strict g x0 w e) : Strict (fun x => f x + g x) x0 (v + w) fun x => d x + e x := by
  obtain ⟨rfl, L, h2, h3⟩ := h
  obtain ⟨rfl, M, k2, k3⟩ := k
  exact ⟨rfl, L + M, h2.add k2, fun x => by simp [h3, k3]⟩

lemma sub (h : Strict f x0 v d) (k : Strict g x0 w e) : Strict (fun x => f x - g x) x0 (v - w) fun x => d x - e x := by
  obtain ⟨rfl, L, h2, h3⟩ := h
  obtain ⟨rfl, M, k2, k3⟩ := k
  exact ⟨rfl, L - M, h2.sub k2, fun x => by simp [h3, k3]⟩

lemma mul (h : Strict f x0 v d) (k : Strict g x0 w e) :
    Strict (fun x => f x * g x) x0 (v * w) fun x => v * e x + d x * w := by
  obtain ⟨rfl, L, h2, h3⟩ := h
  obtain ⟨rfl, M, k2, k3⟩ := k
  exact ⟨rfl, _, h2.mul k2, fun x => by simp [h3, k3]; ring⟩

lemma const_mul (c : ℝ) (h : Strict f x0 v d) : Strict (fun x => c * f x) x0 (c * v) fun x => c * d x :=
  ((const c).mul h).congr rfl fun x => by ring

lemma mul_const (c : ℝ) (h : Strict f x0 v d) : Strict (fun x => f x * c) x0 (v * c) fun x => d x * c :=
  (h.mul (const c)).congr rfl fun x => by ring

lemma div_const (c : ℝ) (h : Strict f x0 v d) : Strict (fun x => f x / c) x0 (v / c) fun x => d x / c :=
  ((h.mul_const c⁻¹).of_eq fun _ => div_eq_mul_inv _ _).congr (div_eq_mul_inv _ _).symm fun _ =>
    (div_eq_mul_inv _ _).symm

lemma comp {φ : ℝ → ℝ} {φ' : ℝ} (h : Strict f x0 v d) (hφ : HasStrictDerivAt φ φ' v) :
    Strict (fun x => φ (f x)) x0 (φ v) fun x => φ' * d x := by
  obtain ⟨rfl, L, h2, h3⟩ := h
  exact ⟨rfl, _, hφ.comp_hasStrictFDerivAt x0 h2, fun x => by simp [h3]⟩

lemma sum {ι : Type} (s : Finset ι) {f : ι → E → ℝ} {v : ι → ℝ} {d : ι → E → ℝ} (h : ∀ i, Strict (f i) x0 (v i) (d i)) :
    Strict (fun x => ∑ i ∈ s, f i x) x0 (∑ i ∈ s, v i) fun x => ∑ i ∈ s, d i x := by
  classical
  induction s using Finset.induction_on with
  | empty => simpa using const 0
  | insert i s hi ih =>
    simp only [Finset.sum_insert hi]
    exact (h i).add ih

/-- The product of a length and a function that both vanish. -/
lemma flat {F : Type} [NormedAddCommGroup F] [NormedSpace ℝ F] (A : E →L[ℝ] F) (hA : A x0 = 0) (h : Strict g x0 0 d) :
    Strict (fun x => ‖A x‖ * g x) x0 0 fun _ => 0 := by
  obtain ⟨h1, L, h2, -⟩ := h
  refine ⟨by simp [hA], 0, ?_, fun _ => rfl⟩
  rw [hasStrictFDerivAt_iff_isLittleO]
  have hO : (fun p : E × E => g p.1 - g p.2) =O[𝓝 (x0, x0)] fun p => p.1 - p.2 := h2.isBigO_sub
  have c1 : (fun p : E × E => ‖A p.1‖) =o[𝓝 (x0, x0)] fun _ => (1 : ℝ) := by
    rw [isLittleO_one_iff]
    have : ContinuousAt (fun p : E × E => ‖A p.1‖) (x0, x0) := by fun_prop
    simpa [ContinuousAt, hA] using this
  have c2 : (fun p : E × E => g p.2) =o[𝓝 (x0, x0)] fun _ => (1 : ℝ) := by
    rw [isLittleO_one_iff]
    have : ContinuousAt (fun p : E × E => g p.2) (x0, x0) :=
      ContinuousAt.comp (f := fun p : E × E => p.2) h2.continuousAt continuousAt_snd
    simpa [ContinuousAt, h1] using this
  have c3 : (fun p : E × E => ‖A p.1‖ - ‖A p.2‖) =O[𝓝 (x0, x0)] fun p => p.1 - p.2 := by
    refine IsBigO.of_bound ‖A‖ (Eventually.of_forall fun p => ?_)
    rw [Real.norm_eq_abs]
    refine (abs_norm_sub_norm_le _ _).trans ?_
    rw [← map_sub]
    exact A.le_opNorm _
  have e1 : (fun p : E × E => ‖A p.1‖ * (g p.1 - g p.2)) =o[𝓝 (x0, x0)] fun p => p.1 - p.2 := by
    simpa using (c1.mul_isBigO hO.norm_right).norm_right
  have e2 : (fun p : E × E => (‖A p.1‖ - ‖A p.2‖) * g p.2) =o[𝓝 (x0, x0)] fun p => p.1 - p.2 := by
    simpa using (c3.norm_right.mul_isLittleO c2).norm_right
  refine (e1.add e2).congr_left fun p => ?_
  simp only [ContinuousLinearMap.zero_apply]
  ring

/-- Near the point, the function changes at most proportionally. -/
lemma isBigO (h : Strict f x0 v d) : (fun x => f x - v) =O[𝓝 x0] fun x => x - x0 := by
  obtain ⟨rfl, L, h2, -⟩ := h
  exact h2.hasFDerivAt.isBigO_sub

end Strict

/-- A vector of functions. -/
def StrictV {n : ℕ} (f : E → Fin n → ℝ) (x0 : E) (v : Fin n → ℝ) (d : E → Fin n → ℝ) : Prop :=
  ∀ i, Strict (fun x => f x i) x0 (v i) fun x => d x i

/-- Near a point at which the powers of the derivative with respect to the state tend to zero, each map of the family
contracts a norm up to disturbances. -/
lemma family_contracts {D : Type} [NormedAddCommGroup D] [NormedSpace ℝ D] {f : E × D → E} {L : E × D →L[ℝ] E} {x0 : E}
    (hf : HasStrictFDerivAt f L (x0, 0)) (hp : Tendsto (fun n => (L.comp (ContinuousLinearMap.inl ℝ E D)) ^ n) atTop (𝓝 0)) :
    ∃ V : E → ℝ, ∃ M > 0, ∃ q, 0 ≤ q ∧ q < 1 ∧ ∃ r > 0, (∀ y, ‖y‖ ≤ V y) ∧ (∀ y, V y ≤ M * ‖y‖) ∧
      ∀ y y' d e, ‖y - x0‖ < r → ‖y' - x0‖ < r → ‖d‖ < r → V (f (y, d) + e - f (y', d)) ≤ q * V (y - y') + M * ‖e‖ := by
  obtain ⟨V, M, hM, q, q0, q1, v1, v2, v3, v4⟩ := contracting_norm hp
  have hε : 0 < (1 - q) / (2 * M) := div_pos (by linarith) (by positivity)
  have := (hasStrictFDerivAt_iff_isLittleO.1 hf).def hε
  rw [Metric.eventually_nhds_iff] at this
  obtain ⟨r, hr, H⟩ := this
  refine ⟨V, M, hM, (1 + q) / 2, by linarith, by linarith, r, hr, v1, v2, fun y y' d e hy hy' hd => ?_⟩
  have h1 := H (y := ((y, d), (y', d))) (by
    rw [← dist_eq_norm] at hy hy'
    rw [← dist_zero_right] at hd
    exact max_lt (max_lt hy hd) (max_lt hy' hd))
  have e0 : ((y, d) : E × D) - (y', d) = ContinuousLinearMap.inl ℝ E D (y - y') := by simp
  simp only [e0] at h1
  have e3 : ‖ContinuousLinearMap.inl ℝ E D (y - y')‖ = ‖y - y'‖ := by simp [Prod.norm_def]
  rw [e3] at h1
  set L' := L.comp (ContinuousLinearMap.inl ℝ E D) with hL'
  have h1 : ‖f (y, d) - f (y', d) - L' (y - y')‖ ≤ (1 - q) / (2 * M) * ‖y - y'‖ := h1
  have e1 : f (y, d) + e - f (y', d) = L' (y - y') + (f (y, d) - f (y', d) - L' (y - y')) + e := by abel
  rw [e1]
  have h2 : V (f (y, d) - f (y', d) - L' (y - y')) ≤ (1 - q) / 2 * V (y - y') := by
    refine (v2 _).trans ((mul_le_mul_of_nonneg_left h1 hM.le).trans ?_)
    have : M * ((1 - q) / (2 * M) * ‖y - y'‖) = (1 - q) / 2 * ‖y - y'‖ := by field_simp
    rw [this]
    exact mul_le_mul_of_nonneg_left (v1 _) (by linarith)
  have := v3 (L' (y - y') + (f (y, d) - f (y', d) - L' (y - y'))) e
  have := v3 (L' (y - y')) (f (y, d) - f (y', d) - L' (y - y'))
  have := v4 (y - y')
  have := v2 e
  linarith

end Verif.Stability
