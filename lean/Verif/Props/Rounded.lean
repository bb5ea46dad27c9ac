import Verif.Lemmas.RoundedModel
import Verif.Props.Orientation

/-!
# C100: the orientation stays a unit quaternion up to rounding

The statement of C03 in rounded arithmetic.
-/

namespace Verif.Props

open Verif Flt Spec

section
variable {A : Rounding}

/-- The exact squared length of a quaternion of rounded numbers. -/
def lengthSq (q : Quat (Fl A)) : ℝ := q.w.val ^ 2 + q.x.val ^ 2 + q.y.val ^ 2 + q.z.val ^ 2

/-- Not the zero quaternion. -/
def NonzeroF (q : Quat (Fl A)) : Prop := lengthSq q ≠ 0

/-- Of length one up to rounding. -/
def NearUnit (q : Quat (Fl A)) : Prop := |lengthSq q - 1| ≤ 16 * A.u

/-! ## Helper lemmas -/

@[simp] lemma lit_zero_val : (lit 0 : Fl A).val = 0 := by simp [lit]

lemma add_val (a b : Fl A) : (a ⊞ b).val = A.rnd (a.val + b.val) := rfl
lemma sub_val (a b : Fl A) : (a ⊟ b).val = A.rnd (a.val - b.val) := rfl
lemma mul_val (a b : Fl A) : (a ⊠ b).val = A.rnd (a.val * b.val) := rfl
lemma div_val (a b : Fl A) : (a ⊘ b).val = A.rnd (a.val / b.val) := rfl
lemma sqrt_val (a : Fl A) : (Flt.sqrt a).val = A.rnd (√a.val) := rfl
lemma vsum_val {n : ℕ} (f : Fin n → Fl A) : (vsum f).val = A.sum fun i => (f i).val := rfl
lemma lt_val (a b : Fl A) : Flt.lt a b = decide (a.val < b.val) := by simp [Flt.lt]
lemma le_val (a b : Fl A) : Flt.le a b = decide (a.val ≤ b.val) := by simp [Flt.le]

lemma near_prod (a b : ℝ) : A.Near 1 (|a| * |b|) (A.rnd (a * b)) (a * b) :=
  ((Rounding.Near.exact a).mul (Rounding.Near.exact b)).rnd

/-- Three products added up after an initial zero, the code's order. -/
lemma near_three {z : ℝ} (hz : z = 0) (a b c : ℝ) {A1 B1 C1 : ℝ} {a' b' c' : ℝ} (ha : A.Near 1 A1 a' a)
    (hb : A.Near 1 B1 b' b) (hc : A.Near 1 C1 c' c) :
    A.Near 4 (A1 + B1 + C1) (A.rnd (A.rnd (A.rnd (z - a') - b') - c')) (-a - b - c) := by
  subst hz
  have h1 : A.Near 2 A1 (A.rnd (0 - a')) (-a) := by rw [zero_sub]; exact ha.neg.rnd
  have h2 := (h1.sub (hb.mono (by norm_num : 1 ≤ 2) le_rfl)).rnd
  exact (h2.sub (hc.mono (by norm_num : 1 ≤ 3) le_rfl)).rnd

/-- One coefficient of the integrated quaternion. -/
lemma near_coef {S m' m : ℝ} (h : A.Near 4 S m' m) (q dt : ℝ) :
    A.Near 8 (|q| + 1 / 2 * S * |dt|) (A.rnd (q + A.rnd (A.rnd (A.rnd (1 / 2) * m') * dt))) (q + 1 / 2 * m * dt) := by
  have hh : A.Near 1 (1 / 2) (A.rnd (1 / 2)) (1 / 2) := by
    have := (Rounding.Near.exact (A := A) (1 / 2)).rnd
    rwa [abs_of_pos (by norm_num)] at this
  have h1 := (hh.mul h).rnd
  have h2 := (h1.mul (Rounding.Near.exact dt)).rnd
  exact (((Rounding.Near.exact q).mono (by norm_num : 0 ≤ 7) le_rfl).add (h2.mono (by norm_num) le_rfl)).rnd

/-- ... and with the zero in second place. -/
lemma near_three' {z : ℝ} (hz : z = 0) (a b c : ℝ) {A1 B1 C1 : ℝ} {a' b' c' : ℝ} (ha : A.Near 1 A1 a' a)
    (hb : A.Near 1 B1 b' b) (hc : A.Near 1 C1 c' c) :
    A.Near 4 (A1 + B1 + C1) (A.rnd (A.rnd (A.rnd (a' + z) + b') - c')) (a + b - c) := by
  subst hz
  have h1 : A.Near 2 A1 (A.rnd (a' + 0)) a := by rw [add_zero]; exact ha.rnd
  have h2 := (h1.add (hb.mono (by norm_num : 1 ≤ 2) le_rfl)).rnd
  exact (h2.sub (hc.mono (by norm_num : 1 ≤ 3) le_rfl)).rnd

/-- The quaternion before normalisation. -/
lemma near_integrate (q : Quat (Fl A)) (om : Vec 3 (Fl A)) (dt : Fl A) :
    let v := Quat.ofCoeffs (vadd q.coeffs (smulR (quatDerivative q om) dt))
    A.Near 8 (|q.w.val| + 1 / 2 * (|q.x.val| * |(om 0).val| + |q.y.val| * |(om 1).val| + |q.z.val| * |(om 2).val|) * |dt.val|)
      v.w.val (q.w.val + 1 / 2 * (-(q.x.val * (om 0).val) - q.y.val * (om 1).val - q.z.val * (om 2).val) * dt.val) ∧
    A.Near 8 (|q.x.val| + 1 / 2 * (|q.w.val| * |(om 0).val| + |q.y.val| * |(om 2).val| + |q.z.val| * |(om 1).val|) * |dt.val|)
      v.x.val (q.x.val + 1 / 2 * (q.w.val * (om 0).val + q.y.val * (om 2).val - q.z.val * (om 1).val) * dt.val) ∧
    A.Near 8 (|q.y.val| + 1 / 2 * (|q.w.val| * |(om 1).val| + |q.z.val| * |(om 0).val| + |q.x.val| * |(om 2).val|) * |dt.val|)
      v.y.val (q.y.val + 1 / 2 * (q.w.val * (om 1).val + q.z.val * (om 0).val - q.x.val * (om 2).val) * dt.val) ∧
    A.Near 8 (|q.z.val| + 1 / 2 * (|q.w.val| * |(om 2).val| + |q.x.val| * |(om 1).val| + |q.y.val| * |(om 0).val|) * |dt.val|)
      v.z.val (q.z.val + 1 / 2 * (q.w.val * (om 2).val + q.x.val * (om 1).val - q.y.val * (om 0).val) * dt.val) := by
  have hz : ∀ a : Fl A, (a ⊠ lit 0).val = 0 := fun a => by rw [mul_val, lit_zero_val, mul_zero, A.rnd_zero]
  have hl : (lit (1 / 2) : Fl A).val = A.rnd (1 / 2) := by simp [lit]
  intro v
  refine ⟨?_, ?_, ?_, ?_⟩
  · have e : v.w.val = A.rnd (q.w.val + A.rnd (A.rnd ((lit (1 / 2) : Fl A).val * A.rnd (A.rnd (A.rnd ((q.w ⊠ lit 0).val -
      A.rnd (q.x.val * (om 0).val)) - A.rnd (q.y.val * (om 1).val)) - A.rnd (q.z.val * (om 2).val))) * dt.val)) := rfl
    rw [e, hl]
    exact near_coef (near_three (hz _) _ _ _ (near_prod _ _) (near_prod _ _) (near_prod _ _)) _ _
  · have e : v.x.val = A.rnd (q.x.val + A.rnd (A.rnd ((lit (1 / 2) : Fl A).val * A.rnd (A.rnd (A.rnd (
      A.rnd (q.w.val * (om 0).val) + (q.x ⊠ lit 0).val) + A.rnd (q.y.val * (om 2).val)) - A.rnd (q.z.val * (om 1).val))) *
        dt.val)) := rfl
    rw [e, hl]
    exact near_coef (near_three' (hz _) _ _ _ (near_prod _ _) (near_prod _ _) (near_prod _ _)) _ _
  · have e : v.y.val = A.rnd (q.y.val + A.rnd (A.rnd ((lit (1 / 2) : Fl A).val * A.rnd (A.rnd (A.rnd (
      A.rnd (q.w.val * (om 1).val) + (q.y ⊠ lit 0).val) + A.rnd (q.z.val * (om 0).val)) - A.rnd (q.x.val * (om 2).val))) *
        dt.val)) := rfl
    rw [e, hl]
    exact near_coef (near_three' (hz _) _ _ _ (near_prod _ _) (near_prod _ _) (near_prod _ _)) _ _
  · have e : v.z.val = A.rnd (q.z.val + A.rnd (A.rnd ((lit (1 / 2) : Fl A).val * A.rnd (A.rnd (A.rnd (
      A.rnd (q.w.val * (om 2).val) + (q.z ⊠ lit 0).val) + A.rnd (q.x.val * (om 1).val)) - A.rnd (q.y.val * (om 0).val))) *
        dt.val)) := rfl
    rw [e, hl]
    exact near_coef (near_three' (hz _) _ _ _ (near_prod _ _) (near_prod _ _) (near_prod _ _)) _ _

lemma grow (w x y z a b c t : ℝ) :
    (w + 1 / 2 * (-(x * a) - y * b - z * c) * t) ^ 2 + (x + 1 / 2 * (w * a + y * c - z * b) * t) ^ 2 +
    (y + 1 / 2 * (w * b + z * a - x * c) * t) ^ 2 + (z + 1 / 2 * (w * c + x * b - y * a) * t) ^ 2 =
      (w ^ 2 + x ^ 2 + y ^ 2 + z ^ 2) * (1 + t ^ 2 / 4 * (a ^ 2 + b ^ 2 + c ^ 2)) := by ring

lemma spread (p q r s t : ℝ) : (p + 1 / 2 * (q + r + s) * t) ^ 2 ≤ 2 * p ^ 2 + 6 * (t ^ 2 / 4 * (q ^ 2 + r ^ 2 + s ^ 2)) := by
  nlinarith [sq_nonneg (p - 1 / 2 * (q + r + s) * t), sq_nonneg (t * (q - r)), sq_nonneg (t * (q - s)), sq_nonneg (t * (r - s))]

lemma spread_sum (w x y z a b c t : ℝ) :
    (|w| + 1 / 2 * (|x| * |a| + |y| * |b| + |z| * |c|) * |t|) ^ 2 + (|x| + 1 / 2 * (|w| * |a| + |y| * |c| + |z| * |b|) * |t|) ^ 2 +
    (|y| + 1 / 2 * (|w| * |b| + |z| * |a| + |x| * |c|) * |t|) ^ 2 + (|z| + 1 / 2 * (|w| * |c| + |x| * |b| + |y| * |a|) * |t|) ^ 2 ≤
      6 * ((w ^ 2 + x ^ 2 + y ^ 2 + z ^ 2) * (1 + t ^ 2 / 4 * (a ^ 2 + b ^ 2 + c ^ 2))) := by
  have h1 := spread |w| (|x| * |a|) (|y| * |b|) (|z| * |c|) |t|
  have h2 := spread |x| (|w| * |a|) (|y| * |c|) (|z| * |b|) |t|
  have h3 := spread |y| (|w| * |b|) (|z| * |a|) (|x| * |c|) |t|
  have h4 := spread |z| (|w| * |c|) (|x| * |b|) (|y| * |a|) |t|
  simp only [mul_pow, sq_abs] at h1 h2 h3 h4
  have h5 : 0 ≤ w ^ 2 + x ^ 2 + y ^ 2 + z ^ 2 := by positivity
  nlinarith

/-- Integration never produces the zero quaternion. -/
lemma integrate_nonzero (hu : A.u ≤ 1 / 100) {q : Quat (Fl A)} (hq : NonzeroF q) (om : Vec 3 (Fl A)) (dt : Fl A) :
    NonzeroF (Quat.ofCoeffs (vadd q.coeffs (smulR (quatDerivative q om) dt))) := by
  intro h0
  obtain ⟨h1, h2, h3, h4⟩ := near_integrate q om dt
  set v := Quat.ofCoeffs (vadd q.coeffs (smulR (quatDerivative q om) dt))
  unfold lengthSq at h0
  have hz : v.w.val = 0 ∧ v.x.val = 0 ∧ v.y.val = 0 ∧ v.z.val = 0 := by
    refine ⟨?_, ?_, ?_, ?_⟩ <;> nlinarith [sq_nonneg v.w.val, sq_nonneg v.x.val, sq_nonneg v.y.val, sq_nonneg v.z.val]
  obtain ⟨z1, z2, z3, z4⟩ := hz
  rw [z1] at h1
  rw [z2] at h2
  rw [z3] at h3
  rw [z4] at h4
  have hg : (1 + A.u) ^ 8 - 1 ≤ 1 / 10 := by
    have := A.pow_sub_le (c := 1 / 100) (by norm_num) hu 8
    norm_num at this ⊢
    linarith
  have key : ∀ {S y : ℝ}, A.Near 8 S 0 y → y ^ 2 ≤ 1 / 100 * S ^ 2 := by
    intro S y h
    have h' := h.1
    rw [zero_sub, abs_neg] at h'
    have h'' : |y| ≤ 1 / 10 * S := h'.trans (mul_le_mul_of_nonneg_right hg h.nonneg)
    have := pow_le_pow_left₀ (abs_nonneg _) h'' 2
    rw [sq_abs, mul_pow] at this
    norm_num at this ⊢
    exact this
  have k1 := key h1
  have k2 := key h2
  have k3 := key h3
  have k4 := key h4
  have e1 := grow q.w.val q.x.val q.y.val q.z.val (om 0).val (om 1).val (om 2).val dt.val
  have e2 := spread_sum q.w.val q.x.val q.y.val q.z.val (om 0).val (om 1).val (om 2).val dt.val
  set N := (q.w.val ^ 2 + q.x.val ^ 2 + q.y.val ^ 2 + q.z.val ^ 2) *
    (1 + dt.val ^ 2 / 4 * ((om 0).val ^ 2 + (om 1).val ^ 2 + (om 2).val ^ 2)) with hN
  have hN0 : 0 < N := by
    have : 0 < q.w.val ^ 2 + q.x.val ^ 2 + q.y.val ^ 2 + q.z.val ^ 2 :=
      lt_of_le_of_ne (by positivity) (Ne.symm hq)
    positivity
  linarith

/-- The final estimate. -/
lemma near_one {u M Z r : ℝ} (hu0 : 0 ≤ u) (hu : u ≤ 1 / 128) (hZ0 : 0 < Z) (hM0 : 0 ≤ M)
    (hlow : (1 - u) ^ 2 * Z ≤ M * r ^ 2) (hhigh : M * r ^ 2 ≤ (1 + u) ^ 2 * Z)
    (r2l : (1 - 31 / 5 * u) ^ 2 * Z ≤ r ^ 2) (r2h : r ^ 2 ≤ (1 + 31 / 5 * u) ^ 2 * Z) : |M - 1| ≤ 16 * u := by
  have c1 : M * (1 - 31 / 5 * u) ^ 2 ≤ (1 + u) ^ 2 := by
    have : M * ((1 - 31 / 5 * u) ^ 2 * Z) ≤ (1 + u) ^ 2 * Z := (mul_le_mul_of_nonneg_left r2l hM0).trans hhigh
    rw [← mul_assoc] at this
    exact le_of_mul_le_mul_right this hZ0
  have c2 : (1 - u) ^ 2 ≤ M * (1 + 31 / 5 * u) ^ 2 := by
    have : (1 - u) ^ 2 * Z ≤ M * ((1 + 31 / 5 * u) ^ 2 * Z) := hlow.trans (mul_le_mul_of_nonneg_left r2h hM0)
    rw [← mul_assoc] at this
    exact le_of_mul_le_mul_right this hZ0
  have h2 : 0 ≤ u ^ 2 := by positivity
  have h3 : u ^ 2 ≤ 1 / 128 * u := by nlinarith
  have h4 : 0 ≤ u ^ 3 := by positivity
  rw [abs_le]
  constructor
  · have hp : 0 < (1 + 31 / 5 * u) ^ 2 := by positivity
    have : (1 - 16 * u) * (1 + 31 / 5 * u) ^ 2 ≤ (1 - u) ^ 2 := by ring_nf; linarith
    have := le_of_mul_le_mul_right (this.trans c2) hp
    linarith
  · have hp : 0 < (1 - 31 / 5 * u) ^ 2 := by
      have : 0 < 1 - 31 / 5 * u := by linarith
      positivity
    have : (1 + u) ^ 2 ≤ (1 + 16 * u) * (1 - 31 / 5 * u) ^ 2 := by ring_nf; linarith
    have := le_of_mul_le_mul_right (c1.trans this) hp
    linarith

/-- A rounded quotient. -/
lemma quotient_err (a r : ℝ) : ∃ e, |e| ≤ A.u ∧ A.rnd (a / r) = a / r * (1 + e) := by
  have h := A.rnd_err (a / r)
  by_cases hc : a / r = 0
  · exact ⟨0, by simpa using A.u_nonneg, by rw [hc]; simp⟩
  · refine ⟨(A.rnd (a / r) - a / r) / (a / r), ?_, ?_⟩
    · rw [abs_div, div_le_iff₀ (abs_pos.2 hc)]
      exact h
    · rw [mul_add, mul_one, mul_div_cancel₀ _ hc]
      ring

lemma rel_sq {u : ℝ} (hu : u ≤ 1 / 100) (c e : ℝ) (he : |e| ≤ u) :
    (1 - u) ^ 2 * c ^ 2 ≤ (c * (1 + e)) ^ 2 ∧ (c * (1 + e)) ^ 2 ≤ (1 + u) ^ 2 * c ^ 2 := by
  obtain ⟨l, h⟩ := abs_le.1 he
  have a1 : (1 - u) ^ 2 ≤ (1 + e) ^ 2 := pow_le_pow_left₀ (by linarith) (by linarith) 2
  have a2 : (1 + e) ^ 2 ≤ (1 + u) ^ 2 := pow_le_pow_left₀ (by linarith) (by linarith) 2
  rw [mul_pow, mul_comm]
  exact ⟨mul_le_mul_of_nonneg_left a1 (sq_nonneg c), by rw [mul_comm _ (c ^ 2)]; exact mul_le_mul_of_nonneg_left a2 (sq_nonneg c)⟩

/-- Normalisation of four rounded numbers. -/
lemma normalized_near (hu' : A.u ≤ 1 / 128) {q : Quat (Fl A)} (hq : NonzeroF q) : NearUnit q.normalized := by
  have hu0 := A.u_nonneg
  have hu : A.u ≤ 1 / 100 := hu'.trans (by norm_num)
  have hg5 : (1 + A.u) ^ 5 - 1 ≤ 1 / 10 := by
    have := A.pow_sub_le (c := 1 / 100) (by norm_num) hu 5
    norm_num at this ⊢
    linarith
  have hg6 : (1 + A.u) ^ 6 - 1 ≤ 31 / 5 * A.u := by
    have := A.pow_sub_le (c := 1 / 100) (by norm_num) hu 6
    norm_num at this ⊢
    linarith
  set Z := lengthSq q with hZ
  have hZ0 : 0 < Z := lt_of_le_of_ne (by rw [hZ]; unfold lengthSq; positivity) (Ne.symm hq)
  have hz : A.Near 5 Z (normSq q.coeffs).val Z := by
    have h : ∀ i, A.Near 1 ((q.coeffs i).val ^ 2) ((q.coeffs i) ⊠ (q.coeffs i)).val ((q.coeffs i).val ^ 2) := by
      intro i
      have := near_prod (A := A) (q.coeffs i).val (q.coeffs i).val
      rw [abs_mul_abs_self] at this
      rw [sq]
      exact this
    have := Rounding.Near.sum h
    have e : ∑ i, (q.coeffs i).val ^ 2 = Z := by
      rw [hZ, Fin.sum_univ_four]
      simp [Quat.coeffs, lengthSq]
      ring
    rw [e] at this
    exact this
  have hpos : 0 < (normSq q.coeffs).val := by
    have := (abs_le.1 hz.1).1
    nlinarith
  have hr : A.Near 6 (√Z) (Flt.sqrt (normSq q.coeffs)).val (√Z) := (hz.sqrt hpos.le).rnd
  set r := (Flt.sqrt (normSq q.coeffs)).val
  have hs : 0 < √Z := Real.sqrt_pos.2 hZ0
  have hr1 : (1 - 31 / 5 * A.u) * √Z ≤ r := by
    have := (abs_le.1 hr.1).1
    nlinarith
  have hr2 : r ≤ (1 + 31 / 5 * A.u) * √Z := by
    have := (abs_le.1 hr.1).2
    nlinarith
  have hr0 : 0 < r := by nlinarith
  have hn : ∀ c : Fl A, ∃ e, |e| ≤ A.u ∧ (c ⊘ Flt.sqrt (normSq q.coeffs)).val = c.val / r * (1 + e) := by
    exact fun c => quotient_err c.val r
  have hlt : Flt.lt (lit 0) (normSq q.coeffs) = true := by rw [lt_val, lit_zero_val]; simpa using hpos
  have hval : q.normalized = Quat.ofCoeffs (sdiv q.coeffs (Flt.sqrt (normSq q.coeffs))) := by
    unfold Quat.normalized Verif.normalized
    rw [if_pos hlt]
  obtain ⟨e1, he1, q1⟩ := hn q.w
  obtain ⟨e2, he2, q2⟩ := hn q.x
  obtain ⟨e3, he3, q3⟩ := hn q.y
  obtain ⟨e4, he4, q4⟩ := hn q.z
  have hl : lengthSq q.normalized * r ^ 2 = (q.w.val * (1 + e1)) ^ 2 + (q.x.val * (1 + e2)) ^ 2 + (q.y.val * (1 + e3)) ^ 2 +
      (q.z.val * (1 + e4)) ^ 2 := by
    rw [hval]
    have : lengthSq (Quat.ofCoeffs (sdiv q.coeffs (Flt.sqrt (normSq q.coeffs)))) =
      (q.w ⊘ Flt.sqrt (normSq q.coeffs)).val ^ 2 + (q.x ⊘ Flt.sqrt (normSq q.coeffs)).val ^ 2 +
      (q.y ⊘ Flt.sqrt (normSq q.coeffs)).val ^ 2 + (q.z ⊘ Flt.sqrt (normSq q.coeffs)).val ^ 2 := rfl
    rw [this, q1, q2, q3, q4]
    field_simp
  have hb := rel_sq hu
  have hlow : (1 - A.u) ^ 2 * Z ≤ lengthSq q.normalized * r ^ 2 := by
    rw [hl, hZ]; unfold lengthSq
    have := (hb q.w.val e1 he1).1
    have := (hb q.x.val e2 he2).1
    have := (hb q.y.val e3 he3).1
    have := (hb q.z.val e4 he4).1
    linarith
  have hhigh : lengthSq q.normalized * r ^ 2 ≤ (1 + A.u) ^ 2 * Z := by
    rw [hl, hZ]; unfold lengthSq
    have := (hb q.w.val e1 he1).2
    have := (hb q.x.val e2 he2).2
    have := (hb q.y.val e3 he3).2
    have := (hb q.z.val e4 he4).2
    linarith
  have hZs : √Z ^ 2 = Z := Real.sq_sqrt hZ0.le
  have r2l : (1 - 31 / 5 * A.u) ^ 2 * Z ≤ r ^ 2 := by
    have := pow_le_pow_left₀ (by nlinarith) hr1 2
    rwa [mul_pow, hZs] at this
  have r2h : r ^ 2 ≤ (1 + 31 / 5 * A.u) ^ 2 * Z := by
    have := pow_le_pow_left₀ hr0.le hr2 2
    rwa [mul_pow, hZs] at this
  exact near_one A.u_nonneg hu' hZ0 (by unfold lengthSq; positivity) hlow hhigh r2l r2h

lemma quatIntegrate_near (hu : A.u ≤ 1 / 128) {q : Quat (Fl A)} (hq : NonzeroF q) (om : Vec 3 (Fl A)) (dt : Fl A) :
    NearUnit (quatIntegrate q om dt) :=
  normalized_near hu (integrate_nonzero (hu.trans (by norm_num)) hq om dt)

lemma NearUnit.nonzero (hu : A.u ≤ 1 / 128) {q : Quat (Fl A)} (h : NearUnit q) : NonzeroF q := by
  intro h0
  rw [NearUnit, h0] at h
  norm_num at h
  linarith

lemma lit_hundredth_pos (hu : A.u ≤ 1 / 128) : 0 < (Dyn.maxStep : Fl A).val := by
  have h : (Dyn.maxStep : Fl A).val = A.rnd (1 / 100) := by simp [Dyn.maxStep, lit]
  rw [h]
  have := (abs_le.1 (A.rnd_err (1 / 100))).1
  rw [abs_of_pos (by norm_num)] at this
  linarith

lemma rnd_pos (hu : A.u < 1) {x : ℝ} (hx : 0 < x) : 0 < A.rnd x := by
  have := (abs_le.1 (A.rnd_err x)).1
  rw [abs_of_pos hx] at this
  nlinarith

lemma substepPos_rounded (hu : A.u ≤ 1 / 128) : Dyn.SubstepPos (Fl A) := by
  intro dt h
  rw [lt_val, decide_eq_true_eq] at h ⊢
  have := lit_hundredth_pos hu
  rw [lit_zero_val, div_val]
  exact rnd_pos (by linarith) (div_pos (this.trans h) this)

variable [Noise (Fl A)] {n : ℕ}

lemma near_of_process (hu : A.u ≤ 1 / 128) {d d' : Dyn (Fl A) n} {act : Vec n (Fl A)} {dt : Fl A} {ext : Vec 3 (Fl A)}
    {noise : Bool} (hd : NonzeroF d.state.ori) (h : d.process act dt ext noise = .ok d') : NearUnit d'.state.ori := by
  have h1 : NonzeroF d'.state.ori :=
    process_ori (P := NonzeroF) (fun q om dt h => (quatIntegrate_near hu h om dt).nonzero hu) hd h
  have h2 : NearUnit d'.state.ori ∨ ¬ NonzeroF d'.state.ori := by
    refine Dyn.process_last (P := fun x => NearUnit x.state.ori ∨ ¬ NonzeroF x.state.ori) (substepPos_rounded hu) ?_ h
    intro dt a b hab
    obtain ⟨c, ms, -, -, -, rfl⟩ := Dyn.singleStep_ok hab
    show NearUnit (quatIntegrate a.state.ori a.state.angVel dt) ∨ ¬ NonzeroF (quatIntegrate a.state.ori a.state.angVel dt)
    by_cases hz : NonzeroF (Quat.ofCoeffs (vadd a.state.ori.coeffs (smulR (quatDerivative a.state.ori a.state.angVel) dt)))
    · exact .inl (normalized_near hu hz)
    · right
      simp only [NonzeroF, not_not] at hz ⊢
      set v := Quat.ofCoeffs (vadd a.state.ori.coeffs (smulR (quatDerivative a.state.ori a.state.angVel) dt)) with hv
      have hzero : ∀ i, (v.coeffs i).val = 0 := by
        have h1 := sq_nonneg v.w.val
        have h2 := sq_nonneg v.x.val
        have h3 := sq_nonneg v.y.val
        have h4 := sq_nonneg v.z.val
        unfold lengthSq at hz
        have z1 : v.w.val ^ 2 = 0 := by linarith
        have z2 : v.x.val ^ 2 = 0 := by linarith
        have z3 : v.y.val ^ 2 = 0 := by linarith
        have z4 : v.z.val ^ 2 = 0 := by linarith
        intro i
        fin_cases i
        · exact pow_eq_zero_iff (two_ne_zero) |>.1 z2
        · exact pow_eq_zero_iff (two_ne_zero) |>.1 z3
        · exact pow_eq_zero_iff (two_ne_zero) |>.1 z4
        · exact pow_eq_zero_iff (two_ne_zero) |>.1 z1
      have hs : (normSq v.coeffs).val = 0 := by
        show A.sum (fun i => A.rnd ((v.coeffs i).val * (v.coeffs i).val)) = 0
        simp only [hzero, mul_zero, A.rnd_zero]
        have := A.sum_err (fun _ : Fin 4 => (0 : ℝ))
        simpa using this
      have e : quatIntegrate a.state.ori a.state.angVel dt = v := by
        show v.normalized = v
        unfold Quat.normalized Verif.normalized
        rw [if_neg (by rw [lt_val, lit_zero_val, hs]; simp)]
        rfl
      rw [e]
      exact hz
  exact h2.resolve_right (not_not.2 h1)

/-- **C100.** In rounded arithmetic with at least seven binary digits, any order of summation and any rounding: start
from any non-zero orientation, through any history that does not itself install a zero orientation; after a successful
update, and then for ever as long as the user does not install another orientation, the squared length of the
orientation is within `16 u` of one.  Rounding errors do not accumulate, however long the flight. -/
theorem C100_orientation_rounded (hu : A.u ≤ 1 / 128) (p : SimParams (Fl A) n) (s₀ s s' t : Sim (Fl A) n)
    (h₀ : Sim.mk' p = some s₀) (hq : NonzeroF p.dyn.state.ori) (os os' : List (SimOp (Fl A) n)) (dt : Fl A)
    (ho : ∀ o ∈ os, KeepsOri NonzeroF o) (hr : Sim.Runs s₀ os s) (hd : s.updateDynamics dt = .ok s')
    (ho' : ∀ o ∈ os', KeepsOri NearUnit o) (hr' : Sim.Runs s' os' t) :
    |lengthSq t.dyn.state.ori - 1| ≤ 16 * A.u := by
  have hm : le (Dyn.maxStep : Fl A) (lit 0) = false := by
    rw [le_val, lit_zero_val]
    simpa using lit_hundredth_pos hu
  have h1 : NonzeroF s₀.dyn.state.ori := by
    unfold Sim.mk' at h₀
    split at h₀
    · rename_i d o hd ho
      simp only [Option.some.injEq] at h₀
      subst h₀
      simp only [Dyn.mk', Option.map_eq_some_iff] at hd
      obtain ⟨m, -, rfl⟩ := hd
      exact hq
    · simp at h₀
  have h2 := runs_ori hm (P := NonzeroF) (fun q om dt h => (quatIntegrate_near hu h om dt).nonzero hu) hr ho h1
  refine runs_ori hm (P := NearUnit) (fun q om dt h => quatIntegrate_near hu (h.nonzero hu) om dt) hr' ho' ?_
  obtain ⟨ext, d, -, hp, rfl⟩ := Sim.updateDynamics_ok hd
  have := near_of_process hu h2 hp
  simp only []
  split
  · exact this
  · exact this

omit [Noise (Fl A)] in
/-- **C100, odometry.** The same for the orientation estimate of the inertial odometry, after any positive number of
measurements. -/
theorem C100_odometry_rounded (hu : A.u ≤ 1 / 128) (o : Odom (Fl A)) (hq : NonzeroF o.ori) (dt : Fl A)
    (ms : List (Vec 3 (Fl A) × Vec 3 (Fl A))) (hms : ms ≠ []) :
    |lengthSq (ms.foldl (fun o m => o.update m.1 m.2 dt) o).ori - 1| ≤ 16 * A.u := by
  have key : ∀ (ms : List (Vec 3 (Fl A) × Vec 3 (Fl A))) (o : Odom (Fl A)), NonzeroF o.ori → (ms = [] → NearUnit o.ori) →
      NearUnit (ms.foldl (fun o m => o.update m.1 m.2 dt) o).ori := by
    intro ms
    induction ms with
    | nil => exact fun o _ h => h rfl
    | cons m ms ih =>
      intro o h _
      have hn : NearUnit (o.update m.1 m.2 dt).ori := quatIntegrate_near hu h _ _
      exact ih _ (hn.nonzero hu) fun _ => hn
  exact key ms o hq fun h => absurd h hms

/-! ## A concrete vehicle -/

omit [Noise (Fl A)] in
lemma det_one (hu : A.u ≤ 1 / 128) : 0 ≤ A.det 1 := by
  have hc : ∀ k : Fin 3, A.rnd (A.cof 1 k 0 * (1 : Matrix (Fin 3) (Fin 3) ℝ) k 0) =
      if k = 0 then A.rnd (A.rnd (A.rnd 1)) else 0 := by
    intro k
    match k with
    | 0 => simp [Rounding.cof, show (0 : Fin 3) + 1 = 1 from rfl, show (0 : Fin 3) + 2 = 2 from rfl]
    | 1 => simp
    | 2 => simp
  have hp : 0 < A.rnd (A.rnd (A.rnd 1)) := rnd_pos (by linarith) (rnd_pos (by linarith) (rnd_pos (by linarith) one_pos))
  unfold Rounding.det
  simp only [hc]
  have := (abs_le.1 (A.sum_err fun k : Fin 3 => if k = 0 then A.rnd (A.rnd (A.rnd 1)) else 0)).1
  rw [Fin.sum_univ_three, Fin.sum_univ_three] at this
  simp only [if_true, abs_of_pos hp, show (1 : Fin 3) ≠ 0 by decide, show (2 : Fin 3) ≠ 0 by decide, if_false, abs_zero,
    add_zero] at this
  have h3 : (1 + A.u) ^ 3 ≤ 2 :=
    (pow_le_pow_left₀ (by linarith [A.u_nonneg]) (show 1 + A.u ≤ 1 + 1 / 128 by linarith) 3).trans (by norm_num)
  nlinarith

omit [Noise (Fl A)] in
lemma check_lift_fixture (hu : A.u ≤ 1 / 128) : Model.checkParams (liftParams A Fixture.modelParams) = true := by
  have hd : lt (det3 (liftMat A (1 : Mat 3 3 ℝ))) (lit 0) = false := by
    rw [lt_val, lit_zero_val]
    have e : (det3 (liftMat A (1 : Mat 3 3 ℝ))).val = A.det 1 := rfl
    rw [e]
    exact decide_eq_false (not_lt.2 (det_one hu))
  have hm : ∀ m ∈ (liftParams A Fixture.modelParams).motors, Model.checkMotor m = true := by
    intro m hm
    simp only [liftParams, List.mem_map] at hm
    obtain ⟨m', h', rfl⟩ := hm
    have : Model.checkMotor m' = true := by
      have := Fixture.check
      simp only [Model.checkParams] at this
      split_ifs at this
      exact List.all_eq_true.1 this m' h'
    simp only [Model.checkMotor, lt_val, liftMotor, lit_zero_val] at this ⊢
    simpa [flt] using this
  unfold Model.checkParams
  rw [if_neg (by simp [lt_val, liftParams, Fixture.modelParams]), if_neg, if_neg, if_neg]
  · exact List.all_eq_true.2 hm
  · exact fun h => absurd (hd.symm.trans h) (by simp)
  · simp [lt_val, liftParams, Fixture.modelParams]
  · exact fun h => absurd (hd.symm.trans h) (by simp)

/-- The simulator of `Fixture` in rounded arithmetic, with a given initial state. -/
noncomputable def simLift (A : Rounding) (st : State (Fl A) 4) : SimParams (Fl A) 4 where
  dyn := ⟨liftParams A Fixture.modelParams, st, 7⟩
  ctl := ⟨⟨⟨1⟩, fun _ _ => ⟨0⟩, vzero⟩, ⟨fun _ _ => ⟨0⟩, fun _ _ => ⟨0⟩, PidParams.default⟩, PidParams.default, PidParams.default,
    PidParams.default⟩
  imu := ⟨⟨1⟩, ⟨1⟩, ⟨1⟩, ⟨1⟩, Quat.identity, 3⟩
  odom := ⟨⟨1 / 2⟩, Quat.identity⟩

lemma mk_simLift (hu : A.u ≤ 1 / 128) (st : State (Fl A) 4) : ∃ s : Sim (Fl A) 4, Sim.mk' (simLift A st) = some s ∧
    s.dyn.state = st ∧
    s.dyn.model.core = some (Model.coreOf (liftParams A Fixture.modelParams) fun i => liftMotor A (Fixture.motors i)) ∧
    s.armed = false ∧ s.floorEnable = false := by
  have hd : Dyn.mk' (simLift A st).dyn = some ⟨⟨some (Model.coreOf (liftParams A Fixture.modelParams)
      fun i => liftMotor A (Fixture.motors i)), none, ⟨7, 0⟩, vzero, vzero⟩, st⟩ := by
    simp [Dyn.mk', simLift, Model.mk', Model.updateParams, check_lift_fixture hu,
      show (liftParams A Fixture.modelParams).motors = Fixture.modelParams.motors.map (liftMotor A) from rfl,
      motorFn_lift Fixture.motorFn_eq, dirOk_lift, Fixture.dirOk]
  have ho : ∃ o, Odom.mk' (simLift A st).odom = some o := by
    unfold Odom.mk'
    rw [if_pos]
    · exact ⟨_, rfl⟩
    · have h1 : (1 / 2 : ℝ) ≤ A.rnd 1 := by
        have := (abs_le.1 (A.rnd_err 1)).1
        rw [abs_one] at this
        linarith
      have h2 : (lit 1 : Fl A).val = A.rnd 1 := by simp [lit]
      simp only [simLift, lt_val, le_val, lit_zero_val, h2, Bool.and_eq_true, decide_eq_true_eq]
      exact ⟨by norm_num, h1⟩
  obtain ⟨o, ho⟩ := ho
  simp only [Sim.mk', hd, ho]
  exact ⟨_, rfl, rfl, rfl, rfl, rfl⟩

lemma update_lift (hu : A.u ≤ 1 / 128) {s : Sim (Fl A) 4}
    (hc : s.dyn.model.core =
      some (Model.coreOf (liftParams A Fixture.modelParams) fun i => liftMotor A (Fixture.motors i)))
    {dt : Fl A} (h0 : 0 < dt.val) (h1 : dt.val ≤ 1 / 200) : ∃ s', s.updateDynamics dt = .ok s' ∧
    s'.dyn.model.core =
      some (Model.coreOf (liftParams A Fixture.modelParams) fun i => liftMotor A (Fixture.motors i)) := by
  have hm : dt.val ≤ (Dyn.maxStep : Fl A).val := by
    have h : (Dyn.maxStep : Fl A).val = A.rnd (1 / 100) := by simp [Dyn.maxStep, lit]
    rw [h]
    have := (abs_le.1 (A.rnd_err (1 / 100))).1
    rw [abs_of_pos (by norm_num)] at this
    linarith
  have hk : Dyn.clampOk (fun i => liftMotor A (Fixture.motors i)) = true := by
    simp [Dyn.clampOk, lt_val, liftMotor, Fixture.motors_speed, decide_eq_false_iff_not]
  rcases Sim.updateDynamics_cases s dt with ⟨-, h, -⟩ | ⟨ext, -, h⟩
  · rw [hc] at h; simp at h
  · rw [h, Dyn.process_small _ _ _ _ _ (by simpa [le_val, decide_eq_false_iff_not] using h0)
      (by simpa [lt_val, decide_eq_false_iff_not] using hm)]
    simp only [Dyn.singleStep, hc, show (Model.coreOf (liftParams A Fixture.modelParams)
      fun i => liftMotor A (Fixture.motors i)).params.motors = Fixture.modelParams.motors.map (liftMotor A) from rfl,
      motorFn_lift Fixture.motorFn_eq, hk]
    simp only [if_true]
    have he : ∀ ext noise, (Dyn.eulerStep (Model.coreOf (liftParams A Fixture.modelParams)
        fun i => liftMotor A (Fixture.motors i)) (fun i => liftMotor A (Fixture.motors i)) s.dyn s.actuation dt ext
        noise).model.core = some (Model.coreOf (liftParams A Fixture.modelParams)
        fun i => liftMotor A (Fixture.motors i)) := fun ext noise => by rw [Dyn.eulerStep_core, hc]
    split
    · exact ⟨_, rfl, he ext (!s.floorCollision)⟩
    · exact ⟨_, rfl, he ext (!s.floorCollision)⟩

lemma history_lift (hu : A.u ≤ 1 / 128) : ∃ (s₀ s s' t : Sim (Fl A) 4) (p : SimParams (Fl A) 4)
    (os os' : List (SimOp (Fl A) 4)) (dt : Fl A), Sim.mk' p = some s₀ ∧ NonzeroF p.dyn.state.ori ∧
    ¬ NearUnit p.dyn.state.ori ∧ (∀ o ∈ os, KeepsOri NonzeroF o) ∧ Sim.Runs s₀ os s ∧ s.updateDynamics dt = .ok s' ∧
    (∀ o ∈ os', KeepsOri NearUnit o) ∧ os'.length = 2 ∧ Sim.Runs s' os' t := by
  let st : State (Fl A) 4 := { (State.default : State (Fl A) 4) with ori := ⟨⟨1⟩, ⟨2⟩, ⟨3⟩, ⟨4⟩⟩ }
  let p : SimParams (Fl A) 4 := simLift A st
  obtain ⟨s₀, hmk, hst, hc, hf, hfe⟩ := mk_simLift hu st
  have hthrow : s₀.step (.updateDynamics ⟨-1⟩) = .throw s₀ := by
    show s₀.updateDynamics ⟨-1⟩ = _
    rcases Sim.updateDynamics_cases s₀ ⟨-1⟩ with ⟨hb, -, -⟩ | ⟨ext, he, hu⟩
    · simp [hfe, Sim.belowFloor] at hb
    · rw [hu, Dyn.process_nonpos _ _ _ _ _ (by simp [le_val])]
      rcases he with ⟨-, rfl⟩ | ⟨hb, -⟩
      · rfl
      · simp [hfe, Sim.belowFloor] at hb
  obtain ⟨s', h', hc'⟩ := update_lift hu hc (dt := ⟨1 / 200⟩) (by norm_num) (by norm_num)
  obtain ⟨t, ht, -⟩ := update_lift (s := s'.arm) hu hc' (dt := ⟨1 / 300⟩) (by norm_num) (by norm_num)
  refine ⟨s₀, s₀, s', t, p, [.updateDynamics ⟨-1⟩], [.arm, .updateDynamics ⟨1 / 300⟩], ⟨1 / 200⟩, hmk, ?_, ?_, ?_,
    .throw hthrow (.nil _), h', ?_, rfl, .ok rfl (.ok ht (.nil _))⟩
  · simp [p, simLift, st, NonzeroF, lengthSq]; norm_num
  · simp only [p, simLift, st, NearUnit, lengthSq, not_le]
    norm_num
    linarith
  · simp [KeepsOri]
  · simp [KeepsOri]

/-- A history with a non-normalised initial orientation, a rejected update, an update, arming and another update, in
double precision. -/
example [Noise (Fl (binary 53))] : ∃ (s₀ s s' t : Sim (Fl (binary 53)) 4) (p : SimParams (Fl (binary 53)) 4)
    (os os' : List (SimOp (Fl (binary 53)) 4)) (dt : Fl (binary 53)), Sim.mk' p = some s₀ ∧ NonzeroF p.dyn.state.ori ∧
    ¬ NearUnit p.dyn.state.ori ∧ (∀ o ∈ os, KeepsOri NonzeroF o) ∧ Sim.Runs s₀ os s ∧ s.updateDynamics dt = .ok s' ∧
    (∀ o ∈ os', KeepsOri NearUnit o) ∧ os'.length = 2 ∧ Sim.Runs s' os' t ∧ (binary 53).u ≤ 1 / 128 := by
  have hu : (binary 53).u ≤ 1 / 128 := by norm_num [binary]
  obtain ⟨s₀, s, s', t, p, os, os', dt, h1, h2, h3, h4, h5, h6, h7, h8, h9⟩ := history_lift hu
  exact ⟨s₀, s, s', t, p, os, os', dt, h1, h2, h3, h4, h5, h6, h7, h8, h9, hu⟩

/-- Two measurements, starting from a non-normalised estimate. -/
example : ∃ (o : Odom (Fl (binary 24))) (ms : List (Vec 3 (Fl (binary 24)) × Vec 3 (Fl (binary 24)))),
    (binary 24).u ≤ 1 / 128 ∧ NonzeroF o.ori ∧ ¬ NearUnit o.ori ∧ ms.length = 2 := by
  refine ⟨⟨⟨1⟩, Quat.identity, vzero, vzero, vzero, ⟨⟨0⟩, ⟨3⟩, ⟨0⟩, ⟨0⟩⟩, vzero, vzero, vzero⟩,
    [(vzero, vzero), (fun _ => ⟨1⟩, fun _ => ⟨2⟩)], by norm_num [binary], by simp [NonzeroF, lengthSq], ?_, rfl⟩
  simp [NearUnit, lengthSq, binary]
  norm_num

end

end Verif.Props
