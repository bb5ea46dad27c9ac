import Verif.Lemmas.Model
import Verif.Model.Controllers

/-!
# Helper lemmas about the mixers of the predefined airframes
-/

namespace Verif

open Flt Spec

lemma sqrt_squared_scalar (a : ℝ) : √(|a * (|a|)|) * sign (a * |a|) = a := by
  have h1 : |a * (|a|)| = |a| ^ 2 := by rw [abs_mul, abs_abs, sq]
  rw [h1, Real.sqrt_sq (abs_nonneg a), sign_real]
  rcases lt_trichotomy a 0 with h | h | h
  · have : a * |a| < 0 := mul_neg_of_neg_of_pos h (abs_pos.2 h.ne)
    simp only [this, not_lt_of_gt this, if_true, if_false]
    rw [abs_of_neg h]; ring
  · simp [h]
  · have : 0 < a * |a| := mul_pos h (abs_pos.2 h.ne')
    simp only [this, if_true]
    rw [abs_of_pos h]; ring

lemma squared_sqrt_scalar (a : ℝ) : √|a| * sign a * |√|a| * sign a| = a := by
  have h0 : |√(|a|)| = √|a| := abs_of_nonneg (Real.sqrt_nonneg _)
  have h2 : √|a| * √|a| = |a| := Real.mul_self_sqrt (abs_nonneg a)
  rw [sign_real]
  rcases lt_trichotomy a 0 with h | h | h
  · simp only [not_lt_of_gt h, h, if_true, if_false, mul_neg, mul_one, abs_neg, h0, neg_mul, h2]
    rw [abs_of_neg h]; ring
  · simp [h]
  · simp only [h, if_true, mul_one, h0, h2]
    exact abs_of_pos h

lemma squared_strictMono : StrictMono fun a : ℝ => a * |a| := by
  intro a b h
  simp only
  rcases le_total 0 a with ha | ha
  · have hb : 0 ≤ b := ha.trans h.le
    rw [abs_of_nonneg ha, abs_of_nonneg hb]
    nlinarith
  · rcases le_total 0 b with hb | hb
    · rw [abs_of_nonpos ha, abs_of_nonneg hb]
      rcases eq_or_lt_of_le ha with rfl | ha'
      · nlinarith
      · nlinarith
    · rw [abs_of_nonpos ha, abs_of_nonpos hb]
      nlinarith

namespace Model

section
variable {α : Type}

lemma motorFn_four (a b c d : Motor α) : motorFn 4 [a, b, c, d] = some ![a, b, c, d] := by
  simp only [motorFn, List.length_cons, List.length_nil, Nat.reduceAdd, dite_true, Option.some.injEq]
  ext i : 1
  fin_cases i <;> rfl

lemma motorFn_six (a b c d e f : Motor α) :
    motorFn 6 [a, b, c, d, e, f] = some ![a, b, c, d, e, f] := by
  simp only [motorFn, List.length_cons, List.length_nil, Nat.reduceAdd, dite_true, Option.some.injEq]
  ext i : 1
  fin_cases i <;> rfl

lemma ofFn_four {ms : Fin 4 → Motor α} {a b c d : Motor α} (h : [a, b, c, d] = List.ofFn ms) :
    ms = ![a, b, c, d] := by
  apply List.ofFn_injective
  rw [← h]
  simp [List.ofFn_succ]

lemma ofFn_six {ms : Fin 6 → Motor α} {a b c d e f : Motor α} (h : [a, b, c, d, e, f] = List.ofFn ms) :
    ms = ![a, b, c, d, e, f] := by
  apply List.ofFn_injective
  rw [← h]
  simp [List.ofFn_succ]

end

/-- Without tilt the 6-row mixer is the 4-row one under two zero rows. -/
lemma mixer6_untilted {n : ℕ} (ms : Fin n → Motor ℝ) (h : ∀ i, (ms i).rot = 1) (i : Fin n) :
    mixer6 ms 0 i = 0 ∧ mixer6 ms 1 i = 0 ∧ ∀ r : Fin 4, mixer6 ms (Fin.natAdd 2 r) i = mixer4 ms r i := by
  have e : (ms i).rot = 1 := h i
  simp only [mixer6, motorContrib, mixer4, mv_real, lit_zero, e, Matrix.one_mulVec, flt]
  refine ⟨by simp, by simp, fun r => ?_⟩
  fin_cases r <;> simp [Fin.natAdd, cross_apply]

/-- The four wrench rows of the 6-row mixer. -/
lemma mixer6_mul {n k : ℕ} (ms : Fin n → Motor ℝ) (h : ∀ i, (ms i).rot = 1) (B : Mat n k ℝ) (j : Fin k) :
    ((mixer6 ms : Mat 6 n ℝ) * B) 0 j = 0 ∧ ((mixer6 ms : Mat 6 n ℝ) * B) 1 j = 0 ∧
    ∀ r : Fin 4, ((mixer6 ms : Mat 6 n ℝ) * B) (Fin.natAdd 2 r) j = ((mixer4 ms : Mat 4 n ℝ) * B) r j := by
  refine ⟨?_, ?_, fun r => ?_⟩
  · rw [Matrix.mul_apply]
    exact Finset.sum_eq_zero fun i _ => by rw [(mixer6_untilted ms h i).1, zero_mul]
  · rw [Matrix.mul_apply]
    exact Finset.sum_eq_zero fun i _ => by rw [(mixer6_untilted ms h i).2.1, zero_mul]
  · rw [Matrix.mul_apply, Matrix.mul_apply]
    exact Finset.sum_congr rfl fun i _ => by rw [(mixer6_untilted ms h i).2.2]

/-- Two zero columns in front. -/
def padded (B : Mat 4 4 ℝ) : Mat 4 6 ℝ :=
  Matrix.of fun i j => (![0, 0, B i 0, B i 1, B i 2, B i 3] : Vec 6 ℝ) j

lemma mul_padded (A B : Mat 4 4 ℝ) : A * padded B = padded (A * B) := by
  ext r j
  fin_cases j <;> simp [padded, Matrix.mul_apply]

lemma fin6_cases (r : Fin 6) : r = 0 ∨ r = 1 ∨ ∃ q : Fin 4, r = Fin.natAdd 2 q := by
  fin_cases r
  · exact .inl rfl
  · exact .inr (.inl rfl)
  · exact .inr (.inr ⟨0, rfl⟩)
  · exact .inr (.inr ⟨1, rfl⟩)
  · exact .inr (.inr ⟨2, rfl⟩)
  · exact .inr (.inr ⟨3, rfl⟩)

lemma mixerInverse_eq (ms : Fin 4 → Motor ℝ) (h : ∀ i, (ms i).rot = 1) (B : Mat 4 4 ℝ)
    (hB : (mixer4 ms : Mat 4 4 ℝ) * B = 1) : Indi.mixerInverse (mixer6 ms) = padded B := by
  have hM : (fun r i => mixer6 ms (Fin.natAdd 2 r) i : Mat 4 4 ℝ) = mixer4 ms := by
    ext r i
    exact (mixer6_untilted ms h i).2.2 r
  unfold Indi.mixerInverse
  simp only [hM, inv4_real, Matrix.inv_eq_right_inv hB, lit_zero]
  rfl

/-- If the 4-row mixer is invertible the allocation matrix is a right inverse on the wrench rows. -/
lemma mixer6_mul_inverse (ms : Fin 4 → Motor ℝ) (h : ∀ i, (ms i).rot = 1) (B : Mat 4 4 ℝ)
    (hB : (mixer4 ms : Mat 4 4 ℝ) * B = 1) :
    (mixer6 ms : Mat 6 4 ℝ) * Indi.mixerInverse (mixer6 ms) = Matrix.diagonal ![0, 0, 1, 1, 1, 1] ∧
      Indi.mixerInverse (mixer6 ms) * (mixer6 ms : Mat 6 4 ℝ) = 1 := by
  rw [mixerInverse_eq ms h B hB]
  constructor
  · ext r j
    obtain ⟨h0, h1, h2⟩ := mixer6_mul ms h (padded B) j
    rcases fin6_cases r with rfl | rfl | ⟨q, rfl⟩
    · rw [h0]; fin_cases j <;> simp [Matrix.diagonal]
    · rw [h1]; fin_cases j <;> simp [Matrix.diagonal]
    · rw [h2, mul_padded, hB]
      fin_cases q <;> fin_cases j <;> simp [Matrix.diagonal, Fin.natAdd, padded]
  · have hB' : B * (mixer4 ms : Mat 4 4 ℝ) = 1 := mul_eq_one_comm.1 hB
    ext i j
    rw [← hB', Matrix.mul_apply, Matrix.mul_apply, Fin.sum_univ_six, Fin.sum_univ_four]
    have h2 := (mixer6_untilted ms h j).2.2
    rw [← h2 0, ← h2 1, ← h2 2, ← h2 3]
    simp [padded, Fin.natAdd]

end Model

end Verif
