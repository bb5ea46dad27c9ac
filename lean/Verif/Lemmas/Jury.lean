import Mathlib.Analysis.Complex.Basic
import Mathlib.Tactic.LinearCombination
import Mathlib.Tactic.Linarith

/-!
# Jury's test

All roots of a polynomial with integer coefficients are inside the unit circle if a finite computation with the coefficients
succeeds.
-/

namespace Verif.Stability

/-- Value of the polynomial with the given coefficients, lowest first. -/
noncomputable def polyVal (a : List ℤ) (z : ℂ) : ℂ := a.foldr (fun c r => c + z * r) 0

@[simp] lemma polyVal_nil (z : ℂ) : polyVal [] z = 0 := rfl
@[simp] lemma polyVal_cons (c : ℤ) (a : List ℤ) (z : ℂ) : polyVal (c :: a) z = c + z * polyVal a z := rfl

lemma polyVal_append_zero (a : List ℤ) (z : ℂ) : polyVal (a ++ [0]) z = polyVal a z := by
  induction a with
  | nil => simp
  | cons c a ih => simp [ih]

lemma polyVal_zipWith (p q : ℤ) (z : ℂ) : ∀ a b : List ℤ, a.length = b.length →
    polyVal (List.zipWith (fun x y => p * x - q * y) a b) z = p * polyVal a z - q * polyVal b z
  | [], [], _ => by simp
  | x :: a, y :: b, h => by
    have := polyVal_zipWith p q z a b (by simpa using h)
    simp only [List.zipWith_cons_cons, polyVal_cons, this]
    push_cast
    ring

/-- All roots are inside the unit circle, where the polynomial dominates the one with the reversed coefficients. -/
def Schur (a : List ℤ) : Prop := ∀ z : ℂ, 1 ≤ ‖z‖ → polyVal a z ≠ 0 ∧ ‖polyVal a.reverse z‖ ≤ ‖polyVal a z‖

lemma schur_single {c : ℤ} (hc : c ≠ 0) : Schur [c] := fun z _ => by
  simpa [polyVal_cons] using hc

/-- One step of the test: a polynomial of one degree less. -/
def juryStep (p q : ℤ) (a : List ℤ) : List ℤ := (List.zipWith (fun x y => p * x - q * y) a a.reverse).tail

lemma schur_step {p q : ℤ} {a b : List ℤ} (ha : a = q :: b) (hr : ∃ c, a.reverse = p :: c) (hpq : q ^ 2 < p ^ 2)
    (h : Schur (juryStep p q a)) : Schur a := by
  obtain ⟨c, hc⟩ := hr
  set T := juryStep p q a with hT
  have hzip : List.zipWith (fun x y => p * x - q * y) a a.reverse = 0 :: T := by
    rw [hT, juryStep, hc]
    subst ha
    simp only [List.zipWith_cons_cons, List.tail_cons]
    congr 1
    ring
  have hlen : a.length = a.reverse.length := by simp
  have e1 : ∀ z, z * polyVal T z = p * polyVal a z - q * polyVal a.reverse z := fun z => by
    rw [← polyVal_zipWith p q z a a.reverse hlen, hzip]; simp
  have e2 : ∀ z, polyVal T.reverse z = p * polyVal a.reverse z - q * polyVal a z := fun z => by
    have := congrArg List.reverse hzip
    rw [List.reverse_zipWith hlen, List.reverse_reverse, List.reverse_cons] at this
    rw [← polyVal_append_zero, ← this, polyVal_zipWith p q z _ _ hlen.symm]
  intro z hz
  obtain ⟨t0, t1⟩ := h z hz
  set P := polyVal a z
  set R := polyVal a.reverse z
  set S := polyVal T z
  set U := polyVal T.reverse z
  have k1 : z * S = p * P - q * R := e1 z
  have k2 : U = p * R - q * P := e2 z
  have hU : ‖U‖ ≤ ‖z * S‖ := by
    rw [norm_mul]
    exact t1.trans (le_mul_of_one_le_left (norm_nonneg _) hz)
  have hd : (0 : ℝ) < (p : ℝ) ^ 2 - (q : ℝ) ^ 2 := by
    have : ((q ^ 2 : ℤ) : ℝ) < ((p ^ 2 : ℤ) : ℝ) := by exact_mod_cast hpq
    push_cast at this
    linarith
  have hsq : ∀ u v : ℂ, ‖(p : ℂ) * u - q * v‖ ^ 2 - ‖(p : ℂ) * v - q * u‖ ^ 2 =
      ((p : ℝ) ^ 2 - (q : ℝ) ^ 2) * (‖u‖ ^ 2 - ‖v‖ ^ 2) := fun u v => by
    simp only [Complex.sq_norm, Complex.normSq_apply, Complex.sub_re, Complex.sub_im, Complex.mul_re, Complex.mul_im,
      Complex.intCast_re, Complex.intCast_im]
    ring
  have hPR : ‖R‖ ≤ ‖P‖ := by
    have h1 := hsq P R
    rw [← k1, ← k2] at h1
    have h2 : 0 ≤ ‖z * S‖ ^ 2 - ‖U‖ ^ 2 := by
      have := pow_le_pow_left₀ (norm_nonneg _) hU 2
      linarith
    have h3 : 0 ≤ ‖P‖ ^ 2 - ‖R‖ ^ 2 := by
      by_contra hn
      have := mul_neg_of_pos_of_neg hd (not_le.1 hn)
      linarith
    exact le_of_sq_le_sq (by linarith) (norm_nonneg _)
  refine ⟨fun hP => ?_, hPR⟩
  have hR : R = 0 := by rw [hP, norm_zero] at hPR; exact norm_le_zero_iff.1 hPR
  rw [hP, hR] at k1
  have hz0 : z ≠ 0 := by rintro rfl; norm_num at hz
  simp only [mul_zero, sub_zero, mul_eq_zero, hz0, t0, or_self] at k1

/-- Jury's test. -/
def jury : ℕ → List ℤ → Bool
  | 0, _ => false
  | n + 1, a => match a, a.reverse with
    | [c], _ => c != 0
    | q :: _, p :: _ => decide (q ^ 2 < p ^ 2) && jury n (juryStep p q a)
    | _, _ => false

lemma schur_of_jury : ∀ (n : ℕ) (a : List ℤ), jury n a = true → Schur a
  | 0, _, h => by simp [jury] at h
  | n + 1, a, h => by
    unfold jury at h
    split at h
    · exact schur_single (by simpa using h)
    · rename_i q b p c _ h2
      simp only [Bool.and_eq_true, decide_eq_true_eq] at h
      exact schur_step rfl ⟨_, h2⟩ h.1 (schur_of_jury n _ h.2)
    · simp at h

/-- A polynomial that passes the test has no root outside the open unit disc. -/
lemma no_root_of_jury {n : ℕ} {a : List ℤ} (h : jury n a = true) {z : ℂ} (hz : 1 ≤ ‖z‖) : polyVal a z ≠ 0 :=
  (schur_of_jury n a h z hz).1

end Verif.Stability
