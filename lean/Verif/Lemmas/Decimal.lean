import Verif.Model.Decimal
import Verif.Spec.Decimal
import Mathlib.Data.Nat.Log
import Mathlib.Data.List.TakeWhile
import Mathlib.Tactic.IntervalCases

/-!
# Lemmas about decimal text
-/

namespace Verif.Decimal

/-! ## Rounding to integers -/

lemma roundEven_abs (x : ℝ) : |(roundEven x : ℝ) - x| ≤ 1 / 2 := by
  have h1 := Int.floor_le x
  have h2 := Int.lt_floor_add_one x
  unfold roundEven
  split_ifs with a b c <;> rw [abs_le] <;> push_cast <;> constructor <;> linarith

lemma roundEven_nearest (x : ℝ) (z : ℤ) : |(roundEven x : ℝ) - x| ≤ |(z : ℝ) - x| := by
  by_cases h : z = roundEven x
  · rw [h]
  have h1 := roundEven_abs x
  have h2 : (1 : ℝ) ≤ |(z : ℝ) - roundEven x| := by
    have : (1 : ℤ) ≤ |z - roundEven x| := Int.one_le_abs (sub_ne_zero.2 h)
    calc (1 : ℝ) = ((1 : ℤ) : ℝ) := by norm_num
      _ ≤ ((|z - roundEven x| : ℤ) : ℝ) := by exact_mod_cast this
      _ = _ := by push_cast; rfl
  have h3 : |(z : ℝ) - roundEven x| ≤ |(z : ℝ) - x| + |(roundEven x : ℝ) - x| := by
    have : (z : ℝ) - roundEven x = ((z : ℝ) - x) - ((roundEven x : ℝ) - x) := by ring
    rw [this]
    exact abs_sub _ _
  linarith

lemma roundEven_mono {x y : ℝ} (h : x ≤ y) : roundEven x ≤ roundEven y := by
  rcases (Int.floor_mono h).lt_or_eq with hl | he
  · have a : roundEven x ≤ ⌊x⌋ + 1 := by unfold roundEven; split_ifs <;> omega
    have b : ⌊y⌋ ≤ roundEven y := by unfold roundEven; split_ifs <;> omega
    omega
  · unfold roundEven
    rw [← he]
    split_ifs <;> first | omega | linarith

lemma roundEven_int (z : ℤ) : roundEven z = z := by
  unfold roundEven
  simp

/-! ## Digits -/

lemma digits_length (w n : ℕ) : (digits w n).length = w := by
  induction w generalizing n with
  | zero => rfl
  | succ w ih => simp [digits, ih]

lemma digitChar_toNat (n : ℕ) : (Char.ofNat (48 + n % 10)).toNat = 48 + n % 10 := by
  have : n % 10 < 10 := Nat.mod_lt _ (by norm_num)
  interval_cases n % 10 <;> rfl

lemma digits_isDigit (w n : ℕ) : ∀ c ∈ digits w n, isDigit c = true := by
  induction w generalizing n with
  | zero => simp [digits]
  | succ w ih =>
    intro c hc
    rw [digits, List.mem_append, List.mem_singleton] at hc
    rcases hc with hc | rfl
    · exact ih _ c hc
    · have : n % 10 < 10 := Nat.mod_lt _ (by norm_num)
      simp only [isDigit, digitChar_toNat, Bool.and_eq_true, decide_eq_true_eq]
      omega

lemma value_foldl (a : ℕ) (l : List Char) :
    l.foldl (fun a c => 10 * a + (c.toNat - 48)) a = a * 10 ^ l.length + value l := by
  induction l generalizing a with
  | nil => simp [value]
  | cons c l ih =>
    rw [value, List.foldl_cons, List.foldl_cons, ih, ih (10 * 0 + _), List.length_cons]
    ring

lemma value_append (a b : List Char) : value (a ++ b) = value a * 10 ^ b.length + value b := by
  rw [value, List.foldl_append, value_foldl]
  rfl

lemma value_digits (w n : ℕ) : value (digits w n) = n % 10 ^ w := by
  induction w generalizing n with
  | zero => simp [digits, value, Nat.mod_one]
  | succ w ih =>
    rw [digits, value_append, ih]
    have : value [Char.ofNat (48 + n % 10)] = n % 10 := by
      simp only [value, List.foldl_cons, List.foldl_nil, digitChar_toNat]
      omega
    rw [this, List.length_singleton, pow_one, pow_succ', Nat.mod_mul]
    ring

lemma value_zeros (k : ℕ) : value (List.replicate k '0') = 0 := by
  induction k with
  | zero => rfl
  | succ k ih =>
    rw [List.replicate_succ, show '0' :: List.replicate k '0' = ['0'] ++ List.replicate k '0' from rfl, value_append, ih]
    have : value ['0'] = 0 := rfl
    rw [this, zero_mul]

lemma stripZeros_spec (l : List Char) : ∃ k, l = stripZeros l ++ List.replicate k '0' := by
  refine ⟨(l.reverse.takeWhile (· == '0')).length, ?_⟩
  have h : l.reverse.takeWhile (· == '0') = List.replicate (l.reverse.takeWhile (· == '0')).length '0' := by
    rw [List.eq_replicate_iff]
    refine ⟨rfl, fun c hc => ?_⟩
    have := List.mem_takeWhile_imp hc
    simpa using this
  rw [stripZeros, ← List.reverse_replicate, ← h, ← List.reverse_append, List.takeWhile_append_dropWhile,
    List.reverse_reverse]

/-! ## Reading a text written in parts -/

lemma sign_of_digit {c : Char} (l : List Char) (h : isDigit c = true) : sign (c :: l) = (false, c :: l) := by
  have h1 : c ≠ '-' := by rintro rfl; exact absurd h (by decide)
  have h2 : c ≠ '+' := by rintro rfl; exact absurd h (by decide)
  simp [sign, h1, h2]

lemma span_digits (a l : List Char) (ha : ∀ c ∈ a, isDigit c = true) (hl : ∀ c ∈ l.head?, isDigit c = false) :
    (a ++ l).span isDigit = (a, l) := by
  rw [List.span_eq_takeWhile_dropWhile, List.takeWhile_append_of_pos ha, List.dropWhile_append_of_pos ha]
  cases l with
  | nil => simp
  | cons c l =>
    have := hl c (by simp)
    simp [this]

lemma exponent_read (e : ℤ) : readExponent (exponent e) = some e := by
  have hlen : (digits (max 2 (Nat.log 10 e.natAbs + 1)) e.natAbs).length ≠ 0 := by
    rw [digits_length]; omega
  have hne : digits (max 2 (Nat.log 10 e.natAbs + 1)) e.natAbs ≠ [] := by
    intro h; rw [h] at hlen; exact hlen rfl
  have hall : (digits (max 2 (Nat.log 10 e.natAbs + 1)) e.natAbs).all isDigit = true := by
    rw [List.all_eq_true]
    exact digits_isDigit _ _
  have hv : value (digits (max 2 (Nat.log 10 e.natAbs + 1)) e.natAbs) = e.natAbs := by
    rw [value_digits]
    refine Nat.mod_eq_of_lt ((Nat.lt_pow_succ_log_self (b := 10) (by norm_num) e.natAbs).trans_le ?_)
    exact Nat.pow_le_pow_right (by norm_num) (le_max_right _ _)
  by_cases h : e < 0
  · simp only [exponent, h, if_true, List.cons_append, List.nil_append, readExponent, true_or, sign, hne, hall, hv,
      ne_eq, not_false_eq_true, and_self]
    congr 1
    omega
  · simp only [exponent, h, if_false, List.cons_append, List.nil_append, readExponent, true_or, if_true, sign, hne, hall, hv,
      ne_eq, not_false_eq_true, and_self, show ('+' = '-') = False by simp, Bool.false_eq_true]
    congr 1
    omega

lemma exponent_head (e : ℤ) (l : List Char) : ∀ c ∈ (exponent e ++ l).head?, c = 'e' := by
  simp [exponent]

lemma parse_parts (neg : Bool) (a b ex : List Char) (e : ℤ) (ha : a ≠ []) (hda : ∀ c ∈ a, isDigit c = true)
    (hdb : ∀ c ∈ b, isDigit c = true) (hex : (ex = [] ∧ e = 0) ∨ ex = exponent e) :
    parse ((if neg then ['-'] else []) ++ (a ++ fraction b ++ ex)) =
      some ((if neg then -1 else 1) * ((value (a ++ b) : ℝ) * 10 ^ (e - b.length))) := by
  have hr : readExponent ex = some e := by
    rcases hex with ⟨rfl, rfl⟩ | rfl
    · rfl
    · exact exponent_read e
  have hh : ∀ c ∈ ex.head?, c = 'e' := by
    rcases hex with ⟨rfl, rfl⟩ | rfl
    · simp
    · simpa using exponent_head e []
  have hhd : ∀ c ∈ ex.head?, isDigit c = false := fun c hc => by rw [hh c hc]; decide
  have hs : sign ((if neg then ['-'] else []) ++ (a ++ fraction b ++ ex)) = (neg, a ++ fraction b ++ ex) := by
    cases neg
    · cases a with
      | nil => exact absurd rfl ha
      | cons c a => exact sign_of_digit _ (hda c (by simp))
    · rfl
  obtain ⟨k, hk⟩ := stripZeros_spec b
  have hsd : ∀ c ∈ stripZeros b, isDigit c = true := fun c hc => hdb c (by rw [hk]; simp [hc])
  have hsp : (a ++ fraction b ++ ex).span isDigit = (a, fraction b ++ ex) := by
    rw [List.append_assoc]
    refine span_digits _ _ hda fun c hc => ?_
    unfold fraction at hc
    split at hc
    · exact hhd c hc
    · simp only [List.cons_append, List.head?_cons, Option.mem_def, Option.some.injEq] at hc
      rw [← hc]; decide
  have hpt : pointDigits (fraction b ++ ex) = (stripZeros b, ex) := by
    unfold fraction
    split
    · rename_i h
      rw [h, List.nil_append]
      cases ex with
      | nil => rfl
      | cons c ex =>
        have : c = 'e' := hh c (by simp)
        rw [this]; rfl
    · simp only [List.cons_append, pointDigits, if_true]
      exact span_digits _ _ hsd hhd
  simp only [parse, hs, hsp, hpt, ha, false_and, if_false, hr, Option.map_some]
  congr 2
  have hv : value (a ++ b) = value (a ++ stripZeros b) * 10 ^ k := by
    conv_lhs => rw [hk, ← List.append_assoc, value_append, value_zeros, List.length_replicate, add_zero]
  have hl : (b.length : ℤ) = (stripZeros b).length + k := by
    conv_lhs => rw [hk]
    simp
  rw [hv, hl]
  push_cast
  rw [mul_assoc, ← zpow_natCast (10 : ℝ) k, ← zpow_add₀ (by norm_num)]
  congr 2
  ring

end Verif.Decimal
