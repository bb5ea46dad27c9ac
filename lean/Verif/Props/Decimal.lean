import Verif.Lemmas.Decimal
import Verif.Props.Plot
import Mathlib.Data.Int.ModEq

/-!
# C127, C128: the precision of the log
-/

namespace Verif.Props

open Verif Flt Spec PlotAux

/-- The number read back. -/
noncomputable def sixDigits (x : ℝ) : ℝ :=
  if x = 0 then 0
  else (if x < 0 then -1 else 1) * (((Decimal.scientific |x|).1 : ℝ) * 10 ^ ((Decimal.scientific |x|).2 - 5))

lemma scientific_spec {x : ℝ} (hx : 0 < x) :
    100000 ≤ (Decimal.scientific x).1 ∧ (Decimal.scientific x).1 < 1000000 ∧
    ((Decimal.scientific x).1 : ℝ) * 10 ^ ((Decimal.scientific x).2 - 5) =
      Decimal.roundEven (x / 10 ^ (Int.log 10 x - 5)) * 10 ^ (Int.log 10 x - 5) := by
  have hp : (0 : ℝ) < 10 ^ (Int.log 10 x - 5) := by positivity
  have h1 : (10 : ℝ) ^ Int.log 10 x ≤ x := by exact_mod_cast Int.zpow_log_le_self (b := 10) (by norm_num) hx
  have h2 : x < (10 : ℝ) ^ (Int.log 10 x + 1) := by
    exact_mod_cast Int.lt_zpow_succ_log_self (b := 10) (by norm_num) x
  have l1 : ((100000 : ℤ) : ℝ) ≤ x / 10 ^ (Int.log 10 x - 5) := by
    rw [le_div_iff₀ hp]
    have : ((100000 : ℤ) : ℝ) * 10 ^ (Int.log 10 x - 5) = 10 ^ Int.log 10 x := by
      rw [show ((100000 : ℤ) : ℝ) = 10 ^ (5 : ℤ) by norm_num, ← zpow_add₀ (by norm_num)]
      congr 1; ring
    rw [this]; exact h1
  have l2 : x / 10 ^ (Int.log 10 x - 5) ≤ ((1000000 : ℤ) : ℝ) := by
    rw [div_le_iff₀ hp]
    have : ((1000000 : ℤ) : ℝ) * 10 ^ (Int.log 10 x - 5) = 10 ^ (Int.log 10 x + 1) := by
      rw [show ((1000000 : ℤ) : ℝ) = 10 ^ (6 : ℤ) by norm_num, ← zpow_add₀ (by norm_num)]
      congr 1; ring
    rw [this]; exact h2.le
  have r1 := Decimal.roundEven_mono l1
  have r2 := Decimal.roundEven_mono l2
  rw [Decimal.roundEven_int] at r1 r2
  have hc : ((Decimal.roundEven (x / 10 ^ (Int.log 10 x - 5))).toNat : ℤ) =
      Decimal.roundEven (x / 10 ^ (Int.log 10 x - 5)) := Int.toNat_of_nonneg (by omega)
  have hcr : ((Decimal.roundEven (x / 10 ^ (Int.log 10 x - 5))).toNat : ℝ) =
      Decimal.roundEven (x / 10 ^ (Int.log 10 x - 5)) := by exact_mod_cast hc
  unfold Decimal.scientific
  simp only
  split
  · rename_i h
    refine ⟨le_rfl, by norm_num, ?_⟩
    rw [← hcr, h]
    push_cast
    rw [show Int.log 10 x + 1 - 5 = 1 + (Int.log 10 x - 5) by ring, zpow_add₀ (by norm_num)]
    norm_num
    ring
  · rename_i h
    refine ⟨by omega, by omega, ?_⟩
    rw [hcr]

lemma general_read (neg : Bool) {n : ℕ} (hn : n < 1000000) (e : ℤ) :
    Decimal.parse ((if neg then ['-'] else []) ++ Decimal.general n e) =
      some ((if neg then -1 else 1) * ((n : ℝ) * 10 ^ (e - 5))) := by
  have hv : Decimal.value (Decimal.digits 6 n) = n := by
    rw [Decimal.value_digits]
    exact Nat.mod_eq_of_lt (by norm_num; exact hn)
  have hl : (Decimal.digits 6 n).length = 6 := Decimal.digits_length _ _
  have hd := Decimal.digits_isDigit 6 n
  unfold Decimal.general
  simp only
  by_cases h : -4 ≤ e ∧ e < 6
  · rw [if_pos h]
    by_cases h0 : e < 0
    · rw [if_pos h0]
      have := Decimal.parse_parts neg ['0'] (List.replicate (-e - 1).toNat '0' ++ Decimal.digits 6 n) [] 0 (by simp)
        (by simp; decide) (by
          intro c hc
          rw [List.mem_append] at hc
          rcases hc with hc | hc
          · rw [List.eq_of_mem_replicate hc]; decide
          · exact hd c hc) (.inl ⟨rfl, rfl⟩)
      rw [List.append_nil] at this
      rw [show ('0' :: Decimal.fraction (List.replicate (-e - 1).toNat '0' ++ Decimal.digits 6 n)) =
        ['0'] ++ Decimal.fraction (List.replicate (-e - 1).toNat '0' ++ Decimal.digits 6 n) from rfl, this]
      congr 2
      rw [← List.append_assoc, Decimal.value_append, show ['0'] ++ List.replicate (-e - 1).toNat '0' =
        List.replicate ((-e - 1).toNat + 1) '0' from rfl, Decimal.value_zeros, hv, zero_mul, zero_add]
      congr 2
      rw [List.length_append, List.length_replicate, hl]
      push_cast
      rw [Int.toNat_of_nonneg (by omega)]
      ring
    · rw [if_neg h0]
      obtain ⟨k, rfl⟩ : ∃ k : ℕ, e = k := ⟨e.toNat, (Int.toNat_of_nonneg (by omega)).symm⟩
      have hk : k < 6 := by omega
      rw [show ((k : ℤ) + 1).toNat = k + 1 by omega]
      have := Decimal.parse_parts neg ((Decimal.digits 6 n).take (k + 1)) ((Decimal.digits 6 n).drop (k + 1)) [] 0
        (by
          intro h
          have := congrArg List.length h
          simp [hl] at this)
        (fun c hc => hd c (List.mem_of_mem_take hc)) (fun c hc => hd c (List.mem_of_mem_drop hc)) (.inl ⟨rfl, rfl⟩)
      rw [List.append_nil] at this
      rw [this, List.take_append_drop, hv]
      congr 4
      rw [List.length_drop, hl]
      omega
  · rw [if_neg h]
    have := Decimal.parse_parts neg ((Decimal.digits 6 n).take 1) ((Decimal.digits 6 n).drop 1) (Decimal.exponent e) e
      (by
        intro h
        have := congrArg List.length h
        simp [hl] at this)
      (fun c hc => hd c (List.mem_of_mem_take hc)) (fun c hc => hd c (List.mem_of_mem_drop hc)) (.inr rfl)
    rw [this, List.take_append_drop, hv, List.length_drop, hl]
    norm_num

lemma print_read (x : ℝ) : Decimal.parse (Decimal.print x) = some (sixDigits x) := by
  by_cases h : x = 0
  · have := Decimal.parse_parts false ['0'] [] [] 0 (by simp) (by simp; decide) (by simp) (.inl ⟨rfl, rfl⟩)
    have e : (if false = true then ['-'] else []) ++ (['0'] ++ Decimal.fraction [] ++ []) = ['0'] := rfl
    rw [e] at this
    rw [Decimal.print, if_pos h, sixDigits, if_pos h, this]
    simp [Decimal.value]
  · have := general_read (decide (x < 0)) (scientific_spec (abs_pos.2 h)).2.1 (Decimal.scientific |x|).2
    simp only [decide_eq_true_eq] at this
    rw [Decimal.print, if_neg h, sixDigits, if_neg h, this]

lemma digits_plain {l : List Char} (h : ∀ c ∈ l, Decimal.isDigit c = true) : ',' ∉ l := by
  intro hc
  exact absurd (h _ hc) (by decide)

lemma fraction_plain {l : List Char} (h : ∀ c ∈ l, Decimal.isDigit c = true) : ',' ∉ Decimal.fraction l := by
  obtain ⟨k, hk⟩ := Decimal.stripZeros_spec l
  unfold Decimal.fraction
  split
  · simp
  · rw [List.mem_cons, not_or]
    refine ⟨by decide, digits_plain fun c hc => h c (by rw [hk]; simp [hc])⟩

lemma general_plain (n : ℕ) (e : ℤ) : Decimal.general n e ≠ [] ∧ ',' ∉ Decimal.general n e := by
  have hl : (Decimal.digits 6 n).length = 6 := Decimal.digits_length _ _
  have hd := Decimal.digits_isDigit 6 n
  have ht : ∀ k, ',' ∉ (Decimal.digits 6 n).take (k + 1) ∧ (Decimal.digits 6 n).take (k + 1) ≠ [] := by
    intro k
    refine ⟨digits_plain fun c hc => hd c (List.mem_of_mem_take hc), fun h => ?_⟩
    have := congrArg List.length h
    simp [hl] at this
  have hr : ∀ k, ',' ∉ Decimal.fraction ((Decimal.digits 6 n).drop k) :=
    fun k => fraction_plain fun c hc => hd c (List.mem_of_mem_drop hc)
  unfold Decimal.general
  simp only
  split
  · rename_i h
    split
    · refine ⟨by simp, ?_⟩
      rw [List.mem_cons, not_or]
      refine ⟨by decide, fraction_plain fun c hc => ?_⟩
      rw [List.mem_append] at hc
      rcases hc with hc | hc
      · rw [List.eq_of_mem_replicate hc]; decide
      · exact hd c hc
    · rename_i h0
      rw [show (e + 1).toNat = e.toNat + 1 by omega]
      simp only [ne_eq, List.append_eq_nil_iff, (ht e.toNat).2, false_and, not_false_eq_true, List.mem_append, (ht e.toNat).1,
        hr, or_self, and_self]
  · have hx : ',' ∉ Decimal.exponent e := by
      unfold Decimal.exponent
      have := digits_plain (Decimal.digits_isDigit (max 2 (Nat.log 10 e.natAbs + 1)) e.natAbs)
      rw [List.mem_append, not_or]
      refine ⟨?_, this⟩
      split <;> decide
    simp only [ne_eq, List.append_eq_nil_iff, (ht 0).2, false_and, not_false_eq_true, List.mem_append, (ht 0).1, hr, hx,
      or_self, and_self]

/-- The printer and the reader fit together: what C118 assumes of them holds. -/
lemma print_reads_back : ReadsBack Decimal.print Decimal.parse sixDigits := by
  intro x
  refine ⟨?_, ?_, print_read x⟩
  · unfold Decimal.print
    split
    · simp
    · simp [(general_plain _ _).1]
  · unfold Decimal.print
    split
    · decide
    · rw [List.mem_append, not_or]
      refine ⟨?_, (general_plain _ _).2⟩
      split <;> decide

/-! ## Accuracy -/

lemma sixDigits_neg (x : ℝ) : sixDigits (-x) = -sixDigits x := by
  unfold sixDigits
  by_cases h : x = 0
  · simp [h]
  · rw [if_neg (neg_ne_zero.2 h), if_neg h, abs_neg]
    rcases lt_or_gt_of_ne h with h | h
    · rw [if_neg (by linarith), if_pos h]; ring
    · rw [if_pos (by linarith), if_neg (by linarith)]; ring

lemma sixDigits_pos {x : ℝ} (hx : 0 < x) : NearestSix x (sixDigits x) ∧ |sixDigits x - x| ≤ x * (5 / 10 ^ 6) := by
  obtain ⟨a, b, c⟩ := scientific_spec hx
  have hp : (0 : ℝ) < 10 ^ (Int.log 10 x - 5) := by positivity
  have h1 : (10 : ℝ) ^ Int.log 10 x ≤ x := by exact_mod_cast Int.zpow_log_le_self (b := 10) (by norm_num) hx
  have e1 : sixDigits x = ((Decimal.scientific x).1 : ℝ) * 10 ^ ((Decimal.scientific x).2 - 5) := by
    rw [sixDigits, if_neg hx.ne', if_neg hx.not_gt, abs_of_pos hx, one_mul]
  have hg : (10 : ℝ) ^ Int.log 10 x = 100000 * 10 ^ (Int.log 10 x - 5) := by
    rw [show (100000 : ℝ) = 10 ^ (5 : ℤ) by norm_num, ← zpow_add₀ (by norm_num)]
    congr 1; ring
  have hdist : ∀ z : ℝ, |z * 10 ^ (Int.log 10 x - 5) - x| =
      |z - x / 10 ^ (Int.log 10 x - 5)| * 10 ^ (Int.log 10 x - 5) := by
    intro z
    rw [← abs_of_pos hp, ← abs_mul, abs_of_pos hp, sub_mul, div_mul_cancel₀ _ hp.ne']
  have e2 := e1.trans c
  refine ⟨⟨⟨(Decimal.scientific x).1, (Decimal.scientific x).2 - 5, ?_, ?_⟩, ?_⟩, ?_⟩
  · rw [abs_of_nonneg (by positivity)]
    norm_num
    omega
  · rw [e1]; push_cast; rfl
  · rintro z ⟨k, f, hk, rfl⟩
    rw [e2, hdist]
    rcases le_or_gt (Int.log 10 x - 5) f with hf | hf
    · obtain ⟨r, hr⟩ : ∃ r : ℕ, f = r + (Int.log 10 x - 5) := ⟨(f - (Int.log 10 x - 5)).toNat, by omega⟩
      have : (k : ℝ) * 10 ^ f = ((k * 10 ^ r : ℤ) : ℝ) * 10 ^ (Int.log 10 x - 5) := by
        rw [hr, zpow_add₀ (by norm_num)]
        push_cast
        rw [zpow_natCast]
        ring
      rw [this, hdist]
      exact mul_le_mul_of_nonneg_right (Decimal.roundEven_nearest _ _) hp.le
    · have hz : |(k : ℝ) * 10 ^ f| ≤ 10 ^ Int.log 10 x := by
        rw [abs_mul, abs_of_pos (by positivity : (0 : ℝ) < 10 ^ f)]
        have hk' : |(k : ℝ)| ≤ 10 ^ (6 : ℤ) := by
          have : ((|k| : ℤ) : ℝ) < ((10 ^ 6 : ℤ) : ℝ) := Int.cast_lt.2 hk
          rw [Int.cast_abs] at this
          norm_num at this ⊢
          exact this.le
        calc |(k : ℝ)| * 10 ^ f ≤ 10 ^ (6 : ℤ) * 10 ^ (Int.log 10 x - 6) :=
              mul_le_mul hk' (zpow_le_zpow_right₀ (by norm_num) (by omega)) (by positivity) (by positivity)
          _ = 10 ^ Int.log 10 x := by rw [← zpow_add₀ (by norm_num)]; congr 1; ring
      have n1 := Decimal.roundEven_nearest (x / 10 ^ (Int.log 10 x - 5)) 100000
      have n2 := mul_le_mul_of_nonneg_right n1 hp.le
      rw [← hdist ((100000 : ℤ) : ℝ)] at n2
      refine n2.trans ?_
      have q1 : ((100000 : ℤ) : ℝ) * 10 ^ (Int.log 10 x - 5) = 10 ^ Int.log 10 x := by rw [hg]; norm_num
      rw [q1, abs_sub_comm, abs_of_nonneg (by linarith), abs_sub_comm, abs_of_nonneg (by linarith [le_abs_self ((k : ℝ) * 10 ^ f)])]
      linarith [le_abs_self ((k : ℝ) * 10 ^ f)]
  · rw [e2, hdist]
    have := mul_le_mul_of_nonneg_right (Decimal.roundEven_abs (x / 10 ^ (Int.log 10 x - 5))) hp.le
    linarith

lemma nearestSix_neg {x y : ℝ} (h : NearestSix x y) : NearestSix (-x) (-y) := by
  have hn : ∀ {z}, SixDigits z → SixDigits (-z) := by
    rintro z ⟨n, e, hn, rfl⟩
    exact ⟨-n, e, by rwa [abs_neg], by push_cast; ring⟩
  refine ⟨hn h.1, fun z hz => ?_⟩
  have := h.2 (-z) (hn hz)
  rw [show -y - -x = -(y - x) by ring, abs_neg]
  rwa [show -z - x = -(z - -x) by ring, abs_neg] at this

lemma sixDigits_spec (x : ℝ) : NearestSix x (sixDigits x) ∧ |sixDigits x - x| ≤ |x| * (5 / 10 ^ 6) := by
  rcases lt_trichotomy x 0 with h | h | h
  · obtain ⟨a, b⟩ := sixDigits_pos (x := -x) (by linarith)
    rw [sixDigits_neg] at a b
    have := nearestSix_neg a
    rw [neg_neg, neg_neg] at this
    refine ⟨this, ?_⟩
    rw [abs_of_neg h]
    rwa [show -sixDigits x - -x = -(sixDigits x - x) by ring, abs_neg] at b
  · subst h
    have : sixDigits 0 = 0 := by simp [sixDigits]
    rw [this]
    exact ⟨⟨⟨0, 0, by norm_num, by simp⟩, fun z _ => by simp⟩, by simp⟩
  · rw [abs_of_pos h]
    exact sixDigits_pos h

/-! ## C127 -/

/-- **C127.** A number printed by the logger is read back by the script as the nearest number of six digits: the error is at
most five millionths of it, a number of six digits is read back exactly, and the order of numbers is kept. -/
theorem C127_precision :
    (∀ x, ∃ y, Decimal.parse (Decimal.print x) = some y ∧ NearestSix x y ∧ |y - x| ≤ |x| * (5 / 10 ^ 6)) ∧
    (∀ x, SixDigits x → Decimal.parse (Decimal.print x) = some x) ∧
    ∀ x x' y y', x ≤ x' → Decimal.parse (Decimal.print x) = some y → Decimal.parse (Decimal.print x') = some y' →
      y ≤ y' := by
  refine ⟨fun x => ⟨sixDigits x, print_read x, sixDigits_spec x⟩, fun x hx => ?_, fun x x' y y' h h1 h2 => ?_⟩
  · rw [print_read]
    have := (sixDigits_spec x).1.2 x hx
    rw [sub_self, abs_zero] at this
    rw [sub_eq_zero.1 (abs_eq_zero.1 (le_antisymm this (abs_nonneg _)))]
  · rw [print_read, Option.some.injEq] at h1 h2
    subst h1 h2
    by_contra hc
    push Not at hc
    have a := (sixDigits_spec x).1.2 _ (sixDigits_spec x').1.1
    have b := (sixDigits_spec x').1.2 _ (sixDigits_spec x).1.1
    have hx : x = x' := by
      refine le_antisymm h ?_
      have a' := sq_le_sq.2 a
      have b' := sq_le_sq.2 b
      nlinarith
    rw [hx] at hc
    exact lt_irrefl _ hc

/-- Non-vacuity: a third has no six digits, a quarter has. -/
example : ¬ SixDigits (1 / 3) ∧ SixDigits (1 / 4) := by
  refine ⟨?_, 25, -2, by norm_num, by norm_num⟩
  rintro ⟨n, e, -, h⟩
  rcases le_or_gt 0 e with he | he
  · obtain ⟨k, rfl⟩ := Int.eq_ofNat_of_zero_le he
    have h1 : (1 : ℝ) = ((3 * n * 10 ^ k : ℤ) : ℝ) := by push_cast; rw [zpow_natCast] at h; linarith
    have h2 : (1 : ℤ) = 3 * n * 10 ^ k := by exact_mod_cast h1
    have : (3 : ℤ) ∣ 1 := ⟨n * 10 ^ k, by rw [h2]; ring⟩
    omega
  · obtain ⟨k, hk⟩ : ∃ k : ℕ, e = -k := ⟨(-e).toNat, by omega⟩
    rw [hk, zpow_neg, zpow_natCast] at h
    have hp : (10 : ℝ) ^ k ≠ 0 := by positivity
    field_simp at h
    have h2 : (10 : ℤ) ^ k = 3 * n := by exact_mod_cast (by linarith : (10 : ℝ) ^ k = 3 * n)
    have h3 : (10 : ℤ) ^ k % 3 = 1 := by
      have h10 : (10 : ℤ) ≡ 1 [ZMOD 3] := rfl
      have := h10.pow k
      rw [one_pow] at this
      exact this
    omega

/-- **C127.** So the script has of every flight all 74 quantities at every logged moment to six digits. -/
theorem C127_log [Noise ℝ] (ms : List (Moment ℝ)) (hv : Valid ms) (hms : ms ≠ []) :
    ∃ file d, fileOf Decimal.print ms = some file ∧ Plot.readCsv Decimal.parse file = some (.data d false) ∧
      ∀ c ∈ columns, List.Forall₂ (fun m y => NearestSix (c.2 m) y) ms (d.get c.1.toList) := by
  obtain ⟨file, d, h1, h2, h3, -⟩ := C118_reads_back_partial print_reads_back ms hv
    (fun m _ => ⟨by simp [flt], fun c _ => by simp [flt]⟩) hms
  refine ⟨file, d, h1, h2, fun c hc => ?_⟩
  rw [h3 c hc, series, List.forall₂_map_right_iff, List.forall₂_same]
  exact fun m _ => (sixDigits_spec _).1

/-- Non-vacuity. -/
example [Noise ℝ] : Valid [⟨1 / 3, Fixture.sim, Fixture.core⟩] := by
  intro m hm
  rw [List.mem_singleton] at hm
  rw [hm]; rfl

/-! ## C128 -/

/-- A log written every `dt`: `n` moments of a flight. -/
def everyPeriod (dt : ℝ) (n : ℕ) (s : ℕ → Sim ℝ 4) (c : ℕ → ModelCore ℝ 4) : List (Moment ℝ) :=
  (List.range n).map fun k : ℕ => ⟨k * dt, s k, c k⟩

/-- Full claim: in the log of a flight the times increase from line to line. -/
def C128_claim : Prop :=
  ∀ (_ : Noise ℝ) (dt : ℝ) (n : ℕ) (s : ℕ → Sim ℝ 4) (c : ℕ → ModelCore ℝ 4) (file : List (List Char))
    (d : Plot.Dict ℝ) (w : Bool), 0 < dt → Valid (everyPeriod dt n s c) →
    fileOf Decimal.print (everyPeriod dt n s c) = some file → Plot.readCsv Decimal.parse file = some (.data d w) →
    (d.get "time".toList).Pairwise (· < ·)

lemma time_column [Noise ℝ] {dt : ℝ} {n : ℕ} {s : ℕ → Sim ℝ 4} {c : ℕ → ModelCore ℝ 4} (hn : 0 < n)
    (hv : Valid (everyPeriod dt n s c)) :
    ∃ file d, fileOf Decimal.print (everyPeriod dt n s c) = some file ∧
      Plot.readCsv Decimal.parse file = some (.data d false) ∧
      d.get "time".toList = (List.range n).map fun k : ℕ => sixDigits (k * dt) := by
  have hms : everyPeriod dt n s c ≠ [] := by
    intro h
    have := congrArg List.length h
    simp [everyPeriod] at this
    omega
  obtain ⟨file, d, h1, h2, h3, -⟩ := C118_reads_back_partial print_reads_back _ hv
    (fun m _ => ⟨by simp [flt], fun c _ => by simp [flt]⟩) hms
  refine ⟨file, d, h1, h2, ?_⟩
  rw [h3 ("time", fun m => m.time) (by simp [columns]), series, everyPeriod, List.map_map]
  rfl

lemma sixDigits_exact {x : ℝ} (h : SixDigits x) : sixDigits x = x := by
  have := (sixDigits_spec x).1.2 x h
  rw [sub_self, abs_zero] at this
  exact sub_eq_zero.1 (abs_eq_zero.1 (le_antisymm this (abs_nonneg _)))

lemma sixDigits_milli {t : ℝ} (h0 : 0 ≤ t) (h1 : t < 1000) : |sixDigits t - t| ≤ 1 / 2000 := by
  have hr := Decimal.roundEven_abs (t * 1000)
  have r0 : 0 ≤ Decimal.roundEven (t * 1000) := by
    have := Decimal.roundEven_mono (x := ((0 : ℤ) : ℝ)) (y := t * 1000) (by push_cast; positivity)
    rwa [Decimal.roundEven_int] at this
  have r1 : Decimal.roundEven (t * 1000) ≤ 1000000 := by
    have := Decimal.roundEven_mono (x := t * 1000) (y := ((1000000 : ℤ) : ℝ)) (by push_cast; linarith)
    rwa [Decimal.roundEven_int] at this
  have hs : SixDigits ((Decimal.roundEven (t * 1000) : ℝ) / 1000) := by
    rcases r1.lt_or_eq with hlt | he
    · refine ⟨Decimal.roundEven (t * 1000), -3, ?_, by norm_num; ring⟩
      rw [abs_of_nonneg r0]
      norm_num
      exact hlt
    · rw [he]
      exact ⟨1, 3, by norm_num, by norm_num⟩
  refine ((sixDigits_spec t).1.2 _ hs).trans ?_
  have : (Decimal.roundEven (t * 1000) : ℝ) / 1000 - t = ((Decimal.roundEven (t * 1000) : ℝ) - t * 1000) / 1000 := by ring
  rw [this, abs_div, abs_of_pos (by norm_num : (0 : ℝ) < 1000)]
  linarith

/-- **C128, partial.** With a period of at least one millisecond the times increase for the first thousand seconds.
Missing: longer logs, see `C128_violated`. -/
theorem C128_times_partial [Noise ℝ] (dt : ℝ) (n : ℕ) (s : ℕ → Sim ℝ 4) (c : ℕ → ModelCore ℝ 4) (hdt : 1 / 1000 ≤ dt)
    (hn : 0 < n) (ht : n * dt ≤ 1000) (hv : Valid (everyPeriod dt n s c)) :
    ∃ file d, fileOf Decimal.print (everyPeriod dt n s c) = some file ∧
      Plot.readCsv Decimal.parse file = some (.data d false) ∧ (d.get "time".toList).length = n ∧
      (d.get "time".toList).Pairwise (· < ·) := by
  obtain ⟨file, d, h1, h2, h3⟩ := time_column hn hv
  refine ⟨file, d, h1, h2, by rw [h3]; simp, ?_⟩
  rw [h3, List.pairwise_map]
  refine List.Pairwise.imp_of_mem ?_ List.pairwise_lt_range
  intro i j hi hj hij
  rw [List.mem_range] at hi hj
  have hd : (i : ℝ) * dt + dt ≤ j * dt := by
    have : (i : ℝ) + 1 ≤ j := by exact_mod_cast hij
    nlinarith
  have hb : ∀ k : ℕ, k < n → 0 ≤ (k : ℝ) * dt ∧ (k : ℝ) * dt < 1000 := by
    intro k hk
    have : (k : ℝ) < n := by exact_mod_cast hk
    exact ⟨by positivity, by nlinarith⟩
  rcases hdt.lt_or_eq with hlt | rfl
  · have q1 := abs_le.1 (sixDigits_milli (hb i hi).1 (hb i hi).2)
    have q2 := abs_le.1 (sixDigits_milli (hb j hj).1 (hb j hj).2)
    linarith
  · have hs : ∀ k : ℕ, k < n → SixDigits ((k : ℝ) * (1 / 1000)) := by
      intro k hk
      refine ⟨k, -3, ?_, by norm_num⟩
      have : (k : ℝ) < 10 ^ 6 := by have := (hb k hk).2; linarith
      rw [abs_of_nonneg (by positivity)]
      exact_mod_cast this
    rw [sixDigits_exact (hs i hi), sixDigits_exact (hs j hj)]
    linarith

/-- Non-vacuity: two lines, a third of a second apart. -/
example [Noise ℝ] : (1 : ℝ) / 1000 ≤ 1 / 3 ∧ (2 : ℕ) * (1 / 3 : ℝ) ≤ 1000 ∧
    Valid (everyPeriod (1 / 3) 2 (fun _ => Fixture.sim) fun _ => Fixture.core) := by
  refine ⟨by norm_num, by norm_num, fun m hm => ?_⟩
  simp only [everyPeriod, List.mem_map] at hm
  obtain ⟨k, -, rfl⟩ := hm
  rfl

lemma sixDigits_thousand : sixDigits (1000001 * (1 / 1000)) ≤ 1000 := by
  obtain ⟨⟨⟨n, e, hn, hy⟩, h⟩, -⟩ := sixDigits_spec (1000001 * (1 / 1000))
  have := h 1000 ⟨1, 3, by norm_num, by norm_num⟩
  rw [show |(1000 : ℝ) - 1000001 * (1 / 1000)| = 1 / 1000 by norm_num] at this
  have h2 := (abs_le.1 this).2
  by_contra hc
  push Not at hc
  have hp : (0 : ℝ) < 10 ^ e := by positivity
  rcases le_or_gt (-2) e with he | he
  · obtain ⟨k, hk⟩ : ∃ k : ℕ, e = k + -2 := ⟨(e + 2).toNat, by omega⟩
    have e1 : sixDigits (1000001 * (1 / 1000)) = ((n * 10 ^ k : ℤ) : ℝ) / 100 := by
      rw [hy, hk, zpow_add₀ (by norm_num), zpow_natCast]
      push_cast
      norm_num
      ring
    have l1 : ((100000 : ℤ) : ℝ) < ((n * 10 ^ k : ℤ) : ℝ) := by
      have : (1000 : ℝ) < ((n * 10 ^ k : ℤ) : ℝ) / 100 := by rw [← e1]; exact hc
      push_cast at this ⊢
      linarith
    have l2 : ((n * 10 ^ k : ℤ) : ℝ) < ((100001 : ℤ) : ℝ) := by
      have : ((n * 10 ^ k : ℤ) : ℝ) / 100 ≤ 1000001 * (1 / 1000) + 1 / 1000 := by rw [← e1]; linarith
      push_cast at this ⊢
      linarith
    have l1' := Int.cast_lt.1 l1
    have l2' := Int.cast_lt.1 l2
    omega
  · have hn' : (n : ℝ) ≤ 10 ^ 6 := by
      have : n ≤ 10 ^ 6 := ((le_abs_self n).trans_lt hn).le
      exact_mod_cast this
    have he' : (10 : ℝ) ^ e ≤ 10 ^ (-3 : ℤ) := zpow_le_zpow_right₀ (by norm_num) (by omega)
    have : sixDigits (1000001 * (1 / 1000)) ≤ 10 ^ 6 * 10 ^ (-3 : ℤ) := by
      rw [hy]
      exact (mul_le_mul_of_nonneg_right hn' hp.le).trans (mul_le_mul_of_nonneg_left he' (by positivity))
    norm_num at this hc
    linarith

/-- After a thousand seconds two lines a millisecond apart have the same time. -/
theorem C128_violated : ¬ C128_claim := by
  intro h
  let _ : Noise ℝ := ⟨fun _ _ _ => 0⟩
  have hv : Valid (everyPeriod (1 / 1000) 1000002 (fun _ => Fixture.sim) fun _ => Fixture.core) := by
    intro m hm
    simp only [everyPeriod, List.mem_map] at hm
    obtain ⟨k, -, rfl⟩ := hm
    rfl
  obtain ⟨file, d, h1, h2, h3⟩ := time_column (by norm_num) hv
  have := h inferInstance (1 / 1000) 1000002 _ _ file d false (by norm_num) hv h1 h2
  rw [h3, List.pairwise_map, List.pairwise_iff_getElem] at this
  have hl := this 1000000 1000001 (by rw [List.length_range]; norm_num) (by rw [List.length_range]; norm_num) (by norm_num)
  rw [List.getElem_range, List.getElem_range] at hl
  have e1 : sixDigits (((1000000 : ℕ) : ℝ) * (1 / 1000)) = 1000 := by
    rw [show ((1000000 : ℕ) : ℝ) * (1 / 1000) = 1000 by norm_num]
    exact sixDigits_exact ⟨1, 3, by norm_num, by norm_num⟩
  rw [e1] at hl
  have := sixDigits_thousand
  push_cast at hl
  linarith

end Verif.Props
