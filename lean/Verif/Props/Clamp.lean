import Verif.Model.Clamp
import Verif.Real
import Verif.Rounded

/-!
# Clamping a vector (C135)
-/

namespace Verif.Props

open Verif Flt

/-- All components between the limits. -/
def InBox {n : ℕ} (min max : ℝ) (u : Vec n ℝ) : Prop := ∀ i, min ≤ u i ∧ u i ≤ max

/-- `w` is the point of the box nearest to `v`, in every component. -/
def Nearest {n : ℕ} (min max : ℝ) (v w : Vec n ℝ) : Prop :=
  InBox min max w ∧ ∀ u, InBox min max u → ∀ i, |v i - w i| ≤ |v i - u i|

/-- Round to nearest single precision number (24 bits; overflow and underflow are not represented). -/
noncomputable def toSingle : ℝ → ℝ := roundBits 24

/-- **C135, full claim.** Clamping a vector of doubles moves it to the nearest point between the limits given. -/
def C135_claim : Prop := ∀ (n : ℕ) (v : Vec n ℝ) (min max : ℝ), min ≤ max →
  ∃ w, clampVectorCall toSingle v min max = some w ∧ Nearest min max v w

/-- Whatever the conversion of the limits is: the body clamps to the converted limits, and has undefined behaviour
exactly if these are exchanged and there is something to clamp. -/
theorem C135_converted {n : ℕ} (single : ℝ → ℝ) (v : Vec n ℝ) (min max : ℝ) :
    (single min ≤ single max → ∃ w, clampVectorCall single v min max = some w ∧
      Nearest (single min) (single max) v w) ∧
    (clampVectorCall single v min max = none ↔ n ≠ 0 ∧ single max < single min) := by
  unfold clampVectorCall clampVector
  set a := single min
  set b := single max
  constructor
  · intro h
    by_cases hn : n = 0
    · subst hn
      exact ⟨v, by simp, fun i => i.elim0, fun _ _ i => i.elim0⟩
    · refine ⟨fun i => clampVal (v i) a b, by simp [hn, flt, not_lt.2 h], fun i => ?_, fun u hu i => ?_⟩
      · simp only [clampVal_real]
        split
        · exact ⟨le_rfl, h⟩
        · split
          · exact ⟨h, le_rfl⟩
          · exact ⟨by linarith, by linarith⟩
      · obtain ⟨u1, u2⟩ := hu i
        simp only [clampVal_real]
        split
        · rw [abs_of_nonpos (by linarith), abs_of_nonpos (by linarith)]
          linarith
        · split
          · rw [abs_of_nonneg (by linarith), abs_of_nonneg (by linarith)]
            linarith
          · simp
  · by_cases hn : n = 0 <;> simp [hn, flt]

/-- **C135, proved part.** ... if both limits are single precision numbers. -/
theorem C135_nearest_partial {n : ℕ} (v : Vec n ℝ) (min max : ℝ) (h : min ≤ max) (h1 : toSingle min = min)
    (h2 : toSingle max = max) : ∃ w, clampVectorCall toSingle v min max = some w ∧ Nearest min max v w := by
  have := (C135_converted toSingle v min max).1 (by rw [h1, h2]; exact h)
  rwa [h1, h2] at this

/-- Otherwise a component may pass a limit, by at most `2⁻²⁴` of the limit. -/
theorem C135_excess {n : ℕ} (v w : Vec n ℝ) (min max : ℝ) (h : clampVectorCall toSingle v min max = some w) (i : Fin n) :
    min - |min| * (1 / 2) ^ 24 ≤ w i ∧ w i ≤ max + |max| * (1 / 2) ^ 24 := by
  have hn : ¬ n = 0 := fun hn => by subst hn; exact i.elim0
  have hle : toSingle min ≤ toSingle max := by
    by_contra hc
    have := (C135_converted toSingle v min max).2.2 ⟨hn, not_le.1 hc⟩
    rw [this] at h
    cases h
  obtain ⟨w', hw, hb, -⟩ := (C135_converted toSingle v min max).1 hle
  rw [h] at hw
  obtain rfl := Option.some.inj hw
  have e1 := abs_le.1 (roundBits_err 24 min)
  have e2 := abs_le.1 (roundBits_err 24 max)
  obtain ⟨b1, b2⟩ := hb i
  unfold toSingle at b1 b2
  constructor <;> linarith [e1.1, e2.2]

/-- The single precision number nearest to 0.1. -/
lemma toSingle_tenth : toSingle (1 / 10) = 13421773 / 134217728 := by
  have hl : Int.log 2 (1 / 10 : ℝ) = -4 := by
    have h1 : -4 ≤ Int.log 2 (1 / 10 : ℝ) := (Int.zpow_le_iff_le_log (by norm_num) (by norm_num)).1 (by norm_num)
    have h2 : Int.log 2 (1 / 10 : ℝ) < -3 := (Int.lt_zpow_iff_log_lt (by norm_num) (by norm_num)).1 (by norm_num)
    omega
  have hr : round ((1 / 10 : ℝ) / 2 ^ (-4 - ((24 : ℕ) - 1 : ℤ))) = 13421773 := by
    rw [round_eq_iff]
    norm_num
  rw [toSingle, roundBits, abs_of_pos (by norm_num : (0 : ℝ) < 1 / 10), hl]
  rw [hr]
  norm_num

/-- **C135 is violated:** clamped to at most 0.1, the number one becomes 0.100000001490116. -/
theorem C135_violated : ¬ C135_claim := by
  intro h
  obtain ⟨w, hw, hb, -⟩ := h 1 (fun _ => 1) 0 (1 / 10) (by norm_num)
  have h0 : toSingle 0 = 0 := by simp [toSingle, roundBits]
  obtain ⟨w', hw', hb', hn⟩ := (C135_converted toSingle (n := 1) (fun _ => 1) 0 (1 / 10)).1
    (by rw [h0, toSingle_tenth]; norm_num)
  rw [hw] at hw'
  obtain rfl := Option.some.inj hw'
  have := hn (fun _ => 13421773 / 134217728) (fun i => by rw [h0, toSingle_tenth]; norm_num) 0
  rw [abs_of_nonneg (by norm_num : (0 : ℝ) ≤ 1 - 13421773 / 134217728)] at this
  have h1 := (hb 0).2
  have h2 := le_abs_self (1 - w 0)
  linarith

/-- Non-vacuity of `C135_nearest_partial` and `C135_excess`: limits -1 and 1. -/
example : toSingle (-1) = -1 ∧ toSingle 1 = 1 ∧
    ∃ w, clampVectorCall toSingle ![3 / 2, 3 / 10, -2] (-1) 1 = some w ∧ w = ![1, 3 / 10, -1] := by
  have h1 : toSingle 1 = 1 := by
    have hr : round ((1 : ℝ) / 2 ^ (0 - ((24 : ℕ) - 1 : ℤ))) = 8388608 := by
      rw [round_eq_iff]
      norm_num
    rw [toSingle, roundBits, abs_one, Int.log_one_right, hr]
    norm_num
  have h2 : toSingle (-1) = -1 := by
    have hr : round ((-1 : ℝ) / 2 ^ (0 - ((24 : ℕ) - 1 : ℤ))) = -8388608 := by
      rw [round_eq_iff]
      norm_num
    rw [toSingle, roundBits, abs_neg, abs_one, Int.log_one_right, hr]
    norm_num
  refine ⟨h2, h1, _, by simp [clampVectorCall, clampVector, h1, h2, flt, show ¬ ((1 : ℝ) < -1) by norm_num]; rfl, ?_⟩
  ext i
  fin_cases i <;> norm_num [clampVal, flt]

end Verif.Props
