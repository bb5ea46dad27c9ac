import Verif.Spec.DynRun
import Verif.Lemmas.DynReal
import Mathlib.Algebra.Order.Floor.Semiring

/-!
# Helper lemmas about sub-stepping over the reals
-/

namespace Verif

open Flt Spec

lemma callTimes_succ {σ : Type} (f : σ → Res σ) (k : ℕ) (s : σ) :
    callTimes f (k + 1) s = (f s).bind id (fun t => callTimes f k t) := by
  rw [callTimes]
  cases f s <;> rfl

lemma callTimes_ind {σ : Type} {f : σ → Res σ} {P : ℕ → σ → Prop}
    (h : ∀ k s t, P k s → f s = .ok t → P (k + 1) t) :
    ∀ N k s t, P k s → callTimes f N s = .ok t → P (k + N) t
  | 0, k, s, t, hs, ht => by
    simp only [callTimes, Res.ok.injEq] at ht
    exact ht ▸ hs
  | N + 1, k, s, t, hs, ht => by
    rw [callTimes] at ht
    cases hf : f s with
    | ok u =>
      simp only [hf] at ht
      have := callTimes_ind h N (k + 1) u t (h k s u hs hf) ht
      rwa [Nat.add_assoc, Nat.add_comm 1 N] at this
    | throw u => simp [hf] at ht
    | bad => simp [hf] at ht

namespace Dyn

/-- The loop is iteration, if the counter does not overflow. -/
lemma forLoop_iter {σ : Type} (num : ℝ) (f : σ → Res σ) :
    ∀ fuel i s, ⌈num⌉₊ ≤ i + fuel → forLoop num f fuel i s = callTimes f (⌈num⌉₊ - i) s
  | 0, i, s, h => by
    unfold forLoop
    have h1 : num ≤ i := Nat.ceil_le.1 h
    rw [if_neg (by simpa [flt] using h1), Nat.sub_eq_zero_of_le (by simpa using h)]
    rfl
  | fuel + 1, i, s, h => by
    unfold forLoop
    by_cases hi : (i : ℝ) < num
    · rw [if_pos (by simpa [flt] using hi)]
      have h1 : i < ⌈num⌉₊ := Nat.lt_ceil.2 hi
      have h2 : ⌈num⌉₊ - i = (⌈num⌉₊ - (i + 1)) + 1 := by omega
      rw [h2, callTimes_succ]
      congr 1
      funext t
      exact forLoop_iter num f fuel (i + 1) t (by omega)
    · rw [if_neg (by simpa [flt] using hi),
        Nat.sub_eq_zero_of_le (Nat.ceil_le.2 (not_lt.1 hi))]
      rfl

/-- The loop overflows its counter. -/
lemma forLoop_overflow {σ : Type} (num : ℝ) (f : σ → Res σ) (hf : ∀ a b, f a ≠ .throw b) :
    ∀ fuel i s, i + fuel < ⌈num⌉₊ → forLoop num f fuel i s = .bad
  | 0, i, s, h => by
    unfold forLoop
    have h1 : (i : ℝ) < num := Nat.lt_ceil.1 h
    rw [if_pos (by simpa [flt] using h1)]
    cases hb : f s with
    | ok t => rfl
    | throw t => exact absurd hb (hf s t)
    | bad => rfl
  | fuel + 1, i, s, h => by
    unfold forLoop
    have h1 : (i : ℝ) < num := Nat.lt_ceil.1 (by omega)
    rw [if_pos (by simpa [flt] using h1)]
    cases hb : f s with
    | ok t => exact forLoop_overflow num f hf fuel (i + 1) t (by omega)
    | throw t => exact absurd hb (hf s t)
    | bad => rfl

variable [Noise ℝ] {n : ℕ}

omit [Noise ℝ] in
lemma maxStep_real : (maxStep : ℝ) = 1 / 100 := by simp [maxStep, flt]

lemma process_small_real (d : Dyn ℝ n) (act : Vec n ℝ) {dt : ℝ} (ext : Vec 3 ℝ) (noise : Bool)
    (h0 : 0 < dt) (h1 : dt ≤ 1 / 100) :
    d.process act dt ext noise = d.singleStep act dt ext noise :=
  process_small _ _ _ _ _ (by simp [flt, h0]) (by simp [maxStep_real, flt]; linarith)

lemma process_large (d : Dyn ℝ n) (act : Vec n ℝ) {dt : ℝ} (ext : Vec 3 ℝ) (noise : Bool)
    (h : 1 / 100 < dt) :
    d.process act dt ext noise =
      forLoop (100 * dt) (fun d => d.process act (1 / 100) ext noise) intMax 0 d := by
  have h0 : ¬ dt ≤ 0 := by
    have : (0 : ℝ) < 1 / 100 := by norm_num
    linarith
  have e : (fun d : Dyn ℝ n => d.process act (1 / 100) ext noise) =
      fun d => processDepth act ext noise 1 (1 / 100) d := by
    funext d
    rw [process_small_real _ _ _ _ (by norm_num) le_rfl]
    unfold processDepth
    rw [if_neg (by simp [flt]), if_neg (by simp [maxStep_real, flt])]
  rw [e]
  unfold process
  rw [processDepth, if_neg (by simpa [flt] using h0), if_pos (by simpa [maxStep_real, flt] using h),
    maxStep_real]
  congr 1
  show dt / (1 / 100) = 100 * dt
  ring

end Dyn

end Verif
