import Verif.Model.Engine
import Verif.Real
import Mathlib.Tactic.Ring
import Mathlib.Tactic.NormNum
import Mathlib.Data.Nat.ModEq
import Mathlib.Data.Int.ModEq

/-!
# C150: different seeds give different random numbers
-/

namespace Verif.Props

/-- The values of `int`. -/
def IsInt (s : ℤ) : Prop := -2147483648 ≤ s ∧ s ≤ 2147483647

/-- **C150**, full claim: different seeds give different random numbers. -/
def C150_claim : Prop := ∀ s t : ℤ, IsInt s → IsInt t → s ≠ t → ∃ k, Engine.number s k ≠ Engine.number t k

/-- The default seed 0 gives the numbers of the seed 1. -/
theorem C150_violated : ¬ C150_claim := fun h => by
  obtain ⟨k, hk⟩ := h 0 1 (by norm_num [IsInt]) (by norm_num [IsInt]) (by norm_num)
  exact hk rfl

theorem engine_seed_range (s : ℤ) : 1 ≤ Engine.seed s ∧ Engine.seed s < 2147483647 := by
  unfold Engine.seed Engine.modulus
  dsimp only
  split <;> omega

theorem engine_next_range {x : ℕ} (h : 1 ≤ x ∧ x < 2147483647) :
    1 ≤ Engine.next x ∧ Engine.next x < 2147483647 := by
  have c : Nat.Coprime 16807 2147483647 := by norm_num
  unfold Engine.next Engine.modulus
  refine ⟨?_, Nat.mod_lt _ (by norm_num)⟩
  by_contra z
  have d : 2147483647 ∣ 16807 * x := Nat.dvd_of_mod_eq_zero (by omega)
  have := Nat.le_of_dvd (by omega) (c.symm.dvd_of_dvd_mul_left d)
  omega

theorem engine_next_inj {x y : ℕ} (hx : x < 2147483647) (hy : y < 2147483647)
    (h : Engine.next x = Engine.next y) : x = y := by
  have c : Nat.Coprime 16807 2147483647 := by norm_num
  have m : x ≡ y [MOD 2147483647] := Nat.ModEq.cancel_left_of_coprime (by rw [Nat.gcd_comm]; exact c) h
  have := m
  unfold Nat.ModEq at this
  rwa [Nat.mod_eq_of_lt hx, Nat.mod_eq_of_lt hy] at this

/-- Seeds that start in the same state agree for ever, seeds that start in different states never agree. -/
theorem engine_number_eq (s t : ℤ) (k : ℕ) :
    Engine.number s k = Engine.number t k ↔ Engine.seed s = Engine.seed t := by
  refine ⟨fun h => ?_, fun h => by simp only [Engine.number, h]⟩
  have r : ∀ (k : ℕ) (x : ℕ), 1 ≤ x ∧ x < 2147483647 → 1 ≤ Engine.next^[k] x ∧ Engine.next^[k] x < 2147483647 := by
    intro k
    induction k with
    | zero => exact fun _ h => h
    | succ k ih => exact fun x h => ih _ (engine_next_range h)
  have i : ∀ (k : ℕ) (x y : ℕ), 1 ≤ x ∧ x < 2147483647 → 1 ≤ y ∧ y < 2147483647 →
      Engine.next^[k] x = Engine.next^[k] y → x = y := by
    intro k
    induction k with
    | zero => exact fun _ _ _ _ h => h
    | succ k ih =>
      intro x y hx hy h
      exact engine_next_inj hx.2 hy.2 (ih _ _ (engine_next_range hx) (engine_next_range hy) h)
  exact i _ _ _ (engine_seed_range s) (engine_seed_range t) h

/-- Seeding with a value of `int` that is not negative. -/
theorem engine_seed_nonneg {s : ℤ} (h : 0 ≤ s ∧ s ≤ 2147483647) :
    (Engine.seed s : ℤ) = if s = 0 ∨ s = 2147483647 then 1 else s := by
  have e : s % 2 ^ 64 = s := Int.emod_eq_of_lt h.1 (by omega)
  simp only [Engine.seed, Engine.modulus, e]
  obtain ⟨n, rfl⟩ := Int.eq_ofNat_of_zero_le h.1
  simp only [Int.toNat_natCast]
  split <;> split <;> omega

/-- Seeding with a negative value of `int`: the conversion to 64 bits adds 4, up to multiples of the modulus. -/
theorem engine_seed_neg {s : ℤ} (h : -2147483648 ≤ s ∧ s < 0) :
    (Engine.seed s : ℤ) = if s = -4 then 1 else if -4 < s then s + 4 else s + 2147483651 := by
  have e : s % 2 ^ 64 = s + 18446744073709551616 := by
    rw [← Int.add_emod_right, Int.emod_eq_of_lt] <;> omega
  simp only [Engine.seed, Engine.modulus, e]
  obtain ⟨n, hn⟩ := Int.eq_ofNat_of_zero_le (show 0 ≤ s + 18446744073709551616 by omega)
  obtain rfl : s = n - 18446744073709551616 := by omega
  simp only [sub_add_cancel, Int.toNat_natCast]
  have q : n % 2147483647 = if n < 18446744073709551612 then n - 18446744071562067965
      else n - 18446744073709551612 := by
    split <;> omega
  rw [q]
  split <;> split <;> split <;> omega

/-- **C150**, what holds: the seeds from 1 to 2147483646 give different numbers, at every place. -/
theorem C150_positive_partial (s t : ℤ) (hs : 1 ≤ s ∧ s ≤ 2147483646) (ht : 1 ≤ t ∧ t ≤ 2147483646) (h : s ≠ t)
    (k : ℕ) : Engine.number s k ≠ Engine.number t k := by
  rw [Ne, engine_number_eq]
  have a := engine_seed_nonneg (s := s) (by omega)
  have b := engine_seed_nonneg (s := t) (by omega)
  rw [if_neg (by omega)] at a b
  omega

/-- **C150**, all other seeds repeat the numbers of one of these: 0, -4 and the largest `int` those of 1, the seeds -1, -2
and -3 those of 3, 2 and 1, and every smaller seed those of the seed that is 2147483651 larger. -/
theorem C150_repeats_partial (s : ℤ) (k : ℕ) :
    (s = 0 ∨ s = -4 ∨ s = 2147483647 → Engine.number s k = Engine.number 1 k) ∧
    (-3 ≤ s ∧ s ≤ -1 → Engine.number s k = Engine.number (s + 4) k) ∧
    (-2147483648 ≤ s ∧ s < -4 →
      Engine.number s k = Engine.number (s + 2147483651) k ∧ 1 ≤ s + 2147483651 ∧ s + 2147483651 ≤ 2147483646) := by
  simp only [engine_number_eq]
  refine ⟨?_, fun h => ?_, fun h => ⟨?_, by omega⟩⟩
  · rintro (rfl | rfl | rfl) <;> rfl
  · have a := engine_seed_neg (s := s) (by omega)
    have b := engine_seed_nonneg (s := s + 4) (by omega)
    rw [if_neg (by omega), if_pos (by omega)] at a
    rw [if_neg (by omega)] at b
    omega
  · have a := engine_seed_neg (s := s) (by omega)
    have b := engine_seed_nonneg (s := s + 2147483651) (by omega)
    rw [if_neg (by omega), if_neg (by omega)] at a
    rw [if_neg (by omega)] at b
    omega

/-- Whatever the distribution makes of the numbers of the engine: an IMU with the default seed 0 and one with the seed 1
never differ. -/
theorem C150_imu_partial {α E : Type} [Flt α] (src : PairSource α E) (start : ℕ → E)
    (h : ∀ s, src.seed s = start (Engine.seed s)) (order : Equiv.Perm (Fin 3)) (p : ImuParams α)
    (os : List (ImuOp α)) :
    (SImu.mk' src order { p with seed := 0 }).run src order os =
      (SImu.mk' src order { p with seed := 1 }).run src order os := by
  have e : src.seed 0 = src.seed 1 := by rw [h, h]; rfl
  simp only [SImu.mk', e]

/-- The seeds 7 and 8 give different numbers, -1 and 3 the same, and the smallest `int` those of 3 as well. -/
example : (∀ k, Engine.number 7 k ≠ Engine.number 8 k) ∧ (∀ k, Engine.number (-1) k = Engine.number 3 k) ∧
    (∀ k, Engine.number (-2147483648) k = Engine.number 3 k) ∧ Engine.number 1 0 = 16807 :=
  ⟨C150_positive_partial 7 8 (by norm_num) (by norm_num) (by norm_num),
    fun k => (C150_repeats_partial (-1) k).2.1 (by norm_num),
    fun k => ((C150_repeats_partial (-2147483648) k).2.2 (by norm_num)).1, rfl⟩

/-- An engine that is a number, and a distribution that makes the pair `(x, x + 1)` from it. -/
noncomputable def plainSource : PairSource ℝ ℕ := ⟨Engine.seed, fun x => ((x, x + 1), Engine.next x)⟩

/-- With this source the IMUs with the seeds 0 and 1 agree, the one with the seed 2 has another bias. -/
example :
    (∀ os, (SImu.mk' plainSource 1 ⟨1, 1, 0, 0, Quat.identity, 0⟩).run plainSource 1 os =
      (SImu.mk' plainSource 1 ⟨1, 1, 0, 0, Quat.identity, 1⟩).run plainSource 1 os) ∧
    (SImu.mk' plainSource 1 ⟨1, 1, 0, 0, Quat.identity, 1⟩).gyroBias ≠
      (SImu.mk' plainSource 1 ⟨1, 1, 0, 0, Quat.identity, 2⟩).gyroBias := by
  refine ⟨C150_imu_partial plainSource id (fun _ => rfl) 1 ⟨1, 1, 0, 0, Quat.identity, 5⟩, fun h => ?_⟩
  have g := congrFun h 0
  have e1 : Engine.seed 1 = 1 := rfl
  have e2 : Engine.seed 2 = 2 := rfl
  simp [SImu.mk', Sampler.vector, Sampler.sample, plainSource, e1, e2, flt] at g

end Verif.Props
