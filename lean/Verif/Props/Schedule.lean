import Verif.Props.WellPosed

/-!
# C141: convergence under changing commands, from a start that is a little off
-/

namespace Verif.Props

open Verif Flt Spec

/-- `x` moves according to the equations of motion; the command and the external force are held for the time `Δ` and then
replaced by the next ones. -/
def Scheduled {n : ℕ} (p : ModelParams ℝ) (ms : Fin n → Motor ℝ) (Δ : ℝ) (act : ℕ → Vec n ℝ) (ext : ℕ → Vec 3 ℝ)
    (x : ℝ → State ℝ n) : Prop :=
  ∀ j : ℕ, Motion p ms (act j) (ext j) Δ fun t => x (j * Δ + t)

section
variable {n : ℕ}

lemma within_iff {c : ℝ} (hc : 0 ≤ c) (s t : State ℝ n) : Within c s t ↔ ‖enc s - enc t‖ ≤ c := by
  rw [pi_norm_le_iff_of_nonneg hc]
  constructor
  · rintro ⟨h1, h2, ⟨h3, h4, h5, h6⟩, h7, h8⟩ (i | i | i | i | i)
    · exact h1 i
    · exact h2 i
    · fin_cases i
      · exact h3
      · exact h4
      · exact h5
      · exact h6
    · exact h7 i
    · exact h8 i
  · intro c
    exact ⟨fun i => c (.inl i), fun i => c (.inr (.inl i)),
      ⟨c (.inr (.inr (.inl 0))), c (.inr (.inr (.inl 1))), c (.inr (.inr (.inl 2))), c (.inr (.inr (.inl 3)))⟩,
      fun i => c (.inr (.inr (.inr (.inl i)))), fun i => c (.inr (.inr (.inr (.inr i))))⟩

lemma Within.mono {c c' : ℝ} (h : c ≤ c') {s t : State ℝ n} (w : Within c s t) : Within c' s t := by
  obtain ⟨h1, h2, ⟨h3, h4, h5, h6⟩, h7, h8⟩ := w
  exact ⟨fun i => (h1 i).trans h, fun i => (h2 i).trans h, ⟨h3.trans h, h4.trans h, h5.trans h, h6.trans h⟩,
    fun i => (h7 i).trans h, fun i => (h8 i).trans h⟩

/-- A motion only depends on the quantities that move. -/
lemma Motion.congr {p : ModelParams ℝ} {ms : Fin n → Motor ℝ} {act : Vec n ℝ} {ext : Vec 3 ℝ} {T : ℝ}
    {x x' : ℝ → State ℝ n} (hp : Regular p ms) (h : Motion p ms act ext T x)
    (he : ∀ t ∈ Set.Icc 0 T, SameMotion (x' t) (x t)) : Motion p ms act ext T x' := by
  rcases lt_or_ge T 0 with hT | hT
  · have hno : ∀ t, t ∉ Set.Icc 0 T := fun t ht => absurd (ht.1.trans ht.2) (not_le.2 hT)
    exact ⟨fun t ht => absurd ht (hno t), fun t ht => absurd ht (hno t), fun t ht => absurd ht (hno t),
      fun t ht => absurd ht (hno t), fun t ht => absurd ht (hno t)⟩
  have heq : ∀ t ∈ Set.Icc 0 T, enc (x' t) = enc (x t) := by
    intro t ht
    obtain ⟨s1, s2, s3, s4, s5⟩ := he t ht
    funext i
    rcases i with i | i | i | i | i <;> simp only [enc, s1, s2, s3, s4, s5]
  have hsol : Solves (rhs p ms act ext) T fun t => enc (x' t) := by
    intro t ht i
    have := motion_rhs hp h t ht i
    simp only
    rw [heq t ht]
    exact this.congr (fun r hr => by rw [heq r hr]) (by rw [heq t ht])
  have h0 : (dec (enc (x' 0))).ori.n2 = 1 := by
    rw [heq 0 ⟨le_rfl, hT⟩]
    exact (Quat.isUnitQ_iff _).1 (h.unit 0 ⟨le_rfl, hT⟩)
  have hm := rhs_motion hp (y := fun t => enc (x' t)) h0 hsol
  exact ⟨hm.unit, hm.pos, hm.newton, hm.turn, hm.euler⟩

end

/-- **C141 (existence).** Every physical vehicle has, from every state with a unit orientation and for every schedule of
commands and external forces, a motion for all time. -/
theorem C141_existence {n : ℕ} (p : ModelParams ℝ) (ms : Fin n → Motor ℝ) (Δ : ℝ) (act : ℕ → Vec n ℝ)
    (ext : ℕ → Vec 3 ℝ) (s : State ℝ n) (hp : Physical p ms) (hΔ : 0 < Δ) (hs : IsUnitQ s.ori) :
    ∃ x : ℝ → State ℝ n, SameMotion (x 0) s ∧ Scheduled p ms Δ act ext x := by
  classical
  choose X hX0 hX using fun (j : ℕ) (s : {s : State ℝ n // IsUnitQ s.ori}) =>
    C140_existence p ms (act j) (ext j) s.1 hp s.2
  let start : ℕ → {s : State ℝ n // IsUnitQ s.ori} := fun j =>
    Nat.rec ⟨s, hs⟩ (fun j r => ⟨X j r Δ, (hX j r Δ).unit Δ ⟨hΔ.le, le_rfl⟩⟩) j
  refine ⟨fun t => X ⌊t / Δ⌋₊ (start ⌊t / Δ⌋₊) (t - ⌊t / Δ⌋₊ * Δ), ?_, fun j => ?_⟩
  · simp only [zero_div, Nat.floor_zero, Nat.cast_zero, zero_mul, sub_zero]
    exact hX0 0 ⟨s, hs⟩
  · refine (hX j (start j) Δ).congr hp.regular fun t ht => ?_
    simp only
    rcases ht.2.lt_or_eq with h | h
    · have hf : ⌊(j * Δ + t) / Δ⌋₊ = j := by
        rw [Nat.floor_eq_iff (div_nonneg (by have := ht.1; positivity) hΔ.le), le_div_iff₀ hΔ, div_lt_iff₀ hΔ]
        constructor
        · linarith [ht.1]
        · nlinarith
      rw [hf, add_sub_cancel_left]
      exact ⟨rfl, rfl, rfl, rfl, rfl⟩
    · subst h
      have e : (j * t + t) / t = ((j + 1 : ℕ) : ℝ) := by
        push_cast
        field_simp
      rw [e, Nat.floor_natCast, show (j : ℝ) * t + t - ((j + 1 : ℕ) : ℝ) * t = 0 by push_cast; ring]
      exact hX0 (j + 1) (start (j + 1))

/-- **C141.** Let `x` be a motion under a schedule of commands and external forces, each held for the time `Δ`.  For every
number `J` of holds there is a constant `C` such that every simulation without noise that starts within `δ` of the motion
and is updated `N` times in each hold stays within `C (Δ / N + δ)` of it, in every quantity of the state, provided that
`C (Δ / N + δ)` is at most one. -/
theorem C141_convergence [Noise ℝ] {n : ℕ} (p : ModelParams ℝ) (ms : Fin n → Motor ℝ) (Δ : ℝ) (act : ℕ → Vec n ℝ)
    (ext : ℕ → Vec 3 ℝ) (x : ℝ → State ℝ n) (hp : Regular p ms) (ht : ∀ i, 0 < (ms i).tau) (hΔ : 0 < Δ)
    (hx : Scheduled p ms Δ act ext x) (J : ℕ) :
    ∃ C, 0 < C ∧ ∀ (N : ℕ) (δ : ℝ) (d : ℕ → Dyn ℝ n), 0 < N → C * (Δ / N + δ) ≤ 1 → RunsOn (d 0) p ms →
      IsUnitQ (d 0).state.ori →
      (∀ i, (ms i).minSpeed ≤ (d 0).state.motVel i ∧ (d 0).state.motVel i ≤ (ms i).maxSpeed) →
      Within δ (d 0).state (x 0) →
      (∀ k, (d k).process (act (k / N)) (Δ / N) (ext (k / N)) false = .ok (d (k + 1))) →
      ∀ k ≤ J * N, Within (C * (Δ / N + δ)) (d k).state (x (k * (Δ / N))) := by
  obtain ⟨h₁, h₁pos, h₁small, h₁tau⟩ : ∃ h₁ : ℝ, 0 < h₁ ∧ h₁ ≤ 1 / 100 ∧ ∀ i, h₁ ≤ (ms i).tau := by
    classical
    set S : Finset ℝ := insert (1 / 100 : ℝ) (Finset.univ.image fun i => (ms i).tau) with hS
    have hne : S.Nonempty := ⟨1 / 100, by simp [hS]⟩
    refine ⟨S.min' hne, ?_, S.min'_le _ (by simp [hS]), fun i => S.min'_le _ (by simp [hS])⟩
    rw [Finset.lt_min'_iff]
    intro y hy
    simp only [hS, Finset.mem_insert, Finset.mem_image, Finset.mem_univ, true_and] at hy
    rcases hy with rfl | ⟨i, rfl⟩
    · norm_num
    · exact ht i
  by_cases hex : Model.motorFn n p.motors = some ms
  swap
  · exact ⟨1, one_pos, fun N δ d _ _ hr => absurd (runsOn_core hr).2 hex⟩
  induction J with
  | zero =>
    refine ⟨1, one_pos, fun N δ d hN _ _ _ _ h0 _ k hk => ?_⟩
    have hk0 : k = 0 := by omega
    subst hk0
    have : 0 < Δ / N := by positivity
    rw [Nat.cast_zero, zero_mul]
    exact h0.mono (by linarith)
  | succ J ih =>
    obtain ⟨C, hC, main⟩ := ih
    obtain ⟨C', hC', seg⟩ := one_step_converges_from (bl_rhs p ms (act J) (ext J)) (y := fun t => enc (x (J * Δ + t)))
      (motion_rhs hp (hx J)) (step := stepRel p ms (act J) (ext J)) (step_error hex h₁small h₁tau)
    have hC'0 : 0 < C' := by linarith
    refine ⟨C + C' * (1 + C) + 1 / h₁, by positivity, fun N δ d hN hle hr hu hl h0 hs k hk => ?_⟩
    set h := Δ / N with hh
    have hN' : (0 : ℝ) < N := by exact_mod_cast hN
    have hpos : 0 < h := by positivity
    have hδ : 0 ≤ δ := (abs_nonneg _).trans (h0.1 0)
    have hε : 0 < h + δ := by linarith
    have i1 : C * (h + δ) ≤ (C + C' * (1 + C) + 1 / h₁) * (h + δ) :=
      mul_le_mul_of_nonneg_right (by have : 0 ≤ C' * (1 + C) + 1 / h₁ := by positivity
                                     linarith) hε.le
    have i2 : C' * (1 + C) * (h + δ) ≤ (C + C' * (1 + C) + 1 / h₁) * (h + δ) :=
      mul_le_mul_of_nonneg_right (by have : 0 ≤ C + 1 / h₁ := by positivity
                                     linarith) hε.le
    have i3 : 1 / h₁ * (h + δ) ≤ 1 := (mul_le_mul_of_nonneg_right (by
      have : 0 ≤ C + C' * (1 + C) := by positivity
      linarith) hε.le).trans hle
    have hh₁ : h ≤ h₁ := by
      rw [one_div, inv_mul_le_iff₀ h₁pos, mul_one] at i3
      linarith
    have hfly : ∀ k, Flying p ms (d k) := by
      intro k
      induction k with
      | zero => exact ⟨(runsOn_core hr).1, hu, fun i => (hl i).1, fun i => (hl i).2⟩
      | succ k ih => exact flying_step hex hpos (hh₁.trans h₁small) ih (hs k)
    have hprev := main N δ d hN (i1.trans hle) hr hu hl h0 hs
    rcases le_total k (J * N) with hkJ | hkJ
    · exact (hprev k hkJ).mono i1
    · obtain ⟨m, rfl⟩ := Nat.exists_eq_add_of_le hkJ
      have hm : m ≤ N := by
        rw [Nat.succ_mul] at hk
        omega
      have hJN : ((J * N : ℕ) : ℝ) * h = J * Δ := by
        rw [hh]
        push_cast
        field_simp
      have hstart : ‖enc (d (J * N)).state - enc (x (J * Δ + 0))‖ ≤ C * (h + δ) := by
        have := (within_iff (by positivity) _ _).1 (hprev (J * N) le_rfl)
        rwa [hJN, ← add_zero (J * Δ)] at this
      have hcond : C' * (h + C * (h + δ)) ≤ C' * (1 + C) * (h + δ) := by
        rw [mul_assoc]
        refine mul_le_mul_of_nonneg_left ?_ hC'0.le
        linarith
      have hmT : (m : ℝ) * h ≤ Δ := by
        have : (m : ℝ) ≤ N := by exact_mod_cast hm
        calc (m : ℝ) * h ≤ N * h := mul_le_mul_of_nonneg_right this hpos.le
          _ = Δ := by rw [hh]; field_simp
      have hres := seg h (C * (h + δ)) hpos hh₁ (hcond.trans (i2.trans hle)) (fun m => enc (d (J * N + m)).state)
        (by simpa using hstart) N (fun m hm => by
          have hdiv : (J * N + m) / N = J := by
            rw [Nat.mul_comm, Nat.mul_add_div hN, Nat.div_eq_of_lt hm, Nat.add_zero]
          have := hs (J * N + m)
          rw [hdiv] at this
          exact ⟨d (J * N + m), d (J * N + (m + 1)), hfly _, this, rfl, rfl⟩) m hm hmT
      rw [within_iff (by positivity)]
      have e : ((J * N + m : ℕ) : ℝ) * h = J * Δ + m * h := by
        rw [Nat.cast_add, add_mul, hJN]
      rw [e]
      exact hres.trans (hcond.trans i2)

/-- The tumbling fixture under commands that change every tenth of a second. -/
noncomputable def switched [Noise ℝ] (N : ℕ) : ℕ → Dyn ℝ 4
  | 0 => builtFrom Fixture.modelParams Fixture.motors 7 tumbleStart
  | k + 1 => Dyn.eulerStep Fixture.core Fixture.motors (switched N k) (fun _ => ((k / N : ℕ) : ℝ)) (1 / 10 / N) 0 false

/-- Non-vacuity: a motion under these commands exists, and its simulations with ten or more updates in each hold. -/
example [Noise ℝ] : ∃ x : ℝ → State ℝ 4,
    Scheduled Fixture.modelParams Fixture.motors (1 / 10) (fun j _ => (j : ℝ)) 0 x ∧ ∀ N : ℕ, 10 ≤ N →
    RunsOn (switched N 0) Fixture.modelParams Fixture.motors ∧ IsUnitQ (switched N 0).state.ori ∧
    (∀ i, (Fixture.motors i).minSpeed ≤ (switched N 0).state.motVel i ∧
      (switched N 0).state.motVel i ≤ (Fixture.motors i).maxSpeed) ∧ Within 0 (switched N 0).state (x 0) ∧
    ∀ k, (switched N k).process ((fun (j : ℕ) _ => (j : ℝ)) (k / N)) (1 / 10 / N) ((0 : ℕ → Vec 3 ℝ) (k / N)) false =
      .ok (switched N (k + 1)) := by
  obtain ⟨x, hx0, hx⟩ := C141_existence Fixture.modelParams Fixture.motors (1 / 10) (fun j _ => (j : ℝ)) 0 tumbleStart
    fixture_physical (by norm_num) tumbleStart_unit
  refine ⟨x, hx, fun N hN => ⟨runsOn_new _ _ 7 _ rfl Fixture.check Fixture.dirOk, tumbleStart_unit, fun i => ?_, ?_,
    fun k => ?_⟩⟩
  · rw [(Fixture.motors_speed i).1, (Fixture.motors_speed i).2.1]
    show 0 ≤ tumbleStart.motVel i ∧ tumbleStart.motVel i ≤ 10
    fin_cases i <;> norm_num [tumbleStart]
  · obtain ⟨s1, s2, s3, s4, s5⟩ := hx0
    rw [Within, s1, s2, s3, s4, s5]
    show (∀ i, |tumbleStart.pos i - tumbleStart.pos i| ≤ 0) ∧ (∀ i, |tumbleStart.vel i - tumbleStart.vel i| ≤ 0) ∧
      (|tumbleStart.ori.w - tumbleStart.ori.w| ≤ 0 ∧ |tumbleStart.ori.x - tumbleStart.ori.x| ≤ 0 ∧
      |tumbleStart.ori.y - tumbleStart.ori.y| ≤ 0 ∧ |tumbleStart.ori.z - tumbleStart.ori.z| ≤ 0) ∧
      (∀ i, |tumbleStart.angVel i - tumbleStart.angVel i| ≤ 0) ∧ ∀ i, |tumbleStart.motVel i - tumbleStart.motVel i| ≤ 0
    simp
  · have hN' : (10 : ℝ) ≤ N := by exact_mod_cast hN
    refine Fixture.process_ok _ ?_ _ _ (by positivity) ?_ _ _
    · induction k with
      | zero => rfl
      | succ k ih => exact (Dyn.eulerStep_core ..).trans ih
    · rw [div_le_iff₀ (by positivity)]
      linarith

end Verif.Props
