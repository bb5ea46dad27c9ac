import Verif.Props.FreeMotion

/-!
# C91, C92: motion against the drag
-/

namespace Verif.Props

open Verif Flt Spec

/-- `d k` is the vehicle after `k` updates: rotors stopped and not commanded, no noise, no external force: only gravity
and drag act on its centre of mass.  The aerodynamic torque and the rotation are arbitrary. -/
structure Dropped [Noise ℝ] {n : ℕ} (p : ModelParams ℝ) (ms : Fin n → Motor ℝ) (dt : ℕ → ℝ) (d : ℕ → Dyn ℝ n) : Prop where
  runsOn : RunsOn (d 0) p ms
  limits : ∀ i, (ms i).minSpeed ≤ 0 ∧ 0 ≤ (ms i).maxSpeed
  rest : (d 0).state.motVel = 0
  drag : 0 ≤ p.drag
  mass : 0 < p.mass
  step : ∀ k, (d k).process 0 (dt k) 0 false = .ok (d (k + 1))
  pos : ∀ k, 0 < dt k
  small : ∀ k, dt k ≤ 1 / 100

section
variable [Noise ℝ] {n : ℕ}

lemma dropped_step {d d' : Dyn ℝ n} {p : ModelParams ℝ} {ms : Fin n → Motor ℝ} {dt : ℝ}
    (hco : d.model.core = some (Model.coreOf p ms)) (hmo : Model.motorFn n p.motors = some ms)
    (hl : ∀ i, (ms i).minSpeed ≤ 0 ∧ 0 ≤ (ms i).maxSpeed) (hw : d.state.motVel = 0)
    (h0 : 0 < dt) (h1 : dt ≤ 1 / 100) (h : d.process 0 dt 0 false = .ok d') :
    d'.model.core = some (Model.coreOf p ms) ∧ d'.state.motVel = 0 ∧
    ∀ i, d'.state.vel i = d.state.vel i + dt / p.mass * (p.gravity i - p.drag * (d.state.vel i * |d.state.vel i|)) := by
  rw [Dyn.process_small_real _ _ _ _ h0 h1] at h
  obtain ⟨-, rfl⟩ := step_on hco hmo h
  have hz : ∀ i, clampVal (0 : ℝ) (ms i).minSpeed (ms i).maxSpeed = 0 := by
    intro i
    rw [clampVal_real, if_neg (not_lt.2 (hl i).1), if_neg (not_lt.2 (hl i).2)]
  have hma : (Dyn.eulerStep (Model.coreOf p ms) ms d 0 dt 0 false).state.motAcc = 0 := by
    rw [Dyn.es_motAcc, hw]
    funext i
    simp [hz]
  refine ⟨(Dyn.eulerStep_core ..).trans hco, ?_, ?_⟩
  · rw [Dyn.es_motVel, hma, hw]
    funext i
    simp [hz]
  · intro i
    rw [Dyn.es_vel, Dyn.es_acc, Dyn.es_force, hw, Dyn.stepNoise_false, Model.thrustVec_coreOf, dragForce_real]
    have : (∑ i, rotorForce (ms i) ((0 : Vec n ℝ) i)) = 0 := by
      refine Finset.sum_eq_zero fun i _ => ?_
      ext r
      simp [rotorForce, mulVec_z]
    rw [this, Quat.rotate_zero]
    simp only [Pi.add_apply, Pi.smul_apply, smul_eq_mul, Pi.zero_apply]
    simp only [Model.coreOf]
    rw [div_eq_mul_inv]
    ring

lemma dropped_next {p : ModelParams ℝ} {ms : Fin n → Motor ℝ} {dt : ℕ → ℝ} {d : ℕ → Dyn ℝ n} (h : Dropped p ms dt d)
    (k : ℕ) (i : Fin 3) : (d (k + 1)).state.vel i = (d k).state.vel i +
      dt k / p.mass * (p.gravity i - p.drag * ((d k).state.vel i * |(d k).state.vel i|)) := by
  obtain ⟨hco, hmo⟩ := runsOn_core h.runsOn
  have inv : ∀ k, (d k).model.core = some (Model.coreOf p ms) ∧ (d k).state.motVel = 0 := by
    intro k
    induction k with
    | zero => exact ⟨hco, h.rest⟩
    | succ k ih =>
      obtain ⟨a, b, -⟩ := dropped_step ih.1 hmo h.limits ih.2 (h.pos k) (h.small k) (h.step k)
      exact ⟨a, b⟩
  exact (dropped_step (inv k).1 hmo h.limits (inv k).2 (h.pos k) (h.small k) (h.step k)).2.2 i

end

/-! ## C91 — coasting -/

/-- Full claim: along an axis without gravity the vehicle slows down and never reverses. -/
def C91_claim : Prop :=
  ∀ (_ : Noise ℝ) (n : ℕ) (p : ModelParams ℝ) (ms : Fin n → Motor ℝ) (dt : ℕ → ℝ) (d : ℕ → Dyn ℝ n) (i : Fin 3),
    Dropped p ms dt d → p.gravity i = 0 → ∀ k,
      |(d (k + 1)).state.vel i| ≤ |(d k).state.vel i| ∧ 0 ≤ (d k).state.vel i * (d (k + 1)).state.vel i

/-- What one step of size `a = dt c / m` does to a speed. -/
lemma drag_speed {v w a : ℝ} (hv : a * |v| ≤ 1) (hw : w = v - a * (v * |v|)) :
    |w| = |v| * (1 - a * |v|) ∧ 0 ≤ v * w := by
  have e : w = v * (1 - a * |v|) := by rw [hw]; ring
  have h1 : 0 ≤ 1 - a * |v| := by linarith
  rw [e, abs_mul, abs_of_nonneg h1]
  refine ⟨rfl, ?_⟩
  rw [← mul_assoc]
  exact mul_nonneg (mul_self_nonneg v) h1

/-- **C91, partial.** While the drag takes away at most the whole speed in one step at the start
(`c |v| dt ≤ m`), it always does: the speed never grows, never changes its sign, and at every time is at most
`|v₀| / (1 + (c/m) |v₀| T)`, the speed that quadratic drag leaves after the time `T`.  (Missing: faster vehicles, see
`C91_violated`.) -/
theorem C91_coasting_partial [Noise ℝ] {n : ℕ} (p : ModelParams ℝ) (ms : Fin n → Motor ℝ) (dt : ℕ → ℝ) (d : ℕ → Dyn ℝ n)
    (i : Fin 3) (h : Dropped p ms dt d) (hg : p.gravity i = 0)
    (hs : ∀ k, p.drag * |(d 0).state.vel i| * dt k ≤ p.mass) (k : ℕ) :
    |(d (k + 1)).state.vel i| ≤ |(d k).state.vel i| ∧ 0 ≤ (d k).state.vel i * (d (k + 1)).state.vel i ∧
    0 ≤ (d 0).state.vel i * (d k).state.vel i ∧
    |(d k).state.vel i| ≤ |(d 0).state.vel i| /
      (1 + p.drag / p.mass * |(d 0).state.vel i| * ∑ j ∈ Finset.range k, dt j) := by
  have hm := h.mass
  have ha : ∀ k, 0 ≤ dt k / p.mass * p.drag := fun k =>
    mul_nonneg (div_nonneg (h.pos k).le hm.le) h.drag
  have hnext : ∀ k, (d (k + 1)).state.vel i = (d k).state.vel i -
      dt k / p.mass * p.drag * ((d k).state.vel i * |(d k).state.vel i|) := by
    intro k
    rw [dropped_next h, hg]
    ring
  have hbound : ∀ k, |(d k).state.vel i| ≤ |(d 0).state.vel i| → dt k / p.mass * p.drag * |(d k).state.vel i| ≤ 1 := by
    intro k hk
    calc dt k / p.mass * p.drag * |(d k).state.vel i|
        ≤ dt k / p.mass * p.drag * |(d 0).state.vel i| := mul_le_mul_of_nonneg_left hk (ha k)
      _ = p.drag * |(d 0).state.vel i| * dt k / p.mass := by ring
      _ ≤ 1 := by rw [div_le_one hm]; exact hs k
  have hdec : ∀ k, |(d k).state.vel i| ≤ |(d 0).state.vel i| →
      |(d (k + 1)).state.vel i| = |(d k).state.vel i| * (1 - dt k / p.mass * p.drag * |(d k).state.vel i|) ∧
      0 ≤ (d k).state.vel i * (d (k + 1)).state.vel i := fun k hk => drag_speed (hbound k hk) (hnext k)
  have hle : ∀ k, |(d k).state.vel i| ≤ |(d 0).state.vel i| →
      |(d (k + 1)).state.vel i| ≤ |(d k).state.vel i| := by
    intro k hk
    rw [(hdec k hk).1]
    have h1 := mul_nonneg (ha k) (abs_nonneg ((d k).state.vel i))
    nlinarith [abs_nonneg ((d k).state.vel i)]
  have hall : ∀ k, |(d k).state.vel i| ≤ |(d 0).state.vel i| := by
    intro k
    induction k with
    | zero => exact le_rfl
    | succ k ih => exact (hle k ih).trans ih
  refine ⟨hle k (hall k), (hdec k (hall k)).2, ?_, ?_⟩
  · -- the sign
    have : ∀ k, 0 ≤ (d 0).state.vel i * (d k).state.vel i := by
      intro k
      induction k with
      | zero => exact mul_self_nonneg _
      | succ k ih =>
        have h1 : 0 ≤ 1 - dt k / p.mass * p.drag * |(d k).state.vel i| := by linarith [hbound k (hall k)]
        have e : (d 0).state.vel i * (d (k + 1)).state.vel i = (d 0).state.vel i * (d k).state.vel i *
            (1 - dt k / p.mass * p.drag * |(d k).state.vel i|) := by rw [hnext k]; ring
        rw [e]
        exact mul_nonneg ih h1
    exact this k
  · have hT : ∀ k, 0 ≤ ∑ j ∈ Finset.range k, dt j := fun k => Finset.sum_nonneg fun j _ => (h.pos j).le
    have hc : 0 ≤ p.drag / p.mass * |(d 0).state.vel i| := mul_nonneg (div_nonneg h.drag hm.le) (abs_nonneg _)
    have main : ∀ k, |(d k).state.vel i| * (1 + p.drag / p.mass * |(d 0).state.vel i| * ∑ j ∈ Finset.range k, dt j) ≤
        |(d 0).state.vel i| := by
      intro k
      induction k with
      | zero => simp
      | succ k ih =>
        rw [(hdec k (hall k)).1, Finset.sum_range_succ]
        have hv := abs_nonneg ((d k).state.vel i)
        have hv0 := abs_nonneg ((d 0).state.vel i)
        have hd := (h.pos k).le
        have hb := hbound k (hall k)
        have hTk := hT k
        have hq : 0 ≤ p.drag / p.mass := div_nonneg h.drag hm.le
        generalize |(d k).state.vel i| = v at *
        generalize |(d 0).state.vel i| = v0 at *
        generalize (∑ j ∈ Finset.range k, dt j) = T at *
        rw [show dt k / p.mass * p.drag * v = p.drag / p.mass * v * dt k by ring] at hb ⊢
        generalize p.drag / p.mass = q at *
        generalize dt k = h at *
        -- with w the bound denominator: v (1 + q v0 T) ≤ v0
        have h2 : v * (1 - q * v * h) * (1 + q * v0 * (T + h)) =
            v * (1 + q * v0 * T) - q * v * h * (v * (1 + q * v0 * T) - v0) - q * v * h * (q * v0 * v * h) := by ring
        rw [h2]
        have h3 : 0 ≤ q * v * h := by positivity
        have h4 : 0 ≤ q * v * h * (q * v0 * v * h) := by positivity
        nlinarith
    have hpos : 0 < 1 + p.drag / p.mass * |(d 0).state.vel i| * ∑ j ∈ Finset.range k, dt j := by
      have := mul_nonneg hc (hT k)
      linarith
    rw [le_div_iff₀ hpos]
    exact main k

/-- Vehicles left alone for steps of 10 ms are examples. -/
lemma leftAlone_dropped [Noise ℝ] {p : ModelParams ℝ} {s : State ℝ 4} (hm : p.motors = Fixture.modelParams.motors)
    (hc : Model.checkParams p = true) (hs : s.motVel = 0) (hd : 0 ≤ p.drag) (h0 : 0 < p.mass) :
    Dropped p Fixture.motors (fun _ => 1 / 100) (leftAlone p s) where
  runsOn := runsOn_new p Fixture.motors 7 s (by rw [hm]; rfl) hc (by rw [hm]; exact Fixture.dirOk)
  limits i := by rw [(Fixture.motors_speed i).1, (Fixture.motors_speed i).2.1]; norm_num
  rest := hs
  drag := hd
  mass := h0
  step k := by
    have hco : ∀ k, (leftAlone p s k).model.core = some (Model.coreOf p Fixture.motors) := by
      intro k
      induction k with
      | zero => rfl
      | succ k ih => exact (Dyn.eulerStep_core ..).trans ih
    rw [Dyn.process_small_real _ _ _ _ (by norm_num) le_rfl]
    simp only [Dyn.singleStep, hco]
    rw [show (Model.coreOf p Fixture.motors).params.motors = Fixture.modelParams.motors from hm,
      Fixture.motorFn_eq]
    simp [Fixture.clampOk, leftAlone]
  pos _ := by norm_num
  small _ := le_rfl

/-- The fixture flying forward with speed `v`. -/
noncomputable def forward (v : ℝ) : State ℝ 4 := { State.default with vel := ![v, 0, 0] }

lemma forward_dropped [Noise ℝ] (v : ℝ) :
    Dropped Fixture.modelParams Fixture.motors (fun _ => 1 / 100) (leftAlone Fixture.modelParams (forward v)) :=
  leftAlone_dropped rfl Fixture.check (by simp [forward, State.default, flt]) (by norm_num [Fixture.modelParams])
    (by norm_num [Fixture.modelParams])

/-- Non-vacuity: the fixture (mass 2, drag 1) flying with 5 m/s. -/
example [Noise ℝ] : Dropped Fixture.modelParams Fixture.motors (fun _ => 1 / 100) (leftAlone Fixture.modelParams (forward 5)) ∧
    Fixture.modelParams.gravity 0 = 0 ∧
    Fixture.modelParams.drag * |(leftAlone Fixture.modelParams (forward 5) 0).state.vel 0| * (1 / 100) ≤
      Fixture.modelParams.mass := by
  refine ⟨forward_dropped 5, by simp [Fixture.modelParams], ?_⟩
  have : (leftAlone Fixture.modelParams (forward 5) 0).state.vel 0 = 5 := by
    simp [leftAlone, builtFrom, forward]
  rw [this]
  norm_num [Fixture.modelParams]

/-- **C91 is violated**: at 500 m/s the drag of one step throws the fixture back with 750 m/s. -/
theorem C91_violated : ¬ C91_claim := by
  intro h
  let N : Noise ℝ := ⟨fun _ _ _ => 0⟩
  have h1 := (h N 4 _ _ _ _ 0 (forward_dropped 500) (by simp [Fixture.modelParams]) 0).1
  have h2 := dropped_next (forward_dropped 500) 0 0
  have h3 : (leftAlone Fixture.modelParams (forward 500) 0).state.vel 0 = 500 := by
    simp [leftAlone, builtFrom, forward]
  rw [h3] at h2
  rw [h2, h3] at h1
  simp only [Fixture.modelParams] at h1
  norm_num [abs_of_pos, abs_of_neg] at h1

/-! ## C92 — terminal velocity -/

/-- The speed at which the drag balances a downward force of size `w`. -/
noncomputable def terminal (p : ModelParams ℝ) (w : ℝ) : ℝ := Real.sqrt (w / p.drag)

/-- Full claim: a vehicle dropped from rest falls ever faster, approaches the speed at which drag and weight `m g`
balance, and never exceeds it. -/
def C92_claim : Prop :=
  ∀ (_ : Noise ℝ) (n : ℕ) (p : ModelParams ℝ) (ms : Fin n → Motor ℝ) (dt : ℕ → ℝ) (d : ℕ → Dyn ℝ n) (g : ℝ),
    Dropped p ms dt d → 0 < p.drag → 0 < g → p.gravity = ![0, 0, -g] → (d 0).state.vel = 0 →
    (∀ k, -(d k).state.vel 2 ≤ -(d (k + 1)).state.vel 2 ∧ -(d k).state.vel 2 ≤ terminal p (p.mass * g)) ∧
    ((∀ k, dt k = dt 0) → Filter.Tendsto (fun k => -(d k).state.vel 2) Filter.atTop (nhds (terminal p (p.mass * g))))

/-- **C92, partial.** If the steps are short against the time in which drag acts (`2 c v dt ≤ m` at the final speed
`v = √(g / c)`), a vehicle that falls with at most this speed falls ever faster and never exceeds it; the difference
shrinks at least by the factor `1 - c v dt / m` per step, so with equal steps the speed converges to `v`.  (Missing:
longer steps; the final speed `√(m g / c)` of a vehicle of mass `m`, because the code does not multiply gravity by the
mass.) -/
theorem C92_terminal_partial [Noise ℝ] {n : ℕ} (p : ModelParams ℝ) (ms : Fin n → Motor ℝ) (dt : ℕ → ℝ) (d : ℕ → Dyn ℝ n)
    (g : ℝ) (h : Dropped p ms dt d) (hc : 0 < p.drag) (hg : 0 < g) (hp : p.gravity 2 = -g)
    (hs : ∀ k, 2 * p.drag * terminal p g * dt k ≤ p.mass)
    (h0 : (d 0).state.vel 2 ≤ 0) (h1 : -(d 0).state.vel 2 ≤ terminal p g) :
    (∀ k, -(d k).state.vel 2 ≤ -(d (k + 1)).state.vel 2 ∧ -(d k).state.vel 2 ≤ terminal p g ∧
      terminal p g + (d k).state.vel 2 ≤
        (∏ j ∈ Finset.range k, (1 - p.drag * terminal p g * dt j / p.mass)) * (terminal p g + (d 0).state.vel 2)) ∧
    ((∀ k, dt k = dt 0) → Filter.Tendsto (fun k => -(d k).state.vel 2) Filter.atTop (nhds (terminal p g))) := by
  have hm := h.mass
  set V := terminal p g with hV
  have hVpos : 0 < V := Real.sqrt_pos.2 (div_pos hg hc)
  have hVV : p.drag * (V * V) = g := by
    rw [hV, terminal, Real.mul_self_sqrt (div_nonneg hg.le hc.le)]
    field_simp
  have hstep : ∀ k, (d k).state.vel 2 ≤ 0 → V + (d (k + 1)).state.vel 2 =
      (V + (d k).state.vel 2) * (1 - p.drag * dt k / p.mass * (V - (d k).state.vel 2)) := by
    intro k hk
    rw [dropped_next h, hp, abs_of_nonpos hk, ← hVV]
    field_simp
    ring
  have hfac : ∀ k, (d k).state.vel 2 ≤ 0 → 0 ≤ V + (d k).state.vel 2 →
      0 ≤ 1 - p.drag * dt k / p.mass * (V - (d k).state.vel 2) ∧
      1 - p.drag * dt k / p.mass * (V - (d k).state.vel 2) ≤ 1 - p.drag * V * dt k / p.mass := by
    intro k hk hk2
    have hd := (h.pos k).le
    have hq : 0 ≤ p.drag * dt k / p.mass := by positivity
    constructor
    · have e1 : p.drag * dt k / p.mass * (V - (d k).state.vel 2) ≤ p.drag * dt k / p.mass * (2 * V) :=
        mul_le_mul_of_nonneg_left (by linarith) hq
      have e2 : p.drag * dt k / p.mass * (2 * V) = 2 * p.drag * V * dt k / p.mass := by ring
      have e3 : 2 * p.drag * V * dt k / p.mass ≤ 1 := by rw [div_le_one hm]; exact hs k
      linarith
    · have e1 : p.drag * V * dt k / p.mass = p.drag * dt k / p.mass * V := by ring
      rw [e1]
      have := mul_nonneg hq (neg_nonneg.2 hk)
      nlinarith
  have hinv : ∀ k, (d k).state.vel 2 ≤ 0 ∧ 0 ≤ V + (d k).state.vel 2 := by
    intro k
    induction k with
    | zero => exact ⟨h0, by linarith⟩
    | succ k ih =>
      have e := hstep k ih.1
      obtain ⟨f1, f2⟩ := hfac k ih.1 ih.2
      have hd := (h.pos k).le
      have f3 : 1 - p.drag * V * dt k / p.mass ≤ 1 := by
        have : 0 ≤ p.drag * V * dt k / p.mass := by positivity
        linarith
      constructor
      · have : V + (d (k + 1)).state.vel 2 ≤ V + (d k).state.vel 2 := by
          rw [e]
          exact mul_le_of_le_one_right ih.2 (f2.trans f3)
        linarith [ih.1]
      · rw [e]
        exact mul_nonneg ih.2 f1
  have hcon : ∀ k, V + (d (k + 1)).state.vel 2 ≤ (1 - p.drag * V * dt k / p.mass) * (V + (d k).state.vel 2) := by
    intro k
    rw [hstep k (hinv k).1, mul_comm]
    exact mul_le_mul_of_nonneg_right (hfac k (hinv k).1 (hinv k).2).2 (hinv k).2
  have hpos1 : ∀ k, 0 ≤ 1 - p.drag * V * dt k / p.mass := fun k =>
    (hfac k (hinv k).1 (hinv k).2).1.trans (hfac k (hinv k).1 (hinv k).2).2
  have hprod : ∀ k, V + (d k).state.vel 2 ≤
      (∏ j ∈ Finset.range k, (1 - p.drag * V * dt j / p.mass)) * (V + (d 0).state.vel 2) := by
    intro k
    induction k with
    | zero => simp
    | succ k ih =>
      rw [Finset.prod_range_succ]
      calc V + (d (k + 1)).state.vel 2 ≤ (1 - p.drag * V * dt k / p.mass) * (V + (d k).state.vel 2) := hcon k
        _ ≤ (1 - p.drag * V * dt k / p.mass) *
            ((∏ j ∈ Finset.range k, (1 - p.drag * V * dt j / p.mass)) * (V + (d 0).state.vel 2)) :=
          mul_le_mul_of_nonneg_left ih (hpos1 k)
        _ = _ := by ring
  have hlt1 : ∀ k, 1 - p.drag * V * dt k / p.mass < 1 := by
    intro k
    have := h.pos k
    have : 0 < p.drag * V * dt k / p.mass := by positivity
    linarith
  refine ⟨fun k => ⟨?_, by linarith [(hinv k).2], hprod k⟩, ?_⟩
  · have e := hcon k
    have := mul_le_of_le_one_left (hinv k).2 (hlt1 k).le
    linarith
  · intro heq
    have hpow : ∀ k, V + (d k).state.vel 2 ≤ (1 - p.drag * V * dt 0 / p.mass) ^ k * (V + (d 0).state.vel 2) := by
      intro k
      have := hprod k
      simp only [heq, Finset.prod_const, Finset.card_range] at this
      exact this
    have hlim : Filter.Tendsto (fun k => V + (d k).state.vel 2) Filter.atTop (nhds 0) := by
      have hz : Filter.Tendsto (fun k : ℕ => (1 - p.drag * V * dt 0 / p.mass) ^ k * (V + (d 0).state.vel 2))
          Filter.atTop (nhds 0) := by
        have := (tendsto_pow_atTop_nhds_zero_of_lt_one (hpos1 0) (hlt1 0)).mul_const (V + (d 0).state.vel 2)
        simpa using this
      exact squeeze_zero (fun k => (hinv k).2) hpow hz
    have := (tendsto_const_nhds (x := V)).sub hlim
    simpa using this

/-- Non-vacuity: the fixture (gravity 10, drag 1, mass 2) dropped from rest. -/
example [Noise ℝ] : Dropped Fixture.modelParams Fixture.motors (fun _ => 1 / 100) (leftAlone Fixture.modelParams (forward 5)) ∧
    Fixture.modelParams.gravity 2 = -10 ∧ (leftAlone Fixture.modelParams (forward 5) 0).state.vel 2 = 0 ∧
    2 * Fixture.modelParams.drag * terminal Fixture.modelParams 10 * (1 / 100) ≤ Fixture.modelParams.mass := by
  refine ⟨forward_dropped 5, by simp [Fixture.modelParams], by simp [leftAlone, builtFrom, forward], ?_⟩
  have : Real.sqrt 10 ≤ 4 := by rw [Real.sqrt_le_left (by norm_num)]; norm_num
  simp only [terminal, Fixture.modelParams, div_one]
  linarith

/-- **C92 is violated**: the fixture (mass 2) ends at `√10` instead of `√20` m/s. -/
theorem C92_violated : ¬ C92_claim := by
  intro h
  let N : Noise ℝ := ⟨fun _ _ _ => 0⟩
  have hv : (leftAlone Fixture.modelParams (forward 0) 0).state.vel = 0 := by
    ext j
    fin_cases j <;> simp [leftAlone, builtFrom, forward]
  have h1 := (h N 4 _ _ _ _ 10 (forward_dropped 0) (by norm_num [Fixture.modelParams]) (by norm_num)
    (by simp [Fixture.modelParams]) hv).2 (fun _ => rfl)
  have hs : ∀ _k : ℕ, 2 * Fixture.modelParams.drag * terminal Fixture.modelParams 10 * (1 / 100) ≤
      Fixture.modelParams.mass := by
    intro _
    have : Real.sqrt 10 ≤ 4 := by rw [Real.sqrt_le_left (by norm_num)]; norm_num
    simp only [terminal, Fixture.modelParams, div_one]
    linarith
  have hv2 : (leftAlone Fixture.modelParams (forward 0) 0).state.vel 2 = 0 := by rw [hv]; rfl
  have h2 := (C92_terminal_partial _ _ _ _ 10 (forward_dropped 0) (by norm_num [Fixture.modelParams]) (by norm_num)
    (by simp [Fixture.modelParams]) hs hv2.le (by rw [hv2, neg_zero]; exact Real.sqrt_nonneg _)).2 (fun _ => rfl)
  have h3 := tendsto_nhds_unique h1 h2
  have h4 : terminal Fixture.modelParams (Fixture.modelParams.mass * 10) = Real.sqrt 20 := by
    norm_num [terminal, Fixture.modelParams]
  have h5 : terminal Fixture.modelParams 10 = Real.sqrt 10 := by norm_num [terminal, Fixture.modelParams]
  rw [h4, h5] at h3
  have := (Real.sqrt_inj (by norm_num) (by norm_num)).1 h3
  norm_num at this

end Verif.Props
