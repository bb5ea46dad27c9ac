import Verif.Spec.Envelope
import Verif.Props.DynRun
import Verif.Props.LiftOff
import Verif.Props.Mirror
import Verif.Props.Split
import Mathlib.Analysis.InnerProductSpace.PiL2

/-!
# C116, C117: what a vehicle can do at most
-/

namespace Verif.Props

open Verif Flt Spec

/-! ## Thrust -/

lemma len_norm (v : Vec 3 ℝ) : len v = ‖(WithLp.toLp 2 v : EuclideanSpace ℝ (Fin 3))‖ := by
  rw [EuclideanSpace.norm_eq, len]
  congr 1
  simp [dotProduct, Fin.sum_univ_three, sq]

lemma len_sum {ι : Type} (s : Finset ι) (f : ι → Vec 3 ℝ) : len (∑ i ∈ s, f i) ≤ ∑ i ∈ s, len (f i) := by
  simp only [len_norm]
  rw [WithLp.toLp_sum]
  exact norm_sum_le _ _

lemma len_smul (k : ℝ) (v : Vec 3 ℝ) : len (k • v) = |k| * len v := by
  rw [len_norm, len_norm, WithLp.toLp_smul, norm_smul, Real.norm_eq_abs]

lemma len_nonneg (v : Vec 3 ℝ) : 0 ≤ len v := Real.sqrt_nonneg _

lemma entry_le_len (v : Vec 3 ℝ) (i : Fin 3) : |v i| ≤ len v := by
  refine Real.abs_le_sqrt ?_
  rw [dotProduct, Fin.sum_univ_three]
  fin_cases i
  · simp; nlinarith [mul_self_nonneg (v 1), mul_self_nonneg (v 2)]
  · simp; nlinarith [mul_self_nonneg (v 0), mul_self_nonneg (v 2)]
  · simp; nlinarith [mul_self_nonneg (v 0), mul_self_nonneg (v 1)]

lemma len_rotorForce {m : Motor ℝ} {w : ℝ} (h1 : m.minSpeed ≤ w) (h2 : w ≤ m.maxSpeed) :
    len (rotorForce m w) ≤ strongest m := by
  have e : rotorForce m w = (m.kf * (w * |w|)) • m.rot.mulVec ![0, 0, 1] := by
    ext r
    simp [rotorForce, mulVec_z]
    ring
  rw [e, len_smul, strongest, abs_mul]
  refine mul_le_mul_of_nonneg_right (mul_le_mul_of_nonneg_left ?_ (abs_nonneg _)) (len_nonneg _)
  have : |(w * |w| : ℝ)| = w ^ 2 := by rw [abs_mul, abs_abs, abs_mul_abs_self, sq]
  rw [this]
  rcases le_total 0 w with hw | hw
  · exact le_max_of_le_right (by nlinarith)
  · exact le_max_of_le_left (by nlinarith)

lemma thrust_le {n : ℕ} {ms : Fin n → Motor ℝ} {p : ModelParams ℝ} {q : Quat ℝ} (hq : IsUnitQ q) {w : Vec n ℝ}
    (hw : ∀ i, (ms i).minSpeed ≤ w i ∧ w i ≤ (ms i).maxSpeed) (r : Fin 3) :
    |q.rotate (Model.thrustVec (Model.coreOf p ms) w) r| ≤ topThrust ms := by
  refine (entry_le_len _ r).trans ?_
  rw [len, Quat.rotate_dot hq, ← len, Model.thrustVec_coreOf]
  refine (len_sum _ _).trans (Finset.sum_le_sum fun i _ => len_rotorForce (hw i).1 (hw i).2)

/-! ## One step along one axis -/

lemma drag_step {c m U τ F v : ℝ} (hc : 0 ≤ c) (hm : 0 < m) (h0 : 0 < τ) (h1 : τ ≤ 1 / 100) (hF : |F| ≤ c * U ^ 2)
    (hU : 2 * c * U ≤ 100 * m) (hv : |v| ≤ U) : |v + τ * (m⁻¹ * (F - c * (v * |v|)))| ≤ U := by
  have hU0 : 0 ≤ U := (abs_nonneg v).trans hv
  set a := τ * m⁻¹ with ha
  have ha0 : 0 ≤ a := by positivity
  have hac : 2 * (a * c) * U ≤ 1 := by
    have : 2 * (a * c) * U = (2 * c * U) * τ / m := by rw [ha]; field_simp
    rw [this, div_le_one hm]
    have : 0 ≤ 2 * c * U := by positivity
    nlinarith
  have hk : 0 ≤ a * c := by positivity
  have haF : |a * F| ≤ a * c * U ^ 2 := by
    rw [abs_mul, abs_of_nonneg ha0, mul_assoc a]
    exact mul_le_mul_of_nonneg_left hF ha0
  have e : v + τ * (m⁻¹ * (F - c * (v * |v|))) = v + a * F - a * c * (v * |v|) := by rw [ha]; ring
  rw [e]
  obtain ⟨f1, f2⟩ := abs_le.1 haF
  obtain ⟨v1, v2⟩ := abs_le.1 hv
  generalize a * c = k at *
  generalize a * F = f at *
  rw [abs_le]
  rcases le_total 0 v with h | h
  · rw [abs_of_nonneg h]
    constructor
    · nlinarith [mul_nonneg hk h, mul_nonneg hU0 hU0, mul_nonneg h h, mul_nonneg h (sub_nonneg.2 v2), mul_nonneg hk hU0]
    · nlinarith [mul_nonneg (sub_nonneg.2 v2) (sub_nonneg.2 hac), mul_nonneg hk (mul_nonneg (sub_nonneg.2 v2) (sub_nonneg.2 v2))]
  · rw [abs_of_nonpos h]
    have v3 : 0 ≤ U + v := by linarith
    have h' : 0 ≤ -v := by linarith
    constructor
    · nlinarith [mul_nonneg v3 (sub_nonneg.2 hac), mul_nonneg hk (mul_nonneg v3 v3)]
    · nlinarith [mul_nonneg hk h', mul_nonneg hU0 hU0, mul_nonneg h' h', mul_nonneg h' v3, mul_nonneg hk hU0]

lemma sink_step {c m U τ F v : ℝ} (hc : 0 ≤ c) (hm : 0 < m) (h0 : 0 < τ) (h1 : τ ≤ 1 / 100) (hF : F ≤ 0)
    (hU : c * U ≤ 100 * m) (hv : v ≤ 0) (hv' : -U ≤ v) : v + τ * (m⁻¹ * (F - c * (v * |v|))) ≤ 0 := by
  rw [abs_of_nonpos hv]
  have ha0 : 0 ≤ τ * m⁻¹ := by positivity
  have : c * -v * τ ≤ m := by nlinarith [mul_nonneg hc (neg_nonneg.2 hv)]
  have h2 : τ * m⁻¹ * c * -v ≤ 1 := by
    have e : τ * m⁻¹ * c * -v = c * -v * τ / m := by field_simp
    rw [e, div_le_one hm]
    exact this
  nlinarith [mul_nonneg ha0 (neg_nonneg.2 hF)]

section
variable [Noise ℝ] {n : ℕ}

/-! ## Induction over steps and calls -/

lemma process_ind_real {act : Vec n ℝ} {ext : Vec 3 ℝ} {noise : Bool} {P : Dyn ℝ n → Prop}
    (hs : ∀ τ d d', 0 < τ → τ ≤ 1 / 100 → P d → d.singleStep act τ ext noise = .ok d' → P d') {dt : ℝ} {d d' : Dyn ℝ n}
    (hd : P d) (h : d.process act dt ext noise = .ok d') : P d' := by
  by_cases h0 : 0 < dt
  · by_cases h1 : dt ≤ 1 / 100
    · rw [Dyn.process_small_real _ _ _ _ h0 h1] at h
      exact hs dt d d' h0 h1 hd h
    · rw [Dyn.process_large _ _ _ _ (not_le.1 h1)] at h
      refine Dyn.forLoop_ind (fun a b ha hab => ?_) _ _ _ _ hd h
      rw [Dyn.process_small_real _ _ _ _ (by norm_num) le_rfl] at hab
      exact hs _ a b (by norm_num) le_rfl ha hab
  · rw [Dyn.process_nonpos _ _ _ _ _ (by simpa [flt] using h0)] at h
    simp at h

/-- The vehicle has these parameters, a unit orientation and rotor speeds within their limits. -/
structure Airframe (p : ModelParams ℝ) (ms : Fin n → Motor ℝ) (d : Dyn ℝ n) : Prop where
  core : d.model.core = some (Model.coreOf p ms)
  motors : Model.motorFn n p.motors = some ms
  unit : IsUnitQ d.state.ori
  limits : ∀ i, (ms i).minSpeed ≤ d.state.motVel i ∧ d.state.motVel i ≤ (ms i).maxSpeed

lemma airframe_step {p : ModelParams ℝ} {ms : Fin n → Motor ℝ} {d d' : Dyn ℝ n} {act : Vec n ℝ} {dt : ℝ} {ext : Vec 3 ℝ}
    {noise : Bool} (h : Airframe p ms d) (hs : d.singleStep act dt ext noise = .ok d') :
    Airframe p ms d' ∧ d' = Dyn.eulerStep (Model.coreOf p ms) ms d act dt ext noise := by
  obtain ⟨hl, rfl⟩ := step_on h.core h.motors hs
  refine ⟨⟨(Dyn.eulerStep_core ..).trans h.core, h.motors, ?_, fun i => ?_⟩, rfl⟩
  · rw [Dyn.es_ori]
    exact Quat.quatIntegrate_unit h.unit.nonzero _ _
  · rw [Dyn.es_motVel]
    simp only [clampVal_real]
    split
    · exact ⟨le_rfl, hl i⟩
    · split
      · exact ⟨hl i, le_rfl⟩
      · exact ⟨not_lt.1 ‹_›, not_lt.1 ‹_›⟩

/-- The new velocity along one axis. -/
lemma vel_step {p : ModelParams ℝ} {ms : Fin n → Motor ℝ} {d : Dyn ℝ n} {act : Vec n ℝ} {dt : ℝ} {ext : Vec 3 ℝ}
    {noise : Bool} (hn : p.forceNoise = 0) (h0 : 0 < dt) (i : Fin 3) :
    (Dyn.eulerStep (Model.coreOf p ms) ms d act dt ext noise).state.vel i = d.state.vel i + dt * (p.mass⁻¹ *
      ((d.state.ori.rotate (Model.thrustVec (Model.coreOf p ms) d.state.motVel) i + p.gravity i + ext i) -
        p.drag * (d.state.vel i * |d.state.vel i|))) := by
  rw [Dyn.es_vel, Dyn.es_acc, Dyn.es_force, quiet_noise p ms d dt noise (.inr hn) h0, dragForce_real]
  simp only [Pi.add_apply, Pi.smul_apply, smul_eq_mul, Pi.zero_apply]
  simp only [Model.coreOf]
  ring

/-- What a call does to the vehicle, the floor and the supporting force. -/
lemma call_cases {s s' : Sim ℝ n} {o : SimOp ℝ n} (ho : rebuilds o = false)
    (h : s.step o = .ok s' ∨ s.step o = .throw s') :
    (∃ dt ext d, o = .updateDynamics dt ∧ s.step o = .ok s' ∧
      ((s.belowFloor = false ∧ ext = s.extForce) ∨
        (s.belowFloor = true ∧ ∃ c, s.dyn.model.core = some c ∧ ext = smulR (vneg c.params.gravity) c.params.mass)) ∧
      s.dyn.process s.actuation dt ext (!s.floorCollision) = .ok d ∧
      s' = (let t := { s with extForce := vzero, dyn := d, floorCollision := false }
            if t.belowFloor then t.collide else t)) ∨
    (s'.dyn = s.dyn ∧ ((∀ dt, o ≠ .updateDynamics dt) ∨ s.step o = .throw s') ∧
      (s'.extForce = s.extForce ∨ s'.extForce = 0 ∨ (s.belowFloor = true ∧ ∃ c, s.dyn.model.core = some c ∧
        s'.extForce = smulR (vneg c.params.gravity) c.params.mass)) ∧
      ((s'.floorEnable = s.floorEnable ∧ s'.floorHeight = s.floorHeight) ∨ s'.floorEnable = false ∨
        ∃ z, o = .enableFloor z ∧ s'.floorHeight = z)) := by
  cases o with
  | updateDynamics dt =>
    rcases h with h | h
    · obtain ⟨ext, d, h1, h2, h3⟩ := Sim.updateDynamics_ok h
      exact .inl ⟨dt, ext, d, rfl, h, h1, h2, h3⟩
    · right
      rcases Sim.updateDynamics_cases s dt with ⟨-, -, hb⟩ | ⟨ext, he, hu⟩
      · rw [Sim.step, hb] at h; simp at h
      · have h' := h
        rw [Sim.step, hu] at h
        cases hp : s.dyn.process s.actuation dt ext (!s.floorCollision) with
        | bad => simp [hp] at h
        | ok d => simp only [hp] at h; split at h <;> simp at h
        | throw d =>
          simp only [hp, Res.throw.injEq] at h
          subst h
          refine ⟨(C05_throw_iff (by simp [Dyn.maxStep, flt]) _ _ _ _ _ _ hp).2, .inr h', ?_, .inl ⟨rfl, rfl⟩⟩
          rcases he with ⟨-, rfl⟩ | ⟨hb, c, hc, rfl⟩
          · exact .inl rfl
          · exact .inr (.inr ⟨hb, c, hc, rfl⟩)
  | setDynParams p => simp [rebuilds] at ho
  | mutDyn f => simp [rebuilds] at ho
  | setOdomParams p =>
    right
    simp only [Sim.step, Sim.setOdomParams] at h
    cases ho : Odom.mk' p with
    | none => simp [ho] at h
    | some o =>
      simp only [ho, Res.ok.injEq, reduceCtorEq, or_false] at h
      subst h
      exact ⟨rfl, .inl (by simp), .inl rfl, .inl ⟨rfl, rfl⟩⟩
  | updateController dt =>
    right
    simp only [Sim.step, Res.ok.injEq, reduceCtorEq, or_false] at h
    subst h
    refine ⟨?_, .inl (by simp), .inl ?_, .inl ⟨?_, ?_⟩⟩ <;>
    · unfold Sim.updateController
      simp only
      split
      · rfl
      · split <;> · split <;> rfl
  | setControlMode m y =>
    right
    simp only [Sim.step, Res.ok.injEq, reduceCtorEq, or_false] at h
    subst h
    unfold Sim.setControlMode
    split <;> exact ⟨rfl, .inl (by simp), .inl rfl, .inl ⟨rfl, rfl⟩⟩
  | enableFloor z =>
    right
    simp only [Sim.step, Res.ok.injEq, reduceCtorEq, or_false] at h
    subst h
    exact ⟨rfl, .inl (by simp), .inr (.inl vzero_real), .inr (.inr ⟨z, rfl, rfl⟩)⟩
  | disableFloor =>
    right
    simp only [Sim.step, Res.ok.injEq, reduceCtorEq, or_false] at h
    subst h
    exact ⟨rfl, .inl (by simp), .inr (.inl vzero_real), .inr (.inl rfl)⟩
  | _ =>
    right
    simp only [Sim.step, Res.ok.injEq, reduceCtorEq, or_false] at h
    subst h
    exact ⟨rfl, .inl (by simp), .inl rfl, .inl ⟨rfl, rfl⟩⟩

/-! ## C116 — top speed -/

/-- The vehicle moves along axis `i` with at most the speed `U`, and nothing but gravity, thrust, drag and the support of
the floor acts on it. -/
structure Limited (p : ModelParams ℝ) (ms : Fin n → Motor ℝ) (i : Fin 3) (U : ℝ) (d : Dyn ℝ n) : Prop where
  airframe : Airframe p ms d
  speed : |d.state.vel i| ≤ U

lemma limited_step {p : ModelParams ℝ} {ms : Fin n → Motor ℝ} {i : Fin 3} {U : ℝ} (hm : 0 < p.mass) (hc : 0 ≤ p.drag)
    (hn : p.forceNoise = 0) (hF : topForce p ms i ≤ p.drag * U ^ 2) (hU : 2 * p.drag * U ≤ 100 * p.mass)
    {d d' : Dyn ℝ n} {act : Vec n ℝ} {τ : ℝ} {ext : Vec 3 ℝ} {noise : Bool} (h0 : 0 < τ) (h1 : τ ≤ 1 / 100)
    (he : ext = 0 ∨ ext = -(p.mass • p.gravity)) (h : Limited p ms i U d)
    (hs : d.singleStep act τ ext noise = .ok d') :
    Limited p ms i U d' ∧ |d'.state.pos i - d.state.pos i| ≤ U * τ := by
  obtain ⟨ha, rfl⟩ := airframe_step h.airframe hs
  refine ⟨⟨ha, ?_⟩, ?_⟩
  · rw [vel_step hn h0]
    refine drag_step hc hm h0 h1 (le_trans ?_ hF) hU h.speed
    rw [add_assoc]
    refine (abs_add_le _ _).trans (add_le_add (thrust_le h.airframe.unit h.airframe.limits i) ?_)
    rcases he with rfl | rfl
    · simpa using le_mul_of_one_le_left (abs_nonneg (p.gravity i)) (le_max_left _ _)
    · have : p.gravity i + (-(p.mass • p.gravity)) i = (1 - p.mass) * p.gravity i := by simp; ring
      rw [this, abs_mul]
      exact mul_le_mul_of_nonneg_right (le_max_right _ _) (abs_nonneg _)
  · rw [Dyn.es_pos]
    simp only [Pi.add_apply, Pi.smul_apply, smul_eq_mul, add_sub_cancel_left, abs_mul, abs_of_pos h0]
    rw [mul_comm]
    exact mul_le_mul_of_nonneg_right h.speed h0.le

lemma limited_process {p : ModelParams ℝ} {ms : Fin n → Motor ℝ} {i : Fin 3} {U : ℝ} (hm : 0 < p.mass) (hc : 0 ≤ p.drag)
    (hn : p.forceNoise = 0) (hF : topForce p ms i ≤ p.drag * U ^ 2) (hU : 2 * p.drag * U ≤ 100 * p.mass)
    {d d' : Dyn ℝ n} {act : Vec n ℝ} {dt : ℝ} {ext : Vec 3 ℝ} {noise : Bool}
    (he : ext = 0 ∨ ext = -(p.mass • p.gravity)) (h : Limited p ms i U d)
    (hs : d.process act dt ext noise = .ok d') :
    Limited p ms i U d' ∧ |d'.state.pos i - d.state.pos i| ≤ U * simulatedTime dt := by
  by_cases h0 : 0 < dt
  · by_cases h1 : dt ≤ 1 / 100
    · rw [Dyn.process_small_real _ _ _ _ h0 h1] at hs
      rw [simulatedTime, if_pos h1]
      exact limited_step hm hc hn hF hU h0 h1 he h hs
    · obtain ⟨ha, hb⟩ := C06_substeps_partial d act dt ext noise (not_le.1 h1)
      by_cases hN : ⌈100 * dt⌉₊ ≤ 2147483647
      · rw [ha hN] at hs
        rw [simulatedTime, if_neg h1]
        have := callTimes_ind (P := fun k e => Limited p ms i U e ∧ |e.state.pos i - d.state.pos i| ≤ U * ((k : ℝ) / 100))
          ?_ _ 0 d d' ⟨h, by simp⟩ hs
        · simpa using this
        · rintro k a b ⟨a1, a2⟩ hab
          rw [Dyn.process_small_real _ _ _ _ (by norm_num) le_rfl] at hab
          obtain ⟨b1, b2⟩ := limited_step hm hc hn hF hU (by norm_num) le_rfl he a1 hab
          refine ⟨b1, ?_⟩
          have e : b.state.pos i - d.state.pos i = (b.state.pos i - a.state.pos i) + (a.state.pos i - d.state.pos i) := by
            ring
          rw [e]
          refine (abs_add_le _ _).trans ?_
          push_cast
          linarith
      · rw [hb (not_le.1 hN)] at hs
        simp at hs
  · rw [Dyn.process_nonpos _ _ _ _ _ (by simpa [flt] using h0)] at hs
    simp at hs

omit [Noise ℝ] in
lemma support_real (p : ModelParams ℝ) (ms : Fin n → Motor ℝ) (c : ModelCore ℝ n) {m : Model ℝ n}
    (h : m.core = some (Model.coreOf p ms)) (hc : m.core = some c) :
    smulR (vneg c.params.gravity) c.params.mass = -(p.mass • p.gravity) := by
  rw [h] at hc
  obtain rfl := Option.some.inj hc
  rw [smulR_real, vneg_real]
  simp [Model.coreOf]

lemma withinLimits_real {d : Dyn ℝ n} {p : ModelParams ℝ} {ms : Fin n → Motor ℝ} (hr : RunsOn d p ms)
    (hw : WithinLimits d) (i : Fin n) : (ms i).minSpeed ≤ d.state.motVel i ∧ d.state.motVel i ≤ (ms i).maxSpeed := by
  obtain ⟨hco, hmo⟩ := runsOn_core hr
  obtain ⟨c, hc, hl⟩ := hw
  rw [hco] at hc
  obtain rfl := Option.some.inj hc
  obtain ⟨m, h1, h2, h3⟩ := hl i
  have := (Dyn.motorFn_get hmo).2 i
  rw [show (Model.coreOf p ms).params = p from rfl, this] at h1
  obtain rfl := Option.some.inj h1
  simpa [flt] using And.intro h2 h3

/-- Full claim: a vehicle with drag never moves faster along an axis than the speed at which the drag balances the
largest force. -/
def C116_claim : Prop :=
  ∀ (_ : Noise ℝ) (n : ℕ) (s s' : Sim ℝ n) (tr : List (Event ℝ n)) (p : ModelParams ℝ) (ms : Fin n → Motor ℝ) (U : ℝ)
    (i : Fin 3), Trace s tr s' → RunsOn s.dyn p ms → IsUnitQ s.dyn.state.ori → WithinLimits s.dyn → s.extForce = 0 →
    0 < p.mass → 0 ≤ p.drag → p.forceNoise = 0 → (∀ e ∈ tr, rebuilds e.op = false) →
    topForce p ms i ≤ p.drag * U ^ 2 → |s.dyn.state.vel i| ≤ U → |s'.dyn.state.vel i| ≤ U

/-- **C116, partial.** Whatever is commanded, in every mode, through all calls: a vehicle with drag `c` never moves faster
along an axis than with the speed `U` at which the drag balances the largest force (or with the speed at the start, if it
is greater), provided that the steps are short enough for this speed: `2 c U ≤ 100 m`.  Sideways it comes no further than
`U` times the simulated time.  (Missing: `2 c U > 100 m`, see `C116_violated`.) -/
theorem C116_top_speed_partial (s s' : Sim ℝ n) (tr : List (Event ℝ n)) (p : ModelParams ℝ) (ms : Fin n → Motor ℝ)
    (U : ℝ) (i : Fin 3) (h : Trace s tr s') (hr : RunsOn s.dyn p ms) (hq : IsUnitQ s.dyn.state.ori)
    (hw : WithinLimits s.dyn) (he : s.extForce = 0) (hm : 0 < p.mass) (hc : 0 ≤ p.drag) (hn : p.forceNoise = 0)
    (ho : ∀ e ∈ tr, rebuilds e.op = false) (hF : topForce p ms i ≤ p.drag * U ^ 2)
    (hU : 2 * p.drag * U ≤ 100 * p.mass) (hv : |s.dyn.state.vel i| ≤ U) :
    |s'.dyn.state.vel i| ≤ U ∧ (i ≠ 2 → |s'.dyn.state.pos i - s.dyn.state.pos i| ≤ U * flightTime tr) := by
  obtain ⟨hco, hmo⟩ := runsOn_core hr
  have hl : Limited p ms i U s.dyn := ⟨⟨hco, hmo, hq, withinLimits_real hr hw⟩, hv⟩
  have he' : s.extForce = 0 ∨ s.extForce = -(p.mass • p.gravity) := .inl he
  clear hr hq hw he hv hco
  suffices hs : Limited p ms i U s'.dyn ∧ (i ≠ 2 → |s'.dyn.state.pos i - s.dyn.state.pos i| ≤ U * flightTime tr) from
    ⟨hs.1.speed, hs.2⟩
  have key : ∀ (a b : Sim ℝ n) (o : SimOp ℝ n) (t : Bool), rebuilds o = false →
      a.step o = (if t then .throw b else .ok b) → Limited p ms i U a.dyn →
      (a.extForce = 0 ∨ a.extForce = -(p.mass • p.gravity)) →
      Limited p ms i U b.dyn ∧ (b.extForce = 0 ∨ b.extForce = -(p.mass • p.gravity)) ∧
        (i ≠ 2 → |b.dyn.state.pos i - a.dyn.state.pos i| ≤ U * callTime ⟨a, o, t⟩) := by
    intro a b o t hb hab ha hea
    rcases call_cases hb (by cases t <;> simp_all : a.step o = .ok b ∨ a.step o = .throw b) with
      ⟨dt, ext, d, rfl, hok, hext, hp, rfl⟩ | ⟨hd, hk, hx, -⟩
    · have ht : t = false := by
        cases t
        · rfl
        · rw [hok] at hab; simp at hab
      subst ht
      have hext' : ext = 0 ∨ ext = -(p.mass • p.gravity) := by
        rcases hext with ⟨-, rfl⟩ | ⟨-, c, hc, rfl⟩
        · exact hea
        · exact .inr (support_real p ms c ha.airframe.core hc)
      obtain ⟨h1, h2⟩ := limited_process hm hc hn hF hU hext' ha hp
      simp only []
      split
      · refine ⟨⟨⟨h1.airframe.core, hmo, h1.airframe.unit, h1.airframe.limits⟩, ?_⟩, .inl vzero_real, fun hi => ?_⟩
        · rw [show (Sim.collide _).dyn.state.vel = vzero from rfl, vzero_real]
          simpa using (abs_nonneg _).trans ha.speed
        · simp only [Sim.collide, Dyn.setState, if_neg hi]
          exact h2
      · exact ⟨h1, .inl vzero_real, fun _ => h2⟩
    · refine ⟨hd ▸ ha, ?_, fun _ => ?_⟩
      · rcases hx with hx | hx | ⟨-, c, hc, hx⟩
        · rw [hx]; exact hea
        · exact .inl hx
        · exact .inr (hx.trans (support_real p ms c ha.airframe.core hc))
      · have : callTime (⟨a, o, t⟩ : Event ℝ n) = 0 := by
          cases t
          · rcases hk with hk | hk
            · cases o <;> first | rfl | exact absurd rfl (hk _)
            · rw [hab] at hk; simp at hk
          · cases o <;> rfl
        rw [hd, this]
        simp
  induction h with
  | nil s => exact ⟨hl, fun _ => by simp [flightTime]⟩
  | @ok s s₁ t o tr hs _ ih =>
    obtain ⟨k1, k2, k3⟩ := key s s₁ o false (ho _ List.mem_cons_self) (by simpa using hs) hl he'
    obtain ⟨i1, i2⟩ := ih (fun e he => ho e (List.mem_cons_of_mem _ he)) k1 k2
    refine ⟨i1, fun hi => ?_⟩
    rw [flightTime, List.map_cons, List.sum_cons, mul_add, ← flightTime]
    refine (abs_sub_le _ (s₁.dyn.state.pos i) _).trans ?_
    linarith [k3 hi, i2 hi]
  | @throw s s₁ t o tr hs _ ih =>
    obtain ⟨k1, k2, k3⟩ := key s s₁ o true (ho _ List.mem_cons_self) (by simpa using hs) hl he'
    obtain ⟨i1, i2⟩ := ih (fun e he => ho e (List.mem_cons_of_mem _ he)) k1 k2
    refine ⟨i1, fun hi => ?_⟩
    rw [flightTime, List.map_cons, List.sum_cons, mul_add, ← flightTime]
    refine (abs_sub_le _ (s₁.dyn.state.pos i) _).trans ?_
    linarith [k3 hi, i2 hi]

/-! ## C117 — a vehicle that is too heavy -/

/-- Full claim: a vehicle that does not rise, and whose rotors together cannot carry its weight, never rises. -/
def C117_claim : Prop :=
  ∀ (_ : Noise ℝ) (n : ℕ) (s s' : Sim ℝ n) (tr : List (Event ℝ n)) (p : ModelParams ℝ) (ms : Fin n → Motor ℝ),
    Trace s tr s' → RunsOn s.dyn p ms → IsUnitQ s.dyn.state.ori → WithinLimits s.dyn → s.extForce = 0 →
    s.belowFloor = false → 0 < p.mass → p.drag = 0 → p.forceNoise = 0 → (∀ e ∈ tr, rebuilds e.op = false) →
    (∀ e ∈ tr, ∀ z, e.op = .enableFloor z → z ≤ e.before.dyn.state.pos 2) →
    topThrust ms ≤ p.mass * -p.gravity 2 → s.dyn.state.vel 2 ≤ 0 → s'.dyn.state.pos 2 ≤ s.dyn.state.pos 2

/-- The vehicle does not rise. -/
structure Sinking (p : ModelParams ℝ) (ms : Fin n → Motor ℝ) (U : ℝ) (d : Dyn ℝ n) : Prop where
  airframe : Airframe p ms d
  speed : p.drag = 0 ∨ |d.state.vel 2| ≤ U
  sinks : d.state.vel 2 ≤ 0

/-- Speeds for which the steps are short enough. -/
def Resolves (p : ModelParams ℝ) (ms : Fin n → Motor ℝ) (U : ℝ) : Prop :=
  p.drag = 0 ∨ topForce p ms 2 ≤ p.drag * U ^ 2 ∧ 2 * p.drag * U ≤ 100 * p.mass

lemma sinking_step {p : ModelParams ℝ} {ms : Fin n → Motor ℝ} {U : ℝ} (hm : 0 < p.mass) (hc : 0 ≤ p.drag)
    (hn : p.forceNoise = 0) (hT : topThrust ms ≤ -p.gravity 2) (hU : Resolves p ms U)
    {d d' : Dyn ℝ n} {act : Vec n ℝ} {τ : ℝ} {noise : Bool} (h0 : 0 < τ) (h1 : τ ≤ 1 / 100)
    (h : Sinking p ms U d) (hs : d.singleStep act τ 0 noise = .ok d') :
    Sinking p ms U d' ∧ d'.state.pos 2 ≤ d.state.pos 2 := by
  obtain ⟨ha, hd⟩ := airframe_step h.airframe hs
  refine ⟨⟨ha, ?_, ?_⟩, ?_⟩
  · rcases hU with hU | ⟨hF, hU⟩
    · exact .inl hU
    · rcases h.speed with hs0 | hsp
      · exact .inl hs0
      · exact .inr (limited_step hm hc hn hF hU h0 h1 (.inl rfl) ⟨h.airframe, hsp⟩ hs).1.speed
  · rw [hd, vel_step hn h0]
    have hF : d.state.ori.rotate (Model.thrustVec (Model.coreOf p ms) d.state.motVel) 2 + p.gravity 2 + (0 : Vec 3 ℝ) 2 ≤ 0 := by
      have := (le_abs_self _).trans (thrust_le (p := p) h.airframe.unit h.airframe.limits 2)
      simp only [Pi.zero_apply]
      linarith
    rcases h.speed with hs0 | hsp
    · exact sink_step (U := -d.state.vel 2) hc hm h0 h1 hF (by rw [hs0]; simpa using by positivity) h.sinks (by simp)
    · rcases hU with hU | ⟨-, hU⟩
      · exact sink_step (U := -d.state.vel 2) hc hm h0 h1 hF (by rw [hU]; simpa using by positivity) h.sinks (by simp)
      · refine sink_step (U := U) hc hm h0 h1 hF ?_ h.sinks (abs_le.1 hsp).1
        have : 0 ≤ p.drag * U := mul_nonneg hc ((abs_nonneg _).trans hsp)
        linarith
  · rw [hd, Dyn.es_pos]
    simp only [Pi.add_apply, Pi.smul_apply, smul_eq_mul]
    nlinarith [h.sinks]

/-- **C117, partial.** A vehicle that does not rise, and whose rotors together cannot carry the gravity that the dynamics
apply, never rises, whatever is commanded, in every mode, through all calls that do not put the floor above it.  With drag
this is proved for speeds that the steps resolve (see C116).  (Missing: the weight is the mass times the acceleration
of gravity; the dynamics leave out the factor, see `C117_violated`.) -/
theorem C117_never_rises_partial (s s' : Sim ℝ n) (tr : List (Event ℝ n)) (p : ModelParams ℝ) (ms : Fin n → Motor ℝ)
    (U : ℝ) (h : Trace s tr s') (hr : RunsOn s.dyn p ms) (hq : IsUnitQ s.dyn.state.ori) (hw : WithinLimits s.dyn)
    (he : s.extForce = 0) (hb : s.belowFloor = false) (hm : 0 < p.mass) (hc : 0 ≤ p.drag) (hn : p.forceNoise = 0)
    (ho : ∀ e ∈ tr, rebuilds e.op = false) (hf : ∀ e ∈ tr, ∀ z, e.op = .enableFloor z → z ≤ e.before.dyn.state.pos 2)
    (hT : topThrust ms ≤ -p.gravity 2) (hU : Resolves p ms U) (hv : |s.dyn.state.vel 2| ≤ U)
    (hs : s.dyn.state.vel 2 ≤ 0) :
    s'.dyn.state.pos 2 ≤ s.dyn.state.pos 2 ∧ s'.dyn.state.vel 2 ≤ 0 := by
  obtain ⟨hco, hmo⟩ := runsOn_core hr
  have hl : Sinking p ms U s.dyn := ⟨⟨hco, hmo, hq, withinLimits_real hr hw⟩, .inr hv, hs⟩
  clear hr hq hw hv hco hs
  suffices hs : Sinking p ms U s'.dyn ∧ s'.dyn.state.pos 2 ≤ s.dyn.state.pos 2 from ⟨hs.2, hs.1.sinks⟩
  have hU0 : p.drag = 0 ∨ 0 ≤ U := by
    rcases hl.speed with h | h
    · exact .inl h
    · exact .inr ((abs_nonneg _).trans h)
  have key : ∀ (a b : Sim ℝ n) (o : SimOp ℝ n), rebuilds o = false →
      (∀ z, o = .enableFloor z → z ≤ a.dyn.state.pos 2) → (a.step o = .ok b ∨ a.step o = .throw b) →
      Sinking p ms U a.dyn → a.extForce = 0 → a.belowFloor = false →
      Sinking p ms U b.dyn ∧ b.extForce = 0 ∧ b.belowFloor = false ∧ b.dyn.state.pos 2 ≤ a.dyn.state.pos 2 := by
    intro a b o hro hz hab ha hea hba
    rcases call_cases hro hab with ⟨dt, ext, d, rfl, hok, hext, hp, rfl⟩ | ⟨hd, hk, hx, hfl⟩
    · have hext' : ext = 0 := by
        rcases hext with ⟨-, rfl⟩ | ⟨hb, -⟩
        · exact hea
        · rw [hba] at hb; simp at hb
      subst hext'
      obtain ⟨h1, h2⟩ := process_ind_real (P := fun e => Sinking p ms U e ∧ e.state.pos 2 ≤ a.dyn.state.pos 2)
        (fun τ d d' t0 t1 hd hs => by
          obtain ⟨k1, k2⟩ := sinking_step hm hc hn hT hU t0 t1 hd.1 hs
          exact ⟨k1, k2.trans hd.2⟩) ⟨ha, le_rfl⟩ hp
      simp only []
      split
      · rename_i hbel
        refine ⟨⟨⟨h1.airframe.core, hmo, h1.airframe.unit, h1.airframe.limits⟩, ?_, ?_⟩, vzero_real, ?_, ?_⟩
        · refine hU0.imp_right fun h => ?_
          rw [show (Sim.collide _).dyn.state.vel = vzero from rfl, vzero_real]
          simpa using h
        · rw [show (Sim.collide _).dyn.state.vel = vzero from rfl, vzero_real]
          simp
        · simp [Sim.belowFloor, Sim.collide, Dyn.setState, flt]
        · have he : a.floorEnable = true := by
            simp only [Sim.belowFloor, Bool.and_eq_true] at hbel
            exact hbel.1
          have : a.floorHeight ≤ a.dyn.state.pos 2 := by
            simpa [Sim.belowFloor, he, flt] using hba
          simpa [Sim.collide, Dyn.setState] using this
      · rename_i hbel
        exact ⟨h1, vzero_real, by simpa using hbel, h2⟩
    · refine ⟨hd ▸ ha, ?_, ?_, by rw [hd]⟩
      · rcases hx with hx | hx | ⟨hb, -⟩
        · rw [hx]; exact hea
        · exact hx
        · rw [hba] at hb; simp at hb
      · rcases hfl with ⟨f1, f2⟩ | hfl | ⟨z, rfl, hfl⟩
        · rw [Sim.belowFloor, f1, f2, hd]; exact hba
        · simp [Sim.belowFloor, hfl]
        · have := hz z rfl
          simp [Sim.belowFloor, hfl, hd, flt, this]
  induction h with
  | nil s => exact ⟨hl, le_rfl⟩
  | @ok s s₁ t o tr hs _ ih =>
    obtain ⟨k1, k2, k3, k4⟩ := key s s₁ o (ho _ List.mem_cons_self) (hf _ List.mem_cons_self) (.inl hs) hl he hb
    obtain ⟨i1, i2⟩ := ih k2 k3 (fun e he => ho e (List.mem_cons_of_mem _ he))
      (fun e he => hf e (List.mem_cons_of_mem _ he)) k1
    exact ⟨i1, i2.trans k4⟩
  | @throw s s₁ t o tr hs _ ih =>
    obtain ⟨k1, k2, k3, k4⟩ := key s s₁ o (ho _ List.mem_cons_self) (hf _ List.mem_cons_self) (.inr hs) hl he hb
    obtain ⟨i1, i2⟩ := ih k2 k3 (fun e he => ho e (List.mem_cons_of_mem _ he))
      (fun e he => hf e (List.mem_cons_of_mem _ he)) k1
    exact ⟨i1, i2.trans k4⟩

/-! ## Examples and counterexamples -/

/-- A vehicle in a given state, rotors not commanded, no floor, without random forces. -/
noncomputable def afloat (p : ModelParams ℝ) (ms : Fin 4 → Motor ℝ) (x : State ℝ 4) : Sim ℝ 4 :=
  { Fixture.sim with dyn := builtFrom p ms 7 x }

lemma afloat_update {p : ModelParams ℝ} {ms : Fin 4 → Motor ℝ} (hmo : p.motors = List.ofFn ms)
    (hl : ∀ i, (ms i).minSpeed ≤ (ms i).maxSpeed) (s : Sim ℝ 4) (hs : s.dyn.model.core = some (Model.coreOf p ms))
    (hf : s.floorEnable = false) (he : s.extForce = 0) {dt : ℝ} (h0 : 0 < dt) (h1 : dt ≤ 1 / 100) :
    s.updateDynamics dt = .ok { s with
      dyn := Dyn.eulerStep (Model.coreOf p ms) ms s.dyn s.actuation dt 0 (!s.floorCollision)
      extForce := vzero
      floorCollision := false } := by
  have hp : s.dyn.process s.actuation dt s.extForce (!s.floorCollision) =
      .ok (Dyn.eulerStep (Model.coreOf p ms) ms s.dyn s.actuation dt 0 (!s.floorCollision)) := by
    rw [Dyn.process_small_real _ _ _ _ h0 h1, he]
    have hcl : Dyn.clampOk ms = true := by simpa [Dyn.clampOk, flt] using hl
    simp only [Dyn.singleStep, hs]
    rw [show (Model.coreOf p ms).params.motors = List.ofFn ms from hmo, motorFn_ofFn]
    simp [hcl]
  rw [updateDynamics_above (by simp [Sim.belowFloor, hf]) hp]
  simp [Sim.belowFloor, hf]

omit [Noise ℝ] in
lemma quadX_topThrust {hi : ℝ} {ms : Fin 4 → Motor ℝ} (h : Model.quadX 1 1 1 1 0 hi 1 1 = List.ofFn ms) :
    topThrust ms = 4 * hi ^ 2 := by
  have h1 : len ![0, 0, 1] = 1 := by simp [len, dotProduct, Fin.sum_univ_three]
  rw [quadX_fn _ _ _ _ _ _ _ _ ms h]
  simp [topThrust, strongest, Fin.sum_univ_four, h1, sq_nonneg]
  ring

/-- The fixture with rotor speeds up to `hi` and drag `c`, without random forces. -/
noncomputable def lifter (hi c : ℝ) : ModelParams ℝ :=
  { Fixture.modelParams with motors := Model.quadX 1 1 1 1 0 hi 1 1, drag := c, forceNoise := 0 }

/-- Its rotors. -/
noncomputable def lifterMotors (hi : ℝ) : Fin 4 → Motor ℝ :=
  ![⟨1, 1, 1, 1, ![1, -1, 0], 0, hi, 1, 1⟩, ⟨-1, 1, 1, 1, ![1, 1, 0], 0, hi, 1, 1⟩,
    ⟨1, 1, 1, 1, ![-1, 1, 0], 0, hi, 1, 1⟩, ⟨-1, 1, 1, 1, ![-1, -1, 0], 0, hi, 1, 1⟩]

omit [Noise ℝ] in
lemma lifter_motors (hi c : ℝ) : (lifter hi c).motors = List.ofFn (lifterMotors hi) := by
  simp [lifter, lifterMotors, Model.quadX, List.ofFn_succ, flt]

omit [Noise ℝ] in
lemma lifter_gravity (hi c : ℝ) : (lifter hi c).gravity 2 = -10 := rfl

omit [Noise ℝ] in
lemma lifter_mass (hi c : ℝ) : (lifter hi c).mass = 2 := rfl

omit [Noise ℝ] in
lemma lifter_drag (hi c : ℝ) : (lifter hi c).drag = c := rfl

omit [Noise ℝ] in
lemma lifter_limits (hi : ℝ) (i : Fin 4) : (lifterMotors hi i).minSpeed = 0 ∧ (lifterMotors hi i).maxSpeed = hi := by
  fin_cases i <;> simp [lifterMotors]

lemma lifter_runsOn {hi c : ℝ} (h0 : 0 ≤ hi) (h1 : 0 ≤ c) (x : State ℝ 4) :
    RunsOn (afloat (lifter hi c) (lifterMotors hi) x).dyn (lifter hi c) (lifterMotors hi) := by
  refine runsOn_new _ _ 7 x (lifter_motors hi c) ?_ ?_
  · simp [Model.checkParams, lifter, Fixture.modelParams, Model.checkMotor, Model.quadX, flt, h0, h1]
  · simp [Model.dirOk, lifter, Model.quadX]

lemma lifter_within {hi c : ℝ} (x : State ℝ 4) (h : ∀ i, 0 ≤ x.motVel i ∧ x.motVel i ≤ hi) :
    WithinLimits (afloat (lifter hi c) (lifterMotors hi) x).dyn := by
  refine ⟨Model.coreOf (lifter hi c) (lifterMotors hi), rfl, fun i => ⟨lifterMotors hi i, ?_, ?_⟩⟩
  · rw [show (Model.coreOf (lifter hi c) (lifterMotors hi)).params.motors = List.ofFn (lifterMotors hi) from
      lifter_motors hi c]
    fin_cases i <;> simp
  · rw [(lifter_limits hi i).1, (lifter_limits hi i).2,
      show (afloat (lifter hi c) (lifterMotors hi) x).dyn.state.motVel = x.motVel from rfl]
    simpa [flt] using h i

omit [Noise ℝ] in
lemma lifter_thrust (hi c w : ℝ) {q : Quat ℝ} (hq : q = Quat.identity) {v : Vec 4 ℝ} (hv : v = fun _ => w) :
    q.rotate (Model.thrustVec (Model.coreOf (lifter hi c) (lifterMotors hi)) v) 2 = 4 * (w * |w|) := by
  subst hq hv
  rw [Model.thrustVec_coreOf, Quat.rotate_eq]
  simp [Fin.sum_univ_four, rotorForce, lifterMotors, Quat.identity, flt]
  ring

lemma afloat_next {hi c : ℝ} (h0 : 0 ≤ hi) (s : Sim ℝ 4)
    (hs : s.dyn.model.core = some (Model.coreOf (lifter hi c) (lifterMotors hi))) (hf : s.floorEnable = false)
    (he : s.extForce = 0) : s.updateDynamics (1 / 100) = .ok { s with
      dyn := Dyn.eulerStep (Model.coreOf (lifter hi c) (lifterMotors hi)) (lifterMotors hi) s.dyn s.actuation (1 / 100) 0
        (!s.floorCollision)
      extForce := vzero
      floorCollision := false } :=
  afloat_update (lifter_motors hi c) (fun i => by rw [(lifter_limits hi i).1, (lifter_limits hi i).2]; exact h0) s hs hf he
    (by norm_num) le_rfl

end

/-- **C116 is violated**: a vehicle with a drag of a million, dropped from rest, falls with 0.05 m/s after one step,
twice as fast as the strongest force could move it. -/
theorem C116_violated : ¬ C116_claim := by
  intro h
  let N : Noise ℝ := ⟨fun _ _ _ => 0⟩
  let s := afloat (lifter 10 1000000) (lifterMotors 10) State.default
  have hu := afloat_next (hi := 10) (c := 1000000) (by norm_num) s rfl rfl (by simp [s, afloat, Fixture.sim, flt])
  have := h N 4 s _ _ _ _ (1 / 40) 2 (.ok (o := .updateDynamics (1 / 100)) hu (.nil _))
    (lifter_runsOn (by norm_num) (by norm_num) _)
    (by simp [s, afloat, builtFrom, State.default, Quat.identity, IsUnitQ, flt])
    (lifter_within _ fun i => by simp [State.default, flt]) (by simp [s, afloat, Fixture.sim, flt])
    (by norm_num [lifter_gravity, lifter_mass, lifter_drag]) (by norm_num [lifter]) rfl (by simp [rebuilds])
    (by
      rw [topForce, quadX_topThrust (hi := 10) (lifter_motors 10 0)]
      norm_num [lifter_gravity, lifter_mass, lifter_drag])
    (by norm_num [s, afloat, builtFrom, State.default, flt])
  simp only [] at this
  have hT : s.dyn.state.ori.rotate (Model.thrustVec (Model.coreOf (lifter 10 1000000) (lifterMotors 10))
      s.dyn.state.motVel) 2 = _ := lifter_thrust 10 1000000 0 rfl (by simp [s, afloat, builtFrom, State.default, flt]; rfl)
  rw [vel_step rfl (by norm_num), hT] at this
  have hv : s.dyn.state.vel = 0 := by simp [s, afloat, builtFrom, State.default, flt]
  rw [hv] at this
  norm_num [lifter_gravity, lifter_mass, lifter_drag, abs_of_neg] at this

/-- **C117 is violated**: rotors that together pull with 16 N lift a mass of 2 kg against 10 m/s². -/
theorem C117_violated : ¬ C117_claim := by
  intro h
  let N : Noise ℝ := ⟨fun _ _ _ => 0⟩
  let s := afloat (lifter 2 0) (lifterMotors 2) { State.default with motVel := fun _ => 2 }
  have hu := afloat_next (hi := 2) (c := 0) (by norm_num) s rfl rfl (by simp [s, afloat, Fixture.sim, flt])
  generalize ht : ({ s with
      dyn := Dyn.eulerStep (Model.coreOf (lifter 2 0) (lifterMotors 2)) (lifterMotors 2) s.dyn s.actuation (1 / 100) 0
        (!s.floorCollision)
      extForce := vzero
      floorCollision := false } : Sim ℝ 4) = t at hu
  have hu' := afloat_next (hi := 2) (c := 0) (by norm_num) t (by rw [← ht]; exact Dyn.eulerStep_core ..)
    (by rw [← ht]; rfl) (by rw [← ht]; exact vzero_real)
  have := h N 4 s _ _ _ _ (.ok (o := .updateDynamics (1 / 100)) hu (.ok (o := .updateDynamics (1 / 100)) hu' (.nil _)))
    (lifter_runsOn (by norm_num) le_rfl _)
    (by simp [s, afloat, builtFrom, State.default, Quat.identity, IsUnitQ, flt])
    (lifter_within _ fun i => by norm_num) (by simp [s, afloat, Fixture.sim, flt]) rfl
    (by norm_num [lifter_gravity, lifter_mass, lifter_drag]) rfl rfl (by simp [rebuilds]) (by simp)
    (by
      rw [quadX_topThrust (hi := 2) (lifter_motors 2 0)]
      norm_num [lifter_gravity, lifter_mass, lifter_drag])
    (by norm_num [s, afloat, builtFrom, State.default, flt])
  simp only [] at this
  rw [Dyn.es_pos, ← ht] at this
  simp only [Pi.add_apply, Pi.smul_apply, smul_eq_mul] at this
  have hT : s.dyn.state.ori.rotate (Model.thrustVec (Model.coreOf (lifter 2 0) (lifterMotors 2))
      s.dyn.state.motVel) 2 = _ := lifter_thrust 2 0 2 rfl rfl
  rw [Dyn.es_pos, vel_step rfl (by norm_num), hT] at this
  have hv : s.dyn.state.vel = 0 := by simp [s, afloat, builtFrom, State.default, flt]
  rw [hv] at this
  norm_num [lifter_gravity, lifter_mass, lifter_drag, abs_of_neg] at this

section
variable [Noise ℝ]

/-- The hypotheses of `C116_top_speed_partial`: the fixture flies with all rotors at full speed; it never exceeds
21 m/s. -/
example : ∃ (s s' : Sim ℝ 4) (tr : List (Event ℝ 4)), Trace s tr s' ∧
    tr.map Event.op = [.arm, .setRefMot fun _ => 10, .updateController (1 / 100), .updateDynamics (1 / 100),
      .setControlMode .position .angle] ∧
    RunsOn s.dyn (lifter 10 1) (lifterMotors 10) ∧ IsUnitQ s.dyn.state.ori ∧ WithinLimits s.dyn ∧ s.extForce = 0 ∧
    topForce (lifter 10 1) (lifterMotors 10) 2 ≤ (lifter 10 1).drag * 21 ^ 2 ∧
    2 * (lifter 10 1).drag * 21 ≤ 100 * (lifter 10 1).mass ∧ |s.dyn.state.vel 2| ≤ 21 ∧
    (∀ e ∈ tr, rebuilds e.op = false) := by
  let s := afloat (lifter 10 1) (lifterMotors 10) State.default
  have hu := afloat_next (hi := 10) (c := 1) (by norm_num) (((s.arm).setRefMot fun _ => 10).updateController (1 / 100)) rfl
    rfl (by simp [s, afloat, Fixture.sim, flt, Sim.updateController, Sim.arm, Sim.setRefMot])
  refine ⟨s, _, _, .ok (o := .arm) rfl (.ok (o := .setRefMot fun _ => 10) rfl (.ok (o := .updateController (1 / 100)) rfl
    (.ok (o := .updateDynamics (1 / 100)) hu (.ok (o := .setControlMode .position .angle) rfl (.nil _))))), rfl,
    lifter_runsOn (by norm_num) (by norm_num) _,
    by simp [s, afloat, builtFrom, State.default, Quat.identity, IsUnitQ, flt],
    lifter_within _ fun i => by simp [State.default, flt], by simp [s, afloat, Fixture.sim, flt], ?_, ?_, ?_, ?_⟩
  · rw [topForce, quadX_topThrust (hi := 10) (lifter_motors 10 0)]
    norm_num [lifter_gravity, lifter_mass, lifter_drag]
  · norm_num [lifter_gravity, lifter_mass, lifter_drag]
  · norm_num [s, afloat, builtFrom, State.default, flt]
  · simp [rebuilds]

/-- The hypotheses of `C117_never_rises_partial`: the fixture with weak rotors at full speed. -/
example : ∃ (s s' : Sim ℝ 4) (tr : List (Event ℝ 4)), Trace s tr s' ∧
    tr.map Event.op = [.enableFloor 0, .arm, .setRefMot fun _ => 1, .updateController (1 / 100), .disableFloor,
      .updateDynamics (1 / 100)] ∧
    RunsOn s.dyn (lifter 1 1) (lifterMotors 1) ∧ IsUnitQ s.dyn.state.ori ∧ WithinLimits s.dyn ∧ s.extForce = 0 ∧
    s.belowFloor = false ∧ topThrust (lifterMotors 1) ≤ -(lifter 1 1).gravity 2 ∧
    Resolves (lifter 1 1) (lifterMotors 1) 4 ∧ |s.dyn.state.vel 2| ≤ 4 ∧ s.dyn.state.vel 2 ≤ 0 ∧
    (∀ e ∈ tr, rebuilds e.op = false) ∧ ∀ e ∈ tr, ∀ z, e.op = .enableFloor z → z ≤ e.before.dyn.state.pos 2 := by
  let s := afloat (lifter 1 1) (lifterMotors 1) State.default
  have hu := afloat_next (hi := 1) (c := 1) (by norm_num)
    ((((s.enableFloor 0).arm).setRefMot fun _ => 1).updateController (1 / 100)).disableFloor rfl
    rfl (by simp [Sim.disableFloor, flt])
  refine ⟨s, _, _, .ok (o := .enableFloor 0) rfl (.ok (o := .arm) rfl (.ok (o := .setRefMot fun _ => 1) rfl
    (.ok (o := .updateController (1 / 100)) rfl (.ok (o := .disableFloor) rfl
    (.ok (o := .updateDynamics (1 / 100)) hu (.nil _)))))), rfl,
    lifter_runsOn (by norm_num) (by norm_num) _,
    by simp [s, afloat, builtFrom, State.default, Quat.identity, IsUnitQ, flt],
    lifter_within _ fun i => by simp [State.default, flt], by simp [s, afloat, Fixture.sim, flt], rfl, ?_, ?_, ?_, ?_, ?_, ?_⟩
  · rw [quadX_topThrust (hi := 1) (lifter_motors 1 0)]
    norm_num [lifter_gravity, lifter_mass, lifter_drag]
  · right
    rw [topForce, quadX_topThrust (hi := 1) (lifter_motors 1 0)]
    norm_num [lifter_gravity, lifter_mass, lifter_drag]
  · norm_num [s, afloat, builtFrom, State.default, flt]
  · norm_num [s, afloat, builtFrom, State.default, flt]
  · simp [rebuilds]
  · simp [s, afloat, builtFrom, State.default, flt]

end

end Verif.Props
