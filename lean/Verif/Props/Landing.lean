import Verif.Props.Parked

/-!
# C157: a disarmed vehicle with stopped rotors comes down to an enabled floor and stays there
-/

namespace Verif.Props

open Verif Flt Spec

/-- One explicit Euler step of the vertical speed under weight and quadratic drag (per unit of mass), for steps
between `a` and `b`: the bound on the speed is kept, and the vehicle gets slower upwards or is falling. -/
lemma fall_speed {v G C a b dt : ℝ} (hG : 0 < G) (hC : 0 ≤ C) (ha : 0 < a) (h0 : a ≤ dt) (h1 : dt ≤ b)
    (hv : C * b * |v| ≤ 1) (hb : C * b ^ 2 * G ≤ 3 / 4) :
    C * b * |v - dt * (G + C * (v * |v|))| ≤ 1 ∧
    (0 < v → v - dt * (G + C * (v * |v|)) ≤ v - a * G) ∧
    (v ≤ 0 → v - dt * (G + C * (v * |v|)) ≤ -(a * G)) := by
  have hd : 0 < dt := ha.trans_le h0
  have hb0 : 0 < b := hd.trans_le h1
  have haG : a * G ≤ dt * G := mul_le_mul_of_nonneg_right h0 hG.le
  have hCb : 0 ≤ C * b := mul_nonneg hC hb0.le
  have hx : 0 ≤ |v| := abs_nonneg v
  -- the part of the speed taken away by the drag is at most the speed
  have hdr : C * dt * |v| ≤ 1 :=
    (mul_le_mul_of_nonneg_right (mul_le_mul_of_nonneg_left h1 hC) hx).trans hv
  have hdr0 : 0 ≤ C * dt * |v| := by positivity
  -- the speed left by the drag, plus what the weight adds
  have key : C * b * (|v| * (1 - C * dt * |v|) + dt * G) ≤ 1 := by
    set y := C * b * |v| with hy
    set r := dt / b with hr
    have hr0 : 0 < r := div_pos hd hb0
    have hr1 : r ≤ 1 := (div_le_one hb0).2 h1
    have hrb : dt = r * b := by rw [hr, div_mul_cancel₀ _ hb0.ne']
    have hy0 : 0 ≤ y := mul_nonneg hCb hx
    have e : C * b * (|v| * (1 - C * dt * |v|) + dt * G) = y - r * y ^ 2 + r * (C * b ^ 2 * G) := by
      rw [hrb, hy]; ring
    rw [e]
    nlinarith [mul_le_mul_of_nonneg_left hb hr0.le, sq_nonneg (y - 1 / 2),
      mul_nonneg (sub_nonneg.2 hr1) (sub_nonneg.2 hv), mul_nonneg hr0.le (sq_nonneg (y - 1 / 2))]
  rcases lt_or_ge 0 v with hp | hn
  · rw [abs_of_pos hp] at key hdr hdr0 hv ⊢
    have hvd : 0 ≤ v * (1 - C * dt * v) := mul_nonneg hp.le (by linarith)
    have e : v - dt * (G + C * (v * v)) = v * (1 - C * dt * v) - dt * G := by ring
    refine ⟨?_, fun _ => ?_, fun h => absurd h (not_le.2 hp)⟩
    · refine le_trans (mul_le_mul_of_nonneg_left ?_ hCb) key
      rw [e]
      exact abs_le.2 ⟨by nlinarith [mul_pos hd hG], by nlinarith [mul_pos hd hG]⟩
    · rw [e]; nlinarith [mul_nonneg hdr0 hp.le]
  · rw [abs_of_nonpos hn] at key hdr hdr0 hv ⊢
    have hvd : 0 ≤ -v * (1 - C * dt * -v) := mul_nonneg (by linarith) (by linarith)
    have e : v - dt * (G + C * (v * -v)) = -(-v * (1 - C * dt * -v) + dt * G) := by ring
    refine ⟨?_, fun h => absurd h (not_lt.2 hn), fun _ => ?_⟩
    · refine le_trans (mul_le_mul_of_nonneg_left ?_ hCb) key
      rw [e, abs_neg, abs_of_nonneg (add_nonneg hvd (mul_pos hd hG).le)]
    · rw [e]; linarith

section
variable [Noise ℝ] {n : ℕ}

/-- A disarmed vehicle with stopped rotors at or above an enabled floor, in any attitude and at any speed, with
gravity pointing down, no force noise and a drag that is not negative. -/
structure LetGo (s : Sim ℝ n) (p : ModelParams ℝ) (ms : Fin n → Motor ℝ) (g : ℝ) : Prop where
  runsOn : RunsOn s.dyn p ms
  limits : ∀ i, (ms i).minSpeed ≤ 0 ∧ 0 ≤ (ms i).maxSpeed
  mass : 0 < p.mass
  gravity : p.gravity = ![0, 0, -g]
  down : 0 < g
  drag : 0 ≤ p.drag
  quiet : p.forceNoise = 0
  unit : IsUnitQ s.dyn.state.ori
  motVel : s.dyn.state.motVel = 0
  disarmed : s.armed = false
  actuation : s.actuation = 0
  floor : s.floorEnable = true
  height : s.floorHeight ≤ s.dyn.state.pos 2
  extForce : s.extForce = 0

/-- The calls of an update cycle, with the time steps of the vehicle between `a` and `b`. -/
def CycleWithin (a b : ℝ) : SimOp ℝ n → Prop
  | .updateController _ => True
  | .updateDynamics dt => a ≤ dt ∧ dt ≤ b
  | .updateImu _ => True
  | .updateOdom _ => True
  | _ => False

/-- The number of updates of the vehicle in a sequence of calls. -/
def updates : List (SimOp ℝ n) → ℕ
  | [] => 0
  | .updateDynamics _ :: os => updates os + 1
  | _ :: os => updates os

/-- What holds while the vehicle is in the air. -/
structure Falling (p : ModelParams ℝ) (ms : Fin n → Motor ℝ) (b f : ℝ) (s : Sim ℝ n) : Prop where
  core : s.dyn.model.core = some (Model.coreOf p ms)
  unit : IsUnitQ s.dyn.state.ori
  motVel : s.dyn.state.motVel = 0
  disarmed : s.armed = false
  actuation : s.actuation = 0
  floor : s.floorEnable = true
  level : s.floorHeight = f
  height : f ≤ s.dyn.state.pos 2
  extForce : s.extForce = 0
  slow : p.drag * b * |s.dyn.state.vel 2| ≤ p.mass

/-- One step with stopped rotors and without noise. -/
lemma coast_step {d d' : Dyn ℝ n} {p : ModelParams ℝ} {ms : Fin n → Motor ℝ} {dt : ℝ} {noise : Bool}
    (hco : d.model.core = some (Model.coreOf p ms)) (hmo : Model.motorFn n p.motors = some ms)
    (hl : ∀ i, (ms i).minSpeed ≤ 0 ∧ 0 ≤ (ms i).maxSpeed) (hn : p.forceNoise = 0)
    (hw : d.state.motVel = 0) (h0 : 0 < dt) (h1 : dt ≤ 1 / 100)
    (h : d.process 0 dt 0 noise = .ok d') :
    d'.model.core = d.model.core ∧ d'.state.motVel = 0 ∧ d'.state.pos = d.state.pos + dt • d.state.vel ∧
    d'.state.ori = quatIntegrate d.state.ori d.state.angVel dt ∧
    d'.state.vel 2 = d.state.vel 2 +
      dt * (p.mass⁻¹ * (p.gravity 2 - p.drag * (d.state.vel 2 * |d.state.vel 2|))) := by
  rw [Dyn.process_small_real _ _ _ _ h0 h1] at h
  obtain ⟨-, rfl⟩ := step_on hco hmo h
  have hz : ∀ i, clampVal (0 : ℝ) (ms i).minSpeed (ms i).maxSpeed = 0 := by
    intro i
    rw [clampVal_real, if_neg (not_lt.2 (hl i).1), if_neg (not_lt.2 (hl i).2)]
  have hma : (Dyn.eulerStep (Model.coreOf p ms) ms d 0 dt 0 noise).state.motAcc = 0 := by
    rw [Dyn.es_motAcc, hw]
    funext i
    simp [hz]
  refine ⟨Dyn.eulerStep_core .., ?_, Dyn.es_pos .., Dyn.es_ori .., ?_⟩
  · rw [Dyn.es_motVel, hma, hw]
    funext i
    simp [hz]
  · have hns : Dyn.stepNoise (Model.coreOf p ms) d dt noise = 0 := by
      cases noise
      · simp
      · simp only [Dyn.stepNoise, if_true, Model.setNoise]
        split
        · simp [Model.disableNoise, flt]
        · funext i
          simp [Model.coreOf, hn, flt]
    have hF : (Dyn.eulerStep (Model.coreOf p ms) ms d 0 dt 0 noise).state.force 2 =
        p.gravity 2 - p.drag * (d.state.vel 2 * |d.state.vel 2|) := by
      rw [Dyn.es_force, hw, hns, Model.thrustVec_coreOf, dragForce_real]
      have : (∑ i, rotorForce (ms i) ((0 : Vec n ℝ) i)) = 0 := by
        refine Finset.sum_eq_zero fun i _ => ?_
        ext r
        simp [rotorForce, mulVec_z]
      rw [this, Quat.rotate_zero]
      simp [Model.coreOf]
      ring
    rw [Dyn.es_vel, Dyn.es_acc]
    simp only [Pi.add_apply, Pi.smul_apply, smul_eq_mul, hF]
    rfl

/-- Updates of the vehicle with positive steps that are not sub-stepped succeed. -/
lemma small_update_ok {u : Sim ℝ n} {p : ModelParams ℝ} {ms : Fin n → Motor ℝ} {dt : ℝ}
    (hco : u.dyn.model.core = some (Model.coreOf p ms)) (hmo : Model.motorFn n p.motors = some ms)
    (hl : ∀ i, (ms i).minSpeed ≤ 0 ∧ 0 ≤ (ms i).maxSpeed) (h0 : 0 < dt) (h1 : dt ≤ 1 / 100) :
    ∃ u', u.updateDynamics dt = .ok u' := by
  have hcl : Dyn.clampOk ms = true := by
    simp only [Dyn.clampOk, List.all_eq_true, List.mem_finRange, true_imp_iff, Bool.not_eq_true']
    intro i
    simpa [flt] using (hl i).1.trans (hl i).2
  rcases Sim.updateDynamics_cases u dt with ⟨-, hc, -⟩ | ⟨ext, -, hup⟩
  · rw [hco] at hc; simp at hc
  · rw [hup, Dyn.process_small_real _ _ _ _ h0 h1]
    simp only [Dyn.singleStep, hco, show (Model.coreOf p ms).params.motors = p.motors from rfl,
      hmo, hcl, if_true]
    split
    · exact ⟨_, rfl⟩
    · exact ⟨_, rfl⟩

/-- The vehicle has come down. -/
def Landed (p : ModelParams ℝ) (ms : Fin n → Motor ℝ) (f : ℝ) (s : Sim ℝ n) : Prop :=
  ∃ x q, x 2 = f ∧ IsUnitQ q ∧ ParkedInv x q p ms s

/-- One update in the air. -/
lemma coast_update {s : Sim ℝ n} {p : ModelParams ℝ} {ms : Fin n → Motor ℝ} {g a b f dt : ℝ}
    (hmo : Model.motorFn n p.motors = some ms) (hl : ∀ i, (ms i).minSpeed ≤ 0 ∧ 0 ≤ (ms i).maxSpeed)
    (hm : 0 < p.mass) (hg : p.gravity = ![0, 0, -g]) (hg0 : 0 < g) (hd : 0 ≤ p.drag)
    (hn : p.forceNoise = 0) (ha : 0 < a) (hb : b ≤ 1 / 100) (hst : p.drag * b ^ 2 * g ≤ 3 / 4 * p.mass ^ 2)
    (hs : Falling p ms b f s) (h0 : a ≤ dt) (h1 : dt ≤ b) :
    ∃ s', s.updateDynamics dt = .ok s' ∧ (Landed p ms f s' ∨ (Falling p ms b f s' ∧
      s'.dyn.state.pos 2 = s.dyn.state.pos 2 + dt * s.dyn.state.vel 2 ∧
      (0 < s.dyn.state.vel 2 → s'.dyn.state.vel 2 ≤ s.dyn.state.vel 2 - a * (g / p.mass)) ∧
      (s.dyn.state.vel 2 ≤ 0 → s'.dyn.state.vel 2 ≤ -(a * (g / p.mass))))) := by
  have h0' : 0 < dt := ha.trans_le h0
  obtain ⟨s', h⟩ := small_update_ok (u := s) hs.core hmo hl h0' (h1.trans hb)
  refine ⟨s', h, ?_⟩
  obtain ⟨d, ⟨e, he, hp⟩, hc, hnc⟩ := C07_floor_contact s s' dt h
  have he0 : e = 0 := by
    rcases he with ⟨⟨-, hb'⟩, -⟩ | ⟨-, he⟩
    · have : s.dyn.state.pos 2 < s.floorHeight := by simpa [flt] using hb'
      rw [hs.level] at this
      exact absurd hs.height (not_le.2 this)
    · rw [he, hs.extForce]
  rw [he0, hs.actuation] at hp
  obtain ⟨r1, r2, r3, r4, r5⟩ := coast_step hs.core hmo hl hn hs.motVel h0' (h1.trans hb) hp
  have hq : IsUnitQ d.state.ori := by rw [r4]; exact Quat.quatIntegrate_unit hs.unit.nonzero _ _
  by_cases hct : Contact s d
  · left
    rw [hc hct]
    refine ⟨![d.state.pos 0, d.state.pos 1, s.floorHeight], d.state.ori, hs.level, hq,
      r1.trans hs.core, rfl, rfl, by simp [flt]; rfl, r2, hs.disarmed, hs.actuation, hs.floor, rfl,
      by simp [flt]; rfl, .inl ⟨by simp [flt]; rfl, .inl rfl⟩⟩
  · right
    have hz : f ≤ d.state.pos 2 := by
      by_contra hlt
      refine hct ⟨hs.floor, ?_⟩
      rw [hs.level]
      simpa [flt] using hlt
    have hv : d.state.vel 2 = s.dyn.state.vel 2 -
        dt * (g / p.mass + p.drag / p.mass * (s.dyn.state.vel 2 * |s.dyn.state.vel 2|)) := by
      rw [r5, hg]
      simp
      field_simp
      ring
    obtain ⟨f1, f2, f3⟩ := fall_speed (v := s.dyn.state.vel 2) (G := g / p.mass) (C := p.drag / p.mass)
      (b := b) (by positivity) (by positivity) ha h0 h1
      (by
        rw [div_mul_eq_mul_div, div_mul_eq_mul_div, div_le_one hm]; exact hs.slow)
      (by
        have : p.drag / p.mass * b ^ 2 * (g / p.mass) = p.drag * b ^ 2 * g / p.mass ^ 2 := by
          field_simp
        rw [this, div_le_iff₀ (by positivity)]; exact hst)
    rw [← hv] at f1 f2 f3
    rw [hnc hct]
    refine ⟨⟨r1.trans hs.core, hq, r2, hs.disarmed, hs.actuation, hs.floor, hs.level, hz,
      by simp [flt]; rfl, ?_⟩, ?_, f2, f3⟩
    · rwa [div_mul_eq_mul_div, div_mul_eq_mul_div, div_le_one hm] at f1
    · simp only [r3, Pi.add_apply, Pi.smul_apply, smul_eq_mul]

/-- A call on a vehicle that has come down. -/
lemma landed_step {u : Sim ℝ n} {p : ModelParams ℝ} {ms : Fin n → Motor ℝ} {g : ℝ} {x : Vec 3 ℝ} {q : Quat ℝ}
    (hmo : Model.motorFn n p.motors = some ms) (hl : ∀ i, (ms i).minSpeed ≤ 0 ∧ 0 ≤ (ms i).maxSpeed)
    (hm : 0 < p.mass) (hg : p.gravity = ![0, 0, -g]) (hg0 : 0 < g) (hq : IsUnitQ q)
    (hu : ParkedInv x q p ms u) (o : SimOp ℝ n) (ho : CycleCall o) :
    ∃ u', u.step o = .ok u' ∧ ParkedInv x q p ms u' := by
  cases o with
  | updateController dt =>
    refine ⟨_, rfl, ?_⟩
    rw [Sim.updateController_disarmed hu.disarmed]
    exact ⟨hu.core, hu.pos, hu.ori, hu.angVel, hu.motVel, hu.disarmed, by simp [flt], hu.floor,
      hu.height, hu.extForce, hu.phase⟩
  | updateDynamics dt =>
    obtain ⟨h0, h1⟩ := ho
    obtain ⟨u', hu'⟩ := small_update_ok (u := u) hu.core hmo hl h0 h1
    exact ⟨u', hu', parked_update hmo hl hm hg hg0 hq hu h0 h1 hu'⟩
  | updateImu dt =>
    exact ⟨_, rfl, hu.core, hu.pos, hu.ori, hu.angVel, hu.motVel, hu.disarmed, hu.actuation, hu.floor,
      hu.height, hu.extForce, hu.phase⟩
  | updateOdom dt =>
    exact ⟨_, rfl, hu.core, hu.pos, hu.ori, hu.angVel, hu.motVel, hu.disarmed, hu.actuation, hu.floor,
      hu.height, hu.extForce, hu.phase⟩
  | _ => exact ho.elim

/-- A vehicle that has come down keeps its pose. -/
lemma landed_stays {p : ModelParams ℝ} {ms : Fin n → Motor ℝ} {g : ℝ} {x : Vec 3 ℝ} {q : Quat ℝ}
    (hmo : Model.motorFn n p.motors = some ms) (hl : ∀ i, (ms i).minSpeed ≤ 0 ∧ 0 ≤ (ms i).maxSpeed)
    (hm : 0 < p.mass) (hg : p.gravity = ![0, 0, -g]) (hg0 : 0 < g) (hq : IsUnitQ q)
    (os : List (SimOp ℝ n)) : ∀ u : Sim ℝ n, ParkedInv x q p ms u → (∀ o ∈ os, CycleCall o) →
      ∃ t, u.Runs os t ∧ ParkedInv x q p ms t := by
  induction os with
  | nil => exact fun u hu _ => ⟨u, .nil u, hu⟩
  | cons o os ih =>
    intro u hu ho
    obtain ⟨u', h1, h2⟩ := landed_step hmo hl hm hg hg0 hq hu o (ho _ (List.mem_cons_self ..))
    obtain ⟨t, h3, h4⟩ := ih u' h2 fun o h => ho o (List.mem_cons_of_mem _ h)
    exact ⟨t, .ok h1 h3, h4⟩

/-- Bounds on the height and the vertical speed after `k` updates in the air: `w` bounds the speed upwards at
first, `K` updates are enough to use it up. -/
structure Descent (G a b w z0 : ℝ) (K k : ℕ) (s : Sim ℝ n) : Prop where
  speed : s.dyn.state.vel 2 ≤ max (w - k * (a * G)) (-(a * G))
  height : s.dyn.state.pos 2 ≤ z0 + min k K * (b * w) - (k - K : ℕ) * (a * (a * G))

omit [Noise ℝ] in
/-- The bounds after one more update. -/
lemma Descent.next {s s' : Sim ℝ n} {G a b w z0 dt : ℝ} {K k : ℕ} (hG : 0 < G) (ha : 0 < a) (hw : 0 ≤ w)
    (hK : w + a * G ≤ K * (a * G)) (h0 : a ≤ dt) (h1 : dt ≤ b) (h : Descent G a b w z0 K k s)
    (hz : s'.dyn.state.pos 2 = s.dyn.state.pos 2 + dt * s.dyn.state.vel 2)
    (hu : 0 < s.dyn.state.vel 2 → s'.dyn.state.vel 2 ≤ s.dyn.state.vel 2 - a * G)
    (hd : s.dyn.state.vel 2 ≤ 0 → s'.dyn.state.vel 2 ≤ -(a * G)) : Descent G a b w z0 K (k + 1) s' := by
  have haG : 0 < a * G := mul_pos ha hG
  have hdt : 0 < dt := ha.trans_le h0
  obtain ⟨hs, hh⟩ := h
  constructor
  · rcases lt_or_ge 0 (s.dyn.state.vel 2) with hp | hn
    · refine le_max_of_le_left ?_
      have := hu hp
      rcases le_max_iff.1 hs with h | h
      · push_cast; linarith
      · linarith
    · exact le_max_of_le_right (hd hn)
  · rw [hz]
    rcases lt_or_ge k K with hk | hk
    · have e1 : min (k + 1) K = min k K + 1 := by omega
      have e2 : k + 1 - K = 0 := by omega
      have e3 : k - K = 0 := by omega
      rw [e2]; rw [e3] at hh
      have hv : s.dyn.state.vel 2 ≤ w := by
        refine hs.trans (max_le ?_ (by linarith))
        have : (0 : ℝ) ≤ k * (a * G) := by positivity
        linarith
      have : dt * s.dyn.state.vel 2 ≤ b * w :=
        (mul_le_mul_of_nonneg_left hv hdt.le).trans (mul_le_mul_of_nonneg_right h1 hw)
      have e4 : ((min k K : ℕ) : ℝ) + 1 = ((min (k + 1) K : ℕ) : ℝ) := by rw [e1]; push_cast; ring
      push_cast at e4 hh ⊢
      rw [← e4]
      linarith
    · have e1 : min (k + 1) K = min k K := by omega
      have e2 : k + 1 - K = k - K + 1 := by omega
      have hv : s.dyn.state.vel 2 ≤ -(a * G) := by
        refine hs.trans (max_le ?_ le_rfl)
        have : (K : ℝ) * (a * G) ≤ k * (a * G) :=
          mul_le_mul_of_nonneg_right (by exact_mod_cast hk) haG.le
        linarith
      have : dt * s.dyn.state.vel 2 ≤ -(a * (a * G)) := by nlinarith
      have e4 : ((min k K : ℕ) : ℝ) = ((min (k + 1) K : ℕ) : ℝ) := by rw [e1]
      rw [e2]
      push_cast at e4 hh ⊢
      rw [← e4]
      linarith

/-- Every sequence of update calls leads to a vehicle that has come down or whose height is bounded by the number
of updates. -/
lemma descent_runs {p : ModelParams ℝ} {ms : Fin n → Motor ℝ} {g a b f w z0 : ℝ} {K : ℕ}
    (hmo : Model.motorFn n p.motors = some ms) (hl : ∀ i, (ms i).minSpeed ≤ 0 ∧ 0 ≤ (ms i).maxSpeed)
    (hm : 0 < p.mass) (hg : p.gravity = ![0, 0, -g]) (hg0 : 0 < g) (hd : 0 ≤ p.drag)
    (hn : p.forceNoise = 0) (ha : 0 < a) (hb : b ≤ 1 / 100) (hst : p.drag * b ^ 2 * g ≤ 3 / 4 * p.mass ^ 2)
    (hw : 0 ≤ w) (hK : w + a * (g / p.mass) ≤ K * (a * (g / p.mass))) (os : List (SimOp ℝ n)) :
    ∀ (k : ℕ) (u : Sim ℝ n), (∀ o ∈ os, CycleWithin a b o) →
      (Landed p ms f u ∨ Falling p ms b f u ∧ Descent (g / p.mass) a b w z0 K k u) →
      ∃ t, u.Runs os t ∧
        (Landed p ms f t ∨ Falling p ms b f t ∧ Descent (g / p.mass) a b w z0 K (k + updates os) t) := by
  induction os with
  | nil => exact fun k u _ hu => ⟨u, .nil u, hu⟩
  | cons o os ih =>
    intro k u ho hu
    have ho1 := ho _ (List.mem_cons_self ..)
    have ho2 : ∀ o ∈ os, CycleWithin a b o := fun o h => ho o (List.mem_cons_of_mem _ h)
    rcases hu with ⟨x, q, hx, hq, hu⟩ | ⟨hu, hde⟩
    · have hc : CycleCall o := by
        cases o <;> simp only [CycleWithin, CycleCall] at ho1 ⊢
        exact ⟨ha.trans_le ho1.1, ho1.2.trans hb⟩
      obtain ⟨u', h1, h2⟩ := landed_step hmo hl hm hg hg0 hq hu o hc
      obtain ⟨t, h3, h4⟩ := landed_stays hmo hl hm hg hg0 hq os u' h2 (by
        intro o h
        have h := ho2 o h
        cases o <;> simp only [CycleWithin, CycleCall] at h ⊢
        exact ⟨ha.trans_le h.1, h.2.trans hb⟩)
      exact ⟨t, .ok h1 h3, .inl ⟨x, q, hx, hq, h4⟩⟩
    · cases o with
      | updateController dt =>
        obtain ⟨t, h3, h4⟩ := ih k (u.updateController dt) ho2 (.inr (by
          rw [Sim.updateController_disarmed hu.disarmed]
          exact ⟨⟨hu.core, hu.unit, hu.motVel, hu.disarmed, by simp [flt], hu.floor, hu.level, hu.height,
            hu.extForce, hu.slow⟩, hde.speed, hde.height⟩))
        exact ⟨t, .ok rfl h3, h4⟩
      | updateDynamics dt =>
        obtain ⟨u', h1, h2⟩ := coast_update hmo hl hm hg hg0 hd hn ha hb hst hu ho1.1 ho1.2
        obtain ⟨t, h3, h4⟩ := ih (k + 1) u' ho2 (h2.imp id fun ⟨h, z, v1, v2⟩ =>
          ⟨h, hde.next (by positivity) ha hw hK ho1.1 ho1.2 z v1 v2⟩)
        refine ⟨t, .ok h1 h3, ?_⟩
        rw [show k + updates (SimOp.updateDynamics dt :: os) = k + 1 + updates os by
          simp only [updates]; omega]
        exact h4
      | updateImu dt =>
        obtain ⟨t, h3, h4⟩ := ih k (u.updateImu dt) ho2 (.inr ⟨⟨hu.core, hu.unit, hu.motVel, hu.disarmed,
          hu.actuation, hu.floor, hu.level, hu.height, hu.extForce, hu.slow⟩, hde.speed, hde.height⟩)
        exact ⟨t, .ok rfl h3, h4⟩
      | updateOdom dt =>
        obtain ⟨t, h3, h4⟩ := ih k (u.updateOdom dt) ho2 (.inr ⟨⟨hu.core, hu.unit, hu.motVel, hu.disarmed,
          hu.actuation, hu.floor, hu.level, hu.height, hu.extForce, hu.slow⟩, hde.speed, hde.height⟩)
        exact ⟨t, .ok rfl h3, h4⟩
      | _ => exact ho1.elim

/-- **C157.** Let the time steps lie between `a > 0` and `b ≤ 1/100`, and let the vertical speed and the terminal
speed be such that a step of drag cannot turn the motion round. If `K` steps of weight use up the speed upwards, and
`M` steps at the least speed downwards cover the height that can be reached, then after `K + M` updates the vehicle
is on the floor, whatever the calls of the cycle between them; and from then on it keeps position and orientation
through every further sequence of cycles. -/
theorem C157_lands_within (s : Sim ℝ n) (p : ModelParams ℝ) (ms : Fin n → Motor ℝ) (g a b : ℝ) (K M : ℕ)
    (hs : LetGo s p ms g) (ha : 0 < a) (hb : b ≤ 1 / 100)
    (hslow : p.drag * b * |s.dyn.state.vel 2| ≤ p.mass)
    (hst : p.drag * b ^ 2 * g ≤ 3 / 4 * p.mass ^ 2)
    (hK : max (s.dyn.state.vel 2) 0 + a * (g / p.mass) ≤ K * (a * (g / p.mass)))
    (hM : s.dyn.state.pos 2 + K * (b * max (s.dyn.state.vel 2) 0) - s.floorHeight <
      M * (a * (a * (g / p.mass))))
    (os : List (SimOp ℝ n)) (ho : ∀ o ∈ os, CycleWithin a b o) (hN : K + M ≤ updates os) :
    ∃ t, s.Runs os t ∧ t.dyn.state.pos 2 = s.floorHeight ∧
      ∀ os' : List (SimOp ℝ n), (∀ o ∈ os', CycleCall o) →
        ∃ t', t.Runs os' t' ∧ t'.dyn.state.pos = t.dyn.state.pos ∧ t'.dyn.state.ori = t.dyn.state.ori := by
  obtain ⟨hco, hmo⟩ := runsOn_core hs.runsOn
  have hm := hs.mass
  have hg0 := hs.down
  have hG : 0 < g / p.mass := by positivity
  have haG : 0 < a * (g / p.mass) := mul_pos ha hG
  have haaG : 0 < a * (a * (g / p.mass)) := mul_pos ha haG
  obtain ⟨t, ht, h⟩ := descent_runs (f := s.floorHeight) (z0 := s.dyn.state.pos 2) hmo hs.limits hm hs.gravity
    hg0 hs.drag hs.quiet ha hb hst (le_max_right _ _) hK os 0 s ho (.inr ⟨⟨hco, hs.unit, hs.motVel, hs.disarmed,
      hs.actuation, hs.floor, rfl, hs.height, hs.extForce, hslow⟩,
      le_max_of_le_left (by simp), by simp⟩)
  refine ⟨t, ht, ?_⟩
  rcases h with ⟨x, q, hx, hq, hp⟩ | ⟨hc, hde⟩
  · refine ⟨by rw [hp.pos, hx], fun os' ho' => ?_⟩
    obtain ⟨t', h1, h2⟩ := landed_stays hmo hs.limits hm hs.gravity hg0 hq os' t hp ho'
    exact ⟨t', h1, by rw [h2.pos, hp.pos], by rw [h2.ori, hp.ori]⟩
  · exfalso
    have h1 := hde.height
    have h2 := hc.height
    rw [zero_add, show min (updates os) K = K by omega] at h1
    have h3 : (M : ℝ) ≤ (updates os - K : ℕ) := by exact_mod_cast (by omega)
    have h4 := mul_le_mul_of_nonneg_right h3 haaG.le
    linarith

/-- **C157.** Hence there is a number of updates after which the vehicle is on the floor. -/
theorem C157_lands (s : Sim ℝ n) (p : ModelParams ℝ) (ms : Fin n → Motor ℝ) (g a b : ℝ)
    (hs : LetGo s p ms g) (ha : 0 < a) (hb : b ≤ 1 / 100)
    (hslow : p.drag * b * |s.dyn.state.vel 2| ≤ p.mass)
    (hst : p.drag * b ^ 2 * g ≤ 3 / 4 * p.mass ^ 2) :
    ∃ N, ∀ os : List (SimOp ℝ n), (∀ o ∈ os, CycleWithin a b o) → N ≤ updates os →
      ∃ t, s.Runs os t ∧ t.dyn.state.pos 2 = s.floorHeight ∧
        ∀ os' : List (SimOp ℝ n), (∀ o ∈ os', CycleCall o) →
          ∃ t', t.Runs os' t' ∧ t'.dyn.state.pos = t.dyn.state.pos ∧ t'.dyn.state.ori = t.dyn.state.ori := by
  have hm := hs.mass
  have hg0 := hs.down
  have haG : 0 < a * (g / p.mass) := by positivity
  have haaG : 0 < a * (a * (g / p.mass)) := by positivity
  obtain ⟨K, hK⟩ := exists_nat_ge ((max (s.dyn.state.vel 2) 0 + a * (g / p.mass)) / (a * (g / p.mass)))
  obtain ⟨M, hM⟩ := exists_nat_gt ((s.dyn.state.pos 2 + K * (b * max (s.dyn.state.vel 2) 0) - s.floorHeight) /
    (a * (a * (g / p.mass))))
  rw [div_le_iff₀ haG] at hK
  rw [div_lt_iff₀ haaG] at hM
  exact ⟨K + M, C157_lands_within s p ms g a b K M hs ha hb hslow hst hK hM⟩

/-- The fixture without force noise, thrown upwards and tumbling, 5 m above the floor: the hypotheses are met, and
so they are by a cycle with two updates. -/
example : ∃ (s : Sim ℝ 4) (p : ModelParams ℝ) (ms : Fin 4 → Motor ℝ), LetGo s p ms 10 ∧
    s.dyn.state.vel = ![3, 0, 1] ∧ s.dyn.state.angVel = ![1, 2, 3] ∧ s.dyn.state.pos 2 = s.floorHeight + 5 ∧
    p.drag * (1 / 100) * |s.dyn.state.vel 2| ≤ p.mass ∧ p.drag * (1 / 100) ^ 2 * 10 ≤ 3 / 4 * p.mass ^ 2 ∧
    p.drag = 1 ∧
    (∀ o ∈ ([.updateController 1, .updateDynamics (1 / 200), .updateImu 1, .updateDynamics (1 / 100)] :
      List (SimOp ℝ 4)), CycleWithin (1 / 200) (1 / 100) o) ∧
    updates ([.updateController 1, .updateDynamics (1 / 200), .updateImu 1, .updateDynamics (1 / 100)] :
      List (SimOp ℝ 4)) = 2 := by
  let p : ModelParams ℝ := { Fixture.modelParams with forceNoise := 0 }
  let m : Model ℝ 4 := ⟨some (Model.coreOf p Fixture.motors), none, ⟨7, 0⟩, vzero, vzero⟩
  have hmk : Model.mk' p 7 = some m := by
    have hck : Model.checkParams p = true := by
      simp [Model.checkParams, p, Fixture.modelParams, Model.checkMotor, Model.quadX, flt]
    have hmo : Model.motorFn 4 p.motors = some Fixture.motors := Fixture.motorFn_eq
    have hdo : Model.dirOk p.motors = true := Fixture.dirOk
    simp [Model.mk', Model.updateParams, hck, hmo, hdo, m]
  let s : Sim ℝ 4 :=
    { Fixture.sim.enableFloor (-5) with
      dyn := ⟨m, { Fixture.dyn.state with vel := ![3, 0, 1], angVel := ![1, 2, 3] }⟩ }
  refine ⟨s, p, Fixture.motors, ⟨⟨rfl, p, 7, m, [], hmk, rfl, rfl⟩, fun i => ?_, ?_, rfl, by norm_num, ?_, rfl,
    fixture_unit, ?_, rfl, ?_, rfl, ?_, ?_⟩, rfl, rfl, ?_, ?_, ?_, rfl, by simp [CycleWithin]; norm_num, rfl⟩
  · obtain ⟨h1, h2, -⟩ := Fixture.motors_speed i
    rw [h1, h2]; norm_num
  · norm_num [p, Fixture.modelParams]
  · norm_num [p, Fixture.modelParams]
  · simp [s, Fixture.dyn, State.default, flt]
  · simp [s, Sim.enableFloor, Fixture.sim, flt]
  · simp [s, Sim.enableFloor, Fixture.dyn, State.default, flt]
  · simp [s, Sim.enableFloor, flt]
  · simp [s, Sim.enableFloor, Fixture.dyn, State.default, flt]
  · have : s.dyn.state.vel 2 = 1 := rfl
    rw [this]
    norm_num [p, Fixture.modelParams]
  · norm_num [p, Fixture.modelParams]

end

end Verif.Props
