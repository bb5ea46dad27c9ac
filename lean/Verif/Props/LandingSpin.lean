import Verif.Props.Landing

/-!
# C157: a disarmed vehicle comes down also if its rotors are still turning
-/

namespace Verif.Props

open Verif Flt Spec

/-- The sum of the absolute components of the thrusts of all rotors. -/
noncomputable def thrustSum {n : ℕ} (ms : Fin n → Motor ℝ) (w : Vec n ℝ) : ℝ :=
  ∑ i, ∑ r, |rotorForce (ms i) (w i) r|

lemma thrustSum_nonneg {n : ℕ} (ms : Fin n → Motor ℝ) (w : Vec n ℝ) : 0 ≤ thrustSum ms w :=
  Finset.sum_nonneg fun _ _ => Finset.sum_nonneg fun _ _ => abs_nonneg _

/-- One explicit Euler step of the vertical speed under an acceleration bounded by `B` and quadratic drag. -/
lemma forced_speed {v A B C G a b dt : ℝ} (hC : 0 ≤ C) (ha : 0 < a) (h0 : a ≤ dt) (h1 : dt ≤ b)
    (hA : |A| ≤ B) (hv : C * b * |v| ≤ 1) (hb : C * b ^ 2 * B ≤ 3 / 4) (hG : 0 < G) :
    C * b * |v - dt * (A + C * (v * |v|))| ≤ 1 ∧
    |v - dt * (A + C * (v * |v|))| ≤ |v| + b * B ∧
    (G ≤ A → 0 < v → v - dt * (A + C * (v * |v|)) ≤ v - a * G) ∧
    (G ≤ A → v ≤ 0 → v - dt * (A + C * (v * |v|)) ≤ -(a * G)) := by
  have hd : 0 < dt := ha.trans_le h0
  have hb0 : 0 < b := hd.trans_le h1
  have hB0 : 0 ≤ B := (abs_nonneg A).trans hA
  have hCb : 0 ≤ C * b := mul_nonneg hC hb0.le
  have hx : 0 ≤ |v| := abs_nonneg v
  have hdr : C * dt * |v| ≤ 1 :=
    (mul_le_mul_of_nonneg_right (mul_le_mul_of_nonneg_left h1 hC) hx).trans hv
  have hdr0 : 0 ≤ C * dt * |v| := by positivity
  have e : v - dt * (A + C * (v * |v|)) = v * (1 - C * dt * |v|) - dt * A := by ring
  have hle : |v - dt * (A + C * (v * |v|))| ≤ |v| * (1 - C * dt * |v|) + dt * B := by
    rw [e]
    refine (abs_sub _ _).trans ?_
    rw [abs_mul, abs_of_nonneg (sub_nonneg.2 hdr), abs_mul, abs_of_pos hd]
    have := mul_le_mul_of_nonneg_left hA hd.le
    linarith
  have key : C * b * (|v| * (1 - C * dt * |v|) + dt * B) ≤ 1 := by
    set y := C * b * |v| with hy
    set r := dt / b with hr
    have hr0 : 0 < r := div_pos hd hb0
    have hr1 : r ≤ 1 := (div_le_one hb0).2 h1
    have hrb : dt = r * b := by rw [hr, div_mul_cancel₀ _ hb0.ne']
    have hy0 : 0 ≤ y := mul_nonneg hCb hx
    have e : C * b * (|v| * (1 - C * dt * |v|) + dt * B) = y - r * y ^ 2 + r * (C * b ^ 2 * B) := by
      rw [hrb, hy]; ring
    rw [e]
    nlinarith [mul_le_mul_of_nonneg_left hb hr0.le, sq_nonneg (y - 1 / 2),
      mul_nonneg (sub_nonneg.2 hr1) (sub_nonneg.2 hv), mul_nonneg hr0.le (sq_nonneg (y - 1 / 2))]
  refine ⟨(mul_le_mul_of_nonneg_left hle hCb).trans key, hle.trans ?_, fun hg hp => ?_, fun hg hn => ?_⟩
  · have := mul_le_mul_of_nonneg_right h1 hB0
    nlinarith [mul_nonneg hx hdr0]
  · rw [e]
    have h2 : a * G ≤ dt * A := mul_le_mul h0 hg hG.le hd.le
    nlinarith [mul_nonneg hp.le hdr0]
  · rw [e]
    have h2 : a * G ≤ dt * A := mul_le_mul h0 hg hG.le hd.le
    have := mul_nonneg (neg_nonneg.2 hn) (sub_nonneg.2 hdr)
    linarith

/-- A rotation does not make the vertical component larger than the sum of the absolute components. -/
lemma rotate_two_le {q : Quat ℝ} (hq : IsUnitQ q) (v : Vec 3 ℝ) : |q.rotate v 2| ≤ ∑ r, |v r| := by
  have h := Quat.rotate_dot hq v
  simp only [dotProduct, Fin.sum_univ_three] at h
  rw [Fin.sum_univ_three]
  refine abs_le_of_sq_le_sq ?_ (by positivity)
  have h0 := abs_nonneg (v 0)
  have h1 := abs_nonneg (v 1)
  have h2 := abs_nonneg (v 2)
  nlinarith [sq_abs (v 0), sq_abs (v 1), sq_abs (v 2), mul_nonneg h0 h1, mul_nonneg h0 h2, mul_nonneg h1 h2,
    mul_self_nonneg (q.rotate v 0), mul_self_nonneg (q.rotate v 1)]

section
variable [Noise ℝ] {n : ℕ}

/-- One step without commands and without noise, with rotors turning. -/
lemma spin_step {d d' : Dyn ℝ n} {p : ModelParams ℝ} {ms : Fin n → Motor ℝ} {dt a b θ : ℝ} {noise : Bool}
    (hco : d.model.core = some (Model.coreOf p ms)) (hmo : Model.motorFn n p.motors = some ms)
    (hl : ∀ i, (ms i).minSpeed ≤ 0 ∧ 0 ≤ (ms i).maxSpeed) (hn : p.forceNoise = 0) (hq : IsUnitQ d.state.ori)
    (ht : ∀ i, b ≤ (ms i).tau ∧ (ms i).tau ≤ θ) (ha : 0 < a) (h0 : a ≤ dt) (h1 : dt ≤ b) (hb : b ≤ 1 / 100)
    (hθ : b ≤ θ) (h : d.process 0 dt 0 noise = .ok d') :
    d'.model.core = d.model.core ∧ d'.state.pos = d.state.pos + dt • d.state.vel ∧
    d'.state.ori = quatIntegrate d.state.ori d.state.angVel dt ∧
    thrustSum ms d'.state.motVel ≤ (1 - a / θ) * thrustSum ms d.state.motVel ∧
    ∃ T, |T| ≤ thrustSum ms d.state.motVel ∧ d'.state.vel 2 = d.state.vel 2 +
      dt * (p.mass⁻¹ * (T + p.gravity 2 - p.drag * (d.state.vel 2 * |d.state.vel 2|))) := by
  have hdt : 0 < dt := ha.trans_le h0
  have hb0 : 0 < b := hdt.trans_le h1
  rw [Dyn.process_small_real _ _ _ _ hdt (h1.trans hb)] at h
  obtain ⟨-, rfl⟩ := step_on hco hmo h
  have hz : ∀ i, clampVal (0 : ℝ) (ms i).minSpeed (ms i).maxSpeed = 0 := by
    intro i
    rw [clampVal_real, if_neg (not_lt.2 (hl i).1), if_neg (not_lt.2 (hl i).2)]
  have hcl : ∀ i (x : ℝ), |clampVal x (ms i).minSpeed (ms i).maxSpeed| ≤ |x| := by
    intro i x
    obtain ⟨l1, l2⟩ := hl i
    rw [clampVal_real]
    split_ifs with c1 c2
    · rw [abs_of_nonpos l1, abs_of_nonpos (c1.le.trans l1)]; linarith
    · rw [abs_of_nonneg l2, abs_of_nonneg (l2.trans c2.le)]; linarith
    · exact le_rfl
  have hθ0 : 0 < θ := hb0.trans_le hθ
  have haθ : a / θ ≤ 1 := (div_le_one hθ0).2 ((h0.trans h1).trans hθ)
  have hρ0 : 0 ≤ 1 - a / θ := by linarith
  have hρ1 : 1 - a / θ ≤ 1 := by have := div_pos ha hθ0; linarith
  refine ⟨Dyn.eulerStep_core .., Dyn.es_pos .., Dyn.es_ori .., ?_, ?_⟩
  · unfold thrustSum
    rw [Finset.mul_sum]
    refine Finset.sum_le_sum fun i _ => ?_
    rw [Finset.mul_sum]
    refine Finset.sum_le_sum fun r _ => ?_
    set w := d.state.motVel i with hw
    have hτ : 0 < (ms i).tau := hb0.trans_le (ht i).1
    set w' := (Dyn.eulerStep (Model.coreOf p ms) ms d 0 dt 0 noise).state.motVel i with hw'
    have hle : |w'| ≤ (1 - a / θ) * |w| := by
      have e : w' = clampVal (w * (1 - dt / (ms i).tau)) (ms i).minSpeed (ms i).maxSpeed := by
        rw [hw', Dyn.es_motVel, Dyn.es_motAcc]
        simp only [Pi.zero_apply, hz]
        congr 1
        rw [← hw]
        field_simp
        ring
      rw [e]
      refine (hcl i _).trans ?_
      have g1 : dt / (ms i).tau ≤ 1 := (div_le_one hτ).2 (h1.trans (ht i).1)
      have g2 : a / θ ≤ dt / (ms i).tau := div_le_div₀ hdt.le h0 hτ (ht i).2
      rw [abs_mul, abs_of_nonneg (sub_nonneg.2 g1), mul_comm]
      exact mul_le_mul_of_nonneg_right (by linarith) (abs_nonneg _)
    simp only [rotorForce, mulVec_z, abs_mul, abs_abs]
    have h2 : |w'| * |w'| ≤ (1 - a / θ) * (|w| * |w|) := by
      have h3 : (1 - a / θ) * |w| ≤ |w| := mul_le_of_le_one_left (abs_nonneg _) hρ1
      calc |w'| * |w'| ≤ ((1 - a / θ) * |w|) * |w| :=
            mul_le_mul hle (hle.trans h3) (abs_nonneg _) (mul_nonneg hρ0 (abs_nonneg _))
        _ = _ := by ring
    have h4 := mul_le_mul_of_nonneg_left h2 (mul_nonneg (abs_nonneg ((ms i).rot r 2)) (abs_nonneg (ms i).kf))
    calc _ = |(ms i).rot r 2| * |(ms i).kf| * (|w'| * |w'|) := by ring
      _ ≤ _ := h4
      _ = _ := by ring
  · have hns : Dyn.stepNoise (Model.coreOf p ms) d dt noise = 0 := by
      cases noise
      · simp
      · simp only [Dyn.stepNoise, if_true, Model.setNoise]
        split
        · simp [Model.disableNoise, flt]
        · funext i
          simp [Model.coreOf, hn, flt]
    refine ⟨d.state.ori.rotate (∑ i, rotorForce (ms i) (d.state.motVel i)) 2, ?_, ?_⟩
    · refine (rotate_two_le hq _).trans ?_
      unfold thrustSum
      rw [Finset.sum_comm]
      refine Finset.sum_le_sum fun r _ => ?_
      rw [Finset.sum_apply]
      exact Finset.abs_sum_le_sum_abs _ _
    · rw [Dyn.es_vel, Dyn.es_acc]
      simp only [Pi.add_apply, Pi.smul_apply, smul_eq_mul]
      rw [Dyn.es_force, hns, Model.thrustVec_coreOf, dragForce_real]
      simp [Model.coreOf]
      left; left; ring

/-- A disarmed vehicle at or above an enabled floor, in any attitude, at any speed and with rotors turning at any
speed, with gravity pointing down, no force noise and a drag that is not negative. -/
structure CutOff (s : Sim ℝ n) (p : ModelParams ℝ) (ms : Fin n → Motor ℝ) (g : ℝ) : Prop where
  runsOn : RunsOn s.dyn p ms
  limits : ∀ i, (ms i).minSpeed ≤ 0 ∧ 0 ≤ (ms i).maxSpeed
  mass : 0 < p.mass
  gravity : p.gravity = ![0, 0, -g]
  down : 0 < g
  drag : 0 ≤ p.drag
  quiet : p.forceNoise = 0
  unit : IsUnitQ s.dyn.state.ori
  disarmed : s.armed = false
  actuation : s.actuation = 0
  floor : s.floorEnable = true
  height : s.floorHeight ≤ s.dyn.state.pos 2
  extForce : s.extForce = 0

/-- What holds at every moment; `σ` bounds the thrust. -/
structure Spinning (p : ModelParams ℝ) (ms : Fin n → Motor ℝ) (b f σ : ℝ) (s : Sim ℝ n) : Prop where
  core : s.dyn.model.core = some (Model.coreOf p ms)
  unit : IsUnitQ s.dyn.state.ori
  thrust : thrustSum ms s.dyn.state.motVel ≤ σ
  disarmed : s.armed = false
  actuation : s.actuation = 0
  floor : s.floorEnable = true
  level : s.floorHeight = f
  height : f ≤ s.dyn.state.pos 2
  extForce : s.extForce = 0
  slow : p.drag * b * |s.dyn.state.vel 2| ≤ p.mass

/-- One update: the vehicle is stopped at the floor, or it moves on. -/
lemma spin_update {s : Sim ℝ n} {p : ModelParams ℝ} {ms : Fin n → Motor ℝ} {g a b f θ σ S dt : ℝ}
    (hmo : Model.motorFn n p.motors = some ms) (hl : ∀ i, (ms i).minSpeed ≤ 0 ∧ 0 ≤ (ms i).maxSpeed)
    (hm : 0 < p.mass) (hg : p.gravity = ![0, 0, -g]) (hg0 : 0 < g) (hd : 0 ≤ p.drag)
    (hn : p.forceNoise = 0) (ht : ∀ i, b ≤ (ms i).tau ∧ (ms i).tau ≤ θ) (hθ : b ≤ θ)
    (ha : 0 < a) (hb : b ≤ 1 / 100) (hσ : σ ≤ S)
    (hst : p.drag * b ^ 2 * (g + S) ≤ 3 / 4 * p.mass ^ 2)
    (hs : Spinning p ms b f σ s) (h0 : a ≤ dt) (h1 : dt ≤ b) :
    ∃ s', s.updateDynamics dt = .ok s' ∧ Spinning p ms b f ((1 - a / θ) * σ) s' ∧
      ((s'.dyn.state.pos 2 = f ∧ s'.dyn.state.vel 2 = 0) ∨
       (s'.dyn.state.pos 2 = s.dyn.state.pos 2 + dt * s.dyn.state.vel 2 ∧
        |s'.dyn.state.vel 2| ≤ |s.dyn.state.vel 2| + b * ((g + S) / p.mass) ∧
        (σ ≤ g / 2 →
          (0 < s.dyn.state.vel 2 → s'.dyn.state.vel 2 ≤ s.dyn.state.vel 2 - a * (g / 2 / p.mass)) ∧
          (s.dyn.state.vel 2 ≤ 0 → s'.dyn.state.vel 2 ≤ -(a * (g / 2 / p.mass)))))) := by
  have h0' : 0 < dt := ha.trans_le h0
  have hθ0 : 0 < θ := (h0'.trans_le h1).trans_le hθ
  have hρ0 : 0 ≤ 1 - a / θ := by
    have := (div_le_one hθ0).2 ((h0.trans h1).trans hθ)
    linarith
  obtain ⟨s', h⟩ := small_update_ok (u := s) hs.core hmo hl h0' (h1.trans hb)
  refine ⟨s', h, ?_⟩
  obtain ⟨d, ⟨e, he, hp⟩, hc, hnc⟩ := C07_floor_contact s s' dt h
  have he0 : e = 0 := by
    rcases he with ⟨⟨-, hb'⟩, -⟩ | ⟨-, he⟩
    · have : s.dyn.state.pos 2 < s.floorHeight := by simpa [flt] using hb'
      rw [hs.level] at this
      exact absurd hs.height (not_le.2 this)
    · rw [he, hs.extForce]
  rw [he0, hs.actuation] at hp
  obtain ⟨r1, r2, r3, r4, T, hT, r5⟩ := spin_step hs.core hmo hl hn hs.unit ht ha h0 h1 hb hθ hp
  have hq : IsUnitQ d.state.ori := by rw [r3]; exact Quat.quatIntegrate_unit hs.unit.nonzero _ _
  have hth : thrustSum ms d.state.motVel ≤ (1 - a / θ) * σ :=
    r4.trans (mul_le_mul_of_nonneg_left hs.thrust hρ0)
  by_cases hct : Contact s d
  · rw [hc hct]
    refine ⟨⟨r1.trans hs.core, hq, hth, hs.disarmed, hs.actuation, hs.floor, hs.level, hs.level.ge,
      by simp [flt]; rfl, ?_⟩, .inl ⟨hs.level, by simp [flt]⟩⟩
    simp [flt, hm.le]
  · have hz : f ≤ d.state.pos 2 := by
      by_contra hlt
      refine hct ⟨hs.floor, ?_⟩
      rw [hs.level]
      simpa [flt] using hlt
    have hv : d.state.vel 2 = s.dyn.state.vel 2 -
        dt * ((g - T) / p.mass + p.drag / p.mass * (s.dyn.state.vel 2 * |s.dyn.state.vel 2|)) := by
      rw [r5, hg]
      simp
      field_simp
      ring
    have hTσ := hT.trans hs.thrust
    obtain ⟨t1, t2⟩ := abs_le.1 hTσ
    have hA : |(g - T) / p.mass| ≤ (g + S) / p.mass := by
      rw [abs_div, abs_of_pos hm]
      refine div_le_div_of_nonneg_right (abs_le.2 ⟨?_, ?_⟩) hm.le <;> linarith
    obtain ⟨f1, f2, f3, f4⟩ := forced_speed (v := s.dyn.state.vel 2) (C := p.drag / p.mass)
      (b := b) (G := g / 2 / p.mass) (by positivity) ha h0 h1 hA
      (by
        rw [div_mul_eq_mul_div, div_mul_eq_mul_div, div_le_one hm]; exact hs.slow)
      (by
        have : p.drag / p.mass * b ^ 2 * ((g + S) / p.mass) = p.drag * b ^ 2 * (g + S) / p.mass ^ 2 := by
          field_simp
        rw [this, div_le_iff₀ (by positivity)]; exact hst) (by positivity)
    rw [← hv] at f1 f2 f3 f4
    rw [hnc hct]
    refine ⟨⟨r1.trans hs.core, hq, hth, hs.disarmed, hs.actuation, hs.floor, hs.level, hz,
      by simp [flt]; rfl, ?_⟩, .inr ⟨?_, f2, fun hσ2 => ?_⟩⟩
    · rwa [div_mul_eq_mul_div, div_mul_eq_mul_div, div_le_one hm] at f1
    · simp only [r2, Pi.add_apply, Pi.smul_apply, smul_eq_mul]
    · have : g / 2 / p.mass ≤ (g - T) / p.mass := div_le_div_of_nonneg_right (by linarith) hm.le
      exact ⟨f3 this, f4 this⟩

/-- What holds after `k` updates: the thrust decays; during the first `k0` updates speed and height are bounded;
afterwards the vehicle is on the floor or comes down. -/
structure SpinInv (p : ModelParams ℝ) (ms : Fin n → Motor ℝ) (b f ρ S : ℝ) (v0 z0 B w G a : ℝ) (k0 K k : ℕ)
    (s : Sim ℝ n) : Prop where
  base : Spinning p ms b f (ρ ^ k * S) s
  early : k ≤ k0 → |s.dyn.state.vel 2| ≤ v0 + k * (b * B) ∧ s.dyn.state.pos 2 ≤ z0 + k * (b * w)
  late : k0 ≤ k → (s.dyn.state.pos 2 = f ∧ s.dyn.state.vel 2 ≤ 0) ∨
    Descent G a b w (z0 + k0 * (b * w)) K (k - k0) s

/-- Every sequence of update calls keeps this. -/
lemma spin_runs {p : ModelParams ℝ} {ms : Fin n → Motor ℝ} {g a b f θ S v0 z0 w : ℝ} {k0 K : ℕ}
    (hmo : Model.motorFn n p.motors = some ms) (hl : ∀ i, (ms i).minSpeed ≤ 0 ∧ 0 ≤ (ms i).maxSpeed)
    (hm : 0 < p.mass) (hg : p.gravity = ![0, 0, -g]) (hg0 : 0 < g) (hd : 0 ≤ p.drag)
    (hn : p.forceNoise = 0) (ht : ∀ i, b ≤ (ms i).tau ∧ (ms i).tau ≤ θ) (hθ : b ≤ θ) (hab : a ≤ b)
    (ha : 0 < a) (hb : b ≤ 1 / 100) (hS : 0 ≤ S)
    (hst : p.drag * b ^ 2 * (g + S) ≤ 3 / 4 * p.mass ^ 2) (hv0 : 0 ≤ v0) (hz0 : f ≤ z0)
    (hk0 : ∀ k ≥ k0, (1 - a / θ) ^ k * S ≤ g / 2)
    (hw : w = v0 + k0 * (b * ((g + S) / p.mass)))
    (hK : w + a * (g / 2 / p.mass) ≤ K * (a * (g / 2 / p.mass))) (os : List (SimOp ℝ n)) :
    ∀ (k : ℕ) (u : Sim ℝ n), (∀ o ∈ os, CycleWithin a b o) →
      SpinInv p ms b f (1 - a / θ) S v0 z0 ((g + S) / p.mass) w (g / 2 / p.mass) a k0 K k u →
      ∃ t, u.Runs os t ∧
        SpinInv p ms b f (1 - a / θ) S v0 z0 ((g + S) / p.mass) w (g / 2 / p.mass) a k0 K (k + updates os) t := by
  have hb0 : 0 < b := ha.trans_le hab
  have hB : 0 ≤ b * ((g + S) / p.mass) := by positivity
  have hw0 : 0 ≤ w := by rw [hw]; positivity
  have hρ0 : 0 ≤ 1 - a / θ := by
    have := (div_le_one (hb0.trans_le hθ)).2 (hab.trans hθ)
    linarith
  have hρ1 : 1 - a / θ ≤ 1 := by have := div_pos ha (hb0.trans_le hθ); linarith
  induction os with
  | nil => exact fun k u _ hu => ⟨u, .nil u, hu⟩
  | cons o os ih =>
    intro k u ho hu
    have ho1 := ho _ (List.mem_cons_self ..)
    have ho2 : ∀ o ∈ os, CycleWithin a b o := fun o h => ho o (List.mem_cons_of_mem _ h)
    cases o with
    | updateController dt =>
      obtain ⟨t, h3, h4⟩ := ih k (u.updateController dt) ho2 (by
        rw [Sim.updateController_disarmed hu.base.disarmed]
        obtain ⟨⟨b1, b2, b3, b4, b5, b6, b7, b8, b9, b10⟩, he, hla⟩ := hu
        exact ⟨⟨b1, b2, b3, b4, by simp [flt], b6, b7, b8, b9, b10⟩, he,
          fun h => (hla h).imp id fun h => ⟨h.speed, h.height⟩⟩)
      exact ⟨t, .ok rfl h3, h4⟩
    | updateDynamics dt =>
      have hσ : (1 - a / θ) ^ k * S ≤ S := mul_le_of_le_one_left hS (pow_le_one₀ hρ0 hρ1)
      obtain ⟨u', h1, h2, h3⟩ := spin_update hmo hl hm hg hg0 hd hn ht hθ ha hb hσ hst hu.base ho1.1 ho1.2
      have hdt : 0 < dt := ha.trans_le ho1.1
      have hinv : SpinInv p ms b f (1 - a / θ) S v0 z0 ((g + S) / p.mass) w (g / 2 / p.mass) a k0 K (k + 1) u' := by
        have early : k + 1 ≤ k0 → |u'.dyn.state.vel 2| ≤ v0 + (k + 1 : ℕ) * (b * ((g + S) / p.mass)) ∧
            u'.dyn.state.pos 2 ≤ z0 + (k + 1 : ℕ) * (b * w) := by
          intro hk
          obtain ⟨e1, e2⟩ := hu.early (by omega)
          have hbw : 0 ≤ b * w := mul_nonneg hb0.le hw0
          rcases h3 with ⟨z1, z2⟩ | ⟨z1, z2, -⟩
          · rw [z1, z2, abs_zero]
            exact ⟨by positivity, by have : (0:ℝ) ≤ (k + 1 : ℕ) * (b * w) := by positivity
                                     linarith⟩
          · refine ⟨by push_cast; linarith, ?_⟩
            have hvw : u.dyn.state.vel 2 ≤ w := by
              refine (le_abs_self _).trans (e1.trans ?_)
              rw [hw]
              have : (k : ℝ) * (b * ((g + S) / p.mass)) ≤ k0 * (b * ((g + S) / p.mass)) :=
                mul_le_mul_of_nonneg_right (by exact_mod_cast (by omega)) hB
              linarith
            have : dt * u.dyn.state.vel 2 ≤ b * w :=
              (mul_le_mul_of_nonneg_left hvw hdt.le).trans (mul_le_mul_of_nonneg_right ho1.2 hw0)
            rw [z1]
            push_cast
            linarith
        refine ⟨by rw [pow_succ, mul_comm ((1 - a / θ) ^ k), mul_assoc]; exact h2, early, fun hk => ?_⟩
        rcases Nat.lt_or_ge k k0 with hlt | hge
        · obtain rfl : k0 = k + 1 := by omega
          obtain ⟨e1, e2⟩ := early le_rfl
          refine .inr ⟨le_max_of_le_left ?_, by simpa using e2⟩
          rw [Nat.sub_self, Nat.cast_zero, zero_mul, sub_zero, hw]
          exact (le_abs_self _).trans e1
        · have hsm := hk0 k hge
          rcases h3 with ⟨z1, z2⟩ | ⟨z1, -, z3⟩
          · exact .inl ⟨z1, z2.le⟩
          · obtain ⟨z3, z4⟩ := z3 hsm
            rcases hu.late hge with ⟨l1, l2⟩ | hde
            · left
              have hh := h2.height
              rw [z1, l1] at hh
              have : dt * u.dyn.state.vel 2 ≤ 0 := mul_nonpos_of_nonneg_of_nonpos hdt.le l2
              refine ⟨by rw [z1, l1]; linarith, (z4 l2).trans ?_⟩
              have : 0 < a * (g / 2 / p.mass) := by positivity
              linarith
            · right
              rw [show k + 1 - k0 = k - k0 + 1 by omega]
              exact hde.next (by positivity) ha hw0 hK ho1.1 ho1.2 z1 z3 z4
      obtain ⟨t, h4, h5⟩ := ih (k + 1) u' ho2 hinv
      refine ⟨t, .ok h1 h4, ?_⟩
      rw [show k + updates (SimOp.updateDynamics dt :: os) = k + 1 + updates os by
        simp only [updates]; omega]
      exact h5
    | updateImu dt =>
      obtain ⟨t, h3, h4⟩ := ih k (u.updateImu dt) ho2 (by
        obtain ⟨⟨b1, b2, b3, b4, b5, b6, b7, b8, b9, b10⟩, he, hla⟩ := hu
        exact ⟨⟨b1, b2, b3, b4, b5, b6, b7, b8, b9, b10⟩, he,
          fun h => (hla h).imp id fun h => ⟨h.speed, h.height⟩⟩)
      exact ⟨t, .ok rfl h3, h4⟩
    | updateOdom dt =>
      obtain ⟨t, h3, h4⟩ := ih k (u.updateOdom dt) ho2 (by
        obtain ⟨⟨b1, b2, b3, b4, b5, b6, b7, b8, b9, b10⟩, he, hla⟩ := hu
        exact ⟨⟨b1, b2, b3, b4, b5, b6, b7, b8, b9, b10⟩, he,
          fun h => (hla h).imp id fun h => ⟨h.speed, h.height⟩⟩)
      exact ⟨t, .ok rfl h3, h4⟩
    | _ => exact ho1.elim

/-- **C157.** The same with rotors that are still turning, if the time constants of the rotors are not shorter than
the time steps: there is a number of updates from which on the vehicle is at the height of the floor, and the
vertical speed is not upwards, for ever. The thrust may take it upwards or off the floor before. -/
theorem C157_spinning (s : Sim ℝ n) (p : ModelParams ℝ) (ms : Fin n → Motor ℝ) (g a b : ℝ)
    (hs : CutOff s p ms g) (ht : ∀ i, b ≤ (ms i).tau) (ha : 0 < a) (hab : a ≤ b) (hb : b ≤ 1 / 100)
    (hslow : p.drag * b * |s.dyn.state.vel 2| ≤ p.mass)
    (hst : p.drag * b ^ 2 * (g + thrustSum ms s.dyn.state.motVel) ≤ 3 / 4 * p.mass ^ 2) :
    ∃ N, ∀ os : List (SimOp ℝ n), (∀ o ∈ os, CycleWithin a b o) → N ≤ updates os →
      ∃ t, s.Runs os t ∧ t.dyn.state.pos 2 = s.floorHeight ∧ t.dyn.state.vel 2 ≤ 0 := by
  obtain ⟨hco, hmo⟩ := runsOn_core hs.runsOn
  have hm := hs.mass
  have hg0 := hs.down
  have hb0 : 0 < b := ha.trans_le hab
  set θ := b + ∑ i, (ms i).tau with hθ
  have hτ0 : ∀ i, 0 ≤ (ms i).tau := fun i => hb0.le.trans (ht i)
  have hθb : b ≤ θ := by have := Finset.sum_nonneg fun i (_ : i ∈ Finset.univ) => hτ0 i; linarith
  have hτθ : ∀ i, b ≤ (ms i).tau ∧ (ms i).tau ≤ θ := fun i => ⟨ht i, by
    have := Finset.single_le_sum (fun i _ => hτ0 i) (Finset.mem_univ i)
    linarith⟩
  have hθ0 : 0 < θ := hb0.trans_le hθb
  set S := thrustSum ms s.dyn.state.motVel with hSdef
  have hS : 0 ≤ S := thrustSum_nonneg ..
  have hρ0 : 0 ≤ 1 - a / θ := by
    have := (div_le_one hθ0).2 (hab.trans hθb)
    linarith
  have hρ1 : 1 - a / θ < 1 := by have := div_pos ha hθ0; linarith
  obtain ⟨k0, hk0⟩ : ∃ k0 : ℕ, ∀ k ≥ k0, (1 - a / θ) ^ k * S ≤ g / 2 := by
    obtain ⟨k0, h⟩ := exists_pow_lt_of_lt_one (show 0 < g / 2 / (S + 1) by positivity) hρ1
    refine ⟨k0, fun k hk => ?_⟩
    have h1 : (1 - a / θ) ^ k ≤ g / 2 / (S + 1) := (pow_le_pow_of_le_one hρ0 hρ1.le hk).trans h.le
    calc (1 - a / θ) ^ k * S ≤ g / 2 / (S + 1) * (S + 1) :=
          mul_le_mul h1 (by linarith) hS (by positivity)
      _ = g / 2 := by field_simp
  set v0 := |s.dyn.state.vel 2| with hv0
  set w := v0 + k0 * (b * ((g + S) / p.mass)) with hw
  have haG : 0 < a * (g / 2 / p.mass) := by positivity
  have haaG : 0 < a * (a * (g / 2 / p.mass)) := by positivity
  obtain ⟨K, hK⟩ := exists_nat_ge ((w + a * (g / 2 / p.mass)) / (a * (g / 2 / p.mass)))
  obtain ⟨M, hM⟩ := exists_nat_gt ((s.dyn.state.pos 2 + k0 * (b * w) + K * (b * w) - s.floorHeight) /
    (a * (a * (g / 2 / p.mass))))
  rw [div_le_iff₀ haG] at hK
  rw [div_lt_iff₀ haaG] at hM
  refine ⟨k0 + (K + M), fun os ho hN => ?_⟩
  obtain ⟨t, ht, h⟩ := spin_runs (f := s.floorHeight) (z0 := s.dyn.state.pos 2) hmo hs.limits hm hs.gravity
    hg0 hs.drag hs.quiet hτθ hθb hab ha hb hS hst (abs_nonneg _) hs.height hk0 hw hK os 0 s ho
    ⟨⟨hco, hs.unit, by simp [hSdef], hs.disarmed, hs.actuation, hs.floor, rfl, hs.height, hs.extForce, hslow⟩,
      fun _ => by simp, fun h0 => by
        obtain rfl : k0 = 0 := by omega
        exact .inr ⟨le_max_of_le_left (by simp [hw, hv0, le_abs_self]), by simp⟩⟩
  refine ⟨t, ht, ?_⟩
  rw [zero_add] at h
  rcases h.late (by omega) with h | hde
  · exact h
  · exfalso
    have h1 := hde.height
    have h2 := h.base.height
    rw [show min (updates os - k0) K = K by omega] at h1
    have h3 : (M : ℝ) ≤ (updates os - k0 - K : ℕ) := by exact_mod_cast (by omega)
    have h4 := mul_le_mul_of_nonneg_right h3 haaG.le
    linarith

/-- **C157.** Hence disarming in flight above an enabled floor, in whatever mode, with whatever commands and external
force, brings the vehicle down. -/
theorem C157_disarm (s : Sim ℝ n) (p : ModelParams ℝ) (ms : Fin n → Motor ℝ) (g a b h : ℝ)
    (hr : RunsOn s.dyn p ms) (hl : ∀ i, (ms i).minSpeed ≤ 0 ∧ 0 ≤ (ms i).maxSpeed) (hm : 0 < p.mass)
    (hg : p.gravity = ![0, 0, -g]) (hg0 : 0 < g) (hd : 0 ≤ p.drag) (hn : p.forceNoise = 0)
    (hu : IsUnitQ s.dyn.state.ori) (hh : h ≤ s.dyn.state.pos 2) (ht : ∀ i, b ≤ (ms i).tau) (ha : 0 < a) (hab : a ≤ b)
    (hb : b ≤ 1 / 100) (hslow : p.drag * b * |s.dyn.state.vel 2| ≤ p.mass)
    (hst : p.drag * b ^ 2 * (g + thrustSum ms s.dyn.state.motVel) ≤ 3 / 4 * p.mass ^ 2) :
    ∃ N, ∀ os : List (SimOp ℝ n), (∀ o ∈ os, CycleWithin a b o) → N ≤ updates os →
      ∃ t, s.Runs (.enableFloor h :: .disarm :: os) t ∧ t.dyn.state.pos 2 = h ∧ t.dyn.state.vel 2 ≤ 0 := by
  obtain ⟨N, hN⟩ := C157_spinning (s.enableFloor h).disarm p ms g a b
    ⟨hr, hl, hm, hg, hg0, hd, hn, hu, rfl, by simp [Sim.disarm, flt], rfl, hh,
      by simp [Sim.disarm, Sim.enableFloor, flt]⟩ ht ha hab hb hslow hst
  refine ⟨N, fun os ho hu => ?_⟩
  obtain ⟨t, h1, h2, h3⟩ := hN os ho hu
  exact ⟨t, .ok rfl (.ok rfl h1), h2, h3⟩

/-- The fixture without force noise, 5 m above the floor, rising and tumbling, with rotors whose thrust of 100 is ten
times its weight: the hypotheses of the two theorems above. -/
example : ∃ (s : Sim ℝ 4) (p : ModelParams ℝ) (ms : Fin 4 → Motor ℝ), CutOff s p ms 10 ∧
    s.dyn.state.vel = ![3, 0, 1] ∧ s.dyn.state.angVel = ![1, 2, 3] ∧ s.dyn.state.pos 2 = s.floorHeight + 5 ∧
    thrustSum ms s.dyn.state.motVel = 100 ∧ (∀ i, 1 / 100 ≤ (ms i).tau) ∧
    p.drag * (1 / 100) * |s.dyn.state.vel 2| ≤ p.mass ∧
    p.drag * (1 / 100) ^ 2 * (10 + thrustSum ms s.dyn.state.motVel) ≤ 3 / 4 * p.mass ^ 2 ∧ p.drag = 1 := by
  let p : ModelParams ℝ := { Fixture.modelParams with forceNoise := 0 }
  let m : Model ℝ 4 := ⟨some (Model.coreOf p Fixture.motors), none, ⟨7, 0⟩, vzero, vzero⟩
  have hmk : Model.mk' p 7 = some m := by
    have hck : Model.checkParams p = true := by
      simp [Model.checkParams, p, Fixture.modelParams, Model.checkMotor, Model.quadX, flt]
    have hmo : Model.motorFn 4 p.motors = some Fixture.motors := Fixture.motorFn_eq
    have hdo : Model.dirOk p.motors = true := Fixture.dirOk
    simp [Model.mk', Model.updateParams, hck, hmo, hdo, m]
  let s : Sim ℝ 4 :=
    { Fixture.sim.enableFloor (-5) with
      dyn := ⟨m, { Fixture.dyn.state with vel := ![3, 0, 1], angVel := ![1, 2, 3], motVel := fun _ => 5 }⟩ }
  have hT : thrustSum Fixture.motors (fun _ => 5) = 100 := by
    have : ∀ i r, |rotorForce (Fixture.motors i) 5 r| = if r = 2 then 25 else 0 := by
      intro i r
      have hm : (Fixture.motors i).rot = 1 ∧ (Fixture.motors i).kf = 1 := by
        fin_cases i <;> simp [Fixture.motors, Fixture.modelParams, Model.quadX, flt]
      rw [rotorForce, mulVec_z, hm.1, hm.2]
      show |(if r = 2 then (1 : ℝ) else 0) * (1 * (5 * |5|))| = _
      split_ifs <;> norm_num
    simp only [thrustSum, this, Finset.sum_ite_eq', Finset.mem_univ, if_true, Finset.sum_const, Finset.card_univ,
      Fintype.card_fin]
    norm_num
  have hT' : thrustSum Fixture.motors s.dyn.state.motVel = 100 := hT
  refine ⟨s, p, Fixture.motors, ⟨⟨rfl, p, 7, m, [], hmk, rfl, rfl⟩, fun i => ?_, ?_, rfl, by norm_num, ?_, rfl,
    fixture_unit, rfl, ?_, rfl, ?_, ?_⟩, rfl, rfl, ?_, hT', fun i => ?_, ?_, ?_, rfl⟩
  · obtain ⟨h1, h2, -⟩ := Fixture.motors_speed i
    rw [h1, h2]; norm_num
  · norm_num [p, Fixture.modelParams]
  · norm_num [p, Fixture.modelParams]
  · simp [s, Sim.enableFloor, Fixture.sim, flt]
  · simp [s, Sim.enableFloor, Fixture.dyn, State.default, flt]
  · simp [s, Sim.enableFloor, flt]
  · simp [s, Sim.enableFloor, Fixture.dyn, State.default, flt]
  · rw [(Fixture.motors_speed i).2.2]; norm_num
  · have : s.dyn.state.vel 2 = 1 := rfl
    rw [this]
    norm_num [p, Fixture.modelParams]
  · rw [hT']
    norm_num [p, Fixture.modelParams]

end

end Verif.Props
