import Verif.Spec.Turn
import Verif.Props.DynRun
import Verif.Lemmas.ToMat

/-!
# C80: the dynamics prefer no direction of the compass
-/

namespace Verif.Props

open Verif Flt Spec

/-! ## Turns -/

section
variable {θ : ℝ}

lemma turnVec_add (u v : Vec 3 ℝ) : turnVec θ (u + v) = turnVec θ u + turnVec θ v := by
  ext i; fin_cases i <;> simp [turnVec] <;> ring

lemma turnVec_smul (c : ℝ) (v : Vec 3 ℝ) : turnVec θ (c • v) = c • turnVec θ v := by
  ext i; fin_cases i <;> simp [turnVec] <;> ring

lemma turnVec_vertical {v : Vec 3 ℝ} (h0 : v 0 = 0) (h1 : v 1 = 0) : turnVec θ v = v := by
  ext i; fin_cases i <;> simp [turnVec, h0, h1]

lemma half_sq : Real.cos (θ / 2) ^ 2 + Real.sin (θ / 2) ^ 2 = 1 := Real.cos_sq_add_sin_sq _

lemma cos_half : Real.cos θ = Real.cos (θ / 2) ^ 2 - Real.sin (θ / 2) ^ 2 := by
  conv_lhs => rw [show θ = 2 * (θ / 2) by ring, Real.cos_two_mul]
  linear_combination half_sq (θ := θ)

lemma sin_half : Real.sin θ = 2 * Real.sin (θ / 2) * Real.cos (θ / 2) := by
  conv_lhs => rw [show θ = 2 * (θ / 2) by ring, Real.sin_two_mul]

/-- The turned orientation in components. -/
lemma isTurned_iff {q r : Quat ℝ} : IsTurned θ q r ↔
    r = ⟨Real.cos (θ / 2) * q.w - Real.sin (θ / 2) * q.z, Real.cos (θ / 2) * q.x - Real.sin (θ / 2) * q.y,
      Real.cos (θ / 2) * q.y + Real.sin (θ / 2) * q.x, Real.cos (θ / 2) * q.z + Real.sin (θ / 2) * q.w⟩ := by
  unfold IsTurned
  rw [Quaternion.ext_iff, Quat.ext_iff, Quaternion.re_mul, Quaternion.imI_mul, Quaternion.imJ_mul,
    Quaternion.imK_mul]
  simp only [Quat.toH_re, Quat.toH_imI, Quat.toH_imJ, Quat.toH_imK]
  ring_nf

lemma turned_unit {q r : Quat ℝ} (h : IsTurned θ q r) (hq : IsUnitQ q) : IsUnitQ r := by
  rw [isTurned_iff] at h
  subst h
  unfold IsUnitQ at *
  simp only
  linear_combination (q.w ^ 2 + q.x ^ 2 + q.y ^ 2 + q.z ^ 2) * (half_sq (θ := θ)) + hq

lemma turned_rotate {q r : Quat ℝ} (h : IsTurned θ q r) (hq : IsUnitQ q) (v : Vec 3 ℝ) :
    r.rotate v = turnVec θ (q.rotate v) := by
  rw [isTurned_iff] at h
  subst h
  unfold IsUnitQ at hq
  have h1 := half_sq (θ := θ)
  rw [Quat.rotate_eq, Quat.rotate_eq]
  unfold turnVec
  rw [cos_half (θ := θ), sin_half (θ := θ)]
  generalize Real.cos (θ / 2) = c at *
  generalize Real.sin (θ / 2) = s at *
  ext i
  fin_cases i
  · simp
    linear_combination -v 0 * h1 + (-(c ^ 2 + s ^ 2) * v 0 + (c ^ 2 - s ^ 2) * v 0 - 2 * s * c * v 1) * hq
  · simp
    linear_combination -v 1 * h1 + (-(c ^ 2 + s ^ 2) * v 1 + (c ^ 2 - s ^ 2) * v 1 + 2 * s * c * v 0) * hq
  · simp
    linear_combination (q.w * (q.x * v 1 - q.y * v 0) + q.x * (q.z * v 0 - q.x * v 2)
          - q.y * (q.y * v 2 - q.z * v 1)) * h1

lemma turned_integrate {q r : Quat ℝ} (h : IsTurned θ q r) (om : Vec 3 ℝ) (dt : ℝ) :
    IsTurned θ (quatIntegrate q om dt) (quatIntegrate r om dt) := by
  rw [isTurned_iff] at h ⊢
  subst h
  unfold quatIntegrate
  rw [Quat.normalized_eq, Quat.normalized_eq, Quat.integrate_n2, Quat.integrate_n2, Quat.integrate_eq,
    Quat.integrate_eq]
  have hn : Quat.n2 ⟨Real.cos (θ / 2) * q.w - Real.sin (θ / 2) * q.z,
      Real.cos (θ / 2) * q.x - Real.sin (θ / 2) * q.y, Real.cos (θ / 2) * q.y + Real.sin (θ / 2) * q.x,
      Real.cos (θ / 2) * q.z + Real.sin (θ / 2) * q.w⟩ = q.n2 := by
    simp only [Quat.n2]
    linear_combination (q.w ^ 2 + q.x ^ 2 + q.y ^ 2 + q.z ^ 2) * (half_sq (θ := θ))
  rw [hn]
  ext <;> simp only [] <;> ring

/-- Componentwise quadratic drag turns with the vehicle for quarter turns. -/
lemma turned_drag {k : ℝ} (h : k = 0 ∨ ∃ j : ℤ, θ = j * (Real.pi / 2)) (v : Vec 3 ℝ) :
    Model.dragForce k (turnVec θ v) = turnVec θ (Model.dragForce k v) := by
  rw [dragForce_real, dragForce_real]
  rcases h with rfl | ⟨j, rfl⟩
  · ext i; fin_cases i <;> simp [turnVec]
  · have h0 : Real.sin (j * (Real.pi / 2)) = 0 ∨ Real.cos (j * (Real.pi / 2)) = 0 := by
      rcases Int.even_or_odd' j with ⟨m, rfl | rfl⟩
      · left
        rw [show ((2 * m : ℤ) : ℝ) * (Real.pi / 2) = m * Real.pi by push_cast; ring]
        exact Real.sin_int_mul_pi m
      · right
        rw [show ((2 * m + 1 : ℤ) : ℝ) * (Real.pi / 2) = Real.pi / 2 + m * Real.pi by push_cast; ring,
          Real.cos_add, Real.cos_pi_div_two, Real.sin_int_mul_pi]
        ring
    have h1 := Real.sin_sq_add_cos_sq (j * (Real.pi / 2))
    unfold turnVec
    generalize Real.sin (j * (Real.pi / 2)) = s at *
    generalize Real.cos (j * (Real.pi / 2)) = c at *
    rcases h0 with rfl | rfl
    · have hc : c = 1 ∨ c = -1 := by rw [← sq_eq_one_iff]; linarith
      rcases hc with rfl | rfl <;> ext i <;> fin_cases i <;> simp
    · have hc : s = 1 ∨ s = -1 := by rw [← sq_eq_one_iff]; linarith
      rcases hc with rfl | rfl <;> ext i <;> fin_cases i <;> simp

end

/-! ## C80 -/

/-- Gravity pulls along the vertical. -/
def VerticalGravity (p : ModelParams ℝ) : Prop := p.gravity 0 = 0 ∧ p.gravity 1 = 0

/-- Two sequences of updates have the same exceptions and end in vehicles that are turned copies. -/
def TurnedRuns {n : ℕ} [Noise ℝ] (θ : ℝ) (d e : Dyn ℝ n) (cs : List (DynCall ℝ n)) : Prop :=
  (runDyn d cs = none ∧ runDyn e (cs.map (turnCall θ)) = none) ∨
  ∃ d' e' ts, runDyn d cs = some (d', ts) ∧ runDyn e (cs.map (turnCall θ)) = some (e', ts) ∧ Turned θ d' e'

/-- Full claim: turning the vehicle and the external forces about the vertical turns the flight. -/
def C80_claim : Prop :=
  ∀ (_ : Noise ℝ) (n : ℕ) (d e : Dyn ℝ n) (p : ModelParams ℝ) (ms : Fin n → Motor ℝ) (θ : ℝ)
    (cs : List (DynCall ℝ n)), RunsOn d p ms → VerticalGravity p → IsUnitQ d.state.ori → Turned θ d e →
    (∀ c ∈ cs, c.noise = false) → TurnedRuns θ d e cs

section
variable [Noise ℝ] {n : ℕ}

lemma turned_step {θ : ℝ} {p : ModelParams ℝ} {ms : Fin n → Motor ℝ} (hg : VerticalGravity p)
    (hd : p.drag = 0 ∨ ∃ j : ℤ, θ = j * (Real.pi / 2)) {d e : Dyn ℝ n}
    (hc : d.model.core = some (Model.coreOf p ms)) (hu : IsUnitQ d.state.ori) (h : Turned θ d e)
    (act : Vec n ℝ) (dt : ℝ) (ext : Vec 3 ℝ) :
    Res.Rel (fun d e => (d.model.core = some (Model.coreOf p ms) ∧ IsUnitQ d.state.ori) ∧ Turned θ d e)
      (d.process act dt ext false) (e.process act dt (turnVec θ ext) false) := by
  refine Dyn.process_rel ?_ dt d e ⟨⟨hc, hu⟩, h⟩
  rintro dt d e ⟨⟨hc, hu⟩, h⟩
  refine Dyn.singleStep_rel (by rw [h.model]) fun c ms' hc' _ => ?_
  have hcp : c.params = p := by
    rw [hc] at hc'; cases hc'; rfl
  refine ⟨⟨by rw [Dyn.eulerStep_core, hc], ?_⟩, ?_⟩
  · rw [Dyn.es_ori]; exact Quat.quatIntegrate_unit hu.nonzero _ _
  have hma : (Dyn.eulerStep c ms' e act dt (turnVec θ ext) false).state.motAcc =
      (Dyn.eulerStep c ms' d act dt ext false).state.motAcc := by
    rw [Dyn.es_motAcc, Dyn.es_motAcc, h.motVel]
  have hfo : (Dyn.eulerStep c ms' e act dt (turnVec θ ext) false).state.force =
      turnVec θ (Dyn.eulerStep c ms' d act dt ext false).state.force := by
    rw [Dyn.es_force, Dyn.es_force, hcp, h.motVel, h.vel, turned_rotate h.ori hu, turned_drag hd]
    simp only [Dyn.stepNoise_false, add_zero]
    rw [turnVec_add, turnVec_add, turnVec_add, turnVec_vertical hg.1 hg.2]
  have hto : (Dyn.eulerStep c ms' e act dt (turnVec θ ext) false).state.torque =
      (Dyn.eulerStep c ms' d act dt ext false).state.torque := by
    rw [Dyn.es_torque, Dyn.es_torque, hma, h.motVel, h.angVel]
    simp
  have hac : (Dyn.eulerStep c ms' e act dt (turnVec θ ext) false).state.acc =
      turnVec θ (Dyn.eulerStep c ms' d act dt ext false).state.acc := by
    rw [Dyn.es_acc, Dyn.es_acc, hfo, turnVec_smul]
  have haa : (Dyn.eulerStep c ms' e act dt (turnVec θ ext) false).state.angAcc =
      (Dyn.eulerStep c ms' d act dt ext false).state.angAcc := by
    rw [Dyn.es_angAcc, Dyn.es_angAcc, hto]
  refine ⟨?_, ?_, ?_, hac, hfo, ?_, ?_, haa, hto, ?_, hma⟩
  · rw [Dyn.es_model, Dyn.es_model, h.model]
  · rw [Dyn.es_pos, Dyn.es_pos, h.pos, h.vel, turnVec_add, turnVec_smul]
  · rw [Dyn.es_vel, Dyn.es_vel, h.vel, hac, turnVec_add, turnVec_smul]
  · rw [Dyn.es_ori, Dyn.es_ori, h.angVel]; exact turned_integrate h.ori _ _
  · rw [Dyn.es_angVel, Dyn.es_angVel, h.angVel, haa]
  · rw [Dyn.es_motVel, Dyn.es_motVel, h.motVel, hma]

/-- What is true: without drag for every angle, with drag for quarter turns; any sequence of noise-free
updates.  Missing: every other angle in the presence of drag, whose components are squared along the world
axes (`C80_violated`). -/
theorem C80_turned_partial (d e : Dyn ℝ n) (p : ModelParams ℝ) (ms : Fin n → Motor ℝ) (θ : ℝ)
    (cs : List (DynCall ℝ n)) (hr : RunsOn d p ms) (hg : VerticalGravity p) (hu : IsUnitQ d.state.ori)
    (h : Turned θ d e) (hn : ∀ c ∈ cs, c.noise = false)
    (hd : p.drag = 0 ∨ ∃ j : ℤ, θ = j * (Real.pi / 2)) : TurnedRuns θ d e cs := by
  obtain ⟨hc, -⟩ := runsOn_core hr
  clear hr
  unfold TurnedRuns
  induction cs generalizing d e with
  | nil => exact .inr ⟨d, e, [], rfl, rfl, h⟩
  | cons c cs ih =>
    have hs := turned_step hg hd hc hu h c.act c.dt c.ext
    have hcn : c.noise = false := hn c (by simp)
    simp only [List.map_cons, runDyn, turnCall, hcn]
    cases h1 : d.process c.act c.dt c.ext false <;>
      cases h2 : e.process c.act c.dt (turnVec θ c.ext) false <;> rw [h1, h2] at hs <;> try exact hs.elim
    · obtain ⟨⟨k1, k2⟩, k3⟩ := hs
      rcases ih _ _ k2 k3 (fun c hc => hn c (by simp [hc])) k1 with ⟨e1, e2⟩ | ⟨d', e', ts, e1, e2, e3⟩
      · left; simp at e1 e2 ⊢; exact ⟨e1, e2⟩
      · right; exact ⟨d', e', false :: ts, by simp [e1], by simp [e2], e3⟩
    · obtain ⟨⟨k1, k2⟩, k3⟩ := hs
      rcases ih _ _ k2 k3 (fun c hc => hn c (by simp [hc])) k1 with ⟨e1, e2⟩ | ⟨d', e', ts, e1, e2, e3⟩
      · left; simp at e1 e2 ⊢; exact ⟨e1, e2⟩
      · right; exact ⟨d', e', true :: ts, by simp [e1], by simp [e2], e3⟩
    · exact .inl ⟨rfl, rfl⟩

end

/-- The fixture moving with unit speed in the horizontal direction `(x, y)`, facing `q`. -/
noncomputable def mover (x y : ℝ) (q : Quat ℝ) : Dyn ℝ 4 :=
  { Fixture.dyn with state := { Fixture.dyn.state with vel := ![x, y, 0], ori := q } }

lemma mover_turned (θ : ℝ) : Turned θ (mover 1 0 Quat.identity)
    (mover (Real.cos θ) (Real.sin θ) ⟨Real.cos (θ / 2), 0, 0, Real.sin (θ / 2)⟩) := by
  refine ⟨rfl, ?_, ?_, ?_, ?_, isTurned_iff.2 ?_, rfl, rfl, rfl, rfl, rfl⟩
  · ext i; fin_cases i <;> simp [mover, Fixture.dyn, State.default, turnVec, flt]
  · ext i; fin_cases i <;> simp [mover, turnVec]
  · ext i; fin_cases i <;> simp [mover, Fixture.dyn, State.default, turnVec, flt]
  · ext i; fin_cases i <;> simp [mover, Fixture.dyn, State.default, turnVec, flt]
  · simp [mover, Quat.identity, flt]

lemma mover_runsOn [Noise ℝ] (x y : ℝ) (q : Quat ℝ) :
    RunsOn (mover x y q) Fixture.modelParams Fixture.motors := fixture_runsOn

/-- Hypotheses: a moving vehicle with drag turned by 90 degrees, two updates with a side wind. -/
example [Noise ℝ] : RunsOn (mover 1 0 Quat.identity) Fixture.modelParams Fixture.motors ∧
    VerticalGravity Fixture.modelParams ∧ IsUnitQ (mover 1 0 Quat.identity).state.ori ∧
    (∃ e, e ≠ mover 1 0 Quat.identity ∧ Turned (Real.pi / 2) (mover 1 0 Quat.identity) e) ∧
    (∃ j : ℤ, Real.pi / 2 = j * (Real.pi / 2)) ∧
    ∃ r, runDyn (mover 1 0 Quat.identity) [⟨fun _ => 3, 1 / 100, ![1, 2, 0], false⟩,
      ⟨0, 1 / 200, ![0, 1, 0], false⟩] = some r := by
  refine ⟨mover_runsOn _ _ _, ⟨rfl, rfl⟩, by simp [mover, Quat.identity, IsUnitQ, flt],
    ⟨_, fun h => ?_, mover_turned _⟩, ⟨1, by simp⟩, ?_⟩
  · have := congrFun (congrArg (fun d : Dyn ℝ 4 => d.state.vel) h) 0
    simp [mover] at this
  · simp only [runDyn]
    rw [Fixture.process_ok _ rfl _ _ (by norm_num) (by norm_num)]
    simp only
    rw [Fixture.process_ok _ (by rw [Dyn.eulerStep_core]; rfl) _ _ (by norm_num) (by norm_num)]
    exact ⟨_, rfl⟩

/-- Flying north-east the drag is weaker than flying north. -/
theorem C80_violated : ¬ C80_claim := by
  intro h
  let N : Noise ℝ := ⟨fun _ _ _ => 0⟩
  have h1 := h N 4 _ _ _ _ (Real.pi / 4) [⟨0, 1 / 100, 0, false⟩] (mover_runsOn 1 0 Quat.identity) ⟨rfl, rfl⟩
    (by simp [mover, Quat.identity, IsUnitQ, flt]) (mover_turned _) (by simp)
  unfold TurnedRuns at h1
  simp only [List.map_cons, List.map_nil, runDyn, turnCall] at h1
  rw [Fixture.process_ok _ rfl _ _ (by norm_num) (by norm_num),
    Fixture.process_ok _ rfl _ _ (by norm_num) (by norm_num)] at h1
  simp only [Option.map_some, reduceCtorEq, false_and, Option.some.injEq, Prod.mk.injEq, false_or] at h1
  obtain ⟨d', e', ts, ⟨rfl, -⟩, ⟨rfl, -⟩, ht⟩ := h1
  have h2 := congrFun ht.force 0
  have hz : ∀ x y q, (mover x y q).state.motVel = 0 := fun x y q => by
    simp [mover, Fixture.dyn, State.default, flt]
  have hr : ∀ q : Quat ℝ, q.rotate (Model.thrustVec Fixture.core 0) = 0 := fun q => by
    rw [Fixture.core, Model.thrustVec_coreOf]
    have h0 : (![0, 0, 0] : Vec 3 ℝ) = 0 := by ext i; fin_cases i <;> rfl
    simp [rotorForce, h0, Quat.rotate_zero]
  simp only [Dyn.es_force, hz, hr, Dyn.stepNoise_false, dragForce_real, turnVec] at h2
  have hs : (0 : ℝ) < √2 := by positivity
  have h3 : √2 * √2 = (2 : ℝ) := Real.mul_self_sqrt (by norm_num)
  simp [mover, Fixture.core, Model.coreOf, Fixture.modelParams, Real.cos_pi_div_four,
    Real.sin_pi_div_four] at h2
  simp only [Matrix.vecHead, Matrix.vecTail, Function.comp_apply, Matrix.cons_val_zero, Matrix.cons_val_succ,
    abs_of_pos (half_pos hs), abs_one, abs_zero] at h2
  nlinarith

end Verif.Props
