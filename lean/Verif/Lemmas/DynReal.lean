import Verif.Lemmas.Model
import Verif.Lemmas.Quat

/-!
# Helper lemmas about one dynamics step over the reals, and about pairs of runs
-/

namespace Verif

open Flt Spec

/-- Two outcomes are of the same kind and related. -/
def Res.Rel {σ τ : Type} (R : σ → τ → Prop) : Res σ → Res τ → Prop
  | .ok s, .ok t => R s t
  | .throw s, .throw t => R s t
  | .bad, .bad => True
  | _, _ => False

namespace Dyn

section
variable {α σ τ : Type} [Flt α]

/-- Related bodies give related loops. -/
lemma forLoop_rel {R : σ → τ → Prop} {num : α} {f : σ → Res σ} {g : τ → Res τ}
    (h : ∀ s t, R s t → Res.Rel R (f s) (g t)) :
    ∀ fuel i s t, R s t → Res.Rel R (forLoop num f fuel i s) (forLoop num g fuel i t)
  | 0, i, s, t, hs => by
    unfold forLoop
    split
    · have := h s t hs
      cases hf : f s <;> cases hg : g t <;> simp_all [Res.Rel, Res.bind]
    · exact hs
  | fuel + 1, i, s, t, hs => by
    unfold forLoop
    split
    · have := h s t hs
      cases hf : f s with
      | ok a =>
        cases hg : g t with
        | ok b =>
          simp only [hf, hg, Res.Rel] at this
          simp only [Res.bind]
          exact forLoop_rel h fuel (i + 1) a b this
        | throw b => simp [hf, hg, Res.Rel] at this
        | bad => simp [hf, hg, Res.Rel] at this
      | throw a =>
        cases hg : g t <;> simp_all [Res.Rel, Res.bind]
      | bad =>
        cases hg : g t <;> simp_all [Res.Rel, Res.bind]
    · exact hs

end

section
variable {α : Type} [Flt α] [Noise α] {n : ℕ}

lemma processDepth_rel {R : Dyn α n → Dyn α n → Prop} {act act' : Vec n α} {ext ext' : Vec 3 α}
    {noise noise' : Bool}
    (h : ∀ dt d e, R d e → Res.Rel R (d.singleStep act dt ext noise) (e.singleStep act' dt ext' noise')) :
    ∀ depth dt d e, R d e →
      Res.Rel R (processDepth act ext noise depth dt d) (processDepth act' ext' noise' depth dt e)
  | 0, dt, d, e, hde => trivial
  | depth + 1, dt, d, e, hde => by
    unfold processDepth
    split
    · exact hde
    · split
      · exact forLoop_rel (fun a b hab => processDepth_rel h depth _ a b hab) _ _ _ _ hde
      · exact h _ _ _ hde

/-- Related steps give related updates. -/
lemma process_rel {R : Dyn α n → Dyn α n → Prop} {act act' : Vec n α} {ext ext' : Vec 3 α}
    {noise noise' : Bool}
    (h : ∀ dt d e, R d e → Res.Rel R (d.singleStep act dt ext noise) (e.singleStep act' dt ext' noise'))
    (dt : α) (d e : Dyn α n) (hde : R d e) :
    Res.Rel R (d.process act dt ext noise) (e.process act' dt ext' noise') :=
  processDepth_rel h 2 dt d e hde

/-- A step from two states on models with the same parameters. -/
lemma singleStep_rel {R : Dyn α n → Dyn α n → Prop} {d e : Dyn α n} {act act' : Vec n α} {dt : α}
    {ext ext' : Vec 3 α} {noise noise' : Bool} (hc : d.model.core = e.model.core)
    (h : ∀ c ms, d.model.core = some c → Model.motorFn n c.params.motors = some ms →
      R (eulerStep c ms d act dt ext noise) (eulerStep c ms e act' dt ext' noise')) :
    Res.Rel R (d.singleStep act dt ext noise) (e.singleStep act' dt ext' noise') := by
  unfold singleStep
  rw [← hc]
  cases hd : d.model.core with
  | none => trivial
  | some c =>
    simp only
    cases hm : Model.motorFn n c.params.motors with
    | none => trivial
    | some ms =>
      simp only
      split
      · exact h c ms hd hm
      · trivial

end

section
variable [Noise ℝ] {n : ℕ} (c : ModelCore ℝ n) (ms : Fin n → Motor ℝ) (d : Dyn ℝ n) (act : Vec n ℝ)
  (dt : ℝ) (ext : Vec 3 ℝ) (noise : Bool)

/-- The force noise of the step. -/
noncomputable def stepNoise : Vec 3 ℝ :=
  (if noise then d.model.setNoise c dt else d.model.disableNoise).stochForce

lemma stepNoise_eq : (eulerStep c ms d act dt ext noise).model.stochForce = stepNoise c d dt noise := by
  cases noise <;> rfl

lemma es_pos : (eulerStep c ms d act dt ext noise).state.pos = d.state.pos + dt • d.state.vel := by
  simp only [eulerStep, vadd_real, smulR_real]

lemma es_vel : (eulerStep c ms d act dt ext noise).state.vel =
    d.state.vel + dt • (eulerStep c ms d act dt ext noise).state.acc := by
  simp only [eulerStep, vadd_real, smulR_real]

lemma es_ori : (eulerStep c ms d act dt ext noise).state.ori =
    quatIntegrate d.state.ori d.state.angVel dt := rfl

lemma es_angVel : (eulerStep c ms d act dt ext noise).state.angVel =
    d.state.angVel + dt • (eulerStep c ms d act dt ext noise).state.angAcc := by
  simp only [eulerStep, vadd_real, smulR_real]

lemma es_force : (eulerStep c ms d act dt ext noise).state.force =
    d.state.ori.rotate (Model.thrustVec c d.state.motVel) + c.params.gravity +
      Model.dragForce c.params.drag d.state.vel + stepNoise c d dt noise + ext := by
  simp only [eulerStep, totalForce, vadd_real]
  rfl

lemma es_acc : (eulerStep c ms d act dt ext noise).state.acc =
    c.params.mass⁻¹ • (eulerStep c ms d act dt ext noise).state.force := by
  simp only [eulerStep, sdiv_real]

lemma es_torque : (eulerStep c ms d act dt ext noise).state.torque =
    Model.motorTorque c d.state.motVel (eulerStep c ms d act dt ext noise).state.motAcc +
      Model.aeroMoment c.params.aero d.state.angVel + stepNoise c d dt noise -
      crossProduct d.state.angVel (c.params.inertia.mulVec d.state.angVel) := by
  simp only [eulerStep, totalTorque, vadd_real, vsub_real, cross_real, mv_real]
  rfl

lemma es_angAcc : (eulerStep c ms d act dt ext noise).state.angAcc =
    (c.params.inertia⁻¹).mulVec (eulerStep c ms d act dt ext noise).state.torque := by
  simp only [eulerStep, inv3_real, mv_real]

lemma es_motAcc : (eulerStep c ms d act dt ext noise).state.motAcc = fun i =>
    (clampVal (act i) (ms i).minSpeed (ms i).maxSpeed - d.state.motVel i) / (ms i).tau := by
  rfl

lemma es_motVel : (eulerStep c ms d act dt ext noise).state.motVel = fun i =>
    clampVal (d.state.motVel i + dt * (eulerStep c ms d act dt ext noise).state.motAcc i)
      (ms i).minSpeed (ms i).maxSpeed := by
  simp only [eulerStep, vadd_real, smulR_real]
  rfl

lemma es_model : (eulerStep c ms d act dt ext noise).model =
    if noise then d.model.setNoise c dt else d.model.disableNoise := rfl

@[simp] lemma stepNoise_false : stepNoise c d dt false = 0 := by
  simp [stepNoise, Model.disableNoise, flt]

end

end Dyn

lemma dragForce_real (k : ℝ) (v : Vec 3 ℝ) : Model.dragForce k v = fun i => -k * (v i * |v i|) := by
  unfold Model.dragForce
  rw [squaredKeepSign_real]
  ext i
  simp [smulL, flt]

lemma aeroMoment_real (A : Mat 3 3 ℝ) (om : Vec 3 ℝ) :
    Model.aeroMoment A om = -(√(om ⬝ᵥ om) • A.mulVec om) := by
  have : (fun i j => (lit (-1) ⊠ Verif.norm om) ⊠ A i j : Mat 3 3 ℝ) = (-√(om ⬝ᵥ om)) • A := by
    ext i j
    simp [flt]
  unfold Model.aeroMoment
  rw [this, mv_real, Matrix.smul_mulVec, neg_smul]

end Verif
