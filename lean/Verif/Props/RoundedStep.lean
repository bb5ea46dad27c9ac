import Verif.Props.RoundedCycle

/-!
# A dynamics update in rounded arithmetic

A rounded step follows the exact one while the rotors stay within their limits.
-/

namespace Verif.Props

open Verif Flt Spec Stability Filter Topology Asymptotics

/-- A single step without the floor. -/
lemma Sim.updateDynamics_free {α : Type} [Flt α] [Noise α] {v : Sim α 4} {dt : α} {q : ModelParams α} {ms : Fin 4 → Motor α}
    (hc : v.dyn.model.core = some (Model.coreOf q ms)) (hm : Model.motorFn 4 q.motors = some ms) (hk : Dyn.clampOk ms = true)
    (hf : v.floorEnable = false) (h0 : le dt (lit 0) = false) (h1 : lt (Dyn.maxStep : α) dt = false) :
    v.updateDynamics dt = .ok { v with
      extForce := vzero
      dyn := Dyn.eulerStep (Model.coreOf q ms) ms v.dyn v.actuation dt v.extForce (!v.floorCollision)
      floorCollision := false } := by
  have hb : ∀ d e b, ({ v with dyn := d, extForce := e, floorCollision := b } : Sim α 4).belowFloor = false := fun d e b => by
    simp [Sim.belowFloor, hf]
  have hp : v.dyn.process v.actuation dt v.extForce (!v.floorCollision) =
      .ok (Dyn.eulerStep (Model.coreOf q ms) ms v.dyn v.actuation dt v.extForce (!v.floorCollision)) := by
    rw [Dyn.process_small _ _ _ _ _ h0 h1]
    simp [Dyn.singleStep, hc, show (Model.coreOf q ms).params.motors = q.motors from rfl, hm, hk]
  rcases Sim.updateDynamics_cases v dt with ⟨h, -⟩ | ⟨ext, he, hup⟩
  · rw [show v.belowFloor = false from hb v.dyn v.extForce v.floorCollision] at h; simp at h
  · have : ext = v.extForce := by
      rcases he with ⟨-, he⟩ | ⟨h, -⟩
      · exact he
      · rw [show v.belowFloor = false from hb v.dyn v.extForce v.floorCollision] at h; simp at h
    subst this
    rw [hup, hp]
    simp only
    rw [if_neg]
    rw [hb]; simp

section
variable {ι : Type} {L : Filter ι} {A : ι → Rounding} [Fine L A] {p : ModelParams ℝ} {ms : Fin 4 → Motor ℝ} {κ : ℝ}
  {p' : ∀ i, ModelParams (Fl (A i))} {ms' : ∀ i, Fin 4 → Motor (Fl (A i))} {δ : ∀ i, Fl (A i)}

lemma trk_clamp {x u v : ∀ i, Fl (A i)} {a : ι → ℝ} {a0 lo hi : ℝ} (h : Trk L x a a0) (tl : Trk L u (fun _ => lo) lo)
    (th : Trk L v (fun _ => hi) hi) (h1 : lo < a0) (h2 : a0 < hi) :
    Trk L (fun i => clampVal (x i) (u i) (v i)) (fun i => clampVal (a i) lo hi) (clampVal a0 lo hi) := by
  have e : clampVal a0 lo hi = a0 := by rw [clampVal_real, if_neg (not_lt.2 h1.le), if_neg (not_lt.2 h2.le)]
  refine (h.congr ?_ ?_).limit e.symm
  · filter_upwards [tl.lt_of h h1, h.lt_of th h2] with i e1 e2
    simp [clampVal, e1.2, e2.2]
  · filter_upwards [h.2.eventually_const_lt h1, h.2.eventually_lt_const h2] with i e1 e2
    rw [clampVal_real, if_neg (not_lt.2 e1.le), if_neg (not_lt.2 e2.le)]

lemma trk_contrib {m : Motor ℝ} {m' : ∀ i, Motor (Fl (A i))} (h : ∀ i, StoredMotor κ (m' i) m) :
    TrkV L (fun i => Model.motorContrib (m' i)) (fun _ => Model.motorContrib m) (Model.motorContrib m) := by
  have rot : TrkM L (fun i => (m' i).rot) (fun _ => m.rot) m.rot := fun j k => .stored fun i => (h i).rot j k
  have pos : TrkV L (fun i => (m' i).pos) (fun _ => m.pos) m.pos := fun j => .stored fun i => (h i).pos j
  have dir : Trk L (fun i => (lit ((m' i).dir : ℚ) : Fl (A i))) (fun _ => lit (m.dir : ℚ)) (lit (m.dir : ℚ)) := by
    simp only [(h _).dir]; exact .lit _
  have f : TrkV L (fun i => mv (m' i).rot ![lit 0, lit 0, (m' i).kf]) (fun _ => mv m.rot ![lit 0, lit 0, m.kf])
      (mv m.rot ![lit 0, lit 0, m.kf]) := .mv rot (.of3 (.lit 0) (.lit 0) (.stored fun i => (h i).kf))
  have t : TrkV L (fun i => mv (m' i).rot ![lit 0, lit 0, lit ((m' i).dir : ℚ) ⊠ (m' i).kt])
      (fun _ => mv m.rot ![lit 0, lit 0, lit (m.dir : ℚ) ⊠ m.kt]) (mv m.rot ![lit 0, lit 0, lit (m.dir : ℚ) ⊠ m.kt]) :=
    .mv rot (.of3 (.lit 0) (.lit 0) (dir.mul (.stored fun i => (h i).kt)))
  have tq := (pos.cross f).vadd t
  intro k
  match k with
  | 0 => exact f 0
  | 1 => exact f 1
  | 2 => exact f 2
  | 3 => exact tq 0
  | 4 => exact tq 1
  | 5 => exact tq 2

lemma trk_mixForce (h : ∀ i j, StoredMotor κ (ms' i j) (ms j)) : TrkM L (fun i => (Model.coreOf (p' i) (ms' i)).mixForce)
    (fun _ => (Model.coreOf p ms).mixForce) (Model.coreOf p ms).mixForce := fun _ j => trk_contrib (fun i => h i j) _

lemma trk_mixTorque (h : ∀ i j, StoredMotor κ (ms' i j) (ms j)) : TrkM L (fun i => (Model.coreOf (p' i) (ms' i)).mixTorque)
    (fun _ => (Model.coreOf p ms).mixTorque) (Model.coreOf p ms).mixTorque := fun _ j => trk_contrib (fun i => h i j) _

lemma trk_mixInertia (h : ∀ i j, StoredMotor κ (ms' i j) (ms j)) : TrkM L (fun i => (Model.coreOf (p' i) (ms' i)).mixInertia)
    (fun _ => (Model.coreOf p ms).mixInertia) (Model.coreOf p ms).mixInertia := fun r j => by
  have rot : TrkM L (fun i => (ms' i j).rot) (fun _ => (ms j).rot) (ms j).rot := fun a b => .stored fun i => (h i j).rot a b
  have dir : Trk L (fun i => (lit ((ms' i j).dir : ℚ) : Fl (A i))) (fun _ => lit ((ms j).dir : ℚ)) (lit ((ms j).dir : ℚ)) := by
    simp only [(h _ j).dir]; exact .lit _
  have t : TrkV L (fun i => mv (ms' i j).rot ![lit 0, lit 0, lit ((ms' i j).dir : ℚ) ⊠ (ms' i j).inertia])
      (fun _ => mv (ms j).rot ![lit 0, lit 0, lit ((ms j).dir : ℚ) ⊠ (ms j).inertia])
      (mv (ms j).rot ![lit 0, lit 0, lit ((ms j).dir : ℚ) ⊠ (ms j).inertia]) :=
    .mv rot (.of3 (.lit 0) (.lit 0) (dir.mul (.stored fun i => (h i j).inertia)))
  exact t r

/-- Without process noise the drawn forces vanish. -/
lemma rounded_quiet {A : Rounding} [Noise (Fl A)] {p' : ModelParams (Fl A)} {ms' : Fin 4 → Motor (Fl A)} (hq : p'.forceNoise.val = 0)
    (m : Model (Fl A) 4) (dt : Fl A) (b : Bool) (j : Fin 3) :
    ((if b then m.setNoise (Model.coreOf p' ms') dt else m.disableNoise).stochForce j).val = 0 := by
  have hz : (vzero : Vec 3 (Fl A)) j = lit 0 := rfl
  cases b
  · show ((vzero : Vec 3 (Fl A)) j).val = 0
    rw [hz, lit_zero_val]
  · simp only [if_true]
    unfold Model.setNoise
    split
    · show ((vzero : Vec 3 (Fl A)) j).val = 0
      rw [hz, lit_zero_val]
    · show (sqrt (p'.forceNoise ⊘ dt) ⊠ _ : Fl A).val = 0
      have : (sqrt (p'.forceNoise ⊘ dt)).val = 0 := by
        show A.rnd √(A.rnd (p'.forceNoise.val / dt.val)) = 0
        rw [hq]; simp
      show A.rnd (_ * _) = 0
      rw [this]; simp

/-- The states follow each other. -/
structure TrkS (L : Filter ι) (s : ∀ i, State (Fl (A i)) 4) (a : ι → State ℝ 4) (a0 : State ℝ 4) : Prop where
  pos : TrkV L (fun i => (s i).pos) (fun i => (a i).pos) a0.pos
  vel : TrkV L (fun i => (s i).vel) (fun i => (a i).vel) a0.vel
  ori : TrkQ L (fun i => (s i).ori) (fun i => (a i).ori) a0.ori
  angVel : TrkV L (fun i => (s i).angVel) (fun i => (a i).angVel) a0.angVel
  motVel : TrkV L (fun i => (s i).motVel) (fun i => (a i).motVel) a0.motVel

/-- An integration step follows the exact one. -/
lemma TrkS.euler [∀ i, Noise (Fl (A i))] [Noise ℝ] {d : ∀ i, Dyn (Fl (A i)) 4} {st : ι → State ℝ 4} {st0 : State ℝ 4}
    (h : TrkS L (fun i => (d i).state) st st0) {act : ∀ i, Vec 4 (Fl (A i))} {a : ι → Vec 4 ℝ} {a0 : Vec 4 ℝ} (ha : TrkV L act a a0)
    {ext : ∀ i, Vec 3 (Fl (A i))} (he : ∀ i, valV (ext i) = 0) (b : ι → Bool) (m : Model ℝ 4) {dt : ℝ}
    (hp : ∀ i, StoredParams κ (p' i) p) (hms : ∀ i j, StoredMotor κ (ms' i j) (ms j)) (tdt : Trk L δ (fun _ => dt) dt)
    (hq : p.forceNoise = 0) (hm : p.mass ≠ 0) (hJ : p.inertia.det ≠ 0) (htau : ∀ j, (ms j).tau ≠ 0)
    (hact : ∀ j, (ms j).minSpeed < a0 j ∧ a0 j < (ms j).maxSpeed)
    (hspd : ∀ j, (ms j).minSpeed < st0.motVel j + (a0 j - st0.motVel j) / (ms j).tau * dt ∧
      st0.motVel j + (a0 j - st0.motVel j) / (ms j).tau * dt < (ms j).maxSpeed)
    (hori : 0 < normSq (Quat.ofCoeffs (vadd st0.ori.coeffs (smulR (quatDerivative st0.ori st0.angVel) dt))).coeffs) :
    TrkS L (fun i => (Dyn.eulerStep (Model.coreOf (p' i) (ms' i))
        (ms' i) (d i) (act i) (δ i) (ext i) (b i)).state)
      (fun i => (Dyn.eulerStep (Model.coreOf p ms) ms ⟨m, st i⟩ (a i) dt vzero false).state)
      (Dyn.eulerStep (Model.coreOf p ms) ms ⟨m, st0⟩ a0 dt vzero false).state := by
  have hmin : ∀ j, Trk L (fun i => (ms' i j).minSpeed) (fun _ => (ms j).minSpeed) (ms j).minSpeed := fun j =>
    .stored fun i => (hms i j).minSpeed
  have hmax : ∀ j, Trk L (fun i => (ms' i j).maxSpeed) (fun _ => (ms j).maxSpeed) (ms j).maxSpeed := fun j =>
    .stored fun i => (hms i j).maxSpeed
  have tdes : TrkV L (fun i => Dyn.clampMotors (ms' i) (act i)) (fun i => Dyn.clampMotors ms (a i))
      (Dyn.clampMotors ms a0) := fun j => trk_clamp (ha j) (hmin j) (hmax j) (hact j).1 (hact j).2
  have hcl : ∀ j, Dyn.clampMotors ms a0 j = a0 j := fun j => by
    show clampVal _ _ _ = _
    rw [clampVal_real, if_neg (not_lt.2 (hact j).1.le), if_neg (not_lt.2 (hact j).2.le)]
  have tacc : TrkV L (fun i => Dyn.motorDerivative (ms' i)
      (Dyn.clampMotors (ms' i) (act i)) (d i).state.motVel)
      (fun i => Dyn.motorDerivative ms (Dyn.clampMotors ms (a i)) (st i).motVel)
      (Dyn.motorDerivative ms (Dyn.clampMotors ms a0) st0.motVel) := fun j => ((tdes j).sub (h.motVel j)).div (.stored fun i => (hms i j).tau) (htau j)
  have tstoch : TrkV L (fun i => (if b i then (d i).model.setNoise (Model.coreOf (p' i) (ms' i)) (δ i)
      else (d i).model.disableNoise).stochForce) (fun _ => vzero) vzero := fun j =>
    .exact (fun i => (rounded_quiet ((hp i).forceNoise.2 hq) _ _ _ j).trans lit_zero.symm) tendsto_const_nhds
  have text : TrkV L ext (fun _ => vzero) vzero := fun j => .exact (fun i => (congrFun (he i) j).trans lit_zero.symm) tendsto_const_nhds
  have tJ : TrkM L (fun i => (p' i).inertia) (fun _ => p.inertia) p.inertia := fun j k => .stored fun i => (hp i).inertia j k
  have tg : TrkV L (fun i => (p' i).gravity) (fun _ => p.gravity) p.gravity := fun j => .stored fun i => (hp i).gravity j
  have tD : Trk L (fun i => (p' i).drag) (fun _ => p.drag) p.drag := .stored fun i => (hp i).drag
  have tm : Trk L (fun i => (p' i).mass) (fun _ => p.mass) p.mass := .stored fun i => (hp i).mass
  have tae : TrkV L (fun i => Model.aeroMoment ((p' i).aero) (d i).state.angVel) (fun i => Model.aeroMoment p.aero (st i).angVel)
      (Model.aeroMoment p.aero st0.angVel) :=
    .mv (fun j k => ((Trk.lit (-1)).mul h.angVel.norm).mul (.stored fun i => (hp i).aero j k)) h.angVel
  have ttq := ((((TrkV.mv (trk_mixTorque (p := p) (p' := p') hms) h.motVel.squaredKeepSign).vadd
    (.mv (trk_mixInertia (p := p) (p' := p') hms) tacc)).vadd tae).vadd tstoch).vsub (h.angVel.cross (.mv tJ h.angVel))
  have tang := TrkV.mv (tJ.inv3 hJ) ttq
  have tfo := ((((h.ori.rotate (.mv (trk_mixForce (p := p) (p' := p') hms) h.motVel.squaredKeepSign)).vadd tg).vadd
    (TrkV.smulL ((Trk.lit (-1)).mul tD) h.vel.squaredKeepSign)).vadd tstoch).vadd text
  have tac := tfo.sdiv tm hm
  refine ⟨?_, ?_, ?_, ?_, ?_⟩
  · exact h.pos.vadd (h.vel.smulR tdt)
  · exact h.vel.vadd (tac.smulR tdt)
  · exact h.ori.integrate h.angVel tdt hori
  · exact h.angVel.vadd (tang.smulR tdt)
  · intro j
    have := (h.motVel j).add ((tacc j).mul tdt)
    have hs := hspd j
    rw [← hcl j] at hs
    exact trk_clamp this (hmin j) (hmax j) hs.1 hs.2

end

end Verif.Props
