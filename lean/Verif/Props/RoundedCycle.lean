import Verif.Props.RoundedPid
import Verif.Props.Rounded
import Verif.Fixture

/-!
# A control cycle of position hold in rounded arithmetic

Definitions for C151 and the proof that a rounded cycle follows the exact one.
-/

namespace Verif.Props

open Verif Flt Spec Stability Filter Topology Asymptotics

/-- A rotor as the arithmetic stores it. -/
structure StoredMotor {A : Rounding} (κ : ℝ) (m' : Motor (Fl A)) (m : Motor ℝ) : Prop where
  dir : m'.dir = m.dir
  kf : A.Stores κ m'.kf.val m.kf
  kt : A.Stores κ m'.kt.val m.kt
  rot : ∀ i j, A.Stores κ (m'.rot i j).val (m.rot i j)
  pos : ∀ i, A.Stores κ (m'.pos i).val (m.pos i)
  minSpeed : A.Stores κ m'.minSpeed.val m.minSpeed
  maxSpeed : A.Stores κ m'.maxSpeed.val m.maxSpeed
  tau : A.Stores κ m'.tau.val m.tau
  inertia : A.Stores κ m'.inertia.val m.inertia

/-- A vehicle as the arithmetic stores it. -/
structure StoredParams {A : Rounding} (κ : ℝ) (p' : ModelParams (Fl A)) (p : ModelParams ℝ) : Prop where
  mass : A.Stores κ p'.mass.val p.mass
  inertia : ∀ i j, A.Stores κ (p'.inertia i j).val (p.inertia i j)
  drag : A.Stores κ p'.drag.val p.drag
  aero : ∀ i j, A.Stores κ (p'.aero i j).val (p.aero i j)
  gravity : ∀ i, A.Stores κ (p'.gravity i).val (p.gravity i)
  forceNoise : A.Stores κ p'.forceNoise.val p.forceNoise

/-- An armed vehicle in position hold in rounded arithmetic.  What the arithmetic stores of the vehicle, of the requests and
of the configurations, and the inverse mixer of the controllers, are accurate up to `κ` times the unit roundoff. -/
structure RHold {A : Rounding} (κ : ℝ) (s : Sim (Fl A) 4) (p : ModelParams ℝ) (ms : Fin 4 → Motor ℝ) (l : Loop)
    (cP cV cR : Pid ℝ 3) : Prop where
  runs : ∃ p' ms', s.dyn.model.core = some (Model.coreOf p' ms') ∧ Model.motorFn 4 p'.motors = some ms' ∧
    StoredParams κ p' p ∧ ∀ j, StoredMotor κ (ms' j) (ms j)
  rotors : Model.motorFn 4 p.motors = some ms
  armed : s.armed = true
  mode : s.mode = .position
  yawMode : s.yawMode = .angle
  heading : |Real.cos s.refYaw.val - Real.cos l.psi| ≤ κ * A.u ∧ |Real.sin s.refYaw.val - Real.sin l.psi| ≤ κ * A.u
  request : ∀ i, |(s.refPos i).val - l.target i| ≤ κ * A.u
  floor : s.floorEnable = false
  extForce : valV s.extForce = 0
  knowsMass : A.Stores κ s.ctl.acro.mass.val l.mass
  knowsGravity : ∀ i, A.Stores κ (s.ctl.acro.gravity i).val ((![0, 0, -l.g] : Vec 3 ℝ) i)
  gain : ∀ i j, A.Stores κ (s.ctl.acro.kpRot i j).val (Matrix.diagonal l.kr i j)
  knowsInertia : ∀ i j, A.Stores κ (s.ctl.indi.inertia i j).val (Matrix.diagonal l.inertia i j)
  knowsRotors : ∀ j r, |(s.ctl.indi.mixerInv j (Fin.natAdd 2 r)).val - l.alloc j r| ≤ κ * A.u
  posConfig : Stored κ s.ctl.pos cP
  velConfig : Stored κ s.ctl.vel cV
  rateConfig : Stored κ s.ctl.indi.pid cR

/-- The same with motion and memory given by the numbers `x`; the orientation is that of the stored quaternion, whose length
is one up to rounding. -/
structure RHovers {A : Rounding} (κ : ℝ) (s : Sim (Fl A) 4) (p : ModelParams ℝ) (ms : Fin 4 → Motor ℝ) (l : Loop)
    (cP cV cR : Pid ℝ 3) (x : HV → ℝ) : Prop extends RHold κ s p ms l cP cV cR where
  pos : ∀ i, (s.dyn.state.pos i).val = x (.pos i)
  vel : ∀ i, (s.dyn.state.vel i).val = x (.vel i)
  ori : IsTurned l.psi (Loop.quat x) (valQ s.dyn.state.ori).normalized
  near : NearUnit s.dyn.state.ori
  unit : IsUnitQ (Loop.quat x)
  angVel : ∀ i, (s.dyn.state.angVel i).val = x (.om i)
  motVel : ∀ j, (s.dyn.state.motVel j).val = x (.mot j)
  posMemory : Held (valPid s.ctl.pos) l.P (l.ep x) (fun i => x (.iP i)) (fun i => x (.fP i)) fun i => x (.eP i)
  velMemory : Held (valPid s.ctl.vel) l.V (l.ev x) (fun i => x (.iV i)) (fun i => x (.fV i)) fun i => x (.eV i)
  rateMemory : Held (valPid s.ctl.indi.pid) l.R (l.er x) (fun i => x (.iR i)) (fun i => x (.fR i)) fun i => x (.eR i)

/-- The orientation `q` turned by `θ`. -/
noncomputable def turnQ (θ : ℝ) (q : Quat ℝ) : Quat ℝ :=
  ⟨Real.cos (θ / 2) * q.w - Real.sin (θ / 2) * q.z, Real.cos (θ / 2) * q.x - Real.sin (θ / 2) * q.y,
    Real.cos (θ / 2) * q.y + Real.sin (θ / 2) * q.x, Real.cos (θ / 2) * q.z + Real.sin (θ / 2) * q.w⟩

lemma isTurned_turnQ (θ : ℝ) (q : Quat ℝ) : IsTurned θ q (turnQ θ q) := isTurned_iff.2 rfl

/-- Normalising a quaternion that is almost of length one. -/
lemma near_normalized {A : Rounding} {q : Quat (Fl A)} (hu : A.u ≤ 1 / 128) (h : NearUnit q) :
    |q.w.val - (valQ q).normalized.w| ≤ 16 * A.u ∧ |q.x.val - (valQ q).normalized.x| ≤ 16 * A.u ∧
    |q.y.val - (valQ q).normalized.y| ≤ 16 * A.u ∧ |q.z.val - (valQ q).normalized.z| ≤ 16 * A.u := by
  have hn : normSq (valQ q).coeffs = lengthSq q := by
    simp [normSq, flt, Quat.coeffs, valQ, lengthSq, Fin.sum_univ_four]
    ring
  have h0 : 0 < lengthSq q := lt_of_le_of_ne (by unfold lengthSq; positivity) (Ne.symm (h.nonzero hu))
  set r := √(lengthSq q) with hr
  have hr0 : 0 < r := Real.sqrt_pos.2 h0
  have hr2 : r ^ 2 = lengthSq q := Real.sq_sqrt h0.le
  have hv : Verif.normalized (valQ q).coeffs = fun j => (valQ q).coeffs j / r := by
    unfold Verif.normalized
    rw [if_pos (by rw [hn]; simpa [flt] using h0), hn]
    rfl
  have h1 : |r - 1| ≤ 16 * A.u := by
    refine le_trans ?_ h
    rw [← hr2, show r ^ 2 - 1 = (r - 1) * (r + 1) by ring, abs_mul]
    exact le_mul_of_one_le_right (abs_nonneg _) (by rw [abs_of_pos (by positivity)]; linarith)
  have key : ∀ a : ℝ, a ^ 2 ≤ lengthSq q → |a - a / r| ≤ 16 * A.u := fun a ha => by
    have ha' : |a| ≤ r := by
      rw [← hr2] at ha
      exact abs_le_of_sq_le_sq ha hr0.le
    rw [show a - a / r = a / r * (r - 1) by field_simp, abs_mul, abs_div, abs_of_pos hr0]
    exact (mul_le_of_le_one_left (abs_nonneg _) ((div_le_one hr0).2 ha')).trans h1
  have e : ∀ j, (Verif.normalized (valQ q).coeffs) j = (valQ q).coeffs j / r := fun j => by rw [hv]
  have l0 := sq_nonneg q.w.val
  have l1 := sq_nonneg q.x.val
  have l2 := sq_nonneg q.y.val
  have l3 := sq_nonneg q.z.val
  refine ⟨?_, ?_, ?_, ?_⟩
  · rw [show (valQ q).normalized.w = _ from e 3]
    exact key _ (by unfold lengthSq; linarith)
  · rw [show (valQ q).normalized.x = _ from e 0]
    exact key _ (by unfold lengthSq; linarith)
  · rw [show (valQ q).normalized.y = _ from e 1]
    exact key _ (by unfold lengthSq; linarith)
  · rw [show (valQ q).normalized.z = _ from e 2]
    exact key _ (by unfold lengthSq; linarith)

section
variable {ι : Type} {L : Filter ι} {A : ι → Rounding} [Fine L A] {κ : ℝ} {s : ∀ i, Sim (Fl (A i)) 4} {p : ModelParams ℝ}
  {ms : Fin 4 → Motor ℝ} {l : Loop} {cP cV cR : Pid ℝ 3} {x : ι → HV → ℝ} {c : ℝ × ℝ} {w : ℝ} {δ : ∀ i, Fl (A i)}

lemma trk_ori (h : ∀ i, RHovers κ (s i) p ms l cP cV cR (x i)) (hx : Tendsto x L (𝓝 (l.rest c w))) :
    TrkQ L (fun i => (s i).dyn.state.ori) (fun i => turnQ l.psi (Loop.quat (x i))) (turnQ l.psi (Loop.quat (l.rest c w))) := by
  have hu := (Fine.unit (L := L) (A := A)).eventually_le_const (show (0 : ℝ) < 1 / 128 by norm_num)
  have lx : ∀ k, Tendsto (fun i => x i k) L (𝓝 (l.rest c w k)) := fun k => (tendsto_pi_nhds.1 hx) k
  have key : ∀ {u : ∀ i, Fl (A i)} {a : ι → ℝ} {a0 : ℝ}, (∀ᶠ i in L, |(u i).val - a i| ≤ 16 * (A i).u) →
      Tendsto a L (𝓝 a0) → Trk L u a a0 := fun h ha => ⟨IsBigO.of_bound 16 (h.mono fun i hi => by
    rw [Real.norm_eq_abs, Real.norm_eq_abs, abs_of_nonneg (A i).u_nonneg]; exact hi), ha⟩
  have e : ∀ i, (valQ (s i).dyn.state.ori).normalized = turnQ l.psi (Loop.quat (x i)) := fun i => isTurned_iff.1 (h i).ori
  have hn : ∀ᶠ i in L, _ := hu.mono fun i hi => near_normalized hi (h i).near
  simp only [e] at hn
  refine ⟨key (hn.mono fun i hi => hi.1) ?_, key (hn.mono fun i hi => hi.2.1) ?_, key (hn.mono fun i hi => hi.2.2.1) ?_,
    key (hn.mono fun i hi => hi.2.2.2) ?_⟩
  · exact ((lx (.ori 0)).const_mul _).sub ((lx (.ori 3)).const_mul _)
  · exact ((lx (.ori 1)).const_mul _).sub ((lx (.ori 2)).const_mul _)
  · exact ((lx (.ori 2)).const_mul _).add ((lx (.ori 1)).const_mul _)
  · exact ((lx (.ori 3)).const_mul _).add ((lx (.ori 0)).const_mul _)

omit [Fine L A] in
lemma tendsto_at {f : (HV → ℝ) → ℝ} {a : ℝ} {f' : (HV → ℝ) → ℝ} (h : Dual f (l.rest c w) a f')
    (hx : Tendsto x L (𝓝 (l.rest c w))) : Tendsto (fun i => f (x i)) L (𝓝 (f (l.rest c w))) :=
  h.continuousAt.tendsto.comp hx

/-- What the rounded controllers compute. -/
structure RCommanded (L : Filter ι) (s t : ∀ i, Sim (Fl (A i)) 4) (l : Loop) (cP cV cR : Pid ℝ 3) (x : ι → HV → ℝ) (c : ℝ × ℝ)
    (w : ℝ) (κ : ℝ) : Prop where
  actuation : TrkV L (fun i => (t i).actuation) (fun i => l.cmd (x i)) (l.cmd (l.rest c w))
  pos : ∀ᶠ i in L, Stored κ (t i).ctl.pos cP ∧ (t i).ctl.pos.firstRun = false
  vel : ∀ᶠ i in L, Stored κ (t i).ctl.vel cV ∧ (t i).ctl.vel.firstRun = false
  rate : ∀ᶠ i in L, Stored κ (t i).ctl.indi.pid cR ∧ (t i).ctl.indi.pid.firstRun = false
  posErr : TrkV L (fun i => (t i).ctl.pos.propErr) (fun i => l.ep (x i)) (l.ep (l.rest c w))
  velErr : TrkV L (fun i => (t i).ctl.vel.propErr) (fun i => l.ev (x i)) (l.ev (l.rest c w))
  rateErr : TrkV L (fun i => (t i).ctl.indi.pid.propErr) (fun i => l.er (x i)) (l.er (l.rest c w))
  posInt : ∀ j, (l.P j).ki ≠ 0 → Trk L (fun i => (t i).ctl.pos.integral j) (fun i => l.map (x i) (.iP j)) (l.map (l.rest c w) (.iP j))
  velInt : ∀ j, (l.V j).ki ≠ 0 → Trk L (fun i => (t i).ctl.vel.integral j) (fun i => l.map (x i) (.iV j)) (l.map (l.rest c w) (.iV j))
  rateInt : ∀ j, (l.R j).ki ≠ 0 → Trk L (fun i => (t i).ctl.indi.pid.integral j) (fun i => l.map (x i) (.iR j))
    (l.map (l.rest c w) (.iR j))
  posFil : ∀ j, (l.P j).kd ≠ 0 → Trk L (fun i => (t i).ctl.pos.filtered j) (fun i => l.map (x i) (.fP j)) (l.map (l.rest c w) (.fP j))
  velFil : ∀ j, (l.V j).kd ≠ 0 → Trk L (fun i => (t i).ctl.vel.filtered j) (fun i => l.map (x i) (.fV j)) (l.map (l.rest c w) (.fV j))
  rateFil : ∀ j, (l.R j).kd ≠ 0 → Trk L (fun i => (t i).ctl.indi.pid.filtered j) (fun i => l.map (x i) (.fR j))
    (l.map (l.rest c w) (.fR j))

/-- The demanded force in the world frame. -/
lemma demanded_force (x : HV → ℝ) (j : Fin 3) :
    (l.acc x j ⊟ (![0, 0, -l.g] : Vec 3 ℝ) j) ⊠ l.mass = turnVec l.psi (l.force x) j := by
  have hcs := Real.cos_sq_add_sin_sq l.psi
  fin_cases j
  · simp [flt, turnVec, Loop.force]; linear_combination -(l.acc x 0 * l.mass) * hcs
  · simp [flt, turnVec, Loop.force]; linear_combination -(l.acc x 1 * l.mass) * hcs
  · simp [flt, turnVec, Loop.force]; ring

lemma unit_rest : IsUnitQ (Loop.quat (l.rest c w)) := by
  simp [IsUnitQ, Loop.quat, Loop.rest]

/-- A rounded control update follows the exact one. -/
lemma trk_control (h : ∀ i, RHovers κ (s i) p ms l cP cV cR (x i)) (hx : Tendsto x L (𝓝 (l.rest c w)))
    (hκ : ∀ i, (A i).Accurate κ) (hP : Tuned cP l.P) (hV : Tuned cV l.V) (hR : Tuned cR l.R) (ht : l.Trim c w)
    (hr : Loop.Inside l ms cP cV cR (l.rest c w)) (hδ : Trk L δ (fun _ => l.dt) l.dt) :
    RCommanded L s (fun i => (s i).updateController (δ i)) l cP cV cR x c w κ := by
  have lx : ∀ k, Tendsto (fun i => x i k) L (𝓝 (l.rest c w k)) := fun k => (tendsto_pi_nhds.1 hx) k
  have hdt := ht.dt.ne'
  -- position controller
  have t1 : TrkV L (fun i j => (s i).refPos j ⊟ (s i).dyn.state.pos j) (fun i => l.ep (x i)) (l.ep (l.rest c w)) := fun j =>
    Trk.sub (b := fun i => x i (.pos j)) (a := fun _ => l.target j) (.near (fun i => (h i).request j) tendsto_const_nhds)
      (.exact (fun i => (h i).pos j) (lx _))
  obtain ⟨o1, q1, i1, f1⟩ := hP.track (fun i => (h i).posConfig) t1 (fun i => (h i).posMemory) (fun j => lx (.iP j))
    (fun j => lx (.fP j)) (fun j => lx (.eP j)) hdt hδ hr.pos hr.pos' hr.posOut
  -- velocity controller
  have t2 : TrkV L (fun i j => ((s i).ctl.pos.computeControl (δ i) fun j => (s i).refPos j ⊟ (s i).dyn.state.pos j).2 j ⊟
      (s i).dyn.state.vel j) (fun i => l.ev (x i)) (l.ev (l.rest c w)) := fun j =>
    (o1 j).sub (b := fun i => x i (.vel j)) (.exact (fun i => (h i).vel j) (lx _))
  obtain ⟨o2, q2, i2, f2⟩ := hV.track (fun i => (h i).velConfig) t2 (fun i => (h i).velMemory) (fun j => lx (.iV j))
    (fun j => lx (.fV j)) (fun j => lx (.eV j)) hdt hδ hr.vel hr.vel' hr.velOut
  -- thrust and rates
  have hori := trk_ori h hx
  have hmat := hori.toMat
  have t3 : TrkV L (fun i j => (((s i).ctl.vel.computeControl (δ i) fun j => ((s i).ctl.pos.computeControl (δ i) fun j =>
      (s i).refPos j ⊟ (s i).dyn.state.pos j).2 j ⊟ (s i).dyn.state.vel j).2 j ⊟ (s i).ctl.acro.gravity j) ⊠ (s i).ctl.acro.mass)
      (fun i => turnVec l.psi (l.force (x i))) (turnVec l.psi (l.force (l.rest c w))) := fun j => by
    have tg : Trk L (fun i => (s i).ctl.acro.gravity j) (fun _ => (![0, 0, -l.g] : Vec 3 ℝ) j) ((![0, 0, -l.g] : Vec 3 ℝ) j) :=
      .stored fun i => (h i).knowsGravity j
    have tm : Trk L (fun i => (s i).ctl.acro.mass) (fun _ => l.mass) l.mass := .stored fun i => (h i).knowsMass
    have := ((o2 j).sub tg).mul tm
    refine (this.congr (.of_forall fun _ => rfl) (.of_forall fun i => demanded_force (x i) j)).limit (demanded_force _ j)
  set F : ∀ i, Vec 3 (Fl (A i)) := fun i j => (((s i).ctl.vel.computeControl (δ i) fun j =>
    ((s i).ctl.pos.computeControl (δ i) fun j => (s i).refPos j ⊟ (s i).dyn.state.pos j).2 j ⊟ (s i).dyn.state.vel j).2 j ⊟
      (s i).ctl.acro.gravity j) ⊠ (s i).ctl.acro.mass with hF
  have hg := ht.gravity
  have hf0 : l.force (l.rest c w) = ![0, 0, l.g] := funext fun j => (Loop.d_force ht j).1
  have hf1 : turnVec l.psi (l.force (l.rest c w)) = ![0, 0, l.g] := by
    rw [hf0]; ext j; fin_cases j <;> simp [turnVec]
  have hn0 : Verif.normalized (![0, 0, l.g] : Vec 3 ℝ) = ![0, 0, 1] := by
    have : (![0, 0, l.g] : Vec 3 ℝ) ⬝ᵥ ![0, 0, l.g] = l.g ^ 2 := by simp [dotProduct, Fin.sum_univ_three]; ring
    rw [normalized_real, this, Real.sqrt_sq hg.le]
    ext j; fin_cases j <;> simp [hg.ne']
  have hcs := Real.cos_sq_add_sin_sq l.psi
  have hc1 : cross (![0, 0, 1] : Vec 3 ℝ) ![cos l.psi, sin l.psi, lit 0] = ![-Real.sin l.psi, Real.cos l.psi, 0] := by
    rw [cross_real]
    ext j; fin_cases j <;> simp [flt, cross_apply]
  have hn1 : Verif.normalized (![-Real.sin l.psi, Real.cos l.psi, 0] : Vec 3 ℝ) = ![-Real.sin l.psi, Real.cos l.psi, 0] := by
    have : (![-Real.sin l.psi, Real.cos l.psi, 0] : Vec 3 ℝ) ⬝ᵥ ![-Real.sin l.psi, Real.cos l.psi, 0] = 1 := by
      simp [dotProduct, Fin.sum_univ_three]; linarith
    rw [normalized_real, this]; simp
  have hatt : TrkM L (fun i => Acro.desiredAttitude (s i).refYaw (F i)) (fun i => Acro.desiredAttitude l.psi (turnVec l.psi (l.force (x i))))
      (Acro.desiredAttitude l.psi (turnVec l.psi (l.force (l.rest c w)))) := by
    refine trk_desiredAttitude (c := fun _ => l.psi) (c0 := l.psi) (.near (κ := κ + κ) (fun i => ?_) tendsto_const_nhds)
      (.near (κ := κ + κ) (fun i => ?_) tendsto_const_nhds) t3 ?_ ?_ ?_
    · show |(A i).fcos (s i).refYaw.val - Real.cos l.psi| ≤ _
      rw [add_mul]
      exact (abs_sub_le _ (Real.cos (s i).refYaw.val) _).trans (add_le_add ((hκ i).cos _) (h i).heading.1)
    · show |(A i).fsin (s i).refYaw.val - Real.sin l.psi| ≤ _
      rw [add_mul]
      exact (abs_sub_le _ (Real.sin (s i).refYaw.val) _).trans (add_le_add ((hκ i).sin _) (h i).heading.2)
    · rw [hf1]; simp [normSq, flt, Fin.sum_univ_three]; positivity
    · rw [hf1, hn0, hc1]; simp [normSq, flt, Fin.sum_univ_three]; nlinarith
    · rw [hf1, hn0, hc1, hn1, cross_real]; simp [normSq, flt, Fin.sum_univ_three, cross_apply]; nlinarith
  have hrr : ∀ x, IsUnitQ (Loop.quat x) → mv (mneg (Matrix.diagonal l.kr)) (Acro.rotationError
      (Acro.desiredAttitude l.psi (turnVec l.psi (l.force x))) (turnQ l.psi (Loop.quat x)).toMat) = l.rates x := fun x hx => by
    rw [turned_error (isTurned_turnQ _ _) hx rfl rfl]
    ext i
    simp [flt, Loop.rates, Matrix.mulVec_diagonal, -Matrix.diagonal_neg, Matrix.neg_mulVec]
  have t4 : TrkV L (fun i => ((s i).ctl.acro.yawAngleToAngularVelocity (s i).dyn.state.ori.toMat (s i).refYaw (F i)).2)
      (fun i => l.rates (x i)) (l.rates (l.rest c w)) := by
    have tk : TrkM L (fun i => (s i).ctl.acro.kpRot) (fun _ => Matrix.diagonal l.kr) (Matrix.diagonal l.kr) := fun j k =>
      .stored fun i => (h i).gain j k
    have := TrkV.mv tk.mneg (trk_rotationError hatt hmat)
    exact (this.congr (.of_forall fun _ => rfl) (.of_forall fun i => hrr _ (h i).unit)).limit (hrr _ unit_rest)
  have hpr : ∀ x, IsUnitQ (Loop.quat x) → dot (turnVec l.psi (l.force x))
      (Verif.normalized fun j => (turnQ l.psi (Loop.quat x)).toMat j 2) = l.proj x := fun x hx => by
    have hz : (fun j => (turnQ l.psi (Loop.quat x)).toMat j 2) = turnVec l.psi (Loop.bodyZ x) :=
      turned_axis (isTurned_turnQ _ _) hx 2
    rw [hz, turnVec_normalized, dot_real, turnVec_dot]; rfl
  have t5 : Trk L (fun i => dot (F i) (normalized fun j => (s i).dyn.state.ori.toMat j 2)) (fun i => l.proj (x i))
      (l.proj (l.rest c w)) := by
    have hz : (fun j => (turnQ l.psi (Loop.quat (l.rest c w))).toMat j 2) = turnVec l.psi (Loop.bodyZ (l.rest c w)) :=
      turned_axis (isTurned_turnQ _ _) unit_rest 2
    have hb : Loop.bodyZ (l.rest c w) = ![0, 0, 1] := by
      ext j; fin_cases j <;> simp [Loop.bodyZ, Quat.toMat, Loop.quat, Loop.rest, flt]
    have := t3.dot ((hmat.col 2).normalized (by
      rw [hz, hb]; simp [normSq, flt, turnVec, Fin.sum_univ_three]))
    exact (this.congr (.of_forall fun _ => rfl) (.of_forall fun i => hpr _ (h i).unit)).limit (hpr _ unit_rest)
  -- rate controller
  have t6 : TrkV L (fun i j => ((s i).ctl.acro.yawAngleToAngularVelocity (s i).dyn.state.ori.toMat (s i).refYaw (F i)).2 j ⊟
      (s i).dyn.state.angVel j) (fun i => l.er (x i)) (l.er (l.rest c w)) := fun j =>
    (t4 j).sub (b := fun i => x i (.om j)) (.exact (fun i => (h i).angVel j) (lx _))
  obtain ⟨o3, q3, i3, f3⟩ := hR.track (fun i => (h i).rateConfig) t6 (fun i => (h i).rateMemory) (fun j => lx (.iR j))
    (fun j => lx (.fR j)) (fun j => lx (.eR j)) hdt hδ hr.rate hr.rate' hr.rateOut
  set R : ∀ i, Vec 3 (Fl (A i)) := fun i => ((s i).ctl.acro.yawAngleToAngularVelocity (s i).dyn.state.ori.toMat (s i).refYaw (F i)).2
    with hRd
  set T : ∀ i, Fl (A i) := fun i => dot (F i) (normalized fun j => (s i).dyn.state.ori.toMat j 2) with hT
  -- rotor speeds
  have t7 : TrkV L (fun i => ((s i).ctl.indi.acroToMotor (s i).dyn.state.angVel (T i) (R i) (δ i)).2) (fun i => l.cmd (x i))
      (l.cmd (l.rest c w)) := by
    have tj : TrkM L (fun i => (s i).ctl.indi.inertia) (fun _ => Matrix.diagonal l.inertia) (Matrix.diagonal l.inertia) :=
      fun j k => .stored fun i => (h i).knowsInertia j k
    have hd : ∀ v : Vec 3 ℝ, mv (Matrix.diagonal l.inertia) v = fun i => l.inertia i * v i := fun v => by
      ext i; simp only [flt]; rw [Matrix.mulVec_diagonal]
    have htq : ∀ x, vadd (mv (Matrix.diagonal l.inertia) (l.spin x)) (cross (l.rates x) (mv (Matrix.diagonal l.inertia) (l.rates x))) =
        l.torque x := fun x => by
      rw [hd, hd, cross_real]; rfl
    have ttq : TrkV L (fun i => vadd (mv (s i).ctl.indi.inertia ((s i).ctl.indi.pid.computeControl (δ i) fun j =>
        R i j ⊟ (s i).dyn.state.angVel j).2) (cross (R i) (mv (s i).ctl.indi.inertia (R i)))) (fun i => l.torque (x i))
        (l.torque (l.rest c w)) :=
      (((TrkV.mv tj o3).vadd (t4.cross (TrkV.mv tj t4))).congr (.of_forall fun _ => rfl) (.of_forall fun i => htq _)).limit (htq _)
    have hz : ∀ i, (lit 0 : Fl (A i)).val = 0 := fun i => lit_zero_val
    have tsq : TrkV L (fun i => mv (s i).ctl.indi.mixerInv (![(![lit 0, lit 0, T i] : Vec 3 (Fl (A i))) 0,
        (![lit 0, lit 0, T i] : Vec 3 (Fl (A i))) 1, (![lit 0, lit 0, T i] : Vec 3 (Fl (A i))) 2,
        vadd (mv (s i).ctl.indi.inertia ((s i).ctl.indi.pid.computeControl (δ i) fun j =>
          R i j ⊟ (s i).dyn.state.angVel j).2) (cross (R i) (mv (s i).ctl.indi.inertia (R i))) 0,
        vadd (mv (s i).ctl.indi.inertia ((s i).ctl.indi.pid.computeControl (δ i) fun j =>
          R i j ⊟ (s i).dyn.state.angVel j).2) (cross (R i) (mv (s i).ctl.indi.inertia (R i))) 1,
        vadd (mv (s i).ctl.indi.inertia ((s i).ctl.indi.pid.computeControl (δ i) fun j =>
          R i j ⊟ (s i).dyn.state.angVel j).2) (cross (R i) (mv (s i).ctl.indi.inertia (R i))) 2] : Vec 6 (Fl (A i))))
        (fun i => l.square (x i)) (l.square (l.rest c w)) := by
      intro j
      have ta : ∀ r, Trk L (fun i => (s i).ctl.indi.mixerInv j (Fin.natAdd 2 r)) (fun _ => l.alloc j r) (l.alloc j r) := fun r =>
        .near (fun i => (h i).knowsRotors j r) tendsto_const_nhds
      have hsq : ∀ x, vsum (![0, 0, l.alloc j 0 ⊠ l.proj x, l.alloc j 1 ⊠ l.torque x 0, l.alloc j 2 ⊠ l.torque x 1,
          l.alloc j 3 ⊠ l.torque x 2] : Vec 6 ℝ) = l.square x j := fun x => by
        simp [flt, Loop.square, Loop.wrench, Fin.sum_univ_succ]
      refine ((Trk.vsum (c := fun i => ![0, 0, l.alloc j 0 ⊠ l.proj (x i), l.alloc j 1 ⊠ l.torque (x i) 0,
        l.alloc j 2 ⊠ l.torque (x i) 1, l.alloc j 3 ⊠ l.torque (x i) 2]) (c0 := ![0, 0, l.alloc j 0 ⊠ l.proj (l.rest c w),
          l.alloc j 1 ⊠ l.torque (l.rest c w) 0, l.alloc j 2 ⊠ l.torque (l.rest c w) 1,
          l.alloc j 3 ⊠ l.torque (l.rest c w) 2]) fun k => ?_).congr (.of_forall fun _ => rfl)
            (.of_forall fun i => hsq _)).limit (hsq _)
      match k with
      | 0 => exact .exact (fun i => Trk.mul_zero (hz i)) tendsto_const_nhds
      | 1 => exact .exact (fun i => Trk.mul_zero (hz i)) tendsto_const_nhds
      | 2 => exact (ta 0).mul t5
      | 3 => exact (ta 1).mul (ttq 0)
      | 4 => exact (ta 2).mul (ttq 1)
      | 5 => exact (ta 3).mul (ttq 2)
    exact tsq.sqrtKeepSign fun j => by
      have e : l.square (l.rest c w) j = w ^ 2 := (Loop.d_square ht j).1
      rw [e]
      exact pow_pos ht.speed 2
  -- assembly
  have hst : ∀ i, _ := fun i => (C53_cascade (s i).ctl (s i).dyn.state.ori.toMat (s i).dyn.state.pos (s i).dyn.state.vel
    (s i).dyn.state.angVel (s i).refPos vzero vzero (s i).refYaw (δ i)).1
  have hup : ∀ i, (s i).updateController (δ i) = { s i with
      ctl := ((s i).ctl.positionControl (s i).dyn.state.pos (s i).dyn.state.ori.toMat (s i).dyn.state.vel
        (s i).dyn.state.angVel (s i).refPos (s i).refYaw (δ i)).1
      actuation := ((s i).ctl.positionControl (s i).dyn.state.pos (s i).dyn.state.ori.toMat (s i).dyn.state.vel
        (s i).dyn.state.angVel (s i).refPos (s i).refYaw (δ i)).2 } := fun i => by
    have hy : (s i).yawRef = (s i).refYaw := by simp [Sim.yawRef, (h i).yawMode]
    rw [Sim.updateController_armed (h i).armed, hy]
    simp only [Sim.command, (h i).mode]
  have hpos : ∀ i, ((s i).updateController (δ i)).ctl.pos = ((s i).ctl.pos.computeControl (δ i) fun j =>
      (s i).refPos j ⊟ (s i).dyn.state.pos j).1 := fun i => by
    rw [hup i]; exact (hst i).2.2.2.1
  have hvel : ∀ i, ((s i).updateController (δ i)).ctl.vel = ((s i).ctl.vel.computeControl (δ i) fun j =>
      ((s i).ctl.pos.computeControl (δ i) fun j => (s i).refPos j ⊟ (s i).dyn.state.pos j).2 j ⊟ (s i).dyn.state.vel j).1 := fun i => by
    rw [hup i]; exact (hst i).2.2.2.2
  have hacro : ∀ᶠ i in L, ((s i).updateController (δ i)).actuation =
        ((s i).ctl.indi.acroToMotor (s i).dyn.state.angVel (T i) (R i) (δ i)).2 ∧
      ((s i).updateController (δ i)).ctl.indi.pid = ((s i).ctl.indi.pid.computeControl (δ i) fun j =>
        R i j ⊟ (s i).dyn.state.angVel j).1 := by
    have hz : (lit 0 : ℝ) < l.proj (l.rest c w) := by
      have e : l.proj (l.rest c w) = l.g := (Loop.d_proj ht).1
      rw [e, lit_zero]; exact hg
    filter_upwards [(Trk.lit (L := L) 0).lt_of t5 hz] with i hi
    obtain ⟨T', w', hac, hcases⟩ := (hst i).1.acro
    have hTw : T' = T i ∧ w' = R i := by
      rcases hcases with ⟨hneg, -, -⟩ | ⟨-, h1, h2⟩
      · exact absurd (hneg.symm.trans hi.2) (by simp)
      · exact ⟨h1, h2⟩
    obtain ⟨rfl, rfl⟩ := hTw
    rw [hup i]
    exact ⟨hac.motors, hac.rate⟩
  exact {
    actuation := t7.congr (hacro.mono fun i hi => hi.1.symm) (.of_forall fun _ => rfl)
    pos := .of_forall fun i => by rw [hpos i]; exact ⟨(q1 i).1, (q1 i).2.1⟩
    vel := .of_forall fun i => by rw [hvel i]; exact ⟨(q2 i).1, (q2 i).2.1⟩
    rate := hacro.mono fun i hi => by rw [hi.2]; exact ⟨(q3 i).1, (q3 i).2.1⟩
    posErr := t1.congr (.of_forall fun i => by rw [hpos i]; exact (q1 i).2.2.symm) (.of_forall fun _ => rfl)
    velErr := t2.congr (.of_forall fun i => by rw [hvel i]; exact (q2 i).2.2.symm) (.of_forall fun _ => rfl)
    rateErr := t6.congr (hacro.mono fun i hi => by rw [hi.2]; exact (q3 i).2.2.symm) (.of_forall fun _ => rfl)
    posInt := fun j hj => (i1 j hj).congr (.of_forall fun i => by rw [hpos i]) (.of_forall fun _ => rfl)
    velInt := fun j hj => (i2 j hj).congr (.of_forall fun i => by rw [hvel i]) (.of_forall fun _ => rfl)
    rateInt := fun j hj => (i3 j hj).congr (hacro.mono fun i hi => by rw [hi.2]) (.of_forall fun _ => rfl)
    posFil := fun j hj => (f1 j hj).congr (.of_forall fun i => by rw [hpos i]) (.of_forall fun _ => rfl)
    velFil := fun j hj => (f2 j hj).congr (.of_forall fun i => by rw [hvel i]) (.of_forall fun _ => rfl)
    rateFil := fun j hj => (f3 j hj).congr (hacro.mono fun i hi => by rw [hi.2]) (.of_forall fun _ => rfl) }

end

end Verif.Props
