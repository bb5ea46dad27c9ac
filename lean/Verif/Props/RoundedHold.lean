import Verif.Props.RoundedStep
import Verif.Props.Disturbed

/-!
# Position hold in rounded arithmetic (C151)
-/

namespace Verif.Props

open Verif Flt Spec Stability Filter Topology Asymptotics

/-! ## The exact cycle -/

/-- A vehicle with the motion given by `x`. -/
noncomputable def exState (l : Loop) (x : HV → ℝ) : State ℝ 4 :=
  { (State.default : State ℝ 4) with
    pos := fun j => x (.pos j)
    vel := fun j => x (.vel j)
    ori := turnQ l.psi (Loop.quat x)
    angVel := fun j => x (.om j)
    motVel := fun j => x (.mot j) }

/-- A model of this vehicle. -/
noncomputable def exModel (p : ModelParams ℝ) (ms : Fin 4 → Motor ℝ) : Model ℝ 4 := ⟨some (Model.coreOf p ms), none, ⟨7, 0⟩, vzero, vzero⟩

section
variable [Noise ℝ] {p : ModelParams ℝ} {ms : Fin 4 → Motor ℝ} {l : Loop} {cP cV cR : Pid ℝ 3} {x : HV → ℝ}

/-- The exact integration step is the one of the cycle. -/
lemma exState_step (hc : Loop.Craft l p ms) (hJ : ∀ i, l.inertia i ≠ 0) (h0 : 0 < l.dt) (h1 : l.dt ≤ 1 / 100)
    (hrot : Model.motorFn 4 p.motors = some ms) (hi : Loop.Inside l ms cP cV cR x) (hu : IsUnitQ (Loop.quat x)) :
    Loop.Moves l (Dyn.eulerStep (Model.coreOf p ms) ms ⟨exModel p ms, exState l x⟩ (l.cmd x) l.dt vzero false).state (l.map x) 0 0 := by
  set v : Sim ℝ 4 := { Fixture.sim with
    dyn := ⟨exModel p ms, exState l x⟩
    extForce := vzero
    actuation := l.cmd x
    floorEnable := false
    floorCollision := true } with hv
  have hm : Loop.Moves l v.dyn.state x 0 0 :=
    ⟨fun i => by simp [hv, exState], fun i => by simp [hv, exState], isTurned_turnQ _ _, hu, fun _ => rfl, fun _ => rfl⟩
  obtain ⟨d, d1, -, d3, d4⟩ := hm.pushed hc hJ h0 h1 rfl hrot rfl vzero_real rfl hi.command hi.speed
  have hlim : ∀ i, (ms i).minSpeed ≤ (ms i).maxSpeed := fun i => ((hi.command i).1.trans (hi.command i).2).le
  have hup := Sim.updateDynamics_free (v := v) (dt := l.dt) (q := p) (ms := ms) rfl hrot (by simp [Dyn.clampOk, flt, hlim]) rfl
    (by simpa [flt] using h0) (by simpa [flt, Dyn.maxStep] using h1)
  rw [hup] at d1
  have he : d = Dyn.eulerStep (Model.coreOf p ms) ms ⟨exModel p ms, exState l x⟩ (l.cmd x) l.dt vzero false :=
    (congrArg Sim.dyn (Res.ok.inj d1)).symm
  have hst : d.model.stochForce = 0 := by
    rw [d3]; exact vzero_real
  have hw : l.wind x 0 = 0 := by ext i; simp [Loop.wind]
  rw [hst, hw, add_zero, Loop.push_zero, add_zero] at d4
  rw [← he]
  simpa using d4

end

/-! ## The rounded cycle -/

/-- The orientation `r` turned back by `θ`. -/
noncomputable def backQ (θ : ℝ) (r : Quat ℝ) : Quat ℝ :=
  ⟨Real.cos (θ / 2) * r.w + Real.sin (θ / 2) * r.z, Real.cos (θ / 2) * r.x + Real.sin (θ / 2) * r.y,
    Real.cos (θ / 2) * r.y - Real.sin (θ / 2) * r.x, Real.cos (θ / 2) * r.z - Real.sin (θ / 2) * r.w⟩

lemma isTurned_backQ (θ : ℝ) (r : Quat ℝ) : IsTurned θ (backQ θ r) r := by
  have hcs := Real.cos_sq_add_sin_sq (θ / 2)
  refine isTurned_iff.2 ?_
  rw [Quat.ext_iff]
  refine ⟨?_, ?_, ?_, ?_⟩
  · simp only [backQ]; linear_combination -r.w * hcs
  · simp only [backQ]; linear_combination -r.x * hcs
  · simp only [backQ]; linear_combination -r.y * hcs
  · simp only [backQ]; linear_combination -r.z * hcs

lemma eq_backQ {θ : ℝ} {q r : Quat ℝ} (h : IsTurned θ q r) : q = backQ θ r := by
  have hcs := Real.cos_sq_add_sin_sq (θ / 2)
  rw [isTurned_iff.1 h, Quat.ext_iff]
  refine ⟨?_, ?_, ?_, ?_⟩
  · simp only [backQ]; linear_combination -q.w * hcs
  · simp only [backQ]; linear_combination -q.x * hcs
  · simp only [backQ]; linear_combination -q.y * hcs
  · simp only [backQ]; linear_combination -q.z * hcs

/-- The numbers that describe a vehicle in rounded arithmetic. -/
noncomputable def HV.rounded {A : Rounding} (s : Sim (Fl A) 4) (l : Loop) (q : Quat ℝ) : HV → ℝ :=
  HV.withR (valPid s.ctl.indi.pid) l (HV.withV (valPid s.ctl.vel) l (HV.withP (valPid s.ctl.pos) l
    (HV.motion (valState s.dyn.state) q)))

section
variable {A : Rounding} {κ : ℝ} {s : Sim (Fl A) 4} {p : ModelParams ℝ} {ms : Fin 4 → Motor ℝ} {l : Loop} {cP cV cR : Pid ℝ 3}

lemma nonzero_val {q : Quat (Fl A)} (h : NonzeroF q) : NonzeroQ (valQ q) := by
  rintro ⟨h1, h2, h3, h4⟩
  exact h (by simp only [valQ] at h1 h2 h3 h4; simp [lengthSq, h1, h2, h3, h4])

lemma RHold.hovers (h : RHold κ s p ms l cP cV cR) (hu : A.u ≤ 1 / 128) (hn : NearUnit s.dyn.state.ori) {q : Quat ℝ}
    (hq : IsTurned l.psi q (valQ s.dyn.state.ori).normalized) : RHovers κ s p ms l cP cV cR (HV.rounded s l q) :=
  { h with
    pos := fun _ => rfl
    vel := fun _ => rfl
    ori := hq
    near := hn
    unit := turned_back hq (Quat.normalized_unit (nonzero_val (hn.nonzero hu)))
    angVel := fun _ => rfl
    motVel := fun _ => rfl
    posMemory := ⟨fun _ => rfl, fun _ => rfl, fun _ => rfl⟩
    velMemory := ⟨fun _ => rfl, fun _ => rfl, fun _ => rfl⟩
    rateMemory := ⟨fun _ => rfl, fun _ => rfl, fun _ => rfl⟩ }

/-- The vehicle after a control update and a single integration step. -/
noncomputable def rnext [Noise (Fl A)] (p' : ModelParams (Fl A)) (ms' : Fin 4 → Motor (Fl A)) (dt : Fl A) (s : Sim (Fl A) 4) :
    Sim (Fl A) 4 :=
  let v := s.updateController dt
  { v with
    extForce := vzero
    dyn := Dyn.eulerStep (Model.coreOf p' ms') ms' v.dyn v.actuation dt v.extForce (!v.floorCollision)
    floorCollision := false }

/-- What a control update keeps. -/
lemma RHold.keeps (h : RHold κ s p ms l cP cV cR) (dt : Fl A) :
    let t := s.updateController dt
    t.dyn = s.dyn ∧ t.armed = s.armed ∧ t.mode = s.mode ∧ t.yawMode = s.yawMode ∧ t.refYaw = s.refYaw ∧ t.refPos = s.refPos ∧
    t.floorEnable = s.floorEnable ∧ t.extForce = s.extForce ∧ t.ctl.acro.mass = s.ctl.acro.mass ∧
    t.ctl.acro.gravity = s.ctl.acro.gravity ∧ t.ctl.acro.kpRot = s.ctl.acro.kpRot ∧
    t.ctl.indi.inertia = s.ctl.indi.inertia ∧ t.ctl.indi.mixerInv = s.ctl.indi.mixerInv := by
  have hy : s.yawRef = s.refYaw := by simp [Sim.yawRef, h.yawMode]
  intro t
  have : t = _ := Sim.updateController_armed h.armed _
  rw [this, hy]
  refine ⟨rfl, rfl, rfl, rfl, rfl, rfl, rfl, rfl, ?_, ?_, ?_, ?_, ?_⟩ <;> simp only [Sim.command, h.mode] <;> rfl

end

section
variable {ι : Type} {L : Filter ι} {A : ι → Rounding} [Fine L A] {κ : ℝ} {s : ∀ i, Sim (Fl (A i)) 4} {p : ModelParams ℝ}
  {ms : Fin 4 → Motor ℝ} {l : Loop} {cP cV cR : Pid ℝ 3} {x : ι → HV → ℝ} {c : ℝ × ℝ} {w : ℝ} [∀ i, Noise (Fl (A i))]
  {p' : ∀ i, ModelParams (Fl (A i))} {ms' : ∀ i, Fin 4 → Motor (Fl (A i))} {δ : ∀ i, Fl (A i)}

/-- The integration step of the cycle. -/
lemma trk_step [Noise ℝ] (h : ∀ i, RHovers κ (s i) p ms l cP cV cR (x i)) (hx : Tendsto x L (𝓝 (l.rest c w)))
    (hκ : ∀ i, (A i).Accurate κ) (hc : Loop.Is l p ms) (hP : Tuned cP l.P) (hV : Tuned cV l.V) (hR : Tuned cR l.R) (ht : l.Trim c w)
    (hr : Loop.Inside l ms cP cV cR (l.rest c w)) (hs : ∀ j, (ms j).minSpeed < w ∧ w < (ms j).maxSpeed)
    (hp : ∀ i, StoredParams κ (p' i) p) (hms : ∀ i j, StoredMotor κ (ms' i j) (ms j)) (hδ : Trk L δ (fun _ => l.dt) l.dt) :
    TrkS L (fun i => (rnext (p' i) (ms' i) (δ i) (s i)).dyn.state)
      (fun i => (Dyn.eulerStep (Model.coreOf p ms) ms ⟨exModel p ms, exState l (x i)⟩ (l.cmd (x i)) l.dt vzero false).state)
      (Dyn.eulerStep (Model.coreOf p ms) ms ⟨exModel p ms, exState l (l.rest c w)⟩ (l.cmd (l.rest c w)) l.dt vzero false).state := by
  have lx : ∀ k, Tendsto (fun i => x i k) L (𝓝 (l.rest c w k)) := fun k => (tendsto_pi_nhds.1 hx) k
  have hk := trk_control h hx hκ hP hV hR ht hr hδ
  have hd : ∀ i, ((s i).updateController (δ i)).dyn = (s i).dyn := fun i => ((h i).keeps (δ i)).1
  have he : ∀ i, ((s i).updateController (δ i)).extForce = (s i).extForce := fun i => ((h i).keeps (δ i)).2.2.2.2.2.2.2.1
  have hst : TrkS L (fun i => ((s i).updateController (δ i)).dyn.state) (fun i => exState l (x i)) (exState l (l.rest c w)) := by
    simp only [hd]
    exact ⟨fun j => .exact (fun i => (h i).pos j) (lx _), fun j => .exact (fun i => (h i).vel j) (lx _), trk_ori h hx,
      fun j => .exact (fun i => (h i).angVel j) (lx _), fun j => .exact (fun i => (h i).motVel j) (lx _)⟩
  have hw : ∀ j, l.cmd (l.rest c w) j = w := fun j => (Loop.d_cmd ht j).1
  refine hst.euler hk.actuation (fun i => by rw [he i]; exact (h i).extForce) _ _ hp hms hδ hc.quiet ?_ ?_ ?_ ?_ ?_ ?_
  · rw [hc.mass]; exact ht.mass.ne'
  · rw [hc.inertia, Matrix.det_diagonal]; exact Finset.prod_ne_zero_iff.2 fun i _ => ht.inertia i
  · intro j; rw [hc.lagging]; exact ht.tau.ne'
  · intro j; rw [hw]; exact hs j
  · intro j
    rw [hw, show (exState l (l.rest c w)).motVel j = w from rfl, sub_self, zero_div, zero_mul, add_zero]
    exact hs j
  · have hcs := Real.cos_sq_add_sin_sq (l.psi / 2)
    simp [exState, turnQ, Loop.quat, Loop.rest, quatDerivative, Quat.coeffs, Quat.ofCoeffs, Quat.mul, normSq, flt,
      Fin.sum_univ_four]
    nlinarith

omit [Fine L A] [∀ i, Noise (Fl (A i))] in
lemma isBigO_of_trk {y : ∀ i, Fl (A i)} {a b : ι → ℝ} {a0 : ℝ} (h : Trk L y a a0) (hb : ∀ᶠ i in L, a i = b i) :
    (fun i => (y i).val - b i) =O[L] fun i => (A i).u :=
  h.1.congr' (hb.mono fun i hi => by simp only [hi]) .rfl

/-- The rounded cycle follows the exact one. -/
lemma rounded_cycle (h : ∀ i, RHovers κ (s i) p ms l cP cV cR (x i)) (hx : Tendsto x L (𝓝 (l.rest c w)))
    (hκ : ∀ i, (A i).Accurate κ) (hc : Loop.Is l p ms) (hP : Tuned cP l.P) (hV : Tuned cV l.V) (hR : Tuned cR l.R) (ht : l.Trim c w)
    (hr : Loop.Room l ms cP cV cR c w) (hrot : Model.motorFn 4 p.motors = some ms) (h1 : l.dt < 1 / 100)
    (hδ : Trk L δ (fun _ => l.dt) l.dt) :
    ∃ (t : ∀ i, Sim (Fl (A i)) 4) (y : ι → HV → ℝ), (∀ᶠ i in L, (∀ os u, Sim.Runs (t i) os u →
        Sim.Runs (s i) (.updateController (δ i) :: .updateDynamics (δ i) :: os) u) ∧
      RHovers κ (t i) p ms l cP cV cR (y i)) ∧
      (fun i => y i - l.map (x i)) =O[L] fun i => (A i).u := by
  let _ : Noise ℝ := ⟨fun _ _ _ => 0⟩
  choose p' ms' hcore hrot' hp hms using fun i => (h i).runs
  obtain ⟨r, hr0, hin⟩ := hr.near ht
  have hin0 := hin (l.rest c w) (by simpa using hr0)
  have hine : ∀ᶠ i in L, Loop.Inside l ms cP cV cR (x i) := by
    filter_upwards [hx.eventually (Metric.ball_mem_nhds _ hr0)] with i hi
    exact hin _ (by rwa [← dist_eq_norm])
  have hu := (Fine.unit (L := L) (A := A)).eventually_le_const (show (0 : ℝ) < 1 / 128 by norm_num)
  have hk := trk_control h hx hκ hP hV hR ht hin0 hδ
  have hs := trk_step h hx hκ hc hP hV hR ht hin0 hr.speed hp hms hδ
  have hm : ∀ᶠ i in L, _ := hine.mono fun i hi => exState_step hc.toCraft ht.inertia ht.dt h1.le hrot hi (h i).unit
  have hdt : ∀ᶠ i in L, lt (Dyn.maxStep : Fl (A i)) (δ i) = false :=
    (hδ.lt_of (Trk.lit (1 / 100)) (by simpa [flt] using h1)).mono fun i hi => hi.2
  have hdt0 : ∀ᶠ i in L, le (δ i) (lit 0) = false :=
    ((Trk.lit (L := L) 0).lt_of hδ (by rw [lit_zero]; exact ht.dt)).mono fun i hi =>
      decide_eq_false (not_le.2 (of_decide_eq_true hi.1))
  have hcl : ∀ᶠ i in L, Dyn.clampOk (ms' i) = true := by
    have : ∀ j, ∀ᶠ i in L, lt (ms' i j).maxSpeed (ms' i j).minSpeed = false := fun j =>
      ((Trk.stored fun i => (hms i j).minSpeed).lt_of (Trk.stored fun i => (hms i j).maxSpeed)
        ((hr.speed j).1.trans (hr.speed j).2)).mono fun i hi => hi.2
    filter_upwards [eventually_all.2 this] with i hi
    simp only [Dyn.clampOk, List.all_eq_true]
    intro j _
    rw [hi j]; rfl
  have hnear : ∀ᶠ i in L, NearUnit (rnext (p' i) (ms' i) (δ i) (s i)).dyn.state.ori := by
    filter_upwards [hu] with i hi
    have hd := ((h i).keeps (δ i)).1
    have e : (rnext (p' i) (ms' i) (δ i) (s i)).dyn.state.ori = quatIntegrate (s i).dyn.state.ori (s i).dyn.state.angVel (δ i) := by
      rw [← hd]; rfl
    rw [e]
    exact quatIntegrate_near hi ((h i).near.nonzero hi) _ _
  set q : ι → Quat ℝ := fun i => (valQ (rnext (p' i) (ms' i) (δ i) (s i)).dyn.state.ori).normalized with hq
  refine ⟨fun i => rnext (p' i) (ms' i) (δ i) (s i), fun i => HV.rounded (rnext (p' i) (ms' i) (δ i) (s i)) l (backQ l.psi (q i)), ?_, ?_⟩
  · filter_upwards [hdt, hu, hnear, hk.pos, hk.vel, hk.rate, hdt0, hcl] with i i1 i2 i3 i4 i5 i6 i7 i8
    obtain ⟨k1, k2, k3, k4, k5, k6, k7, k8, k9, k10, k11, k12, k13⟩ := (h i).keeps (δ i)
    have hup := Sim.updateDynamics_free (v := (s i).updateController (δ i)) (dt := δ i) (q := p' i) (ms := ms' i)
      (by rw [k1]; exact hcore i) (hrot' i) i8 (k7.trans (h i).floor) i7 i1
    refine ⟨fun os u hos => .ok rfl (.ok hup hos), ?_⟩
    refine RHold.hovers ?_ i2 i3 (isTurned_backQ _ _)
    exact {
      runs := by
        refine ⟨p' i, ms' i, ?_, hrot' i, hp i, hms i⟩
        show (Dyn.eulerStep _ _ _ _ _ _ _).model.core = _
        rw [Dyn.eulerStep_core, k1]; exact hcore i
      rotors := hrot
      armed := k2.trans (h i).armed
      mode := k3.trans (h i).mode
      yawMode := k4.trans (h i).yawMode
      heading := by
        show |Real.cos ((s i).updateController (δ i)).refYaw.val - _| ≤ _ ∧ |Real.sin ((s i).updateController (δ i)).refYaw.val - _| ≤ _
        rw [k5]; exact (h i).heading
      request := by
        show ∀ j, |(((s i).updateController (δ i)).refPos j).val - _| ≤ _
        rw [k6]; exact (h i).request
      floor := k7.trans (h i).floor
      extForce := funext fun j => lit_zero_val
      knowsMass := by
        show (A i).Stores κ ((s i).updateController (δ i)).ctl.acro.mass.val _
        rw [k9]; exact (h i).knowsMass
      knowsGravity := by
        show ∀ j, (A i).Stores κ (((s i).updateController (δ i)).ctl.acro.gravity j).val _
        rw [k10]; exact (h i).knowsGravity
      gain := by
        show ∀ j k, (A i).Stores κ (((s i).updateController (δ i)).ctl.acro.kpRot j k).val _
        rw [k11]; exact (h i).gain
      knowsInertia := by
        show ∀ j k, (A i).Stores κ (((s i).updateController (δ i)).ctl.indi.inertia j k).val _
        rw [k12]; exact (h i).knowsInertia
      knowsRotors := by
        show ∀ j r, |(((s i).updateController (δ i)).ctl.indi.mixerInv j (Fin.natAdd 2 r)).val - l.alloc j r| ≤ _
        rw [k13]; exact (h i).knowsRotors
      posConfig := i4.1
      velConfig := i5.1
      rateConfig := i6.1 }
  · -- distance from the exact cycle
    have hori : ∀ᶠ i in L, (Dyn.eulerStep (Model.coreOf p ms) ms ⟨exModel p ms, exState l (x i)⟩ (l.cmd (x i)) l.dt vzero
        false).state.ori = turnQ l.psi (Loop.quat (l.map (x i))) := hm.mono fun i hi => isTurned_iff.1 hi.ori
    have ho : ∀ {f : Quat ℝ → ℝ} {g : ∀ i, Fl (A i)}, (∀ᶠ i in L, |(g i).val - f (q i)| ≤ 16 * (A i).u) →
        (fun i => (g i).val - f (turnQ l.psi (Loop.quat (l.map (x i))))) =O[L] (fun i => (A i).u) →
        (fun i => f (q i) - f (turnQ l.psi (Loop.quat (l.map (x i))))) =O[L] fun i => (A i).u := fun {f g} h1 h2 => by
      have h3 : (fun i => (g i).val - f (q i)) =O[L] fun i => (A i).u := IsBigO.of_bound 16 (h1.mono fun i hi => by
        rw [Real.norm_eq_abs, Real.norm_eq_abs, abs_of_nonneg (A i).u_nonneg]; exact hi)
      exact (h2.sub h3).congr_left fun i => by ring
    have hn : ∀ᶠ i in L, _ := (hu.and hnear).mono fun i hi => near_normalized hi.1 hi.2
    have ow := ho (f := Quat.w) (hn.mono fun i hi => hi.1) (isBigO_of_trk hs.ori.1 (hori.mono fun i hi => congrArg Quat.w hi))
    have ox := ho (f := Quat.x) (hn.mono fun i hi => hi.2.1) (isBigO_of_trk hs.ori.2.1 (hori.mono fun i hi => congrArg Quat.x hi))
    have oy := ho (f := Quat.y) (hn.mono fun i hi => hi.2.2.1) (isBigO_of_trk hs.ori.2.2.1 (hori.mono fun i hi => congrArg Quat.y hi))
    have oz := ho (f := Quat.z) (hn.mono fun i hi => hi.2.2.2) (isBigO_of_trk hs.ori.2.2.2 (hori.mono fun i hi => congrArg Quat.z hi))
    have hb : ∀ y, Loop.quat y = backQ l.psi (turnQ l.psi (Loop.quat y)) := fun y => eq_backQ (isTurned_turnQ _ _)
    refine isBigO_pi.2 fun k => ?_
    cases k with
    | pos j => exact isBigO_of_trk (hs.pos j) (hm.mono fun i hi => by simpa using hi.pos j)
    | vel j => exact isBigO_of_trk (hs.vel j) (hm.mono fun i hi => by simpa using hi.vel j)
    | om j => exact isBigO_of_trk (hs.angVel j) (hm.mono fun i hi => hi.angVel j)
    | mot j => exact isBigO_of_trk (hs.motVel j) (hm.mono fun i hi => hi.motVel j)
    | ori j =>
      match j with
      | 0 =>
        refine ((ow.const_mul_left (Real.cos (l.psi / 2))).add (oz.const_mul_left (Real.sin (l.psi / 2)))).congr_left fun i => ?_
        have := congrArg Quat.w (hb (l.map (x i)))
        show _ = (backQ l.psi (q i)).w - (Loop.quat (l.map (x i))).w
        rw [this]; simp only [backQ]; ring
      | 1 =>
        refine ((ox.const_mul_left (Real.cos (l.psi / 2))).add (oy.const_mul_left (Real.sin (l.psi / 2)))).congr_left fun i => ?_
        have := congrArg Quat.x (hb (l.map (x i)))
        show _ = (backQ l.psi (q i)).x - (Loop.quat (l.map (x i))).x
        rw [this]; simp only [backQ]; ring
      | 2 =>
        refine ((oy.const_mul_left (Real.cos (l.psi / 2))).sub (ox.const_mul_left (Real.sin (l.psi / 2)))).congr_left fun i => ?_
        have := congrArg Quat.y (hb (l.map (x i)))
        show _ = (backQ l.psi (q i)).y - (Loop.quat (l.map (x i))).y
        rw [this]; simp only [backQ]; ring
      | 3 =>
        refine ((oz.const_mul_left (Real.cos (l.psi / 2))).sub (ow.const_mul_left (Real.sin (l.psi / 2)))).congr_left fun i => ?_
        have := congrArg Quat.z (hb (l.map (x i)))
        show _ = (backQ l.psi (q i)).z - (Loop.quat (l.map (x i))).z
        rw [this]; simp only [backQ]; ring
    | iP j =>
      by_cases hz : (l.P j).ki = 0
      · refine (isBigO_zero _ _).congr_left fun i => ?_
        simp [HV.rounded, HV.withR, HV.withV, HV.withP, Loop.map, nextInt, hz]
      · refine (hk.posInt j hz).1.congr' (hk.pos.mono fun i hi => ?_) .rfl
        have hf : (rnext (p' i) (ms' i) (δ i) (s i)).ctl.pos.firstRun = false := hi.2
        simp [HV.rounded, HV.withR, HV.withV, HV.withP, hz, valPid, hf, valV]; rfl
    | fP j =>
      by_cases hz : (l.P j).kd = 0
      · refine (isBigO_zero _ _).congr_left fun i => ?_
        simp [HV.rounded, HV.withR, HV.withV, HV.withP, Loop.map, nextFil, hz]
      · refine (hk.posFil j hz).1.congr' (hk.pos.mono fun i hi => ?_) .rfl
        have hf : (rnext (p' i) (ms' i) (δ i) (s i)).ctl.pos.firstRun = false := hi.2
        simp [HV.rounded, HV.withR, HV.withV, HV.withP, hz, valPid, hf, valV]; rfl
    | eP j =>
      refine (hk.posErr j).1.congr' (hk.pos.mono fun i hi => ?_) .rfl
      have hf : (rnext (p' i) (ms' i) (δ i) (s i)).ctl.pos.firstRun = false := hi.2
      simp [HV.rounded, HV.withR, HV.withV, HV.withP, valPid, hf, valV]; rfl
    | iV j =>
      by_cases hz : (l.V j).ki = 0
      · refine (isBigO_zero _ _).congr_left fun i => ?_
        simp [HV.rounded, HV.withR, HV.withV, Loop.map, nextInt, hz]
      · refine (hk.velInt j hz).1.congr' (hk.vel.mono fun i hi => ?_) .rfl
        have hf : (rnext (p' i) (ms' i) (δ i) (s i)).ctl.vel.firstRun = false := hi.2
        simp [HV.rounded, HV.withR, HV.withV, hz, valPid, hf, valV]; rfl
    | fV j =>
      by_cases hz : (l.V j).kd = 0
      · refine (isBigO_zero _ _).congr_left fun i => ?_
        simp [HV.rounded, HV.withR, HV.withV, Loop.map, nextFil, hz]
      · refine (hk.velFil j hz).1.congr' (hk.vel.mono fun i hi => ?_) .rfl
        have hf : (rnext (p' i) (ms' i) (δ i) (s i)).ctl.vel.firstRun = false := hi.2
        simp [HV.rounded, HV.withR, HV.withV, hz, valPid, hf, valV]; rfl
    | eV j =>
      refine (hk.velErr j).1.congr' (hk.vel.mono fun i hi => ?_) .rfl
      have hf : (rnext (p' i) (ms' i) (δ i) (s i)).ctl.vel.firstRun = false := hi.2
      simp [HV.rounded, HV.withR, HV.withV, valPid, hf, valV]; rfl
    | iR j =>
      by_cases hz : (l.R j).ki = 0
      · refine (isBigO_zero _ _).congr_left fun i => ?_
        simp [HV.rounded, HV.withR, Loop.map, nextInt, hz]
      · refine (hk.rateInt j hz).1.congr' (hk.rate.mono fun i hi => ?_) .rfl
        have hf : (rnext (p' i) (ms' i) (δ i) (s i)).ctl.indi.pid.firstRun = false := hi.2
        simp [HV.rounded, HV.withR, hz, valPid, hf, valV]; rfl
    | fR j =>
      by_cases hz : (l.R j).kd = 0
      · refine (isBigO_zero _ _).congr_left fun i => ?_
        simp [HV.rounded, HV.withR, Loop.map, nextFil, hz]
      · refine (hk.rateFil j hz).1.congr' (hk.rate.mono fun i hi => ?_) .rfl
        have hf : (rnext (p' i) (ms' i) (δ i) (s i)).ctl.indi.pid.firstRun = false := hi.2
        simp [HV.rounded, HV.withR, hz, valPid, hf, valV]; rfl
    | eR j =>
      refine (hk.rateErr j).1.congr' (hk.rate.mono fun i hi => ?_) .rfl
      have hf : (rnext (p' i) (ms' i) (δ i) (s i)).ctl.indi.pid.firstRun = false := hi.2
      simp [HV.rounded, HV.withR, valPid, hf, valV]; rfl

end

/-! ## Every arithmetic -/

/-- A vehicle in position hold in some arithmetic. -/
structure RCase (κ : ℝ) (p : ModelParams ℝ) (ms : Fin 4 → Motor ℝ) (l : Loop) (cP cV cR : Pid ℝ 3) where
  A : Rounding
  noise : Noise (Fl A)
  s : Sim (Fl A) 4
  x : HV → ℝ
  dt : Fl A
  acc : A.Accurate κ
  period : |dt.val - l.dt| ≤ κ * A.u
  hov : RHovers κ s p ms l cP cV cR x

section
variable {κ : ℝ} {p : ModelParams ℝ} {ms : Fin 4 → Motor ℝ} {l : Loop} {cP cV cR : Pid ℝ 3} {c : ℝ × ℝ} {w : ℝ}

/-- One cycle in an arithmetic that is fine enough. -/
lemma rounded_uniform (hc : Loop.Is l p ms) (hP : Tuned cP l.P) (hV : Tuned cV l.V) (hR : Tuned cR l.R) (ht : l.Trim c w)
    (hr : Loop.Room l ms cP cV cR c w) (h1 : l.dt < 1 / 100) :
    ∃ r > 0, ∃ K ≥ 0, ∀ (A : Rounding) [Noise (Fl A)] (s : Sim (Fl A) 4) x (dt : Fl A), A.Accurate κ →
      |dt.val - l.dt| ≤ κ * A.u → RHovers κ s p ms l cP cV cR x → ‖x - l.rest c w‖ < r → A.u < r → ∃ t y, (∀ os u, Sim.Runs t os u →
        Sim.Runs s (.updateController dt :: .updateDynamics dt :: os) u) ∧
      RHovers κ t p ms l cP cV cR y ∧ ‖y - l.map x‖ ≤ K * A.u := by
  by_cases hrot : Model.motorFn 4 p.motors = some ms
  swap
  · exact ⟨1, one_pos, 0, le_rfl, fun A _ s x _ _ _ h => absurd h.rotors hrot⟩
  set f : RCase κ p ms l cP cV cR → ℝ × (HV → ℝ) := fun i => (i.A.u, i.x) with hf
  set L := comap f (𝓝 (0, l.rest c w)) with hL
  have ht1 : Tendsto f L (𝓝 (0, l.rest c w)) := tendsto_comap
  have hfine : Fine L fun i : RCase κ p ms l cP cV cR => i.A :=
    ⟨(continuous_fst.tendsto _).comp ht1, κ, fun i => i.acc⟩
  let _ : ∀ i : RCase κ p ms l cP cV cR, Noise (Fl i.A) := fun i => i.noise
  obtain ⟨t', y, hy, hO⟩ := rounded_cycle (L := L) (s := fun i => i.s) (fun i => i.hov) ((continuous_snd.tendsto _).comp ht1)
    (fun i => i.acc) hc hP hV hR ht hr hrot h1 (δ := fun i => i.dt) (.near (fun i => i.period) tendsto_const_nhds)
  obtain ⟨K, hK, hb⟩ := hO.exists_nonneg
  have hev := hy.and hb.bound
  rw [hL, eventually_comap, Metric.eventually_nhds_iff] at hev
  obtain ⟨r, hr0, H⟩ := hev
  refine ⟨r, hr0, K, hK, fun A _ s x dt ha hd hh hx hu => ?_⟩
  have := H (y := (A.u, x)) (by
    rw [Prod.dist_eq]
    refine max_lt ?_ ?_
    · rw [Real.dist_eq, sub_zero, abs_of_nonneg A.u_nonneg]; exact hu
    · rw [dist_eq_norm]; exact hx) ⟨A, inferInstance, s, x, dt, ha, hd, hh⟩ rfl
  obtain ⟨⟨g1, g2⟩, g3⟩ := this
  refine ⟨_, _, g1, g2, ?_⟩
  rwa [Real.norm_eq_abs, abs_of_nonneg A.u_nonneg] at g3

/-- `n` cycles of a control update and a dynamics update. -/
def roundedCycles {A : Rounding} (dt : Fl A) (n : ℕ) : List (SimOp (Fl A) 4) :=
  (List.replicate n [.updateController dt, .updateDynamics dt]).flatten

/-- **C151.** Under the conditions of C139 position hold works in rounded arithmetic: every flight which starts near the
trimmed hover comes within a multiple of the unit roundoff of it at a geometric rate and stays there. -/
theorem C151_attracts (p : ModelParams ℝ) (ms : Fin 4 → Motor ℝ) (l : Loop) (cP cV cR : Pid ℝ 3) (c : ℝ × ℝ) (w κ : ℝ)
    (hc : Loop.Is l p ms) (hP : Tuned cP l.P) (hV : Tuned cV l.V) (hR : Tuned cR l.R) (ht : l.Trim c w)
    (hs : l.Stable w) (hr : Loop.Room l ms cP cV cR c w) (h1 : l.dt < 1 / 100) :
    ∃ r > 0, ∃ C ≥ 0, ∃ q, 0 ≤ q ∧ q < 1 ∧ ∀ (A : Rounding) [Noise (Fl A)] (s : Sim (Fl A) 4) x (dt : Fl A), A.Accurate κ →
      |dt.val - l.dt| ≤ κ * A.u → RHovers κ s p ms l cP cV cR x → ‖x - l.rest c w‖ < r → A.u < r →
      ∀ n, ∃ t y, Sim.Runs s (roundedCycles dt n) t ∧ RHovers κ t p ms l cP cV cR y ∧
        ‖y - l.rest c w‖ ≤ C * (q ^ n * ‖x - l.rest c w‖ + A.u) := by
  obtain ⟨D, hD, hpow⟩ := Loop.linearised ht hs
  obtain ⟨V, M, hM, q, q0, q1, r, hr0, v1, v2, v3⟩ := resists hD (Loop.fixed ht) hpow
  obtain ⟨r', hr', K, hK, H'⟩ := rounded_uniform (κ := κ) hc hP hV hR ht hr h1
  have q2 : 0 < 1 - q := by linarith
  set ρ := min r r' with hρ
  have hρ0 : 0 < ρ := lt_min hr0 hr'
  set C := M + M * K / (1 - q) with hC
  have hC0 : 0 < C := by positivity
  -- the invariant
  have key : ∀ (A : Rounding) [Noise (Fl A)] (dt : Fl A), A.Accurate κ → |dt.val - l.dt| ≤ κ * A.u → A.u < r' → ∀ n (s : Sim (Fl A) 4) x B, 0 ≤ B →
      RHovers κ s p ms l cP cV cR x → V (x - l.rest c w) ≤ B + M * K * A.u / (1 - q) → B + M * K * A.u / (1 - q) < ρ →
      ∃ t y, Sim.Runs s (roundedCycles dt n) t ∧ RHovers κ t p ms l cP cV cR y ∧
        V (y - l.rest c w) ≤ q ^ n * B + M * K * A.u / (1 - q) := by
    intro A _ dt ha hd hu n
    have hu0 := A.u_nonneg
    induction n with
    | zero => exact fun s x B _ h hv _ => ⟨s, x, .nil s, h, by simpa using hv⟩
    | succ n ih =>
      intro s x B hB h hv hb
      have hx : ‖x - l.rest c w‖ < ρ := (v1 _).trans_lt (hv.trans_lt hb)
      obtain ⟨t, y, t1, t2, t3⟩ := H' A s x dt ha hd h (hx.trans_le (min_le_right _ _)) hu
      have hstep := v3 x (y - l.map x) (hx.trans_le (min_le_left _ _))
      rw [add_sub_cancel] at hstep
      have hle : V (y - l.rest c w) ≤ q * B + M * K * A.u / (1 - q) := by
        have a1 : q * V (x - l.rest c w) ≤ q * (B + M * K * A.u / (1 - q)) := mul_le_mul_of_nonneg_left hv q0
        have a2 : M * ‖y - l.map x‖ ≤ M * (K * A.u) := mul_le_mul_of_nonneg_left t3 hM.le
        have a3 : q * (B + M * K * A.u / (1 - q)) + M * (K * A.u) = q * B + M * K * A.u / (1 - q) := by
          field_simp
          ring
        linarith
      obtain ⟨t', y', u1, u2, u3⟩ := ih t y (q * B) (by positivity) t2 hle (by nlinarith)
      refine ⟨t', y', t1 _ _ u1, u2, u3.trans_eq ?_⟩
      rw [pow_succ]; ring
  refine ⟨min r' (ρ / (2 * C)), by positivity, C, hC0.le, q, q0, q1, fun A _ s x dt ha hd hx hxr hur n => ?_⟩
  have hn := norm_nonneg (x - l.rest c w)
  have hu0 := A.u_nonneg
  have hsum : M * ‖x - l.rest c w‖ + M * K * A.u / (1 - q) < ρ := by
    have hxr' := hxr.trans_le (min_le_right _ _)
    have hur' := hur.trans_le (min_le_right _ _)
    rw [lt_div_iff₀ (by positivity)] at hxr' hur'
    have b1 : M * ‖x - l.rest c w‖ ≤ C * ‖x - l.rest c w‖ :=
      mul_le_mul_of_nonneg_right (le_add_of_nonneg_right (by positivity)) hn
    have b2 : M * K * A.u / (1 - q) ≤ C * A.u := by
      rw [mul_div_right_comm]
      exact mul_le_mul_of_nonneg_right (le_add_of_nonneg_left hM.le) hu0
    linarith
  have hD : 0 ≤ M * K * A.u / (1 - q) := by positivity
  obtain ⟨t, y, t1, t2, t3⟩ := key A dt ha hd (hur.trans_le (min_le_left _ _)) n s x (M * ‖x - l.rest c w‖) (by positivity) hx
    ((v2 _).trans (le_add_of_nonneg_right hD)) hsum
  refine ⟨t, y, t1, t2, (v1 _).trans (t3.trans ?_)⟩
  have b1 : q ^ n * (M * ‖x - l.rest c w‖) ≤ C * (q ^ n * ‖x - l.rest c w‖) := by
    rw [show q ^ n * (M * ‖x - l.rest c w‖) = M * (q ^ n * ‖x - l.rest c w‖) by ring]
    exact mul_le_mul_of_nonneg_right (le_add_of_nonneg_right (by positivity)) (by positivity)
  have b2 : M * K * A.u / (1 - q) ≤ C * A.u := by
    rw [mul_div_right_comm]
    exact mul_le_mul_of_nonneg_right (le_add_of_nonneg_left hM.le) hu0
  rw [mul_add]
  exact add_le_add b1 b2

/-! ## Freshly started controllers -/

lemma backQ_near {θ δ : ℝ} {a b : Quat ℝ} (hw : |a.w - b.w| ≤ δ) (hx : |a.x - b.x| ≤ δ) (hy : |a.y - b.y| ≤ δ)
    (hz : |a.z - b.z| ≤ δ) : |(backQ θ a).w - (backQ θ b).w| ≤ 2 * δ ∧ |(backQ θ a).x - (backQ θ b).x| ≤ 2 * δ ∧
      |(backQ θ a).y - (backQ θ b).y| ≤ 2 * δ ∧ |(backQ θ a).z - (backQ θ b).z| ≤ 2 * δ := by
  have hc := Real.abs_cos_le_one (θ / 2)
  have hs := Real.abs_sin_le_one (θ / 2)
  have k : ∀ u v : ℝ, |u| ≤ δ → |v| ≤ δ → |Real.cos (θ / 2) * u + Real.sin (θ / 2) * v| ≤ 2 * δ ∧
      |Real.cos (θ / 2) * u - Real.sin (θ / 2) * v| ≤ 2 * δ := fun u v hu hv => by
    have a1 : |Real.cos (θ / 2) * u| ≤ δ := by
      rw [abs_mul]; exact (mul_le_of_le_one_left (abs_nonneg _) hc).trans hu
    have a2 : |Real.sin (θ / 2) * v| ≤ δ := by
      rw [abs_mul]; exact (mul_le_of_le_one_left (abs_nonneg _) hs).trans hv
    exact ⟨(abs_add_le _ _).trans (by linarith), (abs_sub _ _).trans (by linarith)⟩
  refine ⟨?_, ?_, ?_, ?_⟩
  · rw [show (backQ θ a).w - (backQ θ b).w = Real.cos (θ / 2) * (a.w - b.w) + Real.sin (θ / 2) * (a.z - b.z) by
      simp only [backQ]; ring]
    exact (k _ _ hw hz).1
  · rw [show (backQ θ a).x - (backQ θ b).x = Real.cos (θ / 2) * (a.x - b.x) + Real.sin (θ / 2) * (a.y - b.y) by
      simp only [backQ]; ring]
    exact (k _ _ hx hy).1
  · rw [show (backQ θ a).y - (backQ θ b).y = Real.cos (θ / 2) * (a.y - b.y) - Real.sin (θ / 2) * (a.x - b.x) by
      simp only [backQ]; ring]
    exact (k _ _ hy hx).2
  · rw [show (backQ θ a).z - (backQ θ b).z = Real.cos (θ / 2) * (a.z - b.z) - Real.sin (θ / 2) * (a.w - b.w) by
      simp only [backQ]; ring]
    exact (k _ _ hz hw).2

lemma abs_shift {a b d e : ℝ} (h : |a - b| ≤ e) (h' : |b| ≤ d) : |a| ≤ d + e := by
  have := abs_add_le (a - b) b
  rw [sub_add_cancel] at this
  linarith

/-- The motion stored in a state, with the quaternion normalised. -/
lemma near_stored {A : Rounding} (hu : A.u ≤ 1 / 128) {s : State (Fl A) 4} (hn : NearUnit s.ori) {b : ℝ} :
    (NearHover (valState s) l.psi l.target w b →
      NearHover { valState s with ori := (valQ s.ori).normalized } l.psi l.target w (b + 32 * A.u)) ∧
    (NearHover { valState s with ori := (valQ s.ori).normalized } l.psi l.target w b →
      NearHover (valState s) l.psi l.target w (b + 32 * A.u)) := by
  obtain ⟨n1, n2, n3, n4⟩ := near_normalized hu hn
  have hu0 := A.u_nonneg
  have hb : ∀ {a : ℝ}, a ≤ b → a ≤ b + 32 * A.u := fun h => by linarith
  constructor
  · rintro ⟨g1, g2, ⟨o, g3, g4, g5, g6, g7⟩, g8, g9⟩
    obtain ⟨m1, m2, m3, m4⟩ := backQ_near (θ := l.psi) (a := (valQ s.ori).normalized) (b := valQ s.ori) (δ := 16 * A.u)
      (by rw [abs_sub_comm]; exact n1) (by rw [abs_sub_comm]; exact n2) (by rw [abs_sub_comm]; exact n3)
      (by rw [abs_sub_comm]; exact n4)
    obtain rfl : o = backQ l.psi (valQ s.ori) := eq_backQ g3
    exact ⟨fun i => hb (g1 i), fun i => hb (g2 i), ⟨_, isTurned_backQ _ _,
      (abs_shift (e := 2 * (16 * A.u)) (a := (backQ l.psi (valQ s.ori).normalized).w - 1) (b := (backQ l.psi (valQ s.ori)).w - 1)
        (by rw [sub_sub_sub_cancel_right]; exact m1) g4).trans (by linarith), (abs_shift m2 g5).trans (by linarith),
      (abs_shift m3 g6).trans (by linarith), (abs_shift m4 g7).trans (by linarith)⟩, fun i => hb (g8 i), fun i => hb (g9 i)⟩
  · rintro ⟨g1, g2, ⟨o, g3, g4, g5, g6, g7⟩, g8, g9⟩
    obtain ⟨m1, m2, m3, m4⟩ := backQ_near (θ := l.psi) (a := valQ s.ori) (b := (valQ s.ori).normalized) (δ := 16 * A.u) n1 n2 n3 n4
    obtain rfl : o = backQ l.psi (valQ s.ori).normalized := eq_backQ g3
    exact ⟨fun i => hb (g1 i), fun i => hb (g2 i), ⟨_, isTurned_backQ _ _,
      (abs_shift (e := 2 * (16 * A.u)) (a := (backQ l.psi (valQ s.ori)).w - 1) (b := (backQ l.psi (valQ s.ori).normalized).w - 1)
        (by rw [sub_sub_sub_cancel_right]; exact m1) g4).trans (by linarith), (abs_shift m2 g5).trans (by linarith),
      (abs_shift m3 g6).trans (by linarith), (abs_shift m4 g7).trans (by linarith)⟩, fun i => hb (g8 i), fun i => hb (g9 i)⟩

lemma NearHover.mono {s : State ℝ 4} {psi b b' : ℝ} {target : Vec 3 ℝ} (h : NearHover s psi target w b) (hb : b ≤ b') :
    NearHover s psi target w b' := by
  obtain ⟨g1, g2, ⟨o, g3, g4, g5, g6, g7⟩, g8, g9⟩ := h
  exact ⟨fun i => (g1 i).trans hb, fun i => (g2 i).trans hb,
    ⟨o, g3, g4.trans hb, g5.trans hb, g6.trans hb, g7.trans hb⟩, fun i => (g8 i).trans hb, fun j => (g9 j).trans hb⟩

lemma RHovers.stored {A : Rounding} {s : Sim (Fl A) 4} {x : HV → ℝ} (h : RHovers κ s p ms l cP cV cR x) :
    NearHover { valState s.dyn.state with ori := (valQ s.dyn.state.ori).normalized } l.psi l.target w ‖x - l.rest c w‖ := by
  have key : ∀ k, |x k - l.rest c w k| ≤ ‖x - l.rest c w‖ := fun k => norm_le_pi_norm (x - l.rest c w) k
  refine ⟨fun i => ?_, fun i => ?_, ⟨_, h.ori, ?_, ?_, ?_, ?_⟩, fun i => ?_, fun j => ?_⟩
  · show |(s.dyn.state.pos i).val - _| ≤ _
    rw [h.pos]; exact key (.pos i)
  · show |(s.dyn.state.vel i).val| ≤ _
    rw [h.vel]; simpa [Loop.rest] using key (.vel i)
  · simpa [Loop.rest, Loop.quat] using key (.ori 0)
  · simpa [Loop.rest, Loop.quat] using key (.ori 1)
  · simpa [Loop.rest, Loop.quat] using key (.ori 2)
  · simpa [Loop.rest, Loop.quat] using key (.ori 3)
  · show |(s.dyn.state.angVel i).val| ≤ _
    rw [h.angVel]; simpa [Loop.rest] using key (.om i)
  · show |(s.dyn.state.motVel j).val - w| ≤ _
    rw [h.motVel]; exact key (.mot j)

/-- **C151, freshly started controllers.** A flight that starts within `b` of hover with controllers which have not run yet
is within `C (q^n b + u)` of it after `n` cycles, in every arithmetic whose unit roundoff `u` is small enough. -/
theorem C151_settles (p : ModelParams ℝ) (ms : Fin 4 → Motor ℝ) (l : Loop) (cP cV cR : Pid ℝ 3) (w κ : ℝ)
    (hc : Loop.Is l p ms) (hP : Tuned cP l.P) (hV : Tuned cV l.V) (hR : Tuned cR l.R) (ht : l.Trim 0 w)
    (hs : l.Stable w) (hr : Loop.Room l ms cP cV cR 0 w) (h1 : l.dt < 1 / 100) :
    ∃ r > 0, ∃ C ≥ 0, ∃ q, 0 ≤ q ∧ q < 1 ∧ ∀ (A : Rounding) [Noise (Fl A)] (s : Sim (Fl A) 4) b (dt : Fl A), A.Accurate κ →
      |dt.val - l.dt| ≤ κ * A.u → RHold κ s p ms l cP cV cR → NearUnit s.dyn.state.ori →
      s.ctl.pos.firstRun = true → s.ctl.vel.firstRun = true → s.ctl.indi.pid.firstRun = true →
      NearHover (valState s.dyn.state) l.psi l.target w b → b < r → A.u < r →
      ∀ n, ∃ t, Sim.Runs s (roundedCycles dt n) t ∧ RHold κ t p ms l cP cV cR ∧ NearUnit t.dyn.state.ori ∧
        NearHover (valState t.dyn.state) l.psi l.target w (C * (q ^ n * b + A.u)) := by
  obtain ⟨r, hr0, C, hC, q, q0, q1, H⟩ := C151_attracts p ms l cP cV cR 0 w κ hc hP hV hR ht hs hr h1
  obtain ⟨r', hr', K, hK, HK⟩ := HV.start_near ht
  refine ⟨min (1 / 128) (min r (min (r' / 64) (r / K / 64))), by positivity, C * (33 * K + 1) + 32, by positivity, q, q0, q1,
    fun A _ s b dt ha hd hh hn f1 f2 f3 hb hbr hur n => ?_⟩
  simp only [lt_min_iff] at hbr hur
  have hu0 := A.u_nonneg
  have hu : A.u ≤ 1 / 128 := hur.1.le
  have hst := (near_stored hu hn).1 hb
  obtain ⟨o, ho, hq⟩ := hst.ori
  have hb0 : 0 ≤ b := (abs_nonneg _).trans (hb.vel 0)
  have m1 : ‖HV.motion (valState s.dyn.state) o - l.rest 0 w‖ ≤ b + 32 * A.u := by
    have e : HV.motion (valState s.dyn.state) o =
        HV.motion { valState s.dyn.state with ori := (valQ s.dyn.state.ori).normalized } o := by
      funext k; cases k <;> rfl
    rw [e]
    exact HV.motion_near (by positivity) hst hq
  have m2 : ‖HV.rounded s l o - l.rest 0 w‖ ≤ K * (b + 32 * A.u) :=
    (HK _ (valPid s.ctl.pos) (valPid s.ctl.vel) (valPid s.ctl.indi.pid) f1 f2 f3
      (m1.trans_lt (by linarith [hbr.2.2.1, hur.2.2.1]))).trans (mul_le_mul_of_nonneg_left m1 hK.le)
  have m3 : K * (b + 32 * A.u) < r := by
    have : b + 32 * A.u < r / K := by linarith [hbr.2.2.2, hur.2.2.2]
    rw [lt_div_iff₀ hK] at this
    linarith
  obtain ⟨t, y, t1, t2, t3⟩ := H A s _ dt ha hd (hh.hovers hu hn ho) (m2.trans_lt m3) hur.2.1 n
  refine ⟨t, t1, t2.toRHold, t2.near, ((near_stored hu t2.near).2 (t2.stored (c := 0) (w := w))).mono ?_⟩
  have hqn : 0 ≤ q ^ n := by positivity
  have hqn1 : q ^ n ≤ 1 := pow_le_one₀ q0 q1.le
  have b1 : q ^ n * ‖HV.rounded s l o - l.rest 0 w‖ ≤ q ^ n * (K * (b + 32 * A.u)) := mul_le_mul_of_nonneg_left m2 hqn
  have b2 : q ^ n * (K * (b + 32 * A.u)) ≤ K * (q ^ n * b) + 32 * (K * A.u) := by
    have : q ^ n * (K * A.u) ≤ 1 * (K * A.u) := mul_le_mul_of_nonneg_right hqn1 (by positivity)
    nlinarith
  have b3 : C * (q ^ n * ‖HV.rounded s l o - l.rest 0 w‖ + A.u) ≤ C * ((33 * K + 1) * (q ^ n * b + A.u)) := by
    refine mul_le_mul_of_nonneg_left ?_ hC
    have : 0 ≤ K * (q ^ n * b) := by positivity
    have : 0 ≤ K * A.u := by positivity
    have : 0 ≤ q ^ n * b := by positivity
    nlinarith
  have : 0 ≤ q ^ n * b := by positivity
  nlinarith

end

end Verif.Props
