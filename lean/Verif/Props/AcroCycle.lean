import Verif.Props.Track
import Verif.Lemmas.RateDeriv

/-!
# A control cycle in acro mode

Definitions for C146 and the reduction of a cycle to the numbers that describe the rotation of the vehicle.
-/

namespace Verif.Props

open Verif Flt Spec Stability Filter Topology

/-- An armed vehicle in acro mode; its rate controller has the configuration `cR` and knows the vehicle. Nothing is assumed about
position, velocity, attitude, external force or the other controllers. -/
structure InAcro (s : Sim ℝ 4) (p : ModelParams ℝ) (ms : Fin 4 → Motor ℝ) (l : Loop) (cR : Pid ℝ 3) : Prop where
  runs : s.dyn.model.core = some (Model.coreOf p ms)
  rotors : Model.motorFn 4 p.motors = some ms
  armed : s.armed = true
  mode : s.mode = .acro
  floor : s.floorEnable = false
  knowsInertia : s.ctl.indi.inertia = Matrix.diagonal l.inertia
  knowsRotors : ∀ j r, s.ctl.indi.mixerInv j (Fin.natAdd 2 r) = l.alloc j r
  rateConfig : s.ctl.indi.pid.SameConfig cR

/-- A vehicle in acro mode whose rates, rotor speeds and rate controller's memory are given by the numbers `x`, the rates `d` being
requested. -/
structure Spins (s : Sim ℝ 4) (p : ModelParams ℝ) (ms : Fin 4 → Motor ℝ) (l : Loop) (cR : Pid ℝ 3) (x : RV → ℝ)
    (d : Vec 3 ℝ) : Prop extends InAcro s p ms l cR where
  angVel : ∀ i, s.dyn.state.angVel i = x (.om i)
  motVel : ∀ j, s.dyn.state.motVel j = x (.mot j)
  rateMemory : Held s.ctl.indi.pid l.R (Loop.rateErr x d) (fun i => x (.iR i)) (fun i => x (.fR i)) fun i => x (.eR i)

/-- No limit is reached in the cycle. -/
structure Loop.SpinInside (l : Loop) (ms : Fin 4 → Motor ℝ) (cR : Pid ℝ 3) (T : ℝ) (x : RV → ℝ) (d : Vec 3 ℝ) : Prop where
  rate : Unwound cR l.R fun i => x (.iR i)
  rate' : Unwound cR l.R fun i => l.rateMap T x d (.iR i)
  rateOut : Unbounded cR (l.rateSpin x d)
  command : ∀ j, (ms j).minSpeed < l.rateCmd T x d j ∧ l.rateCmd T x d j < (ms j).maxSpeed
  speed : ∀ j, (ms j).minSpeed < l.rateMap T x d (.mot j) ∧ l.rateMap T x d (.mot j) < (ms j).maxSpeed

/-- Rest is within the limits of the rate controller and the rotors. -/
structure Loop.SpinRoom (l : Loop) (ms : Fin 4 → Motor ℝ) (cR : Pid ℝ 3) (w : ℝ) : Prop where
  rate : Unwound cR l.R 0
  rateOut : Unbounded cR 0
  speed : ∀ j, (ms j).minSpeed < w ∧ w < (ms j).maxSpeed

section
variable {s : Sim ℝ 4} {p : ModelParams ℝ} {ms : Fin 4 → Motor ℝ} {l : Loop} {cR : Pid ℝ 3} {x : RV → ℝ} {d : Vec 3 ℝ} {T w : ℝ}

lemma unwound_near {E : Type} [NormedAddCommGroup E] [NormedSpace ℝ E] {e0 : E} {b : Pid ℝ 3} {k : Fin 3 → PidTuning}
    {f : E → Vec 3 ℝ} {v : Vec 3 ℝ} (h : Unwound b k v) (hv : ∀ i, f e0 i = v i) (hc : ∀ i, ContinuousAt (fun e => f e i) e0) :
    ∀ᶠ e in 𝓝 e0, Unwound b k (f e) := by
  rcases h with h | h
  · exact .of_forall fun _ => .inl h
  · have : ∀ᶠ e in 𝓝 e0, ∀ i, (k i).ki ≠ 0 → |f e i| < b.antiwindup i := by
      rw [eventually_all]
      intro i
      by_cases hk : (k i).ki = 0
      · exact .of_forall fun _ h => absurd hk h
      · have h1 := (hc i).abs
        exact (h1.eventually (gt_mem_nhds (by simp only [hv]; exact h i hk))).mono fun _ h _ => h
    exact this.mono fun _ h => .inr h

lemma unbounded_near {E : Type} [NormedAddCommGroup E] [NormedSpace ℝ E] {e0 : E} {b : Pid ℝ 3}
    {f : E → Vec 3 ℝ} {v : Vec 3 ℝ} (h : Unbounded b v) (hv : ∀ i, f e0 i = v i) (hc : ∀ i, ContinuousAt (fun e => f e i) e0) :
    ∀ᶠ e in 𝓝 e0, Unbounded b (f e) := by
  by_cases hb : b.satFlag = true
  · have : ∀ᶠ e in 𝓝 e0, ∀ i, b.lower i < f e i ∧ f e i < b.upper i := by
      rw [eventually_all]
      intro i
      exact ((hc i).eventually (lt_mem_nhds (by simp only [hv]; exact (h hb i).1))).and
        ((hc i).eventually (gt_mem_nhds (by simp only [hv]; exact (h hb i).2)))
    exact this.mono fun _ h _ => h
  · exact .of_forall fun _ h => absurd h hb

/-- No limit is reached near rest. -/
lemma Loop.SpinRoom.near (hr : Loop.SpinRoom l ms cR w) (h : l.SpinTrim T w) :
    ∃ r > 0, ∀ x d, ‖x - Loop.rateRest w‖ < r → ‖d‖ < r → Loop.SpinInside l ms cR T x d := by
  set z : Loop.RateSpace := (Loop.rateRest w, 0) with hz
  have e1 : ∀ᶠ e in 𝓝 z, Unwound cR l.R fun i => e.1 (.iR i) :=
    unwound_near (f := fun (e : Loop.RateSpace) i => e.1 (.iR i)) hr.rate (fun _ => rfl) fun i => (Loop.s_co w (.iR i)).continuousAt
  have e2 : ∀ᶠ e in 𝓝 z, Unwound cR l.R fun i => l.rateMap T e.1 e.2 (.iR i) :=
    unwound_near (f := fun (e : Loop.RateSpace) i => l.rateMap T e.1 e.2 (.iR i)) hr.rate (fun i => (Loop.s_map h (.iR i)).1)
      fun i => (Loop.s_map h (.iR i)).continuousAt
  have e3 : ∀ᶠ e in 𝓝 z, Unbounded cR (l.rateSpin e.1 e.2) :=
    unbounded_near (f := fun e : Loop.RateSpace => l.rateSpin e.1 e.2) hr.rateOut (fun i => (Loop.s_spin w i).1)
      fun i => (Loop.s_spin w i).continuousAt
  have e4 : ∀ᶠ e in 𝓝 z, ∀ j, (ms j).minSpeed < l.rateCmd T e.1 e.2 j ∧ l.rateCmd T e.1 e.2 j < (ms j).maxSpeed := by
    rw [eventually_all]
    intro j
    have hv := (Loop.s_cmd h j).1
    exact ((Loop.s_cmd h j).continuousAt.eventually (lt_mem_nhds (lt_of_lt_of_eq (hr.speed j).1 hv.symm))).and
      ((Loop.s_cmd h j).continuousAt.eventually (gt_mem_nhds (lt_of_eq_of_lt hv (hr.speed j).2)))
  have e5 : ∀ᶠ e in 𝓝 z, ∀ j, (ms j).minSpeed < l.rateMap T e.1 e.2 (.mot j) ∧
      l.rateMap T e.1 e.2 (.mot j) < (ms j).maxSpeed := by
    rw [eventually_all]
    intro j
    have hv : l.rateMap T z.1 z.2 (.mot j) = w := (Loop.s_map h (.mot j)).1
    exact ((Loop.s_map h (.mot j)).continuousAt.eventually (lt_mem_nhds (lt_of_lt_of_eq (hr.speed j).1 hv.symm))).and
      ((Loop.s_map h (.mot j)).continuousAt.eventually (gt_mem_nhds (lt_of_eq_of_lt hv (hr.speed j).2)))
  have := (e1.and (e2.and e3)).and (e4.and e5)
  rw [Metric.eventually_nhds_iff] at this
  obtain ⟨r, hr, H⟩ := this
  refine ⟨r, hr, fun x d hx hd => ?_⟩
  obtain ⟨⟨h1, h2, h3⟩, h4, h5⟩ := @H (x, d) (by
    rw [dist_eq_norm, hz]
    exact max_lt hx (by simpa using hd))
  exact ⟨h1, h2, h3, h4, h5⟩

/-- What the rate stage computes. -/
lemma Spins.control (h : Spins s p ms l cR x d) (hR : Tuned cR l.R) (hi : Loop.SpinInside l ms cR T x d) :
    (s.ctl.indi.acroToMotor s.dyn.state.angVel T d l.dt).2 = l.rateCmd T x d ∧
    (s.ctl.indi.acroToMotor s.dyn.state.angVel T d l.dt).1.pid.SameConfig cR ∧
    ∀ e, Held (s.ctl.indi.acroToMotor s.dyn.state.angVel T d l.dt).1.pid l.R e (fun i => l.rateMap T x d (.iR i))
      (fun i => l.rateMap T x d (.fR i)) fun i => l.rateMap T x d (.eR i) := by
  obtain ⟨o7, o8, o9⟩ := hR.control (dt := l.dt) h.rateConfig h.rateMemory hi.rate hi.rate' hi.rateOut
  have hge : Pid.getError s.dyn.state.angVel d = Loop.rateErr x d := by
    ext i; simp [Pid.getError, flt, h.angVel, Loop.rateErr]
  refine ⟨?_, by simp only [Indi.acroToMotor, hge]; exact o8, by simp only [Indi.acroToMotor, hge]; exact o9⟩
  simp only [Indi.acroToMotor, hge, o7, h.knowsInertia]
  rw [sqrtKeepSign_real]
  have hsq : ∀ j, mv s.ctl.indi.mixerInv ![(![lit 0, lit 0, T] : Vec 3 ℝ) 0,
      (![lit 0, lit 0, T] : Vec 3 ℝ) 1, (![lit 0, lit 0, T] : Vec 3 ℝ) 2,
      (vadd (mv (Matrix.diagonal l.inertia) fun i => respond (.id ℝ) (l.R i) l.dt (x (.iR i)) (x (.fR i)) (x (.eR i))
        (Loop.rateErr x d i)) (cross d (mv (Matrix.diagonal l.inertia) d)) : Vec 3 ℝ) 0,
      (vadd (mv (Matrix.diagonal l.inertia) fun i => respond (.id ℝ) (l.R i) l.dt (x (.iR i)) (x (.fR i)) (x (.eR i))
        (Loop.rateErr x d i)) (cross d (mv (Matrix.diagonal l.inertia) d)) : Vec 3 ℝ) 1,
      (vadd (mv (Matrix.diagonal l.inertia) fun i => respond (.id ℝ) (l.R i) l.dt (x (.iR i)) (x (.fR i)) (x (.eR i))
        (Loop.rateErr x d i)) (cross d (mv (Matrix.diagonal l.inertia) d)) : Vec 3 ℝ) 2] j = l.rateSquare T x d j := by
    intro j
    have k := h.knowsRotors j
    have k0 := k 0
    have k1 := k 1
    have k2 := k 2
    have k3 := k 3
    simp only [show Fin.natAdd 2 (0 : Fin 4) = (2 : Fin 6) from rfl, show Fin.natAdd 2 (1 : Fin 4) = (3 : Fin 6) from rfl,
      show Fin.natAdd 2 (2 : Fin 4) = (4 : Fin 6) from rfl, show Fin.natAdd 2 (3 : Fin 4) = (5 : Fin 6) from rfl] at k0 k1 k2 k3
    have hd : ∀ v : Vec 3 ℝ, (Matrix.diagonal l.inertia).mulVec v = fun i => l.inertia i * v i := fun v => by
      ext i; rw [Matrix.mulVec_diagonal]
    simp only [flt, hd, Matrix.mulVec, dotProduct, Fin.sum_univ_six]
    simp only [Loop.rateSquare, Fin.sum_univ_four, Loop.rateWrench, Loop.rateTorque, Loop.rateSpin]
    simp [k0, k1, k2, k3]
  ext j
  exact (congrArg (fun a : ℝ => √|a| * sign a) (hsq j))

variable [Noise ℝ]

omit [Noise ℝ] in
/-- Torque of the rotors. -/
lemma Loop.Craft.rateTorques (h : Loop.Craft l p ms) {s : State ℝ 4} (hm : ∀ j, s.motVel j = x (.mot j)) (wd : Vec 4 ℝ)
    (hw : wd = l.rateAcc T x d) :
    ∑ j, rotorTorque (ms j) (s.motVel j) (wd j) = fun i =>
      l.rateLift x i.succ + (![0, 0, l.lag * ∑ j, l.mix 3 j * l.rateAcc T x d j] : Vec 3 ℝ) i := by
  subst hw
  have hl := h.lift
  have hr := h.roll
  have hp := h.pitch
  have hy := h.yaw
  have hwh : ∀ j, ((ms j).dir : ℝ) * (ms j).inertia = l.lag * ((ms j).dir * (ms j).kt) := fun j => by
    rw [h.wheel, hy]
  ext i
  rw [Finset.sum_apply]
  simp only [rotorTorque, rotorForce, h.upright, Matrix.one_mulVec, hm, Loop.rateLift, Finset.mul_sum]
  fin_cases i
  · simp [cross_apply]
    refine Finset.sum_congr rfl fun j _ => ?_
    rw [hr]; ring
  · simp [cross_apply]
    rw [← Finset.sum_neg_distrib]
    refine Finset.sum_congr rfl fun j _ => ?_
    rw [hp]; ring
  · simp [cross_apply]
    rw [← Finset.sum_add_distrib]
    refine Finset.sum_congr rfl fun j _ => ?_
    rw [hy]
    linear_combination (l.rateAcc T x d j) * hwh j

/-- A dynamics update in which the rotors stay within their limits. -/
lemma Spins.turned {v : Sim ℝ 4} (ha : ∀ i, v.dyn.state.angVel i = x (.om i)) (hmv : ∀ j, v.dyn.state.motVel j = x (.mot j))
    (hc : Loop.Craft l p ms) (hJ : ∀ i, l.inertia i ≠ 0) (h0 : 0 < l.dt) (h1 : l.dt ≤ 1 / 100)
    (hruns : v.dyn.model.core = some (Model.coreOf p ms)) (hrot : Model.motorFn 4 p.motors = some ms)
    (hfl : v.floorEnable = false) (hact : v.actuation = l.rateCmd T x d)
    (hcmd : ∀ j, (ms j).minSpeed < l.rateCmd T x d j ∧ l.rateCmd T x d j < (ms j).maxSpeed)
    (hspd : ∀ j, (ms j).minSpeed < l.rateMap T x d (.mot j) ∧ l.rateMap T x d (.mot j) < (ms j).maxSpeed) :
    ∃ e, v.updateDynamics l.dt = .ok { v with extForce := vzero, dyn := e, floorCollision := false } ∧
      e.model.core = some (Model.coreOf p ms) ∧
      e.model = (if !v.floorCollision then v.dyn.model.setNoise (Model.coreOf p ms) l.dt else v.dyn.model.disableNoise) ∧
      (∀ i, e.state.angVel i = l.rateMap T x d (.om i) + l.dt * (e.model.stochForce i / l.inertia i)) ∧
      ∀ j, e.state.motVel j = l.rateMap T x d (.mot j) := by
  have hlim : ∀ i, (ms i).minSpeed ≤ (ms i).maxSpeed := fun i => ((hcmd i).1.trans (hcmd i).2).le
  have hnb : ∀ d, ({ v with dyn := d } : Sim ℝ 4).belowFloor = false := fun d => by
    simp [Sim.belowFloor, hfl]
  have hp : v.dyn.process v.actuation l.dt v.extForce (!v.floorCollision) =
      .ok (Dyn.eulerStep (Model.coreOf p ms) ms v.dyn v.actuation l.dt v.extForce (!v.floorCollision)) := by
    rw [Dyn.process_small_real _ _ _ _ h0 h1]
    have hcl : Dyn.clampOk ms = true := by simp [Dyn.clampOk, flt, hlim]
    simp [Dyn.singleStep, hruns, show (Model.coreOf p ms).params.motors = p.motors from rfl, hrot, hcl]
  set e := Dyn.eulerStep (Model.coreOf p ms) ms v.dyn v.actuation l.dt v.extForce (!v.floorCollision) with hd
  have hma : e.state.motAcc = l.rateAcc T x d := by
    rw [hd, Dyn.es_motAcc, hact]
    funext i
    rw [clampVal_real, if_neg (not_lt.2 (hcmd i).1.le), if_neg (not_lt.2 (hcmd i).2.le), hc.lagging, hmv]
    rfl
  have hmv' : ∀ j, e.state.motVel j = l.rateMap T x d (.mot j) := by
    intro j
    have e1 : v.dyn.state.motVel j + l.dt * e.state.motAcc j = l.rateMap T x d (.mot j) := by
      rw [hma, hmv]; rfl
    rw [hd, Dyn.es_motVel, ← hd]
    simp only [e1, clampVal_real]
    rw [if_neg (not_lt.2 (hspd j).1.le), if_neg (not_lt.2 (hspd j).2.le)]
  have hom : v.dyn.state.angVel = Loop.rateOmega x := funext fun i => ha i
  have hq : Dyn.stepNoise (Model.coreOf p ms) v.dyn l.dt (!v.floorCollision) = e.model.stochForce := by
    rw [hd, Dyn.stepNoise_eq]
  have w2 := hc.rateTorques (T := T) (d := d) hmv e.state.motAcc hma
  have htq : e.state.torque = l.rateMoment T x d + e.model.stochForce := by
    rw [hd, Dyn.es_torque, ← hd, Model.motorTorque_coreOf, hq, w2, aeroMoment_real, hom]
    simp only [Model.coreOf, hc.aero, hc.inertia]
    ext i
    have hdg : (Matrix.diagonal l.inertia).mulVec (Loop.rateOmega x) = fun i => l.inertia i * Loop.rateOmega x i := by
      ext i; rw [Matrix.mulVec_diagonal]
    rw [hdg]
    simp only [Pi.add_apply, Pi.sub_apply, Pi.neg_apply, Pi.smul_apply, smul_eq_mul, Loop.rateMoment]
    ring
  have hav : ∀ i, e.state.angVel i = l.rateMap T x d (.om i) + l.dt * (e.model.stochForce i / l.inertia i) := by
    intro i
    rw [hd, Dyn.es_angVel, Dyn.es_angAcc, ← hd, htq]
    simp only [Model.coreOf, hc.inertia, Pi.add_apply, Pi.smul_apply, ha]
    have hinv : (Matrix.diagonal l.inertia)⁻¹ = Matrix.diagonal fun i => (l.inertia i)⁻¹ := by
      refine Matrix.inv_eq_right_inv ?_
      rw [Matrix.diagonal_mul_diagonal, ← Matrix.diagonal_one]
      congr 1
      ext i
      exact mul_inv_cancel₀ (hJ i)
    rw [hinv, Matrix.mulVec_diagonal, smul_eq_mul, Loop.rateMap, Pi.add_apply]
    ring
  have hupd : v.updateDynamics l.dt = .ok { v with extForce := vzero, dyn := e, floorCollision := false } := by
    rcases Sim.updateDynamics_cases v l.dt with ⟨hb, -⟩ | ⟨ext, he, hup⟩
    · rw [show v.belowFloor = false from hnb v.dyn] at hb; simp at hb
    · have : ext = v.extForce := by
        rcases he with ⟨-, he⟩ | ⟨hb, -⟩
        · exact he
        · rw [show v.belowFloor = false from hnb v.dyn] at hb; simp at hb
      subst this
      rw [hup, hp]
      simp only
      rw [if_neg]
      simp [Sim.belowFloor, hfl]
  exact ⟨e, hupd, by rw [hd, Dyn.eulerStep_core]; exact hruns, by rw [hd, Dyn.es_model], hav, hmv'⟩

/-- A cycle in acro mode in which no limit is reached. -/
lemma Spins.cycle (h : Spins s p ms l cR x d) (hc : Loop.Craft l p ms) (hR : Tuned cR l.R) (hJ : ∀ i, l.inertia i ≠ 0)
    (h0 : 0 < l.dt) (h1 : l.dt ≤ 1 / 100) (hi : Loop.SpinInside l ms cR T x d) (r1 : s.refThrust = T) (r2 : s.refAngVel = d) :
    ∃ t, (∀ os v, Sim.Runs t os v → Sim.Runs s (.updateController l.dt :: .updateDynamics l.dt :: os) v) ∧
      Model.Drawn s.dyn.model t.dyn.model (Model.coreOf p ms) l.dt ∧
      ∀ d', Spins t p ms l cR (l.rateMap T x d + l.twist t.dyn.model.stochForce) d' := by
  have hu := Sim.updateController_armed h.armed l.dt
  have hcmd : s.command s.yawRef l.dt = s.ctl.acroControl s.dyn.state.angVel T d l.dt := by
    simp only [Sim.command, h.mode, r1, r2]
  obtain ⟨k0, o8, o9⟩ := h.control hR hi
  rw [hcmd] at hu
  set v := s.updateController l.dt with hv
  have hact : v.actuation = l.rateCmd T x d := by rw [hu]; exact k0
  have hdyn : v.dyn = s.dyn := by rw [hu]
  obtain ⟨e, hupd, d1, d3, d4, d5⟩ := Spins.turned (v := v) (by rw [hdyn]; exact h.angVel) (by rw [hdyn]; exact h.motVel) hc hJ h0 h1
    (by rw [hdyn]; exact h.runs) h.rotors (by rw [hu]; exact h.floor) hact hi.command hi.speed
  refine ⟨_, fun os u hu => .ok rfl (.ok hupd hu), ?_, fun d' => ?_⟩
  · rw [hdyn] at d3
    simp only [d3]
    split
    · exact .inl rfl
    · exact .inr rfl
  · exact {
      runs := d1
      rotors := h.rotors
      armed := by rw [hu]; exact h.armed
      mode := by rw [hu]; exact h.mode
      floor := by rw [hu]; exact h.floor
      knowsInertia := by rw [hu]; exact h.knowsInertia
      knowsRotors := by rw [hu]; exact h.knowsRotors
      rateConfig := by rw [hu]; exact o8
      angVel := fun i => by rw [d4]; rfl
      motVel := fun j => by rw [d5]; simp [Loop.twist]
      rateMemory := by
        simp only [Pi.add_apply, Loop.twist, add_zero]
        rw [hu]; exact o9 _ }

/-- Calls of a program that requests the thrust `T` and the rates `d`, before every control update, from the `k`-th on. -/
noncomputable def acroCalls (dt T : ℝ) (d : ℕ → Vec 3 ℝ) : ℕ → ℕ → List (SimOp ℝ 4)
  | _, 0 => []
  | k, n + 1 => .setRefAcro T (d k) :: .updateController dt :: .updateDynamics dt :: acroCalls dt T d (k + 1) n

omit [Noise ℝ] in
lemma Spins.refer (h : Spins s p ms l cR x d) (T' : ℝ) (d' : Vec 3 ℝ) : Spins (s.setRefAcro T' d') p ms l cR x d :=
  ⟨⟨h.runs, h.rotors, h.armed, h.mode, h.floor, h.knowsInertia, h.knowsRotors, h.rateConfig⟩, h.angVel, h.motVel, h.rateMemory⟩

end

end Verif.Props
