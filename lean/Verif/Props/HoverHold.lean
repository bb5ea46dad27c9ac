import Verif.Props.HoverCycle
import Verif.Lemmas.Stability

/-!
# Position hold attracts nearby flights (C139)
-/

namespace Verif.Props

open Verif Flt Spec Stability Filter Topology

section
variable {s : Sim ℝ 4} {p : ModelParams ℝ} {ms : Fin 4 → Motor ℝ} {l : Loop} {cP cV cR : Pid ℝ 3} {x : HV → ℝ} {c : ℝ × ℝ} {w : ℝ}

/-- The trimmed hover is within the limits of the controllers and the rotors. -/
structure Loop.Room (l : Loop) (ms : Fin 4 → Motor ℝ) (cP cV cR : Pid ℝ 3) (c : ℝ × ℝ) (w : ℝ) : Prop where
  pos : Unwound cP l.P ![0, 0, c.2]
  posOut : Unbounded cP ![0, 0, (l.P 2).ki * c.2]
  vel : Unwound cV l.V ![0, 0, c.1]
  velOut : Unbounded cV ![0, 0, (l.V 2).ki * c.1 + (l.V 2).kp * ((l.P 2).ki * c.2)]
  rate : Unwound cR l.R 0
  rateOut : Unbounded cR 0
  speed : ∀ j, (ms j).minSpeed < w ∧ w < (ms j).maxSpeed

lemma Unwound.near {b : Pid ℝ 3} {k : Fin 3 → PidTuning} {F : (HV → ℝ) → Vec 3 ℝ} {x0 : HV → ℝ} {I : Vec 3 ℝ}
    (h : Unwound b k I) (hI : ∀ i, F x0 i = I i) (hF : ∀ i, ContinuousAt (fun x => F x i) x0) :
    ∀ᶠ x in 𝓝 x0, Unwound b k (F x) := by
  rcases h with h | h
  · exact .of_forall fun _ => .inl h
  · have : ∀ᶠ x in 𝓝 x0, ∀ i, (k i).ki ≠ 0 → |F x i| < b.antiwindup i := by
      rw [eventually_all]
      intro i
      by_cases hi : (k i).ki = 0
      · exact .of_forall fun _ h => absurd hi h
      · refine ((hF i).abs.eventually (gt_mem_nhds ?_)).mono fun x hx _ => hx
        simp only [hI]
        exact h i hi
    exact this.mono fun _ => .inr

lemma Unbounded.near {b : Pid ℝ 3} {F : (HV → ℝ) → Vec 3 ℝ} {x0 : HV → ℝ} {o : Vec 3 ℝ}
    (h : Unbounded b o) (ho : ∀ i, F x0 i = o i) (hF : ∀ i, ContinuousAt (fun x => F x i) x0) :
    ∀ᶠ x in 𝓝 x0, Unbounded b (F x) := by
  by_cases hs : b.satFlag = true
  · have : ∀ᶠ x in 𝓝 x0, ∀ i, b.lower i < F x i ∧ F x i < b.upper i := by
      rw [eventually_all]
      intro i
      have hi := h hs i
      rw [← ho] at hi
      exact ((hF i).eventually (lt_mem_nhds hi.1)).and ((hF i).eventually (gt_mem_nhds hi.2))
    exact this.mono fun _ hx _ => hx
  · exact .of_forall fun _ h => absurd h hs

/-- No limit is reached near the trimmed hover. -/
lemma Loop.Room.near (hr : Loop.Room l ms cP cV cR c w) (h : l.Trim c w) :
    ∃ r > 0, ∀ x, ‖x - l.rest c w‖ < r → Loop.Inside l ms cP cV cR x := by
  have r0 : ∀ i, l.rest c w (.iP i) = (![0, 0, c.2] : Vec 3 ℝ) i := fun i => by fin_cases i <;> rfl
  have e1 : ∀ᶠ x in 𝓝 (l.rest c w), Unwound cP l.P fun i => x (.iP i) :=
    hr.pos.near r0 fun i => (Loop.co l c w (.iP i)).continuousAt
  have e2 : ∀ᶠ x in 𝓝 (l.rest c w), Unwound cP l.P fun i => l.map x (.iP i) :=
    hr.pos.near (fun i => (Loop.deriv h (.iP i)).1.trans (r0 i)) fun i => (Loop.deriv h (.iP i)).continuousAt
  have e3 : ∀ᶠ x in 𝓝 (l.rest c w), Unbounded cP (l.vref x) :=
    hr.posOut.near (fun i => (Loop.d_vref (l := l) (c := c) (w := w) i).1.trans (by fin_cases i <;> rfl)) fun i => (Loop.d_vref i).continuousAt
  have r1 : ∀ i, l.rest c w (.iV i) = (![0, 0, c.1] : Vec 3 ℝ) i := fun i => by fin_cases i <;> rfl
  have e4 : ∀ᶠ x in 𝓝 (l.rest c w), Unwound cV l.V fun i => x (.iV i) :=
    hr.vel.near r1 fun i => (Loop.co l c w (.iV i)).continuousAt
  have e5 : ∀ᶠ x in 𝓝 (l.rest c w), Unwound cV l.V fun i => l.map x (.iV i) :=
    hr.vel.near (fun i => (Loop.deriv h (.iV i)).1.trans (r1 i)) fun i => (Loop.deriv h (.iV i)).continuousAt
  have e6 : ∀ᶠ x in 𝓝 (l.rest c w), Unbounded cV (l.acc x) :=
    hr.velOut.near (fun i => (Loop.d_acc h i).1.trans (by fin_cases i <;> rfl)) fun i => (Loop.d_acc h i).continuousAt
  have e7 : ∀ᶠ x in 𝓝 (l.rest c w), Unwound cR l.R fun i => x (.iR i) :=
    hr.rate.near (fun _ => rfl) fun i => (Loop.co l c w (.iR i)).continuousAt
  have e8 : ∀ᶠ x in 𝓝 (l.rest c w), Unwound cR l.R fun i => l.map x (.iR i) :=
    hr.rate.near (fun i => (Loop.deriv h (.iR i)).1) fun i => (Loop.deriv h (.iR i)).continuousAt
  have e9 : ∀ᶠ x in 𝓝 (l.rest c w), Unbounded cR (l.spin x) :=
    hr.rateOut.near (fun i => (Loop.d_spin h i).1) fun i => (Loop.d_spin h i).continuousAt
  have e10 : ∀ᶠ x in 𝓝 (l.rest c w), 0 < l.proj x :=
    (Loop.d_proj h).continuousAt.eventually (lt_mem_nhds (by rw [(Loop.d_proj h).1]; exact h.gravity))
  have e11 : ∀ᶠ x in 𝓝 (l.rest c w), ∀ j, (ms j).minSpeed < l.cmd x j ∧ l.cmd x j < (ms j).maxSpeed := by
    rw [eventually_all]
    intro j
    have hv := (Loop.d_cmd h j).1
    exact ((Loop.d_cmd h j).continuousAt.eventually (lt_mem_nhds (by rw [hv]; exact (hr.speed j).1))).and
      ((Loop.d_cmd h j).continuousAt.eventually (gt_mem_nhds (by rw [hv]; exact (hr.speed j).2)))
  have e12 : ∀ᶠ x in 𝓝 (l.rest c w), ∀ j, (ms j).minSpeed < l.map x (.mot j) ∧ l.map x (.mot j) < (ms j).maxSpeed := by
    rw [eventually_all]
    intro j
    have hv : l.map (l.rest c w) (.mot j) = w := (Loop.deriv h (.mot j)).1
    exact ((Loop.deriv h (.mot j)).continuousAt.eventually (lt_mem_nhds (by simpa only [hv] using (hr.speed j).1))).and
      ((Loop.deriv h (.mot j)).continuousAt.eventually (gt_mem_nhds (by simpa only [hv] using (hr.speed j).2)))
  have := (((e1.and e2).and (e3.and e4)).and ((e5.and e6).and (e7.and e8))).and ((e9.and e10).and (e11.and e12))
  rw [Metric.eventually_nhds_iff] at this
  obtain ⟨r, hr, H⟩ := this
  refine ⟨r, hr, fun x hx => ?_⟩
  obtain ⟨⟨⟨⟨h1, h2⟩, h3, h4⟩, ⟨h5, h6⟩, h7, h8⟩, ⟨h9, h10⟩, h11, h12⟩ := H (show dist x (l.rest c w) < r by rwa [dist_eq_norm])
  exact ⟨h1, h2, h3, h4, h5, h6, h7, h8, h9, h10, h11, h12⟩

end

section
variable [Noise ℝ]

/-- **C139.** If the roots of the characteristic functions of the horizontal, vertical and heading loops are inside the unit
circle, every flight in position hold which starts near the trimmed hover, in any direction and with any memory of the
controllers, returns to it at a geometric rate, whatever the heading, the drag and the aerodynamic moments. -/
theorem C139_attracts (p : ModelParams ℝ) (ms : Fin 4 → Motor ℝ) (l : Loop) (cP cV cR : Pid ℝ 3) (c : ℝ × ℝ) (w : ℝ)
    (hc : Loop.Is l p ms) (hP : Tuned cP l.P) (hV : Tuned cV l.V) (hR : Tuned cR l.R) (ht : l.Trim c w)
    (hs : l.Stable w) (hr : Loop.Room l ms cP cV cR c w) (h1 : l.dt ≤ 1 / 100) :
    ∃ r > 0, ∃ C ≥ 0, ∃ q, 0 ≤ q ∧ q < 1 ∧ ∀ s x, Hovers s p ms l cP cV cR x → ‖x - l.rest c w‖ < r →
      ∀ n, ∃ t y, Sim.Runs s (cycles l.dt (List.replicate n l.dt)) t ∧ Hovers t p ms l cP cV cR y ∧
        ‖y - l.rest c w‖ ≤ C * q ^ n * ‖x - l.rest c w‖ := by
  obtain ⟨L, hL, hpow⟩ := Loop.linearised ht hs
  obtain ⟨r, hr0, C, hC, q, q0, q1, H⟩ := attracts hL (Loop.fixed ht) hpow
  obtain ⟨r', hr', H'⟩ := hr.near ht
  refine ⟨min r (r' / (C + 1)), lt_min hr0 (by positivity), C, hC, q, q0, q1, fun s x hx hsr n => ?_⟩
  have hs1 := hsr.trans_le (min_le_left _ _)
  have hs2 := hsr.trans_le (min_le_right _ _)
  obtain ⟨t, t1, t2⟩ := hx.flight hc hP hV hR ht.inertia ht.dt h1 n fun j _ => by
    refine H' _ (lt_of_le_of_lt (H _ hs1 j) ?_)
    rw [lt_div_iff₀ (by positivity)] at hs2
    have hq : q ^ j ≤ 1 := pow_le_one₀ q0 q1.le
    have hn := norm_nonneg (x - l.rest c w)
    have : C * q ^ j ≤ C := mul_le_of_le_one_right hC hq
    nlinarith
  exact ⟨t, _, t1, t2, H _ hs1 _⟩

end

/-! ## Freshly started controllers -/

/-- The vehicle is within `b` of hovering at the target with heading `psi` and rotor speed `w`. -/
structure NearHover (s : State ℝ 4) (psi : ℝ) (target : Vec 3 ℝ) (w b : ℝ) : Prop where
  pos : ∀ i, |s.pos i - target i| ≤ b
  vel : ∀ i, |s.vel i| ≤ b
  ori : ∃ q, IsTurned psi q s.ori ∧ |q.w - 1| ≤ b ∧ |q.x| ≤ b ∧ |q.y| ≤ b ∧ |q.z| ≤ b
  angVel : ∀ i, |s.angVel i| ≤ b
  motVel : ∀ j, |s.motVel j - w| ≤ b

section
variable {s : Sim ℝ 4} {p : ModelParams ℝ} {ms : Fin 4 → Motor ℝ} {l : Loop} {cP cV cR : Pid ℝ 3} {x : HV → ℝ} {c : ℝ × ℝ} {w : ℝ}

lemma Hovers.near (h : Hovers s p ms l cP cV cR x) : NearHover s.dyn.state l.psi l.target w ‖x - l.rest c w‖ := by
  have key : ∀ k, |x k - l.rest c w k| ≤ ‖x - l.rest c w‖ := fun k => norm_le_pi_norm (x - l.rest c w) k
  refine ⟨fun i => ?_, fun i => ?_, ⟨_, h.ori, ?_, ?_, ?_, ?_⟩, fun i => ?_, fun j => ?_⟩
  · rw [h.pos]; exact key (.pos i)
  · rw [h.vel]; simpa [Loop.rest] using key (.vel i)
  · simpa [Loop.rest] using key (.ori 0)
  · simpa [Loop.rest] using key (.ori 1)
  · simpa [Loop.rest] using key (.ori 2)
  · simpa [Loop.rest] using key (.ori 3)
  · rw [h.angVel]; simpa [Loop.rest] using key (.om i)
  · rw [h.motVel]; exact key (.mot j)

lemma turned_back {θ : ℝ} {q r : Quat ℝ} (h : IsTurned θ q r) (hr : IsUnitQ r) : IsUnitQ q := by
  rw [isTurned_iff] at h
  subst h
  have hcs := Real.cos_sq_add_sin_sq (θ / 2)
  unfold IsUnitQ at hr ⊢
  simp only at hr
  linear_combination hr - (q.w ^ 2 + q.x ^ 2 + q.y ^ 2 + q.z ^ 2) * hcs

/-- Every orientation is some orientation turned. -/
lemma turned_exists (θ : ℝ) (r : Quat ℝ) : ∃ q, IsTurned θ q r := by
  have hcs := Real.cos_sq_add_sin_sq (θ / 2)
  refine ⟨⟨Real.cos (θ / 2) * r.w + Real.sin (θ / 2) * r.z, Real.cos (θ / 2) * r.x + Real.sin (θ / 2) * r.y,
    Real.cos (θ / 2) * r.y - Real.sin (θ / 2) * r.x, Real.cos (θ / 2) * r.z - Real.sin (θ / 2) * r.w⟩, isTurned_iff.2 ?_⟩
  rw [Quat.ext_iff]
  refine ⟨?_, ?_, ?_, ?_⟩
  · simp only; linear_combination -r.w * hcs
  · simp only; linear_combination -r.x * hcs
  · simp only; linear_combination -r.y * hcs
  · simp only; linear_combination -r.z * hcs

namespace HV

/-- Memory of the position controller. -/
noncomputable def withP (b : Pid ℝ 3) (l : Loop) (y : HV → ℝ) : HV → ℝ
  | .iP i => if (l.P i).ki = 0 then 0 else if b.firstRun then 0 else b.integral i
  | .fP i => if (l.P i).kd = 0 then 0 else if b.firstRun then 0 else b.filtered i
  | .eP i => if b.firstRun then l.ep y i else b.propErr i
  | k => y k

/-- Memory of the velocity controller. -/
noncomputable def withV (b : Pid ℝ 3) (l : Loop) (y : HV → ℝ) : HV → ℝ
  | .iV i => if (l.V i).ki = 0 then 0 else if b.firstRun then 0 else b.integral i
  | .fV i => if (l.V i).kd = 0 then 0 else if b.firstRun then 0 else b.filtered i
  | .eV i => if b.firstRun then l.ev y i else b.propErr i
  | k => y k

/-- Memory of the rate controller. -/
noncomputable def withR (b : Pid ℝ 3) (l : Loop) (y : HV → ℝ) : HV → ℝ
  | .iR i => if (l.R i).ki = 0 then 0 else if b.firstRun then 0 else b.integral i
  | .fR i => if (l.R i).kd = 0 then 0 else if b.firstRun then 0 else b.filtered i
  | .eR i => if b.firstRun then l.er y i else b.propErr i
  | k => y k

/-- Motion of the vehicle, with orientation `q` relative to the heading. -/
noncomputable def motion (s : State ℝ 4) (q : Quat ℝ) : HV → ℝ
  | .pos i => s.pos i
  | .vel i => s.vel i
  | .ori i => (![q.w, q.x, q.y, q.z] : Vec 4 ℝ) i
  | .om i => s.angVel i
  | .mot j => s.motVel j
  | _ => 0

/-- The numbers that describe a vehicle. -/
noncomputable def describe (s : Sim ℝ 4) (l : Loop) (q : Quat ℝ) : HV → ℝ :=
  withR s.ctl.indi.pid l (withV s.ctl.vel l (withP s.ctl.pos l (motion s.dyn.state q)))

end HV

lemma InHold.hovers (h : InHold s p ms l cP cV cR) {q : Quat ℝ} (ho : IsTurned l.psi q s.dyn.state.ori)
    (hq : IsUnitQ q) : Hovers s p ms l cP cV cR (HV.describe s l q) :=
  { h with
    pos := fun _ => rfl
    vel := fun _ => rfl
    ori := ho
    unit := hq
    angVel := fun _ => rfl
    motVel := fun _ => rfl
    posMemory := ⟨fun _ => rfl, fun _ => rfl, fun _ => rfl⟩
    velMemory := ⟨fun _ => rfl, fun _ => rfl, fun _ => rfl⟩
    rateMemory := ⟨fun _ => rfl, fun _ => rfl, fun _ => rfl⟩ }

/-- **C139, coverage.** Every vehicle in position hold with a unit orientation is described by some numbers. -/
theorem C139_described (h : InHold s p ms l cP cV cR) (hu : IsUnitQ s.dyn.state.ori) : ∃ x, Hovers s p ms l cP cV cR x := by
  obtain ⟨q, hq⟩ := turned_exists l.psi s.dyn.state.ori
  exact ⟨_, h.hovers hq (turned_back hq hu)⟩

/-- A map with a derivative at one of its fixed points increases distances from it at most by a factor. -/
lemma lipschitz_at {F : (HV → ℝ) → HV → ℝ} {x0 : HV → ℝ} {d : HV → (HV → ℝ) → ℝ}
    (h : ∀ k, Dual (fun x => F x k) x0 (x0 k) (d k)) :
    ∃ r > 0, ∃ K > 0, ∀ y, ‖y - x0‖ < r → ‖F y - x0‖ ≤ K * ‖y - x0‖ := by
  choose h0 M hM _ using h
  have hF : HasFDerivAt F (ContinuousLinearMap.pi M) x0 := hasFDerivAt_pi.2 hM
  have hfix : F x0 = x0 := funext h0
  obtain ⟨K, hK, hb⟩ := hF.isBigO_sub.exists_pos
  rw [Asymptotics.IsBigOWith, Metric.eventually_nhds_iff] at hb
  obtain ⟨r, hr, H⟩ := hb
  refine ⟨r, hr, K, hK, fun y hy => ?_⟩
  have := H (show dist y x0 < r by rwa [dist_eq_norm])
  rwa [hfix] at this

lemma HV.start_dual (h : l.Trim 0 w) {a b e : Pid ℝ 3} (ha : a.firstRun = true) (hb : b.firstRun = true)
    (he : e.firstRun = true) :
    (∃ d : HV → (HV → ℝ) → ℝ, ∀ k, Dual (fun x => HV.withP a l x k) (l.rest 0 w) (l.rest 0 w k) (d k)) ∧
    (∃ d : HV → (HV → ℝ) → ℝ, ∀ k, Dual (fun x => HV.withV b l x k) (l.rest 0 w) (l.rest 0 w k) (d k)) ∧
    ∃ d : HV → (HV → ℝ) → ℝ, ∀ k, Dual (fun x => HV.withR e l x k) (l.rest 0 w) (l.rest 0 w k) (d k) := by
  refine ⟨?_, ?_, ?_⟩
  · choose d hd using show ∀ k, ∃ d, Dual (fun x => HV.withP a l x k) (l.rest 0 w) (l.rest 0 w k) d by
      intro k
      cases k with
      | iP i => exact ⟨_, ((Dual.const 0).of_eq fun x => by simp [HV.withP, ha]).congr (by simp [Loop.rest]) fun _ => rfl⟩
      | fP i => exact ⟨_, (Dual.const 0).of_eq fun x => by simp [HV.withP, ha]⟩
      | eP i => exact ⟨_, (Loop.d_ep i).of_eq fun x => by simp [HV.withP, ha]⟩
      | _ => exact ⟨_, Loop.co l 0 w _⟩
    exact ⟨d, hd⟩
  · choose d hd using show ∀ k, ∃ d, Dual (fun x => HV.withV b l x k) (l.rest 0 w) (l.rest 0 w k) d by
      intro k
      cases k with
      | iV i => exact ⟨_, ((Dual.const 0).of_eq fun x => by simp [HV.withV, hb]).congr (by simp [Loop.rest]) fun _ => rfl⟩
      | fV i => exact ⟨_, (Dual.const 0).of_eq fun x => by simp [HV.withV, hb]⟩
      | eV i => exact ⟨_, ((Loop.d_ev i).of_eq fun x => by simp [HV.withV, hb]).congr (by simp [Loop.rest]) fun _ => rfl⟩
      | _ => exact ⟨_, Loop.co l 0 w _⟩
    exact ⟨d, hd⟩
  · choose d hd using show ∀ k, ∃ d, Dual (fun x => HV.withR e l x k) (l.rest 0 w) (l.rest 0 w k) d by
      intro k
      cases k with
      | iR i => exact ⟨_, (Dual.const 0).of_eq fun x => by simp [HV.withR, he]⟩
      | fR i => exact ⟨_, (Dual.const 0).of_eq fun x => by simp [HV.withR, he]⟩
      | eR i => exact ⟨_, (Loop.d_er h i).of_eq fun x => by simp [HV.withR, he]⟩
      | _ => exact ⟨_, Loop.co l 0 w _⟩
    exact ⟨d, hd⟩

lemma HV.start_near (ht : l.Trim 0 w) : ∃ r' > 0, ∃ K > 0, ∀ y (a b e : Pid ℝ 3), a.firstRun = true → b.firstRun = true →
    e.firstRun = true → ‖y - l.rest 0 w‖ < r' →
    ‖HV.withR e l (HV.withV b l (HV.withP a l y)) - l.rest 0 w‖ ≤ K * ‖y - l.rest 0 w‖ := by
  set f : Pid ℝ 3 := { (Pid.init : Pid ℝ 3) with firstRun := true } with hf
  have hf1 : f.firstRun = true := rfl
  obtain ⟨⟨d1, k1⟩, ⟨d2, k2⟩, d3, k3⟩ := HV.start_dual (l := l) (w := w) ht hf1 hf1 hf1
  obtain ⟨r1, hr1, K1, hK1, H1⟩ := lipschitz_at k1
  obtain ⟨r2, hr2, K2, hK2, H2⟩ := lipschitz_at k2
  obtain ⟨r3, hr3, K3, hK3, H3⟩ := lipschitz_at k3
  refine ⟨min r1 (min (r2 / K1) (r3 / (K2 * K1))), by positivity, K3 * (K2 * K1), by positivity, fun y a b e ha hb he hy => ?_⟩
  have ea : HV.withP a l y = HV.withP f l y := by funext k; cases k <;> simp [HV.withP, ha, hf1]
  have eb : ∀ y, HV.withV b l y = HV.withV f l y := fun y => by funext k; cases k <;> simp [HV.withV, hb, hf1]
  have ee : ∀ y, HV.withR e l y = HV.withR f l y := fun y => by funext k; cases k <;> simp [HV.withR, he, hf1]
  rw [ea, eb, ee]
  rw [lt_min_iff, lt_min_iff, lt_div_iff₀ hK1, lt_div_iff₀ (by positivity)] at hy
  have a1 := H1 y hy.1
  have a2 := H2 _ (a1.trans_lt (by linarith [hy.2.1]))
  have a2' : ‖HV.withV f l (HV.withP f l y) - l.rest 0 w‖ ≤ K2 * K1 * ‖y - l.rest 0 w‖ :=
    a2.trans (by rw [mul_assoc]; exact mul_le_mul_of_nonneg_left a1 hK2.le)
  have a3 := H3 _ (a2'.trans_lt (by linarith [hy.2.2]))
  exact a3.trans (by rw [mul_assoc]; exact mul_le_mul_of_nonneg_left a2' hK3.le)

lemma HV.motion_near {v : State ℝ 4} {q : Quat ℝ} {b : ℝ} (hb : 0 ≤ b) (h : NearHover v l.psi l.target w b)
    (hq : |q.w - 1| ≤ b ∧ |q.x| ≤ b ∧ |q.y| ≤ b ∧ |q.z| ≤ b) : ‖HV.motion v q - l.rest 0 w‖ ≤ b := by
  rw [pi_norm_le_iff_of_nonneg hb]
  intro k
  rw [Pi.sub_apply, Real.norm_eq_abs]
  cases k with
  | pos i => exact h.pos i
  | vel i => simpa [HV.motion, Loop.rest] using h.vel i
  | ori i =>
    fin_cases i
    · simpa [HV.motion, Loop.rest] using hq.1
    · simpa [HV.motion, Loop.rest] using hq.2.1
    · simpa [HV.motion, Loop.rest] using hq.2.2.1
    · simpa [HV.motion, Loop.rest] using hq.2.2.2
  | om i => simpa [HV.motion, Loop.rest] using h.angVel i
  | mot j => exact h.motVel j
  | _ => simpa [HV.motion, Loop.rest] using hb

end

section
variable [Noise ℝ]

/-- **C139, freshly started controllers.** A vehicle whose thrust at hover is what its controllers demand without
accumulated error settles at the target: a flight that starts within `b` of hover with controllers which have not run yet
is within `C q^n b` of it after `n` cycles. -/
theorem C139_settles (p : ModelParams ℝ) (ms : Fin 4 → Motor ℝ) (l : Loop) (cP cV cR : Pid ℝ 3) (w : ℝ)
    (hc : Loop.Is l p ms) (hP : Tuned cP l.P) (hV : Tuned cV l.V) (hR : Tuned cR l.R) (ht : l.Trim 0 w)
    (hs : l.Stable w) (hr : Loop.Room l ms cP cV cR 0 w) (h1 : l.dt ≤ 1 / 100) :
    ∃ r > 0, ∃ C ≥ 0, ∃ q, 0 ≤ q ∧ q < 1 ∧ ∀ s b, InHold s p ms l cP cV cR → IsUnitQ s.dyn.state.ori →
      s.ctl.pos.firstRun = true → s.ctl.vel.firstRun = true → s.ctl.indi.pid.firstRun = true →
      NearHover s.dyn.state l.psi l.target w b → b < r →
      ∀ n, ∃ t, Sim.Runs s (cycles l.dt (List.replicate n l.dt)) t ∧ InHold t p ms l cP cV cR ∧
        IsUnitQ t.dyn.state.ori ∧ NearHover t.dyn.state l.psi l.target w (C * q ^ n * b) := by
  obtain ⟨r, hr0, C, hC, q, q0, q1, H⟩ := C139_attracts p ms l cP cV cR 0 w hc hP hV hR ht hs hr h1
  obtain ⟨r', hr', K, hK, HK⟩ := HV.start_near ht
  refine ⟨min r' (r / K), by positivity, C * K, by positivity, q, q0, q1,
    fun s b hh hu f1 f2 f3 hn hb n => ?_⟩
  obtain ⟨o, ho, hq⟩ := hn.ori
  have hb0 : 0 ≤ b := (abs_nonneg _).trans (hn.vel 0)
  rw [lt_min_iff, lt_div_iff₀ hK] at hb
  have m1 := HV.motion_near hb0 hn hq
  have m2 : ‖HV.describe s l o - l.rest 0 w‖ ≤ K * b :=
    (HK _ s.ctl.pos s.ctl.vel s.ctl.indi.pid f1 f2 f3 (m1.trans_lt hb.1)).trans (mul_le_mul_of_nonneg_left m1 hK.le)
  obtain ⟨t, y, t1, t2, t3⟩ := H s _ (hh.hovers ho (turned_back ho hu)) (m2.trans_lt (by linarith [hb.2])) n
  refine ⟨t, t1, t2.toInHold, turned_unit t2.ori t2.unit, ?_⟩
  have hle : ‖y - l.rest 0 w‖ ≤ C * K * q ^ n * b :=
    t3.trans ((mul_le_mul_of_nonneg_left m2 (by positivity)).trans_eq (by ring))
  have := t2.near (c := 0) (w := w)
  obtain ⟨g1, g2, ⟨o', g3, g4, g5, g6, g7⟩, g8, g9⟩ := this
  exact ⟨fun i => (g1 i).trans hle, fun i => (g2 i).trans hle,
    ⟨o', g3, g4.trans hle, g5.trans hle, g6.trans hle, g7.trans hle⟩, fun i => (g8 i).trans hle, fun j => (g9 j).trans hle⟩

end

end Verif.Props
