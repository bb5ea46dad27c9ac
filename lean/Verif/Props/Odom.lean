import Verif.Lemmas.Quat
import Verif.Spec.Sensors
import Mathlib.Analysis.SpecificLimits.Basic

/-!
# C39 - C42: the inertial odometry
-/

namespace Verif.Props

open Verif Flt Spec

/-! ## C39 -/

/-- One call keeps "orientation and initial orientation satisfy `P`". -/
lemma odom_step {P : Quat ℝ → Prop} (hP : ∀ q om dt, P q → P (quatIntegrate q om dt)) {o : Odom ℝ}
    (h1 : P o.ori) (h2 : P o.initOri) {c : OdomOp ℝ} (hc : ∀ q, c = .setInitialOrientation q → P q) :
    P (o.step c).ori ∧ P (o.step c).initOri := by
  cases c with
  | update g a dt => exact ⟨hP _ _ _ h1, h2⟩
  | reset => exact ⟨h2, h2⟩
  | setInitialOrientation q => exact ⟨hc q rfl, hc q rfl⟩

lemma odom_run {P : Quat ℝ → Prop} (hP : ∀ q om dt, P q → P (quatIntegrate q om dt))
    {os : List (OdomOp ℝ)} (hos : initialsNonzero P os) {o : Odom ℝ} (h1 : P o.ori) (h2 : P o.initOri) :
    P (o.run os).ori ∧ P (o.run os).initOri := by
  induction os generalizing o with
  | nil => exact ⟨h1, h2⟩
  | cons c os ih =>
    obtain ⟨h3, h4⟩ := odom_step hP h1 h2 (c := c) fun q hq => hos c (List.mem_cons_self ..) q hq
    exact ih (fun c hc => hos c (List.mem_cons_of_mem _ hc)) h3 h4

/-- **C39.** If no zero quaternion is ever configured, the orientation after every update of every
history is a unit quaternion. -/
theorem C39_unit_after_update (p : OdomParams ℝ) (o : Odom ℝ) (h : Odom.mk' p = some o)
    (hp : NonzeroQ p.initOri) (os : List (OdomOp ℝ)) (hos : initialsNonzero NonzeroQ os)
    (u : OdomIn ℝ) : IsUnitQ ((o.run (os ++ [u.op])).ori) := by
  have ho : o.ori = p.initOri ∧ o.initOri = p.initOri := by
    unfold Odom.mk' at h
    split at h
    · simp only [Option.some.injEq] at h; subst h; exact ⟨rfl, rfl⟩
    · simp at h
  have := odom_run (P := NonzeroQ) (fun q om dt hq => (Quat.quatIntegrate_unit hq om dt).nonzero) hos
    (by rw [ho.1]; exact hp) (by rw [ho.2]; exact hp)
  simp only [Odom.run, List.foldl_append, List.foldl_cons, List.foldl_nil]
  exact Quat.quatIntegrate_unit this.1 _ _

/-- **C39.** If only unit quaternions are configured, the orientation is a unit quaternion at every
moment. -/
theorem C39_unit_always (p : OdomParams ℝ) (o : Odom ℝ) (h : Odom.mk' p = some o)
    (hp : IsUnitQ p.initOri) (os : List (OdomOp ℝ)) (hos : initialsNonzero IsUnitQ os) :
    IsUnitQ (o.run os).ori := by
  have ho : o.ori = p.initOri ∧ o.initOri = p.initOri := by
    unfold Odom.mk' at h
    split at h
    · simp only [Option.some.injEq] at h; subst h; exact ⟨rfl, rfl⟩
    · simp at h
  exact (odom_run (P := IsUnitQ) (fun q om dt hq => Quat.quatIntegrate_unit hq.nonzero om dt) hos
    (by rw [ho.1]; exact hp) (by rw [ho.2]; exact hp)).1

/-- Non-vacuity: a history with a re-alignment to a non-unit quaternion. -/
example : ∃ o : Odom ℝ, Odom.mk' ⟨1 / 2, ⟨2, 0, 0, 0⟩⟩ = some o ∧ NonzeroQ ⟨2, 0, 0, 0⟩ ∧
    initialsNonzero NonzeroQ [.setInitialOrientation ⟨1, 1, 0, 0⟩, .reset] := by
  refine ⟨_, by rw [Odom.mk', if_pos (by simp [flt]; norm_num)], by simp [NonzeroQ], ?_⟩
  intro o ho q hq
  simp only [List.mem_cons, List.not_mem_nil, or_false] at ho
  rcases ho with rfl | rfl
  · simp only [OdomOp.setInitialOrientation.injEq] at hq; subst hq; simp [NonzeroQ]
  · simp at hq

/-! ## C40 -/

lemma odom_alpha {p : OdomParams ℝ} {o : Odom ℝ} (h : Odom.mk' p = some o) :
    o.alpha = p.alpha ∧ 0 < p.alpha ∧ p.alpha ≤ 1 := by
  unfold Odom.mk' at h
  split at h
  · rename_i hc
    simp only [Option.some.injEq] at h
    subst h
    simp [flt] at hc
    exact ⟨rfl, hc⟩
  · simp at h

/-- **C40.** In every history of an accepted odometry, each axis of the reported angular velocity and of
the filtered acceleration stays within any interval that contains zero and all samples of that axis. -/
theorem C40_bounded (p : OdomParams ℝ) (o : Odom ℝ) (h : Odom.mk' p = some o) (os : List (OdomOp ℝ))
    (i : Fin 3) (lo hi : ℝ) (hlo : lo ≤ 0) (hhi : 0 ≤ hi) :
    ((∀ c ∈ os, ∀ g a dt, c = .update g a dt → lo ≤ g i ∧ g i ≤ hi) →
      lo ≤ (o.run os).angVel i ∧ (o.run os).angVel i ≤ hi) ∧
    ((∀ c ∈ os, ∀ g a dt, c = .update g a dt → lo ≤ a i ∧ a i ≤ hi) →
      lo ≤ (o.run os).accelF i ∧ (o.run os).accelF i ≤ hi) := by
  obtain ⟨ha, h0, h1⟩ := odom_alpha h
  have hz : o.gyroF i = 0 ∧ o.angVel i = 0 ∧ o.accelF i = 0 := by
    unfold Odom.mk' at h
    split at h
    · simp only [Option.some.injEq] at h; subst h; simp [Odom.reset, flt]
    · simp at h
  have conv : ∀ x y : ℝ, lo ≤ x → x ≤ hi → lo ≤ y → y ≤ hi →
      lo ≤ p.alpha * x + (1 - p.alpha) * y ∧ p.alpha * x + (1 - p.alpha) * y ≤ hi := by
    intro x y hx1 hx2 hy1 hy2
    constructor <;> nlinarith
  constructor
  · intro hs
    have key : ∀ (os : List (OdomOp ℝ)) (o : Odom ℝ), o.alpha = p.alpha → lo ≤ o.gyroF i → o.gyroF i ≤ hi →
        lo ≤ o.angVel i → o.angVel i ≤ hi →
        (∀ c ∈ os, ∀ g a dt, c = .update g a dt → lo ≤ g i ∧ g i ≤ hi) →
        lo ≤ (o.run os).angVel i ∧ (o.run os).angVel i ≤ hi := by
      intro os
      induction os with
      | nil => intro o _ _ _ h3 h4 _; exact ⟨h3, h4⟩
      | cons c os ih =>
        intro o e h1 h2 h3 h4 hs
        have hs' := fun c hc => hs c (List.mem_cons_of_mem _ hc)
        cases c with
        | update g a dt =>
          obtain ⟨g1, g2⟩ := hs _ (List.mem_cons_self ..) g a dt rfl
          have := conv (g i) (o.gyroF i) g1 g2 h1 h2
          refine ih (o.step (.update g a dt)) e ?_ ?_ ?_ ?_ hs' <;>
            simp [Odom.step, Odom.update, Odom.integrate, Odom.filter, flt, e, this]
        | reset =>
          refine ih (o.step .reset) e ?_ ?_ ?_ ?_ hs' <;> simp [Odom.step, Odom.reset, flt, hlo, hhi]
        | setInitialOrientation q =>
          exact ih (o.step (.setInitialOrientation q)) e h1 h2 h3 h4 hs'
    exact key os o ha (by rw [hz.1]; exact hlo) (by rw [hz.1]; exact hhi) (by rw [hz.2.1]; exact hlo)
      (by rw [hz.2.1]; exact hhi) hs
  · intro hs
    have key : ∀ (os : List (OdomOp ℝ)) (o : Odom ℝ), o.alpha = p.alpha → lo ≤ o.accelF i →
        o.accelF i ≤ hi → (∀ c ∈ os, ∀ g a dt, c = .update g a dt → lo ≤ a i ∧ a i ≤ hi) →
        lo ≤ (o.run os).accelF i ∧ (o.run os).accelF i ≤ hi := by
      intro os
      induction os with
      | nil => intro o _ h3 h4 _; exact ⟨h3, h4⟩
      | cons c os ih =>
        intro o e h1 h2 hs
        have hs' := fun c hc => hs c (List.mem_cons_of_mem _ hc)
        cases c with
        | update g a dt =>
          obtain ⟨g1, g2⟩ := hs _ (List.mem_cons_self ..) g a dt rfl
          have := conv (a i) (o.accelF i) g1 g2 h1 h2
          refine ih (o.step (.update g a dt)) e ?_ ?_ hs' <;>
            simp [Odom.step, Odom.update, Odom.integrate, Odom.filter, flt, e, this]
        | reset =>
          refine ih (o.step .reset) e ?_ ?_ hs' <;> simp [Odom.step, Odom.reset, flt, hlo, hhi]
        | setInitialOrientation q =>
          exact ih (o.step (.setInitialOrientation q)) e h1 h2 hs'
    exact key os o ha (by rw [hz.2.2]; exact hlo) (by rw [hz.2.2]; exact hhi) hs

/-- Non-vacuity of the bound: an accepted odometry and samples in [-1, 2]. -/
example : ∃ o : Odom ℝ, Odom.mk' ⟨1 / 2, Quat.identity⟩ = some o ∧
    ∀ c ∈ [OdomOp.update (fun _ => (2 : ℝ)) 0 1, .reset, .update (fun _ => -1) 0 1],
      ∀ g a dt, c = OdomOp.update g a dt → (-1 : ℝ) ≤ g 0 ∧ g 0 ≤ 2 := by
  refine ⟨_, by rw [Odom.mk', if_pos (by simp [flt]; norm_num)], ?_⟩
  intro c hc g a dt e
  simp only [List.mem_cons, List.not_mem_nil, or_false] at hc
  subst e
  simp only [OdomOp.update.injEq, reduceCtorEq, false_or] at hc
  rcases hc with ⟨rfl, -⟩ | ⟨rfl, -⟩ <;> norm_num

/-- **C40.** With `alpha = 1` the odometry reports the last gyro sample. -/
theorem C40_unfiltered (o : Odom ℝ) (h : o.alpha = 1) (g a : Vec 3 ℝ) (dt : ℝ) :
    (o.update g a dt).angVel = g := by
  simp [Odom.update, Odom.integrate, Odom.filter, flt, h]

lemma odom_const (o : Odom ℝ) (g a : Vec 3 ℝ) (dt : ℝ) (k : ℕ) :
    (o.run (List.replicate k (.update g a dt))).gyroF = g + (1 - o.alpha) ^ k • (o.gyroF - g) ∧
    (o.run (List.replicate k (.update g a dt))).alpha = o.alpha := by
  induction k generalizing o with
  | zero => simp [Odom.run]
  | succ k ih =>
    have hrun : o.run (List.replicate (k + 1) (.update g a dt)) =
        (o.step (.update g a dt)).run (List.replicate k (.update g a dt)) := rfl
    rw [hrun]
    obtain ⟨h1, h2⟩ := ih (o.step (.update g a dt))
    have e : (o.step (.update g a dt)).alpha = o.alpha := rfl
    have e2 : (o.step (.update g a dt)).gyroF = o.alpha • g + (1 - o.alpha) • o.gyroF := by
      simp [Odom.step, Odom.update, Odom.integrate, Odom.filter, flt]
    rw [h1, h2, e, e2]
    refine ⟨?_, rfl⟩
    ext i
    simp only [Pi.add_apply, Pi.smul_apply, Pi.sub_apply, smul_eq_mul]
    ring

/-- **C40.** With constant input the remaining error of the reported angular velocity is exactly
`(1 - alpha)^k` of the initial one, and the reported value tends to the input. -/
theorem C40_converges (p : OdomParams ℝ) (o₀ : Odom ℝ) (h : Odom.mk' p = some o₀)
    (os : List (OdomOp ℝ)) (g a : Vec 3 ℝ) (dt : ℝ) (i : Fin 3) :
    (∀ k, ((o₀.run os).run (List.replicate (k + 1) (.update g a dt))).angVel i - g i =
      (1 - p.alpha) ^ (k + 1) * ((o₀.run os).gyroF i - g i)) ∧
    Filter.Tendsto (fun k => ((o₀.run os).run (List.replicate (k + 1) (.update g a dt))).angVel i)
      Filter.atTop (nhds (g i)) := by
  obtain ⟨ha, h0, h1⟩ := odom_alpha h
  have hal : (o₀.run os).alpha = p.alpha := by
    rw [← ha]
    clear h ha
    induction os generalizing o₀ with
    | nil => rfl
    | cons c os ih =>
      have : (o₀.step c).alpha = o₀.alpha := by cases c <;> rfl
      rw [← this]
      exact ih _
  generalize hO : o₀.run os = o at hal
  have hang : ∀ k, (o.run (List.replicate (k + 1) (.update g a dt))).angVel =
      (o.run (List.replicate (k + 1) (.update g a dt))).gyroF := by
    intro k
    rw [List.replicate_succ']
    simp only [Odom.run, List.foldl_append, List.foldl_cons, List.foldl_nil]
    rfl
  have hk : ∀ k, (o.run (List.replicate (k + 1) (.update g a dt))).angVel i - g i =
      (1 - p.alpha) ^ (k + 1) * (o.gyroF i - g i) := by
    intro k
    rw [hang, (odom_const o g a dt (k + 1)).1, hal]
    simp
  refine ⟨hk, ?_⟩
  have ht : Filter.Tendsto (fun k : ℕ => (1 - p.alpha) ^ (k + 1)) Filter.atTop (nhds 0) :=
    (tendsto_pow_atTop_nhds_zero_of_lt_one (by linarith) (by linarith)).comp
      (Filter.tendsto_add_atTop_nat 1)
  have := (ht.mul_const (o.gyroF i - g i)).add_const (g i)
  rw [zero_mul, zero_add] at this
  refine this.congr fun k => ?_
  rw [← hk k]
  ring

/-- Non-vacuity: an accepted odometry that really filters. -/
example : ∃ o : Odom ℝ, Odom.mk' ⟨1 / 2, Quat.identity⟩ = some o ∧ o.alpha ≠ 1 :=
  ⟨_, by rw [Odom.mk', if_pos (by simp [flt]; norm_num)], by simp [Odom.reset]⟩

/-! ## C41 -/

section
variable {α : Type} [Flt α]

/-- **C41.** After `reset`, whatever the history, the odometry is the object that the constructor
returns for the same filter constant and the initial orientation configured last: hence
indistinguishable from it in all later histories. Any arithmetic. -/
theorem C41_reset_is_restart (p : OdomParams α) (o : Odom α) (h : Odom.mk' p = some o)
    (os later : List (OdomOp α)) :
    ∃ o', Odom.mk' ⟨p.alpha, lastInitial p.initOri os⟩ = some o' ∧
      o.run (os ++ .reset :: later) = o'.run later := by
  have key : ∀ (os : List (OdomOp α)) (o : Odom α), (o.run os).alpha = o.alpha ∧
      (o.run os).initOri = lastInitial o.initOri os := by
    intro os
    induction os with
    | nil => intro o; exact ⟨rfl, rfl⟩
    | cons c os ih =>
      intro o
      have hrun : o.run (c :: os) = (o.step c).run os := rfl
      rw [hrun]
      obtain ⟨h1, h2⟩ := ih (o.step c)
      rw [h1, h2]
      cases c <;> exact ⟨rfl, rfl⟩
  unfold Odom.mk' at h ⊢
  split at h
  · rename_i hc
    simp only [Option.some.injEq] at h
    rw [if_pos hc]
    refine ⟨_, rfl, ?_⟩
    obtain ⟨h1, h2⟩ := key os o
    have : (o.run os).step .reset = Odom.reset
        { alpha := p.alpha, initOri := lastInitial p.initOri os, gyroF := vzero, accelF := vzero
          pos := vzero, ori := Quat.identity, vel := vzero, angVel := vzero, acc := vzero } := by
      subst h
      simp only [Odom.step, Odom.reset] at h1 h2 ⊢
      rw [h1, h2]
    simp only [Odom.run, List.foldl_append, List.foldl_cons] at this ⊢
    rw [this]
  · simp at h

end

/-- Non-vacuity: an accepted odometry, and a history with a re-alignment. -/
example (q : Quat ℝ) : (∃ o : Odom ℝ, Odom.mk' ⟨1 / 2, Quat.identity⟩ = some o) ∧
    lastInitial Quat.identity [.update 0 0 1, .setInitialOrientation q, .update 0 0 (1 : ℝ)] = q :=
  ⟨⟨_, by rw [Odom.mk', if_pos (by simp [flt]; norm_num)]⟩, rfl⟩

/-! ## C42 -/

/-- **C42.** After any sequence of measurements, the velocity is the initial velocity plus the sum of
the reported accelerations times their periods, and the position the initial one plus the sum of the
reported velocities times their periods.  (A new or reset odometry has zero initial values.) -/
theorem C42_dead_reckoning (o : Odom ℝ) (us : List (OdomIn ℝ)) :
    (o.run (us.map OdomIn.op)).vel = o.vel + ((reports o us).map fun r => r.1 • r.2.acc).sum ∧
    (o.run (us.map OdomIn.op)).pos = o.pos + ((reports o us).map fun r => r.1 • r.2.vel).sum := by
  induction us generalizing o with
  | nil => simp [Odom.run, reports]
  | cons u us ih =>
    have hrun : o.run ((u :: us).map OdomIn.op) = (o.step u.op).run (us.map OdomIn.op) := rfl
    rw [hrun]
    obtain ⟨h1, h2⟩ := ih (o.step u.op)
    have e1 : (o.step u.op).vel = o.vel + u.dt • (o.step u.op).acc := by
      simp [Odom.step, OdomIn.op, Odom.update, Odom.integrate, Odom.filter, flt]
    have e2 : (o.step u.op).pos = o.pos + u.dt • (o.step u.op).vel := by
      simp [Odom.step, OdomIn.op, Odom.update, Odom.integrate, Odom.filter, flt]
    rw [h1, h2]
    simp only [reports, List.map_cons, List.sum_cons]
    constructor
    · conv_lhs => rw [e1]
      rw [add_assoc]
    · conv_lhs => rw [e2]
      rw [add_assoc]

/-- **C42.** What is reported is what the last report says: the object after the sequence is the last
report. -/
theorem C42_last_report (o : Odom ℝ) (us : List (OdomIn ℝ)) (u : OdomIn ℝ) :
    (reports o (us ++ [u])).getLast? = some (u.dt, o.run ((us ++ [u]).map OdomIn.op)) := by
  induction us generalizing o with
  | nil => rfl
  | cons v us ih =>
    have : reports o (v :: us ++ [u]) = (v.dt, o.step v.op) :: reports (o.step v.op) (us ++ [u]) := rfl
    rw [this, List.getLast?_cons, ih]
    rfl

/-- Non-vacuity: a reset odometry has zero velocity and position. -/
example (o : Odom ℝ) : o.reset.vel = 0 ∧ o.reset.pos = 0 := by simp [Odom.reset, flt]

end Verif.Props
