import Verif.Spec.Traffic
import Verif.Props.Ctl
import Verif.Lemmas.PidReal

/-!
# C122: the controller passes calls on to its loops, and works with the settings written last
-/

namespace Verif.Props

open Verif Flt Spec

section
variable {α : Type} [Flt α] {n : ℕ}

/-! ## One call -/

lemma traffic_position (c : Ctl α n) (o : CtlOp α n) : (c.step o).1.pos = (c.pos.run (toPosition o)).1 := by
  cases o <;> rfl

lemma traffic_trajectory (c : Ctl α n) (o : CtlOp α n) : (c.step o).1.traj = (c.traj.run (toTrajectory o)).1 := by
  cases o <;> rfl

lemma traffic_velocity (c : Ctl α n) (o : CtlOp α n) :
    (c.step o).1.vel = (c.vel.run (toVelocity (c.step o).1.desVel o)).1 := by
  cases o <;> rfl

lemma traffic_rate (c : Ctl α n) (o : CtlOp α n) :
    (c.step o).1.indi.pid = (c.indi.pid.run (toRate (c.step o).1.desAngVel o)).1 := by
  cases o <;> rfl

lemma reaching_run (f : Ctl α n → CtlOp α n → List (PidOp α 3)) (l : Ctl α n → Pid α 3)
    (h : ∀ c o, l (c.step o).1 = ((l c).run (f (c.step o).1 o)).1) (c : Ctl α n) (os : List (CtlOp α n)) :
    l (c.run os).1 = ((l c).run (reaching f c os)).1 := by
  induction os generalizing c with
  | nil => rfl
  | cons o os ih =>
    have e : (c.run (o :: os)).1 = ((c.step o).1.run os).1 := rfl
    rw [e, ih, h, reaching, Pid.run_append]

lemma written_run {β : Type} (w : CtlOp α n → Option β) (g : Ctl α n → β) (h : ∀ c o, g (c.step o).1 = (w o).getD (g c))
    (c : Ctl α n) (os : List (CtlOp α n)) : g (c.run os).1 = lastWritten w (g c) os := by
  induction os generalizing c with
  | nil => rfl
  | cons o os ih =>
    have e : (c.run (o :: os)).1 = ((c.step o).1.run os).1 := rfl
    rw [e, ih, h]
    rfl

/-! ## The theorems -/

/-- **C122.** After any history each of the four PID loops is in the state into which exactly the calls addressed to it have
brought it, in their order: control calls with reference minus measurement, where the reference of an inner loop is the
demand the controller reports, and the calls that configure or reset it.  Any arithmetic. -/
theorem C122_traffic (p : CtlParams α n) (os : List (CtlOp α n)) :
    let c₀ := Ctl.mk' p
    let c := (c₀.run os).1
    c.pos = ((Pid.mk' p.pos).run (reaching (fun _ o => toPosition o) c₀ os)).1 ∧
    c.traj = ((Pid.mk' p.traj).run (reaching (fun _ o => toTrajectory o) c₀ os)).1 ∧
    c.vel = ((Pid.mk' p.vel).run (reaching (fun c' o => toVelocity c'.desVel o) c₀ os)).1 ∧
    c.indi.pid = ((Pid.mk' p.indi.pid).run (reaching (fun c' o => toRate c'.desAngVel o) c₀ os)).1 :=
  ⟨reaching_run _ (·.pos) traffic_position _ os, reaching_run _ (·.traj) traffic_trajectory _ os,
    reaching_run _ (·.vel) traffic_velocity _ os, reaching_run _ (·.indi.pid) traffic_rate _ os⟩

/-- **C122.** Mass, gravity, attitude gains, inertia and allocation matrix are those written last: no control call and no
reset changes them.  Any arithmetic. -/
theorem C122_settings (p : CtlParams α n) (os : List (CtlOp α n)) :
    let c := ((Ctl.mk' p).run os).1
    c.acro.mass = lastWritten writesMass p.acro.mass os ∧
    c.acro.gravity = lastWritten writesGravity p.acro.gravity os ∧
    c.acro.kpRot = lastWritten writesKpRot p.acro.kpRot os ∧
    c.indi.inertia = lastWritten writesInertia p.indi.inertia os ∧
    c.indi.mixerInv = lastWritten writesMixer p.indi.mixerInv os := by
  refine ⟨written_run _ (·.acro.mass) ?_ _ os, written_run _ (·.acro.gravity) ?_ _ os,
    written_run _ (·.acro.kpRot) ?_ _ os, written_run _ (·.indi.inertia) ?_ _ os, written_run _ (·.indi.mixerInv) ?_ _ os⟩ <;>
  · intro c o
    cases o <;> rfl

/-- **C122.** Each call returns the value its name says: commands of the last stage, outputs of the loop asked, forces and
rates computed with the settings in force; the calls that only configure return nothing. -/
theorem C122_answers (c : Ctl α n) (o : CtlOp α n) : (c.step o).2 = answer c (c.step o).1 o := by
  cases o with
  | convertAcceleration a R yaw =>
    simp only [Ctl.step, answer, Ctl.accelerationToAcro]
    have e : (c.acro.accelerationToThrust a) = fun i => (a i ⊟ c.acro.gravity i) ⊠ c.acro.mass := rfl
    rw [e]
    split_ifs <;> rfl
  | posPid q => cases q <;> rfl
  | trajPid q => cases q <;> rfl
  | velPid q => cases q <;> rfl
  | indiPid q => cases q <;> rfl
  | _ => rfl

end

/-- Non-vacuity: a history in which all loops are called, one is retuned and the mass is changed. -/
example : ∃ os : List (CtlOp ℝ 4),
    (reaching (fun _ o => toPosition o) (Ctl.mk' iParams) os).length = 3 ∧
    (reaching (fun c' o => toVelocity c'.desVel o) (Ctl.mk' iParams) os).length = 2 ∧
    lastWritten writesMass (iParams.acro.mass) os = 2 :=
  ⟨[.position 0 1 0 0 ![1, 2, 3] 0 1, .setMass 2, .updatePos PidParams.default, .reset], rfl, rfl, rfl⟩

end Verif.Props
