import Verif.Lemmas.Dual
import Verif.Lemmas.Eigen
import Verif.Lemmas.HoverMode
import Verif.Lemmas.ToMat
import Verif.Lemmas.Mixer
import Verif.Spec.Turn

/-!
# One cycle of position hold near hover

The cycle as a function of the numbers that describe the vehicle and the memory of its controllers, its linearisation and
the modes of the latter.
-/

namespace Verif.Stability

open Verif Flt Spec Filter Topology

/-- The numbers that describe a vehicle in position hold: position, velocity, orientation relative to the heading (w, x, y,
z), rates, rotor speeds, and accumulated error, filtered derivative and last error of the position, velocity and rate
controllers. -/
inductive HV where
  | pos (i : Fin 3)
  | vel (i : Fin 3)
  | ori (i : Fin 4)
  | om (i : Fin 3)
  | mot (j : Fin 4)
  | iP (i : Fin 3)
  | fP (i : Fin 3)
  | eP (i : Fin 3)
  | iV (i : Fin 3)
  | fV (i : Fin 3)
  | eV (i : Fin 3)
  | iR (i : Fin 3)
  | fR (i : Fin 3)
  | eR (i : Fin 3)
deriving DecidableEq, Fintype

section
variable {𝕜 : Type} [Field 𝕜] (ρ : ℝ →+* 𝕜) (k : PidTuning) (dt : ℝ)

/-- Accumulated error after a call; an error that does not matter is not kept. -/
noncomputable def nextInt (I e : 𝕜) : 𝕜 := if k.ki = 0 then 0 else I + e * ρ dt

/-- Filtered derivative after a call. -/
noncomputable def nextFil (f E e : 𝕜) : 𝕜 :=
  if k.kd = 0 then 0 else ρ k.alpha * ((e - E) / ρ dt) + (1 - ρ k.alpha) * f

/-- Output of a call. -/
noncomputable def respond (I f E e : 𝕜) : 𝕜 :=
  ρ k.kp * e + ρ k.ki * nextInt ρ k dt I e + ρ k.kd * nextFil ρ k dt f E e

end

/-- The constants of a vehicle in position hold. -/
structure Loop where
  mass : ℝ
  g : ℝ
  drag : ℝ
  tau : ℝ
  dt : ℝ
  inertia : Vec 3 ℝ
  kr : Vec 3 ℝ
  aero : Mat 3 3 ℝ
  P : Fin 3 → PidTuning
  V : Fin 3 → PidTuning
  R : Fin 3 → PidTuning
  mix : Mat 4 4 ℝ
  alloc : Mat 4 4 ℝ
  lag : ℝ
  psi : ℝ
  target : Vec 3 ℝ

namespace Loop
variable (l : Loop) (x : HV → ℝ)

noncomputable def ep (i : Fin 3) : ℝ := l.target i - x (.pos i)
noncomputable def vref (i : Fin 3) : ℝ := respond (.id ℝ) (l.P i) l.dt (x (.iP i)) (x (.fP i)) (x (.eP i)) (l.ep x i)
noncomputable def ev (i : Fin 3) : ℝ := l.vref x i - x (.vel i)
noncomputable def acc (i : Fin 3) : ℝ := respond (.id ℝ) (l.V i) l.dt (x (.iV i)) (x (.fV i)) (x (.eV i)) (l.ev x i)

/-- Demanded force relative to the heading. -/
noncomputable def force : Vec 3 ℝ :=
  ![l.mass * (Real.cos l.psi * l.acc x 0 + Real.sin l.psi * l.acc x 1),
    l.mass * (Real.cos l.psi * l.acc x 1 - Real.sin l.psi * l.acc x 0), l.mass * (l.acc x 2 + l.g)]

/-- Orientation relative to the heading. -/
def quat (x : HV → ℝ) : Quat ℝ := ⟨x (.ori 0), x (.ori 1), x (.ori 2), x (.ori 3)⟩

noncomputable def bodyZ (x : HV → ℝ) : Vec 3 ℝ := fun i => (quat x).toMat i 2
noncomputable def proj : ℝ := l.force x ⬝ᵥ Verif.normalized (bodyZ x)
noncomputable def rates : Vec 3 ℝ := fun i =>
  -(l.kr i * Acro.rotationError (Acro.desiredAttitude 0 (l.force x)) (quat x).toMat i)
noncomputable def er (i : Fin 3) : ℝ := l.rates x i - x (.om i)
noncomputable def spin (i : Fin 3) : ℝ := respond (.id ℝ) (l.R i) l.dt (x (.iR i)) (x (.fR i)) (x (.eR i)) (l.er x i)
noncomputable def torque : Vec 3 ℝ := fun i => l.inertia i * l.spin x i +
  crossProduct (l.rates x) (fun i => l.inertia i * l.rates x i) i
noncomputable def wrench : Vec 4 ℝ := ![l.proj x, l.torque x 0, l.torque x 1, l.torque x 2]
noncomputable def square (j : Fin 4) : ℝ := ∑ r, l.alloc j r * l.wrench x r
noncomputable def cmd (j : Fin 4) : ℝ := √|l.square x j| * sign (l.square x j)
noncomputable def motAcc (j : Fin 4) : ℝ := (l.cmd x j - x (.mot j)) / l.tau
noncomputable def lift (r : Fin 4) : ℝ := ∑ j, l.mix r j * (x (.mot j) * |x (.mot j)|)
noncomputable def thrust : Vec 3 ℝ := turnVec l.psi fun i => l.lift x 0 * bodyZ x i
noncomputable def omega (x : HV → ℝ) : Vec 3 ℝ := fun i => x (.om i)

/-- Torque on the vehicle. -/
noncomputable def moment : Vec 3 ℝ := fun i =>
  l.lift x i.succ + (![0, 0, l.lag * ∑ j, l.mix 3 j * l.motAcc x j] : Vec 3 ℝ) i
    - √(omega x ⬝ᵥ omega x) * (l.aero.mulVec (omega x)) i - crossProduct (omega x) (fun i => l.inertia i * omega x i) i

/-- One cycle: a control update and a dynamics update. -/
noncomputable def map : HV → ℝ
  | .pos i => x (.pos i) + l.dt * x (.vel i)
  | .vel i => x (.vel i) + l.dt * ((l.thrust x i + (![0, 0, -l.g] : Vec 3 ℝ) i - l.drag * (x (.vel i) * |x (.vel i)|)) / l.mass)
  | .ori i => (![(quatIntegrate (quat x) (omega x) l.dt).w, (quatIntegrate (quat x) (omega x) l.dt).x,
      (quatIntegrate (quat x) (omega x) l.dt).y, (quatIntegrate (quat x) (omega x) l.dt).z] : Vec 4 ℝ) i
  | .om i => x (.om i) + l.dt * (l.moment x i / l.inertia i)
  | .mot j => x (.mot j) + l.dt * l.motAcc x j
  | .iP i => nextInt (.id ℝ) (l.P i) l.dt (x (.iP i)) (l.ep x i)
  | .fP i => nextFil (.id ℝ) (l.P i) l.dt (x (.fP i)) (x (.eP i)) (l.ep x i)
  | .eP i => l.ep x i
  | .iV i => nextInt (.id ℝ) (l.V i) l.dt (x (.iV i)) (l.ev x i)
  | .fV i => nextFil (.id ℝ) (l.V i) l.dt (x (.fV i)) (x (.eV i)) (l.ev x i)
  | .eV i => l.ev x i
  | .iR i => nextInt (.id ℝ) (l.R i) l.dt (x (.iR i)) (l.er x i)
  | .fR i => nextFil (.id ℝ) (l.R i) l.dt (x (.fR i)) (x (.eR i)) (l.er x i)
  | .eR i => l.er x i

/-- Change of the velocities by a force `f` and a torque `t` that act during a cycle. -/
noncomputable def push (t f : Vec 3 ℝ) : HV → ℝ
  | .vel i => l.dt * (f i / l.mass)
  | .om i => l.dt * (t i / l.inertia i)
  | _ => 0

/-- The part of the drag that a moving observer does not expect. -/
noncomputable def wind (u : Vec 3 ℝ) : Vec 3 ℝ := fun i =>
  l.drag * (x (.vel i) * |x (.vel i)|) - l.drag * ((u i + x (.vel i)) * |u i + x (.vel i)|)

/-- Hover at the target with rotor speed `w` and accumulated errors `c` of the vertical velocity and position
controllers. -/
noncomputable def rest (c : ℝ × ℝ) (w : ℝ) : HV → ℝ
  | .pos i => l.target i
  | .ori i => if i = 0 then 1 else 0
  | .mot _ => w
  | .iP i => if i = 2 then c.2 else 0
  | .iV i => if i = 2 then c.1 else 0
  | .eV i => if i = 2 then (l.P 2).ki * c.2 else 0
  | _ => 0

/-- The rotors carry the vehicle and the accumulated errors demand that. -/
structure Trim (c : ℝ × ℝ) (w : ℝ) : Prop where
  mass : 0 < l.mass
  gravity : 0 < l.g
  tau : 0 < l.tau
  dt : 0 < l.dt
  lag : l.dt / l.tau < 2
  inertia : ∀ i, l.inertia i ≠ 0
  speed : 0 < w
  unused : ((l.V 2).ki = 0 → c.1 = 0) ∧ ((l.P 2).ki = 0 → c.2 = 0)
  steady : (l.V 2).ki = 0 ∨ c.2 = 0
  demand : l.mass * (l.g + ((l.V 2).ki * c.1 + (l.V 2).kp * ((l.P 2).ki * c.2))) = l.g
  carry : (∑ j, l.mix 0 j) * w ^ 2 = l.g
  balance : ∀ r : Fin 3, ∑ j, l.mix r.succ j = 0
  inverse : l.mix * l.alloc = 1

/-! ### Linearisation -/

section
variable {𝕜 : Type} [Field 𝕜] (ρ : ℝ →+* 𝕜) (w : ℝ) (y : HV → 𝕜)

noncomputable def vrefL (i : Fin 3) : 𝕜 := respond ρ (l.P i) l.dt (y (.iP i)) (y (.fP i)) (y (.eP i)) (-y (.pos i))
noncomputable def evL (i : Fin 3) : 𝕜 := l.vrefL ρ y i - y (.vel i)
noncomputable def accL (i : Fin 3) : 𝕜 := respond ρ (l.V i) l.dt (y (.iV i)) (y (.fV i)) (y (.eV i)) (l.evL ρ y i)
/-- Change of the demanded acceleration relative to the heading. -/
noncomputable def forwardL : 𝕜 := ρ (Real.cos l.psi) * l.accL ρ y 0 + ρ (Real.sin l.psi) * l.accL ρ y 1
noncomputable def leftL : 𝕜 := ρ (Real.cos l.psi) * l.accL ρ y 1 - ρ (Real.sin l.psi) * l.accL ρ y 0
/-- Acceleration of the thrust at hover. -/
noncomputable def gamma : ℝ := l.g / l.mass
noncomputable def ratesL : Fin 3 → 𝕜 :=
  ![-(ρ (l.kr 0) * (l.leftL ρ y / ρ l.gamma + 2 * y (.ori 1))), ρ (l.kr 1) * (l.forwardL ρ y / ρ l.gamma - 2 * y (.ori 2)),
    -(ρ (l.kr 2) * (2 * y (.ori 3)))]
noncomputable def erL (i : Fin 3) : 𝕜 := l.ratesL ρ y i - y (.om i)
noncomputable def spinL (i : Fin 3) : 𝕜 := respond ρ (l.R i) l.dt (y (.iR i)) (y (.fR i)) (y (.eR i)) (l.erL ρ y i)
noncomputable def wrenchL : Fin 4 → 𝕜 :=
  ![ρ l.mass * l.accL ρ y 2, ρ (l.inertia 0) * l.spinL ρ y 0, ρ (l.inertia 1) * l.spinL ρ y 1,
    ρ (l.inertia 2) * l.spinL ρ y 2]
noncomputable def cmdL (j : Fin 4) : 𝕜 := (∑ r, ρ (l.alloc j r) * l.wrenchL ρ y r) / ρ (2 * w)
noncomputable def motAccL (j : Fin 4) : 𝕜 := (l.cmdL ρ w y j - y (.mot j)) / ρ l.tau
noncomputable def liftL (r : Fin 4) : 𝕜 := ∑ j, ρ (l.mix r j) * (ρ (2 * w) * y (.mot j))
noncomputable def thrustL : Fin 3 → 𝕜 :=
  ![ρ (Real.cos l.psi) * (ρ l.g * (2 * y (.ori 2))) + ρ (Real.sin l.psi) * (ρ l.g * (2 * y (.ori 1))),
    ρ (Real.sin l.psi) * (ρ l.g * (2 * y (.ori 2))) - ρ (Real.cos l.psi) * (ρ l.g * (2 * y (.ori 1))),
    l.liftL ρ w y 0]
noncomputable def momentL (i : Fin 3) : 𝕜 :=
  l.liftL ρ w y i.succ + (![0, 0, ρ l.lag * ∑ j, ρ (l.mix 3 j) * l.motAccL ρ w y j] : Fin 3 → 𝕜) i

/-- The linearised cycle. -/
noncomputable def lin : HV → 𝕜
  | .pos i => y (.pos i) + ρ l.dt * y (.vel i)
  | .vel i => y (.vel i) + ρ l.dt * (l.thrustL ρ w y i / ρ l.mass)
  | .ori i => (![0, y (.ori 1) + ρ l.dt / 2 * y (.om 0), y (.ori 2) + ρ l.dt / 2 * y (.om 1),
      y (.ori 3) + ρ l.dt / 2 * y (.om 2)] : Fin 4 → 𝕜) i
  | .om i => y (.om i) + ρ l.dt * (l.momentL ρ w y i / ρ (l.inertia i))
  | .mot j => y (.mot j) + ρ l.dt * l.motAccL ρ w y j
  | .iP i => nextInt ρ (l.P i) l.dt (y (.iP i)) (-y (.pos i))
  | .fP i => nextFil ρ (l.P i) l.dt (y (.fP i)) (y (.eP i)) (-y (.pos i))
  | .eP i => -y (.pos i)
  | .iV i => nextInt ρ (l.V i) l.dt (y (.iV i)) (l.evL ρ y i)
  | .fV i => nextFil ρ (l.V i) l.dt (y (.fV i)) (y (.eV i)) (l.evL ρ y i)
  | .eV i => l.evL ρ y i
  | .iR i => nextInt ρ (l.R i) l.dt (y (.iR i)) (l.erL ρ y i)
  | .fR i => nextFil ρ (l.R i) l.dt (y (.fR i)) (y (.eR i)) (l.erL ρ y i)
  | .eR i => l.erL ρ y i

end

end Loop

end Verif.Stability
