import Verif.Rounded
import Verif.Fixture

/-!
# Vehicles in rounded arithmetic

The vehicle whose parameters have given real values, and the concrete simulator of `Fixture` in rounded arithmetic.
-/

namespace Verif

open Flt

section
variable (A : Rounding)

/-- Rounded numbers with given values. -/
def liftV {n : ℕ} (v : Vec n ℝ) : Vec n (Fl A) := fun i => ⟨v i⟩
/-- ... -/
def liftMat {m n : ℕ} (M : Mat m n ℝ) : Mat m n (Fl A) := fun i j => ⟨M i j⟩
/-- ... -/
def liftQ (q : Quat ℝ) : Quat (Fl A) := ⟨⟨q.w⟩, ⟨q.x⟩, ⟨q.y⟩, ⟨q.z⟩⟩
/-- ... -/
def liftMotor (m : Motor ℝ) : Motor (Fl A) :=
  ⟨m.dir, ⟨m.kf⟩, ⟨m.kt⟩, liftMat A m.rot, liftV A m.pos, ⟨m.minSpeed⟩, ⟨m.maxSpeed⟩, ⟨m.tau⟩, ⟨m.inertia⟩⟩
/-- The vehicle with the given parameter values. -/
def liftParams (p : ModelParams ℝ) : ModelParams (Fl A) :=
  ⟨p.motors.map (liftMotor A), ⟨p.mass⟩, liftMat A p.inertia, ⟨p.drag⟩, liftMat A p.aero, liftV A p.gravity,
    ⟨p.forceNoise⟩, ⟨p.momentNoise⟩⟩
/-- The state with the given values. -/
def liftState {n : ℕ} (s : State ℝ n) : State (Fl A) n :=
  ⟨liftV A s.pos, liftQ A s.ori, liftV A s.vel, liftV A s.angVel, liftV A s.acc, liftV A s.angAcc, liftV A s.force,
    liftV A s.torque, liftV A s.motVel, liftV A s.motAcc⟩

end

section
variable {A : Rounding}

/-- The values of rounded numbers. -/
def valV {n : ℕ} (v : Vec n (Fl A)) : Vec n ℝ := fun i => (v i).val
/-- ... -/
def valQ (q : Quat (Fl A)) : Quat ℝ := ⟨q.w.val, q.x.val, q.y.val, q.z.val⟩
/-- The values of a state. -/
def valState {n : ℕ} (s : State (Fl A) n) : State ℝ n :=
  ⟨valV s.pos, valQ s.ori, valV s.vel, valV s.angVel, valV s.acc, valV s.angAcc, valV s.force, valV s.torque,
    valV s.motVel, valV s.motAcc⟩

@[simp] lemma valState_lift {n : ℕ} (s : State ℝ n) : valState (liftState A s) = s := rfl

lemma motorFn_lift {n : ℕ} {ms : List (Motor ℝ)} {f : Fin n → Motor ℝ} (h : Model.motorFn n ms = some f) :
    Model.motorFn n (ms.map (liftMotor A)) = some fun i => liftMotor A (f i) := by
  unfold Model.motorFn at h ⊢
  split at h
  · rename_i hl
    rw [dif_pos (by simpa using hl)]
    obtain rfl := Option.some.inj h
    congr 1
    funext i
    simp
  · simp at h

lemma dirOk_lift (ms : List (Motor ℝ)) : Model.dirOk (ms.map (liftMotor A)) = Model.dirOk ms := by
  simp [Model.dirOk, liftMotor, List.all_map, Function.comp_def]

end

end Verif
