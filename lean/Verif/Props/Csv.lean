import Verif.Model.Logger
import Verif.Spec.Csv
import Verif.XReal
import Verif.Fixture
import Mathlib.Data.List.TakeWhile

/-!
# CSV records (C69, C70)
-/

namespace Verif.Props

open Verif Flt Spec

lemma splitComma_ne (l : List Char) : splitComma l ≠ [] := by
  cases l with
  | nil => simp [splitComma]
  | cons c cs =>
    simp only [splitComma]
    split
    · simp
    · split <;> simp

lemma splitComma_append (a b : List Char) : splitComma (a ++ ',' :: b) = splitComma a ++ splitComma b := by
  induction a with
  | nil => simp [splitComma]
  | cons c cs ih =>
    simp only [List.cons_append, splitComma, ih]
    split
    · simp
    · cases h : splitComma cs with
      | nil => exact absurd h (splitComma_ne cs)
      | cons f fs => simp

lemma splitComma_plain {a : List Char} (h : ',' ∉ a) : splitComma a = [a] := by
  induction a with
  | nil => rfl
  | cons c cs ih =>
    simp only [List.mem_cons, not_or] at h
    simp [splitComma, ih h.2, Ne.symm h.1]

lemma splitComma_join (l : List (List Char)) (hl : l ≠ []) (h : ∀ x ∈ l, ',' ∉ x) :
    splitComma (joinComma l) = l := by
  induction l with
  | nil => exact absurd rfl hl
  | cons x xs ih =>
    cases xs with
    | nil => exact splitComma_plain (h x (by simp))
    | cons y ys =>
      rw [joinComma, splitComma_append, ih (by simp) fun z hz => h z (List.mem_cons_of_mem _ hz),
        splitComma_plain (h x (by simp))]
      rfl

/-! ## C69 -/

section
variable {α : Type} [Flt α] {n : ℕ}

/-- The columns of a vehicle state: position, Euler angles, velocity, angular velocity, acceleration,
angular acceleration, force, torque, rotor speeds, rotor accelerations. -/
def stateRow (s : State α n) : List α :=
  List.ofFn s.pos ++ [(quatToEuler s.ori).1, (quatToEuler s.ori).2.1, (quatToEuler s.ori).2.2] ++
  List.ofFn s.vel ++ List.ofFn s.angVel ++ List.ofFn s.acc ++ List.ofFn s.angAcc ++ List.ofFn s.force ++
  List.ofFn s.torque ++ List.ofFn s.motVel ++ List.ofFn s.motAcc

/-- The columns of the odometry: position, Euler angles, velocity, angular velocity, acceleration. -/
def odomRow (o : Odom α) : List α :=
  List.ofFn o.pos ++ [(quatToEuler o.ori).1, (quatToEuler o.ori).2.1, (quatToEuler o.ori).2.2] ++
  List.ofFn o.vel ++ List.ofFn o.angVel ++ List.ofFn o.acc

lemma speeds_split (l : List (List Char)) (h : ∀ x ∈ l, ',' ∉ x) (t : List Char) :
    splitComma ((l.map (· ++ [','])).flatten ++ t) = l ++ splitComma t := by
  induction l with
  | nil => rfl
  | cons x xs ih =>
    simp only [List.map_cons, List.flatten_cons, List.append_assoc, List.cons_append, List.nil_append]
    rw [splitComma_append, ih fun z hz => h z (List.mem_cons_of_mem _ hz), splitComma_plain (h x (by simp))]
    rfl

lemma accs_join {n : ℕ} (f : Fin n → List Char) :
    (List.ofFn fun i => f i ++ if i.val + 1 < n then [','] else []).flatten = joinComma (List.ofFn f) := by
  induction n with
  | zero => rfl
  | succ n ih =>
    rw [List.ofFn_succ, List.ofFn_succ, List.flatten_cons]
    have e : (List.ofFn fun i : Fin n => f i.succ ++ if i.succ.val + 1 < n + 1 then [','] else []) =
        List.ofFn fun i : Fin n => f i.succ ++ if i.val + 1 < n then [','] else [] := by
      congr 1
      ext1 i
      simp
    rw [e, ih]
    cases n with
    | zero => simp [joinComma]
    | succ m =>
      rw [List.ofFn_succ]
      simp [joinComma]

/-- Numbers are printed without commas. -/
def PlainNumbers (pr : α → List Char) : Prop := ∀ x, ',' ∉ pr x

omit [Flt α] in
lemma plain_map {pr : α → List Char} (h : PlainNumbers pr) (l : List α) : ∀ x ∈ l.map pr, ',' ∉ x := by
  intro x hx
  obtain ⟨a, -, rfl⟩ := List.mem_map.1 hx
  exact h a

/-- **C69.** The line of a state has exactly the documented fields in the documented order, and therefore
`24 + 2 n` of them. -/
theorem C69_state (pr : α → List Char) (h : PlainNumbers pr) (s : State α n) (hn : 0 < n) :
    splitComma (s.text pr) = (stateRow s).map pr ∧ (splitComma (s.text pr)).length = 24 + 2 * n := by
  have key : splitComma (s.text pr) = (stateRow s).map pr := by
    unfold State.text
    rw [splitComma_append, splitComma_append,
      splitComma_join _ (by simp [State.csvKinematics]) (plain_map h _),
      splitComma_join _ (by simp [State.csvDynamics]) (plain_map h _)]
    have e : splitComma (s.textActuators pr) = (List.ofFn s.motVel ++ List.ofFn s.motAcc).map pr := by
      unfold State.textActuators
      have e1 : (List.ofFn fun i => pr (s.motVel i) ++ [',']) =
          ((List.ofFn s.motVel).map pr).map (· ++ [',']) := by
        simp [List.map_ofFn, Function.comp_def]
      rw [e1, speeds_split _ (plain_map h _), accs_join fun i => pr (s.motAcc i), splitComma_join]
      · simp [List.map_ofFn, Function.comp_def]
      · intro h0
        have := congrArg List.length h0
        simp at this
        omega
      · have : (List.ofFn fun i => pr (s.motAcc i)) = (List.ofFn s.motAcc).map pr := by
          simp [List.map_ofFn, Function.comp_def]
        rw [this]
        exact plain_map h _
    rw [e]
    simp [stateRow, State.csvKinematics, State.csvDynamics]
  refine ⟨key, ?_⟩
  rw [key]
  simp [stateRow]
  omega

/-- **C69.** The line of the odometry has exactly the 15 documented fields. -/
theorem C69_odometry (pr : α → List Char) (h : PlainNumbers pr) (o : Odom α) :
    splitComma (o.text pr) = (odomRow o).map pr ∧ (splitComma (o.text pr)).length = 15 := by
  have key : splitComma (o.text pr) = (odomRow o).map pr := by
    unfold Odom.text
    rw [splitComma_join _ (by simp [Odom.csv]) (plain_map h _)]
    simp [odomRow, Odom.csv]
  refine ⟨key, ?_⟩
  rw [key]
  simp [odomRow]

end

/-- Non-vacuity: a printer without commas. -/
example : PlainNumbers (fun x : ℝ => if x < 0 then ['-', '1'] else ['1']) := by
  intro x
  simp only
  split <;> decide

/-! ## C70 -/

section
variable {α : Type} [Flt α]

/-- What a logger that drops everything from the first NaN of a vector on keeps. -/
def kept {k : ℕ} (v : Vec k α) : List α := (List.ofFn v).takeWhile fun x => beq x x

/-- Full claim: every line of the log has as many fields as the header. -/
def C70_claim : Prop :=
  ∀ (α : Type) (_ : Flt α) (_ : LawfulFlt α) (_ : Noise α) (pr : α → List Char) (p : SimParams α 4)
    (s₀ s : Sim α 4) (os : List (SimOp α 4)) (time : α) (line : List Char),
    PlainNumbers pr → Sim.mk' p = some s₀ → Sim.Runs s₀ os s → Logger.save pr time s = some line →
    (splitComma line).length = (splitComma Logger.header).length

lemma double_split {pr : α → List Char} (h : PlainNumbers pr) (x : α) (t : List Char) :
    splitComma (Logger.addDouble pr x ++ t) = (kept ![x]).map pr ++ splitComma t := by
  unfold Logger.addDouble Logger.isNan kept
  cases hx : beq x x
  · simp [hx]
  · simp only [Bool.not_true, Bool.false_eq_true, if_false, List.append_assoc, List.cons_append,
      List.nil_append, splitComma_append, splitComma_plain (h x)]
    simp [hx]

lemma row_split {pr : α → List Char} (h : PlainNumbers pr) {k : ℕ} (v : Vec k α) (t : List Char) :
    splitComma (Logger.addRow pr v ++ t) = (kept v).map pr ++ splitComma t := by
  unfold Logger.addRow kept
  induction List.ofFn v with
  | nil => rfl
  | cons x xs ih =>
    simp only [Logger.addEntries, Logger.isNan, List.takeWhile_cons]
    by_cases hx : beq x x = true
    · simp only [hx, Bool.not_true, Bool.false_eq_true, if_false, List.append_assoc, List.cons_append,
        splitComma_append, splitComma_plain (h x), ih, if_true, List.map_cons, List.nil_append]
    · simp [hx]

/-- The header has 74 columns. -/
lemma header_fields : (splitComma Logger.header).length = 74 := by decide +kernel

lemma takeWhile_length {β : Type} (f : β → Bool) (l : List β) :
    (l.takeWhile f).length ≤ l.length ∧ ((l.takeWhile f).length = l.length ↔ ∀ x ∈ l, f x = true) := by
  refine ⟨(List.takeWhile_prefix f).length_le, fun h => ?_, fun h => ?_⟩
  · have := (List.takeWhile_prefix f).eq_of_length h
    exact List.takeWhile_eq_self_iff.1 this
  · rw [List.takeWhile_eq_self_iff.2 h]

lemma kept_length {k : ℕ} (v : Vec k α) :
    (kept v).length ≤ k ∧ ((kept v).length = k ↔ ∀ x ∈ List.ofFn v, beq x x = true) := by
  have := takeWhile_length (fun x : α => beq x x) (List.ofFn v)
  rw [List.length_ofFn] at this
  exact this

/-- What a line contains, in any arithmetic: the state and the odometry completely, of every other vector
the entries before its first NaN.  So it has the 74 fields of the header exactly if none of the
references and commands is NaN.  Missing: lines with NaN, which are shifted (`C70_violated`). -/
theorem C70_line_partial [Noise α] (pr : α → List Char) (h : PlainNumbers pr) (time : α) (s : Sim α 4)
    (c : ModelCore α 4) (hc : s.dyn.model.core = some c) :
    ∃ line, Logger.save pr time s = some line ∧
    let f : Vec 3 α := fun i => s.dyn.state.ori.rotate s.ctl.indi.thrust i ⊞ c.params.gravity i ⊠ c.params.mass
    splitComma line = (kept ![time] ++ stateRow s.dyn.state ++ kept s.refPos ++ kept ![s.refYaw] ++
      kept s.refVel ++ kept s.ctl.desAngVel ++ kept s.refAcc ++ kept s.ctl.indi.pid.output ++ kept f ++
      kept s.ctl.indi.torque ++ kept s.actuation ++ odomRow s.odom).map pr ∧
    (splitComma Logger.header).length = 74 ∧
    ((splitComma line).length = 74 ↔ ∀ x ∈ [time] ++ List.ofFn s.refPos ++ [s.refYaw] ++
      List.ofFn s.refVel ++ List.ofFn s.ctl.desAngVel ++ List.ofFn s.refAcc ++
      List.ofFn s.ctl.indi.pid.output ++ List.ofFn f ++ List.ofFn s.ctl.indi.torque ++
      List.ofFn s.actuation, beq x x = true) := by
  refine ⟨_, by unfold Logger.save Logger.forceRef; rw [hc]; rfl, ?_⟩
  intro f
  have key : splitComma (Logger.addDouble pr time ++ (s.dyn.state.text pr ++ [',']) ++ Logger.addRow pr s.refPos ++
      Logger.addDouble pr s.refYaw ++ Logger.addRow pr s.refVel ++ Logger.addRow pr s.ctl.desAngVel ++
      Logger.addRow pr s.refAcc ++ Logger.addRow pr s.ctl.indi.pid.output ++ Logger.addRow pr f ++
      Logger.addRow pr s.ctl.indi.torque ++ Logger.addRow pr s.actuation ++ s.odom.text pr) =
      (kept ![time] ++ stateRow s.dyn.state ++ kept s.refPos ++ kept ![s.refYaw] ++
      kept s.refVel ++ kept s.ctl.desAngVel ++ kept s.refAcc ++ kept s.ctl.indi.pid.output ++ kept f ++
      kept s.ctl.indi.torque ++ kept s.actuation ++ odomRow s.odom).map pr := by
    simp only [List.append_assoc, double_split h, row_split h, List.cons_append, List.nil_append,
      splitComma_append, (C69_state pr h s.dyn.state (by norm_num)).1, (C69_odometry pr h s.odom).1,
      List.map_append]
  refine ⟨key, header_fields, ?_⟩
  refine (iff_of_eq (congrArg (· = 74) (congrArg List.length key))).trans ?_
  have h1 := kept_length ![time]
  have h2 := kept_length s.refPos
  have h3 := kept_length ![s.refYaw]
  have h4 := kept_length s.refVel
  have h5 := kept_length s.ctl.desAngVel
  have h6 := kept_length s.refAcc
  have h7 := kept_length s.ctl.indi.pid.output
  have h8 := kept_length f
  have h9 := kept_length s.ctl.indi.torque
  have h10 := kept_length s.actuation
  have e1 : List.ofFn ![time] = [time] := rfl
  have e3 : List.ofFn ![s.refYaw] = [s.refYaw] := rfl
  have hS : (stateRow s.dyn.state).length = 32 := by simp [stateRow]
  have hO : (odomRow s.odom).length = 15 := by simp [odomRow]
  rw [e1] at h1
  rw [e3] at h3
  simp only [List.length_map, List.length_append, hS, hO, List.forall_mem_append]
  rw [← h1.2, ← h2.2, ← h3.2, ← h4.2, ← h5.2, ← h6.2, ← h7.2, ← h8.2, ← h9.2, ← h10.2]
  omega

end

/-- Non-vacuity: a simulator built by the constructor. -/
example [Noise ℝ] : Fixture.sim.dyn.model.core = some Fixture.core := rfl

/-- The quadrotor of the fixture with not-a-number arithmetic. -/
noncomputable def xParams : SimParams XReal 4 where
  dyn := ⟨{ motors := Model.quadX (.fin 1) (.fin 1) (.fin 1) (.fin 1) (.fin 0) (.fin 10) (.fin 1) (.fin 1)
            mass := .fin 1
            inertia := fun i j => .fin ((1 : Matrix (Fin 3) (Fin 3) ℝ) i j)
            drag := .fin 1
            aero := fun i j => .fin ((1 : Matrix (Fin 3) (Fin 3) ℝ) i j)
            gravity := ![.fin 0, .fin 0, .fin (-10)]
            forceNoise := .fin 1
            momentNoise := .fin 1 }, State.default, 7⟩
  ctl := ⟨⟨.fin 1, fun _ _ => .fin 1, ![.fin 0, .fin 0, .fin (-10)]⟩,
    ⟨fun _ _ => .fin 1, fun _ _ => .fin 1, PidParams.default⟩, PidParams.default, PidParams.default, PidParams.default⟩
  imu := ⟨.fin 1, .fin 1, .fin 1, .fin 1, Quat.identity, 3⟩
  odom := ⟨.fin 1, Quat.identity⟩

lemma xParams_det : Flt.det3 (fun i j => XReal.fin ((1 : Matrix (Fin 3) (Fin 3) ℝ) i j)) = XReal.fin 1 := by
  refine (if_pos fun i j => ⟨_, rfl⟩).trans ?_
  show XReal.fin (Matrix.det (1 : Matrix (Fin 3) (Fin 3) ℝ)) = _
  rw [Matrix.det_one]

lemma xParams_ok [Noise XReal] : ∃ (s : Sim XReal 4) (c : ModelCore XReal 4),
    Sim.mk' xParams = some s ∧ s.dyn.model.core = some c := by
  have hc : Model.checkParams xParams.dyn.model = true := by
    simp [Model.checkParams, xParams, Model.checkMotor, Model.quadX, xParams_det]
  have hd : Model.dirOk xParams.dyn.model.motors = true := by
    simp [Model.dirOk, xParams, Model.quadX]
  have hm : Model.motorFn 4 xParams.dyn.model.motors = some fun i => xParams.dyn.model.motors.get (i.cast rfl) := rfl
  have ho : ∃ o, Odom.mk' xParams.odom = some o := by
    have : (Odom.mk' xParams.odom).isSome = true := by
      simp [Odom.mk', xParams]
    exact Option.isSome_iff_exists.1 this
  obtain ⟨o, ho⟩ := ho
  have hd : ∃ (d : Dyn XReal 4) (c : ModelCore XReal 4), Dyn.mk' xParams.dyn = some d ∧ d.model.core = some c := by
    simp [Dyn.mk', Model.mk', Model.updateParams, hc, hd, hm]
  obtain ⟨d, c, hd, hc⟩ := hd
  exact ⟨_, c, by simp only [Sim.mk', hd, ho]; rfl, hc⟩

/-- A reference yaw that is not a number costs a column. -/
theorem C70_violated : ¬ C70_claim := by
  intro h
  let N : Noise XReal := ⟨fun _ _ _ => .fin 0⟩
  obtain ⟨s, c, hs, hc⟩ := xParams_ok
  have hp : PlainNumbers (fun _ : XReal => ['1']) := fun _ => by simp
  obtain ⟨line, hl, -, h74, hiff⟩ := C70_line_partial _ hp (.fin 0) (s.setRefYaw .nan) c hc
  have := h XReal inferInstance inferInstance N _ xParams s _ [.setRefYaw .nan] (.fin 0) line hp hs
    (.ok rfl (.nil _)) hl
  rw [h74] at this
  have := hiff.1 this .nan (by simp [Sim.setRefYaw])
  simp at this

end Verif.Props
