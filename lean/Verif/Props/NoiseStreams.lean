import Verif.Fixture
import Verif.Lemmas.Sim
import Verif.Lemmas.DynReal

/-!
# C89: which random numbers the flight and the sensors use
-/

namespace Verif.Props

open Verif Flt

section Spec
variable {α : Type} {n : ℕ}

/-- The two sources of random numbers give the same numbers at the places `S` (seed, position in the stream). -/
def AgreeAt (N N' : Noise α) (S : Set (ℤ × ℕ)) : Prop :=
  ∀ seed k, (seed, k) ∈ S → N.draw seed k = N'.draw seed k

/-- All places of the streams with these seeds. -/
def streams (D : Set ℤ) : Set (ℤ × ℕ) := {x | x.1 ∈ D}

/-- The vehicle, its commands, references and floor are the same; the two sensors are not compared. -/
def SameFlight (s t : Sim α n) : Prop := t = { s with imu := t.imu, odom := t.odom }

/-- The vehicle and the floor: a call that keeps the seed of the process noise in `D`. -/
def VehicleSeeds (D : Set ℤ) : SimOp α n → Prop
  | .setDynParams p => p.seed ∈ D
  | .mutDyn f => ∀ d : Dyn α n, d.model.rng.seed ∈ D → (f d).model.rng.seed ∈ D
  | _ => True

/-- A call that keeps the seed of the IMU in `I`, does not write the IMU behind its back and enables no floor. -/
def SensorSeeds (I : Set ℤ) : SimOp α n → Prop
  | .setImuParams p => p.seed ∈ I
  | .mutImu _ => False
  | .enableFloor _ => False
  | _ => True

/-- The biases of the IMU are the same. -/
def SameBias (s t : Sim α n) : Prop := s.imu.gyroBias = t.imu.gyroBias ∧ s.imu.accelBias = t.imu.accelBias

end Spec

section
variable {α : Type} [Flt α] {n : ℕ}

lemma eulerStep_stream {N N' : Noise α} {D : Set ℤ} (h : AgreeAt N N' (streams D)) (c : ModelCore α n)
    (ms : Fin n → Motor α) {d : Dyn α n} (hd : d.model.rng.seed ∈ D) (act : Vec n α) (dt : α) (ext : Vec 3 α)
    (noise : Bool) :
    @Dyn.eulerStep α _ n N c ms d act dt ext noise = @Dyn.eulerStep α _ n N' c ms d act dt ext noise ∧
      (@Dyn.eulerStep α _ n N c ms d act dt ext noise).model.rng.seed ∈ D := by
  have h0 : ∀ k, N.draw d.model.rng.seed k = N'.draw d.model.rng.seed k := fun k => h _ k hd
  have e : @Model.setNoise α _ n N c dt d.model = @Model.setNoise α _ n N' c dt d.model := by
    simp only [Model.setNoise, Rng.draw3]
    rw [h0, h0]
  have e2 : (@Model.setNoise α _ n N c dt d.model).rng.seed ∈ D := by
    unfold Model.setNoise
    split <;> exact hd
  constructor
  · unfold Dyn.eulerStep
    rw [e]
  · unfold Dyn.eulerStep
    cases noise
    · exact hd
    · exact e2

/-- Whatever the outcome, the object it leaves satisfies `P`. -/
def Leaves {σ : Type} (P : σ → Prop) : Res σ → Prop
  | .ok s => P s
  | .throw s => P s
  | .bad => True

lemma singleStep_stream {N N' : Noise α} {D : Set ℤ} (h : AgreeAt N N' (streams D)) {d : Dyn α n}
    (hd : d.model.rng.seed ∈ D) (act : Vec n α) (dt : α) (ext : Vec 3 α) (noise : Bool) :
    @Dyn.singleStep α _ n N d act dt ext noise = @Dyn.singleStep α _ n N' d act dt ext noise ∧
      Leaves (fun d' : Dyn α n => d'.model.rng.seed ∈ D) (@Dyn.singleStep α _ n N d act dt ext noise) := by
  constructor
  · unfold Dyn.singleStep
    cases d.model.core with
    | none => rfl
    | some c =>
      simp only []
      cases Model.motorFn n c.params.motors with
      | none => rfl
      | some ms => simp only [(eulerStep_stream h c ms hd act dt ext noise).1]
  · cases hs : @Dyn.singleStep α _ n N d act dt ext noise with
    | ok d' =>
      obtain ⟨c, ms, -, -, -, rfl⟩ := @Dyn.singleStep_ok α _ N n _ _ _ _ _ _ hs
      exact (eulerStep_stream h c ms hd act dt ext noise).2
    | throw d' => exact absurd hs (@Dyn.singleStep_not_throw α _ N n _ _ _ _ _ _)
    | bad => trivial

lemma forLoop_congr {σ : Type} {num : α} {b b' : σ → Res σ} {P : σ → Prop}
    (hb : ∀ s, P s → b s = b' s ∧ Leaves P (b s)) :
    ∀ fuel i s, P s → forLoop num b fuel i s = forLoop num b' fuel i s ∧ Leaves P (forLoop num b fuel i s)
  | 0, i, s, hs => by
    unfold forLoop
    rw [← (hb s hs).1]
    have := (hb s hs).2
    split
    · cases e : b s with
      | ok s' => exact ⟨rfl, trivial⟩
      | throw s' => rw [e] at this; exact ⟨rfl, this⟩
      | bad => exact ⟨rfl, trivial⟩
    · exact ⟨rfl, hs⟩
  | fuel + 1, i, s, hs => by
    unfold forLoop
    rw [← (hb s hs).1]
    have := (hb s hs).2
    split
    · cases e : b s with
      | ok s' => rw [e] at this; exact forLoop_congr hb fuel (i + 1) s' this
      | throw s' => rw [e] at this; exact ⟨rfl, this⟩
      | bad => exact ⟨rfl, trivial⟩
    · exact ⟨rfl, hs⟩

lemma processDepth_stream {N N' : Noise α} {D : Set ℤ} (h : AgreeAt N N' (streams D)) (act : Vec n α)
    (ext : Vec 3 α) (noise : Bool) : ∀ (depth : ℕ) (dt : α) (d : Dyn α n), d.model.rng.seed ∈ D →
      @Dyn.processDepth α _ n N act ext noise depth dt d = @Dyn.processDepth α _ n N' act ext noise depth dt d ∧
      Leaves (fun d' : Dyn α n => d'.model.rng.seed ∈ D) (@Dyn.processDepth α _ n N act ext noise depth dt d)
  | 0, dt, d, hd => ⟨rfl, trivial⟩
  | depth + 1, dt, d, hd => by
    have ih := processDepth_stream h act ext noise depth
    unfold Dyn.processDepth
    split
    · exact ⟨rfl, hd⟩
    · split
      · exact forLoop_congr (P := fun d : Dyn α n => d.model.rng.seed ∈ D) (fun d hd => ih _ d hd) _ _ _ hd
      · exact singleStep_stream h hd act dt ext noise

/-- An update of the dynamics reads only the stream of the process noise. -/
lemma process_stream {N N' : Noise α} {D : Set ℤ} (h : AgreeAt N N' (streams D)) {d : Dyn α n}
    (hd : d.model.rng.seed ∈ D) (act : Vec n α) (dt : α) (ext : Vec 3 α) (noise : Bool) :
    @Dyn.process α _ n N d act dt ext noise = @Dyn.process α _ n N' d act dt ext noise ∧
      Leaves (fun d' : Dyn α n => d'.model.rng.seed ∈ D) (@Dyn.process α _ n N d act dt ext noise) :=
  processDepth_stream h act ext noise 2 dt d hd

omit [Flt α] in
lemma SameFlight.exists {s t : Sim α n} (h : SameFlight s t) : ∃ i o, t = { s with imu := i, odom := o } :=
  ⟨t.imu, t.odom, h⟩

/-- What one call needs to know about the flight. -/
def FlightRel (D : Set ℤ) (s t : Sim α n) : Prop := s.dyn.model.rng.seed ∈ D ∧ SameFlight s t

/-- Two outcomes of the same kind that leave related objects. -/
def Alike {σ : Type} (R : σ → σ → Prop) : Res σ → Res σ → Prop
  | .ok s, .ok t => R s t
  | .throw s, .throw t => R s t
  | .bad, .bad => True
  | _, _ => False

lemma updateDynamics_stream {N N' : Noise α} {D : Set ℤ} (h : AgreeAt N N' (streams D)) {s t : Sim α n}
    (hr : FlightRel D s t) (dt : α) :
    Alike (FlightRel D) (@Sim.updateDynamics α _ N n s dt) (@Sim.updateDynamics α _ N' n t dt) := by
  obtain ⟨hd, hst⟩ := hr
  obtain ⟨i, o, rfl⟩ := hst.exists
  unfold Sim.updateDynamics
  have hb : Sim.belowFloor { s with imu := i, odom := o } = s.belowFloor := rfl
  rw [hb]
  simp only []
  generalize (if s.belowFloor = true then _ else _ : Option (Vec 3 α)) = e
  cases e with
  | none => trivial
  | some ext =>
    simp only []
    obtain ⟨h1, h2⟩ := process_stream h hd s.actuation dt ext (!s.floorCollision)
    rw [← h1]
    cases hp : @Dyn.process α _ n N s.dyn s.actuation dt ext (!s.floorCollision) with
    | bad => trivial
    | throw d => rw [hp] at h2; exact ⟨h2, rfl⟩
    | ok d =>
      rw [hp] at h2
      simp only []
      have hb2 : Sim.belowFloor { s with imu := i, odom := o, extForce := vzero, dyn := d, floorCollision := false } =
        Sim.belowFloor { s with extForce := vzero, dyn := d, floorCollision := false } := rfl
      rw [hb2]
      split
      · exact ⟨h2, rfl⟩
      · exact ⟨h2, rfl⟩

lemma mk_seed {p : DynParams α n} {d : Dyn α n} (h : Dyn.mk' p = some d) : d.model.rng = ⟨p.seed, 0⟩ := by
  simp only [Dyn.mk', Option.map_eq_some_iff] at h
  obtain ⟨m, hm, rfl⟩ := h
  simp only [Model.mk', Model.updateParams] at hm
  split at hm
  · simp only [Option.some.injEq] at hm; rw [← hm]
  · split at hm
    · simp at hm
    · split at hm
      · simp only [Option.some.injEq] at hm; rw [← hm]
      · simp at hm

lemma step_stream {N N' : Noise α} {D : Set ℤ} (h : AgreeAt N N' (streams D)) {s t : Sim α n}
    (hr : FlightRel D s t) (o : SimOp α n) (ho : VehicleSeeds D o) :
    Alike (FlightRel D) (@Sim.step α _ N n s o) (@Sim.step α _ N' n t o) := by
  cases o with
  | updateDynamics dt => exact updateDynamics_stream h hr dt
  | setDynParams p =>
    obtain ⟨hd, hst⟩ := hr
    obtain ⟨i, o, rfl⟩ := hst.exists
    simp only [Sim.step, Sim.setDynParams]
    cases hm : Dyn.mk' p with
    | none => trivial
    | some d =>
      refine ⟨?_, rfl⟩
      rw [mk_seed hm]
      exact ho
  | setOdomParams p =>
    obtain ⟨hd, hst⟩ := hr
    obtain ⟨i, o, rfl⟩ := hst.exists
    simp only [Sim.step, Sim.setOdomParams]
    cases Odom.mk' p with
    | none => trivial
    | some o => exact ⟨hd, rfl⟩
  | mutDyn f =>
    obtain ⟨hd, hst⟩ := hr
    obtain ⟨i, o, rfl⟩ := hst.exists
    exact ⟨ho _ hd, rfl⟩
  | updateController dt =>
    obtain ⟨hd, hst⟩ := hr
    obtain ⟨i, o, rfl⟩ := hst.exists
    obtain ⟨_, _, _, _, armed, _, _, _, _, _, _, _, _, _, _, _, _, _, mode, yawMode⟩ := s
    cases armed <;> cases mode <;> cases yawMode <;> exact ⟨hd, rfl⟩
  | setControlMode m y =>
    obtain ⟨hd, hst⟩ := hr
    obtain ⟨i, o, rfl⟩ := hst.exists
    simp only [Sim.step, Sim.setControlMode]
    split
    · exact ⟨hd, rfl⟩
    · exact ⟨hd, rfl⟩
  | _ =>
    obtain ⟨hd, hst⟩ := hr
    obtain ⟨i, o, rfl⟩ := hst.exists
    exact ⟨hd, rfl⟩

lemma runs_stream {N N' : Noise α} {D : Set ℤ} (h : AgreeAt N N' (streams D)) {s u : Sim α n}
    {os : List (SimOp α n)} (hr : @Sim.Runs α _ N n s os u) : ∀ {t : Sim α n}, FlightRel D s t →
      (∀ o ∈ os, VehicleSeeds D o) → ∃ v, @Sim.Runs α _ N' n t os v ∧ FlightRel D u v := by
  induction hr with
  | nil s => exact fun {t} h _ => ⟨t, .nil _, h⟩
  | @ok s s' u o os hs _ ih =>
    intro t hrel ho
    have h1 := step_stream h hrel o (ho o (by simp))
    rw [hs] at h1
    cases ht : @Sim.step α _ N' n t o with
    | ok t' =>
      rw [ht] at h1
      obtain ⟨v, hv, hv'⟩ := ih h1 fun o ho' => ho o (by simp [ho'])
      exact ⟨v, .ok ht hv, hv'⟩
    | throw t' => rw [ht] at h1; exact h1.elim
    | bad => rw [ht] at h1; exact h1.elim
  | @throw s s' u o os hs _ ih =>
    intro t hrel ho
    have h1 := step_stream h hrel o (ho o (by simp))
    rw [hs] at h1
    cases ht : @Sim.step α _ N' n t o with
    | throw t' =>
      rw [ht] at h1
      obtain ⟨v, hv, hv'⟩ := ih h1 fun o ho' => ho o (by simp [ho'])
      exact ⟨v, .throw ht hv, hv'⟩
    | ok t' => rw [ht] at h1; exact h1.elim
    | bad => rw [ht] at h1; exact h1.elim

/-- Two new simulators with the same parameters differ at most in their IMU. -/
lemma mk_parts {N : Noise α} {p : SimParams α n} {s : Sim α n} (hs : @Sim.mk' α _ N n p = some s) :
    Dyn.mk' p.dyn = some s.dyn ∧
      ∀ M : Noise α, @Sim.mk' α _ M n p = some { s with imu := @Imu.mk' α _ M p.imu } := by
  simp only [Sim.mk'] at hs ⊢
  cases hd : Dyn.mk' p.dyn with
  | none => simp [hd] at hs
  | some d =>
    cases hod : Odom.mk' p.odom with
    | none => simp [hd, hod] at hs
    | some od =>
      simp only [hd, hod, Option.some.injEq] at hs
      subst hs
      exact ⟨rfl, fun M => rfl⟩

/-- **C89, flight.** The flight uses only random numbers of the streams seeded for the dynamics: two simulators built
from the same parameters, given the same calls and the same numbers in these streams fly the same flight (rotors,
controller, references and exceptions included), whatever numbers the sensors see. -/
theorem C89_flight (p : SimParams α n) (D : Set ℤ) (N N' : Noise α) (h : AgreeAt N N' (streams D))
    (hp : p.dyn.seed ∈ D) (os : List (SimOp α n)) (ho : ∀ o ∈ os, VehicleSeeds D o) (s t : Sim α n)
    (hs : @Sim.mk' α _ N n p = some s) (hr : @Sim.Runs α _ N n s os t) :
    ∃ s' t', @Sim.mk' α _ N' n p = some s' ∧ @Sim.Runs α _ N' n s' os t' ∧ SameFlight t t' := by
  obtain ⟨h1, h2⟩ := mk_parts hs
  obtain ⟨v, hv, hv'⟩ := runs_stream h hr (t := { s with imu := @Imu.mk' α _ N' p.imu })
    ⟨by rw [mk_seed h1]; exact hp, rfl⟩ ho
  exact ⟨_, v, h2 N', hv, hv'.2⟩

/-! ### The sensors -/

/-- What one call needs to know about the IMU. -/
def ImuRel (I : Set ℤ) (s t : Sim α n) : Prop :=
  s.floorEnable = false ∧ t.floorEnable = false ∧ s.imu.rng.seed ∈ I ∧
    t.imu = { s.imu with gyro := t.imu.gyro, accel := t.imu.accel }

lemma updateDynamics_keeps [Noise α] {s s' : Sim α n} {dt : α} (hf : s.floorEnable = false)
    (h : s.updateDynamics dt = .ok s' ∨ s.updateDynamics dt = .throw s') :
    s'.floorEnable = false ∧ s'.imu = s.imu := by
  rcases Sim.updateDynamics_cases s dt with ⟨-, -, hb⟩ | ⟨ext, -, hu⟩
  · rw [hb] at h; simp at h
  · rw [hu] at h
    cases hp : s.dyn.process s.actuation dt ext (!s.floorCollision) with
    | bad => simp [hp] at h
    | throw d =>
      simp only [hp, Res.throw.injEq, reduceCtorEq, false_or] at h
      subst h
      exact ⟨hf, rfl⟩
    | ok d =>
      have : Sim.belowFloor { s with extForce := vzero, dyn := d, floorCollision := false } = false := by
        simp [Sim.belowFloor, hf]
      simp only [hp, this] at h
      simp only [Bool.false_eq_true, if_false, Res.ok.injEq, reduceCtorEq, or_false] at h
      subst h
      exact ⟨hf, rfl⟩

lemma imuUpdate_stream {N N' : Noise α} {I : Set ℤ} (h : AgreeAt N N' (streams I)) {i j : Imu α}
    (hi : i.rng.seed ∈ I) (hij : j = { i with gyro := j.gyro, accel := j.accel }) (dt : α) (f f' w w' : Vec 3 α) :
    (@Imu.update α _ N dt f w i).rng.seed ∈ I ∧
    @Imu.update α _ N' dt f' w' j = { @Imu.update α _ N dt f w i with
      gyro := (@Imu.update α _ N' dt f' w' j).gyro, accel := (@Imu.update α _ N' dt f' w' j).accel } := by
  have h0 : ∀ k, N.draw i.rng.seed k = N'.draw i.rng.seed k := fun k => h _ k hi
  generalize j.gyro = a at hij
  generalize j.accel = b at hij
  subst hij
  unfold Imu.update
  split
  · exact ⟨hi, rfl⟩
  · refine ⟨hi, ?_⟩
    simp only [Imu.processMeasurement, Imu.processBias, Imu.scaledDraw, Rng.draw3, h0]

lemma imuMk_stream {N N' : Noise α} {I : Set ℤ} (h : AgreeAt N N' (streams I)) {p : ImuParams α} (hp : p.seed ∈ I) :
    @Imu.mk' α _ N p = @Imu.mk' α _ N' p ∧ (@Imu.mk' α _ N p).rng.seed ∈ I := by
  have h0 : ∀ k, N.draw p.seed k = N'.draw p.seed k := fun k => h _ k hp
  refine ⟨?_, hp⟩
  simp only [Imu.mk', Imu.scaledDraw, Rng.draw3, h0]

lemma step_imu {N N' : Noise α} {I : Set ℤ} (h : AgreeAt N N' (streams I)) {s t s' t' : Sim α n} (hr : ImuRel I s t)
    {o : SimOp α n} (ho : SensorSeeds I o)
    (hs : @Sim.step α _ N n s o = .ok s' ∨ @Sim.step α _ N n s o = .throw s')
    (ht : @Sim.step α _ N' n t o = .ok t' ∨ @Sim.step α _ N' n t o = .throw t') : ImuRel I s' t' := by
  obtain ⟨h1, h2, h3, h4⟩ := hr
  cases o with
  | updateDynamics dt =>
    obtain ⟨a1, a2⟩ := @updateDynamics_keeps α _ n N _ _ _ h1 hs
    obtain ⟨b1, b2⟩ := @updateDynamics_keeps α _ n N' _ _ _ h2 ht
    exact ⟨a1, b1, by rw [a2]; exact h3, by rw [a2, b2]; exact h4⟩
  | updateImu dt =>
    simp only [Sim.step, Res.ok.injEq, reduceCtorEq, or_false] at hs ht
    subst hs ht
    exact ⟨h1, h2, imuUpdate_stream h h3 h4 _ _ _ _ _⟩
  | updateController dt =>
    simp only [Sim.step, Res.ok.injEq, reduceCtorEq, or_false] at hs ht
    subst hs ht
    have key : ∀ u : Sim α n, (u.updateController dt).imu = u.imu ∧
        (u.updateController dt).floorEnable = u.floorEnable := by
      intro u
      obtain ⟨_, _, _, _, armed, _, _, _, _, _, _, _, _, _, _, _, _, _, mode, yawMode⟩ := u
      cases armed <;> cases mode <;> cases yawMode <;> exact ⟨rfl, rfl⟩
    unfold ImuRel
    rw [(key s).1, (key s).2, (key t).1, (key t).2]
    exact ⟨h1, h2, h3, h4⟩
  | setImuParams p =>
    simp only [Sim.step, Res.ok.injEq, reduceCtorEq, or_false] at hs ht
    subst hs ht
    obtain ⟨a, b⟩ := imuMk_stream h (p := p) ho
    refine ⟨h1, h2, b, ?_⟩
    simp only [Sim.setImuParams, a]
  | mutImu f => exact ho.elim
  | enableFloor x => exact ho.elim
  | setDynParams p =>
    simp only [Sim.step, Sim.setDynParams] at hs ht
    cases hm : Dyn.mk' p with
    | none => simp [hm] at hs
    | some d =>
      simp only [hm, Res.ok.injEq, reduceCtorEq, or_false] at hs ht
      subst hs ht
      exact ⟨h1, h2, h3, h4⟩
  | setOdomParams p =>
    simp only [Sim.step, Sim.setOdomParams] at hs ht
    cases hm : Odom.mk' p with
    | none => simp [hm] at hs
    | some d =>
      simp only [hm, Res.ok.injEq, reduceCtorEq, or_false] at hs ht
      subst hs ht
      exact ⟨h1, h2, h3, h4⟩
  | setControlMode m y =>
    simp only [Sim.step, Sim.setControlMode, Res.ok.injEq, reduceCtorEq, or_false] at hs ht
    subst hs ht
    split <;> split <;> exact ⟨h1, h2, h3, h4⟩
  | disableFloor =>
    simp only [Sim.step, Res.ok.injEq, reduceCtorEq, or_false] at hs ht
    subst hs ht
    exact ⟨rfl, rfl, h3, h4⟩
  | _ =>
    simp only [Sim.step, Res.ok.injEq, reduceCtorEq, or_false] at hs ht
    subst hs ht
    exact ⟨h1, h2, h3, h4⟩

lemma runs_imu {N N' : Noise α} {I : Set ℤ} (h : AgreeAt N N' (streams I)) {s u : Sim α n} {os : List (SimOp α n)}
    (hr : @Sim.Runs α _ N n s os u) : ∀ {t v : Sim α n}, ImuRel I s t → (∀ o ∈ os, SensorSeeds I o) →
      @Sim.Runs α _ N' n t os v → ImuRel I u v := by
  have key : ∀ {s s' : Sim α n} {o os}, (@Sim.step α _ N n s o = .ok s' ∨ @Sim.step α _ N n s o = .throw s') →
      ∀ {u}, (∀ {t v : Sim α n}, ImuRel I s' t → (∀ o ∈ os, SensorSeeds I o) → @Sim.Runs α _ N' n t os v → ImuRel I u v) →
      ∀ {t v : Sim α n}, ImuRel I s t → (∀ o' ∈ o :: os, SensorSeeds I o') → @Sim.Runs α _ N' n t (o :: os) v →
        ImuRel I u v := by
    intro s s' o os hs u ih t v hrel ho hv
    cases hv with
    | ok ht hv => exact ih (step_imu h hrel (ho o (by simp)) hs (.inl ht)) (fun o ho' => ho o (by simp [ho'])) hv
    | throw ht hv => exact ih (step_imu h hrel (ho o (by simp)) hs (.inr ht)) (fun o ho' => ho o (by simp [ho'])) hv
  induction hr with
  | nil s =>
    intro t v hrel _ hv
    cases hv
    exact hrel
  | ok hs _ ih => exact key (.inl hs) ih
  | throw hs _ ih => exact key (.inr hs) ih

lemma mk_imu {N N' : Noise α} {I : Set ℤ} (h : AgreeAt N N' (streams I)) {p : SimParams α n} (hp : p.imu.seed ∈ I)
    {s s' : Sim α n} (hs : @Sim.mk' α _ N n p = some s) (hs' : @Sim.mk' α _ N' n p = some s') : ImuRel I s s' := by
  have e := (mk_parts hs).2 N'
  rw [hs', Option.some.injEq] at e
  have e1 := (mk_parts hs).2 N
  rw [hs, Option.some.injEq] at e1
  have f : s.floorEnable = false := by
    simp only [Sim.mk'] at hs
    split at hs
    · simp only [Option.some.injEq] at hs; rw [← hs]
    · simp at hs
  obtain ⟨a, b⟩ := imuMk_stream h hp
  have e2 : s.imu = @Imu.mk' α _ N p.imu := congrArg Sim.imu e1
  subst e
  refine ⟨f, f, ?_, ?_⟩
  · rw [e2]; exact b
  · rw [e2, a]

/-- **C89, sensors.** The errors of the IMU use only random numbers of the streams seeded for the IMU: while no floor
is enabled (a floor contact clears the biases, C07), two simulators built from the same parameters, given the same
calls and the same numbers in these streams have the same biases, whatever disturbances the two vehicles see. -/
theorem C89_sensors (p : SimParams α n) (I : Set ℤ) (N N' : Noise α) (h : AgreeAt N N' (streams I))
    (hp : p.imu.seed ∈ I) (os : List (SimOp α n)) (ho : ∀ o ∈ os, SensorSeeds I o) (s t s' t' : Sim α n)
    (hs : @Sim.mk' α _ N n p = some s) (hr : @Sim.Runs α _ N n s os t)
    (hs' : @Sim.mk' α _ N' n p = some s') (hr' : @Sim.Runs α _ N' n s' os t') : SameBias t t' := by
  have h0 := mk_imu h hp hs hs'
  obtain ⟨-, -, -, h4⟩ := runs_imu h hr h0 ho hr'
  unfold SameBias
  rw [h4]
  exact ⟨rfl, rfl⟩

/-! ### The claim -/

/-- A history leads to one result. -/
lemma runs_det [Noise α] {s t : Sim α n} {os : List (SimOp α n)} (h : s.Runs os t) :
    ∀ {t' : Sim α n}, s.Runs os t' → t = t' := by
  induction h with
  | nil s => intro t' h'; cases h'; rfl
  | ok hs _ ih =>
    intro t' h'
    cases h' with
    | ok hs' h' => rw [hs, Res.ok.injEq] at hs'; subst hs'; exact ih h'
    | throw hs' h' => rw [hs] at hs'; simp at hs'
  | throw hs _ ih =>
    intro t' h'
    cases h' with
    | throw hs' h' => rw [hs, Res.throw.injEq] at hs'; subst hs'; exact ih h'
    | ok hs' h' => rw [hs] at hs'; simp at hs'

/-- A call that neither replaces parameters nor hands out a component nor enables a floor. -/
def Plain : SimOp α n → Prop
  | .setDynParams _ | .setCtlParams _ | .setImuParams _ | .setOdomParams _ | .mutDyn _ | .mutCtl _ | .mutImu _ |
    .mutOdom _ | .enableFloor _ => False
  | _ => True

/-- The random numbers that decide the flight and those that decide the biases of the IMU are different ones: there
are disjoint sets of numbers of which the first determines the flight and the second the biases. -/
def Separate (p : SimParams α n) : Prop :=
  ∃ D I : Set (ℤ × ℕ), Disjoint D I ∧
    ∀ (N N' : Noise α) (os : List (SimOp α n)) (s t s' t' : Sim α n), (∀ o ∈ os, Plain o) →
      @Sim.mk' α _ N n p = some s → @Sim.Runs α _ N n s os t →
      @Sim.mk' α _ N' n p = some s' → @Sim.Runs α _ N' n s' os t' →
      (AgreeAt N N' D → t.dyn.state = t'.dyn.state) ∧ (AgreeAt N N' I → SameBias t t')

/-- **C89, partial.** With different seeds for the dynamics and the IMU no random number is used by both.  (Missing:
equal seeds, see `C89_violated`.) -/
theorem C89_separate_partial (p : SimParams α n) (h : p.dyn.seed ≠ p.imu.seed) : Separate p := by
  refine ⟨streams {p.dyn.seed}, streams {p.imu.seed}, ?_, ?_⟩
  · rw [Set.disjoint_left]
    rintro ⟨a, k⟩ ha hb
    exact h ((show a = p.dyn.seed from ha).symm.trans hb)
  · intro N N' os s t s' t' ho hs hr hs' hr'
    constructor
    · intro hag
      obtain ⟨s'', t'', h1, h2, h3⟩ := C89_flight p _ N N' hag rfl os (fun o hm => by
        have := ho o hm
        cases o <;> trivial) s t hs hr
      have e : t'' = t' := by
        rw [hs', Option.some.injEq] at h1
        subst h1
        exact @runs_det α _ n N' _ _ _ h2 _ hr'
      rw [← e, h3]
    · intro hag
      exact C89_sensors p _ N N' hag rfl os (fun o hm => by
        have := ho o hm
        cases o <;> trivial) s t s' t' hs hr hs' hr'

end

/-- **C89, readings.** The same for what the sensors report: after a further update of the IMU the errors of the two
readings, compared with what the vehicle really does, are the same, although the vehicles may fly differently. -/
theorem C89_readings {n : ℕ} (p : SimParams ℝ n) (I : Set ℤ) (N N' : Noise ℝ) (h : AgreeAt N N' (streams I))
    (hp : p.imu.seed ∈ I) (os : List (SimOp ℝ n)) (ho : ∀ o ∈ os, SensorSeeds I o) (s t s' t' : Sim ℝ n)
    (hs : @Sim.mk' ℝ _ N n p = some s) (hr : @Sim.Runs ℝ _ N n s os t)
    (hs' : @Sim.mk' ℝ _ N' n p = some s') (hr' : @Sim.Runs ℝ _ N' n s' os t') (dt : ℝ) (h0 : 0 < dt) :
    (@Sim.updateImu ℝ _ N n t dt).imu.gyro - t.imu.oriInv.rotate t.dyn.state.angVel =
      (@Sim.updateImu ℝ _ N' n t' dt).imu.gyro - t'.imu.oriInv.rotate t'.dyn.state.angVel ∧
    (@Sim.updateImu ℝ _ N n t dt).imu.accel - t.imu.oriInv.rotate (t.dyn.state.ori.rotate t.dyn.state.force) =
      (@Sim.updateImu ℝ _ N' n t' dt).imu.accel -
        t'.imu.oriInv.rotate (t'.dyn.state.ori.rotate t'.dyn.state.force) := by
  obtain ⟨-, -, h3, h4⟩ := runs_imu h hr (mk_imu h hp hs hs') ho hr'
  have hd : ∀ k, N.draw t.imu.rng.seed k = N'.draw t.imu.rng.seed k := fun k => h _ k h3
  simp only [Sim.updateImu, Imu.update, Imu.processMeasurement, Imu.processBias, Imu.scaledDraw, Rng.draw3]
  rw [h4]
  simp only [flt, not_le.2 h0, decide_false, Bool.false_eq_true, if_false, hd]
  constructor <;> abel

/-- Non-vacuity of the two theorems and of `C89_flight`: the vehicle and the IMU of the fixture have the seeds 7 and 3;
in the second world every number of the stream 3 is another one. -/
example : ∃ (N N' : Noise ℝ) (s t s' t' : Sim ℝ 4), AgreeAt N N' (streams {7}) ∧ ¬ AgreeAt N N' (streams {3}) ∧
    @Sim.mk' ℝ _ N 4 Fixture.simParams = some s ∧
    @Sim.Runs ℝ _ N 4 s [.updateDynamics (1 / 100), .updateImu (1 / 100)] t ∧
    @Sim.mk' ℝ _ N' 4 Fixture.simParams = some s' ∧
    @Sim.Runs ℝ _ N' 4 s' [.updateDynamics (1 / 100), .updateImu (1 / 100)] t' ∧ SameFlight t t' := by
  let N : Noise ℝ := ⟨fun _ _ _ => 0⟩
  let N' : Noise ℝ := ⟨fun seed _ _ => if seed = 3 then 1 else 0⟩
  have hag : AgreeAt N N' (streams {7}) := by
    intro seed k hk
    have e : seed = 7 := hk
    subst e
    funext i
    rfl
  obtain ⟨t, ht⟩ := @Fixture.updateDynamics_ok N (@Fixture.sim N) rfl (1 / 100) (by norm_num) le_rfl
  have hr : @Sim.Runs ℝ _ N 4 (@Fixture.sim N) [.updateDynamics (1 / 100), .updateImu (1 / 100)] _ :=
    @Sim.Runs.ok ℝ _ N 4 _ _ _ _ _ ht (@Sim.Runs.ok ℝ _ N 4 _ _ _ _ _ rfl (@Sim.Runs.nil ℝ _ N 4 _))
  obtain ⟨s', t', h1, h2, h3⟩ := C89_flight Fixture.simParams {7} N N' hag rfl _ (by simp [VehicleSeeds]) _ _
    (@Fixture.mk_sim N) hr
  refine ⟨N, N', _, _, s', t', hag, ?_, @Fixture.mk_sim N, hr, h1, h2, h3⟩
  intro hn
  have := congrFun (hn 3 0 rfl) 0
  change (0 : ℝ) = 1 at this
  norm_num at this

/-- Non-vacuity of `C89_separate_partial`: the seeds of the fixture differ. -/
example : Separate Fixture.simParams :=
  C89_separate_partial _ (by simp [Fixture.simParams, Fixture.dynParams])

/-- **C89.** In every configuration the flight and the IMU use different random numbers. -/
def C89_claim : Prop := ∀ (n : ℕ) (p : SimParams ℝ n), Separate p

/-- The parameters in use are those of the constructor. -/
lemma mk_core_params {α : Type} [Flt α] {n : ℕ} {p : DynParams α n} {d : Dyn α n} {c : ModelCore α n}
    (h : Dyn.mk' p = some d) (hc : d.model.core = some c) : c.params = p.model := by
  simp only [Dyn.mk', Option.map_eq_some_iff] at h
  obtain ⟨m, hm, rfl⟩ := h
  simp only [Model.mk', Model.updateParams] at hm
  split at hm
  · simp only [Option.some.injEq] at hm; rw [← hm] at hc; simp at hc
  · split at hm
    · simp at hm
    · split at hm
      · simp only [Option.some.injEq] at hm
        rw [← hm] at hc
        simp only [Option.some.injEq] at hc
        rw [← hc]
        rfl
      · simp at hm

/-- The simulator of the fixture with the seed of the dynamics also in the IMU. -/
noncomputable def sharedParams : SimParams ℝ 4 :=
  { Fixture.simParams with imu := { Fixture.simParams.imu with seed := 7 } }

lemma shared_mk [Noise ℝ] : Sim.mk' sharedParams = some { Fixture.sim with imu := Imu.mk' sharedParams.imu } := by
  have h := Fixture.mk_sim
  simp only [Sim.mk'] at h ⊢
  rw [show sharedParams.dyn = Fixture.simParams.dyn from rfl, show sharedParams.odom = Fixture.simParams.odom from rfl]
  cases hd : Dyn.mk' Fixture.simParams.dyn with
  | none => simp [hd] at h
  | some d =>
    cases hod : Odom.mk' Fixture.simParams.odom with
    | none => simp [hd, hod] at h
    | some od =>
      simp only [hd, hod, Option.some.injEq] at h ⊢
      rw [← h]
      rfl

/-- **C89, correlation.** With equal seeds (both default to 0) the disturbance force of the first update of the
dynamics is, up to the two standard deviations, the initial gyroscope bias, and the disturbance moment is the initial
accelerometer bias. -/
theorem C89_same_numbers {n : ℕ} [Noise ℝ] (p : SimParams ℝ n) (h : p.dyn.seed = p.imu.seed) (s s' : Sim ℝ n) (dt : ℝ)
    (h0 : 0 < dt) (h1 : dt ≤ 1 / 100) (hs : Sim.mk' p = some s) (hu : s.updateDynamics dt = .ok s') (i : Fin 3) :
    s'.dyn.model.stochForce i * Real.sqrt p.imu.gyroVar =
      Real.sqrt (p.dyn.model.forceNoise / dt) * s'.imu.gyroBias i ∧
    s'.dyn.model.stochMoment i * Real.sqrt p.imu.accelVar =
      Real.sqrt (p.dyn.model.momentNoise / dt) * s'.imu.accelBias i := by
  obtain ⟨hd, hm⟩ := mk_parts hs
  have hi : s.imu = Imu.mk' p.imu := by
    have := hm inferInstance
    rw [hs, Option.some.injEq] at this
    exact congrArg Sim.imu this
  have hn : s.floorCollision = false ∧ s.floorEnable = false := by
    simp only [Sim.mk'] at hs
    split at hs
    · simp only [Option.some.injEq] at hs; rw [← hs]; exact ⟨rfl, rfl⟩
    · simp at hs
  obtain ⟨ext, d, -, hp, rfl⟩ := Sim.updateDynamics_ok hu
  rw [hn.1, Dyn.process_small _ _ _ _ _ (by simp [flt, h0]) (by simp [Dyn.maxStep, flt]; linarith)] at hp
  obtain ⟨c, ms, hc, -, -, rfl⟩ := Dyn.singleStep_ok hp
  have hcp := mk_core_params hd hc
  have hb : Sim.belowFloor { s with
      extForce := vzero, dyn := Dyn.eulerStep c ms s.dyn s.actuation dt ext true, floorCollision := false } = false := by
    simp [Sim.belowFloor, hn.2]
  have hs2 : (Model.setNoise c dt s.dyn.model).stochForce = fun i =>
      Real.sqrt (p.dyn.model.forceNoise / dt) * Noise.draw p.dyn.seed 0 i := by
    simp only [Model.setNoise, Rng.draw3, mk_seed hd, hcp]
    simp [flt, not_le.2 h0]
  have hs3 : (Model.setNoise c dt s.dyn.model).stochMoment = fun i =>
      Real.sqrt (p.dyn.model.momentNoise / dt) * Noise.draw p.dyn.seed 1 i := by
    simp only [Model.setNoise, Rng.draw3, mk_seed hd, hcp]
    simp [flt, not_le.2 h0]
  simp only [Bool.not_false, hb, Bool.false_eq_true, if_false]
  simp only [Dyn.eulerStep, if_true, hs2, hs3, hi]
  simp only [Imu.mk', Imu.scaledDraw, Rng.draw3, flt, h]
  constructor <;> ring

/-- Non-vacuity: equal seeds, a first step of 10 ms. -/
example [Noise ℝ] : ∃ (p : SimParams ℝ 4) (s s' : Sim ℝ 4), p.dyn.seed = p.imu.seed ∧ Sim.mk' p = some s ∧
    s.updateDynamics (1 / 100) = .ok s' ∧ 0 < p.imu.gyroVar ∧ 0 < p.dyn.model.forceNoise := by
  obtain ⟨s', h⟩ := Fixture.updateDynamics_ok { Fixture.sim with imu := Imu.mk' sharedParams.imu } rfl (1 / 100)
    (by norm_num) le_rfl
  exact ⟨sharedParams, _, s', rfl, shared_mk, h, by simp [sharedParams, Fixture.simParams],
    by simp [sharedParams, Fixture.simParams, Fixture.dynParams, Fixture.modelParams]⟩

/-- All numbers zero except the triple `(7, 0)`. -/
@[reducible] noncomputable def oneTriple (x : ℝ) : Noise ℝ := ⟨fun seed k _ => if seed = 7 ∧ k = 0 then x else 0⟩

lemma oneTriple_draw (x : ℝ) (seed : ℤ) (k : ℕ) (i : Fin 3) :
    @Noise.draw ℝ (oneTriple x) seed k i = if seed = 7 ∧ k = 0 then x else 0 := rfl

/-- **C89 is violated**: with equal seeds the first triple of the stream is used for the disturbance force and for the
initial gyroscope bias. -/
theorem C89_violated : ¬ C89_claim := by
  intro hc
  obtain ⟨D, I, hdis, hsep⟩ := hc 4 sharedParams
  have hag : ∀ S : Set (ℤ × ℕ), ((7 : ℤ), 0) ∉ S → AgreeAt (oneTriple 0) (oneTriple 1) S := by
    intro S hS seed k hk
    funext i
    have : ¬ (seed = 7 ∧ k = 0) := by rintro ⟨rfl, rfl⟩; exact hS hk
    rw [oneTriple_draw, oneTriple_draw, if_neg this, if_neg this]
  by_cases hD : ((7 : ℤ), 0) ∈ D
  · -- the bias
    have hI : ((7 : ℤ), 0) ∉ I := fun hI => Set.disjoint_left.1 hdis hD hI
    have h := (hsep (oneTriple 0) (oneTriple 1) [] _ _ _ _ (by simp) (@shared_mk (oneTriple 0))
      (@Sim.Runs.nil ℝ _ (oneTriple 0) 4 _) (@shared_mk (oneTriple 1)) (@Sim.Runs.nil ℝ _ (oneTriple 1) 4 _)).2 (hag I hI)
    have := congrFun h.1 0
    simp [Imu.mk', Imu.scaledDraw, Rng.draw3, oneTriple_draw, sharedParams, Fixture.simParams, flt] at this
  · -- the flight
    have hstep : ∀ N : Noise ℝ, @Sim.updateDynamics ℝ _ N 4
        { @Fixture.sim N with imu := @Imu.mk' ℝ _ N sharedParams.imu } (1 / 100) = .ok
          { @Fixture.sim N with
            imu := @Imu.mk' ℝ _ N sharedParams.imu
            extForce := vzero
            dyn := @Dyn.eulerStep ℝ _ 4 N Fixture.core Fixture.motors Fixture.dyn vzero (1 / 100) vzero true
            floorCollision := false } := by
      intro N
      have := @Fixture.process_ok N Fixture.dyn rfl vzero (1 / 100) (by norm_num) le_rfl vzero true
      simp only [Sim.updateDynamics, Sim.belowFloor, Fixture.sim, Bool.false_and, Bool.not_false, Bool.false_eq_true,
        if_false, this]
    have h := (hsep (oneTriple 0) (oneTriple 1) [.updateDynamics (1 / 100)] _ _ _ _ (by simp [Plain])
      (@shared_mk (oneTriple 0)) (@Sim.Runs.ok ℝ _ (oneTriple 0) 4 _ _ _ _ _ (hstep _) (@Sim.Runs.nil ℝ _ (oneTriple 0) 4 _))
      (@shared_mk (oneTriple 1)) (@Sim.Runs.ok ℝ _ (oneTriple 1) 4 _ _ _ _ _ (hstep _) (@Sim.Runs.nil ℝ _ (oneTriple 1) 4 _))).1 (hag D hD)
    have := congrFun (congrArg State.vel h) 0
    simp only [Dyn.eulerStep, Dyn.totalForce, Model.setNoise, Rng.draw3, oneTriple_draw, Fixture.dyn, flt] at this
    norm_num [Fixture.core, Model.coreOf, Fixture.modelParams] at this

end Verif.Props
