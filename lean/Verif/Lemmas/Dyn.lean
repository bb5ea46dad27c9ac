import Verif.Model.Dynamics

/-!
# Helper lemmas about the dynamics, for any arithmetic
-/

namespace Verif

open Flt

namespace Dyn
variable {α : Type} [Flt α] [Noise α] {n : ℕ}

lemma process_nonpos (d : Dyn α n) (act : Vec n α) (dt : α) (ext : Vec 3 α) (noise : Bool)
    (h : le dt (lit 0) = true) : d.process act dt ext noise = .throw d := by
  simp [process, processDepth, h]

lemma process_small (d : Dyn α n) (act : Vec n α) (dt : α) (ext : Vec 3 α) (noise : Bool)
    (h : le dt (lit 0) = false) (h' : lt (maxStep : α) dt = false) :
    d.process act dt ext noise = d.singleStep act dt ext noise := by
  simp [process, processDepth, h, h']

lemma singleStep_ok {d d' : Dyn α n} {act : Vec n α} {dt : α} {ext : Vec 3 α} {noise : Bool}
    (h : d.singleStep act dt ext noise = .ok d') :
    ∃ c ms, d.model.core = some c ∧ Model.motorFn n c.params.motors = some ms ∧ clampOk ms = true ∧
      d' = eulerStep c ms d act dt ext noise := by
  unfold singleStep at h
  split at h
  · simp at h
  · rename_i c hc
    split at h
    · simp at h
    · rename_i ms hm
      split at h
      · rename_i hk
        simp only [Res.ok.injEq] at h
        exact ⟨c, ms, hc, hm, hk, h.symm⟩
      · simp at h

lemma singleStep_not_throw (d d' : Dyn α n) (act : Vec n α) (dt : α) (ext : Vec 3 α) (noise : Bool) :
    d.singleStep act dt ext noise ≠ .throw d' := by
  unfold singleStep
  split
  · simp
  · split
    · simp
    · split <;> simp

omit [Noise α] in
/-- Invariants of the loop body are invariants of the loop. -/
lemma forLoop_ind {σ : Type} {num : α} {body : σ → Res σ} {P : σ → Prop}
    (hb : ∀ s s', P s → body s = .ok s' → P s') :
    ∀ fuel i s s', P s → forLoop num body fuel i s = .ok s' → P s'
  | 0, i, s, s', hs, h => by
    unfold forLoop at h
    split at h
    · cases hbs : body s <;> simp [Res.bind, hbs] at h
    · simp only [Res.ok.injEq] at h; exact h ▸ hs
  | fuel + 1, i, s, s', hs, h => by
    unfold forLoop at h
    split at h
    · cases hbs : body s with
      | ok t =>
        simp only [Res.bind, hbs] at h
        exact forLoop_ind hb fuel (i + 1) t s' (hb s t hs hbs) h
      | throw t => simp [Res.bind, hbs] at h
      | bad => simp [Res.bind, hbs] at h
    · simp only [Res.ok.injEq] at h; exact h ▸ hs

omit [Noise α] in
/-- What every iteration establishes holds after the loop, if there is at least one iteration. -/
lemma forLoop_last {σ : Type} {num : α} {body : σ → Res σ} {P : σ → Prop}
    (hb : ∀ s s', body s = .ok s' → P s') {fuel : ℕ} {s s' : σ} (h0 : lt (lit 0) num = true)
    (h : forLoop num body fuel 0 s = .ok s') : P s' := by
  cases fuel with
  | zero =>
    unfold forLoop at h
    simp only [Nat.cast_zero, h0, if_true] at h
    cases hbs : body s <;> simp [Res.bind, hbs] at h
  | succ fuel =>
    unfold forLoop at h
    simp only [Nat.cast_zero, h0, if_true] at h
    cases hbs : body s with
    | ok t =>
      simp only [Res.bind, hbs] at h
      exact forLoop_ind (fun a b _ hab => hb a b hab) fuel 1 t s' (hb s t hbs) h
    | throw t => simp [Res.bind, hbs] at h
    | bad => simp [Res.bind, hbs] at h

lemma processDepth_ind {act : Vec n α} {ext : Vec 3 α} {noise : Bool} {P : Dyn α n → Prop}
    (hs : ∀ dt d d', P d → d.singleStep act dt ext noise = .ok d' → P d') :
    ∀ depth dt d d', P d → processDepth act ext noise depth dt d = .ok d' → P d'
  | 0, dt, d, d', _, h => by simp [processDepth] at h
  | depth + 1, dt, d, d', hd, h => by
    unfold processDepth at h
    split at h
    · simp at h
    · split at h
      · exact forLoop_ind (fun a b ha hab => processDepth_ind hs depth _ a b ha hab) _ _ _ _ hd h
      · exact hs _ _ _ hd h

/-- An invariant of the straight-line step is an invariant of the update. -/
lemma process_ind {act : Vec n α} {ext : Vec 3 α} {noise : Bool} {P : Dyn α n → Prop}
    (hs : ∀ dt d d', P d → d.singleStep act dt ext noise = .ok d' → P d') {dt : α} {d d' : Dyn α n}
    (hd : P d) (h : d.process act dt ext noise = .ok d') : P d' :=
  processDepth_ind hs 2 dt d d' hd h

/-- Sub-stepping takes at least one step: `dt > 0.01` implies `0 < dt / 0.01`.  True in IEEE arithmetic
and in exact arithmetic. -/
def SubstepPos (α : Type) [Flt α] : Prop :=
  ∀ dt : α, lt maxStep dt = true → lt (lit 0) (dt ⊘ maxStep) = true

lemma processDepth_last {act : Vec n α} {ext : Vec 3 α} {noise : Bool} {P : Dyn α n → Prop}
    (hp : SubstepPos α) (hs : ∀ dt (d d' : Dyn α n), d.singleStep act dt ext noise = .ok d' → P d') :
    ∀ depth dt d d', processDepth act ext noise depth dt d = .ok d' → P d'
  | 0, dt, d, d', h => by simp [processDepth] at h
  | depth + 1, dt, d, d', h => by
    unfold processDepth at h
    split at h
    · simp at h
    · split at h
      · rename_i hlt
        exact forLoop_last (fun a b hab => processDepth_last hp hs depth _ a b hab) (hp dt hlt) h
      · exact hs _ _ _ h

/-- What the straight-line step establishes holds after the update. -/
lemma process_last {act : Vec n α} {ext : Vec 3 α} {noise : Bool} {P : Dyn α n → Prop}
    (hp : SubstepPos α) (hs : ∀ dt (d d' : Dyn α n), d.singleStep act dt ext noise = .ok d' → P d') {dt : α}
    {d d' : Dyn α n} (h : d.process act dt ext noise = .ok d') : P d' :=
  processDepth_last hp hs 2 dt d d' h

omit [Noise α] in
@[simp] lemma disableNoise_core (m : Model α n) : m.disableNoise.core = m.core := rfl

@[simp] lemma setNoise_core (c : ModelCore α n) (dt : α) (m : Model α n) :
    (m.setNoise c dt).core = m.core := by
  unfold Model.setNoise
  split <;> rfl

@[simp] lemma eulerStep_core (c : ModelCore α n) (ms : Fin n → Motor α) (d : Dyn α n) (act : Vec n α)
    (dt : α) (ext : Vec 3 α) (noise : Bool) :
    (eulerStep c ms d act dt ext noise).model.core = d.model.core := by
  unfold eulerStep
  cases noise <;> simp

lemma process_core {d d' : Dyn α n} {act : Vec n α} {dt : α} {ext : Vec 3 α} {noise : Bool}
    (h : d.process act dt ext noise = .ok d') : d'.model.core = d.model.core :=
  process_ind (P := fun x => x.model.core = d.model.core)
    (fun dt a b ha hab => by
      obtain ⟨c, ms, h1, h2, h3, h4⟩ := singleStep_ok hab
      rw [h4, eulerStep_core, ha]) rfl h

omit [Flt α] [Noise α] in
lemma motorFn_get {ms : List (Motor α)} {f : Fin n → Motor α} (h : Model.motorFn n ms = some f) :
    ms.length = n ∧ ∀ i : Fin n, ms[i.val]? = some (f i) := by
  unfold Model.motorFn at h
  split at h
  · rename_i hl
    simp only [Option.some.injEq] at h
    subst h
    refine ⟨hl, fun i => ?_⟩
    simp [hl]
  · simp at h

end Dyn

end Verif
