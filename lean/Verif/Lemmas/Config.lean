import Verif.Spec.Config

/-!
# Reading a configuration file entry by entry
-/

namespace Verif

open Flt Spec Example

variable {α : Type} [Flt α]

omit [Flt α] in
lemma Config.vec_eq {c : Config α} {k : List String} {v : Vec 3 α} :
    c.vec k = some v ↔ ∀ i : Fin 3, c.entry k i = some (v i) := by
  simp only [Config.vec, Option.bind_eq_bind, Option.bind_eq_some_iff, Option.pure_def, Option.some.injEq]
  constructor
  · rintro ⟨x, hx, y, hy, z, hz, rfl⟩ i
    fin_cases i
    exacts [hx, hy, hz]
  · intro h
    refine ⟨_, h 0, _, h 1, _, h 2, ?_⟩
    funext i
    fin_cases i <;> rfl

omit [Flt α] in
lemma Config.vec_isSome {c : Config α} {k : List String} (h : ∀ i : Fin 3, (c.entry k i).isSome) :
    ∃ v, c.vec k = some v :=
  ⟨fun i => (c.entry k i).get (h i), Config.vec_eq.2 fun i => by simp⟩

omit [Flt α] in
lemma Config.vec_congr {c c' : Config α} {k : List String} (h : ∀ i : Fin 3, c.entry k i = c'.entry k i) :
    c.vec k = c'.vec k := by
  simp only [Config.vec]
  rw [show c.entry k 0 = _ from h 0, show c.entry k 1 = _ from h 1, show c.entry k 2 = _ from h 2]
  rfl

/-- What a controller section yields. -/
lemma pidOfYaml_values {c : Config α} {sec : List String} {limit : String} {filter : Bool} {p : PidParams α 3}
    (h : pidOfYaml c sec limit filter = some p) (f : α × SimParams α 4 → PidParams α 3) (q : α × SimParams α 4)
    (hf : f q = p) :
    ∀ e ∈ gainKeys sec limit filter f, ∀ i : Fin 3, c.entry e.1 i = some (e.2 q i) := by
  simp only [pidOfYaml, Option.bind_eq_bind, Option.bind_eq_some_iff, Option.pure_def, Option.some.injEq] at h
  obtain ⟨kp, h1, ki, h2, kd, h3, al, h4, aw, h5, lim, h6, rfl⟩ := h
  cases filter with
  | true =>
    simp only [gainKeys, if_true, List.cons_append, List.nil_append, List.forall_mem_cons, List.not_mem_nil,
      false_imp_iff, implies_true, and_true, hf]
    simp only [if_true] at h4
    exact ⟨Config.vec_eq.1 h1, Config.vec_eq.1 h2, Config.vec_eq.1 h3, Config.vec_eq.1 h5, Config.vec_eq.1 h6,
      Config.vec_eq.1 h4⟩
  | false =>
    simp only [gainKeys, Bool.false_eq_true, if_false, List.append_nil, List.forall_mem_cons, List.not_mem_nil,
      false_imp_iff, implies_true, and_true, hf]
    exact ⟨Config.vec_eq.1 h1, Config.vec_eq.1 h2, Config.vec_eq.1 h3, Config.vec_eq.1 h5, Config.vec_eq.1 h6⟩

/-- The limits of a controller section. -/
lemma pidOfYaml_limits {c : Config α} {sec : List String} {limit : String} {filter : Bool} {p : PidParams α 3}
    (h : pidOfYaml c sec limit filter = some p) :
    p.lower = (fun i => lit (-1) ⊠ p.upper i) ∧ p.propSat = true := by
  simp only [pidOfYaml, Option.bind_eq_bind, Option.bind_eq_some_iff, Option.pure_def, Option.some.injEq] at h
  obtain ⟨kp, h1, ki, h2, kd, h3, al, h4, aw, h5, lim, h6, rfl⟩ := h
  exact ⟨rfl, rfl⟩

lemma pidOfYaml_isSome {c : Config α} {sec : List String} {limit : String} {filter : Bool}
    (f : α × SimParams α 4 → PidParams α 3)
    (h : ∀ e ∈ gainKeys sec limit filter f, ∀ i : Fin 3, (c.entry e.1 i).isSome) :
    ∃ p, pidOfYaml c sec limit filter = some p := by
  have hal : ∃ al, (if filter then c.vec (sec ++ ["alpha"]) else some (PidParams.default : PidParams α 3).alpha) =
      some al := by
    cases filter with
    | true => exact Config.vec_isSome (h (sec ++ ["alpha"], fun q => (f q).alpha) (by simp [gainKeys]))
    | false => exact ⟨_, rfl⟩
  obtain ⟨al, h4⟩ := hal
  obtain ⟨kp, h1⟩ := Config.vec_isSome (h (sec ++ ["Kp"], fun q => (f q).kp) (by simp [gainKeys]))
  obtain ⟨ki, h2⟩ := Config.vec_isSome (h (sec ++ ["Ki"], fun q => (f q).ki) (by simp [gainKeys]))
  obtain ⟨kd, h3⟩ := Config.vec_isSome (h (sec ++ ["Kd"], fun q => (f q).kd) (by simp [gainKeys]))
  obtain ⟨aw, h5⟩ := Config.vec_isSome (h (sec ++ ["antiwindup_cte"], fun q => (f q).antiwindup) (by simp [gainKeys]))
  obtain ⟨lim, h6⟩ := Config.vec_isSome (h (sec ++ [limit], fun q => (f q).upper) (by simp [gainKeys]))
  simp only [pidOfYaml, Option.bind_eq_bind, h1, h2, h3, h4, h5, h6, Option.bind_some]
  exact ⟨_, rfl⟩

lemma pidOfYaml_congr {c c' : Config α} {sec : List String} {limit : String} {filter : Bool}
    (f : α × SimParams α 4 → PidParams α 3)
    (h : ∀ e ∈ gainKeys sec limit filter f, ∀ i : Fin 3, c.entry e.1 i = c'.entry e.1 i) :
    pidOfYaml c sec limit filter = pidOfYaml c' sec limit filter := by
  have h1 := Config.vec_congr (h (sec ++ ["Kp"], fun q => (f q).kp) (by simp [gainKeys]))
  have h2 := Config.vec_congr (h (sec ++ ["Ki"], fun q => (f q).ki) (by simp [gainKeys]))
  have h3 := Config.vec_congr (h (sec ++ ["Kd"], fun q => (f q).kd) (by simp [gainKeys]))
  have h5 := Config.vec_congr (h (sec ++ ["antiwindup_cte"], fun q => (f q).antiwindup) (by simp [gainKeys]))
  have h6 := Config.vec_congr (h (sec ++ [limit], fun q => (f q).upper) (by simp [gainKeys]))
  cases filter with
  | true =>
    have h4 := Config.vec_congr (h (sec ++ ["alpha"], fun q => (f q).alpha) (by simp [gainKeys]))
    simp only [pidOfYaml, h1, h2, h3, h4, h5, h6]
  | false => simp only [pidOfYaml, h1, h2, h3, h5, h6, Bool.false_eq_true, if_false]

/-- An airframe of four motors has an allocation matrix. -/
lemma allocation_quadX (kf kt x y lo hi tau J : α) :
    ∃ A, allocation (Model.quadX kf kt x y lo hi tau J) = some A := ⟨_, rfl⟩

end Verif
