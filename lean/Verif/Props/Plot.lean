import Verif.Model.Plot
import Verif.Spec.Plot
import Verif.Props.Csv

/-!
# C118, C119 — the plotting script
-/

namespace Verif.Props

open Flt Spec

variable {α : Type}

namespace PlotAux

open Plot

lemma csvFields_split (l field : List Char) :
    csvFields field l = (field ++ (splitComma l).headD []) :: (splitComma l).tail := by
  induction l generalizing field with
  | nil => simp [csvFields, splitComma]
  | cons c cs ih =>
    simp only [csvFields, splitComma]
    split_ifs with hc
    · simp only [ih, List.nil_append, List.headD_cons, List.append_nil, List.tail_cons]
      cases h : splitComma cs with
      | nil => exact absurd h (splitComma_ne cs)
      | cons a b => simp
    · rw [ih]
      cases h : splitComma cs with
      | nil => exact absurd h (splitComma_ne cs)
      | cons a b => simp

lemma csvRow_split {l : List Char} (h : l ≠ []) : csvRow l = splitComma l := by
  rw [csvRow, if_neg h, csvFields_split]
  cases h : splitComma l with
  | nil => exact absurd h (splitComma_ne l)
  | cons a b => simp

lemma get_put (d : Dict α) (k k' : List Char) (x : α) :
    (d.put k x).get k' = if k = k' then d.get k' ++ [x] else d.get k' := by
  induction d with
  | nil => simp [Dict.put, Dict.get]
  | cons a d ih =>
    obtain ⟨j, l⟩ := a
    simp only [Dict.put]
    by_cases hj : j = k
    · rw [if_pos hj]
      subst hj
      simp only [Dict.get]
      split_ifs <;> rfl
    · rw [if_neg hj]
      simp only [Dict.get, ih]
      by_cases hk : j = k'
      · rw [if_pos hk, if_pos hk]
        subst hk
        rw [if_neg (Ne.symm hj)]
      · rw [if_neg hk, if_neg hk]

lemma keys_put (d : Dict α) (k : List Char) (x : α) :
    (d.put k x).keys = if k ∈ d.keys then d.keys else d.keys ++ [k] := by
  induction d with
  | nil => simp [Dict.put, Dict.keys]
  | cons a d ih =>
    obtain ⟨j, l⟩ := a
    simp only [Dict.put]
    by_cases hj : j = k
    · rw [if_pos hj]
      subst hj
      simp [Dict.keys]
    · rw [if_neg hj]
      simp only [Dict.keys, List.map_cons, List.mem_cons, List.cons_append] at ih ⊢
      rw [ih]
      by_cases hk : k ∈ d.map Prod.fst
      · simp [hk]
      · simp [hk, Ne.symm hj]

section

variable {pr : α → List Char} {parse : List Char → Option α} {rd : α → α}

/-- One row, from some column on. -/
lemma readRow_spec (h : ReadsBack pr parse rd) (names : List (List Char)) (hn : names.Nodup) (vs : List α) :
    ∀ (j m : ℕ) (d : Dict α), j + vs.length ≤ names.length → j ≤ m → m ≤ names.length → d.keys = names.take m →
    ∃ d', readRow parse (names.drop j) (vs.map pr) d = some d' ∧ d'.keys = names.take (max m (j + vs.length)) ∧
      ∀ i (hi : i < names.length), d'.get names[i] =
        d.get names[i] ++ (if j ≤ i then (vs[i - j]?.map rd).toList else []) := by
  induction vs with
  | nil =>
    intro j m d h1 h2 h3 hk
    refine ⟨d, ?_, ?_, fun i hi => by simp⟩
    · cases names.drop j <;> simp [readRow]
    · simpa [Nat.max_eq_left h2] using hk
  | cons v vs ih =>
    intro j m d h1 h2 h3 hk
    have hj : j < names.length := by simp at h1; omega
    have hkeys : (d.put names[j] (rd v)).keys = names.take (max m (j + 1)) := by
      rw [keys_put, hk]
      by_cases hm : j < m
      · rw [if_pos, Nat.max_eq_left (by omega)]
        exact List.mem_take_iff_getElem.2 ⟨j, by omega, rfl⟩
      · have : m = j := by omega
        subst this
        rw [if_neg, Nat.max_eq_right (by omega), List.take_succ_eq_append_getElem hj]
        intro hc
        obtain ⟨i, hi, he⟩ := List.mem_take_iff_getElem.1 hc
        have := (List.Nodup.getElem_inj_iff hn).1 he
        omega
    obtain ⟨d', e1, e2, e3⟩ := ih (j + 1) (max m (j + 1)) (d.put names[j] (rd v)) (by simp at h1; omega)
      (by omega) (by omega) hkeys
    refine ⟨d', ?_, ?_, fun i hi => ?_⟩
    · rw [List.drop_eq_getElem_cons hj, List.map_cons, readRow, if_neg (h v).1, (h v).2.2]
      exact e1
    · rw [e2, List.length_cons]
      congr 1
      omega
    · rw [e3 i hi, get_put]
      by_cases hij : j = i
      · subst hij
        simp
      · rw [if_neg (fun hc => hij ((List.Nodup.getElem_inj_iff hn).1 hc))]
        congr 1
        by_cases hl : j ≤ i
        · rw [if_pos (by omega), if_pos hl]
          have : i - j = i - (j + 1) + 1 := by omega
          rw [this, List.getElem?_cons_succ]
        · rw [if_neg (by omega), if_neg hl]

/-- Lines whose fields are printed numbers, not more than there are names. -/
lemma readRows_spec (h : ReadsBack pr parse rd) (names : List (List Char)) (hn : names.Nodup) {β : Type}
    (line : β → List Char) (vs : β → List α) (bs : List β) :
    ∀ (m : ℕ) (d : Dict α), (∀ b ∈ bs, csvRow (line b) = (vs b).map pr ∧ (vs b).length ≤ names.length) →
    m ≤ names.length → d.keys = names.take m →
    ∃ d', readRows parse names (bs.map line) d = some d' ∧
      d'.keys = names.take (bs.foldl (fun m b => max m (vs b).length) m) ∧
      ∀ i (hi : i < names.length), d'.get names[i] = d.get names[i] ++ bs.filterMap fun b => (vs b)[i]?.map rd := by
  induction bs with
  | nil =>
    intro m d hb hm hk
    exact ⟨d, rfl, hk, by simp⟩
  | cons b bs ih =>
    intro m d hb hm hk
    obtain ⟨hl, hlen⟩ := hb b (by simp)
    obtain ⟨d₁, e1, e2, e3⟩ := readRow_spec h names hn (vs b) 0 m d (by omega) (by omega) hm hk
    obtain ⟨d', f1, f2, f3⟩ := ih (max m (vs b).length) d₁ (fun c hc => hb c (List.mem_cons_of_mem _ hc))
      (by omega) (by simpa using e2)
    refine ⟨d', ?_, f2, fun i hi => ?_⟩
    · rw [List.map_cons, readRows, hl]
      simp only [List.drop_zero] at e1
      rw [e1]
      exact f1
    · rw [f3 i hi, e3 i hi, List.append_assoc, List.filterMap_cons]
      congr 1
      simp only [Nat.zero_le, if_true, Nat.sub_zero]
      cases (vs b)[i]? <;> simp

end

lemma get_absent (d : Dict α) (k : List Char) (h : k ∉ d.keys) : d.get k = [] := by
  induction d with
  | nil => rfl
  | cons a d ih =>
    simp only [Dict.keys, List.map_cons, List.mem_cons, not_or] at h
    rw [Dict.get, if_neg (Ne.symm h.1)]
    exact ih h.2

variable [Flt α]

lemma columnNames : (columns (α := α)).map Prod.fst =
    ["time", "x", "y", "z", "roll", "pitch", "yaw", "vx", "vy", "vz", "wx", "wy", "wz", "ax", "ay", "az", "dwx", "dwy",
     "dwz", "fx", "fy", "fz", "tx", "ty", "tz", "mw1", "mw2", "mw3", "mw4", "mdw1", "mdw2", "mdw3", "mdw4", "x_ref",
     "y_ref", "z_ref", "yaw_ref", "vx_ref", "vy_ref", "vz_ref", "wx_ref", "wy_ref", "wz_ref", "ax_ref", "ay_ref",
     "az_ref", "dwx_ref", "dwy_ref", "dwz_ref", "fx_ref", "fy_ref", "fz_ref", "tx_ref", "ty_ref", "tz_ref", "mw1_ref",
     "mw2_ref", "mw3_ref", "mw4_ref", "x_io", "y_io", "z_io", "roll_io", "pitch_io", "yaw_io", "vx_io", "vy_io",
     "vz_io", "wx_io", "wy_io", "wz_io", "ax_io", "ay_io", "az_io"] := rfl

lemma header_row : csvRow Logger.header = ((columns (α := α)).map Prod.fst).map String.toList := by
  rw [columnNames]
  decide +kernel

lemma names_nodup : (((columns (α := α)).map Prod.fst).map String.toList).Nodup := by
  rw [columnNames]
  decide +kernel

lemma kept_self {k : ℕ} (v : Vec k α) (h : ∀ i, beq (v i) (v i) = true) : kept v = List.ofFn v := by
  unfold kept
  rw [List.takeWhile_eq_self_iff]
  intro x hx
  obtain ⟨i, rfl⟩ := (List.mem_ofFn' _ _).1 hx
  exact h i

omit [Flt α] in
lemma axis_map {k : ℕ} (names : Fin k → String) (f : Moment α → Vec k α) (m : Moment α) :
    (axisColumns names f).map (fun c => c.2 m) = List.ofFn (f m) := by
  simp [axisColumns, List.map_ofFn, Function.comp_def]

/-- What the line of a moment holds. -/
lemma line_values [Noise α] {pr : α → List Char} {parse : List Char → Option α} {rd : α → α} (h : ReadsBack pr parse rd)
    (m : Moment α) (hc : m.sim.dyn.model.core = some m.core) :
    ∃ line vs, Logger.save pr m.time m.sim = some line ∧ csvRow line = vs.map pr ∧ 1 ≤ vs.length ∧ vs.length ≤ 74 ∧
      (vs.length = 74 ↔ NumberCommands m) ∧ (NumberCommands m → vs = columns.map fun c => c.2 m) := by
  obtain ⟨line, hl, hs, -, hiff⟩ := C70_line_partial pr (fun x => (h x).2.1) m.time m.sim m.core hc
  have hcmd : NumberCommands m ↔ (splitComma line).length = 74 := by
    rw [hiff]
    simp only [NumberCommands, commandColumns, axisColumns, List.forall_mem_append, List.forall_mem_ofFn_iff,
      List.mem_singleton, forall_eq]
    tauto
  have hlen := congrArg List.length hs
  rw [List.length_map] at hlen
  have hge : 32 ≤ (splitComma line).length := by
    rw [hlen]
    simp only [List.length_append, stateRow, List.length_ofFn, List.length_cons, List.length_nil]
    omega
  have hne : line ≠ [] := by
    rintro rfl
    simp [splitComma] at hge
  refine ⟨line, _, hl, (csvRow_split hne).trans hs, by omega, ?_, by rw [hcmd, hlen], fun hn => ?_⟩
  · have k1 := (kept_length ![m.time]).1
    have k2 := (kept_length m.sim.refPos).1
    have k3 := (kept_length ![m.sim.refYaw]).1
    have k4 := (kept_length m.sim.refVel).1
    have k5 := (kept_length m.sim.ctl.desAngVel).1
    have k6 := (kept_length m.sim.refAcc).1
    have k7 := (kept_length m.sim.ctl.indi.pid.output).1
    have k8 := (kept_length fun i => m.sim.dyn.state.ori.rotate m.sim.ctl.indi.thrust i ⊞
      m.core.params.gravity i ⊠ m.core.params.mass).1
    have k9 := (kept_length m.sim.ctl.indi.torque).1
    have k10 := (kept_length m.sim.actuation).1
    simp only [List.length_append, stateRow, odomRow, List.length_ofFn, List.length_cons, List.length_nil] at *
    omega
  · obtain ⟨ht, hn⟩ := hn
    simp only [commandColumns, axisColumns, List.forall_mem_append, List.forall_mem_ofFn_iff,
      List.mem_singleton, forall_eq] at hn
    obtain ⟨⟨⟨⟨⟨⟨⟨⟨n1, n2⟩, n3⟩, n4⟩, n5⟩, n6⟩, n7⟩, n8⟩, n9⟩ := hn
    rw [kept_self _ n1, kept_self _ n3, kept_self _ n4, kept_self _ n5, kept_self _ n6, kept_self _ n7, kept_self _ n8,
      kept_self _ n9, kept_self ![m.time] (by simpa using ht), kept_self ![m.sim.refYaw] (by simpa using n2)]
    simp only [columns, truthColumns, commandColumns, odometryColumns, List.map_append, axis_map, stateRow, odomRow,
      List.append_assoc]
    rfl

/-- The file of a flight: the header and one line per moment; `none` if a line could not be written. -/
def fileOf (pr : α → List Char) (ms : List (Moment α)) : Option (List (List Char)) :=
  (ms.mapM fun m => Logger.save pr m.time m.sim).map fun ls => Logger.header :: ls

/-- The moments belong to simulators with a vehicle. -/
def Valid (ms : List (Moment α)) : Prop := ∀ m ∈ ms, m.sim.dyn.model.core = some m.core

/-- Reading the file of a flight, in general. -/
lemma file_read [Noise α] {pr : α → List Char} {parse : List Char → Option α} {rd : α → α} (h : ReadsBack pr parse rd)
    (ms : List (Moment α)) (hv : Valid ms) :
    ∃ (line : Moment α → List Char) (vs : Moment α → List α) (d : Dict α),
      fileOf pr ms = some (Logger.header :: ms.map line) ∧
      (∀ m ∈ ms, csvRow (line m) = (vs m).map pr ∧ 1 ≤ (vs m).length ∧ (vs m).length ≤ 74 ∧
        ((vs m).length = 74 ↔ NumberCommands m) ∧ (NumberCommands m → vs m = columns.map fun c => c.2 m)) ∧
      readRows parse (csvRow Logger.header) (ms.map line) [] = some d ∧
      d.keys = (((columns (α := α)).map Prod.fst).map String.toList).take
        (ms.foldl (fun k m => max k (vs m).length) 0) ∧
      ∀ i (hi : i < (columns (α := α)).length),
        d.get (columns[i].1.toList) = ms.filterMap fun m => (vs m)[i]?.map rd := by
  classical
  have hex : ∀ m : Moment α, ∃ line vs, m ∈ ms → Logger.save pr m.time m.sim = some line ∧ csvRow line = vs.map pr ∧
      1 ≤ vs.length ∧ vs.length ≤ 74 ∧
      (vs.length = 74 ↔ NumberCommands m) ∧ (NumberCommands m → vs = columns.map fun c => c.2 m) := by
    intro m
    by_cases hm : m ∈ ms
    · obtain ⟨line, vs, hl⟩ := line_values h m (hv m hm)
      exact ⟨line, vs, fun _ => hl⟩
    · exact ⟨[], [], fun hc => absurd hc hm⟩
  choose line vs hls using hex
  have hlen : ((columns (α := α)).map Prod.fst |>.map String.toList).length = 74 := by
    rw [columnNames]; rfl
  obtain ⟨d, e1, e2, e3⟩ := readRows_spec h _ (names_nodup (α := α)) line vs ms 0 []
    (fun m hm => ⟨(hls m hm).2.1, by rw [hlen]; exact (hls m hm).2.2.2.1⟩) (by simp) rfl
  refine ⟨line, vs, d, ?_, fun m hm => (hls m hm).2, ?_, e2, fun i hi => ?_⟩
  · unfold fileOf
    have : (ms.mapM fun m => Logger.save pr m.time m.sim) = some (ms.map line) := by
      have hsv : ∀ m ∈ ms, Logger.save pr m.time m.sim = some (line m) := fun m hm => (hls m hm).1
      clear * - hsv
      induction ms with
      | nil => rfl
      | cons m ms ih =>
        rw [List.mapM_cons, hsv m (by simp), ih fun k hk => hsv k (List.mem_cons_of_mem _ hk)]
        rfl
    rw [this]
    rfl
  · rw [header_row (α := α)]
    exact e1
  · have := e3 i (by simpa using hi)
    simpa [Dict.get] using this

end PlotAux

open PlotAux

/-- Full claim: the script reads back every logged quantity under its own name, for every flight. -/
def C118_claim : Prop :=
  ∀ (α : Type) (_ : Flt α) (_ : LawfulFlt α) (_ : Noise α) (pr : α → List Char) (parse : List Char → Option α) (rd : α → α)
    (ms : List (Moment α)) (file : List (List Char)), ReadsBack pr parse rd →
    (∀ m ∈ ms, ∃ p s₀ os, Sim.mk' p = some s₀ ∧ Sim.Runs s₀ os m.sim ∧ m.sim.dyn.model.core = some m.core) →
    fileOf pr ms = some file →
    ∃ d w, Plot.readCsv parse file = some (.data d w) ∧
      ∀ c ∈ columns, d.get c.1.toList = series rd ms c.2

/-- **C118.** In any arithmetic: if the time, the references and the commands are numbers at every logged moment,
the script reads back every one of the 74 quantities under its own name, in the order of logging, without a warning.
Missing: moments with NaN (`C118_violated`). -/
theorem C118_reads_back_partial [Flt α] [Noise α] {pr : α → List Char} {parse : List Char → Option α} {rd : α → α}
    (h : ReadsBack pr parse rd) (ms : List (Moment α)) (hv : Valid ms) (hn : ∀ m ∈ ms, NumberCommands m) (hms : ms ≠ []) :
    ∃ file d, fileOf pr ms = some file ∧ Plot.readCsv parse file = some (.data d false) ∧
      (∀ c ∈ columns, d.get c.1.toList = series rd ms c.2) ∧
      (∀ k, (∀ c ∈ columns (α := α), c.1.toList ≠ k) → d.get k = []) := by
  obtain ⟨line, vs, d, hf, hvs, hr, hk, hg⟩ := file_read h ms hv
  have hcol : (columns (α := α)).length = 74 := by
    have := congrArg List.length (columnNames (α := α))
    rw [List.length_map] at this
    exact this
  have hget : ∀ i (hi : i < (columns (α := α)).length), d.get (columns[i].1.toList) = series rd ms columns[i].2 := by
    intro i hi
    rw [hg i hi, series, List.filterMap_eq_map_iff_forall_eq_some.2]
    intro m hm
    rw [(hvs m hm).2.2.2.2 (hn m hm), List.getElem?_map, List.getElem?_eq_getElem hi]
    rfl
  have hall : ∀ c ∈ columns, d.get c.1.toList = series rd ms c.2 := by
    intro c hc
    obtain ⟨i, hi, rfl⟩ := List.mem_iff_getElem.1 hc
    exact hget i hi
  have hfold : ms.foldl (fun k m => max k (vs m).length) 0 = 74 := by
    have h74 : ∀ m ∈ ms, (vs m).length = 74 := fun m hm => (hvs m hm).2.2.2.1.2 (hn m hm)
    have gen : ∀ (l : List (Moment α)) (k : ℕ), (∀ m ∈ l, (vs m).length = 74) → l ≠ [] → k ≤ 74 →
        l.foldl (fun k m => max k (vs m).length) k = 74 := by
      intro l
      induction l with
      | nil => intro k _ h; exact absurd rfl h
      | cons m l ih =>
        intro k hl _ hk
        rw [List.foldl_cons, hl m (by simp), Nat.max_eq_right hk]
        rcases l with _ | ⟨m', l⟩
        · rfl
        · exact ih 74 (fun x hx => hl x (List.mem_cons_of_mem _ hx)) (by simp) le_rfl
    exact gen ms 0 h74 hms (by omega)
  have hkeys : d.keys = ((columns (α := α)).map Prod.fst).map String.toList := by
    rw [hk, hfold, List.take_of_length_le (by simp [hcol])]
  have htime : ("time", fun m : Moment α => m.time) ∈ columns := by simp [columns]
  refine ⟨_, d, hf, ?_, hall, fun k hkn => get_absent _ _ ?_⟩
  · rw [Plot.readCsv, hr, Option.map_some, if_pos]
    · congr 2
      rw [hkeys]
      simp [hcol]
    · rw [List.all_eq_true]
      intro k hkk
      rw [hkeys, List.map_map] at hkk
      obtain ⟨c, hc, rfl⟩ := List.mem_map.1 hkk
      have e1 := hall c hc
      have e2 := hall _ htime
      simp only [Function.comp_apply, Plot.timeKey, e1, e2, series, List.length_map, beq_self_eq_true]
  · rw [hkeys, List.map_map]
    intro hc
    obtain ⟨c, hc, he⟩ := List.mem_map.1 hc
    exact hkn c hc he

/-- The curves to be drawn for a quantity: the truth, the reference and the odometry, those that are logged. -/
def drawnCurves [Flt α] (rd : α → α) (ms : List (Moment α)) (name : String) : List (Plot.Curve α) :=
  [name, name ++ "_ref", name ++ "_io"].filterMap fun n =>
    (meaning n).map fun f => ⟨n.toList, series rd ms fun m => m.time, series rd ms f⟩

/-- The mean distance between a quantity and its reference. -/
def meanDistance [Flt α] (rd : α → α) (ms : List (Moment α)) (f g : Moment α → α) : α :=
  vsum (fun i : Fin ms.length => abs (rd (f ms[i]) ⊟ rd (g ms[i]))) ⊘ lit ms.length

/-- The number to be printed for a quantity: its mean error if it has a reference. -/
def printedError [Flt α] (rd : α → α) (ms : List (Moment α)) (name : String) : Option α :=
  (meaning name).bind fun f => (meaning (name ++ "_ref")).map fun g => meanDistance rd ms f g

/-- What a figure of several quantities is to show. -/
def drawnFigure [Flt α] (rd : α → α) (ms : List (Moment α)) (names : List String) :
    List (List (Plot.Curve α) × Option α) :=
  names.map fun n => (drawnCurves rd ms n, printedError rd ms n)

namespace PlotAux

open Plot

variable [Flt α]

lemma meanError_series (rd : α → α) (ms : List (Moment α)) (f g : Moment α → α) :
    meanError (series rd ms f) (series rd ms g) = some (meanDistance rd ms f g) := by
  have gen : ∀ (a b : List α) (n : ℕ) (u : Fin n → α) (hb : b.length = n) (ha : a.length = n),
      (∀ i : Fin n, abs (a[i.val]'(by omega) ⊟ b[i.val]'(by omega)) = u i) →
      meanError a b = some (vsum u ⊘ lit n) := by
    intro a b n u hb ha hu
    subst ha
    rw [meanError, dif_pos hb.ge]
    congr 3
    funext i
    exact hu i
  exact gen _ _ _ _ (by simp [series]) (by simp [series]) fun i => by simp [series]

lemma meaning_mem {n : String} {f : Moment α → α} (h : meaning n = some f) : (n, f) ∈ columns := by
  unfold meaning at h
  cases hc : (columns (α := α)).find? fun c => c.1 = n with
  | none => simp [hc] at h
  | some c =>
    rw [hc, Option.map_some, Option.some.injEq] at h
    have h1 := List.mem_of_find?_eq_some hc
    have h2 := List.find?_some hc
    simp only [decide_eq_true_eq] at h2
    rwa [← h2, ← h]

lemma meaning_none {n : String} (h : meaning (α := α) n = none) : ∀ c ∈ columns (α := α), c.1.toList ≠ n.toList := by
  intro c hc he
  unfold meaning at h
  rw [Option.map_eq_none_iff, List.find?_eq_none] at h
  exact h c hc (by simpa using String.toList_inj.1 he)

lemma meaning_some {n : String} (h : n ∈ (columns (α := α)).map Prod.fst) : ∃ f, meaning (α := α) n = some f := by
  cases hm : meaning (α := α) n with
  | some f => exact ⟨f, rfl⟩
  | none =>
    obtain ⟨c, hc, rfl⟩ := List.mem_map.1 h
    exact absurd rfl (meaning_none hm c hc)

/-- Every curve of the data read back. -/
lemma plotValue_spec {rd : α → α} {ms : List (Moment α)} (hms : ms ≠ []) {d : Dict α}
    (h1 : ∀ c ∈ columns, d.get c.1.toList = series rd ms c.2)
    (h2 : ∀ k, (∀ c ∈ columns (α := α), c.1.toList ≠ k) → d.get k = []) (n : String)
    (hn : n ∈ (columns (α := α)).map Prod.fst) :
    plotValue d n.toList = some (drawnCurves rd ms n, printedError rd ms n) := by
  have htime : d.get timeKey = series rd ms fun m => m.time := h1 ("time", fun m => m.time) (by simp [columns])
  have hopt : ∀ k : String, Plot.optional d k.toList =
      some ((meaning k).map fun f => (⟨k.toList, series rd ms fun m => m.time, series rd ms f⟩ : Curve α)).toList := by
    intro k
    unfold Plot.optional
    cases hk : meaning (α := α) k with
    | none => rw [h2 _ (meaning_none hk), if_pos rfl]; rfl
    | some f =>
      rw [h1 _ (meaning_mem hk), if_neg (by simpa [series] using hms), htime, curve, if_pos (by simp [series])]
      rfl
  obtain ⟨f, hf⟩ := meaning_some hn
  unfold plotValue
  rw [← String.toList_append, ← String.toList_append, hopt, hopt, htime, h1 _ (meaning_mem hf), curve,
    if_pos (by simp [series])]
  cases hr : meaning (α := α) (n ++ "_ref") with
  | none =>
    rw [h2 _ (meaning_none hr)]
    simp only [Option.bind_some, drawnCurves, printedError, hf, hr, List.filterMap_cons, if_true, Option.map_none,
      Option.map_some, Option.toList_none]
    cases meaning (α := α) (n ++ "_io") <;> rfl
  | some g =>
    rw [h1 _ (meaning_mem hr)]
    have hne : series rd ms g ≠ [] := by simpa [series] using hms
    simp only [Option.bind_some, drawnCurves, printedError, hf, hr, List.filterMap_cons, if_neg hne, Option.map_some,
      Option.toList_some, meanError_series]
    cases meaning (α := α) (n ++ "_io") <;> rfl

lemma plotValues_spec {rd : α → α} {ms : List (Moment α)} (hms : ms ≠ []) {d : Dict α}
    (h1 : ∀ c ∈ columns, d.get c.1.toList = series rd ms c.2)
    (h2 : ∀ k, (∀ c ∈ columns (α := α), c.1.toList ≠ k) → d.get k = []) (ns : List String)
    (hn : ∀ n ∈ ns, n ∈ (columns (α := α)).map Prod.fst) :
    plotValues d (ns.map String.toList) = some (drawnFigure rd ms ns) := by
  induction ns with
  | nil => rfl
  | cons n ns ih =>
    rw [List.map_cons, plotValues, plotValue_spec hms h1 h2 n (hn n (by simp)),
      ih fun k hk => hn k (List.mem_cons_of_mem _ hk)]
    rfl

end PlotAux

/-- **C118.** The three figures over time then show exactly the true quantity, its reference and its odometry estimate
where these are logged, each over the logged times, and the mean error printed is the mean distance between the
quantity and its reference. -/
theorem C118_figures [Flt α] [Noise α] {pr : α → List Char} {parse : List Char → Option α} {rd : α → α}
    (h : ReadsBack pr parse rd) (ms : List (Moment α)) (hv : Valid ms) (hn : ∀ m ∈ ms, NumberCommands m) (hms : ms ≠ []) :
    ∃ file, fileOf pr ms = some file ∧
      Plot.figure1 parse file = some (.drawn (drawnFigure rd ms
        ["x", "y", "z", "roll", "pitch", "yaw", "vx", "vy", "vz", "ax", "ay", "az"])) ∧
      Plot.figure23 parse Plot.rows2 file = some (.drawn (drawnFigure rd ms
        ["wx", "wy", "wz", "dwx", "dwy", "dwz", "fx", "fy", "fz", "tx", "ty", "tz"])) ∧
      Plot.figure23 parse Plot.rows3 file = some (.drawn (drawnFigure rd ms
        ["mw1", "mw2", "mw3", "mw4", "mdw1", "mdw2", "mdw3", "mdw4"])) := by
  obtain ⟨file, d, hf, hr, h1, h2⟩ := C118_reads_back_partial h ms hv hn hms
  have htime : d.get Plot.timeKey ≠ [] := by
    have := h1 ("time", fun m => m.time) (by simp [columns])
    rw [Plot.timeKey, this]
    simpa [series] using hms
  have hp := fun ns hns => plotValues_spec (rd := rd) hms h1 h2 ns hns
  refine ⟨file, hf, ?_, ?_, ?_⟩
  · unfold Plot.figure1
    rw [hr]
    simp only [if_neg htime]
    rw [show Plot.rows1 = ["x", "y", "z", "roll", "pitch", "yaw", "vx", "vy", "vz", "ax", "ay", "az"].map String.toList
      from rfl, hp _ (by rw [columnNames]; decide +kernel)]
    rfl
  · unfold Plot.figure23
    rw [hr]
    simp only [if_neg htime]
    rw [show Plot.rows2 = ["wx", "wy", "wz", "dwx", "dwy", "dwz", "fx", "fy", "fz", "tx", "ty", "tz"].map String.toList
      from rfl, hp _ (by rw [columnNames]; decide +kernel)]
    rfl
  · unfold Plot.figure23
    rw [hr]
    simp only [if_neg htime]
    rw [show Plot.rows3 = ["mw1", "mw2", "mw3", "mw4", "mdw1", "mdw2", "mdw3", "mdw4"].map String.toList
      from rfl, hp _ (by rw [columnNames]; decide +kernel)]
    rfl

/-- **C118.** What NaN does: if at some moment all commands are numbers and at another one is not, the script finds
columns of different lengths and ends with an exception before it has drawn anything. -/
theorem C118_mixed [Flt α] [Noise α] {pr : α → List Char} {parse : List Char → Option α} {rd : α → α}
    (h : ReadsBack pr parse rd) (ms : List (Moment α)) (hv : Valid ms) (m m' : Moment α) (hm : m ∈ ms) (hm' : m' ∈ ms)
    (h1 : NumberCommands m) (h2 : ¬ NumberCommands m') :
    ∃ file, fileOf pr ms = some file ∧ Plot.readCsv parse file = some .none ∧ Plot.main parse file = none := by
  obtain ⟨line, vs, d, hf, hvs, hr, hk, hg⟩ := file_read h ms hv
  have hcol : (columns (α := α)).length = 74 := by
    have := congrArg List.length (columnNames (α := α))
    rw [List.length_map] at this
    exact this
  have hfold : 74 ≤ ms.foldl (fun k m => max k (vs m).length) 0 := by
    have gen : ∀ (l : List (Moment α)) (k : ℕ), k ≤ l.foldl (fun k m => max k (vs m).length) k ∧
        (m ∈ l → (vs m).length ≤ l.foldl (fun k m => max k (vs m).length) k) := by
      intro l
      induction l with
      | nil => intro k; simp
      | cons a l ih =>
        intro k
        simp only [List.foldl_cons, List.mem_cons]
        have := ih (max k (vs a).length)
        refine ⟨by omega, ?_⟩
        rintro (rfl | hl)
        · omega
        · exact this.2 hl
    have := (gen ms 0).2 hm
    rwa [(hvs m hm).2.2.2.1.2 h1] at this
  have hkeys : d.keys = ((columns (α := α)).map Prod.fst).map String.toList := by
    rw [hk, List.take_of_length_le (by simp [hcol, hfold])]
  have htime : (d.get Plot.timeKey).length = ms.length := by
    have := hg 0 (by omega)
    have e : (columns (α := α))[0].1.toList = Plot.timeKey := rfl
    rw [e] at this
    rw [this, List.filterMap_length_eq_length]
    intro a ha
    rw [List.getElem?_eq_getElem (by have := (hvs a ha).2.1; omega)]
    rfl
  have hlast : (d.get (columns (α := α))[73].1.toList).length ≠ ms.length := by
    rw [hg 73 (by omega), Ne, List.filterMap_length_eq_length]
    intro hc
    have := hc m' hm'
    have hl : (vs m').length ≤ 73 := by
      have h3 := (hvs m' hm').2.2.1
      have h4 := mt (hvs m' hm').2.2.2.1.1 h2
      omega
    rw [List.getElem?_eq_none hl] at this
    simp at this
  have hread : Plot.readCsv parse (Logger.header :: ms.map line) = some .none := by
    rw [Plot.readCsv, hr, Option.map_some, if_neg]
    rw [List.all_eq_true]
    intro hc
    have := hc (columns (α := α))[73].1.toList (by
      rw [hkeys, List.map_map]
      exact List.mem_map.2 ⟨_, List.getElem_mem _, rfl⟩)
    rw [htime] at this
    exact hlast (by simpa using this)
  refine ⟨_, hf, hread, ?_⟩
  simp only [Plot.main, Plot.figure0, hread, Option.bind_none]

/-- Every number as one digit, which is read back as one. -/
def oneDigit (one : α) : (α → List Char) × (List Char → Option α) × (α → α) :=
  (fun _ => ['1'], fun _ => some one, fun _ => one)

lemma oneDigit_reads (one : α) : ReadsBack (oneDigit one).1 (oneDigit one).2.1 (oneDigit one).2.2 :=
  fun _ => ⟨by simp [oneDigit], by simp [oneDigit], rfl⟩

/-- Non-vacuity: a flight of two moments whose commands are numbers. -/
example [Noise ℝ] : ∃ ms : List (Moment ℝ), ms.length = 2 ∧ Valid ms ∧ (∀ m ∈ ms, NumberCommands m) ∧ ms ≠ [] :=
  ⟨[⟨0, Fixture.sim, Fixture.core⟩, ⟨1, Fixture.sim, Fixture.core⟩], rfl, by simp [Valid]; rfl,
    by simp [NumberCommands, Flt.beq], by simp⟩

/-- A reference yaw that is not a number: the last column has no value. -/
theorem C118_violated : ¬ C118_claim := by
  intro h
  let N : Noise XReal := ⟨fun _ _ _ => .fin 0⟩
  obtain ⟨s, c, hs, hc⟩ := xParams_ok
  let m : Moment XReal := ⟨.fin 0, s.setRefYaw .nan, c⟩
  have hv : Valid [m] := by
    intro a ha
    rw [List.mem_singleton.1 ha]
    exact hc
  have hb := oneDigit_reads (XReal.fin 1)
  obtain ⟨line, vs, d, hf, hvs, hr, hk, hg⟩ := file_read hb [m] hv
  obtain ⟨d', w, hd, hall⟩ := h XReal inferInstance inferInstance N _ _ _ [m] _ hb
    (by
      intro a ha
      rw [List.mem_singleton.1 ha]
      exact ⟨xParams, s, [.setRefYaw .nan], hs, .ok rfl (.nil _), hc⟩) hf
  rw [Plot.readCsv, hr, Option.map_some] at hd
  split_ifs at hd
  on_goal 2 => simp at hd
  simp only [Option.some.injEq, Plot.Read.data.injEq] at hd
  have hcol : (columns (α := XReal)).length = 74 := by
    have := congrArg List.length (columnNames (α := XReal))
    rw [List.length_map] at this
    exact this
  have h1 := hg 73 (by omega)
  have h2 := hall (columns (α := XReal))[73] (List.getElem_mem _)
  rw [← hd.1, h1] at h2
  obtain ⟨-, -, h3, h4, -⟩ := hvs m (by simp)
  have hnot : ¬ NumberCommands m := fun hn => by
    have := hn.2 ("yaw_ref", fun m => m.sim.refYaw) (by simp [commandColumns])
    simp [m, Sim.setRefYaw] at this
  have hl : (vs m).length ≤ 73 := by
    have := mt h4.1 hnot
    omega
  have := congrArg List.length h2
  simp [series, List.getElem?_eq_none hl] at this

namespace PlotAux

open Plot

lemma isNan_real (x : ℝ) : Logger.isNan x = false := by simp [Logger.isNan, Flt.beq]

lemma npMin_real (l : List ℝ) (hl : l ≠ []) : ∃ a ∈ l, npMin l = some a ∧ ∀ x ∈ l, a ≤ x := by
  obtain ⟨x, xs, rfl⟩ := List.exists_cons_of_ne_nil hl
  have gen : ∀ (ys : List ℝ) (y : ℝ), ∃ a ∈ y :: ys, ys.foldl (fun a b => if Logger.isNan a then a else
      if Logger.isNan b then b else if lt b a then b else a) y = a ∧ ∀ z ∈ y :: ys, a ≤ z := by
    intro ys
    induction ys with
    | nil => intro y; exact ⟨y, by simp, rfl, by simp⟩
    | cons z zs ih =>
      intro y
      simp only [List.foldl_cons, isNan_real, Bool.false_eq_true, if_false, flt, decide_eq_true_eq] at ih ⊢
      obtain ⟨a, ha, he, hle⟩ := ih (if z < y then z else y)
      refine ⟨a, ?_, he, ?_⟩
      · rcases List.mem_cons.1 ha with rfl | ha
        · split_ifs <;> simp
        · simp [ha]
      · intro w hw
        have h0 := hle _ (List.mem_cons_self)
        rcases List.mem_cons.1 hw with rfl | hw
        · split_ifs at h0 with hc <;> linarith
        · rcases List.mem_cons.1 hw with rfl | hw
          · split_ifs at h0 with hc <;> linarith
          · exact hle w (List.mem_cons_of_mem _ hw)
  obtain ⟨a, ha, he, hle⟩ := gen xs x
  exact ⟨a, ha, by rw [npMin, he], hle⟩

lemma npMax_real (l : List ℝ) (hl : l ≠ []) : ∃ a ∈ l, npMax l = some a ∧ ∀ x ∈ l, x ≤ a := by
  obtain ⟨x, xs, rfl⟩ := List.exists_cons_of_ne_nil hl
  have gen : ∀ (ys : List ℝ) (y : ℝ), ∃ a ∈ y :: ys, ys.foldl (fun a b => if Logger.isNan a then a else
      if Logger.isNan b then b else if lt a b then b else a) y = a ∧ ∀ z ∈ y :: ys, z ≤ a := by
    intro ys
    induction ys with
    | nil => intro y; exact ⟨y, by simp, rfl, by simp⟩
    | cons z zs ih =>
      intro y
      simp only [List.foldl_cons, isNan_real, Bool.false_eq_true, if_false, flt, decide_eq_true_eq] at ih ⊢
      obtain ⟨a, ha, he, hle⟩ := ih (if y < z then z else y)
      refine ⟨a, ?_, he, ?_⟩
      · rcases List.mem_cons.1 ha with rfl | ha
        · split_ifs <;> simp
        · simp [ha]
      · intro w hw
        have h0 := hle _ (List.mem_cons_self)
        rcases List.mem_cons.1 hw with rfl | hw
        · split_ifs at h0 with hc <;> linarith
        · rcases List.mem_cons.1 hw with rfl | hw
          · split_ifs at h0 with hc <;> linarith
          · exact hle w (List.mem_cons_of_mem _ hw)
  obtain ⟨a, ha, he, hle⟩ := gen xs x
  exact ⟨a, ha, by rw [npMax, he], hle⟩

lemma plot3d_real {rd : ℝ → ℝ} {ms : List (Moment ℝ)} (hms : ms ≠ []) {d : Dict ℝ}
    (h1 : ∀ c ∈ columns, d.get c.1.toList = series rd ms c.2) :
    ∃ v, plot3d d = some v ∧ v.curves =
      [⟨"ground truth".toList, series rd ms fun m => m.sim.dyn.state.pos 0, series rd ms fun m => m.sim.dyn.state.pos 1,
          series rd ms fun m => m.sim.dyn.state.pos 2⟩,
        ⟨"inertial odometry".toList, series rd ms fun m => m.sim.odom.pos 0, series rd ms fun m => m.sim.odom.pos 1,
          series rd ms fun m => m.sim.odom.pos 2⟩,
        ⟨"reference".toList, series rd ms fun m => m.sim.refPos 0, series rd ms fun m => m.sim.refPos 1,
          series rd ms fun m => m.sim.refPos 2⟩] ∧
      ∃ r : ℝ, v.xlim = (-r, r) ∧ v.ylim = (-r, r) ∧ v.zlim = (0, r) ∧
        (∀ m ∈ ms, ∀ i, |rd (m.sim.dyn.state.pos i)| ≤ r) ∧ ∃ m ∈ ms, ∃ i, |rd (m.sim.dyn.state.pos i)| = r := by
  have g : ∀ c ∈ columns (α := ℝ), d.get c.1.toList = series rd ms c.2 := h1
  have gx : d.get "x".toList = series rd ms fun m => m.sim.dyn.state.pos 0 :=
    g ("x", fun m => m.sim.dyn.state.pos 0) (by simp [columns, truthColumns, axisColumns])
  have gy : d.get "y".toList = series rd ms fun m => m.sim.dyn.state.pos 1 :=
    g ("y", fun m => m.sim.dyn.state.pos 1) (by simp [columns, truthColumns, axisColumns])
  have gz : d.get "z".toList = series rd ms fun m => m.sim.dyn.state.pos 2 :=
    g ("z", fun m => m.sim.dyn.state.pos 2) (by simp [columns, truthColumns, axisColumns])
  have gxi : d.get ("x".toList ++ "_io".toList) = series rd ms fun m => m.sim.odom.pos 0 :=
    g ("x_io", fun m => m.sim.odom.pos 0) (by simp [columns, odometryColumns, axisColumns])
  have gyi : d.get ("y".toList ++ "_io".toList) = series rd ms fun m => m.sim.odom.pos 1 :=
    g ("y_io", fun m => m.sim.odom.pos 1) (by simp [columns, odometryColumns, axisColumns])
  have gzi : d.get ("z".toList ++ "_io".toList) = series rd ms fun m => m.sim.odom.pos 2 :=
    g ("z_io", fun m => m.sim.odom.pos 2) (by simp [columns, odometryColumns, axisColumns])
  have gxr : d.get ("x".toList ++ "_ref".toList) = series rd ms fun m => m.sim.refPos 0 :=
    g ("x_ref", fun m => m.sim.refPos 0) (by simp [columns, commandColumns, axisColumns])
  have gyr : d.get ("y".toList ++ "_ref".toList) = series rd ms fun m => m.sim.refPos 1 :=
    g ("y_ref", fun m => m.sim.refPos 1) (by simp [columns, commandColumns, axisColumns])
  have gzr : d.get ("z".toList ++ "_ref".toList) = series rd ms fun m => m.sim.refPos 2 :=
    g ("z_ref", fun m => m.sim.refPos 2) (by simp [columns, commandColumns, axisColumns])
  have ne : ∀ f : Moment ℝ → ℝ, series rd ms f ≠ [] := fun f => by simpa [series] using hms
  have len : ∀ f f' : Moment ℝ → ℝ, (series rd ms f).length = (series rd ms f').length := fun f f' => by simp [series]
  set l := series rd ms (fun m => m.sim.dyn.state.pos 0) ++ series rd ms (fun m => m.sim.dyn.state.pos 1) ++
    series rd ms (fun m => m.sim.dyn.state.pos 2) with hl
  have hlne : l ≠ [] := by simp [hl, ne]
  have hmem : ∀ x, x ∈ l ↔ ∃ m ∈ ms, ∃ i, rd (m.sim.dyn.state.pos i) = x := by
    intro x
    simp only [hl, series, List.mem_append, List.mem_map]
    constructor
    · rintro ((⟨m, hm, h⟩ | ⟨m, hm, h⟩) | ⟨m, hm, h⟩)
      · exact ⟨m, hm, 0, h⟩
      · exact ⟨m, hm, 1, h⟩
      · exact ⟨m, hm, 2, h⟩
    · rintro ⟨m, hm, i, h⟩
      fin_cases i
      · exact .inl (.inl ⟨m, hm, h⟩)
      · exact .inl (.inr ⟨m, hm, h⟩)
      · exact .inr ⟨m, hm, h⟩
  obtain ⟨mn, mnm, hmn, hmn'⟩ := npMin_real l hlne
  obtain ⟨mx, mxm, hmx, hmx'⟩ := npMax_real l hlne
  unfold plot3d optional3
  simp only [gx, gy, gz, gxi, gyi, gzi, gxr, gyr, gzr, curve3, len _ (fun m => m.sim.dyn.state.pos 0), and_self, if_true,
    if_neg (ne _), Option.bind_some, Option.map_some, ← hl, hmn, hmx, isNan_real, Bool.false_eq_true, if_false]
  refine ⟨_, rfl, rfl, max |mn| |mx|, ?_⟩
  have e : (if lt (Flt.abs (lit (-1) ⊠ Flt.abs mn)) (Flt.abs mx) then Flt.abs mx else Flt.abs (lit (-1) ⊠ Flt.abs mn)) = max |mn| |mx| := by
    simp only [flt, decide_eq_true_eq, neg_mul, one_mul, abs_neg, abs_abs]
    rcases lt_or_ge |mn| |mx| with h | h
    · rw [if_pos h, max_eq_right h.le]
    · rw [if_neg (not_lt.2 h), max_eq_left h]
  rw [e]
  refine ⟨by simp [flt], by simp [flt], by simp [flt], fun m hm i => ?_, ?_⟩
  · have hx := (hmem _).2 ⟨m, hm, i, rfl⟩
    have a1 := hmn' _ hx
    have a2 := hmx' _ hx
    exact abs_le_max_abs_abs a1 a2
  · rcases max_choice |mn| |mx| with h | h
    · obtain ⟨m, hm, i, rfl⟩ := (hmem _).1 mnm
      exact ⟨m, hm, i, h.symm⟩
    · obtain ⟨m, hm, i, rfl⟩ := (hmem _).1 mxm
      exact ⟨m, hm, i, h.symm⟩

lemma numbers_real (m : Moment ℝ) : NumberCommands m := by simp [NumberCommands, Flt.beq]

end PlotAux

/-- A view shows a point. -/
def View.Shows (v : Plot.View ℝ) (x y z : ℝ) : Prop :=
  v.xlim.1 ≤ x ∧ x ≤ v.xlim.2 ∧ v.ylim.1 ≤ y ∧ y ≤ v.ylim.2 ∧ v.zlim.1 ≤ z ∧ z ≤ v.zlim.2

/-- Full claim: the first figure shows every position that was logged. -/
def C119_claim : Prop :=
  ∀ (_ : Noise ℝ) (pr : ℝ → List Char) (parse : List Char → Option ℝ) (rd : ℝ → ℝ)
    (ms : List (Moment ℝ)), ReadsBack pr parse rd → ms ≠ [] →
    (∀ m ∈ ms, ∃ p s₀ os, Sim.mk' p = some s₀ ∧ Sim.Runs s₀ os m.sim ∧ m.sim.dyn.model.core = some m.core) →
    ∃ file v, fileOf pr ms = some file ∧ Plot.figure0 parse file = some (.drawn v) ∧
      ∀ m ∈ ms, View.Shows v (rd (m.sim.dyn.state.pos 0)) (rd (m.sim.dyn.state.pos 1)) (rd (m.sim.dyn.state.pos 2))

/-- **C119.** The first figure draws the true path, the odometry and the reference.  Its axes reach as far as the
largest coordinate of the true path, to both sides for `x` and `y` and upwards for `z`, so it shows every logged
position that is not below height zero.  Missing: positions below zero (`C119_violated`). -/
theorem C119_view_partial [Noise ℝ] {pr : ℝ → List Char} {parse : List Char → Option ℝ} {rd : ℝ → ℝ}
    (h : ReadsBack pr parse rd) (ms : List (Moment ℝ)) (hv : Valid ms) (hms : ms ≠ []) :
    ∃ file v, fileOf pr ms = some file ∧ Plot.figure0 parse file = some (.drawn v) ∧
      v.curves =
        [⟨"ground truth".toList, series rd ms fun m => m.sim.dyn.state.pos 0, series rd ms fun m => m.sim.dyn.state.pos 1,
            series rd ms fun m => m.sim.dyn.state.pos 2⟩,
          ⟨"inertial odometry".toList, series rd ms fun m => m.sim.odom.pos 0, series rd ms fun m => m.sim.odom.pos 1,
            series rd ms fun m => m.sim.odom.pos 2⟩,
          ⟨"reference".toList, series rd ms fun m => m.sim.refPos 0, series rd ms fun m => m.sim.refPos 1,
            series rd ms fun m => m.sim.refPos 2⟩] ∧
      (∃ m ∈ ms, ∃ i, v.xlim.2 = |rd (m.sim.dyn.state.pos i)|) ∧
      ∀ m ∈ ms, (View.Shows v (rd (m.sim.dyn.state.pos 0)) (rd (m.sim.dyn.state.pos 1)) (rd (m.sim.dyn.state.pos 2)) ↔
        0 ≤ rd (m.sim.dyn.state.pos 2)) := by
  obtain ⟨file, d, hf, hr, h1, -⟩ := C118_reads_back_partial h ms hv (fun m _ => numbers_real m) hms
  have htime : d.get Plot.timeKey ≠ [] := by
    have := h1 ("time", fun m => m.time) (by simp [columns])
    rw [Plot.timeKey, this]
    simpa [series] using hms
  obtain ⟨v, hp, hc, r, hx, hy, hz, hle, m₀, hm₀, i, hi⟩ := plot3d_real hms h1
  refine ⟨file, v, hf, ?_, hc, ⟨m₀, hm₀, i, by rw [hx, hi]⟩, fun m hm => ?_⟩
  · unfold Plot.figure0
    rw [hr]
    simp only [if_neg htime, hp, Option.map_some]
  · have a0 := abs_le.1 (hle m hm 0)
    have a1 := abs_le.1 (hle m hm 1)
    have a2 := abs_le.1 (hle m hm 2)
    rw [View.Shows, hx, hy, hz]
    exact ⟨fun hs => hs.2.2.2.2.1, fun hs => ⟨a0.1, a0.2, a1.1, a1.2, hs, a2.2⟩⟩

/-- **C118.** Over the reals the script never fails: it draws all four figures of every flight. -/
theorem C118_draws_all [Noise ℝ] {pr : ℝ → List Char} {parse : List Char → Option ℝ} {rd : ℝ → ℝ}
    (h : ReadsBack pr parse rd) (ms : List (Moment ℝ)) (hv : Valid ms) (hms : ms ≠ []) :
    ∃ file v, fileOf pr ms = some file ∧ Plot.figure0 parse file = some (.drawn v) ∧
      Plot.main parse file = some (.drawn v,
        .drawn (drawnFigure rd ms ["x", "y", "z", "roll", "pitch", "yaw", "vx", "vy", "vz", "ax", "ay", "az"]),
        .drawn (drawnFigure rd ms ["wx", "wy", "wz", "dwx", "dwy", "dwz", "fx", "fy", "fz", "tx", "ty", "tz"]),
        .drawn (drawnFigure rd ms ["mw1", "mw2", "mw3", "mw4", "mdw1", "mdw2", "mdw3", "mdw4"])) := by
  obtain ⟨file, v, hf, h0, -⟩ := C119_view_partial h ms hv hms
  obtain ⟨file', hf', h1, h2, h3⟩ := C118_figures h ms hv (fun m _ => numbers_real m) hms
  obtain rfl : file = file' := Option.some.inj (hf.symm.trans hf')
  exact ⟨file, v, hf, h0, by rw [Plot.main, h0, h1, h2, h3]; rfl⟩

/-- Non-vacuity: numbers printed as their sign, which is read back. -/
noncomputable def signText : (ℝ → List Char) × (List Char → Option ℝ) × (ℝ → ℝ) :=
  (fun x => if x < 0 then ['-', '1'] else ['1'], fun t => some (if t = ['1'] then 1 else -1),
    fun x => if x < 0 then -1 else 1)

lemma signText_reads : ReadsBack signText.1 signText.2.1 signText.2.2 := fun x => by
  simp only [signText]
  split_ifs with h <;> simp_all

/-- Non-vacuity: such a printer and a flight with a vehicle. -/
example [Noise ℝ] : ReadsBack signText.1 signText.2.1 signText.2.2 ∧ Valid [⟨0, Fixture.sim, Fixture.core⟩] :=
  ⟨signText_reads, by simp [Valid]; rfl⟩

/-- The fixture started one metre below zero. -/
noncomputable def lowSim [Noise ℝ] : Sim ℝ 4 :=
  { Fixture.sim with dyn := { Fixture.dyn with state := { State.default with pos := ![0, 0, -1] } } }

lemma lowSim_mk [Noise ℝ] : Sim.mk' { Fixture.simParams with
    dyn := ⟨Fixture.modelParams, { State.default with pos := ![0, 0, -1] }, 7⟩ } = some lowSim := by
  have hd : Dyn.mk' (⟨Fixture.modelParams, { State.default with pos := ![0, 0, -1] }, 7⟩ : DynParams ℝ 4) =
      some { Fixture.dyn with state := { State.default with pos := ![0, 0, -1] } } := by
    simp [Dyn.mk', Model.mk', Model.updateParams, Fixture.check, Fixture.motorFn_eq, Fixture.dirOk, Fixture.dyn,
      Fixture.core]
  have ho : Odom.mk' Fixture.simParams.odom = some (Odom.reset
      { alpha := (1 : ℝ), initOri := Quat.identity, gyroF := vzero, accelF := vzero, pos := vzero
        ori := Quat.identity, vel := vzero, angVel := vzero, acc := vzero }) := by
    simp [Odom.mk', Fixture.simParams, flt]
  simp only [Sim.mk', hd, ho]
  rfl

/-- A vehicle below height zero is outside the first figure. -/
theorem C119_violated : ¬ C119_claim := by
  intro h
  let N : Noise ℝ := ⟨fun _ _ _ => 0⟩
  let m : Moment ℝ := ⟨0, lowSim, Fixture.core⟩
  have hv : Valid [m] := by
    intro a ha
    rw [List.mem_singleton.1 ha]
    rfl
  obtain ⟨file, v, hf, h0, hs⟩ := h N _ _ _ [m] signText_reads (by simp) (by
    intro a ha
    rw [List.mem_singleton.1 ha]
    exact ⟨_, lowSim, [], lowSim_mk, .nil _, rfl⟩)
  obtain ⟨file', v', hf', h0', -, -, hs'⟩ := C119_view_partial signText_reads [m] hv (by simp)
  obtain rfl : file = file' := Option.some.inj (hf.symm.trans hf')
  rw [h0'] at h0
  simp only [Option.some.injEq, Plot.Figure.drawn.injEq] at h0
  subst h0
  have := (hs' m (by simp)).1 (hs m (by simp))
  have e : m.sim.dyn.state.pos 2 = -1 := rfl
  rw [e] at this
  norm_num [signText] at this

end Verif.Props
