import Verif.Model.Logger

/-!
# The plotting script — /repo/examples/plot_results.py

Reads the log written by `CsvLogger` and draws it.  `float(text)` is `parse : List Char → Option α`, `none`
when Python raises `ValueError`.  An uncaught Python exception is `Res.bad`.
Not modelled: colours, titles, axis labels, the event loop; quoting characters (the logger writes none).
-/

namespace Verif.Plot

open Flt

variable {α : Type}

/-- `csv.reader` on one line without quotes: the field being read and the rest of the line —
plot_results.py:134 -/
def csvFields (field : List Char) : List Char → List (List Char)
  | [] => [field]
  | c :: cs => if c = ',' then field :: csvFields [] cs else csvFields (field ++ [c]) cs

/-- One row of `csv.reader`; a blank line gives the empty row — plot_results.py:134 -/
def csvRow (line : List Char) : List (List Char) := if line = [] then [] else csvFields [] line

/-- `defaultdict(list)` in the order of insertion — plot_results.py:130 -/
abbrev Dict (α : Type) := List (List Char × List α)

/-- `data[key]`; a missing key reads as the empty list (Python also inserts it, which no later
statement observes because every figure reads the file again) — plot_results.py:68-88, 152 -/
def Dict.get : Dict α → List Char → List α
  | [], _ => []
  | (k, l) :: d, key => if k = key then l else Dict.get d key

/-- `data.keys()` — plot_results.py:147, 151 -/
def Dict.keys (d : Dict α) : List (List Char) := d.map Prod.fst

/-- `data[key].append(x)` — plot_results.py:144 -/
def Dict.put : Dict α → List Char → α → Dict α
  | [], key, x => [(key, [x])]
  | (k, l) :: d, key, x => if k = key then (k, l ++ [x]) :: d else (k, l) :: Dict.put d key x

/-- The loop over one row: `DictReader` pairs field names and fields; a missing field is `None` and surplus
fields are a list, both skipped; an empty field ends the row — plot_results.py:137-144.
The field names are distinct in every file the logger writes. -/
def readRow (parse : List Char → Option α) : List (List Char) → List (List Char) → Dict α → Option (Dict α)
  | key :: keys, field :: fields, d =>
    if field = [] then some d
    else (parse field).bind fun x => readRow parse keys fields (d.put key x)
  | _, _, d => some d

/-- The loop over the rows — plot_results.py:137-144; `DictReader` skips blank rows, for which `readRow`
does nothing. -/
def readRows (parse : List Char → Option α) (names : List (List Char)) :
    List (List Char) → Dict α → Option (Dict α)
  | [], d => some d
  | line :: lines, d => (readRow parse names (csvRow line) d).bind (readRows parse names lines)

/-- The key that all columns are compared with. -/
def timeKey : List Char := "time".toList

/-- What `read_csv` returns: the data and whether the warning about 74 keys was printed, or `None`. -/
inductive Read (α : Type) where
  | data (d : Dict α) (warned : Bool)
  | none

/-- `read_csv` — plot_results.py:127-156; outer `none`: `float` raised `ValueError`.  The file is given as its lines. -/
def readCsv (parse : List Char → Option α) : List (List Char) → Option (Read α)
  | [] => some (.data [] true)
  | head :: lines =>
    (readRows parse (csvRow head) lines []).map fun d =>
      if d.keys.all fun k => (d.get k).length == (d.get timeKey).length then .data d (d.keys.length != 74) else .none

/-- A curve over time: its label and its points. -/
structure Curve (α : Type) where
  label : List Char
  xs : List α
  ys : List α

/-- `axs.plot(x, y)` raises `ValueError` for lists of different lengths — plot_results.py:70-83 -/
def curve (label : List Char) (xs ys : List α) : Option (Curve α) :=
  if xs.length = ys.length then some ⟨label, xs, ys⟩ else none

variable [Flt α]

/-- `compute_mean_error` — plot_results.py:58-63; `none`: `IndexError` -/
def meanError (gt ref : List α) : Option α :=
  if h : gt.length ≤ ref.length then
    some (vsum (fun i : Fin gt.length => abs (gt[i] ⊟ ref[i.val]'(i.isLt.trans_le h))) ⊘ lit gt.length)
  else none

/-- A curve that is drawn only if there are values — plot_results.py:74-83 -/
def optional (d : Dict α) (key : List Char) : Option (List (Curve α)) :=
  if d.get key = [] then some [] else (curve key (d.get timeKey) (d.get key)).map fun c => [c]

/-- One value of the loop of `plot_values`: the curves and the mean error printed — plot_results.py:68-92 -/
def plotValue (d : Dict α) (key : List Char) : Option (List (Curve α) × Option α) :=
  (curve key (d.get timeKey) (d.get key)).bind fun c =>
  (optional d (key ++ "_ref".toList)).bind fun r =>
  (optional d (key ++ "_io".toList)).bind fun i =>
  if d.get (key ++ "_ref".toList) = [] then some (c :: (r ++ i), none)
  else (meanError (d.get key) (d.get (key ++ "_ref".toList))).map fun e => (c :: (r ++ i), some e)

/-- `plot_values` — plot_results.py:66-94 -/
def plotValues (d : Dict α) : List (List Char) → Option (List (List (Curve α) × Option α))
  | [] => some []
  | key :: keys => (plotValue d key).bind fun p => (plotValues d keys).map fun ps => p :: ps

/-- A curve in space — plot_results.py:103-111 -/
structure Curve3 (α : Type) where
  label : List Char
  xs : List α
  ys : List α
  zs : List α

/-- `axs.plot(x, y, z)` -/
def curve3 (label : String) (xs ys zs : List α) : Option (Curve3 α) :=
  if xs.length = ys.length ∧ xs.length = zs.length then some ⟨label.toList, xs, ys, zs⟩ else none

/-- A curve in space that is drawn only if there are values — plot_results.py:105-110 -/
def optional3 (d : Dict α) (label suffix : String) : Option (List (Curve3 α)) :=
  if d.get ("x".toList ++ suffix.toList) = [] then some []
  else (curve3 label (d.get ("x".toList ++ suffix.toList)) (d.get ("y".toList ++ suffix.toList))
    (d.get ("z".toList ++ suffix.toList))).map fun c => [c]

/-- `np.min` of a list, NaN if any entry is NaN — plot_results.py:119 -/
def npMin : List α → Option α
  | [] => none
  | x :: xs => some (xs.foldl (fun a b => if Logger.isNan a then a else if Logger.isNan b then b
      else if lt b a then b else a) x)

/-- `np.max` of a list, NaN if any entry is NaN — plot_results.py:120 -/
def npMax : List α → Option α
  | [] => none
  | x :: xs => some (xs.foldl (fun a b => if Logger.isNan a then a else if Logger.isNan b then b
      else if lt a b then b else a) x)

/-- What the first figure shows: the curves and the limits of the three axes. -/
structure View (α : Type) where
  curves : List (Curve3 α)
  xlim : α × α
  ylim : α × α
  zlim : α × α

/-- `plot_values_3d` for the keys `x`, `y`, `z` — plot_results.py:97-124.  A limit that is NaN raises `ValueError`
(an infinite one too, not modelled). -/
def plot3d (d : Dict α) : Option (View α) :=
  let xs := d.get "x".toList
  let ys := d.get "y".toList
  let zs := d.get "z".toList
  (curve3 "ground truth" xs ys zs).bind fun c =>
  (optional3 d "inertial odometry" "_io").bind fun i =>
  (optional3 d "reference" "_ref").bind fun r =>
  (npMin (xs ++ ys ++ zs)).bind fun mn =>
  (npMax (xs ++ ys ++ zs)).bind fun mx =>
  let lo := lit (-1) ⊠ abs mn
  let m := if lt (abs lo) (abs mx) then abs mx else abs lo
  if Logger.isNan m then none
  else some ⟨c :: (i ++ r), (lit (-1) ⊠ m, m), (lit (-1) ⊠ m, m), (lit 0 ⊠ m, m)⟩

/-- What a figure shows: nothing (the message "No data to plot"), or the drawing. -/
inductive Figure (β : Type) where
  | empty
  | drawn (b : β)

/-- `update_plot_figure0` — plot_results.py:159-168; `len(data['time'])` raises `TypeError` when `read_csv` returned
`None` -/
def figure0 (parse : List Char → Option α) (file : List (List Char)) : Option (Figure (View α)) :=
  match readCsv parse file with
  | none => none
  | some .none => none
  | some (.data d _) => if d.get timeKey = [] then some .empty else (plot3d d).map .drawn

/-- The rows of the second figure — plot_results.py:190-193 -/
def rows1 : List (List Char) :=
  ["x".toList, "y".toList, "z".toList, "roll".toList, "pitch".toList, "yaw".toList, "vx".toList, "vy".toList,
   "vz".toList, "ax".toList, "ay".toList, "az".toList]

/-- `update_plot_figure1` — plot_results.py:171-193: this one checks for `None` -/
def figure1 (parse : List Char → Option α) (file : List (List Char)) :
    Option (Figure (List (List (Curve α) × Option α))) :=
  match readCsv parse file with
  | none => none
  | some .none => some .empty
  | some (.data d _) => if d.get timeKey = [] then some .empty else (plotValues d rows1).map .drawn

/-- The rows of the third figure — plot_results.py:207-210 -/
def rows2 : List (List Char) :=
  ["wx".toList, "wy".toList, "wz".toList, "dwx".toList, "dwy".toList, "dwz".toList, "fx".toList, "fy".toList,
   "fz".toList, "tx".toList, "ty".toList, "tz".toList]

/-- The rows of the fourth figure — plot_results.py:225-228 -/
def rows3 : List (List Char) :=
  ["mw1".toList, "mw2".toList, "mw3".toList, "mw4".toList, "mdw1".toList, "mdw2".toList, "mdw3".toList, "mdw4".toList]

/-- `update_plot_figure2` and `update_plot_figure3` — plot_results.py:196-228 -/
def figure23 (parse : List Char → Option α) (rows : List (List Char)) (file : List (List Char)) :
    Option (Figure (List (List (Curve α) × Option α))) :=
  match readCsv parse file with
  | none => none
  | some .none => none
  | some (.data d _) => if d.get timeKey = [] then some .empty else (plotValues d rows).map .drawn

/-- `main` without `--auto_update`: the four figures one after the other, stopping at the first exception —
plot_results.py:268-271 -/
def main (parse : List Char → Option α) (file : List (List Char)) :
    Option (Figure (View α) × Figure (List (List (Curve α) × Option α)) ×
      Figure (List (List (Curve α) × Option α)) × Figure (List (List (Curve α) × Option α))) :=
  (figure0 parse file).bind fun f0 => (figure1 parse file).bind fun f1 =>
  (figure23 parse rows2 file).bind fun f2 => (figure23 parse rows3 file).map fun f3 => (f0, f1, f2, f3)

end Verif.Plot
