import Mathlib.Data.List.Basic

/-!
# Fields of a line of comma separated text
-/

namespace Verif.Spec

/-- The fields of a line: the pieces between commas. -/
def splitComma : List Char → List (List Char)
  | [] => [[]]
  | c :: cs =>
    if c = ',' then [] :: splitComma cs
    else
      match splitComma cs with
      | [] => [[c]]
      | f :: fs => (c :: f) :: fs

end Verif.Spec
