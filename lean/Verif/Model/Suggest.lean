import Mathlib.Data.List.Sort
import Verif.Model.Checks
/-
The checks of the names of entities and tiles and the suggestions appended to their warnings: `/repo/draftsman/classes/entity.py:148-190`,
`/repo/draftsman/classes/tile.py:71-93`, `/repo/draftsman/utils.py:949-974`.
-/
namespace Draftsman
namespace Suggest
open Checks

/-- `Entity.Format.check_unknown_name`, `/repo/draftsman/classes/entity.py:148-190`.  `similar` is `similar_entities`, `none` on a generic `Entity`; `cls`
the name of the class, which the first text tells and the second does not. -/
def entityName (cls : String) (similar : Option (List String)) (raw : List String) (ctx : Ctx) (value : String) : List Warn :=
  if skip .minimum ctx then []
  else if similar.any (fun l => decide (value ∉ l)) then [.unknownName cls value]
  else if value ∉ raw then [.unknownName "entity" value]
  else []

/-- `Tile.Format.check_unknown_name`, `/repo/draftsman/classes/tile.py:71-93`. -/
def tileName (raw : List String) (ctx : Ctx) (value : String) : List Warn :=
  if skip .minimum ctx then []
  else if value ∉ raw then [.unknownName "tile" value]
  else []

/-- `process.extract(name, choices, limit=n)` of the package for fuzzy matching, used at `/repo/draftsman/utils.py:965`: the choices with their scores, the
highest scores first (equal ones in the order given), no more than `n`.  How a score is computed is left open. -/
def extract (score : String → Nat) (choices : List String) (n : Nat) : List (String × Nat) :=
  ((choices.map fun c => (c, score c)).insertionSort fun a b => b.2 ≤ a.2).take n

/-- The text appended, by what it names.  `/repo/draftsman/utils.py:968-973`. -/
inductive Text where
  | nothing
  | one (s : String)
  | several (l : List String)
  deriving DecidableEq, Repr

/-- The names in the text.  Part of the statement of `/repo/draftsman/utils.py:968-973`. -/
def Text.names : Text → List String
  | .nothing => []
  | .one s => [s]
  | .several l => l

/-- `get_suggestion`, `/repo/draftsman/utils.py:949-974`. -/
def getSuggestion (score : String → Nat) (choices : List String) (n cutoff : Nat) : Text :=
  match ((extract score choices n).filter fun p => decide (cutoff ≤ p.2)).map (·.1) with
  | [] => .nothing
  | [s] => .one s
  | l => .several l

end Suggest
end Draftsman
