import Verif.Model.Py
import Verif.Model.Dict
import Mathlib.Data.Rat.Floor
/-
The tables of modules and signals: `/repo/draftsman/data/modules.py`, `/repo/draftsman/data/signals.py:33-88`.
-/
namespace Draftsman
namespace Modules

/-- An entry of `raw`, as far as it is read: the numbers under `"effect"`, and `"limitation"` and `"limitation_blacklist"` if they are there.  `extra` stands for all the rest.  Read at `/repo/draftsman/data/modules.py:61-78`. -/
structure Module where
  category : String
  effect : Dict String ℚ
  limitation : Option (List String) := none
  blacklist : Option (List String) := none
  extra : Nat := 0
  deriving DecidableEq

/-- Whether the recipe makes the loop skip the module: `/repo/draftsman/data/modules.py:63-72`. -/
def skipped (m : Module) : Option String → Bool
  | none => false
  | some r =>
    (match m.limitation with
      | some l => !decide (r ∈ l)
      | none => false) ||
    (match m.blacklist with
      | some l => decide (r ∈ l)
      | none => false)

/-- `positive_effects.issubset(allowed_effects)`: `/repo/draftsman/data/modules.py:75-78`. -/
def fits (m : Module) (allowed : List String) : Bool :=
  (m.effect.filter fun p => decide (0 < p.2)).all fun p => decide (p.1 ∈ allowed)

/-- `get_modules_from_effects`, `/repo/draftsman/data/modules.py:51-81`; the result is a set, here a list in the order of the table. -/
def fromEffects (raw : Dict String Module) (allowed : Option (List String)) (recipe : Option String) : Option (List String) :=
  allowed.map fun a => (raw.filter fun p => !skipped p.2 recipe && fits p.2 a).map (·.1)

/-- The two tables of `/repo/draftsman/data/modules.py:10-13`. -/
structure Tables where
  raw : Dict String Module
  categories : Dict String (List String)
  deriving DecidableEq

/-- `add_module_category`, `/repo/draftsman/data/modules.py:16-21`. -/
def addCategory (t : Tables) (name : String) : Tables := { t with categories := t.categories.set name [] }

/-- What `add_module` is given besides the names: `kwargs`, where `none` is a key that is not there.  `/repo/draftsman/data/modules.py:24-49`. -/
structure Args where
  effect : Option (Dict String ℚ) := none
  limitation : Option (List String) := none
  blacklist : Option (List String) := none
  extra : Option Nat := none

/-- `add_module`, `/repo/draftsman/data/modules.py:24-48`.  `"effect"` of an existing entry goes before the argument (line 34); for the other keys the arguments go first
(line 43).  `"tier"` is left out. -/
def addModule (t : Tables) (name category : String) (a : Args) : Except PyErr Tables :=
  match t.categories.get? category with
  | none => .error .typeError
  | some l =>
    let old := t.raw.get? name
    let entry : Module := {
      category := category
      effect := (old.map (·.effect)).getD (a.effect.getD [])
      limitation := a.limitation.orElse fun _ => old.bind (·.limitation)
      blacklist := a.blacklist.orElse fun _ => old.bind (·.blacklist)
      extra := a.extra.getD ((old.map (·.extra)).getD 0) }
    .ok { raw := t.raw.set name entry, categories := t.categories.set category (l ++ [name]) }

/-- The types of signals, `/repo/draftsman/data/signals.py:52-61`. -/
inductive SigType | item | fluid | recipe | entity | spaceLocation | asteroidChunk | quality | virtual
  deriving DecidableEq, Repr

/-- The tables of `/repo/draftsman/data/signals.py:12-30`: `raw` (the type stored for a name), `type_of` (a set, here a list without repetitions) and the eight lists. -/
structure Signals where
  raw : Dict String SigType
  typeOf : Dict String (List SigType)
  lists : SigType → List String

/-- The type argument, `/repo/draftsman/data/signals.py:52-63`. -/
def parseType : String → Option SigType
  | "item" => some .item
  | "fluid" => some .fluid
  | "recipe" => some .recipe
  | "entity" => some .entity
  | "space-location" => some .spaceLocation
  | "asteroid-chunk" => some .asteroidChunk
  | "quality" => some .quality
  | "virtual" => some .virtual
  | _ => none

/-- `add_signal`, `/repo/draftsman/data/signals.py:33-88`. -/
def addSignal (t : Signals) (name type : String) : Except PyErr Signals :=
  match parseType type with
  | none => .error .valueError
  | some ty =>
    .ok {
      raw := t.raw.set name ty
      typeOf :=
        match t.typeOf.get? name with
        | some ts => t.typeOf.set name (if ty ∈ ts then ts else ts ++ [ty])
        | none => t.typeOf.set name [ty]
      lists := fun u => if u = ty then t.lists u ++ [name] else t.lists u }

end Modules
end Draftsman
