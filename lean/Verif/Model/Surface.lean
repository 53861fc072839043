import Mathlib.Algebra.Order.Field.Rat
import Verif.Model.Py
/-
Surface conditions: `/repo/draftsman/utils.py:882-900`, `/repo/draftsman/classes/entity.py:646-698`,
`/repo/draftsman/data/recipes.py:75-84`, `/repo/draftsman/data/planets.py:23-38`.
-/
namespace Draftsman.Surface

/-- One surface condition (a dictionary with `property` and optional `min`, `max`),
`/repo/draftsman/utils.py:891-896`. -/
structure Condition where
  property : String
  min : Option ℚ
  max : Option ℚ
  deriving DecidableEq, Repr

/-- A table of surface properties: a Python `dict`, as an association list (first match). -/
abbrev Table := List (String × ℚ)

/-- `min_val <= value <= max_val` with missing bounds infinite, `/repo/draftsman/utils.py:894-896`. -/
def inRange (c : Condition) (v : ℚ) : Bool :=
  (match c.min with | none => true | some m => decide (m ≤ v)) &&
  (match c.max with | none => true | some m => decide (v ≤ m))

/-- The loop of `passes_surface_conditions`, `/repo/draftsman/utils.py:890-899`. -/
def checkAll (props : Table) : List Condition → Bool
  | [] => true
  | c :: cs =>
    match props.lookup c.property with
    | some v => if inRange c v then checkAll props cs else false
    | none => checkAll props cs

/-- `passes_surface_conditions`, `/repo/draftsman/utils.py:882-900`. -/
def passes (conditions : Option (List Condition)) (props : Table) : Bool :=
  match conditions with
  | none => true
  | some cs => checkAll props cs

/-- What is read of the prototype of a planet, as the game has it in `data.raw["planet"]` and
`/repo/draftsman/environment/update.py:1302-1312` stores it: the entries of the prototype itself that are numbers, and the
table under `surface_properties`, which is one of its entries. -/
structure Planet where
  entries : Table
  surfaceProperties : Option Table
  deriving DecidableEq, Repr

/-- `get_surface_properties`, `/repo/draftsman/data/planets.py:23-38`: `raw` maps a surface name to its prototype.  The four
values are looked for in the prototype itself, not in its `surface_properties`. -/
def getSurfaceProperties (raw : List (String × Planet)) (surface : String) : Table :=
  match raw.lookup surface with
  | none => []
  | some p =>
    [("solar-power", (p.entries.lookup "solar-power").getD 100),
     ("magnetic-field", (p.entries.lookup "magnetic-field").getD 90),
     ("pressure", (p.entries.lookup "pressure").getD 1000),
     ("gravity", (p.entries.lookup "gravity").getD 10)]

/-- `Entity.surface_conditions`, `/repo/draftsman/classes/entity.py:646-657`: unknown entity → `None`;
known entity without the key → `{}` (iterates as no conditions).  `entities` maps an entity name to its
optional conditions. -/
def surfaceConditions (entities : List (String × Option (List Condition))) (name : String) :
    Option (List Condition) :=
  match entities.lookup name with
  | none => none
  | some none => some []
  | some (some cs) => some cs

/-- `Entity.is_placable_on`, `/repo/draftsman/classes/entity.py:688-698`. -/
def isPlacableOn (entities : List (String × Option (List Condition))) (planets : List (String × Planet))
    (name surface : String) : Bool :=
  passes (surfaceConditions entities name) (getSurfaceProperties planets surface)

/-- `is_usable_on`, `/repo/draftsman/data/recipes.py:75-84`: unknown recipe → `KeyError`. -/
def isUsableOn (recipes : List (String × Option (List Condition))) (planets : List (String × Planet))
    (name surface : String) : Except PyErr Bool :=
  match recipes.lookup name with
  | none => .error .keyError
  | some none => .ok true
  | some (some cs) => .ok (passes (some cs) (getSurfaceProperties planets surface))

end Draftsman.Surface
