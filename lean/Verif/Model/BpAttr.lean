import Verif.Model.Setup
/-
Assigning attributes of blueprints, blueprint books and planners one by one.  The data and the getters are those of `Model/Setup.lean`.
Left out: `entities`, `tiles` and `schedules`, whose setters are in `Model/SetEntities.lean`, `Model/SetTiles.lean` and
`Model/SchedList.lean`; warnings; objects whose `_root[root_item]` was overwritten; that the index of a blueprint which is too large stays
when it is refused (`Validate.setIndex`).
-/
namespace Draftsman
namespace BpAttr
open Setup

/-- What a setter does: one of the statements of `setup`, or one of the two forms below that do not occur there.
`/repo/draftsman/classes/blueprintable.py:225-432`. -/
inductive Act where
  /-- the setters that `setup` calls too: `/repo/draftsman/classes/blueprint.py:521-580` -/
  | step (t : Step)
  /-- a setting of an upgrade planner: `test_replace_me`, `/repo/draftsman/classes/upgrade_planner.py:497-517, 525-545, 574-594` -/
  | setting (f : String) (v : Val)
  /-- the list of a book: `/repo/draftsman/classes/blueprint_book.py:457-470` -/
  | books (v : Val)

/-- The setters.  `/repo/draftsman/classes/blueprintable.py:225-432`, `blueprint.py:673-976`, `blueprint_book.py:384-470`,
`upgrade_planner.py:497-594`, `deconstruction_planner.py:350-556`. -/
def setter (k : Kind) (n : String) (v : Val) : Option Act :=
  let common : Option Act :=
    if n = "label" then some (.step (.always "label" v))
    else if n = "version" then some (.step (.checked "version" (normVersion v)))
    else if n = "index" then some (.step (.index v))
    else none
  match k with
  | .blueprint =>
    if n = "label_color" then some (.step (.checked "label_color" v))
    else if n = "description" then some (.step (.checked "description" v))
    else if n = "icons" then some (.step (.always "icons" v))
    else if n = "snapping_grid_size" then some (.step (.vec "_snap_to_grid" v))
    else if n = "snapping_grid_position" then some (.step (.vec "_snapping_grid_position" v))
    else if n = "absolute_snapping" then some (.step (.checked "absolute_snapping" v))
    else if n = "position_relative_to_grid" then some (.step (.vec "_position_relative_to_grid" v))
    else if n = "wires" then some (.step (.priv "_wires" (orEmpty v)))
    else if n = "stock_connections" then some (.step (.raw "stock_connections" (orEmpty v)))
    else common
  | .book =>
    if n = "label_color" then some (.step (.checked "label_color" v))
    else if n = "description" then some (.step (.checked "description" v))
    else if n = "icons" then some (.step (.always "icons" v))
    else if n = "active_index" then some (.step (.checked "active_index" v))
    else if n = "blueprints" then some (.books v)
    else common
  | .upgrade =>
    if n ∈ ["description", "icons", "mappers"] then some (.setting n v)
    else common
  | .decon =>
    if n ∈ ["description", "icons", "entity_filter_mode", "entity_filters", "trees_and_rocks_only", "tile_filter_mode", "tile_filters",
        "tile_selection_mode"] then some (.step (.setting n v))
    else common

/-- Executing a setter.  `/repo/draftsman/classes/upgrade_planner.py:497-517`, `/repo/draftsman/classes/blueprint_book.py:457-470` and the setters of
`Setup.step`.  Without settings the validator of pydantic is given `None` and fails with an `AttributeError`. -/
def act (k : Kind) (validating : Bool) (r : Rules) (s : St) : Act → Except PyErr St
  | .step t => Setup.step k validating r s t
  | .setting f v => match s.settings with
    | none => .error .attributeError
    | some d => (alwaysChecked validating r f v).map fun w => { s with settings := some (d.set f w) }
  | .books .none => .ok { s with hidden := s.hidden.set "_blueprints" (.ints []) }
  | .books v => (r.make "_blueprints" v).map fun w => { s with hidden := s.hidden.set "_blueprints" w }

/-- `x.n = v`, with the exception if it raises one: a property without a setter is an `AttributeError`.  The setters named at `setter`,
`/repo/draftsman/classes/blueprintable.py:225-432`. -/
def assign (k : Kind) (validating : Bool) (r : Rules) (s : St) (n : String) (v : Val) : St × Option PyErr :=
  match setter k n v with
  | none => (s, some .attributeError)
  | some a => match act k validating r s a with
    | .ok s' => (s', none)
    | .error e => (s, some e)

/-- One assignment of a program: the mode at that time (`validate_assignment`, `/repo/draftsman/classes/exportable.py:261-281`), what
validation does at that time, the name and the value. -/
structure Asg where
  validating : Bool
  rules : Rules
  name : String
  value : Val

/-- A program that makes assignments and catches their exceptions.  `/repo/draftsman/classes/blueprintable.py:225-432`. -/
def after (k : Kind) : List Asg → St → St
  | [], s => s
  | a :: l, s => after k l (assign k a.validating a.rules s a.name a.value).1

end BpAttr
end Draftsman
