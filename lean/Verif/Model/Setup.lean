import Verif.Model.Py
import Verif.Model.Dict
import Verif.Model.Version
/-
Making blueprints, blueprint books and planners: the constructor and `setup` of the four kinds of blueprintables, and what can be read
from them afterwards.
Simplified: the values of keywords are opaque except for what the setters look at; the validation of one field is an arbitrary function of
the field and the value.  Replacing the references by associations (`/repo/draftsman/classes/blueprint.py:614-631`) is in
`Model/Import.lean`.  What the concluding validation of a book stores back (`/repo/draftsman/classes/blueprint_book.py:500-506`) is left
out, and so are keywords that are attributes of every pydantic model, such as `model_config`.
-/
namespace Draftsman
namespace Setup

/-- The value of a keyword or of an attribute: `None`, a flag, an integer, a sequence of integers (among them the empty list), a text, or
something else.  `/repo/draftsman/classes/blueprint.py:494-515`. -/
inductive Val where
  | none
  | bool (b : Bool)
  | int (n : Int)
  | ints (l : List Int)
  | str (s : String)
  | other (n : Nat)
  deriving DecidableEq, Repr

/-- The four classes of blueprintables.  `/repo/draftsman/blueprintable.py`. -/
inductive Kind where
  | blueprint | book | upgrade | decon
  deriving DecidableEq, Repr

/-- `root_item`: `/repo/draftsman/classes/blueprint.py:480`, `blueprint_book.py:280`, `upgrade_planner.py:437`, `deconstruction_planner.py:268`. -/
def rootItem : Kind → String
  | .blueprint => "blueprint"
  | .book => "blueprint_book"
  | .upgrade => "upgrade_planner"
  | .decon => "deconstruction_planner"

/-- The names of the parameters of `setup`, without `self`, `settings` and `validate`, which are handled separately.
`/repo/draftsman/classes/blueprint.py:494-515`, `blueprint_book.py:293-307`, `upgrade_planner.py:448-458`, `deconstruction_planner.py:279-289`. -/
def params : Kind → List String
  | .blueprint => ["label", "label_color", "description", "icons", "version", "snapping_grid_size", "snapping_grid_position",
      "absolute_snapping", "position_relative_to_grid", "entities", "tiles", "schedules", "wires", "stock_connections", "index"]
  | .book => ["label", "label_color", "description", "icons", "version", "active_index", "blueprints", "index"]
  | .upgrade => ["label", "version", "index"]
  | .decon => ["label", "version", "index"]

/-- Keywords that are taken out of `**kwargs` by hand.  `/repo/draftsman/classes/blueprint.py:519, 532-549`, `blueprint_book.py:311`,
`upgrade_planner.py:459`, `deconstruction_planner.py:291`. -/
def popped : Kind → List String
  | .blueprint => ["item", "snap-to-grid", "absolute-snapping", "position-relative-to-grid"]
  | _ => ["item"]

/-- The private attributes of the root model.  `/repo/draftsman/classes/blueprint.py:291-294`, `blueprint_book.py:170`. -/
def privates : Kind → List String
  | .blueprint => ["_entities", "_tiles", "_schedules", "_wires"]
  | .book => ["_blueprints"]
  | _ => []

/-- The keywords of one call: all but `settings` and `validate`, and `settings`, which may be missing, `None`, or a dictionary.
`/repo/draftsman/classes/upgrade_planner.py:448-458`. -/
structure Call where
  kw : Dict String Val
  settings : Option (Option (Dict String Val))
  deriving DecidableEq, Repr

/-- The data of a blueprintable.  `obj` are the fields of `_root[root_item]`, `settings` those of its settings, `hidden` the private
attributes, `root` the other fields of `_root`, that is the index and unknown keys; `replaced` is what stands in place of
`_root[root_item]` if that was overwritten.  `/repo/draftsman/classes/blueprintable.py:71-81`. -/
structure St where
  obj : Dict String Val
  settings : Option (Dict String Val)
  hidden : Dict String Val
  root : Dict String Val
  replaced : Option Val
  deriving DecidableEq, Repr

/-- Validation of one field, and making an `EntityList`, `TileList`, `ScheduleList` or `BlueprintableList`.
`/repo/draftsman/classes/exportable.py:14-45`, `/repo/draftsman/classes/blueprint.py:557-574`. -/
structure Rules where
  check : String → Val → Except PyErr Val
  make : String → Val → Except PyErr Val

/-- Validation while `"construction"` is in the context: a value that fails is kept.  `/repo/draftsman/signatures.py:145-162`. -/
def lenient (r : Rules) (f : String) (v : Val) : Except PyErr Val :=
  match r.check f v with
  | .error _ => .ok v
  | .ok w => .ok w

/-- `encode_version(*value)` with `patch` and `dev_ver` defaulting to 0, for two to four components that are not negative; anything else
is returned as it is.  `/repo/draftsman/signatures.py:540-544` with `/repo/draftsman/utils.py:425-441`.  Simplified: with a negative
component python computes a number too. -/
def normVersion : Val → Val
  | .ints [a, b] => if 0 ≤ a ∧ 0 ≤ b then .int (Version.encodeVersion a.toNat b.toNat 0 0) else .ints [a, b]
  | .ints [a, b, c] =>
    if 0 ≤ a ∧ 0 ≤ b ∧ 0 ≤ c then .int (Version.encodeVersion a.toNat b.toNat c.toNat 0) else .ints [a, b, c]
  | .ints [a, b, c, d] =>
    if 0 ≤ a ∧ 0 ≤ b ∧ 0 ≤ c ∧ 0 ≤ d then .int (Version.encodeVersion a.toNat b.toNat c.toNat d.toNat) else .ints [a, b, c, d]
  | v => v

/-- The value given to the three vectors: `(0, 0)` for `None`, otherwise `Vector.update_from_other`.
`/repo/draftsman/classes/blueprint.py:708-723`, 747-755 and 806-822, `/repo/draftsman/classes/vector.py:93-110`.  Simplified: vectors and
dictionaries with `x` and `y` are sequences too, and coordinates are integers. -/
def toVec : Val → Except PyErr Val
  | .none => .ok (.ints [0, 0])
  | .ints (x :: y :: _) => .ok (.ints [x, y])
  | .ints _ => .error .indexError
  | _ => .error .typeError

/-- One statement of a `setup`, `/repo/draftsman/classes/blueprint.py:521-584`. -/
inductive Step where
  /-- Validated in every mode: `test_replace_me`, `/repo/draftsman/classes/blueprintable.py:225-234, 310-319`. -/
  | always (f : String) (v : Val)
  /-- Validated unless the mode is `NONE`: `/repo/draftsman/classes/blueprintable.py:260-272`. -/
  | checked (f : String) (v : Val)
  /-- Stored as it is: `/repo/draftsman/classes/blueprint.py:971-976`. -/
  | raw (f : String) (v : Val)
  /-- One of the vectors: `/repo/draftsman/classes/blueprint.py:707-723`. -/
  | vec (f : String) (v : Val)
  /-- A list object made from the argument: `/repo/draftsman/classes/blueprint.py:557-574`, `blueprint_book.py:336-339`. -/
  | list (f : String) (v : Val)
  /-- A private attribute stored as it is: `/repo/draftsman/classes/blueprint.py:576`. -/
  | priv (f : String) (v : Val)
  /-- A field of the settings, validated unless the mode is `NONE`: `/repo/draftsman/classes/deconstruction_planner.py:350-362`. -/
  | setting (f : String) (v : Val)
  /-- The settings as a whole: `/repo/draftsman/classes/upgrade_planner.py:464-471`. -/
  | whole (d : Option (Dict String Val))
  /-- The index: `/repo/draftsman/classes/blueprintable.py:426-432`.  Simplified: if a blueprint is too large this raises with the index stored, see
  `Validate.setIndex`. -/
  | index (v : Val)
  /-- An unknown keyword: `self._root[kwarg] = value`, `/repo/draftsman/classes/blueprint.py:583-584`. -/
  | extra (k : String) (v : Val)
  deriving DecidableEq, Repr

/-- The settings of an upgrade planner made from a dictionary: the three fields, validated, with their default, and every other key.
`/repo/draftsman/classes/upgrade_planner.py:258-282` (`Settings`); extra keys are allowed, `/repo/draftsman/signatures.py:243-247`. -/
def makeSettings (check : String → Val → Except PyErr Val) (d : Dict String Val) : Except PyErr (Dict String Val) := do
  let a ← check "description" ((d.get? "description").getD .none)
  let b ← check "icons" ((d.get? "icons").getD .none)
  let c ← check "mappers" ((d.get? "mappers").getD .none)
  return [("description", a), ("icons", b), ("mappers", c)] ++
    d.filter fun p => !(["description", "icons", "mappers"].contains p.1)

/-- The check that is made in a setter that validates only if `validate_assignment` is not `NONE`.
`/repo/draftsman/classes/blueprintable.py:260-272`. -/
def ifChecked (validating : Bool) (r : Rules) (f : String) (v : Val) : Except PyErr Val :=
  if validating then r.check f v else .ok v

/-- The check made in every mode, with failures ignored if the mode is `NONE`.  `/repo/draftsman/classes/exportable.py:114-130`. -/
def alwaysChecked (validating : Bool) (r : Rules) (f : String) (v : Val) : Except PyErr Val :=
  if validating then r.check f v else lenient r f v

/-- Executing one statement.  The setters named at `Step`, `/repo/draftsman/classes/blueprint.py:640-976`, `/repo/draftsman/classes/blueprintable.py:186-432`. -/
def step (k : Kind) (validating : Bool) (r : Rules) (s : St) : Step → Except PyErr St
  | .always f v => (alwaysChecked validating r f v).map fun w => { s with obj := s.obj.set f w }
  | .checked f v => (ifChecked validating r f v).map fun w => { s with obj := s.obj.set f w }
  | .raw f v => .ok { s with obj := s.obj.set f v }
  | .vec f v => (toVec v).map fun w => { s with hidden := s.hidden.set f w }
  | .list f v => (r.make f v).map fun w => { s with hidden := s.hidden.set f w }
  | .priv f v => .ok { s with hidden := s.hidden.set f v }
  | .setting f v => match s.settings with
    | none => .error .typeError
    | some d => (ifChecked validating r f v).map fun w => { s with settings := some (d.set f w) }
  | .whole none => .ok { s with settings := none }
  | .whole (some d) =>
    (makeSettings (alwaysChecked validating r) d).map fun d' => { s with settings := some d' }
  | .index v => (ifChecked validating r "index" v).map fun w => { s with root := s.root.set "index" w }
  | .extra key v =>
    if key = rootItem k then .ok { s with replaced := some v }
    else if key ∈ privates k then .ok { s with hidden := s.hidden.set key v }
    else .ok { s with root := s.root.set key v }

/-- Executing statements in order, up to the first exception; what was done before it stays.  The bodies of the `setup` methods, `/repo/draftsman/classes/blueprint.py:521-584`. -/
def run (k : Kind) (validating : Bool) (r : Rules) : List Step → St → St × Option PyErr
  | [], s => (s, none)
  | t :: ts, s => match step k validating r s t with
    | .ok s' => run k validating r ts s'
    | .error e => (s, some e)

/-- The argument of a parameter, or its default.  Python call. -/
def arg (c : Call) (name : String) (dflt : Val) : Val := (c.kw.get? name).getD dflt

/-- `kwargs.pop(dashed)` if it is there, and the parameter otherwise.  `/repo/draftsman/classes/blueprint.py:532-549`. -/
def either (c : Call) (dashed name : String) (dflt : Val) : Val :=
  match c.kw.get? dashed with
  | some v => v
  | none => arg c name dflt

/-- `[] if value is None else value`: `/repo/draftsman/classes/blueprint.py:576-578`. -/
def orEmpty : Val → Val
  | .none => .ints []
  | v => v

/-- What is left in `**kwargs` for the loop at the end.  `/repo/draftsman/classes/blueprint.py:582-584`, `blueprint_book.py:341-343`,
`upgrade_planner.py:482-484`, `deconstruction_planner.py:316-319`.  `settings` is an unknown keyword for blueprints and books; it is
not among these here. -/
def extras (k : Kind) (c : Call) : Dict String Val :=
  c.kw.filter fun p => !((params k ++ popped k).contains p.1)

/-- The settings argument of the planners: `{}` by default.  `/repo/draftsman/classes/upgrade_planner.py:452`. -/
def settingsArg (c : Call) : Option (Dict String Val) := c.settings.getD (some [])

/-- The statements about the settings in `DeconstructionPlanner.setup`, `/repo/draftsman/classes/deconstruction_planner.py:296-312`; the
modes are 0 (`WHITELIST`) and 2 (`NEVER`) by default, `/repo/draftsman/constants.py`. -/
def deconSettings : Option (Dict String Val) → List Step
  | none => []
  | some d =>
    [.setting "entity_filter_mode" ((d.get? "entity_filter_mode").getD (.int 0)),
     .setting "entity_filters" ((d.get? "entity_filters").getD (.ints [])),
     .setting "trees_and_rocks_only" ((d.get? "trees_and_rocks_only").getD (.bool false)),
     .setting "tile_filter_mode" ((d.get? "tile_filter_mode").getD (.int 0)),
     .setting "tile_filters" ((d.get? "tile_filters").getD (.ints [])),
     .setting "tile_selection_mode" ((d.get? "tile_selection_mode").getD (.int 2)),
     .setting "description" ((d.get? "description").getD .none),
     .setting "icons" ((d.get? "icons").getD .none)]

/-- The statements of the four `setup` methods in order, up to the loop over the unknown keywords; `version` is the version of the game
that is the default.  `/repo/draftsman/classes/blueprint.py:521-584`, `blueprint_book.py:313-343`, `upgrade_planner.py:461-484`,
`deconstruction_planner.py:293-319`. -/
def body (k : Kind) (version : Val) (c : Call) : List Step :=
  match k with
  | .blueprint =>
    [.always "label" (arg c "label" .none), .checked "label_color" (arg c "label_color" .none),
     .checked "description" (arg c "description" .none), .always "icons" (arg c "icons" .none),
     .checked "version" (normVersion (arg c "version" version)),
     .vec "_snap_to_grid" (either c "snap-to-grid" "snapping_grid_size" .none),
     .vec "_snapping_grid_position" (arg c "snapping_grid_position" .none),
     .checked "absolute_snapping" (either c "absolute-snapping" "absolute_snapping" (.bool true)),
     .vec "_position_relative_to_grid" (either c "position-relative-to-grid" "position_relative_to_grid" .none),
     .list "_entities" (arg c "entities" (.ints [])), .list "_tiles" (arg c "tiles" (.ints [])),
     .list "_schedules" (arg c "schedules" (.ints [])), .priv "_wires" (orEmpty (arg c "wires" .none)),
     .raw "stock_connections" (orEmpty (arg c "stock_connections" .none)), .index (arg c "index" .none)]
  | .book =>
    [.always "label" (arg c "label" .none), .checked "label_color" (arg c "label_color" .none),
     .checked "description" (arg c "description" .none), .always "icons" (arg c "icons" .none),
     .checked "active_index" (arg c "active_index" (.int 0)), .checked "version" (normVersion (arg c "version" version)),
     .index (arg c "index" .none), .list "_blueprints" (arg c "blueprints" (.ints []))]
  | .upgrade =>
    [.always "label" (arg c "label" .none), .checked "version" (normVersion (arg c "version" version)),
     .whole (settingsArg c), .index (arg c "index" .none)]
  | .decon =>
    [.always "label" (arg c "label" .none), .checked "version" (normVersion (arg c "version" version))] ++
    deconSettings (settingsArg c) ++ [.index (arg c "index" .none)]

/-- `setup(**call, validate="none")`: the statements and the loop over the unknown keywords.
`/repo/draftsman/classes/blueprint.py:494-584` and the others as at `body`. -/
def setup (k : Kind) (version : Val) (validating : Bool) (r : Rules) (c : Call) (s : St) : St × Option PyErr :=
  run k validating r (body k version c ++ (extras k c).map fun p => .extra p.1 p.2) s

/-- The unknown keys about which the concluding validation warns (`UnknownKeywordWarning`): those of the root model and those of the
settings.  `/repo/draftsman/signatures.py:163-203`; the fields are listed in the `Format` classes,
`/repo/draftsman/classes/upgrade_planner.py:258-282`, `deconstruction_planner.py:117-192`. -/
def unknownKeys (k : Kind) (s : St) : List String :=
  ((s.settings.getD []).keys.filter fun f => !(["description", "icons", "mappers", "entity_filter_mode", "entity_filters",
      "trees_and_rocks_only", "tile_filter_mode", "tile_filters", "tile_selection_mode"].contains f)) ++
  (s.root.keys.filter fun f => f != "index" && f != rootItem k)

/-- A new root model before `setup` is called: the fields with their defaults.  `/repo/draftsman/classes/blueprintable.py:78-81`,
`blueprint.py:289-398`, `blueprint_book.py:169-253`, `upgrade_planner.py:227-340`, `deconstruction_planner.py:90-230`.  The lists do not
exist yet.  `index` is the argument of the constructor. -/
def blank (k : Kind) (index : Val) : St :=
  match k with
  | .blueprint =>
    { obj := [("item", .str "blueprint"), ("label", .none), ("label_color", .none), ("description", .none), ("icons", .none),
        ("version", .none), ("absolute_snapping", .bool true), ("stock_connections", .ints [])]
      settings := none
      hidden := [("_snap_to_grid", .ints [0, 0]), ("_snapping_grid_position", .ints [0, 0]),
        ("_position_relative_to_grid", .ints [0, 0])]
      root := [("index", index)], replaced := none }
  | .book =>
    { obj := [("item", .str "blueprint-book"), ("label", .none), ("label_color", .none), ("description", .none), ("icons", .none),
        ("active_index", .int 0), ("version", .none)]
      settings := none, hidden := [], root := [("index", index)], replaced := none }
  | .upgrade =>
    { obj := [("item", .str "upgrade-planner"), ("label", .none), ("version", .none)]
      settings := some [("description", .none), ("icons", .none), ("mappers", .none)]
      hidden := [], root := [("index", index)], replaced := none }
  | .decon =>
    { obj := [("item", .str "deconstruction-planner"), ("label", .none), ("version", .none)]
      settings := some [("description", .none), ("icons", .none), ("entity_filter_mode", .int 0), ("entity_filters", .ints []),
        ("trees_and_rocks_only", .bool false), ("tile_filter_mode", .int 0), ("tile_filters", .ints []),
        ("tile_selection_mode", .int 2)]
      hidden := [], root := [("index", index)], replaced := none }

/-- The dictionary given to the constructor: the keywords under each root key, and its index.
`/repo/draftsman/classes/blueprintable.py:93-98`. -/
structure Data where
  items : List (String × Call)
  index : Option Val
  deriving DecidableEq, Repr

/-- The constructor with `None` or a dictionary and `validate="none"`: a missing root key is a `KeyError`, and keys that are also given
by name are a `TypeError`.  `/repo/draftsman/classes/blueprintable.py:78-98`.  During construction nothing is validated. -/
def construct (k : Kind) (version : Val) (r : Rules) (data : Option Data) (index : Val) : Except PyErr St :=
  let go (c : Call) : Except PyErr St :=
    match setup k version false r c (blank k index) with
    | (s, none) => .ok s
    | (_, some e) => .error e
  match data with
  | none => go ⟨[], none⟩
  | some d => match d.items.lookup (rootItem k) with
    | none => .error .keyError
    | some c =>
      if (c.kw.get? "index").isSome || (c.kw.get? "validate").isSome || (c.kw.get? "self").isSome then .error .typeError
      else go { c with kw := c.kw ++ [("index", d.index.getD .none)] }

/-- Where the attributes are read: `/repo/draftsman/classes/blueprint.py:640-976`, `/repo/draftsman/classes/blueprintable.py:186-432`. -/
inductive Place where
  /-- `_root[root_item]`: `/repo/draftsman/classes/blueprintable.py:223`. -/
  | obj (f : String)
  /-- `_root[root_item]["settings"]`: `/repo/draftsman/classes/upgrade_planner.py:495`. -/
  | setting (f : String)
  /-- a private attribute of `_root.blueprint`: `/repo/draftsman/classes/blueprint.py:705`. -/
  | vec (f : String)
  /-- a private attribute of `_root`: `/repo/draftsman/classes/blueprint.py:841`. -/
  | hidden (f : String)
  /-- `_root`: `/repo/draftsman/classes/blueprintable.py:424`. -/
  | root (f : String)
  deriving DecidableEq, Repr

/-- The getters.  `/repo/draftsman/classes/blueprint.py:640-969`, `blueprint_book.py:352-452`, `upgrade_planner.py:493-572`,
`deconstruction_planner.py:345-545`, `/repo/draftsman/classes/blueprintable.py:186-432`. -/
def getters : Kind → List (String × Place)
  | .blueprint => [("item", .obj "item"), ("label", .obj "label"), ("label_color", .obj "label_color"),
      ("description", .obj "description"), ("icons", .obj "icons"), ("version", .obj "version"),
      ("snapping_grid_size", .vec "_snap_to_grid"), ("snapping_grid_position", .vec "_snapping_grid_position"),
      ("absolute_snapping", .obj "absolute_snapping"), ("position_relative_to_grid", .vec "_position_relative_to_grid"),
      ("entities", .hidden "_entities"), ("tiles", .hidden "_tiles"), ("schedules", .hidden "_schedules"), ("wires", .hidden "_wires"),
      ("stock_connections", .obj "stock_connections"), ("index", .root "index")]
  | .book => [("item", .obj "item"), ("label", .obj "label"), ("label_color", .obj "label_color"),
      ("description", .obj "description"), ("icons", .obj "icons"), ("version", .obj "version"), ("active_index", .obj "active_index"),
      ("blueprints", .hidden "_blueprints"), ("index", .root "index")]
  | .upgrade => [("item", .obj "item"), ("label", .obj "label"), ("version", .obj "version"), ("description", .setting "description"),
      ("icons", .setting "icons"), ("mappers", .setting "mappers"), ("index", .root "index")]
  | .decon => [("item", .obj "item"), ("label", .obj "label"), ("version", .obj "version"), ("description", .setting "description"),
      ("icons", .setting "icons"), ("entity_filter_mode", .setting "entity_filter_mode"), ("entity_filters", .setting "entity_filters"),
      ("trees_and_rocks_only", .setting "trees_and_rocks_only"), ("tile_filter_mode", .setting "tile_filter_mode"),
      ("tile_filters", .setting "tile_filters"), ("tile_selection_mode", .setting "tile_selection_mode"), ("index", .root "index")]

/-- Reading at a place: `AttributeError` if the object was replaced, if the settings are `None`, or if there is nothing there.
The getters named at `Place`,
`/repo/draftsman/classes/blueprint.py:640-976`, `/repo/draftsman/classes/blueprintable.py:186-432`. -/
def readAt (s : St) : Place → Except PyErr Val
  | .obj f => match s.replaced, s.obj.get? f with
    | none, some v => .ok v
    | _, _ => .error .attributeError
  | .setting f => match s.replaced, s.settings with
    | none, some d => match d.get? f with
      | some v => .ok v
      | none => .error .attributeError
    | _, _ => .error .attributeError
  | .vec f => match s.replaced, s.hidden.get? f with
    | none, some v => .ok v
    | _, _ => .error .attributeError
  | .hidden f => match s.hidden.get? f with
    | some v => .ok v
    | none => .error .attributeError
  | .root f => match s.root.get? f with
    | some v => .ok v
    | none => .error .attributeError

/-- `blueprintable.attribute`.  The getters named at `getters`,
`/repo/draftsman/classes/blueprint.py:640-976`, `/repo/draftsman/classes/blueprintable.py:186-432`. -/
def read (k : Kind) (s : St) (name : String) : Except PyErr Val :=
  match (getters k).lookup name with
  | some p => readAt s p
  | none => .error .attributeError

/-- `blueprintable[key]` for keys other than the root key: `_root[key]`, `/repo/draftsman/classes/exportable.py:375-376` with
`/repo/draftsman/signatures.py:206-207`. -/
def item (s : St) (key : String) : Except PyErr Val :=
  match s.root.get? key with
  | some v => .ok v
  | none => .error .attributeError

end Setup
end Draftsman
