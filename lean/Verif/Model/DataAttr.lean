import Verif.Model.Py
/-
Attributes that are read from the game's data each time they are asked for.

Simplified: values of the data are of any type `V`; only `None` and the defaults written in the code are told apart.  The name is the one of the object
when it is asked.
-/
namespace Draftsman
namespace DataAttr

/-- The tables of prototypes: `entities.raw`, `items.raw` and `tiles.raw`, `/repo/draftsman/data/entities.py:17-19`,
`/repo/draftsman/data/items.py:10-12`, `/repo/draftsman/data/tiles.py:10-11`. -/
inductive Source where
  | entities | items | tiles
  deriving DecidableEq, Repr

/-- The defaults that are written in the code, for example `/repo/draftsman/classes/mixins/inventory.py:87` (`True`) and
`/repo/draftsman/classes/entity.py:629, 656` (`[]` and `{}`). -/
inductive Default where
  | zero | yes | list | dict
  deriving DecidableEq, Repr

/-- What an attribute may give: `None`, a value of the data, a default, or whether a key is there.
`/repo/draftsman/classes/mixins/equipment_grid.py:55` for the last. -/
inductive Out (V : Type) where
  | none
  | val (v : V)
  | dflt (d : Default)
  | has (b : Bool)
  deriving DecidableEq, Repr

/-- The ways it is read.
* `orDefault d`: `raw.get(name, {key: None}).get(key, d)`, as at `/repo/draftsman/classes/mixins/filters.py:62-64`
* `must`: `raw.get(name, {key: None})[key]`, as at `/repo/draftsman/classes/entity.py:385`
* `index d`: `raw[name].get(key, d)`, as at `/repo/draftsman/classes/deconstruction_planner.py:333`
* `has`: `key in raw[name]`, as at `/repo/draftsman/classes/mixins/equipment_grid.py:55`
* `own`: `table[name]` of a table of its own, as at `/repo/draftsman/classes/entity.py:643`
* `ownGet`: `table.get(name, None)`, as at `/repo/draftsman/classes/entity.py:568` -/
inductive Style where
  | orDefault (d : Default)
  | must
  | index (d : Default)
  | has
  | own
  | ownGet
  deriving DecidableEq, Repr

/-- An attribute: the class and name, where it is read, the key (or the table) and the way.  The list is at `getters`; cited there, for
example `/repo/draftsman/classes/entity.py:374-385`. -/
structure Getter where
  cls : String
  attr : String
  source : Source
  key : String
  style : Style
  deriving DecidableEq, Repr

/-- The data: prototypes by name, each with its keys, and the tables made of them (`entities.flippable`, `entities.collision_sets`).
`/repo/draftsman/data/entities.py:17-31`. -/
structure Data (V : Type) where
  raw : Source → String → Option (List (String × V))
  table : String → String → Option V

variable {V : Type}

/-- Reading an attribute of an object with that name.  The expressions are Python's own; where each is used is said at `Style`, first
`/repo/draftsman/classes/mixins/filters.py:62-64`. -/
def read (D : Data V) (g : Getter) (name : String) : Except PyErr (Out V) :=
  match g.style with
  | .orDefault d => match D.raw g.source name with
    | Option.none => .ok .none
    | some e => .ok (match e.lookup g.key with | some v => .val v | Option.none => .dflt d)
  | .must => match D.raw g.source name with
    | Option.none => .ok .none
    | some e => match e.lookup g.key with | some v => .ok (.val v) | Option.none => .error .keyError
  | .index d => match D.raw g.source name with
    | Option.none => .error .keyError
    | some e => .ok (match e.lookup g.key with | some v => .val v | Option.none => .dflt d)
  | .has => match D.raw g.source name with
    | Option.none => .error .keyError
    | some e => .ok (.has (e.lookup g.key).isSome)
  | .own => match D.table g.key name with
    | Option.none => .error .keyError
    | some v => .ok (.val v)
  | .ownGet => .ok (match D.table g.key name with | some v => .val v | Option.none => .none)

/-- The attributes: the lines of `/repo/draftsman/classes/` and `/repo/draftsman/prototypes/` at the end of each.  Left out are those
computed further: `/repo/draftsman/classes/mixins/burner_energy_source.py:133-156` (in `Machines`), `/repo/draftsman/classes/mixins/inventory.py:104-123` (in `Checks`) and
`/repo/draftsman/prototypes/electric_energy_interface.py:101-140` (not modelled). -/
def getters : List Getter :=
  [⟨"Entity", "type", .entities, "type", .must⟩,  -- classes/entity.py:373-385
   ⟨"Entity", "static_collision_set", .entities, "collision_sets", .ownGet⟩,  -- classes/entity.py:559-568
   ⟨"Entity", "collision_set", .entities, "collision_sets", .ownGet⟩,  -- classes/entity.py:572-581
   ⟨"Entity", "collision_mask", .entities, "collision_mask", .must⟩,  -- classes/entity.py:585-595
   ⟨"Entity", "flags", .entities, "flags", .orDefault .list⟩,  -- classes/entity.py:619-629
   ⟨"Entity", "flippable", .entities, "flippable", .own⟩,  -- classes/entity.py:633-643
   ⟨"Entity", "surface_conditions", .entities, "surface_conditions", .orDefault .dict⟩,  -- classes/entity.py:647-657
   ⟨"Tile", "collision_mask", .tiles, "collision_mask", .must⟩,  -- classes/tile.py:230-232
   ⟨"FiltersMixin", "filter_count", .entities, "filter_count", .orDefault .zero⟩,  -- classes/mixins/filters.py:54-64
   ⟨"PowerConnectableMixin", "maximum_wire_distance", .entities, "maximum_wire_distance", .must⟩,  -- classes/mixins/power_connectable.py:43-52
   ⟨"InventoryMixin", "inventory_bar_enabled", .entities, "enable_inventory_bar", .orDefault .yes⟩,  -- classes/mixins/inventory.py:78-88
   ⟨"InventoryMixin", "quality_affects_inventory_size", .entities, "quality_affects_inventory_size", .orDefault .yes⟩,  -- classes/mixins/inventory.py:92-100
   ⟨"InventoryFilterMixin", "inventory_size", .entities, "inventory_size", .must⟩,  -- classes/mixins/inventory_filter.py:94-102
   ⟨"ModulesMixin", "total_module_slots", .entities, "module_slots", .orDefault .zero⟩,  -- classes/mixins/modules.py:100-113
   ⟨"EquipmentGridMixin", "has_equipment_grid", .entities, "equipment_grid", .has⟩,  -- classes/mixins/equipment_grid.py:48-55
   ⟨"CircuitConnectableMixin", "circuit_wire_max_distance", .entities, "circuit_wire_max_distance", .orDefault .zero⟩,  -- classes/mixins/circuit_connectable.py:50-59
   ⟨"ElectricPole", "circuit_wire_max_distance", .entities, "maximum_wire_distance", .orDefault .zero⟩,  -- prototypes/electric_pole.py:55-60
   ⟨"PowerSwitch", "maximum_wire_distance", .entities, "wire_max_distance", .orDefault .zero⟩,  -- prototypes/power_switch.py:100-105
   ⟨"PowerSwitch", "circuit_wire_max_distance", .entities, "wire_max_distance", .orDefault .zero⟩,  -- prototypes/power_switch.py:109-114
   ⟨"Lab", "inputs", .entities, "inputs", .must⟩,  -- prototypes/lab.py:61-68
   ⟨"BurnerGenerator", "input_energy_source", .entities, "burner", .must⟩,  -- prototypes/burner_generator.py:101-103
   ⟨"ConstantCombinator", "item_slot_count", .entities, "item_slot_count", .must⟩,  -- prototypes/constant_combinator.py:139-151
   ⟨"DeconstructionPlanner", "entity_filter_count", .items, "entity_filter_count", .index .zero⟩,  -- classes/deconstruction_planner.py:328-333
   ⟨"DeconstructionPlanner", "tile_filter_count", .items, "tile_filter_count", .index .zero⟩]  -- classes/deconstruction_planner.py:337-342

end DataAttr
end Draftsman
