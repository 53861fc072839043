import Verif.Model.GameData
import Verif.Model.EntTypes
/-
The tables of signals, fluids, modules, fuels and tiles made from the game's data.
Simplified: a prototype has only the keys that are read here; sets are lists without repetitions; a name is a list of characters as in
`Model/GameData`, whose `getOrder` and `getItems` are used.  Writing and reading the files is left out.
-/
namespace Draftsman
namespace Signals
open GameData

/-- The dictionaries of items, subgroups and groups that go into every sort, `sort_tuple`.  `/repo/draftsman/environment/update.py:1686-1689`. -/
structure Tuple where
  items : Dict Str Item
  subs : Dict Str Sub
  grps : Dict Str Grp

/-- `get_order(l, *sort_tuple)`, `/repo/draftsman/environment/update.py:122-232`, 1602. -/
def order (T : Tuple) (l : List Obj) : Except PyErr (List Str) := getOrder T.items T.subs T.grps l

/-- `data.raw`: for each category the prototypes by name.  `/repo/draftsman/environment/update.py:1373`. -/
abbrev Raw := Dict String (Dict Str Obj)

/-- The categories of the item signals.  `/repo/draftsman/environment/update.py:1422-1439`. -/
def itemCats : List String := [
  "item", "item-with-entity-data", "tool", "ammo", "module", "armor", "gun", "capsule", "selection-tool", "copy-paste-tool", "blueprint",
  "blueprint-book", "upgrade-item", "deconstruction-item", "spidertron-remote", "repair-tool", "rail-planner",
  "space-platform-starter-pack"]

/-- The categories of the entity signals.  `/repo/draftsman/environment/update.py:1449-1579`. -/
def entityCats : List String := [
  "accumulator", "agricultural-tower", "ammo-turret", "arithmetic-combinator", "arrow", "artillery-flare", "artillery-projectile",
  "artillery-turret", "artillery-wagon", "assembling-machine", "asteroid", "asteroid-collector", "beacon", "beam", "boiler",
  "burner-generator", "capture-robot", "car", "cargo-bay", "cargo-landing-pad", "cargo-pod", "cargo-wagon", "character",
  "character-corpse", "cliff", "combat-robot", "constant-combinator", "construction-robot", "container", "corpse", "curved-rail-a",
  "curved-rail-b", "decider-combinator", "deconstructible-tile-proxy", "display-panel", "electric-energy-interface", "electric-pole",
  "electric-turret", "elevated-curved-rail-a", "elevated-curved-rail-b", "elevated-half-diagonal-rail", "elevated-straight-rail",
  "entity-ghost", "explosion", "fluid-turret", "fluid-wagon", "fire", "fish", "furnace", "fusion-generator", "fusion-reactor", "gate",
  "generator", "half-diagonal-rail", "heat-interface", "heat-pipe", "highlight-box", "infinity-container", "infinity-pipe", "inserter",
  "item-entity", "item-request-proxy", "lab", "lamp", "land-mine", "lane-splitter", "legacy-straight-rail", "legacy-curved-rail",
  "lightning", "lightning-attractor", "linked-belt", "linked-container", "loader-1x1", "loader", "locomotive", "logistic-container",
  "logistic-robot", "market", "mining-drill", "offshore-pump", "particle-source", "pipe", "pipe-to-ground", "plant", "player-port",
  "power-switch", "programmable-speaker", "projectile", "pump", "radar", "rail-chain-signal", "rail-ramp", "rail-remnants", "rail-signal",
  "rail-support", "reactor", "resource", "roboport", "rocket-silo", "rocket-silo-rocket", "rocket-silo-rocket-shadow", "segment",
  "segmented-unit", "selector-combinator", "simple-entity", "simple-entity-with-force", "simple-entity-with-owner", "smoke-with-trigger",
  "solar-panel", "space-platform-hub", "speech-bubble", "spider-leg", "spider-vehicle", "spider-unit", "splitter", "sticker",
  "storage-tank", "straight-rail", "stream", "temporary-container", "thruster", "tile-ghost", "train-stop", "transport-belt", "tree",
  "turret", "underground-belt", "unit", "unit-spawner", "wall"]

/-- All calls of `add_signals`: the category and the type of signal.  `/repo/draftsman/environment/update.py:1418-1588`. -/
def table : List (String × String) :=
  [("virtual-signal", "virtual")] ++ itemCats.map (·, "item") ++ [("fluid", "fluid"), ("recipe", "recipe")] ++ entityCats.map (·, "entity") ++
  [("planet", "space-location"), ("space-location", "space-location"), ("asteroid-chunk", "asteroid-chunk"), ("quality", "quality")]

/-- The types of signals in the order in which they are put together.  `/repo/draftsman/environment/update.py:1590-1599`. -/
def types : List String := ["virtual", "item", "fluid", "recipe", "entity", "space-location", "asteroid-chunk", "quality"]

/-- What is being filled: `unsorted_raw_signals`, `type_of_signals` and the eight lists.  `/repo/draftsman/environment/update.py:1375-1385`. -/
structure State where
  raw : Dict Str Obj
  typeOf : Dict Str (List String)
  lists : String → List Obj

/-- The body of the loop, `/repo/draftsman/environment/update.py:1395-1415`. -/
def addOne (type : String) (s : State) (p : Str × Obj) : State where
  raw := s.raw.set p.1 p.2
  typeOf := match s.typeOf.get? p.1 with
    | none => s.typeOf.set p.1 [type]
    | some l => s.typeOf.set p.1 (if type ∈ l then l else l ++ [type])
  lists := fun t => if t = type then s.lists t ++ [p.2] else s.lists t

/-- `add_signals`, `/repo/draftsman/environment/update.py:1389-1415`. -/
def addSignals (data : Raw) (s : State) (c : String × String) : State :=
  match data.get? c.1 with
  | none => s
  | some ps => ps.foldl (addOne c.2) s

/-- All the calls, `/repo/draftsman/environment/update.py:1418-1588`. -/
def collect (data : Raw) : State := table.foldl (addSignals data) ⟨[], [], fun _ => []⟩

/-- `for name in order: out[name] = unordered[name]`, `/repo/draftsman/environment/update.py:1614-1616` (and 1184-1186, 1287-1289). -/
def reorder {α : Type} (d : Dict Str α) (names : List Str) : Except PyErr (Dict Str α) :=
  names.foldlM (fun out n => match d.get? n with
    | none => .error .keyError
    | some x => .ok (out.set n x)) []

/-- The contents of `signals.pkl`; `lists` has the eight lists by type.  `/repo/draftsman/environment/update.py:1618-1632`. -/
structure Tables where
  raw : Dict Str Obj
  typeOf : Dict Str (List String)
  lists : Dict String (List Str)

/-- `extract_signals`, `/repo/draftsman/environment/update.py:1367-1632`. -/
def extract (T : Tuple) (data : Raw) : Except PyErr Tables := do
  let s := collect data
  let all ← order T (types.flatMap s.lists)
  let ls ← types.mapM fun t => (order T (s.lists t)).map fun l => (t, l)
  let raw ← reorder s.raw all
  return ⟨raw, s.typeOf, ls⟩

/-! ### Looking up signals -/

/-- `get_signal_types`, `/repo/draftsman/data/signals.py:88-108`; `none` for `InvalidSignalError`. -/
def signalTypes (t : Tables) (n : Str) : Option (List String) := t.typeOf.get? n

/-- `signal_dict` for a name: the type, `/repo/draftsman/data/signals.py:111-129`.  `first` is the element of a set that is iterated first. -/
def signalType (first : List String → Option String) (t : Tables) (n : Str) : Option String :=
  match signalTypes t n with
  | none => none
  | some l => if "item" ∈ l then some "item" else first l

/-! ### Items as they go into the sort -/

/-- The categories of `get_items`.  `/repo/draftsman/environment/update.py:801-816`. -/
def getItemsCats : List String := [
  "item", "item-with-entity-data", "tool", "ammo", "module", "armor", "gun", "capsule", "blueprint", "blueprint-book", "upgrade-item",
  "deconstruction-item", "spidertron-remote", "repair-tool", "rail-planner"]

/-- An item prototype as `add_item` sees it.  `/repo/draftsman/environment/update.py:783-798`. -/
def toItem (o : Obj) : Item := ⟨o.name, o.order, o.subgroup⟩

/-- The items in the order in which they are added.  `/repo/draftsman/environment/update.py:795-816`. -/
def itemsIn (data : Raw) : List Item := getItemsCats.flatMap fun c => ((data.get? c).getD []).map fun p => toItem p.2

/-! ### Fluids, modules and fuels -/

/-- `extract_fluids`: `/repo/draftsman/environment/update.py:1179-1186`. -/
def extractFluids (T : Tuple) (fluids : Dict Str Obj) : Except PyErr (Dict Str Obj) := do
  let names ← order T (fluids.map (·.2))
  reorder fluids names

/-- A module: what it is sorted by, and its `"category"`, which may be missing.  `/repo/draftsman/environment/update.py:1280-1292`. -/
structure Mod where
  obj : Obj
  category : Option Str
  deriving DecidableEq, Repr

/-- The body of the loop over the sorted modules, `/repo/draftsman/environment/update.py:1287-1292`. -/
def moduleStep (d : Dict Str Mod) (s : Dict Str Mod × Dict Str (List Str)) (n : Str) : Except PyErr (Dict Str Mod × Dict Str (List Str)) :=
  match d.get? n with
  | none => .error .keyError
  | some m => match m.category with
    | none => .error .keyError
    | some c => match s.2.get? c with
      | none => .error .keyError
      | some l => .ok (s.1.set n m, s.2.set c (l ++ [n]))

/-- `extract_modules`: `modules.raw` and `modules.categories`.  `/repo/draftsman/environment/update.py:1271-1292`. -/
def extractModules (T : Tuple) (categories : List Str) (modules : Dict Str Mod) : Except PyErr (Dict Str Mod × Dict Str (List Str)) := do
  let names ← order T (modules.map (·.2.obj))
  names.foldlM (moduleStep modules) ([], categories.foldl (fun (d : Dict Str (List Str)) c => d.set c []) [])

/-- The loop over the sorted items, each with its `"fuel_category"`, if it has one; adding to a set.
`/repo/draftsman/environment/update.py:1250-1252`. -/
def fuelStep (d : Dict Str (List Str)) (p : Str × Option Str) : Except PyErr (Dict Str (List Str)) :=
  match p.2 with
  | none => .ok d
  | some c => match d.get? c with
    | none => .error .keyError
    | some l => .ok (d.set c (if p.1 ∈ l then l else l ++ [p.1]))

/-- `fuels`, `/repo/draftsman/environment/update.py:1246-1252`. -/
def extractFuels (categories : List Str) (items : Dict Str (Option Str)) : Except PyErr (Dict Str (List Str)) :=
  items.foldlM fuelStep (categories.foldl (fun (d : Dict Str (List Str)) c => d.set c []) [])

/-! ### Tiles -/

/-- A tile: its `"order"` and `"collision_mask"`, either of which may be missing.  `/repo/draftsman/environment/update.py:1650-1652`. -/
structure Tile where
  order : Option Str
  mask : Option (List Str)
  deriving DecidableEq, Repr

/-- `tiles[tile]["collision_mask"] = set(tiles[tile]["collision_mask"])`, `/repo/draftsman/environment/update.py:1650`. -/
def tileMask (p : Str × Tile) : Except PyErr (Str × Tile) :=
  match p.2.mask with
  | none => .error .keyError
  | some m => .ok (p.1, { p.2 with mask := some m.dedup })

/-- `extract_tiles`, `/repo/draftsman/environment/update.py:1646-1661`: sorted by order, those without one last, and by name. -/
def extractTiles (tiles : Dict Str Tile) : Except PyErr (Dict Str Tile) := do
  let ts ← tiles.mapM tileMask
  let names := (sortBy (fun (p : Str × Tile) => p.2.order) (·.1) ts).map (·.1)
  reorder ts names

end Signals
end Draftsman
