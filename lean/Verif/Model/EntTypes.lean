import Verif.Model.Py
import Verif.Model.Dict
/-
The extraction of entity prototypes from the game's data and the choice of a class by `new_entity`.
-/
namespace Draftsman
namespace EntTypes

/-- An entity prototype as found in `data.raw[type]`, after conversion to a dictionary: the keys that the extraction looks at; `box` stands
for the four numbers of the collision box.  `/repo/draftsman/environment/update.py:972-1010`, `/repo/draftsman/data/entities.py:134-142`. -/
structure Proto where
  name : String
  type : String
  box : Option Nat
  mask : Option (List String)
  flags : Option (List String)
  hidden : Bool
  mode : Option String
  deriving DecidableEq, Repr

/-- `data.raw`: for each type the prototypes by name.  `/repo/draftsman/environment/update.py:892`. -/
abbrev Data := Dict String (Dict String Proto)

/-- An entry of `entities["raw"]`, without the keys that are copied unseen.  `/repo/draftsman/data/entities.py:222-238`. -/
structure Raw where
  name : String
  type : String
  box : Nat
  mask : List String
  flags : List String
  deriving DecidableEq, Repr

/-- What is being filled during the extraction.  `/repo/draftsman/environment/update.py:894-897, 996-997`. -/
structure Tables where
  raw : Dict String Raw
  ofType : Dict String (List String)
  flippable : Dict String Bool

/-- `get_default_collision_mask`.  `/repo/draftsman/environment/update.py:38-118`. -/
def defaultMask (type : String) : List String :=
  if type = "gate" then ["item-layer", "object-layer", "player-layer", "water-tile", "train-layer"]
  else if type = "heat-pipe" then ["object-layer", "floor-layer", "water-tile"]
  else if type = "land-mine" then ["object-layer", "water-tile"]
  else if type = "linked-belt" then ["object-layer", "item-layer", "transport-belt-layer", "water-tile"]
  else if type = "loader" then ["object-layer", "item-layer", "transport-belt-layer", "water-tile"]
  else if type = "straight-rail" ∨ type = "curved-rail" then ["item-layer", "object-layer", "rail-layer", "floor-layer", "water-tile"]
  else if type = "rail-signal" ∨ type = "rail-chain-signal" then ["floor-layer", "rail-layer", "item-layer"]
  else if type = "locomotive" ∨ type = "cargo-wagon" ∨ type = "fluid-wagon" ∨ type = "artillery-wagon" then ["train-layer"]
  else if type = "splitter" then ["object-layer", "item-layer", "transport-belt-layer", "water-tile"]
  else if type = "transport-belt" then ["object-layer", "floor-layer", "transport-belt-layer", "water-tile"]
  else if type = "underground-belt" then ["object-layer", "item-layer", "transport-belt-layer", "water-tile"]
  else ["item-layer", "object-layer", "player-layer", "water-tile"]

/-- `is_entity_flippable`, without the parts that are commented out.  `/repo/draftsman/environment/update.py:899-970`. -/
def isFlippable (p : Proto) : Bool :=
  if p.name ∈ ["pumpjack", "chemical-plant", "oil-refinery"] then false
  else if p.type ∈ ["rail-signal", "rail-chain-signal", "train-stop"] then false
  else true

/-- `categorize_entity` returns true.  `/repo/draftsman/environment/update.py:972-975`. -/
def placeable (p : Proto) : Bool := !((p.flags.getD []).contains "not-blueprintable")

/-- The collision mask given by `categorize_entity`; `if not collision_mask` also holds for an empty one.
`/repo/draftsman/environment/update.py:977-981`. -/
def maskOf (p : Proto) : List String :=
  match p.mask with
  | none => defaultMask p.type
  | some [] => defaultMask p.type
  | some m => m

/-- The entry made by `add_entity`: `raw[name].update(kwargs)` replaces the set of flags if there are flags.
`/repo/draftsman/data/entities.py:222-238`. -/
def rawOf (p : Proto) (b : Nat) : Raw where
  name := p.name
  type := p.type
  box := b
  mask := maskOf p
  flags := match p.flags with
    | some fs => fs
    | none => if p.hidden then ["hidden"] else []

/-- The body of the loop in `add_entities`: `add_entity(**contents)` fails without a collision box.
`/repo/draftsman/environment/update.py:1005-1008`, `/repo/draftsman/data/entities.py:134-261`. -/
def step (s : Tables) (kp : String × Proto) : Except PyErr Tables :=
  if placeable kp.2 = false then .ok s
  else match kp.2.box with
    | none => .error .typeError
    | some b => .ok {
        raw := s.raw.set kp.2.name (rawOf kp.2 b)
        ofType := match s.ofType.get? kp.2.type with
          | some l => s.ofType.set kp.2.type (l ++ [kp.2.name])
          | none => s.ofType.set kp.2.type [kp.2.name]
        flippable := s.flippable.set kp.1 (isFlippable kp.2) }

/-- `add_entities(type)`; the function `sort` does nothing but its argument `entities["of_type"][type]` is evaluated.  An
empty table is converted to a list, which has no `items`.  `/repo/draftsman/environment/update.py:999-1010`. -/
def addEntities (data : Data) (s : Tables) (type : String) : Except PyErr Tables :=
  match data.get? type with
  | none => .ok { s with ofType := s.ofType.set type [] }
  | some [] => .error .attributeError
  | some ps =>
    match ps.foldlM step s with
    | .error x => .error x
    | .ok s' => match s'.ofType.get? type with
      | none => .error .keyError
      | some _ => .ok s'

/-- The list for a logistic mode.  `/repo/draftsman/environment/update.py:1077-1091`. -/
def modeList : List (String × String) := [("passive-provider", "logistic-container-passive"), ("active-provider", "logistic-container-active"),
  ("storage", "logistic-container-storage"), ("buffer", "logistic-container-buffer"), ("requester", "logistic-container-request")]

/-- The body of the loop over logistic containers; an unknown mode is left out.  `/repo/draftsman/environment/update.py:1072-1091`. -/
def logisticStep (s : Tables) (kp : String × Proto) : Except PyErr Tables :=
  if placeable kp.2 = false then .ok s
  else match step s kp with
    | .error x => .error x
    | .ok s' => match kp.2.mode with
      | none => .error .keyError
      | some m => match modeList.lookup m with
        | none => .ok s'
        | some t => match s'.ofType.get? t with
          | none => .error .keyError
          | some l => .ok { s' with ofType := s'.ofType.set t (l ++ [kp.1]) }

/-- The five empty lists, then the loop; `convert_table_to_dict(None)` fails, and so does `items` of the list
made from an empty table.  `/repo/draftsman/environment/update.py:1065-1091`. -/
def addLogistic (data : Data) (s : Tables) : Except PyErr Tables :=
  let s₀ := { s with ofType := ((((s.ofType.set "logistic-container-passive" []).set "logistic-container-active" []).set
    "logistic-container-storage" []).set "logistic-container-buffer" []).set "logistic-container-request" [] }
  match data.get? "logistic-container" with
  | none => .error .typeError
  | some [] => .error .attributeError
  | some ps => ps.foldlM logisticStep s₀

/-- The types extracted before the logistic containers.  `/repo/draftsman/environment/update.py:1012-1063`. -/
def before : List String := [
  "accumulator", "agricultural-tower", "ammo-turret", "arithmetic-combinator", "artillery-turret", "artillery-wagon", "assembling-machine",
  "asteroid-collector", "beacon", "boiler", "burner-generator", "car", "cargo-bay", "cargo-landing-pad", "cargo-wagon",
  "constant-combinator", "container", "curved-rail-a", "curved-rail-b", "decider-combinator", "display-panel", "electric-energy-interface",
  "electric-pole", "electric-turret", "elevated-curved-rail-a", "elevated-curved-rail-b", "elevated-half-diagonal-rail",
  "elevated-straight-rail", "fluid-turret", "fluid-wagon", "furnace", "fusion-generator", "fusion-reactor", "gate", "generator",
  "half-diagonal-rail", "heat-interface", "heat-pipe", "infinity-container", "infinity-pipe", "inserter", "lab", "lamp", "land-mine",
  "legacy-straight-rail", "legacy-curved-rail", "lightning-attractor", "linked-belt", "linked-container", "loader", "loader-1x1",
  "locomotive"]

/-- The types extracted after the logistic containers.  `/repo/draftsman/environment/update.py:1093-1124`. -/
def after : List String := [
  "market", "mining-drill", "offshore-pump", "pipe", "pipe-to-ground", "player-port", "power-switch", "programmable-speaker", "pump",
  "radar", "rail-chain-signal", "rail-ramp", "rail-signal", "rail-support", "reactor", "roboport", "rocket-silo", "selector-combinator",
  "simple-entity-with-force", "simple-entity-with-owner", "solar-panel", "space-platform-hub", "spider-vehicle", "splitter",
  "storage-tank", "straight-rail", "thruster", "train-stop", "transport-belt", "turret", "underground-belt", "wall"]

/-- `extract_entities` up to the sorting of `entities["raw"]` (which is C73).  `/repo/draftsman/environment/update.py:885-1124`. -/
def extract (data : Data) : Except PyErr Tables :=
  match before.foldlM (addEntities data) ⟨[], [], []⟩ with
  | .error x => .error x
  | .ok s => match addLogistic data s with
    | .error x => .error x
    | .ok s => after.foldlM (addEntities data) s

/-- The tests of `new_entity` in order: the type and the class.  `/repo/draftsman/entity.py:128-297`. -/
def tests : List (String × String) := [
  ("accumulator", "Accumulator"), ("agricultural-tower", "AgriculturalTower"), ("ammo-turret", "AmmoTurret"),
  ("arithmetic-combinator", "ArithmeticCombinator"), ("artillery-turret", "ArtilleryTurret"), ("artillery-wagon", "ArtilleryWagon"),
  ("assembling-machine", "AssemblingMachine"), ("beacon", "Beacon"), ("boiler", "Boiler"), ("burner-generator", "BurnerGenerator"),
  ("car", "Car"), ("cargo-bay", "CargoBay"), ("cargo-landing-pad", "CargoLandingPad"), ("cargo-wagon", "CargoWagon"),
  ("constant-combinator", "ConstantCombinator"), ("container", "Container"), ("curved-rail-a", "CurvedRailA"),
  ("curved-rail-b", "CurvedRailB"), ("decider-combinator", "DeciderCombinator"), ("display-panel", "DisplayPanel"),
  ("electric-energy-interface", "ElectricEnergyInterface"), ("electric-pole", "ElectricPole"), ("electric-turret", "ElectricTurret"),
  ("elevated-curved-rail-a", "ElevatedCurvedRailA"), ("elevated-curved-rail-b", "ElevatedCurvedRailB"),
  ("elevated-half-diagonal-rail", "ElevatedHalfDiagonalRail"), ("elevated-straight-rail", "ElevatedStraightRail"),
  ("fluid-turret", "FluidTurret"), ("fluid-wagon", "FluidWagon"), ("furnace", "Furnace"), ("fusion-generator", "FusionGenerator"),
  ("fusion-reactor", "FusionReactor"), ("gate", "Gate"), ("generator", "Generator"), ("half-diagonal-rail", "HalfDiagonalRail"),
  ("heat-interface", "HeatInterface"), ("heat-pipe", "HeatPipe"), ("infinity-container", "InfinityContainer"),
  ("infinity-pipe", "InfinityPipe"), ("inserter", "Inserter"), ("lab", "Lab"), ("lamp", "Lamp"), ("land-mine", "LandMine"),
  ("legacy-curved-rail", "LegacyCurvedRail"), ("legacy-straight-rail", "LegacyStraightRail"),
  ("lightning-attractor", "LightningAttractor"), ("linked-belt", "LinkedBelt"), ("linked-container", "LinkedContainer"),
  ("loader", "Loader"), ("locomotive", "Locomotive"), ("logistic-container-active", "LogisticActiveContainer"),
  ("logistic-container-buffer", "LogisticBufferContainer"), ("logistic-container-passive", "LogisticPassiveContainer"),
  ("logistic-container-request", "LogisticRequestContainer"), ("logistic-container-storage", "LogisticStorageContainer"),
  ("mining-drill", "MiningDrill"), ("offshore-pump", "OffshorePump"), ("pipe", "Pipe"), ("player-port", "PlayerPort"),
  ("power-switch", "PowerSwitch"), ("programmable-speaker", "ProgrammableSpeaker"), ("pump", "Pump"), ("radar", "Radar"),
  ("rail-chain-signal", "RailChainSignal"), ("rail-ramp", "RailRamp"), ("rail-signal", "RailSignal"), ("rail-support", "RailSupport"),
  ("reactor", "Reactor"), ("roboport", "Roboport"), ("rocket-silo", "RocketSilo"), ("selector-combinator", "SelectorCombinator"),
  ("simple-entity-with-force", "SimpleEntityWithForce"), ("simple-entity-with-owner", "SimpleEntityWithOwner"),
  ("solar-panel", "SolarPanel"), ("space-platform-hub", "SpacePlatformHub"), ("spider-vehicle", "SpiderVehicle"), ("splitter", "Splitter"),
  ("storage-tank", "StorageTank"), ("straight-rail", "StraightRail"), ("thruster", "Thruster"), ("train-stop", "TrainStop"),
  ("transport-belt", "TransportBelt"), ("underground-belt", "UndergroundBelt"), ("pipe-to-ground", "UndergroundPipe"), ("wall", "Wall")]

/-- An entity class: its name, the type whose names it takes as its own (`similar_entities`, also the source of the default name), and whether it is
derived from `Entity`.  The `class` statements in `/repo/draftsman/prototypes`. -/
structure Class where
  name : String
  similar : String
  derived : Bool
  deriving DecidableEq, Repr

/-- The classes.  `/repo/draftsman/prototypes`: the `class` statements, the default of `name` and the argument `similar_entities` of
`super().__init__`; the names of the lists are resolved by `/repo/draftsman/data/entities.py:34-124`. -/
def classes : List Class := [
  ⟨"Accumulator", "accumulator", true⟩, ⟨"AgriculturalTower", "agricultural-tower", true⟩, ⟨"AmmoTurret", "ammo-turret", true⟩,
  ⟨"ArithmeticCombinator", "arithmetic-combinator", true⟩, ⟨"ArtilleryTurret", "artillery-turret", true⟩,
  ⟨"ArtilleryWagon", "artillery-wagon", true⟩, ⟨"AssemblingMachine", "assembling-machine", true⟩,
  ⟨"AsteroidCollector", "asteroid-collector", true⟩, ⟨"Beacon", "beacon", true⟩, ⟨"Boiler", "boiler", true⟩,
  ⟨"BurnerGenerator", "burner-generator", true⟩, ⟨"Car", "car", true⟩, ⟨"CargoBay", "cargo-bay", false⟩,
  ⟨"CargoLandingPad", "cargo-landing-pad", true⟩, ⟨"CargoWagon", "cargo-wagon", true⟩, ⟨"ConstantCombinator", "constant-combinator", true⟩,
  ⟨"Container", "container", true⟩, ⟨"CurvedRailA", "curved-rail-a", true⟩, ⟨"CurvedRailB", "curved-rail-b", true⟩,
  ⟨"DeciderCombinator", "decider-combinator", true⟩, ⟨"DisplayPanel", "display-panel", true⟩,
  ⟨"ElectricEnergyInterface", "electric-energy-interface", true⟩, ⟨"ElectricPole", "electric-pole", true⟩,
  ⟨"ElectricTurret", "electric-turret", true⟩, ⟨"ElevatedCurvedRailA", "elevated-curved-rail-a", true⟩,
  ⟨"ElevatedCurvedRailB", "elevated-curved-rail-b", true⟩, ⟨"ElevatedHalfDiagonalRail", "elevated-half-diagonal-rail", true⟩,
  ⟨"ElevatedStraightRail", "elevated-straight-rail", true⟩, ⟨"FluidTurret", "fluid-turret", true⟩, ⟨"FluidWagon", "fluid-wagon", true⟩,
  ⟨"Furnace", "furnace", true⟩, ⟨"FusionGenerator", "fusion-generator", true⟩, ⟨"FusionReactor", "fusion-reactor", false⟩,
  ⟨"Gate", "gate", true⟩, ⟨"Generator", "generator", true⟩, ⟨"HalfDiagonalRail", "half-diagonal-rail", false⟩,
  ⟨"HeatInterface", "heat-interface", true⟩, ⟨"HeatPipe", "heat-pipe", true⟩, ⟨"InfinityContainer", "infinity-container", true⟩,
  ⟨"InfinityPipe", "infinity-pipe", true⟩, ⟨"Inserter", "inserter", true⟩, ⟨"Lab", "lab", true⟩, ⟨"Lamp", "lamp", true⟩,
  ⟨"LandMine", "land-mine", true⟩, ⟨"LegacyCurvedRail", "legacy-curved-rail", true⟩, ⟨"LegacyStraightRail", "legacy-straight-rail", true⟩,
  ⟨"LightningAttractor", "lightning-attractor", true⟩, ⟨"LinkedBelt", "linked-belt", true⟩, ⟨"LinkedContainer", "linked-container", true⟩,
  ⟨"Loader", "loader", true⟩, ⟨"Locomotive", "locomotive", true⟩, ⟨"LogisticActiveContainer", "logistic-container-active", true⟩,
  ⟨"LogisticBufferContainer", "logistic-container-buffer", true⟩, ⟨"LogisticPassiveContainer", "logistic-container-passive", true⟩,
  ⟨"LogisticRequestContainer", "logistic-container-request", true⟩, ⟨"LogisticStorageContainer", "logistic-container-storage", true⟩,
  ⟨"MiningDrill", "mining-drill", true⟩, ⟨"OffshorePump", "offshore-pump", true⟩, ⟨"Pipe", "pipe", true⟩,
  ⟨"PlayerPort", "player-port", true⟩, ⟨"PowerSwitch", "power-switch", true⟩, ⟨"ProgrammableSpeaker", "programmable-speaker", true⟩,
  ⟨"Pump", "pump", true⟩, ⟨"Radar", "radar", true⟩, ⟨"RailChainSignal", "rail-chain-signal", true⟩, ⟨"RailRamp", "rail-ramp", true⟩,
  ⟨"RailSignal", "rail-signal", true⟩, ⟨"RailSupport", "rail-support", false⟩, ⟨"Reactor", "reactor", true⟩,
  ⟨"Roboport", "roboport", true⟩, ⟨"RocketSilo", "rocket-silo", true⟩, ⟨"SelectorCombinator", "selector-combinator", true⟩,
  ⟨"SimpleEntityWithForce", "simple-entity-with-force", true⟩, ⟨"SimpleEntityWithOwner", "simple-entity-with-owner", true⟩,
  ⟨"SolarPanel", "solar-panel", true⟩, ⟨"SpacePlatformHub", "space-platform-hub", true⟩, ⟨"SpiderVehicle", "spider-vehicle", true⟩,
  ⟨"Splitter", "splitter", true⟩, ⟨"StorageTank", "storage-tank", true⟩, ⟨"StraightRail", "straight-rail", true⟩,
  ⟨"Thruster", "thruster", true⟩, ⟨"TrainStop", "train-stop", true⟩, ⟨"TransportBelt", "transport-belt", true⟩, ⟨"Turret", "turret", true⟩,
  ⟨"UndergroundBelt", "underground-belt", true⟩, ⟨"UndergroundPipe", "pipe-to-ground", true⟩, ⟨"Wall", "wall", true⟩]

/-- What `new_entity` returns: an object of a class with the list that its name is checked against, or a generic entity.
`/repo/draftsman/entity.py:106-315`. -/
inductive Made where
  | known (cls : String) (name : String) (similar : List String)
  | generic (name : String)
  deriving DecidableEq, Repr

/-- `Class(name)`: `object.__init__` takes no arguments, so classes not derived from `Entity` fail; `None` is refused.
`/repo/draftsman/prototypes/cargo_bay.py:29-52`, `/repo/draftsman/classes/entity.py:202-294`. -/
def construct (ofType : Dict String (List String)) (cls : String) (name : Option String) : Except PyErr Made :=
  match classes.find? (fun c => c.name == cls) with
  | none => .error .typeError
  | some c => match ofType.get? c.similar with
    | none => .error .keyError
    | some l =>
      if c.derived = false then .error .typeError
      else match name with
        | none => .error .dataFormat
        | some n => .ok (.known cls n l)

/-- `Class()`: the default name is the first of the list.  `/repo/draftsman/utils.py:793-808`, `/repo/draftsman/prototypes`. -/
def constructDefault (ofType : Dict String (List String)) (cls : String) : Except PyErr Made :=
  match classes.find? (fun c => c.name == cls) with
  | none => .error .typeError
  | some c => construct ofType cls ((ofType.get? c.similar).getD []).head?

/-- The sequence of tests of `new_entity`.  `/repo/draftsman/entity.py:128-315`. -/
def newEntityFrom (ofType : Dict String (List String)) (name : String) : List (String × String) → Except PyErr Made
  | [] => .ok (.generic name)
  | (t, c) :: r => match ofType.get? t with
    | none => .error .keyError
    | some l => if l.contains name then construct ofType c (some name) else newEntityFrom ofType name r

/-- `new_entity(name)`.  `/repo/draftsman/entity.py:106-315`. -/
def newEntity (ofType : Dict String (List String)) (name : String) : Except PyErr Made := newEntityFrom ofType name tests

end EntTypes
end Draftsman
