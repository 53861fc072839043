import Verif.Model.Ctor
/-
The constructors of all entity classes and mixins.  Written by `tools/ctor_table.py` from the text of `/repo`; each row cites the constructor it
was read from.  Left out: the class `FilterInserter`, which is never imported, and the caches and collision sets filled on the way.
-/
namespace Draftsman
namespace Ctor
open Attr

/-- `/repo/draftsman/classes/mixins/artillery_auto_target.py:24-27`. -/
def artilleryAutoTargetMixinInit : Layer where
  cls := "ArtilleryAutoTargetMixin"
  params := [("name", .none)]
  pass := [("name", .par "name")]
  post := [.set "auto_target" (.kwarg "artillery_auto_targeting" (.obj (.none)))]

/-- `/repo/draftsman/classes/mixins/burner_energy_source.py:102-129`. -/
def burnerEnergySourceMixinInit : Layer where
  cls := "BurnerEnergySourceMixin"
  params := [("name", .none)]
  pass := [("name", .par "name")]
  post := []

/-- `/repo/draftsman/classes/mixins/color.py:34-39`. -/
def colorMixinInit : Layer where
  cls := "ColorMixin"
  params := [("name", .none)]
  pass := [("name", .par "name")]
  post := [.set "color" (.kwarg "color" (.obj (.none)))]

/-- `/repo/draftsman/classes/mixins/control_behavior.py:55-58`. -/
def controlBehaviorMixinInit : Layer where
  cls := "ControlBehaviorMixin"
  params := [("name", .none)]
  pass := [("name", .par "name")]
  post := []

/-- `/repo/draftsman/classes/mixins/directional.py:75-136`. -/
def directionalMixinInit : Layer where
  cls := "DirectionalMixin"
  params := [("name", .none), ("tile_position", .const "(0, 0)")]
  pass := [("name", .par "name")]
  post := [.set "direction" (.kwarg "direction" (.obj (.const "Direction.NORTH"))), .place]

/-- `/repo/draftsman/classes/mixins/eight_way_directional.py:49-100`. -/
def eightWayDirectionalMixinInit : Layer where
  cls := "EightWayDirectionalMixin"
  params := [("name", .none), ("tile_position", .const "(0, 0)")]
  pass := [("name", .par "name")]
  post := [.set "direction" (.kwarg "direction" (.obj (.const "Direction.NORTH"))), .place]

/-- `/repo/draftsman/classes/mixins/equipment_grid.py:36-44`. -/
def equipmentGridMixinInit : Layer where
  cls := "EquipmentGridMixin"
  params := [("name", .none)]
  pass := [("name", .par "name")]
  post := [.set "enable_logistics_while_moving" (.kwarg "enable_logistics_while_moving" (.obj (.none))),
    .set "grid" (.kwarg "grid" (.obj (.none)))]

/-- `/repo/draftsman/classes/mixins/filters.py:45-50`. -/
def filtersMixinInit : Layer where
  cls := "FiltersMixin"
  params := [("name", .none)]
  pass := [("name", .par "name")]
  post := [.set "filters" (.kwarg "filters" (.obj (.none)))]

/-- `/repo/draftsman/classes/mixins/input_ingredients.py:81-82`. -/
def inputIngredientsMixinInit : Layer where
  cls := "InputIngredientsMixin"
  params := [("name", .none)]
  pass := [("name", .par "name")]
  post := []

/-- `/repo/draftsman/classes/mixins/inventory.py:67-74`. -/
def inventoryMixinInit : Layer where
  cls := "InventoryMixin"
  params := [("name", .none)]
  pass := [("name", .par "name")]
  post := [.setField "bar" (.kwarg "bar" (.obj (.none)))]

/-- `/repo/draftsman/classes/mixins/inventory_filter.py:85-90`. -/
def inventoryFilterMixinInit : Layer where
  cls := "InventoryFilterMixin"
  params := [("name", .none)]
  pass := [("name", .par "name")]
  post := [.set "inventory" (.kwarg "inventory" (.new "InventoryFilters()"))]

/-- `/repo/draftsman/classes/mixins/io_type.py:31-42`. -/
def iOTypeMixinInit : Layer where
  cls := "IOTypeMixin"
  params := [("name", .none)]
  pass := [("name", .par "name")]
  post := [.set "io_type" (.obj (.const "'input'")), .ioType]

/-- `/repo/draftsman/classes/mixins/modules.py:91-96`. -/
def modulesMixinInit : Layer where
  cls := "ModulesMixin"
  params := [("name", .none)]
  pass := [("name", .par "name")]
  post := []

/-- `/repo/draftsman/classes/mixins/orientation.py:34-53`. -/
def orientationMixinInit : Layer where
  cls := "OrientationMixin"
  params := [("name", .none)]
  pass := [("name", .par "name")]
  post := [.set "orientation" (.kwarg "orientation" (.obj (.const "Orientation.NORTH")))]

/-- `/repo/draftsman/classes/mixins/player_description.py:25-30`. -/
def playerDescriptionMixinInit : Layer where
  cls := "PlayerDescriptionMixin"
  params := [("name", .none)]
  pass := [("name", .par "name")]
  post := [.set "player_description" (.kwarg "player_description" (.obj (.none)))]

/-- `/repo/draftsman/classes/mixins/power_connectable.py:28-31`. -/
def powerConnectableMixinInit : Layer where
  cls := "PowerConnectableMixin"
  params := [("name", .none)]
  pass := [("name", .par "name")]
  post := []

/-- `/repo/draftsman/classes/mixins/recipe.py:114-121`. -/
def recipeMixinInit : Layer where
  cls := "RecipeMixin"
  params := [("name", .none)]
  pass := [("name", .par "name")]
  post := [.set "recipe" (.kwarg "recipe" (.obj (.none))), .set "recipe_quality" (.kwarg "recipe_quality" (.obj (.none)))]

/-- `/repo/draftsman/classes/mixins/request_filters.py:67-72`. -/
def requestFiltersMixinInit : Layer where
  cls := "RequestFiltersMixin"
  params := [("name", .none)]
  pass := [("name", .par "name")]
  post := [.set "request_filters" (.kwarg "request_filters" (.obj (.none)))]

/-- `/repo/draftsman/classes/mixins/request_items.py:74-79`. -/
def requestItemsMixinInit : Layer where
  cls := "RequestItemsMixin"
  params := [("name", .none)]
  pass := [("name", .par "name")]
  post := [.set "items" (.kwarg "items" (.new "{}"))]

/-- `/repo/draftsman/classes/mixins/stack_size.py:52-57`. -/
def stackSizeMixinInit : Layer where
  cls := "StackSizeMixin"
  params := [("name", .none)]
  pass := [("name", .par "name")]
  post := [.set "override_stack_size" (.kwarg "override_stack_size" (.obj (.none)))]

/-- `/repo/draftsman/classes/mixins/vehicle.py:29-37`. -/
def vehicleMixinInit : Layer where
  cls := "VehicleMixin"
  params := [("name", .none)]
  pass := [("name", .par "name")]
  post := [.set "driver_is_main_gunner" (.kwarg "driver_is_main_gunner" (.obj (.none))),
    .set "selected_gun_index" (.kwarg "selected_gun_index" (.obj (.none)))]

/-- `/repo/draftsman/prototypes/accumulator.py:41-69`. -/
def accumulatorInit : Layer where
  cls := "Accumulator"
  params := [("name", .const "get_first(accumulators)"), ("position", .none), ("tile_position", .const "(0, 0)"), ("control_behavior",
    .shared "Accumulator" "control_behavior" "{}"), ("tags", .shared "Accumulator" "tags" "{}"), ("validate_assignment",
    .const "ValidationMode.STRICT")]
  pass := [("name", .par "name"), ("position", .par "position"), ("tile_position", .par "tile_position"), ("control_behavior",
    .par "control_behavior"), ("tags", .par "tags")]
  post := [.mode]

/-- `/repo/draftsman/prototypes/agricultural_tower.py:56-84`. -/
def agriculturalTowerInit : Layer where
  cls := "AgriculturalTower"
  params := [("name", .const "get_first(agricultural_towers)"), ("position", .none), ("tile_position", .const "(0, 0)"), ("direction",
    .const "Direction.NORTH"), ("override_stack_size", .none), ("control_behavior", .shared "AgriculturalTower" "control_behavior" "{}"),
    ("items", .shared "AgriculturalTower" "items" "{}"), ("tags", .shared "AgriculturalTower" "tags" "{}"), ("validate_assignment",
    .const "ValidationMode.STRICT")]
  pass := [("name", .par "name"), ("position", .par "position"), ("tile_position", .par "tile_position"), ("direction", .par "direction"),
    ("override_stack_size", .par "override_stack_size"), ("control_behavior", .par "control_behavior"), ("items", .par "items"), ("tags",
    .par "tags")]
  post := [.mode]

/-- `/repo/draftsman/prototypes/ammo_turret.py:69-99`. -/
def ammoTurretInit : Layer where
  cls := "AmmoTurret"
  params := [("name", .const "get_first(ammo_turrets)"), ("position", .none), ("tile_position", .const "(0, 0)"), ("direction",
    .const "Direction.NORTH"), ("items", .shared "AmmoTurret" "items" "[]"), ("tags", .shared "AmmoTurret" "tags" "{}"),
    ("validate_assignment", .const "ValidationMode.STRICT")]
  pass := [("name", .par "name"), ("position", .par "position"), ("tile_position", .par "tile_position"), ("direction", .par "direction"),
    ("items", .par "items"), ("tags", .par "tags")]
  post := [.mode]

/-- `/repo/draftsman/prototypes/arithmetic_combinator.py:222-254`. -/
def arithmeticCombinatorInit : Layer where
  cls := "ArithmeticCombinator"
  params := [("name", .const "get_first(arithmetic_combinators)"), ("position", .none), ("tile_position", .const "(0, 0)"), ("direction",
    .const "Direction.NORTH"), ("player_description", .none), ("control_behavior",
    .shared "ArithmeticCombinator" "control_behavior" "{}"), ("tags", .shared "ArithmeticCombinator" "tags" "{}"), ("validate_assignment",
    .const "ValidationMode.STRICT")]
  pass := [("name", .par "name"), ("position", .par "position"), ("tile_position", .par "tile_position"), ("direction", .par "direction"),
    ("player_description", .par "player_description"), ("control_behavior", .par "control_behavior"), ("tags", .par "tags")]
  post := [.mode]

/-- `/repo/draftsman/prototypes/artillery_turret.py:71-98`. -/
def artilleryTurretInit : Layer where
  cls := "ArtilleryTurret"
  params := [("name", .const "get_first(artillery_turrets)"), ("position", .none), ("tile_position", .const "(0, 0)"), ("direction",
    .const "Direction.NORTH"), ("artillery_auto_targeting", .const "True"), ("control_behavior",
    .shared "ArtilleryTurret" "control_behavior" "{}"), ("tags", .shared "ArtilleryTurret" "tags" "{}"), ("validate_assignment",
    .const "ValidationMode.STRICT")]
  pass := [("name", .par "name"), ("position", .par "position"), ("tile_position", .par "tile_position"), ("direction", .par "direction"),
    ("artillery_auto_targeting", .par "artillery_auto_targeting"), ("control_behavior", .par "control_behavior"), ("tags", .par "tags")]
  post := [.mode]

/-- `/repo/draftsman/prototypes/artillery_wagon.py:41-75`. -/
def artilleryWagonInit : Layer where
  cls := "ArtilleryWagon"
  params := [("name", .const "get_first(artillery_wagons)"), ("position", .none), ("tile_position", .const "(0, 0)"), ("orientation",
    .const "Orientation.NORTH"), ("enable_logistics_while_moving", .const "False"), ("grid", .shared "ArtilleryWagon" "grid" "[]"),
    ("artillery_auto_targeting", .const "True"), ("items", .shared "ArtilleryWagon" "items" "[]"), ("tags",
    .shared "ArtilleryWagon" "tags" "{}"), ("validate_assignment", .const "ValidationMode.STRICT")]
  pass := [("name", .par "name"), ("position", .par "position"), ("tile_position", .par "tile_position"), ("orientation", .par "orientation"),
    ("enable_logistics_while_moving", .par "enable_logistics_while_moving"), ("grid", .par "grid"), ("artillery_auto_targeting",
    .par "artillery_auto_targeting"), ("items", .par "items"), ("tags", .par "tags")]
  post := [.mode]

/-- `/repo/draftsman/prototypes/assembling_machine.py:86-116`. -/
def assemblingMachineInit : Layer where
  cls := "AssemblingMachine"
  params := [("name", .const "get_first(assembling_machines)"), ("position", .none), ("tile_position", .const "(0, 0)"), ("direction",
    .const "Direction.NORTH"), ("recipe", .none), ("items", .shared "AssemblingMachine" "items" "[]"), ("tags",
    .shared "AssemblingMachine" "tags" "{}"), ("validate_assignment", .const "ValidationMode.STRICT")]
  pass := [("name", .par "name"), ("position", .par "position"), ("tile_position", .par "tile_position"), ("direction", .par "direction"),
    ("recipe", .par "recipe"), ("items", .par "items"), ("tags", .par "tags")]
  post := [.mode]

/-- `/repo/draftsman/prototypes/asteroid_collector.py:95-131`. -/
def asteroidCollectorInit : Layer where
  cls := "AsteroidCollector"
  params := [("name", .const "get_first(asteroid_collectors)"), ("position", .none), ("tile_position", .const "(0, 0)"), ("direction",
    .const "Direction.NORTH"), ("result_inventory", .none), ("chunk_filter", .shared "AsteroidCollector" "chunk_filter" "[]"),
    ("control_behavior", .shared "AsteroidCollector" "control_behavior" "{}"), ("tags", .shared "AsteroidCollector" "tags" "{}"),
    ("validate_assignment", .const "ValidationMode.STRICT")]
  pass := [("name", .par "name"), ("position", .par "position"), ("tile_position", .par "tile_position"), ("direction", .par "direction"),
    ("control_behavior", .par "control_behavior"), ("tags", .par "tags")]
  post := [.mode, .set "chunk_filter" (.par "chunk_filter")]

/-- `/repo/draftsman/prototypes/beacon.py:32-58`. -/
def beaconInit : Layer where
  cls := "Beacon"
  params := [("name", .const "get_first(beacons)"), ("position", .none), ("tile_position", .const "(0, 0)"), ("items",
    .shared "Beacon" "items" "[]"), ("tags", .shared "Beacon" "tags" "{}"), ("validate_assignment", .const "ValidationMode.STRICT")]
  pass := [("name", .par "name"), ("position", .par "position"), ("tile_position", .par "tile_position"), ("items", .par "items"), ("tags",
    .par "tags")]
  post := [.mode]

/-- `/repo/draftsman/prototypes/boiler.py:26-54`. -/
def boilerInit : Layer where
  cls := "Boiler"
  params := [("name", .const "get_first(boilers)"), ("position", .none), ("tile_position", .const "(0, 0)"), ("direction",
    .const "Direction.NORTH"), ("items", .shared "Boiler" "items" "[]"), ("tags", .shared "Boiler" "tags" "{}"), ("validate_assignment",
    .const "ValidationMode.STRICT")]
  pass := [("name", .par "name"), ("position", .par "position"), ("tile_position", .par "tile_position"), ("direction", .par "direction"),
    ("items", .par "items"), ("tags", .par "tags")]
  post := [.mode]

/-- `/repo/draftsman/prototypes/burner_generator.py:69-97`. -/
def burnerGeneratorInit : Layer where
  cls := "BurnerGenerator"
  params := [("name", .const "get_first(burner_generators)"), ("position", .none), ("tile_position", .const "(0, 0)"), ("direction",
    .const "Direction.NORTH"), ("items", .shared "BurnerGenerator" "items" "[]"), ("tags", .shared "BurnerGenerator" "tags" "{}"),
    ("validate_assignment", .const "ValidationMode.STRICT")]
  pass := [("name", .par "name"), ("position", .par "position"), ("tile_position", .par "tile_position"), ("direction", .par "direction"),
    ("items", .par "items"), ("tags", .par "tags")]
  post := [.mode]

/-- `/repo/draftsman/prototypes/car.py:38-77`. -/
def carInit : Layer where
  cls := "Car"
  params := [("name", .const "get_first(cars)"), ("position", .none), ("tile_position", .const "(0, 0)"), ("orientation",
    .const "Orientation.NORTH"), ("enable_logistics_while_moving", .const "True"), ("grid", .shared "Car" "grid" "[]"),
    ("trunk_inventory", .none), ("ammo_inventory", .none), ("driver_is_main_gunner", .const "True"), ("selected_gun_index", .const "1"),
    ("items", .shared "Car" "items" "{}"), ("tags", .shared "Car" "tags" "{}"), ("validate_assignment", .const "ValidationMode.STRICT")]
  pass := [("name", .par "name"), ("position", .par "position"), ("tile_position", .par "tile_position"), ("orientation", .par "orientation"),
    ("enable_logistics_while_moving", .par "enable_logistics_while_moving"), ("grid", .par "grid"), ("trunk_inventory",
    .par "trunk_inventory"), ("ammo_inventory", .par "ammo_inventory"), ("driver_is_main_gunner", .par "driver_is_main_gunner"),
    ("selected_gun_index", .par "selected_gun_index"), ("items", .par "items"), ("tags", .par "tags")]
  post := [.mode]

/-- `/repo/draftsman/prototypes/cargo_bay.py:28-52`. -/
def cargoBayInit : Layer where
  cls := "CargoBay"
  params := [("name", .const "get_first(cargo_bays)"), ("position", .none), ("tile_position", .const "(0, 0)"), ("tags",
    .shared "CargoBay" "tags" "{}"), ("validate_assignment", .const "ValidationMode.STRICT")]
  pass := [("name", .par "name"), ("position", .par "position"), ("tile_position", .par "tile_position"), ("tags", .par "tags")]
  post := [.mode]

/-- `/repo/draftsman/prototypes/cargo_landing_pad.py:48-74`. -/
def cargoLandingPadInit : Layer where
  cls := "CargoLandingPad"
  params := [("name", .const "get_first(cargo_landing_pads)"), ("position", .none), ("tile_position", .const "(0, 0)"), ("control_behavior",
    .shared "CargoLandingPad" "control_behavior" "{}"), ("tags", .shared "CargoLandingPad" "tags" "{}"), ("validate_assignment",
    .const "ValidationMode.STRICT")]
  pass := [("name", .par "name"), ("position", .par "position"), ("tile_position", .par "tile_position"), ("control_behavior",
    .par "control_behavior"), ("tags", .par "tags")]
  post := [.mode]

/-- `/repo/draftsman/prototypes/cargo_wagon.py:41-71`. -/
def cargoWagonInit : Layer where
  cls := "CargoWagon"
  params := [("name", .const "get_first(cargo_wagons)"), ("position", .none), ("tile_position", .const "(0, 0)"), ("orientation",
    .const "Orientation.NORTH"), ("enable_logistics_while_moving", .const "True"), ("grid", .shared "CargoWagon" "grid" "[]"), ("items",
    .shared "CargoWagon" "items" "[]"), ("inventory", .shared "CargoWagon" "inventory" "{}"), ("tags", .shared "CargoWagon" "tags" "{}"),
    ("validate_assignment", .const "ValidationMode.STRICT")]
  pass := [("name", .par "name"), ("position", .par "position"), ("tile_position", .par "tile_position"), ("orientation", .par "orientation"),
    ("enable_logistics_while_moving", .par "enable_logistics_while_moving"), ("grid", .par "grid"), ("items", .par "items"), ("inventory",
    .par "inventory"), ("tags", .par "tags")]
  post := [.mode]

/-- `/repo/draftsman/prototypes/constant_combinator.py:100-135`. -/
def constantCombinatorInit : Layer where
  cls := "ConstantCombinator"
  params := [("name", .const "get_first(constant_combinators)"), ("position", .none), ("tile_position", .const "(0, 0)"), ("direction",
    .const "Direction.NORTH"), ("player_description", .none), ("connections", .none), ("control_behavior", .none), ("tags", .none),
    ("validate_assignment", .const "ValidationMode.STRICT")]
  pass := [("name", .par "name"), ("position", .par "position"), ("tile_position", .par "tile_position"), ("direction", .par "direction"),
    ("player_description", .par "player_description"), ("connections", .orNew "connections"), ("control_behavior",
    .orNew "control_behavior"), ("tags", .orNew "tags")]
  post := [.mode]

/-- `/repo/draftsman/prototypes/container.py:33-61`. -/
def containerInit : Layer where
  cls := "Container"
  params := [("name", .const "get_first(containers)"), ("position", .none), ("tile_position", .const "(0, 0)"), ("bar", .none), ("items",
    .shared "Container" "items" "[]"), ("tags", .shared "Container" "tags" "{}"), ("validate_assignment", .const "ValidationMode.STRICT")]
  pass := [("name", .par "name"), ("position", .par "position"), ("tile_position", .par "tile_position"), ("bar", .par "bar"), ("items",
    .par "items"), ("tags", .par "tags")]
  post := [.mode]

/-- `/repo/draftsman/prototypes/curved_rail_a.py:25-51`. -/
def curvedRailAInit : Layer where
  cls := "CurvedRailA"
  params := [("name", .const "get_first(curved_rails_a)"), ("position", .none), ("tile_position", .const "(0, 0)"), ("direction",
    .const "Direction.NORTH"), ("tags", .shared "CurvedRailA" "tags" "{}"), ("validate_assignment", .const "ValidationMode.STRICT")]
  pass := [("name", .par "name"), ("position", .par "position"), ("tile_position", .par "tile_position"), ("direction", .par "direction"),
    ("tags", .par "tags")]
  post := [.mode]

/-- `/repo/draftsman/prototypes/curved_rail_b.py:25-51`. -/
def curvedRailBInit : Layer where
  cls := "CurvedRailB"
  params := [("name", .const "get_first(curved_rails_b)"), ("position", .none), ("tile_position", .const "(0, 0)"), ("direction",
    .const "Direction.NORTH"), ("tags", .shared "CurvedRailB" "tags" "{}"), ("validate_assignment", .const "ValidationMode.STRICT")]
  pass := [("name", .par "name"), ("position", .par "position"), ("tile_position", .par "tile_position"), ("direction", .par "direction"),
    ("tags", .par "tags")]
  post := [.mode]

/-- `/repo/draftsman/prototypes/decider_combinator.py:466-498`. -/
def deciderCombinatorInit : Layer where
  cls := "DeciderCombinator"
  params := [("name", .const "get_first(decider_combinators)"), ("position", .none), ("tile_position", .const "(0, 0)"), ("direction",
    .const "Direction.NORTH"), ("player_description", .none), ("control_behavior", .none), ("tags",
    .shared "DeciderCombinator" "tags" "{}"), ("validate_assignment", .const "ValidationMode.STRICT")]
  pass := [("name", .par "name"), ("position", .par "position"), ("tile_position", .par "tile_position"), ("direction", .par "direction"),
    ("player_description", .par "player_description"), ("control_behavior", .orNew "control_behavior"), ("tags", .par "tags")]
  post := [.mode]

/-- `/repo/draftsman/prototypes/display_panel.py:66-103`. -/
def displayPanelInit : Layer where
  cls := "DisplayPanel"
  params := [("name", .const "get_first(display_panels)"), ("position", .none), ("tile_position", .const "(0, 0)"), ("direction",
    .const "Direction.NORTH"), ("text", .const "''"), ("icon", .none), ("always_show", .const "False"), ("show_in_chart", .const "False"),
    ("control_behavior", .shared "DisplayPanel" "control_behavior" "{}"), ("tags", .shared "DisplayPanel" "tags" "{}"),
    ("validate_assignment", .const "ValidationMode.STRICT")]
  pass := [("name", .par "name"), ("position", .par "position"), ("tile_position", .par "tile_position"), ("direction", .par "direction"),
    ("control_behavior", .par "control_behavior"), ("tags", .par "tags")]
  post := [.set "text" (.par "text"), .set "icon" (.par "icon"), .set "always_show" (.par "always_show"),
    .set "show_in_chart" (.par "show_in_chart"), .mode]

/-- `/repo/draftsman/prototypes/electric_energy_interface.py:53-97`. -/
def electricEnergyInterfaceInit : Layer where
  cls := "ElectricEnergyInterface"
  params := [("name", .const "get_first(electric_energy_interfaces)"), ("position", .none), ("tile_position", .const "(0, 0)"), ("buffer_size",
    .none), ("power_production", .none), ("power_usage", .none), ("tags", .shared "ElectricEnergyInterface" "tags" "{}"),
    ("validate_assignment", .const "ValidationMode.STRICT")]
  pass := [("name", .par "name"), ("position", .par "position"), ("tile_position", .par "tile_position"), ("tags", .par "tags")]
  post := [.set "buffer_size" (.orOwn "buffer_size" "default_buffer_size"),
    .set "power_production" (.orOwn "power_production" "default_power_production"),
    .set "power_usage" (.orOwn "power_usage" "default_power_usage"), .mode]

/-- `/repo/draftsman/prototypes/electric_pole.py:27-51`. -/
def electricPoleInit : Layer where
  cls := "ElectricPole"
  params := [("name", .const "get_first(electric_poles)"), ("position", .none), ("tile_position", .const "(0, 0)"), ("tags", .none),
    ("validate_assignment", .const "ValidationMode.STRICT")]
  pass := [("name", .par "name"), ("position", .par "position"), ("tile_position", .par "tile_position"), ("tags", .orNew "tags")]
  post := [.mode]

/-- `/repo/draftsman/prototypes/electric_turret.py:69-99`. -/
def electricTurretInit : Layer where
  cls := "ElectricTurret"
  params := [("name", .const "get_first(electric_turrets)"), ("position", .none), ("tile_position", .const "(0, 0)"), ("direction",
    .const "Direction.NORTH"), ("items", .shared "ElectricTurret" "items" "{}"), ("tags", .shared "ElectricTurret" "tags" "{}"),
    ("validate_assignment", .const "ValidationMode.STRICT")]
  pass := [("name", .par "name"), ("position", .par "position"), ("tile_position", .par "tile_position"), ("direction", .par "direction"),
    ("items", .par "items"), ("tags", .par "tags")]
  post := [.mode]

/-- `/repo/draftsman/prototypes/elevated_curved_rail_a.py:25-51`. -/
def elevatedCurvedRailAInit : Layer where
  cls := "ElevatedCurvedRailA"
  params := [("name", .const "get_first(elevated_curved_rails_a)"), ("position", .none), ("tile_position", .const "(0, 0)"), ("direction",
    .const "Direction.NORTH"), ("tags", .shared "ElevatedCurvedRailA" "tags" "{}"), ("validate_assignment",
    .const "ValidationMode.STRICT")]
  pass := [("name", .par "name"), ("position", .par "position"), ("tile_position", .par "tile_position"), ("direction", .par "direction"),
    ("tags", .par "tags")]
  post := [.mode]

/-- `/repo/draftsman/prototypes/elevated_curved_rail_b.py:25-51`. -/
def elevatedCurvedRailBInit : Layer where
  cls := "ElevatedCurvedRailB"
  params := [("name", .const "get_first(elevated_curved_rails_b)"), ("position", .none), ("tile_position", .const "(0, 0)"), ("direction",
    .const "Direction.NORTH"), ("tags", .shared "ElevatedCurvedRailB" "tags" "{}"), ("validate_assignment",
    .const "ValidationMode.STRICT")]
  pass := [("name", .par "name"), ("position", .par "position"), ("tile_position", .par "tile_position"), ("direction", .par "direction"),
    ("tags", .par "tags")]
  post := [.mode]

/-- `/repo/draftsman/prototypes/elevated_half_diagonal_rail.py:27-53`. -/
def elevatedHalfDiagonalRailInit : Layer where
  cls := "ElevatedHalfDiagonalRail"
  params := [("name", .const "get_first(elevated_half_diagonal_rails)"), ("position", .none), ("tile_position", .const "(0, 0)"), ("direction",
    .const "Direction.NORTH"), ("tags", .shared "ElevatedHalfDiagonalRail" "tags" "{}"), ("validate_assignment",
    .const "ValidationMode.STRICT")]
  pass := [("name", .par "name"), ("position", .par "position"), ("tile_position", .par "tile_position"), ("direction", .par "direction"),
    ("tags", .par "tags")]
  post := [.mode]

/-- `/repo/draftsman/prototypes/elevated_straight_rail.py:25-51`. -/
def elevatedStraightRailInit : Layer where
  cls := "ElevatedStraightRail"
  params := [("name", .const "get_first(elevated_straight_rails)"), ("position", .none), ("tile_position", .const "(0, 0)"), ("direction",
    .const "Direction.NORTH"), ("tags", .shared "ElevatedStraightRail" "tags" "{}"), ("validate_assignment",
    .const "ValidationMode.STRICT")]
  pass := [("name", .par "name"), ("position", .par "position"), ("tile_position", .par "tile_position"), ("direction", .par "direction"),
    ("tags", .par "tags")]
  post := [.mode]

/-- `/repo/draftsman/prototypes/fluid_turret.py:69-99`. -/
def fluidTurretInit : Layer where
  cls := "FluidTurret"
  params := [("name", .const "get_first(fluid_turrets)"), ("position", .none), ("tile_position", .const "(0, 0)"), ("direction",
    .const "Direction.NORTH"), ("items", .shared "FluidTurret" "items" "{}"), ("tags", .shared "FluidTurret" "tags" "{}"),
    ("validate_assignment", .const "ValidationMode.STRICT")]
  pass := [("name", .par "name"), ("position", .par "position"), ("tile_position", .par "tile_position"), ("direction", .par "direction"),
    ("items", .par "items"), ("tags", .par "tags")]
  post := [.mode]

/-- `/repo/draftsman/prototypes/fluid_wagon.py:24-54`. -/
def fluidWagonInit : Layer where
  cls := "FluidWagon"
  params := [("name", .const "get_first(fluid_wagons)"), ("position", .none), ("tile_position", .const "(0, 0)"), ("orientation",
    .const "Orientation.NORTH"), ("enable_logistics_while_moving", .const "True"), ("grid", .shared "FluidWagon" "grid" "[]"), ("tags",
    .shared "FluidWagon" "tags" "{}"), ("validate_assignment", .const "ValidationMode.STRICT")]
  pass := [("name", .par "name"), ("position", .par "position"), ("tile_position", .par "tile_position"), ("orientation", .par "orientation"),
    ("enable_logistics_while_moving", .par "enable_logistics_while_moving"), ("grid", .par "grid"), ("tags", .par "tags")]
  post := [.mode]

/-- `/repo/draftsman/prototypes/furnace.py:112-160`. -/
def furnaceInit : Layer where
  cls := "Furnace"
  params := [("name", .const "get_first(furnaces)"), ("position", .none), ("tile_position", .const "(0, 0)"), ("direction",
    .const "Direction.NORTH"), ("items", .shared "Furnace" "items" "[]"), ("tags", .shared "Furnace" "tags" "{}"), ("validate_assignment",
    .const "ValidationMode.STRICT")]
  pass := [("name", .par "name"), ("position", .par "position"), ("tile_position", .par "tile_position"), ("direction", .par "direction"),
    ("items", .par "items"), ("tags", .par "tags")]
  post := [.mode]

/-- `/repo/draftsman/prototypes/fusion_generator.py:23-49`. -/
def fusionGeneratorInit : Layer where
  cls := "FusionGenerator"
  params := [("name", .const "get_first(fusion_generators)"), ("position", .none), ("tile_position", .const "(0, 0)"), ("direction",
    .const "Direction.NORTH"), ("tags", .shared "FusionGenerator" "tags" "{}"), ("validate_assignment", .const "ValidationMode.STRICT")]
  pass := [("name", .par "name"), ("position", .par "position"), ("tile_position", .par "tile_position"), ("direction", .par "direction"),
    ("tags", .par "tags")]
  post := [.mode]

/-- `/repo/draftsman/prototypes/fusion_reactor.py:23-49`. -/
def fusionReactorInit : Layer where
  cls := "FusionReactor"
  params := [("name", .const "get_first(fusion_reactors)"), ("position", .none), ("tile_position", .const "(0, 0)"), ("direction",
    .const "Direction.NORTH"), ("tags", .shared "FusionReactor" "tags" "{}"), ("validate_assignment", .const "ValidationMode.STRICT")]
  pass := [("name", .par "name"), ("position", .par "position"), ("tile_position", .par "tile_position"), ("direction", .par "direction"),
    ("tags", .par "tags")]
  post := [.mode]

/-- `/repo/draftsman/prototypes/gate.py:23-49`. -/
def gateInit : Layer where
  cls := "Gate"
  params := [("name", .const "get_first(gates)"), ("position", .none), ("tile_position", .const "(0, 0)"), ("direction",
    .const "Direction.NORTH"), ("tags", .shared "Gate" "tags" "{}"), ("validate_assignment", .const "ValidationMode.STRICT")]
  pass := [("name", .par "name"), ("position", .par "position"), ("tile_position", .par "tile_position"), ("direction", .par "direction"),
    ("tags", .par "tags")]
  post := [.mode]

/-- `/repo/draftsman/prototypes/generator.py:24-46`. -/
def generatorInit : Layer where
  cls := "Generator"
  params := [("name", .const "get_first(generators)"), ("position", .none), ("tile_position", .const "(0, 0)"), ("direction",
    .const "Direction.NORTH"), ("tags", .shared "Generator" "tags" "{}"), ("validate_assignment", .const "ValidationMode.STRICT")]
  pass := [("name", .par "name"), ("position", .par "position"), ("tile_position", .par "tile_position"), ("direction", .par "direction"),
    ("tags", .par "tags")]
  post := [.mode]

/-- `/repo/draftsman/prototypes/half_diagonal_rail.py:25-51`. -/
def halfDiagonalRailInit : Layer where
  cls := "HalfDiagonalRail"
  params := [("name", .const "get_first(half_diagonal_rails)"), ("position", .none), ("tile_position", .const "(0, 0)"), ("direction",
    .const "Direction.NORTH"), ("tags", .shared "HalfDiagonalRail" "tags" "{}"), ("validate_assignment", .const "ValidationMode.STRICT")]
  pass := [("name", .par "name"), ("position", .par "position"), ("tile_position", .par "tile_position"), ("direction", .par "direction"),
    ("tags", .par "tags")]
  post := [.mode]

/-- `/repo/draftsman/prototypes/heat_interface.py:61-91`. -/
def heatInterfaceInit : Layer where
  cls := "HeatInterface"
  params := [("name", .const "get_first(heat_interfaces)"), ("position", .none), ("tile_position", .const "(0, 0)"), ("temperature",
    .const "0.0"), ("mode", .const "'at-least'"), ("tags", .shared "HeatInterface" "tags" "{}"), ("validate_assignment",
    .const "ValidationMode.STRICT")]
  pass := [("name", .par "name"), ("position", .par "position"), ("tile_position", .par "tile_position"), ("tags", .par "tags")]
  post := [.set "temperature" (.par "temperature"), .set "mode" (.par "mode"), .mode]

/-- `/repo/draftsman/prototypes/heat_pipe.py:22-46`. -/
def heatPipeInit : Layer where
  cls := "HeatPipe"
  params := [("name", .const "get_first(heat_pipes)"), ("position", .none), ("tile_position", .const "(0, 0)"), ("tags",
    .shared "HeatPipe" "tags" "{}"), ("validate_assignment", .const "ValidationMode.STRICT")]
  pass := [("name", .par "name"), ("position", .par "position"), ("tile_position", .par "tile_position"), ("tags", .par "tags")]
  post := [.mode]

/-- `/repo/draftsman/prototypes/infinity_container.py:77-110`. -/
def infinityContainerInit : Layer where
  cls := "InfinityContainer"
  params := [("name", .const "get_first(infinity_containers)"), ("position", .none), ("tile_position", .const "(0, 0)"), ("bar", .none), ("items",
    .shared "InfinityContainer" "items" "[]"), ("infinity_settings", .shared "InfinityContainer" "infinity_settings" "{}"), ("tags",
    .shared "InfinityContainer" "tags" "{}"), ("validate_assignment", .const "ValidationMode.STRICT")]
  pass := [("name", .par "name"), ("position", .par "position"), ("tile_position", .par "tile_position"), ("bar", .par "bar"), ("items",
    .par "items"), ("tags", .par "tags")]
  post := [.set "infinity_settings" (.par "infinity_settings"), .mode]

/-- `/repo/draftsman/prototypes/infinity_pipe.py:95-124`. -/
def infinityPipeInit : Layer where
  cls := "InfinityPipe"
  params := [("name", .const "get_first(infinity_pipes)"), ("position", .none), ("tile_position", .const "(0, 0)"), ("infinity_settings",
    .shared "InfinityPipe" "infinity_settings" "{}"), ("tags", .shared "InfinityPipe" "tags" "{}"), ("validate_assignment",
    .const "ValidationMode.STRICT")]
  pass := [("name", .par "name"), ("position", .par "position"), ("tile_position", .par "tile_position"), ("tags", .par "tags")]
  post := [.set "infinity_settings" (.par "infinity_settings"), .mode]

/-- `/repo/draftsman/prototypes/inserter.py:114-151`. -/
def inserterInit : Layer where
  cls := "Inserter"
  params := [("name", .const "get_first(inserters)"), ("position", .none), ("tile_position", .const "(0, 0)"), ("direction",
    .const "Direction.NORTH"), ("pickup_position", .none), ("drop_position", .none), ("filter_mode", .const "'whitelist'"),
    ("spoil_priority", .none), ("override_stack_size", .none), ("control_behavior", .shared "Inserter" "control_behavior" "{}"), ("tags",
    .shared "Inserter" "tags" "{}"), ("validate_assignment", .const "ValidationMode.STRICT")]
  pass := [("name", .par "name"), ("position", .par "position"), ("tile_position", .par "tile_position"), ("direction", .par "direction"),
    ("override_stack_size", .par "override_stack_size"), ("control_behavior", .par "control_behavior"), ("tags", .par "tags")]
  post := [.set "pickup_position" (.par "pickup_position"), .set "drop_position" (.par "drop_position"),
    .set "filter_mode" (.par "filter_mode"), .set "spoil_priority" (.par "spoil_priority"), .mode]

/-- `/repo/draftsman/prototypes/lab.py:31-57`. -/
def labInit : Layer where
  cls := "Lab"
  params := [("name", .const "get_first(labs)"), ("position", .none), ("tile_position", .const "(0, 0)"), ("items", .shared "Lab" "items" "[]"),
    ("tags", .shared "Lab" "tags" "{}"), ("validate_assignment", .const "ValidationMode.STRICT")]
  pass := [("name", .par "name"), ("position", .par "position"), ("tile_position", .par "tile_position"), ("items", .par "items"), ("tags",
    .par "tags")]
  post := [.mode]

/-- `/repo/draftsman/prototypes/lamp.py:67-99`. -/
def lampInit : Layer where
  cls := "Lamp"
  params := [("name", .const "get_first(lamps)"), ("position", .none), ("tile_position", .const "(0, 0)"), ("always_on", .const "False"),
    ("control_behavior", .shared "Lamp" "control_behavior" "{}"), ("tags", .shared "Lamp" "tags" "{}"), ("validate_assignment",
    .const "ValidationMode.STRICT")]
  pass := [("name", .par "name"), ("position", .par "position"), ("tile_position", .par "tile_position"), ("control_behavior",
    .par "control_behavior"), ("tags", .par "tags")]
  post := [.set "always_on" (.par "always_on"), .mode]

/-- `/repo/draftsman/prototypes/land_mine.py:22-46`. -/
def landMineInit : Layer where
  cls := "LandMine"
  params := [("name", .const "get_first(land_mines)"), ("position", .none), ("tile_position", .const "(0, 0)"), ("tags",
    .shared "LandMine" "tags" "{}"), ("validate_assignment", .const "ValidationMode.STRICT")]
  pass := [("name", .par "name"), ("position", .par "position"), ("tile_position", .par "tile_position"), ("tags", .par "tags")]
  post := [.mode]

/-- `/repo/draftsman/prototypes/legacy_curved_rail.py:61-97`. -/
def legacyCurvedRailInit : Layer where
  cls := "LegacyCurvedRail"
  params := [("name", .const "get_first(legacy_curved_rails)"), ("position", .none), ("tile_position", .const "(0, 0)"), ("direction",
    .const "Direction.NORTH"), ("tags", .shared "LegacyCurvedRail" "tags" "{}"), ("validate_assignment", .const "ValidationMode.STRICT")]
  pass := [("name", .par "name"), ("position", .par "position"), ("tile_position", .par "tile_position"), ("direction", .par "direction"),
    ("tags", .par "tags")]
  post := [.mode]

/-- `/repo/draftsman/prototypes/legacy_straight_rail.py:55-95`. -/
def legacyStraightRailInit : Layer where
  cls := "LegacyStraightRail"
  params := [("name", .const "get_first(legacy_straight_rails)"), ("position", .none), ("tile_position", .const "(0, 0)"), ("direction",
    .const "Direction.NORTH"), ("tags", .shared "LegacyStraightRail" "tags" "{}"), ("validate_assignment",
    .const "ValidationMode.STRICT")]
  pass := [("name", .par "name"), ("position", .par "position"), ("tile_position", .par "tile_position"), ("direction", .par "direction"),
    ("tags", .par "tags")]
  post := [.mode]

/-- `/repo/draftsman/prototypes/lightning_attractor.py:23-47`. -/
def lightningAttractorInit : Layer where
  cls := "LightningAttractor"
  params := [("name", .const "get_first(lightning_attractors)"), ("position", .none), ("tile_position", .const "(0, 0)"), ("tags",
    .shared "LightningAttractor" "tags" "{}"), ("validate_assignment", .const "ValidationMode.STRICT")]
  pass := [("name", .par "name"), ("position", .par "position"), ("tile_position", .par "tile_position"), ("tags", .par "tags")]
  post := [.mode]

/-- `/repo/draftsman/prototypes/linked_belt.py:29-54`. -/
def linkedBeltInit : Layer where
  cls := "LinkedBelt"
  params := [("name", .const "get_first(linked_belts)"), ("position", .none), ("tile_position", .const "(0, 0)"), ("direction",
    .const "Direction.NORTH"), ("tags", .shared "LinkedBelt" "tags" "{}"), ("validate_assignment", .const "ValidationMode.STRICT")]
  pass := [("name", .par "name"), ("position", .par "position"), ("tile_position", .par "tile_position"), ("direction", .par "direction"),
    ("tags", .par "tags")]
  post := [.mode]

/-- `/repo/draftsman/prototypes/linked_container.py:46-79`. -/
def linkedContainerInit : Layer where
  cls := "LinkedContainer"
  params := [("name", .const "get_first(linked_containers)"), ("position", .none), ("tile_position", .const "(0, 0)"), ("bar", .none), ("link_id",
    .const "0"), ("items", .shared "LinkedContainer" "items" "[]"), ("tags", .shared "LinkedContainer" "tags" "{}"),
    ("validate_assignment", .const "ValidationMode.STRICT")]
  pass := [("name", .par "name"), ("position", .par "position"), ("tile_position", .par "tile_position"), ("bar", .par "bar"), ("items",
    .par "items"), ("tags", .par "tags")]
  post := [.set "link_id" (.par "link_id"), .mode]

/-- `/repo/draftsman/prototypes/loader.py:30-56`. -/
def loaderInit : Layer where
  cls := "Loader"
  params := [("name", .const "get_first(loaders)"), ("position", .none), ("tile_position", .const "(0, 0)"), ("direction",
    .const "Direction.NORTH"), ("io_type", .const "'input'"), ("filters", .shared "Loader" "filters" "[]"), ("tags",
    .shared "Loader" "tags" "{}"), ("validate_assignment", .const "ValidationMode.STRICT")]
  pass := [("name", .par "name"), ("position", .par "position"), ("tile_position", .par "tile_position"), ("direction", .par "direction"),
    ("io_type", .par "io_type"), ("filters", .par "filters"), ("tags", .par "tags")]
  post := [.mode]

/-- `/repo/draftsman/prototypes/locomotive.py:37-65`. -/
def locomotiveInit : Layer where
  cls := "Locomotive"
  params := [("name", .const "get_first(locomotives)"), ("position", .none), ("tile_position", .const "(0, 0)"), ("orientation",
    .const "Orientation.NORTH"), ("enable_logistics_while_moving", .const "True"), ("grid", .shared "Locomotive" "grid" "[]"), ("items",
    .shared "Locomotive" "items" "[]"), ("tags", .shared "Locomotive" "tags" "{}"), ("validate_assignment",
    .const "ValidationMode.STRICT")]
  pass := [("name", .par "name"), ("position", .par "position"), ("tile_position", .par "tile_position"), ("orientation", .par "orientation"),
    ("enable_logistics_while_moving", .par "enable_logistics_while_moving"), ("grid", .par "grid"), ("items", .par "items"), ("tags",
    .par "tags")]
  post := [.mode]

/-- `/repo/draftsman/prototypes/logistic_active_container.py:57-81`. -/
def logisticActiveContainerInit : Layer where
  cls := "LogisticActiveContainer"
  params := [("name", .const "get_first(logistic_active_containers)"), ("position", .none), ("tile_position", .const "(0, 0)"), ("bar", .none),
    ("items", .shared "LogisticActiveContainer" "items" "[]"), ("tags", .shared "LogisticActiveContainer" "tags" "{}"),
    ("validate_assignment", .const "ValidationMode.STRICT")]
  pass := [("name", .par "name"), ("position", .par "position"), ("tile_position", .par "tile_position"), ("bar", .par "bar"), ("items",
    .par "items"), ("tags", .par "tags")]
  post := [.mode]

/-- `/repo/draftsman/prototypes/logistic_buffer_container.py:64-96`. -/
def logisticBufferContainerInit : Layer where
  cls := "LogisticBufferContainer"
  params := [("name", .const "get_first(logistic_buffer_containers)"), ("position", .none), ("tile_position", .const "(0, 0)"), ("bar", .none),
    ("request_filters", .shared "LogisticBufferContainer" "request_filters" "{}"), ("items",
    .shared "LogisticBufferContainer" "items" "[]"), ("control_behavior", .shared "LogisticBufferContainer" "control_behavior" "{}"),
    ("tags", .shared "LogisticBufferContainer" "tags" "{}"), ("validate_assignment", .const "ValidationMode.STRICT")]
  pass := [("name", .par "name"), ("position", .par "position"), ("tile_position", .par "tile_position"), ("bar", .par "bar"),
    ("request_filters", .par "request_filters"), ("items", .par "items"), ("control_behavior", .par "control_behavior"), ("tags",
    .par "tags")]
  post := [.mode]

/-- `/repo/draftsman/prototypes/logistic_passive_container.py:57-83`. -/
def logisticPassiveContainerInit : Layer where
  cls := "LogisticPassiveContainer"
  params := [("name", .const "get_first(logistic_passive_containers)"), ("position", .none), ("tile_position", .const "(0, 0)"), ("bar", .none),
    ("items", .shared "LogisticPassiveContainer" "items" "[]"), ("control_behavior",
    .shared "LogisticPassiveContainer" "control_behavior" "{}"), ("tags", .shared "LogisticPassiveContainer" "tags" "{}"),
    ("validate_assignment", .const "ValidationMode.STRICT")]
  pass := [("name", .par "name"), ("position", .par "position"), ("tile_position", .par "tile_position"), ("bar", .par "bar"), ("items",
    .par "items"), ("control_behavior", .par "control_behavior"), ("tags", .par "tags")]
  post := [.mode]

/-- `/repo/draftsman/prototypes/logistic_request_container.py:76-106`. -/
def logisticRequestContainerInit : Layer where
  cls := "LogisticRequestContainer"
  params := [("name", .const "get_first(logistic_request_containers)"), ("position", .none), ("tile_position", .const "(0, 0)"), ("bar", .none),
    ("request_filters", .shared "LogisticRequestContainer" "request_filters" "{}"), ("items",
    .shared "LogisticRequestContainer" "items" "[]"), ("control_behavior", .shared "LogisticRequestContainer" "control_behavior" "{}"),
    ("tags", .shared "LogisticRequestContainer" "tags" "{}"), ("validate_assignment", .const "ValidationMode.STRICT")]
  pass := [("name", .par "name"), ("position", .par "position"), ("tile_position", .par "tile_position"), ("bar", .par "bar"),
    ("request_filters", .par "request_filters"), ("items", .par "items"), ("control_behavior", .par "control_behavior"), ("tags",
    .par "tags")]
  post := [.mode]

/-- `/repo/draftsman/prototypes/logistic_storage_container.py:59-91`. -/
def logisticStorageContainerInit : Layer where
  cls := "LogisticStorageContainer"
  params := [("name", .const "get_first(logistic_storage_containers)"), ("position", .none), ("tile_position", .const "(0, 0)"), ("bar", .none),
    ("request_filters", .shared "LogisticStorageContainer" "request_filters" "[]"), ("items",
    .shared "LogisticStorageContainer" "items" "[]"), ("control_behavior", .shared "LogisticStorageContainer" "control_behavior" "{}"),
    ("tags", .shared "LogisticStorageContainer" "tags" "{}"), ("validate_assignment", .const "ValidationMode.STRICT")]
  pass := [("name", .par "name"), ("position", .par "position"), ("tile_position", .par "tile_position"), ("bar", .par "bar"),
    ("request_filters", .par "request_filters"), ("items", .par "items"), ("control_behavior", .par "control_behavior"), ("tags",
    .par "tags")]
  post := [.mode]

/-- `/repo/draftsman/prototypes/mining_drill.py:70-100`. -/
def miningDrillInit : Layer where
  cls := "MiningDrill"
  params := [("name", .const "get_first(mining_drills)"), ("position", .none), ("tile_position", .const "(0, 0)"), ("direction",
    .const "Direction.NORTH"), ("items", .shared "MiningDrill" "items" "[]"), ("control_behavior",
    .shared "MiningDrill" "control_behavior" "{}"), ("tags", .shared "MiningDrill" "tags" "{}"), ("validate_assignment",
    .const "ValidationMode.STRICT")]
  pass := [("name", .par "name"), ("position", .par "position"), ("tile_position", .par "tile_position"), ("direction", .par "direction"),
    ("items", .par "items"), ("control_behavior", .par "control_behavior"), ("tags", .par "tags")]
  post := [.mode]

/-- `/repo/draftsman/prototypes/offshore_pump.py:53-83`. -/
def offshorePumpInit : Layer where
  cls := "OffshorePump"
  params := [("name", .const "get_first(offshore_pumps)"), ("position", .none), ("tile_position", .const "(0, 0)"), ("direction",
    .const "Direction.NORTH"), ("control_behavior", .shared "OffshorePump" "control_behavior" "{}"), ("tags",
    .shared "OffshorePump" "tags" "{}"), ("validate_assignment", .const "ValidationMode.STRICT")]
  pass := [("name", .par "name"), ("position", .par "position"), ("tile_position", .par "tile_position"), ("direction", .par "direction"),
    ("control_behavior", .par "control_behavior"), ("tags", .par "tags")]
  post := [.mode]

/-- `/repo/draftsman/prototypes/pipe.py:22-46`. -/
def pipeInit : Layer where
  cls := "Pipe"
  params := [("name", .const "get_first(pipes)"), ("position", .none), ("tile_position", .const "(0, 0)"), ("tags", .shared "Pipe" "tags" "{}"),
    ("validate_assignment", .const "ValidationMode.STRICT")]
  pass := [("name", .par "name"), ("position", .par "position"), ("tile_position", .par "tile_position"), ("tags", .par "tags")]
  post := [.mode]

/-- `/repo/draftsman/prototypes/player_port.py:22-46`. -/
def playerPortInit : Layer where
  cls := "PlayerPort"
  params := [("name", .const "get_first(player_ports)"), ("position", .none), ("tile_position", .const "(0, 0)"), ("tags",
    .shared "PlayerPort" "tags" "{}"), ("validate_assignment", .const "ValidationMode.STRICT")]
  pass := [("name", .par "name"), ("position", .par "position"), ("tile_position", .par "tile_position"), ("tags", .par "tags")]
  post := [.mode]

/-- `/repo/draftsman/prototypes/power_switch.py:65-90`. -/
def powerSwitchInit : Layer where
  cls := "PowerSwitch"
  params := [("name", .const "get_first(power_switches)"), ("position", .none), ("tile_position", .const "(0, 0)"), ("control_behavior",
    .shared "PowerSwitch" "control_behavior" "{}"), ("switch_state", .const "False"), ("tags", .shared "PowerSwitch" "tags" "{}"),
    ("validate_assignment", .const "ValidationMode.STRICT")]
  pass := [("name", .par "name"), ("position", .par "position"), ("tile_position", .par "tile_position"), ("control_behavior",
    .par "control_behavior"), ("tags", .par "tags")]
  post := [.set "switch_state" (.par "switch_state"), .mode]

/-- `/repo/draftsman/prototypes/programmable_speaker.py:333-375`. -/
def programmableSpeakerInit : Layer where
  cls := "ProgrammableSpeaker"
  params := [("name", .const "get_first(programmable_speakers)"), ("position", .none), ("tile_position", .const "(0, 0)"), ("control_behavior",
    .shared "ProgrammableSpeaker" "control_behavior" "{}"), ("parameters", .shared "ProgrammableSpeaker" "parameters" "{}"),
    ("alert_parameters", .shared "ProgrammableSpeaker" "alert_parameters" "{}"), ("tags", .shared "ProgrammableSpeaker" "tags" "{}"),
    ("validate_assignment", .const "ValidationMode.STRICT")]
  pass := [("name", .par "name"), ("position", .par "position"), ("tile_position", .par "tile_position"), ("control_behavior",
    .par "control_behavior"), ("tags", .par "tags")]
  post := [.set "parameters" (.par "parameters"), .set "alert_parameters" (.par "alert_parameters"), .mode]

/-- `/repo/draftsman/prototypes/pump.py:46-68`. -/
def pumpInit : Layer where
  cls := "Pump"
  params := [("name", .const "get_first(pumps)"), ("position", .none), ("tile_position", .const "(0, 0)"), ("direction",
    .const "Direction.NORTH"), ("tags", .shared "Pump" "tags" "{}"), ("validate_assignment", .const "ValidationMode.STRICT")]
  pass := [("name", .par "name"), ("position", .par "position"), ("tile_position", .par "tile_position"), ("direction", .par "direction"),
    ("tags", .par "tags")]
  post := [.mode]

/-- `/repo/draftsman/prototypes/radar.py:23-43`. -/
def radarInit : Layer where
  cls := "Radar"
  params := [("name", .const "get_first(radars)"), ("position", .none), ("tile_position", .const "(0, 0)"), ("tags", .shared "Radar" "tags" "{}"),
    ("validate_assignment", .const "ValidationMode.STRICT")]
  pass := [("name", .par "name"), ("position", .par "position"), ("tile_position", .par "tile_position"), ("tags", .par "tags")]
  post := [.mode]

/-- `/repo/draftsman/prototypes/rail_chain_signal.py:53-88`. -/
def railChainSignalInit : Layer where
  cls := "RailChainSignal"
  params := [("name", .const "get_first(rail_chain_signals)"), ("position", .none), ("tile_position", .const "(0, 0)"), ("direction",
    .const "Direction.NORTH"), ("control_behavior", .shared "RailChainSignal" "control_behavior" "{}"), ("tags",
    .shared "RailChainSignal" "tags" "{}"), ("validate_assignment", .const "ValidationMode.STRICT")]
  pass := [("name", .par "name"), ("position", .par "position"), ("tile_position", .par "tile_position"), ("direction", .par "direction"),
    ("control_behavior", .par "control_behavior"), ("tags", .par "tags")]
  post := [.mode]

/-- `/repo/draftsman/prototypes/rail_ramp.py:25-51`. -/
def railRampInit : Layer where
  cls := "RailRamp"
  params := [("name", .const "get_first(rail_ramps)"), ("position", .none), ("tile_position", .const "(0, 0)"), ("direction",
    .const "Direction.NORTH"), ("tags", .shared "RailRamp" "tags" "{}"), ("validate_assignment", .const "ValidationMode.STRICT")]
  pass := [("name", .par "name"), ("position", .par "position"), ("tile_position", .par "tile_position"), ("direction", .par "direction"),
    ("tags", .par "tags")]
  post := [.mode]

/-- `/repo/draftsman/prototypes/rail_signal.py:72-107`. -/
def railSignalInit : Layer where
  cls := "RailSignal"
  params := [("name", .const "get_first(rail_signals)"), ("position", .none), ("tile_position", .const "(0, 0)"), ("direction",
    .const "Direction.NORTH"), ("control_behavior", .shared "RailSignal" "control_behavior" "{}"), ("tags",
    .shared "RailSignal" "tags" "{}"), ("validate_assignment", .const "ValidationMode.STRICT")]
  pass := [("name", .par "name"), ("position", .par "position"), ("tile_position", .par "tile_position"), ("direction", .par "direction"),
    ("control_behavior", .par "control_behavior"), ("tags", .par "tags")]
  post := [.mode]

/-- `/repo/draftsman/prototypes/rail_support.py:25-51`. -/
def railSupportInit : Layer where
  cls := "RailSupport"
  params := [("name", .const "get_first(rail_supports)"), ("position", .none), ("tile_position", .const "(0, 0)"), ("direction",
    .const "Direction.NORTH"), ("tags", .shared "RailSupport" "tags" "{}"), ("validate_assignment", .const "ValidationMode.STRICT")]
  pass := [("name", .par "name"), ("position", .par "position"), ("tile_position", .par "tile_position"), ("direction", .par "direction"),
    ("tags", .par "tags")]
  post := [.mode]

/-- `/repo/draftsman/prototypes/reactor.py:58-91`. -/
def reactorInit : Layer where
  cls := "Reactor"
  params := [("name", .const "get_first(reactors)"), ("position", .none), ("tile_position", .const "(0, 0)"), ("items",
    .shared "Reactor" "items" "[]"), ("control_behavior", .shared "Reactor" "control_behavior" "{}"), ("tags",
    .shared "Reactor" "tags" "{}"), ("validate_assignment", .const "ValidationMode.STRICT")]
  pass := [("name", .par "name"), ("position", .par "position"), ("tile_position", .par "tile_position"), ("items", .par "items"),
    ("control_behavior", .par "control_behavior"), ("tags", .par "tags")]
  post := [.mode]

/-- `/repo/draftsman/prototypes/roboport.py:75-103`. -/
def roboportInit : Layer where
  cls := "Roboport"
  params := [("name", .const "get_first(roboports)"), ("position", .none), ("tile_position", .const "(0, 0)"), ("control_behavior",
    .shared "Roboport" "control_behavior" "{}"), ("tags", .shared "Roboport" "tags" "{}"), ("validate_assignment",
    .const "ValidationMode.STRICT")]
  pass := [("name", .par "name"), ("position", .par "position"), ("tile_position", .par "tile_position"), ("control_behavior",
    .par "control_behavior"), ("tags", .par "tags")]
  post := [.mode]

/-- `/repo/draftsman/prototypes/rocket_silo.py:62-104`. -/
def rocketSiloInit : Layer where
  cls := "RocketSilo"
  params := [("name", .const "get_first(rocket_silos)"), ("position", .none), ("tile_position", .const "(0, 0)"), ("recipe",
    .const "'rocket-part'"), ("recipe_quality", .const "'normal'"), ("transitional_request_index", .const "0"), ("items",
    .shared "RocketSilo" "items" "[]"), ("control_behavior", .shared "RocketSilo" "control_behavior" "{}"), ("tags",
    .shared "RocketSilo" "tags" "{}"), ("validate_assignment", .const "ValidationMode.STRICT")]
  pass := [("name", .par "name"), ("position", .par "position"), ("tile_position", .par "tile_position"), ("recipe", .par "recipe"),
    ("recipe_quality", .par "recipe_quality"), ("items", .par "items"), ("control_behavior", .par "control_behavior"), ("tags",
    .par "tags")]
  post := [.set "transitional_request_index" (.par "transitional_request_index"), .mode]

/-- `/repo/draftsman/prototypes/selector_combinator.py:106-136`. -/
def selectorCombinatorInit : Layer where
  cls := "SelectorCombinator"
  params := [("name", .const "get_first(selector_combinators)"), ("position", .none), ("tile_position", .const "(0, 0)"), ("direction",
    .const "Direction.NORTH"), ("player_description", .none), ("control_behavior", .shared "SelectorCombinator" "control_behavior" "{}"),
    ("tags", .shared "SelectorCombinator" "tags" "{}"), ("validate_assignment", .const "ValidationMode.STRICT")]
  pass := [("name", .par "name"), ("position", .par "position"), ("tile_position", .par "tile_position"), ("direction", .par "direction"),
    ("player_description", .par "player_description"), ("control_behavior", .par "control_behavior"), ("tags", .par "tags")]
  post := [.mode]

/-- `/repo/draftsman/prototypes/simple_entity_with_force.py:34-65`. -/
def simpleEntityWithForceInit : Layer where
  cls := "SimpleEntityWithForce"
  params := [("name", .const "get_first(simple_entities_with_force)"), ("position", .none), ("tile_position", .const "(0, 0)"), ("direction",
    .const "Direction.NORTH"), ("tags", .shared "SimpleEntityWithForce" "tags" "{}"), ("variation", .const "1"), ("validate_assignment",
    .const "ValidationMode.STRICT")]
  pass := [("name", .par "name"), ("position", .par "position"), ("tile_position", .par "tile_position"), ("direction", .par "direction"),
    ("tags", .par "tags")]
  post := [.set "variation" (.par "variation"), .mode]

/-- `/repo/draftsman/prototypes/simple_entity_with_owner.py:34-65`. -/
def simpleEntityWithOwnerInit : Layer where
  cls := "SimpleEntityWithOwner"
  params := [("name", .const "get_first(simple_entities_with_owner)"), ("position", .none), ("tile_position", .const "(0, 0)"), ("direction",
    .const "Direction.NORTH"), ("tags", .shared "SimpleEntityWithOwner" "tags" "{}"), ("variation", .const "1"), ("validate_assignment",
    .const "ValidationMode.STRICT")]
  pass := [("name", .par "name"), ("position", .par "position"), ("tile_position", .par "tile_position"), ("direction", .par "direction"),
    ("tags", .par "tags")]
  post := [.set "variation" (.par "variation"), .mode]

/-- `/repo/draftsman/prototypes/solar_panel.py:22-46`. -/
def solarPanelInit : Layer where
  cls := "SolarPanel"
  params := [("name", .const "get_first(solar_panels)"), ("position", .none), ("tile_position", .const "(0, 0)"), ("tags",
    .shared "SolarPanel" "tags" "{}"), ("validate_assignment", .const "ValidationMode.STRICT")]
  pass := [("name", .par "name"), ("position", .par "position"), ("tile_position", .par "tile_position"), ("tags", .par "tags")]
  post := [.mode]

/-- `/repo/draftsman/prototypes/space_platform_hub.py:77-109`. -/
def spacePlatformHubInit : Layer where
  cls := "SpacePlatformHub"
  params := [("name", .const "get_first(space_platform_hubs)"), ("position", .none), ("tile_position", .const "(0, 0)"), ("control_behavior",
    .shared "SpacePlatformHub" "control_behavior" "{}"), ("request_missing_construction_materials", .const "True"), ("tags",
    .shared "SpacePlatformHub" "tags" "{}"), ("validate_assignment", .const "ValidationMode.STRICT")]
  pass := [("name", .par "name"), ("position", .par "position"), ("tile_position", .par "tile_position"), ("control_behavior",
    .par "control_behavior"), ("tags", .par "tags")]
  post := [.set "request_missing_construction_materials" (.par "request_missing_construction_materials"), .mode]

/-- `/repo/draftsman/prototypes/spider_vehicle.py:78-122`. -/
def spiderVehicleInit : Layer where
  cls := "SpiderVehicle"
  params := [("name", .const "get_first(spider_vehicles)"), ("position", .none), ("tile_position", .const "(0, 0)"), ("orientation",
    .const "Orientation.NORTH"), ("enable_logistics_while_moving", .const "True"), ("grid", .shared "SpiderVehicle" "grid" "[]"),
    ("trunk_inventory", .none), ("ammo_inventory", .none), ("driver_is_main_gunner", .const "True"), ("selected_gun_index", .const "1"),
    ("automatic_targeting_parameters", .shared "SpiderVehicle" "automatic_targeting_parameters" "{}"), ("request_filters",
    .shared "SpiderVehicle" "request_filters" "{}"), ("items", .shared "SpiderVehicle" "items" "{}"), ("tags",
    .shared "SpiderVehicle" "tags" "{}"), ("validate_assignment", .const "ValidationMode.STRICT")]
  pass := [("name", .par "name"), ("position", .par "position"), ("tile_position", .par "tile_position"), ("orientation", .par "orientation"),
    ("enable_logistics_while_moving", .par "enable_logistics_while_moving"), ("grid", .par "grid"), ("trunk_inventory",
    .par "trunk_inventory"), ("ammo_inventory", .par "ammo_inventory"), ("driver_is_main_gunner", .par "driver_is_main_gunner"),
    ("selected_gun_index", .par "selected_gun_index"), ("items", .par "items"), ("tags", .par "tags")]
  post := [.set "automatic_targeting_parameters" (.par "automatic_targeting_parameters"), .set "request_filters" (.par "request_filters"),
    .mode]

/-- `/repo/draftsman/prototypes/splitter.py:56-91`. -/
def splitterInit : Layer where
  cls := "Splitter"
  params := [("name", .const "get_first(splitters)"), ("position", .none), ("tile_position", .const "(0, 0)"), ("direction",
    .const "Direction.NORTH"), ("input_priority", .const "'none'"), ("output_priority", .const "'none'"), ("filter", .none), ("tags",
    .shared "Splitter" "tags" "{}"), ("validate_assignment", .const "ValidationMode.STRICT")]
  pass := [("name", .par "name"), ("position", .par "position"), ("tile_position", .par "tile_position"), ("direction", .par "direction"),
    ("tags", .par "tags")]
  post := [.set "input_priority" (.par "input_priority"), .set "output_priority" (.par "output_priority"), .set "filter" (.par "filter"), .mode]

/-- `/repo/draftsman/prototypes/storage_tank.py:29-55`. -/
def storageTankInit : Layer where
  cls := "StorageTank"
  params := [("name", .const "get_first(storage_tanks)"), ("position", .none), ("tile_position", .const "(0, 0)"), ("direction",
    .const "Direction.NORTH"), ("tags", .shared "StorageTank" "tags" "{}"), ("validate_assignment", .const "ValidationMode.STRICT")]
  pass := [("name", .par "name"), ("position", .par "position"), ("tile_position", .par "tile_position"), ("direction", .par "direction"),
    ("tags", .par "tags")]
  post := [.mode]

/-- `/repo/draftsman/prototypes/straight_rail.py:55-95`. -/
def straightRailInit : Layer where
  cls := "StraightRail"
  params := [("name", .const "get_first(straight_rails)"), ("position", .none), ("tile_position", .const "(0, 0)"), ("direction",
    .const "Direction.NORTH"), ("tags", .shared "StraightRail" "tags" "{}"), ("validate_assignment", .const "ValidationMode.STRICT")]
  pass := [("name", .par "name"), ("position", .par "position"), ("tile_position", .par "tile_position"), ("direction", .par "direction"),
    ("tags", .par "tags")]
  post := [.mode]

/-- `/repo/draftsman/prototypes/thruster.py:22-46`. -/
def thrusterInit : Layer where
  cls := "Thruster"
  params := [("name", .const "get_first(thrusters)"), ("position", .none), ("tile_position", .const "(0, 0)"), ("tags",
    .shared "Thruster" "tags" "{}"), ("validate_assignment", .const "ValidationMode.STRICT")]
  pass := [("name", .par "name"), ("position", .par "position"), ("tile_position", .par "tile_position"), ("tags", .par "tags")]
  post := [.mode]

/-- `/repo/draftsman/prototypes/train_stop.py:137-171`. -/
def trainStopInit : Layer where
  cls := "TrainStop"
  params := [("name", .const "get_first(train_stops)"), ("position", .none), ("tile_position", .const "(0, 0)"), ("direction",
    .const "Direction.NORTH"), ("control_behavior", .shared "TrainStop" "control_behavior" "{}"), ("tags",
    .shared "TrainStop" "tags" "{}"), ("validate_assignment", .const "ValidationMode.STRICT")]
  pass := [("name", .par "name"), ("position", .par "position"), ("tile_position", .par "tile_position"), ("direction", .par "direction"),
    ("control_behavior", .par "control_behavior"), ("tags", .par "tags")]
  post := [.set "station" (.kwarg "station" (.obj (.none))), .set "manual_trains_limit" (.kwarg "manual_trains_limit" (.obj (.none))), .mode]

/-- `/repo/draftsman/prototypes/transport_belt.py:60-88`. -/
def transportBeltInit : Layer where
  cls := "TransportBelt"
  params := [("name", .const "get_first(transport_belts)"), ("position", .none), ("tile_position", .const "(0, 0)"), ("direction",
    .const "Direction.NORTH"), ("control_behavior", .shared "TransportBelt" "control_behavior" "{}"), ("tags",
    .shared "TransportBelt" "tags" "{}"), ("validate_assignment", .const "ValidationMode.STRICT")]
  pass := [("name", .par "name"), ("position", .par "position"), ("tile_position", .par "tile_position"), ("direction", .par "direction"),
    ("control_behavior", .par "control_behavior"), ("tags", .par "tags")]
  post := [.mode]

/-- `/repo/draftsman/prototypes/turret.py:26-56`. -/
def turretInit : Layer where
  cls := "Turret"
  params := [("name", .const "get_first(turrets)"), ("position", .none), ("tile_position", .const "(0, 0)"), ("direction",
    .const "Direction.NORTH"), ("items", .shared "Turret" "items" "{}"), ("tags", .shared "Turret" "tags" "{}"), ("validate_assignment",
    .const "ValidationMode.STRICT")]
  pass := [("name", .par "name"), ("position", .par "position"), ("tile_position", .par "tile_position"), ("direction", .par "direction"),
    ("items", .par "items"), ("tags", .par "tags")]
  post := [.mode]

/-- `/repo/draftsman/prototypes/underground_belt.py:23-56`. -/
def undergroundBeltInit : Layer where
  cls := "UndergroundBelt"
  params := [("name", .const "get_first(underground_belts)"), ("position", .none), ("tile_position", .const "(0, 0)"), ("direction",
    .const "Direction.NORTH"), ("io_type", .const "'input'"), ("tags", .shared "UndergroundBelt" "tags" "{}"), ("validate_assignment",
    .const "ValidationMode.STRICT")]
  pass := [("name", .par "name"), ("position", .par "position"), ("tile_position", .par "tile_position"), ("direction", .par "direction"),
    ("io_type", .typeOr "io_type"), ("tags", .par "tags")]
  post := [.mode]

/-- `/repo/draftsman/prototypes/underground_pipe.py:23-49`. -/
def undergroundPipeInit : Layer where
  cls := "UndergroundPipe"
  params := [("name", .const "get_first(underground_pipes)"), ("position", .none), ("tile_position", .const "(0, 0)"), ("direction",
    .const "Direction.NORTH"), ("tags", .shared "UndergroundPipe" "tags" "{}"), ("validate_assignment", .const "ValidationMode.STRICT")]
  pass := [("name", .par "name"), ("position", .par "position"), ("tile_position", .par "tile_position"), ("direction", .par "direction"),
    ("tags", .par "tags")]
  post := [.mode]

/-- `/repo/draftsman/prototypes/wall.py:74-101`. -/
def wallInit : Layer where
  cls := "Wall"
  params := [("name", .const "get_first(walls)"), ("position", .none), ("tile_position", .const "(0, 0)"), ("control_behavior",
    .shared "Wall" "control_behavior" "{}"), ("tags", .shared "Wall" "tags" "{}"), ("validate_assignment",
    .const "ValidationMode.STRICT")]
  pass := [("name", .par "name"), ("position", .par "position"), ("tile_position", .par "tile_position"), ("control_behavior",
    .par "control_behavior"), ("tags", .par "tags")]
  post := [.mode]

/-- `/repo/draftsman/prototypes/accumulator.py:18`: the class with the constructors in the order of method resolution. -/
def accumulator : Kind :=
  ⟨Attr.accumulator, false, false, [accumulatorInit, controlBehaviorMixinInit]⟩

/-- `/repo/draftsman/prototypes/agricultural_tower.py:21`: the class with the constructors in the order of method resolution. -/
def agriculturalTower : Kind :=
  ⟨Attr.agriculturalTower, false, false, [agriculturalTowerInit, controlBehaviorMixinInit]⟩

/-- `/repo/draftsman/prototypes/ammo_turret.py:26`: the class with the constructors in the order of method resolution. -/
def ammoTurret : Kind :=
  ⟨Attr.ammoTurret, true, false, [ammoTurretInit, requestItemsMixinInit, controlBehaviorMixinInit, directionalMixinInit]⟩

/-- `/repo/draftsman/prototypes/arithmetic_combinator.py:29`: the class with the constructors in the order of method resolution. -/
def arithmeticCombinator : Kind :=
  ⟨Attr.arithmeticCombinator, true, false, [arithmeticCombinatorInit, playerDescriptionMixinInit, controlBehaviorMixinInit, directionalMixinInit]⟩

/-- `/repo/draftsman/prototypes/artillery_turret.py:29`: the class with the constructors in the order of method resolution. -/
def artilleryTurret : Kind :=
  ⟨Attr.artilleryTurret, true, false, [artilleryTurretInit, artilleryAutoTargetMixinInit, requestItemsMixinInit, controlBehaviorMixinInit, directionalMixinInit]⟩

/-- `/repo/draftsman/prototypes/artillery_wagon.py:21`: the class with the constructors in the order of method resolution. -/
def artilleryWagon : Kind :=
  ⟨Attr.artilleryWagon, false, true, [artilleryWagonInit, artilleryAutoTargetMixinInit, equipmentGridMixinInit, requestItemsMixinInit, orientationMixinInit]⟩

/-- `/repo/draftsman/prototypes/assembling_machine.py:25`: the class with the constructors in the order of method resolution. -/
def assemblingMachine : Kind :=
  ⟨Attr.assemblingMachine, true, false, [assemblingMachineInit, inputIngredientsMixinInit, modulesMixinInit, requestItemsMixinInit, recipeMixinInit, directionalMixinInit]⟩

/-- `/repo/draftsman/prototypes/asteroid_collector.py:24`: the class with the constructors in the order of method resolution. -/
def asteroidCollector : Kind :=
  ⟨Attr.asteroidCollector, true, false, [asteroidCollectorInit, controlBehaviorMixinInit, directionalMixinInit]⟩

/-- `/repo/draftsman/prototypes/beacon.py:20`: the class with the constructors in the order of method resolution. -/
def beacon : Kind :=
  ⟨Attr.beacon, false, false, [beaconInit, modulesMixinInit, requestItemsMixinInit]⟩

/-- `/repo/draftsman/prototypes/boiler.py:17`: the class with the constructors in the order of method resolution. -/
def boiler : Kind :=
  ⟨Attr.boiler, true, false, [boilerInit, requestItemsMixinInit, directionalMixinInit]⟩

/-- `/repo/draftsman/prototypes/burner_generator.py:22`: the class with the constructors in the order of method resolution. -/
def burnerGenerator : Kind :=
  ⟨Attr.burnerGenerator, true, false, [burnerGeneratorInit, burnerEnergySourceMixinInit, requestItemsMixinInit, directionalMixinInit]⟩

/-- `/repo/draftsman/prototypes/car.py:22`: the class with the constructors in the order of method resolution. -/
def car : Kind :=
  ⟨Attr.car, false, true, [carInit, vehicleMixinInit, equipmentGridMixinInit, requestItemsMixinInit, orientationMixinInit]⟩

/-- `/repo/draftsman/prototypes/cargo_landing_pad.py:21`: the class with the constructors in the order of method resolution. -/
def cargoLandingPad : Kind :=
  ⟨Attr.cargoLandingPad, false, false, [cargoLandingPadInit, requestFiltersMixinInit, controlBehaviorMixinInit]⟩

/-- `/repo/draftsman/prototypes/cargo_wagon.py:21`: the class with the constructors in the order of method resolution. -/
def cargoWagon : Kind :=
  ⟨Attr.cargoWagon, false, true, [cargoWagonInit, equipmentGridMixinInit, requestItemsMixinInit, inventoryFilterMixinInit, orientationMixinInit]⟩

/-- `/repo/draftsman/prototypes/constant_combinator.py:32`: the class with the constructors in the order of method resolution. -/
def constantCombinator : Kind :=
  ⟨Attr.constantCombinator, true, false, [constantCombinatorInit, playerDescriptionMixinInit, controlBehaviorMixinInit, directionalMixinInit]⟩

/-- `/repo/draftsman/prototypes/container.py:20`: the class with the constructors in the order of method resolution. -/
def container : Kind :=
  ⟨Attr.container, false, false, [containerInit, inventoryMixinInit, requestItemsMixinInit]⟩

/-- `/repo/draftsman/prototypes/curved_rail_a.py:15`: the class with the constructors in the order of method resolution. -/
def curvedRailA : Kind :=
  ⟨Attr.curvedRailA, true, false, [curvedRailAInit, eightWayDirectionalMixinInit]⟩

/-- `/repo/draftsman/prototypes/curved_rail_b.py:15`: the class with the constructors in the order of method resolution. -/
def curvedRailB : Kind :=
  ⟨Attr.curvedRailB, true, false, [curvedRailBInit, eightWayDirectionalMixinInit]⟩

/-- `/repo/draftsman/prototypes/decider_combinator.py:278`: the class with the constructors in the order of method resolution. -/
def deciderCombinator : Kind :=
  ⟨Attr.deciderCombinator, true, false, [deciderCombinatorInit, playerDescriptionMixinInit, controlBehaviorMixinInit, directionalMixinInit]⟩

/-- `/repo/draftsman/prototypes/display_panel.py:21`: the class with the constructors in the order of method resolution. -/
def displayPanel : Kind :=
  ⟨Attr.displayPanel, true, false, [displayPanelInit, controlBehaviorMixinInit, directionalMixinInit]⟩

/-- `/repo/draftsman/prototypes/electric_energy_interface.py:21`: the class with the constructors in the order of method resolution. -/
def electricEnergyInterface : Kind :=
  ⟨Attr.electricEnergyInterface, false, false, [electricEnergyInterfaceInit]⟩

/-- `/repo/draftsman/prototypes/electric_pole.py:17`: the class with the constructors in the order of method resolution. -/
def electricPole : Kind :=
  ⟨Attr.electricPole, false, false, [electricPoleInit, powerConnectableMixinInit]⟩

/-- `/repo/draftsman/prototypes/electric_turret.py:26`: the class with the constructors in the order of method resolution. -/
def electricTurret : Kind :=
  ⟨Attr.electricTurret, true, false, [electricTurretInit, requestItemsMixinInit, controlBehaviorMixinInit, directionalMixinInit]⟩

/-- `/repo/draftsman/prototypes/elevated_curved_rail_a.py:15`: the class with the constructors in the order of method resolution. -/
def elevatedCurvedRailA : Kind :=
  ⟨Attr.elevatedCurvedRailA, true, false, [elevatedCurvedRailAInit, eightWayDirectionalMixinInit]⟩

/-- `/repo/draftsman/prototypes/elevated_curved_rail_b.py:15`: the class with the constructors in the order of method resolution. -/
def elevatedCurvedRailB : Kind :=
  ⟨Attr.elevatedCurvedRailB, true, false, [elevatedCurvedRailBInit, eightWayDirectionalMixinInit]⟩

/-- `/repo/draftsman/prototypes/elevated_half_diagonal_rail.py:15`: the class with the constructors in the order of method resolution. -/
def elevatedHalfDiagonalRail : Kind :=
  ⟨Attr.elevatedHalfDiagonalRail, true, false, [elevatedHalfDiagonalRailInit, eightWayDirectionalMixinInit]⟩

/-- `/repo/draftsman/prototypes/elevated_straight_rail.py:15`: the class with the constructors in the order of method resolution. -/
def elevatedStraightRail : Kind :=
  ⟨Attr.elevatedStraightRail, true, false, [elevatedStraightRailInit, eightWayDirectionalMixinInit]⟩

/-- `/repo/draftsman/prototypes/fluid_turret.py:26`: the class with the constructors in the order of method resolution. -/
def fluidTurret : Kind :=
  ⟨Attr.fluidTurret, true, false, [fluidTurretInit, requestItemsMixinInit, controlBehaviorMixinInit, directionalMixinInit]⟩

/-- `/repo/draftsman/prototypes/fluid_wagon.py:16`: the class with the constructors in the order of method resolution. -/
def fluidWagon : Kind :=
  ⟨Attr.fluidWagon, false, true, [fluidWagonInit, orientationMixinInit]⟩

/-- `/repo/draftsman/prototypes/furnace.py:27`: the class with the constructors in the order of method resolution. -/
def furnace : Kind :=
  ⟨Attr.furnace, true, false, [furnaceInit, inputIngredientsMixinInit, burnerEnergySourceMixinInit, modulesMixinInit, requestItemsMixinInit, directionalMixinInit]⟩

/-- `/repo/draftsman/prototypes/fusion_generator.py:15`: the class with the constructors in the order of method resolution. -/
def fusionGenerator : Kind :=
  ⟨Attr.fusionGenerator, true, false, [fusionGeneratorInit, directionalMixinInit]⟩

/-- `/repo/draftsman/prototypes/gate.py:15`: the class with the constructors in the order of method resolution. -/
def gate : Kind :=
  ⟨Attr.gate, true, false, [gateInit, directionalMixinInit]⟩

/-- `/repo/draftsman/prototypes/generator.py:16`: the class with the constructors in the order of method resolution. -/
def generator : Kind :=
  ⟨Attr.generator, true, false, [generatorInit, directionalMixinInit]⟩

/-- `/repo/draftsman/prototypes/heat_interface.py:16`: the class with the constructors in the order of method resolution. -/
def heatInterface : Kind :=
  ⟨Attr.heatInterface, false, false, [heatInterfaceInit]⟩

/-- `/repo/draftsman/prototypes/heat_pipe.py:14`: the class with the constructors in the order of method resolution. -/
def heatPipe : Kind :=
  ⟨Attr.heatPipe, false, false, [heatPipeInit]⟩

/-- `/repo/draftsman/prototypes/infinity_container.py:20`: the class with the constructors in the order of method resolution. -/
def infinityContainer : Kind :=
  ⟨Attr.infinityContainer, false, false, [infinityContainerInit, requestItemsMixinInit, inventoryMixinInit]⟩

/-- `/repo/draftsman/prototypes/infinity_pipe.py:18`: the class with the constructors in the order of method resolution. -/
def infinityPipe : Kind :=
  ⟨Attr.infinityPipe, false, false, [infinityPipeInit]⟩

/-- `/repo/draftsman/prototypes/inserter.py:28`: the class with the constructors in the order of method resolution. -/
def inserter : Kind :=
  ⟨Attr.inserter, true, false, [inserterInit, filtersMixinInit, stackSizeMixinInit, controlBehaviorMixinInit, directionalMixinInit]⟩

/-- `/repo/draftsman/prototypes/lab.py:19`: the class with the constructors in the order of method resolution. -/
def lab : Kind :=
  ⟨Attr.lab, false, false, [labInit, modulesMixinInit, requestItemsMixinInit]⟩

/-- `/repo/draftsman/prototypes/lamp.py:21`: the class with the constructors in the order of method resolution. -/
def lamp : Kind :=
  ⟨Attr.lamp, false, false, [lampInit, controlBehaviorMixinInit]⟩

/-- `/repo/draftsman/prototypes/land_mine.py:14`: the class with the constructors in the order of method resolution. -/
def landMine : Kind :=
  ⟨Attr.landMine, false, false, [landMineInit]⟩

/-- `/repo/draftsman/prototypes/legacy_curved_rail.py:51`: the class with the constructors in the order of method resolution. -/
def legacyCurvedRail : Kind :=
  ⟨Attr.legacyCurvedRail, true, false, [legacyCurvedRailInit, eightWayDirectionalMixinInit]⟩

/-- `/repo/draftsman/prototypes/legacy_straight_rail.py:45`: the class with the constructors in the order of method resolution. -/
def legacyStraightRail : Kind :=
  ⟨Attr.legacyStraightRail, true, false, [legacyStraightRailInit, eightWayDirectionalMixinInit]⟩

/-- `/repo/draftsman/prototypes/lightning_attractor.py:14`: the class with the constructors in the order of method resolution. -/
def lightningAttractor : Kind :=
  ⟨Attr.lightningAttractor, false, false, [lightningAttractorInit]⟩

/-- `/repo/draftsman/prototypes/linked_belt.py:15`: the class with the constructors in the order of method resolution. -/
def linkedBelt : Kind :=
  ⟨Attr.linkedBelt, true, false, [linkedBeltInit, directionalMixinInit]⟩

/-- `/repo/draftsman/prototypes/linked_container.py:17`: the class with the constructors in the order of method resolution. -/
def linkedContainer : Kind :=
  ⟨Attr.linkedContainer, false, false, [linkedContainerInit, inventoryMixinInit, requestItemsMixinInit]⟩

/-- `/repo/draftsman/prototypes/loader.py:16`: the class with the constructors in the order of method resolution. -/
def loader : Kind :=
  ⟨Attr.loader, true, false, [loaderInit, filtersMixinInit, iOTypeMixinInit, directionalMixinInit]⟩

/-- `/repo/draftsman/prototypes/locomotive.py:21`: the class with the constructors in the order of method resolution. -/
def locomotive : Kind :=
  ⟨Attr.locomotive, false, true, [locomotiveInit, equipmentGridMixinInit, requestItemsMixinInit, colorMixinInit, orientationMixinInit]⟩

/-- `/repo/draftsman/prototypes/logistic_active_container.py:24`: the class with the constructors in the order of method resolution. -/
def logisticActiveContainer : Kind :=
  ⟨Attr.logisticActiveContainer, false, false, [logisticActiveContainerInit, inventoryMixinInit, requestItemsMixinInit, controlBehaviorMixinInit]⟩

/-- `/repo/draftsman/prototypes/logistic_buffer_container.py:29`: the class with the constructors in the order of method resolution. -/
def logisticBufferContainer : Kind :=
  ⟨Attr.logisticBufferContainer, false, false, [logisticBufferContainerInit, inventoryMixinInit, requestItemsMixinInit, controlBehaviorMixinInit, requestFiltersMixinInit]⟩

/-- `/repo/draftsman/prototypes/logistic_passive_container.py:24`: the class with the constructors in the order of method resolution. -/
def logisticPassiveContainer : Kind :=
  ⟨Attr.logisticPassiveContainer, false, false, [logisticPassiveContainerInit, inventoryMixinInit, requestItemsMixinInit, controlBehaviorMixinInit]⟩

/-- `/repo/draftsman/prototypes/logistic_request_container.py:29`: the class with the constructors in the order of method resolution. -/
def logisticRequestContainer : Kind :=
  ⟨Attr.logisticRequestContainer, false, false, [logisticRequestContainerInit, inventoryMixinInit, requestItemsMixinInit, controlBehaviorMixinInit, requestFiltersMixinInit]⟩

/-- `/repo/draftsman/prototypes/logistic_storage_container.py:24`: the class with the constructors in the order of method resolution. -/
def logisticStorageContainer : Kind :=
  ⟨Attr.logisticStorageContainer, false, false, [logisticStorageContainerInit, inventoryMixinInit, requestItemsMixinInit, controlBehaviorMixinInit, requestFiltersMixinInit]⟩

/-- `/repo/draftsman/prototypes/mining_drill.py:27`: the class with the constructors in the order of method resolution. -/
def miningDrill : Kind :=
  ⟨Attr.miningDrill, true, false, [miningDrillInit, burnerEnergySourceMixinInit, modulesMixinInit, requestItemsMixinInit, controlBehaviorMixinInit, directionalMixinInit]⟩

/-- `/repo/draftsman/prototypes/offshore_pump.py:22`: the class with the constructors in the order of method resolution. -/
def offshorePump : Kind :=
  ⟨Attr.offshorePump, true, false, [offshorePumpInit, controlBehaviorMixinInit, directionalMixinInit]⟩

/-- `/repo/draftsman/prototypes/pipe.py:14`: the class with the constructors in the order of method resolution. -/
def pipe : Kind :=
  ⟨Attr.pipe, false, false, [pipeInit]⟩

/-- `/repo/draftsman/prototypes/player_port.py:14`: the class with the constructors in the order of method resolution. -/
def playerPort : Kind :=
  ⟨Attr.playerPort, false, false, [playerPortInit]⟩

/-- `/repo/draftsman/prototypes/power_switch.py:25`: the class with the constructors in the order of method resolution. -/
def powerSwitch : Kind :=
  ⟨Attr.powerSwitch, false, false, [powerSwitchInit, controlBehaviorMixinInit, powerConnectableMixinInit]⟩

/-- `/repo/draftsman/prototypes/programmable_speaker.py:33`: the class with the constructors in the order of method resolution. -/
def programmableSpeaker : Kind :=
  ⟨Attr.programmableSpeaker, false, false, [programmableSpeakerInit, controlBehaviorMixinInit]⟩

/-- `/repo/draftsman/prototypes/pump.py:21`: the class with the constructors in the order of method resolution. -/
def pump : Kind :=
  ⟨Attr.pump, true, false, [pumpInit, controlBehaviorMixinInit, directionalMixinInit]⟩

/-- `/repo/draftsman/prototypes/radar.py:15`: the class with the constructors in the order of method resolution. -/
def radar : Kind :=
  ⟨Attr.radar, false, false, [radarInit]⟩

/-- `/repo/draftsman/prototypes/rail_chain_signal.py:22`: the class with the constructors in the order of method resolution. -/
def railChainSignal : Kind :=
  ⟨Attr.railChainSignal, true, false, [railChainSignalInit, controlBehaviorMixinInit, eightWayDirectionalMixinInit]⟩

/-- `/repo/draftsman/prototypes/rail_ramp.py:15`: the class with the constructors in the order of method resolution. -/
def railRamp : Kind :=
  ⟨Attr.railRamp, true, false, [railRampInit, eightWayDirectionalMixinInit]⟩

/-- `/repo/draftsman/prototypes/rail_signal.py:24`: the class with the constructors in the order of method resolution. -/
def railSignal : Kind :=
  ⟨Attr.railSignal, true, false, [railSignalInit, controlBehaviorMixinInit, eightWayDirectionalMixinInit]⟩

/-- `/repo/draftsman/prototypes/reactor.py:22`: the class with the constructors in the order of method resolution. -/
def reactor : Kind :=
  ⟨Attr.reactor, false, false, [reactorInit, burnerEnergySourceMixinInit, requestItemsMixinInit, controlBehaviorMixinInit]⟩

/-- `/repo/draftsman/prototypes/roboport.py:20`: the class with the constructors in the order of method resolution. -/
def roboport : Kind :=
  ⟨Attr.roboport, false, false, [roboportInit, controlBehaviorMixinInit]⟩

/-- `/repo/draftsman/prototypes/rocket_silo.py:23`: the class with the constructors in the order of method resolution. -/
def rocketSilo : Kind :=
  ⟨Attr.rocketSilo, false, false, [rocketSiloInit, modulesMixinInit, requestItemsMixinInit, controlBehaviorMixinInit, recipeMixinInit]⟩

/-- `/repo/draftsman/prototypes/selector_combinator.py:22`: the class with the constructors in the order of method resolution. -/
def selectorCombinator : Kind :=
  ⟨Attr.selectorCombinator, true, false, [selectorCombinatorInit, playerDescriptionMixinInit, controlBehaviorMixinInit, directionalMixinInit]⟩

/-- `/repo/draftsman/prototypes/simple_entity_with_force.py:17`: the class with the constructors in the order of method resolution. -/
def simpleEntityWithForce : Kind :=
  ⟨Attr.simpleEntityWithForce, true, false, [simpleEntityWithForceInit, directionalMixinInit]⟩

/-- `/repo/draftsman/prototypes/simple_entity_with_owner.py:17`: the class with the constructors in the order of method resolution. -/
def simpleEntityWithOwner : Kind :=
  ⟨Attr.simpleEntityWithOwner, true, false, [simpleEntityWithOwnerInit, directionalMixinInit]⟩

/-- `/repo/draftsman/prototypes/solar_panel.py:14`: the class with the constructors in the order of method resolution. -/
def solarPanel : Kind :=
  ⟨Attr.solarPanel, false, false, [solarPanelInit]⟩

/-- `/repo/draftsman/prototypes/space_platform_hub.py:21`: the class with the constructors in the order of method resolution. -/
def spacePlatformHub : Kind :=
  ⟨Attr.spacePlatformHub, false, false, [spacePlatformHubInit, requestFiltersMixinInit, controlBehaviorMixinInit]⟩

/-- `/repo/draftsman/prototypes/spider_vehicle.py:23`: the class with the constructors in the order of method resolution. -/
def spiderVehicle : Kind :=
  ⟨Attr.spiderVehicle, false, true, [spiderVehicleInit, vehicleMixinInit, equipmentGridMixinInit, requestFiltersMixinInit, requestItemsMixinInit, orientationMixinInit]⟩

/-- `/repo/draftsman/prototypes/splitter.py:22`: the class with the constructors in the order of method resolution. -/
def splitter : Kind :=
  ⟨Attr.splitter, true, false, [splitterInit, directionalMixinInit]⟩

/-- `/repo/draftsman/prototypes/storage_tank.py:17`: the class with the constructors in the order of method resolution. -/
def storageTank : Kind :=
  ⟨Attr.storageTank, true, false, [storageTankInit, directionalMixinInit]⟩

/-- `/repo/draftsman/prototypes/straight_rail.py:45`: the class with the constructors in the order of method resolution. -/
def straightRail : Kind :=
  ⟨Attr.straightRail, true, false, [straightRailInit, eightWayDirectionalMixinInit]⟩

/-- `/repo/draftsman/prototypes/thruster.py:14`: the class with the constructors in the order of method resolution. -/
def thruster : Kind :=
  ⟨Attr.thruster, false, false, [thrusterInit]⟩

/-- `/repo/draftsman/prototypes/train_stop.py:29`: the class with the constructors in the order of method resolution. -/
def trainStop : Kind :=
  ⟨Attr.trainStop, true, false, [trainStopInit, colorMixinInit, controlBehaviorMixinInit, directionalMixinInit]⟩

/-- `/repo/draftsman/prototypes/transport_belt.py:24`: the class with the constructors in the order of method resolution. -/
def transportBelt : Kind :=
  ⟨Attr.transportBelt, true, false, [transportBeltInit, controlBehaviorMixinInit, directionalMixinInit]⟩

/-- `/repo/draftsman/prototypes/turret.py:16`: the class with the constructors in the order of method resolution. -/
def turret : Kind :=
  ⟨Attr.turret, true, false, [turretInit, requestItemsMixinInit, directionalMixinInit]⟩

/-- `/repo/draftsman/prototypes/underground_belt.py:15`: the class with the constructors in the order of method resolution. -/
def undergroundBelt : Kind :=
  ⟨Attr.undergroundBelt, true, false, [undergroundBeltInit, iOTypeMixinInit, directionalMixinInit]⟩

/-- `/repo/draftsman/prototypes/underground_pipe.py:15`: the class with the constructors in the order of method resolution. -/
def undergroundPipe : Kind :=
  ⟨Attr.undergroundPipe, true, false, [undergroundPipeInit, directionalMixinInit]⟩

/-- `/repo/draftsman/prototypes/wall.py:22`: the class with the constructors in the order of method resolution. -/
def wall : Kind :=
  ⟨Attr.wall, false, false, [wallInit, controlBehaviorMixinInit]⟩

/-- The classes derived from `Entity`, imported by `/repo/draftsman/entity.py`. -/
def kinds : List Kind := [accumulator, agriculturalTower, ammoTurret, arithmeticCombinator, artilleryTurret, artilleryWagon, assemblingMachine, asteroidCollector,
  beacon, boiler, burnerGenerator, car, cargoLandingPad, cargoWagon, constantCombinator, container,
  curvedRailA, curvedRailB, deciderCombinator, displayPanel, electricEnergyInterface, electricPole, electricTurret, elevatedCurvedRailA,
  elevatedCurvedRailB, elevatedHalfDiagonalRail, elevatedStraightRail, fluidTurret, fluidWagon, furnace, fusionGenerator, gate,
  generator, heatInterface, heatPipe, infinityContainer, infinityPipe, inserter, lab, lamp,
  landMine, legacyCurvedRail, legacyStraightRail, lightningAttractor, linkedBelt, linkedContainer, loader, locomotive,
  logisticActiveContainer, logisticBufferContainer, logisticPassiveContainer, logisticRequestContainer, logisticStorageContainer, miningDrill, offshorePump, pipe,
  playerPort, powerSwitch, programmableSpeaker, pump, radar, railChainSignal, railRamp, railSignal,
  reactor, roboport, rocketSilo, selectorCombinator, simpleEntityWithForce, simpleEntityWithOwner, solarPanel, spacePlatformHub,
  spiderVehicle, splitter, storageTank, straightRail, thruster, trainStop, transportBelt, turret,
  undergroundBelt, undergroundPipe, wall]

/-- Those that are not: `/repo/draftsman/prototypes/cargo_bay.py:16`, `/repo/draftsman/prototypes/fusion_reactor.py:15`, `/repo/draftsman/prototypes/half_diagonal_rail.py:15`, `/repo/draftsman/prototypes/rail_support.py:15`. -/
def orphans : List Layer := [cargoBayInit, fusionReactorInit, halfDiagonalRailInit, railSupportInit]

end Ctor
end Draftsman
