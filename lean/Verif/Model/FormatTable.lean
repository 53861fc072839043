/-
The defaults that the formats of entities declare for their fields.  Written by `tools/format_table.py` from the text of `/repo`; each row cites
the format it was read from.  A default is the text in the source; `none` is a field without one.
-/
namespace Draftsman
namespace Ctor

/-- `/repo/draftsman/prototypes/accumulator.py:23-39`. -/
def accumulatorFormat : List (String × Option String) := [("control_behavior", some "ControlBehavior()")]

/-- `/repo/draftsman/prototypes/agricultural_tower.py:32-54`. -/
def agriculturalTowerFormat : List (String × Option String) := [("control_behavior", some "ControlBehavior()")]

/-- `/repo/draftsman/prototypes/ammo_turret.py:43-67`. -/
def ammoTurretFormat : List (String × Option String) := [("control_behavior", some "ControlBehavior()")]

/-- `/repo/draftsman/prototypes/arithmetic_combinator.py:41-220`. -/
def arithmeticCombinatorFormat : List (String × Option String) := [("control_behavior", some "ControlBehavior()")]

/-- `/repo/draftsman/classes/mixins/artillery_auto_target.py:15-22`. -/
def artilleryAutoTargetMixinFormat : List (String × Option String) := [("artillery_auto_targeting", some "True")]

/-- `/repo/draftsman/prototypes/artillery_turret.py:46-69`. -/
def artilleryTurretFormat : List (String × Option String) := [("control_behavior", some "ControlBehavior()")]

/-- `/repo/draftsman/prototypes/artillery_wagon.py:32-39`. -/
def artilleryWagonFormat : List (String × Option String) := []

/-- `/repo/draftsman/prototypes/assembling_machine.py:40-84`. -/
def assemblingMachineFormat : List (String × Option String) := []

/-- `/repo/draftsman/prototypes/asteroid_collector.py:37-93`. -/
def asteroidCollectorFormat : List (String × Option String) := [("control_behavior", some "ControlBehavior()"), ("result_inventory", some "None"), ("chunk_filter", some "[]")]

/-- `/repo/draftsman/prototypes/beacon.py:25-30`. -/
def beaconFormat : List (String × Option String) := []

/-- `/repo/draftsman/prototypes/boiler.py:23-24`. -/
def boilerFormat : List (String × Option String) := []

/-- `/repo/draftsman/classes/mixins/burner_energy_source.py:28-68`. -/
def burnerEnergySourceMixinFormat : List (String × Option String) := []

/-- `/repo/draftsman/prototypes/burner_generator.py:29-67`. -/
def burnerGeneratorFormat : List (String × Option String) := []

/-- `/repo/draftsman/prototypes/car.py:29-36`. -/
def carFormat : List (String × Option String) := []

/-- `/repo/draftsman/prototypes/cargo_bay.py:23-24`. -/
def cargoBayFormat : List (String × Option String) := []

/-- `/repo/draftsman/classes/mixins/mode_of_operation.py:123-124`. -/
def cargoHubModeOfOperationMixinFormat : List (String × Option String) := []

/-- `/repo/draftsman/prototypes/cargo_landing_pad.py:32-46`. -/
def cargoLandingPadFormat : List (String × Option String) := [("control_behavior", some "ControlBehavior()")]

/-- `/repo/draftsman/prototypes/cargo_wagon.py:32-39`. -/
def cargoWagonFormat : List (String × Option String) := []

/-- `/repo/draftsman/classes/mixins/circuit_condition.py:33-34`. -/
def circuitConditionMixinFormat : List (String × Option String) := []

/-- `/repo/draftsman/classes/mixins/circuit_connectable.py:22-33`. -/
def circuitConnectableMixinFormat : List (String × Option String) := []

/-- `/repo/draftsman/classes/mixins/circuit_enable.py:27-28`. -/
def circuitEnableMixinFormat : List (String × Option String) := []

/-- `/repo/draftsman/classes/mixins/circuit_read_contents.py:37-38`. -/
def circuitReadContentsMixinFormat : List (String × Option String) := []

/-- `/repo/draftsman/classes/mixins/circuit_read_hand.py:37-38`. -/
def circuitReadHandMixinFormat : List (String × Option String) := []

/-- `/repo/draftsman/classes/mixins/circuit_read_resource.py:38-39`. -/
def circuitReadResourceMixinFormat : List (String × Option String) := []

/-- `/repo/draftsman/classes/mixins/circuit_set_filters.py:24-25`. -/
def circuitSetFiltersMixinFormat : List (String × Option String) := []

/-- `/repo/draftsman/classes/mixins/color.py:26-32`. -/
def colorMixinFormat : List (String × Option String) := [("color", some "None")]

/-- `/repo/draftsman/prototypes/constant_combinator.py:44-98`. -/
def constantCombinatorFormat : List (String × Option String) := [("control_behavior", some "ControlBehavior()")]

/-- `/repo/draftsman/prototypes/container.py:25-31`. -/
def containerFormat : List (String × Option String) := []

/-- `/repo/draftsman/classes/mixins/control_behavior.py:48-53`. -/
def controlBehaviorMixinFormat : List (String × Option String) := []

/-- `/repo/draftsman/prototypes/curved_rail_a.py:20-23`. -/
def curvedRailAFormat : List (String × Option String) := []

/-- `/repo/draftsman/prototypes/curved_rail_b.py:20-23`. -/
def curvedRailBFormat : List (String × Option String) := []

/-- `/repo/draftsman/prototypes/decider_combinator.py:384-464`. -/
def deciderCombinatorFormat : List (String × Option String) := [("control_behavior", some "ControlBehavior()")]

/-- `/repo/draftsman/prototypes/decider_combinator.py:91-100`. -/
def deciderConditionFormat : List (String × Option String) := [("compare_type", some "'or'")]

/-- `/repo/draftsman/prototypes/decider_combinator.py:222-244`. -/
def deciderOutputFormat : List (String × Option String) := [("signal", none), ("copy_count_from_input", some "True"), ("networks", some "NetworkSpecification(red=True, green=True)"), ("constant", some "1")]

/-- `/repo/draftsman/classes/mixins/directional.py:36-73`. -/
def directionalMixinFormat : List (String × Option String) := [("direction", some "Direction.NORTH")]

/-- `/repo/draftsman/prototypes/display_panel.py:28-64`. -/
def displayPanelFormat : List (String × Option String) := [("control_behavior", some "ControlBehavior()"), ("text", some "''"), ("icon", some "None"), ("always_show", some "False"),
  ("show_in_chart", some "False")]

/-- `/repo/draftsman/classes/mixins/double_grid_aligned.py:20-44`. -/
def doubleGridAlignedMixinFormat : List (String × Option String) := []

/-- `/repo/draftsman/classes/mixins/eight_way_directional.py:37-47`. -/
def eightWayDirectionalMixinFormat : List (String × Option String) := [("direction", some "Direction.NORTH")]

/-- `/repo/draftsman/prototypes/electric_energy_interface.py:26-51`. -/
def electricEnergyInterfaceFormat : List (String × Option String) := [("buffer_size", some "None"), ("power_production", some "None"), ("power_usage", some "None")]

/-- `/repo/draftsman/prototypes/electric_pole.py:22-25`. -/
def electricPoleFormat : List (String × Option String) := []

/-- `/repo/draftsman/prototypes/electric_turret.py:43-67`. -/
def electricTurretFormat : List (String × Option String) := [("control_behavior", some "ControlBehavior()")]

/-- `/repo/draftsman/prototypes/elevated_curved_rail_a.py:20-23`. -/
def elevatedCurvedRailAFormat : List (String × Option String) := []

/-- `/repo/draftsman/prototypes/elevated_curved_rail_b.py:20-23`. -/
def elevatedCurvedRailBFormat : List (String × Option String) := []

/-- `/repo/draftsman/prototypes/elevated_half_diagonal_rail.py:22-25`. -/
def elevatedHalfDiagonalRailFormat : List (String × Option String) := []

/-- `/repo/draftsman/prototypes/elevated_straight_rail.py:20-23`. -/
def elevatedStraightRailFormat : List (String × Option String) := []

/-- `/repo/draftsman/classes/entity.py:93-196`. -/
def entityFormat : List (String × Option String) := [("name", none), ("quality", some "'normal'"), ("position", none), ("entity_number", none), ("tags", some "{}")]

/-- `/repo/draftsman/classes/mixins/equipment_grid.py:18-32`. -/
def equipmentGridMixinFormat : List (String × Option String) := [("enable_logistics_while_moving", some "True"), ("grid", some "[]")]

/-- `/repo/draftsman/classes/mixins/filters.py:17-43`. -/
def filtersMixinFormat : List (String × Option String) := [("use_filters", some "False"), ("filters", some "[]")]

/-- `/repo/draftsman/prototypes/fluid_turret.py:43-67`. -/
def fluidTurretFormat : List (String × Option String) := [("control_behavior", some "ControlBehavior()")]

/-- `/repo/draftsman/prototypes/fluid_wagon.py:21-22`. -/
def fluidWagonFormat : List (String × Option String) := []

/-- `/repo/draftsman/prototypes/furnace.py:39-110`. -/
def furnaceFormat : List (String × Option String) := []

/-- `/repo/draftsman/prototypes/fusion_generator.py:20-21`. -/
def fusionGeneratorFormat : List (String × Option String) := []

/-- `/repo/draftsman/prototypes/fusion_reactor.py:20-21`. -/
def fusionReactorFormat : List (String × Option String) := []

/-- `/repo/draftsman/prototypes/gate.py:20-21`. -/
def gateFormat : List (String × Option String) := []

/-- `/repo/draftsman/prototypes/generator.py:21-22`. -/
def generatorFormat : List (String × Option String) := []

/-- `/repo/draftsman/prototypes/half_diagonal_rail.py:20-23`. -/
def halfDiagonalRailFormat : List (String × Option String) := []

/-- `/repo/draftsman/prototypes/heat_interface.py:21-59`. -/
def heatInterfaceFormat : List (String × Option String) := [("temperature", some "0.0"), ("mode", some "'at-least'")]

/-- `/repo/draftsman/prototypes/heat_pipe.py:19-20`. -/
def heatPipeFormat : List (String × Option String) := []

/-- `/repo/draftsman/classes/mixins/io_type.py:21-29`. -/
def iOTypeMixinFormat : List (String × Option String) := [("io_type", some "'input'")]

/-- `/repo/draftsman/prototypes/infinity_container.py:25-75`. -/
def infinityContainerFormat : List (String × Option String) := [("infinity_settings", some "InfinitySettings()")]

/-- `/repo/draftsman/prototypes/infinity_pipe.py:23-93`. -/
def infinityPipeFormat : List (String × Option String) := [("infinity_settings", some "InfinitySettings()")]

/-- `/repo/draftsman/classes/mixins/input_ingredients.py:12-79`. -/
def inputIngredientsMixinFormat : List (String × Option String) := []

/-- `/repo/draftsman/prototypes/inserter.py:51-112`. -/
def inserterFormat : List (String × Option String) := [("control_behavior", some "ControlBehavior()"), ("pickup_position", some "None"), ("drop_position", some "None"),
  ("filter_mode", some "'whitelist'"), ("spoil_priority", some "None")]

/-- `/repo/draftsman/classes/mixins/mode_of_operation.py:27-28`. -/
def inserterModeOfOperationMixinFormat : List (String × Option String) := []

/-- `/repo/draftsman/classes/mixins/inventory_filter.py:40-83`. -/
def inventoryFilterMixinFormat : List (String × Option String) := [("inventory", some "InventoryFilters()")]

/-- `/repo/draftsman/classes/mixins/inventory.py:31-65`. -/
def inventoryMixinFormat : List (String × Option String) := [("bar", some "None")]

/-- `/repo/draftsman/prototypes/lab.py:24-29`. -/
def labFormat : List (String × Option String) := []

/-- `/repo/draftsman/prototypes/lamp.py:28-65`. -/
def lampFormat : List (String × Option String) := [("control_behavior", some "ControlBehavior()"), ("color", some "Color(r=1, g=1, b=1, a=1)"), ("always_on", some "False")]

/-- `/repo/draftsman/prototypes/land_mine.py:19-20`. -/
def landMineFormat : List (String × Option String) := []

/-- `/repo/draftsman/prototypes/legacy_curved_rail.py:56-59`. -/
def legacyCurvedRailFormat : List (String × Option String) := []

/-- `/repo/draftsman/prototypes/legacy_straight_rail.py:50-53`. -/
def legacyStraightRailFormat : List (String × Option String) := []

/-- `/repo/draftsman/prototypes/lightning_attractor.py:20-21`. -/
def lightningAttractorFormat : List (String × Option String) := []

/-- `/repo/draftsman/prototypes/linked_belt.py:26-27`. -/
def linkedBeltFormat : List (String × Option String) := []

/-- `/repo/draftsman/prototypes/linked_container.py:23-44`. -/
def linkedContainerFormat : List (String × Option String) := [("link_id", some "0")]

/-- `/repo/draftsman/prototypes/loader.py:22-28`. -/
def loaderFormat : List (String × Option String) := []

/-- `/repo/draftsman/prototypes/locomotive.py:28-35`. -/
def locomotiveFormat : List (String × Option String) := []

/-- `/repo/draftsman/prototypes/logistic_active_container.py:38-55`. -/
def logisticActiveContainerFormat : List (String × Option String) := [("control_behavior", some "ControlBehavior()")]

/-- `/repo/draftsman/prototypes/logistic_buffer_container.py:43-62`. -/
def logisticBufferContainerFormat : List (String × Option String) := [("control_behavior", some "ControlBehavior()")]

/-- `/repo/draftsman/classes/mixins/logistic_condition.py:34-35`. -/
def logisticConditionMixinFormat : List (String × Option String) := []

/-- `/repo/draftsman/classes/mixins/mode_of_operation.py:75-76`. -/
def logisticModeOfOperationMixinFormat : List (String × Option String) := []

/-- `/repo/draftsman/prototypes/logistic_passive_container.py:38-55`. -/
def logisticPassiveContainerFormat : List (String × Option String) := [("control_behavior", some "ControlBehavior()")]

/-- `/repo/draftsman/prototypes/logistic_request_container.py:43-74`. -/
def logisticRequestContainerFormat : List (String × Option String) := [("control_behavior", some "ControlBehavior()"), ("request_filters", some "LogisticsRequestFilters()")]

/-- `/repo/draftsman/prototypes/logistic_storage_container.py:39-57`. -/
def logisticStorageContainerFormat : List (String × Option String) := [("control_behavior", some "ControlBehavior()")]

/-- `/repo/draftsman/prototypes/mining_drill.py:44-68`. -/
def miningDrillFormat : List (String × Option String) := [("control_behavior", some "ControlBehavior()")]

/-- `/repo/draftsman/classes/mixins/modules.py:20-89`. -/
def modulesMixinFormat : List (String × Option String) := []

/-- `/repo/draftsman/prototypes/offshore_pump.py:34-51`. -/
def offshorePumpFormat : List (String × Option String) := [("control_behavior", some "ControlBehavior()")]

/-- `/repo/draftsman/classes/mixins/orientation.py:24-32`. -/
def orientationMixinFormat : List (String × Option String) := [("orientation", some "Orientation.NORTH")]

/-- `/repo/draftsman/prototypes/pipe.py:19-20`. -/
def pipeFormat : List (String × Option String) := []

/-- `/repo/draftsman/classes/mixins/player_description.py:16-23`. -/
def playerDescriptionMixinFormat : List (String × Option String) := [("player_description", some "None")]

/-- `/repo/draftsman/prototypes/player_port.py:19-20`. -/
def playerPortFormat : List (String × Option String) := []

/-- `/repo/draftsman/classes/mixins/power_connectable.py:16-26`. -/
def powerConnectableMixinFormat : List (String × Option String) := []

/-- `/repo/draftsman/prototypes/power_switch.py:38-63`. -/
def powerSwitchFormat : List (String × Option String) := [("control_behavior", some "ControlBehavior()"), ("switch_state", some "False")]

/-- `/repo/draftsman/prototypes/programmable_speaker.py:45-331`. -/
def programmableSpeakerFormat : List (String × Option String) := [("control_behavior", some "ControlBehavior()"), ("parameters", some "Parameters()"), ("alert_parameters", some "AlertParameters()")]

/-- `/repo/draftsman/prototypes/pump.py:32-44`. -/
def pumpFormat : List (String × Option String) := [("control_behavior", some "ControlBehavior()")]

/-- `/repo/draftsman/prototypes/radar.py:20-21`. -/
def radarFormat : List (String × Option String) := []

/-- `/repo/draftsman/prototypes/rail_chain_signal.py:34-51`. -/
def railChainSignalFormat : List (String × Option String) := [("control_behavior", some "ControlBehavior()")]

/-- `/repo/draftsman/prototypes/rail_ramp.py:20-23`. -/
def railRampFormat : List (String × Option String) := []

/-- `/repo/draftsman/prototypes/rail_signal.py:38-70`. -/
def railSignalFormat : List (String × Option String) := [("control_behavior", some "ControlBehavior()")]

/-- `/repo/draftsman/prototypes/rail_support.py:20-23`. -/
def railSupportFormat : List (String × Option String) := []

/-- `/repo/draftsman/prototypes/reactor.py:33-56`. -/
def reactorFormat : List (String × Option String) := [("control_behavior", some "ControlBehavior()")]

/-- `/repo/draftsman/classes/mixins/read_ammo.py:25-26`. -/
def readAmmoMixinFormat : List (String × Option String) := []

/-- `/repo/draftsman/classes/mixins/read_rail_signal.py:37-38`. -/
def readRailSignalMixinFormat : List (String × Option String) := []

/-- `/repo/draftsman/classes/mixins/recipe.py:27-112`. -/
def recipeMixinFormat : List (String × Option String) := [("recipe", some "None"), ("recipe_quality", some "'normal'")]

/-- `/repo/draftsman/classes/mixins/request_filters.py:23-41`. -/
def requestFiltersMixinFormat : List (String × Option String) := [("request_filters", some "RequestFilters()")]

/-- `/repo/draftsman/classes/mixins/request_items.py:32-40`. -/
def requestItemsMixinFormat : List (String × Option String) := [("items", some "[]")]

/-- `/repo/draftsman/prototypes/roboport.py:25-73`. -/
def roboportFormat : List (String × Option String) := [("control_behavior", some "ControlBehavior()")]

/-- `/repo/draftsman/prototypes/rocket_silo.py:35-60`. -/
def rocketSiloFormat : List (String × Option String) := [("control_behavior", some "ControlBehavior()"), ("transitional_request_index", some "0")]

/-- `/repo/draftsman/prototypes/selector_combinator.py:33-104`. -/
def selectorCombinatorFormat : List (String × Option String) := [("control_behavior", some "ControlBehavior()")]

/-- `/repo/draftsman/prototypes/simple_entity_with_force.py:22-32`. -/
def simpleEntityWithForceFormat : List (String × Option String) := [("variation", some "1")]

/-- `/repo/draftsman/prototypes/simple_entity_with_owner.py:22-32`. -/
def simpleEntityWithOwnerFormat : List (String × Option String) := [("variation", some "1")]

/-- `/repo/draftsman/prototypes/solar_panel.py:19-20`. -/
def solarPanelFormat : List (String × Option String) := []

/-- `/repo/draftsman/prototypes/space_platform_hub.py:28-75`. -/
def spacePlatformHubFormat : List (String × Option String) := [("control_behavior", some "ControlBehavior()"), ("request_missing_construction_materials", some "True")]

/-- `/repo/draftsman/prototypes/spider_vehicle.py:35-74`. -/
def spiderVehicleFormat : List (String × Option String) := [("automatic_targeting_parameters", some "AutoTargetParameters()"), ("request_filters", some "RequestFilters()")]

/-- `/repo/draftsman/prototypes/splitter.py:28-54`. -/
def splitterFormat : List (String × Option String) := [("input_priority", some "'none'"), ("output_priority", some "'none'"), ("filter", some "None")]

/-- `/repo/draftsman/classes/mixins/stack_size.py:43-50`. -/
def stackSizeMixinFormat : List (String × Option String) := [("override_stack_size", some "None")]

/-- `/repo/draftsman/prototypes/storage_tank.py:22-27`. -/
def storageTankFormat : List (String × Option String) := []

/-- `/repo/draftsman/prototypes/straight_rail.py:50-53`. -/
def straightRailFormat : List (String × Option String) := []

/-- `/repo/draftsman/classes/mixins/target_priorities.py:42-70`. -/
def targetPrioritiesMixinFormat : List (String × Option String) := [("priority_list", some "[]"), ("ignore_unprioritized", some "False")]

/-- `/repo/draftsman/prototypes/thruster.py:19-20`. -/
def thrusterFormat : List (String × Option String) := []

/-- `/repo/draftsman/prototypes/train_stop.py:44-135`. -/
def trainStopFormat : List (String × Option String) := [("control_behavior", some "ControlBehavior()"), ("station", some "None"), ("manual_trains_limit", some "None")]

/-- `/repo/draftsman/prototypes/transport_belt.py:38-58`. -/
def transportBeltFormat : List (String × Option String) := [("control_behavior", some "ControlBehavior()")]

/-- `/repo/draftsman/prototypes/turret.py:23-24`. -/
def turretFormat : List (String × Option String) := []

/-- `/repo/draftsman/prototypes/underground_belt.py:20-21`. -/
def undergroundBeltFormat : List (String × Option String) := []

/-- `/repo/draftsman/prototypes/underground_pipe.py:20-21`. -/
def undergroundPipeFormat : List (String × Option String) := []

/-- `/repo/draftsman/classes/mixins/vehicle.py:15-25`. -/
def vehicleMixinFormat : List (String × Option String) := [("trunk_inventory", some "None"), ("ammo_inventory", some "None"), ("driver_is_main_gunner", some "True"), ("selected_gun_index", some "1")]

/-- `/repo/draftsman/prototypes/wall.py:33-70`. -/
def wallFormat : List (String × Option String) := [("control_behavior", some "ControlBehavior()")]

/-- The formats that make up the one of a class, the most special first: the bases of its `Format`, e.g. `/repo/draftsman/prototypes/lamp.py:27-33`. -/
def formatLayers : List (String × List (List (String × Option String))) := [
  ("Accumulator", [accumulatorFormat, controlBehaviorMixinFormat, circuitConnectableMixinFormat, entityFormat]),
  ("AgriculturalTower", [agriculturalTowerFormat, circuitConditionMixinFormat, logisticConditionMixinFormat, controlBehaviorMixinFormat, circuitConnectableMixinFormat, entityFormat]),
  ("AmmoTurret", [ammoTurretFormat, requestItemsMixinFormat, readAmmoMixinFormat, targetPrioritiesMixinFormat, circuitConditionMixinFormat, logisticConditionMixinFormat, circuitEnableMixinFormat, controlBehaviorMixinFormat, circuitConnectableMixinFormat, directionalMixinFormat, entityFormat]),
  ("ArithmeticCombinator", [arithmeticCombinatorFormat, playerDescriptionMixinFormat, controlBehaviorMixinFormat, circuitConnectableMixinFormat, directionalMixinFormat, entityFormat]),
  ("ArtilleryTurret", [artilleryTurretFormat, artilleryAutoTargetMixinFormat, requestItemsMixinFormat, readAmmoMixinFormat, circuitConditionMixinFormat, logisticConditionMixinFormat, circuitEnableMixinFormat, controlBehaviorMixinFormat, circuitConnectableMixinFormat, directionalMixinFormat, entityFormat]),
  ("ArtilleryWagon", [artilleryWagonFormat, artilleryAutoTargetMixinFormat, equipmentGridMixinFormat, requestItemsMixinFormat, orientationMixinFormat, entityFormat]),
  ("AssemblingMachine", [assemblingMachineFormat, inputIngredientsMixinFormat, modulesMixinFormat, requestItemsMixinFormat, recipeMixinFormat, directionalMixinFormat, entityFormat]),
  ("AsteroidCollector", [asteroidCollectorFormat, circuitSetFiltersMixinFormat, circuitConditionMixinFormat, circuitEnableMixinFormat, controlBehaviorMixinFormat, circuitConnectableMixinFormat, directionalMixinFormat, entityFormat]),
  ("Beacon", [beaconFormat, modulesMixinFormat, requestItemsMixinFormat, entityFormat]),
  ("Boiler", [boilerFormat, requestItemsMixinFormat, directionalMixinFormat, entityFormat]),
  ("BurnerGenerator", [burnerGeneratorFormat, burnerEnergySourceMixinFormat, requestItemsMixinFormat, directionalMixinFormat, entityFormat]),
  ("Car", [carFormat, vehicleMixinFormat, equipmentGridMixinFormat, requestItemsMixinFormat, orientationMixinFormat, entityFormat]),
  ("CargoLandingPad", [cargoLandingPadFormat, requestFiltersMixinFormat, cargoHubModeOfOperationMixinFormat, controlBehaviorMixinFormat, circuitConnectableMixinFormat, entityFormat]),
  ("CargoWagon", [cargoWagonFormat, equipmentGridMixinFormat, requestItemsMixinFormat, inventoryFilterMixinFormat, orientationMixinFormat, entityFormat]),
  ("ConstantCombinator", [constantCombinatorFormat, playerDescriptionMixinFormat, controlBehaviorMixinFormat, circuitConnectableMixinFormat, directionalMixinFormat, entityFormat]),
  ("Container", [containerFormat, inventoryMixinFormat, requestItemsMixinFormat, circuitConnectableMixinFormat, entityFormat]),
  ("CurvedRailA", [curvedRailAFormat, doubleGridAlignedMixinFormat, eightWayDirectionalMixinFormat, entityFormat]),
  ("CurvedRailB", [curvedRailBFormat, doubleGridAlignedMixinFormat, eightWayDirectionalMixinFormat, entityFormat]),
  ("DeciderCombinator", [deciderCombinatorFormat, playerDescriptionMixinFormat, controlBehaviorMixinFormat, circuitConnectableMixinFormat, directionalMixinFormat, entityFormat]),
  ("DisplayPanel", [displayPanelFormat, controlBehaviorMixinFormat, circuitConnectableMixinFormat, directionalMixinFormat, entityFormat]),
  ("ElectricEnergyInterface", [electricEnergyInterfaceFormat, entityFormat]),
  ("ElectricPole", [electricPoleFormat, circuitConnectableMixinFormat, powerConnectableMixinFormat, entityFormat]),
  ("ElectricTurret", [electricTurretFormat, requestItemsMixinFormat, readAmmoMixinFormat, targetPrioritiesMixinFormat, circuitConditionMixinFormat, logisticConditionMixinFormat, circuitEnableMixinFormat, controlBehaviorMixinFormat, circuitConnectableMixinFormat, directionalMixinFormat, entityFormat]),
  ("ElevatedCurvedRailA", [elevatedCurvedRailAFormat, doubleGridAlignedMixinFormat, eightWayDirectionalMixinFormat, entityFormat]),
  ("ElevatedCurvedRailB", [elevatedCurvedRailBFormat, doubleGridAlignedMixinFormat, eightWayDirectionalMixinFormat, entityFormat]),
  ("ElevatedHalfDiagonalRail", [elevatedHalfDiagonalRailFormat, doubleGridAlignedMixinFormat, eightWayDirectionalMixinFormat, entityFormat]),
  ("ElevatedStraightRail", [elevatedStraightRailFormat, doubleGridAlignedMixinFormat, eightWayDirectionalMixinFormat, entityFormat]),
  ("FluidTurret", [fluidTurretFormat, requestItemsMixinFormat, readAmmoMixinFormat, targetPrioritiesMixinFormat, circuitConditionMixinFormat, logisticConditionMixinFormat, circuitEnableMixinFormat, controlBehaviorMixinFormat, circuitConnectableMixinFormat, directionalMixinFormat, entityFormat]),
  ("FluidWagon", [fluidWagonFormat, equipmentGridMixinFormat, orientationMixinFormat, entityFormat]),
  ("Furnace", [furnaceFormat, inputIngredientsMixinFormat, burnerEnergySourceMixinFormat, modulesMixinFormat, requestItemsMixinFormat, directionalMixinFormat, entityFormat]),
  ("FusionGenerator", [fusionGeneratorFormat, directionalMixinFormat, entityFormat]),
  ("Gate", [gateFormat, directionalMixinFormat, entityFormat]),
  ("Generator", [generatorFormat, directionalMixinFormat, entityFormat]),
  ("HeatInterface", [heatInterfaceFormat, entityFormat]),
  ("HeatPipe", [heatPipeFormat, entityFormat]),
  ("InfinityContainer", [infinityContainerFormat, requestItemsMixinFormat, inventoryMixinFormat, entityFormat]),
  ("InfinityPipe", [infinityPipeFormat, entityFormat]),
  ("Inserter", [inserterFormat, filtersMixinFormat, stackSizeMixinFormat, circuitReadHandMixinFormat, inserterModeOfOperationMixinFormat, circuitConditionMixinFormat, logisticConditionMixinFormat, circuitEnableMixinFormat, controlBehaviorMixinFormat, circuitConnectableMixinFormat, directionalMixinFormat, entityFormat]),
  ("Lab", [labFormat, modulesMixinFormat, requestItemsMixinFormat, entityFormat]),
  ("Lamp", [lampFormat, circuitConditionMixinFormat, controlBehaviorMixinFormat, circuitConnectableMixinFormat, entityFormat]),
  ("LandMine", [landMineFormat, entityFormat]),
  ("LegacyCurvedRail", [legacyCurvedRailFormat, doubleGridAlignedMixinFormat, eightWayDirectionalMixinFormat, entityFormat]),
  ("LegacyStraightRail", [legacyStraightRailFormat, doubleGridAlignedMixinFormat, eightWayDirectionalMixinFormat, entityFormat]),
  ("LightningAttractor", [lightningAttractorFormat, entityFormat]),
  ("LinkedBelt", [linkedBeltFormat, directionalMixinFormat, entityFormat]),
  ("LinkedContainer", [linkedContainerFormat, inventoryMixinFormat, requestItemsMixinFormat, entityFormat]),
  ("Loader", [loaderFormat, filtersMixinFormat, iOTypeMixinFormat, directionalMixinFormat, entityFormat]),
  ("Locomotive", [locomotiveFormat, equipmentGridMixinFormat, requestItemsMixinFormat, colorMixinFormat, orientationMixinFormat, entityFormat]),
  ("LogisticActiveContainer", [logisticActiveContainerFormat, inventoryMixinFormat, requestItemsMixinFormat, logisticModeOfOperationMixinFormat, circuitConditionMixinFormat, controlBehaviorMixinFormat, circuitConnectableMixinFormat, entityFormat]),
  ("LogisticBufferContainer", [logisticBufferContainerFormat, inventoryMixinFormat, requestItemsMixinFormat, logisticModeOfOperationMixinFormat, circuitConditionMixinFormat, controlBehaviorMixinFormat, circuitConnectableMixinFormat, requestFiltersMixinFormat, entityFormat]),
  ("LogisticPassiveContainer", [logisticPassiveContainerFormat, inventoryMixinFormat, requestItemsMixinFormat, logisticModeOfOperationMixinFormat, circuitConditionMixinFormat, controlBehaviorMixinFormat, circuitConnectableMixinFormat, entityFormat]),
  ("LogisticRequestContainer", [logisticRequestContainerFormat, inventoryMixinFormat, requestItemsMixinFormat, logisticModeOfOperationMixinFormat, circuitConditionMixinFormat, controlBehaviorMixinFormat, circuitConnectableMixinFormat, requestFiltersMixinFormat, entityFormat]),
  ("LogisticStorageContainer", [logisticStorageContainerFormat, inventoryMixinFormat, requestItemsMixinFormat, logisticModeOfOperationMixinFormat, circuitConditionMixinFormat, controlBehaviorMixinFormat, circuitConnectableMixinFormat, requestFiltersMixinFormat, entityFormat]),
  ("MiningDrill", [miningDrillFormat, burnerEnergySourceMixinFormat, modulesMixinFormat, requestItemsMixinFormat, circuitReadResourceMixinFormat, circuitConditionMixinFormat, logisticConditionMixinFormat, circuitEnableMixinFormat, controlBehaviorMixinFormat, circuitConnectableMixinFormat, directionalMixinFormat, entityFormat]),
  ("OffshorePump", [offshorePumpFormat, circuitConditionMixinFormat, logisticConditionMixinFormat, controlBehaviorMixinFormat, circuitConnectableMixinFormat, directionalMixinFormat, entityFormat]),
  ("Pipe", [pipeFormat, entityFormat]),
  ("PlayerPort", [playerPortFormat, entityFormat]),
  ("PowerSwitch", [powerSwitchFormat, circuitConditionMixinFormat, logisticConditionMixinFormat, controlBehaviorMixinFormat, circuitConnectableMixinFormat, powerConnectableMixinFormat, entityFormat]),
  ("ProgrammableSpeaker", [programmableSpeakerFormat, circuitConditionMixinFormat, circuitEnableMixinFormat, controlBehaviorMixinFormat, circuitConnectableMixinFormat, entityFormat]),
  ("Pump", [pumpFormat, circuitConditionMixinFormat, controlBehaviorMixinFormat, circuitConnectableMixinFormat, directionalMixinFormat, entityFormat]),
  ("Radar", [radarFormat, circuitConnectableMixinFormat, entityFormat]),
  ("RailChainSignal", [railChainSignalFormat, readRailSignalMixinFormat, controlBehaviorMixinFormat, circuitConnectableMixinFormat, eightWayDirectionalMixinFormat, entityFormat]),
  ("RailRamp", [railRampFormat, doubleGridAlignedMixinFormat, eightWayDirectionalMixinFormat, entityFormat]),
  ("RailSignal", [railSignalFormat, readRailSignalMixinFormat, circuitConditionMixinFormat, circuitEnableMixinFormat, controlBehaviorMixinFormat, circuitConnectableMixinFormat, eightWayDirectionalMixinFormat, entityFormat]),
  ("Reactor", [reactorFormat, burnerEnergySourceMixinFormat, requestItemsMixinFormat, controlBehaviorMixinFormat, circuitConnectableMixinFormat, entityFormat]),
  ("Roboport", [roboportFormat, controlBehaviorMixinFormat, circuitConnectableMixinFormat, entityFormat]),
  ("RocketSilo", [rocketSiloFormat, modulesMixinFormat, requestItemsMixinFormat, controlBehaviorMixinFormat, circuitConnectableMixinFormat, recipeMixinFormat, entityFormat]),
  ("SelectorCombinator", [selectorCombinatorFormat, playerDescriptionMixinFormat, controlBehaviorMixinFormat, circuitConnectableMixinFormat, directionalMixinFormat, entityFormat]),
  ("SimpleEntityWithForce", [simpleEntityWithForceFormat, directionalMixinFormat, entityFormat]),
  ("SimpleEntityWithOwner", [simpleEntityWithOwnerFormat, directionalMixinFormat, entityFormat]),
  ("SolarPanel", [solarPanelFormat, entityFormat]),
  ("SpacePlatformHub", [spacePlatformHubFormat, requestFiltersMixinFormat, controlBehaviorMixinFormat, circuitConnectableMixinFormat, entityFormat]),
  ("SpiderVehicle", [spiderVehicleFormat, vehicleMixinFormat, equipmentGridMixinFormat, requestFiltersMixinFormat, requestItemsMixinFormat, orientationMixinFormat, entityFormat]),
  ("Splitter", [splitterFormat, directionalMixinFormat, entityFormat]),
  ("StorageTank", [storageTankFormat, circuitConnectableMixinFormat, directionalMixinFormat, entityFormat]),
  ("StraightRail", [straightRailFormat, doubleGridAlignedMixinFormat, eightWayDirectionalMixinFormat, entityFormat]),
  ("Thruster", [thrusterFormat, entityFormat]),
  ("TrainStop", [trainStopFormat, colorMixinFormat, circuitConditionMixinFormat, logisticConditionMixinFormat, circuitEnableMixinFormat, controlBehaviorMixinFormat, circuitConnectableMixinFormat, doubleGridAlignedMixinFormat, directionalMixinFormat, entityFormat]),
  ("TransportBelt", [transportBeltFormat, circuitReadContentsMixinFormat, circuitConditionMixinFormat, logisticConditionMixinFormat, circuitEnableMixinFormat, controlBehaviorMixinFormat, circuitConnectableMixinFormat, directionalMixinFormat, entityFormat]),
  ("Turret", [turretFormat, requestItemsMixinFormat, directionalMixinFormat, entityFormat]),
  ("UndergroundBelt", [undergroundBeltFormat, iOTypeMixinFormat, directionalMixinFormat, entityFormat]),
  ("UndergroundPipe", [undergroundPipeFormat, directionalMixinFormat, entityFormat]),
  ("Wall", [wallFormat, circuitConditionMixinFormat, circuitEnableMixinFormat, controlBehaviorMixinFormat, circuitConnectableMixinFormat, entityFormat])]

end Ctor
end Draftsman
