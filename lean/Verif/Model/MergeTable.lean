import Verif.Model.MergeAttr
import Verif.Model.AttrTable
/-
What every entity class merges, compares and hashes.  Written by `tools/merge_table.py` from the text of `/repo`; each part cites the
methods it was read from.  `CargoBay`, `FusionReactor`, `HalfDiagonalRail` and `RailSupport` do not derive from `Entity` and are left out,
as is `FilterInserter`, which is never imported.
-/
namespace Draftsman
namespace MergeAttr
open Attr

/-- `Entity`, `/repo/draftsman/classes/entity.py:742-748, 750-753, 755-762, 764-765`. -/
def entityPart : Part := ⟨[], ["tags"], ["name", "global_position", "id", "tags"], [], some .ident⟩

/-- `ColorMixin`, `/repo/draftsman/classes/mixins/color.py:88-91, 95-96`. -/
def colorMixinPart : Part := ⟨[], ["color"], ["color"], [], some .null⟩

/-- `ControlBehaviorMixin`, `/repo/draftsman/classes/mixins/control_behavior.py:93-96, 172-173`. -/
def controlBehaviorMixinPart : Part := ⟨[], ["control_behavior"], ["control_behavior"], [], some .null⟩

/-- `DirectionalMixin`, `/repo/draftsman/classes/mixins/directional.py:239-241, 245-246`. -/
def directionalMixinPart : Part := ⟨[], [], ["direction"], ["direction"], some .null⟩

/-- `EightWayDirectionalMixin`, `/repo/draftsman/classes/mixins/eight_way_directional.py:196-198, 202-203`. -/
def eightWayDirectionalMixinPart : Part := ⟨[], [], ["direction"], ["direction"], some .null⟩

/-- `FiltersMixin`, `/repo/draftsman/classes/mixins/filters.py:201-204, 208-209`. -/
def filtersMixinPart : Part := ⟨[], ["filters"], ["filters"], [], some .null⟩

/-- `InventoryMixin`, `/repo/draftsman/classes/mixins/inventory.py:209-212, 216-217`. -/
def inventoryMixinPart : Part := ⟨[], ["bar"], ["bar"], [], some .null⟩

/-- `InventoryFilterMixin`, `/repo/draftsman/classes/mixins/inventory_filter.py:326-332, 336-337`. -/
def inventoryFilterMixinPart : Part := ⟨[], ["inventory"], ["inventory"], [], some .null⟩

/-- `IOTypeMixin`, `/repo/draftsman/classes/mixins/io_type.py:75-78, 82-83`. -/
def iOTypeMixinPart : Part := ⟨[], ["io_type"], ["io_type"], [], some .null⟩

/-- `OrientationMixin`, `/repo/draftsman/classes/mixins/orientation.py:106-108, 112-113`. -/
def orientationMixinPart : Part := ⟨[], [], ["orientation"], ["orientation"], some .null⟩

/-- `ReadRailSignalMixin`, `/repo/draftsman/classes/mixins/read_rail_signal.py:159-164`. -/
def readRailSignalMixinPart : Part := ⟨[], ["red_output_signal", "yellow_output_signal", "green_output_signal"], [], [], none⟩

/-- `RecipeMixin`, `/repo/draftsman/classes/mixins/recipe.py:208-211, 215-216`. -/
def recipeMixinPart : Part := ⟨["recipe"], [], ["recipe"], [], some .null⟩

/-- `RequestFiltersMixin`, `/repo/draftsman/classes/mixins/request_filters.py:298-301, 317-318`. -/
def requestFiltersMixinPart : Part := ⟨[], ["request_filters"], ["request_filters"], [], some .null⟩

/-- `RequestItemsMixin`, `/repo/draftsman/classes/mixins/request_items.py:227-230, 234-235`. -/
def requestItemsMixinPart : Part := ⟨[], ["items"], ["items"], [], some .null⟩

/-- `StackSizeMixin`, `/repo/draftsman/classes/mixins/stack_size.py:159-162, 166-170`. -/
def stackSizeMixinPart : Part := ⟨[], ["override_stack_size"], ["override_stack_size"], [], some .null⟩

/-- `Accumulator`, `/repo/draftsman/prototypes/accumulator.py:104, 106-107`. -/
def accumulatorPart : Part := ⟨[], [], ["output_signal"], [], some .ident⟩

/-- `ElectricEnergyInterface`, `/repo/draftsman/prototypes/electric_energy_interface.py:234-239, 243, 245-251`. -/
def electricEnergyInterfacePart : Part := ⟨[], ["buffer_size", "power_production", "power_usage"], ["buffer_size", "power_production", "power_usage"], [], some .ident⟩

/-- `HeatInterface`, `/repo/draftsman/prototypes/heat_interface.py:159-163, 167, 169-174`. -/
def heatInterfacePart : Part := ⟨[], ["temperature", "mode"], ["temperature", "mode"], [], some .ident⟩

/-- `InfinityContainer`, `/repo/draftsman/prototypes/infinity_container.py:228-231, 235, 237-240`. -/
def infinityContainerPart : Part := ⟨[], ["infinity_settings"], ["infinity_settings"], [], some .ident⟩

/-- `InfinityPipe`, `/repo/draftsman/prototypes/infinity_pipe.py:359-362, 366, 368-371`. -/
def infinityPipePart : Part := ⟨[], ["infinity_settings"], ["infinity_settings"], [], some .ident⟩

/-- `Inserter`, `/repo/draftsman/prototypes/inserter.py:284-289, 293`. -/
def inserterPart : Part := ⟨[], ["pickup_position", "drop_position", "filter_mode"], [], [], some .ident⟩

/-- `LinkedContainer`, `/repo/draftsman/prototypes/linked_container.py:133-136, 140, 142-143`. -/
def linkedContainerPart : Part := ⟨[], ["link_id"], ["link_id"], [], some .ident⟩

/-- `PowerSwitch`, `/repo/draftsman/prototypes/power_switch.py:143-146, 150, 152-153`. -/
def powerSwitchPart : Part := ⟨[], ["switch_state"], ["switch_state"], [], some .ident⟩

/-- `ProgrammableSpeaker`, `/repo/draftsman/prototypes/programmable_speaker.py:835-839, 843, 845-850`. -/
def programmableSpeakerPart : Part := ⟨[], ["parameters", "alert_parameters"], ["parameters", "alert_parameters"], [], some .ident⟩

/-- `RocketSilo`, `/repo/draftsman/prototypes/rocket_silo.py:175-179, 183, 185-190`. -/
def rocketSiloPart : Part := ⟨[], ["transitional_request_index"], ["transitional_request_index"], [], some .ident⟩

/-- `Splitter`, `/repo/draftsman/prototypes/splitter.py:175-180, 184, 186-192`. -/
def splitterPart : Part := ⟨[], ["input_priority", "output_priority", "filter"], ["input_priority", "output_priority", "filter"], [], some .ident⟩

/-- `TrainStop`, `/repo/draftsman/prototypes/train_stop.py:411-415, 419, 421-426`. -/
def trainStopPart : Part := ⟨[], ["station", "manual_trains_limit"], ["station", "manual_trains_limit"], [], some .ident⟩

/-- A prototype class that defines nothing of the kind but `__hash__ = Entity.__hash__`, e.g. `/repo/draftsman/prototypes/pipe.py:50`; the rows of `table` have
the line for each. -/
def hashPart : Part := ⟨[], [], [], [], some .ident⟩

/-- The classes with the parts of their bases in the order of method resolution, bases without any part left out; each row cites the
class statement and, for `hashPart`, the line of the hash.  `class X(Mixin, …, Entity)` in `/repo/draftsman/prototypes`. -/
def table : List (Cls × List Part) := [
  (accumulator, [accumulatorPart, controlBehaviorMixinPart, entityPart]),  -- prototypes/accumulator.py:18
  (agriculturalTower, [hashPart, controlBehaviorMixinPart, entityPart]),  -- prototypes/agricultural_tower.py:21, 118
  (ammoTurret, [hashPart, requestItemsMixinPart, controlBehaviorMixinPart, directionalMixinPart, entityPart]),  -- prototypes/ammo_turret.py:26, 103
  (arithmeticCombinator, [hashPart, controlBehaviorMixinPart, directionalMixinPart, entityPart]),  -- prototypes/arithmetic_combinator.py:29, 577
  (artilleryTurret, [hashPart, requestItemsMixinPart, controlBehaviorMixinPart, directionalMixinPart, entityPart]),  -- prototypes/artillery_turret.py:29, 102
  (artilleryWagon, [hashPart, requestItemsMixinPart, orientationMixinPart, entityPart]),  -- prototypes/artillery_wagon.py:21, 83
  (assemblingMachine, [hashPart, requestItemsMixinPart, recipeMixinPart, directionalMixinPart, entityPart]),  -- prototypes/assembling_machine.py:25, 185
  (asteroidCollector, [hashPart, controlBehaviorMixinPart, directionalMixinPart, entityPart]),  -- prototypes/asteroid_collector.py:24, 223
  (beacon, [hashPart, requestItemsMixinPart, entityPart]),  -- prototypes/beacon.py:20, 73
  (boiler, [hashPart, requestItemsMixinPart, directionalMixinPart, entityPart]),  -- prototypes/boiler.py:17, 60
  (burnerGenerator, [hashPart, requestItemsMixinPart, directionalMixinPart, entityPart]),  -- prototypes/burner_generator.py:22, 107
  (car, [hashPart, requestItemsMixinPart, orientationMixinPart, entityPart]),  -- prototypes/car.py:22, 81
  (cargoLandingPad, [hashPart, requestFiltersMixinPart, controlBehaviorMixinPart, entityPart]),  -- prototypes/cargo_landing_pad.py:21, 78
  (cargoWagon, [hashPart, requestItemsMixinPart, inventoryFilterMixinPart, orientationMixinPart, entityPart]),  -- prototypes/cargo_wagon.py:21, 77
  (constantCombinator, [hashPart, controlBehaviorMixinPart, directionalMixinPart, entityPart]),  -- prototypes/constant_combinator.py:32, 345
  (container, [hashPart, inventoryMixinPart, requestItemsMixinPart, entityPart]),  -- prototypes/container.py:20, 65
  (curvedRailA, [hashPart, eightWayDirectionalMixinPart, entityPart]),  -- prototypes/curved_rail_a.py:15, 55
  (curvedRailB, [hashPart, eightWayDirectionalMixinPart, entityPart]),  -- prototypes/curved_rail_b.py:15, 55
  (deciderCombinator, [hashPart, controlBehaviorMixinPart, directionalMixinPart, entityPart]),  -- prototypes/decider_combinator.py:278, 833
  (displayPanel, [hashPart, controlBehaviorMixinPart, directionalMixinPart, entityPart]),  -- prototypes/display_panel.py:21, 179
  (electricEnergyInterface, [electricEnergyInterfacePart, entityPart]),  -- prototypes/electric_energy_interface.py:21
  (electricPole, [hashPart, entityPart]),  -- prototypes/electric_pole.py:17, 64
  (electricTurret, [hashPart, requestItemsMixinPart, controlBehaviorMixinPart, directionalMixinPart, entityPart]),  -- prototypes/electric_turret.py:26, 103
  (elevatedCurvedRailA, [hashPart, eightWayDirectionalMixinPart, entityPart]),  -- prototypes/elevated_curved_rail_a.py:15, 55
  (elevatedCurvedRailB, [hashPart, eightWayDirectionalMixinPart, entityPart]),  -- prototypes/elevated_curved_rail_b.py:15, 55
  (elevatedHalfDiagonalRail, [hashPart, eightWayDirectionalMixinPart, entityPart]),  -- prototypes/elevated_half_diagonal_rail.py:15, 57
  (elevatedStraightRail, [hashPart, eightWayDirectionalMixinPart, entityPart]),  -- prototypes/elevated_straight_rail.py:15, 55
  (fluidTurret, [hashPart, requestItemsMixinPart, controlBehaviorMixinPart, directionalMixinPart, entityPart]),  -- prototypes/fluid_turret.py:26, 103
  (fluidWagon, [hashPart, orientationMixinPart, entityPart]),  -- prototypes/fluid_wagon.py:16, 58
  (furnace, [hashPart, requestItemsMixinPart, directionalMixinPart, entityPart]),  -- prototypes/furnace.py:27, 223
  (fusionGenerator, [hashPart, directionalMixinPart, entityPart]),  -- prototypes/fusion_generator.py:15, 53
  (gate, [hashPart, directionalMixinPart, entityPart]),  -- prototypes/gate.py:15, 53
  (generator, [hashPart, directionalMixinPart, entityPart]),  -- prototypes/generator.py:16, 50
  (heatInterface, [heatInterfacePart, entityPart]),  -- prototypes/heat_interface.py:16
  (heatPipe, [hashPart, entityPart]),  -- prototypes/heat_pipe.py:14, 50
  (infinityContainer, [infinityContainerPart, requestItemsMixinPart, inventoryMixinPart, entityPart]),  -- prototypes/infinity_container.py:20
  (infinityPipe, [infinityPipePart, entityPart]),  -- prototypes/infinity_pipe.py:18
  (inserter, [inserterPart, filtersMixinPart, stackSizeMixinPart, controlBehaviorMixinPart, directionalMixinPart, entityPart]),  -- prototypes/inserter.py:28
  (lab, [hashPart, requestItemsMixinPart, entityPart]),  -- prototypes/lab.py:19, 100
  (lamp, [hashPart, controlBehaviorMixinPart, entityPart]),  -- prototypes/lamp.py:21, 179
  (landMine, [hashPart, entityPart]),  -- prototypes/land_mine.py:14, 50
  (legacyCurvedRail, [hashPart, eightWayDirectionalMixinPart, entityPart]),  -- prototypes/legacy_curved_rail.py:51, 113
  (legacyStraightRail, [hashPart, eightWayDirectionalMixinPart, entityPart]),  -- prototypes/legacy_straight_rail.py:45, 105
  (lightningAttractor, [hashPart, entityPart]),  -- prototypes/lightning_attractor.py:14, 51
  (linkedBelt, [hashPart, directionalMixinPart, entityPart]),  -- prototypes/linked_belt.py:15, 58
  (linkedContainer, [linkedContainerPart, inventoryMixinPart, requestItemsMixinPart, entityPart]),  -- prototypes/linked_container.py:17
  (loader, [hashPart, filtersMixinPart, iOTypeMixinPart, directionalMixinPart, entityPart]),  -- prototypes/loader.py:16, 60
  (locomotive, [hashPart, requestItemsMixinPart, colorMixinPart, orientationMixinPart, entityPart]),  -- prototypes/locomotive.py:21, 71
  (logisticActiveContainer, [hashPart, inventoryMixinPart, requestItemsMixinPart, controlBehaviorMixinPart, entityPart]),  -- prototypes/logistic_active_container.py:24, 85
  (logisticBufferContainer, [hashPart, inventoryMixinPart, requestItemsMixinPart, controlBehaviorMixinPart, requestFiltersMixinPart, entityPart]),  -- prototypes/logistic_buffer_container.py:29, 100
  (logisticPassiveContainer, [hashPart, inventoryMixinPart, requestItemsMixinPart, controlBehaviorMixinPart, entityPart]),  -- prototypes/logistic_passive_container.py:24, 87
  (logisticRequestContainer, [hashPart, inventoryMixinPart, requestItemsMixinPart, controlBehaviorMixinPart, requestFiltersMixinPart, entityPart]),  -- prototypes/logistic_request_container.py:29, 110
  (logisticStorageContainer, [hashPart, inventoryMixinPart, requestItemsMixinPart, controlBehaviorMixinPart, requestFiltersMixinPart, entityPart]),  -- prototypes/logistic_storage_container.py:24, 95
  (miningDrill, [hashPart, requestItemsMixinPart, controlBehaviorMixinPart, directionalMixinPart, entityPart]),  -- prototypes/mining_drill.py:27, 129
  (offshorePump, [hashPart, controlBehaviorMixinPart, directionalMixinPart, entityPart]),  -- prototypes/offshore_pump.py:22, 87
  (pipe, [hashPart, entityPart]),  -- prototypes/pipe.py:14, 50
  (playerPort, [entityPart]),  -- prototypes/player_port.py:14
  (powerSwitch, [powerSwitchPart, controlBehaviorMixinPart, entityPart]),  -- prototypes/power_switch.py:25
  (programmableSpeaker, [programmableSpeakerPart, controlBehaviorMixinPart, entityPart]),  -- prototypes/programmable_speaker.py:33
  (pump, [hashPart, controlBehaviorMixinPart, directionalMixinPart, entityPart]),  -- prototypes/pump.py:21, 72
  (radar, [hashPart, entityPart]),  -- prototypes/radar.py:15, 47
  (railChainSignal, [hashPart, readRailSignalMixinPart, controlBehaviorMixinPart, eightWayDirectionalMixinPart, entityPart]),  -- prototypes/rail_chain_signal.py:22, 131
  (railRamp, [hashPart, eightWayDirectionalMixinPart, entityPart]),  -- prototypes/rail_ramp.py:15, 55
  (railSignal, [hashPart, readRailSignalMixinPart, controlBehaviorMixinPart, eightWayDirectionalMixinPart, entityPart]),  -- prototypes/rail_signal.py:24, 162
  (reactor, [hashPart, requestItemsMixinPart, controlBehaviorMixinPart, entityPart]),  -- prototypes/reactor.py:22, 170
  (roboport, [hashPart, controlBehaviorMixinPart, entityPart]),  -- prototypes/roboport.py:20, 295
  (rocketSilo, [rocketSiloPart, requestItemsMixinPart, controlBehaviorMixinPart, recipeMixinPart, entityPart]),  -- prototypes/rocket_silo.py:23
  (selectorCombinator, [hashPart, controlBehaviorMixinPart, directionalMixinPart, entityPart]),  -- prototypes/selector_combinator.py:22, 151
  (simpleEntityWithForce, [directionalMixinPart, entityPart]),  -- prototypes/simple_entity_with_force.py:17
  (simpleEntityWithOwner, [directionalMixinPart, entityPart]),  -- prototypes/simple_entity_with_owner.py:17
  (solarPanel, [hashPart, entityPart]),  -- prototypes/solar_panel.py:14, 50
  (spacePlatformHub, [hashPart, requestFiltersMixinPart, controlBehaviorMixinPart, entityPart]),  -- prototypes/space_platform_hub.py:21, 136
  (spiderVehicle, [hashPart, requestFiltersMixinPart, requestItemsMixinPart, orientationMixinPart, entityPart]),  -- prototypes/spider_vehicle.py:23, 197
  (splitter, [splitterPart, directionalMixinPart, entityPart]),  -- prototypes/splitter.py:22
  (storageTank, [hashPart, directionalMixinPart, entityPart]),  -- prototypes/storage_tank.py:17, 59
  (straightRail, [hashPart, eightWayDirectionalMixinPart, entityPart]),  -- prototypes/straight_rail.py:45, 105
  (thruster, [hashPart, entityPart]),  -- prototypes/thruster.py:14, 50
  (trainStop, [trainStopPart, colorMixinPart, controlBehaviorMixinPart, directionalMixinPart, entityPart]),  -- prototypes/train_stop.py:29
  (transportBelt, [hashPart, controlBehaviorMixinPart, directionalMixinPart, entityPart]),  -- prototypes/transport_belt.py:24, 92
  (turret, [hashPart, requestItemsMixinPart, directionalMixinPart, entityPart]),  -- prototypes/turret.py:16, 60
  (undergroundBelt, [hashPart, iOTypeMixinPart, directionalMixinPart, entityPart]),  -- prototypes/underground_belt.py:15, 60
  (undergroundPipe, [hashPart, directionalMixinPart, entityPart]),  -- prototypes/underground_pipe.py:15, 53
  (wall, [hashPart, controlBehaviorMixinPart, entityPart])]  -- prototypes/wall.py:22, 173

end MergeAttr
end Draftsman
