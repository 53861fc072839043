import Verif.Model.Nested
/-
The models that are parts of entities, planners and blueprints, with the fields they have and inherit, in the order pydantic gives them: those of the last
base class first.  Made from the text of `/repo/draftsman/signatures.py`, `/repo/draftsman/prototypes` and `/repo/draftsman/classes` by a script.  A field declared
as `list` (the conditions and outputs of deciders, `/repo/draftsman/prototypes/decider_combinator.py:410-423`) is a value like any other.  Left out: `FilterInserter`,
which is not part of the package's entities (`/repo/draftsman/entity.py`), and the connections of old blueprints.
-/
namespace Draftsman
namespace Nested

/-- `FloatPosition`: `/repo/draftsman/signatures.py:626-628`. -/
def floatPosition : Shape := .model true (.of [
  field "x" false none .plain,
  field "y" false none .plain])

/-- `SignalID`: `/repo/draftsman/signatures.py:349-367`. -/
def signalID : Shape := .model true (.of [
  field "name" true none .plain,
  field "type" false (some (.raw (.atom "'item'"))) .plain,
  field "quality" true (some (.raw (.atom "'normal'"))) .plain])

/-- `Accumulator.Format.ControlBehavior`: `/repo/draftsman/prototypes/accumulator.py:28-29`. -/
def accumulatorControlBehavior : Shape := .model true (.of [
  field "output_signal" true (some (.model (.of [(.raw (.atom "'signal-A'")), (.raw (.atom "'virtual'")), (.raw (.atom "'normal'"))]) .nil)) signalID])

/-- `Accumulator.Format.ControlBehavior()`, all fields at their defaults: the same lines. `/repo/draftsman/prototypes/accumulator.py:28`. -/
def accumulatorControlBehaviorDefault : Val := .model (.of [(.model (.of [(.raw (.atom "'signal-A'")), (.raw (.atom "'virtual'")), (.raw (.atom "'normal'"))]) .nil)]) .nil

/-- `NetworkSpecification`: `/repo/draftsman/signatures.py:684-689`. -/
def networkSpecification : Shape := .model true (.of [
  field "red" true (some (.raw (.atom "True"))) .plain,
  field "green" true (some (.raw (.atom "True"))) .plain])

/-- `NetworkSpecification()`, all fields at their defaults: the same lines. `/repo/draftsman/signatures.py:684`. -/
def networkSpecificationDefault : Val := .model (.of [(.raw (.atom "True")), (.raw (.atom "True"))]) .nil

/-- `Condition`: `/repo/draftsman/signatures.py:702-738`. -/
def condition : Shape := .model true (.of [
  field "first_signal" true (some .none) signalID,
  field "first_signal_networks" true (some networkSpecificationDefault) networkSpecification,
  field "comparator" true (some (.raw (.atom "'<'"))) .plain,
  field "constant" true (some (.raw (.atom "0"))) .plain,
  field "second_signal" true (some .none) signalID,
  field "second_signal_networks" true (some networkSpecificationDefault) networkSpecification])

/-- `Condition()`, all fields at their defaults: the same lines. `/repo/draftsman/signatures.py:702`. -/
def conditionDefault : Val := .model (.of [.none, networkSpecificationDefault, (.raw (.atom "'<'")), (.raw (.atom "0")), .none, networkSpecificationDefault]) .nil

/-- `AgriculturalTower.Format.ControlBehavior`: `/repo/draftsman/prototypes/agricultural_tower.py:39-44`, `/repo/draftsman/classes/mixins/circuit_condition.py:17-25`, `/repo/draftsman/classes/mixins/logistic_condition.py:18-26`. -/
def agriculturalTowerControlBehavior : Shape := .model true (.of [
  field "connect_to_logistic_network" true (some (.raw (.atom "False"))) .plain,
  field "logistic_condition" true (some conditionDefault) condition,
  field "circuit_condition_enabled" true (some (.raw (.atom "False"))) .plain,
  field "circuit_condition" true (some conditionDefault) condition,
  field "read_contents" true (some (.raw (.atom "False"))) .plain])

/-- `AgriculturalTower.Format.ControlBehavior()`, all fields at their defaults: the same lines. `/repo/draftsman/prototypes/agricultural_tower.py:39`. -/
def agriculturalTowerControlBehaviorDefault : Val := .model (.of [(.raw (.atom "False")), conditionDefault, (.raw (.atom "False")), conditionDefault, (.raw (.atom "False"))]) .nil

/-- `TargetID`: `/repo/draftsman/signatures.py:482-484`. -/
def targetID : Shape := .model true (.of [
  field "index" false none .plain,
  field "name" false none .plain])

/-- `ItemSpecification.InventoryLocation`: `/repo/draftsman/signatures.py:1309-1317`. -/
def itemSpecificationInventoryLocation : Shape := .model true (.of [
  field "inventory" false none .plain,
  field "stack" false none .plain,
  field "count" true (some (.raw (.atom "1"))) .plain])

/-- `ItemSpecification`: `/repo/draftsman/signatures.py:1308-1324`. -/
def itemSpecification : Shape := .model true (.of [
  field "in_inventory" true (some (.list .nil)) (.list itemSpecificationInventoryLocation),
  field "grid_count" true (some (.raw (.atom "0"))) .plain])

/-- `ItemSpecification()`, all fields at their defaults: the same lines. `/repo/draftsman/signatures.py:1308`. -/
def itemSpecificationDefault : Val := .model (.of [(.list .nil), (.raw (.atom "0"))]) .nil

/-- `ItemRequest`: `/repo/draftsman/signatures.py:1329-1331`. -/
def itemRequest : Shape := .model true (.of [
  field "id" false none signalID,
  field "items" false none itemSpecification])

/-- `AmmoTurret.Format.ControlBehavior`: `/repo/draftsman/prototypes/ammo_turret.py:55`, `/repo/draftsman/classes/mixins/read_ammo.py:16-17`, `/repo/draftsman/classes/mixins/target_priorities.py:17-34`, `/repo/draftsman/classes/mixins/circuit_condition.py:17-25`, `/repo/draftsman/classes/mixins/logistic_condition.py:18-26`, `/repo/draftsman/classes/mixins/circuit_enable.py:17-18`. -/
def ammoTurretControlBehavior : Shape := .model true (.of [
  field "circuit_enabled" true (some (.raw (.atom "False"))) .plain,
  field "connect_to_logistic_network" true (some (.raw (.atom "False"))) .plain,
  field "logistic_condition" true (some conditionDefault) condition,
  field "circuit_condition_enabled" true (some (.raw (.atom "False"))) .plain,
  field "circuit_condition" true (some conditionDefault) condition,
  field "set_priority_list" true (some (.raw (.atom "False"))) .plain,
  field "set_ignore_unlisted_targets" true (some (.raw (.atom "False"))) .plain,
  field "ignore_unlisted_targets_condition" true (some conditionDefault) condition,
  field "read_ammo" true (some (.raw (.atom "True"))) .plain])

/-- `AmmoTurret.Format.ControlBehavior()`, all fields at their defaults: the same lines. `/repo/draftsman/prototypes/ammo_turret.py:55`. -/
def ammoTurretControlBehaviorDefault : Val := .model (.of [(.raw (.atom "False")), (.raw (.atom "False")), conditionDefault, (.raw (.atom "False")), conditionDefault, (.raw (.atom "False")), (.raw (.atom "False")), conditionDefault, (.raw (.atom "True"))]) .nil

/-- `ArithmeticCombinator.Format.ControlBehavior.ArithmeticConditions`: `/repo/draftsman/prototypes/arithmetic_combinator.py:49-100`. -/
def arithmeticCombinatorControlBehaviorArithmeticConditions : Shape := .model true (.of [
  field "first_constant" true (some .none) .plain,
  field "first_signal" true (some .none) signalID,
  field "first_signal_networks" true (some networkSpecificationDefault) networkSpecification,
  field "operation" true (some (.raw (.atom "'*'"))) .plain,
  field "second_constant" true (some (.raw (.atom "0"))) .plain,
  field "second_signal" true (some .none) signalID,
  field "second_signal_networks" true (some networkSpecificationDefault) networkSpecification,
  field "output_signal" true (some .none) signalID])

/-- `ArithmeticCombinator.Format.ControlBehavior.ArithmeticConditions()`, all fields at their defaults: the same lines. `/repo/draftsman/prototypes/arithmetic_combinator.py:49`. -/
def arithmeticCombinatorControlBehaviorArithmeticConditionsDefault : Val := .model (.of [.none, .none, networkSpecificationDefault, (.raw (.atom "'*'")), (.raw (.atom "0")), .none, networkSpecificationDefault, .none]) .nil

/-- `ArithmeticCombinator.Format.ControlBehavior`: `/repo/draftsman/prototypes/arithmetic_combinator.py:48-214`. -/
def arithmeticCombinatorControlBehavior : Shape := .model true (.of [
  field "arithmetic_conditions" true (some arithmeticCombinatorControlBehaviorArithmeticConditionsDefault) arithmeticCombinatorControlBehaviorArithmeticConditions])

/-- `ArithmeticCombinator.Format.ControlBehavior()`, all fields at their defaults: the same lines. `/repo/draftsman/prototypes/arithmetic_combinator.py:48`. -/
def arithmeticCombinatorControlBehaviorDefault : Val := .model (.of [arithmeticCombinatorControlBehaviorArithmeticConditionsDefault]) .nil

/-- `ArtilleryTurret.Format.ControlBehavior`: `/repo/draftsman/prototypes/artillery_turret.py:58`, `/repo/draftsman/classes/mixins/read_ammo.py:16-17`, `/repo/draftsman/classes/mixins/circuit_condition.py:17-25`, `/repo/draftsman/classes/mixins/logistic_condition.py:18-26`, `/repo/draftsman/classes/mixins/circuit_enable.py:17-18`. -/
def artilleryTurretControlBehavior : Shape := .model true (.of [
  field "circuit_enabled" true (some (.raw (.atom "False"))) .plain,
  field "connect_to_logistic_network" true (some (.raw (.atom "False"))) .plain,
  field "logistic_condition" true (some conditionDefault) condition,
  field "circuit_condition_enabled" true (some (.raw (.atom "False"))) .plain,
  field "circuit_condition" true (some conditionDefault) condition,
  field "read_ammo" true (some (.raw (.atom "True"))) .plain])

/-- `ArtilleryTurret.Format.ControlBehavior()`, all fields at their defaults: the same lines. `/repo/draftsman/prototypes/artillery_turret.py:58`. -/
def artilleryTurretControlBehaviorDefault : Val := .model (.of [(.raw (.atom "False")), (.raw (.atom "False")), conditionDefault, (.raw (.atom "False")), conditionDefault, (.raw (.atom "True"))]) .nil

/-- `EquipmentGridMixin.Format.EquipmentComponent.EquipmentID`: `/repo/draftsman/classes/mixins/equipment_grid.py:20-21`. -/
def equipmentGridMixinEquipmentComponentEquipmentID : Shape := .model true (.of [
  field "name" false none .plain])

/-- `IntPosition`: `/repo/draftsman/signatures.py:641-643`. -/
def intPosition : Shape := .model true (.of [
  field "x" false none .plain,
  field "y" false none .plain])

/-- `EquipmentGridMixin.Format.EquipmentComponent`: `/repo/draftsman/classes/mixins/equipment_grid.py:19-24`. -/
def equipmentGridMixinEquipmentComponent : Shape := .model true (.of [
  field "equipment" false none equipmentGridMixinEquipmentComponentEquipmentID,
  field "position" false none intPosition])

/-- `AsteroidCollector.Format.ControlBehavior`: `/repo/draftsman/prototypes/asteroid_collector.py:46-53`, `/repo/draftsman/classes/mixins/circuit_set_filters.py:16-17`, `/repo/draftsman/classes/mixins/circuit_condition.py:17-25`, `/repo/draftsman/classes/mixins/circuit_enable.py:17-18`. -/
def asteroidCollectorControlBehavior : Shape := .model true (.of [
  field "circuit_enabled" true (some (.raw (.atom "False"))) .plain,
  field "circuit_condition_enabled" true (some (.raw (.atom "False"))) .plain,
  field "circuit_condition" true (some conditionDefault) condition,
  field "circuit_set_filters" true (some (.raw (.atom "False"))) .plain,
  field "circuit_read_contents" true (some (.raw (.atom "False"))) .plain,
  field "include_hands" true (some (.raw (.atom "True"))) .plain])

/-- `AsteroidCollector.Format.ControlBehavior()`, all fields at their defaults: the same lines. `/repo/draftsman/prototypes/asteroid_collector.py:46`. -/
def asteroidCollectorControlBehaviorDefault : Val := .model (.of [(.raw (.atom "False")), (.raw (.atom "False")), conditionDefault, (.raw (.atom "False")), (.raw (.atom "False")), (.raw (.atom "True"))]) .nil

/-- `AsteroidChunkID`: `/repo/draftsman/signatures.py:487-489`. -/
def asteroidChunkID : Shape := .model true (.of [
  field "index" false none .plain,
  field "name" false none .plain])

/-- `SignalFilter`: `/repo/draftsman/signatures.py:1061-1120`. -/
def signalFilter : Shape := .model true (.of [
  field "index" false none .plain,
  field "name" false none .plain,
  field "type" true (some (.raw (.atom "'item'"))) .plain,
  field "quality" true (some (.raw (.atom "'any'"))) .plain,
  field "comparator" true (some (.raw (.atom "'='"))) .plain,
  field "count" false none .plain,
  field "max_count" true (some .none) .plain])

/-- `Section`: `/repo/draftsman/signatures.py:1183-1186`. -/
def signalSection : Shape := .model true (.of [
  field "index" false none .plain,
  field "filters" true (some (.list .nil)) (.list signalFilter),
  field "group" true (some .none) .plain])

/-- `RequestFiltersMixin.Format.RequestFilters`: `/repo/draftsman/classes/mixins/request_filters.py:24-36`. -/
def requestFiltersMixinRequestFilters : Shape := .model true (.of [
  field "sections" true (some (.list .nil)) (.list signalSection),
  field "trash_not_requested" true (some (.raw (.atom "False"))) .plain,
  field "request_from_buffers" true (some (.raw (.atom "True"))) .plain,
  field "enabled" true (some (.raw (.atom "True"))) .plain])

/-- `RequestFiltersMixin.Format.RequestFilters()`, all fields at their defaults: the same lines. `/repo/draftsman/classes/mixins/request_filters.py:24`. -/
def requestFiltersMixinRequestFiltersDefault : Val := .model (.of [(.list .nil), (.raw (.atom "False")), (.raw (.atom "True")), (.raw (.atom "True"))]) .nil

/-- `CargoLandingPad.Format.ControlBehavior`: `/repo/draftsman/prototypes/cargo_landing_pad.py:39`, `/repo/draftsman/classes/mixins/mode_of_operation.py:114-115`. -/
def cargoLandingPadControlBehavior : Shape := .model true (.of [
  field "circuit_mode_of_operation" true (some .none) .plain])

/-- `CargoLandingPad.Format.ControlBehavior()`, all fields at their defaults: the same lines. `/repo/draftsman/prototypes/cargo_landing_pad.py:39`. -/
def cargoLandingPadControlBehaviorDefault : Val := .model (.of [.none]) .nil

/-- `ItemFilter`: `/repo/draftsman/signatures.py:907-923`. -/
def itemFilter : Shape := .model true (.of [
  field "index" false none .plain,
  field "name" false none .plain,
  field "quality" true (some (.raw (.atom "'any'"))) .plain,
  field "comparator" true (some .none) .plain])

/-- `InventoryFilterMixin.Format.InventoryFilters`: `/repo/draftsman/classes/mixins/inventory_filter.py:41-48`. -/
def inventoryFilterMixinInventoryFilters : Shape := .model true (.of [
  field "filters" true (some .none) (.list itemFilter),
  field "bar" true (some .none) .plain])

/-- `InventoryFilterMixin.Format.InventoryFilters()`, all fields at their defaults: the same lines. `/repo/draftsman/classes/mixins/inventory_filter.py:41`. -/
def inventoryFilterMixinInventoryFiltersDefault : Val := .model (.of [.none, .none]) .nil

/-- `Sections`: `/repo/draftsman/signatures.py:1340-1433`. -/
def sections : Shape := .model true (.of [
  field "sections" true (some (.list .nil)) (.list signalSection)])

/-- `Sections()`, all fields at their defaults: the same lines. `/repo/draftsman/signatures.py:1340`. -/
def sectionsDefault : Val := .model (.of [(.list .nil)]) .nil

/-- `ConstantCombinator.Format.ControlBehavior`: `/repo/draftsman/prototypes/constant_combinator.py:81-89`. -/
def constantCombinatorControlBehavior : Shape := .model true (.of [
  field "sections" true (some sectionsDefault) sections,
  field "is_on" true (some (.raw (.atom "True"))) .plain])

/-- `ConstantCombinator.Format.ControlBehavior()`, all fields at their defaults: the same lines. `/repo/draftsman/prototypes/constant_combinator.py:81`. -/
def constantCombinatorControlBehaviorDefault : Val := .model (.of [sectionsDefault, (.raw (.atom "True"))]) .nil

/-- `DeciderCombinator.Format.ControlBehavior.DeciderConditions`: `/repo/draftsman/prototypes/decider_combinator.py:392-416`. -/
def deciderCombinatorControlBehaviorDeciderConditions : Shape := .model true (.of [
  field "conditions" false (some (.raw (.arr .nil))) .plain,
  field "outputs" false (some (.raw (.arr .nil))) .plain])

/-- `DeciderCombinator.Format.ControlBehavior.DeciderConditions()`, all fields at their defaults: the same lines. `/repo/draftsman/prototypes/decider_combinator.py:392`. -/
def deciderCombinatorControlBehaviorDeciderConditionsDefault : Val := .model (.of [(.raw (.arr .nil)), (.raw (.arr .nil))]) .nil

/-- `DeciderCombinator.Format.ControlBehavior`: `/repo/draftsman/prototypes/decider_combinator.py:391-460`. -/
def deciderCombinatorControlBehavior : Shape := .model true (.of [
  field "decider_conditions" true (some deciderCombinatorControlBehaviorDeciderConditionsDefault) deciderCombinatorControlBehaviorDeciderConditions])

/-- `DeciderCombinator.Format.ControlBehavior()`, all fields at their defaults: the same lines. `/repo/draftsman/prototypes/decider_combinator.py:391`. -/
def deciderCombinatorControlBehaviorDefault : Val := .model (.of [deciderCombinatorControlBehaviorDeciderConditionsDefault]) .nil

/-- `DisplayPanel.Format.ControlBehavior.PanelMessage`: `/repo/draftsman/prototypes/display_panel.py:35-43`. -/
def displayPanelControlBehaviorPanelMessage : Shape := .model true (.of [
  field "condition" true (some conditionDefault) condition,
  field "icon" true (some .none) signalID,
  field "text" true (some (.raw (.atom "''"))) .plain])

/-- `DisplayPanel.Format.ControlBehavior.PanelMessage()`, all fields at their defaults: the same lines. `/repo/draftsman/prototypes/display_panel.py:35`. -/
def displayPanelControlBehaviorPanelMessageDefault : Val := .model (.of [conditionDefault, .none, (.raw (.atom "''"))]) .nil

/-- `DisplayPanel.Format.ControlBehavior`: `/repo/draftsman/prototypes/display_panel.py:34-45`. -/
def displayPanelControlBehavior : Shape := .model true (.of [
  field "parameters" false (some (.list .nil)) (.list displayPanelControlBehaviorPanelMessage)])

/-- `DisplayPanel.Format.ControlBehavior()`, all fields at their defaults: the same lines. `/repo/draftsman/prototypes/display_panel.py:34`. -/
def displayPanelControlBehaviorDefault : Val := .model (.of [(.list .nil)]) .nil

/-- `ElectricTurret.Format.ControlBehavior`: `/repo/draftsman/prototypes/electric_turret.py:55`, `/repo/draftsman/classes/mixins/read_ammo.py:16-17`, `/repo/draftsman/classes/mixins/target_priorities.py:17-34`, `/repo/draftsman/classes/mixins/circuit_condition.py:17-25`, `/repo/draftsman/classes/mixins/logistic_condition.py:18-26`, `/repo/draftsman/classes/mixins/circuit_enable.py:17-18`. -/
def electricTurretControlBehavior : Shape := .model true (.of [
  field "circuit_enabled" true (some (.raw (.atom "False"))) .plain,
  field "connect_to_logistic_network" true (some (.raw (.atom "False"))) .plain,
  field "logistic_condition" true (some conditionDefault) condition,
  field "circuit_condition_enabled" true (some (.raw (.atom "False"))) .plain,
  field "circuit_condition" true (some conditionDefault) condition,
  field "set_priority_list" true (some (.raw (.atom "False"))) .plain,
  field "set_ignore_unlisted_targets" true (some (.raw (.atom "False"))) .plain,
  field "ignore_unlisted_targets_condition" true (some conditionDefault) condition,
  field "read_ammo" true (some (.raw (.atom "True"))) .plain])

/-- `ElectricTurret.Format.ControlBehavior()`, all fields at their defaults: the same lines. `/repo/draftsman/prototypes/electric_turret.py:55`. -/
def electricTurretControlBehaviorDefault : Val := .model (.of [(.raw (.atom "False")), (.raw (.atom "False")), conditionDefault, (.raw (.atom "False")), conditionDefault, (.raw (.atom "False")), (.raw (.atom "False")), conditionDefault, (.raw (.atom "True"))]) .nil

/-- `FluidTurret.Format.ControlBehavior`: `/repo/draftsman/prototypes/fluid_turret.py:55`, `/repo/draftsman/classes/mixins/read_ammo.py:16-17`, `/repo/draftsman/classes/mixins/target_priorities.py:17-34`, `/repo/draftsman/classes/mixins/circuit_condition.py:17-25`, `/repo/draftsman/classes/mixins/logistic_condition.py:18-26`, `/repo/draftsman/classes/mixins/circuit_enable.py:17-18`. -/
def fluidTurretControlBehavior : Shape := .model true (.of [
  field "circuit_enabled" true (some (.raw (.atom "False"))) .plain,
  field "connect_to_logistic_network" true (some (.raw (.atom "False"))) .plain,
  field "logistic_condition" true (some conditionDefault) condition,
  field "circuit_condition_enabled" true (some (.raw (.atom "False"))) .plain,
  field "circuit_condition" true (some conditionDefault) condition,
  field "set_priority_list" true (some (.raw (.atom "False"))) .plain,
  field "set_ignore_unlisted_targets" true (some (.raw (.atom "False"))) .plain,
  field "ignore_unlisted_targets_condition" true (some conditionDefault) condition,
  field "read_ammo" true (some (.raw (.atom "True"))) .plain])

/-- `FluidTurret.Format.ControlBehavior()`, all fields at their defaults: the same lines. `/repo/draftsman/prototypes/fluid_turret.py:55`. -/
def fluidTurretControlBehaviorDefault : Val := .model (.of [(.raw (.atom "False")), (.raw (.atom "False")), conditionDefault, (.raw (.atom "False")), conditionDefault, (.raw (.atom "False")), (.raw (.atom "False")), conditionDefault, (.raw (.atom "True"))]) .nil

/-- `InfinityContainer.Format.InfinitySettings.InfinityFilter`: `/repo/draftsman/prototypes/infinity_container.py:27-48`. -/
def infinityContainerInfinitySettingsInfinityFilter : Shape := .model true (.of [
  field "index" false none .plain,
  field "name" false none .plain,
  field "count" true (some (.raw (.atom "0"))) .plain,
  field "mode" true (some (.raw (.atom "'at-least'"))) .plain])

/-- `InfinityContainer.Format.InfinitySettings`: `/repo/draftsman/prototypes/infinity_container.py:26-65`. -/
def infinityContainerInfinitySettings : Shape := .model true (.of [
  field "filters" true (some (.list .nil)) (.list infinityContainerInfinitySettingsInfinityFilter),
  field "remove_unfiltered_items" true (some (.raw (.atom "False"))) .plain])

/-- `InfinityContainer.Format.InfinitySettings()`, all fields at their defaults: the same lines. `/repo/draftsman/prototypes/infinity_container.py:26`. -/
def infinityContainerInfinitySettingsDefault : Val := .model (.of [(.list .nil), (.raw (.atom "False"))]) .nil

/-- `InfinityPipe.Format.InfinitySettings`: `/repo/draftsman/prototypes/infinity_pipe.py:24-48`. -/
def infinityPipeInfinitySettings : Shape := .model true (.of [
  field "name" true (some .none) .plain,
  field "percentage" true (some (.raw (.atom "0.0"))) .plain,
  field "mode" true (some (.raw (.atom "'at-least'"))) .plain,
  field "temperature" true (some .none) .plain])

/-- `InfinityPipe.Format.InfinitySettings()`, all fields at their defaults: the same lines. `/repo/draftsman/prototypes/infinity_pipe.py:24`. -/
def infinityPipeInfinitySettingsDefault : Val := .model (.of [.none, (.raw (.atom "0.0")), (.raw (.atom "'at-least'")), .none]) .nil

/-- `Inserter.Format.ControlBehavior`: `/repo/draftsman/prototypes/inserter.py:64-73`, `/repo/draftsman/classes/mixins/stack_size.py:27-35`, `/repo/draftsman/classes/mixins/circuit_read_hand.py:22-29`, `/repo/draftsman/classes/mixins/mode_of_operation.py:18-19`, `/repo/draftsman/classes/mixins/circuit_condition.py:17-25`, `/repo/draftsman/classes/mixins/logistic_condition.py:18-26`, `/repo/draftsman/classes/mixins/circuit_enable.py:17-18`. -/
def inserterControlBehavior : Shape := .model true (.of [
  field "circuit_enabled" true (some (.raw (.atom "False"))) .plain,
  field "connect_to_logistic_network" true (some (.raw (.atom "False"))) .plain,
  field "logistic_condition" true (some conditionDefault) condition,
  field "circuit_condition_enabled" true (some (.raw (.atom "False"))) .plain,
  field "circuit_condition" true (some conditionDefault) condition,
  field "circuit_mode_of_operation" true (some .none) .plain,
  field "circuit_read_hand_contents" true (some .none) .plain,
  field "circuit_hand_read_mode" true (some .none) .plain,
  field "circuit_set_stack_size" true (some .none) .plain,
  field "stack_control_input_signal" true (some .none) signalID,
  field "circuit_set_filters" true (some (.raw (.atom "False"))) .plain])

/-- `Inserter.Format.ControlBehavior()`, all fields at their defaults: the same lines. `/repo/draftsman/prototypes/inserter.py:64`. -/
def inserterControlBehaviorDefault : Val := .model (.of [(.raw (.atom "False")), (.raw (.atom "False")), conditionDefault, (.raw (.atom "False")), conditionDefault, .none, .none, .none, .none, .none, (.raw (.atom "False"))]) .nil

/-- `Lamp.Format.ControlBehavior`: `/repo/draftsman/prototypes/lamp.py:34-44`, `/repo/draftsman/classes/mixins/circuit_condition.py:17-25`. -/
def lampControlBehavior : Shape := .model true (.of [
  field "circuit_condition_enabled" true (some (.raw (.atom "False"))) .plain,
  field "circuit_condition" true (some conditionDefault) condition,
  field "use_colors" true (some (.raw (.atom "False"))) .plain,
  field "color_mode" true (some (.raw (.atom "LampColorMode.COLOR_MAPPING"))) .plain])

/-- `Lamp.Format.ControlBehavior()`, all fields at their defaults: the same lines. `/repo/draftsman/prototypes/lamp.py:34`. -/
def lampControlBehaviorDefault : Val := .model (.of [(.raw (.atom "False")), conditionDefault, (.raw (.atom "False")), (.raw (.atom "LampColorMode.COLOR_MAPPING"))]) .nil

/-- `Color`: `/repo/draftsman/signatures.py:586-590`. -/
def color : Shape := .model true (.of [
  field "r" false none .plain,
  field "g" false none .plain,
  field "b" false none .plain,
  field "a" true (some .none) .plain])

/-- `LogisticActiveContainer.Format.ControlBehavior`: `/repo/draftsman/prototypes/logistic_active_container.py:47`, `/repo/draftsman/classes/mixins/mode_of_operation.py:66-67`, `/repo/draftsman/classes/mixins/circuit_condition.py:17-25`. -/
def logisticActiveContainerControlBehavior : Shape := .model false (.of [
  field "circuit_condition_enabled" true (some (.raw (.atom "False"))) .plain,
  field "circuit_condition" true (some conditionDefault) condition,
  field "circuit_mode_of_operation" true (some .none) .plain])

/-- `LogisticActiveContainer.Format.ControlBehavior()`, all fields at their defaults: the same lines. `/repo/draftsman/prototypes/logistic_active_container.py:47`. -/
def logisticActiveContainerControlBehaviorDefault : Val := .model (.of [(.raw (.atom "False")), conditionDefault, .none]) .nil

/-- `LogisticBufferContainer.Format.ControlBehavior`: `/repo/draftsman/prototypes/logistic_buffer_container.py:53`, `/repo/draftsman/classes/mixins/mode_of_operation.py:66-67`, `/repo/draftsman/classes/mixins/circuit_condition.py:17-25`. -/
def logisticBufferContainerControlBehavior : Shape := .model true (.of [
  field "circuit_condition_enabled" true (some (.raw (.atom "False"))) .plain,
  field "circuit_condition" true (some conditionDefault) condition,
  field "circuit_mode_of_operation" true (some .none) .plain])

/-- `LogisticBufferContainer.Format.ControlBehavior()`, all fields at their defaults: the same lines. `/repo/draftsman/prototypes/logistic_buffer_container.py:53`. -/
def logisticBufferContainerControlBehaviorDefault : Val := .model (.of [(.raw (.atom "False")), conditionDefault, .none]) .nil

/-- `LogisticPassiveContainer.Format.ControlBehavior`: `/repo/draftsman/prototypes/logistic_passive_container.py:47`, `/repo/draftsman/classes/mixins/mode_of_operation.py:66-67`, `/repo/draftsman/classes/mixins/circuit_condition.py:17-25`. -/
def logisticPassiveContainerControlBehavior : Shape := .model false (.of [
  field "circuit_condition_enabled" true (some (.raw (.atom "False"))) .plain,
  field "circuit_condition" true (some conditionDefault) condition,
  field "circuit_mode_of_operation" true (some .none) .plain])

/-- `LogisticPassiveContainer.Format.ControlBehavior()`, all fields at their defaults: the same lines. `/repo/draftsman/prototypes/logistic_passive_container.py:47`. -/
def logisticPassiveContainerControlBehaviorDefault : Val := .model (.of [(.raw (.atom "False")), conditionDefault, .none]) .nil

/-- `LogisticRequestContainer.Format.LogisticsRequestFilters`: `/repo/draftsman/prototypes/logistic_request_container.py:64-65`, `/repo/draftsman/classes/mixins/request_filters.py:24-36`. -/
def logisticRequestContainerLogisticsRequestFilters : Shape := .model true (.of [
  field "sections" true (some (.list .nil)) (.list signalSection),
  field "trash_not_requested" true (some (.raw (.atom "False"))) .plain,
  field "request_from_buffers" true (some (.raw (.atom "False"))) .plain,
  field "enabled" true (some (.raw (.atom "True"))) .plain])

/-- `LogisticRequestContainer.Format.LogisticsRequestFilters()`, all fields at their defaults: the same lines. `/repo/draftsman/prototypes/logistic_request_container.py:64`. -/
def logisticRequestContainerLogisticsRequestFiltersDefault : Val := .model (.of [(.list .nil), (.raw (.atom "False")), (.raw (.atom "False")), (.raw (.atom "True"))]) .nil

/-- `LogisticRequestContainer.Format.ControlBehavior`: `/repo/draftsman/prototypes/logistic_request_container.py:53-58`, `/repo/draftsman/classes/mixins/mode_of_operation.py:66-67`, `/repo/draftsman/classes/mixins/circuit_condition.py:17-25`. -/
def logisticRequestContainerControlBehavior : Shape := .model true (.of [
  field "circuit_condition_enabled" true (some (.raw (.atom "False"))) .plain,
  field "circuit_condition" true (some conditionDefault) condition,
  field "circuit_mode_of_operation" true (some .none) .plain])

/-- `LogisticRequestContainer.Format.ControlBehavior()`, all fields at their defaults: the same lines. `/repo/draftsman/prototypes/logistic_request_container.py:53`. -/
def logisticRequestContainerControlBehaviorDefault : Val := .model (.of [(.raw (.atom "False")), conditionDefault, .none]) .nil

/-- `LogisticStorageContainer.Format.ControlBehavior`: `/repo/draftsman/prototypes/logistic_storage_container.py:49`, `/repo/draftsman/classes/mixins/mode_of_operation.py:66-67`, `/repo/draftsman/classes/mixins/circuit_condition.py:17-25`. -/
def logisticStorageContainerControlBehavior : Shape := .model false (.of [
  field "circuit_condition_enabled" true (some (.raw (.atom "False"))) .plain,
  field "circuit_condition" true (some conditionDefault) condition,
  field "circuit_mode_of_operation" true (some .none) .plain])

/-- `LogisticStorageContainer.Format.ControlBehavior()`, all fields at their defaults: the same lines. `/repo/draftsman/prototypes/logistic_storage_container.py:49`. -/
def logisticStorageContainerControlBehaviorDefault : Val := .model (.of [(.raw (.atom "False")), conditionDefault, .none]) .nil

/-- `MiningDrill.Format.ControlBehavior`: `/repo/draftsman/prototypes/mining_drill.py:57`, `/repo/draftsman/classes/mixins/circuit_read_resource.py:22-30`, `/repo/draftsman/classes/mixins/circuit_condition.py:17-25`, `/repo/draftsman/classes/mixins/logistic_condition.py:18-26`, `/repo/draftsman/classes/mixins/circuit_enable.py:17-18`. -/
def miningDrillControlBehavior : Shape := .model true (.of [
  field "circuit_enabled" true (some (.raw (.atom "False"))) .plain,
  field "connect_to_logistic_network" true (some (.raw (.atom "False"))) .plain,
  field "logistic_condition" true (some conditionDefault) condition,
  field "circuit_condition_enabled" true (some (.raw (.atom "False"))) .plain,
  field "circuit_condition" true (some conditionDefault) condition,
  field "circuit_read_resources" true (some .none) .plain,
  field "circuit_resource_read_mode" true (some .none) .plain])

/-- `MiningDrill.Format.ControlBehavior()`, all fields at their defaults: the same lines. `/repo/draftsman/prototypes/mining_drill.py:57`. -/
def miningDrillControlBehaviorDefault : Val := .model (.of [(.raw (.atom "False")), (.raw (.atom "False")), conditionDefault, (.raw (.atom "False")), conditionDefault, .none, .none]) .nil

/-- `OffshorePump.Format.ControlBehavior`: `/repo/draftsman/prototypes/offshore_pump.py:42`, `/repo/draftsman/classes/mixins/circuit_condition.py:17-25`, `/repo/draftsman/classes/mixins/logistic_condition.py:18-26`. -/
def offshorePumpControlBehavior : Shape := .model true (.of [
  field "connect_to_logistic_network" true (some (.raw (.atom "False"))) .plain,
  field "logistic_condition" true (some conditionDefault) condition,
  field "circuit_condition_enabled" true (some (.raw (.atom "False"))) .plain,
  field "circuit_condition" true (some conditionDefault) condition])

/-- `OffshorePump.Format.ControlBehavior()`, all fields at their defaults: the same lines. `/repo/draftsman/prototypes/offshore_pump.py:42`. -/
def offshorePumpControlBehaviorDefault : Val := .model (.of [(.raw (.atom "False")), conditionDefault, (.raw (.atom "False")), conditionDefault]) .nil

/-- `PowerSwitch.Format.ControlBehavior`: `/repo/draftsman/prototypes/power_switch.py:46`, `/repo/draftsman/classes/mixins/circuit_condition.py:17-25`, `/repo/draftsman/classes/mixins/logistic_condition.py:18-26`. -/
def powerSwitchControlBehavior : Shape := .model true (.of [
  field "connect_to_logistic_network" true (some (.raw (.atom "False"))) .plain,
  field "logistic_condition" true (some conditionDefault) condition,
  field "circuit_condition_enabled" true (some (.raw (.atom "False"))) .plain,
  field "circuit_condition" true (some conditionDefault) condition])

/-- `PowerSwitch.Format.ControlBehavior()`, all fields at their defaults: the same lines. `/repo/draftsman/prototypes/power_switch.py:46`. -/
def powerSwitchControlBehaviorDefault : Val := .model (.of [(.raw (.atom "False")), conditionDefault, (.raw (.atom "False")), conditionDefault]) .nil

/-- `ProgrammableSpeaker.Format.ControlBehavior.CircuitParameters`: `/repo/draftsman/prototypes/programmable_speaker.py:57-90`. -/
def programmableSpeakerControlBehaviorCircuitParameters : Shape := .model true (.of [
  field "signal_value_is_pitch" true (some (.raw (.atom "False"))) .plain,
  field "instrument_id" true (some (.raw (.atom "0"))) .plain,
  field "instrument_name" true (some .none) .plain (hide := true),
  field "note_id" true (some (.raw (.atom "0"))) .plain,
  field "note_name" true (some .none) .plain (hide := true)])

/-- `ProgrammableSpeaker.Format.ControlBehavior.CircuitParameters()`, all fields at their defaults: the same lines. `/repo/draftsman/prototypes/programmable_speaker.py:57`. -/
def programmableSpeakerControlBehaviorCircuitParametersDefault : Val := .model (.of [(.raw (.atom "False")), (.raw (.atom "0")), .none, (.raw (.atom "0")), .none]) .nil

/-- `ProgrammableSpeaker.Format.ControlBehavior`: `/repo/draftsman/prototypes/programmable_speaker.py:52-242`, `/repo/draftsman/classes/mixins/circuit_condition.py:17-25`, `/repo/draftsman/classes/mixins/circuit_enable.py:17-18`. -/
def programmableSpeakerControlBehavior : Shape := .model true (.of [
  field "circuit_enabled" true (some (.raw (.atom "False"))) .plain,
  field "circuit_condition_enabled" true (some (.raw (.atom "False"))) .plain,
  field "circuit_condition" true (some conditionDefault) condition,
  field "circuit_parameters" true (some programmableSpeakerControlBehaviorCircuitParametersDefault) programmableSpeakerControlBehaviorCircuitParameters])

/-- `ProgrammableSpeaker.Format.ControlBehavior()`, all fields at their defaults: the same lines. `/repo/draftsman/prototypes/programmable_speaker.py:52`. -/
def programmableSpeakerControlBehaviorDefault : Val := .model (.of [(.raw (.atom "False")), (.raw (.atom "False")), conditionDefault, programmableSpeakerControlBehaviorCircuitParametersDefault]) .nil

/-- `ProgrammableSpeaker.Format.Parameters`: `/repo/draftsman/prototypes/programmable_speaker.py:246-263`. -/
def programmableSpeakerParameters : Shape := .model true (.of [
  field "playback_volume" true (some (.raw (.atom "1.0"))) .plain,
  field "playback_globally" true (some (.raw (.atom "False"))) .plain,
  field "allow_polyphony" true (some (.raw (.atom "False"))) .plain])

/-- `ProgrammableSpeaker.Format.Parameters()`, all fields at their defaults: the same lines. `/repo/draftsman/prototypes/programmable_speaker.py:246`. -/
def programmableSpeakerParametersDefault : Val := .model (.of [(.raw (.atom "1.0")), (.raw (.atom "False")), (.raw (.atom "False"))]) .nil

/-- `ProgrammableSpeaker.Format.AlertParameters`: `/repo/draftsman/prototypes/programmable_speaker.py:295-320`. -/
def programmableSpeakerAlertParameters : Shape := .model true (.of [
  field "show_alert" true (some (.raw (.atom "False"))) .plain,
  field "show_on_map" true (some (.raw (.atom "True"))) .plain,
  field "icon_signal_id" true (some .none) signalID,
  field "alert_message" true (some .none) .plain])

/-- `ProgrammableSpeaker.Format.AlertParameters()`, all fields at their defaults: the same lines. `/repo/draftsman/prototypes/programmable_speaker.py:295`. -/
def programmableSpeakerAlertParametersDefault : Val := .model (.of [(.raw (.atom "False")), (.raw (.atom "True")), .none, .none]) .nil

/-- `Pump.Format.ControlBehavior`: `/repo/draftsman/prototypes/pump.py:39`, `/repo/draftsman/classes/mixins/circuit_condition.py:17-25`. -/
def pumpControlBehavior : Shape := .model true (.of [
  field "circuit_condition_enabled" true (some (.raw (.atom "False"))) .plain,
  field "circuit_condition" true (some conditionDefault) condition])

/-- `Pump.Format.ControlBehavior()`, all fields at their defaults: the same lines. `/repo/draftsman/prototypes/pump.py:39`. -/
def pumpControlBehaviorDefault : Val := .model (.of [(.raw (.atom "False")), conditionDefault]) .nil

/-- `RailChainSignal.Format.ControlBehavior`: `/repo/draftsman/prototypes/rail_chain_signal.py:41-42`, `/repo/draftsman/classes/mixins/read_rail_signal.py:22-32`. -/
def railChainSignalControlBehavior : Shape := .model true (.of [
  field "red_output_signal" true (some (.model (.of [(.raw (.atom "'signal-red'")), (.raw (.atom "'virtual'")), (.raw (.atom "'normal'"))]) .nil)) signalID,
  field "yellow_output_signal" true (some (.model (.of [(.raw (.atom "'signal-yellow'")), (.raw (.atom "'virtual'")), (.raw (.atom "'normal'"))]) .nil)) signalID (key := "orange_output_signal"),
  field "green_output_signal" true (some (.model (.of [(.raw (.atom "'signal-green'")), (.raw (.atom "'virtual'")), (.raw (.atom "'normal'"))]) .nil)) signalID,
  field "blue_output_signal" true (some (.model (.of [(.raw (.atom "'signal-blue'")), (.raw (.atom "'virtual'")), (.raw (.atom "'normal'"))]) .nil)) signalID])

/-- `RailChainSignal.Format.ControlBehavior()`, all fields at their defaults: the same lines. `/repo/draftsman/prototypes/rail_chain_signal.py:41`. -/
def railChainSignalControlBehaviorDefault : Val := .model (.of [(.model (.of [(.raw (.atom "'signal-red'")), (.raw (.atom "'virtual'")), (.raw (.atom "'normal'"))]) .nil), (.model (.of [(.raw (.atom "'signal-yellow'")), (.raw (.atom "'virtual'")), (.raw (.atom "'normal'"))]) .nil), (.model (.of [(.raw (.atom "'signal-green'")), (.raw (.atom "'virtual'")), (.raw (.atom "'normal'"))]) .nil), (.model (.of [(.raw (.atom "'signal-blue'")), (.raw (.atom "'virtual'")), (.raw (.atom "'normal'"))]) .nil)]) .nil

/-- `RailSignal.Format.ControlBehavior`: `/repo/draftsman/prototypes/rail_signal.py:47-60`, `/repo/draftsman/classes/mixins/read_rail_signal.py:22-32`, `/repo/draftsman/classes/mixins/circuit_condition.py:17-25`, `/repo/draftsman/classes/mixins/circuit_enable.py:17-18`. -/
def railSignalControlBehavior : Shape := .model true (.of [
  field "circuit_enabled" true (some (.raw (.atom "False"))) .plain,
  field "circuit_condition_enabled" true (some (.raw (.atom "False"))) .plain,
  field "circuit_condition" true (some conditionDefault) condition,
  field "red_output_signal" true (some (.model (.of [(.raw (.atom "'signal-red'")), (.raw (.atom "'virtual'")), (.raw (.atom "'normal'"))]) .nil)) signalID,
  field "yellow_output_signal" true (some (.model (.of [(.raw (.atom "'signal-yellow'")), (.raw (.atom "'virtual'")), (.raw (.atom "'normal'"))]) .nil)) signalID (key := "orange_output_signal"),
  field "green_output_signal" true (some (.model (.of [(.raw (.atom "'signal-green'")), (.raw (.atom "'virtual'")), (.raw (.atom "'normal'"))]) .nil)) signalID,
  field "circuit_close_signal" true (some (.raw (.atom "False"))) .plain,
  field "circuit_read_signal" true (some (.raw (.atom "True"))) .plain])

/-- `RailSignal.Format.ControlBehavior()`, all fields at their defaults: the same lines. `/repo/draftsman/prototypes/rail_signal.py:47`. -/
def railSignalControlBehaviorDefault : Val := .model (.of [(.raw (.atom "False")), (.raw (.atom "False")), conditionDefault, (.model (.of [(.raw (.atom "'signal-red'")), (.raw (.atom "'virtual'")), (.raw (.atom "'normal'"))]) .nil), (.model (.of [(.raw (.atom "'signal-yellow'")), (.raw (.atom "'virtual'")), (.raw (.atom "'normal'"))]) .nil), (.model (.of [(.raw (.atom "'signal-green'")), (.raw (.atom "'virtual'")), (.raw (.atom "'normal'"))]) .nil), (.raw (.atom "False")), (.raw (.atom "True"))]) .nil

/-- `Reactor.Format.ControlBehavior`: `/repo/draftsman/prototypes/reactor.py:40-49`. -/
def reactorControlBehavior : Shape := .model true (.of [
  field "read_burner_fuel" true (some (.raw (.atom "False"))) .plain,
  field "read_temperature" true (some (.raw (.atom "False"))) .plain,
  field "temperature_signal" true (some (.model (.of [(.raw (.atom "'signal-T'")), (.raw (.atom "'virtual'")), (.raw (.atom "'normal'"))]) .nil)) signalID])

/-- `Reactor.Format.ControlBehavior()`, all fields at their defaults: the same lines. `/repo/draftsman/prototypes/reactor.py:40`. -/
def reactorControlBehaviorDefault : Val := .model (.of [(.raw (.atom "False")), (.raw (.atom "False")), (.model (.of [(.raw (.atom "'signal-T'")), (.raw (.atom "'virtual'")), (.raw (.atom "'normal'"))]) .nil)]) .nil

/-- `Roboport.Format.ControlBehavior`: `/repo/draftsman/prototypes/roboport.py:28-63`. -/
def roboportControlBehavior : Shape := .model true (.of [
  field "read_logistics" true (some (.raw (.atom "True"))) .plain,
  field "read_robot_stats" true (some (.raw (.atom "False"))) .plain,
  field "available_logistic_output_signal" true (some (.model (.of [(.raw (.atom "'signal-X'")), (.raw (.atom "'virtual'")), (.raw (.atom "'normal'"))]) .nil)) signalID,
  field "total_logistic_output_signal" true (some (.model (.of [(.raw (.atom "'signal-Y'")), (.raw (.atom "'virtual'")), (.raw (.atom "'normal'"))]) .nil)) signalID,
  field "available_construction_output_signal" true (some (.model (.of [(.raw (.atom "'signal-Z'")), (.raw (.atom "'virtual'")), (.raw (.atom "'normal'"))]) .nil)) signalID,
  field "total_construction_output_signal" true (some (.model (.of [(.raw (.atom "'signal-T'")), (.raw (.atom "'virtual'")), (.raw (.atom "'normal'"))]) .nil)) signalID])

/-- `Roboport.Format.ControlBehavior()`, all fields at their defaults: the same lines. `/repo/draftsman/prototypes/roboport.py:28`. -/
def roboportControlBehaviorDefault : Val := .model (.of [(.raw (.atom "True")), (.raw (.atom "False")), (.model (.of [(.raw (.atom "'signal-X'")), (.raw (.atom "'virtual'")), (.raw (.atom "'normal'"))]) .nil), (.model (.of [(.raw (.atom "'signal-Y'")), (.raw (.atom "'virtual'")), (.raw (.atom "'normal'"))]) .nil), (.model (.of [(.raw (.atom "'signal-Z'")), (.raw (.atom "'virtual'")), (.raw (.atom "'normal'"))]) .nil), (.model (.of [(.raw (.atom "'signal-T'")), (.raw (.atom "'virtual'")), (.raw (.atom "'normal'"))]) .nil)]) .nil

/-- `RocketSilo.Format.ControlBehavior`: `/repo/draftsman/prototypes/rocket_silo.py:51-52`. -/
def rocketSiloControlBehavior : Shape := .model true (.of [
  field "read_items_mode" true (some (.raw (.atom "SiloReadMode.READ_CONTENTS"))) .plain])

/-- `RocketSilo.Format.ControlBehavior()`, all fields at their defaults: the same lines. `/repo/draftsman/prototypes/rocket_silo.py:51`. -/
def rocketSiloControlBehaviorDefault : Val := .model (.of [(.raw (.atom "SiloReadMode.READ_CONTENTS"))]) .nil

/-- `QualityFilter`: `/repo/draftsman/signatures.py:1287-1293`. -/
def qualityFilter : Shape := .model true (.of [
  field "quality" true (some (.raw (.atom "'any'"))) .plain,
  field "comparator" true (some (.raw (.atom "'='"))) .plain])

/-- `QualityFilter()`, all fields at their defaults: the same lines. `/repo/draftsman/signatures.py:1287`. -/
def qualityFilterDefault : Val := .model (.of [(.raw (.atom "'any'")), (.raw (.atom "'='"))]) .nil

/-- `SelectorCombinator.Format.ControlBehavior`: `/repo/draftsman/prototypes/selector_combinator.py:40-98`. -/
def selectorCombinatorControlBehavior : Shape := .model true (.of [
  field "operation" false (some (.raw (.atom "'select'"))) .plain,
  field "select_max" true (some (.raw (.atom "True"))) .plain,
  field "index_constant" true (some (.raw (.atom "0"))) .plain,
  field "index_signal" true (some .none) signalID,
  field "count_signal" true (some .none) signalID,
  field "random_update_interval" true (some (.raw (.atom "0"))) .plain,
  field "quality_filter" true (some .none) qualityFilter,
  field "select_quality_from_signal" true (some (.raw (.atom "False"))) .plain,
  field "quality_source_static" true (some (.raw (.atom "'normal'"))) .plain,
  field "quality_source_signal" true (some .none) signalID,
  field "quality_destination_signal" true (some .none) signalID])

/-- `SelectorCombinator.Format.ControlBehavior()`, all fields at their defaults: the same lines. `/repo/draftsman/prototypes/selector_combinator.py:40`. -/
def selectorCombinatorControlBehaviorDefault : Val := .model (.of [(.raw (.atom "'select'")), (.raw (.atom "True")), (.raw (.atom "0")), .none, .none, (.raw (.atom "0")), .none, (.raw (.atom "False")), (.raw (.atom "'normal'")), .none, .none]) .nil

/-- `SpacePlatformHub.Format.ControlBehavior`: `/repo/draftsman/prototypes/space_platform_hub.py:34-63`. -/
def spacePlatformHubControlBehavior : Shape := .model true (.of [
  field "read_contents" true (some (.raw (.atom "True"))) .plain,
  field "send_to_platform" true (some (.raw (.atom "True"))) .plain,
  field "read_moving_from" true (some (.raw (.atom "False"))) .plain,
  field "read_moving_to" true (some (.raw (.atom "False"))) .plain,
  field "read_speed" true (some (.raw (.atom "False"))) .plain,
  field "speed_signal" true (some (.model (.of [(.raw (.atom "'signal-V'")), (.raw (.atom "'virtual'")), (.raw (.atom "'normal'"))]) .nil)) signalID,
  field "read_damage_taken" true (some (.raw (.atom "False"))) .plain,
  field "damage_taken_signal" true (some (.model (.of [(.raw (.atom "'signal-D'")), (.raw (.atom "'virtual'")), (.raw (.atom "'normal'"))]) .nil)) signalID])

/-- `SpacePlatformHub.Format.ControlBehavior()`, all fields at their defaults: the same lines. `/repo/draftsman/prototypes/space_platform_hub.py:34`. -/
def spacePlatformHubControlBehaviorDefault : Val := .model (.of [(.raw (.atom "True")), (.raw (.atom "True")), (.raw (.atom "False")), (.raw (.atom "False")), (.raw (.atom "False")), (.model (.of [(.raw (.atom "'signal-V'")), (.raw (.atom "'virtual'")), (.raw (.atom "'normal'"))]) .nil), (.raw (.atom "False")), (.model (.of [(.raw (.atom "'signal-D'")), (.raw (.atom "'virtual'")), (.raw (.atom "'normal'"))]) .nil)]) .nil

/-- `SpiderVehicle.Format.RequestFilters`: `/repo/draftsman/prototypes/spider_vehicle.py:55-67`. -/
def spiderVehicleRequestFilters : Shape := .model true (.of [
  field "sections" true (some (.list .nil)) (.list signalSection),
  field "trash_not_requested" true (some (.raw (.atom "False"))) .plain,
  field "request_from_buffers" true (some (.raw (.atom "True"))) .plain,
  field "enabled" true (some (.raw (.atom "True"))) .plain])

/-- `SpiderVehicle.Format.RequestFilters()`, all fields at their defaults: the same lines. `/repo/draftsman/prototypes/spider_vehicle.py:55`. -/
def spiderVehicleRequestFiltersDefault : Val := .model (.of [(.list .nil), (.raw (.atom "False")), (.raw (.atom "True")), (.raw (.atom "True"))]) .nil

/-- `SpiderVehicle.Format.AutoTargetParameters`: `/repo/draftsman/prototypes/spider_vehicle.py:43-47`. -/
def spiderVehicleAutoTargetParameters : Shape := .model true (.of [
  field "auto_target_without_gunner" false (some (.raw (.atom "True"))) .plain,
  field "auto_target_with_gunner" false (some (.raw (.atom "False"))) .plain])

/-- `SpiderVehicle.Format.AutoTargetParameters()`, all fields at their defaults: the same lines. `/repo/draftsman/prototypes/spider_vehicle.py:43`. -/
def spiderVehicleAutoTargetParametersDefault : Val := .model (.of [(.raw (.atom "True")), (.raw (.atom "False"))]) .nil

/-- `TrainStop.Format.ControlBehavior`: `/repo/draftsman/prototypes/train_stop.py:55-111`, `/repo/draftsman/classes/mixins/circuit_condition.py:17-25`, `/repo/draftsman/classes/mixins/logistic_condition.py:18-26`, `/repo/draftsman/classes/mixins/circuit_enable.py:17-18`. -/
def trainStopControlBehavior : Shape := .model true (.of [
  field "circuit_enabled" true (some (.raw (.atom "False"))) .plain,
  field "connect_to_logistic_network" true (some (.raw (.atom "False"))) .plain,
  field "logistic_condition" true (some conditionDefault) condition,
  field "circuit_condition_enabled" true (some (.raw (.atom "False"))) .plain,
  field "circuit_condition" true (some conditionDefault) condition,
  field "send_to_train" true (some (.raw (.atom "True"))) .plain,
  field "set_trains_limit" true (some (.raw (.atom "False"))) .plain,
  field "trains_limit_signal" true (some (.model (.of [(.raw (.atom "'signal-L'")), (.raw (.atom "'virtual'")), (.raw (.atom "'normal'"))]) .nil)) signalID,
  field "read_from_train" true (some (.raw (.atom "False"))) .plain,
  field "read_stopped_train" true (some (.raw (.atom "False"))) .plain,
  field "train_stopped_signal" true (some (.model (.of [(.raw (.atom "'signal-T'")), (.raw (.atom "'virtual'")), (.raw (.atom "'normal'"))]) .nil)) signalID,
  field "read_trains_count" true (some (.raw (.atom "False"))) .plain,
  field "trains_count_signal" true (some (.model (.of [(.raw (.atom "'signal-C'")), (.raw (.atom "'virtual'")), (.raw (.atom "'normal'"))]) .nil)) signalID])

/-- `TrainStop.Format.ControlBehavior()`, all fields at their defaults: the same lines. `/repo/draftsman/prototypes/train_stop.py:55`. -/
def trainStopControlBehaviorDefault : Val := .model (.of [(.raw (.atom "False")), (.raw (.atom "False")), conditionDefault, (.raw (.atom "False")), conditionDefault, (.raw (.atom "True")), (.raw (.atom "False")), (.model (.of [(.raw (.atom "'signal-L'")), (.raw (.atom "'virtual'")), (.raw (.atom "'normal'"))]) .nil), (.raw (.atom "False")), (.raw (.atom "False")), (.model (.of [(.raw (.atom "'signal-T'")), (.raw (.atom "'virtual'")), (.raw (.atom "'normal'"))]) .nil), (.raw (.atom "False")), (.model (.of [(.raw (.atom "'signal-C'")), (.raw (.atom "'virtual'")), (.raw (.atom "'normal'"))]) .nil)]) .nil

/-- `TransportBelt.Format.ControlBehavior`: `/repo/draftsman/prototypes/transport_belt.py:48`, `/repo/draftsman/classes/mixins/circuit_read_contents.py:22-29`, `/repo/draftsman/classes/mixins/circuit_condition.py:17-25`, `/repo/draftsman/classes/mixins/logistic_condition.py:18-26`, `/repo/draftsman/classes/mixins/circuit_enable.py:17-18`. -/
def transportBeltControlBehavior : Shape := .model false (.of [
  field "circuit_enabled" true (some (.raw (.atom "False"))) .plain,
  field "connect_to_logistic_network" true (some (.raw (.atom "False"))) .plain,
  field "logistic_condition" true (some conditionDefault) condition,
  field "circuit_condition_enabled" true (some (.raw (.atom "False"))) .plain,
  field "circuit_condition" true (some conditionDefault) condition,
  field "circuit_read_hand_contents" true (some .none) .plain,
  field "circuit_contents_read_mode" true (some .none) .plain])

/-- `TransportBelt.Format.ControlBehavior()`, all fields at their defaults: the same lines. `/repo/draftsman/prototypes/transport_belt.py:48`. -/
def transportBeltControlBehaviorDefault : Val := .model (.of [(.raw (.atom "False")), (.raw (.atom "False")), conditionDefault, (.raw (.atom "False")), conditionDefault, .none, .none]) .nil

/-- `Wall.Format.ControlBehavior`: `/repo/draftsman/prototypes/wall.py:40-60`, `/repo/draftsman/classes/mixins/circuit_condition.py:17-25`, `/repo/draftsman/classes/mixins/circuit_enable.py:17-18`. -/
def wallControlBehavior : Shape := .model true (.of [
  field "circuit_enabled" true (some (.raw (.atom "False"))) .plain,
  field "circuit_condition_enabled" true (some (.raw (.atom "False"))) .plain,
  field "circuit_condition" true (some conditionDefault) condition,
  field "circuit_open_gate" true (some (.raw (.atom "True"))) .plain,
  field "circuit_read_sensor" true (some (.raw (.atom "False"))) .plain,
  field "output_signal" true (some (.model (.of [(.raw (.atom "'signal-G'")), (.raw (.atom "'virtual'")), (.raw (.atom "'normal'"))]) .nil)) signalID])

/-- `Wall.Format.ControlBehavior()`, all fields at their defaults: the same lines. `/repo/draftsman/prototypes/wall.py:40`. -/
def wallControlBehaviorDefault : Val := .model (.of [(.raw (.atom "False")), (.raw (.atom "False")), conditionDefault, (.raw (.atom "True")), (.raw (.atom "False")), (.model (.of [(.raw (.atom "'signal-G'")), (.raw (.atom "'virtual'")), (.raw (.atom "'normal'"))]) .nil)]) .nil

/-- `Icon`: `/repo/draftsman/signatures.py:492-494`. -/
def icon : Shape := .model true (.of [
  field "signal" false none signalID,
  field "index" false none .plain])

/-- `EntityFilter`: `/repo/draftsman/signatures.py:777-784`. -/
def entityFilter : Shape := .model true (.of [
  field "name" false none .plain,
  field "index" true none .plain])

/-- `TileFilter`: `/repo/draftsman/signatures.py:794-801`. -/
def tileFilter : Shape := .model true (.of [
  field "name" false none .plain,
  field "index" true none .plain])

/-- `DeconstructionPlanner.Format.DeconstructionPlannerObject.Settings`: `/repo/draftsman/classes/deconstruction_planner.py:117-177`. -/
def deconstructionPlannerDeconstructionPlannerObjectSettings : Shape := .model true (.of [
  field "description" true (some .none) .plain,
  field "icons" true (some .none) (.list icon),
  field "entity_filter_mode" true (some (.raw (.atom "FilterMode.WHITELIST"))) .plain,
  field "entity_filters" true (some (.list .nil)) (.list entityFilter),
  field "trees_and_rocks_only" true (some (.raw (.atom "False"))) .plain,
  field "tile_filter_mode" true (some (.raw (.atom "FilterMode.WHITELIST"))) .plain,
  field "tile_filters" true (some (.list .nil)) (.list tileFilter),
  field "tile_selection_mode" true (some (.raw (.atom "TileSelectionMode.NEVER"))) .plain])

/-- `DeconstructionPlanner.Format.DeconstructionPlannerObject.Settings()`, all fields at their defaults: the same lines. `/repo/draftsman/classes/deconstruction_planner.py:117`. -/
def deconstructionPlannerDeconstructionPlannerObjectSettingsDefault : Val := .model (.of [.none, .none, (.raw (.atom "FilterMode.WHITELIST")), (.list .nil), (.raw (.atom "False")), (.raw (.atom "FilterMode.WHITELIST")), (.list .nil), (.raw (.atom "TileSelectionMode.NEVER"))]) .nil

/-- `MapperID`: `/repo/draftsman/signatures.py:250-252`. -/
def mapperID : Shape := .model true (.of [
  field "name" false none .plain,
  field "type" false none .plain])

/-- `Mapper`: `/repo/draftsman/signatures.py:282-300`. -/
def mapper : Shape := .model true (.of [
  field "from_" true (some .none) mapperID (key := "from"),
  field "to" true (some .none) mapperID,
  field "index" false none .plain])

/-- `UpgradePlanner.Format.UpgradePlannerObject.Settings`: `/repo/draftsman/classes/upgrade_planner.py:258-277`. -/
def upgradePlannerUpgradePlannerObjectSettings : Shape := .model true (.of [
  field "description" true (some .none) .plain,
  field "icons" true (some .none) (.list icon),
  field "mappers" true (some .none) (.list mapper)])

/-- `UpgradePlanner.Format.UpgradePlannerObject.Settings()`, all fields at their defaults: the same lines. `/repo/draftsman/classes/upgrade_planner.py:258`. -/
def upgradePlannerUpgradePlannerObjectSettingsDefault : Val := .model (.of [.none, .none, .none]) .nil

/-- The models that are parts of what is exported, with the names of their classes (e.g. `/repo/draftsman/signatures.py:349-367`); the lines are cited at each. -/
def models : List (String × Shape) := [
  ("FloatPosition", floatPosition),
  ("SignalID", signalID),
  ("Accumulator.Format.ControlBehavior", accumulatorControlBehavior),
  ("NetworkSpecification", networkSpecification),
  ("Condition", condition),
  ("AgriculturalTower.Format.ControlBehavior", agriculturalTowerControlBehavior),
  ("TargetID", targetID),
  ("ItemSpecification.InventoryLocation", itemSpecificationInventoryLocation),
  ("ItemSpecification", itemSpecification),
  ("ItemRequest", itemRequest),
  ("AmmoTurret.Format.ControlBehavior", ammoTurretControlBehavior),
  ("ArithmeticCombinator.Format.ControlBehavior.ArithmeticConditions", arithmeticCombinatorControlBehaviorArithmeticConditions),
  ("ArithmeticCombinator.Format.ControlBehavior", arithmeticCombinatorControlBehavior),
  ("ArtilleryTurret.Format.ControlBehavior", artilleryTurretControlBehavior),
  ("EquipmentGridMixin.Format.EquipmentComponent.EquipmentID", equipmentGridMixinEquipmentComponentEquipmentID),
  ("IntPosition", intPosition),
  ("EquipmentGridMixin.Format.EquipmentComponent", equipmentGridMixinEquipmentComponent),
  ("AsteroidCollector.Format.ControlBehavior", asteroidCollectorControlBehavior),
  ("AsteroidChunkID", asteroidChunkID),
  ("SignalFilter", signalFilter),
  ("Section", signalSection),
  ("RequestFiltersMixin.Format.RequestFilters", requestFiltersMixinRequestFilters),
  ("CargoLandingPad.Format.ControlBehavior", cargoLandingPadControlBehavior),
  ("ItemFilter", itemFilter),
  ("InventoryFilterMixin.Format.InventoryFilters", inventoryFilterMixinInventoryFilters),
  ("Sections", sections),
  ("ConstantCombinator.Format.ControlBehavior", constantCombinatorControlBehavior),
  ("DeciderCombinator.Format.ControlBehavior.DeciderConditions", deciderCombinatorControlBehaviorDeciderConditions),
  ("DeciderCombinator.Format.ControlBehavior", deciderCombinatorControlBehavior),
  ("DisplayPanel.Format.ControlBehavior.PanelMessage", displayPanelControlBehaviorPanelMessage),
  ("DisplayPanel.Format.ControlBehavior", displayPanelControlBehavior),
  ("ElectricTurret.Format.ControlBehavior", electricTurretControlBehavior),
  ("FluidTurret.Format.ControlBehavior", fluidTurretControlBehavior),
  ("InfinityContainer.Format.InfinitySettings.InfinityFilter", infinityContainerInfinitySettingsInfinityFilter),
  ("InfinityContainer.Format.InfinitySettings", infinityContainerInfinitySettings),
  ("InfinityPipe.Format.InfinitySettings", infinityPipeInfinitySettings),
  ("Inserter.Format.ControlBehavior", inserterControlBehavior),
  ("Lamp.Format.ControlBehavior", lampControlBehavior),
  ("Color", color),
  ("LogisticActiveContainer.Format.ControlBehavior", logisticActiveContainerControlBehavior),
  ("LogisticBufferContainer.Format.ControlBehavior", logisticBufferContainerControlBehavior),
  ("LogisticPassiveContainer.Format.ControlBehavior", logisticPassiveContainerControlBehavior),
  ("LogisticRequestContainer.Format.LogisticsRequestFilters", logisticRequestContainerLogisticsRequestFilters),
  ("LogisticRequestContainer.Format.ControlBehavior", logisticRequestContainerControlBehavior),
  ("LogisticStorageContainer.Format.ControlBehavior", logisticStorageContainerControlBehavior),
  ("MiningDrill.Format.ControlBehavior", miningDrillControlBehavior),
  ("OffshorePump.Format.ControlBehavior", offshorePumpControlBehavior),
  ("PowerSwitch.Format.ControlBehavior", powerSwitchControlBehavior),
  ("ProgrammableSpeaker.Format.ControlBehavior.CircuitParameters", programmableSpeakerControlBehaviorCircuitParameters),
  ("ProgrammableSpeaker.Format.ControlBehavior", programmableSpeakerControlBehavior),
  ("ProgrammableSpeaker.Format.Parameters", programmableSpeakerParameters),
  ("ProgrammableSpeaker.Format.AlertParameters", programmableSpeakerAlertParameters),
  ("Pump.Format.ControlBehavior", pumpControlBehavior),
  ("RailChainSignal.Format.ControlBehavior", railChainSignalControlBehavior),
  ("RailSignal.Format.ControlBehavior", railSignalControlBehavior),
  ("Reactor.Format.ControlBehavior", reactorControlBehavior),
  ("Roboport.Format.ControlBehavior", roboportControlBehavior),
  ("RocketSilo.Format.ControlBehavior", rocketSiloControlBehavior),
  ("QualityFilter", qualityFilter),
  ("SelectorCombinator.Format.ControlBehavior", selectorCombinatorControlBehavior),
  ("SpacePlatformHub.Format.ControlBehavior", spacePlatformHubControlBehavior),
  ("SpiderVehicle.Format.RequestFilters", spiderVehicleRequestFilters),
  ("SpiderVehicle.Format.AutoTargetParameters", spiderVehicleAutoTargetParameters),
  ("TrainStop.Format.ControlBehavior", trainStopControlBehavior),
  ("TransportBelt.Format.ControlBehavior", transportBeltControlBehavior),
  ("Wall.Format.ControlBehavior", wallControlBehavior),
  ("Icon", icon),
  ("EntityFilter", entityFilter),
  ("TileFilter", tileFilter),
  ("DeconstructionPlanner.Format.DeconstructionPlannerObject.Settings", deconstructionPlannerDeconstructionPlannerObjectSettings),
  ("MapperID", mapperID),
  ("Mapper", mapper),
  ("UpgradePlanner.Format.UpgradePlannerObject.Settings", upgradePlannerUpgradePlannerObjectSettings)]

end Nested
end Draftsman
