import Verif.Model.Attr
/-
The settable attributes of every entity class and the fields of a new entity.
Written by `tools/attr_table.py` from the text of `/repo`; each row cites the getter and setter it was read from.
Left out: `name`, `id`, `position`, `tile_position`, `direction`, `orientation` (modelled with the geometry), the names of instruments and
notes, the operands of arithmetic combinators, and the class `FilterInserter`, which is never imported.
-/
namespace Draftsman
namespace Attr

/-- Settable attributes defined in `Entity`, `/repo/draftsman/classes/entity.py:431-684`. -/
def entityAttrs : List Attr := [
  ⟨"quality", ["quality"], ["quality"], .checked⟩,  -- lines 431-446
  ⟨"tags", ["tags"], ["tags"], .checked⟩]  -- lines 662-684

/-- Settable attributes defined in `ArtilleryAutoTargetMixin`, `/repo/draftsman/classes/mixins/artillery_auto_target.py:32-50`. -/
def artilleryAutoTargetMixinAttrs : List Attr := [
  ⟨"auto_target", ["artillery_auto_targeting"], ["artillery_auto_targeting"], .checked⟩]  -- lines 32-50

/-- Settable attributes defined in `CircuitConditionMixin`, `/repo/draftsman/classes/mixins/circuit_condition.py:39-67`. -/
def circuitConditionMixinAttrs : List Attr := [
  ⟨"circuit_enabled", ["control_behavior", "circuit_enabled"], ["control_behavior", "circuit_enabled"], .checked⟩]  -- lines 39-67

/-- Settable attributes defined in `CircuitEnableMixin`, `/repo/draftsman/classes/mixins/circuit_enable.py:31-59`. -/
def circuitEnableMixinAttrs : List Attr := [
  ⟨"circuit_enabled", ["control_behavior", "circuit_enable"], ["control_behavior", "circuit_enable"], .checked⟩]  -- lines 31-59

/-- Settable attributes defined in `CircuitReadContentsMixin`, `/repo/draftsman/classes/mixins/circuit_read_contents.py:41-96`. -/
def circuitReadContentsMixinAttrs : List Attr := [
  ⟨"read_contents", ["control_behavior", "circuit_read_hand_contents"], ["control_behavior", "circuit_read_hand_contents"], .checked⟩,  -- lines 41-66
  ⟨"read_mode", ["control_behavior", "circuit_contents_read_mode"], ["control_behavior", "circuit_contents_read_mode"], .checked⟩]  -- lines 71-96

/-- Settable attributes defined in `CircuitReadHandMixin`, `/repo/draftsman/classes/mixins/circuit_read_hand.py:41-97`. -/
def circuitReadHandMixinAttrs : List Attr := [
  ⟨"read_hand_contents", ["control_behavior", "circuit_read_hand_contents"], ["control_behavior", "circuit_read_hand_contents"], .checked⟩,  -- lines 41-67
  ⟨"read_mode", ["control_behavior", "circuit_hand_read_mode"], ["control_behavior", "circuit_hand_read_mode"], .checked⟩]  -- lines 72-97

/-- Settable attributes defined in `CircuitReadResourceMixin`, `/repo/draftsman/classes/mixins/circuit_read_resource.py:42-98`. -/
def circuitReadResourceMixinAttrs : List Attr := [
  ⟨"read_resources", ["control_behavior", "circuit_read_resources"], ["control_behavior", "circuit_read_resources"], .checked⟩,  -- lines 42-67
  ⟨"read_mode", ["control_behavior", "circuit_resource_read_mode"], ["control_behavior", "circuit_resource_read_mode"], .checked⟩]  -- lines 72-98

/-- Settable attributes defined in `CircuitSetFiltersMixin`, `/repo/draftsman/classes/mixins/circuit_set_filters.py:30-48`. -/
def circuitSetFiltersMixinAttrs : List Attr := [
  ⟨"circuit_set_filters", ["control_behavior", "circuit_set_filters"], ["control_behavior", "circuit_set_filters"], .checked⟩]  -- lines 30-48

/-- Settable attributes defined in `ColorMixin`, `/repo/draftsman/classes/mixins/color.py:44-77`. -/
def colorMixinAttrs : List Attr := [
  ⟨"color", ["color"], ["color"], .always⟩]  -- lines 44-77

/-- Settable attributes defined in `ControlBehaviorMixin`, `/repo/draftsman/classes/mixins/control_behavior.py:68-89`. -/
def controlBehaviorMixinAttrs : List Attr := [
  ⟨"control_behavior", ["control_behavior"], ["control_behavior"], .checked⟩]  -- lines 68-89

/-- Settable attributes defined in `EquipmentGridMixin`, `/repo/draftsman/classes/mixins/equipment_grid.py:60-97`. -/
def equipmentGridMixinAttrs : List Attr := [
  ⟨"enable_logistics_while_moving", ["enable_logistics_while_moving"], ["enable_logistics_while_moving"], .checked⟩,  -- lines 60-78
  ⟨"equipment_grid", ["grid"], ["grid"], .checked⟩]  -- lines 83-97

/-- Settable attributes defined in `FiltersMixin`, `/repo/draftsman/classes/mixins/filters.py:69-105`. -/
def filtersMixinAttrs : List Attr := [
  ⟨"use_filters", ["use_filters"], ["use_filters"], .always⟩,  -- lines 69-85
  ⟨"filters", ["filters"], ["filters"], .always⟩]  -- lines 90-105

/-- Settable attributes defined in `InventoryMixin`, `/repo/draftsman/classes/mixins/inventory.py:153-181`. -/
def inventoryMixinAttrs : List Attr := [
  ⟨"bar", ["bar"], ["bar"], .checked⟩]  -- lines 153-181

/-- Settable attributes defined in `InventoryFilterMixin`, `/repo/draftsman/classes/mixins/inventory_filter.py:107-225`. -/
def inventoryFilterMixinAttrs : List Attr := [
  ⟨"inventory", ["inventory"], ["inventory"], .always⟩,  -- lines 107-140
  ⟨"filters", ["inventory", "filters"], ["inventory", "filters"], .always⟩,  -- lines 166-181
  ⟨"bar", ["inventory", "bar"], ["inventory", "bar"], .always⟩]  -- lines 197-225

/-- Settable attributes defined in `IOTypeMixin`, `/repo/draftsman/classes/mixins/io_type.py:47-71`. -/
def iOTypeMixinAttrs : List Attr := [
  ⟨"io_type", ["io_type"], ["io_type"], .checked⟩]  -- lines 47-71

/-- Settable attributes defined in `LogisticConditionMixin`, `/repo/draftsman/classes/mixins/logistic_condition.py:38-65`. -/
def logisticConditionMixinAttrs : List Attr := [
  ⟨"connect_to_logistic_network", ["control_behavior", "connect_to_logistic_network"], ["control_behavior", "connect_to_logistic_network"], .checked⟩]  -- lines 38-65

/-- Settable attributes defined in `InserterModeOfOperationMixin`, `/repo/draftsman/classes/mixins/mode_of_operation.py:31-56`. -/
def inserterModeOfOperationMixinAttrs : List Attr := [
  ⟨"mode_of_operation", ["control_behavior", "circuit_mode_of_operation"], ["control_behavior", "circuit_mode_of_operation"], .checked⟩]  -- lines 31-56

/-- Settable attributes defined in `LogisticModeOfOperationMixin`, `/repo/draftsman/classes/mixins/mode_of_operation.py:79-104`. -/
def logisticModeOfOperationMixinAttrs : List Attr := [
  ⟨"mode_of_operation", ["control_behavior", "circuit_mode_of_operation"], ["control_behavior", "circuit_mode_of_operation"], .checked⟩]  -- lines 79-104

/-- Settable attributes defined in `CargoHubModeOfOperationMixin`, `/repo/draftsman/classes/mixins/mode_of_operation.py:127-152`. -/
def cargoHubModeOfOperationMixinAttrs : List Attr := [
  ⟨"mode_of_operation", ["control_behavior", "circuit_mode_of_operation"], ["control_behavior", "circuit_mode_of_operation"], .checked⟩]  -- lines 127-152

/-- Settable attributes defined in `PlayerDescriptionMixin`, `/repo/draftsman/classes/mixins/player_description.py:35-56`. -/
def playerDescriptionMixinAttrs : List Attr := [
  ⟨"player_description", ["player_description"], ["player_description"], .early⟩]  -- lines 35-56

/-- Settable attributes defined in `ReadAmmoMixin`, `/repo/draftsman/classes/mixins/read_ammo.py:31-49`. -/
def readAmmoMixinAttrs : List Attr := [
  ⟨"read_ammo", ["control_behavior", "read_ammo"], ["control_behavior", "read_ammo"], .checked⟩]  -- lines 31-49

/-- Settable attributes defined in `ReadRailSignalMixin`, `/repo/draftsman/classes/mixins/read_rail_signal.py:43-155`. -/
def readRailSignalMixinAttrs : List Attr := [
  ⟨"red_output_signal", ["control_behavior", "red_output_signal"], ["control_behavior", "red_output_signal"], .checked⟩,  -- lines 43-77
  ⟨"yellow_output_signal", ["control_behavior", "yellow_output_signal"], ["control_behavior", "yellow_output_signal"], .checked⟩,  -- lines 82-116
  ⟨"green_output_signal", ["control_behavior", "green_output_signal"], ["control_behavior", "green_output_signal"], .checked⟩]  -- lines 121-155

/-- Settable attributes defined in `RecipeMixin`, `/repo/draftsman/classes/mixins/recipe.py:148-204`. -/
def recipeMixinAttrs : List Attr := [
  ⟨"recipe", ["recipe"], ["recipe"], .early⟩,  -- lines 148-178
  ⟨"recipe_quality", ["recipe"], ["recipe_quality"], .early⟩]  -- lines 183-204

/-- Settable attributes defined in `RequestFiltersMixin`, `/repo/draftsman/classes/mixins/request_filters.py:145-259`. -/
def requestFiltersMixinAttrs : List Attr := [
  ⟨"request_filters", ["request_filters"], ["request_filters"], .always⟩,  -- lines 145-167
  ⟨"trash_not_requested", ["request_filters", "trash_not_requested"], ["request_filters", "trash_not_requested"], .checked⟩,  -- lines 172-190
  ⟨"request_from_buffers", ["request_filters", "request_from_buffers"], ["request_filters", "request_from_buffers"], .checked⟩,  -- lines 195-213
  ⟨"requests_enabled", ["request_filters", "enabled"], ["request_filters", "enabled"], .checked⟩,  -- lines 218-236
  ⟨"sections", ["request_filters", "sections"], ["request_filters", "sections"], .checked⟩]  -- lines 241-259

/-- Settable attributes defined in `RequestItemsMixin`, `/repo/draftsman/classes/mixins/request_items.py:90-118`. -/
def requestItemsMixinAttrs : List Attr := [
  ⟨"items", ["items"], ["items"], .restored⟩]  -- lines 90-118

/-- Settable attributes defined in `StackSizeMixin`, `/repo/draftsman/classes/mixins/stack_size.py:62-155`. -/
def stackSizeMixinAttrs : List Attr := [
  ⟨"override_stack_size", ["override_stack_size"], ["override_stack_size"], .checked⟩,  -- lines 62-82
  ⟨"circuit_stack_size_enabled", ["control_behavior", "circuit_set_stack_size"], ["control_behavior", "circuit_set_stack_size"], .checked⟩,  -- lines 87-113
  ⟨"stack_size_control_signal", ["control_behavior", "stack_control_input_signal"], ["control_behavior", "stack_control_input_signal"], .checked⟩]  -- lines 118-155

/-- Settable attributes defined in `TargetPrioritiesMixin`, `/repo/draftsman/classes/mixins/target_priorities.py:75-162`. -/
def targetPrioritiesMixinAttrs : List Attr := [
  ⟨"priority_list", ["priority_list"], ["priority_list"], .checked⟩,  -- lines 75-93
  ⟨"ignore_unprioritized", ["ignore_unprioritized"], ["ignore_unprioritized"], .checked⟩,  -- lines 98-116
  ⟨"set_priority_list", ["control_behavior", "set_priority_list"], ["control_behavior", "set_priority_list"], .checked⟩,  -- lines 121-139
  ⟨"set_ignore_unlisted_targets", ["control_behavior", "set_ignore_unlisted_targets"], ["control_behavior", "set_ignore_unlisted_targets"], .checked⟩]  -- lines 144-162

/-- Settable attributes defined in `VehicleMixin`, `/repo/draftsman/classes/mixins/vehicle.py:60-93`. -/
def vehicleMixinAttrs : List Attr := [
  ⟨"driver_is_main_gunner", ["driver_is_main_gunner"], ["driver_is_main_gunner"], .checked⟩,  -- lines 60-74
  ⟨"selected_gun_index", ["selected_gun_index"], ["selected_gun_index"], .checked⟩]  -- lines 79-93

/-- Settable attributes defined in `Accumulator`, `/repo/draftsman/prototypes/accumulator.py:74-100`. -/
def accumulatorAttrs : List Attr := [
  ⟨"output_signal", ["control_behavior", "output_signal"], ["control_behavior", "output_signal"], .checked⟩]  -- lines 74-100

/-- Settable attributes defined in `AgriculturalTower`, `/repo/draftsman/prototypes/agricultural_tower.py:89-114`. -/
def agriculturalTowerAttrs : List Attr := [
  ⟨"read_contents", ["control_behavior", "read_contents"], ["control_behavior", "read_contents"], .checked⟩]  -- lines 89-114

/-- Settable attributes defined in `AsteroidCollector`, `/repo/draftsman/prototypes/asteroid_collector.py:145-219`. -/
def asteroidCollectorAttrs : List Attr := [
  ⟨"chunk_filter", ["chunk_filter"], ["chunk_filter"], .checked⟩,  -- lines 145-159
  ⟨"read_contents", ["control_behavior", "circuit_read_contents"], ["control_behavior", "circuit_read_contents"], .checked⟩,  -- lines 164-189
  ⟨"include_hands", ["control_behavior", "include_hands"], ["control_behavior", "include_hands"], .checked⟩]  -- lines 194-219

/-- Settable attributes defined in `ConstantCombinator`, `/repo/draftsman/prototypes/constant_combinator.py:199-243`. -/
def constantCombinatorAttrs : List Attr := [
  ⟨"sections", ["control_behavior", "sections", "sections"], ["control_behavior", "sections", "sections"], .broken⟩,  -- lines 199-214
  ⟨"is_on", ["control_behavior", "is_on"], ["control_behavior", "is_on"], .checked⟩]  -- lines 219-243

/-- Settable attributes defined in `DeciderCombinator`, `/repo/draftsman/prototypes/decider_combinator.py:509-544`. -/
def deciderCombinatorAttrs : List Attr := [
  ⟨"conditions", ["control_behavior", "decider_conditions", "conditions"], ["control_behavior", "decider_conditions", "conditions"], .checked⟩,  -- lines 509-524
  ⟨"outputs", ["control_behavior", "decider_conditions", "outputs"], ["control_behavior", "decider_conditions", "outputs"], .checked⟩]  -- lines 529-544

/-- Settable attributes defined in `DisplayPanel`, `/repo/draftsman/prototypes/display_panel.py:108-167`. -/
def displayPanelAttrs : List Attr := [
  ⟨"text", ["text"], ["text"], .checked⟩,  -- lines 108-119
  ⟨"icon", ["icon"], ["icon"], .checked⟩,  -- lines 124-135
  ⟨"always_show", ["always_show"], ["always_show"], .checked⟩,  -- lines 140-151
  ⟨"show_in_chart", ["show_in_chart"], ["show_in_chart"], .checked⟩]  -- lines 156-167

/-- Settable attributes defined in `ElectricEnergyInterface`, `/repo/draftsman/prototypes/electric_energy_interface.py:145-215`. -/
def electricEnergyInterfaceAttrs : List Attr := [
  ⟨"buffer_size", ["buffer_size"], ["buffer_size"], .checked⟩,  -- lines 145-165
  ⟨"power_production", ["power_production"], ["power_production"], .checked⟩,  -- lines 170-190
  ⟨"power_usage", ["power_usage"], ["power_usage"], .checked⟩]  -- lines 195-215

/-- Settable attributes defined in `HeatInterface`, `/repo/draftsman/prototypes/heat_interface.py:96-155`. -/
def heatInterfaceAttrs : List Attr := [
  ⟨"temperature", ["temperature"], ["temperature"], .checked⟩,  -- lines 96-119
  ⟨"mode", ["mode"], ["mode"], .checked⟩]  -- lines 124-155

/-- Settable attributes defined in `InfinityContainer`, `/repo/draftsman/prototypes/infinity_container.py:115-172`. -/
def infinityContainerAttrs : List Attr := [
  ⟨"infinity_settings", ["infinity_settings"], ["infinity_settings"], .always⟩,  -- lines 115-138
  ⟨"remove_unfiltered_items", ["infinity_settings", "remove_unfiltered_items"], ["infinity_settings", "remove_unfiltered_items"], .checked⟩]  -- lines 150-172

/-- Settable attributes defined in `InfinityPipe`, `/repo/draftsman/prototypes/infinity_pipe.py:129-311`. -/
def infinityPipeAttrs : List Attr := [
  ⟨"infinity_settings", ["infinity_settings"], ["infinity_settings"], .always⟩,  -- lines 129-152
  ⟨"infinite_fluid_name", ["infinity_settings", "name"], ["infinity_settings", "name"], .late⟩,  -- lines 164-185
  ⟨"infinite_fluid_percentage", ["infinity_settings", "percentage"], ["infinity_settings", "percentage"], .late⟩,  -- lines 201-222
  ⟨"infinite_fluid_mode", ["infinity_settings", "mode"], ["infinity_settings", "mode"], .late⟩,  -- lines 238-272
  ⟨"infinite_fluid_temperature", ["infinity_settings", "temperature"], ["infinity_settings", "temperature"], .late⟩]  -- lines 288-311

/-- Settable attributes defined in `Inserter`, `/repo/draftsman/prototypes/inserter.py:156-280`. -/
def inserterAttrs : List Attr := [
  ⟨"pickup_position", ["pickup_position"], ["pickup_position"], .checked⟩,  -- lines 156-176
  ⟨"drop_position", ["drop_position"], ["drop_position"], .checked⟩,  -- lines 181-201
  ⟨"filter_mode", ["filter_mode"], ["filter_mode"], .checked⟩,  -- lines 206-228
  ⟨"spoil_priority", ["spoil_priority"], ["spoil_priority"], .checked⟩,  -- lines 233-252
  ⟨"circuit_set_filters", ["control_behavior", "circuit_set_filters"], ["control_behavior", "circuit_set_filters"], .checked⟩]  -- lines 257-280

/-- Settable attributes defined in `Lamp`, `/repo/draftsman/prototypes/lamp.py:104-175`. -/
def lampAttrs : List Attr := [
  ⟨"use_colors", ["control_behavior", "use_colors"], ["control_behavior", "use_colors"], .checked⟩,  -- lines 104-129
  ⟨"color_mode", ["control_behavior", "color_mode"], ["control_behavior", "color_mode"], .raw⟩,  -- lines 134-142
  ⟨"always_on", ["always_on"], ["always_on"], .raw⟩,  -- lines 147-162
  ⟨"color", ["color"], ["color"], .raw⟩]  -- lines 167-175

/-- Settable attributes defined in `LinkedContainer`, `/repo/draftsman/prototypes/linked_container.py:84-108`. -/
def linkedContainerAttrs : List Attr := [
  ⟨"link_id", ["link_id"], ["link_id"], .orZero⟩]  -- lines 84-108

/-- Settable attributes defined in `PowerSwitch`, `/repo/draftsman/prototypes/power_switch.py:119-139`. -/
def powerSwitchAttrs : List Attr := [
  ⟨"switch_state", ["switch_state"], ["switch_state"], .checked⟩]  -- lines 119-139

/-- Settable attributes defined in `ProgrammableSpeaker`, `/repo/draftsman/prototypes/programmable_speaker.py:392-785`. -/
def programmableSpeakerAttrs : List Attr := [
  ⟨"parameters", ["parameters"], ["parameters"], .always⟩,  -- lines 392-413
  ⟨"alert_parameters", ["alert_parameters"], ["alert_parameters"], .always⟩,  -- lines 425-447
  ⟨"volume", ["parameters", "playback_volume"], ["parameters", "playback_volume"], .checked⟩,  -- lines 459-487
  ⟨"global_playback", ["parameters", "playback_globally"], ["parameters", "playback_globally"], .checked⟩,  -- lines 492-513
  ⟨"show_alert", ["alert_parameters", "show_alert"], ["alert_parameters", "show_alert"], .checked⟩,  -- lines 518-538
  ⟨"allow_polyphony", ["parameters", "allow_polyphony"], ["parameters", "allow_polyphony"], .checked⟩,  -- lines 543-563
  ⟨"show_alert_on_map", ["alert_parameters", "show_on_map"], ["alert_parameters", "show_on_map"], .checked⟩,  -- lines 568-588
  ⟨"alert_icon", ["alert_parameters", "icon_signal_id"], ["alert_parameters", "icon_signal_id"], .checked⟩,  -- lines 593-617
  ⟨"alert_message", ["alert_parameters", "alert_message"], ["alert_parameters", "alert_message"], .checked⟩,  -- lines 622-646
  ⟨"signal_value_is_pitch", ["control_behavior", "circuit_parameters", "signal_value_is_pitch"], ["control_behavior", "circuit_parameters", "signal_value_is_pitch"], .checked⟩,  -- lines 651-673
  ⟨"instrument_id", ["control_behavior", "circuit_parameters", "instrument_id"], ["control_behavior", "circuit_parameters", "instrument_id"], .checked⟩,  -- lines 678-706
  ⟨"note_id", ["control_behavior", "circuit_parameters", "note_id"], ["control_behavior", "circuit_parameters", "note_id"], .checked⟩]  -- lines 759-785

/-- Settable attributes defined in `RailChainSignal`, `/repo/draftsman/prototypes/rail_chain_signal.py:93-127`. -/
def railChainSignalAttrs : List Attr := [
  ⟨"blue_output_signal", ["control_behavior", "blue_output_signal"], ["control_behavior", "blue_output_signal"], .checked⟩]  -- lines 93-127

/-- Settable attributes defined in `RailSignal`, `/repo/draftsman/prototypes/rail_signal.py:112-158`. -/
def railSignalAttrs : List Attr := [
  ⟨"enable_disable", ["control_behavior", "circuit_close_signal"], ["control_behavior", "circuit_close_signal"], .checked⟩,  -- lines 112-127
  ⟨"read_signal", ["control_behavior", "circuit_read_signal"], ["control_behavior", "circuit_read_signal"], .checked⟩]  -- lines 132-158

/-- Settable attributes defined in `Reactor`, `/repo/draftsman/prototypes/reactor.py:102-166`. -/
def reactorAttrs : List Attr := [
  ⟨"read_burner_fuel", ["control_behavior", "read_burner_fuel"], ["control_behavior", "read_burner_fuel"], .checked⟩,  -- lines 102-120
  ⟨"read_temperature", ["control_behavior", "read_temperature"], ["control_behavior", "read_temperature"], .checked⟩,  -- lines 125-143
  ⟨"temperature_signal", ["control_behavior", "temperature_signal"], ["control_behavior", "temperature_signal"], .checked⟩]  -- lines 148-166

/-- Settable attributes defined in `Roboport`, `/repo/draftsman/prototypes/roboport.py:108-291`. -/
def roboportAttrs : List Attr := [
  ⟨"read_logistics", ["control_behavior", "read_logistics"], ["control_behavior", "read_logistics"], .checked⟩,  -- lines 108-133
  ⟨"read_robot_stats", ["control_behavior", "read_robot_stats"], ["control_behavior", "read_robot_stats"], .checked⟩,  -- lines 138-164
  ⟨"available_logistic_signal", ["control_behavior", "available_logistic_output_signal"], ["control_behavior", "available_logistic_output_signal"], .checked⟩,  -- lines 169-196
  ⟨"total_logistic_signal", ["control_behavior", "total_logistic_output_signal"], ["control_behavior", "total_logistic_output_signal"], .checked⟩,  -- lines 201-227
  ⟨"available_construction_signal", ["control_behavior", "available_construction_output_signal"], ["control_behavior", "available_construction_output_signal"], .checked⟩,  -- lines 232-259
  ⟨"total_construction_signal", ["control_behavior", "total_construction_output_signal"], ["control_behavior", "total_construction_output_signal"], .checked⟩]  -- lines 264-291

/-- Settable attributes defined in `RocketSilo`, `/repo/draftsman/prototypes/rocket_silo.py:109-171`. -/
def rocketSiloAttrs : List Attr := [
  ⟨"auto_launch", ["auto_launch"], ["auto_launch"], .checked⟩,  -- lines 109-129
  ⟨"read_items_mode", ["control_behavior", "read_items_mode"], ["control_behavior", "read_items_mode"], .checked⟩,  -- lines 134-152
  ⟨"transitional_request_index", ["transitional_request_index"], ["transitional_request_index"], .checked⟩]  -- lines 157-171

/-- Settable attributes defined in `SimpleEntityWithForce`, `/repo/draftsman/prototypes/simple_entity_with_force.py:70-84`. -/
def simpleEntityWithForceAttrs : List Attr := [
  ⟨"variation", ["variation"], ["variation"], .checked⟩]  -- lines 70-84

/-- Settable attributes defined in `SimpleEntityWithOwner`, `/repo/draftsman/prototypes/simple_entity_with_owner.py:70-84`. -/
def simpleEntityWithOwnerAttrs : List Attr := [
  ⟨"variation", ["variation"], ["variation"], .checked⟩]  -- lines 70-84

/-- Settable attributes defined in `SpacePlatformHub`, `/repo/draftsman/prototypes/space_platform_hub.py:114-132`. -/
def spacePlatformHubAttrs : List Attr := [
  ⟨"request_missing_construction_materials", ["request_missing_construction_materials"], ["request_missing_construction_materials"], .checked⟩]  -- lines 114-132

/-- Settable attributes defined in `SpiderVehicle`, `/repo/draftsman/prototypes/spider_vehicle.py:127-193`. -/
def spiderVehicleAttrs : List Attr := [
  ⟨"automatic_targeting_parameters", ["automatic_targeting_parameters"], ["automatic_targeting_parameters"], .checked⟩,  -- lines 127-147
  ⟨"auto_target_without_gunner", ["automatic_targeting_parameters", "auto_target_without_gunner"], ["automatic_targeting_parameters", "auto_target_without_gunner"], .checked⟩,  -- lines 152-170
  ⟨"auto_target_with_gunner", ["automatic_targeting_parameters", "auto_target_with_gunner"], ["automatic_targeting_parameters", "auto_target_with_gunner"], .checked⟩]  -- lines 175-193

/-- Settable attributes defined in `Splitter`, `/repo/draftsman/prototypes/splitter.py:96-171`. -/
def splitterAttrs : List Attr := [
  ⟨"input_priority", ["input_priority"], ["input_priority"], .checked⟩,  -- lines 96-118
  ⟨"output_priority", ["output_priority"], ["output_priority"], .checked⟩,  -- lines 123-145
  ⟨"filter", ["filter"], ["filter"], .checked⟩]  -- lines 150-171

/-- Settable attributes defined in `TrainStop`, `/repo/draftsman/prototypes/train_stop.py:182-407`. -/
def trainStopAttrs : List Attr := [
  ⟨"station", ["station"], ["station"], .checked⟩,  -- lines 182-197
  ⟨"manual_trains_limit", ["manual_trains_limit"], ["manual_trains_limit"], .checked⟩,  -- lines 202-217
  ⟨"send_to_train", ["control_behavior", "send_to_train"], ["control_behavior", "send_to_train"], .checked⟩,  -- lines 222-241
  ⟨"read_from_train", ["control_behavior", "read_from_train"], ["control_behavior", "read_from_train"], .checked⟩,  -- lines 246-265
  ⟨"read_stopped_train", ["control_behavior", "read_stopped_train"], ["control_behavior", "read_stopped_train"], .checked⟩,  -- lines 270-289
  ⟨"train_stopped_signal", ["control_behavior", "train_stopped_signal"], ["control_behavior", "train_stopped_signal"], .checked⟩,  -- lines 294-313
  ⟨"signal_limits_trains", ["control_behavior", "set_trains_limit"], ["control_behavior", "set_trains_limit"], .checked⟩,  -- lines 318-337
  ⟨"trains_limit_signal", ["control_behavior", "trains_limit_signal"], ["control_behavior", "trains_limit_signal"], .checked⟩,  -- lines 342-360
  ⟨"read_trains_count", ["control_behavior", "read_trains_count"], ["control_behavior", "read_trains_count"], .checked⟩,  -- lines 365-383
  ⟨"trains_count_signal", ["control_behavior", "trains_count_signal"], ["control_behavior", "trains_count_signal"], .checked⟩]  -- lines 388-407

/-- Settable attributes defined in `Wall`, `/repo/draftsman/prototypes/wall.py:106-169`. -/
def wallAttrs : List Attr := [
  ⟨"enable_disable", ["control_behavior", "circuit_open_gate"], ["control_behavior", "circuit_open_gate"], .checked⟩,  -- lines 106-121
  ⟨"read_gate", ["control_behavior", "circuit_read_sensor"], ["control_behavior", "circuit_read_sensor"], .checked⟩,  -- lines 126-145
  ⟨"output_signal", ["control_behavior", "output_signal"], ["control_behavior", "output_signal"], .checked⟩]  -- lines 150-169

/-- `/repo/draftsman/prototypes/accumulator.py:18` with its mixins, fields declared at lines 23-39 and in the formats of the mixins. -/
def accumulator : Cls where
  name := "Accumulator"
  layers := [accumulatorAttrs, controlBehaviorMixinAttrs, entityAttrs]
  fresh := .model [("name", .atom 0), ("quality", .atom 0), ("position", .atom 0), ("entity_number", .atom 0), ("tags", .atom 0),
    ("control_behavior", .model [("output_signal", .atom 0)])]

/-- `/repo/draftsman/prototypes/agricultural_tower.py:21` with its mixins, fields declared at lines 32-54 and in the formats of the mixins. -/
def agriculturalTower : Cls where
  name := "AgriculturalTower"
  layers := [agriculturalTowerAttrs, logisticConditionMixinAttrs, circuitConditionMixinAttrs, controlBehaviorMixinAttrs, entityAttrs]
  fresh := .model [("name", .atom 0), ("quality", .atom 0), ("position", .atom 0), ("entity_number", .atom 0), ("tags", .atom 0),
    ("control_behavior", .model [("connect_to_logistic_network", .atom 0), ("logistic_condition", .atom 0), ("circuit_condition_enabled",
    .atom 0), ("circuit_condition", .atom 0), ("read_contents", .atom 0)])]

/-- `/repo/draftsman/prototypes/ammo_turret.py:26` with its mixins, fields declared at lines 43-67 and in the formats of the mixins. -/
def ammoTurret : Cls where
  name := "AmmoTurret"
  layers := [requestItemsMixinAttrs, readAmmoMixinAttrs, targetPrioritiesMixinAttrs, circuitConditionMixinAttrs, logisticConditionMixinAttrs,
    circuitEnableMixinAttrs, controlBehaviorMixinAttrs, entityAttrs]
  fresh := .model [("name", .atom 0), ("quality", .atom 0), ("position", .atom 0), ("entity_number", .atom 0), ("tags", .atom 0), ("direction",
    .atom 0), ("priority_list", .atom 0), ("ignore_unprioritized", .atom 0), ("items", .atom 0), ("control_behavior",
    .model [("circuit_enabled", .atom 0), ("connect_to_logistic_network", .atom 0), ("logistic_condition", .atom 0),
    ("circuit_condition_enabled", .atom 0), ("circuit_condition", .atom 0), ("set_priority_list", .atom 0),
    ("set_ignore_unlisted_targets", .atom 0), ("ignore_unlisted_targets_condition", .atom 0), ("read_ammo", .atom 0)])]

/-- `/repo/draftsman/prototypes/arithmetic_combinator.py:29` with its mixins, fields declared at lines 41-220 and in the formats of the mixins. -/
def arithmeticCombinator : Cls where
  name := "ArithmeticCombinator"
  layers := [playerDescriptionMixinAttrs, controlBehaviorMixinAttrs, entityAttrs]
  fresh := .model [("name", .atom 0), ("quality", .atom 0), ("position", .atom 0), ("entity_number", .atom 0), ("tags", .atom 0), ("direction",
    .atom 0), ("player_description", .atom 0), ("control_behavior", .atom 0)]

/-- `/repo/draftsman/prototypes/artillery_turret.py:29` with its mixins, fields declared at lines 46-69 and in the formats of the mixins. -/
def artilleryTurret : Cls where
  name := "ArtilleryTurret"
  layers := [artilleryAutoTargetMixinAttrs, requestItemsMixinAttrs, readAmmoMixinAttrs, circuitConditionMixinAttrs, logisticConditionMixinAttrs,
    circuitEnableMixinAttrs, controlBehaviorMixinAttrs, entityAttrs]
  fresh := .model [("name", .atom 0), ("quality", .atom 0), ("position", .atom 0), ("entity_number", .atom 0), ("tags", .atom 0), ("direction",
    .atom 0), ("items", .atom 0), ("artillery_auto_targeting", .atom 0), ("control_behavior", .model [("circuit_enabled", .atom 0),
    ("connect_to_logistic_network", .atom 0), ("logistic_condition", .atom 0), ("circuit_condition_enabled", .atom 0),
    ("circuit_condition", .atom 0), ("read_ammo", .atom 0)])]

/-- `/repo/draftsman/prototypes/artillery_wagon.py:21` with its mixins, fields declared at lines 32-39 and in the formats of the mixins. -/
def artilleryWagon : Cls where
  name := "ArtilleryWagon"
  layers := [artilleryAutoTargetMixinAttrs, equipmentGridMixinAttrs, requestItemsMixinAttrs, entityAttrs]
  fresh := .model [("name", .atom 0), ("quality", .atom 0), ("position", .atom 0), ("entity_number", .atom 0), ("tags", .atom 0), ("orientation",
    .atom 0), ("items", .atom 0), ("enable_logistics_while_moving", .atom 0), ("grid", .atom 0), ("artillery_auto_targeting", .atom 0)]

/-- `/repo/draftsman/prototypes/assembling_machine.py:25` with its mixins, fields declared at lines 40-84 and in the formats of the mixins. -/
def assemblingMachine : Cls where
  name := "AssemblingMachine"
  layers := [requestItemsMixinAttrs, recipeMixinAttrs, entityAttrs]
  fresh := .model [("name", .atom 0), ("quality", .atom 0), ("position", .atom 0), ("entity_number", .atom 0), ("tags", .atom 0), ("direction",
    .atom 0), ("recipe", .atom 0), ("recipe_quality", .atom 0), ("items", .atom 0)]

/-- `/repo/draftsman/prototypes/asteroid_collector.py:24` with its mixins, fields declared at lines 37-93 and in the formats of the mixins. -/
def asteroidCollector : Cls where
  name := "AsteroidCollector"
  layers := [asteroidCollectorAttrs, circuitSetFiltersMixinAttrs, circuitConditionMixinAttrs, circuitEnableMixinAttrs, controlBehaviorMixinAttrs,
    entityAttrs]
  fresh := .model [("name", .atom 0), ("quality", .atom 0), ("position", .atom 0), ("entity_number", .atom 0), ("tags", .atom 0), ("direction",
    .atom 0), ("control_behavior", .model [("circuit_enabled", .atom 0), ("circuit_condition_enabled", .atom 0), ("circuit_condition",
    .atom 0), ("circuit_set_filters", .atom 0), ("circuit_read_contents", .atom 0), ("include_hands", .atom 0)]), ("result_inventory",
    .atom 0), ("chunk_filter", .atom 0)]

/-- `/repo/draftsman/prototypes/beacon.py:20` with its mixins, fields declared at lines 25-30 and in the formats of the mixins. -/
def beacon : Cls where
  name := "Beacon"
  layers := [requestItemsMixinAttrs, entityAttrs]
  fresh := .model [("name", .atom 0), ("quality", .atom 0), ("position", .atom 0), ("entity_number", .atom 0), ("tags", .atom 0), ("items",
    .atom 0)]

/-- `/repo/draftsman/prototypes/boiler.py:17` with its mixins, fields declared at lines 23-24 and in the formats of the mixins. -/
def boiler : Cls where
  name := "Boiler"
  layers := [requestItemsMixinAttrs, entityAttrs]
  fresh := .model [("name", .atom 0), ("quality", .atom 0), ("position", .atom 0), ("entity_number", .atom 0), ("tags", .atom 0), ("direction",
    .atom 0), ("items", .atom 0)]

/-- `/repo/draftsman/prototypes/burner_generator.py:22` with its mixins, fields declared at lines 29-67 and in the formats of the mixins. -/
def burnerGenerator : Cls where
  name := "BurnerGenerator"
  layers := [requestItemsMixinAttrs, entityAttrs]
  fresh := .model [("name", .atom 0), ("quality", .atom 0), ("position", .atom 0), ("entity_number", .atom 0), ("tags", .atom 0), ("direction",
    .atom 0), ("items", .atom 0)]

/-- `/repo/draftsman/prototypes/car.py:22` with its mixins, fields declared at lines 29-36 and in the formats of the mixins. -/
def car : Cls where
  name := "Car"
  layers := [vehicleMixinAttrs, equipmentGridMixinAttrs, requestItemsMixinAttrs, entityAttrs]
  fresh := .model [("name", .atom 0), ("quality", .atom 0), ("position", .atom 0), ("entity_number", .atom 0), ("tags", .atom 0), ("orientation",
    .atom 0), ("items", .atom 0), ("enable_logistics_while_moving", .atom 0), ("grid", .atom 0), ("trunk_inventory", .atom 0),
    ("ammo_inventory", .atom 0), ("driver_is_main_gunner", .atom 0), ("selected_gun_index", .atom 0)]

/-- `/repo/draftsman/prototypes/cargo_landing_pad.py:21` with its mixins, fields declared at lines 32-46 and in the formats of the mixins.  Not the declared default: `request_filters`, set by `classes/mixins/request_filters.py:72`. -/
def cargoLandingPad : Cls where
  name := "CargoLandingPad"
  layers := [requestFiltersMixinAttrs, cargoHubModeOfOperationMixinAttrs, controlBehaviorMixinAttrs, entityAttrs]
  fresh := .model [("name", .atom 0), ("quality", .atom 0), ("position", .atom 0), ("entity_number", .atom 0), ("tags", .atom 0),
    ("request_filters", .none), ("control_behavior", .model [("circuit_mode_of_operation", .atom 0)])]

/-- `/repo/draftsman/prototypes/cargo_wagon.py:21` with its mixins, fields declared at lines 32-39 and in the formats of the mixins. -/
def cargoWagon : Cls where
  name := "CargoWagon"
  layers := [equipmentGridMixinAttrs, requestItemsMixinAttrs, inventoryFilterMixinAttrs, entityAttrs]
  fresh := .model [("name", .atom 0), ("quality", .atom 0), ("position", .atom 0), ("entity_number", .atom 0), ("tags", .atom 0), ("orientation",
    .atom 0), ("inventory", .model [("filters", .atom 0), ("bar", .atom 0)]), ("items", .atom 0), ("enable_logistics_while_moving",
    .atom 0), ("grid", .atom 0)]

/-- `/repo/draftsman/prototypes/constant_combinator.py:32` with its mixins, fields declared at lines 44-98 and in the formats of the mixins. -/
def constantCombinator : Cls where
  name := "ConstantCombinator"
  layers := [constantCombinatorAttrs, playerDescriptionMixinAttrs, controlBehaviorMixinAttrs, entityAttrs]
  fresh := .model [("name", .atom 0), ("quality", .atom 0), ("position", .atom 0), ("entity_number", .atom 0), ("tags", .atom 0), ("direction",
    .atom 0), ("player_description", .atom 0), ("control_behavior", .model [("sections", .model [("sections", .atom 0)]), ("is_on",
    .atom 0)])]

/-- `/repo/draftsman/prototypes/container.py:20` with its mixins, fields declared at lines 25-31 and in the formats of the mixins. -/
def container : Cls where
  name := "Container"
  layers := [inventoryMixinAttrs, requestItemsMixinAttrs, entityAttrs]
  fresh := .model [("name", .atom 0), ("quality", .atom 0), ("position", .atom 0), ("entity_number", .atom 0), ("tags", .atom 0), ("items",
    .atom 0), ("bar", .atom 0)]

/-- `/repo/draftsman/prototypes/curved_rail_a.py:15` with its mixins, fields declared at lines 20-23 and in the formats of the mixins. -/
def curvedRailA : Cls where
  name := "CurvedRailA"
  layers := [entityAttrs]
  fresh := .model [("name", .atom 0), ("quality", .atom 0), ("position", .atom 0), ("entity_number", .atom 0), ("tags", .atom 0), ("direction",
    .atom 0)]

/-- `/repo/draftsman/prototypes/curved_rail_b.py:15` with its mixins, fields declared at lines 20-23 and in the formats of the mixins. -/
def curvedRailB : Cls where
  name := "CurvedRailB"
  layers := [entityAttrs]
  fresh := .model [("name", .atom 0), ("quality", .atom 0), ("position", .atom 0), ("entity_number", .atom 0), ("tags", .atom 0), ("direction",
    .atom 0)]

/-- `/repo/draftsman/prototypes/decider_combinator.py:278` with its mixins, fields declared at lines 384-464 and in the formats of the mixins. -/
def deciderCombinator : Cls where
  name := "DeciderCombinator"
  layers := [deciderCombinatorAttrs, playerDescriptionMixinAttrs, controlBehaviorMixinAttrs, entityAttrs]
  fresh := .model [("name", .atom 0), ("quality", .atom 0), ("position", .atom 0), ("entity_number", .atom 0), ("tags", .atom 0), ("direction",
    .atom 0), ("player_description", .atom 0), ("control_behavior", .model [("decider_conditions", .model [("conditions", .atom 0),
    ("outputs", .atom 0)])])]

/-- `/repo/draftsman/prototypes/display_panel.py:21` with its mixins, fields declared at lines 28-64 and in the formats of the mixins. -/
def displayPanel : Cls where
  name := "DisplayPanel"
  layers := [displayPanelAttrs, controlBehaviorMixinAttrs, entityAttrs]
  fresh := .model [("name", .atom 0), ("quality", .atom 0), ("position", .atom 0), ("entity_number", .atom 0), ("tags", .atom 0), ("direction",
    .atom 0), ("control_behavior", .atom 0), ("text", .atom 0), ("icon", .atom 0), ("always_show", .atom 0), ("show_in_chart", .atom 0)]

/-- `/repo/draftsman/prototypes/electric_energy_interface.py:21` with its mixins, fields declared at lines 26-51 and in the formats of the mixins. -/
def electricEnergyInterface : Cls where
  name := "ElectricEnergyInterface"
  layers := [electricEnergyInterfaceAttrs, entityAttrs]
  fresh := .model [("name", .atom 0), ("quality", .atom 0), ("position", .atom 0), ("entity_number", .atom 0), ("tags", .atom 0), ("buffer_size",
    .atom 0), ("power_production", .atom 0), ("power_usage", .atom 0)]

/-- `/repo/draftsman/prototypes/electric_pole.py:17` with its mixins, fields declared at lines 22-25 and in the formats of the mixins. -/
def electricPole : Cls where
  name := "ElectricPole"
  layers := [entityAttrs]
  fresh := .model [("name", .atom 0), ("quality", .atom 0), ("position", .atom 0), ("entity_number", .atom 0), ("tags", .atom 0)]

/-- `/repo/draftsman/prototypes/electric_turret.py:26` with its mixins, fields declared at lines 43-67 and in the formats of the mixins. -/
def electricTurret : Cls where
  name := "ElectricTurret"
  layers := [requestItemsMixinAttrs, readAmmoMixinAttrs, targetPrioritiesMixinAttrs, circuitConditionMixinAttrs, logisticConditionMixinAttrs,
    circuitEnableMixinAttrs, controlBehaviorMixinAttrs, entityAttrs]
  fresh := .model [("name", .atom 0), ("quality", .atom 0), ("position", .atom 0), ("entity_number", .atom 0), ("tags", .atom 0), ("direction",
    .atom 0), ("priority_list", .atom 0), ("ignore_unprioritized", .atom 0), ("items", .atom 0), ("control_behavior",
    .model [("circuit_enabled", .atom 0), ("connect_to_logistic_network", .atom 0), ("logistic_condition", .atom 0),
    ("circuit_condition_enabled", .atom 0), ("circuit_condition", .atom 0), ("set_priority_list", .atom 0),
    ("set_ignore_unlisted_targets", .atom 0), ("ignore_unlisted_targets_condition", .atom 0), ("read_ammo", .atom 0)])]

/-- `/repo/draftsman/prototypes/elevated_curved_rail_a.py:15` with its mixins, fields declared at lines 20-23 and in the formats of the mixins. -/
def elevatedCurvedRailA : Cls where
  name := "ElevatedCurvedRailA"
  layers := [entityAttrs]
  fresh := .model [("name", .atom 0), ("quality", .atom 0), ("position", .atom 0), ("entity_number", .atom 0), ("tags", .atom 0), ("direction",
    .atom 0)]

/-- `/repo/draftsman/prototypes/elevated_curved_rail_b.py:15` with its mixins, fields declared at lines 20-23 and in the formats of the mixins. -/
def elevatedCurvedRailB : Cls where
  name := "ElevatedCurvedRailB"
  layers := [entityAttrs]
  fresh := .model [("name", .atom 0), ("quality", .atom 0), ("position", .atom 0), ("entity_number", .atom 0), ("tags", .atom 0), ("direction",
    .atom 0)]

/-- `/repo/draftsman/prototypes/elevated_half_diagonal_rail.py:15` with its mixins, fields declared at lines 22-25 and in the formats of the mixins. -/
def elevatedHalfDiagonalRail : Cls where
  name := "ElevatedHalfDiagonalRail"
  layers := [entityAttrs]
  fresh := .model [("name", .atom 0), ("quality", .atom 0), ("position", .atom 0), ("entity_number", .atom 0), ("tags", .atom 0), ("direction",
    .atom 0)]

/-- `/repo/draftsman/prototypes/elevated_straight_rail.py:15` with its mixins, fields declared at lines 20-23 and in the formats of the mixins. -/
def elevatedStraightRail : Cls where
  name := "ElevatedStraightRail"
  layers := [entityAttrs]
  fresh := .model [("name", .atom 0), ("quality", .atom 0), ("position", .atom 0), ("entity_number", .atom 0), ("tags", .atom 0), ("direction",
    .atom 0)]

/-- `/repo/draftsman/prototypes/fluid_turret.py:26` with its mixins, fields declared at lines 43-67 and in the formats of the mixins. -/
def fluidTurret : Cls where
  name := "FluidTurret"
  layers := [requestItemsMixinAttrs, readAmmoMixinAttrs, targetPrioritiesMixinAttrs, circuitConditionMixinAttrs, logisticConditionMixinAttrs,
    circuitEnableMixinAttrs, controlBehaviorMixinAttrs, entityAttrs]
  fresh := .model [("name", .atom 0), ("quality", .atom 0), ("position", .atom 0), ("entity_number", .atom 0), ("tags", .atom 0), ("direction",
    .atom 0), ("priority_list", .atom 0), ("ignore_unprioritized", .atom 0), ("items", .atom 0), ("control_behavior",
    .model [("circuit_enabled", .atom 0), ("connect_to_logistic_network", .atom 0), ("logistic_condition", .atom 0),
    ("circuit_condition_enabled", .atom 0), ("circuit_condition", .atom 0), ("set_priority_list", .atom 0),
    ("set_ignore_unlisted_targets", .atom 0), ("ignore_unlisted_targets_condition", .atom 0), ("read_ammo", .atom 0)])]

/-- `/repo/draftsman/prototypes/fluid_wagon.py:16` with its mixins, fields declared at lines 21-22 and in the formats of the mixins. -/
def fluidWagon : Cls where
  name := "FluidWagon"
  layers := [entityAttrs]
  fresh := .model [("name", .atom 0), ("quality", .atom 0), ("position", .atom 0), ("entity_number", .atom 0), ("tags", .atom 0), ("orientation",
    .atom 0), ("enable_logistics_while_moving", .atom 0), ("grid", .atom 0)]

/-- `/repo/draftsman/prototypes/furnace.py:27` with its mixins, fields declared at lines 39-110 and in the formats of the mixins. -/
def furnace : Cls where
  name := "Furnace"
  layers := [requestItemsMixinAttrs, entityAttrs]
  fresh := .model [("name", .atom 0), ("quality", .atom 0), ("position", .atom 0), ("entity_number", .atom 0), ("tags", .atom 0), ("direction",
    .atom 0), ("items", .atom 0)]

/-- `/repo/draftsman/prototypes/fusion_generator.py:15` with its mixins, fields declared at lines 20-21 and in the formats of the mixins. -/
def fusionGenerator : Cls where
  name := "FusionGenerator"
  layers := [entityAttrs]
  fresh := .model [("name", .atom 0), ("quality", .atom 0), ("position", .atom 0), ("entity_number", .atom 0), ("tags", .atom 0), ("direction",
    .atom 0)]

/-- `/repo/draftsman/prototypes/gate.py:15` with its mixins, fields declared at lines 20-21 and in the formats of the mixins. -/
def gate : Cls where
  name := "Gate"
  layers := [entityAttrs]
  fresh := .model [("name", .atom 0), ("quality", .atom 0), ("position", .atom 0), ("entity_number", .atom 0), ("tags", .atom 0), ("direction",
    .atom 0)]

/-- `/repo/draftsman/prototypes/generator.py:16` with its mixins, fields declared at lines 21-22 and in the formats of the mixins. -/
def generator : Cls where
  name := "Generator"
  layers := [entityAttrs]
  fresh := .model [("name", .atom 0), ("quality", .atom 0), ("position", .atom 0), ("entity_number", .atom 0), ("tags", .atom 0), ("direction",
    .atom 0)]

/-- `/repo/draftsman/prototypes/heat_interface.py:16` with its mixins, fields declared at lines 21-59 and in the formats of the mixins. -/
def heatInterface : Cls where
  name := "HeatInterface"
  layers := [heatInterfaceAttrs, entityAttrs]
  fresh := .model [("name", .atom 0), ("quality", .atom 0), ("position", .atom 0), ("entity_number", .atom 0), ("tags", .atom 0), ("temperature",
    .atom 0), ("mode", .atom 0)]

/-- `/repo/draftsman/prototypes/heat_pipe.py:14` with its mixins, fields declared at lines 19-20 and in the formats of the mixins. -/
def heatPipe : Cls where
  name := "HeatPipe"
  layers := [entityAttrs]
  fresh := .model [("name", .atom 0), ("quality", .atom 0), ("position", .atom 0), ("entity_number", .atom 0), ("tags", .atom 0)]

/-- `/repo/draftsman/prototypes/infinity_container.py:20` with its mixins, fields declared at lines 25-75 and in the formats of the mixins. -/
def infinityContainer : Cls where
  name := "InfinityContainer"
  layers := [infinityContainerAttrs, requestItemsMixinAttrs, inventoryMixinAttrs, entityAttrs]
  fresh := .model [("name", .atom 0), ("quality", .atom 0), ("position", .atom 0), ("entity_number", .atom 0), ("tags", .atom 0), ("bar",
    .atom 0), ("items", .atom 0), ("infinity_settings", .model [("filters", .atom 0), ("remove_unfiltered_items", .atom 0)])]

/-- `/repo/draftsman/prototypes/infinity_pipe.py:18` with its mixins, fields declared at lines 23-93 and in the formats of the mixins. -/
def infinityPipe : Cls where
  name := "InfinityPipe"
  layers := [infinityPipeAttrs, entityAttrs]
  fresh := .model [("name", .atom 0), ("quality", .atom 0), ("position", .atom 0), ("entity_number", .atom 0), ("tags", .atom 0),
    ("infinity_settings", .model [("name", .atom 0), ("percentage", .atom 0), ("mode", .atom 0), ("temperature", .atom 0)])]

/-- `/repo/draftsman/prototypes/inserter.py:28` with its mixins, fields declared at lines 51-112 and in the formats of the mixins. -/
def inserter : Cls where
  name := "Inserter"
  layers := [inserterAttrs, filtersMixinAttrs, stackSizeMixinAttrs, circuitReadHandMixinAttrs, inserterModeOfOperationMixinAttrs,
    circuitConditionMixinAttrs, logisticConditionMixinAttrs, circuitEnableMixinAttrs, controlBehaviorMixinAttrs, entityAttrs]
  fresh := .model [("name", .atom 0), ("quality", .atom 0), ("position", .atom 0), ("entity_number", .atom 0), ("tags", .atom 0), ("direction",
    .atom 0), ("override_stack_size", .atom 0), ("use_filters", .atom 0), ("filters", .atom 0), ("control_behavior",
    .model [("circuit_enabled", .atom 0), ("connect_to_logistic_network", .atom 0), ("logistic_condition", .atom 0),
    ("circuit_condition_enabled", .atom 0), ("circuit_condition", .atom 0), ("circuit_mode_of_operation", .atom 0),
    ("circuit_read_hand_contents", .atom 0), ("circuit_hand_read_mode", .atom 0), ("circuit_set_stack_size", .atom 0),
    ("stack_control_input_signal", .atom 0), ("circuit_set_filters", .atom 0)]), ("pickup_position", .atom 0), ("drop_position", .atom 0),
    ("filter_mode", .atom 0), ("spoil_priority", .atom 0)]

/-- `/repo/draftsman/prototypes/lab.py:19` with its mixins, fields declared at lines 24-29 and in the formats of the mixins. -/
def lab : Cls where
  name := "Lab"
  layers := [requestItemsMixinAttrs, entityAttrs]
  fresh := .model [("name", .atom 0), ("quality", .atom 0), ("position", .atom 0), ("entity_number", .atom 0), ("tags", .atom 0), ("items",
    .atom 0)]

/-- `/repo/draftsman/prototypes/lamp.py:21` with its mixins, fields declared at lines 28-65 and in the formats of the mixins. -/
def lamp : Cls where
  name := "Lamp"
  layers := [lampAttrs, circuitConditionMixinAttrs, controlBehaviorMixinAttrs, entityAttrs]
  fresh := .model [("name", .atom 0), ("quality", .atom 0), ("position", .atom 0), ("entity_number", .atom 0), ("tags", .atom 0),
    ("control_behavior", .model [("circuit_condition_enabled", .atom 0), ("circuit_condition", .atom 0), ("use_colors", .atom 0),
    ("color_mode", .atom 0)]), ("color", .atom 0), ("always_on", .atom 0)]

/-- `/repo/draftsman/prototypes/land_mine.py:14` with its mixins, fields declared at lines 19-20 and in the formats of the mixins. -/
def landMine : Cls where
  name := "LandMine"
  layers := [entityAttrs]
  fresh := .model [("name", .atom 0), ("quality", .atom 0), ("position", .atom 0), ("entity_number", .atom 0), ("tags", .atom 0)]

/-- `/repo/draftsman/prototypes/legacy_curved_rail.py:51` with its mixins, fields declared at lines 56-59 and in the formats of the mixins. -/
def legacyCurvedRail : Cls where
  name := "LegacyCurvedRail"
  layers := [entityAttrs]
  fresh := .model [("name", .atom 0), ("quality", .atom 0), ("position", .atom 0), ("entity_number", .atom 0), ("tags", .atom 0), ("direction",
    .atom 0)]

/-- `/repo/draftsman/prototypes/legacy_straight_rail.py:45` with its mixins, fields declared at lines 50-53 and in the formats of the mixins. -/
def legacyStraightRail : Cls where
  name := "LegacyStraightRail"
  layers := [entityAttrs]
  fresh := .model [("name", .atom 0), ("quality", .atom 0), ("position", .atom 0), ("entity_number", .atom 0), ("tags", .atom 0), ("direction",
    .atom 0)]

/-- `/repo/draftsman/prototypes/lightning_attractor.py:14` with its mixins, fields declared at lines 20-21 and in the formats of the mixins. -/
def lightningAttractor : Cls where
  name := "LightningAttractor"
  layers := [entityAttrs]
  fresh := .model [("name", .atom 0), ("quality", .atom 0), ("position", .atom 0), ("entity_number", .atom 0), ("tags", .atom 0)]

/-- `/repo/draftsman/prototypes/linked_belt.py:15` with its mixins, fields declared at lines 26-27 and in the formats of the mixins. -/
def linkedBelt : Cls where
  name := "LinkedBelt"
  layers := [entityAttrs]
  fresh := .model [("name", .atom 0), ("quality", .atom 0), ("position", .atom 0), ("entity_number", .atom 0), ("tags", .atom 0), ("direction",
    .atom 0)]

/-- `/repo/draftsman/prototypes/linked_container.py:17` with its mixins, fields declared at lines 23-44 and in the formats of the mixins. -/
def linkedContainer : Cls where
  name := "LinkedContainer"
  layers := [linkedContainerAttrs, inventoryMixinAttrs, requestItemsMixinAttrs, entityAttrs]
  fresh := .model [("name", .atom 0), ("quality", .atom 0), ("position", .atom 0), ("entity_number", .atom 0), ("tags", .atom 0), ("items",
    .atom 0), ("bar", .atom 0), ("link_id", .atom 0)]

/-- `/repo/draftsman/prototypes/loader.py:16` with its mixins, fields declared at lines 22-28 and in the formats of the mixins. -/
def loader : Cls where
  name := "Loader"
  layers := [filtersMixinAttrs, iOTypeMixinAttrs, entityAttrs]
  fresh := .model [("name", .atom 0), ("quality", .atom 0), ("position", .atom 0), ("entity_number", .atom 0), ("tags", .atom 0), ("direction",
    .atom 0), ("io_type", .atom 0), ("use_filters", .atom 0), ("filters", .atom 0)]

/-- `/repo/draftsman/prototypes/locomotive.py:21` with its mixins, fields declared at lines 28-35 and in the formats of the mixins. -/
def locomotive : Cls where
  name := "Locomotive"
  layers := [equipmentGridMixinAttrs, requestItemsMixinAttrs, colorMixinAttrs, entityAttrs]
  fresh := .model [("name", .atom 0), ("quality", .atom 0), ("position", .atom 0), ("entity_number", .atom 0), ("tags", .atom 0), ("orientation",
    .atom 0), ("color", .atom 0), ("items", .atom 0), ("enable_logistics_while_moving", .atom 0), ("grid", .atom 0)]

/-- `/repo/draftsman/prototypes/logistic_active_container.py:24` with its mixins, fields declared at lines 38-55 and in the formats of the mixins. -/
def logisticActiveContainer : Cls where
  name := "LogisticActiveContainer"
  layers := [inventoryMixinAttrs, requestItemsMixinAttrs, logisticModeOfOperationMixinAttrs, circuitConditionMixinAttrs,
    controlBehaviorMixinAttrs, entityAttrs]
  fresh := .model [("name", .atom 0), ("quality", .atom 0), ("position", .atom 0), ("entity_number", .atom 0), ("tags", .atom 0), ("items",
    .atom 0), ("bar", .atom 0), ("control_behavior", .bare [("circuit_condition_enabled", .atom 0), ("circuit_condition", .atom 0),
    ("circuit_mode_of_operation", .atom 0)])]

/-- `/repo/draftsman/prototypes/logistic_buffer_container.py:29` with its mixins, fields declared at lines 43-62 and in the formats of the mixins. -/
def logisticBufferContainer : Cls where
  name := "LogisticBufferContainer"
  layers := [inventoryMixinAttrs, requestItemsMixinAttrs, logisticModeOfOperationMixinAttrs, circuitConditionMixinAttrs,
    controlBehaviorMixinAttrs, requestFiltersMixinAttrs, entityAttrs]
  fresh := .model [("name", .atom 0), ("quality", .atom 0), ("position", .atom 0), ("entity_number", .atom 0), ("tags", .atom 0),
    ("request_filters", .model [("sections", .atom 0), ("trash_not_requested", .atom 0), ("request_from_buffers", .atom 0), ("enabled",
    .atom 0)]), ("items", .atom 0), ("bar", .atom 0), ("control_behavior", .model [("circuit_condition_enabled", .atom 0),
    ("circuit_condition", .atom 0), ("circuit_mode_of_operation", .atom 0)])]

/-- `/repo/draftsman/prototypes/logistic_passive_container.py:24` with its mixins, fields declared at lines 38-55 and in the formats of the mixins. -/
def logisticPassiveContainer : Cls where
  name := "LogisticPassiveContainer"
  layers := [inventoryMixinAttrs, requestItemsMixinAttrs, logisticModeOfOperationMixinAttrs, circuitConditionMixinAttrs,
    controlBehaviorMixinAttrs, entityAttrs]
  fresh := .model [("name", .atom 0), ("quality", .atom 0), ("position", .atom 0), ("entity_number", .atom 0), ("tags", .atom 0), ("items",
    .atom 0), ("bar", .atom 0), ("control_behavior", .bare [("circuit_condition_enabled", .atom 0), ("circuit_condition", .atom 0),
    ("circuit_mode_of_operation", .atom 0)])]

/-- `/repo/draftsman/prototypes/logistic_request_container.py:29` with its mixins, fields declared at lines 43-74 and in the formats of the mixins. -/
def logisticRequestContainer : Cls where
  name := "LogisticRequestContainer"
  layers := [inventoryMixinAttrs, requestItemsMixinAttrs, logisticModeOfOperationMixinAttrs, circuitConditionMixinAttrs,
    controlBehaviorMixinAttrs, requestFiltersMixinAttrs, entityAttrs]
  fresh := .model [("name", .atom 0), ("quality", .atom 0), ("position", .atom 0), ("entity_number", .atom 0), ("tags", .atom 0),
    ("request_filters", .model [("sections", .atom 0), ("trash_not_requested", .atom 0), ("request_from_buffers", .atom 0), ("enabled",
    .atom 0)]), ("items", .atom 0), ("bar", .atom 0), ("control_behavior", .model [("circuit_condition_enabled", .atom 0),
    ("circuit_condition", .atom 0), ("circuit_mode_of_operation", .atom 0)])]

/-- `/repo/draftsman/prototypes/logistic_storage_container.py:24` with its mixins, fields declared at lines 39-57 and in the formats of the mixins. -/
def logisticStorageContainer : Cls where
  name := "LogisticStorageContainer"
  layers := [inventoryMixinAttrs, requestItemsMixinAttrs, logisticModeOfOperationMixinAttrs, circuitConditionMixinAttrs,
    controlBehaviorMixinAttrs, requestFiltersMixinAttrs, entityAttrs]
  fresh := .model [("name", .atom 0), ("quality", .atom 0), ("position", .atom 0), ("entity_number", .atom 0), ("tags", .atom 0),
    ("request_filters", .model [("sections", .atom 0), ("trash_not_requested", .atom 0), ("request_from_buffers", .atom 0), ("enabled",
    .atom 0)]), ("items", .atom 0), ("bar", .atom 0), ("control_behavior", .bare [("circuit_condition_enabled", .atom 0),
    ("circuit_condition", .atom 0), ("circuit_mode_of_operation", .atom 0)])]

/-- `/repo/draftsman/prototypes/mining_drill.py:27` with its mixins, fields declared at lines 44-68 and in the formats of the mixins. -/
def miningDrill : Cls where
  name := "MiningDrill"
  layers := [requestItemsMixinAttrs, circuitReadResourceMixinAttrs, circuitConditionMixinAttrs, logisticConditionMixinAttrs,
    circuitEnableMixinAttrs, controlBehaviorMixinAttrs, entityAttrs]
  fresh := .model [("name", .atom 0), ("quality", .atom 0), ("position", .atom 0), ("entity_number", .atom 0), ("tags", .atom 0), ("direction",
    .atom 0), ("items", .atom 0), ("control_behavior", .model [("circuit_enabled", .atom 0), ("connect_to_logistic_network", .atom 0),
    ("logistic_condition", .atom 0), ("circuit_condition_enabled", .atom 0), ("circuit_condition", .atom 0), ("circuit_read_resources",
    .atom 0), ("circuit_resource_read_mode", .atom 0)])]

/-- `/repo/draftsman/prototypes/offshore_pump.py:22` with its mixins, fields declared at lines 34-51 and in the formats of the mixins. -/
def offshorePump : Cls where
  name := "OffshorePump"
  layers := [circuitConditionMixinAttrs, logisticConditionMixinAttrs, controlBehaviorMixinAttrs, entityAttrs]
  fresh := .model [("name", .atom 0), ("quality", .atom 0), ("position", .atom 0), ("entity_number", .atom 0), ("tags", .atom 0), ("direction",
    .atom 0), ("control_behavior", .model [("connect_to_logistic_network", .atom 0), ("logistic_condition", .atom 0),
    ("circuit_condition_enabled", .atom 0), ("circuit_condition", .atom 0)])]

/-- `/repo/draftsman/prototypes/pipe.py:14` with its mixins, fields declared at lines 19-20 and in the formats of the mixins. -/
def pipe : Cls where
  name := "Pipe"
  layers := [entityAttrs]
  fresh := .model [("name", .atom 0), ("quality", .atom 0), ("position", .atom 0), ("entity_number", .atom 0), ("tags", .atom 0)]

/-- `/repo/draftsman/prototypes/player_port.py:14` with its mixins, fields declared at lines 19-20 and in the formats of the mixins. -/
def playerPort : Cls where
  name := "PlayerPort"
  layers := [entityAttrs]
  fresh := .model [("name", .atom 0), ("quality", .atom 0), ("position", .atom 0), ("entity_number", .atom 0), ("tags", .atom 0)]

/-- `/repo/draftsman/prototypes/power_switch.py:25` with its mixins, fields declared at lines 38-63 and in the formats of the mixins. -/
def powerSwitch : Cls where
  name := "PowerSwitch"
  layers := [powerSwitchAttrs, circuitConditionMixinAttrs, logisticConditionMixinAttrs, controlBehaviorMixinAttrs, entityAttrs]
  fresh := .model [("name", .atom 0), ("quality", .atom 0), ("position", .atom 0), ("entity_number", .atom 0), ("tags", .atom 0),
    ("control_behavior", .model [("connect_to_logistic_network", .atom 0), ("logistic_condition", .atom 0), ("circuit_condition_enabled",
    .atom 0), ("circuit_condition", .atom 0)]), ("switch_state", .atom 0)]

/-- `/repo/draftsman/prototypes/programmable_speaker.py:33` with its mixins, fields declared at lines 45-331 and in the formats of the mixins. -/
def programmableSpeaker : Cls where
  name := "ProgrammableSpeaker"
  layers := [programmableSpeakerAttrs, circuitConditionMixinAttrs, circuitEnableMixinAttrs, controlBehaviorMixinAttrs, entityAttrs]
  fresh := .model [("name", .atom 0), ("quality", .atom 0), ("position", .atom 0), ("entity_number", .atom 0), ("tags", .atom 0),
    ("control_behavior", .model [("circuit_enabled", .atom 0), ("circuit_condition_enabled", .atom 0), ("circuit_condition", .atom 0),
    ("circuit_parameters", .model [("signal_value_is_pitch", .atom 0), ("instrument_id", .atom 0), ("instrument_name", .atom 0),
    ("note_id", .atom 0), ("note_name", .atom 0)])]), ("parameters", .model [("playback_volume", .atom 0), ("playback_globally", .atom 0),
    ("allow_polyphony", .atom 0)]), ("alert_parameters", .model [("show_alert", .atom 0), ("show_on_map", .atom 0), ("icon_signal_id",
    .atom 0), ("alert_message", .atom 0)])]

/-- `/repo/draftsman/prototypes/pump.py:21` with its mixins, fields declared at lines 32-44 and in the formats of the mixins. -/
def pump : Cls where
  name := "Pump"
  layers := [circuitConditionMixinAttrs, controlBehaviorMixinAttrs, entityAttrs]
  fresh := .model [("name", .atom 0), ("quality", .atom 0), ("position", .atom 0), ("entity_number", .atom 0), ("tags", .atom 0), ("direction",
    .atom 0), ("control_behavior", .model [("circuit_condition_enabled", .atom 0), ("circuit_condition", .atom 0)])]

/-- `/repo/draftsman/prototypes/radar.py:15` with its mixins, fields declared at lines 20-21 and in the formats of the mixins. -/
def radar : Cls where
  name := "Radar"
  layers := [entityAttrs]
  fresh := .model [("name", .atom 0), ("quality", .atom 0), ("position", .atom 0), ("entity_number", .atom 0), ("tags", .atom 0)]

/-- `/repo/draftsman/prototypes/rail_chain_signal.py:22` with its mixins, fields declared at lines 34-51 and in the formats of the mixins. -/
def railChainSignal : Cls where
  name := "RailChainSignal"
  layers := [railChainSignalAttrs, readRailSignalMixinAttrs, controlBehaviorMixinAttrs, entityAttrs]
  fresh := .model [("name", .atom 0), ("quality", .atom 0), ("position", .atom 0), ("entity_number", .atom 0), ("tags", .atom 0), ("direction",
    .atom 0), ("control_behavior", .model [("red_output_signal", .atom 0), ("yellow_output_signal", .atom 0), ("green_output_signal",
    .atom 0), ("blue_output_signal", .atom 0)])]

/-- `/repo/draftsman/prototypes/rail_ramp.py:15` with its mixins, fields declared at lines 20-23 and in the formats of the mixins. -/
def railRamp : Cls where
  name := "RailRamp"
  layers := [entityAttrs]
  fresh := .model [("name", .atom 0), ("quality", .atom 0), ("position", .atom 0), ("entity_number", .atom 0), ("tags", .atom 0), ("direction",
    .atom 0)]

/-- `/repo/draftsman/prototypes/rail_signal.py:24` with its mixins, fields declared at lines 38-70 and in the formats of the mixins. -/
def railSignal : Cls where
  name := "RailSignal"
  layers := [railSignalAttrs, readRailSignalMixinAttrs, circuitConditionMixinAttrs, circuitEnableMixinAttrs, controlBehaviorMixinAttrs,
    entityAttrs]
  fresh := .model [("name", .atom 0), ("quality", .atom 0), ("position", .atom 0), ("entity_number", .atom 0), ("tags", .atom 0), ("direction",
    .atom 0), ("control_behavior", .model [("circuit_enabled", .atom 0), ("circuit_condition_enabled", .atom 0), ("circuit_condition",
    .atom 0), ("red_output_signal", .atom 0), ("yellow_output_signal", .atom 0), ("green_output_signal", .atom 0),
    ("circuit_close_signal", .atom 0), ("circuit_read_signal", .atom 0)])]

/-- `/repo/draftsman/prototypes/reactor.py:22` with its mixins, fields declared at lines 33-56 and in the formats of the mixins. -/
def reactor : Cls where
  name := "Reactor"
  layers := [reactorAttrs, requestItemsMixinAttrs, controlBehaviorMixinAttrs, entityAttrs]
  fresh := .model [("name", .atom 0), ("quality", .atom 0), ("position", .atom 0), ("entity_number", .atom 0), ("tags", .atom 0), ("items",
    .atom 0), ("control_behavior", .model [("read_burner_fuel", .atom 0), ("read_temperature", .atom 0), ("temperature_signal",
    .atom 0)])]

/-- `/repo/draftsman/prototypes/roboport.py:20` with its mixins, fields declared at lines 25-73 and in the formats of the mixins. -/
def roboport : Cls where
  name := "Roboport"
  layers := [roboportAttrs, controlBehaviorMixinAttrs, entityAttrs]
  fresh := .model [("name", .atom 0), ("quality", .atom 0), ("position", .atom 0), ("entity_number", .atom 0), ("tags", .atom 0),
    ("control_behavior", .model [("read_logistics", .atom 0), ("read_robot_stats", .atom 0), ("available_logistic_output_signal",
    .atom 0), ("total_logistic_output_signal", .atom 0), ("available_construction_output_signal", .atom 0),
    ("total_construction_output_signal", .atom 0)])]

/-- `/repo/draftsman/prototypes/rocket_silo.py:23` with its mixins, fields declared at lines 35-60 and in the formats of the mixins. -/
def rocketSilo : Cls where
  name := "RocketSilo"
  layers := [rocketSiloAttrs, requestItemsMixinAttrs, controlBehaviorMixinAttrs, recipeMixinAttrs, entityAttrs]
  fresh := .model [("name", .atom 0), ("quality", .atom 0), ("position", .atom 0), ("entity_number", .atom 0), ("tags", .atom 0), ("recipe",
    .atom 0), ("recipe_quality", .atom 0), ("items", .atom 0), ("control_behavior", .model [("read_items_mode", .atom 0)]),
    ("transitional_request_index", .atom 0)]

/-- `/repo/draftsman/prototypes/selector_combinator.py:22` with its mixins, fields declared at lines 33-104 and in the formats of the mixins. -/
def selectorCombinator : Cls where
  name := "SelectorCombinator"
  layers := [playerDescriptionMixinAttrs, controlBehaviorMixinAttrs, entityAttrs]
  fresh := .model [("name", .atom 0), ("quality", .atom 0), ("position", .atom 0), ("entity_number", .atom 0), ("tags", .atom 0), ("direction",
    .atom 0), ("player_description", .atom 0), ("control_behavior", .atom 0)]

/-- `/repo/draftsman/prototypes/simple_entity_with_force.py:17` with its mixins, fields declared at lines 22-32 and in the formats of the mixins. -/
def simpleEntityWithForce : Cls where
  name := "SimpleEntityWithForce"
  layers := [simpleEntityWithForceAttrs, entityAttrs]
  fresh := .model [("name", .atom 0), ("quality", .atom 0), ("position", .atom 0), ("entity_number", .atom 0), ("tags", .atom 0), ("direction",
    .atom 0), ("variation", .atom 0)]

/-- `/repo/draftsman/prototypes/simple_entity_with_owner.py:17` with its mixins, fields declared at lines 22-32 and in the formats of the mixins. -/
def simpleEntityWithOwner : Cls where
  name := "SimpleEntityWithOwner"
  layers := [simpleEntityWithOwnerAttrs, entityAttrs]
  fresh := .model [("name", .atom 0), ("quality", .atom 0), ("position", .atom 0), ("entity_number", .atom 0), ("tags", .atom 0), ("direction",
    .atom 0), ("variation", .atom 0)]

/-- `/repo/draftsman/prototypes/solar_panel.py:14` with its mixins, fields declared at lines 19-20 and in the formats of the mixins. -/
def solarPanel : Cls where
  name := "SolarPanel"
  layers := [entityAttrs]
  fresh := .model [("name", .atom 0), ("quality", .atom 0), ("position", .atom 0), ("entity_number", .atom 0), ("tags", .atom 0)]

/-- `/repo/draftsman/prototypes/space_platform_hub.py:21` with its mixins, fields declared at lines 28-75 and in the formats of the mixins.  Not the declared default: `request_filters`, set by `classes/mixins/request_filters.py:72`. -/
def spacePlatformHub : Cls where
  name := "SpacePlatformHub"
  layers := [spacePlatformHubAttrs, requestFiltersMixinAttrs, controlBehaviorMixinAttrs, entityAttrs]
  fresh := .model [("name", .atom 0), ("quality", .atom 0), ("position", .atom 0), ("entity_number", .atom 0), ("tags", .atom 0),
    ("request_filters", .none), ("control_behavior", .atom 0), ("request_missing_construction_materials", .atom 0)]

/-- `/repo/draftsman/prototypes/spider_vehicle.py:23` with its mixins, fields declared at lines 35-74 and in the formats of the mixins.  Not the declared default: `automatic_targeting_parameters`, set by `prototypes/spider_vehicle.py:119 with :147, a plain dict`. -/
def spiderVehicle : Cls where
  name := "SpiderVehicle"
  layers := [spiderVehicleAttrs, vehicleMixinAttrs, equipmentGridMixinAttrs, requestFiltersMixinAttrs, requestItemsMixinAttrs, entityAttrs]
  fresh := .model [("name", .atom 0), ("quality", .atom 0), ("position", .atom 0), ("entity_number", .atom 0), ("tags", .atom 0), ("orientation",
    .atom 0), ("items", .atom 0), ("request_filters", .model [("sections", .atom 0), ("trash_not_requested", .atom 0),
    ("request_from_buffers", .atom 0), ("enabled", .atom 0)]), ("enable_logistics_while_moving", .atom 0), ("grid", .atom 0),
    ("trunk_inventory", .atom 0), ("ammo_inventory", .atom 0), ("driver_is_main_gunner", .atom 0), ("selected_gun_index", .atom 0),
    ("automatic_targeting_parameters", .atom 0)]

/-- `/repo/draftsman/prototypes/splitter.py:22` with its mixins, fields declared at lines 28-54 and in the formats of the mixins. -/
def splitter : Cls where
  name := "Splitter"
  layers := [splitterAttrs, entityAttrs]
  fresh := .model [("name", .atom 0), ("quality", .atom 0), ("position", .atom 0), ("entity_number", .atom 0), ("tags", .atom 0), ("direction",
    .atom 0), ("input_priority", .atom 0), ("output_priority", .atom 0), ("filter", .atom 0)]

/-- `/repo/draftsman/prototypes/storage_tank.py:17` with its mixins, fields declared at lines 22-27 and in the formats of the mixins. -/
def storageTank : Cls where
  name := "StorageTank"
  layers := [entityAttrs]
  fresh := .model [("name", .atom 0), ("quality", .atom 0), ("position", .atom 0), ("entity_number", .atom 0), ("tags", .atom 0), ("direction",
    .atom 0)]

/-- `/repo/draftsman/prototypes/straight_rail.py:45` with its mixins, fields declared at lines 50-53 and in the formats of the mixins. -/
def straightRail : Cls where
  name := "StraightRail"
  layers := [entityAttrs]
  fresh := .model [("name", .atom 0), ("quality", .atom 0), ("position", .atom 0), ("entity_number", .atom 0), ("tags", .atom 0), ("direction",
    .atom 0)]

/-- `/repo/draftsman/prototypes/thruster.py:14` with its mixins, fields declared at lines 19-20 and in the formats of the mixins. -/
def thruster : Cls where
  name := "Thruster"
  layers := [entityAttrs]
  fresh := .model [("name", .atom 0), ("quality", .atom 0), ("position", .atom 0), ("entity_number", .atom 0), ("tags", .atom 0)]

/-- `/repo/draftsman/prototypes/train_stop.py:29` with its mixins, fields declared at lines 44-135 and in the formats of the mixins. -/
def trainStop : Cls where
  name := "TrainStop"
  layers := [trainStopAttrs, colorMixinAttrs, circuitConditionMixinAttrs, logisticConditionMixinAttrs, circuitEnableMixinAttrs,
    controlBehaviorMixinAttrs, entityAttrs]
  fresh := .model [("name", .atom 0), ("quality", .atom 0), ("position", .atom 0), ("entity_number", .atom 0), ("tags", .atom 0), ("direction",
    .atom 0), ("color", .atom 0), ("control_behavior", .model [("circuit_enabled", .atom 0), ("connect_to_logistic_network", .atom 0),
    ("logistic_condition", .atom 0), ("circuit_condition_enabled", .atom 0), ("circuit_condition", .atom 0), ("send_to_train", .atom 0),
    ("set_trains_limit", .atom 0), ("trains_limit_signal", .atom 0), ("read_from_train", .atom 0), ("read_stopped_train", .atom 0),
    ("train_stopped_signal", .atom 0), ("read_trains_count", .atom 0), ("trains_count_signal", .atom 0)]), ("station", .atom 0),
    ("manual_trains_limit", .atom 0)]

/-- `/repo/draftsman/prototypes/transport_belt.py:24` with its mixins, fields declared at lines 38-58 and in the formats of the mixins. -/
def transportBelt : Cls where
  name := "TransportBelt"
  layers := [circuitReadContentsMixinAttrs, circuitConditionMixinAttrs, logisticConditionMixinAttrs, circuitEnableMixinAttrs,
    controlBehaviorMixinAttrs, entityAttrs]
  fresh := .model [("name", .atom 0), ("quality", .atom 0), ("position", .atom 0), ("entity_number", .atom 0), ("tags", .atom 0), ("direction",
    .atom 0), ("control_behavior", .bare [("circuit_enabled", .atom 0), ("connect_to_logistic_network", .atom 0), ("logistic_condition",
    .atom 0), ("circuit_condition_enabled", .atom 0), ("circuit_condition", .atom 0), ("circuit_read_hand_contents", .atom 0),
    ("circuit_contents_read_mode", .atom 0)])]

/-- `/repo/draftsman/prototypes/turret.py:16` with its mixins, fields declared at lines 23-24 and in the formats of the mixins. -/
def turret : Cls where
  name := "Turret"
  layers := [requestItemsMixinAttrs, entityAttrs]
  fresh := .model [("name", .atom 0), ("quality", .atom 0), ("position", .atom 0), ("entity_number", .atom 0), ("tags", .atom 0), ("direction",
    .atom 0), ("items", .atom 0)]

/-- `/repo/draftsman/prototypes/underground_belt.py:15` with its mixins, fields declared at lines 20-21 and in the formats of the mixins. -/
def undergroundBelt : Cls where
  name := "UndergroundBelt"
  layers := [iOTypeMixinAttrs, entityAttrs]
  fresh := .model [("name", .atom 0), ("quality", .atom 0), ("position", .atom 0), ("entity_number", .atom 0), ("tags", .atom 0), ("direction",
    .atom 0), ("io_type", .atom 0)]

/-- `/repo/draftsman/prototypes/underground_pipe.py:15` with its mixins, fields declared at lines 20-21 and in the formats of the mixins. -/
def undergroundPipe : Cls where
  name := "UndergroundPipe"
  layers := [entityAttrs]
  fresh := .model [("name", .atom 0), ("quality", .atom 0), ("position", .atom 0), ("entity_number", .atom 0), ("tags", .atom 0), ("direction",
    .atom 0)]

/-- `/repo/draftsman/prototypes/wall.py:22` with its mixins, fields declared at lines 33-70 and in the formats of the mixins. -/
def wall : Cls where
  name := "Wall"
  layers := [wallAttrs, circuitConditionMixinAttrs, circuitEnableMixinAttrs, controlBehaviorMixinAttrs, entityAttrs]
  fresh := .model [("name", .atom 0), ("quality", .atom 0), ("position", .atom 0), ("entity_number", .atom 0), ("tags", .atom 0),
    ("control_behavior", .model [("circuit_enabled", .atom 0), ("circuit_condition_enabled", .atom 0), ("circuit_condition", .atom 0),
    ("circuit_open_gate", .atom 0), ("circuit_read_sensor", .atom 0), ("output_signal", .atom 0)])]

/-- All entity classes, `/repo/draftsman/entity.py` imports them. -/
def classes : List Cls := [accumulator, agriculturalTower, ammoTurret, arithmeticCombinator, artilleryTurret, artilleryWagon, assemblingMachine,
  asteroidCollector, beacon, boiler, burnerGenerator, car, cargoLandingPad, cargoWagon, constantCombinator, container, curvedRailA,
  curvedRailB, deciderCombinator, displayPanel, electricEnergyInterface, electricPole, electricTurret, elevatedCurvedRailA,
  elevatedCurvedRailB, elevatedHalfDiagonalRail, elevatedStraightRail, fluidTurret, fluidWagon, furnace, fusionGenerator, gate, generator,
  heatInterface, heatPipe, infinityContainer, infinityPipe, inserter, lab, lamp, landMine, legacyCurvedRail, legacyStraightRail,
  lightningAttractor, linkedBelt, linkedContainer, loader, locomotive, logisticActiveContainer, logisticBufferContainer,
  logisticPassiveContainer, logisticRequestContainer, logisticStorageContainer, miningDrill, offshorePump, pipe, playerPort, powerSwitch,
  programmableSpeaker, pump, radar, railChainSignal, railRamp, railSignal, reactor, roboport, rocketSilo, selectorCombinator,
  simpleEntityWithForce, simpleEntityWithOwner, solarPanel, spacePlatformHub, spiderVehicle, splitter, storageTank, straightRail,
  thruster, trainStop, transportBelt, turret, undergroundBelt, undergroundPipe, wall]

end Attr
end Draftsman
