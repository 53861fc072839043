import Verif.Props.AreaArg
import Verif.Props.Arith
import Verif.Props.Attr
import Verif.Props.Belts
import Verif.Props.Book
import Verif.Props.BookList
import Verif.Props.BookString
import Verif.Props.BoxPoints
import Verif.Props.BpAttr
import Verif.Props.BpString
import Verif.Props.BpVersion
import Verif.Props.Checks
import Verif.Props.Codec
import Verif.Props.Command
import Verif.Props.Convert
import Verif.Props.Copy
import Verif.Props.Ctor
import Verif.Props.DataAttr
import Verif.Props.DataTables
import Verif.Props.Decider
import Verif.Props.DeciderList
import Verif.Props.Defaults
import Verif.Props.Direction
import Verif.Props.Energy
import Verif.Props.EntTypes
import Verif.Props.EntityList
import Verif.Props.EntityMixin
import Verif.Props.EntitySlice
import Verif.Props.EnvArchive
import Verif.Props.EnvUpdate
import Verif.Props.Equality
import Verif.Props.Export
import Verif.Props.FloatPos
import Verif.Props.GameData
import Verif.Props.GameItems
import Verif.Props.GameVersion
import Verif.Props.Geometry
import Verif.Props.Grid
import Verif.Props.Group
import Verif.Props.GroupAttr
import Verif.Props.Import
import Verif.Props.InPlace
import Verif.Props.InfPipe
import Verif.Props.Instruments
import Verif.Props.Json
import Verif.Props.JsonBytes
import Verif.Props.JsonStr
import Verif.Props.JsonText
import Verif.Props.Lifecycle
import Verif.Props.Machines
import Verif.Props.Mappers
import Verif.Props.Merge
import Verif.Props.MergeAttr
import Verif.Props.MergeShare
import Verif.Props.ModEnable
import Verif.Props.ModList
import Verif.Props.ModLoad
import Verif.Props.ModSettings
import Verif.Props.ModTable
import Verif.Props.Modules
import Verif.Props.NestMap
import Verif.Props.Nested
import Verif.Props.NestedList
import Verif.Props.OrientName
import Verif.Props.OrientVec
import Verif.Props.Overlap
import Verif.Props.Position
import Verif.Props.Power
import Verif.Props.RailPlanner
import Verif.Props.Record
import Verif.Props.Rect
import Verif.Props.Rename
import Verif.Props.Requests
import Verif.Props.RoundTrip
import Verif.Props.SavedSettings
import Verif.Props.SchedList
import Verif.Props.Schedule
import Verif.Props.Search
import Verif.Props.SetAlgebra
import Verif.Props.SetEntities
import Verif.Props.SetTiles
import Verif.Props.Setup
import Verif.Props.Shorthand
import Verif.Props.Signals
import Verif.Props.Slots
import Verif.Props.SpatialHash
import Verif.Props.Special
import Verif.Props.Stops
import Verif.Props.Suggest
import Verif.Props.Surface
import Verif.Props.TileList
import Verif.Props.TileMixin
import Verif.Props.TrainConfig
import Verif.Props.TrainSched
import Verif.Props.TrainSearch
import Verif.Props.Trains
import Verif.Props.Transform
import Verif.Props.Upgrade
import Verif.Props.ValResult
import Verif.Props.Validate
import Verif.Props.VecArith
import Verif.Props.Version
import Verif.Props.WaitAttr
import Verif.Props.WaitCond
import Verif.Props.Warnings
import Verif.Props.Wires
/-
Axioms used by every property theorem (generated by tools/manifest.py).
-/
#print axioms Draftsman.Version.C01_decode_encode
#print axioms Draftsman.Version.C01_encode_decode
#print axioms Draftsman.Version.C01_order
#print axioms Draftsman.Version.C01_out_of_range_collides
#print axioms Draftsman.Version.C02_parse_print
#print axioms Draftsman.Version.C02_empty
#print axioms Draftsman.Version.C02_print_injective
#print axioms Draftsman.Codec.C03_roundtrip
#print axioms Draftsman.Codec.C03_first_char
#print axioms Draftsman.Codec.C03_total
#print axioms Draftsman.Codec.C03_injective
#print axioms Draftsman.Json.C03_base64
#print axioms Draftsman.Json.C03_json
#print axioms Draftsman.Json.C03_real
#print axioms Draftsman.Json.C03_noise
#print axioms Draftsman.Json.C03_ascii
#print axioms Draftsman.Json.C03_junk
#print axioms Draftsman.C04_overlap_iff
#print axioms Draftsman.C04_overlap_symm
#print axioms Draftsman.C04_overlap_shift
#print axioms Draftsman.C04_overlap_position_irrelevant
#print axioms Draftsman.C04_point_iff
#print axioms Draftsman.C04_collision_sets
#print axioms Draftsman.C05_extend_is_join
#print axioms Draftsman.C05_absent_iff
#print axioms Draftsman.C05_world_box_is_join
#print axioms Draftsman.C05_order_independent
#print axioms Draftsman.C06_least
#print axioms Draftsman.C06_none
#print axioms Draftsman.C06_shift
#print axioms Draftsman.C07_rejects
#print axioms Draftsman.C07_exact_image
#print axioms Draftsman.C07_compose
#print axioms Draftsman.C07_full_turn
#print axioms Draftsman.C07_collision_set
#print axioms Draftsman.C08_point_in_circle_iff
#print axioms Draftsman.C08_overlap_iff
#print axioms Draftsman.Rect.C09_overlap_iff
#print axioms Draftsman.Rect.C09_degenerate
#print axioms Draftsman.Rect.C09_symm
#print axioms Draftsman.Rect.C09_wagon_disjoint_sound_partial
#print axioms Draftsman.Rect.C09_wagon_overlap_refuted
#print axioms Draftsman.Rect.C10_min_sides
#print axioms Draftsman.Rect.C10_covers_iff
#print axioms Draftsman.Rect.C10_exact_partial
#print axioms Draftsman.Rect.C10_covers_refuted
#print axioms Draftsman.Surface.C11_passes_iff
#print axioms Draftsman.Surface.C11_none
#print axioms Draftsman.Surface.C11_antitone
#print axioms Draftsman.Surface.C11_order
#print axioms Draftsman.Surface.C11_placeable_partial
#print axioms Draftsman.Surface.C11_usable_partial
#print axioms Draftsman.Surface.C11_planets
#print axioms Draftsman.Surface.C11_planet_refuted
#print axioms Draftsman.Energy.C12_parse
#print axioms Draftsman.Energy.C12_bad_unit
#print axioms Draftsman.Energy.C12_bad_prefix
#print axioms Draftsman.Energy.C12_only
#print axioms Draftsman.C13_only
#print axioms Draftsman.C13_all_partial
#print axioms Draftsman.C13_exact_on_grid
#print axioms Draftsman.C13_limit
#print axioms Draftsman.C13_thin_refuted
#print axioms Draftsman.C13_position_refuted
#print axioms Draftsman.C13_equal_refuted
#print axioms Draftsman.C14_only
#print axioms Draftsman.C14_all_partial
#print axioms Draftsman.C14_interior_on_grid
#print axioms Draftsman.C14_limit
#print axioms Draftsman.C14_edge_refuted
#print axioms Draftsman.C15_only
#print axioms Draftsman.C15_all_partial
#print axioms Draftsman.C15_limit
#print axioms Draftsman.C15_refuted
#print axioms Draftsman.C16_cells
#print axioms Draftsman.C16_cells_on_grid
#print axioms Draftsman.C16_everything
#print axioms Draftsman.C16_add_remove
#print axioms Draftsman.C16_clear
#print axioms Draftsman.C16_equal_refuted
#print axioms Draftsman.C16_groups
#print axioms Draftsman.C16_merge
#print axioms Draftsman.C17_history_partial
#print axioms Draftsman.C17_effect_partial
#print axioms Draftsman.C17_negative_insert_refuted
#print axioms Draftsman.C17_negative_set_refuted
#print axioms Draftsman.C17_slice_refuted
#print axioms Draftsman.C17_empty_id_refuted
#print axioms Draftsman.C17_deleted_rename_refuted
#print axioms Draftsman.C17_group_none_refuted
#print axioms Draftsman.C17_slice_lookup
#print axioms Draftsman.C17_zero_step
#print axioms Draftsman.C17_slices_partial
#print axioms Draftsman.C17_step_refuted
#print axioms Draftsman.C18_insert
#print axioms Draftsman.C18_set
#print axioms Draftsman.C18_insert_iff
#print axioms Draftsman.C18_rename
#print axioms Draftsman.C18_distinct_partial
#print axioms Draftsman.C18_rename_refuted
#print axioms Draftsman.C18_replace_same_id_refuted
#print axioms Draftsman.C19_inter
#print axioms Draftsman.C19_diff
#print axioms Draftsman.C19_partition
#print axioms Draftsman.C19_union
#print axioms Draftsman.C19_union_mem
#print axioms Draftsman.C19_union_once_partial
#print axioms Draftsman.C19_union_once_refuted
#print axioms Draftsman.C19_tile_equality
#print axioms Draftsman.C19_entities
#print axioms Draftsman.C19_union_id_refuted
#print axioms Draftsman.C20_rejects
#print axioms Draftsman.C20_succeeds_iff
#print axioms Draftsman.C20_effect
#print axioms Draftsman.C20_rigid
#print axioms Draftsman.C20_compose_partial
#print axioms Draftsman.C20_full_turn
#print axioms Draftsman.C20_compose_refuted
#print axioms Draftsman.C20_group_refuted
#print axioms Draftsman.C20_halfway_refuted
#print axioms Draftsman.C21_succeeds_iff
#print axioms Draftsman.C21_effect
#print axioms Draftsman.C21_twice_partial
#print axioms Draftsman.C21_twice_refuted
#print axioms Draftsman.C21_half_turn
#print axioms Draftsman.C21_conjugate
#print axioms Draftsman.C21_rejects
#print axioms Draftsman.C22_effect
#print axioms Draftsman.C22_rigid
#print axioms Draftsman.C22_compose
#print axioms Draftsman.C22_zero
#print axioms Draftsman.C22_inverse
#print axioms Draftsman.C22_tile
#print axioms Draftsman.C22_offgrid_refuted
#print axioms Draftsman.C22_warning
#print axioms Draftsman.C23_turns
#print axioms Draftsman.C23_iterate
#print axioms Draftsman.C23_group
#print axioms Draftsman.C23_vector_opposite
#print axioms Draftsman.C23_vector_next
#print axioms Draftsman.C23_vector_length
#print axioms Draftsman.C23_vector_length_refuted
#print axioms Draftsman.C23_legacy_opposite_refuted
#print axioms Draftsman.C23_legacy_partial
#print axioms Draftsman.C23_legacy_vector_refuted
#print axioms Draftsman.Orientation.C24_wraps
#print axioms Draftsman.Orientation.C24_add
#print axioms Draftsman.Orientation.C24_opposite
#print axioms Draftsman.Orientation.C24_direction_roundtrip
#print axioms Draftsman.Orientation.C24_direction_roundtrip_refuted
#print axioms Draftsman.Orientation.C24_legacy_orientation_refuted
#print axioms Draftsman.Orientation.C24_nearest_sixteen_partial
#print axioms Draftsman.Orientation.C24_nearest_four_partial
#print axioms Draftsman.Orientation.C24_to_direction_refuted
#print axioms Draftsman.Orientation.C24_vector
#print axioms Draftsman.Orientation.C24_vector_add
#print axioms Draftsman.Orientation.C24_vector_direction
#print axioms Draftsman.Ticks.C25_nearest
#print axioms Draftsman.Ticks.C25_whole_seconds
#print axioms Draftsman.Ticks.C25_additive
#print axioms Draftsman.Ticks.C25_monotone
#print axioms Draftsman.ValidationMode.C26_operators
#print axioms Draftsman.ValidationMode.C26_total
#print axioms Draftsman.ValidationMode.C26_truthy
#print axioms Draftsman.PEnt.C27_set_tile
#print axioms Draftsman.PEnt.C27_tile_readback
#print axioms Draftsman.PEnt.C27_tile_whole
#print axioms Draftsman.PEnt.C27_tile_vector
#print axioms Draftsman.PEnt.C27_set_position
#print axioms Draftsman.PEnt.C27_set_position_near
#print axioms Draftsman.PEnt.C27_set_direction
#print axioms Draftsman.PEnt.C27_history
#print axioms Draftsman.PEnt.C28_cardinal_partial
#print axioms Draftsman.PEnt.C28_snap
#print axioms Draftsman.PEnt.C28_footprint_iff
#print axioms Draftsman.PEnt.C28_footprint_refuted
#print axioms Draftsman.PEnt.C28_none_refuted
#print axioms Draftsman.PEnt.C28_eight_way_refuted
#print axioms Draftsman.Copy.C29_under
#print axioms Draftsman.C29_global_position
#print axioms Draftsman.C29_heap_wf
#print axioms Draftsman.C29_move
#print axioms Draftsman.C29_move_others
#print axioms Draftsman.C29_move_refused
#print axioms Draftsman.C29_flatten
#print axioms Draftsman.C29_depth_first
#print axioms Draftsman.C29_attach
#print axioms Draftsman.C29_shared_refuted
#print axioms Draftsman.C29_removed
#print axioms Draftsman.C29_removed_refuted
#print axioms Draftsman.C30_add
#print axioms Draftsman.C30_warnings
#print axioms Draftsman.C30_fails
#print axioms Draftsman.C30_wire_injective
#print axioms Draftsman.C30_remove
#print axioms Draftsman.C30_remove_absent_partial
#print axioms Draftsman.C30_add_remove_partial
#print axioms Draftsman.C30_unknown_refuted
#print axioms Draftsman.C30_add_again_refuted
#print axioms Draftsman.C30_remove_absent_refuted
#print axioms Draftsman.C30_add_remove_refuted
#print axioms Draftsman.C30_twin_refuted
#print axioms Draftsman.C31_power
#print axioms Draftsman.C31_circuit
#print axioms Draftsman.C31_wires_ok
#print axioms Draftsman.C32_numbers
#print axioms Draftsman.C32_outside
#print axioms Draftsman.C32_references_partial
#print axioms Draftsman.C32_reimport_partial
#print axioms Draftsman.C32_bp_ok
#print axioms Draftsman.C32_twins_refuted
#print axioms Draftsman.C32_outside_twin_refuted
#print axioms Draftsman.C32_group_schedule_refuted
#print axioms Draftsman.C32_unused_schedule_refuted
#print axioms Draftsman.C32_zero_refuted
#print axioms Draftsman.C33_positions
#print axioms Draftsman.C33_omitted
#print axioms Draftsman.C33_roundtrip
#print axioms Draftsman.C34_only
#print axioms Draftsman.C34_all_partial
#print axioms Draftsman.C34_whole
#print axioms Draftsman.C34_invert
#print axioms Draftsman.C34_limit
#print axioms Draftsman.C34_single
#print axioms Draftsman.C34_first_partial
#print axioms Draftsman.C34_group_refuted
#print axioms Draftsman.C34_group_index
#print axioms Draftsman.C34_negative_limit_refuted
#print axioms Draftsman.C35_only
#print axioms Draftsman.C35_circle
#print axioms Draftsman.C35_area
#print axioms Draftsman.C35_whole
#print axioms Draftsman.C35_limit
#print axioms Draftsman.C35_find_tile
#print axioms Draftsman.C35_position_refuted
#print axioms Draftsman.C36_others
#print axioms Draftsman.C36_assigned
#print axioms Draftsman.C36_cleared
#print axioms Draftsman.C36_train
#print axioms Draftsman.C36_history
#print axioms Draftsman.C36_removed
#print axioms Draftsman.C36_removed_entities
#print axioms Draftsman.C36_double_refuted
#print axioms Draftsman.C36_station_refuted
#print axioms Draftsman.C36_position
#print axioms Draftsman.C36_twin_refuted
#print axioms Draftsman.C36_absent_refuted
#print axioms Draftsman.C37_terminates
#print axioms Draftsman.C37_members
#print axioms Draftsman.C37_compass_partial
#print axioms Draftsman.C37_once_partial
#print axioms Draftsman.C37_twice_refuted
#print axioms Draftsman.C37_wrap_refuted
#print axioms Draftsman.TrainConfig.C38_expand
#print axioms Draftsman.TrainConfig.C38_unknown
#print axioms Draftsman.TrainConfig.C38_count
#print axioms Draftsman.TrainConfig.C38_rejects
#print axioms Draftsman.TrainConfig.C38_rails
#print axioms Draftsman.Wait.C39_operands_kept
#print axioms Draftsman.Wait.C39_or_partial
#print axioms Draftsman.Wait.C39_and_partial
#print axioms Draftsman.Wait.C39_expression_partial
#print axioms Draftsman.Wait.C39_paren_refuted
#print axioms Draftsman.Wait.C39_lists_refuted
#print axioms Draftsman.Wait.C39_empty_refuted
#print axioms Draftsman.Wait.C39_shared_refuted
#print axioms Draftsman.Schedule.C40_locomotives
#print axioms Draftsman.Schedule.C40_locomotive_edits
#print axioms Draftsman.Schedule.C40_insert
#print axioms Draftsman.Schedule.C40_append
#print axioms Draftsman.Schedule.C40_remove
#print axioms Draftsman.Schedule.C40_constructed_refuted
#print axioms Draftsman.Upgrade.C41_set
#print axioms Draftsman.Upgrade.C41_pop
#print axioms Draftsman.Upgrade.C41_remove_first
#print axioms Draftsman.Upgrade.C41_remove_at_partial
#print axioms Draftsman.Upgrade.C41_sorted
#print axioms Draftsman.Upgrade.C41_history_partial
#print axioms Draftsman.Upgrade.C41_blank_refuted
#print axioms Draftsman.Upgrade.C41_imported_refuted
#print axioms Draftsman.Upgrade.C42_silent_partial
#print axioms Draftsman.Upgrade.C42_reason
#print axioms Draftsman.Upgrade.C42_unknown
#print axioms Draftsman.Upgrade.C42_same
#print axioms Draftsman.Upgrade.C42_crash_refuted
#print axioms Draftsman.Upgrade.C42_builds_refuted
#print axioms Draftsman.Slots.C43_set
#print axioms Draftsman.Slots.C43_clear_partial
#print axioms Draftsman.Slots.C43_clear_refuted
#print axioms Draftsman.Slots.C43_others
#print axioms Draftsman.Slots.C43_distinct
#print axioms Draftsman.Slots.C43_history
#print axioms Draftsman.Slots.C43_entities
#print axioms Draftsman.Slots.C43_tiles
#print axioms Draftsman.Slots.C44_others
#print axioms Draftsman.Slots.C44_distinct
#print axioms Draftsman.Slots.C44_set_partial
#print axioms Draftsman.Slots.C44_item
#print axioms Draftsman.Slots.C44_clear_partial
#print axioms Draftsman.Slots.C44_clear_refuted
#print axioms Draftsman.Slots.C44_replace_refuted
#print axioms Draftsman.Slots.C44_inventory_refuted
#print axioms Draftsman.Slots.C44_all
#print axioms Draftsman.Slots.C44_names
#print axioms Draftsman.Slots.C44_comparator_refuted
#print axioms Draftsman.Slots.C45_refused
#print axioms Draftsman.Slots.C45_set
#print axioms Draftsman.Slots.C45_distinct
#print axioms Draftsman.Slots.C45_history_partial
#print axioms Draftsman.Slots.C45_remove_refuted
#print axioms Draftsman.Slots.C45_lost_refuted
#print axioms Draftsman.Decider.C46_compare_partial
#print axioms Draftsman.Decider.C46_constant_left_partial
#print axioms Draftsman.Decider.C46_sides
#print axioms Draftsman.Decider.C46_spelling
#print axioms Draftsman.Decider.C46_swapped_refuted
#print axioms Draftsman.Decider.C47_or_partial
#print axioms Draftsman.Decider.C47_and_partial
#print axioms Draftsman.Decider.C47_expression_partial
#print axioms Draftsman.Decider.C47_paren_refuted
#print axioms Draftsman.Decider.C47_lists_refuted
#print axioms Draftsman.Decider.C47_reused_refuted
#print axioms Draftsman.Decider.C47_later_refuted
#print axioms Draftsman.Decider.C47_empty_refuted
#print axioms Draftsman.Arith.C48_first
#print axioms Draftsman.Arith.C48_second
#print axioms Draftsman.Arith.C48_history_partial
#print axioms Draftsman.Arith.C48_remove_partial
#print axioms Draftsman.Arith.C48_refused
#print axioms Draftsman.Arith.C48_remove_refuted
#print axioms Draftsman.Arith.C48_all_none_refuted
#print axioms Draftsman.Arith.C48_stale_refuted
#print axioms Draftsman.Arith.C48_none_refuted
#print axioms Draftsman.Requests.C49_new_partial
#print axioms Draftsman.Requests.C49_zero_partial
#print axioms Draftsman.Requests.C49_failed
#print axioms Draftsman.Requests.C49_range
#print axioms Draftsman.Requests.C49_history_partial
#print axioms Draftsman.Requests.C49_again_refuted
#print axioms Draftsman.Requests.C49_inventory_refuted
#print axioms Draftsman.Requests.C49_zero_refuted
#print axioms Draftsman.Requests.C49_auto_refuted
#print axioms Draftsman.Requests.C49_auto_again_refuted
#print axioms Draftsman.Requests.C49_dict_refuted
#print axioms Draftsman.ModSettings.C50_decode_partial
#print axioms Draftsman.ModSettings.C50_text
#print axioms Draftsman.ModSettings.C50_header
#print axioms Draftsman.ModSettings.C50_cut_partial
#print axioms Draftsman.ModSettings.C50_list_refuted
#print axioms Draftsman.ModSettings.C50_uint_refuted
#print axioms Draftsman.ModSettings.C50_encode_refuted
#print axioms Draftsman.ModSettings.C50_write_refuted
#print axioms Draftsman.ModSettings.C50_deep_refuted
#print axioms Draftsman.ModSettings.C50_cut_refuted
#print axioms Draftsman.ModList.C51_order
#print axioms Draftsman.ModList.C51_listed
#print axioms Draftsman.ModList.C51_front
#print axioms Draftsman.ModList.C51_found_partial
#print axioms Draftsman.ModList.C51_dependencies_refuted
#print axioms Draftsman.ModList.C51_parts_refuted
#print axioms Draftsman.Book.C52_members_partial
#print axioms Draftsman.Book.C52_empty
#print axioms Draftsman.Book.C52_unnumbered
#print axioms Draftsman.Book.C52_again
#print axioms Draftsman.Book.C52_none_refuted
#print axioms Draftsman.Book.C52_distinct_refuted
#print axioms Draftsman.Book.C52_constructor_refuted
#print axioms Draftsman.Shorthand.C53_filters
#print axioms Draftsman.Shorthand.C53_priorities_partial
#print axioms Draftsman.Shorthand.C53_blueprint_icons
#print axioms Draftsman.Shorthand.C53_icons
#print axioms Draftsman.Shorthand.C53_unknown
#print axioms Draftsman.Shorthand.C53_section_partial
#print axioms Draftsman.Shorthand.C53_section_unknown
#print axioms Draftsman.Shorthand.C53_section_refuted
#print axioms Draftsman.Shorthand.C53_section_failed_refuted
#print axioms Draftsman.Shorthand.C53_distinct_refuted
#print axioms Draftsman.Shorthand.C53_untyped_refuted
#print axioms Draftsman.Shorthand.C53_text_refuted
#print axioms Draftsman.ValResult.C54_reissue
#print axioms Draftsman.ValResult.C54_combine
#print axioms Draftsman.ValResult.C54_eq_iff
#print axioms Draftsman.ValResult.C54_assignment
#print axioms Draftsman.Modules.C55_exact
#print axioms Draftsman.Modules.C55_once
#print axioms Draftsman.Modules.C55_more
#print axioms Draftsman.Modules.C55_recipe
#print axioms Draftsman.Modules.C55_unknown
#print axioms Draftsman.Belts.C56_kept
#print axioms Draftsman.Belts.C56_turned
#print axioms Draftsman.Belts.C56_belt_partial
#print axioms Draftsman.Belts.C56_back
#print axioms Draftsman.Belts.C56_straight
#print axioms Draftsman.Belts.C56_succeeds_partial
#print axioms Draftsman.Belts.C56_twice_partial
#print axioms Draftsman.Belts.C56_facing_refuted
#print axioms Draftsman.Belts.C56_chest_refuted
#print axioms Draftsman.Belts.C56_twice_refuted
#print axioms Draftsman.Belts.C56_group_refuted
#print axioms Draftsman.BpString.C57_root
#print axioms Draftsman.Codec.C57_dispatch
#print axioms Draftsman.Codec.C57_unknown
#print axioms Draftsman.Codec.C57_from_string
#print axioms Draftsman.Json.C57_real
#print axioms Draftsman.Orientation.C58_eq_lt
#print axioms Draftsman.Orientation.C58_consistent_partial
#print axioms Draftsman.Orientation.C58_refuted
#print axioms Draftsman.Orientation.C58_ne_refuted
#print axioms Draftsman.Modules.C59_signal_type
#print axioms Draftsman.Modules.C59_signal
#print axioms Draftsman.Modules.C59_agree
#print axioms Draftsman.Modules.C59_signal_once_refuted
#print axioms Draftsman.Modules.C59_module_new_partial
#print axioms Draftsman.Modules.C59_module_category
#print axioms Draftsman.Modules.C59_module_effect_refuted
#print axioms Draftsman.Modules.C59_module_once_refuted
#print axioms Draftsman.Modules.C59_category_refuted
#print axioms Draftsman.Modules.C59_category_partial
#print axioms Draftsman.Copy.C60_copy
#print axioms Draftsman.Copy.C60_outside
#print axioms Draftsman.Copy.C60_mem_start
#print axioms Draftsman.Copy.C60_dropped_refuted
#print axioms Draftsman.Copy.C60_order_refuted
#print axioms Draftsman.Copy.C61_copy_partial
#print axioms Draftsman.Copy.C61_bp_ok
#print axioms Draftsman.Copy.C61_wires_refuted
#print axioms Draftsman.Copy.C61_moved_refuted
#print axioms Draftsman.Copy.C61_label_refuted
#print axioms Draftsman.Power.C62_joined_partial
#print axioms Draftsman.Power.C62_twice
#print axioms Draftsman.Power.C62_order
#print axioms Draftsman.Power.C62_poles_ok
#print axioms Draftsman.Power.C62_again_refuted
#print axioms Draftsman.Power.C62_limit_refuted
#print axioms Draftsman.TrainSearch.C63_filter_partial
#print axioms Draftsman.TrainSearch.C63_trains
#print axioms Draftsman.TrainSearch.C63_disjoint_partial
#print axioms Draftsman.TrainSearch.C63_disjoint_refuted
#print axioms Draftsman.TrainSearch.C63_schedule_refuted
#print axioms Draftsman.TrainSearch.C63_orientation_refuted
#print axioms Draftsman.TrainSearch.C63_names_refuted
#print axioms Draftsman.TrainSearch.C63_head_refuted
#print axioms Draftsman.Instruments.C64_extract_partial
#print axioms Draftsman.Instruments.C64_added_partial
#print axioms Draftsman.Instruments.C64_unknown
#print axioms Draftsman.Instruments.C64_others
#print axioms Draftsman.Instruments.C64_id
#print axioms Draftsman.Instruments.C64_insert_refuted
#print axioms Draftsman.Instruments.C64_self_refuted
#print axioms Draftsman.Instruments.C64_self_note_refuted
#print axioms Draftsman.Instruments.C64_stale_refuted
#print axioms Draftsman.Instruments.C64_stored
#print axioms Draftsman.Instruments.C64_kept
#print axioms Draftsman.Instruments.C64_equal_refuted
#print axioms Draftsman.Import.C65_outcome
#print axioms Draftsman.Import.C65_references_partial
#print axioms Draftsman.Import.C65_left
#print axioms Draftsman.Import.C65_again
#print axioms Draftsman.Import.C65_again_refuted
#print axioms Draftsman.Import.C65_shared_refuted
#print axioms Draftsman.Import.C65_zero_refuted
#print axioms Draftsman.Import.C65_order_refuted
#print axioms Draftsman.Import.C65_half_refuted
#print axioms Draftsman.Import.C65_failed
#print axioms Draftsman.Import.C65_group
#print axioms Draftsman.Import.C65_group_refuted
#print axioms Draftsman.DataTables.C66_unknown
#print axioms Draftsman.DataTables.C66_item
#print axioms Draftsman.DataTables.C66_once_partial
#print axioms Draftsman.DataTables.C66_subgroup_partial
#print axioms Draftsman.DataTables.C66_unshared_partial
#print axioms Draftsman.DataTables.C66_modify_refuted
#print axioms Draftsman.DataTables.C66_default_refuted
#print axioms Draftsman.DataTables.C66_defaultGroup_refuted
#print axioms Draftsman.DataTables.C66_regroup_refuted
#print axioms Draftsman.DataTables.C66_namesake_refuted
#print axioms Draftsman.DataTables.C66_group
#print axioms Draftsman.DataTables.C66_shared
#print axioms Draftsman.DataTables.C66_fluid
#print axioms Draftsman.DataTables.C66_fluid_refuted
#print axioms Draftsman.DataTables.C66_range_refuted
#print axioms Draftsman.DataTables.C66_entity_partial
#print axioms Draftsman.DataTables.C66_retype_refuted
#print axioms Draftsman.Merge.C67_merge_partial
#print axioms Draftsman.Merge.C67_wires_partial
#print axioms Draftsman.Merge.C67_again_partial
#print axioms Draftsman.Merge.C67_twins_refuted
#print axioms Draftsman.Merge.C67_nested_refuted
#print axioms Draftsman.Merge.C67_insert
#print axioms Draftsman.Merge.C67_id_refuted
#print axioms Draftsman.Merge.C67_frame_refuted
#print axioms Draftsman.C68_slice
#print axioms Draftsman.TileList.C68_assign
#print axioms Draftsman.TileList.C68_assign_tiles
#print axioms Draftsman.TileList.C68_assign_refused
#print axioms Draftsman.TileList.C68_assign_former_refuted
#print axioms Draftsman.TileList.C68_index
#print axioms Draftsman.TileList.C68_locked
#print axioms Draftsman.TileList.C68_copy_refuted
#print axioms Draftsman.TileList.C68_objects_partial
#print axioms Draftsman.TileList.C68_find_partial
#print axioms Draftsman.TileList.C68_merge
#print axioms Draftsman.TileList.C68_mergeRef
#print axioms Draftsman.TileList.C68_twin_refuted
#print axioms Draftsman.TileList.C68_set_refuted
#print axioms Draftsman.TileList.C68_parent_refuted
#print axioms Draftsman.TileList.C68_orphan_refuted
#print axioms Draftsman.TileList.C68_dicts
#print axioms Draftsman.TileList.C68_dicts_refuted
#print axioms Draftsman.TileList.C68_reverse
#print axioms Draftsman.TileList.C68_pop
#print axioms Draftsman.Overlap.C69_warn
#print axioms Draftsman.Overlap.C69_group
#print axioms Draftsman.Overlap.C69_group_refuted
#print axioms Draftsman.Overlap.C69_sound
#print axioms Draftsman.Overlap.C69_gate_partial
#print axioms Draftsman.Overlap.C69_gate_refuted
#print axioms Draftsman.Overlap.C69_rail_refuted
#print axioms Draftsman.Overlap.C69_merge_refuted
#print axioms Draftsman.Overlap.C69_equal_refuted
#print axioms Draftsman.Overlap.C69_unknown_refuted
#print axioms Draftsman.Overlap.C69_mask_refuted
#print axioms Draftsman.ModLoad.C70_all
#print axioms Draftsman.ModLoad.C70_before
#print axioms Draftsman.ModLoad.C70_loads_partial
#print axioms Draftsman.ModLoad.C70_listing
#print axioms Draftsman.ModLoad.C70_select
#print axioms Draftsman.ModLoad.C70_harmless_refuted
#print axioms Draftsman.ModLoad.C70_harmless2_refuted
#print axioms Draftsman.ModLoad.C70_unordered_refuted
#print axioms Draftsman.ModLoad.C70_depth_refuted
#print axioms Draftsman.ModLoad.C70_equals_refuted
#print axioms Draftsman.ModLoad.C70_parts_refuted
#print axioms Draftsman.ModLoad.C70_reasons
#print axioms Draftsman.ModLoad.C70_refused
#print axioms Draftsman.ModLoad.C71_read
#print axioms Draftsman.ModLoad.C71_sound
#print axioms Draftsman.ModLoad.C71_spaces_refuted
#print axioms Draftsman.ModLoad.C71_refused_refuted
#print axioms Draftsman.ModEnable.C72_enabled
#print axioms Draftsman.ModEnable.C72_entries
#print axioms Draftsman.ModEnable.C72_unknown
#print axioms Draftsman.ModEnable.C72_works_partial
#print axioms Draftsman.ModEnable.C72_again
#print axioms Draftsman.ModEnable.C72_all_refuted
#print axioms Draftsman.ModEnable.C72_new_refuted
#print axioms Draftsman.ModEnable.C72_twice_refuted
#print axioms Draftsman.GameData.C73_names
#print axioms Draftsman.GameData.C73_sorted
#print axioms Draftsman.GameData.C73_works_partial
#print axioms Draftsman.GameData.C73_unique
#print axioms Draftsman.GameData.C73_group_refuted
#print axioms Draftsman.GameData.C73_mined_refuted
#print axioms Draftsman.GameData.C73_last_refuted
#print axioms Draftsman.GameData.C74_array
#print axioms Draftsman.GameData.C74_record
#print axioms Draftsman.GameData.C74_mixed
#print axioms Draftsman.GameData.C74_faithful_partial
#print axioms Draftsman.GameData.C74_sparse_refuted
#print axioms Draftsman.GameData.C74_bool_refuted
#print axioms Draftsman.GameData.C74_empty_refuted
#print axioms Draftsman.GameData.C74_order_refuted
#print axioms Draftsman.GameData.C75_keys
#print axioms Draftsman.GameData.C75_items
#print axioms Draftsman.GameData.C75_sorted
#print axioms Draftsman.GameData.C75_works
#print axioms Draftsman.GameData.C75_agrees
#print axioms Draftsman.GameData.C75_twice_refuted
#print axioms Draftsman.GameData.C76_categories
#print axioms Draftsman.GameData.C76_works
#print axioms Draftsman.GameData.C76_machine
#print axioms Draftsman.GameData.C76_once
#print axioms Draftsman.GameData.C76_machine_works
#print axioms Draftsman.Attr.C77_validated_partial
#print axioms Draftsman.Attr.C77_unvalidated_partial
#print axioms Draftsman.Attr.C77_none
#print axioms Draftsman.Attr.C77_frame_partial
#print axioms Draftsman.Attr.C77_refused_partial
#print axioms Draftsman.Attr.C77_accepts_partial
#print axioms Draftsman.Attr.C77_sections_refuted
#print axioms Draftsman.Attr.C77_missing
#print axioms Draftsman.Attr.C77_sealed
#print axioms Draftsman.Attr.C77_sealed_refuted
#print axioms Draftsman.Attr.C77_resolved
#print axioms Draftsman.Attr.C77_fresh_partial
#print axioms Draftsman.Attr.C77_fresh_refuted
#print axioms Draftsman.Attr.C77_quality_refuted
#print axioms Draftsman.Attr.C77_refused_refuted
#print axioms Draftsman.Attr.C77_fluid_refuted
#print axioms Draftsman.Attr.C77_lamp_refuted
#print axioms Draftsman.Attr.C77_cleared_refuted
#print axioms Draftsman.EntTypes.C78_succeeds
#print axioms Draftsman.EntTypes.C78_lists
#print axioms Draftsman.EntTypes.C78_raw
#print axioms Draftsman.EntTypes.C78_once
#print axioms Draftsman.EntTypes.C78_unlisted_refuted
#print axioms Draftsman.EntTypes.C78_box_refuted
#print axioms Draftsman.EntTypes.C78_mask_refuted
#print axioms Draftsman.EntTypes.C78_hidden_refuted
#print axioms Draftsman.EntTypes.C78_order_refuted
#print axioms Draftsman.EntTypes.C78_rails_refuted
#print axioms Draftsman.EntTypes.C79_known_partial
#print axioms Draftsman.EntTypes.C79_logistic
#print axioms Draftsman.EntTypes.C79_generic
#print axioms Draftsman.EntTypes.C79_unmade_refuted
#print axioms Draftsman.EntTypes.C79_orphan_refuted
#print axioms Draftsman.EntTypes.C79_default_partial
#print axioms Draftsman.Setup.C80_given_partial
#print axioms Draftsman.Setup.C80_attributes
#print axioms Draftsman.Setup.C80_not_cumulative_partial
#print axioms Draftsman.Setup.C80_outcome
#print axioms Draftsman.Setup.C80_unknown
#print axioms Draftsman.Setup.C80_item
#print axioms Draftsman.Setup.C80_version
#print axioms Draftsman.Setup.C80_planner_succeeds
#print axioms Draftsman.Setup.C80_stale_refuted
#print axioms Draftsman.Setup.C80_upgrade_none_refuted
#print axioms Draftsman.Setup.C80_unknown_stays_refuted
#print axioms Draftsman.Setup.C80_settings_unknown_refuted
#print axioms Draftsman.Setup.C80_replaced_refuted
#print axioms Draftsman.Setup.C80_refused_refuted
#print axioms Draftsman.Setup.C80_index_refuted
#print axioms Draftsman.Setup.C80_construct_errors
#print axioms Draftsman.Setup.C80_construct_partial
#print axioms Draftsman.MergeAttr.C81_taken_partial
#print axioms Draftsman.MergeAttr.C81_kept
#print axioms Draftsman.MergeAttr.C81_fixed
#print axioms Draftsman.MergeAttr.C81_succeeds
#print axioms Draftsman.MergeAttr.C81_equal
#print axioms Draftsman.MergeAttr.C81_equivalence
#print axioms Draftsman.MergeAttr.C81_compared_partial
#print axioms Draftsman.MergeAttr.C81_ignored
#print axioms Draftsman.MergeAttr.C81_hash_partial
#print axioms Draftsman.MergeAttr.C81_merge_refuted
#print axioms Draftsman.MergeAttr.C81_missing_refuted
#print axioms Draftsman.MergeAttr.C81_half_refuted
#print axioms Draftsman.MergeAttr.C81_equal_refuted
#print axioms Draftsman.MergeAttr.C81_unhashable_refuted
#print axioms Draftsman.MergeAttr.C81_hash_refuted
#print axioms Draftsman.Machines.C82_ingredients
#print axioms Draftsman.Machines.C82_ingredients_none
#print axioms Draftsman.Machines.C82_recipe_partial
#print axioms Draftsman.Machines.C82_recipe_empty
#print axioms Draftsman.Machines.C82_recipe_stored
#print axioms Draftsman.Machines.C82_unknown_refuted
#print axioms Draftsman.Machines.C82_silo_refuted
#print axioms Draftsman.Machines.C82_machine_refuted
#print axioms Draftsman.Machines.C82_items_partial
#print axioms Draftsman.Machines.C82_fuel_partial
#print axioms Draftsman.Machines.C82_fuel_unknown
#print axioms Draftsman.Machines.C82_items_quiet
#print axioms Draftsman.Machines.C82_furnace_refuted
#print axioms Draftsman.Machines.C82_generator_refuted
#print axioms Draftsman.Machines.C82_short_refuted
#print axioms Draftsman.Machines.C82_unchecked_refuted
#print axioms Draftsman.Machines.C82_cache_partial
#print axioms Draftsman.Machines.C82_furnace_inputs
#print axioms Draftsman.Machines.C82_lab_partial
#print axioms Draftsman.Machines.C82_lab_refuted
#print axioms Draftsman.Machines.C82_container_refuted
#print axioms Draftsman.Machines.C82_queries_refuted
#print axioms Draftsman.Machines.C82_fuelled_partial
#print axioms Draftsman.Machines.C82_fuelled_refuted
#print axioms Draftsman.Machines.C82_order_refuted
#print axioms Draftsman.Machines.C82_blacklist_refuted
#print axioms Draftsman.Machines.C82_cache_refuted
#print axioms Draftsman.Signals.C83_types
#print axioms Draftsman.Signals.C83_lists
#print axioms Draftsman.Signals.C83_raw
#print axioms Draftsman.Signals.C83_works
#print axioms Draftsman.Signals.C83_items
#print axioms Draftsman.Signals.C83_entities
#print axioms Draftsman.Signals.C83_fluids
#print axioms Draftsman.Signals.C83_modules
#print axioms Draftsman.Signals.C83_fuels
#print axioms Draftsman.Signals.C83_tiles
#print axioms Draftsman.Signals.C83_item_refuted
#print axioms Draftsman.Signals.C83_ambiguous_refuted
#print axioms Draftsman.Signals.C83_raw_refuted
#print axioms Draftsman.Ctor.C84_given_partial
#print axioms Draftsman.Ctor.C84_default_partial
#print axioms Draftsman.Ctor.C84_separate_partial
#print axioms Draftsman.Ctor.C84_extra
#print axioms Draftsman.Ctor.C84_place
#print axioms Draftsman.Ctor.C84_mode
#print axioms Draftsman.Ctor.C84_works_partial
#print axioms Draftsman.Ctor.C84_collector
#print axioms Draftsman.Ctor.C84_unchecked_partial
#print axioms Draftsman.Ctor.C84_late
#print axioms Draftsman.Ctor.C84_tags
#print axioms Draftsman.Ctor.C84_shared_refuted
#print axioms Draftsman.Ctor.C84_chunks_refuted
#print axioms Draftsman.Ctor.C84_dropped_refuted
#print axioms Draftsman.Ctor.C84_orphan_refuted
#print axioms Draftsman.Ctor.C84_items_refuted
#print axioms Draftsman.Ctor.C84_names_refuted
#print axioms Draftsman.Ctor.C84_both_refuted
#print axioms Draftsman.Ctor.C84_invalid_refuted
#print axioms Draftsman.Ctor.C84_built
#print axioms Draftsman.Validate.C85_none
#print axioms Draftsman.Validate.C85_parts_none
#print axioms Draftsman.Validate.C85_parts
#print axioms Draftsman.Validate.C85_complete_partial
#print axioms Draftsman.Validate.C85_clean
#print axioms Draftsman.Validate.C85_raises
#print axioms Draftsman.Validate.C85_force
#print axioms Draftsman.Validate.C85_mode
#print axioms Draftsman.Validate.C85_after_partial
#print axioms Draftsman.Validate.C85_again
#print axioms Draftsman.Validate.C85_minimum
#print axioms Draftsman.Validate.C85_size
#print axioms Draftsman.Validate.C85_index
#print axioms Draftsman.Validate.C85_index_refuted
#print axioms Draftsman.Validate.C85_ids
#print axioms Draftsman.Validate.C85_schedules_refuted
#print axioms Draftsman.Validate.C85_raises_refuted
#print axioms Draftsman.Validate.C85_coerce_refuted
#print axioms Draftsman.Convert.C86_color
#print axioms Draftsman.Convert.C86_color_dict
#print axioms Draftsman.Convert.C86_color_raises_partial
#print axioms Draftsman.Convert.C86_color_refuted
#print axioms Draftsman.Convert.C86_networks
#print axioms Draftsman.Convert.C86_networks_refuted
#print axioms Draftsman.Convert.C86_comparator
#print axioms Draftsman.Convert.C86_condition
#print axioms Draftsman.Convert.C86_condition_raises_partial
#print axioms Draftsman.Convert.C86_condition_refuted
#print axioms Draftsman.Convert.C86_position
#print axioms Draftsman.Convert.C86_whole
#print axioms Draftsman.Convert.C86_position_raises_partial
#print axioms Draftsman.Convert.C86_position_refuted
#print axioms Draftsman.Special.C87_mask
#print axioms Draftsman.Special.C87_assign
#print axioms Draftsman.Special.C87_link
#print axioms Draftsman.Special.C87_range
#print axioms Draftsman.Special.C87_failed
#print axioms Draftsman.Special.C87_range_refuted
#print axioms Draftsman.Special.C87_links
#print axioms Draftsman.Special.C87_invariant
#print axioms Draftsman.Special.C87_mask_refuted
#print axioms Draftsman.Special.C87_filter
#print axioms Draftsman.Special.C87_filters
#print axioms Draftsman.Special.C87_filter_failed
#print axioms Draftsman.Special.C87_filter_refuted
#print axioms Draftsman.Special.C87_filter_index_refuted
#print axioms Draftsman.Special.C87_filter_none_refuted
#print axioms Draftsman.Special.C87_export
#print axioms Draftsman.Special.C87_plain
#print axioms Draftsman.Special.C87_import_partial
#print axioms Draftsman.Special.C87_export_refuted
#print axioms Draftsman.Special.C87_import_refuted
#print axioms Draftsman.Special.C87_section
#print axioms Draftsman.Special.C87_section_fails
#print axioms Draftsman.Special.C87_sections
#print axioms Draftsman.Special.C87_sections_refuted
#print axioms Draftsman.Checks.C88_name
#print axioms Draftsman.Checks.C88_signal
#print axioms Draftsman.Checks.C88_virtual_partial
#print axioms Draftsman.Checks.C88_virtual_refuted
#print axioms Draftsman.Checks.C88_filters_partial
#print axioms Draftsman.Checks.C88_filters_refuted
#print axioms Draftsman.Checks.C88_size
#print axioms Draftsman.Checks.C88_bar_partial
#print axioms Draftsman.Checks.C88_bar_raises
#print axioms Draftsman.Checks.C88_bar_refuted
#print axioms Draftsman.Checks.C88_grid
#print axioms Draftsman.Checks.C88_temperature
#print axioms Draftsman.Checks.C88_volume_partial
#print axioms Draftsman.Checks.C88_volume_refuted
#print axioms Draftsman.Checks.C88_instrument
#print axioms Draftsman.Checks.C88_note_partial
#print axioms Draftsman.Checks.C88_note_refuted
#print axioms Draftsman.Checks.C88_parameters_partial
#print axioms Draftsman.Checks.C88_parameters_refuted
#print axioms Draftsman.Checks.C88_forbidden_partial
#print axioms Draftsman.Checks.C88_forbidden_refuted
#print axioms Draftsman.Checks.C88_each
#print axioms Draftsman.Checks.C88_shorthand_partial
#print axioms Draftsman.Checks.C88_shorthand_refuted
#print axioms Draftsman.Checks.C88_mappers
#print axioms Draftsman.Checks.C88_mappers_raise
#print axioms Draftsman.Checks.C88_quiet_partial
#print axioms Draftsman.Checks.C88_stricter
#print axioms Draftsman.Checks.C88_unknown
#print axioms Draftsman.Suggest.C88_entity_name
#print axioms Draftsman.Suggest.C88_tile_name
#print axioms Draftsman.Suggest.C88_suggestion
#print axioms Draftsman.Suggest.C88_suggestion_one
#print axioms Draftsman.Equality.C89_parts_partial
#print axioms Draftsman.Equality.C89_equivalence
#print axioms Draftsman.Equality.C89_loaded
#print axioms Draftsman.Equality.C89_content_partial
#print axioms Draftsman.Equality.C89_copied
#print axioms Draftsman.Equality.C89_copied_new
#print axioms Draftsman.Equality.C89_loaded_refuted
#print axioms Draftsman.Equality.C89_wires_refuted
#print axioms Draftsman.Equality.C89_copied_refuted
#print axioms Draftsman.Equality.C89_order_refuted
#print axioms Draftsman.Equality.C89_boxes
#print axioms Draftsman.Equality.C89_shapes
#print axioms Draftsman.Equality.C89_rectangle_refuted
#print axioms Draftsman.Record.C90_field
#print axioms Draftsman.Record.C90_present
#print axioms Draftsman.Record.C90_extra
#print axioms Draftsman.Record.C90_missing
#print axioms Draftsman.Record.C90_extra_refuted
#print axioms Draftsman.Record.C90_method_refuted
#print axioms Draftsman.Record.C90_missing_refuted
#print axioms Draftsman.Record.C90_sections
#print axioms Draftsman.Record.C90_sections_refuted
#print axioms Draftsman.Record.C90_condition
#print axioms Draftsman.Record.C90_accepted
#print axioms Draftsman.Record.C90_removed
#print axioms Draftsman.Record.C90_owner
#print axioms Draftsman.Record.C90_belt_refuted
#print axioms Draftsman.Record.C90_stored_refuted
#print axioms Draftsman.Record.C90_error_refuted
#print axioms Draftsman.Record.C90_numeral_refuted
#print axioms Draftsman.Ctor.C91_default_partial
#print axioms Draftsman.Ctor.C91_exports
#print axioms Draftsman.Ctor.C91_energy_fails
#print axioms Draftsman.Ctor.C91_exported
#print axioms Draftsman.Ctor.C91_roundtrip_partial
#print axioms Draftsman.Ctor.C91_new_partial
#print axioms Draftsman.Ctor.C91_energy
#print axioms Draftsman.Ctor.C91_odd
#print axioms Draftsman.Ctor.C91_energy_refuted
#print axioms Draftsman.Ctor.C91_wagon_refuted
#print axioms Draftsman.Ctor.C91_silo_refuted
#print axioms Draftsman.Ctor.C91_none_refuted
#print axioms Draftsman.Ctor.C91_new_refuted
#print axioms Draftsman.SchedList.C92_effect
#print axioms Draftsman.SchedList.C92_fault
#print axioms Draftsman.SchedList.C92_built
#print axioms Draftsman.SchedList.C92_only_partial
#print axioms Draftsman.SchedList.C92_pop
#print axioms Draftsman.SchedList.C92_index_refuted
#print axioms Draftsman.SchedList.C92_extend_refuted
#print axioms Draftsman.SchedList.C92_own_partial
#print axioms Draftsman.SchedList.C92_assigned
#print axioms Draftsman.SchedList.C92_shared_refuted
#print axioms Draftsman.SchedList.C92_none_refuted
#print axioms Draftsman.SchedList.C92_setup_refuted
#print axioms Draftsman.Rename.C93_refused
#print axioms Draftsman.Rename.C93_kept
#print axioms Draftsman.Rename.C93_plain_partial
#print axioms Draftsman.Rename.C93_fourway_partial
#print axioms Draftsman.Rename.C93_constructed
#print axioms Draftsman.Rename.C93_same_partial
#print axioms Draftsman.Rename.C93_self_partial
#print axioms Draftsman.Rename.C93_turn_partial
#print axioms Draftsman.Rename.C93_nobox
#print axioms Draftsman.Rename.C93_cache_refuted
#print axioms Draftsman.Rename.C93_diagonal_refuted
#print axioms Draftsman.Rename.C93_override_refuted
#print axioms Draftsman.Rename.C93_vehicle_refuted
#print axioms Draftsman.Rename.C93_self_refuted
#print axioms Draftsman.Rename.C93_turn_refuted
#print axioms Draftsman.Lifecycle.C94_balanced
#print axioms Draftsman.Lifecycle.C94_order
#print axioms Draftsman.Lifecycle.C94_once
#print axioms Draftsman.Lifecycle.C94_environment
#print axioms Draftsman.Lifecycle.C94_unloaded
#print axioms Draftsman.Lifecycle.C94_alone
#print axioms Draftsman.Lifecycle.C94_archive
#print axioms Draftsman.Lifecycle.C94_folder
#print axioms Draftsman.Lifecycle.C94_spelling
#print axioms Draftsman.Lifecycle.C94_own_partial
#print axioms Draftsman.Lifecycle.C94_dir_partial
#print axioms Draftsman.Lifecycle.C94_absolute_partial
#print axioms Draftsman.Lifecycle.C94_archive_module
#print axioms Draftsman.Lifecycle.C94_unknown
#print axioms Draftsman.Lifecycle.C94_effect
#print axioms Draftsman.Lifecycle.C94_types
#print axioms Draftsman.Lifecycle.C94_settings
#print axioms Draftsman.Lifecycle.C94_settings_ok
#print axioms Draftsman.Lifecycle.C94_archive_refuted
#print axioms Draftsman.Lifecycle.C94_suffix_refuted
#print axioms Draftsman.Lifecycle.C94_sound_refuted
#print axioms Draftsman.Lifecycle.C94_neighbour_refuted
#print axioms Draftsman.Lifecycle.C94_other_refuted
#print axioms Draftsman.Lifecycle.C94_twice_refuted
#print axioms Draftsman.Lifecycle.C94_nested_refuted
#print axioms Draftsman.Lifecycle.C94_base_refuted
#print axioms Draftsman.GameVersion.C95_unchanged
#print axioms Draftsman.GameVersion.C95_tags
#print axioms Draftsman.GameVersion.C95_chosen_partial
#print axioms Draftsman.GameVersion.C95_latest_partial
#print axioms Draftsman.GameVersion.C95_recorded
#print axioms Draftsman.GameVersion.C95_branch_refuted
#print axioms Draftsman.GameVersion.C95_latest_refuted
#print axioms Draftsman.GameVersion.C95_recorded_refuted
#print axioms Draftsman.RoundTrip.C96_again
#print axioms Draftsman.RoundTrip.C96_stable
#print axioms Draftsman.RoundTrip.C96_apart
#print axioms Draftsman.RoundTrip.C96_settles
#print axioms Draftsman.RoundTrip.C96_ids_refuted
#print axioms Draftsman.Warnings.C97_result
#print axioms Draftsman.Warnings.C97_warnings_partial
#print axioms Draftsman.Warnings.C97_lost
#print axioms Draftsman.Warnings.C97_lost_refuted
#print axioms Draftsman.RailPlanner.C98_never
#print axioms Draftsman.RailPlanner.C98_type
#print axioms Draftsman.RailPlanner.C98_name
#print axioms Draftsman.RailPlanner.C98_rails
#print axioms Draftsman.RailPlanner.C98_made_refuted
#print axioms Draftsman.Stops.C99_condition
#print axioms Draftsman.Stops.C99_made
#print axioms Draftsman.Stops.C99_stops
#print axioms Draftsman.Stops.C99_again
#print axioms Draftsman.Stops.C99_settled
#print axioms Draftsman.Stops.C99_list
#print axioms Draftsman.Stops.C99_short
#print axioms Draftsman.Stops.C99_missing_export
#print axioms Draftsman.Stops.C99_ticks_refuted
#print axioms Draftsman.Stops.C99_comparison_refuted
#print axioms Draftsman.Stops.C99_missing_refuted
#print axioms Draftsman.Stops.C99_missing_export_refuted
#print axioms Draftsman.Stops.C99_caller_refuted
#print axioms Draftsman.BpString.C100_loads
#print axioms Draftsman.BpString.C100_same
#print axioms Draftsman.BpString.C100_settles
#print axioms Draftsman.BpString.C100_arguments
#print axioms Draftsman.BpString.C100_refused
#print axioms Draftsman.BpString.C100_typeError
#print axioms Draftsman.BpString.C100_same_refuted
#print axioms Draftsman.BpString.C100_version_refuted
#print axioms Draftsman.BpString.C100_unknown_refuted
#print axioms Draftsman.BpString.C100_documented_refuted
#print axioms Draftsman.BookString.C101_attributes
#print axioms Draftsman.BookString.C101_loads
#print axioms Draftsman.BookString.C101_same
#print axioms Draftsman.BookString.C101_settles
#print axioms Draftsman.BookString.C101_class
#print axioms Draftsman.BookString.C101_kind_refuted
#print axioms Draftsman.Nested.C102_back_partial
#print axioms Draftsman.Nested.C102_fails
#print axioms Draftsman.Nested.C102_kept
#print axioms Draftsman.Nested.C102_again
#print axioms Draftsman.Nested.C102_names
#print axioms Draftsman.Nested.C102_control
#print axioms Draftsman.Nested.C102_empty
#print axioms Draftsman.Nested.C102_required
#print axioms Draftsman.Nested.C102_short
#print axioms Draftsman.Nested.C102_twice_refuted
#print axioms Draftsman.Nested.C102_signal_refuted
#print axioms Draftsman.Nested.C102_filter_refuted
#print axioms Draftsman.Nested.C102_hidden_refuted
#print axioms Draftsman.Nested.C102_keys_refuted
#print axioms Draftsman.Nested.C102_none_refuted
#print axioms Draftsman.Mappers.C103_set_partial
#print axioms Draftsman.Mappers.C103_remove_partial
#print axioms Draftsman.Mappers.C103_unknown
#print axioms Draftsman.Mappers.C103_model
#print axioms Draftsman.Mappers.C103_failed
#print axioms Draftsman.Mappers.C103_back_partial
#print axioms Draftsman.Mappers.C103_back_first
#print axioms Draftsman.Mappers.C103_assign
#print axioms Draftsman.Mappers.C103_one
#print axioms Draftsman.Mappers.C103_forms
#print axioms Draftsman.Mappers.C103_pairs
#print axioms Draftsman.Mappers.C103_reset
#print axioms Draftsman.Mappers.C103_none
#print axioms Draftsman.Mappers.C103_quiet
#print axioms Draftsman.Mappers.C103_model_refuted
#print axioms Draftsman.Mappers.C103_removed_refuted
#print axioms Draftsman.Mappers.C103_unchanged_refuted
#print axioms Draftsman.Json.C104_decode
#print axioms Draftsman.Json.C104_bytes
#print axioms Draftsman.Json.C104_string
#print axioms Draftsman.Json.C104_foreign
#print axioms Draftsman.Json.C104_written
#print axioms Draftsman.JsonStr.C104_surrogate_refuted
#print axioms Draftsman.Json.C104_text
#print axioms Draftsman.Json.C104_unique
#print axioms Draftsman.Decider.C105_stored
#print axioms Draftsman.Decider.C105_added
#print axioms Draftsman.Decider.C105_failed
#print axioms Draftsman.Decider.C105_dictionaries_partial
#print axioms Draftsman.Decider.C105_made
#print axioms Draftsman.Decider.C105_made_refuted
#print axioms Draftsman.Decider.C105_single_refuted
#print axioms Draftsman.Decider.C105_before
#print axioms Draftsman.Decider.C105_before_refuted
#print axioms Draftsman.Decider.C105_copy
#print axioms Draftsman.Decider.C105_copy_shared
#print axioms Draftsman.Decider.C105_copy_equal
#print axioms Draftsman.Decider.C105_equal_refuted
#print axioms Draftsman.DataAttr.C106_value
#print axioms Draftsman.DataAttr.C106_unknown
#print axioms Draftsman.DataAttr.C106_missing
#print axioms Draftsman.DataAttr.C106_total
#print axioms Draftsman.DataAttr.C106_slots
#print axioms Draftsman.DataAttr.C106_refuted
#print axioms Draftsman.BookList.C107_effect
#print axioms Draftsman.BookList.C107_fault
#print axioms Draftsman.BookList.C107_built
#print axioms Draftsman.BookList.C107_only
#print axioms Draftsman.BookList.C107_pop
#print axioms Draftsman.BookList.C107_own_partial
#print axioms Draftsman.BookList.C107_assigned
#print axioms Draftsman.BookList.C107_slice_refuted
#print axioms Draftsman.BookList.C107_extend_refuted
#print axioms Draftsman.BookList.C107_dict_refuted
#print axioms Draftsman.BookList.C107_shared_refuted
#print axioms Draftsman.InPlace.C108_position
#print axioms Draftsman.InPlace.C108_tile
#print axioms Draftsman.InPlace.C108_agree_partial
#print axioms Draftsman.InPlace.C108_groups_partial
#print axioms Draftsman.InPlace.C108_fraction_refuted
#print axioms Draftsman.InPlace.C108_held_refuted
#print axioms Draftsman.InPlace.C108_copy_refuted
#print axioms Draftsman.InPlace.C108_gone_refuted
#print axioms Draftsman.InPlace.C108_index_refuted
#print axioms Draftsman.InPlace.C108_shared_refuted
#print axioms Draftsman.MergeShare.C109_independent_partial
#print axioms Draftsman.MergeShare.C109_contents
#print axioms Draftsman.MergeShare.C109_classes
#print axioms Draftsman.MergeShare.C109_belts_refuted
#print axioms Draftsman.MergeShare.C109_unvalidated_refuted
#print axioms Draftsman.MergeShare.C109_extra_refuted
#print axioms Draftsman.ModTable.C110_short_partial
#print axioms Draftsman.ModTable.C110_long_partial
#print axioms Draftsman.ModTable.C110_loaded
#print axioms Draftsman.ModTable.C110_loaded_long
#print axioms Draftsman.ModTable.C110_printed
#print axioms Draftsman.ModTable.C110_empty_refuted
#print axioms Draftsman.ModTable.C110_wide_refuted
#print axioms Draftsman.Command.C111_reports
#print axioms Draftsman.Command.C111_enable
#print axioms Draftsman.Command.C111_choose
#print axioms Draftsman.Command.C111_updated
#print axioms Draftsman.Command.C111_failed
#print axioms Draftsman.Command.C111_succeeds_partial
#print axioms Draftsman.Command.C111_again
#print axioms Draftsman.Command.C111_history
#print axioms Draftsman.Command.C111_newer_refuted
#print axioms Draftsman.Command.C111_mixed_refuted
#print axioms Draftsman.EnvUpdate.C112_archive_name
#print axioms Draftsman.EnvUpdate.C112_archive_read
#print axioms Draftsman.EnvUpdate.C112_folder_name
#print axioms Draftsman.EnvUpdate.C112_replaces
#print axioms Draftsman.EnvUpdate.C112_stages
#print axioms Draftsman.EnvUpdate.C112_runs
#print axioms Draftsman.EnvUpdate.C112_before
#print axioms Draftsman.EnvUpdate.C112_versions
#print axioms Draftsman.EnvUpdate.C112_loads_partial
#print axioms Draftsman.EnvUpdate.C112_file_fails
#print axioms Draftsman.EnvUpdate.C112_files_refuted
#print axioms Draftsman.EnvUpdate.C112_archive_refuted
#print axioms Draftsman.EnvUpdate.C112_disabled_refuted
#print axioms Draftsman.EnvUpdate.C112_once_refuted
#print axioms Draftsman.EnvUpdate.C112_noMods_refuted
#print axioms Draftsman.SavedSettings.C113_new_partial
#print axioms Draftsman.SavedSettings.C113_noFile
#print axioms Draftsman.SavedSettings.C113_old_partial
#print axioms Draftsman.SavedSettings.C113_int_refuted
#print axioms Draftsman.SavedSettings.C113_type_refuted
#print axioms Draftsman.SavedSettings.C113_unreadable
#print axioms Draftsman.SavedSettings.C113_noValue
#print axioms Draftsman.FloatPos.C114_nearest
#print axioms Draftsman.FloatPos.C114_moves_partial
#print axioms Draftsman.FloatPos.C114_back_partial
#print axioms Draftsman.FloatPos.C114_global_partial
#print axioms Draftsman.FloatPos.C114_back_refuted
#print axioms Draftsman.FloatPos.C114_far_refuted
#print axioms Draftsman.JsonStr.C115_units_partial
#print axioms Draftsman.JsonStr.C115_back_partial
#print axioms Draftsman.JsonStr.C115_distinct_partial
#print axioms Draftsman.JsonStr.C115_pair_refuted
#print axioms Draftsman.JsonStr.C115_keys_refuted
#print axioms Draftsman.JsonStr.C115_after
#print axioms Draftsman.JsonStr.C115_control
#print axioms Draftsman.JsonStr.C115_error
#print axioms Draftsman.JsonStr.C115_agree
#print axioms Draftsman.NestedList.C116_contains
#print axioms Draftsman.NestedList.C116_root_first
#print axioms Draftsman.NestedList.C116_group_next
#print axioms Draftsman.NestedList.C116_refuses
#print axioms Draftsman.NestedList.C116_removes_partial
#print axioms Draftsman.NestedList.C116_deep_refuted
#print axioms Draftsman.NestedList.C116_equal_refuted
#print axioms Draftsman.NestedList.C116_path
#print axioms Draftsman.NestedList.C116_single_refuted
#print axioms Draftsman.NestedList.C116_path_error
#print axioms Draftsman.C117_pop
#print axioms Draftsman.C117_pop_outside
#print axioms Draftsman.C117_pop_id
#print axioms Draftsman.C117_remove
#print axioms Draftsman.C117_reverse_partial
#print axioms Draftsman.C117_reverse_stops
#print axioms Draftsman.C117_extend_self_partial
#print axioms Draftsman.C117_extend_self_endless
#print axioms Draftsman.C117_front_legal
#print axioms Draftsman.C117_back_legal
#print axioms Draftsman.C117_reverse_refuted
#print axioms Draftsman.C117_reverse_failed_refuted
#print axioms Draftsman.C117_endless_refuted
#print axioms Draftsman.SetEntities.C118_blueprint
#print axioms Draftsman.SetEntities.C118_blueprint_refuses
#print axioms Draftsman.SetEntities.C118_group
#print axioms Draftsman.SetEntities.C118_source_partial
#print axioms Draftsman.SetEntities.C118_spent
#print axioms Draftsman.SetEntities.C118_dicts_refuted
#print axioms Draftsman.SetEntities.C118_wires_refuted
#print axioms Draftsman.SetEntities.C118_former_refuted
#print axioms Draftsman.BpVersion.C119_parts
#print axioms Draftsman.BpVersion.C119_number
#print axioms Draftsman.BpVersion.C119_refuses
#print axioms Draftsman.BpVersion.C119_history
#print axioms Draftsman.BpVersion.C119_none
#print axioms Draftsman.BpVersion.C119_wide_refuted
#print axioms Draftsman.BpVersion.C119_none_refuted
#print axioms Draftsman.BpVersion.C119_text_refuted
#print axioms Draftsman.BpVersion.C119_unchecked_refuted
#print axioms Draftsman.Grid.C120_bound
#print axioms Draftsman.Grid.C120_warned
#print axioms Draftsman.Grid.C120_translate
#print axioms Draftsman.Grid.C120_check_partial
#print axioms Draftsman.Grid.C120_group_refuted
#print axioms Draftsman.Grid.C120_cast_refuted
#print axioms Draftsman.InfPipe.C121_all
#print axioms Draftsman.InfPipe.C121_assign
#print axioms Draftsman.InfPipe.C121_history
#print axioms Draftsman.InfPipe.C121_stuck
#print axioms Draftsman.InfPipe.C121_swap
#print axioms Draftsman.InfPipe.C121_none
#print axioms Draftsman.InfPipe.C121_none_all
#print axioms Draftsman.InfPipe.C121_merge
#print axioms Draftsman.InfPipe.C121_typed
#print axioms Draftsman.InfPipe.C121_refused_refuted
#print axioms Draftsman.InfPipe.C121_minimum_refuted
#print axioms Draftsman.InfPipe.C121_error_refuted
#print axioms Draftsman.NestMap.C122_only_partial
#print axioms Draftsman.NestMap.C122_all_partial
#print axioms Draftsman.NestMap.C122_copy
#print axioms Draftsman.NestMap.C122_delete
#print axioms Draftsman.NestMap.C122_nested_refuted
#print axioms Draftsman.NestMap.C122_ghost_refuted
#print axioms Draftsman.NestMap.C122_translate_refuted
#print axioms Draftsman.NestMap.C122_turn
#print axioms Draftsman.NestMap.C122_translate
#print axioms Draftsman.NestMap.C122_move
#print axioms Draftsman.BpAttr.C123_accepts_partial
#print axioms Draftsman.BpAttr.C123_readback
#print axioms Draftsman.BpAttr.C123_frame
#print axioms Draftsman.BpAttr.C123_refused
#print axioms Draftsman.BpAttr.C123_history_partial
#print axioms Draftsman.BpAttr.C123_books
#print axioms Draftsman.BpAttr.C123_others
#print axioms Draftsman.BpAttr.C123_unchecked_refuted
#print axioms Draftsman.BpAttr.C123_grid_refuted
#print axioms Draftsman.BpAttr.C123_settings_refuted
#print axioms Draftsman.BpAttr.C123_none
#print axioms Draftsman.WaitAttr.C124_validate
#print axioms Draftsman.WaitAttr.C124_make
#print axioms Draftsman.WaitAttr.C124_defaults
#print axioms Draftsman.WaitAttr.C124_accepts
#print axioms Draftsman.WaitAttr.C124_refused
#print axioms Draftsman.WaitAttr.C124_readback
#print axioms Draftsman.WaitAttr.C124_valid
#print axioms Draftsman.WaitAttr.C124_repaired
#print axioms Draftsman.WaitAttr.C124_history
#print axioms Draftsman.WaitAttr.C124_ticks_refuted
#print axioms Draftsman.WaitAttr.C124_converted_refuted
#print axioms Draftsman.OrientName.C125_float
#print axioms Draftsman.OrientName.C125_constants
#print axioms Draftsman.OrientName.C125_opposite
#print axioms Draftsman.OrientName.C125_sums
#print axioms Draftsman.OrientName.C125_never_wrong
#print axioms Draftsman.OrientName.C125_repr
#print axioms Draftsman.OrientName.C125_alike
#print axioms Draftsman.OrientName.C125_set
#print axioms Draftsman.OrientName.C125_sum_refuted
#print axioms Draftsman.OrientName.C125_again_refuted
#print axioms Draftsman.OrientName.C125_set_refuted
#print axioms Draftsman.GroupAttr.C126_accepts
#print axioms Draftsman.GroupAttr.C126_readback
#print axioms Draftsman.GroupAttr.C126_refused_partial
#print axioms Draftsman.GroupAttr.C126_error
#print axioms Draftsman.GroupAttr.C126_history
#print axioms Draftsman.GroupAttr.C126_typed
#print axioms Draftsman.GroupAttr.C126_construct
#print axioms Draftsman.GroupAttr.C126_made
#print axioms Draftsman.GroupAttr.C126_wires_refuted
#print axioms Draftsman.GroupAttr.C126_schedules_refuted
#print axioms Draftsman.GroupAttr.C126_id_refuted
#print axioms Draftsman.BoxPoints.C127_corners
#print axioms Draftsman.BoxPoints.C127_bound
#print axioms Draftsman.BoxPoints.C127_rect_partial
#print axioms Draftsman.BoxPoints.C127_refines
#print axioms Draftsman.BoxPoints.C127_shape
#print axioms Draftsman.BoxPoints.C127_stay
#print axioms Draftsman.BoxPoints.C127_push
#print axioms Draftsman.BoxPoints.C127_moves_partial
#print axioms Draftsman.BoxPoints.C127_corners_refuted
#print axioms Draftsman.BoxPoints.C127_alias_refuted
#print axioms Draftsman.AreaArg.C128_area
#print axioms Draftsman.AreaArg.C128_refused
#print axioms Draftsman.AreaArg.C128_found
#print axioms Draftsman.AreaArg.C128_raises
#print axioms Draftsman.AreaArg.C128_searches
#print axioms Draftsman.AreaArg.C128_all_partial
#print axioms Draftsman.AreaArg.C128_precedence
#print axioms Draftsman.AreaArg.C128_pair_refuted
#print axioms Draftsman.AreaArg.C128_all_refuted
#print axioms Draftsman.VecArith.C129_componentwise
#print axioms Draftsman.VecArith.C129_zero
#print axioms Draftsman.VecArith.C129_refused_partial
#print axioms Draftsman.VecArith.C129_error
#print axioms Draftsman.VecArith.C129_short
#print axioms Draftsman.VecArith.C129_none
#print axioms Draftsman.VecArith.C129_undo
#print axioms Draftsman.VecArith.C129_comm
#print axioms Draftsman.VecArith.C129_eq
#print axioms Draftsman.VecArith.C129_abs
#print axioms Draftsman.VecArith.C129_round
#print axioms Draftsman.VecArith.C129_refused_refuted
#print axioms Draftsman.VecArith.C129_error_refuted
