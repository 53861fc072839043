# Axioms of the property theorems

Generated by `tools/axioms.py` from `#print axioms` (`lean/Verif/Audit.lean`). Names without the prefix `Draftsman.`

## none (26)

Codec.C03_first_char, Surface.C11_none, C17_empty_id_refuted, C17_group_none_refuted, C18_rename_refuted, C18_replace_same_id_refuted, C19_union_once_refuted, C19_union_id_refuted, ValidationMode.C26_total, ValidationMode.C26_truthy, Decider.C46_sides, Decider.C47_lists_refuted, Decider.C47_empty_refuted, Arith.C48_remove_partial, Arith.C48_remove_refuted, ModSettings.C50_encode_refuted, Book.C52_constructor_refuted, DataTables.C66_fluid_refuted, Attr.C77_quality_refuted, Ctor.C84_orphan_refuted, Validate.C85_parts_none, Validate.C85_index_refuted, Checks.C88_filters_refuted, Warnings.C97_lost, Warnings.C97_lost_refuted, NestedList.C116_equal_refuted

## propext (178)

Version.C01_out_of_range_collides, Codec.C03_roundtrip, Codec.C03_injective, C17_negative_insert_refuted, C17_negative_set_refuted, C17_slice_refuted, C17_deleted_rename_refuted, C19_tile_equality, C32_zero_refuted, C36_station_refuted, C36_twin_refuted, Wait.C39_paren_refuted, Wait.C39_lists_refuted, Wait.C39_empty_refuted, Wait.C39_shared_refuted, Upgrade.C42_same, Upgrade.C42_crash_refuted, Slots.C44_comparator_refuted, Slots.C45_remove_refuted, Decider.C46_compare_partial, Decider.C46_constant_left_partial, Decider.C46_spelling, Decider.C47_paren_refuted, Decider.C47_reused_refuted, Decider.C47_later_refuted, Requests.C49_failed, Requests.C49_again_refuted, Requests.C49_inventory_refuted, Requests.C49_zero_refuted, Requests.C49_auto_refuted, Requests.C49_auto_again_refuted, Requests.C49_dict_refuted, Book.C52_empty, Book.C52_again, Book.C52_none_refuted, Book.C52_distinct_refuted, Shorthand.C53_section_unknown, Shorthand.C53_section_refuted, Shorthand.C53_distinct_refuted, ValResult.C54_reissue, ValResult.C54_combine, ValResult.C54_eq_iff, ValResult.C54_assignment, Modules.C59_signal_once_refuted, Copy.C61_label_refuted, Instruments.C64_unknown, Instruments.C64_self_refuted, Instruments.C64_stored, Instruments.C64_kept, Import.C65_left, Import.C65_again_refuted, Import.C65_zero_refuted, Import.C65_half_refuted, DataTables.C66_modify_refuted, DataTables.C66_default_refuted, DataTables.C66_defaultGroup_refuted, DataTables.C66_regroup_refuted, DataTables.C66_namesake_refuted, DataTables.C66_range_refuted, ModEnable.C72_all_refuted, ModEnable.C72_new_refuted, ModEnable.C72_twice_refuted, GameData.C74_record, GameData.C74_sparse_refuted, Attr.C77_sections_refuted, Attr.C77_missing, Attr.C77_sealed, Attr.C77_sealed_refuted, Attr.C77_fresh_refuted, EntTypes.C78_unlisted_refuted, EntTypes.C78_box_refuted, EntTypes.C78_mask_refuted, EntTypes.C78_hidden_refuted, EntTypes.C78_rails_refuted, Setup.C80_stale_refuted, Setup.C80_upgrade_none_refuted, Setup.C80_unknown_stays_refuted, Setup.C80_settings_unknown_refuted, Setup.C80_replaced_refuted, Setup.C80_refused_refuted, Setup.C80_construct_errors, MergeAttr.C81_half_refuted, Machines.C82_lab_refuted, Machines.C82_container_refuted, Ctor.C84_dropped_refuted, Ctor.C84_items_refuted, Ctor.C84_names_refuted, Validate.C85_none, Validate.C85_parts, Validate.C85_mode, Validate.C85_schedules_refuted, Validate.C85_raises_refuted, Validate.C85_coerce_refuted, Special.C87_assign, Special.C87_failed, Special.C87_range_refuted, Special.C87_mask_refuted, Special.C87_filter_failed, Special.C87_filter_refuted, Special.C87_filter_none_refuted, Special.C87_export, Special.C87_plain, Special.C87_export_refuted, Special.C87_section, Special.C87_sections_refuted, Checks.C88_name, Checks.C88_virtual_partial, Checks.C88_virtual_refuted, Checks.C88_filters_partial, Checks.C88_note_refuted, Checks.C88_parameters_refuted, Checks.C88_forbidden_refuted, Checks.C88_each, Checks.C88_shorthand_refuted, Equality.C89_order_refuted, Record.C90_owner, Record.C90_belt_refuted, Record.C90_stored_refuted, Record.C90_error_refuted, Record.C90_numeral_refuted, Ctor.C91_exports, Ctor.C91_energy_refuted, Ctor.C91_wagon_refuted, Ctor.C91_silo_refuted, Ctor.C91_none_refuted, Ctor.C91_new_refuted, SchedList.C92_assigned, SchedList.C92_none_refuted, SchedList.C92_setup_refuted, Lifecycle.C94_types, Stops.C99_short, Stops.C99_missing_export, Stops.C99_ticks_refuted, Stops.C99_comparison_refuted, Stops.C99_missing_refuted, Stops.C99_missing_export_refuted, Stops.C99_caller_refuted, Nested.C102_control, Nested.C102_short, Nested.C102_twice_refuted, Nested.C102_signal_refuted, Nested.C102_hidden_refuted, Nested.C102_keys_refuted, Nested.C102_none_refuted, Mappers.C103_remove_partial, Mappers.C103_one, Mappers.C103_none, Mappers.C103_removed_refuted, Mappers.C103_unchanged_refuted, Decider.C105_stored, Decider.C105_failed, Decider.C105_single_refuted, Decider.C105_before, Decider.C105_before_refuted, DataAttr.C106_unknown, DataAttr.C106_missing, DataAttr.C106_slots, DataAttr.C106_refuted, MergeShare.C109_classes, MergeShare.C109_belts_refuted, MergeShare.C109_unvalidated_refuted, JsonStr.C115_error, NestedList.C116_single_refuted, C117_front_legal, C117_back_legal, C117_reverse_refuted, C117_reverse_failed_refuted, SetEntities.C118_source_partial, BpVersion.C119_none, BpVersion.C119_unchecked_refuted, BpAttr.C123_settings_refuted, WaitAttr.C124_readback, WaitAttr.C124_ticks_refuted, WaitAttr.C124_converted_refuted, GroupAttr.C126_error, GroupAttr.C126_wires_refuted, GroupAttr.C126_schedules_refuted, GroupAttr.C126_id_refuted

## propext, Classical.choice, Quot.sound (793)

Version.C01_decode_encode, Version.C01_encode_decode, Version.C01_order, Json.C03_json, Json.C03_real, Json.C03_noise, Json.C03_ascii, Json.C03_junk, C04_overlap_iff, C04_overlap_symm, C04_overlap_shift, C04_overlap_position_irrelevant, C04_point_iff, C05_extend_is_join, C05_absent_iff, C05_world_box_is_join, C05_order_independent, C06_least, C06_none, C06_shift, C07_rejects, C07_exact_image, C07_compose, C07_full_turn, C07_collision_set, C08_point_in_circle_iff, C08_overlap_iff, Rect.C09_overlap_iff, Rect.C09_degenerate, Rect.C09_symm, Rect.C09_wagon_disjoint_sound_partial, Rect.C09_wagon_overlap_refuted, Rect.C10_min_sides, Rect.C10_covers_iff, Rect.C10_exact_partial, Rect.C10_covers_refuted, Surface.C11_planets, Surface.C11_planet_refuted, Energy.C12_parse, Energy.C12_bad_unit, Energy.C12_bad_prefix, Energy.C12_only, C13_only, C13_all_partial, C13_exact_on_grid, C13_limit, C13_thin_refuted, C13_position_refuted, C13_equal_refuted, C14_only, C14_all_partial, C14_interior_on_grid, C14_limit, C14_edge_refuted, C15_only, C15_all_partial, C15_limit, C15_refuted, C16_cells, C16_cells_on_grid, C16_everything, C16_add_remove, C16_clear, C16_equal_refuted, C16_groups, C16_merge, C17_history_partial, C17_effect_partial, C17_slice_lookup, C17_slices_partial, C18_insert, C18_set, C18_insert_iff, C18_rename, C18_distinct_partial, C19_union_mem, C19_entities, C20_rejects, C20_succeeds_iff, C20_effect, C20_rigid, C20_compose_partial, C20_full_turn, C20_compose_refuted, C20_group_refuted, C20_halfway_refuted, C21_succeeds_iff, C21_effect, C21_twice_partial, C21_twice_refuted, C21_half_turn, C21_conjugate, C21_rejects, C22_effect, C22_rigid, C22_compose, C22_zero, C22_inverse, C22_tile, C22_offgrid_refuted, C22_warning, C23_vector_opposite, C23_vector_next, C23_vector_length, C23_vector_length_refuted, C23_legacy_vector_refuted, Orientation.C24_wraps, Orientation.C24_add, Orientation.C24_opposite, Orientation.C24_direction_roundtrip, Orientation.C24_direction_roundtrip_refuted, Orientation.C24_legacy_orientation_refuted, Orientation.C24_nearest_sixteen_partial, Orientation.C24_nearest_four_partial, Orientation.C24_to_direction_refuted, Orientation.C24_vector, Orientation.C24_vector_add, Orientation.C24_vector_direction, Ticks.C25_nearest, Ticks.C25_whole_seconds, Ticks.C25_additive, Ticks.C25_monotone, ValidationMode.C26_operators, PEnt.C27_set_tile, PEnt.C27_tile_readback, PEnt.C27_tile_whole, PEnt.C27_tile_vector, PEnt.C27_set_position, PEnt.C27_set_position_near, PEnt.C27_set_direction, PEnt.C27_history, PEnt.C28_cardinal_partial, PEnt.C28_snap, PEnt.C28_footprint_iff, PEnt.C28_footprint_refuted, PEnt.C28_none_refuted, PEnt.C28_eight_way_refuted, Copy.C29_under, C29_global_position, C29_move, C29_move_others, C29_flatten, C29_depth_first, C29_shared_refuted, C29_removed, C29_removed_refuted, C30_add, C30_warnings, C30_fails, C30_wire_injective, C30_remove, C30_remove_absent_partial, C30_add_remove_partial, C30_unknown_refuted, C30_add_again_refuted, C30_remove_absent_refuted, C30_add_remove_refuted, C30_twin_refuted, C31_power, C31_circuit, C31_wires_ok, C32_numbers, C32_outside, C32_references_partial, C32_reimport_partial, C32_twins_refuted, C32_outside_twin_refuted, C32_group_schedule_refuted, C32_unused_schedule_refuted, C33_positions, C33_omitted, C33_roundtrip, C34_only, C34_all_partial, C34_whole, C34_invert, C34_limit, C34_single, C34_first_partial, C34_group_refuted, C34_group_index, C34_negative_limit_refuted, C35_only, C35_circle, C35_area, C35_whole, C35_limit, C35_find_tile, C35_position_refuted, C36_others, C36_assigned, C36_cleared, C36_train, C36_history, C36_removed, C36_position, C37_terminates, C37_members, C37_compass_partial, C37_once_partial, C37_twice_refuted, C37_wrap_refuted, TrainConfig.C38_expand, TrainConfig.C38_unknown, TrainConfig.C38_rejects, TrainConfig.C38_rails, Wait.C39_operands_kept, Wait.C39_or_partial, Wait.C39_and_partial, Wait.C39_expression_partial, Schedule.C40_locomotive_edits, Upgrade.C41_set, Upgrade.C41_pop, Upgrade.C41_remove_first, Upgrade.C41_remove_at_partial, Upgrade.C41_sorted, Upgrade.C41_history_partial, Upgrade.C42_silent_partial, Upgrade.C42_reason, Upgrade.C42_builds_refuted, Slots.C43_set, Slots.C43_clear_partial, Slots.C43_history, Slots.C43_entities, Slots.C43_tiles, Slots.C44_clear_partial, Slots.C44_all, Slots.C44_names, Decider.C46_swapped_refuted, Decider.C47_or_partial, Decider.C47_and_partial, Decider.C47_expression_partial, Arith.C48_first, Arith.C48_second, Arith.C48_history_partial, Arith.C48_refused, Arith.C48_all_none_refuted, Arith.C48_stale_refuted, Arith.C48_none_refuted, Requests.C49_new_partial, Requests.C49_history_partial, ModSettings.C50_decode_partial, ModSettings.C50_text, ModSettings.C50_header, ModSettings.C50_cut_partial, ModSettings.C50_list_refuted, ModSettings.C50_uint_refuted, ModSettings.C50_write_refuted, ModSettings.C50_deep_refuted, ModSettings.C50_cut_refuted, ModList.C51_order, ModList.C51_listed, ModList.C51_front, ModList.C51_found_partial, ModList.C51_dependencies_refuted, ModList.C51_parts_refuted, Shorthand.C53_filters, Shorthand.C53_priorities_partial, Shorthand.C53_blueprint_icons, Shorthand.C53_icons, Shorthand.C53_unknown, Shorthand.C53_section_partial, Shorthand.C53_section_failed_refuted, Shorthand.C53_untyped_refuted, Shorthand.C53_text_refuted, Belts.C56_kept, Belts.C56_turned, Belts.C56_belt_partial, Belts.C56_back, Belts.C56_straight, Belts.C56_succeeds_partial, Belts.C56_twice_partial, Belts.C56_group_refuted, BpString.C57_root, Codec.C57_dispatch, Codec.C57_unknown, Codec.C57_from_string, Json.C57_real, Orientation.C58_eq_lt, Orientation.C58_consistent_partial, Orientation.C58_refuted, Orientation.C58_ne_refuted, Modules.C59_signal_type, Modules.C59_signal, Modules.C59_agree, Copy.C60_copy, Copy.C60_outside, Copy.C61_copy_partial, Copy.C61_moved_refuted, Power.C62_joined_partial, Power.C62_twice, Power.C62_order, Power.C62_poles_ok, Power.C62_again_refuted, Power.C62_limit_refuted, TrainSearch.C63_filter_partial, TrainSearch.C63_trains, TrainSearch.C63_disjoint_partial, TrainSearch.C63_disjoint_refuted, TrainSearch.C63_schedule_refuted, TrainSearch.C63_orientation_refuted, TrainSearch.C63_names_refuted, TrainSearch.C63_head_refuted, Instruments.C64_extract_partial, Instruments.C64_added_partial, Instruments.C64_id, Instruments.C64_insert_refuted, Instruments.C64_self_note_refuted, Instruments.C64_stale_refuted, Instruments.C64_equal_refuted, Import.C65_outcome, Import.C65_references_partial, Import.C65_again, Import.C65_order_refuted, Import.C65_failed, Import.C65_group_refuted, DataTables.C66_once_partial, DataTables.C66_entity_partial, Merge.C67_merge_partial, Merge.C67_wires_partial, Merge.C67_again_partial, Merge.C67_twins_refuted, Merge.C67_nested_refuted, Merge.C67_insert, Merge.C67_id_refuted, Merge.C67_frame_refuted, C68_slice, TileList.C68_assign, TileList.C68_assign_tiles, TileList.C68_assign_refused, TileList.C68_assign_former_refuted, TileList.C68_index, TileList.C68_locked, TileList.C68_copy_refuted, TileList.C68_objects_partial, TileList.C68_find_partial, TileList.C68_merge, TileList.C68_mergeRef, TileList.C68_twin_refuted, TileList.C68_set_refuted, TileList.C68_parent_refuted, TileList.C68_orphan_refuted, TileList.C68_reverse, TileList.C68_pop, Overlap.C69_warn, Overlap.C69_group, Overlap.C69_group_refuted, Overlap.C69_sound, Overlap.C69_gate_partial, Overlap.C69_gate_refuted, Overlap.C69_rail_refuted, Overlap.C69_merge_refuted, Overlap.C69_equal_refuted, Overlap.C69_unknown_refuted, ModLoad.C70_all, ModLoad.C70_before, ModLoad.C70_loads_partial, ModLoad.C70_listing, ModLoad.C70_harmless_refuted, ModLoad.C70_harmless2_refuted, ModLoad.C70_unordered_refuted, ModLoad.C70_depth_refuted, ModLoad.C70_equals_refuted, ModLoad.C70_parts_refuted, ModLoad.C70_reasons, ModLoad.C70_refused, ModLoad.C71_read, ModLoad.C71_sound, ModLoad.C71_spaces_refuted, ModLoad.C71_refused_refuted, GameData.C73_names, GameData.C73_sorted, GameData.C73_works_partial, GameData.C73_unique, GameData.C73_group_refuted, GameData.C73_mined_refuted, GameData.C73_last_refuted, GameData.C74_array, GameData.C74_order_refuted, GameData.C75_keys, GameData.C75_items, GameData.C75_sorted, GameData.C75_works, GameData.C75_agrees, GameData.C75_twice_refuted, GameData.C76_categories, GameData.C76_works, GameData.C76_machine, GameData.C76_once, GameData.C76_machine_works, Attr.C77_validated_partial, Attr.C77_unvalidated_partial, Attr.C77_none, Attr.C77_frame_partial, Attr.C77_refused_partial, Attr.C77_accepts_partial, Attr.C77_refused_refuted, Attr.C77_fluid_refuted, Attr.C77_lamp_refuted, Attr.C77_cleared_refuted, EntTypes.C78_succeeds, EntTypes.C78_lists, EntTypes.C78_raw, EntTypes.C78_once, EntTypes.C78_order_refuted, EntTypes.C79_known_partial, EntTypes.C79_logistic, EntTypes.C79_generic, EntTypes.C79_unmade_refuted, EntTypes.C79_orphan_refuted, EntTypes.C79_default_partial, Setup.C80_given_partial, Setup.C80_attributes, Setup.C80_not_cumulative_partial, Setup.C80_item, Setup.C80_version, Setup.C80_index_refuted, Setup.C80_construct_partial, MergeAttr.C81_taken_partial, MergeAttr.C81_kept, MergeAttr.C81_fixed, MergeAttr.C81_succeeds, MergeAttr.C81_equal, MergeAttr.C81_ignored, MergeAttr.C81_merge_refuted, MergeAttr.C81_missing_refuted, MergeAttr.C81_equal_refuted, MergeAttr.C81_hash_refuted, Machines.C82_ingredients_none, Machines.C82_furnace_refuted, Machines.C82_order_refuted, Machines.C82_blacklist_refuted, Machines.C82_cache_refuted, Signals.C83_types, Signals.C83_lists, Signals.C83_raw, Signals.C83_works, Signals.C83_items, Signals.C83_entities, Signals.C83_fluids, Signals.C83_modules, Signals.C83_fuels, Signals.C83_tiles, Signals.C83_item_refuted, Signals.C83_ambiguous_refuted, Signals.C83_raw_refuted, Ctor.C84_given_partial, Ctor.C84_default_partial, Ctor.C84_separate_partial, Ctor.C84_extra, Ctor.C84_place, Ctor.C84_mode, Ctor.C84_works_partial, Ctor.C84_collector, Ctor.C84_unchecked_partial, Ctor.C84_tags, Ctor.C84_shared_refuted, Ctor.C84_chunks_refuted, Ctor.C84_both_refuted, Ctor.C84_invalid_refuted, Validate.C85_complete_partial, Validate.C85_clean, Validate.C85_raises, Validate.C85_force, Validate.C85_after_partial, Validate.C85_again, Validate.C85_minimum, Validate.C85_index, Convert.C86_color, Convert.C86_color_dict, Convert.C86_color_raises_partial, Convert.C86_color_refuted, Convert.C86_networks, Convert.C86_networks_refuted, Convert.C86_condition, Convert.C86_condition_raises_partial, Convert.C86_condition_refuted, Convert.C86_whole, Convert.C86_position_raises_partial, Convert.C86_position_refuted, Special.C87_mask, Special.C87_link, Special.C87_links, Special.C87_invariant, Special.C87_filter, Special.C87_filters, Special.C87_section_fails, Special.C87_sections, Checks.C88_size, Checks.C88_bar_partial, Checks.C88_bar_raises, Checks.C88_bar_refuted, Checks.C88_grid, Checks.C88_temperature, Checks.C88_volume_partial, Checks.C88_instrument, Checks.C88_note_partial, Checks.C88_parameters_partial, Checks.C88_shorthand_partial, Checks.C88_mappers, Checks.C88_quiet_partial, Checks.C88_stricter, Checks.C88_unknown, Suggest.C88_entity_name, Suggest.C88_tile_name, Suggest.C88_suggestion, Suggest.C88_suggestion_one, Equality.C89_parts_partial, Equality.C89_equivalence, Equality.C89_loaded, Equality.C89_content_partial, Equality.C89_copied, Equality.C89_loaded_refuted, Equality.C89_wires_refuted, Equality.C89_copied_refuted, Equality.C89_boxes, Equality.C89_rectangle_refuted, Record.C90_extra, Record.C90_condition, Record.C90_accepted, Ctor.C91_default_partial, Ctor.C91_exported, Ctor.C91_roundtrip_partial, Ctor.C91_new_partial, Ctor.C91_energy, Ctor.C91_odd, SchedList.C92_effect, SchedList.C92_fault, SchedList.C92_built, SchedList.C92_only_partial, SchedList.C92_pop, SchedList.C92_index_refuted, Rename.C93_refused, Rename.C93_kept, Rename.C93_plain_partial, Rename.C93_fourway_partial, Rename.C93_constructed, Rename.C93_same_partial, Rename.C93_self_partial, Rename.C93_turn_partial, Rename.C93_nobox, Rename.C93_cache_refuted, Rename.C93_diagonal_refuted, Rename.C93_override_refuted, Rename.C93_vehicle_refuted, Rename.C93_self_refuted, Rename.C93_turn_refuted, Lifecycle.C94_balanced, Lifecycle.C94_order, Lifecycle.C94_once, Lifecycle.C94_environment, Lifecycle.C94_unloaded, Lifecycle.C94_alone, Lifecycle.C94_archive, Lifecycle.C94_folder, Lifecycle.C94_spelling, Lifecycle.C94_own_partial, Lifecycle.C94_dir_partial, Lifecycle.C94_absolute_partial, Lifecycle.C94_archive_module, Lifecycle.C94_unknown, Lifecycle.C94_effect, Lifecycle.C94_settings, Lifecycle.C94_settings_ok, Lifecycle.C94_archive_refuted, Lifecycle.C94_suffix_refuted, Lifecycle.C94_sound_refuted, Lifecycle.C94_neighbour_refuted, Lifecycle.C94_other_refuted, Lifecycle.C94_twice_refuted, Lifecycle.C94_nested_refuted, Lifecycle.C94_base_refuted, GameVersion.C95_unchanged, GameVersion.C95_tags, GameVersion.C95_chosen_partial, GameVersion.C95_latest_partial, GameVersion.C95_recorded, GameVersion.C95_branch_refuted, GameVersion.C95_latest_refuted, GameVersion.C95_recorded_refuted, RoundTrip.C96_again, RoundTrip.C96_stable, RoundTrip.C96_apart, RoundTrip.C96_settles, RoundTrip.C96_ids_refuted, RailPlanner.C98_type, Stops.C99_condition, Stops.C99_made, Stops.C99_stops, Stops.C99_again, Stops.C99_settled, Stops.C99_list, BpString.C100_loads, BpString.C100_same, BpString.C100_settles, BpString.C100_arguments, BpString.C100_refused, BpString.C100_typeError, BpString.C100_same_refuted, BpString.C100_version_refuted, BpString.C100_unknown_refuted, BpString.C100_documented_refuted, BookString.C101_attributes, BookString.C101_loads, BookString.C101_same, BookString.C101_settles, BookString.C101_class, BookString.C101_kind_refuted, Nested.C102_empty, Mappers.C103_back_partial, Mappers.C103_back_first, Mappers.C103_assign, Mappers.C103_forms, Mappers.C103_pairs, Mappers.C103_reset, Mappers.C103_quiet, Json.C104_decode, Json.C104_bytes, Json.C104_string, Json.C104_foreign, Json.C104_written, JsonStr.C104_surrogate_refuted, Json.C104_text, Json.C104_unique, Decider.C105_added, Decider.C105_copy, Decider.C105_copy_shared, Decider.C105_copy_equal, BookList.C107_effect, BookList.C107_fault, BookList.C107_built, BookList.C107_only, BookList.C107_pop, BookList.C107_assigned, BookList.C107_shared_refuted, InPlace.C108_position, InPlace.C108_tile, InPlace.C108_agree_partial, InPlace.C108_groups_partial, InPlace.C108_fraction_refuted, InPlace.C108_held_refuted, InPlace.C108_copy_refuted, InPlace.C108_gone_refuted, InPlace.C108_index_refuted, InPlace.C108_shared_refuted, MergeShare.C109_independent_partial, MergeShare.C109_contents, ModTable.C110_short_partial, ModTable.C110_long_partial, ModTable.C110_loaded, ModTable.C110_loaded_long, ModTable.C110_printed, ModTable.C110_empty_refuted, ModTable.C110_wide_refuted, Command.C111_reports, Command.C111_enable, Command.C111_choose, Command.C111_updated, Command.C111_failed, Command.C111_succeeds_partial, Command.C111_again, Command.C111_history, Command.C111_newer_refuted, Command.C111_mixed_refuted, EnvUpdate.C112_archive_name, EnvUpdate.C112_archive_read, EnvUpdate.C112_replaces, EnvUpdate.C112_stages, EnvUpdate.C112_runs, EnvUpdate.C112_before, EnvUpdate.C112_versions, EnvUpdate.C112_loads_partial, EnvUpdate.C112_file_fails, EnvUpdate.C112_files_refuted, EnvUpdate.C112_archive_refuted, EnvUpdate.C112_disabled_refuted, EnvUpdate.C112_once_refuted, EnvUpdate.C112_noMods_refuted, SavedSettings.C113_new_partial, SavedSettings.C113_noFile, SavedSettings.C113_old_partial, SavedSettings.C113_int_refuted, SavedSettings.C113_type_refuted, SavedSettings.C113_unreadable, SavedSettings.C113_noValue, FloatPos.C114_nearest, FloatPos.C114_moves_partial, FloatPos.C114_back_partial, FloatPos.C114_global_partial, FloatPos.C114_back_refuted, FloatPos.C114_far_refuted, JsonStr.C115_units_partial, JsonStr.C115_back_partial, JsonStr.C115_distinct_partial, JsonStr.C115_pair_refuted, JsonStr.C115_keys_refuted, JsonStr.C115_after, JsonStr.C115_control, JsonStr.C115_agree, NestedList.C116_removes_partial, NestedList.C116_path, NestedList.C116_path_error, C117_pop, C117_pop_id, C117_remove, C117_reverse_partial, C117_reverse_stops, C117_extend_self_partial, C117_extend_self_endless, C117_endless_refuted, SetEntities.C118_blueprint, SetEntities.C118_blueprint_refuses, SetEntities.C118_group, SetEntities.C118_spent, SetEntities.C118_former_refuted, BpVersion.C119_parts, BpVersion.C119_number, BpVersion.C119_refuses, BpVersion.C119_history, BpVersion.C119_wide_refuted, BpVersion.C119_text_refuted, Grid.C120_bound, Grid.C120_warned, Grid.C120_translate, Grid.C120_check_partial, Grid.C120_group_refuted, Grid.C120_cast_refuted, InfPipe.C121_all, InfPipe.C121_assign, InfPipe.C121_history, InfPipe.C121_stuck, InfPipe.C121_swap, InfPipe.C121_none_all, InfPipe.C121_merge, InfPipe.C121_typed, InfPipe.C121_refused_refuted, NestMap.C122_only_partial, NestMap.C122_all_partial, NestMap.C122_copy, NestMap.C122_delete, NestMap.C122_nested_refuted, NestMap.C122_ghost_refuted, NestMap.C122_translate_refuted, NestMap.C122_turn, NestMap.C122_translate, NestMap.C122_move, BpAttr.C123_frame, BpAttr.C123_history_partial, BpAttr.C123_others, WaitAttr.C124_defaults, WaitAttr.C124_repaired, OrientName.C125_float, OrientName.C125_constants, OrientName.C125_opposite, OrientName.C125_sums, OrientName.C125_never_wrong, OrientName.C125_repr, OrientName.C125_alike, OrientName.C125_sum_refuted, OrientName.C125_again_refuted, OrientName.C125_set_refuted, GroupAttr.C126_history, GroupAttr.C126_typed, BoxPoints.C127_corners, BoxPoints.C127_bound, BoxPoints.C127_rect_partial, BoxPoints.C127_refines, BoxPoints.C127_shape, BoxPoints.C127_stay, BoxPoints.C127_push, BoxPoints.C127_moves_partial, BoxPoints.C127_corners_refuted, BoxPoints.C127_alias_refuted, AreaArg.C128_area, AreaArg.C128_found, AreaArg.C128_raises, AreaArg.C128_searches, AreaArg.C128_all_partial, AreaArg.C128_precedence, AreaArg.C128_all_refuted, VecArith.C129_componentwise, VecArith.C129_zero, VecArith.C129_refused_partial, VecArith.C129_error, VecArith.C129_short, VecArith.C129_none, VecArith.C129_undo, VecArith.C129_comm, VecArith.C129_eq, VecArith.C129_abs, VecArith.C129_round, VecArith.C129_refused_refuted, VecArith.C129_error_refuted

## propext, Quot.sound (222)

Version.C02_parse_print, Version.C02_empty, Version.C02_print_injective, Codec.C03_total, Json.C03_base64, C04_collision_sets, Surface.C11_passes_iff, Surface.C11_antitone, Surface.C11_order, Surface.C11_placeable_partial, Surface.C11_usable_partial, C17_zero_step, C17_step_refuted, C19_inter, C19_diff, C19_partition, C19_union, C19_union_once_partial, C23_turns, C23_iterate, C23_group, C23_legacy_opposite_refuted, C23_legacy_partial, C29_heap_wf, C29_move_refused, C29_attach, C32_bp_ok, C36_removed_entities, C36_double_refuted, C36_absent_refuted, TrainConfig.C38_count, Schedule.C40_locomotives, Schedule.C40_insert, Schedule.C40_append, Schedule.C40_remove, Schedule.C40_constructed_refuted, Upgrade.C41_blank_refuted, Upgrade.C41_imported_refuted, Upgrade.C42_unknown, Slots.C43_clear_refuted, Slots.C43_others, Slots.C43_distinct, Slots.C44_others, Slots.C44_distinct, Slots.C44_set_partial, Slots.C44_item, Slots.C44_clear_refuted, Slots.C44_replace_refuted, Slots.C44_inventory_refuted, Slots.C45_refused, Slots.C45_set, Slots.C45_distinct, Slots.C45_history_partial, Slots.C45_lost_refuted, Requests.C49_zero_partial, Requests.C49_range, Book.C52_members_partial, Book.C52_unnumbered, Modules.C55_exact, Modules.C55_once, Modules.C55_more, Modules.C55_recipe, Modules.C55_unknown, Belts.C56_facing_refuted, Belts.C56_chest_refuted, Belts.C56_twice_refuted, Modules.C59_module_new_partial, Modules.C59_module_category, Modules.C59_module_effect_refuted, Modules.C59_module_once_refuted, Modules.C59_category_refuted, Modules.C59_category_partial, Copy.C60_mem_start, Copy.C60_dropped_refuted, Copy.C60_order_refuted, Copy.C61_bp_ok, Copy.C61_wires_refuted, Instruments.C64_others, Import.C65_shared_refuted, Import.C65_group, DataTables.C66_unknown, DataTables.C66_item, DataTables.C66_subgroup_partial, DataTables.C66_unshared_partial, DataTables.C66_group, DataTables.C66_shared, DataTables.C66_fluid, DataTables.C66_retype_refuted, TileList.C68_dicts, TileList.C68_dicts_refuted, Overlap.C69_mask_refuted, ModLoad.C70_select, ModEnable.C72_enabled, ModEnable.C72_entries, ModEnable.C72_unknown, ModEnable.C72_works_partial, ModEnable.C72_again, GameData.C74_mixed, GameData.C74_faithful_partial, GameData.C74_bool_refuted, GameData.C74_empty_refuted, Attr.C77_resolved, Attr.C77_fresh_partial, Setup.C80_outcome, Setup.C80_unknown, Setup.C80_planner_succeeds, MergeAttr.C81_equivalence, MergeAttr.C81_compared_partial, MergeAttr.C81_hash_partial, MergeAttr.C81_unhashable_refuted, Machines.C82_ingredients, Machines.C82_recipe_partial, Machines.C82_recipe_empty, Machines.C82_recipe_stored, Machines.C82_unknown_refuted, Machines.C82_silo_refuted, Machines.C82_machine_refuted, Machines.C82_items_partial, Machines.C82_fuel_partial, Machines.C82_fuel_unknown, Machines.C82_items_quiet, Machines.C82_generator_refuted, Machines.C82_short_refuted, Machines.C82_unchecked_refuted, Machines.C82_cache_partial, Machines.C82_furnace_inputs, Machines.C82_lab_partial, Machines.C82_queries_refuted, Machines.C82_fuelled_partial, Machines.C82_fuelled_refuted, Ctor.C84_late, Ctor.C84_built, Validate.C85_size, Validate.C85_ids, Convert.C86_comparator, Convert.C86_position, Special.C87_range, Special.C87_filter_index_refuted, Special.C87_import_partial, Special.C87_import_refuted, Checks.C88_signal, Checks.C88_volume_refuted, Checks.C88_forbidden_partial, Checks.C88_mappers_raise, Equality.C89_copied_new, Equality.C89_shapes, Record.C90_field, Record.C90_present, Record.C90_missing, Record.C90_extra_refuted, Record.C90_method_refuted, Record.C90_missing_refuted, Record.C90_sections, Record.C90_sections_refuted, Record.C90_removed, Ctor.C91_energy_fails, SchedList.C92_extend_refuted, SchedList.C92_own_partial, SchedList.C92_shared_refuted, Warnings.C97_result, Warnings.C97_warnings_partial, RailPlanner.C98_never, RailPlanner.C98_name, RailPlanner.C98_rails, RailPlanner.C98_made_refuted, Nested.C102_back_partial, Nested.C102_fails, Nested.C102_kept, Nested.C102_again, Nested.C102_names, Nested.C102_required, Nested.C102_filter_refuted, Mappers.C103_set_partial, Mappers.C103_unknown, Mappers.C103_model, Mappers.C103_failed, Mappers.C103_model_refuted, Decider.C105_dictionaries_partial, Decider.C105_made, Decider.C105_made_refuted, Decider.C105_equal_refuted, DataAttr.C106_value, DataAttr.C106_total, BookList.C107_own_partial, BookList.C107_slice_refuted, BookList.C107_extend_refuted, BookList.C107_dict_refuted, MergeShare.C109_extra_refuted, EnvUpdate.C112_folder_name, NestedList.C116_contains, NestedList.C116_root_first, NestedList.C116_group_next, NestedList.C116_refuses, NestedList.C116_deep_refuted, C117_pop_outside, SetEntities.C118_dicts_refuted, SetEntities.C118_wires_refuted, BpVersion.C119_none_refuted, InfPipe.C121_none, InfPipe.C121_minimum_refuted, InfPipe.C121_error_refuted, BpAttr.C123_accepts_partial, BpAttr.C123_readback, BpAttr.C123_refused, BpAttr.C123_books, BpAttr.C123_unchecked_refuted, BpAttr.C123_grid_refuted, BpAttr.C123_none, WaitAttr.C124_validate, WaitAttr.C124_make, WaitAttr.C124_accepts, WaitAttr.C124_refused, WaitAttr.C124_valid, WaitAttr.C124_history, OrientName.C125_set, GroupAttr.C126_accepts, GroupAttr.C126_readback, GroupAttr.C126_refused_partial, GroupAttr.C126_construct, GroupAttr.C126_made, AreaArg.C128_refused, AreaArg.C128_pair_refuted
