{"claims": [
{"property": "C01", "status": "proved", "theorems": ["Draftsman.Version.C01_decode_encode", "Draftsman.Version.C01_encode_decode", "Draftsman.Version.C01_order", "Draftsman.Version.C01_out_of_range_collides"], "note": ""},
{"property": "C02", "status": "proved", "theorems": ["Draftsman.Version.C02_parse_print", "Draftsman.Version.C02_empty", "Draftsman.Version.C02_print_injective"], "note": ""},
{"property": "C03", "status": "proved", "theorems": ["Draftsman.Codec.C03_roundtrip", "Draftsman.Codec.C03_first_char", "Draftsman.Codec.C03_total", "Draftsman.Codec.C03_injective", "Draftsman.Json.C03_base64", "Draftsman.Json.C03_json", "Draftsman.Json.C03_real", "Draftsman.Json.C03_noise", "Draftsman.Json.C03_ascii", "Draftsman.Json.C03_junk"], "note": ""},
{"property": "C04", "status": "proved", "theorems": ["Draftsman.C04_overlap_iff", "Draftsman.C04_overlap_symm", "Draftsman.C04_overlap_shift", "Draftsman.C04_overlap_position_irrelevant", "Draftsman.C04_point_iff", "Draftsman.C04_collision_sets"], "note": ""},
{"property": "C05", "status": "proved", "theorems": ["Draftsman.C05_extend_is_join", "Draftsman.C05_absent_iff", "Draftsman.C05_world_box_is_join", "Draftsman.C05_order_independent"], "note": ""},
{"property": "C06", "status": "proved", "theorems": ["Draftsman.C06_least", "Draftsman.C06_none", "Draftsman.C06_shift"], "note": ""},
{"property": "C07", "status": "proved", "theorems": ["Draftsman.C07_rejects", "Draftsman.C07_exact_image", "Draftsman.C07_compose", "Draftsman.C07_full_turn", "Draftsman.C07_collision_set"], "note": ""},
{"property": "C08", "status": "proved", "theorems": ["Draftsman.C08_point_in_circle_iff", "Draftsman.C08_overlap_iff"], "note": ""},
{"property": "C09", "status": "partial", "theorems": ["Draftsman.Rect.C09_overlap_iff", "Draftsman.Rect.C09_degenerate", "Draftsman.Rect.C09_symm", "Draftsman.Rect.C09_wagon_disjoint_sound_partial", "Draftsman.Rect.C09_wagon_overlap_refuted"], "note": "Exact for freshly built shapes. Refuted for rolling stock: the orientation setter turns the rectangle without recomputing its normals, so separate wagons can be reported as overlapping (C09_wagon_overlap_refuted); reported disjointness stays sound."},
{"property": "C10", "status": "partial", "theorems": ["Draftsman.Rect.C10_min_sides", "Draftsman.Rect.C10_covers_iff", "Draftsman.Rect.C10_exact_partial", "Draftsman.Rect.C10_covers_refuted"], "note": "Refuted: the if/elif scan never tries the first corner as maximum. C10_covers_iff characterises exactly the angles for which the box is right; C10_exact_partial gives the claim there."},
{"property": "C11", "status": "partial", "theorems": ["Draftsman.Surface.C11_passes_iff", "Draftsman.Surface.C11_none", "Draftsman.Surface.C11_antitone", "Draftsman.Surface.C11_order", "Draftsman.Surface.C11_placeable_partial", "Draftsman.Surface.C11_usable_partial", "Draftsman.Surface.C11_planets", "Draftsman.Surface.C11_planet_refuted"], "note": "The check itself is proved exact for all conditions and tables. That an entity or recipe is judged by the values of the planet is false of the code and refuted: `get_surface_properties` looks for them in the prototype instead of its `surface_properties`, so that with the planets of the game the defaults count everywhere (`C11_planets`)."},
{"property": "C12", "status": "proved", "theorems": ["Draftsman.Energy.C12_parse", "Draftsman.Energy.C12_bad_unit", "Draftsman.Energy.C12_bad_prefix", "Draftsman.Energy.C12_only"], "note": ""},
{"property": "C13", "status": "partial", "theorems": ["Draftsman.C13_only", "Draftsman.C13_all_partial", "Draftsman.C13_exact_on_grid", "Draftsman.C13_limit", "Draftsman.C13_thin_refuted", "Draftsman.C13_position_refuted", "Draftsman.C13_equal_refuted"], "note": "Only-part proved; all-part proved for overlaps of at least 1/1000 and exactly on any grid of step >= 1/1000 (C13_exact_on_grid). Refuted for thinner overlaps across a cell boundary, areas with non-zero position, and members that compare equal."},
{"property": "C14", "status": "partial", "theorems": ["Draftsman.C14_only", "Draftsman.C14_all_partial", "Draftsman.C14_interior_on_grid", "Draftsman.C14_limit", "Draftsman.C14_edge_refuted"], "note": "Only-part proved; all-part proved away from the right and bottom edges; a box ending at a cell boundary is never found on that edge (C14_edge_refuted)."},
{"property": "C15", "status": "partial", "theorems": ["Draftsman.C15_only", "Draftsman.C15_all_partial", "Draftsman.C15_limit", "Draftsman.C15_refuted"], "note": "Only-part, limit, and all-part for members lying in their own box proved; members without bounding box are never found (C15_refuted)."},
{"property": "C16", "status": "partial", "theorems": ["Draftsman.C16_cells", "Draftsman.C16_cells_on_grid", "Draftsman.C16_everything", "Draftsman.C16_add_remove", "Draftsman.C16_clear", "Draftsman.C16_equal_refuted", "Draftsman.C16_groups", "Draftsman.C16_merge"], "note": "Proved for histories in which equal items are the same object; equal items with different boxes corrupt the index (C16_equal_refuted). Cells are those meeting the box shrunk by 1/1000 (exactly the covered ones on a grid: C16_cells_on_grid). Asked for everything the index names each member once per cell (C16_everything)."},
{"property": "C17", "status": "partial", "theorems": ["Draftsman.C17_history_partial", "Draftsman.C17_effect_partial", "Draftsman.C17_negative_insert_refuted", "Draftsman.C17_negative_set_refuted", "Draftsman.C17_slice_refuted", "Draftsman.C17_empty_id_refuted", "Draftsman.C17_deleted_rename_refuted", "Draftsman.C17_group_none_refuted", "Draftsman.C17_slice_lookup", "Draftsman.C17_zero_step", "Draftsman.C17_slices_partial", "Draftsman.C17_step_refuted"], "note": "Proved over all histories of calls with non-negative positions, new objects, legal renames and slices not closely followed by a keyed member, or with any step if the keyed members left stand before them (C17_slices_partial); after any slice lookup by id is still right (C17_slice_lookup). Refuted for negative insert/set, long slices, slices with steps, the empty id, renaming deleted entities, groups reset to None."},
{"property": "C18", "status": "partial", "theorems": ["Draftsman.C18_insert", "Draftsman.C18_set", "Draftsman.C18_insert_iff", "Draftsman.C18_rename", "Draftsman.C18_distinct_partial", "Draftsman.C18_rename_refuted", "Draftsman.C18_replace_same_id_refuted"], "note": "Insertion and replacement proved; renaming raises the error but does not leave the list as it was (refuted)."},
{"property": "C19", "status": "partial", "theorems": ["Draftsman.C19_inter", "Draftsman.C19_diff", "Draftsman.C19_partition", "Draftsman.C19_union", "Draftsman.C19_union_mem", "Draftsman.C19_union_once_partial", "Draftsman.C19_union_once_refuted", "Draftsman.C19_tile_equality", "Draftsman.C19_entities", "Draftsman.C19_union_id_refuted"], "note": "Intersection, difference and partition proved in full; union proved except that equal members within the right list are all kept (refuted) and entity unions may raise the duplicate-id error (characterised exactly)."},
{"property": "C20", "status": "partial", "theorems": ["Draftsman.C20_rejects", "Draftsman.C20_succeeds_iff", "Draftsman.C20_effect", "Draftsman.C20_rigid", "Draftsman.C20_compose_partial", "Draftsman.C20_full_turn", "Draftsman.C20_compose_refuted", "Draftsman.C20_group_refuted", "Draftsman.C20_halfway_refuted"], "note": "C20_rejects, C20_effect, C20_rigid and C20_full_turn cover the claim for rotations that do not raise; C20_succeeds_iff says exactly when that is. Composition holds when all steps succeed (C20_compose_partial); refuted in general because direction + angle >= 16 raises (C20_compose_refuted), groups cannot be rotated (C20_group_refuted) and a failure leaves the collection half rotated (C20_halfway_refuted). Spatial map not part of this model."},
{"property": "C21", "status": "partial", "theorems": ["Draftsman.C21_succeeds_iff", "Draftsman.C21_effect", "Draftsman.C21_twice_partial", "Draftsman.C21_twice_refuted", "Draftsman.C21_half_turn", "Draftsman.C21_conjugate", "Draftsman.C21_rejects"], "note": "Mirror effect, half turn and conjugation proved for flips that do not raise; C21_succeeds_iff says exactly when that is. The involution is refuted: any member off the axis makes one of the two flips raise (C21_twice_refuted)."},
{"property": "C22", "status": "proved", "theorems": ["Draftsman.C22_effect", "Draftsman.C22_rigid", "Draftsman.C22_compose", "Draftsman.C22_zero", "Draftsman.C22_inverse", "Draftsman.C22_tile", "Draftsman.C22_offgrid_refuted", "Draftsman.C22_warning"], "note": "Positions, offsets, composition, inverse, zero and warning proved. Tile positions shift along for grid-aligned members (C22_tile), refuted for half-grid ones (C22_offgrid_refuted); the property statement does not mention tile positions."},
{"property": "C23", "status": "partial", "theorems": ["Draftsman.C23_turns", "Draftsman.C23_iterate", "Draftsman.C23_group", "Draftsman.C23_vector_opposite", "Draftsman.C23_vector_next", "Draftsman.C23_vector_length", "Draftsman.C23_vector_length_refuted", "Draftsman.C23_legacy_opposite_refuted", "Draftsman.C23_legacy_partial", "Draftsman.C23_legacy_vector_refuted"], "note": "All laws proved for the sixteen winds (opposite vectors negate); the vectors of the eight odd winds are zero (C23_vector_length_refuted). LegacyDirection answers in the sixteen-wind enum: its opposite is not an involution (C23_legacy_opposite_refuted); modulo eight the numbers are right (C23_legacy_partial). Its vectors are those of other winds or missing, except for north (C23_legacy_vector_refuted)."},
{"property": "C24", "status": "partial", "theorems": ["Draftsman.Orientation.C24_wraps", "Draftsman.Orientation.C24_add", "Draftsman.Orientation.C24_opposite", "Draftsman.Orientation.C24_direction_roundtrip", "Draftsman.Orientation.C24_direction_roundtrip_refuted", "Draftsman.Orientation.C24_legacy_orientation_refuted", "Draftsman.Orientation.C24_nearest_sixteen_partial", "Draftsman.Orientation.C24_nearest_four_partial", "Draftsman.Orientation.C24_to_direction_refuted", "Draftsman.Orientation.C24_vector", "Draftsman.Orientation.C24_vector_add", "Draftsman.Orientation.C24_vector_direction"], "note": "Wrapping, addition, opposite proved, and the vectors of orientations (with real numbers for floats): length, sums turn, opposites negate, agreement with the vectors of directions. Round trip for the even winds, KeyError for odd ones (C24_direction_roundtrip_refuted). to_direction gives a nearest direction below 31/32 (7/8 for four directions) and raises ValueError above (C24_to_direction_refuted)."},
{"property": "C25", "status": "proved", "theorems": ["Draftsman.Ticks.C25_nearest", "Draftsman.Ticks.C25_whole_seconds", "Draftsman.Ticks.C25_additive", "Draftsman.Ticks.C25_monotone"], "note": ""},
{"property": "C26", "status": "proved", "theorems": ["Draftsman.ValidationMode.C26_operators", "Draftsman.ValidationMode.C26_total", "Draftsman.ValidationMode.C26_truthy"], "note": ""},
{"property": "C27", "status": "proved", "theorems": ["Draftsman.PEnt.C27_set_tile", "Draftsman.PEnt.C27_tile_readback", "Draftsman.PEnt.C27_tile_whole", "Draftsman.PEnt.C27_tile_vector", "Draftsman.PEnt.C27_set_position", "Draftsman.PEnt.C27_set_position_near", "Draftsman.PEnt.C27_set_direction", "Draftsman.PEnt.C27_history"], "note": ""},
{"property": "C28", "status": "partial", "theorems": ["Draftsman.PEnt.C28_cardinal_partial", "Draftsman.PEnt.C28_snap", "Draftsman.PEnt.C28_footprint_iff", "Draftsman.PEnt.C28_footprint_refuted", "Draftsman.PEnt.C28_none_refuted", "Draftsman.PEnt.C28_eight_way_refuted"], "note": "Proved for cardinal arguments; C28_footprint_iff gives the exact footprint for all arguments and shows the claim false for diagonals (C28_footprint_refuted), without validation (C28_none_refuted) and for eight-way entities (C28_eight_way_refuted)."},
{"property": "C29", "status": "proved", "theorems": ["Draftsman.Copy.C29_under", "Draftsman.C29_global_position", "Draftsman.C29_heap_wf", "Draftsman.C29_move", "Draftsman.C29_move_others", "Draftsman.C29_move_refused", "Draftsman.C29_flatten", "Draftsman.C29_depth_first", "Draftsman.C29_attach", "Draftsman.C29_shared_refuted", "Draftsman.C29_removed", "Draftsman.C29_removed_refuted"], "note": "Holds for structures in which every parent link agrees with containment, which append, insert and removal build. It fails for an object shared between two groups with copy=False (C29_shared_refuted), and a removed entity keeps its old parent (C29_removed_refuted)."},
{"property": "C30", "status": "partial", "theorems": ["Draftsman.C30_add", "Draftsman.C30_warnings", "Draftsman.C30_fails", "Draftsman.C30_wire_injective", "Draftsman.C30_remove", "Draftsman.C30_remove_absent_partial", "Draftsman.C30_add_remove_partial", "Draftsman.C30_unknown_refuted", "Draftsman.C30_add_again_refuted", "Draftsman.C30_remove_absent_refuted", "Draftsman.C30_add_remove_refuted", "Draftsman.C30_twin_refuted"], "note": "Addition and removal are described exactly for every input, with the warnings about distance and sides (C30_warnings) and the entities that cannot be wired (C30_fails). The clause that adding does nothing if the connection exists is false (C30_add_again_refuted), so removal and add-then-remove only hold for connections present at most once (C30_remove_absent_refuted, C30_add_remove_refuted). Entities of unknown names raise a TypeError (C30_unknown_refuted)."},
{"property": "C31", "status": "proved", "theorems": ["Draftsman.C31_power", "Draftsman.C31_circuit", "Draftsman.C31_wires_ok"], "note": ""},
{"property": "C32", "status": "partial", "theorems": ["Draftsman.C32_numbers", "Draftsman.C32_outside", "Draftsman.C32_references_partial", "Draftsman.C32_reimport_partial", "Draftsman.C32_bp_ok", "Draftsman.C32_twins_refuted", "Draftsman.C32_outside_twin_refuted", "Draftsman.C32_group_schedule_refuted", "Draftsman.C32_unused_schedule_refuted", "Draftsman.C32_zero_refuted"], "note": "Numbering and the error condition hold for every blueprint. References resolve when no two entities compare equal (C32_twins_refuted, C32_outside_twin_refuted otherwise); schedules of groups are not exported at all (C32_group_schedule_refuted), and a schedule without locomotives makes export fail with a KeyError (C32_unused_schedule_refuted)."},
{"property": "C33", "status": "proved", "theorems": ["Draftsman.C33_positions", "Draftsman.C33_omitted", "Draftsman.C33_roundtrip"], "note": "super().to_dict is taken to yield both snap keys; other keys of the dictionary are not modelled."},
{"property": "C34", "status": "partial", "theorems": ["Draftsman.C34_only", "Draftsman.C34_all_partial", "Draftsman.C34_whole", "Draftsman.C34_invert", "Draftsman.C34_limit", "Draftsman.C34_single", "Draftsman.C34_first_partial", "Draftsman.C34_group_refuted", "Draftsman.C34_group_index", "Draftsman.C34_negative_limit_refuted"], "note": "Nothing wrong is ever returned, inversion and limits are exact, without a region the answer is exact, and the single searches return what was placed first. With a region, members touching the edges are missed as in C13 to C15, and entities put into a positioned group are indexed in the wrong place (C34_group_index says where, C34_group_refuted); negative limits drop from the end."},
{"property": "C35", "status": "partial", "theorems": ["Draftsman.C35_only", "Draftsman.C35_circle", "Draftsman.C35_area", "Draftsman.C35_whole", "Draftsman.C35_limit", "Draftsman.C35_find_tile", "Draftsman.C35_position_refuted"], "note": "Exact for tiles on the grid, by circle, by integer area, or without region. A position without a radius is ignored instead of being searched (C35_position_refuted)."},
{"property": "C36", "status": "partial", "theorems": ["Draftsman.C36_others", "Draftsman.C36_assigned", "Draftsman.C36_cleared", "Draftsman.C36_train", "Draftsman.C36_history", "Draftsman.C36_removed", "Draftsman.C36_removed_entities", "Draftsman.C36_double_refuted", "Draftsman.C36_station_refuted", "Draftsman.C36_position", "Draftsman.C36_twin_refuted", "Draftsman.C36_absent_refuted"], "note": "assignment, clearing, reuse, others untouched and histories proved for schedules without repeated locomotives; refuted: repeated locomotive survives, add_train_at_station duplicates an equal schedule, removal by equality takes a twin, failing removal leaves schedules"},
{"property": "C37", "status": "partial", "theorems": ["Draftsman.C37_terminates", "Draftsman.C37_members", "Draftsman.C37_compass_partial", "Draftsman.C37_once_partial", "Draftsman.C37_twice_refuted", "Draftsman.C37_wrap_refuted"], "note": "termination and exact membership proved with orientations compared as numbers, and as angles for compass orientations; refuted: a wagon near both bogies is listed twice, orientations either side of north are not matched"},
{"property": "C38", "status": "proved", "theorems": ["Draftsman.TrainConfig.C38_expand", "Draftsman.TrainConfig.C38_unknown", "Draftsman.TrainConfig.C38_count", "Draftsman.TrainConfig.C38_rejects", "Draftsman.TrainConfig.C38_rails"], "note": ""},
{"property": "C39", "status": "partial", "theorems": ["Draftsman.Wait.C39_operands_kept", "Draftsman.Wait.C39_or_partial", "Draftsman.Wait.C39_and_partial", "Draftsman.Wait.C39_expression_partial", "Draftsman.Wait.C39_paren_refuted", "Draftsman.Wait.C39_lists_refuted", "Draftsman.Wait.C39_empty_refuted", "Draftsman.Wait.C39_shared_refuted"], "note": "proved for expressions in which & stands above no | and each operator has a single condition on one side; refuted: (a | b) & c means a | (b & c), two combined lists cannot be combined, empty list fails, shared objects"},
{"property": "C40", "status": "proved", "theorems": ["Draftsman.Schedule.C40_locomotives", "Draftsman.Schedule.C40_locomotive_edits", "Draftsman.Schedule.C40_insert", "Draftsman.Schedule.C40_append", "Draftsman.Schedule.C40_remove", "Draftsman.Schedule.C40_constructed_refuted"], "note": "for schedules that start without repeated locomotives; the constructor accepts repeated ones (C40_constructed_refuted)"},
{"property": "C41", "status": "partial", "theorems": ["Draftsman.Upgrade.C41_set", "Draftsman.Upgrade.C41_pop", "Draftsman.Upgrade.C41_remove_first", "Draftsman.Upgrade.C41_remove_at_partial", "Draftsman.Upgrade.C41_sorted", "Draftsman.Upgrade.C41_history_partial", "Draftsman.Upgrade.C41_blank_refuted", "Draftsman.Upgrade.C41_imported_refuted"], "note": "Sorted with unique indices through every history, set and pop exact, removal exact for mappings stored by set_mapping. Removal at an index of a mapping with a blank side, and removal of imported mappings, always fail (C41_blank_refuted, C41_imported_refuted)."},
{"property": "C42", "status": "partial", "theorems": ["Draftsman.Upgrade.C42_silent_partial", "Draftsman.Upgrade.C42_reason", "Draftsman.Upgrade.C42_unknown", "Draftsman.Upgrade.C42_same", "Draftsman.Upgrade.C42_crash_refuted", "Draftsman.Upgrade.C42_builds_refuted"], "note": "Silent exactly when no checked obstacle applies, and the reason given is the first that applies. Refuted where the function crashes (KeyError) and for the documented obstacle it does not check."},
{"property": "C43", "status": "partial", "theorems": ["Draftsman.Slots.C43_set", "Draftsman.Slots.C43_clear_partial", "Draftsman.Slots.C43_clear_refuted", "Draftsman.Slots.C43_others", "Draftsman.Slots.C43_distinct", "Draftsman.Slots.C43_history", "Draftsman.Slots.C43_entities", "Draftsman.Slots.C43_tiles"], "note": "Slot table through every history. Refuted: setting an empty slot to nothing always raises UnboundLocalError."},
{"property": "C44", "status": "partial", "theorems": ["Draftsman.Slots.C44_others", "Draftsman.Slots.C44_distinct", "Draftsman.Slots.C44_set_partial", "Draftsman.Slots.C44_item", "Draftsman.Slots.C44_clear_partial", "Draftsman.Slots.C44_clear_refuted", "Draftsman.Slots.C44_replace_refuted", "Draftsman.Slots.C44_inventory_refuted", "Draftsman.Slots.C44_all", "Draftsman.Slots.C44_names", "Draftsman.Slots.C44_comparator_refuted"], "note": "Other slots and uniqueness always; exact on empty slots for set_item_filter. Refuted: replacing keeps the old quality and comparator, set_inventory_filter drops both, spelled-out comparators are rejected, clearing an empty slot raises UnboundLocalError."},
{"property": "C45", "status": "partial", "theorems": ["Draftsman.Slots.C45_refused", "Draftsman.Slots.C45_set", "Draftsman.Slots.C45_distinct", "Draftsman.Slots.C45_history_partial", "Draftsman.Slots.C45_remove_refuted", "Draftsman.Slots.C45_lost_refuted"], "note": "Set, read and uniqueness proved for every history of valid assignments. Refuted: setting to nothing always fails, and a section whose filters are None forgets what is set."},
{"property": "C46", "status": "partial", "theorems": ["Draftsman.Decider.C46_compare_partial", "Draftsman.Decider.C46_constant_left_partial", "Draftsman.Decider.C46_sides", "Draftsman.Decider.C46_spelling", "Draftsman.Decider.C46_swapped_refuted"], "note": "==, !=, < and > (either way round) are proved to test the written relation; >= and <= are refuted: they test the opposite relation for all operands (C46_swapped_refuted)."},
{"property": "C47", "status": "partial", "theorems": ["Draftsman.Decider.C47_or_partial", "Draftsman.Decider.C47_and_partial", "Draftsman.Decider.C47_expression_partial", "Draftsman.Decider.C47_paren_refuted", "Draftsman.Decider.C47_lists_refuted", "Draftsman.Decider.C47_reused_refuted", "Draftsman.Decider.C47_later_refuted", "Draftsman.Decider.C47_empty_refuted"], "note": "Proved for expressions in which each condition object occurs once, & stands above no | and each operator has a single condition on one side; refuted for (a|b)&c, for two combined lists (TypeError), for reused condition objects, for lists changed by a later expression, and for an empty list on the right."},
{"property": "C48", "status": "partial", "theorems": ["Draftsman.Arith.C48_first", "Draftsman.Arith.C48_second", "Draftsman.Arith.C48_history_partial", "Draftsman.Arith.C48_remove_partial", "Draftsman.Arith.C48_refused", "Draftsman.Arith.C48_remove_refuted", "Draftsman.Arith.C48_all_none_refuted", "Draftsman.Arith.C48_stale_refuted", "Draftsman.Arith.C48_none_refuted"], "note": "Reading back and clearing the other representation proved for every setter and every sequence of setters; refuted: remove leaves the second operand 0, setting everything with no second operand makes it 0, a signal as second operand leaves the constant 0 stored beside it, and a control behaviour of None makes every access fail."},
{"property": "C49", "status": "partial", "theorems": ["Draftsman.Requests.C49_new_partial", "Draftsman.Requests.C49_zero_partial", "Draftsman.Requests.C49_failed", "Draftsman.Requests.C49_range", "Draftsman.Requests.C49_history_partial", "Draftsman.Requests.C49_again_refuted", "Draftsman.Requests.C49_inventory_refuted", "Draftsman.Requests.C49_zero_refuted", "Draftsman.Requests.C49_auto_refuted", "Draftsman.Requests.C49_auto_again_refuted", "Draftsman.Requests.C49_dict_refuted"], "note": "Proved: a request for a free place with its slot given is stored and changes no other place; zero removes every request for the item and no other item's; histories of such requests in one inventory. Refuted: a second request for the same place adds a duplicate, a request for the next inventory overwrites the previous inventory's, zero removes other qualities and slots, the automatic slot can be taken, a second automatic slot fails, classes that start with a dictionary cannot request."},
{"property": "C50", "status": "partial", "theorems": ["Draftsman.ModSettings.C50_decode_partial", "Draftsman.ModSettings.C50_text", "Draftsman.ModSettings.C50_header", "Draftsman.ModSettings.C50_cut_partial", "Draftsman.ModSettings.C50_list_refuted", "Draftsman.ModSettings.C50_uint_refuted", "Draftsman.ModSettings.C50_encode_refuted", "Draftsman.ModSettings.C50_write_refuted", "Draftsman.ModSettings.C50_deep_refuted", "Draftsman.ModSettings.C50_cut_refuted"], "note": "Decoding proved for trees of any size without lists and unsigned numbers, up to the interpreter's recursion limit, for any trailing bytes. Refuted: lists and unsigned numbers always raise TypeError, encoding always raises struct.error, too deep trees raise RecursionError, a cut-off string is read as a shorter one. Proved: a file cut off anywhere is refused unless its last value is a text or nothing, as are a short header, a set header byte and unknown types."},
{"property": "C51", "status": "partial", "theorems": ["Draftsman.ModList.C51_order", "Draftsman.ModList.C51_listed", "Draftsman.ModList.C51_front", "Draftsman.ModList.C51_found_partial", "Draftsman.ModList.C51_dependencies_refuted", "Draftsman.ModList.C51_parts_refuted"], "note": "Proved: if discovery succeeds, versions are listed newest first by number, folders before archives of the same version, everything found is listed; it succeeds if versions are numeric and at most one mod lacks dependencies. Refuted: two mods without a dependencies key crash (shared default list changed in place); 1.0 and 1.0.0 count as different versions."},
{"property": "C52", "status": "partial", "theorems": ["Draftsman.Book.C52_members_partial", "Draftsman.Book.C52_empty", "Draftsman.Book.C52_unnumbered", "Draftsman.Book.C52_again", "Draftsman.Book.C52_none_refuted", "Draftsman.Book.C52_distinct_refuted", "Draftsman.Book.C52_constructor_refuted"], "note": "Proved: on export with the usual options every member that carries no index gets its position in the list, members that carry one keep it, order is kept, an empty book exports no list, exporting again gives the same. Refuted: with both exclude flags off an unnumbered member is exported with index null; numbers need not be distinct; an index given to the constructor is overwritten."},
{"property": "C53", "status": "partial", "theorems": ["Draftsman.Shorthand.C53_filters", "Draftsman.Shorthand.C53_priorities_partial", "Draftsman.Shorthand.C53_blueprint_icons", "Draftsman.Shorthand.C53_icons", "Draftsman.Shorthand.C53_unknown", "Draftsman.Shorthand.C53_section_partial", "Draftsman.Shorthand.C53_section_unknown", "Draftsman.Shorthand.C53_section_refuted", "Draftsman.Shorthand.C53_section_failed_refuted", "Draftsman.Shorthand.C53_distinct_refuted", "Draftsman.Shorthand.C53_untyped_refuted", "Draftsman.Shorthand.C53_text_refuted"], "note": "Proved: filters, turret priorities and icons given as lists are expanded so that the k-th plain name gets number k, full entries are kept, order and length are kept and expanding again changes nothing; unknown icon names are an error; sections expand tuples of a known name and a count. Refuted: sections do not expand plain names and are left half expanded on an error; numbers need not be distinct; icons given as a dictionary without a type are not expanded; turret priorities given as one text are split into letters."},
{"property": "C54", "status": "proved", "theorems": ["Draftsman.ValResult.C54_reissue", "Draftsman.ValResult.C54_combine", "Draftsman.ValResult.C54_eq_iff", "Draftsman.ValResult.C54_assignment"], "note": ""},
{"property": "C55", "status": "proved", "theorems": ["Draftsman.Modules.C55_exact", "Draftsman.Modules.C55_once", "Draftsman.Modules.C55_more", "Draftsman.Modules.C55_recipe", "Draftsman.Modules.C55_unknown"], "note": ""},
{"property": "C56", "status": "partial", "theorems": ["Draftsman.Belts.C56_kept", "Draftsman.Belts.C56_turned", "Draftsman.Belts.C56_belt_partial", "Draftsman.Belts.C56_back", "Draftsman.Belts.C56_straight", "Draftsman.Belts.C56_succeeds_partial", "Draftsman.Belts.C56_twice_partial", "Draftsman.Belts.C56_facing_refuted", "Draftsman.Belts.C56_chest_refuted", "Draftsman.Belts.C56_twice_refuted", "Draftsman.Belts.C56_group_refuted"], "note": "Proved for blueprints (collections at the origin): nothing moves, undergrounds and splitters are turned around and entry and exit swap, what fed a belt straight on or alone round a corner is fed by it afterwards, straight layouts are turned around entirely and restored by reversing twice, and it succeeds if no underground exit faces something without a direction. Refuted: two belts face to face are not turned; an underground exit facing a chest raises AttributeError; in a group away from the origin corners are not recognised; reversing twice does not restore arbitrary layouts."},
{"property": "C57", "status": "proved", "theorems": ["Draftsman.BpString.C57_root", "Draftsman.Codec.C57_dispatch", "Draftsman.Codec.C57_unknown", "Draftsman.Codec.C57_from_string", "Draftsman.Json.C57_real"], "note": ""},
{"property": "C58", "status": "partial", "theorems": ["Draftsman.Orientation.C58_eq_lt", "Draftsman.Orientation.C58_consistent_partial", "Draftsman.Orientation.C58_refuted", "Draftsman.Orientation.C58_ne_refuted"], "note": "== and < compare wrapped values; >, <=, >= and != are inherited from float and compare the raw value. Consistent for orientations already wrapped (C58_consistent_partial), refuted otherwise (C58_refuted, C58_ne_refuted)."},
{"property": "C59", "status": "partial", "theorems": ["Draftsman.Modules.C59_signal_type", "Draftsman.Modules.C59_signal", "Draftsman.Modules.C59_agree", "Draftsman.Modules.C59_signal_once_refuted", "Draftsman.Modules.C59_module_new_partial", "Draftsman.Modules.C59_module_category", "Draftsman.Modules.C59_module_effect_refuted", "Draftsman.Modules.C59_module_once_refuted", "Draftsman.Modules.C59_category_refuted", "Draftsman.Modules.C59_category_partial"], "note": "Proved: a signal is added under one of eight types, keeps the types it had, and lists and types agree after any sequence of additions; a new module is known with its data and listed once in its category; unknown categories are refused. Refuted: adding a signal or module again lists it twice (a module also stays in its old category); an existing module keeps its old effects; adding an existing category empties it."},
{"property": "C60", "status": "partial", "theorems": ["Draftsman.Copy.C60_copy", "Draftsman.Copy.C60_outside", "Draftsman.Copy.C60_mem_start", "Draftsman.Copy.C60_dropped_refuted", "Draftsman.Copy.C60_order_refuted"], "note": "Proved: a group whose references (and those of groups in it) stay inside is copied completely, with wires and schedules joining the copies, and everything else unchanged; a reference that is dead or leaves the copied group makes the copy raise KeyError. Refuted: such references are not left out as documented (C60_dropped_refuted), and a wire from an inner group to the outer one works or not depending on the order of members (C60_order_refuted)."},
{"property": "C61", "status": "partial", "theorems": ["Draftsman.Copy.C61_copy_partial", "Draftsman.Copy.C61_bp_ok", "Draftsman.Copy.C61_wires_refuted", "Draftsman.Copy.C61_moved_refuted", "Draftsman.Copy.C61_label_refuted"], "note": "Proved: all contents are copied, the original is unchanged, and the unchanged copy exports the same dictionary (or raises the same exception). Refuted: the copy's own wires and schedules still join the original's entities, so export fails after an edit or once the original is gone, and the copy lacks attributes that assigning its label needs."},
{"property": "C62", "status": "partial", "theorems": ["Draftsman.Power.C62_joined_partial", "Draftsman.Power.C62_twice", "Draftsman.Power.C62_order", "Draftsman.Power.C62_poles_ok", "Draftsman.Power.C62_again_refuted", "Draftsman.Power.C62_limit_refuted"], "note": "Proved: the call succeeds without warnings, keeps all wires, and adds wires between exactly the pairs in reach (C62_joined_partial), one each way (C62_twice), for each pole the farthest first (C62_order). Refuted: a pair is joined twice, and again when joined before; the limit of five is not looked at; nearest-first is reversed (C62_order shows the opposite for all inputs)."},
{"property": "C63", "status": "partial", "theorems": ["Draftsman.TrainSearch.C63_filter_partial", "Draftsman.TrainSearch.C63_trains", "Draftsman.TrainSearch.C63_disjoint_partial", "Draftsman.TrainSearch.C63_disjoint_refuted", "Draftsman.TrainSearch.C63_schedule_refuted", "Draftsman.TrainSearch.C63_orientation_refuted", "Draftsman.TrainSearch.C63_names_refuted", "Draftsman.TrainSearch.C63_head_refuted"], "note": "The filter is characterised for queries that fit the trains (C63_filter_partial); the trains are the classes of coupled wagons (C63_trains) and disjoint where coupling is symmetric (C63_disjoint_partial). Refuted: turned wagons in two trains, errors for trains without locomotives and for heads just left of north, orientations beyond a turn, empty sets of names."},
{"property": "C64", "status": "partial", "theorems": ["Draftsman.Instruments.C64_extract_partial", "Draftsman.Instruments.C64_added_partial", "Draftsman.Instruments.C64_unknown", "Draftsman.Instruments.C64_others", "Draftsman.Instruments.C64_id", "Draftsman.Instruments.C64_insert_refuted", "Draftsman.Instruments.C64_self_refuted", "Draftsman.Instruments.C64_self_note_refuted", "Draftsman.Instruments.C64_stale_refuted", "Draftsman.Instruments.C64_stored", "Draftsman.Instruments.C64_kept", "Draftsman.Instruments.C64_equal_refuted"], "note": "Extraction and additions at the end (C64_extract_partial, C64_added_partial), other speakers (C64_others), refusals (C64_unknown, C64_id), instruments and notes given by name or number (C64_stored). Refuted: every insertion before the end (C64_insert_refuted, for all tables), notes called \"self\" (C64_self_refuted, C64_self_note_refuted), stale note numbers (C64_stale_refuted), equality of the same choice made by name and by number (C64_equal_refuted)."},
{"property": "C65", "status": "partial", "theorems": ["Draftsman.Import.C65_outcome", "Draftsman.Import.C65_references_partial", "Draftsman.Import.C65_left", "Draftsman.Import.C65_again", "Draftsman.Import.C65_again_refuted", "Draftsman.Import.C65_shared_refuted", "Draftsman.Import.C65_zero_refuted", "Draftsman.Import.C65_order_refuted", "Draftsman.Import.C65_half_refuted", "Draftsman.Import.C65_failed", "Draftsman.Import.C65_group", "Draftsman.Import.C65_group_refuted"], "note": "True when the entities are numbered 1, 2, 3, … in order and all numbers are positive (C65_references_partial); C65_outcome gives the exact condition for success for every dictionary. False of the code otherwise: references go by place in the list, number 0 is the last entity, names are taken out of the dictionary so that a second load fails, wire lists are shared, a group made from a string keeps its wires as numbers."},
{"property": "C66", "status": "partial", "theorems": ["Draftsman.DataTables.C66_unknown", "Draftsman.DataTables.C66_item", "Draftsman.DataTables.C66_once_partial", "Draftsman.DataTables.C66_subgroup_partial", "Draftsman.DataTables.C66_unshared_partial", "Draftsman.DataTables.C66_modify_refuted", "Draftsman.DataTables.C66_default_refuted", "Draftsman.DataTables.C66_defaultGroup_refuted", "Draftsman.DataTables.C66_regroup_refuted", "Draftsman.DataTables.C66_namesake_refuted", "Draftsman.DataTables.C66_group", "Draftsman.DataTables.C66_shared", "Draftsman.DataTables.C66_fluid", "Draftsman.DataTables.C66_fluid_refuted", "Draftsman.DataTables.C66_range_refuted", "Draftsman.DataTables.C66_entity_partial", "Draftsman.DataTables.C66_retype_refuted"], "note": "True for new items, subgroups with their list given and new entities; unknown groups are refused without effect. False of the code for modified items, items and groups added with default lists, groups added again, subgroups named like an item, the order of modified fluids and entities added under another type; witnesses are proved."},
{"property": "C67", "status": "partial", "theorems": ["Draftsman.Merge.C67_merge_partial", "Draftsman.Merge.C67_wires_partial", "Draftsman.Merge.C67_again_partial", "Draftsman.Merge.C67_twins_refuted", "Draftsman.Merge.C67_nested_refuted", "Draftsman.Merge.C67_insert", "Draftsman.Merge.C67_id_refuted", "Draftsman.Merge.C67_frame_refuted"], "note": "True for items whose entities are pairwise different in class, name, place or id, and for wires between entities directly in the same group. False of the code for equal entities in one group, wires of an outer group to entities of an inner one, entities with ids, and groups that are not at the origin; witnesses are proved. Attributes that particular classes merge are not modelled."},
{"property": "C68", "status": "partial", "theorems": ["Draftsman.C68_slice", "Draftsman.TileList.C68_assign", "Draftsman.TileList.C68_assign_tiles", "Draftsman.TileList.C68_assign_refused", "Draftsman.TileList.C68_assign_former_refuted", "Draftsman.TileList.C68_index", "Draftsman.TileList.C68_locked", "Draftsman.TileList.C68_copy_refuted", "Draftsman.TileList.C68_objects_partial", "Draftsman.TileList.C68_find_partial", "Draftsman.TileList.C68_merge", "Draftsman.TileList.C68_mergeRef", "Draftsman.TileList.C68_twin_refuted", "Draftsman.TileList.C68_set_refuted", "Draftsman.TileList.C68_parent_refuted", "Draftsman.TileList.C68_orphan_refuted", "Draftsman.TileList.C68_dicts", "Draftsman.TileList.C68_dicts_refuted", "Draftsman.TileList.C68_reverse", "Draftsman.TileList.C68_pop"], "note": "agreement up to equality is proved for all histories of insertions, accepted replacements, deletions and clearings; agreement of objects and exact search when no two equal tiles are in the list; false with equal tiles, after a refused replacement, for lists without a parent; deleted tiles stay locked, copies of members cannot be placed elsewhere, dictionaries lose their names"},
{"property": "C69", "status": "partial", "theorems": ["Draftsman.Overlap.C69_warn", "Draftsman.Overlap.C69_group", "Draftsman.Overlap.C69_group_refuted", "Draftsman.Overlap.C69_sound", "Draftsman.Overlap.C69_gate_partial", "Draftsman.Overlap.C69_gate_refuted", "Draftsman.Overlap.C69_rail_refuted", "Draftsman.Overlap.C69_merge_refuted", "Draftsman.Overlap.C69_equal_refuted", "Draftsman.Overlap.C69_unknown_refuted", "Draftsman.Overlap.C69_mask_refuted"], "note": "proved exactly as the code understands a collision; false for gates across rails, rails facing opposite ways, members of one inserted group, merging, equal members, unknown names and the masks of game version 2.0"},
{"property": "C70", "status": "partial", "theorems": ["Draftsman.ModLoad.C70_all", "Draftsman.ModLoad.C70_before", "Draftsman.ModLoad.C70_loads_partial", "Draftsman.ModLoad.C70_listing", "Draftsman.ModLoad.C70_select", "Draftsman.ModLoad.C70_harmless_refuted", "Draftsman.ModLoad.C70_harmless2_refuted", "Draftsman.ModLoad.C70_unordered_refuted", "Draftsman.ModLoad.C70_depth_refuted", "Draftsman.ModLoad.C70_equals_refuted", "Draftsman.ModLoad.C70_parts_refuted", "Draftsman.ModLoad.C70_reasons", "Draftsman.ModLoad.C70_refused"], "note": "Proved: every selected mod is loaded once (`C70_all`), after its dependencies (`C70_before`), independently of the order found (`C70_listing`), exact condition for success (`C70_loads_partial`), selection of versions (`C70_select`). False of the code and refuted: that absent incompatible or optional mods are harmless, that mods needed without an order load, that shallower mods come first, that `=` may be used for a version, that versions with different numbers of parts compare as versions."},
{"property": "C71", "status": "partial", "theorems": ["Draftsman.ModLoad.C71_read", "Draftsman.ModLoad.C71_sound", "Draftsman.ModLoad.C71_spaces_refuted", "Draftsman.ModLoad.C71_refused_refuted"], "note": "Proved: every well-formed string is read as written wherever spaces are put (`C71_read`), and what is read stands in the string (`C71_sound`). False of the code and refuted: that names with spaces are read and that malformed strings are refused."},
{"property": "C72", "status": "partial", "theorems": ["Draftsman.ModEnable.C72_enabled", "Draftsman.ModEnable.C72_entries", "Draftsman.ModEnable.C72_unknown", "Draftsman.ModEnable.C72_works_partial", "Draftsman.ModEnable.C72_again", "Draftsman.ModEnable.C72_all_refuted", "Draftsman.ModEnable.C72_new_refuted", "Draftsman.ModEnable.C72_twice_refuted"], "note": "Proved: exactly the mods named are set (`C72_enabled`, `C72_again`), entries are kept (`C72_entries`), unknown names are refused (`C72_unknown`), exact condition for success (`C72_works_partial`). False of the code and refuted: that `all` works, that mods not yet listed can be set, that all entries of a mod listed twice are set."},
{"property": "C73", "status": "partial", "theorems": ["Draftsman.GameData.C73_names", "Draftsman.GameData.C73_sorted", "Draftsman.GameData.C73_works_partial", "Draftsman.GameData.C73_unique", "Draftsman.GameData.C73_group_refuted", "Draftsman.GameData.C73_mined_refuted", "Draftsman.GameData.C73_last_refuted"], "note": "Proved: the result has the same names, is sorted by rank, does not depend on the input order, and the exact condition for success. False of the code and refuted: that data accepted by `get_items` can be sorted, that an entity whose mined item is unknown falls back on itself, that objects without an order come last."},
{"property": "C74", "status": "partial", "theorems": ["Draftsman.GameData.C74_array", "Draftsman.GameData.C74_record", "Draftsman.GameData.C74_mixed", "Draftsman.GameData.C74_faithful_partial", "Draftsman.GameData.C74_sparse_refuted", "Draftsman.GameData.C74_bool_refuted", "Draftsman.GameData.C74_empty_refuted", "Draftsman.GameData.C74_order_refuted"], "note": "Proved: arrays become lists, tables with string keys dictionaries, and nothing is lost of regular values. False of the code and refuted: for sparse integer keys, for empty tables and for arrays iterated out of order."},
{"property": "C75", "status": "partial", "theorems": ["Draftsman.GameData.C75_keys", "Draftsman.GameData.C75_items", "Draftsman.GameData.C75_sorted", "Draftsman.GameData.C75_works", "Draftsman.GameData.C75_agrees", "Draftsman.GameData.C75_twice_refuted"], "note": "Proved for distinct names: every item once (`C75_keys`, `C75_items`), sorted (`C75_sorted`), exact condition for success (`C75_works`), agreement with the general sort (`C75_agrees`). Refuted for items of the same name in two categories."},
{"property": "C76", "status": "proved", "theorems": ["Draftsman.GameData.C76_categories", "Draftsman.GameData.C76_works", "Draftsman.GameData.C76_machine", "Draftsman.GameData.C76_once", "Draftsman.GameData.C76_machine_works"], "note": ""},
{"property": "C77", "status": "partial", "theorems": ["Draftsman.Attr.C77_validated_partial", "Draftsman.Attr.C77_unvalidated_partial", "Draftsman.Attr.C77_none", "Draftsman.Attr.C77_frame_partial", "Draftsman.Attr.C77_refused_partial", "Draftsman.Attr.C77_accepts_partial", "Draftsman.Attr.C77_sections_refuted", "Draftsman.Attr.C77_missing", "Draftsman.Attr.C77_sealed", "Draftsman.Attr.C77_sealed_refuted", "Draftsman.Attr.C77_resolved", "Draftsman.Attr.C77_fresh_partial", "Draftsman.Attr.C77_fresh_refuted", "Draftsman.Attr.C77_quality_refuted", "Draftsman.Attr.C77_refused_refuted", "Draftsman.Attr.C77_fluid_refuted", "Draftsman.Attr.C77_lamp_refuted", "Draftsman.Attr.C77_cleared_refuted"], "note": "Proved for all classes and attributes outside the listed exceptions (lamp attributes, recipe, recipe quality, player description, fluids of infinity pipes, attributes missing on new entities), each of which is refuted. Validation is a parameter; circuit_enabled of active, passive and storage chests cannot be set (C77_sealed, C77_sealed_refuted), nor the sections of a constant combinator while validation is on (C77_sections_refuted)."},
{"property": "C78", "status": "partial", "theorems": ["Draftsman.EntTypes.C78_succeeds", "Draftsman.EntTypes.C78_lists", "Draftsman.EntTypes.C78_raw", "Draftsman.EntTypes.C78_once", "Draftsman.EntTypes.C78_unlisted_refuted", "Draftsman.EntTypes.C78_box_refuted", "Draftsman.EntTypes.C78_mask_refuted", "Draftsman.EntTypes.C78_hidden_refuted", "Draftsman.EntTypes.C78_order_refuted", "Draftsman.EntTypes.C78_rails_refuted"], "note": "Proved for all data for which the extraction succeeds, with an exact condition for that; refuted for types without blueprintable prototypes, missing boxes, empty masks, hidden entities, order, rails. The sort of the table by get_order is C73."},
{"property": "C79", "status": "partial", "theorems": ["Draftsman.EntTypes.C79_known_partial", "Draftsman.EntTypes.C79_logistic", "Draftsman.EntTypes.C79_generic", "Draftsman.EntTypes.C79_unmade_refuted", "Draftsman.EntTypes.C79_orphan_refuted", "Draftsman.EntTypes.C79_default_partial"], "note": "Proved for all types outside two lists of four; those are refuted: never asked for, or classes without a base class."},
{"property": "C80", "status": "partial", "theorems": ["Draftsman.Setup.C80_given_partial", "Draftsman.Setup.C80_attributes", "Draftsman.Setup.C80_not_cumulative_partial", "Draftsman.Setup.C80_outcome", "Draftsman.Setup.C80_unknown", "Draftsman.Setup.C80_item", "Draftsman.Setup.C80_version", "Draftsman.Setup.C80_planner_succeeds", "Draftsman.Setup.C80_stale_refuted", "Draftsman.Setup.C80_upgrade_none_refuted", "Draftsman.Setup.C80_unknown_stays_refuted", "Draftsman.Setup.C80_settings_unknown_refuted", "Draftsman.Setup.C80_replaced_refuted", "Draftsman.Setup.C80_refused_refuted", "Draftsman.Setup.C80_index_refuted", "Draftsman.Setup.C80_construct_errors", "Draftsman.Setup.C80_construct_partial"], "note": "True for all keywords other than the root key and the private lists and for settings other than None. The rest is false and refuted: settings=None leaves the settings of a deconstruction planner as they were and makes those of an upgrade planner unreadable, unknown keywords survive later calls, unknown keys of the settings of a deconstruction planner vanish silently, the root key as a keyword replaces the object, a refused call leaves half of its assignments, and the index given to the constructor is lost."},
{"property": "C81", "status": "partial", "theorems": ["Draftsman.MergeAttr.C81_taken_partial", "Draftsman.MergeAttr.C81_kept", "Draftsman.MergeAttr.C81_fixed", "Draftsman.MergeAttr.C81_succeeds", "Draftsman.MergeAttr.C81_equal", "Draftsman.MergeAttr.C81_equivalence", "Draftsman.MergeAttr.C81_compared_partial", "Draftsman.MergeAttr.C81_ignored", "Draftsman.MergeAttr.C81_hash_partial", "Draftsman.MergeAttr.C81_merge_refuted", "Draftsman.MergeAttr.C81_missing_refuted", "Draftsman.MergeAttr.C81_half_refuted", "Draftsman.MergeAttr.C81_equal_refuted", "Draftsman.MergeAttr.C81_unhashable_refuted", "Draftsman.MergeAttr.C81_hash_refuted"], "note": "True of all attributes outside an explicit list, with an exact description of what is left alone. False and refuted: the quality and the listed attributes are not merged; equality ignores them; merging from an entity without the control behavior raises; a refused merge is half done; two classes are unhashable; equal entities have different hashes (hash by address). Sharing of objects between the entities after a merge is C109."},
{"property": "C82", "status": "partial", "theorems": ["Draftsman.Machines.C82_ingredients", "Draftsman.Machines.C82_ingredients_none", "Draftsman.Machines.C82_recipe_partial", "Draftsman.Machines.C82_recipe_empty", "Draftsman.Machines.C82_recipe_stored", "Draftsman.Machines.C82_unknown_refuted", "Draftsman.Machines.C82_silo_refuted", "Draftsman.Machines.C82_machine_refuted", "Draftsman.Machines.C82_items_partial", "Draftsman.Machines.C82_fuel_partial", "Draftsman.Machines.C82_fuel_unknown", "Draftsman.Machines.C82_items_quiet", "Draftsman.Machines.C82_furnace_refuted", "Draftsman.Machines.C82_generator_refuted", "Draftsman.Machines.C82_short_refuted", "Draftsman.Machines.C82_unchecked_refuted", "Draftsman.Machines.C82_cache_partial", "Draftsman.Machines.C82_furnace_inputs", "Draftsman.Machines.C82_lab_partial", "Draftsman.Machines.C82_lab_refuted", "Draftsman.Machines.C82_container_refuted", "Draftsman.Machines.C82_queries_refuted", "Draftsman.Machines.C82_fuelled_partial", "Draftsman.Machines.C82_fuelled_refuted", "Draftsman.Machines.C82_order_refuted", "Draftsman.Machines.C82_blacklist_refuted", "Draftsman.Machines.C82_cache_refuted"], "note": "Ingredients, recipe warnings for known assembling machines, module and fuel warnings, the fuel cache and the items allowed in drills and reactors are proved exactly; refuted for unknown recipes or machines with requests, rocket silos, furnaces, burner generators, abbreviated requests, the order of assignments, blacklisted modules, labs and containers, categories without fuels, and renamed drills."},
{"property": "C83", "status": "partial", "theorems": ["Draftsman.Signals.C83_types", "Draftsman.Signals.C83_lists", "Draftsman.Signals.C83_raw", "Draftsman.Signals.C83_works", "Draftsman.Signals.C83_items", "Draftsman.Signals.C83_entities", "Draftsman.Signals.C83_fluids", "Draftsman.Signals.C83_modules", "Draftsman.Signals.C83_fuels", "Draftsman.Signals.C83_tiles", "Draftsman.Signals.C83_item_refuted", "Draftsman.Signals.C83_ambiguous_refuted", "Draftsman.Signals.C83_raw_refuted"], "note": "The types, lists, raw table, categories and orders are proved for all data; that item signals are items, that a name always gets the same type and that raw holds the item prototype are refuted"},
{"property": "C84", "status": "partial", "theorems": ["Draftsman.Ctor.C84_given_partial", "Draftsman.Ctor.C84_default_partial", "Draftsman.Ctor.C84_separate_partial", "Draftsman.Ctor.C84_extra", "Draftsman.Ctor.C84_place", "Draftsman.Ctor.C84_mode", "Draftsman.Ctor.C84_works_partial", "Draftsman.Ctor.C84_collector", "Draftsman.Ctor.C84_unchecked_partial", "Draftsman.Ctor.C84_late", "Draftsman.Ctor.C84_tags", "Draftsman.Ctor.C84_shared_refuted", "Draftsman.Ctor.C84_chunks_refuted", "Draftsman.Ctor.C84_dropped_refuted", "Draftsman.Ctor.C84_orphan_refuted", "Draftsman.Ctor.C84_items_refuted", "Draftsman.Ctor.C84_names_refuted", "Draftsman.Ctor.C84_both_refuted", "Draftsman.Ctor.C84_invalid_refuted", "Draftsman.Ctor.C84_built"], "note": "Proved for all classes and keywords but for asteroid collectors' chunk_filter and result_inventory, where it is false (C84_chunks_refuted, C84_dropped_refuted); sharing of defaults, unconstructible classes, dictionary defaults of items, silent names and keywords are refuted as well."},
{"property": "C85", "status": "partial", "theorems": ["Draftsman.Validate.C85_none", "Draftsman.Validate.C85_parts_none", "Draftsman.Validate.C85_parts", "Draftsman.Validate.C85_complete_partial", "Draftsman.Validate.C85_clean", "Draftsman.Validate.C85_raises", "Draftsman.Validate.C85_force", "Draftsman.Validate.C85_mode", "Draftsman.Validate.C85_after_partial", "Draftsman.Validate.C85_again", "Draftsman.Validate.C85_minimum", "Draftsman.Validate.C85_size", "Draftsman.Validate.C85_index", "Draftsman.Validate.C85_index_refuted", "Draftsman.Validate.C85_ids", "Draftsman.Validate.C85_schedules_refuted", "Draftsman.Validate.C85_raises_refuted", "Draftsman.Validate.C85_coerce_refuted"], "note": "The result is proved to be the concatenation of the reports of all parts for every nesting, the state afterwards and idempotence too. False of the code and refuted: schedules are never validated, a blueprint that is too large raises instead of being reported, and directions, tiles and blueprints are not coerced. What the pydantic formats say is arbitrary here (see C13-C20, C79-C82 for single formats)."},
{"property": "C86", "status": "partial", "theorems": ["Draftsman.Convert.C86_color", "Draftsman.Convert.C86_color_dict", "Draftsman.Convert.C86_color_raises_partial", "Draftsman.Convert.C86_color_refuted", "Draftsman.Convert.C86_networks", "Draftsman.Convert.C86_networks_refuted", "Draftsman.Convert.C86_comparator", "Draftsman.Convert.C86_condition", "Draftsman.Convert.C86_condition_raises_partial", "Draftsman.Convert.C86_condition_refuted", "Draftsman.Convert.C86_position", "Draftsman.Convert.C86_whole", "Draftsman.Convert.C86_position_raises_partial", "Draftsman.Convert.C86_position_refuted"], "note": "Accepted values and their meaning are characterised exactly, as are the values that raise something other than a DataFormatError. False of the code and refuted: short sequences raise IndexError, dictionaries without coordinates KeyError, unhashable comparators TypeError; extra values and unknown wire colors are ignored; fractional tile positions are truncated as tuples but refused as vectors. How pydantic reads text and signals is arbitrary here."},
{"property": "C87", "status": "partial", "theorems": ["Draftsman.Special.C87_mask", "Draftsman.Special.C87_assign", "Draftsman.Special.C87_link", "Draftsman.Special.C87_range", "Draftsman.Special.C87_failed", "Draftsman.Special.C87_range_refuted", "Draftsman.Special.C87_links", "Draftsman.Special.C87_invariant", "Draftsman.Special.C87_mask_refuted", "Draftsman.Special.C87_filter", "Draftsman.Special.C87_filters", "Draftsman.Special.C87_filter_failed", "Draftsman.Special.C87_filter_refuted", "Draftsman.Special.C87_filter_index_refuted", "Draftsman.Special.C87_filter_none_refuted", "Draftsman.Special.C87_export", "Draftsman.Special.C87_plain", "Draftsman.Special.C87_import_partial", "Draftsman.Special.C87_export_refuted", "Draftsman.Special.C87_import_refuted", "Draftsman.Special.C87_section", "Draftsman.Special.C87_section_fails", "Draftsman.Special.C87_sections", "Draftsman.Special.C87_sections_refuted"], "note": "Proved for checked assignments; refuted: the documented AssertionError, wide links with validation off, emptying an empty slot raises, slot 0 is accepted, exporting an unknown interface raises KeyError, None comes back as default, section indices may collide."},
{"property": "C88", "status": "partial", "theorems": ["Draftsman.Checks.C88_name", "Draftsman.Checks.C88_signal", "Draftsman.Checks.C88_virtual_partial", "Draftsman.Checks.C88_virtual_refuted", "Draftsman.Checks.C88_filters_partial", "Draftsman.Checks.C88_filters_refuted", "Draftsman.Checks.C88_size", "Draftsman.Checks.C88_bar_partial", "Draftsman.Checks.C88_bar_raises", "Draftsman.Checks.C88_bar_refuted", "Draftsman.Checks.C88_grid", "Draftsman.Checks.C88_temperature", "Draftsman.Checks.C88_volume_partial", "Draftsman.Checks.C88_volume_refuted", "Draftsman.Checks.C88_instrument", "Draftsman.Checks.C88_note_partial", "Draftsman.Checks.C88_note_refuted", "Draftsman.Checks.C88_parameters_partial", "Draftsman.Checks.C88_parameters_refuted", "Draftsman.Checks.C88_forbidden_partial", "Draftsman.Checks.C88_forbidden_refuted", "Draftsman.Checks.C88_each", "Draftsman.Checks.C88_shorthand_partial", "Draftsman.Checks.C88_shorthand_refuted", "Draftsman.Checks.C88_mappers", "Draftsman.Checks.C88_mappers_raise", "Draftsman.Checks.C88_quiet_partial", "Draftsman.Checks.C88_stricter", "Draftsman.Checks.C88_unknown", "Draftsman.Suggest.C88_entity_name", "Draftsman.Suggest.C88_tile_name", "Draftsman.Suggest.C88_suggestion", "Draftsman.Suggest.C88_suggestion_one"], "note": "True of most checks, proved as equivalences for all values and modes. Refuted: virtual signals in constant combinators raise AttributeError, filter numbers below 1 pass, an unknown quality makes the bar check raise KeyError, volumes are reported with validation off, the note name \"self\" passes, instrument and note assigned together are checked against the old instrument, only the first forbidden signal is reported, one short mapper sequence leaves all mappers unconverted."},
{"property": "C89", "status": "partial", "theorems": ["Draftsman.Equality.C89_parts_partial", "Draftsman.Equality.C89_equivalence", "Draftsman.Equality.C89_loaded", "Draftsman.Equality.C89_content_partial", "Draftsman.Equality.C89_copied", "Draftsman.Equality.C89_copied_new", "Draftsman.Equality.C89_loaded_refuted", "Draftsman.Equality.C89_wires_refuted", "Draftsman.Equality.C89_copied_refuted", "Draftsman.Equality.C89_order_refuted", "Draftsman.Equality.C89_boxes", "Draftsman.Equality.C89_shapes", "Draftsman.Equality.C89_rectangle_refuted"], "note": "Proved: what == looks at (C89_parts_partial), that it is an equivalence (C89_equivalence), when two loads of one dictionary are equal (C89_loaded), when a copy is equal (C89_copied), what equality says of the contents (C89_content_partial), shapes (C89_boxes, C89_shapes). False of the code: schedules with locomotives loaded twice, wires, groups in copies, the order of entities, rectangles: the _refuted theorems."},
{"property": "C90", "status": "partial", "theorems": ["Draftsman.Record.C90_field", "Draftsman.Record.C90_present", "Draftsman.Record.C90_extra", "Draftsman.Record.C90_missing", "Draftsman.Record.C90_extra_refuted", "Draftsman.Record.C90_method_refuted", "Draftsman.Record.C90_missing_refuted", "Draftsman.Record.C90_sections", "Draftsman.Record.C90_sections_refuted", "Draftsman.Record.C90_condition", "Draftsman.Record.C90_accepted", "Draftsman.Record.C90_removed", "Draftsman.Record.C90_owner", "Draftsman.Record.C90_belt_refuted", "Draftsman.Record.C90_stored_refuted", "Draftsman.Record.C90_error_refuted", "Draftsman.Record.C90_numeral_refuted"], "note": "Proved: reading and writing of fields under all their names (C90_field, C90_present), of other keys (C90_extra, C90_missing), of sections (C90_sections), and of conditions (C90_condition, C90_accepted, C90_removed), on all entities but those of C90_belt_refuted (C90_owner). False of the code: in and get for keys that are no fields, names of methods, the kind of error for missing keys and wrong conditions, sections, numerals given as texts, and transport belts and three kinds of chests, on which setting a condition fails after it was stored (C90_stored_refuted): the _refuted theorems. How pydantic reads and writes attributes and converts arguments is taken over as documented."},
{"property": "C91", "status": "partial", "theorems": ["Draftsman.Ctor.C91_default_partial", "Draftsman.Ctor.C91_exports", "Draftsman.Ctor.C91_energy_fails", "Draftsman.Ctor.C91_exported", "Draftsman.Ctor.C91_roundtrip_partial", "Draftsman.Ctor.C91_new_partial", "Draftsman.Ctor.C91_energy", "Draftsman.Ctor.C91_odd", "Draftsman.Ctor.C91_energy_refuted", "Draftsman.Ctor.C91_wagon_refuted", "Draftsman.Ctor.C91_silo_refuted", "Draftsman.Ctor.C91_none_refuted", "Draftsman.Ctor.C91_new_refuted"], "note": "Proved for all 83 classes: what is exported comes back (C91_exported), what is left out comes back (C91_roundtrip_partial), new entities hold and export defaults (C91_default_partial, C91_new_partial), energy interfaces (C91_energy), and what the 14 exceptions hold (C91_odd). False of the code: artillery wagons lose a setting, rocket silos gain a recipe, None is not kept, new cars export items, and energy interfaces unknown to the game data cannot be exported (exactly when: C91_energy_fails): the _refuted theorems. Not modelled: what is left out inside nested models."},
{"property": "C92", "status": "partial", "theorems": ["Draftsman.SchedList.C92_effect", "Draftsman.SchedList.C92_fault", "Draftsman.SchedList.C92_built", "Draftsman.SchedList.C92_only_partial", "Draftsman.SchedList.C92_pop", "Draftsman.SchedList.C92_index_refuted", "Draftsman.SchedList.C92_extend_refuted", "Draftsman.SchedList.C92_own_partial", "Draftsman.SchedList.C92_assigned", "Draftsman.SchedList.C92_shared_refuted", "Draftsman.SchedList.C92_none_refuted", "Draftsman.SchedList.C92_setup_refuted"], "note": "A list assigned to one index is stored as an element (C92_index_refuted); extend keeps what came before a bad value (C92_extend_refuted); a list assigned from another blueprint is shared (C92_shared_refuted), and cleared with it (C92_none_refuted); the constructor refuses a ScheduleList (C92_setup_refuted). The true part is proved for all calls."},
{"property": "C93", "status": "partial", "theorems": ["Draftsman.Rename.C93_refused", "Draftsman.Rename.C93_kept", "Draftsman.Rename.C93_plain_partial", "Draftsman.Rename.C93_fourway_partial", "Draftsman.Rename.C93_constructed", "Draftsman.Rename.C93_same_partial", "Draftsman.Rename.C93_self_partial", "Draftsman.Rename.C93_turn_partial", "Draftsman.Rename.C93_nobox", "Draftsman.Rename.C93_cache_refuted", "Draftsman.Rename.C93_diagonal_refuted", "Draftsman.Rename.C93_override_refuted", "Draftsman.Rename.C93_vehicle_refuted", "Draftsman.Rename.C93_self_refuted", "Draftsman.Rename.C93_turn_refuted"], "note": "True for entities that do not turn; four-way entities only if the new name was constructed before, the direction is one of the four and the data gives no footprint of its own. Turning afterwards goes back to the old footprint, vehicles keep their rectangle, and a wagon facing east moves when given its own name."},
{"property": "C94", "status": "partial", "theorems": ["Draftsman.Lifecycle.C94_balanced", "Draftsman.Lifecycle.C94_order", "Draftsman.Lifecycle.C94_once", "Draftsman.Lifecycle.C94_environment", "Draftsman.Lifecycle.C94_unloaded", "Draftsman.Lifecycle.C94_alone", "Draftsman.Lifecycle.C94_archive", "Draftsman.Lifecycle.C94_folder", "Draftsman.Lifecycle.C94_spelling", "Draftsman.Lifecycle.C94_own_partial", "Draftsman.Lifecycle.C94_dir_partial", "Draftsman.Lifecycle.C94_absolute_partial", "Draftsman.Lifecycle.C94_archive_module", "Draftsman.Lifecycle.C94_unknown", "Draftsman.Lifecycle.C94_effect", "Draftsman.Lifecycle.C94_types", "Draftsman.Lifecycle.C94_settings", "Draftsman.Lifecycle.C94_settings_ok", "Draftsman.Lifecycle.C94_archive_refuted", "Draftsman.Lifecycle.C94_suffix_refuted", "Draftsman.Lifecycle.C94_sound_refuted", "Draftsman.Lifecycle.C94_neighbour_refuted", "Draftsman.Lifecycle.C94_other_refuted", "Draftsman.Lifecycle.C94_twice_refuted", "Draftsman.Lifecycle.C94_nested_refuted", "Draftsman.Lifecycle.C94_base_refuted"], "note": "Order, once-only, environment, restoring and settings are proved in full. False and refuted: mods in archives (never loadable), names ending in \"lua\", modules in folders sound/graphics, modules beside a file, modules of another mod, one file under two spellings, a folder inside one of the same name, and __base__/__core__. The true parts about lookup are proved for the file of a stage."},
{"property": "C95", "status": "partial", "theorems": ["Draftsman.GameVersion.C95_unchanged", "Draftsman.GameVersion.C95_tags", "Draftsman.GameVersion.C95_chosen_partial", "Draftsman.GameVersion.C95_latest_partial", "Draftsman.GameVersion.C95_recorded", "Draftsman.GameVersion.C95_branch_refuted", "Draftsman.GameVersion.C95_latest_refuted", "Draftsman.GameVersion.C95_recorded_refuted"], "note": "Exactly when a version can be chosen and what is checked out is proved. False and refuted: it fails if no tag is checked out; \"latest\" drops a fourth number and may take another tag; versions with two numbers are recorded with two."},
{"property": "C96", "status": "partial", "theorems": ["Draftsman.RoundTrip.C96_again", "Draftsman.RoundTrip.C96_stable", "Draftsman.RoundTrip.C96_apart", "Draftsman.RoundTrip.C96_settles", "Draftsman.RoundTrip.C96_ids_refuted"], "note": "Loading always succeeds (C96_again); the second dictionary is the same if no two entities compare equal (C96_apart), exactly when references go to the first of equal entities (C96_stable), and from then on always (C96_settles). False of the code and refuted for entities that differ only in their ids, which are not exported."},
{"property": "C97", "status": "partial", "theorems": ["Draftsman.Warnings.C97_result", "Draftsman.Warnings.C97_warnings_partial", "Draftsman.Warnings.C97_lost", "Draftsman.Warnings.C97_lost_refuted"], "note": "Same result always, and no warning that would not be seen without decorators (C97_result); the same warnings if no decorated function raises (C97_warnings_partial). False of the code and refuted for functions that raise: their warnings are lost (C97_lost)."},
{"property": "C98", "status": "partial", "theorems": ["Draftsman.RailPlanner.C98_never", "Draftsman.RailPlanner.C98_type", "Draftsman.RailPlanner.C98_name", "Draftsman.RailPlanner.C98_rails", "Draftsman.RailPlanner.C98_made_refuted"], "note": "Other names are refused as claimed (C98_name). False of the code and refuted: the constructor raises always (C98_never), TypeError for a well-formed item (C98_type) and KeyError for the items of the shipped data, which have no straight_rail (C98_rails)."},
{"property": "C99", "status": "partial", "theorems": ["Draftsman.Stops.C99_condition", "Draftsman.Stops.C99_made", "Draftsman.Stops.C99_stops", "Draftsman.Stops.C99_again", "Draftsman.Stops.C99_settled", "Draftsman.Stops.C99_list", "Draftsman.Stops.C99_short", "Draftsman.Stops.C99_missing_export", "Draftsman.Stops.C99_ticks_refuted", "Draftsman.Stops.C99_comparison_refuted", "Draftsman.Stops.C99_missing_refuted", "Draftsman.Stops.C99_missing_export_refuted", "Draftsman.Stops.C99_caller_refuted"], "note": "Exactly which conditions come back (C99_condition, C99_made), whole schedules (C99_stops), the second dictionary (C99_again) and that it settles (C99_settled) are proved. False of the code and refuted: times set to None, default comparisons of kinds that do not compare, stops read without wait conditions, lists of dictionaries changed in place. What a comparison says is opaque."},
{"property": "C100", "status": "partial", "theorems": ["Draftsman.BpString.C100_loads", "Draftsman.BpString.C100_same", "Draftsman.BpString.C100_settles", "Draftsman.BpString.C100_arguments", "Draftsman.BpString.C100_refused", "Draftsman.BpString.C100_typeError", "Draftsman.BpString.C100_same_refuted", "Draftsman.BpString.C100_version_refuted", "Draftsman.BpString.C100_unknown_refuted", "Draftsman.BpString.C100_documented_refuted"], "note": "True for blueprints no two entities of which compare equal, that have a version and no unknown keys (C100_same), and from the second export on for all (C100_settles); false otherwise (C100_same_refuted, C100_version_refuted, C100_unknown_refuted), and the documented errors are not the only ones (C100_typeError, C100_documented_refuted). Assumed: zlib decompresses what it compressed, floats are read as written, coordinates, tile names, schedules and attributes are read as written (Legible, Sane). Entries of an entity besides number and position and the values of attributes (label, colour, description, icons, version, stock connections) are opaque JSON here; whether they come back as attributes is C91 and C51."},
{"property": "C101", "status": "partial", "theorems": ["Draftsman.BookString.C101_attributes", "Draftsman.BookString.C101_loads", "Draftsman.BookString.C101_same", "Draftsman.BookString.C101_settles", "Draftsman.BookString.C101_class", "Draftsman.BookString.C101_kind_refuted"], "note": "True when no unknown keys are there, no attribute is missing that gets a value when loading (the version) and the dictionaries of the blueprints are stable (C101_same), and from the second export on for all (C101_settles); unknown keys are lost (C101_loads) and may even change the class (C101_kind_refuted). Assumed: zlib decompresses what it compressed, floats, coordinates, tile names, schedules and attributes are read as written (Good). The values of attributes, among them the settings of planners, are opaque JSON here. Books that contain themselves are left out."},
{"property": "C102", "status": "partial", "theorems": ["Draftsman.Nested.C102_back_partial", "Draftsman.Nested.C102_fails", "Draftsman.Nested.C102_kept", "Draftsman.Nested.C102_again", "Draftsman.Nested.C102_names", "Draftsman.Nested.C102_control", "Draftsman.Nested.C102_empty", "Draftsman.Nested.C102_required", "Draftsman.Nested.C102_short", "Draftsman.Nested.C102_twice_refuted", "Draftsman.Nested.C102_signal_refuted", "Draftsman.Nested.C102_filter_refuted", "Draftsman.Nested.C102_hidden_refuted", "Draftsman.Nested.C102_keys_refuted", "Draftsman.Nested.C102_none_refuted"], "note": "Exactly which values come back (C102_back_partial), which cannot be read (C102_fails), that every setting with a value is kept (C102_kept), that the second time changes nothing (C102_again), and that deleting an empty control behavior is harmless (C102_control, C102_empty) are proved for all models of the table. False of the code and refuted: None where the default is another value (among them the type of signals set without one), filters without index, excluded names of instruments and notes, unknown keys of four control behaviors. Values that are no models are opaque."},
{"property": "C103", "status": "partial", "theorems": ["Draftsman.Mappers.C103_set_partial", "Draftsman.Mappers.C103_remove_partial", "Draftsman.Mappers.C103_unknown", "Draftsman.Mappers.C103_model", "Draftsman.Mappers.C103_failed", "Draftsman.Mappers.C103_back_partial", "Draftsman.Mappers.C103_back_first", "Draftsman.Mappers.C103_assign", "Draftsman.Mappers.C103_one", "Draftsman.Mappers.C103_forms", "Draftsman.Mappers.C103_pairs", "Draftsman.Mappers.C103_reset", "Draftsman.Mappers.C103_none", "Draftsman.Mappers.C103_quiet", "Draftsman.Mappers.C103_model_refuted", "Draftsman.Mappers.C103_removed_refuted", "Draftsman.Mappers.C103_unchanged_refuted"], "note": "Proved for names, dictionaries and None (set, remove, unknown names, removal in any other form) and for all forms in the attribute (C103_assign, C103_forms, C103_pairs, C103_reset). False of the code: a MapperID given to the methods is a TypeError (C103_model_refuted), assigned mappings are models and cannot be removed by remove_mapping (C103_removed_refuted), and a check that raises leaves the assigned mappers in place (C103_unchanged_refuted). Not modelled: assignment in mode NONE with values that fail."},
{"property": "C104", "status": "partial", "theorems": ["Draftsman.Json.C104_decode", "Draftsman.Json.C104_bytes", "Draftsman.Json.C104_string", "Draftsman.Json.C104_foreign", "Draftsman.Json.C104_written", "Draftsman.JsonStr.C104_surrogate_refuted", "Draftsman.Json.C104_text", "Draftsman.Json.C104_unique"], "note": "false as stated: bytes that UTF-8 would have for surrogates are no text and are read all the same (refuted in the model with all code points); otherwise proved for texts without lone surrogates and without Python's limits on digits of integers and on nesting; zlib and the value of floats are parameters"},
{"property": "C105", "status": "partial", "theorems": ["Draftsman.Decider.C105_stored", "Draftsman.Decider.C105_added", "Draftsman.Decider.C105_failed", "Draftsman.Decider.C105_dictionaries_partial", "Draftsman.Decider.C105_made", "Draftsman.Decider.C105_made_refuted", "Draftsman.Decider.C105_single_refuted", "Draftsman.Decider.C105_before", "Draftsman.Decider.C105_before_refuted", "Draftsman.Decider.C105_copy", "Draftsman.Decider.C105_copy_shared", "Draftsman.Decider.C105_copy_equal", "Draftsman.Decider.C105_equal_refuted"], "note": "Proved: a list is always stored, `|=` and `&=` with a condition append it and change nothing but its compare type, failures change nothing, dictionaries are written as given, copies have the same content and share nothing. The rest is false of the code and refuted: conditions and outputs made with the operators cannot be written into a blueprint string (`TypeError`), one comparison alone cannot be assigned, a condition cannot be put before dictionaries, and a copy with such conditions does not equal the original."},
{"property": "C106", "status": "partial", "theorems": ["Draftsman.DataAttr.C106_value", "Draftsman.DataAttr.C106_unknown", "Draftsman.DataAttr.C106_missing", "Draftsman.DataAttr.C106_total", "Draftsman.DataAttr.C106_slots", "Draftsman.DataAttr.C106_refuted"], "note": "Proved for all data, names and attributes: the data's value is given; for unknown names 20 attributes are None and the other four fail; for missing keys the default is given or, for those without a default, the attribute fails; exactly twelve attributes never fail. That none fails is false and refuted. Attributes that are computed further from the data (energy of electric energy interfaces, for instance) are not in the list."},
{"property": "C107", "status": "partial", "theorems": ["Draftsman.BookList.C107_effect", "Draftsman.BookList.C107_fault", "Draftsman.BookList.C107_built", "Draftsman.BookList.C107_only", "Draftsman.BookList.C107_pop", "Draftsman.BookList.C107_own_partial", "Draftsman.BookList.C107_assigned", "Draftsman.BookList.C107_slice_refuted", "Draftsman.BookList.C107_extend_refuted", "Draftsman.BookList.C107_dict_refuted", "Draftsman.BookList.C107_shared_refuted"], "note": "Proved for all lists and calls: what each call that succeeds leaves, which calls raise what, that only `extend` changes anything when it raises, that nothing but blueprintables is ever in a list, what is made of dictionaries (the first of the four keys decides) and in which order, what assigning and constructing show, and that books with list objects of their own do not see each other's changes. False of the code and refuted: slices can be assigned (always an exception), `extend` changes nothing when it raises, dictionaries can be appended, and books do not share lists (assigning the list of another book shares it). Reading, `index` and `count` are those of Python lists and are not modelled."},
{"property": "C108", "status": "partial", "theorems": ["Draftsman.InPlace.C108_position", "Draftsman.InPlace.C108_tile", "Draftsman.InPlace.C108_agree_partial", "Draftsman.InPlace.C108_groups_partial", "Draftsman.InPlace.C108_fraction_refuted", "Draftsman.InPlace.C108_held_refuted", "Draftsman.InPlace.C108_copy_refuted", "Draftsman.InPlace.C108_gone_refuted", "Draftsman.InPlace.C108_index_refuted", "Draftsman.InPlace.C108_shared_refuted"], "note": "Exactly what assigning a coordinate does after any history is proved (C108_position, C108_tile), agreement for entities that are no copies (C108_agree_partial), and groups given coordinates (C108_groups_partial). False of the code and refuted: copies bring the tile position of the original along instead of their own (C108_copy_refuted), fail if the original is gone (C108_gone_refuted), entities in collections can be moved (C108_held_refuted), fractions make the two disagree (C108_fraction_refuted), indices do not bring anything along (C108_index_refuted), groups share vectors (C108_shared_refuted). Values other than numbers and changes of the footprint are not modelled here."},
{"property": "C109", "status": "partial", "theorems": ["Draftsman.MergeShare.C109_independent_partial", "Draftsman.MergeShare.C109_contents", "Draftsman.MergeShare.C109_classes", "Draftsman.MergeShare.C109_belts_refuted", "Draftsman.MergeShare.C109_unvalidated_refuted", "Draftsman.MergeShare.C109_extra_refuted"], "note": "Proved for validated merges of data made up of the declared lists and models (C109_independent_partial: nothing in common, the other entity unchanged, later changes do not show); contents in all modes (C109_contents). Refuted: without validation the control behavior is the same object for every class that has one; transport belts and three logistic containers share it in all modes (C109_classes is exact for new entities); extra keys are shared."},
{"property": "C110", "status": "partial", "theorems": ["Draftsman.ModTable.C110_short_partial", "Draftsman.ModTable.C110_long_partial", "Draftsman.ModTable.C110_loaded", "Draftsman.ModTable.C110_loaded_long", "Draftsman.ModTable.C110_printed", "Draftsman.ModTable.C110_empty_refuted", "Draftsman.ModTable.C110_wide_refuted"], "note": "Both tables are described line by line, and the versions marked are those that will be loaded. The columns are not aligned if a mod of several versions has a name of more than fifty characters (`C110_wide_refuted`), and nothing is printed if there is no mod (`C110_empty_refuted`)."},
{"property": "C111", "status": "partial", "theorems": ["Draftsman.Command.C111_reports", "Draftsman.Command.C111_enable", "Draftsman.Command.C111_choose", "Draftsman.Command.C111_updated", "Draftsman.Command.C111_failed", "Draftsman.Command.C111_succeeds_partial", "Draftsman.Command.C111_again", "Draftsman.Command.C111_history", "Draftsman.Command.C111_newer_refuted", "Draftsman.Command.C111_mixed_refuted"], "note": "Proved for all sequences of commands. False is that an update succeeds if what is checked out is sound: mods are compared with the version recorded before (`C111_newer_refuted`); and that a failed update changes nothing (`C111_mixed_refuted`, `C111_failed` says what it may have changed)."},
{"property": "C112", "status": "partial", "theorems": ["Draftsman.EnvUpdate.C112_archive_name", "Draftsman.EnvUpdate.C112_archive_read", "Draftsman.EnvUpdate.C112_folder_name", "Draftsman.EnvUpdate.C112_replaces", "Draftsman.EnvUpdate.C112_stages", "Draftsman.EnvUpdate.C112_runs", "Draftsman.EnvUpdate.C112_before", "Draftsman.EnvUpdate.C112_versions", "Draftsman.EnvUpdate.C112_loads_partial", "Draftsman.EnvUpdate.C112_file_fails", "Draftsman.EnvUpdate.C112_files_refuted", "Draftsman.EnvUpdate.C112_archive_refuted", "Draftsman.EnvUpdate.C112_disabled_refuted", "Draftsman.EnvUpdate.C112_once_refuted", "Draftsman.EnvUpdate.C112_noMods_refuted"], "note": "Proved for disks on which everything to be loaded is a folder called as its mod: when the update succeeds (C112_loads_partial), what runs, in which order and which versions are recorded (C112_runs, C112_before, C112_versions); for all disks the order of the stages and that any regular file in the folder of mods makes it fail. Refuted: other files do not matter, archives work as folders, mods switched off are not loaded, one version of each mod is loaded, and no_mods keeps the mods of the game."},
{"property": "C113", "status": "partial", "theorems": ["Draftsman.SavedSettings.C113_new_partial", "Draftsman.SavedSettings.C113_noFile", "Draftsman.SavedSettings.C113_old_partial", "Draftsman.SavedSettings.C113_int_refuted", "Draftsman.SavedSettings.C113_type_refuted", "Draftsman.SavedSettings.C113_unreadable", "Draftsman.SavedSettings.C113_noValue"], "note": "Proved for both versions of the update and all files of trees that can be read (C50), for the older version without integers. Refuted: the older version leaves a setting with a saved integer without any value; a file with an unknown type of settings makes the update fail."},
{"property": "C114", "status": "partial", "theorems": ["Draftsman.FloatPos.C114_nearest", "Draftsman.FloatPos.C114_moves_partial", "Draftsman.FloatPos.C114_back_partial", "Draftsman.FloatPos.C114_global_partial", "Draftsman.FloatPos.C114_back_refuted", "Draftsman.FloatPos.C114_far_refuted"], "note": "False as it stands off the grid of 1/256 tile and beyond 2^45 tiles (both refuted); proved for all sequences of calls on the grid within that range. Exponents are unbounded in the model (no infinities, NaN or subnormals) and the two zeros are one; collision boxes, distances and orientations are not covered."},
{"property": "C115", "status": "partial", "theorems": ["Draftsman.JsonStr.C115_units_partial", "Draftsman.JsonStr.C115_back_partial", "Draftsman.JsonStr.C115_distinct_partial", "Draftsman.JsonStr.C115_pair_refuted", "Draftsman.JsonStr.C115_keys_refuted", "Draftsman.JsonStr.C115_after", "Draftsman.JsonStr.C115_control", "Draftsman.JsonStr.C115_error", "Draftsman.JsonStr.C115_agree"], "note": "False for texts in which a first surrogate stands directly before a second one: they are read as one character, and two different keys can be written alike (both proved). For all other texts, also those with surrogates that stand alone, proved. zlib is a parameter; the text is a document of its own."},
{"property": "C116", "status": "partial", "theorems": ["Draftsman.NestedList.C116_contains", "Draftsman.NestedList.C116_root_first", "Draftsman.NestedList.C116_group_next", "Draftsman.NestedList.C116_refuses", "Draftsman.NestedList.C116_removes_partial", "Draftsman.NestedList.C116_deep_refuted", "Draftsman.NestedList.C116_equal_refuted", "Draftsman.NestedList.C116_path", "Draftsman.NestedList.C116_single_refuted", "Draftsman.NestedList.C116_path_error"], "note": "Proved: `in` sees every depth (C116_contains); which member recursive_remove takes, and that it fails without effect exactly if neither the list nor one of its groups directly holds a match (C116_root_first, C116_group_next, C116_refuses); with one level of groups, what is in can be removed (C116_removes_partial); paths of two and more steps (C116_path). False of the code and refuted: two groups down the removal fails (C116_deep_refuted), of equal entities the first goes rather than the one given (C116_equal_refuted), a path of one step always fails (C116_single_refuted)."},
{"property": "C117", "status": "partial", "theorems": ["Draftsman.C117_pop", "Draftsman.C117_pop_outside", "Draftsman.C117_pop_id", "Draftsman.C117_remove", "Draftsman.C117_reverse_partial", "Draftsman.C117_reverse_stops", "Draftsman.C117_extend_self_partial", "Draftsman.C117_extend_self_endless", "Draftsman.C117_front_legal", "Draftsman.C117_back_legal", "Draftsman.C117_reverse_refuted", "Draftsman.C117_reverse_failed_refuted", "Draftsman.C117_endless_refuted"], "note": "False of the code for reverse on a list with an id in its back half (DuplicateIDError, list left half turned) and for a list extended by itself (endless without ids); pop and remove hold as claimed, and what reverse and extend do in all cases is proved."},
{"property": "C118", "status": "partial", "theorems": ["Draftsman.SetEntities.C118_blueprint", "Draftsman.SetEntities.C118_blueprint_refuses", "Draftsman.SetEntities.C118_group", "Draftsman.SetEntities.C118_source_partial", "Draftsman.SetEntities.C118_spent", "Draftsman.SetEntities.C118_dicts_refuted", "Draftsman.SetEntities.C118_wires_refuted", "Draftsman.SetEntities.C118_former_refuted"], "note": "False of the code for the dictionaries assigned (their names are taken out), for the wires (not carried over, so that assigning a blueprint its own list leaves wires between former members) and for former members (the parent is kept, and renaming one disturbs the new list); the rest is proved for all values."},
{"property": "C119", "status": "partial", "theorems": ["Draftsman.BpVersion.C119_parts", "Draftsman.BpVersion.C119_number", "Draftsman.BpVersion.C119_refuses", "Draftsman.BpVersion.C119_history", "Draftsman.BpVersion.C119_none", "Draftsman.BpVersion.C119_wide_refuted", "Draftsman.BpVersion.C119_none_refuted", "Draftsman.BpVersion.C119_text_refuted", "Draftsman.BpVersion.C119_unchecked_refuted"], "note": "False of the code for later parts above 65535 (accepted, they run into the parts before), for None (reading the parts then fails), for texts of digits (taken as the packed number) and without validation; the rest is proved for all values and histories."},
{"property": "C120", "status": "partial", "theorems": ["Draftsman.Grid.C120_bound", "Draftsman.Grid.C120_warned", "Draftsman.Grid.C120_translate", "Draftsman.Grid.C120_check_partial", "Draftsman.Grid.C120_group_refuted", "Draftsman.Grid.C120_cast_refuted"], "note": "False of the code for entities in groups that are placed off the grid (the check looks at the position within the group) and for the cast on export (nothing casts); the rest is proved for all nestings, and the check for all nestings with groups on the grid."},
{"property": "C121", "status": "partial", "theorems": ["Draftsman.InfPipe.C121_all", "Draftsman.InfPipe.C121_assign", "Draftsman.InfPipe.C121_history", "Draftsman.InfPipe.C121_stuck", "Draftsman.InfPipe.C121_swap", "Draftsman.InfPipe.C121_none", "Draftsman.InfPipe.C121_none_all", "Draftsman.InfPipe.C121_merge", "Draftsman.InfPipe.C121_typed", "Draftsman.InfPipe.C121_refused_refuted", "Draftsman.InfPipe.C121_minimum_refuted", "Draftsman.InfPipe.C121_error_refuted"], "note": "False of the code in three ways (C121_refused_refuted, C121_minimum_refuted, C121_error_refuted); proved: set_infinite_fluid is all or nothing, single assignments that succeed leave acceptable settings after any history, what works when a refused temperature stays behind, merging, and that fields keep their types in every mode but NONE."},
{"property": "C122", "status": "partial", "theorems": ["Draftsman.NestMap.C122_only_partial", "Draftsman.NestMap.C122_all_partial", "Draftsman.NestMap.C122_copy", "Draftsman.NestMap.C122_delete", "Draftsman.NestMap.C122_nested_refuted", "Draftsman.NestMap.C122_ghost_refuted", "Draftsman.NestMap.C122_translate_refuted", "Draftsman.NestMap.C122_turn", "Draftsman.NestMap.C122_translate", "Draftsman.NestMap.C122_move"], "note": "False of the code for groups that are already in the blueprint: what is appended to them is never found, what is deleted from them is still found, and translating them or the blueprint leaves the old cells in the map (C122_nested_refuted, C122_ghost_refuted, C122_translate_refuted). Proved for all histories that act on the blueprint itself and on groups standing alone, at any depth."},
{"property": "C123", "status": "partial", "theorems": ["Draftsman.BpAttr.C123_accepts_partial", "Draftsman.BpAttr.C123_readback", "Draftsman.BpAttr.C123_frame", "Draftsman.BpAttr.C123_refused", "Draftsman.BpAttr.C123_history_partial", "Draftsman.BpAttr.C123_books", "Draftsman.BpAttr.C123_others", "Draftsman.BpAttr.C123_unchecked_refuted", "Draftsman.BpAttr.C123_grid_refuted", "Draftsman.BpAttr.C123_settings_refuted", "Draftsman.BpAttr.C123_none"], "note": "True part: an assignment is accepted exactly if its value fits, then reads back as converted, changes nothing else, and after any program of assignments the last fitting one counts. False of the code: wires and stock connections are never validated, None does not remove the snapping grid, and an upgrade planner set up with settings=None takes no settings."},
{"property": "C124", "status": "partial", "theorems": ["Draftsman.WaitAttr.C124_validate", "Draftsman.WaitAttr.C124_make", "Draftsman.WaitAttr.C124_defaults", "Draftsman.WaitAttr.C124_accepts", "Draftsman.WaitAttr.C124_refused", "Draftsman.WaitAttr.C124_readback", "Draftsman.WaitAttr.C124_valid", "Draftsman.WaitAttr.C124_repaired", "Draftsman.WaitAttr.C124_history", "Draftsman.WaitAttr.C124_ticks_refuted", "Draftsman.WaitAttr.C124_converted_refuted"], "note": "The last sentence of the claim is false of the code: validate discards the converted values, so a value stored without validation stays as given (C124_converted_refuted), and the default of ticks is only set by the constructor (C124_ticks_refuted). The rest is proved for all validation functions whose results pass unchanged."},
{"property": "C125", "status": "partial", "theorems": ["Draftsman.OrientName.C125_float", "Draftsman.OrientName.C125_constants", "Draftsman.OrientName.C125_opposite", "Draftsman.OrientName.C125_sums", "Draftsman.OrientName.C125_never_wrong", "Draftsman.OrientName.C125_repr", "Draftsman.OrientName.C125_alike", "Draftsman.OrientName.C125_set", "Draftsman.OrientName.C125_sum_refuted", "Draftsman.OrientName.C125_again_refuted", "Draftsman.OrientName.C125_set_refuted"], "note": "Proved: no expression has a wrong name (C125_never_wrong), constants and opposites are named rightly, numbers and sums exactly if they stay within a turn or are no wind (C125_float, C125_sums), rightly named equal ones print alike. False of the code: the name is looked up before the number is reduced (C125_sum_refuted), an orientation made from another has none (C125_again_refuted), and hashes follow identity, so sets keep equal ones apart (C125_set, C125_set_refuted)."},
{"property": "C126", "status": "partial", "theorems": ["Draftsman.GroupAttr.C126_accepts", "Draftsman.GroupAttr.C126_readback", "Draftsman.GroupAttr.C126_refused_partial", "Draftsman.GroupAttr.C126_error", "Draftsman.GroupAttr.C126_history", "Draftsman.GroupAttr.C126_typed", "Draftsman.GroupAttr.C126_construct", "Draftsman.GroupAttr.C126_made", "Draftsman.GroupAttr.C126_wires_refuted", "Draftsman.GroupAttr.C126_schedules_refuted", "Draftsman.GroupAttr.C126_id_refuted"], "note": "False in three places, each proved as a refutation: a group made from a string without wires has no wires attribute at all, the constructor refuses the documented ScheduleList, and an id that the parent's list refuses is stored before the exception. C126_refused_partial is the claim for every attribute but the id; the rest is proved in full."},
{"property": "C127", "status": "partial", "theorems": ["Draftsman.BoxPoints.C127_corners", "Draftsman.BoxPoints.C127_bound", "Draftsman.BoxPoints.C127_rect_partial", "Draftsman.BoxPoints.C127_refines", "Draftsman.BoxPoints.C127_shape", "Draftsman.BoxPoints.C127_stay", "Draftsman.BoxPoints.C127_push", "Draftsman.BoxPoints.C127_moves_partial", "Draftsman.BoxPoints.C127_corners_refuted", "Draftsman.BoxPoints.C127_alias_refuted"], "note": "False in two places, each proved as a refutation: the bounding box of a box away from the origin keeps the points of the unmoved box, so that a rectangle on it is judged apart from it, and a turned box shares its position with the box it was made from, so that a collision set moves both. C127_corners says exactly for which programs corners agree, C127_push how far each box moves; C127_moves_partial is the claim for boxes that share no vector."},
{"property": "C128", "status": "partial", "theorems": ["Draftsman.AreaArg.C128_area", "Draftsman.AreaArg.C128_refused", "Draftsman.AreaArg.C128_found", "Draftsman.AreaArg.C128_raises", "Draftsman.AreaArg.C128_searches", "Draftsman.AreaArg.C128_all_partial", "Draftsman.AreaArg.C128_precedence", "Draftsman.AreaArg.C128_pair_refuted", "Draftsman.AreaArg.C128_all_refuted"], "note": "False in two places, each proved as a refutation: a pair of points, the documented type, is always refused, and find_entities without an area gives groups instead of the entities in them. C128_area says exactly what is read, C128_refused with which exceptions the rest is refused (a mapping without a key is a KeyError), C128_found what is found up to the thousandth of C13; C128_all_partial is the last part for collections without groups."},
{"property": "C129", "status": "partial", "theorems": ["Draftsman.VecArith.C129_componentwise", "Draftsman.VecArith.C129_zero", "Draftsman.VecArith.C129_refused_partial", "Draftsman.VecArith.C129_error", "Draftsman.VecArith.C129_short", "Draftsman.VecArith.C129_none", "Draftsman.VecArith.C129_undo", "Draftsman.VecArith.C129_comm", "Draftsman.VecArith.C129_eq", "Draftsman.VecArith.C129_abs", "Draftsman.VecArith.C129_round", "Draftsman.VecArith.C129_refused_refuted", "Draftsman.VecArith.C129_error_refuted"], "note": "True for every operand that is a number, or has numbers at 0 and 1; everything else is refused unless whole numbers are multiplied. False: a vector of whole numbers times a text or list gives a vector of texts or lists (C129_refused_refuted), and operands that are too short or have the keys x and y raise IndexError or KeyError instead of TypeError (C129_error_refuted)."}
]}
