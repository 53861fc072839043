{
"C09": {"status": "partial", "note": "Exact for freshly built shapes. Refuted for rolling stock: the orientation setter turns the rectangle without recomputing its normals, so separate wagons can be reported as overlapping (C09_wagon_overlap_refuted); reported disjointness stays sound."},
"C10": {"status": "partial", "note": "Refuted: the if/elif scan never tries the first corner as maximum. C10_covers_iff characterises exactly the angles for which the box is right; C10_exact_partial gives the claim there."},
"C100": {"status": "partial", "note": "True for blueprints no two entities of which compare equal, that have a version and no unknown keys (C100_same), and from the second export on for all (C100_settles); false otherwise (C100_same_refuted, C100_version_refuted, C100_unknown_refuted), and the documented errors are not the only ones (C100_typeError, C100_documented_refuted). Assumed: zlib decompresses what it compressed, floats are read as written, coordinates, tile names, schedules and attributes are read as written (Legible, Sane). Entries of an entity besides number and position and the values of attributes (label, colour, description, icons, version, stock connections) are opaque JSON here; whether they come back as attributes is C91 and C51."},
"C101": {"status": "partial", "note": "True when no unknown keys are there, no attribute is missing that gets a value when loading (the version) and the dictionaries of the blueprints are stable (C101_same), and from the second export on for all (C101_settles); unknown keys are lost (C101_loads) and may even change the class (C101_kind_refuted). Assumed: zlib decompresses what it compressed, floats, coordinates, tile names, schedules and attributes are read as written (Good). The values of attributes, among them the settings of planners, are opaque JSON here. Books that contain themselves are left out."},
"C102": {"status": "partial", "note": "Exactly which values come back (C102_back_partial), which cannot be read (C102_fails), that every setting with a value is kept (C102_kept), that the second time changes nothing (C102_again), and that deleting an empty control behavior is harmless (C102_control, C102_empty) are proved for all models of the table. False of the code and refuted: None where the default is another value (among them the type of signals set without one), filters without index, excluded names of instruments and notes, unknown keys of four control behaviors. Values that are no models are opaque."},
"C103": {"status": "partial", "note": "Proved for names, dictionaries and None (set, remove, unknown names, removal in any other form) and for all forms in the attribute (C103_assign, C103_forms, C103_pairs, C103_reset). False of the code: a MapperID given to the methods is a TypeError (C103_model_refuted), assigned mappings are models and cannot be removed by remove_mapping (C103_removed_refuted), and a check that raises leaves the assigned mappers in place (C103_unchanged_refuted). Not modelled: assignment in mode NONE with values that fail."},
"C104": {"status": "partial", "note": "false as stated: bytes that UTF-8 would have for surrogates are no text and are read all the same (refuted in the model with all code points); otherwise proved for texts without lone surrogates and without Python's limits on digits of integers and on nesting; zlib and the value of floats are parameters"},
"C105": {"status": "partial", "note": "Proved: a list is always stored, `|=` and `&=` with a condition append it and change nothing but its compare type, failures change nothing, dictionaries are written as given, copies have the same content and share nothing. The rest is false of the code and refuted: conditions and outputs made with the operators cannot be written into a blueprint string (`TypeError`), one comparison alone cannot be assigned, a condition cannot be put before dictionaries, and a copy with such conditions does not equal the original."},
"C106": {"status": "partial", "note": "Proved for all data, names and attributes: the data's value is given; for unknown names 20 attributes are None and the other four fail; for missing keys the default is given or, for those without a default, the attribute fails; exactly twelve attributes never fail. That none fails is false and refuted. Attributes that are computed further from the data (energy of electric energy interfaces, for instance) are not in the list."},
"C107": {"status": "partial", "note": "Proved for all lists and calls: what each call that succeeds leaves, which calls raise what, that only `extend` changes anything when it raises, that nothing but blueprintables is ever in a list, what is made of dictionaries (the first of the four keys decides) and in which order, what assigning and constructing show, and that books with list objects of their own do not see each other's changes. False of the code and refuted: slices can be assigned (always an exception), `extend` changes nothing when it raises, dictionaries can be appended, and books do not share lists (assigning the list of another book shares it). Reading, `index` and `count` are those of Python lists and are not modelled."},
"C108": {"status": "partial", "note": "Exactly what assigning a coordinate does after any history is proved (C108_position, C108_tile), agreement for entities that are no copies (C108_agree_partial), and groups given coordinates (C108_groups_partial). False of the code and refuted: copies bring the tile position of the original along instead of their own (C108_copy_refuted), fail if the original is gone (C108_gone_refuted), entities in collections can be moved (C108_held_refuted), fractions make the two disagree (C108_fraction_refuted), indices do not bring anything along (C108_index_refuted), groups share vectors (C108_shared_refuted). Values other than numbers and changes of the footprint are not modelled here."},
"C109": {"status": "partial", "note": "Proved for validated merges of data made up of the declared lists and models (C109_independent_partial: nothing in common, the other entity unchanged, later changes do not show); contents in all modes (C109_contents). Refuted: without validation the control behavior is the same object for every class that has one; transport belts and three logistic containers share it in all modes (C109_classes is exact for new entities); extra keys are shared."},
"C11": {"status": "partial", "note": "The check itself is proved exact for all conditions and tables. That an entity or recipe is judged by the values of the planet is false of the code and refuted: `get_surface_properties` looks for them in the prototype instead of its `surface_properties`, so that with the planets of the game the defaults count everywhere (`C11_planets`)."},
"C110": {"status": "partial", "note": "Both tables are described line by line, and the versions marked are those that will be loaded. The columns are not aligned if a mod of several versions has a name of more than fifty characters (`C110_wide_refuted`), and nothing is printed if there is no mod (`C110_empty_refuted`)."},
"C111": {"status": "partial", "note": "Proved for all sequences of commands. False is that an update succeeds if what is checked out is sound: mods are compared with the version recorded before (`C111_newer_refuted`); and that a failed update changes nothing (`C111_mixed_refuted`, `C111_failed` says what it may have changed)."},
"C112": {"status": "partial", "note": "Proved for disks on which everything to be loaded is a folder called as its mod: when the update succeeds (C112_loads_partial), what runs, in which order and which versions are recorded (C112_runs, C112_before, C112_versions); for all disks the order of the stages and that any regular file in the folder of mods makes it fail. Refuted: other files do not matter, archives work as folders, mods switched off are not loaded, one version of each mod is loaded, and no_mods keeps the mods of the game."},
"C113": {"status": "partial", "note": "Proved for both versions of the update and all files of trees that can be read (C50), for the older version without integers. Refuted: the older version leaves a setting with a saved integer without any value; a file with an unknown type of settings makes the update fail."},
"C114": {"status": "partial", "note": "False as it stands off the grid of 1/256 tile and beyond 2^45 tiles (both refuted); proved for all sequences of calls on the grid within that range. Exponents are unbounded in the model (no infinities, NaN or subnormals) and the two zeros are one; collision boxes, distances and orientations are not covered."},
"C115": {"status": "partial", "note": "False for texts in which a first surrogate stands directly before a second one: they are read as one character, and two different keys can be written alike (both proved). For all other texts, also those with surrogates that stand alone, proved. zlib is a parameter; the text is a document of its own."},
"C116": {"status": "partial", "note": "Proved: `in` sees every depth (C116_contains); which member recursive_remove takes, and that it fails without effect exactly if neither the list nor one of its groups directly holds a match (C116_root_first, C116_group_next, C116_refuses); with one level of groups, what is in can be removed (C116_removes_partial); paths of two and more steps (C116_path). False of the code and refuted: two groups down the removal fails (C116_deep_refuted), of equal entities the first goes rather than the one given (C116_equal_refuted), a path of one step always fails (C116_single_refuted)."},
"C117": {"status": "partial", "note": "False of the code for reverse on a list with an id in its back half (DuplicateIDError, list left half turned) and for a list extended by itself (endless without ids); pop and remove hold as claimed, and what reverse and extend do in all cases is proved."},
"C118": {"status": "partial", "note": "False of the code for the dictionaries assigned (their names are taken out), for the wires (not carried over, so that assigning a blueprint its own list leaves wires between former members) and for former members (the parent is kept, and renaming one disturbs the new list); the rest is proved for all values."},
"C119": {"status": "partial", "note": "False of the code for later parts above 65535 (accepted, they run into the parts before), for None (reading the parts then fails), for texts of digits (taken as the packed number) and without validation; the rest is proved for all values and histories."},
"C120": {"status": "partial", "note": "False of the code for entities in groups that are placed off the grid (the check looks at the position within the group) and for the cast on export (nothing casts); the rest is proved for all nestings, and the check for all nestings with groups on the grid."},
"C121": {"status": "partial", "note": "False of the code in three ways (C121_refused_refuted, C121_minimum_refuted, C121_error_refuted); proved: set_infinite_fluid is all or nothing, single assignments that succeed leave acceptable settings after any history, what works when a refused temperature stays behind, merging, and that fields keep their types in every mode but NONE."},
"C122": {"status": "partial", "note": "False of the code for groups that are already in the blueprint: what is appended to them is never found, what is deleted from them is still found, and translating them or the blueprint leaves the old cells in the map (C122_nested_refuted, C122_ghost_refuted, C122_translate_refuted). Proved for all histories that act on the blueprint itself and on groups standing alone, at any depth."},
"C123": {"status": "partial", "note": "True part: an assignment is accepted exactly if its value fits, then reads back as converted, changes nothing else, and after any program of assignments the last fitting one counts. False of the code: wires and stock connections are never validated, None does not remove the snapping grid, and an upgrade planner set up with settings=None takes no settings."},
"C124": {"status": "partial", "note": "The last sentence of the claim is false of the code: validate discards the converted values, so a value stored without validation stays as given (C124_converted_refuted), and the default of ticks is only set by the constructor (C124_ticks_refuted). The rest is proved for all validation functions whose results pass unchanged."},
"C125": {"status": "partial", "note": "Proved: no expression has a wrong name (C125_never_wrong), constants and opposites are named rightly, numbers and sums exactly if they stay within a turn or are no wind (C125_float, C125_sums), rightly named equal ones print alike. False of the code: the name is looked up before the number is reduced (C125_sum_refuted), an orientation made from another has none (C125_again_refuted), and hashes follow identity, so sets keep equal ones apart (C125_set, C125_set_refuted)."},
"C126": {"status": "partial", "note": "False in three places, each proved as a refutation: a group made from a string without wires has no wires attribute at all, the constructor refuses the documented ScheduleList, and an id that the parent's list refuses is stored before the exception. C126_refused_partial is the claim for every attribute but the id; the rest is proved in full."},
"C127": {"status": "partial", "note": "False in two places, each proved as a refutation: the bounding box of a box away from the origin keeps the points of the unmoved box, so that a rectangle on it is judged apart from it, and a turned box shares its position with the box it was made from, so that a collision set moves both. C127_corners says exactly for which programs corners agree, C127_push how far each box moves; C127_moves_partial is the claim for boxes that share no vector."},
"C128": {"status": "partial", "note": "False in two places, each proved as a refutation: a pair of points, the documented type, is always refused, and find_entities without an area gives groups instead of the entities in them. C128_area says exactly what is read, C128_refused with which exceptions the rest is refused (a mapping without a key is a KeyError), C128_found what is found up to the thousandth of C13; C128_all_partial is the last part for collections without groups."},
"C129": {"status": "partial", "note": "True for every operand that is a number, or has numbers at 0 and 1; everything else is refused unless whole numbers are multiplied. False: a vector of whole numbers times a text or list gives a vector of texts or lists (C129_refused_refuted), and operands that are too short or have the keys x and y raise IndexError or KeyError instead of TypeError (C129_error_refuted)."},
"C13": {"status": "partial", "note": "Only-part proved; all-part proved for overlaps of at least 1/1000 and exactly on any grid of step >= 1/1000 (C13_exact_on_grid). Refuted for thinner overlaps across a cell boundary, areas with non-zero position, and members that compare equal."},
"C14": {"status": "partial", "note": "Only-part proved; all-part proved away from the right and bottom edges; a box ending at a cell boundary is never found on that edge (C14_edge_refuted)."},
"C15": {"status": "partial", "note": "Only-part, limit, and all-part for members lying in their own box proved; members without bounding box are never found (C15_refuted)."},
"C16": {"status": "partial", "note": "Proved for histories in which equal items are the same object; equal items with different boxes corrupt the index (C16_equal_refuted). Cells are those meeting the box shrunk by 1/1000 (exactly the covered ones on a grid: C16_cells_on_grid). Asked for everything the index names each member once per cell (C16_everything)."},
"C17": {"status": "partial", "note": "Proved over all histories of calls with non-negative positions, new objects, legal renames and slices not closely followed by a keyed member, or with any step if the keyed members left stand before them (C17_slices_partial); after any slice lookup by id is still right (C17_slice_lookup). Refuted for negative insert/set, long slices, slices with steps, the empty id, renaming deleted entities, groups reset to None."},
"C18": {"status": "partial", "note": "Insertion and replacement proved; renaming raises the error but does not leave the list as it was (refuted)."},
"C19": {"status": "partial", "note": "Intersection, difference and partition proved in full; union proved except that equal members within the right list are all kept (refuted) and entity unions may raise the duplicate-id error (characterised exactly)."},
"C20": {"status": "partial", "note": "C20_rejects, C20_effect, C20_rigid and C20_full_turn cover the claim for rotations that do not raise; C20_succeeds_iff says exactly when that is. Composition holds when all steps succeed (C20_compose_partial); refuted in general because direction + angle >= 16 raises (C20_compose_refuted), groups cannot be rotated (C20_group_refuted) and a failure leaves the collection half rotated (C20_halfway_refuted). Spatial map not part of this model."},
"C21": {"status": "partial", "note": "Mirror effect, half turn and conjugation proved for flips that do not raise; C21_succeeds_iff says exactly when that is. The involution is refuted: any member off the axis makes one of the two flips raise (C21_twice_refuted)."},
"C22": {"status": "proved", "note": "Positions, offsets, composition, inverse, zero and warning proved. Tile positions shift along for grid-aligned members (C22_tile), refuted for half-grid ones (C22_offgrid_refuted); the property statement does not mention tile positions."},
"C23": {"status": "partial", "note": "All laws proved for the sixteen winds (opposite vectors negate); the vectors of the eight odd winds are zero (C23_vector_length_refuted). LegacyDirection answers in the sixteen-wind enum: its opposite is not an involution (C23_legacy_opposite_refuted); modulo eight the numbers are right (C23_legacy_partial). Its vectors are those of other winds or missing, except for north (C23_legacy_vector_refuted)."},
"C24": {"status": "partial", "note": "Wrapping, addition, opposite proved, and the vectors of orientations (with real numbers for floats): length, sums turn, opposites negate, agreement with the vectors of directions. Round trip for the even winds, KeyError for odd ones (C24_direction_roundtrip_refuted). to_direction gives a nearest direction below 31/32 (7/8 for four directions) and raises ValueError above (C24_to_direction_refuted)."},
"C28": {"status": "partial", "note": "Proved for cardinal arguments; C28_footprint_iff gives the exact footprint for all arguments and shows the claim false for diagonals (C28_footprint_refuted), without validation (C28_none_refuted) and for eight-way entities (C28_eight_way_refuted)."},
"C29": {"status": "proved", "note": "Holds for structures in which every parent link agrees with containment, which append, insert and removal build. It fails for an object shared between two groups with copy=False (C29_shared_refuted), and a removed entity keeps its old parent (C29_removed_refuted)."},
"C30": {"status": "partial", "note": "Addition and removal are described exactly for every input, with the warnings about distance and sides (C30_warnings) and the entities that cannot be wired (C30_fails). The clause that adding does nothing if the connection exists is false (C30_add_again_refuted), so removal and add-then-remove only hold for connections present at most once (C30_remove_absent_refuted, C30_add_remove_refuted). Entities of unknown names raise a TypeError (C30_unknown_refuted)."},
"C32": {"status": "partial", "note": "Numbering and the error condition hold for every blueprint. References resolve when no two entities compare equal (C32_twins_refuted, C32_outside_twin_refuted otherwise); schedules of groups are not exported at all (C32_group_schedule_refuted), and a schedule without locomotives makes export fail with a KeyError (C32_unused_schedule_refuted)."},
"C33": {"status": "proved", "note": "super().to_dict is taken to yield both snap keys; other keys of the dictionary are not modelled."},
"C34": {"status": "partial", "note": "Nothing wrong is ever returned, inversion and limits are exact, without a region the answer is exact, and the single searches return what was placed first. With a region, members touching the edges are missed as in C13 to C15, and entities put into a positioned group are indexed in the wrong place (C34_group_index says where, C34_group_refuted); negative limits drop from the end."},
"C35": {"status": "partial", "note": "Exact for tiles on the grid, by circle, by integer area, or without region. A position without a radius is ignored instead of being searched (C35_position_refuted)."},
"C36": {"status": "partial", "note": "assignment, clearing, reuse, others untouched and histories proved for schedules without repeated locomotives; refuted: repeated locomotive survives, add_train_at_station duplicates an equal schedule, removal by equality takes a twin, failing removal leaves schedules"},
"C37": {"status": "partial", "note": "termination and exact membership proved with orientations compared as numbers, and as angles for compass orientations; refuted: a wagon near both bogies is listed twice, orientations either side of north are not matched"},
"C39": {"status": "partial", "note": "proved for expressions in which & stands above no | and each operator has a single condition on one side; refuted: (a | b) & c means a | (b & c), two combined lists cannot be combined, empty list fails, shared objects"},
"C40": {"status": "proved", "note": "for schedules that start without repeated locomotives; the constructor accepts repeated ones (C40_constructed_refuted)"},
"C41": {"status": "partial", "note": "Sorted with unique indices through every history, set and pop exact, removal exact for mappings stored by set_mapping. Removal at an index of a mapping with a blank side, and removal of imported mappings, always fail (C41_blank_refuted, C41_imported_refuted)."},
"C42": {"status": "partial", "note": "Silent exactly when no checked obstacle applies, and the reason given is the first that applies. Refuted where the function crashes (KeyError) and for the documented obstacle it does not check."},
"C43": {"status": "partial", "note": "Slot table through every history. Refuted: setting an empty slot to nothing always raises UnboundLocalError."},
"C44": {"status": "partial", "note": "Other slots and uniqueness always; exact on empty slots for set_item_filter. Refuted: replacing keeps the old quality and comparator, set_inventory_filter drops both, spelled-out comparators are rejected, clearing an empty slot raises UnboundLocalError."},
"C45": {"status": "partial", "note": "Set, read and uniqueness proved for every history of valid assignments. Refuted: setting to nothing always fails, and a section whose filters are None forgets what is set."},
"C46": {"status": "partial", "note": "==, !=, < and > (either way round) are proved to test the written relation; >= and <= are refuted: they test the opposite relation for all operands (C46_swapped_refuted)."},
"C47": {"status": "partial", "note": "Proved for expressions in which each condition object occurs once, & stands above no | and each operator has a single condition on one side; refuted for (a|b)&c, for two combined lists (TypeError), for reused condition objects, for lists changed by a later expression, and for an empty list on the right."},
"C48": {"status": "partial", "note": "Reading back and clearing the other representation proved for every setter and every sequence of setters; refuted: remove leaves the second operand 0, setting everything with no second operand makes it 0, a signal as second operand leaves the constant 0 stored beside it, and a control behaviour of None makes every access fail."},
"C49": {"status": "partial", "note": "Proved: a request for a free place with its slot given is stored and changes no other place; zero removes every request for the item and no other item's; histories of such requests in one inventory. Refuted: a second request for the same place adds a duplicate, a request for the next inventory overwrites the previous inventory's, zero removes other qualities and slots, the automatic slot can be taken, a second automatic slot fails, classes that start with a dictionary cannot request."},
"C50": {"status": "partial", "note": "Decoding proved for trees of any size without lists and unsigned numbers, up to the interpreter's recursion limit, for any trailing bytes. Refuted: lists and unsigned numbers always raise TypeError, encoding always raises struct.error, too deep trees raise RecursionError, a cut-off string is read as a shorter one. Proved: a file cut off anywhere is refused unless its last value is a text or nothing, as are a short header, a set header byte and unknown types."},
"C51": {"status": "partial", "note": "Proved: if discovery succeeds, versions are listed newest first by number, folders before archives of the same version, everything found is listed; it succeeds if versions are numeric and at most one mod lacks dependencies. Refuted: two mods without a dependencies key crash (shared default list changed in place); 1.0 and 1.0.0 count as different versions."},
"C52": {"status": "partial", "note": "Proved: on export with the usual options every member that carries no index gets its position in the list, members that carry one keep it, order is kept, an empty book exports no list, exporting again gives the same. Refuted: with both exclude flags off an unnumbered member is exported with index null; numbers need not be distinct; an index given to the constructor is overwritten."},
"C53": {"status": "partial", "note": "Proved: filters, turret priorities and icons given as lists are expanded so that the k-th plain name gets number k, full entries are kept, order and length are kept and expanding again changes nothing; unknown icon names are an error; sections expand tuples of a known name and a count. Refuted: sections do not expand plain names and are left half expanded on an error; numbers need not be distinct; icons given as a dictionary without a type are not expanded; turret priorities given as one text are split into letters."},
"C56": {"status": "partial", "note": "Proved for blueprints (collections at the origin): nothing moves, undergrounds and splitters are turned around and entry and exit swap, what fed a belt straight on or alone round a corner is fed by it afterwards, straight layouts are turned around entirely and restored by reversing twice, and it succeeds if no underground exit faces something without a direction. Refuted: two belts face to face are not turned; an underground exit facing a chest raises AttributeError; in a group away from the origin corners are not recognised; reversing twice does not restore arbitrary layouts."},
"C58": {"status": "partial", "note": "== and < compare wrapped values; >, <=, >= and != are inherited from float and compare the raw value. Consistent for orientations already wrapped (C58_consistent_partial), refuted otherwise (C58_refuted, C58_ne_refuted)."},
"C59": {"status": "partial", "note": "Proved: a signal is added under one of eight types, keeps the types it had, and lists and types agree after any sequence of additions; a new module is known with its data and listed once in its category; unknown categories are refused. Refuted: adding a signal or module again lists it twice (a module also stays in its old category); an existing module keeps its old effects; adding an existing category empties it."},
"C60": {"status": "partial", "note": "Proved: a group whose references (and those of groups in it) stay inside is copied completely, with wires and schedules joining the copies, and everything else unchanged; a reference that is dead or leaves the copied group makes the copy raise KeyError. Refuted: such references are not left out as documented (C60_dropped_refuted), and a wire from an inner group to the outer one works or not depending on the order of members (C60_order_refuted)."},
"C61": {"status": "partial", "note": "Proved: all contents are copied, the original is unchanged, and the unchanged copy exports the same dictionary (or raises the same exception). Refuted: the copy's own wires and schedules still join the original's entities, so export fails after an edit or once the original is gone, and the copy lacks attributes that assigning its label needs."},
"C62": {"status": "partial", "note": "Proved: the call succeeds without warnings, keeps all wires, and adds wires between exactly the pairs in reach (C62_joined_partial), one each way (C62_twice), for each pole the farthest first (C62_order). Refuted: a pair is joined twice, and again when joined before; the limit of five is not looked at; nearest-first is reversed (C62_order shows the opposite for all inputs)."},
"C63": {"status": "partial", "note": "The filter is characterised for queries that fit the trains (C63_filter_partial); the trains are the classes of coupled wagons (C63_trains) and disjoint where coupling is symmetric (C63_disjoint_partial). Refuted: turned wagons in two trains, errors for trains without locomotives and for heads just left of north, orientations beyond a turn, empty sets of names."},
"C64": {"status": "partial", "note": "Extraction and additions at the end (C64_extract_partial, C64_added_partial), other speakers (C64_others), refusals (C64_unknown, C64_id), instruments and notes given by name or number (C64_stored). Refuted: every insertion before the end (C64_insert_refuted, for all tables), notes called \"self\" (C64_self_refuted, C64_self_note_refuted), stale note numbers (C64_stale_refuted), equality of the same choice made by name and by number (C64_equal_refuted)."},
"C65": {"status": "partial", "note": "True when the entities are numbered 1, 2, 3, \u2026 in order and all numbers are positive (C65_references_partial); C65_outcome gives the exact condition for success for every dictionary. False of the code otherwise: references go by place in the list, number 0 is the last entity, names are taken out of the dictionary so that a second load fails, wire lists are shared, a group made from a string keeps its wires as numbers."},
"C66": {"status": "partial", "note": "True for new items, subgroups with their list given and new entities; unknown groups are refused without effect. False of the code for modified items, items and groups added with default lists, groups added again, subgroups named like an item, the order of modified fluids and entities added under another type; witnesses are proved."},
"C67": {"status": "partial", "note": "True for items whose entities are pairwise different in class, name, place or id, and for wires between entities directly in the same group. False of the code for equal entities in one group, wires of an outer group to entities of an inner one, entities with ids, and groups that are not at the origin; witnesses are proved. Attributes that particular classes merge are not modelled."},
"C68": {"status": "partial", "note": "agreement up to equality is proved for all histories of insertions, accepted replacements, deletions and clearings; agreement of objects and exact search when no two equal tiles are in the list; false with equal tiles, after a refused replacement, for lists without a parent; deleted tiles stay locked, copies of members cannot be placed elsewhere, dictionaries lose their names"},
"C69": {"status": "partial", "note": "proved exactly as the code understands a collision; false for gates across rails, rails facing opposite ways, members of one inserted group, merging, equal members, unknown names and the masks of game version 2.0"},
"C70": {"status": "partial", "note": "Proved: every selected mod is loaded once (`C70_all`), after its dependencies (`C70_before`), independently of the order found (`C70_listing`), exact condition for success (`C70_loads_partial`), selection of versions (`C70_select`). False of the code and refuted: that absent incompatible or optional mods are harmless, that mods needed without an order load, that shallower mods come first, that `=` may be used for a version, that versions with different numbers of parts compare as versions."},
"C71": {"status": "partial", "note": "Proved: every well-formed string is read as written wherever spaces are put (`C71_read`), and what is read stands in the string (`C71_sound`). False of the code and refuted: that names with spaces are read and that malformed strings are refused."},
"C72": {"status": "partial", "note": "Proved: exactly the mods named are set (`C72_enabled`, `C72_again`), entries are kept (`C72_entries`), unknown names are refused (`C72_unknown`), exact condition for success (`C72_works_partial`). False of the code and refuted: that `all` works, that mods not yet listed can be set, that all entries of a mod listed twice are set."},
"C73": {"status": "partial", "note": "Proved: the result has the same names, is sorted by rank, does not depend on the input order, and the exact condition for success. False of the code and refuted: that data accepted by `get_items` can be sorted, that an entity whose mined item is unknown falls back on itself, that objects without an order come last."},
"C74": {"status": "partial", "note": "Proved: arrays become lists, tables with string keys dictionaries, and nothing is lost of regular values. False of the code and refuted: for sparse integer keys, for empty tables and for arrays iterated out of order."},
"C75": {"status": "partial", "note": "Proved for distinct names: every item once (`C75_keys`, `C75_items`), sorted (`C75_sorted`), exact condition for success (`C75_works`), agreement with the general sort (`C75_agrees`). Refuted for items of the same name in two categories."},
"C76": {"status": "proved", "note": ""},
"C77": {"status": "partial", "note": "Proved for all classes and attributes outside the listed exceptions (lamp attributes, recipe, recipe quality, player description, fluids of infinity pipes, attributes missing on new entities), each of which is refuted. Validation is a parameter; circuit_enabled of active, passive and storage chests cannot be set (C77_sealed, C77_sealed_refuted), nor the sections of a constant combinator while validation is on (C77_sections_refuted)."},
"C78": {"status": "partial", "note": "Proved for all data for which the extraction succeeds, with an exact condition for that; refuted for types without blueprintable prototypes, missing boxes, empty masks, hidden entities, order, rails. The sort of the table by get_order is C73."},
"C79": {"status": "partial", "note": "Proved for all types outside two lists of four; those are refuted: never asked for, or classes without a base class."},
"C80": {"status": "partial", "note": "True for all keywords other than the root key and the private lists and for settings other than None. The rest is false and refuted: settings=None leaves the settings of a deconstruction planner as they were and makes those of an upgrade planner unreadable, unknown keywords survive later calls, unknown keys of the settings of a deconstruction planner vanish silently, the root key as a keyword replaces the object, a refused call leaves half of its assignments, and the index given to the constructor is lost."},
"C81": {"status": "partial", "note": "True of all attributes outside an explicit list, with an exact description of what is left alone. False and refuted: the quality and the listed attributes are not merged; equality ignores them; merging from an entity without the control behavior raises; a refused merge is half done; two classes are unhashable; equal entities have different hashes (hash by address). Sharing of objects between the entities after a merge is C109."},
"C82": {"status": "partial", "note": "Ingredients, recipe warnings for known assembling machines, module and fuel warnings, the fuel cache and the items allowed in drills and reactors are proved exactly; refuted for unknown recipes or machines with requests, rocket silos, furnaces, burner generators, abbreviated requests, the order of assignments, blacklisted modules, labs and containers, categories without fuels, and renamed drills."},
"C83": {"status": "partial", "note": "The types, lists, raw table, categories and orders are proved for all data; that item signals are items, that a name always gets the same type and that raw holds the item prototype are refuted"},
"C84": {"status": "partial", "note": "Proved for all classes and keywords but for asteroid collectors' chunk_filter and result_inventory, where it is false (C84_chunks_refuted, C84_dropped_refuted); sharing of defaults, unconstructible classes, dictionary defaults of items, silent names and keywords are refuted as well."},
"C85": {"status": "partial", "note": "The result is proved to be the concatenation of the reports of all parts for every nesting, the state afterwards and idempotence too. False of the code and refuted: schedules are never validated, a blueprint that is too large raises instead of being reported, and directions, tiles and blueprints are not coerced. What the pydantic formats say is arbitrary here (see C13-C20, C79-C82 for single formats)."},
"C86": {"status": "partial", "note": "Accepted values and their meaning are characterised exactly, as are the values that raise something other than a DataFormatError. False of the code and refuted: short sequences raise IndexError, dictionaries without coordinates KeyError, unhashable comparators TypeError; extra values and unknown wire colors are ignored; fractional tile positions are truncated as tuples but refused as vectors. How pydantic reads text and signals is arbitrary here."},
"C87": {"status": "partial", "note": "Proved for checked assignments; refuted: the documented AssertionError, wide links with validation off, emptying an empty slot raises, slot 0 is accepted, exporting an unknown interface raises KeyError, None comes back as default, section indices may collide."},
"C88": {"status": "partial", "note": "True of most checks, proved as equivalences for all values and modes. Refuted: virtual signals in constant combinators raise AttributeError, filter numbers below 1 pass, an unknown quality makes the bar check raise KeyError, volumes are reported with validation off, the note name \"self\" passes, instrument and note assigned together are checked against the old instrument, only the first forbidden signal is reported, one short mapper sequence leaves all mappers unconverted."},
"C89": {"status": "partial", "note": "Proved: what == looks at (C89_parts_partial), that it is an equivalence (C89_equivalence), when two loads of one dictionary are equal (C89_loaded), when a copy is equal (C89_copied), what equality says of the contents (C89_content_partial), shapes (C89_boxes, C89_shapes). False of the code: schedules with locomotives loaded twice, wires, groups in copies, the order of entities, rectangles: the _refuted theorems."},
"C90": {"status": "partial", "note": "Proved: reading and writing of fields under all their names (C90_field, C90_present), of other keys (C90_extra, C90_missing), of sections (C90_sections), and of conditions (C90_condition, C90_accepted, C90_removed), on all entities but those of C90_belt_refuted (C90_owner). False of the code: in and get for keys that are no fields, names of methods, the kind of error for missing keys and wrong conditions, sections, numerals given as texts, and transport belts and three kinds of chests, on which setting a condition fails after it was stored (C90_stored_refuted): the _refuted theorems. How pydantic reads and writes attributes and converts arguments is taken over as documented."},
"C91": {"status": "partial", "note": "Proved for all 83 classes: what is exported comes back (C91_exported), what is left out comes back (C91_roundtrip_partial), new entities hold and export defaults (C91_default_partial, C91_new_partial), energy interfaces (C91_energy), and what the 14 exceptions hold (C91_odd). False of the code: artillery wagons lose a setting, rocket silos gain a recipe, None is not kept, new cars export items, and energy interfaces unknown to the game data cannot be exported (exactly when: C91_energy_fails): the _refuted theorems. Not modelled: what is left out inside nested models."},
"C92": {"status": "partial", "note": "A list assigned to one index is stored as an element (C92_index_refuted); extend keeps what came before a bad value (C92_extend_refuted); a list assigned from another blueprint is shared (C92_shared_refuted), and cleared with it (C92_none_refuted); the constructor refuses a ScheduleList (C92_setup_refuted). The true part is proved for all calls."},
"C93": {"status": "partial", "note": "True for entities that do not turn; four-way entities only if the new name was constructed before, the direction is one of the four and the data gives no footprint of its own. Turning afterwards goes back to the old footprint, vehicles keep their rectangle, and a wagon facing east moves when given its own name."},
"C94": {"status": "partial", "note": "Order, once-only, environment, restoring and settings are proved in full. False and refuted: mods in archives (never loadable), names ending in \"lua\", modules in folders sound/graphics, modules beside a file, modules of another mod, one file under two spellings, a folder inside one of the same name, and __base__/__core__. The true parts about lookup are proved for the file of a stage."},
"C95": {"status": "partial", "note": "Exactly when a version can be chosen and what is checked out is proved. False and refuted: it fails if no tag is checked out; \"latest\" drops a fourth number and may take another tag; versions with two numbers are recorded with two."},
"C96": {"status": "partial", "note": "Loading always succeeds (C96_again); the second dictionary is the same if no two entities compare equal (C96_apart), exactly when references go to the first of equal entities (C96_stable), and from then on always (C96_settles). False of the code and refuted for entities that differ only in their ids, which are not exported."},
"C97": {"status": "partial", "note": "Same result always, and no warning that would not be seen without decorators (C97_result); the same warnings if no decorated function raises (C97_warnings_partial). False of the code and refuted for functions that raise: their warnings are lost (C97_lost)."},
"C98": {"status": "partial", "note": "Other names are refused as claimed (C98_name). False of the code and refuted: the constructor raises always (C98_never), TypeError for a well-formed item (C98_type) and KeyError for the items of the shipped data, which have no straight_rail (C98_rails)."},
"C99": {"status": "partial", "note": "Exactly which conditions come back (C99_condition, C99_made), whole schedules (C99_stops), the second dictionary (C99_again) and that it settles (C99_settled) are proved. False of the code and refuted: times set to None, default comparisons of kinds that do not compare, stops read without wait conditions, lists of dictionaries changed in place. What a comparison says is opaque."}
}
