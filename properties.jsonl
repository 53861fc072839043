{"id": "C01", "title": "Version numbers survive packing", "statement": "Packing a game version (major, minor, patch, dev) into one integer and unpacking it gives back the same four numbers whenever each lies in 0..65535; every 64-bit integer unpacks to a quadruple that packs back to it; and comparing two packed versions as integers orders them exactly as comparing the quadruples lexicographically.", "quantifier": "all quadruples of 16-bit numbers, all 64-bit integers, all pairs of versions", "why_tests_cant": "2^64 inputs; boundary carries between fields and ordering are statements about all pairs", "anchors": ["draftsman/utils.py:encode_version", "draftsman/utils.py:decode_version"]}
{"id": "C02", "title": "Version strings survive parsing", "statement": "Turning a version tuple into a dotted string and parsing the string returns the same tuple, for tuples of any length of non-negative integers (of any number of digits).", "quantifier": "all non-empty tuples of natural numbers", "why_tests_cant": "unbounded number of components and digits", "anchors": ["draftsman/utils.py:version_string_to_tuple", "draftsman/utils.py:version_tuple_to_string"]}
{"id": "C03", "title": "Blueprint strings decode to what was encoded, and bad ones fail one way", "statement": "For any JSON document, decoding the exported string returns an equal document; the first character of the string never influences the result; and any failure of base64, inflate or JSON parsing surfaces as the single malformed-string error, never as another exception or a partial value.", "quantifier": "all documents and all input strings, for every codec triple whose decoders invert its encoders", "why_tests_cant": "arbitrary document and arbitrary garbage strings; error totality is a statement about every input", "anchors": ["draftsman/utils.py:string_to_JSON", "draftsman/utils.py:JSON_to_string"]}
{"id": "C04", "title": "Axis-aligned overlap test is exact", "statement": "Two boxes are reported overlapping exactly when some point lies strictly inside both; the answer is symmetric, does not depend on how a box splits its place between `position` and corner offsets, and does not change when both are shifted by the same vector. The point-in-box test is exactly the closed-box membership.", "quantifier": "all pairs of boxes with positive extent, all points, all shifts", "why_tests_cant": "real-valued coordinates; touching edges and containment cases are measure-zero and easily missed", "anchors": ["draftsman/utils.py:aabb_overlaps_aabb", "draftsman/utils.py:point_in_aabb", "draftsman/utils.py:AABB"]}
{"id": "C05", "title": "Bounding boxes are exact joins", "statement": "Extending one bounding box by another gives the smallest box containing both; the blueprint's world bounding box is the smallest box containing every member's box, is absent exactly when there are no members with a box, and does not depend on insertion order.", "quantifier": "all finite sequences of boxes, all permutations", "why_tests_cant": "order independence and minimality range over all permutations and all enclosing boxes", "anchors": ["draftsman/utils.py:extend_aabb", "draftsman/classes/blueprint.py:Blueprint.get_world_bounding_box"]}
{"id": "C06", "title": "Reported dimensions cover the box tightly", "statement": "The reported integer width and height are the least integers at least as large as the box's real extents, an absent box has size (0, 0), and moving the box does not change them.", "quantifier": "all boxes with rational corners", "why_tests_cant": "ceil boundary behaviour for every rational extent", "anchors": ["draftsman/utils.py:aabb_to_dimensions", "draftsman/classes/blueprint.py:Blueprint.get_dimensions"]}
{"id": "C07", "title": "Quarter-turn rotation of boxes is exact", "statement": "Rotating a box by a quarter-turn amount gives exactly the image of the box's points under that rotation, the result is again a properly ordered box, rotations compose additively, a full turn is the identity, and any amount that is not a whole number of quarter turns is rejected.", "quantifier": "all boxes, all integer rotation amounts", "why_tests_cant": "set equality over a continuum of points for every amount", "anchors": ["draftsman/utils.py:AABB.rotate", "draftsman/classes/collision_set.py:CollisionSet.rotate"]}
{"id": "C08", "title": "Box-circle overlap test is exact", "statement": "A box and a circle are reported as overlapping exactly when some point of the box is inside the circle.", "quantifier": "all boxes, centres and radii", "why_tests_cant": "existential over a continuum; corner regions are the classic untested case", "anchors": ["draftsman/utils.py:aabb_overlaps_circle"]}
{"id": "C09", "title": "Rotated-rectangle overlap test is sound both ways", "statement": "Two oriented rectangles are reported disjoint only if no point is interior to both, and reported overlapping whenever a common interior point exists; swapping arguments does not change the answer.", "quantifier": "all pairs of oriented rectangles (and box/rectangle pairs)", "why_tests_cant": "continuous orientations; a missing separating axis only shows at particular angles", "anchors": ["draftsman/utils.py:rect_overlaps_rect", "draftsman/utils.py:is_separating_axis", "draftsman/utils.py:flatten_points_on", "draftsman/utils.py:Rectangle"]}
{"id": "C10", "title": "Bounding box of a rotated rectangle contains it", "statement": "The axis-aligned bounding box computed for a rotated rectangle contains all four corners and touches the extreme ones.", "quantifier": "all positions, sizes and angles", "why_tests_cant": "only particular angles make the first corner the extreme one", "anchors": ["draftsman/utils.py:Rectangle.get_bounding_box", "draftsman/classes/collision_set.py:CollisionSet.get_bounding_box"]}
{"id": "C11", "title": "Surface conditions are checked exactly", "statement": "An entity is placeable on a surface exactly when, for every condition whose property the surface defines, the surface's value lies inside the inclusive [min, max] range (missing bounds unbounded); no conditions means always placeable, and adding a condition can only turn yes into no.", "quantifier": "all condition lists and all surface property tables", "why_tests_cant": "arbitrary lists of conditions and property maps", "anchors": ["draftsman/utils.py:passes_surface_conditions", "draftsman/classes/entity.py:Entity.is_placable_on", "draftsman/data/recipes.py:is_usable_on"]}
{"id": "C12", "title": "Energy strings parse to the right number", "statement": "An energy string made of a decimal number, an optional SI prefix and J or W parses to number x prefix (per tick, i.e. divided by 60, for W), rounded to an integer; an unknown suffix is rejected.", "quantifier": "all digit strings and all prefixes", "why_tests_cant": "unbounded numbers times nine prefixes times two units", "anchors": ["draftsman/utils.py:parse_energy"]}
{"id": "C13", "title": "Spatial area queries return only and all overlapping members", "statement": "After any sequence of insertions and removals, an area query returns exactly those current members whose world box overlaps the queried box, each once.", "quantifier": "all histories of add/remove, all query boxes", "why_tests_cant": "correctness depends on the alignment of boxes to hash cells and on the whole history", "anchors": ["draftsman/classes/spatial_hashmap.py:SpatialHashMap.get_in_aabb", "draftsman/classes/spatial_hashmap.py:SpatialHashMap.add", "draftsman/classes/spatial_hashmap.py:SpatialHashMap.remove"]}
{"id": "C14", "title": "Spatial point queries return only and all members under the point", "statement": "After any history a point query returns exactly those members whose closed world box contains the point.", "quantifier": "all histories, all points", "why_tests_cant": "fails only on cell boundaries, a measure-zero set of points", "anchors": ["draftsman/classes/spatial_hashmap.py:SpatialHashMap.get_on_point"]}
{"id": "C15", "title": "Spatial radius queries return only and all members in range, up to the limit", "statement": "After any history a radius query returns only members whose position is within the radius, all of them when no limit is given, and never more than the limit otherwise.", "quantifier": "all histories, centres, radii, limits", "why_tests_cant": "cell enumeration around a circle must be complete for every centre and radius", "anchors": ["draftsman/classes/spatial_hashmap.py:SpatialHashMap.get_in_radius", "draftsman/classes/spatial_hashmap.py:SpatialHashMap._cell_coords_from_radius"]}
{"id": "C16", "title": "Spatial index stays in step with its contents", "statement": "After any sequence of insertions and removals each stored member sits in exactly the cells its box covers, no cell is empty, removing a member that was just inserted restores the previous index, and clearing empties everything.", "quantifier": "all histories", "why_tests_cant": "invariant over unbounded histories", "anchors": ["draftsman/classes/spatial_hashmap.py:SpatialHashMap", "draftsman/classes/spatial_hashmap.py:SpatialHashMap._cell_coords_from_aabb"]}
{"id": "C17", "title": "String ids always name the right list member", "statement": "After any sequence of appends, inserts, deletions, replacements and clears on an entity list, looking up an id returns the member carrying that id, every member that carries an id can be looked up by it, and the positions recorded for ids are the members' actual positions.", "quantifier": "all operation sequences on an entity list", "why_tests_cant": "index bookkeeping errors need particular interleavings of insert and delete", "anchors": ["draftsman/classes/entity_list.py:EntityList", "draftsman/classes/entity_list.py:EntityList.insert", "draftsman/classes/entity_list.py:EntityList.__delitem__", "draftsman/classes/entity_list.py:EntityList._shift_key_indices"]}
{"id": "C18", "title": "No two list members share an id", "statement": "Inserting or renaming so that two members of one list would carry the same id raises the duplicate-id error and leaves the list as it was; hence in every reachable list ids are pairwise distinct.", "quantifier": "all operation sequences", "why_tests_cant": "invariant over all histories, including failed operations", "anchors": ["draftsman/classes/entity_list.py:EntityList.check_entitylike", "draftsman/classes/entity.py:Entity.id"]}
{"id": "C19", "title": "Entity list set algebra", "statement": "Union contains exactly the members of either list (each equal pair once, the left list first), intersection exactly those of the left list equal to some member of the right, difference exactly those of the left not equal to any member of the right; difference and intersection partition the left list.", "quantifier": "all pairs of entity (and tile) lists", "why_tests_cant": "arbitrary lists with arbitrary equality classes", "anchors": ["draftsman/classes/entity_list.py:EntityList.union", "draftsman/classes/entity_list.py:EntityList.intersection", "draftsman/classes/entity_list.py:EntityList.difference", "draftsman/classes/tile_list.py:TileList.union", "draftsman/classes/tile_list.py:TileList.intersection", "draftsman/classes/tile_list.py:TileList.difference"]}
{"id": "C20", "title": "Rotating a collection is a group action", "statement": "Rotating by angle a then b equals rotating by a+b; rotating by a full turn changes nothing; every entity's offset from every other is rotated rigidly (distances preserved); directions of rotatable entities advance by the same angle; tiles are moved by the same rotation about tile centres and stay on the integer grid; angles that are not quarter turns are rejected without changes.", "quantifier": "all collections, all angle pairs", "why_tests_cant": "algebraic law over all collections", "anchors": ["draftsman/classes/transformable.py:Transformable.rotate"]}
{"id": "C21", "title": "Flipping a collection is an involution acting as a mirror", "statement": "Flipping twice along the same axis changes nothing; horizontal flip negates x and mirrors each direction left-right, vertical flip negates y and mirrors each direction up-down; horizontal then vertical equals a half turn; flipping conjugates rotation to its inverse.", "quantifier": "all collections, both axes, all sixteen directions", "why_tests_cant": "group relations over all states", "anchors": ["draftsman/classes/transformable.py:Transformable.flip"]}
{"id": "C22", "title": "Translating a collection is additive and rigid", "statement": "Translating by u then v equals translating by u+v, translating by zero changes nothing, translating back undoes it, relative offsets never change, and a warning is given exactly when a double-grid-aligned member would be shifted by an odd amount.", "quantifier": "all collections and integer shifts", "why_tests_cant": "algebraic law over all collections", "anchors": ["draftsman/classes/transformable.py:Transformable.translate"]}
{"id": "C23", "title": "Direction arithmetic is the cyclic group of sixteen winds", "statement": "Opposite is an involution, next and previous are mutually inverse, stepping four quarter-turns returns to the start, and converting a direction to a unit vector turns opposites into negated vectors.", "quantifier": "all directions", "why_tests_cant": "small but total claims, and the vector table must agree with the arithmetic", "anchors": ["draftsman/constants.py:Direction", "draftsman/constants.py:LegacyDirection"]}
{"id": "C24", "title": "Orientation and direction convert faithfully", "statement": "An orientation built from any number is its fractional part; addition and opposite wrap around the circle; converting a direction to an orientation and back gives the same direction; converting any orientation to a direction gives the nearest direction and never fails.", "quantifier": "all rational orientations, all directions", "why_tests_cant": "the failing inputs are an interval just below a full turn", "anchors": ["draftsman/constants.py:Orientation", "draftsman/constants.py:Orientation.to_direction", "draftsman/constants.py:Direction.to_orientation"]}
{"id": "C25", "title": "Tick counts add up", "statement": "Converting a time span to ticks gives sixty ticks per second: whole-second spans convert exactly, conversion is additive on them and monotone on all spans.", "quantifier": "all time spans", "why_tests_cant": "unbounded spans and microsecond rounding", "anchors": ["draftsman/constants.py:Ticks.from_timedelta"]}
{"id": "C26", "title": "Validation strictness is a total order", "statement": "The four validation modes are totally ordered none < minimum < strict < pedantic, every comparison operator agrees with that order, and a mode is truthy exactly when it is not none.", "quantifier": "all pairs of modes and all comparison operators", "why_tests_cant": "operators are partly derived; agreement is a claim about all pairs and operators", "anchors": ["draftsman/constants.py:ValidationMode"]}
{"id": "C27", "title": "Position and tile position always agree", "statement": "After setting either position or tile position, or changing the direction, an entity's position equals its tile position plus half its current footprint for grid-aligned values; setting tile position then reading it back is the identity; changing direction never moves the occupied top-left tile.", "quantifier": "all entity sizes, all positions, all sequences of setter calls", "why_tests_cant": "rounding of halves and order of setter calls", "anchors": ["draftsman/classes/entity.py:Entity.position", "draftsman/classes/entity.py:Entity.tile_position", "draftsman/classes/mixins/directional.py:DirectionalMixin.direction"]}
{"id": "C28", "title": "Footprint follows the direction", "statement": "For a four-way entity, after any direction assignment the footprint is the unrotated one for north/south and the transposed one for east/west, and a diagonal direction is replaced by the nearest cardinal counter-clockwise.", "quantifier": "all footprints, all assigned directions, all assignment sequences", "why_tests_cant": "requires diagonal input on a non-square entity", "anchors": ["draftsman/classes/mixins/directional.py:DirectionalMixin.direction", "draftsman/classes/mixins/directional.py:DirectionalMixin.Format.ensure_4_way", "draftsman/classes/mixins/eight_way_directional.py:EightWayDirectionalMixin.direction"]}
{"id": "C29", "title": "Global position accumulates through groups", "statement": "An entity nested in any depth of groups has global position equal to its own position plus the sum of the positions of all enclosing groups; moving an outer group moves all nested entities by the same vector; the flattened entity list enumerates every nested entity exactly once in depth-first order.", "quantifier": "all nesting trees", "why_tests_cant": "unbounded nesting depth", "anchors": ["draftsman/classes/group.py:Group.global_position", "draftsman/classes/entity.py:Entity.global_position", "draftsman/utils.py:flatten_entities", "draftsman/classes/group.py:Group.get"]}
{"id": "C30", "title": "Wires: adding and removing connections", "statement": "Adding a circuit or power connection makes it present, keeps every other connection, and does nothing if it already exists in either orientation; removing it makes it absent in both orientations and keeps every other; add then remove restores the original wires.", "quantifier": "all wire sets, endpoints, colours and sides; all sequences", "why_tests_cant": "needs all pairs of orientations and repeated operations", "anchors": ["draftsman/classes/collection.py:EntityCollection.add_circuit_connection", "draftsman/classes/collection.py:EntityCollection.remove_circuit_connection", "draftsman/classes/collection.py:EntityCollection.add_power_connection", "draftsman/classes/collection.py:EntityCollection.remove_power_connection"]}
{"id": "C31", "title": "Bulk wire removal removes exactly one kind of wire", "statement": "Removing all power connections leaves every circuit wire and no copper wire; removing all circuit connections leaves every copper wire and no circuit wire; order of remaining wires is kept.", "quantifier": "all wire lists", "why_tests_cant": "in-place deletion while iterating is a classic source of skipped entries", "anchors": ["draftsman/classes/collection.py:EntityCollection.remove_power_connections", "draftsman/classes/collection.py:EntityCollection.remove_circuit_connections"]}
{"id": "C32", "title": "Exported entity numbers resolve to the right entities", "statement": "On export entities are numbered 1..n in order, every wire and every train schedule refers to its entities by those numbers, a reference to an entity outside the blueprint is reported as an error, and re-importing the exported lists restores exactly the same references.", "quantifier": "all blueprints (flat or nested), all wire lists, all schedules", "why_tests_cant": "reference resolution must hold for every entity, including equal-looking ones", "anchors": ["draftsman/classes/blueprint.py:_normalize_internal_structure", "draftsman/classes/blueprint.py:Blueprint.setup"]}
{"id": "C33", "title": "Export undoes the grid offset", "statement": "Exported entity and tile positions are the internal positions minus the snapping grid position, so importing and exporting preserve positions; zero-valued snap keys and empty lists are omitted.", "quantifier": "all blueprints and grid offsets", "why_tests_cant": "holds for every offset", "anchors": ["draftsman/classes/blueprint.py:Blueprint.to_dict", "draftsman/classes/blueprint.py:_normalize_internal_structure"]}
{"id": "C34", "title": "Entity searches return exactly the matching members", "statement": "A filtered search returns exactly the flattened entities that satisfy every given criterion (area or position/radius, names, types, direction) or, with inversion, exactly those which do not match the criteria; a limit truncates the unlimited answer.", "quantifier": "all collections, all combinations of criteria", "why_tests_cant": "combinatorial number of criterion combinations", "anchors": ["draftsman/classes/collection.py:EntityCollection.find_entities_filtered", "draftsman/classes/collection.py:EntityCollection.find_entities"]}
{"id": "C35", "title": "Tile searches return exactly the matching tiles", "statement": "A filtered tile search returns exactly the tiles meeting all criteria (or none, if inverted), truncated at the limit.", "quantifier": "all tile collections, all criteria", "why_tests_cant": "combinatorial criteria", "anchors": ["draftsman/classes/collection.py:TileCollection.find_tiles_filtered"]}
{"id": "C36", "title": "A train has one schedule", "statement": "After assigning a schedule to a train every locomotive of that train is listed in exactly the assigned schedule and in no other, other trains' assignments are unchanged, and an equal existing schedule is reused rather than duplicated; removing a train drops its locomotives from every schedule.", "quantifier": "all schedule lists, all trains, all sequences of assignments", "why_tests_cant": "interaction of arbitrary previous assignments", "anchors": ["draftsman/classes/collection.py:EntityCollection.set_train_schedule", "draftsman/classes/collection.py:EntityCollection.remove_train"]}
{"id": "C37", "title": "Train discovery finds exactly the coupled wagons", "statement": "Starting from any wagon, train discovery terminates and returns each wagon coupled to it, directly or through others, exactly once and no other wagon.", "quantifier": "all wagon layouts (including loops)", "why_tests_cant": "graph reachability over arbitrary layouts", "anchors": ["draftsman/classes/collection.py:EntityCollection.find_train_from_wagon"]}
{"id": "C38", "title": "Train configuration strings expand as written", "statement": "A configuration string such as '2-4-2' expands to the listed blocks in order, each with the stated number of cars of the right kind; the number of cars is the sum of the counts, an unknown car letter is rejected, and a train of n cars needs ceil(7n/2) rails.", "quantifier": "all strings of the grammar, all counts", "why_tests_cant": "unbounded counts and block numbers", "anchors": ["draftsman/classes/train_configuration.py:TrainConfiguration.from_string", "draftsman/classes/train_configuration.py:TrainConfiguration.rail_length"]}
{"id": "C39", "title": "Wait conditions combine with their boolean meaning", "statement": "Combining wait conditions with & and | yields a condition list whose in-game meaning (and binds tighter than or) is the boolean expression written, without modifying the operands.", "quantifier": "all boolean expressions built from wait conditions", "why_tests_cant": "unbounded expression trees", "anchors": ["draftsman/classes/schedule.py:WaitCondition.__and__", "draftsman/classes/schedule.py:WaitCondition.__or__", "draftsman/classes/schedule.py:WaitConditions"]}
{"id": "C40", "title": "Schedules keep locomotives unique and stops in order", "statement": "After any sequence of edits a schedule lists each locomotive at most once; inserting a stop places it at the given index keeping the others in order; removing a stop removes only the first matching one and fails when none matches.", "quantifier": "all edit sequences", "why_tests_cant": "invariant over histories", "anchors": ["draftsman/classes/schedule.py:Schedule.add_locomotive", "draftsman/classes/schedule.py:Schedule.remove_locomotive", "draftsman/classes/schedule.py:Schedule.insert_stop", "draftsman/classes/schedule.py:Schedule.remove_stop"]}
{"id": "C41", "title": "Upgrade planner mappings behave like a slot table", "statement": "Setting a mapping at an index makes that index hold exactly it and leaves other indices alone; the mapping list stays sorted by index with at most one mapping per index; removing or popping an index deletes exactly that slot.", "quantifier": "all sequences of set/remove/pop", "why_tests_cant": "refinement to a finite map over all histories", "anchors": ["draftsman/classes/upgrade_planner.py:UpgradePlanner.set_mapping", "draftsman/classes/upgrade_planner.py:UpgradePlanner.remove_mapping", "draftsman/classes/upgrade_planner.py:UpgradePlanner.pop_mapping"]}
{"id": "C42", "title": "Upgrade pair checking reports the first applicable reason", "statement": "A proposed upgrade pair is accepted silently exactly when none of the documented obstacles applies, otherwise the reason given corresponds to an obstacle that does hold, and identical pairs are reported as having no effect.", "quantifier": "all pairs of prototypes and all prototype tables", "why_tests_cant": "ordered decision logic over an unbounded data table", "anchors": ["draftsman/classes/upgrade_planner.py:check_valid_upgrade_pair"]}
{"id": "C43", "title": "Deconstruction filters behave like a slot table", "statement": "Setting an entity or tile filter at an index makes that slot hold it and leaves the others; setting it to nothing clears the slot (and is harmless when the slot is empty); the list never holds two entries for one slot.", "quantifier": "all sequences of filter assignments", "why_tests_cant": "refinement to a finite map over all histories", "anchors": ["draftsman/classes/deconstruction_planner.py:DeconstructionPlanner.set_entity_filter", "draftsman/classes/deconstruction_planner.py:DeconstructionPlanner.set_tile_filter"]}
{"id": "C44", "title": "Item and inventory filters behave like a slot table", "statement": "Setting an item filter at an index makes that slot hold exactly the item, quality and comparator given and leaves other slots alone; setting it to nothing clears the slot.", "quantifier": "all sequences of filter assignments", "why_tests_cant": "refinement to a finite map over all histories", "anchors": ["draftsman/classes/mixins/filters.py:FiltersMixin.set_item_filter", "draftsman/classes/mixins/inventory_filter.py:InventoryFilterMixin.set_inventory_filter"]}
{"id": "C45", "title": "Signal sections behave like a slot table", "statement": "Setting a signal at an index makes reading that index return it, leaves other indices unchanged, and setting it to nothing removes it; no two entries share an index.", "quantifier": "all sequences of set operations on a section", "why_tests_cant": "refinement over histories", "anchors": ["draftsman/signatures.py:Section.set_signal", "draftsman/signatures.py:Section.get_signal"]}
{"id": "C46", "title": "Decider comparison operators mean what they say", "statement": "Comparing a decider input with an operator (==, !=, <, >, <=, >=) builds a condition which tests exactly that relation, with the left and right sides in order.", "quantifier": "all operators and operand values", "why_tests_cant": "semantic agreement for all integer pairs and both operand kinds", "anchors": ["draftsman/prototypes/decider_combinator.py:DeciderCombinator.Input", "draftsman/signatures.py:Condition"]}
{"id": "C47", "title": "Decider conditions combine with their boolean meaning", "statement": "Combining decider conditions with & and | yields a list whose meaning is the boolean expression written.", "quantifier": "all boolean expressions in sum-of-products form", "why_tests_cant": "unbounded expressions; operands are mutated", "anchors": ["draftsman/prototypes/decider_combinator.py:DeciderCombinator.Condition.__and__", "draftsman/prototypes/decider_combinator.py:DeciderCombinator.Condition.__or__"]}
{"id": "C48", "title": "Arithmetic operands read back as written", "statement": "After setting an operand to a signal or constant, reading it returns what was set and the other representation is cleared, for any sequence of assignments; removing the conditions clears everything.", "quantifier": "all assignment sequences", "why_tests_cant": "stale alternative representation shows only after particular sequences", "anchors": ["draftsman/prototypes/arithmetic_combinator.py:ArithmeticCombinator.first_operand", "draftsman/prototypes/arithmetic_combinator.py:ArithmeticCombinator.second_operand", "draftsman/prototypes/arithmetic_combinator.py:ArithmeticCombinator.set_arithmetic_conditions"]}
{"id": "C49", "title": "Item requests: last write per slot wins", "statement": "After any sequence of item requests, each (item, quality, inventory, slot) carries the count most recently requested, requesting zero removes the request, and other requests are untouched.", "quantifier": "all request sequences", "why_tests_cant": "refinement over histories", "anchors": ["draftsman/classes/mixins/request_items.py:RequestItemsMixin.set_item_request"]}
{"id": "C50", "title": "Mod settings files decode to the stored tree", "statement": "Decoding the binary encoding of any settings tree yields that tree and consumes exactly its bytes.", "quantifier": "all property trees of any depth, all trailing bytes", "why_tests_cant": "unbounded nesting, string lengths around 255", "anchors": ["draftsman/environment/mod_settings.py:decode_mod_settings", "draftsman/environment/mod_settings.py:encode_mod_settings"]}
{"id": "C51", "title": "The newest enabled mod version wins", "statement": "Discovered versions of a mod are listed newest first by numeric (not textual) version, with unpacked folders preferred over archives of the same version.", "quantifier": "all sets of mod versions", "why_tests_cant": "ordering over arbitrary version tuples", "anchors": ["draftsman/environment/mod_list.py:discover_mods"]}
{"id": "C52", "title": "Blueprint book slots are numbered consistently", "statement": "On export each member of a book that carries no index gets its list position, members that carry one keep it, order is kept, and an empty book exports no member list.", "quantifier": "all books", "why_tests_cant": "arbitrary mixes of indexed and unindexed members", "anchors": ["draftsman/classes/blueprint_book.py:BlueprintBook.to_dict"]}
{"id": "C53", "title": "Shorthand lists are numbered from one", "statement": "A list given in shorthand (icons, filters as plain names) is expanded so the k-th entry gets index k, full entries are kept as they are, order and length are preserved, and expanding twice changes nothing.", "quantifier": "all lists mixing shorthand and full entries", "why_tests_cant": "arbitrary lists", "anchors": ["draftsman/signatures.py:normalize_icons", "draftsman/classes/deconstruction_planner.py:DeconstructionPlanner.Format", "draftsman/classes/mixins/filters.py:FiltersMixin.Format.normalize_filters", "draftsman/classes/mixins/inventory_filter.py:InventoryFilterMixin"]}
{"id": "C54", "title": "Validation results are reported faithfully", "statement": "Reissuing a validation result raises its first error if there is any and otherwise issues every warning in order; combining results concatenates their errors and warnings.", "quantifier": "all results", "why_tests_cant": "arbitrary lists", "anchors": ["draftsman/classes/exportable.py:ValidationResult"]}
{"id": "C55", "title": "Modules allowed by effects", "statement": "The modules offered for a machine are exactly those whose positive effects are all allowed there and, given a recipe, whose limitations permit it; allowing more effects never removes a module.", "quantifier": "all module tables, effect sets, recipes", "why_tests_cant": "arbitrary tables", "anchors": ["draftsman/data/modules.py:get_modules_from_effects"]}
{"id": "C56", "title": "Reversing belts", "statement": "Reversing the belts of a collection turns every belt, underground belt and splitter around so that every straight run carries items the other way and reversing twice restores straight layouts; undergrounds swap entry and exit; positions, names and count do not change.", "quantifier": "all belt layouts", "why_tests_cant": "arbitrary layouts and junctions", "anchors": ["draftsman/extras.py:reverse_belts"]}
{"id": "C57", "title": "Blueprintable kinds are dispatched correctly", "statement": "A decoded document is handed to the class named by its root key, in a fixed priority when several are present, and a document with none of the known keys is rejected.", "quantifier": "all documents", "why_tests_cant": "arbitrary key sets", "anchors": ["draftsman/blueprintable.py:get_blueprintable_from_string", "draftsman/blueprintable.py:get_blueprintable_from_JSON"]}
{"id": "C58", "title": "Comparisons of orientations are consistent", "statement": "For any two Orientation values, however computed, exactly one of <, ==, > holds, <= is < or ==, >= is > or ==, and all of them compare the wrapped value in [0,1).", "quantifier": "all pairs of orientations, including results of + and -", "why_tests_cant": "Orientation subclasses float and total_ordering silently keeps the inherited operators; tests compare literals already in [0,1) where raw and wrapped value coincide.", "anchors": ["draftsman/constants.py:335-511"]}
{"id": "C59", "title": "Tables extended at run time stay consistent", "statement": "Adding a signal or a module at run time makes it known under the given type or category with the given data, lists it there exactly once, and changes nothing about other names; an unknown type or category is rejected; adding a category never loses modules.", "quantifier": "all tables, all sequences of additions", "why_tests_cant": "arbitrary tables and histories of additions", "anchors": ["draftsman/data/signals.py:add_signal", "draftsman/data/modules.py:add_module", "draftsman/data/modules.py:add_module_category"]}
{"id": "C60", "title": "Copying a group copies the whole structure", "statement": "Deep-copying a group yields new, pairwise distinct objects for the group and everything nested in it, of the same kinds, values and positions, nested in the same way with parents inside the copy, with the copied wires and schedules joining the copied entities exactly as the originals are joined; connections to entities outside the group are left out; nothing that existed before changes.", "quantifier": "all groups, nested to any depth, with any wires and schedules", "why_tests_cant": "tests copy one or two shapes of group whose wires are all inside it; the claim is about every nesting and every wiring, including those crossing group borders.", "anchors": ["draftsman/classes/group.py:582-632", "draftsman/classes/entity_list.py:662-735", "draftsman/classes/entity_like.py:201-227"]}
{"id": "C61", "title": "Copying a blueprint yields an independent, equal blueprint", "statement": "Deep-copying a blueprint yields a blueprint with its own copies of all entities and groups, whose wires and schedules join its own entities, that exports the same dictionary as the original and can afterwards be edited and exported without regard to the original; the original is unchanged.", "quantifier": "all blueprints whose groups are nested to any depth, with any wires and schedules", "why_tests_cant": "a test compares an unchanged copy with the original, where comparison by value hides references that still point to the original's entities.", "anchors": ["draftsman/classes/blueprint.py:1159-1206", "draftsman/classes/blueprint.py:1046-1136", "draftsman/classes/association.py:62-67"]}
{"id": "C62", "title": "Automatic power connections join the poles in reach", "statement": "After generate_power_connections two different electric poles of the collection are joined by a copper wire if and only if they were before or they lie within the reach of both (and, with only_axis, in one row or column); all earlier wires are kept; each pair is joined once, poles with five connections get no more, and nearer poles (with prefer_axis, poles on the axes) are joined first.", "quantifier": "all collections, all sets of poles, positions, reaches and existing wires, both options", "why_tests_cant": "tests place a handful of poles on a grid; the claim is about every arrangement, every set of earlier wires and repeated calls.", "anchors": ["draftsman/classes/collection.py:657-730", "draftsman/classes/collection.py:349-512"]}
{"id": "C63", "title": "Searching for trains", "statement": "find_trains_filtered partitions the rolling stock into trains, the classes of coupled wagons, every wagon being in exactly one; it returns in that order the trains that meet every given criterion (length and counts by type or name in the given ranges, every car at the given orientation, the head three tiles behind and two to the left of a train stop facing the same way with one of the given names, the same configuration, a locomotive in the given schedule), or with invert those that do not, cut to the limit.", "quantifier": "all lists of wagons, stops and schedules, all trains, all queries", "why_tests_cant": "The search combines eight independent criteria with layouts of any size and shape; tests use a few straight trains pointing in one of the four directions and never mix trains with and without locomotives or orientations beyond a full turn.", "anchors": ["draftsman/classes/collection.py:1443-1659", "draftsman/classes/collection.py:1315-1441"]}
{"id": "C64", "title": "Names and numbers of instruments and notes", "statement": "For every programmable speaker, setting instrument_name (note_name) to the name of the i-th instrument (the j-th note of the current instrument) stores i (j), reading the name back gives it, unknown names and numbers read as None, and numbers outside 32 bits are refused; this holds for the tables extracted from the game and after any sequence of add_instrument calls, which leave other speakers alone.", "quantifier": "all lists of instruments, all sequences of additions at any index, all speakers", "why_tests_cant": "Tests use the vanilla tables and one added instrument at the end; an insertion shifts every later instrument, and the reserved key shares a dictionary with arbitrary note names.", "anchors": ["draftsman/data/instruments.py:15-51", "draftsman/environment/update.py:1198-1228", "draftsman/prototypes/programmable_speaker.py:675-831"]}
{"id": "C65", "title": "Loading a dictionary resolves references by entity number and leaves the dictionary alone", "statement": "A blueprint or group made from a dictionary has one new entity for every entity listed, every wire end and every locomotive of a schedule is the entity that carries the number written there, a number that no entity carries is refused, and the dictionary handed over is left as it was, so that it can be loaded again with the same result.", "quantifier": "all dictionaries: entities given as dictionaries or instances, in any order and with any numbers, all wires, all schedules", "why_tests_cant": "aliasing between the caller's lists and the blueprint's shows only when a dictionary is used twice, and wrong resolution only for numberings the game itself does not write", "anchors": ["draftsman/classes/blueprint.py:Blueprint.setup", "draftsman/classes/entity_list.py:EntityList.__init__", "draftsman/classes/schedule_list.py:ScheduleList.__init__", "draftsman/classes/group.py:Group.load_from_string"]}
{"id": "C66", "title": "Adding to the data tables affects what was named and nothing else", "statement": "Adding an item, item group, subgroup, fluid or entity to the data tables makes it known with the properties asked for, listed once under its group or type and under no other; modifying one keeps what was not asked to change; nothing else in the tables changes; an unknown group or subgroup is refused without effect.", "quantifier": "all tables, all sequences of calls, all arguments", "why_tests_cant": "lists shared through default arguments show only after several calls, and stale entries only after a modification", "anchors": ["draftsman/data/items.py:add_item", "draftsman/data/items.py:add_subgroup", "draftsman/data/items.py:add_group", "draftsman/data/fluids.py:add_fluid", "draftsman/data/fluids.py:get_temperature_range", "draftsman/data/entities.py:add_entity"]}
{"id": "C67", "title": "Merging on insertion keeps every wire and adds nothing twice", "statement": "Inserting an entity or a group of any nesting with merge=True merges every entity that lies on a mergable one (same class, name, place and id) into it: the member takes the tags of the new entity, the new entity is not added, and wires that ended at it end at the member; all other entities are added in order, with all other wires unchanged.", "quantifier": "all entities and groups of any depth, all blueprints and groups they are inserted into", "why_tests_cant": "which object a wire is redirected to depends on nesting, on equal entities and on the position of the enclosing group", "anchors": ["draftsman/classes/spatial_hashmap.py:SpatialHashMap.recursive_add", "draftsman/classes/spatial_hashmap.py:SpatialHashMap.add", "draftsman/classes/entity.py:Entity.merge", "draftsman/classes/mixins/circuit_connectable.py:CircuitConnectableMixin.merge", "draftsman/classes/entity_list.py:EntityList.insert"]}
{"id": "C68", "title": "The tile list and its spatial map hold the same tiles", "statement": "After any sequence of insertions, replacements, deletions, clearings, renamings and moves on a tile list, its spatial map holds exactly the tiles of the list, each in the cells it covers, so that searching a position finds exactly the tiles of the list at that position. Insertion with merging never leaves two tiles of the same name and position. A tile can be moved exactly when it is in no collection. Building a list from dictionaries leaves them as they were.", "quantifier": "all operation sequences on a tile list", "why_tests_cant": "agreement of two structures over unbounded histories, including failing calls and equal tiles", "anchors": ["draftsman/classes/tile_list.py:TileList.insert", "draftsman/classes/tile_list.py:TileList.__setitem__", "draftsman/classes/tile_list.py:TileList.__delitem__", "draftsman/classes/tile.py:Tile.position"]}
{"id": "C69", "title": "Overlap warnings name exactly the objects in the way", "statement": "Inserting an object warns once about each member whose collision shapes meet its own on a common collision layer, and about nothing else; two different rails never collide, a gate collides with a straight rail only when they are parallel; inserting a group warns like inserting its members one by one.", "quantifier": "all histories of the spatial map, all inserted objects and groups", "why_tests_cant": "depends on cell enumeration, layers, classes and directions at once, for every content of the map", "anchors": ["draftsman/classes/spatial_hashmap.py:SpatialHashMap.validate_insert", "draftsman/classes/collision_set.py:CollisionSet.overlaps", "draftsman/environment/update.py"]}
{"id": "C70", "title": "Mods are loaded once each, after what they depend on", "statement": "From the mods found, every enabled one is loaded once, after all mods on which it depends unless told not to wait, and the order does not depend on the order in which the mods were found. Loading succeeds whenever all needed mods are there in an admitted version, no incompatible mod is there and there is no circle; optional mods may be missing. Mods with a less deep tree of dependencies come first.", "quantifier": "all sets of mods with all dependency lists", "why_tests_cant": "the order of arbitrary dependency graphs; tests use a handful of fixed mods", "anchors": ["draftsman/environment/update.py", "draftsman/environment/mod_list.py:Mod"]}
{"id": "C71", "title": "Dependency strings are read as written", "statement": "A dependency string consisting of an optional flag, a name and optionally a comparison with a version is read as exactly these parts wherever spaces are put; anything else is refused.", "quantifier": "all strings", "why_tests_cant": "a regular expression with optional parts over all strings", "anchors": ["draftsman/environment/mod_list.py:Dependency"]}
{"id": "C72", "title": "Enabling and disabling mods sets exactly the mods named", "statement": "Enabling or disabling a list of mods sets exactly these in mod-list.json, keeps all other entries and their order, and writes a complete list if there was none; an unknown name is refused and nothing is written; every mod found can be set; the name all stands for every mod.", "quantifier": "all sets of mods, all files, all lists of names", "why_tests_cant": "every combination of files with the mods present, including mods that are not yet listed", "anchors": ["draftsman/environment/mod_list.py:set_mods_enabled", "draftsman/environment/mod_list.py:register_mod"]}
{"id": "C73", "title": "Objects of the game are sorted by group, subgroup, order and name", "statement": "The sort of entities, recipes, fluids and signals returns every name as often as it was given, ordered by the group, the subgroup and the order and name of the item that stands for the object, or of the object itself if there is none, with objects without an order last; it does not depend on the order of the input, and it works for all data that the sort of items accepts.", "quantifier": "all tables of items, subgroups and groups, all lists of objects", "why_tests_cant": "a sort by a six-part key with fallbacks over arbitrary mod data; tests only see the data of the base game", "anchors": ["draftsman/environment/update.py:get_order"]}
{"id": "C74", "title": "Lua tables are converted faithfully", "statement": "A Lua array becomes the list of its values in order, any other table becomes a dictionary with the same keys, nested values are converted likewise, and nothing is lost: different tables have different conversions.", "quantifier": "all Lua values of any depth", "why_tests_cant": "nested values of unbounded depth, with every mixture of keys", "anchors": ["draftsman/environment/update.py:convert_table_to_dict"]}
{"id": "C75", "title": "The table of items holds every item once, in the game's order", "statement": "The items of all categories are each returned once under their names, sorted by group, subgroup, order and name, with those without an order last among groups and subgroups and first among items; it fails exactly when a subgroup's group or an item's subgroup is missing; objects named like items are put into the same order by the general sort.", "quantifier": "all groups, subgroups and items", "why_tests_cant": "nested sorts over arbitrary mod data and agreement of two different sorting functions", "anchors": ["draftsman/environment/update.py:get_items", "draftsman/environment/update.py:get_order"]}
{"id": "C76", "title": "Every machine is listed with the recipes of its categories", "statement": "Every recipe category lists exactly its recipes in order, a recipe without a category counts as crafting, and a machine is listed with exactly the recipes whose category is one of its own, none twice; it fails exactly when a category is not declared.", "quantifier": "all lists of categories, recipes and machines", "why_tests_cant": "set equality over arbitrary mod data", "anchors": ["draftsman/environment/update.py:extract_recipes"]}
{"id": "C77", "title": "Attributes of entities read back what was assigned and do not disturb each other", "statement": "For every class of entities and every settable attribute: with validation an accepted value reads back as validated, without validation every value reads back as given (None as 0 where documented), other attributes stay as they were, a refused assignment changes nothing, an assignment is only refused by validation, and on a new entity every attribute can be read.", "quantifier": "all 83 entity classes, all their attributes, all values, all validation rules, all states of the entity", "why_tests_cant": "every pair of attributes of every class under arbitrary validation; the tests cover a handful of attributes and never read the others", "anchors": ["draftsman/classes/entity.py:Entity", "draftsman/classes/mixins", "draftsman/prototypes", "draftsman/classes/exportable.py:attempt_and_reissue"]}
{"id": "C78", "title": "The extraction of entities lists every prototype once, under its type", "statement": "Every prototype that can be in a blueprint is entered once under its name with its own type, box, mask and flags, and its name is in the list of its type (and logistic mode) and in no other list, in the game's order; nothing else is entered; and the extraction succeeds for all data of the game.", "quantifier": "all data of the game with prototypes kept under their own type and name", "why_tests_cant": "arbitrary mods add prototypes of every type with every combination of missing keys", "anchors": ["draftsman/environment/update.py:extract_entities", "draftsman/environment/update.py:get_default_collision_mask", "draftsman/data/entities.py:add_entity"]}
{"id": "C79", "title": "A new entity gets the class of its type", "statement": "After extraction `new_entity` makes for every extracted name an object of the class named after the type (or logistic mode), which accepts the name; unknown names make generic entities; without a name the first of the type is taken.", "quantifier": "all data of the game, all names, all classes", "why_tests_cant": "85 tests over lists that come from arbitrary mods; the project's tests try names of the base game for part of the classes", "anchors": ["draftsman/entity.py:new_entity", "draftsman/prototypes", "draftsman/utils.py:get_first"]}
{"id": "C80", "title": "Setting up a blueprintable sets what is given and resets the rest", "statement": "Calling `setup` on a blueprint, blueprint book, upgrade planner or deconstruction planner (directly, or through the constructor with a dictionary) leaves every attribute with the value given for it, or with its default if nothing was given; earlier calls have no influence, unknown keywords are kept and warned about, and the index given to the constructor is the index of the object.", "quantifier": "For all four classes, all keyword dictionaries, all earlier states of the object, all validation modes of assignments and all validation functions of the fields.", "why_tests_cant": "The claim compares every attribute after every call from every earlier state, for every subset of the keywords; the exceptions (settings given as None, a keyword named like the root key, unknown keys that survive, an index that is lost) sit in combinations that the tests of single attributes do not visit.", "anchors": ["draftsman/classes/blueprintable.py:46-180", "draftsman/classes/blueprint.py:493-635", "draftsman/classes/blueprint_book.py:292-346", "draftsman/classes/upgrade_planner.py:447-487", "draftsman/classes/deconstruction_planner.py:278-322"]}
{"id": "C81", "title": "Merging an entity takes over the attributes of the other, and equality compares them", "statement": "After `a.merge(b)` for two entities of the same class every attribute of `a` reads as that of `b`, except what must stay (class, name, position, direction, orientation, id); a merge of two complete entities succeeds. `a == b` is an equivalence relation that holds exactly if class, name, position, id and all attributes agree; a merge of mergable entities makes them equal; equal entities have equal hashes and every entity can be hashed.", "quantifier": "For all 83 entity classes, all pairs of entities with arbitrary data, all validation functions of attributes and all validation modes.", "why_tests_cant": "The parts of `merge`, `__eq__` and `__hash__` are spread over thirty classes and joined by method resolution; an attribute forgotten in one of them shows only for the classes and pairs that differ in it.", "anchors": ["draftsman/classes/entity.py:742-765", "draftsman/classes/mixins/directional.py:239-246", "draftsman/classes/mixins/recipe.py:208-216", "draftsman/classes/mixins/control_behavior.py:93-173", "draftsman/prototypes/inserter.py:284-302", "draftsman/prototypes/train_stop.py:408-426"]}
{"id": "C82", "title": "Recipes and requested items are checked against what the machine can use", "statement": "Assigning a recipe or a list of item requests to a machine with warnings switched on stores it and warns exactly about an unknown recipe, a recipe that the machine cannot make, a module or item that the machine cannot use with its recipe and a fuel that it does not burn; the ingredients, modules and fuels offered are exactly those of the game data; with less validation nothing is warned about, and no valid value raises an exception.", "quantifier": "For all game data, all machines with any recipe and requests, all assigned values, all validation modes, and all sequences of constructions that filled the cache of fuels.", "why_tests_cant": "The tests use the bundled data and a few names; the claim ranges over all tables of recipes, modules and fuels, over machines unknown to the data, over the order of assignments and over what earlier constructions left in the class-wide cache.", "anchors": ["draftsman/data/recipes.py:26-75", "draftsman/classes/mixins/recipe.py:37-182", "draftsman/prototypes/assembling_machine.py:48-181", "draftsman/prototypes/furnace.py:47-200", "draftsman/prototypes/burner_generator.py:35-101", "draftsman/classes/mixins/burner_energy_source.py:29-201", "draftsman/classes/mixins/request_items.py:83-119", "draftsman/prototypes/lab.py:68-90", "draftsman/classes/mixins/inventory.py:122-205", "draftsman/classes/mixins/modules.py:119-169"]}
{"id": "C83", "title": "The tables of signals, fluids, modules, fuels and tiles hold what the game's data has", "statement": "After draftsman-update, the type set of a signal name consists of exactly the types (virtual, item, fluid, recipe, entity, space-location, asteroid-chunk, quality) of the categories of data.raw that hold a prototype of that name; each of the eight lists of signals has exactly the prototypes of its type in the order of the game; the raw table has exactly these names. Every item known to the library is an item signal and gets the type item when only its name is given, every entity that can be blueprinted is an entity signal, every item signal is an item, and a name always gets the same type. The fluids, modules and tiles are those of the data in order, the categories of modules and fuels hold exactly their members, and the extraction fails only for data that are not the game's.", "quantifier": "for all data.raw, all orders of the game and all names", "why_tests_cant": "The tables are made from the data of whatever version and mods are installed; the tests look at the pickled tables of one version, in one process with one hash seed.", "anchors": ["draftsman/environment/update.py:1172-1186", "draftsman/environment/update.py:1246-1252", "draftsman/environment/update.py:1266-1292", "draftsman/environment/update.py:1367-1632", "draftsman/environment/update.py:1640-1661", "draftsman/data/signals.py:88-129"]}
{"id": "C84", "title": "Constructor arguments end up in the fields of the entity", "statement": "Whatever is passed to the constructor of an entity for one of its fields, by its own name or by the name under which it is exported, is what that field holds afterwards (the object itself or what pydantic converts it to); left-out arguments count as their declared defaults; no argument influences another field; unknown keywords are kept; the entity stands at the given position or tile position; only a missing name makes the constructor fail; and two entities share no mutable object that the caller did not give them.", "quantifier": "all entity classes, all keyword arguments, all conversions and checks of pydantic", "why_tests_cant": "There are some ninety classes with up to eight cooperating constructors each, every one passing keywords on by hand; the tests construct each class with a few arguments and cannot show that none of the others is dropped or overwritten, nor that defaults are not shared between calls.", "anchors": ["draftsman/classes/entity.py:199-335", "draftsman/prototypes/asteroid_collector.py:82-130", "draftsman/prototypes/underground_belt.py:26-66", "draftsman/classes/mixins/directional.py:75-136", "draftsman/classes/mixins/io_type.py:26-42", "draftsman/prototypes/lamp.py:67-99"]}
{"id": "C85", "title": "Validating an object reports everything in it", "statement": "For every blueprint, planner or book, however deeply groups and books are nested, every data and every validation mode: validate(mode) with mode NONE and no force reports nothing and changes nothing; otherwise the result lists the errors and warnings of the object itself, of the ids of each list of entities, of every entity, every tile and every member, in that order and each once, so that the result is free of errors exactly if every part is; the mode may be given as a string and any other string is a ValueError; validating again gives the same errors and changes nothing more. It should also cover schedules, return rather than raise, and leave the data coerced.", "quantifier": "all trees of blueprints, books, groups, entities and tiles, all behaviours of the pydantic formats, all modes and force flags", "why_tests_cant": "The nesting of books and groups is unbounded and the formats of some hundred classes can each report anything; tests validate single objects.", "anchors": ["draftsman/classes/entity.py:700-744", "draftsman/classes/tile.py:263-293", "draftsman/classes/schedule.py:651-683", "draftsman/classes/entity_list.py:472-508", "draftsman/classes/tile_list.py:149-185", "draftsman/classes/group.py:557-573", "draftsman/classes/blueprintable.py:497-528", "draftsman/classes/blueprint.py:430-449", "draftsman/classes/blueprint.py:1028-1045", "draftsman/classes/blueprint_book.py:476-518"]}
{"id": "C86", "title": "Values in shorthand are understood or refused", "statement": "Whatever value is given for a color, a selection of networks, a condition, a comparator or a position: lists and tuples of channels mean the color with these channels in order, dictionaries the same as the sequence of their entries; a set of wire colors selects exactly these; (signal, comparator, value) means the comparison of the signal with the constant or second signal, Python's operators standing for the signs of the game; lists, tuples, dictionaries and vectors of two numbers mean the same position; all values are accepted exactly if their parts are, no part is dropped, and everything else is refused with a DataFormatError.", "quantifier": "all Python values built from null, truth values, numbers, text, lists, tuples, sets, dictionaries, vectors and other objects, and all ways pydantic may read text and signals", "why_tests_cant": "The values a user may pass are unbounded and nested; the tests try a few sequences of the right length.", "anchors": ["draftsman/signatures.py:586-606", "draftsman/signatures.py:626-653", "draftsman/signatures.py:684-699", "draftsman/signatures.py:702-774", "draftsman/classes/vector.py:54-77", "draftsman/classes/exportable.py:13-45"]}
{"id": "C87", "title": "Setting one link, infinity filter or section changes that one only, and energy interfaces survive export", "statement": "Setting link number n of a linked container sets or clears bit n of its 32 bit link and no other, so that after any sequence of calls each link is what the last call about it asked for; an integer is stored with its lowest 32 bits; a number outside [0, 32) is refused with an AssertionError. set_infinity_filter puts the filter asked for into its slot (the stack size is the default count), None empties the slot, other slots stay as they are, and a refused call changes nothing. add_section appends one section with an index of its own. An electric energy interface is exported without the values that are defaults of its prototype, and read back as it was.", "quantifier": "all links, all sequences of calls with all arguments, all validation modes, all lists of filters and sections, all values and prototype defaults", "why_tests_cant": "Tests set a few links and filters in one order; the claim is about every bit pattern, negative and wide numbers, every sequence of calls and every prototype, known or not.", "anchors": ["draftsman/prototypes/linked_container.py:36-131", "draftsman/prototypes/infinity_container.py:176-225", "draftsman/prototypes/electric_energy_interface.py:78-232", "draftsman/prototypes/constant_combinator.py:247-278", "draftsman/classes/mixins/request_filters.py:263-294"]}
{"id": "C88", "title": "Every check of a field reports exactly the values it is about", "statement": "In strict and pedantic mode every field check reports a value just if it is bad and stays silent otherwise: unknown names, signals of the wrong type, filters beyond the number of filters, virtual signals in constant combinators, bars where none is allowed or beyond the size of the inventory, odd positions on the double grid, temperatures and volumes out of range, instruments and notes that do not exist, forbidden signals in arithmetic combinators, and mappers of upgrade planners that do not fit or overwrite each other. In minimum mode and with validation off nothing is reported and nothing raises, pedantic mode reports at least what strict mode does, and entities that are not known are not judged.", "quantifier": "all values, all validation modes, all prototypes and qualities, all tables of instruments, all lists of mappers", "why_tests_cant": "Tests try one bad value per check in one mode; the claim is an equivalence for every value, mode, prototype, quality and list.", "anchors": ["draftsman/signatures.py:76-97", "draftsman/signatures.py:860-948", "draftsman/classes/mixins/inventory.py:39-122", "draftsman/prototypes/programmable_speaker.py:56-291", "draftsman/prototypes/arithmetic_combinator.py:117-208", "draftsman/classes/upgrade_planner.py:289-380", "draftsman/prototypes/heat_interface.py:38-57", "draftsman/classes/mixins/double_grid_aligned.py:21-45"]}
{"id": "C89", "title": "Two blueprints compare equal just if they have the same contents", "statement": "`==` on blueprints, entity lists, tile lists and schedule lists is an equivalence relation that tells contents apart and only contents: loading the same dictionary twice, or copying a blueprint, gives equal objects, and objects that differ in an entity, a tile, a schedule, a wire or a setting are unequal. Comparison of shapes for collisions follows the same rule.", "quantifier": "all blueprints, lists of entities, tiles and schedules, and all shapes", "why_tests_cant": "Tests compare a handful of hand-built pairs; the claim is an equivalence for all pairs, including those that differ only in identity, order or parts that are never compared.", "anchors": ["draftsman/classes/blueprint.py:1140-1156", "draftsman/classes/entity_list.py:649-660", "draftsman/classes/tile_list.py:305-314", "draftsman/classes/schedule_list.py:72-80", "draftsman/classes/association.py:34-56", "draftsman/classes/collision_set.py:87-88", "draftsman/utils.py:230-236", "draftsman/utils.py:361-368"]}
{"id": "C90", "title": "Records can be used like dictionaries, and conditions are stored as written", "statement": "A validated record can be used like a dictionary: what is written under a key is read back with `[]`, `in` and `get` under that key and its other name, other keys stay as they are, and a missing key raises an error. A circuit or logistic condition that is set is stored with the meaning it was written with, in whichever spelling of the comparator, leaves the other settings of the entity alone, and is refused with `DataFormatError` if a signal, the comparator or the constant is wrong.", "quantifier": "all record classes without ambiguous names, all records, keys and values; all conditions, spellings, signal tables and values of signals", "why_tests_cant": "Tests set a few fields of a few entities and look at the dictionary; the claim is about every field under every name, and the meaning of a condition for all signal values.", "anchors": ["draftsman/signatures.py:138-143", "draftsman/signatures.py:204-217", "draftsman/signatures.py:702-774", "draftsman/signatures.py:1435-1442", "draftsman/classes/mixins/control_behavior.py:112-168", "draftsman/classes/mixins/circuit_condition.py:71-106", "draftsman/classes/mixins/logistic_condition.py:71-105"]}
{"id": "C91", "title": "Leaving out defaults when exporting entities loses nothing", "statement": "When an entity is exported, fields that hold `None` or the default of their format are left out. Constructing the entity again from the exported dictionary gives the same value for every field, and an entity constructed without arguments exports none of its settings: for every entity class, the default of the constructor is the default of the format.", "quantifier": "all 83 entity classes, all their settings, all entities and stored values, all worlds of objects and conversions", "why_tests_cant": "The constructor and the format declare every default twice in different files; tests export a few configured entities of some classes, and a default on both sides of a disagreement is what they leave out.", "anchors": ["draftsman/classes/exportable.py:318-337", "draftsman/prototypes/artillery_wagon.py:41-78", "draftsman/prototypes/rocket_silo.py:62-100", "draftsman/prototypes/electric_energy_interface.py:219-232", "draftsman/classes/mixins/equipment_grid.py:29-45", "draftsman/classes/entity.py:107-147"]}
{"id": "C92", "title": "Schedule lists hold schedules and act as Python lists", "statement": "A schedule list holds nothing but schedules, whatever is called on it; a call that would put in something else, or names a place that does not exist, raises and changes nothing; any other call does what it does on a Python list (insert, assign and delete by index and slice, extend, pop, remove, reverse). Every blueprint and group has schedules of its own.", "quantifier": "all lists of schedules, all sequences of calls with all values, indices and slices, all worlds of blueprints and groups sharing or not sharing lists", "why_tests_cant": "Tests append and assign a few schedules; assigning a list to one index, extending by mixed values, stepped slices and two blueprints with one list are histories nobody wrote down.", "anchors": ["draftsman/classes/schedule_list.py:16-80", "draftsman/classes/blueprint.py:899-932", "draftsman/classes/group.py:460-485"]}
{"id": "C93", "title": "Renaming an entity gives it the footprint of its new name", "statement": "Assigning a name to an entity in no collection keeps its tile position, direction and everything else; footprint and position become those of an entity constructed with the new name in the same place, facing the same way, and turning it afterwards uses the new footprint. Assigning its own name changes nothing. An entity in a collection, or under validation a name that is no string, is refused and nothing changes.", "quantifier": "all game data with ordered boxes, all entities however constructed (fixed, four-way, eight-way, vehicles), all names, directions and orientations, all sets of names constructed before", "why_tests_cant": "The collision boxes of turned entities are cached per name over the life of the process: whether renaming works depends on which entities were constructed before, and tests construct many.", "anchors": ["draftsman/classes/entity.py:286-372", "draftsman/classes/mixins/directional.py:75-165", "draftsman/classes/mixins/eight_way_directional.py:50-108", "draftsman/classes/mixins/orientation.py:35-58"]}
{"id": "C94", "title": "Loading runs every mod's stage files once, in order, from the mod's own folder", "statement": "Loading runs, stage after stage and in load order, each stage file each mod has, once, with the mod on top of the stack of mods, an empty module cache and the search path of that mod; whatever a file requires, path and stack are restored after it. A required module is the file of that name in the mod that requires it, or, written __mod__/..., in the named mod; each file is run at most once per stage of a mod; mods in archives are loaded like those in folders. Between the stages every declared setting gets the user's value if there is one, else its default, and no other setting appears.", "quantifier": "all scripts (whatever they do to the tables and require, also depending on them), all files and folders, all load orders, all module names, all declared settings and settings files", "why_tests_cant": "The search path, the stack of mods and the module cache are global state changed by nested requires; tests load the base game and a few small mods whose modules do not collide.", "anchors": ["draftsman/environment/update.py:310-450", "draftsman/environment/update.py:655-710", "draftsman/environment/mod_list.py:149-156", "draftsman/compatibility/interface.lua:86-358", "draftsman/compatibility/settings.lua:12-33"]}
{"id": "C95", "title": "Choosing a version of the game checks out its tag", "statement": "Setting the version of the game data checks out the tag named by the first three numbers of the version asked for (missing ones zero); \"latest\" checks out the newest tag; whenever there is such a tag this works, and when it fails nothing is changed. The version recorded after an update has four numbers, which are those of its text.", "quantifier": "all repositories (tags, times, commits), whatever is checked out, all version strings, both verbosities", "why_tests_cant": "The tests of this function need the network and the one real repository, where all tags have three numbers and one is always checked out.", "anchors": ["draftsman/environment/update.py:235-308", "draftsman/environment/update.py:1748-1766"]}
{"id": "C96", "title": "Exporting what was loaded gives the same dictionary", "statement": "Any dictionary that Blueprint.to_dict produces can be loaded again, and exporting the loaded blueprint gives the same dictionary: the same entities with the same numbers, contents and positions, the same tiles, grid, schedules and wires. It is the same dictionary however often this is repeated.", "quantifier": "all blueprints with any nesting of groups, any wires and schedules, any grid position, that can be exported; all contents of entities; all ways in which entities may compare equal", "why_tests_cant": "Tests compare single hand-written blueprints without ids; that a second export differs needs entities which differ only in what is not exported.", "anchors": ["draftsman/classes/blueprint.py:137-275", "draftsman/classes/blueprint.py:493-635", "draftsman/classes/blueprint.py:1046-1136", "draftsman/classes/entity.py:755-762"]}
{"id": "C97", "title": "Passing warnings on to the caller changes only whom they are attributed to", "statement": "A function decorated with reissue_warnings returns or raises exactly what it would without the decorator, and the caller sees the same warnings in the same order, however decorated functions are nested and whatever filters are in force.", "quantifier": "all programs of warnings, exceptions, decorated and plain calls and try blocks, nested in any way; all filters that report, drop or raise warnings", "why_tests_cant": "Tests expect single warnings of functions that return; warnings of a function that goes on to raise are never looked at.", "anchors": ["draftsman/utils.py:926-946", "draftsman/classes/entity_list.py:178-202", "draftsman/classes/blueprintable.py:46-130"]}
{"id": "C98", "title": "A rail planner can be made of every rail planner item", "statement": "RailPlanner(name, head_position, head_direction) gives a planner for every item of type rail-planner, any position and any direction, and refuses any other name with DraftsmanError.", "quantifier": "all item data, names, positions, directions and results of the base constructor", "why_tests_cant": "The tests of the class are disabled; that the constructor fails for all arguments is a statement about all of them.", "anchors": ["draftsman/classes/rail_planner.py:24-48", "draftsman/classes/rail_planner.py:85-88", "draftsman/constants.py:63-81"]}
{"id": "C99", "title": "Wait conditions and stops come back from their dictionaries", "statement": "Exporting a wait condition, leaving out defaults, and reading the dictionary gives an equal condition; exporting the stops of a schedule and reading them gives equal stops in the same order; reading leaves the caller's dictionaries alone; and a stop read without wait conditions is the same as one added without.", "quantifier": "all conditions with any kind, comparison, time and condition, all schedules with any number of stops and conditions, any notion of validity", "why_tests_cant": "The constructor puts in defaults that depend on the kind while export leaves out those of the format; the tests of to_dict look at two conditions and never read the result back.", "anchors": ["draftsman/classes/schedule.py:60-170", "draftsman/classes/schedule.py:356-401", "draftsman/classes/schedule.py:413-464", "draftsman/classes/exportable.py:319-334"]}
{"id": "C100", "title": "Exported blueprint strings load into a blueprint that exports the same string", "statement": "Exporting a blueprint to a string never produces something that load_from_string refuses; the blueprint that is loaded has the same entities, tiles, schedules, wires, snapping, attributes, unknown entries and index, and exporting it gives the same string, character by character. Strings that are no blueprints are refused with the documented errors.", "quantifier": "all blueprints that can be exported, with any entities, nested groups, tiles, schedules, wires, attributes and unknown JSON entries; all strings for the errors", "why_tests_cant": "a test compares a few blueprints; the claim composes flattening, numbering, JSON, base64 and compression for arbitrary contents, and depends on which entities compare equal", "anchors": ["draftsman/classes/blueprintable.py:load_from_string", "draftsman/classes/blueprintable.py:to_string", "draftsman/classes/blueprint.py:to_dict", "draftsman/classes/blueprint.py:setup", "draftsman/utils.py:string_to_JSON", "draftsman/utils.py:JSON_to_string"]}
{"id": "C101", "title": "Exported strings of books load into the same books and export the same string", "statement": "Exporting a book of blueprints, planners and books, nested to any depth, to a string and passing it to get_blueprintable_from_string gives an object of the same class with the same attributes, index and unknown entries, the members in the same order, each of its class and at its index (its place if it had none), and exporting this gives the same string, character by character. The constructors and load_from_string of a class accept exactly the strings of that class.", "quantifier": "all books that can be exported, of any nesting depth, with any blueprints, planners, attributes and unknown JSON entries", "why_tests_cant": "a test compares a few books; the claim is an induction over nesting that composes the numbering of members, the search for the class by key, flattening of blueprints, JSON, base64 and compression", "anchors": ["draftsman/blueprintable.py:get_blueprintable_from_string", "draftsman/classes/blueprint_book.py:BlueprintableList.__init__", "draftsman/classes/blueprint_book.py:setup", "draftsman/classes/blueprint_book.py:to_dict", "draftsman/classes/blueprintable.py:load_from_string", "draftsman/classes/blueprintable.py:to_string", "draftsman/classes/upgrade_planner.py:setup", "draftsman/classes/deconstruction_planner.py:setup"]}
{"id": "C102", "title": "Leaving out defaults inside nested settings loses nothing", "statement": "to_dict leaves out fields at their defaults, fields that are None and excluded fields not only at the top but inside every nested model: control behaviors, conditions, signals, sections, filters, planner settings. Reading the exported dictionary gives the same model again, at every depth; every setting that has a value has it again; an empty control behavior, which is deleted from the export, is the default one; and exporting and reading a second time changes nothing.", "quantifier": "all values of all 73 models of the package that are parts of entities, planners and blueprints, with lists of any length and unknown keys; the general theorems are for all models of this kind", "why_tests_cant": "tests export a few settings of a few entities; the claim is an induction over the structure of models, where every default of every field at every depth must be told apart from what a user can set", "anchors": ["draftsman/classes/exportable.py:to_dict", "draftsman/classes/mixins/control_behavior.py:to_dict", "draftsman/signatures.py:DraftsmanBaseModel", "draftsman/signatures.py:SignalID", "draftsman/signatures.py:Condition", "draftsman/signatures.py:SignalFilter", "draftsman/signatures.py:Section.set_signal", "draftsman/signatures.py:EntityFilter", "draftsman/prototypes/programmable_speaker.py:CircuitParameters", "draftsman/prototypes/transport_belt.py:ControlBehavior"]}
{"id": "C103", "title": "Mappings of upgrade planners can be given by name, by dictionary or by model", "statement": "set_mapping, remove_mapping and the attribute mappers take the targets of a mapping as None, as a name, as a dictionary or as a MapperID; a name stands for the module of that name (type item), otherwise for the entity of that name. All forms of the same mapping do the same, an unknown name is refused (InvalidMapperError by the methods, DataFormatError by the attribute), a refused call changes nothing, pairs assigned to the attribute fill the slots in order, and a mapping given in one form can be removed in another.", "quantifier": "all tables of modules, entities and items, all planners, targets, indices and lists of entries, all validating modes", "why_tests_cant": "tests set a handful of known names; that every form of every target has the same effect, and that nothing changes on any failure, is a statement over all data and planners", "anchors": ["draftsman/data/signals.py:get_mapper_type", "draftsman/data/signals.py:mapper_dict", "draftsman/signatures.py:MapperID.init_from_string", "draftsman/classes/upgrade_planner.py:UpgradePlanner.mappers", "draftsman/classes/upgrade_planner.py:UpgradePlanner.set_mapping", "draftsman/classes/upgrade_planner.py:UpgradePlanner.remove_mapping"]}
{"id": "C104", "title": "Exactly the JSON texts are read from blueprint strings, in any of the Unicode encodings", "statement": "string_to_JSON reads a document from a string just if the part after the first character is base64 of something zlib unpacks to the bytes of a JSON text (RFC 8259, and besides it the names NaN, Infinity and -Infinity) in UTF-8, UTF-16 or UTF-32 of either byte order, with or without a byte order mark; the document is the one the grammar gives the text, where of members with the same key the last one counts in the place of the first; every other string raises MalformedBlueprintStringError. In particular every string written by another program in this way is read, and what JSON_to_string writes is such a text.", "quantifier": "all strings, byte sequences, texts and documents, all ways of packing and of reading floats", "why_tests_cant": "tests decode a few strings exported by the game or by the library; which of the infinitely many spellings of a document are accepted, and that nothing else is, needs the grammar", "anchors": ["draftsman/utils.py:string_to_JSON", "draftsman/utils.py:JSON_to_string"]}
{"id": "C105", "title": "Conditions of decider combinators can be assigned, extended and exported", "statement": "The conditions and outputs of a decider combinator, whether made with the comparison operators or given as dictionaries, can be assigned, a condition can be put before or after them with `&` and `|`, a copy of the combinator has equal ones, and they are exported as dictionaries that can be written into a blueprint string.", "quantifier": "all lists of conditions and outputs (objects and dictionaries in any order), all conditions added, both operators, validating or not", "why_tests_cant": "Lists are unboundedly long and mix objects and dictionaries in any order; the tests of the decider combinator are commented out and no example with operators is exported.", "anchors": ["draftsman/prototypes/decider_combinator.py:134-172", "draftsman/prototypes/decider_combinator.py:410-423", "draftsman/prototypes/decider_combinator.py:516-556", "draftsman/classes/exportable.py:305-320", "draftsman/utils.py:421"]}
{"id": "C106", "title": "Attributes read from the game's data give the data's value, the default, or None", "statement": "The attributes of entities, tiles and planners that are looked up in the game's data (type, flags, collision mask and set, filter count, wire reach, inventory size, module slots, lab inputs, item slot count and so on) give what the data has for the object's name; if the prototype lacks the key they give the default; if the name is not recognized they are None; reading them never fails.", "quantifier": "all data, all names, all 24 attributes", "why_tests_cant": "The data depends on the game's version and the mods, so that any prototype may lack any key and any name may be unknown; tests only use the data that comes with the package.", "anchors": ["draftsman/classes/entity.py:373-385", "draftsman/classes/entity.py:559-657", "draftsman/classes/mixins/filters.py:54-64", "draftsman/classes/mixins/power_connectable.py:43-52", "draftsman/classes/mixins/equipment_grid.py:48-55", "draftsman/prototypes/constant_combinator.py:139-151", "draftsman/classes/deconstruction_planner.py:328-342"]}
{"id": "C107", "title": "The list of blueprints of a book is a Python list that holds nothing but blueprints, planners and books", "statement": "Calls on `book.blueprints` (insert, append, extend, assignment and deletion of items and slices, pop, remove, reverse, clear) do what they do to a Python list, refuse everything but blueprints, planners and books, and change nothing if they raise. A list made of dictionaries has an object of the right class for each, in order. Assigning replaces what the book shows, and no book shows what is put into another.", "quantifier": "all lists, all values, all indices and slices, all sequences of calls, all books", "why_tests_cant": "Indices may be negative, out of range or slices with any step, and what a book holds depends on all the calls before and on which books share a list object; tests try a few calls on one book.", "anchors": ["draftsman/classes/blueprint_book.py:86-157", "draftsman/classes/blueprint_book.py:336-339", "draftsman/classes/blueprint_book.py:442-470"]}
{"id": "C108", "title": "Coordinates of positions can be changed in place", "statement": "Assigning one coordinate of the position or the tile position of an entity (`entity.position.x = 2`, `entity.tile_position.y = 3`, `entity.position[0] = 2`) keeps the two in agreement as assigning the whole does, is refused while the entity is in a collection, never fails for a number, and moves no other entity or group; the same for groups.", "quantifier": "all histories of constructing, copying, deleting and assigning, all coordinates, all entities and groups", "why_tests_cant": "What is brought along depends on which entity the vector was made for, which copying keeps: whether a coordinate works depends on the history of copies and on whether the original still exists. Tests change coordinates of freshly made entities.", "anchors": ["draftsman/classes/entity.py:42-83", "draftsman/classes/entity.py:284-287", "draftsman/classes/entity.py:477-532", "draftsman/classes/entity.py:781-795", "draftsman/classes/group.py:341-348", "draftsman/classes/vector.py:13-136"]}
{"id": "C109", "title": "Two entities are independent after a merge", "statement": "After `a.merge(b)` the entity `a` has the merged attributes of `b`, but no list or model in common with it: `b` is unchanged by the merge, and whatever is later done to one of them, or to an object within it, does not show in the other.", "quantifier": "For all 83 entity classes, all memories in which the two entities have nothing in common, all data within them, all types of attributes, both with and without validation, and all later changes of either entity.", "why_tests_cant": "Whether the stored value is the other entity's object or a copy depends on the base class of the model, on the validation mode and on undeclared keys; tests look at the values right after the merge, when a shared object looks just like a copy.", "anchors": ["draftsman/classes/entity.py:750-753", "draftsman/classes/mixins/control_behavior.py:80-96", "draftsman/signatures.py:242-247", "draftsman/prototypes/transport_belt.py:48-57", "draftsman/classes/mixins/request_items.py:227-230"]}
{"id": "C110", "title": "The list of mods shows what is loaded", "statement": "The table of mods has one line for every version of every mod found, in their order and in aligned columns; names, versions and locations are shown in full up to fifty, thirty and a hundred characters and otherwise with three dots at the end; and the versions marked in it are exactly those that will be loaded.", "quantifier": "all collections of mods and versions, both forms of the table", "why_tests_cant": "the widths depend on all mods at once, and names, versions and numbers of versions are unbounded", "anchors": ["draftsman/environment/mod_list.py:518-611", "draftsman/environment/update.py:490"]}
{"id": "C111", "title": "What the commands of the console script change", "statement": "Commands that report something change no file; enabling and disabling change only the list of mods, choosing a version only what is checked out; an update writes the version checked out and all tables extracted from it with the mods enabled, succeeds whenever these are sound, changes nothing if it fails, and nothing when it is done again.", "quantifier": "all sequences of commands, all repositories, mods, data and failures of the steps", "why_tests_cant": "needs the game's data in several versions, mods made for them, and failures in the middle of an update", "anchors": ["draftsman/environment/script.py:33-269", "draftsman/environment/update.py:1670-1787", "draftsman/environment/mod_list.py:343-345"]}
{"id": "C112", "title": "The documented update function loads the mods in order", "statement": "draftsman.env.update() loads exactly the mods that are not switched off, as folders or archives, of several versions the newest; other files in the folder of mods do not matter, and leaving mods out leaves those of the game; a mod that is missing or excluded is reported; the files run stage by stage, each once and after those of the mods depended on; and the table of versions has what was loaded.", "quantifier": "all contents of the game's folder, the folder of mods and the list of mods, all dependencies and flags", "why_tests_cant": "the function fetches from a repository and runs the game's Lua files; mods, dependencies and file names can be combined without end", "anchors": ["draftsman/env.py:42-83", "draftsman/env.py:1389-1640", "draftsman/env.py:1643-2114"]}
{"id": "C113", "title": "Saved settings of mods take the place of the defaults", "statement": "After the settings stage of an update, every setting that a mod declares is in the table of its type and has the value saved for it in mod-settings.dat, or its default when none is saved; settings saved for mods that are gone are ignored; without a file all have their defaults. This holds of both versions of the update function.", "quantifier": "all setting prototypes of all kinds, all settings files of any size, version and flags", "why_tests_cant": "names, values and the number of settings are unbounded, and the value that reaches a mod goes through a binary reader, a Lua table and a Python loop", "anchors": ["draftsman/compatibility/settings.lua:12-33", "draftsman/environment/update.py:400-418", "draftsman/env.py:131-211", "draftsman/env.py:2066-2082"]}
{"id": "C114", "title": "Positions on the grid of the game are computed without rounding errors", "statement": "Moving, rotating and flipping a collection, taking global positions through nested groups and subtracting the grid offset on export are computed in doubles, and give exactly what they would give in exact arithmetic; so moving away and back restores a collection, and what holds of exact positions holds of the program.", "quantifier": "all collections with positions on a grid of 1/256 tile, all sequences of calls of any length that stay within 2^53 units of the grid, all depths of groups", "why_tests_cant": "rounding errors depend on the positions, on the order of calls and on how many there are; a test compares a few round numbers", "anchors": ["draftsman/classes/vector.py:138-172", "draftsman/classes/transformable.py:19-224", "draftsman/classes/entity.py:477-555", "draftsman/classes/blueprint.py:1094-1099"]}
{"id": "C115", "title": "Texts come back from blueprint strings as they were put in", "statement": "A text of any code points (a label, a description, a key of tags) written into a blueprint string with JSON_to_string is read back by string_to_JSON unchanged, and different texts are written differently, so that no key of a dictionary is lost.", "quantifier": "all Python strings, with any code points and of any length, all ways of packing", "why_tests_cant": "tests use a few labels; which code points survive the escapes of JSON depends on their neighbours, so that all sequences matter", "anchors": ["draftsman/utils.py:string_to_JSON", "draftsman/utils.py:JSON_to_string"]}
{"id": "C116", "title": "What is in an entity list, at any depth, can be removed and reached", "statement": "An entity or group that is `in` an entity list, directly or within groups at any depth, is removed by recursive_remove, which takes a match in the list itself before one in a group, removes one member only, and fails without effect if there is none; and a path of positions and ids leads to the member found by taking one step after the other.", "quantifier": "all entity lists with groups nested to any depth, all members asked for, all paths", "why_tests_cant": "tests nest one group deep; the claim is about all depths and about which of several equal members is taken", "anchors": ["draftsman/classes/entity_list.py:EntityList.recursive_remove", "draftsman/classes/entity_list.py:EntityList.__contains__", "draftsman/classes/entity_list.py:EntityList.__getitem__"]}
{"id": "C117", "title": "An entity list is a mutable sequence", "statement": "pop with a position, counted from either end, or with an id returns that member and removes it and nothing else; remove takes away the first member equal to the given one; reverse turns the list round; extending a list by itself doubles it. Whatever fails leaves the list as it was, and afterwards every id still names the right member.", "quantifier": "all entity lists reached by any sequence of calls, all positions, ids and values", "why_tests_cant": "the operations are inherited and composed of others; whether they work depends on where in the list ids stand", "anchors": ["draftsman/classes/entity_list.py:EntityList", "draftsman/classes/entity_list.py:EntityList.__setitem__", "draftsman/classes/entity_list.py:EntityList.__delitem__", "draftsman/classes/entity_list.py:EntityList.extend"]}
{"id": "C118", "title": "Assigning to the entities of a blueprint or group replaces its contents", "statement": "Assigning None, an entity list or a sequence of entities, groups and dictionaries to the entities of a blueprint or a group makes it hold exactly copies of what was given, in the same order, with their ids, and makes it their parent; what cannot be assigned (something that is no entity, a dictionary without name, two entries of the same id) is refused and the contents stay. What was assigned is left as it was, the wires join members, and former members have nothing to do with the blueprint any more.", "quantifier": "all blueprints and groups, all values assigned", "why_tests_cant": "tests assign short lists and look at the members only, not at the wires, at the objects that were there before, or at the values assigned", "anchors": ["draftsman/classes/blueprint.py:Blueprint.entities", "draftsman/classes/group.py:Group.entities", "draftsman/classes/entity_list.py:EntityList.__init__"]}
{"id": "C119", "title": "The version of a blueprint reads back as it was set", "statement": "Assigning two to four version parts or a 64-bit number to the version of a blueprint, book or planner makes version_tuple and version_string give exactly these parts (missing ones zero) or those that pack to the number; anything else is refused and the version stays; None removes the version and reading it then does not fail.", "quantifier": "all sequences, numbers and other values, all modes of validation, all histories of assignments", "why_tests_cant": "tests set a few small versions; packing of parts with carries, wrong counts, negative and non-integer parts are unbounded", "anchors": ["draftsman/classes/blueprintable.py:Blueprintable.version", "draftsman/classes/blueprintable.py:Blueprintable.version_tuple", "draftsman/signatures.py:normalize_version"]}
{"id": "C120", "title": "Rails that leave the double grid are reported", "statement": "A blueprint or group counts as bound to the double grid exactly when some entity in it, at any depth of groups, is; translate warns exactly when it is and the distance is odd; without a warning rails stay on (or off) the grid; validating complains of exactly those rails and stops that are off the grid in the blueprint; and after a warning their positions are cast to the grid on export, as the warning says.", "quantifier": "all nestings of groups at any positions, all distances, all modes of validation", "why_tests_cant": "tests translate one rail outside of groups; the positions depend on all groups around an entity", "anchors": ["draftsman/classes/group.py:Group.double_grid_aligned", "draftsman/classes/blueprint.py:Blueprint.double_grid_aligned", "draftsman/classes/transformable.py:Transformable.translate", "draftsman/classes/mixins/double_grid_aligned.py:DoubleGridAlignedMixin"]}
{"id": "C121", "title": "Infinity pipes hold settings that the game accepts", "statement": "With validation on, an infinity pipe never holds a fluid temperature without a fluid or outside of the range of its fluid: set_infinite_fluid stores all four values or nothing, a single assignment that is not refused changes that field only and leaves acceptable settings, a refused one changes nothing, merging copies acceptable settings only, and the only exception is DataFormatError.", "quantifier": "all histories of assignments to single fields, to all of them, of None and of modes of validation; all values; all tables of fluids", "why_tests_cant": "tests go through one history with water and steam and assert the stored values after refusals as they happen to be", "anchors": ["draftsman/prototypes/infinity_pipe.py:InfinityPipe.Format.InfinitySettings.validate_temperature", "draftsman/prototypes/infinity_pipe.py:InfinityPipe.set_infinite_fluid", "draftsman/prototypes/infinity_pipe.py:InfinityPipe.merge", "draftsman/classes/exportable.py:test_replace_me"]}
{"id": "C122", "title": "Searches of a blueprint find what is in its groups, where it is", "statement": "After any history of appending entities and groups, deleting, moving and translating, on a blueprint and on groups standing alone or in the blueprint, a search of the blueprint at a point returns exactly the entities that are in the blueprint, directly or through groups in groups, and whose collision box, at the sum of the positions of the entity and its parents, is around the point; each once. Appending a group puts copies of all that is in it at the same places, and deleting a group takes out all that is in it.", "quantifier": "all histories of appends of entities and of groups to any collection, deletions from any collection, moves and translations; all positions, boxes and points; any depth of nesting", "why_tests_cant": "tests search blueprints with a group that was complete when it was appended and is never changed afterwards", "anchors": ["draftsman/classes/entity_list.py:EntityList.insert", "draftsman/classes/entity_list.py:EntityList.__delitem__", "draftsman/classes/spatial_hashmap.py:SpatialHashMap.recursive_add", "draftsman/classes/spatial_hashmap.py:SpatialHashMap.recursive_remove", "draftsman/classes/spatial_hashmap.py:SpatialHashMap.get_on_point", "draftsman/classes/transformable.py:Transformable.translate"]}
{"id": "C123", "title": "Attributes of blueprints, books and planners read what was last assigned", "statement": "After any sequence of assignments to the attributes of a blueprint, blueprint book, upgrade planner or deconstruction planner, each attribute reads the value last assigned to it and accepted, as validation converts it, and what it read before if there was none. An assignment changes no other attribute; one that raises an exception changes nothing; in the modes that validate, a value that fails validation is refused. `None` removes the snapping grid.", "quantifier": "all four classes, all attributes but the lists of entities, tiles and schedules, all sequences of assignments in any modes, all values and all validation functions, all earlier states", "why_tests_cant": "tests assign one attribute of a new object and read it back; the claim is about every order of assignments to all attributes, with refused ones and changes of the mode in between", "anchors": ["draftsman/classes/blueprintable.py:186-432", "draftsman/classes/blueprint.py:640-976", "draftsman/classes/blueprint_book.py:352-470", "draftsman/classes/upgrade_planner.py:493-594", "draftsman/classes/deconstruction_planner.py:345-556"]}
{"id": "C124", "title": "Wait conditions read what was assigned, and validate reports exactly what is wrong", "statement": "A wait condition made with validation has valid attributes, with 30 seconds for the type `time`, 5 seconds for `inactivity` and a condition for the types that use one where none is given; values that are not valid are refused. Afterwards each attribute reads the last value assigned to it and accepted. `validate` reports an error exactly if some attribute is not valid (unless told not to look), so it reports none after validated assignments only, and none once every wrong attribute has been assigned a valid value. Values it finds no fault with are those of the format, and the documented defaults hold whenever the type is `time` or `inactivity`.", "quantifier": "all arguments of the constructor, all sequences of validated and unvalidated assignments to the four attributes, all values, all validation functions of pydantic's kind, all modes", "why_tests_cant": "tests build conditions of each type and compare their dicts; the claim is about every sequence of assignments with and without validation, and about what validate says after each", "anchors": ["draftsman/classes/schedule.py:61-94", "draftsman/classes/schedule.py:103-170", "draftsman/classes/schedule.py:195-289"]}
{"id": "C125", "title": "Orientations print as the winds they are and work as keys", "statement": "The representation of an orientation shows its value, in [0, 1), and its name exactly if it is one of the eight winds, however it was made: from a number, a constant or another orientation, as a sum, difference or opposite. Orientations that compare equal print alike. A set of orientations holds equal ones once.", "quantifier": "all numbers, all expressions of orientations, all addresses of the objects, all lists of objects put into a set", "why_tests_cant": "tests print the constants and one sum; the claim is about all expressions, and about hashes that depend on where an object lies in memory", "anchors": ["draftsman/constants.py:369-404", "draftsman/constants.py:453-507"]}
{"id": "C126", "title": "Groups hold what they were made with and read what was assigned", "statement": "A group that is made reads its id, name, type, position, schedules and wires as it was given them, with the documented kinds of value and no others accepted; a group made from a string has those of the string. After any assignments, each attribute reads what the last successful assignment to it gave; an assignment that raises leaves the group as it was, and a group inside another cannot be moved.", "quantifier": "all arguments of the constructor, all programs of assignments that catch their exceptions, all behaviours of the parts that convert positions, schedules and strings", "why_tests_cant": "tests set single attributes of fresh groups; the claim is about every sequence of accepted and refused assignments, and about every combination of arguments", "anchors": ["draftsman/classes/group.py:82-146", "draftsman/classes/group.py:209-229", "draftsman/classes/group.py:233-501", "draftsman/classes/schedule_list.py:16-36"]}
{"id": "C127", "title": "A box has one set of corners and a place of its own", "statement": "However a box was derived (made, turned, shifted, as the bounding box of another, as the union of two), the corners it reports are those of the region it spans, so tests against rectangles judge it as the box it is; and giving boxes to a collision set at a position moves each of them once by that position and no other box.", "quantifier": "all programs that make, turn, shift, bound, join and collect boxes, all coordinates", "why_tests_cant": "tests build boxes with the constructor and look at corners and regions apart; the claim is about every chain of derivations, and about vectors shared between boxes", "anchors": ["draftsman/utils.py:34-253", "draftsman/utils.py:740-762", "draftsman/classes/collision_set.py:20-32", "draftsman/classes/vector.py:56-81"]}
{"id": "C128", "title": "Areas of searches are read as they are documented", "statement": "find_entities, find_entities_filtered and find_tiles_filtered take as area an AABB, a pair of points, or a sequence of four numbers, and anything else is refused with a TypeError; every form of the same area gives the same result, namely the entities whose boxes overlap it; and without an area find_entities gives all entities of the collection, as an area that covers everything does.", "quantifier": "all values given as area, all collections built by additions and removals, all nestings of groups", "why_tests_cant": "tests pass one box and one list of four numbers; the claim is about every shape of argument, documented or not, and about nested collections", "anchors": ["draftsman/utils.py:107-121", "draftsman/utils.py:253", "draftsman/classes/collection.py:181-203", "draftsman/classes/collection.py:303-308", "draftsman/classes/collection.py:1797-1805"]}
{"id": "C129", "title": "Vectors calculate coordinate by coordinate", "statement": "Adding, subtracting, multiplying, dividing and floor dividing a vector by another vector, a pair of numbers or a number gives the vector of the results for each coordinate, with Python's types; a subtraction undoes an addition and a division a multiplication; absolute value and rounding act on each coordinate, rounding to the nearest; vectors are equal just if their coordinates are; only divisions by zero fail, and every other operand is refused with a TypeError.", "quantifier": "all vectors of numbers, all values as the other operand, all operators and numbers of places", "why_tests_cant": "tests add and multiply a few vectors; the claim is about every value that can be written on the right of the operator, which is tried first as a sequence and then as a number", "anchors": ["draftsman/classes/vector.py:120-126", "draftsman/classes/vector.py:138-172", "draftsman/classes/vector.py:174-181"]}
