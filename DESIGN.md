# Design

Formal model of the pure and state-machine core of factorio-draftsman (source read from /repo, never run)
in Lean 4, with theorems about it. `properties.jsonl` lists the claims, `MANIFEST.json` maps each claim to
theorem names, `seeded/LOG.jsonl` records mutation tests.

## Layout

* `lean/Verif/Model/*.lean` – executable model; each definition cites the file and lines it models and says where it simplifies.
* `lean/Verif/Proof/*.lean` – helper lemmas.
* `lean/Verif/Props/*.lean` – specifications and property theorems only, each with a concrete non-vacuity example.
  Theorem names start with the property id. `_partial` marks a theorem weaker than the claim;
  `_refuted` marks a proof that the unchanged code violates (part of) the claim, with a concrete witness.

## Trusted base

* The Lean 4.33.0 kernel and the three standard axioms `propext`, `Classical.choice`, `Quot.sound`. No axioms of our own, no `sorry`, no `native_decide`/`bv_decide`.
* The reading of the Python source: the tie between model and code is by citation only.
* Python `float` is modelled by exact rationals ℚ (or integers); rounding error, NaN and infinities are outside the model, except in `FloatPos` (C114), which rounds positions to 53 bits and shows that on the grid of 1/256 tile, within 2^45 tiles, the exact model of moving, rotating, flipping and nesting computes what doubles compute. Vectors of orientations (`OrientVec`) use real numbers, for the cosine and the sine.
* Python `int` is `Int`/`Nat` (unbounded, faithful). `dict` is an association list with first-match lookup / insertion order where order matters.
* Object identity is modelled by explicit identifiers; weak references die in the model only where it says so (`Export`, `Copy`).
* Library code (pydantic, `warnings`, `copy`, `zlib`, lupa/Lua, git, zip archives) is modelled only where a property is about what the repository does with it, and then by the rules documented for it; elsewhere it is a parameter (stated at each definition). Python's `json` and `base64` are modelled in `Model/Json.lean`. Assumed of pydantic in C99: default values are neither validated nor converted, and `exclude_defaults` leaves out what equals the default (for fields with a serializer of their own both possibilities are covered).
* The pickled game data is a parameter of the theorems; no theorem depends on what a particular version of the game contains.
* Each property theorem's axioms are printed by `#print axioms` in `lean/Verif/Audit.lean` and listed in `AXIOMS.md`.

## Plan per property

* **C01 Version numbers survive packing** (`Version`): `encode_version`/`decode_version` over Nat with real shifts, `|||`, `&&&`. Round trip by bit-level lemmas; order by strict monotonicity of the packed form against an independent lexicographic order.
* **C02 Version strings survive parsing** (`Version`): strings as `List Char`; `str.split('.')`, `int()`, `str(int)` modelled on decimal digits. Round trip by induction over components and digits.
* **C03 Blueprint strings decode to what was encoded, and bad ones fail one way** (`Codec`, `Json`): base64/zlib/json as parameters returning `Except`; assumed inverse. Error totality by case analysis over every decoder failure. `Json` then puts Python's `json` and `base64` in the place of the parameters and proves them inverse for all documents (`C03_json`, `C03_base64`, `C03_real`); of `zlib` it stays a hypothesis that it decompresses what it compressed, and of floats that they are read as they are written.
* **C04 Axis-aligned overlap test is exact** (`AABB`): coordinates in ℚ. Overlap = existence of an interior point; shift invariance; closed membership.
* **C05 Bounding boxes are exact joins** (`AABB`): `extend_aabb` and the fold in `get_world_bounding_box`; spec is least upper bound for box inclusion; permutation invariance follows from uniqueness.
* **C06 Reported dimensions cover the box tightly** (`AABB`): `Rat.ceil`; least-integer characterisation.
* **C07 Quarter-turn rotation of boxes is exact** (`AABB`): rotate matrices applied to corners then reordered; point-set image, closure under addition, rejection of non-quarter turns.
* **C08 Box-circle overlap test is exact** (`AABB`): clamped closest point; existence of a common point (squared distance, no square roots).
* **C09 Rotated-rectangle overlap test is sound both ways** (`Rect`): rectangle given by centre and an orthonormal rational axis pair (the angle's cos/sin as parameters with c²+s²=1). Soundness of reported disjointness; reported overlap is compared with interior intersection.
* **C10 Bounding box of a rotated rectangle contains it** (`Rect`): the `if/elif` min/max scan over four corners; refutation by witness, partial theorem under the condition the scan needs.
* **C11 Surface conditions are checked exactly** (`Surface`): conditions with optional min/max over ℚ, property table as association list, prototypes of planets with the table `surface_properties` in them; iff-characterisation, monotonicity; that the planet does not matter with the data of the game, and the refutation.
* **C12 Energy strings parse to the right number** (`Energy`): string scan over `List Char`; decimal digit strings, prefix table; rounding half-even on exact rationals (float rounding not modelled).
* **C13 Spatial area queries return only and all overlapping members** (`SpatialHash`): map cell→list as association list; eps = 1/1000; history induction; completeness under explicit margin hypothesis, refutation without it.
* **C14 Spatial point queries return only and all members under the point** (`SpatialHash`): as C13; boundary refutation.
* **C15 Spatial radius queries return only and all members in range, up to the limit** (`SpatialHash`): as C13; cells intersecting the circle.
* **C16 Spatial index stays in step with its contents** (`SpatialHash`): invariant: membership in cell ⇔ cell ∈ cells(item).
* **C17 String ids always name the right list member** (`EntityList`): state (root, key_map, key_to_idx, idx_to_key); operations branch by branch; invariant by induction over op lists; refutations for negative insert / slice cases. `EntitySlice`: slices with any bounds and step, the positions selected stated independently (`Picked`); also used for tiles (C68).
* **C18 No two list members share an id** (`EntityList`): same invariant; failed operations return the unchanged state where the code does, refuted where it does not (id setter).
* **C19 Entity list set algebra** (`SetAlgebra`): lists over a type with decidable equality-like relation; exact membership characterisation.
* **C20 Rotating a collection is a group action** (`Transform`): matrix table; position over ℚ, direction Nat mod 16; group action laws.
* **C21 Flipping a collection is an involution acting as a mirror** (`Transform`): flip formulae; mirror spec on direction vectors; dihedral relations.
* **C22 Translating a collection is additive and rigid** (`Transform`): additivity; warning condition iff.
* **C23 Direction arithmetic is the cyclic group of sixteen winds** (`Direction`): Direction/LegacyDirection as integers mod 16/8 and the tables.
* **C24 Orientation and direction convert faithfully** (`Direction`): Orientation over ℚ with banker's rounding; refutation on [31/32,1) and [7/8,1); partial elsewhere.
* **C25 Tick counts add up** (`Direction`): integer days/seconds/microseconds; exactness and monotonicity.
* **C26 Validation strictness is a total order** (`Direction`): four-valued type; `__gt__` + total_ordering-derived operators.
* **C27 Position and tile position always agree** (`Position`): half-even rounding on ℚ; setters; histories of setter calls.
* **C28 Footprint follows the direction** (`Position`): direction setter incl. use of the raw argument; refutation with a diagonal; partial for cardinal arguments.
* **C29 Global position accumulates through groups** (`Group`): rose tree of groups; recursive definitions against path-sum spec.
* **C30 Wires: adding and removing connections** (`Wires`): wire list with identity endpoints; add/remove branch by branch; idempotence refuted, rest proved.
* **C31 Bulk wire removal removes exactly one kind of wire** (`Wires`): in-place deletion loop; equals filter.
* **C32 Exported entity numbers resolve to the right entities** (`Export`): flattened list, `.index` by ==, number assignment, import; refutation for equal distinct entities; partial for pairwise-unequal ones.
* **C33 Export undoes the grid offset** (`Export`): offset subtraction, key deletion; round trip.
* **C34 Entity searches return exactly the matching members** (`Search`): criteria record; result = filter of spec predicate; limit = take; the single searches return what was placed first (C34_first_partial).
* **C35 Tile searches return exactly the matching tiles** (`Search`): as C34 for tiles; the position-without-radius case.
* **C36 A train has one schedule** (`Trains`): schedule list with locomotive references; uniqueness after assignment, preservation, reuse.
* **C37 Train discovery finds exactly the coupled wagons** (`Trains`): DFS with visited list on an abstract coupling relation; reachability; duplicate refutation.
* **C38 Train configuration strings expand as written** (`TrainConfig`): tokeniser of the regular expression; expansion counts.
* **C39 Wait conditions combine with their boolean meaning** (`WaitCond`): expression tree, evaluator, flattening; refutation for `a & (b | c)`; partial for sum-of-products.
* **C40 Schedules keep locomotives unique and stops in order** (`Schedule`): operation list induction; list insert/remove spec.
* **C41 Upgrade planner mappings behave like a slot table** (`Upgrade`): mapping list; sorted/unique invariant; refinement to a finite map; remove-with-index refutation.
* **C42 Upgrade pair checking reports the first applicable reason** (`Upgrade`): ordered decision list over a prototype record.
* **C43 Deconstruction filters behave like a slot table** (`Slots`): 1-based slot list; refinement to finite map; crash on clearing an empty slot refuted.
* **C44 Item and inventory filters behave like a slot table** (`Slots`): as C43; quality/comparator not updated on replacement: refutation and partial.
* **C45 Signal sections behave like a slot table** (`Slots`): as C43; deletion unreachable: refutation and partial.
* **C46 Decider comparison operators mean what they say** (`Decider`): operator table, comparator semantics on Int; `<=`/`>=` swapped: refutation and partial.
* **C47 Decider conditions combine with their boolean meaning** (`Decider`): as C39 with in-place mutation of operands.
* **C48 Arithmetic operands read back as written** (`Arith`): control-behaviour record; set/get laws; histories.
* **C49 Item requests: last write per slot wins** (`Requests`): request list; inventory off-by-one: refutation and partial.
* **C50 Mod settings files decode to the stored tree** (`ModSettings`): byte streams as `List Nat`/`UInt8`; decoder with `Except`; reference encoder written from the format; round trip for trees without list/unsigned nodes, refutation for these; the shipped encoder always fails.
* **C51 The newest enabled mod version wins** (`ModList`): comparison key and insertion sort; sorted permutation.
* **C52 Blueprint book slots are numbered consistently** (`Book`): index assignment over a list.
* **C53 Shorthand lists are numbered from one** (`Shorthand`): enumerate-and-expand; idempotence.
* **C54 Validation results are reported faithfully** (`ValResult`): lists; raise/warn trace.
* **C55 Modules allowed by effects** (`Modules`): table scan; iff and monotonicity.
* **C56 Reversing belts** (`Belts`): grid of belts; decision per belt; involution on straight runs.
* **C57 Blueprintable kinds are dispatched correctly** (`Dispatch`): key set; priority list.
* **C58 Comparisons of orientations are consistent** (`Direction`): raw float value against wrapped value; `total_ordering` keeps the inherited operators: refutation and partial.
* **C59 Tables extended at run time stay consistent** (`Modules`): signal and module tables; induction over sequences of additions.
* **C60 Copying a group copies the whole structure** (`Copy`): heap of objects with the memo of `deepcopy`; invariant of the running recursion (memo is an injection into new objects, finished groups are complete), by induction on the nesting; refutation for wires leaving the group.
* **C61 Copying a blueprint yields an independent, equal blueprint** (`Copy`, `Export`): same recursion without redirecting the blueprint's own wires; equality of exports through the renaming; refutations for independence.
* **C62 Automatic power connections join the poles in reach** (`Power`): poles with rational positions and reaches, squared distances, stable sort; exact set and multiplicity of added wires; refutations for once, limit and order.
* **C63 Searching for trains** (`TrainSearch`): the search is a filter of the connected components of the coupling relation by an independently stated predicate; errors and empty criteria refuted.
* **C64 Names and numbers of instruments and notes** (`Instruments`): tables mirror the list; preserved by additions at the end, broken by every other insertion.
* **C65 Loading a dictionary resolves references by entity number and leaves the dictionary alone** (`Import`): exact condition for success; references go to the entity carrying the number when entities are numbered in order and numbers are positive; what is left of the dictionary; refutations for a second load, shared wire lists, number 0, other orders, refused dictionaries and groups made from strings.
* **C66 Adding to the data tables affects what was named and nothing else** (`DataTables`): list objects by name so that sharing is visible; effect of each function; lists stay unshared when they are always given; refutations for modified items, default arguments, groups added again, names shared with an item, order of fluids, empty ranges and entities added under another type.
* **C67 Merging on insertion keeps every wire and adds nothing twice** (`Merge`): tree of objects, induction over the tree with an explicit final state; refutations for equal entities in one group, wires across groups, entities with ids and groups away from the origin.
* **C68 The tile list and its spatial map hold the same tiles** (`TileList`): states of list and map under histories of calls; agreement up to equality for all histories without renaming, agreement of objects with renaming when tiles are told apart; search, merging, moving, dictionaries. `TileMixin`: `pop` and `reverse` as inherited from Python's `MutableSequence`. `SetTiles`: assigning to the tiles of a blueprint, reduced to a history of appends to a new list.
* **C69 Overlap warnings name exactly the objects in the way** (`Overlap`): the loop of `validate_insert` over the area query of C13; exact characterisation without merging, soundness always; groups, gates, rails, merging order, unknown names, masks as extracted.
* **C70 Mods are loaded once each, after what they depend on** (`ModLoad`): the selection, the resolution of dependencies and the sort by depth and name; sortedness by induction on the depth recursion, independence by uniqueness of sorted permutations.
* **C71 Dependency strings are read as written** (`ModLoad`): the regular expression as a function that takes the longest run for each part; soundness and reading back for all strings.
* **C72 Enabling and disabling mods sets exactly the mods named** (`ModEnable`): the loop over the names as a fold; induction over entries and names.
* **C73 Objects of the game are sorted by group, subgroup, order and name** (`GameData`): keys as lists of strings; the order is stated by cases on ranks and shown to be the order of the keys; uniqueness of sorted permutations.
* **C74 Lua tables are converted faithfully** (`GameData`): a mutual recursion over values; a left inverse shows that nothing is lost.
* **C75 The table of items holds every item once, in the game's order** (`GameData`, `GameItems`): nested sorts as a flattened list, pairwise sortedness through the three levels, agreement with C73 by positions in the table.
* **C76 Every machine is listed with the recipes of its categories** (`GameData`, `GameItems`): the loops as folds over a dictionary; induction over the recipes.
* **C77 Attributes of entities read back what was assigned and do not disturb each other** (`Attr`, `AttrTable`): entities as trees of fields, attributes as paths with a style of assignment, the table of classes generated from the source; laws of reading and storing by induction over paths, applied to every row.
* **C78 The extraction of entities lists every prototype once, under its type** (`EntTypes`): the loops as monadic folds over data given as dictionaries; a relation `Entered` between tables composes along the folds; success characterised exactly; refutations for types kept out of blueprints, missing boxes, empty masks, hidden entities, order, rails.
* **C79 A new entity gets the class of its type** (`EntTypes`): the sequence of tests as a recursion over the table of types and classes; by C78 a name is in one list only; refutations for types never asked for and classes without a base class.
* **C80 Setting up a blueprintable sets what is given and resets the rest** (`Setup`): the body of each setup as a list of statements (Model/Setup), each writing one slot; every attribute reads the converted argument or the default (C80_given_partial) and hence does not depend on the past (C80_not_cumulative_partial, C80_outcome); unknown keywords are kept and named (C80_unknown); the constructor (C80_construct_partial, C80_construct_errors); refutations for settings=None, stale unknown keys, unknown keys of settings, the root key as a keyword, refused calls and the index of the constructor.
* **C81 Merging an entity takes over the attributes of the other, and equality compares them** (`MergeAttr`): the parts of all classes as a generated table (Model/MergeTable) over the attributes of C77; a merge copies every attribute not in an explicit list (C81_taken_partial), leaves that list and the fixed ones (C81_kept, C81_fixed) and succeeds if all can be read (C81_succeeds); equality is an equivalence (C81_equivalence) that compares all but an explicit list (C81_compared_partial, C81_ignored); merging and equality (C81_equal); hashes (C81_hash_partial); refutations for attributes left out, missing control behavior, half-done merges, equality that ignores attributes, unhashable classes and hashes of equal entities.
* **C82 Recipes and requested items are checked against what the machine can use** (`Machines`): ingredients of a recipe exactly those listed (C82_ingredients, C82_ingredients_none) and those of a furnace (C82_furnace_inputs); items allowed in drills and reactors (C82_fuelled_partial); exact warnings of assigning a recipe to an assembling machine (C82_recipe_partial, C82_recipe_empty, C82_recipe_stored) and of assigning requests (C82_items_partial, C82_fuel_partial, C82_items_quiet, C82_lab_partial); the cache of fuels is right after any sequence of constructions (C82_cache_partial); refutations for unknown recipes and machines, rocket silos, furnaces, burner generators, abbreviated requests, order of assignment, blacklists, containers and a half-filled cache.
* **C83 The tables of signals, fluids, modules, fuels and tiles hold what the game's data has** (`Signals`): induction over the calls of `add_signals` with an invariant on the three things filled; the table of categories is compared with an inductive relation; the order is that of C73; refuted by a selection tool, a fluid that is also a recipe, and an item that is also an entity.
* **C84 Constructor arguments end up in the fields of the entity** (`Ctor`, `CtorTable`): constructors as layers of parameters, keywords passed on and assignments, one table row per class read from the source by `tools/ctor_table.py`; a symbolic run of all classes is proved to describe every concrete run, so that facts about all keywords reduce to table checks. Refuted: default tags are shared, chunk filters of asteroid collectors given by exported name are lost, `result_inventory` is dropped, four classes cannot be constructed, default items of five classes are dictionaries, unknown names and keywords pass silently.
* **C85 Validating an object reports everything in it** (`Validate`): validation of nested objects over arbitrary formats; the result equals the concatenation of the reports of all parts in order (mutual induction over groups and books), the state afterwards, idempotence, modes; schedules skipped, sizes raising and directions not coerced are refuted.
* **C86 Values in shorthand are understood or refused** (`Convert`): a type of Python values, the conversions before and the fields of the pydantic models with three outcomes (result, reported error, other exception); exact characterisation of accepted values and of escaping exceptions; short sequences, missing keys, unhashable comparators, ignored extra values, unknown wire colors and truncated fractions are refuted.
* **C87 Setting one link, infinity filter or section changes that one only, and energy interfaces survive export** (`Special`): links as integers with Python's bitwise operations, the bit specified as parity of the quotient by a power of two; induction over sequences of calls; infinity filters refine a partial map from slots; export and import of the three values of an interface; sections by induction over additions.  Refuted: AssertionError (it is ValueError), wide links with validation off, emptying an empty slot, slot 0, KeyError on export of unknown interfaces, None not coming back, colliding section indices.
* **C88 Every check of a field reports exactly the values it is about** (`Checks`): one theorem per check of the form "reports just if", over all modes; induction on the mappers for the overwritten indices; notes and instruments through the mirror lemma of `Instruments`; names of entities and tiles, and the suggestions made for unknown ones with any scoring of likeness, in `Suggest`.
* **C89 Two blueprints compare equal just if they have the same contents** (`Equality`): comparison of each part as a Boolean function on explicit contents and identities; reflexivity, symmetry and transitivity by induction on lists; what is left out of the comparison (wires, groups, order) as refutations.
* **C90 Records can be used like dictionaries, and conditions are stored as written** (`Record`): a class as a table of fields and aliases, a record as fields and extras; laws of reading and writing from those of association lists; the meaning of conditions as a function of the signals, compared before and after.
* **C91 Leaving out defaults when exporting entities loses nothing** (`Defaults`): the defaults of formats and of constructors as two tables read from the source, the symbolic run of the constructors (`Ctor`) to tell what each class puts in a field that is not given, and the export as a partial map; import after export composed of both, by cases on whether the value is left out.
* **C92 Schedule lists hold schedules and act as Python lists** (`SchedList`): the list as a list of values with every method, those inherited from `MutableSequence` included; success and failure of each call characterised by what happens to elements and positions, the invariant by induction over calls; references from owners to lists for sharing.
* **C93 Renaming an entity gives it the footprint of its new name** (`Rename`): entities of `Model/Position` with name, vehicle rectangle and the cache of names; the constructors and the setter; the footprint specified by the least number of tiles covering the box.
* **C94 Loading runs every mod's stage files once, in order, from the mod's own folder** (`Lifecycle`): scripts as trees of changes and requires over arbitrary tables; the Lua state of `interface.lua`; stages, settings; invariants by induction over scripts and nesting.
* **C95 Choosing a version of the game checks out its tag** (`GameVersion`): a repository as tags, commits and head; the function as it stands; parsing from `Model/Version`.
* **C96 Exporting what was loaded gives the same dictionary** (`RoundTrip`): loading after exporting on top of the models of C32 and C65; exact condition under which the second dictionary equals the first; it always settles after one more time; refuted for entities that differ only in ids.
* **C97 Passing warnings on to the caller changes only whom they are attributed to** (`Warnings`): programs with nested decorated calls run under any filter; same result and a sublist of the warnings always, the same warnings if no decorated function raises; refuted otherwise, since the warnings of a function that raises are lost.
* **C98 A rail planner can be made of every rail planner item** (`RailPlanner`): the constructor with Python's rule for keyword arguments; it raises always, and exactly which exception; refusal of other names; refuted that a planner can be made.
* **C99 Wait conditions and stops come back from their dictionaries** (`Stops`): constructor, export and reading of conditions and stops; exactly which conditions come back, those made by the constructor, whole schedules by induction, and that everything settles after one pass; refuted for times set to `None`, default comparisons of kinds that do not compare, stops read without wait conditions, and lists changed in place.
* **C100 Exported blueprint strings load into a blueprint that exports the same string** (`BpString`): the dictionaries of C96 as JSON documents and back, composed with C03 for Python's `json` and `base64`; attributes, missing versions and unknown keys are distinguished; equality of strings when no two entities compare equal, the version is given and no key is unknown, from the second time on otherwise; exact characterisation of what is passed to `setup`; `StopIteration` for `{}` is refuted.
* **C101 Exported strings of books load into the same books and export the same string** (`BookString`): documents with a root key, the body of a book or planner, and the search for the class; mutual induction over members that everything is read back, with indices; the same string for members without unknown keys or missing versions (and stable dictionaries, C96), from the second time on for all; a book with an unknown key `"blueprint"` becomes a blueprint and is refuted.
* **C102 Leaving out defaults inside nested settings loses nothing** (`Nested`, `NestTable`): models as trees of fields with name, key, optionality, default and exclusion; export and reading by recursion over the declaration; a table of all 73 models made from the text; mutual induction over declarations for which values come back (exactly the settled ones), which cannot be read, which settings are kept, and that the second time changes nothing; refuted for `None` where that is not the default, required fields that may be `None`, excluded fields and models that drop unknown keys.
* **C103 Mappings of upgrade planners can be given by name, by dictionary or by model** (`Mappers`): targets as they are given, the lookup of names, the two methods on top of the slot table of C41, and the attribute with normalization, validation and the check of the whole settings made after storing. Proved against a relation saying what a target stands for; false: models are refused by the methods, assigned mappings cannot be removed by value, and a check that raises leaves the new mappers stored.
* **C104 Exactly the JSON texts are read from blueprint strings, in any of the Unicode encodings** (`Json`, `JsonText`, `JsonBytes`, `JsonStr`): the grammar as inductive predicates and the encodings as functions (UTF-8 from Lean's library), independent of the reader; soundness and completeness of the reader of numbers, strings and documents by induction on fuel; each decoder the inverse of its encoder; detection of the encoding correct for JSON texts, since they begin with a character of ASCII and have no zero in them. Lone surrogates, which Python passes, are refused by this model; `Model/JsonStr.lean` has them for strings alone, and with it the claim is refuted (`C104_surrogate_refuted`). Left out: Python's limits on the digits of integers and on nesting.
* **C105 Conditions of decider combinators can be assigned, extended and exported** Elements of the two lists are objects (by identity, content in a heap) or dictionaries. Assignment, the operators, augmented assignment, the exported key and deep copies are functions on these. Shown for all lists: what is stored, that `|=` and `&=` append and set only the compare type of the added condition, that dictionaries are written as they are, that a single object in the list makes writing a `TypeError`, what putting a condition before a list does, and that copies have the same content and are equal just if there are no objects.
* **C106 Attributes read from the game's data give the data's value, the default, or None** The data is any function from names to prototypes (keys and values) and any tables by name. Each attribute is a row with its class, key and way of reading. Shown for all data and names: the value when the data has it, what is given for unknown names and for missing keys, and exactly which attributes never fail; that `item_slot_count` fails for each known entity without the key.
* **C107 The list of blueprints of a book is a Python list that holds nothing but blueprints, planners and books** The list is a list of values (object, dictionary, other); each method is modelled with the mixin methods of MutableSequence built from the five primitive ones. Shown for all lists: what each successful call leaves, exactly which calls raise what and that nothing changes then but for `extend`; what is made of a list of dictionaries; that nothing but blueprintables is ever in the list; what assigning and constructing show, and that books that do not share a list object do not see each other's changes.
* **C108 Coordinates of positions can be changed in place** Vector objects with identity in a heap, each plain or made for an entity; entities and groups refer to them. Invariant over all histories: no two entities share a vector, and the vectors of an entity refer to its origin, the entity it was copied from first. From this exactly what assigning a coordinate changes, agreement for entities that are no copies, groups when given coordinates; refuted for copies, deleted originals, held entities, fractions, indices and groups given a vector.
* **C109 Two entities are independent after a merge** `Model/MergeShare.lean`: `merge` on objects in memory, with the attributes and parts of `Model/MergeTable.lean`; validation copies lists and models of `DraftsmanBaseModel` and keeps other models. Invariant over the assignments: what is below `a` was below it before or is new. Expected to fail without validation, for models that derive from `BaseModel`, and for extra keys.
* **C110 The list of mods shows what is loaded** `Model/ModTable.lean`: `display_mods` as the list of lines. Every line is described by its cells, related to the versions in order by `List.Forall₂`; the marked versions are compared with `ModLoad.select`. Expected to fail for long names of mods of several versions, whose arrows are not shortened, and without any mod.
* **C111 What the commands of the console script change** `Model/Command.lean`: `main` on the files it changes, with `ModEnable.setModsEnabled` and `GameVersion.specify`; an update as the sequence of its writes up to the first exception. Every table stems from an update or was there at first, by induction over commands. Expected to fail: the version is recorded before anything is extracted, and mods are compared with the version recorded before.
* **C112 The documented update function loads the mods in order** `Model/EnvUpdate.lean`: discovery with the regular expressions for file names, objects with identity, dependencies, `get_depth`, the load order and the runs. For plain folders the dictionary is the list of folders; dependencies have smaller depths, so they come before; soundness and completeness. Expected to fail: the dictionary has names of files instead of names of mods, and `None` for other files.
* **C113 Saved settings of mods take the place of the defaults** `Model/SavedSettings.lean`: the prototypes as objects, the tables of `settings.lua`, the loop over what was read, and the second reader `get_mod_settings`. Invariants of the loops; composed with the reader of C50. Expected to fail: the second reader has no integers.
* **C114 Positions on the grid of the game are computed without rounding errors** `Model/FloatPos.lean`: rounding to 53 bits, ties to even, and the formulas of positions again with a rounding after each operation. Rounding is first shown to give the nearest double. Invariant: everything is a multiple of 1/256 below a bound that grows with each call; by induction over the calls nothing is rounded. Expected to fail off the grid (0.1 moved by 1 and back) and far away.
* **C115 Texts come back from blueprint strings as they were put in** (`JsonStr`): `Model/JsonStr.lean` has Python's strings as lists of code points, surrogates included, how `json` writes and reads them, and the decoders with `surrogatepass`; it agrees with `Model/Json.lean` on texts of Unicode (`C115_agree`). By induction over the text: what is read has the same units of UTF-16 and no pairs.
* **C116 What is in an entity list, at any depth, can be removed and reached** `Model/NestedList.lean` has lists with groups in them as trees. By induction over the tree: `in` is membership at any depth, the two halves of `recursive_remove` are characterised by where the first match stands, and paths by induction over their steps.
* **C117 An entity list is a mutable sequence** `Model/EntityMixin.lean` has the methods of Python's `MutableSequence` in terms of the modelled ones. Single deletions reuse the invariant of C17; `reverse` needs it in a weaker form, since a member stands in the list twice half way through an exchange; the loops are followed by induction over their rounds.
* **C118 Assigning to the entities of a blueprint or group replaces its contents** `Model/SetEntities.lean` has the loop of the constructor of entity lists and both setters over a world of a list, wires, children and fresh identities. By induction over the entries, the loop comes through just on usable entries with distinct ids, keeping the invariant of C17.
* **C119 The version of a blueprint reads back as it was set** (`BpVersion`): the setter with normalisation and the field's bounds on all integers, reading on all stored values; parts and numbers read back by C01, refusals by the sign and size of a bitwise or; refutations for wide parts, `None`, texts and the unchecked mode.
* **C120 Rails that leave the double grid are reported** (`Grid`): members as trees of groups, the loop with early return, translation of the outermost members, global positions; induction over the trees; parity of sums of positions; refutations for groups off the grid and for the promised cast.
* **C121 Infinity pipes hold settings that the game accepts** (`InfPipe`): values as an inductive type, the check of each field, the validator of the whole run after the value is stored; an invariant over histories; acceptance by the game as a predicate on its own; refutations for refused values that stay, for the mode MINIMUM and for the other exceptions.
* **C122 Searches of a blueprint find what is in its groups, where it is** (`NestMap`): a heap of objects with parents and positions and the map of the blueprint; being inside and places as inductive predicates; an invariant (map = cells of what is inside, where it is) over histories that leave groups in the blueprint alone; refutations for appending to, deleting from and translating such groups, and for translating the blueprint.
* **C123 Attributes of blueprints, books and planners read what was last assigned** (`BpAttr`): the setters on the data and getters of `Setup`; a table of documented conversions; acceptance as an equivalence, read-back, frame, refusal, and induction over programs of assignments; refutations for wires and stock connections, which are never validated, for the snapping grid, and for planners set up with `settings=None`.
* **C124 Wait conditions read what was assigned, and validate reports exactly what is wrong** (`WaitAttr`): constructor, setters and validate over an arbitrary validation function; acceptance and errors as equivalences, validity as an invariant of programs of assignments, repair by induction; refutations for a type changed to `time` later, and for values stored without validation, which validate does not convert.
* **C125 Orientations print as the winds they are and work as keys** (`OrientName`): the name and hash that `Direction` leaves out; rightly named as an equivalence for numbers and sums, never a wrong name for any expression, equal ones alike; sets by identity; refutations for sums beyond a turn, orientations made from orientations, and sets.
* **C126 Groups hold what they were made with and read what was assigned** (`GroupAttr`): the setters and the constructor over values with identities; acceptance as an equivalence, reading back, history of a program, kinds as an invariant, what a made group reads and when one is made; refutations for wires of a string without any, a schedule list as argument, and an id that the parent refuses.
* **C127 A box has one set of corners and a place of its own** (`BoxPoints`): boxes as objects with their list of points and a shared vector; agreement of corners for programs as an equivalence, offset of bounding boxes, refinement to the boxes of `Geometry`, how far a set moves each box; refutations for bounding boxes away from the origin and for turned boxes.
* **C128 Areas of searches are read as they are documented** (`AreaArg`): values with indexing, the conversion and the first arithmetic on it; what is read as an equivalence with a relation, the exceptions, the searches in every form of an area by `C13`, precedence of the position; refutations for pairs of points and for groups without an area.
* **C129 Vectors calculate coordinate by coordinate** (`VecArith`): numbers with their types, Python's operators on a number and any value, the attempt as a pair and the second attempt as a number; the results as an equivalence with a relation, the exceptions, inverse operations, equality, absolute value, rounding; refutations for products of whole numbers and sequences, and for exceptions that are no TypeErrors.

## What is not modelled

* Parsing the command line and the texts of messages and representations (`__str__`, `__repr__`), except those of orientations (C125) and what C110 and C111 say of the console script. Of `draftsman/environment/update.py` what C70 to C76, C78, C79, C83, C94, C95, C112 and C113 name; of the Lua side (`compatibility/interface.lua`, `settings.lua`) what C94 names; Lua scripts themselves are arbitrary. `draftsman/env.py` is the older copy of these functions; of it what C112 and C113 name.
* Code that cannot be reached or is called from nowhere: the body of `encode_mod_settings` after its first line, which always raises (C50); `normalize_color` and `Icon.resolve_shorthand` in `draftsman/signatures.py`; the generation of JSON schemas.
* The methods of `RailPlanner`: by C98 there is no object to call them on.
* The pickled game data; where a table matters it is a parameter of the theorem.
* Entity prototypes (`draftsman/prototypes/*.py`): the attributes of all classes are in the table of C77 (made by `tools/attr_table.py` from the text of the getters and setters), what they merge, compare and hash in that of C81 (made by `tools/merge_table.py`), their constructors in that of C84 (made by `tools/ctor_table.py`); beyond that the combinators, trains, rails, infinity pipes, speakers, the machines of C82, and the mixins for filters, requests, directions and orientations.
* The bodies of pydantic validators and the texts of warnings, except where a property is about them. C77 takes validation as a parameter and assumes of pydantic's `validate_assignment`: a refused field leaves the object as it was; validators of the whole object (`mode="after"`) run once the value is stored and do not undo that.
* Files, archives and the clipboard.

## Disagreements between claim and code

Generated by `tools/manifest.py` from the theorems whose names end in `_refuted`: each is a proof, with a concrete witness, that the code as modelled does not meet a part of the claim.

* `C09_wagon_overlap_refuted`: C09 fails for rolling stock: two parallel wagons (1 × 4 tiles, both at the 3-4-5 angle, 1.2 tiles apart across the track) are reported to overlap although they have no interior point in common, because `orientation` turns the rectangle but not its normals.
* `C10_covers_refuted`: C10 fails: a 2 × 4 wagon at the angle with cosine -3/5 and sine 4/5 sticks out of its own bounding box.
* `C11_planet_refuted`: Refuted: an entity is placeable on a planet exactly when the values of the planet meet its conditions. The values of a planet are under `surface_properties` in its prototype, and are looked for in the prototype itself, so that the defaults are taken for every planet: an entity that can only be placed on Vulcanus, where the pressure is 4000, is said not to be placeable there.
* `C13_thin_refuted`: C13 fails for overlaps thinner than `1/1000` across a cell boundary.
* `C13_position_refuted`: C13 fails for areas given with a non-zero `position`: the cells are taken from the local corners.
* `C13_equal_refuted`: C13 fails for distinct members that compare equal: only one of them is returned.
* `C14_edge_refuted`: C14 fails on the edges: a box ending at a cell boundary is never found at a point of its right edge, although the closed box contains the point.
* `C15_refuted`: C15 fails for members without a bounding box (unknown entities): they are in no cell, so no query ever finds them, not even at their own position.
* `C16_equal_refuted`: C16 fails for items that compare equal without covering the same cells (equality ignores the direction): removing one of them takes the other out of some of its cells.
* `C17_negative_insert_refuted`: C17 fails for insertion at a negative index: `insert(-1, …)` moves the recorded position of a member that did not move.
* `C17_negative_set_refuted`: C17 fails for replacement at a negative index: the replaced member is still found by its id.
* `C17_slice_refuted`: C17 fails for the deletion of a slice of three members followed by a member with an id: its recorded position is one too high.
* `C17_empty_id_refuted`: C17 fails for the empty id: the member cannot be looked up, and a second one is accepted.
* `C17_deleted_rename_refuted`: C17 fails when a deleted entity is renamed: it still knows its former parent, and the rename removes the key of the member that took over its id.
* `C17_group_none_refuted`: C17 fails for a group whose id is reset to `None`: `None` is recorded as its key, and the next group reset is refused.
* `C17_step_refuted`: C17 fails for slices with a step: `_shift_key_indices` moves by the step for every member deleted, so that after the deletion of every second of the first four of five members the id of the last one is recorded at the start, and deleting by that id deletes a member that carries no id.
* `C18_rename_refuted`: C18 fails for renaming: the error is raised, but the member keeps the duplicate id and its old id is forgotten.
* `C18_replace_same_id_refuted`: C18: replacing a member by another value with the same id, which would not make two members share an id, is refused too.
* `C19_union_once_refuted`: C19 fails for equal members within the right list: the union has both.
* `C19_union_id_refuted`: C19 fails for entity lists sharing an id: the union of a list with one holding a different entity of the same id raises.
* `C20_compose_refuted`: C20 fails: with any directional member two half turns never both succeed (an exception is raised), although a full turn is fine.
* `C20_group_refuted`: C20 fails: a collection containing a group cannot be rotated at all, not even by zero.
* `C20_halfway_refuted`: C20 fails: when a rotation raises midway, the collection is left half rotated (here the chest has moved, the inserter facing west has not and has lost its parent).
* `C21_twice_refuted`: C21 fails: with a member not facing north or south (horizontal axis), or not facing east or west (vertical axis), one of the two flips always raises.
* `C22_offgrid_refuted`: C22 fails for the tile position of members placed half-way between tiles: rounding to even moves this chest's tile position by two when translated by one.
* `C23_vector_length_refuted`: C23 fails for the eight intermediate winds: their vector is zero, whatever the magnitude.
* `C23_legacy_opposite_refuted`: C23 fails for legacy directions: `opposite` answers in the sixteen-wind enum, so applying `opposite` again never returns to the start.
* `C23_legacy_vector_refuted`: C23 fails for the vectors of legacy directions: north is the only one with the vector of its own wind (the direction of twice its number); east, south and west have those of north-east, east and south-east, and the diagonals have none.
* `C24_direction_roundtrip_refuted`: C24 fails for the intermediate winds: they have no orientation (`KeyError`).
* `C24_legacy_orientation_refuted`: C24 fails for legacy directions: east (2 of 8) becomes north-east, and every odd one is a `KeyError`.
* `C24_to_direction_refuted`: C24 fails: every orientation in the last thirty-second of the circle (sixteen-way) or from north-west on (four-way) cannot be converted at all; `Orientation.NORTHWEST.to_direction()` raises `ValueError`.
* `C28_footprint_refuted`: C28 fails: a boiler told to face south-east is stored as facing east but keeps its north-south footprint.
* `C28_none_refuted`: C28 fails for `None`, documented as meaning north: a strictly validated four-way entity raises `TypeError`.
* `C28_eight_way_refuted`: C28 for eight-way entities fails: the setter compares with the pre-2.0 numbers, so facing north-east transposes the footprint and facing east does not.
* `C29_shared_refuted`: C29 fails for an object added to a second group without copying: its global position is relative to the latter in both.
* `C29_removed_refuted`: C29 fails for a removed entity: it is in no collection, yet its global position still counts the group it was in.
* `C30_unknown_refuted`: C30 fails for entities whose names are not known: there is no reach to compare the distance with, a `TypeError`, and nothing is added.
* `C30_add_again_refuted`: C30 fails for a connection that exists: it is added again, in the same or in the other orientation.
* `C30_remove_absent_refuted`: C30 fails for a connection added twice: one removal leaves it present.
* `C30_add_remove_refuted`: C30 fails for a connection present in the other orientation: adding and removing it loses it.
* `C30_twin_refuted`: C30: membership is tested by `==`, so a wire to an equal entity outside the collection is accepted.
* `C32_twins_refuted`: C32 fails when two entities compare equal (here: same name and place, no ids): a wire to the second is exported as a wire to the first.
* `C32_outside_twin_refuted`: C32: a reference to an entity outside the blueprint goes unreported when it equals one inside.
* `C32_group_schedule_refuted`: C32 fails for the schedules of groups: they are not exported at all.
* `C32_unused_schedule_refuted`: C32 fails for a schedule no locomotive has, such as `set_train_schedule(train, None)` leaves behind: although nothing in the blueprint refers to anything outside, the blueprint cannot be exported (`KeyError`).
* `C32_zero_refuted`: C32: importing takes the wire number 0 for the last entity instead of reporting it.
* `C34_group_refuted`: C34 fails in groups: an entity put into a group at (100, 0) is indexed as if the group were at the origin, so a search of the group where the entity is does not find it.
* `C34_negative_limit_refuted`: C34: a negative limit drops entities from the end instead.
* `C35_position_refuted`: C35 fails for a position without a radius: it is ignored and all tiles are returned.
* `C36_double_refuted`: C36 refuted for schedules built with the same locomotive twice (the constructor and plain assignment do not check): one mention survives.
* `C36_station_refuted`: C36 refuted for `add_train_at_station`: a schedule with the stops of an existing one is added again, because whole schedules are compared, locomotives included.
* `C36_twin_refuted`: C36 refuted for removal: entities are deleted by equality, so of two equal cars the wrong one can go while the schedules lose the other.
* `C36_absent_refuted`: C36 refuted for failing removals: an absent car leaves the cars before it deleted but still in their schedules.
* `C37_twice_refuted`: C37 refuted: a wagon near both bogies of another is returned twice.
* `C37_wrap_refuted`: C37 refuted for angles: north (0) and slightly left of north (0.95) are not recognised as parallel.
* `C39_paren_refuted`: C39 refuted: `(a | b) & c` is read as `a | (b & c)`.
* `C39_lists_refuted`: C39 refuted: two combinations cannot be combined with each other.
* `C39_empty_refuted`: C39 refuted: combining with an empty list on the right fails.
* `C39_shared_refuted`: C39 refuted for lists holding one object twice: the copies share it, so that setting the first comparison sets the other too.
* `C40_constructed_refuted`: C40 does not extend to schedules built with a repeated locomotive: the constructor takes the list as given (`/repo/draftsman/classes/schedule.py:482-485`), and removing then leaves it listed.
* `C41_blank_refuted`: C41 refuted: a mapping with a blank side can never be removed by naming its index, whatever the planner holds.
* `C41_imported_refuted`: C41 refuted: a mapping that came from an import can be removed neither by its targets nor by its targets and index.
* `C42_crash_refuted`: C42 refuted: the function crashes on an entity that mines to a fluid, and on an item called an entity.
* `C42_builds_refuted`: C42 refuted: the quoted rule that the target must have an item that builds it and is not hidden is not checked.
* `C43_clear_refuted`: C43 refuted: setting an empty slot to nothing always fails.
* `C44_clear_refuted`: C44 refuted: setting an empty slot to nothing always fails.
* `C44_replace_refuted`: C44 refuted: setting an occupied slot always keeps the quality and comparator that were there, whatever is given.
* `C44_inventory_refuted`: C44 refuted: a filter newly set in an inventory never gets the quality and comparator given.
* `C44_comparator_refuted`: C44 refuted: of the comparators the signature of the setter offers (`/repo/draftsman/classes/mixins/filters.py:123`), the spelled-out ones are rejected.
* `C45_remove_refuted`: C45 refuted: setting an index to nothing always fails and removes nothing.
* `C45_lost_refuted`: C45 refuted: a section whose filters are `None` silently forgets every signal set in it.
* `C46_swapped_refuted`: C46 refuted: `>=` always tests `≤`, and `<=` always tests `≥`; so whenever the two sides differ the condition is wrong.
* `C47_paren_refuted`: C47 refuted: `(a | b) & c` is read as `a | (b & c)`.
* `C47_lists_refuted`: C47 refuted: a sum of two products of two cannot be written: two lists cannot be combined, whatever they hold.
* `C47_reused_refuted`: C47 refuted: writing the same condition object twice changes the meaning: `b & a | a` is true when only `b` is.
* `C47_later_refuted`: C47 refuted: a later expression that uses a condition again changes the meaning of a list built before.
* `C47_empty_refuted`: C47 refuted: combining with an empty list on the right fails.
* `C48_remove_refuted`: C48 refuted: removing the conditions leaves the second operand as the constant 0, whatever it was (even nothing).
* `C48_all_none_refuted`: C48 refuted: setting everything with no second operand makes it the constant 0.
* `C48_stale_refuted`: C48 refuted: setting everything with a signal as second operand leaves the constant 0 stored beside it.
* `C48_none_refuted`: C48 refuted: once the control behaviour has been set to `None`, which is accepted, no setting can be read, and none be changed but by setting all at once.
* `C49_again_refuted`: C49 refuted: requesting again to the same place does not replace the count; both are kept and the old one comes first.
* `C49_inventory_refuted`: C49 refuted: requesting to inventory 1 changes the count of inventory 0 and requests nothing to inventory 1.
* `C49_zero_refuted`: C49 refuted: requesting zero of one quality to one slot removes the other qualities and slots of the item as well, for all requests stored.
* `C49_auto_refuted`: C49 refuted: without a slot, the slot chosen for a new item can be one that is taken.
* `C49_auto_again_refuted`: C49 refuted: without a slot, a further request for an item and quality that has one fails.
* `C49_dict_refuted`: C49 refuted: on an entity of a class that starts with an empty dictionary, no request can be made.
* `C50_list_refuted`: C50 refuted: no list can be read, whatever it holds: a file that is a list, or a dictionary with a list in it, fails.
* `C50_uint_refuted`: C50 refuted: no unsigned number can be read.
* `C50_encode_refuted`: C50 refuted: nothing can be written.
* `C50_write_refuted`: C50: writing settings loses those that were in the file: it is emptied, and cannot be read any more.
* `C50_deep_refuted`: C50 refuted: whatever the recursion limit, there is a tree nested too deeply to be read.
* `C50_cut_refuted`: C50: a file whose last string is cut off is read without complaint, as a shorter string.
* `C51_dependencies_refuted`: Not proved because it is false: that mods which say nothing about their dependencies can be discovered. Two of them cannot.
* `C51_parts_refuted`: Not proved because it is false: that a folder comes before an archive of the same version when the versions are written with a different number of parts: "1.0" counts as older than "1.0.0".
* `C52_none_refuted`: Not proved because it is false: that a member without a number gets its position when nothing is left out of the export. It keeps `None`.
* `C52_distinct_refuted`: Not proved because it is false: that different members get different slots. A member can have the number that is the position of another.
* `C52_constructor_refuted`: Not proved because it is false: that a member made with an index carries it. The constructor's argument is overwritten.
* `C53_section_refuted`: Not proved because it is false: that a section given as plain names is expanded.
* `C53_section_failed_refuted`: Not proved because it is false: that a list which cannot be expanded is left as it was. The part before the unknown name is changed in place.
* `C53_distinct_refuted`: Not proved because it is false: that numbers given in a list are different from one another. A full entry can have the number of a plain name.
* `C53_untyped_refuted`: Not proved because it is false: that a signal given as a dictionary without a type (the game writes items so) is expanded.
* `C53_text_refuted`: Not proved because it is false: that what is not a list is left alone. Turret priorities given as one text are expanded letter by letter.
* `C56_facing_refuted`: Not proved because it is false: that every belt is turned around, or at least looks elsewhere afterwards. Two belts face to face stay as they are.
* `C56_chest_refuted`: Not proved because it is false: that a buildable layout can always be reversed. An underground exit in front of a chest cannot.
* `C56_twice_refuted`: Not proved because it is false: that reversing twice gives back any layout. A belt that begins beside another feeds it after the first reversal, and the second takes that for a corner.
* `C56_group_refuted`: Not proved because it is false: that in a group away from the origin a corner is reversed. The search there uses positions in the group as if they were positions in the world, and finds nothing.
* `C58_refuted`: C58 fails: the sum of west and south is both smaller and greater than south-east, and equal to east without being `<=` east.
* `C58_ne_refuted`: C58 fails: the sum of west and south is both equal to and different from east.
* `C59_signal_once_refuted`: Not proved because it is false: that a signal is listed once. Adding it twice lists it twice.
* `C59_module_effect_refuted`: Not proved because it is false: that a module has the effects it was added with. An existing module keeps the ones it had.
* `C59_module_once_refuted`: Not proved because it is false: that a module is listed once, in its own category. One that is added again under another category stays listed in the first, and one that is added again under the same is listed twice.
* `C59_category_refuted`: Not proved because it is false: that adding a category loses no module. Adding one that exists empties it.
* `C60_dropped_refuted`: C60 fails for wires to entities outside the group: they are documented to be left out, but copying raises `KeyError`.
* `C60_order_refuted`: C60 fails for a wire of an inner group to an entity of the outer one: whether the outer group can be copied depends on the order of its members.
* `C61_wires_refuted`: C61 fails for the wires of the blueprint itself: those of the copy join entities of the original.
* `C61_moved_refuted`: C61: after moving an entity of the copy (here 6, the copy of 1; its new content is 99), or once the original's entities are gone, the copy can no longer be exported.
* `C61_label_refuted`: C61: the copy of a blueprint is not a working blueprint: assigning its label raises `AttributeError`, though it works on the original.
* `C62_again_refuted`: C62 fails: a pair that is joined already is joined again, and a pair is joined once each way.
* `C62_limit_refuted`: C62 fails for the limit of five connections, which is not looked at: of seven poles in reach of each other, each gets twelve wires.
* `C63_disjoint_refuted`: C63 refuted: alignment is not symmetric for turned wagons, and a wagon can be in two trains.
* `C63_schedule_refuted`: C63 refuted: with a schedule in the query, a train without a locomotive is not passed over: the search raises an error.
* `C63_orientation_refuted`: C63 refuted: orientations are compared as numbers, so that one and a quarter turns differ from a quarter turn.
* `C63_names_refuted`: C63 refuted: with an empty set of stop names every train is returned, though none is at such a stop.
* `C63_head_refuted`: C63 refuted: asked for trains at a stop, the search raises an error when the head of some other train points a little to the left of north.
* `C64_insert_refuted`: C64 refuted: an instrument added anywhere but at the end leaves the numbers of the later ones wrong, whatever the tables were.
* `C64_self_refuted`: C64 refuted: choosing an instrument that has a note called "self" chooses the instrument with the number of that note.
* `C64_self_note_refuted`: C64 refuted: "self" is accepted as the name of a note of every instrument, and stands for the number of the instrument.
* `C64_stale_refuted`: C64 refuted: with a new instrument the number of the note stays, and may stand for no note of it.
* `C64_equal_refuted`: C64: speakers with the same instrument and the same note compare equal. False of the code: a name that was assigned is kept beside the number, is compared and not exported, so a speaker with an instrument chosen by name differs from one with the same instrument chosen by number, and from itself after export.
* `C65_again_refuted`: False of the code: loading a dictionary leaves it as it was, so that loading it again gives the same blueprint once more. `Blueprint({"blueprint": d})` twice with the same `d` raises `KeyError: 'name'` the second time, because `elem.pop("name")` (`entity_list.py:103`) takes the names out of the caller's dictionaries.
* `C65_shared_refuted`: False of the code: two blueprints made with the same list of wires each have wires between their own entities. The first one keeps the caller's list and replaces the numbers in it (`blueprint.py:575` and 625-631), so that the wires of the second join the entities of the first, and the second cannot be exported.
* `C65_zero_refuted`: False of the code: a wire to number 0, which no entity has, is refused. `self.entities[0 - 1]` is the last entity (`blueprint.py:628`).
* `C65_order_refuted`: False of the code: a reference goes to the entity that carries the number. It goes to the entity at that place in the list (`blueprint.py:621` and 627-631); the key `entity_number` is not looked at. With the entities listed as 2, 1 a wire from 1 starts at the entity numbered 2.
* `C65_half_refuted`: False of the code: a dictionary that is refused is left as it was. The names are gone and the wires before the bad one are converted when the `IndexError` comes.
* `C65_group_refuted`: False of the code: the wires of a group made from a blueprint string join the group's entities. They are left as numbers ("TODO: wires", `group.py:206`), so that exporting a blueprint with this group raises `TypeError: 'int' object is not callable`. If the string has no wires the attribute is missing altogether, and asking for `wires` raises `AttributeError`.
* `C66_modify_refuted`: False of the code: an item that is modified is listed once. `add_item` for an item that exists appends a second entry to the subgroup (`items.py:114`); the old one stays, with the old stack size.
* `C66_default_refuted`: False of the code: an item added to one subgroup is not listed under another. Two subgroups added without `items` hold the same list, the default argument of `add_subgroup` (`items.py:43`).
* `C66_defaultGroup_refuted`: False of the code: a subgroup added to one group is not listed under another. Two groups added without `subgroups` hold the same list, the default argument of `add_group` (`items.py:21`).
* `C66_regroup_refuted`: False of the code: modifying a group keeps its subgroups. The value kept of the old one is assigned to a variable `items` that is not used, and looked up among the items at that (`items.py:26-28`), so that the group ends up empty.
* `C66_namesake_refuted`: False of the code: a new subgroup has the order asked for. If there is an item of the same name (`inserter` is both) the order of the item is taken (`items.py:48-49`).
* `C66_fluid_refuted`: False of the code: modifying a fluid keeps its order unless another is asked for. Without `order` it becomes the empty string (`fluids.py:31`).
* `C66_range_refuted`: False of the code: a temperature range is not empty. A fluid given a default temperature above the maximum it has, or a maximum below 25 and no default temperature, has a range with no temperature in it.
* `C66_retype_refuted`: False of the code: an entity added again under another type is of that type from then on. The name stays in the list of the old type ("FIXME", `entities.py:253`), and `new_entity` takes whichever type it tests first.
* `C67_twins_refuted`: False of the code: after merging, the wires of a group join entities of the blueprint or of the group. When two entities of the group lie on each other the second is merged into the first, but `item.entities.remove(entity)` (`spatial_hashmap.py:74`) removes the first member that compares equal, which is the one that was kept; the wires go to an object that is in no list.
* `C67_nested_refuted`: False of the code: after merging, all wires of an item join entities of the blueprint or of the item. Only the wires of the group that the merged entity is directly in are redirected (`circuit_connectable.py:188-193`); a wire of an outer group to an entity of an inner group keeps pointing to the entity that was merged away, and the blueprint can no longer be exported.
* `C67_id_refuted`: False of the code: an entity that lies on a mergable one is merged. Two entities are mergable only if they have the same id (`entity.py:747`), but inserting an entity whose id is taken raises `DuplicateIDError` before merging is tried (`entity_list.py:297` and 378-379).
* `C67_frame_refuted`: False of the code: in a group, an entity at the same place in the group as a member of the same class and name is merged into it. If the group is not at the origin the member's global position includes that of the group and that of the new entity does not (`entity_list.py:314-327`), so that they are never found to be at the same place. For the same reason no overlap is reported.
* `C68_assign_former_refuted`: C68 fails for former tiles: whatever list is assigned to the tiles of a blueprint, a tile that was there before and is not any more still refuses to be moved.
* `C68_copy_refuted`: C68 fails for copies: appending a copy of a tile that is in a blueprint at another position, to the blueprint itself, raises an exception, for every history and every member, because the copy is taken for a tile inside a collection.
* `C68_twin_refuted`: C68 fails for equal tiles: with two tiles of the same name and position, deleting the second takes the first out of the map. The object found at the position is then the deleted one, and renaming the tile that is in the list is not seen.
* `C68_set_refuted`: C68 fails when a replacement is refused: the old tile stays in the list and is gone from the map.
* `C68_parent_refuted`: C68 fails for tiles that were taken out: a tile deleted from, replaced in or cleared from the list of a blueprint still refuses to be moved.
* `C68_orphan_refuted`: C68 fails for a list without a parent (as made by `union`, `intersection` and `difference`): its tiles can be moved without the map being told; a tile moved to another cell is no longer found, and stays in the map when it is deleted.
* `C68_dicts_refuted`: C68 fails on the caller's side: the dictionaries are emptied of their names, so any list that contains one of the dictionaries read before fails with a `KeyError`.
* `C69_group_refuted`: C69 fails inside a group: two machines on top of each other are reported when they are added one by one, and not when they are added as a group.
* `C69_gate_refuted`: C69 fails for gates: a gate across a rail, the ordinary crossing, is reported as a collision, because with sixteen directions perpendicular ones differ by four.
* `C69_rail_refuted`: C69 fails for rails: a rail facing south on top of the same rail facing north, which covers exactly the same ground, is not reported.
* `C69_merge_refuted`: C69 fails with merging: the search stops at the first member the object merges with. Whether a third object is reported depends on the order in which the members were added.
* `C69_equal_refuted`: C69 fails for members that compare equal: two machines in the way give one warning.
* `C69_unknown_refuted`: C69 fails for unknown names, which have no collision mask: putting such an object (a tile of an unknown name, for instance) on another one, or another one on it, raises an exception instead of a warning.
* `C69_mask_refuted`: C69 fails for the masks of game version 2.0, which are tables: extracting them keeps the keys of the table, so that two objects on entirely different layers share the layer `"layers"`, and none shares a layer with the default masks.
* `C70_harmless_refuted`: Not proved because it is false: that whatever can be loaded is loaded. A mod that names an incompatible mod fails although that mod is not there; so does one with an optional dependency that is not there, and one that needs another without an order.
* `C70_harmless2_refuted`: The other two ways in which `C70_harmless_refuted` can be seen.
* `C70_unordered_refuted`: The third: needed, there, and not to be ordered.
* `C70_depth_refuted`: Not proved because it is false: that mods with a less deep dependency tree are loaded first. The depths of the dependencies are added up, so that a mod with two dependencies comes after one with a longer chain of dependencies.
* `C70_equals_refuted`: Not proved because it is false: that a version may be asked for with the sign "=", which is what the game calls it.
* `C70_parts_refuted`: Not proved because it is false: that versions written with a different number of parts are compared as versions: 1.0.0 is not taken to be at most 1.0.
* `C71_spaces_refuted`: Not proved because it is false: that a dependency on a mod with a space in its name is read as one on that mod.
* `C71_refused_refuted`: Not proved because it is false: that a string which is no dependency is refused. What follows the name is taken for a version without a sign, or left out.
* `C72_all_refuted`: Refuted: `["all"]` sets every mod. Whenever there is a mod, and there always is `base`, it fails: the names are taken for mods, and strings have no `name`.
* `C72_new_refuted`: Refuted: every mod that is found can be enabled or disabled. One that is not yet listed in `mod-list.json`, say because it has just been added to the folder, cannot: the search for its entry ends in a `StopIteration`, although such a mod is taken to be enabled.
* `C72_twice_refuted`: Refuted: a mod listed twice is set in both entries. Only the first is set, which is the one that is read here.
* `C73_group_refuted`: Refuted: whatever items, subgroups and groups are accepted by `get_items`, the objects can be sorted by them. An order is optional for groups and subgroups, and `get_items` heeds that, but `get_order` reads it without a default and raises a `KeyError`.
* `C73_mined_refuted`: Refuted: an entity falls back on its own order and subgroup when it has no item. One that is mined as an item of a category that `get_items` does not collect, or that does not exist, raises a `KeyError`.
* `C73_last_refuted`: Refuted: objects without an order come last. `get_items` gives every item without an order the empty one, so those objects that have an item come first within their subgroup, and their own order is not looked at either.
* `C74_sparse_refuted`: Refuted: nothing is lost. A table with integer keys that are not 1, 2, 3 and so on becomes the list of its values without the keys.
* `C74_bool_refuted`: Refuted: a table with keys that are no numbers keeps them. Booleans pass for integers in Python, so a table with boolean keys becomes the list of its values, and which value belonged to `true` is lost.
* `C74_empty_refuted`: Refuted: a table without integer keys becomes a dictionary. The empty table, say of an optional field or of a category that has no prototype, becomes a list.
* `C74_order_refuted`: Refuted: the value under the key `i + 1` is at the index `i` of the list. The values come in the order in which Lua iterates over the table, which for keys assigned out of order need not be that of the keys.
* `C75_twice_refuted`: Refuted: an item is placed by its own subgroup. If two categories have items of the same name, the one added later is returned, but in the place of the other when that one's subgroup comes first, although it belongs to a later subgroup.
* `C77_sections_refuted`: Refuted: what validation would accept can be assigned. The sections of a constant combinator cannot be assigned at all while validation is on: its setter names a class that does not exist, and every value is an `AttributeError`.
* `C77_sealed_refuted`: Refuted: an assignment that validation accepts succeeds. `circuit_enabled` of active, passive and storage chests cannot be set to anything: the mixin writes a field that their control behaviors do not have, and these derive from `BaseModel`, which takes no extra keys (`prototypes/logistic_active_container.py:47-51`). On buffer and requester chests the same assignment works.
* `C77_fresh_refuted`: Refuted: every attribute of a new entity can be read. All those listed as `unreadable` raise `AttributeError`: the mixin reads `control_behavior.circuit_enabled`, a field that lamps, pumps, power switches, logistic containers and others do not have (`classes/mixins/circuit_condition.py:53`); `auto_launch` of rocket silos has no field (`prototypes/rocket_silo.py:39-45`); landing pads and platform hubs are built with `request_filters = None` (`classes/mixins/request_filters.py:72`), spider vehicles with a plain dictionary for `automatic_targeting_parameters` (`prototypes/spider_vehicle.py:119, 147`).
* `C77_quality_refuted`: Refuted: the quality of a recipe reads back what was assigned. Whatever was assigned, the getter returns the recipe, for every class with that attribute.
* `C77_refused_refuted`: Refuted: a refused assignment changes nothing. The recipe and the player description are stored before they are validated.
* `C77_fluid_refuted`: Refuted: a refused assignment changes nothing. The fluid of an infinity pipe is stored, then the whole settings are validated; if that fails, the value stays. The project's own test says so (`test/prototypes/test_infinity_pipe.py:194-197`).
* `C77_lamp_refuted`: Refuted: every assignment is validated. The colour mode, `always_on` and the colour of a lamp take any value even with validation on.
* `C77_cleared_refuted`: Refuted: "gets set to an empty `dict` if set to `None`" (`classes/mixins/control_behavior.py:74-75`). It stays `None`, and with it gone all attributes kept in it can neither be read nor set.
* `C78_unlisted_refuted`: Refuted: all data of the game can be extracted. If all prototypes of a type are kept out of blueprints (as cars were before version 2.0), the list for the type is never made and reading it for the sort is a `KeyError` (`environment/update.py:1010`).
* `C78_box_refuted`: Refuted: entities without a collision box are extracted with an empty collision set, as the code at `environment/update.py:1160-1161` has it. They never get there: `add_entity` requires the argument.
* `C78_mask_refuted`: Refuted: the collision mask is that of the prototype. An empty mask, by which an entity collides with nothing, is replaced by the default of the type (`environment/update.py:978-979`).
* `C78_hidden_refuted`: Refuted: hidden entities are marked as hidden. The flag is lost if the prototype has any flags (`data/entities.py:234-238`).
* `C78_order_refuted`: Refuted: the lists of types are "sorted by their Factorio order strings" (`data/entities.py:32-33`). The function that should sort does nothing (`environment/update.py:990-994`), so they are in the order of the data, and with them the default names.
* `C78_rails_refuted`: Refuted: rails that have no mask of their own are on the rail layer. Of the rail types extracted only `straight-rail` is known to `get_default_collision_mask`, the others get the general default (`environment/update.py:75-82`).
* `C79_unmade_refuted`: Refuted: every known entity gets the class of its type. Asteroid collectors, which have a class, and loaders of one tile, markets and turrets without ammunition are never asked for (`entity.py:128-297`): they become generic entities, always.
* `C79_orphan_refuted`: Refuted: entities can be made from their names. Cargo bays, fusion reactors, half diagonal rails and rail supports have classes that are not derived from `Entity` (`prototypes/cargo_bay.py:16`, `fusion_reactor.py:15`, `half_diagonal_rail.py:15`, `rail_support.py:15`): making one is a `TypeError`, always.
* `C80_stale_refuted`: The claim for planners with `settings=None`: `DeconstructionPlanner.setup(settings=None)` leaves all settings as they were, so the effect of an earlier call stays.
* `C80_upgrade_none_refuted`: `UpgradePlanner.setup(settings=None)` returns, but afterwards the description, the icons and the mappings cannot be read any more: their getters raise `AttributeError`.
* `C80_unknown_stays_refuted`: An unknown keyword of one call of `setup` is still there, and still warned about, after a later call that does not mention it.
* `C80_settings_unknown_refuted`: An unknown key within the settings of a deconstruction planner is dropped without a warning, while for an upgrade planner it is kept and warned about.
* `C80_replaced_refuted`: A keyword that is the root key replaces the whole object, without an exception if nothing is validated; no attribute stored in it can be read afterwards.
* `C80_refused_refuted`: A call of `setup` that is refused leaves behind what it had assigned before.
* `C80_index_refuted`: The index given to the constructor has no effect: an object made with an index is the same as one made without.
* `C81_merge_refuted`: Claim: after merging, the attributes are those of the other entity. Two asteroid collectors that can be merged: the chunks that the other one collects are not taken over, nor is its quality.
* `C81_missing_refuted`: Claim: an entity is equal to itself and can be merged. Without control behavior comparing an accumulator with itself raises an `AttributeError`, and so does merging a rail signal into another one.
* `C81_half_refuted`: Claim: a merge that fails changes nothing. A control behavior that validation refuses: the tags have been taken over by then.
* `C81_equal_refuted`: Claim: equal entities agree in all attributes. Two asteroid collectors that collect different chunks and have different quality are equal.
* `C81_unhashable_refuted`: Claim: entities can be hashed. Both classes of simple entities inherit `__eq__` from `DirectionalMixin` and with it a `__hash__` that is `None`, so that `hash` raises a `TypeError`.
* `C81_hash_refuted`: Claim: equal entities have the same hash. The hash is the address, so that a copy of an entity is equal to it and has another hash.
* `C82_unknown_refuted`: The claim for unknown recipes: assigning one to an assembling machine that has a request raises a `TypeError` instead of the warning.
* `C82_silo_refuted`: The claim for rocket silos: assigning any recipe to one that has a request raises a `TypeError`.
* `C82_machine_refuted`: The claim for unknown machines: assigning a known recipe to an assembling machine of an unknown name that has a full request raises an `AttributeError`.
* `C82_furnace_refuted`: The claim for furnaces: any request raises a `TypeError`, and the list stays as it was given.
* `C82_generator_refuted`: The claim for burner generators: a full request, though it be the right fuel, raises a `TypeError`.
* `C82_short_refuted`: The claim for abbreviated requests, where the item is given by its name alone: pydantic accepts them, but an assembling machine with a recipe raises a `TypeError`, and the list stays as it was given.
* `C82_unchecked_refuted`: The claim for rocket silos, labs, beacons and containers: whatever is assigned, there is no warning.
* `C82_lab_refuted`: The claim for labs of an unknown name: the request is stored, and then there is a `TypeError`, unless the item is a module.
* `C82_container_refuted`: Containers: every request is stored, and then there is an `AttributeError`.
* `C82_queries_refuted`: The number of modules in a machine is never computed: it is 0 as long as the requests are as they were given, and a `TypeError` once pydantic has seen one; the modules among the requests cannot be listed at all; and neither can the ingredients, if there is one.
* `C82_fuelled_refuted`: The claim for a drill that has been given the name of a kind of drill that none was made of before: no fuels are kept for it, and the items allowed in it cannot be asked for.
* `C82_order_refuted`: The claim depends on the order: requesting an item that the recipe does not use after choosing the recipe gives no warning, choosing the recipe after the request does, and the machine is the same.
* `C82_blacklist_refuted`: The claim for modules with a blacklist: requesting one for a machine with a recipe on it gives no warning, though it is not among the modules offered; choosing the recipe again gives one.
* `C82_cache_refuted`: The claim for a category of fuel without fuels: the first construction raises a `KeyError`, the second one succeeds, with the fuels of the categories before it.
* `C83_item_refuted`: Refuted: what is an item signal is an item. The lists of categories differ: selection tools, copy-paste tools and starter packs are item signals (`environment/update.py:1430-1439`) but not among the items (`environment/update.py:801-816`), so that the game's own `"space-platform-starter-pack"` is unknown as an item.
* `C83_ambiguous_refuted`: Refuted: `signal_dict` gives a signal named by a string one type, the same each time. What is not an item but several other things, as a fluid that is also a recipe, gets whichever type the iteration of a set of strings yields first (`data/signals.py:129`), and that order changes from one run of Python to the next.
* `C83_raw_refuted`: Refuted: the raw signals hold for an item the prototype of the item. If there is a recipe or entity of the same name, as for most items, it is that one (`environment/update.py:1395-1399`).
* `C84_shared_refuted`: Two entities made by different calls with no arguments share objects that can be changed: the default tags of two lamps are one dictionary, so that a tag put on one lamp is on the other as well. Same for the default items of containers and for other fields.
* `C84_chunks_refuted`: The chunk filter of an asteroid collector given by the key under which it is exported is lost: the default, an empty list, is stored.
* `C84_dropped_refuted`: The argument `result_inventory` of an asteroid collector is accepted and dropped.
* `C84_orphan_refuted`: Cargo bays, fusion reactors, half diagonal rails and rail supports cannot be constructed at all: the classes have no base class, and the constructor of `object` takes no arguments.
* `C84_items_refuted`: The requested items are a list, to which requests are appended; by default they are a dictionary in five classes, so that the first request for such an entity raises an `AttributeError`.
* `C84_names_refuted`: Arguments that a class declares without having a settable attribute of that name.
* `C84_both_refuted`: The direction of an underground belt given twice, as `io_type` and as `type`, is the one of `type` even though `io_type` says otherwise.
* `C84_invalid_refuted`: A name that belongs to no entity of the class is accepted, though the documentation of `Entity.__init__` promises an `InvalidEntityError`; so is a keyword that no class knows, for which a warning is promised.
* `C85_index_refuted`: C85: an assignment to `index` that raises can change it.
* `C85_schedules_refuted`: Claim: "validating a blueprint also validates its schedules". Refuted: `Blueprint.validate` (blueprint.py:1028-1045) validates the entities and tiles and never looks at the schedules, although `Schedule.validate` exists; a blueprint with a schedule that is invalid is reported as valid.
* `C85_raises_refuted`: Claim: "`validate` collects errors and returns them, and does not raise". Refuted: a blueprint that is too large raises an `UnreasonablySizedBlueprintError`, since that is a `DraftsmanError` and no `ValueError` (error.py:56, blueprint.py:442); the errors of the other blueprints of the same book are lost.
* `C85_coerce_refuted`: Claim: "`validate` coerces the data to their proper form". Refuted for directions and orientations, which are put back as they were (entity.py:731-735), and for tiles and blueprints, whose converted data are thrown away (tile.py:280, blueprintable.py:514): validating an object that converts gives no errors and leaves them unconverted.
* `C86_color_refuted`: Claim: "an unsuitable color is refused with a `DataFormatError`" (mixins/color.py:60). Refuted: two numbers raise an `IndexError` (signatures.py:596-599); five numbers are accepted and the last one is ignored.
* `C86_networks_refuted`: Claim: "a selection of networks that names an unknown wire is refused". Refuted: anything but "red" and "green" in the set is ignored (signatures.py:695-697), so that a misspelt color silently selects nothing.
* `C86_condition_refuted`: Claim: "an unsuitable condition is refused with a `DataFormatError`, and all of a suitable one is used". Refuted: `("signal-A", ">")` raises an `IndexError`, a list as comparator a `TypeError` (signatures.py:746-755, 771); a fourth value is ignored; and a constant given as a float, which is accepted in a dictionary, is taken for a signal in a sequence and refused.
* `C86_position_refuted`: Claim: "an unsuitable position is refused with a `DataFormatError`, and the forms of a position mean the same". Refuted: `[1]` raises an `IndexError` and `{"x": 1}` a `KeyError`, since only `TypeError` is caught (signatures.py:634-638); a fractional tile position is refused as a vector, but given as a tuple it is rounded towards zero.
* `C87_range_refuted`: C87: the documentation promises an `AssertionError` for numbers outside `[0, 32)`; it is a `ValueError`.
* `C87_mask_refuted`: C87: "only the lowest bits are used" holds when assignments are checked; with validation off the wide number is kept, and exported.
* `C87_filter_refuted`: C87: emptying a slot that is empty should do nothing; it raises a `DataFormatError`.
* `C87_filter_index_refuted`: C87: the slots are numbered from 1 in the format, but the slot before the first is accepted and stored as 0.
* `C87_filter_none_refuted`: C87: settings or filters that are `None` are allowed, but then no filter can be set.
* `C87_export_refuted`: C87: an interface whose prototype is not known cannot be exported: `KeyError`.
* `C87_import_refuted`: C87: a value set to `None` comes back as the default of the prototype.
* `C87_sections_refuted`: C87: with one index given by hand, the next section may get the same.
* `C88_virtual_refuted`: C88: a pure virtual signal in a constant combinator should give a warning; the text of the warning cannot be made, and an `AttributeError` escapes.
* `C88_filters_refuted`: C88: the filters are numbered from 1, but 0 and negative numbers are accepted.
* `C88_bar_refuted`: C88: a quality that is stored unchecked makes the validation of the bar raise a `KeyError` in place of reporting the quality.
* `C88_volume_refuted`: C88: with validation off nothing should be reported, but a volume out of range is.
* `C88_note_refuted`: C88: `"self"` is no note, and no instrument has one of that name, yet it is not reported.
* `C88_parameters_refuted`: C88: when instrument and note are assigned together, the note is looked up in the instrument the speaker had before: a good pair is reported.
* `C88_forbidden_refuted`: C88: every signal that is not allowed should be reported; only the first is.
* `C88_shorthand_refuted`: C88: one sequence that is too short, and no other is converted either.
* `C89_loaded_refuted`: C89: two blueprints made from one dictionary are not equal if it has a schedule with a locomotive.
* `C89_wires_refuted`: C89: blueprints that differ in their wires, stock connections and index are equal.
* `C89_copied_refuted`: C89: a blueprint with a group in it is not equal to its own copy.
* `C89_order_refuted`: C89: blueprints with the same members in another order are not equal.
* `C89_rectangle_refuted`: C89: equal rectangles may overlap different shapes: one was turned after it was built and the other was not.
* `C90_extra_refuted`: C90 is false of keys that are no fields: `record[key] = value` keeps the value and `record[key]` gives it back, but `key in record` is then false and `record.get(key, default)` gives the default.
* `C90_method_refuted`: C90 is false of names of methods: `record["get"]` gives the method though `"get" in record` is false, where a dictionary raises `KeyError`.
* `C90_missing_refuted`: C90 is false of the error: asking for a key that is missing raises `AttributeError`, not `KeyError`, so code that handles dictionaries does not handle it.
* `C90_sections_refuted`: C90 is false of sections: the one record that has its own `[]` looks for a group of that name, so the key that is in it and can be written cannot be read, and raises `StopIteration`.
* `C90_belt_refuted`: C90 is false of transport belts and of active, passive and storage chests: their control behaviors derive from the formats of mixins and not from `DraftsmanBaseModel`, so they cannot be written with `[]`, and `set_circuit_condition` and `set_logistic_condition` raise `TypeError` for every condition.
* `C90_stored_refuted`: C90: setting a condition that fails leaves the conditions as they were. False of these entities: the condition is stored before the `TypeError` is raised.
* `C90_error_refuted`: C90 is false of the errors of conditions: the documentation says `DataFormatError` for a wrong comparator, signal or constant, but the arguments are converted before the body runs, and the error is the `ValidationError` of pydantic, which is a `ValueError` and no `DataFormatError`.
* `C90_numeral_refuted`: C90 is false of texts: a right side that is a text and no signal should be refused, but a numeral is taken for a constant.
* `C91_energy_refuted`: C91: a new electric energy interface that the game data do not know, as one of a mod that is not loaded, has `None` for its numbers and cannot be exported at all (`KeyError`).
* `C91_wagon_refuted`: C91 is false of artillery wagons: the format says that logistics while moving is on by default, the constructor that it is off. A wagon with it on is exported without the setting and comes back with it off.
* `C91_silo_refuted`: C91 is false of rocket silos: no recipe is the default of the format and left out, but the constructor puts in `rocket-part`.
* `C91_none_refuted`: C91 is false of `None`: it is always left out, so where it is not the default it comes back as the default; `direction` is one such setting, which may be set to `None`.
* `C91_new_refuted`: C91 is false of new cars: their constructor puts an empty dictionary where the format has an empty list, so that `items` is exported though nothing was requested.
* `C92_index_refuted`: Claim: a schedule list holds nothing but schedules. `schedules[0] = [schedule]` passes the check meant for slices and stores the list as an element; exporting the blueprint then fails, for `list` has no `to_dict`.
* `C92_extend_refuted`: Claim: a call that raises changes nothing. `extend` adds the schedules before the first value that is none.
* `C92_shared_refuted`: Claim: blueprints do not share schedules. After `b.schedules = a.schedules` a schedule appended to one appears in the other.
* `C92_none_refuted`: Claim: assigning `None` to the schedules of a blueprint empties its schedules only. It clears the object in place: after `b.schedules = a.schedules; b.schedules = None` the schedules of `a` are gone (groups get a new list).
* `C92_setup_refuted`: Claim: what can be assigned to `schedules` can be given to the constructor. `Group(schedules=other.schedules)` raises `TypeError`: the constructor of `ScheduleList` only takes a `list`, though the annotation allows a `ScheduleList`.
* `C93_cache_refuted`: Claim: a renamed four-way entity has the footprint of its new name. The collision boxes are cached per name by the constructor: renamed to a name no entity was constructed with yet, the entity has a footprint of no tiles.
* `C93_diagonal_refuted`: Claim: a renamed four-way entity has the footprint of its new name whatever its direction. Under no validation an entity may face north-east; then the cache has no box for it and the footprint is of no tiles, though the constructor gave it one.
* `C93_override_refuted`: Claim: a renamed four-way entity has the footprint of its new name, turned with it. A footprint given by the data is put in as it is, not turned: facing east, the entity stands as if facing north.
* `C93_vehicle_refuted`: Claim: a renamed vehicle has the footprint of its new name. A vehicle keeps the rectangle made from its first name: a wagon renamed to one twice as long keeps its length.
* `C93_self_refuted`: Claim: assigning its own name to an entity changes nothing. A wagon facing east is constructed with the footprint of one facing north; the assignment turns the footprint and moves the wagon, as the tile position is kept.
* `C93_turn_refuted`: Claim: a renamed entity turns with the footprint of its new name. Turning goes back to the footprint remembered by the constructor, that of the old name: a drill of three by three renamed to one of two by two takes up three by three again.
* `C94_archive_refuted`: C94: a mod in an archive is not loaded like one in a folder: with a single mod, a zip file with an empty `data.lua`, loading fails, because `Mod.get_file` reads an attribute that does not exist.
* `C94_suffix_refuted`: C94: a module whose name ends in `lua` after some character is not found: the pattern that should cut off `.lua` cuts off `_lua` as well, so with `require("my_lua")` the file `my_lua.lua` is not run.
* `C94_sound_refuted`: C94: a module in a folder `sound` or `graphics` of a mod is not run, though its file is there: a dummy takes its place.
* `C94_neighbour_refuted`: C94: "get directory of current file": a file that requires a module without folder does not get the one beside it, but one in the folder of the mod: `CURRENT_FILE` is not changed for modules with folders.
* `C94_other_refuted`: C94: "Stack of mods keeping track of where to require files": a file of mod `B` that is required by mod `A` and itself requires a module gets the file of mod `A`, if both have one.
* `C94_twice_refuted`: C94: a file can be run more than once for one stage of a mod: what is loaded is kept by the name as written, not by the file.
* `C94_nested_refuted`: C94: a module in a folder is not always looked for from the folder of the mod: `require("a.b")` runs `a/a/b.lua` instead of `a/b.lua`.
* `C94_base_refuted`: C94: files of the mod `base` named by `__base__/…` are not those of the mod at the path of the game that was given, but are looked for in a folder `factorio-data` of the working directory.
* `C95_branch_refuted`: C95: a version there is a tag for can not always be chosen: if no tag is checked out (say, the main branch), there is an `AttributeError`.
* `C95_latest_refuted`: C95: "latest" does not always check out the newest tag: with a fourth number in its name, that is dropped, and another tag may be taken.
* `C95_recorded_refuted`: C95: "Normalize it to 4 numbers": a version with two numbers is recorded with two.
* `C96_ids_refuted`: C96: exporting what was loaded may give another dictionary than the one that was loaded: if two entities differ only in their ids, which are not exported, the wires and schedules of the second go to the first after loading and exporting once more, and wires are lost.
* `C97_lost_refuted`: C97: the warnings of a decorated function that raises are lost: a function that warns and then fails shows its warning only without the decorator. So it is with `EntityList.extend` (`classes/entity_list.py:178-202`) if the first of the entities gives a warning and the second has an id that is taken: the first stays in the list, and of its warning nothing is seen.
* `C98_made_refuted`: C98: a rail planner cannot be made: for the item `"rail"` of version 1.1 data, at the origin and facing north, which is what `RailPlanner()` is given by default, there is no planner.
* `C99_ticks_refuted`: C99 is false of a condition for elapsed time whose time was set to `None`, which is allowed: it comes back with 30 seconds.
* `C99_comparison_refuted`: C99 is false of conditions as the constructor makes them: the default comparison given to a kind that does not compare is lost.
* `C99_missing_refuted`: C99 is false of stops read from a dictionary without `"wait_conditions"`: such a stop is not equal to the same stop put in with `append_stop` (so that `set_train_schedule` takes them for different schedules).
* `C99_missing_export_refuted`: C99: whatever pydantic does about it, a stop read from a dictionary without `"wait_conditions"` is not exported as the same stop put in with `append_stop` is; if defaults with a serializer of their own are not left out, exporting it fails.
* `C99_caller_refuted`: C99: reading a list of dictionaries should leave it as it is; it is turned into a list of objects, up to the first that is refused.
* `C100_same_refuted`: C100: without the hypothesis that no two entities look alike the string may be another one: ids are not exported, so that the wires and schedules of the second of two like entities go to the first.
* `C100_version_refuted`: C100: a blueprint without a version does not stay so: the version of the game is in the string the next time.
* `C100_unknown_refuted`: C100: an unknown key in a blueprint is exported beside the blueprint, where it is not looked for, so that it is lost the next time.
* `C100_documented_refuted`: C100: not every string that is no blueprint is reported as the documentation says: for the string of `{}` the error message is made of a key that does not exist, and the result is a `StopIteration`.
* `C101_kind_refuted`: C101: without the hypothesis that no unknown key is named like a class, a book may become a blueprint: unknown keys in it are exported beside it, and `"blueprint"` is looked for first.
* `C102_twice_refuted`: **C102** is refuted for second exports: `NetworkSpecification(red=None)` in a condition is exported as an empty dictionary, and once that has been read, as nothing at all.
* `C102_signal_refuted`: **C102** is refuted for signals that are set without saying their type: `section.set_signal(0, "signal-A", 5)` accepts the signal with the type `None`, which is not exported, and what is read has the type "item".
* `C102_filter_refuted`: **C102** is refuted for filters without an index: `EntityFilter(name="steel-chest", index=None)` is accepted, but what is exported cannot be read, as the index has no default.
* `C102_hidden_refuted`: **C102** is refuted for the names of instruments and notes, which are never exported: `instrument_name="bass"` and `note_name="C5"` are gone.
* `C102_keys_refuted`: **C102** is refuted for keys that are no fields in the control behaviors of belts and of three logistic chests: they are not kept when a dictionary is read.
* `C102_none_refuted`: **C102** is refuted for conditions that are removed: `circuit_condition = None` in the control behavior of a wall is the default condition after exporting and reading.
* `C103_model_refuted`: C103: `set_mapping` says it takes a `MapperID`, and raises a `TypeError` for one.
* `C103_removed_refuted`: C103: a mapping that was assigned cannot be removed by `remove_mapping`: `mappers = [("transport-belt", "fast-transport-belt")]` and then `remove_mapping("transport-belt", "fast-transport-belt")` is a `ValueError`.
* `C103_unchanged_refuted`: C103: an assignment that raises can change the planner: a mapping of the entity `iron-plate`, which is an item, raises a `KeyError` in the check, and the mappers are stored already.
* `C104_surrogate_refuted`: C104 refuted: bytes that are no text in any of the encodings are read too. The decoders are called with `surrogatepass`, so that the bytes UTF-8 would have for a surrogate, which stand for no character, are taken for it: every blueprint string that unpacks to them is read as a text with that surrogate.
* `C105_made_refuted`: Refuted: the conditions of a decider combinator can be exported. Those made with the operators, as the documentation says they are to be, cannot: their type is not known to the model of the control behavior, so that the objects themselves are put into the exported dictionary, and writing it as JSON is a `TypeError`.
* `C105_single_refuted`: Refuted: what a comparison gives can be assigned. One comparison alone is no list, and is refused with a `DataFormatError`.
* `C105_before_refuted`: Refuted: a condition can be put before those of a combinator that was read from a blueprint string: `AttributeError`.
* `C105_equal_refuted`: Refuted: a copy of a combinator equals it. Conditions made with the operators are only equal to themselves, so that a combinator with such conditions does not equal its copy in a blueprint.
* `C106_refuted`: Refuted: an attribute read from the game's data never fails, and is `None` if the name is not recognized. `item_slot_count` of a constant combinator is a `KeyError` with the data of the game, and `flippable` and `has_equipment_grid` are for every entity that is not recognized.
* `C107_slice_refuted`: Refuted: slices of the list of blueprints can be assigned, as the index of `__setitem__` says. Whatever the list, the slice and the value, there is a `TypeError` (or a `ValueError`): a list of blueprints is no blueprint, and a blueprint cannot be iterated over.
* `C107_extend_refuted`: Refuted: a call that raises changes nothing. `extend` (and `+=`) adds the blueprints before the first value that is none.
* `C107_dict_refuted`: Refuted: a dictionary can be put into the list as it can be given to the constructor. `append`, `insert`, `extend` and the assignment of an item raise a `TypeError`.
* `C107_shared_refuted`: Refuted: books do not share their blueprints. After `b.blueprints = a.blueprints` a blueprint appended to one appears in the other.
* `C108_fraction_refuted`: Refuted: position and tile position of an entity agree after a coordinate is set. For a fraction they never do: the tile position is whole, the position is not.
* `C108_held_refuted`: Refuted: the position of an entity in a collection cannot be changed. Assigning the position is refused, but a coordinate of it can be assigned; whether the entity has a parent is not looked at.
* `C108_copy_refuted`: Refuted: a coordinate of a copy can be set as that of the original. `append` copies, so this is what entities of blueprints are: the tile position of the copy stays as it was, and that of the original changes, though its position does not.
* `C108_gone_refuted`: Refuted: setting a coordinate to a number never fails. When the original of a copy is gone, it raises an `AttributeError`, after the coordinate was stored.
* `C108_index_refuted`: Refuted: coordinates can be set by index as by name. `position[0] = v`, `position["x"] = v` and `position.update(v, u)` change the position and leave the tile position as it was.
* `C108_shared_refuted`: Refuted: groups do not share their positions. After `group.position = entity.position` (or that of another group) the group has the same vector object, and goes where the entity goes.
* `C109_belts_refuted`: C109 fails for transport belts in every mode: after `a.merge(b)`, assigning `b.circuit_enabled` changes `a.circuit_enabled`.
* `C109_unvalidated_refuted`: C109 fails without validation for every class whose new entities have a control behavior: it is the same object afterwards.
* `C109_extra_refuted`: C109 fails for extra keys: here the control behavior of the other accumulator has a list under a key of its own, which is the same list afterwards although the merge was validated.
* `C110_empty_refuted`: Not proved because it is false: that the table is printed if no mods are found. Then `max` has nothing to choose from.
* `C110_wide_refuted`: Not proved because it is false: that all lines of the short table have the same length. The arrow for a further version is as long as the name, also where the name itself is shortened.
* `C111_newer_refuted`: Not proved because it is false: that an update succeeds if nothing is wrong with what is checked out. The mods, also those that come with the game, are compared with the version recorded before; so after a later version of the game has been checked out there is no way to get its data.
* `C111_mixed_refuted`: Not proved because it is false: that a failed update changes nothing. The version is recorded first, and every file is written as soon as it is extracted, so that afterwards some data are those of one version and some those of another.
* `C112_files_refuted`: Not proved because it is false: that files which are no mods make no difference. `mods[mod_obj]` is set to the `None` that `register_mod` returns for them, and `mod.info` fails (`env.py:1827`, 1851): with `mod-list.json` in the folder of mods, where the game keeps it, the update always fails.
* `C112_archive_refuted`: Not proved because it is false: that a mod can be an archive as well as a folder. The dictionary has the name of the file, and not that of the mod, so that the mods which need it miss it.
* `C112_disabled_refuted`: Not proved because it is false: that mods which are switched off are not loaded; archives are looked up in the list under the name of the file.
* `C112_once_refuted`: Not proved because it is false: that of several versions of a mod one is loaded. The newer replaces the older under its own file name only, so that both are; and in the other order the newer one runs twice.
* `C112_noMods_refuted`: Not proved because it is false: that leaving mods out leaves the official ones in, as the documentation says: everything that the list of mods has is left out, and it has the base.
* `C113_int_refuted`: C113 refuted: `draftsman.env.update` does not know the integers that files have had since version 2 of the game. Whatever integer is saved for a setting, the setting is left without a value (`nil`), neither the saved one nor its default, and without any complaint.
* `C113_type_refuted`: C113 refuted: a type that the table of settings does not have (its names are the five written here) makes the update fail as soon as the file has a setting of that type.
* `C114_back_refuted`: C114 fails off the grid: a chest at 0.1 that is moved one tile to the right and one to the left again ends at 0.10000000000000009, so that moves of a collection (C22) do not undo each other exactly.
* `C114_far_refuted`: C114 fails far away: `2⁵³` tiles to the right the half tile is lost, and on the way back the chest ends at 0.
* `C115_pair_refuted`: C115 refuted: a text in which a first surrogate stands directly before a second one never comes back: the two are read as one character.
* `C115_keys_refuted`: C115 refuted: for each such text there is another one that is written in the same way; as keys of a dictionary the two are different, but only one of them is read back.
* `C116_deep_refuted`: C116 fails two groups down, whatever else the groups hold: an entity in a group in a group is `in` the list, but `recursive_remove` says it is not there, since it calls the plain `remove` of the inner lists.
* `C116_equal_refuted`: C116 fails for equal entities: asked to remove the second of two, the first one goes.
* `C116_single_refuted`: C116 fails for a path of one step: it leads nowhere, whatever the list and the step.
* `C117_reverse_refuted`: C117 is false of the code in that a list need not be reversible: `reverse` writes the last member in the place of the first while it still stands at the end too, so that a member with an id there counts as a duplicate of itself.
* `C117_reverse_failed_refuted`: C117 is false of the code in that a reversal that fails leaves the list changed.
* `C117_endless_refuted`: C117 is false of the code in that extending a list by itself need not end: the members appended are met by the same loop.
* `C118_dicts_refuted`: C118 is false of the code in that the dictionaries of a list assigned do not stay as they are: their names are taken out, so that assigning the list once more fails.
* `C118_wires_refuted`: C118 is false of the code in that the wires do not follow: assigning a blueprint's own list to it leaves wires between objects that are no members any more.
* `C118_former_refuted`: C118 is false of the code in that the parent of a former member is not reset: it still has the blueprint as parent, and giving it another id makes the blueprint forget the id of the new member.
* `C119_wide_refuted`: C119 fails for large parts: a later part above 65535 is accepted in every mode and runs into the parts before it, so that other parts are read than were set: after `version = (1, 65537)` the version is 1.1.0.0, the same as after `(1, 1)`.
* `C119_none_refuted`: C119 fails after `None`: then `version_tuple` and `version_string` raise a `TypeError`, although the documentation says that `None` removes the version.
* `C119_text_refuted`: C119 fails for what pydantic turns into numbers, such as texts of digits: they are taken for the packed number instead of being refused, so that `version = "2"` gives version 0.0.0.2.
* `C119_unchecked_refuted`: C119 fails without validation: everything that cannot be packed is stored, such as one part only, and reading the parts fails from then on.
* `C120_group_refuted`: C120 fails for groups: a rail on the double grid of a group that is itself placed elsewhere is exported off the grid, and no mode of validation complains of it; and a rail that an odd group puts on the grid is complained of.
* `C120_cast_refuted`: C120 fails for what the warning of `translate` promises, that positions are cast to the grid on export: after a warning every rail that was on the grid is exported off it.
* `C121_refused_refuted`: Refuted: a refused assignment changes nothing. A temperature that does not fit to the fluid is refused and stored, for every known fluid and every such temperature.
* `C121_minimum_refuted`: Refuted: the modes that check something check the temperature. `MINIMUM` takes a temperature without any fluid, which the game refuses to import.
* `C121_error_refuted`: Refuted: only a `DataFormatError` comes out. Settings set to `None`, which the attribute allows, make every assignment to a single field an `AttributeError`; and a temperature that is text, taken without validation, makes the next assignment with validation a `TypeError`.
* `C122_nested_refuted`: An entity appended to a group that is in the blueprint is in the blueprint, but no search of the blueprint finds it: the list of the group adds it to the map of the group.
* `C122_ghost_refuted`: What is taken out of a group that is in the blueprint is no longer in the blueprint, but every search of the blueprint goes on as before: what was found there is still found.
* `C122_translate_refuted`: Moving a blueprint with a group in it, or moving a group that is in a blueprint, moves the entities of the group, but the map of the blueprint keeps them where they were: they are found neither there nor where they are.
* `C123_unchecked_refuted`: In every mode, strict ones included, the wires and stock connections of a blueprint accept whatever is assigned, even if every value fails validation.
* `C123_grid_refuted`: The snapping grid of a blueprint cannot be removed: the documentation says that `None` removes it and that it then reads as `None`, but it reads as a vector of zeros.
* `C123_settings_refuted`: An upgrade planner that was set up with `settings=None` takes no description, icons or mappers any more, in any mode.
* `C124_ticks_refuted`: The documentation of `ticks` says 30 seconds for the type `time`, but that is so only if the type is given to the constructor: changed to `time` later, there are none, and `validate` does not mind.
* `C124_converted_refuted`: Validation that finds nothing does not mean that the values are those of the format: one that was assigned without validation stays as it was given, though validation would convert it.
* `C125_sum_refuted`: The sum of north-west and east is north-east, but is not printed like it: the name is looked up before the number is taken round the circle.
* `C125_again_refuted`: An orientation made from an orientation loses its name, wherever in memory that is: the name is looked up by a hash that is no number's.
* `C125_set_refuted`: Two orientations that are equal are two members of a set, and the number they are equal to has another hash.
* `C126_wires_refuted`: A group that is made from a string in which there are no wires has no wires: reading the attribute fails.
* `C126_schedules_refuted`: The constructor is documented to take a list of schedules of the library's own class, which is no `list`: it refuses it, though the attribute takes it.
* `C126_id_refuted`: An id that the list of the parent refuses is kept all the same.
* `C127_corners_refuted`: The bounding box of a box away from the origin equals the box made afresh with the same numbers, spans what the box spans, and yet does not overlap a rectangle that lies on it, which the box does.
* `C127_alias_refuted`: A box that was turned has the vector of the box it was made from: a set made of the one moves the other.
* `C128_pair_refuted`: An area of the type that is documented, `tuple[PrimitiveVector, PrimitiveVector]`, is refused: two points, whatever they are.
* `C128_all_refuted`: Without an area `find_entities` does not find the entities in groups that it finds in an area.
* `C129_refused_refuted`: The claim that everything else is refused fails: a vector of whole numbers times a text is a vector of texts, and times a list of two lists a vector of lists.
* `C129_error_refuted`: The claim that what is refused is refused with a `TypeError` fails: a sequence with one entry is an `IndexError`, and a position in the form of the game, with the keys `"x"` and `"y"`, which positions can be assigned in, is a `KeyError`.
