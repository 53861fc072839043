import Verif.Model.Py
/-
Filter slots: deconstruction planner filters (`/repo/draftsman/classes/deconstruction_planner.py:562-675`), item filters
(`/repo/draftsman/classes/mixins/filters.py:116-164`), inventory filters (`/repo/draftsman/classes/mixins/inventory_filter.py:236-292`) and signal
sections (`/repo/draftsman/signatures.py:1183-1252`).

Validation is taken at any level but `NONE`; of what it checks only the number ranges and the literal fields are modelled, since names that
are strings give warnings at most.
-/
namespace Draftsman
namespace Slots

/-! ## Deconstruction planner filters -/

/-- `EntityFilter` and `TileFilter`, `/repo/draftsman/signatures.py:777-808`: the name and the stored (1-based) index, which may be `None`. -/
structure Filt where
  name : String
  index : Option Int
  deriving DecidableEq, Repr

/-- `uint64`, `/repo/draftsman/signatures.py:71-73`. -/
def uint64Ok (i : Int) : Bool := decide (0 ≤ i) && decide (i < 2 ^ 64)

/-- Does the list pass the validation at the end (`attempt_and_reissue`, `/repo/draftsman/classes/deconstruction_planner.py`, lines 597-603): every index that is there is a `uint64`. -/
def filtsOk (l : List Filt) : Bool := l.all fun f => match f.index with | none => true | some i => uint64Ok i

/-- The last lines of the setters, `/repo/draftsman/classes/deconstruction_planner.py:597-604` and 661-668.  `new_filters` is the planner's own list if it has one, so the list is changed even if
the validation fails. -/
def commit (s : Option (List Filt)) (l : List Filt) : Option (List Filt) × Option PyErr :=
  if filtsOk l then (some l, none) else (s.map fun _ => l, some .dataFormat)

/-- `set_entity_filter`: `/repo/draftsman/classes/deconstruction_planner.py:574-604`; `set_tile_filter` (638-668) is the same code. -/
def setFilter (s : Option (List Filt)) (i : Int) (name : Option String) : Option (List Filt) × Option PyErr :=
  match name with
  | none =>
    match (s.getD []).findIdx? (fun f => f.index == some (i + 1)) with
    | some k => commit s ((s.getD []).eraseIdx k)
    | none => (s, some .unboundLocal)
  | some n =>
    if uint64Ok i then
      match (s.getD []).findIdx? (fun f => f.index == some (i + 1)) with
      | some k => commit s ((s.getD []).modify k fun f => { f with name := n })
      | none => commit s (s.getD [] ++ [⟨n, some (i + 1)⟩])
    else (s, some .dataFormat)

/-- `set_entity_filters(*names)` for strings: `/repo/draftsman/classes/deconstruction_planner.py:617-624` with `normalize_entity_filters`,
199-211. -/
def setEntityFilters (names : List String) : Option (List Filt) :=
  some (names.mapIdx fun i n => ⟨n, some ((i : Int) + 1)⟩)

/-- `set_tile_filters(*names)`: `/repo/draftsman/classes/deconstruction_planner.py:670-675`. -/
def setTileFiltersFrom (i : Nat) : List (Option String) → Option (List Filt) → Option (List Filt) × Option PyErr
  | [], s => (s, none)
  | n :: r, s =>
    match setFilter s i n with
    | (s', some e) => (s', some e)
    | (s', none) => setTileFiltersFrom (i + 1) r s'

/-! ## Item and inventory filters -/

/-- `ItemFilter`, `/repo/draftsman/signatures.py:907-925`. -/
structure ItemF where
  index : Int
  name : String
  quality : Option String
  comparator : Option String
  deriving DecidableEq, Repr

/-- `int64`, `/repo/draftsman/signatures.py:64-66`. -/
def int64Ok (i : Int) : Bool := decide (-2 ^ 63 ≤ i) && decide (i < 2 ^ 63)

/-- The literal of `quality`, `/repo/draftsman/signatures.py:912-916`. -/
def qualities : List String := ["normal", "uncommon", "rare", "epic", "legendary", "quality-unknown", "any"]

/-- The literal of `comparator`, `/repo/draftsman/signatures.py:923`. -/
def comparators : List String := [">", "<", "=", "≥", "≤", "≠"]

/-- Does an `ItemFilter` validate.  `/repo/draftsman/signatures.py:1062-1119`. -/
def itemOk (f : ItemF) : Bool :=
  int64Ok f.index && (match f.quality with | none => true | some q => decide (q ∈ qualities)) &&
    (match f.comparator with | none => true | some c => decide (c ∈ comparators))

/-- The last lines of the setters (`/repo/draftsman/classes/mixins/filters.py:161-164`,
`/repo/draftsman/classes/mixins/inventory_filter.py:285-292`), as in `commit`. -/
def commitItems (s : Option (List ItemF)) (l : List ItemF) : Option (List ItemF) × Option PyErr :=
  if l.all itemOk then (some l, none) else (s.map fun _ => l, some .dataFormat)

/-- The body the two setters share, given the entry they build.  `/repo/draftsman/classes/mixins/filters.py:136-164`, `/repo/draftsman/classes/mixins/inventory_filter.py:258-292`. -/
def setItem (s : Option (List ItemF)) (i : Int) (entry : Option ItemF) : Option (List ItemF) × Option PyErr :=
  match entry with
  | none =>
    match (s.getD []).findIdx? (fun f => f.index == i + 1) with
    | some k => commitItems s ((s.getD []).eraseIdx k)
    | none => (s, some .unboundLocal)
  | some e =>
    if itemOk e then
      match (s.getD []).findIdx? (fun f => f.index == i + 1) with
      | some k => commitItems s ((s.getD []).modify k fun f => { f with name := e.name })
      | none => commitItems s (s.getD [] ++ [{ e with index := e.index + 1 }])
    else (s, some .dataFormat)

/-- `set_item_filter`: `/repo/draftsman/classes/mixins/filters.py:136-164`. -/
def setItemFilter (s : Option (List ItemF)) (i : Int) (item : Option String) (quality comparator : String) :
    Option (List ItemF) × Option PyErr :=
  setItem s i (item.map fun n => ⟨i, n, some quality, some comparator⟩)

/-- `set_inventory_filter`: `/repo/draftsman/classes/mixins/inventory_filter.py:258-292`.  The entry is built without the quality and the
comparator (line 260), so it has the defaults of `ItemFilter`. -/
def setInventoryFilter (s : Option (List ItemF)) (i : Int) (item : Option String) (_quality _comparator : String) :
    Option (List ItemF) × Option PyErr :=
  setItem s i (item.map fun n => ⟨i, n, some "any", none⟩)

/-- What can stand in the list given to `set_item_filters`: a name, an entry with its index, or `None`.
`/repo/draftsman/classes/mixins/filters.py:166-196`. -/
inductive ItemArg where
  | name (n : String)
  | entry (f : ItemF)
  | none
  deriving DecidableEq, Repr

/-- `normalize_filters` and the validation of one entry, `/repo/draftsman/classes/mixins/filters.py:30-43`, `/repo/draftsman/signatures.py:907-925`; `none` if it
fails. -/
def readItem (k : Nat) : ItemArg → Option ItemF
  | .name n => if itemOk ⟨k + 1, n, some "any", none⟩ then some ⟨k + 1, n, some "any", none⟩ else Option.none
  | .entry f => if itemOk f then some f else Option.none
  | .none => Option.none

/-- The loop over the list.  `/repo/draftsman/classes/mixins/filters.py:30-43`. -/
def readItems (k : Nat) : List ItemArg → Option (List ItemF)
  | [] => some []
  | a :: r => match readItem k a, readItems (k + 1) r with
    | some f, some fs => some (f :: fs)
    | _, _ => Option.none

/-- `set_item_filters(*filters)`, `/repo/draftsman/classes/mixins/filters.py:166-197`: a single `None` means no list.  `set_inventory_filters(filters)`,
`/repo/draftsman/classes/mixins/inventory_filter.py:294-322`, is the same for a list that is not `[None]`, which it refuses. -/
def setItemFilters (s : Option (List ItemF)) (l : List ItemArg) : Option (List ItemF) × Option PyErr :=
  if l = [.none] then (Option.none, Option.none)
  else match readItems 0 l with
    | some fs => (some fs, Option.none)
    | Option.none => (s, some .dataFormat)

/-! ## Signal sections -/

/-- `SignalFilter`, `/repo/draftsman/signatures.py:1061-1126`, with the fields `set_signal` gives a value (`comparator` is always `"="`). -/
structure Sig where
  index : Int
  name : String
  type : Option String
  quality : String
  count : Int
  deriving DecidableEq, Repr

/-- The literal of `type`, `/repo/draftsman/signatures.py:1077-1088`. -/
def sigTypes : List String :=
  ["virtual", "item", "fluid", "recipe", "entity", "space-location", "asteroid-chunk", "quality"]

/-- Does a `SignalFilter` validate, `/repo/draftsman/signatures.py:1062-1119`. -/
def sigOk (f : Sig) : Bool :=
  int64Ok f.index && (match f.type with | none => true | some t => decide (t ∈ sigTypes)) && decide (f.quality ∈ qualities) &&
    decide (-2 ^ 31 ≤ f.count) && decide (f.count < 2 ^ 31)

/-- `Section.set_signal`: `/repo/draftsman/signatures.py:1207-1234`.  `name` must be a string for the entry to validate (1208-1218), so `None` fails there;
with `filters` `None` the new list is thrown away (1220). -/
def setSignal (s : Option (List Sig)) (i : Int) (name : Option String) (count : Int) (quality : String) (type : Option String) :
    Option (List Sig) × Option PyErr :=
  match name with
  | none => (s, some .dataFormat)
  | some n =>
    if sigOk ⟨i, n, type, quality, count⟩ then
      match s with
      | none => (none, none)
      | some l =>
        match l.findIdx? (fun f => i + 1 == f.index) with
        | some k => (some (l.set k ⟨i + 1, n, type, quality, count⟩), none)
        | none => (some (l ++ [⟨i + 1, n, type, quality, count⟩]), none)
    else (s, some .dataFormat)

/-- `Section.get_signal`: `/repo/draftsman/signatures.py:1246-1252`. -/
def getSignal (s : Option (List Sig)) (i : Int) : Option Sig :=
  match s with
  | none => none
  | some l => l.find? fun f => f.index == i + 1

end Slots
end Draftsman
