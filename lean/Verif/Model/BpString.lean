import Verif.Model.RoundTrip
import Verif.Model.Json
/-
Blueprint strings: `Blueprintable.to_string` and `load_from_string` (`/repo/draftsman/classes/blueprintable.py:106-144, 544-568`) for blueprints, down to
the characters, by way of the dictionaries of `RoundTrip` and the JSON of `Json`.

An entity exports a number, a position and further entries, which are any JSON values; how these are turned into attributes and back is C91.  How
coordinates, the names of tiles and the contents of schedules are written is a parameter, and so is what becomes of a value that is assigned to an attribute of
the blueprint (see C80).  Left out: the names of arguments that are not those of keys, such as `snapping_grid_size` (see C80); validation when loading (C85).
-/
namespace Draftsman
namespace BpString

open Json RoundTrip

variable {F : Type}

/-- The entries of a dictionary, as in `/repo/draftsman/classes/blueprintable.py:140`. -/
abbrev Fields (F : Type) := List (List Char × Doc F)

/-- `dictionary[key]`, as in `/repo/draftsman/classes/blueprintable.py:141`; `none` if there is no such key. -/
def get (key : String) : Fields F → Option (Doc F)
  | [] => none
  | (k, d) :: l => if k = key.toList then some d else get key l

/-- How coordinates, tile names and schedules (apart from their locomotives) are written: `/repo/draftsman/classes/vector.py:136-140`,
`/repo/draftsman/classes/tile.py:139-147`, `/repo/draftsman/classes/schedule.py:451-457` (a schedule equal to the default is left out). -/
structure Writing (F : Type) where
  num : ℚ → Doc F
  tile : Nat → Doc F
  sched : Nat → Option (Doc F)

/-- How they are read: `/repo/draftsman/classes/vector.py:85-134`, `/repo/draftsman/classes/tile_list.py:39-53`,
`/repo/draftsman/classes/schedule_list.py:26-40`.  `attr` is how the value of an attribute is exported that was given in the document, if it is:
`/repo/draftsman/classes/blueprint.py:521-544, 578`, `/repo/draftsman/classes/exportable.py:319-334`; `version` how the version of the game is,
`/repo/draftsman/classes/blueprint.py:500`. -/
structure Reading (F : Type) where
  attr : String → Doc F → Except PyErr (Option (Doc F))
  version : Doc F
  num : Doc F → Except PyErr ℚ
  tile : Doc F → Except PyErr Nat
  sched : Option (Doc F) → Except PyErr Nat

/-! ### Writing -/

/-- A key, unless it is left out: `/repo/draftsman/classes/blueprint.py:1118-1134`. -/
def entry (key : String) : Option (Doc F) → Fields F
  | none => []
  | some d => [(key.toList, d)]

/-- A position, `/repo/draftsman/classes/vector.py:136-140`. -/
def vecDoc (w : Writing F) (v : Vec) : Doc F := .obj [("x".toList, w.num v.x), ("y".toList, w.num v.y)]

/-- An entity, `/repo/draftsman/classes/blueprint.py:153-168` and 1101-1103.  Simplified: number and position come last. -/
def entityDoc (w : Writing F) (e : Nat × Fields F × Vec) : Doc F :=
  .obj (e.2.1 ++ [("position".toList, vecDoc w e.2.2), ("entity_number".toList, .int e.1)])

/-- A tile, `/repo/draftsman/classes/blueprint.py:207-219`. -/
def tileDoc (w : Writing F) (t : Nat × Vec) : Doc F := .obj [("name".toList, w.tile t.1), ("position".toList, vecDoc w t.2)]

/-- A schedule, `/repo/draftsman/classes/blueprint.py:222-236`. -/
def schedDoc (w : Writing F) (s : Sched) : Doc F :=
  .obj (("locomotives".toList, .arr (s.locos.map fun k : Nat => .int k)) :: entry "schedule" (w.sched s.rest))

/-- A wire, `/repo/draftsman/classes/blueprint.py:254-273`. -/
def wireDoc (w : Wire) : Doc F := .arr [.int w.e1, .int w.t1, .int w.e2, .int w.t2]

/-- The attributes that are exported as they are, by their keys: `/repo/draftsman/classes/blueprint.py:302-397`. -/
def attrNames : List String := ["label", "label_color", "description", "icons", "version", "absolute-snapping", "stock_connections"]

/-- The keys of a blueprint in the order of `/repo/draftsman/classes/blueprint.py:302-397`, then those put in at
`/repo/draftsman/classes/blueprint.py:170, 210, 238, 275`. -/
def parts (w : Writing F) (attrs : String → Option (Doc F)) (d : Dictionary (Fields F)) : List (String × Option (Doc F)) :=
  [("item", some (.str "blueprint".toList)), ("label", attrs "label"), ("label_color", attrs "label_color"), ("description", attrs "description"),
   ("icons", attrs "icons"), ("version", attrs "version"), ("snap-to-grid", d.snap.map (vecDoc w)), ("absolute-snapping", attrs "absolute-snapping"),
   ("position-relative-to-grid", d.rel.map (vecDoc w)), ("stock_connections", attrs "stock_connections"),
   ("entities", d.entities.map fun l => .arr (l.map (entityDoc w))), ("tiles", d.tiles.map fun l => .arr (l.map (tileDoc w))),
   ("schedules", d.schedules.map fun l => .arr (l.map (schedDoc w))), ("wires", d.wires.map fun l => .arr (l.map wireDoc))]

/-- The entries of the blueprint, `/repo/draftsman/classes/blueprint.py:1046-1136`. -/
def body (w : Writing F) (attrs : String → Option (Doc F)) (d : Dictionary (Fields F)) : Fields F := (parts w attrs d).flatMap fun p => entry p.1 p.2

/-- `None`, which is left out: `/repo/draftsman/classes/exportable.py:319-334`. -/
def isNull : Doc F → Bool
  | .null => true
  | _ => false

/-- The result of `to_dict` as a document, `/repo/draftsman/classes/blueprint.py:1046-1136`; `index` is left out if it is `None`
(`/repo/draftsman/classes/exportable.py:319-334`).  Unknown keys stand beside it, `/repo/draftsman/classes/blueprint.py:582-584`. -/
def toDoc (w : Writing F) (attrs : String → Option (Doc F)) (index : Option Nat) (extra : Fields F) (d : Dictionary (Fields F)) : Doc F :=
  .obj (("blueprint".toList, .obj (body w attrs d)) :: (entry "index" (index.map fun i : Nat => .int i) ++ extra.filter fun x => !isNull x.2))

/-! ### Reading -/

/-- What the `else` of a failed test raises: the message has `next(iter(root))` in it, `/repo/draftsman/classes/blueprintable.py:128-137`. -/
def mismatch : Codec.Root → PyErr
  | .object [] => .stopIteration
  | .array [] => .stopIteration
  | .text "" => .stopIteration
  | .scalar => .typeError
  | _ => .incorrectBlueprintType

/-- Whether an array holds the string `kind`: in `Codec.Root` only the strings of an array are left, but the test for emptiness needs all of it.
`/repo/draftsman/classes/blueprintable.py:128-137`. -/
def seen : Doc F → Codec.Root
  | .arr (d :: l) => .array ("" :: match root (.arr (d :: l)) with
    | .array s => s
    | _ => [])
  | d => root d

/-- The keyword arguments from the value under the root key, `/repo/draftsman/classes/blueprintable.py:139-144`.  An entry named like one of the arguments
that are passed besides is a `TypeError`, as is a value that is no dictionary. -/
def passed (index : Option (Doc F)) : Option (Doc F) → Except PyErr (Fields F × Option (Doc F))
  | some (.obj b) => if (get "self" b).isSome || (get "index" b).isSome || (get "validate" b).isSome then .error .typeError else .ok (b, index)
  | _ => .error .typeError

/-- `root[self._root_item]` and `root.get("index", None)`, `/repo/draftsman/classes/blueprintable.py:139-144`. -/
def fetch (kind : String) : Doc F → Except PyErr (Fields F × Option (Doc F))
  | .obj l => passed (get "index" l) (get kind l)
  | _ => .error .typeError

/-- `Blueprintable.load_from_string` up to the call of `setup` (`/repo/draftsman/classes/blueprintable.py:124-144`): the entries that are passed as keyword
arguments, and `index`. -/
def arguments (kind : String) (d : Doc F) : Except PyErr (Fields F × Option (Doc F)) := do
  if ← (root d).has kind then fetch kind d else .error (mismatch (seen d))

/-- An argument that may be missing, `/repo/draftsman/classes/blueprint.py:494-514`. -/
def readKey {α : Type} (f : Doc F → Except PyErr α) : Option (Doc F) → Except PyErr (Option α)
  | none => .ok none
  | some d => do
    let x ← f d
    .ok (some x)

/-- A position as it is set, `/repo/draftsman/classes/vector.py:85-134` for dictionaries.  (Pairs, which are also accepted, are not exported and left out here.) -/
def readVec (r : Reading F) : Doc F → Except PyErr Vec
  | .obj l => match get "x" l, get "y" l with
    | some x, some y => do
      let x ← r.num x
      let y ← r.num y
      .ok ⟨x, y⟩
    | _, _ => .error .keyError
  | _ => .error .typeError

/-- An integer that is no reference to an object, `/repo/draftsman/classes/blueprint.py:618-631`.  Simplified: negative ones, which are never exported, are
an error here. -/
def readNat : Doc F → Except PyErr Nat
  | .int n => if 0 ≤ n then .ok n.toNat else .error .indexError
  | _ => .error .typeError

/-- A number that is ignored when reading, `/repo/draftsman/classes/blueprint.py:568-575` (entities are numbered anew by the order they come in). -/
def readNumber (d : Option (Doc F)) : Nat :=
  match d with
  | some (.int n) => n.toNat
  | _ => 0

/-- An entity as it is made from its dictionary, `/repo/draftsman/classes/entity_list.py:96-113`.  Simplified: a dictionary without position, which is never exported, is
an error here. -/
def readEntity (r : Reading F) : Doc F → Except PyErr (Nat × Fields F × Vec)
  | .obj l => do
    let v ← readKey (readVec r) (get "position" l)
    let v ← v.elim (.error .keyError) .ok
    .ok (readNumber (get "entity_number" l), l.filter fun x => x.1 ≠ "position".toList ∧ x.1 ≠ "entity_number".toList, v)
  | _ => .error .typeError

/-- A tile, `/repo/draftsman/classes/tile_list.py:39-53`. -/
def readTile (r : Reading F) : Doc F → Except PyErr (Nat × Vec)
  | .obj l => match get "name" l, get "position" l with
    | some n, some p => do
      let n ← r.tile n
      let v ← readVec r p
      .ok (n, v)
    | _, _ => .error .keyError
  | _ => .error .typeError

/-- A list, `/repo/draftsman/classes/blueprint.py:568-590`. -/
def readList {α : Type} (f : Doc F → Except PyErr α) : Doc F → Except PyErr (List α)
  | .arr l => l.mapM f
  | _ => .error .typeError

/-- A schedule, `/repo/draftsman/classes/schedule_list.py:26-40`. -/
def readSched (r : Reading F) : Doc F → Except PyErr Sched
  | .obj l => do
    let n ← readKey (readList readNat) (get "locomotives" l)
    let s ← r.sched (get "schedule" l)
    .ok ⟨n.getD [], s⟩
  | _ => .error .typeError

/-- A wire, `/repo/draftsman/classes/blueprint.py:625-631`. -/
def readWire : Doc F → Except PyErr Wire
  | .arr [a, b, c, d] => do
    let a ← readNat a
    let b ← readNat b
    let c ← readNat c
    let d ← readNat d
    .ok ⟨a, b, c, d⟩
  | _ => .error .typeError

/-- The keys that `setup` knows, `/repo/draftsman/classes/blueprint.py:494-514, 519, 532-549`. -/
def known : List String :=
  ["item", "label", "label_color", "description", "icons", "version", "snap-to-grid", "absolute-snapping", "position-relative-to-grid", "stock_connections",
    "entities", "tiles", "schedules", "wires"]

/-- Setting one attribute, `/repo/draftsman/classes/blueprint.py:494-544, 578`: what is missing gets its default, and defaults are not exported, except for the
version. -/
def readAttr (r : Reading F) (name : String) : Option (Doc F) → Except PyErr (Option (Doc F))
  | some d => r.attr name d
  | none => .ok (if name = "version" then some r.version else none)

/-- What `setup` makes of its arguments, `/repo/draftsman/classes/blueprint.py:493-635`. -/
structure Read (F : Type) where
  attrs : String → Option (Doc F)
  extra : Fields F
  dict : Dictionary (Fields F)

/-- `setup`, `/repo/draftsman/classes/blueprint.py:493-635`: unknown entries become attributes of the root, 582-584.  Simplified: which error comes of malformed
entries, among them one named `blueprint`, which would take the place of everything else. -/
def readBody (r : Reading F) (b : Fields F) : Except PyErr (Read F) := do
  let _ ← attrNames.mapM fun n => readAttr r n (get n b)
  let snap ← readKey (readVec r) (get "snap-to-grid" b)
  let rel ← readKey (readVec r) (get "position-relative-to-grid" b)
  let entities ← readKey (readList (readEntity r)) (get "entities" b)
  let tiles ← readKey (readList (readTile r)) (get "tiles" b)
  let schedules ← readKey (readList (readSched r)) (get "schedules" b)
  let wires ← readKey (readList readWire) (get "wires" b)
  if (get "blueprint" b).isSome then .error .typeError
  else .ok ⟨fun n => (readAttr r n (get n b)).toOption.getD none, b.filter fun x => x.1 ∉ known.map String.toList, ⟨entities, tiles, schedules, wires, snap, rel⟩⟩

/-! ### Strings -/

/-- A blueprint: its contents, how its attributes are exported (`none` if not), its index in a book, and unknown keys.
`/repo/draftsman/classes/blueprint.py:302-397, 582-584`. -/
structure Whole (F : Type) where
  full : Full (Fields F)
  attrs : String → Option (Doc F)
  index : Option Nat
  extra : Fields F

/-- `Blueprint.to_string`, `/repo/draftsman/classes/blueprintable.py:568`. -/
def toString (k : Codec.Codecs (Doc F) (List (Fin 256))) (w : Writing F) (b : Whole F) : Except PyErr (List Char) := do
  let d ← b.full.toDict
  .ok (Codec.jsonToString k (toDoc w b.attrs b.index b.extra d))

/-- `self.setup(**root[self._root_item], index=…)`, `/repo/draftsman/classes/blueprintable.py:92-97, 140-144`, of a blueprint that was just made (see C80 for
others). -/
def loadWhole (r : Reading F) (key : Fields F → Vec → Nat) (start : Nat) (a : Fields F × Option (Doc F)) : Except PyErr (Whole F) := do
  let i ← readKey readNat (a.2.filter fun x => !isNull x)
  let x ← readBody r a.1
  let b ← load key start x.dict
  .ok ⟨b, x.attrs, i, x.extra⟩

/-- `Blueprint.load_from_string`, `/repo/draftsman/classes/blueprintable.py:106-144`. -/
def loadFromString (k : Codec.Codecs (Doc F) (List (Fin 256))) (r : Reading F) (key : Fields F → Vec → Nat) (start : Nat) (s : List Char) :
    Except PyErr (Whole F) := do
  let d ← Codec.stringToJson k s
  let a ← arguments "blueprint" d
  loadWhole r key start a

end BpString
end Draftsman
