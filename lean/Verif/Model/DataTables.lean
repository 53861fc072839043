import Verif.Model.Dict
import Verif.Model.Py
/-
Adding items, item groups, fluids and entities to the data tables of a session.
-/
namespace Draftsman
namespace DataTables

/-- An item's dictionary; `more` is everything else in it (`none` where there is nothing else).  Also what `**existing_data` puts into the dictionary of a
group or subgroup.  `/repo/draftsman/data/items.py:96-104`. -/
structure Item where
  name : Nat
  stack : Nat
  order : Nat
  subgroup : Nat
  more : Option Nat
  deriving DecidableEq, Repr

/-- The dictionary of a group or subgroup: `ref` names the list object held under `"subgroups"` or `"items"`.
`/repo/draftsman/data/items.py:30-37` and 51-58.  The copied keys of an item of the same name are left out, except for `order`. -/
structure Node where
  name : Nat
  order : Nat
  ref : Nat
  deriving DecidableEq, Repr

/-- The tables of `/repo/draftsman/data/items.py:10-18`, with the list objects: `items i` for lists of items, `subs i` for lists of
subgroups.  In both, list 0 is the default argument of the function (`items=[]` at line 43, `subgroups=[]` at 21), made once when the
function is defined.  `next` is the next unused list. -/
structure Tables where
  raw : Dict Nat Item
  subgroups : Dict Nat Node
  groups : Dict Nat Node
  items : Nat → List Item
  subs : Nat → List Node
  next : Nat

/-- Replaces one list.  `list.append` (Python built-in) at `/repo/draftsman/data/items.py:67` and 114. -/
def upd {α : Type} (f : Nat → List α) (i : Nat) (l : List α) : Nat → List α := fun j => if j = i then l else f j

/-- `add_group`, `/repo/draftsman/data/items.py:21-40`.  `arg` is the list given (a new object), if one is given.  The existing data
is looked up among the *items*.  Further keywords are left out. -/
def addGroup (t : Tables) (name order : Nat) (arg : Option (List Node)) : Tables :=
  let order := match t.raw.get? name with
    | some e => e.order
    | none => order
  match arg with
  | none => { t with groups := t.groups.set name ⟨name, order, 0⟩ }
  | some l => { t with groups := t.groups.set name ⟨name, order, t.next⟩, subs := upd t.subs t.next l, next := t.next + 1 }

/-- `add_subgroup`, `/repo/draftsman/data/items.py:43-67`.  The dictionary of an item holds no `"items"`, so that `existing_data` gives
only the order.  Further keywords are left out. -/
def addSubgroup (t : Tables) (name group : Nat) (arg : Option (List Item)) (order : Nat) : Tables × Option PyErr :=
  let order := match t.raw.get? name with
    | some e => e.order
    | none => order
  match t.groups.get? group with
  | none => (t, some .typeError)
  | some g =>
    let t' := match arg with
      | none => t
      | some l => { t with items := upd t.items t.next l, next := t.next + 1 }
    let n : Node := ⟨name, order, match arg with | none => 0 | some _ => t.next⟩
    ({ t' with subgroups := t'.subgroups.set name n, subs := upd t'.subs g.ref (t'.subs g.ref ++ [n]) }, none)

/-- The item that `add_item` makes, `/repo/draftsman/data/items.py:91-104`; `more` stands for the further keywords. -/
def newItem (t : Tables) (name stack order subgroup : Nat) (more : Option Nat) : Item :=
  match t.raw.get? name with
  | some e => ⟨name, stack, e.order, e.subgroup, match more with | some m => some m | none => e.more⟩
  | none => ⟨name, stack, order, subgroup, more⟩

/-- `add_item`, `/repo/draftsman/data/items.py:70-114`. -/
def addItem (t : Tables) (name stack order subgroup : Nat) (more : Option Nat) : Tables × Option PyErr :=
  let i := newItem t name stack order subgroup more
  match t.subgroups.get? i.subgroup with
  | none => (t, some .typeError)
  | some s => ({ t with raw := t.raw.set name i, items := upd t.items s.ref (t.items s.ref ++ [i]) }, none)

/-- `get_stack_size`, `/repo/draftsman/data/items.py:119-128`. -/
def stackSize (t : Tables) (name : Nat) : Option Nat := (t.raw.get? name).map (·.stack)

/-- A fluid's dictionary.  `/repo/draftsman/data/fluids.py:27-34`. -/
structure Fluid where
  order : Nat
  default : Int
  max : Option Int
  deriving DecidableEq, Repr

/-- `add_fluid`, `/repo/draftsman/data/fluids.py:15-34`: `order` 0 is the empty string, `default` and `max` are the keywords
`default_temperature` and `max_temperature` if given. -/
def addFluid (raw : Dict Nat Fluid) (name : Nat) (order : Option Nat) (default max : Option Int) : Dict Nat Fluid :=
  let existing := raw.get? name
  let d := match existing with
    | some e => e.default
    | none => default.getD 25
  raw.set name {
    order := order.getD 0
    default := default.getD d
    max := match max with
      | some m => some m
      | none => match existing with
        | some e => e.max
        | none => none }

/-- `get_temperature_range`, `/repo/draftsman/data/fluids.py:40-62`; `none` for `InvalidFluidError`. -/
def temperatureRange (raw : Dict Nat Fluid) (name : Nat) : Option (Int × Int) :=
  match raw.get? name with
  | none => none
  | some f => some (f.default, f.max.getD f.default)

/-- What `add_entity` stores of an entity: its type, collision box, mask, whether it is hidden.
`/repo/draftsman/data/entities.py:218-233`. -/
structure Ent where
  type : Nat
  box : Nat
  mask : List Nat
  hidden : Bool
  deriving DecidableEq, Repr

/-- The tables of `/repo/draftsman/data/entities.py`: `raw`, `of_type` and `collision_sets` (127-131). -/
structure EntTables where
  raw : Dict Nat Ent
  ofType : Dict Nat (List Nat)
  boxes : Dict Nat Nat
  deriving DecidableEq

/-- `add_entity`, `/repo/draftsman/data/entities.py:134-255`, with the default `target`; `defaultMask` is `get_default_collision_mask`
(`/repo/draftsman/utils.py`), which is not modelled. -/
def addEntity (defaultMask : Nat → List Nat) (t : EntTables) (name type box : Nat) (mask : Option (List Nat)) (hidden : Bool) : EntTables :=
  { raw := t.raw.set name ⟨type, box, mask.getD (defaultMask type), hidden⟩
    boxes := t.boxes.set name box
    ofType := match t.ofType.get? type with
      | some l => t.ofType.set type (l ++ [name])
      | none => t.ofType.set type [name] }

/-- The class that `new_entity` picks: the first of its tests `name in of_type[type]` that succeeds, where `order` lists the types in
the order of the tests.  `/repo/draftsman/entity.py:128-297`; `of_type` is taken to answer an empty list for a type it does not have. -/
def classOf (order : List Nat) (t : EntTables) (name : Nat) : Option Nat :=
  order.find? fun ty => ((t.ofType.get? ty).getD []).contains name

end DataTables
end Draftsman
