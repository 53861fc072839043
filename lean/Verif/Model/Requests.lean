import Verif.Model.Py
import Mathlib.Algebra.Order.Ring.Int
/-
Item requests: `/repo/draftsman/classes/mixins/request_items.py:74-223`, on an entity whose assignments are checked.  The warnings about unsuitable items
are left out.
-/
namespace Draftsman
namespace Requests

/-- `ItemSpecification.InventoryLocation`: `/repo/draftsman/signatures.py:1309-1319`.  `stack` is `None` only between being built and being checked. -/
structure Loc where
  inventory : Int
  stack : Option Int
  count : Option Int
  deriving DecidableEq, Repr

/-- `ItemRequest`: `/repo/draftsman/signatures.py:1321-1337`; `in_inventory` may be `None`.  `grid_count` is left out: it is copied along. -/
structure Entry where
  name : String
  quality : Option String
  locs : Option (List Loc)
  deriving DecidableEq, Repr

/-- What `items` may hold: the list, or the empty dictionary that some classes start with (line 79 stores whatever the constructor was given, and
`/repo/draftsman/prototypes/car.py:50` and others give `{}`). -/
inductive Items where
  | list (l : List Entry)
  | dict
  deriving DecidableEq, Repr

/-- `uint32`: `/repo/draftsman/signatures.py:70`. -/
def uint32 (n : Int) : Bool := decide (0 ≤ n) && decide (n < 2 ^ 32)

/-- `SignalID.quality`: `/repo/draftsman/signatures.py:367-371`. -/
def qualities : List String := ["normal", "uncommon", "rare", "epic", "legendary", "quality-unknown", "any"]

/-- The checks pydantic makes of a location.  `/repo/draftsman/signatures.py:1309-1319`. -/
def Loc.valid (l : Loc) : Bool := uint32 l.inventory && l.stack.any uint32 && l.count.all uint32

/-- The checks pydantic makes of a request.  `/repo/draftsman/signatures.py:1321-1337`. -/
def Entry.valid (e : Entry) : Bool := e.quality.all (fun q => decide (q ∈ qualities)) && (e.locs.getD []).all Loc.valid

/-- Change the first element that satisfies `p` in place: `next(filter(p, l), None)` followed by a mutation of what it returned; `none` when there is
no such element.  Python built-ins; used at `/repo/draftsman/classes/mixins/request_items.py:166-211`. -/
def updateFirst {α : Type} (p : α → Bool) (f : α → α) : List α → Option (List α)
  | [] => none
  | a :: l => if p a then some (f a :: l) else (updateFirst p f l).map (a :: ·)

/-- The arguments of `set_item_request`: `/repo/draftsman/classes/mixins/request_items.py`, lines 123-132. -/
structure Req where
  item : String
  count : Option Int
  quality : String := "normal"
  inventory : Int := 0
  slot : Option Int := none
  deriving DecidableEq, Repr

/-- The search and change at `/repo/draftsman/classes/mixins/request_items.py`, lines 197-211, on one request's locations: what is looked for is the inventory as given, what is stored is one more. -/
def place (r : Req) (count : Int) (ls : List Loc) : List Loc :=
  match updateFirst (fun l => decide (l.inventory = r.inventory ∧ l.stack = r.slot)) (fun l => { l with count := some count }) ls with
  | some ls' => ls'
  | none => ls ++ [⟨r.inventory + 1, r.slot, some count⟩]

/-- Whether a stored request is for that item and quality: `/repo/draftsman/classes/mixins/request_items.py`, lines 168-170 (`get` on a stored model gives what is stored). -/
def Entry.isFor (r : Req) (e : Entry) : Bool := decide (e.name = r.item) && decide (e.quality = some r.quality)

/-- The new list before it is checked: `/repo/draftsman/classes/mixins/request_items.py`, lines 156-211. -/
def build (r : Req) : Items → Except PyErr (List Entry)
  | .dict => if r.count.getD 0 = 0 then .ok [] else .error .attributeError
  | .list l =>
    if r.count.getD 0 = 0 then .ok (l.filter (fun e => decide (e.name ≠ r.item)))
    else match l.find? (Entry.isFor r) with
      | none =>
        let slot := match r.slot with
          | none => some (l.length : Int)
          | some s => some s
        .ok (l ++ [⟨r.item, some r.quality, some [⟨r.inventory + 1, slot, some (r.count.getD 0)⟩]⟩])
      | some e =>
        match e.locs with
        | none => .error .typeError
        | some _ =>
          .ok ((updateFirst (Entry.isFor r) (fun e => { e with locs := e.locs.map (place r (r.count.getD 0)) }) l).getD l)

/-- `set_item_request`: `/repo/draftsman/classes/mixins/request_items.py`, lines 123-223.  The list is stored if every request in it passes, otherwise the old one is put back. -/
def request (r : Req) (s : Items) : Items × Option PyErr :=
  match build r s with
  | .error e => (s, some e)
  | .ok l => if l.all Entry.valid then (.list l, none) else (s, some .dataFormat)

end Requests
end Draftsman
