import Verif.Model.Export
/-
Copying groups and blueprints (`copy.deepcopy`): `/repo/draftsman/classes/group.py:582-632`, `/repo/draftsman/classes/blueprint.py:1159-1206`,
`/repo/draftsman/classes/entity_list.py:662-735`, `/repo/draftsman/classes/entity_like.py:201-227`, `/repo/draftsman/classes/association.py:62-67`.

The check for repeated ids and the spatial map of the new lists are left out, and so are tiles and everything else that is copied by value.
-/
namespace Draftsman
namespace Copy

/-- The objects in memory, and the `memo` of a running `copy.deepcopy`.  Objects have the numbers below `next`; `el` gives what `==` compares, `ws` and
`scheds` the wires and schedules of a group or blueprint.  The attributes copied by `/repo/draftsman/classes/group.py:605-616`. -/
structure Mem where
  heap : GHeap
  next : Nat
  el : Nat → EL
  ws : Nat → List Wire
  scheds : Nat → List Sched
  memo : Dict Nat Nat

namespace Mem

/-- A new object with the values of `u`, without parent and contents, recorded in the memo: `/repo/draftsman/classes/entity_like.py:219-226` (an entity),
`/repo/draftsman/classes/group.py:590-616` (a group, before its list is copied). -/
def fresh (m : Mem) (u : Nat) : Mem where
  heap := fun v => if v = m.next then { m.heap u with parent := none, children := [] } else m.heap v
  next := m.next + 1
  el := fun v => if v = m.next then { m.el u with uid := m.next } else m.el v
  ws := fun v => if v = m.next then [] else m.ws v
  scheds := fun v => if v = m.next then [] else m.scheds v
  memo := m.memo.set u m.next

/-- `new.append(entity_copy, copy=False)`, `/repo/draftsman/classes/entity_list.py:690`. -/
def attach (m : Mem) (n v : Nat) : Mem := { m with heap := m.heap.attach n v }

/-- `Association(memo[id(old())])`, `/repo/draftsman/classes/group.py:621` and 628-629.  A dead association gives `None`, which is never in the memo. -/
def redirect (m : Mem) (alive : Nat → Bool) (u : Nat) : Except PyErr Nat :=
  if alive u then
    match m.memo.get? u with
    | some v => .ok v
    | none => .error .keyError
  else .error .keyError

/-- `/repo/draftsman/classes/group.py:625-629`. -/
def redirectWire (m : Mem) (alive : Nat → Bool) (w : Wire) : Except PyErr Wire := do
  let a ← m.redirect alive w.e1
  let b ← m.redirect alive w.e2
  pure ⟨a, w.t1, b, w.t2⟩

/-- `/repo/draftsman/classes/group.py:618-621`. -/
def redirectSched (m : Mem) (alive : Nat → Bool) (s : Sched) : Except PyErr Sched := do
  let ls ← s.locos.mapM (m.redirect alive)
  pure ⟨ls, s.rest⟩

/-- The wires and schedules of object `n`: an assignment to its lists.  `/repo/draftsman/classes/group.py:621, 628-629`. -/
def setLists (m : Mem) (n : Nat) (ws : List Wire) (ss : List Sched) : Mem :=
  { m with ws := fun v => if v = n then ws else m.ws v, scheds := fun v => if v = n then ss else m.scheds v }

end Mem

/-- The loop of `EntityList.__deepcopy__`, `/repo/draftsman/classes/entity_list.py:688-691`, filling the list of the object `n`; `rec` is
`deepcopy(entity, memo)`.  The attributes `connections` and `neighbours` (707-733) no longer exist. -/
def copyAll (rec : Mem → Nat → Mem × Except PyErr Nat) (n : Nat) : Mem → List Nat → Mem × Option PyErr
  | m, [] => (m, none)
  | m, c :: cs =>
    match rec m c with
    | (m', .error e) => (m', some e)
    | (m', .ok v) => copyAll rec n (m'.attach n v) cs

/-- `copy.deepcopy` of an entity (`/repo/draftsman/classes/entity_like.py:201-227`, `/repo/draftsman/classes/entity.py:781-794`) or a group
(`/repo/draftsman/classes/group.py:582-632`); the first argument bounds the depth of the recursion. -/
def copyObj (alive : Nat → Bool) : Nat → Mem → Nat → Mem × Except PyErr Nat
  | 0, m, _ => (m, .error .recursionError)
  | k + 1, m, u =>
    match m.memo.get? u with
    | some v => (m, .ok v)
    | none =>
      if (m.heap u).kind = .entity then (m.fresh u, .ok m.next)
      else
        match copyAll (copyObj alive k) m.next (m.fresh u) (m.heap u).children with
        | (m', some e) => (m', .error e)
        | (m', none) =>
          match (m'.scheds u).mapM (m'.redirectSched alive), (m'.ws u).mapM (m'.redirectWire alive) with
          | .ok ss, .ok ws => (m'.setLists m.next ws ss, .ok m.next)
          | .error e, _ => (m', .error e)
          | .ok _, .error e => (m', .error e)

/-- `copy.deepcopy(group)` with an empty memo: `/repo/draftsman/classes/group.py:582-632`. -/
def copyGroup (alive : Nat → Bool) (k : Nat) (m : Mem) (u : Nat) : Mem × Except PyErr Nat := copyObj alive k { m with memo := [] } u

/-- `Blueprint.__deepcopy__`, `/repo/draftsman/classes/blueprint.py:1159-1206`: everything under `_root` is copied, and the associations in the lists of
wires and schedules are their own copies (`/repo/draftsman/classes/association.py:62-67`). -/
def copyBlueprint (alive : Nat → Bool) (k : Nat) (m : Mem) (u : Nat) : Mem × Except PyErr Nat :=
  let m := { m with memo := [] }
  match copyAll (copyObj alive k) m.next (m.fresh u) (m.heap u).children with
  | (m', some e) => (m', .error e)
  | (m', none) => (m'.setLists m.next (m'.ws u) (m'.scheds u), .ok m.next)

/-- The copy as the exporter sees it; `next` is the first unused number.  `/repo/draftsman/classes/blueprint.py:1159-1206`. -/
def copyBp (b : Bp) (next : Nat) : Except PyErr Bp :=
  match copyBlueprint b.alive b.depth ⟨b.heap, next, b.el, b.ws, b.scheds, []⟩ b.root with
  | (_, .error e) => .error e
  | (m, .ok n) =>
    .ok { b with heap := m.heap, root := n, el := m.el, ws := m.ws, scheds := m.scheds, alive := fun v => if v < next then b.alive v else true }

/-- The names in the `__dict__` of a blueprint that has been constructed: `/repo/draftsman/classes/exportable.py:199-210`,
`/repo/draftsman/classes/blueprintable.py:69-81`. -/
def builtAttrs : List String := ["_root", "_is_valid", "_validate_assignment", "_unknown", "_root_item", "_root_format"]

/-- The names in the `__dict__` of a copy: `/repo/draftsman/classes/blueprint.py:1203-1204`. -/
def copiedAttrs : List String := ["_root", "_root_item"]

/-- Assigning `label` (and likewise the other settings) reads three attributes before anything else:
`/repo/draftsman/classes/blueprintable.py:225-234`, `/repo/draftsman/classes/exportable.py:261`. -/
def assignLabel (attrs : List String) : Except PyErr Unit :=
  if ["_root_format", "_root", "_root_item", "_validate_assignment"].all (fun a => decide (a ∈ attrs)) then .ok () else .error .attributeError

end Copy
end Draftsman
