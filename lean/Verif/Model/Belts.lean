import Verif.Model.Py
import Verif.Model.Dict
import Verif.Model.Direction
/-
Reversing belts: `/repo/draftsman/extras.py:12-116`.

Entities are identified by their place in the list (the code compares them with `==`, which is the same as long as no two stand at the same place).  What an entity covers is a list of
whole cells; the search for what stands at a point or in an area is by cells.  Belts look along one of four directions.
-/
namespace Draftsman
namespace Belts

/-- The `type` of an entity as `reverse_belts` tells them apart: `/repo/draftsman/extras.py:27-30` and `:39, 53, 69`. -/
inductive Kind | belt | underground | splitter | other
  deriving DecidableEq, Repr

/-- `entity.io_type`: `/repo/draftsman/extras.py:55` and `:110-113`. -/
inductive Io | input | output
  deriving DecidableEq, Repr

/-- An entity: `hasDir` is whether it has an attribute `direction` at all; `cells` are the cells it covers, relative to the collection it is in.  What is read and written by `/repo/draftsman/extras.py:28-116`. -/
structure Ent where
  kind : Kind
  name : String
  dir : Direction
  hasDir : Bool
  io : Option Io
  cells : List (Int × Int)
  deriving DecidableEq, Repr

/-- `Direction.to_vector` for the four main directions, `/repo/draftsman/constants.py:149-170`. -/
def vec (d : Direction) : Int × Int :=
  match d.val with
  | 0 => (0, -1)
  | 4 => (1, 0)
  | 8 => (0, 1)
  | 12 => (-1, 0)
  | _ => (0, 0)

/-- `Vector.__add__`: `/repo/draftsman/classes/vector.py:138-142`. -/
def add (a b : Int × Int) : Int × Int := (a.1 + b.1, a.2 + b.2)

/-- `entity.type in belt_types`: `/repo/draftsman/extras.py`, lines 27 and 30. -/
def Ent.isBelt (e : Ent) : Bool := e.kind != .other

/-- Whether an entity covers a cell of the world; `off` is the place of the collection in the world: `(0, 0)` for a blueprint, its position for a group.  The world box that `/repo/draftsman/classes/spatial_hashmap.py:202-232` tests, as cells. -/
def covers (off : Int × Int) (e : Ent) (c : Int × Int) : Bool := e.cells.any fun d => add d off = c

/-- `blueprint.find_entity_at_position(…)`: `/repo/draftsman/classes/collection.py:163-179`, the entity that was placed first. -/
def findAt (off : Int × Int) (es : List Ent) (c : Int × Int) : Option Nat := es.findIdx? fun e => covers off e c

/-- `entity.position + entity.direction.to_vector()`: `/repo/draftsman/extras.py`, lines 41-43 and 57-59.  The position is the one in the collection, not the one in the world. -/
def front (e : Ent) : Int × Int := add (e.cells.headD (0, 0)) (vec e.dir)

/-- The entities that one entity is found to point at: `/repo/draftsman/extras.py`, lines 39-85.  After an underground exit everything counts, otherwise only belts. -/
def targets (off : Int × Int) (es : List Ent) (e : Ent) : List Nat :=
  match e.kind with
  | .belt =>
    match findAt off es (front e) with
    | some j => if (es[j]?.map Ent.isBelt).getD false then [j] else []
    | none => []
  | .underground =>
    if e.io = some .output then
      match findAt off es (front e) with
      | some j => [j]
      | none => []
    else []
  | .splitter =>
    (List.range es.length).filter fun j =>
      (es[j]?.map fun f => f.isBelt && e.cells.any fun c => covers off f (add (add c off) (vec e.dir))).getD false
  | .other => []

/-- The direction map: for a place in the list the direction and the places of what points at it.  `direction_map`: `/repo/draftsman/extras.py:22-37`. -/
abbrev DirMap := Dict Nat (Direction × List Nat)

/-- `/repo/draftsman/extras.py`, lines 46-52, 62-68 and 79-85: `pointed.direction` is only read if the entity is not in the map yet. -/
def record (es : List Ent) (i : Nat) (m : DirMap) (j : Nat) : Except PyErr DirMap :=
  match m.get? j with
  | some (d, ps) => .ok (m.set j (d, ps ++ [i]))
  | none =>
    match es[j]? with
    | some f => if f.hasDir then .ok (m.set j (f.dir, [i])) else .error .attributeError
    | none => .error .valueError

/-- The loop over what is pointed at: `/repo/draftsman/extras.py:77-85`; for belts and undergrounds there is at most one. -/
def recordAll (es : List Ent) (i : Nat) : DirMap → List Nat → Except PyErr DirMap
  | m, [] => .ok m
  | m, j :: js =>
    match record es i m j with
    | .error e => .error e
    | .ok m => recordAll es i m js

/-- The body of the first loop: `/repo/draftsman/extras.py`, lines 28-85. -/
def visit (off : Int × Int) (es : List Ent) (m : DirMap) (i : Nat) (e : Ent) : Except PyErr DirMap :=
  if e.isBelt then
    let m := match m.get? i with
      | some _ => m
      | none => m.set i (e.dir, [])
    recordAll es i m (targets off es e)
  else .ok m

/-- The first loop.  `/repo/draftsman/extras.py:28-85`. -/
def pass1 (off : Int × Int) (es : List Ent) : DirMap → Nat → List Ent → Except PyErr DirMap
  | m, _, [] => .ok m
  | m, i, e :: r =>
    match visit off es m i e with
    | .error x => .error x
    | .ok m => pass1 off es m (i + 1) r

/-- `entity.io_type` swapped: `/repo/draftsman/extras.py`, lines 110-113. -/
def swapIo : Option Io → Option Io
  | some .input => some .output
  | some .output => some .input
  | none => none

/-- The body of the second loop: `/repo/draftsman/extras.py`, lines 89-116. -/
def turn (m : DirMap) (i : Nat) (e : Ent) : Ent :=
  match e.kind with
  | .belt =>
    let ps := ((m.get? i).map (·.2)).getD []
    match ps.head?.bind fun k => m.get? k with
    | some (d, _) =>
      if ps.length = 1 ∧ e.dir ≠ d then { e with dir := d.opposite } else { e with dir := e.dir.opposite }
    | none => { e with dir := e.dir.opposite }
  | .underground => { e with dir := e.dir.opposite, io := swapIo e.io }
  | .splitter => { e with dir := e.dir.opposite }
  | .other => e

/-- `reverse_belts`: `/repo/draftsman/extras.py`, lines 12-116. -/
def reverse (off : Int × Int) (es : List Ent) : Except PyErr (List Ent) :=
  match pass1 off es [] 0 es with
  | .error x => .error x
  | .ok m => .ok (es.mapIdx fun i e => turn m i e)

end Belts
end Draftsman
