import Verif.Model.Geometry
import Verif.Model.Wires
/-
Inserting with `merge=True`: `SpatialHashMap.recursive_add`, `Entity.merge` and what becomes of the wires.
-/
namespace Draftsman
namespace Merge

/-- What merging reads and writes of an entity: its class and name, its global position before it is given its new parent, its id, its
tags, and its world bounding box.  `/repo/draftsman/classes/entity.py:742-753`.  Attributes that particular classes merge are left
out. -/
structure MEnt where
  kind : Nat
  pos : Vec
  id : Option Nat
  tags : Nat
  box : Option AABB
  deriving DecidableEq, Repr

/-- An `EntityLike`: an entity object, or a group object with its members.  `/repo/draftsman/classes/spatial_hashmap.py:61-80`. -/
inductive Node where
  | ent (u : Nat)
  | grp (g : Nat) (kids : List Node)

/-- The objects: entities, the wires of groups and blueprints, the members of the spatial map that is added to, and `base`, the global
position of the collection that owns the map (zero for a blueprint).  `map` are the members from before; they have this collection as
their parent, so that `base` is part of their global position.  `fresh` are those that came in with the item being added, which has no
parent yet (`/repo/draftsman/classes/entity_list.py:314-327`). -/
structure St where
  ent : Nat → MEnt
  wires : Nat → List Wire
  map : List Nat
  fresh : List Nat
  base : Vec

/-- `Entity.mergable_with`, `/repo/draftsman/classes/entity.py:742-748`, for a member of the map and an entity being added. -/
def mergable (base : Vec) (v u : MEnt) : Bool :=
  decide (v.kind = u.kind) && decide (v.pos + base = u.pos) && decide (v.id = u.id)

/-- The test of `get_in_aabb`, `/repo/draftsman/classes/spatial_hashmap.py:216-232`, for a member of the map and the region of an entity
being added; without a region there are no cells to look in (256-257). -/
def touches (base : Vec) (v u : MEnt) : Bool :=
  match v.box, u.box with
  | some b, some q => aabbOverlapsAabb { b with position := b.position + base } q
  | _, _ => false

/-- The member that the entity is merged into: the first in `overlapping_items` that is mergable,
`/repo/draftsman/classes/spatial_hashmap.py:43-49`.  The members found are taken to come in the order in which they were added. -/
def target (s : St) (u : Nat) : Option Nat :=
  match s.map.find? fun v => touches s.base (s.ent v) (s.ent u) && mergable s.base (s.ent v) (s.ent u) with
  | some v => some v
  | none => s.fresh.find? fun v => touches 0 (s.ent v) (s.ent u) && mergable 0 (s.ent v) (s.ent u)

/-- One wire of the parent of `other`, `/repo/draftsman/classes/mixins/circuit_connectable.py:189-193`. -/
def redirect (other self : Nat) (w : Wire) : Wire :=
  { w with e1 := if w.e1 = other then self else w.e1, e2 := if w.e2 = other then self else w.e2 }

/-- `overlapping_item.merge(item)`: `Entity.merge`, `/repo/draftsman/classes/entity.py:750-753`, then
`/repo/draftsman/classes/mixins/circuit_connectable.py:188-193` for the wires of the parent of the entity added (`p`), if it has one.
The entity is taken to be of a class that can have wires. -/
def mergeInto (s : St) (p : Option Nat) (v u : Nat) : St :=
  { s with
    ent := fun x => if x = v then { s.ent v with tags := (s.ent u).tags } else s.ent x
    wires := fun c => if p = some c then (s.wires c).map (redirect u v) else s.wires c }

/-- `SpatialHashMap.add` with `merge=True`, `/repo/draftsman/classes/spatial_hashmap.py:39-59`; `true` if it returned `None`. -/
def addLeaf (s : St) (p : Option Nat) (u : Nat) : St × Bool :=
  match target s u with
  | some v => (mergeInto s p v u, true)
  | none => ({ s with fresh := s.fresh ++ [u] }, false)

/-- `a is b or a == b`: `Entity.__eq__`, `/repo/draftsman/classes/entity.py:755-762`; groups have no `__eq__`.  The two are members of
one group, so that the position of the group does not matter. -/
def same (s : St) : Node → Node → Bool
  | .ent a, .ent b => decide (a = b) ||
    (decide ((s.ent a).kind = (s.ent b).kind) && decide ((s.ent a).pos = (s.ent b).pos) && decide ((s.ent a).id = (s.ent b).id) &&
      decide ((s.ent a).tags = (s.ent b).tags))
  | .grp g _, .grp h _ => decide (g = h)
  | _, _ => false

/-- `item.entities.remove(entity)`, `/repo/draftsman/classes/spatial_hashmap.py:73-74`: `MutableSequence.remove` (Python built-in)
removes the first equal member. -/
def removeEq (s : St) (l : List Node) (x : Node) : List Node := l.eraseP fun y => same s y x

mutual
/-- `recursive_add` with `merge=True`, `/repo/draftsman/classes/spatial_hashmap.py:61-80`; `p` is the parent of the item.  The result
is `none` when the item was merged, otherwise the item as it is left. -/
def addNode (s : St) (p : Option Nat) : Node → St × Option Node
  | .ent u =>
    let r := addLeaf s p u
    (r.1, if r.2 then none else some (.ent u))
  | .grp g kids =>
    let r := addKids s g kids
    (r.1, some (.grp g (r.2.2.foldl (removeEq r.1) r.2.1)))
/-- The loop over the members of a group, `/repo/draftsman/classes/spatial_hashmap.py:66-70`: the members as they are left, and those
that were merged. -/
def addKids (s : St) (g : Nat) : List Node → St × List Node × List Node
  | [] => (s, [], [])
  | k :: ks =>
    let r := addNode s (some g) k
    let rs := addKids r.1 g ks
    match r.2 with
    | none => (rs.1, k :: rs.2.1, k :: rs.2.2)
    | some k' => (rs.1, k' :: rs.2.1, rs.2.2)
end

/-- The id that an `EntityLike` is entered under; that of a group is not modelled.  `/repo/draftsman/classes/entity_list.py:378-379`. -/
def topId (s : St) : Node → Option Nat
  | .ent u => (s.ent u).id
  | .grp _ _ => none

/-- The map once the item has its parent.  `/repo/draftsman/classes/entity_list.py:327`. -/
def settle (s : St) : St := { s with map := s.map ++ s.fresh, fresh := [] }

/-- `EntityList.insert` of a copy with `merge=True`, `/repo/draftsman/classes/entity_list.py:297-329`, at the end of the list `l`; `used`
holds the ids entered so far. -/
def insert (s : St) (used : List Nat) (l : List Node) (x : Node) : St × List Node × Option PyErr :=
  match topId s x with
  | some i => if i ∈ used then (s, l, some .duplicateId) else
    let r := addNode s none x
    (settle r.1, l ++ r.2.toList, none)
  | none =>
    let r := addNode s none x
    (settle r.1, l ++ r.2.toList, none)

end Merge
end Draftsman
