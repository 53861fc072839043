import Verif.Model.SpatialHash

/-
The spatial map of a blueprint and what happens to the groups in it.  Unlike `SpatialHash`, where a member is a snapshot, the
objects here have parents and positions that change, and a search tests the place where an object is at that time.

Simplifications: only the map of the blueprint is followed (a group has a map of its own, see `C34_group_refuted`); a cell lists
objects by identity (`list.remove` goes by equality, see `C16_equal_refuted`); `insert` copies what it is given, the default;
no merging.  Object 0 is the blueprint, whose position counts nothing.
-/
namespace Draftsman.NestMap

/-- An entity (with a collision box around its own origin) or a collection (without).  `listed` tells that the object is in the
list of its parent: an object that is taken out of the list keeps its parent, `/repo/draftsman/classes/entity_list.py:596-615`.
`/repo/draftsman/classes/entity_like.py:31-40`, `/repo/draftsman/classes/group.py:117-145`. -/
structure Obj where
  parent : Option Nat
  listed : Bool
  pos : Vec
  box : Option AABB
  deriving DecidableEq

/-- An identity that is not in use (Python object identity; no code). -/
def unused : Obj := { parent := none, listed := false, pos := 0, box := none }

/-- The objects of a program (identities below `next` are in use; a parent is always older than its members, since `insert`
copies) and the map of the blueprint, cell by cell, `/repo/draftsman/classes/spatial_hashmap.py:30-37`. -/
structure State where
  next : Nat
  obj : Nat → Obj
  map : List (Cell × Nat)

/-- `Blueprint()`: an empty list and an empty map, `/repo/draftsman/classes/entity_list.py:91-96`. -/
def empty : State :=
  { next := 1
    obj := fun i => if i = 0 then { unused with listed := true } else unused
    map := [] }

/-- `global_position`, `/repo/draftsman/classes/entity.py:537-555`, `/repo/draftsman/classes/group.py:360-372`, with at most
`fuel` parents. -/
def worldF (o : Nat → Obj) : Nat → Nat → Vec
  | 0, i => (o i).pos
  | f + 1, i => match (o i).parent with
    | none => (o i).pos
    | some p => worldF o f p + (o i).pos

/-- `global_position`: the identity bounds the number of parents.  `/repo/draftsman/classes/entity.py:537-555`. -/
def world (o : Nat → Obj) (i : Nat) : Vec := worldF o i i

/-- Whether the object is `g` or is listed in it, directly or through collections listed there: what the recursion over
`item.entities` meets, `/repo/draftsman/classes/spatial_hashmap.py:64-70, 93-98`; with at most `fuel` parents. -/
def belowF (o : Nat → Obj) (g : Nat) : Nat → Nat → Bool
  | 0, i => i == g
  | f + 1, i => i == g || match (o i).parent with
    | none => false
    | some p => (o i).listed && belowF o g f p

/-- See `belowF`.  `/repo/draftsman/classes/spatial_hashmap.py:64-70, 93-98`. -/
def below (o : Nat → Obj) (g i : Nat) : Bool := belowF o g i i

/-- `get_world_bounding_box`, `/repo/draftsman/classes/spatial_like.py:54-78`; a group has none since its collision set is empty,
`/repo/draftsman/classes/group.py:376-387`. -/
def worldBox (o : Nat → Obj) (i : Nat) : Option AABB :=
  (o i).box.map fun b =>
    { topLeft := b.topLeft + world o i, botRight := b.botRight + world o i }

/-- The cells of an object, `/repo/draftsman/classes/spatial_hashmap.py:52`, with the default size of cells,
`/repo/draftsman/classes/spatial_hashmap.py:30`. -/
def cells (o : Nat → Obj) (i : Nat) : List (Cell × Nat) := (cellsFromAabb 8 (worldBox o i)).map fun c => (c, i)

/-- The entries of all entities in `g`: what `recursive_add` adds and `recursive_remove` removes,
`/repo/draftsman/classes/spatial_hashmap.py:61-98`. -/
def entries (o : Nat → Obj) (next g : Nat) : List (Cell × Nat) :=
  ((List.range next).filter fun i => below o g i).flatMap (cells o)

/-- `collection.entities.append(entity)` for an entity that was made for it: it is added to the map before its parent is set.
`/repo/draftsman/classes/entity_list.py:271-329`. -/
def appendLeaf (s : State) (c : Nat) (pos : Vec) (box : AABB) : State :=
  let o₁ : Nat → Obj := fun i => if i = s.next then { parent := none, listed := true, pos, box := some box } else s.obj i
  { next := s.next + 1
    obj := fun i => if i = s.next then { o₁ i with parent := some c } else o₁ i
    map := if c = 0 then s.map ++ cells o₁ s.next else s.map }

/-- `Group(position=…)`, `/repo/draftsman/classes/group.py:117-145`. -/
def newGroup (s : State) (pos : Vec) : State :=
  { s with next := s.next + 1, obj := fun i => if i = s.next then { unused with listed := true, pos } else s.obj i }

/-- A copy of the group `g` and of everything in it, the identity `i` becoming `i - g + next`.
`/repo/draftsman/classes/group.py:582-616`, `/repo/draftsman/classes/entity_list.py:662-690`; see `Copy` for the order. -/
def copyObj (s : State) (g : Nat) (up : Option Nat) (j : Nat) : Obj :=
  if s.next ≤ j ∧ j < s.next + (s.next - g) then
    if j = s.next then { s.obj g with parent := up, listed := true }
    else if below s.obj g (j - s.next + g) then
      { s.obj (j - s.next + g) with parent := (s.obj (j - s.next + g)).parent.map fun p => p - g + s.next }
    else unused
  else s.obj j

/-- `collection.entities.append(group)`: a copy of the group is added to the map before its parent is set.
`/repo/draftsman/classes/entity_list.py:271-329`. -/
def appendGroup (s : State) (c g : Nat) : State :=
  { next := s.next + (s.next - g)
    obj := copyObj s g (some c)
    map := if c = 0 then s.map ++ entries (copyObj s g none) (s.next + (s.next - g)) s.next else s.map }

/-- `del collection.entities[k]`, where `i` is that member: `/repo/draftsman/classes/entity_list.py:596-615`. -/
def delete (s : State) (i : Nat) : State :=
  if (s.obj i).listed then
    { s with
      obj := fun j => if j = i then { s.obj j with listed := false } else s.obj j
      map := if (s.obj i).parent = some 0 then s.map.diff (entries s.obj s.next i) else s.map }
  else s

/-- `group.position = …`, refused (here: without effect) for a group with a parent.  `/repo/draftsman/classes/group.py:341-348`. -/
def move (s : State) (g : Nat) (pos : Vec) : State :=
  if (s.obj g).parent = none ∧ (s.obj g).box = none ∧ g ≠ 0 ∧ g < s.next then
    { s with obj := fun j => if j = g then { s.obj j with pos } else s.obj j }
  else s

/-- One round of the loops of `translate`, `rotate` and `flip`, `/repo/draftsman/classes/transformable.py:42-55, 106-131, 183-206`, for a
member `i` of `c`: `f` is what happens to the position, `b` what a new direction makes of the box.  The map of the blueprint is the one
that is used if `c` is the blueprint; a group is in no cell. -/
def alter (c : Nat) (f : Vec → Vec) (b : Nat → AABB → AABB) (s : State) (i : Nat) : State :=
  let o := fun j => if j = i then { s.obj j with pos := f (s.obj j).pos, box := (s.obj j).box.map (b j) } else s.obj j
  { s with
    obj := o
    map := if c = 0 then s.map.diff (cells s.obj i) ++ cells o i else s.map }

/-- The members of a collection, `self.entities`.  `/repo/draftsman/classes/transformable.py:42`. -/
def members (s : State) (c : Nat) : List Nat :=
  (List.range s.next).filter fun i => (s.obj i).listed && decide ((s.obj i).parent = some c)

/-- `collection.translate(x, y)`, `/repo/draftsman/classes/transformable.py:16-55`, without its warning. -/
def translate (s : State) (c : Nat) (v : Vec) : State := (members s c).foldl (alter c (fun p => p + v) fun _ b => b) s

/-- `collection.rotate(angle)` and `collection.flip(direction)`, `/repo/draftsman/classes/transformable.py:74-131, 151-206`, when they
succeed: `f` is the matrix, any function here, and `b` what becomes of the box of each member (see `Transform` for both).  Simplified: without
effect if there is a group among the members, where the code fails with the group half done (`C20_group_refuted`). -/
def turn (s : State) (c : Nat) (f : Vec → Vec) (b : Nat → AABB → AABB) : State :=
  if (members s c).all fun i => (s.obj i).box.isSome then (members s c).foldl (alter c f b) s else s

/-- `blueprint.find_entity_at_position` before it takes the first, `/repo/draftsman/classes/collection.py:176-179` with
`/repo/draftsman/classes/spatial_hashmap.py:202-214`: the objects in the cell whose box is, now, around the point. -/
def find (s : State) (q : Vec) : List Nat :=
  (s.map.filter fun e => decide (e.1 = mapCoords 8 q) &&
    match worldBox s.obj e.2 with
    | none => false
    | some b => pointInAabb q b).map (·.2)

/-- What a program does.  `/repo/draftsman/classes/entity_list.py:205-329, 596-615`, `/repo/draftsman/classes/group.py:117-145, 341-348`,
`/repo/draftsman/classes/transformable.py:16-206`. -/
inductive Event where
  | leaf (c : Nat) (pos : Vec) (box : AABB)
  | group (pos : Vec)
  | copy (c g : Nat)
  | delete (i : Nat)
  | move (g : Nat) (pos : Vec)
  | translate (c : Nat) (v : Vec)
  | turn (c : Nat) (f : Vec → Vec) (b : Nat → AABB → AABB)

/-- One step; calls on what is no collection or no member have no effect (Python has no such objects to call).
`/repo/draftsman/classes/entity_list.py:205-329, 596-615`, `/repo/draftsman/classes/transformable.py:16-206`. -/
def step (s : State) : Event → State
  | .leaf c pos box => if c < s.next ∧ (s.obj c).box = none then appendLeaf s c pos box else s
  | .group pos => newGroup s pos
  | .copy c g => if c < s.next ∧ (s.obj c).box = none ∧ g < s.next ∧ (s.obj g).box = none ∧ g ≠ 0 then appendGroup s c g else s
  | .delete i => if i < s.next ∧ (s.obj i).parent ≠ none then delete s i else s
  | .move g pos => move s g pos
  | .translate c v => if c < s.next ∧ (s.obj c).box = none then translate s c v else s
  | .turn c f b => if c < s.next ∧ (s.obj c).box = none then turn s c f b else s

/-- A history.  `/repo/draftsman/classes/entity_list.py:205-329, 596-615`. -/
def run (es : List Event) : State := es.foldl step empty

end Draftsman.NestMap
