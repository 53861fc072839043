import Verif.Model.Geometry
import Verif.Model.Dict
/-
The spatial hash map, `/repo/draftsman/classes/spatial_hashmap.py`.

Members are snapshots: a member's world box and global position are taken as fixed while it is in the map (the
library forbids moving an entity that has a parent, `/repo/draftsman/classes/entity.py:477-490`).  Collision sets
are reduced to the world bounding box computed from them.  `cell_size` is a positive integer (zero would divide by
zero).
-/
namespace Draftsman

/-- What the map sees of an entity or tile.  `uid` is object identity; `key` stands for everything else that
`__eq__` compares (class, name, id, tags: `/repo/draftsman/classes/entity.py:755-762`, class and name:
`/repo/draftsman/classes/tile.py:297-302`); `pos` is the global position; `box` is `get_world_bounding_box()`
(`/repo/draftsman/classes/spatial_like.py:54-78`), whose `position` is always zero. -/
structure SItem where
  uid : Nat
  key : Nat
  pos : Vec
  box : Option AABB
  deriving DecidableEq, Repr

/-- `Entity.__eq__`, `/repo/draftsman/classes/entity.py:755-762`; `Tile.__eq__`, `/repo/draftsman/classes/tile.py:297-302`. -/
def SItem.eqv (a b : SItem) : Bool := decide (a.key = b.key) && decide (a.pos = b.pos)

/-- A key of `self.map`: `/repo/draftsman/classes/spatial_hashmap.py:30-37`. -/
abbrev Cell := Int × Int

/-- `range(a, b)` (Python built-in). -/
def pyRange (a b : Int) : List Int := (List.range (b - a).toNat).map fun (k : ℕ) => a + (k : Int)

/-- `self.map` of `SpatialHashMap`, `/repo/draftsman/classes/spatial_hashmap.py:30-37`. -/
abbrev SMap := Dict Cell (List SItem)

/-- `_map_coords`, `/repo/draftsman/classes/spatial_hashmap.py:234-243`. -/
def mapCoords (cs : ℕ) (p : Vec) : Cell := (⌊p.x / cs⌋, ⌊p.y / cs⌋)

/-- `eps`, `/repo/draftsman/classes/spatial_hashmap.py:258`. -/
def cellEps : ℚ := 1/1000

/-- The double loop over cells shared by `_cell_coords_from_aabb` (265-268) and `_cell_coords_from_radius`
(290-292) of `/repo/draftsman/classes/spatial_hashmap.py`. -/
def cellRange (lo hi : Cell) : List Cell :=
  let w := hi.1 - lo.1 + 1
  let h := hi.2 - lo.2 + 1
  (pyRange lo.2 (lo.2 + h)).flatMap fun j => (pyRange lo.1 (lo.1 + w)).map fun i => (i, j)

/-- `_cell_coords_from_aabb`, `/repo/draftsman/classes/spatial_hashmap.py:245-270` (note: local corners). -/
def cellsFromAabb (cs : ℕ) : Option AABB → List Cell
  | none => []
  | some a => cellRange (mapCoords cs a.topLeft) (mapCoords cs ⟨a.botRight.x - cellEps, a.botRight.y - cellEps⟩)

/-- `_cell_coords_from_radius`, `/repo/draftsman/classes/spatial_hashmap.py:272-302`. -/
def cellsFromRadius (cs : ℕ) (r : ℚ) (c : Vec) : List Cell :=
  (cellRange (mapCoords cs ⟨c.x - r, c.y - r⟩) (mapCoords cs ⟨c.x + r, c.y + r⟩)).filter fun k =>
    aabbOverlapsCircle { topLeft := ⟨k.1 * cs, k.2 * cs⟩
                         botRight := ⟨(k.1 + 1) * cs, (k.2 + 1) * cs⟩ } r c

namespace SMap

/-- One pass of the loop of `add`, `/repo/draftsman/classes/spatial_hashmap.py:53-57`. -/
def addCell (x : SItem) (m : SMap) (c : Cell) : SMap :=
  match m.get? c with
  | some l => m.set c (l ++ [x])
  | none => m.set c [x]

/-- `add` with `merge=False`, `/repo/draftsman/classes/spatial_hashmap.py:39-59`. -/
def add (cs : ℕ) (m : SMap) (x : SItem) : SMap := (cellsFromAabb cs x.box).foldl (addCell x) m

/-- One pass of the loop of `remove`, `/repo/draftsman/classes/spatial_hashmap.py:84-91`; `list.remove` drops the
first equal element and the bare `except` ignores a missing key or element. -/
def removeCell (x : SItem) (m : SMap) (c : Cell) : SMap :=
  match m.get? c with
  | none => m
  | some l =>
    if l.any (fun y => y.eqv x) then
      let l' := l.eraseP fun y => y.eqv x
      if l' = [] then m.del c else m.set c l'
    else m

/-- `remove`, `/repo/draftsman/classes/spatial_hashmap.py:82-91`. -/
def remove (cs : ℕ) (m : SMap) (x : SItem) : SMap := (cellsFromAabb cs x.box).foldl (removeCell x) m

/-- `clear`, `/repo/draftsman/classes/spatial_hashmap.py:100-101`. -/
def clear : SMap := []

/-- Test against the limit: `limit is not None and len(items) >= limit`.  `/repo/draftsman/classes/spatial_hashmap.py:188-198` and `:208-230`. -/
def full (limit : Option Int) (items : List SItem) : Bool :=
  match limit with
  | none => false
  | some n => decide ((items.length : Int) ≥ n)

/-- The inner loop of `get_in_aabb` / `get_in_radius`, `/repo/draftsman/classes/spatial_hashmap.py:221-230`,
`188-198`; `ok` is the geometric test, `break` leaves this cell only. -/
def scanCell (ok : SItem → Bool) (limit : Option Int) : List SItem → List SItem → List SItem
  | [], items => items
  | x :: r, items =>
    if ok x then
      if full limit items then items
      else if items.any (fun y => y.eqv x) then scanCell ok limit r items
      else scanCell ok limit r (items ++ [x])
    else scanCell ok limit r items

/-- One pass of the outer loop of `get_in_aabb` / `get_in_radius`, `/repo/draftsman/classes/spatial_hashmap.py:220-221`,
`187-188`. -/
def scanStep (m : SMap) (ok : SItem → Bool) (limit : Option Int) (items : List SItem) (c : Cell) : List SItem :=
  match m.get? c with
  | some l => scanCell ok limit l items
  | none => items

/-- The outer loop of `get_in_aabb` / `get_in_radius`, `/repo/draftsman/classes/spatial_hashmap.py:219-221`, `186-188`. -/
def scan (m : SMap) (ok : SItem → Bool) (limit : Option Int) (cells : List Cell) : List SItem :=
  cells.foldl (scanStep m ok limit) []

/-- `aabb_overlaps_aabb(item.get_world_bounding_box(), aabb)`; an item without a box would raise `AttributeError`,
but such an item is in no cell.  `/repo/draftsman/classes/spatial_hashmap.py:221-230`. -/
def overlapsItem (q : AABB) (x : SItem) : Bool :=
  match x.box with
  | some b => aabbOverlapsAabb b q
  | none => false

/-- `get_in_aabb`, `/repo/draftsman/classes/spatial_hashmap.py:216-232`. -/
def getInAabb (cs : ℕ) (m : SMap) (q : AABB) (limit : Option Int := none) : List SItem :=
  scan m (overlapsItem q) limit (cellsFromAabb cs (some q))

/-- `get_in_radius`, `/repo/draftsman/classes/spatial_hashmap.py:181-200`. -/
def getInRadius (cs : ℕ) (m : SMap) (r : ℚ) (c : Vec) (limit : Option Int := none) : List SItem :=
  scan m (fun x => pointInCircle x.pos r c) limit (cellsFromRadius cs r c)

/-- `point_in_aabb(point, item.get_world_bounding_box())`; an item without a box would raise `AttributeError`, but such an
item is in no cell.  `/repo/draftsman/classes/spatial_hashmap.py:208-212`. -/
def coversPoint (p : Vec) (x : SItem) : Bool :=
  match x.box with
  | some b => pointInAabb p b
  | none => false

/-- The loop of `get_on_point`, `/repo/draftsman/classes/spatial_hashmap.py:208-212`. -/
def scanPoint (p : Vec) (limit : Option Int) : List SItem → List SItem → List SItem
  | [], items => items
  | x :: r, items =>
    if coversPoint p x then
      if full limit items then items else scanPoint p limit r (items ++ [x])
    else scanPoint p limit r items

/-- `get_on_point`, `/repo/draftsman/classes/spatial_hashmap.py:202-214`. -/
def getOnPoint (cs : ℕ) (m : SMap) (p : Vec) (limit : Option Int := none) : List SItem :=
  match m.get? (mapCoords cs p) with
  | some l => scanPoint p limit l []
  | none => []

/-- `get_all_entities`, `/repo/draftsman/classes/spatial_hashmap.py:173-179`. -/
def getAll (m : SMap) : List SItem := m.flatMap (·.2)

/-- `add` with `merge=True`, `/repo/draftsman/classes/spatial_hashmap.py:39-59`: the second component is `None` when the
item was merged.  `mergable` is `overlapping_item.mergable_with(item)`; the effect of `merge` on the attributes of the
overlapping item is not modelled.  An item without a box has no overlapping items. -/
def addMerge (cs : ℕ) (mergable : SItem → SItem → Bool) (m : SMap) (x : SItem) : SMap × Option SItem :=
  let overlapping := match x.box with
    | none => []
    | some q => getInAabb cs m q
  if overlapping.any (fun y => mergable y x) then (m, none) else (add cs m x, some x)

end SMap

/-- A member of a collection: an entity or a group of them (`EntityCollection`).  `/repo/draftsman/classes/spatial_hashmap.py:61-98`. -/
inductive STree where
  | leaf (x : SItem)
  | group (l : List STree)

mutual
/-- `recursive_add` with `merge=False`, `/repo/draftsman/classes/spatial_hashmap.py:61-80`. -/
def STree.addTo (cs : ℕ) (m : SMap) : STree → SMap
  | .leaf x => m.add cs x
  | .group l => STree.addAll cs m l
/-- The loop over `item.entities` in `recursive_add`, `/repo/draftsman/classes/spatial_hashmap.py:67-70`. -/
def STree.addAll (cs : ℕ) (m : SMap) : List STree → SMap
  | [] => m
  | t :: r => STree.addAll cs (STree.addTo cs m t) r
end

mutual
/-- `recursive_remove`, `/repo/draftsman/classes/spatial_hashmap.py:93-98`. -/
def STree.removeFrom (cs : ℕ) (m : SMap) : STree → SMap
  | .leaf x => m.remove cs x
  | .group l => STree.removeAll cs m l
/-- The loop over `item.entities` in `recursive_remove`, `/repo/draftsman/classes/spatial_hashmap.py:95-96`. -/
def STree.removeAll (cs : ℕ) (m : SMap) : List STree → SMap
  | [] => m
  | t :: r => STree.removeAll cs (STree.removeFrom cs m t) r
end

end Draftsman
