import Verif.Model.SpatialHash
import Verif.Model.EntityList
/-
The list of tiles with its spatial map, `/repo/draftsman/classes/tile_list.py`, and the part of
`/repo/draftsman/classes/tile.py` that decides whether a tile may be moved.

A tile is an `SItem` of the spatial map: `uid` is object identity, `key` numbers its name, `pos` its position, `box` its world
box.  The list and the map hold the same objects, so a change of a tile's name or position is made in both.  What
`tile.validate(...).reissue_all()` and `validate_insert` do is a parameter: nothing, or an exception (a validation error, a
warning turned into an exception, or the `TypeError` for a tile without a known collision mask).  Warnings are not modelled
here.  Keyword arguments are reduced to `position`, the only attribute a tile has besides its name.
-/
namespace Draftsman.TileList
open Draftsman

/-- `_TILE_COLLISION_SET` moved to the tile's position, `/repo/draftsman/classes/tile.py:49` and
`/repo/draftsman/classes/spatial_like.py:54-78`. -/
def tileBox (p : Vec) : AABB := { topLeft := p, botRight := ⟨p.x + 1, p.y + 1⟩ }

/-- `Tile(name, position)`, `/repo/draftsman/classes/tile.py:102-146`: a new object. -/
def mkTile (uid name : ℕ) (p : Vec) : SItem := ⟨uid, name, p, some (tileBox p)⟩

/-- The fields of a `TileList`, `/repo/draftsman/classes/tile_list.py:42-60`, and of the objects around it: `parented` lists the
objects whose `_parent` counts as true, `parent` tells whether the list's own `_parent` does, `next` is an unused identity. -/
structure TL where
  root : List SItem
  map : SMap
  parented : List ℕ
  parent : Bool
  next : ℕ
  deriving DecidableEq

/-- `TileList(parent)`, `/repo/draftsman/classes/tile_list.py:42-60`. -/
def empty (parent : Bool) (next : ℕ) : TL := ⟨[], [], [], parent, next⟩

/-- The cell size of the map, `/repo/draftsman/classes/spatial_hashmap.py:30` as called at
`/repo/draftsman/classes/tile_list.py:58`. -/
abbrev cellSize : ℕ := 8

/-- What is handed to `insert`: a name, a tile to be copied (perhaps with a `position` keyword), a tile to be used itself.
`/repo/draftsman/classes/tile_list.py:86-117`. -/
inductive Src where
  | name (n : ℕ) (p : Vec)
  | copyOf (t : SItem) (p : Option Vec)
  | ref (t : SItem)

/-- `Tile.mergable_with`, `/repo/draftsman/classes/tile.py:236-250`. -/
def mergable (a b : SItem) : Bool := decide (a.key = b.key) && decide (a.pos = b.pos)

/-- `tile._parent = value`, `/repo/draftsman/classes/tile_list.py:150` and `:261`. -/
def setParent (s : TL) (uid : ℕ) : List ℕ :=
  if s.parent then uid :: s.parented else s.parented.filter fun u => u ≠ uid

/-- `insert` from the validation on, `/repo/draftsman/classes/tile_list.py:132-150`. -/
def place (s : TL) (idx : Int) (t : SItem) (merge : Bool) (bad : Option PyErr) : TL × Option PyErr :=
  match bad with
  | some e => (s, some e)
  | none =>
    match (if merge then s.map.addMerge cellSize mergable t else (s.map.add cellSize t, some t)) with
    | (_, none) => (s, none)
    | (m, some t) =>
      ({ s with root := EList.pyInsert s.root idx t, map := m, parented := setParent s t.uid }, none)

/-- `insert`, `/repo/draftsman/classes/tile_list.py:86-150`.  `deepcopy` copies `_parent` too (`Tile` defines no
`__deepcopy__`), so a keyword for `position` runs into the test of `Tile.position`, `/repo/draftsman/classes/tile.py:208-213`. -/
def insert (s : TL) (idx : Int) (src : Src) (merge : Bool) (bad : Option PyErr) : TL × Option PyErr :=
  match src with
  | .name n p => place { s with next := s.next + 1 } idx (mkTile s.next n p) merge bad
  | .copyOf t none => place { s with next := s.next + 1 } idx { t with uid := s.next } merge bad
  | .copyOf t (some p) =>
    if t.uid ∈ s.parented then (s, some .draftsmanError)
    else place { s with next := s.next + 1 } idx (mkTile s.next t.key p) merge bad
  | .ref t => if merge then (s, some .valueError) else place s idx t merge bad

/-- `append`, `/repo/draftsman/classes/tile_list.py:75-83`. -/
def append (s : TL) (src : Src) (merge : Bool) (bad : Option PyErr) : TL × Option PyErr :=
  insert s s.root.length src merge bad

/-- `__setitem__` with an integer, `/repo/draftsman/classes/tile_list.py:242-261`: the old tile leaves the map before the new one
is validated. -/
def setItem (s : TL) (idx : Int) (t : SItem) (bad : Option PyErr) : TL × Option PyErr :=
  match EList.pyIndex s.root idx with
  | none => (s, some .indexError)
  | some i =>
    match s.root[i]? with
    | none => (s, some .indexError)   -- unreachable
    | some old =>
      let m := s.map.remove cellSize old
      match bad with
      | some e => ({ s with map := m }, some e)
      | none =>
        ({ s with root := s.root.set i t, map := m.add cellSize t, parented := setParent s t.uid }, none)

/-- `__delitem__` with an integer, `/repo/draftsman/classes/tile_list.py:263-277`. -/
def delInt (s : TL) (idx : Int) : TL × Option PyErr :=
  match EList.pyIndex s.root idx with
  | none => (s, some .indexError)
  | some i =>
    match s.root[i]? with
    | none => (s, some .indexError)   -- unreachable
    | some old => ({ s with root := s.root.eraseIdx i, map := s.map.remove cellSize old }, none)

/-- One bound of `slice.indices(n)` (Python built-in), as used at `/repo/draftsman/classes/tile_list.py:266`: `lo` and `hi` are the
values it is clamped to. -/
def clampBound (n lo hi : Int) (dflt : Int) : Option Int → Int
  | none => dflt
  | some a => if a < 0 then max lo (a + n) else min hi a

/-- `range(*slice(a, b, c).indices(n))` (Python built-in) for a step other than zero, as used at
`/repo/draftsman/classes/tile_list.py:266-267`. -/
def sliceRange (n : ℕ) (a b : Option Int) (c : Int) : List Int :=
  if 0 < c then
    let start := clampBound n 0 n 0 a
    let stop := clampBound n 0 n n b
    (List.range ((stop - start + c - 1) / c).toNat).map fun (k : ℕ) => start + k * c
  else
    let start := clampBound n (-1) (n - 1) (n - 1) a
    let stop := clampBound n (-1) (n - 1) (-1) b
    (List.range ((start - stop + (-c) - 1) / (-c)).toNat).map fun (k : ℕ) => start + k * c

/-- The elements of `l` whose position is not in `sel`: `del l[slice]` (Python built-in) when `sel` are the positions selected, as
used at `/repo/draftsman/classes/tile_list.py:277`. -/
def dropAt {α : Type} (sel : List Int) (l : List α) : List α :=
  (l.zipIdx.filter fun p => (p.2 : Int) ∉ sel).map (·.1)

/-- The loop of `__delitem__` over the slice, `/repo/draftsman/classes/tile_list.py:267-269`. -/
def removeEach (m : SMap) (root : List SItem) (sel : List Int) : SMap :=
  sel.foldl (fun m i => match root[i.toNat]? with
    | some x => m.remove cellSize x
    | none => m) m

/-- `__delitem__` with a slice, `/repo/draftsman/classes/tile_list.py:263-277`; `slice.indices` rejects the step zero. -/
def delSlice (s : TL) (a b : Option Int) (c : Option Int) : TL × Option PyErr :=
  let c := c.getD 1
  if c = 0 then (s, some .valueError)
  else
    let sel := sliceRange s.root.length a b c
    ({ s with root := dropAt sel s.root, map := removeEach s.map s.root sel }, none)

/-- `clear`, `/repo/draftsman/classes/tile_list.py:152-154`. -/
def clear (s : TL) : TL := { s with root := [], map := SMap.clear }

/-- A change of one object, wherever it is referred to: the list and the map hold the same objects,
`/repo/draftsman/classes/tile_list.py:138-147`. -/
def update (s : TL) (uid : ℕ) (f : SItem → SItem) : TL :=
  { s with root := s.root.map fun x => if x.uid = uid then f x else x
           map := s.map.map fun p => (p.1, p.2.map fun x => if x.uid = uid then f x else x) }

/-- `tile.name = name`, `/repo/draftsman/classes/tile.py:176-184`. -/
def rename (s : TL) (uid name : ℕ) : TL := update s uid fun x => { x with key := name }

/-- `tile.position = position`, `/repo/draftsman/classes/tile.py:208-213`: refused for a tile with a parent; the map is not told. -/
def move (s : TL) (uid : ℕ) (p : Vec) : TL × Option PyErr :=
  if uid ∈ s.parented then (s, some .draftsmanError)
  else (update s uid fun x => { x with pos := p, box := some (tileBox p) }, none)

/-- The loop of `__init__` over dictionaries, `/repo/draftsman/classes/tile_list.py:62-68`: `elem.pop("name")` takes the name out of
the caller's dictionary.  `d` says which name each dictionary object holds; the result is what they hold afterwards, the names
appended so far and the exception. -/
def initNames (d : ℕ → Option ℕ) : List ℕ → (ℕ → Option ℕ) × List ℕ × Option PyErr
  | [] => (d, [], none)
  | i :: r =>
    match d i with
    | none => (d, [], some .keyError)
    | some n =>
      let rest := initNames (fun j => if j = i then none else d j) r
      (rest.1, n :: rest.2.1, rest.2.2)

end Draftsman.TileList
