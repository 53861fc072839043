import Mathlib.Logic.Function.Basic
import Verif.Model.Position
import Verif.Model.Round
/-
Positions changed in place.  `entity.position`, `entity.tile_position` and `group.position` return the vector object itself, and its coordinates can be
assigned.  The vectors of an entity (`/repo/draftsman/classes/entity.py:42-83`) know the entity by a weak reference and bring its other vector along.

Simplified: coordinates are given as numbers; widths and heights of tiles do not change (turning and renaming are in `Model/Position.lean` and
`Model/Rename.lean`).
-/
namespace Draftsman
namespace InPlace

/-- The two coordinates, `/repo/draftsman/classes/vector.py:27-53`. -/
inductive Axis where
  | x | y
  deriving DecidableEq, Repr

/-- `vector.x` and `vector.y`, `/repo/draftsman/classes/vector.py:28-50`. -/
def get (v : Vec) : Axis → ℚ
  | .x => v.x
  | .y => v.y

/-- `self._data[0] = …` and `self._data[1] = …`, `/repo/draftsman/classes/vector.py:40, 53`. -/
def put (v : Vec) : Axis → ℚ → Vec
  | .x, q => ⟨q, v.y⟩
  | .y, q => ⟨v.x, q⟩

/-- What kind of vector an object is: `Vector`, or one of the two of an entity, with the entity it refers to.  `/repo/draftsman/classes/entity.py:42-45, 70-73`. -/
inductive Kind where
  | plain
  | posOf (e : ℕ)
  | tileOf (e : ℕ)
  deriving DecidableEq, Repr

/-- A vector object, `/repo/draftsman/classes/vector.py:13-26`. -/
structure Cell where
  val : Vec
  kind : Kind
  deriving DecidableEq

/-- An entity: its two vector objects (`/repo/draftsman/classes/entity.py:286-287`), the size of its footprint in tiles, and whether it has a parent. -/
structure Ent where
  pos : ℕ
  tile : ℕ
  w : ℕ
  h : ℕ
  held : Bool
  deriving DecidableEq

/-- `tile_width` and `tile_height` by coordinate, `/repo/draftsman/classes/entity.py:51, 58, 78, 83`. -/
def Ent.size (n : Ent) : Axis → ℕ
  | .x => n.w
  | .y => n.h

/-- A group: its vector object and whether it has a parent, `/repo/draftsman/classes/group.py:321-348`. -/
structure Grp where
  pos : ℕ
  held : Bool
  deriving DecidableEq

/-- All objects there are; ids from `next` on are unused.  An entity that is not there any more is `none`, which is what a weak reference to it gives.
`/repo/draftsman/classes/entity.py:45, 73, 285-287`. -/
structure World where
  cell : ℕ → Cell
  ent : ℕ → Option Ent
  grp : ℕ → Option Grp
  next : ℕ

/-- Nothing there.  Part of the model only: the state before any object of `/repo/draftsman/classes/entity.py` is made. -/
def World.empty : World := ⟨fun _ => ⟨0, .plain⟩, fun _ => none, fun _ => none, 0⟩

/-- Change the value of a vector object: `self._data[0] = …`, `/repo/draftsman/classes/vector.py:79-92`. -/
def World.write (w : World) (c : ℕ) (v : Vec) : World := { w with cell := Function.update w.cell c ⟨v, (w.cell c).kind⟩ }

/-- Change one coordinate of a vector object without more ado, `/repo/draftsman/classes/vector.py:40, 53, 128-136`. -/
def World.poke (w : World) (c : ℕ) (a : Axis) (q : ℚ) : World := w.write c (put (w.cell c).val a q)

/-- `entity.position = v`, `/repo/draftsman/classes/entity.py:477-490`. -/
def World.setPos (w : World) (n : Ent) (v : PosArg) : World × Option PyErr :=
  if n.held then (w, some .draftsmanError)
  else ((w.write n.pos v.toFloat).write n.tile ⟨pyRound (v.toFloat.x - n.w / 2), pyRound (v.toFloat.y - n.h / 2)⟩, none)

/-- `entity.tile_position = v`, `/repo/draftsman/classes/entity.py:519-532`. -/
def World.setTile (w : World) (n : Ent) (v : PosArg) : World :=
  (w.write n.tile v.toInt).write n.pos ⟨v.toInt.x + n.w / 2, v.toInt.y + n.h / 2⟩

/-- `vector.x = q` and `vector.y = q`, by class: `/repo/draftsman/classes/vector.py:38-53` and, for the vectors of entities,
`/repo/draftsman/classes/entity.py:47-59, 75-83`.  A reference to an entity that is gone gives `None`, which has no attribute `_root`. -/
def World.coord (w : World) (c : ℕ) (a : Axis) (q : ℚ) : World × Option PyErr :=
  match (w.cell c).kind with
  | .plain => (w.poke c a q, none)
  | .posOf e =>
    match w.ent e with
    | none => (w.poke c a q, some .attributeError)
    | some n => ((w.poke c a q).poke n.tile a (pyRound (q - n.size a / 2)), none)
  | .tileOf e =>
    match w.ent e with
    | none => (w.poke c a (pyTrunc q), some .attributeError)
    | some n => ((w.poke c a (pyTrunc q)).poke n.pos a (q + n.size a / 2), none)

/-- The key of `vector[key] = q`: a name or a number, `/repo/draftsman/classes/vector.py:128-136`. -/
inductive Key where
  | name (a : Axis)
  | int (i : Int)
  deriving DecidableEq

/-- `vector[key] = q`, `/repo/draftsman/classes/vector.py:128-136`; not overridden for the vectors of entities. -/
def World.item (w : World) (c : ℕ) (k : Key) (q : ℚ) : World × Option PyErr :=
  match k with
  | .name a => (w.poke c a q, none)
  | .int i =>
    if i = 0 ∨ i = -2 then (w.poke c .x q, none)
    else if i = 1 ∨ i = -1 then (w.poke c .y q, none)
    else (w, some .indexError)

/-- What is given for the position of a group: a vector object or coordinates, `/repo/draftsman/classes/vector.py:54-77`. -/
inductive Src where
  | cell (c : ℕ)
  | tuple (x y : ℚ)
  deriving DecidableEq

/-- `self._position = Vector.from_other(value, float)`, `/repo/draftsman/classes/group.py:348`: a vector is stored as the object it is. -/
def World.putGroup (w : World) (g : ℕ) (held : Bool) : Src → World
  | .cell c => { w with grp := Function.update w.grp g (some ⟨c, held⟩) }
  | .tuple x y =>
    { w with
      cell := Function.update w.cell w.next ⟨⟨x, y⟩, .plain⟩
      grp := Function.update w.grp g (some ⟨w.next, held⟩)
      next := w.next + 1 }

/-- A new entity with number `w.next`: `/repo/draftsman/classes/entity.py:284-287, 320-326`, with the tile position given. -/
def World.newEntity (w : World) (width height : ℕ) (v : PosArg) : World :=
  let n : Ent := ⟨w.next + 1, w.next + 2, width, height, false⟩
  World.setTile
    { w with
      cell := Function.update (Function.update w.cell (w.next + 1) ⟨0, .posOf w.next⟩) (w.next + 2) ⟨0, .tileOf w.next⟩
      ent := Function.update w.ent w.next (some n)
      next := w.next + 3 } n v

/-- `copy.deepcopy(entity)`, `/repo/draftsman/classes/entity.py:781-795` with `/repo/draftsman/classes/entity_like.py:201-227`: the vectors are copied with their weak
references as they are (`copy` does not copy weak references, and only `_root._entity` is replaced), and the copy has no parent. -/
def World.copy (w : World) (n : Ent) : World :=
  { w with
    cell := Function.update (Function.update w.cell (w.next + 1) (w.cell n.pos)) (w.next + 2) (w.cell n.tile)
    ent := Function.update w.ent w.next (some ⟨w.next + 1, w.next + 2, n.w, n.h, false⟩)
    next := w.next + 3 }

/-- What can be done.  Part of the model only; the methods are cited at `World.step`, e.g. `/repo/draftsman/classes/entity.py:477-532`. -/
inductive Op where
  | newEntity (width height : ℕ) (v : PosArg)
  | newGroup (s : Src)
  | copy (e : ℕ)
  | gone (e : ℕ)
  | hold (e : ℕ) (b : Bool)
  | holdGroup (g : ℕ) (b : Bool)
  | setPos (e : ℕ) (v : PosArg)
  | setTile (e : ℕ) (v : PosArg)
  | groupPos (g : ℕ) (s : Src)
  | coord (c : ℕ) (a : Axis) (q : ℚ)
  | item (c : ℕ) (k : Key) (q : ℚ)
  | update (c : ℕ) (x y : ℚ)

/-- A vector object that is there.  Model only, for objects of `/repo/draftsman/classes/vector.py`. -/
def Src.there (w : World) : Src → Bool
  | .cell c => decide (c < w.next)
  | .tuple _ _ => true

/-- Do it; with objects that are not there nothing is done.  The group gets its vector object first (`/repo/draftsman/classes/group.py:341-348`), the entity its
parent and place by `/repo/draftsman/classes/entity.py:477-532`, and a vector its values by `/repo/draftsman/classes/vector.py:79-92`. -/
def World.step (w : World) : Op → World × Option PyErr
  | .newEntity a b v => (w.newEntity a b v, none)
  | .newGroup s => if s.there w then (World.putGroup { w with next := w.next + 1 } w.next false s, none) else (w, none)
  | .copy e => match w.ent e with
    | some n => (w.copy n, none)
    | none => (w, none)
  | .gone e => ({ w with ent := Function.update w.ent e none }, none)
  | .hold e b => match w.ent e with
    | some n => ({ w with ent := Function.update w.ent e (some { n with held := b }) }, none)
    | none => (w, none)
  | .holdGroup g b => match w.grp g with
    | some n => ({ w with grp := Function.update w.grp g (some { n with held := b }) }, none)
    | none => (w, none)
  | .setPos e v => match w.ent e with
    | some n => w.setPos n v
    | none => (w, none)
  | .setTile e v => match w.ent e with
    | some n => (w.setTile n v, none)
    | none => (w, none)
  | .groupPos g s => match w.grp g with
    | some n => if n.held then (w, some .draftsmanError) else if s.there w then (w.putGroup g n.held s, none) else (w, none)
    | none => (w, none)
  | .coord c a q => if c < w.next then w.coord c a q else (w, none)
  | .item c k q => if c < w.next then w.item c k q else (w, none)
  | .update c x y => if c < w.next then (w.write c ⟨x, y⟩, none) else (w, none)

end InPlace
end Draftsman
