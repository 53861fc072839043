import Verif.Model.TileList
/-
Assigning to `tiles` of a blueprint: `/repo/draftsman/classes/blueprint.py:884-895`, with the construction of a `TileList` from a list,
`/repo/draftsman/classes/tile_list.py:42-73`.  The constructor works before its mode of validation is set (`/repo/draftsman/classes/exportable.py:208`),
so the entries are not validated.  What becomes of the dictionaries is `initNames` in `Model/TileList.lean`; failures of making a tile from a
dictionary are left out.
-/
namespace Draftsman.TileList
open Draftsman

/-- An entry of the list assigned: a tile, a dictionary (with its name, if it has one, and its position), or something else.
`/repo/draftsman/classes/tile_list.py:63-71`. -/
inductive Entry where
  | tile (t : SItem)
  | dict (name : Option ℕ) (p : Vec)
  | other

/-- What is assigned: `None`, a `TileList` (given by its members), another iterable, or something that cannot be iterated.
`/repo/draftsman/classes/blueprint.py:886-895`. -/
inductive Value where
  | none
  | tiles (l : List SItem)
  | list (l : List Entry)
  | scalar

/-- The loop of `TileList.__init__`, `/repo/draftsman/classes/tile_list.py:62-71`. -/
def build (s : TL) : List Entry → TL × Option PyErr
  | [] => (s, none)
  | .tile t :: r => match append s (.copyOf t none) false none with
    | (s', none) => build s' r
    | (s', some e) => (s', some e)
  | .dict (some n) p :: r => match append s (.name n p) false none with
    | (s', none) => build s' r
    | (s', some e) => (s', some e)
  | .dict none _ :: _ => (s, some .keyError)
  | .other :: _ => (s, some .dataFormat)

/-- `self._root._tiles = TileList(self, l)`: the new list takes the place of the old one once it is complete; the former tiles keep their parent.
`/repo/draftsman/classes/blueprint.py:892, 895`. -/
def replaceTiles (s : TL) (l : List Entry) : TL × Option PyErr :=
  match build (empty true s.next) l with
  | (s', none) => ({ s' with parented := s'.parented ++ s.parented }, none)
  | (s', some e) => ({ s with next := s'.next }, some e)

/-- `blueprint.tiles = value`, `/repo/draftsman/classes/blueprint.py:884-895`. -/
def setTiles (s : TL) : Value → TL × Option PyErr
  | .none => (clear s, none)
  | .tiles l => replaceTiles s (l.map .tile)
  | .list l => replaceTiles s l
  | .scalar => (s, some .typeError)

end Draftsman.TileList
