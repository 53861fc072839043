import Mathlib.Algebra.Order.Field.Rat
import Mathlib.Algebra.Order.Floor.Ring
import Mathlib.Data.Rat.Floor
import Verif.Model.Direction
import Verif.Model.Geometry
/-
Position, tile position, footprint and direction of one entity: `/repo/draftsman/classes/entity.py`,
`/repo/draftsman/classes/mixins/directional.py`, `/repo/draftsman/classes/mixins/eight_way_directional.py:142-189`.
-/
namespace Draftsman

/-- How an entity-like object treats directions: no direction at all (`EntityLike.rotatable` is `False`,
`/repo/draftsman/classes/entity_like.py:105-114`), `DirectionalMixin`, `EightWayDirectionalMixin`, or a
`Group` (`EntityCollection.rotatable` is `True`, `/repo/draftsman/classes/collection.py:80-87`, but a group
has no `direction` attribute). -/
inductive Turning where
  | fixed | fourWay | eightWay | group
  deriving DecidableEq, Repr

/-- The part of an entity the setters below work on.  `dir` is `_root.direction` (any integer when assignment
is not validated), `pos`/`tile` are `_root._position`/`_root._tile_position`, `w`/`h` are `_tile_width`/
`_tile_height` and `sw`/`sh` the `_static_` ones (`/repo/draftsman/classes/mixins/directional.py:92-94`).
`held` records that `_parent` is set. A group has no tile position or size; those fields are unused. -/
@[ext] structure PEnt where
  turning : Turning
  mode : ValidationMode
  sw : ℕ
  sh : ℕ
  w : ℕ
  h : ℕ
  dir : Option Int
  pos : Vec
  tile : Vec
  held : Bool
  doubleGrid : Bool
  flippable : Bool
  deriving DecidableEq, Repr

/-- The two ways to pass a position: a `Vector`, taken as it is, or a tuple/list/dict, whose members are
converted (`/repo/draftsman/classes/vector.py:93-110`). -/
inductive PosArg where
  | vector (v : Vec)
  | tuple (x y : ℚ)
  deriving DecidableEq, Repr

/-- Python's `int(x)` of a number: rounds toward zero. -/
def pyTrunc (q : ℚ) : ℤ := if 0 ≤ q then ⌊q⌋ else ⌈q⌉

/-- `Vector.update_from_other(value, float)`, `/repo/draftsman/classes/vector.py:93-110`. -/
def PosArg.toFloat : PosArg → Vec
  | .vector v => v
  | .tuple x y => ⟨x, y⟩

/-- `Vector.update_from_other(value, int)`, `/repo/draftsman/classes/vector.py:93-110`. -/
def PosArg.toInt : PosArg → Vec
  | .vector v => v
  | .tuple x y => ⟨pyTrunc x, pyTrunc y⟩

namespace PEnt

/-- `Entity.position` setter, `/repo/draftsman/classes/entity.py:477-490`, and for groups
`/repo/draftsman/classes/group.py:341-348`. -/
def setPosition (e : PEnt) (v : PosArg) : Except PyErr PEnt :=
  if e.held then .error .draftsmanError
  else match e.turning with
    | .group => .ok { e with pos := v.toFloat }
    | _ =>
      let p := v.toFloat
      .ok { e with pos := p, tile := ⟨pyRound (p.x - e.w / 2), pyRound (p.y - e.h / 2)⟩ }

/-- `Entity.tile_position` setter, `/repo/draftsman/classes/entity.py:519-532`. -/
def setTilePosition (e : PEnt) (v : PosArg) : PEnt :=
  let t := v.toInt
  { e with tile := t, pos := ⟨t.x + e.w / 2, t.y + e.h / 2⟩ }

/-- The value stored by assigning `value` to the field `direction`: `attempt_and_reissue`
(`/repo/draftsman/classes/exportable.py:14-44`) with the field type `Optional[Direction]`, followed for
four-way entities by `ensure_4_way` (`/repo/draftsman/classes/mixins/directional.py:48-73`), which computes
`int(None / 4)` on `None`.  Unvalidated assignment stores the value as it is. -/
def checkDirection (t : Turning) (m : ValidationMode) (value : Option Int) : Except PyErr (Option Int) :=
  if m.truthy then
    match value with
    | none =>
      if t = .fourWay ∧ ¬ (m.le .minimum = true) then .error .typeError else .ok none
    | some v =>
      if 0 ≤ v ∧ v < 16 then
        if t = .fourWay ∧ ¬ (m.le .minimum = true) then .ok (some (v / 4 * 4)) else .ok (some v)
      else .error .dataFormat
  else .ok value

/-- `DirectionalMixin.direction` setter, `/repo/draftsman/classes/mixins/directional.py:199-235`.  The
footprint is chosen from the raw argument, not from the stored direction. -/
def setDirection4 (e : PEnt) (value : Option Int) : Except PyErr PEnt := do
  let d ← checkDirection .fourWay e.mode value
  let swap := value = some 4 ∨ value = some 12
  let nw := if swap then e.sh else e.sw
  let nh := if swap then e.sw else e.sh
  let e' := { e with dir := d, w := nw, h := nh }
  if nw ≠ nh ∧ e.w ≠ nw ∧ e.h ≠ nh then
    return e'.setTilePosition (.vector e'.tile)
  else return e'

/-- `EightWayDirectionalMixin.direction` setter,
`/repo/draftsman/classes/mixins/eight_way_directional.py:142-192`. -/
def setDirection8 (e : PEnt) (value : Option Int) : Except PyErr PEnt := do
  let d ← checkDirection .eightWay e.mode value
  let swap := d = some 2 ∨ d = some 3 ∨ d = some 6 ∨ d = some 7
  let e' := { e with
    dir := d
    w := if swap then e.sh else e.sw
    h := if swap then e.sw else e.sh }
  return e'.setTilePosition (.vector e'.tile)

/-- Assigning `direction`, by kind of entity. Reading or writing it on a group is an `AttributeError`.  `/repo/draftsman/classes/mixins/directional.py:164-260`, `/repo/draftsman/classes/mixins/eight_way_directional.py:142-189`. -/
def setDirection (e : PEnt) (value : Option Int) : Except PyErr PEnt :=
  match e.turning with
  | .fourWay => e.setDirection4 value
  | .eightWay => e.setDirection8 value
  | _ => .error .attributeError

end PEnt
end Draftsman
