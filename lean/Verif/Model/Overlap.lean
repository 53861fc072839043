import Verif.Model.SpatialHash
import Verif.Model.Direction
/-
The warnings about overlapping objects, `validate_insert` of `/repo/draftsman/classes/spatial_hashmap.py:103-171`.

Shapes and their overlap test are parameters (`/repo/draftsman/utils.py`; the tests themselves are the subject of C04 and C09).
The warning is represented by the member it names; warnings turned into exceptions are not modelled.
-/
namespace Draftsman.Overlap
open Draftsman

/-- The classes that `validate_insert` tells apart, `/repo/draftsman/classes/spatial_hashmap.py:133-153`. -/
inductive Cls where
  | straightRail | curvedRail | gate | other
  deriving DecidableEq, Repr

/-- What `validate_insert` reads of an object besides its box: `shapes` are those of `get_world_collision_set()`
(`/repo/draftsman/classes/spatial_like.py:80-91`), `mask` is `collision_mask`, absent for a name that is not known
(`/repo/draftsman/classes/entity.py:586-595`, `/repo/draftsman/classes/tile.py:230-232`). -/
structure Attr (S : Type) where
  name : String
  cls : Cls
  dir : Direction
  mask : Option (List String)
  shapes : List S
  deriving DecidableEq, Repr

/-- `isinstance(item, (StraightRail, LegacyCurvedRail))`, `/repo/draftsman/classes/spatial_hashmap.py:133-135`. -/
def Cls.isRail (c : Cls) : Bool := decide (c = .straightRail) || decide (c = .curvedRail)

/-- `identical`, `/repo/draftsman/classes/spatial_hashmap.py:136-140`. -/
def identical {S : Type} (a b : Attr S) (pa pb : Vec) : Bool :=
  decide (a.name = b.name) && decide (a.dir = b.dir) && decide (pa = pb)

/-- `parallel`, `/repo/draftsman/classes/spatial_hashmap.py:152`; directions are the integers 0 to 15. -/
def parallel (a b : Direction) : Bool := decide (((a.val : Int) - (b.val : Int)) % 4 = 0)

/-- The body of the loop after the test for merging, `/repo/draftsman/classes/spatial_hashmap.py:123-171`: whether a warning is issued.
`other_layers.intersection(item_layers)` fails for an unknown mask on either side. -/
def judge {S : Type} (ov : S → S → Bool) (a b : Attr S) (pa pb : Vec) : Except PyErr Bool :=
  match b.mask, a.mask with
  | none, _ => .error .attributeError
  | some _, none => .error .typeError
  | some lb, some la =>
    if !(lb.any fun l => decide (l ∈ la)) then .ok false
    else if (a.cls.isRail && b.cls.isRail) && !identical a b pa pb then .ok false
    else if (decide (a.cls = .straightRail ∧ b.cls = .gate) || decide (a.cls = .gate ∧ b.cls = .straightRail)) && !parallel a.dir b.dir then
      .ok false
    else .ok (collisionSetOverlaps ov a.shapes b.shapes)

/-- The loop over the overlapping items, `/repo/draftsman/classes/spatial_hashmap.py:115-171`: the members warned about, and the
exception. -/
def warnLoop {S : Type} (ov : S → S → Bool) (attr : SItem → Attr S) (merge : Bool) (mergable : SItem → SItem → Bool) (x : SItem) :
    List SItem → List SItem × Option PyErr
  | [] => ([], none)
  | y :: r =>
    if merge && mergable y x then ([], none)
    else match judge ov (attr x) (attr y) x.pos y.pos with
      | .error e => ([], some e)
      | .ok w =>
        let rest := warnLoop ov attr merge mergable x r
        (if w then y :: rest.1 else rest.1, rest.2)

/-- `validate_insert` for an entity or a tile, `/repo/draftsman/classes/spatial_hashmap.py:112-171`; an object without a box overlaps
nothing (`_cell_coords_from_aabb(None)` is empty). -/
def warnItem {S : Type} (ov : S → S → Bool) (attr : SItem → Attr S) (merge : Bool) (mergable : SItem → SItem → Bool) (cs : ℕ)
    (m : SMap) (x : SItem) : List SItem × Option PyErr :=
  match x.box with
  | none => ([], none)
  | some q => warnLoop ov attr merge mergable x (m.getInAabb cs q)

/-- The pairs (object inserted, member warned about), in the order of the warnings issued at
`/repo/draftsman/classes/spatial_hashmap.py:159-171`, and the exception. -/
abbrev Warns := List (SItem × SItem) × Option PyErr

/-- One warning or failure after another.  `/repo/draftsman/classes/spatial_hashmap.py:110-111`. -/
def Warns.andThen (a : Warns) (b : Warns) : Warns :=
  match a.2 with
  | some e => (a.1, some e)
  | none => (a.1 ++ b.1, b.2)

mutual
/-- `validate_insert`, `/repo/draftsman/classes/spatial_hashmap.py:103-171`; the map does not change. -/
def validateInsert {S : Type} (ov : S → S → Bool) (attr : SItem → Attr S) (merge : Bool) (mergable : SItem → SItem → Bool) (cs : ℕ)
    (m : SMap) : STree → Warns
  | .leaf x => let r := warnItem ov attr merge mergable cs m x; (r.1.map fun y => (x, y), r.2)
  | .group l => validateAll ov attr merge mergable cs m l
/-- The loop over `item.entities`, `/repo/draftsman/classes/spatial_hashmap.py:110-111`. -/
def validateAll {S : Type} (ov : S → S → Bool) (attr : SItem → Attr S) (merge : Bool) (mergable : SItem → SItem → Bool) (cs : ℕ)
    (m : SMap) : List STree → Warns
  | [] => ([], none)
  | t :: r => (validateInsert ov attr merge mergable cs m t).andThen (validateAll ov attr merge mergable cs m r)
end

/-- A collision mask as it comes out of the game's data: a list of layers (version 1.1) or a table whose entry `layers` has the
layers as keys (version 2.0).  `/repo/draftsman/environment/update.py:977-981` and `:1650`. -/
inductive RawMask where
  | list (layers : List String)
  | table (entries : List (String × List String))

/-- `set(collision_mask)` as made when the data are extracted, `/repo/draftsman/environment/update.py:981` and `:1650`: the elements of a
list, the keys of a table. -/
def RawMask.toSet : RawMask → List String
  | .list l => l
  | .table t => t.map (·.1)

end Draftsman.Overlap
