import Verif.Model.Checks
/-
Entities bound to the double grid (rails, train stops) in blueprints with groups of any depth: which collections count as bound to it, what
`translate` warns about and where the members are afterwards.

Positions of entities are given as tile positions, that is as the whole tile to the top left of the entity; groups can be anywhere.
-/
namespace Draftsman
namespace Grid

/-- The members of a collection, one after the other: an entity with its tile position within the collection and whether its class is bound to
the double grid (`/repo/draftsman/classes/entity_like.py:95-97`, `/repo/draftsman/classes/mixins/double_grid_aligned.py:48-50`), or a group with its
position and its own members (`/repo/draftsman/classes/group.py:334-349, 432-444`). -/
inductive Members where
  | nil
  | entity (bound : Bool) (tile : Int × Int) (rest : Members)
  | group (pos : Rat × Rat) (inner rest : Members)
  deriving DecidableEq

/-- `double_grid_aligned` of a group or blueprint, with the loop's early return: `/repo/draftsman/classes/group.py:425-430`,
`/repo/draftsman/classes/blueprint.py:980-992`. -/
def bound : Members → Bool
  | .nil => false
  | .entity b _ r => if b then true else bound r
  | .group _ i r => if bound i then true else bound r

/-- The loop of `translate` over the entities: only the members themselves are moved, groups with all that is in them.
`/repo/draftsman/classes/transformable.py:41-55`. -/
def shift (x y : Int) : Members → Members
  | .nil => .nil
  | .entity b t r => .entity b (t.1 + x, t.2 + y) (shift x y r)
  | .group p i r => .group (p.1 + x, p.2 + y) i (shift x y r)

/-- `translate`: the members afterwards, and whether the warning is issued.  `/repo/draftsman/classes/transformable.py:19-55`. -/
def translate (m : Members) (x y : Int) : Members × Bool :=
  (shift x y m, bound m && (x % 2 == 1 || y % 2 == 1))

/-- Where the entities are in the blueprint, of which the origin is at `o`; this is what is exported.
`/repo/draftsman/classes/entity.py:193-195, 536-555`, `/repo/draftsman/classes/group.py:359-372`. -/
def places (o : Rat × Rat) : Members → List (Bool × Rat × Rat)
  | .nil => []
  | .entity b t r => (b, o.1 + t.1, o.2 + t.2) :: places o r
  | .group p i r => places (o.1 + p.1, o.2 + p.2) i ++ places o r

/-- What the check of positions (`gridAligned`) says of the entities when they are validated one by one: it looks at the tile position within
the group.  `/repo/draftsman/classes/mixins/double_grid_aligned.py:21-45`. -/
def complaints (ctx : Checks.Ctx) : Members → List (List Checks.Warn)
  | .nil => []
  | .entity b t r => (if b then Checks.gridAligned ctx t else []) :: complaints ctx r
  | .group _ i r => complaints ctx i ++ complaints ctx r

end Grid
end Draftsman
