import Verif.Model.Py
import Verif.Model.Geometry
/-
Groups: parents, global positions and flattening.

Objects live in a heap indexed by numbers.  The Python recursions follow parents or children; they are given a step bound
(`fuel`), and the theorems hold for every bound above the depth of the structure.
-/
namespace Draftsman

/-- Whether an object is an `Entity`, a `Group`, or a `Blueprint` (the only one without `global_position`).  `/repo/draftsman/classes/entity.py:536-555`, `/repo/draftsman/classes/group.py:360-372`. -/
inductive GKind where
  | entity | group | blueprint
  deriving DecidableEq, Repr

/-- The attributes of an object used here: `_parent`, `position`, and the `_root` of its `entities`.  `/repo/draftsman/classes/entity_like.py:17-60`, `/repo/draftsman/classes/group.py:341-460`. -/
structure GNode where
  kind : GKind
  pos : Vec
  parent : Option Nat
  children : List Nat
  deriving DecidableEq, Repr

/-- The objects, by identity (Python references). -/
abbrev GHeap := Nat → GNode

namespace GHeap

/-- `Entity.global_position`, `/repo/draftsman/classes/entity.py:536-555`, and `Group.global_position`,
`/repo/draftsman/classes/group.py:360-372`. -/
def globalPos (h : GHeap) : Nat → Nat → Vec
  | 0, u => (h u).pos
  | n + 1, u =>
    match (h u).parent with
    | none => (h u).pos
    | some p => if (h p).kind = .blueprint then (h u).pos else globalPos h n p + (h u).pos

/-- `flatten_entities`, `/repo/draftsman/utils.py:811-827`, with `EntityLike.get`,
`/repo/draftsman/classes/entity_like.py:186-198`, and `Group.get`, `/repo/draftsman/classes/group.py:505-514`: a group yields its
flattened children, which are flattened again. -/
def flatten (h : GHeap) : Nat → List Nat → List Nat
  | 0, _ => []
  | n + 1, us => us.flatMap fun u =>
      if (h u).kind = .entity then [u] else flatten h n (flatten h n (h u).children)

/-- `EntityList.append(…, copy=False)` as far as parents go, `/repo/draftsman/classes/entity_list.py:319-327`. -/
def attach (h : GHeap) (c u : Nat) : GHeap := fun v =>
  if v = u then { h u with parent := some c, children := if u = c then (h c).children ++ [u] else (h u).children }
  else if v = c then { h c with children := (h c).children ++ [u] }
  else h v

/-- `EntityList.__delitem__` as far as parents go, `/repo/draftsman/classes/entity_list.py:604-607`: `_parent` is not reset. -/
def detach (h : GHeap) (c : Nat) (i : Nat) : GHeap := fun v =>
  if v = c then { h c with children := (h c).children.eraseIdx i } else h v

/-- The position setters, `/repo/draftsman/classes/group.py:341-348`, `/repo/draftsman/classes/entity.py:477-490` (values only:
a group stores the very vector passed in). -/
def setPos (h : GHeap) (u : Nat) (p : Vec) : Except PyErr GHeap :=
  if (h u).parent.isSome then .error .draftsmanError
  else .ok fun v => if v = u then { h u with pos := p } else h v

end GHeap
end Draftsman
