import Verif.Model.EntityList
/-
Union, intersection and difference of entity lists (`/repo/draftsman/classes/entity_list.py:410-463`) and of tile lists
(`/repo/draftsman/classes/tile_list.py:187-240`).  The loops are the same; `eq a b` is Python's `a == b`.  The appended
values are copies; spatial maps and warnings are left out.
-/
namespace Draftsman
namespace SetAlg
variable {α : Type}

/-- `flag = False; for x in l: if p(x): flag = True; break`, `/repo/draftsman/classes/entity_list.py:421-425`. -/
def flag (p : α → Bool) : List α → Bool
  | [] => false
  | x :: r => if p x then true else flag p r

/-- The values appended by the second loop of `union`, `/repo/draftsman/classes/entity_list.py:420-427`. -/
def unionTail (eq : α → α → Bool) (l : List α) : List α → List α
  | [] => []
  | y :: r => if flag (fun x => eq x y) l then unionTail eq l r else y :: unionTail eq l r

/-- The values appended by `union`, `/repo/draftsman/classes/entity_list.py:410-429`, `/repo/draftsman/classes/tile_list.py:187-206`. -/
def union (eq : α → α → Bool) (l r : List α) : List α := l ++ unionTail eq l r

/-- The values appended by `intersection`, `/repo/draftsman/classes/entity_list.py:431-446`,
`/repo/draftsman/classes/tile_list.py:208-223`. -/
def inter (eq : α → α → Bool) : List α → List α → List α
  | [], _ => []
  | x :: l, r => if flag (fun y => eq y x) r then x :: inter eq l r else inter eq l r

/-- The values appended by `difference`, `/repo/draftsman/classes/entity_list.py:448-463`,
`/repo/draftsman/classes/tile_list.py:225-240`. -/
def diff (eq : α → α → Bool) : List α → List α → List α
  | [], _ => []
  | x :: l, r => if flag (fun y => eq y x) r then diff eq l r else x :: diff eq l r

end SetAlg

/-- A tile, as far as `Tile.__eq__` looks, `/repo/draftsman/classes/tile.py:297-302`. -/
structure TileV where
  name : String
  x : Int
  y : Int
  deriving DecidableEq, Repr

/-- `Tile.__eq__`, `/repo/draftsman/classes/tile.py:297-302`. -/
def TileV.eqv (a b : TileV) : Bool := decide (a.name = b.name) && (decide (a.x = b.x) && decide (a.y = b.y))

namespace EList

/-- The copies made by successive `append` calls, numbered from `n`.  `/repo/draftsman/classes/entity_list.py:410-463`. -/
def copies (n : Nat) : List EL → List EL
  | [] => []
  | e :: r => { e with uid := n } :: copies (n + 1) r

/-- `union`, `/repo/draftsman/classes/entity_list.py:410-429`, with the id check of each `append`. -/
def union (l r : EList) : Out := empty.extend (copies 0 (SetAlg.union EL.eqv l.root r.root))

/-- `intersection`, `/repo/draftsman/classes/entity_list.py:431-446`. -/
def inter (l r : EList) : Out := empty.extend (copies 0 (SetAlg.inter EL.eqv l.root r.root))

/-- `difference`, `/repo/draftsman/classes/entity_list.py:448-463`. -/
def diff (l r : EList) : Out := empty.extend (copies 0 (SetAlg.diff EL.eqv l.root r.root))

end EList
end Draftsman
