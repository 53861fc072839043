import Verif.Model.Search
/-
What a caller can give as the area of a search: `AABB.from_other` (`/repo/draftsman/utils.py:107-121`) and its uses in `find_entities`, `find_entities_filtered` and
`find_tiles_filtered` (`/repo/draftsman/classes/collection.py:181-203, 303-308, 1797-1805`).  Simplified: keys of mappings are whole numbers, and boxes hold numbers.
-/
namespace Draftsman
namespace AreaArg

/-- A value given as an area: `None`, a number, a text, a list or tuple, a mapping, a box.  `/repo/draftsman/utils.py:108-121, 253`. -/
inductive Arg where
  | none
  | num (q : ℚ)
  | text (s : List Char)
  | seq (l : List Arg)
  | dict (l : List (Int × Arg))
  | box (b : AABB)

/-- `aabb[i]` for `i` from 0 (Python built-in), `/repo/draftsman/utils.py:119`. -/
def item (v : Arg) (i : ℕ) : Except PyErr Arg :=
  match v with
  | .seq l => match l[i]? with
    | some x => .ok x
    | none => .error .indexError
  | .text s => match s[i]? with
    | some c => .ok (.text [c])
    | none => .error .indexError
  | .dict l => match l.find? (fun p => p.1 == (i : Int)) with
    | some p => .ok p.2
    | none => .error .keyError
  | _ => .error .typeError

/-- `aabb[0], aabb[1], aabb[2], aabb[3]`, `/repo/draftsman/utils.py:119`. -/
def four (v : Arg) : Except PyErr (Arg × Arg × Arg × Arg) := do
  let a ← item v 0
  let b ← item v 1
  let c ← item v 2
  let d ← item v 3
  .ok (a, b, c, d)

/-- A box as `from_other` makes it: a box that was given, or four values as they are, which the constructor does not look at.
`/repo/draftsman/utils.py:95-105, 116-121`. -/
inductive Raw where
  | given (b : AABB)
  | made (x1 y1 x2 y2 : Arg)

/-- `AABB.from_other`, `/repo/draftsman/utils.py:107-121`. -/
def fromOther (v : Arg) : Except PyErr Raw :=
  match v with
  | .box b => .ok (.given b)
  | _ => match four v with
    | .ok (a, b, c, d) => .ok (.made a b c d)
    | .error .indexError => .error .typeError
    | .error e => .error e

/-- A value in arithmetic with numbers: all but numbers are a `TypeError`.  `/repo/draftsman/classes/spatial_hashmap.py:240-243, 259-260`. -/
def number : Arg → Except PyErr ℚ
  | .num q => .ok q
  | _ => .error .typeError

/-- The box as the map reads it when it computes the cells, `/repo/draftsman/classes/spatial_hashmap.py:257-260`. -/
def solid : Raw → Except PyErr AABB
  | .given b => .ok b
  | .made a b c d => do
    let x1 ← number a
    let y1 ← number b
    let x2 ← number c
    let y2 ← number d
    .ok { topLeft := ⟨x1, y1⟩, botRight := ⟨x2, y2⟩ }

/-- The area that is searched.  `/repo/draftsman/classes/collection.py:200-203, 303-306, 1800-1803`. -/
def read (v : Arg) : Except PyErr AABB := do
  let r ← fromOther v
  solid r

/-- Whether the argument is `None`.  `/repo/draftsman/classes/collection.py:197, 303, 1800`. -/
def Arg.isNone : Arg → Bool
  | .none => true
  | _ => false

mutual
/-- `flatten_entities`, `/repo/draftsman/utils.py:811-827`: of one member. -/
def leaves : STree → List SItem
  | .leaf x => [x]
  | .group l => allLeaves l
/-- `flatten_entities`, `/repo/draftsman/utils.py:811-827`: the loop. -/
def allLeaves : List STree → List SItem
  | [] => []
  | t :: r => leaves t ++ allLeaves r
end

/-- `find_entities`, `/repo/draftsman/classes/collection.py:181-203`. -/
def find (cs : ℕ) (m : SMap) (top : List STree) (v : Arg) : Except PyErr (List STree) :=
  if v.isNone then .ok top
  else match read v with
    | .ok b => .ok ((m.getInAabb cs b).map .leaf)
    | .error e => .error e

/-- `find_entities_filtered` with an area alone, `/repo/draftsman/classes/collection.py:303-343`: the other arguments as `SArgs`, its area left out. -/
def filtered (cs : ℕ) (m : SMap) (top : List STree) (attr : SItem → SAttr) (a : SArgs) (v : Arg) : Except PyErr (List SItem) :=
  if a.position.isSome || v.isNone then .ok (findEntities { a with area := none } cs m (allLeaves top) attr)
  else match read v with
    | .ok b => .ok (findEntities { a with area := some b } cs m (allLeaves top) attr)
    | .error e => .error e

end AreaArg
end Draftsman
