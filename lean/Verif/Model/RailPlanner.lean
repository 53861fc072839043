import Verif.Model.Direction
/-
Building a `RailPlanner` (`/repo/draftsman/classes/rail_planner.py:24-48`).

What comes before it, `Group.__init__` (`/repo/draftsman/classes/group.py:82-146`) and the reading of a position (`Vector.update_from_other`,
`/repo/draftsman/classes/vector.py:93-110`), is given by its result.  The methods of the class (`/repo/draftsman/classes/rail_planner.py:106-577`) are
not modelled: C98 shows that there is no object to call them on.
-/
namespace Draftsman
namespace RailPlanner

/-- What is read of an item: `/repo/draftsman/classes/rail_planner.py:35-40`. -/
structure Item where
  type : Option String
  straight : Option String
  curved : Option String
  deriving DecidableEq

/-- A call with one keyword argument of a method that has the parameters given.  Python's own rule, used at
`/repo/draftsman/classes/rail_planner.py:88`. -/
def keyword {α : Type} (params : List String) (name : String) (body : Except PyErr α) : Except PyErr α :=
  if name ∈ params then body else .error .typeError

/-- The parameters of `Direction.next`: `/repo/draftsman/constants.py:63`. -/
def nextParams : List String := ["four_way"]

/-- The planner as far as the constructor fills it: `/repo/draftsman/classes/rail_planner.py:35-48`. -/
structure Planner where
  name : String
  straight : String
  curved : String
  head : Int × Int
  headDirection : Direction
  direction : Direction
  diagonalSide : Nat
  deriving DecidableEq

/-- The setter of `head_direction`, `/repo/draftsman/classes/rail_planner.py:85-88`: what `_head_direction` and `_direction` are set to. -/
def setHeadDirection (v : Int) : Except PyErr (Direction × Direction) := do
  let d ← Direction.mk? v
  let n ← keyword nextParams "eight_way" (.ok (Direction.next d false))
  .ok (d, n)

/-- `items.raw[name][key]`: `/repo/draftsman/classes/rail_planner.py:35-40`. -/
def key (o : Option String) : Except PyErr String := match o with
  | some s => .ok s
  | none => .error .keyError

/-- `RailPlanner.__init__`, `/repo/draftsman/classes/rail_planner.py:24-48`. -/
def init (raw : String → Option Item) (group : Except PyErr Unit) (name : String) (head : Except PyErr (Int × Int)) (direction : Int) :
    Except PyErr Planner := do
  group
  let it ← match raw name with
    | some it => do
      if (← key it.type) = "rail-planner" then .ok it else .error .draftsmanError
    | none => .error .draftsmanError
  let straight ← key it.straight
  let curved ← key it.curved
  let head ← head
  let (d, n) ← setHeadDirection direction
  .ok ⟨name, straight, curved, head, d, n, 0⟩

end RailPlanner
end Draftsman
