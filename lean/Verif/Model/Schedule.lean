import Verif.Model.WaitCond
import Verif.Model.EntityList
/-
`Schedule`: `/repo/draftsman/classes/schedule.py:404-722`.

Locomotives are `Association`s, equal exactly when they point at the same object (`/repo/draftsman/classes/association.py:34-56`); stops are
station and conditions (what pydantic does when the record is built is left out).
-/
namespace Draftsman
namespace Schedule

open Wait (WC)

/-- A stop, `/repo/draftsman/classes/schedule.py:413-423`; conditions are compared by value (343-350, 379-387). -/
structure Stop where
  station : String
  conds : List WC
  deriving DecidableEq, Repr

/-- `locomotives` and `stops`, `/repo/draftsman/classes/schedule.py:508-538`. -/
structure S where
  locos : List Nat
  stops : List Stop
  deriving DecidableEq, Repr

/-- The argument `wait_conditions`: nothing, one condition or several.  `/repo/draftsman/classes/schedule.py:573-600`. -/
inductive CondArg where
  | none
  | one (c : WC)
  | many (cs : List WC)

/-- `add_locomotive`, `/repo/draftsman/classes/schedule.py:542-558`; `isLoco` is the outcome of the `isinstance` check. -/
def addLocomotive (isLoco : Nat → Bool) (s : S) (l : Nat) : S × Option PyErr :=
  if !isLoco l then (s, some .typeError)
  else if l ∈ s.locos then (s, none)
  else ({ s with locos := s.locos ++ [l] }, none)

/-- `remove_locomotive`, `/repo/draftsman/classes/schedule.py:560-571`. -/
def removeLocomotive (s : S) (l : Nat) : S × Option PyErr :=
  if l ∈ s.locos then ({ s with locos := s.locos.erase l }, none) else (s, some .valueError)

/-- `insert_stop`, `/repo/draftsman/classes/schedule.py:585-609`. -/
def insertStop (s : S) (i : Int) (name : String) (w : CondArg) : S × Option PyErr :=
  let cs := match w with
    | .none => []
    | .one c => [c]
    | .many cs => cs
  ({ s with stops := EList.pyInsert s.stops i ⟨name, cs⟩ }, none)

/-- `append_stop`, `/repo/draftsman/classes/schedule.py:573-583`. -/
def appendStop (s : S) (name : String) (w : CondArg) : S × Option PyErr := insertStop s s.stops.length name w

/-- The loops of `remove_stop`: pop the first stop that passes, else `ValueError`.  `/repo/draftsman/classes/schedule.py:611-649`. -/
def popFirst (p : Stop → Bool) : List Stop → Option (List Stop)
  | [] => none
  | t :: r => if p t then some r else (popFirst p r).map (t :: ·)

/-- `remove_stop`, `/repo/draftsman/classes/schedule.py:611-649`. -/
def removeStop (s : S) (name : String) (w : CondArg) : S × Option PyErr :=
  let p : Stop → Bool := match w with
    | .none => fun t => decide (t.station = name)
    | .one c => fun t => decide (t.station = name) && decide (t.conds = [c])
    | .many cs => fun t => decide (t.station = name) && decide (t.conds = cs)
  match popFirst p s.stops with
  | some r => ({ s with stops := r }, none)
  | none => (s, some .valueError)

/-- A call on a schedule.  Part of the model only: the methods are `/repo/draftsman/classes/schedule.py:542-649`. -/
inductive Op where
  | addLoco (l : Nat)
  | removeLoco (l : Nat)
  | insert (i : Int) (name : String) (w : CondArg)
  | append (name : String) (w : CondArg)
  | remove (name : String) (w : CondArg)

/-- Make the call.  Part of the model only: the methods are `/repo/draftsman/classes/schedule.py:542-649`. -/
def Op.run (isLoco : Nat → Bool) (s : S) : Op → S × Option PyErr
  | .addLoco l => addLocomotive isLoco s l
  | .removeLoco l => removeLocomotive s l
  | .insert i n w => insertStop s i n w
  | .append n w => appendStop s n w
  | .remove n w => removeStop s n w

end Schedule
end Draftsman
