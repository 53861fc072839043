import Verif.Model.Py
/-
Wait conditions and stops as dictionaries: `/repo/draftsman/classes/schedule.py:60-170` (format and constructor of `WaitCondition`), 356-401
(`WaitConditions`), 404-460 (formats of `Schedule`) and `Exportable.to_dict`, `/repo/draftsman/classes/exportable.py:319-334`.

Simplified: what a condition compares is a value of any type `C`, with `c0` for `Condition()`; it is taken to come back from its own dictionary as it
was.  Values are those after conversion by pydantic (texts to members of enumerations, which equal the texts).  Taken from pydantic: a default is
neither validated nor converted.
-/
namespace Draftsman
namespace Stops

/-- A `WaitCondition`: `/repo/draftsman/classes/schedule.py:60-95`. -/
structure Wait (C : Type) where
  type : String
  cmp : String
  ticks : Option Nat
  condition : Option C
  deriving DecidableEq

/-- The dictionary of one; `none` for a key that is missing, or for `ticks` and `condition` also one with `None`.
`/repo/draftsman/classes/schedule.py:60-95`. -/
structure WaitDict (C : Type) where
  type : String
  cmp : Option String
  ticks : Option Nat
  condition : Option C
  deriving DecidableEq

/-- The kinds that wait for a condition, `/repo/draftsman/classes/schedule.py:148-152` with `/repo/draftsman/constants.py:729-775`. -/
def comparing : List String := ["item_count", "fluid_count", "circuit"]

/-- `WaitCondition.__init__`, `/repo/draftsman/classes/schedule.py:103-170`; `valid` is what `validate` finds (`validate` is not `"none"`).
`30 * Ticks.SECOND` and `5 * Ticks.SECOND` by `/repo/draftsman/constants.py:685-700`. -/
def make {C : Type} (valid : Wait C → Bool) (c0 : C) (type cmp : String) (ticks : Option Nat) (condition : Option C) : Except PyErr (Wait C) :=
  let ticks := if type = "time" ∧ ticks = none then some (30 * 60) else if type = "inactivity" ∧ ticks = none then some (5 * 60) else ticks
  let condition := if type ∈ comparing then some (condition.getD c0) else condition
  let w : Wait C := ⟨type, cmp, ticks, condition⟩
  if valid w then .ok w else .error .dataFormat

/-- `WaitCondition(**d)`, `/repo/draftsman/classes/schedule.py:369`. -/
def ofDict {C : Type} (valid : Wait C → Bool) (c0 : C) (d : WaitDict C) : Except PyErr (Wait C) :=
  make valid c0 d.type (d.cmp.getD "or") d.ticks d.condition

/-- `WaitCondition.to_dict`, `/repo/draftsman/classes/exportable.py:319-334`: what is `None` or the default of the format
(`/repo/draftsman/classes/schedule.py:64-95`) is left out. -/
def toDict {C : Type} [DecidableEq C] (c0 : C) (w : Wait C) : WaitDict C where
  type := w.type
  cmp := if w.cmp = "or" then none else some w.cmp
  ticks := w.ticks
  condition := if w.condition = some c0 then none else w.condition

/-- An element of the list given to `WaitConditions`: an object or a dictionary.  `/repo/draftsman/classes/schedule.py:366-369`. -/
inductive Item (C : Type) where
  | obj (w : Wait C)
  | dict (d : WaitDict C)
  deriving DecidableEq

/-- `WaitConditions.__init__`, `/repo/draftsman/classes/schedule.py:363-371`: the list given is changed in place and kept.  The list afterwards, and
the exception if there is one. -/
def initWaits {C : Type} (valid : Wait C → Bool) (c0 : C) : List (Item C) → List (Item C) × Option PyErr
  | [] => ([], none)
  | .obj w :: r => ((.obj w) :: (initWaits valid c0 r).1, (initWaits valid c0 r).2)
  | .dict d :: r => match ofDict valid c0 d with
    | .ok w => ((.obj w) :: (initWaits valid c0 r).1, (initWaits valid c0 r).2)
    | .error e => (.dict d :: r, some e)

/-- What a stop has under `wait_conditions`: a `WaitConditions`, or the default of the format, which is a plain empty list.
`/repo/draftsman/classes/schedule.py:413-423`. -/
inductive Waits (C : Type) where
  | objs (l : List (Wait C))
  | plain
  deriving DecidableEq

/-- `Stop`, `/repo/draftsman/classes/schedule.py:413-443`.  Two stops are equal just if these are: `WaitConditions.__eq__` is false of a list
(`/repo/draftsman/classes/schedule.py:379-387`). -/
structure Stop (C : Type) where
  station : String
  waits : Waits C
  deriving DecidableEq

/-- The dictionary of a stop. `/repo/draftsman/classes/schedule.py:413-443`. -/
structure StopDict (C : Type) where
  station : String
  waits : Option (List (WaitDict C))
  deriving DecidableEq

/-- Reading a stop, `/repo/draftsman/classes/schedule.py:413-431`: the validator makes a `WaitConditions` of a list, but does not see the default. -/
def stopOfDict {C : Type} (valid : Wait C → Bool) (c0 : C) (d : StopDict C) : Except PyErr (Stop C) :=
  match d.waits with
  | none => .ok ⟨d.station, .plain⟩
  | some l => do
    let ws ← l.mapM (ofDict valid c0)
    .ok ⟨d.station, .objs ws⟩

/-- Exporting a stop, `/repo/draftsman/classes/schedule.py:441-443`: `value.to_dict()`, which a list does not have.  Pydantic makes a
`PydanticSerializationError`, a `ValueError`, of the `AttributeError`.  With `skip` the default is left out before the serializer is asked; whether
that is so is up to pydantic. -/
def stopToDict {C : Type} [DecidableEq C] (skip : Bool) (c0 : C) (s : Stop C) : Except PyErr (StopDict C) :=
  match s.waits with
  | .objs l => .ok ⟨s.station, some (l.map (toDict c0))⟩
  | .plain => if skip then .ok ⟨s.station, none⟩ else .error .valueError

/-- The stops of `Schedule(**d)`, `/repo/draftsman/classes/schedule.py:466-506`; `none` if `d` has no `"schedule"` or that no `"records"`. -/
def stopsOfDict {C : Type} (valid : Wait C → Bool) (c0 : C) (d : Option (List (StopDict C))) : Except PyErr (List (Stop C)) :=
  (d.getD []).mapM (stopOfDict valid c0)

/-- The stops of `Schedule.to_dict()`: an empty list is the default and left out, `/repo/draftsman/classes/schedule.py:445-464`. -/
def stopsToDict {C : Type} [DecidableEq C] (skip : Bool) (c0 : C) (l : List (Stop C)) : Except PyErr (Option (List (StopDict C))) := do
  let ds ← l.mapM (stopToDict skip c0)
  .ok (if ds = [] then none else some ds)

/-- `append_stop`, `/repo/draftsman/classes/schedule.py:573-609`. -/
def appendStop {C : Type} (l : List (Stop C)) (station : String) (waits : List (Wait C)) : List (Stop C) := l ++ [⟨station, .objs waits⟩]

end Stops
end Draftsman
