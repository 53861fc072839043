import Verif.Model.Py
/-
The attributes of a `WaitCondition`: its constructor, its setters and `validate`, `/repo/draftsman/classes/schedule.py:60-289`.
Simplified: validation of one field is an arbitrary function of field and value, which may convert the value; warnings are left out (the
format of a wait condition issues none of its own), and so is the `TypeError` of a type that cannot be hashed.
-/
namespace Draftsman
namespace WaitAttr

/-- The fields, `/repo/draftsman/classes/schedule.py:61-94`. -/
inductive Field where
  | type | compareType | ticks | condition
  deriving DecidableEq, Repr

/-- All four, in the order of `/repo/draftsman/classes/schedule.py:61-94`. -/
def fields : List Field := [.type, .compareType, .ticks, .condition]

/-- A value: `None`, a text (a member of an enumeration of texts equals its text), a number, a `Condition` (0 is `Condition()`), or something else.
`/repo/draftsman/classes/schedule.py:61-94`. -/
inductive Val where
  | none
  | text (s : String)
  | num (n : Int)
  | cond (n : Nat)
  | other (n : Nat)
  deriving DecidableEq, Repr

/-- `_root`: `/repo/draftsman/classes/schedule.py:156-165`. -/
abbrev Root := Field → Val

/-- What pydantic does to the value of a field: convert or refuse it.  `/repo/draftsman/classes/schedule.py:61-94`. -/
abbrev Rules := Field → Val → Except PyErr Val

/-- The values given to the format: `ticks` and `condition` by the type if they are `None`.  `/repo/draftsman/classes/schedule.py:144-154`, with
`/repo/draftsman/constants.py:696, 761-769`. -/
def fill (args : Root) : Root
  | .ticks =>
    if args .type = .text "time" ∧ args .ticks = .none then .num (30 * 60)
    else if args .type = .text "inactivity" ∧ args .ticks = .none then .num (5 * 60)
    else args .ticks
  | .condition =>
    if args .type ∈ [Val.text "item_count", .text "fluid_count", .text "circuit"] ∧ args .condition = .none then .cond 0
    else args .condition
  | f => args f

/-- Validation with `"construction"` in the context: a value that fails is kept.  `/repo/draftsman/signatures.py:145-162`. -/
def lenient (r : Rules) (f : Field) (v : Val) : Val :=
  match r f v with
  | .ok w => w
  | .error _ => v

/-- `validate(mode, force)`: the errors found; `isNone` is whether the mode is `NONE`.  Nothing is stored.
`/repo/draftsman/classes/schedule.py:260-289`. -/
def validate (isNone force : Bool) (r : Rules) (root : Root) : List PyErr :=
  if isNone && !force then []
  else if fields.all fun f => (r f (root f)).isOk then []
  else [.dataFormat]

/-- `WaitCondition(…, validate=…)`: an error that `validate` finds is raised.  `/repo/draftsman/classes/schedule.py:103-170`. -/
def make (isNone : Bool) (r : Rules) (args : Root) : Except PyErr Root :=
  let root : Root := fun f => lenient r f (fill args f)
  match validate isNone false r root with
  | [] => .ok root
  | e :: _ => .error e

/-- `root.f = v`.  Python attribute assignment, `/repo/draftsman/classes/schedule.py:203`. -/
def put (root : Root) (f : Field) (v : Val) : Root := fun g => if g = f then v else root g

/-- The four setters, `/repo/draftsman/classes/schedule.py:195-256`; `validating` is whether `validate_assignment` is not `NONE`. -/
def assign (validating : Bool) (r : Rules) (root : Root) (f : Field) (v : Val) : Root × Option PyErr :=
  if validating then
    match r f v with
    | .ok w => (put root f w, none)
    | .error e => (root, some e)
  else (put root f v, none)

/-- One assignment of a program, and whether assignments are validated at that time.  `/repo/draftsman/classes/exportable.py:261-266`. -/
structure Asg where
  validating : Bool
  field : Field
  value : Val

/-- A program of assignments that catches their exceptions.  `/repo/draftsman/classes/schedule.py:195-256`. -/
def after (r : Rules) : List Asg → Root → Root
  | [], root => root
  | a :: l, root => after r l (assign a.validating r root a.field a.value).1

end WaitAttr
end Draftsman
