import Verif.Model.Py
/-
The constructor of `Group` and the setters of its attributes, `/repo/draftsman/classes/group.py:82-501`.  Simplified: the entities are left out (`SetEntities`,
`Import`), and what the parts that are modelled elsewhere make of a value is a function given from outside (`Env`): the positions, the schedule lists, the
validation modes, the loading of strings, and the keys of the list that the group is in.
-/
namespace Draftsman
namespace GroupAttr

/-- Kinds of objects that the setters tell apart.  `/repo/draftsman/classes/group.py:414-421, 478-485`. -/
inductive Kind where
  | set | schedules | list | vector | other
  deriving DecidableEq, Repr

/-- A value: `None`, a text, or an object with an identity.  Objects 0 to 2 are those that a setter makes itself.
`/repo/draftsman/classes/group.py:254-501`. -/
inductive Val where
  | none
  | text (s : String)
  | obj (k : Kind) (n : Nat)
  deriving DecidableEq, Repr

/-- The attributes that can be assigned, and a read-only one (`global_position`, `collision_set`, `parent` and the like).
`/repo/draftsman/classes/group.py:233-501`. -/
inductive Attr where
  | id | name | type | position | mask | schedules | wires | readOnly
  deriving DecidableEq, Repr

/-- The hidden attributes; `none` is one that was never set.  `/repo/draftsman/classes/group.py:117-145, 209-229`. -/
abbrev Grp := Attr → Option Val

/-- What the other parts of the library make of a value.  `toVec` is `Vector.from_other`, `/repo/draftsman/classes/vector.py:54-77`; `toScheds` is
`ScheduleList(value)`, `/repo/draftsman/classes/schedule_list.py:18-36`; `mode` is `ValidationMode(value)`, `/repo/draftsman/classes/exportable.py:262-266`;
`load` is what a string holds under `schedules` and `wires`, `/repo/draftsman/classes/group.py:162-206`; `rekey` is what the list of the parent says to a
new id, `/repo/draftsman/classes/group.py:311-314`. -/
structure Env where
  toVec : Val → Except PyErr Val
  toScheds : Val → Except PyErr Val
  mode : Val → Except PyErr Unit
  load : Val → Except PyErr (Option Val × Option Val)
  rekey : Option Val → Val → Option PyErr

/-- `self._a = v`.  Python attribute assignment, `/repo/draftsman/classes/group.py:256`. -/
def put (g : Grp) (a : Attr) (v : Val) : Grp := fun b => if b = a then some v else g b

/-- Reading an attribute: what was never set is an `AttributeError`.  `/repo/draftsman/classes/group.py:233-494`. -/
def get (g : Grp) (a : Attr) : Except PyErr Val :=
  match g a with
  | some v => .ok v
  | none => .error .attributeError

/-- The setters, `/repo/draftsman/classes/group.py:254-258` (name), `284-288` (type), `305-316` (id), `341-348` (position), `414-421` (collision mask), `478-485`
(schedules), `496-501` (wires); `inside` is whether the group has a parent.  Assigning to a property without setter is an `AttributeError`. -/
def assign (env : Env) (inside : Bool) (g : Grp) (a : Attr) (v : Val) : Grp × Option PyErr :=
  match a with
  | .name => match v with
    | .text _ => (put g .name v, none)
    | _ => (g, some .typeError)
  | .type => match v with
    | .text _ => (put g .type v, none)
    | _ => (g, some .typeError)
  | .id => match v with
    | .obj _ _ => (g, some .typeError)
    | _ => (put g .id v, if inside then env.rekey (g .id) v else none)
  | .position =>
    if inside then (g, some .draftsmanError)
    else match env.toVec v with
      | .ok w => (put g .position w, none)
      | .error e => (g, some e)
  | .mask => match v with
    | .none => (put g .mask (.obj .set 0), none)
    | .obj .set _ => (put g .mask v, none)
    | _ => (g, some .typeError)
  | .schedules => match v with
    | .none => (put g .schedules (.obj .schedules 1), none)
    | .obj .schedules _ => (put g .schedules v, none)
    | _ => match env.toScheds v with
      | .ok w => (put g .schedules w, none)
      | .error e => (g, some e)
  | .wires => match v with
    | .none => (put g .wires (.obj .list 2), none)
    | _ => (put g .wires v, none)
  | .readOnly => (g, some .attributeError)

/-- The arguments of the constructor other than the entities.  `/repo/draftsman/classes/group.py:82-96`. -/
structure Args where
  id : Val := .none
  name : Val := .text "group"
  type : Val := .text "group"
  position : Val
  schedules : Val
  wires : Val := .none
  string : Val := .none
  mode : Val := .text "strict"

/-- One step of the constructor, which ends at the first exception.  `/repo/draftsman/classes/group.py:117-145`. -/
def step (env : Env) (r : Except PyErr Grp) (a : Attr) (v : Val) : Except PyErr Grp :=
  match r with
  | .error e => .error e
  | .ok g => match assign env false g a v with
    | (g', none) => .ok g'
    | (_, some e) => .error e

/-- `setup(**kwargs)`: schedules by the list's own constructor, wires as they are, if they are given.  `/repo/draftsman/classes/group.py:209-229`. -/
def setup (env : Env) (r : Except PyErr Grp) (scheds wires : Option Val) : Except PyErr Grp :=
  match r with
  | .error e => .error e
  | .ok g =>
    match (match scheds with
      | some v => env.toScheds v
      | none => .ok (.obj .schedules 1)) with
    | .error e => .error e
    | .ok s => .ok (match wires with
      | some w => put (put g .schedules s) .wires w
      | none => put g .schedules s)

/-- `Group(…)`: the mode, the id, the name, the type, the mask, what is in it, and the position last.  `/repo/draftsman/classes/group.py:117-145`. -/
def construct (env : Env) (x : Args) : Except PyErr Grp :=
  match env.mode x.mode with
  | .error e => .error e
  | .ok _ =>
    let g := step env (step env (step env (step env (.ok fun _ => none) .id x.id) .name x.name) .type x.type) .mask .none
    let g := match g with
      | .error e => .error e
      | .ok g =>
        if x.string ≠ .none then
          match env.load x.string with
          | .error e => .error e
          | .ok (s, w) => setup env (.ok g) s w
        else setup env (.ok g) (some x.schedules) (some (if x.wires = .none then .obj .list 2 else x.wires))
    step env g .position x.position

/-- One assignment of a program, and whether the group is inside another then.  `/repo/draftsman/classes/group.py:254-501`. -/
structure Asg where
  inside : Bool
  attr : Attr
  value : Val

/-- A program of assignments that catches their exceptions.  `/repo/draftsman/classes/group.py:254-501`. -/
def after (env : Env) : List Asg → Grp → Grp
  | [], g => g
  | x :: l, g => after env l (assign env x.inside g x.attr x.value).1

end GroupAttr
end Draftsman
