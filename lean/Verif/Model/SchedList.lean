import Verif.Model.EntityList
import Verif.Model.TileList
import Mathlib.Logic.Function.Basic
/-
`ScheduleList`, `/repo/draftsman/classes/schedule_list.py`, the methods it inherits from `collections.abc.MutableSequence`, and the
attributes `schedules` of blueprints and groups.

A schedule is its identity; what is inside one is `Model/Schedule.lean`.  A sequence stored as an element is a value: changing it later through
another reference is left out.
-/
namespace Draftsman
namespace SchedList

/-- A Python value handed to the list: a `Schedule`, a `dict`, a `MutableSequence` (`isList`: a `list`; otherwise e.g. a `ScheduleList`), or
anything else (tuples, `None`, numbers).  The cases told apart at `/repo/draftsman/classes/schedule_list.py:21-32, 38, 50-60`. -/
inductive Val (S D : Type) where
  | sched (s : S)
  | dict (d : D)
  | seq (isList : Bool) (l : List (Val S D))
  | other (n : Nat)
  deriving Repr

variable {S D : Type}

/-- `isinstance(v, Schedule)`, `/repo/draftsman/classes/schedule_list.py:25, 38, 52, 57`. -/
def Val.isSched : Val S D → Bool
  | .sched _ => true
  | _ => false

/-- The elements of `data` after a call, and the exception raised.  Part of the model only: the calls are the methods of
`/repo/draftsman/classes/schedule_list.py:34-66`. -/
abbrev Out (S D : Type) := List (Val S D) × Option PyErr

/-- `insert`, `/repo/draftsman/classes/schedule_list.py:34-41`. -/
def insert (l : List (Val S D)) (i : Int) (v : Val S D) : Out S D :=
  if v.isSched then (EList.pyInsert l i v, none) else (l, some .typeError)

/-- `append` of `MutableSequence`: `self.insert(len(self), value)`.  Python standard library; used at
`/repo/draftsman/classes/schedule_list.py:26, 28`. -/
def append (l : List (Val S D)) (v : Val S D) : Out S D := insert l l.length v

/-- The loop of `__init__`, `/repo/draftsman/classes/schedule_list.py:24-32`; `make` is `Schedule(**elem)`. -/
def fill (make : D → Except PyErr S) (data : List (Val S D)) : List (Val S D) → Except PyErr (List (Val S D))
  | [] => .ok data
  | v :: r =>
    match v with
    | .sched s => fill make (append data (.sched s)).1 r
    | .dict d => match make d with
      | .ok s => fill make (append data (.sched s)).1 r
      | .error e => .error e
    | _ => .error .dataFormat

/-- `__init__`, `/repo/draftsman/classes/schedule_list.py:16-32`. -/
def init (make : D → Except PyErr S) : Option (Val S D) → Except PyErr (List (Val S D))
  | none => .ok []
  | some (.seq true l) => fill make [] l
  | some _ => .error .typeError

/-- The checks of `__setitem__`, `/repo/draftsman/classes/schedule_list.py:50-60`. -/
def admits : Val S D → Bool
  | .seq _ l => l.all Val.isSched
  | v => v.isSched

/-- An index of `__setitem__` and `__delitem__`: `/repo/draftsman/classes/schedule_list.py:46-66`. -/
inductive Index where
  | int (i : Int)
  | slice (a b c : Option Int)
  deriving DecidableEq

/-- `data[i] = v` of Python lists, `/repo/draftsman/classes/schedule_list.py:62`. -/
def pySet {α : Type} (l : List α) (i : Int) (v : α) : List α × Option PyErr :=
  match EList.pyIndex l i with
  | some n => (l.set n v, none)
  | none => (l, some .indexError)

/-- `data[a:b:c] = vs` of Python lists, `/repo/draftsman/classes/schedule_list.py:62`; `none` for a value that cannot be iterated over.  With
step one the positions from the start to the stop (to the start if that is later) are replaced by `vs`, whatever its length; otherwise the
lengths must agree. -/
def pySetSlice {α : Type} (l : List α) (a b c : Option Int) (vs : Option (List α)) : List α × Option PyErr :=
  let c := c.getD 1
  if c = 0 then (l, some .valueError)
  else match vs with
    | none => (l, some .typeError)
    | some vs =>
      if c = 1 then
        let start := TileList.clampBound l.length 0 l.length 0 a
        let stop := TileList.clampBound l.length 0 l.length l.length b
        (l.take start.toNat ++ vs ++ l.drop (max start stop).toNat, none)
      else
        let sel := TileList.sliceRange l.length a b c
        if sel.length = vs.length then ((sel.zip vs).foldl (fun l p => l.set p.1.toNat p.2) l, none)
        else (l, some .valueError)

/-- `__setitem__`, `/repo/draftsman/classes/schedule_list.py:49-62`.  A schedule cannot be iterated over: its `__getitem__` takes attribute
names, `/repo/draftsman/classes/exportable.py:375-376`. -/
def setItem (l : List (Val S D)) (ix : Index) (v : Val S D) : Out S D :=
  if !admits v then (l, some .typeError)
  else match ix with
    | .int i => pySet l i v
    | .slice a b c => pySetSlice l a b c (match v with | .seq _ vs => some vs | _ => none)

/-- `__delitem__`, `/repo/draftsman/classes/schedule_list.py:64-65`. -/
def delItem {α : Type} (l : List α) : Index → List α × Option PyErr
  | .int i => match EList.pyIndex l i with
    | some n => (l.eraseIdx n, none)
    | none => (l, some .indexError)
  | .slice a b c =>
    if c.getD 1 = 0 then (l, some .valueError) else (TileList.dropAt (TileList.sliceRange l.length a b (c.getD 1)) l, none)

/-- `pop` of `MutableSequence`: `v = self[index]; del self[index]; return v`.  Python standard library; `__getitem__` is
`/repo/draftsman/classes/schedule_list.py:46-47`. -/
def pop (l : List (Val S D)) (i : Int) : Out S D × Option (Val S D) :=
  match EList.pyIndex l i with
  | some n => (delItem l (.int i), l[n]?)
  | none => ((l, some .indexError), none)

/-- `remove` of `MutableSequence`: `del self[self.index(value)]`; `eq` is identity or `==`.  Python standard library, with
`/repo/draftsman/classes/schedule_list.py:46-47, 64-65`. -/
def remove (eq : Val S D → Val S D → Bool) (l : List (Val S D)) (v : Val S D) : Out S D :=
  match l.findIdx? (eq · v) with
  | some n => delItem l (.int n)
  | none => (l, some .valueError)

/-- One round of `reverse`: `self[i], self[n-i-1] = self[n-i-1], self[i]`.  Python standard library, with
`/repo/draftsman/classes/schedule_list.py:46-62`. -/
def swap (l : List (Val S D)) (i j : Nat) : Out S D :=
  match l[j]?, l[i]? with
  | some x, some y =>
    match setItem l (.int i) x with
    | (l', none) => setItem l' (.int j) y
    | r => r
  | _, _ => (l, some .indexError)

/-- The loop of `reverse` from round `i`, `n` the length at the start.  Python standard library, with
`/repo/draftsman/classes/schedule_list.py:46-62`. -/
def reverseFrom (n : Nat) : Nat → Nat → List (Val S D) → Out S D
  | 0, _, l => (l, none)
  | k + 1, i, l => match swap l i (n - i - 1) with
    | (l', none) => reverseFrom n k (i + 1) l'
    | r => r

/-- `reverse` of `MutableSequence`: rounds `0` to `n // 2 - 1`.  Python standard library, with `/repo/draftsman/classes/schedule_list.py:46-69`. -/
def reverse (l : List (Val S D)) : Out S D := reverseFrom l.length (l.length / 2) 0 l

/-- `extend` (and `+=`) of `MutableSequence`: append one after another; `values` are the elements (copied first when the list is extended by
itself).  Python standard library, with `/repo/draftsman/classes/schedule_list.py:34-41`. -/
def extend (l : List (Val S D)) : List (Val S D) → Out S D
  | [] => (l, none)
  | v :: r => match append l v with
    | (l', none) => extend l' r
    | e => e

/-- A call that changes the list: `/repo/draftsman/classes/schedule_list.py:34-66` and the methods of `MutableSequence`. -/
inductive Op (S D : Type) where
  | insert (i : Int) (v : Val S D)
  | append (v : Val S D)
  | extend (vs : List (Val S D))
  | extendSelf
  | set (ix : Index) (v : Val S D)
  | del (ix : Index)
  | pop (i : Int)
  | remove (v : Val S D)
  | reverse
  | clear

/-- Make the call; `clear` is `/repo/draftsman/classes/schedule_list.py:43-44`, the others above. -/
def Op.run (eq : Val S D → Val S D → Bool) (l : List (Val S D)) : Op S D → Out S D
  | .insert i v => SchedList.insert l i v
  | .append v => SchedList.append l v
  | .extend vs => SchedList.extend l vs
  | .extendSelf => SchedList.extend l l
  | .set ix v => setItem l ix v
  | .del ix => delItem l ix
  | .pop i => (SchedList.pop l i).1
  | .remove v => SchedList.remove eq l v
  | .reverse => SchedList.reverse l
  | .clear => ([], none)

/-- Blueprints and groups with their attribute `_schedules`, a reference to a `ScheduleList` object: `/repo/draftsman/classes/blueprint.py:293, 574`,
`/repo/draftsman/classes/group.py:222-225`.  `next` and above are unused. -/
structure World (S D : Type) where
  data : Nat → List (Val S D)
  next : Nat
  ref : Nat → Nat

/-- What `x.schedules` shows, `/repo/draftsman/classes/blueprint.py:899-916`, `/repo/draftsman/classes/group.py:460-476`. -/
def World.sees (w : World S D) (x : Nat) : List (Val S D) := w.data (w.ref x)

/-- A value assigned to `schedules`: `None`, a `ScheduleList` object, or another value.  `/repo/draftsman/classes/blueprint.py:920-932`. -/
inductive Src (S D : Type) where
  | none
  | obj (n : Nat)
  | val (v : Val S D)

/-- A new `ScheduleList` for `x`.  `/repo/draftsman/classes/blueprint.py:574, 932`, `/repo/draftsman/classes/group.py:223-225, 481, 485`. -/
def World.fresh (w : World S D) (x : Nat) (l : List (Val S D)) : World S D :=
  ⟨Function.update w.data w.next l, w.next + 1, Function.update w.ref x w.next⟩

/-- `x.schedules = value`: of a blueprint `/repo/draftsman/classes/blueprint.py:918-932`, of a group (`isGroup`)
`/repo/draftsman/classes/group.py:478-485`. -/
def World.assign (make : D → Except PyErr S) (isGroup : Bool) (w : World S D) (x : Nat) : Src S D → World S D × Option PyErr
  | .none => if isGroup then (w.fresh x [], none) else ({ w with data := Function.update w.data (w.ref x) [] }, none)
  | .obj n => ({ w with ref := Function.update w.ref x n }, none)
  | .val v => match init make (some v) with
    | .ok l => (w.fresh x l, none)
    | .error e => (w, some e)

/-- The part of `setup` for schedules, `/repo/draftsman/classes/blueprint.py:574` and `/repo/draftsman/classes/group.py:222-225`: always
through the constructor, for which a `ScheduleList` is not a `list`. -/
def World.setup (make : D → Except PyErr S) (w : World S D) (x : Nat) : Src S D → World S D × Option PyErr
  | .none => (w.fresh x [], none)
  | .obj n => match init make (some (.seq false (w.data n))) with
    | .ok l => (w.fresh x l, none)
    | .error e => (w, some e)
  | .val v => match init make (some v) with
    | .ok l => (w.fresh x l, none)
    | .error e => (w, some e)

/-- A call on `x.schedules`.  Part of the model only: the methods are `/repo/draftsman/classes/schedule_list.py:34-66`. -/
def World.call (eq : Val S D → Val S D → Bool) (w : World S D) (x : Nat) (o : Op S D) : World S D × Option PyErr :=
  let r := o.run eq (w.sees x)
  ({ w with data := Function.update w.data (w.ref x) r.1 }, r.2)

end SchedList
end Draftsman
