import Verif.Model.SchedList
/-
`BlueprintableList`, `/repo/draftsman/classes/blueprint_book.py:86-157`, the methods it inherits from `collections.abc.MutableSequence`, and the attribute
`blueprints` of books.

A blueprint, planner or book is its identity.  What is inside one is in other modules.
-/
namespace Draftsman
namespace BookList

/-- A Python value handed to the list: an object of one of the four classes, a `dict`, or anything else.  The cases told apart at
`/repo/draftsman/classes/blueprint_book.py:99, 150-152`. -/
inductive Val (B D : Type) where
  | obj (b : B)
  | dict (d : D)
  | other (n : Nat)
  deriving DecidableEq, Repr

/-- The keys that tell what a dictionary is, with the class made of it: `/repo/draftsman/classes/blueprint_book.py:101-115`. -/
inductive Kind where
  | blueprint | deconstruction | upgrade | book
  deriving DecidableEq, Repr

variable {B D : Type}

/-- `check_blueprintable`, `/repo/draftsman/classes/blueprint_book.py:149-157`. -/
def Val.isObj : Val B D → Bool
  | .obj _ => true
  | _ => false

/-- The elements of `data` after a call, and the exception raised.  Part of the model only: the calls are the methods of
`/repo/draftsman/classes/blueprint_book.py:125-157`. -/
abbrev Out (B D : Type) := List (Val B D) × Option PyErr

/-- `insert`, `/repo/draftsman/classes/blueprint_book.py:125-129`. -/
def insert (l : List (Val B D)) (i : Int) (v : Val B D) : Out B D :=
  if v.isObj then (EList.pyInsert l i v, none) else (l, some .typeError)

/-- `append` of `MutableSequence`: `self.insert(len(self), value)`.  Python standard library; used at
`/repo/draftsman/classes/blueprint_book.py:102-123`. -/
def append (l : List (Val B D)) (v : Val B D) : Out B D := insert l l.length v

/-- What is made of a dictionary, `/repo/draftsman/classes/blueprint_book.py:101-120`: `has` tells which keys it has, `make` calls the constructor of the class. -/
def build (has : D → Kind → Bool) (make : Kind → D → Except PyErr B) (d : D) : Except PyErr B :=
  if has d .blueprint then make .blueprint d
  else if has d .deconstruction then make .deconstruction d
  else if has d .upgrade then make .upgrade d
  else if has d .book then make .book d
  else .error .dataFormat

/-- The loop of `__init__`, `/repo/draftsman/classes/blueprint_book.py:98-123`. -/
def fill (has : D → Kind → Bool) (make : Kind → D → Except PyErr B) (data : List (Val B D)) : List (Val B D) → Except PyErr (List (Val B D))
  | [] => .ok data
  | .dict d :: r => match build has make d with
    | .ok b => match append data (.obj b) with
      | (data', none) => fill has make data' r
      | (_, some e) => .error e
    | .error e => .error e
  | v :: r => match append data v with
    | (data', none) => fill has make data' r
    | (_, some e) => .error e

/-- `__setitem__`, `/repo/draftsman/classes/blueprint_book.py:134-137`.  An object cannot be iterated over, as a slice requires: `__getitem__` takes the names of
attributes, `/repo/draftsman/classes/exportable.py:375-376`. -/
def setItem (l : List (Val B D)) (ix : SchedList.Index) (v : Val B D) : Out B D :=
  if !v.isObj then (l, some .typeError)
  else match ix with
    | .int i => SchedList.pySet l i v
    | .slice a b c => SchedList.pySetSlice l a b c none

/-- `__delitem__`, `/repo/draftsman/classes/blueprint_book.py:139-140`. -/
def delItem (l : List (Val B D)) (ix : SchedList.Index) : Out B D := SchedList.delItem l ix

/-- `pop` of `MutableSequence`: `v = self[index]; del self[index]; return v`.  Python standard library; `__getitem__` is
`/repo/draftsman/classes/blueprint_book.py:131-132`. -/
def pop (l : List (Val B D)) (i : Int) : Out B D × Option (Val B D) :=
  match EList.pyIndex l i with
  | some n => (delItem l (.int i), l[n]?)
  | none => ((l, some .indexError), none)

/-- `remove` of `MutableSequence`: `del self[self.index(value)]`; `eq` is identity or `==`.  Python standard library, with
`/repo/draftsman/classes/blueprint_book.py:131-132, 139-140`. -/
def remove (eq : Val B D → Val B D → Bool) (l : List (Val B D)) (v : Val B D) : Out B D :=
  match l.findIdx? (eq · v) with
  | some n => delItem l (.int n)
  | none => (l, some .valueError)

/-- One round of `reverse`: `self[i], self[n-i-1] = self[n-i-1], self[i]`.  Python standard library, with
`/repo/draftsman/classes/blueprint_book.py:131-137`. -/
def swap (l : List (Val B D)) (i j : Nat) : Out B D :=
  match l[j]?, l[i]? with
  | some x, some y =>
    match setItem l (.int i) x with
    | (l', none) => setItem l' (.int j) y
    | r => r
  | _, _ => (l, some .indexError)

/-- The loop of `reverse` from round `i`, `n` the length at the start.  Python standard library, with `/repo/draftsman/classes/blueprint_book.py:131-137`. -/
def reverseFrom (n : Nat) : Nat → Nat → List (Val B D) → Out B D
  | 0, _, l => (l, none)
  | k + 1, i, l => match swap l i (n - i - 1) with
    | (l', none) => reverseFrom n k (i + 1) l'
    | r => r

/-- `reverse` of `MutableSequence`: rounds `0` to `n // 2 - 1`.  Python standard library, with `/repo/draftsman/classes/blueprint_book.py:131-143`. -/
def reverse (l : List (Val B D)) : Out B D := reverseFrom l.length (l.length / 2) 0 l

/-- `extend` (and `+=`) of `MutableSequence`: append one after another; the elements are copied first when the list is extended by itself.  Python standard
library, with `/repo/draftsman/classes/blueprint_book.py:125-129`. -/
def extend (l : List (Val B D)) : List (Val B D) → Out B D
  | [] => (l, none)
  | v :: r => match append l v with
    | (l', none) => extend l' r
    | e => e

/-- `clear` of `MutableSequence`: `pop` until there is an `IndexError`; `n` is the number of rounds.  Python standard library, with
`/repo/draftsman/classes/blueprint_book.py:131-140`. -/
def clear : Nat → List (Val B D) → List (Val B D)
  | 0, l => l
  | n + 1, l => match (pop l (-1)).1 with
    | (l', none) => clear n l'
    | (l', some _) => l'

/-- A call that changes the list: `/repo/draftsman/classes/blueprint_book.py:125-140` and the methods of `MutableSequence`. -/
inductive Op (B D : Type) where
  | insert (i : Int) (v : Val B D)
  | append (v : Val B D)
  | extend (vs : List (Val B D))
  | extendSelf
  | set (ix : SchedList.Index) (v : Val B D)
  | del (ix : SchedList.Index)
  | pop (i : Int)
  | remove (v : Val B D)
  | reverse
  | clear

/-- Make the call, `/repo/draftsman/classes/blueprint_book.py:125-140`. -/
def Op.run (eq : Val B D → Val B D → Bool) (l : List (Val B D)) : Op B D → Out B D
  | .insert i v => BookList.insert l i v
  | .append v => BookList.append l v
  | .extend vs => BookList.extend l vs
  | .extendSelf => BookList.extend l l
  | .set ix v => setItem l ix v
  | .del ix => delItem l ix
  | .pop i => (BookList.pop l i).1
  | .remove v => BookList.remove eq l v
  | .reverse => BookList.reverse l
  | .clear => (BookList.clear (l.length + 1) l, none)

/-- Books with the private attribute `_blueprints`, a reference to a `BlueprintableList` object: `/repo/draftsman/classes/blueprint_book.py:170, 336-339`.
`next` and above are unused. -/
structure World (B D : Type) where
  data : Nat → List (Val B D)
  next : Nat
  ref : Nat → Nat

/-- What `x.blueprints` shows, `/repo/draftsman/classes/blueprint_book.py:455`. -/
def World.sees (w : World B D) (x : Nat) : List (Val B D) := w.data (w.ref x)

/-- A value given for `blueprints`: `None`, a `BlueprintableList` object, a `list`, another value that can be iterated over (a tuple, for instance), or one that
cannot.  The cases of `/repo/draftsman/classes/blueprint_book.py:336-339, 459-470`. -/
inductive Src (B D : Type) where
  | none
  | obj (n : Nat)
  | list (vs : List (Val B D))
  | iter (vs : List (Val B D))
  | other

/-- A new `BlueprintableList` for `x`.  `/repo/draftsman/classes/blueprint_book.py:337-339, 461, 466`. -/
def World.fresh (w : World B D) (x : Nat) (l : List (Val B D)) : World B D :=
  ⟨Function.update w.data w.next l, w.next + 1, Function.update w.ref x w.next⟩

/-- A new `BlueprintableList` made of values, unless that fails: `/repo/draftsman/classes/blueprint_book.py:93-123, 337-339, 466`. -/
def World.made (has : D → Kind → Bool) (make : Kind → D → Except PyErr B) (w : World B D) (x : Nat) (vs : List (Val B D)) : World B D × Option PyErr :=
  match fill has make [] vs with
  | .ok l => (w.fresh x l, Option.none)
  | .error e => (w, some e)

/-- `x.blueprints = value`, `/repo/draftsman/classes/blueprint_book.py:457-470`. -/
def World.assign (has : D → Kind → Bool) (make : Kind → D → Except PyErr B) (w : World B D) (x : Nat) : Src B D → World B D × Option PyErr
  | .none => (w.fresh x [], Option.none)
  | .obj n => ({ w with ref := Function.update w.ref x n }, Option.none)
  | .list vs => w.made has make x vs
  | .iter _ => (w, some .dataFormat)
  | .other => (w, some .dataFormat)

/-- The part of `setup` for the blueprints, `/repo/draftsman/classes/blueprint_book.py:336-339`. -/
def World.setup (has : D → Kind → Bool) (make : Kind → D → Except PyErr B) (w : World B D) (x : Nat) : Src B D → World B D × Option PyErr
  | .none => (w, some .typeError)
  | .obj n => w.made has make x (w.data n)
  | .list vs => w.made has make x vs
  | .iter vs => w.made has make x vs
  | .other => (w, some .typeError)

/-- A call on `x.blueprints`.  Part of the model only: the methods are `/repo/draftsman/classes/blueprint_book.py:125-140`. -/
def World.call (eq : Val B D → Val B D → Bool) (w : World B D) (x : Nat) (o : Op B D) : World B D × Option PyErr :=
  let r := o.run eq (w.sees x)
  ({ w with data := Function.update w.data (w.ref x) r.1 }, r.2)

end BookList
end Draftsman
