import Verif.Model.Attr
/-
Merging, comparing and hashing entities.  `merge`, `mergable_with` and `__eq__` are spread over the mixins, each part calling the next one
with `super()`; `Model/MergeTable.lean` lists the parts of all classes.  The wires that `CircuitConnectableMixin.merge` moves are in
`Model/Merge.lean`.
Simplified: values are those of `Model/Attr.lean`, so `copy.deepcopy` is the identity and an object shared by both entities afterwards is
not distinguished from a copy; the comparison of two values is a parameter.
-/
namespace Draftsman
namespace MergeAttr
open Attr

/-- What a class has as `__hash__` in its own dictionary: `Entity.__hash__`, or the `None` that Python puts there when a class defines `__eq__`
alone.  `/repo/draftsman/classes/entity.py:764-765`, `/repo/draftsman/classes/mixins/directional.py:245-246`. -/
inductive HashDef where
  | ident | null
  deriving DecidableEq, Repr

/-- What one class contributes: the attributes assigned in `merge` before and after the call of `super().merge`, those compared in
`__eq__` after `super().__eq__`, those compared in `mergable_with`, and its `__hash__`.  E.g. `/repo/draftsman/classes/mixins/recipe.py:208-216`,
`/repo/draftsman/classes/mixins/directional.py:239-246`. -/
structure Part where
  before : List String
  after : List String
  compared : List String
  same : List String
  hash : Option HashDef
  deriving DecidableEq, Repr

/-- The attributes in the order in which `merge` assigns them, for the parts in the order of method resolution.  The chain of
`super().merge(other)` from e.g. `/repo/draftsman/prototypes/inserter.py:284-289` to `/repo/draftsman/classes/entity.py:750-753`. -/
def order : List Part → List String
  | [] => []
  | p :: ps => p.before ++ order ps ++ p.after

/-- The attributes in the order in which `__eq__` compares them.  The chain of `super().__eq__(other) and …` from e.g.
`/repo/draftsman/prototypes/train_stop.py:421-426` to `/repo/draftsman/classes/entity.py:755-762`. -/
def comparisons : List Part → List String
  | [] => []
  | p :: ps => comparisons ps ++ p.compared

/-- The attributes in the order in which `mergable_with` compares them, beyond those of `Entity.mergable_with`.
`/repo/draftsman/classes/mixins/directional.py:239-241`, `eight_way_directional.py:196-198`, `orientation.py:106-108`. -/
def sames : List Part → List String
  | [] => []
  | p :: ps => sames ps ++ p.same

/-- An entity: its class with the parts of that class, its global position and id, and its data.
`/repo/draftsman/classes/entity.py:86, 268-330`. -/
structure Ent where
  cls : Cls
  parts : List Part
  pos : Nat
  id : Val
  root : Val

/-- The attribute of that name which instances of the class have.  Python attribute lookup, classes in `/repo/draftsman/prototypes`. -/
def attrOf (c : Cls) (n : String) : Option Attr := c.attrs.find? fun a => decide (a.name = n)

/-- Where the getter of an attribute reads.  `Model/AttrTable.lean`, and `name` (`/repo/draftsman/classes/entity.py:338`), `direction`
(`/repo/draftsman/classes/mixins/directional.py:197`, `eight_way_directional.py:140`) and `orientation` (`orientation.py:82`). -/
def getPath (c : Cls) (n : String) : Option (List String) :=
  match attrOf c n with
  | some a => some a.get
  | none => if n = "name" ∨ n = "direction" ∨ n = "orientation" then some [n] else none

/-- `entity.n`.  The getters listed at `getPath`, and `/repo/draftsman/classes/entity.py:390-405, 537-555` for `id` and `global_position`. -/
def Ent.value (e : Ent) (n : String) : Except PyErr Val :=
  if n = "global_position" then .ok (.atom e.pos)
  else if n = "id" then .ok e.id
  else match getPath e.cls n with
    | some p => read e.root p
    | none => .error .attributeError

/-- `self.n = other.n` for each of the attributes: the getter on the other entity, then the setter on this one.
`/repo/draftsman/classes/entity.py:750-753` and the `merge` methods of the mixins and prototypes.  `rules` is the validation of the
assignment of that attribute to the entity as it then is; `validating` as in `assign`. -/
def steps (validating : Bool) (rules : Attr → Val → Rules) (c : Cls) (b : Val) : List String → Val → Val × Option PyErr
  | [], a => (a, none)
  | n :: ns, a =>
    match attrOf c n with
    | none => (a, some .attributeError)
    | some m =>
      match read b m.get with
      | .error x => (a, some x)
      | .ok v =>
        match assign validating (rules m a) m a v with
        | (a', none) => steps validating rules c b ns a'
        | (a', some x) => (a', some x)

/-- `a.merge(b)`: `a` afterwards and the exception, if any.  `/repo/draftsman/classes/entity.py:750-753` with the `merge` methods of mixins and
prototypes. -/
def merge (validating : Bool) (rules : Attr → Val → Rules) (a b : Ent) : Ent × Option PyErr :=
  let r := steps validating rules a.cls b.root (order a.parts) a.root
  ({ a with root := r.1 }, r.2)

/-- `self.n == other.n and …` with short circuit.  `/repo/draftsman/classes/entity.py:755-762`. -/
def allSame (veq : Val → Val → Bool) (a b : Ent) : List String → Except PyErr Bool
  | [] => .ok true
  | n :: ns =>
    match a.value n with
    | .error x => .error x
    | .ok v =>
      match b.value n with
      | .error x => .error x
      | .ok w => if veq v w then allSame veq a b ns else .ok false

/-- `a == b`.  `/repo/draftsman/classes/entity.py:755-762` with the `__eq__` methods of mixins and prototypes. -/
def eq (veq : Val → Val → Bool) (a b : Ent) : Except PyErr Bool :=
  if a.cls.name = b.cls.name then allSame veq a b (comparisons a.parts) else .ok false

/-- `a.mergable_with(b)`.  `/repo/draftsman/classes/entity.py:742-748` with the `mergable_with` methods of the mixins. -/
def mergable (veq : Val → Val → Bool) (a b : Ent) : Except PyErr Bool :=
  if a.cls.name = b.cls.name then allSame veq a b (["name", "global_position", "id"] ++ sames a.parts) else .ok false

/-- `hash(e)` for an object at address `addr`: the first `__hash__` in the order of method resolution decides.
`/repo/draftsman/classes/entity.py:764-765`. -/
def hash (parts : List Part) (addr : Nat) : Except PyErr Nat :=
  match parts.findSome? (fun p : Part => p.hash) with
  | some .ident => .ok (addr >>> 4)
  | _ => .error .typeError

end MergeAttr
end Draftsman
