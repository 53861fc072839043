import Verif.Model.MergeTable
/-
What two entities have in common after one was merged into the other: `merge` with the objects in memory, so that an object stored twice is
the same object.  `Model/MergeAttr.lean` has the values and the exceptions; here validation is taken to succeed, and only decides whether a
value is stored itself or as a copy.
Simplified: immutable values are numbers; a dictionary with values of any type is a model with extra keys only; tuples of models and unions are
left out.
-/
namespace Draftsman
namespace MergeShare
open Attr (Attr Cls Style)
open MergeAttr (Part)

/-- What a field holds: an immutable value, or an object by its address.  Python references. -/
inductive Ref where
  | imm (n : Nat)
  | obj (a : Nat)
  deriving DecidableEq, Repr

/-- The objects: lists, and models with their fields, extra keys included.  `bare` are models that derive from `BaseModel` and not from
`DraftsmanBaseModel`; they keep pydantic's default `revalidate_instances="never"`, the others have `"always"`:
`/repo/draftsman/signatures.py:120, 242-247`, and e.g. `/repo/draftsman/prototypes/transport_belt.py:48-54`. -/
inductive Obj where
  | list (l : List Ref)
  | model (bare : Bool) (fields : List (String × Ref))
  deriving DecidableEq, Repr

/-- What an object refers to.  Python references. -/
def Obj.refs : Obj → List Ref
  | .list l => l
  | .model _ fs => fs.map (·.2)

/-- The memory: addresses below `next` are in use.  Python references. -/
structure Heap where
  get : Nat → Obj
  next : Nat

/-- A new object.  Python references. -/
def Heap.alloc (h : Heap) (o : Obj) : Heap × Ref := (⟨fun a => if a = h.next then o else h.get a, h.next + 1⟩, .obj h.next)

/-- An object changed in place.  Python references. -/
def Heap.set (h : Heap) (a : Nat) (o : Obj) : Heap := { h with get := fun b => if b = a then o else h.get b }

/-- The type of a field, as far as it decides about copying: `any` for types that keep what they are given (`Any`, and extra keys), `list`, and
models with the types of their fields; keys that are not declared have the type `any`.  The annotations in the `Format` classes, e.g.
`/repo/draftsman/classes/mixins/circuit_condition.py:18-37`. -/
inductive Ty where
  | any
  | list (t : Ty)
  | model (fields : String → Ty)

/-- One after another, with the memory passed on: pydantic validates members and fields in order, `copy.deepcopy` copies them in order (Python
standard library); e.g. the model in `/repo/draftsman/classes/exportable.py:30-37`. -/
def each {α β : Type} (f : Heap → α → Heap × β) : Heap → List α → Heap × List β
  | h, [] => (h, [])
  | h, x :: l =>
    let r := f h x
    let s := each f r.1 l
    (s.1, r.2 :: s.2)

/-- A successful validation: lists are made anew, and so are models of `DraftsmanBaseModel` (`revalidate_instances="always"`,
`/repo/draftsman/signatures.py:242-247`), while an instance of another model is kept.  `validate_assignment` in
`/repo/draftsman/classes/exportable.py:30-37`. -/
def check : Ty → Heap → Ref → Heap × Ref
  | _, h, .imm n => (h, .imm n)
  | .any, h, .obj a => (h, .obj a)
  | .list t, h, .obj a =>
    match h.get a with
    | .list l => let r := each (check t) h l; r.1.alloc (.list r.2)
    | .model _ _ => (h, .obj a)
  | .model f, h, .obj a =>
    match h.get a with
    | .model false fs => let r := each (fun h p => let q := check (f p.1) h p.2; (q.1, (p.1, q.2))) h fs; r.1.alloc (.model false r.2)
    | _ => (h, .obj a)

/-- `copy.deepcopy`, `k` levels deep (Python standard library); an object met twice is copied twice. -/
def deep : Nat → Heap → Ref → Heap × Ref
  | _, h, .imm n => (h, .imm n)
  | 0, h, .obj _ => (h, .imm 0)
  | k + 1, h, .obj a =>
    match h.get a with
    | .list l => let r := each (deep k) h l; r.1.alloc (.list r.2)
    | .model b fs => let r := each (fun h p => let q := deep k h p.2; (q.1, (p.1, q.2))) h fs; r.1.alloc (.model b r.2)

/-- The attributes that `merge` copies before assigning: `/repo/draftsman/classes/entity.py:753`, `/repo/draftsman/classes/mixins/request_items.py:230`,
`/repo/draftsman/prototypes/infinity_pipe.py:362`, `/repo/draftsman/prototypes/infinity_container.py:231`. -/
def copied : List String := ["tags", "items", "infinity_settings"]

/-- Whether a setter stores what validation gives (and not the value itself); the setters are listed at `Style` in `Model/Attr.lean`, e.g.
`/repo/draftsman/classes/mixins/control_behavior.py:80-88`. -/
def validates (validating : Bool) : Style → Bool
  | .checked | .orZero | .early | .restored => validating
  | .always | .late => true
  | .raw | .broken => false

/-- Reading along a path, as the getters do, e.g. `/repo/draftsman/classes/mixins/control_behavior.py:67-78`. -/
def getAt (h : Heap) : Ref → List String → Option Ref
  | r, [] => some r
  | .imm _, _ :: _ => none
  | .obj a, f :: p =>
    match h.get a with
    | .list _ => none
    | .model _ fs => match fs.lookup f with
      | some r => getAt h r p
      | none => none

/-- The fields after an assignment, `/repo/draftsman/signatures.py:209-210`. -/
def putField (f : String) (v : Ref) : List (String × Ref) → List (String × Ref)
  | [] => [(f, v)]
  | (g, u) :: r => if g = f then (g, v) :: r else (g, u) :: putField f v r

/-- Storing at the end of a path: in place, in the object found there, e.g. `/repo/draftsman/classes/mixins/read_rail_signal.py:62-76`. -/
def setAt (h : Heap) : Ref → List String → Ref → Option Heap
  | .imm _, _, _ => none
  | .obj _, [], _ => none
  | .obj a, [f], v =>
    match h.get a with
    | .list _ => none
    | .model b fs => some (h.set a (.model b (putField f v fs)))
  | .obj a, f :: g :: p, v =>
    match h.get a with
    | .list _ => none
    | .model _ fs => match fs.lookup f with
      | some r => setAt h r (g :: p) v
      | none => none

/-- `self.n = other.n` for one attribute; `none` if there is an exception.  `/repo/draftsman/classes/entity.py:750-753` and the `merge` methods of the
mixins and prototypes listed in `Model/MergeTable.lean`; `ty` gives the types of the attributes, `a` and `b` are the `_root` of the two. -/
def step (validating : Bool) (ty : String → Ty) (c : Cls) (a b : Ref) (h : Heap) (n : String) : Option Heap :=
  match MergeAttr.attrOf c n with
  | none => none
  | some m =>
    match getAt h b m.get with
    | none => none
    | some v =>
      let d := if n ∈ copied then deep h.next h v else (h, v)
      let w := if validates validating m.style then check (ty n) d.1 d.2 else d
      setAt w.1 a m.set w.2

/-- The attributes one after the other.  `/repo/draftsman/classes/entity.py:750-753` and the `merge` methods of the mixins and prototypes. -/
def steps (validating : Bool) (ty : String → Ty) (c : Cls) (a b : Ref) : Heap → List String → Option Heap
  | h, [] => some h
  | h, n :: ns =>
    match step validating ty c a b h n with
    | none => none
    | some h' => steps validating ty c a b h' ns

/-- `a.merge(b)` for entities of the class with these parts.  `/repo/draftsman/classes/entity.py:750-753` with the `merge` methods of mixins and
prototypes. -/
def merge (validating : Bool) (ty : String → Ty) (c : Cls) (parts : List Part) (h : Heap) (a b : Ref) : Option Heap :=
  steps validating ty c a b h (MergeAttr.order parts)

end MergeShare
end Draftsman
