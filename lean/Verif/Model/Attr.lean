import Verif.Model.Py
/-
Attributes of entities.  An entity keeps its data in a tree of pydantic models `_root` (`/repo/draftsman/classes/entity.py:268-278`); an attribute
is a property whose getter walks down that tree and whose setter validates a value and stores it.  `Model/AttrTable.lean` lists them all.
Simplified: values are opaque (`atom`), a model is the list of its fields, extra keys included; `.get(k, None)` and `[k]` on a model
(`/repo/draftsman/signatures.py:205-217`) are read like the attribute `k`, which is the same for declared fields.  Validation is an arbitrary
function supplied with each assignment, so it may depend on everything; warnings are left out (`Model/ValResult.lean` and `Model/Machines.lean` have them).
-/
namespace Draftsman
namespace Attr

/-- A value within an entity: `None`, a value without attributes of interest, or a model with its fields.
`/repo/draftsman/classes/entity.py:93-195` and the `Format` classes of the mixins and prototypes.  `bare` is a model that derives from `BaseModel` and
not from `DraftsmanBaseModel`, and so takes no extra keys: the control behaviors of `/repo/draftsman/prototypes/transport_belt.py:48-54`,
`/repo/draftsman/prototypes/logistic_active_container.py:47-51`, `/repo/draftsman/prototypes/logistic_passive_container.py:47-51` and
`/repo/draftsman/prototypes/logistic_storage_container.py:49-53`. -/
inductive Val where
  | none
  | atom (n : Nat)
  | model (fields : List (String × Val))
  | bare (fields : List (String × Val))

/-- `m.f`: the field of a model, `AttributeError` if there is none or if it is no model.  Python `getattr` on a `DraftsmanBaseModel`,
`/repo/draftsman/signatures.py:120-143`. -/
def field (v : Val) (f : String) : Except PyErr Val :=
  match v with
  | .model fs => match fs.lookup f with
    | some w => .ok w
    | none => .error .attributeError
  | .bare fs => match fs.lookup f with
    | some w => .ok w
    | none => .error .attributeError
  | _ => .error .attributeError

/-- The fields after `m.f = w`: the value is replaced in place or added at the end.  Models of `DraftsmanBaseModel` accept extra keys,
`/repo/draftsman/signatures.py:242-247`. -/
def setField (f : String) (w : Val) : List (String × Val) → List (String × Val)
  | [] => [(f, w)]
  | (g, u) :: r => if g = f then (g, w) :: r else (g, u) :: setField f w r

/-- Reading along a path, as the getters do, e.g. `/repo/draftsman/prototypes/constant_combinator.py:198-200`. -/
def read (v : Val) : List String → Except PyErr Val
  | [] => .ok v
  | f :: p => match field v f with
    | .ok w => read w p
    | .error e => .error e

/-- Storing at the end of a path, as the setters do, e.g. `/repo/draftsman/prototypes/constant_combinator.py:202-214`.  Assigning what is no field to a
model that takes no extra keys is a `ValueError` (pydantic). -/
def write (v : Val) (new : Val) : List String → Except PyErr Val
  | [] => .ok new
  | [f] => match v with
    | .model fs => .ok (.model (setField f new fs))
    | .bare fs => match fs.lookup f with
      | some _ => .ok (.bare (setField f new fs))
      | none => .error .valueError
    | _ => .error .attributeError
  | f :: g :: p => match v with
    | .model fs => match fs.lookup f with
      | some w => (write w new (g :: p)).map fun w' => .model (setField f w' fs)
      | none => .error .attributeError
    | .bare fs => match fs.lookup f with
      | some w => (write w new (g :: p)).map fun w' => .bare (setField f w' fs)
      | none => .error .attributeError
    | _ => .error .attributeError

/-- The forms in which the setters are written.
* `checked`: validated by `attempt_and_reissue` unless the mode is `NONE`, then stored; e.g. `/repo/draftsman/classes/entity.py:438-446`.
* `always`: validated in every mode, but if it is `NONE` a value that fails is kept as it is; `test_replace_me`,
  `/repo/draftsman/classes/exportable.py:81-130` with `/repo/draftsman/signatures.py:145-162`, and `request_filters`.
* `early`: stored, then validated and stored again; `/repo/draftsman/classes/mixins/recipe.py:168-205`, `player_description.py:42-55`.
* `restored`: like `early`, but put back on a `DataFormatError`, and `None` becomes a list; `/repo/draftsman/classes/mixins/request_items.py:96-113`.
* `orZero`: like `checked`, but `None` becomes 0; `/repo/draftsman/prototypes/linked_container.py:98-108`.
* `raw`: stored without validation; `/repo/draftsman/prototypes/lamp.py:140-176`.
* `late`: like `always`, and the sub-object is validated once more after the value was stored;
  `/repo/draftsman/prototypes/infinity_pipe.py:63-88, 176-310`.
* `broken`: the validation names a class that is not there, so that it is an `AttributeError` unless the mode is `NONE`, and then the value
  is stored; `Format.ControlBehavior.Sections` in `/repo/draftsman/prototypes/constant_combinator.py:202-214`. -/
inductive Style where
  | checked | always | early | restored | orZero | raw | late | broken
  deriving DecidableEq, Repr

/-- A settable attribute: its name, where the getter reads, where the setter stores, and how.  A `property` and its `setter` in
`/repo/draftsman/classes/entity.py`, `/repo/draftsman/classes/mixins` and `/repo/draftsman/prototypes`. -/
structure Attr where
  name : String
  get : List String
  set : List String
  style : Style
  deriving DecidableEq, Repr

/-- An entity class: for the class and its bases in the order of method resolution the attributes defined there, and the data of a
new entity.  `class X(Mixin, …, Entity)` in `/repo/draftsman/prototypes`. -/
structure Cls where
  name : String
  layers : List (List Attr)
  fresh : Val

/-- The attributes visible on instances of a class: of those with the same name the first one wins.  Python attribute lookup on the
classes in `/repo/draftsman/prototypes`. -/
def Cls.attrs (c : Cls) : List Attr :=
  c.layers.flatten.foldl (fun acc a => if acc.any (fun b => decide (b.name = a.name)) then acc else acc ++ [a]) []

/-- Validation of one assignment: `check` is that of the field, `after` that of the sub-object once the value is in it.
`/repo/draftsman/classes/exportable.py:14-45`. -/
structure Rules where
  check : Val → Except PyErr Val
  after : Val → Option PyErr

/-- The result of storing, with the state left as it is if that fails.  A plain assignment in the setters, e.g.
`/repo/draftsman/classes/entity.py:446`. -/
def put (e : Val) (p : List String) (v : Val) : Val × Option PyErr :=
  match write e v p with
  | .ok e' => (e', none)
  | .error x => (e, some x)

/-- The error of `attempt_and_reissue` where storing would fail: what is no field of a model without extra keys fails its validation.
`/repo/draftsman/classes/exportable.py:14-45`. -/
def refusal : PyErr → PyErr
  | .valueError => .dataFormat
  | x => x

/-- `attempt_and_reissue` followed by storing its result: nothing happens if the sub-object is missing or the value is refused.
`/repo/draftsman/classes/exportable.py:14-45`. -/
def checkPut (check : Val → Except PyErr Val) (e : Val) (p : List String) (v : Val) : Val × Option PyErr :=
  match write e v p with
  | .error x => (e, some (refusal x))
  | .ok _ => match check v with
    | .error x => (e, some x)
    | .ok w => put e p w

/-- The validation while `"construction"` is in the context: a value that fails is kept.  `/repo/draftsman/signatures.py:145-162`. -/
def lenient (check : Val → Except PyErr Val) (v : Val) : Except PyErr Val :=
  match check v with
  | .error .dataFormat => .ok v
  | r => r

/-- `0` or `[]` in place of `None`: `/repo/draftsman/prototypes/linked_container.py:105-108`, `/repo/draftsman/classes/mixins/request_items.py:110-113`. -/
def orZero : Val → Val
  | .none => .atom 0
  | w => w

/-- `entity.attr = v`; `validating` is whether `validate_assignment` is something else than `NONE` (`/repo/draftsman/constants.py`,
`ValidationMode.__bool__`).  The setters listed at `Style`. -/
def assign (validating : Bool) (r : Rules) (a : Attr) (e : Val) (v : Val) : Val × Option PyErr :=
  match a.style with
  | .checked => if validating then checkPut r.check e a.set v else put e a.set v
  | .always => checkPut (if validating then r.check else lenient r.check) e a.set v
  | .raw => put e a.set v
  | .orZero =>
    if validating then checkPut (fun v => (r.check v).map orZero) e a.set v else put e a.set (orZero v)
  | .early =>
    match put e a.set v with
    | (e', some x) => (e', some x)
    | (e', none) => if validating then checkPut r.check e' a.set v else (e', none)
  | .restored =>
    if validating then
      match put e a.set v with
      | (e', some x) => (e', some x)
      | (e', none) => match r.check v with
        | .error .dataFormat => (e, some .dataFormat)
        | .error x => (e', some x)
        | .ok w => put e' a.set (orZero w)
    else put e a.set (orZero v)
  | .late =>
    match checkPut (if validating then r.check else lenient r.check) e a.set v with
    | (e', some x) => (e', some x)
    | (e', none) => if validating then (e', r.after e') else (e', none)
  | .broken => if validating then (e, some .attributeError) else put e a.set v

end Attr
end Draftsman
