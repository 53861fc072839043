import Verif.Model.Py
import Verif.Model.Dict
/-
`DraftsmanBaseModel` used like a dictionary, `/repo/draftsman/signatures.py:120-247`, the exception made by `Sections`
(`/repo/draftsman/signatures.py:1435-1442`), and `_set_condition`, `/repo/draftsman/classes/mixins/control_behavior.py:112-168`.

How attributes of a pydantic model are read and written is taken from pydantic: fields are in `__dict__`, keys that are no fields in
`__pydantic_extra__` (`extra="allow"`) unless the class has an attribute of that name, which is then covered in `__dict__`.  Left out: names
that begin with an underscore, class variables and properties of `BaseModel`, none of which is used as a key.
-/
namespace Draftsman
namespace Record

/-- A model class: its fields with their aliases, and the names of its other attributes and methods.  `/repo/draftsman/signatures.py:120-247`. -/
structure Cls where
  fields : List (String × Option String)
  attrs : List String

/-- A model: `__dict__` and `__pydantic_extra__`.  `/repo/draftsman/signatures.py:242-247`. -/
structure Rec (V : Type) where
  dict : Dict String V
  extra : Dict String V

/-- `true_model_fields`, `/repo/draftsman/signatures.py:139-143`. -/
def Cls.table (c : Cls) : Dict String String := c.fields.foldl (fun d f => d.set (f.2.getD f.1) f.1) []

/-- `self.true_model_fields().get(key, key)`, `/repo/draftsman/signatures.py:207`. -/
def Cls.resolve (c : Cls) (key : String) : String := (c.table.get? key).getD key

/-- What reading an attribute gives: a value, or a method of the class.  `/repo/draftsman/signatures.py:206-207`. -/
inductive Got (V : Type) where
  | value (v : V)
  | method (name : String)
  deriving DecidableEq

/-- `getattr` on a model (pydantic), used by `/repo/draftsman/signatures.py:207`. -/
def getAttr {V : Type} (c : Cls) (r : Rec V) (name : String) : Except PyErr (Got V) :=
  match r.dict.get? name with
  | some v => .ok (.value v)
  | none => if name ∈ c.attrs then .ok (.method name) else match r.extra.get? name with
    | some v => .ok (.value v)
    | none => .error .attributeError

/-- `setattr` on a model (pydantic), used by `/repo/draftsman/signatures.py:210`. -/
def setAttr {V : Type} (c : Cls) (r : Rec V) (name : String) (v : V) : Rec V :=
  if name ∈ c.fields.map Prod.fst then { r with dict := r.dict.set name v }
  else if (r.extra.get? name).isSome then { r with extra := r.extra.set name v }
  else match getAttr c r name with
    | .ok _ => { r with dict := r.dict.set name v }
    | .error _ => { r with extra := r.extra.set name v }

/-- `__getitem__`, `/repo/draftsman/signatures.py:206-207`. -/
def getItem {V : Type} (c : Cls) (r : Rec V) (key : String) : Except PyErr (Got V) := getAttr c r (c.resolve key)

/-- `__setitem__`, `/repo/draftsman/signatures.py:209-210`. -/
def setItem {V : Type} (c : Cls) (r : Rec V) (key : String) (v : V) : Rec V := setAttr c r (c.resolve key) v

/-- `__contains__`, `/repo/draftsman/signatures.py:212-213`. -/
def contains {V : Type} (c : Cls) (r : Rec V) (key : String) : Bool := (r.dict.get? (c.resolve key)).isSome

/-- `get`, `/repo/draftsman/signatures.py:216-217`. -/
def get {V : Type} (c : Cls) (r : Rec V) (key : String) (default : V) : V := (r.dict.get? (c.resolve key)).getD default

/-- `Sections.__getitem__` with a string: the first section of that group.  `/repo/draftsman/signatures.py:1435-1440`.  A section is its group and
the rest. -/
def sectionsGet {S : Type} (l : List (Option String × S)) (key : String) : Except PyErr S :=
  match l.find? (fun s => decide (s.1 = some key)) with
  | some s => .ok s.2
  | none => .error .stopIteration

/-! ### Conditions -/

/-- A signal: name and type.  `/repo/draftsman/signatures.py:400-460`. -/
structure Sig where
  name : String
  type : String
  deriving DecidableEq

/-- `Condition`, `/repo/draftsman/signatures.py:702-741`; the selections of networks stay at their defaults and are left out. -/
structure Cond where
  first : Option Sig := none
  comparator : String := "<"
  constant : Int := 0
  second : Option Sig := none
  deriving DecidableEq

/-- The second argument of a comparison: a constant or the name of a signal.  `/repo/draftsman/classes/mixins/control_behavior.py:118`. -/
inductive Operand where
  | const (n : Int)
  | signal (name : String)

/-- The spellings in the annotation of `cmp`, `/repo/draftsman/classes/mixins/control_behavior.py:117`. -/
def spellings : List String := [">", "<", "=", "==", "≥", ">=", "≤", "<=", "≠", "!="]

/-- `normalize_comparator_python_equivalents`, `/repo/draftsman/signatures.py:767-774`. -/
def normalize (cmp : String) : String :=
  if cmp = "==" then "=" else if cmp = ">=" then "≥" else if cmp = "<=" then "≤" else if cmp = "!=" then "≠" else cmp

/-- Conversion of the first argument by `validate_call`; `sig` tells the signals that are known.
`/repo/draftsman/classes/mixins/control_behavior.py:112-119`, `/repo/draftsman/signatures.py:400-433`. -/
def readFirst (sig : String → Option Sig) : Option String → Except PyErr (Option Sig)
  | none => .ok none
  | some n => match sig n with
    | some s => .ok (some s)
    | none => .error .valueError

/-- Conversion of `b` by `validate_call` (`Union[SignalID, int32]`): a text that is no signal but a numeral becomes a constant (`num`, the conversion
of texts to numbers by pydantic); then the branch on it.  `/repo/draftsman/classes/mixins/control_behavior.py:118` and 146-149. -/
def readSecond (sig : String → Option Sig) (num : String → Option Int) (c : Cond) : Operand → Except PyErr Cond
  | .const n => constant c n
  | .signal n => match sig n with
    | some s => .ok { c with second := some s }
    | none => match num n with
      | some k => constant c k
      | none => .error .valueError
where
  /-- A number as `int32`, `/repo/draftsman/signatures.py:48-52`, `/repo/draftsman/classes/mixins/control_behavior.py:146-147`. -/
  constant (c : Cond) (n : Int) : Except PyErr Cond :=
    if -(2 : Int) ^ 31 ≤ n ∧ n < 2 ^ 31 then .ok { c with constant := n } else .error .valueError

/-- `_set_condition`, `/repo/draftsman/classes/mixins/control_behavior.py:112-168`: the control behavior afterwards; the error of `validate_call`, a
`ValidationError`, is a `ValueError`.  Warnings about signals are left out. -/
def setCondition (sig : String → Option Sig) (num : String → Option Int) (cb : Dict String (Option Cond)) (name : String) (a : Option String) (cmp : String)
    (b : Operand) : Except PyErr (Dict String (Option Cond)) :=
  match readFirst sig a with
  | .error e => .error e
  | .ok first =>
    if cmp ∉ spellings then .error .valueError
    else match readSecond sig num { first := first, comparator := cmp } b with
      | .error e => .error e
      | .ok c => .ok (cb.set name (some { c with comparator := normalize c.comparator }))

/-- The entities with conditions whose control behavior derives from the `ControlFormat`s of mixins alone, which derive from `BaseModel`, and so has no
`__setitem__`: `/repo/draftsman/prototypes/transport_belt.py:48-54`, `/repo/draftsman/prototypes/logistic_active_container.py:47-51`,
`/repo/draftsman/prototypes/logistic_passive_container.py:47-51`, `/repo/draftsman/prototypes/logistic_storage_container.py:49-53`. -/
def bareControls : List String := ["TransportBelt", "LogisticActiveContainer", "LogisticPassiveContainer", "LogisticStorageContainer"]

/-- `set_circuit_condition` and `set_logistic_condition` of an entity of this class: checking the value stores it
(`/repo/draftsman/classes/exportable.py:32-38`), then it is assigned once more with `[]`, which needs `__setitem__`.
`/repo/draftsman/classes/mixins/circuit_condition.py:71-98`, `/repo/draftsman/classes/mixins/logistic_condition.py:70-97`,
`/repo/draftsman/classes/mixins/control_behavior.py:158-168`. -/
def setConditionOn (owner : String) (sig : String → Option Sig) (num : String → Option Int) (cb : Dict String (Option Cond)) (name : String) (a : Option String)
    (cmp : String) (b : Operand) : Dict String (Option Cond) × Option PyErr :=
  match setCondition sig num cb name a cmp b with
  | .error e => (cb, some e)
  | .ok cb' => (cb', if owner ∈ bareControls then some .typeError else none)

/-- `remove_circuit_condition` and `remove_logistic_condition`: `/repo/draftsman/classes/mixins/circuit_condition.py:100-106`,
`/repo/draftsman/classes/mixins/logistic_condition.py:99-105`. -/
def removeCondition (cb : Dict String (Option Cond)) (name : String) : Dict String (Option Cond) := cb.set name none

end Record
end Draftsman
