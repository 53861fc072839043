import Verif.Model.Py
/-
Models within what is exported: `model_dump` leaves out inside nested models what it leaves out at the top (`Exportable.to_dict`,
`/repo/draftsman/classes/exportable.py:318-337`), and loading fills it in again.  `Model/NestTable.lean` lists the models.

How pydantic writes and reads models is taken from pydantic: fields in the order of their declaration, then the keys that are no fields.
Simplified: a value of a field that is no model and no list of models is what it is exported as; it is taken over as it is when read, as validation leaves
values alone that it has accepted before (`/repo/draftsman/signatures.py:145-162`), and a dictionary never has the same key twice.  Other spellings of models
(names of signals, sequences, sets) are not exported and left out.
-/
namespace Draftsman
namespace Nested

mutual
/-- What is exported: a dictionary, a list, `None`, or the text of a value.  `/repo/draftsman/classes/exportable.py:318-337`. -/
inductive Doc where
  | null
  | atom (t : String)
  | arr (l : Docs)
  | obj (l : Obj)
  deriving DecidableEq
/-- A list of exported values, `/repo/draftsman/signatures.py:1185`. -/
inductive Docs where
  | nil
  | cons (d : Doc) (r : Docs)
  deriving DecidableEq
/-- The keys and values of a dictionary, `/repo/draftsman/classes/exportable.py:318-337`. -/
inductive Obj where
  | nil
  | cons (k : String) (d : Doc) (r : Obj)
  deriving DecidableEq
end

mutual
/-- A value within a model: `None`, a value that is no model, a list of models, or a model with the values of its fields and the keys that are no fields
(`model_extra`, `/repo/draftsman/signatures.py:242-247`). -/
inductive Val where
  | none
  | raw (d : Doc)
  | list (l : Vals)
  | model (fs : Vals) (extra : Obj)
  deriving DecidableEq
/-- Several values, `/repo/draftsman/signatures.py:1185`. -/
inductive Vals where
  | nil
  | cons (v : Val) (r : Vals)
  deriving DecidableEq
end

/-- The declaration of a field: its name, the key it is exported under (its alias, if it has one), whether it may be `None`, its default (`none` if it is
required), and whether it is never exported (`exclude=True`).  E.g. `/repo/draftsman/signatures.py:350-374`,
`/repo/draftsman/prototypes/programmable_speaker.py:76-82`. -/
structure Info where
  name : String
  key : String
  opt : Bool
  dflt : Option Val
  hide : Bool

mutual
/-- The type of a field: a value, a list of models, or a model.  `keep` is whether the model keeps keys that are no fields: `extra="allow"` of
`DraftsmanBaseModel`, `/repo/draftsman/signatures.py:242-247`, which not all derive from (`/repo/draftsman/prototypes/transport_belt.py:48-54`). -/
inductive Shape where
  | plain
  | list (s : Shape)
  | model (keep : Bool) (fs : Fields)
/-- The fields of a model, `/repo/draftsman/signatures.py:350-374`. -/
inductive Fields where
  | nil
  | cons (i : Info) (s : Shape) (r : Fields)
end

/-- Notation for the tables: the fields of a class, `/repo/draftsman/signatures.py:350-374`. -/
def Fields.of : List (Info × Shape) → Fields
  | [] => .nil
  | (i, s) :: r => .cons i s (.of r)

/-- Notation for the tables: the values of a model, `/repo/draftsman/prototypes/accumulator.py:29`. -/
def Vals.of : List Val → Vals
  | [] => .nil
  | v :: r => .cons v (.of r)

/-- Notation for the tables: a field, `/repo/draftsman/signatures.py:350-374`. -/
def field (name : String) (opt : Bool) (dflt : Option Val) (s : Shape) (key : String := name) (hide : Bool := false) : Info × Shape :=
  (⟨name, key, opt, dflt, hide⟩, s)

/-- `exclude=True`, `exclude_none` and `exclude_defaults`: `/repo/draftsman/classes/exportable.py:318-337`. -/
def leftOut (i : Info) (v : Val) : Bool := i.hide || decide (v = .none) || decide (i.dflt = some v)

/-- The exported values of a list, `/repo/draftsman/signatures.py:1185`. -/
def Vals.dump (f : Val → Doc) : Vals → Docs
  | .nil => .nil
  | .cons v r => .cons (f v) (r.dump f)

/-- `exclude_none` for keys that are no fields: `/repo/draftsman/classes/exportable.py:318-337`. -/
def Obj.compact : Obj → Obj
  | .nil => .nil
  | .cons k d r => if d = .null then r.compact else .cons k d r.compact

mutual
/-- `model_dump`, `/repo/draftsman/classes/exportable.py:318-337`.  A value of another type than the field is declared with cannot be in a model that was
validated; it is exported as `None` here. -/
def dump : Shape → Val → Doc
  | .plain, .raw d => d
  | .list s, .list l => .arr (l.dump (dump s))
  | .model _ fs, .model vs x => .obj (dumpFields fs vs x)
  | _, _ => .null
/-- The fields of a model and then its other keys, `/repo/draftsman/classes/exportable.py:318-337`. -/
def dumpFields : Fields → Vals → Obj → Obj
  | .cons i s r, .cons v vs, x => if leftOut i v then dumpFields r vs x else .cons i.key (dump s v) (dumpFields r vs x)
  | _, _, x => x.compact
end

/-- The value of a key, `/repo/draftsman/signatures.py:145-162`. -/
def Obj.get (k : String) : Obj → Option Doc
  | .nil => none
  | .cons k' d r => if k' = k then some d else r.get k

/-- The value given for a field, under its alias or its name: `populate_by_name`, `/repo/draftsman/signatures.py:242-247`. -/
def fetch (i : Info) (o : Obj) : Option Doc :=
  match o.get i.key with
  | some d => some d
  | none => o.get i.name

/-- Whether a key is that of a value which was taken for a field, `/repo/draftsman/signatures.py:242-247`. -/
def used (k : String) (o : Obj) : Fields → Bool
  | .nil => false
  | .cons i _ r => decide (k = if (o.get i.key).isSome then i.key else i.name) || used k o r

/-- The keys for which this does not hold.  `model_extra`, `/repo/draftsman/signatures.py:242-247`. -/
def Obj.without (p : String → Bool) : Obj → Obj
  | .nil => .nil
  | .cons k d r => if p k then r.without p else .cons k d (r.without p)

/-- The values of a list, read one by one, `/repo/draftsman/signatures.py:1185`. -/
def Docs.load (f : Doc → Except PyErr Val) : Docs → Except PyErr Vals
  | .nil => .ok .nil
  | .cons d r => match f d with
    | .error e => .error e
    | .ok v => match r.load f with
      | .error e => .error e
      | .ok vs => .ok (.cons v vs)

/-- Reading one field, `/repo/draftsman/signatures.py:145-162`. -/
def loadField (i : Info) (f : Doc → Except PyErr Val) : Option Doc → Except PyErr Val
  | none => match i.dflt with
    | some d => .ok d
    | none => .error .dataFormat
  | some .null => if i.opt then .ok .none else .error .dataFormat
  | some d => f d

mutual
/-- Reading: `model_validate` with the fields of `/repo/draftsman/signatures.py:145-162`.  A `ValidationError` becomes a `DataFormatError`. -/
def load : Shape → Doc → Except PyErr Val
  | _, .null => .error .dataFormat
  | .plain, d => .ok (.raw d)
  | .list s, .arr l => match l.load (load s) with
    | .error e => .error e
    | .ok vs => .ok (.list vs)
  | .model keep fs, .obj o => match loadFields fs o with
    | .error e => .error e
    | .ok vs => .ok (.model vs (if keep then o.without (fun k => used k o fs) else .nil))
  | _, _ => .error .dataFormat
/-- Reading the fields one by one: the default if nothing is given, `None` if it may be `None`.  `/repo/draftsman/signatures.py:145-162`. -/
def loadFields : Fields → Obj → Except PyErr Vals
  | .nil, _ => .ok .nil
  | .cons i s r, o => match loadField i (load s) (fetch i o) with
    | .error e => .error e
    | .ok v => match loadFields r o with
      | .error e => .error e
      | .ok vs => .ok (.cons v vs)
end

/-- What is exported for a field of an entity, if anything, `/repo/draftsman/classes/exportable.py:318-337`. -/
def exported (i : Info) (s : Shape) (v : Val) : Option Doc := if leftOut i v then none else some (dump s v)

/-- `ControlBehaviorMixin.to_dict`, `/repo/draftsman/classes/mixins/control_behavior.py:98-107`: an empty control behavior is deleted. -/
def tidy : Option Doc → Option Doc
  | some (.obj .nil) => none
  | d => d

/-- The field `control_behavior` of an entity whose control behavior has the default `dflt`.  E.g. `/repo/draftsman/prototypes/accumulator.py:37`. -/
def controlField (dflt : Val) : Info := ⟨"control_behavior", "control_behavior", true, some dflt, false⟩

end Nested
end Draftsman
