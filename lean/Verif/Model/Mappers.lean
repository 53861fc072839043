import Verif.Model.Checks
/-
The forms in which a mapping of an upgrade planner can be given: `/repo/draftsman/data/signals.py:132-158`, `/repo/draftsman/signatures.py:250-308`,
`/repo/draftsman/classes/upgrade_planner.py:289-304, 558-675`.

Simplified: a target given as a dictionary has the keys `name` and `type` and no others; the value assigned to `mappers` is a list, and an integer is the index of
each mapper.  Not modelled: the assignment while `validate_assignment` is `NONE` (`construct_fields`, `/repo/draftsman/signatures.py:145-162`, then keeps what
fails), and a planner without settings.
-/
namespace Draftsman
namespace Mappers
open Upgrade

/-- What is looked up: `modules.raw` (only which names are there), `entities.raw` and `items.raw`.  `/repo/draftsman/data/modules.py:12`,
`/repo/draftsman/data/entities.py:19`, `/repo/draftsman/data/items.py:12`. -/
structure Data where
  modules : String → Bool
  tables : Tables

/-- A target as it is given: `None`, a name, a dictionary, or a `MapperID` model.  `/repo/draftsman/classes/upgrade_planner.py:600`,
`/repo/draftsman/signatures.py:250-280`. -/
inductive Ref where
  | blank
  | name (n : String)
  | dict (d : Id)
  | model (d : Id)
  deriving DecidableEq, Repr

/-- `get_mapper_type`, `/repo/draftsman/data/signals.py:132-142`.  `InvalidMapperError` is a `DraftsmanError`, `/repo/draftsman/error.py:279`. -/
def mapperType (D : Data) (n : String) : Except PyErr String :=
  if D.modules n then .ok "item"
  else if (D.tables.ent n).isSome then .ok "entity"
  else .error .draftsmanError

/-- `mapper_dict`, `/repo/draftsman/data/signals.py:145-158`.  A model is no dictionary, so that it is looked up in `modules.raw`; models define `__eq__`
and no `__hash__`, and looking up what cannot be hashed is a `TypeError`. -/
def mapperDict (D : Data) : Ref → Except PyErr (Option Id)
  | .blank => .ok none
  | .dict d => .ok (some d)
  | .name n => (mapperType D n).map fun t => some ⟨n, t⟩
  | .model _ => .error .typeError

/-- `set_mapping`, `/repo/draftsman/classes/upgrade_planner.py:598-642`: the targets first, in order. -/
def setRef (D : Data) (s : S) (f t : Ref) (i : Int) : S × Option PyErr :=
  match mapperDict D f with
  | .error e => (s, some e)
  | .ok f' => match mapperDict D t with
    | .error e => (s, some e)
    | .ok t' => (setMapping s f' t' i, none)

/-- `remove_mapping`, `/repo/draftsman/classes/upgrade_planner.py:644-693`: the targets first, in order. -/
def removeRef (D : Data) (s : S) (f t : Ref) (i : Option Int) : S × Option PyErr :=
  match mapperDict D f with
  | .error e => (s, some e)
  | .ok f' => match mapperDict D t with
    | .error e => (s, some e)
    | .ok t' => removeMapping s f' t' i

/-- Validation as `Optional[MapperID]`, `/repo/draftsman/signatures.py:250-280, 288-299`: `init_from_string` turns a name into a dictionary, or raises a
`ValueError`, which fails the validation; the type is one of two; a model is validated again (`revalidate_instances`, `/repo/draftsman/signatures.py:245`). -/
def checkRef (D : Data) : Ref → Except PyErr (Option Id)
  | .blank => .ok none
  | .name n => match mapperType D n with
    | .ok t => .ok (some ⟨n, t⟩)
    | .error _ => .error .dataFormat
  | .dict d | .model d => if d.type = "entity" ∨ d.type = "item" then .ok (some d) else .error .dataFormat

/-- Is it true in an `if`: `/repo/draftsman/classes/upgrade_planner.py:296-299`. -/
def truthy : Ref → Bool
  | .blank => false
  | .name n => decide (n ≠ "")
  | _ => true

/-- Validation as `Mapper`, `/repo/draftsman/signatures.py:283-308`; `uint64` is `/repo/draftsman/signatures.py:71-73`.  What is left of a sequence or is no
mapping at all fails.  A `Mapper` model given is validated again, just as the dictionary of its fields. -/
def checkMapper (D : Data) : Checks.MapperArg Ref → Except PyErr Ent
  | .dict i f t => match checkRef D (f.getD .blank), checkRef D (t.getD .blank) with
    | .ok f', .ok t' => if 0 ≤ i ∧ i < 2 ^ 64 then .ok ⟨i, f', t', false⟩ else .error .dataFormat
    | _, _ => .error .dataFormat
  | _ => .error .dataFormat

/-- Validation as `list[Mapper]`, `/repo/draftsman/classes/upgrade_planner.py:277-282`. -/
def checkList (D : Data) : List (Checks.MapperArg Ref) → Except PyErr (List Ent)
  | [] => .ok []
  | m :: r => match checkMapper D m, checkList D r with
    | .ok e, .ok es => .ok (e :: es)
    | _, _ => .error .dataFormat

/-- The modes that validate: `/repo/draftsman/constants.py:801-832`. -/
inductive Mode where
  | minimum | strict | pedantic
  deriving DecidableEq, Repr

/-- The mode as it stands in the context: `/repo/draftsman/constants.py:801-832`. -/
def Mode.val : Mode → ValidationMode
  | .minimum => .minimum
  | .strict => .strict
  | .pedantic => .pedantic

/-- The setter of `mappers`, `/repo/draftsman/classes/upgrade_planner.py:574-583` with `test_replace_me`, `/repo/draftsman/classes/exportable.py:81-130`, in a
mode that validates; `none` is `None`.  The check of the whole settings, `ensure_mappers_valid`, is made when the value is already stored in them (pydantic's
`validate_assignment` stores before it calls validators of mode "after"). -/
def assign (D : Data) (mode : Mode) (s : S) (v : Option (List (Checks.MapperArg Ref))) : S × Option PyErr :=
  match v with
  | none => (none, none)
  | some l => match checkList D (Checks.normalizeMappers truthy l) with
    | .error e => (s, some e)
    | .ok es => match Checks.mappersValid D.tables (some mode.val) (some es) with
      | .error e => (some es, some e)
      | .ok _ => (some es, none)

end Mappers
end Draftsman
