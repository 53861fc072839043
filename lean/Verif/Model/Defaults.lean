import Verif.Model.CtorTable
import Verif.Model.FormatTable
/-
Export of the fields of an entity, `Exportable.to_dict` (`/repo/draftsman/classes/exportable.py:318-337`) with the exception made by electric
energy interfaces (`/repo/draftsman/prototypes/electric_energy_interface.py:219-232`), together with the defaults of formats
(`Model/FormatTable.lean`) and the constructors (`Model/CtorTable.lean`).

Simplified: a value is whatever tells Python objects apart by `==`; what is exported for a field stands for the value it was made from (inside
nested models more is left out; an empty `control_behavior` is the default one).  The position is a required field and always exported.
-/
namespace Draftsman
namespace Ctor
open Attr

/-- The default that the format of a class declares for a field: the one of the most special format that has the field.
`/repo/draftsman/prototypes/lamp.py:27-33`. -/
def Kind.formatDefault (c : Kind) (f : String) : Option String :=
  (((formatLayers.lookup c.cls.name).getD []).findSome? (fun l => l.lookup f)).join

/-- The fields that hold a model, which pydantic makes of an empty dictionary: `/repo/draftsman/prototypes/accumulator.py:37`,
`/repo/draftsman/classes/mixins/inventory_filter.py:76`, `/repo/draftsman/prototypes/infinity_container.py:73`,
`/repo/draftsman/prototypes/infinity_pipe.py:91`, `/repo/draftsman/classes/mixins/request_filters.py:41`,
`/repo/draftsman/prototypes/programmable_speaker.py:293` and 329. -/
def modelFields : List String := ["control_behavior", "inventory", "infinity_settings", "request_filters", "parameters", "alert_parameters"]

/-- What objects are worth to `==`: the worth of a text of the source, and of what pydantic makes of a value for a field.  A default is worth its
text and is not changed by conversion, and an empty dictionary becomes the default model.  `/repo/draftsman/signatures.py:145-162`. -/
structure Sense (w : World) (c : Kind) (V : Type) where
  val : Obj → V
  text : String → V
  conv : String → V → V
  none : val .none = text "None"
  const : ∀ t, val (.const t) = text t
  shared : ∀ a p t, val (.shared a p t) = text t
  new : ∀ n a t, t ≠ "default" → val (.new n a t) = text t
  dflt : ∀ n f d, c.formatDefault f = some d → val (.new n f "default") = text d
  coerce : ∀ f o, val (w.coerce f o) = conv f (val o)
  keep : ∀ f d, c.formatDefault f = some d → conv f (text d) = text d
  empty : ∀ f d, f ∈ modelFields → c.formatDefault f = some d → conv f (text "{}") = text d

/-- The fields of electric energy interfaces with a default of their own, `/repo/draftsman/prototypes/electric_energy_interface.py:224-230`. -/
def ownFields : List String := ["buffer_size", "power_production", "power_usage"]

/-- Whether a field with this value is left out: `exclude_none`, `exclude_defaults`, `exclude=True` (`/repo/draftsman/classes/entity.py:131-133`), and the
defaults of electric energy interfaces.  `/repo/draftsman/classes/exportable.py:318-337`, `/repo/draftsman/prototypes/electric_energy_interface.py:219-232`. -/
def leftOut {w : World} {c : Kind} {V : Type} [DecidableEq V] (S : Sense w c V) (f : String) (o : Obj) : Bool :=
  decide (f = "entity_number") || decide (S.val o = S.text "None") || (match c.formatDefault f with
    | some d => decide (S.val o = S.text d)
    | none => false) ||
  (decide (c.cls.name = "ElectricEnergyInterface") && decide (f ∈ ownFields) && decide (S.val o = S.val (w.own ("default_" ++ f))))

/-- What `to_dict()` returns: the fields that are not left out, under their exported names.  `/repo/draftsman/classes/exportable.py:318-337`. -/
def dump {w : World} {c : Kind} {V : Type} [DecidableEq V] (S : Sense w c V) (e : Ent) : Kw := fun k =>
  match (fieldNames c.cls.fresh).find? (fun f => decide (c.key f = k)) with
  | some f => match e.root f with
    | some o => if leftOut S f o then none else some o
    | none => none
  | none => none

/-- Whether `del result[f]` comes upon a missing key: an electric energy interface with `None` for a number has no such key after
`super().to_dict`, `result.get(f, None)` is `None`, and so is the default if the game data say nothing of the entity.
`/repo/draftsman/prototypes/electric_energy_interface.py:219-232`. -/
def delMissing {w : World} {c : Kind} {V : Type} [DecidableEq V] (S : Sense w c V) (e : Ent) : Bool :=
  decide (c.cls.name = "ElectricEnergyInterface") && ownFields.any fun f =>
    decide (S.val (w.own ("default_" ++ f)) = S.text "None") && (match e.root f with
      | some o => decide (S.val o = S.text "None")
      | none => true)

/-- `to_dict()`, `/repo/draftsman/classes/exportable.py:318-337` with `/repo/draftsman/prototypes/electric_energy_interface.py:219-232`. -/
def toDict {w : World} {c : Kind} {V : Type} [DecidableEq V] (S : Sense w c V) (e : Ent) : Except PyErr Kw :=
  if delMissing S e then .error .keyError else .ok (dump S e)

end Ctor
end Draftsman
