import Verif.Model.Py
import Verif.Model.Dict
import Verif.Model.Direction
import Mathlib.Data.Int.Bitwise
import Mathlib.Data.Rat.Defs
/-
Entities with setters of their own: the link of linked containers (`/repo/draftsman/prototypes/linked_container.py:36-131`), the filters of infinity
containers (`/repo/draftsman/prototypes/infinity_container.py:25-225`), the export of electric energy interfaces
(`/repo/draftsman/prototypes/electric_energy_interface.py:78-232`), and the sections of constant combinators and requesters
(`/repo/draftsman/prototypes/constant_combinator.py:247-278`, `/repo/draftsman/classes/mixins/request_filters.py:263-294`).
-/
namespace Draftsman
namespace Special

/-! ### Linked containers -/

/-- What a link may be set to: `None`, an `int` (a `bool` is one), or something else, where `other` is what pydantic makes of it as `int` when it
converts leniently, e.g. `"7"` or `7.0`, if anything.  `/repo/draftsman/prototypes/linked_container.py:98`. -/
inductive LinkArg where
  | none
  | int (n : Int)
  | other (asInt : Option Int)
  deriving DecidableEq, Repr

/-- `only_use_lowest_bits`, `/repo/draftsman/prototypes/linked_container.py:34-42`. -/
def onlyUseLowestBits : LinkArg → LinkArg
  | .int n => .int (Int.land n 0xFFFFFFFF)
  | v => v

/-- `Optional[uint32]`: `/repo/draftsman/prototypes/linked_container.py:28` with `/repo/draftsman/signatures.py:70`, validated leniently
(`/repo/draftsman/classes/exportable.py:32`). -/
def linkField : LinkArg → Except PyErr LinkArg
  | .none => .ok .none
  | .int n => if 0 ≤ n ∧ n < 2 ^ 32 then .ok (.int n) else .error .dataFormat
  | .other (some n) => if 0 ≤ n ∧ n < 2 ^ 32 then .ok (.int n) else .error .dataFormat
  | .other Option.none => .error .dataFormat

/-- What is stored: 0 in place of `None`.  `/repo/draftsman/prototypes/linked_container.py:105-108`. -/
def storeLink : LinkArg → LinkArg
  | .none => .int 0
  | v => v

/-- `link_id = value`, `/repo/draftsman/prototypes/linked_container.py:98-108`; the state is what is stored. -/
def setLinkId (mode : ValidationMode) (s : LinkArg) (v : LinkArg) : LinkArg × Option PyErr :=
  if mode ≠ .none then
    match linkField (onlyUseLowestBits v) with
    | .ok w => (storeLink w, Option.none)
    | .error e => (s, some e)
  else (storeLink v, Option.none)

/-- `set_link`, `/repo/draftsman/prototypes/linked_container.py:122-131`; `number` and `enabled` after `int` and `bool`.  `|` and `&` of
something that is not an `int` is a `TypeError` (simplified: a float or a string; other objects might define the operators). -/
def setLink (mode : ValidationMode) (s : LinkArg) (number : Int) (enabled : Bool) : LinkArg × Option PyErr :=
  if ¬(0 ≤ number ∧ number < 32) then (s, some .valueError)
  else match s with
    | .int v =>
      if enabled then setLinkId mode s (.int (Int.lor v (2 ^ number.toNat)))
      else setLinkId mode s (.int (Int.land v (Int.lnot (2 ^ number.toNat))))
    | _ => (s, some .typeError)

/-- A call on a linked container.  Part of the model only: `/repo/draftsman/prototypes/linked_container.py:98-131`. -/
inductive LinkCall where
  | assign (v : LinkArg)
  | link (number : Int) (enabled : Bool)

/-- One call, `/repo/draftsman/prototypes/linked_container.py:98-131`; what is raised is caught by the caller. -/
def linkStep (mode : ValidationMode) (s : LinkArg) : LinkCall → LinkArg
  | .assign v => (setLinkId mode s v).1
  | .link n b => (setLink mode s n b).1

/-! ### Infinity containers -/

/-- `InfinityFilter`, `/repo/draftsman/prototypes/infinity_container.py:27-57`. -/
structure InfFilter where
  index : Int
  name : String
  count : Option Int
  mode : Option String
  deriving DecidableEq, Repr

/-- The arguments of `set_infinity_filter`, `/repo/draftsman/prototypes/infinity_container.py:176-182`: the index after `int` (line 195). -/
structure InfArgs where
  index : Int
  item : Option String
  mode : Option String
  count : Option Int

/-- The modes, `/repo/draftsman/prototypes/infinity_container.py:48`. -/
def infModes : List String := ["at-least", "at-most", "exactly"]

/-- The count: the stack size of a known item by default, `/repo/draftsman/prototypes/infinity_container.py:196-200`.  `stack` is
`items.raw.get(item, {}).get("stack_size")`. -/
def defaultCount (stack : String → Option Int) (a : InfArgs) : Option Int :=
  match a.count with
  | some c => some c
  | none => match a.item with
    | none => some 0
    | some i => some ((stack i).getD 0)

/-- `InfinityFilter(index=…, name=…, count=…, mode=…)`, `/repo/draftsman/prototypes/infinity_container.py:213-219`: validated without context, in
every mode. -/
def makeFilter (index : Int) (name : Option String) (count : Option Int) (mode : Option String) : Except PyErr InfFilter :=
  match name with
  | none => .error .dataFormat
  | some n =>
    if (0 ≤ index ∧ index < 2 ^ 16) ∧ (∀ c ∈ count, 0 ≤ c ∧ c < 2 ^ 32) ∧ (∀ m ∈ mode, m ∈ infModes) then .ok ⟨index, n, count, mode⟩
    else .error .dataFormat

/-- The settings of an infinity container: `None`, or a model whose `filters` are `None` or a list.
`/repo/draftsman/prototypes/infinity_container.py:59-75`. -/
abbrev InfSettings := Option (Option (List InfFilter))

/-- The position of the first filter with an index, `/repo/draftsman/prototypes/infinity_container.py:204-210`. -/
def findFilter (fs : List InfFilter) (i : Int) : Option Nat := fs.findIdx? (fun f => decide (i = f.index))

/-- `set_infinity_filter`, `/repo/draftsman/prototypes/infinity_container.py:195-225`. -/
def setInfinityFilter (stack : String → Option Int) (s : InfSettings) (a : InfArgs) : InfSettings × Option PyErr :=
  match s with
  | some (some fs) =>
    match findFilter fs (a.index + 1), a.item with
    | some k, none => (some (some (fs.eraseIdx k)), none)
    | found, item =>
      match makeFilter (a.index + 1) item (defaultCount stack a) a.mode with
      | .error e => (s, some e)
      | .ok f => match found with
        | some k => (some (some (fs.set k f)), none)
        | none => (some (some (fs ++ [f])), none)
  | _ => (s, some .typeError)

/-! ### Electric energy interfaces -/

/-- The three values, `/repo/draftsman/prototypes/electric_energy_interface.py:26-49`. -/
inductive Key where
  | buffer | production | usage
  deriving DecidableEq, Repr

/-- The values of an interface, and likewise the defaults of its prototype: `None` if unknown.
`/repo/draftsman/prototypes/electric_energy_interface.py:102-143`. -/
abbrev Values := Key → Option Rat

/-- An exported interface, only the keys of interest: `/repo/draftsman/prototypes/electric_energy_interface.py:220-222`. -/
abbrev Exported := Key → Option (Option Rat)

/-- `super().to_dict`, `/repo/draftsman/prototypes/electric_energy_interface.py:220-222` with `/repo/draftsman/classes/exportable.py:305-320`:
`None` is the default of each field, so it is left out by either option. -/
def baseDict (excludeNone excludeDefaults : Bool) (v : Values) : Exported := fun k =>
  match v k with
  | some q => some (some q)
  | none => if excludeNone || excludeDefaults then none else some none

/-- `if result.get(key, None) == default: del result[key]`, `/repo/draftsman/prototypes/electric_energy_interface.py:225-226`. -/
def dropDefault (default : Values) (k : Key) (r : Exported) : Except PyErr Exported :=
  if (r k).getD none = default k then
    match r k with
    | some _ => .ok (fun j => if j = k then none else r j)
    | none => .error .keyError
  else .ok r

/-- `to_dict`, `/repo/draftsman/prototypes/electric_energy_interface.py:219-232`. -/
def interfaceDict (default : Values) (excludeNone excludeDefaults : Bool) (v : Values) : Except PyErr Exported :=
  if excludeDefaults then do
    let r ← dropDefault default .buffer (baseDict excludeNone excludeDefaults v)
    let r ← dropDefault default .production r
    dropDefault default .usage r
  else .ok (baseDict excludeNone excludeDefaults v)

/-- The constructor given the keys of an exported interface, `/repo/draftsman/prototypes/electric_energy_interface.py:82-95`. -/
def interfaceInit (default : Values) (r : Exported) : Values := fun k =>
  match (r k).getD none with
  | none => default k
  | some q => some q

/-! ### Sections -/

/-- A `Section`, `/repo/draftsman/signatures.py:1183-1189`; `active` is an extra key.  The filters are those of `Model/Slots.lean`. -/
structure Section where
  index : Int
  group : Option String
  active : Bool
  deriving DecidableEq, Repr

/-- `Section(**section)` and the rest of `add_section`, `/repo/draftsman/prototypes/constant_combinator.py:276-278` and
`/repo/draftsman/classes/mixins/request_filters.py:292-294`.  The `ValidationError` of pydantic is a `ValueError`; the index is an `uint32`
(`/repo/draftsman/signatures.py:1184`). -/
def appendSection (s : Option (List Section)) (new : Section) : Option (List Section) × Except PyErr Section :=
  if 0 ≤ new.index ∧ new.index < 2 ^ 32 then
    match s with
    | some l => (some (l ++ [new]), .ok new)
    | none => (s, .error .attributeError)
  else (s, .error .valueError)

/-- `add_section`, `/repo/draftsman/prototypes/constant_combinator.py:269-278` and `/repo/draftsman/classes/mixins/request_filters.py:285-294`.
`sections` may be `None` (`/repo/draftsman/prototypes/constant_combinator.py:198-200`). -/
def addSection (s : Option (List Section)) (group : Option String) (index : Option Int) (active : Bool) :
    Option (List Section) × Except PyErr Section :=
  match index with
  | some i => appendSection s ⟨i + 1, group, active⟩
  | none => match s with
    | some l => appendSection s ⟨l.length + 1, group, active⟩
    | none => (s, .error .typeError)

end Special
end Draftsman
