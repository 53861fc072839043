import Verif.Model.Direction
import Verif.Model.Instruments
import Verif.Model.Upgrade
/-
The checks of single fields, which append warnings to a list while a model is validated: names and signals (`/repo/draftsman/signatures.py:76-97,
435-460, 860-880, 928-948, 1157-1180`), inventories (`/repo/draftsman/classes/mixins/inventory.py:39-122`), the grid of rails
(`/repo/draftsman/classes/mixins/double_grid_aligned.py:21-45`), heat interfaces (`/repo/draftsman/prototypes/heat_interface.py:38-57`), speakers
(`/repo/draftsman/prototypes/programmable_speaker.py:97-291`), arithmetic combinators (`/repo/draftsman/prototypes/arithmetic_combinator.py:117-208`)
and upgrade planners (`/repo/draftsman/classes/upgrade_planner.py:289-380`).
Simplified: a warning carries what its text tells, not the text; suggestions of similar names are left out.  A `ValueError` raised by a check is the failure
of its field (pydantic turns it into a `ValidationError`), other exceptions escape.
-/
namespace Draftsman
namespace Checks

/-- The warnings, `/repo/draftsman/warning.py`; each with what its text tells. -/
inductive Warn where
  | unknownName (kind name : String)
  | mismatch (name : String) (type : Option String)
  | instrumentId (i : Int)
  | instrumentName (n : String)
  | noteId (i : Int)
  | noteName (n : String)
  | volume (q : Rat)
  | temperature (q : Rat)
  | barDisabled
  | barTooLarge (bar size : Int)
  | grid (x y castX castY : Int)
  | forbidden (name : String)
  | each
  | upgrade (r : Upgrade.Reason)
  | overwritten (index : Int) (times : Nat) (src dst : Option String)
  deriving DecidableEq, Repr

/-- `not info.context`, or the mode in the context: `/repo/draftsman/signatures.py:82-85` and alike. -/
abbrev Ctx := Option ValidationMode

/-- `not info.context` or `info.context["mode"] <= limit`: the two tests at the beginning of the checks, e.g. `/repo/draftsman/signatures.py:82-85`. -/
def skip (limit : ValidationMode) : Ctx → Bool
  | none => true
  | some m => ValidationMode.le m limit

/-! ### Names and signals -/

/-- `known_name`, `/repo/draftsman/signatures.py:76-97`. -/
def knownName (kind : String) (structure_ : List String) (ctx : Ctx) (value : String) : List Warn :=
  if skip .minimum ctx then [] else if value ∈ structure_ then [] else [.unknownName kind value]

/-- `check_type_matches_name`, `/repo/draftsman/signatures.py:435-460`; `raw` is `signals.raw`, `types` is `get_signal_types`, which does not fail for
names in `raw` (`Model/Signals.lean`). -/
def typeMatches (raw : List String) (types : String → List String) (ctx : Ctx) (name : String) (type : Option String) : List Warn :=
  if skip .minimum ctx then []
  else if name ∈ raw then
    if type.any (fun t => decide (t ∈ types name)) then [] else [.mismatch name type]
  else []

/-- `pure_virtual`: `/repo/draftsman/data/signals.py:30`. -/
def pureVirtual : List String := ["signal-everything", "signal-anything", "signal-each"]

/-- `ensure_not_pure_virtual`, `/repo/draftsman/signatures.py:1157-1180`: the text of the warning asks for the `name` of a `str`. -/
def notPureVirtual (ctx : Ctx) (value : String) : Except PyErr (List Warn) :=
  if skip .minimum ctx then .ok []
  else if value ∈ pureVirtual then .error .attributeError
  else .ok []

/-- `ensure_within_filter_count`, `/repo/draftsman/signatures.py:860-880`. -/
def withinFilterCount (filterCount : Option Int) (ctx : Ctx) (value : Int) : Except PyErr (List Warn) :=
  if skip .minimum ctx then .ok []
  else match filterCount with
    | none => .ok []
    | some n => if value > n then .error .valueError else .ok []

/-! ### Inventories -/

/-- The parts of a prototype that are read, `none` for missing keys: `/repo/draftsman/classes/mixins/inventory.py:78-122`. -/
structure Proto where
  size : Option Int
  barEnabled : Option Bool
  qualityAffects : Option Bool

/-- `inventory_bar_enabled`, `/repo/draftsman/classes/mixins/inventory.py:78-88`; `none` for `None`. -/
def inventoryBarEnabled (p : Option Proto) : Option Bool := p.map fun p => p.barEnabled.getD true

/-- `quality_affects_inventory_size`, `/repo/draftsman/classes/mixins/inventory.py:92-100`. -/
def qualityAffectsSize (p : Option Proto) : Option Bool := p.map fun p => p.qualityAffects.getD true

/-- The factors, `/repo/draftsman/classes/mixins/inventory.py:115-121`. -/
def multiplier : String → Option Rat
  | "normal" => some 1
  | "uncommon" => some (13 / 10)
  | "rare" => some (16 / 10)
  | "epic" => some (19 / 10)
  | "legendary" => some (25 / 10)
  | _ => none

/-- `inventory_size`, `/repo/draftsman/classes/mixins/inventory.py:104-122`; the quality is what is stored, `none` for `None`. -/
def inventorySize (p : Option Proto) (quality : Option String) : Except PyErr (Option Int) :=
  match p.bind (·.size) with
  | none => .ok none
  | some n =>
    if qualityAffectsSize p = some true then
      match quality.bind multiplier with
      | some f => .ok (some ⌊(n : Rat) * f⌋)
      | none => .error .keyError
    else .ok (some n)

/-- `ensure_inventory_bar_enabled`, `/repo/draftsman/classes/mixins/inventory.py:39-59`. -/
def barEnabledCheck (p : Option Proto) (ctx : Ctx) (bar : Option Int) : List Warn :=
  match bar with
  | none => []
  | some _ => if skip .minimum ctx then [] else if inventoryBarEnabled p = some false then [.barDisabled] else []

/-- `ensure_bar_less_than_inventory_size`, `/repo/draftsman/signatures.py:928-948`. -/
def barLessCheck (p : Option Proto) (quality : Option String) (ctx : Ctx) (bar : Option Int) : Except PyErr (List Warn) :=
  match bar with
  | none => .ok []
  | some b =>
    if skip .strict ctx then .ok []
    else match inventorySize p quality with
      | .error e => .error e
      | .ok none => .ok []
      | .ok (some n) => if n ≠ 0 ∧ b ≥ n then .ok [.barTooLarge b n] else .ok []

/-- Both checks of `bar`, in order: `/repo/draftsman/classes/mixins/inventory.py:39-66`. -/
def barCheck (p : Option Proto) (quality : Option String) (ctx : Ctx) (bar : Option Int) : Except PyErr (List Warn) :=
  (barLessCheck p quality ctx bar).map fun l => barEnabledCheck p ctx bar ++ l

/-! ### Grid, temperature, volume -/

/-- `ensure_double_grid_aligned`, `/repo/draftsman/classes/mixins/double_grid_aligned.py:21-45`. -/
def gridAligned (ctx : Ctx) (tile : Int × Int) : List Warn :=
  if skip .minimum ctx then []
  else if tile.1 % 2 = 1 ∨ tile.2 % 2 = 1 then [.grid tile.1 tile.2 (⌊(tile.1 : Rat) / 2⌋ * 2) (⌊(tile.2 : Rat) / 2⌋ * 2)]
  else []

/-- `clamp_temperature`, `/repo/draftsman/prototypes/heat_interface.py:38-57`. -/
def temperatureCheck (ctx : Ctx) (value : Option Rat) : List Warn :=
  match value with
  | none => []
  | some q => if skip .strict ctx then [] else if 0 ≤ q ∧ q ≤ 1000 then [] else [.temperature q]

/-- `volume_in_range`, `/repo/draftsman/prototypes/programmable_speaker.py:272-291`. -/
def volumeCheck (ctx : Ctx) (value : Option Rat) : Except PyErr (List Warn) :=
  match ctx with
  | none => .ok []
  | some .minimum => .ok []
  | some m =>
    match value with
    | none => .ok []
    | some q =>
      if 0 ≤ q ∧ q ≤ 1 then .ok []
      else if m = .pedantic then .error .valueError
      else .ok [.volume q]

/-! ### Speakers -/

/-- `ensure_instrument_id_known`, `/repo/draftsman/prototypes/programmable_speaker.py:97-127`; `t` is `none` if the entity is not known. -/
def instrumentIdCheck (t : Option Instruments.Tables) (ctx : Ctx) (value : Option Int) : List Warn :=
  if skip .minimum ctx then []
  else match t, value with
    | some t, some i => if (t.nameOf.get? i).isNone then [.instrumentId i] else []
    | _, _ => []

/-- `ensure_instrument_name_known`, `/repo/draftsman/prototypes/programmable_speaker.py:129-159`. -/
def instrumentNameCheck (t : Option Instruments.Tables) (ctx : Ctx) (value : Option String) : List Warn :=
  if skip .minimum ctx then []
  else match t, value with
    | some t, some n => if (t.indexOf.get? n).isNone then [.instrumentName n] else []
    | _, _ => []

/-- `ensure_note_id_known`, `/repo/draftsman/prototypes/programmable_speaker.py:161-199`; `current` is what the entity stores while the value is checked. -/
def noteIdCheck (t : Option Instruments.Tables) (current : Instruments.Speaker) (ctx : Ctx) (value : Option Int) : List Warn :=
  if skip .minimum ctx then []
  else match t with
    | none => []
    | some t =>
      match current.instrument.bind t.nameOf.get?, value with
      | some e, some j => if (e.get? (some j)).isNone then [.noteId j] else []
      | _, _ => []

/-- `ensure_note_name_known`, `/repo/draftsman/prototypes/programmable_speaker.py:201-239`. -/
def noteNameCheck (t : Option Instruments.Tables) (current : Instruments.Speaker) (ctx : Ctx) (value : Option String) : List Warn :=
  if skip .minimum ctx then []
  else match t with
    | none => []
    | some t =>
      match (Instruments.getInstrument t current).bind t.indexOf.get?, value with
      | some e, some n => if (e.get? n).isNone then [.noteName n] else []
      | _, _ => []

/-- The checks of the two numbers of `CircuitParameters` in the order of the fields, `/repo/draftsman/prototypes/programmable_speaker.py:56-95`: `new` is
validated while the entity stores `current`. -/
def parametersCheck (t : Option Instruments.Tables) (current : Instruments.Speaker) (ctx : Ctx) (new : Instruments.Speaker) : List Warn :=
  instrumentIdCheck t ctx new.instrument ++ noteIdCheck t current ctx new.note

/-! ### Arithmetic combinators -/

/-- The names of the three signals, `none` for `None`: `/repo/draftsman/prototypes/arithmetic_combinator.py:55-108`. -/
structure Arith where
  first : Option String
  second : Option String
  output : Option String

/-- The loop over the signals with its `break`, `/repo/draftsman/prototypes/arithmetic_combinator.py:131-140`. -/
def firstForbidden : List (Option String) → List Warn
  | [] => []
  | none :: r => firstForbidden r
  | some n :: r => if n = "signal-anything" ∨ n = "signal-everything" then [.forbidden n] else firstForbidden r

/-- `ensure_no_forbidden_signals`, `/repo/draftsman/prototypes/arithmetic_combinator.py:117-142`. -/
def noForbidden (ctx : Ctx) (a : Arith) : List Warn :=
  if skip .minimum ctx then [] else firstForbidden [a.first, a.second, a.output]

/-- `ensure_proper_each_configuration`, `/repo/draftsman/prototypes/arithmetic_combinator.py:174-208`. -/
def properEach (ctx : Ctx) (a : Arith) : List Warn :=
  if skip .minimum ctx then []
  else
    let eachInInputs :=
      if a.first = some "signal-each" then true
      else if a.second = some "signal-each" then true
      else false
    match a.output with
    | some n => if n = "signal-each" ∧ eachInInputs = false then [.each] else []
    | none => []

/-! ### Upgrade planners -/

/-- A mapper given as it is, or as a sequence of values.  `/repo/draftsman/classes/upgrade_planner.py:294-301`. -/
inductive MapperArg (V : Type) where
  | seq (items : List V)
  | dict (index : Int) (src dst : Option V)
  | other (v : V)
  deriving DecidableEq

/-- One turn of the loop, `/repo/draftsman/classes/upgrade_planner.py:294-301`; `none` if it raises (`IndexError`). -/
def normalizeMapper {V : Type} (truthy : V → Bool) (i : Nat) : MapperArg V → Option (MapperArg V)
  | .seq (a :: b :: _) => some (.dict i (if truthy a then some a else none) (if truthy b then some b else none))
  | .seq _ => none
  | m => some m

/-- The loop, `/repo/draftsman/classes/upgrade_planner.py:292-302`. -/
def normalizeLoop {V : Type} (truthy : V → Bool) : Nat → List (MapperArg V) → Option (List (MapperArg V))
  | _, [] => some []
  | i, m :: r => match normalizeMapper truthy i m, normalizeLoop truthy (i + 1) r with
    | some m', some r' => some (m' :: r')
    | _, _ => none

/-- `normalize_mappers` of a list, `/repo/draftsman/classes/upgrade_planner.py:289-304`: any exception gives the value back as it was. -/
def normalizeMappers {V : Type} (truthy : V → Bool) (l : List (MapperArg V)) : List (MapperArg V) :=
  (normalizeLoop truthy 0 l).getD l

/-- `occupied_indices` after one mapper: for each index how often it was occupied again, and the last mapper.
`/repo/draftsman/classes/upgrade_planner.py:348-356`. -/
def occupy (d : Dict Int (Nat × Upgrade.Ent)) (m : Upgrade.Ent) : Dict Int (Nat × Upgrade.Ent) :=
  match d.get? m.index with
  | some (c, _) => d.set m.index (c + 1, m)
  | none => d.set m.index (0, m)

/-- The loop over the mappers, `/repo/draftsman/classes/upgrade_planner.py:321-356`. -/
def mapperLoop (T : Upgrade.Tables) (ws : List Warn) (d : Dict Int (Nat × Upgrade.Ent)) :
    List Upgrade.Ent → Except PyErr (List Warn × Dict Int (Nat × Upgrade.Ent))
  | [] => .ok (ws, d)
  | m :: r => match Upgrade.checkPair T m.frm m.to with
    | .error e => .error e
    | .ok reasons => mapperLoop T (ws ++ (reasons.getD []).map .upgrade) (occupy d m) r

/-- The warnings about indices occupied more than once, `/repo/draftsman/classes/upgrade_planner.py:359-378`. -/
def overwrites (d : Dict Int (Nat × Upgrade.Ent)) : List Warn :=
  d.flatMap fun e => if e.2.1 > 0 then [.overwritten e.1 e.2.1 (e.2.2.frm.map (·.name)) (e.2.2.to.map (·.name))] else []

/-- `ensure_mappers_valid`, `/repo/draftsman/classes/upgrade_planner.py:306-380`; the mappers are models by then. -/
def mappersValid (T : Upgrade.Tables) (ctx : Ctx) (mappers : Upgrade.S) : Except PyErr (List Warn) :=
  match mappers with
  | none => .ok []
  | some l =>
    if skip .minimum ctx then .ok []
    else (mapperLoop T [] [] l).map fun r => r.1 ++ overwrites r.2

end Checks
end Draftsman
