import Verif.Model.Py
import Verif.Model.Direction
import Mathlib.Data.Rat.Defs
import Mathlib.Algebra.Order.Field.Rat

/-
The settings of infinity pipes, `/repo/draftsman/prototypes/infinity_pipe.py`.

Simplifications: floats are exact rationals, keys that the format does not know are left out, and so are warnings (an unknown
fluid only gives a warning, `/repo/draftsman/signatures.py:76-100`).  The table of fluids is a function from names to what
`get_temperature_range` answers.
-/
namespace Draftsman.InfPipe

/-- Values that can be given to the attributes: `None`, text, an `int`, a `float`, anything else (not comparable with numbers,
hashable).  Python built-in types; `/repo/draftsman/prototypes/infinity_pipe.py:25-61` for those that are accepted. -/
inductive Val where
  | none
  | text (s : String)
  | int (i : Int)
  | float (q : Rat)
  | other
  deriving DecidableEq

/-- `InfinitySettings`, `/repo/draftsman/prototypes/infinity_pipe.py:24-61`. -/
structure Settings where
  name : Val
  percentage : Val
  mode : Val
  temperature : Val
  deriving DecidableEq

/-- The settings of `InfinityPipe()`: all fields missing from `{}` take their defaults.
`/repo/draftsman/prototypes/infinity_pipe.py:25-61, 100, 122`. -/
def defaults : Settings := { name := .none, percentage := .float 0, mode := .text "at-least", temperature := .none }

/-- The fields of the settings.  `/repo/draftsman/prototypes/infinity_pipe.py:25, 31, 40, 48`. -/
inductive Field where
  | name | percentage | mode | temperature
  deriving DecidableEq

/-- The check of one field in pydantic's strict mode; `none` for a refusal.  An `int` given as percentage becomes a `float`.
`/repo/draftsman/prototypes/infinity_pipe.py:25-61`, `int64` at `/repo/draftsman/signatures.py:64-66`. -/
def check : Field → Val → Option Val
  | _, .none => some .none
  | .name, .text s => some (.text s)
  | .percentage, .int i => if 0 ≤ i then some (.float i) else none
  | .percentage, .float q => if 0 ≤ q then some (.float q) else none
  | .mode, .text s => if s ∈ ["at-least", "at-most", "exactly", "add", "remove"] then some (.text s) else none
  | .temperature, .int i => if -9223372036854775808 ≤ i ∧ i < 9223372036854775808 then some (.int i) else none
  | _, _ => none

/-- `target[name] = value`, `/repo/draftsman/signatures.py:193-194`. -/
def store (s : Settings) : Field → Val → Settings
  | .name, v => { s with name := v }
  | .percentage, v => { s with percentage := v }
  | .mode, v => { s with mode := v }
  | .temperature, v => { s with temperature := v }

/-- `validate_temperature` in the modes above `MINIMUM`, `/repo/draftsman/prototypes/infinity_pipe.py:75-89`: the exception it
raises (a `ValueError` comes out as `DataFormatError`, a `TypeError` as it is). -/
def clash (fluids : String → Option (Int × Int)) (s : Settings) : Option PyErr :=
  if s.temperature = .none then none
  else match s.name with
    | .none => some .dataFormat
    | .text n =>
      match fluids n with
      | none => none
      | some (lo, hi) =>
        match s.temperature with
        | .int t => if lo ≤ t ∧ t ≤ hi then none else some .dataFormat
        | .float t => if (lo : Rat) ≤ t ∧ t ≤ (hi : Rat) then none else some .dataFormat
        | _ => some .typeError
    | _ => none

/-- `validate_temperature` with the test of the mode, `/repo/draftsman/prototypes/infinity_pipe.py:63-89`. -/
def after (m : ValidationMode) (fluids : String → Option (Int × Int)) (s : Settings) : Option PyErr :=
  if m.index ≤ ValidationMode.minimum.index then none else clash fluids s

/-- A pipe: its settings (`None` is a possible value), its mode of validation, and the table of fluids of the program.
`/repo/draftsman/prototypes/infinity_pipe.py:91, 124`. -/
structure Pipe where
  settings : Option Settings
  mode : ValidationMode
  fluids : String → Option (Int × Int)

/-- The setters of single fields, `/repo/draftsman/prototypes/infinity_pipe.py:177-184, 214-221, 262-272, 303-311` with
`test_replace_me`, `/repo/draftsman/classes/exportable.py:106-130`, and `construct_fields`,
`/repo/draftsman/signatures.py:146-164`.  `validate_assignment` of pydantic stores the checked value in the object before the
validators of the whole model run. -/
def assign (p : Pipe) (f : Field) (v : Val) : Pipe × Option PyErr :=
  match p.settings with
  | none => (p, some .attributeError)
  | some s =>
    match check f v with
    | some w => ({ p with settings := some (store s f w) }, after p.mode p.fluids (store s f w))
    | none =>
      if p.mode = .none then ({ p with settings := some (store s f v) }, none)
      else (p, some .dataFormat)

/-- `infinity_settings = {…}` with all four keys, `/repo/draftsman/prototypes/infinity_pipe.py:143-152`: the settings are made
and validated before they are stored. -/
def assignAll (p : Pipe) (s : Settings) : Pipe × Option PyErr :=
  match check .name s.name, check .percentage s.percentage, check .mode s.mode, check .temperature s.temperature with
  | some n, some q, some m, some t =>
    match after p.mode p.fluids ⟨n, q, m, t⟩ with
    | none => ({ p with settings := some ⟨n, q, m, t⟩ }, none)
    | some x => (p, some x)
  | n, q, m, t =>
    if p.mode = .none then
      ({ p with settings := some ⟨n.getD s.name, q.getD s.percentage, m.getD s.mode, t.getD s.temperature⟩ }, none)
    else (p, some .dataFormat)

/-- `set_infinite_fluid`, `/repo/draftsman/prototypes/infinity_pipe.py:326-357`. -/
def setInfiniteFluid (p : Pipe) (name : Val := .none) (percentage : Val := .float 0) (mode : Val := .text "at-least")
    (temperature : Val := .none) : Pipe × Option PyErr :=
  assignAll p { name, percentage, mode, temperature }

/-- `InfinityPipe()`, `/repo/draftsman/prototypes/infinity_pipe.py:95-124`. -/
def fresh (m : ValidationMode) (fluids : String → Option (Int × Int)) : Pipe :=
  { settings := some defaults, mode := m, fluids }

/-- What a program does with a pipe: assign one field, all of them (also by `set_infinite_fluid`), or `None`; change the mode.
`/repo/draftsman/prototypes/infinity_pipe.py:143-357`, `/repo/draftsman/classes/exportable.py:264-266`. -/
inductive Event where
  | field (f : Field) (v : Val)
  | all (s : Settings)
  | clear
  | mode (m : ValidationMode)

/-- One step.  `/repo/draftsman/prototypes/infinity_pipe.py:143-357`, `/repo/draftsman/classes/exportable.py:264-266`. -/
def step (p : Pipe) : Event → Pipe × Option PyErr
  | .field f v => assign p f v
  | .all s => assignAll p s
  | .clear => ({ p with settings := none }, none)
  | .mode m => ({ p with mode := m }, none)

/-- The pipe after a history whose exceptions are all caught.
`/repo/draftsman/prototypes/infinity_pipe.py:143-357`. -/
def run (p : Pipe) (es : List Event) : Pipe := es.foldl (fun p e => (step p e).1) p

/-- `merge`, `/repo/draftsman/prototypes/infinity_pipe.py:359-362`: the settings of the other pipe are copied (a copy of the
settings, not of the warnings) and assigned. -/
def merge (p q : Pipe) : Pipe × Option PyErr :=
  match q.settings with
  | none => ({ p with settings := none }, none)
  | some s => assignAll p s

end Draftsman.InfPipe
