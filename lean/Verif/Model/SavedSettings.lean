import Verif.Model.ModSettings
/-
The settings of mods in an update: from the prototypes that the settings stage leaves in `data.raw`, and the file `mod-settings.dat`, to the global table
`settings` of the data stage.  Lua: `/repo/draftsman/compatibility/settings.lua`; Python: `/repo/draftsman/environment/update.py:400-418`, and the same with
another reader at `/repo/draftsman/env.py:2066-2082`.

A setting prototype is an object of `data.raw`, known by its kind and name.  Names and types of settings are strings; a default value is of any type.
-/
namespace Draftsman
namespace SavedSettings

open ModSettings

/-- The tables inside `settings`: `/repo/draftsman/compatibility/settings.lua:12-18`.  `global` and `player` are other names of two of them. -/
inductive Slot where
  | startup | global | player
  deriving DecidableEq, Repr

/-- `settings[name]`; `none` is `nil`: `/repo/draftsman/compatibility/settings.lua:12-18`. -/
def slot? (name : String) : Option Slot :=
  if name = "startup" then some .startup
  else if name = "runtime-global" ∨ name = "global" then some .global
  else if name = "runtime-per-user" ∨ name = "player" then some .player
  else none

/-- The kinds of settings: `/repo/draftsman/compatibility/settings.lua:29-33`. -/
inductive Kind where
  | bool | int | double | string | color
  deriving DecidableEq, Repr

/-- The order of the calls of `set_settings`: `/repo/draftsman/compatibility/settings.lua:29-33`. -/
def kinds : List Kind := [.bool, .int, .double, .string, .color]

/-- A setting prototype: its `name`, its `setting_type` (`none`: absent) and its `default_value`, as used at `/repo/draftsman/compatibility/settings.lua:21-27`. -/
structure Proto (α : Type) where
  name : String
  type : Option String
  dflt : α

/-- The `value` of a setting: its default (`/repo/draftsman/compatibility/settings.lua:24`), or what is in the file (`/repo/draftsman/environment/update.py:415`). -/
inductive Value (α : Type) where
  | dflt (a : α)
  | saved (v : Val)

/-- What the two languages share: which prototype is at `settings[type][name]`, and the `value` of each prototype (`none`: not set).  `/repo/draftsman/compatibility/settings.lua:12-27`. -/
structure St (α : Type) where
  table : Dict (Slot × String) (Kind × String)
  value : Kind × String → Option (Value α)

/-- How an update can stop here: an error of Lua (`lupa.LuaError`), or of Python; `/repo/draftsman/environment/update.py:400-418`. -/
inductive Stop where
  | lua
  | py (e : PyErr)
  deriving DecidableEq, Repr

/-- The body of the loop of `set_settings`: `/repo/draftsman/compatibility/settings.lua:23-26`.  A type that `settings` does not have is an error of Lua. -/
def setOne {α : Type} (k : Kind) (s : St α) (p : Proto α) : Except Stop (St α) :=
  match p.type.bind slot? with
  | none => .error .lua
  | some t => .ok ⟨s.table.set (t, p.name) (k, p.name), fun o => if o = (k, p.name) then some (.dflt p.dflt) else s.value o⟩

/-- `set_settings`: `/repo/draftsman/compatibility/settings.lua:21-27`.  `pairs` goes through the prototypes of a kind in an order that does not matter. -/
def setSettings {α : Type} (raw : Kind → List (Proto α)) (s : St α) (k : Kind) : Except Stop (St α) :=
  (raw k).foldlM (setOne k) s

/-- `settings.lua`: `/repo/draftsman/compatibility/settings.lua:12-33`, run at `/repo/draftsman/environment/update.py:402-404` and `/repo/draftsman/env.py:2068`. -/
def convert {α : Type} (raw : Kind → List (Proto α)) : Except Stop (St α) :=
  kinds.foldlM (setSettings raw) ⟨[], fun _ => none⟩

/-- `x[key]` on a Python value: `/repo/draftsman/environment/update.py:415`.  Python built-in. -/
def subscript : Val → Option String → Except PyErr Val
  | .dict d, k => match Dict.get? d k with
    | some v => .ok v
    | none => .error .keyError
  | _, _ => .error .typeError

/-- `for name in x` on a Python value: `/repo/draftsman/environment/update.py:413`.  Python built-in; a string gives its characters. -/
def iterate : Val → Except PyErr (List (Option String))
  | .dict d => .ok (Dict.keys d)
  | .str s => .ok (s.toList.map fun c => some (String.singleton c))
  | _ => .error .typeError

/-- The body of the inner loop: `/repo/draftsman/environment/update.py:414-415`, `/repo/draftsman/env.py:2078-2079`.  `lua_settings` is `None` for a type that `settings` does not have. -/
def applyOne {α : Type} (t : Option Slot) (d : Val) (s : St α) (name : Option String) : Except PyErr (St α) :=
  match t with
  | none => .error .typeError
  | some t =>
    match name.bind fun n => s.table.get? (t, n) with
    | none => .ok s
    | some o =>
      match subscript d name with
      | .error e => .error e
      | .ok x =>
        match subscript x (some "value") with
        | .error e => .error e
        | .ok v => .ok { s with value := fun o' => if o' = o then some (.saved v) else s.value o' }

/-- The body of the outer loop: `/repo/draftsman/environment/update.py:411-415`, `/repo/draftsman/env.py:2075-2079`. -/
def applyType {α : Type} (s : St α) (p : Option String × Val) : Except PyErr (St α) :=
  match iterate p.2 with
  | .error e => .error e
  | .ok names => names.foldlM (applyOne (p.1.bind slot?) p.2) s

/-- `for setting_type, setting_dict in user_settings.items()`: `/repo/draftsman/environment/update.py:411-415`, `/repo/draftsman/env.py:2075-2079`. -/
def applyAll {α : Type} (s : St α) : Val → Except PyErr (St α)
  | .dict d => d.foldlM applyType s
  | _ => .error .attributeError

/-- The end of the settings stage with a reader of the file (`none`: there is no file): `/repo/draftsman/environment/update.py:400-418`, `/repo/draftsman/env.py:2066-2082`. -/
def finish {α : Type} (reader : Bytes → Except PyErr (Val × Bytes)) (raw : Kind → List (Proto α)) (file : Option Bytes) : Except Stop (St α) :=
  match convert raw with
  | .error e => .error e
  | .ok s =>
    match file with
    | none => .ok s
    | some b =>
      match reader b with
      | .error e => .error (.py e)
      | .ok (v, _) =>
        match applyAll s v with
        | .error e => .error (.py e)
        | .ok s => .ok s

/-- `get_data`: `/repo/draftsman/env.py:166-192`.  It has no cases for the numbers that came with version 2, and none for other types: all of these give `None`, and nothing more is
read.  A list is `TypeError` as in the other reader.  `"d"` is taken to be little endian. -/
def getData : Nat → Bytes → Except PyErr (Val × Bytes)
  | 0, _ => .error .recursionError
  | limit + 1, s => do
    let (t, s) ← unpack 1 s
    let s := s.drop 1
    if le t = 0 then .ok (.none, s)
    else if le t = 1 then
      let (b, s) ← unpack 1 s
      .ok (.bool (ModSettings.bool b), s)
    else if le t = 2 then
      let (b, s) ← unpack 8 s
      .ok (.float (le b), s)
    else if le t = 3 then
      let (v, s) ← readString s
      match v with
      | some x => .ok (.str x, s)
      | none => .ok (.none, s)
    else if le t = 4 then
      let _ ← unpack 4 s
      .error .typeError
    else if le t = 5 then
      let (n, s) ← unpack 4 s
      let (d, s) ← readPairs (getData limit) (le n) [] s
      .ok (.dict d, s)
    else .ok (.none, s)

/-- `get_mod_settings`: `/repo/draftsman/env.py:131-211`.  `get_string`, `/repo/draftsman/env.py:153-164`, is the same as `read_string`. -/
def getModSettings (limit : Nat) (s : Bytes) : Except PyErr (Val × Bytes) := do
  let (_, s) ← unpack 8 s
  let (h, s) ← unpack 1 s
  if ModSettings.bool h then .error .assertionError else getData limit s

/-- `run_settings_stage` after the files have been run: `/repo/draftsman/environment/update.py:400-418`. -/
def newFinish {α : Type} (limit : Nat) (raw : Kind → List (Proto α)) (file : Option Bytes) : Except Stop (St α) :=
  finish (decode limit) raw file

/-- The same part of `draftsman.env.update`: `/repo/draftsman/env.py:2066-2082`. -/
def oldFinish {α : Type} (limit : Nat) (raw : Kind → List (Proto α)) (file : Option Bytes) : Except Stop (St α) :=
  finish (getModSettings limit) raw file

end SavedSettings
end Draftsman
