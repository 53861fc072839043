import Verif.Model.Py
import Mathlib.Data.List.Basic
/-
The settings and the data stage of `/repo/draftsman/environment/update.py:310-450, 650-720`, with the Lua functions they rely on,
`/repo/draftsman/compatibility/interface.lua` and `/repo/draftsman/compatibility/settings.lua`.

Which mods there are and in which order they are loaded is `Model/ModLoad.lean`.  Strings are lists of characters.  `package.path` is a list of
templates (no path contains `;`, `%` or a byte order mark).  A script is what it does to Lua's tables (`σ`, arbitrary) and which modules it
requires; it does not itself change the variables of `interface.lua`.  Locations of mods have a folder in front (`/repo/draftsman/environment/mod_list.py:460, 481`).
Messages to the user are left out.
-/
namespace Draftsman
namespace Lifecycle

/-- Strings.  Part of the model only: strings in `/repo/draftsman/compatibility/interface.lua` are bytes. -/
abbrev Str := List Char

/-- What can go wrong: an error raised by Lua, a Python attribute that does not exist, a file that does not exist, a Python type error, a
missing key.  Part of the model only; see the functions below. -/
inductive Err where
  | lua | attribute | notFound | type | key
  deriving DecidableEq, Repr

/-- `Mod`, `/repo/draftsman/environment/mod_list.py:44-135`, as far as it is used here. -/
structure Mod where
  name : Str
  location : Str
  archive : Bool
  stages : List Str
  deriving DecidableEq, Repr

/-- A Lua script: change the tables (or raise an error), maybe `require` a module, and go on depending on the tables.  Part of the model only: what
`lua.execute` runs, `/repo/draftsman/environment/update.py:369`. -/
inductive Script (σ : Type) where
  | ret
  | node (f : σ → Option σ) (req : σ → Option Str) (k : σ → Script σ)

variable {σ : Type}

/-- The files outside archives, and `MOD_LIST`/`mods`.  `/repo/draftsman/environment/update.py:600-650, 660-675`. -/
structure World (σ : Type) where
  files : Str → Option (Script σ)
  mods : List Mod

/-- `MOD_LIST[name]`, which is there just if `mods[name]` is: `/repo/draftsman/environment/update.py:649, 660-675`. -/
def World.mod (w : World σ) (n : Str) : Option Mod := w.mods.find? fun m => m.name == n

/-- The variables of `/repo/draftsman/compatibility/interface.lua:8-15`, `package.path` and the keys of `package.loaded`; the mod at the top of
`MOD_TREE` first. -/
structure Lua (σ : Type) where
  data : σ
  path : List Str
  loaded : List Str
  tree : List Mod
  modDir : Option Str
  file : Str

/-- `lua_add_path`, `/repo/draftsman/compatibility/interface.lua:313-315`. -/
def Lua.addPath (s : Lua σ) (p : Str) : Lua σ := { s with path := p :: s.path }

/-- `lua_remove_path`, `/repo/draftsman/compatibility/interface.lua:318-321`: without `;` in the path, arithmetic on `nil`. -/
def Lua.removePath (s : Lua σ) : Except Err (Lua σ) :=
  match s.path with
  | _ :: p :: r => .ok { s with path := p :: r }
  | _ => .error .lua

/-- `lua_set_path`, `/repo/draftsman/compatibility/interface.lua:324-326`. -/
def Lua.setPath (s : Lua σ) (p : List Str) : Lua σ := { s with path := p }

/-- `lua_unload_cache`, `/repo/draftsman/compatibility/interface.lua:335-339`. -/
def Lua.unload (s : Lua σ) : Lua σ := { s with loaded := [] }

/-- `lua_push_mod`, `/repo/draftsman/compatibility/interface.lua:342-345`. -/
def Lua.push (s : Lua σ) (m : Mod) : Lua σ := { s with tree := m :: s.tree, modDir := some m.location }

/-- `lua_pop_mod`, `/repo/draftsman/compatibility/interface.lua:348-351`: indexing `nil` if nothing is left. -/
def Lua.pop (s : Lua σ) : Except Err (Lua σ) :=
  match s.tree with
  | _ :: m :: r => .ok { s with tree := m :: r, modDir := some m.location }
  | _ => .error .lua

/-- `lua_wipe_mods`, `/repo/draftsman/compatibility/interface.lua:355-358`. -/
def Lua.wipe (s : Lua σ) : Lua σ := { s with tree := [], modDir := none }

/-- `module_name:gsub(".lua$", "")`, `/repo/draftsman/compatibility/interface.lua:88`: the dot is any character. -/
def stripLua (s : Str) : Str :=
  if 4 ≤ s.length ∧ s.drop (s.length - 3) = "lua".toList then s.take (s.length - 4) else s

/-- Dots become slashes if there is no slash or backslash.  `/repo/draftsman/compatibility/interface.lua:92-97`. -/
def dotsToSlashes (s : Str) : Str :=
  if s.all fun c => c != '/' && c != '\\' then s.map fun c => if c = '.' then '/' else c else s

/-- One slash in front goes.  `/repo/draftsman/compatibility/interface.lua:105`. -/
def stripSlash : Str → Str
  | '/' :: r => r
  | s => s

/-- `[%w%-_]`, `/repo/draftsman/compatibility/interface.lua:108`. -/
def isName (c : Char) : Bool := c.isAlphanum || c == '-' || c == '_'

/-- `__([%w%-_]+)__` at the beginning of a string, the longest name.  `/repo/draftsman/compatibility/interface.lua:108, 147`. -/
def nameHere : Str → Option Str
  | '_' :: '_' :: r =>
    let run := r.takeWhile isName
    ((List.range run.length).reverse.find? fun k => decide (1 ≤ k) && (run.drop k).take 2 == ['_', '_']).map run.take
  | _ => none

/-- `module_name:match("(__([%w%-_]+)__)")`, the leftmost match.  `/repo/draftsman/compatibility/interface.lua:108, 147`. -/
def modName : Str → Option Str
  | [] => none
  | c :: r => match nameHere (c :: r) with
    | some n => some n
    | none => modName r

/-- `__name__`, the text that is replaced.  `/repo/draftsman/compatibility/interface.lua:108-128`. -/
def marker (n : Str) : Str := "__".toList ++ n ++ "__".toList

/-- `string.gsub(s, a, b)` for plain text `a`: `/repo/draftsman/compatibility/interface.lua:112, 124`.  `fuel` is the length of `s`. -/
def replaceAll (a b : Str) : Nat → Str → Str
  | 0, s => s
  | _, [] => []
  | k + 1, c :: r => if a.isPrefixOf (c :: r) then b ++ replaceAll a b k ((c :: r).drop a.length) else c :: replaceAll a b k r

/-- `normalize_module_name`, `/repo/draftsman/compatibility/interface.lua:86-135`: the name and whether it is absolute; an unknown mod fails the
assertion at line 129. -/
def normalize (w : World σ) (s : Str) : Except Err (Str × Bool) :=
  let s := stripSlash (dotsToSlashes (stripLua s))
  match modName s with
  | none => .ok (s, false)
  | some n =>
    if n = "core".toList ∨ n = "base".toList then .ok (replaceAll (marker n) ("./factorio-data/".toList ++ n) s.length s, true)
    else match w.mod n with
      | some m => .ok (replaceAll (marker n) m.location s.length s, true)
      | none => .error .lua

/-- What is before the last `c`, if there is something.  `string.match(path, "^(.+)/")`, `/repo/draftsman/compatibility/interface.lua:161-170`. -/
def upTo (c : Char) (s : Str) : Option Str :=
  match s.reverse.dropWhile (· != c) with
  | _ :: d :: r => some (d :: r).reverse
  | _ => none

/-- `get_parent`, `/repo/draftsman/compatibility/interface.lua:161-170`. -/
def parent (s : Str) : Option Str :=
  match upTo '/' s with
  | some p => some p
  | none => upTo '\\' s

/-- Does the text occur?  `string.match`, `/repo/draftsman/compatibility/interface.lua:230-232`. -/
def occurs (a : Str) : Str → Bool
  | [] => a.isPrefixOf []
  | c :: r => a.isPrefixOf (c :: r) || occurs a r

/-- Does the text occur with something after it?  `/repo/draftsman/compatibility/interface.lua:231-232`. -/
def occursBefore (a : Str) : Str → Bool
  | [] => false
  | c :: r => (a.isPrefixOf (c :: r) && decide (a.length < (c :: r).length)) || occursBefore a r

/-- `missing_file_substitution` has something for the module: `/repo/draftsman/compatibility/interface.lua:223-249`.  What it returns is a table
and changes nothing. -/
def substituted (norm : Str) : Bool :=
  occurs "menu-simulations".toList norm || occursBefore "graphics/".toList norm || occursBefore "sound/".toList norm

/-- A template with the name put in.  `/repo/draftsman/compatibility/interface.lua:275`. -/
def fillIn (t name : Str) : Str := t.flatMap fun c => if c = '?' then name else [c]

/-- The searchers of `/repo/draftsman/compatibility/interface.lua:223-306` in order: dummies; archives, where the attribute `files` of the mod
at the top does not exist (`/repo/draftsman/environment/update.py:323-345`, `/repo/draftsman/environment/mod_list.py:62-135`); files by the
templates.  The preloaded modules and libraries in C are left out. -/
def search (w : World σ) (s : Lua σ) (norm : Str) : Except Err (Script σ) :=
  if substituted norm then .ok .ret
  else if (s.tree.head?.map Mod.archive).getD false then .error .attribute
  else match s.path.findSome? fun t => w.files (fillIn t norm) with
    | some x => .ok x
    | none => .error .lua

/-- The first part of `require`: change the mod if another one is named.  `/repo/draftsman/compatibility/interface.lua:146-154`. -/
def enter (w : World σ) (s : Lua σ) (name : Str) : Lua σ × Bool :=
  match (modName name).bind w.mod with
  | some m => if s.tree.head? = some m then (s, false) else (s.push m, true)
  | none => (s, false)

/-- Add the folder of the module to the path.  `/repo/draftsman/compatibility/interface.lua:172-197`.  An absolute module without folder is
left out (an error here): locations have a folder in front.  `MOD_DIR` may be `nil`, which cannot be concatenated. -/
def addFolder (s : Lua σ) (norm : Str) (absolute : Bool) : Except Err (Lua σ) :=
  match parent norm with
  | some p =>
    if absolute then .ok (s.addPath (p ++ "/?.lua".toList))
    else match s.modDir with
      | some d => .ok (s.addPath (d ++ '/' :: p ++ "/?.lua".toList))
      | none => .error .lua
  | none =>
    if absolute then .error .lua
    else
      let r := (parent s.file).getD []
      .ok { s.addPath (r ++ "/?.lua".toList) with file := r ++ '/' :: norm }

/-- Leave the mod again, `/repo/draftsman/compatibility/interface.lua:206-209`. -/
def leave (s : Lua σ) (changed : Bool) : Except Err (Lua σ) := if changed then s.pop else .ok s

/-- The end of `require`: take the folder from the path and leave the mod.  `/repo/draftsman/compatibility/interface.lua:201-209`. -/
def finish (s : Lua σ) (changed : Bool) : Except Err (Lua σ) := do
  let s ← s.removePath
  leave s changed

/-- The steps of a script, given what `require` does; `none`: no end (see `exec`).  Part of the model only: `/repo/draftsman/environment/update.py:369`. -/
def execWith (req : Lua σ → Str → Option (Except Err (Lua σ))) : Lua σ → Script σ → Option (Except Err (Lua σ))
  | s, .ret => some (.ok s)
  | s, .node f q k => match f s.data with
    | none => some (.error .lua)
    | some d => match q d with
      | none => execWith req { s with data := d } (k d)
      | some n => match req { s with data := d } n with
        | none => none
        | some (.error e) => some (.error e)
        | some (.ok s') => execWith req s' (k s'.data)

/-- `require`, `/repo/draftsman/compatibility/interface.lua:142-212`, given how files are run.  Lua's own `require` looks into `package.loaded`
under the name as written (line 197), and enters it there after running the file. -/
def requireWith (w : World σ) (run : Lua σ → Script σ → Option (Except Err (Lua σ))) (s : Lua σ) (name : Str) : Option (Except Err (Lua σ)) :=
  match normalize w name with
  | .error e => some (.error e)
  | .ok (norm, absolute) =>
    match addFolder (enter w s name).1 norm absolute with
    | .error e => some (.error e)
    | .ok s1 =>
      if name ∈ s1.loaded then some (finish s1 (enter w s name).2)
      else match search w s1 norm with
        | .error e => some (.error e)
        | .ok x => match run s1 x with
          | none => none
          | some (.error e) => some (.error e)
          | some (.ok s2) => some (finish { s2 with loaded := name :: s2.loaded } (enter w s name).2)

/-- Run a script.  Model only: `lua.execute`, `/repo/draftsman/environment/update.py:369`.  `none`: not within `fuel` nested calls of `require`
(Lua's stack overflows if modules require each other in a circle). -/
def exec (w : World σ) : (fuel : Nat) → Lua σ → Script σ → Option (Except Err (Lua σ))
  | 0, _, _ => none
  | fuel + 1, s, x => execWith (requireWith w (exec w fuel)) s x

/-- The state in which the file of a stage is run: `run_mod_phase`, `/repo/draftsman/environment/update.py:356-369`, after `lua_set_path(base_path)`,
lines 389, 435. -/
def begin (base : List Str) (m : Mod) (stage : Str) (s : Lua σ) : Lua σ :=
  ({ (({ s.setPath base with modDir := some m.location }).push m) with file := m.location ++ '/' :: stage }).addPath (m.location ++ "/?.lua".toList)

/-- `mod.get_file(stage)`, `/repo/draftsman/environment/mod_list.py:149-156`: the attribute `data` of an archive does not exist. -/
def getFile (w : World σ) (m : Mod) (stage : Str) : Except Err (Script σ) :=
  if m.archive then .error .attribute
  else match w.files (m.location ++ '/' :: stage) with
    | some x => .ok x
    | none => .error .notFound

/-- A file that was run, and the state it was run in.  Part of the model only: calls of `run_mod_phase`, `/repo/draftsman/environment/update.py:354-369`. -/
structure Entry (σ : Type) where
  mod : Mod
  stage : Str
  start : Lua σ

/-- After a file: `/repo/draftsman/environment/update.py:396` and, with `wipe`, 446-449. -/
def Lua.cleanUp (s : Lua σ) (wipe : Bool) : Lua σ := if wipe then s.unload.wipe else s.unload

/-- One stage: `/repo/draftsman/environment/update.py:381-396` and, with `wipe`, 429-449; the files run, and how it ended. -/
def runMods (w : World σ) (fuel : Nat) (base : List Str) (wipe : Bool) (stage : Str) : List Mod → Lua σ → List (Entry σ) × Option (Except Err (Lua σ))
  | [], s => ([], some (.ok s))
  | m :: r, s =>
    if stage ∈ m.stages then
      match getFile w m stage with
      | .error e => ([], some (.error e))
      | .ok x => match exec w fuel (begin base m stage s) x with
        | none => ([⟨m, stage, begin base m stage s⟩], none)
        | some (.error e) => ([⟨m, stage, begin base m stage s⟩], some (.error e))
        | some (.ok s') =>
          let rest := runMods w fuel base wipe stage r (s'.cleanUp wipe)
          (⟨m, stage, begin base m stage s⟩ :: rest.1, rest.2)
    else runMods w fuel base wipe stage r (s.setPath base)

/-- The stages one after another, `/repo/draftsman/environment/update.py:380-396, 428-449`. -/
def runStages (w : World σ) (fuel : Nat) (base : List Str) (wipe : Bool) (order : List Mod) : List Str → Lua σ → List (Entry σ) × Option (Except Err (Lua σ))
  | [], s => ([], some (.ok s))
  | stage :: r, s =>
    match runMods w fuel base wipe stage order s with
    | (l, some (.ok s')) => ((l ++ (runStages w fuel base wipe order r s').1), (runStages w fuel base wipe order r s').2)
    | x => x

/-- `/repo/draftsman/environment/update.py:380`. -/
def settingsStages : List Str := ["settings.lua".toList, "settings-updates.lua".toList, "settings-final-fixes.lua".toList]

/-- `/repo/draftsman/environment/update.py:426`. -/
def dataStages : List Str := ["data.lua".toList, "data-updates.lua".toList, "data-final-fixes.lua".toList]

/-- The end of `run_data_lifecycle`, `/repo/draftsman/environment/update.py:698-710`: settings stage, conversion of the settings (`convert`:
`/repo/draftsman/environment/update.py:398-417`, see below), data stage. -/
def lifecycle (w : World σ) (fuel : Nat) (base : List Str) (order : List Mod) (convert : Lua σ → Except Err (Lua σ)) (s : Lua σ) :
    List (Entry σ) × Option (Except Err (Lua σ)) :=
  match runStages w fuel base false order settingsStages s with
  | (l, some (.ok s')) => match convert s' with
    | .error e => (l, some (.error e))
    | .ok s'' => (l ++ (runStages w fuel base true order dataStages s'').1, (runStages w fuel base true order dataStages s'').2)
  | x => x

/-! ### Settings -/

/-- A setting: `setting_type`, `default_value`.  `/repo/draftsman/compatibility/settings.lua:21-27`. -/
structure Setting (V : Type) where
  ty : String
  dflt : V

/-- The tables in `settings`: startup, runtime-global, runtime-per-user.  `/repo/draftsman/compatibility/settings.lua:12-18`. -/
inductive Tab where
  | startup | global | player
  deriving DecidableEq, Repr

/-- The keys of `settings`; two tables have two keys each.  `/repo/draftsman/compatibility/settings.lua:13-18`. -/
def tabOf (s : String) : Option Tab :=
  if s = "startup" then some .startup
  else if s = "runtime-global" ∨ s = "global" then some .global
  else if s = "runtime-per-user" ∨ s = "player" then some .player else none

/-- Values by table and name; `none`: no such setting.  `/repo/draftsman/compatibility/settings.lua:12-18`. -/
abbrev Values (V : Type) := Tab → String → Option V

/-- Enter a value.  `/repo/draftsman/compatibility/settings.lua:25`, `/repo/draftsman/environment/update.py:415`. -/
def Values.put {V : Type} (t : Values V) (tab : Tab) (n : String) (v : V) : Values V :=
  fun tab' n' => if tab' = tab ∧ n' = n then some v else t tab' n'

/-- `set_settings`, `/repo/draftsman/compatibility/settings.lua:21-27`; an unknown `setting_type` indexes `nil`. -/
def setSettings {V : Type} : List (String × Setting V) → Values V → Except Err (Values V)
  | [], t => .ok t
  | (n, x) :: r, t => match tabOf x.ty with
    | some tab => setSettings r (t.put tab n x.dflt)
    | none => .error .lua

/-- The calls of `set_settings` for the five kinds of settings in `data.raw`, `/repo/draftsman/compatibility/settings.lua:29-33`. -/
def convertSettings {V : Type} : List (List (String × Setting V)) → Values V → Except Err (Values V)
  | [], t => .ok t
  | l :: r, t => match setSettings l t with
    | .ok t' => convertSettings r t'
    | .error e => .error e

/-- The inner loop of the overwriting, `/repo/draftsman/environment/update.py:413-415`; a value is `none` if the key `"value"` is missing. -/
def overwriteIn {V : Type} (tab : Tab) : List (String × Option V) → Values V → Except Err (Values V)
  | [], t => .ok t
  | (n, v) :: r, t => match t tab n with
    | none => overwriteIn tab r t
    | some _ => match v with
      | some v => overwriteIn tab r (t.put tab n v)
      | none => .error .key

/-- The outer loop, `/repo/draftsman/environment/update.py:411-415`; for an unknown type `settings[setting_type]` is `None`, which cannot be
indexed. -/
def overwrite {V : Type} : List (String × List (String × Option V)) → Values V → Except Err (Values V)
  | [], t => .ok t
  | (ty, l) :: r, t => match tabOf ty with
    | some tab => match overwriteIn tab l t with
      | .ok t' => overwrite r t'
      | .error e => .error e
    | none => match l with
      | [] => overwrite r t
      | _ => .error .type

/-- The settings in the data stage, `/repo/draftsman/environment/update.py:398-417`; `user` is what `mod-settings.dat` holds, `none` if there is
no such file. -/
def finalSettings {V : Type} (kinds : List (List (String × Setting V))) (user : Option (List (String × List (String × Option V)))) : Except Err (Values V) := do
  let t ← convertSettings kinds fun _ _ => none
  match user with
  | none => .ok t
  | some u => overwrite u t

end Lifecycle
end Draftsman
