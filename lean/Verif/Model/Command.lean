import Verif.Model.ModEnable
import Verif.Model.GameVersion
import Verif.Model.ModList
/-
The console script `draftsman`: `main`, `/repo/draftsman/environment/script.py:33-269`, and what `update_draftsman_data` and `extract_data` write,
`/repo/draftsman/environment/update.py:1670-1787`.

Looked at are the files that the commands change: `mod-list.json`, the repository of the game's data, `_factorio_version.py` and the pickle files.
What is extracted is an arbitrary function of the version checked out, the mods enabled and `--no-mods`; the extraction of some of the tables is in
`Model/GameData.lean`, the run before it in `Model/Lifecycle.lean`, discovering mods in `Model/ModList.lean`.  Simplified: `argparse` is left out (as are
its exits), and so are messages, errors of the file system, and `repo.git.fetch()`.
-/
namespace Draftsman
namespace Command
open ModEnable GameVersion

/-- The pickle files in the order in which `extract_data` writes them after `get_items`: `/repo/draftsman/environment/update.py:1693-1701`, the names at
878, 1163, 1188, 1226, 1254, 1292, 1309, 1356, 1617, 1663. -/
def tables : List String := ["entities", "fluids", "instruments", "items", "modules", "planets", "recipes", "signals", "tiles"]

/-- What an update finds: how `run_data_lifecycle` ends after discovering mods, the version in `base/info.json`, how `get_items` ends, and what the extraction functions
make.  `/repo/draftsman/environment/update.py:1736-1787`. -/
structure Source (γ : Type) where
  lifecycle : Option PyErr
  base : List Char
  raw : Option PyErr
  items : Option PyErr
  extract : String → Except PyErr γ

/-- The files that commands change.  `/repo/draftsman/environment/script.py:185-269`. -/
structure World (γ : Type) where
  modList : Option (List Entry)
  repo : Repo
  version : List Char × List Int
  data : String → γ

/-- A mod found: its name, and the `factorio_version` in its `info.json`.  `/repo/draftsman/environment/mod_list.py:343-345`.  Simplified: there it is the
name of the folder or archive, without the version, that decides whether the version is looked at. -/
structure Found where
  name : String
  needs : List Int
  deriving DecidableEq, Repr

/-- What the commands find, by the commit checked out and `--no-mods`: the mods, other reasons for which discovering them fails, the result of reading
`mod-settings.dat` (a missing file is no error), and the sources, which depend on the mods enabled.  `/repo/draftsman/environment/script.py:216-269`. -/
structure Env (γ : Type) where
  found : Nat → Bool → List Found
  broken : Nat → Bool → Option PyErr
  settings : Option PyErr
  source : Nat → (String → Bool) → Bool → Source γ

/-- `discover_mods`, as far as needed here: the names of the mods.  Every mod but the game itself must be made for no later version of the game than the one
in `_factorio_version.py`: `/repo/draftsman/environment/mod_list.py:343-345, 423-515`. -/
def discover {γ : Type} (env : Env γ) (w : World γ) (noMods : Bool) : Except PyErr (List String) :=
  match env.broken w.repo.head noMods with
  | some e => .error e
  | none =>
    if (env.found w.repo.head noMods).any fun f => f.name != "base" && f.name != "core" && ModList.tupleLt w.version.2 f.needs then .error .assertionError
    else .ok ((env.found w.repo.head noMods).map (·.name)).eraseDups

/-- One file replaced: `open(…, "wb")` and `pickle.dump`, e.g. `/repo/draftsman/environment/update.py:1163-1164`. -/
def put {γ : Type} (d : String → γ) (f : String) (c : γ) : String → γ := fun g => if g = f then c else d g

/-- Extraction one after another, up to the first exception: every function writes its file at its end.
`/repo/draftsman/environment/update.py:1693-1701`. -/
def extractEach {γ : Type} (s : Source γ) : List String → (String → γ) → (String → γ) × Option PyErr
  | [], d => (d, none)
  | f :: r, d => match s.extract f with
    | .error e => (d, some e)
    | .ok c => extractEach s r (put d f c)

/-- `extract_data`, `/repo/draftsman/environment/update.py:1670-1701`: the mods, then `get_items`, then the rest. -/
def extractData {γ : Type} (s : Source γ) (d : String → γ) : (String → γ) × Option PyErr :=
  match s.extract "mods" with
  | .error e => (d, some e)
  | .ok c => match s.items with
    | some e => (put d "mods" c, some e)
    | none => extractEach s tables (put d "mods" c)

/-- `update_draftsman_data`, `/repo/draftsman/environment/update.py:1704-1787`: the lifecycle, the version (written before anything is extracted), the
conversion of `data.raw`, the extraction. -/
def update {γ : Type} (s : Source γ) (w : World γ) : World γ × Option PyErr :=
  match s.lifecycle with
  | some e => (w, some e)
  | none => match recorded s.base with
    | .error e => (w, some e)
    | .ok v => match s.raw with
      | some e => ({ w with version := v }, some e)
      | none =>
        let r := extractData s w.data
        ({ w with version := v, data := r.1 }, r.2)

/-- The operations, `/repo/draftsman/environment/script.py:80-181`. -/
inductive Cmd where
  | help
  | version
  | factorioVersion (desired : Option (List Char))
  | list
  | modSettings
  | enable (names : List String)
  | disable (names : List String)
  | update (noMods : Bool)
  deriving DecidableEq, Repr

/-- `set_mods_enabled` with the writing of the file, `/repo/draftsman/environment/mod_list.py:614-661`. -/
def setEnabled {γ : Type} (env : Env γ) (names : List String) (b : Bool) (w : World γ) : World γ × Option PyErr :=
  match discover env w false with
  | .error e => (w, some e)
  | .ok mods => match setModsEnabled mods w.modList names b with
    | .error e => (w, some e)
    | .ok l => ({ w with modList := some l }, none)

/-- `main`, `/repo/draftsman/environment/script.py:183-269`: the files afterwards, and the exception that ends the script. -/
def main {γ : Type} (env : Env γ) (verbose : Bool) (c : Cmd) (w : World γ) : World γ × Option PyErr :=
  match c with
  | .help => (w, none)
  | .version => (w, none)
  | .factorioVersion none => if w.repo.official then (w, none) else (w, some .assertionError)
  | .factorioVersion (some v) => let r := specify verbose w.repo v; ({ w with repo := r.1 }, r.2)
  | .list => match discover env w false with
    | .error e => (w, some e)
    | .ok [] => (w, some .valueError)
    | .ok (_ :: _) => (w, none)
  | .modSettings => (w, env.settings)
  | .enable names => setEnabled env names true w
  | .disable names => setEnabled env names false w
  | .update noMods => match discover env w noMods with
    | .error e => (w, some e)
    | .ok _ => Command.update (env.source w.repo.head (isEnabled w.modList) noMods) w

/-- Commands one after another, whether they fail or not; each is a run of the script.  `/repo/draftsman/environment/script.py:33-269`. -/
def mainAll {γ : Type} (env : Env γ) (verbose : Bool) : List Cmd → World γ → World γ
  | [], w => w
  | c :: r, w => mainAll env verbose r (main env verbose c w).1

end Command
end Draftsman
