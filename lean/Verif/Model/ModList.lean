import Verif.Model.Py
import Verif.Model.Dict
import Verif.Model.Version
/-
Discovering mods: `/repo/draftsman/environment/mod_list.py:89-97, 214-420, 423-515`.

What is read from the disk is taken as given: for each folder or archive, in the order it is listed, the name, version and other fields of its
`info.json`.  The checks of file names, internal folders and game version (which raise) and the stages are left out.
-/
namespace Draftsman
namespace ModList

/-- A folder or archive, and what its `info.json` says: `hasDeps` is whether there is a `"dependencies"` key.  `Mod`: `/repo/draftsman/environment/mod_list.py:214-420`. -/
structure Found where
  name : String
  version : List Char
  archive : Bool
  hasDeps : Bool
  enabled : Bool
  deriving DecidableEq, Repr

/-- `Mod.__init__`, the dependencies: `/repo/draftsman/environment/mod_list.py:57, 89-97`.  Without the key the default list of the function is used, and what it
holds is replaced in place, so the second time its element is a `Dependency`, which has no `replace`.  The state is whether that has happened. -/
def construct (used : Bool) (f : Found) : Except PyErr Bool :=
  if f.hasDeps then .ok used
  else if used then .error .attributeError
  else .ok true

/-- `mod_list[mod.name].append(mod)` or a new list: `/repo/draftsman/environment/mod_list.py`, lines 472-475 and 493-496. -/
def addMod (d : Dict String (List Found)) (f : Found) : Dict String (List Found) :=
  match d.get? f.name with
  | some l => d.set f.name (l ++ [f])
  | none => d.set f.name [f]

/-- The two loops, `/repo/draftsman/environment/mod_list.py`, lines 459-496: the game's folders first, then the mods. -/
def collect : Bool → Dict String (List Found) → List Found → Except PyErr (Dict String (List Found))
  | _, d, [] => .ok d
  | used, d, f :: fs =>
    match construct used f with
    | .error e => .error e
    | .ok used => collect used (addMod d f) fs

/-- `<` on tuples of integers: Python built-in. -/
def tupleLt : List Int → List Int → Bool
  | [], [] => false
  | [], _ :: _ => true
  | _ :: _, [] => false
  | a :: as, b :: bs => if a = b then tupleLt as bs else decide (a < b)

/-- `<` on the keys `(version, not is_archive)`, `/repo/draftsman/environment/mod_list.py`, line 508. -/
def keyLt (a b : List Int × Bool) : Bool :=
  if a.1 = b.1 then !a.2 && b.2 else tupleLt a.1 b.1

/-- The key of a mod.  `/repo/draftsman/environment/mod_list.py:508`. -/
def key (f : Found) : Except PyErr (List Int × Bool) :=
  match Version.versionStringToTuple f.version with
  | .ok v => .ok (v, !f.archive)
  | .error e => .error e

/-- `sorted(…, reverse=True)`: Python built-in, a stable sort (also in reverse), here by insertion. -/
def insertKeyed (a : (List Int × Bool) × Found) : List ((List Int × Bool) × Found) → List ((List Int × Bool) × Found)
  | [] => [a]
  | b :: r => if keyLt a.1 b.1 then b :: insertKeyed a r else a :: b :: r

/-- `sorted(…, reverse=True)`, a stable sort (Python built-in): `/repo/draftsman/environment/mod_list.py:506-510`. -/
def sortKeyed : List ((List Int × Bool) × Found) → List ((List Int × Bool) × Found)
  | [] => []
  | a :: r => insertKeyed a (sortKeyed r)

/-- `sorted(mod_versions, key=…, reverse=True)`: `/repo/draftsman/environment/mod_list.py`, lines 506-510.  All keys are computed first. -/
def sortVersions (l : List Found) : Except PyErr (List Found) :=
  match l.mapM (fun f => (key f).map (fun k => (k, f))) with
  | .error e => .error e
  | .ok ks => .ok ((sortKeyed ks).map Prod.snd)

/-- The loop over the collected names, `/repo/draftsman/environment/mod_list.py`, lines 503-511. -/
def sortAll : Dict String (List Found) → Except PyErr (Dict String (List Found))
  | [] => .ok []
  | (n, l) :: r =>
    if n = "core" then (sortAll r).map ((n, l) :: ·)
    else
      match sortVersions l with
      | .error e => .error e
      | .ok l' => (sortAll r).map ((n, l') :: ·)

/-- `discover_mods`: `/repo/draftsman/environment/mod_list.py`, lines 423-515; `used` is whether the default dependencies were used before. -/
def discover (used : Bool) (game mods : List Found) (noMods : Bool) : Except PyErr (Dict String (List Found)) :=
  match collect used [] (game ++ if noMods then [] else mods) with
  | .error e => .error e
  | .ok d => sortAll d

end ModList
end Draftsman
