import Verif.Model.Version
/-
Versions of the game: `specify_factorio_version` (`/repo/draftsman/environment/update.py:235-308`) and what `update_draftsman_data` writes to
`_factorio_version.py` (`/repo/draftsman/environment/update.py:1748-1766`).

Strings are lists of characters.  Of the repository its tags (in the order of `repo.tags`), the commit that is checked out and the address it
was cloned from are looked at; the latter as the answer to whether it is the expected one.  `repo.git.fetch()` (which may add tags) happens
before; a failing `git checkout` (changed files) is left out.  Messages are left out, except that the first one raises if there is no tag.
-/
namespace Draftsman
namespace GameVersion
open Version

/-- A tag, GitPython's `TagReference`: `/repo/draftsman/environment/update.py:262, 269, 285`. -/
structure Tag where
  name : List Char
  commit : Nat
  time : Nat
  deriving DecidableEq, Repr

/-- `git.Repo`, as far as used: `/repo/draftsman/environment/update.py:252-263`. -/
structure Repo where
  official : Bool
  tags : List Tag
  head : Nat
  deriving DecidableEq, Repr

/-- `current_tag`, `/repo/draftsman/environment/update.py:261-263`. -/
def Repo.current (r : Repo) : Option Tag := r.tags.find? fun t => t.commit == r.head

/-- `sorted(repo.tags, key=…)[-1]`, `/repo/draftsman/environment/update.py:270-272`: sorting is stable, so of several newest tags it is the last.
`none` for an empty list. -/
def newest : List Tag → Option Tag
  | [] => none
  | t :: r => match newest r with
    | none => some t
    | some u => if u.time < t.time then some t else some u

/-- The name asked for: `/repo/draftsman/environment/update.py:269-272`. -/
def Repo.wanted (r : Repo) (desired : List Char) : Except PyErr (List Char) :=
  if desired = "latest".toList then
    match newest r.tags with
    | some t => .ok t.name
    | none => .error .indexError
  else .ok desired

/-- Three numbers: `/repo/draftsman/environment/update.py:277-282`. -/
def normalize (v : List Char) : Except PyErr (List Char) := do
  let t ← versionStringToTuple v
  .ok (versionTupleToString (t.take 3 ++ List.replicate (3 - (t.take 3).length) 0))

/-- `git checkout`, `/repo/draftsman/environment/update.py:298`. -/
def Repo.checkout (r : Repo) (n : List Char) : Repo :=
  match r.tags.find? fun t => t.name == n with
  | some t => { r with head := t.commit }
  | none => r

/-- `specify_factorio_version`, `/repo/draftsman/environment/update.py:235-308`: the repository after the call, and the exception. -/
def specify (verbose : Bool) (r : Repo) (desired : List Char) : Repo × Option PyErr :=
  if !r.official then (r, some .assertionError)
  else if verbose && r.current.isNone then (r, some .attributeError)
  else match r.wanted desired with
    | .error e => (r, some e)
    | .ok d => match normalize d with
      | .error e => (r, some e)
      | .ok v =>
        if v ∉ r.tags.map Tag.name then (r, some .valueError)
        else match r.current with
          | none => (r, some .attributeError)
          | some c => if v ≠ c.name then (r.checkout v, none) else (r, none)

/-- What is written to `_factorio_version.py`, from the version in `base/info.json`: `/repo/draftsman/environment/update.py:1750-1766`. -/
def recorded (v : List Char) : Except PyErr (List Char × List Int) := do
  let v := if v.count '.' = 2 then v ++ ".0".toList else v
  let t ← versionStringToTuple v
  .ok (v, t)

end GameVersion
end Draftsman
