import Verif.Model.Py
import Verif.Model.Dict
/-
The table printed by `draftsman list`: `display_mods`, `/repo/draftsman/environment/mod_list.py:518-611`.

Strings are lists of characters; `len` counts code points, so every character counts as one column.
-/
namespace Draftsman
namespace ModTable

/-- Lines and cells; Python's `str`. -/
abbrev Str := List Char

/-- What is shown of a `Mod`.  `/repo/draftsman/environment/mod_list.py:76-106`. -/
structure Mod where
  name : Str
  version : Str
  location : Str
  archive : Bool
  enabled : Bool
  deriving DecidableEq, Repr

/-- The versions of the mods by name.  `/repo/draftsman/environment/mod_list.py:518`. -/
abbrev Mods := Dict Str (List Mod)

/-- `clamp`, `/repo/draftsman/environment/mod_list.py:524-525`. -/
def clamp (minimum value maximum : Nat) : Nat := max minimum (min value maximum)

/-- `max` of a generator of lengths (Python built-in): nothing is a `ValueError`.  `/repo/draftsman/environment/mod_list.py:528-534`. -/
def maxOf : List Nat → Except PyErr Nat
  | [] => .error .valueError
  | n :: r => .ok (r.foldl max n)

/-- All the versions, in order.  The loops at `/repo/draftsman/environment/mod_list.py:530, 533`. -/
def versions (mods : Mods) : List Mod := mods.flatMap (·.2)

/-- The widths of the columns.  `/repo/draftsman/environment/mod_list.py:528-534`. -/
structure Widths where
  name : Nat
  version : Nat
  location : Nat
  deriving DecidableEq, Repr

/-- The widths of the columns, `/repo/draftsman/environment/mod_list.py:528-534`. -/
def widths (mods : Mods) : Except PyErr Widths :=
  match maxOf (mods.map (·.1.length)) with
  | .error e => .error e
  | .ok a => match maxOf ((versions mods).map (·.version.length)) with
    | .error e => .error e
    | .ok b => match maxOf ((versions mods).map (·.location.length)) with
      | .error e => .error e
      | .ok c => .ok ⟨clamp 4 a 50, clamp 7 b 30, clamp 8 c 100⟩

/-- `truncate_str`, `/repo/draftsman/environment/mod_list.py:536-544`, for `3 ≤ max_length`. -/
def truncate (s : Str) (n : Nat) : Str := if n < s.length then s.take (n - 3) ++ "...".toList else s

/-- `{:<n}`: Python's `format`, `/repo/draftsman/environment/mod_list.py:549, 578, 601`. -/
def left (s : Str) (n : Nat) : Str := s ++ List.replicate (n - s.length) ' '

/-- `{:>n}`: Python's `format`, `/repo/draftsman/environment/mod_list.py:578, 601`. -/
def right (s : Str) (n : Nat) : Str := List.replicate (n - s.length) ' ' ++ s

/-- The name as it is printed for the `i`-th of `n` versions.  `/repo/draftsman/environment/mod_list.py:570-575, 593-598`. -/
def printedName (w : Widths) (key : Str) (n i : Nat) (m : Mod) : Str :=
  if i = 0 then truncate m.name w.name
  else (if i + 1 = n then '└' else '├') :: List.replicate (key.length - 2) '─' ++ ['>']

/-- The version as it is printed.  `/repo/draftsman/environment/mod_list.py:582-584, 605-607`. -/
def printedVersion (w : Widths) (m : Mod) : Str := if m.version = [] then ['-'] else truncate m.version w.version

/-- `/repo/draftsman/environment/mod_list.py:580, 603`. -/
def printedKind (m : Mod) : Str := if m.archive then "(zip)".toList else "(dir)".toList

/-- Between the columns of the long table.  `/repo/draftsman/environment/mod_list.py:549, 578`. -/
def bar : Str := " ┃ ".toList

/-- The line of a version in the long table.  `/repo/draftsman/environment/mod_list.py:577-589`. -/
def longRow (w : Widths) (key : Str) (n i : Nat) (m : Mod) : Str :=
  (if m.enabled ∧ i = 0 then " ✓ ".toList else "   ".toList) ++ bar ++ printedKind m ++ bar ++ left (printedName w key n i m) w.name ++ bar ++
    right (printedVersion w m) w.version ++ bar ++ truncate m.location w.location

/-- The line of a version in the short table.  `/repo/draftsman/environment/mod_list.py:600-611`. -/
def shortRow (w : Widths) (key : Str) (n i : Nat) (m : Mod) : Str :=
  (if m.enabled ∧ i = 0 then "✓".toList else " ".toList) ++ " ".toList ++ printedKind m ++ " ".toList ++ left (printedName w key n i m) w.name ++
    "    ".toList ++ right (printedVersion w m) w.version

/-- The line with the titles.  `/repo/draftsman/environment/mod_list.py:548-558`. -/
def header (w : Widths) : Str :=
  "on?".toList ++ bar ++ left "type".toList 5 ++ bar ++ left "name".toList w.name ++ bar ++ left "version".toList w.version ++ bar ++ "location".toList

/-- Where the bars cross the rule.  `/repo/draftsman/environment/mod_list.py:560`. -/
def cross : Str := "━╋━".toList

/-- The line below the titles.  `/repo/draftsman/environment/mod_list.py:559-566`. -/
def rule (w : Widths) : Str :=
  List.replicate 3 '━' ++ cross ++ List.replicate 5 '━' ++ cross ++ List.replicate w.name '━' ++ cross ++ List.replicate w.version '━' ++ cross ++
    List.replicate w.location '━'

/-- The lines of one mod: the inner loop, `/repo/draftsman/environment/mod_list.py:569-589, 592-611`; `i` is the number of the next version. -/
def rowsFrom (row : Nat → Mod → Str) : Nat → List Mod → List Str
  | _, [] => []
  | i, m :: r => row i m :: rowsFrom row (i + 1) r

/-- The lines of all mods: the outer loop, `/repo/draftsman/environment/mod_list.py:568, 591`. -/
def rows (row : Str → Nat → Nat → Mod → Str) (mods : Mods) : List Str := mods.flatMap fun p => rowsFrom (row p.1 p.2.length) 0 p.2

/-- `display_mods`, `/repo/draftsman/environment/mod_list.py:518-611`: the lines printed. -/
def display (verbose : Bool) (mods : Mods) : Except PyErr (List Str) :=
  match widths mods with
  | .error e => .error e
  | .ok w => .ok (if verbose then header w :: rule w :: rows (longRow w) mods else rows (shortRow w) mods)

end ModTable
end Draftsman
