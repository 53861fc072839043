import Verif.Model.Py
/-
The decorator `reissue_warnings` (`/repo/draftsman/utils.py:926-946`), which stands on constructors, `setup`, `append`, `insert` and setters.

A program is what it does with warnings, exceptions and calls.  Python's filters are given as what is to be done with a warning: report it, drop it
or raise it (`warnings.simplefilter("always")`, `"ignore"`, `"error"`).  The actions that report a repeated warning once are left out, and so is
the line a warning is attributed to (`stacklevel`).
-/
namespace Draftsman
namespace Warnings

/-- What can be raised: an exception, or a warning if filters say so.  `/repo/draftsman/utils.py:939-943`. -/
inductive Exc (W : Type) where
  | err (e : PyErr)
  | warning (w : W)
  deriving DecidableEq

/-- What the filters say.  Python's `warnings` module, used at `/repo/draftsman/utils.py:939-943`. -/
inductive Action where
  | report | ignore | raise
  deriving DecidableEq

/-- A program: a value, an exception, a warning, a call of a function with or without the decorator, or `try`.  Part of the model only: the
functions that `/repo/draftsman/utils.py:926-946` decorates. -/
inductive Prog (W : Type) where
  | ret (v : Nat)
  | throw (e : Exc W)
  | warn (w : W) (k : Prog W)
  | call (decorated : Bool) (f : Prog W) (k : Nat → Prog W)
  | attempt (f : Prog W) (handler : Exc W → Prog W) (k : Nat → Prog W)

variable {W : Type}

/-- What a caller sees: the warnings reported, in order, and how it ended.  Part of the model only, for `/repo/draftsman/utils.py:937-946`. -/
abbrev Seen (W : Type) := List W × Except (Exc W) Nat

/-- `warnings.warn` for each of a list, then the result: `/repo/draftsman/utils.py:942-945`. -/
def reissue (act : W → Action) (v : Nat) : List W → Seen W
  | [] => ([], .ok v)
  | w :: r => match act w with
    | .report => (w :: (reissue act v r).1, (reissue act v r).2)
    | .ignore => reissue act v r
    | .raise => ([], .error (.warning w))

/-- The decorator, `/repo/draftsman/utils.py:936-946`: an exception leaves the `with` block and the list of warnings with it. -/
def inner (act : W → Action) : Seen W → Seen W
  | (_, .error e) => ([], .error e)
  | (l, .ok v) => reissue act v l

/-- Running a program.  Part of the model only; `call true` is a function decorated by `/repo/draftsman/utils.py:926-946`. -/
def run (act : W → Action) : Prog W → Seen W
  | .ret v => ([], .ok v)
  | .throw e => ([], .error e)
  | .warn w k => match act w with
    | .report => (w :: (run act k).1, (run act k).2)
    | .ignore => run act k
    | .raise => ([], .error (.warning w))
  | .call d f k =>
    match (if d then inner act (run act f) else run act f) with
    | (l, .error e) => (l, .error e)
    | (l, .ok v) => (l ++ (run act (k v)).1, (run act (k v)).2)
  | .attempt f h k =>
    match run act f with
    | (l, .error e) => (l ++ (run act (h e)).1, (run act (h e)).2)
    | (l, .ok v) => (l ++ (run act (k v)).1, (run act (k v)).2)

end Warnings
end Draftsman
