import Verif.Model.Py
/-
Validation results: `/repo/draftsman/classes/exportable.py:14-44, 133-176`.
-/
namespace Draftsman.ValResult

/-- An exception or warning object: its class and its `args`.  Python exceptions; used at `/repo/draftsman/classes/exportable.py:133-176`. -/
structure Issue where
  cls : String
  args : List String
  deriving DecidableEq, Repr

/-- `ValidationResult`, `/repo/draftsman/classes/exportable.py:139-141`. -/
structure Result where
  errors : List Issue
  warnings : List Issue
  deriving DecidableEq, Repr

/-- What a caller observes: the warnings issued, in order, and the exception raised, if any.  Part of the model only: what `/repo/draftsman/classes/exportable.py:133-176` does. -/
structure Trace where
  warned : List Issue
  raised : Option Issue
  deriving DecidableEq, Repr

/-- The warning loop, `/repo/draftsman/classes/exportable.py:146-147` (and `:40-41`). Simplification:
the process-wide warning filters are at their "always" setting. -/
def warnAll : List Issue → List Issue → Trace
  | acc, [] => ⟨acc, none⟩
  | acc, w :: ws => warnAll (acc ++ [w]) ws

/-- `ValidationResult.reissue_all`, `/repo/draftsman/classes/exportable.py:143-147`: the error loop raises on
its first iteration. -/
def reissueAll (r : Result) : Trace :=
  match r.errors with
  | e :: _ => ⟨[], some e⟩
  | [] => warnAll [] r.warnings

/-- `ValidationResult.__iadd__`, `/repo/draftsman/classes/exportable.py:171-176`. -/
def iadd (a b : Result) : Result :=
  { warnings := a.warnings ++ b.warnings, errors := a.errors ++ b.errors }

/-- The element comparison loops of `__eq__`, `/repo/draftsman/classes/exportable.py:157-168` (lists of
equal length). -/
def sameIssues : List Issue → List Issue → Bool
  | a :: as, b :: bs => if a.cls ≠ b.cls ∨ a.args ≠ b.args then false else sameIssues as bs
  | _, _ => true

/-- `ValidationResult.__eq__`, `/repo/draftsman/classes/exportable.py:149-169`. -/
def eq (a b : Result) : Bool :=
  if a.errors.length ≠ b.errors.length ∨ a.warnings.length ≠ b.warnings.length then false
  else if !sameIssues a.errors b.errors then false
  else sameIssues a.warnings b.warnings

/-- `attempt_and_reissue`, `/repo/draftsman/classes/exportable.py:14-44`: the pydantic validator is a
parameter that either fails or yields the coerced value and the collected warnings. -/
def attemptAndReissue {V : Type} (validator : V → Except Unit (V × List Issue)) (value : V) :
    Except PyErr V × List Issue :=
  match validator value with
  | .error _ => (.error .dataFormat, [])
  | .ok (v, ws) => (.ok v, (warnAll [] ws).warned)

end Draftsman.ValResult
