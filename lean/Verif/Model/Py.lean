/-
Shared vocabulary: Python exceptions as values, and the few Python built-ins the models need.
-/
namespace Draftsman

/-- The exceptions that the modelled functions can raise.  Python built-ins keep their Python name;
the remaining constructors are the exception classes of `/repo/draftsman/error.py`. -/
inductive PyErr where
  | valueError | typeError | indexError | keyError | attributeError | zeroDivision
  | unboundLocal | stopIteration | assertionError | structError | recursionError
  | malformedBlueprintString | incorrectBlueprintType | duplicateId | invalidAssociation
  | invalidWireType | invalidConnectionSide | notPowerConnectable | notCircuitConnectable
  | dataFormat | rotation | flipping | invalidSignal | draftsmanError
  | incompatibleMod | missingMod | incorrectModVersion
  deriving DecidableEq, Repr

deriving instance DecidableEq for Except

/-- `decide p` is true exactly when `p` holds, whatever the decision procedure. -/
theorem decide_iff {p : Prop} {h : Decidable p} : (@decide p h = true) ↔ p := @decide_eq_true_iff p h

/-- `str.split(sep)` for a one-character separator (Python built-in, used at
`/repo/draftsman/utils.py:477` and `/repo/draftsman/classes/train_configuration.py`):
always at least one piece. -/
def pySplit (sep : Char) : List Char → List (List Char)
  | [] => [[]]
  | c :: cs =>
    if c = sep then [] :: pySplit sep cs
    else match pySplit sep cs with
      | [] => [[c]]          -- unreachable, `pySplit` is never empty
      | p :: ps => (c :: p) :: ps

/-- `sep.join(pieces)` for a one-character separator (Python built-in, used at
`/repo/draftsman/utils.py:493`). -/
def pyJoin (sep : Char) : List (List Char) → List Char
  | [] => []
  | [p] => p
  | p :: q :: ps => p ++ sep :: pyJoin sep (q :: ps)

/-- The value of an ASCII decimal digit.  Python's `int` also accepts other Unicode decimal digits;
these are outside the model. -/
def digitVal? (c : Char) : Option Nat :=
  match c with
  | '0' => some 0 | '1' => some 1 | '2' => some 2 | '3' => some 3 | '4' => some 4
  | '5' => some 5 | '6' => some 6 | '7' => some 7 | '8' => some 8 | '9' => some 9
  | _ => none

/-- The ASCII decimal digit for a value below ten.  Part of `str(int)` (Python built-in). -/
def digitChar : Nat → Char
  | 0 => '0' | 1 => '1' | 2 => '2' | 3 => '3' | 4 => '4'
  | 5 => '5' | 6 => '6' | 7 => '7' | 8 => '8' | _ => '9'

/-- `str(n)` for a non-negative Python `int`. -/
def natStr (n : Nat) : List Char :=
  if n < 10 then [digitChar n] else natStr (n / 10) ++ [digitChar (n % 10)]
termination_by n

/-- `str(n)` for a Python `int`. -/
def intStr : Int → List Char
  | .ofNat n => natStr n
  | .negSucc n => '-' :: natStr (n + 1)

/-- Digits of a Python integer literal after the first digit: digits with single underscores between
them.  `acc` is the value so far. -/
def pyDigits (acc : Nat) : List Char → Option Nat
  | [] => some acc
  | '_' :: c :: cs =>
    match digitVal? c with
    | some d => pyDigits (acc * 10 + d) cs
    | none => none
  | c :: cs =>
    match digitVal? c with
    | some d => pyDigits (acc * 10 + d) cs
    | none => none

/-- Unsigned part of a Python integer literal: must start with a digit. -/
def pyNat : List Char → Option Nat
  | [] => none
  | c :: cs =>
    match digitVal? c with
    | some d => pyDigits d cs
    | none => none

/-- ASCII whitespace as stripped by `int()`.  Python built-in. -/
def isSpace (c : Char) : Bool :=
  c = ' ' || c = '\t' || c = '\n' || c = '\r' || c = '\x0b' || c = '\x0c'

/-- `str.strip()` for ASCII whitespace.  Python built-in. -/
def pyStrip (s : List Char) : List Char :=
  ((s.dropWhile isSpace).reverse.dropWhile isSpace).reverse

/-- `int(s)` for a string argument, base ten (Python built-in, used at `/repo/draftsman/utils.py:477`
and `:879`): surrounding whitespace, an optional sign, digits with single underscores in between.
`ValueError` otherwise. -/
def pyInt (s : List Char) : Except PyErr Int :=
  match pyStrip s with
  | '-' :: cs => match pyNat cs with
    | some n => .ok (-(n : Int))
    | none => .error .valueError
  | '+' :: cs => match pyNat cs with
    | some n => .ok n
    | none => .error .valueError
  | cs => match pyNat cs with
    | some n => .ok n
    | none => .error .valueError

end Draftsman
