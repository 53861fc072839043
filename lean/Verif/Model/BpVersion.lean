import Verif.Model.Version
import Mathlib.Data.Int.Bitwise
/-
The attribute `version` of blueprints, blueprint books and planners: `/repo/draftsman/classes/blueprintable.py:353-405, 459-493`.
-/
namespace Draftsman.BpVersion
open Draftsman Draftsman.Version

/-- What is given as version: `None`, an `int`, something that can be unpacked with `*` (its entries, `none` for one that is no `int`), anything
else.  Texts are among the last: their characters are no numbers.  `/repo/draftsman/classes/blueprintable.py:397`. -/
inductive Given (V : Type) where
  | none
  | int (z : Int)
  | seq (l : List (Option Int))
  | other (v : V)
  deriving DecidableEq, Repr

/-- `encode_version` with any integers: `x << k` is `x * 2 ** k`.  `/repo/draftsman/utils.py:425-441`. -/
def encodeInt (major minor patch dev : Int) : Int :=
  Int.lor (Int.lor (Int.lor (major * 2 ^ 48) (minor * 2 ^ 32)) (patch * 2 ^ 16)) dev

/-- `decode_version` of any integer: `x >> k` rounds `x / 2 ** k` down and `& 0xFFFF` is the remainder by 65536, also of negative numbers.
`/repo/draftsman/utils.py:444-460`. -/
def decodeInt (n : Int) : List Int :=
  [n / 2 ^ 48 % 65536, n / 2 ^ 32 % 65536, n / 2 ^ 16 % 65536, n % 65536]

variable {V : Type}

/-- `normalize_version`: two to four integers are packed, on any exception the value is kept.  `/repo/draftsman/signatures.py:540-544`. -/
def normalize : Given V → Given V
  | .seq [some a, some b] => .int (encodeInt a b 0 0)
  | .seq [some a, some b, some c] => .int (encodeInt a b c 0)
  | .seq [some a, some b, some c, some d] => .int (encodeInt a b c d)
  | v => v

/-- The field, `Optional[uint64]`: `/repo/draftsman/signatures.py:71-73`, `/repo/draftsman/classes/blueprint.py:335-348`.  `conv` is how pydantic
turns what is neither `None` nor an `int` nor a sequence into an `int`, if it does. -/
def field (conv : V → Option Int) : Given V → Except PyErr (Given V)
  | .none => .ok .none
  | .int z => if 0 ≤ z ∧ z < 2 ^ 64 then .ok (.int z) else .error .dataFormat
  | .seq _ => .error .dataFormat
  | .other v => match conv v with
    | some z => if 0 ≤ z ∧ z < 2 ^ 64 then .ok (.int z) else .error .dataFormat
    | none => .error .dataFormat

/-- `blueprint.version = value`: the version afterwards, and the exception if one is raised; `checked` unless the mode of validation is `NONE`.
`/repo/draftsman/classes/blueprintable.py:396-405`. -/
def set (conv : V → Option Int) (checked : Bool) (s value : Given V) : Given V × Option PyErr :=
  if checked then
    match field conv (normalize value) with
    | .ok r => (r, none)
    | .error e => (s, some e)
  else (normalize value, none)

/-- `version_tuple`: only of an `int`.  `/repo/draftsman/classes/blueprintable.py:459-475`. -/
def versionTuple : Given V → Except PyErr (List Int)
  | .int z => .ok (decodeInt z)
  | _ => .error .typeError

/-- `version_string`: `/repo/draftsman/classes/blueprintable.py:477-493`. -/
def versionString (s : Given V) : Except PyErr (List Char) :=
  match versionTuple s with
  | .ok t => .ok (versionTupleToString t)
  | .error e => .error e

end Draftsman.BpVersion
