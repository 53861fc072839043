import Verif.Model.Py
import Mathlib.Data.Rat.Floor
/-
Train configuration strings: `/repo/draftsman/classes/train_configuration.py`.

Strings are lists of characters.  `str.upper`, `str.lower` and `\d` are taken for ASCII only.  `mapping` is represented by its
one-character keys; a car by its letter, since `new_entity(**mapping[char])` (lines 139-141) makes one entity per letter.
-/
namespace Draftsman
namespace TrainConfig

/-- `rail_length`, `/repo/draftsman/classes/train_configuration.py:52-58`. -/
def railLength (cars : List Char) : ℤ := ⌈(((cars.length * 7 : ℕ) : ℚ) / 2)⌉

/-- `format_string.split("-")`, line 92 of `/repo/draftsman/classes/train_configuration.py`. -/
def split : List Char → List (List Char)
  | [] => [[]]
  | c :: r =>
    match split r with
    | [] => [[c]]
    | b :: bs => if c = '-' then [] :: b :: bs else (c :: b) :: bs

/-- The matches of `_digit_regex`, `/repo/draftsman/classes/train_configuration.py:14`, in order: digits followed by a non-digit, digits
at the end, or a lone non-digit.  Given as digits and letter; `acc` are the digits read so far. -/
def tokens : List Char → List Char → List (List Char × Option Char)
  | acc, [] => if acc = [] then [] else [(acc, none)]
  | acc, c :: r => if c.isDigit then tokens (acc ++ [c]) r else (acc, some c) :: tokens [] r

/-- `int(amt)` with `amt = digits or 1`, lines 116-124 and 134 of `/repo/draftsman/classes/train_configuration.py`. -/
def amount (ds : List Char) : ℕ := if ds = [] then 1 else ds.foldl (fun n c => 10 * n + (c.toNat - 48)) 0

/-- The inner loop, `/repo/draftsman/classes/train_configuration.py:115-136`. -/
def expand (mapping : List Char) (dflt : Char) : List (List Char × Option Char) → Except PyErr (List Char)
  | [] => .ok []
  | (ds, l) :: r =>
    let car := l.getD dflt
    if car ∉ mapping then .error .valueError
    else
      match expand mapping dflt r with
      | .error e => .error e
      | .ok t => .ok (List.replicate (amount ds) car ++ t)

/-- `current_default_type`, `/repo/draftsman/classes/train_configuration.py:108-113`. -/
def dfltType (dual : Bool) (wagon : Char) (i : ℕ) : Char :=
  if dual && decide (i = 2) then '>' else if i % 2 = 0 then '<' else wagon

/-- The outer loop, `/repo/draftsman/classes/train_configuration.py:106-136`, from block `i` on. -/
def blocks (mapping : List Char) (dual : Bool) (wagon : Char) : ℕ → List (List Char) → Except PyErr (List Char)
  | _, [] => .ok []
  | i, b :: r =>
    match expand mapping (dfltType dual wagon i) (tokens [] b) with
    | .error e => .error e
    | .ok t =>
      match blocks mapping dual wagon (i + 1) r with
      | .error e => .error e
      | .ok u => .ok (t ++ u)

/-- `wagon_symbols[wagons]`, `/repo/draftsman/classes/train_configuration.py:80-87`. -/
def wagonSymbol (w : String) : Option Char :=
  if w = "cargo" then some 'C' else if w = "fluid" then some 'F' else if w = "artillery" then some 'A' else none

/-- `from_string`, `/repo/draftsman/classes/train_configuration.py:62-141`. -/
def fromString (fmt : List Char) (direction wagons : String) (mapping : List Char) : Except PyErr (List Char) :=
  let fmt := fmt.map Char.toUpper
  let direction := direction.toLower
  if direction ≠ "dual" ∧ direction ≠ "forward" then .error .valueError
  else
    match wagonSymbol wagons.toLower with
    | none => .error .valueError
    | some w =>
      let bs := split fmt
      blocks mapping (decide (bs.length = 3) && decide (direction = "dual")) w 0 bs

/-- `default_mapping`, `/repo/draftsman/classes/train_configuration.py:23-29`. -/
def defaultMapping : List Char := ['<', '>', 'C', 'F', 'A']

end TrainConfig
end Draftsman
