import Mathlib.Algebra.Order.Field.Rat
import Verif.Model.Py
import Verif.Model.Round
/-
Energy strings: `/repo/draftsman/utils.py:830-879`.
-/
namespace Draftsman.Energy

/-- `energy_chars`, `/repo/draftsman/utils.py:853-863`. -/
def energyChars : List (Char × ℚ) :=
  [('k', 10^3), ('K', 10^3), ('M', 10^6), ('G', 10^9), ('T', 10^12), ('P', 10^15), ('E', 10^18),
   ('Z', 10^21), ('Y', 10^24)]

/-- `str.isalpha()` on a one-character string, ASCII letters only (other alphabets are outside the model;
such a magnitude is not in the table, and is rejected by the code as well).  Python built-in, used at `/repo/draftsman/utils.py:865-879`. -/
def isAlpha (c : Char) : Bool := ('a' ≤ c && c ≤ 'z') || ('A' ≤ c && c ≤ 'Z')

/-- `parse_energy`, `/repo/draftsman/utils.py:830-879`.  Simplification: `1 / 60` and the products are exact
rationals rather than floats. -/
def parseEnergy (s : List Char) : Except PyErr Int :=
  match s.reverse with
  | [] => .error .indexError                                  -- energy_string[-1]
  | ending :: rest =>
    if ending ≠ 'J' ∧ ending ≠ 'W' then .error .valueError
    else
      let multiplier : ℚ := if ending = 'W' then 1 / 60 else 1
      match rest with
      | [] => do                                              -- magnitude is "", not alphabetic
        let n ← pyInt []
        .ok (pyRound (n * multiplier))
      | magnitude :: digits =>
        if isAlpha magnitude then
          match energyChars.lookup magnitude with
          | none => .error .valueError
          | some m => do
            let n ← pyInt digits.reverse
            .ok (pyRound (n * (multiplier * m)))
        else do
          let n ← pyInt rest.reverse
          .ok (pyRound (n * multiplier))

end Draftsman.Energy
