import Mathlib.Algebra.Order.Field.Rat
import Mathlib.Algebra.Order.Floor.Ring
import Mathlib.Data.Rat.Floor
/-
Python's `round` on exact rationals.
-/
namespace Draftsman

/-- Python's `round(x)` for one argument (round half to even), used at
`/repo/draftsman/utils.py:879`, `/repo/draftsman/constants.py:406-428` and
`/repo/draftsman/classes/entity.py:477-490`, on exact rationals. -/
def pyRound (q : ℚ) : ℤ :=
  let f := ⌊q⌋
  let r := q - f
  if r < 1/2 then f
  else if r > 1/2 then f + 1
  else if f % 2 = 0 then f else f + 1

end Draftsman
