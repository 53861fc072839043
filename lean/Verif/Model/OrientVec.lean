import Mathlib.Analysis.SpecialFunctions.Trigonometric.Basic
import Verif.Model.Direction
/-
Vectors of orientations and of legacy directions: `/repo/draftsman/constants.py`.

Real numbers in the place of floats, so that the sines are exact.
-/
namespace Draftsman

/-- `LegacyDirection.to_vector`, `/repo/draftsman/constants.py:279-312`, over any ring; `r` is `2 ** (-1/2)` and `m` the magnitude.  The mapping has the members
of `Direction` as keys, which equal the legacy direction of the same number; `KeyError` for odd ones. -/
def LegacyDirection.toVector {R : Type} [Zero R] [One R] [Neg R] [Mul R] (r m : R) (d : LegacyDirection) : Except PyErr (R × R) :=
  match d.val with
  | 0 => .ok (0 * m, -1 * m) | 2 => .ok (r * m, -r * m) | 4 => .ok (1 * m, 0 * m) | 6 => .ok (r * m, r * m)
  | _ => .error .keyError

/-- `Orientation.to_vector`, `/repo/draftsman/constants.py:430-449`. -/
noncomputable def Orientation.toVector (o : Orientation) (m : ℝ) : ℝ × ℝ :=
  let angle := (o.value : ℝ) * Real.pi * 2
  (Real.sin angle * m, -Real.cos angle * m)

end Draftsman
