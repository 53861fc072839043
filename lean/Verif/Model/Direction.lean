import Mathlib.Algebra.Order.Field.Rat
import Mathlib.Algebra.Order.Floor.Ring
import Mathlib.Data.Rat.Floor
import Verif.Model.Py
import Verif.Model.Round
/-
Directions, orientations, ticks and validation modes: `/repo/draftsman/constants.py`.
-/
namespace Draftsman

/-- `Direction`, `/repo/draftsman/constants.py:16-48`: an `IntEnum` with the values 0..15. -/
abbrev Direction := Fin 16

namespace Direction

/-- `Direction(v)`: the enum constructor, `ValueError` outside 0..15.  `enum` of the Python standard library on `/repo/draftsman/constants.py:16-60`. -/
def mk? (v : Int) : Except PyErr Direction :=
  if h : 0 ≤ v ∧ v < 16 then .ok ⟨v.toNat, by omega⟩ else .error .valueError

/-- `Direction((v) % 16)`: the constructor on a value reduced by Python's `%`; never fails. -/
def wrap (v : Int) : Direction := ⟨(v % 16).toNat, by omega⟩

/-- `Direction.opposite`, `/repo/draftsman/constants.py:50-61`. -/
def opposite (d : Direction) : Direction := wrap (d.val + 8)
/-- `Direction.next`, `/repo/draftsman/constants.py:63-81`. -/
def next (d : Direction) (fourWay : Bool := true) : Direction := wrap (d.val + (if fourWay then 4 else 1))
/-- `Direction.previous`, `/repo/draftsman/constants.py:83-102`. -/
def previous (d : Direction) (fourWay : Bool := true) : Direction := wrap (d.val - (if fourWay then 4 else 1))

/-- The mapping of `Direction.to_vector`, `/repo/draftsman/constants.py:149-170`, over any ring; `r` is
`2 ** (-1/2)` (irrational, so the ring is a parameter) and `m` the magnitude. -/
def toVector {R : Type} [Zero R] [One R] [Neg R] [Mul R] (r m : R) (d : Direction) : R × R :=
  let v : R × R := match d.val with
    | 0 => (0, -1) | 2 => (r, -r) | 4 => (1, 0) | 6 => (r, r)
    | 8 => (0, 1) | 10 => (-r, r) | 12 => (-1, 0) | 14 => (-r, -r)
    | _ => (0, 0)
  (v.1 * m, v.2 * m)

end Direction

/-- `LegacyDirection`, `/repo/draftsman/constants.py:173-197`: an `IntEnum` with the values 0..7. -/
abbrev LegacyDirection := Fin 8

namespace LegacyDirection
/-- `LegacyDirection.opposite`, `/repo/draftsman/constants.py:199-210`: builds a `Direction`, not a
`LegacyDirection`. -/
def opposite (d : LegacyDirection) : Direction := ⟨(d.val + 4) % 8, by omega⟩
/-- `LegacyDirection.next`, `/repo/draftsman/constants.py:212-230`: also builds a `Direction`. -/
def next (d : LegacyDirection) (eightWay : Bool := false) : Direction :=
  ⟨(d.val + 1 + (if eightWay then 0 else 1)) % 8, by omega⟩
/-- `LegacyDirection.previous`, `/repo/draftsman/constants.py:232-251`: also builds a `Direction`. -/
def previous (d : LegacyDirection) (eightWay : Bool := false) : Direction :=
  ⟨(((d.val : Int) - 1 - (if eightWay then 0 else 1)) % 8).toNat, by omega⟩
end LegacyDirection

/-- `Orientation`, `/repo/draftsman/constants.py:335-384`: a `float` subclass.  `raw` is the value of the
underlying float, `value` is the `_value_` attribute. -/
structure Orientation where
  raw : ℚ
  value : ℚ
  deriving DecidableEq, Repr

namespace Orientation
/-- Python's `x % 1.0` on exact rationals. -/
def mod1 (x : ℚ) : ℚ := x - ⌊x⌋

/-- `Orientation(value)`, `/repo/draftsman/constants.py:369-384` (`_name_` omitted). -/
def mk' (v : ℚ) : Orientation := ⟨v, mod1 v⟩

/-- `Orientation.opposite`, `/repo/draftsman/constants.py:386-404`. -/
def opposite (o : Orientation) : Orientation := mk' (mod1 (o.value + 1/2))

/-- `Orientation.to_direction`, `/repo/draftsman/constants.py:406-428`. -/
def toDirection (o : Orientation) (sixteenWay : Bool := false) : Except PyErr Direction :=
  if sixteenWay then Direction.mk? (pyRound (o.value * 16))
  else Direction.mk? (pyRound (o.value * 4) * 4)

/-- `Orientation.__add__`, `/repo/draftsman/constants.py:453-459` (orientation argument). -/
def add (a b : Orientation) : Orientation := mk' (a.value + b.value)
/-- `Orientation.__add__` / `__radd__` with a float, `/repo/draftsman/constants.py:456-463`. -/
def addFloat (a : Orientation) (b : ℚ) : Orientation := mk' (a.value + b)
/-- `Orientation.__sub__`, `/repo/draftsman/constants.py:467-473` (orientation argument). -/
def sub (a b : Orientation) : Orientation := mk' (a.value - b.value)

/-- `Orientation.__eq__`, `/repo/draftsman/constants.py:481-487`. -/
def eq (a b : Orientation) : Bool := decide (a.value = b.value)
/-- `Orientation.__lt__`, `/repo/draftsman/constants.py:489-495`. -/
def lt (a b : Orientation) : Bool := decide (a.value < b.value)
/-- `>`: `functools.total_ordering` (`/repo/draftsman/constants.py:335`) only adds operators that the class
does not inherit, and `float` already has all of them; so this is `float.__gt__` on the raw values. -/
def gt (a b : Orientation) : Bool := decide (a.raw > b.raw)
/-- `<=`: inherited from `float`, see `gt`.  `float` of the Python standard library; the class is `/repo/draftsman/constants.py:335-511`. -/
def le (a b : Orientation) : Bool := decide (a.raw ≤ b.raw)
/-- `>=`: inherited from `float`, see `gt`.  `float` of the Python standard library; the class is `/repo/draftsman/constants.py:335-511`. -/
def ge (a b : Orientation) : Bool := decide (a.raw ≥ b.raw)
/-- `!=`: inherited from `float`, which has its own `__ne__`.  `float` of the Python standard library; the class is `/repo/draftsman/constants.py:335-511`. -/
def ne (a b : Orientation) : Bool := decide (a.raw ≠ b.raw)
end Orientation

/-- The mapping shared by `Direction.to_orientation` and `LegacyDirection.to_orientation`,
`/repo/draftsman/constants.py:104-128, 253-277`: keyed by `Direction` members, which compare equal to any
`IntEnum` member of the same value; `KeyError` for the odd values. -/
def orientationTable (v : Nat) : Except PyErr Orientation :=
  match v with
  | 0 => .ok (.mk' 0) | 2 => .ok (.mk' (1/8)) | 4 => .ok (.mk' (1/4)) | 6 => .ok (.mk' (3/8))
  | 8 => .ok (.mk' (1/2)) | 10 => .ok (.mk' (5/8)) | 12 => .ok (.mk' (3/4)) | 14 => .ok (.mk' (7/8))
  | _ => .error .keyError

/-- `Direction.to_orientation`, `/repo/draftsman/constants.py:104-128`. -/
def Direction.toOrientation (d : Direction) : Except PyErr Orientation := orientationTable d.val
/-- `LegacyDirection.to_orientation`, `/repo/draftsman/constants.py:253-277`. -/
def LegacyDirection.toOrientation (d : LegacyDirection) : Except PyErr Orientation := orientationTable d.val

namespace Ticks
/-- `Ticks.SECOND`, `/repo/draftsman/constants.py:696`. -/
def second : Int := 60
/-- `Ticks.DAY`, `/repo/draftsman/constants.py:697-699`. -/
def day : Int := 24 * (60 * (60 * second))

/-- A normalised `datetime.timedelta`: Python keeps `0 <= seconds < 86400`, `0 <= microseconds < 10**6`. -/
structure TimeDelta where
  days : Int
  seconds : Int
  microseconds : Int
  deriving DecidableEq, Repr

/-- The normal form of a span of `us` microseconds (standard library `timedelta`). -/
def ofMicroseconds (us : Int) : TimeDelta :=
  ⟨us / 86400000000, us % 86400000000 / 1000000, us % 1000000⟩

/-- `Ticks.from_timedelta`, `/repo/draftsman/constants.py:701-726` (exact rationals for the division). -/
def fromTimedelta (td : TimeDelta) : Int :=
  td.days * day + td.seconds * second + pyRound ((td.microseconds : ℚ) * 60 / 1000000)
end Ticks

/-- `ValidationMode`, `/repo/draftsman/constants.py:801-832`. -/
inductive ValidationMode where
  | none | minimum | strict | pedantic
  deriving DecidableEq, Repr

namespace ValidationMode
/-- `_member_names_.index(self.name)`, `/repo/draftsman/constants.py:839-848`. -/
def index : ValidationMode → Nat
  | .none => 0 | .minimum => 1 | .strict => 2 | .pedantic => 3
/-- `__bool__`, `/repo/draftsman/constants.py:834-835`. -/
def truthy (m : ValidationMode) : Bool := m != .none
/-- `__eq__`, `/repo/draftsman/constants.py:837-842`. -/
def eq (a b : ValidationMode) : Bool := a.index == b.index
/-- `__gt__`, `/repo/draftsman/constants.py:844-849`. -/
def gt (a b : ValidationMode) : Bool := decide (a.index > b.index)
/-- `__ne__`, derived by Python from `__eq__`. -/
def ne (a b : ValidationMode) : Bool := !(eq a b)
/-- `__lt__`, derived by `functools.total_ordering` from `__gt__` (`_lt_from_gt`).  `/repo/draftsman/constants.py:801-850`. -/
def lt (a b : ValidationMode) : Bool := !(gt a b) && ne a b
/-- `__ge__`, derived by `functools.total_ordering` (`_ge_from_gt`).  `/repo/draftsman/constants.py:801-850`. -/
def ge (a b : ValidationMode) : Bool := gt a b || eq a b
/-- `__le__`, derived by `functools.total_ordering` (`_le_from_gt`).  `/repo/draftsman/constants.py:801-850`. -/
def le (a b : ValidationMode) : Bool := !(gt a b)
end ValidationMode

end Draftsman
