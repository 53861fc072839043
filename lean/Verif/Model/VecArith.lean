import Verif.Model.Py
import Verif.Model.Round
/-
Calculating with vectors: the operators of `Vector`, `/repo/draftsman/classes/vector.py:138-181`, on whatever is given as the other operand.
Simplified: floats are exact rationals without infinities, truth values are not told from the numbers 0 and 1, the left vector holds numbers,
and keys of mappings are whole numbers or texts.
-/
namespace Draftsman
namespace VecArith

/-- A number with its type: `int` or `float`.  `/repo/draftsman/classes/vector.py:9-11`. -/
inductive Num where
  | int (z : ℤ)
  | flt (q : ℚ)
  deriving DecidableEq

/-- The value of a number, as comparisons and mixed calculations take it.  Python built-in; used at `/repo/draftsman/classes/vector.py:140, 175`. -/
def Num.q : Num → ℚ
  | .int z => z
  | .flt q => q

/-- A key of a mapping.  `/repo/draftsman/classes/vector.py:140`. -/
inductive Key where
  | int (z : ℤ)
  | str (s : String)
  deriving DecidableEq

/-- A value given as the other operand.  `/repo/draftsman/classes/vector.py:138-172`. -/
inductive Val where
  | none
  | num (n : Num)
  | text (s : List Char)
  | list (l : List Val)
  | tuple (l : List Val)
  | dict (l : List (Key × Val))
  | vec (x y : Val)

/-- The operators.  `/repo/draftsman/classes/vector.py:138, 144, 150, 156, 166`. -/
inductive Op where
  | add | sub | mul | div | floordiv
  deriving DecidableEq

/-- `a + b`, `a - b`, `a * b`, `a / b`, `a // b` of numbers (Python built-in), used at `/repo/draftsman/classes/vector.py:140-142, 146-148, 152-154, 160-162, 170-172`. -/
def arith (op : Op) (a b : Num) : Except PyErr Num :=
  match op with
  | .add => match a, b with
    | .int m, .int n => .ok (.int (m + n))
    | _, _ => .ok (.flt (a.q + b.q))
  | .sub => match a, b with
    | .int m, .int n => .ok (.int (m - n))
    | _, _ => .ok (.flt (a.q - b.q))
  | .mul => match a, b with
    | .int m, .int n => .ok (.int (m * n))
    | _, _ => .ok (.flt (a.q * b.q))
  | .div => if b.q = 0 then .error .zeroDivision else .ok (.flt (a.q / b.q))
  | .floordiv => if b.q = 0 then .error .zeroDivision else
    match a, b with
    | .int m, .int n => .ok (.int (Int.fdiv m n))
    | _, _ => .ok (.flt ⌊a.q / b.q⌋)

/-- `z * s` for a sequence (Python built-in), used at `/repo/draftsman/classes/vector.py:152-154`. -/
def rep {α : Type} (z : ℤ) (s : List α) : List α := (List.replicate z.toNat s).flatten

/-- `a op b` for a number on the left and any value on the right (Python built-in): numbers are calculated, whole numbers repeat sequences, and everything else is a
`TypeError`, for `Vector` has no reflected operators.  `/repo/draftsman/classes/vector.py:140-142, 146-148, 152-154, 160-162, 170-172`. -/
def binop (op : Op) (a : Num) (b : Val) : Except PyErr Val :=
  match b with
  | .num n => (arith op a n).map .num
  | .text s => match op, a with
    | .mul, .int z => .ok (.text (rep z s))
    | _, _ => .error .typeError
  | .list l => match op, a with
    | .mul, .int z => .ok (.list (rep z l))
    | _, _ => .error .typeError
  | .tuple l => match op, a with
    | .mul, .int z => .ok (.tuple (rep z l))
    | _, _ => .error .typeError
  | _ => .error .typeError

/-- `other[i]` for `i` = 0 or 1 (Python built-in, and `Vector.__getitem__`).  `/repo/draftsman/classes/vector.py:120-126, 140`. -/
def item (v : Val) (i : ℕ) : Except PyErr Val :=
  match v with
  | .list l | .tuple l => match l[i]? with
    | some x => .ok x
    | none => .error .indexError
  | .text s => match s[i]? with
    | some c => .ok (.text [c])
    | none => .error .indexError
  | .dict l => match l.find? (fun p => p.1 == Key.int i) with
    | some p => .ok p.2
    | none => .error .keyError
  | .vec x y => if i = 0 then .ok x else .ok y
  | _ => .error .typeError

/-- `Vector(self[0] + other[0], self[1] + other[1])`: `/repo/draftsman/classes/vector.py:140, 146, 152, 160, 170`. -/
def pairwise (op : Op) (v : Num × Num) (o : Val) : Except PyErr (Val × Val) := do
  let a ← item o 0
  let x ← binop op v.1 a
  let b ← item o 1
  let y ← binop op v.2 b
  .ok (x, y)

/-- `Vector(self[0] + other, self[1] + other)`: `/repo/draftsman/classes/vector.py:142, 148, 154, 162, 172`. -/
def scalar (op : Op) (v : Num × Num) (o : Val) : Except PyErr (Val × Val) := do
  let x ← binop op v.1 o
  let y ← binop op v.2 o
  .ok (x, y)

/-- The operators: `/repo/draftsman/classes/vector.py:138-172`. -/
def vecOp (op : Op) (v : Num × Num) (o : Val) : Except PyErr (Val × Val) :=
  match pairwise op v o with
  | .error .typeError => scalar op v o
  | r => r

/-- `self == other`: `/repo/draftsman/classes/vector.py:174-175`; a number is equal to numbers of the same value only. -/
def vecEq (v : Num × Num) (o : Val) : Bool :=
  match o with
  | .vec (.num a) (.num b) => v.1.q == a.q && v.2.q == b.q
  | _ => false

/-- `abs(n)` of a number (Python built-in), used at `/repo/draftsman/classes/vector.py:178`. -/
def absNum : Num → Num
  | .int z => .int |z|
  | .flt q => .flt |q|

/-- `Vector.__abs__`: `/repo/draftsman/classes/vector.py:177-178`. -/
def vecAbs (v : Num × Num) : Num × Num := (absNum v.1, absNum v.2)

/-- `round(n, precision)` of a number (Python built-in), used at `/repo/draftsman/classes/vector.py:181`: the nearest multiple of a power of ten, ties to the even multiple. -/
def roundNum (p : ℤ) : Num → Num
  | .int z => if 0 ≤ p then .int z else .int (pyRound ((z : ℚ) / 10 ^ (-p).toNat) * 10 ^ (-p).toNat)
  | .flt q => .flt (pyRound (q * (10 : ℚ) ^ p) / (10 : ℚ) ^ p)

/-- `Vector.__round__`: `/repo/draftsman/classes/vector.py:180-181`. -/
def vecRound (p : ℤ) (v : Num × Num) : Num × Num := (roundNum p v.1, roundNum p v.2)

end VecArith
end Draftsman
