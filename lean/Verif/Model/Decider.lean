import Verif.Model.WaitCond
/-
Decider combinator conditions: `/repo/draftsman/prototypes/decider_combinator.py:90-218`.

Signals are numbers here; the text of unknown signals, and constants outside `int32`, go through the construction at lines 120-132 unchecked
and unchanged, so nothing is said about them.
-/
namespace Draftsman
namespace Decider

/-- A set of network names, and the `NetworkSpecification` it becomes (`/repo/draftsman/signatures.py:693-699`: the missing ones are `False`,
the others keep the default `True`). -/
structure Nets where
  red : Bool
  green : Bool
  deriving DecidableEq, Repr

/-- The comparators as stored: `/repo/draftsman/signatures.py:716`. -/
inductive Cmp where
  | gt | lt | eq | ge | le | ne
  deriving DecidableEq, Repr

/-- `normalize_comparator_python_equivalents`, `/repo/draftsman/signatures.py:767-774`, followed by the literal check; other text is not a
comparator. -/
def normCmp (s : String) : Option Cmp :=
  if s = "==" ∨ s = "=" then some .eq
  else if s = ">=" ∨ s = "≥" then some .ge
  else if s = "<=" ∨ s = "≤" then some .le
  else if s = "!=" ∨ s = "≠" then some .ne
  else if s = ">" then some .gt
  else if s = "<" then some .lt
  else none

/-- The parts of a `DeciderCondition` that do not concern how it combines: `/repo/draftsman/prototypes/decider_combinator.py:120-128`. -/
structure Cond where
  first : Option Nat
  firstNets : Nets
  cmp : Option Cmp
  constant : Option Int
  second : Option Nat
  secondNets : Nets
  deriving DecidableEq, Repr

/-- `DeciderInput`: `/repo/draftsman/prototypes/decider_combinator.py`, lines 178-181. -/
structure Input where
  signal : Nat
  nets : Nets
  deriving DecidableEq, Repr

/-- What an input is compared with: another input or an `int`, `/repo/draftsman/prototypes/decider_combinator.py`, line 184 and 192. -/
inductive Other where
  | input (i : Input)
  | int (n : Int)
  deriving DecidableEq, Repr

/-- `_output_condition`: `/repo/draftsman/prototypes/decider_combinator.py:183-198`, with the defaults of `DeciderCondition.__init__` (102-111). -/
def outputCondition (a : Input) (cmp : String) : Other → Cond
  | .input b => ⟨some a.signal, a.nets, normCmp cmp, none, some b.signal, b.nets⟩
  | .int n => ⟨some a.signal, a.nets, normCmp cmp, some n, none, ⟨true, true⟩⟩

/-- The comparison operators of Python. -/
inductive PyOp where
  | eq | ne | gt | lt | ge | le
  deriving DecidableEq, Repr

/-- `__eq__`, `__ne__`, `__gt__`, `__lt__`, `__ge__`, `__le__`: `/repo/draftsman/prototypes/decider_combinator.py:202-218`. -/
def compare (o : PyOp) (a : Input) (b : Other) : Cond :=
  match o with
  | .eq => outputCondition a "=" b
  | .ne => outputCondition a "!=" b
  | .gt => outputCondition a ">" b
  | .lt => outputCondition a "<" b
  | .ge => outputCondition a "<=" b
  | .le => outputCondition a ">=" b

/-- `n op a` with an `int` on the left: `int` does not know the other side, so Python calls the reflected method of `a`. -/
def compareInt (o : PyOp) (n : Int) (a : Input) : Cond :=
  match o with
  | .eq => compare .eq a (.int n)
  | .ne => compare .ne a (.int n)
  | .gt => compare .lt a (.int n)
  | .lt => compare .gt a (.int n)
  | .ge => compare .le a (.int n)
  | .le => compare .ge a (.int n)

/-! ## Combining conditions -/

open Wait (Heap WC Opd get setCmp)

/-- `&` and `|`: `/repo/draftsman/prototypes/decider_combinator.py:134-172`.  A condition is an index into a heap (what it tests, and whether its
`compare_type` is `"and"`, as for wait conditions); a combination is a Python list of conditions.  With a list on the left Python falls back
on the reflected method of the right side; two lists have no such operator.  Nothing is copied. -/
def op (isAnd : Bool) (h : Heap) : Opd → Opd → Heap × Except PyErr (List Nat)
  | .one a, .one b => (setCmp h b isAnd, .ok [a, b])
  | .one _, .many [] => (h, .error .indexError)
  | .one a, .many (b :: bs) => (setCmp h b isAnd, .ok (a :: b :: bs))
  | .many as, .one b => (setCmp h b isAnd, .ok (as ++ [b]))
  | .many _, .many _ => (h, .error .typeError)

end Decider
end Draftsman
