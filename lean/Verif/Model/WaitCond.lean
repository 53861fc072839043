import Verif.Model.Py
/-
Wait conditions and their operators: `/repo/draftsman/classes/schedule.py:293-401`.

Objects live on a heap, so that copying, sharing and mutation are visible: a `WaitCondition` is an index into the heap and a
`WaitConditions` a list of them (`_conditions`, line 371).
-/
namespace Draftsman
namespace Wait

/-- A `WaitCondition`: what it waits for (`type`, `ticks` and `condition` together) and whether `compare_type` is `"and"`.  `/repo/draftsman/classes/schedule.py:34-260`. -/
structure WC where
  what : Nat
  isAnd : Bool
  deriving DecidableEq, Repr

/-- The `WaitCondition` objects by identity (Python references). -/
abbrev Heap := List WC

/-- The object a reference points at.  Python built-in. -/
def get (h : Heap) (r : Nat) : WC := h.getD r ⟨0, false⟩

/-- An operand: a `WaitCondition` or a `WaitConditions`.  `/repo/draftsman/classes/schedule.py:293-341` and `:356-370`. -/
inductive Opd where
  | one (r : Nat)
  | many (rs : List Nat)
  deriving DecidableEq, Repr

/-- `copy.deepcopy` of `_conditions`: an object met a second time gives the copy made the first time (the memo of `copy.deepcopy`).  Python standard library; used at `/repo/draftsman/classes/schedule.py:293-341`. -/
def copyList : Heap → List (Nat × Nat) → List Nat → Heap × List Nat
  | h, _, [] => (h, [])
  | h, memo, r :: rs =>
    match memo.lookup r with
    | some r' => ((copyList h memo rs).1, r' :: (copyList h memo rs).2)
    | none =>
      ((copyList (h ++ [get h r]) ((r, h.length) :: memo) rs).1,
        h.length :: (copyList (h ++ [get h r]) ((r, h.length) :: memo) rs).2)

/-- `r.compare_type = "and"` or `"or"`.  `/repo/draftsman/classes/schedule.py:207-221`. -/
def setCmp (h : Heap) (r : Nat) (isAnd : Bool) : Heap := h.modify r fun c => { c with isAnd := isAnd }

/-- `a & b` (`isAnd`) and `a | b`: `/repo/draftsman/classes/schedule.py:293-305` and 318-330 when `a` is a `WaitCondition`; 307-316 and
332-341 (the reflected methods of `b`) when `a` is a `WaitConditions`, which has no operators of its own (356-401).
Gives the heap left behind and the `_conditions` of the result. -/
def op (isAnd : Bool) (h : Heap) : Opd → Opd → Heap × Except PyErr (List Nat)
  | .one a, .one b =>
    let h1 := h ++ [get h a]
    let h2 := h1 ++ [get h1 b]
    (setCmp h2 h1.length isAnd, .ok [h.length, h1.length])
  | .one a, .many bs =>
    let h1 := h ++ [get h a]
    let (h2, bs') := copyList h1 [] bs
    match bs' with
    | [] => (h2, .error .indexError)
    | b0 :: r => (setCmp h2 b0 isAnd, .ok (h.length :: b0 :: r))
  | .many as, .one b =>
    let h1 := h ++ [get h b]
    let (h2, as') := copyList h1 [] as
    (setCmp h2 h.length isAnd, .ok (as' ++ [h.length]))
  | .many _, .many _ => (h, .error .typeError)

end Wait
end Draftsman
