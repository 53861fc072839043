import Verif.Model.Py
import Mathlib.Algebra.Order.Ring.Int
/-
Arithmetic combinators: `/repo/draftsman/prototypes/arithmetic_combinator.py:48-108, 268-573`, with assignments checked
(`validate_assignment` other than `NONE`).  The checks at lines 117-212 only add warnings and are left out.  What pydantic does is taken
to be: a field that fails its check leaves the object as it was, otherwise it is stored.
-/
namespace Draftsman
namespace Arith

/-- `SignalID`: `/repo/draftsman/signatures.py:349-378`.  The quality of a signal given by name is the default. -/
structure Sig where
  name : String
  type : String
  quality : String
  deriving DecidableEq, Repr

/-- The table `type_of`: `/repo/draftsman/data/signals.py:18`; a set of types is a list in the order Python happens to iterate it. -/
abbrev Table := String → Option (List String)

/-- `signal_dict`, then `SignalID`: `/repo/draftsman/data/signals.py:111-129` and `/repo/draftsman/signatures.py:380-397`.  A name that is not in the
table is a `DataFormatError` once pydantic and `attempt_and_reissue` have wrapped it; an empty set of types ends in `StopIteration`. -/
def signalOf (T : Table) (n : String) : Except PyErr Sig :=
  match T n with
  | none => .error .dataFormat
  | some ts => if "item" ∈ ts then .ok ⟨n, "item", "normal"⟩ else
    match ts with
    | [] => .error .stopIteration
    | t :: _ => .ok ⟨n, t, "normal"⟩

/-- What the caller may give as an operand: `None`, an `int`, a name, a full signal.  `/repo/draftsman/prototypes/arithmetic_combinator.py:298-301` and `:500-528`. -/
inductive Arg where
  | none
  | int (n : Int)
  | name (s : String)
  | sig (s : Sig)
  deriving DecidableEq, Repr

/-- What an operand reads as: `None`, a constant or a signal.  `/repo/draftsman/prototypes/arithmetic_combinator.py:287-296`. -/
inductive Operand where
  | none
  | const (n : Int)
  | sig (s : Sig)
  deriving DecidableEq, Repr

/-- `Optional[NetworkSpecification]`.  `/repo/draftsman/signatures.py:684-699`; red and green. -/
abbrev Nets := Bool × Bool

/-- `ArithmeticConditions` and its defaults: `/repo/draftsman/prototypes/arithmetic_combinator.py:49-108`. -/
structure Conds where
  firstConst : Option Int := none
  firstSig : Option Sig := none
  firstNets : Nets := (true, true)
  operation : Option String := some "*"
  secondConst : Option Int := some 0
  secondSig : Option Sig := none
  secondNets : Nets := (true, true)
  output : Option Sig := none
  deriving DecidableEq, Repr

/-- The control behaviour: it may be `None` (`/repo/draftsman/prototypes/arithmetic_combinator.py`, line 218), and so may its conditions (lines 214-216). -/
abbrev State := Option (Option Conds)

/-- `int32`: `/repo/draftsman/signatures.py:63`. -/
def int32 (n : Int) : Bool := decide (-(2 ^ 31) ≤ n) && decide (n < 2 ^ 31)

/-- The operations: `/repo/draftsman/prototypes/arithmetic_combinator.py:71-73`. -/
def operations : List String := ["*", "/", "+", "-", "%", "^", "<<", ">>", "AND", "OR", "XOR"]

/-- `operation`: upper case (`/repo/draftsman/prototypes/arithmetic_combinator.py`, lines 110-115), then one of the operations or `None`. -/
def checkOp : Option String → Except PyErr (Option String)
  | none => .ok none
  | some s => if s.toUpper ∈ operations then .ok (some s.toUpper) else .error .dataFormat

/-- An `Optional[SignalID]` that is not an integer.  `/repo/draftsman/signatures.py:380-397`, as field of `/repo/draftsman/prototypes/arithmetic_combinator.py:56-108`. -/
def checkSig (T : Table) : Arg → Except PyErr (Option Sig)
  | .none => .ok none
  | .int _ => .error .dataFormat
  | .name s => (signalOf T s).map some
  | .sig s => .ok (some s)

/-- `first_operand`: `/repo/draftsman/prototypes/arithmetic_combinator.py:287-296`. -/
def getFirst : State → Except PyErr Operand
  | none => .error .attributeError
  | some none => .ok .none
  | some (some c) =>
    match c.firstSig, c.firstConst with
    | some s, _ => .ok (.sig s)
    | none, some n => .ok (.const n)
    | none, none => .ok .none

/-- `second_operand`: `/repo/draftsman/prototypes/arithmetic_combinator.py`, lines 409-418. -/
def getSecond : State → Except PyErr Operand
  | none => .error .attributeError
  | some none => .ok .none
  | some (some c) =>
    match c.secondSig, c.secondConst with
    | some s, _ => .ok (.sig s)
    | none, some n => .ok (.const n)
    | none, none => .ok .none

/-- `operation`: `/repo/draftsman/prototypes/arithmetic_combinator.py`, lines 353-357. -/
def getOp : State → Except PyErr (Option String)
  | none => .error .attributeError
  | some none => .ok none
  | some (some c) => .ok c.operation

/-- `output_signal`: `/repo/draftsman/prototypes/arithmetic_combinator.py`, lines 475-479. -/
def getOutput : State → Except PyErr (Option Sig)
  | none => .error .attributeError
  | some none => .ok none
  | some (some c) => .ok c.output

/-- The conditions a setter works on: made afresh when they are `None` (`/repo/draftsman/prototypes/arithmetic_combinator.py`, lines 300-303 and alike). -/
def fresh : Option Conds → Conds
  | none => {}
  | some c => c

/-- `first_operand = value`: `/repo/draftsman/prototypes/arithmetic_combinator.py`, lines 298-329. -/
def setFirst (T : Table) (st : State) (v : Arg) : State × Option PyErr :=
  match st with
  | none => (none, some .attributeError)
  | some c =>
    let c := fresh c
    match v with
    | .none => (some (some { c with firstSig := none, firstConst := none }), none)
    | .int n => if int32 n then (some (some { c with firstConst := some n, firstSig := none }), none) else (some (some c), some .dataFormat)
    | v =>
      match checkSig T v with
      | .ok s => (some (some { c with firstSig := s, firstConst := none }), none)
      | .error e => (some (some c), some e)

/-- `second_operand = value`: `/repo/draftsman/prototypes/arithmetic_combinator.py`, lines 420-451. -/
def setSecond (T : Table) (st : State) (v : Arg) : State × Option PyErr :=
  match st with
  | none => (none, some .attributeError)
  | some c =>
    let c := fresh c
    match v with
    | .none => (some (some { c with secondSig := none, secondConst := none }), none)
    | .int n => if int32 n then (some (some { c with secondConst := some n, secondSig := none }), none) else (some (some c), some .dataFormat)
    | v =>
      match checkSig T v with
      | .ok s => (some (some { c with secondSig := s, secondConst := none }), none)
      | .error e => (some (some c), some e)

/-- `operation = value`: `/repo/draftsman/prototypes/arithmetic_combinator.py`, lines 359-381. -/
def setOp (st : State) (v : Option String) : State × Option PyErr :=
  match st with
  | none => (none, some .attributeError)
  | some c =>
    match checkOp v with
    | .ok o => (some (some { fresh c with operation := o }), none)
    | .error e => (some (some (fresh c)), some e)

/-- `output_signal = value`: `/repo/draftsman/prototypes/arithmetic_combinator.py`, lines 481-498. -/
def setOutput (T : Table) (st : State) (v : Arg) : State × Option PyErr :=
  match st with
  | none => (none, some .attributeError)
  | some c =>
    match checkSig T v with
    | .ok o => (some (some { fresh c with output := o }), none)
    | .error e => (some (some (fresh c)), some e)

/-- The part of the new dictionary that an operand gives, once checked: an `int` goes to the constant and leaves the signal at its default `None`,
anything else goes to the signal and leaves the constant at its default `d` (`/repo/draftsman/prototypes/arithmetic_combinator.py`, lines 542-558). -/
def operandFields (T : Table) (d : Option Int) : Arg → Except PyErr (Option Int × Option Sig)
  | .int n => if int32 n then .ok (some n, none) else .error .dataFormat
  | v => (checkSig T v).map (fun s => (d, s))

/-- `set_arithmetic_conditions`: `/repo/draftsman/prototypes/arithmetic_combinator.py`, lines 529-561.  Pydantic reports all failing fields in one exception, so which one fails first does not show; for a
signal with no types at all it does (`StopIteration`), and then it is the first failing field in the order of the class. -/
def setAll (T : Table) (st : State) (first : Arg) (fNets : Nets) (op : Option String) (second : Arg) (sNets : Nets) (out : Arg) :
    State × Option PyErr :=
  match operandFields T none first, checkOp (some (op.getD "*")), operandFields T (some 0) second, checkSig T out with
  | .ok (fc, fs), .ok o, .ok (sc, ss), .ok u =>
    (some (some { firstConst := fc, firstSig := fs, firstNets := fNets, operation := o, secondConst := sc, secondSig := ss, secondNets := sNets,
                  output := u }), none)
  | .error e, _, _, _ => (st, some e)
  | _, .error e, _, _ => (st, some e)
  | _, _, .error e, _ => (st, some e)
  | _, _, _, .error e => (st, some e)

/-- `remove_arithmetic_conditions`: `/repo/draftsman/prototypes/arithmetic_combinator.py`, lines 571-573. -/
def remove : State → State × Option PyErr
  | none => (none, some .attributeError)
  | some _ => (some (some {}), none)

/-- `control_behavior = None`: `/repo/draftsman/classes/mixins/control_behavior.py:81-89` with `Optional[ControlBehavior]` (line 218). -/
def dropBehavior (_ : State) : State × Option PyErr := (none, none)

end Arith
end Draftsman
