import Mathlib.Algebra.Order.Floor.Defs
import Mathlib.Data.Rat.Floor
import Verif.Model.Py
/-
Values in shorthand form: conditions, comparators, colors, selections of networks, positions, as the models of
`/repo/draftsman/signatures.py` convert and check them.
Simplified: floats are rationals (no infinities, no NaN); the keys of dictionaries are strings; instances of the models themselves are not values here;
what pydantic makes of text (`Env.real`, `Env.whole`, `Env.truth`) and of signals (`Env.signal`) is arbitrary.
-/
namespace Draftsman
namespace Convert

/-- The Python values. `object` is anything else, which may be hashable. -/
inductive Val where
  | none
  | bool (b : Bool)
  | int (n : Int)
  | num (q : Rat)
  | str (s : String)
  | list (l : List Val)
  | tuple (l : List Val)
  | set (l : List Val)
  | dict (d : List (String × Val))
  | vector (x y : Val)
  | object (hashable : Bool)

/-- The outcome of `model_validate`: an exception that is neither `ValueError` nor `AssertionError` goes through; otherwise a `ValidationError`
(reported as a `DataFormatError`, `/repo/draftsman/classes/exportable.py:28-38`) or the result. -/
inductive Out (α : Type) where
  | escape (e : PyErr)
  | invalid
  | valid (a : α)

/-- Two fields after each other: pydantic collects the errors of all fields, but other exceptions end the validation at once.
`/repo/draftsman/signatures.py:586-590`. -/
def Out.both {α β γ : Type} (f : α → β → γ) : Out α → Out β → Out γ
  | .escape e, _ => .escape e
  | _, .escape e => .escape e
  | .valid a, .valid b => .valid (f a b)
  | _, _ => .invalid

/-- The same outcome with another result.  `/repo/draftsman/signatures.py:590`. -/
def Out.map {α β : Type} (f : α → β) : Out α → Out β
  | .escape e => .escape e
  | .invalid => .invalid
  | .valid a => .valid (f a)

/-- What is left open: numbers, integers and truth values in text, as Python's `float`, `int` and pydantic read them, and signals (`SignalID`,
`/repo/draftsman/signatures.py:349-378`). -/
structure Env (Sig : Type) where
  real : String → Option Rat
  whole : String → Option Int
  truth : String → Option Bool
  signal : Val → Out Sig

variable {Sig : Type}

/-- A `float` field of pydantic, not strict: `/repo/draftsman/signatures.py:587-590`. -/
def floatField (env : Env Sig) : Val → Out Rat
  | .bool b => .valid (if b then 1 else 0)
  | .int n => .valid n
  | .num q => .valid q
  | .str s => match env.real s with
    | some q => .valid q
    | Option.none => .invalid
  | _ => .invalid

/-- An `int` field of pydantic, not strict: floats only without a fractional part.  `/repo/draftsman/signatures.py:642-643`. -/
def intField (env : Env Sig) : Val → Out Int
  | .bool b => .valid (if b then 1 else 0)
  | .int n => .valid n
  | .num q => if q.den = 1 then .valid q.num else .invalid
  | .str s => match env.whole s with
    | some n => .valid n
    | Option.none => .invalid
  | _ => .invalid

/-- A `bool` field of pydantic, not strict: `/repo/draftsman/signatures.py:685-691`. -/
def boolField (env : Env Sig) : Val → Out Bool
  | .bool b => .valid b
  | .int n => if n = 0 then .valid false else if n = 1 then .valid true else .invalid
  | .num q => if q = 0 then .valid false else if q = 1 then .valid true else .invalid
  | .str s => match env.truth s with
    | some b => .valid b
    | Option.none => .invalid
  | _ => .invalid

/-- `Optional[…]`: `/repo/draftsman/signatures.py:590`. -/
def optional {α : Type} (f : Val → Out α) : Val → Out (Option α)
  | .none => .valid Option.none
  | v => (f v).map some

/-- The entry of a dictionary.  Python built-in. -/
def entry (d : List (String × Val)) (k : String) : Option Val := (d.find? fun p => p.1 == k).map (·.2)

/-- A field that must be there (`Field(...)`): `/repo/draftsman/signatures.py:587`. -/
def required {α : Type} (f : Val → Out α) : Option Val → Out α
  | some v => f v
  | Option.none => .invalid

/-- A field with a default: `/repo/draftsman/signatures.py:590`. -/
def defaulted {α : Type} (f : Val → Out α) (dflt : α) : Option Val → Out α
  | some v => f v
  | Option.none => .valid dflt

/-- `value[i]` of a list or tuple.  Python built-in. -/
def item (l : List Val) (i : Nat) : Except PyErr Val :=
  match l[i]? with
  | some v => .ok v
  | Option.none => .error .indexError

/-! ### Colors -/

/-- `Color`, `/repo/draftsman/signatures.py:586-590`. -/
structure Color where
  r : Rat
  g : Rat
  b : Rat
  a : Option Rat
  deriving DecidableEq

/-- `float = Field(..., ge=0, le=255)`, `/repo/draftsman/signatures.py:587`. -/
def channel (env : Env Sig) (v : Val) : Out Rat :=
  match floatField env v with
  | .valid q => if 0 ≤ q ∧ q ≤ 255 then .valid q else .invalid
  | o => o

/-- `Color.normalize_from_sequence`, `/repo/draftsman/signatures.py:592-606`. -/
def colorFromSequence (l : List Val) : Except PyErr (List (String × Val)) := do
  let r ← item l 0
  let g ← item l 1
  let b ← item l 2
  match item l 3 with
  | .ok a => pure [("r", r), ("g", g), ("b", b), ("a", a)]
  | .error _ => pure [("r", r), ("g", g), ("b", b)]

/-- The fields of `Color`, `/repo/draftsman/signatures.py:586-590`. -/
def colorFields (env : Env Sig) (d : List (String × Val)) : Out Color :=
  .both (fun (f : Option Rat → Color) a => f a)
    (.both (fun (f : Rat → Option Rat → Color) b => f b)
      (.both (fun r g b a => ⟨r, g, b, a⟩) (required (channel env) (entry d "r")) (required (channel env) (entry d "g")))
      (required (channel env) (entry d "b")))
    (defaulted (optional (channel env)) Option.none (entry d "a"))

/-- What follows the conversion: the fields, unless it raised an exception.  `/repo/draftsman/signatures.py:592-606`. -/
def andThen {α : Type} (f : List (String × Val) → Out α) : Except PyErr (List (String × Val)) → Out α
  | .error e => .escape e
  | .ok d => f d

/-- `Color.model_validate`, `/repo/draftsman/signatures.py:586-606`. -/
def colorOf (env : Env Sig) : Val → Out Color
  | .list l => andThen (colorFields env) (colorFromSequence l)
  | .tuple l => andThen (colorFields env) (colorFromSequence l)
  | .dict d => colorFields env d
  | _ => .invalid

/-! ### Networks -/

/-- `NetworkSpecification`, `/repo/draftsman/signatures.py:684-691`. -/
structure Networks where
  red : Option Bool
  green : Option Bool
  deriving DecidableEq

/-- Equality with a string.  Python built-in. -/
def isStr (s : String) : Val → Bool
  | .str t => t == s
  | _ => false

/-- `convert_from_set`, `/repo/draftsman/signatures.py:693-699`. -/
def networksFromSet (l : List Val) : List (String × Val) :=
  (["red", "green"].filter fun e => !(l.any (isStr e))).map fun e => (e, .bool false)

/-- The fields of `NetworkSpecification`, `/repo/draftsman/signatures.py:685-691`. -/
def networkFields (env : Env Sig) (d : List (String × Val)) : Out Networks :=
  .both Networks.mk (defaulted (optional (boolField env)) (some true) (entry d "red"))
    (defaulted (optional (boolField env)) (some true) (entry d "green"))

/-- `NetworkSpecification.model_validate`, `/repo/draftsman/signatures.py:684-699`. -/
def networksOf (env : Env Sig) : Val → Out Networks
  | .set l => networkFields env (networksFromSet l)
  | .dict d => networkFields env d
  | _ => .invalid

/-! ### Conditions -/

/-- `Condition`, `/repo/draftsman/signatures.py:702-741`. -/
structure Cond (Sig : Type) where
  first : Option Sig
  firstNetworks : Option Networks
  comparator : Option String
  constant : Option Int
  second : Option Sig
  secondNetworks : Option Networks

mutual
/-- `hash(v)` works.  Python built-in; `Vector` defines `__eq__` without `__hash__`, `/repo/draftsman/classes/vector.py:174`. -/
def hashable : Val → Bool
  | .list _ => false
  | .set _ => false
  | .dict _ => false
  | .vector _ _ => false
  | .object h => h
  | .tuple l => hashables l
  | _ => true
/-- All members of a tuple.  Python built-in. -/
def hashables : List Val → Bool
  | [] => true
  | v :: l => hashable v && hashables l
end

/-- The table `conversions`, `/repo/draftsman/signatures.py:770`. -/
def conversions : List (String × String) := [("==", "="), (">=", "≥"), ("<=", "≤"), ("!=", "≠")]

/-- `normalize_comparator_python_equivalents`, `/repo/draftsman/signatures.py:767-774`, `/repo/draftsman/signatures.py:1298-1305`: looking up something
that cannot be hashed is a `TypeError`. -/
def normalizeComparator (v : Val) : Except PyErr Val :=
  if hashable v then
    match v with
    | .str s => match conversions.find? fun p => p.1 == s with
      | some p => .ok (.str p.2)
      | Option.none => .ok v
    | v => .ok v
  else .error .typeError

/-- `Optional[Literal[">", "<", "=", "≥", "≤", "≠"]]`, `/repo/draftsman/signatures.py:716`. -/
def comparatorField (v : Val) : Out (Option String) :=
  match normalizeComparator v with
  | .error e => .escape e
  | .ok .none => .valid Option.none
  | .ok (.str s) => if s ∈ [">", "<", "=", "≥", "≤", "≠"] then .valid (some s) else .invalid
  | .ok _ => .invalid

/-- `int32`, `/repo/draftsman/signatures.py:63`. -/
def int32Field (env : Env Sig) (v : Val) : Out Int :=
  match intField env v with
  | .valid n => if -2 ^ 31 ≤ n ∧ n < 2 ^ 31 then .valid n else .invalid
  | o => o

/-- The letters of a text, which is a `Sequence` too.  Python built-in. -/
def letters (s : String) : List Val := s.toList.map fun c => .str (String.ofList [c])

/-- `isinstance(v, int)`.  Python built-in. -/
def isInt : Val → Bool
  | .int _ => true
  | .bool _ => true
  | _ => false

/-- `convert_sequence_to_condition`, `/repo/draftsman/signatures.py:743-757`, of a sequence. -/
def conditionFromSequence (l : List Val) : Except PyErr (List (String × Val)) := do
  let a ← item l 0
  let c ← item l 1
  let x ← item l 2
  if isInt x then pure [("first_signal", a), ("comparator", c), ("constant", x)]
  else pure [("first_signal", a), ("comparator", c), ("second_signal", x)]

/-- The fields of `Condition`, `/repo/draftsman/signatures.py:705-741`. -/
def conditionFields (env : Env Sig) (d : List (String × Val)) : Out (Cond Sig) :=
  let all : Networks := ⟨some true, some true⟩
  .both (fun (f : Option Networks → Cond Sig) x => f x)
    (.both (fun (f : Option Sig → Option Networks → Cond Sig) x => f x)
      (.both (fun (f : Option Int → Option Sig → Option Networks → Cond Sig) x => f x)
        (.both (fun (f : Option String → Option Int → Option Sig → Option Networks → Cond Sig) x => f x)
          (.both (fun a b c d e f => ⟨a, b, c, d, e, f⟩) (defaulted (optional env.signal) Option.none (entry d "first_signal"))
            (defaulted (optional (networksOf env)) (some all) (entry d "first_signal_networks")))
          (defaulted comparatorField (some "<") (entry d "comparator")))
        (defaulted (optional (int32Field env)) (some 0) (entry d "constant")))
      (defaulted (optional env.signal) Option.none (entry d "second_signal")))
    (defaulted (optional (networksOf env)) (some all) (entry d "second_signal_networks"))

/-- `Condition.model_validate`, `/repo/draftsman/signatures.py:702-774`. -/
def conditionOf (env : Env Sig) : Val → Out (Cond Sig)
  | .list l => andThen (conditionFields env) (conditionFromSequence l)
  | .tuple l => andThen (conditionFields env) (conditionFromSequence l)
  | .str s => andThen (conditionFields env) (conditionFromSequence (letters s))
  | .dict d => conditionFields env d
  | _ => .invalid

/-! ### Positions -/

/-- `float(v)`.  Python built-in, as in `/repo/draftsman/classes/vector.py:73`. -/
def castFloat (env : Env Sig) : Val → Except PyErr Val
  | .bool b => .ok (.num (if b then 1 else 0))
  | .int n => .ok (.num n)
  | .num q => .ok (.num q)
  | .str s => match env.real s with
    | some q => .ok (.num q)
    | Option.none => .error .valueError
  | _ => .error .typeError

/-- Rounding towards zero, as `int` does with a float.  Python built-in. -/
def truncate (q : Rat) : Int := if 0 ≤ q then ⌊q⌋ else ⌈q⌉

/-- `int(v)`.  Python built-in, as in `/repo/draftsman/classes/vector.py:73`. -/
def castInt (env : Env Sig) : Val → Except PyErr Val
  | .bool b => .ok (.int (if b then 1 else 0))
  | .int n => .ok (.int n)
  | .num q => .ok (.int (truncate q))
  | .str s => match env.whole s with
    | some n => .ok (.int n)
    | Option.none => .error .valueError
  | _ => .error .typeError

/-- `value[k]` of a dictionary.  Python built-in. -/
def lookup (d : List (String × Val)) (k : String) : Except PyErr Val :=
  match entry d k with
  | some v => .ok v
  | Option.none => .error .keyError

/-- `Vector.from_other`, `/repo/draftsman/classes/vector.py:54-77`. -/
def fromOther (cast : Val → Except PyErr Val) : Val → Except PyErr (Val × Val)
  | .vector x y => .ok (x, y)
  | .tuple l => do
    let x ← cast (← item l 0)
    let y ← cast (← item l 1)
    pure (x, y)
  | .list l => do
    let x ← cast (← item l 0)
    let y ← cast (← item l 1)
    pure (x, y)
  | .dict d => do
    let x ← cast (← lookup d "x")
    let y ← cast (← lookup d "y")
    pure (x, y)
  | _ => .error .typeError

/-- The two fields of a position, `/repo/draftsman/signatures.py:627-628`, `/repo/draftsman/signatures.py:642-643`. -/
def positionFields {α : Type} (f : Val → Out α) (d : List (String × Val)) : Out (α × α) :=
  .both Prod.mk (required f (entry d "x")) (required f (entry d "y"))

/-- What is left as it is can only be accepted if it is a dictionary, `/repo/draftsman/signatures.py:637-638`. -/
def unconverted {α : Type} (f : Val → Out α) : Val → Out (α × α)
  | .dict d => positionFields f d
  | _ => .invalid

/-- The validator of `FloatPosition` and `IntPosition`, and what follows: `/repo/draftsman/signatures.py:626-653`.  A `TypeError` leaves the value as it is, a `ValueError` is reported. -/
def positionOf {α : Type} (cast : Val → Except PyErr Val) (f : Val → Out α) (v : Val) : Out (α × α) :=
  match fromOther cast v with
  | .ok p => positionFields f [("x", p.1), ("y", p.2)]
  | .error e => if e = .typeError then unconverted f v else if e = .valueError then .invalid else .escape e

/-- `FloatPosition.model_validate`, `/repo/draftsman/signatures.py:626-638`. -/
def floatPosition (env : Env Sig) (v : Val) : Out (Rat × Rat) := positionOf (castFloat env) (floatField env) v

/-- `IntPosition.model_validate`, `/repo/draftsman/signatures.py:641-653`. -/
def intPosition (env : Env Sig) (v : Val) : Out (Int × Int) := positionOf (castInt env) (intField env) v

end Convert
end Draftsman
