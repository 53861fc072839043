import Verif.Model.Direction
/-
Names, representation and hash of `Orientation`, `/repo/draftsman/constants.py:335-526`: what `Model/Direction.lean` leaves out of the class.  Orientations are
objects here, each at an address.  Floats are exact rationals, as there.
-/
namespace Draftsman
namespace OrientName

/-- `_reverse_mapping`, `/repo/draftsman/constants.py:371-380`. -/
def reverseMapping : List (ℚ × String) :=
  [(0, "NORTH"), (1/8, "NORTHEAST"), (1/4, "EAST"), (3/8, "SOUTHEAST"), (1/2, "SOUTH"), (5/8, "SOUTHWEST"), (3/4, "WEST"), (7/8, "NORTHWEST")]

/-- An object of the class: its address, the float with `_value_`, and `_name_`.  `/repo/draftsman/constants.py:369-384`. -/
structure Obj where
  addr : Nat
  o : Orientation
  name : Option String
  deriving DecidableEq, Repr

/-- `Orientation.__hash__`, `/repo/draftsman/constants.py:497-498`. -/
def Obj.hash (x : Obj) : Nat := x.addr >>> 4

/-- `hash(k)` of a float `k` that is a multiple of 1/8 in `[0, 1)`: Python gives `n * 2**58` for `n / 8`.  Python built-in; used by the lookup in
`/repo/draftsman/constants.py:381`. -/
def floatHash (k : ℚ) : Nat := (k * 8).num.toNat * 2 ^ 58

/-- `Orientation(v)` of a float, made at the address `addr`: the name is looked up by `v`, not by its remainder.
`/repo/draftsman/constants.py:369-384`. -/
def ofFloat (addr : Nat) (v : ℚ) : Obj := ⟨addr, Orientation.mk' v, reverseMapping.lookup v⟩

/-- `Orientation(x)` of an orientation: `%` is that of `float`, and the dictionary is searched by the hash of `x` first.
`/repo/draftsman/constants.py:369-384`, with `481-498`. -/
def ofObj (addr : Nat) (x : Obj) : Obj :=
  ⟨addr, Orientation.mk' x.o.raw, (reverseMapping.find? fun p => decide (x.hash = floatHash p.1) && decide (x.o.value = p.1)).map (·.2)⟩

/-- `opposite`, `/repo/draftsman/constants.py:386-404`. -/
def opposite (addr : Nat) (x : Obj) : Obj := ofFloat addr (Orientation.mod1 (x.o.value + 1/2))

/-- `a + b`, `/repo/draftsman/constants.py:453-459`. -/
def add (addr : Nat) (a b : Obj) : Obj := ofFloat addr (a.o.value + b.o.value)

/-- `a - b`, `/repo/draftsman/constants.py:467-473`. -/
def sub (addr : Nat) (a b : Obj) : Obj := ofFloat addr (a.o.value - b.o.value)

/-- `a + v` and `v + a` for a float, `/repo/draftsman/constants.py:453-465`. -/
def addFloat (addr : Nat) (a : Obj) (v : ℚ) : Obj := ofFloat addr (a.o.value + v)

/-- `v - a` for a float, `/repo/draftsman/constants.py:475-479`. -/
def rsubFloat (addr : Nat) (v : ℚ) (a : Obj) : Obj := ofFloat addr (v - a.o.value)

/-- The constants `Orientation.NORTH` and so on, `/repo/draftsman/constants.py:519-526`: made from the floats of the class. -/
def constant (addr : Nat) (i : Fin 8) : Obj := ofFloat addr ((i.val : ℚ) / 8)

/-- `repr(x)`; `num` is `repr` of a float.  `/repo/draftsman/constants.py:500-507`. -/
def repr (num : ℚ → String) (x : Obj) : String :=
  "<" ++ "Orientation" ++ (match x.name with
    | some n => "." ++ n
    | none => "") ++ ": " ++ num x.o.value ++ ">"

/-- What a program does to make an orientation.  Part of the model only: the operators are those of `/repo/draftsman/constants.py:386-479`. -/
inductive Expr where
  | float (v : ℚ)
  | constant (i : Fin 8)
  | again (e : Expr)
  | opposite (e : Expr)
  | add (a b : Expr)
  | sub (a b : Expr)
  | addFloat (a : Expr) (v : ℚ)
  | rsubFloat (v : ℚ) (a : Expr)

/-- The object made, with the addresses of all objects on the way.  `/repo/draftsman/constants.py:369-479`. -/
def Expr.eval (addr : Expr → Nat) : Expr → Obj
  | .float v => ofFloat (addr (.float v)) v
  | .constant i => OrientName.constant (addr (.constant i)) i
  | .again e => ofObj (addr (.again e)) (e.eval addr)
  | .opposite e => OrientName.opposite (addr (.opposite e)) (e.eval addr)
  | .add a b => OrientName.add (addr (.add a b)) (a.eval addr) (b.eval addr)
  | .sub a b => OrientName.sub (addr (.sub a b)) (a.eval addr) (b.eval addr)
  | .addFloat a v => OrientName.addFloat (addr (.addFloat a v)) (a.eval addr) v
  | .rsubFloat v a => OrientName.rsubFloat (addr (.rsubFloat v a)) v (a.eval addr)

/-- Two objects count as the same key: equal hashes, and the same object or equal.  Python built-in `set` and `dict`, with
`/repo/draftsman/constants.py:481-498`. -/
def sameKey (x y : Obj) : Bool := decide (x.hash = y.hash) && (decide (x.addr = y.addr) || x.o.eq y.o)

/-- `s.add(x)` for a set of orientations (members in the order they came).  Python built-in, with `/repo/draftsman/constants.py:481-498`. -/
def setAdd (s : List Obj) (x : Obj) : List Obj := if s.any (sameKey x) then s else s ++ [x]

/-- `set(l)`.  Python built-in, with `/repo/draftsman/constants.py:481-498`. -/
def setOf (l : List Obj) : List Obj := l.foldl setAdd []

end OrientName
end Draftsman
