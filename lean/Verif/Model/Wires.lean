import Verif.Model.EntityList
import Verif.Model.Group
import Verif.Model.Geometry
/-
Wires: `/repo/draftsman/classes/collection.py:349-655` and 734-1074.

Entities are passed by reference.  Warnings are returned; that one is turned into an exception is left out.  `Association` equality is object identity
(`/repo/draftsman/classes/association.py:34-57`), so a wire is a list of two object numbers and two connector numbers.
-/
namespace Draftsman

/-- `[Association(entity_1), wire_type_1, Association(entity_2), wire_type_2]`.  `/repo/draftsman/classes/collection.py:510-512`. -/
structure Wire where
  e1 : Nat
  t1 : Nat
  e2 : Nat
  t2 : Nat
  deriving DecidableEq, Repr

/-- The same wire with its ends exchanged.  `/repo/draftsman/classes/collection.py:614-625`. -/
def Wire.flip (w : Wire) : Wire := ⟨w.e2, w.t2, w.e1, w.t1⟩

/-- The classes that have properties of their own for wires: `/repo/draftsman/prototypes/electric_pole.py:55-60`, `/repo/draftsman/prototypes/power_switch.py:100-114`,
and with `dual_circuit_connectable` `/repo/draftsman/prototypes/decider_combinator.py:502-504`, `/repo/draftsman/prototypes/arithmetic_combinator.py:258-260`,
`/repo/draftsman/prototypes/selector_combinator.py:140-142`. -/
inductive WireKind where
  | pole | switch | combinator | other
  deriving DecidableEq, Repr

/-- The entries `maximum_wire_distance`, `circuit_wire_max_distance` and `wire_max_distance` of `entities.raw[name]`, `none` if missing:
`/repo/draftsman/classes/mixins/power_connectable.py:44-52`, `/repo/draftsman/classes/mixins/circuit_connectable.py:51-59`,
`/repo/draftsman/prototypes/power_switch.py:101-114`. -/
structure WireProto where
  maximum : Option Rat
  circuitMax : Option Rat
  wireMax : Option Rat
  deriving DecidableEq, Repr

/-- `maximum_wire_distance`, `/repo/draftsman/classes/mixins/power_connectable.py:44-52`, `/repo/draftsman/prototypes/power_switch.py:101-105`; the prototype is `none`
if the name is unknown, and the result `none` is `None`. -/
def powerReach (kind : WireKind) (proto : Option WireProto) : Except PyErr (Option Rat) :=
  if kind = .switch then .ok (proto.map fun p => p.wireMax.getD 0)
  else match proto with
    | none => .ok none
    | some p => match p.maximum with
      | some r => .ok (some r)
      | none => .error .keyError

/-- `circuit_wire_max_distance`, `/repo/draftsman/classes/mixins/circuit_connectable.py:51-59`, `/repo/draftsman/prototypes/electric_pole.py:56-60`,
`/repo/draftsman/prototypes/power_switch.py:110-114`; `none` is `None`. -/
def circuitReach (kind : WireKind) (proto : Option WireProto) : Option Rat :=
  proto.map fun p => match kind with
    | .pole => p.maximum.getD 0
    | .switch => p.wireMax.getD 0
    | _ => p.circuitMax.getD 0

/-- The warnings: `ConnectionSideWarning` for either end, `/repo/draftsman/classes/collection.py:830-843`, and `ConnectionDistanceWarning`, 445-453 and 852-860. -/
inductive WireWarn where
  | side1 | side2 | distance
  deriving DecidableEq, Repr

/-- What the wire methods read of a collection: the entities it contains (nested ones included, `EntityList.__contains__`,
`/repo/draftsman/classes/entity_list.py:620-629`), which of them can be connected, its wires, and of the entities `global_position`, class and prototype. -/
structure WColl where
  members : List EL
  power : Nat → Bool
  circuit : Nat → Bool
  wires : List Wire
  pos : Nat → Vec
  kind : Nat → WireKind
  proto : Nat → Option WireProto

namespace WColl

/-- `min(a, b)`, which compares: `None` is a `TypeError`.  `/repo/draftsman/classes/collection.py:441, 846-848`. -/
def minReach : Option Rat → Option Rat → Except PyErr Rat
  | some a, some b => .ok (min a b)
  | _, _ => .error .typeError

/-- `real_dist > min_dist`, `/repo/draftsman/classes/collection.py:442-445, 849-852`, with `distance` of `/repo/draftsman/utils.py:501-511`: through squares,
without the rounding of `sqrt`. -/
def tooFar (a b : Vec) (r : Rat) : Bool :=
  !(decide (0 ≤ r) && decide ((a.x - b.x) * (a.x - b.x) + (a.y - b.y) * (a.y - b.y) ≤ r * r))

/-- The warning about the distance, `/repo/draftsman/classes/collection.py:445-453, 852-860`. -/
def distanceWarn (c : WColl) (u v : Nat) (r : Rat) : List WireWarn := if tooFar (c.pos u) (c.pos v) r then [.distance] else []

/-- The warnings about sides, `/repo/draftsman/classes/collection.py:830-843`. -/
def sideWarn (c : WColl) (u v : Nat) (side1 side2 : String) : List WireWarn :=
  (if side1 = "output" ∧ c.kind u ≠ .combinator then [.side1] else []) ++ (if side2 = "output" ∧ c.kind v ≠ .combinator then [.side2] else [])

/-- `entity not in self.entities`: by `==`.  `/repo/draftsman/classes/collection.py:422, 426, 564, 568`. -/
def has (c : WColl) (e : EL) : Bool := c.members.any fun m => m.eqv e

/-- `{"input": 5, "output": 6}[side]`, `/repo/draftsman/classes/collection.py:505`. -/
def powerSide (side : String) : Option Nat :=
  if side = "input" then some 5 else if side = "output" then some 6 else none

/-- `{"red": 1, "green": 2}[color]`, `/repo/draftsman/classes/collection.py:906`. -/
def colorVal (color : String) : Option Nat :=
  if color = "red" then some 1 else if color = "green" then some 2 else none

/-- `{"input": 0, "output": 2}[side]`, `/repo/draftsman/classes/collection.py:907`. -/
def circuitSide (side : String) : Option Nat :=
  if side = "input" then some 0 else if side = "output" then some 2 else none

/-- `add_power_connection`, `/repo/draftsman/classes/collection.py:349-512`. -/
def addPower (c : WColl) (e1 e2 : EL) (side1 side2 : String) : Except PyErr (WColl × List WireWarn) :=
  if !c.has e1 then .error .invalidAssociation
  else if !c.has e2 then .error .invalidAssociation
  else match powerSide side1, powerSide side2 with
    | some t1, some t2 =>
      if !c.power e1.uid then .error .notPowerConnectable
      else if !c.power e2.uid then .error .notPowerConnectable
      else match powerReach (c.kind e1.uid) (c.proto e1.uid), powerReach (c.kind e2.uid) (c.proto e2.uid) with
        | .ok r1, .ok r2 => match minReach r1 r2 with
          | .ok r => .ok ({ c with wires := c.wires ++ [⟨e1.uid, t1, e2.uid, t2⟩] }, c.distanceWarn e1.uid e2.uid r)
          | .error x => .error x
        | .error x, _ => .error x
        | _, .error x => .error x
    | _, _ => .error .invalidConnectionSide

/-- `list.remove` with its `ValueError` caught (Python built-in). -/
def removeOne (l : List Wire) (w : Wire) : List Wire := l.erase w

/-- `remove_power_connection`, `/repo/draftsman/classes/collection.py:514-625`; unknown sides raise `KeyError`. -/
def removePower (c : WColl) (e1 e2 : EL) (side1 side2 : String) : Except PyErr WColl :=
  if !c.has e1 then .error .invalidAssociation
  else if !c.has e2 then .error .invalidAssociation
  else match powerSide side1, powerSide side2 with
    | some t1, some t2 =>
      .ok { c with wires := removeOne (removeOne c.wires ⟨e1.uid, t1, e2.uid, t2⟩) ⟨e2.uid, t2, e1.uid, t1⟩ }
    | _, _ => .error .keyError

/-- `add_circuit_connection`, `/repo/draftsman/classes/collection.py:734-914`. -/
def addCircuit (c : WColl) (color : String) (e1 e2 : EL) (side1 side2 : String) : Except PyErr (WColl × List WireWarn) :=
  if !c.has e1 then .error .invalidAssociation
  else if !c.has e2 then .error .invalidAssociation
  else match colorVal color with
    | none => .error .invalidWireType
    | some k => match circuitSide side1, circuitSide side2 with
      | some s1, some s2 =>
        if !c.circuit e1.uid then .error .notCircuitConnectable
        else if !c.circuit e2.uid then .error .notCircuitConnectable
        else match minReach (circuitReach (c.kind e1.uid) (c.proto e1.uid)) (circuitReach (c.kind e2.uid) (c.proto e2.uid)) with
          | .ok r => .ok ({ c with wires := c.wires ++ [⟨e1.uid, k + s1, e2.uid, k + s2⟩] },
              c.sideWarn e1.uid e2.uid side1 side2 ++ c.distanceWarn e1.uid e2.uid r)
          | .error x => .error x
      | _, _ => .error .invalidConnectionSide

/-- `remove_circuit_connection`, `/repo/draftsman/classes/collection.py:916-1047`. -/
def removeCircuit (c : WColl) (color : String) (e1 e2 : EL) (side1 side2 : String) : Except PyErr WColl :=
  if !c.has e1 then .error .invalidAssociation
  else if !c.has e2 then .error .invalidAssociation
  else match colorVal color with
    | none => .error .invalidWireType
    | some k => match circuitSide side1, circuitSide side2 with
      | some s1, some s2 =>
        .ok { c with wires :=
                removeOne (removeOne c.wires ⟨e1.uid, k + s1, e2.uid, k + s2⟩) ⟨e2.uid, k + s2, e1.uid, k + s1⟩ }
      | _, _ => .error .invalidConnectionSide

end WColl

/-- `remove_power_connections` (`drop = {5, 6}`), `/repo/draftsman/classes/collection.py:627-655`, and `remove_circuit_connections`
(`drop = {1, 2, 3, 4}`), 1049-1074: the wires of collection `c` and of the groups in it. -/
def dropWires (h : GHeap) (drop : Nat → Bool) : Nat → Nat → (Nat → List Wire) → Nat → List Wire
  | 0, _, ws => ws
  | n + 1, c, ws =>
    let ws' := (h c).children.foldl (fun ws u => if (h u).kind = .entity then ws else dropWires h drop n u ws) ws
    fun v => if v = c then (ws' c).filter (fun w => !drop w.t1) else ws' v

/-- `wire[1] in {5, 6}`, `/repo/draftsman/classes/collection.py:655`. -/
def isCopper (t : Nat) : Bool := t == 5 || t == 6

/-- `wire[1] in {1, 2, 3, 4}`, `/repo/draftsman/classes/collection.py:1074`. -/
def isCircuit (t : Nat) : Bool := t == 1 || t == 2 || t == 3 || t == 4

end Draftsman
