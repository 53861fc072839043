import Verif.Model.Wires
/-
Export and import of blueprints: entity numbers, wires, schedules, positions and omitted keys.
-/
namespace Draftsman

/-- A `Schedule`: the objects its locomotive associations point to, and the rest of it.  `/repo/draftsman/classes/schedule.py:404-540`. -/
structure Sched where
  locos : List Nat
  rest : Nat
  deriving DecidableEq, Repr

/-- What export reads of a blueprint.  `el` gives for every object what `==` compares; `alive` says whether the weak references to it
still answer; `ws` and `scheds` are the wires and schedules of the blueprint (`root`) and of the groups; a tile is a name and a
position; `sgp` is `snapping_grid_position`, `snap` is `snapping_grid_size`.  The attributes read by `/repo/draftsman/classes/blueprint.py:1046-1136` and `:149-273`. -/
structure Bp where
  heap : GHeap
  root : Nat
  depth : Nat
  el : Nat → EL
  alive : Nat → Bool
  ws : Nat → List Wire
  scheds : Nat → List Sched
  tiles : List (Nat × Vec)
  sgp : Vec
  snap : Vec
  rel : Vec

/-- The exported dictionary; `none` for a key left out.  In `entities`: `entity_number`, the object that the other entries come from, and
`position`.  The result of `/repo/draftsman/classes/blueprint.py:1046-1136`. -/
structure Exported where
  entities : Option (List (Nat × Nat × Vec))
  tiles : Option (List (Nat × Vec))
  schedules : Option (List Sched)
  wires : Option (List Wire)
  snap : Option Vec
  rel : Option Vec
  deriving DecidableEq

namespace Bp

/-- `flattened_entities`, `/repo/draftsman/classes/blueprint.py:149`. -/
def flat (b : Bp) : List Nat := b.heap.flatten b.depth (b.heap b.root).children

/-- `flattened_entities.index(entity) + 1` (by `==`), `/repo/draftsman/classes/blueprint.py:233` and 266-268; `none` when `entity` is
not in the list. -/
def number (b : Bp) (u : Nat) : Option Nat := (b.flat.findIdx? fun v => (b.el v).eqv (b.el u)).map (· + 1)

/-- The loop over locomotives, `/repo/draftsman/classes/blueprint.py:227-233`.  A dead association is passed to
`_throw_invalid_association`, which subscripts it: `TypeError`. -/
def expLoco (b : Bp) (u : Nat) : Except PyErr Nat :=
  if !b.alive u then .error .typeError
  else match b.number u with
    | none => .error .valueError
    | some k => .ok k

/-- One exported schedule, `/repo/draftsman/classes/blueprint.py:222-233`.  `schedule.to_dict()` leaves out what has its default value
(`/repo/draftsman/classes/exportable.py:319-334`) and the default of `locomotives` is the empty list
(`/repo/draftsman/classes/schedule.py:451-457`), so that `schedule["locomotives"]` is a `KeyError` for a schedule without locomotives. -/
def expSched (b : Bp) (s : Sched) : Except PyErr Sched :=
  if s.locos = [] then .error .keyError
  else do
    let ls ← s.locos.mapM b.expLoco
    pure ⟨ls, s.rest⟩

/-- `flatten_wires`, `/repo/draftsman/classes/blueprint.py:240-248`. -/
def flatWires (h : GHeap) (ws : Nat → List Wire) : Nat → List Nat → List Wire
  | 0, _ => []
  | n + 1, us => us.flatMap fun u => if (h u).kind = .entity then [] else ws u ++ flatWires h ws n (h u).children

/-- `flattened_wires`, `/repo/draftsman/classes/blueprint.py:250-252`. -/
def allWires (b : Bp) : List Wire := b.ws b.root ++ flatWires b.heap b.ws b.depth (b.heap b.root).children

/-- One end of a wire, `/repo/draftsman/classes/blueprint.py:256-261`. -/
def expEnd (b : Bp) (u : Nat) : Except PyErr Nat :=
  if !b.alive u then .error .invalidAssociation
  else match b.number u with
    | none => .error .invalidAssociation
    | some k => .ok k

/-- `new_wire`, `/repo/draftsman/classes/blueprint.py:255-271`. -/
def expWire (b : Bp) (w : Wire) : Except PyErr Wire := do
  let k1 ← b.expEnd w.e1
  let k2 ← b.expEnd w.e2
  pure ⟨k1, w.t1, k2, w.t2⟩

/-- `if new_wire not in wires_out: wires_out.append(new_wire)`, `/repo/draftsman/classes/blueprint.py:254-273`. -/
def addNew (acc : List Wire) (w : Wire) : List Wire := if w ∈ acc then acc else acc ++ [w]

/-- A list, or nothing if empty: `/repo/draftsman/classes/blueprint.py:1127-1134`. -/
def orOmit {α : Type} (l : List α) : Option (List α) := if l.length = 0 then none else some l

/-- A snap vector, or nothing if zero: `/repo/draftsman/classes/blueprint.py:1118-1125`. -/
def vecOrOmit (v : Vec) : Option Vec := if v = ⟨0, 0⟩ then none else some v

/-- `Blueprint.to_dict`, `/repo/draftsman/classes/blueprint.py:1046-1136`, with `_normalize_internal_structure`, 137-275.
Only the keys listed in `Exported` are kept, entities export their global position (`/repo/draftsman/classes/entity.py:192-194`), and
`super().to_dict` is taken to yield both snap keys. -/
def toDict (b : Bp) : Except PyErr Exported := do
  let entities := b.flat.mapIdx fun i u => (i + 1, u, b.heap.globalPos b.depth u - b.sgp)
  let tiles := b.tiles.map fun t => (t.1, t.2 - b.sgp)
  let schedules ← (b.scheds b.root).mapM b.expSched
  let wires ← b.allWires.mapM b.expWire
  pure ⟨orOmit entities, orOmit tiles, orOmit schedules, orOmit (wires.foldl addNew []), vecOrOmit b.snap, vecOrOmit b.rel⟩

end Bp

/-- `self.entities[number - 1]` on import, `/repo/draftsman/classes/blueprint.py:618-622` and 626-631, for a blueprint whose entities
are the objects `ents`: Python indexing, so number 0 is the last entity. -/
def impRef (ents : List Nat) (k : Nat) : Except PyErr Nat :=
  match EList.pyIndex ents ((k : Int) - 1) with
  | none => .error .indexError
  | some i => match ents[i]? with
    | none => .error .indexError
    | some u => .ok u

/-- One wire on import, `/repo/draftsman/classes/blueprint.py:625-631`. -/
def impWire (ents : List Nat) (w : Wire) : Except PyErr Wire := do
  let e1 ← impRef ents w.e1
  let e2 ← impRef ents w.e2
  pure ⟨e1, w.t1, e2, w.t2⟩

/-- One schedule on import, `/repo/draftsman/classes/blueprint.py:618-622`. -/
def impSched (ents : List Nat) (s : Sched) : Except PyErr Sched := do
  let ls ← s.locos.mapM (impRef ents)
  pure ⟨ls, s.rest⟩

/-- The reference part of `Blueprint.setup`, `/repo/draftsman/classes/blueprint.py:568-632`: schedules and wires of a blueprint made
from an exported dictionary whose entities have become the objects `ents`. -/
def impRefs (x : Exported) (ents : List Nat) : Except PyErr (List Sched × List Wire) := do
  let ss ← (x.schedules.getD []).mapM (impSched ents)
  let ws ← (x.wires.getD []).mapM (impWire ents)
  pure (ss, ws)

end Draftsman
