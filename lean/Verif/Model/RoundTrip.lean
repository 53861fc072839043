import Verif.Model.Export
/-
Blueprints as dictionaries and back: `Blueprint.to_dict` (`/repo/draftsman/classes/blueprint.py:1046-1136`) after `Blueprint.from_dict` and
`Blueprint.setup` (`/repo/draftsman/classes/blueprint.py:493-635`), on top of the model of either in `Export`.

What an entity exports apart from number and position is a value of any type `C` (which attributes come back is the subject of C91).  Validation while loading (C85) is left out.
-/
namespace Draftsman
namespace RoundTrip

/-- A blueprint and what its entities export apart from number and position, `/repo/draftsman/classes/entity.py:192-194` for the position. -/
structure Full (C : Type) where
  bp : Bp
  content : Nat → C

/-- The exported dictionary; `none` for a key left out.  An entity is its number, the rest of it, and its position.
`/repo/draftsman/classes/blueprint.py:1046-1136`. -/
structure Dictionary (C : Type) where
  entities : Option (List (Nat × C × Vec))
  tiles : Option (List (Nat × Vec))
  schedules : Option (List Sched)
  wires : Option (List Wire)
  snap : Option Vec
  rel : Option Vec
  deriving DecidableEq

variable {C : Type}

/-- `Blueprint.to_dict`, `/repo/draftsman/classes/blueprint.py:1046-1136`. -/
def Full.toDict (b : Full C) : Except PyErr (Dictionary C) := do
  let x ← b.bp.toDict
  .ok ⟨x.entities.map (·.map fun e => (e.1, b.content e.2.1, e.2.2)), x.tiles, x.schedules, x.wires, x.snap, x.rel⟩

/-- The entities of the dictionary, `/repo/draftsman/classes/blueprint.py:503`: none if there is no such key. -/
def Dictionary.ents (d : Dictionary C) : List (Nat × C × Vec) := d.entities.getD []

/-- The objects made from the entities, `/repo/draftsman/classes/entity_list.py:96-113`: the blueprint is object `start`, they come after it. -/
def objects (start n : Nat) : List Nat := (List.range n).map (start + 1 + ·)

/-- The objects after loading, `/repo/draftsman/classes/blueprint.py:568-575`: the entities are directly in the blueprint, where the dictionary says. -/
def loadedHeap (start : Nat) (d : Dictionary C) : GHeap := fun u =>
  if u = start then ⟨.blueprint, ⟨0, 0⟩, none, objects start d.ents.length⟩
  else ⟨.entity, ((d.ents[u - (start + 1)]?).map fun e => e.2.2).getD ⟨0, 0⟩, some start, []⟩

/-- What `==` sees of a loaded entity (`/repo/draftsman/classes/entity.py:755-762`): no id, since ids are not exported, and what `key` makes of its
content and its place. -/
def loadedEl (key : C → Vec → Nat) (start : Nat) (d : Dictionary C) : Nat → EL := fun u =>
  ⟨u, none, (d.ents[u - (start + 1)]?).map fun e => key e.2.1 e.2.2⟩

/-- `Blueprint.from_dict` with `Blueprint.setup`, `/repo/draftsman/classes/blueprint.py:493-635`: `snapping_grid_position` is not a key, so it is zero
(`/repo/draftsman/classes/blueprint.py:538, 746-755`). -/
def load [Inhabited C] (key : C → Vec → Nat) (start : Nat) (d : Dictionary C) : Except PyErr (Full C) := do
  let r ← impRefs ⟨none, d.tiles, d.schedules, d.wires, d.snap, d.rel⟩ (objects start d.ents.length)
  .ok {
    bp := {
      heap := loadedHeap start d
      root := start
      depth := 1
      el := loadedEl key start d
      alive := fun _ => true
      ws := fun g => if g = start then r.2 else []
      scheds := fun g => if g = start then r.1 else []
      tiles := d.tiles.getD []
      sgp := ⟨0, 0⟩
      snap := d.snap.getD ⟨0, 0⟩
      rel := d.rel.getD ⟨0, 0⟩ }
    content := fun u => ((d.ents[u - (start + 1)]?).map fun e => e.2.1).getD default }

end RoundTrip
end Draftsman
