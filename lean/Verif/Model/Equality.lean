import Verif.Model.Export
import Verif.Model.Schedule
import Verif.Model.Geometry
import Verif.Model.Rect
/-
`==` on blueprints and their parts: `/repo/draftsman/classes/blueprint.py:1140-1156`, `/repo/draftsman/classes/entity_list.py:649-660`,
`/repo/draftsman/classes/tile_list.py:305-314`, `/repo/draftsman/classes/schedule_list.py:72-80`, `/repo/draftsman/classes/association.py:34-56`,
`/repo/draftsman/classes/collision_set.py:87-88`, `/repo/draftsman/utils.py:230-236` and 361-368.

Values that are compared by value are taken from any type `V` with decidable equality.
-/
namespace Draftsman
namespace Equality

open Schedule (Stop)

/-- What `==` compares of an entity: the class, name, place, id and tags (`/repo/draftsman/classes/entity.py:755-762`) and what the class adds, e.g.
`/repo/draftsman/classes/mixins/control_behavior.py:172-173`. -/
structure Ent (V : Type) where
  cls : String
  name : String
  position : Vec
  id : Option String
  tags : V
  attrs : List V
  deriving DecidableEq

/-- A member of an `EntityList`: an object with its identity.  Groups have no `__eq__`.  `/repo/draftsman/classes/entity_list.py:69-94`,
`/repo/draftsman/classes/group.py:39-83`. -/
inductive Member (V : Type) where
  | entity (uid : Nat) (e : Ent V)
  | group (uid : Nat)
  deriving DecidableEq

/-- `Entity.__eq__`, `/repo/draftsman/classes/entity.py:755-762`, with those of the classes, e.g. `/repo/draftsman/classes/mixins/control_behavior.py:172-173`. -/
def entEq {V : Type} [DecidableEq V] (a b : Ent V) : Bool :=
  decide (a.cls = b.cls) && (decide (a.name = b.name) && (decide (a.position = b.position) && (decide (a.id = b.id) &&
    (decide (a.tags = b.tags) && decide (a.attrs = b.attrs)))))

/-- `==` on members: that of entities, or else identity.  `/repo/draftsman/classes/entity_list.py:657`, `/repo/draftsman/classes/entity.py:755-762`. -/
def memberEq {V : Type} [DecidableEq V] : Member V → Member V → Bool
  | .entity _ a, .entity _ b => entEq a b
  | .group u, .group v => decide (u = v)
  | _, _ => false

/-- The loop over two lists of the same length, leaving at the first difference.  `/repo/draftsman/classes/entity_list.py:656-660`,
`/repo/draftsman/classes/schedule_list.py:77-80`. -/
def loop {α : Type} (eq : α → α → Bool) (l r : List α) : List Nat → Bool
  | [] => true
  | i :: is => match l[i]?, r[i]? with
    | some a, some b => if !(eq a b) then false else loop eq l r is
    | _, _ => false

/-- `EntityList.__eq__` and `ScheduleList.__eq__`: `/repo/draftsman/classes/entity_list.py:649-660`, `/repo/draftsman/classes/schedule_list.py:72-80`. -/
def listEq {α : Type} (eq : α → α → Bool) (l r : List α) : Bool :=
  if l.length ≠ r.length then false else loop eq l r (List.range l.length)

/-- `==` on Python lists, used by `/repo/draftsman/classes/tile_list.py:314`, `/repo/draftsman/classes/schedule.py:717-718` and
`/repo/draftsman/classes/collision_set.py:88`. -/
def builtinEq {α : Type} (eq : α → α → Bool) : List α → List α → Bool
  | [], [] => true
  | a :: l, b :: r => eq a b && builtinEq eq l r
  | _, _ => false

/-- `Tile`, as far as compared: `/repo/draftsman/classes/tile.py:297-302`. -/
structure Tile where
  name : String
  position : Vec
  deriving DecidableEq

/-- `Tile.__eq__`, `/repo/draftsman/classes/tile.py:297-302`. -/
def tileEq (a b : Tile) : Bool := decide (a.name = b.name) && decide (a.position = b.position)

/-- An `Association`: the object it points to, or nothing if that is gone.  `/repo/draftsman/classes/association.py:13-32`. -/
abbrev Assoc := Option Nat

/-- `Association.__eq__`, `/repo/draftsman/classes/association.py:34-56`: the same object, or both gone. -/
def assocEq (a b : Assoc) : Bool := decide (a = b)

/-- `Schedule`, `/repo/draftsman/classes/schedule.py:404-540`. -/
structure Sch where
  locos : List Assoc
  stops : List Stop
  deriving DecidableEq

/-- `Schedule.__eq__`, `/repo/draftsman/classes/schedule.py:714-719`; stops are compared by value (343-350, 379-387). -/
def schEq (a b : Sch) : Bool := builtinEq assocEq a.locos b.locos && decide (a.stops = b.stops)

/-- The settings of a blueprint that `==` compares, `/repo/draftsman/classes/blueprint.py:1144-1152`. -/
structure Settings (V : Type) where
  label : V
  labelColor : V
  description : V
  icons : V
  version : V
  snapSize : V
  snapPosition : V
  absolute : V
  relative : V
  deriving DecidableEq

/-- `Blueprint`, `/repo/draftsman/classes/blueprint.py:493-513`. -/
structure Blueprint (V : Type) where
  settings : Settings V
  entities : List (Member V)
  tiles : List Tile
  schedules : List Sch
  wires : List Wire
  stock : V
  index : V
  deriving DecidableEq

/-- The first part of `Blueprint.__eq__`, `/repo/draftsman/classes/blueprint.py:1144-1152`. -/
def settingsEq {V : Type} [DecidableEq V] (a b : Settings V) : Bool :=
  decide (a.label = b.label) && (decide (a.labelColor = b.labelColor) && (decide (a.description = b.description) && (decide (a.icons = b.icons) &&
    (decide (a.version = b.version) && (decide (a.snapSize = b.snapSize) && (decide (a.snapPosition = b.snapPosition) &&
      (decide (a.absolute = b.absolute) && decide (a.relative = b.relative))))))))

/-- `Blueprint.__eq__` for two blueprints, `/repo/draftsman/classes/blueprint.py:1140-1156`. -/
def bpEq {V : Type} [DecidableEq V] (a b : Blueprint V) : Bool :=
  settingsEq a.settings b.settings && (listEq memberEq a.entities b.entities && (builtinEq tileEq a.tiles b.tiles && listEq schEq a.schedules b.schedules))

/-- The dictionary a blueprint is made from; locomotives and wires by number.  `/repo/draftsman/classes/blueprint.py:493-513`. -/
structure Data (V : Type) where
  settings : Settings V
  entities : List (Ent V)
  tiles : List Tile
  schedules : List (List Nat × List Stop)
  wires : List Wire
  stock : V
  index : V
  deriving DecidableEq

/-- One schedule of the dictionary: numbers become associations.  `/repo/draftsman/classes/blueprint.py:618-622`. -/
def loadSch (objs : List Nat) (s : List Nat × List Stop) : Except PyErr Sch := do
  let ls ← s.1.mapM (impRef objs)
  pure ⟨ls.map some, s.2⟩

/-- `Blueprint.setup` from a dictionary, `/repo/draftsman/classes/blueprint.py:493-635`: every entity becomes a new object; the next one is `start`.
Values are taken over as they are. -/
def load {V : Type} (start : Nat) (d : Data V) : Except PyErr (Blueprint V) := do
  let objs := (List.range d.entities.length).map (start + ·)
  let ss ← d.schedules.mapM (loadSch objs)
  let ws ← d.wires.mapM (impWire objs)
  pure ⟨d.settings, d.entities.mapIdx fun i e => .entity (start + i) e, d.tiles, ss, ws, d.stock, d.index⟩

/-- `Blueprint.__deepcopy__`, `/repo/draftsman/classes/blueprint.py:1158-1215`: new objects for all members, while associations point where they did
(`/repo/draftsman/classes/association.py:58-67`).  Objects from `next` on are new. -/
def copyOf {V : Type} (next : Nat) (b : Blueprint V) : Blueprint V :=
  { b with entities := b.entities.map fun
    | .entity u e => .entity (next + u) e
    | .group u => .group (next + u) }

/-! ### Shapes -/

/-- A rectangle with the angle that is compared, `/repo/draftsman/utils.py:263-295`. -/
structure Rct where
  angle : Rat
  rect : Rect.Rectangle
  deriving DecidableEq

/-- `AABB.__eq__`, `/repo/draftsman/utils.py:230-236`. -/
def aabbEq (a b : AABB) : Bool := decide (a.position = b.position) && (decide (a.topLeft = b.topLeft) && decide (a.botRight = b.botRight))

/-- `Rectangle.__eq__`, `/repo/draftsman/utils.py:361-368`. -/
def rectEq (a b : Rct) : Bool :=
  decide (a.rect.position = b.rect.position) && (decide (a.rect.width = b.rect.width) && (decide (a.rect.height = b.rect.height) && decide (a.angle = b.angle)))

/-- The two kinds of shapes, `/repo/draftsman/utils.py:56-295`. -/
inductive Shp where
  | box (a : AABB)
  | rct (r : Rct)
  deriving DecidableEq

/-- `==` on shapes: `/repo/draftsman/utils.py:230-236` and 361-368, with the `isinstance` of each. -/
def shpEq : Shp → Shp → Bool
  | .box a, .box b => aabbEq a b
  | .rct a, .rct b => rectEq a b
  | _, _ => false

/-- `CollisionSet.__eq__`, `/repo/draftsman/classes/collision_set.py:87-88`. -/
def setEq (a b : List Shp) : Bool := builtinEq shpEq a b

/-- What the overlap tests read of a shape, `/repo/draftsman/utils.py:147-166` and 297-314. -/
def Shp.shape : Shp → Rect.Shape
  | .box a => Rect.aabbToShape a
  | .rct r => r.rect.toShape

/-- `AABB.overlaps` and `Rectangle.overlaps`, `/repo/draftsman/utils.py:147-153` and 297-298: boxes with boxes directly, all else by separating axes. -/
def shpOverlaps : Shp → Shp → Bool
  | .box a, .box b => aabbOverlapsAabb a b
  | a, b => Rect.rectOverlapsRect a.shape b.shape

end Equality
end Draftsman
