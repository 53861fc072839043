import Verif.Model.Position
/-
Construction and renaming of entities as far as their footprint and position go: `/repo/draftsman/classes/entity.py:198-372`,
`/repo/draftsman/classes/mixins/directional.py:75-135`, `/repo/draftsman/classes/mixins/eight_way_directional.py:50-108`,
`/repo/draftsman/classes/mixins/orientation.py:35-58`.

Left out: rails with collision sets of their own (`/repo/draftsman/prototypes/straight_rail.py:100-101` and the like), everything but name,
direction, orientation, position and footprint.  Collision boxes are ordered (footprints are natural numbers); orientations are quarter turns.
-/
namespace Draftsman
namespace Rename

/-- What the game data says of a name: `entities.collision_sets` (unknown name, no box, or a box; made at
`/repo/draftsman/environment/update.py:1147-1161`) and the keys `"tile_width"`, `"tile_height"` of `entities.raw`
(`/repo/draftsman/classes/entity.py:314-317`). -/
structure Data where
  box : String → Option (Option AABB)
  width : String → Option ℕ
  height : String → Option ℕ

/-- An entity: its name, what `Model/Position.lean` looks at, and for vehicles (`OrientationMixin`) their quarter turns and the rectangle of
their own `_collision_set`, `/repo/draftsman/classes/mixins/orientation.py:40-51`. -/
structure Ent where
  name : String
  p : PEnt
  vehicle : Bool
  turns : Fin 4
  rect : Option AABB
  deriving DecidableEq

/-- Arguments of a constructor: the class (how it turns, whether it is a vehicle, and flags), validation, direction or orientation, and the
place.  E.g. `/repo/draftsman/prototypes/mining_drill.py:60-90`. -/
structure Args where
  turning : Turning
  vehicle : Bool
  mode : ValidationMode
  dir : Option Int
  turns : Fin 4
  doubleGrid : Bool
  flippable : Bool
  place : PosArg ⊕ PosArg

/-- `aabb_to_dimensions`, `/repo/draftsman/utils.py:765-785`, as natural numbers. -/
def dims (b : Option AABB) : ℕ × ℕ := ((aabbToDimensions b).1.toNat, (aabbToDimensions b).2.toNat)

/-- A box turned by `amt` sixteenths: `CollisionSet.rotate`, `/repo/draftsman/classes/collision_set.py:70-85`, and the bounding box of a
vehicle's rectangle by quarter turns, `/repo/draftsman/utils.py:316-341`. -/
def turned (b : AABB) (amt : Int) : Option AABB :=
  match b.rotate amt with
  | .ok c => some c.getBoundingBox
  | .error _ => none

/-- `static_collision_set.get_bounding_box()`, `/repo/draftsman/classes/entity.py:308-312, 560-570`, `/repo/draftsman/classes/collision_set.py:33-48`. -/
def Data.static (d : Data) (n : String) : Option AABB := (d.box n).join.map AABB.getBoundingBox

/-- `collision_set.get_bounding_box()` of an entity: by name (`/repo/draftsman/classes/entity.py:574-585`), for four-way entities from the
cache `_rotated_collision_sets` by name and direction (`/repo/draftsman/classes/mixins/directional.py:163-165`; `cache` are the names
entered so far), for vehicles its own rectangle. -/
def collisionBox (d : Data) (cache : List String) (e : Ent) : Option AABB :=
  if e.vehicle then e.rect.bind fun b => turned b (4 * (e.turns : ℕ))
  else match e.p.turning with
    | .fourWay =>
      if e.name ∈ cache ∧ (e.p.dir = some 0 ∨ e.p.dir = some 4 ∨ e.p.dir = some 8 ∨ e.p.dir = some 12)
      then (d.box e.name).join.bind fun b => turned b (e.p.dir.getD 0) else none
    | _ => d.static e.name

/-- The overrides by `"tile_width"` and `"tile_height"`: `/repo/draftsman/classes/entity.py:314-317` and 363-366. -/
def override (d : Data) (n : String) (s : ℕ × ℕ) : ℕ × ℕ := ((d.width n).getD s.1, (d.height n).getD s.2)

/-- `e.name = n`, `/repo/draftsman/classes/entity.py:341-372`; `str` tells that `n` is a string (the only thing the format asks). -/
def rename (d : Data) (cache : List String) (e : Ent) (n : String) (str : Bool) : Ent × Option PyErr :=
  if e.p.held then (e, some .draftsmanError)
  else if e.p.mode.truthy && !str then (e, some .dataFormat)
  else
    let e1 := { e with name := n }
    let s := override d n (dims (collisionBox d cache e1))
    let p := { e1.p with w := s.1, h := s.2 }
    ({ e1 with p := p.setTilePosition (.vector p.tile) }, none)

/-- The end of the constructors: `position` if given, else `tile_position`.  `/repo/draftsman/classes/entity.py:326-332`,
`/repo/draftsman/classes/mixins/directional.py:130-136`; the entity is in no collection. -/
def settle (p : PEnt) : PosArg ⊕ PosArg → PEnt
  | .inl v => match p.setPosition v with
    | .ok q => q
    | .error _ => p
  | .inr v => p.setTilePosition v

/-- The rectangle of a vehicle (other entities have none), `/repo/draftsman/classes/mixins/orientation.py:40-51`: `shapes[0]` of an empty set raises `IndexError`. -/
def ownRect (d : Data) (n : String) (vehicle : Bool) : Except PyErr (Option AABB) :=
  match vehicle, d.box n with
  | false, _ => .ok none
  | true, none => .ok none
  | true, some none => .error .indexError
  | true, some (some b) =>
    let w := (b.botRight.x - b.topLeft.x) / 2
    let h := (b.botRight.y - b.topLeft.y) / 2
    .ok (some { topLeft := ⟨-w, -h⟩, botRight := ⟨w, h⟩ })

/-- The mixins for directions: remember the footprint, enter the name in the cache (four-way entities only), set the direction and the place
again.  `/repo/draftsman/classes/mixins/directional.py:91-136`, `/repo/draftsman/classes/mixins/eight_way_directional.py:66-108`. -/
def direct (cache : List String) (n : String) (a : Args) (p : PEnt) : Except PyErr (List String × PEnt) :=
  match a.turning with
  | .fourWay => do
    let q ← { p with sw := p.w, sh := p.h }.setDirection4 a.dir
    .ok (if n ∈ cache then cache else n :: cache, settle q a.place)
  | .eightWay => do
    let q ← { p with sw := p.w, sh := p.h }.setDirection8 a.dir
    .ok (cache, settle q a.place)
  | _ => .ok (cache, p)

/-- The entity before it gets its place, `/repo/draftsman/classes/entity.py:286-317`. -/
def start (d : Data) (n : String) (a : Args) : PEnt where
  turning := a.turning
  mode := .none
  sw := 0
  sh := 0
  w := (override d n (dims (d.static n))).1
  h := (override d n (dims (d.static n))).2
  dir := a.dir
  pos := 0
  tile := 0
  held := false
  doubleGrid := a.doubleGrid
  flippable := a.flippable

/-- The constructors: the rectangle of vehicles first, then `Entity.__init__` (`/repo/draftsman/classes/entity.py:286-335`), then the mixins
for directions, with validation off until the end. -/
def construct (d : Data) (cache : List String) (n : String) (a : Args) : Except PyErr (List String × Ent) := do
  let rect ← ownRect d n a.vehicle
  let (c, p) ← direct cache n a (settle (start d n a) a.place)
  .ok (c, { name := n, p := { p with mode := a.mode }, vehicle := a.vehicle, turns := a.turns, rect := rect })

end Rename
end Draftsman
