import Mathlib.Algebra.Order.Field.Rat
import Mathlib.Algebra.Order.Floor.Ring
import Mathlib.Data.Rat.Floor
import Verif.Model.Py
/-
Vectors, axis-aligned boxes and the collision functions of `/repo/draftsman/utils.py`.
Python floats are modelled by exact rationals.
-/
namespace Draftsman

/-- `Vector`, `/repo/draftsman/classes/vector.py:1-187` (and the two-element lists used as
`PrimitiveVector`). -/
@[ext] structure Vec where
  x : ℚ
  y : ℚ
  deriving DecidableEq, Repr

namespace Vec
/-- `Vector.__add__`, `/repo/draftsman/classes/vector.py` (vector argument). -/
def add (a b : Vec) : Vec := ⟨a.x + b.x, a.y + b.y⟩
/-- `Vector.__sub__`, `/repo/draftsman/classes/vector.py` (vector argument). -/
def sub (a b : Vec) : Vec := ⟨a.x - b.x, a.y - b.y⟩
/-- Operators of `Vector`: `/repo/draftsman/classes/vector.py:138-172`. -/
instance : Add Vec := ⟨add⟩
/-- Operators of `Vector`: `/repo/draftsman/classes/vector.py:138-172`. -/
instance : Sub Vec := ⟨sub⟩
/-- Operators of `Vector`: `/repo/draftsman/classes/vector.py:138-172`. -/
instance : Zero Vec := ⟨⟨0, 0⟩⟩
@[simp] theorem add_x (a b : Vec) : (a + b).x = a.x + b.x := rfl
@[simp] theorem add_y (a b : Vec) : (a + b).y = a.y + b.y := rfl
@[simp] theorem sub_x (a b : Vec) : (a - b).x = a.x - b.x := rfl
@[simp] theorem sub_y (a b : Vec) : (a - b).y = a.y - b.y := rfl
@[simp] theorem zero_x : (0 : Vec).x = 0 := rfl
@[simp] theorem zero_y : (0 : Vec).y = 0 := rfl
end Vec

/-- `AABB`, `/repo/draftsman/utils.py:56-106`.  The `points`/`normals` lists, used only by the
rectangle test, are modelled in `Verif.Model.Rect`. -/
structure AABB where
  topLeft : Vec
  botRight : Vec
  position : Vec := 0
  deriving DecidableEq, Repr

namespace AABB
/-- `AABB.world_top_left`, `/repo/draftsman/utils.py:123-133`. -/
def worldTopLeft (a : AABB) : Vec := ⟨a.topLeft.x + a.position.x, a.topLeft.y + a.position.y⟩
/-- `AABB.world_bot_right`, `/repo/draftsman/utils.py:135-145`. -/
def worldBotRight (a : AABB) : Vec := ⟨a.botRight.x + a.position.x, a.botRight.y + a.position.y⟩

/-- `AABB.get_bounding_box`, `/repo/draftsman/utils.py:168-185`. -/
def getBoundingBox (a : AABB) : AABB :=
  { topLeft := ⟨a.topLeft.x + a.position.x, a.topLeft.y + a.position.y⟩
    botRight := ⟨a.botRight.x + a.position.x, a.botRight.y + a.position.y⟩ }

/-- `AABB.__add__`, `/repo/draftsman/utils.py:238-240`. -/
def shift (a : AABB) (v : Vec) : AABB := { a with position := a.position + v }
end AABB

/-- `point_in_aabb`, `/repo/draftsman/utils.py:581-592`. -/
def pointInAabb (p : Vec) (a : AABB) : Bool :=
  (decide (p.x ≥ a.worldTopLeft.x) && decide (p.x ≤ a.worldBotRight.x)) &&
  (decide (p.y ≥ a.worldTopLeft.y) && decide (p.y ≤ a.worldBotRight.y))

/-- `aabb_overlaps_aabb`, `/repo/draftsman/utils.py:595-611`. -/
def aabbOverlapsAabb (a b : AABB) : Bool :=
  (decide (a.worldTopLeft.x < b.worldBotRight.x) && decide (a.worldBotRight.x > b.worldTopLeft.x)) &&
  (decide (a.worldTopLeft.y < b.worldBotRight.y) && decide (a.worldBotRight.y > b.worldTopLeft.y))

/-- `point_in_circle`, `/repo/draftsman/utils.py:614-627`. -/
def pointInCircle (p : Vec) (r : ℚ) (c : Vec) : Bool :=
  let dx := p.x - c.x
  let dy := p.y - c.y
  decide (dx * dx + dy * dy ≤ r * r)

/-- `aabb_overlaps_circle`, `/repo/draftsman/utils.py:630-664`. -/
def aabbOverlapsCircle (a : AABB) (r : ℚ) (c : Vec) : Bool :=
  let width := a.botRight.x - a.topLeft.x
  let height := a.botRight.y - a.topLeft.y
  let center : Vec := ⟨a.topLeft.x + a.position.x + width / 2, a.topLeft.y + a.position.y + height / 2⟩
  let dist : Vec := ⟨|c.x - center.x|, |c.y - center.y|⟩
  if dist.x > width / 2 + r then false
  else if dist.y > height / 2 + r then false
  else if dist.x ≤ width / 2 then true
  else if dist.y ≤ height / 2 then true
  else decide ((dist.x - width / 2) ^ 2 + (dist.y - height / 2) ^ 2 ≤ r ^ 2)

/-- `extend_aabb`, `/repo/draftsman/utils.py:740-762`. -/
def extendAabb : Option AABB → Option AABB → Option AABB
  | none, b => b
  | some a, none => some a
  | some a, some b => some
    { topLeft := ⟨min a.worldTopLeft.x b.worldTopLeft.x, min a.worldTopLeft.y b.worldTopLeft.y⟩
      botRight := ⟨max a.worldBotRight.x b.worldBotRight.x, max a.worldBotRight.y b.worldBotRight.y⟩ }

/-- `Blueprint.get_world_bounding_box`, `/repo/draftsman/classes/blueprint.py:998-1015` (also
`Group.get_world_bounding_box`, `/repo/draftsman/classes/group.py:529-537`, and the loop of
`CollisionSet.get_bounding_box`, `/repo/draftsman/classes/collision_set.py:44-48`).  The argument is the
list of the members' own world boxes: entities first, then tiles. -/
def worldBoundingBox (boxes : List (Option AABB)) : Option AABB :=
  boxes.foldl extendAabb none

/-- `aabb_to_dimensions`, `/repo/draftsman/utils.py:765-785`. -/
def aabbToDimensions : Option AABB → Int × Int
  | none => (0, 0)
  | some a => (⌈a.botRight.x - a.topLeft.x⌉, ⌈a.botRight.y - a.topLeft.y⌉)

/-- `math.cos(math.radians(amt * 22.5))` for `amt` a multiple of four, as an exact value.  The angle of `/repo/draftsman/utils.py:210-211`. -/
def quarterCos (amt : Int) : ℚ :=
  match amt % 16 with
  | 0 => 1
  | 4 => 0
  | 8 => -1
  | _ => 0

/-- `math.sin(math.radians(amt * 22.5))` for `amt` a multiple of four, as an exact value.  The angle of `/repo/draftsman/utils.py:210-211`. -/
def quarterSin (amt : Int) : ℚ :=
  match amt % 16 with
  | 0 => 0
  | 4 => 1
  | 8 => 0
  | _ => -1

/-- `rotate_point`, `/repo/draftsman/utils.py:514-526`, given the cosine and sine of the angle. -/
def rotatePoint (a : Vec) (cos sin : ℚ) : Vec :=
  ⟨a.x * cos - a.y * sin, a.x * sin + a.y * cos⟩

/-- `AABB.rotate`, `/repo/draftsman/utils.py:187-228`. -/
def AABB.rotate (a : AABB) (amt : Int) : Except PyErr AABB :=
  if amt % 4 ≠ 0 then .error .valueError
  else
    let p := rotatePoint a.topLeft (quarterCos amt) (quarterSin amt)
    let q := rotatePoint a.botRight (quarterCos amt) (quarterSin amt)
    .ok { topLeft := ⟨min p.x q.x, min p.y q.y⟩
          botRight := ⟨max p.x q.x, max p.y q.y⟩
          position := a.position }

/-- `CollisionSet.rotate`, `/repo/draftsman/classes/collision_set.py:70-85`, for sets made of boxes
only (sets with oriented rectangles are not modelled here). -/
def collisionSetRotate (shapes : List AABB) (amt : Int) : Except PyErr (List AABB) :=
  shapes.mapM (·.rotate amt)

/-- `CollisionSet.overlaps`, `/repo/draftsman/classes/collision_set.py:50-68`, for any overlap test on
shapes. -/
def collisionSetOverlaps {S : Type} (ov : S → S → Bool) (a b : List S) : Bool :=
  match a, b with
  | [s], [t] => ov s t
  | _, _ => a.any fun s => b.any fun t => ov s t

end Draftsman
