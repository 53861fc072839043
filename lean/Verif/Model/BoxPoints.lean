import Verif.Model.Rect
/-
Boxes as objects: with the list `points` that is made once (`/repo/draftsman/utils.py:56-253`, left out of `Model/Geometry.lean`) and with the vector `position`, which
boxes can share, and sets of boxes that move what they are given (`/repo/draftsman/classes/collision_set.py:20-32`).  Simplified: a set holds boxes only; coordinates
are exact; programs name only boxes that there are (others are steps that do nothing).
-/
namespace Draftsman
namespace BoxPoints

/-- `AABB`: the corners, the place of the vector `position`, and `points`.  `/repo/draftsman/utils.py:95-105`. -/
structure Box where
  tl : Vec
  br : Vec
  pos : ℕ
  points : List Vec
  deriving DecidableEq, Repr

/-- The vectors that are positions, how many there are, and the boxes made so far.  `/repo/draftsman/utils.py:34-41`. -/
structure World where
  cell : ℕ → Vec
  next : ℕ
  boxes : List Box

/-- Nothing made yet: the state in which `/repo/draftsman/utils.py:64` is first called. -/
def World.empty : World := ⟨fun _ => 0, 0, []⟩

/-- `[[x1, y1], [x2, y1], [x2, y2], [x1, y2]]`, `/repo/draftsman/utils.py:103`. -/
def listPoints (tl br : Vec) : List Vec := [⟨tl.x, tl.y⟩, ⟨br.x, tl.y⟩, ⟨br.x, br.y⟩, ⟨tl.x, br.y⟩]

/-- An argument that is a position: two numbers, or the vector of another box.  `Vector.from_other`, `/repo/draftsman/classes/vector.py:56-81`. -/
inductive Place where
  | lit (v : Vec)
  | of (k : ℕ)
  deriving DecidableEq, Repr

/-- `AABB(x1, y1, x2, y2, position)` where `position` is no vector: a new one is made.  `/repo/draftsman/utils.py:64-105`. -/
def World.make (w : World) (tl br p : Vec) : World :=
  { cell := fun n => if n = w.next then p else w.cell n
    next := w.next + 1
    boxes := w.boxes ++ [⟨tl, br, w.next, listPoints tl br⟩] }

/-- `AABB(x1, y1, x2, y2, position)` where `position` is a vector: it is kept itself.  `/repo/draftsman/utils.py:39-40, 64-105`. -/
def World.makeAt (w : World) (tl br : Vec) (c : ℕ) : World :=
  { w with boxes := w.boxes ++ [⟨tl, br, c, listPoints tl br⟩] }

/-- `world_top_left`, `/repo/draftsman/utils.py:124-134`. -/
def World.topLeft (w : World) (b : Box) : Vec := ⟨b.tl.x + (w.cell b.pos).x, b.tl.y + (w.cell b.pos).y⟩

/-- `world_bot_right`, `/repo/draftsman/utils.py:136-146`. -/
def World.botRight (w : World) (b : Box) : Vec := ⟨b.br.x + (w.cell b.pos).x, b.br.y + (w.cell b.pos).y⟩

/-- `get_points`, `/repo/draftsman/utils.py:156-167`. -/
def World.getPoints (w : World) (b : Box) : List Vec := b.points.map fun p => ⟨p.x + (w.cell b.pos).x, p.y + (w.cell b.pos).y⟩

/-- What the test against a rectangle reads, `/repo/draftsman/utils.py:105, 156-167, 713-737`. -/
def World.shape (w : World) (b : Box) : Rect.Shape := ⟨w.getPoints b, [⟨0, -1⟩, ⟨1, 0⟩, ⟨0, 1⟩, ⟨-1, 0⟩]⟩

/-- `AABB.__eq__`, `/repo/draftsman/utils.py:230-236`. -/
def World.same (w : World) (a b : Box) : Bool :=
  decide (w.cell a.pos = w.cell b.pos) && (decide (a.tl = b.tl) && decide (a.br = b.br))

/-- Steps of a program: `AABB(…)`, `b.rotate(amt)`, `b + v`, `b.get_bounding_box()`, `extend_aabb(a, b)`, `CollisionSet([…], position)`.
`/repo/draftsman/utils.py:64-253, 740-762`, `/repo/draftsman/classes/collision_set.py:20-32`. -/
inductive Op where
  | new (tl br : Vec) (p : Place)
  | rotate (k : ℕ) (amt : Int)
  | add (k : ℕ) (v : Vec)
  | bound (k : ℕ)
  | extend (j k : ℕ)
  | collide (ks : List ℕ) (v : Vec)

/-- `get_bounding_box`: a box is made at `(0, 0)` and its corners are changed, but not its `points`.  `/repo/draftsman/utils.py:169-189`. -/
def World.bound (w : World) (b : Box) : World :=
  { cell := fun n => if n = w.next then 0 else w.cell n
    next := w.next + 1
    boxes := w.boxes ++ [⟨⟨b.tl.x + (w.cell b.pos).x, b.tl.y + (w.cell b.pos).y⟩, ⟨b.br.x + (w.cell b.pos).x, b.br.y + (w.cell b.pos).y⟩, w.next,
      listPoints b.tl b.br⟩] }

/-- `shape.position[0] += position[0]` and the same for `1`.  `/repo/draftsman/classes/collision_set.py:31-32`. -/
def World.push (w : World) (c : ℕ) (v : Vec) : World :=
  { w with cell := fun n => if n = c then ⟨(w.cell c).x + v.x, (w.cell c).y + v.y⟩ else w.cell n }

/-- The loop over the shapes.  `/repo/draftsman/classes/collision_set.py:29-32`. -/
def World.pushAll (w : World) (v : Vec) : List ℕ → World
  | [] => w
  | k :: ks =>
    match w.boxes[k]? with
    | some b => (w.push b.pos v).pushAll v ks
    | none => w.pushAll v ks

/-- One step.  `rotate` (`/repo/draftsman/utils.py:191-228`) hands its own vector on, `+` (`/repo/draftsman/utils.py:238-240`) a new one, `extend_aabb`
(`/repo/draftsman/utils.py:740-762`) none. -/
def World.step (w : World) : Op → World × Option PyErr
  | .new tl br (.lit p) => (w.make tl br p, none)
  | .new tl br (.of k) =>
    match w.boxes[k]? with
    | some b => (w.makeAt tl br b.pos, none)
    | none => (w, none)
  | .rotate k amt =>
    match w.boxes[k]? with
    | none => (w, none)
    | some b =>
      if amt % 4 ≠ 0 then (w, some .valueError)
      else
        let p := rotatePoint b.tl (quarterCos amt) (quarterSin amt)
        let q := rotatePoint b.br (quarterCos amt) (quarterSin amt)
        (w.makeAt ⟨min p.x q.x, min p.y q.y⟩ ⟨max p.x q.x, max p.y q.y⟩ b.pos, none)
  | .add k v =>
    match w.boxes[k]? with
    | none => (w, none)
    | some b => (w.make b.tl b.br (w.cell b.pos + v), none)
  | .bound k =>
    match w.boxes[k]? with
    | none => (w, none)
    | some b => (w.bound b, none)
  | .extend j k =>
    match w.boxes[j]?, w.boxes[k]? with
    | some a, some b =>
      (w.make ⟨min (w.topLeft a).x (w.topLeft b).x, min (w.topLeft a).y (w.topLeft b).y⟩
        ⟨max (w.botRight a).x (w.botRight b).x, max (w.botRight a).y (w.botRight b).y⟩ 0, none)
    | _, _ => (w, none)
  | .collide ks v => (w.pushAll v ks, none)

/-- A program that catches exceptions.  `/repo/draftsman/utils.py:64-253`. -/
def World.run (w : World) : List Op → World
  | [] => w
  | o :: l => (w.step o).1.run l

end BoxPoints
end Draftsman
