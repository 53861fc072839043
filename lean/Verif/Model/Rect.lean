import Verif.Model.Geometry
/-
Oriented rectangles and the separating-axis test: `/repo/draftsman/utils.py:256-373, 529-575, 667-737`
and the way rolling stock re-uses one rectangle, `/repo/draftsman/classes/mixins/orientation.py:39-103`.
Angles are represented by their (rational) cosine and sine.
-/
namespace Draftsman.Rect

/-- What the separating-axis test reads from a shape: the corner points (`get_points()`) and the stored
`normals` list.  Read at `/repo/draftsman/utils.py:713-737`. -/
structure Shape where
  points : List Vec
  normals : List Vec
  deriving Repr, DecidableEq

/-- `Rectangle`, `/repo/draftsman/utils.py:256-295`: `cos`/`sin` of the current `angle`, and the
`normals` list computed once by the constructor. -/
structure Rectangle where
  position : Vec
  width : ℚ
  height : ℚ
  cos : ℚ
  sin : ℚ
  normals : List Vec
  deriving Repr, DecidableEq

/-- The unrotated corner list, `/repo/draftsman/utils.py:280-282`. -/
def localPoints (w h : ℚ) : List Vec :=
  [⟨-(w/2), -(h/2)⟩, ⟨w/2, -(h/2)⟩, ⟨w/2, h/2⟩, ⟨-(w/2), h/2⟩]

/-- `Rectangle.get_points`, `/repo/draftsman/utils.py:300-314`. -/
def Rectangle.getPoints (r : Rectangle) : List Vec :=
  (localPoints r.width r.height).map fun p =>
    let q := rotatePoint p r.cos r.sin
    ⟨q.x + r.position.x, q.y + r.position.y⟩

/-- `perpendicular`, `/repo/draftsman/utils.py:564-573`. -/
def perpendicular (a : Vec) : Vec := ⟨a.y, -a.x⟩

/-- `normalize`, `/repo/draftsman/utils.py:552-561`, with the magnitude supplied by the caller.
Simplification: the magnitude of a rectangle's edge is its side length (as `cos² + sin² = 1`), so the
square root is not computed. -/
def normalizeBy (mag : ℚ) (a : Vec) : Vec := ⟨a.x / mag, a.y / mag⟩

/-- `Rectangle.__init__`, `/repo/draftsman/utils.py:263-295`.  `normalize` divides by the side length,
hence `ZeroDivisionError` for a degenerate rectangle. -/
def mkRectangle (position : Vec) (width height cos sin : ℚ) : Except PyErr Rectangle :=
  let r : Rectangle := { position, width, height, cos, sin, normals := [] }
  if width = 0 ∨ height = 0 then .error .zeroDivision
  else
    match r.getPoints with
    | [p0, p1, p2, p3] =>
      .ok { r with normals :=
        [ normalizeBy |width| (perpendicular (p1 - p0)),
          normalizeBy |height| (perpendicular (p2 - p1)),
          normalizeBy |width| (perpendicular (p3 - p2)),
          normalizeBy |height| (perpendicular (p0 - p3)) ] }
    | _ => .error .indexError   -- unreachable: there are always four corners

/-- Assigning `shapes[0].angle`, as `OrientationMixin.orientation` does
(`/repo/draftsman/classes/mixins/orientation.py:84-103`): the angle changes, the stored normals do not. -/
def Rectangle.setAngle (r : Rectangle) (cos sin : ℚ) : Rectangle := { r with cos, sin }

/-- What the test reads from a rectangle.  `/repo/draftsman/utils.py:713-737` with `:280-282, 300-314`. -/
def Rectangle.toShape (r : Rectangle) : Shape := ⟨r.getPoints, r.normals⟩

/-- What the test reads from an `AABB` built by its constructor: `/repo/draftsman/utils.py:101-106`
(points and normals) and `:155-166` (`get_points`). -/
def aabbToShape (a : AABB) : Shape :=
  ⟨([⟨a.topLeft.x, a.topLeft.y⟩, ⟨a.botRight.x, a.topLeft.y⟩, ⟨a.botRight.x, a.botRight.y⟩,
    ⟨a.topLeft.x, a.botRight.y⟩] : List Vec).map fun p => ⟨p.x + a.position.x, p.y + a.position.y⟩,
   [⟨0, -1⟩, ⟨1, 0⟩, ⟨0, 1⟩, ⟨-1, 0⟩]⟩

/-- `dot_product`, `/repo/draftsman/utils.py:529-538`. -/
def dot (a b : Vec) : ℚ := a.x * b.x + a.y * b.y

/-- One step of the loop of `flatten_points_on`, `/repo/draftsman/utils.py:677-683`; `none` stands for
`inf` (minimum) and `-inf` (maximum). -/
def flattenStep (axis : Vec) (acc : Option ℚ × Option ℚ) (p : Vec) : Option ℚ × Option ℚ :=
  let d := dot p axis
  (match acc.1 with
    | none => some d
    | some m => if d < m then some d else some m,
   match acc.2 with
    | none => some d
    | some m => if d > m then some d else some m)

/-- `flatten_points_on`, `/repo/draftsman/utils.py:667-686`. -/
def flattenPointsOn (points : List Vec) (axis : Vec) : Option ℚ × Option ℚ :=
  points.foldl (flattenStep axis) (none, none)

/-- `low >= high` where a missing `low` is `inf` and a missing `high` is `-inf`.  `/repo/draftsman/utils.py:689-710`. -/
def geRange : Option ℚ → Option ℚ → Bool
  | some a, some b => decide (a ≥ b)
  | _, _ => true

/-- `is_separating_axis`, `/repo/draftsman/utils.py:689-710`. -/
def isSeparatingAxis (a b : List Vec) (axis : Vec) : Bool :=
  let ra := flattenPointsOn a axis
  let rb := flattenPointsOn b axis
  geRange ra.1 rb.2 || geRange rb.1 ra.2

/-- `rect_overlaps_rect`, `/repo/draftsman/utils.py:713-737`. -/
def rectOverlapsRect (a b : Shape) : Bool :=
  if a.normals.any (isSeparatingAxis a.points b.points) then false
  else if b.normals.any (isSeparatingAxis a.points b.points) then false
  else true

/-- Running extremes of `Rectangle.get_bounding_box`; `none` stands for `inf` / `-inf`.  `/repo/draftsman/utils.py:316-340`. -/
structure Scan where
  xMin : Option ℚ := none
  yMin : Option ℚ := none
  xMax : Option ℚ := none
  yMax : Option ℚ := none
  deriving DecidableEq, Repr

/-- `if v < lo: lo = v  elif v > hi: hi = v`, `/repo/draftsman/utils.py:331-338`. -/
def scanAxis (v : ℚ) (lo hi : Option ℚ) : Option ℚ × Option ℚ :=
  match lo with
  | none => (some v, hi)
  | some l =>
    if v < l then (some v, hi)
    else match hi with
      | none => (some l, some v)
      | some h => if v > h then (some l, some v) else (some l, some h)

/-- Loop body of `Rectangle.get_bounding_box`, `/repo/draftsman/utils.py:330-338`. -/
def scanStep (s : Scan) (p : Vec) : Scan :=
  let x := scanAxis p.x s.xMin s.xMax
  let y := scanAxis p.y s.yMin s.yMax
  { xMin := x.1, xMax := x.2, yMin := y.1, yMax := y.2 }

/-- `Rectangle.get_bounding_box`, `/repo/draftsman/utils.py:316-340`: the four numbers handed to the
`AABB` constructor. -/
def Rectangle.getBoundingBox (r : Rectangle) : Scan := r.getPoints.foldl scanStep {}

end Draftsman.Rect
