import Verif.Model.Position
/-
Moving, rotating and flipping a collection: `/repo/draftsman/classes/transformable.py`.
-/
namespace Draftsman

/-- A tile: only its integer position matters here, `/repo/draftsman/classes/tile.py:186-211`. -/
structure PTile where
  x : Int
  y : Int
  deriving DecidableEq, Repr

/-- The entities and tiles of a `Transformable`. The spatial maps are modelled in `Verif.Model.SpatialHash`.  `/repo/draftsman/classes/transformable.py:19-224`. -/
structure Layout where
  entities : List PEnt
  tiles : List PTile
  deriving DecidableEq, Repr

/-- The state after a transformation, and the exception that interrupted it, if any.  Part of the model only: what `/repo/draftsman/classes/transformable.py:19-224` leaves behind. -/
abbrev Outcome := Layout × Option PyErr

/-- The loop `for entity in self.entities: ... entity._parent = None; <step>; entity._parent = self`
(`/repo/draftsman/classes/transformable.py:42-55, 106-128, 184-205`): an exception in `step` leaves the
entities handled so far changed, and the current one without a parent. -/
def eachEntity (step : PEnt → Except PyErr PEnt) : List PEnt → List PEnt × Option PyErr
  | [] => ([], none)
  | e :: es =>
    match step { e with held := false } with
    | .error err => ({ e with held := false } :: es, some err)
    | .ok e' =>
      let r := eachEntity step es
      ({ e' with held := true } :: r.1, r.2)

/-- Entities first; tiles are only reached when no entity raised.  `/repo/draftsman/classes/transformable.py:42-71`, `:106-151` and `:184-224`. -/
def transformWith (step : PEnt → Except PyErr PEnt) (tstep : PTile → PTile) (l : Layout) : Outcome :=
  match eachEntity step l.entities with
  | (es, some err) => (⟨es, l.tiles⟩, some err)
  | (es, none) => (⟨es, l.tiles.map tstep⟩, none)

/-- One step of `translate`, `/repo/draftsman/classes/transformable.py:50`. -/
def translateStep (x y : Int) (e : PEnt) : Except PyErr PEnt :=
  e.setPosition (.vector ⟨e.pos.x + x, e.pos.y + y⟩)

/-- `Transformable.translate`, `/repo/draftsman/classes/transformable.py:19-71`, for integer arguments as
annotated; the second component tells whether the grid alignment warning is issued (32-39). -/
def translate (l : Layout) (x y : Int) : Outcome × Bool :=
  (transformWith (translateStep x y) (fun t => ⟨t.x + x, t.y + y⟩) l,
   l.entities.any (·.doubleGrid) && (x % 2 == 1 || y % 2 == 1))

/-- The table of matrices, `/repo/draftsman/classes/transformable.py:97-103`. -/
def rotMatrix (angle : Int) : Int × Int × Int × Int :=
  if angle = 0 then (1, 0, 0, 1) else if angle = 4 then (0, 1, -1, 0)
  else if angle = 8 then (-1, 0, 0, -1) else (0, -1, 1, 0)

/-- `entity.direction += k(entity.direction)` for a rotatable entity: the sum of an `IntEnum` and an int is a
plain int, handed to the setter.  `None + int` is a `TypeError`.  `/repo/draftsman/classes/transformable.py:112-119` and `:190-197`. -/
def turnBy (e : PEnt) (k : Int → Int) : Except PyErr PEnt :=
  match e.turning with
  | .fixed => .ok e
  | .group => .error .attributeError
  | _ => match e.dir with
    | none => .error .typeError
    | some d => e.setDirection (some (d + k d))

/-- One step of `rotate`, `/repo/draftsman/classes/transformable.py:112-123`. -/
def rotateStep (angle : Int) (e : PEnt) : Except PyErr PEnt := do
  let m := rotMatrix angle
  let e' ← turnBy e (fun _ => angle)
  e'.setPosition (.tuple (e.pos.x * m.1 + e.pos.y * m.2.2.1) (e.pos.x * m.2.1 + e.pos.y * m.2.2.2))

/-- `tile.position = (...)` with the conversion `int` of `/repo/draftsman/classes/tile.py:211`. -/
def tileAt (x y : ℚ) : PTile := ⟨pyTrunc x, pyTrunc y⟩

/-- The tile step of `rotate`, `/repo/draftsman/classes/transformable.py:138-146`. -/
def rotateTile (angle : Int) (t : PTile) : PTile :=
  let m := rotMatrix angle
  let px : ℚ := t.x + 1/2
  let py : ℚ := t.y + 1/2
  tileAt (px * m.1 + py * m.2.2.1 - 1/2) (px * m.2.1 + py * m.2.2.2 - 1/2)

/-- `Transformable.rotate`, `/repo/draftsman/classes/transformable.py:73-151`. -/
def rotate (l : Layout) (angle : Int) : Outcome :=
  let a := angle % 16
  if a % 4 ≠ 0 then (l, some .rotation)
  else transformWith (rotateStep a) (rotateTile a) l

/-- The argument of `flip`; any other string is a `ValueError`.  `/repo/draftsman/classes/transformable.py:153-183`. -/
inductive FlipArg where
  | horizontal | vertical | other
  deriving DecidableEq, Repr

/-- One step of `flip`, `/repo/draftsman/classes/transformable.py:190-200`. -/
def flipStep (f : FlipArg) (e : PEnt) : Except PyErr PEnt := do
  let e' ← turnBy e (fun d =>
    if f = .horizontal then ((-2 * (d - 8)) % 16) % 16 else (((-2 * d) % 16) - 8) % 16)
  let m : ℚ × ℚ := if f = .horizontal then (-1, 1) else (1, -1)
  e'.setPosition (.tuple (e.pos.x * m.1) (e.pos.y * m.2))

/-- The tile step of `flip`, `/repo/draftsman/classes/transformable.py:215-219`. -/
def flipTile (f : FlipArg) (t : PTile) : PTile :=
  let m : ℚ × ℚ := if f = .horizontal then (-1, 1) else (1, -1)
  tileAt (((t.x : ℚ) + 1/2) * m.1 - 1/2) (((t.y : ℚ) + 1/2) * m.2 - 1/2)

/-- `Transformable.flip`, `/repo/draftsman/classes/transformable.py:153-224`, with `flippable` from
`/repo/draftsman/classes/collection.py:89-100`. -/
def flip (l : Layout) (f : FlipArg) : Outcome :=
  if l.entities.any (fun e => !e.flippable) then (l, some .flipping)
  else if f = .other then (l, some .valueError)
  else transformWith (flipStep f) (flipTile f) l

end Draftsman
