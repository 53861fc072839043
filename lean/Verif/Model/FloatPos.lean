import Mathlib.Data.Int.Log
import Verif.Model.Group
import Verif.Model.Transform
/-
Positions computed in doubles: the formulas of `Verif.Model.Position`, `Verif.Model.Transform` and `Verif.Model.Group` again, each
operation followed by a rounding to 53 significant bits, as Python's `float` does.  Exponents are unbounded: infinities, NaN and
subnormal numbers are left out, and the two zeros are one.
-/
namespace Draftsman.FloatPos

/-- The weight of the last bit of the double nearest to `x`.  Part of the model only: the format of the `float`s in
`/repo/draftsman/classes/vector.py:93-110`. -/
def ulp (x : ℚ) : ℚ := (2 : ℚ) ^ (Int.log 2 |x| - 52)

/-- Rounding to the nearest double, ties to even.  Part of the model only: what every arithmetic operation of
`/repo/draftsman/classes/vector.py:138-172` does to `float`s, and the conversion of an `int` standing beside a `float`. -/
def rnd (x : ℚ) : ℚ := if x = 0 then 0 else pyRound (x / ulp x) * ulp x

/-- `a + b` of `float`s, as in `Vector.__add__`, `/repo/draftsman/classes/vector.py:138-142`. -/
def fadd (a b : ℚ) : ℚ := rnd (a + b)
/-- `a - b` of `float`s, as in `Vector.__sub__`, `/repo/draftsman/classes/vector.py:144-148`. -/
def fsub (a b : ℚ) : ℚ := rnd (a - b)
/-- `a * b` of `float`s, as in `/repo/draftsman/classes/transformable.py:120-123`. -/
def fmul (a b : ℚ) : ℚ := rnd (a * b)
/-- `tile_width / 2`, the quotient of an `int`, as in `/repo/draftsman/classes/entity.py:486-489`. -/
def half (n : ℕ) : ℚ := rnd (n / 2)

/-- `Entity.position` setter, `/repo/draftsman/classes/entity.py:477-490`, and for groups
`/repo/draftsman/classes/group.py:341-348`. -/
def setPosition (e : PEnt) (v : PosArg) : Except PyErr PEnt :=
  if e.held then .error .draftsmanError
  else match e.turning with
    | .group => .ok { e with pos := v.toFloat }
    | _ =>
      let p := v.toFloat
      .ok { e with pos := p, tile := ⟨pyRound (fsub p.x (half e.w)), pyRound (fsub p.y (half e.h))⟩ }

/-- `Entity.tile_position` setter, `/repo/draftsman/classes/entity.py:519-532`. -/
def setTilePosition (e : PEnt) (v : PosArg) : PEnt :=
  let t := v.toInt
  { e with tile := t, pos := ⟨fadd t.x (half e.w), fadd t.y (half e.h)⟩ }

/-- `DirectionalMixin.direction` setter, `/repo/draftsman/classes/mixins/directional.py:199-235`. -/
def setDirection4 (e : PEnt) (value : Option Int) : Except PyErr PEnt := do
  let d ← PEnt.checkDirection .fourWay e.mode value
  let swap := value = some 4 ∨ value = some 12
  let nw := if swap then e.sh else e.sw
  let nh := if swap then e.sw else e.sh
  let e' := { e with dir := d, w := nw, h := nh }
  if nw ≠ nh ∧ e.w ≠ nw ∧ e.h ≠ nh then
    return setTilePosition e' (.vector e'.tile)
  else return e'

/-- `EightWayDirectionalMixin.direction` setter,
`/repo/draftsman/classes/mixins/eight_way_directional.py:142-192`. -/
def setDirection8 (e : PEnt) (value : Option Int) : Except PyErr PEnt := do
  let d ← PEnt.checkDirection .eightWay e.mode value
  let swap := d = some 2 ∨ d = some 3 ∨ d = some 6 ∨ d = some 7
  let e' := { e with
    dir := d
    w := if swap then e.sh else e.sw
    h := if swap then e.sw else e.sh }
  return setTilePosition e' (.vector e'.tile)

/-- `entity.direction += k(entity.direction)`, `/repo/draftsman/classes/transformable.py:112-119` and `:190-197`; the setters move
the entity. -/
def turnBy (e : PEnt) (k : Int → Int) : Except PyErr PEnt :=
  match e.turning with
  | .fixed => .ok e
  | .group => .error .attributeError
  | .fourWay => match e.dir with
    | none => .error .typeError
    | some d => setDirection4 e (some (d + k d))
  | .eightWay => match e.dir with
    | none => .error .typeError
    | some d => setDirection8 e (some (d + k d))

/-- One step of `translate`, `/repo/draftsman/classes/transformable.py:50`: an `int` is added to a `float`, converted first. -/
def translateStep (x y : Int) (e : PEnt) : Except PyErr PEnt :=
  setPosition e (.vector ⟨fadd e.pos.x (rnd x), fadd e.pos.y (rnd y)⟩)

/-- `Transformable.translate`, `/repo/draftsman/classes/transformable.py:19-71`.  Tiles have `int` positions, which are added
exactly. -/
def translate (l : Layout) (x y : Int) : Outcome :=
  transformWith (translateStep x y) (fun t => ⟨t.x + x, t.y + y⟩) l

/-- One step of `rotate`, `/repo/draftsman/classes/transformable.py:112-123`. -/
def rotateStep (angle : Int) (e : PEnt) : Except PyErr PEnt := do
  let m := rotMatrix angle
  let e' ← turnBy e (fun _ => angle)
  setPosition e' (.tuple (fadd (fmul e.pos.x m.1) (fmul e.pos.y m.2.2.1)) (fadd (fmul e.pos.x m.2.1) (fmul e.pos.y m.2.2.2)))

/-- The tile step of `rotate`, `/repo/draftsman/classes/transformable.py:138-146`. -/
def rotateTile (angle : Int) (t : PTile) : PTile :=
  let m := rotMatrix angle
  let px := fadd (rnd t.x) (1/2)
  let py := fadd (rnd t.y) (1/2)
  tileAt (fsub (fadd (fmul px m.1) (fmul py m.2.2.1)) (1/2)) (fsub (fadd (fmul px m.2.1) (fmul py m.2.2.2)) (1/2))

/-- `Transformable.rotate`, `/repo/draftsman/classes/transformable.py:73-151`. -/
def rotate (l : Layout) (angle : Int) : Outcome :=
  let a := angle % 16
  if a % 4 ≠ 0 then (l, some .rotation)
  else transformWith (rotateStep a) (rotateTile a) l

/-- One step of `flip`, `/repo/draftsman/classes/transformable.py:190-200`. -/
def flipStep (f : FlipArg) (e : PEnt) : Except PyErr PEnt := do
  let e' ← turnBy e (fun d =>
    if f = .horizontal then ((-2 * (d - 8)) % 16) % 16 else (((-2 * d) % 16) - 8) % 16)
  let m : ℚ × ℚ := if f = .horizontal then (-1, 1) else (1, -1)
  setPosition e' (.tuple (fmul e.pos.x m.1) (fmul e.pos.y m.2))

/-- The tile step of `flip`, `/repo/draftsman/classes/transformable.py:215-219`. -/
def flipTile (f : FlipArg) (t : PTile) : PTile :=
  let m : ℚ × ℚ := if f = .horizontal then (-1, 1) else (1, -1)
  tileAt (fsub (fmul (fadd (rnd t.x) (1/2)) m.1) (1/2)) (fsub (fmul (fadd (rnd t.y) (1/2)) m.2) (1/2))

/-- `Transformable.flip`, `/repo/draftsman/classes/transformable.py:153-224`. -/
def flip (l : Layout) (f : FlipArg) : Outcome :=
  if l.entities.any (fun e => !e.flippable) then (l, some .flipping)
  else if f = .other then (l, some .valueError)
  else transformWith (flipStep f) (flipTile f) l

/-- `Entity.global_position`, `/repo/draftsman/classes/entity.py:536-555`, and `Group.global_position`,
`/repo/draftsman/classes/group.py:360-372`, with the step bound of `GHeap.globalPos`. -/
def globalPos (h : GHeap) : Nat → Nat → Vec
  | 0, u => (h u).pos
  | n + 1, u =>
    match (h u).parent with
    | none => (h u).pos
    | some p =>
      if (h p).kind = .blueprint then (h u).pos
      else ⟨fadd (globalPos h n p).x (h u).pos.x, fadd (globalPos h n p).y (h u).pos.y⟩

/-- The position written into the exported dictionary, `/repo/draftsman/classes/blueprint.py:1094-1099`: the global position less
`snapping_grid_position`. -/
def exported (h : GHeap) (n u : Nat) (g : Vec) : Vec :=
  ⟨fsub (globalPos h n u).x g.x, fsub (globalPos h n u).y g.y⟩

end Draftsman.FloatPos
