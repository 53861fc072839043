import Verif.Model.Wires
/-
Automatic copper wires: `/repo/draftsman/classes/collection.py:657-730`.
-/
namespace Draftsman
namespace Power

/-- What the method reads of an electric pole: what `==` compares, `global_position` and `maximum_wire_distance`
(`/repo/draftsman/classes/mixins/power_connectable.py:44-52`): that of a prototype of type `"electric-pole"`, which is never `None`. -/
structure Pole where
  el : EL
  pos : Vec
  reach : Rat

/-- The square of `distance`, `/repo/draftsman/utils.py:501-511`.  Distances are compared through their squares, without the rounding of `sqrt`. -/
def dist2 (p q : Pole) : Rat := (p.pos.x - q.pos.x) * (p.pos.x - q.pos.x) + (p.pos.y - q.pos.y) * (p.pos.y - q.pos.y)

/-- `x.global_position.x == cur_pole.global_position.x or x.global_position.y == cur_pole.global_position.y`,
`/repo/draftsman/classes/collection.py:719-722` (and negated, 688-691). -/
def onAxis (p q : Pole) : Bool := decide (p.pos.x = q.pos.x) || decide (p.pos.y = q.pos.y)

/-- `power_connectable`, `/repo/draftsman/classes/collection.py:682-705`. -/
def connectable (onlyAxis : Bool) (cur other : Pole) : Bool :=
  if other.el.uid = cur.el.uid then false
  else if !onAxis cur other && onlyAxis then false
  else
    let r := min cur.reach other.reach
    decide (0 ≤ r) && decide (dist2 cur other ≤ r * r)

/-- `list.sort`: Python built-in, stable, here by insertion. -/
def insertBy (le : Pole → Pole → Bool) (a : Pole) : List Pole → List Pole
  | [] => [a]
  | b :: r => if le a b then a :: b :: r else b :: insertBy le a r

/-- `list.sort`: Python built-in, stable, here by insertion. -/
def sortBy (le : Pole → Pole → Bool) : List Pole → List Pole
  | [] => []
  | a :: r => insertBy le a (sortBy le r)

/-- `potential_neighbours` after sorting, `/repo/draftsman/classes/collection.py:707-723`. -/
def candidates (poles : List Pole) (preferAxis onlyAxis : Bool) (cur : Pole) : List Pole :=
  let near := poles.filter (connectable onlyAxis cur)
  let sorted := sortBy (fun a b => decide (dist2 a cur ≤ dist2 b cur)) near
  if preferAxis then sortBy (fun a b => onAxis a cur || !onAxis b cur) sorted else sorted

/-- The loop over one pole's neighbours, `/repo/draftsman/classes/collection.py:726-730`; `pop` takes the last one first. -/
def connectAll (cur : Pole) : List Pole → WColl → Except PyErr (WColl × List WireWarn)
  | [], c => .ok (c, [])
  | q :: qs, c =>
    match c.addPower cur.el q.el "input" "input" with
    | .error e => .error e
    | .ok (c', ws) => (connectAll cur qs c').map fun r => (r.1, ws ++ r.2)

/-- The loop over poles, `/repo/draftsman/classes/collection.py:680-730`. -/
def loop (poles : List Pole) (preferAxis onlyAxis : Bool) : List Pole → WColl → Except PyErr (WColl × List WireWarn)
  | [], c => .ok (c, [])
  | p :: ps, c =>
    match connectAll p (candidates poles preferAxis onlyAxis p).reverse c with
    | .error e => .error e
    | .ok (c', ws) => (loop poles preferAxis onlyAxis ps c').map fun r => (r.1, ws ++ r.2)

/-- `generate_power_connections`, `/repo/draftsman/classes/collection.py:657-730`; `poles` is what `find_entities_filtered(type="electric-pole")` returns. -/
def generate (c : WColl) (poles : List Pole) (preferAxis onlyAxis : Bool) : Except PyErr (WColl × List WireWarn) :=
  loop poles preferAxis onlyAxis poles c

end Power
end Draftsman
