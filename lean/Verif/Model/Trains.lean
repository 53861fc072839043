import Verif.Model.Export
import Mathlib.Data.Rat.Floor
import Mathlib.Data.List.Dedup
import Mathlib.Data.List.Lattice
/-
Trains: `/repo/draftsman/classes/collection.py:1080-1441`.
-/
namespace Draftsman

/-- A `RollingStock` as train discovery sees it: object identity, position, orientation, `orientation.to_vector()` (sines and cosines,
taken as given) and whether it is a locomotive.  `/repo/draftsman/classes/mixins/orientation.py:39-110`, as read at `/repo/draftsman/classes/collection.py:1080-1441`. -/
structure Wagon where
  uid : Nat
  pos : Vec
  orient : ℚ
  vec : Vec
  loco : Bool
  deriving DecidableEq

namespace Wagon

/-- The square of `distance`, `/repo/draftsman/utils.py:501-512`; only comparisons of distances are used. -/
def dist2 (a b : Vec) : ℚ := (a.x - b.x) * (a.x - b.x) + (a.y - b.y) * (a.y - b.y)

/-- `Orientation.opposite`, `/repo/draftsman/constants.py:386-404`. -/
def opposite (o : ℚ) : ℚ := o + 1/2 - ⌊o + 1/2⌋

/-- The orientation test, `/repo/draftsman/classes/collection.py:1374-1382`. -/
def aligned (w n : Wagon) : Bool :=
  (decide (w.orient - 1/8 < n.orient) && decide (n.orient < w.orient + 1/8)) ||
  (decide (opposite w.orient - 1/8 < n.orient) && decide (n.orient < opposite w.orient + 1/8))

/-- `to_vector(m)`, `/repo/draftsman/constants.py:430-449`. -/
def toVec (v : Vec) (m : ℚ) : Vec := ⟨v.x * m, v.y * m⟩

/-- `neighbour_truck`, `/repo/draftsman/classes/collection.py:1383-1389`. -/
def truck (w n : Wagon) : Vec :=
  let a := n.pos + toVec n.vec 2
  let b := n.pos + toVec n.vec (-2)
  if dist2 w.pos a < dist2 w.pos b then a else b

/-- `forward_orientation.to_vector()`, `/repo/draftsman/classes/collection.py:1391-1398`; the vector of the opposite orientation is the
negated one. -/
def forward (w : Wagon) (backwards : Bool) : Vec := if backwards then toVec w.vec (-1) else w.vec

/-- `2.9 < distance(wagon_truck, neighbour_truck) <= 3.1`, `/repo/draftsman/classes/collection.py:1409` and 1419. -/
def coupledAt (p t : Vec) : Bool := decide (841/100 < dist2 p t) && decide (dist2 p t ≤ 961/100)

/-- "front", `/repo/draftsman/classes/collection.py:1407-1409`. -/
def front (w : Wagon) (backwards : Bool) (n : Wagon) : Bool := coupledAt (w.pos + toVec (w.forward backwards) 2) (truck w n)

/-- "back", `/repo/draftsman/classes/collection.py:1417-1419`. -/
def back (w : Wagon) (backwards : Bool) (n : Wagon) : Bool := coupledAt (w.pos + toVec (w.forward backwards) (-2)) (truck w n)

/-- `neighbour_is_backwards`, `/repo/draftsman/classes/collection.py:1396-1405`. -/
def isBackwards (w : Wagon) (backwards : Bool) (n : Wagon) : Bool :=
  decide (n.vec.x * (w.forward backwards).x + n.vec.y * (w.forward backwards).y < 0)

/-- The wagons found within 7.5 tiles, `/repo/draftsman/classes/collection.py:1362-1366`; the search is taken to be exact (C34). -/
def nearby (all : List Wagon) (w : Wagon) : List Wagon := all.filter fun n => decide (dist2 n.pos w.pos ≤ 225/4)

end Wagon

/-- `used_wagons`, the train so far, and `all_locos_backwards`, `/repo/draftsman/classes/collection.py:1342-1344`. -/
structure TState where
  used : List Wagon
  train : List Wagon
  allBack : Bool

/-- One pass of the loop over neighbours, `/repo/draftsman/classes/collection.py:1368-1425`; `recur` is the recursive call. -/
def visit (recur : Wagon → Bool → TState → TState) (w : Wagon) (bw : Bool) (st : TState) (x : Wagon) : TState :=
  if x ∈ st.used then st
  else if !w.aligned x then st
  else
    let xb := w.isBackwards bw x
    let st1 := if w.front bw x then recur x xb { st with used := x :: st.used, train := x :: st.train } else st
    if w.back bw x then recur x xb { st1 with used := x :: st1.used, train := st1.train ++ [x] } else st1

/-- `traverse_neighbours`, `/repo/draftsman/classes/collection.py:1346-1427`, with a bound on the depth of the recursion. -/
def traverse (all : List Wagon) : Nat → Wagon → Bool → TState → TState
  | 0, _, _, st => st
  | n + 1, w, bw, st =>
    (w.nearby all).foldl (visit (traverse all n) w bw) { st with allBack := if w.loco && !bw then false else st.allBack }

/-- `find_train_from_wagon`, `/repo/draftsman/classes/collection.py:1315-1441`. -/
def findTrain (all : List Wagon) (fuel : Nat) (w : Wagon) : List Wagon :=
  let st := traverse all fuel w false ⟨[w], [w], true⟩
  if st.allBack then st.train.reverse else st.train

/-- Collecting the trains of the given cars, `/repo/draftsman/classes/collection.py:1240-1248`; the set is a list without order of note. -/
def collectCars (all : List Wagon) (fuel : Nat) (cars : List Wagon) : List Wagon :=
  cars.foldl (fun acc c => if c ∈ acc then acc else acc ∪ findTrain all fuel c) []

/-- The locomotives among them, `/repo/draftsman/classes/collection.py:1250-1251`. -/
def trainLocos (all : List Wagon) (fuel : Nat) (cars : List Wagon) : List Nat :=
  ((collectCars all fuel cars).filter (·.loco)).map (·.uid)

/-- `Schedule.add_locomotive`, `/repo/draftsman/classes/schedule.py:542-558`. -/
def Sched.addLoco (s : Sched) (l : Nat) : Sched := if l ∈ s.locos then s else { s with locos := s.locos ++ [l] }

/-- Wiping, `/repo/draftsman/classes/collection.py:1253-1258`: the first occurrence of each locomotive goes. -/
def Sched.wipe (locos : List Nat) (s : Sched) : Sched := { s with locos := locos.foldl List.erase s.locos }

/-- The last schedule with the same stops, `/repo/draftsman/classes/collection.py:1262-1266`. -/
def lastWith (stops : Nat) (ss : List Sched) : Option Nat :=
  (ss.zipIdx.filter fun p => decide (p.1.rest = stops)).getLast?.map (·.2)

/-- `set_train_schedule`, `/repo/draftsman/classes/collection.py:1219-1276`, after the trains have been found: `locos` are their
locomotives (a set, in some order).  `rest` of a schedule stands for its stops. -/
def setSchedule (ss : List Sched) (locos : List Nat) (new : Option Sched) : List Sched :=
  let wiped := ss.map (Sched.wipe locos)
  match new with
  | none => wiped
  | some s =>
    match lastWith s.rest wiped with
    | some i => wiped.modify i fun t => locos.foldl Sched.addLoco t
    | none => wiped ++ [locos.foldl Sched.addLoco s]

/-- The loop over cars of `remove_train`, `/repo/draftsman/classes/collection.py:1292-1295`: `self.entities.remove(car)` deletes the first
equal entity and raises `ValueError` if there is none (`MutableSequence.remove`). -/
def removeCars : List EL → List EL → List EL × Option PyErr
  | es, [] => (es, none)
  | es, c :: r => if es.any (fun e => e.eqv c) then removeCars (es.eraseP fun e => e.eqv c) r else (es, some .valueError)

/-- `remove_train`, `/repo/draftsman/classes/collection.py:1278-1302`. -/
def removeTrain (es : List EL) (ss : List Sched) (isLoco : EL → Bool) (cars : List EL) : (List EL × List Sched) × Option PyErr :=
  match removeCars es cars with
  | (es', some e) => ((es', ss), some e)
  | (es', none) => ((es', ss.map (Sched.wipe ((cars.filter isLoco).map EL.uid).dedup)), none)

/-- How `add_train_at_position` (`/repo/draftsman/classes/collection.py:1119-1131`, comparing stops) and `add_train_at_station`
(1189-1201, comparing whole schedules) find the schedule to use. -/
def scheduleFor (atStation : Bool) (ss : List Sched) (s : Sched) : List Sched × Nat :=
  match ss.findIdx? fun t => if atStation then decide (s = t) else decide (s.rest = t.rest) with
  | some i => (ss, i)
  | none => (ss ++ [s], ss.length)

end Draftsman
