import Verif.Model.Trains
import Verif.Model.Direction
import Verif.Model.Search
/-
Searching for trains: `/repo/draftsman/classes/collection.py:1443-1655`.
-/
namespace Draftsman
namespace TrainSearch

/-- A number or a range in a query: `int`, or a pair with `None` for no bound.  `/repo/draftsman/classes/collection.py:1541-1553`. -/
inductive Range where
  | exact (n : Int)
  | between (lo hi : Option Int)
  deriving DecidableEq

/-- `normalize_range`, `/repo/draftsman/classes/collection.py:1541-1553`; `none` for `math.inf`. -/
def normalize : Range → Int × Option Int
  | .exact n => (n, some n)
  | .between lo hi => (lo.getD 0, hi)

/-- `a <= n <= b`, `/repo/draftsman/classes/collection.py:1604`, 1623 and 1628. -/
def inRange (r : Int × Option Int) (n : Nat) : Bool :=
  decide (r.1 ≤ n) && (match r.2 with | none => true | some b => decide ((n : Int) ≤ b))

/-- `at_station`: false, true, or a set of names (a single name becomes a set, `/repo/draftsman/classes/collection.py:1558-1559`). -/
inductive Station where
  | off | any | names (s : List String)
  deriving DecidableEq

/-- A train stop: position, direction and name, `None` unless given (`/repo/draftsman/prototypes/train_stop.py:168`).
`/repo/draftsman/classes/collection.py:1594-1596`. -/
structure Stop where
  pos : Vec
  dir : Direction
  name : Option String
  deriving DecidableEq

/-- What the search reads of a collection: wagons and stops in the order of the entity list, type and name of each wagon, schedules.
`/repo/draftsman/classes/collection.py:1512-1517`. -/
structure Coll where
  wagons : List Wagon
  stops : List Stop
  typeOf : Nat → String
  nameOf : Nat → String
  scheds : List Sched

/-- The arguments of `find_trains_filtered`, `/repo/draftsman/classes/collection.py:1443-1454`; a configuration is the names of its cars
(`equivalent_cars`, 1573-1582), a schedule its stops. -/
structure Query where
  length : Option Range
  orientation : Option ℚ
  station : Station
  numType : Option (Dict String Range)
  numName : Option (Dict String Range)
  config : Option (List String)
  schedule : Option Nat
  invert : Bool
  limit : Option Int

/-- The trains, `/repo/draftsman/classes/collection.py:1518-1534`. -/
def allTrains (all : List Wagon) (fuel : Nat) : List (List Wagon) :=
  (all.foldl (fun (st : List Wagon × List (List Wagon)) w =>
    if w ∈ st.1 then st
    else
      let t := findTrain all fuel w
      (st.1 ++ t, st.2 ++ [t])) ([], [])).2

/-- `train_at_station`, `/repo/draftsman/classes/collection.py:1584-1602`; `none` for `False`, `some none` for a stop without a name. -/
def atStation (c : Coll) (train : List Wagon) : Except PyErr (Option (Option String)) :=
  match train with
  | [] => .error .indexError
  | w :: _ =>
    match (Orientation.mk' w.orient).toDirection with
    | .error e => .error e
    | .ok forward =>
      let right := forward.next true
      let f := forward.toVector (R := ℚ) 0 3
      let r := right.toVector (R := ℚ) 0 2
      let pos : Vec := ⟨w.pos.x + f.1 + r.1, w.pos.y + f.2 + r.2⟩
      .ok ((c.stops.find? fun s => decide (s.pos = pos) && decide (s.dir = forward)).map (·.name))

/-- `station_name in at_station`, `/repo/draftsman/classes/collection.py:1609-1611`: neither `False` nor `None` is a name. -/
def among (s : List String) : Option (Option String) → Bool
  | some (some n) => decide (n ∈ s)
  | _ => false

/-- `at_station` in `test`, `/repo/draftsman/classes/collection.py:1607-1618`; an empty set counts as false. -/
def stationOk (c : Coll) (q : Query) (train : List Wagon) : Except PyErr Bool :=
  match q.station with
  | .off => .ok true
  | .any => (atStation c train).map (·.isSome)
  | .names [] => .ok true
  | .names s => (atStation c train).map (among s)

/-- The counts by type or name, `/repo/draftsman/classes/collection.py:1619-1628`. -/
def countsOk (attr : Nat → String) (d : Option (Dict String Range)) (train : List Wagon) : Bool :=
  match d with
  | none => true
  | some d => d.all fun e => inRange (normalize e.2) (train.filter fun w => decide (attr w.uid = e.1)).length

/-- The orientation of all cars, `/repo/draftsman/classes/collection.py:1629-1632`: `!=` is that of `float`, which `Orientation` does not replace. -/
def orientOk (o : Option ℚ) (train : List Wagon) : Bool :=
  match o with
  | none => true
  | some v => train.all fun w => decide (w.orient = v)

/-- The configuration, `/repo/draftsman/classes/collection.py:1633-1638`. -/
def configOk (c : Coll) (cfg : Option (List String)) (train : List Wagon) : Bool :=
  match cfg with
  | none => true
  | some names => decide (train.map (fun w => c.nameOf w.uid) = names)

/-- The schedule, `/repo/draftsman/classes/collection.py:1639-1653`; the variable is left at the last locomotive, and unset without one. -/
def scheduleOk (c : Coll) (s : Option Nat) (train : List Wagon) : Except PyErr Bool :=
  match s with
  | none => .ok true
  | some stops =>
    match (train.filter fun w => decide (c.typeOf w.uid = "locomotive")).getLast?, c.scheds with
    | _, [] => .ok false
    | none, _ :: _ => .error .unboundLocal
    | some l, ss => .ok (ss.any fun f => decide (l.uid ∈ f.locos) && decide (f.rest = stops))

/-- The length, `/repo/draftsman/classes/collection.py:1604-1606`. -/
def lengthOk (l : Option Range) (train : List Wagon) : Bool :=
  match l with
  | none => true
  | some r => inRange (normalize r) train.length

/-- `test`, `/repo/draftsman/classes/collection.py:1604-1654`. -/
def test (c : Coll) (q : Query) (train : List Wagon) : Except PyErr Bool :=
  if !lengthOk q.length train then .ok false
  else
    match stationOk c q train with
    | .error e => .error e
    | .ok false => .ok false
    | .ok true =>
      if !countsOk c.typeOf q.numType train then .ok false
      else if !countsOk c.nameOf q.numName train then .ok false
      else if !orientOk q.orientation train then .ok false
      else if !configOk c q.config train then .ok false
      else scheduleOk c q.schedule train

/-- `list(filter(…))` with a test that can raise (Python built-in). -/
def filterE (p : List Wagon → Except PyErr Bool) : List (List Wagon) → Except PyErr (List (List Wagon))
  | [] => .ok []
  | t :: ts =>
    match p t with
    | .error e => .error e
    | .ok b =>
      match filterE p ts with
      | .error e => .error e
      | .ok r => .ok (if b then t :: r else r)

/-- `find_trains_filtered`, `/repo/draftsman/classes/collection.py:1443-1659`. -/
def findTrains (c : Coll) (fuel : Nat) (q : Query) : Except PyErr (List (List Wagon)) :=
  let trains := allTrains c.wagons fuel
  let limit : Int := match q.limit with | none => trains.length | some n => n
  (filterE (fun t => (test c q t).map fun b => if q.invert then !b else b) trains).map fun l => sliceTo l limit

end TrainSearch
end Draftsman
