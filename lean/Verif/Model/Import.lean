import Verif.Model.Export
/-
Making a blueprint or a group from a dictionary: what becomes of the references, and of the dictionary.
-/
namespace Draftsman
namespace Import

/-- What stands where an entity is referred to: a number, or an `Association` to an object.
`/repo/draftsman/classes/blueprint.py:620` and 627-631; `/repo/draftsman/classes/association.py:14-39`. -/
inductive Ref where
  | num (k : Int)
  | obj (u : Nat)
  deriving DecidableEq, Repr

/-- A wire `[entity, terminal, entity, terminal]`, a list object that is changed in place.
`/repo/draftsman/classes/blueprint.py:625-631`. -/
structure RWire where
  e1 : Ref
  t1 : Nat
  e2 : Ref
  t2 : Nat
  deriving DecidableEq, Repr

/-- An element of the list of entities: a dictionary, as it is at the moment (`name` is `none` when the key is missing, `number` is its
`entity_number`, `rest` everything else), or an instance.  All elements are taken to be different objects.
`/repo/draftsman/classes/entity_list.py:98-104`. -/
inductive EntArg where
  | dict (name : Option Nat) (number : Option Int) (rest : Nat)
  | inst (u : Nat)
  deriving DecidableEq, Repr

/-- A schedule handed over: a dictionary, whose list of locomotives is copied, or a `Schedule`, which is taken as it is.
`/repo/draftsman/classes/schedule_list.py:24-28` and `/repo/draftsman/classes/schedule.py:479-482`. -/
structure SchedArg where
  inst : Bool
  locos : List Ref
  deriving DecidableEq, Repr

/-- The caller's dictionary, of which only the lists that hold references are kept.
`/repo/draftsman/classes/blueprint.py:494-512`. -/
structure Arg where
  ents : List EntArg
  scheds : List SchedArg
  wires : Option (List RWire)
  deriving DecidableEq, Repr

/-- The blueprint made: its entity objects, the locomotives of its schedules and its wires.
`/repo/draftsman/classes/blueprint.py:552-575`. -/
structure Loaded where
  ents : List Nat
  locos : List (List Ref)
  wires : List RWire
  deriving DecidableEq, Repr

/-- The loop of `EntityList.__init__`, `/repo/draftsman/classes/entity_list.py:98-108`: the elements as they are left, and the
exception if there is one.  `elem.pop("name")` takes the key out of the caller's dictionary.  Making the entity itself is taken to
succeed. -/
def loadEnts : List EntArg → List EntArg × Option PyErr
  | [] => ([], none)
  | .inst u :: t => (.inst u :: (loadEnts t).1, (loadEnts t).2)
  | .dict none n r :: t => (.dict none n r :: t, some .keyError)
  | .dict (some _) n r :: t => (.dict none n r :: (loadEnts t).1, (loadEnts t).2)

/-- The objects made by that loop, counted from `fresh`: every element becomes a new object, a dictionary through `new_entity` and an
instance through `deepcopy`.  `/repo/draftsman/classes/entity_list.py:269-281`. -/
def objects (fresh n : Nat) : List Nat := (List.range n).map (fresh + ·)

/-- `Association(self.entities[number - 1])` if it is an `int`, otherwise as it is.  `/repo/draftsman/classes/blueprint.py:620-622` and
627-631. -/
def resolve (ents : List Nat) : Ref → Except PyErr Ref
  | .obj u => .ok (.obj u)
  | .num k => match EList.pyIndex ents (k - 1) with
    | none => .error .indexError
    | some i => match ents[i]? with
      | none => .error .indexError
      | some u => .ok (.obj u)

/-- A list of references converted in place from the left, stopping at the first exception.
`/repo/draftsman/classes/blueprint.py:619-622`. -/
def convRefs (ents : List Nat) : List Ref → List Ref × Option PyErr
  | [] => ([], none)
  | r :: t => match resolve ents r with
    | .error e => (r :: t, some e)
    | .ok r' => (r' :: (convRefs ents t).1, (convRefs ents t).2)

/-- The loop over the schedules, `/repo/draftsman/classes/blueprint.py:618-622`: the locomotives of the blueprint's schedules, the
schedules handed over as they are left, the exception if there is one. -/
def convScheds (ents : List Nat) : List SchedArg → List (List Ref) × List SchedArg × Option PyErr
  | [] => ([], [], none)
  | s :: t =>
    let c := convRefs ents s.locos
    let s' := if s.inst then { s with locos := c.1 } else s
    match c.2 with
    | some e => (c.1 :: t.map (·.locos), s' :: t, some e)
    | none =>
      let r := convScheds ents t
      (c.1 :: r.1, s' :: r.2.1, r.2.2)

/-- The loop over the wires, `/repo/draftsman/classes/blueprint.py:625-631`. -/
def convWires (ents : List Nat) : List RWire → List RWire × Option PyErr
  | [] => ([], none)
  | w :: t => match resolve ents w.e1 with
    | .error e => (w :: t, some e)
    | .ok r1 => match resolve ents w.e2 with
      | .error e => ({ w with e1 := r1 } :: t, some e)
      | .ok r2 => ({ w with e1 := r1, e2 := r2 } :: (convWires ents t).1, (convWires ents t).2)

/-- The part of `Blueprint.setup` that deals with references, `/repo/draftsman/classes/blueprint.py:552-631`: the dictionary as it is
left, and the blueprint or the exception.  The blueprint keeps the caller's list of wires (575), so that both change.  Validation at
the end (634-635) is left out. -/
def setup (fresh : Nat) (a : Arg) : Arg × Except PyErr Loaded :=
  let l := loadEnts a.ents
  let es := objects fresh a.ents.length
  match l.2 with
  | some e => ({ a with ents := l.1 }, .error e)
  | none =>
    let s := convScheds es a.scheds
    match s.2.2 with
    | some e => ({ a with ents := l.1, scheds := s.2.1 }, .error e)
    | none => match a.wires with
      | none => ({ a with ents := l.1, scheds := s.2.1 }, .ok ⟨es, s.1, []⟩)
      | some ws =>
        let c := convWires es ws
        let a' : Arg := { ents := l.1, scheds := s.2.1, wires := some c.1 }
        match c.2 with
        | some e => (a', .error e)
        | none => (a', .ok ⟨es, s.1, c.1⟩)

/-- The group made from a blueprint string; `wires` is `none` when the attribute `_wires` was never set.
`/repo/draftsman/classes/group.py:209-229`. -/
structure Grp where
  ents : List Nat
  locos : List (List Ref)
  wires : Option (List RWire)
  deriving DecidableEq, Repr

/-- `Group.load_from_string`, `/repo/draftsman/classes/group.py:148-206`, with `setup`, 209-229, for the dictionary that the string
holds: fresh, with a name in every entity, schedules as dictionaries and numbers everywhere (the conversion of locomotives has no
`isinstance` test).  The attributes `connections` and `neighbours` of older versions are left out. -/
def groupLoad (fresh : Nat) (a : Arg) : Except PyErr Grp :=
  let l := loadEnts a.ents
  let es := objects fresh a.ents.length
  match l.2 with
  | some e => .error e
  | none =>
    let s := convScheds es a.scheds
    match s.2.2 with
    | some e => .error e
    | none => .ok ⟨es, s.1, a.wires⟩

/-- `Group.wires`, `/repo/draftsman/classes/group.py:482-487`. -/
def Grp.getWires (g : Grp) : Except PyErr (List RWire) :=
  match g.wires with
  | none => .error .attributeError
  | some ws => .ok ws

/-- One end of a wire on export, `wire[0]()`: a number cannot be called.  `/repo/draftsman/classes/blueprint.py:256`. -/
def callRef : Ref → Except PyErr Nat
  | .num _ => .error .typeError
  | .obj u => .ok u

/-- The entities at the ends of the wires of a group, as the exporter asks for them: `flatten_wires` reads the attribute
(`/repo/draftsman/classes/blueprint.py:240-248`), then every end is called (256-257). -/
def Grp.wireEnds (g : Grp) : Except PyErr (List (Nat × Nat)) := do
  let ws ← g.getWires
  ws.mapM fun w => do
    let u ← callRef w.e1
    let v ← callRef w.e2
    pure (u, v)

end Import
end Draftsman
