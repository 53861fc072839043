import Verif.Model.Dict
import Verif.Model.Py
/-
Instruments and notes of programmable speakers: `/repo/draftsman/data/instruments.py:15-51`, `/repo/draftsman/environment/update.py:1198-1228`,
`/repo/draftsman/prototypes/programmable_speaker.py:675-831`.
-/
namespace Draftsman
namespace Instruments

/-- An entry of the list of instruments: its name and the names of its notes.  `/repo/draftsman/data/instruments.py:41`. -/
structure Inst where
  name : String
  notes : List String
  deriving DecidableEq

/-- The three tables for one speaker, `/repo/draftsman/data/instruments.py:15-19`.  The key `"self"` of an entry of `name_of` is `none`. -/
structure Tables where
  raw : List Inst
  indexOf : Dict String (Dict String Int)
  nameOf : Dict Int (Dict (Option Int) String)
  deriving DecidableEq

/-- `{"self": i, **{notes[j]: j}}`: `/repo/draftsman/data/instruments.py:45-46`, `/repo/draftsman/environment/update.py:1216-1221`. -/
def indexEntry (i : Int) (notes : List String) : Dict String Int :=
  (notes.mapIdx fun j n => (n, (j : Int))).foldl (fun d p => d.set p.1 p.2) [("self", i)]

/-- `{"self": name, **{j: notes[j]}}`: `/repo/draftsman/data/instruments.py:49-50`, `/repo/draftsman/environment/update.py:1218-1222`. -/
def nameEntry (name : String) (notes : List String) : Dict (Option Int) String :=
  (notes.mapIdx fun j n => (some (j : Int), n)).foldl (fun d p => d.set p.1 p.2) [(none, name)]

/-- `extract_instruments` for one speaker, `/repo/draftsman/environment/update.py:1211-1224`. -/
def extract (raw : List Inst) : Tables where
  raw := raw
  indexOf := (raw.mapIdx fun i x => (x.name, indexEntry i x.notes)).foldl (fun d p => d.set p.1 p.2) []
  nameOf := (raw.mapIdx fun i x => ((i : Int), nameEntry x.name x.notes)).foldl (fun d p => d.set p.1 p.2) []

/-- `list.insert`: Python built-in. -/
def insertAt (l : List Inst) (i : Int) (x : Inst) : List Inst :=
  let k := if i < 0 then ((l.length : Int) + i).toNat else i.toNat
  l.take k ++ x :: l.drop k

/-- `add_instrument` for one speaker, `/repo/draftsman/data/instruments.py:35-50`. -/
def add (t : Tables) (name : String) (notes : List String) (index : Option Int) : Tables :=
  let i : Int := index.getD t.raw.length
  { raw := insertAt t.raw i ⟨name, notes⟩
    indexOf := t.indexOf.set name (indexEntry i notes)
    nameOf := t.nameOf.set i (nameEntry name notes) }

/-- `add_instrument`, `/repo/draftsman/data/instruments.py:21-50`; `speakers` is `entities.of_type["programmable-speaker"]`. -/
def addInstrument (speakers : List String) (d : Dict String Tables) (name : String) (notes : List String) (index : Option Int) (entity : String) :
    Except PyErr (Dict String Tables) :=
  if entity ∈ speakers then
    match d.get? entity with
    | none => .error .keyError
    | some t => .ok (d.set entity (add t name notes index))
  else .error .typeError

/-- What a speaker stores, `/repo/draftsman/prototypes/programmable_speaker.py:67-94`: the two numbers. -/
structure Speaker where
  instrument : Option Int
  note : Option Int
  deriving DecidableEq

/-- `instrument_name`, `/repo/draftsman/prototypes/programmable_speaker.py:731-735`. -/
def getInstrument (t : Tables) (s : Speaker) : Option String :=
  match s.instrument with
  | none => none
  | some i => (t.nameOf.get? i).bind fun e => e.get? none

/-- The setter of `instrument_name`, `/repo/draftsman/prototypes/programmable_speaker.py:738-756`; a name that is not known gives a warning and is taken as `None`. -/
def setInstrument (t : Tables) (s : Speaker) (v : Option String) : Speaker :=
  match v with
  | none => { s with instrument := none }
  | some n => { s with instrument := (t.indexOf.get? n).bind fun e => e.get? "self" }

/-- The setters of `instrument_id` and `note_id`, `/repo/draftsman/prototypes/programmable_speaker.py:693-704` and 777-788: a `uint32` (`/repo/draftsman/signatures.py:46-50`) or
`None`, unless assignments are not validated. -/
def checkId (validate : Bool) (v : Option Int) : Except PyErr (Option Int) :=
  match v with
  | none => .ok none
  | some i => if validate && !(decide (0 ≤ i) && decide (i < 2 ^ 32)) then .error .dataFormat else .ok (some i)

/-- `note_name`, `/repo/draftsman/prototypes/programmable_speaker.py:804-808`.  A number given as note is looked up as it is, and `None` finds nothing. -/
def getNote (t : Tables) (s : Speaker) : Option String :=
  match s.instrument, s.note with
  | some i, some j => (t.nameOf.get? i).bind fun e => e.get? (some j)
  | _, _ => none

/-- The setter of `note_name`, `/repo/draftsman/prototypes/programmable_speaker.py:811-831`. -/
def setNote (t : Tables) (s : Speaker) (v : Option String) : Speaker :=
  match v with
  | none => { s with note := none }
  | some n =>
    { s with note := match getInstrument t s with
      | none => none
      | some x => (t.indexOf.get? x).bind fun e => e.get? n }

/-- `CircuitParameters`, `/repo/draftsman/prototypes/programmable_speaker.py:57-95`: the numbers, and the two fields for names, which are compared but not
exported. -/
structure Params where
  ids : Speaker
  instName : Option String
  noteName : Option String
  deriving DecidableEq

/-- The setter of `instrument_name` with all it stores: checking the name stores it (`/repo/draftsman/classes/exportable.py:32-38`).
`/repo/draftsman/prototypes/programmable_speaker.py:738-756`. -/
def assignInstrument (validate : Bool) (t : Tables) (p : Params) (v : Option String) : Params :=
  { p with ids := setInstrument t p.ids v, instName := if validate then v else p.instName }

/-- The setter of `note_name` in the same way, `/repo/draftsman/prototypes/programmable_speaker.py:811-831`. -/
def assignNote (validate : Bool) (t : Tables) (p : Params) (v : Option String) : Params :=
  { p with ids := setNote t p.ids v, noteName := if validate then v else p.noteName }

end Instruments
end Draftsman
