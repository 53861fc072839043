import Verif.Model.Py
/-
Upgrade planner mappings: `/repo/draftsman/classes/upgrade_planner.py:598-718`.
-/
namespace Draftsman
namespace Upgrade

/-- A mapping target: the `"name"` and `"type"` of `MapperID`, `/repo/draftsman/signatures.py:250-258`. -/
structure Id where
  name : String
  type : String
  deriving DecidableEq, Repr

/-- An entry of `mappers`.  `plain` tells the dictionaries stored by `set_mapping` (`/repo/draftsman/classes/upgrade_planner.py:627-632`, where
a blank side has no key) from the `Mapper` models an import or a validated assignment stores
(`/repo/draftsman/signatures.py:283-305`; their `from` and `to` are `MapperID` models).  A model never equals a dictionary. -/
structure Ent where
  index : Int
  frm : Option Id
  to : Option Id
  plain : Bool
  deriving DecidableEq, Repr

/-- `settings["mappers"]`: `None` or a list, `/repo/draftsman/classes/upgrade_planner.py:572`. -/
abbrev S := Option (List Ent)

/-- The loop of `bisect.bisect_right(a, x, lo, hi, key=...)`, called by `bisect.insort` at
`/repo/draftsman/classes/upgrade_planner.py:642`. -/
def bisect (a : List Ent) (x : Int) (lo hi : Nat) : Nat :=
  if _h : lo < hi then
    match a[(lo + hi) / 2]? with
    | none => lo
    | some e => if x < e.index then bisect a x lo ((lo + hi) / 2) else bisect a x ((lo + hi) / 2 + 1) hi
  else lo
termination_by hi - lo
decreasing_by all_goals omega

/-- `bisect.insort(self.mappers, new_mapping, key=lambda x: x["index"])`: `/repo/draftsman/classes/upgrade_planner.py`, line 642. -/
def insort (a : List Ent) (e : Ent) : List Ent := a.insertIdx (bisect a e.index 0 a.length) e

/-- `set_mapping`: `/repo/draftsman/classes/upgrade_planner.py:620-642`, after `mapper_dict` and `int` have accepted the arguments
(they fail before anything is changed). -/
def setMapping (s : S) (f t : Option Id) (i : Int) : S :=
  let l := s.getD []
  match l.findIdx? (fun e => e.index == i) with
  | some k => some (l.set k ⟨i, f, t, true⟩)
  | none => some (insort l ⟨i, f, t, true⟩)

/-- `mapping.get("from", None) == from_obj`, `/repo/draftsman/classes/upgrade_planner.py`, line 682: a model on the left never equals a dictionary. -/
def sideEq (plain : Bool) : Option Id → Option Id → Bool
  | none, none => true
  | some a, some b => plain && a == b
  | _, _ => false

/-- `mapping == {"from": …, "to": …, "index": …}` as `list.remove` tests it, `/repo/draftsman/classes/upgrade_planner.py`, line 692-693: both keys have to be there. -/
def entryEq (e : Ent) (f t : Option Id) (i : Int) : Bool :=
  e.plain && e.index == i && e.frm.isSome && e.to.isSome && e.frm == f && e.to == t

/-- `remove_mapping`: `/repo/draftsman/classes/upgrade_planner.py:678-693`. -/
def removeMapping (s : S) (f t : Option Id) (i : Option Int) : S × Option PyErr :=
  match i, s with
  | none, none => (none, some .typeError)
  | some _, none => (none, some .attributeError)
  | none, some l =>
    match l.findIdx? (fun e => sideEq e.plain e.frm f && sideEq e.plain e.to t) with
    | some k => (some (l.eraseIdx k), none)
    | none => (some l, some .valueError)
  | some i, some l =>
    match l.findIdx? (fun e => entryEq e f t i) with
    | some k => (some (l.eraseIdx k), none)
    | none => (some l, some .valueError)

/-- `pop_mapping`: `/repo/draftsman/classes/upgrade_planner.py:714-718`. -/
def popMapping (s : S) (i : Int) : S × Except PyErr Ent :=
  match s with
  | none => (none, .error .typeError)
  | some l =>
    match l.findIdx? (fun e => e.index == i) with
    | some k =>
      match l[k]? with
      | some e => (some (l.eraseIdx k), .ok e)
      | none => (some l, .error .indexError)
    | none => (some l, .error .valueError)

/-- A call on the planner.  Part of the model only: the methods are `/repo/draftsman/classes/upgrade_planner.py:598-718`. -/
inductive Op where
  | set (f t : Option Id) (i : Int)
  | remove (f t : Option Id) (i : Option Int)
  | pop (i : Int)
  deriving DecidableEq, Repr

/-- The planner after a call, failing or not.  Part of the model only: the methods are `/repo/draftsman/classes/upgrade_planner.py:598-718`. -/
def Op.run (s : S) : Op → S
  | .set f t i => setMapping s f t i
  | .remove f t i => (removeMapping s f t i).1
  | .pop i => (popMapping s i).1

/-! ## Upgrade pairs -/

/-- What `minable` holds when it is truthy: `results` (the names), else `result`, else neither
(`/repo/draftsman/classes/upgrade_planner.py:151-154`). -/
inductive Mined where
  | results (names : List String)
  | result (name : String)
  | neither
  deriving DecidableEq, Repr

/-- The parts of an entity prototype `check_valid_upgrade_pair` reads (`/repo/draftsman/classes/upgrade_planner.py:139-203`); `minable` is
`none` when the key is missing or falsy; boxes, masks and groups are only ever compared, so they are numbers here. -/
structure Proto where
  flags : List String
  minable : Option Mined
  type : Option String
  box : Option Nat
  mask : Option Nat
  group : Option Nat
  deriving DecidableEq, Repr

/-- An item prototype: its `flags`, and what it builds (which the function does not read).  Read at `/repo/draftsman/classes/upgrade_planner.py:156-164`. -/
structure Item where
  flags : List String
  builds : Option String
  deriving DecidableEq, Repr

/-- `entities.raw` and `items.raw`.  `/repo/draftsman/data/entities.py:19` and `/repo/draftsman/data/items.py:12`. -/
structure Tables where
  ent : String → Option Proto
  item : String → Option Item

/-- The reasons a warning gives, in the order of the function.  `/repo/draftsman/classes/upgrade_planner.py:44-214`. -/
inductive Reason where
  | unknown (name : String)
  | same
  | typesDiffer
  | notUpgradable
  | notMinable
  | hidden (item : String)
  | rollingStock
  | box
  | mask
  | group
  deriving DecidableEq, Repr

/-- The loop over the mined items, `/repo/draftsman/classes/upgrade_planner.py`, lines 156-164: the first hidden one, or `KeyError` for a name that is no item. -/
def firstHidden (T : Tables) : List String → Except PyErr (Option String)
  | [] => .ok none
  | n :: r =>
    match T.item n with
    | none => .error .keyError
    | some it => if "hidden" ∈ it.flags then .ok (some n) else firstHidden T r

/-- Is a name in neither table, `/repo/draftsman/classes/upgrade_planner.py`, lines 65-69 and 75-79. -/
def unrecognised (T : Tables) (o : Option Id) : List Reason :=
  match o with
  | none => []
  | some x => if (T.ent x.name).isNone && (T.item x.name).isNone then [.unknown x.name] else []

/-- The names collected at `/repo/draftsman/classes/upgrade_planner.py`, lines 151-154. -/
def minedItems : Mined → Except PyErr (List String)
  | .results ns => .ok ns
  | .result n => .ok [n]
  | .neither => .error .keyError

/-- `/repo/draftsman/classes/upgrade_planner.py`, lines 166-214. -/
def checkShape (a b : Proto) : Option (List Reason) :=
  if a.type = some "locomotive" ∨ a.type = some "cargo-wagon" ∨ a.type = some "fluid-wagon" ∨ a.type = some "artillery-wagon" then
    some [.rollingStock]
  else if a.box ≠ b.box then some [.box]
  else if a.mask ≠ b.mask then some [.mask]
  else if a.group ≠ b.group then some [.group]
  else none

/-- `/repo/draftsman/classes/upgrade_planner.py`, lines 135-214, for two names. -/
def checkEntities (T : Tables) (fn tn : String) : Except PyErr (Option (List Reason)) :=
  match T.ent fn, T.ent tn with
  | some a, some b =>
    if "not-upgradable" ∈ a.flags then .ok (some [.notUpgradable])
    else
      match a.minable with
      | none => .ok (some [.notMinable])
      | some m =>
        match minedItems m with
        | .error e => .error e
        | .ok ns =>
          match firstHidden T ns with
          | .error e => .error e
          | .ok (some n) => .ok (some [.hidden n])
          | .ok none => .ok (checkShape a b)
  | _, _ => .error .keyError

/-- `check_valid_upgrade_pair`: `/repo/draftsman/classes/upgrade_planner.py:60-214`. -/
def checkPair (T : Tables) (f t : Option Id) : Except PyErr (Option (List Reason)) :=
  match unrecognised T f ++ unrecognised T t with
  | r :: rs => .ok (some (r :: rs))
  | [] =>
    match f, t with
    | some f, some t =>
      if f = t then .ok (some [.same])
      else if f.type ≠ t.type then .ok (some [.typesDiffer])
      else if f.type = "item" ∧ t.type = "item" then .ok none
      else checkEntities T f.name t.name
    | _, _ => .ok none

end Upgrade
end Draftsman
