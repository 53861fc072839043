import Verif.Model.Direction
import Verif.Model.ValResult
import Verif.Model.Py
/-
`validate` of entities, tiles, their lists, groups, schedules, blueprints, planners and books.
Simplified: what the pydantic model of a class makes of its data is an arbitrary function (`World`), which either raises something that pydantic
does not catch, or collects warnings and gives a validation error or converted data; the size of a blueprint (`get_dimensions`) is a number kept
with it, as validating moves nothing; a mode given as a string is converted once, not again for each member.
-/
namespace Draftsman
namespace Validate
open ValResult (Issue Result iadd)

/-- What `Format.model_validate(self._root, …)` does: an exception that is no `ValidationError` goes through; otherwise the warnings collected,
and the error or the new model.  `/repo/draftsman/classes/entity.py:720-742`. -/
abbrev Run (D : Type) := Except PyErr (Except Issue D × List Issue)

/-- The fields of an entity, apart from its direction and orientation, which `validate` puts back as they were.  `/repo/draftsman/classes/entity.py:731-735`. -/
structure Ent (F D : Type) where
  root : F
  facing : D

/-- A member of an `EntityList`, with its id: an entity or a group, `/repo/draftsman/classes/entity_list.py:47-50`, `/repo/draftsman/classes/group.py:83`. -/
inductive Node (F D : Type) where
  | entity (id : Option String) (e : Ent F D)
  | group (id : Option String) (members : List (Node F D))

/-- `entitylike.id`, `/repo/draftsman/classes/entity_list.py:56`. -/
def Node.id {F D : Type} : Node F D → Option String
  | .entity i _ => i
  | .group i _ => i

/-- Blueprints, planners and books.  The schedules are a list of their own, `/repo/draftsman/classes/blueprint.py:291-294`; books as in
`/repo/draftsman/classes/blueprint_book.py:170`. -/
inductive Thing (F D T B S : Type) where
  | blueprint (b : B) (size : Nat × Nat) (entities : List (Node F D)) (tiles : List T) (schedules : List S)
  | planner (b : B)
  | book (b : B) (members : List (Thing F D T B S))

/-- The models of pydantic: of entities, tiles, schedules, and of blueprints, planners and books.  `/repo/draftsman/classes/entity.py:102-196`,
`/repo/draftsman/classes/tile.py:59-103`, `/repo/draftsman/classes/schedule.py:440-500`, `/repo/draftsman/classes/blueprint.py:289-451`. -/
structure World (F D T B S : Type) where
  entity : ValidationMode → F → D → Run (F × D)
  tile : ValidationMode → T → Run T
  schedule : ValidationMode → S → Run S
  own : ValidationMode → B → Run B

/-- `ValidationMode(mode)` of a string, `/repo/draftsman/constants.py:829-832`; any other value is a `ValueError`. -/
def modeOf (s : String) : Except PyErr ValidationMode :=
  if s = "none" then .ok .none else if s = "minimum" then .ok .minimum else if s = "strict" then .ok .strict
  else if s = "pedantic" then .ok .pedantic else .error .valueError

/-- `mode is ValidationMode.NONE and not force`, `/repo/draftsman/classes/entity.py:707`. -/
def skip (m : ValidationMode) (force : Bool) : Bool := decide (m = .none) && !force

/-- `Entity.validate`, `/repo/draftsman/classes/entity.py:700-744`. -/
def validateEntity {F D T B S : Type} (w : World F D T B S) (m : ValidationMode) (force : Bool) (e : Ent F D) : Ent F D × Except PyErr Result :=
  if skip m force then (e, .ok ⟨[], []⟩)
  else match w.entity m e.root e.facing with
    | .error x => (e, .error x)
    | .ok (.ok r, ws) => ({ e with root := r.1 }, .ok ⟨[], ws⟩)
    | .ok (.error i, ws) => (e, .ok ⟨[i], ws⟩)

/-- `Tile.validate`, `/repo/draftsman/classes/tile.py:263-293`: the converted data are not kept. -/
def validateTile {F D T B S : Type} (w : World F D T B S) (m : ValidationMode) (force : Bool) (t : T) : Except PyErr Result :=
  if skip m force then .ok ⟨[], []⟩
  else match w.tile m t with
    | .error x => .error x
    | .ok (.ok _, ws) => .ok ⟨[], ws⟩
    | .ok (.error i, ws) => .ok ⟨[i], ws⟩

/-- `Schedule.validate`, `/repo/draftsman/classes/schedule.py:651-683`. -/
def validateSchedule {F D T B S : Type} (w : World F D T B S) (m : ValidationMode) (force : Bool) (s : S) : S × Except PyErr Result :=
  if skip m force then (s, .ok ⟨[], []⟩)
  else match w.schedule m s with
    | .error x => (s, .error x)
    | .ok (.ok s', ws) => (s', .ok ⟨[], ws⟩)
    | .ok (.error i, ws) => (s, .ok ⟨[i], ws⟩)

/-- The loop of `ensure_no_duplicate_ids`, `/repo/draftsman/classes/entity_list.py:52-62`: true if it ends. -/
def distinct : List String → List (Option String) → Bool
  | _, [] => true
  | known, none :: r => distinct known r
  | known, some i :: r => if i ∈ known then false else distinct (i :: known) r

/-- The error for them, an `AssertionError` of a validator and so an error of pydantic, `/repo/draftsman/classes/entity_list.py:56-59`. -/
def duplicate : Issue := ⟨"DataFormatError", ["Cannot have two entities with the same id"]⟩

mutual
/-- `validate` of a member: that of the entity, or `Group.validate`, `/repo/draftsman/classes/group.py:557-573`. -/
def validateNode {F D T B S : Type} (w : World F D T B S) (m : ValidationMode) (force : Bool) : Node F D → Node F D × Except PyErr Result
  | .entity i e => let r := validateEntity w m force e; (.entity i r.1, r.2)
  | .group i l =>
    if skip m force then (.group i l, .ok ⟨[], []⟩)
    else
      let r := validateNodes w m force l
      (.group i r.1, r.2.map fun x => iadd ⟨if distinct [] (l.map Node.id) then [] else [duplicate], []⟩ x)
/-- The loop over the members, `/repo/draftsman/classes/entity_list.py:503-506`. -/
def validateNodes {F D T B S : Type} (w : World F D T B S) (m : ValidationMode) (force : Bool) :
    List (Node F D) → List (Node F D) × Except PyErr Result
  | [] => ([], .ok ⟨[], []⟩)
  | n :: l => match validateNode w m force n with
    | (n', .error x) => (n' :: l, .error x)
    | (n', .ok a) => match validateNodes w m force l with
      | (l', .error x) => (n' :: l', .error x)
      | (l', .ok b) => (n' :: l', .ok (iadd a b))
end

/-- `EntityList.validate`, `/repo/draftsman/classes/entity_list.py:472-508`: the ids of the members, then the members. -/
def validateEntities {F D T B S : Type} (w : World F D T B S) (m : ValidationMode) (force : Bool) (l : List (Node F D)) :
    List (Node F D) × Except PyErr Result :=
  if skip m force then (l, .ok ⟨[], []⟩)
  else
    let r := validateNodes w m force l
    (r.1, r.2.map fun x => iadd ⟨if distinct [] (l.map Node.id) then [] else [duplicate], []⟩ x)

/-- `TileList.validate`, `/repo/draftsman/classes/tile_list.py:149-185`. -/
def validateTiles {F D T B S : Type} (w : World F D T B S) (m : ValidationMode) (force : Bool) : List T → Except PyErr Result
  | [] => .ok ⟨[], []⟩
  | t :: l =>
    match validateTile w m force t with
    | .error x => .error x
    | .ok a => (validateTiles w m force l).map (iadd a)

/-- `check_if_unreasonable_size`, `/repo/draftsman/classes/blueprint.py:430-449`. -/
def tooLarge (m : ValidationMode) (size : Nat × Nat) : Bool := !m.le .minimum && (decide (size.1 > 10000) || decide (size.2 > 10000))

/-- `Blueprintable.validate`, `/repo/draftsman/classes/blueprintable.py:497-528`, of a blueprint: an `UnreasonablySizedBlueprintError` is no `ValueError`, so
that it goes through (`/repo/draftsman/error.py:56`); the check runs only if the fields are valid. -/
def validateOwn {F D T B S : Type} (w : World F D T B S) (m : ValidationMode) (force : Bool) (large : Bool) (b : B) : Except PyErr Result :=
  if skip m force then .ok ⟨[], []⟩
  else match w.own m b with
    | .error x => .error x
    | .ok (.ok _, ws) => if large then .error .draftsmanError else .ok ⟨[], ws⟩
    | .ok (.error i, ws) => .ok ⟨[i], ws⟩

mutual
/-- `Blueprint.validate` (`/repo/draftsman/classes/blueprint.py:1028-1045`), `Blueprintable.validate` for planners, and `BlueprintBook.validate`
(`/repo/draftsman/classes/blueprint_book.py:476-524`), which keeps the converted data. -/
def validateThing {F D T B S : Type} (w : World F D T B S) (m : ValidationMode) (force : Bool) :
    Thing F D T B S → Thing F D T B S × Except PyErr Result
  | .blueprint b size es ts ss =>
    match validateOwn w m force (tooLarge m size) b with
    | .error x => (.blueprint b size es ts ss, .error x)
    | .ok a => match validateEntities w m force es with
      | (es', .error x) => (.blueprint b size es' ts ss, .error x)
      | (es', .ok c) => (.blueprint b size es' ts ss, (validateTiles w m force ts).map fun d => iadd (iadd a c) d)
  | .planner b => (.planner b, validateOwn w m force false b)
  | .book b l =>
    if skip m force then (.book b l, .ok ⟨[], []⟩)
    else match w.own m b with
      | .error x => (.book b l, .error x)
      | .ok (.ok b', ws) => let r := validateThings w m force l; (.book b' r.1, r.2.map fun x => iadd ⟨[], ws⟩ x)
      | .ok (.error i, ws) => let r := validateThings w m force l; (.book b r.1, r.2.map fun x => iadd ⟨[i], ws⟩ x)
/-- The loop over the members of a book, `/repo/draftsman/classes/blueprint_book.py:512-516`. -/
def validateThings {F D T B S : Type} (w : World F D T B S) (m : ValidationMode) (force : Bool) :
    List (Thing F D T B S) → List (Thing F D T B S) × Except PyErr Result
  | [] => ([], .ok ⟨[], []⟩)
  | t :: l => match validateThing w m force t with
    | (t', .error x) => (t' :: l, .error x)
    | (t', .ok a) => match validateThings w m force l with
      | (l', .error x) => (t' :: l', .error x)
      | (l', .ok b) => (t' :: l', .ok (iadd a b))
end

/-- The setter of `index` of a blueprint, `/repo/draftsman/classes/blueprintable.py:426-432` with `/repo/draftsman/classes/exportable.py:14-44`; `m` is
`validate_assignment` and `check` the validation of the field.  Validators of mode "after" run when the value is stored already (pydantic's
`validate_assignment`), and an `UnreasonablySizedBlueprintError` goes through. -/
def setIndex {V : Type} (check : V → Except PyErr V) (m : ValidationMode) (size : Nat × Nat) (old new : V) : V × Option PyErr :=
  if m = .none then (new, none)
  else match check new with
    | .error x => (old, some x)
    | .ok v => (v, if tooLarge m size then some .draftsmanError else none)

/-- `x.validate(mode, force)` with the mode as a string, `/repo/draftsman/classes/blueprintable.py:500`. -/
def validateAs {F D T B S : Type} (w : World F D T B S) (mode : String) (force : Bool) (t : Thing F D T B S) :
    Thing F D T B S × Except PyErr Result :=
  match modeOf mode with
  | .error x => (t, .error x)
  | .ok m => validateThing w m force t

end Validate
end Draftsman
