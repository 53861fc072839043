import Verif.Model.EntityList
/-
Entity lists with groups in them: `in`, removal anywhere and access along a path, `/repo/draftsman/classes/entity_list.py:331-358`,
514-526, 620-629, with `index` and `remove` of `collections.abc`.

Left out: the tables of ids and the map (`Model/EntityList.lean`, `Model/SpatialHash.lean`); an id is looked up among the members that
carry it, which is what C17 shows of the tables.  A list contains a group at most once along each path (a group in itself would not end).
-/
namespace Draftsman
namespace NestedList

/-- A member of an `EntityList`: an entity, or a group with its own list `entities`.  `/repo/draftsman/classes/entity_list.py:625-626`,
`/repo/draftsman/classes/group.py:434-444`. -/
inductive NM where
  | ent (e : EL)
  | grp (e : EL) (l : List NM)

/-- What `==` and the ids see of a member.  `/repo/draftsman/classes/entity.py:755-762`; groups are compared by identity. -/
def NM.el : NM → EL
  | .ent e => e
  | .grp e _ => e

/-- `member == item` or `member is item`, as in `item in list` (Python built-in) and `Sequence.index` of `collections.abc`, used at
`/repo/draftsman/classes/entity_list.py:342` and 621. -/
def NM.is (x : EL) (m : NM) : Bool := m.el.eqv x

/-- `item in self._root`, `/repo/draftsman/classes/entity_list.py:621`. -/
def here (x : EL) (l : List NM) : Bool := l.any (NM.is x)

mutual
/-- `hasattr(entity, "entities")` and `item in entity.entities`, `/repo/draftsman/classes/entity_list.py:625-626`. -/
def inGroup (x : EL) : NM → Bool
  | .ent _ => false
  | .grp _ l => here x l || below x l
/-- The loop over the members, `/repo/draftsman/classes/entity_list.py:624-627`. -/
def below (x : EL) : List NM → Bool
  | [] => false
  | m :: r => inGroup x m || below x r
end

/-- `EntityList.__contains__`, `/repo/draftsman/classes/entity_list.py:620-629`: the members first, then the lists of the groups. -/
def contains (x : EL) (l : List NM) : Bool := here x l || below x l

/-- `del self[self.index(item)]`, i.e. `MutableSequence.remove` of `collections.abc` and `/repo/draftsman/classes/entity_list.py:342`; `none`
stands for the `ValueError` of `index`. -/
def remove (x : EL) : List NM → Option (List NM)
  | [] => none
  | m :: r => if m.is x then some r else (remove x r).map (m :: ·)

/-- The second half of `recursive_remove`, `/repo/draftsman/classes/entity_list.py:348-355`: `existing_item.entities.remove(item)`. -/
def removeBelow (x : EL) : List NM → Option (List NM)
  | [] => none
  | .ent e :: r => (removeBelow x r).map (NM.ent e :: ·)
  | .grp e l :: r =>
    match remove x l with
    | some l' => some (.grp e l' :: r)
    | none => (removeBelow x r).map (NM.grp e l :: ·)

/-- `EntityList.recursive_remove`, `/repo/draftsman/classes/entity_list.py:331-358`. -/
def recursiveRemove (x : EL) (l : List NM) : List NM × Option PyErr :=
  match remove x l with
  | some l' => (l', none)
  | none =>
    match removeBelow x l with
    | some l' => (l', none)
    | none => (l, some .valueError)

/-- One step of a path: a position or an id.  `/repo/draftsman/classes/entity_list.py:514-526`. -/
inductive Step where
  | pos (i : Int)
  | id (k : String)
  deriving DecidableEq, Repr

/-- `self[item]` with a position or an id, `/repo/draftsman/classes/entity_list.py:523-526`. -/
def at1 (l : List NM) : Step → Except PyErr NM
  | .pos i =>
    match EList.pyIndex l i with
    | none => .error .indexError
    | some n =>
      match l[n]? with
      | some m => .ok m
      | none => .error .indexError   -- unreachable
  | .id k =>
    match l.find? (fun m => decide (m.el.id = some k) && decide (k ≠ "")) with
    | some m => .ok m
    | none => .error .keyError

/-- `new_base.entities`, `/repo/draftsman/classes/entity_list.py:522`: entities have no such attribute. -/
def entitiesOf : NM → Except PyErr (List NM)
  | .ent _ => .error .attributeError
  | .grp _ l => .ok l

/-- `self[(…)]` with a tuple or list of steps, `/repo/draftsman/classes/entity_list.py:517-522`.  With one step only, the rest `()` is looked
up in the list of the group, where `item[0]` fails. -/
def atPath (l : List NM) : List Step → Except PyErr NM
  | [] => .error .indexError
  | [s] =>
    match at1 l s with
    | .error e => .error e
    | .ok m =>
      match entitiesOf m with
      | .error e => .error e
      | .ok _ => .error .indexError
  | [s, t] =>
    match at1 l s with
    | .error e => .error e
    | .ok m =>
      match entitiesOf m with
      | .error e => .error e
      | .ok l' => at1 l' t
  | s :: t :: u :: r =>
    match at1 l s with
    | .error e => .error e
    | .ok m =>
      match entitiesOf m with
      | .error e => .error e
      | .ok l' => atPath l' (t :: u :: r)

end NestedList
end Draftsman
