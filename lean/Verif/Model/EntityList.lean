import Verif.Model.Py
import Verif.Model.Dict
/-
`EntityList`, `/repo/draftsman/classes/entity_list.py`: the Python list `_root` together with the three dictionaries that
map string ids to members and positions.

Left out: construction of entities from names, deep copies (the inserted value is the copy), the spatial map (its only
influence on the list is whether a merge absorbed the value, a parameter here), validation of the value (errors raised by
it), parents other than through the renaming of a removed member.
-/
namespace Draftsman

/-- What the list sees of an `EntityLike`: object identity, its `id`, and what `__eq__` compares besides the id
(`/repo/draftsman/classes/entity.py:755-762`); `none` for groups, which have no `__eq__` and are compared by identity. -/
structure EL where
  uid : Nat
  id : Option String
  key : Option Nat
  deriving DecidableEq, Repr

/-- `a == b` as used by `list.index` (identity first).  Python built-in, with `__eq__` of `/repo/draftsman/classes/entity.py:755-762`. -/
def EL.eqv (a b : EL) : Bool :=
  decide (a.uid = b.uid) || (a.key.isSome && decide (a.key = b.key) && decide (a.id = b.id))

/-- The attributes of `EntityList`, `/repo/draftsman/classes/entity_list.py:91-94`.  `keyMap` holds object
identities.  Keys are `str`, or `None` through the id setter of groups. -/
structure EList where
  root : List EL
  keyMap : Dict (Option String) Nat
  keyToIdx : Dict (Option String) Int
  idxToKey : Dict Int (Option String)
  deriving DecidableEq, Repr

namespace EList

/-- The list made by `__init__` without arguments, `/repo/draftsman/classes/entity_list.py:91-94`. -/
def empty : EList := ⟨[], [], [], []⟩

/-- A call's effect: the state left behind and the exception raised, if any.  Part of the model only: the calls are the methods of `/repo/draftsman/classes/entity_list.py:115-802`. -/
abbrev Out := EList × Option PyErr

/-- `_remove_key`, `/repo/draftsman/classes/entity_list.py:752-766`.  `del self.idx_to_key[idx]` raises `KeyError` when the
position is missing, after the other two deletions. -/
def removeKey (s : EList) (key : Option String) : Out :=
  match key with
  | none => (s, none)
  | some _ =>
    match s.keyToIdx.get? key with
    | none => (s, some .keyError)
    | some idx =>
      match s.keyMap.get? key with
      | none => (s, some .keyError)
      | some _ =>
        let s' := { s with keyMap := s.keyMap.del key, keyToIdx := s.keyToIdx.del key }
        match s.idxToKey.get? idx with
        | none => (s', some .keyError)
        | some _ => ({ s' with idxToKey := s'.idxToKey.del idx }, none)

/-- `_set_key`, `/repo/draftsman/classes/entity_list.py:768-786`. -/
def setKey (s : EList) (k : Option String) (v : EL) : Out :=
  if (s.keyMap.get? k).isSome then (s, some .duplicateId)
  else match s.root.findIdx? (fun e => e.eqv v) with
    | none => (s, some .valueError)
    | some idx =>
      ({ s with keyMap := s.keyMap.set k v.uid, keyToIdx := s.keyToIdx.set k idx, idxToKey := s.idxToKey.set idx k }, none)

/-- `{value: key for key, value in d.items()}`, `/repo/draftsman/classes/entity_list.py:802`. -/
def invert (d : Dict (Option String) Int) : Dict Int (Option String) := d.foldl (fun acc p => acc.set p.2 p.1) []

/-- `_shift_key_indices`, `/repo/draftsman/classes/entity_list.py:788-802`. -/
def shift (s : EList) (idx amt : Int) : EList :=
  let k2i := s.keyToIdx.map fun p => (p.1, if p.2 ≥ idx then p.2 + amt else p.2)
  { s with keyToIdx := k2i, idxToKey := invert k2i }

/-- The duplicate test of `check_entitylike`, `/repo/draftsman/classes/entity_list.py:378-379`. -/
def idTaken (s : EList) (v : EL) : Bool := v.id.isSome && (s.keyMap.get? v.id).isSome

/-- Python truthiness of an optional string. -/
def truthy : Option String → Bool
  | none => false
  | some k => k ≠ ""

/-- `list.insert(idx, v)` (Python built-in). -/
def pyInsert {α : Type} (l : List α) (idx : Int) (v : α) : List α :=
  let p : Int := if idx < 0 then max 0 (idx + l.length) else min idx l.length
  l.insertIdx p.toNat v

/-- `insert`, `/repo/draftsman/classes/entity_list.py:205-329`; `merged` tells that `recursive_add` returned `None` (314-317). -/
def insert (s : EList) (idx : Int) (v : EL) (merged : Bool := false) : Out :=
  if s.idTaken v then (s, some .duplicateId)
  else if merged then (s, none)
  else
    let s' := ({ s with root := pyInsert s.root idx v }).shift idx 1
    if truthy v.id then s'.setKey v.id v else (s', none)

/-- `append`, `/repo/draftsman/classes/entity_list.py:115-176`. -/
def append (s : EList) (v : EL) (merged : Bool := false) : Out := s.insert s.root.length v merged

/-- `extend`, `/repo/draftsman/classes/entity_list.py:179-202`. -/
def extend (s : EList) : List EL → Out
  | [] => (s, none)
  | v :: r => match s.append v with
    | (s', none) => extend s' r
    | (s', some e) => (s', some e)

/-- Position of `_root[idx]` for a possibly negative index, or `IndexError` (Python built-in). -/
def pyIndex {α : Type} (l : List α) (idx : Int) : Option Nat :=
  if 0 ≤ idx ∧ idx < l.length then some idx.toNat
  else if idx < 0 ∧ 0 ≤ idx + l.length then some (idx + l.length).toNat
  else none

/-- Common part of `__delitem__` for one element, `/repo/draftsman/classes/entity_list.py:601-613`. -/
def delAt (s : EList) (idx : Int) (key : Option String) : Out :=
  match pyIndex s.root idx with
  | none => (s, some .indexError)
  | some n =>
    match ({ s with root := s.root.eraseIdx n } : EList).removeKey key with
    | (s', none) => (s'.shift idx (-1), none)
    | (s', some e) => (s', some e)

/-- `__delitem__` with an integer, `/repo/draftsman/classes/entity_list.py:597-613`. -/
def delInt (s : EList) (i : Int) : Out :=
  if s.root.length = 0 then (s, some .zeroDivision)
  else
    let i := i % s.root.length
    s.delAt i (s.idxToKey.get? i).join

/-- `__delitem__` with a string, `/repo/draftsman/classes/entity_list.py:597-613` (`get_pair`, 393-408). -/
def delStr (s : EList) (k : String) : Out :=
  match s.keyToIdx.get? (some k) with
  | none => (s, some .keyError)
  | some i => s.delAt i (some k)

/-- First loop of `__delitem__` with a slice, `/repo/draftsman/classes/entity_list.py:581-589`. -/
def removeKeys (s : EList) : List Int → Out
  | [] => (s, none)
  | i :: r =>
    match s.removeKey (s.idxToKey.get? i).join with
    | (s', none) => removeKeys s' r
    | (s', some e) => (s', some e)

/-- `__delitem__` with the slice `a:b` for `0 ≤ a ≤ b ≤ len`, `/repo/draftsman/classes/entity_list.py:578-596`; other steps are
not modelled. -/
def delSlice (s : EList) (a b : Nat) : Out :=
  let is := (List.range (b - a)).map fun (n : Nat) => (a + n : Int)
  match s.removeKeys is with
  | (s', some e) => (s', some e)
  | (s', none) =>
    let s'' := is.foldl (fun s i => s.shift i (-1)) s'
    ({ s'' with root := s''.root.take a ++ s''.root.drop b }, none)

/-- Common part of `__setitem__`, `/repo/draftsman/classes/entity_list.py:550-572`. -/
def setAt (s : EList) (idx : Int) (key : Option String) (v : EL) : Out :=
  if s.idTaken v then (s, some .duplicateId)
  else match pyIndex s.root idx with
    | none => (s, some .indexError)
    | some n =>
      let s1 := { s with root := s.root.set n v }
      match (if truthy key then s1.removeKey key else (s1, none)) with
      | (s2, some e) => (s2, some e)
      | (s2, none) => if truthy v.id then s2.setKey v.id v else (s2, none)

/-- `__setitem__` with an integer, `/repo/draftsman/classes/entity_list.py:529-575`. -/
def setInt (s : EList) (i : Int) (v : EL) : Out := s.setAt i (s.idxToKey.get? i).join v

/-- `__setitem__` with a string, `/repo/draftsman/classes/entity_list.py:529-575`. -/
def setStr (s : EList) (k : String) (v : EL) : Out :=
  match s.keyToIdx.get? (some k) with
  | none => (s, some .keyError)
  | some i => s.setAt i (some k) v

/-- `clear`, `/repo/draftsman/classes/entity_list.py:465-470`. -/
def clear (_ : EList) : EList := empty

/-- `self._id = value` on the object `uid`, seen through the list.  `/repo/draftsman/classes/entity.py:413, 421, 424` and `/repo/draftsman/classes/group.py:309`. -/
def relabel (s : EList) (uid : Nat) (id : Option String) : EList :=
  { s with root := s.root.map fun e => if e.uid = uid then { e with id := id } else e }

/-- `Entity.id` setter on an entity whose parent holds this list, `/repo/draftsman/classes/entity.py:407-426`.  `v` is the entity
(its `id` being the old id); nothing resets the parent of an entity deleted from the list. -/
def renameEntity (s : EList) (v : EL) (id : Option String) : Out :=
  match s.removeKey v.id with
  | (s', some e) => (s', some e)
  | (s', none) =>
    let s2 := s'.relabel v.uid id
    match id with
    | none => (s2, none)
    | some _ => s2.setKey id { v with id := id }

/-- `Group.id` setter on a group whose parent holds this list, `/repo/draftsman/classes/group.py:305-316`. -/
def renameGroup (s : EList) (v : EL) (id : Option String) : Out :=
  match (s.relabel v.uid id).removeKey v.id with
  | (s', some e) => (s', some e)
  | (s', none) => s'.setKey id { v with id := id }

/-- `__getitem__` with a string, `/repo/draftsman/classes/entity_list.py:526`. -/
def getStr (s : EList) (k : String) : Except PyErr Nat :=
  match s.keyMap.get? (some k) with
  | some u => .ok u
  | none => .error .keyError

/-- `__getitem__` with an integer, `/repo/draftsman/classes/entity_list.py:523-524`. -/
def getInt (s : EList) (i : Int) : Except PyErr EL :=
  match pyIndex s.root i with
  | some n => match s.root[n]? with
    | some e => .ok e
    | none => .error .indexError
  | none => .error .indexError

end EList
end Draftsman
