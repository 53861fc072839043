import Verif.Model.EntityList
/-
What `EntityList` inherits from `collections.abc.MutableSequence` (`/repo/draftsman/classes/entity_list.py:39`): `pop`, `remove`,
`reverse`, `+=`, written in terms of `__getitem__`, `__setitem__`, `__delitem__`, `__len__` and `extend` as Python's standard
library does.  The same things are left out as in `Model/EntityList.lean`.
-/
namespace Draftsman
namespace EList

/-- `pop(index=-1)`: `v = self[index]; del self[index]; return v`.  Python's `MutableSequence.pop` with `__getitem__` and `__delitem__`,
`/repo/draftsman/classes/entity_list.py:523-524, 597-613`. -/
def pop (s : EList) (i : Int) : EList × Except PyErr EL :=
  match s.getInt i with
  | .error e => (s, .error e)
  | .ok v => match s.delInt i with
    | (s', none) => (s', .ok v)
    | (s', some e) => (s', .error e)

/-- `pop(id)`, the same with a string: `/repo/draftsman/classes/entity_list.py:526, 597-613`; the result is the object looked up. -/
def popStr (s : EList) (k : String) : EList × Except PyErr Nat :=
  match s.getStr k with
  | .error e => (s, .error e)
  | .ok u => match s.delStr k with
    | (s', none) => (s', .ok u)
    | (s', some e) => (s', .error e)

/-- `remove(value)`: `del self[self.index(value)]`, where `Sequence.index` takes the first member that is or equals the value.  Python's
`MutableSequence.remove` with `/repo/draftsman/classes/entity_list.py:523-524, 597-613`. -/
def removeVal (s : EList) (v : EL) : Out :=
  match s.root.findIdx? (fun e => e.eqv v) with
  | none => (s, some .valueError)
  | some n => s.delInt n

/-- `self[i], self[j] = self[j], self[i]`: both are read, then written one after the other.  Python built-in with
`/repo/draftsman/classes/entity_list.py:523-524, 529-575`. -/
def swap (s : EList) (i j : Int) : Out :=
  match s.getInt j with
  | .error e => (s, some e)
  | .ok b => match s.getInt i with
    | .error e => (s, some e)
    | .ok a => match s.setInt i b with
      | (s', some e) => (s', some e)
      | (s', none) => s'.setInt j a

/-- The loop of `reverse` from `i` on, `k` rounds remaining; `n` is the length.  Python's `MutableSequence.reverse`, used by the class of
`/repo/draftsman/classes/entity_list.py:39`. -/
def reverseFrom (n i : Nat) : Nat → EList → Out
  | 0, s => (s, none)
  | k + 1, s => match s.swap i (n - i - 1 : Nat) with
    | (s', some e) => (s', some e)
    | (s', none) => reverseFrom n (i + 1) k s'

/-- `reverse()`.  Python's `MutableSequence.reverse`, used by the class of `/repo/draftsman/classes/entity_list.py:39`. -/
def reverse (s : EList) : Out := reverseFrom s.root.length 0 (s.root.length / 2) s

/-- An identity no member has: the deep copy that `insert` makes, `/repo/draftsman/classes/entity_list.py:274-276`, is a new object. -/
def fresh (s : EList) : Nat := (s.root.map (·.uid)).foldr max 0 + 1

/-- `self.extend(self)` or `self += self`: `for entity in entities: self.append(entity, …)`, `/repo/draftsman/classes/entity_list.py:201-202`, where
the iteration reads `self[i]` for `i = 0, 1, …` until there is no such member (Python's `Sequence.__iter__`).  `none` if the loop has not
come to an end within the given number of rounds. -/
def extendSelf (s : EList) (i : Nat) : Nat → Option Out
  | 0 => none
  | fuel + 1 => match s.getInt i with
    | .error _ => some (s, none)
    | .ok v => match s.append { v with uid := s.fresh } with
      | (s', some e) => some (s', some e)
      | (s', none) => extendSelf s' (i + 1) fuel

end EList
end Draftsman
