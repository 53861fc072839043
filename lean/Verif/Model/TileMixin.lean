import Verif.Model.TileList
/-
What `TileList` inherits from `collections.abc.MutableSequence` (`/repo/draftsman/classes/tile_list.py:29`): `pop` and `reverse`, as Python's
standard library writes them.  Validation is taken to pass, as it did when the tiles were put in.
-/
namespace Draftsman.TileList
open Draftsman

/-- `pop(index)`: `v = self[index]; del self[index]; return v`.  Python's `MutableSequence.pop` with `/repo/draftsman/classes/tile_list.py:239-240, 263-277`. -/
def pop (s : TL) (i : Int) : TL × Except PyErr SItem :=
  match EList.pyIndex s.root i with
  | none => (s, .error .indexError)
  | some n => match s.root[n]? with
    | none => (s, .error .indexError)   -- unreachable
    | some t => match delInt s i with
      | (s', none) => (s', .ok t)
      | (s', some e) => (s', .error e)

/-- `self[i], self[j] = self[j], self[i]` for positions within the list: both are read, then written one after the other.
`/repo/draftsman/classes/tile_list.py:239-261`. -/
def swap (s : TL) (i j : Nat) : TL × Option PyErr :=
  match s.root[j]?, s.root[i]? with
  | some b, some a =>
    match setItem s i b none with
    | (s', some e) => (s', some e)
    | (s', none) => setItem s' j a none
  | _, _ => (s, some .indexError)

/-- The loop of `reverse` from `i` on, `k` rounds remaining; `n` is the length.  Python's `MutableSequence.reverse`, used by the class of
`/repo/draftsman/classes/tile_list.py:29`. -/
def reverseFrom (n i : Nat) : Nat → TL → TL × Option PyErr
  | 0, s => (s, none)
  | k + 1, s => match swap s i (n - i - 1) with
    | (s', some e) => (s', some e)
    | (s', none) => reverseFrom n (i + 1) k s'

/-- `reverse()`.  Python's `MutableSequence.reverse`, used by the class of `/repo/draftsman/classes/tile_list.py:29`. -/
def reverse (s : TL) : TL × Option PyErr := reverseFrom s.root.length 0 (s.root.length / 2) s

end Draftsman.TileList
