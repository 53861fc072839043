import Verif.Model.Py
/-
Blueprint books: `/repo/draftsman/classes/blueprint_book.py:86-157, 293-346, 526-566`, `/repo/draftsman/classes/blueprintable.py:47-104` and
`/repo/draftsman/classes/exportable.py:319-334`.

What a member says apart from its index (and, for a book, its members) is one opaque number.  A book that contains itself is left out: its
export does not end.
-/
namespace Draftsman
namespace Book

/-- A blueprint or planner, or a book of them, with the `index` attribute.  `/repo/draftsman/classes/blueprintable.py:47-104` and `/repo/draftsman/classes/blueprint_book.py:160-346`. -/
inductive Member where
  | leaf (data : Nat) (index : Option Nat)
  | book (data : Nat) (index : Option Nat) (members : List Member)

/-- An exported dictionary.  `index` is whether there is a key and then what it holds (`None` or a number); `members` is whether there is a key
`"blueprints"` and then what it holds.  The result of `/repo/draftsman/classes/blueprint_book.py:526-566`. -/
inductive Out where
  | leaf (data : Nat) (index : Option (Option Nat))
  | book (data : Nat) (index : Option (Option Nat)) (members : Option (List Out))

/-- The key `"index"` in `model_dump(exclude_none, exclude_defaults)`: `/repo/draftsman/classes/exportable.py:319-334`, where the default of `index` is `None`
(`/repo/draftsman/classes/blueprint_book.py:244-250` and the same in the other classes). -/
def dumpIndex (exNone exDefaults : Bool) : Option Nat → Option (Option Nat)
  | some i => some (some i)
  | none => if exNone || exDefaults then none else some none

/-- `if "index" not in blueprintable_entry: blueprintable_entry["index"] = i`: `/repo/draftsman/classes/blueprint_book.py`, lines 545-547. -/
def Out.number (i : Nat) : Out → Out
  | .leaf d none => .leaf d (some (some i))
  | .book d none m => .book d (some (some i)) m
  | o => o

mutual
/-- `to_dict` of a member: lines 526-566 for a book, `/repo/draftsman/classes/exportable.py:319-334` and `/repo/draftsman/classes/blueprint.py:1046-1138` for the rest. -/
def toDict (exNone exDefaults : Bool) : Member → Out
  | .leaf d i => .leaf d (dumpIndex exNone exDefaults i)
  | .book d i ms =>
    match toDicts exNone exDefaults 0 ms with
    | [] => .book d (dumpIndex exNone exDefaults i) none
    | os => .book d (dumpIndex exNone exDefaults i) (some os)
/-- The loop, `/repo/draftsman/classes/blueprint_book.py`, lines 541-548. -/
def toDicts (exNone exDefaults : Bool) (pos : Nat) : List Member → List Out
  | [] => []
  | m :: ms => (toDict exNone exDefaults m).number pos :: toDicts exNone exDefaults (pos + 1) ms
end

mutual
/-- Reading a dictionary back: `Blueprintable.__init__` with a dictionary, `/repo/draftsman/classes/blueprint_book.py`, lines 93-98 of `blueprintable.py`, `setup`, lines 293-346 of `blueprint_book.py`, and
`BlueprintableList.__init__`, lines 93-123. -/
def ofDict : Out → Member
  | .leaf d i => .leaf d (i.getD none)
  | .book d i none => .book d (i.getD none) []
  | .book d i (some os) => .book d (i.getD none) (ofDicts os)
/-- Reading the list under `"blueprints"`: `BlueprintableList.__init__`, `/repo/draftsman/classes/blueprint_book.py:93-110`. -/
def ofDicts : List Out → List Member
  | [] => []
  | o :: os => ofDict o :: ofDicts os
end

/-- `Blueprintable.__init__`, `/repo/draftsman/classes/blueprintable.py:47-98`, as far as the index goes: `index` is the argument of the constructor, put into the root at
78-81; then `setup` is called, which sets the index to what the data holds under `"index"`, or `None`
(`/repo/draftsman/classes/blueprint_book.py:302, 320`, `/repo/draftsman/classes/blueprint.py:510, 580`, `/repo/draftsman/classes/deconstruction_planner.py:284, 314`). -/
def constructed (index : Option Nat) (data : Option (Option Nat)) : Option Nat :=
  let root := index
  match data with
  | none => (fun _ => none) root
  | some i => (fun _ => i) root

end Book
end Draftsman
