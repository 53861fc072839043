import Verif.Model.BpString
/-
Strings of books, blueprints and planners: `Blueprintable.to_string` (`/repo/draftsman/classes/blueprintable.py:544-568`), `BlueprintBook.to_dict`
(`/repo/draftsman/classes/blueprint_book.py:526-566`), `get_blueprintable_from_string` (`/repo/draftsman/blueprintable.py:22-57`) and
`BlueprintableList.__init__` (`/repo/draftsman/classes/blueprint_book.py:93-123`), down to the characters.

Blueprints are those of `BpString`.  What the attributes of a book and of a planner (of which the settings are one) are exported as is any JSON value, and what becomes of
such a value when it is assigned is a parameter.  Left out: a book that contains itself, whose export does not end; validation when loading (C85).
-/
namespace Draftsman
namespace BookString

open Json BpString RoundTrip

variable {F : Type}

/-- The classes, `/repo/draftsman/blueprintable.py:46-53`. -/
abbrev Kind := Codec.Kind

/-- `_root_item`: `/repo/draftsman/classes/blueprint.py:480`, `/repo/draftsman/classes/deconstruction_planner.py:268`, `/repo/draftsman/classes/upgrade_planner.py:437`,
`/repo/draftsman/classes/blueprint_book.py:280`. -/
def rootKey : Kind → String
  | .blueprint => "blueprint"
  | .deconstructionPlanner => "deconstruction_planner"
  | .upgradePlanner => "upgrade_planner"
  | .blueprintBook => "blueprint_book"

/-- `item`: `/repo/draftsman/classes/blueprint.py:482`, `/repo/draftsman/classes/deconstruction_planner.py:270`, `/repo/draftsman/classes/upgrade_planner.py:439`,
`/repo/draftsman/classes/blueprint_book.py:282`. -/
def itemName : Kind → String
  | .blueprint => "blueprint"
  | .deconstructionPlanner => "deconstruction-planner"
  | .upgradePlanner => "upgrade-planner"
  | .blueprintBook => "blueprint-book"

/-- The attributes that are exported as they are, in the order of the format: `/repo/draftsman/classes/deconstruction_planner.py:92-228`,
`/repo/draftsman/classes/upgrade_planner.py:232-392`, `/repo/draftsman/classes/blueprint_book.py:172-224`; those of blueprints are in `BpString`. -/
def names : Kind → List String
  | .blueprint => attrNames
  | .deconstructionPlanner => ["label", "version", "settings"]
  | .upgradePlanner => ["label", "version", "settings"]
  | .blueprintBook => ["label", "label_color", "description", "icons", "active_index", "version"]

/-- A book or planner apart from its members: how its attributes are exported (`none` if not), its index and unknown keys.
`/repo/draftsman/classes/blueprint_book.py:293-343`. -/
structure Shell (F : Type) where
  attrs : String → Option (Doc F)
  index : Option Nat
  extra : Fields F

/-- A blueprint, a planner (`upgrade` or for deconstruction), or a book: the elements of `BlueprintableList`, `/repo/draftsman/classes/blueprint_book.py:93-157`. -/
inductive Node (F : Type) where
  | blueprint (b : Whole F)
  | planner (upgrade : Bool) (s : Shell F)
  | book (s : Shell F) (members : List (Node F))

/-- The class of a planner, `/repo/draftsman/blueprintable.py:48-51`. -/
def plannerKind (upgrade : Bool) : Kind := if upgrade then .upgradePlanner else .deconstructionPlanner

/-- What becomes of a value that is assigned to an attribute, that is what is exported then, and what is exported if the key was missing:
`/repo/draftsman/classes/blueprint_book.py:294-321`, `/repo/draftsman/classes/deconstruction_planner.py:278-314`, `/repo/draftsman/classes/upgrade_planner.py:448-480`. -/
structure Setting (F : Type) where
  attr : Kind → String → Doc F → Except PyErr (Option (Doc F))
  absent : Kind → String → Option (Doc F)

/-! ### Writing -/

/-- The dictionary under the root key, `/repo/draftsman/classes/exportable.py:319-334`; the members of a book come last, `/repo/draftsman/classes/blueprint_book.py:550`. -/
def shellBody (k : Kind) (attrs : String → Option (Doc F)) (members : Option (Doc F)) : Fields F :=
  (("item", some (.str (itemName k).toList)) :: ((names k).map fun n => (n, attrs n)) ++ [("blueprints", members)]).flatMap fun p => entry p.1 p.2

/-- `to_dict`, `/repo/draftsman/classes/exportable.py:319-334`. -/
def shellDoc (k : Kind) (s : Shell F) (members : Option (Doc F)) : Doc F :=
  .obj (((rootKey k).toList, .obj (shellBody k s.attrs members)) :: (entry "index" (s.index.map fun i : Nat => .int i) ++ s.extra.filter fun x => !isNull x.2))

/-- `if "index" not in blueprintable_entry: blueprintable_entry["index"] = i`, `/repo/draftsman/classes/blueprint_book.py:545-547`. -/
def number (i : Nat) : Doc F → Doc F
  | .obj l => if (get "index" l).isSome then .obj l else .obj (l ++ [("index".toList, .int i)])
  | d => d

/-- `if len(…["blueprints"]) == 0: del …`, `/repo/draftsman/classes/blueprint_book.py:550-564`. -/
def membersDoc : List (Doc F) → Option (Doc F)
  | [] => none
  | ds => some (.arr ds)

mutual
/-- `to_dict` of anything, `/repo/draftsman/classes/blueprint_book.py:526-566`, `/repo/draftsman/classes/blueprint.py:1046-1136`. -/
def toDoc (w : Writing F) : Node F → Except PyErr (Doc F)
  | .blueprint b => do
    let d ← b.full.toDict
    .ok (BpString.toDoc w b.attrs b.index b.extra d)
  | .planner u s => .ok (shellDoc (plannerKind u) s none)
  | .book s ms => do
    let ds ← toDocs w 0 ms
    .ok (shellDoc .blueprintBook s (membersDoc ds))
/-- The loop, `/repo/draftsman/classes/blueprint_book.py:541-548`. -/
def toDocs (w : Writing F) (i : Nat) : List (Node F) → Except PyErr (List (Doc F))
  | [] => .ok []
  | m :: ms => do
    let d ← toDoc w m
    let ds ← toDocs w (i + 1) ms
    .ok (number i d :: ds)
end

/-- `to_string`, `/repo/draftsman/classes/blueprintable.py:568`. -/
def toString (k : Codec.Codecs (Doc F) (List (Fin 256))) (w : Writing F) (n : Node F) : Except PyErr (List Char) := do
  let d ← toDoc w n
  .ok (Codec.jsonToString k d)

/-! ### Reading -/

/-- What an attribute is after `setup`, `/repo/draftsman/classes/blueprint_book.py:294-321`. -/
def setAttr (o : Setting F) (k : Kind) (name : String) : Option (Doc F) → Except PyErr (Option (Doc F))
  | some d => o.attr k name d
  | none => .ok (o.absent k name)

/-- The keys that `setup` knows, `/repo/draftsman/classes/blueprint_book.py:294-309`, `/repo/draftsman/classes/deconstruction_planner.py:278-291`,
`/repo/draftsman/classes/upgrade_planner.py:449-459`. -/
def knownKeys (k : Kind) : List String := "item" :: names k ++ if k = .blueprintBook then ["blueprints"] else []

/-- `setup` apart from the members, `/repo/draftsman/classes/blueprint_book.py:293-343`: unknown keys are put into the root, 340-341.  Simplified: an unknown key that is
the root key of the class itself is an error here (it would take the place of everything else). -/
def setShell (o : Setting F) (k : Kind) (a : Fields F) (index : Option (Doc F)) : Except PyErr (Shell F) := do
  let _ ← (names k).mapM fun n => setAttr o k n (get n a)
  let i ← readKey readNat (index.filter fun x => !isNull x)
  if (get (rootKey k) a).isSome then .error .typeError
  else .ok ⟨fun n => (setAttr o k n (get n a)).toOption.getD none, i, a.filter fun x => x.1 ∉ (knownKeys k).map String.toList⟩

/-- Which class an element of `initlist` is given to, and the arguments of its `setup`: `/repo/draftsman/classes/blueprint_book.py:99-121`,
`/repo/draftsman/classes/blueprintable.py:92-97`.  What is no dictionary is refused by `check_blueprintable`, 149-157. -/
def split : Doc F → Except PyErr (Kind × Fields F × Option (Doc F))
  | .obj l =>
    if (get "blueprint" l).isSome then (fetch "blueprint" (.obj l)).map fun a => (.blueprint, a)
    else if (get "deconstruction_planner" l).isSome then (fetch "deconstruction_planner" (.obj l)).map fun a => (.deconstructionPlanner, a)
    else if (get "upgrade_planner" l).isSome then (fetch "upgrade_planner" (.obj l)).map fun a => (.upgradePlanner, a)
    else if (get "blueprint_book" l).isSome then (fetch "blueprint_book" (.obj l)).map fun a => (.blueprintBook, a)
    else .error .dataFormat
  | _ => .error .typeError

/-- The elements of the argument `blueprints`, `/repo/draftsman/classes/blueprint_book.py:98, 334-337`. -/
def elements (a : Fields F) : List (Doc F) :=
  match get "blueprints" a with
  | some (.arr l) => l
  | _ => []

/-- What iterating over the argument `blueprints` raises, `/repo/draftsman/classes/blueprint_book.py:98, 334-337`: the elements of a dictionary or string are
strings, which are refused (149-157), and other values have none. -/
def elementsError (a : Fields F) : Option PyErr :=
  match get "blueprints" a with
  | none => none
  | some (.arr _) => none
  | some (.obj []) => none
  | some (.str []) => none
  | _ => some .typeError

theorem get_sizeOf {key : String} {a : Fields F} {d : Doc F} (h : get key a = some d) : sizeOf d < sizeOf a := by
  induction a with
  | nil => cases h
  | cons x a ih =>
    obtain ⟨k, e⟩ := x
    rw [BpString.get] at h
    by_cases hk : k = key.toList
    · rw [if_pos hk] at h
      rw [← Option.some.inj h]
      simp only [List.cons.sizeOf_spec, Prod.mk.sizeOf_spec]
      omega
    · rw [if_neg hk] at h
      have := ih h
      simp only [List.cons.sizeOf_spec, Prod.mk.sizeOf_spec]
      omega

theorem fetch_sizeOf {key : String} {d : Doc F} {a : Fields F × Option (Doc F)} (h : fetch key d = .ok a) : sizeOf a.1 < sizeOf d := by
  cases d with
  | obj l =>
    rw [fetch] at h
    cases hg : get key l with
    | none => rw [hg] at h; cases h
    | some e =>
      rw [hg] at h
      have := get_sizeOf hg
      cases e with
      | obj b =>
        rw [passed] at h
        by_cases hc : ((get "self" b).isSome || (get "index" b).isSome || (get "validate" b).isSome) = true
        · rw [if_pos hc] at h; cases h
        · rw [if_neg hc] at h
          cases h
          simp only [Doc.obj.sizeOf_spec] at this ⊢
          omega
      | _ => cases h
  | _ => cases h

theorem split_sizeOf {d : Doc F} {k : Kind} {a : Fields F} {i : Option (Doc F)} (h : split d = .ok (k, a, i)) : sizeOf a < sizeOf d := by
  have key : ∀ (s : String) (k' : Kind), (fetch s d).map (fun a => (k', a)) = .ok (k, a, i) → sizeOf a < sizeOf d := by
    intro s k' h
    cases hf : fetch s d with
    | error e => rw [hf] at h; cases h
    | ok b => rw [hf] at h; cases h; exact fetch_sizeOf hf
  cases d with
  | obj l =>
    rw [split] at h
    by_cases h1 : (get "blueprint" l).isSome = true
    · rw [if_pos h1] at h; exact key _ _ h
    · rw [if_neg h1] at h
      by_cases h2 : (get "deconstruction_planner" l).isSome = true
      · rw [if_pos h2] at h; exact key _ _ h
      · rw [if_neg h2] at h
        by_cases h3 : (get "upgrade_planner" l).isSome = true
        · rw [if_pos h3] at h; exact key _ _ h
        · rw [if_neg h3] at h
          by_cases h4 : (get "blueprint_book" l).isSome = true
          · rw [if_pos h4] at h; exact key _ _ h
          · rw [if_neg h4] at h; cases h
  | _ => cases h

theorem elements_sizeOf {a : Fields F} {m : Doc F} (h : m ∈ elements a) : sizeOf m < sizeOf a := by
  rw [elements] at h
  cases hg : get "blueprints" a with
  | none => rw [hg] at h; cases h
  | some e =>
    rw [hg] at h
    have := get_sizeOf hg
    cases e with
    | arr l =>
      have := List.sizeOf_lt_of_mem h
      simp only [Doc.arr.sizeOf_spec] at *
      omega
    | _ => cases h

/-- The class of an object, `/repo/draftsman/blueprintable.py:46-53`. -/
def Node.kind : Node F → Kind
  | .blueprint _ => .blueprint
  | .planner u _ => plannerKind u
  | .book _ _ => .blueprintBook

/-- The attribute `index`, `/repo/draftsman/classes/blueprintable.py:78-81`. -/
def Node.index : Node F → Option Nat
  | .blueprint b => b.index
  | .planner _ s => s.index
  | .book s _ => s.index

/-- `setup` of anything that was just made, `/repo/draftsman/classes/blueprintable.py:92-97`, `/repo/draftsman/classes/blueprint_book.py:93-123, 293-346`. -/
def build (r : Reading F) (o : Setting F) (key : Fields F → Vec → Nat) (start : Nat) (k : Kind) (a : Fields F) (index : Option (Doc F)) : Except PyErr (Node F) :=
  match k with
  | .blueprint => (loadWhole r key start (a, index)).map .blueprint
  | .deconstructionPlanner => (setShell o .deconstructionPlanner a index).map (.planner false)
  | .upgradePlanner => (setShell o .upgradePlanner a index).map (.planner true)
  | .blueprintBook => do
    let s ← setShell o .blueprintBook a index
    match elementsError a with
    | some e => .error e
    | none =>
      let ms ← (elements a).attach.mapM fun m => match _ : split m.1 with
        | .error e => .error e
        | .ok (k', a', i') => build r o key start k' a' i'
      .ok (.book s ms)
termination_by sizeOf a
decreasing_by
  have h1 := elements_sizeOf m.2
  have h2 := split_sizeOf ‹split m.1 = .ok (k', a', i')›
  omega

/-- A member, `/repo/draftsman/classes/blueprint_book.py:99-121`. -/
def member (r : Reading F) (o : Setting F) (key : Fields F → Vec → Nat) (start : Nat) (d : Doc F) : Except PyErr (Node F) := do
  let x ← split d
  build r o key start x.1 x.2.1 x.2.2

/-- The constructor with a document that has the root key, `/repo/draftsman/classes/blueprintable.py:89-104`. -/
def construct (k : Codec.Codecs (Doc F) (List (Fin 256))) (r : Reading F) (o : Setting F) (key : Fields F → Vec → Nat) (start : Nat) (kind : Kind) :
    Doc F → Except PyErr (Node F)
  | .obj l => do
    let a ← fetch (rootKey kind) (.obj l)
    build r o key start kind a.1 a.2
  | .str s => do
    let d ← Codec.stringToJson k s
    let a ← arguments (rootKey kind) d
    build r o key start kind a.1 a.2
  | _ => .error .dataFormat

/-- `get_blueprintable_from_string`, `/repo/draftsman/blueprintable.py:22-57`. -/
def fromString (k : Codec.Codecs (Doc F) (List (Fin 256))) (r : Reading F) (o : Setting F) (key : Fields F → Vec → Nat) (start : Nat) (s : List Char) :
    Except PyErr (Node F) := do
  let d ← Codec.stringToJson k s
  let kind ← Codec.fromJson (root d)
  construct k r o key start kind d

end BookString
end Draftsman
