import Verif.Model.Py
import Verif.Model.Dict
/-
Lists in shorthand: `/repo/draftsman/signatures.py:523-537, 1253-1275`, `/repo/draftsman/classes/blueprint.py:399-411`,
`/repo/draftsman/classes/deconstruction_planner.py:199-226`, `/repo/draftsman/classes/mixins/filters.py:30-43`,
`/repo/draftsman/classes/mixins/inventory_filter.py:54-67`, `/repo/draftsman/prototypes/asteroid_collector.py:77-92`,
`/repo/draftsman/classes/mixins/target_priorities.py:58-71`.
-/
namespace Draftsman
namespace Shorthand

/-- The Python values that can stand in such a list. -/
inductive Val where
  | none
  | str (s : String)
  | int (n : Int)
  | dict (d : List (String × Val))
  | tuple (l : List Val)
  | list (l : List Val)

/-- The body of the loop: a plain name becomes `{"index": i + 1, "name": …}`: `/repo/draftsman/classes/mixins/filters.py:36-40` and the same in the other places. -/
def expandName (i : Nat) : Val → Val
  | .str s => .dict [("index", .int (i + 1)), ("name", .str s)]
  | v => v

/-- The loop over `enumerate(value)`.  `/repo/draftsman/classes/mixins/filters.py:30-43` and the functions like it. -/
def expandNamesFrom (i : Nat) : List Val → List Val
  | [] => []
  | v :: l => expandName i v :: expandNamesFrom (i + 1) l

/-- `normalize_filters`, `/repo/draftsman/classes/mixins/filters.py:30-43`; `normalize_validate`, `/repo/draftsman/classes/mixins/inventory_filter.py:54-67`; `normalize_entity_filters` and
`normalize_tile_filters`, `/repo/draftsman/classes/deconstruction_planner.py:199-226`; `convert_from_sequence_of_strings`, `/repo/draftsman/prototypes/asteroid_collector.py:77-92`
(which accepts any sequence but text). -/
def expandNames : Val → Val
  | .list l => .list (expandNamesFrom 0 l)
  | .tuple l => .list (expandNamesFrom 0 l)
  | v => v

/-- `convert_from_str`, `/repo/draftsman/classes/mixins/target_priorities.py:58-71`: anything that can be iterated is expanded, a text letter by letter and a dictionary key by key. -/
def expandPriorities : Val → Val
  | .list l => .list (expandNamesFrom 0 l)
  | .tuple l => .list (expandNamesFrom 0 l)
  | .str s => .list (expandNamesFrom 0 (s.toList.map fun c => .str (String.ofList [c])))
  | .dict d => .list (expandNamesFrom 0 (d.map fun p => .str p.1))
  | v => v

/-- `Blueprint…init_icons_from_list`, `/repo/draftsman/classes/blueprint.py:399-411`, the body of the loop: the signal stays a plain name. -/
def expandIcon (i : Nat) : Val → Val
  | .str s => .dict [("signal", .str s), ("index", .int (i + 1))]
  | v => v

/-- The loop of the next definition: `/repo/draftsman/classes/blueprint.py:399-411`. -/
def expandIconsFrom (i : Nat) : List Val → List Val
  | [] => []
  | v :: l => expandIcon i v :: expandIconsFrom (i + 1) l

/-- Icons of a blueprint: `/repo/draftsman/classes/blueprint.py:399-411`. -/
def expandIcons : Val → Val
  | .list l => .list (expandIconsFrom 0 l)
  | .tuple l => .list (expandIconsFrom 0 l)
  | v => v

/-- The table `type_of`: the types of a signal, a set, listed in the order in which it is iterated.  `/repo/draftsman/data/signals.py:18` and `:90-129`. -/
abbrev Types := String → Option (List String)

/-- The type that is chosen from a set: `"item"` if it is there, else the first (`next(iter(…))`, `StopIteration` if there is none):
`/repo/draftsman/data/signals.py:124-128`, `/repo/draftsman/signatures.py:1262-1265`. -/
def chooseType (ts : List String) : Except PyErr String :=
  if "item" ∈ ts then .ok "item"
  else
    match ts with
    | t :: _ => .ok t
    | [] => .error .stopIteration

/-- `signal_dict` for a name, `/repo/draftsman/data/signals.py:109-129`. -/
def signalDict (types : Types) (s : String) : Except PyErr Val :=
  match types s with
  | none => .error .invalidSignal
  | some ts => (chooseType ts).map fun t => .dict [("name", .str s), ("type", .str t)]

/-- `normalize_icons`, the body of the loop, `/repo/draftsman/signatures.py:529-534`. -/
def normalizeIcon (types : Types) (i : Nat) : Val → Except PyErr Val
  | .str s => (signalDict types s).map fun d => .dict [("index", .int (i + 1)), ("signal", d)]
  | .dict d => if (Dict.get? d "type").isSome then .ok (.dict [("index", .int (i + 1)), ("signal", .dict d)]) else .ok (.dict d)
  | v => .ok v

/-- The loop of `normalize_icons`: `/repo/draftsman/signatures.py:523-537`. -/
def normalizeIconsFrom (types : Types) (i : Nat) : List Val → Except PyErr (List Val)
  | [] => .ok []
  | v :: l =>
    match normalizeIcon types i v with
    | .error e => .error e
    | .ok w => (normalizeIconsFrom types (i + 1) l).map (w :: ·)

/-- `normalize_icons`, `/repo/draftsman/signatures.py:523-537`. -/
def normalizeIcons (types : Types) : Val → Except PyErr Val
  | .list l => (normalizeIconsFrom types 0 l).map .list
  | .tuple l => (normalizeIconsFrom types 0 l).map .list
  | v => .ok v

/-- `entry[0]` and `entry[1]` with the look-up of the type in between, `/repo/draftsman/signatures.py:1262-1272`.  Simplified: tuples in place of a name are
taken to be hashable. -/
def sectionEntry (types : Types) (i : Nat) : List Val → Except PyErr Val
  | [] => .error .indexError
  | .str s :: rest =>
    match types s with
    | none => .error .invalidSignal
    | some ts =>
      match chooseType ts with
      | .error e => .error e
      | .ok t =>
        match rest with
        | [] => .error .indexError
        | c :: _ => .ok (.dict [("index", .int (i + 1)), ("name", .str s), ("type", .str t), ("comparator", .str "="), ("count", c)])
  | .dict _ :: _ => .error .typeError
  | .list _ :: _ => .error .typeError
  | _ :: _ => .error .invalidSignal

/-- `Section.normalize_input`, `/repo/draftsman/signatures.py:1253-1275`: the list is changed in place, up to the entry that cannot be expanded. -/
def normalizeSectionFrom (types : Types) (i : Nat) : List Val → List Val × Option PyErr
  | [] => ([], none)
  | .tuple t :: l =>
    match sectionEntry types i t with
    | .error e => (.tuple t :: l, some e)
    | .ok w => let r := normalizeSectionFrom types (i + 1) l; (w :: r.1, r.2)
  | v :: l => let r := normalizeSectionFrom types (i + 1) l; (v :: r.1, r.2)

/-- The whole of the section's normalisation: `/repo/draftsman/signatures.py:1253-1275`. -/
def normalizeSection (types : Types) (l : List Val) : List Val × Option PyErr := normalizeSectionFrom types 0 l

end Shorthand
end Draftsman
