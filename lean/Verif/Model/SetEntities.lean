import Verif.Model.EntityList
/-
Assigning to `entities` of a blueprint or a group: `/repo/draftsman/classes/blueprint.py:843-856`, `/repo/draftsman/classes/group.py:445-456`, with
the construction of an `EntityList` from a list, `/repo/draftsman/classes/entity_list.py:100-110`.

Left out: errors of constructing an entity from a dictionary (names and fields are taken to be good); the map and its warnings; groups as
members are copied like entities.
-/
namespace Draftsman
namespace SetEntities

/-- An entry of the list assigned: an entity or group, a dictionary (with its name, if it has one, its id and what else it says), or
something else.  `/repo/draftsman/classes/entity_list.py:101-110`. -/
inductive Src where
  | obj (e : EL)
  | dict (name : Option String) (id : Option String) (key : Nat)
  | other
  deriving DecidableEq, Repr

/-- What is assigned: `None`, an `EntityList` (given by its members), a list, a tuple (or another sequence), or something that is not a sequence.
`/repo/draftsman/classes/blueprint.py:845-856`. -/
inductive Value where
  | none
  | elist (l : List EL)
  | list (l : List Src)
  | tuple (l : List Src)
  | scalar
  deriving DecidableEq, Repr

/-- A blueprint or group: its list, its wires (pairs of the objects joined), the objects whose parent it is, and the next identity a new
object gets.  `/repo/draftsman/classes/blueprint.py:291-294`, `/repo/draftsman/classes/group.py:434-456`, `/repo/draftsman/classes/entity_like.py:38`. -/
structure World where
  lst : EList
  wires : List (Nat × Nat)
  children : List Nat
  next : Nat
  deriving DecidableEq, Repr

/-- The loop of `EntityList.__init__`, `/repo/draftsman/classes/entity_list.py:100-110`: entities are copied one by one, dictionaries lose their
name.  Gives the list, the next identity, the entries as they are left, and the error. -/
def build (s : EList) (next : Nat) : List Src → EList × Nat × List Src × Option PyErr
  | [] => (s, next, [], none)
  | .obj e :: r =>
    match s.append { e with uid := next } with
    | (s', some err) => (s', next + 1, .obj e :: r, some err)
    | (s', none) => match build s' (next + 1) r with
      | (s'', n, r', err) => (s'', n, .obj e :: r', err)
  | .dict (some _) id key :: r =>
    match s.append ⟨next, id, some key⟩ with
    | (s', some err) => (s', next + 1, .dict none id key :: r, some err)
    | (s', none) => match build s' (next + 1) r with
      | (s'', n, r', err) => (s'', n, .dict none id key :: r', err)
  | .dict none id key :: r => (s, next, .dict none id key :: r, some .keyError)
  | .other :: r => (s, next, .other :: r, some .typeError)

/-- `self._root._entities = EntityList(self, l)`: the new list takes the place of the old one once it is complete, and its members have this
parent.  Neither the wires nor the parents of the former members are touched.  `/repo/draftsman/classes/blueprint.py:853, 856`,
`/repo/draftsman/classes/group.py:451`. -/
def replace (w : World) (l : List Src) : World × List Src × Option PyErr :=
  match build EList.empty w.next l with
  | (s, n, l', none) => (⟨s, w.wires, w.children ++ s.root.map (·.uid), n⟩, l', none)
  | (_, n, l', some e) => ({ w with next := n }, l', some e)

/-- `Blueprint.entities = value`, `/repo/draftsman/classes/blueprint.py:843-856`. -/
def setBlueprint (w : World) : Value → World × Value × Option PyErr
  | .none => ({ w with lst := w.lst.clear }, .none, none)
  | .elist l => match replace w (l.map .obj) with
    | (w', _, e) => (w', .elist l, e)
  | .list l => match replace w l with
    | (w', l', e) => (w', .list l', e)
  | .tuple l => match replace w l with
    | (w', l', e) => (w', .tuple l', e)
  | .scalar => (w, .scalar, some .typeError)

/-- `Group.entities = value`, `/repo/draftsman/classes/group.py:445-456`; an `EntityList` is copied as a whole by `EntityList.__deepcopy__`,
`/repo/draftsman/classes/entity_list.py:662-692`, which appends copies too. -/
def setGroup (w : World) : Value → World × Value × Option PyErr
  | .none => ({ w with lst := w.lst.clear }, .none, none)
  | .list l => match replace w l with
    | (w', l', e) => (w', .list l', e)
  | .elist l => match replace w (l.map .obj) with
    | (w', _, e) => (w', .elist l, e)
  | .tuple l => (w, .tuple l, some .typeError)
  | .scalar => (w, .scalar, some .typeError)

end SetEntities
end Draftsman
