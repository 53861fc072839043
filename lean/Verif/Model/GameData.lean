import Verif.Model.Dict
import Verif.Model.Py
import Mathlib.Data.Char
import Mathlib.Data.List.Lex
import Mathlib.Data.List.Sort
/-
Extracting the game's data: the conversion of Lua tables, the order of items and of everything else, and the tables of recipes.
`/repo/draftsman/environment/update.py:122-232`, 713-856, 1328-1347.

Strings are lists of characters, compared as Python compares them, by code points.  The prototypes hold only the keys that are read here.  The tables of groups and
subgroups are keyed by name, so that no two have the same name; items of different categories may.
-/
namespace Draftsman
namespace GameData

/-- A string. Python built-in. -/
abbrev Str := List Char

/-! ### Lua tables -/

/-- A key of a Lua table as `lupa` hands it over: `isinstance(key, int)` is true of integers and of booleans.
`/repo/draftsman/environment/update.py:721`. -/
inductive LKey where
  | int (k : Int)
  | bool (b : Bool)
  | str (s : Str)
  deriving DecidableEq, Repr

/-- A Lua value: a table with its entries in the order in which they are iterated, or something else.  Floating-point keys are left out.
`/repo/draftsman/environment/update.py:713-731`. -/
inductive Lua where
  | atom (n : Nat)
  | table (entries : List (LKey × Lua))

/-- What it is converted to.  `/repo/draftsman/environment/update.py:713-731`. -/
inductive PyVal where
  | atom (n : Nat)
  | list (values : List PyVal)
  | dict (entries : List (LKey × PyVal))

/-- `isinstance(key, int)`, `/repo/draftsman/environment/update.py:721`. -/
def LKey.isInt : LKey → Bool
  | .int _ => true
  | .bool _ => true
  | .str _ => false

mutual
/-- `convert_table_to_dict`, `/repo/draftsman/environment/update.py:713-731`, for a table; anything else stays as it is (724). -/
def convert : Lua → PyVal
  | .atom n => .atom n
  | .table l =>
    if (l.map (·.1)).all LKey.isInt then .list ((convertAll l).map (·.2)) else .dict (convertAll l)
/-- The loop over the entries, `/repo/draftsman/environment/update.py:720-726`. -/
def convertAll : List (LKey × Lua) → List (LKey × PyVal)
  | [] => []
  | (k, v) :: r => (k, convert v) :: convertAll r
end

/-! ### Orders -/

/-- An item group.  `/repo/draftsman/environment/update.py:742` and 770-773. -/
structure Grp where
  name : Str
  order : Option Str
  deriving DecidableEq, Repr

/-- An item subgroup.  `/repo/draftsman/environment/update.py:743` and 776-781. -/
structure Sub where
  name : Str
  order : Option Str
  group : Str
  deriving DecidableEq, Repr

/-- An item.  `/repo/draftsman/environment/update.py:783-794`. -/
structure Item where
  name : Str
  order : Option Str
  subgroup : Option Str
  deriving DecidableEq, Repr

/-- Anything that is sorted: `mined` is `["minable"]["result"]`, if both keys are there.  `/repo/draftsman/environment/update.py:147-207`. -/
structure Obj where
  name : Str
  order : Option Str
  subgroup : Option Str
  type : Str
  mined : Option Str
  deriving DecidableEq, Repr

/-- The name that stands for a missing subgroup.  `/repo/draftsman/environment/update.py:178` and 791. -/
def other : Str := "other".toList

/-- The tuple `(order is None, order, name)`, `/repo/draftsman/environment/update.py:756` and 220-222, as a list of strings: `False` and
`True` are the empty string and "1"; a `None` is only ever compared with a `None`, both are the empty string here.  -/
def orderKey (order : Option Str) : List Str := [if order = none then ['1'] else [], order.getD []]

/-- The subgroup and group of an object, `/repo/draftsman/environment/update.py:174-183` and 190-207: `sub` is the name of the subgroup. -/
def place (subs : Dict Str Sub) (grps : Dict Str Grp) (sub : Str) : Except PyErr (Sub × Grp) :=
  match subs.get? sub with
  | none => .error .keyError
  | some s => match grps.get? s.group with
    | none => .error .keyError
    | some g => .ok (s, g)

/-- The name of the associated item, `/repo/draftsman/environment/update.py:151-163`: the one mined, or the one of the same name; an empty name
counts as none (163). -/
def itemFor (items : Dict Str Item) (o : Obj) : Option Str :=
  match o.mined with
  | some r => if r = [] then none else some r
  | none => if o.name = [] then none else if (items.get? o.name).isSome then some o.name else none

/-- The order of the item, or else that of the object, `/repo/draftsman/environment/update.py:169-171`. -/
def orderOf (i : Item) (o : Obj) : Option Str :=
  match i.order with
  | some x => some x
  | none => o.order

/-- The name, order and name of the subgroup by which an object is sorted, `/repo/draftsman/environment/update.py:163-203`. -/
def sortInfo (items : Dict Str Item) (o : Obj) : Except PyErr (Str × Option Str × Str) :=
  match itemFor items o with
  | some a =>
    match items.get? a with
    | none => .error .keyError
    | some i => .ok (i.name, orderOf i o, i.subgroup.getD other)
  | none => .ok (o.name, o.order, o.subgroup.getD (if o.type = "fluid".toList then "fluid".toList else other))

/-- The key of an object, `/repo/draftsman/environment/update.py:218-231`: the tuple of the tuples for group, subgroup and object, as one
list.  The orders of group and subgroup must be there. -/
def objKey (items : Dict Str Item) (subs : Dict Str Sub) (grps : Dict Str Grp) (o : Obj) : Except PyErr (List Str) :=
  match sortInfo items o with
  | .error e => .error e
  | .ok i => match place subs grps i.2.2 with
    | .error e => .error e
    | .ok p => match p.1.order, p.2.order with
      | some so, some go => .ok ([go, p.2.name, so, p.1.name] ++ orderKey i.2.1 ++ [i.1, o.name])
      | _, _ => .error .keyError

/-- `get_order`, `/repo/draftsman/environment/update.py:122-232`. -/
def getOrder (items : Dict Str Item) (subs : Dict Str Sub) (grps : Dict Str Grp) (objs : List Obj) : Except PyErr (List Str) :=
  match objs.mapM (fun o => (objKey items subs grps o).map fun k => (k, o.name)) with
  | .error e => .error e
  | .ok ks => .ok ((ks.insertionSort fun a b => a.1 ≤ b.1).map (·.2))

/-- `sorted(l, key=lambda x: (x.get("order") is None, x.get("order"), x["name"]))`, `/repo/draftsman/environment/update.py:754-764`, 817-843.
 -/
def sortBy {α : Type} (order : α → Option Str) (name : α → Str) (l : List α) : List α :=
  l.insertionSort fun a b => orderKey (order a) ++ [name a] ≤ orderKey (order b) ++ [name b]

/-- `to_ordered_dict`, `/repo/draftsman/environment/update.py:745-749`. -/
def toDict {α : Type} (name : α → Str) (l : List α) : Dict Str α := l.foldl (fun d x => d.set (name x) x) []

/-- `item["order"] = ""` where there is none, `/repo/draftsman/environment/update.py:792-793`. -/
def fill (i : Item) : Item := { i with order := some (i.order.getD []) }

/-- The items of a subgroup, sorted, `/repo/draftsman/environment/update.py:783-794` and 820-830. -/
def itemsOf (items : List Item) (s : Sub) : List Item :=
  (toDict Item.name (sortBy Item.order Item.name ((items.map fill).filter fun i => i.subgroup.getD other = s.name))).map (·.2)

/-- The subgroups of a group, sorted, `/repo/draftsman/environment/update.py:776-781` and 832-841. -/
def subsOf (subs : List Sub) (g : Grp) : List Sub :=
  (toDict Sub.name (sortBy Sub.order Sub.name (subs.filter fun s => s.group = g.name))).map (·.2)

/-- `get_items`, `/repo/draftsman/environment/update.py:734-856`: the dictionary of all items.  `items` are those of all categories in the
order of lines 801-816. -/
def getItems (groups : List Grp) (subs : List Sub) (items : List Item) : Except PyErr (Dict Str Item) :=
  if subs.any fun s => decide (s.group ∉ groups.map (·.name)) then .error .keyError
  else if items.any fun i => decide (i.subgroup.getD other ∉ subs.map (·.name)) then .error .keyError
  else .ok (toDict Item.name
    ((sortBy Grp.order Grp.name groups).flatMap fun g => (subsOf subs g).flatMap fun s => itemsOf items s))

/-! ### Recipes -/

/-- A recipe's category; `"crafting"` if it has none.  `/repo/draftsman/environment/update.py:1337`. -/
structure Recipe where
  name : Str
  category : Option Str
  deriving DecidableEq, Repr

/-- The category of a recipe.  `/repo/draftsman/environment/update.py:1337`. -/
def Recipe.cat (r : Recipe) : Str := r.category.getD "crafting".toList

/-- `out_categories` at first: every category with no recipes.  `/repo/draftsman/environment/update.py:1331-1333`. -/
def noRecipes (categories : List Str) : Dict Str (List Str) := categories.foldl (fun (d : Dict Str (List Str)) c => d.set c []) []

/-- One recipe added to its category, `/repo/draftsman/environment/update.py:1337-1338`. -/
def addRecipe (d : Dict Str (List Str)) (r : Recipe) : Except PyErr (Dict Str (List Str)) :=
  match d.get? r.cat with
  | none => .error .keyError
  | some names => .ok (d.set r.cat (names ++ [r.name]))

/-- `out_categories`, `/repo/draftsman/environment/update.py:1331-1338`. -/
def recipeCategories (categories : List Str) (l : List Recipe) : Except PyErr (Dict Str (List Str)) :=
  l.foldlM addRecipe (noRecipes categories)

/-- One category added to the recipes of a machine, `/repo/draftsman/environment/update.py:1345-1347`. -/
def addCategory (d : Dict Str (List Str)) (acc : List Str) (c : Str) : Except PyErr (List Str) :=
  match d.get? c with
  | none => .error .keyError
  | some names => .ok (acc ++ names)

/-- `for_machine`, `/repo/draftsman/environment/update.py:1340-1347`, for one machine and its `crafting_categories`. -/
def forMachine (d : Dict Str (List Str)) (cats : List Str) : Except PyErr (List Str) := cats.foldlM (addCategory d) []

end GameData
end Draftsman
