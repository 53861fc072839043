import Verif.Model.Modules
/-
What machines can use: recipes, their ingredients, modules and fuels, and the warnings about recipes and item requests that do not fit.
Simplified: a request is seen only by the name of its item, and `items` is a list (some constructors can be given `{}`).  What pydantic
itself checks of a list of requests is a parameter; the warnings that come from there (unknown signals, unknown keys) are left out.
-/
namespace Draftsman
namespace Machines

/-- An ingredient of a recipe: a list that begins with the name, or a dictionary, whose `"name"` may be missing.
`/repo/draftsman/data/recipes.py:65-69`. -/
inductive Ingr where
  | list (l : List String)
  | dict (name : Option String)
  deriving DecidableEq, Repr

/-- An entry of `recipes.raw` as far as it is read here: `"ingredients"`, and `"ingredients"` under `"normal"` and `"expensive"`, each of
which may be missing.  `/repo/draftsman/data/recipes.py:64-75`. -/
structure Recipe where
  ingredients : Option (List Ingr)
  normal : Option (Option (List Ingr))
  expensive : Option (Option (List Ingr))
  deriving DecidableEq, Repr

/-- An energy source: `"type"`, `"fuel_categories"` and `"fuel_category"`, each of which may be missing.
`/repo/draftsman/classes/mixins/burner_energy_source.py:110-118, 133-139`. -/
structure Source where
  type : Option String
  categories : Option (List String)
  category : Option String
  deriving DecidableEq, Repr

/-- `"allowed_effects"`: one effect or a list.  `/repo/draftsman/classes/mixins/modules.py:139-145`. -/
inductive Effects where
  | one (e : String)
  | many (l : List String)
  deriving DecidableEq, Repr

/-- An entry of `entities.raw` as far as it is read here; the outer `none` is a missing key.  `"burner"` and `"energy_source"`:
`/repo/draftsman/classes/mixins/burner_energy_source.py:133-139`, `/repo/draftsman/prototypes/burner_generator.py:100-101`;
`"crafting_categories"`: `/repo/draftsman/prototypes/furnace.py:183-187`; `"inputs"`: `/repo/draftsman/prototypes/lab.py:68`;
`"allowed_effects"`: `/repo/draftsman/classes/mixins/modules.py:139-145`. -/
structure EntRaw where
  effects : Option Effects
  crafting : Option (List String)
  inputs : Option (List String)
  source : Option (Option Source)
  burner : Option (Option Source)
  deriving DecidableEq, Repr

/-- The tables of game data: `recipes.raw`, `recipes.for_machine`, `recipes.categories`, `modules.raw`, `entities.raw` and `items.fuels`.
`/repo/draftsman/data/recipes.py:14-18`, `modules.py:10-13`, `entities.py:14-18`, `items.py:10-18`. -/
structure Data where
  recipes : Dict String Recipe
  forMachine : Dict String (List String)
  categories : Dict String (List String)
  modules : Dict String Modules.Module
  ents : Dict String EntRaw
  fuels : Dict String (List String)

/-- A requested item as it is stored: a dictionary whose `"id"` is a dictionary, a dictionary whose `"id"` is a plain name, or an
`ItemRequest` as pydantic makes them.  `/repo/draftsman/signatures.py:1329-1337` with 376-397. -/
inductive Item where
  | raw (name : String)
  | short (name : String)
  | model (name : String)
  deriving DecidableEq, Repr

/-- The classes that are told apart here: `AssemblingMachine`, `RocketSilo`, `Furnace`, `BurnerGenerator`, `Reactor`, `MiningDrill`, `Lab`,
`Beacon` and the classes with `InventoryMixin`.  `/repo/draftsman/prototypes/assembling_machine.py:25`, `rocket_silo.py:23`,
`furnace.py:27`, `burner_generator.py:20`, `reactor.py:24`, `mining_drill.py:27`, `lab.py:20`, `beacon.py:19`,
`/repo/draftsman/classes/mixins/inventory.py:24`. -/
inductive Kind where
  | assembler | silo | furnace | generator | reactor | drill | lab | beacon | container
  deriving DecidableEq, Repr

/-- A machine: its class, name, recipe and item requests.  `/repo/draftsman/classes/mixins/recipe.py:171`,
`/repo/draftsman/classes/mixins/request_items.py:94`. -/
structure Machine where
  kind : Kind
  name : String
  recipe : Option String
  items : List Item
  deriving DecidableEq, Repr

/-- `validate_assignment`, `/repo/draftsman/constants.py:801-835`. -/
inductive Mode where
  | none | minimum | strict | pedantic
  deriving DecidableEq, Repr

/-- Not `mode <= ValidationMode.MINIMUM`, `/repo/draftsman/constants.py:834-849` (`total_ordering`). -/
def Mode.loud : Mode → Bool
  | .none | .minimum => false
  | .strict | .pedantic => true

/-- The warnings: `UnknownRecipeWarning`, `RecipeLimitationWarning`, the `ItemLimitationWarning` of recipes, `ModuleLimitationWarning`,
`FuelLimitationWarning`, the `ItemLimitationWarning` of labs, and `ItemCapacityWarning`.
`/repo/draftsman/classes/mixins/recipe.py:47-110`, `/repo/draftsman/prototypes/assembling_machine.py:76-83`,
`/repo/draftsman/classes/mixins/burner_energy_source.py:58-64`, `/repo/draftsman/prototypes/lab.py:85-90`, `/repo/draftsman/classes/mixins/inventory.py:200-205`. -/
inductive Warn where
  | unknownRecipe (r : String)
  | notForMachine (r : String)
  | notUsed (item : String)
  | notWithRecipe (item : String)
  | wrongFuel (item : String)
  | notInLab (item : String)
  | tooMany
  deriving DecidableEq, Repr

/-- `x[0] if isinstance(x, list) else x["name"]`, `/repo/draftsman/data/recipes.py:67`. -/
def Ingr.name : Ingr → Except PyErr String
  | .list (n :: _) => .ok n
  | .list [] => .error .indexError
  | .dict (some n) => .ok n
  | .dict none => .error .keyError

/-- `get_recipe_ingredients`, `/repo/draftsman/data/recipes.py:26-75`; `None` for no or an unknown recipe.  The quality is not looked at. -/
def getIngredients (D : Data) (r : Option String) (expensive : Bool) : Except PyErr (Option (List String)) :=
  match r with
  | none => .ok none
  | some r => match D.recipes.get? r with
    | none => .ok none
    | some R => match R.ingredients with
      | some l => (l.mapM Ingr.name).map some
      | none => match (if expensive then R.expensive else R.normal) with
        | some (some l) => (l.mapM Ingr.name).map some
        | _ => .error .keyError

/-- `allowed_effects`: `/repo/draftsman/classes/mixins/modules.py:127-145`, `/repo/draftsman/prototypes/assembling_machine.py:156-165`,
`/repo/draftsman/prototypes/furnace.py:164-173`. -/
def allowedEffects (D : Data) (m : Machine) : Option (List String) :=
  match D.ents.get? m.name with
  | none => none
  | some e => match e.effects with
    | some (.one s) => some [s]
    | some (.many l) => some l
    | none => if m.kind = .assembler ∨ m.kind = .furnace then some []
      else some ["speed", "productivity", "consumption", "pollution", "quality"]

/-- `allowed_modules`: `/repo/draftsman/prototypes/assembling_machine.py:176-181`, `/repo/draftsman/classes/mixins/modules.py:148-156`. -/
def allowedModules (D : Data) (m : Machine) : Option (List String) :=
  Modules.fromEffects D.modules (allowedEffects D m) (if m.kind = .assembler then m.recipe else none)

/-- `allowed_items` of the classes with a recipe: that of `AssemblingMachine` (`/repo/draftsman/prototypes/assembling_machine.py:169-174`), and `None`
for rocket silos (`/repo/draftsman/classes/mixins/request_items.py:83-85`).  `None.union` is an `AttributeError`. -/
def allowedItems (D : Data) (m : Machine) : Except PyErr (Option (List String)) :=
  if m.kind = .assembler then
    match getIngredients D m.recipe false with
    | .error e => .error e
    | .ok none => .ok none
    | .ok (some l) => match allowedModules D m with
      | none => .error .attributeError
      | some ms => .ok (some (ms ++ l))
  else .ok none

/-- `item["id"]["name"]`: a text cannot be indexed with a name.  `/repo/draftsman/classes/mixins/recipe.py:102`. -/
def Item.name : Item → Except PyErr String
  | .raw n => .ok n
  | .model n => .ok n
  | .short _ => .error .typeError

/-- The loop of `check_items_fit_in_recipe`; `in None` is a `TypeError`.  `/repo/draftsman/classes/mixins/recipe.py:99-110`. -/
def checkItems (D : Data) (m : Machine) : List Item → Except PyErr (List Warn)
  | [] => .ok []
  | i :: is => match i.name with
    | .error e => .error e
    | .ok n => match allowedItems D m with
      | .error e => .error e
      | .ok none => .error .typeError
      | .ok (some l) => if n ∈ l then checkItems D m is else .ok [.notUsed n]

/-- `ensure_recipe_known`, `/repo/draftsman/classes/mixins/recipe.py:37-56`. -/
def known (D : Data) (r : String) : List Warn :=
  if (D.recipes.get? r).isSome then [] else [.unknownRecipe r]

/-- `ensure_recipe_allowed_in_machine`, `/repo/draftsman/classes/mixins/recipe.py:58-83`. -/
def permitted (D : Data) (m : Machine) (r : String) : List Warn :=
  match D.forMachine.get? m.name with
  | none => []
  | some l => if (D.recipes.get? r).isSome && !decide (r ∈ l) then [.notForMachine r] else []

/-- `machine.recipe = v` for a text or `None`: the recipe is stored before it is looked at.  `/repo/draftsman/classes/mixins/recipe.py:173-182`
with the validators of lines 37-112. -/
def setRecipe (D : Data) (mode : Mode) (m : Machine) (v : Option String) : Machine × Except PyErr (List Warn) :=
  let m' := { m with recipe := v }
  if mode.loud then
    match v with
    | none => (m', .ok [])
    | some r => (m', (checkItems D m' m'.items).map fun w => known D r ++ permitted D m' r ++ w)
  else (m', .ok [])

/-- The module is limited to other recipes, `/repo/draftsman/prototypes/assembling_machine.py:70-76`. -/
def limited (D : Data) (r n : String) : Bool :=
  match D.modules.get? n with
  | none => false
  | some md => match md.limitation with
    | none => false
    | some l => !decide (r ∈ l)

/-- `ensure_module_permitted_with_recipe`, `/repo/draftsman/prototypes/assembling_machine.py:48-85`. -/
def moduleWarnings (D : Data) (m : Machine) : Except PyErr (List Warn) :=
  match m.recipe with
  | none => .ok []
  | some r => (m.items.mapM Item.name).map fun ns => (ns.filter (limited D r)).map .notWithRecipe

/-- The sets of fuels kept for each name, and `None` for unknown entities: `_valid_fuel_items`,
`/repo/draftsman/classes/mixins/burner_energy_source.py:13`. -/
abbrev Cache := Dict String (Option (List String))

/-- `allowed_fuel_items`: `/repo/draftsman/classes/mixins/burner_energy_source.py:177-186`. -/
def allowedFuels (c : Cache) (name : String) : Option (List String) := (c.get? name).join

/-- `allowed_items` of mining drills (`/repo/draftsman/prototypes/mining_drill.py:104-108`) and reactors (`/repo/draftsman/prototypes/reactor.py:95-97`), and `None` for the
others without a recipe (`/repo/draftsman/classes/mixins/request_items.py:83-85`).  `set.union(None)` is a `TypeError`. -/
def allowedFuelled (D : Data) (c : Cache) (m : Machine) : Except PyErr (Option (List String)) :=
  match m.kind with
  | .drill => match allowedModules D m with
    | none => .ok none
    | some ms => match allowedFuels c m.name with
      | none => .error .typeError
      | some l => .ok (some (ms ++ l))
  | .reactor => .ok (allowedFuels c m.name)
  | _ => .ok none

/-- `items.all_fuel_items`, `/repo/draftsman/data/items.py:16-18`. -/
def allFuels (D : Data) : List String := D.fuels.flatMap (·.2)

/-- `ensure_fuel_type_valid`, `/repo/draftsman/classes/mixins/burner_energy_source.py:29-66`, 189-201. -/
def fuelWarnings (D : Data) (c : Cache) (m : Machine) : Except PyErr (List Warn) :=
  match allowedFuels c m.name with
  | none => .ok []
  | some a => (m.items.mapM Item.name).map fun ns =>
      (ns.filter fun n => decide (n ∈ allFuels D) && !decide (n ∈ a)).map .wrongFuel

/-- The validators of `items`: `ensure_input_ingredients_are_valid` of furnaces (`/repo/draftsman/prototypes/furnace.py:47-77`) and
`only_allow_fuel_item_requests` of burner generators (`/repo/draftsman/prototypes/burner_generator.py:35-64`) look up the request itself
in a dictionary, which is a `TypeError` because neither dictionaries nor pydantic models can be hashed; those of assembling machines and of
`BurnerEnergySourceMixin` are above; rocket silos, labs, beacons and containers have none. -/
def itemWarnings (D : Data) (c : Cache) (m : Machine) : Except PyErr (List Warn) :=
  match m.kind with
  | .assembler => moduleWarnings D m
  | .furnace => do
    let w ← fuelWarnings D c m
    if m.items = [] then return w else .error .typeError
  | .generator => do
    let w ← fuelWarnings D c m
    if allowedFuels c m.name = none ∨ m.items = [] then return w else .error .typeError
  | .reactor | .drill => fuelWarnings D c m
  | .silo | .lab | .beacon | .container => .ok []

/-- What pydantic makes of a request that passes.  `/repo/draftsman/signatures.py:1329-1337` with 376-397. -/
def Item.toModel : Item → Item
  | .raw n | .short n | .model n => .model n

/-- `machine.items = v`: stored, validated, put back only if the exception is a `DataFormatError`.  `ok` is what pydantic accepts.
`/repo/draftsman/classes/mixins/request_items.py:96-119`. -/
def setItems (D : Data) (c : Cache) (ok : Item → Bool) (mode : Mode) (m : Machine) (v : Option (List Item)) :
    Machine × Except PyErr (List Warn) :=
  match v with
  | none => ({ m with items := [] }, .ok [])
  | some l =>
    if mode = .none then ({ m with items := l }, .ok [])
    else if l.all ok then
      if mode.loud then
        match itemWarnings D c { m with items := l } with
        | .error e => ({ m with items := l }, .error e)
        | .ok w => ({ m with items := l.map Item.toModel }, .ok w)
      else ({ m with items := l.map Item.toModel }, .ok [])
    else (m, .error .dataFormat)

/-- `input_energy_source`: `/repo/draftsman/classes/mixins/burner_energy_source.py:128-139`, and `/repo/draftsman/prototypes/burner_generator.py:99-101` for burner
generators. -/
def inputSource (k : Kind) (e : EntRaw) : Except PyErr (Option Source) :=
  if k = .generator then
    match e.burner with
    | none => .error .keyError
    | some s => .ok s
  else match e.source with
    | none => .error .keyError
    | some none => .ok none
    | some (some s) => match s.type with
      | none => .error .keyError
      | some t => if t = "burner" then .ok (some s) else .ok none

/-- The fuel categories of a source, `/repo/draftsman/classes/mixins/burner_energy_source.py:110-117`. -/
def Source.fuelCategories (s : Source) : List String :=
  match s.categories with
  | some l => l
  | none => [s.category.getD "chemical"]

/-- The loop that fills the set; an unknown category is a `KeyError`, and what was collected stays.
`/repo/draftsman/classes/mixins/burner_energy_source.py:119-121`. -/
def collect (D : Data) : List String → List String → List String × Option PyErr
  | [], acc => (acc, none)
  | k :: ks, acc => match D.fuels.get? k with
    | none => (acc, some .keyError)
    | some l => collect D ks (acc ++ l)

/-- What the constructor of `BurnerEnergySourceMixin` does to the sets kept: `/repo/draftsman/classes/mixins/burner_energy_source.py:98-125`. -/
def remember (D : Data) (k : Kind) (name : String) (c : Cache) : Cache × Option PyErr :=
  match c.get? name with
  | some _ => (c, none)
  | none => match D.ents.get? name with
    | none => (c.set name none, none)
    | some e => match inputSource k e with
      | .error x => (c, some x)
      | .ok none => (c.set name (some []), none)
      | .ok (some s) =>
        let r := collect D s.fuelCategories []
        (c.set name (some r.1), r.2)

/-- `Furnace.allowed_input_ingredients`, `/repo/draftsman/prototypes/furnace.py:177-200`: an unknown category is a `KeyError`; going through `None`,
the ingredients of an unknown recipe, is a `TypeError`. -/
def furnaceInputs (D : Data) (name : String) : Except PyErr (Option (List String)) :=
  match D.ents.get? name with
  | none => .ok none
  | some e => match e.crafting with
    | none => .error .keyError
    | some cs => do
      let rs ← cs.mapM fun k => match D.categories.get? k with
        | some l => Except.ok (ε := PyErr) l
        | none => .error .keyError
      let ns ← rs.flatten.mapM fun r => do
        match ← getIngredients D (some r) false with
        | some l => Except.ok (ε := PyErr) l
        | none => .error .typeError
      return some ns.flatten

/-- A pydantic model, `/repo/draftsman/signatures.py:1329-1337`. -/
def Item.isModel : Item → Bool
  | .model _ => true
  | _ => false

/-- `module_slots_occupied`: `sum([v for k, v in self.items if k in modules.raw])`, where each element of the list is unpacked: a dictionary into
its two keys `"id"` and `"items"`, a model into two pairs, the first of which cannot be hashed.
`/repo/draftsman/classes/mixins/modules.py:119-124`.  Adding the text `"items"` is a `TypeError`. -/
def slotsOccupied (D : Data) (m : Machine) : Except PyErr Nat :=
  if m.items.any Item.isModel then .error .typeError
  else if m.items ≠ [] ∧ (D.modules.get? "id").isSome then .error .typeError
  else .ok 0

/-- `module_items`, `/repo/draftsman/classes/mixins/modules.py:161-169`, and `inventory_slots_occupied`,
`/repo/draftsman/classes/mixins/inventory.py:122-147`: both call `self.items.items()`, which lists do not have. -/
def perItem (_m : Machine) : Except PyErr Nat := .error .attributeError

/-- `ingredient_items`, `/repo/draftsman/classes/mixins/input_ingredients.py:92-106`, given `allowed_input_ingredients`: `in None` is a `TypeError`, and so is a set
with a request in it. -/
def ingredientItems (allowed : Except PyErr (Option (List String))) (m : Machine) : Except PyErr (List Item) :=
  m.items.foldlM (fun acc i => do
    let n ← i.name
    match ← allowed with
    | none => .error .typeError
    | some l => if n ∈ l then .error .typeError else return acc) []

/-- `Lab.set_item_request` and `InventoryMixin.set_item_request` after the call of `RequestItemsMixin.set_item_request`, whose outcome is `base`.
`/repo/draftsman/prototypes/lab.py:78-90`, `/repo/draftsman/classes/mixins/inventory.py:185-205`; other classes do not override it. -/
def setRequest (D : Data) (item : String) (base : Machine × Except PyErr (List Warn)) : Machine × Except PyErr (List Warn) :=
  match base.2 with
  | .error e => (base.1, .error e)
  | .ok w => match base.1.kind with
    | .lab =>
      if (D.modules.get? item).isSome then (base.1, .ok w)
      else match D.ents.get? base.1.name with
        | none => (base.1, .error .typeError)
        | some e => match e.inputs with
          | none => (base.1, .error .keyError)
          | some l => if item ∈ l then (base.1, .ok w) else (base.1, .ok (w ++ [.notInLab item]))
    | .container => (base.1, (perItem base.1).map fun _ => w ++ [.tooMany])
    | _ => (base.1, .ok w)

end Machines
end Draftsman
