import Verif.Model.AttrTable
/-
Constructors of entities.  `Entity.__init__` (`/repo/draftsman/classes/entity.py:199-335`) builds the model `_root` from the keywords and assigns
the common attributes; the constructors of mixins and prototypes pass their keywords up and then assign what they are in charge of.
`Model/CtorTable.lean` lists them all.
Simplified: values are objects known by where they come from (`Obj`); keywords are a partial map (the keys passed on by name are always named
parameters, so that no keyword is given twice); what pydantic makes of a value is an arbitrary function; caches, tile sizes and collision sets
are left out (`Model/Machines.lean` and the geometry have them).
-/
namespace Draftsman
namespace Ctor
open Attr

/-- An object, by its origin: `None`, a literal of the source, one handed in by the caller, the one object that was made when a `def` with a
mutable default was executed (`tags: dict[str, Any] = {}`, e.g. `/repo/draftsman/prototypes/accumulator.py:46`), one made during a call, or what
validation made of another one for a field; `source` is the text it was made from. -/
inductive Obj where
  | none
  | const (source : String)
  | given (n : Nat)
  | shared (cls param source : String)
  | new (call : Nat) (what source : String)
  | made (field : String) (from_ : Obj)
  deriving DecidableEq, Repr

/-- Keyword arguments, Python's `**kwargs`, e.g. `/repo/draftsman/classes/entity.py:212`. -/
abbrev Kw := String → Option Obj

/-- The default in `kwargs.get(k, default)`: a constant, or an object made on the spot, e.g. `/repo/draftsman/classes/mixins/request_items.py:79`. -/
inductive Dflt where
  | obj (o : Obj)
  | new (source : String)
  deriving DecidableEq, Repr

/-- The expressions that occur: a parameter, `kwargs.get(k, d)`, a constant, `{} if p is None else p`
(`/repo/draftsman/prototypes/constant_combinator.py:128-130`), a value of the prototype instead of `None`
(`/repo/draftsman/prototypes/electric_energy_interface.py:82-95`), and `kwargs["type"]` in place of `"input"`
(`/repo/draftsman/prototypes/underground_belt.py:40-41`). -/
inductive Expr where
  | par (p : String)
  | kwarg (k : String) (d : Dflt)
  | obj (o : Obj)
  | orNew (p : String)
  | orOwn (p own : String)
  | typeOr (p : String)
  deriving DecidableEq, Repr

/-- The statements after the call of `super().__init__`: `self.a = e`, `self._root.f = e`, `self.validate_assignment = validate_assignment`,
the choice between `position` and `tile_position` (`/repo/draftsman/classes/mixins/directional.py:130-136`) and that between `type` and `io_type`
(`/repo/draftsman/classes/mixins/io_type.py:36-42`). -/
inductive Stmt where
  | set (attr : String) (e : Expr)
  | setField (f : String) (e : Expr)
  | mode
  | place
  | ioType
  deriving DecidableEq, Repr

/-- One `__init__`: named parameters with their defaults, the keywords passed to `super().__init__` besides `**kwargs`, and what follows.
E.g. `/repo/draftsman/prototypes/lamp.py:67-99`. -/
structure Layer where
  cls : String
  params : List (String × Obj)
  pass : List (String × Expr)
  post : List Stmt

/-- A class derived from `Entity`: its attributes and fields, whether it has a direction or an orientation, and its constructors in the order of
method resolution, without that of `Entity`.  `/repo/draftsman/prototypes/lamp.py:34`. -/
structure Kind where
  cls : Cls
  directed : Bool
  oriented : Bool
  layers : List Layer

/-- What the surroundings decide: the lenient conversion of a field while constructing (`/repo/draftsman/signatures.py:145-162`), its validation
otherwise (`/repo/draftsman/classes/exportable.py:14-45`), the values that come from the prototype
(`/repo/draftsman/prototypes/electric_energy_interface.py:102-150`), whether a mode handed in counts as `NONE` (`/repo/draftsman/constants.py:802-850`), whether an
object equals `"input"`, and which call this is. -/
structure World where
  coerce : String → Obj → Obj
  check : String → Obj → Except PyErr Obj
  own : String → Obj
  off : Obj → Bool
  isInput : Obj → Bool
  call : Nat

/-- Whether nothing is validated: `ValidationMode.NONE` itself or what the caller may write for it, `/repo/draftsman/constants.py:834-835`. -/
def World.isOff (w : World) (m : Obj) : Bool := decide (m = .const "ValidationMode.NONE") || w.off m

/-- Where the entity was put: `self.position = …` or `self.tile_position = …`, `/repo/draftsman/classes/entity.py:326-332`. -/
inductive Place where
  | position (o : Obj)
  | tile (o : Obj)
  deriving DecidableEq, Repr

/-- An entity under construction: the fields of `_root`, plain instance attributes, the place and the mode.  `/repo/draftsman/classes/entity.py:199-335`. -/
structure Ent where
  root : String → Option Obj
  inst : String → Option Obj
  place : Place
  mode : Obj

/-- A named parameter in the body of a constructor, e.g. `/repo/draftsman/prototypes/lamp.py:67-80`. -/
def Layer.bind (l : Layer) (kw : Kw) (p : String) : Obj :=
  match kw p with
  | some o => o
  | none => (l.params.lookup p).getD .none

/-- `**kwargs` in the body of a constructor: the keywords that are no named parameters, e.g. `/repo/draftsman/prototypes/lamp.py:79`. -/
def Layer.rest (l : Layer) (kw : Kw) : Kw := fun k => if l.params.any (fun p => decide (p.1 = k)) then none else kw k

/-- `p` or, if it is `None`, something else.  `/repo/draftsman/prototypes/constant_combinator.py:128-130`. -/
def orElse (o d : Obj) : Obj := if o = .none then d else o

/-- Evaluation of an expression in the body of a constructor; the cases as listed at `Expr`, e.g. `/repo/draftsman/prototypes/train_stop.py:166-169`. -/
def Layer.eval (l : Layer) (w : World) (kw : Kw) : Expr → Obj
  | .par p => l.bind kw p
  | .kwarg k (.obj d) => (l.rest kw k).getD d
  | .kwarg k (.new t) => (l.rest kw k).getD (.new w.call k t)
  | .obj o => o
  | .orNew p => orElse (l.bind kw p) (.new w.call p "{}")
  | .orOwn p a => orElse (l.bind kw p) (w.own a)
  | .typeOr p => match l.rest kw "type" with
    | some t => if w.isInput (l.bind kw p) then t else l.bind kw p
    | none => l.bind kw p

/-- The keywords that `super().__init__(name, …, a=…, **kwargs)` receives, e.g. `/repo/draftsman/prototypes/lamp.py:87-95`. -/
def Layer.up (l : Layer) (w : World) (kw : Kw) : Kw := fun k =>
  match l.pass.lookup k with
  | some e => some (l.eval w kw e)
  | none => l.rest kw k

/-- The attributes of a kind, with the direction (`/repo/draftsman/classes/mixins/directional.py:196-206`,
`/repo/draftsman/classes/mixins/eight_way_directional.py:150-175`) and the orientation (`/repo/draftsman/classes/mixins/orientation.py:83-103`; what it makes
of `None` and of numbers counts as conversion). -/
def Kind.attrs (c : Kind) : List Attr :=
  c.cls.attrs ++ (if c.directed then [⟨"direction", ["direction"], ["direction"], .checked⟩] else []) ++
    (if c.oriented then [⟨"orientation", ["orientation"], ["orientation"], .always⟩] else [])

/-- A map with one entry changed, Python's assignment to an attribute, `/repo/draftsman/classes/entity.py:446`. -/
def upd (m : String → Option Obj) (k : String) (o : Obj) : String → Option Obj := fun j => if j = k then some o else m j

/-- What a setter stores: with validation on what the check gives, otherwise the value itself, with `None` replaced or after lenient conversion.
The styles of `Model/Attr.lean`; with validation on only `checked` attributes are assigned in constructors (`C84_late`).
`/repo/draftsman/prototypes/asteroid_collector.py:151-160`, `/repo/draftsman/classes/mixins/request_items.py:96-118`, `/repo/draftsman/classes/exportable.py:81-130`. -/
def store (w : World) (mode : Obj) (style : Style) (f : String) (o : Obj) : Except PyErr Obj :=
  if w.isOff mode then
    match style with
    | .checked | .raw | .early | .broken => .ok o
    | .restored => .ok (orElse o (.new w.call f "[]"))
    | .orZero => .ok (orElse o (.const "0"))
    | .always | .late => .ok (w.coerce f o)
  else w.check f o

/-- `self.a = o`: through the property if the class has one, otherwise it becomes a plain attribute of the instance, as `grid` does
(`/repo/draftsman/classes/mixins/equipment_grid.py:44`, the property is called `equipment_grid`). -/
def setAttr (w : World) (c : Kind) (e : Ent) (a : String) (o : Obj) : Except PyErr Ent :=
  match c.attrs.find? (fun b => decide (b.name = a)) with
  | none => .ok { e with inst := upd e.inst a o }
  | some b => match b.set with
    | [f] => match store w e.mode b.style f o with
      | .ok x => .ok { e with root := upd e.root f x }
      | .error x => .error x
    | _ => .error .attributeError

/-- One statement of a constructor; the statements listed at `Stmt`, e.g. `/repo/draftsman/classes/mixins/io_type.py:36-42`. -/
def exec (w : World) (c : Kind) (l : Layer) (kw : Kw) (e : Ent) : Stmt → Except PyErr Ent
  | .set a x => setAttr w c e a (l.eval w kw x)
  | .setField f x => .ok { e with root := upd e.root f (l.eval w kw x) }
  | .mode => .ok { e with mode := l.bind kw "validate_assignment" }
  | .place => match l.rest kw "position" with
    | some .none => .ok { e with place := .tile (l.bind kw "tile_position") }
    | some o => .ok { e with place := .position o }
    | none => .ok { e with place := .tile (l.bind kw "tile_position") }
  | .ioType => match l.rest kw "type" with
    | some t => setAttr w c e "io_type" t
    | none => match l.rest kw "io_type" with
      | some t => setAttr w c e "io_type" t
      | none => .error .keyError

/-- The exported names of fields that differ from the names of the attributes: `/repo/draftsman/prototypes/asteroid_collector.py:64-70`,
`/repo/draftsman/classes/mixins/io_type.py:22-24`, `/repo/draftsman/classes/mixins/target_priorities.py:43-45`. -/
def aliases : List (String × String) :=
  [("result_inventory", "result-inventory"), ("chunk_filter", "chunk-filter"), ("io_type", "type"), ("priority_list", "priority-list")]

/-- The field names of a model, `/repo/draftsman/signatures.py:132-143`. -/
def fieldNames : Val → List String
  | .model fs => fs.map Prod.fst
  | _ => []

/-- The exported name of a field of this class, `/repo/draftsman/signatures.py:139-143`. -/
def Kind.key (c : Kind) (f : String) : String :=
  if f ∈ fieldNames c.cls.fresh then (aliases.lookup f).getD f else f

/-- The constructor of `Entity`, `/repo/draftsman/classes/entity.py:199-216`, the statements after `_root` is made at lines 293-335
(`self.name = name` and `self.id = id` among them; `validate` is not used). -/
def entityInit : Layer where
  cls := "Entity"
  params := [("name", .none), ("quality", .const "'normal'"), ("tile_position", .const "(0, 0)"), ("id", .none),
    ("validate", .const "ValidationMode.STRICT"), ("validate_assignment", .const "ValidationMode.STRICT")]
  pass := []
  post := [.setField "name" (.par "name"), .set "quality" (.par "quality"), .set "id" (.par "id"), .place, .set "tags" (.kwarg "tags" (.new "{}"))]

/-- `_root` and the rest of a new entity before anything is assigned: `model_validate` of the keywords with a default for `name`, `quality` and
`entity_number`, by exported or by plain name, other fields as declared; keys that are no fields are kept.
`/repo/draftsman/classes/entity.py:251-291`, `/repo/draftsman/signatures.py:242-247`.  Left out: `position`, which is kept elsewhere (line 283). -/
def build (w : World) (c : Kind) (kw : Kw) : Ent where
  root := fun f =>
    let base : Kw := fun k => match entityInit.rest kw k with
      | some o => some o
      | none => if k = "name" then some (entityInit.bind kw "name") else if k = "quality" then some (entityInit.bind kw "quality")
        else if k = "entity_number" then some (.const "0") else none
    match base (c.key f) with
    | some o => some (w.coerce f o)
    | none => match base f with
      | some o => some (w.coerce f o)
      | none => if f ∈ fieldNames c.cls.fresh then some (.new w.call f "default") else none
  inst := fun _ => none
  place := .tile (.const "(0, 0)")
  mode := .const "ValidationMode.NONE"

/-- The statements of one constructor in turn, e.g. `/repo/draftsman/prototypes/lamp.py:97-99`. -/
def execAll (w : World) (c : Kind) (l : Layer) (kw : Kw) : List Stmt → Ent → Except PyErr Ent
  | [], e => .ok e
  | s :: r, e => match exec w c l kw e s with
    | .ok e' => execAll w c l kw r e'
    | .error x => .error x

/-- `Entity.__init__`, `/repo/draftsman/classes/entity.py:199-335`. -/
def initEntity (w : World) (c : Kind) (kw : Kw) : Except PyErr Ent :=
  if entityInit.bind kw "name" = .none then .error .dataFormat
  else execAll w c entityInit kw entityInit.post (build w c kw)

/-- The constructors along the order of method resolution: each calls the next one and then runs its own statements.
`/repo/draftsman/prototypes/lamp.py:67-99`, `/repo/draftsman/classes/mixins/directional.py:75-136` and the like. -/
def initFrom (w : World) (c : Kind) : List Layer → Kw → Except PyErr Ent
  | [], kw => initEntity w c kw
  | l :: r, kw => match initFrom w c r (l.up w kw) with
    | .ok e => execAll w c l kw l.post e
    | .error x => .error x

/-- `Lamp(**kw)` and so on: `/repo/draftsman/prototypes/lamp.py:67-99`. -/
def construct (w : World) (c : Kind) (kw : Kw) : Except PyErr Ent := initFrom w c c.layers kw

/-- `object.__init__` called with arguments, the name at least: it takes none.  `/repo/draftsman/prototypes/cargo_bay.py:43-50`. -/
def initObject (_ : Kw) : Except PyErr Ent := .error .typeError

/-- The constructors of classes without a base, for which `super().__init__(name, …)` is that of `object`: `/repo/draftsman/prototypes/cargo_bay.py:28-52`,
`/repo/draftsman/prototypes/fusion_reactor.py:23-49`, `/repo/draftsman/prototypes/half_diagonal_rail.py:25-51`, `/repo/draftsman/prototypes/rail_support.py:25-51`. -/
def constructOrphan (l : Layer) (w : World) (kw : Kw) : Except PyErr Ent :=
  match initObject (l.up w kw) with
  | .ok e => .ok { e with mode := l.bind kw "validate_assignment" }
  | .error x => .error x

end Ctor
end Draftsman
