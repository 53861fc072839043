import Verif.Model.SpatialHash
/-
Filtered searches, `/repo/draftsman/classes/collection.py:181-343` and 1715-1823.
-/
namespace Draftsman

/-- The attributes that searches look at; `dir` is `getattr(entity, "direction", None)`.  `/repo/draftsman/classes/collection.py:328-338`. -/
structure SAttr where
  name : String
  type : String
  dir : Option Int
  deriving DecidableEq, Repr

/-- The keyword arguments of `find_entities_filtered` after the normalisation to sets,
`/repo/draftsman/classes/collection.py:310-322`. -/
structure SArgs where
  position : Option Vec
  radius : Option ℚ
  area : Option AABB
  names : Option (List String)
  types : Option (List String)
  dirs : Option (List Int)
  invert : Bool
  limit : Option Int

/-- `l[:n]` (Python built-in). -/
def sliceTo {α : Type} (l : List α) (n : Int) : List α :=
  if 0 ≤ n then l.take n.toNat else l.take ((l.length : Int) + n).toNat

/-- `test`, `/repo/draftsman/classes/collection.py:328-338`. -/
def SArgs.test (a : SArgs) (t : SAttr) : Bool :=
  (match a.names with | none => true | some ns => decide (t.name ∈ ns)) &&
  (match a.types with | none => true | some ts => decide (t.type ∈ ts)) &&
  (match a.dirs with
    | none => true
    | some ds => match t.dir with | none => false | some d => decide (d ∈ ds))

/-- The search region, `/repo/draftsman/classes/collection.py:292-308`; `flat` is `flatten_entities(self.entities)`. -/
def SArgs.region (a : SArgs) (cs : ℕ) (m : SMap) (flat : List SItem) : List SItem :=
  match a.position with
  | some p => match a.radius with
    | some r => m.getInRadius cs r p
    | none => m.getOnPoint cs p
  | none => match a.area with
    | some q => m.getInAabb cs q
    | none => flat

/-- `find_entities_filtered`, `/repo/draftsman/classes/collection.py:205-343`. -/
def findEntities (a : SArgs) (cs : ℕ) (m : SMap) (flat : List SItem) (attr : SItem → SAttr) : List SItem :=
  let region := a.region cs m flat
  let limit := match a.limit with | none => (region.length : Int) | some n => n
  if a.invert then sliceTo (region.filter fun x => !a.test (attr x)) limit
  else sliceTo (region.filter fun x => a.test (attr x)) limit

/-- The region of a tile search, `/repo/draftsman/classes/collection.py:1797-1805`: a position without radius is ignored. -/
def SArgs.tileRegion (a : SArgs) (cs : ℕ) (m : SMap) (tiles : List SItem) : List SItem :=
  match a.position, a.radius with
  | some p, some r => m.getInRadius cs r p
  | _, _ => match a.area with
    | some q => m.getInAabb cs q
    | none => tiles

/-- `find_tiles_filtered`, `/repo/draftsman/classes/collection.py:1728-1823`; `types` and `dirs` do not exist for tiles. -/
def findTiles (a : SArgs) (cs : ℕ) (m : SMap) (tiles : List SItem) (name : SItem → String) : List SItem :=
  let region := a.tileRegion cs m tiles
  let limit := match a.limit with | none => (region.length : Int) | some n => n
  let test : SItem → Bool := fun x => match a.names with | none => true | some ns => decide (name x ∈ ns)
  if a.invert then sliceTo (region.filter fun x => !test x) limit
  else sliceTo (region.filter test) limit

/-- `find_entity`, `/repo/draftsman/classes/collection.py:142-161`. -/
def findEntity (cs : ℕ) (m : SMap) (attr : SItem → SAttr) (name : String) (p : Vec) : Option SItem :=
  ((m.getOnPoint cs p).filter fun x => decide ((attr x).name = name)).head?

/-- `find_entity_at_position`, `/repo/draftsman/classes/collection.py:163-179`. -/
def findEntityAt (cs : ℕ) (m : SMap) (p : Vec) : Option SItem := (m.getOnPoint cs p).head?

/-- `find_tile`, `/repo/draftsman/classes/collection.py:1715-1726`. -/
def findTile (cs : ℕ) (m : SMap) (p : Vec) : List SItem := m.getOnPoint cs (⟨1/2, 1/2⟩ + p)

/-- The item at an offset: what `get_world_bounding_box` and `global_position` say once the parent has position `d`.  `/repo/draftsman/classes/entity.py:477-490` and `:536-555`. -/
def SItem.shift (x : SItem) (d : Vec) : SItem :=
  { x with pos := x.pos + d, box := x.box.map fun b => ⟨b.topLeft + d, b.botRight + d, b.position⟩ }

/-- The map after an object's world position has changed without the map being told.  `/repo/draftsman/classes/entity_list.py:314-327`. -/
def SMap.shiftItem (m : SMap) (uid : Nat) (d : Vec) : SMap :=
  m.map fun c => (c.1, c.2.map fun x => if x.uid = uid then x.shift d else x)

/-- `EntityList.insert` on the list of a group at position `d`: the entity goes into the map before it gets its parent,
`/repo/draftsman/classes/entity_list.py:314` and 327. -/
def SMap.insertInGroup (cs : ℕ) (m : SMap) (x : SItem) (d : Vec) : SMap := (m.add cs x).shiftItem x.uid d

end Draftsman
