import Verif.Model.EntityList
import Verif.Model.TileList
/-
Deletion of any slice of an `EntityList`, `/repo/draftsman/classes/entity_list.py:577-595`.
-/
namespace Draftsman
namespace EList

/-- `__delitem__` with the slice `a:b:c`, `/repo/draftsman/classes/entity_list.py:577-595`; `slice.indices` rejects the step zero.  The
positions selected are as for tiles, `TileList.sliceRange`; `_shift_key_indices` is called with the step, for each of them. -/
def delStep (s : EList) (a b c : Option Int) : Out :=
  let c := c.getD 1
  if c = 0 then (s, some .valueError)
  else
    let sel := TileList.sliceRange s.root.length a b c
    match s.removeKeys sel with
    | (s', some e) => (s', some e)
    | (s', none) =>
      let s'' := sel.foldl (fun s i => s.shift i (-c)) s'
      ({ s'' with root := TileList.dropAt sel s''.root }, none)

end EList
end Draftsman
