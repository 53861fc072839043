/-
Python `dict` as an association list in insertion order (Python built-in).
-/
namespace Draftsman

/-- Python `dict` (built-in type): keys and values in insertion order. -/
abbrev Dict (K V : Type) := List (K × V)

namespace Dict
variable {K V : Type} [DecidableEq K]

/-- `d.get(k)` / `k in d` / `d[k]` (with `none` for `KeyError`): Python built-in. -/
def get? (d : Dict K V) (k : K) : Option V :=
  match d with
  | [] => none
  | (k', v) :: r => if k' = k then some v else get? r k

/-- `d[k] = v`: Python built-in; an existing key keeps its place, a new one goes to the end. -/
def set (d : Dict K V) (k : K) (v : V) : Dict K V :=
  match d with
  | [] => [(k, v)]
  | (k', v') :: r => if k' = k then (k', v) :: r else (k', v') :: set r k v

/-- `del d[k]` for a key that is present: Python built-in. -/
def del (d : Dict K V) (k : K) : Dict K V :=
  match d with
  | [] => []
  | (k', v') :: r => if k' = k then r else (k', v') :: del r k

/-- The keys, in order.  Python built-in. -/
def keys (d : Dict K V) : List K := d.map (·.1)

end Dict
end Draftsman
