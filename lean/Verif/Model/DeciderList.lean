import Verif.Model.Decider
/-
What a decider combinator does with its conditions and outputs: `/repo/draftsman/prototypes/decider_combinator.py:398-460, 516-556`.

Both fields have the type `list`, without saying of what, so that nothing is converted: conditions made with the operators stay the objects they are and
dictionaries stay dictionaries.
-/
namespace Draftsman
namespace Decider

open Wait (Heap get setCmp)

/-- An element: a `DeciderCondition` or `DeciderOutput`, by identity, or a dictionary, by content.  `/repo/draftsman/prototypes/decider_combinator.py:410-423`. -/
inductive Item (R : Type) where
  | obj (r : Nat)
  | raw (d : R)
  deriving DecidableEq, Repr

/-- What may be assigned: a list, one condition alone (what a comparison gives, `/repo/draftsman/prototypes/decider_combinator.py:183-218`), or `None`. -/
inductive Val (R : Type) where
  | list (l : List (Item R))
  | one (r : Nat)
  | none
  deriving DecidableEq, Repr

variable {R : Type}

/-- The setters of `conditions` and `outputs`, `/repo/draftsman/prototypes/decider_combinator.py:521-534, 541-555`: if assignments are validated it must be a
list. -/
def store (validating : Bool) (old v : Val R) : Val R × Option PyErr :=
  if validating then match v with
    | .list l => (.list l, Option.none)
    | _ => (old, some .dataFormat)
  else (v, Option.none)

/-- `a & b` and `a | b` of anything that can be stored: `/repo/draftsman/prototypes/decider_combinator.py:134-172`.  A list on the right must begin with a
condition, for its `_root` is asked for; a list on the left is passed to the reflected method of the right side. -/
def opVal (isAnd : Bool) (h : Heap) : Val R → Val R → Heap × Except PyErr (List (Item R))
  | .one a, .one b => (setCmp h b isAnd, .ok [.obj a, .obj b])
  | .one _, .list [] => (h, .error .indexError)
  | .one a, .list (.obj b :: bs) => (setCmp h b isAnd, .ok (.obj a :: .obj b :: bs))
  | .one _, .list (.raw _ :: _) => (h, .error .attributeError)
  | .list as, .one b => (setCmp h b isAnd, .ok (as ++ [.obj b]))
  | _, _ => (h, .error .typeError)

/-- `combinator.conditions |= v` and `&=`: the operator, then the setter.  Python's augmented assignment, as used at
`/repo/examples/decider_combinator_usage.py:35`; `/repo/draftsman/prototypes/decider_combinator.py:516-534`. -/
def extend (validating isAnd : Bool) (h : Heap) (old v : Val R) : Heap × Val R × Option PyErr :=
  match opVal isAnd h old v with
  | (h', .ok l) => (h', (store validating old (.list l)).1, (store validating old (.list l)).2)
  | (h', .error e) => (h', old, some e)

/-- The key in the exported dictionary, `/repo/draftsman/classes/exportable.py:305-320`: left out if it is the default or `None`; pydantic hands out elements
of unknown types as they are. -/
def exported : Val R → Option (Val R)
  | .none => Option.none
  | .list [] => Option.none
  | v => some v

/-- The dictionaries in a list, unless there is something else in it, which `json.dumps` at `/repo/draftsman/utils.py:421` does not know. -/
def allRaw : List (Item R) → Option (List R)
  | [] => some []
  | .raw d :: l => (allRaw l).map (d :: ·)
  | .obj _ :: _ => Option.none

/-- `json.dumps` of that key, in `JSON_to_string`, `/repo/draftsman/utils.py:421`: objects it does not know are a `TypeError`. -/
def written (v : Val R) : Except PyErr (Option (List R)) :=
  match exported v with
  | Option.none => .ok Option.none
  | some (.list l) => match allRaw l with
    | some ds => .ok (some ds)
    | Option.none => .error .typeError
  | some _ => .error .typeError

/-- `copy.deepcopy` of the elements: objects are copied once each (the memo of `copy.deepcopy`).  What `entities.append` does with a combinator,
`/repo/draftsman/classes/entity_list.py:280`. -/
def copyItems : Heap → List (Nat × Nat) → List (Item R) → Heap × List (Item R)
  | h, _, [] => (h, [])
  | h, memo, .raw d :: l => ((copyItems h memo l).1, .raw d :: (copyItems h memo l).2)
  | h, memo, .obj r :: l => match memo.lookup r with
    | some r' => ((copyItems h memo l).1, .obj r' :: (copyItems h memo l).2)
    | Option.none =>
      ((copyItems (h ++ [get h r]) ((r, h.length) :: memo) l).1, .obj h.length :: (copyItems (h ++ [get h r]) ((r, h.length) :: memo) l).2)

end Decider
end Draftsman
