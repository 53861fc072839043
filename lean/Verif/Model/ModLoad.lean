import Verif.Model.ModList
import Mathlib.Data.List.Sort
/-
From discovered mods to the order in which they are loaded: the dependency strings of `/repo/draftsman/environment/mod_list.py:36-98`,
and the part of `run_data_lifecycle` that checks them and sorts the mods, `/repo/draftsman/environment/update.py:484-572`.

Strings are lists of characters.  `\w` and `\d` are taken for ASCII.
-/
namespace Draftsman
namespace ModLoad

/-- The flags of a dependency: `!`, `?`, `(?)` and `~`.  `/repo/draftsman/environment/mod_list.py:38-40`. -/
inductive Flag where
  | incompatible | optional | hidden | unordered
  deriving DecidableEq, Repr

/-- `Dependency`, `/repo/draftsman/environment/mod_list.py:16-20`. -/
structure Dep where
  flag : Option Flag
  name : List Char
  op : Option (List Char)
  version : Option (List Char)
  deriving DecidableEq, Repr

/-- `\w` for ASCII.  `/repo/draftsman/environment/mod_list.py:39`. -/
def isWord (c : Char) : Bool := c.isAlphanum || c == '_'

/-- `[^\w\?\!]`, `/repo/draftsman/environment/mod_list.py:39`. -/
def isSkip (c : Char) : Bool := !isWord c && c != '?' && c != '!'

/-- `[\w-]`, `/repo/draftsman/environment/mod_list.py:39`. -/
def isName (c : Char) : Bool := isWord c || c == '-'

/-- `[\d\.]`, `/repo/draftsman/environment/mod_list.py:39`. -/
def isVer (c : Char) : Bool := c.isDigit || c == '.'

/-- `(\!|\?|\(\?\)|~)?`, `/repo/draftsman/environment/mod_list.py:39`.  If the rest does not match, trying without the flag does not help:
`!` and `?` can be neither skipped nor part of a name, `(` and `~` can only be skipped. -/
def splitFlag : List Char → Option Flag × List Char
  | '!' :: r => (some .incompatible, r)
  | '?' :: r => (some .optional, r)
  | '(' :: '?' :: ')' :: r => (some .hidden, r)
  | '~' :: r => (some .unordered, r)
  | r => (none, r)

/-- `[^\w\?\!]*([\w-]+)`, `/repo/draftsman/environment/mod_list.py:39`: the name and what follows.  Both are greedy; if there is no name after
what is skipped, characters are given back until the last hyphen among them can be the name. -/
def splitName (r : List Char) : Option (List Char × List Char) :=
  let skipped := r.takeWhile isSkip
  let rest := r.dropWhile isSkip
  if (rest.takeWhile isName).isEmpty then
    if '-' ∈ skipped then some (['-'], (skipped.reverse.takeWhile (· ≠ '-')).reverse ++ rest) else none
  else some (rest.takeWhile isName, rest.dropWhile isName)

/-- `[><=]`, `/repo/draftsman/environment/mod_list.py:39`. -/
def isOp (c : Char) : Bool := c == '>' || c == '<' || c == '='

/-- `([><=]=?)?`, `/repo/draftsman/environment/mod_list.py:39`. -/
def splitOp : List Char → Option (List Char) × List Char
  | [] => (none, [])
  | c :: r =>
    if isOp c then
      match r with
      | '=' :: r' => (some [c, '='], r')
      | _ => (some [c], r)
    else (none, c :: r)

/-- One step of the loop over `dependencies`, `/repo/draftsman/environment/mod_list.py:89-97`.  Without a match `m` is `None`, which has no
items. -/
def parseDep (s : List Char) : Except PyErr Dep :=
  let f := splitFlag (s.filter (· ≠ ' '))
  match splitName f.2 with
  | none => .error .typeError
  | some n =>
    let o := splitOp n.2
    let v := o.2.takeWhile isVer
    .ok ⟨f.1, n.1, o.1, if v.isEmpty then none else some v⟩

/-- What is needed of a `Mod` here.  `/repo/draftsman/environment/mod_list.py:43-98`. -/
structure Mod where
  version : List Char
  deps : List Dep
  deriving DecidableEq, Repr

/-- The selected mods by name, `/repo/draftsman/environment/update.py:490`. -/
abbrev Mods := Dict (List Char) Mod

/-- `{name: mod_list[0] for … if mod_list[0].enabled}`, `/repo/draftsman/environment/update.py:490`. -/
def select {K α : Type} (enabled : α → Bool) (d : Dict K (List α)) : Except PyErr (Dict K α) :=
  match d with
  | [] => .ok []
  | (_, []) :: _ => .error .indexError
  | (n, m :: _) :: r => (select enabled r).map fun t => if enabled m then (n, m) :: t else t

/-- An element of `mod.dependencies` after the loop: a `Dependency` that was left there, or a mod (by its name).
`/repo/draftsman/environment/update.py:554-557`. -/
inductive RDep where
  | left (d : Dep)
  | mod (name : List Char)
  deriving DecidableEq, Repr

/-- The comparison of two tuples that `eval` makes, `/repo/draftsman/environment/update.py:538-539`. -/
def verOk (op : List Char) (a b : List Int) : Bool :=
  if op = ['=', '='] then decide (a = b)
  else if op = ['>', '='] then !ModList.tupleLt a b
  else if op = ['<', '='] then !ModList.tupleLt b a
  else if op = ['>'] then ModList.tupleLt b a
  else ModList.tupleLt a b

/-- The list of the `assert`, `/repo/draftsman/environment/update.py:529-535`. -/
def opList : List (List Char) := [['=', '='], ['>', '='], ['<', '='], ['>'], ['<']]

/-- The check of the version, `/repo/draftsman/environment/update.py:528-547`. -/
def checkVersion (actual : List Char) (d : Dep) : Except PyErr Unit :=
  match d.version with
  | none => .ok ()
  | some v =>
    match d.op with
    | none => .error .assertionError
    | some op =>
      if op ∉ opList then .error .assertionError
      else match Version.versionStringToTuple actual with
        | .error e => .error e
        | .ok a => match Version.versionStringToTuple v with
          | .error e => .error e
          | .ok b => if verOk op a b then .ok () else .error .incorrectModVersion

/-- One dependency, `/repo/draftsman/environment/update.py:507-557`. -/
def resolveDep (mods : Mods) (d : Dep) : Except PyErr RDep :=
  if d.flag = some .incompatible then
    if (mods.get? d.name).isSome then .error .incompatibleMod else .ok (.left d)
  else if (d.flag = some .optional ∨ d.flag = some .hidden) ∧ mods.get? d.name = none then .ok (.left d)
  else match mods.get? d.name with
    | none => .error .missingMod
    | some m => match checkVersion m.version d with
      | .error e => .error e
      | .ok _ => if d.flag = some .unordered then .ok (.left d) else .ok (.mod d.name)

/-- The dependencies that the loop looks at, `/repo/draftsman/environment/update.py:492-500`. -/
def effDeps (name : List Char) (m : Mod) : List Dep :=
  if name = "base".toList then [⟨none, "core".toList, none, none⟩] else m.deps

/-- The body of the loop over the mods, `/repo/draftsman/environment/update.py:492-557`: the mod's list as it is left. -/
def resolveMod (mods : Mods) (name : List Char) (m : Mod) : Except PyErr (List RDep) :=
  if name = "core".toList then .ok (m.deps.map .left)
  else (effDeps name m).mapM (resolveDep mods)

/-- The loop over the mods, `/repo/draftsman/environment/update.py:492-557`. -/
def resolveAll (mods : Mods) : Mods → Except PyErr (Dict (List Char) (List RDep))
  | [] => .ok []
  | (n, m) :: r =>
    match resolveMod mods n m with
    | .error e => .error e
    | .ok l => (resolveAll mods r).map fun t => (n, l) :: t

/-- The loop of `get_depth`, `/repo/draftsman/environment/mod_list.py:144-146`, where `sub` is `get_depth` of the dependencies.  A `Dependency`
has no `get_depth`. -/
def depthLoop (sub : List Char → Except PyErr Nat) : Nat → List RDep → Except PyErr Nat
  | acc, [] => .ok acc
  | _, .left _ :: _ => .error .attributeError
  | acc, .mod k :: r =>
    match sub k with
    | .error e => .error e
    | .ok x => depthLoop sub (max acc (acc + x)) r

/-- `get_depth`, `/repo/draftsman/environment/mod_list.py:142-147`.  The number is that of the nested calls that the interpreter still
allows. -/
def depth (g : Dict (List Char) (List RDep)) : Nat → List Char → Except PyErr Nat
  | 0, _ => .error .recursionError
  | n + 1, name => depthLoop (depth g n) 1 ((g.get? name).getD [])

/-- `<` on strings (Python built-in): by code points. -/
def strLt (a b : List Char) : Bool :=
  ModList.tupleLt (a.map fun c => (c.toNat : Int)) (b.map fun c => (c.toNat : Int))

/-- `not (b < a)` for the keys `(x.get_depth(), x.name)`, `/repo/draftsman/environment/update.py:562`. -/
def keyLe (a b : Nat × List Char) : Bool :=
  if a.1 = b.1 then !strLt b.2 a.2 else decide (a.1 < b.1)

/-- `load_order`, `/repo/draftsman/environment/update.py:492-563`, as the names of the mods: first all dependencies are resolved, then all
depths are computed, then the mods are sorted (Python's `sorted` is stable, as is insertion). -/
def loadOrder (limit : Nat) (mods : Mods) : Except PyErr (List (List Char)) :=
  match resolveAll mods mods with
  | .error e => .error e
  | .ok g =>
    match mods.keys.mapM (fun n => (depth g limit n).map fun k => (k, n)) with
    | .error e => .error e
    | .ok ks => .ok ((ks.insertionSort fun a b => keyLe a b = true).map Prod.snd)

end ModLoad
end Draftsman
