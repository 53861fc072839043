import Verif.Model.ModLoad
/-
`draftsman.env.update()`, the update function of the documentation: `/repo/draftsman/env.py:1389-2114`.  Modelled are the discovery of the
mods, their dependencies, the load order, which file runs when, and the versions extracted; what the files do is not (the tables are as in
`Model/GameData.lean`: the functions are copies of those of `environment/update.py`).

Strings are lists of characters; `\w`, `\d` and `\s` are taken for ASCII, and names end in no line break.  `info.json` is given as parsed.
`IncorrectModFormatError` is given as the `DraftsmanError` that it is, an archive that cannot be opened as a `ValueError`.
-/
namespace Draftsman
namespace EnvUpdate
open ModLoad (isWord isSkip isVer splitName strLt keyLe)
open Version (versionStringToTuple)

/-- What is read of an `info.json`: `/repo/draftsman/env.py:1446,1470,1498,1851`. -/
structure Info where
  version : Option (List Char)
  factorio : Option (List Char)
  deps : Option (List (List Char))
  deriving DecidableEq, Repr

/-- What stands under a name in a folder.  Of an archive the root-most folders and, of the folder chosen, what is read; `stages` are the names of
the six files that exist, `/repo/draftsman/env.py:1501-1571`. -/
inductive Obj where
  | file
  | folder (info : Option Info) (stages : List (List Char))
  | archive (tops : List (List Char)) (info : Option Info) (stages : List (List Char))
  deriving DecidableEq, Repr

/-- `Mod`, `/repo/draftsman/env.py:57-74`, without its list of dependencies, which is kept apart because it is filled later. -/
structure Mod where
  name : List Char
  version : List Char
  archive : Bool
  deps : Option (List (List Char))
  stages : List (List Char)
  deriving DecidableEq, Repr

/-- `_([\d\.]+)\.zip` after the underscore: the version.  Both dots and digits are taken as far as possible, so the dot of `.zip` is the last of
them.  `/repo/draftsman/env.py:42`. -/
def archiveTail (r : List Char) : Option (List Char) :=
  let run := r.takeWhile isVer
  if 2 ≤ run.length ∧ run.getLast? = some '.' ∧ ['z', 'i', 'p'].isPrefixOf (r.dropWhile isVer) = true then some run.dropLast else none

/-- `mod_archive_regex.match`, `/repo/draftsman/env.py:42-43`: the groups two and three.  `[\w\D]` is every character, and taken as far as
possible. -/
def archiveSplit : List Char → Option (List Char × List Char)
  | [] => none
  | c :: r =>
    match archiveSplit r with
    | some (p, v) => some (c :: p, v)
    | none =>
      match r with
      | '_' :: t => (archiveTail t).map fun v => ([c], v)
      | _ => none

/-- `[^\s.]`, `/repo/draftsman/env.py:45`. -/
def isFolderChar (c : Char) : Bool := !isSpace c && c != '.'

/-- `mod_folder_regex.match` with a version, `/repo/draftsman/env.py:45-46`: the first group, taken as far as possible. -/
def folderBack : List Char → Option (List Char)
  | [] => none
  | c :: r =>
    if isFolderChar c then
      match folderBack r with
      | some p => some (c :: p)
      | none =>
        match r with
        | '_' :: v => if v ≠ [] ∧ v.all isVer = true then some [c] else none
        | _ => none
    else none

/-- `mod_folder_regex.match`, `/repo/draftsman/env.py:45-46`: the first group. -/
def folderName (n : List Char) : Option (List Char) :=
  if n ≠ [] ∧ n.all isFolderChar = true then some n else folderBack n

/-- `mod_name.lower().endswith(".zip")`, `/repo/draftsman/env.py:1392`. -/
def isZip (n : List Char) : Bool := ['.', 'z', 'i', 'p'].isSuffixOf (n.map Char.toLower)

/-- The first half of `register_mod`, `/repo/draftsman/env.py:1392-1475`: the mod, its name taken from the file name, and its information;
`none` for a regular file.  What is called like an archive and is none cannot be opened. -/
def readMod (file : List Char) (o : Obj) : Except PyErr (Option (Mod × Info)) :=
  if isZip file then
    match archiveSplit file with
    | none => .error .draftsmanError
    | some (n, v) =>
      match o with
      | .archive tops info stages =>
        if tops.length = 1 ∨ n ++ '_' :: v ∈ tops then
          match info with
          | none => .error .draftsmanError
          | some i =>
            match i.version with
            | none => .error .keyError
            | some ver => .ok (some (⟨n.filter (· ≠ ' '), ver, true, i.deps, stages⟩, i))
        else .error .draftsmanError
      | _ => .error .valueError
  else
    match o with
    | .folder info stages =>
      match folderName file with
      | none => .error .draftsmanError
      | some n =>
        match info with
        | none => .error .draftsmanError
        | some i => .ok (some (⟨n, i.version.getD [], false, i.deps, stages⟩, i))
    | _ => .ok none

/-- The check of the game's version, `/repo/draftsman/env.py:1495-1499`. -/
def checkGame (game : List Int) (name : List Char) (i : Info) : Except PyErr Unit :=
  if name = "base".toList ∨ name = "core".toList then .ok ()
  else match i.factorio with
    | none => .error .keyError
    | some s => match versionStringToTuple s with
      | .error e => .error e
      | .ok v => if ModList.tupleLt game v then .error .assertionError else .ok ()

/-- Whether a mod of the same name gives way, `/repo/draftsman/env.py:1603-1640`. -/
def replaces (previous current : Mod) : Except PyErr Bool :=
  match versionStringToTuple previous.version with
  | .error e => .error e
  | .ok v => match versionStringToTuple current.version with
    | .error e => .error e
    | .ok w =>
      if ModList.tupleLt v w then .ok true
      else if ModList.tupleLt w v then .ok false
      else .ok (previous.archive && !current.archive)

/-- The mods of the dictionary `mods` are objects, several keys can have the same: they are numbered, `objs` has them in the order of their
creation.  `none` is Python's `None`.  `/repo/draftsman/env.py:1800`. -/
structure Found where
  objs : List Mod := []
  keys : Dict (List Char) (Option Nat) := []
  deriving DecidableEq, Repr

/-- `register_mod` and the assignment of its result, `/repo/draftsman/env.py:1389-1640,1814-1816,1827-1829`. -/
def register (game : List Int) (f : Found) (file : List Char) (o : Obj) : Except PyErr Found :=
  match readMod file o with
  | .error e => .error e
  | .ok none => .ok { f with keys := f.keys.set file none }
  | .ok (some (m, i)) =>
    match checkGame game m.name i with
    | .error e => .error e
    | .ok _ =>
      let fresh : Found := ⟨f.objs ++ [m], f.keys.set file (some f.objs.length)⟩
      match f.keys.get? m.name with
      | none => .ok fresh
      | some none => .error .attributeError
      | some (some k) =>
        match f.objs[k]? with
        | none => .error .indexError          -- never: the numbers are those of `objs`
        | some p => (replaces p m).map fun r => if r then fresh else { f with keys := f.keys.set file (some k) }

/-- `enabled_mod_list`, `/repo/draftsman/env.py:1775-1782`: the file's entries, names without blanks. -/
def enabledList (noMods : Bool) (entries : List (List Char × Bool)) : Dict (List Char) Bool :=
  entries.foldl (fun d e => d.set (e.1.filter (· ≠ ' ')) (e.2 && !noMods)) []

/-- What the function finds on the disk.  `/repo/draftsman/env.py:1746-1753,1775-1783,1804,1819`. -/
structure Disk where
  game : List Int
  modList : Option (List (List Char × Bool))
  gameObjs : List (List Char × Obj)
  modObjs : List (List Char × Obj)
  noMods : Bool
  deriving DecidableEq, Repr

/-- `enabled_mod_list.get(obj, default)`, `/repo/draftsman/env.py:1810,1823`. -/
def isOn (d : Disk) (dflt : Bool) (file : List Char) : Bool :=
  ((enabledList d.noMods (d.modList.getD [])).get? file).getD dflt

/-- `os.path.isdir`, `/repo/draftsman/env.py:1806`. -/
def isDir : Obj → Bool
  | .folder .. => true
  | _ => false

/-- The objects that are registered, in their order: `/repo/draftsman/env.py:1804-1829`. -/
def chosen (d : Disk) : List (List Char × Obj) :=
  d.gameObjs.filter (fun p => isDir p.2 && isOn d true p.1) ++ d.modObjs.filter (fun p => isOn d (!d.noMods) p.1)

/-- Both loops, `/repo/draftsman/env.py:1804-1829`. -/
def discover (d : Disk) : Except PyErr Found :=
  (chosen d).foldlM (fun f p => register d.game f p.1 p.2) {}

/-- `[^\w\?\!~]`, `/repo/draftsman/env.py:49`. -/
def isLead (c : Char) : Bool := !isWord c && c != '?' && c != '!' && c != '~'

/-- `([\?\!~])?`, `/repo/draftsman/env.py:49`. -/
def splitFlag : List Char → Option Char × List Char
  | c :: r => if c = '?' ∨ c = '!' ∨ c = '~' then (some c, r) else (none, c :: r)
  | [] => (none, [])

/-- One dependency read: flag and name.  `/repo/draftsman/env.py:48-51,1858-1862`.  Without a match `m` is `None`, which has no items; if there
is no name after what is skipped at first, a hyphen skipped can be the name. -/
def parseDep (s : List Char) : Except PyErr (Option Char × List Char) :=
  let t := s.filter (fun c => !isSpace c)
  let f := splitFlag (t.dropWhile isLead)
  match splitName f.2 with
  | some n => .ok (f.1, n.1)
  | none => if '-' ∈ t.takeWhile isLead then .ok (none, ['-']) else .error .typeError

/-- What one dependency adds, `/repo/draftsman/env.py:1858-1905`: the value of the dictionary, `None` included. -/
def resolveDep (keys : Dict (List Char) (Option Nat)) (s : List Char) : Except PyErr (Option (Option Nat)) :=
  match parseDep s with
  | .error e => .error e
  | .ok (flag, name) =>
    if flag = some '!' then
      if (keys.get? name).isSome then .error .incompatibleMod else .ok none
    else
      match keys.get? name with
      | none => if flag = some '?' then .ok none else .error .missingMod
      | some v => if flag = some '~' then .ok none else .ok (some v)

/-- The dependencies that a key has, `/repo/draftsman/env.py:1841-1851`; `mod.info` fails for `None`. -/
def depsOf (objs : List Mod) (key : List Char) (v : Option Nat) : Except PyErr (List (List Char)) :=
  if key = "core".toList then .ok []
  else if key = "base".toList then .ok ["core".toList]
  else match v.bind fun k => objs[k]? with
    | none => .error .attributeError
    | some m => .ok (m.deps.getD ["base".toList])

/-- The dependencies of every object: what has been appended, in order.  `/repo/draftsman/env.py:71-77`. -/
abbrev Graph := Nat → List (Option Nat)

/-- `mod.add_dependency`, `/repo/draftsman/env.py:76-77`. -/
def addDep (g : Graph) (k : Nat) (x : Option Nat) : Graph := fun i => if i = k then g i ++ [x] else g i

/-- The loop over the dependencies of one key, `/repo/draftsman/env.py:1858-1905`. -/
def resolveLoop (keys : Dict (List Char) (Option Nat)) (v : Option Nat) : Graph → List (List Char) → Except PyErr Graph
  | g, [] => .ok g
  | g, s :: r =>
    match resolveDep keys s with
    | .error e => .error e
    | .ok none => resolveLoop keys v g r
    | .ok (some x) =>
      match v with
      | none => .error .attributeError
      | some k => resolveLoop keys v (addDep g k x) r

/-- The loop over the mods, `/repo/draftsman/env.py:1840-1905`. -/
def resolveAll (f : Found) : Graph → Dict (List Char) (Option Nat) → Except PyErr Graph
  | g, [] => .ok g
  | g, (key, v) :: r =>
    match depsOf f.objs key v with
    | .error e => .error e
    | .ok ds =>
      match resolveLoop f.keys v g ds with
      | .error e => .error e
      | .ok g' => resolveAll f g' r

/-- The loop of `get_depth`, `/repo/draftsman/env.py:80-82`. -/
def depthLoop (sub : Nat → Except PyErr Nat) : Nat → List (Option Nat) → Except PyErr Nat
  | acc, [] => .ok acc
  | _, none :: _ => .error .attributeError
  | acc, some k :: r =>
    match sub k with
    | .error e => .error e
    | .ok x => depthLoop sub (max acc (acc + x)) r

/-- `get_depth`, `/repo/draftsman/env.py:79-83`; the number is that of the nested calls that the interpreter still allows. -/
def depth (g : Graph) : Nat → Nat → Except PyErr Nat
  | 0, _ => .error .recursionError
  | n + 1, k => depthLoop (depth g n) 1 (g k)

/-- The sort key of a key, `/repo/draftsman/env.py:1909-1911`. -/
def sortKey (limit : Nat) (objs : List Mod) (g : Graph) (p : List Char × Option Nat) : Except PyErr ((Nat × List Char) × List Char) :=
  match p.2 with
  | none => .error .attributeError
  | some k =>
    match objs[k]? with
    | none => .error .indexError          -- never: the numbers are those of `objs`
    | some m => (depth g limit k).map fun x => ((x, m.name), p.1)

/-- `load_order`, `/repo/draftsman/env.py:1837-1911`. -/
def loadOrder (limit : Nat) (f : Found) : Except PyErr (List (List Char)) :=
  match resolveAll f (fun _ => []) f.keys with
  | .error e => .error e
  | .ok g =>
    match f.keys.mapM (sortKey limit f.objs g) with
    | .error e => .error e
    | .ok ks => .ok ((ks.insertionSort fun a b => keyLe a.1 b.1 = true).map Prod.snd)

/-- The stages of settings and data in their order, `/repo/draftsman/env.py:2044,2084`. -/
def stages : List (List Char) :=
  ["settings.lua".toList, "settings-updates.lua".toList, "settings-final-fixes.lua".toList,
   "data.lua".toList, "data-updates.lua".toList, "data-final-fixes.lua".toList]

/-- `mods[mod_name]`, `/repo/draftsman/env.py:2050`, as the mod that it is. -/
def modOf (f : Found) (key : List Char) : Option Mod := ((f.keys.get? key).join).bind fun k => f.objs[k]?

/-- The files that are run, in order: `/repo/draftsman/env.py:2044-2106`. -/
def runs (f : Found) (order : List (List Char)) : List (List Char × List Char) :=
  stages.flatMap fun s => (order.filter fun k => ((modOf f k).map fun m => decide (s ∈ m.stages)).getD false).map fun k => (s, k)

/-- `extract_mods`, `/repo/draftsman/env.py:624-637`. -/
def extractMods (f : Found) : Dict (List Char) (Option Nat) → Except PyErr (Dict (List Char) (List Int))
  | [] => .ok []
  | (key, v) :: r =>
    if key = "core".toList then extractMods f r
    else match v.bind fun k => f.objs[k]? with
      | none => .error .attributeError
      | some m => match versionStringToTuple m.version with
        | .error e => .error e
        | .ok t => (extractMods f r).map fun d => (key, t) :: d

/-- What `update` does, as far as it is modelled: `/repo/draftsman/env.py:2044-2114`. -/
structure Outcome where
  runs : List (List Char × List Char)
  versions : Dict (List Char) (List Int)
  deriving DecidableEq, Repr

/-- `update`, `/repo/draftsman/env.py:1643-2114`, if the files run without an exception; `mods["core"]` (1989) is read before they do. -/
def update (limit : Nat) (d : Disk) : Except PyErr Outcome :=
  match discover d with
  | .error e => .error e
  | .ok f =>
    match loadOrder limit f with
    | .error e => .error e
    | .ok order =>
      match f.keys.get? "core".toList with
      | none => .error .keyError
      | some _ => (extractMods f f.keys).map fun v => ⟨runs f order, v⟩

end EnvUpdate
end Draftsman
