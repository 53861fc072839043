import Verif.Model.Py
/-
Enabling and disabling mods: `/repo/draftsman/environment/mod_list.py:614-661`, and how the file is read back, 387-394.
-/
namespace Draftsman
namespace ModEnable

/-- An entry of `mod-list.json`.  `/repo/draftsman/environment/mod_list.py:633`. -/
structure Entry where
  name : String
  enabled : Bool
  deriving DecidableEq, Repr

/-- The entries of `mod-list.json`, or the default if there is no such file; `mods` are the names of the mods discovered.
`/repo/draftsman/environment/mod_list.py:628-633`. -/
def entries (mods : List String) (file : Option (List Entry)) : List Entry :=
  file.getD (mods.map fun m => ⟨m, true⟩)

/-- The assignment in the loop, `/repo/draftsman/environment/mod_list.py:647-655`: `next` without a default fails when no entry has the name.
 -/
def setOne (name : String) (enabled : Bool) : List Entry → Except PyErr (List Entry)
  | [] => .error .stopIteration
  | e :: r =>
    if e.name = name then .ok ({ e with enabled := enabled } :: r)
    else (setOne name enabled r).map fun t => e :: t

/-- The loop, `/repo/draftsman/environment/mod_list.py:647-655`. -/
def setEach (enabled : Bool) (names : List String) (l : List Entry) : Except PyErr (List Entry) :=
  names.foldlM (fun l n => setOne n enabled l) l

/-- `set_mods_enabled`, `/repo/draftsman/environment/mod_list.py:614-661`: what is written to the file.  The loop for `"all"` runs over the
names, which are strings and have no `name`. -/
def setModsEnabled (mods : List String) (file : Option (List Entry)) (names : List String) (enabled : Bool) : Except PyErr (List Entry) :=
  if names = ["all"] then
    match mods with
    | [] => setEach enabled [] (entries mods file)
    | _ :: _ => .error .attributeError
  else if names.any fun n => decide (n ∉ mods) then .error .missingMod
  else setEach enabled names (entries mods file)

/-- Whether a mod is enabled, as `register_mod` reads it, `/repo/draftsman/environment/mod_list.py:387-394`; a missing file has no entries
(442-447). -/
def isEnabled (file : Option (List Entry)) (name : String) : Bool :=
  match (file.getD []).find? (fun e => e.name = name) with
  | some e => e.enabled
  | none => true

end ModEnable
end Draftsman
