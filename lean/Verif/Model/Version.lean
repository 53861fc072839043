import Verif.Model.Py
/-
Game version numbers: `/repo/draftsman/utils.py:425-493`.
-/
namespace Draftsman.Version

/-- `encode_version`, `/repo/draftsman/utils.py:425-441`.  Arguments are non-negative here (Python
would accept negative ones too). -/
def encodeVersion (major minor patch dev : Nat) : Nat :=
  (major <<< 48) ||| (minor <<< 32) ||| (patch <<< 16) ||| dev

/-- `decode_version`, `/repo/draftsman/utils.py:444-460`. -/
def decodeVersion (n : Nat) : Nat × Nat × Nat × Nat :=
  ((n >>> 48) &&& 0xFFFF, (n >>> 32) &&& 0xFFFF, (n >>> 16) &&& 0xFFFF, n &&& 0xFFFF)

/-- `version_string_to_tuple`, `/repo/draftsman/utils.py:463-477`. -/
def versionStringToTuple (s : List Char) : Except PyErr (List Int) :=
  (pySplit '.' s).mapM pyInt

/-- `version_tuple_to_string`, `/repo/draftsman/utils.py:480-493`. -/
def versionTupleToString (t : List Int) : List Char :=
  pyJoin '.' (t.map intStr)

end Draftsman.Version
