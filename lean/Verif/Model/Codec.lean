import Verif.Model.Py
/-
Blueprint strings and root-key dispatch: `/repo/draftsman/utils.py:381-422`,
`/repo/draftsman/blueprintable.py:22-92`.
-/
namespace Draftsman.Codec

/-- The three library codecs used by `string_to_JSON` and `JSON_to_string`
(`base64`, `zlib`, `json`; `/repo/draftsman/utils.py:396, 420-422`).  They belong to the Python standard
library, so they are parameters here: encoders are total, decoders may raise any exception. -/
structure Codecs (J B : Type) where
  /-- `json.dumps(..., separators=(",", ":")).encode("utf-8")` -/
  dumps : J → B
  /-- `zlib.compress(..., 9)` -/
  compress : B → B
  /-- `base64.b64encode(...).decode("utf-8")` -/
  b64encode : B → List Char
  b64decode : List Char → Except PyErr B
  decompress : B → Except PyErr B
  loads : B → Except PyErr J

variable {J B : Type}

/-- `JSON_to_string`, `/repo/draftsman/utils.py:401-422`. -/
def jsonToString (k : Codecs J B) (j : J) : List Char :=
  '0' :: k.b64encode (k.compress (k.dumps j))

/-- `string_to_JSON`, `/repo/draftsman/utils.py:381-398`: `string[1:]`, then the three decoders inside a
`try` that turns every `Exception` into `MalformedBlueprintStringError`. -/
def stringToJson (k : Codecs J B) (s : List Char) : Except PyErr J :=
  let attempt : Except PyErr J := do
    let raw ← k.b64decode (s.drop 1)
    let text ← k.decompress raw
    k.loads text
  match attempt with
  | .ok j => .ok j
  | .error _ => .error .malformedBlueprintString

/-- The classes a document can be handed to, `/repo/draftsman/blueprintable.py:46-53`. -/
inductive Kind where
  | blueprint | deconstructionPlanner | upgradePlanner | blueprintBook
  deriving DecidableEq, Repr

/-- What `get_blueprintable_from_*` can see of a decoded JSON value: the keys of an object in order, the
string elements of an array, the text of a string, or something without an `in` operator
(number, `true`, `null`).  Read at `/repo/draftsman/blueprintable.py:45-57` and `:81-92`. -/
inductive Root where
  | object (keys : List String)
  | array (strings : List String)
  | text (s : String)
  | scalar
  deriving DecidableEq, Repr

/-- Python's `key in value` for a decoded JSON value. -/
def Root.has (key : String) : Root → Except PyErr Bool
  | .object ks => .ok (ks.contains key)
  | .array ss => .ok (ss.contains key)
  | .text s => .ok (decide (key.toList <:+: s.toList))
  | .scalar => .error .typeError

/-- The `else` branch: format the first key into the error message,
`/repo/draftsman/blueprintable.py:54-57`.  `.keys()` does not exist on lists and strings; `[0]` fails on an
empty key list. -/
def Root.unknown : Root → PyErr
  | .object [] => .indexError
  | .object (_ :: _) => .incorrectBlueprintType
  | .array _ => .attributeError
  | .text _ => .attributeError
  | .scalar => .typeError

/-- `get_blueprintable_from_JSON`, `/repo/draftsman/blueprintable.py:60-92`.  Simplification: only the class
that receives the document is returned, not the object its constructor builds. -/
def fromJson (r : Root) : Except PyErr Kind := do
  if ← r.has "blueprint" then return .blueprint
  else if ← r.has "deconstruction_planner" then return .deconstructionPlanner
  else if ← r.has "upgrade_planner" then return .upgradePlanner
  else if ← r.has "blueprint_book" then return .blueprintBook
  else throw r.unknown

/-- `get_blueprintable_from_string`, `/repo/draftsman/blueprintable.py:22-57`. -/
def fromString (k : Codecs J B) (root : J → Root) (s : List Char) : Except PyErr Kind := do
  let j ← stringToJson k s
  fromJson (root j)

end Draftsman.Codec
