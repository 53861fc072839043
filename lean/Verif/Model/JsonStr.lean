import Verif.Model.Json
/-
Strings of documents as Python has them: lists of code points, where surrogates (U+D800 to U+DFFF) can stand alone.  `Verif/Model/Json.lean` has characters of Unicode
only; here is what Python's `json` and its codecs do with all code points, for strings alone (`/repo/draftsman/utils.py:396, 420-422`).  `loads` is modelled for texts that
begin with a quote.
-/
namespace Draftsman
namespace JsonStr

/-- The surrogates that begin a pair.  Python's `json`, used at `/repo/draftsman/utils.py:396, 421`. -/
def high (n : Nat) : Bool := decide (0xD800 ≤ n) && decide (n ≤ 0xDBFF)

/-- The surrogates that end a pair.  Python's `json`, used at `/repo/draftsman/utils.py:396, 421`. -/
def low (n : Nat) : Bool := decide (0xDC00 ≤ n) && decide (n ≤ 0xDFFF)

/-- The code point of a pair: `Py_UNICODE_JOIN_SURROGATES`.  Python's `json`, used at `/repo/draftsman/utils.py:396`. -/
def join (h l : Nat) : Nat := 0x10000 + (h - 0xD800) * 0x400 + (l - 0xDC00)

/-! ### Writing -/

/-- A hexadecimal digit.  Python's `json`, used at `/repo/draftsman/utils.py:421`. -/
def hexDigit (n : Nat) : Nat := if n < 10 then 48 + n else 87 + n

/-- `'\\u{0:04x}'.format(n)`.  Python's `json`, used at `/repo/draftsman/utils.py:421`. -/
def hex4 (n : Nat) : List Nat := [92, 117, hexDigit (n / 4096 % 16), hexDigit (n / 256 % 16), hexDigit (n / 16 % 16), hexDigit (n % 16)]

/-- One code point in a string.  Python's `json.encoder.py_encode_basestring_ascii`, used at `/repo/draftsman/utils.py:421`. -/
def escape (c : Nat) : List Nat :=
  if c = 34 then [92, 34] else if c = 92 then [92, 92] else if c = 10 then [92, 110] else if c = 13 then [92, 114]
  else if c = 9 then [92, 116] else if c = 12 then [92, 102] else if c = 8 then [92, 98]
  else if 32 ≤ c ∧ c ≤ 126 then [c]
  else if c < 65536 then hex4 c
  else hex4 (0xD800 + (c - 65536) / 1024) ++ hex4 (0xDC00 + (c - 65536) % 1024)

/-- A string with its quotes.  Python's `json`, used at `/repo/draftsman/utils.py:421`. -/
def quote (s : List Nat) : List Nat := 34 :: s.flatMap escape ++ [34]

/-! ### Reading -/

/-- The value of a hexadecimal digit.  Python's `json.decoder`, used at `/repo/draftsman/utils.py:396`. -/
def hexVal (c : Nat) : Option Nat :=
  if 48 ≤ c ∧ c ≤ 57 then some (c - 48) else if 97 ≤ c ∧ c ≤ 102 then some (c - 87) else if 65 ≤ c ∧ c ≤ 70 then some (c - 55) else none

/-- Four hexadecimal digits.  Python's `json.decoder`, used at `/repo/draftsman/utils.py:396`. -/
def readHex4 : List Nat → Option (Nat × List Nat)
  | a :: b :: c :: d :: r => match hexVal a, hexVal b, hexVal c, hexVal d with
    | some a, some b, some c, some d => some (a * 4096 + b * 256 + c * 16 + d, r)
    | _, _, _, _ => none
  | _ => none

/-- After the first surrogate of a pair: a second one, escaped, joins it; otherwise the first stands alone and nothing is taken.  Python's `json.decoder`, used at
`/repo/draftsman/utils.py:396`. -/
def readLow (n : Nat) (s : List Nat) : Nat × List Nat :=
  match s with
  | a :: b :: r =>
    if a = 92 ∧ b = 117 then match readHex4 r with
      | some (m, r') => if low m then (join n m, r') else (n, s)
      | none => (n, s)
    else (n, s)
  | _ => (n, s)

/-- What follows a backslash.  Python's `json.decoder`, used at `/repo/draftsman/utils.py:396`. -/
def readEscape : List Nat → Option (Nat × List Nat)
  | [] => none
  | c :: r =>
    if c = 117 then match readHex4 r with
      | some (n, r) => if high n then some (readLow n r) else some (n, r)
      | none => none
    else if c = 34 then some (34, r) else if c = 92 then some (92, r) else if c = 47 then some (47, r) else if c = 98 then some (8, r)
    else if c = 102 then some (12, r) else if c = 110 then some (10, r) else if c = 114 then some (13, r) else if c = 116 then some (9, r) else none

/-- One character of a string; control characters are refused.  Python's `json.decoder`, used at `/repo/draftsman/utils.py:396`. -/
def readChar : List Nat → Option (Nat × List Nat)
  | [] => none
  | c :: r => if c = 92 then readEscape r else if c < 32 then none else some (c, r)

/-- A string after its first quote.  Python's `json.decoder.py_scanstring`, used at `/repo/draftsman/utils.py:396`; `fuel` is at least the number of
characters left. -/
def readStr : (fuel : Nat) → List Nat → Option (List Nat × List Nat)
  | 0, _ => none
  | fuel + 1, s => match s with
    | [] => none
    | c :: r => if c = 34 then some ([], r) else match readChar (c :: r) with
      | some (c, r) => (readStr fuel r).map fun x => (c :: x.1, x.2)
      | none => none

/-- Blanks are skipped.  Python's `json.decoder`, used at `/repo/draftsman/utils.py:396`. -/
def skip (s : List Nat) : List Nat := s.dropWhile fun c => c == 32 || c == 9 || c == 10 || c == 13

/-- `json.loads` of a text that begins with a quote, `/repo/draftsman/utils.py:396`; texts that begin otherwise are not modelled here. -/
def loads (s : List Nat) : Option (List Nat) :=
  match skip s with
  | [] => none
  | c :: r => if c = 34 then match readStr (r.length + 1) r with
      | some (x, r) => if skip r = [] then some x else none
      | none => none
    else none

/-! ### From bytes: the codecs with `"surrogatepass"` -/

/-- A code point of one to four bytes; surrogates pass.  Python's codec `utf-8` with the handler `surrogatepass`, used in `json.loads` at `/repo/draftsman/utils.py:396`. -/
def utf8Char : List (Fin 256) → Option (Nat × List (Fin 256))
  | [] => none
  | a :: r =>
    if a.val < 128 then some (a.val, r)
    else if a.val < 192 then none
    else if a.val < 224 then match r with
      | b :: r => match Json.tail b with
        | some b => if 128 ≤ (a.val - 192) * 64 + b then some ((a.val - 192) * 64 + b, r) else none
        | none => none
      | _ => none
    else if a.val < 240 then match r with
      | b :: c :: r => match Json.tail b, Json.tail c with
        | some b, some c => if 2048 ≤ (a.val - 224) * 4096 + b * 64 + c then some ((a.val - 224) * 4096 + b * 64 + c, r) else none
        | _, _ => none
      | _ => none
    else if a.val < 248 then match r with
      | b :: c :: d :: r => match Json.tail b, Json.tail c, Json.tail d with
        | some b, some c, some d =>
          if 65536 ≤ (a.val - 240) * 262144 + b * 4096 + c * 64 + d ∧ (a.val - 240) * 262144 + b * 4096 + c * 64 + d < 1114112 then
            some ((a.val - 240) * 262144 + b * 4096 + c * 64 + d, r)
          else none
        | _, _, _ => none
      | _ => none
    else none

/-- Python's codec `utf-8` with the handler `surrogatepass`, used at `/repo/draftsman/utils.py:396`; `fuel` is at least the number of bytes. -/
def utf8 : (fuel : Nat) → List (Fin 256) → Option (List Nat)
  | 0, b => if b = [] then some [] else none
  | fuel + 1, b => if b = [] then some [] else match utf8Char b with
    | some (c, r) => (utf8 fuel r).map (c :: ·)
    | none => none

/-- Code points from units: pairs are joined, other surrogates pass.  Python's codec `utf-16` with the handler `surrogatepass`, used at `/repo/draftsman/utils.py:396`. -/
def utf16 : List Nat → List Nat
  | [] => []
  | [n] => [n]
  | n :: m :: r => if high n && low m then join n m :: utf16 r else n :: utf16 (m :: r)

/-- Python's codec `utf-32` with the handler `surrogatepass`, used at `/repo/draftsman/utils.py:396`, with the high byte first or last. -/
def utf32 (big : Bool) : List (Fin 256) → Option (List Nat)
  | [] => some []
  | a :: b :: c :: d :: r =>
    let n := if big then ((a.val * 256 + b.val) * 256 + c.val) * 256 + d.val else ((d.val * 256 + c.val) * 256 + b.val) * 256 + a.val
    if n < 1114112 then (utf32 big r).map (n :: ·) else none
  | _ => none

/-- The codec of an encoding: `/repo/draftsman/utils.py:396`. -/
def decodeAs (e : Json.Enc) (b : List (Fin 256)) : Option (List Nat) :=
  match e with
  | .utf8 => utf8 b.length b
  | .utf16 big => (Json.pairs big b).map utf16
  | .utf32 big => utf32 big b

/-- The decoding in `json.loads` of bytes, `/repo/draftsman/utils.py:396`. -/
def decode (b : List (Fin 256)) : Option (List Nat) := decodeAs (Json.detect b).1 (Json.detect b).2

/-- `JSON_to_string` of a string, `/repo/draftsman/utils.py:420-422`; `zlib` is a parameter.  What `dumps` writes is ASCII, one byte for each character. -/
def toString (compress : List (Fin 256) → List (Fin 256)) (s : List Nat) : List Char := '0' :: Json.b64encode (compress ((quote s).map fun c => Fin.ofNat 256 c))

/-- `string_to_JSON`, `/repo/draftsman/utils.py:395-398`, of blueprint strings with a text that begins with a quote. -/
def ofString (decompress : List (Fin 256) → Except PyErr (List (Fin 256))) (s : List Char) : Except PyErr (List Nat) :=
  match Json.b64decode (s.drop 1) with
  | .error _ => .error .malformedBlueprintString
  | .ok b => match decompress b with
    | .error _ => .error .malformedBlueprintString
    | .ok b => match (decode b).bind loads with
      | none => .error .malformedBlueprintString
      | some x => .ok x

end JsonStr
end Draftsman
