import Verif.Model.Py
import Verif.Model.Codec
import Verif.Model.Dict
/-
The library functions behind blueprint strings, `/repo/draftsman/utils.py:396, 420-422`: Python's `json` (written with the separators given there, the
characters outside ASCII escaped) and `base64`.  They are no code of this repository and are modelled so that nothing need be assumed of them; `zlib`
stays a parameter.

Left out: the limits of the interpreter (depth of recursion, 4300 digits of an integer) and surrogates that stand alone (which Python's strings can
hold; here reading one fails, escaped or not).  How a float is written and read is a parameter, with what Python documents of it as hypothesis.
-/
namespace Draftsman
namespace Json

/-- A JSON document: what `/repo/draftsman/utils.py:401` is given. -/
inductive Doc (F : Type) where
  | null
  | bool (b : Bool)
  | int (n : Int)
  | float (x : F)
  | str (s : List Char)
  | arr (l : List (Doc F))
  | obj (l : List (List Char × Doc F))

variable {F : Type}

/-! ### Writing: `json.dumps(JSON, separators=(",", ":"))`, `/repo/draftsman/utils.py:421` -/

/-- A hexadecimal digit.  Python's `json`, used at `/repo/draftsman/utils.py:421`. -/
def hexDigit (n : Nat) : Char := if n < 10 then Char.ofNat (48 + n) else Char.ofNat (87 + n)

/-- `'\\u{0:04x}'.format(n)`.  Python's `json`, used at `/repo/draftsman/utils.py:421`. -/
def hex4 (n : Nat) : List Char := ['\\', 'u', hexDigit (n / 4096 % 16), hexDigit (n / 256 % 16), hexDigit (n / 16 % 16), hexDigit (n % 16)]

/-- One character in a string.  Python's `json.encoder.py_encode_basestring_ascii`, used at `/repo/draftsman/utils.py:421`. -/
def escape (c : Char) : List Char :=
  if c = '"' then ['\\', '"'] else if c = '\\' then ['\\', '\\'] else if c = '\n' then ['\\', 'n'] else if c = '\r' then ['\\', 'r']
  else if c = '\t' then ['\\', 't'] else if c = '\x0c' then ['\\', 'f'] else if c = '\x08' then ['\\', 'b']
  else if 32 ≤ c.toNat ∧ c.toNat ≤ 126 then [c]
  else if c.toNat < 65536 then hex4 c.toNat
  else hex4 (55296 + (c.toNat - 65536) / 1024) ++ hex4 (56320 + (c.toNat - 65536) % 1024)

/-- A string with its quotes.  Python's `json`, used at `/repo/draftsman/utils.py:421`. -/
def quote (s : List Char) : List Char := '"' :: s.flatMap escape ++ ['"']

mutual
/-- `json.dumps`, `/repo/draftsman/utils.py:421`. -/
def dumps (repr : F → List Char) : Doc F → List Char
  | .null => "null".toList
  | .bool true => "true".toList
  | .bool false => "false".toList
  | .int n => intStr n
  | .float x => repr x
  | .str s => quote s
  | .arr [] => "[]".toList
  | .arr (d :: l) => '[' :: dumps repr d ++ dumpsMore repr l
  | .obj [] => "{}".toList
  | .obj ((k, d) :: l) => '{' :: quote k ++ ':' :: dumps repr d ++ dumpsPairs repr l
/-- The elements of a list after the first.  Python's `json`, used at `/repo/draftsman/utils.py:421`. -/
def dumpsMore (repr : F → List Char) : List (Doc F) → List Char
  | [] => [']']
  | d :: l => ',' :: dumps repr d ++ dumpsMore repr l
/-- The entries of a dictionary after the first.  Python's `json`, used at `/repo/draftsman/utils.py:421`. -/
def dumpsPairs (repr : F → List Char) : List (List Char × Doc F) → List Char
  | [] => ['}']
  | (k, d) :: l => ',' :: quote k ++ ':' :: dumps repr d ++ dumpsPairs repr l
end

/-! ### Reading: `json.loads`, `/repo/draftsman/utils.py:396` -/

/-- Blanks are skipped.  Python's `json.decoder`, used at `/repo/draftsman/utils.py:396`. -/
def skip (s : List Char) : List Char := s.dropWhile fun c => c == ' ' || c == '\t' || c == '\n' || c == '\r'

/-- The value of a hexadecimal digit.  Python's `json.decoder`, used at `/repo/draftsman/utils.py:396`. -/
def hexVal (c : Char) : Option Nat :=
  if 48 ≤ c.toNat ∧ c.toNat ≤ 57 then some (c.toNat - 48) else if 97 ≤ c.toNat ∧ c.toNat ≤ 102 then some (c.toNat - 87)
  else if 65 ≤ c.toNat ∧ c.toNat ≤ 70 then some (c.toNat - 55) else none

/-- Four hexadecimal digits.  Python's `json.decoder`, used at `/repo/draftsman/utils.py:396`. -/
def readHex4 : List Char → Option (Nat × List Char)
  | a :: b :: c :: d :: r => match hexVal a, hexVal b, hexVal c, hexVal d with
    | some a, some b, some c, some d => some (a * 4096 + b * 256 + c * 16 + d, r)
    | _, _, _, _ => none
  | _ => none

/-- A character written as a pair of surrogates, after the first of them.  Python's `json.decoder`, used at `/repo/draftsman/utils.py:396`. -/
def readLow (n : Nat) : List Char → Option (Char × List Char)
  | '\\' :: 'u' :: r => match readHex4 r with
    | some (m, r) => if 56320 ≤ m ∧ m ≤ 57343 then some (Char.ofNat (65536 + (n - 55296) * 1024 + (m - 56320)), r) else none
    | none => none
  | _ => none

/-- What follows a backslash.  Python's `json.decoder`, used at `/repo/draftsman/utils.py:396`. -/
def readEscape : List Char → Option (Char × List Char)
  | [] => none
  | c :: r =>
    if c = 'u' then match readHex4 r with
      | some (n, r) => if 55296 ≤ n ∧ n ≤ 56319 then readLow n r else if 56320 ≤ n ∧ n ≤ 57343 then none else some (Char.ofNat n, r)
      | none => none
    else if c = '"' then some ('"', r) else if c = '\\' then some ('\\', r) else if c = '/' then some ('/', r) else if c = 'b' then some ('\x08', r)
    else if c = 'f' then some ('\x0c', r) else if c = 'n' then some ('\n', r) else if c = 'r' then some ('\r', r) else if c = 't' then some ('\t', r) else none

/-- One character of a string; control characters are refused.  Python's `json.decoder`, used at `/repo/draftsman/utils.py:396`. -/
def readChar : List Char → Option (Char × List Char)
  | [] => none
  | c :: r => if c = '\\' then readEscape r else if c.toNat < 32 then none else some (c, r)

/-- A string after its first quote.  Python's `json.decoder.py_scanstring`, used at `/repo/draftsman/utils.py:396`; `fuel` is at least the number of
characters left. -/
def readStr : (fuel : Nat) → List Char → Option (List Char × List Char)
  | 0, _ => none
  | fuel + 1, s => match s with
    | '"' :: r => some ([], r)
    | s => match readChar s with
      | some (c, r) => (readStr fuel r).map fun x => (c :: x.1, x.2)
      | none => none

/-- A decimal digit.  Python's `json.scanner.NUMBER_RE`, used at `/repo/draftsman/utils.py:396`. -/
def isDigit (c : Char) : Bool := (digitVal? c).isSome

/-- `-?(0|[1-9]\d*)`.  Python's `json.scanner.NUMBER_RE`, used at `/repo/draftsman/utils.py:396`. -/
def readWhole (s : List Char) : Option (List Char × List Char) :=
  let sign := if s.head? = some '-' then ['-'] else []
  let r := s.drop sign.length
  match r with
  | '0' :: r => some (sign ++ ['0'], r)
  | r => if r.takeWhile isDigit = [] then none else some (sign ++ r.takeWhile isDigit, r.dropWhile isDigit)

/-- `(\.\d+)?`.  Python's `json.scanner.NUMBER_RE`, used at `/repo/draftsman/utils.py:396`. -/
def readFraction (s : List Char) : List Char × List Char :=
  match s with
  | '.' :: r => if r.takeWhile isDigit = [] then ([], s) else ('.' :: r.takeWhile isDigit, r.dropWhile isDigit)
  | _ => ([], s)

/-- `[-+]?`.  Python's `json.scanner.NUMBER_RE`, used at `/repo/draftsman/utils.py:396`. -/
def readSign : List Char → List Char
  | [] => []
  | c :: _ => if c = '-' ∨ c = '+' then [c] else []

/-- `([eE][-+]?\d+)?`.  Python's `json.scanner.NUMBER_RE`, used at `/repo/draftsman/utils.py:396`. -/
def readExponent (s : List Char) : List Char × List Char :=
  match s with
  | [] => ([], s)
  | e :: r =>
    if e = 'e' ∨ e = 'E' then
      let sign := readSign r
      let t := r.drop sign.length
      if t.takeWhile isDigit = [] then ([], s) else (e :: sign ++ t.takeWhile isDigit, t.dropWhile isDigit)
    else ([], s)

/-- A number: an `int` if it has neither fraction nor exponent.  Python's `json.scanner`, used at `/repo/draftsman/utils.py:396`. -/
def readNumber (read : List Char → F) (s : List Char) : Option (Doc F × List Char) :=
  match readWhole s with
  | none => none
  | some (w, r) =>
    let f := readFraction r
    let e := readExponent f.2
    if f.1 = [] ∧ e.1 = [] then match pyInt w with
      | .ok n => some (.int n, r)
      | .error _ => none
    else some (.float (read (w ++ f.1 ++ e.1)), e.2)

/-- `dict(pairs)`: the last of equal keys wins and stays at the place of the first.  Python's `json.decoder`, used at `/repo/draftsman/utils.py:396`. -/
def toDict (l : List (List Char × Doc F)) : List (List Char × Doc F) := l.foldl (fun d x => Dict.set d x.1 x.2) []

mutual
/-- A value.  Python's `json.scanner.py_make_scanner`, used at `/repo/draftsman/utils.py:396`; `fuel` is at least the number of characters left. -/
def readDoc (read : List Char → F) : (fuel : Nat) → List Char → Option (Doc F × List Char)
  | 0, _ => none
  | fuel + 1, s => match s with
    | '"' :: r => (readStr (r.length + 1) r).map fun x => (.str x.1, x.2)
    | '{' :: r => match skip r with
      | '}' :: r => some (.obj [], r)
      | r => (readPairs read fuel r).map fun x => (.obj (toDict x.1), x.2)
    | '[' :: r => match skip r with
      | ']' :: r => some (.arr [], r)
      | r => (readMore read fuel r).map fun x => (.arr x.1, x.2)
    | 'n' :: 'u' :: 'l' :: 'l' :: r => some (.null, r)
    | 't' :: 'r' :: 'u' :: 'e' :: r => some (.bool true, r)
    | 'f' :: 'a' :: 'l' :: 's' :: 'e' :: r => some (.bool false, r)
    | 'N' :: 'a' :: 'N' :: r => some (.float (read "NaN".toList), r)
    | 'I' :: 'n' :: 'f' :: 'i' :: 'n' :: 'i' :: 't' :: 'y' :: r => some (.float (read "Infinity".toList), r)
    | '-' :: 'I' :: 'n' :: 'f' :: 'i' :: 'n' :: 'i' :: 't' :: 'y' :: r => some (.float (read "-Infinity".toList), r)
    | s => readNumber read s
/-- The elements of a list.  Python's `json.decoder.JSONArray`, used at `/repo/draftsman/utils.py:396`. -/
def readMore (read : List Char → F) : (fuel : Nat) → List Char → Option (List (Doc F) × List Char)
  | 0, _ => none
  | fuel + 1, s => match readDoc read fuel s with
    | none => none
    | some (d, r) => match skip r with
      | ']' :: r => some ([d], r)
      | ',' :: r => (readMore read fuel (skip r)).map fun x => (d :: x.1, x.2)
      | _ => none
/-- The entries of a dictionary.  Python's `json.decoder.JSONObject`, used at `/repo/draftsman/utils.py:396`. -/
def readPairs (read : List Char → F) : (fuel : Nat) → List Char → Option (List (List Char × Doc F) × List Char)
  | 0, _ => none
  | fuel + 1, s => match s with
    | '"' :: r => match readStr (r.length + 1) r with
      | none => none
      | some (k, r) => match skip r with
        | ':' :: r => match readDoc read fuel (skip r) with
          | none => none
          | some (d, r) => match skip r with
            | '}' :: r => some ([(k, d)], r)
            | ',' :: r => (readPairs read fuel (skip r)).map fun x => ((k, d) :: x.1, x.2)
            | _ => none
        | _ => none
    | _ => none
end

/-- `json.loads`, `/repo/draftsman/utils.py:396`: one value, with blanks around it. -/
def loads (read : List Char → F) (s : List Char) : Except PyErr (Doc F) :=
  match readDoc read (s.length + 1) (skip s) with
  | some (d, r) => if skip r = [] then .ok d else .error .valueError
  | none => .error .valueError

/-! ### `base64` -/

/-- The character for six bits.  Python's `base64`, used at `/repo/draftsman/utils.py:420`. -/
def letter (n : Nat) : Char :=
  if n < 26 then Char.ofNat (65 + n) else if n < 52 then Char.ofNat (71 + n) else if n < 62 then Char.ofNat (n - 4) else if n = 62 then '+' else '/'

/-- `base64.b64encode`, `/repo/draftsman/utils.py:420`. -/
def b64encode : List (Fin 256) → List Char
  | [] => []
  | [a] => [letter (a / 4), letter (a % 4 * 16), '=', '=']
  | [a, b] => [letter (a / 4), letter (a % 4 * 16 + b / 16), letter (b % 16 * 4), '=']
  | a :: b :: c :: r => letter (a / 4) :: letter (a % 4 * 16 + b / 16) :: letter (b % 16 * 4 + c / 64) :: letter (c % 64) :: b64encode r

/-- Six bits for a character, if it is one of the 64.  Python's `binascii`, used at `/repo/draftsman/utils.py:396`. -/
def sixBits (c : Char) : Option Nat :=
  let n := c.toNat
  if 65 ≤ n ∧ n ≤ 90 then some (n - 65) else if 97 ≤ n ∧ n ≤ 122 then some (n - 71) else if 48 ≤ n ∧ n ≤ 57 then some (n + 4)
  else if n = 43 then some 62 else if n = 47 then some 63 else none

/-- A byte.  Part of the model only: the output of `binascii`, used at `/repo/draftsman/utils.py:396`. -/
def byte (n : Nat) : Fin 256 := Fin.ofNat 256 n

/-- `binascii.a2b_base64`, not strict, which `base64.b64decode` calls, `/repo/draftsman/utils.py:396`: how many of the four characters of a group were
seen, what is left of the last one, and how many `=` there were since; other characters are passed over, and so is everything after the padding. -/
def a2b : (pos left pads : Nat) → List Char → Except PyErr (List (Fin 256))
  | pos, _, _, [] => if pos = 0 then .ok [] else .error .valueError
  | pos, left, pads, c :: r =>
    if c = '=' then
      if 2 ≤ pos ∧ 4 ≤ pos + (pads + 1) then .ok [] else a2b pos left (if 2 ≤ pos then pads + 1 else pads) r
    else match sixBits c with
      | none => a2b pos left pads r
      | some n =>
        if pos = 0 then a2b 1 n 0 r
        else if pos = 1 then (a2b 2 (n % 16) 0 r).map (byte (left * 4 + n / 16) :: ·)
        else if pos = 2 then (a2b 3 (n % 4) 0 r).map (byte (left * 16 + n / 4) :: ·)
        else (a2b 0 0 0 r).map (byte (left * 64 + n) :: ·)

/-- `base64.b64decode` of a string, `/repo/draftsman/utils.py:396`: only ASCII is taken. -/
def b64decode (s : List Char) : Except PyErr (List (Fin 256)) :=
  if s.all fun c => decide (c.toNat < 128) then a2b 0 0 0 s else .error .valueError

/-- `.encode("utf-8")` of the text that `json.dumps` writes, which is ASCII: `/repo/draftsman/utils.py:421`. -/
def encode (s : List Char) : List (Fin 256) := s.map fun c => byte c.toNat

/-- The character with this number, if there is one: surrogates have none here (Python's `surrogatepass` lets them through).  Python's codecs, used at
`/repo/draftsman/utils.py:396`. -/
def point (n : Nat) : Option Char := if n.isValidChar then some (Char.ofNat n) else none

/-- The six bits of a byte that continues a character.  Python's codec `utf-8`, used at `/repo/draftsman/utils.py:396`. -/
def tail (x : Fin 256) : Option Nat := if 128 ≤ x.val ∧ x.val < 192 then some (x.val - 128) else none

/-- One character of UTF-8: how many bytes it has is told by the first, and it has no more than it needs.  Python's codec `utf-8`, used at
`/repo/draftsman/utils.py:396`. -/
def utf8Char : List (Fin 256) → Option (Char × List (Fin 256))
  | [] => none
  | a :: r =>
    if a.val < 128 then some (Char.ofNat a.val, r)
    else if a.val < 192 then none
    else if a.val < 224 then match r with
      | b :: r => match tail b with
        | some b => if 128 ≤ (a.val - 192) * 64 + b then (point ((a.val - 192) * 64 + b)).map fun c => (c, r) else none
        | none => none
      | [] => none
    else if a.val < 240 then match r with
      | b :: c :: r => match tail b, tail c with
        | some b, some c => if 2048 ≤ (a.val - 224) * 4096 + b * 64 + c then (point ((a.val - 224) * 4096 + b * 64 + c)).map fun x => (x, r) else none
        | _, _ => none
      | _ => none
    else if a.val < 248 then match r with
      | b :: c :: d :: r => match tail b, tail c, tail d with
        | some b, some c, some d =>
          if 65536 ≤ (a.val - 240) * 262144 + b * 4096 + c * 64 + d then (point ((a.val - 240) * 262144 + b * 4096 + c * 64 + d)).map fun x => (x, r) else none
        | _, _, _ => none
      | _ => none
    else none

/-- Python's codec `utf-8`, used at `/repo/draftsman/utils.py:396`; `fuel` is at least the number of bytes. -/
def utf8 : (fuel : Nat) → List (Fin 256) → Option (List Char)
  | 0, b => if b = [] then some [] else none
  | fuel + 1, b => if b = [] then some [] else match utf8Char b with
    | some (c, r) => (utf8 fuel r).map (c :: ·)
    | none => none

/-- The units of two bytes, the high byte first or last.  Python's codec `utf-16`, used at `/repo/draftsman/utils.py:396`. -/
def pairs (big : Bool) : List (Fin 256) → Option (List Nat)
  | [] => some []
  | [_] => none
  | a :: b :: r => (pairs big r).map ((if big then a.val * 256 + b.val else b.val * 256 + a.val) :: ·)

/-- Characters from units: one or two surrogates for each.  Python's codec `utf-16`, used at `/repo/draftsman/utils.py:396`. -/
def utf16 : List Nat → Option (List Char)
  | [] => some []
  | [n] => (point n).map ([·])
  | n :: m :: r =>
    if 55296 ≤ n ∧ n ≤ 56319 then
      if 56320 ≤ m ∧ m ≤ 57343 then (utf16 r).map (Char.ofNat (65536 + (n - 55296) * 1024 + (m - 56320)) :: ·) else none
    else match point n with
      | some c => (utf16 (m :: r)).map (c :: ·)
      | none => none

/-- Python's codec `utf-32`, used at `/repo/draftsman/utils.py:396`, with the high byte first or last. -/
def utf32 (big : Bool) : List (Fin 256) → Option (List Char)
  | [] => some []
  | a :: b :: c :: d :: r =>
    match point (if big then ((a.val * 256 + b.val) * 256 + c.val) * 256 + d.val else ((d.val * 256 + c.val) * 256 + b.val) * 256 + a.val) with
    | some x => (utf32 big r).map (x :: ·)
    | none => none
  | _ => none

/-- The encodings that are told apart.  Python's `json.detect_encoding`, used at `/repo/draftsman/utils.py:396`. -/
inductive Enc where
  | utf8
  | utf16 (big : Bool)
  | utf32 (big : Bool)
  deriving DecidableEq, Repr

/-- The encoding by the place of the zeros among the first bytes.  Python's `json.detect_encoding`, used at `/repo/draftsman/utils.py:396`. -/
def zeros : List (Fin 256) → Enc
  | a :: b :: c :: d :: _ =>
    if a.val = 0 then (if b.val ≠ 0 then .utf16 true else .utf32 true)
    else if b.val = 0 then (if c.val ≠ 0 ∨ d.val ≠ 0 then .utf16 false else .utf32 false)
    else .utf8
  | [a, b] => if a.val = 0 then .utf16 true else if b.val = 0 then .utf16 false else .utf8
  | _ => .utf8

/-- The encoding, and the bytes after the mark of byte order, if there is one.  Python's `json.detect_encoding` and the codecs `utf-8-sig`, `utf-16` and
`utf-32`, used at `/repo/draftsman/utils.py:396`. -/
def detect (b : List (Fin 256)) : Enc × List (Fin 256) :=
  if [0, 0, 254, 255].isPrefixOf b then (.utf32 true, b.drop 4)
  else if [255, 254, 0, 0].isPrefixOf b then (.utf32 false, b.drop 4)
  else if [254, 255].isPrefixOf b then (.utf16 true, b.drop 2)
  else if [255, 254].isPrefixOf b then (.utf16 false, b.drop 2)
  else if [239, 187, 191].isPrefixOf b then (.utf8, b.drop 3)
  else (zeros b, b)

/-- The codec of an encoding: `/repo/draftsman/utils.py:396`. -/
def decodeAs (e : Enc) (b : List (Fin 256)) : Option (List Char) :=
  match e with
  | .utf8 => utf8 b.length b
  | .utf16 big => (pairs big b).bind utf16
  | .utf32 big => utf32 big b

/-- The decoding in `json.loads` of bytes, `/repo/draftsman/utils.py:396`. -/
def decode (b : List (Fin 256)) : Except PyErr (List Char) :=
  match decodeAs (detect b).1 (detect b).2 with
  | some s => .ok s
  | none => .error .valueError

/-- The three codecs of `/repo/draftsman/utils.py:396, 420-422`; `zlib` and how floats are written and read are parameters. -/
def codecs (repr : F → List Char) (read : List Char → F) (compress : List (Fin 256) → List (Fin 256))
    (decompress : List (Fin 256) → Except PyErr (List (Fin 256))) : Codec.Codecs (Doc F) (List (Fin 256)) where
  dumps d := encode (dumps repr d)
  compress := compress
  b64encode := b64encode
  b64decode := b64decode
  decompress := decompress
  loads b := match decode b with
    | .ok s => loads read s
    | .error e => .error e

/-- What `get_blueprintable_from_JSON` looks at: `/repo/draftsman/blueprintable.py:81-92`. -/
def root : Doc F → Codec.Root
  | .obj l => .object (l.map fun x => String.ofList x.1)
  | .arr l => .array (l.filterMap fun d => match d with
    | .str s => some (String.ofList s)
    | _ => none)
  | .str s => .text (String.ofList s)
  | _ => .scalar

end Json
end Draftsman
