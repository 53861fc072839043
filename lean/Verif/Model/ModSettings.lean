import Verif.Model.Py
import Verif.Model.Dict
/-
`mod-settings.dat`: `/repo/draftsman/environment/mod_settings.py`.

A stream is the list of the bytes not yet read.  A floating point number is its 64 bits.  `limit` is the number of nested calls of `read_node` that the
interpreter's recursion limit leaves room for; the calls in between (`read_string`, `struct`) are not counted.
-/
namespace Draftsman
namespace ModSettings

/-- Python `bytes` (built-in type). -/
abbrev Bytes := List UInt8

/-- `struct.unpack` of an unsigned little endian integer: `<B`, `<I`, `<Q`.  Python standard library; used at `/repo/draftsman/environment/mod_settings.py:29-99`. -/
def le : Bytes → Nat
  | [] => 0
  | b :: bs => b.toNat + 256 * le bs

/-- `struct.unpack(fmt, stream.read(k))` for a format of `k` bytes: `struct.error` when the stream is too short.  Python standard library; used at `/repo/draftsman/environment/mod_settings.py:29-99`. -/
def unpack (k : Nat) (s : Bytes) : Except PyErr (Bytes × Bytes) :=
  if (s.take k).length = k then .ok (s.take k, s.drop k) else .error .structError

/-- `struct.unpack("<q", …)`: two's complement.  Python standard library; used at `/repo/draftsman/environment/mod_settings.py:91-93`. -/
def signed (b : Bytes) : Int := if le b < 2 ^ 63 then le b else (le b : Int) - 2 ^ 64

/-- `struct.unpack("<?", …)`: any byte but zero is true.  Python standard library; used at `/repo/draftsman/environment/mod_settings.py:29-60`. -/
def bool (b : Bytes) : Bool := decide (le b ≠ 0)

/-- `bytes.decode()`: strict UTF-8; `UnicodeDecodeError` is a `ValueError`.  Python built-in; used at `/repo/draftsman/environment/mod_settings.py:59`. -/
def decodeUtf8 (b : Bytes) : Except PyErr String :=
  match String.fromUTF8? ⟨b.toArray⟩ with
  | some s => .ok s
  | none => .error .valueError

/-- `read_string`: `/repo/draftsman/environment/mod_settings.py:46-59`.  The last `read` may come short, and then the string is shorter. -/
def readString (s : Bytes) : Except PyErr (Option String × Bytes) := do
  let (a, s) ← unpack 1 s
  if bool a then .ok (none, s)
  else
    let (n, s) ← unpack 1 s
    let (n, s) ← if le n = 255 then (unpack 4 s).map (fun p => (le p.1, p.2)) else .ok (le n, s)
    let t ← decodeUtf8 (s.take n)
    .ok (some t, s.drop n)

/-- What `read_node` returns: Python values. -/
inductive Val where
  | none
  | bool (b : Bool)
  | float (bits : Nat)
  | str (s : String)
  | int (n : Int)
  | dict (d : List (Option String × Val))

/-- The loop over a dictionary's entries, `/repo/draftsman/environment/mod_settings.py`, lines 86-89; `rd` reads a value. -/
def readPairs (rd : Bytes → Except PyErr (Val × Bytes)) : Nat → Dict (Option String) Val → Bytes → Except PyErr (Dict (Option String) Val × Bytes)
  | 0, d, s => .ok (d, s)
  | n + 1, d, s => do
    let (k, s) ← readString s
    let (v, s) ← rd s
    readPairs rd n (d.set k v) s

/-- `read_node`: `/repo/draftsman/environment/mod_settings.py`, lines 62-97.  A list is `TypeError` because `range` is given a tuple (lines 78-80); an unsigned integer is `TypeError` because `unpack` is given the
stream (line 95). -/
def readNode : Nat → Bytes → Except PyErr (Val × Bytes)
  | 0, _ => .error .recursionError
  | limit + 1, s => do
    let (t, s) ← unpack 1 s
    let s := s.drop 1
    if le t = 0 then .ok (.none, s)
    else if le t = 1 then
      let (b, s) ← unpack 1 s
      .ok (.bool (ModSettings.bool b), s)
    else if le t = 2 then
      let (b, s) ← unpack 8 s
      .ok (.float (le b), s)
    else if le t = 3 then
      let (v, s) ← readString s
      match v with
      | some x => .ok (.str x, s)
      | none => .ok (.none, s)
    else if le t = 4 then
      let _ ← unpack 4 s
      .error .typeError
    else if le t = 5 then
      let (n, s) ← unpack 4 s
      let (d, s) ← readPairs (readNode limit) (le n) [] s
      .ok (.dict d, s)
    else if le t = 6 then
      let (b, s) ← unpack 8 s
      .ok (.int (signed b), s)
    else if le t = 7 then .error .typeError
    else .error .valueError

/-- `decode_mod_settings`: `/repo/draftsman/environment/mod_settings.py`, lines 29-99.  The version is read and dropped. -/
def decode (limit : Nat) (s : Bytes) : Except PyErr (Val × Bytes) := do
  let (_, s) ← unpack 8 s
  let (h, s) ← unpack 1 s
  if bool h then .error .assertionError else readNode limit s

/-- `encode_mod_settings`: `/repo/draftsman/environment/mod_settings.py`, lines 102-171.  The first thing written is `struct.pack("<Q")` without the number, line 116. -/
def encode (_ : Val) : Except PyErr Bytes := .error .structError

/-- `write_mod_settings`: `/repo/draftsman/environment/mod_settings.py`, lines 195-210: what is in the file afterwards (`none`: no such file before), and
whether there was an exception.  Opening it with mode `"wb"` empties it before anything is encoded. -/
def write (_before : Option Bytes) (v : Val) : Bytes × Option PyErr :=
  match encode v with
  | .ok b => (b, none)
  | .error e => ([], some e)

end ModSettings
end Draftsman
