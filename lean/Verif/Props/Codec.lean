import Mathlib.Tactic.SplitIfs
import Verif.Model.Codec
/-
C03, C57: blueprint strings and root-key dispatch.
-/
namespace Draftsman.Codec
variable {J B : Type}

/-- The decoders invert the encoders (the only fact assumed about base64, zlib and json). -/
structure Codecs.Inverse (k : Codecs J B) : Prop where
  b64 : ∀ b, k.b64decode (k.b64encode b) = .ok b
  zlib : ∀ b, k.decompress (k.compress b) = .ok b
  json : ∀ j, k.loads (k.dumps j) = .ok j

/-- A small working codec triple: documents are digit lists, written as characters with a terminator. -/
def demo : Codecs (List Nat) (List Nat) where
  dumps j := j ++ [0]
  compress b := b ++ [b.length]
  b64encode b := b.map Char.ofNat
  b64decode s := .ok (s.map Char.toNat)
  decompress b := match b.reverse with
    | n :: r => if n = r.length then .ok r.reverse else .error .valueError
    | [] => .error .structError
  loads b := match b.reverse with
    | 0 :: r => .ok r.reverse
    | _ => .error .valueError

/-- C03: decoding an exported string gives the document back. -/
theorem C03_roundtrip (k : Codecs J B) (hk : k.Inverse) (j : J) :
    stringToJson k (jsonToString k j) = .ok j := by
  simp [stringToJson, jsonToString, hk.b64, hk.zlib, hk.json, bind, Except.bind]

/-- A triple that satisfies the hypothesis (identity stages on a one-letter alphabet). -/
example : (Codecs.Inverse (J := Nat) (B := Nat)
    { dumps := fun j => j + 3, compress := fun b => 2 * b, b64encode := fun b => List.replicate b 'A',
      b64decode := fun s => if s.all (· = 'A') then .ok s.length else .error .valueError,
      decompress := fun b => if b % 2 = 0 then .ok (b / 2) else .error .structError,
      loads := fun b => if 3 ≤ b then .ok (b - 3) else .error .typeError }) where
  b64 b := by simp
  zlib b := by simp
  json j := by simp

example : stringToJson demo (jsonToString demo [5, 6]) = .ok [5, 6] := by decide

/-- C03: the first character never influences the result. -/
theorem C03_first_char (k : Codecs J B) (c d : Char) (s : List Char) :
    stringToJson k (c :: s) = stringToJson k (d :: s) := rfl

/-- C03: a string decodes to `j` exactly when all three stages succeed on the text after the first
character, and in every other case — whatever the decoders raise — the result is the one
malformed-string error. -/
theorem C03_total (k : Codecs J B) (s : List Char) :
    (∀ j, stringToJson k s = .ok j ↔
      ∃ raw text, k.b64decode (s.drop 1) = .ok raw ∧ k.decompress raw = .ok text ∧ k.loads text = .ok j) ∧
    ((∀ j, stringToJson k s ≠ .ok j) → stringToJson k s = .error .malformedBlueprintString) := by
  unfold stringToJson
  simp only [bind, Except.bind]
  cases h1 : k.b64decode (s.drop 1) with
  | error e => simp
  | ok raw =>
    cases h2 : k.decompress raw with
    | error e => simp [h2]
    | ok text =>
      cases h3 : k.loads text with
      | error e => simp [h2, h3]
      | ok j => simp [h2, h3]

/-- Garbage in three different stages, one error. -/
example : stringToJson demo [] = .error .malformedBlueprintString ∧
    stringToJson demo ['0', 'x', 'y'] = .error .malformedBlueprintString ∧
    stringToJson demo ['0', 'a', Char.ofNat 1] = .error .malformedBlueprintString := by decide

/-- C03: exported strings of different documents differ. -/
theorem C03_injective (k : Codecs J B) (hk : k.Inverse) (i j : J)
    (h : jsonToString k i = jsonToString k j) : i = j := by
  have := C03_roundtrip k hk i
  rw [h, C03_roundtrip k hk j] at this
  injection this with this
  exact this.symm

/-! ### C57 -/

/-- The root keys and their classes, in the documented priority. -/
def known : List (String × Kind) :=
  [("blueprint", .blueprint), ("deconstruction_planner", .deconstructionPlanner),
   ("upgrade_planner", .upgradePlanner), ("blueprint_book", .blueprintBook)]

/-- C57: a document object is handed to the class of the first known key it contains (priority order). -/
theorem C57_dispatch (ks : List String) (k : Kind) :
    fromJson (.object ks) = .ok k ↔
      ∃ key pre post, known = pre ++ (key, k) :: post ∧ key ∈ ks ∧ ∀ p ∈ pre, p.1 ∉ ks := by
  have exp : fromJson (.object ks) =
      if "blueprint" ∈ ks then .ok .blueprint
      else if "deconstruction_planner" ∈ ks then .ok .deconstructionPlanner
      else if "upgrade_planner" ∈ ks then .ok .upgradePlanner
      else if "blueprint_book" ∈ ks then .ok .blueprintBook
      else .error (Root.unknown (.object ks)) := by
    simp only [fromJson, Root.has, bind, Except.bind, List.contains_eq_mem, decide_eq_true_eq]
    rfl
  rw [exp]
  constructor
  · intro h
    split_ifs at h with h1 h2 h3 h4
    · injection h with h; subst h
      exact ⟨_, [], _, rfl, h1, by simp⟩
    · injection h with h; subst h
      exact ⟨_, [("blueprint", .blueprint)], _, rfl, h2, by simpa using h1⟩
    · injection h with h; subst h
      exact ⟨_, [("blueprint", .blueprint), ("deconstruction_planner", .deconstructionPlanner)], _, rfl, h3,
        by simpa using ⟨h1, h2⟩⟩
    · injection h with h; subst h
      exact ⟨_, [("blueprint", .blueprint), ("deconstruction_planner", .deconstructionPlanner),
        ("upgrade_planner", .upgradePlanner)], _, rfl, h4, by simpa using ⟨h1, h2, h3⟩⟩
  · rintro ⟨key, pre, post, hk, hm, hpre⟩
    unfold known at hk
    match pre with
    | [] =>
      simp at hk; obtain ⟨⟨rfl, rfl⟩, -⟩ := hk
      simp [hm]
    | [a] =>
      simp at hk; obtain ⟨rfl, ⟨rfl, rfl⟩, -⟩ := hk
      simp at hpre; simp [hm, hpre]
    | [a, b] =>
      simp at hk; obtain ⟨rfl, rfl, ⟨rfl, rfl⟩, -⟩ := hk
      simp at hpre; simp [hm, hpre]
    | [a, b, c] =>
      simp at hk; obtain ⟨rfl, rfl, rfl, ⟨rfl, rfl⟩, -⟩ := hk
      simp at hpre; simp [hm, hpre]
    | a :: b :: c :: d :: rest =>
      simp at hk

example : fromJson (.object ["version", "blueprint_book", "upgrade_planner"]) = .ok .upgradePlanner := by
  decide

/-- C57: a document object without any known key is rejected: with the documented error when it has some
key, and with a bare `IndexError` when it is empty. -/
theorem C57_unknown (ks : List String) (h : ∀ p ∈ known, p.1 ∉ ks) :
    fromJson (.object ks) = .error (if ks = [] then .indexError else .incorrectBlueprintType) := by
  have h1 := h ("blueprint", .blueprint) (by simp [known])
  have h2 := h ("deconstruction_planner", .deconstructionPlanner) (by simp [known])
  have h3 := h ("upgrade_planner", .upgradePlanner) (by simp [known])
  have h4 := h ("blueprint_book", .blueprintBook) (by simp [known])
  simp only at h1 h2 h3 h4
  cases ks with
  | nil => rfl
  | cons k ks =>
    simp only [fromJson, Root.has, bind, Except.bind, List.contains_eq_mem, h1, h2, h3, h4,
      decide_false, Root.unknown]
    rfl

example : fromJson (.object ["item", "label"]) = .error .incorrectBlueprintType ∧
    fromJson (.object []) = .error .indexError := by decide

/-- C57: whatever a blueprint string contains, importing it either selects a class or raises; a string that
does not decode raises the malformed-string error and nothing else. -/
theorem C57_from_string (k : Codecs J B) (root : J → Root) (s : List Char) :
    (∀ j, stringToJson k s = .ok j → fromString k root s = fromJson (root j)) ∧
    ((∀ j, stringToJson k s ≠ .ok j) → fromString k root s = .error .malformedBlueprintString) := by
  constructor
  · intro j h; simp [fromString, h, bind, Except.bind]
  · intro h
    have := (C03_total k s).2 h
    simp [fromString, this, bind, Except.bind]

end Draftsman.Codec
