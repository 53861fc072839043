import Verif.Model.ModSettings
import Verif.Proof.Dict
import Mathlib.Algebra.Order.Ring.Int
import Mathlib.Tactic.Ring

namespace Draftsman
namespace ModSettings

/-! ## C50: the file format, and what is read from it -/

/-- A property tree, as the game writes it. -/
inductive Tree where
  | none
  | bool (b : Bool)
  | number (bits : ℕ)
  | str (s : Option String)
  | list (l : List Tree)
  | dict (l : List (Option String × Tree))
  | int (n : ℤ)
  | uint (n : ℕ)

/-- `k` bytes, least significant first. -/
def toLe : ℕ → ℕ → Bytes
  | 0, _ => []
  | k + 1, n => UInt8.ofNat (n % 256) :: toLe k (n / 256)

/-- The UTF-8 bytes of a string. -/
def utf8 (s : String) : Bytes := s.toUTF8.data.toList

/-- A string: absent, or its length in one byte, or in four after the byte 255, and its UTF-8 bytes. -/
def encStr : Option String → Bytes
  | none => [1]
  | some s => 0 :: (if (utf8 s).length < 255 then [UInt8.ofNat (utf8 s).length] else 255 :: toLe 4 (utf8 s).length) ++ utf8 s

mutual
/-- The bytes of a tree; `f` is the flag the game may put after each type. -/
def enc (f : UInt8) : Tree → Bytes
  | .none => [0, f]
  | .bool b => [1, f, if b then 1 else 0]
  | .number n => 2 :: f :: toLe 8 n
  | .str s => 3 :: f :: encStr s
  | .list l => 4 :: f :: toLe 4 l.length ++ encList f l
  | .dict l => 5 :: f :: toLe 4 l.length ++ encPairs f l
  | .int n => 6 :: f :: toLe 8 (n % 2 ^ 64).toNat
  | .uint n => 7 :: f :: toLe 8 n

def encList (f : UInt8) : List Tree → Bytes
  | [] => []
  | t :: l => enc f t ++ encList f l

def encPairs (f : UInt8) : List (Option String × Tree) → Bytes
  | [] => []
  | (k, t) :: l => encStr k ++ (enc f t ++ encPairs f l)
end

/-- A string short enough to be stored. -/
def StrOk : Option String → Prop
  | none => True
  | some s => (utf8 s).length < 2 ^ 32

mutual
/-- A tree that can be stored: numbers in range, strings and dictionaries not too long, the keys of a dictionary different. -/
def Ok : Tree → Prop
  | .none => True
  | .bool _ => True
  | .number n => n < 2 ^ 64
  | .str s => StrOk s
  | .list l => l.length < 2 ^ 32 ∧ OkList l
  | .dict l => l.length < 2 ^ 32 ∧ (l.map Prod.fst).Nodup ∧ OkPairs l
  | .int n => -(2 ^ 63) ≤ n ∧ n < 2 ^ 63
  | .uint n => n < 2 ^ 64

def OkList : List Tree → Prop
  | [] => True
  | t :: l => Ok t ∧ OkList l

def OkPairs : List (Option String × Tree) → Prop
  | [] => True
  | (k, t) :: l => StrOk k ∧ Ok t ∧ OkPairs l
end

mutual
/-- A tree without lists and unsigned numbers. -/
def Plain : Tree → Prop
  | .list _ => False
  | .uint _ => False
  | .dict l => PlainPairs l
  | _ => True

def PlainPairs : List (Option String × Tree) → Prop
  | [] => True
  | (_, t) :: l => Plain t ∧ PlainPairs l
end

mutual
/-- How deeply a tree is nested. -/
def depth : Tree → ℕ
  | .dict l => depthPairs l + 1
  | .list l => depthList l + 1
  | _ => 1

def depthPairs : List (Option String × Tree) → ℕ
  | [] => 0
  | (_, t) :: l => max (depth t) (depthPairs l)

def depthList : List Tree → ℕ
  | [] => 0
  | t :: l => max (depth t) (depthList l)
end

mutual
/-- The Python value of a tree; there is none for lists and unsigned numbers, which never come out. -/
def value : Tree → Val
  | .none => .none
  | .bool b => .bool b
  | .number n => .float n
  | .str (some s) => .str s
  | .str none => .none
  | .list _ => .none
  | .dict l => .dict (valuePairs l)
  | .int n => .int n
  | .uint n => .int n

def valuePairs : List (Option String × Tree) → List (Option String × Val)
  | [] => []
  | (k, t) :: l => (k, value t) :: valuePairs l
end

/-! ### Lemmas -/

theorem toLe_length : ∀ k n, (toLe k n).length = k
  | 0, _ => rfl
  | k + 1, n => by simp [toLe, toLe_length k]

theorem le_toLe : ∀ k n, n < 256 ^ k → le (toLe k n) = n
  | 0, n, h => by simp at h; simp [toLe, le, h]
  | k + 1, n, h => by
    have h' : n / 256 < 256 ^ k := by
      rw [Nat.div_lt_iff_lt_mul (by decide)]
      calc n < 256 ^ (k + 1) := h
        _ = 256 ^ k * 256 := by ring
    simp only [toLe, le, le_toLe k _ h']
    have : (UInt8.ofNat (n % 256)).toNat = n % 256 := by
      rw [UInt8.toNat_ofNat']; omega
    rw [this]
    omega

theorem unpack_append (a s : Bytes) (k : ℕ) (h : a.length = k) : unpack k (a ++ s) = .ok (a, s) := by
  subst h; simp [unpack]

theorem unpack_one (b : UInt8) (s : Bytes) : unpack 1 (b :: s) = .ok ([b], s) := by simp [unpack]

theorem decodeUtf8_utf8 (s : String) : decodeUtf8 (utf8 s) = .ok s := by
  have h : (⟨(utf8 s).toArray⟩ : ByteArray) = s.toUTF8 := by simp [utf8]
  have h2 : String.fromUTF8? s.toUTF8 = some s := by
    unfold String.fromUTF8?
    exact dif_pos s.isValidUTF8
  unfold decodeUtf8
  rw [h, h2]

theorem readString_encStr (k : Option String) (hk : StrOk k) (s : Bytes) : readString (encStr k ++ s) = .ok (k, s) := by
  cases k with
  | none => rfl
  | some t =>
    simp only [StrOk] at hk
    by_cases h : (utf8 t).length < 255
    · have h1 : le [UInt8.ofNat (utf8 t).length] = (utf8 t).length := by
        simp only [le, UInt8.toNat_ofNat']; omega
      have h2 : ¬ (utf8 t).length = 255 := by omega
      simp only [readString, encStr, if_pos h, List.cons_append, List.nil_append, unpack_one, bind, Except.bind, h1, if_neg h2]
      simp [bool, le, decodeUtf8_utf8]
    · have h1 : le [(255 : UInt8)] = 255 := rfl
      simp only [readString, encStr, if_neg h, List.cons_append, List.append_assoc, unpack_one, bind, Except.bind, h1, if_true,
        unpack_append _ _ 4 (toLe_length 4 _), Except.map, le_toLe 4 _ hk]
      simp [bool, le, decodeUtf8_utf8]

theorem signed_toLe (n : ℤ) (h : -(2 ^ 63) ≤ n ∧ n < 2 ^ 63) : signed (toLe 8 (n % 2 ^ 64).toNat) = n := by
  unfold signed
  rw [le_toLe 8 _ (by omega)]
  split <;> omega

theorem set_append (d : Dict (Option String) Val) (k : Option String) (v : Val) (h : k ∉ d.keys) : d.set k v = d ++ [(k, v)] := by
  induction d with
  | nil => rfl
  | cons p r ih =>
    simp only [Dict.keys_cons, List.mem_cons, not_or] at h
    simp only [Dict.set, if_neg (Ne.symm h.1), ih h.2, List.cons_append]

mutual
theorem readNode_enc (f : UInt8) : ∀ (t : Tree), Ok t → Plain t → ∀ (limit : ℕ) (s : Bytes), depth t ≤ limit →
    readNode limit (enc f t ++ s) = .ok (value t, s)
  | .none, _, _, limit + 1, s, _ => by
    simp [enc, readNode, unpack_one, bind, Except.bind, le, value]
  | .bool b, _, _, limit + 1, s, _ => by
    cases b <;> simp [enc, readNode, unpack_one, bind, Except.bind, le, value, ModSettings.bool]
  | .number n, h, _, limit + 1, s, _ => by
    simp [enc, readNode, unpack_one, bind, Except.bind, le, value, unpack_append _ _ 8 (toLe_length 8 _), le_toLe 8 n h]
  | .str k, h, _, limit + 1, s, _ => by
    have h' : StrOk k := by simpa [Ok] using h
    cases k <;> simp [enc, readNode, unpack_one, bind, Except.bind, le, value, readString_encStr _ h']
  | .int n, h, _, limit + 1, s, _ => by
    simp only [enc, readNode, List.cons_append, unpack_one, bind, Except.bind, value, unpack_append _ _ 8 (toLe_length 8 _), signed_toLe n h, List.drop_succ_cons, List.drop_zero]
    simp [le]
  | .dict l, h, hp, limit + 1, s, hd => by
    have h1 := readPairs_enc f l h.2.2 hp limit s (by simpa [depth] using hd) [] (by simpa using h.2.1)
    simp only [enc, readNode, List.cons_append, List.append_assoc, unpack_one, bind, Except.bind, value, List.drop_succ_cons, List.drop_zero,
      unpack_append _ _ 4 (toLe_length 4 _), le_toLe 4 _ h.1, h1]
    simp [le]
  | .list l, _, hp, _, _, _ => absurd hp (by simp [Plain])
  | .uint n, _, hp, _, _, _ => absurd hp (by simp [Plain])
  | .none, _, _, 0, _, hd => absurd hd (by simp [depth])
  | .bool _, _, _, 0, _, hd => absurd hd (by simp [depth])
  | .number _, _, _, 0, _, hd => absurd hd (by simp [depth])
  | .str _, _, _, 0, _, hd => absurd hd (by simp [depth])
  | .int _, _, _, 0, _, hd => absurd hd (by simp [depth])
  | .dict _, _, _, 0, _, hd => absurd hd (by simp [depth])

theorem readPairs_enc (f : UInt8) : ∀ (l : List (Option String × Tree)), OkPairs l → PlainPairs l → ∀ (limit : ℕ) (s : Bytes),
    depthPairs l ≤ limit → ∀ d : Dict (Option String) Val, (d.keys ++ l.map Prod.fst).Nodup →
      readPairs (readNode limit) l.length d (encPairs f l ++ s) = .ok (d ++ valuePairs l, s)
  | [], _, _, _, _, _, d, _ => by simp [readPairs, encPairs, valuePairs]
  | (k, t) :: l, h, hp, limit, s, hd, d, hn => by
    have e1 := readString_encStr k h.1 (enc f t ++ (encPairs f l ++ s))
    have hd' : depth t ≤ limit ∧ depthPairs l ≤ limit := by simpa [depthPairs] using hd
    have e2 := readNode_enc f t h.2.1 hp.1 limit (encPairs f l ++ s) hd'.1
    have hk : k ∉ d.keys := by
      intro hk
      rw [List.nodup_append] at hn
      exact hn.2.2 k hk k (by simp) rfl
    have hset : d.set k (value t) = d ++ [(k, value t)] := set_append d k _ hk
    have e3 := readPairs_enc f l h.2.2 hp.2 limit s hd'.2 (d ++ [(k, value t)]) (by
      simpa [Dict.keys] using hn)
    simp only [readPairs, List.length_cons, encPairs, List.append_assoc, e1, e2, bind, Except.bind, hset, e3, valuePairs]
    simp
end

/-- The file: a version, a zero, the tree. -/
def file (version : Bytes) (f : UInt8) (t : Tree) : Bytes := version ++ 0 :: enc f t

/-- C50: reading the file of a tree gives that tree and leaves the bytes after it, whatever the version and the flags, for trees of any size without
lists and unsigned numbers that are not nested more deeply than the interpreter allows.  Missing: the other trees and writing files, see the refutations. -/
theorem C50_decode_partial (t : Tree) (h : Ok t) (hp : Plain t) (version : Bytes) (hv : version.length = 8) (f : UInt8) (limit : ℕ)
    (hd : depth t ≤ limit) (rest : Bytes) : decode limit (file version f t ++ rest) = .ok (value t, rest) := by
  simp only [decode, file, List.append_assoc, List.cons_append, unpack_append _ _ 8 hv, unpack_one, bind, Except.bind]
  simp [ModSettings.bool, le, readNode_enc f t h hp limit rest hd]

/-- A tree: a dictionary in a dictionary, an absent key, text outside ASCII. -/
def exTree : Tree := .dict [(some "startup", .dict [(some "mod-a", .bool true), (none, .int (-5))]), (some "é", .str (some "ünï")), (some "x", .number 3)]

example : Ok exTree ∧ Plain exTree ∧ depth exTree = 3 ∧
    (file [0, 0, 2, 0, 0, 0, 0, 0] 0 exTree).length = 77 := by
  refine ⟨?_, ?_, ?_, ?_⟩
  · simp only [exTree, Ok, OkPairs, StrOk]; decide +kernel
  · simp [exTree, Plain, PlainPairs]
  · simp [exTree, depth, depthPairs]
  · decide +kernel

/-- C50: a string that is not UTF-8 is refused with a `ValueError` (a `UnicodeDecodeError`). -/
theorem C50_text (b : Bytes) (hb : b.length < 255) (hu : ¬ ∃ s, b = utf8 s) (version : Bytes) (hv : version.length = 8) (limit : ℕ) (rest : Bytes) :
    decode (limit + 1) (version ++ (0 :: 3 :: 0 :: 0 :: UInt8.ofNat b.length :: b) ++ rest) = .error .valueError := by
  have h1 : le [UInt8.ofNat b.length] = b.length := by simp only [le, UInt8.toNat_ofNat']; omega
  have h2 : ¬ b.length = 255 := by omega
  have h3 : decodeUtf8 b = .error .valueError := by
    unfold decodeUtf8
    cases h : String.fromUTF8? ⟨b.toArray⟩ with
    | none => rfl
    | some s =>
      refine absurd ⟨s, ?_⟩ hu
      unfold String.fromUTF8? at h
      split at h
      · cases h
        rfl
      · cases h
  simp only [decode, List.append_assoc, List.cons_append, unpack_append _ _ 8 hv, unpack_one, bind, Except.bind, readNode, readString, List.drop_succ_cons, List.drop_zero]
  simp [ModSettings.bool, le]
  have h1' : b.length % 256 = b.length := by omega
  simp [h1', h2, h3]

example : ¬ ∃ s, ([0xff] : Bytes) = utf8 s := by
  rintro ⟨s, hs⟩
  have := decodeUtf8_utf8 s
  rw [← hs] at this
  have h : decodeUtf8 [0xff] = .error .valueError := by decide +kernel
  rw [h] at this
  cases this

/-- C50: what is refused at the start of a file: fewer than nine bytes, a byte after the version that is not zero, and a first value of an unknown type. -/
theorem C50_header (version : Bytes) (hv : version.length = 8) (limit : ℕ) :
    (∀ b : Bytes, b.length < 9 → decode limit b = .error .structError) ∧
      (∀ (h : UInt8) (rest : Bytes), h ≠ 0 → decode limit (version ++ h :: rest) = .error .assertionError) ∧
      decode (limit + 1) (version ++ [0]) = .error .structError ∧
      ∀ (k : UInt8) (rest : Bytes), 7 < k → decode (limit + 1) (version ++ 0 :: k :: rest) = .error .valueError := by
  refine ⟨fun b hb => ?_, fun h rest hh => ?_, ?_, fun k rest hk => ?_⟩
  · by_cases h8 : b.length < 8
    · have : unpack 8 b = .error .structError := by
        unfold unpack
        rw [if_neg (by rw [List.length_take]; omega)]
      simp only [decode, this, bind, Except.bind]
    · have h1 : unpack 8 b = .ok (b, []) := by
        have hl : b.length = 8 := by omega
        simpa using unpack_append b [] 8 hl
      simp only [decode, h1, bind, Except.bind]
      rfl
  · have : bool [h] = true := by
      have h0 : h.toNat ≠ 0 := fun h0 => hh (UInt8.toNat_inj.1 (by simpa using h0))
      simp [ModSettings.bool, le]
      exact h0
    simp only [decode, unpack_append _ _ 8 hv, unpack_one, bind, Except.bind, this, if_true]
  · simp only [decode, unpack_append _ _ 8 hv, unpack_one, bind, Except.bind, readNode]
    simp [ModSettings.bool, le, unpack]
  · have hk' : 7 < k.toNat := hk
    simp only [decode, unpack_append _ _ 8 hv, unpack_one, bind, Except.bind, readNode]
    simp only [ModSettings.bool, le]
    simp
    repeat rw [if_neg (by omega)]

example : decode 5 [0, 0, 2, 0, 0, 0, 0, 0, 1, 0, 0] = .error .assertionError ∧ decode 5 [0, 0, 2, 0, 0, 0, 0, 0, 0, 8, 0] = .error .valueError :=
  ⟨(C50_header [0, 0, 2, 0, 0, 0, 0, 0] rfl 5).2.1 1 [0, 0] (by decide), (C50_header [0, 0, 2, 0, 0, 0, 0, 0] rfl 4).2.2.2 8 [0] (by decide)⟩

/-! ### Files that are cut off -/

mutual
/-- The last value that is stored is a text or nothing. -/
def EndsLoose : Tree → Prop
  | .none => True
  | .str (some _) => True
  | .dict l => EndsLoosePairs l
  | _ => False

def EndsLoosePairs : List (Option String × Tree) → Prop
  | [] => False
  | [(_, t)] => EndsLoose t
  | _ :: p :: l => EndsLoosePairs (p :: l)
end

/-- An exception, or everything is read and `P`. -/
def Short {α : Type} (P : Prop) (r : Except PyErr (α × Bytes)) : Prop := (∃ e, r = .error e) ∨ P ∧ ∃ v, r = .ok (v, [])

theorem unpack_short (k : ℕ) (s : Bytes) (h : s.length < k) : unpack k s = .error .structError := by
  unfold unpack
  rw [if_neg (by rw [List.length_take]; omega)]

theorem readString_short (k : Option String) (hk : StrOk k) (n : ℕ) (hn : n < (encStr k).length) : Short (∃ t, k = some t) (readString ((encStr k).take n)) := by
  cases k with
  | none =>
    have : n = 0 := by simp [encStr] at hn; omega
    subst this
    exact .inl ⟨_, rfl⟩
  | some t =>
    simp only [StrOk] at hk
    match n with
    | 0 => exact .inl ⟨_, rfl⟩
    | 1 =>
      refine .inl ⟨.structError, ?_⟩
      simp only [encStr, List.cons_append, List.take_succ_cons, List.take_zero, readString, unpack_one, bind, Except.bind]
      rfl
    | n + 2 =>
      by_cases h : (utf8 t).length < 255
      · have h1 : le [UInt8.ofNat (utf8 t).length] = (utf8 t).length := by
          simp only [le, UInt8.toNat_ofNat']; omega
        have h2 : ¬ (utf8 t).length = 255 := by omega
        have h3 : n < (utf8 t).length := by simp [encStr, h] at hn; omega
        have h4 : (encStr (some t)).take (n + 2) = 0 :: UInt8.ofNat (utf8 t).length :: (utf8 t).take n := by simp [encStr, h]
        rw [h4]
        simp only [readString, unpack_one, bind, Except.bind, h1, if_neg h2]
        have h5 : bool [0] = false := rfl
        simp only [h5, Bool.false_eq_true, if_false, List.take_take, Nat.min_eq_right h3.le]
        cases decodeUtf8 ((utf8 t).take n) with
        | error e => exact .inl ⟨e, rfl⟩
        | ok v =>
          refine .inr ⟨⟨t, rfl⟩, some v, ?_⟩
          simp only
          rw [List.drop_eq_nil_of_le (by simp)]
      · have h1 : le [(255 : UInt8)] = 255 := rfl
        have h4 : (encStr (some t)).take (n + 2) = 0 :: 255 :: (toLe 4 (utf8 t).length ++ utf8 t).take n := by simp [encStr, h]
        have h5 : bool [0] = false := rfl
        rw [h4]
        simp only [readString, unpack_one, bind, Except.bind, h1, if_true, h5, Bool.false_eq_true, if_false]
        by_cases h6 : n < 4
        · rw [unpack_short 4 _ (by rw [List.length_take]; omega)]
          exact .inl ⟨_, rfl⟩
        · have h3 : n - 4 < (utf8 t).length := by simp [encStr, h, toLe_length] at hn; omega
          rw [List.take_append, List.take_of_length_le (by rw [toLe_length]; omega), unpack_append _ _ 4 (toLe_length 4 _)]
          simp only [Except.map, le_toLe 4 _ hk, toLe_length, List.take_take, Nat.min_eq_right h3.le]
          cases decodeUtf8 ((utf8 t).take (n - 4)) with
          | error e => exact .inl ⟨e, rfl⟩
          | ok v =>
            refine .inr ⟨⟨t, rfl⟩, some v, ?_⟩
            simp only
            rw [List.drop_eq_nil_of_le (by simp)]

theorem readNode_nil (limit : ℕ) : ∃ e, readNode limit [] = .error e := by
  cases limit with
  | zero => exact ⟨_, rfl⟩
  | succ n => exact ⟨_, rfl⟩

theorem take_append_cases {α : Type} (a b : List α) (n : ℕ) (hn : n < (a ++ b).length) :
    (n < a.length ∧ (a ++ b).take n = a.take n) ∨ ∃ m, m < b.length ∧ (a ++ b).take n = a ++ b.take m := by
  rw [List.length_append] at hn
  by_cases h : n < a.length
  · exact .inl ⟨h, by rw [List.take_append_of_le_length h.le]⟩
  · exact .inr ⟨n - a.length, by omega, by rw [List.take_append, List.take_of_length_le (by omega)]⟩

mutual
theorem readNode_short (f : UInt8) : ∀ (t : Tree), Ok t → Plain t → ∀ (limit n : ℕ), depth t ≤ limit → n < (enc f t).length →
    Short (EndsLoose t) (readNode limit ((enc f t).take n))
  | t, _, _, limit, 0, _, _ => by
    obtain ⟨e, he⟩ := readNode_nil limit
    exact .inl ⟨e, by simpa using he⟩
  | .none, _, _, limit + 1, n + 1, _, hn => by
    have : n = 0 := by simp [enc] at hn; omega
    subst this
    exact .inr ⟨by simp [EndsLoose], .none, rfl⟩
  | .bool b, _, _, limit + 1, n + 1, _, hn => by
    have : n = 0 ∨ n = 1 := by simp [enc] at hn; omega
    rcases this with rfl | rfl <;> exact .inl ⟨_, rfl⟩
  | .number x, _, _, limit + 1, n + 1, _, hn => by
    refine .inl ⟨.structError, ?_⟩
    simp only [enc, List.length_cons, toLe_length] at hn
    simp only [enc, List.take_succ_cons, readNode, unpack_one, bind, Except.bind]
    have : unpack 8 (((f :: toLe 8 x).take n).drop 1) = .error .structError := unpack_short _ _ (by simp [toLe_length]; omega)
    simp only [this]
    simp [le]
  | .int x, _, _, limit + 1, n + 1, _, hn => by
    refine .inl ⟨.structError, ?_⟩
    simp only [enc, List.length_cons, toLe_length] at hn
    simp only [enc, List.take_succ_cons, readNode, unpack_one, bind, Except.bind]
    have : unpack 8 (((f :: toLe 8 (x % 2 ^ 64).toNat).take n).drop 1) = .error .structError := unpack_short _ _ (by simp [toLe_length]; omega)
    simp only [this]
    simp [le]
  | .str k, h, _, limit + 1, n + 1, _, hn => by
    have h' : StrOk k := by simpa [Ok] using h
    simp only [enc, List.take_succ_cons, readNode, unpack_one, bind, Except.bind]
    have key : Short (∃ t, k = some t) (readString (((f :: encStr k).take n).drop 1)) := by
      cases n with
      | zero => exact .inl ⟨_, rfl⟩
      | succ n => exact readString_short k h' n (by simpa [enc] using hn)
    rcases key with ⟨e, he⟩ | ⟨⟨t, rfl⟩, v, hv⟩
    · exact .inl ⟨e, by simp only [he]; simp [le]⟩
    · refine .inr ⟨by simp [EndsLoose], ?_⟩
      cases v with
      | none => exact ⟨.none, by simp only [hv]; simp [le]⟩
      | some v => exact ⟨.str v, by simp only [hv]; simp [le]⟩
  | .dict l, h, hp, limit + 1, n + 1, hd, hn => by
    simp only [enc, List.cons_append, List.take_succ_cons, readNode, unpack_one, bind, Except.bind]
    cases n with
    | zero => exact .inl ⟨_, rfl⟩
    | succ n =>
      simp only [List.take_succ_cons, List.drop_succ_cons, List.drop_zero]
      rcases take_append_cases (toLe 4 l.length) (encPairs f l) n (by simpa [enc] using hn) with ⟨h4, he⟩ | ⟨m, hm, he⟩
      · rw [toLe_length] at h4
        rw [he, unpack_short 4 _ (by rw [List.length_take]; omega)]
        exact .inl ⟨.structError, by simp [le]⟩
      · rw [he, unpack_append _ _ 4 (toLe_length 4 _)]
        simp only [le_toLe 4 _ h.1]
        rcases readPairs_short f l h.2.2 hp limit m (by simpa [depth] using hd) hm [] with ⟨e, he⟩ | ⟨hl, v, hv⟩
        · exact .inl ⟨e, by simp [le, he]⟩
        · exact .inr ⟨by simpa [EndsLoose] using hl, .dict v, by simp [le, hv]⟩
  | .list l, _, hp, _, _, _, _ => absurd hp (by simp [Plain])
  | .uint n, _, hp, _, _, _, _ => absurd hp (by simp [Plain])
  | .none, _, _, 0, _, hd, _ => absurd hd (by simp [depth])
  | .bool _, _, _, 0, _, hd, _ => absurd hd (by simp [depth])
  | .number _, _, _, 0, _, hd, _ => absurd hd (by simp [depth])
  | .str _, _, _, 0, _, hd, _ => absurd hd (by simp [depth])
  | .int _, _, _, 0, _, hd, _ => absurd hd (by simp [depth])
  | .dict _, _, _, 0, _, hd, _ => absurd hd (by simp [depth])

theorem readPairs_short (f : UInt8) : ∀ (l : List (Option String × Tree)), OkPairs l → PlainPairs l → ∀ (limit n : ℕ),
    depthPairs l ≤ limit → n < (encPairs f l).length → ∀ d : Dict (Option String) Val,
      Short (EndsLoosePairs l) (readPairs (readNode limit) l.length d ((encPairs f l).take n))
  | [], _, _, _, _, _, hn, _ => absurd hn (by simp [encPairs])
  | (k, t) :: l, h, hp, limit, n, hd, hn, d => by
    have hd' : depth t ≤ limit ∧ depthPairs l ≤ limit := by simpa [depthPairs] using hd
    obtain ⟨e0, he0⟩ := readNode_nil limit
    simp only [readPairs, List.length_cons, encPairs, bind, Except.bind]
    rcases take_append_cases (encStr k) (enc f t ++ encPairs f l) n (by simpa [encPairs] using hn) with ⟨hk, he⟩ | ⟨m, hm, he⟩
    · rw [he]
      rcases readString_short k h.1 n hk with ⟨e, he⟩ | ⟨-, v, hv⟩
      · exact .inl ⟨e, by rw [he]⟩
      · exact .inl ⟨e0, by rw [hv]; simp only [he0]⟩
    · rw [he, readString_encStr k h.1]
      simp only
      rcases take_append_cases (enc f t) (encPairs f l) m hm with ⟨ht, he⟩ | ⟨m', hm', he⟩
      · rw [he]
        rcases readNode_short f t h.2.1 hp.1 limit m hd'.1 ht with ⟨e, he⟩ | ⟨hl, v, hv⟩
        · exact .inl ⟨e, by rw [he]⟩
        · rw [hv]
          cases l with
          | nil => exact .inr ⟨by simpa [EndsLoosePairs] using hl, d.set k v, rfl⟩
          | cons q r => exact .inl ⟨_, rfl⟩
      · rw [he, readNode_enc f t h.2.1 hp.1 limit _ hd'.1]
        simp only
        rcases readPairs_short f l h.2.2 hp.2 limit m' hd'.2 hm' (d.set k (value t)) with ⟨e, he⟩ | ⟨hl, v, hv⟩
        · exact .inl ⟨e, he⟩
        · refine .inr ⟨?_, v, hv⟩
          cases l with
          | nil => simp [EndsLoosePairs] at hl
          | cons q r => simpa [EndsLoosePairs] using hl
end

/-- C50: a file that is cut off anywhere is refused, unless the last value in it is a text or nothing (then see `C50_cut_refuted`). -/
theorem C50_cut_partial (t : Tree) (h : Ok t) (hp : Plain t) (hl : ¬ EndsLoose t) (version : Bytes) (hv : version.length = 8) (f : UInt8) (limit : ℕ)
    (hd : depth t ≤ limit) (n : ℕ) (hn : n < (file version f t).length) : ∃ e, decode limit ((file version f t).take n) = .error e := by
  rcases take_append_cases version (0 :: enc f t) n hn with ⟨h8, he⟩ | ⟨m, hm, he⟩
  · refine ⟨.structError, ?_⟩
    unfold file
    rw [he]
    exact (C50_header version hv limit).1 _ (by rw [List.length_take]; omega)
  · unfold file
    rw [he]
    cases m with
    | zero => exact ⟨.structError, (C50_header version hv limit).1 _ (by simp; omega)⟩
    | succ m =>
      have hb : bool [0] = false := rfl
      simp only [decode, unpack_append _ _ 8 hv, List.take_succ_cons, unpack_one, bind, Except.bind, hb, Bool.false_eq_true, if_false]
      rcases readNode_short f t h hp limit m hd (by simpa using hm) with ⟨e, he⟩ | ⟨hl', -⟩
      · exact ⟨e, he⟩
      · exact absurd hl' hl

example : ¬ EndsLoose exTree ∧ ∃ e, decode 3 ((file [0, 0, 2, 0, 0, 0, 0, 0] 0 exTree).take 76) = .error e := by
  have h : ¬ EndsLoose exTree := by simp [exTree, EndsLoose, EndsLoosePairs]
  have hlen : (file [0, 0, 2, 0, 0, 0, 0, 0] 0 exTree).length = 77 := by decide +kernel
  refine ⟨h, C50_cut_partial exTree ?_ ?_ h _ rfl 0 3 ?_ 76 (by omega)⟩
  · simp only [exTree, Ok, OkPairs, StrOk]; decide +kernel
  · simp [exTree, Plain, PlainPairs]
  · simp [exTree, depth, depthPairs]

/-! ### Where it fails -/

theorem readNode_dict_one (f : UInt8) (k : Option String) (t : Tree) (hk : StrOk k) (n : ℕ) (s : Bytes) (e : PyErr)
    (h : readNode n (enc f t ++ s) = .error e) : readNode (n + 1) (enc f (.dict [(k, t)]) ++ s) = .error e := by
  have e1 := readString_encStr k hk (enc f t ++ s)
  have e0 : le (toLe 4 1) = 1 := le_toLe 4 1 (by decide)
  rw [enc, readNode]
  generalize readNode n = rd at h ⊢
  simp only [List.cons_append, List.append_assoc, unpack_one, bind, Except.bind, List.drop_succ_cons, List.drop_zero,
    unpack_append _ _ 4 (toLe_length 4 _), List.length_singleton, e0, readPairs, encPairs, List.append_nil, e1, h]
  simp [le]

/-- C50 refuted: no list can be read, whatever it holds: a file that is a list, or a dictionary with a list in it, fails. -/
theorem C50_list_refuted (l : List Tree) (version : Bytes) (hv : version.length = 8) (f : UInt8) (limit : ℕ) (k : String) (hk : StrOk (some k)) (rest : Bytes) :
    decode (limit + 1) (file version f (.list l) ++ rest) = .error .typeError ∧
      decode (limit + 2) (file version f (.dict [(some k, .list l)]) ++ rest) = .error .typeError := by
  have h : ∀ s, readNode (limit + 1) (enc f (.list l) ++ s) = .error .typeError := by
    intro s
    simp only [enc, readNode, List.cons_append, List.append_assoc, unpack_one, bind, Except.bind, List.drop_succ_cons, List.drop_zero,
      unpack_append _ _ 4 (toLe_length 4 _)]
    simp [le]
  constructor
  · simp only [decode, file, List.append_assoc, List.cons_append, unpack_append _ _ 8 hv, unpack_one, bind, Except.bind, h]
    simp [ModSettings.bool, le]
  · have h2 := readNode_dict_one f (some k) (.list l) hk (limit + 1) rest .typeError (h rest)
    simp only [decode, file, List.append_assoc, List.cons_append, unpack_append _ _ 8 hv, unpack_one, bind, Except.bind, h2]
    simp [ModSettings.bool, le]

/-- C50 refuted: no unsigned number can be read. -/
theorem C50_uint_refuted (n : ℕ) (version : Bytes) (hv : version.length = 8) (f : UInt8) (limit : ℕ) (rest : Bytes) :
    decode (limit + 1) (file version f (.uint n) ++ rest) = .error .typeError := by
  simp only [decode, file, List.append_assoc, List.cons_append, unpack_append _ _ 8 hv, unpack_one, bind, Except.bind, enc, readNode]
  simp [ModSettings.bool, le]

/-- C50 refuted: nothing can be written. -/
theorem C50_encode_refuted (v : Val) : encode v = .error .structError := rfl

/-- C50: writing settings loses those that were in the file: it is emptied, and cannot be read any more. -/
theorem C50_write_refuted (before : Option Bytes) (v : Val) (limit : ℕ) :
    write before v = ([], some .structError) ∧ decode limit (write before v).1 = .error .structError := by
  refine ⟨rfl, ?_⟩
  have : (write before v).1 = [] := rfl
  rw [this]
  rfl

/-- `n` dictionaries in each other. -/
def nest : ℕ → Tree
  | 0 => .none
  | n + 1 => .dict [(none, nest n)]

theorem nest_ok : ∀ n, Ok (nest n) ∧ Plain (nest n)
  | 0 => by simp [nest, Ok, Plain]
  | n + 1 => by
    have := nest_ok n
    simp [nest, Ok, Plain, OkPairs, PlainPairs, StrOk, this]

theorem nest_deep (f : UInt8) : ∀ n s, readNode n (enc f (nest n) ++ s) = .error .recursionError
  | 0, _ => rfl
  | n + 1, s => readNode_dict_one f none (nest n) trivial n s _ (nest_deep f n s)

/-- C50 refuted: whatever the recursion limit, there is a tree nested too deeply to be read. -/
theorem C50_deep_refuted (limit : ℕ) (version : Bytes) (hv : version.length = 8) (f : UInt8) (rest : Bytes) :
    ∃ t, Ok t ∧ Plain t ∧ decode limit (file version f t ++ rest) = .error .recursionError := by
  refine ⟨nest limit, (nest_ok limit).1, (nest_ok limit).2, ?_⟩
  simp only [decode, file, List.append_assoc, List.cons_append, unpack_append _ _ 8 hv, unpack_one, bind, Except.bind, nest_deep]
  simp [ModSettings.bool, le]

/-- C50: a file whose last string is cut off is read without complaint, as a shorter string. -/
theorem C50_cut_refuted : decode 1 ((file [0, 0, 0, 0, 0, 0, 0, 0] 0 (.str (some "abc"))).take 15) = .ok (.str "ab", []) := by
  have h : (file [0, 0, 0, 0, 0, 0, 0, 0] 0 (.str (some "abc"))).take 15 = [0, 0, 0, 0, 0, 0, 0, 0] ++ (0 :: 3 :: 0 :: 0 :: 3 :: utf8 "ab") := by
    decide +kernel
  have h2 : (utf8 "ab").take 3 = utf8 "ab" ∧ (utf8 "ab").drop 3 = [] := by decide +kernel
  rw [h]
  have h8 := unpack_append [0, 0, 0, 0, 0, 0, 0, 0] (0 :: 3 :: 0 :: 0 :: 3 :: utf8 "ab") 8 rfl
  simp only [decode, h8, unpack_one, bind, Except.bind, readNode, readString, List.drop_succ_cons, List.drop_zero]
  simp [ModSettings.bool, le, h2.1, h2.2, decodeUtf8_utf8]

end ModSettings
end Draftsman
