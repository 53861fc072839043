import Verif.Model.BpVersion
import Verif.Props.Version
import Mathlib.Tactic.NormNum
import Mathlib.Tactic.Push
import Mathlib.Tactic.Lift
/-
C119: the version of a blueprint reads back as it was set.
-/
namespace Draftsman.BpVersion
open Draftsman Draftsman.Version
variable {V : Type}

/-! ## Packing of integers -/

theorem lor_nat (a b : ℕ) : Int.lor a b = ((a ||| b : ℕ) : Int) := rfl

theorem encodeInt_nat (a b c d : ℕ) : encodeInt a b c d = (encodeVersion a b c d : ℕ) := by
  unfold encodeInt encodeVersion
  rw [Nat.shiftLeft_eq, Nat.shiftLeft_eq, Nat.shiftLeft_eq]
  have h (x k : ℕ) : (x : Int) * 2 ^ k = ((x * 2 ^ k : ℕ) : Int) := by push_cast; rfl
  rw [h, h, h, lor_nat, lor_nat, lor_nat]

theorem decodeInt_nat (n : ℕ) : decodeInt n =
    [((decodeVersion n).1 : Int), ((decodeVersion n).2.1 : Int), ((decodeVersion n).2.2.1 : Int), ((decodeVersion n).2.2.2 : Int)] := by
  rw [decode_eq]
  simp only [decodeInt]
  push_cast
  rfl

theorem lor_neg {a b : Int} : Int.lor a b < 0 ↔ a < 0 ∨ b < 0 := by
  rcases a with a | a <;> rcases b with b | b
  all_goals simp [Int.lor, Int.negSucc_lt_zero]
  have : (0 : Int) ≤ ((a ||| b : ℕ) : Int) := Int.natCast_nonneg _
  omega

theorem encodeInt_neg {a b c d : Int} : encodeInt a b c d < 0 ↔ a < 0 ∨ b < 0 ∨ c < 0 ∨ d < 0 := by
  unfold encodeInt
  rw [lor_neg, lor_neg, lor_neg]
  omega

theorem field_ok (conv : V → Option Int) {z : Int} (h : 0 ≤ z ∧ z < 2 ^ 64) : field conv (.int z) = .ok (.int z) := if_pos h

theorem field_bad (conv : V → Option Int) {z : Int} (h : ¬ (0 ≤ z ∧ z < 2 ^ 64)) : field conv (.int z) = .error .dataFormat := if_neg h

theorem set_nat (conv : V → Option Int) (checked : Bool) (s v : Given V) {w : ℕ} (hv : normalize v = .int (w : Int)) (hw : w < 2 ^ 64) :
    set conv checked s v = (.int (w : Int), none) := by
  unfold set
  rw [hv]
  cases checked
  · rfl
  · rw [field_ok conv ⟨Int.natCast_nonneg _, by exact_mod_cast hw⟩]; rfl

/-! ## Specification -/

/-- The four numbers named by two to four parts. -/
def padded (l : List ℕ) : List Int := (l ++ List.replicate (4 - l.length) 0).map fun (n : ℕ) => (n : Int)

/-- Two to four parts. -/
def Count (l : List α) : Prop := 2 ≤ l.length ∧ l.length ≤ 4

theorem count_cases {l : List α} (h : Count l) : (∃ a b, l = [a, b]) ∨ (∃ a b c, l = [a, b, c]) ∨ ∃ a b c d, l = [a, b, c, d] := by
  unfold Count at h
  match l, h with
  | [a, b], _ => exact Or.inl ⟨a, b, rfl⟩
  | [a, b, c], _ => exact Or.inr (Or.inl ⟨a, b, c, rfl⟩)
  | [a, b, c, d], _ => exact Or.inr (Or.inr ⟨a, b, c, d, rfl⟩)
  | [], h => simp at h
  | [_], h => simp at h
  | _ :: _ :: _ :: _ :: _ :: _, h => simp at h

/-- Naturals as parts. -/
def parts (l : List ℕ) : Given V := .seq (l.map fun (n : ℕ) => some (n : Int))

theorem normalize_parts {l : List ℕ} (h : Count l) : ∃ a b c d : ℕ, (normalize (parts l) : Given V) = .int (encodeVersion a b c d : ℕ) ∧
    padded l = [(a : Int), (b : Int), (c : Int), (d : Int)] ∧ l[0]? = some a ∧ (∀ x ∈ l, x = a ∨ x = b ∨ x = c ∨ x = d) ∧
    l[1]? = some b ∧ (l[2]? = some c ∨ c = 0) ∧ (l[3]? = some d ∨ d = 0) := by
  rcases count_cases h with ⟨a, b, rfl⟩ | ⟨a, b, c, rfl⟩ | ⟨a, b, c, d, rfl⟩
  · refine ⟨a, b, 0, 0, ?_, by simp [padded], rfl, by simp, rfl, .inr rfl, .inr rfl⟩
    rw [← encodeInt_nat]; rfl
  · refine ⟨a, b, c, 0, ?_, by simp [padded], rfl, by simp, rfl, .inl rfl, .inr rfl⟩
    rw [← encodeInt_nat]; rfl
  · refine ⟨a, b, c, d, ?_, by simp [padded], rfl, by simp, rfl, .inl rfl, .inl rfl⟩
    rw [← encodeInt_nat]; rfl

/-- C119: two to four parts from 0 to 65535 can be assigned in every mode of validation; then `version_tuple` gives them, missing ones zero, and
`version_string` writes these with dots. -/
theorem C119_parts (conv : V → Option Int) (checked : Bool) (s : Given V) (l : List ℕ) (hl : Count l) (hf : ∀ n ∈ l, n ≤ 65535) :
    (set conv checked s (parts l)).2 = none ∧
    versionTuple (set conv checked s (parts l)).1 = .ok (padded l) ∧
    versionString (set conv checked s (parts l)).1 = .ok (pyJoin '.' ((padded l).map intStr)) := by
  obtain ⟨a, b, c, d, h1, h2, h3, h4, h5, h6, h7⟩ := normalize_parts (V := V) hl
  have ha : Fits a := Nat.lt_succ_of_le (hf a (List.mem_of_getElem? h3))
  have hb : Fits b := Nat.lt_succ_of_le (hf b (List.mem_of_getElem? h5))
  have hc : Fits c := by
    rcases h6 with h6 | rfl
    · exact Nat.lt_succ_of_le (hf c (List.mem_of_getElem? h6))
    · unfold Fits; decide
  have hd : Fits d := by
    rcases h7 with h7 | rfl
    · exact Nat.lt_succ_of_le (hf d (List.mem_of_getElem? h7))
    · unfold Fits; decide
  have hlt : encodeVersion a b c d < 2 ^ 64 := by
    rw [encode_eq_sum a b c d hb hc hd]
    unfold Fits at ha hb hc hd
    omega
  have hset : set conv checked s (parts l) = (.int (encodeVersion a b c d : ℕ), none) :=
    set_nat conv checked s _ h1 hlt
  have ht : versionTuple (Given.int (V := V) (encodeVersion a b c d : ℕ)) = .ok (padded l) := by
    simp only [versionTuple]
    rw [decodeInt_nat, C01_decode_encode a b c d ha hb hc hd, h2]
  rw [hset]
  refine ⟨rfl, ht, ?_⟩
  simp only [versionString, ht]
  rfl

/-- C119: any 64-bit number can be assigned and is then the version; its parts lie from 0 to 65535 and packed again give it. -/
theorem C119_number (conv : V → Option Int) (checked : Bool) (s : Given V) (z : ℕ) (hz : z < 2 ^ 64) :
    set conv checked s (.int z) = (.int z, none) ∧
    ∃ l : List ℕ, l.length = 4 ∧ (∀ n ∈ l, n ≤ 65535) ∧
      versionTuple (set conv checked s (.int z)).1 = .ok (l.map fun (n : ℕ) => (n : Int)) ∧
      set conv checked s (parts l) = (.int z, none) := by
  have h1 : set conv checked s (.int z) = (.int z, none) := set_nat conv checked s _ rfl hz
  refine ⟨h1, [(decodeVersion z).1, (decodeVersion z).2.1, (decodeVersion z).2.2.1, (decodeVersion z).2.2.2], rfl, ?_, ?_, ?_⟩
  · rw [decode_eq]
    intro n hn
    simp only [List.mem_cons, List.not_mem_nil, or_false] at hn
    omega
  · rw [h1]
    simp only [versionTuple]
    rw [decodeInt_nat]; rfl
  · obtain ⟨a, b, c, d, e1, -, -, -, -, e2⟩ := C01_encode_decode z hz
    have h2 : (normalize (parts [(decodeVersion z).1, (decodeVersion z).2.1, (decodeVersion z).2.2.1, (decodeVersion z).2.2.2]) : Given V)
        = .int (z : ℕ) := by
      rw [e1, ← e2, ← encodeInt_nat]; rfl
    exact set_nat conv checked s _ h2 hz

/-- C119: with validation, everything else that has a wrong form is refused and the version stays: numbers outside 64 bits, too few or too many
parts, parts that are no integers, negative parts, and a first part above 65535. -/
theorem C119_refuses (conv : V → Option Int) (s : Given V) :
    (∀ z : Int, z < 0 ∨ 2 ^ 64 ≤ z → set conv true s (.int z) = (s, some .dataFormat)) ∧
    (∀ l : List (Option Int), ¬ Count l ∨ none ∈ l ∨ (∃ z, some z ∈ l ∧ z < 0) ∨ (∃ z, l[0]? = some (some z) ∧ 65536 ≤ z) →
      set conv true s (.seq l) = (s, some .dataFormat)) ∧
    (∀ v, conv v = none → set conv true s (.other v) = (s, some .dataFormat)) := by
  have key (a b c d : Int) (h : a < 0 ∨ b < 0 ∨ c < 0 ∨ d < 0 ∨ 65536 ≤ a) :
      ¬ (0 ≤ encodeInt a b c d ∧ encodeInt a b c d < 2 ^ 64) := by
    rintro ⟨h1, h2⟩
    have hn : ¬ (a < 0 ∨ b < 0 ∨ c < 0 ∨ d < 0) := fun hc => absurd (encodeInt_neg.2 hc) (by omega)
    have ha : 65536 ≤ a := by omega
    lift a to ℕ using by omega
    lift b to ℕ using by omega
    lift c to ℕ using by omega
    lift d to ℕ using by omega
    rw [encodeInt_nat] at h2
    have h3 : encodeVersion a b c d < 2 ^ 64 := by exact_mod_cast h2
    unfold encodeVersion at h3
    have h4 : a <<< 48 ≤ a <<< 48 ||| b <<< 32 ||| c <<< 16 ||| d :=
      (Nat.left_le_or.trans Nat.left_le_or).trans Nat.left_le_or
    rw [Nat.shiftLeft_eq a 48] at h4 h3
    have : 65536 ≤ a := by exact_mod_cast ha
    omega
  refine ⟨?_, ?_, ?_⟩
  · intro z hz
    have : ¬ (0 ≤ z ∧ z < 2 ^ 64) := by omega
    simp only [set, normalize, field, if_true, if_neg this]
  · intro l hl
    by_cases hc : Count l
    · rcases hl with hl | hl
      · exact absurd hc hl
      rcases count_cases hc with ⟨a, b, rfl⟩ | ⟨a, b, c, rfl⟩ | ⟨a, b, c, d, rfl⟩
      · rcases a with _ | a
        · rfl
        rcases b with _ | b
        · rfl
        simp only [set, normalize, field, if_true]
        rw [if_neg (key a b 0 0 (by simp at hl; omega))]
      · rcases a with _ | a
        · rfl
        rcases b with _ | b
        · rfl
        rcases c with _ | c
        · rfl
        simp only [set, normalize, field, if_true]
        rw [if_neg (key a b c 0 (by simp at hl; omega))]
      · rcases a with _ | a
        · rfl
        rcases b with _ | b
        · rfl
        rcases c with _ | c
        · rfl
        rcases d with _ | d
        · rfl
        simp only [set, normalize, field, if_true]
        rw [if_neg (key a b c d (by simp at hl; omega))]
    · have : (normalize (.seq l) : Given V) = .seq l := by
        unfold normalize
        split
        · rename_i h; cases h; exact absurd (by simp [Count]) hc
        · rename_i h; cases h; exact absurd (by simp [Count]) hc
        · rename_i h; cases h; exact absurd (by simp [Count]) hc
        · rfl
      simp only [set, this, field, if_true]
  · intro v hv
    simp only [set, normalize, field, hv, if_true]

/-- C119: after any sequence of assignments with validation, refused ones among them, the version is `None` or a 64-bit number. -/
theorem C119_history (conv : V → Option Int) (l : List (Given V)) (s : Given V)
    (hs : s = .none ∨ ∃ z : ℕ, z < 2 ^ 64 ∧ s = .int z) :
    l.foldl (fun s v => (set conv true s v).1) s = .none ∨
    ∃ z : ℕ, z < 2 ^ 64 ∧ l.foldl (fun s v => (set conv true s v).1) s = .int z := by
  induction l generalizing s with
  | nil => exact hs
  | cons v l ih =>
    rw [List.foldl_cons]
    apply ih
    have hin (z : Int) (hz : 0 ≤ z ∧ z < 2 ^ 64) : ∃ w : ℕ, w < 2 ^ 64 ∧ (Given.int (V := V) z) = .int w := by
      obtain ⟨h1, h2⟩ := hz
      lift z to ℕ using h1
      exact ⟨z, by exact_mod_cast h2, rfl⟩
    simp only [set, if_true]
    cases hw : normalize v with
    | none => exact Or.inl rfl
    | int z =>
      simp only [field]
      by_cases hz : 0 ≤ z ∧ z < 2 ^ 64
      · rw [if_pos hz]; exact Or.inr (hin z hz)
      · rw [if_neg hz]; exact hs
    | seq l => exact hs
    | other w =>
      simp only [field]
      cases conv w with
      | none => exact hs
      | some z =>
        simp only
        by_cases hz : 0 ≤ z ∧ z < 2 ^ 64
        · rw [if_pos hz]; exact Or.inr (hin z hz)
        · rw [if_neg hz]; exact hs

/-- C119: `None` can be assigned. -/
theorem C119_none (conv : V → Option Int) (checked : Bool) (s : Given V) : set conv checked s .none = (.none, none) := by
  cases checked <;> rfl

/-! ## Where the claim fails -/

/-- C119 fails for large parts: a later part above 65535 is accepted in every mode and runs into the parts before it, so that other parts are read
than were set: after `version = (1, 65537)` the version is 1.1.0.0, the same as after `(1, 1)`. -/
theorem C119_wide_refuted (conv : V → Option Int) (checked : Bool) (s : Given V) :
    (∀ l : List ℕ, Count l → (∀ (i n : ℕ), l[i]? = some n → n < 2 ^ (16 * (i + 1))) → (∃ n ∈ l, 65535 < n) →
      (set conv checked s (parts l)).2 = none ∧
      ∃ t, versionTuple (set conv checked s (parts l)).1 = .ok t ∧ t ≠ padded l) ∧
    versionTuple (set conv checked s (parts [1, 65537])).1 = .ok [1, 1, 0, 0] := by
  constructor
  · intro l hl hb hw
    obtain ⟨a, b, c, d, h1, h2, h3, h4, h5, h6, h7⟩ := normalize_parts (V := V) hl
    have ha := hb 0 a h3
    have hb' := hb 1 b h5
    have hc : c < 2 ^ 48 := by
      rcases h6 with h6 | rfl
      · exact hb 2 c h6
      · norm_num
    have hd : d < 2 ^ 64 := by
      rcases h7 with h7 | rfl
      · exact hb 3 d h7
      · norm_num
    norm_num at ha hb'
    have hlt : encodeVersion a b c d < 2 ^ 64 := by
      unfold encodeVersion
      refine Nat.or_lt_two_pow (Nat.or_lt_two_pow (Nat.or_lt_two_pow ?_ ?_) ?_) hd
      all_goals rw [Nat.shiftLeft_eq]; omega
    have hset : set conv checked s (parts l) = (.int (encodeVersion a b c d : ℕ), none) :=
      set_nat conv checked s _ h1 hlt
    rw [hset]
    refine ⟨rfl, _, rfl, ?_⟩
    rw [h2]
    intro he
    obtain ⟨n, hn, hn2⟩ := hw
    unfold decodeInt at he
    simp only [List.cons.injEq, and_true] at he
    obtain ⟨e1, e2, e3, e4⟩ := he
    rcases h4 n hn with rfl | rfl | rfl | rfl <;> omega
  · cases checked <;> rfl

/-- C119 fails after `None`: then `version_tuple` and `version_string` raise a `TypeError`, although the documentation says that `None` removes the
version. -/
theorem C119_none_refuted (conv : V → Option Int) (checked : Bool) (s : Given V) :
    versionTuple (set conv checked s .none).1 = .error .typeError ∧ versionString (set conv checked s .none).1 = .error .typeError := by
  cases checked <;> exact ⟨rfl, rfl⟩

/-- C119 fails for what pydantic turns into numbers, such as texts of digits: they are taken for the packed number instead of being refused, so
that `version = "2"` gives version 0.0.0.2. -/
theorem C119_text_refuted (conv : V → Option Int) (s : Given V) (v : V) (z : ℕ) (hv : conv v = some (z : Int)) (hz : z < 65536) :
    (set conv true s (.other v)).2 = none ∧ versionTuple (set conv true s (.other v)).1 = .ok [0, 0, 0, (z : Int)] := by
  have h : (0 : Int) ≤ z ∧ (z : Int) < 2 ^ 64 := ⟨Int.natCast_nonneg _, by omega⟩
  simp only [set, normalize, field, hv, if_true, if_pos h, versionTuple, decodeInt]
  refine ⟨trivial, ?_⟩
  congr 1
  simp only [List.cons.injEq, and_true]
  omega

/-- C119 fails without validation: everything that cannot be packed is stored, such as one part only, and reading the parts fails from then on. -/
theorem C119_unchecked_refuted (conv : V → Option Int) (s : Given V) :
    (∀ l : List (Option Int), ¬ Count l → set conv false s (.seq l) = (.seq l, none) ∧
      versionTuple (set conv false s (.seq l)).1 = .error .typeError) ∧
    (set conv false s (.seq [some 2])).2 = none := by
  refine ⟨fun l hc => ?_, rfl⟩
  have : (normalize (.seq l) : Given V) = .seq l := by
    unfold normalize
    split
    · rename_i h; cases h; exact absurd (by simp [Count]) hc
    · rename_i h; cases h; exact absurd (by simp [Count]) hc
    · rename_i h; cases h; exact absurd (by simp [Count]) hc
    · rfl
  simp only [set, this, versionTuple]
  exact ⟨rfl, rfl⟩

/-! ## Concrete cases -/

/-- Parts, a number, refused values, and texts of digits as pydantic reads them. -/
example :
    let conv : List Char → Option Int := fun t => (pyInt t).toOption
    Count [1, 1, 107] ∧ (∀ n ∈ [1, 1, 107], n ≤ 65535) ∧
    set conv true .none (parts [1, 1, 107]) = (.int 281479278690304, none) ∧
    versionTuple (set conv true .none (parts [1, 1, 107])).1 = .ok [1, 1, 107, 0] ∧
    281479278690304 < 2 ^ 64 ∧
    set conv true (.int 7) (.seq [some 1]) = (.int 7, some .dataFormat) ∧
    set conv true (.int 7) (.seq [some 1, some (-1)]) = (.int 7, some .dataFormat) ∧
    set conv true (.int 7) (.seq [some 65536, some 0]) = (.int 7, some .dataFormat) ∧
    set conv true (.int 7) (.other "1.1.107".toList) = (.int 7, some .dataFormat) ∧
    conv "2".toList = some 2 ∧
    Count [1, 65537] ∧ (∀ (i n : ℕ), [1, 65537][i]? = some n → n < 2 ^ (16 * (i + 1))) := by
  refine ⟨by simp [Count], by decide, by decide +kernel, by decide +kernel, by decide, by decide +kernel, by decide +kernel, by decide +kernel,
    by decide +kernel, by decide +kernel, by simp [Count], ?_⟩
  intro i n h
  match i, h with
  | 0, h => simp at h; subst h; decide
  | 1, h => simp at h; subst h; decide
  | i + 2, h => simp at h

end Draftsman.BpVersion
