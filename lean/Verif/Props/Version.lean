import Verif.Model.Version
import Verif.Proof.Py
/-
C01, C02: version numbers and version strings.
-/
namespace Draftsman.Version

/-! ## Specification -/

/-- A version component that fits in an unsigned short. -/
def Fits (n : Nat) : Prop := n < 65536

/-- The lexicographic order on version quadruples, written out. -/
def VersionLt (a b : Nat × Nat × Nat × Nat) : Prop :=
  a.1 < b.1 ∨ (a.1 = b.1 ∧ (a.2.1 < b.2.1 ∨ (a.2.1 = b.2.1 ∧
    (a.2.2.1 < b.2.2.1 ∨ (a.2.2.1 = b.2.2.1 ∧ a.2.2.2 < b.2.2.2)))))

/-! ## Helper -/

theorem encode_eq_sum (a b c d : Nat) (hb : Fits b) (hc : Fits c) (hd : Fits d) :
    encodeVersion a b c d = a * 2^48 + b * 2^32 + c * 2^16 + d := by
  unfold Fits at hb hc hd
  unfold encodeVersion
  have e1 : (a <<< 48) ||| (b <<< 32) = (a * 2^16 + b) <<< 32 := by
    have : b <<< 32 < 2^48 := by rw [Nat.shiftLeft_eq]; omega
    rw [← Nat.shiftLeft_add_eq_or_of_lt this]; simp only [Nat.shiftLeft_eq]; omega
  rw [e1]
  have e2 : ((a * 2^16 + b) <<< 32) ||| (c <<< 16) = ((a * 2^16 + b) * 2^16 + c) <<< 16 := by
    have : c <<< 16 < 2^32 := by rw [Nat.shiftLeft_eq]; omega
    rw [← Nat.shiftLeft_add_eq_or_of_lt this]; simp only [Nat.shiftLeft_eq]; omega
  rw [e2, ← Nat.shiftLeft_add_eq_or_of_lt (by omega : d < 2^16)]
  simp only [Nat.shiftLeft_eq]; omega

theorem decode_eq (n : Nat) : decodeVersion n =
    (n / 2^48 % 65536, n / 2^32 % 65536, n / 2^16 % 65536, n % 65536) := by
  have h : ∀ m : Nat, m &&& 0xFFFF = m % 65536 := fun m => Nat.and_two_pow_sub_one_eq_mod m 16
  simp only [decodeVersion, Nat.shiftRight_eq_div_pow, h]

/-! ## C01 -/

/-- Packing then unpacking a version gives the version back. -/
theorem C01_decode_encode (a b c d : Nat) (ha : Fits a) (hb : Fits b) (hc : Fits c) (hd : Fits d) :
    decodeVersion (encodeVersion a b c d) = (a, b, c, d) := by
  rw [encode_eq_sum a b c d hb hc hd, decode_eq]
  unfold Fits at *
  simp only [Prod.mk.injEq]
  refine ⟨by omega, by omega, by omega, by omega⟩

example : Fits 1 ∧ Fits 65535 ∧ decodeVersion (encodeVersion 1 1 53 65535) = (1, 1, 53, 65535) := by
  unfold Fits; decide

/-- Every 64-bit number unpacks to four unsigned shorts which pack back to it. -/
theorem C01_encode_decode (n : Nat) (h : n < 2^64) :
    ∃ a b c d, decodeVersion n = (a, b, c, d) ∧ Fits a ∧ Fits b ∧ Fits c ∧ Fits d ∧
      encodeVersion a b c d = n := by
  refine ⟨_, _, _, _, decode_eq n, ?_, ?_, ?_, ?_, ?_⟩
  · unfold Fits; omega
  · unfold Fits; omega
  · unfold Fits; omega
  · unfold Fits; omega
  · rw [encode_eq_sum _ _ _ _ (by unfold Fits; omega) (by unfold Fits; omega) (by unfold Fits; omega)]
    omega

example : (281479275413504 : Nat) < 2^64 ∧ decodeVersion 281479275413504 = (1, 1, 57, 0) := by decide

/-- Comparing packed versions as integers is comparing versions lexicographically. -/
theorem C01_order (a b c d a' b' c' d' : Nat)
    (hb : Fits b) (hc : Fits c) (hd : Fits d)
    (hb' : Fits b') (hc' : Fits c') (hd' : Fits d') :
    encodeVersion a b c d < encodeVersion a' b' c' d' ↔ VersionLt (a, b, c, d) (a', b', c', d') := by
  rw [encode_eq_sum a b c d hb hc hd, encode_eq_sum a' b' c' d' hb' hc' hd']
  unfold VersionLt; unfold Fits at *
  simp only
  omega

example : Fits 999 ∧ encodeVersion 1 1 999 7 < encodeVersion 1 2 0 0 := by unfold Fits; decide

/-- Outside the 16-bit range the fields run into each other: two different versions with the same
number, so the range hypothesis of `C01_decode_encode` is needed. -/
theorem C01_out_of_range_collides : encodeVersion 1 65536 0 0 = encodeVersion 1 0 0 0 ∧
    decodeVersion (encodeVersion 1 65536 0 0) ≠ (1, 65536, 0, 0) := by decide

/-! ## C02 -/

/-- Printing a non-empty version tuple and parsing the text gives the tuple back, for any number of
components of any (signed) size. -/
theorem C02_parse_print (t : List Int) (hne : t ≠ []) :
    versionStringToTuple (versionTupleToString t) = .ok t := by
  unfold versionStringToTuple versionTupleToString
  rw [pySplit_pyJoin _ _ (by simpa using hne)]
  · induction t with
    | nil => exact absurd rfl hne
    | cons i is ih =>
      rw [List.map_cons, List.mapM_cons, pyInt_intStr]
      by_cases h : is = []
      · subst h; rfl
      · rw [ih h]; rfl
  · intro p hp
    simp at hp
    obtain ⟨i, _, rfl⟩ := hp
    exact intStr_noDot i

example : versionTupleToString [1, 1, 107] = "1.1.107".toList ∧
    versionStringToTuple "1.1.107".toList = .ok [1, 1, 107] := by decide +kernel

/-- The empty tuple prints as the empty string, which does not parse. -/
theorem C02_empty : versionTupleToString [] = [] ∧ versionStringToTuple [] = .error .valueError := by
  decide

/-- Distinct non-empty version tuples have distinct texts. -/
theorem C02_print_injective (t u : List Int) (ht : t ≠ []) (hu : u ≠ [])
    (h : versionTupleToString t = versionTupleToString u) : t = u := by
  have h1 := C02_parse_print t ht
  rw [h, C02_parse_print u hu] at h1
  exact (Except.ok.inj h1).symm

example : versionTupleToString [1, 10] ≠ versionTupleToString [11, 0] := by decide +kernel

end Draftsman.Version
