import Verif.Model.JsonStr
import Verif.Props.JsonBytes
/-
C115: texts of any code points through blueprint strings; C104: bytes that are no text of Unicode.
-/
namespace Draftsman
namespace JsonStr

/-! ### What is claimed -/

/-- A string of Python: its code points, surrogates among them. -/
def PyStr (s : List Nat) : Prop := ∀ c ∈ s, c < 0x110000

/-- A first surrogate stands directly before a second one. -/
def Pair (s : List Nat) : Prop := ∃ a h l b, s = a ++ h :: l :: b ∧ (0xD800 ≤ h ∧ h ≤ 0xDBFF) ∧ 0xDC00 ≤ l ∧ l ≤ 0xDFFF

/-- The units of a code point in UTF-16. -/
def units (c : Nat) : List Nat := if c < 0x10000 then [c] else [0xD800 + (c - 0x10000) / 0x400, 0xDC00 + (c - 0x10000) % 0x400]

/-- Unpacking undoes packing. -/
def Unpacks (compress : List (Fin 256) → List (Fin 256)) (decompress : List (Fin 256) → Except PyErr (List (Fin 256))) : Prop :=
  ∀ b, decompress (compress b) = .ok b

/-! ### Strings -/

theorem hexDigit_lt (n : Nat) (h : n < 16) : hexVal (hexDigit n) = some n := by
  interval_cases n <;> rfl

theorem readHex4_hex4 (n : Nat) (h : n < 65536) (r : List Nat) :
    readHex4 (hexDigit (n / 4096 % 16) :: hexDigit (n / 256 % 16) :: hexDigit (n / 16 % 16) :: hexDigit (n % 16) :: r) = some (n, r) := by
  simp only [readHex4, hexDigit_lt _ (Nat.mod_lt _ (by decide : 0 < 16)), Option.some.injEq, Prod.mk.injEq, and_true]
  omega

theorem join_eq (h l : Nat) : join h l = 0x10000 + (h - 0xD800) * 0x400 + (l - 0xDC00) := by unfold join; rfl

theorem high_iff (n : Nat) : high n = true ↔ 0xD800 ≤ n ∧ n ≤ 0xDBFF := by simp [high]

theorem low_iff (n : Nat) : low n = true ↔ 0xDC00 ≤ n ∧ n ≤ 0xDFFF := by simp [low]

theorem readChar_hex4 (n : Nat) (h : n < 65536) (t : List Nat) : readChar (hex4 n ++ t) = if high n then some (readLow n t) else some (n, t) := by
  simp only [hex4, List.cons_append, List.nil_append, readChar, if_true, readEscape, readHex4_hex4 n h]

theorem readLow_hex4 (n m : Nat) (h : m < 65536) (t : List Nat) : readLow n (hex4 m ++ t) = if low m then (join n m, t) else (n, hex4 m ++ t) := by
  simp only [hex4, List.cons_append, List.nil_append, readLow, and_self, if_true, readHex4_hex4 m h]

/-- One code point is read back, unless it is a first surrogate: then what follows counts. -/
theorem readChar_escape (n : Nat) (h : n < 0x110000) (t : List Nat) : readChar (escape n ++ t) = if high n then some (readLow n t) else some (n, t) := by
  generalize hg : (if high n then some (readLow n t) else some (n, t)) = g
  have small : n < 127 → g = some (n, t) := by
    intro hn
    rw [← hg, if_neg]
    rw [high_iff]
    omega
  unfold escape
  split_ifs with h1 h2 h3 h4 h5 h6 h7 h8 h9
  · subst h1; rw [small (by decide)]; rfl
  · subst h2; rw [small (by decide)]; rfl
  · subst h3; rw [small (by decide)]; rfl
  · subst h4; rw [small (by decide)]; rfl
  · subst h5; rw [small (by decide)]; rfl
  · subst h6; rw [small (by decide)]; rfl
  · subst h7; rw [small (by decide)]; rfl
  · rw [small (by omega)]
    simp only [List.cons_append, List.nil_append, readChar, if_neg h2, if_neg (show ¬ n < 32 by omega)]
  · rw [readChar_hex4 n h9, hg]
  · have hn : ¬ high n = true := by rw [high_iff]; omega
    rw [← hg, if_neg hn]
    obtain ⟨x, hx⟩ : ∃ x, x = 0xD800 + (n - 65536) / 1024 := ⟨_, rfl⟩
    obtain ⟨y, hy⟩ : ∃ y, y = 0xDC00 + (n - 65536) % 1024 := ⟨_, rfl⟩
    rw [← hx, ← hy]
    have h1 : high x = true := (high_iff _).2 (by omega)
    have h2 : low y = true := (low_iff _).2 (by omega)
    have h3 : join x y = n := by
      rw [join_eq]
      omega
    rw [List.append_assoc, readChar_hex4 _ (by omega), if_pos h1, readLow_hex4 _ _ (by omega), if_pos h2, h3]

theorem escape_head (n : Nat) : ∃ c l, escape n = c :: l ∧ c ≠ 34 := by
  unfold escape
  split_ifs <;> exact ⟨_, _, rfl, by first | decide | assumption⟩

/-- A code point that is no second surrogate leaves the first one alone. -/
theorem readLow_escape (n m : Nat) (hm : m < 0x110000) (h : low m = false) (t : List Nat) : readLow n (escape m ++ t) = (n, escape m ++ t) := by
  unfold escape
  split_ifs with h1 h2 h3 h4 h5 h6 h7 h8 h9 <;> first
    | (simp [readLow]; done)
    | skip
  · cases t with
    | nil => rfl
    | cons a t => simp [readLow, h2]
  · rw [readLow_hex4 n m h9, h]; rfl
  · rw [List.append_assoc, readLow_hex4 _ _ (by omega), if_neg]
    rw [low_iff]
    omega

theorem length_escape (n : Nat) : 0 < (escape n).length := by
  obtain ⟨c, l, h, -⟩ := escape_head n
  simp [h]

theorem readStr_step (fuel : Nat) (n : Nat) (t : List Nat) (x : Nat) (r : List Nat) (h : readChar (escape n ++ t) = some (x, r)) :
    readStr (fuel + 1) (escape n ++ t) = (readStr fuel r).map fun y => (x :: y.1, y.2) := by
  obtain ⟨c, l, e, hc⟩ := escape_head n
  rw [e] at h ⊢
  simp only [List.cons_append] at h ⊢
  rw [readStr, if_neg hc, h]

/-- What is written for a text is read, whatever follows, if it begins with no backslash. -/
theorem readStr_more (s : List Nat) (hs : PyStr s) (x : Nat) (hx : x ≠ 92) (r : List Nat) (fuel : Nat) (hf : (s.flatMap escape).length < fuel) :
    ∃ k, readStr fuel (s.flatMap escape ++ x :: r) = (readStr (k + 1) (x :: r)).map fun y => (utf16 s ++ y.1, y.2) := by
  induction s using utf16.induct generalizing fuel with
  | case1 =>
    obtain ⟨k, rfl⟩ : ∃ k, fuel = k + 1 := ⟨fuel - 1, by omega⟩
    exact ⟨k, by simp [utf16]⟩
  | case2 n =>
    simp only [List.flatMap_cons, List.flatMap_nil, List.append_nil] at hf ⊢
    have := length_escape n
    obtain ⟨k, rfl⟩ : ∃ k, fuel = k + 1 + 1 := ⟨fuel - 2, by omega⟩
    have hc : readChar (escape n ++ x :: r) = some (n, x :: r) := by
      rw [readChar_escape n (hs n (by simp))]
      have : readLow n (x :: r) = (n, x :: r) := by
        cases r <;> simp [readLow, hx]
      rw [this, ite_self]
    exact ⟨k, readStr_step _ _ _ _ _ hc⟩
  | case3 n m l hb ih =>
    rw [Bool.and_eq_true] at hb
    simp only [List.flatMap_cons, List.append_assoc, List.length_append] at hf ih ⊢
    have := length_escape n
    obtain ⟨k, rfl⟩ : ∃ k, fuel = k + 1 := ⟨fuel - 1, by omega⟩
    have h1 := (high_iff n).1 hb.1
    have h2 := (low_iff m).1 hb.2
    have hm : escape m = hex4 m := by
      unfold escape
      rw [if_neg (by omega), if_neg (by omega), if_neg (by omega), if_neg (by omega), if_neg (by omega), if_neg (by omega), if_neg (by omega), if_neg (by omega),
        if_pos (by omega)]
    have hc : readChar (escape n ++ (escape m ++ (l.flatMap escape ++ x :: r))) = some (join n m, l.flatMap escape ++ x :: r) := by
      rw [readChar_escape n (hs n (by simp)), if_pos hb.1, hm, readLow_hex4 _ _ (by omega), if_pos hb.2]
    obtain ⟨j, hj⟩ := ih (fun c h => hs c (by simp [h])) k (by omega)
    refine ⟨j, ?_⟩
    rw [readStr_step _ _ _ _ _ hc, hj]
    simp [utf16, hb.1, hb.2, Function.comp_def]
  | case4 n m l hb ih =>
    have hb' : ¬ (high n = true ∧ low m = true) := by rwa [Bool.and_eq_true] at hb
    rw [List.flatMap_cons, List.append_assoc]
    rw [List.flatMap_cons, List.length_append] at hf
    have := length_escape n
    obtain ⟨k, rfl⟩ : ∃ k, fuel = k + 1 := ⟨fuel - 1, by omega⟩
    have hc : readChar (escape n ++ ((m :: l).flatMap escape ++ x :: r)) = some (n, (m :: l).flatMap escape ++ x :: r) := by
      rw [readChar_escape n (hs n (by simp))]
      split_ifs with hh
      · have : low m = false := by
          cases hl : low m
          · rfl
          · exact absurd ⟨hh, hl⟩ hb'
        rw [List.flatMap_cons, List.append_assoc, readLow_escape n m (hs m (by simp)) this]
      · rfl
    obtain ⟨j, hj⟩ := ih (fun c h => hs c (by simp [List.mem_cons.1 h])) k (by omega)
    refine ⟨j, ?_⟩
    rw [readStr_step _ _ _ _ _ hc, hj, utf16, if_neg hb]
    simp [Function.comp_def]

theorem readStr_escape (s : List Nat) (hs : PyStr s) (r : List Nat) (fuel : Nat) (hf : (s.flatMap escape).length < fuel) :
    readStr fuel (s.flatMap escape ++ 34 :: r) = some (utf16 s, r) := by
  obtain ⟨k, hk⟩ := readStr_more s hs 34 (by decide) r fuel hf
  rw [hk]
  simp [readStr]

/-- Joining keeps the units. -/
theorem units_utf16 (s : List Nat) : (utf16 s).flatMap units = s.flatMap units := by
  induction s using utf16.induct with
  | case1 => rfl
  | case2 n => rfl
  | case3 n m l hb ih =>
    rw [utf16, if_pos hb]
    rw [Bool.and_eq_true] at hb
    have h1 := (high_iff n).1 hb.1
    have h2 := (low_iff m).1 hb.2
    have e1 : units n = [n] := by rw [units, if_pos (by omega)]
    have e2 : units m = [m] := by rw [units, if_pos (by omega)]
    have e3 : units (join n m) = [n, m] := by
      obtain ⟨j, hj⟩ : ∃ j, j = join n m := ⟨_, rfl⟩
      rw [← hj]
      rw [join_eq] at hj
      have a1 : 0xD800 + (j - 0x10000) / 0x400 = n := by omega
      have a2 : 0xDC00 + (j - 0x10000) % 0x400 = m := by omega
      rw [units, if_neg (by omega), a1, a2]
    simp [e1, e2, e3, ih]
  | case4 n m l hb ih =>
    rw [utf16, if_neg hb, List.flatMap_cons, ih, ← List.flatMap_cons]

theorem pair_cons {n : Nat} {l : List Nat} (h : Pair (n :: l)) : Pair l ∨ ∃ m r, l = m :: r ∧ high n = true ∧ low m = true := by
  obtain ⟨a, x, y, b, e, hx, hy⟩ := h
  cases a with
  | nil =>
    simp only [List.nil_append, List.cons.injEq] at e
    obtain ⟨rfl, rfl⟩ := e
    exact .inr ⟨y, b, rfl, (high_iff _).2 hx, (low_iff _).2 hy⟩
  | cons z a =>
    simp only [List.cons_append, List.cons.injEq] at e
    exact .inl ⟨a, x, y, b, e.2, hx, hy⟩

theorem pair_more {l : List Nat} (n : Nat) (h : Pair l) : Pair (n :: l) := by
  obtain ⟨a, x, y, b, rfl, hx, hy⟩ := h
  exact ⟨n :: a, x, y, b, rfl, hx, hy⟩

theorem join_big (n m : Nat) : 0x10000 ≤ join n m := by unfold join; omega

/-- No pair is left. -/
theorem utf16_noPair (s : List Nat) : ¬ Pair (utf16 s) := by
  induction s using utf16.induct with
  | case1 =>
    rintro ⟨a, x, y, b, e, -⟩
    simp [utf16] at e
  | case2 n =>
    rintro ⟨a, x, y, b, e, -⟩
    have := congrArg List.length e
    simp [utf16] at this
    omega
  | case3 n m l hb ih =>
    rw [utf16, if_pos hb]
    intro h
    rcases pair_cons h with h | ⟨x, r, -, h1, -⟩
    · exact ih h
    · have := (high_iff _).1 h1
      have := join_big n m
      omega
  | case4 n m l hb ih =>
    rw [utf16, if_neg hb]
    intro h
    rcases pair_cons h with h | ⟨x, r, e, h1, h2⟩
    · exact ih h
    · cases l with
      | nil =>
        simp only [utf16, List.cons.injEq] at e
        obtain ⟨rfl, -⟩ := e
        simp [h1, h2] at hb
      | cons k l =>
        rw [utf16] at e
        split_ifs at e with h3
        · simp only [List.cons.injEq] at e
          have := (low_iff _).1 h2
          have := join_big m k
          omega
        · simp only [List.cons.injEq] at e
          obtain ⟨rfl, -⟩ := e
          simp [h1, h2] at hb

theorem utf16_id (s : List Nat) (h : ¬ Pair s) : utf16 s = s := by
  induction s using utf16.induct with
  | case1 => rfl
  | case2 n => rfl
  | case3 n m l hb ih =>
    rw [Bool.and_eq_true] at hb
    exact absurd ⟨[], n, m, l, rfl, (high_iff n).1 hb.1, (low_iff m).1 hb.2⟩ h
  | case4 n m l hb ih =>
    rw [utf16, if_neg hb, ih fun h' => h (pair_more n h')]

/-! ### Blueprint strings -/

theorem hexDigit_ascii (n : Nat) (h : n < 16) : 32 ≤ hexDigit n ∧ hexDigit n < 127 := by
  unfold hexDigit
  split_ifs <;> omega

theorem hex4_ascii (n : Nat) : ∀ c ∈ hex4 n, 32 ≤ c ∧ c < 127 := by
  intro c hc
  simp only [hex4, List.mem_cons, List.not_mem_nil, or_false] at hc
  rcases hc with rfl | rfl | rfl | rfl | rfl | rfl
  · decide
  · decide
  all_goals exact hexDigit_ascii _ (Nat.mod_lt _ (by decide))

theorem escape_ascii (n : Nat) : ∀ c ∈ escape n, 32 ≤ c ∧ c < 127 := by
  intro c hc
  unfold escape at hc
  split_ifs at hc <;> first
    | exact hex4_ascii _ c hc
    | (rcases List.mem_append.1 hc with hc | hc <;> exact hex4_ascii _ c hc)
    | (simp only [List.mem_cons, List.not_mem_nil, or_false] at hc; omega)

theorem quote_ascii (s : List Nat) : ∀ c ∈ quote s, 32 ≤ c ∧ c < 127 := by
  intro c hc
  simp only [quote, List.cons_append, List.mem_cons, List.mem_append, List.mem_flatMap, List.not_mem_nil, or_false] at hc
  rcases hc with rfl | ⟨n, -, hc⟩ | rfl
  · decide
  · exact escape_ascii n c hc
  · decide

theorem utf8_ascii (l : List Nat) (h : ∀ c ∈ l, 32 ≤ c ∧ c < 127) (fuel : Nat) (hf : l.length ≤ fuel) :
    utf8 fuel (l.map fun c => Fin.ofNat 256 c) = some l := by
  induction l generalizing fuel with
  | nil => cases fuel <;> rfl
  | cons c l ih =>
    have hc := h c (by simp)
    simp only [List.length_cons] at hf
    obtain ⟨k, rfl⟩ : ∃ k, fuel = k + 1 := ⟨fuel - 1, by omega⟩
    have hv : (Fin.ofNat 256 c).val = c := Nat.mod_eq_of_lt (by omega)
    have hv' : ((Fin.ofNat 256 c : Fin 256) : Nat) < 128 := by rw [hv]; omega
    simp only [List.map_cons, utf8, utf8Char]
    rw [if_neg (by simp), if_pos hv', hv]
    simp only
    rw [ih (fun c h' => h c (by simp [h'])) k (by omega)]
    rfl

theorem detect_plain (b : List (Fin 256)) (h : ∀ c ∈ b, 32 ≤ c.val ∧ c.val < 127) : Json.detect b = (.utf8, b) := by
  have ne : ∀ (x y : Fin 256) (l r : List (Fin 256)), b = y :: r → (x.val = 0 ∨ 127 ≤ x.val) → (x :: l).isPrefixOf b = false := by
    intro x y l r e hx
    have := h y (by simp [e])
    have hxy : (x == y) = false := by
      rw [beq_eq_false_iff_ne]
      rintro rfl
      omega
    rw [e, List.isPrefixOf, hxy, Bool.false_and]
  cases b with
  | nil => rfl
  | cons y r =>
    unfold Json.detect
    rw [ne 0 y _ r rfl (.inl rfl), ne 255 y _ r rfl (.inr (by decide)), ne 254 y _ r rfl (.inr (by decide)), ne 255 y _ r rfl (.inr (by decide)),
      ne 239 y _ r rfl (.inr (by decide))]
    have hy := (h y (by simp)).1
    have hz : Json.zeros (y :: r) = .utf8 := by
      rcases r with _ | ⟨a, _ | ⟨c, _ | ⟨d, r⟩⟩⟩
      · rfl
      · have ha := (h a (by simp)).1
        simp only [Json.zeros]
        rw [if_neg (by omega), if_neg (by omega)]
      · rfl
      · have ha := (h a (by simp)).1
        simp only [Json.zeros]
        rw [if_neg (by omega), if_neg (by omega)]
    simp [hz]

theorem decode_quote (s : List Nat) : decode ((quote s).map fun c => Fin.ofNat 256 c) = some (quote s) := by
  unfold decode
  rw [detect_plain]
  · exact utf8_ascii _ (quote_ascii s) _ (by simp)
  · intro c hc
    obtain ⟨n, hn, rfl⟩ := List.mem_map.1 hc
    have := quote_ascii s n hn
    have hv : (Fin.ofNat 256 n).val = n := Nat.mod_eq_of_lt (by omega)
    rw [hv]
    exact this

theorem loads_quote (s : List Nat) (hs : PyStr s) : loads (quote s) = some (utf16 s) := by
  have : skip (quote s) = 34 :: (s.flatMap escape ++ 34 :: []) := rfl
  unfold loads
  rw [this]
  simp only [if_true]
  rw [readStr_escape s hs [] _ (by simp only [List.length_append, List.length_singleton]; omega)]
  rfl

theorem ofString_toString (compress : List (Fin 256) → List (Fin 256)) (decompress : List (Fin 256) → Except PyErr (List (Fin 256)))
    (hz : Unpacks compress decompress) (s : List Nat) (hs : PyStr s) : ofString decompress (toString compress s) = .ok (utf16 s) := by
  unfold ofString toString
  simp only [List.drop_succ_cons, List.drop_zero, Json.C03_base64, hz _, decode_quote, Option.bind_some, loads_quote s hs]

/-! ### Theorems -/

/-- C115: any text comes back from its blueprint string with the same units of UTF-16, and without pairs of surrogates.  Missing: that it is the same text, which holds just
if it had no pairs (`C115_back_partial`, `C115_pair_refuted`). -/
theorem C115_units_partial (compress : List (Fin 256) → List (Fin 256)) (decompress : List (Fin 256) → Except PyErr (List (Fin 256))) (hz : Unpacks compress decompress)
    (s : List Nat) (hs : PyStr s) : ∃ t, ofString decompress (toString compress s) = .ok t ∧ t.flatMap units = s.flatMap units ∧ ¬ Pair t :=
  ⟨_, ofString_toString compress decompress hz s hs, units_utf16 s, utf16_noPair s⟩

/-- C115: a text without pairs of surrogates comes back as it was, also when it has surrogates that stand alone.  Missing: texts with pairs. -/
theorem C115_back_partial (compress : List (Fin 256) → List (Fin 256)) (decompress : List (Fin 256) → Except PyErr (List (Fin 256))) (hz : Unpacks compress decompress)
    (s : List Nat) (hs : PyStr s) (h : ¬ Pair s) : ofString decompress (toString compress s) = .ok s := by
  rw [ofString_toString compress decompress hz s hs, utf16_id s h]

/-- C115: texts without pairs are written differently when they are different.  Missing: texts with pairs. -/
theorem C115_distinct_partial (s t : List Nat) (hs : PyStr s) (ht : PyStr t) (h1 : ¬ Pair s) (h2 : ¬ Pair t) (h : quote s = quote t) : s = t := by
  have := loads_quote s hs
  rw [h, loads_quote t ht, utf16_id s h1, utf16_id t h2] at this
  exact (Option.some.inj this).symm

/-- C115 refuted: a text in which a first surrogate stands directly before a second one never comes back: the two are read as one character. -/
theorem C115_pair_refuted (compress : List (Fin 256) → List (Fin 256)) (decompress : List (Fin 256) → Except PyErr (List (Fin 256))) (hz : Unpacks compress decompress)
    (s : List Nat) (hs : PyStr s) (h : Pair s) : ofString decompress (toString compress s) ≠ .ok s := by
  rw [ofString_toString compress decompress hz s hs]
  intro e
  have := utf16_noPair s
  rw [Except.ok.inj e] at this
  exact this h

/-- C115 refuted: for each such text there is another one that is written in the same way; as keys of a dictionary the two are different, but only one of them is read back. -/
theorem C115_keys_refuted (s : List Nat) (hs : PyStr s) (h : Pair s) : ∃ t, PyStr t ∧ t ≠ s ∧ quote t = quote s := by
  obtain ⟨a, x, y, b, rfl, hx, hy⟩ := h
  obtain ⟨j, hj⟩ : ∃ j, j = join x y := ⟨_, rfl⟩
  refine ⟨a ++ j :: b, ?_, ?_, ?_⟩
  · intro c hc
    simp only [List.mem_append, List.mem_cons] at hc
    rcases hc with hc | rfl | hc
    · exact hs c (by simp [hc])
    · rw [hj, join_eq]; omega
    · exact hs c (by simp [hc])
  · intro e
    have := congrArg List.length e
    simp at this
  · have e : ∀ n, 0xD800 ≤ n → n < 0x10000 → escape n = hex4 n := by
      intro n h1 h2
      unfold escape
      rw [if_neg (by omega), if_neg (by omega), if_neg (by omega), if_neg (by omega), if_neg (by omega), if_neg (by omega), if_neg (by omega), if_neg (by omega),
        if_pos (by omega)]
    have e3 : escape j = hex4 x ++ hex4 y := by
      rw [join_eq] at hj
      have a1 : 0xD800 + (j - 65536) / 1024 = x := by omega
      have a2 : 0xDC00 + (j - 65536) % 1024 = y := by omega
      unfold escape
      rw [if_neg (by omega), if_neg (by omega), if_neg (by omega), if_neg (by omega), if_neg (by omega), if_neg (by omega), if_neg (by omega), if_neg (by omega),
        if_neg (by omega), a1, a2]
    simp only [quote, List.flatMap_append, List.flatMap_cons, e3, e x (by omega) (by omega), e y (by omega) (by omega), List.append_assoc]

/-- C115: nothing but blanks may follow a text.  For all texts and all that follows. -/
theorem C115_after (s r : List Nat) (hs : PyStr s) : loads (quote s ++ r) ≠ none ↔ ∀ c ∈ r, c = 32 ∨ c = 9 ∨ c = 10 ∨ c = 13 := by
  have : skip (quote s ++ r) = 34 :: (s.flatMap escape ++ 34 :: r) := by
    simp only [quote, List.cons_append, List.append_assoc, List.nil_append]
    rfl
  unfold loads
  rw [this]
  simp only [if_true]
  rw [readStr_escape s hs r _ (by simp only [List.length_append]; omega)]
  simp only
  have hk : skip r = [] ↔ ∀ c ∈ r, c = 32 ∨ c = 9 ∨ c = 10 ∨ c = 13 := by
    unfold skip
    induction r with
    | nil => simp
    | cons c r ih =>
      rw [List.dropWhile_cons]
      split_ifs with h
      · simp only [Bool.or_eq_true, beq_iff_eq, or_assoc] at h
        simp only [List.mem_cons, forall_eq_or_imp, h, true_and]
        exact ih (by simp only [quote, List.cons_append, List.append_assoc, List.nil_append]; rfl)
      · simp only [Bool.or_eq_true, beq_iff_eq, or_assoc] at h
        simp [h]
  rw [← hk]
  split_ifs with h <;> simp [h]

/-- C115: a text with a control character that is not escaped is refused, wherever it stands. -/
theorem C115_control (s r : List Nat) (hs : PyStr s) (c : Nat) (hc : c < 32) : loads (34 :: s.flatMap escape ++ c :: r) = none := by
  have : skip (34 :: s.flatMap escape ++ c :: r) = 34 :: (s.flatMap escape ++ c :: r) := rfl
  unfold loads
  rw [this]
  simp only [if_true]
  obtain ⟨k, hk⟩ := readStr_more s hs c (by omega) r ((s.flatMap escape ++ c :: r).length + 1) (by simp only [List.length_append]; omega)
  have h0 : readStr (k + 1) (c :: r) = none := by
    rw [readStr, if_neg (by omega), readChar, if_neg (by omega), if_pos hc]
  rw [hk, h0]
  rfl

/-- C115: what is no base64, or what cannot be unpacked or read, gives the one error of malformed strings. -/
theorem C115_error (decompress : List (Fin 256) → Except PyErr (List (Fin 256))) (s : List Char) (e : PyErr) (h : ofString decompress s = .error e) :
    e = .malformedBlueprintString := by
  unfold ofString at h
  split at h
  · exact (Except.error.inj h).symm
  · split at h
    · exact (Except.error.inj h).symm
    · split at h
      · exact (Except.error.inj h).symm
      · cases h

/-! ### Bytes that are no text -/

/-- The three bytes that UTF-8 would have for a surrogate, in quotes. -/
def lone (n : Nat) : List (Fin 256) := [34, 237, Json.byte (128 + n / 64 % 64), Json.byte (128 + n % 64), 34]

theorem lone_no_text (n : Nat) (h : 0xD800 ≤ n ∧ n ≤ 0xDFFF) (s : List Char) : ¬ Json.Encodes (lone n) s := by
  have len : ∀ big, ((Json.encodeAs (.utf16 big) s).length % 2 = 0) ∧ ((Json.encodeAs (.utf32 big) s).length % 2 = 0) := by
    intro big
    induction s with
    | nil => exact ⟨rfl, rfl⟩
    | cons c s ih =>
      constructor
      · have : (Json.charAs (.utf16 big) c).length % 2 = 0 := by
          simp only [Json.charAs, Json.units]
          cases big <;> split_ifs <;> simp [Json.inOrder, Json.bytesOf]
        have h2 := ih.1
        simp only [Json.encodeAs, List.flatMap_cons, List.length_append] at h2 ⊢
        omega
      · have : (Json.charAs (.utf32 big) c).length % 2 = 0 := by
          cases big <;> simp [Json.charAs, Json.inOrder, Json.bytesOf]
        have h2 := ih.2
        simp only [Json.encodeAs, List.flatMap_cons, List.length_append] at h2 ⊢
        omega
  have mk : ∀ big, (Json.mark (.utf16 big)).length = 2 ∧ (Json.mark (.utf32 big)).length = 4 := by
    intro big
    cases big <;> decide +kernel
  rintro ⟨e, he⟩
  have hl : (lone n).length = 5 := rfl
  cases e with
  | utf16 big =>
    have h1 := (len big).1
    have h2 := (mk big).1
    rcases he with he | he <;> (rw [he] at hl; try rw [List.length_append] at hl) <;> omega
  | utf32 big =>
    have h1 := (len big).2
    have h2 := (mk big).2
    rcases he with he | he <;> (rw [he] at hl; try rw [List.length_append] at hl) <;> omega
  | utf8 =>
    rcases he with he | he
    · have := (Json.utf8_iff 5 (lone n) (Nat.le_refl _) s).2 he
      have hn : Json.utf8Char [237, Json.byte (128 + n / 64 % 64), Json.byte (128 + n % 64), 34] = none := by
        have e1 : Json.tail (Json.byte (128 + n / 64 % 64)) = some (n / 64 % 64) := by rw [Nat.add_comm]; exact Json.tail_byte (by omega)
        have e2 : Json.tail (Json.byte (128 + n % 64)) = some (n % 64) := by rw [Nat.add_comm]; exact Json.tail_byte (by omega)
        have hv : ((237 : Fin 256) : Nat) = 237 := rfl
        simp only [Json.utf8Char, hv, e1, e2]
        rw [if_neg (by omega), if_neg (by omega), if_neg (by omega), if_pos (by omega), if_pos (by omega)]
        have : (237 - 224) * 4096 + n / 64 % 64 * 64 + n % 64 = n := by omega
        rw [this, Json.point, if_neg]
        · rfl
        · rintro (hh | hh) <;> omega
      rw [lone, Json.utf8, if_neg (by simp)] at this
      have h34 : Json.utf8Char (34 :: [237, Json.byte (128 + n / 64 % 64), Json.byte (128 + n % 64), 34]) =
          some ('"', [237, Json.byte (128 + n / 64 % 64), Json.byte (128 + n % 64), 34]) := rfl
      rw [h34] at this
      simp only [Json.utf8, hn] at this
      simp at this
    · have h0 : Json.mark .utf8 = [239, 187, 191] := by decide +kernel
      rw [h0] at he
      simp [lone] at he

theorem lone_read (n : Nat) (h : 0xD800 ≤ n ∧ n ≤ 0xDFFF) : (decode (lone n)).bind loads = some [n] := by
  have hd : Json.detect (lone n) = (.utf8, lone n) := by
    have a1 : ([0, 0, 254, 255] : List (Fin 256)).isPrefixOf (lone n) = false := rfl
    have a2 : ([255, 254, 0, 0] : List (Fin 256)).isPrefixOf (lone n) = false := rfl
    have a3 : ([254, 255] : List (Fin 256)).isPrefixOf (lone n) = false := rfl
    have a4 : ([255, 254] : List (Fin 256)).isPrefixOf (lone n) = false := rfl
    have a5 : ([239, 187, 191] : List (Fin 256)).isPrefixOf (lone n) = false := rfl
    have a6 : Json.zeros (lone n) = .utf8 := rfl
    unfold Json.detect
    rw [a1, a2, a3, a4, a5, a6]
    rfl
  have hn : utf8Char [237, Json.byte (128 + n / 64 % 64), Json.byte (128 + n % 64), 34] = some (n, [34]) := by
    have e1 : Json.tail (Json.byte (128 + n / 64 % 64)) = some (n / 64 % 64) := by rw [Nat.add_comm]; exact Json.tail_byte (by omega)
    have e2 : Json.tail (Json.byte (128 + n % 64)) = some (n % 64) := by rw [Nat.add_comm]; exact Json.tail_byte (by omega)
    have hv : ((237 : Fin 256) : Nat) = 237 := rfl
    simp only [utf8Char, hv, e1, e2]
    rw [if_neg (by omega), if_neg (by omega), if_neg (by omega), if_pos (by omega), if_pos (by omega)]
    have : (237 - 224) * 4096 + n / 64 % 64 * 64 + n % 64 = n := by omega
    rw [this]
  have hu : decode (lone n) = some [34, n, 34] := by
    unfold decode
    rw [hd]
    simp only [decodeAs]
    have hl : (lone n).length = 5 := rfl
    rw [hl, lone, utf8, if_neg (by simp)]
    have h34 : utf8Char (34 :: [237, Json.byte (128 + n / 64 % 64), Json.byte (128 + n % 64), 34]) =
        some (34, [237, Json.byte (128 + n / 64 % 64), Json.byte (128 + n % 64), 34]) := rfl
    rw [h34]
    simp only
    rw [utf8, if_neg (by simp), hn]
    rfl
  rw [hu, Option.bind_some]
  have hs : skip [34, n, 34] = [34, n, 34] := rfl
  unfold loads
  rw [hs]
  simp only [if_true, List.length_cons, List.length_nil]
  rw [readStr, if_neg (by omega), readChar, if_neg (by omega), if_neg (by omega)]
  rfl

/-- C104 refuted: bytes that are no text in any of the encodings are read too.  The decoders are called with `surrogatepass`, so that the bytes UTF-8 would have for a surrogate, which
stand for no character, are taken for it: every blueprint string that unpacks to them is read as a text with that surrogate. -/
theorem C104_surrogate_refuted (n : Nat) (h : 0xD800 ≤ n ∧ n ≤ 0xDFFF) (decompress : List (Fin 256) → Except PyErr (List (Fin 256))) (s : List Char) (b : List (Fin 256))
    (h1 : Json.b64decode (s.drop 1) = .ok b) (h2 : decompress b = .ok (lone n)) :
    (∀ text, ¬ Json.Encodes (lone n) text) ∧ ofString decompress s = .ok [n] := by
  refine ⟨lone_no_text n h, ?_⟩
  simp only [ofString, h1, h2, lone_read n h]

/-! ### The two models agree -/

/-- The code points of a text of Unicode. -/
def points (s : List Char) : List Nat := s.map Char.toNat

theorem agree_utf8Char {b r : List (Fin 256)} {c : Char} (h : Json.utf8Char b = some (c, r)) : utf8Char b = some (c.toNat, r) := by
  obtain rfl := Json.utf8Char_sound h
  have hc := Json.char_lt c
  rw [Json.charAs_utf8]
  split_ifs with h1 h2 h3
  · have hv : (Json.byte c.toNat).val = c.toNat := by rw [Json.byte_val]; omega
    simp only [List.cons_append, List.nil_append, utf8Char, hv]
    rw [if_pos (by omega)]
  · have hv : (Json.byte (c.toNat / 64 % 32 + 192)).val = c.toNat / 64 % 32 + 192 := by rw [Json.byte_val]; omega
    have hn : (c.toNat / 64 % 32 + 192 - 192) * 64 + c.toNat % 64 = c.toNat := by omega
    simp only [List.cons_append, List.nil_append, utf8Char, hv, Json.tail_byte (show c.toNat % 64 < 64 by omega), hn]
    rw [if_neg (by omega), if_neg (by omega), if_pos (by omega), if_pos (by omega)]
  · have hv : (Json.byte (c.toNat / 4096 % 16 + 224)).val = c.toNat / 4096 % 16 + 224 := by rw [Json.byte_val]; omega
    have hn : (c.toNat / 4096 % 16 + 224 - 224) * 4096 + c.toNat / 64 % 64 * 64 + c.toNat % 64 = c.toNat := by omega
    simp only [List.cons_append, List.nil_append, utf8Char, hv, Json.tail_byte (show c.toNat % 64 < 64 by omega), Json.tail_byte (show c.toNat / 64 % 64 < 64 by omega), hn]
    rw [if_neg (by omega), if_neg (by omega), if_neg (by omega), if_pos (by omega), if_pos (by omega)]
  · have hv : (Json.byte (c.toNat / 262144 % 8 + 240)).val = c.toNat / 262144 % 8 + 240 := by rw [Json.byte_val]; omega
    have hn : (c.toNat / 262144 % 8 + 240 - 240) * 262144 + c.toNat / 4096 % 64 * 4096 + c.toNat / 64 % 64 * 64 + c.toNat % 64 = c.toNat := by omega
    simp only [List.cons_append, List.nil_append, utf8Char, hv, Json.tail_byte (show c.toNat % 64 < 64 by omega), Json.tail_byte (show c.toNat / 64 % 64 < 64 by omega),
      Json.tail_byte (show c.toNat / 4096 % 64 < 64 by omega), hn]
    rw [if_neg (by omega), if_neg (by omega), if_neg (by omega), if_neg (by omega), if_pos (by omega), if_pos (by omega)]

theorem agree_utf8 (fuel : Nat) : ∀ (b : List (Fin 256)) (s : List Char), Json.utf8 fuel b = some s → utf8 fuel b = some (points s) := by
  induction fuel with
  | zero =>
    intro b s h
    rw [Json.utf8] at h
    rw [utf8]
    split_ifs at h ⊢
    obtain rfl := Option.some.inj h
    rfl
  | succ n ih =>
    intro b s h
    rw [Json.utf8] at h
    rw [utf8]
    split_ifs at h ⊢
    · obtain rfl := Option.some.inj h
      rfl
    · split at h
      · rename_i c r hc
        rw [agree_utf8Char hc]
        obtain ⟨t, ht, rfl⟩ := Option.map_eq_some_iff.1 h
        simp only [ih r t ht, Option.map_some]
        rfl
      · cases h

theorem toNat_ofNat {n : Nat} (h : n.isValidChar) : (Char.ofNat n).toNat = n := Json.ofNat_toNat_valid h

theorem agree_utf16 (l : List Nat) : ∀ s, Json.utf16 l = some s → utf16 l = points s := by
  induction l using Json.utf16.induct with
  | case1 =>
    intro s h
    obtain rfl := Option.some.inj h
    rfl
  | case2 n =>
    intro s h
    rw [Json.utf16] at h
    obtain ⟨c, hc, rfl⟩ := Option.map_eq_some_iff.1 h
    rw [utf16]
    simp [points, (Json.point_sound hc).1]
  | case3 n m r h1 h2 ih =>
    intro s h
    rw [Json.utf16, if_pos h1, if_pos h2] at h
    obtain ⟨t, ht, rfl⟩ := Option.map_eq_some_iff.1 h
    have e1 : high n = true := (high_iff n).2 h1
    have e2 : low m = true := (low_iff m).2 h2
    rw [utf16, e1, e2, if_pos (by rfl), ih t ht]
    have : (Char.ofNat (65536 + (n - 55296) * 1024 + (m - 56320))).toNat = join n m := by
      rw [join_eq, toNat_ofNat (.inr (by omega))]
    simp only [points, List.map_cons, this]
  | case4 n m r h1 h2 =>
    intro s h
    rw [Json.utf16, if_pos h1, if_neg h2] at h
    cases h
  | case5 n m r h1 c hc ih =>
    intro s h
    rw [Json.utf16, if_neg h1, hc] at h
    obtain ⟨t, ht, rfl⟩ := Option.map_eq_some_iff.1 h
    have e1 : high n = false := by
      rw [Bool.eq_false_iff]
      intro e
      exact h1 ((high_iff n).1 e)
    rw [utf16, e1, Bool.false_and, if_neg (by decide), ih t ht]
    simp [points, (Json.point_sound hc).1]
  | case6 n m r h1 hc =>
    intro s h
    rw [Json.utf16, if_neg h1, hc] at h
    cases h

theorem valid_lt {n : Nat} (h : n.isValidChar) : n < 1114112 := by
  rcases h with h | h
  · omega
  · exact h.2

theorem agree_utf32 (big : Bool) : ∀ (k : Nat) (b : List (Fin 256)), b.length ≤ k → ∀ s, Json.utf32 big b = some s → utf32 big b = some (points s)
  | _, [], _, s, h => by
    obtain rfl := Option.some.inj h
    rfl
  | k + 1, a :: b :: c :: d :: r, hk, s, h => by
    simp only [List.length_cons] at hk
    rw [Json.utf32] at h
    rw [utf32]
    generalize (if big = true then ((a.val * 256 + b.val) * 256 + c.val) * 256 + d.val else ((d.val * 256 + c.val) * 256 + b.val) * 256 + a.val) = n at h ⊢
    split at h
    · rename_i x hx
      obtain ⟨t, ht, rfl⟩ := Option.map_eq_some_iff.1 h
      obtain ⟨e, hv⟩ := Json.point_sound hx
      rw [if_pos (valid_lt hv), agree_utf32 big k r (by omega) t ht]
      simp [points, e]
    · cases h
  | _, [_], _, _, h => by simp [Json.utf32] at h
  | _, [_, _], _, _, h => by simp [Json.utf32] at h
  | _, [_, _, _], _, _, h => by simp [Json.utf32] at h
  | 0, _ :: _ :: _ :: _ :: _, hk, _, _ => by simp at hk

theorem agree_decode {b : List (Fin 256)} {s : List Char} (h : Json.decode b = .ok s) : decode b = some (points s) := by
  unfold Json.decode at h
  split at h
  · rename_i t ht
    obtain rfl := Except.ok.inj h
    unfold decode
    revert ht
    generalize (Json.detect b).1 = e
    generalize (Json.detect b).2 = b
    intro ht
    cases e with
    | utf8 => exact agree_utf8 _ _ _ ht
    | utf16 big =>
      simp only [Json.decodeAs] at ht
      simp only [decodeAs]
      cases hp : Json.pairs big b with
      | none => rw [hp] at ht; cases ht
      | some l =>
        rw [hp, Option.bind_some] at ht
        rw [Option.map_some, agree_utf16 _ _ ht]
    | utf32 big => exact agree_utf32 _ _ _ (Nat.le_refl _) _ ht
  · cases h

theorem toNat_eq (c d : Char) : c.toNat = d.toNat ↔ c = d := Char.toNat_inj

theorem agree_hexVal (c : Char) : hexVal c.toNat = Json.hexVal c := rfl

theorem hexVal_lt {c n : Nat} (h : hexVal c = some n) : n < 16 := by
  unfold hexVal at h
  split_ifs at h <;> (obtain rfl := Option.some.inj h; omega)

theorem readHex4_lt {s r : List Nat} {n : Nat} (h : readHex4 s = some (n, r)) : n < 65536 := by
  unfold readHex4 at h
  split at h
  · split at h
    · rename_i ha hb hc hd
      have := hexVal_lt ha
      have := hexVal_lt hb
      have := hexVal_lt hc
      have := hexVal_lt hd
      simp only [Option.some.injEq, Prod.mk.injEq] at h
      omega
    · cases h
  · cases h

theorem agree_readHex4 {s r : List Char} {n : Nat} (h : Json.readHex4 s = some (n, r)) : readHex4 (points s) = some (n, points r) := by
  unfold Json.readHex4 at h
  split at h
  · rename_i a b c d r0
    split at h
    · rename_i a' b' c' d' ha hb hc hd
      simp only [Option.some.injEq, Prod.mk.injEq] at h
      obtain ⟨rfl, rfl⟩ := h
      simp only [points, List.map_cons, readHex4, agree_hexVal, ha, hb, hc, hd]
    · cases h
  · cases h

theorem agree_readChar {s r : List Char} {c : Char} (h : Json.readChar s = some (c, r)) : readChar (points s) = some (c.toNat, points r) := by
  unfold Json.readChar at h
  split at h
  · cases h
  · rename_i x s
    simp only [points, List.map_cons, readChar]
    by_cases hx : x = '\\'
    · subst hx
      rw [if_pos rfl] at h
      rw [if_pos (show '\\'.toNat = 92 from rfl)]
      unfold Json.readEscape at h
      split at h
      · cases h
      · rename_i y s
        simp only [List.map_cons, readEscape]
        by_cases hu : y = 'u'
        · subst hu
          rw [if_pos rfl] at h
          rw [if_pos (show 'u'.toNat = 117 from rfl)]
          split at h
          · rename_i n r' hr
            have hr' := agree_readHex4 hr
            rw [points] at hr'
            rw [hr']
            simp only
            split_ifs at h with h1 h2
            · rw [if_pos ((high_iff n).2 h1)]
              unfold Json.readLow at h
              split at h
              · rename_i r''
                split at h
                · rename_i m r3 hm
                  split_ifs at h with h3
                  simp only [Option.some.injEq, Prod.mk.injEq] at h
                  obtain ⟨rfl, rfl⟩ := h
                  have hm' := agree_readHex4 hm
                  rw [points] at hm'
                  have e2 : low m = true := (low_iff m).2 h3
                  have ej : (Char.ofNat (65536 + (n - 55296) * 1024 + (m - 56320))).toNat = join n m := by
                    rw [join_eq, toNat_ofNat (.inr (by omega))]
                  have q1 : '\\'.toNat = 92 := rfl
                  have q2 : 'u'.toNat = 117 := rfl
                  simp only [points, List.map_cons, readLow, q1, q2, and_self, if_true, hm', e2, ej]
                · cases h
              · cases h
            · rw [if_neg (by rw [high_iff]; exact h1)]
              simp only [Option.some.injEq, Prod.mk.injEq] at h
              obtain ⟨rfl, rfl⟩ := h
              have hb : n < 65536 := readHex4_lt hr'
              rw [toNat_ofNat]
              · rfl
              · by_cases n < 55296
                · exact .inl (by omega)
                · exact .inr (by omega)
          · cases h
        · rw [if_neg hu] at h
          have key : ∀ d : Char, y.toNat = d.toNat ↔ y = d := fun d => toNat_eq y d
          rw [if_neg (show ¬ y.toNat = 117 from fun e => hu ((key 'u').1 e))]
          split_ifs at h <;> (cases h; subst_vars; rfl)
    · rw [if_neg hx] at h
      rw [if_neg (show ¬ x.toNat = 92 from fun e => hx ((toNat_eq x '\\').1 e))]
      split_ifs at h ⊢
      simp only [Option.some.injEq, Prod.mk.injEq] at h
      obtain ⟨rfl, rfl⟩ := h
      rfl

theorem agree_readStr (fuel : Nat) : ∀ (s x r : List Char), Json.readStr fuel s = some (x, r) → readStr fuel (points s) = some (points x, points r) := by
  induction fuel with
  | zero =>
    intro s x r h
    cases h
  | succ n ih =>
    intro s x r h
    rw [Json.readStr.eq_def] at h
    simp only at h
    split at h
    · simp only [Option.some.injEq, Prod.mk.injEq] at h
      obtain ⟨rfl, rfl⟩ := h
      rfl
    · rename_i hq
      split at h
      · rename_i c r' hc
        obtain ⟨⟨y1, y2⟩, hy, e⟩ := Option.map_eq_some_iff.1 h
        simp only [Prod.mk.injEq] at e
        obtain ⟨rfl, rfl⟩ := e
        have h1 := agree_readChar hc
        have h2 := ih _ _ _ hy
        cases s with
        | nil => cases hc
        | cons a s =>
          have ha : ¬ a.toNat = 34 := by
            intro e
            have : a = '"' := (toNat_eq a '"').1 e
            subst this
            exact hq s rfl
          simp only [points, List.map_cons] at h1 ⊢
          rw [readStr, if_neg ha, h1]
          simp only
          rw [← points, h2]
          rfl
      · cases h

theorem agree_skip (s : List Char) : skip (points s) = points (Json.skip s) := by
  induction s with
  | nil => rfl
  | cons c s ih =>
    have e : ∀ d : Char, (c.toNat == d.toNat) = (c == d) := by
      intro d
      rw [Bool.eq_iff_iff, beq_iff_eq, beq_iff_eq]
      exact toNat_eq c d
    have e' : (c.toNat == 32 || c.toNat == 9 || c.toNat == 10 || c.toNat == 13) = (c == ' ' || c == '\t' || c == '\n' || c == '\r') := by
      rw [← e ' ', ← e '\t', ← e '\n', ← e '\r']; rfl
    simp only [skip, Json.skip, points, List.map_cons, List.dropWhile_cons] at ih ⊢
    rw [e']
    split_ifs
    · exact ih
    · rfl

/-- C115: what is read as a string in the model of C104, from any bytes, is read as the same code points here. -/
theorem C115_agree {F : Type} (read : List Char → F) (b : List (Fin 256)) (s x : List Char) (h1 : Json.decode b = .ok s) (h2 : Json.loads read s = .ok (.str x)) :
    (decode b).bind loads = some (points x) := by
  rw [agree_decode h1, Option.bind_some]
  unfold Json.loads at h2
  split at h2
  · rename_i d r hd
    split_ifs at h2 with hr
    obtain rfl := Except.ok.inj h2
    unfold loads
    rw [agree_skip]
    generalize hs : Json.skip s = t at hd
    rw [Json.readDoc.eq_def] at hd
    simp only at hd
    split at hd
    · rename_i r0
      obtain ⟨⟨y1, y2⟩, hy, e⟩ := Option.map_eq_some_iff.1 hd
      simp only [Prod.mk.injEq, Json.Doc.str.injEq] at e
      obtain ⟨rfl, rfl⟩ := e
      have := agree_readStr _ _ _ _ hy
      have hq : '"'.toNat = 34 := rfl
      simp only [points, List.map_cons, hq, if_true]
      rw [List.length_map, ← points, this]
      simp only
      rw [agree_skip, hr]
      rfl
    · split at hd
      · simp at hd
      · simp at hd
    · split at hd
      · simp at hd
      · simp at hd
    · simp at hd
    · simp at hd
    · simp at hd
    · simp at hd
    · simp at hd
    · simp at hd
    · unfold Json.readNumber at hd
      split at hd
      · cases hd
      · simp only at hd
        split_ifs at hd
        · split at hd <;> simp at hd
        · simp at hd
  · cases h2

/-! ### Cases that meet the hypotheses -/

/-- The face U+1F600 as Python has it, as a pair of surrogates, and a surrogate alone. -/
example : PyStr [0x1F600, 0xD83D, 65] ∧ ¬ Pair [0x1F600, 0xD83D, 65] ∧ PyStr [0xD83D, 0xDE00] ∧ Pair [0xD83D, 0xDE00] := by
  refine ⟨by unfold PyStr; decide, ?_, by unfold PyStr; decide, [], 0xD83D, 0xDE00, [], rfl, by omega, by omega⟩
  intro h
  rcases pair_cons h with h | ⟨_, _, e, h, -⟩
  · rcases pair_cons h with h | ⟨_, _, e, -, h⟩
    · obtain ⟨a, x, y, b, e, -⟩ := h
      have := congrArg List.length e
      simp at this
      omega
    · simp only [List.cons.injEq] at e
      obtain ⟨rfl, -⟩ := e
      exact absurd h (by decide)
  · exact absurd h (by decide)

example : quote [0x1F600] = quote [0xD83D, 0xDE00] ∧ loads (quote [0xD83D, 0xDE00]) = some [0x1F600] := by decide +kernel

example : Unpacks id .ok := fun _ => rfl

/-- A newline in a text that is not escaped; a text cut off. -/
example : PyStr [65] ∧ loads [34, 65, 10, 34] = none ∧ ofString .ok "0IkE=".toList = .error .malformedBlueprintString := by
  refine ⟨by unfold PyStr; decide, by decide +kernel, rfl⟩

/-- A blueprint string with a surrogate: `0Iu2ggCI=`. -/
example : Json.b64decode ("0Iu2ggCI=".toList.drop 1) = .ok (lone 0xD800) := rfl

example : Json.decode [34, 195, 169, 34] = .ok ['"', 'é', '"'] ∧ ∃ F, ∃ read : List Char → F, Json.loads read ['"', 'é', '"'] = .ok (.str ['é']) :=
  ⟨rfl, Unit, fun _ => (), rfl⟩

end JsonStr
end Draftsman
