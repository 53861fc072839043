import Verif.Props.JsonText
/-
C104: which bytes and which blueprint strings are read.  The encodings of Unicode are stated here on their own; that of UTF-8 is the one of Lean's library.
-/
namespace Draftsman
namespace Json

variable {F : Type}

/-! ### The encodings -/

/-- The units of a character in UTF-16: its number, or two surrogates. -/
def units (c : Char) : List Nat :=
  if c.toNat < 0x10000 then [c.toNat] else [0xD800 + (c.toNat - 0x10000) / 0x400, 0xDC00 + (c.toNat - 0x10000) % 0x400]

/-- `n` bytes of a number, the high byte first. -/
def bytesOf : (n : Nat) → Nat → List (Fin 256)
  | 0, _ => []
  | n + 1, v => bytesOf n (v / 256) ++ [Fin.ofNat 256 v]

/-- `n` bytes of a number in the given order. -/
def inOrder (big : Bool) (n v : Nat) : List (Fin 256) := if big then bytesOf n v else (bytesOf n v).reverse

/-- The bytes of a character. -/
def charAs : Enc → Char → List (Fin 256)
  | .utf8, c => (String.utf8EncodeChar c).map fun u => ⟨u.toNat, u.toNat_lt⟩
  | .utf16 big, c => (units c).flatMap (inOrder big 2)
  | .utf32 big, c => inOrder big 4 c.toNat

/-- The bytes of a text. -/
def encodeAs (e : Enc) (s : List Char) : List (Fin 256) := s.flatMap (charAs e)

/-- The mark of the order of bytes, the character U+FEFF, which may stand before a text. -/
def mark (e : Enc) : List (Fin 256) := charAs e '\uFEFF'

/-- The bytes are those of the text in one of the encodings, with a mark or without. -/
def Encodes (b : List (Fin 256)) (s : List Char) : Prop := ∃ e, b = encodeAs e s ∨ b = mark e ++ encodeAs e s

/-! ### Decoding -/

theorem point_toNat (c : Char) : point c.toNat = some c := by
  rw [point, if_pos (show c.toNat.isValidChar from c.valid), Char.ofNat_toNat]

theorem point_sound {n : Nat} {c : Char} (h : point n = some c) : c.toNat = n ∧ n.isValidChar := by
  unfold point at h
  split_ifs at h with hv
  obtain rfl := Option.some.inj h
  exact ⟨ofNat_toNat_valid hv, hv⟩

theorem byte_val (n : Nat) : (byte n).val = n % 256 := rfl

/-- UTF-8 with the divisions written out. -/
theorem charAs_utf8 (c : Char) : charAs .utf8 c =
    if c.toNat ≤ 127 then [byte c.toNat]
    else if c.toNat ≤ 2047 then [byte (c.toNat / 64 % 32 + 192), byte (c.toNat % 64 + 128)]
    else if c.toNat ≤ 65535 then [byte (c.toNat / 4096 % 16 + 224), byte (c.toNat / 64 % 64 + 128), byte (c.toNat % 64 + 128)]
    else [byte (c.toNat / 262144 % 8 + 240), byte (c.toNat / 4096 % 64 + 128), byte (c.toNat / 64 % 64 + 128), byte (c.toNat % 64 + 128)] := by
  simp only [charAs, String.utf8EncodeChar]
  have h : c.val.toNat = c.toNat := rfl
  rw [h]
  split_ifs <;> rfl

theorem char_lt (c : Char) : c.toNat < 1114112 := by
  rcases c.valid with h | h
  · have : c.toNat < 55296 := h
    omega
  · exact h.2

theorem tail_byte {n : Nat} (h : n < 64) : tail (byte (n + 128)) = some n := by
  have : (byte (n + 128)).val = n + 128 := by rw [byte_val]; omega
  rw [tail, this, if_pos (by omega), Nat.add_sub_cancel]

theorem tail_sound {x : Fin 256} {n : Nat} (h : tail x = some n) : n < 64 ∧ x = byte (n + 128) := by
  unfold tail at h
  split_ifs at h with hx
  obtain rfl := Option.some.inj h
  refine ⟨by omega, Fin.ext ?_⟩
  rw [byte_val]
  omega

theorem utf8Char_text (c : Char) (r : List (Fin 256)) : utf8Char (charAs .utf8 c ++ r) = some (c, r) := by
  have hc := char_lt c
  rw [charAs_utf8]
  split_ifs with h1 h2 h3
  · exact utf8Char_ascii c (by omega) r
  · have hv : (byte (c.toNat / 64 % 32 + 192)).val = c.toNat / 64 % 32 + 192 := by rw [byte_val]; omega
    have hn : (c.toNat / 64 % 32 + 192 - 192) * 64 + c.toNat % 64 = c.toNat := by omega
    simp only [List.cons_append, List.nil_append, utf8Char, hv, tail_byte (show c.toNat % 64 < 64 by omega), hn, point_toNat]
    rw [if_neg (by omega), if_neg (by omega), if_pos (by omega), if_pos (by omega)]
    rfl
  · have hv : (byte (c.toNat / 4096 % 16 + 224)).val = c.toNat / 4096 % 16 + 224 := by rw [byte_val]; omega
    have hn : (c.toNat / 4096 % 16 + 224 - 224) * 4096 + c.toNat / 64 % 64 * 64 + c.toNat % 64 = c.toNat := by omega
    simp only [List.cons_append, List.nil_append, utf8Char, hv, tail_byte (show c.toNat % 64 < 64 by omega), tail_byte (show c.toNat / 64 % 64 < 64 by omega), hn, point_toNat]
    rw [if_neg (by omega), if_neg (by omega), if_neg (by omega), if_pos (by omega), if_pos (by omega)]
    rfl
  · have hv : (byte (c.toNat / 262144 % 8 + 240)).val = c.toNat / 262144 % 8 + 240 := by rw [byte_val]; omega
    have hn : (c.toNat / 262144 % 8 + 240 - 240) * 262144 + c.toNat / 4096 % 64 * 4096 + c.toNat / 64 % 64 * 64 + c.toNat % 64 = c.toNat := by omega
    simp only [List.cons_append, List.nil_append, utf8Char, hv, tail_byte (show c.toNat % 64 < 64 by omega), tail_byte (show c.toNat / 64 % 64 < 64 by omega),
      tail_byte (show c.toNat / 4096 % 64 < 64 by omega), hn, point_toNat]
    rw [if_neg (by omega), if_neg (by omega), if_neg (by omega), if_neg (by omega), if_pos (by omega), if_pos (by omega)]
    rfl

theorem utf8Char_sound {b r : List (Fin 256)} {c : Char} (h : utf8Char b = some (c, r)) : b = charAs .utf8 c ++ r := by
  unfold utf8Char at h
  rw [charAs_utf8]
  split at h
  · cases h
  · rename_i a r0
    have ha := a.isLt
    split_ifs at h with h1 h2 h3 h4 h5
    · simp only [Option.some.injEq, Prod.mk.injEq] at h
      obtain ⟨rfl, rfl⟩ := h
      rw [ofNat_toNat_valid (.inl (by omega)), if_pos (by omega)]
      rw [show byte a.val = a from Fin.ext (by rw [byte_val]; omega)]
      rfl
    · split at h
      · rename_i b' r1
        split at h
        · rename_i b hb
          obtain ⟨hb1, rfl⟩ := tail_sound hb
          split_ifs at h with hm
          obtain ⟨x, hx, he⟩ := Option.map_eq_some_iff.1 h
          simp only [Prod.mk.injEq] at he
          obtain ⟨rfl, rfl⟩ := he
          have hp := (point_sound hx).1
          rw [if_neg (by omega), if_pos (by omega)]
          rw [show byte (x.toNat / 64 % 32 + 192) = a from Fin.ext (by rw [byte_val]; omega), show x.toNat % 64 + 128 = b + 128 by omega]
          rfl
        · cases h
      · cases h
    · split at h
      · rename_i b' c' r1
        split at h
        · rename_i b c hb hc
          obtain ⟨hb1, rfl⟩ := tail_sound hb
          obtain ⟨hc1, rfl⟩ := tail_sound hc
          split_ifs at h with hm
          obtain ⟨x, hx, he⟩ := Option.map_eq_some_iff.1 h
          simp only [Prod.mk.injEq] at he
          obtain ⟨rfl, rfl⟩ := he
          have hp := (point_sound hx).1
          rw [if_neg (by omega), if_neg (by omega), if_pos (by omega)]
          rw [show byte (x.toNat / 4096 % 16 + 224) = a from Fin.ext (by rw [byte_val]; omega), show x.toNat / 64 % 64 + 128 = b + 128 by omega,
            show x.toNat % 64 + 128 = c + 128 by omega]
          rfl
        · cases h
      · cases h
    · split at h
      · rename_i b' c' d' r1
        split at h
        · rename_i b c d hb hc hd
          obtain ⟨hb1, rfl⟩ := tail_sound hb
          obtain ⟨hc1, rfl⟩ := tail_sound hc
          obtain ⟨hd1, rfl⟩ := tail_sound hd
          split_ifs at h with hm
          obtain ⟨x, hx, he⟩ := Option.map_eq_some_iff.1 h
          simp only [Prod.mk.injEq] at he
          obtain ⟨rfl, rfl⟩ := he
          have hp := (point_sound hx).1
          rw [if_neg (by omega), if_neg (by omega), if_neg (by omega)]
          rw [show byte (x.toNat / 262144 % 8 + 240) = a from Fin.ext (by rw [byte_val]; omega), show x.toNat / 4096 % 64 + 128 = b + 128 by omega,
            show x.toNat / 64 % 64 + 128 = c + 128 by omega, show x.toNat % 64 + 128 = d + 128 by omega]
          rfl
        · cases h
      · cases h

theorem utf8_iff (fuel : Nat) (b : List (Fin 256)) (hf : b.length ≤ fuel) (s : List Char) : utf8 fuel b = some s ↔ b = encodeAs .utf8 s := by
  have ne : ∀ c, charAs .utf8 c ≠ [] := by
    intro c
    rw [charAs_utf8]
    split_ifs <;> simp
  induction fuel generalizing b s with
  | zero =>
    obtain rfl := List.length_eq_zero_iff.1 (Nat.le_zero.1 hf)
    rw [utf8, if_pos rfl]
    constructor
    · intro h; obtain rfl := Option.some.inj h; rfl
    · intro h
      cases s with
      | nil => rfl
      | cons c s => exact absurd (List.append_eq_nil_iff.1 h.symm).1 (ne c)
  | succ n ih =>
    rw [utf8]
    by_cases hb : b = []
    · rw [if_pos hb]
      subst hb
      constructor
      · intro h; obtain rfl := Option.some.inj h; rfl
      · intro h
        cases s with
        | nil => rfl
        | cons c s => exact absurd (List.append_eq_nil_iff.1 h.symm).1 (ne c)
    · rw [if_neg hb]
      have len : ∀ c, 0 < (charAs .utf8 c).length := fun c => List.length_pos_iff.2 (ne c)
      constructor
      · intro h
        split at h
        · rename_i c r hc
          have := utf8Char_sound hc
          subst this
          obtain ⟨s', hs, rfl⟩ := Option.map_eq_some_iff.1 h
          have hl := len c
          rw [(ih r (by rw [List.length_append] at hf; omega) s').1 hs]
          rfl
        · cases h
      · intro h
        cases s with
        | nil => exact absurd h hb
        | cons c s =>
          subst h
          have he : encodeAs .utf8 (c :: s) = charAs .utf8 c ++ encodeAs .utf8 s := rfl
          rw [he] at hf ⊢
          rw [utf8Char_text]
          have hl := len c
          simp only
          rw [(ih _ (by rw [List.length_append] at hf; omega) s).2 rfl]
          rfl

theorem pairs_iff (big : Bool) (b : List (Fin 256)) (u : List Nat) : pairs big b = some u ↔ b = u.flatMap (inOrder big 2) ∧ ∀ n ∈ u, n < 65536 := by
  induction b using pairs.induct generalizing u with
  | case1 =>
    rw [pairs]
    constructor
    · intro h; obtain rfl := Option.some.inj h; simp
    · rintro ⟨h, -⟩
      cases u with
      | nil => rfl
      | cons n u => cases big <;> cases h
  | case2 a =>
    rw [pairs]
    refine ⟨nofun, ?_⟩
    rintro ⟨h, -⟩
    cases u with
    | nil => cases h
    | cons n u => cases big <;> cases h
  | case3 a b r ih =>
    have ha := a.isLt
    have hb := b.isLt
    rw [pairs]
    constructor
    · intro h
      obtain ⟨u', hu, rfl⟩ := Option.map_eq_some_iff.1 h
      obtain ⟨rfl, hl⟩ := (ih u').1 hu
      refine ⟨?_, ?_⟩
      · rw [List.flatMap_cons]
        cases big
        · simp only [Bool.false_eq_true, if_false, inOrder, bytesOf, List.nil_append, List.reverse_cons, List.reverse_nil, List.cons_append]
          congr 1
          · exact Fin.ext (by simp only [Fin.ofNat]; omega)
          · congr 1
            exact Fin.ext (by simp only [Fin.ofNat]; omega)
        · simp only [if_true, inOrder, bytesOf, List.nil_append, List.cons_append]
          congr 1
          · exact Fin.ext (by simp only [Fin.ofNat]; omega)
          · congr 1
            exact Fin.ext (by simp only [Fin.ofNat]; omega)
      · intro n hn
        rcases List.mem_cons.1 hn with rfl | hn
        · cases big
          · simp only [Bool.false_eq_true, if_false]; omega
          · simp only [if_true]; omega
        · exact hl n hn
    · rintro ⟨h, hl⟩
      cases u with
      | nil => cases h
      | cons n u =>
        have hn := hl n (by simp)
        have hr : r = u.flatMap (inOrder big 2) ∧ (if big = true then a.val * 256 + b.val else b.val * 256 + a.val) = n := by
          rw [List.flatMap_cons] at h
          cases big
          · simp only [Bool.false_eq_true, if_false, inOrder, bytesOf, List.nil_append, List.reverse_cons, List.reverse_nil, List.cons_append,
              List.cons.injEq] at h ⊢
            obtain ⟨rfl, rfl, h⟩ := h
            refine ⟨h, ?_⟩
            simp only [Fin.ofNat]
            omega
          · simp only [if_true, inOrder, bytesOf, List.nil_append, List.cons_append, List.cons.injEq] at h ⊢
            obtain ⟨rfl, rfl, h⟩ := h
            refine ⟨h, ?_⟩
            simp only [Fin.ofNat]
            omega
        rw [(ih u).2 ⟨hr.1, fun n hn => hl n (by simp [hn])⟩, hr.2]
        rfl

theorem units_lt (c : Char) : ∀ n ∈ units c, n < 65536 := by
  have := char_lt c
  unfold units
  split_ifs <;> simp <;> omega

theorem utf16_iff (u : List Nat) (hu : ∀ n ∈ u, n < 65536) (s : List Char) : utf16 u = some s ↔ u = s.flatMap units := by
  have short : ∀ {c : Char}, c.toNat < 65536 → units c = [c.toNat] := fun h => by rw [units, if_pos h]
  have long : ∀ {c : Char}, ¬ c.toNat < 65536 → units c = [55296 + (c.toNat - 65536) / 1024, 56320 + (c.toNat - 65536) % 1024] := fun h => by rw [units, if_neg h]
  have valid : ∀ c : Char, c.toNat < 55296 ∨ 57343 < c.toNat := fun c => c.valid.imp id And.left
  generalize hk : u.length = k
  induction k using Nat.strongRecOn generalizing u s with
  | ind k ih =>
    match u with
    | [] =>
      rw [utf16]
      constructor
      · intro h; obtain rfl := Option.some.inj h; rfl
      · intro h
        cases s with
        | nil => rfl
        | cons c s =>
          rw [List.flatMap_cons] at h
          by_cases hc : c.toNat < 65536
          · rw [short hc] at h; cases h
          · rw [long hc] at h; cases h
    | [n] =>
      rw [utf16]
      constructor
      · intro h
        obtain ⟨c, hc, rfl⟩ := Option.map_eq_some_iff.1 h
        have := (point_sound hc).1
        have hn := hu n (by simp)
        rw [List.flatMap_cons, short (by omega), this]
        rfl
      · intro h
        cases s with
        | nil => cases h
        | cons c s =>
          rw [List.flatMap_cons] at h
          by_cases hc : c.toNat < 65536
          · rw [short hc] at h
            simp only [List.cons_append, List.nil_append, List.cons.injEq] at h
            obtain ⟨rfl, h⟩ := h
            rw [point_toNat]
            cases s with
            | nil => rfl
            | cons d s =>
              rw [List.flatMap_cons] at h
              by_cases hd : d.toNat < 65536
              · rw [short hd] at h; cases h
              · rw [long hd] at h; cases h
          · rw [long hc] at h; cases h
    | n :: m :: r =>
      have hn := hu n (by simp)
      have hm := hu m (by simp)
      rw [utf16]
      constructor
      · intro h
        split_ifs at h with h1 h2
        · obtain ⟨s', hs, rfl⟩ := Option.map_eq_some_iff.1 h
          have := (ih r.length (by subst hk; simp only [List.length_cons]; omega) r (fun n hn => hu n (by simp [hn])) s' rfl).1 hs
          have hv : (Char.ofNat (65536 + (n - 55296) * 1024 + (m - 56320))).toNat = 65536 + (n - 55296) * 1024 + (m - 56320) := ofNat_toNat_valid (.inr (by omega))
          rw [List.flatMap_cons, long (by omega), hv, this]
          simp only [List.cons_append, List.nil_append, List.cons.injEq, and_true]
          omega
        · split at h
          · rename_i c hc
            have hp := (point_sound hc).1
            obtain ⟨s', hs, rfl⟩ := Option.map_eq_some_iff.1 h
            have := (ih (m :: r).length (by subst hk; simp only [List.length_cons]; omega) (m :: r) (fun n hn => hu n (by simp [hn])) s' rfl).1 hs
            rw [List.flatMap_cons, short (by omega), ← this, hp]
            rfl
          · cases h
      · intro h
        cases s with
        | nil => cases h
        | cons c s =>
          have hv := valid c
          have hcl := char_lt c
          rw [List.flatMap_cons] at h
          by_cases hc : c.toNat < 65536
          · rw [short hc] at h
            simp only [List.cons_append, List.nil_append, List.cons.injEq] at h
            obtain ⟨rfl, h⟩ := h
            rw [if_neg (by omega), point_toNat]
            simp only
            rw [(ih (m :: r).length (by subst hk; simp only [List.length_cons]; omega) (m :: r) (fun n hn => hu n (by simp [hn])) s rfl).2 h]
            rfl
          · rw [long hc] at h
            simp only [List.cons_append, List.nil_append, List.cons.injEq] at h
            obtain ⟨h1, h2, h⟩ := h
            rw [if_pos (by omega), if_pos (by omega)]
            rw [(ih r.length (by subst hk; simp only [List.length_cons]; omega) r (fun n hn => hu n (by simp [hn])) s rfl).2 h]
            rw [show 65536 + (n - 55296) * 1024 + (m - 56320) = c.toNat by omega, Char.ofNat_toNat]
            rfl

theorem inOrder4 (big : Bool) (v : Nat) : inOrder big 4 v = if big then [byte (v / 16777216), byte (v / 65536), byte (v / 256), byte v]
    else [byte v, byte (v / 256), byte (v / 65536), byte (v / 16777216)] := by
  have h1 : v / 256 / 256 = v / 65536 := by omega
  have h2 : v / 65536 / 256 = v / 16777216 := by omega
  cases big
  · simp only [inOrder, bytesOf, h1, h2]
    rfl
  · simp only [inOrder, bytesOf, h1, h2]
    rfl

theorem utf32_iff (big : Bool) (b : List (Fin 256)) (s : List Char) : utf32 big b = some s ↔ b = encodeAs (.utf32 big) s := by
  have four : ∀ (c : Char) s, ∃ x y z w, encodeAs (.utf32 big) (c :: s) = x :: y :: z :: w :: encodeAs (.utf32 big) s ∧
      (if big then ((x.val * 256 + y.val) * 256 + z.val) * 256 + w.val else ((w.val * 256 + z.val) * 256 + y.val) * 256 + x.val) = c.toNat := by
    intro c s
    have hc := char_lt c
    rw [encodeAs, List.flatMap_cons]
    simp only [charAs, inOrder4]
    cases big
    · refine ⟨_, _, _, _, rfl, ?_⟩
      rw [if_neg (by decide), byte_val, byte_val, byte_val, byte_val]
      omega
    · refine ⟨_, _, _, _, rfl, ?_⟩
      rw [if_pos rfl, byte_val, byte_val, byte_val, byte_val]
      omega
  induction b using utf32.induct big generalizing s with
  | case1 =>
    rw [utf32]
    constructor
    · intro h; obtain rfl := Option.some.inj h; rfl
    · intro h
      cases s with
      | nil => rfl
      | cons c s => obtain ⟨x, y, z, w, he, -⟩ := four c s; rw [he] at h; cases h
  | case2 a b c d r x hx ih =>
    have ha := a.isLt
    have hb := b.isLt
    have hc := c.isLt
    have hd := d.isLt
    rw [utf32, hx]
    simp only
    have hp := (point_sound hx).1
    constructor
    · intro h
      obtain ⟨s', hs, rfl⟩ := Option.map_eq_some_iff.1 h
      rw [(ih s').1 hs]
      show _ = inOrder big 4 x.toNat ++ _
      rw [inOrder4, hp]
      cases big
      · simp only [Bool.false_eq_true, if_false, List.cons_append, List.nil_append]
        refine congr (congrArg _ (Fin.ext ?_)) (congr (congrArg _ (Fin.ext ?_)) (congr (congrArg _ (Fin.ext ?_)) (congr (congrArg _ (Fin.ext ?_)) rfl))) <;> rw [byte_val] <;> omega
      · simp only [if_true, List.cons_append, List.nil_append]
        refine congr (congrArg _ (Fin.ext ?_)) (congr (congrArg _ (Fin.ext ?_)) (congr (congrArg _ (Fin.ext ?_)) (congr (congrArg _ (Fin.ext ?_)) rfl))) <;> rw [byte_val] <;> omega
    · intro h
      cases s with
      | nil => cases h
      | cons y s =>
        obtain ⟨x', y', z', w', he, hv⟩ := four y s
        rw [he] at h
        simp only [List.cons.injEq] at h
        obtain ⟨rfl, rfl, rfl, rfl, hr⟩ := h
        rw [(ih s).2 hr, ← Char.ofNat_toNat x, ← Char.ofNat_toNat y, hp, ← hv]
        rfl
  | case3 a b c d r hx =>
    rw [utf32, hx]
    simp only
    refine ⟨nofun, fun h => ?_⟩
    cases s with
    | nil => cases h
    | cons y s =>
      obtain ⟨x', y', z', w', he, hv⟩ := four y s
      rw [he] at h
      simp only [List.cons.injEq] at h
      obtain ⟨rfl, rfl, rfl, rfl, hr⟩ := h
      rw [hv, point_toNat] at hx
      cases hx
  | case4 b h1 h2 =>
    have : utf32 big b = none := by
      unfold utf32
      split
      · exact absurd rfl h1
      · rename_i a b' c d r
        exact absurd rfl (h2 a b' c d r)
      · rfl
    rw [this]
    refine ⟨nofun, fun h => ?_⟩
    cases s with
    | nil => exact absurd h h1
    | cons y s =>
      obtain ⟨x', y', z', w', he, hv⟩ := four y s
      exact absurd (h.trans he) (h2 _ _ _ _ _)

/-- C104: in each encoding, a text is decoded from its own bytes and from no others. -/
theorem C104_decode (e : Enc) (b : List (Fin 256)) (s : List Char) : decodeAs e b = some s ↔ b = encodeAs e s := by
  cases e with
  | utf8 => exact utf8_iff _ _ (Nat.le_refl _) s
  | utf32 big => exact utf32_iff big b s
  | utf16 big =>
    have hl : ∀ n ∈ s.flatMap units, n < 65536 := by
      intro n hn
      obtain ⟨c, -, hc⟩ := List.mem_flatMap.1 hn
      exact units_lt c n hc
    have he : encodeAs (.utf16 big) s = (s.flatMap units).flatMap (inOrder big 2) := by
      rw [encodeAs, List.flatMap_assoc]
      rfl
    rw [he]
    constructor
    · intro h
      obtain ⟨u, h1, h2⟩ := Option.bind_eq_some_iff.1 h
      obtain ⟨rfl, hu⟩ := (pairs_iff big b u).1 h1
      rw [(utf16_iff u hu s).1 h2]
    · intro h
      exact Option.bind_eq_some_iff.2 ⟨_, (pairs_iff big b _).2 ⟨h, hl⟩, (utf16_iff _ hl s).2 rfl⟩

/-! ### Telling the encodings apart -/

theorem blank_nonzero {s : List Char} (h : IsBlank s) : ∀ c ∈ s, c.toNat ≠ 0 := by
  intro c hc
  rcases h c hc with rfl | rfl | rfl | rfl <;> decide

theorem hexIs_nonzero {c : Char} {n : Nat} (h : HexIs c n) : c.toNat ≠ 0 := by
  have all : ∀ c ∈ "0123456789abcdefABCDEF".toList, c.toNat ≠ 0 := by decide +kernel
  have sub1 : ∀ c ∈ "0123456789abcdef".toList, c ∈ "0123456789abcdefABCDEF".toList := by decide +kernel
  have sub2 : ∀ c ∈ "0123456789ABCDEF".toList, c ∈ "0123456789abcdefABCDEF".toList := by decide +kernel
  rcases h with h | h
  · exact all c (sub1 c (List.mem_of_getElem? h))
  · exact all c (sub2 c (List.mem_of_getElem? h))

theorem hex4_nonzero {s : List Char} {n : Nat} (h : Hex4Is s n) : ∀ c ∈ s, c.toNat ≠ 0 := by
  obtain ⟨a, b, c, d, i, j, k, l, rfl, ha, hb, hc, hd, -⟩ := h
  intro x hx
  simp only [List.mem_cons, List.not_mem_nil, or_false] at hx
  rcases hx with rfl | rfl | rfl | rfl
  exacts [hexIs_nonzero ha, hexIs_nonzero hb, hexIs_nonzero hc, hexIs_nonzero hd]

theorem charText_nonzero {x : Char} {s : List Char} (h : CharText x s) : ∀ c ∈ s, c.toNat ≠ 0 := by
  have cons : ∀ (a : Char) (r : List Char), a.toNat ≠ 0 → (∀ c ∈ r, c.toNat ≠ 0) → ∀ c ∈ a :: r, c.toNat ≠ 0 := by
    intro a r ha hr c hc
    rcases List.mem_cons.1 hc with rfl | hc
    · exact ha
    · exact hr c hc
  cases h with
  | plain h1 _ _ => exact cons _ _ (by omega) (fun _ h => nomatch h)
  | short e he =>
    have all : ∀ p ∈ shorts, p.1.toNat ≠ 0 := by decide +kernel
    exact cons _ _ (by decide) (cons _ _ (all _ he) (fun _ h => nomatch h))
  | hex t h => exact cons _ _ (by decide) (cons _ _ (by decide) (hex4_nonzero h))
  | pair t u n m ht hu =>
    refine cons _ _ (by decide) (cons _ _ (by decide) fun c hc => ?_)
    rcases List.mem_append.1 hc with hc | hc
    · exact hex4_nonzero ht c hc
    · exact cons _ _ (by decide) (cons _ _ (by decide) (hex4_nonzero hu)) c hc

theorem charsText_nonzero {x s : List Char} (h : CharsText x s) : ∀ c ∈ s, c.toNat ≠ 0 := by
  induction h with
  | nil => exact fun _ h => nomatch h
  | cons h1 _ ih =>
    intro c hc
    rcases List.mem_append.1 hc with hc | hc
    · exact charText_nonzero h1 c hc
    · exact ih c hc

/-- None of the characters is the one with the number zero. -/
def NoZero (s : List Char) : Prop := ∀ c ∈ s, c.toNat ≠ 0

theorem noZero_append {s t : List Char} : NoZero (s ++ t) ↔ NoZero s ∧ NoZero t := by
  simp only [NoZero, List.mem_append]
  exact ⟨fun h => ⟨fun c hc => h c (.inl hc), fun c hc => h c (.inr hc)⟩, fun h c hc => hc.elim (h.1 c) (h.2 c)⟩

theorem noZero_cons {a : Char} {t : List Char} : NoZero (a :: t) ↔ a.toNat ≠ 0 ∧ NoZero t := by
  simp only [NoZero, List.mem_cons, forall_eq_or_imp]

theorem noZero_nil : NoZero [] := fun _ h => nomatch h

theorem stringText_nonzero {x s : List Char} (h : StringText x s) : NoZero s := by
  obtain ⟨u, hu, rfl⟩ := h
  exact noZero_cons.2 ⟨by decide, noZero_append.2 ⟨charsText_nonzero hu, noZero_cons.2 ⟨by decide, noZero_nil⟩⟩⟩

theorem digits_nonzero {s : List Char} (h : Digits s) : NoZero s := by
  intro c hc
  have := h.2 c hc
  simp only [Digit] at this
  omega

theorem floatText_nonzero {s : List Char} (h : FloatText s) : NoZero s := by
  rcases h with ⟨sign, w, f, e, hs, hw, hf, he, -, rfl⟩ | rfl | rfl | rfl
  · refine noZero_append.2 ⟨noZero_append.2 ⟨noZero_append.2 ⟨?_, digits_nonzero hw.1⟩, ?_⟩, ?_⟩
    · rcases hs with rfl | rfl
      · exact noZero_nil
      · exact noZero_cons.2 ⟨by decide, noZero_nil⟩
    · rcases hf with rfl | ⟨d, hd, rfl⟩
      · exact noZero_nil
      · exact noZero_cons.2 ⟨by decide, digits_nonzero hd⟩
    · rcases he with rfl | ⟨x, sign, d, hx, hs, hd, rfl⟩
      · exact noZero_nil
      · refine noZero_cons.2 ⟨by rcases hx with rfl | rfl <;> decide, noZero_append.2 ⟨?_, digits_nonzero hd⟩⟩
        rcases hs with rfl | rfl | rfl
        · exact noZero_nil
        · exact noZero_cons.2 ⟨by decide, noZero_nil⟩
        · exact noZero_cons.2 ⟨by decide, noZero_nil⟩
  · unfold NoZero; decide +kernel
  · unfold NoZero; decide +kernel
  · unfold NoZero; decide +kernel

mutual
theorem text_nonzero {read : List Char → F} {d : Doc F} {s : List Char} (h : Text read d s) : NoZero s :=
  match h with
  | .null => by unfold NoZero; decide +kernel
  | .true => by unfold NoZero; decide +kernel
  | .false => by unfold NoZero; decide +kernel
  | .int h => by
    obtain ⟨w, hw, ⟨h1, -⟩ | ⟨h1, -⟩⟩ := h
    · rw [h1]; exact digits_nonzero hw.1
    · rw [h1]; exact noZero_cons.2 ⟨by decide, digits_nonzero hw.1⟩
  | .float h => floatText_nonzero h
  | .str h => stringText_nonzero h
  | .arrNil h => noZero_cons.2 ⟨by decide, noZero_append.2 ⟨blank_nonzero h, noZero_cons.2 ⟨by decide, noZero_nil⟩⟩⟩
  | .arr h => noZero_cons.2 ⟨by decide, noZero_append.2 ⟨items_nonzero h, noZero_cons.2 ⟨by decide, noZero_nil⟩⟩⟩
  | .objNil h => noZero_cons.2 ⟨by decide, noZero_append.2 ⟨blank_nonzero h, noZero_cons.2 ⟨by decide, noZero_nil⟩⟩⟩
  | .obj h => noZero_cons.2 ⟨by decide, noZero_append.2 ⟨members_nonzero h, noZero_cons.2 ⟨by decide, noZero_nil⟩⟩⟩
theorem items_nonzero {read : List Char → F} {l : List (Doc F)} {s : List Char} (h : Items read l s) : NoZero s :=
  match h with
  | .one h1 h2 h3 => noZero_append.2 ⟨blank_nonzero h1, noZero_append.2 ⟨text_nonzero h2, blank_nonzero h3⟩⟩
  | .more h1 h2 h3 h4 =>
    noZero_append.2 ⟨blank_nonzero h1, noZero_append.2 ⟨text_nonzero h2, noZero_append.2 ⟨blank_nonzero h3, noZero_cons.2 ⟨by decide, items_nonzero h4⟩⟩⟩⟩
theorem members_nonzero {read : List Char → F} {l : List (List Char × Doc F)} {s : List Char} (h : Members read l s) : NoZero s :=
  match h with
  | .one h1 h2 h3 h4 h5 h6 =>
    noZero_append.2 ⟨blank_nonzero h1, noZero_append.2 ⟨stringText_nonzero h2, noZero_append.2 ⟨blank_nonzero h3, noZero_cons.2 ⟨by decide,
      noZero_append.2 ⟨blank_nonzero h4, noZero_append.2 ⟨text_nonzero h5, blank_nonzero h6⟩⟩⟩⟩⟩⟩
  | .more h1 h2 h3 h4 h5 h6 h7 =>
    noZero_append.2 ⟨blank_nonzero h1, noZero_append.2 ⟨stringText_nonzero h2, noZero_append.2 ⟨blank_nonzero h3, noZero_cons.2 ⟨by decide,
      noZero_append.2 ⟨blank_nonzero h4, noZero_append.2 ⟨text_nonzero h5, noZero_append.2 ⟨blank_nonzero h6, noZero_cons.2 ⟨by decide, members_nonzero h7⟩⟩⟩⟩⟩⟩⟩⟩
end

/-- A JSON text begins with a character of ASCII, and none of its characters has the number zero. -/
theorem jsonText_start {read : List Char → F} {d : Doc F} {s : List Char} (h : JsonText read d s) :
    ∃ c r, s = c :: r ∧ 0 < c.toNat ∧ c.toNat < 128 ∧ NoZero r := by
  have hd : ∀ c : Char, Digit c → c.toNat < 128 := by intro c h; simp only [Digit] at h; omega
  have head : ∀ {d : Doc F} {t : List Char}, Text read d t → ∃ c r, t = c :: r ∧ c.toNat < 128 := by
    intro d t h
    have whole : ∀ w, Whole w → ∃ c r, w = c :: r ∧ c.toNat < 128 := by
      intro w hw
      cases w with
      | nil => exact absurd rfl hw.1.1
      | cons c w => exact ⟨c, w, rfl, hd c (hw.1.2 c (by simp))⟩
    cases h with
    | null => exact ⟨_, _, rfl, by decide⟩
    | true => exact ⟨_, _, rfl, by decide⟩
    | false => exact ⟨_, _, rfl, by decide⟩
    | int h =>
      obtain ⟨w, hw, ⟨h1, -⟩ | ⟨h1, -⟩⟩ := h
      · rw [h1]; exact whole w hw
      · rw [h1]; exact ⟨_, _, rfl, by decide⟩
    | float h =>
      rcases h with ⟨sign, w, f, e, hs, hw, -, -, -, rfl⟩ | rfl | rfl | rfl
      · rcases hs with rfl | rfl
        · obtain ⟨c, r, rfl, h⟩ := whole w hw
          exact ⟨c, _, rfl, h⟩
        · exact ⟨_, _, rfl, by decide⟩
      all_goals exact ⟨_, _, rfl, by decide⟩
    | str h => obtain ⟨u, -, rfl⟩ := h; exact ⟨_, _, rfl, by decide⟩
    | arrNil => exact ⟨_, _, rfl, by decide⟩
    | arr => exact ⟨_, _, rfl, by decide⟩
    | objNil => exact ⟨_, _, rfl, by decide⟩
    | obj => exact ⟨_, _, rfl, by decide⟩
  obtain ⟨a, t, b, ha, ht, hb, rfl⟩ := h
  have hn : NoZero (a ++ (t ++ b)) := noZero_append.2 ⟨blank_nonzero ha, noZero_append.2 ⟨text_nonzero ht, blank_nonzero hb⟩⟩
  cases a with
  | nil =>
    obtain ⟨c, r, rfl, hc⟩ := head ht
    have := noZero_cons.1 hn
    exact ⟨c, _, rfl, by omega, hc, this.2⟩
  | cons c a =>
    have := noZero_cons.1 hn
    refine ⟨c, _, rfl, by omega, ?_, this.2⟩
    rcases ha c (by simp) with rfl | rfl | rfl | rfl <;> decide

theorem mark_values : mark .utf8 = [239, 187, 191] ∧ mark (.utf16 true) = [254, 255] ∧ mark (.utf16 false) = [255, 254] ∧
    mark (.utf32 true) = [0, 0, 254, 255] ∧ mark (.utf32 false) = [255, 254, 0, 0] := by decide +kernel

theorem utf8_nonzero {s : List Char} (h : NoZero s) : ∀ x ∈ encodeAs .utf8 s, x.val ≠ 0 := by
  intro x hx
  obtain ⟨c, hc, hx⟩ := List.mem_flatMap.1 hx
  have h1 := h c hc
  have h2 := char_lt c
  rw [charAs_utf8] at hx
  split_ifs at hx <;> simp only [List.mem_cons, List.not_mem_nil, or_false] at hx
  · subst hx; rw [byte_val]; omega
  · rcases hx with rfl | rfl <;> rw [byte_val] <;> omega
  · rcases hx with rfl | rfl | rfl <;> rw [byte_val] <;> omega
  · rcases hx with rfl | rfl | rfl | rfl <;> rw [byte_val] <;> omega

theorem inOrder2 (big : Bool) (v : Nat) : inOrder big 2 v = if big then [byte (v / 256), byte v] else [byte v, byte (v / 256)] := by
  cases big <;> rfl

theorem utf16_two {s : List Char} (h : NoZero s) (big : Bool) : encodeAs (.utf16 big) s = [] ∨
    ∃ x y r, encodeAs (.utf16 big) s = x :: y :: r ∧ ¬ (x.val = 0 ∧ y.val = 0) := by
  cases s with
  | nil => exact .inl rfl
  | cons c s =>
    have h1 := h c (by simp)
    have h2 := units_lt c
    obtain ⟨n, u, hu, hn⟩ : ∃ n u, units c = n :: u ∧ 0 < n := by
      unfold units
      split_ifs
      · exact ⟨_, _, rfl, by omega⟩
      · exact ⟨_, _, rfl, by omega⟩
    have h3 := h2 n (by rw [hu]; simp)
    right
    rw [encodeAs, List.flatMap_cons]
    simp only [charAs, hu, List.flatMap_cons, inOrder2]
    cases big
    · refine ⟨_, _, _, rfl, ?_⟩
      rw [byte_val, byte_val]
      omega
    · refine ⟨_, _, _, rfl, ?_⟩
      rw [byte_val, byte_val]
      omega

theorem fin_ne {x : Fin 256} {n : Nat} (hn : n < 256) (h : n ≠ x.val) : ((Fin.ofNat 256 n) == x) = false := by
  rw [beq_eq_false_iff_ne]
  rintro rfl
  exact h (Nat.mod_eq_of_lt hn).symm

theorem prefix_ne (p b : List (Fin 256)) (i : Nat) (hi : i < p.length) (hb : i < b.length) (h : p[i].val ≠ b[i].val) : p.isPrefixOf b = false := by
  rw [Bool.eq_false_iff]
  intro hp
  obtain ⟨t, rfl⟩ := List.isPrefixOf_iff_prefix.1 hp
  exact h (by rw [List.getElem_append_left hi])

theorem encode_first (e : Enc) {c : Char} (hc : 0 < c.toNat) (hl : c.toNat < 128) (s : List Char) :
    encodeAs e (c :: s) = (match e with
      | .utf8 => [byte c.toNat]
      | .utf16 true => [0, byte c.toNat]
      | .utf16 false => [byte c.toNat, 0]
      | .utf32 true => [0, 0, 0, byte c.toNat]
      | .utf32 false => [byte c.toNat, 0, 0, 0]) ++ encodeAs e s := by
  have h1 : byte (c.toNat / 256) = 0 := Fin.ext (by rw [byte_val]; simp; omega)
  have h2 : byte (c.toNat / 65536) = 0 := Fin.ext (by rw [byte_val]; simp; omega)
  have h3 : byte (c.toNat / 16777216) = 0 := Fin.ext (by rw [byte_val]; simp; omega)
  have hu : units c = [c.toNat] := by rw [units, if_pos (by omega)]
  have : charAs e c = (match e with
      | .utf8 => [byte c.toNat]
      | .utf16 true => [0, byte c.toNat]
      | .utf16 false => [byte c.toNat, 0]
      | .utf32 true => [0, 0, 0, byte c.toNat]
      | .utf32 false => [byte c.toNat, 0, 0, 0]) := by
    cases e with
    | utf8 => rw [charAs_utf8, if_pos (by omega)]
    | utf16 big => cases big <;> simp only [charAs, hu, List.flatMap_cons, List.flatMap_nil, List.append_nil, inOrder2, h1] <;> rfl
    | utf32 big => cases big <;> simp only [charAs, inOrder4, h1, h2, h3] <;> rfl
  rw [encodeAs, List.flatMap_cons, this]
  rfl

/-- Bytes of a text that begins with a character of ASCII and has none with the number zero are taken for what they are. -/
theorem detect_plain (e : Enc) {c : Char} (hc : 0 < c.toNat) (hl : c.toNat < 128) {s : List Char} (hs : NoZero s) :
    detect (encodeAs e (c :: s)) = (e, encodeAs e (c :: s)) := by
  have hx : (byte c.toNat).val = c.toNat := by rw [byte_val]; omega
  have h8 := utf8_nonzero hs
  have h16 := fun big => utf16_two hs big
  rw [encode_first e hc hl]
  cases e with
  | utf8 =>
    simp only [List.cons_append, List.nil_append]
    rw [detect, prefix_ne [0, 0, 254, 255] _ 0 (by simp) (by simp) (by simp; omega), prefix_ne [255, 254, 0, 0] _ 0 (by simp) (by simp) (by simp; omega),
      prefix_ne [254, 255] _ 0 (by simp) (by simp) (by simp; omega), prefix_ne [255, 254] _ 0 (by simp) (by simp) (by simp; omega),
      prefix_ne [239, 187, 191] _ 0 (by simp) (by simp) (by simp; omega)]
    simp only [Bool.false_eq_true, if_false, Prod.mk.injEq, and_true]
    unfold zeros
    split
    · rename_i a b c' d r heq
      obtain ⟨rfl, hr⟩ := List.cons.inj heq
      have hb := h8 b (by rw [hr]; simp)
      rw [if_neg (by omega), if_neg hb]
    · rename_i a b heq
      obtain ⟨rfl, hr⟩ := List.cons.inj heq
      have hb := h8 b (by rw [hr]; simp)
      rw [if_neg (by omega), if_neg hb]
    · rfl
  | utf16 big =>
    cases big
    · simp only [List.cons_append, List.nil_append]
      rw [detect, prefix_ne [0, 0, 254, 255] _ 0 (by simp) (by simp) (by simp; omega), prefix_ne [255, 254, 0, 0] _ 0 (by simp) (by simp) (by simp; omega),
        prefix_ne [254, 255] _ 0 (by simp) (by simp) (by simp; omega), prefix_ne [255, 254] _ 0 (by simp) (by simp) (by simp; omega),
        prefix_ne [239, 187, 191] _ 0 (by simp) (by simp) (by simp; omega)]
      simp only [Bool.false_eq_true, if_false, Prod.mk.injEq, and_true]
      rcases h16 false with h | ⟨x, y, r, h, hxy⟩
      · rw [h, zeros, if_neg (by omega), if_pos (by decide)]
      · rw [h, zeros, if_neg (by omega), if_pos (by decide), if_pos (by omega)]
    · simp only [List.cons_append, List.nil_append]
      rw [detect, prefix_ne [0, 0, 254, 255] _ 1 (by simp) (by simp) (by simp; omega), prefix_ne [255, 254, 0, 0] _ 0 (by simp) (by simp) (by simp),
        prefix_ne [254, 255] _ 0 (by simp) (by simp) (by simp), prefix_ne [255, 254] _ 0 (by simp) (by simp) (by simp),
        prefix_ne [239, 187, 191] _ 0 (by simp) (by simp) (by simp)]
      simp only [Bool.false_eq_true, if_false, Prod.mk.injEq, and_true]
      rcases h16 true with h | ⟨x, y, r, h, hxy⟩
      · rw [h, zeros, if_pos (by decide)]
      · rw [h, zeros, if_pos (by decide), if_pos (by omega)]
  | utf32 big =>
    cases big
    · simp only [List.cons_append, List.nil_append]
      rw [detect, prefix_ne [0, 0, 254, 255] _ 0 (by simp) (by simp) (by simp; omega), prefix_ne [255, 254, 0, 0] _ 0 (by simp) (by simp) (by simp; omega),
        prefix_ne [254, 255] _ 0 (by simp) (by simp) (by simp; omega), prefix_ne [255, 254] _ 0 (by simp) (by simp) (by simp; omega),
        prefix_ne [239, 187, 191] _ 0 (by simp) (by simp) (by simp; omega)]
      simp only [Bool.false_eq_true, if_false, Prod.mk.injEq, and_true]
      rw [zeros, if_neg (by omega), if_pos (by decide), if_neg (by decide)]
    · simp only [List.cons_append, List.nil_append]
      rw [detect, prefix_ne [0, 0, 254, 255] _ 2 (by simp) (by simp) (by simp), prefix_ne [255, 254, 0, 0] _ 0 (by simp) (by simp) (by simp),
        prefix_ne [254, 255] _ 0 (by simp) (by simp) (by simp), prefix_ne [255, 254] _ 0 (by simp) (by simp) (by simp),
        prefix_ne [239, 187, 191] _ 0 (by simp) (by simp) (by simp)]
      simp only [Bool.false_eq_true, if_false, Prod.mk.injEq, and_true]
      rw [zeros, if_pos (by decide), if_neg (by decide)]

/-- And so they are with a mark before them, which is taken off. -/
theorem detect_mark (e : Enc) {c : Char} (hc : 0 < c.toNat) (hl : c.toNat < 128) (s : List Char) :
    detect (mark e ++ encodeAs e (c :: s)) = (e, encodeAs e (c :: s)) := by
  have hx : (byte c.toNat).val = c.toNat := by rw [byte_val]; omega
  obtain ⟨m1, m2, m3, m4, m5⟩ := mark_values
  cases e with
  | utf8 => rw [m1]; rfl
  | utf16 big =>
    cases big
    · rw [m3, encode_first _ hc hl]
      simp only [List.cons_append, List.nil_append]
      rw [detect, prefix_ne [0, 0, 254, 255] _ 0 (by simp) (by simp) (show (0 : Fin 256).val ≠ (255 : Fin 256).val by decide), prefix_ne [255, 254, 0, 0] _ 2 (by simp) (by simp) (by simp; omega),
        prefix_ne [254, 255] _ 0 (by simp) (by simp) (show (254 : Fin 256).val ≠ (255 : Fin 256).val by decide)]
      rfl
    · rw [m2]; rfl
  | utf32 big => cases big <;> [rw [m5]; rw [m4]] <;> rfl

theorem detect_sound (b : List (Fin 256)) : b = (detect b).2 ∨ b = mark (detect b).1 ++ (detect b).2 := by
  obtain ⟨m1, m2, m3, m4, m5⟩ := mark_values
  have drop : ∀ {p : List (Fin 256)}, p.isPrefixOf b = true → b = p ++ b.drop p.length := by
    intro p hp
    obtain ⟨t, rfl⟩ := List.isPrefixOf_iff_prefix.1 hp
    simp
  unfold detect
  split_ifs with h1 h2 h3 h4 h5
  · right; rw [m4]; exact drop h1
  · right; rw [m5]; exact drop h2
  · right; rw [m2]; exact drop h3
  · right; rw [m3]; exact drop h4
  · right; rw [m1]; exact drop h5
  · left; rfl

/-- C104: `json.loads` reads from bytes the JSON texts in UTF-8, UTF-16 and UTF-32 of either order, with a mark or without, and nothing else: which
encoding it is need not be said. -/
theorem C104_bytes (repr : F → List Char) (read : List Char → F) (compress : List (Fin 256) → List (Fin 256))
    (decompress : List (Fin 256) → Except PyErr (List (Fin 256))) (b : List (Fin 256)) (d : Doc F) :
    (codecs repr read compress decompress).loads b = .ok d ↔ ∃ s, Encodes b s ∧ JsonText read d s := by
  simp only [codecs, decode]
  constructor
  · intro h
    cases hs : decodeAs (detect b).1 (detect b).2 with
    | none => rw [hs] at h; cases h
    | some s =>
      rw [hs] at h
      refine ⟨s, ?_, (C104_text read s d).1 h⟩
      rw [C104_decode] at hs
      refine ⟨(detect b).1, ?_⟩
      rw [← hs]
      exact detect_sound b
  · rintro ⟨s, ⟨e, he⟩, hs⟩
    obtain ⟨c, r, rfl, h1, h2, h3⟩ := jsonText_start hs
    have hd : detect b = (e, encodeAs e (c :: r)) := by
      rcases he with rfl | rfl
      · exact detect_plain e h1 h2 h3
      · exact detect_mark e h1 h2 r
    rw [hd]
    simp only
    rw [(C104_decode e _ _).2 rfl]
    exact (C104_text read _ d).2 hs

/-- C104: a blueprint string is read as a document just if what follows its first character is taken for base64 of something that unpacks to bytes of a JSON
text of that document; every other string is malformed. -/
theorem C104_string (repr : F → List Char) (read : List Char → F) (compress : List (Fin 256) → List (Fin 256))
    (decompress : List (Fin 256) → Except PyErr (List (Fin 256))) (s : List Char) :
    (∀ d, Codec.stringToJson (codecs repr read compress decompress) s = .ok d ↔
      ∃ raw b t, b64decode (s.drop 1) = .ok raw ∧ decompress raw = .ok b ∧ Encodes b t ∧ JsonText read d t) ∧
    ((∀ d, Codec.stringToJson (codecs repr read compress decompress) s ≠ .ok d) →
      Codec.stringToJson (codecs repr read compress decompress) s = .error .malformedBlueprintString) := by
  have key := C104_bytes repr read compress decompress
  refine ⟨fun d => ?_, fun h => ?_⟩
  · simp only [Codec.stringToJson, bind, Except.bind]
    constructor
    · intro h
      split at h
      · rename_i j hj
        obtain rfl := Except.ok.inj h
        split at hj
        · cases hj
        · rename_i raw hr
          split at hj
          · cases hj
          · rename_i b hb
            obtain ⟨t, h1, h2⟩ := (key b _).1 hj
            exact ⟨raw, b, t, hr, hb, h1, h2⟩
      · cases h
    · rintro ⟨raw, b, t, h1, h2, h3, h4⟩
      have hl := (key b d).2 ⟨t, h3, h4⟩
      have e1 : (codecs repr read compress decompress).b64decode (s.drop 1) = .ok raw := h1
      have e2 : (codecs repr read compress decompress).decompress raw = .ok b := h2
      rw [e1]
      simp only
      rw [e2]
      simp only
      rw [hl]
  · cases hs : Codec.stringToJson (codecs repr read compress decompress) s with
    | ok d => exact absurd hs (h d)
    | error e =>
      simp only [Codec.stringToJson] at hs
      split at hs
      · cases hs
      · exact hs.symm

/-- C104: whoever writes a JSON text of a document in one of these encodings, packs it and puts any character before its base64 has written a blueprint string of it. -/
theorem C104_foreign (repr : F → List Char) (read : List Char → F) (compress : List (Fin 256) → List (Fin 256))
    (decompress : List (Fin 256) → Except PyErr (List (Fin 256))) (raw b : List (Fin 256)) (hz : decompress raw = .ok b) (v : Char) (s : List Char) (d : Doc F)
    (hb : Encodes b s) (hs : JsonText read d s) :
    Codec.stringToJson (codecs repr read compress decompress) (v :: b64encode raw) = .ok d :=
  ((C104_string repr read compress decompress _).1 d).2 ⟨raw, b, s, C03_base64 raw, hz, hb, hs⟩

/-- C104: what is exported is one of the JSON texts of the document, so anyone reading JSON reads the same. -/
theorem C104_written {repr : F → List Char} {read : List Char → F} (hf : Floats repr read) (d : Doc F) (hd : d.Proper) : JsonText read d (dumps repr d) :=
  (C104_text read _ d).1 (C03_json hf d hd)

/-! ### Examples -/

mutual
/-- Whether two documents are the same, for the examples. -/
def same : Doc Nat → Doc Nat → Bool
  | .null, .null => true
  | .bool a, .bool b => a == b
  | .int a, .int b => a == b
  | .float a, .float b => a == b
  | .str a, .str b => a == b
  | .arr a, .arr b => sameList a b
  | .obj a, .obj b => samePairs a b
  | _, _ => false
@[inherit_doc same] def sameList : List (Doc Nat) → List (Doc Nat) → Bool
  | [], [] => true
  | a :: l, b :: m => same a b && sameList l m
  | _, _ => false
@[inherit_doc same] def samePairs : List (List Char × Doc Nat) → List (List Char × Doc Nat) → Bool
  | [], [] => true
  | (k, a) :: l, (j, b) :: m => k == j && same a b && samePairs l m
  | _, _ => false
end

mutual
theorem same_eq : ∀ a b : Doc Nat, same a b = true → a = b
  | .null, b, h => by cases b <;> simp_all [same]
  | .bool a, b, h => by cases b <;> simp_all [same]
  | .int a, b, h => by cases b <;> simp_all [same]
  | .float a, b, h => by cases b <;> simp_all [same]
  | .str a, b, h => by cases b <;> simp_all [same]
  | .arr a, .arr b, h => by rw [same] at h; rw [sameList_eq a b h]
  | .obj a, .obj b, h => by rw [same] at h; rw [samePairs_eq a b h]
  | .arr _, .null, h | .arr _, .bool _, h | .arr _, .int _, h | .arr _, .float _, h | .arr _, .str _, h | .arr _, .obj _, h => by simp [same] at h
  | .obj _, .null, h | .obj _, .bool _, h | .obj _, .int _, h | .obj _, .float _, h | .obj _, .str _, h | .obj _, .arr _, h => by simp [same] at h
theorem sameList_eq : ∀ a b : List (Doc Nat), sameList a b = true → a = b
  | [], [], _ => rfl
  | a :: l, b :: m, h => by
    rw [sameList, Bool.and_eq_true] at h
    rw [same_eq a b h.1, sameList_eq l m h.2]
  | [], _ :: _, h | _ :: _, [], h => by simp [sameList] at h
theorem samePairs_eq : ∀ a b : List (List Char × Doc Nat), samePairs a b = true → a = b
  | [], [], _ => rfl
  | (k, a) :: l, (j, b) :: m, h => by
    rw [samePairs, Bool.and_eq_true, Bool.and_eq_true] at h
    rw [eq_of_beq h.1.1, same_eq a b h.1.2, samePairs_eq l m h.2]
  | [], _ :: _, h | _ :: _, [], h => by simp [samePairs] at h
end

theorem loads_same {s : List Char} {d : Doc Nat} (h : (loads halfRead s).toOption.any (same d) = true) : loads halfRead s = .ok d := by
  cases hl : loads halfRead s with
  | error e => rw [hl] at h; cases h
  | ok x =>
    rw [hl] at h
    rw [same_eq d x h]

/-- A text with blanks, escapes, letters outside ASCII and a key given twice. -/
def exText : List Char := " {\t\"a\":null , \"\\u0062\":-7,\n\"a\" : \"é\\uD834\\udd1e\\/\"}\r\n".toList

/-- And its document. -/
def exRead : Doc Nat := .obj [("a".toList, .str "é𝄞/".toList), ("b".toList, .int (-7))]

/-- C104_text, C104_bytes, C104_foreign: there are such texts. -/
theorem exText_json : JsonText halfRead exRead exText := (C104_text _ _ _).1 (loads_same (by decide +kernel))
/-- The names of floats are taken, but neither a zero in front, nor a comma at the end, nor a control character. -/
example : (loads halfRead "[NaN, -Infinity, 1e5]".toList).toOption.isSome ∧ (loads halfRead "01".toList).toOption.isNone ∧ (loads halfRead "[1,]".toList).toOption.isNone ∧
    (loads halfRead "\"\t\"".toList).toOption.isNone := by decide +kernel
/-- C104_decode: the letter é in the five encodings. -/
example : [Enc.utf8, .utf16 true, .utf16 false, .utf32 true, .utf32 false].map (fun e => encodeAs e ['é', '𝄞']) =
    [[195, 169, 240, 157, 132, 158], [0, 233, 216, 52, 221, 30], [233, 0, 52, 216, 30, 221], [0, 0, 0, 233, 0, 1, 209, 30], [233, 0, 0, 0, 30, 209, 1, 0]] := by decide +kernel
/-- C104_bytes: the text in UTF-16 with a mark. -/
example : (codecs halfRepr halfRead id .ok).loads (mark (.utf16 false) ++ encodeAs (.utf16 false) exText) = .ok exRead :=
  (C104_bytes halfRepr halfRead id .ok _ _).2 ⟨exText, ⟨_, .inr rfl⟩, exText_json⟩
/-- C104_foreign, C104_string: a string written by someone else, with `zlib` replaced by the identity. -/
example : Codec.stringToJson (codecs halfRepr halfRead id .ok) ('7' :: b64encode (encodeAs .utf8 exText)) = .ok exRead :=
  C104_foreign halfRepr halfRead id .ok _ _ rfl '7' exText exRead ⟨_, .inl rfl⟩ exText_json
/-- C104_string: bytes in another encoding are malformed. -/
example : Codec.stringToJson (codecs halfRepr halfRead id .ok) ('0' :: b64encode [34, 233, 34]) = .error .malformedBlueprintString := by
  refine (C104_string halfRepr halfRead id .ok _).2 fun d h => ?_
  have : (Codec.stringToJson (codecs halfRepr halfRead id .ok) ('0' :: b64encode [34, 233, 34])).toOption.isNone = true := by decide +kernel
  rw [h] at this
  cases this
/-- C104_written. -/
example : JsonText halfRead exDoc (dumps halfRepr exDoc) := C104_written half_floats exDoc exDoc_proper

end Json
end Draftsman
