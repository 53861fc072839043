import Mathlib.Data.List.Induction
import Verif.Props.Json
/-
C104: which texts and bytes are read, and as what.  The grammar of JSON (RFC 8259) and the encodings of Unicode are stated here on their own.
-/
namespace Draftsman
namespace Json

variable {F : Type}

/-! ### The grammar -/

/-- Blanks, of which there may be any number around values, colons and commas. -/
def IsBlank (s : List Char) : Prop := ∀ c ∈ s, c = ' ' ∨ c = '\t' ∨ c = '\n' ∨ c = '\r'

/-- The hexadecimal digit `c` is worth `n`. -/
def HexIs (c : Char) (n : Nat) : Prop := "0123456789abcdef".toList[n]? = some c ∨ "0123456789ABCDEF".toList[n]? = some c

/-- Four hexadecimal digits worth `n`. -/
def Hex4Is (s : List Char) (n : Nat) : Prop :=
  ∃ a b c d i j k l, s = [a, b, c, d] ∧ HexIs a i ∧ HexIs b j ∧ HexIs c k ∧ HexIs d l ∧ n = ((i * 16 + j) * 16 + k) * 16 + l

/-- The characters with an escape of their own. -/
def shorts : List (Char × Char) :=
  [('"', '"'), ('\\', '\\'), ('/', '/'), ('b', '\x08'), ('f', '\x0c'), ('n', '\n'), ('r', '\r'), ('t', '\t')]

/-- How a character may be written in a string: as it is, unless it is a control character, a quote or a backslash; by an escape of its own; by its
number; or by the numbers of its two surrogates. -/
inductive CharText : Char → List Char → Prop
  | plain (c : Char) : 32 ≤ c.toNat → c ≠ '"' → c ≠ '\\' → CharText c [c]
  | short (c e : Char) : (e, c) ∈ shorts → CharText c ['\\', e]
  | hex (c : Char) (s : List Char) : Hex4Is s c.toNat → CharText c ('\\' :: 'u' :: s)
  | pair (c : Char) (s t : List Char) (hi lo : Nat) : Hex4Is s hi → Hex4Is t lo → 55296 ≤ hi → hi < 56320 → 56320 ≤ lo → lo < 57344 →
      c.toNat = 65536 + (hi - 55296) * 1024 + (lo - 56320) → CharText c ('\\' :: 'u' :: s ++ '\\' :: 'u' :: t)

/-- The characters of a string in turn. -/
inductive CharsText : List Char → List Char → Prop
  | nil : CharsText [] []
  | cons {c : Char} {s t u : List Char} : CharText c t → CharsText s u → CharsText (c :: s) (t ++ u)

/-- A string in its quotes. -/
def StringText (s t : List Char) : Prop := ∃ u, CharsText s u ∧ t = '"' :: (u ++ ['"'])

/-- A decimal digit. -/
def Digit (c : Char) : Prop := 48 ≤ c.toNat ∧ c.toNat ≤ 57

/-- At least one digit. -/
def Digits (s : List Char) : Prop := s ≠ [] ∧ ∀ c ∈ s, Digit c

/-- Digits without needless zeros in front. -/
def Whole (s : List Char) : Prop := Digits s ∧ (s.head? = some '0' → s = ['0'])

/-- What digits are worth. -/
def value (s : List Char) : Nat := s.foldl (fun a c => a * 10 + (c.toNat - 48)) 0

/-- An integer. -/
def IntText (n : Int) (s : List Char) : Prop := ∃ w, Whole w ∧ ((s = w ∧ n = value w) ∨ (s = '-' :: w ∧ n = -(value w : Int)))

/-- A fraction, or none. -/
def FractionText (s : List Char) : Prop := s = [] ∨ ∃ d, Digits d ∧ s = '.' :: d

/-- An exponent, or none. -/
def ExponentText (s : List Char) : Prop :=
  s = [] ∨ ∃ e sign d, (e = 'e' ∨ e = 'E') ∧ (sign = [] ∨ sign = ['+'] ∨ sign = ['-']) ∧ Digits d ∧ s = e :: (sign ++ d)

/-- A number with a fraction or an exponent, or one of the three names that Python takes besides. -/
def FloatText (s : List Char) : Prop :=
  (∃ sign w f e, (sign = [] ∨ sign = ['-']) ∧ Whole w ∧ FractionText f ∧ ExponentText e ∧ ¬ (f = [] ∧ e = []) ∧ s = sign ++ w ++ f ++ e) ∨
  s = "NaN".toList ∨ s = "Infinity".toList ∨ s = "-Infinity".toList

/-- What a sequence of members means: of those with the same key the last one counts, in the place of the first. -/
def lastWins (l : List (List Char × Doc F)) : List (List Char × Doc F) :=
  (l.map Prod.fst).eraseDups.map fun k => (k, ((l.reverse.find? fun x => decide (x.1 = k)).map Prod.snd).getD .null)

mutual
/-- A text of a document; `read` says what a float is worth. -/
inductive Text (read : List Char → F) : Doc F → List Char → Prop
  | null : Text read .null "null".toList
  | true : Text read (.bool true) "true".toList
  | false : Text read (.bool false) "false".toList
  | int {n : Int} {s : List Char} : IntText n s → Text read (.int n) s
  | float {s : List Char} : FloatText s → Text read (.float (read s)) s
  | str {s t : List Char} : StringText s t → Text read (.str s) t
  | arrNil {b : List Char} : IsBlank b → Text read (.arr []) ('[' :: (b ++ [']']))
  | arr {l : List (Doc F)} {s : List Char} : Items read l s → Text read (.arr l) ('[' :: (s ++ [']']))
  | objNil {b : List Char} : IsBlank b → Text read (.obj []) ('{' :: (b ++ ['}']))
  | obj {l : List (List Char × Doc F)} {s : List Char} : Members read l s → Text read (.obj (lastWins l)) ('{' :: (s ++ ['}']))
/-- The elements of a list. -/
inductive Items (read : List Char → F) : List (Doc F) → List Char → Prop
  | one {a s b : List Char} {d : Doc F} : IsBlank a → Text read d s → IsBlank b → Items read [d] (a ++ (s ++ b))
  | more {a s b t : List Char} {d : Doc F} {l : List (Doc F)} : IsBlank a → Text read d s → IsBlank b → Items read l t → Items read (d :: l) (a ++ (s ++ (b ++ ',' :: t)))
/-- The members of a dictionary. -/
inductive Members (read : List Char → F) : List (List Char × Doc F) → List Char → Prop
  | one {a q b c s e k : List Char} {d : Doc F} : IsBlank a → StringText k q → IsBlank b → IsBlank c → Text read d s → IsBlank e →
      Members read [(k, d)] (a ++ (q ++ (b ++ ':' :: (c ++ (s ++ e)))))
  | more {a q b c s e t k : List Char} {d : Doc F} {l : List (List Char × Doc F)} : IsBlank a → StringText k q → IsBlank b → IsBlank c → Text read d s → IsBlank e →
      Members read l t → Members read ((k, d) :: l) (a ++ (q ++ (b ++ ':' :: (c ++ (s ++ (e ++ ',' :: t))))))
end

/-- A JSON text: one document with blanks around it. -/
def JsonText (read : List Char → F) (d : Doc F) (s : List Char) : Prop := ∃ a t b, IsBlank a ∧ Text read d t ∧ IsBlank b ∧ s = a ++ (t ++ b)

/-! ### Blanks -/

theorem blank_iff (c : Char) : (c == ' ' || c == '\t' || c == '\n' || c == '\r') = true ↔ c = ' ' ∨ c = '\t' ∨ c = '\n' ∨ c = '\r' := by
  simp [or_assoc]

theorem skip_blank {a : List Char} (h : IsBlank a) (s : List Char) : skip (a ++ s) = skip s := by
  induction a with
  | nil => rfl
  | cons c a ih =>
    rw [List.cons_append, skip, List.dropWhile_cons, if_pos ((blank_iff c).2 (h c (by simp)))]
    exact ih fun x hx => h x (by simp [hx])

theorem skip_split (s : List Char) : ∃ a, IsBlank a ∧ s = a ++ skip s := by
  refine ⟨s.takeWhile fun c => c == ' ' || c == '\t' || c == '\n' || c == '\r', fun c hc => ?_, List.takeWhile_append_dropWhile.symm⟩
  have h := List.all_takeWhile (p := fun c => c == ' ' || c == '\t' || c == '\n' || c == '\r') (l := s)
  exact (blank_iff c).1 (List.all_eq_true.1 h c hc)

theorem skip_nil {s : List Char} (h : skip s = []) : IsBlank s := by
  obtain ⟨a, ha, he⟩ := skip_split s
  rw [h, List.append_nil] at he
  rwa [he]

theorem skip_of_blank {b : List Char} (h : IsBlank b) : skip b = [] := by
  have := skip_blank h []
  rwa [List.append_nil] at this

/-! ### Strings -/

theorem hexVal_lt {c : Char} {n : Nat} (h : hexVal c = some n) : n < 16 := by
  unfold hexVal at h
  split_ifs at h <;> simp only [Option.some.injEq] at h <;> omega

theorem hexVal_iff (c : Char) (n : Nat) : hexVal c = some n ↔ HexIs c n := by
  constructor
  · intro h
    have hn := hexVal_lt h
    have key : ∀ m, c.toNat = m → c = Char.ofNat m := fun m hm => by rw [← hm, Char.ofNat_toNat]
    unfold hexVal at h
    split_ifs at h with h1 h2 h3
    · obtain rfl := key (n + 48) (by simp only [Option.some.injEq] at h; omega)
      interval_cases n
      all_goals first | exact .inl (by decide) | (exfalso; revert h1; decide)
    · obtain rfl := key (n + 87) (by simp only [Option.some.injEq] at h; omega)
      interval_cases n
      all_goals first | exact .inl (by decide) | (exfalso; revert h2; decide)
    · obtain rfl := key (n + 55) (by simp only [Option.some.injEq] at h; omega)
      interval_cases n
      all_goals first | exact .inr (by decide) | (exfalso; revert h3; decide)
  · rintro (h | h)
    all_goals
      have hn : n < 16 := (List.getElem?_eq_some_iff.1 h).1
      interval_cases n <;>
      · have h' := Option.some.inj h
        subst h'
        decide

theorem readHex4_iff (s : List Char) (n : Nat) (r : List Char) : readHex4 s = some (n, r) ↔ ∃ t, Hex4Is t n ∧ s = t ++ r := by
  constructor
  · intro h
    unfold readHex4 at h
    split at h
    · rename_i a b c d r'
      split at h
      · rename_i i j k l hi hj hk hl
        simp only [Option.some.injEq, Prod.mk.injEq] at h
        obtain ⟨rfl, rfl⟩ := h
        exact ⟨[a, b, c, d], ⟨a, b, c, d, i, j, k, l, rfl, (hexVal_iff _ _).1 hi, (hexVal_iff _ _).1 hj, (hexVal_iff _ _).1 hk, (hexVal_iff _ _).1 hl, by omega⟩, rfl⟩
      · cases h
    · cases h
  · rintro ⟨t, ⟨a, b, c, d, i, j, k, l, rfl, hi, hj, hk, hl, rfl⟩, rfl⟩
    simp only [List.cons_append, List.nil_append]
    rw [readHex4, (hexVal_iff _ _).2 hi, (hexVal_iff _ _).2 hj, (hexVal_iff _ _).2 hk, (hexVal_iff _ _).2 hl]
    simp only [Option.some.injEq, Prod.mk.injEq, and_true]
    omega

theorem hex4_lt {t : List Char} {n : Nat} (h : Hex4Is t n) : n < 65536 := by
  obtain ⟨a, b, c, d, i, j, k, l, -, hi, hj, hk, hl, rfl⟩ := h
  have := hexVal_lt ((hexVal_iff _ _).2 hi)
  have := hexVal_lt ((hexVal_iff _ _).2 hj)
  have := hexVal_lt ((hexVal_iff _ _).2 hk)
  have := hexVal_lt ((hexVal_iff _ _).2 hl)
  omega

theorem ofNat_toNat_valid {n : Nat} (h : n < 55296 ∨ (57343 < n ∧ n < 1114112)) : (Char.ofNat n).toNat = n := by
  have hv : n.isValidChar := by
    rcases h with h | h
    · exact .inl h
    · exact .inr h
  rw [Char.ofNat, dif_pos hv]
  rfl

theorem charText_head {c : Char} {t : List Char} (h : CharText c t) : ∃ x y, t = x :: y ∧ x ≠ '"' := by
  cases h with
  | plain _ h2 _ => exact ⟨c, [], rfl, h2⟩
  | short e _ => exact ⟨'\\', _, rfl, by decide⟩
  | hex s _ => exact ⟨'\\', _, rfl, by decide⟩
  | pair s t hi lo _ _ _ _ _ _ _ => exact ⟨'\\', _, rfl, by decide⟩

theorem readChar_text {c : Char} {t : List Char} (h : CharText c t) (r : List Char) : readChar (t ++ r) = some (c, r) := by
  cases h with
  | plain h1 h2 h3 =>
    simp only [List.cons_append, List.nil_append, readChar]
    rw [if_neg h3, if_neg (by omega)]
  | short e h =>
    simp only [List.cons_append, List.nil_append]
    rw [readChar, if_pos rfl]
    simp only [shorts, List.mem_cons, Prod.mk.injEq, List.not_mem_nil, or_false] at h
    rcases h with ⟨rfl, rfl⟩ | ⟨rfl, rfl⟩ | ⟨rfl, rfl⟩ | ⟨rfl, rfl⟩ | ⟨rfl, rfl⟩ | ⟨rfl, rfl⟩ | ⟨rfl, rfl⟩ | ⟨rfl, rfl⟩ <;> rfl
  | hex s h =>
    have hv := char_valid c
    have := hex4_lt h
    simp only [List.cons_append]
    rw [readChar, if_pos rfl, readEscape, if_pos rfl, (readHex4_iff _ _ _).2 ⟨s, h, rfl⟩]
    simp only
    rw [if_neg (by omega), if_neg (by omega), Char.ofNat_toNat]
  | pair s t hi lo h1 h2 h3 h4 h5 h6 h7 =>
    simp only [List.cons_append, List.append_assoc]
    rw [readChar, if_pos rfl, readEscape, if_pos rfl, (readHex4_iff _ _ _).2 ⟨s, h1, rfl⟩]
    simp only
    rw [if_pos (by omega), readLow, (readHex4_iff _ _ _).2 ⟨t, h2, rfl⟩]
    simp only
    rw [if_pos (by omega), ← h7, Char.ofNat_toNat]

theorem readChar_sound {s r : List Char} {c : Char} (hs : s.head? ≠ some '"') (h : readChar s = some (c, r)) : ∃ t, CharText c t ∧ s = t ++ r := by
  unfold readChar at h
  split at h
  · cases h
  rename_i x s
  by_cases hx : x = '\\'
  · subst hx
    rw [if_pos rfl] at h
    unfold readEscape at h
    split at h
    · cases h
    rename_i e s
    by_cases he : e = 'u'
    · subst he
      rw [if_pos rfl] at h
      split at h
      · rename_i n s' hn
        obtain ⟨t, ht, rfl⟩ := (readHex4_iff _ _ _).1 hn
        have hlt := hex4_lt ht
        by_cases h1 : 55296 ≤ n ∧ n ≤ 56319
        · rw [if_pos h1] at h
          unfold readLow at h
          split at h
          · rename_i s''
            split at h
            · rename_i m r' hm
              obtain ⟨u, hu, rfl⟩ := (readHex4_iff _ _ _).1 hm
              split_ifs at h with h2
              simp only [Option.some.injEq, Prod.mk.injEq] at h
              obtain ⟨rfl, rfl⟩ := h
              exact ⟨_, .pair _ t u n m ht hu h1.1 (by omega) h2.1 (by omega) (ofNat_toNat_valid (.inr (by omega))), by simp⟩
            · cases h
          · cases h
        · rw [if_neg h1] at h
          split_ifs at h with h2
          simp only [Option.some.injEq, Prod.mk.injEq] at h
          obtain ⟨rfl, rfl⟩ := h
          exact ⟨_, .hex _ t (by rw [ofNat_toNat_valid (by omega)]; exact ht), rfl⟩
      · cases h
    · rw [if_neg he] at h
      split_ifs at h with h1 h2 h3 h4 h5 h6 h7 h8
      all_goals
        simp only [Option.some.injEq, Prod.mk.injEq] at h
        obtain ⟨rfl, rfl⟩ := h
        subst e
        exact ⟨_, .short _ _ (by decide), rfl⟩
  · rw [if_neg hx] at h
    split_ifs at h with h1
    simp only [Option.some.injEq, Prod.mk.injEq] at h
    obtain ⟨rfl, rfl⟩ := h
    exact ⟨[x], .plain x (by omega) (by simpa using hs) hx, rfl⟩

theorem readStr_text {s u : List Char} (h : CharsText s u) : ∀ (r : List Char) (fuel : Nat), u.length < fuel → readStr fuel (u ++ '"' :: r) = some (s, r) := by
  induction h with
  | nil =>
    intro r fuel hf
    obtain ⟨k, rfl⟩ : ∃ k, fuel = k + 1 := ⟨fuel - 1, by omega⟩
    rfl
  | @cons c s t u hc _ ih =>
    intro r fuel hf
    obtain ⟨k, rfl⟩ : ∃ k, fuel = k + 1 := ⟨fuel - 1, by omega⟩
    obtain ⟨x, y, rfl, hx⟩ := charText_head hc
    have h1 := readChar_text hc (u ++ '"' :: r)
    rw [List.append_assoc]
    simp only [List.cons_append] at h1 ⊢
    rw [readStr]
    · rw [h1]
      simp only
      rw [ih r k (by simp only [List.cons_append, List.length_cons, List.length_append] at hf; omega)]
      rfl
    · intro r' he
      exact hx (List.cons.inj he).1

theorem readStr_sound : ∀ (fuel : Nat) (s k r : List Char), readStr fuel s = some (k, r) → ∃ u, CharsText k u ∧ s = u ++ '"' :: r := by
  intro fuel
  induction fuel with
  | zero => intro s k r h; rw [readStr] at h; cases h
  | succ n ih =>
    intro s k r h
    unfold readStr at h
    split at h
    · simp only [Option.some.injEq, Prod.mk.injEq] at h
      obtain ⟨rfl, rfl⟩ := h
      exact ⟨[], .nil, rfl⟩
    · rename_i hne
      split at h
      · rename_i c r' hc
        obtain ⟨t, ht, rfl⟩ := readChar_sound (fun he => by
          cases s with
          | nil => cases he
          | cons x s => exact hne s (by rw [Option.some.inj he])) hc
        cases hr : readStr n r' with
        | none => rw [hr] at h; cases h
        | some p =>
          rw [hr] at h
          obtain ⟨k', r''⟩ := p
          simp only [Option.map_some, Option.some.injEq, Prod.mk.injEq] at h
          obtain ⟨rfl, rfl⟩ := h
          obtain ⟨u, hu, rfl⟩ := ih _ _ _ hr
          exact ⟨t ++ u, .cons ht hu, by simp⟩
      · cases h

/-! ### Numbers -/

theorem isDigit_iff (c : Char) : isDigit c = true ↔ Digit c := by
  constructor
  · intro h
    unfold isDigit digitVal? at h
    split at h
    all_goals first | exact ⟨by decide, by decide⟩ | cases h
  · rintro ⟨h1, h2⟩
    have : c = Char.ofNat c.toNat := by rw [Char.ofNat_toNat]
    rw [this]
    interval_cases c.toNat <;> decide

theorem digitVal_digit {c : Char} (h : Digit c) : digitVal? c = some (c.toNat - 48) := by
  obtain ⟨h1, h2⟩ := h
  have : c = Char.ofNat c.toNat := by rw [Char.ofNat_toNat]
  generalize hn : c.toNat = n at h1 h2 this
  subst this
  interval_cases n <;> decide

theorem pyDigits_value (s : List Char) (hs : ∀ c ∈ s, Digit c) (acc : Nat) : pyDigits acc s = some (s.foldl (fun a c => a * 10 + (c.toNat - 48)) acc) := by
  induction s generalizing acc with
  | nil => rfl
  | cons c s ih =>
    have hc := hs c (by simp)
    have h1 := digitVal_digit hc
    have hne : c ≠ '_' := by rintro rfl; exact absurd hc (by simp [Digit])
    rw [List.foldl_cons, ← ih (fun x hx => hs x (by simp [hx]))]
    rw [pyDigits]
    · rw [h1]
    · intro c' cs' he _; exact hne he

theorem pyNat_value {s : List Char} (h : Digits s) : pyNat s = some (value s) := by
  obtain ⟨hne, hs⟩ := h
  cases s with
  | nil => exact absurd rfl hne
  | cons c s =>
    rw [pyNat, digitVal_digit (hs c (by simp))]
    simp only
    rw [pyDigits_value s (fun x hx => hs x (by simp [hx])), value, List.foldl_cons]
    simp

theorem digit_noSpace {c : Char} (h : Digit c) : isSpace c = false := by
  have h1 := (isDigit_iff c).2 h
  unfold isDigit digitVal? at h1
  split at h1
  all_goals first | decide | cases h1

theorem pyInt_text {n : Int} {s : List Char} (h : IntText n s) : pyInt s = .ok n := by
  obtain ⟨w, ⟨hw, -⟩, ⟨h1, rfl⟩ | ⟨rfl, rfl⟩⟩ := h
  · subst s
    have hsp : pyStrip w = w := pyStrip_eq_self fun c hc => digit_noSpace (hw.2 c hc)
    have hv := pyNat_value hw
    rw [pyInt, hsp]
    split
    · rename_i he; exact absurd (hw.2 '-' (by simp)) (by simp [Digit])
    · rename_i he; exact absurd (hw.2 '+' (by simp)) (by simp [Digit])
    · rw [hv]
  · have hsp : pyStrip ('-' :: w) = '-' :: w := pyStrip_eq_self fun c hc => by
      rcases List.mem_cons.1 hc with rfl | hc
      · decide
      · exact digit_noSpace (hw.2 c hc)
    rw [pyInt, hsp]
    simp only [pyNat_value hw]

theorem whole_iff {w : List Char} : Whole w ↔ (w = ['0'] ∨ (w ≠ [] ∧ w.head? ≠ some '0')) ∧ ∀ c ∈ w, isDigit c = true := by
  constructor
  · rintro ⟨⟨h1, h2⟩, h3⟩
    refine ⟨?_, fun c hc => (isDigit_iff c).2 (h2 c hc)⟩
    by_cases h : w.head? = some '0'
    · exact .inl (h3 h)
    · exact .inr ⟨h1, h⟩
  · rintro ⟨h1, h2⟩
    refine ⟨⟨?_, fun c hc => (isDigit_iff c).1 (h2 c hc)⟩, ?_⟩
    · rcases h1 with rfl | h
      · simp
      · exact h.1
    · intro h
      rcases h1 with rfl | h'
      · rfl
      · exact absurd h h'.2

/-- What may follow a number without changing it. -/
def Stop (r : List Char) : Prop := ∀ c ∈ r.head?, isDigit c = false ∧ c ≠ '.' ∧ c ≠ 'e' ∧ c ≠ 'E'

theorem readFraction_part {f r : List Char} (hf : FractionText f) (hr : ∀ c ∈ r.head?, isDigit c = false ∧ c ≠ '.') : readFraction (f ++ r) = (f, r) := by
  rcases hf with rfl | ⟨d, ⟨hd, hd'⟩, rfl⟩
  · rw [List.nil_append]
    unfold readFraction
    split
    · exact absurd rfl (hr '.' (by simp)).2
    · rfl
  · obtain ⟨a, b⟩ := takeWhile_digits (fun c hc => (isDigit_iff c).2 (hd' c hc)) fun c hc => (hr c hc).1
    rw [List.cons_append, readFraction, a, b, if_neg hd]

theorem readExponent_part {e r : List Char} (he : ExponentText e) (hr : Stop r) : readExponent (e ++ r) = (e, r) := by
  rcases he with rfl | ⟨x, sign, d, hx, hs, ⟨hd, hd'⟩, rfl⟩
  · rw [List.nil_append]
    unfold readExponent
    split
    · rfl
    · rename_i c r
      have := hr c (by simp)
      rw [if_neg (by simp [this])]
  · obtain ⟨a, b⟩ := takeWhile_digits (fun c hc => (isDigit_iff c).2 (hd' c hc)) fun c hc => (hr c hc).1
    rw [List.cons_append]
    unfold readExponent
    dsimp only
    rw [if_pos hx]
    rcases hs with rfl | rfl | rfl
    · cases d with
      | nil => exact absurd rfl hd
      | cons c d =>
        have hc := hd' c (by simp)
        have hne : ¬ (c = '-' ∨ c = '+') := by
          rintro (rfl | rfl) <;> exact absurd hc (by simp [Digit])
        simp only [List.nil_append, List.cons_append] at a b ⊢
        rw [readSign, if_neg hne, List.length_nil, List.drop_zero, a, b, if_neg (by simp)]
        rfl
    · simp only [List.cons_append, List.nil_append]
      rw [readSign, if_pos (Or.inr rfl : '+' = '-' ∨ '+' = '+')]
      simp only [List.length_cons, List.length_nil, List.drop_succ_cons, List.drop_zero, Nat.zero_add]
      rw [a, b, if_neg hd]
      rfl
    · simp only [List.cons_append, List.nil_append]
      rw [readSign, if_pos (Or.inl rfl : '-' = '-' ∨ '-' = '+')]
      simp only [List.length_cons, List.length_nil, List.drop_succ_cons, List.drop_zero, Nat.zero_add]
      rw [a, b, if_neg hd]
      rfl

theorem readNumber_whole {read : List Char → F} {n : Int} {s : List Char} (h : IntText n s) {r : List Char} (hr : Stop r) :
    readNumber read (s ++ r) = some (.int n, r) := by
  have hp := pyInt_text h
  obtain ⟨w, hw, hs⟩ := h
  obtain ⟨neg, rfl⟩ : ∃ neg : Bool, s = (if neg then ['-'] else []) ++ w := by
    rcases hs with ⟨rfl, -⟩ | ⟨rfl, -⟩
    · exact ⟨false, rfl⟩
    · exact ⟨true, rfl⟩
  obtain ⟨h1, h2⟩ := whole_iff.1 hw
  have h3 := readWhole_text neg w r h1 h2 fun c hc => (hr c hc).1
  unfold readNumber
  rw [h3]
  have hf : readFraction r = ([], r) := readFraction_part (f := []) (.inl rfl) fun c hc => ⟨(hr c hc).1, (hr c hc).2.1⟩
  have he : readExponent r = ([], r) := readExponent_part (e := []) (.inl rfl) hr
  simp only [hf, he]
  rw [if_pos ⟨trivial, trivial⟩, hp]

theorem stop_exponent {e r : List Char} (he : ExponentText e) (hr : Stop r) : ∀ c ∈ (e ++ r).head?, isDigit c = false ∧ c ≠ '.' := by
  rcases he with rfl | ⟨x, sign, d, hx, -, -, rfl⟩
  · exact fun c hc => ⟨(hr c hc).1, (hr c hc).2.1⟩
  · intro c hc
    have : c = x := by simpa using hc.symm
    subst this
    rcases hx with rfl | rfl <;> decide

theorem readNumber_real {read : List Char → F} {sign w f e r : List Char} (hs : sign = [] ∨ sign = ['-']) (hw : Whole w) (hf : FractionText f) (he : ExponentText e)
    (hne : ¬ (f = [] ∧ e = [])) (hr : Stop r) : readNumber read (sign ++ w ++ f ++ e ++ r) = some (.float (read (sign ++ w ++ f ++ e)), r) := by
  obtain ⟨neg, rfl⟩ : ∃ neg : Bool, sign = if neg then ['-'] else [] := by
    rcases hs with rfl | rfl
    · exact ⟨false, rfl⟩
    · exact ⟨true, rfl⟩
  obtain ⟨h1, h2⟩ := whole_iff.1 hw
  have hE := stop_exponent he hr
  have hF : ∀ c ∈ (f ++ (e ++ r)).head?, isDigit c = false := by
    rcases hf with rfl | ⟨d, -, rfl⟩
    · exact fun c hc => (hE c hc).1
    · intro c hc
      have : c = '.' := by simpa using hc.symm
      subst this
      decide
  have h3 := readWhole_text neg w (f ++ (e ++ r)) h1 h2 hF
  simp only [List.append_assoc] at h3 ⊢
  unfold readNumber
  rw [h3]
  simp only [readFraction_part hf hE, readExponent_part he hr]
  rw [if_neg hne]
  simp only [List.append_assoc]

theorem takeWhile_isDigit (s : List Char) : ∀ c ∈ s.takeWhile isDigit, Digit c := fun c hc =>
  (isDigit_iff c).1 (List.all_eq_true.1 (List.all_takeWhile (p := isDigit) (l := s)) c hc)

theorem readFraction_sound (s : List Char) : FractionText (readFraction s).1 ∧ s = (readFraction s).1 ++ (readFraction s).2 := by
  unfold readFraction
  split
  · rename_i r
    split_ifs with h
    · exact ⟨.inl rfl, rfl⟩
    · exact ⟨.inr ⟨_, ⟨h, takeWhile_isDigit r⟩, rfl⟩, by simp⟩
  · exact ⟨.inl rfl, rfl⟩

theorem readExponent_sound (s : List Char) : ExponentText (readExponent s).1 ∧ s = (readExponent s).1 ++ (readExponent s).2 := by
  unfold readExponent
  split
  · exact ⟨.inl rfl, rfl⟩
  · rename_i e r
    by_cases he : e = 'e' ∨ e = 'E'
    · rw [if_pos he]
      dsimp only
      have hs : ∃ sign, (sign = [] ∨ sign = ['+'] ∨ sign = ['-']) ∧ readSign r = sign ∧ r = sign ++ r.drop sign.length := by
        cases r with
        | nil => exact ⟨[], .inl rfl, rfl, rfl⟩
        | cons c r =>
          by_cases h1 : c = '-'
          · subst h1; exact ⟨['-'], .inr (.inr rfl), rfl, rfl⟩
          · by_cases h2 : c = '+'
            · subst h2; exact ⟨['+'], .inr (.inl rfl), rfl, rfl⟩
            · exact ⟨[], .inl rfl, if_neg (by simp [h1, h2]), rfl⟩
      obtain ⟨sign, h1, h2, h3⟩ := hs
      rw [h2]
      split_ifs with h
      · exact ⟨.inl rfl, rfl⟩
      · refine ⟨.inr ⟨e, sign, _, he, h1, ⟨h, takeWhile_isDigit _⟩, rfl⟩, ?_⟩
        simp only [List.cons_append, List.append_assoc, List.takeWhile_append_dropWhile]
        rw [← h3]
    · rw [if_neg he]
      exact ⟨.inl rfl, rfl⟩

theorem readWhole_sound {s w r : List Char} (h : readWhole s = some (w, r)) : s = w ++ r ∧ ∃ sign v, (sign = [] ∨ sign = ['-']) ∧ Whole v ∧ w = sign ++ v := by
  obtain ⟨sign, h1, h2, h3⟩ : ∃ sign, (sign = [] ∨ sign = ['-']) ∧ (if s.head? = some '-' then ['-'] else []) = sign ∧ s = sign ++ s.drop sign.length := by
    by_cases hh : s.head? = some '-'
    · refine ⟨['-'], .inr rfl, if_pos hh, ?_⟩
      cases s with
      | nil => cases hh
      | cons c s => rw [Option.some.inj hh]; rfl
    · exact ⟨[], .inl rfl, if_neg hh, rfl⟩
  unfold readWhole at h
  rw [h2] at h
  dsimp only at h
  generalize s.drop sign.length = t at h h3
  split at h
  · simp only [Option.some.injEq, Prod.mk.injEq] at h
    obtain ⟨rfl, rfl⟩ := h
    exact ⟨by rw [h3]; simp, sign, ['0'], h1, whole_iff.2 ⟨.inl rfl, by decide⟩, rfl⟩
  · rename_i hne
    split_ifs at h with hd
    simp only [Option.some.injEq, Prod.mk.injEq] at h
    obtain ⟨rfl, rfl⟩ := h
    refine ⟨by rw [h3]; simp, sign, _, h1, ⟨⟨hd, takeWhile_isDigit t⟩, fun h0 => ?_⟩, rfl⟩
    cases t with
    | nil => cases h0
    | cons c t =>
      rw [List.takeWhile_cons] at h0
      split_ifs at h0
      · exact (hne t (by rw [← Option.some.inj h0])).elim
      · cases h0

theorem readNumber_sound {read : List Char → F} {s r : List Char} {d : Doc F} (h : readNumber read s = some (d, r)) : ∃ t, Text read d t ∧ s = t ++ r := by
  unfold readNumber at h
  split at h
  · cases h
  rename_i w r' hw
  obtain ⟨rfl, sign, v, hs, hv, rfl⟩ := readWhole_sound hw
  obtain ⟨hf, hf'⟩ := readFraction_sound r'
  obtain ⟨he, he'⟩ := readExponent_sound (readFraction r').2
  dsimp only at h
  split_ifs at h with hne
  · have hi : IntText (if sign = [] then (value v : Int) else -(value v : Int)) (sign ++ v) := by
      refine ⟨v, hv, ?_⟩
      rcases hs with rfl | rfl
      · exact .inl ⟨rfl, rfl⟩
      · exact .inr ⟨rfl, rfl⟩
    rw [pyInt_text hi] at h
    simp only [Option.some.injEq, Prod.mk.injEq] at h
    obtain ⟨rfl, rfl⟩ := h
    exact ⟨_, .int hi, rfl⟩
  · simp only [Option.some.injEq, Prod.mk.injEq] at h
    obtain ⟨rfl, rfl⟩ := h
    refine ⟨_, .float (.inl ⟨sign, v, _, _, hs, hv, hf, he, hne, rfl⟩), ?_⟩
    conv_lhs => rw [hf', he']
    simp only [List.append_assoc]

/-! ### Keys given twice -/

theorem set_map {V : Type} (ks : List (List Char)) (hk : ks.Nodup) (g : List Char → V) (k : List Char) (v : V) :
    Dict.set (ks.map fun j => (j, g j)) k v = if k ∈ ks then ks.map (fun j => (j, if j = k then v else g j)) else ks.map (fun j => (j, g j)) ++ [(k, v)] := by
  induction ks with
  | nil => rfl
  | cons j ks ih =>
    rw [List.nodup_cons] at hk
    rw [List.map_cons, Dict.set]
    by_cases hj : j = k
    · subst hj
      rw [if_pos rfl, if_pos (by simp), List.map_cons, if_pos rfl]
      refine congrArg _ (List.map_congr_left fun i hi => ?_)
      rw [if_neg]
      rintro rfl
      exact hk.1 hi
    · rw [if_neg hj, ih hk.2]
      by_cases hm : k ∈ ks
      · rw [if_pos hm, if_pos (by simp [hm]), List.map_cons, if_neg hj]
      · rw [if_neg hm, if_neg (by simp [hm, Ne.symm hj])]
        rfl

theorem eraseDups_nodup (l : List (List Char)) : l.eraseDups.Nodup := by
  generalize hn : l.length = n
  induction n using Nat.strongRecOn generalizing l with
  | ind n ih =>
    cases l with
    | nil => simp
    | cons a l =>
      rw [List.eraseDups_cons, List.nodup_cons]
      refine ⟨?_, ih _ ?_ _ rfl⟩
      · rw [List.mem_eraseDups]
        simp
      · subst hn
        have := List.length_filter_le (fun b => !b == a) l
        simp only [List.length_cons]
        omega

theorem toDict_lastWins (l : List (List Char × Doc F)) : toDict l = lastWins l := by
  induction l using List.reverseRecOn with
  | nil => rfl
  | append_singleton l x ih =>
    obtain ⟨k, v⟩ := x
    have h1 : toDict (l ++ [(k, v)]) = Dict.set (toDict l) k v := by simp [toDict, List.foldl_append]
    rw [h1, ih, lastWins, lastWins, set_map _ (eraseDups_nodup _)]
    simp only [List.map_append, List.map_cons, List.map_nil, List.reverse_append, List.reverse_cons, List.reverse_nil, List.nil_append, List.cons_append, List.find?_cons]
    rw [List.eraseDups_append]
    by_cases hk : k ∈ l.map Prod.fst
    · rw [if_pos (List.mem_eraseDups.2 hk)]
      have hr : List.removeAll [k] (l.map Prod.fst) = [] := by
        simp only [List.removeAll, List.filter_cons, List.filter_nil]
        rw [if_neg (by simpa using hk)]
      rw [hr, List.eraseDups_nil, List.append_nil]
      refine List.map_congr_left fun j _ => ?_
      by_cases hj : j = k
      · subst hj; simp
      · rw [if_neg hj]
        have : decide (k = j) = false := decide_eq_false (Ne.symm hj)
        rw [this]
    · rw [if_neg (fun h => hk (List.mem_eraseDups.1 h))]
      have hr : List.removeAll [k] (l.map Prod.fst) = [k] := by
        simp only [List.removeAll, List.filter_cons, List.filter_nil]
        rw [if_pos (by simpa using hk)]
      have h1 : ([k] : List (List Char)).eraseDups = [k] := by rw [List.eraseDups_cons]; rfl
      rw [hr, h1, List.map_append]
      congr 1
      · refine List.map_congr_left fun j hj => ?_
        have : decide (k = j) = false := decide_eq_false (by rintro rfl; exact hk (List.mem_eraseDups.1 hj))
        rw [this]
      · simp

/-! ### Every text is read -/

theorem text_head {read : List Char → F} {d : Doc F} {s : List Char} (h : Text read d s) :
    ∃ c r, s = c :: r ∧ c ≠ ' ' ∧ c ≠ '\t' ∧ c ≠ '\n' ∧ c ≠ '\r' ∧ c ≠ ']' ∧ c ≠ '}' := by
  have whole : ∀ w, Whole w → ∃ c r, w = c :: r ∧ c ≠ ' ' ∧ c ≠ '\t' ∧ c ≠ '\n' ∧ c ≠ '\r' ∧ c ≠ ']' ∧ c ≠ '}' := by
    intro w hw
    cases w with
    | nil => exact absurd rfl hw.1.1
    | cons c w =>
      refine ⟨c, w, rfl, ?_⟩
      have hc := hw.1.2 c (by simp)
      refine ⟨?_, ?_, ?_, ?_, ?_, ?_⟩ <;> · rintro rfl; exact absurd hc (by simp [Digit])
  cases h with
  | null => exact ⟨_, _, rfl, by decide⟩
  | true => exact ⟨_, _, rfl, by decide⟩
  | false => exact ⟨_, _, rfl, by decide⟩
  | int h =>
    obtain ⟨w, hw, ⟨h1, -⟩ | ⟨h1, -⟩⟩ := h
    · rw [h1]; exact whole w hw
    · rw [h1]; exact ⟨_, _, rfl, by decide⟩
  | float h =>
    rcases h with ⟨sign, w, f, e, hs, hw, -, -, -, rfl⟩ | rfl | rfl | rfl
    · rcases hs with rfl | rfl
      · obtain ⟨c, r, rfl, h⟩ := whole w hw
        exact ⟨c, _, rfl, h⟩
      · exact ⟨_, _, rfl, by decide⟩
    all_goals exact ⟨_, _, rfl, by decide⟩
  | str h => obtain ⟨u, -, rfl⟩ := h; exact ⟨_, _, rfl, by decide⟩
  | arrNil => exact ⟨_, _, rfl, by decide⟩
  | arr => exact ⟨_, _, rfl, by decide⟩
  | objNil => exact ⟨_, _, rfl, by decide⟩
  | obj => exact ⟨_, _, rfl, by decide⟩

theorem skip_text {read : List Char → F} {d : Doc F} {s : List Char} (h : Text read d s) (r : List Char) : skip (s ++ r) = s ++ r := by
  obtain ⟨c, t, rfl, h1, h2, h3, h4, -⟩ := text_head h
  rw [List.cons_append, skip_cons ⟨h1, h2, h3, h4⟩]

theorem skip_to {b : List Char} (hb : IsBlank b) {c : Char} (hc : c ≠ ' ' ∧ c ≠ '\t' ∧ c ≠ '\n' ∧ c ≠ '\r') (r : List Char) : skip (b ++ c :: r) = c :: r := by
  rw [skip_blank hb, skip_cons hc]

theorem stop_blank {b r : List Char} (hb : IsBlank b) (hr : Stop r) : Stop (b ++ r) := by
  cases b with
  | nil => exact hr
  | cons c b =>
    intro x hx
    have : x = c := by simpa using hx.symm
    subst this
    rcases hb x (by simp) with rfl | rfl | rfl | rfl <;> decide

theorem readDoc_digit (read : List Char → F) (k : Nat) {w : List Char} (hw : Whole w) (r : List Char) :
    readDoc read (k + 1) (w ++ r) = readNumber read (w ++ r) ∧ readDoc read (k + 1) ('-' :: (w ++ r)) = readNumber read ('-' :: (w ++ r)) := by
  cases w with
  | nil => exact absurd rfl hw.1.1
  | cons c w =>
    have hc := hw.1.2 c (by simp)
    refine ⟨readDoc_number read k c _ (.inr ((isDigit_iff c).2 hc)) ?_, readDoc_number read k '-' _ (.inl rfl) fun _ he => ?_⟩
    · rintro rfl; exact absurd hc (by simp [Digit])
    · have : c = 'I' := Option.some.inj he
      subst this
      exact absurd hc (by simp [Digit])

theorem items_head {read : List Char → F} {l : List (Doc F)} {s : List Char} (h : Items read l s) (r : List Char) :
    ∃ c u, skip (s ++ ']' :: r) = c :: u ∧ c ≠ ']' := by
  cases h with
  | one ha ht hb =>
    simp only [List.append_assoc]
    rw [skip_blank ha, skip_text ht]
    obtain ⟨c, u, rfl, -, -, -, -, hc, -⟩ := text_head ht
    exact ⟨c, _, rfl, hc⟩
  | more ha ht hb hi =>
    simp only [List.append_assoc]
    rw [skip_blank ha, skip_text ht]
    obtain ⟨c, u, rfl, -, -, -, -, hc, -⟩ := text_head ht
    exact ⟨c, _, rfl, hc⟩

theorem members_head {read : List Char → F} {l : List (List Char × Doc F)} {s : List Char} (h : Members read l s) (r : List Char) :
    ∃ u, skip (s ++ '}' :: r) = '"' :: u := by
  cases h with
  | one ha hq =>
    obtain ⟨u, hu, rfl⟩ := hq
    simp only [List.append_assoc, List.cons_append]
    rw [skip_to ha (by decide)]
    exact ⟨_, rfl⟩
  | more ha hq =>
    obtain ⟨u, hu, rfl⟩ := hq
    simp only [List.append_assoc, List.cons_append]
    rw [skip_to ha (by decide)]
    exact ⟨_, rfl⟩

mutual
theorem readDoc_text {read : List Char → F} {d : Doc F} {s : List Char} (h : Text read d s) (r : List Char) (hr : Stop r) (fuel : Nat) (hl : s.length < fuel) :
    readDoc read fuel (s ++ r) = some (d, r) := by
  obtain ⟨k, rfl⟩ : ∃ k, fuel = k + 1 := ⟨fuel - 1, by omega⟩
  cases h with
  | null => rfl
  | true => rfl
  | false => rfl
  | int h =>
    rw [← readNumber_whole (read := read) h hr]
    obtain ⟨w, hw, ⟨h1, -⟩ | ⟨h1, -⟩⟩ := h
    · rw [h1]; exact (readDoc_digit read k hw r).1
    · rw [h1]; exact (readDoc_digit read k hw r).2
  | float h =>
    rcases h with ⟨sign, w, f, e, hs, hw, hf, he, hne, h1⟩ | h1 | h1 | h1
    · have := readNumber_real (read := read) hs hw hf he hne hr
      rw [← h1] at this
      rw [← this, h1]
      simp only [List.append_assoc]
      rcases hs with rfl | rfl
      · exact (readDoc_digit read k hw _).1
      · exact (readDoc_digit read k hw _).2
    all_goals rw [h1]; rfl
  | str h =>
    obtain ⟨u, hu, rfl⟩ := h
    simp only [List.cons_append, List.append_assoc, List.nil_append]
    rw [readDoc, readStr_text hu r _ (by simp only [List.length_append, List.length_cons]; omega)]
    rfl
  | @arrNil b hb =>
    simp only [List.cons_append, List.append_assoc, List.nil_append]
    rw [readDoc, skip_to hb (by decide)]
    rfl
  | @arr l t h =>
    have h1 := readMore_items h r k (by simp only [List.length_cons, List.length_append, List.length_nil] at hl; omega)
    obtain ⟨c, u, hc, hne⟩ := items_head h r
    simp only [List.cons_append, List.append_assoc, List.nil_append]
    rw [readDoc]
    rw [hc] at h1 ⊢
    split
    · rename_i he; exact absurd (List.cons.inj he).1 hne
    · rw [h1]; rfl
  | @objNil b hb =>
    simp only [List.cons_append, List.append_assoc, List.nil_append]
    rw [readDoc, skip_to hb (by decide)]
    rfl
  | @obj l t h =>
    have h1 := readPairs_members h r k (by simp only [List.length_cons, List.length_append, List.length_nil] at hl; omega)
    obtain ⟨u, hc⟩ := members_head h r
    simp only [List.cons_append, List.append_assoc, List.nil_append]
    rw [readDoc]
    rw [hc] at h1 ⊢
    split
    · rename_i he; exact absurd (List.cons.inj he).1 (by decide)
    · rw [h1, Option.map_some, toDict_lastWins]
termination_by fuel
theorem readMore_items {read : List Char → F} {l : List (Doc F)} {s : List Char} (h : Items read l s) (r : List Char) (fuel : Nat) (hl : s.length + 1 < fuel) :
    readMore read fuel (skip (s ++ ']' :: r)) = some (l, r) := by
  obtain ⟨k, rfl⟩ : ∃ k, fuel = k + 1 := ⟨fuel - 1, by omega⟩
  cases h with
  | @one a t b d ha ht hb =>
    simp only [List.length_append] at hl
    simp only [List.append_assoc]
    have hs : Stop (']' :: r) := by intro c hc; obtain rfl : c = ']' := by simpa using hc.symm
                                    decide
    rw [skip_blank ha, skip_text ht, readMore, readDoc_text ht _ (stop_blank hb hs) k (by omega)]
    simp only
    rw [skip_to hb (by decide)]
    rfl
  | @more a t b u d l ha ht hb hi =>
    simp only [List.length_append, List.length_cons] at hl
    simp only [List.append_assoc, List.cons_append]
    have hs : Stop (',' :: (u ++ ']' :: r)) := by intro c hc; obtain rfl : c = ',' := by simpa using hc.symm
                                                  decide
    rw [skip_blank ha, skip_text ht, readMore, readDoc_text ht _ (stop_blank hb hs) k (by omega)]
    simp only
    rw [skip_to hb (by decide)]
    simp only
    rw [readMore_items hi r k (by omega)]
    rfl
termination_by fuel
theorem readPairs_members {read : List Char → F} {l : List (List Char × Doc F)} {s : List Char} (h : Members read l s) (r : List Char) (fuel : Nat) (hl : s.length + 1 < fuel) :
    readPairs read fuel (skip (s ++ '}' :: r)) = some (l, r) := by
  obtain ⟨k, rfl⟩ : ∃ k, fuel = k + 1 := ⟨fuel - 1, by omega⟩
  cases h with
  | @one a q b c t e key d ha hq hb hc ht he =>
    obtain ⟨u, hu, rfl⟩ := hq
    simp only [List.length_append, List.length_cons] at hl
    have hs : Stop ('}' :: r) := by intro c hc; obtain rfl : c = '}' := by simpa using hc.symm
                                    decide
    simp only [List.append_assoc, List.cons_append, List.nil_append]
    rw [skip_to ha (by decide), readPairs, readStr_text hu _ _ (by simp only [List.length_append, List.length_cons]; omega)]
    simp only
    rw [skip_to hb (by decide)]
    simp only
    rw [skip_blank hc, skip_text ht, readDoc_text ht _ (stop_blank he hs) k (by omega)]
    simp only
    rw [skip_to he (by decide)]
    rfl
  | @more a q b c t e v key d l ha hq hb hc ht he hm =>
    obtain ⟨u, hu, rfl⟩ := hq
    simp only [List.length_append, List.length_cons] at hl
    have hs : Stop (',' :: (v ++ '}' :: r)) := by intro c hc; obtain rfl : c = ',' := by simpa using hc.symm
                                                  decide
    simp only [List.append_assoc, List.cons_append, List.nil_append]
    rw [skip_to ha (by decide), readPairs, readStr_text hu _ _ (by simp only [List.length_append, List.length_cons]; omega)]
    simp only
    rw [skip_to hb (by decide)]
    simp only
    rw [skip_blank hc, skip_text ht, readDoc_text ht _ (stop_blank he hs) k (by omega)]
    simp only
    rw [skip_to he (by decide)]
    simp only
    rw [readPairs_members hm r k (by omega)]
    rfl
termination_by fuel
end

/-! ### Nothing else is read -/

theorem items_blank {read : List Char → F} {l : List (Doc F)} {s a : List Char} (ha : IsBlank a) (h : Items read l s) : Items read l (a ++ s) := by
  have app : ∀ b, IsBlank b → IsBlank (a ++ b) := fun b hb c hc => (List.mem_append.1 hc).elim (ha c) (hb c)
  cases h with
  | one h1 h2 h3 => rw [← List.append_assoc]; exact .one (app _ h1) h2 h3
  | more h1 h2 h3 h4 => rw [← List.append_assoc]; exact .more (app _ h1) h2 h3 h4

theorem members_blank {read : List Char → F} {l : List (List Char × Doc F)} {s a : List Char} (ha : IsBlank a) (h : Members read l s) : Members read l (a ++ s) := by
  have app : ∀ b, IsBlank b → IsBlank (a ++ b) := fun b hb c hc => (List.mem_append.1 hc).elim (ha c) (hb c)
  cases h with
  | one h1 h2 h3 h4 h5 h6 => rw [← List.append_assoc]; exact .one (app _ h1) h2 h3 h4 h5 h6
  | more h1 h2 h3 h4 h5 h6 h7 => rw [← List.append_assoc]; exact .more (app _ h1) h2 h3 h4 h5 h6 h7

theorem blank_nil : IsBlank [] := fun _ h => nomatch h

theorem read_sound (read : List Char → F) (fuel : Nat) :
    (∀ s d r, readDoc read fuel s = some (d, r) → ∃ t, Text read d t ∧ s = t ++ r) ∧
    (∀ s l r, readMore read fuel s = some (l, r) → ∃ t, Items read l t ∧ s = t ++ ']' :: r) ∧
    (∀ s l r, readPairs read fuel s = some (l, r) → ∃ t, Members read l t ∧ s = t ++ '}' :: r) := by
  induction fuel with
  | zero => exact ⟨nofun, nofun, nofun⟩
  | succ n ih =>
    obtain ⟨ih1, ih2, ih3⟩ := ih
    refine ⟨fun s d r h => ?_, fun s l r h => ?_, fun s l r h => ?_⟩
    · unfold readDoc at h
      split at h
      · rename_i r'
        cases hs : readStr (r'.length + 1) r' with
        | none => rw [hs] at h; cases h
        | some p =>
          obtain ⟨k, r''⟩ := p
          rw [hs] at h
          simp only [Option.map_some, Option.some.injEq, Prod.mk.injEq] at h
          obtain ⟨rfl, rfl⟩ := h
          obtain ⟨u, hu, rfl⟩ := readStr_sound _ _ _ _ hs
          exact ⟨_, .str ⟨u, hu, rfl⟩, by simp⟩
      · rename_i r'
        obtain ⟨a, ha, he⟩ := skip_split r'
        split at h
        · rename_i r'' hs
          simp only [Option.some.injEq, Prod.mk.injEq] at h
          obtain ⟨rfl, rfl⟩ := h
          rw [hs] at he
          subst he
          exact ⟨_, .objNil ha, by simp⟩
        · cases hp : readPairs read n (skip r') with
          | none => rw [hp] at h; cases h
          | some p =>
            obtain ⟨l, r''⟩ := p
            rw [hp] at h
            simp only [Option.map_some, Option.some.injEq, Prod.mk.injEq] at h
            obtain ⟨rfl, rfl⟩ := h
            obtain ⟨t, ht, he'⟩ := ih3 _ _ _ hp
            rw [he'] at he
            subst he
            rw [toDict_lastWins]
            exact ⟨_, .obj (members_blank ha ht), by simp⟩
      · rename_i r'
        obtain ⟨a, ha, he⟩ := skip_split r'
        split at h
        · rename_i r'' hs
          simp only [Option.some.injEq, Prod.mk.injEq] at h
          obtain ⟨rfl, rfl⟩ := h
          rw [hs] at he
          subst he
          exact ⟨_, .arrNil ha, by simp⟩
        · cases hp : readMore read n (skip r') with
          | none => rw [hp] at h; cases h
          | some p =>
            obtain ⟨l, r''⟩ := p
            rw [hp] at h
            simp only [Option.map_some, Option.some.injEq, Prod.mk.injEq] at h
            obtain ⟨rfl, rfl⟩ := h
            obtain ⟨t, ht, he'⟩ := ih2 _ _ _ hp
            rw [he'] at he
            subst he
            exact ⟨_, .arr (items_blank ha ht), by simp⟩
      · simp only [Option.some.injEq, Prod.mk.injEq] at h
        obtain ⟨rfl, rfl⟩ := h
        exact ⟨_, .null, rfl⟩
      · simp only [Option.some.injEq, Prod.mk.injEq] at h
        obtain ⟨rfl, rfl⟩ := h
        exact ⟨_, .true, rfl⟩
      · simp only [Option.some.injEq, Prod.mk.injEq] at h
        obtain ⟨rfl, rfl⟩ := h
        exact ⟨_, .false, rfl⟩
      · simp only [Option.some.injEq, Prod.mk.injEq] at h
        obtain ⟨rfl, rfl⟩ := h
        exact ⟨_, .float (.inr (.inl rfl)), rfl⟩
      · simp only [Option.some.injEq, Prod.mk.injEq] at h
        obtain ⟨rfl, rfl⟩ := h
        exact ⟨_, .float (.inr (.inr (.inl rfl))), rfl⟩
      · simp only [Option.some.injEq, Prod.mk.injEq] at h
        obtain ⟨rfl, rfl⟩ := h
        exact ⟨_, .float (.inr (.inr (.inr rfl))), rfl⟩
      · exact readNumber_sound h
    · unfold readMore at h
      cases hd : readDoc read n s with
      | none => rw [hd] at h; cases h
      | some p =>
        obtain ⟨d, r'⟩ := p
        obtain ⟨t, ht, rfl⟩ := ih1 _ _ _ hd
        rw [hd] at h
        simp only at h
        obtain ⟨b, hb, he⟩ := skip_split r'
        split at h
        · rename_i r'' hs
          simp only [Option.some.injEq, Prod.mk.injEq] at h
          obtain ⟨rfl, rfl⟩ := h
          rw [hs] at he
          subst he
          exact ⟨_, .one blank_nil ht hb, by simp⟩
        · rename_i r'' hs
          rw [hs] at he
          cases hm : readMore read n (skip r'') with
          | none => rw [hm] at h; cases h
          | some p =>
            obtain ⟨l', r3⟩ := p
            rw [hm] at h
            simp only [Option.map_some, Option.some.injEq, Prod.mk.injEq] at h
            obtain ⟨rfl, rfl⟩ := h
            obtain ⟨u, hu, he'⟩ := ih2 _ _ _ hm
            obtain ⟨a, ha, he2⟩ := skip_split r''
            rw [he'] at he2
            subst he2
            subst he
            exact ⟨_, .more blank_nil ht hb (items_blank ha hu), by simp⟩
        · cases h
    · unfold readPairs at h
      split at h
      · rename_i r0
        cases hs : readStr (r0.length + 1) r0 with
        | none => rw [hs] at h; cases h
        | some p =>
          obtain ⟨k, r1⟩ := p
          rw [hs] at h
          simp only at h
          obtain ⟨u, hu, rfl⟩ := readStr_sound _ _ _ _ hs
          obtain ⟨b, hb, he⟩ := skip_split r1
          split at h
          · rename_i r2 hs2
            rw [hs2] at he
            obtain ⟨c, hc, he2⟩ := skip_split r2
            cases hd : readDoc read n (skip r2) with
            | none => rw [hd] at h; cases h
            | some p =>
              obtain ⟨d, r3⟩ := p
              obtain ⟨t, ht, he3⟩ := ih1 _ _ _ hd
              rw [hd] at h
              simp only at h
              obtain ⟨e, hee, he4⟩ := skip_split r3
              split at h
              · rename_i r4 hs4
                simp only [Option.some.injEq, Prod.mk.injEq] at h
                obtain ⟨rfl, rfl⟩ := h
                rw [hs4] at he4
                rw [he3, he4] at he2
                rw [he2] at he
                rw [he]
                exact ⟨_, .one blank_nil ⟨u, hu, rfl⟩ hb hc ht hee, by simp⟩
              · rename_i r4 hs4
                rw [hs4] at he4
                cases hm : readPairs read n (skip r4) with
                | none => rw [hm] at h; cases h
                | some p =>
                  obtain ⟨l', r5⟩ := p
                  rw [hm] at h
                  simp only [Option.map_some, Option.some.injEq, Prod.mk.injEq] at h
                  obtain ⟨rfl, rfl⟩ := h
                  obtain ⟨v, hv, he5⟩ := ih3 _ _ _ hm
                  obtain ⟨a, ha, he6⟩ := skip_split r4
                  rw [he5] at he6
                  rw [he3, he4, he6] at he2
                  rw [he2] at he
                  rw [he]
                  exact ⟨_, .more blank_nil ⟨u, hu, rfl⟩ hb hc ht hee (members_blank ha hv), by simp⟩
              · cases h
          · cases h
      · cases h

/-- C104: `json.loads` reads the JSON texts (and with them the three names of floats that are no numbers), each as the document it denotes, and no others. -/
theorem C104_text (read : List Char → F) (s : List Char) (d : Doc F) : loads read s = .ok d ↔ JsonText read d s := by
  constructor
  · intro h
    unfold loads at h
    split at h
    · rename_i d' r hd
      split_ifs at h with hr
      obtain rfl := Except.ok.inj h
      obtain ⟨a, ha, he⟩ := skip_split s
      obtain ⟨t, ht, he'⟩ := (read_sound read _).1 _ _ _ hd
      rw [he'] at he
      exact ⟨a, t, r, ha, ht, skip_nil hr, he⟩
    · cases h
  · rintro ⟨a, t, b, ha, ht, hb, rfl⟩
    have hs : Stop b := by
      have := stop_blank (r := []) hb (fun _ h => nomatch h)
      rwa [List.append_nil] at this
    rw [loads, skip_blank ha, skip_text ht, readDoc_text ht b hs _ (by simp only [List.length_append]; omega)]
    simp only
    rw [if_pos (skip_of_blank hb)]

/-- C104: a text denotes one document at most. -/
theorem C104_unique {read : List Char → F} {s : List Char} {d d' : Doc F} (h : JsonText read d s) (h' : JsonText read d' s) : d = d' :=
  Except.ok.inj (((C104_text read s d).2 h).symm.trans ((C104_text read s d').2 h'))

end Json
end Draftsman
