import Verif.Model.Json
import Verif.Proof.Py
import Verif.Props.Codec
import Mathlib.Tactic.SplitIfs
import Mathlib.Tactic.IntervalCases
import Mathlib.Data.List.Basic
/-
C03, C57 with the codecs of Python's library in the place of parameters.
-/
namespace Draftsman
namespace Json

variable {F : Type}

/-! ### base64 -/

theorem sixBits_letter (n : Nat) (h : n < 64) : sixBits (letter n) = some n ∧ letter n ≠ '=' ∧ (letter n).toNat < 128 := by
  interval_cases n <;> decide

theorem a2b_letter (pos left pads n : Nat) (h : n < 64) (r : List Char) :
    a2b pos left pads (letter n :: r) = if pos = 0 then a2b 1 n 0 r
        else if pos = 1 then (a2b 2 (n % 16) 0 r).map (byte (left * 4 + n / 16) :: ·)
        else if pos = 2 then (a2b 3 (n % 4) 0 r).map (byte (left * 16 + n / 4) :: ·)
        else (a2b 0 0 0 r).map (byte (left * 64 + n) :: ·) := by
  obtain ⟨h1, h2, -⟩ := sixBits_letter n h
  rw [a2b, if_neg h2, h1]

theorem byte_eq (a : Fin 256) (n : Nat) (h : n = a.val) : byte n = a := by
  subst h
  exact Fin.ofNat_val_eq_self a

theorem a2b_encode (b : List (Fin 256)) : a2b 0 0 0 (b64encode b) = .ok b := by
  induction b using b64encode.induct with
  | case1 => rfl
  | case2 a =>
    have ha := a.isLt
    rw [b64encode, a2b_letter _ _ _ _ (by omega), if_pos rfl, a2b_letter _ _ _ _ (by omega), if_neg (by decide), if_pos rfl, a2b, if_pos rfl, if_neg (by decide), a2b,
      if_pos rfl, if_pos (by decide)]
    exact congrArg _ (congrArg (· :: []) (byte_eq a _ (by omega)))
  | case3 a b =>
    have ha := a.isLt
    have hb := b.isLt
    rw [b64encode, a2b_letter _ _ _ _ (by omega), if_pos rfl, a2b_letter _ _ _ _ (by omega), if_neg (by decide), if_pos rfl,
      a2b_letter _ _ _ _ (by omega), if_neg (by decide), if_neg (by decide), if_pos rfl, a2b, if_pos rfl, if_pos (by decide)]
    have h1 := byte_eq a (a.val / 4 * 4 + (a.val % 4 * 16 + b.val / 16) / 16) (by omega)
    have h2 := byte_eq b ((a.val % 4 * 16 + b.val / 16) % 16 * 16 + b.val % 16 * 4 / 4) (by omega)
    simp only [Except.map, h1, h2]
  | case4 a b c r ih =>
    have ha := a.isLt
    have hb := b.isLt
    have hc := c.isLt
    rw [b64encode, a2b_letter _ _ _ _ (by omega), if_pos rfl, a2b_letter _ _ _ _ (by omega), if_neg (by decide), if_pos rfl,
      a2b_letter _ _ _ _ (by omega), if_neg (by decide), if_neg (by decide), if_pos rfl,
      a2b_letter _ _ _ _ (by omega), if_neg (by decide), if_neg (by decide), if_neg (by decide), ih]
    have h1 := byte_eq a (a.val / 4 * 4 + (a.val % 4 * 16 + b.val / 16) / 16) (by omega)
    have h2 := byte_eq b ((a.val % 4 * 16 + b.val / 16) % 16 * 16 + (b.val % 16 * 4 + c.val / 64) / 4) (by omega)
    have h3 := byte_eq c ((b.val % 16 * 4 + c.val / 64) % 4 * 64 + c.val % 64) (by omega)
    simp only [Except.map, h1, h2, h3]

theorem b64encode_ascii (b : List (Fin 256)) : ∀ c ∈ b64encode b, c.toNat < 128 := by
  have hl : ∀ n < 64, (letter n).toNat < 128 := fun n h => (sixBits_letter n h).2.2
  have he : ('=' : Char).toNat < 128 := by decide
  induction b using b64encode.induct with
  | case1 => intro c hc; cases hc
  | case2 a =>
    have ha := a.isLt
    intro c hc
    simp only [b64encode, List.mem_cons, List.not_mem_nil, or_false] at hc
    rcases hc with rfl | rfl | rfl | rfl
    exacts [hl _ (by omega), hl _ (by omega), he, he]
  | case3 a b =>
    have ha := a.isLt
    have hb := b.isLt
    intro c hc
    simp only [b64encode, List.mem_cons, List.not_mem_nil, or_false] at hc
    rcases hc with rfl | rfl | rfl | rfl
    exacts [hl _ (by omega), hl _ (by omega), hl _ (by omega), he]
  | case4 a b c r ih =>
    have ha := a.isLt
    have hb := b.isLt
    have hc := c.isLt
    intro x hx
    simp only [b64encode, List.mem_cons] at hx
    rcases hx with rfl | rfl | rfl | rfl | hx
    exacts [hl _ (by omega), hl _ (by omega), hl _ (by omega), hl _ (by omega), ih x hx]

/-- C03: `base64` decodes what it encoded, for all bytes. -/
theorem C03_base64 (b : List (Fin 256)) : b64decode (b64encode b) = .ok b := by
  rw [b64decode, if_pos, a2b_encode]
  rw [List.all_eq_true]
  exact fun c hc => decide_eq_true (b64encode_ascii b c hc)

/-! ### Strings -/

theorem hexVal_hexDigit (n : Nat) (h : n < 16) : hexVal (hexDigit n) = some n := by
  interval_cases n <;> decide

theorem readHex4_hex4 (n : Nat) (h : n < 65536) (r : List Char) :
    readHex4 (hexDigit (n / 4096 % 16) :: hexDigit (n / 256 % 16) :: hexDigit (n / 16 % 16) :: hexDigit (n % 16) :: r) = some (n, r) := by
  rw [readHex4, hexVal_hexDigit _ (by omega), hexVal_hexDigit _ (by omega), hexVal_hexDigit _ (by omega), hexVal_hexDigit _ (by omega)]
  have : n / 4096 % 16 * 4096 + n / 256 % 16 * 256 + n / 16 % 16 * 16 + n % 16 = n := by omega
  simp only [this]

theorem char_valid (c : Char) : c.toNat < 55296 ∨ (57343 < c.toNat ∧ c.toNat < 1114112) := c.valid

theorem readChar_escape (c : Char) (r : List Char) : readChar (escape c ++ r) = some (c, r) := by
  unfold escape
  by_cases h1 : c = '"'
  · subst h1; rfl
  rw [if_neg h1]
  by_cases h2 : c = '\\'
  · subst h2; rfl
  rw [if_neg h2]
  by_cases h3 : c = '\n'
  · subst h3; rfl
  rw [if_neg h3]
  by_cases h4 : c = '\r'
  · subst h4; rfl
  rw [if_neg h4]
  by_cases h5 : c = '\t'
  · subst h5; rfl
  rw [if_neg h5]
  by_cases h6 : c = '\x0c'
  · subst h6; rfl
  rw [if_neg h6]
  by_cases h7 : c = '\x08'
  · subst h7; rfl
  rw [if_neg h7]
  by_cases h8 : 32 ≤ c.toNat ∧ c.toNat ≤ 126
  · rw [if_pos h8]
    simp only [List.cons_append, List.nil_append, readChar]
    rw [if_neg h2, if_neg (by omega)]
  rw [if_neg h8]
  have hv := char_valid c
  by_cases h9 : c.toNat < 65536
  · rw [if_pos h9]
    simp only [hex4, List.cons_append, List.nil_append]
    rw [readChar, if_pos rfl, readEscape, if_pos rfl, readHex4_hex4 _ h9]
    simp only
    rw [if_neg (by omega), if_neg (by omega), Char.ofNat_toNat]
  · rw [if_neg h9]
    simp only [hex4, List.cons_append, List.nil_append]
    rw [readChar, if_pos rfl, readEscape, if_pos rfl, readHex4_hex4 _ (by omega)]
    simp only
    rw [if_pos (by omega), readLow, readHex4_hex4 _ (by omega)]
    simp only
    rw [if_pos (by omega)]
    have : 65536 + (55296 + (c.toNat - 65536) / 1024 - 55296) * 1024 + (56320 + (c.toNat - 65536) % 1024 - 56320) = c.toNat := by omega
    rw [this, Char.ofNat_toNat]

theorem escape_head (c : Char) : ∃ x y, escape c = x :: y ∧ x ≠ '"' := by
  unfold escape
  split_ifs with h1 <;> first | exact ⟨_, _, rfl, by decide⟩ | exact ⟨_, _, rfl, h1⟩

theorem readStr_quote (s r : List Char) (fuel : Nat) (h : (s.flatMap escape).length < fuel) : readStr fuel (s.flatMap escape ++ '"' :: r) = some (s, r) := by
  induction s generalizing fuel with
  | nil => cases fuel with
    | zero => simp at h
    | succ k => rfl
  | cons c s ih =>
    cases fuel with
    | zero => simp at h
    | succ k =>
      obtain ⟨x, y, hxy, hx⟩ := escape_head c
      rw [List.flatMap_cons, List.append_assoc]
      have hc := readChar_escape c (s.flatMap escape ++ '"' :: r)
      rw [hxy] at hc ⊢
      rw [List.cons_append] at hc ⊢
      rw [readStr]
      · rw [hc]
        simp only
        rw [ih]
        · rfl
        · rw [List.flatMap_cons, hxy] at h
          simp only [List.cons_append, List.length_cons, List.length_append] at h
          omega
      · intro r' he
        exact hx (List.cons.inj he).1

/-! ### Numbers -/

/-- What may follow a value: nothing, a comma or a closing bracket. -/
def Ends (r : List Char) : Prop := ∀ c ∈ r.head?, c = ',' ∨ c = ']' ∨ c = '}'

/-- How Python writes a float: `-?digits(.digits)?(e[+-]digits)?`, without needless zeros in front, and with one of the last two parts at least. -/
structure Written where
  neg : Bool
  whole : List Char
  fraction : List Char
  exponent : Option (Bool × List Char)

/-- Its text. -/
def Written.text (l : Written) : List Char :=
  (if l.neg then ['-'] else []) ++ l.whole ++ (if l.fraction = [] then [] else '.' :: l.fraction) ++
    match l.exponent with
    | none => []
    | some (neg, e) => 'e' :: (if neg then '-' else '+') :: e

/-- It is one. -/
def Written.Valid (l : Written) : Prop :=
  (l.whole = ['0'] ∨ (l.whole ≠ [] ∧ l.whole.head? ≠ some '0')) ∧ (∀ c ∈ l.whole, isDigit c = true) ∧ (∀ c ∈ l.fraction, isDigit c = true) ∧
  (∀ x, l.exponent = some x → x.2 ≠ [] ∧ ∀ c ∈ x.2, isDigit c = true) ∧ (l.fraction ≠ [] ∨ l.exponent ≠ none)

/-- What Python documents of floats: they are written in this way, and read as they were. -/
def Floats (repr : F → List Char) (read : List Char → F) : Prop :=
  ∀ x, ((∃ l : Written, l.Valid ∧ repr x = l.text) ∨ repr x = "NaN".toList ∨ repr x = "Infinity".toList ∨ repr x = "-Infinity".toList) ∧ read (repr x) = x

theorem takeWhile_digits {l r : List Char} (hl : ∀ c ∈ l, isDigit c = true) (hr : ∀ c ∈ r.head?, isDigit c = false) :
    (l ++ r).takeWhile isDigit = l ∧ (l ++ r).dropWhile isDigit = r := by
  induction l with
  | nil =>
    cases r with
    | nil => exact ⟨rfl, rfl⟩
    | cons c r =>
      have := hr c (by simp)
      simp [this]
  | cons c l ih =>
    have hc := hl c List.mem_cons_self
    obtain ⟨a, b⟩ := ih fun x hx => hl x (List.mem_cons_of_mem _ hx)
    exact ⟨by rw [List.cons_append, List.takeWhile_cons, hc, if_pos rfl, a], by rw [List.cons_append, List.dropWhile_cons, hc, if_pos rfl, b]⟩

theorem readWhole_text (neg : Bool) (w r : List Char) (h0 : w = ['0'] ∨ (w ≠ [] ∧ w.head? ≠ some '0')) (hd : ∀ c ∈ w, isDigit c = true)
    (hr : ∀ c ∈ r.head?, isDigit c = false) : readWhole ((if neg then ['-'] else []) ++ w ++ r) = some ((if neg then ['-'] else []) ++ w, r) := by
  have key : ∀ sign : List Char, (match w ++ r with
      | '0' :: r => some (sign ++ ['0'], r)
      | r => if r.takeWhile isDigit = [] then none else some (sign ++ r.takeWhile isDigit, r.dropWhile isDigit)) = some (sign ++ w, r) := by
    intro sign
    rcases h0 with rfl | ⟨h1, h2⟩
    · rfl
    · obtain ⟨a, b⟩ := takeWhile_digits hd hr
      split
      · rename_i r' he
        cases w with
        | nil => exact absurd rfl h1
        | cons c w =>
          rw [List.cons_append] at he
          exact absurd (by rw [(List.cons.inj he).1]; rfl) h2
      · rw [a, b, if_neg h1]
  cases neg
  · have hh : (w ++ r).head? ≠ some '-' := by
      cases w with
      | nil => rcases h0 with h | h
               · cases h
               · exact absurd rfl h.1
      | cons c w =>
        intro he
        simp only [List.cons_append, List.head?_cons, Option.some.injEq] at he
        subst he
        exact absurd (hd '-' List.mem_cons_self) (by decide)
    have e1 : ((if false = true then ['-'] else []) ++ w ++ r : List Char) = w ++ r := rfl
    rw [e1]
    unfold readWhole
    rw [if_neg hh]
    exact key []
  · exact key ['-']

theorem isDigit_ends {r : List Char} (hr : Ends r) : ∀ c ∈ r.head?, isDigit c = false := by
  intro c hc
  rcases hr c hc with rfl | rfl | rfl <;> decide

theorem readFraction_ends {r : List Char} (hr : Ends r) : readFraction r = ([], r) := by
  unfold readFraction
  split
  · exact absurd (hr '.' (by simp)) (by decide)
  · rfl

theorem readExponent_ends {r : List Char} (hr : Ends r) : readExponent r = ([], r) := by
  unfold readExponent
  split
  · rfl
  · rename_i e r
    rw [if_neg]
    rintro (rfl | rfl)
    · exact absurd (hr 'e' (by simp)) (by decide)
    · exact absurd (hr 'E' (by simp)) (by decide)

theorem digit_isDigit (n : Nat) (h : n < 10) : isDigit (digitChar n) = true := by
  rw [isDigit, digitVal_digitChar n h]; rfl

theorem natStr_isDigit (n : Nat) : ∀ c ∈ natStr n, isDigit c = true := by
  intro c hc
  obtain ⟨m, hm, rfl⟩ := natStr_allDigits n c hc
  exact digit_isDigit m hm

theorem natStr_head (n : Nat) : natStr n = ['0'] ∨ (natStr n ≠ [] ∧ (natStr n).head? ≠ some '0') := by
  fun_induction natStr n with
  | case1 n h => interval_cases n <;> decide
  | case2 n h ih =>
    right
    have hne := natStr_ne_nil (n / 10)
    refine ⟨by simp, ?_⟩
    rw [List.head?_append]
    rcases ih with ih | ih
    · exfalso
      have h1 := pyNat_natStr (n / 10)
      rw [ih] at h1
      have h2 : pyNat ['0'] = some 0 := by decide
      rw [h2] at h1
      have := Option.some.inj h1
      omega
    · cases hs : natStr (n / 10) with
      | nil => exact absurd hs hne
      | cons c l => rw [hs] at ih; exact ih.2

theorem readNumber_int (read : List Char → F) (n : Int) (r : List Char) (hr : Ends r) : readNumber read (intStr n ++ r) = some (.int n, r) := by
  have h : ∃ (neg : Bool) (m : Nat), intStr n = (if neg then ['-'] else []) ++ natStr m := by
    cases n with
    | ofNat m => exact ⟨false, m, rfl⟩
    | negSucc m => exact ⟨true, m + 1, rfl⟩
  obtain ⟨neg, m, h⟩ := h
  have h1 := readWhole_text neg (natStr m) r (natStr_head m) (natStr_isDigit m) (isDigit_ends hr)
  unfold readNumber
  rw [h, h1]
  simp only [readFraction_ends hr, readExponent_ends hr]
  rw [if_pos ⟨trivial, trivial⟩, ← h, pyInt_intStr]

theorem readExponent_text (neg : Bool) (e r : List Char) (he : e ≠ []) (hd : ∀ c ∈ e, isDigit c = true) (hr : Ends r) :
    readExponent ('e' :: (if neg then '-' else '+') :: e ++ r) = ('e' :: (if neg then '-' else '+') :: e, r) := by
  obtain ⟨a, b⟩ := takeWhile_digits hd (isDigit_ends hr)
  have hs : (if neg then '-' else '+') = '-' ∨ (if neg then '-' else '+') = '+' := by cases neg <;> decide
  generalize (if neg then '-' else '+') = c at hs
  rw [List.cons_append, List.cons_append, readExponent, if_pos (Or.inl rfl)]
  dsimp only
  rw [readSign, if_pos hs]
  simp only [List.length_cons, List.length_nil, List.drop_succ_cons, List.drop_zero, Nat.zero_add]
  rw [a, b, if_neg he]
  rfl

theorem readNumber_float (read : List Char → F) (l : Written) (hl : l.Valid) (r : List Char) (hr : Ends r) :
    readNumber read (l.text ++ r) = some (.float (read l.text), r) := by
  obtain ⟨h1, h2, h3, h4, h5⟩ := hl
  obtain ⟨neg, w, f, e⟩ := l
  simp only at h1 h2 h3 h4 h5
  -- the exponent
  let E : List Char := match e with
    | none => []
    | some (neg, e) => 'e' :: (if neg then '-' else '+') :: e
  have hE : readExponent (E ++ r) = (E, r) ∧ (∀ c ∈ (E ++ r).head?, isDigit c = false) ∧ (∀ c ∈ (E ++ r).head?, c ≠ '.') ∧ (e ≠ none → E ≠ []) := by
    rcases e with _ | ⟨b, e⟩
    · refine ⟨readExponent_ends hr, isDigit_ends hr, ?_, fun h => absurd rfl h⟩
      intro c hc
      rcases hr c hc with rfl | rfl | rfl <;> decide
    · obtain ⟨h6, h7⟩ := h4 _ rfl
      refine ⟨readExponent_text b e r h6 h7 hr, ?_, ?_, fun _ => by simp [E]⟩ <;>
      · intro c hc
        have : c = 'e' := by simpa [E] using hc.symm
        subst this
        decide
  obtain ⟨hE1, hE2, hE3, hE4⟩ := hE
  -- the fraction
  let D : List Char := if f = [] then [] else '.' :: f
  have hD : readFraction (D ++ (E ++ r)) = (D, E ++ r) ∧ (∀ c ∈ (D ++ (E ++ r)).head?, isDigit c = false) ∧ (f ≠ [] → D ≠ []) := by
    by_cases hf : f = []
    · have : D = [] := if_pos hf
      rw [this]
      refine ⟨?_, hE2, fun h => absurd hf h⟩
      rw [List.nil_append]
      unfold readFraction
      split
      · rename_i x hx
        rw [hx] at hE3
        exact absurd rfl (hE3 '.' (by simp))
      · rfl
    · have : D = '.' :: f := if_neg hf
      rw [this]
      obtain ⟨a, b⟩ := takeWhile_digits h3 hE2
      refine ⟨?_, ?_, by simp⟩
      · rw [List.cons_append, readFraction, a, b, if_neg hf]
      · intro c hc
        have : c = '.' := by simpa using hc.symm
        subst this
        decide
  obtain ⟨hD1, hD2, hD3⟩ := hD
  have ht : Written.text ⟨neg, w, f, e⟩ = (if neg then ['-'] else []) ++ w ++ D ++ E := by
    simp only [E]
    rcases e with _ | ⟨_, _⟩ <;> rfl
  have hw := readWhole_text neg w (D ++ (E ++ r)) h1 h2 hD2
  have ha : (if neg then ['-'] else []) ++ w ++ D ++ E ++ r = (if neg then ['-'] else []) ++ w ++ (D ++ (E ++ r)) := by simp only [List.append_assoc]
  rw [ht, ha]
  unfold readNumber
  rw [hw]
  simp only [hD1, hE1]
  rw [if_neg]
  rintro ⟨hx, hy⟩
  rcases h5 with h5 | h5
  · exact hD3 h5 hx
  · exact hE4 h5 hy

/-! ### Documents -/

mutual
/-- No dictionary in it has a key twice, as is the case of every Python dictionary. -/
def Doc.Proper : Doc F → Prop
  | .arr l => properList l
  | .obj l => (l.map Prod.fst).Nodup ∧ properPairs l
  | _ => True
@[inherit_doc Doc.Proper] def properList : List (Doc F) → Prop
  | [] => True
  | d :: l => d.Proper ∧ properList l
@[inherit_doc Doc.Proper] def properPairs : List (List Char × Doc F) → Prop
  | [] => True
  | (_, d) :: l => d.Proper ∧ properPairs l
end

theorem readDoc_number (read : List Char → F) (k : Nat) (c : Char) (r : List Char) (h' : c = '-' ∨ isDigit c = true) (hr : c = '-' → r.head? ≠ some 'I') :
    readDoc read (k + 1) (c :: r) = readNumber read (c :: r) := by
  have h := h'
  unfold readDoc
  split
  · rename_i he; rw [(List.cons.inj he).1] at h; exact absurd h (by decide)
  · rename_i he; rw [(List.cons.inj he).1] at h; exact absurd h (by decide)
  · rename_i he; rw [(List.cons.inj he).1] at h; exact absurd h (by decide)
  · rename_i he; rw [(List.cons.inj he).1] at h; exact absurd h (by decide)
  · rename_i he; rw [(List.cons.inj he).1] at h; exact absurd h (by decide)
  · rename_i he; rw [(List.cons.inj he).1] at h; exact absurd h (by decide)
  · rename_i he; rw [(List.cons.inj he).1] at h; exact absurd h (by decide)
  · rename_i he; rw [(List.cons.inj he).1] at h; exact absurd h (by decide)
  · rename_i he; exact absurd (by rw [(List.cons.inj he).2]; rfl) (hr (List.cons.inj he).1)
  · rfl

/-- The first character of a value is no blank and closes nothing. -/
theorem dumps_head (repr : F → List Char) (read : List Char → F) (hf : Floats repr read) (d : Doc F) :
    ∃ c r, dumps repr d = c :: r ∧ c ≠ ' ' ∧ c ≠ '\t' ∧ c ≠ '\n' ∧ c ≠ '\r' ∧ c ≠ ']' ∧ c ≠ '}' := by
  have digit : ∀ c, isDigit c = true → c ≠ ' ' ∧ c ≠ '\t' ∧ c ≠ '\n' ∧ c ≠ '\r' ∧ c ≠ ']' ∧ c ≠ '}' := by
    intro c hc
    refine ⟨?_, ?_, ?_, ?_, ?_, ?_⟩ <;> · rintro rfl; exact absurd hc (by decide)
  have hnat : ∀ n, ∃ c r, natStr n = c :: r ∧ c ≠ ' ' ∧ c ≠ '\t' ∧ c ≠ '\n' ∧ c ≠ '\r' ∧ c ≠ ']' ∧ c ≠ '}' := by
    intro n
    have := natStr_isDigit n
    cases hs : natStr n with
    | nil => exact absurd hs (natStr_ne_nil n)
    | cons c r => exact ⟨c, r, rfl, digit c (this c (by rw [hs]; simp))⟩
  cases d with
  | null => exact ⟨_, _, rfl, by decide⟩
  | bool b => cases b <;> exact ⟨_, _, rfl, by decide⟩
  | int n =>
    cases n with
    | ofNat n => exact hnat n
    | negSucc n => exact ⟨_, _, rfl, by decide⟩
  | float x =>
    rw [dumps]
    obtain ⟨⟨⟨neg, w, f, e⟩, ⟨h1, h2, -⟩, h4⟩ | h4 | h4 | h4, -⟩ := hf x
    · rw [h4]
      cases neg
      · cases w with
        | nil => rcases h1 with h | h
                 · cases h
                 · exact absurd rfl h.1
        | cons c w => exact ⟨c, _, rfl, digit c (h2 c List.mem_cons_self)⟩
      · exact ⟨'-', _, rfl, by decide⟩
    all_goals rw [h4]; exact ⟨_, _, rfl, by decide⟩
  | str s => exact ⟨'"', _, rfl, by decide⟩
  | arr l => cases l <;> exact ⟨_, _, rfl, by decide⟩
  | obj l => rcases l with _ | ⟨⟨_, _⟩, _⟩ <;> exact ⟨_, _, rfl, by decide⟩

theorem skip_cons {c : Char} (h : c ≠ ' ' ∧ c ≠ '\t' ∧ c ≠ '\n' ∧ c ≠ '\r') (r : List Char) : skip (c :: r) = c :: r := by
  obtain ⟨h1, h2, h3, h4⟩ := h
  rw [skip, List.dropWhile_cons, if_neg (by simp [h1, h2, h3, h4])]

theorem skip_dumps {repr : F → List Char} {read : List Char → F} (hf : Floats repr read) (d : Doc F) (r : List Char) : skip (dumps repr d ++ r) = dumps repr d ++ r := by
  obtain ⟨c, t, h, h1, h2, h3, h4, -⟩ := dumps_head repr read hf d
  rw [h, List.cons_append, skip_cons ⟨h1, h2, h3, h4⟩]

theorem dumpsMore_head (repr : F → List Char) (l : List (Doc F)) : ∃ c r, dumpsMore repr l = c :: r ∧ (c = ',' ∨ c = ']') := by
  cases l with
  | nil => exact ⟨_, _, rfl, Or.inr rfl⟩
  | cons d l => exact ⟨_, _, rfl, Or.inl rfl⟩

theorem dumpsPairs_head (repr : F → List Char) (l : List (List Char × Doc F)) : ∃ c r, dumpsPairs repr l = c :: r ∧ (c = ',' ∨ c = '}') := by
  rcases l with _ | ⟨⟨k, d⟩, l⟩
  · exact ⟨_, _, rfl, Or.inr rfl⟩
  · exact ⟨_, _, rfl, Or.inl rfl⟩

theorem toDict_proper (l : List (List Char × Doc F)) (h : (l.map Prod.fst).Nodup) : toDict l = l := by
  have set_new : ∀ (d : List (List Char × Doc F)) (k : List Char) (v : Doc F), k ∉ d.map Prod.fst → Dict.set d k v = d ++ [(k, v)] := by
    intro d k v hk
    induction d with
    | nil => rfl
    | cons x d ih =>
      obtain ⟨k', v'⟩ := x
      simp only [List.map_cons, List.mem_cons, not_or] at hk
      rw [Dict.set, if_neg (Ne.symm hk.1), ih hk.2]
      rfl
  have key : ∀ (l d : List (List Char × Doc F)), ((d ++ l).map Prod.fst).Nodup → l.foldl (fun d x => Dict.set d x.1 x.2) d = d ++ l := by
    intro l
    induction l with
    | nil => intro d _; simp
    | cons x l ih =>
      intro d hd
      rw [List.foldl_cons, set_new, ih]
      · simp
      · simpa using hd
      · intro hx
        rw [List.map_append, List.map_cons] at hd
        exact (List.nodup_append.1 hd).2.2 _ hx _ List.mem_cons_self rfl
  exact key l [] (by simpa using h)

theorem quote_length (s : List Char) : (quote s).length = (s.flatMap escape).length + 2 := by simp [quote]

section
variable {repr : F → List Char} {read : List Char → F} (hf : Floats repr read)
include hf

mutual
theorem readDoc_dumps (d : Doc F) (hd : d.Proper) (r : List Char) (hr : Ends r) (fuel : Nat) (h : (dumps repr d).length < fuel) :
    readDoc read fuel (dumps repr d ++ r) = some (d, r) := by
  obtain ⟨k, rfl⟩ : ∃ k, fuel = k + 1 := ⟨fuel - 1, by omega⟩
  match d with
  | .null => rw [dumps]; rfl
  | .bool true => rw [dumps]; rfl
  | .bool false => rw [dumps]; rfl
  | .int n =>
    rw [dumps, ← readNumber_int read n r hr]
    cases n with
    | ofNat n =>
      have h1 := natStr_isDigit n
      rw [intStr]
      cases hs : natStr n with
      | nil => exact absurd hs (natStr_ne_nil n)
      | cons c t =>
        have hc := h1 c (by rw [hs]; simp)
        exact readDoc_number read k c _ (Or.inr hc) (by rintro rfl; exact absurd hc (by decide))
    | negSucc n =>
      refine readDoc_number read k '-' _ (Or.inl rfl) fun _ => ?_
      have h1 := natStr_isDigit (n + 1)
      cases hs : natStr (n + 1) with
      | nil => exact absurd hs (natStr_ne_nil _)
      | cons c t =>
        have hc := h1 c (by rw [hs]; simp)
        rintro he
        have he : c = 'I' := Option.some.inj he
        subst he
        exact absurd hc (by decide)
  | .float x =>
    obtain ⟨⟨l, hl, hx⟩ | hx | hx | hx, hx'⟩ := hf x
    rotate_left
    · rw [hx] at hx'; rw [dumps, hx, ← hx']; rfl
    · rw [hx] at hx'; rw [dumps, hx, ← hx']; rfl
    · rw [hx] at hx'; rw [dumps, hx, ← hx']; rfl
    have h1 := readNumber_float read l hl r hr
    rw [← hx, hx'] at h1
    rw [dumps, ← h1, hx]
    obtain ⟨neg, w, f, e⟩ := l
    cases neg
    · cases w with
      | nil => rcases hl.1 with h | h
               · cases h
               · exact absurd rfl h.1
      | cons c w =>
        have hc := hl.2.1 c List.mem_cons_self
        exact readDoc_number read k c _ (Or.inr hc) (by rintro rfl; exact absurd hc (by decide))
    · refine readDoc_number read k '-' _ (Or.inl rfl) fun _ => ?_
      cases w with
      | nil => rcases hl.1 with h | h
               · cases h
               · exact absurd rfl h.1
      | cons c w =>
        have hc := hl.2.1 c List.mem_cons_self
        intro he
        have : c = 'I' := by simpa [Written.text] using he
        subst this
        exact absurd hc (by decide)
  | .str s =>
    rw [dumps, quote]
    simp only [List.cons_append, List.append_assoc, List.nil_append]
    rw [readDoc, readStr_quote s r _ (by simp only [List.length_append, List.length_cons]; omega)]
    rfl
  | .arr [] => rw [dumps]; rfl
  | .arr (d :: l) =>
    rw [Doc.Proper, properList] at hd
    rw [dumps] at h ⊢
    obtain ⟨c, t, hc, h1, h2, h3, h4, h5, h6⟩ := dumps_head repr read hf d
    have hs : skip (dumps repr d ++ (dumpsMore repr l ++ r)) = dumps repr d ++ (dumpsMore repr l ++ r) := skip_dumps hf d _
    have := readMore_dumps d l hd.1 hd.2 r hr k (by simp only [List.length_cons, List.length_append] at h ⊢; omega)
    simp only [List.cons_append, List.append_assoc]
    rw [readDoc, hs]
    rw [hc, List.cons_append] at this ⊢
    split
    · rename_i r' he
      exact absurd (List.cons.inj he).1 h5
    · rw [this]; rfl
  | .obj [] => rw [dumps]; rfl
  | .obj ((q, d) :: l) =>
    rw [Doc.Proper, properPairs] at hd
    rw [dumps] at h ⊢
    have := readPairs_dumps q d l hd.2.1 hd.2.2 r hr k (by simp only [List.length_cons, List.length_append] at h ⊢; omega)
    have hq : ∃ t, quote q = '"' :: t := ⟨_, rfl⟩
    obtain ⟨t, hq⟩ := hq
    simp only [List.cons_append, List.append_assoc] at this ⊢
    rw [hq] at this ⊢
    rw [readDoc, List.cons_append, skip_cons (by decide)]
    rw [List.cons_append] at this
    change (readPairs read k ('"' :: (t ++ ':' :: (dumps repr d ++ (dumpsPairs repr l ++ r))))).map (fun x => (Doc.obj (toDict x.1), x.2)) = _
    rw [this, Option.map_some, toDict_proper _ hd.1]
termination_by fuel
theorem readMore_dumps (d : Doc F) (l : List (Doc F)) (hd : d.Proper) (hl : properList l) (r : List Char) (hr : Ends r) (fuel : Nat)
    (h : (dumps repr d).length + (dumpsMore repr l).length < fuel) :
    readMore read fuel (dumps repr d ++ (dumpsMore repr l ++ r)) = some (d :: l, r) := by
  obtain ⟨k, rfl⟩ : ∃ k, fuel = k + 1 := ⟨fuel - 1, by omega⟩
  obtain ⟨c, t, hc, hc'⟩ := dumpsMore_head repr l
  have hends : Ends (dumpsMore repr l ++ r) := by
    rw [hc]
    intro x hx
    have : x = c := by simpa using hx.symm
    subst this
    rcases hc' with h | h
    · exact Or.inl h
    · exact Or.inr (Or.inl h)
  have hlen : 1 ≤ (dumpsMore repr l).length := by rw [hc]; simp
  rw [readMore, readDoc_dumps d hd _ hends k (by omega)]
  match l with
  | [] => rw [dumpsMore]; rfl
  | e :: l =>
    rw [properList] at hl
    rw [dumpsMore] at h ⊢
    simp only [List.length_cons, List.length_append] at h
    simp only [List.cons_append, List.append_assoc]
    rw [skip_cons (by decide)]
    simp only
    rw [skip_dumps hf, readMore_dumps e l hl.1 hl.2 r hr k (by omega)]
    rfl
termination_by fuel
theorem readPairs_dumps (q : List Char) (d : Doc F) (l : List (List Char × Doc F)) (hd : d.Proper) (hl : properPairs l) (r : List Char) (hr : Ends r) (fuel : Nat)
    (h : (quote q).length + 1 + (dumps repr d).length + (dumpsPairs repr l).length < fuel) :
    readPairs read fuel (quote q ++ ':' :: (dumps repr d ++ (dumpsPairs repr l ++ r))) = some ((q, d) :: l, r) := by
  obtain ⟨k, rfl⟩ : ∃ k, fuel = k + 1 := ⟨fuel - 1, by omega⟩
  obtain ⟨c, t, hc, hc'⟩ := dumpsPairs_head repr l
  have hends : Ends (dumpsPairs repr l ++ r) := by
    rw [hc]
    intro x hx
    have : x = c := by simpa using hx.symm
    subst this
    rcases hc' with h | h
    · exact Or.inl h
    · exact Or.inr (Or.inr h)
  rw [quote]
  simp only [List.cons_append, List.append_assoc, List.nil_append]
  rw [readPairs, readStr_quote q _ _ (by simp only [List.length_append, List.length_cons]; omega)]
  simp only
  rw [skip_cons (by decide)]
  simp only
  rw [skip_dumps hf, readDoc_dumps d hd _ hends k (by omega)]
  match l with
  | [] => rw [dumpsPairs]; rfl
  | (p, e) :: l =>
    rw [properPairs] at hl
    rw [dumpsPairs] at h ⊢
    simp only [List.length_cons, List.length_append] at h
    have := readPairs_dumps p e l hl.1 hl.2 r hr k (by omega)
    simp only [List.cons_append, List.append_assoc] at this ⊢
    rw [skip_cons (by decide)]
    simp only
    have hq : ∃ t, quote p = '"' :: t := ⟨_, rfl⟩
    obtain ⟨t, hq⟩ := hq
    rw [hq] at this ⊢
    rw [List.cons_append] at this ⊢
    rw [skip_cons (by decide), this]
    rfl
termination_by fuel
end

/-- C03: `json.loads` reads what `json.dumps` wrote, for every document. -/
theorem C03_json (d : Doc F) (hd : d.Proper) : loads read (dumps repr d) = .ok d := by
  have h1 := readDoc_dumps hf d hd [] (by intro c hc; cases hc) ((dumps repr d).length + 1) (by omega)
  have h2 := skip_dumps hf d []
  rw [List.append_nil] at h1 h2
  rw [loads, h2, h1]
  rfl

end

/-! ### What is written is ASCII -/

set_option linter.unusedSectionVars false

theorem hexDigit_ascii (n : Nat) (h : n < 16) : 32 ≤ (hexDigit n).toNat ∧ (hexDigit n).toNat < 128 := by
  interval_cases n <;> decide

theorem hex4_ascii (n : Nat) : ∀ c ∈ hex4 n, 32 ≤ c.toNat ∧ c.toNat < 128 := by
  intro c hc
  simp only [hex4, List.mem_cons, List.not_mem_nil, or_false] at hc
  rcases hc with rfl | rfl | rfl | rfl | rfl | rfl
  · decide
  · decide
  all_goals exact hexDigit_ascii _ (by omega)

theorem escape_ascii (x : Char) : ∀ c ∈ escape x, 32 ≤ c.toNat ∧ c.toNat < 128 := by
  unfold escape
  split_ifs with h1 h2 h3 h4 h5 h6 h7 h8 h9
  all_goals first | decide | skip
  · intro c hc
    rw [List.mem_singleton.1 hc]
    omega
  · exact hex4_ascii _
  · intro c hc
    rcases List.mem_append.1 hc with hc | hc
    · exact hex4_ascii _ c hc
    · exact hex4_ascii _ c hc

theorem quote_ascii (s : List Char) : ∀ c ∈ quote s, 32 ≤ c.toNat ∧ c.toNat < 128 := by
  intro c hc
  simp only [quote, List.cons_append, List.mem_cons, List.mem_append, List.mem_flatMap, List.not_mem_nil, or_false] at hc
  rcases hc with rfl | ⟨x, -, hx⟩ | rfl
  · decide
  · exact escape_ascii x c hx
  · decide

theorem digit_ascii {c : Char} (h : isDigit c = true) : 32 ≤ c.toNat ∧ c.toNat < 128 := by
  unfold isDigit digitVal? at h
  split at h
  all_goals first | decide | cases h

theorem intStr_ascii (n : Int) : ∀ c ∈ intStr n, 32 ≤ c.toNat ∧ c.toNat < 128 := by
  intro c hc
  cases n with
  | ofNat n => exact digit_ascii (natStr_isDigit n c hc)
  | negSucc n =>
    rcases List.mem_cons.1 hc with rfl | hc
    · decide
    · exact digit_ascii (natStr_isDigit _ c hc)

theorem Written.ascii (l : Written) (h : l.Valid) : ∀ c ∈ l.text, 32 ≤ c.toNat ∧ c.toNat < 128 := by
  obtain ⟨-, h2, h3, h4, -⟩ := h
  obtain ⟨neg, w, f, e⟩ := l
  simp only at h2 h3 h4
  intro c hc
  simp only [Written.text] at hc
  rcases List.mem_append.1 hc with hc | hc
  · rcases List.mem_append.1 hc with hc | hc
    · rcases List.mem_append.1 hc with hc | hc
      · cases neg
        · cases hc
        · rw [List.mem_singleton.1 hc]; decide
      · exact digit_ascii (h2 c hc)
    · by_cases hf : f = []
      · rw [if_pos hf] at hc; cases hc
      · rw [if_neg hf] at hc
        rcases List.mem_cons.1 hc with rfl | hc
        · decide
        · exact digit_ascii (h3 c hc)
  · rcases e with _ | ⟨b, e⟩
    · cases hc
    · rcases List.mem_cons.1 hc with rfl | hc
      · decide
      · rcases List.mem_cons.1 hc with rfl | hc
        · cases b <;> decide
        · exact digit_ascii ((h4 _ rfl).2 c hc)

section
variable {repr : F → List Char} {read : List Char → F} (hf : Floats repr read)
include hf

mutual
theorem dumps_ascii (d : Doc F) : ∀ c ∈ dumps repr d, 32 ≤ c.toNat ∧ c.toNat < 128 := by
  match d with
  | .null => rw [dumps]; decide
  | .bool true => rw [dumps]; decide
  | .bool false => rw [dumps]; decide
  | .int n => rw [dumps]; exact intStr_ascii n
  | .float x =>
    rw [dumps]
    obtain ⟨⟨l, hl, hx⟩ | hx | hx | hx, -⟩ := hf x
    · rw [hx]; exact l.ascii hl
    all_goals rw [hx]; decide
  | .str s => rw [dumps]; exact quote_ascii s
  | .arr [] => rw [dumps]; decide
  | .arr (d :: l) =>
    intro c hc
    rw [dumps] at hc
    rcases List.mem_append.1 hc with hc | hc
    · rcases List.mem_cons.1 hc with rfl | hc
      · decide
      · exact dumps_ascii d c hc
    · exact dumpsMore_ascii l c hc
  | .obj [] => rw [dumps]; decide
  | .obj ((k, d) :: l) =>
    intro c hc
    rw [dumps] at hc
    rcases List.mem_append.1 hc with hc | hc
    · rcases List.mem_append.1 hc with hc | hc
      · rcases List.mem_cons.1 hc with rfl | hc
        · decide
        · exact quote_ascii k c hc
      · rcases List.mem_cons.1 hc with rfl | hc
        · decide
        · exact dumps_ascii d c hc
    · exact dumpsPairs_ascii l c hc
theorem dumpsMore_ascii (l : List (Doc F)) : ∀ c ∈ dumpsMore repr l, 32 ≤ c.toNat ∧ c.toNat < 128 := by
  match l with
  | [] => rw [dumpsMore]; decide
  | d :: l =>
    intro c hc
    rw [dumpsMore] at hc
    rcases List.mem_append.1 hc with hc | hc
    · rcases List.mem_cons.1 hc with rfl | hc
      · decide
      · exact dumps_ascii d c hc
    · exact dumpsMore_ascii l c hc
theorem dumpsPairs_ascii (l : List (List Char × Doc F)) : ∀ c ∈ dumpsPairs repr l, 32 ≤ c.toNat ∧ c.toNat < 128 := by
  match l with
  | [] => rw [dumpsPairs]; decide
  | (k, d) :: l =>
    intro c hc
    rw [dumpsPairs] at hc
    rcases List.mem_append.1 hc with hc | hc
    · rcases List.mem_append.1 hc with hc | hc
      · rcases List.mem_cons.1 hc with rfl | hc
        · decide
        · exact quote_ascii k c hc
      · rcases List.mem_cons.1 hc with rfl | hc
        · decide
        · exact dumps_ascii d c hc
    · exact dumpsPairs_ascii l c hc
end

end

theorem utf8Char_ascii (c : Char) (h : c.toNat < 128) (r : List (Fin 256)) : utf8Char (byte c.toNat :: r) = some (c, r) := by
  have hv : (byte c.toNat).val = c.toNat := Nat.mod_eq_of_lt (by omega)
  simp only [utf8Char]
  rw [if_pos (by omega), hv, Char.ofNat_toNat]

theorem utf8_ascii (s : List Char) (h : ∀ c ∈ s, c.toNat < 128) : ∀ fuel, s.length ≤ fuel → utf8 fuel (encode s) = some s := by
  induction s with
  | nil => intro fuel _; cases fuel <;> rfl
  | cons c s ih =>
    intro fuel hf
    obtain ⟨k, rfl⟩ : ∃ k, fuel = k + 1 := ⟨fuel - 1, by simp only [List.length_cons] at hf; omega⟩
    simp only [encode, List.map_cons]
    rw [utf8, if_neg (by simp), utf8Char_ascii c (h c (by simp))]
    simp only
    have := ih (fun x hx => h x (by simp [hx])) k (by simp only [List.length_cons] at hf; omega)
    rw [encode] at this
    rw [this]
    rfl

/-- Bytes that are neither zero nor beyond ASCII are taken for UTF-8 without a mark. -/
theorem detect_ascii (b : List (Fin 256)) (h : ∀ x ∈ b, 0 < x.val ∧ x.val < 128) : detect b = (.utf8, b) := by
  have pre : ∀ p : List (Fin 256), (∃ x ∈ p, x.val = 0 ∨ 128 ≤ x.val) → p.isPrefixOf b = false := by
    rintro p ⟨x, hx, hv⟩
    rw [Bool.eq_false_iff]
    intro hp
    have := h x ((List.isPrefixOf_iff_prefix.1 hp).subset hx)
    omega
  have hz : zeros b = .utf8 := by
    unfold zeros
    split
    all_goals
      try simp only [List.mem_cons, forall_eq_or_imp] at h
      repeat' split
      all_goals first | rfl | (exfalso; omega)
  simp only [detect, pre [0, 0, 254, 255] ⟨0, by simp, .inl rfl⟩, pre [255, 254, 0, 0] ⟨255, by simp, .inr (by decide)⟩,
    pre [254, 255] ⟨254, by simp, .inr (by decide)⟩, pre [255, 254] ⟨255, by simp, .inr (by decide)⟩, pre [239, 187, 191] ⟨239, by simp, .inr (by decide)⟩, hz,
    Bool.false_eq_true, if_false]

theorem decode_encode (s : List Char) (h : ∀ c ∈ s, 32 ≤ c.toNat ∧ c.toNat < 128) : decode (encode s) = .ok s := by
  rw [decode, detect_ascii]
  · simp only [decodeAs]
    rw [utf8_ascii s (fun c hc => (h c hc).2) _ (by simp [encode])]
  · intro x hx
    obtain ⟨c, hc, rfl⟩ := List.mem_map.1 hx
    have := h c hc
    have hv : (byte c.toNat).val = c.toNat := Nat.mod_eq_of_lt (by omega)
    omega

/-! ### Blueprint strings -/

/-- C03 with Python's `json` and `base64` in the place of parameters: every document is decoded to what was encoded, if only `zlib`
decompresses what it compressed and floats are read as they are written. -/
theorem C03_real (repr : F → List Char) (read : List Char → F) (hf : Floats repr read) (compress : List (Fin 256) → List (Fin 256))
    (decompress : List (Fin 256) → Except PyErr (List (Fin 256))) (hz : ∀ b, decompress (compress b) = .ok b) (d : Doc F) (hd : d.Proper) :
    Codec.stringToJson (codecs repr read compress decompress) (Codec.jsonToString (codecs repr read compress decompress) d) = .ok d := by
  have h1 : b64decode (b64encode (compress (encode (dumps repr d)))) = .ok (compress (encode (dumps repr d))) := C03_base64 _
  have h2 := decode_encode (dumps repr d) (dumps_ascii hf d)
  have h3 := C03_json hf d hd
  simp [Codec.stringToJson, Codec.jsonToString, codecs, h1, h2, h3, hz, bind, Except.bind]

/-- C57 with them: an exported document is handed to the class of its root key. -/
theorem C57_real (repr : F → List Char) (read : List Char → F) (hf : Floats repr read) (compress : List (Fin 256) → List (Fin 256))
    (decompress : List (Fin 256) → Except PyErr (List (Fin 256))) (hz : ∀ b, decompress (compress b) = .ok b) (d : Doc F) (hd : d.Proper) :
    Codec.fromString (codecs repr read compress decompress) root (Codec.jsonToString (codecs repr read compress decompress) d) = Codec.fromJson (root d) :=
  (Codec.C57_from_string _ _ _).1 d (C03_real repr read hf compress decompress hz d hd)

theorem a2b_noise (u v : List Char) (c : Char) (hc : c ≠ '=') (hs : sixBits c = none) (pos left pads : Nat) :
    a2b pos left pads (u ++ c :: v) = a2b pos left pads (u ++ v) := by
  induction u generalizing pos left pads with
  | nil => rw [List.nil_append, List.nil_append, a2b, if_neg hc, hs]
  | cons x u ih => simp only [List.cons_append, a2b, ih]

/-- C03: line breaks, blanks and other characters of ASCII that `base64` does not use may stand anywhere in a blueprint string. -/
theorem C03_noise (repr : F → List Char) (read : List Char → F) (compress : List (Fin 256) → List (Fin 256))
    (decompress : List (Fin 256) → Except PyErr (List (Fin 256))) (u v : List Char) (hu : u ≠ []) (c : Char) (ha : c.toNat < 128) (hc : c ≠ '=') (hs : sixBits c = none) :
    Codec.stringToJson (codecs repr read compress decompress) (u ++ c :: v) = Codec.stringToJson (codecs repr read compress decompress) (u ++ v) := by
  cases u with
  | nil => exact absurd rfl hu
  | cons x u =>
    have : b64decode (u ++ c :: v) = b64decode (u ++ v) := by
      unfold b64decode
      rw [a2b_noise u v c hc hs]
      have : (u ++ c :: v).all (fun c => decide (c.toNat < 128)) = (u ++ v).all fun c => decide (c.toNat < 128) := by
        rw [List.all_append, List.all_cons, List.all_append, decide_eq_true ha, Bool.true_and]
      rw [this]
    simp only [Codec.stringToJson, codecs, List.cons_append, List.drop_succ_cons, List.drop_zero, this]

/-- C03: a string with a character outside ASCII after the first is malformed. -/
theorem C03_ascii (repr : F → List Char) (read : List Char → F) (compress : List (Fin 256) → List (Fin 256))
    (decompress : List (Fin 256) → Except PyErr (List (Fin 256))) (s : List Char) (c : Char) (hc : c ∈ s.drop 1) (ha : 128 ≤ c.toNat) :
    Codec.stringToJson (codecs repr read compress decompress) s = .error .malformedBlueprintString := by
  have : b64decode (s.drop 1) = .error .valueError := by
    rw [b64decode, if_neg]
    rw [List.all_eq_true]
    intro h
    have := of_decide_eq_true (h c hc)
    omega
  simp only [Codec.stringToJson, codecs, this, bind, Except.bind]

theorem a2b_junk (b : List (Fin 256)) (hb : b.length % 3 ≠ 0) (junk : List Char) : a2b 0 0 0 (b64encode b ++ junk) = .ok b := by
  induction b using b64encode.induct with
  | case1 => exact absurd rfl hb
  | case2 a =>
    have ha := a.isLt
    rw [b64encode]
    simp only [List.cons_append, List.nil_append]
    rw [a2b_letter _ _ _ _ (by omega), if_pos rfl, a2b_letter _ _ _ _ (by omega), if_neg (by decide), if_pos rfl, a2b, if_pos rfl, if_neg (by decide), a2b,
      if_pos rfl, if_pos (by decide)]
    exact congrArg _ (congrArg (· :: []) (byte_eq a _ (by omega)))
  | case3 a b =>
    have ha := a.isLt
    have hb := b.isLt
    rw [b64encode]
    simp only [List.cons_append, List.nil_append]
    rw [a2b_letter _ _ _ _ (by omega), if_pos rfl, a2b_letter _ _ _ _ (by omega), if_neg (by decide), if_pos rfl,
      a2b_letter _ _ _ _ (by omega), if_neg (by decide), if_neg (by decide), if_pos rfl, a2b, if_pos rfl, if_pos (by decide)]
    have h1 := byte_eq a (a.val / 4 * 4 + (a.val % 4 * 16 + b.val / 16) / 16) (by omega)
    have h2 := byte_eq b ((a.val % 4 * 16 + b.val / 16) % 16 * 16 + b.val % 16 * 4 / 4) (by omega)
    simp only [Except.map, h1, h2]
  | case4 a b c r ih =>
    have ha := a.isLt
    have hb' := b.isLt
    have hc := c.isLt
    rw [b64encode]
    simp only [List.cons_append]
    rw [a2b_letter _ _ _ _ (by omega), if_pos rfl, a2b_letter _ _ _ _ (by omega), if_neg (by decide), if_pos rfl,
      a2b_letter _ _ _ _ (by omega), if_neg (by decide), if_neg (by decide), if_pos rfl,
      a2b_letter _ _ _ _ (by omega), if_neg (by decide), if_neg (by decide), if_neg (by decide), ih (by simp only [List.length_cons] at hb; omega)]
    have h1 := byte_eq a (a.val / 4 * 4 + (a.val % 4 * 16 + b.val / 16) / 16) (by omega)
    have h2 := byte_eq b ((a.val % 4 * 16 + b.val / 16) % 16 * 16 + (b.val % 16 * 4 + c.val / 64) / 4) (by omega)
    have h3 := byte_eq c ((b.val % 16 * 4 + c.val / 64) % 4 * 64 + c.val % 64) (by omega)
    simp only [Except.map, h1, h2, h3]

/-- C03: what follows the padding of a string, if it has any, is not looked at (but must be ASCII): the string followed by anything decodes to the same. -/
theorem C03_junk (repr : F → List Char) (read : List Char → F) (hf : Floats repr read) (compress : List (Fin 256) → List (Fin 256))
    (decompress : List (Fin 256) → Except PyErr (List (Fin 256))) (hz : ∀ b, decompress (compress b) = .ok b) (d : Doc F) (hd : d.Proper)
    (hp : (compress (encode (dumps repr d))).length % 3 ≠ 0) (junk : List Char) (hj : ∀ c ∈ junk, c.toNat < 128) :
    Codec.stringToJson (codecs repr read compress decompress) (Codec.jsonToString (codecs repr read compress decompress) d ++ junk) = .ok d := by
  have h1 : b64decode (b64encode (compress (encode (dumps repr d))) ++ junk) = .ok (compress (encode (dumps repr d))) := by
    rw [b64decode, if_pos, a2b_junk _ hp]
    rw [List.all_append, Bool.and_eq_true, List.all_eq_true, List.all_eq_true]
    exact ⟨fun c hc => decide_eq_true (b64encode_ascii _ c hc), fun c hc => decide_eq_true (hj c hc)⟩
  have h2 := decode_encode (dumps repr d) (dumps_ascii hf d)
  have h3 := C03_json hf d hd
  simp [Codec.stringToJson, Codec.jsonToString, codecs, h1, h2, h3, hz, bind, Except.bind]

/-! ### Examples -/

/-- Floats that are whole numbers and a half. -/
def halfRepr (n : Nat) : List Char := natStr n ++ ".5".toList

@[inherit_doc halfRepr] def halfRead (s : List Char) : Nat := (pyNat (s.takeWhile isDigit)).getD 0

/-- C03_json, C03_real, C57_real, C03_junk: the hypothesis on floats can be met. -/
theorem half_floats : Floats halfRepr halfRead := by
  intro n
  refine ⟨.inl ⟨⟨false, natStr n, ['5'], none⟩, ⟨natStr_head n, natStr_isDigit n, by simp only; decide, nofun, Or.inl (by simp)⟩, ?_⟩, ?_⟩
  · simp [halfRepr, Written.text]
  · rw [halfRepr, halfRead, (takeWhile_digits (r := ".5".toList) (natStr_isDigit n) (by decide)).1, pyNat_natStr]
    rfl

/-- A document with nested lists and dictionaries, a float, a quote, a letter outside ASCII and one outside the first plane. -/
def exDoc : Doc Nat := .obj [("blueprint".toList, .obj [("label".toList, .str "a\"é𝄞".toList), ("x".toList, .float 3), ("l".toList, .arr [.int (-12), .null, .arr [], .bool true])]),
  ("index".toList, .int 0)]

example : dumps halfRepr exDoc = "{\"blueprint\":{\"label\":\"a\\\"\\u00e9\\ud834\\udd1e\",\"x\":3.5,\"l\":[-12,null,[],true]},\"index\":0}".toList := by decide +kernel
theorem exDoc_proper : exDoc.Proper := by
  simp only [exDoc, Doc.Proper, properPairs, properList, and_true]
  decide +kernel
example : loads halfRead (dumps halfRepr exDoc) = .ok exDoc := C03_json half_floats exDoc exDoc_proper
/-- With blanks it is read as well; a key given twice has its last value. -/
example : dumps halfRepr ((loads halfRead " { \"a\" : 1 , \"b\":[ 2.5 ,\n{} ] , \"a\" : null } ".toList).toOption.getD .null) = "{\"a\":null,\"b\":[2.5,{}]}".toList := by decide +kernel
example : b64encode (encode "Man".toList) = "TWFu".toList ∧ b64encode (encode "Ma".toList) = "TWE=".toList ∧ b64encode (encode "M".toList) = "TQ==".toList := by decide +kernel
/-- C03_noise, C03_ascii, C03_junk, C57_real: with `zlib` replaced by the identity. -/
example : Codec.fromString (codecs halfRepr halfRead id .ok) root (Codec.jsonToString (codecs halfRepr halfRead id .ok) exDoc) = .ok .blueprint := by
  rw [C57_real halfRepr halfRead half_floats id .ok (fun _ => rfl) exDoc exDoc_proper]
  decide +kernel
example : Codec.stringToJson (codecs halfRepr halfRead id .ok) (Codec.jsonToString (codecs halfRepr halfRead id .ok) (.int 1234) ++ "&x".toList) = .ok (.int 1234) :=
  C03_junk halfRepr halfRead half_floats id .ok (fun _ => rfl) (.int 1234) trivial (by decide +kernel) _ (by decide)
example := C03_noise halfRepr halfRead id .ok "0Mjc2".toList "OA==".toList (by decide) '\n' (by decide) (by decide) (by decide)
example := C03_ascii halfRepr halfRead id .ok "0Mé".toList 'é' (by decide) (by decide)

end Json
end Draftsman
