import Verif.Model.TrainConfig
import Mathlib.Tactic.Linarith
import Mathlib.Tactic.NormNum
import Mathlib.Data.Nat.Digits.Defs

namespace Draftsman
namespace TrainConfig

/-! ## C38: train configuration strings -/

/-- One item of a block: a count, a letter, or both. -/
structure Item where
  count : Option ℕ
  letter : Option Char

/-- How it is written. -/
def Item.render (i : Item) : List Char := (i.count.map (Nat.toDigits 10)).getD [] ++ i.letter.toList

/-- The cars it stands for. -/
def Item.cars (dflt : Char) (i : Item) : List Char := List.replicate (i.count.getD 1) (i.letter.getD dflt)

/-- A letter may be written: neither digit nor hyphen. -/
def Letter (c : Char) : Prop := c.isDigit = false ∧ c ≠ '-'

/-- A block of the grammar: items with letters, then perhaps a last one with a count only. -/
inductive Block : List Item → Prop
  | nil : Block []
  | last (n : ℕ) : Block [⟨some n, none⟩]
  | cons (n : Option ℕ) (c : Char) (r : List Item) : Letter c → Block r → Block (⟨n, some c⟩ :: r)

/-- What the blocks stand for: `kind i` is the letter meant when block `i` gives none. -/
def trainOf (kind : ℕ → Char) (bs : List (List Item)) : List Char :=
  (bs.zipIdx.map fun p => p.1.flatMap (Item.cars (kind p.2))).flatten

/-- Locomotives and wagons take turns, and the third block of a dual-headed train of three points backwards. -/
def kindOf (direction : String) (wagon : Char) (blocks : ℕ) (i : ℕ) : Char :=
  if direction.toLower = "dual" ∧ blocks = 3 ∧ i = 2 then '>' else if Even i then '<' else wagon

theorem tokens_digits : ∀ (ds acc r : List Char), (∀ c ∈ ds, c.isDigit = true) → tokens acc (ds ++ r) = tokens (acc ++ ds) r
  | [], acc, r, _ => by simp
  | c :: ds, acc, r, h => by
    simp only [List.cons_append, tokens]
    rw [if_pos (h c (by simp)), tokens_digits ds _ r fun d hd => h d (by simp [hd])]
    simp

theorem digits_render (n : Option ℕ) : ∀ c ∈ (n.map (Nat.toDigits 10)).getD [], c.isDigit = true := by
  intro c hc
  cases n with
  | none => simp at hc
  | some n => exact Nat.isDigit_of_mem_toDigits (by decide) (by decide) hc

theorem amount_render (n : Option ℕ) : amount ((n.map (Nat.toDigits 10)).getD []) = n.getD 1 := by
  cases n with
  | none => rfl
  | some n =>
    simp only [Option.map_some, Option.getD_some, amount]
    have hne : Nat.toDigits 10 n ≠ [] := Nat.toDigits_ne_nil
    rw [if_neg hne]
    have h : Nat.ofDigitChars 10 (Nat.toDigits 10 n) 0 = n := Nat.ofDigitChars_toDigits (by decide) (by decide)
    rw [Nat.ofDigitChars_eq_foldl] at h
    exact h

theorem tokens_render (b : List Item) (h : Block b) :
    tokens [] (b.flatMap Item.render) = b.map fun i => ((i.count.map (Nat.toDigits 10)).getD [], i.letter) := by
  induction h with
  | nil => rfl
  | last n =>
    have := tokens_digits (Nat.toDigits 10 n) [] [] (digits_render (some n))
    simp only [List.append_nil, List.nil_append] at this
    simp only [List.flatMap_cons, List.flatMap_nil, Item.render, Option.map_some, Option.getD_some, Option.toList_none,
      List.append_nil, List.map_cons, List.map_nil, this]
    have hne : Nat.toDigits 10 n ≠ [] := Nat.toDigits_ne_nil
    simp [tokens, hne]
  | cons n c r hc _ ih =>
    simp only [List.flatMap_cons, Item.render, Option.toList_some, List.append_assoc, List.map_cons]
    rw [tokens_digits _ _ _ (digits_render n)]
    simp only [List.nil_append, List.cons_append, tokens, hc.1, Bool.false_eq_true, ↓reduceIte]
    rw [ih]

theorem expand_render (mapping : List Char) (dflt : Char) : ∀ b : List Item,
    (∀ i ∈ b, i.letter.getD dflt ∈ mapping) →
    expand mapping dflt (b.map fun i => ((i.count.map (Nat.toDigits 10)).getD [], i.letter)) = .ok (b.flatMap (Item.cars dflt))
  | [], _ => rfl
  | i :: r, h => by
    simp only [List.map_cons, expand, List.flatMap_cons]
    rw [if_neg (by simpa using h i (by simp)), expand_render mapping dflt r fun j hj => h j (by simp [hj])]
    simp only [amount_render, Item.cars]

theorem split_append : ∀ (a r : List Char), '-' ∉ a → split (a ++ '-' :: r) = a :: split r
  | [], r, _ => by
    simp only [List.nil_append, split]
    cases h : split r with
    | nil =>
      exfalso
      cases r with
      | nil => simp [split] at h
      | cons c t =>
        simp only [split] at h
        split at h
        · simp at h
        · split at h <;> simp at h
    | cons b bs => simp
  | c :: a, r, h => by
    simp only [List.mem_cons, not_or] at h
    simp only [List.cons_append, split, split_append a r h.2]
    rw [if_neg (fun e => h.1 e.symm)]

theorem split_single : ∀ (a : List Char), '-' ∉ a → split a = [a]
  | [], _ => rfl
  | c :: a, h => by
    simp only [List.mem_cons, not_or] at h
    simp only [split, split_single a h.2]
    rw [if_neg (fun e => h.1 e.symm)]

theorem split_intercalate : ∀ (bs : List (List Char)), bs ≠ [] → (∀ b ∈ bs, '-' ∉ b) → split (['-'].intercalate bs) = bs
  | [], h, _ => absurd rfl h
  | [a], _, h => by
    have : (['-'].intercalate [a]) = a := by simp [List.intercalate]
    rw [this]; exact split_single a (h a (by simp))
  | a :: b :: r, _, h => by
    have e : (['-'].intercalate (a :: b :: r)) = a ++ '-' :: (['-'].intercalate (b :: r)) := by simp [List.intercalate]
    rw [e, split_append _ _ (h a (by simp)), split_intercalate (b :: r) (by simp) fun x hx => h x (by simp only [List.mem_cons] at hx ⊢; exact Or.inr hx)]

theorem block_no_hyphen {b : List Item} (h : Block b) : '-' ∉ b.flatMap Item.render := by
  have hd : ∀ n : Option ℕ, '-' ∉ (n.map (Nat.toDigits 10)).getD [] := by
    intro n hm
    have := digits_render n _ hm
    revert this; decide
  induction h with
  | nil => simp
  | last n => have := hd (some n); simpa [Item.render] using this
  | cons n c r hc _ ih =>
    simp only [List.flatMap_cons, Item.render, Option.toList_some, List.mem_append, List.mem_singleton, not_or]
    exact ⟨⟨hd n, fun e => hc.2 e.symm⟩, ih⟩

theorem blocks_render (mapping : List Char) (dual : Bool) (wagon : Char) : ∀ (bs : List (List Item)) (i : ℕ), (∀ b ∈ bs, Block b) →
    (∀ p ∈ bs.zipIdx i, ∀ it ∈ p.1, it.letter.getD (dfltType dual wagon p.2) ∈ mapping) →
    blocks mapping dual wagon i (bs.map fun b => b.flatMap Item.render) =
      .ok ((bs.zipIdx i).map fun p => p.1.flatMap (Item.cars (dfltType dual wagon p.2))).flatten
  | [], _, _, _ => rfl
  | b :: r, i, hb, hm => by
    simp only [List.map_cons, blocks, List.zipIdx_cons, List.flatten_cons]
    rw [tokens_render b (hb b (by simp)), expand_render mapping _ b (hm (b, i) (by simp))]
    rw [blocks_render mapping dual wagon r (i + 1) (fun c hc => hb c (by simp [hc])) fun p hp => hm p (by simp [List.zipIdx_cons, hp])]

/-- C38: every string of the grammar expands to the cars its blocks stand for, in order. -/
theorem C38_expand (bs : List (List Item)) (hne : bs ≠ []) (hb : ∀ b ∈ bs, Block b) (s : List Char) (direction wagons : String)
    (mapping : List Char) (w : Char) (hd : direction.toLower = "dual" ∨ direction.toLower = "forward")
    (hw : (wagons.toLower, w) ∈ [("cargo", 'C'), ("fluid", 'F'), ("artillery", 'A')])
    (hs : s.map Char.toUpper = ['-'].intercalate (bs.map fun b => b.flatMap Item.render))
    (hm : ∀ p ∈ bs.zipIdx, ∀ it ∈ p.1, it.letter.getD (kindOf direction w bs.length p.2) ∈ mapping) :
    fromString s direction wagons mapping = .ok (trainOf (kindOf direction w bs.length) bs) := by
  have hsplit : split (s.map Char.toUpper) = bs.map fun b => b.flatMap Item.render := by
    rw [hs]
    apply split_intercalate
    · simpa using hne
    · intro x hx
      obtain ⟨b, hb', rfl⟩ := List.mem_map.1 hx
      exact block_no_hyphen (hb b hb')
  have hsym : wagonSymbol wagons.toLower = some w := by
    simp only [List.mem_cons, Prod.mk.injEq, List.not_mem_nil, or_false] at hw
    rcases hw with ⟨h, rfl⟩ | ⟨h, rfl⟩ | ⟨h, rfl⟩ <;> rw [h] <;> decide
  have hk : ∀ i, dfltType (decide (bs.length = 3) && decide (direction.toLower = "dual")) w i = kindOf direction w bs.length i := by
    intro i
    unfold dfltType kindOf
    have he : (i % 2 = 0) ↔ Even i := (Nat.even_iff).symm
    simp only [Bool.and_eq_true, decide_eq_true_eq, he]
    congr 1
    apply propext
    constructor
    · rintro ⟨⟨h1, h2⟩, h3⟩; exact ⟨h2, h1, h3⟩
    · rintro ⟨h2, h1, h3⟩; exact ⟨⟨h1, h2⟩, h3⟩
  unfold fromString
  simp only [hsplit, hsym, List.length_map]
  rw [if_neg (by rintro ⟨h1, h2⟩; rcases hd with h | h <;> contradiction)]
  rw [blocks_render mapping _ w bs 0 hb (by intro p hp it hit; rw [hk]; exact hm p hp it hit)]
  simp only [hk, trainOf]

/-- C38: a direction or a kind of wagons there is none of is refused, whatever the string. -/
theorem C38_unknown (s : List Char) (direction wagons : String) (mapping : List Char)
    (h : direction.toLower ∉ ["dual", "forward"] ∨ wagons.toLower ∉ ["cargo", "fluid", "artillery"]) : fromString s direction wagons mapping = .error .valueError := by
  simp only [List.mem_cons, List.not_mem_nil, or_false, not_or] at h
  simp only [fromString]
  by_cases hd : direction.toLower ≠ "dual" ∧ direction.toLower ≠ "forward"
  · rw [if_pos hd]
  · rw [if_neg hd]
    rcases h with h | h
    · exact absurd h hd
    · rw [wagonSymbol, if_neg h.1, if_neg h.2.1, if_neg h.2.2]

example : "tank".toLower ∉ ["cargo", "fluid", "artillery"] := by decide +kernel

theorem flatten_length_sum {α : Type*} (l : List (List α)) : l.flatten.length = (l.map List.length).sum := by simp

/-- C38: the number of cars is the sum of the counts (a letter alone counting once). -/
theorem C38_count (kind : ℕ → Char) (bs : List (List Item)) :
    (trainOf kind bs).length = (bs.map fun b => (b.map fun i => i.count.getD 1).sum).sum := by
  unfold trainOf
  rw [flatten_length_sum, List.map_map]
  have key : ∀ (bs : List (List Item)) (k : ℕ), (List.map (List.length ∘ fun p : List Item × ℕ => p.1.flatMap (Item.cars (kind p.2)))
      (bs.zipIdx k)).sum = (bs.map fun b => (b.map fun i => i.count.getD 1).sum).sum := by
    intro bs
    induction bs with
    | nil => intro k; rfl
    | cons b r ih =>
      intro k
      simp only [List.zipIdx_cons, List.map_cons, List.sum_cons, ih (k + 1), Function.comp_apply, List.length_flatMap]
      congr 2
      apply List.map_congr_left
      intro i _
      simp [Item.cars]
  exact key bs 0

theorem blocks_err (mapping : List Char) (dual : Bool) (wagon : Char) : ∀ (bs : List (List Char)) (i : ℕ) (e : PyErr),
    blocks mapping dual wagon i bs = .error e → e = .valueError := by
  have he : ∀ (t : List (List Char × Option Char)) (d : Char) (e : PyErr), expand mapping d t = .error e → e = .valueError := by
    intro t
    induction t with
    | nil => intro d e h; simp [expand] at h
    | cons p r ih =>
      intro d e h
      obtain ⟨ds, l⟩ := p
      simp only [expand] at h
      split at h
      · simp only [Except.error.injEq] at h; exact h.symm
      · split at h
        · rename_i h2
          simp only [Except.error.injEq] at h
          subst h
          exact ih d _ h2
        · simp at h
  intro bs
  induction bs with
  | nil => intro i e h; simp [blocks] at h
  | cons b r ih =>
    intro i e h
    simp only [blocks] at h
    split at h
    · rename_i h2
      simp only [Except.error.injEq] at h
      subst h
      exact he _ _ _ h2
    · split at h
      · rename_i h2
        simp only [Except.error.injEq] at h
        subst h
        exact ih _ _ h2
      · simp at h

theorem tokens_letter : ∀ (l acc : List Char) (c : Char), c ∈ l → c.isDigit = false → ∃ ds, (ds, some c) ∈ tokens acc l
  | [], _, _, h, _ => by simp at h
  | a :: r, acc, c, h, hc => by
    simp only [tokens]
    rcases List.mem_cons.1 h with rfl | h
    · rw [if_neg (by simp [hc])]; exact ⟨acc, by simp⟩
    · split
      · exact tokens_letter r _ c h hc
      · obtain ⟨ds, hds⟩ := tokens_letter r [] c h hc
        exact ⟨ds, by simp [hds]⟩

theorem expand_ok {mapping : List Char} {d : Char} : ∀ {t : List (List Char × Option Char)} {r : List Char}, expand mapping d t = .ok r →
    ∀ ds c, (ds, some c) ∈ t → c ∈ mapping
  | [], _, _, _, _, h => by simp at h
  | (ds', l) :: t, r, he, ds, c, h => by
    simp only [expand] at he
    split at he
    · simp at he
    · rename_i hm
      split at he
      · simp at he
      · rename_i u hu
        rcases List.mem_cons.1 h with h | h
        · simp only [Prod.mk.injEq] at h
          rw [← h.2] at hm
          simpa using hm
        · exact expand_ok hu ds c h

theorem mem_split : ∀ (s : List Char) (c : Char), c ∈ s → c ≠ '-' → ∃ b ∈ split s, c ∈ b
  | [], _, h, _ => by simp at h
  | a :: r, c, h, hc => by
    simp only [split]
    cases hs : split r with
    | nil =>
      simp only
      rcases List.mem_cons.1 h with rfl | h
      · exact ⟨[c], by simp, by simp⟩
      · obtain ⟨b, hb, _⟩ := mem_split r c h hc
        rw [hs] at hb; simp at hb
    | cons b bs =>
      simp only
      rcases List.mem_cons.1 h with rfl | h
      · rw [if_neg hc]; exact ⟨c :: b, by simp, by simp⟩
      · obtain ⟨b', hb', hm⟩ := mem_split r c h hc
        rw [hs] at hb'
        split
        · exact ⟨b', by simp only [List.mem_cons] at hb' ⊢; exact Or.inr hb', hm⟩
        · rcases List.mem_cons.1 hb' with rfl | hb'
          · exact ⟨a :: b', by simp, by simp [hm]⟩
          · exact ⟨b', by simp [hb'], hm⟩

theorem blocks_ok {mapping : List Char} {dual : Bool} {w : Char} : ∀ {bs : List (List Char)} {i : ℕ} {r : List Char},
    blocks mapping dual w i bs = .ok r → ∀ b ∈ bs, ∃ d t, expand mapping d (tokens [] b) = .ok t
  | [], _, _, _, _, h => by simp at h
  | a :: bs, i, r, hr, b, hb => by
    simp only [blocks] at hr
    split at hr
    · simp at hr
    · rename_i t ht
      split at hr
      · simp at hr
      · rename_i u hu
        rcases List.mem_cons.1 hb with rfl | hb
        · exact ⟨_, t, ht⟩
        · exact blocks_ok hu b hb

/-- C38: a string with an unknown car letter anywhere is rejected with `ValueError`. -/
theorem C38_rejects (s : List Char) (direction wagons : String) (mapping : List Char) (c : Char) (hc : c ∈ s.map Char.toUpper)
    (hl : Letter c) (hm : c ∉ mapping) : fromString s direction wagons mapping = .error .valueError := by
  cases h : fromString s direction wagons mapping with
  | error e =>
    unfold fromString at h
    simp only at h
    split at h
    · simp only [Except.error.injEq] at h; rw [h]
    · split at h
      · simp only [Except.error.injEq] at h; rw [h]
      · rw [blocks_err _ _ _ _ _ _ h]
  | ok r =>
    exfalso
    unfold fromString at h
    simp only at h
    split at h
    · simp at h
    · split at h
      · simp at h
      · obtain ⟨b, hb, hcb⟩ := mem_split _ c hc hl.2
        obtain ⟨d, t, ht⟩ := blocks_ok h b hb
        obtain ⟨ds, hds⟩ := tokens_letter b [] c hcb hl.1
        exact hm (expand_ok ht ds c hds)

/-- C38: `rail_length` is the least number of two-tile rails covering seven tiles for each car. -/
theorem C38_rails (cars : List Char) : 7 * (cars.length : ℤ) ≤ 2 * railLength cars ∧
    ∀ r : ℤ, 7 * (cars.length : ℤ) ≤ 2 * r → railLength cars ≤ r := by
  unfold railLength
  constructor
  · have := Int.le_ceil ((((cars.length * 7 : ℕ) : ℚ) / 2))
    have h2 : ((7 * (cars.length : ℤ) : ℤ) : ℚ) ≤ ((2 * ⌈(((cars.length * 7 : ℕ) : ℚ) / 2)⌉ : ℤ) : ℚ) := by
      push_cast at this ⊢; linarith
    exact_mod_cast h2
  · intro r hr
    rw [Int.ceil_le]
    have h2 : ((7 * (cars.length : ℤ) : ℤ) : ℚ) ≤ ((2 * r : ℤ) : ℚ) := by exact_mod_cast hr
    push_cast at h2 ⊢; linarith

/-! Instances: `2-2c1f-2` is a dual-headed train. -/

def exBlocks : List (List Item) := [[⟨some 2, none⟩], [⟨some 2, some 'C'⟩, ⟨none, some 'F'⟩], [⟨some 1, none⟩]]

theorem exBlocks_ok : ∀ b ∈ exBlocks, Block b := by
  have hl : Letter 'C' ∧ Letter 'F' := ⟨⟨by decide, by decide⟩, by decide, by decide⟩
  intro b hb
  simp only [exBlocks, List.mem_cons, List.not_mem_nil, or_false] at hb
  rcases hb with rfl | rfl | rfl
  · exact Block.last 2
  · exact Block.cons (some 2) 'C' _ hl.1 (Block.cons none 'F' _ hl.2 Block.nil)
  · exact Block.last 1

example : ("2-2cf-1".toList).map Char.toUpper = ['-'].intercalate (exBlocks.map fun b => b.flatMap Item.render) := by decide

example : ∀ p ∈ exBlocks.zipIdx, ∀ it ∈ p.1, it.letter.getD (kindOf "dual" 'C' 3 p.2) ∈ defaultMapping := by
  decide +kernel

example : trainOf (kindOf "dual" 'C' 3) exBlocks = ['<', '<', 'C', 'C', 'F', '>'] := by decide +kernel

example : fromString "2-2cf-1".toList "dual" "cargo" defaultMapping = .ok ['<', '<', 'C', 'C', 'F', '>'] := by decide +kernel

example : fromString "2-4X".toList "dual" "cargo" defaultMapping = .error .valueError ∧ Letter 'X' ∧ 'X' ∉ defaultMapping :=
  ⟨by decide +kernel, ⟨by decide, by decide⟩, by decide⟩

example : railLength ['<', 'C', 'C'] = 11 := by decide +kernel

end TrainConfig
end Draftsman
