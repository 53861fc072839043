import Mathlib.Data.List.Basic
import Mathlib.Logic.Function.Basic
/-
Association lists with a key that may be missing: the table a list stands for, and what appending, replacing and erasing do to it.
-/
namespace Draftsman
namespace SlotList

variable {α κ : Type*} [DecidableEq κ] (key : α → Option κ)

/-- The entry with a key. -/
def slot (l : List α) (k : κ) : Option α := l.find? fun e => key e == some k

/-- No two entries share a key. -/
def Uniq (l : List α) : Prop := l.Pairwise fun a b => key a = none ∨ key a ≠ key b

variable {key}

theorem split {p : α → Bool} : ∀ {l : List α} {k : ℕ}, l.findIdx? p = some k →
    ∃ (a : List α) (e : α) (b : List α), l = a ++ e :: b ∧ a.length = k ∧ p e = true ∧ ∀ x ∈ a, p x = false
  | [], k, h => by simp at h
  | x :: l, k, h => by
    rw [List.findIdx?_cons] at h
    by_cases hx : p x = true
    · simp only [hx, if_true, Option.some.injEq] at h
      exact ⟨[], x, l, rfl, by simpa using h, hx, by simp⟩
    · simp only [hx] at h
      cases hk : l.findIdx? p with
      | none => simp [hk] at h
      | some k' =>
        obtain ⟨a, e, b, hl, hlen, he, ha⟩ := split hk
        simp [hk] at h
        refine ⟨x :: a, e, b, by simp [hl], by simp [hlen, h], he, ?_⟩
        intro y hy
        rcases List.mem_cons.mp hy with rfl | hy
        · simpa using hx
        · exact ha y hy

theorem eraseIdx_split (a b : List α) (e : α) : (a ++ e :: b).eraseIdx a.length = a ++ b := by
  induction a with
  | nil => simp
  | cons x a ih => simp [ih]

theorem set_split (a b : List α) (e e' : α) : (a ++ e :: b).set a.length e' = a ++ e' :: b := by
  induction a with
  | nil => simp
  | cons x a ih => simp [ih]

theorem modify_split (a b : List α) (e : α) (f : α → α) : (a ++ e :: b).modify a.length f = a ++ f e :: b := by
  induction a with
  | nil => simp
  | cons x a ih => simp [ih]

theorem slot_none {l : List α} {k : κ} : slot key l k = none ↔ ∀ e ∈ l, key e ≠ some k := by
  simp [slot]

theorem slot_append (a b : List α) (k : κ) : slot key (a ++ b) k = (slot key a k).or (slot key b k) := by
  simp [slot, List.find?_append]

theorem slot_cons (e : α) (b : List α) (k : κ) : slot key (e :: b) k = if key e = some k then some e else slot key b k := by
  unfold slot
  rw [List.find?_cons]
  by_cases h : key e = some k
  · simp [h]
  · have : (key e == some k) = false := by simpa using h
    simp [h, this]

theorem slot_key {l : List α} {k : κ} {e : α} (h : slot key l k = some e) : e ∈ l ∧ key e = some k := by
  unfold slot at h
  exact ⟨List.mem_of_find?_eq_some h, by simpa using List.find?_some h⟩

theorem findIdx_slot {l : List α} {k : κ} : (∃ i, l.findIdx? (fun e => key e == some k) = some i) ↔ slot key l k ≠ none := by
  rw [Ne, slot_none]
  constructor
  · rintro ⟨i, hi⟩ h
    obtain ⟨a, e, b, rfl, -, he, -⟩ := split hi
    exact h e (by simp) (by simpa using he)
  · intro h
    cases hk : l.findIdx? (fun e => key e == some k) with
    | some i => exact ⟨i, rfl⟩
    | none =>
      rw [List.findIdx?_eq_none_iff] at hk
      exact absurd (fun e he => by simpa using hk e he) h

theorem findIdx_none {l : List α} {k : κ} : l.findIdx? (fun e => key e == some k) = none ↔ slot key l k = none := by
  rw [List.findIdx?_eq_none_iff, slot_none]
  simp

theorem slot_add {l : List α} {k : κ} {e : α} (he : key e = some k) (hn : slot key l k = none) :
    slot key (l ++ [e]) = Function.update (slot key l) k (some e) := by
  funext j
  rw [slot_append, slot_cons]
  by_cases hj : j = k
  · subst hj
    simp [he, hn]
  · rw [Function.update_of_ne hj, if_neg]
    · simp [slot]
    · rw [he]
      simpa using Ne.symm hj

theorem uniq_add {l : List α} {k : κ} {e : α} (he : key e = some k) (hn : slot key l k = none) (hu : Uniq key l) :
    Uniq key (l ++ [e]) := by
  unfold Uniq at *
  rw [List.pairwise_append]
  refine ⟨hu, by simp, ?_⟩
  intro x hx y hy
  simp only [List.mem_singleton] at hy
  subst hy
  right
  rw [he]
  exact slot_none.mp hn x hx

theorem slot_replace {a b : List α} {e e' : α} {k : κ} (he : key e = some k) (he' : key e' = some k) (ha : ∀ x ∈ a, key x ≠ some k) :
    slot key (a ++ e' :: b) = Function.update (slot key (a ++ e :: b)) k (some e') := by
  funext j
  rw [slot_append, slot_cons, he']
  by_cases hj : j = k
  · subst hj
    rw [slot_none.mpr ha]
    simp
  · rw [Function.update_of_ne hj, slot_append, slot_cons, he, if_neg, if_neg] <;> simpa using Ne.symm hj

omit [DecidableEq κ] in
theorem uniq_replace {a b : List α} {e e' : α} (he : key e' = key e) (hu : Uniq key (a ++ e :: b)) : Uniq key (a ++ e' :: b) := by
  unfold Uniq at *
  simp only [List.pairwise_append, List.pairwise_cons, List.mem_cons] at *
  refine ⟨hu.1, ⟨fun x hx => he ▸ hu.2.1.1 x hx, hu.2.1.2⟩, fun x hx y hy => ?_⟩
  rcases hy with rfl | hy
  · rw [he]; exact hu.2.2 x hx e (.inl rfl)
  · exact hu.2.2 x hx y (.inr hy)

theorem slot_erase {a b : List α} {e : α} {k : κ} (he : key e = some k) (hu : Uniq key (a ++ e :: b)) :
    slot key (a ++ b) = Function.update (slot key (a ++ e :: b)) k none := by
  unfold Uniq at hu
  simp only [List.pairwise_append, List.pairwise_cons, List.mem_cons] at hu
  funext j
  by_cases hj : j = k
  · subst hj
    rw [Function.update_self, slot_none]
    intro x hx
    rcases List.mem_append.mp hx with hx | hx
    · rcases hu.2.2 x hx e (.inl rfl) with h | h
      · simp [h]
      · rwa [← he]
    · rcases hu.2.1.1 x hx with h | h
      · simp [he] at h
      · rw [← he]; exact h.symm
  · rw [Function.update_of_ne hj, slot_append, slot_append, slot_cons, he, if_neg]
    simpa using Ne.symm hj

omit [DecidableEq κ] in
theorem uniq_erase {a b : List α} {e : α} (hu : Uniq key (a ++ e :: b)) : Uniq key (a ++ b) := by
  unfold Uniq at *
  simp only [List.pairwise_append, List.pairwise_cons, List.mem_cons] at *
  exact ⟨hu.1, hu.2.1.2, fun x hx y hy => hu.2.2 x hx y (.inr hy)⟩

end SlotList
end Draftsman
