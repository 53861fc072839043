import Verif.Model.Suggest
import Verif.Props.Checks
/-
C88: names of entities and tiles, and suggestions.
-/
namespace Draftsman
namespace Suggest
open Checks

/-- C88: the name of an entity is reported, once, exactly if checks are on and the name is unknown for the class of the entity (where the class has a
list of names) or unknown altogether; the class is named just in the first case. -/
theorem C88_entity_name (cls : String) (similar : Option (List String)) (raw : List String) (ctx : Ctx) (value : String) :
    (entityName cls similar raw ctx value = [] ↔ ¬ Checked ctx ∨ (value ∈ raw ∧ ∀ l, similar = some l → value ∈ l)) ∧
    (entityName cls similar raw ctx value ≠ [] →
      entityName cls similar raw ctx value =
        [.unknownName (if ∃ l, similar = some l ∧ value ∉ l then cls else "entity") value]) := by
  have hc : skip .minimum ctx = true ↔ ¬ Checked ctx := by
    by_cases h : Checked ctx
    · simp [skip_pos h, h]
    · simp [skip_neg h, h]
  have ha : similar.any (fun l => decide (value ∉ l)) = true ↔ ∃ l, similar = some l ∧ value ∉ l := by
    cases similar <;> simp
  unfold entityName
  by_cases h1 : skip .minimum ctx = true
  · rw [if_pos h1]
    simp [hc.1 h1]
  · rw [if_neg h1]
    have h1' : Checked ctx := not_not.1 (mt hc.2 h1)
    by_cases h2 : similar.any (fun l => decide (value ∉ l)) = true
    · rw [if_pos h2]
      obtain ⟨l, h3, h4⟩ := ha.1 h2
      refine ⟨?_, fun _ => by rw [if_pos ⟨l, h3, h4⟩]⟩
      simp only [List.cons_ne_nil, h1', not_true, false_or, false_iff, not_and, not_forall]
      exact fun _ => ⟨l, h3, h4⟩
    · rw [if_neg h2]
      have h5 : ¬ ∃ l, similar = some l ∧ value ∉ l := mt ha.2 h2
      have h6 : ∀ l, similar = some l → value ∈ l := fun l hl => not_not.1 fun hn => h5 ⟨l, hl, hn⟩
      rw [if_neg h5]
      by_cases h7 : value ∈ raw
      · simp only [h7, not_true, if_false, true_and, ne_eq, false_imp_iff, and_true, true_iff]
        exact Or.inr h6
      · simp [h7, h1']

/-- C88: the name of a tile is reported exactly if checks are on and no tile has it. -/
theorem C88_tile_name (raw : List String) (ctx : Ctx) (value : String) :
    tileName raw ctx value = knownName "tile" raw ctx value ∧
    (tileName raw ctx value = [] ↔ ¬ Checked ctx ∨ value ∈ raw) := by
  have hc : skip .minimum ctx = true ↔ ¬ Checked ctx := by
    by_cases h : Checked ctx
    · simp [skip_pos h, h]
    · simp [skip_neg h, h]
  unfold tileName knownName
  by_cases h1 : skip .minimum ctx = true
  · simp [h1, hc.1 h1]
  · have h1' : Checked ctx := not_not.1 (mt hc.2 h1)
    by_cases h2 : value ∈ raw <;> simp [h1, h1', h2]

theorem names_eq (score : String → ℕ) (choices : List String) (n cutoff : ℕ) :
    (getSuggestion score choices n cutoff).names = ((extract score choices n).filter fun p => decide (cutoff ≤ p.2)).map (·.1) := by
  unfold getSuggestion
  split <;> (rename_i h; try rw [h]) <;> rfl

/-- C88: the names suggested are choices that score at least the cutoff, no more than `n`, and none of them scores less than a choice that is not
suggested; if fewer than `n` are suggested, these are all the choices that reach the cutoff. -/
theorem C88_suggestion (score : String → ℕ) (choices : List String) (n cutoff : ℕ) :
    (getSuggestion score choices n cutoff).names.length ≤ n ∧
    (∀ s ∈ (getSuggestion score choices n cutoff).names, s ∈ choices ∧ cutoff ≤ score s ∧
      ∀ t ∈ choices, score s < score t → t ∈ (getSuggestion score choices n cutoff).names) ∧
    ((getSuggestion score choices n cutoff).names.length < n →
      ∀ t ∈ choices, cutoff ≤ score t → t ∈ (getSuggestion score choices n cutoff).names) := by
  rw [names_eq]
  set srt := (choices.map fun c => (c, score c)).insertionSort fun a b => b.2 ≤ a.2 with hs
  have hmem : ∀ p, p ∈ srt ↔ p.1 ∈ choices ∧ p.2 = score p.1 := by
    intro p
    rw [hs, List.mem_insertionSort, List.mem_map]
    constructor
    · rintro ⟨c, h1, rfl⟩; exact ⟨h1, rfl⟩
    · rintro ⟨h1, h2⟩; exact ⟨p.1, h1, by rw [← h2]⟩
  have hpw : srt.Pairwise fun a b => b.2 ≤ a.2 := by
    have : Std.Total (fun a b : String × ℕ => b.2 ≤ a.2) := ⟨fun a b => le_total b.2 a.2⟩
    have : IsTrans (String × ℕ) (fun a b => b.2 ≤ a.2) := ⟨fun a b c h1 h2 => le_trans h2 h1⟩
    rw [hs]
    exact List.pairwise_insertionSort _ _
  have hx : extract score choices n = srt.take n := rfl
  rw [hx]
  have hsplit : ∀ p ∈ srt.take n, ∀ q ∈ srt.drop n, q.2 ≤ p.2 := by
    have := hpw
    rw [← List.take_append_drop n srt, List.pairwise_append] at this
    exact this.2.2
  have hin : ∀ t ∈ choices, (t, score t) ∈ srt.take n ∨ (t, score t) ∈ srt.drop n := by
    intro t ht
    have := (hmem (t, score t)).2 ⟨ht, rfl⟩
    rwa [← List.take_append_drop n srt, List.mem_append] at this
  refine ⟨?_, ?_, ?_⟩
  · rw [List.length_map]
    exact (List.length_filter_le _ _).trans (List.length_take_le _ _)
  · intro s hm
    obtain ⟨⟨c, k⟩, hp, rfl⟩ := List.mem_map.1 hm
    obtain ⟨h1, h2⟩ := List.mem_filter.1 hp
    simp only [decide_eq_true_eq] at h2
    obtain ⟨h3, h4⟩ := (hmem _).1 (List.mem_of_mem_take h1)
    simp only at h3 h4
    refine ⟨h3, by simp only; omega, ?_⟩
    intro t ht hlt
    simp only at hlt
    rcases hin t ht with h5 | h5
    · exact List.mem_map.2 ⟨_, List.mem_filter.2 ⟨h5, by simp only [decide_eq_true_eq]; omega⟩, rfl⟩
    · have := hsplit _ h1 _ h5
      simp only at this hlt
      omega
  · intro hlen t ht hcut
    rcases hin t ht with h5 | h5
    · exact List.mem_map.2 ⟨_, List.mem_filter.2 ⟨h5, by simpa using hcut⟩, rfl⟩
    · exfalso
      have hall : (srt.take n).filter (fun p => decide (cutoff ≤ p.2)) = srt.take n := by
        rw [List.filter_eq_self]
        intro p hp
        have := hsplit p hp _ h5
        simp only [decide_eq_true_eq]
        simp only at this
        omega
      rw [hall, List.length_map, List.length_take] at hlen
      have : srt.length ≤ n := by omega
      rw [List.drop_eq_nil_of_le this] at h5
      simp at h5

/-- C88: with one suggestion asked for, as in every warning, the text names a choice of the highest score or, if no choice reaches the cutoff, nothing. -/
theorem C88_suggestion_one (score : String → ℕ) (choices : List String) (cutoff : ℕ) :
    (getSuggestion score choices 1 cutoff = .nothing ∧ ∀ t ∈ choices, score t < cutoff) ∨
    ∃ s ∈ choices, getSuggestion score choices 1 cutoff = .one s ∧ cutoff ≤ score s ∧ ∀ t ∈ choices, score t ≤ score s := by
  obtain ⟨h1, h2, h3⟩ := C88_suggestion score choices 1 cutoff
  have hn := names_eq score choices 1 cutoff
  cases hg : getSuggestion score choices 1 cutoff with
  | nothing =>
    rw [hg] at h3
    refine Or.inl ⟨rfl, fun t ht => ?_⟩
    by_contra hc
    have := h3 (by simp [Text.names]) t ht (by omega)
    simp [Text.names] at this
  | one s =>
    rw [hg] at h2
    obtain ⟨h4, h5, h6⟩ := h2 s (by simp [Text.names])
    refine Or.inr ⟨s, h4, rfl, h5, fun t ht => ?_⟩
    by_contra hc
    have := h6 t ht (by omega)
    simp only [Text.names, List.mem_singleton] at this
    subst this
    omega
  | several l =>
    exfalso
    rw [hg] at h1 hn
    have h7 : ∀ k : List String, k.length ≤ 1 → getSuggestion score choices 1 cutoff = .several l → l = k →
        ((extract score choices 1).filter fun p => decide (cutoff ≤ p.2)).map (·.1) = k → False := by
      intro k hk hgs _ heq
      unfold getSuggestion at hgs
      match k, hk, heq with
      | [], _, heq => rw [heq] at hgs; simp at hgs
      | [a], _, heq => rw [heq] at hgs; simp at hgs
      | _ :: _ :: _, hk, _ => simp at hk
    exact h7 l h1 hg rfl hn.symm

/-- Scores of three names against a misspelt one. -/
def someScores : String → ℕ
  | "transport-belt" => 95
  | "fast-transport-belt" => 86
  | "pipe" => 12
  | _ => 0

example : getSuggestion someScores ["pipe", "fast-transport-belt", "transport-belt"] 1 60 = .one "transport-belt" ∧
    getSuggestion someScores ["pipe", "fast-transport-belt", "transport-belt"] 3 60 = .several ["transport-belt", "fast-transport-belt"] ∧
    getSuggestion someScores ["pipe"] 1 60 = .nothing := by decide +kernel

/-- A belt called by the name of a pipe, and a generic entity of a name nobody knows. -/
example : entityName "TransportBelt" (some ["transport-belt"]) ["transport-belt", "pipe"] (some .strict) "pipe" = [.unknownName "TransportBelt" "pipe"] ∧
    entityName "Entity" none ["transport-belt", "pipe"] (some .strict) "pip" = [.unknownName "entity" "pip"] ∧
    entityName "Entity" none ["transport-belt", "pipe"] (some .minimum) "pip" = [] ∧
    tileName ["landfill"] (some .pedantic) "land" = [.unknownName "tile" "land"] := by decide

end Suggest
end Draftsman
