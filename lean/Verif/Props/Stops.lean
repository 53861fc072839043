import Verif.Model.Stops
import Verif.Proof.Except
/-
C99: wait conditions and stops survive export and import.
-/
namespace Draftsman
namespace Stops

variable {C : Type} [DecidableEq C] (valid : Wait C → Bool) (c0 : C)

/-- Specification: nothing of the condition depends on a default that reading would put in or take away. -/
structure Kept (w : Wait C) : Prop where
  ticks : w.type = "time" ∨ w.type = "inactivity" → w.ticks ≠ none
  compares : w.type = "item_count" ∨ w.type = "fluid_count" ∨ w.type = "circuit" → w.condition ≠ none
  other : ¬ (w.type = "item_count" ∨ w.type = "fluid_count" ∨ w.type = "circuit") → w.condition ≠ some c0

theorem comparing_iff (t : String) : t ∈ comparing ↔ t = "item_count" ∨ t = "fluid_count" ∨ t = "circuit" := by simp [comparing]

/-- What reading the dictionary of a condition gives, if it passes validation. -/
def back (w : Wait C) : Wait C where
  type := w.type
  cmp := w.cmp
  ticks := if w.type = "time" ∧ w.ticks = none then some 1800 else if w.type = "inactivity" ∧ w.ticks = none then some 300 else w.ticks
  condition := if w.type ∈ comparing then some ((if w.condition = some c0 then none else w.condition).getD c0)
    else if w.condition = some c0 then none else w.condition

theorem ofDict_toDict (w : Wait C) : ofDict valid c0 (toDict c0 w) = if valid (back c0 w) then .ok (back c0 w) else .error .dataFormat := by
  have : (if w.cmp = "or" then none else some w.cmp).getD "or" = w.cmp := by
    by_cases h : w.cmp = "or" <;> simp [h]
  simp only [ofDict, toDict, make, this, back]
  rfl

theorem back_eq_iff (w : Wait C) : back c0 w = w ↔ Kept c0 w := by
  obtain ⟨t, m, k, c⟩ := w
  simp only [back, Wait.mk.injEq, true_and]
  constructor
  · rintro ⟨h1, h2⟩
    refine ⟨?_, ?_, ?_⟩
    · rintro (rfl | rfl) hk <;> simp only at hk <;> subst hk <;> simp at h1
    · rintro ht hk
      simp only at ht hk
      rw [if_pos ((comparing_iff t).2 ht), hk] at h2
      cases h2
    · rintro ht hk
      simp only at ht hk
      rw [if_neg (fun h => ht ((comparing_iff t).1 h)), if_pos hk, hk] at h2
      cases h2
  · rintro ⟨h1, h2, h3⟩
    simp only at h1 h2 h3
    constructor
    · by_cases a : t = "time" ∧ k = none
      · exact absurd a.2 (h1 (.inl a.1))
      · rw [if_neg a]
        by_cases b : t = "inactivity" ∧ k = none
        · exact absurd b.2 (h1 (.inr b.1))
        · rw [if_neg b]
    · by_cases a : t ∈ comparing
      · rw [if_pos a]
        cases c with
        | none => exact absurd rfl (h2 ((comparing_iff t).1 a))
        | some x =>
          by_cases hx : x = c0
          · simp [hx]
          · simp [hx]
      · rw [if_neg a, if_neg (h3 (fun h => a ((comparing_iff t).2 h)))]

/-- C99: a condition comes back from its own dictionary exactly if it does not have what reading would put in: no time for a kind that has a default
time, no comparison for a kind that has a default comparison, the default comparison for any other kind. -/
theorem C99_condition (w : Wait C) (hv : valid w = true) : ofDict valid c0 (toDict c0 w) = .ok w ↔ Kept c0 w := by
  rw [ofDict_toDict, ← back_eq_iff]
  constructor
  · intro h
    split at h
    · simpa using h
    · cases h
  · intro h
    rw [h, if_pos hv]

omit [DecidableEq C] in
theorem checked {x w : Wait C} (h : (if valid x then Except.ok x else .error .dataFormat : Except PyErr (Wait C)) = .ok w) : valid w = true ∧ x = w := by
  split at h
  · cases h
    exact ⟨by assumption, rfl⟩
  · cases h

/-- C99: a condition as the constructor makes it comes back from its own dictionary, unless it was given the default comparison though its kind does
not compare. -/
theorem C99_made (type cmp : String) (ticks : Option ℕ) (condition : Option C) (w : Wait C) (h : make valid c0 type cmp ticks condition = .ok w) :
    ofDict valid c0 (toDict c0 w) = .ok w ↔ (type = "item_count" ∨ type = "fluid_count" ∨ type = "circuit") ∨ condition ≠ some c0 := by
  obtain ⟨hv, rfl⟩ := checked valid h
  · rw [C99_condition valid c0 _ hv]
    constructor
    · intro hk
      by_cases ht : type = "item_count" ∨ type = "fluid_count" ∨ type = "circuit"
      · exact .inl ht
      · right
        have := hk.other ht
        simpa only [if_neg (fun h => ht ((comparing_iff type).1 h))] using this
    · intro hc
      refine ⟨?_, ?_, ?_⟩
      · rintro (ht | ht) <;> simp only at ht <;> subst ht <;> cases ticks <;> simp
      · intro ht
        simp only at ht
        rw [if_pos ((comparing_iff type).2 ht)]
        simp
      · intro ht
        simp only at ht ⊢
        rw [if_neg (fun h => ht ((comparing_iff type).1 h))]
        exact hc.resolve_left ht

/-- Specification: a stop whose conditions are valid and come back. -/
def Stop.Good (s : Stop C) : Prop := ∃ l, s.waits = .objs l ∧ ∀ w ∈ l, valid w = true ∧ Kept c0 w

omit [DecidableEq C] in
theorem mapM_back {α β : Type} (f : β → Except PyErr α) (g : α → β) (l : List α) (h : ∀ a ∈ l, f (g a) = .ok a) : (l.map g).mapM f = .ok l := by
  rw [mapM_ok_iff, List.forall₂_map_left_iff, List.forall₂_same]
  exact h

theorem stop_back (skip : Bool) (s : Stop C) (h : s.Good valid c0) : ∃ d, stopToDict skip c0 s = .ok d ∧ stopOfDict valid c0 d = .ok s := by
  obtain ⟨l, hl, hw⟩ := h
  obtain ⟨n, ws⟩ := s
  simp only at hl
  subst hl
  refine ⟨_, rfl, ?_⟩
  have : (l.map (toDict c0)).mapM (ofDict valid c0) = .ok l := mapM_back _ _ l fun w hm => (C99_condition valid c0 w (hw w hm).1).2 (hw w hm).2
  simp only [stopOfDict, this, bind, Except.bind]

/-- C99: the stops of a schedule come back from its dictionary, in order and equal, if their conditions are valid and come back. -/
theorem C99_stops (skip : Bool) (l : List (Stop C)) (h : ∀ s ∈ l, s.Good valid c0) :
    ∃ d, stopsToDict skip c0 l = .ok d ∧ stopsOfDict valid c0 d = .ok l := by
  have key : ∀ l : List (Stop C), (∀ s ∈ l, s.Good valid c0) → ∃ ds, l.mapM (stopToDict skip c0) = .ok ds ∧ ds.mapM (stopOfDict valid c0) = .ok l := by
    intro l
    induction l with
    | nil => intro _; exact ⟨[], rfl, rfl⟩
    | cons s r ih =>
      intro h
      obtain ⟨d, h1, h2⟩ := stop_back valid c0 skip s (h s List.mem_cons_self)
      obtain ⟨ds, h3, h4⟩ := ih fun x hx => h x (List.mem_cons_of_mem _ hx)
      exact ⟨d :: ds, by simp [h1, h3, bind, Except.bind, pure, Except.pure], by simp [h2, h4, bind, Except.bind, pure, Except.pure]⟩
  obtain ⟨ds, h1, h2⟩ := key l h
  refine ⟨if ds = [] then none else some ds, by simp [stopsToDict, h1, bind, Except.bind], ?_⟩
  unfold stopsOfDict
  by_cases hd : ds = []
  · subst hd
    rw [if_pos rfl]
    exact h2
  · rw [if_neg hd]
    exact h2

/-- C99: the dictionary is the same after export, import and export, exactly if no time is missing from a kind that has a default time. -/
theorem C99_again (w w' : Wait C) (h : ofDict valid c0 (toDict c0 w) = .ok w') :
    toDict c0 w' = toDict c0 w ↔ (w.type = "time" ∨ w.type = "inactivity" → w.ticks ≠ none) := by
  rw [ofDict_toDict] at h
  split at h
  · cases h
    obtain ⟨t, m, k, c⟩ := w
    simp only [toDict, back, WaitDict.mk.injEq, true_and]
    have hc : (if (if t ∈ comparing then some ((if c = some c0 then none else c).getD c0) else if c = some c0 then none else c) = some c0 then none
        else if t ∈ comparing then some ((if c = some c0 then none else c).getD c0) else if c = some c0 then none else c) =
        if c = some c0 then none else c := by
      by_cases ht : t ∈ comparing
      · rw [if_pos ht]
        cases c with
        | none => simp
        | some x => by_cases hx : x = c0 <;> simp [hx]
      · rw [if_neg ht]
        cases c with
        | none => simp
        | some x => by_cases hx : x = c0 <;> simp [hx]
    rw [hc]
    simp only [and_true]
    constructor
    · rintro h1 (rfl | rfl) hk <;> subst hk <;> simp at h1
    · intro h1
      by_cases a : t = "time" ∧ k = none
      · exact absurd a.2 (h1 (.inl a.1))
      · rw [if_neg a]
        by_cases b : t = "inactivity" ∧ k = none
        · exact absurd b.2 (h1 (.inr b.1))
        · rw [if_neg b]
  · cases h

/-- C99: what came back once comes back unchanged from then on. -/
theorem C99_settled (w w' : Wait C) (h : ofDict valid c0 (toDict c0 w) = .ok w') : ofDict valid c0 (toDict c0 w') = .ok w' := by
  refine (C99_made valid c0 _ _ _ _ _ h).2 (.inr ?_)
  simp only [toDict]
  by_cases hc : w.condition = some c0 <;> simp [hc]

omit [DecidableEq C] in
/-- C99: `WaitConditions` accepts a list just if each dictionary in it does. -/
theorem C99_list (l : List (Item C)) :
    (initWaits valid c0 l).2 = none ↔ ∀ d, Item.dict d ∈ l → ∃ w, ofDict valid c0 d = .ok w := by
  induction l with
  | nil => simp [initWaits]
  | cons i r ih =>
    cases i with
    | obj w => simp [initWaits, ih]
    | dict d =>
      unfold initWaits
      cases hd : ofDict valid c0 d with
      | error e =>
        simp only [reduceCtorEq, false_iff, not_forall]
        refine ⟨d, List.mem_cons_self, ?_⟩
        simp [hd]
      | ok w =>
        simp only [ih, List.mem_cons, Item.dict.injEq]
        constructor
        · rintro h x (rfl | hx)
          · exact ⟨w, hd⟩
          · exact h x hx
        · intro h x hx
          exact h x (.inr hx)

/-- C99: an exported condition has no entry for what is the default, or missing, and its own value under every other key. -/
theorem C99_short (w : Wait C) :
    (toDict c0 w).type = w.type ∧ (∀ x, (toDict c0 w).cmp = some x ↔ w.cmp = x ∧ x ≠ "or") ∧ (∀ x, (toDict c0 w).ticks = some x ↔ w.ticks = some x) ∧
    ∀ x, (toDict c0 w).condition = some x ↔ w.condition = some x ∧ x ≠ c0 := by
  obtain ⟨t, m, k, c⟩ := w
  refine ⟨rfl, fun x => ?_, fun x => Iff.rfl, fun x => ?_⟩
  · simp only [toDict]
    by_cases h : m = "or"
    · rw [if_pos h, h]
      exact ⟨nofun, fun h => absurd h.1.symm h.2⟩
    · rw [if_neg h, Option.some.injEq]
      exact ⟨fun e => ⟨e, e ▸ h⟩, fun e => e.1⟩
  · simp only [toDict]
    by_cases h : c = some c0
    · rw [if_pos h, h]
      exact ⟨nofun, fun h => absurd (Option.some.inj h.1).symm h.2⟩
    · rw [if_neg h]
      exact ⟨fun e => ⟨e, fun hx => h (hx ▸ e)⟩, fun e => e.1⟩

/-- C99: a stop read from a dictionary without `"wait_conditions"` is exported as that dictionary if pydantic leaves out defaults without asking the
serializer, and not at all otherwise. -/
theorem C99_missing_export (skip : Bool) (station : String) (s : Stop C) (h : stopOfDict valid c0 ⟨station, none⟩ = .ok s) :
    stopToDict skip c0 s = .ok ⟨station, none⟩ ∧ skip = true ∨ (∃ e, stopToDict skip c0 s = .error e) ∧ skip = false := by
  cases h
  cases skip
  · exact .inr ⟨⟨_, rfl⟩, rfl⟩
  · exact .inl ⟨rfl, rfl⟩

/-! ### Cases -/

/-- A world in which comparisons are numbers, the default one is 0 and everything is valid. -/
abbrev W := Wait ℕ

/-- A schedule with a stop without conditions and one with two. -/
def exStops : List (Stop ℕ) :=
  [⟨"Mine", .objs []⟩, ⟨"Smelter", .objs [⟨"time", "or", some 1800, none⟩, ⟨"circuit", "and", none, some 0⟩, ⟨"full", "or", none, some 5⟩]⟩]

/-- The hypotheses of `C99_stops` are met, and what it is about. -/
example : ∀ s ∈ exStops, s.Good (fun _ => true) 0 := by
  intro s hs
  simp only [exStops, List.mem_cons, List.not_mem_nil, or_false] at hs
  rcases hs with rfl | rfl
  · exact ⟨[], rfl, by simp⟩
  · refine ⟨_, rfl, ?_⟩
    intro w hw
    refine ⟨rfl, ?_⟩
    simp only [List.mem_cons, List.not_mem_nil, or_false] at hw
    rcases hw with rfl | rfl | rfl <;> exact ⟨by decide, by decide, by decide⟩

example : stopsToDict false 0 exStops = .ok (some [⟨"Mine", some []⟩, ⟨"Smelter", some [⟨"time", none, some 1800, none⟩, ⟨"circuit", some "and", none, none⟩,
    ⟨"full", none, none, some 5⟩]⟩]) := by decide +kernel

/-- The hypotheses of `C99_missing_export`. -/
example : stopOfDict (fun _ => true) 0 (⟨"Mine", none⟩ : StopDict ℕ) = .ok ⟨"Mine", .plain⟩ := by decide +kernel

/-- The hypotheses of `C99_made`, `C99_again` and `C99_settled`. -/
example : make (fun _ => true) 0 "inactivity" "and" none (none : Option ℕ) = .ok ⟨"inactivity", "and", some 300, none⟩ ∧
    ofDict (fun _ => true) 0 (toDict 0 ⟨"time", "or", none, none⟩) = .ok ⟨"time", "or", some 1800, none⟩ := by decide +kernel

/-- C99 is false of a condition for elapsed time whose time was set to `None`, which is allowed: it comes back with 30 seconds. -/
theorem C99_ticks_refuted : ¬ ∀ w : Wait ℕ, ofDict (fun _ => true) 0 (toDict 0 w) = .ok w := by
  intro h
  exact absurd (h ⟨"time", "or", none, none⟩) (by decide +kernel)

/-- C99 is false of conditions as the constructor makes them: the default comparison given to a kind that does not compare is lost. -/
theorem C99_comparison_refuted : ¬ ∀ (type cmp : String) (ticks : Option ℕ) (condition : Option ℕ) (w : Wait ℕ),
    make (fun _ => true) 0 type cmp ticks condition = .ok w → ofDict (fun _ => true) 0 (toDict 0 w) = .ok w := by
  intro h
  exact absurd (h "full" "or" none (some 0) ⟨"full", "or", none, some 0⟩ (by decide +kernel)) (by decide +kernel)

/-- C99 is false of stops read from a dictionary without `"wait_conditions"`: such a stop is not equal to the same stop put in with `append_stop` (so
that `set_train_schedule` takes them for different schedules). -/
theorem C99_missing_refuted : ¬ ∀ (station : String) (l : List (Stop ℕ)),
    stopsOfDict (fun _ => true) 0 (some [⟨station, none⟩]) = .ok l → l = appendStop [] station [] := by
  intro h
  exact absurd (h "Mine" [⟨"Mine", .plain⟩] (by decide +kernel)) (by decide +kernel)

/-- C99: whatever pydantic does about it, a stop read from a dictionary without `"wait_conditions"` is not exported as the same stop put in with
`append_stop` is; if defaults with a serializer of their own are not left out, exporting it fails. -/
theorem C99_missing_export_refuted (skip : Bool) : ¬ ∀ (station : String) (l : List (Stop ℕ)),
    stopsOfDict (fun _ => true) 0 (some [⟨station, none⟩]) = .ok l → stopsToDict skip 0 l = stopsToDict skip 0 (appendStop [] station []) := by
  intro h
  have := h "Mine" [⟨"Mine", .plain⟩] (by decide +kernel)
  revert this
  cases skip <;> decide +kernel

/-- C99: reading a list of dictionaries should leave it as it is; it is turned into a list of objects, up to the first that is refused. -/
theorem C99_caller_refuted : ¬ ∀ (valid : Wait ℕ → Bool) (l : List (Item ℕ)), (initWaits valid 0 l).1 = l := by
  intro h
  exact absurd (h (fun _ => true) [.dict ⟨"full", none, none, none⟩]) (by decide +kernel)

end Stops
end Draftsman
