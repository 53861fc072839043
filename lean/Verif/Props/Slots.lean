import Verif.Model.Slots
import Verif.Proof.Slots
import Mathlib.Algebra.Order.Ring.Int

namespace Draftsman
namespace Slots
open SlotList

/-! ## C43: deconstruction filters -/

/-- What slot `i` (counted from 0) holds: the name of the filter stored with index `i + 1`. -/
def held (s : Option (List Filt)) (i : ℤ) : Option String :=
  ((s.getD []).find? fun f => f.index == some (i + 1)).map fun f => f.name

/-- No two filters have the same index. -/
def Distinct (s : Option (List Filt)) : Prop := (s.getD []).Pairwise fun a b => a.index = none ∨ a.index ≠ b.index

/-- Every index is in range. -/
def InRange (s : Option (List Filt)) : Prop := ∀ f ∈ s.getD [], ∀ i, f.index = some i → 0 ≤ i ∧ i < 2 ^ 64

theorem held_eq (s : Option (List Filt)) (i : ℤ) : held s i = (slot Filt.index (s.getD []) (i + 1)).map Filt.name := rfl

theorem held_update {l l' : List Filt} {i : ℤ} {r : Option Filt}
    (h : slot Filt.index l' = Function.update (slot Filt.index l) (i + 1) r) (s s' : Option (List Filt)) (hs : s.getD [] = l)
    (hs' : s'.getD [] = l') : held s' = Function.update (held s) i (r.map Filt.name) := by
  funext j
  rw [held_eq, hs', h]
  by_cases hj : j = i
  · subst hj; simp
  · rw [Function.update_of_ne hj, Function.update_of_ne (by omega), held_eq, hs]

theorem filtsOk_iff (l : List Filt) : filtsOk l = true ↔ ∀ f ∈ l, ∀ i, f.index = some i → 0 ≤ i ∧ i < 2 ^ 64 := by
  unfold filtsOk
  rw [List.all_eq_true]
  refine forall₂_congr fun f _ => ?_
  cases f.index <;> simp [uint64Ok]

/-- The list a call works on afterwards, whatever the outcome. -/
theorem setFilter_cases (s : Option (List Filt)) (i : ℤ) (n : Option String) :
    setFilter s i n = (s, some .unboundLocal) ∧ n = none ∧ slot Filt.index (s.getD []) (i + 1) = none ∨
    setFilter s i n = (s, some .dataFormat) ∧ uint64Ok i = false ∧ n ≠ none ∨
    (∃ (a b : List Filt) (e : Filt), s.getD [] = a ++ e :: b ∧ e.index = some (i + 1) ∧ (∀ x ∈ a, x.index ≠ some (i + 1)) ∧
      n = none ∧ setFilter s i n = commit s (a ++ b)) ∨
    (∃ (a b : List Filt) (e : Filt) (m : String), s.getD [] = a ++ e :: b ∧ e.index = some (i + 1) ∧
      (∀ x ∈ a, x.index ≠ some (i + 1)) ∧ n = some m ∧ uint64Ok i = true ∧ setFilter s i n = commit s (a ++ ⟨m, some (i + 1)⟩ :: b)) ∨
    (∃ m : String, slot Filt.index (s.getD []) (i + 1) = none ∧ n = some m ∧ uint64Ok i = true ∧
      setFilter s i n = commit s (s.getD [] ++ [⟨m, some (i + 1)⟩])) := by
  obtain ⟨l, hl⟩ : ∃ l, l = s.getD [] := ⟨_, rfl⟩
  unfold setFilter
  rw [← hl]
  cases hk : l.findIdx? (fun f => f.index == some (i + 1)) with
  | none =>
    have hn := findIdx_none.mp hk
    cases n with
    | none => exact .inl ⟨rfl, rfl, hn⟩
    | some m =>
      by_cases hu : uint64Ok i = true
      · exact .inr (.inr (.inr (.inr ⟨m, hn, rfl, hu, by simp [hu]⟩)))
      · exact .inr (.inl ⟨by simp [hu], by simpa using hu, by simp⟩)
  | some k =>
    obtain ⟨a, e, b, hab, rfl, he, ha⟩ := split hk
    have he' : e.index = some (i + 1) := by simpa using he
    have ha' : ∀ x ∈ a, x.index ≠ some (i + 1) := fun x hx => by simpa using ha x hx
    rw [hab]
    cases n with
    | none => exact .inr (.inr (.inl ⟨a, b, e, rfl, he', ha', rfl, by simp only [eraseIdx_split]⟩))
    | some m =>
      by_cases hu : uint64Ok i = true
      · refine .inr (.inr (.inr (.inl ⟨a, b, e, m, rfl, he', ha', rfl, hu, ?_⟩)))
        simp only [hu, if_true, modify_split]
        rw [← he']
      · exact .inr (.inl ⟨by simp [hu], by simpa using hu, by simp⟩)

theorem commit_list (s : Option (List Filt)) (l : List Filt) : (commit s l).1 = some l ∨ (commit s l).1 = none ∧ s = none := by
  unfold commit
  split
  · exact .inl rfl
  · cases s
    · exact .inr ⟨rfl, rfl⟩
    · exact .inl rfl

theorem commit_ok {s : Option (List Filt)} {l : List Filt} (h : filtsOk l = true) : commit s l = (some l, none) := by
  simp [commit, h]

/-- C43: setting a filter makes that slot hold it and leaves every other slot alone. -/
theorem C43_set (s : Option (List Filt)) (hu : Distinct s) (hr : InRange s) (i : ℤ) (h0 : 0 ≤ i) (h1 : i + 1 < 2 ^ 64) (n : String) :
    (setFilter s i (some n)).2 = none ∧ held (setFilter s i (some n)).1 = Function.update (held s) i (some n) ∧
      Distinct (setFilter s i (some n)).1 ∧ InRange (setFilter s i (some n)).1 := by
  have hi : uint64Ok i = true := by simp [uint64Ok]; omega
  rcases setFilter_cases s i (some n) with ⟨-, h, -⟩ | ⟨-, h, -⟩ | ⟨a, b, e, -, -, -, h, -⟩ | ⟨a, b, e, m, hl, he, ha, hm, -, h⟩ |
    ⟨m, hn, hm, -, h⟩
  · cases h
  · rw [hi] at h; cases h
  · cases h
  · cases hm
    have hok : filtsOk (a ++ ⟨n, some (i + 1)⟩ :: b) = true := by
      rw [filtsOk_iff]
      intro f hf j hj
      rcases List.mem_append.mp hf with hf | hf
      · exact hr f (by rw [hl]; simp [hf]) j hj
      · rcases List.mem_cons.mp hf with rfl | hf
        · simp only [Option.some.injEq] at hj
          omega
        · exact hr f (by rw [hl]; simp [hf]) j hj
    rw [h, commit_ok hok]
    refine ⟨rfl, ?_, ?_, (filtsOk_iff _).mp hok⟩
    · exact held_update (slot_replace (e' := ⟨n, some (i + 1)⟩) he rfl ha) s (some _) hl rfl
    · exact uniq_replace (key := Filt.index) (e := e) he.symm (hl ▸ hu)
  · cases hm
    have hok : filtsOk (s.getD [] ++ [⟨n, some (i + 1)⟩]) = true := by
      rw [filtsOk_iff]
      intro f hf j hj
      rcases List.mem_append.mp hf with hf | hf
      · exact hr f hf j hj
      · simp only [List.mem_singleton] at hf
        subst hf
        simp only [Option.some.injEq] at hj
        omega
    rw [h, commit_ok hok]
    refine ⟨rfl, ?_, ?_, (filtsOk_iff _).mp hok⟩
    · exact held_update (slot_add (e := ⟨n, some (i + 1)⟩) rfl hn) s (some _) rfl rfl
    · exact uniq_add (key := Filt.index) (k := i + 1) rfl hn hu

/-- C43: setting an occupied slot to nothing clears it and leaves every other slot alone. -/
theorem C43_clear_partial (s : Option (List Filt)) (hu : Distinct s) (hr : InRange s) (i : ℤ) (h : held s i ≠ none) :
    (setFilter s i none).2 = none ∧ held (setFilter s i none).1 = Function.update (held s) i none ∧
      Distinct (setFilter s i none).1 ∧ InRange (setFilter s i none).1 := by
  rcases setFilter_cases s i none with ⟨-, -, hn⟩ | ⟨-, -, hn⟩ | ⟨a, b, e, hl, he, ha, -, hc⟩ | ⟨a, b, e, m, -, -, -, hm, -⟩ |
    ⟨m, -, hm, -⟩
  · rw [held_eq, hn] at h
    exact absurd rfl h
  · exact absurd rfl hn
  · have hok : filtsOk (a ++ b) = true := by
      rw [filtsOk_iff]
      intro f hf j hj
      refine hr f ?_ j hj
      rw [hl]
      simp only [List.mem_append, List.mem_cons] at *
      tauto
    rw [hc, commit_ok hok]
    refine ⟨rfl, ?_, ?_, (filtsOk_iff _).mp hok⟩
    · exact held_update (r := none) (slot_erase he (hl ▸ hu)) s _ hl rfl
    · have hu' : Uniq Filt.index (a ++ e :: b) := hl ▸ hu
      exact uniq_erase hu'
  · cases hm
  · cases hm

/-- C43 refuted: setting an empty slot to nothing always fails. -/
theorem C43_clear_refuted :
    (∀ (s : Option (List Filt)) (i : ℤ), held s i = none → setFilter s i none = (s, some .unboundLocal)) ∧
      held (some []) 3 = none := by
  refine ⟨?_, by decide +kernel⟩
  intro s i h
  rcases setFilter_cases s i none with ⟨hc, -⟩ | ⟨-, -, hn⟩ | ⟨a, b, e, hl, he, ha, -, -⟩ | ⟨a, b, e, m, -, -, -, hm, -⟩ |
    ⟨m, -, hm, -⟩
  · exact hc
  · exact absurd rfl hn
  · rw [held_eq, hl, slot_append, slot_none.mpr ha, slot_cons, if_pos he] at h
    cases h
  · cases hm
  · cases hm

/-- C43: no call, whatever its arguments and outcome, changes what any other slot holds. -/
theorem C43_others (s : Option (List Filt)) (hu : Distinct s) (i : ℤ) (n : Option String) (j : ℤ) (hj : j ≠ i) :
    held (setFilter s i n).1 j = held s j := by
  have key : ∀ (l : List Filt) (r : Option Filt), slot Filt.index l = Function.update (slot Filt.index (s.getD [])) (i + 1) r →
      setFilter s i n = commit s l → held (setFilter s i n).1 j = held s j := by
    intro l r h hc
    rw [hc]
    rcases commit_list s l with h' | ⟨h', rfl⟩
    · rw [h', held_update h s _ rfl rfl, Function.update_of_ne hj]
    · rw [h']
  rcases setFilter_cases s i n with ⟨h, -⟩ | ⟨h, -⟩ | ⟨a, b, e, hl, he, ha, -, h⟩ | ⟨a, b, e, m, hl, he, ha, hm, -, h⟩ |
    ⟨m, hn, hm, -, h⟩
  · rw [h]
  · rw [h]
  · exact key _ _ (by rw [hl]; exact slot_erase he (hl ▸ hu)) h
  · exact key _ _ (by rw [hl]; exact slot_replace he rfl ha) h
  · exact key _ _ (slot_add rfl hn) h

/-- C43: through any history of assignments, failing ones included, no two filters share a slot. -/
theorem C43_distinct (ops : List (ℤ × Option String)) (s : Option (List Filt)) (hu : Distinct s) :
    Distinct (ops.foldl (fun s o => (setFilter s o.1 o.2).1) s) := by
  induction ops generalizing s with
  | nil => exact hu
  | cons o r ih =>
    rw [List.foldl_cons]
    apply ih
    obtain ⟨i, n⟩ := o
    have key : ∀ (l : List Filt), Uniq Filt.index l → setFilter s i n = commit s l → Distinct (setFilter s i n).1 := by
      intro l h hc
      rw [hc]
      rcases commit_list s l with h' | ⟨h', -⟩
      · rw [h']; exact h
      · rw [h']; simp [Distinct]
    rcases setFilter_cases s i n with ⟨h, -⟩ | ⟨h, -⟩ | ⟨a, b, e, hl, he, ha, -, h⟩ | ⟨a, b, e, m, hl, he, ha, hm, -, h⟩ |
      ⟨m, hn, hm, -, h⟩
    · simp only [h]; exact hu
    · simp only [h]; exact hu
    · exact key _ (uniq_erase (e := e) (hl ▸ hu)) h
    · exact key _ (uniq_replace (key := Filt.index) (e := e) he.symm (hl ▸ hu)) h
    · exact key _ (uniq_add (key := Filt.index) (k := i + 1) rfl hn hu) h

/-- C43: any history of in-range assignments leaves each slot holding what was last assigned to it.  (Clearing an empty slot fails, see
`C43_clear_refuted`, but leaves the slots as they should be.) -/
theorem C43_history (ops : List (ℤ × Option String)) (hops : ∀ o ∈ ops, 0 ≤ o.1 ∧ o.1 + 1 < 2 ^ 64) (s : Option (List Filt))
    (hu : Distinct s) (hr : InRange s) :
    held (ops.foldl (fun s o => (setFilter s o.1 o.2).1) s) = ops.foldl (fun T o => Function.update T o.1 o.2) (held s) := by
  induction ops generalizing s with
  | nil => rfl
  | cons o r ih =>
    rw [List.foldl_cons, List.foldl_cons]
    obtain ⟨i, n⟩ := o
    have hi := hops _ (List.mem_cons_self ..)
    have hrest : ∀ o ∈ r, 0 ≤ o.1 ∧ o.1 + 1 < 2 ^ 64 := fun o ho => hops o (List.mem_cons_of_mem _ ho)
    cases n with
    | some n =>
      obtain ⟨-, h2, h3, h4⟩ := C43_set s hu hr i hi.1 hi.2 n
      rw [ih hrest _ h3 h4, h2]
    | none =>
      by_cases hh : held s i = none
      · simp only [C43_clear_refuted.1 s i hh]
        rw [ih hrest s hu hr]
        congr 1
        funext j
        by_cases hj : j = i
        · subst hj; simpa using hh
        · rw [Function.update_of_ne hj]
      · obtain ⟨-, h2, h3, h4⟩ := C43_clear_partial s hu hr i hh
        rw [ih hrest _ h3 h4, h2]

/-- C43: assigning all entity filters at once makes slot `i` hold the `i`-th name and nothing else. -/
theorem C43_entities (names : List String) (i : ℕ) : held (setEntityFilters names) i = names[i]? := by
  unfold held setEntityFilters
  simp only [Option.getD_some]
  have key : ∀ (names : List String) (k i : ℕ),
      ((names.mapIdx fun j n => (⟨n, some (((j + k : ℕ) : ℤ) + 1)⟩ : Filt)).find? fun f => f.index == some (((i + k : ℕ) : ℤ) + 1)).map
        (fun f => f.name) = names[i]? := by
    intro names
    induction names with
    | nil => intro k i; simp
    | cons n r ih =>
      intro k i
      rw [List.mapIdx_cons, List.find?_cons]
      cases i with
      | zero => simp
      | succ i =>
        have h : ((⟨n, some (((0 + k : ℕ) : ℤ) + 1)⟩ : Filt).index == some (((i + 1 + k : ℕ) : ℤ) + 1)) = false := by
          simp only [beq_eq_false_iff_ne, ne_eq, Option.some.injEq]
          omega
        rw [h]
        simp only [List.getElem?_cons_succ]
        rw [← ih (k + 1) i]
        congr 2
        · funext f
          congr 3
          push_cast
          omega
        · congr 1
          funext j n
          congr 2
          push_cast
          omega
  simpa using key names 0 i

/-- C43: assigning all tile filters at once assigns the slots of the names, and leaves the slots beyond them as they were. -/
theorem C43_tiles (names : List String) (s : Option (List Filt)) (hu : Distinct s) (hr : InRange s) (k : ℕ)
    (hlen : ((k + names.length : ℕ) : ℤ) < 2 ^ 64) :
    (setTileFiltersFrom k (names.map some) s).2 = none ∧
      ∀ j : ℤ, held (setTileFiltersFrom k (names.map some) s).1 j =
        if (k : ℤ) ≤ j ∧ j < k + names.length then names[(j - k).toNat]? else held s j := by
  induction names generalizing s k with
  | nil =>
    refine ⟨rfl, fun j => ?_⟩
    rw [if_neg (by simp only [List.length_nil, Nat.cast_zero]; omega)]
    rfl
  | cons n r ih =>
    simp only [List.length_cons] at hlen
    obtain ⟨h1, h2, h3, h4⟩ := C43_set s hu hr k (by omega) (by push_cast at hlen; omega) n
    simp only [List.map_cons, setTileFiltersFrom]
    obtain ⟨x, hx⟩ : ∃ x, x = setFilter s k (some n) := ⟨_, rfl⟩
    rw [← hx] at h1 h2 h3 h4 ⊢
    obtain ⟨s', e⟩ := x
    simp only at h1 h2 h3 h4
    subst h1
    simp only
    obtain ⟨i1, i2⟩ := ih s' h3 h4 (k + 1) (by push_cast at hlen ⊢; omega)
    refine ⟨i1, fun j => ?_⟩
    rw [i2 j, h2]
    simp only [List.length_cons]
    push_cast
    by_cases hjk : j = k
    · subst hjk
      rw [if_neg (by omega), if_pos (by omega), Function.update_self]
      simp
    · rw [Function.update_of_ne hjk]
      by_cases hr' : (k : ℤ) + 1 ≤ j ∧ j < k + 1 + r.length
      · rw [if_pos hr', if_pos (by omega)]
        have : (j - k).toNat = (j - (k + 1)).toNat + 1 := by omega
        rw [this, List.getElem?_cons_succ]
      · rw [if_neg hr', if_neg (by omega)]

/-- A planner with filters set out of order, one replaced and one cleared. -/
def exFilters : Option (List Filt) :=
  [((5 : ℤ), some "pipe"), (0, some "inserter"), (2, some "boiler"), (5, some "radar"), (2, none)].foldl
    (fun s o => (setFilter s o.1 o.2).1) none

example : exFilters = some [⟨"radar", some 6⟩, ⟨"inserter", some 1⟩] ∧ Distinct exFilters ∧ InRange exFilters := by
  have h : exFilters = some [⟨"radar", some 6⟩, ⟨"inserter", some 1⟩] := by decide +kernel
  refine ⟨h, ?_, ?_⟩
  · rw [h]; simp [Distinct]
  · rw [h]; unfold InRange; simp

/-! ## C44: item and inventory filters -/

/-- What slot `i` holds: item, quality and comparator. -/
def itemHeld (s : Option (List ItemF)) (i : ℤ) : Option (String × Option String × Option String) :=
  ((s.getD []).find? fun f => f.index == i + 1).map fun f => (f.name, f.quality, f.comparator)

/-- No two filters have the same index. -/
def ItemsDistinct (s : Option (List ItemF)) : Prop := (s.getD []).Pairwise fun a b => a.index ≠ b.index

/-- Every filter in the list passes validation. -/
def ItemsValid (s : Option (List ItemF)) : Prop := ∀ f ∈ s.getD [], (-2 ^ 63 ≤ f.index ∧ f.index < 2 ^ 63) ∧
  (∀ q, f.quality = some q → q ∈ ["normal", "uncommon", "rare", "epic", "legendary", "quality-unknown", "any"]) ∧
  (∀ c, f.comparator = some c → c ∈ [">", "<", "=", "≥", "≤", "≠"])

theorem itemOk_iff (f : ItemF) : itemOk f = true ↔ (-2 ^ 63 ≤ f.index ∧ f.index < 2 ^ 63) ∧
    (∀ q, f.quality = some q → q ∈ ["normal", "uncommon", "rare", "epic", "legendary", "quality-unknown", "any"]) ∧
    (∀ c, f.comparator = some c → c ∈ [">", "<", "=", "≥", "≤", "≠"]) := by
  unfold itemOk int64Ok qualities comparators
  cases f.quality <;> cases f.comparator <;> simp [and_assoc]

/-- The key of an item filter. -/
def ikey (f : ItemF) : Option ℤ := some f.index

theorem itemHeld_eq (s : Option (List ItemF)) (i : ℤ) :
    itemHeld s i = (slot ikey (s.getD []) (i + 1)).map fun f => (f.name, f.quality, f.comparator) := by
  unfold itemHeld slot
  congr 2

theorem items_uniq (s : Option (List ItemF)) : ItemsDistinct s ↔ Uniq ikey (s.getD []) := by
  unfold ItemsDistinct Uniq
  simp [ikey]

theorem itemHeld_update {l l' : List ItemF} {i : ℤ} {r : Option ItemF}
    (h : slot ikey l' = Function.update (slot ikey l) (i + 1) r) (s s' : Option (List ItemF)) (hs : s.getD [] = l)
    (hs' : s'.getD [] = l') : itemHeld s' = Function.update (itemHeld s) i (r.map fun f => (f.name, f.quality, f.comparator)) := by
  funext j
  rw [itemHeld_eq, hs', h]
  by_cases hj : j = i
  · subst hj; simp
  · rw [Function.update_of_ne hj, Function.update_of_ne (by omega), itemHeld_eq, hs]

theorem setItem_cases (s : Option (List ItemF)) (i : ℤ) (n : Option ItemF) (hni : ∀ e, n = some e → e.index = i) :
    setItem s i n = (s, some .unboundLocal) ∧ n = none ∧ slot ikey (s.getD []) (i + 1) = none ∨
    (∃ m, n = some m ∧ itemOk m = false ∧ setItem s i n = (s, some .dataFormat)) ∨
    (∃ (a b : List ItemF) (e : ItemF), s.getD [] = a ++ e :: b ∧ ikey e = some (i + 1) ∧ (∀ x ∈ a, ikey x ≠ some (i + 1)) ∧
      n = none ∧ setItem s i n = commitItems s (a ++ b)) ∨
    (∃ (a b : List ItemF) (e m : ItemF), s.getD [] = a ++ e :: b ∧ ikey e = some (i + 1) ∧
      (∀ x ∈ a, ikey x ≠ some (i + 1)) ∧ n = some m ∧ itemOk m = true ∧
      setItem s i n = commitItems s (a ++ { e with name := m.name } :: b)) ∨
    (∃ m : ItemF, slot ikey (s.getD []) (i + 1) = none ∧ n = some m ∧ itemOk m = true ∧
      setItem s i n = commitItems s (s.getD [] ++ [{ m with index := i + 1 }])) := by
  obtain ⟨l, hl⟩ : ∃ l, l = s.getD [] := ⟨_, rfl⟩
  unfold setItem
  rw [← hl]
  have hp : (fun f : ItemF => f.index == i + 1) = (fun f => ikey f == some (i + 1)) := by
    funext f; simp [ikey]
  rw [hp]
  cases hk : l.findIdx? (fun f => ikey f == some (i + 1)) with
  | none =>
    have hn := findIdx_none.mp hk
    cases n with
    | none => exact .inl ⟨rfl, rfl, hn⟩
    | some m =>
      by_cases hu : itemOk m = true
      · refine .inr (.inr (.inr (.inr ⟨m, hn, rfl, hu, ?_⟩)))
        simp [hu, hni m rfl]
      · exact .inr (.inl ⟨m, rfl, by simpa using hu, by simp [hu]⟩)
  | some k =>
    obtain ⟨a, e, b, hab, rfl, he, ha⟩ := split hk
    have he' : ikey e = some (i + 1) := by simpa using he
    have ha' : ∀ x ∈ a, ikey x ≠ some (i + 1) := fun x hx => by simpa using ha x hx
    rw [hab]
    cases n with
    | none => exact .inr (.inr (.inl ⟨a, b, e, rfl, he', ha', rfl, by simp only [eraseIdx_split]⟩))
    | some m =>
      by_cases hu : itemOk m = true
      · refine .inr (.inr (.inr (.inl ⟨a, b, e, m, rfl, he', ha', rfl, hu, ?_⟩)))
        simp only [hu, if_true, modify_split]
      · exact .inr (.inl ⟨m, rfl, by simpa using hu, by simp [hu]⟩)

theorem commitItems_list (s : Option (List ItemF)) (l : List ItemF) :
    (commitItems s l).1 = some l ∨ (commitItems s l).1 = none ∧ s = none := by
  unfold commitItems
  split
  · exact .inl rfl
  · cases s
    · exact .inr ⟨rfl, rfl⟩
    · exact .inl rfl

theorem commitItems_ok {s : Option (List ItemF)} {l : List ItemF} (h : ∀ f ∈ l, itemOk f = true) : commitItems s l = (some l, none) := by
  have : l.all itemOk = true := by simpa using h
  simp [commitItems, this]

/-- Either setter. -/
inductive Setter where
  | item
  | inventory

/-- What each setter does. -/
def Setter.run : Setter → Option (List ItemF) → ℤ → Option String → String → String → Option (List ItemF) × Option PyErr
  | .item => setItemFilter
  | .inventory => setInventoryFilter

/-- The entry each setter builds. -/
def Setter.entry (w : Setter) (i : ℤ) (n q c : String) : ItemF :=
  match w with
  | .item => ⟨i, n, some q, some c⟩
  | .inventory => ⟨i, n, some "any", none⟩

theorem Setter.run_entry (w : Setter) (s : Option (List ItemF)) (i : ℤ) (n : Option String) (q c : String) :
    w.run s i n q c = setItem s i (n.map fun n => w.entry i n q c) := by
  cases w <;> rfl

theorem Setter.entry_index (w : Setter) (i : ℤ) (n q c : String) : (w.entry i n q c).index = i ∧ (w.entry i n q c).name = n := by
  cases w <;> exact ⟨rfl, rfl⟩

theorem Setter.run_eq (w : Setter) (s : Option (List ItemF)) (i : ℤ) (n : Option String) (q c : String) :
    ∃ e : Option ItemF, w.run s i n q c = setItem s i e ∧ ∀ x, e = some x → x.index = i := by
  refine ⟨_, w.run_entry s i n q c, ?_⟩
  cases n with
  | none => simp
  | some n =>
    intro x hx
    simp only [Option.map_some, Option.some.injEq] at hx
    rw [← hx]
    exact (w.entry_index i n q c).1

theorem Setter.entry_ok (w : Setter) (i : ℤ) (n q c : String) (hq : q ∈ qualities) (hc : c ∈ comparators) (j : ℤ)
    (h0 : -2 ^ 63 ≤ j) (h1 : j < 2 ^ 63) : itemOk { w.entry i n q c with index := j } = true := by
  cases w <;> simp only [Setter.entry, itemOk, int64Ok, Bool.and_eq_true, decide_eq_true_eq]
  · exact ⟨⟨⟨h0, h1⟩, hq⟩, hc⟩
  · exact ⟨⟨⟨h0, h1⟩, by decide⟩, trivial⟩

/-- C44: no call of either setter, whatever its arguments and outcome, changes what any other slot holds. -/
theorem C44_others (w : Setter) (s : Option (List ItemF)) (hu : ItemsDistinct s) (i : ℤ) (n : Option String) (q c : String) (j : ℤ)
    (hj : j ≠ i) : itemHeld (w.run s i n q c).1 j = itemHeld s j := by
  rw [items_uniq] at hu
  obtain ⟨en, hw, hen⟩ := w.run_eq s i n q c
  rw [hw]
  have key : ∀ (l : List ItemF) (r : Option ItemF), slot ikey l = Function.update (slot ikey (s.getD [])) (i + 1) r →
      setItem s i en = commitItems s l → itemHeld (setItem s i en).1 j = itemHeld s j := by
    intro l r h hc
    rw [hc]
    rcases commitItems_list s l with h' | ⟨h', rfl⟩
    · rw [h', itemHeld_update h s _ rfl rfl, Function.update_of_ne hj]
    · rw [h']
  rcases setItem_cases s i en hen with ⟨h, -⟩ | ⟨m, -, -, h⟩ | ⟨a, b, e, hl, he, ha, -, h⟩ |
    ⟨a, b, e, m, hl, he, ha, hm, -, h⟩ | ⟨m, hn, hm, -, h⟩
  · rw [h]
  · rw [h]
  · exact key _ _ (by rw [hl]; exact slot_erase he (hl ▸ hu)) h
  · exact key _ _ (by rw [hl]; exact slot_replace he (by simpa [ikey] using he) ha) h
  · exact key _ _ (slot_add rfl hn) h

/-- C44: through any history of calls, failing ones included, no two filters share a slot. -/
theorem C44_distinct (ops : List (Setter × ℤ × Option String × String × String)) (s : Option (List ItemF)) (hu : ItemsDistinct s) :
    ItemsDistinct (ops.foldl (fun s o => (o.1.run s o.2.1 o.2.2.1 o.2.2.2.1 o.2.2.2.2).1) s) := by
  induction ops generalizing s with
  | nil => exact hu
  | cons o r ih =>
    rw [List.foldl_cons]
    apply ih
    obtain ⟨w, i, n, q, c⟩ := o
    rw [items_uniq] at *
    obtain ⟨en, hw, hen⟩ := w.run_eq s i n q c
    simp only [hw]
    have key : ∀ (l : List ItemF), Uniq ikey l → setItem s i en = commitItems s l → Uniq ikey ((setItem s i en).1.getD []) := by
      intro l h hc
      rw [hc]
      rcases commitItems_list s l with h' | ⟨h', -⟩
      · rw [h']; exact h
      · rw [h']; simp [Uniq]
    rcases setItem_cases s i en hen with ⟨h, -⟩ | ⟨m, -, -, h⟩ | ⟨a, b, e, hl, he, ha, -, h⟩ |
      ⟨a, b, e, m, hl, he, ha, hm, -, h⟩ | ⟨m, hn, hm, -, h⟩
    · rw [h]; exact hu
    · rw [h]; exact hu
    · exact key _ (uniq_erase (e := e) (hl ▸ hu)) h
    · exact key _ (uniq_replace (key := ikey) (e := e) (e' := { e with name := m.name }) rfl (hl ▸ hu)) h
    · exact key _ (uniq_add (key := ikey) (k := i + 1) rfl hn hu) h

/-- C44: an item filter set on an empty slot makes that slot hold exactly the item, quality and comparator given.
Missing: a slot that is already occupied (`C44_replace_refuted`) and the inventory setter (`C44_inventory_refuted`). -/
theorem C44_set_partial (s : Option (List ItemF)) (hu : ItemsDistinct s) (hv : ItemsValid s) (i : ℤ)
    (h0 : -2 ^ 63 ≤ i) (h1 : i + 1 < 2 ^ 63) (n q c : String) (hq : q ∈ qualities) (hc : c ∈ comparators)
    (he : itemHeld s i = none) :
    (setItemFilter s i (some n) q c).2 = none ∧
      itemHeld (setItemFilter s i (some n) q c).1 = Function.update (itemHeld s) i (some (n, some q, some c)) ∧
      ItemsDistinct (setItemFilter s i (some n) q c).1 ∧ ItemsValid (setItemFilter s i (some n) q c).1 := by
  have hslot : slot ikey (s.getD []) (i + 1) = none := by
    rw [itemHeld_eq, Option.map_eq_none_iff] at he
    exact he
  unfold setItemFilter
  rw [Option.map_some]
  have hok : itemOk ⟨i, n, some q, some c⟩ = true := by
    simp only [itemOk, int64Ok, Bool.and_eq_true, decide_eq_true_eq]
    exact ⟨⟨⟨h0, by omega⟩, hq⟩, hc⟩
  rcases setItem_cases s i (some ⟨i, n, some q, some c⟩) (by simp) with ⟨-, h, -⟩ | ⟨m, h, h', -⟩ | ⟨a, b, e, hl, he, ha, h, -⟩ |
    ⟨a, b, e, m, hl, he, ha, hm, -, h⟩ | ⟨m, hn, hm, -, h⟩
  · cases h
  · cases h; rw [hok] at h'; cases h'
  · cases h
  · rw [hl, slot_append, slot_none.mpr ha, slot_cons, if_pos he] at hslot
    cases hslot
  · cases hm
    have hall : ∀ f ∈ s.getD [] ++ [(⟨i + 1, n, some q, some c⟩ : ItemF)], itemOk f = true := by
      intro f hf
      rcases List.mem_append.mp hf with hf | hf
      · exact (itemOk_iff _).2 (hv f hf)
      · simp only [List.mem_singleton] at hf
        subst hf
        simp only [itemOk, int64Ok, Bool.and_eq_true, decide_eq_true_eq]
        exact ⟨⟨⟨by omega, h1⟩, hq⟩, hc⟩
    rw [h, commitItems_ok hall]
    refine ⟨rfl, ?_, ?_, fun f hf => (itemOk_iff f).1 (hall f hf)⟩
    · exact itemHeld_update (slot_add (k := i + 1) (e := ⟨i + 1, n, some q, some c⟩) rfl hn) s (some _) rfl rfl
    · rw [items_uniq] at *
      exact uniq_add (key := ikey) (k := i + 1) rfl hn hu

theorem itemOk_name (e : ItemF) (n : String) : itemOk { e with name := n } = itemOk e := rfl

/-- C44: either setter, given an item, succeeds and makes the slot hold that item. -/
theorem C44_item (w : Setter) (s : Option (List ItemF)) (hv : ItemsValid s) (i : ℤ)
    (h0 : -2 ^ 63 ≤ i) (h1 : i + 1 < 2 ^ 63) (n q c : String) (hq : q ∈ qualities) (hc : c ∈ comparators) :
    (w.run s i (some n) q c).2 = none ∧ (itemHeld (w.run s i (some n) q c).1 i).map Prod.fst = some n := by
  rw [w.run_entry, Option.map_some]
  obtain ⟨hi, hn⟩ := w.entry_index i n q c
  have ok1 := w.entry_ok i n q c hq hc i h0 (by omega)
  have ok2 := w.entry_ok i n q c hq hc (i + 1) (by omega) h1
  obtain ⟨m, hm⟩ : ∃ m, m = w.entry i n q c := ⟨_, rfl⟩
  rw [← hm] at hi hn ok1 ok2 ⊢
  subst hi
  rcases setItem_cases s m.index (some m) (by simp) with ⟨-, h, -⟩ | ⟨m', h, h', -⟩ | ⟨a, b, e, hl, he, ha, h, -⟩ |
    ⟨a, b, e, m', hl, he, ha, hm', -, h⟩ | ⟨m', hs, hm', -, h⟩
  · cases h
  · cases h
    exact absurd ok1 (by rw [h']; simp)
  · cases h
  · cases hm'
    have hall : ∀ f ∈ a ++ { e with name := m.name } :: b, itemOk f = true := by
      intro f hf
      rcases List.mem_append.mp hf with hf | hf
      · exact (itemOk_iff _).2 (hv f (by rw [hl]; simp [hf]))
      · rcases List.mem_cons.mp hf with rfl | hf
        · rw [itemOk_name]; exact (itemOk_iff _).2 (hv e (by rw [hl]; simp))
        · exact (itemOk_iff _).2 (hv f (by rw [hl]; simp [hf]))
    rw [h, commitItems_ok hall]
    refine ⟨rfl, ?_⟩
    rw [itemHeld_eq, Option.getD_some, slot_append, slot_none.mpr ha, slot_cons, if_pos (by simpa [ikey] using he)]
    simp [hn]
  · cases hm'
    have hall : ∀ f ∈ s.getD [] ++ [{ m with index := m.index + 1 }], itemOk f = true := by
      intro f hf
      rcases List.mem_append.mp hf with hf | hf
      · exact (itemOk_iff _).2 (hv f hf)
      · simp only [List.mem_singleton] at hf
        subst hf
        exact ok2
    rw [h, commitItems_ok hall]
    refine ⟨rfl, ?_⟩
    rw [itemHeld_eq, Option.getD_some, slot_append, hs, slot_cons, if_pos (by rfl)]
    simp [hn]

/-- C44: setting an occupied slot to nothing clears it, with either setter, and leaves every other slot alone. -/
theorem C44_clear_partial (w : Setter) (s : Option (List ItemF)) (hu : ItemsDistinct s) (hv : ItemsValid s) (i : ℤ) (q c : String)
    (h : itemHeld s i ≠ none) :
    (w.run s i none q c).2 = none ∧ itemHeld (w.run s i none q c).1 = Function.update (itemHeld s) i none := by
  rw [w.run_entry, Option.map_none]
  rcases setItem_cases s i none (by simp) with ⟨-, -, hn⟩ | ⟨m', h', -, -⟩ | ⟨a, b, e, hl, he, ha, -, hc⟩ |
    ⟨a, b, e, m', hl, he, ha, hm', -, -⟩ | ⟨m', hs, hm', -, -⟩
  · rw [itemHeld_eq, hn] at h
    exact absurd rfl h
  · cases h'
  · have hall : ∀ f ∈ a ++ b, itemOk f = true := by
      intro f hf
      refine (itemOk_iff _).2 (hv f ?_)
      rw [hl]
      simp only [List.mem_append, List.mem_cons] at *
      tauto
    rw [hc, commitItems_ok hall]
    rw [items_uniq] at hu
    exact ⟨rfl, itemHeld_update (r := none) (slot_erase he (hl ▸ hu)) s _ hl rfl⟩
  · cases hm'
  · cases hm'

/-- C44 refuted: setting an empty slot to nothing always fails. -/
theorem C44_clear_refuted :
    (∀ (w : Setter) (s : Option (List ItemF)) (i : ℤ) (q c : String), itemHeld s i = none →
      w.run s i none q c = (s, some .unboundLocal)) ∧ itemHeld none 0 = none := by
  refine ⟨?_, rfl⟩
  intro w s i q c h
  rw [w.run_entry, Option.map_none]
  rcases setItem_cases s i none (by simp) with ⟨hc, -⟩ | ⟨m', h', -, -⟩ | ⟨a, b, e, hl, he, ha, -, -⟩ |
    ⟨a, b, e, m', hl, he, ha, hm', -, -⟩ | ⟨m', hs, hm', -, -⟩
  · exact hc
  · cases h'
  · rw [itemHeld_eq, hl, slot_append, slot_none.mpr ha, slot_cons, if_pos he] at h
    cases h
  · cases hm'
  · cases hm'

/-- C44 refuted: setting an occupied slot always keeps the quality and comparator that were there, whatever is given. -/
theorem C44_replace_refuted :
    (∀ (w : Setter) (s : Option (List ItemF)) (i : ℤ) (n q c : String) (old : String × Option String × Option String),
      itemHeld s i = some old →
      (itemHeld (w.run s i (some n) q c).1 i).map Prod.snd = some old.2) ∧
    ∃ s : Option (List ItemF), itemHeld s 0 = some ("coal", some "normal", some "=") ∧
      itemHeld (setItemFilter s 0 (some "stone") "rare" ">").1 0 = some ("stone", some "normal", some "=") := by
  refine ⟨?_, some [⟨1, "coal", some "normal", some "="⟩], by decide +kernel, by decide +kernel⟩
  intro w s i n q c old hold
  rw [w.run_entry, Option.map_some]
  rcases setItem_cases s i (some (w.entry i n q c)) (by simp [(w.entry_index i n q c).1]) with
    ⟨-, h, -⟩ | ⟨m', h, h', hr⟩ | ⟨a, b, e, hl, he, ha, h, -⟩ | ⟨a, b, e, m', hl, he, ha, hm', -, h⟩ | ⟨m', hs, hm', -, h⟩
  · cases h
  · rw [hr]
    simp [hold]
  · cases h
  · rw [itemHeld_eq, hl, slot_append, slot_none.mpr ha, slot_cons, if_pos he] at hold
    simp only [Option.none_or, Option.map_some, Option.some.injEq] at hold
    subst hold
    rw [h]
    rcases commitItems_list s (a ++ { e with name := m'.name } :: b) with h' | ⟨-, rfl⟩
    · rw [h', itemHeld_eq, Option.getD_some, slot_append, slot_none.mpr ha, slot_cons, if_pos (by simpa [ikey] using he)]
      rfl
    · simp at hl
  · rw [itemHeld_eq, hs] at hold
    cases hold

/-- C44 refuted: a filter newly set in an inventory never gets the quality and comparator given. -/
theorem C44_inventory_refuted (s : Option (List ItemF)) (hv : ItemsValid s) (i : ℤ) (h0 : -2 ^ 63 ≤ i) (h1 : i + 1 < 2 ^ 63)
    (n q c : String) (hq : q ∈ qualities) (hc : c ∈ comparators) (he : itemHeld s i = none) :
    itemHeld (setInventoryFilter s i (some n) q c).1 i = some (n, some "any", none) := by
  have hslot : slot ikey (s.getD []) (i + 1) = none := by
    rw [itemHeld_eq, Option.map_eq_none_iff] at he
    exact he
  have ok1 := Setter.entry_ok .inventory i n q c hq hc i h0 (by omega)
  have ok2 := Setter.entry_ok .inventory i n q c hq hc (i + 1) (by omega) h1
  simp only [Setter.entry] at ok1 ok2
  unfold setInventoryFilter
  rw [Option.map_some]
  rcases setItem_cases s i (some ⟨i, n, some "any", none⟩) (by simp) with ⟨-, h, -⟩ | ⟨m', h, h', -⟩ | ⟨a, b, e, hl, he, ha, h, -⟩ |
    ⟨a, b, e, m', hl, he, ha, hm', -, h⟩ | ⟨m', hs, hm', -, h⟩
  · cases h
  · cases h
    rw [ok1] at h'
    cases h'
  · cases h
  · rw [hl, slot_append, slot_none.mpr ha, slot_cons, if_pos he] at hslot
    cases hslot
  · cases hm'
    have hall : ∀ f ∈ s.getD [] ++ [(⟨i + 1, n, some "any", none⟩ : ItemF)], itemOk f = true := by
      intro f hf
      rcases List.mem_append.mp hf with hf | hf
      · exact (itemOk_iff _).2 (hv f hf)
      · simp only [List.mem_singleton] at hf
        subst hf
        exact ok2
    rw [h, commitItems_ok hall]
    rw [itemHeld_eq, Option.getD_some, slot_append, hs, slot_cons, if_pos (by rfl)]
    rfl

/-- Whether an entry of the list can be taken. -/
def Taken (k : ℕ) : ItemArg → Prop
  | .name _ => (k : ℤ) + 1 < 2 ^ 63
  | .entry f => ItemsValid (some [f])
  | .none => False

/-- The filter an entry of the list stands for. -/
def meant (k : ℕ) : ItemArg → ItemF
  | .name n => ⟨k + 1, n, some "any", none⟩
  | .entry f => f
  | .none => ⟨0, "", none, none⟩

theorem readItem_taken (k : ℕ) (a : ItemArg) (h : Taken k a) : readItem k a = some (meant k a) := by
  cases a with
  | name n =>
    have : itemOk ⟨k + 1, n, some "any", none⟩ = true := by
      rw [itemOk_iff]
      refine ⟨⟨by simp only; omega, h⟩, ?_, ?_⟩
      · intro q hq; cases hq; decide
      · intro c hc; cases hc
    simp [readItem, meant, this]
  | entry f =>
    have : itemOk f = true := (itemOk_iff f).2 (h f (by simp))
    simp [readItem, meant, this]
  | none => exact h.elim

theorem readItem_refused (k : ℕ) (a : ItemArg) (h : ¬ Taken k a) : readItem k a = none := by
  cases a with
  | name n =>
    have : itemOk ⟨k + 1, n, some "any", none⟩ = false := by
      rw [Bool.eq_false_iff]
      intro h'
      exact h ((itemOk_iff _).1 h').1.2
    simp [readItem, this]
  | entry f =>
    have : itemOk f = false := by
      rw [Bool.eq_false_iff]
      intro h'
      refine h fun g hg => ?_
      simp only [Option.getD_some, List.mem_singleton] at hg
      subst hg
      exact (itemOk_iff _).1 h'
    simp [readItem, this]
  | none => rfl

theorem readItems_eq (l : List ItemArg) : ∀ k, ((∀ (j : ℕ) a, l[j]? = some a → Taken (k + j) a) → readItems k l = some (l.mapIdx fun j a => meant (k + j) a)) ∧
    ((∃ (j : ℕ) (a : ItemArg), l[j]? = some a ∧ ¬ Taken (k + j) a) → readItems k l = none) := by
  induction l with
  | nil => intro k; simp [readItems]
  | cons a l ih =>
    intro k
    constructor
    · intro h
      have h1 := readItem_taken k a (h 0 a rfl)
      have h2 := (ih (k + 1)).1 fun j b hb => by
        have := h (j + 1) b (by simpa using hb)
        rwa [show k + 1 + j = k + (j + 1) by omega]
      simp only [readItems, h1, h2, List.mapIdx_cons, Nat.add_zero]
      congr 3
      funext j b
      rw [show k + 1 + j = k + (j + 1) by omega]
    · rintro ⟨j, b, hb, hn⟩
      cases j with
      | zero =>
        simp only [List.getElem?_cons_zero, Option.some.injEq] at hb
        subst hb
        simp only [readItems, readItem_refused k a hn]
      | succ j =>
        have h2 := (ih (k + 1)).2 ⟨j, b, by simpa using hb, by rwa [show k + 1 + j = k + (j + 1) by omega]⟩
        simp only [readItems, h2]
        cases readItem k a <;> rfl

/-- C44: all item filters set at once: the list holds what its entries stand for, in order, a name standing for the slot of its place at any quality; if one
entry is not valid that is a `DataFormatError` and nothing changes; a single `None` removes the list. -/
theorem C44_all (s : Option (List ItemF)) (l : List ItemArg) :
    (l = [.none] → setItemFilters s l = (none, none)) ∧
    (l ≠ [.none] → (∀ (k : ℕ) a, l[k]? = some a → Taken k a) → setItemFilters s l = (some (l.mapIdx meant), none)) ∧
    (l ≠ [.none] → (∃ (k : ℕ) (a : ItemArg), l[k]? = some a ∧ ¬ Taken k a) → setItemFilters s l = (s, some .dataFormat)) := by
  refine ⟨fun h => by simp [setItemFilters, h], fun h h' => ?_, fun h h' => ?_⟩
  · have := (readItems_eq l 0).1 (by simpa using h')
    simp only [setItemFilters, if_neg h, this, Nat.zero_add]
  · have := (readItems_eq l 0).2 (by simpa using h')
    simp only [setItemFilters, if_neg h, this]

/-- C44: item filters set at once by name: slot `i` holds the `i`-th name, and no other slot holds anything. -/
theorem C44_names (s : Option (List ItemF)) (names : List String) (hlen : (names.length : ℤ) < 2 ^ 63) :
    (setItemFilters s (names.map .name)).2 = none ∧ ItemsDistinct (setItemFilters s (names.map .name)).1 ∧
    (∀ i : ℕ, itemHeld (setItemFilters s (names.map .name)).1 i = names[i]?.map fun n => (n, some "any", none)) ∧
    ∀ i : ℤ, i < 0 → itemHeld (setItemFilters s (names.map .name)).1 i = none := by
  have h0 : names.map ItemArg.name ≠ [.none] := by
    cases names with
    | nil => simp
    | cons n r => simp
  have h1 : ∀ (k : ℕ) a, (names.map ItemArg.name)[k]? = some a → Taken k a := by
    intro k a h
    rw [List.getElem?_map, Option.map_eq_some_iff] at h
    obtain ⟨n, hn, rfl⟩ := h
    have := (List.getElem?_eq_some_iff.1 hn).1
    simp only [Taken]
    omega
  rw [(C44_all s _).2.1 h0 h1]
  have hget : ∀ (k : ℕ) f, ((names.map ItemArg.name).mapIdx meant)[k]? = some f → f.index = k + 1 ∧ names[k]? = some f.name ∧ f.quality = some "any" ∧
      f.comparator = none := by
    intro k f h
    rw [List.getElem?_mapIdx, List.getElem?_map] at h
    cases hn : names[k]? with
    | none => simp [hn] at h
    | some n =>
      simp only [hn, Option.map_some, Option.some.injEq] at h
      subst h
      exact ⟨rfl, rfl, rfl, rfl⟩
  have hd : ItemsDistinct (some ((names.map ItemArg.name).mapIdx meant)) := by
    unfold ItemsDistinct
    rw [Option.getD_some, List.pairwise_iff_getElem]
    intro i j hi hj hij
    rw [(hget i _ (List.getElem?_eq_getElem hi)).1, (hget j _ (List.getElem?_eq_getElem hj)).1]
    omega
  refine ⟨rfl, hd, ?_, ?_⟩
  · intro i
    unfold itemHeld
    simp only [Option.getD_some]
    cases hn : names[i]? with
    | none =>
      simp only [Option.map_none, Option.map_eq_none_iff, List.find?_eq_none, beq_iff_eq]
      intro f hf hfi
      obtain ⟨k, hk⟩ := List.getElem?_of_mem hf
      obtain ⟨h2, h3, -⟩ := hget k f hk
      have : k = i := by omega
      subst this
      rw [hn] at h3
      cases h3
    | some n =>
      cases hf : ((names.map ItemArg.name).mapIdx meant).find? fun f => f.index == (i : ℤ) + 1 with
      | none =>
        rw [List.find?_eq_none] at hf
        have hk : ((names.map ItemArg.name).mapIdx meant)[i]? = some (meant i (.name n)) := by
          rw [List.getElem?_mapIdx, List.getElem?_map, hn]
          rfl
        have := hf _ (List.mem_of_getElem? hk)
        simp [meant] at this
      | some f =>
        have h4 := List.find?_some hf
        obtain ⟨k, hk⟩ := List.getElem?_of_mem (List.mem_of_find?_eq_some hf)
        obtain ⟨h2, h3, h5, h6⟩ := hget k f hk
        simp only [beq_iff_eq] at h4
        have : k = i := by omega
        subst this
        rw [hn, Option.some.injEq] at h3
        simp only [Option.map_some, h5, h6, ← h3]
  · intro i hi
    unfold itemHeld
    simp only [Option.getD_some, Option.map_eq_none_iff, List.find?_eq_none, beq_iff_eq]
    intro f hf hfi
    obtain ⟨k, hk⟩ := List.getElem?_of_mem hf
    have := (hget k f hk).1
    omega

example : setItemFilters none [.name "coal", .entry ⟨7, "stone", some "rare", some ">"⟩] =
      (some [⟨1, "coal", some "any", none⟩, ⟨7, "stone", some "rare", some ">"⟩], none) ∧
    setItemFilters none [.name "coal", .entry ⟨7, "stone", some "rare", some ">="⟩] = (none, some .dataFormat) ∧
    setItemFilters (some []) [.none] = (none, none) ∧ setItemFilters (some []) [.name "coal", .none] = (some [], some .dataFormat) := by decide +kernel

/-- C44 refuted: of the comparators the signature of the setter offers (`/repo/draftsman/classes/mixins/filters.py:123`), the spelled-out ones are
rejected. -/
theorem C44_comparator_refuted (s : Option (List ItemF)) (i : ℤ) (n q : String) :
    ∀ c ∈ ["==", ">=", "<=", "!="], setItemFilter s i (some n) q c = (s, some .dataFormat) := by
  intro c hc
  have h : itemOk ⟨i, n, some q, some c⟩ = false := by
    simp only [itemOk]
    have : decide (c ∈ comparators) = false := by
      simp only [List.mem_cons, List.not_mem_nil, or_false] at hc
      rcases hc with rfl | rfl | rfl | rfl <;> decide +kernel
    simp [this]
  unfold setItemFilter setItem
  simp [h]

example : ∃ s : Option (List ItemF), ItemsDistinct s ∧ ItemsValid s ∧ itemHeld s 4 = none ∧ itemHeld s 0 ≠ none ∧
    itemHeld (setItemFilter s 4 (some "coal") "rare" ">").1 4 = some ("coal", some "rare", some ">") := by
  refine ⟨some [⟨1, "stone", some "normal", some "="⟩], by simp [ItemsDistinct], ?_, by decide +kernel, by decide +kernel, by decide +kernel⟩
  unfold ItemsValid
  simp only [Option.getD_some, List.mem_singleton, forall_eq]
  decide +kernel

/-! ## C45: signal sections -/

/-- No two entries of the section share an index. -/
def SigsDistinct (s : Option (List Sig)) : Prop := (s.getD []).Pairwise fun a b => a.index ≠ b.index

/-- The key of a signal. -/
def skey (f : Sig) : Option ℤ := some f.index

theorem getSignal_eq (s : Option (List Sig)) (i : ℤ) : getSignal s i = slot skey (s.getD []) (i + 1) := by
  cases s
  · rfl
  · unfold getSignal slot
    congr 1

theorem sigs_uniq (s : Option (List Sig)) : SigsDistinct s ↔ Uniq skey (s.getD []) := by
  unfold SigsDistinct Uniq
  simp [skey]

theorem setSignal_cases (l : List Sig) (i : ℤ) (n : String) (c : ℤ) (q : String) (t : Option String) (h : sigOk ⟨i, n, t, q, c⟩ = true) :
    (∃ (a b : List Sig) (e : Sig), l = a ++ e :: b ∧ skey e = some (i + 1) ∧ (∀ x ∈ a, skey x ≠ some (i + 1)) ∧
      setSignal (some l) i (some n) c q t = (some (a ++ ⟨i + 1, n, t, q, c⟩ :: b), none)) ∨
    (slot skey l (i + 1) = none ∧ setSignal (some l) i (some n) c q t = (some (l ++ [⟨i + 1, n, t, q, c⟩]), none)) := by
  unfold setSignal
  simp only [h, if_true]
  have hp : (fun f : Sig => i + 1 == f.index) = (fun f => skey f == some (i + 1)) := by
    funext f
    simp only [skey]
    rw [Bool.eq_iff_iff, beq_iff_eq, beq_iff_eq, Option.some.injEq, eq_comm]
  rw [hp]
  cases hk : l.findIdx? (fun f => skey f == some (i + 1)) with
  | none => exact .inr ⟨findIdx_none.mp hk, rfl⟩
  | some k =>
    obtain ⟨a, e, b, rfl, rfl, he, ha⟩ := split hk
    exact .inl ⟨a, b, e, rfl, by simpa using he, fun x hx => by simpa using ha x hx, by simp only [set_split]⟩

/-- What a signal must be: a 64 bit index, a 32 bit count, a known quality, a known type if any. -/
def SigValid (i : ℤ) (c : ℤ) (q : String) (t : Option String) : Prop :=
  (-2 ^ 63 ≤ i ∧ i < 2 ^ 63) ∧ (-2 ^ 31 ≤ c ∧ c < 2 ^ 31) ∧
    q ∈ ["normal", "uncommon", "rare", "epic", "legendary", "quality-unknown", "any"] ∧
    ∀ u, t = some u → u ∈ ["virtual", "item", "fluid", "recipe", "entity", "space-location", "asteroid-chunk", "quality"]

theorem sigOk_iff (i : ℤ) (n : String) (c : ℤ) (q : String) (t : Option String) : sigOk ⟨i, n, t, q, c⟩ = true ↔ SigValid i c q t := by
  unfold sigOk SigValid int64Ok sigTypes qualities
  simp only [Bool.and_eq_true, decide_eq_true_eq]
  have ht : (match t with | none => true | some u => decide (u ∈ ["virtual", "item", "fluid", "recipe", "entity", "space-location", "asteroid-chunk", "quality"])) = true ↔
      ∀ u, t = some u → u ∈ ["virtual", "item", "fluid", "recipe", "entity", "space-location", "asteroid-chunk", "quality"] := by
    cases t with
    | none => simp
    | some u => simp only [decide_eq_true_eq, Option.some.injEq]; exact ⟨fun h u' e => e ▸ h, fun h => h u rfl⟩
  constructor
  · rintro ⟨⟨⟨⟨a, b⟩, d⟩, e⟩, f⟩; exact ⟨a, ⟨e, f⟩, d, ht.1 b⟩
  · rintro ⟨a, ⟨e, f⟩, b, d⟩; exact ⟨⟨⟨⟨a, ht.2 d⟩, b⟩, e⟩, f⟩

/-- C45: anything else is refused, and changes nothing. -/
theorem C45_refused (s : Option (List Sig)) (i : ℤ) (n : String) (c : ℤ) (q : String) (t : Option String) (h : ¬ SigValid i c q t) :
    setSignal s i (some n) c q t = (s, some .dataFormat) := by
  rw [← sigOk_iff i n] at h
  simp [setSignal, h]

example : ¬ SigValid 0 (2 ^ 31) "normal" none ∧ ¬ SigValid 0 5 "good" none ∧ SigValid 0 (2 ^ 31 - 1) "rare" (some "item") := by
  unfold SigValid
  refine ⟨by simp, by simp, by simp⟩

/-- C45: setting a signal makes reading that index return it, and reading any other index return what it did before. -/
theorem C45_set (l : List Sig) (i : ℤ) (n : String) (c : ℤ) (q : String) (t : Option String)
    (hv : SigValid i c q t) :
    (setSignal (some l) i (some n) c q t).2 = none ∧
      getSignal (setSignal (some l) i (some n) c q t).1 = Function.update (getSignal (some l)) i (some ⟨i + 1, n, t, q, c⟩) := by
  have h := (sigOk_iff i n c q t).2 hv
  have key : ∀ l' : List Sig, slot skey l' = Function.update (slot skey l) (i + 1) (some ⟨i + 1, n, t, q, c⟩) →
      getSignal (some l') = Function.update (getSignal (some l)) i (some ⟨i + 1, n, t, q, c⟩) := by
    intro l' h
    funext j
    rw [getSignal_eq, Option.getD_some, h]
    by_cases hj : j = i
    · subst hj; simp
    · rw [Function.update_of_ne hj, Function.update_of_ne (by omega), getSignal_eq, Option.getD_some]
  rcases setSignal_cases l i n c q t h with ⟨a, b, e, rfl, he, ha, hc⟩ | ⟨hn, hc⟩
  · rw [hc]
    exact ⟨rfl, key _ (slot_replace he rfl ha)⟩
  · rw [hc]
    exact ⟨rfl, key _ (slot_add rfl hn)⟩

/-- An assignment to a section: index, name, count, quality, type. -/
structure SigOp where
  i : ℤ
  name : Option String
  count : ℤ
  quality : String
  type : Option String

/-- The section after an assignment, failing or not. -/
def SigOp.run (s : Option (List Sig)) (o : SigOp) : Option (List Sig) := (setSignal s o.i o.name o.count o.quality o.type).1

/-- C45: through any history of assignments, failing ones included, no two entries share an index. -/
theorem C45_distinct (ops : List SigOp) (s : Option (List Sig)) (hu : SigsDistinct s) : SigsDistinct (ops.foldl SigOp.run s) := by
  induction ops generalizing s with
  | nil => exact hu
  | cons o r ih =>
    rw [List.foldl_cons]
    apply ih
    unfold SigOp.run
    cases hn : o.name with
    | none => exact hu
    | some n =>
      by_cases hok : sigOk ⟨o.i, n, o.type, o.quality, o.count⟩ = true
      · cases s with
        | none => simp only [setSignal, hok, if_true]; exact hu
        | some l =>
          rw [sigs_uniq] at *
          rcases setSignal_cases l o.i n o.count o.quality o.type hok with ⟨a, b, e, rfl, he, ha, hc⟩ | ⟨hs, hc⟩
          · rw [hc]
            exact uniq_replace (key := skey) (e := e) he.symm hu
          · rw [hc]
            exact uniq_add (key := skey) (k := o.i + 1) rfl hs hu
      · simp only [setSignal, hok]
        exact hu

/-- C45: after any history of valid assignments each index reads as what was last assigned to it. -/
theorem C45_history_partial (ops : List SigOp) (l : List Sig)
    (hops : ∀ o ∈ ops, ∃ n, o.name = some n ∧ SigValid o.i o.count o.quality o.type) :
    getSignal (ops.foldl SigOp.run (some l)) =
      ops.foldl (fun T o => Function.update T o.i (o.name.map fun n => ⟨o.i + 1, n, o.type, o.quality, o.count⟩)) (getSignal (some l)) := by
  induction ops generalizing l with
  | nil => rfl
  | cons o r ih =>
    rw [List.foldl_cons, List.foldl_cons]
    obtain ⟨n, hn, hok⟩ := hops o (by simp)
    have hset := (C45_set l o.i n o.count o.quality o.type hok).2
    have hsome : ∃ l', o.run (some l) = some l' := by
      unfold SigOp.run
      rw [hn]
      rcases setSignal_cases l o.i n o.count o.quality o.type ((sigOk_iff _ _ _ _ _).2 hok) with ⟨a, b, e, -, -, -, hc⟩ | ⟨-, hc⟩ <;> rw [hc] <;> exact ⟨_, rfl⟩
    obtain ⟨l', hl'⟩ := hsome
    have hr : SigOp.run (some l) o = some l' := hl'
    rw [hr, ih l' (fun o' ho' => hops o' (by simp [ho']))]
    congr 1
    rw [← hr]
    unfold SigOp.run
    rw [hn, hset]
    rfl

/-- C45 refuted: setting an index to nothing always fails and removes nothing. -/
theorem C45_remove_refuted :
    (∀ (s : Option (List Sig)) (i : ℤ) (c : ℤ) (q : String) (t : Option String),
      setSignal s i none c q t = (s, some .dataFormat)) ∧
    ∃ s : Option (List Sig), getSignal s 0 ≠ none ∧ getSignal (setSignal s 0 none 0 "normal" none).1 0 ≠ none :=
  ⟨fun _ _ _ _ _ => rfl, some [⟨1, "signal-A", none, "normal", 5⟩], by decide +kernel, by decide +kernel⟩

/-- C45 refuted: a section whose filters are `None` silently forgets every signal set in it. -/
theorem C45_lost_refuted (i : ℤ) (n : String) (c : ℤ) (q : String) (t : Option String) (h : SigValid i c q t) :
    (setSignal none i (some n) c q t).2 = none ∧ getSignal (setSignal none i (some n) c q t).1 i = none := by
  simp [setSignal, (sigOk_iff i n c q t).2 h, getSignal]

example : SigValid 0 5 "normal" none ∧ SigsDistinct (some [⟨1, "signal-A", none, "normal", 5⟩, ⟨7, "coal", some "item", "rare", -2⟩]) := by
  refine ⟨by simp [SigValid], by simp [SigsDistinct]⟩

end Slots
end Draftsman
