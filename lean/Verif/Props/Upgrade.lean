import Verif.Model.Upgrade
import Mathlib.Data.List.InsertIdx
import Mathlib.Algebra.Order.Ring.Int
import Mathlib.Logic.Function.Basic

namespace Draftsman
namespace Upgrade

/-! ## C41: the mapping list is a slot table -/

/-- What a slot holds. -/
abbrev Held := Option Id × Option Id

/-- The slot table a mapping list stands for: what the first mapping with that index maps. -/
def table (s : S) (i : ℤ) : Option Held := ((s.getD []).find? fun e => e.index == i).map fun e => (e.frm, e.to)

/-- The list is sorted by index and no two mappings share one. -/
def Sorted (s : S) : Prop := (s.getD []).Pairwise fun a b => a.index < b.index

/-- Every mapping was put there by `set_mapping`. -/
def Plain (s : S) : Prop := ∀ e ∈ s.getD [], e.plain = true

theorem findIdx_split {α} {p : α → Bool} : ∀ {l : List α} {k : ℕ}, l.findIdx? p = some k →
    ∃ (a : List α) (e : α) (b : List α), l = a ++ e :: b ∧ a.length = k ∧ p e = true ∧ ∀ x ∈ a, p x = false
  | [], k, h => by simp at h
  | x :: l, k, h => by
    rw [List.findIdx?_cons] at h
    by_cases hx : p x = true
    · simp only [hx, if_true, Option.some.injEq] at h
      exact ⟨[], x, l, rfl, by simpa using h, hx, by simp⟩
    · simp only [hx] at h
      cases hk : l.findIdx? p with
      | none => simp [hk] at h
      | some k' =>
        obtain ⟨a, e, b, hl, hlen, he, ha⟩ := findIdx_split hk
        simp [hk] at h
        refine ⟨x :: a, e, b, by simp [hl], by simp [hlen, h], he, ?_⟩
        intro y hy
        rcases List.mem_cons.mp hy with rfl | hy
        · simpa using hx
        · exact ha y hy

theorem findIdx_none {α} {p : α → Bool} {l : List α} (h : l.findIdx? p = none) : ∀ x ∈ l, p x = false := by
  rw [List.findIdx?_eq_none_iff] at h
  simpa using h

theorem table_append (a b : List Ent) (i : ℤ) :
    table (some (a ++ b)) i = (table (some a) i).or (table (some b) i) := by
  unfold table
  simp only [Option.getD_some, List.find?_append]
  cases a.find? fun e => e.index == i <;> simp

theorem table_cons (e : Ent) (b : List Ent) (i : ℤ) :
    table (some (e :: b)) i = if e.index = i then some (e.frm, e.to) else table (some b) i := by
  unfold table
  simp only [Option.getD_some, List.find?_cons]
  by_cases h : e.index = i
  · simp [h]
  · have : (e.index == i) = false := by simpa using h
    simp [h, this]

theorem table_none {l : List Ent} {i : ℤ} (h : ∀ e ∈ l, e.index ≠ i) : table (some l) i = none := by
  unfold table
  simp only [Option.getD_some, Option.map_eq_none_iff, List.find?_eq_none, beq_iff_eq]
  exact h

theorem table_mem {l : List Ent} {i : ℤ} {v : Held} (h : table (some l) i = some v) :
    ∃ e ∈ l, e.index = i ∧ (e.frm, e.to) = v := by
  unfold table at h
  simp only [Option.getD_some, Option.map_eq_some_iff] at h
  obtain ⟨e, he, hv⟩ := h
  exact ⟨e, List.mem_of_find?_eq_some he, by simpa using List.find?_some he, hv⟩

theorem table_of_mem {l : List Ent} (hs : Sorted (some l)) {e : Ent} (he : e ∈ l) :
    table (some l) e.index = some (e.frm, e.to) := by
  obtain ⟨a, b, rfl⟩ := List.append_of_mem he
  unfold Sorted at hs
  simp only [Option.getD_some, List.pairwise_append] at hs
  rw [table_append, table_none (l := a), table_cons]
  · simp
  · intro x hx
    exact (hs.2.2 x hx e (by simp)).ne

theorem bisect_spec (l : List Ent) (x : ℤ) (hs : Sorted (some l)) (lo hi : ℕ) (hlo : lo ≤ hi) (hhi : hi ≤ l.length)
    (h1 : ∀ (j : ℕ) (e : Ent), j < lo → l[j]? = some e → e.index ≤ x)
    (h2 : ∀ (j : ℕ) (e : Ent), hi ≤ j → l[j]? = some e → x < e.index) :
    bisect l x lo hi ≤ l.length ∧
      (∀ (j : ℕ) (e : Ent), j < bisect l x lo hi → l[j]? = some e → e.index ≤ x) ∧
      (∀ (j : ℕ) (e : Ent), bisect l x lo hi ≤ j → l[j]? = some e → x < e.index) := by
  have hmono : ∀ (i j : ℕ) (a b : Ent), i < j → l[i]? = some a → l[j]? = some b → a.index < b.index := by
    intro i j a b hij ha hb
    rw [List.getElem?_eq_some_iff] at ha hb
    obtain ⟨ha', rfl⟩ := ha
    obtain ⟨hb', rfl⟩ := hb
    exact List.pairwise_iff_getElem.mp hs i j ha' hb' hij
  rw [bisect]
  split
  · rename_i hlt
    have hm : (lo + hi) / 2 < l.length := by omega
    rw [List.getElem?_eq_getElem hm]
    simp only
    split
    · rename_i hx
      refine bisect_spec l x hs lo _ (by omega) (by omega) h1 ?_
      intro j e hj he
      rcases Nat.lt_or_eq_of_le hj with hj | rfl
      · exact hx.trans (hmono _ _ _ _ hj (List.getElem?_eq_getElem hm) he)
      · rw [List.getElem?_eq_getElem hm] at he
        obtain rfl := Option.some.inj he
        exact hx
    · rename_i hx
      refine bisect_spec l x hs _ hi (by omega) hhi ?_ h2
      intro j e hj he
      rcases Nat.lt_or_eq_of_le (Nat.le_of_lt_succ hj) with hj | rfl
      · exact (hmono _ _ _ _ hj he (List.getElem?_eq_getElem hm)).le.trans (not_lt.mp hx)
      · rw [List.getElem?_eq_getElem hm] at he
        obtain rfl := Option.some.inj he
        exact not_lt.mp hx
  · have : lo = hi := by omega
    subst this
    exact ⟨hhi, h1, h2⟩
termination_by hi - lo

theorem insertIdx_split {α} (a b : List α) (e : α) : (a ++ b).insertIdx a.length e = a ++ e :: b := by
  induction a with
  | nil => simp
  | cons x a ih => simp [ih]

theorem insort_split {l : List Ent} (hs : Sorted (some l)) (e : Ent) :
    ∃ a b, l = a ++ b ∧ insort l e = a ++ e :: b ∧ (∀ x ∈ a, x.index ≤ e.index) ∧ ∀ x ∈ b, e.index < x.index := by
  obtain ⟨h1, h2, h3⟩ := bisect_spec l e.index hs 0 l.length (by omega) le_rfl (by intro j e h; omega)
    (by intro j e hj he; rw [List.getElem?_eq_none hj] at he; cases he)
  obtain ⟨k, hk⟩ : ∃ k, k = bisect l e.index 0 l.length := ⟨_, rfl⟩
  unfold insort
  rw [← hk] at h1 h2 h3 ⊢
  refine ⟨l.take k, l.drop k, (List.take_append_drop _ _).symm, ?_, ?_, ?_⟩
  · have h := insertIdx_split (l.take k) (l.drop k) e
    rwa [List.take_append_drop, List.length_take, Nat.min_eq_left h1] at h
  · intro x hx
    obtain ⟨j, hj, rfl⟩ := List.mem_iff_getElem.mp hx
    simp only [List.length_take, List.getElem_take] at hj ⊢
    exact h2 j _ (by omega) (List.getElem?_eq_getElem (by omega))
  · intro x hx
    obtain ⟨j, hj, rfl⟩ := List.mem_iff_getElem.mp hx
    simp only [List.length_drop, List.getElem_drop] at hj ⊢
    exact h3 (k + j) _ (by omega) (List.getElem?_eq_getElem (by omega))

theorem sorted_erase {a b : List Ent} {e : Ent} (h : Sorted (some (a ++ e :: b))) : Sorted (some (a ++ b)) := by
  unfold Sorted at *
  simp only [Option.getD_some, List.pairwise_append, List.pairwise_cons] at *
  exact ⟨h.1, h.2.1.2, fun x hx y hy => h.2.2 x hx y (by simp [hy])⟩

theorem sorted_replace {a b : List Ent} {e e' : Ent} (he : e'.index = e.index) (h : Sorted (some (a ++ e :: b))) :
    Sorted (some (a ++ e' :: b)) := by
  unfold Sorted at *
  simp only [Option.getD_some, List.pairwise_append, List.pairwise_cons, List.mem_cons] at *
  refine ⟨h.1, ⟨fun x hx => he ▸ h.2.1.1 x hx, h.2.1.2⟩, fun x hx y hy => ?_⟩
  rcases hy with rfl | hy
  · exact he ▸ h.2.2 x hx e (.inl rfl)
  · exact h.2.2 x hx y (.inr hy)

theorem table_erase {a b : List Ent} {e : Ent} (h : Sorted (some (a ++ e :: b))) :
    table (some (a ++ b)) = Function.update (table (some (a ++ e :: b))) e.index none := by
  unfold Sorted at h
  simp only [Option.getD_some, List.pairwise_append, List.pairwise_cons, List.mem_cons] at h
  funext i
  by_cases hi : i = e.index
  · subst hi
    rw [Function.update_self]
    apply table_none
    intro x hx
    rcases List.mem_append.mp hx with hx | hx
    · exact (h.2.2 x hx e (.inl rfl)).ne
    · exact (h.2.1.1 x hx).ne'
  · rw [Function.update_of_ne hi, table_append, table_append, table_cons, if_neg (Ne.symm hi)]

theorem table_replace {a b : List Ent} {e e' : Ent} (he : e'.index = e.index) (h : Sorted (some (a ++ e :: b))) :
    table (some (a ++ e' :: b)) =
      Function.update (table (some (a ++ e :: b))) e.index (some (e'.frm, e'.to)) := by
  unfold Sorted at h
  simp only [Option.getD_some, List.pairwise_append, List.pairwise_cons, List.mem_cons] at h
  funext i
  by_cases hi : i = e.index
  · subst hi
    rw [Function.update_self, table_append, table_none (l := a), table_cons, if_pos he]
    · rfl
    · exact fun x hx => (h.2.2 x hx e (.inl rfl)).ne
  · rw [Function.update_of_ne hi, table_append, table_append, table_cons, table_cons, if_neg (Ne.symm hi),
      if_neg (he ▸ Ne.symm hi)]

theorem eraseIdx_split {α} (a b : List α) (e : α) : (a ++ e :: b).eraseIdx a.length = a ++ b := by
  induction a with
  | nil => simp
  | cons x a ih => simp [ih]

theorem set_split {α} (a b : List α) (e e' : α) : (a ++ e :: b).set a.length e' = a ++ e' :: b := by
  induction a with
  | nil => simp
  | cons x a ih => simp [ih]

theorem getElem_split {α} (a b : List α) (e : α) : (a ++ e :: b)[a.length]? = some e := by
  simp

/-- C41: setting a mapping makes that slot hold exactly it, and leaves every other slot alone. -/
theorem C41_set (s : S) (hs : Sorted s) (f t : Option Id) (i : ℤ) :
    table (setMapping s f t i) = Function.update (table s) i (some (f, t)) ∧ Sorted (setMapping s f t i) := by
  obtain ⟨l, hl⟩ : ∃ l, l = s.getD [] := ⟨_, rfl⟩
  have ht : table s = table (some l) := by subst hl; rfl
  have hs' : Sorted (some l) := by subst hl; exact hs
  rw [ht]
  unfold setMapping
  simp only [← hl]
  clear hs ht hl
  cases hk : l.findIdx? (fun e => e.index == i) with
  | some k =>
    obtain ⟨a, e, b, rfl, rfl, he, -⟩ := findIdx_split hk
    simp only [beq_iff_eq] at he
    subst he
    simp only [set_split]
    exact ⟨table_replace (e' := ⟨e.index, f, t, true⟩) rfl hs', sorted_replace (e := e) rfl hs'⟩
  | none =>
    have hn := findIdx_none hk
    simp only [beq_eq_false_iff_ne] at hn
    obtain ⟨a, b, rfl, hi, ha, hb⟩ := insort_split hs' ⟨i, f, t, true⟩
    simp only [hi]
    simp only at ha hb
    have ha' : ∀ x ∈ a, x.index < i := fun x hx => lt_of_le_of_ne (ha x hx) (hn x (by simp [hx]))
    have hso : Sorted (some (a ++ ⟨i, f, t, true⟩ :: b)) := by
      unfold Sorted at *
      simp only [Option.getD_some, List.pairwise_append, List.pairwise_cons, List.mem_cons] at *
      refine ⟨hs'.1, ⟨hb, hs'.2.1⟩, ?_⟩
      intro x hx y hy
      rcases hy with rfl | hy
      · exact ha' x hx
      · exact hs'.2.2 x hx y hy
    refine ⟨?_, hso⟩
    have h2 := table_erase hso
    simp only at h2
    rw [h2, Function.update_idem]
    funext j
    by_cases hj : j = i
    · subst hj
      rw [Function.update_self]
      exact table_of_mem hso (e := ⟨j, f, t, true⟩) (by simp)
    · rw [Function.update_of_ne hj]

/-- C41: popping an index returns what its slot held and empties exactly that slot; an empty slot is an error and changes nothing. -/
theorem C41_pop (l : List Ent) (hs : Sorted (some l)) (i : ℤ) :
    (∀ v, table (some l) i = some v →
      ∃ e, (popMapping (some l) i).2 = .ok e ∧ e.index = i ∧ (e.frm, e.to) = v ∧
        table (popMapping (some l) i).1 = Function.update (table (some l)) i none) ∧
    (table (some l) i = none → popMapping (some l) i = (some l, .error .valueError)) := by
  cases hk : l.findIdx? (fun e => e.index == i) with
  | some k =>
    obtain ⟨a, e, b, rfl, rfl, he, -⟩ := findIdx_split hk
    simp only [beq_iff_eq] at he
    subst he
    have htab := table_of_mem hs (e := e) (by simp)
    have hpop : popMapping (some (a ++ e :: b)) e.index = (some (a ++ b), .ok e) := by
      unfold popMapping
      simp only [hk, getElem_split, eraseIdx_split]
    rw [hpop, htab]
    refine ⟨?_, by simp⟩
    intro v hv
    exact ⟨e, rfl, rfl, Option.some.inj hv, table_erase hs⟩
  | none =>
    have hn := findIdx_none hk
    simp only [beq_eq_false_iff_ne] at hn
    rw [table_none hn]
    refine ⟨by simp, fun _ => ?_⟩
    unfold popMapping
    simp only [hk]

theorem sideEq_plain (a b : Option Id) : sideEq true a b = true ↔ a = b := by
  cases a <;> cases b <;> simp [sideEq]

/-- C41: removing a mapping without an index empties the lowest slot that holds it, and no other; if no slot holds it that is an error and nothing
changes. -/
theorem C41_remove_first (l : List Ent) (hs : Sorted (some l)) (hp : Plain (some l)) (f t : Option Id) :
    (∀ i, table (some l) i = some (f, t) → (∀ j < i, table (some l) j ≠ some (f, t)) →
      (removeMapping (some l) f t none).2 = none ∧
        table (removeMapping (some l) f t none).1 = Function.update (table (some l)) i none) ∧
    ((∀ i, table (some l) i ≠ some (f, t)) → removeMapping (some l) f t none = (some l, some .valueError)) := by
  have hpe : ∀ e ∈ l, (sideEq e.plain e.frm f && sideEq e.plain e.to t) = true ↔ (e.frm, e.to) = (f, t) := by
    intro e he
    rw [hp e he, Bool.and_eq_true, sideEq_plain, sideEq_plain, Prod.mk.injEq]
  cases hk : l.findIdx? (fun e => sideEq e.plain e.frm f && sideEq e.plain e.to t) with
  | some k =>
    obtain ⟨a, e, b, rfl, rfl, he, ha⟩ := findIdx_split hk
    rw [hpe e (by simp)] at he
    have hrem : removeMapping (some (a ++ e :: b)) f t none = (some (a ++ b), none) := by
      unfold removeMapping
      simp only [hk, eraseIdx_split]
    have htab := table_of_mem hs (e := e) (by simp)
    refine ⟨?_, ?_⟩
    · intro i hi hmin
      have hie : i = e.index := by
        obtain ⟨x, hx, hxi, hxv⟩ := table_mem hi
        have hso := hs
        unfold Sorted at hso
        simp only [Option.getD_some, List.pairwise_append, List.pairwise_cons, List.mem_cons] at hso
        rcases List.mem_append.mp hx with hxa | hxb
        · have := ha x hxa
          rw [Bool.eq_false_iff, Ne, hpe x hx] at this
          exact absurd hxv this
        · rcases List.mem_cons.mp hxb with rfl | hxb
          · exact hxi.symm
          · exact absurd (he ▸ htab) (hmin e.index (hxi ▸ hso.2.1.1 x hxb))
      subst hie
      rw [hrem]
      exact ⟨rfl, table_erase hs⟩
    · intro hno
      exact absurd (he ▸ htab) (hno e.index)
  | none =>
    have hn := findIdx_none hk
    refine ⟨?_, ?_⟩
    · intro i hi
      obtain ⟨x, hx, -, hxv⟩ := table_mem hi
      have := hn x hx
      rw [Bool.eq_false_iff, Ne, hpe x hx] at this
      exact absurd hxv this
    · intro _
      unfold removeMapping
      simp only [hk]

/-- C41: removing a mapping whose two sides are both given, at an index, empties exactly that slot if it holds it; otherwise that is an error and
nothing changes.  Missing: a blank side, see `C41_blank_refuted`. -/
theorem C41_remove_at_partial (l : List Ent) (hs : Sorted (some l)) (hp : Plain (some l)) (f t : Id) (i : ℤ) :
    (table (some l) i = some (some f, some t) →
      (removeMapping (some l) (some f) (some t) (some i)).2 = none ∧
        table (removeMapping (some l) (some f) (some t) (some i)).1 = Function.update (table (some l)) i none) ∧
    (table (some l) i ≠ some (some f, some t) →
      removeMapping (some l) (some f) (some t) (some i) = (some l, some .valueError)) := by
  have hpe : ∀ e ∈ l, entryEq e (some f) (some t) i = true ↔ e.index = i ∧ (e.frm, e.to) = (some f, some t) := by
    intro e he
    unfold entryEq
    rw [hp e he]
    cases e.frm <;> cases e.to <;> simp
    exact and_assoc
  cases hk : l.findIdx? (fun e => entryEq e (some f) (some t) i) with
  | some k =>
    obtain ⟨a, e, b, rfl, rfl, he, ha⟩ := findIdx_split hk
    rw [hpe e (by simp)] at he
    obtain ⟨rfl, he⟩ := he
    have hrem : removeMapping (some (a ++ e :: b)) (some f) (some t) (some e.index) = (some (a ++ b), none) := by
      unfold removeMapping
      simp only [hk, eraseIdx_split]
    have htab := table_of_mem hs (e := e) (by simp)
    rw [hrem]
    exact ⟨fun _ => ⟨rfl, table_erase hs⟩, fun h => absurd (he ▸ htab) h⟩
  | none =>
    have hn := findIdx_none hk
    refine ⟨?_, ?_⟩
    · intro hi
      obtain ⟨x, hx, hxi, hxv⟩ := table_mem hi
      have := hn x hx
      rw [Bool.eq_false_iff, Ne, hpe x hx] at this
      exact absurd ⟨hxi, hxv⟩ this
    · intro _
      unfold removeMapping
      simp only [hk]

/-- What a call should do to the slot table. -/
def Step : Op → (ℤ → Option Held) → (ℤ → Option Held) → Prop
  | .set f t i, T, T' => T' = Function.update T i (some (f, t))
  | .pop i, T, T' => T' = Function.update T i none
  | .remove f t (some i), T, T' => (T i = some (f, t) → T' = Function.update T i none) ∧ (T i ≠ some (f, t) → T' = T)
  | .remove f t none, T, T' =>
    (∀ i, T i = some (f, t) → (∀ j < i, T j ≠ some (f, t)) → T' = Function.update T i none) ∧
      ((∀ i, T i ≠ some (f, t)) → T' = T)

/-- The calls one after the other. -/
inductive Steps : List Op → (ℤ → Option Held) → (ℤ → Option Held) → Prop
  | nil (T) : Steps [] T T
  | cons {o os T T' T''} : Step o T T' → Steps os T' T'' → Steps (o :: os) T T''

/-- A removal at an index of a mapping with a blank side. -/
def Op.blankAt : Op → Bool
  | .remove f t (some _) => f.isNone || t.isNone
  | _ => false

theorem table_noneList (i : ℤ) : table none i = none := rfl

theorem run_remove_eq (s : S) (f t : Option Id) (i : Option ℤ) :
    (removeMapping s f t i).1 = s ∨ ∃ (a b : List Ent) (e : Ent), s = some (a ++ e :: b) ∧ (removeMapping s f t i).1 = some (a ++ b) := by
  cases s with
  | none => cases i <;> exact .inl rfl
  | some l =>
    cases i with
    | none =>
      cases hk : l.findIdx? (fun e => sideEq e.plain e.frm f && sideEq e.plain e.to t) with
      | none => left; simp [removeMapping, hk]
      | some k =>
        obtain ⟨a, e, b, rfl, rfl, -, -⟩ := findIdx_split hk
        right
        exact ⟨a, b, e, rfl, by simp only [removeMapping, hk, eraseIdx_split]⟩
    | some i =>
      cases hk : l.findIdx? (fun e => entryEq e f t i) with
      | none => left; simp [removeMapping, hk]
      | some k =>
        obtain ⟨a, e, b, rfl, rfl, -, -⟩ := findIdx_split hk
        right
        exact ⟨a, b, e, rfl, by simp only [removeMapping, hk, eraseIdx_split]⟩

theorem run_pop_eq (s : S) (i : ℤ) :
    (popMapping s i).1 = s ∨ ∃ (a b : List Ent) (e : Ent), s = some (a ++ e :: b) ∧ (popMapping s i).1 = some (a ++ b) := by
  cases s with
  | none => exact .inl rfl
  | some l =>
    cases hk : l.findIdx? (fun e => e.index == i) with
    | none => left; simp [popMapping, hk]
    | some k =>
      obtain ⟨a, e, b, rfl, rfl, -, -⟩ := findIdx_split hk
      right
      exact ⟨a, b, e, rfl, by simp only [popMapping, hk, getElem_split, eraseIdx_split]⟩

theorem sorted_run (s : S) (hs : Sorted s) (o : Op) : Sorted (o.run s) := by
  cases o with
  | set f t i => exact (C41_set s hs f t i).2
  | remove f t i =>
    rcases run_remove_eq s f t i with h | ⟨a, b, e, rfl, h⟩
    · simpa only [Op.run, h] using hs
    · simpa only [Op.run, h] using sorted_erase hs
  | pop i =>
    rcases run_pop_eq s i with h | ⟨a, b, e, rfl, h⟩
    · simpa only [Op.run, h] using hs
    · simpa only [Op.run, h] using sorted_erase hs

theorem plain_erase {a b : List Ent} {e : Ent} (h : Plain (some (a ++ e :: b))) : Plain (some (a ++ b)) := by
  intro x hx
  apply h x
  simp only [Option.getD_some, List.mem_append, List.mem_cons] at *
  tauto

theorem plain_run (s : S) (hp : Plain s) (o : Op) : Plain (o.run s) := by
  cases o with
  | set f t i =>
    simp only [Op.run, setMapping]
    split
    · intro x hx
      simp only [Option.getD_some] at hx
      rcases List.mem_or_eq_of_mem_set hx with hx | rfl
      · exact hp x hx
      · rfl
    · intro x hx
      simp only [Option.getD_some, insort] at hx
      rcases List.eq_or_mem_of_mem_insertIdx hx with rfl | hx
      · rfl
      · exact hp x hx
  | remove f t i =>
    rcases run_remove_eq s f t i with h | ⟨a, b, e, rfl, h⟩
    · simpa only [Op.run, h] using hp
    · simpa only [Op.run, h] using plain_erase hp
  | pop i =>
    rcases run_pop_eq s i with h | ⟨a, b, e, rfl, h⟩
    · simpa only [Op.run, h] using hp
    · simpa only [Op.run, h] using plain_erase hp

/-- C41: through any history of calls, failing ones included, the list stays sorted by index with at most one mapping per index. -/
theorem C41_sorted (ops : List Op) (s : S) (hs : Sorted s) : Sorted (ops.foldl Op.run s) := by
  induction ops generalizing s with
  | nil => exact hs
  | cons o r ih => exact ih _ (sorted_run s hs o)

theorem step_run (s : S) (hs : Sorted s) (hp : Plain s) (o : Op) (ho : o.blankAt = false) :
    Step o (table s) (table (o.run s)) := by
  cases o with
  | set f t i => exact (C41_set s hs f t i).1
  | pop i =>
    cases s with
    | none =>
      funext j
      simp [Op.run, popMapping, table_noneList, Function.update_apply]
    | some l =>
      simp only [Op.run, Step]
      obtain ⟨h1, h2⟩ := C41_pop l hs i
      cases ht : table (some l) i with
      | some v =>
        obtain ⟨e, -, -, -, h⟩ := h1 v ht
        exact h
      | none =>
        rw [h2 ht]
        funext j
        by_cases hj : j = i
        · subst hj; simpa using ht
        · rw [Function.update_of_ne hj]
  | remove f t i =>
    cases s with
    | none =>
      cases i <;> refine ⟨?_, ?_⟩ <;> intro h <;> simp_all [Op.run, removeMapping, table_noneList]
    | some l =>
      cases i with
      | none =>
        obtain ⟨h1, h2⟩ := C41_remove_first l hs hp f t
        exact ⟨fun i hi hm => (h1 i hi hm).2, fun h => by simp only [Op.run]; rw [h2 h]⟩
      | some i =>
        cases f with
        | none => simp [Op.blankAt] at ho
        | some f =>
          cases t with
          | none => simp [Op.blankAt] at ho
          | some t =>
            obtain ⟨h1, h2⟩ := C41_remove_at_partial l hs hp f t i
            exact ⟨fun hi => (h1 hi).2, fun h => by simp only [Op.run]; rw [h2 h]⟩

/-- C41: any history of calls on a planner filled by `set_mapping` does to the slots what the calls say.
Missing: removals at an index of a mapping with a blank side (`C41_blank_refuted`) and removals of imported mappings
(`C41_imported_refuted`). -/
theorem C41_history_partial (ops : List Op) (s : S) (hs : Sorted s) (hp : Plain s) (hb : ∀ o ∈ ops, o.blankAt = false) :
    Steps ops (table s) (table (ops.foldl Op.run s)) := by
  induction ops generalizing s with
  | nil => exact .nil _
  | cons o r ih =>
    refine .cons (step_run s hs hp o (hb o (by simp))) ?_
    exact ih _ (sorted_run s hs o) (plain_run s hp o) (fun o' h => hb o' (by simp [h]))

/-- C41 refuted: a mapping with a blank side can never be removed by naming its index, whatever the planner holds. -/
theorem C41_blank_refuted :
    (∀ (l : List Ent) (f t : Option Id) (i : ℤ), f = none ∨ t = none →
      removeMapping (some l) f t (some i) = (some l, some .valueError)) ∧
    ∃ (s : S) (f : Option Id), table s 1 = some (f, none) ∧ (removeMapping s f none (some 1)).2 ≠ none := by
  have h : ∀ (l : List Ent) (f t : Option Id) (i : ℤ), f = none ∨ t = none →
      removeMapping (some l) f t (some i) = (some l, some .valueError) := by
    intro l f t i h
    have : l.findIdx? (fun e => entryEq e f t i) = none := by
      rw [List.findIdx?_eq_none_iff]
      intro e _
      unfold entryEq
      rcases h with rfl | rfl
      · cases e.frm <;> simp
      · cases e.to <;> simp
    unfold removeMapping
    simp only [this]
  refine ⟨h, setMapping none (some ⟨"inserter", "entity"⟩) none 1, some ⟨"inserter", "entity"⟩, by decide +kernel, by decide +kernel⟩

/-- C41 refuted: a mapping that came from an import can be removed neither by its targets nor by its targets and index. -/
theorem C41_imported_refuted :
    (∀ (l : List Ent) (f t : Option Id) (i : Option ℤ), (∀ e ∈ l, e.plain = false) → f ≠ none ∨ t ≠ none →
      removeMapping (some l) f t i = (some l, some .valueError)) ∧
    ∃ (l : List Ent) (f t : Option Id), (∀ e ∈ l, e.plain = false) ∧ f ≠ none ∧ table (some l) 0 = some (f, t) := by
  refine ⟨?_, [⟨0, some ⟨"inserter", "entity"⟩, some ⟨"fast-inserter", "entity"⟩, false⟩], some ⟨"inserter", "entity"⟩,
    some ⟨"fast-inserter", "entity"⟩, by decide, by decide, by decide +kernel⟩
  intro l f t i hl h
  cases i with
  | none =>
    have : l.findIdx? (fun e => sideEq e.plain e.frm f && sideEq e.plain e.to t) = none := by
      rw [List.findIdx?_eq_none_iff]
      intro e he
      rw [hl e he]
      rcases h with h | h
      · cases f with
        | none => exact absurd rfl h
        | some f => cases e.frm <;> simp [sideEq]
      · cases t with
        | none => exact absurd rfl h
        | some t => cases e.to <;> simp [sideEq]
    unfold removeMapping
    simp only [this]
  | some i =>
    have : l.findIdx? (fun e => entryEq e f t i) = none := by
      rw [List.findIdx?_eq_none_iff]
      intro e he
      simp [entryEq, hl e he]
    unfold removeMapping
    simp only [this]

/-- A planner built out of order: sorted, plain, and with slots 0 and 7. -/
def exPlanner : S :=
  [Op.set (some ⟨"inserter", "entity"⟩) (some ⟨"fast-inserter", "entity"⟩) 7, .set (some ⟨"pipe", "entity"⟩) none 0,
    .set (some ⟨"inserter", "entity"⟩) (some ⟨"fast-inserter", "entity"⟩) 3,
    .remove (some ⟨"inserter", "entity"⟩) (some ⟨"fast-inserter", "entity"⟩) none].foldl Op.run none

example : Sorted exPlanner ∧ Plain exPlanner ∧ table exPlanner 0 = some (some ⟨"pipe", "entity"⟩, none) ∧ table exPlanner 3 = none ∧
    table exPlanner 7 = some (some ⟨"inserter", "entity"⟩, some ⟨"fast-inserter", "entity"⟩) := by
  refine ⟨C41_sorted _ _ (by simp [Sorted]), by unfold Plain; decide +kernel, by decide +kernel, by decide +kernel, by decide +kernel⟩

/-! ## C42: upgrade pairs -/

/-- The obstacles the function documents (in its own comments and in the prototype documentation it quotes at lines 126-131), said in terms of
the prototype tables. -/
def Holds (T : Tables) (f t : Option Id) : Reason → Prop
  | .unknown n => (∃ x, (f = some x ∨ t = some x) ∧ x.name = n) ∧ T.ent n = none ∧ T.item n = none
  | .same => ∃ x, f = some x ∧ t = some x
  | .typesDiffer => ∃ x y, f = some x ∧ t = some y ∧ x.type ≠ y.type
  | .notUpgradable => ∃ a b, Pair a b ∧ "not-upgradable" ∈ a.flags
  | .notMinable => ∃ a b, Pair a b ∧ a.minable = none
  | .hidden n => ∃ a b, Pair a b ∧ (∃ m, a.minable = some m ∧ (m = .result n ∨ ∃ ns, m = .results ns ∧ n ∈ ns)) ∧
      ∃ it, T.item n = some it ∧ "hidden" ∈ it.flags
  | .rollingStock => ∃ a b, Pair a b ∧ a.type ∈ [some "locomotive", some "cargo-wagon", some "fluid-wagon", some "artillery-wagon"]
  | .box => ∃ a b, Pair a b ∧ a.box ≠ b.box
  | .mask => ∃ a b, Pair a b ∧ a.mask ≠ b.mask
  | .group => ∃ a b, Pair a b ∧ a.group ≠ b.group
where
  /-- The pair names two entities with these prototypes. -/
  Pair (a b : Proto) : Prop :=
    ∃ x y, f = some x ∧ t = some y ∧ x.type ≠ "item" ∧ x.type = y.type ∧ T.ent x.name = some a ∧ T.ent y.name = some b

/-- The order of the checks. -/
def Reason.rank : Reason → ℕ
  | .unknown _ => 0
  | .same => 1
  | .typesDiffer => 2
  | .notUpgradable => 3
  | .notMinable => 4
  | .hidden _ => 5
  | .rollingStock => 6
  | .box => 7
  | .mask => 8
  | .group => 9

/-- Tables and a pair for which the function does not crash: what mining gives are items, and a name used as an entity is one if it is known at
all. -/
structure Sound (T : Tables) (f t : Option Id) : Prop where
  mined : ∀ n a m, T.ent n = some a → a.minable = some m →
    m ≠ .neither ∧ ∀ i, (m = .result i ∨ ∃ ns, m = .results ns ∧ i ∈ ns) → T.item i ≠ none
  entity : ∀ x, (f = some x ∨ t = some x) → x.type ≠ "item" → T.ent x.name = none → T.item x.name = none

theorem mem_unrecognised (T : Tables) (o : Option Id) (r : Reason) :
    r ∈ unrecognised T o ↔ ∃ x, o = some x ∧ r = .unknown x.name ∧ T.ent x.name = none ∧ T.item x.name = none := by
  cases o with
  | none => simp [unrecognised]
  | some x =>
    simp only [unrecognised, Option.some.injEq, exists_eq_left']
    split <;> rename_i h
    · simp_all
    · simp only [List.not_mem_nil, false_iff]
      simp only [Bool.and_eq_true, Option.isNone_iff_eq_none] at h
      tauto

theorem holds_unknown (T : Tables) (f t : Option Id) (r : Reason) :
    r ∈ unrecognised T f ++ unrecognised T t ↔ ∃ n, r = .unknown n ∧ Holds T f t (.unknown n) := by
  rw [List.mem_append, mem_unrecognised, mem_unrecognised]
  simp only [Holds]
  constructor
  · rintro (⟨x, h, rfl, h1, h2⟩ | ⟨x, h, rfl, h1, h2⟩)
    · exact ⟨x.name, rfl, ⟨x, .inl h, rfl⟩, h1, h2⟩
    · exact ⟨x.name, rfl, ⟨x, .inr h, rfl⟩, h1, h2⟩
  · rintro ⟨n, rfl, ⟨x, h | h, rfl⟩, h1, h2⟩
    · exact .inl ⟨x, h, rfl, h1, h2⟩
    · exact .inr ⟨x, h, rfl, h1, h2⟩

theorem firstHidden_some {T : Tables} : ∀ {ns : List String} {n : String}, firstHidden T ns = .ok (some n) →
    n ∈ ns ∧ ∃ it, T.item n = some it ∧ "hidden" ∈ it.flags
  | [], n, h => by simp [firstHidden] at h
  | x :: ns, n, h => by
    unfold firstHidden at h
    cases hx : T.item x with
    | none => simp [hx] at h
    | some it =>
      simp only [hx] at h
      split at h
      · rename_i hh
        simp only [Except.ok.injEq, Option.some.injEq] at h
        subst h
        exact ⟨by simp, it, hx, hh⟩
      · obtain ⟨h1, h2⟩ := firstHidden_some h
        exact ⟨by simp [h1], h2⟩

theorem firstHidden_none {T : Tables} : ∀ {ns : List String}, firstHidden T ns = .ok none →
    ∀ n ∈ ns, ∀ it, T.item n = some it → "hidden" ∉ it.flags
  | [], _ => by simp
  | x :: ns, h => by
    unfold firstHidden at h
    cases hx : T.item x with
    | none => simp [hx] at h
    | some it =>
      simp only [hx] at h
      split at h
      · cases h
      · rename_i hh
        intro n hn it' hit
        rcases List.mem_cons.mp hn with rfl | hn
        · rw [hx] at hit
          obtain rfl := Option.some.inj hit
          exact hh
        · exact firstHidden_none h n hn it' hit

theorem firstHidden_ok {T : Tables} : ∀ {ns : List String}, (∀ n ∈ ns, T.item n ≠ none) → ∃ r, firstHidden T ns = .ok r
  | [], _ => ⟨none, rfl⟩
  | x :: ns, h => by
    unfold firstHidden
    cases hx : T.item x with
    | none => exact absurd hx (h x (by simp))
    | some it =>
      simp only
      split
      · exact ⟨_, rfl⟩
      · exact firstHidden_ok fun n hn => h n (by simp [hn])

theorem minedItems_mem {m : Mined} {ns : List String} (h : minedItems m = .ok ns) (n : String) :
    n ∈ ns ↔ (m = .result n ∨ ∃ ns, m = .results ns ∧ n ∈ ns) := by
  cases m with
  | results l => simp [minedItems] at h; subst h; simp
  | result x => simp [minedItems] at h; subst h; simp [eq_comm]
  | neither => simp [minedItems] at h

/-- The outcome of the checks on two entity prototypes: silence means no obstacle from `not-upgradable` on, a reason means the obstacles before it do
not hold and it does. -/
theorem checkEntities_spec {T : Tables} {x y : Id} {a b : Proto} (hty : x.type ≠ "item") (hxy : x.type = y.type)
    (ha : T.ent x.name = some a) (hb : T.ent y.name = some b) (res : Option (List Reason))
    (h : checkEntities T x.name y.name = .ok res) :
    (res = none → ∀ r, 3 ≤ r.rank → ¬ Holds T (some x) (some y) r) ∧
    (∀ rs, res = some rs → ∃ r, rs = [r] ∧ 3 ≤ r.rank ∧ Holds T (some x) (some y) r ∧
      ∀ r', 3 ≤ r'.rank → r'.rank < r.rank → ¬ Holds T (some x) (some y) r') := by
  have hpair : Holds.Pair T (some x) (some y) a b := ⟨x, y, rfl, rfl, hty, hxy, ha, hb⟩
  have huniq : ∀ a' b', Holds.Pair T (some x) (some y) a' b' → a' = a ∧ b' = b := by
    rintro a' b' ⟨x', y', hx, hy, -, -, h1, h2⟩
    cases hx; cases hy
    rw [ha] at h1; rw [hb] at h2
    exact ⟨(Option.some.inj h1).symm, (Option.some.inj h2).symm⟩
  have hall : ∀ (P : Proto → Proto → Prop), ¬ P a b → ¬ ∃ a' b', Holds.Pair T (some x) (some y) a' b' ∧ P a' b' := by
    rintro P hP ⟨a', b', hp, hP'⟩
    obtain ⟨rfl, rfl⟩ := huniq a' b' hp
    exact hP hP'
  unfold checkEntities at h
  simp only [ha, hb] at h
  by_cases h1 : "not-upgradable" ∈ a.flags
  · simp only [h1, if_true, Except.ok.injEq] at h
    subst h
    refine ⟨by simp, ?_⟩
    intro rs hrs
    refine ⟨.notUpgradable, (Option.some.inj hrs).symm, by decide, ⟨a, b, hpair, h1⟩, ?_⟩
    intro r' h3 hlt
    exact absurd (Nat.lt_of_lt_of_le hlt h3) (lt_irrefl _)
  · have n1 : ¬ Holds T (some x) (some y) .notUpgradable := hall (fun a _ => "not-upgradable" ∈ a.flags) h1
    simp only [h1, if_false] at h
    cases hm : a.minable with
    | none =>
      simp only [hm, Except.ok.injEq] at h
      subst h
      refine ⟨by simp, ?_⟩
      intro rs hrs
      refine ⟨.notMinable, (Option.some.inj hrs).symm, by decide, ⟨a, b, hpair, hm⟩, ?_⟩
      intro r' h3 hlt
      cases r' <;> simp only [Reason.rank] at hlt h3 <;> first | exact n1 | omega
    | some m =>
      have n2 : ¬ Holds T (some x) (some y) .notMinable := hall (fun a _ => a.minable = none) (by simp [hm])
      simp only [hm] at h
      cases hns : minedItems m with
      | error e => simp [hns] at h
      | ok ns =>
        simp only [hns] at h
        cases hf : firstHidden T ns with
        | error e => simp [hf] at h
        | ok o =>
          cases o with
          | some n =>
            simp only [hf, Except.ok.injEq] at h
            subst h
            refine ⟨by simp, ?_⟩
            intro rs hrs
            obtain ⟨hn, hit⟩ := firstHidden_some hf
            refine ⟨.hidden n, (Option.some.inj hrs).symm, by simp [Reason.rank],
              ⟨a, b, hpair, ⟨m, hm, (minedItems_mem hns n).mp hn⟩, hit⟩, ?_⟩
            intro r' h3 hlt
            cases r' <;> simp only [Reason.rank] at hlt h3 <;> first | exact n1 | exact n2 | omega
          | none =>
            have n3 : ∀ n, ¬ Holds T (some x) (some y) (.hidden n) := by
              rintro n ⟨a', b', hp, ⟨m', hm', hmem⟩, it, hit, hh⟩
              obtain ⟨rfl, rfl⟩ := huniq a' b' hp
              rw [hm] at hm'
              obtain rfl := Option.some.inj hm'
              exact firstHidden_none hf n ((minedItems_mem hns n).mpr hmem) it hit hh
            simp only [hf, Except.ok.injEq] at h
            subst h
            unfold checkShape
            have hroll : (a.type = some "locomotive" ∨ a.type = some "cargo-wagon" ∨ a.type = some "fluid-wagon" ∨
                a.type = some "artillery-wagon") ↔
                a.type ∈ [some "locomotive", some "cargo-wagon", some "fluid-wagon", some "artillery-wagon"] := by simp
            rw [if_congr hroll rfl rfl]
            split
            · rename_i h4
              refine ⟨by simp, ?_⟩
              intro rs hrs
              refine ⟨.rollingStock, (Option.some.inj hrs).symm, by decide, ⟨a, b, hpair, h4⟩, ?_⟩
              intro r' h3 hlt
              cases r' <;> simp only [Reason.rank] at hlt h3 <;> first | exact n1 | exact n2 | exact n3 _ | omega
            · rename_i h4
              have n4 : ¬ Holds T (some x) (some y) .rollingStock := hall (fun a _ => a.type ∈
                [some "locomotive", some "cargo-wagon", some "fluid-wagon", some "artillery-wagon"]) h4
              split
              · rename_i h5
                refine ⟨by simp, ?_⟩
                intro rs hrs
                refine ⟨.box, (Option.some.inj hrs).symm, by decide, ⟨a, b, hpair, h5⟩, ?_⟩
                intro r' h3 hlt
                cases r' <;> simp only [Reason.rank] at hlt h3 <;> first | exact n1 | exact n2 | exact n3 _ | exact n4 | omega
              · rename_i h5
                have n5 : ¬ Holds T (some x) (some y) .box := hall (fun a b => a.box ≠ b.box) h5
                split
                · rename_i h6
                  refine ⟨by simp, ?_⟩
                  intro rs hrs
                  refine ⟨.mask, (Option.some.inj hrs).symm, by decide, ⟨a, b, hpair, h6⟩, ?_⟩
                  intro r' h3 hlt
                  cases r' <;> simp only [Reason.rank] at hlt h3 <;>
                    first | exact n1 | exact n2 | exact n3 _ | exact n4 | exact n5 | omega
                · rename_i h6
                  have n6 : ¬ Holds T (some x) (some y) .mask := hall (fun a b => a.mask ≠ b.mask) h6
                  split
                  · rename_i h7
                    refine ⟨by simp, ?_⟩
                    intro rs hrs
                    refine ⟨.group, (Option.some.inj hrs).symm, by decide, ⟨a, b, hpair, h7⟩, ?_⟩
                    intro r' h3 hlt
                    cases r' <;> simp only [Reason.rank] at hlt h3 <;>
                      first | exact n1 | exact n2 | exact n3 _ | exact n4 | exact n5 | exact n6 | omega
                  · rename_i h7
                    have n7 : ¬ Holds T (some x) (some y) .group := hall (fun a b => a.group ≠ b.group) h7
                    refine ⟨fun _ => ?_, by simp⟩
                    intro r h3
                    cases r <;> simp only [Reason.rank] at h3 <;>
                      first | exact n1 | exact n2 | exact n3 _ | exact n4 | exact n5 | exact n6 | exact n7 | omega

theorem no_unknown {T : Tables} {f t : Option Id} (h : unrecognised T f ++ unrecognised T t = []) (n : String) :
    ¬ Holds T f t (.unknown n) := by
  intro hn
  have := (holds_unknown T f t (.unknown n)).mpr ⟨n, rfl, hn⟩
  rw [h] at this
  cases this

theorem not_holds_item {T : Tables} {x y : Id} (h : x.type = "item") (r : Reason) (hr : 3 ≤ r.rank) :
    ¬ Holds T (some x) (some y) r := by
  have hp : ∀ a b, ¬ Holds.Pair T (some x) (some y) a b := by
    rintro a b ⟨x', y', hx, -, hn, -⟩
    cases hx
    exact hn h
  cases r <;> simp only [Reason.rank] at hr <;> first | omega | (rintro ⟨a, b, hab, -⟩; exact hp a b hab)

theorem not_holds_blank {T : Tables} {f t : Option Id} (h : f = none ∨ t = none) (r : Reason) (hr : 1 ≤ r.rank) : ¬ Holds T f t r := by
  have hp : ∀ a b, ¬ Holds.Pair T f t a b := by
    rintro a b ⟨x', y', hx, hy, -⟩
    rcases h with rfl | rfl
    · cases hx
    · cases hy
  cases r <;> simp only [Reason.rank] at hr <;>
    first
    | omega
    | (rintro ⟨a, b, hab, -⟩; exact hp a b hab)
    | skip
  · rintro ⟨x, hx, hy⟩
    rcases h with rfl | rfl
    · cases hx
    · cases hy
  · rintro ⟨x, y, hx, hy, -⟩
    rcases h with rfl | rfl
    · cases hx
    · cases hy

/-- Silence means that no obstacle holds; reasons given hold, and nothing checked before them does. -/
theorem checkPair_spec (T : Tables) (f t : Option Id) (res : Option (List Reason)) (h : checkPair T f t = .ok res) :
    (res = none → ∀ r, ¬ Holds T f t r) ∧
    (∀ rs, res = some rs → rs ≠ [] ∧ ∀ r ∈ rs, Holds T f t r ∧ ∀ r', r'.rank < r.rank → ¬ Holds T f t r') := by
  unfold checkPair at h
  cases hu : unrecognised T f ++ unrecognised T t with
  | cons r0 rs0 =>
    simp only [hu, Except.ok.injEq] at h
    subst h
    refine ⟨by simp, ?_⟩
    intro rs hrs
    obtain rfl := Option.some.inj hrs
    refine ⟨by simp, ?_⟩
    intro r hr
    rw [← hu, holds_unknown] at hr
    obtain ⟨n, rfl, hn⟩ := hr
    exact ⟨hn, by intro r' h; simp only [Reason.rank] at h; omega⟩
  | nil =>
    have n0 := no_unknown hu
    simp only [hu] at h
    by_cases hb : f = none ∨ t = none
    · have : res = none := by
        rcases hb with rfl | rfl
        · simpa using h.symm
        · cases f <;> simpa using h.symm
      subst this
      refine ⟨fun _ r => ?_, by simp⟩
      by_cases hr : 1 ≤ r.rank
      · exact not_holds_blank hb r hr
      · cases r <;> simp only [Reason.rank] at hr <;> first | exact n0 _ | omega
    · push Not at hb
      obtain ⟨x, rfl⟩ := Option.ne_none_iff_exists'.mp hb.1
      obtain ⟨y, rfl⟩ := Option.ne_none_iff_exists'.mp hb.2
      simp only at h
      split at h
      · rename_i hxy
        subst hxy
        simp only [Except.ok.injEq] at h
        subst h
        refine ⟨by simp, ?_⟩
        intro rs hrs
        obtain rfl := Option.some.inj hrs
        refine ⟨by simp, ?_⟩
        intro r hr
        simp only [List.mem_singleton] at hr
        subst hr
        refine ⟨⟨x, rfl, rfl⟩, ?_⟩
        intro r' hr'
        cases r' <;> simp only [Reason.rank] at hr' <;> first | exact n0 _ | omega
      · rename_i hxy
        have n1 : ¬ Holds T (some x) (some y) .same := by
          rintro ⟨z, hz1, hz2⟩
          exact hxy ((Option.some.inj hz1).trans (Option.some.inj hz2).symm)
        split at h
        · rename_i hty
          simp only [Except.ok.injEq] at h
          subst h
          refine ⟨by simp, ?_⟩
          intro rs hrs
          obtain rfl := Option.some.inj hrs
          refine ⟨by simp, ?_⟩
          intro r hr
          simp only [List.mem_singleton] at hr
          subst hr
          refine ⟨⟨x, y, rfl, rfl, hty⟩, ?_⟩
          intro r' hr'
          cases r' <;> simp only [Reason.rank] at hr' <;> first | exact n0 _ | exact n1 | omega
        · rename_i hty
          simp only [ne_eq, not_not] at hty
          have n2 : ¬ Holds T (some x) (some y) .typesDiffer := by
            rintro ⟨x', y', hx, hy, hne⟩
            cases hx; cases hy
            exact hne hty
          have hlow : ∀ r : Reason, r.rank < 3 → ¬ Holds T (some x) (some y) r := by
            intro r hr
            cases r <;> simp only [Reason.rank] at hr <;> first | exact n0 _ | exact n1 | exact n2 | omega
          split at h
          · rename_i hit
            simp only [Except.ok.injEq] at h
            subst h
            refine ⟨fun _ r => ?_, by simp⟩
            by_cases hr : 3 ≤ r.rank
            · exact not_holds_item hit.1 r hr
            · exact hlow r (by omega)
          · rename_i hit
            have hx : x.type ≠ "item" := fun h => hit ⟨h, hty ▸ h⟩
            cases ha : T.ent x.name with
            | none => simp [checkEntities, ha] at h
            | some a =>
              cases hb' : T.ent y.name with
              | none => simp [checkEntities, ha, hb'] at h
              | some b =>
                obtain ⟨s1, s2⟩ := checkEntities_spec hx hty ha hb' res h
                refine ⟨fun hn r => ?_, ?_⟩
                · by_cases hr : 3 ≤ r.rank
                  · exact s1 hn r hr
                  · exact hlow r (by omega)
                · intro rs hrs
                  obtain ⟨r, rfl, -, hh, hmin⟩ := s2 rs hrs
                  refine ⟨by simp, ?_⟩
                  intro r1 hr1
                  simp only [List.mem_singleton] at hr1
                  subst hr1
                  refine ⟨hh, fun r' hr' => ?_⟩
                  by_cases h3 : 3 ≤ r'.rank
                  · exact hmin r' h3 hr'
                  · exact hlow r' (by omega)

theorem checkPair_ok (T : Tables) (f t : Option Id) (hs : Sound T f t) : ∃ res, checkPair T f t = .ok res := by
  unfold checkPair
  cases hu : unrecognised T f ++ unrecognised T t with
  | cons r0 rs0 => exact ⟨_, rfl⟩
  | nil =>
    have n0 := no_unknown hu
    cases f with
    | none => exact ⟨_, rfl⟩
    | some x =>
      cases t with
      | none => exact ⟨_, rfl⟩
      | some y =>
        simp only
        split
        · exact ⟨_, rfl⟩
        · split
          · exact ⟨_, rfl⟩
          · rename_i hty
            simp only [ne_eq, not_not] at hty
            split
            · exact ⟨_, rfl⟩
            · rename_i hit
              have hx : x.type ≠ "item" := fun h => hit ⟨h, hty ▸ h⟩
              unfold checkEntities
              cases ha : T.ent x.name with
              | none => exact absurd ⟨⟨x, .inl rfl, rfl⟩, ha, hs.entity x (.inl rfl) hx ha⟩ (n0 x.name)
              | some a =>
                cases hb : T.ent y.name with
                | none => exact absurd ⟨⟨y, .inr rfl, rfl⟩, hb, hs.entity y (.inr rfl) (hty ▸ hx) hb⟩ (n0 y.name)
                | some b =>
                  simp only
                  split
                  · exact ⟨_, rfl⟩
                  · cases hm : a.minable with
                    | none => exact ⟨_, rfl⟩
                    | some m =>
                      obtain ⟨h1, h2⟩ := hs.mined _ _ _ ha hm
                      cases hns : minedItems m with
                      | error e => cases m <;> simp_all [minedItems]
                      | ok ns =>
                        obtain ⟨r, hr⟩ := firstHidden_ok (T := T) (ns := ns) fun n hn => h2 n ((minedItems_mem hns n).mp hn)
                        simp only [hns, hr]
                        cases r <;> exact ⟨_, rfl⟩

/-- C42: a pair is accepted silently exactly when none of the obstacles applies.  Missing: tables or pairs on which the function
crashes (`C42_crash_refuted`), and the documented obstacle it does not check (`C42_builds_refuted`). -/
theorem C42_silent_partial (T : Tables) (f t : Option Id) (hs : Sound T f t) :
    checkPair T f t = .ok none ↔ ∀ r, ¬ Holds T f t r := by
  obtain ⟨res, hres⟩ := checkPair_ok T f t hs
  obtain ⟨h1, h2⟩ := checkPair_spec T f t res hres
  rw [hres]
  constructor
  · intro h
    exact h1 (Except.ok.inj h)
  · intro h
    cases res with
    | none => rfl
    | some rs =>
      obtain ⟨hne, hr⟩ := h2 rs rfl
      obtain ⟨r, hrm⟩ := List.exists_mem_of_ne_nil rs hne
      exact absurd (hr r hrm).1 (h r)

/-- C42: every reason given is an obstacle that does hold, at least one is given, and no obstacle checked earlier holds: the reason is the
first one that applies. -/
theorem C42_reason (T : Tables) (f t : Option Id) (rs : List Reason) (h : checkPair T f t = .ok (some rs)) :
    rs ≠ [] ∧ ∀ r ∈ rs, Holds T f t r ∧ ∀ r', r'.rank < r.rank → ¬ Holds T f t r' :=
  (checkPair_spec T f t _ h).2 rs rfl

/-- C42: unknown names are reported, all of them and nothing else. -/
theorem C42_unknown (T : Tables) (f t : Option Id) (n : String) (hn : Holds T f t (.unknown n)) :
    ∃ rs, checkPair T f t = .ok (some rs) ∧ ∀ r, r ∈ rs ↔ ∃ m, r = .unknown m ∧ Holds T f t (.unknown m) := by
  have hmem := (holds_unknown T f t (.unknown n)).mpr ⟨n, rfl, hn⟩
  cases hu : unrecognised T f ++ unrecognised T t with
  | nil => rw [hu] at hmem; cases hmem
  | cons r rs =>
    refine ⟨r :: rs, by unfold checkPair; rw [hu], ?_⟩
    intro r'
    rw [← hu, holds_unknown]

/-- C42: mapping something known to itself is reported as having no effect, and as nothing else. -/
theorem C42_same (T : Tables) (x : Id) (h : T.ent x.name ≠ none ∨ T.item x.name ≠ none) :
    checkPair T (some x) (some x) = .ok (some [.same]) := by
  have hu : unrecognised T (some x) = [] := by
    unfold unrecognised
    simp only [ite_eq_right_iff, List.cons_ne_self, imp_false, Bool.and_eq_true, Option.isNone_iff_eq_none]
    tauto
  unfold checkPair
  simp [hu]

/-- Tables with a belt and a fast belt that only differ in name, a coal seam that mines to a fluid, and an item that builds nothing. -/
def exTables : Tables where
  ent := fun n =>
    if n = "belt" ∨ n = "fast-belt" then some ⟨[], some (.result "belt"), some "transport-belt", some 1, some 1, some 1⟩
    else if n = "geyser" then some ⟨[], some (.results ["steam"]), some "resource", some 1, some 1, some 1⟩
    else if n = "rock" then some ⟨["not-upgradable"], none, some "simple-entity", some 1, some 1, some 1⟩
    else none
  item := fun n =>
    if n = "belt" then some ⟨[], some "belt"⟩
    else if n = "fast-belt" then some ⟨["hidden"], some "fast-belt"⟩
    else if n = "plate" ∨ n = "gear" then some ⟨[], none⟩
    else none

/-- C42 refuted: the function crashes on an entity that mines to a fluid, and on an item called an entity. -/
theorem C42_crash_refuted :
    checkPair exTables (some ⟨"geyser", "entity"⟩) (some ⟨"belt", "entity"⟩) = .error .keyError ∧
    checkPair exTables (some ⟨"plate", "entity"⟩) (some ⟨"gear", "entity"⟩) = .error .keyError := by
  decide +kernel

/-- C42 refuted: the quoted rule that the target must have an item that builds it and is not hidden is not checked. -/
theorem C42_builds_refuted :
    ∃ (T : Tables) (x y : Id), (∀ n it, T.item n = some it → it.builds = some y.name → "hidden" ∈ it.flags) ∧
      checkPair T (some x) (some y) = .ok none := by
  refine ⟨exTables, ⟨"belt", "entity"⟩, ⟨"fast-belt", "entity"⟩, ?_, by decide +kernel⟩
  intro n it h hb
  simp only [exTables] at h
  split at h
  · cases h; simp at hb
  · split at h
    · cases h; simp
    · split at h
      · cases h; simp at hb
      · cases h

/-- The same tables without the geyser. -/
def exTables' : Tables where
  ent := fun n => if n = "geyser" then none else exTables.ent n
  item := exTables.item

example : Sound exTables' (some ⟨"belt", "entity"⟩) (some ⟨"fast-belt", "entity"⟩) ∧
    checkPair exTables' (some ⟨"belt", "entity"⟩) (some ⟨"fast-belt", "entity"⟩) = .ok none ∧
    checkPair exTables' (some ⟨"rock", "entity"⟩) (some ⟨"belt", "entity"⟩) = .ok (some [.notUpgradable]) := by
  refine ⟨⟨?_, ?_⟩, by decide +kernel, by decide +kernel⟩
  · intro n a m hn hm
    simp only [exTables', exTables] at hn ⊢
    split at hn
    · cases hn
    · split at hn
      · cases hn
        obtain rfl := Option.some.inj hm
        simp
      · split at hn
        · cases hn; cases hm
        · cases hn
  · rintro x (h | h) - hx <;> cases h <;> simp [exTables', exTables] at hx

end Upgrade
end Draftsman
