import Verif.Model.EntityList
import Verif.Proof.Dict
import Mathlib.Data.List.Nodup
import Mathlib.Tactic.Ring
import Mathlib.Tactic.Linarith
/-
Lemmas about the entity list: the three dictionaries as one relation between key, position and member.
-/
namespace Draftsman
namespace Dict
variable {K V : Type} [DecidableEq K]

theorem get?_eq_some {d : Dict K V} (h : d.keys.Nodup) (k : K) (v : V) : d.get? k = some v ↔ (k, v) ∈ d := by
  induction d with
  | nil => simp [get?]
  | cons p r ih =>
    obtain ⟨k', v'⟩ := p
    simp only [keys_cons, List.nodup_cons] at h
    simp only [get?]
    by_cases hk : k' = k
    · subst hk
      simp only [if_true, Option.some.injEq, List.mem_cons, Prod.mk.injEq, true_and]
      constructor
      · intro e; exact Or.inl e.symm
      · rintro (e | e)
        · exact e.symm
        · exact absurd (List.mem_map_of_mem (f := (·.1)) e) h.1
    · rw [if_neg hk, ih h.2]
      simp only [List.mem_cons, Prod.mk.injEq]
      constructor
      · exact Or.inr
      · rintro (⟨e, _⟩ | e)
        · exact absurd e.symm hk
        · exact e

theorem get?_mapVal {W : Type} (d : Dict K V) (f : V → W) (k : K) :
    get? (d.map fun p => (p.1, f p.2)) k = (d.get? k).map f := by
  induction d with
  | nil => rfl
  | cons p r ih =>
    obtain ⟨k', v'⟩ := p
    simp only [List.map_cons, get?]
    split
    · rfl
    · exact ih

omit [DecidableEq K] in
theorem keys_mapVal {W : Type} (d : Dict K V) (f : V → W) : keys (d.map fun p => (p.1, f p.2)) = d.keys := by
  simp [keys, List.map_map, Function.comp_def]

end Dict

namespace EList

theorem invert_aux (d : Dict (Option String) Int) (acc : Dict Int (Option String))
    (hinj : ∀ k k' i, (k, i) ∈ d → (k', i) ∈ d → k = k') (i : Int) (k : Option String) :
    (d.foldl (fun acc p => acc.set p.2 p.1) acc).get? i = some k ↔
      (k, i) ∈ d ∨ (acc.get? i = some k ∧ ∀ k', (k', i) ∉ d) := by
  induction d generalizing acc with
  | nil => simp
  | cons p r ih =>
    obtain ⟨k0, i0⟩ := p
    simp only [List.foldl_cons]
    rw [ih _ (fun k k' i h h' => hinj k k' i (List.mem_cons_of_mem _ h) (List.mem_cons_of_mem _ h'))]
    rw [Dict.get?_set]
    by_cases hi : i0 = i
    · subst hi
      rw [if_pos rfl]
      constructor
      · rintro (h | ⟨h, -⟩)
        · exact Or.inl (List.mem_cons_of_mem _ h)
        · simp only [Option.some.injEq] at h; subst h; exact Or.inl List.mem_cons_self
      · rintro (h | ⟨-, h⟩)
        · by_cases hr : (k, i0) ∈ r
          · exact Or.inl hr
          · have hk : k = k0 := by
              rcases List.mem_cons.1 h with h | h
              · exact (Prod.mk.inj h).1
              · exact absurd h hr
            subst hk
            refine Or.inr ⟨rfl, fun k' h' => hr ?_⟩
            have := hinj k' k i0 (List.mem_cons_of_mem _ h') List.mem_cons_self
            subst this; exact h'
        · exact absurd List.mem_cons_self (h k0)
    · rw [if_neg hi]
      have hne : ∀ k', (k', i) ≠ (k0, i0) := fun k' e => hi (Prod.mk.inj e).2.symm
      constructor
      · rintro (h | ⟨h, h'⟩)
        · exact Or.inl (List.mem_cons_of_mem _ h)
        · exact Or.inr ⟨h, fun k' hk' => (List.mem_cons.1 hk').elim (hne k') (h' k')⟩
      · rintro (h | ⟨h, h'⟩)
        · exact Or.inl ((List.mem_cons.1 h).resolve_left (hne k))
        · exact Or.inr ⟨h, fun k' hk' => h' k' (List.mem_cons_of_mem _ hk')⟩

theorem invert_get {d : Dict (Option String) Int} (hnd : d.keys.Nodup)
    (hinj : ∀ k k' i, d.get? k = some i → d.get? k' = some i → k = k') (i : Int) (k : Option String) :
    (invert d).get? i = some k ↔ d.get? k = some i := by
  unfold invert
  rw [invert_aux d [] (fun k k' i h h' => hinj k k' i ((Dict.get?_eq_some hnd k i).2 h) ((Dict.get?_eq_some hnd k' i).2 h')) i k,
    Dict.get?_eq_some hnd]
  simp

theorem invert_nodup (d : Dict (Option String) Int) : (invert d).keys.Nodup := by
  unfold invert
  have : ∀ acc : Dict Int (Option String), acc.keys.Nodup → (d.foldl (fun acc p => acc.set p.2 p.1) acc).keys.Nodup := by
    induction d with
    | nil => exact fun acc h => h
    | cons p r ih => exact fun acc h => ih _ (Dict.nodup_set h _ _)
  exact this [] (by simp)

/-- The three dictionaries of `s` represent the relation `P key position member`. -/
structure Maps (s : EList) (P : Option String → Int → Nat → Prop) : Prop where
  fn : ∀ k i i' u u', P k i u → P k i' u' → i = i' ∧ u = u'
  inj : ∀ k k' i u u', P k i u → P k' i u' → k = k'
  nd1 : s.keyMap.keys.Nodup
  nd2 : s.keyToIdx.keys.Nodup
  nd3 : s.idxToKey.keys.Nodup
  km : ∀ k u, s.keyMap.get? k = some u ↔ ∃ i, P k i u
  ki : ∀ k i, s.keyToIdx.get? k = some i ↔ ∃ u, P k i u
  ik : ∀ i k, s.idxToKey.get? i = some k ↔ ∃ u, P k i u

theorem Maps.congr {s : EList} {P Q : Option String → Int → Nat → Prop} (h : Maps s P) (e : ∀ k i u, P k i u ↔ Q k i u) :
    Maps s Q := by
  have : P = Q := by funext k i u; exact propext (e k i u)
  exact this ▸ h

theorem Maps.root {s : EList} {P : Option String → Int → Nat → Prop} (h : Maps s P) (l : List EL) :
    Maps { s with root := l } P := ⟨h.fn, h.inj, h.nd1, h.nd2, h.nd3, h.km, h.ki, h.ik⟩

theorem Maps.removeKey {s : EList} {P : Option String → Int → Nat → Prop} (h : Maps s P) {k : Option String} {i : Int} {u : Nat}
    (hk : k ≠ none) (hP : P k i u) :
    ∃ s', s.removeKey k = (s', none) ∧ s'.root = s.root ∧ Maps s' (fun k' i' u' => P k' i' u' ∧ k' ≠ k) := by
  cases k with
  | none => exact absurd rfl hk
  | some k =>
    have h1 := (h.ki (some k) i).2 ⟨u, hP⟩
    have h2 := (h.km (some k) u).2 ⟨i, hP⟩
    have h3 := (h.ik i (some k)).2 ⟨u, hP⟩
    refine ⟨⟨s.root, s.keyMap.del (some k), s.keyToIdx.del (some k), s.idxToKey.del i⟩, ?_, rfl, ?_⟩
    · simp [EList.removeKey, h1, h2, h3]
    · refine ⟨fun a b c d e x y => h.fn _ _ _ _ _ x.1 y.1, fun a b c d e x y => h.inj _ _ _ _ _ x.1 y.1,
        Dict.nodup_del h.nd1 _, Dict.nodup_del h.nd2 _, Dict.nodup_del h.nd3 _, ?_, ?_, ?_⟩
      · intro k' u'
        show Dict.get? (s.keyMap.del (some k)) k' = some u' ↔ _
        rw [Dict.get?_del h.nd1]
        by_cases e : some k = k'
        · rw [if_pos e]; simp [e]
        · rw [if_neg e, h.km]
          constructor
          · rintro ⟨i', x⟩; exact ⟨i', x, Ne.symm e⟩
          · rintro ⟨i', x, -⟩; exact ⟨i', x⟩
      · intro k' i'
        show Dict.get? (s.keyToIdx.del (some k)) k' = some i' ↔ _
        rw [Dict.get?_del h.nd2]
        by_cases e : some k = k'
        · rw [if_pos e]; simp [e]
        · rw [if_neg e, h.ki]
          constructor
          · rintro ⟨i', x⟩; exact ⟨i', x, Ne.symm e⟩
          · rintro ⟨i', x, -⟩; exact ⟨i', x⟩
      · intro i' k'
        show Dict.get? (s.idxToKey.del i) i' = some k' ↔ _
        rw [Dict.get?_del h.nd3]
        by_cases e : i = i'
        · rw [if_pos e]
          subst e
          simp only [reduceCtorEq, false_iff, not_exists, not_and, not_not]
          intro u' x
          exact h.inj _ _ _ _ _ x hP
        · rw [if_neg e, h.ik]
          constructor
          · rintro ⟨u', x⟩
            exact ⟨u', x, fun ek => e (h.fn _ _ _ _ _ hP (ek ▸ x)).1⟩
          · rintro ⟨u', x, -⟩; exact ⟨u', x⟩

theorem Maps.shift {s : EList} {P : Option String → Int → Nat → Prop} (h : Maps s P) (idx amt : Int)
    (hinj : ∀ k k' i i' u u', P k i u → P k' i' u' →
      (if i ≥ idx then i + amt else i) = (if i' ≥ idx then i' + amt else i') → k = k') :
    Maps (s.shift idx amt) (fun k i u => ∃ j, P k j u ∧ i = if j ≥ idx then j + amt else j) := by
  have hget : ∀ k, Dict.get? (s.shift idx amt).keyToIdx k
      = (s.keyToIdx.get? k).map fun v => if v ≥ idx then v + amt else v := by
    intro k
    exact Dict.get?_mapVal s.keyToIdx (fun v => if v ≥ idx then v + amt else v) k
  have hnd : (s.shift idx amt).keyToIdx.keys.Nodup := by
    have : (s.shift idx amt).keyToIdx.keys = s.keyToIdx.keys :=
      Dict.keys_mapVal s.keyToIdx (fun v => if v ≥ idx then v + amt else v)
    rw [this]; exact h.nd2
  have hki : ∀ k i, Dict.get? (s.shift idx amt).keyToIdx k = some i ↔
      ∃ u, ∃ j, P k j u ∧ i = if j ≥ idx then j + amt else j := by
    intro k i
    rw [hget, Option.map_eq_some_iff]
    constructor
    · rintro ⟨j, hj, e⟩
      obtain ⟨u, hu⟩ := (h.ki k j).1 hj
      exact ⟨u, j, hu, e.symm⟩
    · rintro ⟨u, j, hu, e⟩
      exact ⟨j, (h.ki k j).2 ⟨u, hu⟩, e.symm⟩
  refine ⟨?_, ?_, h.nd1, hnd, invert_nodup _, ?_, hki, ?_⟩
  · rintro k i i' u u' ⟨j, x, e⟩ ⟨j', x', e'⟩
    obtain ⟨a, b⟩ := h.fn _ _ _ _ _ x x'
    subst a; exact ⟨e.trans e'.symm, b⟩
  · rintro k k' i u u' ⟨j, x, e⟩ ⟨j', x', e'⟩
    exact hinj _ _ _ _ _ _ x x' (e.symm.trans e')
  · intro k u
    show s.keyMap.get? k = some u ↔ _
    rw [h.km]
    constructor
    · rintro ⟨j, x⟩; exact ⟨_, j, x, rfl⟩
    · rintro ⟨_, j, x, _⟩; exact ⟨j, x⟩
  · intro i k
    show Dict.get? (invert (s.shift idx amt).keyToIdx) i = some k ↔ _
    rw [invert_get hnd, hki]
    intro k k' i hk hk'
    obtain ⟨u, j, x, e⟩ := (hki k i).1 hk
    obtain ⟨u', j', x', e'⟩ := (hki k' i).1 hk'
    exact hinj _ _ _ _ _ _ x x' (e.symm.trans e')

theorem Maps.setKey {s : EList} {P : Option String → Int → Nat → Prop} (h : Maps s P) {k : Option String} {v : EL} {n : Nat}
    (hnew : ∀ i u, ¬ P k i u) (hidx : s.root.findIdx? (fun e => e.eqv v) = some n) (hfree : ∀ k' u, ¬ P k' n u) :
    ∃ s', s.setKey k v = (s', none) ∧ s'.root = s.root ∧
      Maps s' (fun k' i' u' => P k' i' u' ∨ (k' = k ∧ i' = n ∧ u' = v.uid)) := by
  have h0 : s.keyMap.get? k = none := by
    cases e : s.keyMap.get? k with
    | none => rfl
    | some u =>
      obtain ⟨i, x⟩ := (h.km k u).1 e
      exact absurd x (hnew i u)
  refine ⟨⟨s.root, s.keyMap.set k v.uid, s.keyToIdx.set k n, s.idxToKey.set n k⟩, ?_, rfl, ?_⟩
  · simp [EList.setKey, h0, hidx]
  · refine ⟨?_, ?_, Dict.nodup_set h.nd1 _ _, Dict.nodup_set h.nd2 _ _, Dict.nodup_set h.nd3 _ _, ?_, ?_, ?_⟩
    · rintro k1 i i' u u' (x | ⟨rfl, rfl, rfl⟩) (y | ⟨e1, e2, e3⟩)
      · exact h.fn _ _ _ _ _ x y
      · subst e1; exact absurd x (hnew _ _)
      · exact absurd y (hnew _ _)
      · exact ⟨e2.symm, e3.symm⟩
    · rintro k1 k2 i u u' (x | ⟨rfl, rfl, rfl⟩) (y | ⟨e1, e2, e3⟩)
      · exact h.inj _ _ _ _ _ x y
      · subst e2; exact absurd x (hfree _ _)
      · exact absurd y (hfree _ _)
      · exact e1.symm
    · intro k' u'
      show Dict.get? (s.keyMap.set k v.uid) k' = some u' ↔ _
      rw [Dict.get?_set]
      by_cases e : k = k'
      · subst e
        rw [if_pos rfl]
        simp only [Option.some.injEq, true_and]
        constructor
        · intro e; exact ⟨n, Or.inr ⟨rfl, e.symm⟩⟩
        · rintro ⟨i, x | ⟨-, x⟩⟩
          · exact absurd x (hnew _ _)
          · exact x.symm
      · rw [if_neg e, h.km]
        constructor
        · rintro ⟨i, x⟩; exact ⟨i, Or.inl x⟩
        · rintro ⟨i, x | ⟨x, -⟩⟩
          · exact ⟨i, x⟩
          · exact absurd x.symm e
    · intro k' i'
      show Dict.get? (s.keyToIdx.set k n) k' = some i' ↔ _
      rw [Dict.get?_set]
      by_cases e : k = k'
      · subst e
        rw [if_pos rfl]
        simp only [Option.some.injEq, true_and]
        constructor
        · intro e; exact ⟨v.uid, Or.inr ⟨e.symm, rfl⟩⟩
        · rintro ⟨i, x | ⟨x, -⟩⟩
          · exact absurd x (hnew _ _)
          · exact x.symm
      · rw [if_neg e, h.ki]
        constructor
        · rintro ⟨i, x⟩; exact ⟨i, Or.inl x⟩
        · rintro ⟨i, x | ⟨x, -⟩⟩
          · exact ⟨i, x⟩
          · exact absurd x.symm e
    · intro i' k'
      show Dict.get? (s.idxToKey.set n k) i' = some k' ↔ _
      rw [Dict.get?_set]
      by_cases e : (n : Int) = i'
      · subst e
        rw [if_pos rfl]
        simp only [Option.some.injEq, true_and]
        constructor
        · intro e; exact ⟨v.uid, Or.inr ⟨e.symm, rfl⟩⟩
        · rintro ⟨i, x | ⟨x, -⟩⟩
          · exact absurd x (hfree _ _)
          · exact x.symm
      · rw [if_neg e, h.ik]
        constructor
        · rintro ⟨i, x⟩; exact ⟨i, Or.inl x⟩
        · rintro ⟨i, x | ⟨-, x, -⟩⟩
          · exact ⟨i, x⟩
          · exact absurd x.symm e

/-- The relation the list itself prescribes: `k` is a non-empty id, carried by member `u` at position `i`. -/
def Want (l : List EL) (k : Option String) (i : Int) (u : Nat) : Prop :=
  truthy k = true ∧ ∃ (n : ℕ) (e : EL), i = n ∧ l[n]? = some e ∧ e.id = k ∧ e.uid = u

/-- The dictionaries say what the list prescribes, and no object is listed twice. -/
def Good (s : EList) : Prop := Maps s (Want s.root) ∧ (s.root.map (·.uid)).Nodup

theorem good_empty : Good empty := by
  refine ⟨⟨?_, ?_, by simp [empty], by simp [empty], by simp [empty], ?_, ?_, ?_⟩, by simp [empty]⟩
  · rintro k i i' u u' ⟨-, n, e, -, h, -⟩; simp [empty] at h
  · rintro k k' i u u' ⟨-, n, e, -, h, -⟩; simp [empty] at h
  all_goals intro a b; simp [empty, Want]

theorem truthy_ne_none {k : Option String} (h : truthy k = true) : k ≠ none := by
  rintro rfl; simp [truthy] at h

theorem uid_inj {l : List EL} (h : (l.map (·.uid)).Nodup) {n m : ℕ} {e e' : EL} (hn : l[n]? = some e) (hm : l[m]? = some e')
    (hu : e.uid = e'.uid) : n = m := by
  obtain ⟨a, ha⟩ := List.getElem?_eq_some_iff.1 hn
  obtain ⟨b, hb⟩ := List.getElem?_eq_some_iff.1 hm
  exact (h.getElem_inj_iff (hi := by simpa using a) (hj := by simpa using b)).1 (by simp [ha, hb, hu])

theorem Good.id_inj {s : EList} (h : Good s) {n m : ℕ} {e e' : EL} (hn : s.root[n]? = some e) (hm : s.root[m]? = some e')
    (ht : truthy e.id = true) (he : e.id = e'.id) : n = m := by
  have := (h.1.fn e.id n m e.uid e'.uid ⟨ht, n, e, rfl, hn, rfl, rfl⟩ ⟨ht, m, e', rfl, hm, he.symm, rfl⟩).1
  exact_mod_cast this

/-- `list.index` of a listed object whose id no other member carries finds that object. -/
theorem findIdx_self {l : List EL} {n : ℕ} {v : EL} (hn : l[n]? = some v)
    (hid : ∀ m e, l[m]? = some e → m ≠ n → e.uid ≠ v.uid ∧ e.id ≠ v.id) :
    l.findIdx? (fun e => e.eqv v) = some n := by
  obtain ⟨hlt, hv⟩ := List.getElem?_eq_some_iff.1 hn
  rw [List.findIdx?_eq_some_iff_getElem]
  refine ⟨hlt, by rw [hv]; simp [EL.eqv], ?_⟩
  intro j hj
  obtain ⟨h1, h2⟩ := hid j l[j] (List.getElem?_eq_getElem (by omega)) (by omega)
  simp [EL.eqv, h1, h2]

theorem idTaken_iff {s : EList} (h : Good s) (v : EL) :
    s.idTaken v = true ↔ truthy v.id = true ∧ ∃ e ∈ s.root, e.id = v.id := by
  unfold idTaken
  rw [Bool.and_eq_true, Option.isSome_iff_exists (x := s.keyMap.get? v.id)]
  constructor
  · rintro ⟨-, u, hu⟩
    obtain ⟨i, ht, n, e, -, hn, he, -⟩ := (h.1.km _ _).1 hu
    exact ⟨ht, e, List.mem_of_getElem? hn, he⟩
  · rintro ⟨ht, e, he, hid⟩
    obtain ⟨n, hn⟩ := List.mem_iff_getElem?.1 he
    refine ⟨?_, e.uid, (h.1.km _ _).2 ⟨n, ht, n, e, rfl, hn, hid, rfl⟩⟩
    have := truthy_ne_none ht
    exact Option.isSome_iff_ne_none.2 this

theorem nodup_insertIdx {l : List EL} (h : (l.map (·.uid)).Nodup) (n : ℕ) (v : EL) (hv : v.uid ∉ l.map (·.uid)) :
    ((l.insertIdx n v).map (·.uid)).Nodup := by
  by_cases hn : n ≤ l.length
  · have hp : ((l.insertIdx n v).map (·.uid)).Perm ((v :: l).map (·.uid)) := (List.perm_insertIdx v l hn).map _
    rw [hp.nodup_iff, List.map_cons, List.nodup_cons]
    exact ⟨hv, h⟩
  · rw [List.insertIdx_of_length_lt (by omega)]; exact h

/-- Insertion at a non-negative position keeps the dictionaries right. -/
theorem good_insert {s : EList} (h : Good s) {idx : Int} (hidx : 0 ≤ idx) {v : EL} (hv : v.uid ∉ s.root.map (·.uid))
    (hfree : s.idTaken v = false) :
    ∃ s', s.insert idx v = (s', none) ∧ s'.root = s.root.insertIdx (min idx.toNat s.root.length) v ∧ Good s' := by
  set n := min idx.toNat s.root.length with hn
  have hroot : pyInsert s.root idx v = s.root.insertIdx n v := by
    unfold pyInsert
    simp only
    rw [if_neg (show ¬ idx < 0 by omega)]
    congr 1
    omega
  have hle : n ≤ s.root.length := Nat.min_le_right _ _
  have hnd : ((s.root.insertIdx n v).map (·.uid)).Nodup := nodup_insertIdx h.2 n v hv
  have hlt : ∀ k i u, Want s.root k i u → 0 ≤ i ∧ i < s.root.length := by
    rintro k i u ⟨-, m, e, rfl, hm, -⟩
    obtain ⟨a, -⟩ := List.getElem?_eq_some_iff.1 hm
    omega
  have hM := (h.1.root (s.root.insertIdx n v)).shift idx 1 (by
    intro k k' i i' u u' x x' e
    have : i = i' := by split at e <;> split at e <;> omega
    subst this
    exact h.1.inj _ _ _ _ _ x x')
  set s1 := ({ s with root := s.root.insertIdx n v } : EList).shift idx 1 with hs1
  have hr1 : s1.root = s.root.insertIdx n v := rfl
  have hget : ∀ m, (s.root.insertIdx n v)[m]? = if m < n then s.root[m]? else if m = n then some v else s.root[m - 1]? := by
    intro m
    rw [List.getElem?_insertIdx]
    split
    · rfl
    · split
      · rw [if_pos (by omega)]
      · rfl
  have hwant : ∀ k i u, Want (s.root.insertIdx n v) k i u ↔
      (∃ j, Want s.root k j u ∧ i = if j ≥ idx then j + 1 else j) ∨ (truthy k = true ∧ k = v.id ∧ i = n ∧ u = v.uid) := by
    intro k i u
    constructor
    · rintro ⟨ht, m, e, rfl, hm, he, hu⟩
      rw [hget] at hm
      split at hm
      · rename_i hmn
        refine Or.inl ⟨m, ⟨ht, m, e, rfl, hm, he, hu⟩, ?_⟩
        rw [if_neg (by omega)]
      · split at hm
        · rename_i _ hmn
          simp only [Option.some.injEq] at hm
          subst hm
          exact Or.inr ⟨ht, he.symm, by omega, hu.symm⟩
        · obtain ⟨hl, -⟩ := List.getElem?_eq_some_iff.1 hm
          refine Or.inl ⟨(m - 1 : ℕ), ⟨ht, m - 1, e, rfl, hm, he, hu⟩, ?_⟩
          rw [if_pos (by omega)]
          omega
    · rintro (⟨j, ⟨ht, m, e, rfl, hm, he, hu⟩, rfl⟩ | ⟨ht, hk, rfl, rfl⟩)
      · obtain ⟨hl, -⟩ := List.getElem?_eq_some_iff.1 hm
        by_cases hc : (m : Int) ≥ idx
        · rw [if_pos hc]
          refine ⟨ht, m + 1, e, by push_cast; rfl, ?_, he, hu⟩
          rw [hget, if_neg (by omega), if_neg (by omega)]
          simpa using hm
        · rw [if_neg hc]
          refine ⟨ht, m, e, rfl, ?_, he, hu⟩
          rw [hget, if_pos (by omega)]
          exact hm
      · refine ⟨ht, n, v, rfl, ?_, hk.symm, rfl⟩
        rw [hget, if_neg (by omega), if_pos rfl]
  by_cases ht : truthy v.id = true
  · have hno : ∀ e ∈ s.root, e.id ≠ v.id := by
      intro e he hid
      have := (idTaken_iff h v).2 ⟨ht, e, he, hid⟩
      rw [hfree] at this; simp at this
    have hfind : s1.root.findIdx? (fun e => e.eqv v) = some n := by
      rw [hr1]
      refine findIdx_self (by rw [hget, if_neg (by omega), if_pos rfl]) ?_
      intro m e hm hmn
      rw [hget] at hm
      have : e ∈ s.root := by
        split at hm
        · exact List.mem_of_getElem? hm
        · exact List.mem_of_getElem? (by simpa [hmn] using hm)
      exact ⟨fun hu => hv (hu ▸ List.mem_map_of_mem this), hno e this⟩
    obtain ⟨s2, h2, hr2, hM2⟩ := hM.setKey (k := v.id) (v := v) (n := n)
      (by rintro i u ⟨j, ⟨-, m, e, -, hm, he, -⟩, -⟩; exact hno e (List.mem_of_getElem? hm) he) hfind
      (by
        rintro k' u ⟨j, x, e⟩
        have := hlt _ _ _ x
        split at e <;> omega)
    refine ⟨s2, ?_, by rw [hr2, hr1], ?_, by rw [hr2, hr1]; exact hnd⟩
    · unfold EList.insert
      rw [if_neg (by simp [hfree]), if_neg (by simp)]
      simp only [hroot]
      rw [if_pos ht]
      exact h2
    · rw [hr2, hr1]
      refine hM2.congr ?_
      intro k i u
      rw [hwant]
      constructor
      · rintro (x | ⟨rfl, rfl, rfl⟩)
        · exact Or.inl x
        · exact Or.inr ⟨ht, rfl, rfl, rfl⟩
      · rintro (x | ⟨-, rfl, rfl, rfl⟩)
        · exact Or.inl x
        · exact Or.inr ⟨rfl, rfl, rfl⟩
  · refine ⟨s1, ?_, rfl, ?_, hnd⟩
    · unfold EList.insert
      rw [if_neg (by simp [hfree]), if_neg (by simp)]
      simp only [hroot]
      rw [if_neg ht]
    · rw [hr1]
      refine hM.congr ?_
      intro k i u
      rw [hwant]
      constructor
      · exact Or.inl
      · rintro (x | ⟨ht', rfl, -⟩)
        · exact x
        · exact absurd ht' ht

/-- The key recorded for position `n`. -/
theorem Good.key_at {s : EList} (h : Good s) {n : ℕ} {e : EL} (hn : s.root[n]? = some e) :
    (s.idxToKey.get? (n : Int)).join = if truthy e.id = true then e.id else none := by
  by_cases ht : truthy e.id = true
  · rw [if_pos ht, (h.1.ik n e.id).2 ⟨e.uid, ht, n, e, rfl, hn, rfl, rfl⟩]
    rfl
  · rw [if_neg ht]
    cases hc : s.idxToKey.get? (n : Int) with
    | none => rfl
    | some k =>
      obtain ⟨u, htk, m, e', hm, hme, hk, -⟩ := (h.1.ik n k).1 hc
      have : n = m := by exact_mod_cast hm
      subst this
      rw [hn] at hme
      simp only [Option.some.injEq] at hme
      subst hme
      rw [hk] at ht
      exact absurd htk ht

theorem pyIndex_nat {α : Type} {l : List α} {n : ℕ} (h : n < l.length) : pyIndex l (n : Int) = some n := by
  unfold pyIndex
  rw [if_pos ⟨by omega, by omega⟩]
  simp

/-- Deletion of one member keeps the dictionaries right. -/
theorem good_delAt {s : EList} (h : Good s) {n : ℕ} {e : EL} (hn : s.root[n]? = some e) :
    ∃ s', s.delAt n (if truthy e.id = true then e.id else none) = (s', none) ∧ s'.root = s.root.eraseIdx n ∧ Good s' := by
  obtain ⟨hlt, hget⟩ := List.getElem?_eq_some_iff.1 hn
  have hnd : ((s.root.eraseIdx n).map (·.uid)).Nodup :=
    List.Nodup.sublist ((List.eraseIdx_sublist s.root n).map _) h.2
  -- after removing the key
  have hrem : ∃ s1, ({ s with root := s.root.eraseIdx n } : EList).removeKey (if truthy e.id = true then e.id else none)
      = (s1, none) ∧ s1.root = s.root.eraseIdx n ∧ Maps s1 (fun k i u => Want s.root k i u ∧ i ≠ n) := by
    by_cases ht : truthy e.id = true
    · rw [if_pos ht]
      obtain ⟨s1, h1, h2, h3⟩ := (h.1.root (s.root.eraseIdx n)).removeKey (k := e.id) (i := n) (u := e.uid)
        (truthy_ne_none ht) ⟨ht, n, e, rfl, hn, rfl, rfl⟩
      refine ⟨s1, h1, h2, h3.congr ?_⟩
      intro k i u
      refine and_congr_right fun x => not_congr ?_
      constructor
      · rintro rfl
        exact (h.1.fn _ _ _ _ _ x ⟨ht, n, e, rfl, hn, rfl, rfl⟩).1
      · rintro rfl
        exact h.1.inj _ _ _ _ _ x ⟨ht, n, e, rfl, hn, rfl, rfl⟩
    · rw [if_neg ht]
      refine ⟨_, rfl, rfl, (h.1.root _).congr ?_⟩
      intro k i u
      refine ⟨fun x => ⟨x, ?_⟩, fun x => x.1⟩
      rintro rfl
      obtain ⟨htk, m, e', hm, hme, hk, -⟩ := x
      have : n = m := by exact_mod_cast hm
      subst this
      rw [hn] at hme
      simp only [Option.some.injEq] at hme
      subst hme
      rw [hk] at ht
      exact ht htk
  obtain ⟨s1, h1, hr1, hM⟩ := hrem
  refine ⟨s1.shift n (-1), ?_, hr1, ?_, ?_⟩
  · unfold delAt
    rw [pyIndex_nat hlt]
    simp only [h1]
  · have hM2 := hM.shift n (-1) (by
      rintro k k' i i' u u' ⟨x, hx⟩ ⟨x', hx'⟩ e
      have : i = i' := by split at e <;> split at e <;> omega
      subst this
      exact h.1.inj _ _ _ _ _ x x')
    show Maps _ (Want s1.root)
    rw [hr1]
    refine hM2.congr ?_
    intro k i u
    constructor
    · rintro ⟨j, ⟨⟨ht, m, e', rfl, hm, he, hu⟩, hj⟩, rfl⟩
      have hmn : m ≠ n := by omega
      by_cases hc : (m : Int) ≥ n
      · rw [if_pos hc]
        refine ⟨ht, m - 1, e', by omega, ?_, he, hu⟩
        rw [List.getElem?_eraseIdx, if_neg (by omega), show m - 1 + 1 = m by omega]
        exact hm
      · rw [if_neg hc]
        refine ⟨ht, m, e', rfl, ?_, he, hu⟩
        rw [List.getElem?_eraseIdx, if_pos (by omega)]
        exact hm
    · rintro ⟨ht, m, e', rfl, hm, he, hu⟩
      rw [List.getElem?_eraseIdx] at hm
      split at hm
      · exact ⟨m, ⟨⟨ht, m, e', rfl, hm, he, hu⟩, by omega⟩, by rw [if_neg (by omega)]⟩
      · refine ⟨(m + 1 : ℕ), ⟨⟨ht, m + 1, e', rfl, hm, he, hu⟩, by omega⟩, ?_⟩
        rw [if_pos (by omega)]
        omega
  · show (s1.root.map (·.uid)).Nodup
    rw [hr1]; exact hnd

/-- Replacement keeps the dictionaries right. -/
theorem good_setAt {s : EList} (h : Good s) {n : ℕ} {e v : EL} (hn : s.root[n]? = some e)
    (hv : v.uid ∉ s.root.map (·.uid)) (hfree : s.idTaken v = false) :
    ∃ s', s.setAt n (if truthy e.id = true then e.id else none) v = (s', none) ∧ s'.root = s.root.set n v ∧ Good s' := by
  obtain ⟨hlt, hget⟩ := List.getElem?_eq_some_iff.1 hn
  have hgs : ∀ m, (s.root.set n v)[m]? = if n = m then some v else s.root[m]? := by
    intro m
    rw [List.getElem?_set]
    split
    · simp
    · rfl
  have hnd : ((s.root.set n v).map (·.uid)).Nodup := by
    rw [List.map_set]
    exact List.Nodup.set h.2 hv
  have hrem : ∃ s1, (if truthy (if truthy e.id = true then e.id else none) = true then
        ({ s with root := s.root.set n v } : EList).removeKey (if truthy e.id = true then e.id else none)
        else ({ s with root := s.root.set n v }, none)) = (s1, none) ∧ s1.root = s.root.set n v ∧
        Maps s1 (fun k i u => Want s.root k i u ∧ i ≠ n) := by
    by_cases ht : truthy e.id = true
    · rw [if_pos ht, if_pos ht]
      obtain ⟨s1, h1, h2, h3⟩ := (h.1.root (s.root.set n v)).removeKey (k := e.id) (i := n) (u := e.uid)
        (truthy_ne_none ht) ⟨ht, n, e, rfl, hn, rfl, rfl⟩
      refine ⟨s1, h1, h2, h3.congr ?_⟩
      intro k i u
      refine and_congr_right fun x => not_congr ?_
      constructor
      · rintro rfl
        exact (h.1.fn _ _ _ _ _ x ⟨ht, n, e, rfl, hn, rfl, rfl⟩).1
      · rintro rfl
        exact h.1.inj _ _ _ _ _ x ⟨ht, n, e, rfl, hn, rfl, rfl⟩
    · rw [if_neg ht, if_neg (by simp [truthy])]
      refine ⟨_, rfl, rfl, (h.1.root _).congr ?_⟩
      intro k i u
      refine ⟨fun x => ⟨x, ?_⟩, fun x => x.1⟩
      rintro rfl
      obtain ⟨htk, m, e', hm, hme, hk, -⟩ := x
      have : n = m := by exact_mod_cast hm
      subst this
      rw [hn] at hme
      simp only [Option.some.injEq] at hme
      subst hme
      rw [hk] at ht
      exact ht htk
  obtain ⟨s1, h1, hr1, hM⟩ := hrem
  have hwant : ∀ k i u, Want (s.root.set n v) k i u ↔
      (Want s.root k i u ∧ i ≠ n) ∨ (truthy k = true ∧ k = v.id ∧ i = n ∧ u = v.uid) := by
    intro k i u
    constructor
    · rintro ⟨ht, m, e', rfl, hm, he, hu⟩
      rw [hgs] at hm
      split at hm
      · simp only [Option.some.injEq] at hm
        subst hm
        exact Or.inr ⟨ht, he.symm, by omega, hu.symm⟩
      · exact Or.inl ⟨⟨ht, m, e', rfl, hm, he, hu⟩, by omega⟩
    · rintro (⟨⟨ht, m, e', rfl, hm, he, hu⟩, hne⟩ | ⟨ht, hk, rfl, rfl⟩)
      · refine ⟨ht, m, e', rfl, ?_, he, hu⟩
        rw [hgs, if_neg (by omega)]; exact hm
      · refine ⟨ht, n, v, rfl, ?_, hk.symm, rfl⟩
        rw [hgs, if_pos rfl]
  by_cases ht : truthy v.id = true
  · have hno : ∀ e ∈ s.root, e.id ≠ v.id := by
      intro e he hid
      have := (idTaken_iff h v).2 ⟨ht, e, he, hid⟩
      rw [hfree] at this; simp at this
    have hfind : s1.root.findIdx? (fun e => e.eqv v) = some n := by
      rw [hr1]
      refine findIdx_self (by rw [hgs, if_pos rfl]) ?_
      intro m e hm hmn
      rw [hgs, if_neg (Ne.symm hmn)] at hm
      have := List.mem_of_getElem? hm
      exact ⟨fun hu => hv (hu ▸ List.mem_map_of_mem this), hno e this⟩
    obtain ⟨s2, h2, hr2, hM2⟩ := hM.setKey (k := v.id) (v := v) (n := n)
      (by rintro i u ⟨⟨-, m, e, -, hm, he, -⟩, -⟩; exact hno e (List.mem_of_getElem? hm) he) hfind
      (by rintro k' u ⟨-, x⟩; exact x rfl)
    refine ⟨s2, ?_, by rw [hr2, hr1], ?_, by rw [hr2, hr1]; exact hnd⟩
    · unfold setAt
      rw [if_neg (by simp [hfree]), pyIndex_nat hlt]
      simp only [h1]
      rw [if_pos ht]
      exact h2
    · rw [hr2, hr1]
      refine hM2.congr ?_
      intro k i u
      rw [hwant]
      constructor
      · rintro (x | ⟨rfl, rfl, rfl⟩)
        · exact Or.inl x
        · exact Or.inr ⟨ht, rfl, rfl, rfl⟩
      · rintro (x | ⟨-, rfl, rfl, rfl⟩)
        · exact Or.inl x
        · exact Or.inr ⟨rfl, rfl, rfl⟩
  · refine ⟨s1, ?_, hr1, ?_, by rw [hr1]; exact hnd⟩
    · unfold setAt
      rw [if_neg (by simp [hfree]), pyIndex_nat hlt]
      simp only [h1]
      rw [if_neg ht]
    · rw [hr1]
      refine hM.congr ?_
      intro k i u
      rw [hwant]
      constructor
      · exact Or.inl
      · rintro (x | ⟨ht', rfl, -⟩)
        · exact x
        · exact absurd ht' ht

theorem getElem?_relabel (l : List EL) (u : Nat) (id : Option String) (m : ℕ) :
    (l.map fun e => if e.uid = u then { e with id := id } else e)[m]?
      = (l[m]?).map fun e => if e.uid = u then { e with id := id } else e := by simp

theorem relabel_uids (l : List EL) (u : Nat) (id : Option String) :
    ((l.map fun e => if e.uid = u then { e with id := id } else e).map (·.uid)) = l.map (·.uid) := by
  rw [List.map_map]
  apply List.map_congr_left
  intro e _
  simp only [Function.comp]
  split <;> rfl

/-- What the relabelled list prescribes. -/
theorem want_relabel {l : List EL} (hnd : (l.map (·.uid)).Nodup) {n : ℕ} {v : EL} (hn : l[n]? = some v) (id : Option String)
    (k : Option String) (i : Int) (u : Nat) :
    Want (l.map fun e => if e.uid = v.uid then { e with id := id } else e) k i u ↔
      (Want l k i u ∧ i ≠ n) ∨ (truthy k = true ∧ k = id ∧ i = n ∧ u = v.uid) := by
  constructor
  · rintro ⟨ht, m, e, rfl, hm, he, hu⟩
    rw [getElem?_relabel, Option.map_eq_some_iff] at hm
    obtain ⟨e0, hm, rfl⟩ := hm
    by_cases hc : e0.uid = v.uid
    · have := uid_inj hnd hm hn hc
      subst this
      rw [if_pos hc] at he hu
      exact Or.inr ⟨ht, he.symm, rfl, by rw [← hu]; exact hc⟩
    · rw [if_neg hc] at he hu
      refine Or.inl ⟨⟨ht, m, e0, rfl, hm, he, hu⟩, ?_⟩
      intro e
      have : m = n := by exact_mod_cast e
      subst this
      rw [hm] at hn
      simp only [Option.some.injEq] at hn
      exact hc (by rw [hn])
  · rintro (⟨⟨ht, m, e, rfl, hm, he, hu⟩, hne⟩ | ⟨ht, rfl, rfl, rfl⟩)
    · have hc : e.uid ≠ v.uid := fun hc => hne (by rw [uid_inj hnd hm hn hc])
      refine ⟨ht, m, e, rfl, ?_, he, hu⟩
      rw [getElem?_relabel, hm]
      simp [hc]
    · refine ⟨ht, n, { v with id := k }, rfl, ?_, rfl, rfl⟩
      rw [getElem?_relabel, hn]
      simp

/-- Removing the key of the member at position `n`. -/
theorem Good.dropKey {s : EList} (h : Good s) {n : ℕ} {v : EL} (hn : s.root[n]? = some v) (hid : v.id ≠ some "") (l : List EL) :
    ∃ s1, ({ s with root := l } : EList).removeKey v.id = (s1, none) ∧ s1.root = l ∧
      Maps s1 (fun k i u => Want s.root k i u ∧ i ≠ n) := by
  by_cases ht : truthy v.id = true
  · obtain ⟨s1, h1, h2, h3⟩ := (h.1.root l).removeKey (k := v.id) (i := n) (u := v.uid)
      (truthy_ne_none ht) ⟨ht, n, v, rfl, hn, rfl, rfl⟩
    refine ⟨s1, h1, h2, h3.congr ?_⟩
    intro k i u
    refine and_congr_right fun x => not_congr ?_
    constructor
    · rintro rfl
      exact (h.1.fn _ _ _ _ _ x ⟨ht, n, v, rfl, hn, rfl, rfl⟩).1
    · rintro rfl
      exact h.1.inj _ _ _ _ _ x ⟨ht, n, v, rfl, hn, rfl, rfl⟩
  · have hnone : v.id = none := by
      cases hv : v.id with
      | none => rfl
      | some k =>
        have hk : k ≠ "" := fun e => hid (by rw [hv, e])
        exact absurd (by simp [hv, truthy, hk]) ht
    rw [hnone]
    refine ⟨_, rfl, rfl, (h.1.root _).congr ?_⟩
    intro k i u
    refine ⟨fun x => ⟨x, ?_⟩, fun x => x.1⟩
    rintro rfl
    obtain ⟨htk, m, e', hm, hme, hk, -⟩ := x
    have : n = m := by exact_mod_cast hm
    subst this
    rw [hn] at hme
    simp only [Option.some.injEq] at hme
    subst hme
    rw [hk] at ht
    exact ht htk

/-- Adding the new key after relabelling. -/
theorem good_setKey_relabel {s : EList} (h : Good s) {n : ℕ} {v : EL} (hn : s.root[n]? = some v) {id : Option String}
    (ht : truthy id = true) (hfree : ∀ e ∈ s.root, e.uid ≠ v.uid → e.id ≠ id) {s1 : EList}
    (hr1 : s1.root = s.root.map fun e => if e.uid = v.uid then { e with id := id } else e)
    (hM : Maps s1 (fun k i u => Want s.root k i u ∧ i ≠ n)) :
    ∃ s', s1.setKey id { v with id := id } = (s', none) ∧ s'.root = s1.root ∧ Good s' := by
  have hnd := h.2
  have hother : ∀ m e, s.root[m]? = some e → m ≠ n → e.uid ≠ v.uid ∧ e.id ≠ id := by
    intro m e hm hmn
    have hc : e.uid ≠ v.uid := fun hc => hmn (uid_inj hnd hm hn hc)
    exact ⟨hc, hfree e (List.mem_of_getElem? hm) hc⟩
  have hfind : s1.root.findIdx? (fun e => e.eqv { v with id := id }) = some n := by
    rw [hr1]
    refine findIdx_self (by rw [getElem?_relabel, hn]; simp) ?_
    intro m e hm hmn
    rw [getElem?_relabel, Option.map_eq_some_iff] at hm
    obtain ⟨e0, hm, rfl⟩ := hm
    obtain ⟨h1, h2⟩ := hother m e0 hm hmn
    rw [if_neg h1]
    exact ⟨h1, h2⟩
  obtain ⟨s2, h2, hr2, hM2⟩ := hM.setKey (k := id) (v := { v with id := id }) (n := n)
    (by
      rintro i u ⟨⟨-, m, e, rfl, hm, he, -⟩, hne⟩
      exact (hother m e hm (fun e => hne (by rw [e]))).2 he) hfind (by rintro k' u ⟨-, x⟩; exact x rfl)
  refine ⟨s2, h2, hr2, ?_, ?_⟩
  · rw [hr2, hr1]
    refine hM2.congr ?_
    intro k i u
    rw [want_relabel hnd hn]
    constructor
    · rintro (x | ⟨rfl, rfl, rfl⟩)
      · exact Or.inl x
      · exact Or.inr ⟨ht, rfl, rfl, rfl⟩
    · rintro (x | ⟨-, rfl, rfl, rfl⟩)
      · exact Or.inl x
      · exact Or.inr ⟨rfl, rfl, rfl⟩
  · rw [hr2, hr1, relabel_uids]; exact hnd

theorem good_renameEntity {s : EList} (h : Good s) {n : ℕ} {v : EL} (hn : s.root[n]? = some v) (hid : v.id ≠ some "")
    {id : Option String} (hid' : id ≠ some "") (hfree : truthy id = true → ∀ e ∈ s.root, e.uid ≠ v.uid → e.id ≠ id) :
    ∃ s', s.renameEntity v id = (s', none) ∧
      s'.root = s.root.map (fun e => if e.uid = v.uid then { e with id := id } else e) ∧ Good s' := by
  obtain ⟨s1, h1, hr1, hM⟩ := h.dropKey hn hid s.root
  have h1' : s.removeKey v.id = (s1, none) := h1
  cases hk : id with
  | none =>
    subst hk
    refine ⟨s1.relabel v.uid none, ?_, by simp only [relabel, hr1], ?_, ?_⟩
    · unfold renameEntity
      rw [h1']
    · show Maps _ (Want (s1.root.map _))
      rw [hr1]
      refine (hM.root _).congr ?_
      intro k i u
      rw [want_relabel h.2 hn]
      constructor
      · exact Or.inl
      · rintro (x | ⟨ht, rfl, -⟩)
        · exact x
        · simp [truthy] at ht
    · show ((s1.root.map _).map _).Nodup
      rw [hr1, relabel_uids]; exact h.2
  | some k =>
    rw [← hk]
    have ht : truthy id = true := by
      have : k ≠ "" := fun e => hid' (by rw [hk, e])
      simp [hk, truthy, this]
    obtain ⟨s2, h2, hr2, hg⟩ := good_setKey_relabel (s1 := s1.relabel v.uid id) h hn ht (hfree ht)
      (by simp only [relabel, hr1]) (hM.root _)
    refine ⟨s2, ?_, ?_, hg⟩
    · unfold renameEntity
      rw [h1']
      simp only [hk]
      rw [← hk]; exact h2
    · rw [hr2]; simp only [relabel, hr1]

theorem good_renameGroup {s : EList} (h : Good s) {n : ℕ} {v : EL} (hn : s.root[n]? = some v) (hid : v.id ≠ some "")
    {id : Option String} (ht : truthy id = true) (hfree : ∀ e ∈ s.root, e.uid ≠ v.uid → e.id ≠ id) :
    ∃ s', s.renameGroup v id = (s', none) ∧
      s'.root = s.root.map (fun e => if e.uid = v.uid then { e with id := id } else e) ∧ Good s' := by
  obtain ⟨s1, h1, hr1, hM⟩ := h.dropKey hn hid (s.root.map fun e => if e.uid = v.uid then { e with id := id } else e)
  obtain ⟨s2, h2, hr2, hg⟩ := good_setKey_relabel (s1 := s1) h hn ht hfree hr1 hM
  refine ⟨s2, ?_, by rw [hr2, hr1], hg⟩
  unfold renameGroup
  have : (s.relabel v.uid id).removeKey v.id = (s1, none) := h1
  rw [this]
  exact h2

/-- The first loop of slice deletion. -/
theorem removeKeys_maps {s : EList} (l : List EL) (hinjw : Maps s (Want l))
    (a : ℕ) (n : ℕ) (hle : a + n ≤ l.length) :
    ∃ s', s.removeKeys ((List.range n).map fun (j : ℕ) => ((a + j : ℕ) : Int)) = (s', none) ∧ s'.root = s.root ∧
      Maps s' (fun k i u => Want l k i u ∧ ¬ ((a : Int) ≤ i ∧ i < a + n)) := by
  -- generalise to a state from which the keys below `a + m` are already gone
  have gen : ∀ (n m : ℕ) (t : EList), a + m + n ≤ l.length → t.root = s.root →
      Maps t (fun k i u => Want l k i u ∧ ¬ ((a : Int) ≤ i ∧ i < a + m)) →
      ∃ s', t.removeKeys ((List.range n).map fun (j : ℕ) => ((a + m + j : ℕ) : Int)) = (s', none) ∧ s'.root = s.root ∧
        Maps s' (fun k i u => Want l k i u ∧ ¬ ((a : Int) ≤ i ∧ i < a + (m + n : ℕ))) := by
    intro n
    induction n with
    | zero => exact fun m t _ hr hM => ⟨t, rfl, hr, hM⟩
    | succ n ih =>
      intro m t hlen hr hM
      have hlt : a + m < l.length := by omega
      obtain ⟨e, he⟩ : ∃ e, l[a + m]? = some e := ⟨_, List.getElem?_eq_getElem hlt⟩
      have step : ∃ t', t.removeKey (t.idxToKey.get? ((a + m : ℕ) : Int)).join = (t', none) ∧ t'.root = t.root ∧
          Maps t' (fun k i u => Want l k i u ∧ ¬ ((a : Int) ≤ i ∧ i < a + (m + 1 : ℕ))) := by
        by_cases ht : truthy e.id = true
        · have hw : Want l e.id ((a + m : ℕ) : Int) e.uid := ⟨ht, a + m, e, rfl, he, rfl, rfl⟩
          have hk : t.idxToKey.get? ((a + m : ℕ) : Int) = some e.id :=
            (hM.ik _ _).2 ⟨e.uid, hw, by push_cast; omega⟩
          rw [hk]
          obtain ⟨t', h1, h2, h3⟩ := hM.removeKey (k := e.id) (truthy_ne_none ht) ⟨hw, by push_cast; omega⟩
          refine ⟨t', h1, h2, h3.congr ?_⟩
          intro k i u
          constructor
          · rintro ⟨⟨x, hr⟩, hne⟩
            refine ⟨x, fun hc => ?_⟩
            have : i = ((a + m : ℕ) : Int) := by push_cast at hc ⊢; omega
            subst this
            exact hne (hinjw.inj _ _ _ _ _ x hw)
          · rintro ⟨x, hr⟩
            refine ⟨⟨x, by push_cast at hr ⊢; omega⟩, ?_⟩
            rintro rfl
            have := (hinjw.fn _ _ _ _ _ x hw).1
            subst this
            push_cast at hr
            omega
        · have hno : ∀ k u, ¬ Want l k ((a + m : ℕ) : Int) u := by
            rintro k u ⟨htk, m', e', hm, hme, hk, -⟩
            have : a + m = m' := by exact_mod_cast hm
            subst this
            rw [he] at hme
            simp only [Option.some.injEq] at hme
            subst hme
            rw [hk] at ht
            exact ht htk
          have hk : t.idxToKey.get? ((a + m : ℕ) : Int) = none := by
            cases hc : t.idxToKey.get? ((a + m : ℕ) : Int) with
            | none => rfl
            | some k =>
              obtain ⟨u, x, -⟩ := (hM.ik _ _).1 hc
              exact absurd x (hno k u)
          rw [hk]
          refine ⟨t, rfl, rfl, hM.congr ?_⟩
          intro k i u
          refine and_congr_right fun x => not_congr ?_
          have : i ≠ ((a + m : ℕ) : Int) := by rintro rfl; exact hno k u x
          push_cast at this ⊢
          omega
      obtain ⟨t', h1, h2, h3⟩ := step
      obtain ⟨s', h4, h5, h6⟩ := ih (m + 1) t' (by omega) (h2.trans hr) h3
      refine ⟨s', ?_, h5, ?_⟩
      · rw [List.range_succ_eq_map, List.map_cons, List.map_map]
        simp only [removeKeys, Nat.add_zero, h1]
        rw [← h4]
        congr 1
        apply List.map_congr_left
        intro j _
        simp only [Function.comp]
        congr 1
        omega
      · have : m + 1 + n = m + (n + 1) := by omega
        rw [this] at h6; exact h6
  have := gen n 0 s (by omega) rfl (hinjw.congr (by
    intro k i u
    refine ⟨fun x => ⟨x, by push_cast; omega⟩, fun x => x.1⟩))
  simpa using this

/-- The second loop of slice deletion, when every remaining key is below the slice or far enough above it. -/
theorem shifts_maps {s : EList} {P : Option String → Int → Nat → Prop} (h : Maps s P) (a n : ℕ)
    (hfar : ∀ k i u, P k i u → i < a ∨ ((a : Int) + n ≤ i ∧ (a : Int) + 2 * (n - 1) ≤ i)) :
    ∀ m ≤ n, Maps (((List.range m).map fun (j : ℕ) => ((a + j : ℕ) : Int)).foldl (fun s i => s.shift i (-1)) s)
      (fun k i u => ∃ j, P k j u ∧ i = if j ≥ (a : Int) then j - m else j) := by
  intro m
  induction m with
  | zero =>
    intro _
    refine h.congr ?_
    intro k i u
    constructor
    · intro x; exact ⟨i, x, by simp⟩
    · rintro ⟨j, x, e⟩
      simp at e; subst e; exact x
  | succ m ih =>
    intro hm
    rw [List.range_succ, List.map_append, List.foldl_append]
    simp only [List.map_cons, List.map_nil, List.foldl_cons, List.foldl_nil]
    refine ((ih (by omega)).shift ((a + m : ℕ) : Int) (-1) ?_).congr ?_
    · rintro k k' i i' u u' ⟨j, x, e⟩ ⟨j', x', e'⟩ heq
      have h1 := hfar _ _ _ x
      have h2 := hfar _ _ _ x'
      have : j = j' := by
        subst e e'
        push_cast at heq
        split_ifs at heq <;> omega
      subst this
      exact h.inj _ _ _ _ _ x x'
    · intro k i u
      constructor
      · rintro ⟨j, ⟨j0, x, e⟩, e'⟩
        refine ⟨j0, x, ?_⟩
        have h1 := hfar _ _ _ x
        subst e e'
        push_cast
        split_ifs <;> omega
      · rintro ⟨j, x, e⟩
        refine ⟨_, ⟨j, x, rfl⟩, ?_⟩
        have h1 := hfar _ _ _ x
        subst e
        push_cast
        split_ifs <;> omega

theorem foldl_shift_root (is : List Int) (s : EList) : (is.foldl (fun s i => s.shift i (-1)) s).root = s.root := by
  induction is generalizing s with
  | nil => rfl
  | cons i r ih => rw [List.foldl_cons, ih]; rfl

theorem getElem?_cut {α : Type} (l : List α) {a b : ℕ} (hab : a ≤ b) (hb : b ≤ l.length) (m : ℕ) :
    (l.take a ++ l.drop b)[m]? = if m < a then l[m]? else l[m + (b - a)]? := by
  rw [List.getElem?_append, List.length_take, List.getElem?_take, List.getElem?_drop]
  by_cases hm : m < a
  · rw [if_pos (by omega), if_pos hm, if_pos hm]
  · rw [if_neg (by omega), if_neg hm]
    congr 1
    omega

theorem good_delSlice {s : EList} (h : Good s) {a b : ℕ} (hab : a ≤ b) (hb : b ≤ s.root.length)
    (hfar : ∀ m e, b ≤ m → m + 2 < b + (b - a) → s.root[m]? = some e → truthy e.id = false) :
    ∃ s', s.delSlice a b = (s', none) ∧ s'.root = s.root.take a ++ s.root.drop b ∧ Good s' := by
  obtain ⟨s1, h1, hr1, hM1⟩ := removeKeys_maps s.root h.1 a (b - a) (by omega)
  have hP : ∀ k i u, (Want s.root k i u ∧ ¬ ((a : Int) ≤ i ∧ i < a + (b - a : ℕ))) →
      i < a ∨ ((a : Int) + (b - a : ℕ) ≤ i ∧ (a : Int) + 2 * ((b - a : ℕ) - 1) ≤ i) := by
    rintro k i u ⟨⟨ht, m, e, rfl, hm, he, -⟩, hr⟩
    by_cases hc : (m : Int) < a
    · exact Or.inl hc
    · refine Or.inr ⟨by omega, ?_⟩
      by_contra hlt
      have := hfar m e (by omega) (by omega) hm
      rw [he, ht] at this
      simp at this
  have hM2 := shifts_maps hM1 a (b - a) hP (b - a) le_rfl
  set s2 := ((List.range (b - a)).map fun (j : ℕ) => ((a + j : ℕ) : Int)).foldl (fun s i => s.shift i (-1)) s1 with hs2
  have hr2 : s2.root = s.root := by rw [hs2, foldl_shift_root, hr1]
  refine ⟨{ s2 with root := s.root.take a ++ s.root.drop b }, ?_, rfl, ?_, ?_⟩
  · unfold delSlice
    have e : ((List.range (b - a)).map fun (n : ℕ) => ((a : Int) + n)) = (List.range (b - a)).map fun (j : ℕ) => ((a + j : ℕ) : Int) := by
      apply List.map_congr_left; intro j _; push_cast; rfl
    simp only [e, h1, ← hs2, hr2]
  · refine (hM2.root _).congr ?_
    intro k i u
    constructor
    · rintro ⟨j, ⟨⟨ht, m, e, rfl, hm, he, hu⟩, hr⟩, rfl⟩
      by_cases hc : (m : Int) ≥ a
      · rw [if_pos hc]
        refine ⟨ht, m - (b - a), e, by omega, ?_, he, hu⟩
        show (s.root.take a ++ s.root.drop b)[m - (b - a)]? = some e
        rw [getElem?_cut _ hab hb, if_neg (by omega), show m - (b - a) + (b - a) = m by omega]
        exact hm
      · rw [if_neg hc]
        refine ⟨ht, m, e, rfl, ?_, he, hu⟩
        show (s.root.take a ++ s.root.drop b)[m]? = some e
        rw [getElem?_cut _ hab hb, if_pos (by omega)]
        exact hm
    · rintro ⟨ht, m, e, rfl, hm, he, hu⟩
      have hm : (s.root.take a ++ s.root.drop b)[m]? = some e := hm
      rw [getElem?_cut _ hab hb] at hm
      split at hm
      · exact ⟨m, ⟨⟨ht, m, e, rfl, hm, he, hu⟩, by omega⟩, by rw [if_neg (by omega)]⟩
      · refine ⟨(m + (b - a) : ℕ), ⟨⟨ht, m + (b - a), e, rfl, hm, he, hu⟩, by push_cast; omega⟩, ?_⟩
        rw [if_pos (by push_cast; omega)]
        push_cast; omega
  · show ((s.root.take a ++ s.root.drop b).map (·.uid)).Nodup
    refine List.Nodup.sublist (List.Sublist.map _ ?_) h.2
    calc (s.root.take a ++ s.root.drop b).Sublist (s.root.take a ++ s.root.drop a) :=
          List.Sublist.append_left (by
            rw [show b = a + (b - a) by omega, ← List.drop_drop]; exact List.drop_sublist _ _) _
      _ = s.root := List.take_append_drop a s.root

end EList
end Draftsman
