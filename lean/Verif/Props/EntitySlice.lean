import Verif.Model.EntitySlice
import Verif.Props.EntityList
import Verif.Props.TileList
/-
C17, C68: deletion of any slice, with any step.
-/
namespace Draftsman
open EList

/-- Specification: a bound of a slice, counted from the end if negative. -/
def fromEnd (n : ℕ) (x : Int) : Int := if x < 0 then x + n else x

/-- Specification: position `p` is selected by the slice `a:b:c` of `n` elements, the step `c` not being zero. -/
def Picked (n : ℕ) (a b : Option Int) (c : Int) (p : ℕ) : Prop :=
  p < n ∧
  (0 < c → (∀ y ∈ b, (p : Int) < fromEnd n y) ∧
    match a with
    | none => c ∣ p
    | some x => fromEnd n x ≤ p ∧ c ∣ p - max 0 (fromEnd n x)) ∧
  (c < 0 → (∀ y ∈ b, fromEnd n y < p) ∧
    match a with
    | none => c ∣ (n : Int) - 1 - p
    | some x => (p : Int) ≤ fromEnd n x ∧ c ∣ min ((n : Int) - 1) (fromEnd n x) - p)

theorem mem_up (start stop c p : Int) (hc : 0 < c) :
    p ∈ ((List.range ((stop - start + c - 1) / c).toNat).map fun (k : ℕ) => start + k * c) ↔ start ≤ p ∧ p < stop ∧ c ∣ p - start := by
  simp only [List.mem_map, List.mem_range]
  constructor
  · rintro ⟨k, hk, rfl⟩
    have h1 : (k : Int) + 1 ≤ (stop - start + c - 1) / c := by omega
    rw [Int.le_ediv_iff_mul_le hc] at h1
    have h2 : 0 ≤ (k : Int) * c := Int.mul_nonneg (by omega) (by omega)
    have h3 : ((k : Int) + 1) * c = k * c + c := by rw [add_mul, one_mul]
    refine ⟨by omega, by omega, ⟨k, by rw [mul_comm]; omega⟩⟩
  · rintro ⟨h1, h2, q, hq⟩
    have hq0 : 0 ≤ q := by
      by_contra hneg
      have : c * q < 0 := Int.mul_neg_of_pos_of_neg hc (by omega)
      omega
    obtain ⟨k, rfl⟩ := Int.eq_ofNat_of_zero_le hq0
    refine ⟨k, ?_, by rw [mul_comm]; omega⟩
    have h3 : (k : Int) + 1 ≤ (stop - start + c - 1) / c := by
      rw [Int.le_ediv_iff_mul_le hc, add_mul, one_mul, mul_comm]
      omega
    omega

/-- The positions of the model are those the slice selects. -/
theorem mem_sliceRange (n : ℕ) (a b : Option Int) (c : Int) (hc : c ≠ 0) (p : ℕ) :
    (p : Int) ∈ TileList.sliceRange n a b c ↔ Picked n a b c p := by
  unfold TileList.sliceRange Picked
  by_cases h : 0 < c
  · rw [if_pos h, mem_up _ _ _ _ h]
    have hn : ¬ c < 0 := by omega
    simp only [h, hn, forall_true_left, false_imp_iff, and_true]
    cases a with
    | none =>
      cases b with
      | none => simp [TileList.clampBound]
      | some y =>
        simp only [TileList.clampBound, fromEnd, Option.mem_def, Option.some.injEq, forall_eq', sub_zero]
        split <;> omega
    | some x =>
      have e : TileList.clampBound n 0 n 0 (some x) = min (n : Int) (max 0 (fromEnd n x)) := by
        simp only [TileList.clampBound, fromEnd]
        split <;> omega
      rw [e]
      cases b with
      | none =>
        simp only [TileList.clampBound, Option.mem_def, reduceCtorEq, false_imp_iff, implies_true, true_and]
        by_cases hp : p < n
        · by_cases hs : fromEnd n x ≤ p
          · rw [min_eq_right (by omega)]
            constructor
            · rintro ⟨-, -, h⟩; exact ⟨hp, hs, h⟩
            · rintro ⟨-, -, h⟩; exact ⟨by omega, by omega, h⟩
          · constructor
            · rintro ⟨h, -, -⟩; omega
            · rintro ⟨-, h, -⟩; omega
        · constructor
          · rintro ⟨-, h, -⟩; omega
          · rintro ⟨h, -⟩; exact absurd h hp
      | some y =>
        have e2 : TileList.clampBound n 0 n n (some y) = min (n : Int) (max 0 (fromEnd n y)) := by
          simp only [TileList.clampBound, fromEnd]
          split <;> omega
        rw [e2]
        simp only [Option.mem_def, Option.some.injEq, forall_eq']
        by_cases hp : p < n
        · by_cases hs : fromEnd n x ≤ p
          · rw [min_eq_right (a := (n : Int)) (b := max 0 (fromEnd n x)) (by omega)]
            constructor
            · rintro ⟨-, h', h⟩; exact ⟨hp, by omega, hs, h⟩
            · rintro ⟨-, h', -, h⟩; exact ⟨by omega, by omega, h⟩
          · constructor
            · rintro ⟨h, -, -⟩; omega
            · rintro ⟨-, -, h, -⟩; omega
        · constructor
          · rintro ⟨-, h, -⟩; omega
          · rintro ⟨h, -⟩; exact absurd h hp
  · have hlt : c < 0 := by omega
    have hpos : 0 < -c := by omega
    rw [if_neg h]
    have down : ∀ start stop : Int,
        ((p : Int) ∈ ((List.range ((start - stop + (-c) - 1) / (-c)).toNat).map fun (k : ℕ) => start + k * c) ↔
          (p : Int) ≤ start ∧ stop < p ∧ c ∣ start - p) := by
      intro start stop
      have := mem_up (-start) (-stop) (-c) (-p) hpos
      rw [show -stop - -start + -c - 1 = start - stop + -c - 1 by omega] at this
      have e : ∀ m : ℕ, (-(p : Int) ∈ (List.range m).map fun (k : ℕ) => -start + k * -c) ↔
          ((p : Int) ∈ (List.range m).map fun (k : ℕ) => start + k * c) := by
        intro m
        simp only [List.mem_map]
        refine exists_congr fun k => and_congr_right fun _ => ?_
        rw [mul_neg]
        constructor <;> intro h <;> omega
      rw [← e, this]
      have e2 : (-c ∣ -(p : Int) - -start) ↔ c ∣ start - p := by
        rw [Int.neg_dvd, show -(p : Int) - -start = start - p by omega]
      rw [e2]
      constructor
      · rintro ⟨h1, h2, h3⟩; exact ⟨by omega, by omega, h3⟩
      · rintro ⟨h1, h2, h3⟩; exact ⟨by omega, by omega, h3⟩
    rw [down]
    simp only [h, hlt, forall_true_left, false_imp_iff, true_and]
    have e2 : ∀ y, TileList.clampBound n (-1) (n - 1) (-1) (some y) = min ((n : Int) - 1) (max (-1) (fromEnd n y)) := by
      intro y
      simp only [TileList.clampBound, fromEnd]
      split <;> omega
    have e1 : ∀ x, TileList.clampBound n (-1) (n - 1) (n - 1) (some x) = max (-1) (min ((n : Int) - 1) (fromEnd n x)) := by
      intro x
      simp only [TileList.clampBound, fromEnd]
      split <;> omega
    cases a with
    | none =>
      cases b with
      | none =>
        simp only [TileList.clampBound, Option.mem_def, reduceCtorEq, false_imp_iff, implies_true, true_and]
        constructor
        · rintro ⟨h1, h2, h3⟩; exact ⟨by omega, h3⟩
        · rintro ⟨h1, h3⟩; exact ⟨by omega, by omega, h3⟩
      | some y =>
        rw [e2]
        simp only [TileList.clampBound, Option.mem_def, Option.some.injEq, forall_eq']
        constructor
        · rintro ⟨h1, h2, h3⟩; exact ⟨by omega, by omega, h3⟩
        · rintro ⟨h1, h2, h3⟩; exact ⟨by omega, by omega, h3⟩
    | some x =>
      rw [e1]
      by_cases hx : (p : Int) ≤ min ((n : Int) - 1) (fromEnd n x)
      · rw [max_eq_right (by omega)]
        cases b with
        | none =>
          simp only [TileList.clampBound, Option.mem_def, reduceCtorEq, false_imp_iff, implies_true, true_and]
          constructor
          · rintro ⟨h1, h2, h3⟩; exact ⟨by omega, by omega, h3⟩
          · rintro ⟨h1, h2, h3⟩; exact ⟨by omega, by omega, h3⟩
        | some y =>
          rw [e2]
          simp only [Option.mem_def, Option.some.injEq, forall_eq']
          constructor
          · rintro ⟨h1, h2, h3⟩; exact ⟨by omega, by omega, by omega, h3⟩
          · rintro ⟨h1, h2, h4, h3⟩; exact ⟨by omega, by omega, h3⟩
      · constructor
        · rintro ⟨h1, -, -⟩; omega
        · rintro ⟨h1, -, h2, -⟩; omega

example : Picked 7 (some (-2)) (some 0) (-2) 5 ∧ Picked 7 (some (-2)) (some 0) (-2) 1 ∧ ¬ Picked 7 (some (-2)) (some 0) (-2) 4 := by
  refine ⟨?_, ?_, ?_⟩ <;> rw [← mem_sliceRange _ _ _ _ (by decide)] <;> decide

open Classical in
/-- Specification: what is left after the deletion of a slice. -/
noncomputable def kept {α : Type} (l : List α) (a b : Option Int) (c : Int) : List α :=
  (l.zipIdx.filter fun p => ¬ Picked l.length a b c p.2).map (·.1)

theorem dropAt_eq_kept {α : Type} (l : List α) (a b : Option Int) (c : Int) (hc : c ≠ 0) :
    TileList.dropAt (TileList.sliceRange l.length a b c) l = kept l a b c := by
  unfold TileList.dropAt kept
  congr 1
  apply List.filter_congr
  intro p _
  exact decide_eq_decide.2 (not_congr (mem_sliceRange _ _ _ _ hc _))

/-- C68: deleting any slice of a tile list leaves the tiles it does not select, in order; the step zero is refused without effect. -/
theorem C68_slice (s : TileList.TL) (a b c : Option Int) :
    (c = some 0 → TileList.delSlice s a b c = (s, some .valueError)) ∧
    (c ≠ some 0 → (TileList.delSlice s a b c).2 = none ∧ (TileList.delSlice s a b c).1.root = kept s.root a b (c.getD 1)) := by
  unfold TileList.delSlice
  constructor
  · rintro rfl; simp
  · intro hc
    have h0 : c.getD 1 ≠ 0 := by
      cases c with
      | none => decide
      | some c => simpa using hc
    simp only [h0, if_false]
    exact ⟨trivial, dropAt_eq_kept _ _ _ _ h0⟩

namespace EList

theorem removeKeys_sel {s : EList} (l : List EL) (hw : Maps s (Want l)) (sel : List Int) (hb : ∀ i ∈ sel, 0 ≤ i ∧ i < l.length) :
    ∃ s', s.removeKeys sel = (s', none) ∧ s'.root = s.root ∧ Maps s' (fun k i u => Want l k i u ∧ i ∉ sel) := by
  have gen : ∀ (sel : List Int) (R : Int → Prop) (t : EList), (∀ i ∈ sel, 0 ≤ i ∧ i < l.length) → t.root = s.root →
      Maps t (fun k i u => Want l k i u ∧ ¬ R i) →
      ∃ s', t.removeKeys sel = (s', none) ∧ s'.root = s.root ∧ Maps s' (fun k i u => Want l k i u ∧ ¬ (R i ∨ i ∈ sel)) := by
    intro sel
    induction sel with
    | nil => exact fun R t _ hr hM => ⟨t, rfl, hr, hM.congr (by simp)⟩
    | cons i r ih =>
      intro R t hb hr hM
      have hfin : ∀ t', t'.root = t.root → t.removeKey (t.idxToKey.get? i).join = (t', none) →
          Maps t' (fun k j u => Want l k j u ∧ ¬ (R j ∨ j = i)) →
          ∃ s', t.removeKeys (i :: r) = (s', none) ∧ s'.root = s.root ∧ Maps s' (fun k j u => Want l k j u ∧ ¬ (R j ∨ j ∈ i :: r)) := by
        intro t' h2 h1 h3
        obtain ⟨s', h4, h5, h6⟩ := ih (fun j => R j ∨ j = i) t' (fun j hj => hb j (List.mem_cons_of_mem _ hj)) (h2.trans hr) h3
        refine ⟨s', ?_, h5, h6.congr ?_⟩
        · simp only [removeKeys, h1]; exact h4
        · intro k j u
          simp only [List.mem_cons, or_assoc]
      cases hk : t.idxToKey.get? i with
      | none =>
        refine hfin t rfl (by rw [hk]; rfl) (hM.congr ?_)
        intro k j u
        refine and_congr_right fun x => not_congr ?_
        constructor
        · exact .inl
        · rintro (h | rfl)
          · exact h
          · by_contra hR
            rw [(hM.ik _ _).2 ⟨u, x, hR⟩] at hk
            simp at hk
      | some k =>
        obtain ⟨u, x, hR⟩ := (hM.ik _ _).1 hk
        obtain ⟨t', h1, h2, h3⟩ := hM.removeKey (truthy_ne_none x.1) ⟨x, hR⟩
        refine hfin t' h2 (by rw [hk]; exact h1) (h3.congr ?_)
        intro k' j u'
        constructor
        · rintro ⟨⟨y, hy⟩, hne⟩
          refine ⟨y, ?_⟩
          rintro (h | rfl)
          · exact hy h
          · exact hne (hw.inj _ _ _ _ _ y x)
        · rintro ⟨y, hy⟩
          refine ⟨⟨y, fun h => hy (.inl h)⟩, ?_⟩
          rintro rfl
          exact hy (.inr (hw.fn _ _ _ _ _ y x).1)
  obtain ⟨s', h1, h2, h3⟩ := gen sel (fun _ => False) s hb rfl (hw.congr (by simp))
  exact ⟨s', h1, h2, h3.congr (by simp)⟩

theorem foldl_shift (is : List Int) (d : Int) (s : EList) :
    (is.foldl (fun s i => s.shift i d) s).root = s.root ∧ (is.foldl (fun s i => s.shift i d) s).keyMap = s.keyMap := by
  induction is generalizing s with
  | nil => exact ⟨rfl, rfl⟩
  | cons i r ih =>
    rw [List.foldl_cons]
    exact ⟨(ih _).1.trans rfl, (ih _).2.trans rfl⟩

theorem foldl_shift_maps {P : Option String → Int → Nat → Prop} (is : List Int) (d : Int) (s : EList) (h : Maps s P)
    (hb : ∀ i ∈ is, ∀ k j u, P k j u → j < i) : Maps (is.foldl (fun s i => s.shift i d) s) P := by
  induction is generalizing s with
  | nil => exact h
  | cons i r ih =>
    rw [List.foldl_cons]
    refine ih _ ?_ fun j hj => hb j (List.mem_cons_of_mem _ hj)
    have hlt := hb i (List.mem_cons_self ..)
    refine (h.shift i d ?_).congr ?_
    · intro k k' j j' u u' x x' he
      rw [if_neg (by have := hlt _ _ _ x; omega), if_neg (by have := hlt _ _ _ x'; omega)] at he
      subst he
      exact h.inj _ _ _ _ _ x x'
    · intro k j u
      constructor
      · rintro ⟨j', x, e⟩
        rw [if_neg (by have := hlt _ _ _ x; omega)] at e
        exact e ▸ x
      · intro x
        exact ⟨j, x, by rw [if_neg (by have := hlt _ _ _ x; omega)]⟩

/-- What every deletion of a slice does. -/
theorem delStep_eq {s : EList} (h : Good s) (a b c : Option Int) (hc : c ≠ some 0) :
    ∃ s1 : EList, Maps s1 (fun k i u => Want s.root k i u ∧ i ∉ TileList.sliceRange s.root.length a b (c.getD 1)) ∧ s1.root = s.root ∧
      s.delStep a b c = ({ (TileList.sliceRange s.root.length a b (c.getD 1)).foldl (fun s i => s.shift i (-(c.getD 1))) s1 with
        root := kept s.root a b (c.getD 1) }, none) := by
  have h0 : c.getD 1 ≠ 0 := by
    cases c with
    | none => decide
    | some c => simpa using hc
  obtain ⟨s1, h1, h2, h3⟩ := removeKeys_sel s.root h.1 (TileList.sliceRange s.root.length a b (c.getD 1))
    (TileList.sliceRange_spec _ _ _ _ h0).2
  refine ⟨s1, h3, h2, ?_⟩
  simp only [delStep, h0, if_false, h1]
  rw [(foldl_shift _ _ s1).1, h2, dropAt_eq_kept _ _ _ _ h0]

theorem mem_kept {α : Type} (l : List α) (a b : Option Int) (c : Int) (e : α) :
    e ∈ kept l a b c ↔ ∃ n, l[n]? = some e ∧ ¬ Picked l.length a b c n := by
  unfold kept
  simp only [List.mem_map, List.mem_filter, decide_eq_true_eq, Prod.exists, exists_and_right, exists_eq_right]
  constructor
  · rintro ⟨n, hm, hp⟩
    exact ⟨n, by simpa [List.mem_zipIdx_iff_getElem?] using hm, hp⟩
  · rintro ⟨n, hm, hp⟩
    exact ⟨n, by simpa [List.mem_zipIdx_iff_getElem?] using hm, hp⟩

open Classical in
theorem kept_split {α : Type} (l : List α) (a b : Option Int) (c : Int) (a0 : ℕ) (h : ∀ m < a0, ¬ Picked l.length a b c m) :
    ∃ r, kept l a b c = l.take a0 ++ r ∧ (∀ e ∈ r, ∃ n, a0 ≤ n ∧ l[n]? = some e ∧ ¬ Picked l.length a b c n) := by
  refine ⟨(((l.drop a0).zipIdx a0).filter fun p => ¬ Picked l.length a b c p.2).map (·.1), ?_, ?_⟩
  · unfold kept
    by_cases hlen : a0 ≤ l.length
    · have e1 : l.zipIdx = (l.take a0).zipIdx ++ (l.drop a0).zipIdx a0 := by
        have := List.zipIdx_append (xs := l.take a0) (ys := l.drop a0) (k := 0)
        rw [List.take_append_drop, List.length_take, Nat.min_eq_left hlen, Nat.zero_add] at this
        exact this
      rw [e1, List.filter_append, List.map_append]
      congr 1
      rw [List.filter_eq_self.2]
      · simp
      · intro p hp
        have := List.mem_zipIdx hp
        simp only [List.length_take] at this
        exact decide_eq_true (h p.2 (by omega))
    · have e1 : l.take a0 = l := List.take_of_length_le (by omega)
      have e2 : l.drop a0 = [] := List.drop_of_length_le (by omega)
      rw [e1, e2]
      simp only [List.zipIdx_nil, List.filter_nil, List.map_nil, List.append_nil]
      rw [List.filter_eq_self.2]
      · simp
      · intro p hp
        have := List.mem_zipIdx hp
        exact decide_eq_true (h p.2 (by omega))
  · intro e he
    simp only [List.mem_map, List.mem_filter, decide_eq_true_eq, Prod.exists, exists_and_right, exists_eq_right] at he
    obtain ⟨n, hm, hp⟩ := he
    rw [List.mem_zipIdx_iff_le_and_getElem?_sub] at hm
    refine ⟨n, hm.1, ?_, hp⟩
    have := hm.2
    rw [List.getElem?_drop] at this
    rwa [show a0 + (n - a0) = n by omega] at this

/-- Deletion of a slice behind all members with an id that are left. -/
theorem good_delStep {s : EList} (h : Good s) (a b c : Option Int) (hc : c ≠ some 0)
    (hb : ∀ n m e, s.root[n]? = some e → truthy e.id = true → ¬ Picked s.root.length a b (c.getD 1) n →
      Picked s.root.length a b (c.getD 1) m → n < m) :
    ∃ s', s.delStep a b c = (s', none) ∧ s'.root = kept s.root a b (c.getD 1) ∧ Good s' := by
  have h0 : c.getD 1 ≠ 0 := by
    cases c with
    | none => decide
    | some c => simpa using hc
  obtain ⟨s1, hM, hr, he⟩ := delStep_eq h a b c hc
  refine ⟨_, he, rfl, ?_, ?_⟩
  · have hM2 := foldl_shift_maps (TileList.sliceRange s.root.length a b (c.getD 1)) (-(c.getD 1)) s1 hM (by
      rintro i hi k j u ⟨⟨ht, n, e, rfl, hn, hid, -⟩, hsel⟩
      obtain ⟨hi0, -⟩ := (TileList.sliceRange_spec _ _ _ _ h0).2 i hi
      obtain ⟨m, rfl⟩ := Int.eq_ofNat_of_zero_le hi0
      rw [mem_sliceRange _ _ _ _ h0] at hsel
      have := hb n m e hn (hid ▸ ht) hsel ((mem_sliceRange _ _ _ _ h0 m).1 hi)
      omega)
    refine (hM2.root (kept s.root a b (c.getD 1))).congr ?_
    obtain ⟨a0, ha0, hafter⟩ : ∃ a0, (∀ m < a0, ¬ Picked s.root.length a b (c.getD 1) m) ∧
        ∀ n e, s.root[n]? = some e → truthy e.id = true → ¬ Picked s.root.length a b (c.getD 1) n → n < a0 := by
      by_cases hex : ∃ m, Picked s.root.length a b (c.getD 1) m
      · classical
        refine ⟨Nat.find hex, fun m hm => Nat.find_min hex hm, fun n e hn ht hp => hb n _ e hn ht hp (Nat.find_spec hex)⟩
      · refine ⟨s.root.length, fun m _ hm => hex ⟨m, hm⟩, fun n e hn _ _ => (List.getElem?_eq_some_iff.1 hn).1⟩
    obtain ⟨r, hk, hrest⟩ := kept_split s.root a b (c.getD 1) a0 ha0
    intro k i u
    constructor
    · rintro ⟨⟨ht, n, e, rfl, hn, hid, hu⟩, hsel⟩
      rw [mem_sliceRange _ _ _ _ h0] at hsel
      have hlt := hafter n e hn (hid ▸ ht) hsel
      refine ⟨ht, n, e, rfl, ?_, hid, hu⟩
      show (kept s.root a b (c.getD 1))[n]? = some e
      have hl := (List.getElem?_eq_some_iff.1 hn).1
      rw [hk, List.getElem?_append_left (by rw [List.length_take]; omega), List.getElem?_take, if_pos hlt]
      exact hn
    · rintro ⟨ht, n, e, rfl, hn, hid, hu⟩
      have hn : (kept s.root a b (c.getD 1))[n]? = some e := hn
      rw [hk, List.getElem?_append] at hn
      split at hn
      · rename_i hlt
        rw [List.length_take] at hlt
        rw [List.getElem?_take, if_pos (by omega)] at hn
        refine ⟨⟨ht, n, e, rfl, hn, hid, hu⟩, ?_⟩
        rw [mem_sliceRange _ _ _ _ h0]
        exact ha0 n (by omega)
      · obtain ⟨m, hm, hme, hp⟩ := hrest e (List.mem_of_getElem? hn)
        have := hafter m e hme (hid ▸ ht) hp
        omega
  · show ((kept s.root a b (c.getD 1)).map (·.uid)).Nodup
    refine List.Nodup.sublist (List.Sublist.map _ ?_) h.2
    unfold kept
    refine (List.Sublist.map _ List.filter_sublist).trans ?_
    simp

end EList

/-- C17: whatever slice is deleted, with any step, the members not selected are left in order, and looking up an id afterwards finds
exactly the member left that carries it. -/
theorem C17_slice_lookup (ops : List EOp) (hl : EOp.LegalRun EList.empty ops) (a b c : Option Int) (hc : c ≠ some 0) :
    let s := EOp.run EList.empty ops
    let r := s.delStep a b c
    r.2 = none ∧ r.1.root = kept s.root a b (c.getD 1) ∧
      ∀ k u, r.1.getStr k = .ok u ↔ k ≠ "" ∧ ∃ e ∈ r.1.root, e.id = some k ∧ e.uid = u := by
  intro s r
  have hg := EOp.run_good good_empty ops hl
  have h0 : c.getD 1 ≠ 0 := by
    cases c with
    | none => decide
    | some c => simpa using hc
  obtain ⟨s1, hM, hr, he⟩ := delStep_eq hg a b c hc
  have hr' : r = _ := he
  rw [hr']
  refine ⟨rfl, rfl, fun k u => ?_⟩
  rw [getStr_iff]
  show Dict.get? (EList.keyMap _) (some k) = some u ↔ _
  simp only
  rw [(foldl_shift _ _ s1).2, hM.km]
  constructor
  · rintro ⟨i, ⟨ht, n, e, rfl, hn, hid, hu⟩, hsel⟩
    rw [mem_sliceRange _ _ _ _ h0] at hsel
    exact ⟨by simpa [truthy] using ht, e, (mem_kept _ _ _ _ _).2 ⟨n, hn, hsel⟩, hid, hu⟩
  · rintro ⟨hk, e, hm, hid, hu⟩
    obtain ⟨n, hn, hp⟩ := (mem_kept _ _ _ _ _).1 hm
    exact ⟨n, ⟨by simp [truthy, hk], n, e, rfl, hn, hid, hu⟩, by rw [mem_sliceRange _ _ _ _ h0]; exact hp⟩

/-- C17: a slice with the step zero is refused with `ValueError`, without any effect. -/
theorem C17_zero_step (s : EList) (a b : Option Int) : s.delStep a b (some 0) = (s, some .valueError) := by
  simp [delStep]

/-- Calls as in `EOp`, and the deletion of any slice. -/
inductive EOpS where
  | call (op : EOp)
  | slice (a b c : Option Int)

/-- The effect of one call. -/
def EOpS.apply (s : EList) : EOpS → EList × Option PyErr
  | .call op => op.apply s
  | .slice a b c => s.delStep a b c

/-- The calls for which the bookkeeping is right: those of `EOp`, and the deletion of a slice if every member with an id that is left
stands before all that are selected. -/
def EOpS.Legal (s : EList) : EOpS → Prop
  | .call op => op.Legal s
  | .slice a b c => c ≠ some 0 → ∀ n m e, s.root[n]? = some e → e.id ≠ none → e.id ≠ some "" →
      ¬ Picked s.root.length a b (c.getD 1) n → Picked s.root.length a b (c.getD 1) m → n < m

/-- The state after a history; exceptions are caught by the user, who goes on. -/
def EOpS.run (s : EList) : List EOpS → EList
  | [] => s
  | op :: r => EOpS.run (op.apply s).1 r

/-- Every call of the history is legal in the state it meets. -/
def EOpS.LegalRun (s : EList) : List EOpS → Prop
  | [] => True
  | op :: r => op.Legal s ∧ EOpS.LegalRun (op.apply s).1 r

/-- C17: after every history of legal calls, slices with steps among them, the ids name the right members.  Missing for the full property:
the calls excluded by `Legal`, for which it is false. -/
theorem C17_slices_partial (ops : List EOpS) (hl : EOpS.LegalRun EList.empty ops) : (EOpS.run EList.empty ops).Right := by
  have gen : ∀ (ops : List EOpS) (s : EList), Good s → EOpS.LegalRun s ops → Good (EOpS.run s ops) := by
    intro ops
    induction ops with
    | nil => exact fun s h _ => h
    | cons op r ih =>
      intro s h hl
      refine ih _ ?_ hl.2
      cases op with
      | call op => exact (EOp.step h op hl.1).1
      | slice a b c =>
        by_cases hc : c = some 0
        · subst hc
          simpa [EOpS.apply, delStep] using h
        · obtain ⟨s', h1, -, h3⟩ := good_delStep h a b c hc fun n m e hn ht => by
            obtain ⟨h1, h2⟩ := (truthy_iff _).1 ht
            exact hl.1 hc n m e hn h1 h2
          simp only [EOpS.apply, h1]
          exact h3
  exact (gen ops EList.empty good_empty hl).right

/-- Five members, the first with an id, and every second one from the end deleted. -/
def C17_slices_example : List EOpS :=
  [.call (.append ⟨0, some "a", some 0⟩ false), .call (.append ⟨1, none, some 1⟩ false), .call (.append ⟨2, none, some 2⟩ false),
   .call (.append ⟨3, some "b", some 3⟩ false), .slice (some (-1)) (some 0) (some (-2))]

example : EOpS.LegalRun EList.empty C17_slices_example := by
  refine ⟨?_, ?_, ?_, ?_, ?_, trivial⟩
  · intro e he; revert e; decide
  · intro e he; revert e; decide
  · intro e he; revert e; decide
  · intro e he; revert e; decide
  · intro _ n m e hn h1 h2 hp hm
    rw [← mem_sliceRange _ _ _ _ (by decide)] at hp hm
    have hm' : (m : Int) ∈ ([3, 1] : List Int) := hm
    have hp' : (n : Int) ∉ ([3, 1] : List Int) := hp
    have hn' : ([⟨0, some "a", some 0⟩, ⟨1, none, some 1⟩, ⟨2, none, some 2⟩, ⟨3, some "b", some 3⟩] : List EL)[n]? = some e := hn
    match n with
    | 0 =>
      simp at hm'
      omega
    | 1 => simp at hp'
    | 2 => simp at hn'; subst hn'; simp at h1
    | 3 => simp at hp'
    | n + 4 => simp at hn'

example : (EOpS.run EList.empty C17_slices_example).root.map (·.uid) = [0, 2] := by decide

/-- C17 fails for slices with a step: `_shift_key_indices` moves by the step for every member deleted, so that after the deletion of
every second of the first four of five members the id of the last one is recorded at the start, and deleting by that id deletes a member
that carries no id. -/
theorem C17_step_refuted :
    ∃ s : EList, s = EOpS.run EList.empty [.call (.append ⟨0, none, some 0⟩ false), .call (.append ⟨1, none, some 1⟩ false),
        .call (.append ⟨2, none, some 2⟩ false), .call (.append ⟨3, none, some 3⟩ false), .call (.append ⟨4, some "a", some 4⟩ false),
        .slice (some 0) (some 4) (some 2)] ∧
      s.root.map (·.uid) = [1, 3, 4] ∧ s.keyToIdx.get? (some "a") = some 0 ∧ (s.delStr "a").1.root.map (·.uid) = [3, 4] ∧ ¬ s.Right := by
  refine ⟨_, rfl, by decide, by decide, by decide, fun h => ?_⟩
  have := h.haspos 2 ⟨4, some "a", some 4⟩ (by decide) "a" rfl (by decide)
  revert this; decide

end Draftsman
