import Verif.Proof.EntityList
import Verif.Model.EntityMixin
/-
Lemmas for C117: replacement of a member when the value may be listed already.
-/
namespace Draftsman
namespace EList

theorem Maps.key_at {s : EList} (h : Maps s (Want s.root)) {n : ℕ} {e : EL} (hn : s.root[n]? = some e) :
    (s.idxToKey.get? (n : Int)).join = if truthy e.id = true then e.id else none := by
  by_cases ht : truthy e.id = true
  · rw [if_pos ht, (h.ik n e.id).2 ⟨e.uid, ht, n, e, rfl, hn, rfl, rfl⟩]
    rfl
  · rw [if_neg ht]
    cases hc : s.idxToKey.get? (n : Int) with
    | none => rfl
    | some k =>
      obtain ⟨u, htk, m, e', hm, hme, hk, -⟩ := (h.ik n k).1 hc
      have : n = m := by exact_mod_cast hm
      subst this
      rw [hn] at hme
      simp only [Option.some.injEq] at hme
      subst hme
      rw [hk] at ht
      exact absurd htk ht

theorem Maps.idTaken_iff {s : EList} (h : Maps s (Want s.root)) (v : EL) :
    s.idTaken v = true ↔ truthy v.id = true ∧ ∃ e ∈ s.root, e.id = v.id := by
  unfold idTaken
  rw [Bool.and_eq_true, Option.isSome_iff_exists (x := s.keyMap.get? v.id)]
  constructor
  · rintro ⟨-, u, hu⟩
    obtain ⟨i, ht, n, e, -, hn, he, -⟩ := (h.km _ _).1 hu
    exact ⟨ht, e, List.mem_of_getElem? hn, he⟩
  · rintro ⟨ht, e, he, hid⟩
    obtain ⟨n, hn⟩ := List.mem_iff_getElem?.1 he
    refine ⟨?_, e.uid, (h.km _ _).2 ⟨n, ht, n, e, rfl, hn, hid, rfl⟩⟩
    have := truthy_ne_none ht
    exact Option.isSome_iff_ne_none.2 this

/-- Replacement keeps the dictionaries right, also by a value that is listed elsewhere if that has no id. -/
theorem maps_setInt {s : EList} (h : Maps s (Want s.root)) {n : ℕ} {e v : EL} (hn : s.root[n]? = some e)
    (hv : truthy v.id = true → ∀ e ∈ s.root, e.uid ≠ v.uid ∧ e.id ≠ v.id) :
    ∃ s', s.setInt n v = (s', none) ∧ s'.root = s.root.set n v ∧ Maps s' (Want s'.root) := by
  obtain ⟨hlt, hget⟩ := List.getElem?_eq_some_iff.1 hn
  have hfree : s.idTaken v = false := by
    rw [Bool.eq_false_iff]
    intro hc
    obtain ⟨ht, e, he, hid⟩ := (h.idTaken_iff v).1 hc
    exact (hv ht e he).2 hid
  have hgs : ∀ m, (s.root.set n v)[m]? = if n = m then some v else s.root[m]? := by
    intro m
    rw [List.getElem?_set]
    split
    · simp
    · rfl
  have hrem : ∃ s1, (if truthy (if truthy e.id = true then e.id else none) = true then
        ({ s with root := s.root.set n v } : EList).removeKey (if truthy e.id = true then e.id else none)
        else ({ s with root := s.root.set n v }, none)) = (s1, none) ∧ s1.root = s.root.set n v ∧
        Maps s1 (fun k i u => Want s.root k i u ∧ i ≠ n) := by
    by_cases ht : truthy e.id = true
    · rw [if_pos ht, if_pos ht]
      obtain ⟨s1, h1, h2, h3⟩ := (h.root (s.root.set n v)).removeKey (k := e.id) (i := n) (u := e.uid)
        (truthy_ne_none ht) ⟨ht, n, e, rfl, hn, rfl, rfl⟩
      refine ⟨s1, h1, h2, h3.congr ?_⟩
      intro k i u
      refine and_congr_right fun x => not_congr ?_
      constructor
      · rintro rfl
        exact (h.fn _ _ _ _ _ x ⟨ht, n, e, rfl, hn, rfl, rfl⟩).1
      · rintro rfl
        exact h.inj _ _ _ _ _ x ⟨ht, n, e, rfl, hn, rfl, rfl⟩
    · rw [if_neg ht, if_neg (by simp [truthy])]
      refine ⟨_, rfl, rfl, (h.root _).congr ?_⟩
      intro k i u
      refine ⟨fun x => ⟨x, ?_⟩, fun x => x.1⟩
      rintro rfl
      obtain ⟨htk, m, e', hm, hme, hk, -⟩ := x
      have : n = m := by exact_mod_cast hm
      subst this
      rw [hn] at hme
      simp only [Option.some.injEq] at hme
      subst hme
      rw [hk] at ht
      exact ht htk
  obtain ⟨s1, h1, hr1, hM⟩ := hrem
  have hwant : ∀ k i u, Want (s.root.set n v) k i u ↔
      (Want s.root k i u ∧ i ≠ n) ∨ (truthy k = true ∧ k = v.id ∧ i = n ∧ u = v.uid) := by
    intro k i u
    constructor
    · rintro ⟨ht, m, e', rfl, hm, he, hu⟩
      rw [hgs] at hm
      split at hm
      · simp only [Option.some.injEq] at hm
        subst hm
        exact Or.inr ⟨ht, he.symm, by omega, hu.symm⟩
      · exact Or.inl ⟨⟨ht, m, e', rfl, hm, he, hu⟩, by omega⟩
    · rintro (⟨⟨ht, m, e', rfl, hm, he, hu⟩, hne⟩ | ⟨ht, hk, rfl, rfl⟩)
      · refine ⟨ht, m, e', rfl, ?_, he, hu⟩
        rw [hgs, if_neg (by omega)]; exact hm
      · refine ⟨ht, n, v, rfl, ?_, hk.symm, rfl⟩
        rw [hgs, if_pos rfl]
  unfold setInt
  rw [h.key_at hn]
  by_cases ht : truthy v.id = true
  · have hfind : s1.root.findIdx? (fun e => e.eqv v) = some n := by
      rw [hr1]
      refine findIdx_self (by rw [hgs, if_pos rfl]) ?_
      intro m e hm hmn
      rw [hgs, if_neg (Ne.symm hmn)] at hm
      exact hv ht e (List.mem_of_getElem? hm)
    obtain ⟨s2, h2, hr2, hM2⟩ := hM.setKey (k := v.id) (v := v) (n := n)
      (by rintro i u ⟨⟨-, m, e, -, hm, he, -⟩, -⟩; exact (hv ht e (List.mem_of_getElem? hm)).2 he) hfind
      (by rintro k' u ⟨-, x⟩; exact x rfl)
    refine ⟨s2, ?_, by rw [hr2, hr1], ?_⟩
    · unfold setAt
      rw [if_neg (by simp [hfree]), pyIndex_nat hlt]
      simp only [h1]
      rw [if_pos ht]
      exact h2
    · rw [hr2, hr1]
      refine hM2.congr ?_
      intro k i u
      rw [hwant]
      constructor
      · rintro (x | ⟨rfl, rfl, rfl⟩)
        · exact Or.inl x
        · exact Or.inr ⟨ht, rfl, rfl, rfl⟩
      · rintro (x | ⟨-, rfl, rfl, rfl⟩)
        · exact Or.inl x
        · exact Or.inr ⟨rfl, rfl, rfl⟩
  · refine ⟨s1, ?_, hr1, ?_⟩
    · unfold setAt
      rw [if_neg (by simp [hfree]), pyIndex_nat hlt]
      simp only [h1]
      rw [if_neg ht]
    · rw [hr1]
      refine hM.congr ?_
      intro k i u
      rw [hwant]
      constructor
      · exact Or.inl
      · rintro (x | ⟨ht', rfl, -⟩)
        · exact x
        · exact absurd ht' ht

theorem getInt_at {s : EList} {n : ℕ} {e : EL} (h : s.root[n]? = some e) : s.getInt n = .ok e := by
  obtain ⟨a, ha⟩ := List.getElem?_eq_some_iff.1 h
  unfold getInt
  rw [pyIndex_nat a]
  simp only [h]

/-- Two members are exchanged if the later has no id. -/
theorem good_swap {s : EList} (h : Good s) {i j : ℕ} {a b : EL} (hij : i ≠ j) (hi : s.root[i]? = some a) (hj : s.root[j]? = some b)
    (hb : truthy b.id = false) :
    ∃ s', s.swap i j = (s', none) ∧ s'.root = (s.root.set i b).set j a ∧ Good s' := by
  obtain ⟨hil, hia⟩ := List.getElem?_eq_some_iff.1 hi
  obtain ⟨hjl, hjb⟩ := List.getElem?_eq_some_iff.1 hj
  obtain ⟨s1, h1, hr1, hm1⟩ := maps_setInt h.1 (v := b) hi (by rw [hb]; intro hc; cases hc)
  have hj1 : s1.root[j]? = some b := by
    rw [hr1, List.getElem?_set, if_neg hij]; exact hj
  obtain ⟨s2, h2, hr2, hm2⟩ := maps_setInt hm1 (v := a) hj1 (by
    intro ht e he
    rw [hr1] at he
    obtain ⟨m, hm⟩ := List.mem_iff_getElem?.1 he
    rw [List.getElem?_set] at hm
    by_cases hc : i = m
    · rw [if_pos hc, if_pos (by omega)] at hm
      simp only [Option.some.injEq] at hm
      subst hm
      exact ⟨fun hu => hij (uid_inj h.2 hi hj hu.symm), fun hid => by rw [hid, ht] at hb; cases hb⟩
    · rw [if_neg hc] at hm
      exact ⟨fun hu => hc (uid_inj h.2 hi hm hu.symm), fun hid => hc (h.id_inj hi hm ht hid.symm)⟩)
  refine ⟨s2, ?_, by rw [hr2, hr1], hm2, ?_⟩
  · unfold swap
    simp only [getInt_at hi, getInt_at hj, h1]
    exact h2
  · rw [hr2, hr1, ← hia, ← hjb]
    exact ((List.set_set_perm hil hjl).map _).nodup_iff.2 h.2

/-- Two members are not exchanged if the later has an id. -/
theorem swap_taken {s : EList} (h : Good s) {i j : ℕ} {a b : EL} (hi : s.root[i]? = some a) (hj : s.root[j]? = some b)
    (hb : truthy b.id = true) : s.swap i j = (s, some .duplicateId) := by
  have : s.idTaken b = true := (idTaken_iff h b).2 ⟨hb, b, List.mem_of_getElem? hj, rfl⟩
  unfold swap
  simp only [getInt_at hi, getInt_at hj, setInt, setAt, this, if_true]

/-- The loop of `reverse` when none of the members it takes from the back has an id. -/
theorem reverseFrom_ok (k : ℕ) : ∀ (s : EList) (i : ℕ), Good s → i + k = s.root.length / 2 →
    (∀ q e, i ≤ q → q < i + k → s.root[s.root.length - q - 1]? = some e → truthy e.id = false) →
    ∃ s', reverseFrom s.root.length i k s = (s', none) ∧ Good s' ∧
      ∀ p, s'.root[p]? = if i ≤ p ∧ p < s.root.length - i then s.root[s.root.length - p - 1]? else s.root[p]? := by
  induction k with
  | zero =>
    intro s i h hik hq
    refine ⟨s, rfl, h, fun p => ?_⟩
    split
    · rename_i hc
      rw [show s.root.length - p - 1 = p by omega]
    · rfl
  | succ k ih =>
    intro s i h hik hq
    obtain ⟨a, ha⟩ := List.getElem?_eq_some_iff.1 (List.getElem?_eq_getElem (l := s.root) (i := i) (by omega))
    obtain ⟨b, hb⟩ := List.getElem?_eq_some_iff.1 (List.getElem?_eq_getElem (l := s.root) (i := s.root.length - i - 1) (by omega))
    have hi := List.getElem?_eq_getElem (l := s.root) (i := i) a
    have hj := List.getElem?_eq_getElem (l := s.root) (i := s.root.length - i - 1) b
    obtain ⟨s1, h1, hr1, hg1⟩ := good_swap h (by omega) hi hj (hq i _ (le_refl _) (by omega) hj)
    have hlen : s1.root.length = s.root.length := by rw [hr1]; simp
    have hget : ∀ p, s1.root[p]? = if p = i then s.root[s.root.length - i - 1]? else
        if p = s.root.length - i - 1 then s.root[i]? else s.root[p]? := by
      intro p
      rw [hr1, List.getElem?_set, List.getElem?_set, hi, hj]
      by_cases hc : s.root.length - i - 1 = p
      · rw [if_pos hc, if_pos (by simp; omega), if_neg (by omega), if_pos hc.symm]
      · rw [if_neg hc]
        by_cases hc2 : i = p
        · rw [if_pos hc2, if_pos (by omega), if_pos hc2.symm]
        · rw [if_neg hc2, if_neg (fun x => hc2 x.symm), if_neg (fun x => hc x.symm)]
    obtain ⟨s2, h2, hg2, hr2⟩ := ih s1 (i + 1) hg1 (by omega) (by
      intro q e h3 h4 h5
      rw [hlen, hget, if_neg (by omega), if_neg (by omega)] at h5
      exact hq q e (by omega) (by omega) h5)
    refine ⟨s2, ?_, hg2, fun p => ?_⟩
    · simp only [reverseFrom, h1]
      rw [← hlen]; exact h2
    · rw [hr2, hlen, hget, hget]
      by_cases hp : p = i
      · subst hp
        rw [if_neg (by omega), if_pos rfl, if_pos (by omega)]
      · by_cases hp2 : p = s.root.length - i - 1
        · subst hp2
          rw [if_neg (by omega), if_neg hp, if_pos rfl, if_pos (by omega), show s.root.length - (s.root.length - i - 1) - 1 = i by omega]
        · by_cases hp3 : i + 1 ≤ p ∧ p < s.root.length - (i + 1)
          · rw [if_pos hp3, if_neg (by omega), if_neg (by omega), if_pos (by omega)]
          · rw [if_neg hp3, if_neg hp, if_neg hp2, if_neg (by omega)]

/-- The loop of `reverse` up to the first member it takes from the back that has an id. -/
theorem reverseFrom_taken (k : ℕ) : ∀ (s : EList) (i t : ℕ) (d : EL), Good s → i + k = s.root.length / 2 → i ≤ t → t < i + k →
    s.root[s.root.length - t - 1]? = some d → truthy d.id = true →
    (∀ q e, i ≤ q → q < t → s.root[s.root.length - q - 1]? = some e → truthy e.id = false) →
    ∃ s', reverseFrom s.root.length i k s = (s', some .duplicateId) ∧ Good s' ∧
      ∀ p, s'.root[p]? = if (i ≤ p ∧ p < t) ∨ (s.root.length - t ≤ p ∧ p < s.root.length - i) then s.root[s.root.length - p - 1]?
        else s.root[p]? := by
  induction k with
  | zero => intro s i t d h hik h1 h2; omega
  | succ k ih =>
    intro s i t d h hik hit htk hd htd hq
    have hi := List.getElem?_eq_getElem (l := s.root) (i := i) (by omega)
    have hj := List.getElem?_eq_getElem (l := s.root) (i := s.root.length - i - 1) (by omega)
    by_cases hti : t = i
    · subst hti
      refine ⟨s, ?_, h, fun p => ?_⟩
      · simp only [reverseFrom, swap_taken h hi hd htd]
      · rw [if_neg (by omega)]
    obtain ⟨s1, h1, hr1, hg1⟩ := good_swap h (by omega) hi hj (hq i _ (le_refl _) (by omega) hj)
    have hlen : s1.root.length = s.root.length := by rw [hr1]; simp
    have hget : ∀ p, s1.root[p]? = if p = i then s.root[s.root.length - i - 1]? else
        if p = s.root.length - i - 1 then s.root[i]? else s.root[p]? := by
      intro p
      rw [hr1, List.getElem?_set, List.getElem?_set, hi, hj]
      by_cases hc : s.root.length - i - 1 = p
      · rw [if_pos hc, if_pos (by simp; omega), if_neg (by omega), if_pos hc.symm]
      · rw [if_neg hc]
        by_cases hc2 : i = p
        · rw [if_pos hc2, if_pos (by omega), if_pos hc2.symm]
        · rw [if_neg hc2, if_neg (fun x => hc2 x.symm), if_neg (fun x => hc x.symm)]
    obtain ⟨s2, h2, hg2, hr2⟩ := ih s1 (i + 1) t d hg1 (by omega) (by omega) (by omega)
      (by rw [hlen, hget, if_neg (by omega), if_neg (by omega)]; exact hd) htd (by
      intro q e h3 h4 h5
      rw [hlen, hget, if_neg (by omega), if_neg (by omega)] at h5
      exact hq q e (by omega) (by omega) h5)
    refine ⟨s2, ?_, hg2, fun p => ?_⟩
    · simp only [reverseFrom, h1]
      rw [← hlen]; exact h2
    · rw [hr2, hlen, hget, hget]
      by_cases hp : p = i
      · subst hp
        rw [if_neg (by omega), if_pos rfl, if_pos (by omega)]
      · by_cases hp2 : p = s.root.length - i - 1
        · subst hp2
          rw [if_neg (by omega), if_neg hp, if_pos rfl, if_pos (by omega), show s.root.length - (s.root.length - i - 1) - 1 = i by omega]
        · by_cases hp3 : (i + 1 ≤ p ∧ p < t) ∨ (s.root.length - t ≤ p ∧ p < s.root.length - (i + 1))
          · rw [if_pos hp3, if_neg (by omega), if_neg (by omega), if_pos (by omega)]
          · rw [if_neg hp3, if_neg hp, if_neg hp2, if_neg (by omega)]

end EList
end Draftsman
