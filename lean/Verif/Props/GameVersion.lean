import Verif.Model.GameVersion
import Verif.Props.Version
import Mathlib.Tactic.SplitIfs
import Mathlib.Data.List.Nodup

namespace Draftsman
namespace GameVersion
open Version

/-! ## C95: choosing the version of the game -/

/-- `v` is the text of a version whose first three numbers (missing ones zero) are `a`, `b`, `c`. -/
def Means (v : List Char) (a b c : Int) : Prop :=
  ∃ t, versionStringToTuple v = .ok t ∧ t ≠ [] ∧ a = t.headD 0 ∧ b = t[1]?.getD 0 ∧ c = t[2]?.getD 0

theorem split_ne (s : List Char) : pySplit '.' s ≠ [] := by
  cases s with
  | nil => simp [pySplit]
  | cons c r =>
    rw [pySplit]
    split_ifs
    · simp
    · split <;> simp

theorem tuple_ne {v : List Char} {t : List Int} (h : versionStringToTuple v = .ok t) : t ≠ [] := by
  rintro rfl
  unfold versionStringToTuple at h
  have := split_ne v
  cases hs : pySplit '.' v with
  | nil => exact this hs
  | cons p r =>
    rw [hs, List.mapM_cons] at h
    cases hp : pyInt p with
    | error e => rw [hp] at h; cases h
    | ok i =>
      rw [hp] at h
      cases hr : r.mapM pyInt with
      | error e => rw [hr] at h; cases h
      | ok l => rw [hr] at h; cases h

/-- Three numbers, whatever the number of parts. -/
theorem normalize_spec (v w : List Char) : normalize v = .ok w ↔ ∃ a b c, Means v a b c ∧ w = versionTupleToString [a, b, c] := by
  unfold normalize Means
  cases h : versionStringToTuple v with
  | error e => simp [bind, Except.bind]
  | ok t =>
    have ht := tuple_ne h
    simp only [bind, Except.bind, Except.ok.injEq]
    have key : t.take 3 ++ List.replicate (3 - (t.take 3).length) 0 = [t.headD 0, t[1]?.getD 0, t[2]?.getD 0] := by
      rcases t with _ | ⟨a, _ | ⟨b, _ | ⟨c, r⟩⟩⟩
      · exact absurd rfl ht
      · rfl
      · rfl
      · simp
    rw [key]
    constructor
    · rintro rfl
      exact ⟨_, _, _, ⟨t, rfl, ht, rfl, rfl, rfl⟩, rfl⟩
    · rintro ⟨a, b, c, ⟨t', rfl, -, rfl, rfl, rfl⟩, rfl⟩
      rfl

/-- C95: when it does not work, the repository is as before. -/
theorem C95_unchanged (verbose : Bool) (r : Repo) (v : List Char) (e : PyErr) (h : (specify verbose r v).2 = some e) : (specify verbose r v).1 = r := by
  unfold specify at h ⊢
  split_ifs at h ⊢
  · rfl
  · rfl
  · cases hw : r.wanted v with
    | error e => rfl
    | ok d =>
      rw [hw] at h
      simp only at h ⊢
      cases hn : normalize d with
      | error e => rfl
      | ok w =>
        rw [hn] at h
        simp only at h ⊢
        by_cases hin : w ∈ r.tags.map Tag.name
        · rw [if_neg (not_not.2 hin)] at h ⊢
          cases hc : r.current with
          | none => rfl
          | some c =>
            rw [hc] at h
            simp only at h ⊢
            split_ifs at h
        · rw [if_pos hin]

/-- C95: tags and the rest never change, only what is checked out. -/
theorem C95_tags (verbose : Bool) (r : Repo) (v : List Char) : (specify verbose r v).1.tags = r.tags ∧ (specify verbose r v).1.official = r.official := by
  have hc : ∀ n, (r.checkout n).tags = r.tags ∧ (r.checkout n).official = r.official := by
    intro n; unfold Repo.checkout; split <;> exact ⟨rfl, rfl⟩
  unfold specify
  split_ifs
  · exact ⟨rfl, rfl⟩
  · exact ⟨rfl, rfl⟩
  · split
    · exact ⟨rfl, rfl⟩
    · split
      · exact ⟨rfl, rfl⟩
      · split_ifs
        · split
          · exact ⟨rfl, rfl⟩
          · split_ifs
            · exact hc _
            · exact ⟨rfl, rfl⟩
        · exact ⟨rfl, rfl⟩

/-- C95: just when a version written as numbers can be chosen: the repository is the expected one, some tag is checked out, and there is a tag named
by the first three numbers.  Then that tag is checked out. -/
theorem C95_chosen_partial (verbose : Bool) (r : Repo) (hu : (r.tags.map Tag.name).Nodup) (v : List Char) (hv : v ≠ "latest".toList) :
    ((specify verbose r v).2 = none ↔ r.official = true ∧ (∃ t ∈ r.tags, t.commit = r.head) ∧ ∃ a b c, Means v a b c ∧ ∃ t ∈ r.tags, t.name = versionTupleToString [a, b, c]) ∧
    ((specify verbose r v).2 = none → ∀ a b c, Means v a b c → ∀ t ∈ r.tags, t.name = versionTupleToString [a, b, c] → (specify verbose r v).1.head = t.commit) := by
  have hcur : r.current.isSome ↔ ∃ t ∈ r.tags, t.commit = r.head := by
    simp [Repo.current, List.find?_isSome]
  have hw : r.wanted v = .ok v := by rw [Repo.wanted, if_neg hv]
  have uniq : ∀ t ∈ r.tags, ∀ u ∈ r.tags, t.name = u.name → t = u := fun t ht u hu' h => List.inj_on_of_nodup_map hu ht hu' h
  have mean : ∀ {a b c a' b' c'}, Means v a b c → Means v a' b' c' → a = a' ∧ b = b' ∧ c = c' := by
    rintro a b c a' b' c' ⟨t, h1, -, rfl, rfl, rfl⟩ ⟨t', h2, -, rfl, rfl, rfl⟩
    rw [h1, Except.ok.injEq] at h2
    subst h2
    exact ⟨rfl, rfl, rfl⟩
  unfold specify
  by_cases ho : r.official = true
  swap
  · simp [ho]
  simp only [ho, Bool.not_true, Bool.false_eq_true, if_false, true_and, hw]
  by_cases hn : r.current = none
  · have hno : ¬ ∃ t ∈ r.tags, t.commit = r.head := by rw [← hcur, hn]; simp
    have hfail : ∀ x : Repo × Option PyErr, x = (if (verbose && r.current.isNone) = true then (r, some .attributeError) else
        match normalize v with
        | .error e => (r, some e)
        | .ok v => if v ∉ r.tags.map Tag.name then (r, some .valueError)
          else match r.current with
            | none => (r, some .attributeError)
            | some c => if v ≠ c.name then (r.checkout v, none) else (r, none)) → x.2 ≠ none := by
      rintro x rfl
      rw [hn]
      split_ifs
      · simp
      · cases normalize v with
        | error e => simp
        | ok w => simp only; split_ifs <;> simp
    have := hfail _ rfl
    exact ⟨⟨fun h => absurd h this, fun h => absurd h.1 hno⟩, fun h => absurd h this⟩
  · obtain ⟨cu, hcu⟩ := Option.ne_none_iff_exists'.1 hn
    have hyes : ∃ t ∈ r.tags, t.commit = r.head := hcur.1 (by rw [hcu]; rfl)
    have hmem := List.mem_of_find?_eq_some hcu
    have hhead : cu.commit = r.head := by simpa using List.find?_some hcu
    simp only [hcu, Option.isNone_some, Bool.and_false, Bool.false_eq_true, if_false, hyes, true_and]
    cases hnm : normalize v with
    | error e =>
      have : ¬ ∃ a b c, Means v a b c ∧ ∃ t ∈ r.tags, t.name = versionTupleToString [a, b, c] := by
        rintro ⟨a, b, c, hm, -⟩
        have := (normalize_spec v _).2 ⟨a, b, c, hm, rfl⟩
        rw [hnm] at this
        cases this
      simp [this]
    | ok w =>
      obtain ⟨a, b, c, hm, rfl⟩ := (normalize_spec v w).1 hnm
      simp only
      by_cases hin : versionTupleToString [a, b, c] ∈ r.tags.map Tag.name
      · obtain ⟨t, ht, htn⟩ := List.mem_map.1 hin
        rw [if_neg (by simpa using hin)]
        refine ⟨?_, ?_⟩
        · have h2 : (if versionTupleToString [a, b, c] ≠ cu.name then (r.checkout (versionTupleToString [a, b, c]), none) else (r, none) : Repo × Option PyErr).2 = none := by
            split_ifs <;> rfl
          exact ⟨fun _ => ⟨a, b, c, hm, t, ht, htn⟩, fun _ => h2⟩
        · intro _ a' b' c' hm' u hu' hun
          obtain ⟨rfl, rfl, rfl⟩ := mean hm hm'
          by_cases hne : versionTupleToString [a, b, c] = cu.name
          · rw [if_neg (by simpa using hne)]
            rw [uniq u hu' cu hmem (hun.trans hne)]
            exact hhead.symm
          · rw [if_pos hne]
            unfold Repo.checkout
            cases hf : r.tags.find? (fun t => t.name == versionTupleToString [a, b, c]) with
            | none => exact absurd hun (by simpa using List.find?_eq_none.1 hf u hu')
            | some x =>
              have hx : x.name = versionTupleToString [a, b, c] := by simpa using List.find?_some hf
              simp only
              rw [uniq u hu' x (List.mem_of_find?_eq_some hf) (hun.trans hx.symm)]
      · rw [if_pos hin]
        refine ⟨⟨nofun, ?_⟩, nofun⟩
        rintro ⟨a', b', c', hm', t, ht, htn⟩
        obtain ⟨rfl, rfl, rfl⟩ := mean hm hm'
        exact absurd (List.mem_map.2 ⟨t, ht, htn⟩) hin

theorem newest_spec (l : List Tag) : (∀ t, newest l = some t → t ∈ l ∧ ∀ u ∈ l, u.time ≤ t.time) ∧ (newest l = none ↔ l = []) := by
  induction l with
  | nil => simp [newest]
  | cons x r ih =>
    rw [newest]
    cases h : newest r with
    | none =>
      have := ih.2.1 h
      subst this
      simp
    | some u =>
      obtain ⟨h1, h2⟩ := ih.1 u h
      simp only
      split_ifs with hlt
      · refine ⟨?_, by simp⟩
        rintro t ⟨⟩
        refine ⟨List.mem_cons_self, fun y hy => ?_⟩
        rcases List.mem_cons.1 hy with rfl | hy
        · exact Nat.le_refl _
        · exact Nat.le_trans (h2 y hy) (Nat.le_of_lt hlt)
      · refine ⟨?_, by simp⟩
        rintro t ⟨⟩
        refine ⟨List.mem_cons_of_mem _ h1, fun y hy => ?_⟩
        rcases List.mem_cons.1 hy with rfl | hy
        · exact Nat.not_lt.1 hlt
        · exact h2 y hy

/-- C95: "latest" is like the name of a tag no other tag is newer than; there must be a tag. -/
theorem C95_latest_partial (verbose : Bool) (r : Repo) :
    (∀ t, newest r.tags = some t → t ∈ r.tags ∧ (∀ u ∈ r.tags, u.time ≤ t.time) ∧
      (t.name ≠ "latest".toList → specify verbose r "latest".toList = specify verbose r t.name)) ∧
    (r.tags = [] → (specify verbose r "latest".toList).2 ≠ none) ∧ (r.tags ≠ [] → ∃ t, newest r.tags = some t) := by
  refine ⟨fun t ht => ⟨((newest_spec r.tags).1 t ht).1, ((newest_spec r.tags).1 t ht).2, fun hn => ?_⟩, fun h => ?_, fun h => ?_⟩
  · have h1 : r.wanted "latest".toList = .ok t.name := by rw [Repo.wanted, if_pos rfl, ht]
    have h2 : r.wanted t.name = .ok t.name := by rw [Repo.wanted, if_neg hn]
    unfold specify
    rw [h1, h2]
  · have h1 : r.wanted "latest".toList = .error .indexError := by rw [Repo.wanted, if_pos rfl, h]; rfl
    unfold specify
    rw [h1]
    split_ifs <;> simp
  · exact Option.ne_none_iff_exists'.1 fun hn => h ((newest_spec r.tags).2.1 hn)

theorem split_count (v : List Char) : (pySplit '.' v).length = v.count '.' + 1 := by
  induction v with
  | nil => rfl
  | cons c r ih =>
    rw [pySplit]
    by_cases h : c = '.'
    · subst h
      simp [ih]
    · rw [if_neg h, List.count_cons_of_ne (by simpa using h)]
      have := split_ne r
      cases hs : pySplit '.' r with
      | nil => exact absurd hs this
      | cons p q => rw [hs] at ih; simpa using ih

theorem mapM_length {l : List (List Char)} {t : List Int} (h : l.mapM pyInt = .ok t) : t.length = l.length := by
  induction l generalizing t with
  | nil => cases h; rfl
  | cons p r ih =>
    rw [List.mapM_cons] at h
    cases hp : pyInt p with
    | error e => rw [hp] at h; cases h
    | ok i =>
      rw [hp] at h
      cases hr : r.mapM pyInt with
      | error e => rw [hr] at h; cases h
      | ok l => rw [hr] at h; cases h; simp [ih hr]

theorem split_dot_zero (v : List Char) : pySplit '.' (v ++ ".0".toList) = pySplit '.' v ++ [['0']] := by
  induction v with
  | nil => rfl
  | cons c r ih =>
    rw [List.cons_append, pySplit, pySplit, ih]
    by_cases h : c = '.'
    · simp [h]
    · rw [if_neg h, if_neg h]
      have := split_ne r
      cases hs : pySplit '.' r with
      | nil => exact absurd hs this
      | cons p q => rfl

/-- C95: what is recorded of a version with three numbers has a fourth, zero; other versions are recorded as they are.  The text recorded always
has the numbers recorded. -/
theorem C95_recorded (v : List Char) :
    (∀ w t, recorded v = .ok (w, t) → versionStringToTuple w = .ok t) ∧
    ∀ t, versionStringToTuple v = .ok t →
      (t.length = 3 → recorded v = .ok (v ++ ".0".toList, t ++ [0])) ∧ (t.length ≠ 3 → recorded v = .ok (v, t)) := by
  have hl : ∀ t, versionStringToTuple v = .ok t → t.length = v.count '.' + 1 := fun t h => (mapM_length h).trans (split_count v)
  constructor
  · intro w t h
    unfold recorded at h
    simp only [bind, Except.bind] at h
    split at h
    · cases h
    · cases h
      assumption
  · intro t ht
    have := hl t ht
    unfold recorded
    refine ⟨fun h3 => ?_, fun h3 => ?_⟩
    · rw [if_pos (by omega)]
      have : versionStringToTuple (v ++ ".0".toList) = .ok (t ++ [0]) := by
        unfold versionStringToTuple at ht ⊢
        rw [split_dot_zero, List.mapM_append, ht]
        rfl
      simp only [this, bind, Except.bind]
    · rw [if_neg (by omega)]
      simp only [ht, bind, Except.bind]

/-- Tags of the game, two of them for the same commit. -/
def repo : Repo := ⟨true, [⟨"1.1.110".toList, 1, 10⟩, ⟨"2.0.0".toList, 2, 20⟩, ⟨"2.0.60".toList, 3, 30⟩, ⟨"2.0.61".toList, 3, 30⟩], 1⟩

example : specify true repo "2".toList = ({ repo with head := 2 }, none) := by decide +kernel
example : specify false repo "2.0.60.7".toList = ({ repo with head := 3 }, none) := by decide +kernel
example : specify false repo "latest".toList = ({ repo with head := 3 }, none) := by decide +kernel
example : specify false repo "1.1.110".toList = (repo, none) := by decide +kernel
example : specify false repo "3.0".toList = (repo, some .valueError) := by decide +kernel
example : specify false repo "two".toList = (repo, some .valueError) := by decide +kernel
example : Means "2.0.60.7".toList 2 0 60 := ⟨[2, 0, 60, 7], by decide +kernel, by decide, rfl, rfl, rfl⟩
example : newest repo.tags = some ⟨"2.0.61".toList, 3, 30⟩ := by decide +kernel
example : recorded "2.0.60".toList = .ok ("2.0.60.0".toList, [2, 0, 60, 0]) := by decide +kernel

/-- C95: a version there is a tag for can not always be chosen: if no tag is checked out (say, the main branch), there is an `AttributeError`. -/
theorem C95_branch_refuted : ¬ ∀ (r : Repo) (t : Tag), r.official = true → t ∈ r.tags → (∃ a b c, t.name = versionTupleToString [a, b, c]) →
    (specify false r t.name).2 = none := by
  intro h
  exact absurd (h { repo with head := 9 } ⟨"2.0.0".toList, 2, 20⟩ rfl (by decide) ⟨2, 0, 0, by decide +kernel⟩) (by decide +kernel)

/-- C95: "latest" does not always check out the newest tag: with a fourth number in its name, that is dropped, and another tag may be taken. -/
theorem C95_latest_refuted : ¬ ∀ (r : Repo) (t : Tag), r.official = true → (∃ u ∈ r.tags, u.commit = r.head) → newest r.tags = some t →
    (∃ a b c d, t.name = versionTupleToString [a, b, c, d]) → (specify false r "latest".toList).1.head = t.commit := by
  intro h
  exact absurd (h ⟨true, [⟨"2.0.60".toList, 1, 10⟩, ⟨"2.0.60.1".toList, 2, 20⟩], 1⟩ ⟨"2.0.60.1".toList, 2, 20⟩ rfl (by decide) (by decide +kernel) ⟨2, 0, 60, 1, by decide +kernel⟩)
    (by decide +kernel)

/-- C95: "Normalize it to 4 numbers": a version with two numbers is recorded with two. -/
theorem C95_recorded_refuted : ¬ ∀ v w t, recorded v = .ok (w, t) → t.length = 4 := by
  intro h
  exact absurd (h "2.0".toList "2.0".toList [2, 0] (by decide +kernel)) (by decide)

end GameVersion
end Draftsman
