import Verif.Model.Schedule
import Mathlib.Data.List.Nodup
import Mathlib.Data.List.InsertIdx
import Mathlib.Order.Lattice
import Mathlib.Algebra.Order.Ring.Int

namespace Draftsman
namespace Schedule

/-! ## C40: schedules -/

/-- C40: through any history of calls, failing ones included, each locomotive stays listed at most once. -/
theorem C40_locomotives (isLoco : ℕ → Bool) (ops : List Op) (s : S) (h : s.locos.Nodup) :
    (ops.foldl (fun s o => (o.run isLoco s).1) s).locos.Nodup := by
  induction ops generalizing s with
  | nil => exact h
  | cons o r ih =>
    rw [List.foldl_cons]
    apply ih
    cases o with
    | addLoco l =>
      simp only [Op.run, addLocomotive]
      split
      · exact h
      · split
        · exact h
        · rename_i hl
          simp only
          rw [List.nodup_append]
          refine ⟨h, by simp, ?_⟩
          intro x hx y hy
          simp only [List.mem_singleton] at hy
          subst hy
          rintro rfl
          exact hl hx
    | removeLoco l =>
      simp only [Op.run, removeLocomotive]
      split
      · exact h.erase l
      · exact h
    | insert i n w => exact h
    | append n w => exact h
    | remove n w =>
      simp only [Op.run, removeStop]
      split <;> exact h

example : (([.addLoco 1, .addLoco 2, .addLoco 1, .append "a" .none, .removeLoco 2, .removeLoco 3, .addLoco 2] : List Op).foldl
    (fun s o => (o.run (fun _ => true) s).1) ⟨[], []⟩) = ⟨[1, 2], [⟨"a", []⟩]⟩ := by decide

/-- C40: adding lists the locomotive, at the end if it is new; removing takes it out or fails; nothing else moves. -/
theorem C40_locomotive_edits (isLoco : ℕ → Bool) (s : S) (l : ℕ) (h : s.locos.Nodup) :
    (isLoco l = true → (addLocomotive isLoco s l).2 = none ∧ l ∈ (addLocomotive isLoco s l).1.locos) ∧
    (addLocomotive isLoco s l).1.locos.filter (· ≠ l) = s.locos.filter (· ≠ l) ∧
    (addLocomotive isLoco s l).1.stops = s.stops ∧
    (removeLocomotive s l).1.locos = s.locos.filter (· ≠ l) ∧ (removeLocomotive s l).1.stops = s.stops ∧
    ((removeLocomotive s l).2 = if l ∈ s.locos then none else some .valueError) := by
  refine ⟨?_, ?_, ?_, ?_, ?_, ?_⟩
  · intro hl
    by_cases hm : l ∈ s.locos <;> simp [addLocomotive, hl, hm]
  · unfold addLocomotive
    split
    · rfl
    · split
      · rfl
      · simp
  · unfold addLocomotive
    split
    · rfl
    · split <;> rfl
  · unfold removeLocomotive
    split
    · simp only [h.erase_eq_filter]
      apply List.filter_congr
      intro x _
      by_cases hx : x = l <;> simp [hx]
    · rename_i hl
      simp only
      symm
      rw [List.filter_eq_self]
      intro x hx
      simp only [decide_eq_true_eq]
      rintro rfl
      exact hl hx
  · unfold removeLocomotive
    split <;> rfl
  · unfold removeLocomotive
    split <;> rfl

/-- The conditions an argument stands for when a stop is made. -/
def CondArg.list : CondArg → List Wait.WC
  | .none => []
  | .one c => [c]
  | .many cs => cs

/-- C40: a stop is inserted before the stop that had the index (counted from the end when negative, and cut off at the ends), the others
keeping their order. -/
theorem C40_insert (s : S) (i : ℤ) (name : String) (w : CondArg) : ∃ l r, s.stops = l ++ r ∧
    (insertStop s i name w).1.stops = l ++ ⟨name, w.list⟩ :: r ∧
    (l.length : ℤ) = (if i < 0 then max 0 (i + s.stops.length) else min i s.stops.length) ∧
    (insertStop s i name w).1.locos = s.locos ∧ (insertStop s i name w).2 = none := by
  have key : ∀ (stops : List Stop) (k : ℕ) (t : Stop), k ≤ stops.length → stops.insertIdx k t = stops.take k ++ t :: stops.drop k := by
    intro stops
    induction stops with
    | nil => intro k t hk; simp at hk; subst hk; rfl
    | cons a r ih =>
      intro k t hk
      cases k with
      | zero => simp
      | succ k =>
        rw [List.insertIdx_succ_cons, ih k t (by simpa using hk)]
        simp
  have hins : (insertStop s i name w).1.stops = EList.pyInsert s.stops i ⟨name, w.list⟩ := by
    cases w <;> rfl
  rw [hins]
  unfold EList.pyInsert
  simp only
  obtain ⟨k, hk, hk2, hk3⟩ : ∃ k : ℕ, k ≤ s.stops.length ∧
      (k : ℤ) = (if i < 0 then max 0 (i + s.stops.length) else min i s.stops.length) ∧
      (if i < 0 then max 0 (i + s.stops.length) else min i s.stops.length).toNat = k := by
    refine ⟨(if i < 0 then max 0 (i + s.stops.length) else min i s.stops.length).toNat, ?_, ?_, rfl⟩
    · split <;> omega
    · split <;> omega
  refine ⟨s.stops.take k, s.stops.drop k, (List.take_append_drop ..).symm, ?_, ?_, rfl, rfl⟩
  · rw [hk3, key _ _ _ hk]
  · rw [List.length_take, min_eq_left hk]; exact hk2

/-- C40: appending adds at the end. -/
theorem C40_append (s : S) (name : String) (w : CondArg) :
    (appendStop s name w).1.stops = s.stops ++ [⟨name, w.list⟩] ∧ (appendStop s name w).1.locos = s.locos := by
  obtain ⟨l, r, h1, h2, h3, h4, _⟩ := C40_insert s s.stops.length name w
  have hl : l.length = s.stops.length := by
    rw [if_neg (by omega)] at h3
    simp at h3; exact h3
  have hr : r = [] := by
    have := congrArg List.length h1
    rw [List.length_append] at this
    apply List.eq_nil_of_length_eq_zero; omega
  subst hr
  simp only [List.append_nil] at h1
  subst h1
  exact ⟨h2, h4⟩

/-- The stop asked for: the name matches, and the conditions too when they are given. -/
def Asked (name : String) (w : CondArg) (t : Stop) : Prop :=
  t.station = name ∧ match w with
    | .none => True
    | w => t.conds = w.list

theorem popFirst_some {p : Stop → Bool} : ∀ {l r : List Stop}, popFirst p l = some r →
    ∃ a t b, l = a ++ t :: b ∧ r = a ++ b ∧ p t = true ∧ ∀ x ∈ a, p x = false
  | [], _, h => by simp [popFirst] at h
  | x :: l, r, h => by
    unfold popFirst at h
    split at h
    · rename_i hx
      simp only [Option.some.injEq] at h
      subst h
      exact ⟨[], x, l, rfl, rfl, hx, by simp⟩
    · rename_i hx
      rw [Option.map_eq_some_iff] at h
      obtain ⟨r', hr', rfl⟩ := h
      obtain ⟨a, t, b, h1, h2, h3, h4⟩ := popFirst_some hr'
      refine ⟨x :: a, t, b, by rw [h1]; rfl, by rw [h2]; rfl, h3, ?_⟩
      intro y hy
      rcases List.mem_cons.1 hy with rfl | hy
      · simpa using hx
      · exact h4 y hy

theorem popFirst_none {p : Stop → Bool} : ∀ {l : List Stop}, popFirst p l = none ↔ ∀ x ∈ l, p x = false
  | [] => by simp [popFirst]
  | x :: l => by
    unfold popFirst
    split
    · rename_i hx; simp [hx]
    · rename_i hx
      rw [Option.map_eq_none_iff, popFirst_none]
      simp [hx]

/-- C40: removing a stop removes the first that matches and only it, or fails with `ValueError` when none matches, changing nothing. -/
theorem C40_remove (s : S) (name : String) (w : CondArg) :
    ((∃ a t b, s.stops = a ++ t :: b ∧ Asked name w t ∧ (∀ x ∈ a, ¬ Asked name w x) ∧
        removeStop s name w = ({ s with stops := a ++ b }, none)) ∨
      ((∀ x ∈ s.stops, ¬ Asked name w x) ∧ removeStop s name w = (s, some .valueError))) := by
  have key : ∀ p : Stop → Bool, (∀ t, p t = true ↔ Asked name w t) → (match popFirst p s.stops with
      | some r => ({ s with stops := r }, (none : Option PyErr))
      | none => (s, some .valueError)) = removeStop s name w →
      ((∃ a t b, s.stops = a ++ t :: b ∧ Asked name w t ∧ (∀ x ∈ a, ¬ Asked name w x) ∧
        removeStop s name w = ({ s with stops := a ++ b }, none)) ∨
      ((∀ x ∈ s.stops, ¬ Asked name w x) ∧ removeStop s name w = (s, some .valueError))) := by
    intro p hp heq
    have hp' : ∀ t, p t = false ↔ ¬ Asked name w t := by
      intro t; rw [← hp]; simp
    cases h : popFirst p s.stops with
    | some r =>
      rw [h] at heq
      obtain ⟨a, t, b, h1, h2, h3, h4⟩ := popFirst_some h
      subst h2
      exact Or.inl ⟨a, t, b, h1, (hp t).1 h3, fun x hx => (hp' x).1 (h4 x hx), heq.symm⟩
    | none =>
      rw [h] at heq
      exact Or.inr ⟨fun x hx => (hp' x).1 (popFirst_none.1 h x hx), heq.symm⟩
  cases w with
  | none => exact key (fun t => decide (t.station = name)) (by intro t; simp [Asked]) rfl
  | one c => exact key (fun t => decide (t.station = name) && decide (t.conds = [c])) (by intro t; simp [Asked, CondArg.list]) rfl
  | many cs => exact key (fun t => decide (t.station = name) && decide (t.conds = cs)) (by intro t; simp [Asked, CondArg.list]) rfl

def exSched : S := ⟨[4], [⟨"a", []⟩, ⟨"b", [⟨1, true⟩]⟩, ⟨"b", []⟩, ⟨"b", [⟨1, true⟩]⟩]⟩

example : removeStop exSched "b" .none = (⟨[4], [⟨"a", []⟩, ⟨"b", []⟩, ⟨"b", [⟨1, true⟩]⟩]⟩, none) := by decide
example : removeStop exSched "b" (.many []) = (⟨[4], [⟨"a", []⟩, ⟨"b", [⟨1, true⟩]⟩, ⟨"b", [⟨1, true⟩]⟩]⟩, none) := by decide
example : removeStop exSched "b" (.one ⟨2, true⟩) = (exSched, some .valueError) := by decide
example : (insertStop exSched (-1) "c" .none).1.stops = [⟨"a", []⟩, ⟨"b", [⟨1, true⟩]⟩, ⟨"b", []⟩, ⟨"c", []⟩, ⟨"b", [⟨1, true⟩]⟩] := by decide

/-- C40 does not extend to schedules built with a repeated locomotive: the constructor takes the list as given
(`/repo/draftsman/classes/schedule.py:482-485`), and removing then leaves it listed. -/
theorem C40_constructed_refuted : ∃ (s : S) (l : ℕ), (removeLocomotive s l).2 = none ∧ l ∈ (removeLocomotive s l).1.locos :=
  ⟨⟨[1, 1], []⟩, 1, by decide, by decide⟩

end Schedule
end Draftsman
