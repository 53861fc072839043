import Mathlib.Tactic.SplitIfs
import Verif.Model.ValResult
/-
C54: validation results.
-/
namespace Draftsman.ValResult

theorem warnAll_eq (acc ws : List Issue) : warnAll acc ws = ⟨acc ++ ws, none⟩ := by
  induction ws generalizing acc with
  | nil => simp [warnAll]
  | cons w ws ih => simp [warnAll, ih]

/-- C54: with an error, exactly the first error is raised and nothing is warned; without one, every
warning is issued in order and nothing is raised. -/
theorem C54_reissue (r : Result) :
    (∀ e es, r.errors = e :: es → reissueAll r = ⟨[], some e⟩) ∧
    (r.errors = [] → reissueAll r = ⟨r.warnings, none⟩) := by
  constructor
  · intro e es h; simp [reissueAll, h]
  · intro h; simp [reissueAll, h, warnAll_eq]

example : reissueAll ⟨[⟨"DataFormatError", ["x"]⟩, ⟨"ValueError", []⟩], [⟨"W", []⟩]⟩
    = ⟨[], some ⟨"DataFormatError", ["x"]⟩⟩ ∧
    reissueAll ⟨[], [⟨"A", []⟩, ⟨"B", []⟩]⟩ = ⟨[⟨"A", []⟩, ⟨"B", []⟩], none⟩ := by decide

/-- C54: combining results concatenates errors and warnings; reissuing the sum of any number of results
raises the first error among them in order, or issues all warnings in order. -/
theorem C54_combine (r : Result) (rs : List Result) :
    (rs.foldl iadd r).errors = r.errors ++ rs.flatMap (·.errors) ∧
    (rs.foldl iadd r).warnings = r.warnings ++ rs.flatMap (·.warnings) ∧
    (reissueAll (rs.foldl iadd r)).raised = (r.errors ++ rs.flatMap (·.errors)).head? ∧
    (reissueAll (rs.foldl iadd r)).warned =
      if r.errors ++ rs.flatMap (·.errors) = [] then r.warnings ++ rs.flatMap (·.warnings) else [] := by
  have key : ∀ (rs : List Result) (r : Result),
      (rs.foldl iadd r).errors = r.errors ++ rs.flatMap (·.errors) ∧
      (rs.foldl iadd r).warnings = r.warnings ++ rs.flatMap (·.warnings) := by
    intro rs
    induction rs with
    | nil => intro r; simp
    | cons a rs ih => intro r; simp [List.foldl_cons, ih, iadd]
  obtain ⟨h1, h2⟩ := key rs r
  refine ⟨h1, h2, ?_, ?_⟩
  · rw [← h1]
    cases h : (rs.foldl iadd r).errors with
    | nil => rw [(C54_reissue _).2 h]; rfl
    | cons e es => rw [(C54_reissue _).1 e es h]; rfl
  · rw [← h1, ← h2]
    cases h : (rs.foldl iadd r).errors with
    | nil => rw [(C54_reissue _).2 h]; rfl
    | cons e es => rw [(C54_reissue _).1 e es h]; rfl

example : (reissueAll ([⟨[], [⟨"B", []⟩]⟩, ⟨[⟨"E", []⟩], []⟩].foldl iadd ⟨[], [⟨"A", []⟩]⟩)).raised
    = some ⟨"E", []⟩ := by decide

theorem sameIssues_iff : ∀ (as bs : List Issue), as.length = bs.length → (sameIssues as bs = true ↔ as = bs)
  | [], [], _ => by simp [sameIssues]
  | a :: as, b :: bs, h => by
    simp only [List.length_cons, Nat.add_right_cancel_iff] at h
    simp only [sameIssues, List.cons.injEq, ← sameIssues_iff as bs h]
    have : a = b ↔ a.cls = b.cls ∧ a.args = b.args := by cases a; cases b; simp
    rw [this]
    split_ifs with hc
    · simp only [false_iff]
      rintro ⟨⟨h1, h2⟩, -⟩
      rcases hc with hc | hc
      · exact hc h1
      · exact hc h2
    · simp only [not_or, ne_eq, Decidable.not_not] at hc
      simp [hc]

/-- C54: two results compare equal exactly when they hold the same errors and the same warnings in the
same order. -/
theorem C54_eq_iff (a b : Result) : eq a b = true ↔ a.errors = b.errors ∧ a.warnings = b.warnings := by
  unfold eq
  split_ifs with h1 h2
  · simp only [false_iff]
    rintro ⟨h, h'⟩
    rw [h, h'] at h1; simp at h1
  · simp only [not_or, ne_eq, Decidable.not_not] at h1
    simp only [false_iff]
    rintro ⟨h, -⟩
    rw [(sameIssues_iff _ _ h1.1).2 h] at h2
    simp at h2
  · simp only [not_or, ne_eq, Decidable.not_not] at h1
    rw [sameIssues_iff _ _ h1.2]
    have : sameIssues a.errors b.errors = true := by simpa using h2
    rw [sameIssues_iff _ _ h1.1] at this
    simp [this]

example : eq ⟨[], [⟨"A", ["1"]⟩]⟩ ⟨[], [⟨"A", ["2"]⟩]⟩ = false := by decide

/-- C54, assignment: a rejected value raises the format error and issues no warning; an accepted one
issues exactly the collected warnings, in order. -/
theorem C54_assignment {V : Type} (validator : V → Except Unit (V × List Issue)) (value : V) :
    (∀ u, validator value = .error u → attemptAndReissue validator value = (.error .dataFormat, [])) ∧
    (∀ v ws, validator value = .ok (v, ws) → attemptAndReissue validator value = (.ok v, ws)) := by
  constructor
  · intro u h; simp [attemptAndReissue, h]
  · intro v ws h; simp [attemptAndReissue, h, warnAll_eq]

example : attemptAndReissue (fun n : Nat => if n < 5 then .ok (n, [⟨"W", []⟩, ⟨"V", []⟩]) else .error ()) 3
    = (.ok 3, [⟨"W", []⟩, ⟨"V", []⟩]) := by decide

end Draftsman.ValResult
