import Verif.Model.Book
import Mathlib.Algebra.Order.Ring.Int

namespace Draftsman
namespace Book

/-! ## C52: blueprint books -/

def Member.index : Member → Option ℕ
  | .leaf _ i => i
  | .book _ i _ => i

/-- The number an exported entry carries, if it carries one. -/
def Out.slot : Out → Option ℕ
  | .leaf _ (some i) => i
  | .book _ (some i) _ => i
  | _ => none

/-- Two entries that differ at most in the index. -/
def Out.SameBody : Out → Out → Prop
  | .leaf d _, .leaf e _ => d = e
  | .book d _ m, .book e _ n => d = e ∧ m = n
  | _, _ => False

/-- The members an exported entry lists, `none` if there is no list. -/
def Out.members : Out → Option (List Out)
  | .leaf _ _ => none
  | .book _ _ m => m

theorem toDicts_length (a b : Bool) (p : ℕ) (ms : List Member) : (toDicts a b p ms).length = ms.length := by
  induction ms generalizing p with
  | nil => rfl
  | cons m ms ih => simp [toDicts, ih]

theorem toDicts_get (a b : Bool) (p : ℕ) (ms : List Member) (i : ℕ) (m : Member) (h : ms[i]? = some m) :
    (toDicts a b p ms)[i]? = some ((toDict a b m).number (p + i)) := by
  induction ms generalizing p i with
  | nil => simp at h
  | cons m' ms ih =>
    cases i with
    | zero => simp only [List.getElem?_cons_zero, Option.some.injEq] at h; subst h; simp [toDicts]
    | succ i =>
      simp only [List.getElem?_cons_succ] at h
      simp only [toDicts, List.getElem?_cons_succ]
      rw [ih (p + 1) i h]
      congr 2; omega

theorem members_toDict (a b : Bool) (d : ℕ) (x : Option ℕ) (ms : List Member) :
    (toDict a b (.book d x ms)).members = if ms = [] then none else some (toDicts a b 0 ms) := by
  cases ms with
  | nil => simp [toDict, toDicts, Out.members]
  | cons m ms => simp [toDict, toDicts, Out.members]

theorem number_same (i : ℕ) (o : Out) : (o.number i).SameBody o := by
  cases o with
  | leaf d x => cases x <;> simp [Out.number, Out.SameBody]
  | book d x m => cases x <;> simp [Out.number, Out.SameBody]

theorem number_slot (a b : Bool) (hab : (a || b) = true) (i : ℕ) (m : Member) : ((toDict a b m).number i).slot = some (m.index.getD i) := by
  cases m with
  | leaf d x =>
    cases x with
    | none => simp [toDict, dumpIndex, hab, Out.number, Out.slot, Member.index]
    | some k => simp [toDict, dumpIndex, Out.number, Out.slot, Member.index]
  | book d x ms =>
    cases ht : toDicts a b 0 ms with
    | nil =>
      cases x with
      | none => simp [toDict, ht, dumpIndex, hab, Out.number, Out.slot, Member.index]
      | some k => simp [toDict, ht, dumpIndex, Out.number, Out.slot, Member.index]
    | cons o os =>
      cases x with
      | none => simp [toDict, ht, dumpIndex, hab, Out.number, Out.slot, Member.index]
      | some k => simp [toDict, ht, dumpIndex, Out.number, Out.slot, Member.index]

/-- A book with members exports a list of the same length in the same order; every member stands there as it is exported on its own, with its own number if it
has one and its position in the list otherwise.  At least one of the two ways of leaving out keys must be on (by default both are); otherwise it
does not hold, see `C52_none_refuted`. -/
theorem C52_members_partial (exNone exDefaults : Bool) (hx : exNone = true ∨ exDefaults = true) (d : ℕ) (x : Option ℕ) (ms : List Member) (hms : ms ≠ []) :
    ∃ os, (toDict exNone exDefaults (.book d x ms)).members = some os ∧ os.length = ms.length ∧
      ∀ (i : ℕ) (m : Member), ms[i]? = some m → ∃ o : Out, os[i]? = some o ∧ o.slot = some (m.index.getD i) ∧ o.SameBody (toDict exNone exDefaults m) := by
  refine ⟨_, by rw [members_toDict, if_neg hms], toDicts_length _ _ _ _, ?_⟩
  intro i m hm
  refine ⟨_, toDicts_get _ _ 0 ms i m hm, ?_, number_same _ _⟩
  rw [number_slot _ _ (by rcases hx with h | h <;> simp [h]), Nat.zero_add]

/-- An empty book exports no list, in every mode. -/
theorem C52_empty (exNone exDefaults : Bool) (d : ℕ) (x : Option ℕ) (ms : List Member) :
    (toDict exNone exDefaults (.book d x ms)).members = none ↔ ms = [] := by
  rw [members_toDict]
  split <;> simp_all

/-- If no member carries a number, the slots are 0, 1, 2, … -/
theorem C52_unnumbered (exNone exDefaults : Bool) (hx : exNone = true ∨ exDefaults = true) (d : ℕ) (x : Option ℕ) (ms : List Member) (hms : ms ≠ [])
    (hn : ∀ m ∈ ms, m.index = none) :
    ∃ os, (toDict exNone exDefaults (.book d x ms)).members = some os ∧ os.map Out.slot = (List.range ms.length).map some := by
  obtain ⟨os, ho, hl, hi⟩ := C52_members_partial exNone exDefaults hx d x ms hms
  refine ⟨os, ho, ?_⟩
  apply List.ext_getElem?
  intro i
  by_cases h : i < ms.length
  · obtain ⟨o, h1, h2, -⟩ := hi i ms[i] (List.getElem?_eq_getElem h)
    rw [hn _ (List.getElem_mem h)] at h2
    simp [h1, h2, List.getElem?_range h]
  · rw [List.getElem?_eq_none (by simp; omega), List.getElem?_eq_none (by simp; omega)]

mutual
theorem again_member : ∀ (m : Member) (i : ℕ), (toDict true true (ofDict (toDict true true m))) = toDict true true m ∧
    (toDict true true (ofDict ((toDict true true m).number i))) = (toDict true true m).number i
  | .leaf d none, i => by simp [toDict, dumpIndex, ofDict, Out.number]
  | .leaf d (some k), i => by simp [toDict, dumpIndex, ofDict, Out.number]
  | .book d x [], i => by cases x <;> simp [toDict, toDicts, dumpIndex, ofDict, Out.number]
  | .book d x (m :: ms), i => by
    have h := again_members (m :: ms) 0
    obtain ⟨o, os, ho⟩ : ∃ o os, toDicts true true 0 (m :: ms) = o :: os := ⟨_, _, by rw [toDicts]⟩
    rw [ho] at h
    cases x with
    | none => simp [toDict, ho, dumpIndex, ofDict, Out.number, h]
    | some k => simp [toDict, ho, dumpIndex, ofDict, Out.number, h]
theorem again_members : ∀ (ms : List Member) (p : ℕ), toDicts true true p (ofDicts (toDicts true true p ms)) = toDicts true true p ms
  | [], p => rfl
  | m :: ms, p => by
    simp only [toDicts, ofDicts]
    rw [(again_member m p).2, again_members ms (p + 1)]
    congr 1
    cases h : toDict true true m with
    | leaf d x => cases x <;> rfl
    | book d x l => cases x <;> rfl
end

/-- Reading an exported book and exporting it again gives the same numbers, at every depth. -/
theorem C52_again (m : Member) : toDict true true (ofDict (toDict true true m)) = toDict true true m := (again_member m 0).1

/-- Not proved because it is false: that a member without a number gets its position when nothing is left out of the export.  It keeps `None`. -/
theorem C52_none_refuted : ¬ ∀ (exNone exDefaults : Bool) (d : ℕ) (x : Option ℕ) (ms : List Member) (os : List Out),
    (toDict exNone exDefaults (.book d x ms)).members = some os → ∀ (i : ℕ) (m : Member) (o : Out), ms[i]? = some m → m.index = none → os[i]? = some o →
      o.slot = some i := by
  intro h
  have := h false false 0 none [.leaf 1 none] [.leaf 1 (some none)] (by simp [toDict, toDicts, dumpIndex, Out.number, Out.members]) 0 _ _ rfl rfl rfl
  simp [Out.slot] at this

/-- Not proved because it is false: that different members get different slots.  A member can have the number that is the position of another. -/
theorem C52_distinct_refuted : ¬ ∀ (d : ℕ) (x : Option ℕ) (ms : List Member) (os : List Out),
    (toDict true true (.book d x ms)).members = some os → (ms.filterMap Member.index).Nodup → (os.map Out.slot).Nodup := by
  intro h
  have := h 0 none [.leaf 1 (some 1), .leaf 2 none] [.leaf 1 (some (some 1)), .leaf 2 (some (some 1))]
    (by simp [toDict, toDicts, dumpIndex, Out.number, Out.members]) (by decide)
  simp [Out.slot] at this

/-- Not proved because it is false: that a member made with an index carries it.  The constructor's argument is overwritten. -/
theorem C52_constructor_refuted : ¬ ∀ (i : ℕ) (data : Option (Option ℕ)), data = none ∨ data = some none → constructed (some i) data = some i := by
  intro h
  exact absurd (h 3 none (.inl rfl)) (by decide)

/-- A book with a numbered blueprint, a planner without a number and an inner book. -/
example : toDict true true (.book 0 none [.leaf 1 (some 7), .leaf 2 none, .book 3 none [.leaf 4 none], .book 5 none []]) =
    .book 0 none (some [.leaf 1 (some (some 7)), .leaf 2 (some (some 1)), .book 3 (some (some 2)) (some [.leaf 4 (some (some 0))]),
      .book 5 (some (some 3)) none]) := by
  simp [toDict, toDicts, dumpIndex, Out.number]

end Book
end Draftsman
