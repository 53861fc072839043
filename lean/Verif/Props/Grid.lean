import Verif.Model.Grid
import Verif.Props.Checks
import Mathlib.Tactic.LinearCombination
/-
C120: rails on the double grid.
-/
namespace Draftsman
namespace Grid
open Checks

/-! ## Specification -/

/-- A place on the double grid: both coordinates are even. -/
def OnGrid (p : Rat × Rat) : Prop := (∃ k : Int, p.1 = 2 * (k : Rat)) ∧ ∃ k : Int, p.2 = 2 * (k : Rat)

/-- All groups, at any depth, are placed on the double grid within what they are in. -/
def GroupsOnGrid : Members → Prop
  | .nil => True
  | .entity _ _ r => GroupsOnGrid r
  | .group p i r => OnGrid p ∧ GroupsOnGrid i ∧ GroupsOnGrid r

/-! ## Lemmas -/

theorem even_iff (z : Int) : (∃ k : Int, (z : Rat) = 2 * (k : Rat)) ↔ Even z := by
  constructor
  · rintro ⟨k, hk⟩
    exact ⟨k, by have : z = 2 * k := by exact_mod_cast hk
                 omega⟩
  · rintro ⟨k, rfl⟩
    exact ⟨k, by push_cast; ring⟩

/-- Moving by an even number changes nothing. -/
theorem even_add {q d : Rat} (hd : ∃ k : Int, d = 2 * (k : Rat)) : (∃ k : Int, q + d = 2 * (k : Rat)) ↔ ∃ k : Int, q = 2 * (k : Rat) := by
  obtain ⟨j, rfl⟩ := hd
  constructor
  · rintro ⟨k, hk⟩
    exact ⟨k - j, by push_cast; linear_combination hk⟩
  · rintro ⟨k, hk⟩
    exact ⟨k + j, by push_cast; linear_combination hk⟩

theorem onGrid_add {p d : Rat × Rat} (hd : OnGrid d) : OnGrid (p.1 + d.1, p.2 + d.2) ↔ OnGrid p :=
  and_congr (even_add hd.1) (even_add hd.2)

theorem onGrid_add_odd {p : Rat × Rat} {x y : Int} (hp : OnGrid p) : OnGrid (p.1 + x, p.2 + y) ↔ Even x ∧ Even y := by
  have h1 := even_add (q := (x : Rat)) hp.1
  have h2 := even_add (q := (y : Rat)) hp.2
  rw [even_iff] at h1 h2
  unfold OnGrid
  simp only
  rw [add_comm p.1, add_comm p.2, h1, h2]

theorem places_shift (x y : Int) (m : Members) : ∀ o : Rat × Rat,
    places o (shift x y m) = (places o m).map fun e => (e.1, e.2.1 + (x : Rat), e.2.2 + (y : Rat)) := by
  have inner (i : Members) : ∀ o : Rat × Rat, places (o.1 + x, o.2 + y) i = (places o i).map fun e => (e.1, e.2.1 + (x : Rat), e.2.2 + (y : Rat)) := by
    induction i with
    | nil => intro o; rfl
    | entity b t r ih =>
      intro o
      simp only [places, List.map_cons, ih o]
      rw [add_right_comm, add_right_comm o.2]
    | group p i r ih1 ih2 =>
      intro o
      simp only [places, List.map_append, ih2 o, ← ih1]
      rw [add_right_comm, add_right_comm o.2]
  induction m with
  | nil => intro o; rfl
  | entity b t r ih =>
    intro o
    simp only [shift, places, List.map_cons, ih o]
    push_cast
    rw [add_assoc, add_assoc]
  | group p i r _ ih2 =>
    intro o
    simp only [shift, places, List.map_append, ih2 o, ← inner]
    rw [add_assoc, add_assoc]

/-! ## Theorems -/

/-- C120: a blueprint or group counts as bound to the double grid exactly when some entity in it, at whatever depth, is. -/
theorem C120_bound (m : Members) (o : Rat × Rat) : bound m = true ↔ ∃ e ∈ places o m, e.1 = true := by
  induction m generalizing o with
  | nil => simp [bound, places]
  | entity b t r ih =>
    simp only [bound, places, List.mem_cons, exists_eq_or_imp, ← ih o]
    cases b <;> simp
  | group p i r ih1 ih2 =>
    simp only [bound, places, List.mem_append, or_and_right, exists_or, ← ih2 o, ← ih1]
    cases bound i <;> simp

/-- C120: `translate` warns exactly when something bound to the grid is in the blueprint, at whatever depth, and the distance is odd in some
direction. -/
theorem C120_warned (m : Members) (x y : Int) :
    (translate m x y).2 = true ↔ (∃ e ∈ places (0, 0) m, e.1 = true) ∧ (Odd x ∨ Odd y) := by
  unfold translate
  rw [Bool.and_eq_true, C120_bound m (0, 0), Bool.or_eq_true, beq_iff_eq, beq_iff_eq, Int.odd_iff, Int.odd_iff]

/-- C120: `translate` moves every entity, at whatever depth, by the distance given, and no other; without a warning exactly those entities bound to
the grid are on it afterwards that were before. -/
theorem C120_translate (m : Members) (x y : Int) :
    (places (0, 0) (translate m x y).1).length = (places (0, 0) m).length ∧
    ∀ (i : ℕ) (e e' : Bool × Rat × Rat), (places (0, 0) m)[i]? = some e → (places (0, 0) (translate m x y).1)[i]? = some e' →
      e' = (e.1, e.2.1 + x, e.2.2 + y) ∧
      ((translate m x y).2 = false → e.1 = true → (OnGrid e'.2 ↔ OnGrid e.2)) := by
  rw [show places (0, 0) (translate m x y).1 = (places (0, 0) m).map fun e => (e.1, e.2.1 + (x : Rat), e.2.2 + (y : Rat)) from
    places_shift x y m (0, 0)]
  refine ⟨List.length_map _, fun i e e' h1 h2 => ?_⟩
  rw [List.getElem?_map, h1] at h2
  cases h2
  refine ⟨rfl, fun hq hb => ?_⟩
  have hn : ¬ (Odd x ∨ Odd y) := fun h =>
    absurd ((C120_warned m x y).2 ⟨⟨e, List.mem_of_getElem? h1, hb⟩, h⟩) (by rw [hq]; simp)
  rw [not_or, Int.not_odd_iff_even, Int.not_odd_iff_even, ← even_iff, ← even_iff] at hn
  exact onGrid_add (d := ((x : Rat), (y : Rat))) hn

theorem complaints_places (ctx : Ctx) (m : Members) : ∀ o, GroupsOnGrid m → OnGrid o →
    (complaints ctx m).length = (places o m).length ∧
    ∀ (i : ℕ) (e : Bool × Rat × Rat) (c : List Warn), (places o m)[i]? = some e → (complaints ctx m)[i]? = some c →
      (c ≠ [] ↔ Checked ctx ∧ e.1 = true ∧ ¬ OnGrid e.2) := by
  induction m with
  | nil => intro o _ _; exact ⟨rfl, fun i e c h => by simp [places] at h⟩
  | entity b t r ih =>
    intro o hg ho
    obtain ⟨h1, h2⟩ := ih o hg ho
    refine ⟨by simp [complaints, places, h1], fun i e c he hc => ?_⟩
    cases i with
    | succ i => exact h2 i e c he hc
    | zero =>
      simp only [places, complaints, List.getElem?_cons_zero, Option.some.injEq] at he hc
      subst he hc
      have hgrid : OnGrid (o.1 + (t.1 : Rat), o.2 + (t.2 : Rat)) ↔ Even t.1 ∧ Even t.2 := onGrid_add_odd ho
      obtain ⟨cx, cy, -, -, hr⟩ := C88_grid ctx t.1 t.2
      cases b with
      | false => simp
      | true =>
        simp only [if_true, true_and]
        rw [hgrid, not_and_or, Int.not_even_iff_odd, Int.not_even_iff_odd]
        constructor
        · intro hne
          by_contra hc
          exact hne (hr.2 hc)
        · intro h
          have := hr.1 h
          show gridAligned ctx (t.1, t.2) ≠ []
          rw [this]; simp
  | group p i r ih1 ih2 =>
    intro o hg ho
    obtain ⟨hp, hgi, hgr⟩ := hg
    obtain ⟨a1, a2⟩ := ih1 (o.1 + p.1, o.2 + p.2) hgi ((onGrid_add hp).2 ho)
    obtain ⟨b1, b2⟩ := ih2 o hgr ho
    refine ⟨by simp [complaints, places, a1, b1], fun n e c he hc => ?_⟩
    simp only [places, complaints] at he hc
    by_cases hn : n < (places (o.1 + p.1, o.2 + p.2) i).length
    · rw [List.getElem?_append_left hn] at he
      rw [List.getElem?_append_left (by omega)] at hc
      exact a2 n e c he hc
    · rw [List.getElem?_append_right (by omega)] at he
      rw [List.getElem?_append_right (by omega), a1] at hc
      exact b2 _ e c he hc

/-- C120: if all groups are placed on the double grid, validating the entities complains, in the modes in which it looks at all, of exactly those
bound to the grid that are not on it in the blueprint.  Missing: groups placed elsewhere, see `C120_group_refuted`. -/
theorem C120_check_partial (ctx : Ctx) (m : Members) (hg : GroupsOnGrid m) :
    (complaints ctx m).length = (places (0, 0) m).length ∧
    ∀ (i : ℕ) (e : Bool × Rat × Rat) (c : List Warn), (places (0, 0) m)[i]? = some e → (complaints ctx m)[i]? = some c →
      (c ≠ [] ↔ Checked ctx ∧ e.1 = true ∧ ¬ OnGrid e.2) :=
  complaints_places ctx m (0, 0) hg ⟨⟨0, by simp⟩, ⟨0, by simp⟩⟩

/-! ## Where the claim fails -/

/-- C120 fails for groups: a rail on the double grid of a group that is itself placed elsewhere is exported off the grid, and no mode of
validation complains of it; and a rail that an odd group puts on the grid is complained of. -/
theorem C120_group_refuted (ctx : Ctx) (p : Rat × Rat) (t : Int × Int) :
    (Even t.1 ∧ Even t.2 → ¬ OnGrid p → complaints ctx (.group p (.entity true t .nil) .nil) = [[]] ∧
      ∃ e, places (0, 0) (.group p (.entity true t .nil) .nil) = [e] ∧ ¬ OnGrid e.2) ∧
    (Checked ctx → Odd t.1 → OnGrid (p.1 + t.1, p.2 + t.2) → complaints ctx (.group p (.entity true t .nil) .nil) ≠ [[]] ∧
      ∃ e, places (0, 0) (.group p (.entity true t .nil) .nil) = [e] ∧ OnGrid e.2) := by
  obtain ⟨cx, cy, -, -, hr⟩ := C88_grid ctx t.1 t.2
  constructor
  · intro ht hp
    refine ⟨?_, _, rfl, ?_⟩
    · simp only [complaints, if_true, List.append_nil]
      rw [show gridAligned ctx t = [] from hr.2 (by
        rw [← Int.not_even_iff_odd, ← Int.not_even_iff_odd]; tauto)]
    · simp only [zero_add]
      rw [← even_iff, ← even_iff] at ht
      rwa [onGrid_add (p := p) (d := ((t.1 : Rat), (t.2 : Rat))) ht]
  · intro hc ho hg
    refine ⟨?_, _, rfl, by simpa only [zero_add] using hg⟩
    simp only [complaints, if_true, List.append_nil]
    rw [show gridAligned ctx t = _ from hr.1 ⟨hc, Or.inl ho⟩]
    simp

/-- C120 fails for what the warning of `translate` promises, that positions are cast to the grid on export: after a warning every rail that was
on the grid is exported off it. -/
theorem C120_cast_refuted (m : Members) (x y : Int) (hw : (translate m x y).2 = true) (i : ℕ) (e e' : Bool × Rat × Rat)
    (he : (places (0, 0) m)[i]? = some e) (he' : (places (0, 0) (translate m x y).1)[i]? = some e') (ho : OnGrid e.2) : ¬ OnGrid e'.2 := by
  obtain ⟨rfl, -⟩ := (C120_translate m x y).2 i e e' he he'
  have h := ((C120_warned m x y).1 hw).2
  show ¬ OnGrid (e.2.1 + (x : Rat), e.2.2 + (y : Rat))
  rw [onGrid_add_odd ho]
  rintro ⟨h1, h2⟩
  rcases h with h | h
  · exact (Int.not_odd_iff_even.2 h1) h
  · exact (Int.not_odd_iff_even.2 h2) h

/-! ## Concrete cases -/

/-- A chest, and a rail two groups deep. -/
def yard : Members := .entity false (3, 5) (.group (10, 4) (.group (2, 0) (.entity true (-4, 6) .nil) .nil) .nil)

example : bound yard = true ∧ places (0, 0) yard = [(false, 3, 5), (true, 8, 10)] ∧ (translate yard (-3) 2).2 = true ∧
    (translate yard (-2) 4).2 = false ∧ places (0, 0) (translate yard (-3) 2).1 = [(false, 0, 7), (true, 5, 12)] ∧
    complaints (some .strict) yard = [[], []] ∧
    complaints (some .strict) (.entity true (3, 0) yard) = [[.grid 3 0 2 0], [], []] := by decide +kernel

example : GroupsOnGrid yard ∧ OnGrid (8, 10) ∧ ¬ OnGrid (1 / 2, 0) ∧ OnGrid ((1 : Rat) + (3 : Int), (0 : Rat) + (2 : Int)) := by
  refine ⟨⟨⟨⟨5, by norm_num⟩, 2, by norm_num⟩, ⟨⟨⟨1, by norm_num⟩, 0, by norm_num⟩, trivial, trivial⟩, trivial⟩,
    ⟨⟨4, by norm_num⟩, 5, by norm_num⟩, ?_, ⟨⟨2, by norm_num⟩, 1, by norm_num⟩⟩
  rintro ⟨⟨k, hk⟩, -⟩
  have : (1 : Rat) = ((4 * k : Int) : Rat) := by push_cast; linear_combination 2 * hk
  have : (1 : Int) = 4 * k := by exact_mod_cast this
  omega

end Grid
end Draftsman
