import Verif.Model.NestedList
import Mathlib.Tactic.Common
/-
C116: entity lists with groups in them.
-/
namespace Draftsman
namespace NestedList

/-- Specification: the same object, or two entities with equal data and ids. -/
def Same (a b : EL) : Prop := a.uid = b.uid ∨ (∃ k, a.key = some k ∧ b.key = some k ∧ a.id = b.id)

mutual
/-- Specification: a member and, if it is a group, everything in it. -/
def NM.all : NM → List EL
  | .ent e => [e]
  | .grp e l => e :: allOf l
/-- Specification: everything in a list, at any depth. -/
def allOf : List NM → List EL
  | [] => []
  | m :: r => m.all ++ allOf r
end

/-- Specification: the members of the groups of a list, one level down. -/
def oneDown (l : List NM) : List NM := l.flatMap fun m => match m with | .ent _ => [] | .grp _ l' => l'

theorem is_iff (x : EL) (m : NM) : m.is x = true ↔ Same m.el x := by
  unfold NM.is EL.eqv Same
  rw [Bool.or_eq_true, Bool.and_eq_true, Bool.and_eq_true, decide_eq_true_eq, decide_eq_true_eq, decide_eq_true_eq, Option.isSome_iff_exists]
  constructor
  · rintro (h | ⟨⟨⟨k, hk⟩, h1⟩, h2⟩)
    · exact .inl h
    · exact .inr ⟨k, hk, h1 ▸ hk, h2⟩
  · rintro (h | ⟨k, h1, h2, h3⟩)
    · exact .inl h
    · exact .inr ⟨⟨⟨k, h1⟩, h1.trans h2.symm⟩, h3⟩

theorem here_iff (x : EL) (l : List NM) : here x l = true ↔ ∃ m ∈ l, Same m.el x := by
  unfold here
  rw [List.any_eq_true]
  exact exists_congr fun m => and_congr_right fun _ => is_iff x m

mutual
theorem inGroup_iff (x : EL) : (m : NM) → (inGroup x m = true ∨ Same m.el x ↔ ∃ e ∈ m.all, Same e x)
  | .ent e => by simp [inGroup, NM.all, NM.el]
  | .grp e l => by
    have := below_iff x l
    simp only [inGroup, NM.all, NM.el, List.mem_cons, exists_eq_or_imp, Bool.or_eq_true]
    rw [← this, here_iff]
    simp only [or_comm]
theorem below_iff (x : EL) : (l : List NM) → (below x l = true ∨ (∃ m ∈ l, Same m.el x) ↔ ∃ e ∈ allOf l, Same e x)
  | [] => by simp [below, allOf]
  | m :: r => by
    have h1 := inGroup_iff x m
    have h2 := below_iff x r
    have h3 : (∃ n ∈ m :: r, Same n.el x) ↔ Same m.el x ∨ ∃ n ∈ r, Same n.el x := by simp
    rw [h3]
    simp only [below, allOf, List.mem_append, Bool.or_eq_true, or_and_right, exists_or]
    rw [← h1, ← h2]
    simp only [or_assoc, or_comm, or_left_comm]
end

/-- C116: `in` finds a member at any depth: the object itself, or an equal entity. -/
theorem C116_contains (x : EL) (l : List NM) : contains x l = true ↔ ∃ e ∈ allOf l, Same e x := by
  unfold contains
  rw [Bool.or_eq_true, here_iff, ← below_iff, or_comm]

theorem remove_split {x : EL} {p q : List NM} {m : NM} (hp : ∀ y ∈ p, ¬ Same y.el x) (hm : Same m.el x) :
    remove x (p ++ m :: q) = some (p ++ q) := by
  induction p with
  | nil =>
    simp only [List.nil_append, remove, (is_iff x m).2 hm, if_true]
  | cons y r ih =>
    have h1 : ¬ (y.is x = true) := fun h => hp y (List.mem_cons_self ..) ((is_iff x y).1 h)
    simp only [List.cons_append, remove, h1, ih fun z hz => hp z (List.mem_cons_of_mem _ hz), Option.map_some]
    rfl

theorem remove_none {x : EL} {l : List NM} : remove x l = none ↔ ∀ y ∈ l, ¬ Same y.el x := by
  induction l with
  | nil => simp [remove]
  | cons m r ih =>
    unfold remove
    by_cases h : m.is x = true
    · simp only [h, if_true, List.mem_cons, forall_eq_or_imp, reduceCtorEq, false_iff, not_and]
      exact fun h' => absurd ((is_iff x m).1 h) h'
    · have h' : ¬ Same m.el x := fun hs => h ((is_iff x m).2 hs)
      rw [if_neg h, Option.map_eq_none_iff, ih]
      simp only [List.mem_cons, forall_eq_or_imp]
      exact ⟨fun hr => ⟨h', hr⟩, fun hr => hr.2⟩

theorem removeBelow_none {x : EL} {l : List NM} : removeBelow x l = none ↔ ∀ y ∈ oneDown l, ¬ Same y.el x := by
  induction l with
  | nil => simp [removeBelow, oneDown]
  | cons m r ih =>
    cases m with
    | ent e => simpa [removeBelow, oneDown] using ih
    | grp e l' =>
      unfold removeBelow
      have e1 : oneDown (.grp e l' :: r) = l' ++ oneDown r := by simp [oneDown]
      rw [e1]
      cases h : remove x l' with
      | none =>
        have h' := remove_none.1 h
        simp only [Option.map_eq_none_iff, ih, List.mem_append]
        exact ⟨fun hr y hy => hy.elim (h' y) (hr y), fun hr y hy => hr y (.inr hy)⟩
      | some l'' =>
        simp only [reduceCtorEq, false_iff]
        intro hall
        have := remove_none.2 fun y hy => hall y (List.mem_append_left _ hy)
        rw [this] at h; simp at h

theorem removeBelow_split {x : EL} {p q p' q' : List NM} {e : EL} {m : NM} (hp : ∀ y ∈ oneDown p, ¬ Same y.el x)
    (hp' : ∀ y ∈ p', ¬ Same y.el x) (hm : Same m.el x) :
    removeBelow x (p ++ .grp e (p' ++ m :: q') :: q) = some (p ++ .grp e (p' ++ q') :: q) := by
  induction p with
  | nil => simp only [List.nil_append, removeBelow, remove_split hp' hm]
  | cons y r ih =>
    cases y with
    | ent f =>
      have h1 := ih fun z hz => hp z (by simpa [oneDown] using hz)
      simp only [List.cons_append, removeBelow, h1, Option.map_some]
    | grp f l' =>
      have e1 : oneDown (.grp f l' :: r) = l' ++ oneDown r := by simp [oneDown]
      rw [e1] at hp
      have h0 : remove x l' = none := remove_none.2 fun z hz => hp z (List.mem_append_left _ hz)
      have h1 := ih fun z hz => hp z (List.mem_append_right _ hz)
      simp only [List.cons_append, removeBelow, h0, h1, Option.map_some]

/-- C116: a match in the list itself is removed before any in its groups, the first one, and all others stay. -/
theorem C116_root_first (x : EL) (p q : List NM) (m : NM) (hp : ∀ y ∈ p, ¬ Same y.el x) (hm : Same m.el x) :
    recursiveRemove x (p ++ m :: q) = (p ++ q, none) := by
  unfold recursiveRemove
  rw [remove_split hp hm]

/-- C116: without a match in the list itself, the first match in the first group having one is removed, and all others stay. -/
theorem C116_group_next (x e : EL) (p q p' q' : List NM) (m : NM) (hl : ∀ y ∈ p ++ .grp e (p' ++ m :: q') :: q, ¬ Same y.el x)
    (hp : ∀ y ∈ oneDown p, ¬ Same y.el x) (hp' : ∀ y ∈ p', ¬ Same y.el x) (hm : Same m.el x) :
    recursiveRemove x (p ++ .grp e (p' ++ m :: q') :: q) = (p ++ .grp e (p' ++ q') :: q, none) := by
  unfold recursiveRemove
  rw [remove_none.2 hl, removeBelow_split hp hp' hm]

/-- C116: a removal fails, always with `ValueError` and without any effect, exactly if neither the list itself nor one of its groups
directly holds a match. -/
theorem C116_refuses (x : EL) (l : List NM) :
    (recursiveRemove x l = (l, some .valueError) ↔ ∀ y ∈ l ++ oneDown l, ¬ Same y.el x) ∧
    ((recursiveRemove x l).2 = none ∨ recursiveRemove x l = (l, some .valueError)) := by
  unfold recursiveRemove
  cases h : remove x l with
  | some l' =>
    refine ⟨?_, .inl rfl⟩
    simp only [Prod.mk.injEq, reduceCtorEq, and_false, false_iff]
    intro hall
    rw [remove_none.2 fun y hy => hall y (List.mem_append_left _ hy)] at h
    simp at h
  | none =>
    have h1 := remove_none.1 h
    cases h2 : removeBelow x l with
    | some l' =>
      refine ⟨?_, .inl rfl⟩
      simp only [Prod.mk.injEq, reduceCtorEq, and_false, false_iff]
      intro hall
      rw [removeBelow_none.2 fun y hy => hall y (List.mem_append_right _ hy)] at h2
      simp at h2
    | none =>
      have h3 := removeBelow_none.1 h2
      refine ⟨⟨fun _ y hy => (List.mem_append.1 hy).elim (h1 y) (h3 y), fun _ => rfl⟩, .inr rfl⟩

/-- The groups of the list hold entities only. -/
def Flat (l : List NM) : Prop := ∀ y ∈ oneDown l, ∃ e, y = .ent e

theorem allOf_ents (l : List NM) (h : ∀ y ∈ l, ∃ e, y = NM.ent e) : allOf l = l.map (·.el) := by
  induction l with
  | nil => rfl
  | cons m r ih =>
    obtain ⟨e, rfl⟩ := h m (List.mem_cons_self ..)
    simp [allOf, NM.all, NM.el, ih fun y hy => h y (List.mem_cons_of_mem _ hy)]

theorem allOf_flat (l : List NM) (h : Flat l) (e : EL) : e ∈ allOf l ↔ ∃ y ∈ l ++ oneDown l, y.el = e := by
  induction l with
  | nil => simp [allOf, oneDown]
  | cons m r ih =>
    cases m with
    | ent f =>
      have e1 : oneDown (.ent f :: r) = oneDown r := by simp [oneDown]
      have ih := ih (by unfold Flat at *; rwa [e1] at h)
      rw [e1]
      simp only [allOf, NM.all, List.cons_append, List.nil_append, List.mem_cons, exists_eq_or_imp, NM.el]
      rw [ih]
      constructor
      · rintro (h | h)
        · exact .inl h.symm
        · exact .inr h
      · rintro (h | h)
        · exact .inl h.symm
        · exact .inr h
    | grp f l' =>
      have e1 : oneDown (.grp f l' :: r) = l' ++ oneDown r := by simp [oneDown]
      have h' : Flat (.grp f l' :: r) := h
      unfold Flat at h'
      rw [e1] at h'
      have ih := ih fun y hy => h' y (List.mem_append_right _ hy)
      have e2 := allOf_ents l' fun y hy => h' y (List.mem_append_left _ hy)
      rw [e1]
      simp only [allOf, NM.all, List.cons_append, List.mem_cons, List.mem_append, e2, List.mem_map, ih, exists_eq_or_imp, NM.el]
      constructor
      · rintro (h | ⟨y, hy, h⟩ | ⟨y, hy, h⟩)
        · exact .inl h.symm
        · exact .inr ⟨y, .inr (.inl hy), h⟩
        · rcases hy with hy | hy
          · exact .inr ⟨y, .inl hy, h⟩
          · exact .inr ⟨y, .inr (.inr hy), h⟩
      · rintro (h | ⟨y, hy | hy | hy, h⟩)
        · exact .inl h.symm
        · exact .inr (.inr ⟨y, .inl hy, h⟩)
        · exact .inr (.inl ⟨y, hy, h⟩)
        · exact .inr (.inr ⟨y, .inr hy, h⟩)

/-- C116: where no group holds groups, everything that is `in` the list can be removed and nothing else.  Missing for the full property:
groups in groups, where it is false (`C116_deep_refuted`). -/
theorem C116_removes_partial (x : EL) (l : List NM) (h : Flat l) : (recursiveRemove x l).2 = none ↔ contains x l = true := by
  obtain ⟨h1, h2⟩ := C116_refuses x l
  rw [C116_contains]
  constructor
  · intro hn
    by_contra hc
    have : recursiveRemove x l = (l, some .valueError) := h1.2 fun y hy hs => hc ⟨y.el, (allOf_flat l h _).2 ⟨y, hy, rfl⟩, hs⟩
    rw [this] at hn; simp at hn
  · rintro ⟨e, he, hs⟩
    rcases h2 with h2 | h2
    · exact h2
    · obtain ⟨y, hy, rfl⟩ := (allOf_flat l h e).1 he
      exact absurd hs (h1.1 h2 y hy)

/-- A belt, a group with two belts in it, and a chest. -/
def C116_list : List NM :=
  [.ent ⟨0, none, some 0⟩, .grp ⟨1, some "g", none⟩ [.ent ⟨2, some "a", some 1⟩, .ent ⟨3, none, some 2⟩], .ent ⟨4, none, some 3⟩]

example : Flat C116_list ∧ contains ⟨3, none, some 2⟩ C116_list = true ∧ contains ⟨9, none, some 9⟩ C116_list = false := by
  refine ⟨?_, by decide, by decide⟩
  intro y hy
  simp only [oneDown, C116_list, List.flatMap_cons, List.flatMap_nil, List.nil_append, List.append_nil, List.mem_cons, List.not_mem_nil,
    or_false] at hy
  rcases hy with rfl | rfl <;> exact ⟨_, rfl⟩

example : recursiveRemove ⟨3, none, some 2⟩ C116_list =
    ([.ent ⟨0, none, some 0⟩, .grp ⟨1, some "g", none⟩ [.ent ⟨2, some "a", some 1⟩], .ent ⟨4, none, some 3⟩], none) := rfl

/-- C116 fails two groups down, whatever else the groups hold: an entity in a group in a group is `in` the list, but `recursive_remove`
says it is not there, since it calls the plain `remove` of the inner lists. -/
theorem C116_deep_refuted (x g h : EL) (hg : ¬ Same g x) (hh : ¬ Same h x) :
    contains x [.grp g [.grp h [.ent x]]] = true ∧ recursiveRemove x [.grp g [.grp h [.ent x]]] =
      ([.grp g [.grp h [.ent x]]], some .valueError) := by
  constructor
  · rw [C116_contains]
    exact ⟨x, by simp [allOf, NM.all], .inl rfl⟩
  · rw [(C116_refuses x _).1]
    intro y hy
    simp only [oneDown, List.flatMap_cons, List.flatMap_nil, List.append_nil, List.cons_append, List.nil_append, List.mem_cons,
      List.not_mem_nil, or_false] at hy
    rcases hy with rfl | rfl
    · exact hg
    · exact hh

/-- C116 fails for equal entities: asked to remove the second of two, the first one goes. -/
theorem C116_equal_refuted :
    recursiveRemove ⟨1, none, some 7⟩ [.ent ⟨0, none, some 7⟩, .ent ⟨1, none, some 7⟩] = ([.ent ⟨1, none, some 7⟩], none) := rfl

/-! ## Paths -/

/-- Specification: what a position or an id stands for. -/
def Found (l : List NM) (s : Step) (m : NM) : Prop :=
  match s with
  | .pos i => (∃ n : ℕ, i = n ∧ l[n]? = some m) ∨ (∃ n : ℕ, i < 0 ∧ (n : Int) = l.length + i ∧ l[n]? = some m)
  | .id k => k ≠ "" ∧ ∃ p q, l = p ++ m :: q ∧ m.el.id = some k ∧ ∀ y ∈ p, y.el.id ≠ some k

/-- Specification: the member a path leads to. -/
def Reach (l : List NM) : List Step → NM → Prop
  | [], _ => False
  | [s], m => Found l s m
  | s :: t :: r, m => ∃ e l', Found l s (.grp e l') ∧ Reach l' (t :: r) m

theorem at1_iff (l : List NM) (s : Step) (m : NM) : at1 l s = .ok m ↔ Found l s m := by
  cases s with
  | pos i =>
    simp only [at1, Found, EList.pyIndex]
    by_cases h1 : 0 ≤ i ∧ i < l.length
    · simp only [h1, and_self, if_true]
      obtain ⟨n, rfl⟩ := Int.eq_ofNat_of_zero_le h1.1
      have hn : n < l.length := by omega
      simp only [Int.toNat_natCast, List.getElem?_eq_getElem hn, Except.ok.injEq]
      constructor
      · rintro rfl; exact .inl ⟨n, rfl, List.getElem?_eq_getElem hn⟩
      · rintro (⟨n', h, h'⟩ | ⟨n', h, -⟩)
        · have : n = n' := by omega
          subst this
          rw [List.getElem?_eq_getElem hn] at h'
          simpa using h'
        · omega
    · rw [if_neg h1]
      by_cases h2 : i < 0 ∧ 0 ≤ i + l.length
      · rw [if_pos h2]
        obtain ⟨n, hn'⟩ := Int.eq_ofNat_of_zero_le h2.2
        have hn : n < l.length := by omega
        simp only [hn', Int.toNat_natCast, List.getElem?_eq_getElem hn, Except.ok.injEq]
        constructor
        · rintro rfl; exact .inr ⟨n, h2.1, by omega, List.getElem?_eq_getElem hn⟩
        · rintro (⟨n', h, -⟩ | ⟨n', h, h', h''⟩)
          · omega
          · have : n = n' := by omega
            subst this
            rw [List.getElem?_eq_getElem hn] at h''
            simpa using h''
      · rw [if_neg h2]
        simp only [reduceCtorEq, false_iff]
        rintro (⟨n', h, h'⟩ | ⟨n', h, h', h''⟩)
        · obtain ⟨hlt, -⟩ := List.getElem?_eq_some_iff.1 h'
          omega
        · omega
  | id k =>
    simp only [at1, Found]
    cases hf : l.find? (fun m => decide (m.el.id = some k) && decide (k ≠ "")) with
    | none =>
      simp only [reduceCtorEq, false_iff]
      rintro ⟨hk, p, q, rfl, hm, -⟩
      have := List.find?_eq_none.1 hf m (by simp)
      simp [hm, hk] at this
    | some m' =>
      obtain ⟨h1, p, q, rfl, h2⟩ := List.find?_eq_some_iff_append.1 hf
      rw [Bool.and_eq_true, decide_eq_true_eq, decide_eq_true_eq] at h1
      simp only [Except.ok.injEq]
      constructor
      · rintro rfl
        refine ⟨h1.2, p, q, rfl, h1.1, fun y hy => ?_⟩
        have := h2 y hy
        simpa [h1.2] using this
      · rintro ⟨hk, p', q', he, hm, hp'⟩
        have : List.find? (fun m : NM => decide (m.el.id = some k) && decide (k ≠ "")) (p' ++ m :: q') = some m := by
          rw [List.find?_eq_some_iff_append]
          refine ⟨by simp [hm, hk], p', q', rfl, fun y hy => by simp [hp' y hy]⟩
        rw [← he, hf] at this
        simpa using this

/-- C116: two or more steps lead to a member exactly if each step but the last names a group and the next is taken in it; positions may
count from the end. -/
theorem C116_path (l : List NM) (s t : Step) (r : List Step) (m : NM) : atPath l (s :: t :: r) = .ok m ↔ Reach l (s :: t :: r) m := by
  induction r generalizing l s t with
  | nil =>
    unfold atPath Reach
    constructor
    · intro h
      cases h1 : at1 l s with
      | error e => simp [h1] at h
      | ok b =>
        cases b with
        | ent e => simp [h1, entitiesOf] at h
        | grp e l' =>
          simp only [h1, entitiesOf] at h
          exact ⟨e, l', (at1_iff ..).1 h1, (at1_iff ..).1 h⟩
    · rintro ⟨e, l', h1, h2⟩
      simp only [(at1_iff ..).2 h1, entitiesOf]
      exact (at1_iff ..).2 h2
  | cons u r ih =>
    unfold atPath Reach
    constructor
    · intro h
      cases h1 : at1 l s with
      | error e => simp [h1] at h
      | ok b =>
        cases b with
        | ent e => simp [h1, entitiesOf] at h
        | grp e l' =>
          simp only [h1, entitiesOf] at h
          exact ⟨e, l', (at1_iff ..).1 h1, (ih ..).1 h⟩
    · rintro ⟨e, l', h1, h2⟩
      simp only [(at1_iff ..).2 h1, entitiesOf]
      exact (ih ..).2 h2

example : Reach C116_list [.id "g", .pos (-1)] (.ent ⟨3, none, some 2⟩) :=
  ⟨⟨1, some "g", none⟩, _, ⟨by decide, [.ent ⟨0, none, some 0⟩], [.ent ⟨4, none, some 3⟩], rfl, rfl, by
    intro y hy; rw [List.mem_singleton.1 hy]; decide⟩, .inr ⟨1, by decide, by decide, rfl⟩⟩

/-- C116 fails for a path of one step: it leads nowhere, whatever the list and the step. -/
theorem C116_single_refuted (l : List NM) (s : Step) : ∀ m, atPath l [s] ≠ .ok m := by
  intro m h
  unfold atPath at h
  cases h1 : at1 l s with
  | error e => simp [h1] at h
  | ok b => cases b <;> simp [h1, entitiesOf] at h

/-- C116: a path whose first step leads nowhere fails with `IndexError` for a position and with `KeyError` for an id. -/
theorem C116_path_error (l : List NM) (s t : Step) (r : List Step) (h : ∀ m, ¬ Found l s m) :
    atPath l (s :: t :: r) = .error (match s with | .pos _ => .indexError | .id _ => .keyError) := by
  have h1 : at1 l s = .error (match s with | .pos _ => .indexError | .id _ => .keyError) := by
    cases he : at1 l s with
    | ok m => exact absurd ((at1_iff l s m).1 he) (h m)
    | error e =>
      cases s with
      | pos i =>
        simp only [at1] at he
        split at he
        · simpa using he.symm
        · split at he
          · simp at he
          · simpa using he.symm
      | id k =>
        simp only [at1] at he
        split at he
        · simp at he
        · simpa using he.symm
  cases r with
  | nil => simp only [atPath, h1]
  | cons u r => simp only [atPath, h1]

example : ∀ m, ¬ Found [.ent ⟨0, some "a", some 7⟩] (.id "b") m := by
  rintro m ⟨-, p, q, h, hid, -⟩
  have hm : m ∈ ([.ent ⟨0, some "a", some 7⟩] : List NM) := by rw [h]; simp
  rw [List.mem_singleton] at hm
  subst hm
  simp [NM.el] at hid

end NestedList
end Draftsman
