import Verif.Model.SetAlgebra
import Verif.Props.EntityList
/-
C19: set algebra of entity lists and tile lists.
-/
namespace Draftsman
open EList

namespace SetAlg
variable {α : Type} (eq : α → α → Bool)

theorem flag_iff (p : α → Bool) (l : List α) : flag p l = true ↔ ∃ x ∈ l, p x = true := by
  induction l with
  | nil => simp [flag]
  | cons x r ih =>
    simp only [flag, List.mem_cons, exists_eq_or_imp]
    by_cases h : p x = true
    · simp [h]
    · rw [if_neg h, ih]; simp [h]

theorem inter_eq (l r : List α) : inter eq l r = l.filter fun x => flag (fun y => eq y x) r := by
  induction l with
  | nil => rfl
  | cons x l ih => simp only [inter, List.filter_cons, ih]

theorem diff_eq (l r : List α) : diff eq l r = l.filter fun x => !flag (fun y => eq y x) r := by
  induction l with
  | nil => rfl
  | cons x l ih =>
    simp only [diff, List.filter_cons, ih]
    cases flag (fun y => eq y x) r <;> simp

theorem unionTail_eq (l r : List α) : unionTail eq l r = r.filter fun y => !flag (fun x => eq x y) l := by
  induction r with
  | nil => rfl
  | cons x r ih =>
    simp only [unionTail, List.filter_cons, ih]
    cases flag (fun y => eq y x) l <;> simp

end SetAlg

open SetAlg

/-- C19: the intersection keeps, in order and with their multiplicities, exactly the members of the left list that equal some
member of the right. -/
theorem C19_inter {α : Type} (eq : α → α → Bool) (l r : List α) :
    (inter eq l r).Sublist l ∧
    (∀ x, x ∈ inter eq l r ↔ x ∈ l ∧ ∃ y ∈ r, eq y x = true) ∧
    (∀ p : α → Bool, (∀ x, p x = true → ∃ y ∈ r, eq y x = true) → (inter eq l r).filter p = l.filter p) := by
  rw [inter_eq]
  refine ⟨List.filter_sublist, fun x => by simp [flag_iff], fun p hp => ?_⟩
  rw [List.filter_filter]
  apply List.filter_congr
  intro x _
  by_cases h : p x = true
  · simp [h, (flag_iff _ _).2 (hp x h)]
  · simp [h]

/-- C19: the difference keeps, in order and with their multiplicities, exactly the members of the left list that equal no member
of the right. -/
theorem C19_diff {α : Type} (eq : α → α → Bool) (l r : List α) :
    (diff eq l r).Sublist l ∧
    (∀ x, x ∈ diff eq l r ↔ x ∈ l ∧ ∀ y ∈ r, eq y x = false) ∧
    (∀ p : α → Bool, (∀ x, p x = true → ∀ y ∈ r, eq y x = false) → (diff eq l r).filter p = l.filter p) := by
  rw [diff_eq]
  have hf : ∀ x, (!flag (fun y => eq y x) r) = true ↔ ∀ y ∈ r, eq y x = false := by
    intro x
    rw [Bool.not_eq_true', ← Bool.not_eq_true, flag_iff]
    simp
  refine ⟨List.filter_sublist, fun x => by rw [List.mem_filter, hf], fun p hp => ?_⟩
  rw [List.filter_filter]
  apply List.filter_congr
  intro x _
  by_cases h : p x = true
  · rw [h, (hf x).2 (hp x h)]; rfl
  · simp [h]

/-- C19: intersection and difference partition the left list. -/
theorem C19_partition {α : Type} (eq : α → α → Bool) (l r : List α) :
    (inter eq l r ++ diff eq l r).Perm l ∧ ∀ x ∈ inter eq l r, x ∉ diff eq l r := by
  constructor
  · rw [inter_eq, diff_eq]
    exact List.filter_append_perm _ l
  · intro x hx hd
    obtain ⟨-, y, hy, he⟩ := (C19_inter eq l r).2.1 x |>.1 hx
    have := ((C19_diff eq l r).2.1 x |>.1 hd).2 y hy
    rw [he] at this; simp at this

/-- C19: the union is the left list followed by exactly those members of the right list, in order, that equal no member of the
left. -/
theorem C19_union {α : Type} (eq : α → α → Bool) (l r : List α) :
    ∃ t : List α, union eq l r = l ++ t ∧ t.Sublist r ∧ (∀ y, y ∈ t ↔ y ∈ r ∧ ∀ x ∈ l, eq x y = false) ∧
      (∀ p : α → Bool, (∀ y, p y = true → ∀ x ∈ l, eq x y = false) → t.filter p = r.filter p) := by
  refine ⟨unionTail eq l r, rfl, ?_, ?_, ?_⟩
  all_goals rw [unionTail_eq]
  · exact List.filter_sublist
  all_goals
    have hf : ∀ y, (!flag (fun x => eq x y) l) = true ↔ ∀ x ∈ l, eq x y = false := by
      intro x
      rw [Bool.not_eq_true', ← Bool.not_eq_true, flag_iff]
      simp
  · intro y
    rw [List.mem_filter, hf]
  · intro p hp
    rw [List.filter_filter]
    apply List.filter_congr
    intro x _
    by_cases h : p x = true
    · rw [h, (hf x).2 (hp x h)]; rfl
    · simp [h]

/-- C19: for an equality that is an equivalence, something equals a member of the union exactly when it equals a member of the left
or of the right list. -/
theorem C19_union_mem {α : Type} (eq : α → α → Bool)
    (ht : ∀ x y z, eq x y = true → eq y z = true → eq x z = true) (l r : List α) (z : α) :
    (∃ x ∈ union eq l r, eq x z = true) ↔ (∃ x ∈ l, eq x z = true) ∨ (∃ x ∈ r, eq x z = true) := by
  obtain ⟨t, e, -, hm, -⟩ := C19_union eq l r
  rw [e]
  constructor
  · rintro ⟨x, hx, hz⟩
    rcases List.mem_append.1 hx with h | h
    · exact Or.inl ⟨x, h, hz⟩
    · exact Or.inr ⟨x, ((hm x).1 h).1, hz⟩
  · rintro (⟨x, hx, hz⟩ | ⟨y, hy, hz⟩)
    · exact ⟨x, List.mem_append_left _ hx, hz⟩
    · by_cases h : ∀ x ∈ l, eq x y = false
      · exact ⟨y, List.mem_append_right _ ((hm y).2 ⟨hy, h⟩), hz⟩
      · push Not at h
        obtain ⟨x, hx, he⟩ := h
        have he : eq x y = true := by simpa using he
        exact ⟨x, List.mem_append_left _ hx, ht x y z he hz⟩

/-- C19: if neither list has two equal members, neither has the union.  Missing for the full property: right lists with equal
members, for which it is false. -/
theorem C19_union_once_partial {α : Type} (eq : α → α → Bool) (l r : List α)
    (hl : l.Pairwise fun x y => eq x y = false) (hr : r.Pairwise fun x y => eq x y = false) :
    (union eq l r).Pairwise fun x y => eq x y = false := by
  obtain ⟨t, e, hs, hm, -⟩ := C19_union eq l r
  rw [e, List.pairwise_append]
  exact ⟨hl, hr.sublist hs, fun x hx y hy => ((hm y).1 hy).2 x hx⟩

/-- C19 fails for equal members within the right list: the union has both. -/
theorem C19_union_once_refuted :
    SetAlg.union TileV.eqv [] [⟨"concrete", 0, 0⟩, ⟨"concrete", 0, 0⟩] = [⟨"concrete", 0, 0⟩, ⟨"concrete", 0, 0⟩] := by decide

/-- `Tile.__eq__` is an equivalence, so `C19_union_mem` applies to tile lists. -/
theorem C19_tile_equality :
    (∀ x : TileV, x.eqv x = true) ∧ (∀ x y : TileV, x.eqv y = y.eqv x) ∧
    (∀ x y z : TileV, x.eqv y = true → y.eqv z = true → x.eqv z = true) := by
  have h : ∀ x y : TileV, x.eqv y = true ↔ x = y := by
    intro x y
    obtain ⟨n, a, b⟩ := x
    obtain ⟨n', a', b'⟩ := y
    simp [TileV.eqv]
  refine ⟨fun x => (h x x).2 rfl, fun x y => ?_, fun x y z h1 h2 => ?_⟩
  · rw [Bool.eq_iff_iff, h, h]; exact eq_comm
  · rw [h] at h1 h2 ⊢; exact h1.trans h2

example : SetAlg.union TileV.eqv [⟨"a", 0, 0⟩, ⟨"a", 0, 0⟩] [⟨"b", 1, 1⟩, ⟨"a", 0, 0⟩] = [⟨"a", 0, 0⟩, ⟨"a", 0, 0⟩, ⟨"b", 1, 1⟩] ∧
    SetAlg.inter TileV.eqv [⟨"a", 0, 0⟩, ⟨"c", 0, 0⟩] [⟨"b", 1, 1⟩, ⟨"a", 0, 0⟩] = [⟨"a", 0, 0⟩] ∧
    SetAlg.diff TileV.eqv [⟨"a", 0, 0⟩, ⟨"c", 0, 0⟩] [⟨"b", 1, 1⟩, ⟨"a", 0, 0⟩] = [⟨"c", 0, 0⟩] := by decide

/-! ### Entity lists: the id check of every append -/

theorem EList.copies_map (f : EL → Option String × Option Nat) (hf : ∀ e u, f { e with uid := u } = f e) (l : List EL) (n : ℕ) :
    (copies n l).map f = l.map f := by
  induction l generalizing n with
  | nil => rfl
  | cons e r ih => simp [copies, hf, ih]

theorem EList.copies_uid (l : List EL) (n : ℕ) : ∀ e ∈ copies n l, n ≤ e.uid := by
  induction l generalizing n with
  | nil => simp [copies]
  | cons a r ih =>
    intro e he
    rcases List.mem_cons.1 he with rfl | he
    · exact le_rfl
    · have := ih (n + 1) e he
      omega

/-- Extending a list by objects numbered from `n` upwards. -/
theorem EList.extend_good (l : List EL) (n : ℕ) (s : EList) (h : Good s) (hu : ∀ e ∈ s.root, e.uid < n) :
    (s.extend (copies n l)).2 = none ∧ (s.extend (copies n l)).1.root = s.root ++ copies n l ∧ Good (s.extend (copies n l)).1 ∨
    (s.extend (copies n l)).2 = some .duplicateId ∧
      ¬ ((s.root ++ l).Pairwise fun a b => a.id = b.id → a.id = none ∨ a.id = some "") := by
  induction l generalizing n s with
  | nil => left; simp [copies, extend, h]
  | cons e r ih =>
    simp only [copies, extend]
    cases ht : s.idTaken { e with uid := n } with
    | true =>
      right
      have h1 : s.append { e with uid := n } = (s, some .duplicateId) := by simp [append, EList.insert, ht]
      rw [h1]
      refine ⟨rfl, fun hp => ?_⟩
      obtain ⟨ht', e', he', hid⟩ := (idTaken_iff h _).1 ht
      obtain ⟨h2, h3⟩ := (truthy_iff _).1 ht'
      rw [List.pairwise_append] at hp
      rcases hp.2.2 e' he' e List.mem_cons_self hid with x | x
      · exact h2 (by rw [← hid]; exact x)
      · exact h3 (by rw [← hid]; exact x)
    | false =>
      obtain ⟨s', h1, h2, h3⟩ := good_insert h (idx := s.root.length) (by omega) (v := { e with uid := n }) (by
        intro hm
        obtain ⟨e', he', hu'⟩ := List.mem_map.1 hm
        have := hu e' he'
        simp only at hu'
        omega) ht
      have h1' : s.append { e with uid := n } = (s', none) := h1
      rw [h1']
      have hr : s'.root = s.root ++ [{ e with uid := n }] := by
        rw [h2]; simp [List.insertIdx_length_self]
      have := ih (n + 1) s' h3 (by
        rw [hr]
        intro e' he'
        rcases List.mem_append.1 he' with he' | he'
        · have := hu e' he'; omega
        · simp only [List.mem_singleton] at he'; subst he'; simp)
      rw [hr] at this
      rcases this with h4 | ⟨h4, h5⟩
      · left
        simpa using h4
      · right
        refine ⟨h4, fun hp => h5 ?_⟩
        rw [List.append_assoc, List.pairwise_append, List.singleton_append] at *
        refine ⟨hp.1, ?_, ?_⟩
        · have := hp.2.1
          rw [List.pairwise_cons] at this ⊢
          exact this
        · intro a ha b hb
          rcases List.mem_cons.1 hb with rfl | hb
          · exact hp.2.2 a ha e List.mem_cons_self
          · exact hp.2.2 a ha b (List.mem_cons_of_mem _ hb)

theorem EList.extend_iff (l : List EL) : ((empty.extend (copies 0 l)).2 = none ↔
      l.Pairwise fun a b => a.id = b.id → a.id = none ∨ a.id = some "") ∧
    ((empty.extend (copies 0 l)).2 = none ∨ (empty.extend (copies 0 l)).2 = some .duplicateId) ∧
    ((empty.extend (copies 0 l)).2 = none →
      (empty.extend (copies 0 l)).1.root.map (fun e => (e.id, e.key)) = l.map (fun e => (e.id, e.key)) ∧
      (empty.extend (copies 0 l)).1.Right) := by
  have h := extend_good l 0 empty good_empty (by simp [empty])
  have hc := copies_map (fun e => (e.id, e.key)) (fun _ _ => rfl) l 0
  rcases h with ⟨h1, h2, h3⟩ | ⟨h1, h2⟩
  · have hr : (empty.extend (copies 0 l)).1.root.map (fun e => (e.id, e.key)) = l.map (fun e => (e.id, e.key)) := by
      rw [h2]; simpa [empty] using hc
    refine ⟨⟨fun _ => ?_, fun _ => h1⟩, Or.inl h1, fun _ => ⟨hr, h3.right⟩⟩
    have hd := h3.right.distinct
    rw [List.pairwise_iff_getElem]
    intro i j hi hj hij he
    by_contra hne
    push Not at hne
    have hlen : (empty.extend (copies 0 l)).1.root.length = l.length := by
      have := congrArg List.length hr; simpa using this
    have hat : ∀ (m : ℕ) (hm : m < l.length), ∃ e', (empty.extend (copies 0 l)).1.root[m]? = some e' ∧ e'.id = l[m].id := by
      intro m hm
      refine ⟨_, List.getElem?_eq_getElem (by omega), ?_⟩
      have := congrArg (fun q => q[m]?) hr
      simp only [List.getElem?_map, List.getElem?_eq_getElem (show m < (empty.extend (copies 0 l)).1.root.length by omega),
        List.getElem?_eq_getElem hm, Option.map_some, Option.some.injEq, Prod.mk.injEq] at this
      exact this.1
    obtain ⟨e1, g1, i1⟩ := hat i hi
    obtain ⟨e2, g2, i2⟩ := hat j hj
    have := hd i j e1 e2 g1 g2 (by rw [i1, i2]; exact he) (by rw [i1]; exact hne.1) (by rw [i1]; exact hne.2)
    omega
  · have h2' : ¬ l.Pairwise fun a b => a.id = b.id → a.id = none ∨ a.id = some "" := by simpa [empty] using h2
    refine ⟨⟨fun h => ?_, fun h => absurd h h2'⟩, Or.inr h1, fun h => ?_⟩
    · rw [h1] at h; simp at h
    · rw [h1] at h; simp at h

/-- The lists that legal calls on a new list can produce. -/
def EList.Reachable (s : EList) : Prop := ∃ ops, EOp.LegalRun EList.empty ops ∧ s = EOp.run EList.empty ops

theorem EList.Reachable.good {s : EList} (h : s.Reachable) : Good s := by
  obtain ⟨ops, hl, rfl⟩ := h
  exact EOp.run_good good_empty ops hl

/-- C19: intersection and difference of two entity lists succeed and hold copies of exactly the members of
`C19_inter` and `C19_diff`, with ids that work; the union either does the same or raises the duplicate-id error, the latter
exactly when some member of the right list that equals no member of the left carries an id of the left list. -/
theorem C19_entities (l r : EList) (hl' : l.Reachable) (hr' : r.Reachable) :
    ((l.inter r).2 = none ∧ (l.inter r).1.root.map (fun e => (e.id, e.key)) =
      (SetAlg.inter EL.eqv l.root r.root).map (fun e => (e.id, e.key)) ∧ (l.inter r).1.Right) ∧
    ((l.diff r).2 = none ∧ (l.diff r).1.root.map (fun e => (e.id, e.key)) =
      (SetAlg.diff EL.eqv l.root r.root).map (fun e => (e.id, e.key)) ∧ (l.diff r).1.Right) ∧
    ((l.union r).2 = none → (l.union r).1.root.map (fun e => (e.id, e.key)) =
      (SetAlg.union EL.eqv l.root r.root).map (fun e => (e.id, e.key)) ∧ (l.union r).1.Right) ∧
    ((l.union r).2 ≠ none → (l.union r).2 = some .duplicateId) ∧
    ((l.union r).2 ≠ none ↔ ∃ y ∈ r.root, (∀ x ∈ l.root, EL.eqv x y = false) ∧ ∃ x ∈ l.root, x.id = y.id ∧ y.id ≠ none ∧
      y.id ≠ some "") := by
  have hl := hl'.good
  have hr := hr'.good
  have ids : ∀ s : EList, Good s → s.root.Pairwise fun a b => a.id = b.id → a.id = none ∨ a.id = some "" := by
    intro s hs
    rw [List.pairwise_iff_getElem]
    intro i j hi hj hij he
    by_contra hne
    push Not at hne
    have := hs.right.distinct i j s.root[i] s.root[j] (List.getElem?_eq_getElem hi) (List.getElem?_eq_getElem hj) he hne.1 hne.2
    omega
  have hi := extend_iff (SetAlg.inter EL.eqv l.root r.root)
  have hd := extend_iff (SetAlg.diff EL.eqv l.root r.root)
  have hu := extend_iff (SetAlg.union EL.eqv l.root r.root)
  have hi1 := hi.1.2 ((ids l hl).sublist (C19_inter EL.eqv l.root r.root).1)
  have hd1 := hd.1.2 ((ids l hl).sublist (C19_diff EL.eqv l.root r.root).1)
  refine ⟨⟨hi1, hi.2.2 hi1⟩, ⟨hd1, hd.2.2 hd1⟩, hu.2.2, fun h => hu.2.1.resolve_left h, ?_⟩
  have : (l.union r).2 ≠ none ↔ ¬ (SetAlg.union EL.eqv l.root r.root).Pairwise
      (fun a b => a.id = b.id → a.id = none ∨ a.id = some "") := not_congr hu.1
  rw [this]
  obtain ⟨t, e, hs, hm, -⟩ := C19_union EL.eqv l.root r.root
  rw [e, List.pairwise_append]
  have ht := (ids r hr).sublist hs
  constructor
  · intro h
    by_contra hc
    refine h ⟨ids l hl, ht, fun a ha b hb he => ?_⟩
    by_contra hne
    push Not at hne
    obtain ⟨hb1, hb2⟩ := (hm b).1 hb
    exact hc ⟨b, hb1, hb2, a, ha, he, by rw [← he]; exact hne.1, by rw [← he]; exact hne.2⟩
  · rintro ⟨y, hy, hno, x, hx, hid, h1, h2⟩ ⟨-, -, h3⟩
    rcases h3 x hx y ((hm y).2 ⟨hy, hno⟩) hid with h | h
    · exact h1 (hid ▸ h)
    · exact h2 (hid ▸ h)

/-- C19 fails for entity lists sharing an id: the union of a list with one holding a different entity of the same id raises. -/
theorem C19_union_id_refuted :
    ((EOp.run EList.empty [.append ⟨0, some "a", some 0⟩ false]).union
      (EOp.run EList.empty [.append ⟨1, some "a", some 1⟩ false])).2 = some .duplicateId := by decide

example : ((EOp.run EList.empty [.append ⟨0, some "a", some 0⟩ false]).union
      (EOp.run EList.empty [.append ⟨1, some "a", some 0⟩ false, .append ⟨2, some "b", none⟩ false])).1.root.map (fun e => (e.id, e.key))
      = [(some "a", some 0), (some "b", none)] := by decide

end Draftsman
