import Verif.Model.Group
import Mathlib.Tactic.Ring
import Mathlib.Tactic.Linarith
import Mathlib.Data.List.Nodup
/-
C29: global positions and flattening of nested groups.
-/
namespace Draftsman
namespace GHeap

/-- `Within h c gs u`: from the collection `c` one gets to `u` through the groups `gs`, outermost first, by following `entities`
lists. -/
inductive Within (h : GHeap) : ℕ → List ℕ → ℕ → Prop where
  | here {c u : ℕ} : u ∈ (h c).children → Within h c [] u
  | under {c g u : ℕ} {gs : List ℕ} : g ∈ (h c).children → (h g).kind = .group → Within h g gs u → Within h c (g :: gs) u

/-- Parents agree with containment, and containment has no cycle. -/
structure Wf (h : GHeap) (rank : ℕ → ℕ) : Prop where
  parent : ∀ c u, u ∈ (h c).children → (h u).parent = some c
  acyclic : ∀ c u, u ∈ (h c).children → rank u < rank c
  nodup : ∀ c, (h c).children.Nodup
  leaf : ∀ u, (h u).kind = .entity → (h u).children = []
  inner : ∀ c u, u ∈ (h c).children → (h u).kind ≠ .blueprint

theorem Within.snoc {h : GHeap} {c g u : ℕ} {gs : List ℕ} (hw : Within h c gs g) (hk : (h g).kind = .group)
    (hu : u ∈ (h g).children) : Within h c (gs ++ [g]) u := by
  induction hw with
  | here hc => exact .under hc hk (.here hu)
  | under hc hk' _ ih => exact .under hc hk' (ih hk hu)

/-- Taking apart at the innermost end. -/
theorem Within.last {h : GHeap} {c u : ℕ} {gs : List ℕ} (hw : Within h c gs u) :
    (gs = [] ∧ u ∈ (h c).children) ∨ ∃ gs' g, gs = gs' ++ [g] ∧ Within h c gs' g ∧ (h g).kind = .group ∧ u ∈ (h g).children := by
  induction hw with
  | here hc => exact Or.inl ⟨rfl, hc⟩
  | @under c g u gs hc hk hw ih =>
    rcases ih with ⟨rfl, hu⟩ | ⟨gs', g', rfl, h1, h2, h3⟩
    · exact Or.inr ⟨[], g, rfl, .here hc, hk, hu⟩
    · exact Or.inr ⟨g :: gs', g', rfl, .under hc hk h1, h2, h3⟩

theorem Vec.add_assoc' (a b c : Vec) : a + b + c = a + (b + c) := by ext <;> simp [add_assoc]

theorem Within.parent {h : GHeap} {rank : ℕ → ℕ} (hwf : Wf h rank) {c u : ℕ} {gs : List ℕ} (hw : Within h c gs u) :
    ∃ p, (h u).parent = some p ∧ u ∈ (h p).children := by
  rcases hw.last with ⟨-, hu⟩ | ⟨_, g, -, -, -, hu⟩
  · exact ⟨c, hwf.parent c u hu, hu⟩
  · exact ⟨g, hwf.parent g u hu, hu⟩

end GHeap
open GHeap

/-- C29: an object nested in groups `gs` of a blueprint, or of a group without a parent, has as global position its own position
plus the positions of all of them. -/
theorem C29_global_position (h : GHeap) (rank : ℕ → ℕ) (hwf : Wf h rank) (c : ℕ)
    (gs : List ℕ) (u : ℕ) (hw : Within h c gs u) (n : ℕ) (hn : gs.length + 1 < n) :
    ((h c).kind = .blueprint → h.globalPos n u = gs.foldr (fun g acc => (h g).pos + acc) (h u).pos) ∧
    ((h c).kind = .group → (h c).parent = none →
      h.globalPos n u = (h c).pos + gs.foldr (fun g acc => (h g).pos + acc) (h u).pos) := by
  induction n generalizing u gs with
  | zero => omega
  | succ n ih =>
    rcases hw.last with ⟨rfl, hu⟩ | ⟨gs', g, rfl, h1, h2, h3⟩
    · have hp := hwf.parent c u hu
      constructor
      · intro hb
        simp [globalPos, hp, hb]
      · intro hg hnone
        cases n with
        | zero => simp at hn
        | succ n => simp [globalPos, hp, hg, hnone]
    · have hp := hwf.parent g u h3
      have hfold : ∀ gs' : List ℕ, gs'.foldr (fun g acc => (h g).pos + acc) ((h g).pos) + (h u).pos
          = (gs' ++ [g]).foldr (fun g acc => (h g).pos + acc) (h u).pos := by
        intro gs'
        induction gs' with
        | nil => rfl
        | cons a r ih => simp only [List.foldr_cons, List.cons_append]; rw [← ih, GHeap.Vec.add_assoc']
      obtain ⟨i1, i2⟩ := ih gs' g h1 (by simp at hn; omega)
      constructor
      · intro hb
        simp only [globalPos, hp, h2, reduceCtorEq, if_false]
        rw [i1 hb, hfold]
      · intro hg hnone
        simp only [globalPos, hp, h2, reduceCtorEq, if_false]
        rw [i2 hg hnone, GHeap.Vec.add_assoc', hfold]

/-- A blueprint (0) holding an entity (1) and a group (2) at (10, 0) that holds a group (3) at (0, 5), itself holding an entity (4)
at (1, 1). -/
def C29_heap : GHeap := fun u => match u with
  | 0 => ⟨.blueprint, 0, none, [1, 2]⟩
  | 1 => ⟨.entity, ⟨7, 7⟩, some 0, []⟩
  | 2 => ⟨.group, ⟨10, 0⟩, some 0, [3]⟩
  | 3 => ⟨.group, ⟨0, 5⟩, some 2, [4]⟩
  | 4 => ⟨.entity, ⟨1, 1⟩, some 3, []⟩
  | _ => ⟨.entity, 0, none, []⟩

theorem C29_heap_wf : Wf C29_heap (fun u => 10 - u) := by
  have mem : ∀ c u, u ∈ (C29_heap c).children → (c = 0 ∧ (u = 1 ∨ u = 2)) ∨ (c = 2 ∧ u = 3) ∨ (c = 3 ∧ u = 4) := by
    intro c u hu
    unfold C29_heap at hu
    split at hu <;> simp_all
  refine ⟨?_, ?_, ?_, ?_, ?_⟩
  · intro c u hu
    rcases mem c u hu with ⟨rfl, rfl | rfl⟩ | ⟨rfl, rfl⟩ | ⟨rfl, rfl⟩ <;> rfl
  · intro c u hu
    rcases mem c u hu with ⟨rfl, rfl | rfl⟩ | ⟨rfl, rfl⟩ | ⟨rfl, rfl⟩ <;> decide
  · intro c; unfold C29_heap; split <;> simp
  · intro u hk; unfold C29_heap at hk ⊢; split <;> simp_all
  · intro c u hu
    rcases mem c u hu with ⟨rfl, rfl | rfl⟩ | ⟨rfl, rfl⟩ | ⟨rfl, rfl⟩ <;> decide

example : Within C29_heap 0 [2, 3] 4 ∧ C29_heap.globalPos 5 4 = ⟨11, 6⟩ :=
  ⟨.under (by decide) rfl (.under (by decide) rfl (.here (by decide))), by decide +kernel⟩

namespace GHeap

theorem globalPos_setPos_out {h h' : GHeap} {rank : ℕ → ℕ} (hwf : Wf h rank) {g : ℕ} {p : Vec} (hs : h.setPos g p = .ok h')
    (n u : ℕ) (hu : u ≠ g) (hout : ∀ gs, ¬ Within h g gs u) (hanc : ∀ v q, (h v).parent = some q → v ∈ (h q).children) :
    h'.globalPos n u = h.globalPos n u := by
  unfold setPos at hs
  split at hs
  · simp at hs
  · simp only [Except.ok.injEq] at hs
    subst hs
    induction n generalizing u with
    | zero => simp [globalPos, hu]
    | succ n ih =>
      simp only [globalPos, if_neg hu]
      cases hp : (h u).parent with
      | none => rfl
      | some q =>
        have hmem := hanc u q hp
        have hq : q ≠ g := by
          rintro rfl
          exact hout [] (.here hmem)
        simp only [if_neg hq]
        split
        · rfl
        · rename_i hk
          rw [ih q hq]
          intro gs hw
          have hkg : (h q).kind = .group := by
            cases hk' : (h q).kind with
            | group => rfl
            | blueprint => exact absurd hk' hk
            | entity => have := hwf.leaf q hk'; rw [this] at hmem; simp at hmem
          exact hout _ (hw.snoc hkg hmem)

end GHeap

/-- C29: moving a group moves every object nested in it by the same vector. -/
theorem C29_move (h h' : GHeap) (rank : ℕ → ℕ) (hwf : Wf h rank) (g : ℕ) (p : Vec) (hk : (h g).kind = .group)
    (hs : h.setPos g p = .ok h') (gs : List ℕ) (u : ℕ) (hw : Within h g gs u) (n : ℕ) (hn : gs.length + 1 < n) :
    h'.globalPos n u = h.globalPos n u + (p - (h g).pos) := by
  have hnone : (h g).parent = none := by
    cases hp : (h g).parent with
    | none => rfl
    | some q => simp [setPos, hp] at hs
  have hh : h' = fun v => if v = g then { h g with pos := p } else h v := by
    simp only [setPos, hnone] at hs
    simpa [hnone] using hs.symm
  have hne : ∀ v q, v ∈ (h q).children → v ≠ g := by
    rintro v q hv rfl
    rw [hwf.parent q v hv] at hnone; simp at hnone
  have hchild : ∀ v, (h' v).children = (h v).children := by intro v; rw [hh]; simp only; split <;> simp_all
  have hkind : ∀ v, (h' v).kind = (h v).kind := by intro v; rw [hh]; simp only; split <;> simp_all
  have hpar : ∀ v, (h' v).parent = (h v).parent := by intro v; rw [hh]; simp only; split <;> simp_all
  have hwf' : Wf h' rank := by
    refine ⟨?_, ?_, ?_, ?_, ?_⟩
    · intro c u hu; rw [hchild] at hu; rw [hpar]; exact hwf.parent c u hu
    · intro c u hu; rw [hchild] at hu; exact hwf.acyclic c u hu
    · intro c; rw [hchild]; exact hwf.nodup c
    · intro u hu; rw [hkind] at hu; rw [hchild]; exact hwf.leaf u hu
    · intro c u hu; rw [hchild] at hu; rw [hkind]; exact hwf.inner c u hu
  have hw' : ∀ {c gs u}, Within h c gs u → Within h' c gs u := by
    intro c gs u hw
    induction hw with
    | here hc => exact .here (by rw [hchild]; exact hc)
    | under hc hk _ ih => exact .under (by rw [hchild]; exact hc) (by rw [hkind]; exact hk) ih
  have hmem : ∀ {c gs u}, Within h c gs u → (∀ x ∈ gs, x ≠ g) ∧ u ≠ g := by
    intro c gs u hw
    induction hw with
    | here hc => exact ⟨by simp, hne _ _ hc⟩
    | under hc hk _ ih =>
      refine ⟨fun x hx => ?_, ih.2⟩
      rcases List.mem_cons.1 hx with rfl | hx
      · exact hne _ _ hc
      · exact ih.1 x hx
  have hpos : ∀ v, v ≠ g → (h' v).pos = (h v).pos := by intro v hv; rw [hh]; simp [hv]
  have e1 := (C29_global_position h rank hwf g gs u hw n hn).2 hk hnone
  have e2 := (C29_global_position h' rank hwf' g gs u (hw' hw) n hn).2 (by rw [hkind]; exact hk) (by rw [hpar]; exact hnone)
  have hg : (h' g).pos = p := by rw [hh]; simp
  have hf : gs.foldr (fun g acc => (h' g).pos + acc) (h' u).pos = gs.foldr (fun g acc => (h g).pos + acc) (h u).pos := by
    obtain ⟨m1, m2⟩ := hmem hw
    rw [hpos u m2]
    clear hw hn e1 e2
    induction gs with
    | nil => rfl
    | cons a r ih =>
      simp only [List.foldr_cons]
      rw [hpos a (m1 a List.mem_cons_self), ih (fun x hx => m1 x (List.mem_cons_of_mem _ hx))]
  rw [e1, e2, hg, hf]
  ext <;> simp <;> ring

/-- C29: moving a group moves nothing that is not nested in it (in a structure where every object with a parent is listed by it). -/
theorem C29_move_others (h h' : GHeap) (rank : ℕ → ℕ) (hwf : Wf h rank) (g : ℕ) (p : Vec) (hs : h.setPos g p = .ok h')
    (u : ℕ) (hu : u ≠ g) (hout : ∀ gs, ¬ Within h g gs u) (hanc : ∀ v q, (h v).parent = some q → v ∈ (h q).children) (n : ℕ) :
    h'.globalPos n u = h.globalPos n u := globalPos_setPos_out hwf hs n u hu hout hanc

/-- The inner structure without the blueprint: group 2 has no parent and can be moved. -/
def C29_free : GHeap := fun u => if u = 2 then ⟨.group, ⟨10, 0⟩, none, [3]⟩ else if u = 0 then ⟨.blueprint, 0, none, [1]⟩ else C29_heap u

example : ∃ h', C29_free.setPos 2 ⟨-1, 4⟩ = .ok h' ∧ Within C29_free 2 [3] 4 ∧ h'.globalPos 5 4 = ⟨0, 10⟩ ∧ h'.globalPos 5 1 = ⟨7, 7⟩ :=
  ⟨_, rfl, .under (by decide) rfl (.here (by decide)), by decide +kernel, by decide +kernel⟩

/-- C29: a group or entity that is in a collection cannot be moved. -/
theorem C29_move_refused (h : GHeap) (u : ℕ) (p : Vec) : (∃ e, h.setPos u p = .error e) ↔ (h u).parent ≠ none := by
  unfold setPos
  cases (h u).parent <;> simp

/-! ### Flattening -/

namespace GHeap

theorem flatten_entities_only (h : GHeap) (n : ℕ) (us : List ℕ) : ∀ u ∈ h.flatten n us, (h u).kind = .entity := by
  induction n generalizing us with
  | zero => simp [flatten]
  | succ n ih =>
    intro u hu
    simp only [flatten, List.mem_flatMap] at hu
    obtain ⟨v, -, hu⟩ := hu
    split at hu
    · rename_i hk
      simp only [List.mem_singleton] at hu
      subst hu; exact hk
    · exact ih _ u hu

/-- Flattening a list of entities copies it. -/
theorem flatten_leaves (h : GHeap) (n : ℕ) (us : List ℕ) (hus : ∀ u ∈ us, (h u).kind = .entity) : h.flatten (n + 1) us = us := by
  induction us with
  | nil => rfl
  | cons a r ih =>
    have ih := ih (fun u hu => hus u (List.mem_cons_of_mem _ hu))
    simp only [flatten, List.flatMap_cons] at ih ⊢
    rw [if_pos (hus a List.mem_cons_self), ih]
    rfl

/-- One level of flattening. -/
theorem flatten_step (h : GHeap) {rank : ℕ → ℕ} (hwf : Wf h rank) (n : ℕ) (c : ℕ) (hn : rank c ≤ n) :
    h.flatten (n + 1) (h c).children = (h c).children.flatMap fun u =>
      if (h u).kind = .entity then [u] else h.flatten n (h u).children := by
  simp only [flatten]
  apply List.flatMap_congr
  intro u hu
  split
  · rfl
  · have hlt := hwf.acyclic c u hu
    obtain ⟨m, rfl⟩ : ∃ m, n = m + 1 := ⟨n - 1, by omega⟩
    exact flatten_leaves h m _ (flatten_entities_only h _ _)

theorem mem_flatten (h : GHeap) {rank : ℕ → ℕ} (hwf : Wf h rank) (n : ℕ) (c : ℕ) (hn : rank c < n) (e : ℕ) :
    e ∈ h.flatten n (h c).children ↔ (h e).kind = .entity ∧ ∃ gs, Within h c gs e := by
  induction n generalizing c with
  | zero => omega
  | succ n ih =>
    rw [flatten_step h hwf n c (by omega), List.mem_flatMap]
    constructor
    · rintro ⟨u, hu, he⟩
      split at he
      · rename_i hk
        simp only [List.mem_singleton] at he
        subst he
        exact ⟨hk, [], .here hu⟩
      · rename_i hk
        have hlt := hwf.acyclic c u hu
        obtain ⟨h1, gs, h2⟩ := (ih u (by omega)).1 he
        have hkg : (h u).kind = .group := by
          cases hk' : (h u).kind with
          | group => rfl
          | entity => exact absurd hk' hk
          | blueprint => exact absurd hk' (hwf.inner c u hu)
        exact ⟨h1, u :: gs, .under hu hkg h2⟩
    · rintro ⟨hk, gs, hw⟩
      cases hw with
      | here hu => exact ⟨e, hu, by rw [if_pos hk]; simp⟩
      | @under c g u gs hg hkg hw =>
        refine ⟨g, hg, ?_⟩
        rw [if_neg (by rw [hkg]; simp)]
        have hlt := hwf.acyclic c g hg
        exact (ih g (by omega)).2 ⟨hk, gs, hw⟩

/-- An object is nested in a collection through one chain of groups only. -/
theorem within_unique {h : GHeap} {rank : ℕ → ℕ} (hwf : Wf h rank) {c u : ℕ} {gs gs' : List ℕ} (h1 : Within h c gs u)
    (h2 : Within h c gs' u) : gs = gs' := by
  have hr : ∀ {c gs u}, Within h c gs u → rank u < rank c := by
    intro c gs u hw
    induction hw with
    | here hu => exact hwf.acyclic _ _ hu
    | under hg _ _ ih => exact lt_trans ih (hwf.acyclic _ _ hg)
  have gen : ∀ (k : ℕ) (gs gs' : List ℕ) (u : ℕ), gs.length ≤ k → Within h c gs u → Within h c gs' u → gs = gs' := by
    intro k
    induction k with
    | zero =>
      intro gs gs' u hk h1 h2
      have : gs = [] := List.length_eq_zero_iff.1 (by omega)
      subst this
      rcases h1.last with ⟨-, hu⟩ | ⟨a, b, e, -⟩
      · rcases h2.last with ⟨e, -⟩ | ⟨gs2, g, -, hw, -, hu'⟩
        · exact e.symm
        · have e1 := hwf.parent c u hu
          have e2 := hwf.parent g u hu'
          rw [e1] at e2
          simp only [Option.some.injEq] at e2
          subst e2
          exact absurd (hr hw) (by omega)
      · simp at e
    | succ k ih =>
      intro gs gs' u hk h1 h2
      rcases h1.last with ⟨rfl, hu⟩ | ⟨gs1, g1, rfl, hw1, -, hu1⟩
      · rcases h2.last with ⟨e, -⟩ | ⟨gs2, g, -, hw, -, hu'⟩
        · exact e.symm
        · have e1 := hwf.parent c u hu
          have e2 := hwf.parent g u hu'
          rw [e1] at e2
          simp only [Option.some.injEq] at e2
          subst e2
          exact absurd (hr hw) (by omega)
      · have e1 := hwf.parent g1 u hu1
        rcases h2.last with ⟨-, hu⟩ | ⟨gs2, g, rfl, hw, -, hu'⟩
        · have e2 := hwf.parent c u hu
          rw [e1] at e2
          simp only [Option.some.injEq] at e2
          subst e2
          exact absurd (hr hw1) (by omega)
        · have e2 := hwf.parent g u hu'
          rw [e1] at e2
          simp only [Option.some.injEq] at e2
          subst e2
          rw [ih gs1 gs2 g1 (by simp at hk; omega) hw1 hw]
  exact gen gs.length gs gs' u le_rfl h1 h2

theorem flatten_nodup (h : GHeap) {rank : ℕ → ℕ} (hwf : Wf h rank) (n : ℕ) (c : ℕ) (hn : rank c < n) :
    (h.flatten n (h c).children).Nodup := by
  induction n generalizing c with
  | zero => omega
  | succ n ih =>
    rw [flatten_step h hwf n c (by omega), List.nodup_flatMap]
    -- what the piece of `u` holds lies at or below `u`
    have piece : ∀ u ∈ (h c).children, ∀ e ∈ (if (h u).kind = .entity then [u] else h.flatten n (h u).children),
        (e = u ∧ (h u).kind = .entity) ∨ ∃ gs, Within h c (u :: gs) e := by
      intro u hu e he
      split at he
      · rename_i hk
        simp only [List.mem_singleton] at he
        exact Or.inl ⟨he, hk⟩
      · rename_i hk
        have hlt := hwf.acyclic c u hu
        obtain ⟨-, gs, hw⟩ := (mem_flatten h hwf n u (by omega) e).1 he
        have hkg : (h u).kind = .group := by
          cases hk' : (h u).kind with
          | group => rfl
          | entity => exact absurd hk' hk
          | blueprint => exact absurd hk' (hwf.inner c u hu)
        exact Or.inr ⟨gs, .under hu hkg hw⟩
    refine ⟨fun u hu => ?_, ?_⟩
    · split
      · simp
      · have hlt := hwf.acyclic c u hu
        exact ih u (by omega)
    · have hnd := hwf.nodup c
      refine List.Pairwise.imp_of_mem ?_ hnd
      intro a b ha hb hab
      simp only [Function.onFun]
      intro e hea heb
      rcases piece a ha e hea with ⟨rfl, hka⟩ | ⟨gs, hw⟩
      · rcases piece b hb e heb with ⟨e2, -⟩ | ⟨gs', hw'⟩
        · exact hab e2
        · have := within_unique hwf (.here ha) hw'
          simp at this
      · rcases piece b hb e heb with ⟨rfl, -⟩ | ⟨gs', hw'⟩
        · have := within_unique hwf (.here hb) hw
          simp at this
        · have := within_unique hwf hw hw'
          simp only [List.cons.injEq] at this
          exact hab this.1

end GHeap

/-- `a` comes before `b` in `l`. -/
def Precedes (l : List ℕ) (a b : ℕ) : Prop := ∃ x y z, l = x ++ a :: (y ++ b :: z)

theorem Precedes.append_left {l : List ℕ} {a b : ℕ} (h : Precedes l a b) (x : List ℕ) : Precedes (x ++ l) a b := by
  obtain ⟨p, q, r, rfl⟩ := h
  exact ⟨x ++ p, q, r, by simp⟩

theorem Precedes.append_right {l : List ℕ} {a b : ℕ} (h : Precedes l a b) (x : List ℕ) : Precedes (l ++ x) a b := by
  obtain ⟨p, q, r, rfl⟩ := h
  exact ⟨p, q, r ++ x, by simp⟩

theorem precedes_append {l r : List ℕ} {a b : ℕ} (ha : a ∈ l) (hb : b ∈ r) : Precedes (l ++ r) a b := by
  obtain ⟨s, t, rfl⟩ := List.append_of_mem ha
  obtain ⟨s', t', rfl⟩ := List.append_of_mem hb
  exact ⟨s, t ++ s', t', by simp⟩

theorem precedes_flatMap {f : ℕ → List ℕ} {l : List ℕ} {u v a b : ℕ} (h : Precedes l u v) (ha : a ∈ f u) (hb : b ∈ f v) :
    Precedes (l.flatMap f) a b := by
  obtain ⟨x, y, z, rfl⟩ := h
  rw [List.flatMap_append, List.flatMap_cons, List.flatMap_append, List.flatMap_cons]
  apply Precedes.append_left
  apply precedes_append ha
  simp [hb]

/-- C29: the flattened list of a collection has every entity nested in it at any depth exactly once and nothing else. -/
theorem C29_flatten (h : GHeap) (rank : ℕ → ℕ) (hwf : Wf h rank) (c n : ℕ) (hn : rank c < n) :
    (h.flatten n (h c).children).Nodup ∧
    ∀ e, e ∈ h.flatten n (h c).children ↔ (h e).kind = .entity ∧ ∃ gs, Within h c gs e :=
  ⟨flatten_nodup h hwf n c hn, mem_flatten h hwf n c hn⟩

/-- C29: the order is depth-first.  If two entities part ways at the members `u` and `v` of some collection reached from `c`, they
come in the order of `u` and `v` there. -/
theorem C29_depth_first (h : GHeap) (rank : ℕ → ℕ) (hwf : Wf h rank) (c n : ℕ) (hn : rank c < n)
    (g u v a b : ℕ) (hg : g = c ∨ ∃ gs, Within h c gs g ∧ (h g).kind = .group) (huv : Precedes (h g).children u v)
    (ha : (h a).kind = .entity ∧ (a = u ∨ ∃ gs, (h u).kind = .group ∧ Within h u gs a))
    (hb : (h b).kind = .entity ∧ (b = v ∨ ∃ gs, (h v).kind = .group ∧ Within h v gs b)) :
    Precedes (h.flatten n (h c).children) a b := by
  have base : ∀ n, rank g < n → Precedes (h.flatten n (h g).children) a b := by
    intro n hn
    obtain ⟨n, rfl⟩ : ∃ m, n = m + 1 := ⟨n - 1, by omega⟩
    rw [flatten_step h hwf n g (by omega)]
    have hu : u ∈ (h g).children := by obtain ⟨x, y, z, e⟩ := huv; rw [e]; simp
    have hv : v ∈ (h g).children := by obtain ⟨x, y, z, e⟩ := huv; rw [e]; simp
    have inp : ∀ w e, w ∈ (h g).children → ((h e).kind = .entity ∧ (e = w ∨ ∃ gs, (h w).kind = .group ∧ Within h w gs e)) →
        e ∈ (if (h w).kind = .entity then [w] else h.flatten n (h w).children) := by
      rintro w e hw ⟨hk, rfl | ⟨gs, hkg, hwi⟩⟩
      · simp [hk]
      · rw [if_neg (by rw [hkg]; simp)]
        have := hwf.acyclic g w hw
        exact (mem_flatten h hwf n w (by omega) e).2 ⟨hk, gs, hwi⟩
    exact precedes_flatMap huv (inp u a hu ha) (inp v b hv hb)
  rcases hg with rfl | ⟨gs, hw, hkg⟩
  · exact base n hn
  · induction hw generalizing n with
    | @here c g hc =>
      obtain ⟨n, rfl⟩ : ∃ m, n = m + 1 := ⟨n - 1, by omega⟩
      rw [flatten_step h hwf n c (by omega)]
      obtain ⟨x, y, e⟩ := List.append_of_mem hc
      rw [e, List.flatMap_append, List.flatMap_cons]
      apply Precedes.append_left
      apply Precedes.append_right
      rw [if_neg (by rw [hkg]; simp)]
      have := hwf.acyclic c g hc
      exact base n (by omega)
    | @under c g' g gs hc hk _ ih =>
      obtain ⟨n, rfl⟩ : ∃ m, n = m + 1 := ⟨n - 1, by omega⟩
      rw [flatten_step h hwf n c (by omega)]
      obtain ⟨x, y, e⟩ := List.append_of_mem hc
      rw [e, List.flatMap_append, List.flatMap_cons]
      apply Precedes.append_left
      apply Precedes.append_right
      rw [if_neg (by rw [hk]; simp)]
      have := hwf.acyclic c g' hc
      exact ih n (by omega) huv base hkg

example : C29_heap.flatten 11 (C29_heap 0).children = [1, 4] := by decide

/-- C29: adding an object that is in no collection keeps parents in agreement with containment. -/
theorem C29_attach (h : GHeap) (rank : ℕ → ℕ) (hwf : Wf h rank) (c u : ℕ) (hout : ∀ d, u ∉ (h d).children)
    (hkc : (h c).kind ≠ .entity) (hku : (h u).kind ≠ .blueprint) (hr : rank u < rank c) : Wf (h.attach c u) rank := by
  have hne : u ≠ c := by rintro rfl; omega
  have hch : ∀ d, (h.attach c u d).children = if d = c then (h c).children ++ [u] else (h d).children := by
    intro d
    unfold attach
    by_cases hd : d = u
    · subst hd; simp [hne]
    · by_cases hd' : d = c
      · subst hd'; simp [hd]
      · simp [hd, hd']
  have hk : ∀ d, (h.attach c u d).kind = (h d).kind := by
    intro d; unfold attach; split
    · simp_all
    · split <;> simp_all
  have hp : ∀ d, (h.attach c u d).parent = if d = u then some c else (h d).parent := by
    intro d; unfold attach; split
    · simp_all
    · split <;> simp_all
  refine ⟨?_, ?_, ?_, ?_, ?_⟩
  · intro d v hv
    rw [hch] at hv
    rw [hp]
    split at hv
    · rename_i e
      subst e
      rcases List.mem_append.1 hv with hv | hv
      · have hvu : v ≠ u := fun e => hout d (e ▸ hv)
        rw [if_neg hvu]; exact hwf.parent d v hv
      · simp only [List.mem_singleton] at hv; simp [hv]
    · rw [if_neg (by rintro rfl; exact hout _ hv)]; exact hwf.parent d v hv
  · intro d v hv
    rw [hch] at hv
    split at hv
    · rename_i e
      subst e
      rcases List.mem_append.1 hv with hv | hv
      · exact hwf.acyclic d v hv
      · simp only [List.mem_singleton] at hv; subst hv; exact hr
    · exact hwf.acyclic d v hv
  · intro d
    rw [hch]
    split
    · rw [List.nodup_append]
      exact ⟨hwf.nodup c, by simp, by
        intro a ha b hb
        simp only [List.mem_singleton] at hb
        subst hb
        rintro rfl
        exact hout _ ha⟩
    · exact hwf.nodup d
  · intro d hd
    rw [hk] at hd
    rw [hch]
    split
    · rename_i e; subst e; exact absurd hd hkc
    · exact hwf.leaf d hd
  · intro d v hv
    rw [hch] at hv
    rw [hk]
    split at hv
    · rename_i e
      subst e
      rcases List.mem_append.1 hv with hv | hv
      · exact hwf.inner d v hv
      · simp only [List.mem_singleton] at hv; subst hv; exact hku
    · exact hwf.inner d v hv

example : Wf (C29_heap.attach 3 5) (fun u => 10 - u) :=
  C29_attach _ _ C29_heap_wf 3 5 (by intro d; unfold C29_heap; split <;> simp) (by decide) (by decide) (by decide)

/-- C29 fails for an object added to a second group without copying: its global position is relative to the latter in both. -/
theorem C29_shared_refuted :
    ∃ h : GHeap, Within h 10 [] 1 ∧ Within h 20 [] 1 ∧ (h 10).pos = ⟨100, 0⟩ ∧ (h 10).parent = none ∧ (h 1).pos = 0 ∧
      h.globalPos 5 1 = ⟨7, 0⟩ := by
  refine ⟨GHeap.attach (GHeap.attach (fun u => if u = 10 then ⟨.group, ⟨100, 0⟩, none, []⟩ else if u = 20 then ⟨.group, ⟨7, 0⟩, none, []⟩
    else ⟨.entity, 0, none, []⟩) 10 1) 20 1, .here (by decide), .here (by decide), by decide +kernel, by decide +kernel,
    by decide +kernel, by decide +kernel⟩

/-- C29: removing an entity takes it out of its own collection only, and moves nothing: neither the objects that stay nor the one that
leaves. -/
theorem C29_removed (h : GHeap) (c i : ℕ) :
    (h.detach c i c).children = (h c).children.eraseIdx i ∧ (∀ v, v ≠ c → h.detach c i v = h v) ∧
    ∀ n u, (h.detach c i).globalPos n u = h.globalPos n u := by
  have hc : ∀ v, (h.detach c i v).pos = (h v).pos ∧ (h.detach c i v).parent = (h v).parent ∧ (h.detach c i v).kind = (h v).kind := by
    intro v
    by_cases hv : v = c
    · subst hv; simp [detach]
    · simp [detach, hv]
  refine ⟨by simp [detach], fun v hv => by simp [detach, hv], fun n => ?_⟩
  induction n with
  | zero => intro u; simp only [globalPos, (hc u).1]
  | succ n ih =>
    intro u
    simp only [globalPos, (hc u).1, (hc u).2.1]
    cases (h u).parent with
    | none => rfl
    | some p => simp only [(hc p).2.2, ih p]

/-- C29 fails for a removed entity: it is in no collection, yet its global position still counts the group it was in. -/
theorem C29_removed_refuted :
    ∀ gs c, ¬ Within (C29_heap.detach 3 0) c gs 4 ∧ (C29_heap.detach 3 0).globalPos 5 4 = ⟨11, 6⟩ := by
  intro gs c
  refine ⟨fun hw => ?_, by decide +kernel⟩
  have no : ∀ d, 4 ∉ (C29_heap.detach 3 0 d).children := by
    intro d
    unfold detach
    split
    · decide
    · unfold C29_heap; split <;> simp_all
  rcases hw.last with ⟨-, hu⟩ | ⟨_, g, -, -, -, hu⟩
  · exact no c hu
  · exact no g hu

end Draftsman
