import Verif.Model.MergeShare
import Mathlib.Tactic.Common
import Mathlib.Data.List.Basic
import Mathlib.Order.Basic
import Mathlib.Order.Nat
import Mathlib.Tactic.FinCases
/-
C109: two entities are independent after a merge.
-/
namespace Draftsman
namespace MergeShare
open Attr (Attr Cls Style)
open MergeAttr (Part attrOf order table)

/-- `Reach h r x`: the object at `x` can be got at from `r` through fields and members of lists. -/
inductive Reach (h : Heap) (r : Ref) : ℕ → Prop
  | here {a : ℕ} : r = .obj a → Reach h r a
  | step {b c : ℕ} : Reach h r b → .obj c ∈ (h.get b).refs → Reach h r c

/-- What can be seen of a value, `d` levels deep. -/
inductive Tree where
  | cut
  | imm (n : ℕ)
  | list (l : List Tree)
  | model (bare : Bool) (fields : List (String × Tree))

def view (h : Heap) : ℕ → Ref → Tree
  | _, .imm n => .imm n
  | 0, .obj _ => .cut
  | d + 1, .obj a =>
    match h.get a with
    | .list l => .list (l.map (view h d))
    | .model b fs => .model b (fs.map fun p => (p.1, view h d p.2))

/-- No object can be got at from both. -/
def Apart (h : Heap) (a b : Ref) : Prop := ∀ x, Reach h a x → ¬ Reach h b x

/-- Everything that is referred to is in the memory. -/
def Sound (h : Heap) : Prop := ∀ x < h.next, ∀ c, .obj c ∈ (h.get x).refs → c < h.next

def Within (h : Heap) (r : Ref) : Prop := ∀ a, r = .obj a → a < h.next

/-- The value consists of lists and models of `DraftsmanBaseModel` of the declared types all the way down: no extra keys with objects in them,
no other models. -/
inductive Plain (h : Heap) : Ty → Ref → Prop
  | imm (t : Ty) (n : ℕ) : Plain h t (.imm n)
  | list (t : Ty) (a : ℕ) (l : List Ref) : h.get a = .list l → (∀ r ∈ l, Plain h t r) → Plain h (.list t) (.obj a)
  | model (f : String → Ty) (a : ℕ) (fs : List (String × Ref)) : h.get a = .model false fs → (∀ p ∈ fs, Plain h (f p.1) p.2) →
      Plain h (.model f) (.obj a)

/-- The memory may have grown, but what was there is as it was. -/
structure Grown (h h' : Heap) : Prop where
  le : h.next ≤ h'.next
  same : ∀ x < h.next, h'.get x = h.get x

theorem Grown.refl (h : Heap) : Grown h h := ⟨le_refl _, fun _ _ => rfl⟩

theorem Grown.trans {h h' h'' : Heap} (a : Grown h h') (b : Grown h' h'') : Grown h h'' :=
  ⟨a.le.trans b.le, fun x hx => (b.same x (lt_of_lt_of_le hx a.le)).trans (a.same x hx)⟩

theorem grown_alloc (h : Heap) (o : Obj) : Grown h (h.alloc o).1 :=
  ⟨Nat.le_succ _, fun x hx => by simp [Heap.alloc, Nat.ne_of_lt hx]⟩

/-- A closed set of old objects `P` apart, a reference leads to objects that are new since `h`. -/
def NewRef (P : ℕ → Prop) (h h' : Heap) (r : Ref) : Prop := ∀ a, r = .obj a → (h.next ≤ a ∧ a < h'.next) ∨ P a

def NewObjs (P : ℕ → Prop) (h h' : Heap) : Prop := ∀ x, h.next ≤ x → x < h'.next → ∀ r ∈ (h'.get x).refs, NewRef P h h' r

structure ClosedSet (P : ℕ → Prop) (h : Heap) : Prop where
  lt : ∀ a, P a → a < h.next
  step : ∀ a, P a → ∀ c, .obj c ∈ (h.get a).refs → P c

theorem ClosedSet.mono {P : ℕ → Prop} {h h' : Heap} (c : ClosedSet P h) (g : Grown h h') : ClosedSet P h' :=
  ⟨fun a ha => lt_of_lt_of_le (c.lt a ha) g.le, fun a ha d hd => c.step a ha d (by rwa [g.same a (c.lt a ha)] at hd)⟩

/-- Like `Plain`, but a value in `P` may be anything. -/
inductive Ok (P : ℕ → Prop) (h : Heap) : Ty → Ref → Prop
  | imm (t : Ty) (n : ℕ) : Ok P h t (.imm n)
  | old (t : Ty) (a : ℕ) : P a → Ok P h t (.obj a)
  | list (t : Ty) (a : ℕ) (l : List Ref) : a < h.next → h.get a = .list l → (∀ r ∈ l, Ok P h t r) → Ok P h (.list t) (.obj a)
  | model (f : String → Ty) (a : ℕ) (fs : List (String × Ref)) : a < h.next → h.get a = .model false fs →
      (∀ p ∈ fs, Ok P h (f p.1) p.2) → Ok P h (.model f) (.obj a)

theorem Ok.mono {P : ℕ → Prop} {h h' : Heap} (g : Grown h h') {t : Ty} {r : Ref} (o : Ok P h t r) : Ok P h' t r := by
  induction o with
  | imm t n => exact .imm t n
  | old t a p => exact .old t a p
  | list t a l lt e _ ih => exact .list t a l (lt_of_lt_of_le lt g.le) (by rw [g.same a lt, e]) ih
  | model f a fs lt e _ ih => exact .model f a fs (lt_of_lt_of_le lt g.le) (by rw [g.same a lt, e]) ih

theorem NewRef.mono {P : ℕ → Prop} {h h' h'' : Heap} (le : h'.next ≤ h''.next) {r : Ref} (n : NewRef P h h' r) : NewRef P h h'' r :=
  fun a ha => (n a ha).imp (fun q => ⟨q.1, lt_of_lt_of_le q.2 le⟩) id

/-- The new objects of two stages. -/
theorem NewObjs.trans {P : ℕ → Prop} {h h' h'' : Heap} (g : Grown h h') (g' : Grown h' h'') (a : NewObjs P h h') (b : NewObjs P h' h'') :
    NewObjs P h h'' := by
  intro x lo hi r hr
  by_cases hx : x < h'.next
  · rw [g'.same x hx] at hr
    exact (a x lo hx r hr).mono g'.le
  · intro y hy
    rcases b x (not_lt.mp hx) hi r hr y hy with q | q
    · exact .inl ⟨g.le.trans q.1, q.2⟩
    · exact .inr q

theorem NewRef.weaken {P : ℕ → Prop} {h h' h'' : Heap} (g : Grown h h') {r : Ref} (n : NewRef P h' h'' r) : NewRef P h h'' r :=
  fun a ha => (n a ha).imp (fun q => ⟨g.le.trans q.1, q.2⟩) id

/-- What a stage guarantees. -/
structure Stage (P : ℕ → Prop) (h : Heap) (s : Heap × Ref) : Prop where
  grown : Grown h s.1
  objs : NewObjs P h s.1
  ref : NewRef P h s.1 s.2

theorem stage_same {P : ℕ → Prop} {h : Heap} {r : Ref} (hr : ∀ a, r = .obj a → P a) : Stage P h (h, r) :=
  ⟨Grown.refl h, fun _ lo hi => absurd hi (not_lt.mpr lo), fun a ha => .inr (hr a ha)⟩

theorem stage_alloc {P : ℕ → Prop} {h h' : Heap} (g : Grown h h') (n : NewObjs P h h') {o : Obj} (ho : ∀ r ∈ o.refs, NewRef P h h' r) :
    Stage P h (h'.alloc o) := by
  have g2 := grown_alloc h' o
  refine ⟨g.trans g2, ?_, ?_⟩
  · intro x lo hi r hr
    by_cases hx : x < h'.next
    · rw [g2.same x hx] at hr
      exact (n x lo hx r hr).mono g2.le
    · have hx' : x = h'.next := by
        have : x < h'.next + 1 := hi
        omega
      have hr' : r ∈ o.refs := by simpa [Heap.alloc, hx'] using hr
      exact (ho r hr').mono g2.le
  · intro a ha
    simp only [Heap.alloc, Ref.obj.injEq] at ha
    subst ha
    exact .inl ⟨g.le, by simp [Heap.alloc]⟩

theorem stage_each {α β : Type} {P : ℕ → Prop} (f : Heap → α → Heap × β) (ref : β → Ref) :
    ∀ (l : List α) (h : Heap), (∀ x ∈ l, ∀ h', Grown h h' → Stage P h' ((f h' x).1, ref (f h' x).2)) →
      Grown h (each f h l).1 ∧ NewObjs P h (each f h l).1 ∧ ∀ y ∈ (each f h l).2, NewRef P h (each f h l).1 (ref y)
  | [], h, _ => ⟨Grown.refl h, fun x lo hi => absurd hi (not_lt.mpr lo), by simp [each]⟩
  | x :: l, h, hf => by
    have s := hf x List.mem_cons_self h (Grown.refl h)
    have ih := stage_each f ref l (f h x).1 fun y hy h' g => hf y (List.mem_cons_of_mem _ hy) h' (s.grown.trans g)
    refine ⟨s.grown.trans ih.1, NewObjs.trans s.grown ih.1 s.objs ih.2.1, ?_⟩
    intro y hy
    rcases List.mem_cons.mp hy with rfl | hy
    · exact NewRef.mono ih.1.le s.ref
    · exact NewRef.weaken s.grown (ih.2.2 y hy)

/-- Validation makes new objects, apart from those of `P`. -/
theorem check_stage {P : ℕ → Prop} : ∀ (t : Ty) (h : Heap) (r : Ref), ClosedSet P h → Ok P h t r → Stage P h (check t h r)
  | t, h, .imm n, _, _ => by
    have : check t h (.imm n) = (h, .imm n) := by cases t <;> rfl
    rw [this]
    exact stage_same (by intro a ha; cases ha)
  | .any, h, .obj a, _, ok => by
    cases ok with
    | old _ _ p => exact stage_same (by intro b hb; cases hb; exact p)
  | .list t, h, .obj a, cl, ok => by
    have key : (∀ l, h.get a = .list l → ∀ r ∈ l, Ok P h t r) ∧ ((∀ l, h.get a ≠ .list l) → P a) := by
      cases ok with
      | old _ _ p =>
        refine ⟨fun l hl r hr => ?_, fun _ => p⟩
        cases r with
        | imm n => exact .imm t n
        | obj c => exact .old t c (cl.step a p c (by rw [hl]; exact hr))
      | list _ _ l lt e hl => exact ⟨fun l' hl' => by rw [e] at hl'; cases hl'; exact hl, fun hn => absurd e (hn l)⟩
    simp only [check]
    split
    · rename_i l hl
      have := stage_each (P := P) (check t) id l h fun r hr h' g =>
        check_stage t h' r (cl.mono g) ((key.1 l hl r hr).mono g)
      exact stage_alloc this.1 this.2.1 this.2.2
    · rename_i b fs hm
      exact stage_same (by intro c hc; cases hc; exact key.2 (by simp [hm]))
  | .model f, h, .obj a, cl, ok => by
    have key : (∀ fs, h.get a = .model false fs → ∀ p ∈ fs, Ok P h (f p.1) p.2) ∧ ((∀ fs, h.get a ≠ .model false fs) → P a) := by
      cases ok with
      | old _ _ p =>
        refine ⟨fun l hl q hr => ?_, fun _ => p⟩
        obtain ⟨k, r⟩ := q
        cases r with
        | imm n => exact .imm _ n
        | obj c => exact .old _ c (cl.step a p c (by rw [hl]; exact List.mem_map_of_mem (f := (·.2)) hr))
      | model _ _ l lt e hl => exact ⟨fun l' hl' => by rw [e] at hl'; cases hl'; exact hl, fun hn => absurd e (hn l)⟩
    simp only [check]
    split
    · rename_i fs hfs
      have := stage_each (P := P) (fun h (p : String × Ref) => let q := check (f p.1) h p.2; (q.1, (p.1, q.2))) (·.2) fs h fun p hp h' g =>
        check_stage (f p.1) h' p.2 (cl.mono g) ((key.1 fs hfs p hp).mono g)
      refine stage_alloc this.1 this.2.1 ?_
      intro r hr
      obtain ⟨q, hq, rfl⟩ := List.mem_map.mp hr
      exact this.2.2 q hq
    · rename_i hn
      exact stage_same (by intro c hc; cases hc; exact key.2 (fun fs e => hn fs e))

/-- A deep copy is made of new objects only. -/
theorem deep_stage : ∀ (k : ℕ) (h : Heap) (r : Ref), Stage (fun _ => False) h (deep k h r)
  | k, h, .imm n => by
    have : deep k h (.imm n) = (h, .imm n) := by cases k <;> rfl
    rw [this]
    exact stage_same (by intro a ha; cases ha)
  | 0, h, .obj a => stage_same (by intro a ha; cases ha)
  | k + 1, h, .obj a => by
    simp only [deep]
    split
    · rename_i l hl
      have := stage_each (P := fun _ => False) (deep k) id l h fun r hr h' g => deep_stage k h' r
      exact stage_alloc this.1 this.2.1 this.2.2
    · rename_i b fs hm
      have := stage_each (P := fun _ => False) (fun h (p : String × Ref) => let q := deep k h p.2; (q.1, (p.1, q.2))) (·.2) fs h
        fun p hp h' g => deep_stage k h' p.2
      refine stage_alloc this.1 this.2.1 ?_
      intro r hr
      obtain ⟨q, hq, rfl⟩ := List.mem_map.mp hr
      exact this.2.2 q hq

theorem reach_in {h : Heap} {r : Ref} {S : ℕ → Prop} (h0 : ∀ a, r = .obj a → S a) (hs : ∀ x, S x → ∀ c, .obj c ∈ (h.get x).refs → S c) {x : ℕ}
    (hx : Reach h r x) : S x := by
  induction hx with
  | here e => exact h0 _ e
  | step _ m ih => exact hs _ ih _ m

theorem reach_lt {h : Heap} (hs : Sound h) {r : Ref} (hr : Within h r) {x : ℕ} (hx : Reach h r x) : x < h.next :=
  reach_in hr (fun x hx c hc => hs x hx c hc) hx

/-- What can be got at only depends on what can be got at. -/
theorem reach_congr {h h' : Heap} {r : Ref} (e : ∀ x, Reach h r x → h'.get x = h.get x) (x : ℕ) : Reach h' r x ↔ Reach h r x := by
  constructor
  · exact reach_in (fun a ha => .here ha) fun x hx c hc => .step hx (by rwa [e x hx] at hc)
  · intro hx
    induction hx with
    | here e => exact .here e
    | step q m ih => exact .step ih (by rwa [e _ q])

theorem reach_of_mem {h : Heap} {a c : ℕ} (m : .obj c ∈ (h.get a).refs) {x : ℕ} (hx : Reach h (.obj c) x) : Reach h (.obj a) x := by
  induction hx with
  | here e => cases e; exact .step (.here rfl) m
  | step _ q ih => exact .step ih q

theorem view_congr {h h' : Heap} : ∀ (d : ℕ) (r : Ref), (∀ x, Reach h r x → h'.get x = h.get x) → view h' d r = view h d r
  | d, .imm n, _ => by cases d <;> rfl
  | 0, .obj a, _ => rfl
  | d + 1, .obj a, e => by
    simp only [view, e a (.here rfl)]
    split
    · rename_i l hl
      simp only [Tree.list.injEq]
      refine List.map_congr_left fun r hr => view_congr d r fun x hx => e x ?_
      cases r with
      | imm n => exact absurd hx (by intro q; exact reach_in (S := fun _ => False) (by intro a ha; cases ha) (by intro _ q; cases q) q)
      | obj c => exact reach_of_mem (by rw [hl]; exact hr) hx
    · rename_i b fs hm
      simp only [Tree.model.injEq, true_and]
      refine List.map_congr_left fun p hp => ?_
      rw [view_congr d p.2 fun x hx => e x ?_]
      obtain ⟨k, r⟩ := p
      cases r with
      | imm n => exact absurd hx (by intro q; exact reach_in (S := fun _ => False) (by intro a ha; cases ha) (by intro _ q; cases q) q)
      | obj c => exact reach_of_mem (by rw [hm]; exact List.mem_map_of_mem (f := (·.2)) hp) hx

theorem plain_congr {h h' : Heap} {t : Ty} {r : Ref} (p : Plain h t r) : (∀ x, Reach h r x → h'.get x = h.get x) → Plain h' t r := by
  induction p with
  | imm t n => exact fun _ => .imm t n
  | list t a l e _ ih =>
    intro q
    refine .list t a l (by rw [q a (.here rfl), e]) fun r hr => ih r hr fun x hx => q x ?_
    cases r with
    | imm n => exact absurd hx (by intro q; exact reach_in (S := fun _ => False) (by intro a ha; cases ha) (by intro _ q; cases q) q)
    | obj c => exact reach_of_mem (by rw [e]; exact hr) hx
  | model f a fs e _ ih =>
    intro q
    refine .model f a fs (by rw [q a (.here rfl), e]) fun p hp => ih p hp fun x hx => q x ?_
    obtain ⟨k, r⟩ := p
    cases r with
    | imm n => exact absurd hx (by intro q; exact reach_in (S := fun _ => False) (by intro a ha; cases ha) (by intro _ q; cases q) q)
    | obj c => exact reach_of_mem (by rw [e]; exact List.mem_map_of_mem (f := (·.2)) hp) hx

theorem plain_ok {h : Heap} (hs : Sound h) {t : Ty} {r : Ref} (p : Plain h t r) (hr : Within h r) : Ok (fun _ => False) h t r := by
  induction p with
  | imm t n => exact .imm t n
  | list t a l e _ ih =>
    refine .list t a l (hr a rfl) e fun r hr' => ih r hr' ?_
    intro c hc
    exact hs a (hr a rfl) c (by rw [e]; exact hc ▸ hr')
  | model f a fs e _ ih =>
    refine .model f a fs (hr a rfl) e fun p hp => ih p hp ?_
    intro c hc
    exact hs a (hr a rfl) c (by rw [e]; exact hc ▸ List.mem_map_of_mem (f := (·.2)) hp)

theorem lookup_mem {fs : List (String × Ref)} {f : String} {r : Ref} (e : fs.lookup f = some r) : r ∈ fs.map (·.2) := by
  induction fs with
  | nil => simp at e
  | cons p fs ih =>
    obtain ⟨k, u⟩ := p
    rw [List.lookup_cons] at e
    split at e
    · simp only [Option.some.injEq] at e
      simp [e]
    · exact List.mem_cons_of_mem _ (ih e)

theorem getAt_reach {h : Heap} : ∀ (p : List String) (r v : Ref), getAt h r p = some v → ∀ x, Reach h v x → Reach h r x
  | [], r, v, e, x, hx => by
    have : r = v := by cases r <;> simpa [getAt] using e
    exact this ▸ hx
  | f :: p, .imm n, v, e, x, hx => by simp [getAt] at e
  | f :: p, .obj a, v, e, x, hx => by
    simp only [getAt] at e
    split at e
    · simp at e
    · rename_i b fs hm
      split at e
      · rename_i r hr
        have := getAt_reach p r v e x hx
        cases r with
        | imm n => exact absurd this (by intro q; exact reach_in (S := fun _ => False) (by intro a ha; cases ha) (by intro _ q; cases q) q)
        | obj c => exact reach_of_mem (by rw [hm]; exact lookup_mem hr) this
      · simp at e

theorem getAt_congr {h h' : Heap} : ∀ (p : List String) (r : Ref), (∀ x, Reach h r x → h'.get x = h.get x) → getAt h' r p = getAt h r p
  | [], r, _ => by cases r <;> rfl
  | f :: p, .imm n, _ => rfl
  | f :: p, .obj a, e => by
    simp only [getAt, e a (.here rfl)]
    split
    · rfl
    · rename_i b fs hm
      split
      · rename_i r hr
        refine getAt_congr p r fun x hx => e x ?_
        cases r with
        | imm n => exact absurd hx (by intro q; exact reach_in (S := fun _ => False) (by intro a ha; cases ha) (by intro _ q; cases q) q)
        | obj c => exact reach_of_mem (by rw [hm]; exact lookup_mem hr) hx
      · rfl

theorem setAt_spec {h h' : Heap} {v : Ref} : ∀ (p : List String) (r : Ref), setAt h r p v = some h' →
    ∃ x b fs f, Reach h r x ∧ h.get x = .model b fs ∧ h' = h.set x (.model b (putField f v fs))
  | _, .imm n, e => by simp [setAt] at e
  | [], .obj a, e => by simp [setAt] at e
  | [f], .obj a, e => by
    simp only [setAt] at e
    split at e
    · simp at e
    · rename_i b fs hm
      exact ⟨a, b, fs, f, .here rfl, hm, (Option.some.inj e).symm⟩
  | f :: g :: p, .obj a, e => by
    simp only [setAt] at e
    split at e
    · simp at e
    · rename_i b fs hm
      split at e
      · rename_i r hr
        obtain ⟨x, b', fs', f', hx, q, q'⟩ := setAt_spec (g :: p) r e
        refine ⟨x, b', fs', f', ?_, q, q'⟩
        cases r with
        | imm n => exact absurd hx (by intro q; exact reach_in (S := fun _ => False) (by intro a ha; cases ha) (by intro _ q; cases q) q)
        | obj c => exact reach_of_mem (by rw [hm]; exact lookup_mem hr) hx
      · simp at e

theorem putField_refs (f : String) (v : Ref) (fs : List (String × Ref)) {r : Ref} (hr : r ∈ (putField f v fs).map (·.2)) :
    r = v ∨ r ∈ fs.map (·.2) := by
  induction fs with
  | nil => simpa [putField] using hr
  | cons p fs ih =>
    obtain ⟨g, u⟩ := p
    simp only [putField] at hr
    split at hr
    · simp only [List.map_cons, List.mem_cons] at hr ⊢
      tauto
    · simp only [List.map_cons, List.mem_cons] at hr ⊢
      rcases hr with hr | hr
      · tauto
      · rcases ih hr with q | q
        · exact .inl q
        · exact .inr (.inr q)

/-- The state of affairs between two assignments of a merge. -/
structure Inv (h0 h : Heap) (a b : Ref) : Prop where
  sound : Sound h
  wa : Within h a
  wb : Within h b
  apart : Apart h a b
  kept : ∀ x, Reach h0 b x → h.get x = h0.get x

/-- One assignment of a value that is made of new objects. -/
theorem inv_store {h0 h w h' : Heap} {a b v : Ref} (i : Inv h0 h a b) (s : Stage (fun _ => False) h (w, v)) {p : List String}
    (e : setAt w a p v = some h') : Inv h0 h' a b := by
  obtain ⟨x, bare, fs, f, hx, hm, rfl⟩ := setAt_spec p a e
  have ga : ∀ y, Reach h a y → w.get y = h.get y := fun y hy => s.grown.same y (reach_lt i.sound i.wa hy)
  have gb : ∀ y, Reach h b y → w.get y = h.get y := fun y hy => s.grown.same y (reach_lt i.sound i.wb hy)
  have hxa : Reach h a x := (reach_congr ga x).mp hx
  have hxn : x < h.next := reach_lt i.sound i.wa hxa
  have hxb : ¬ Reach h b x := i.apart x hxa
  have keep : ∀ y, y ≠ x → (w.set x (.model bare (putField f v fs))).get y = w.get y := fun y hy => by simp [Heap.set, hy]
  have at_x : (w.set x (.model bare (putField f v fs))).get x = .model bare (putField f v fs) := by simp [Heap.set]
  have refs_x : ∀ c, .obj c ∈ (w.get x).refs → c < h.next := by
    intro c hc
    rw [ga x hxa] at hc
    exact i.sound x hxn c hc
  have b_same : ∀ y, Reach h b y → (w.set x (.model bare (putField f v fs))).get y = h.get y := by
    intro y hy
    rw [keep y (by rintro rfl; exact hxb hy), gb y hy]
  have rb := reach_congr b_same
  have kept0 : ∀ y, Reach h0 b y → Reach h b y := fun y hy => (reach_congr i.kept y).mpr hy
  refine ⟨?_, ?_, ?_, ?_, ?_⟩
  · -- everything is in the memory
    intro y hy c hc
    have hy' : y < w.next := hy
    show c < w.next
    by_cases hyx : y = x
    · subst hyx
      rw [at_x] at hc
      rcases putField_refs f v fs hc with q | q
      · rcases s.ref c q.symm with q | q
        · exact q.2
        · exact q.elim
      · exact lt_of_lt_of_le (refs_x c (by rw [hm]; exact q)) s.grown.le
    · rw [keep y hyx] at hc
      by_cases hyn : y < h.next
      · rw [s.grown.same y hyn] at hc
        exact lt_of_lt_of_le (i.sound y hyn c hc) s.grown.le
      · rcases s.objs y (not_lt.mp hyn) hy' _ hc c rfl with q | q
        · exact q.2
        · exact q.elim
  · exact fun y hy => lt_of_lt_of_le (i.wa y hy) s.grown.le
  · exact fun y hy => lt_of_lt_of_le (i.wb y hy) s.grown.le
  · -- what is under `a` was under it before or is new
    intro y hya hyb
    have hyb' := (rb y).mp hyb
    have : Reach h a y ∨ h.next ≤ y ∧ y < w.next := by
      refine reach_in (S := fun y => Reach h a y ∨ h.next ≤ y ∧ y < w.next) (fun c hc => .inl (.here hc)) ?_ hya
      intro z hz c hc
      by_cases hzx : z = x
      · subst hzx
        rw [at_x] at hc
        rcases putField_refs f v fs hc with q | q
        · rcases s.ref c q.symm with q | q
          · exact .inr q
          · exact q.elim
        · exact .inl (.step hxa (by rw [← ga z hxa, hm]; exact q))
      · rw [keep z hzx] at hc
        rcases hz with hz | hz
        · exact .inl (.step hz (by rwa [ga z hz] at hc))
        · rcases s.objs z hz.1 hz.2 _ hc c rfl with q | q
          · exact .inr q
          · exact q.elim
    rcases this with q | q
    · exact i.apart y q hyb'
    · exact absurd (reach_lt i.sound i.wb hyb') (not_lt.mpr q.1)
  · intro y hy
    rw [b_same y (kept0 y hy), i.kept y hy]

theorem stage_trans {h : Heap} {d w : Heap × Ref} (s : Stage (fun _ => False) h d) (t : Stage (Reach d.1 d.2) d.1 w) :
    Stage (fun _ => False) h w := by
  have new : ∀ y, Reach d.1 d.2 y → h.next ≤ y ∧ y < d.1.next := by
    intro y hy
    refine reach_in (S := fun y => h.next ≤ y ∧ y < d.1.next) ?_ ?_ hy
    · intro c hc
      exact (s.ref c hc).elim id False.elim
    · intro x hx c hc
      exact (s.objs x hx.1 hx.2 _ hc c rfl).elim id False.elim
  refine ⟨s.grown.trans t.grown, ?_, ?_⟩
  · intro x lo hi r hr c hc
    by_cases hx : x < d.1.next
    · rw [t.grown.same x hx] at hr
      exact .inl ((s.objs x lo hx r hr c hc).elim (fun q => ⟨q.1, lt_of_lt_of_le q.2 t.grown.le⟩) False.elim)
    · rcases t.objs x (not_lt.mp hx) hi r hr c hc with q | q
      · exact .inl ⟨s.grown.le.trans q.1, q.2⟩
      · exact .inl ⟨(new c q).1, lt_of_lt_of_le (new c q).2 t.grown.le⟩
  · intro c hc
    rcases t.ref c hc with q | q
    · exact .inl ⟨s.grown.le.trans q.1, q.2⟩
    · exact .inl ⟨(new c q).1, lt_of_lt_of_le (new c q).2 t.grown.le⟩

/-- After a stage without old objects the memory is sound. -/
theorem stage_sound {h : Heap} (hs : Sound h) {d : Heap × Ref} (s : Stage (fun _ => False) h d) : Sound d.1 ∧ Within d.1 d.2 := by
  constructor
  · intro x hx c hc
    by_cases hn : x < h.next
    · rw [s.grown.same x hn] at hc
      exact lt_of_lt_of_le (hs x hn c hc) s.grown.le
    · exact (s.objs x (not_lt.mp hn) hx _ hc c rfl).elim (·.2) False.elim
  · intro c hc
    exact (s.ref c hc).elim (·.2) False.elim

theorem inv_step {c : Cls} {ty : String → Ty} {validating : Bool} {h0 h h' : Heap} {a b : Ref} {n : String} (i : Inv h0 h a b)
    (hv : ∀ m, attrOf c n = some m → n ∈ copied ∨ validates validating m.style = true)
    (hp : n ∉ copied → ∀ m v, attrOf c n = some m → getAt h0 b m.get = some v → Plain h0 (ty n) v)
    (e : step validating ty c a b h n = some h') : Inv h0 h' a b := by
  simp only [step] at e
  split at e
  · simp at e
  · rename_i m hm
    split at e
    · simp at e
    · rename_i v hg
      refine inv_store i ?_ e
      by_cases hn : n ∈ copied
      · simp only [if_pos hn]
        have s := deep_stage h.next h v
        split
        · have q := stage_sound i.sound s
          refine stage_trans s (check_stage (P := Reach (deep h.next h v).1 (deep h.next h v).2) _ _ _ ⟨fun x hx => reach_lt q.1 q.2 hx,
            fun x hx c hc => .step hx hc⟩ ?_)
          cases hr : (deep h.next h v).2 with
          | imm k => exact .imm _ _
          | obj k => exact .old _ _ (.here rfl)
        · exact s
      · simp only [if_neg hn]
        rw [if_pos ((hv m hm).resolve_left hn)]
        have hg0 : getAt h0 b m.get = some v := by rw [← getAt_congr m.get b i.kept]; exact hg
        have pl : Plain h (ty n) v :=
          plain_congr (hp hn m v hm hg0) fun x hx => i.kept x (getAt_reach _ _ _ hg0 x hx)
        have wv : Within h v := by
          intro x hx
          exact reach_lt i.sound i.wb (getAt_reach _ _ _ hg x (.here hx))
        exact check_stage _ _ _ ⟨fun _ q => q.elim, fun _ q => q.elim⟩ (plain_ok i.sound pl wv)

theorem inv_steps {c : Cls} {ty : String → Ty} {validating : Bool} {h0 : Heap} {a b : Ref} :
    ∀ (ns : List String) (h h' : Heap), Inv h0 h a b →
    (∀ n ∈ ns, ∀ m, attrOf c n = some m → n ∈ copied ∨ validates validating m.style = true) →
    (∀ n ∈ ns, n ∉ copied → ∀ m v, attrOf c n = some m → getAt h0 b m.get = some v → Plain h0 (ty n) v) →
    steps validating ty c a b h ns = some h' → Inv h0 h' a b
  | [], h, h', i, _, _, e => by
    simp only [steps, Option.some.injEq] at e
    exact e ▸ i
  | n :: ns, h, h', i, hv, hp, e => by
    simp only [steps] at e
    split at e
    · simp at e
    · rename_i h1 h1e
      exact inv_steps ns h1 h' (inv_step i (hv n List.mem_cons_self) (hp n List.mem_cons_self) h1e)
        (fun k hk => hv k (List.mem_cons_of_mem _ hk)) (fun k hk => hp k (List.mem_cons_of_mem _ hk)) e

/-- All merged attributes are stored through validation, if validation is on. -/
theorem all_validated : ∀ q ∈ table, ∀ n ∈ order q.2, ∀ m, attrOf q.1 n = some m → n ∈ copied ∨ validates true m.style = true := by
  have : (table.all fun q => (order q.2).all fun n => match attrOf q.1 n with
      | none => true
      | some m => decide (n ∈ copied) || validates true m.style) = true := by decide +kernel
  intro q hq n hn m hm
  have h1 := List.all_eq_true.mp (List.all_eq_true.mp this q hq) n hn
  rw [hm] at h1
  simpa using h1

/-- C109: after a validated merge of two entities that had nothing in common, provided that the attributes of the other entity are made up of
lists and models as declared, they have nothing in common; the other entity is as it was; and whatever is done later to the objects of the one does
not show in the other.  Missing: merges without validation (`C109_unvalidated_refuted`), control behaviors that are no `DraftsmanBaseModel`
(`C109_belts_refuted`) and extra keys (`C109_extra_refuted`). -/
theorem C109_independent_partial (c : Cls) (parts : List Part) (hc : (c, parts) ∈ table) (ty : String → Ty) (h h' : Heap) (a b : Ref)
    (sound : Sound h) (wa : Within h a) (wb : Within h b) (apart : Apart h a b)
    (plain : ∀ n ∈ order parts, n ∉ copied → ∀ m v, attrOf c n = some m → getAt h b m.get = some v → Plain h (ty n) v)
    (e : merge true ty c parts h a b = some h') :
    Apart h' a b ∧ (∀ d, view h' d b = view h d b) ∧
      (∀ g : Heap, (∀ x, ¬ Reach h' b x → g.get x = h'.get x) → ∀ d, view g d a = view h' d a) ∧
      (∀ g : Heap, (∀ x, ¬ Reach h' a x → g.get x = h'.get x) → ∀ d, view g d b = view h' d b) := by
  have i := inv_steps (order parts) h h' ⟨sound, wa, wb, apart, fun _ _ => rfl⟩ (fun n hn m hm => all_validated _ hc n hn m hm) plain e
  refine ⟨i.apart, fun d => view_congr d b i.kept, ?_, ?_⟩
  · exact fun g hg d => view_congr d a fun x hx => hg x (i.apart x hx)
  · exact fun g hg d => view_congr d b fun x hx => hg x fun q => i.apart x q hx

/-- Lists and models are made anew with the contents they had. -/
theorem view_each {α β : Type} (f : Heap → α → Heap × β) (src : α → Ref) (ref : β → Ref) (d : ℕ) :
    ∀ (l : List α) (h : Heap), Sound h → (∀ x ∈ l, Within h (src x)) →
      (∀ x ∈ l, ∀ h', Grown h h' → Sound h' →
        Grown h' (f h' x).1 ∧ Sound (f h' x).1 ∧ Within (f h' x).1 (ref (f h' x).2) ∧ view (f h' x).1 d (ref (f h' x).2) = view h' d (src x)) →
      Grown h (each f h l).1 ∧ Sound (each f h l).1 ∧ (∀ y ∈ (each f h l).2, Within (each f h l).1 (ref y)) ∧
        (each f h l).2.map (fun y => view (each f h l).1 d (ref y)) = l.map fun x => view h d (src x)
  | [], h, hs, _, _ => ⟨Grown.refl h, hs, by simp [each], rfl⟩
  | x :: l, h, hs, hw, hf => by
    obtain ⟨g1, s1, w1, v1⟩ := hf x List.mem_cons_self h (Grown.refl h) hs
    obtain ⟨g2, s2, w2, v2⟩ := view_each f src ref d l (f h x).1 s1
      (fun y hy a ha => lt_of_lt_of_le (hw y (List.mem_cons_of_mem _ hy) a ha) g1.le)
      (fun y hy h' g => hf y (List.mem_cons_of_mem _ hy) h' (g1.trans g))
    refine ⟨g1.trans g2, s2, ?_, ?_⟩
    · intro y hy
      rcases List.mem_cons.mp hy with rfl | hy
      · exact fun a ha => lt_of_lt_of_le (w1 a ha) g2.le
      · exact w2 y hy
    · have e1 : view (each f h (x :: l)).1 d (ref (f h x).2) = view (f h x).1 d (ref (f h x).2) :=
        view_congr d _ fun y hy => g2.same y (reach_lt s1 w1 hy)
      have e2 : l.map (fun y => view (f h x).1 d (src y)) = l.map fun y => view h d (src y) :=
        List.map_congr_left fun y hy => view_congr d _ fun z hz => g1.same z (reach_lt hs (hw y (List.mem_cons_of_mem _ hy)) hz)
      simp only [each, List.map_cons]
      rw [← e2, ← v2, ← v1]
      exact congrArg₂ List.cons e1 rfl

theorem alloc_spec {h : Heap} (hs : Sound h) {o : Obj} (ho : ∀ r ∈ o.refs, Within h r) :
    Sound (h.alloc o).1 ∧ Within (h.alloc o).1 (h.alloc o).2 ∧ (h.alloc o).1.get h.next = o := by
  refine ⟨?_, ?_, by simp [Heap.alloc]⟩
  · intro x hx c hc
    by_cases hn : x = h.next
    · subst hn
      have : .obj c ∈ o.refs := by simpa [Heap.alloc] using hc
      exact Nat.lt_succ_of_lt (ho _ this c rfl)
    · have hx' : x < h.next + 1 := hx
      have : .obj c ∈ (h.get x).refs := by simpa [Heap.alloc, hn] using hc
      exact Nat.lt_succ_of_lt (hs x (by omega) c this)
  · intro a ha
    simp only [Heap.alloc, Ref.obj.injEq] at ha
    subst ha
    exact Nat.lt_succ_self _

theorem view_alloc {h : Heap} (hs : Sound h) {o : Obj} {r : Ref} (hr : Within h r) (d : ℕ) : view (h.alloc o).1 d r = view h d r :=
  view_congr d r fun x hx => (grown_alloc h o).same x (reach_lt hs hr hx)

/-- The same for a validated value. -/
theorem check_view : ∀ (t : Ty) (h : Heap) (r : Ref), Sound h → Within h r →
    Grown h (check t h r).1 ∧ Sound (check t h r).1 ∧ Within (check t h r).1 (check t h r).2 ∧
      ∀ d, view (check t h r).1 d (check t h r).2 = view h d r
  | t, h, .imm n, hs, hr => by
    have : check t h (.imm n) = (h, .imm n) := by cases t <;> rfl
    rw [this]
    exact ⟨Grown.refl h, hs, hr, fun _ => rfl⟩
  | .any, h, .obj a, hs, hr => ⟨Grown.refl h, hs, hr, fun _ => rfl⟩
  | .list t, h, .obj a, hs, hr => by
    simp only [check]
    split
    · rename_i l hl
      have hw : ∀ x ∈ l, Within h (id x) := fun x hx c hc => hs a (hr a rfl) c (by rw [hl]; exact hc ▸ hx)
      have key := fun d => view_each (check t) id id d l h hs hw fun x hx h' g s' =>
        let q := check_view t h' x s' fun c hc => lt_of_lt_of_le (hw x hx c hc) g.le
        ⟨q.1, q.2.1, q.2.2.1, q.2.2.2 d⟩
      have al := alloc_spec (o := .list (each (check t) h l).2) (key 0).2.1 (key 0).2.2.1
      refine ⟨(key 0).1.trans (grown_alloc _ _), al.1, al.2.1, ?_⟩
      intro d
      cases d with
      | zero => rfl
      | succ d =>
        have : (((each (check t) h l).1.alloc (.list (each (check t) h l).2)).2) = .obj (each (check t) h l).1.next := rfl
        rw [this]
        simp only [view, al.2.2, hl, Tree.list.injEq]
        exact (List.map_congr_left fun y hy => view_alloc (key 0).2.1 ((key 0).2.2.1 y hy) d).trans (key d).2.2.2
    · exact ⟨Grown.refl h, hs, hr, fun _ => rfl⟩
  | .model f, h, .obj a, hs, hr => by
    unfold check
    split
    · rename_i fs hfs
      have hw : ∀ p ∈ fs, Within h p.2 := fun p hp c hc => hs a (hr a rfl) c (by rw [hfs]; exact hc ▸ List.mem_map_of_mem (f := (·.2)) hp)
      let F := fun (h : Heap) (p : String × Ref) => let q := check (f p.1) h p.2; (q.1, (p.1, q.2))
      have key := fun d => view_each F (·.2) (·.2) d fs h hs hw fun p hp h' g s' =>
        let q := check_view (f p.1) h' p.2 s' fun c hc => lt_of_lt_of_le (hw p hp c hc) g.le
        ⟨q.1, q.2.1, q.2.2.1, q.2.2.2 d⟩
      have keys : ∀ (fs : List (String × Ref)) (h : Heap), (each F h fs).2.map (·.1) = fs.map (·.1) := by
        intro fs
        induction fs with
        | nil => intro h; rfl
        | cons p fs ih => intro h; simp only [each, List.map_cons]; rw [ih]
      have al := alloc_spec (o := .model false (each F h fs).2) (key 0).2.1 (by
        intro r hr'
        obtain ⟨q, hq, rfl⟩ := List.mem_map.mp hr'
        exact (key 0).2.2.1 q hq)
      refine ⟨(key 0).1.trans (grown_alloc _ _), al.1, al.2.1, ?_⟩
      intro d
      cases d with
      | zero => rfl
      | succ d =>
        show view ((each F h fs).1.alloc (.model false (each F h fs).2)).1 (d + 1) (.obj (each F h fs).1.next) = _
        simp only [view, al.2.2, hfs, Tree.model.injEq, true_and]
        have e : ((each F h fs).2.map fun p => (p.1, view ((each F h fs).1.alloc (.model false (each F h fs).2)).1 d p.2)) =
            (each F h fs).2.map fun p => (p.1, view (each F h fs).1 d p.2) :=
          List.map_congr_left fun y hy => by rw [view_alloc (key 0).2.1 ((key 0).2.2.1 y hy) d]
        rw [e]
        have z : ∀ {α β : Type} (l : List (α × β)) (g : β → Tree), l.map (fun p => (p.1, g p.2)) = (l.map (·.1)).zip (l.map fun p => g p.2) := by
          intro α β l g
          induction l with
          | nil => rfl
          | cons p l ih => simp [ih]
        rw [z, z, keys, (key d).2.2.2]
    · exact ⟨Grown.refl h, hs, hr, fun _ => rfl⟩

/-- The same for a deep copy, as deep as it goes. -/
theorem deep_view : ∀ (k : ℕ) (h : Heap) (r : Ref), Sound h → Within h r →
    Grown h (deep k h r).1 ∧ Sound (deep k h r).1 ∧ Within (deep k h r).1 (deep k h r).2 ∧
      ∀ d, d < k → view (deep k h r).1 d (deep k h r).2 = view h d r
  | k, h, .imm n, hs, hr => by
    have : deep k h (.imm n) = (h, .imm n) := by cases k <;> rfl
    rw [this]
    exact ⟨Grown.refl h, hs, hr, fun _ _ => rfl⟩
  | 0, h, .obj a, hs, hr => ⟨Grown.refl h, hs, (by intro a ha; cases ha), fun d hd => absurd hd (Nat.not_lt_zero d)⟩
  | k + 1, h, .obj a, hs, hr => by
    simp only [deep]
    split
    · rename_i l hl
      have hw : ∀ x ∈ l, Within h (id x) := fun x hx c hc => hs a (hr a rfl) c (by rw [hl]; exact hc ▸ hx)
      have st := deep_stage (k + 1) h (.obj a)
      simp only [deep, hl] at st
      have ss := stage_sound hs st
      refine ⟨st.grown, ss.1, ss.2, ?_⟩
      intro d hd
      cases d with
      | zero => rfl
      | succ d =>
        have key := view_each (deep k) id id d l h hs hw fun x hx h' g s' =>
          let q := deep_view k h' x s' fun c hc => lt_of_lt_of_le (hw x hx c hc) g.le
          ⟨q.1, q.2.1, q.2.2.1, q.2.2.2 d (by omega)⟩
        have al := alloc_spec (o := .list (each (deep k) h l).2) key.2.1 key.2.2.1
        have : (((each (deep k) h l).1.alloc (.list (each (deep k) h l).2)).2) = .obj (each (deep k) h l).1.next := rfl
        rw [this]
        simp only [view, al.2.2, hl, Tree.list.injEq]
        exact (List.map_congr_left fun y hy => view_alloc key.2.1 (key.2.2.1 y hy) d).trans key.2.2.2
    · rename_i b fs hfs
      have hw : ∀ p ∈ fs, Within h p.2 := fun p hp c hc => hs a (hr a rfl) c (by rw [hfs]; exact hc ▸ List.mem_map_of_mem (f := (·.2)) hp)
      have st := deep_stage (k + 1) h (.obj a)
      simp only [deep, hfs] at st
      have ss := stage_sound hs st
      refine ⟨st.grown, ss.1, ss.2, ?_⟩
      intro d hd
      cases d with
      | zero => rfl
      | succ d =>
        let F := fun (h : Heap) (p : String × Ref) => let q := deep k h p.2; (q.1, (p.1, q.2))
        have key := view_each F (·.2) (·.2) d fs h hs hw fun p hp h' g s' =>
          let q := deep_view k h' p.2 s' fun c hc => lt_of_lt_of_le (hw p hp c hc) g.le
          ⟨q.1, q.2.1, q.2.2.1, q.2.2.2 d (by omega)⟩
        have keys : ∀ (fs : List (String × Ref)) (h : Heap), (each F h fs).2.map (·.1) = fs.map (·.1) := by
          intro fs
          induction fs with
          | nil => intro h; rfl
          | cons p fs ih => intro h; simp only [each, List.map_cons]; rw [ih]
        have al := alloc_spec (o := .model b (each F h fs).2) key.2.1 (by
          intro r hr'
          obtain ⟨q, hq, rfl⟩ := List.mem_map.mp hr'
          exact key.2.2.1 q hq)
        show view ((each F h fs).1.alloc (.model b (each F h fs).2)).1 (d + 1) (.obj (each F h fs).1.next) = _
        simp only [view, al.2.2, hfs, Tree.model.injEq, true_and]
        have e : ((each F h fs).2.map fun p => (p.1, view ((each F h fs).1.alloc (.model b (each F h fs).2)).1 d p.2)) =
            (each F h fs).2.map fun p => (p.1, view (each F h fs).1 d p.2) :=
          List.map_congr_left fun y hy => by rw [view_alloc key.2.1 (key.2.2.1 y hy) d]
        rw [e]
        have z : ∀ {α β : Type} (l : List (α × β)) (g : β → Tree), l.map (fun p => (p.1, g p.2)) = (l.map (·.1)).zip (l.map fun p => g p.2) := by
          intro α β l g
          induction l with
          | nil => rfl
          | cons p l ih => simp [ih]
        rw [z, z, keys, key.2.2.2]

theorem putField_lookup (f : String) (v : Ref) (fs : List (String × Ref)) : (putField f v fs).lookup f = some v := by
  induction fs with
  | nil => simp [putField]
  | cons p fs ih =>
    obtain ⟨g, u⟩ := p
    simp only [putField]
    split
    · rename_i e
      subst e
      simp
    · rename_i e
      rw [List.lookup_cons]
      split
      · rename_i q
        exact absurd (by simpa using q : f = g) (fun w => e w.symm)
      · exact ih

theorem stage_reach {P : ℕ → Prop} {h : Heap} (cl : ClosedSet P h) {s : Heap × Ref} (st : Stage P h s) {y : ℕ} (hy : Reach s.1 s.2 y) :
    (h.next ≤ y ∧ y < s.1.next) ∨ P y := by
  refine reach_in (S := fun y => (h.next ≤ y ∧ y < s.1.next) ∨ P y) st.ref ?_ hy
  intro x hx c hc
  rcases hx with hx | hx
  · exact st.objs x hx.1 hx.2 _ hc c rfl
  · rw [st.grown.same x (cl.lt x hx)] at hc
    exact .inr (cl.step x hx c hc)

/-- What is stored: it has the contents of what was read, and is made of new objects and of objects of the other entity. -/
theorem stored_spec (b : Bool) (k : Bool) (t : Ty) (h : Heap) (v : Ref) (hs : Sound h) (hv : Within h v) :
    let d := if k then deep h.next h v else (h, v)
    let w := if b then check t d.1 d.2 else d
    Grown h w.1 ∧ Sound w.1 ∧ Within w.1 w.2 ∧ (∀ y, Reach w.1 w.2 y → h.next ≤ y ∨ Reach h v y) ∧
      ∀ e, (k = true → e < h.next) → view w.1 e w.2 = view h e v := by
  intro d w
  have hd : Grown h d.1 ∧ Sound d.1 ∧ Within d.1 d.2 ∧ (∀ y, Reach d.1 d.2 y → h.next ≤ y ∨ Reach h v y) ∧
      ∀ e, (k = true → e < h.next) → view d.1 e d.2 = view h e v := by
    cases k with
    | false => exact ⟨Grown.refl h, hs, hv, fun y hy => .inr hy, fun _ _ => rfl⟩
    | true =>
      have q := deep_view h.next h v hs hv
      refine ⟨q.1, q.2.1, q.2.2.1, fun y hy => ?_, fun e he => q.2.2.2 e (he rfl)⟩
      rcases stage_reach ⟨fun _ z => z.elim, fun _ z => z.elim⟩ (deep_stage h.next h v) hy with z | z
      · exact .inl z.1
      · exact z.elim
  cases b with
  | false => exact hd
  | true =>
    have q := check_view t d.1 d.2 hd.2.1 hd.2.2.1
    refine ⟨hd.1.trans q.1, q.2.1, q.2.2.1, fun y hy => ?_, fun e he => (q.2.2.2 e).trans (hd.2.2.2.2 e he)⟩
    have cl : ClosedSet (Reach d.1 d.2) d.1 := ⟨fun x hx => reach_lt hd.2.1 hd.2.2.1 hx, fun x hx c hc => .step hx hc⟩
    have ok : Ok (Reach d.1 d.2) d.1 t d.2 := by
      cases hr : d.2 with
      | imm k => exact .imm _ _
      | obj k => exact .old _ _ (.here rfl)
    rcases stage_reach cl (check_stage t d.1 d.2 cl ok) hy with z | z
    · exact .inl (hd.1.le.trans z.1)
    · exact hd.2.2.2.1 y z

/-- C109, what is taken over: in any mode, an attribute kept in the entity itself reads, directly after its assignment and however deep one looks, as
that of the other entity (for deep copies, as deep as there are objects). -/
theorem C109_contents (c : Cls) (ty : String → Ty) (validating : Bool) (h h' : Heap) (a b : Ref) (n f : String) (m : Attr)
    (sound : Sound h) (wa : Within h a) (wb : Within h b) (apart : Apart h a b)
    (hm : attrOf c n = some m) (hg : m.get = [f]) (hst : m.set = [f])
    (e : step validating ty c a b h n = some h') :
    ∃ v w, getAt h b [f] = some v ∧ getAt h' a [f] = some w ∧ ∀ d, (n ∈ copied → d < h.next) → view h' d w = view h d v := by
  simp only [step, hm, hg, hst] at e
  split at e
  · simp at e
  · rename_i v hv
    have wv : Within h v := fun x hx => reach_lt sound wb (getAt_reach _ _ _ hv x (.here hx))
    have sp := stored_spec (validates validating m.style) (decide (n ∈ copied)) (ty n) h v sound wv
    simp only [decide_eq_true_eq] at sp
    generalize hw : (if validates validating m.style = true then
      check (ty n) (if n ∈ copied then deep h.next h v else (h, v)).1 (if n ∈ copied then deep h.next h v else (h, v)).2
      else if n ∈ copied then deep h.next h v else (h, v)) = w at e sp
    obtain ⟨g, s1, w1, r1, v1⟩ := sp
    cases a with
    | imm k => simp [setAt] at e
    | obj x =>
      simp only [setAt] at e
      split at e
      · simp at e
      · rename_i bare fs hfs
        obtain rfl := Option.some.inj e
        refine ⟨v, w.2, hv, ?_, ?_⟩
        · simp [getAt, Heap.set, putField_lookup]
        · intro d hd
          rw [← v1 d hd]
          refine view_congr d _ fun y hy => ?_
          have : y ≠ x := by
            rintro rfl
            rcases r1 y hy with q | q
            · exact absurd (wa y rfl) (not_lt.mpr q)
            · exact apart y (.here rfl) (getAt_reach _ _ _ hv y q)
          simp [Heap.set, this]

/-- A value of `Model/Attr.lean` put into memory. -/
def loadAll (f : Heap → Attr.Val → Heap × Ref) : Heap → List (String × Attr.Val) → Heap × List (String × Ref)
  | h, [] => (h, [])
  | h, (k, v) :: l => let r := f h v; let s := loadAll f r.1 l; (s.1, (k, r.2) :: s.2)

def load : ℕ → Heap → Attr.Val → Heap × Ref
  | _, h, .none => (h, .imm 0)
  | _, h, .atom n => (h, .imm (n + 1))
  | 0, h, _ => (h, .imm 0)
  | k + 1, h, .model fs => let r := loadAll (load k) h fs; r.1.alloc (.model false r.2)
  | k + 1, h, .bare fs => let r := loadAll (load k) h fs; r.1.alloc (.model true r.2)

/-- Everything declared, to a depth of ten. -/
def full : ℕ → Ty
  | 0 => .any
  | k + 1 => .model fun _ => full k

def empty : Heap := ⟨fun _ => .list [], 0⟩

/-- Two new entities of a class, in memory. -/
def two (c : Cls) : Heap × Ref × Ref :=
  let r := load 10 empty c.fresh
  let s := load 10 r.1 c.fresh
  (s.1, r.2, s.2)

/-- After merging two new entities, is their control behavior the same object? -/
def sharesBehavior (validating : Bool) (q : Cls × List Part) : Option Bool :=
  let t := two q.1
  match merge validating (fun _ => full 10) q.1 q.2 t.1 t.2.1 t.2.2 with
  | none => none
  | some h => match getAt h t.2.1 ["control_behavior"], getAt h t.2.2 ["control_behavior"] with
    | some (.obj x), some (.obj y) => some (decide (x = y))
    | _, _ => some false

/-- A memory with these objects at the addresses 0, 1, 2, … -/
def mk (l : List Obj) : Heap := ⟨fun x => l.getD x (.list []), l.length⟩

theorem mk_sound (l : List Obj) (e : (l.all fun o => o.refs.all fun r => match r with | .obj c => decide (c < l.length) | .imm _ => true) = true) :
    Sound (mk l) := by
  intro x hx c hc
  have hx' : x < l.length := hx
  have : (mk l).get x = l[x] := by simp [mk, hx']
  rw [this] at hc
  have := List.all_eq_true.mp (List.all_eq_true.mp e l[x] (List.getElem_mem hx')) _ hc
  exact of_decide_eq_true this

/-- `Reach` is contained in a list that is closed under references. -/
theorem mk_reach (l : List Obj) (a : ℕ) (s : List ℕ) (ha : a ∈ s)
    (e : (s.all fun x => ((mk l).get x).refs.all fun r => match r with | .obj c => decide (c ∈ s) | .imm _ => true) = true) {x : ℕ}
    (hx : Reach (mk l) (.obj a) x) : x ∈ s :=
  reach_in (S := (· ∈ s)) (fun b hb => by cases hb; exact ha)
    (fun y hy c hc => by simpa using List.all_eq_true.mp (List.all_eq_true.mp e y hy) _ hc) hx

/-- An accumulator without settings (its `_root` is 1), and one with an output signal and tags with a list in them (its `_root` is 6). -/
def C109_objs : List Obj := [
  .model false [("output_signal", .imm 0)],
  .model false [("name", .imm 7), ("tags", .imm 0), ("control_behavior", .obj 0)],
  .model false [("name", .imm 8), ("type", .imm 9)],
  .model false [("output_signal", .obj 2)],
  .list [.imm 5],
  .model false [("key", .obj 4)],
  .model false [("name", .imm 7), ("tags", .obj 5), ("control_behavior", .obj 3)]]

/-- Control behaviors of accumulators: `output_signal` is a signal. -/
def C109_ty (n : String) : Ty :=
  if n = "control_behavior" then .model fun f => if f = "output_signal" then .model fun _ => .any else .any else .model fun _ => .any

/-- The hypotheses of `C109_independent_partial` hold of them, and the merge succeeds: the new signal is at 9, in the control behavior at 10. -/
example : Sound (mk C109_objs) ∧ Apart (mk C109_objs) (.obj 1) (.obj 6) ∧
    Plain (mk C109_objs) (C109_ty "control_behavior") (.obj 3) ∧
    ∃ h', merge true C109_ty Attr.accumulator [MergeAttr.accumulatorPart, MergeAttr.controlBehaviorMixinPart, MergeAttr.entityPart]
        (mk C109_objs) (.obj 1) (.obj 6) = some h' ∧ getAt h' (.obj 1) ["control_behavior", "output_signal"] = some (.obj 10) ∧
      getAt h' (.obj 6) ["control_behavior", "output_signal"] = some (.obj 2) ∧
      h'.get 10 = .model false [("name", .imm 8), ("type", .imm 9)] := by
  refine ⟨mk_sound _ (by decide +kernel), ?_, ?_, _, rfl, by decide +kernel, by decide +kernel, by decide +kernel⟩
  · intro x hx hy
    have h1 := mk_reach C109_objs 1 [0, 1] (by decide) (by decide +kernel) hx
    have h2 := mk_reach C109_objs 6 [2, 3, 4, 5, 6] (by decide) (by decide +kernel) hy
    simp at h1 h2
    omega
  · refine .model _ 3 [("output_signal", .obj 2)] rfl ?_
    intro p hp
    obtain rfl := List.mem_singleton.mp hp
    refine .model _ 2 [("name", .imm 8), ("type", .imm 9)] rfl ?_
    intro p hp
    fin_cases hp
    · exact .imm _ _
    · exact .imm _ _

/-- C109 fails for exactly these classes if new entities are merged with validation: their control behaviors derive from `BaseModel` alone, so that
validation keeps the object. -/
theorem C109_classes : ∀ q ∈ table, sharesBehavior true q =
    some (decide (q.1.name ∈ ["LogisticActiveContainer", "LogisticPassiveContainer", "LogisticStorageContainer", "TransportBelt"])) := by
  decide +kernel

/-- C109 fails for transport belts in every mode: after `a.merge(b)`, assigning `b.circuit_enabled` changes `a.circuit_enabled`. -/
theorem C109_belts_refuted (validating : Bool) :
    let t := two Attr.transportBelt
    ∃ h', merge validating (fun _ => full 10) Attr.transportBelt [MergeAttr.hashPart, MergeAttr.controlBehaviorMixinPart, MergeAttr.directionalMixinPart,
        MergeAttr.entityPart] t.1 t.2.1 t.2.2 = some h' ∧ ¬ Apart h' t.2.1 t.2.2 ∧
      getAt h' t.2.1 ["control_behavior", "circuit_enabled"] = some (.imm 1) ∧
      (setAt h' t.2.2 ["control_behavior", "circuit_enabled"] (.imm 2)).bind (getAt · t.2.1 ["control_behavior", "circuit_enabled"]) = some (.imm 2) := by
  cases validating
  · refine ⟨_, rfl, ?_, by decide +kernel, by decide +kernel⟩
    intro h
    exact h 2 (.step (b := 1) (.here rfl) (by decide +kernel)) (.step (b := 3) (.here rfl) (by decide +kernel))
  · refine ⟨_, rfl, ?_, by decide +kernel, by decide +kernel⟩
    intro h
    exact h 2 (.step (b := 1) (.here rfl) (by decide +kernel)) (.step (b := 3) (.here rfl) (by decide +kernel))

/-- C109 fails without validation for every class whose new entities have a control behavior: it is the same object afterwards. -/
theorem C109_unvalidated_refuted : ∀ q ∈ table, "control_behavior" ∈ order q.2 →
    ∀ x, getAt (two q.1).1 (two q.1).2.1 ["control_behavior"] = some (.obj x) → sharesBehavior false q = some true := by
  have key : ∀ q ∈ table, "control_behavior" ∈ order q.2 →
      (match getAt (two q.1).1 (two q.1).2.1 ["control_behavior"] with | some (.obj _) => true | _ => false) = true →
      sharesBehavior false q = some true := by decide +kernel
  intro q hq hc x hx
  exact key q hq hc (by rw [hx])

/-- C109 fails for extra keys: here the control behavior of the other accumulator has a list under a key of its own, which is the same list
afterwards although the merge was validated. -/
theorem C109_extra_refuted : ∃ h',
    merge true C109_ty Attr.accumulator [MergeAttr.accumulatorPart, MergeAttr.controlBehaviorMixinPart, MergeAttr.entityPart]
      (mk (C109_objs.set 3 (.model false [("output_signal", .imm 0), ("note", .obj 4)]))) (.obj 1) (.obj 6) = some h' ∧
    getAt h' (.obj 1) ["control_behavior", "note"] = some (.obj 4) ∧ getAt h' (.obj 6) ["control_behavior", "note"] = some (.obj 4) ∧
    ¬ Apart h' (.obj 1) (.obj 6) := by
  refine ⟨_, rfl, by decide +kernel, by decide +kernel, ?_⟩
  intro h
  exact h 4 (getAt_reach ["control_behavior", "note"] _ (.obj 4) (by decide +kernel) 4 (.here rfl))
    (getAt_reach ["control_behavior", "note"] _ (.obj 4) (by decide +kernel) 4 (.here rfl))

end MergeShare
end Draftsman
