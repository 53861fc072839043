import Verif.Model.Merge
import Mathlib.Data.List.Nodup
import Mathlib.Data.Rat.Defs
import Mathlib.Tactic.Linarith
/-
C67: inserting with `merge=True`.
-/
namespace Draftsman
namespace Merge

mutual
/-- The entities of an item with the group each is in, depth first. -/
def leaves (p : Option ℕ) : Node → List (Option ℕ × ℕ)
  | .ent u => [(p, u)]
  | .grp g kids => leavesL g kids
/-- The same for the members of a group. -/
def leavesL (g : ℕ) : List Node → List (Option ℕ × ℕ)
  | [] => []
  | k :: ks => leaves (some g) k ++ leavesL g ks
end

/-- The entities of an item, depth first. -/
def Node.ents (x : Node) : List ℕ := (leaves none x).map (·.2)

/-- `u` lies on the member `v` of the map: same class and name, same place, same id, and the boxes overlap. -/
def LiesOn (s : St) (u v : ℕ) : Prop :=
  v ∈ s.map ∧ (s.ent v).kind = (s.ent u).kind ∧ (s.ent v).pos + s.base = (s.ent u).pos ∧ (s.ent v).id = (s.ent u).id ∧
    ∃ b q, (s.ent v).box = some b ∧ (s.ent u).box = some q ∧ aabbOverlapsAabb { b with position := b.position + s.base } q = true

/-- The entities are different objects, none of them is in the map, and no two are of the same class and name at the same place with
the same id. -/
structure Apart (s : St) (us : List ℕ) : Prop where
  nodup : us.Nodup
  new : ∀ u ∈ us, u ∉ s.map
  apart : ∀ a ∈ us, ∀ b ∈ us, (s.ent a).kind = (s.ent b).kind → (s.ent a).pos = (s.ent b).pos → (s.ent a).id = (s.ent b).id → a = b

theorem Apart.sub {s : St} {us vs : List ℕ} (h : Apart s us) (hs : vs.Sublist us) : Apart s vs :=
  ⟨h.nodup.sublist hs, fun u hu => h.new u (hs.subset hu), fun a ha b hb => h.apart a (hs.subset ha) b (hs.subset hb)⟩

theorem vec_add_zero (v : Vec) : v + 0 = v := by
  show Vec.add v 0 = v
  cases v
  simp [Vec.add]

/-- What an entity of the item is merged into when the others of the item do not matter. -/
def dest (s : St) (u : ℕ) : Option ℕ :=
  s.map.find? fun v => touches s.base (s.ent v) (s.ent u) && mergable s.base (s.ent v) (s.ent u)

theorem hit_iff (s : St) (u v : ℕ) :
    v ∈ s.map ∧ (touches s.base (s.ent v) (s.ent u) && mergable s.base (s.ent v) (s.ent u)) = true ↔ LiesOn s u v := by
  unfold LiesOn touches mergable
  cases (s.ent v).box <;> cases (s.ent u).box <;> simp
  tauto

theorem dest_some {s : St} {u v : ℕ} (h : dest s u = some v) : LiesOn s u v :=
  (hit_iff s u v).1 ⟨List.mem_of_find?_eq_some h, by have := List.find?_some h; exact this⟩

theorem dest_none {s : St} {u : ℕ} : dest s u = none ↔ ∀ v, ¬ LiesOn s u v := by
  unfold dest
  rw [List.find?_eq_none]
  constructor
  · intro h v hv
    have := (hit_iff s u v).2 hv
    exact h v this.1 this.2
  · intro h v hv hc
    exact h v ((hit_iff s u v).1 ⟨hv, hc⟩)

/-- Where an end of a wire of `c` goes once `done` has been added. -/
def endAfter (s : St) (done : List (Option ℕ × ℕ)) (c e : ℕ) : ℕ :=
  if (some c, e) ∈ done then (dest s e).getD e else e

/-- The tags of `x` once `done` has been added. -/
def tagsAfter (s : St) (done : List (Option ℕ × ℕ)) (x : ℕ) : ℕ :=
  match done.find? (fun q => dest s q.2 = some x) with
  | some q => (s.ent q.2).tags
  | none => (s.ent x).tags

/-- The state once `done` has been added. -/
def after (s : St) (done : List (Option ℕ × ℕ)) : St where
  ent := fun x => { s.ent x with tags := tagsAfter s done x }
  wires := fun c => (s.wires c).map fun w => { w with e1 := endAfter s done c w.e1, e2 := endAfter s done c w.e2 }
  map := s.map
  fresh := s.fresh ++ (done.filter fun q => (dest s q.2).isNone).map (·.2)
  base := s.base

theorem after_nil (s : St) : after s [] = s := by
  cases s
  simp [after, tagsAfter, endAfter]

theorem touches_tags (base : Vec) (a b : MEnt) (t t' : ℕ) : touches base { a with tags := t } { b with tags := t' } = touches base a b := rfl

theorem mergable_tags (base : Vec) (a b : MEnt) (t t' : ℕ) : mergable base { a with tags := t } { b with tags := t' } = mergable base a b := rfl

/-- The member that an entity is merged into does not depend on what else of the item was added before. -/
theorem target_after (s : St) (hf : s.fresh = []) (done : List (Option ℕ × ℕ)) (p : Option ℕ) (u : ℕ)
    (ha : Apart s ((done ++ [(p, u)]).map (·.2))) : target (after s done) u = dest s u := by
  have hnd := ha.nodup
  have : ((after s done).fresh.find? fun v => touches 0 ((after s done).ent v) ((after s done).ent u) &&
      mergable 0 ((after s done).ent v) ((after s done).ent u)) = none := by
    rw [List.find?_eq_none]
    intro v hv hc
    simp only [after, hf, List.nil_append, List.mem_map] at hv
    obtain ⟨q, hq, rfl⟩ := hv
    have hq := (List.mem_filter.1 hq).1
    simp only [Bool.and_eq_true, mergable, decide_eq_true_eq, vec_add_zero] at hc
    have := ha.apart q.2 (by simp; exact Or.inl ⟨q.1, hq⟩) u (by simp) hc.2.1.1 hc.2.1.2 hc.2.2
    simp only [List.map_append, List.map_cons, List.map_nil, List.nodup_append, List.mem_map, List.mem_singleton] at hnd
    exact hnd.2.2 q.2 ⟨q, hq, rfl⟩ u rfl this
  unfold target
  rw [this]
  simp only [after, touches_tags, mergable_tags, dest]
  cases List.find? (fun v => touches s.base (s.ent v) (s.ent u) && mergable s.base (s.ent v) (s.ent u)) s.map <;> rfl

/-- Adding one more entity. -/
theorem addLeaf_after (s : St) (hf : s.fresh = []) (done : List (Option ℕ × ℕ)) (p : Option ℕ) (u : ℕ)
    (ha : Apart s ((done ++ [(p, u)]).map (·.2))) :
    addLeaf (after s done) p u = (after s (done ++ [(p, u)]), (dest s u).isSome) := by
  have hnd := ha.nodup
  simp only [List.map_append, List.map_cons, List.map_nil, List.nodup_append, List.mem_map, List.mem_singleton] at hnd
  have hu : ∀ q ∈ done, q.2 ≠ u := fun q hq => hnd.2.2 q.2 ⟨q, hq, rfl⟩ u rfl
  have hnew : u ∉ s.map := ha.new u (by simp)
  have hdm : ∀ {x v}, dest s x = some v → v ∈ s.map := fun h => (dest_some h).1
  have htagu : tagsAfter s done u = (s.ent u).tags := by
    unfold tagsAfter
    rw [List.find?_eq_none.2]
    intro q _ hc
    exact hnew (hdm (of_decide_eq_true hc))
  unfold addLeaf
  rw [target_after s hf done p u ha]
  cases hd : dest s u with
  | none =>
    simp only [Option.isSome_none, Prod.mk.injEq, and_true]
    unfold after
    simp only [St.mk.injEq, true_and]
    refine ⟨?_, ?_, ?_⟩
    · funext x
      congr 1
      unfold tagsAfter
      rw [List.find?_append]
      simp [hd]
    · funext c
      refine List.map_congr_left fun w _ => ?_
      have he : ∀ e, endAfter s done c e = endAfter s (done ++ [(p, u)]) c e := by
        intro e
        unfold endAfter
        by_cases h : (some c, e) ∈ done
        · rw [if_pos h, if_pos (List.mem_append_left _ h)]
        · rw [if_neg h]
          split
          · rename_i h2
            rcases List.mem_append.1 h2 with h2 | h2
            · exact absurd h2 h
            · simp at h2; rw [h2.2, hd]; rfl
          · rfl
      rw [he, he]
    · simp [List.filter_append, hd]
  | some v =>
    simp only [Option.isSome_some, Prod.mk.injEq, and_true]
    have hv := dest_some hd
    have hlast : ∀ q ∈ done, dest s q.2 ≠ some v := by
      intro q hq hc
      have h2 := dest_some hc
      apply hu q hq
      exact ha.apart q.2 (by simp; exact Or.inl ⟨q.1, hq⟩) u (by simp) (h2.2.1.symm.trans hv.2.1) (h2.2.2.1.symm.trans hv.2.2.1)
        (h2.2.2.2.1.symm.trans hv.2.2.2.1)
    unfold mergeInto after
    simp only [St.mk.injEq, true_and]
    refine ⟨?_, ?_, ?_⟩
    · funext x
      by_cases hx : x = v
      · subst hx
        rw [if_pos rfl, htagu]
        simp only [MEnt.mk.injEq, true_and, and_true]
        unfold tagsAfter
        rw [List.find?_append, List.find?_eq_none.2 (fun q hq hc => hlast q hq (of_decide_eq_true hc))]
        simp [hd]
      · rw [if_neg hx]
        congr 1
        unfold tagsAfter
        rw [List.find?_append]
        simp [hd, Ne.symm hx]
    · funext c
      by_cases hc : p = some c
      · rw [if_pos hc, List.map_map]
        refine List.map_congr_left fun w _ => ?_
        have he : ∀ e, (if endAfter s done c e = u then v else endAfter s done c e) = endAfter s (done ++ [(p, u)]) c e := by
          intro e
          unfold endAfter
          by_cases h : (some c, e) ∈ done
          · rw [if_pos h, if_pos (List.mem_append_left _ h), if_neg]
            cases he : dest s e with
            | none => exact hu _ h
            | some x => exact fun hx => hnew (hx ▸ hdm he)
          · rw [if_neg h]
            by_cases he : e = u
            · subst he
              rw [if_pos rfl, if_pos (by simp [hc]), hd]; rfl
            · rw [if_neg he, if_neg]
              simp [h, he]
        simp only [Function.comp, redirect, he]
      · rw [if_neg hc]
        refine List.map_congr_left fun w _ => ?_
        have he : ∀ e, endAfter s done c e = endAfter s (done ++ [(p, u)]) c e := by
          intro e
          unfold endAfter
          have : (some c, e) ∈ done ++ [(p, u)] ↔ (some c, e) ∈ done := by
            simp [Ne.symm hc]
          simp only [this]
        rw [he, he]
    · simp [List.filter_append, hd]

mutual
/-- An item without the entities that lie on a member of the map. -/
def prune (s : St) : Node → Option Node
  | .ent u => if (dest s u).isSome then none else some (.ent u)
  | .grp g kids => some (.grp g (pruneL s kids))
/-- The same for a list. -/
def pruneL (s : St) : List Node → List Node
  | [] => []
  | k :: ks => (prune s k).toList ++ pruneL s ks
end

/-- Members of a group as the loop leaves them. -/
def leftover (s : St) (ks : List Node) : List Node := ks.map fun k => (prune s k).getD k

/-- Members of a group that the loop found to be merged. -/
def gone (s : St) (ks : List Node) : List Node := ks.filter fun k => (prune s k).isNone

theorem mem_leavesL {g : ℕ} {k : Node} {ks : List Node} (hk : k ∈ ks) : ∀ q ∈ leaves (some g) k, q ∈ leavesL g ks := by
  induction ks with
  | nil => simp at hk
  | cons a t ih =>
    intro q hq
    simp only [leavesL, List.mem_append]
    rcases List.mem_cons.1 hk with rfl | hk
    · exact Or.inl hq
    · exact Or.inr (ih hk q hq)

theorem gone_ent {s : St} {ks : List Node} {x : Node} (hx : x ∈ gone s ks) : ∃ u, x = .ent u ∧ x ∈ ks ∧ (dest s u).isSome := by
  obtain ⟨h1, h2⟩ := List.mem_filter.1 hx
  cases x with
  | ent u =>
    refine ⟨u, rfl, h1, ?_⟩
    simp only [prune] at h2
    by_contra hc
    simp [hc] at h2
  | grp g k => simp [prune] at h2

theorem leftover_shape (s : St) (k : Node) : (∃ u, k = .ent u ∧ (prune s k).getD k = .ent u) ∨ ∃ g a b, k = .grp g a ∧ (prune s k).getD k = .grp g b := by
  cases k with
  | ent u =>
    left
    refine ⟨u, rfl, ?_⟩
    simp only [prune]
    split <;> rfl
  | grp g a => right; exact ⟨g, a, _, rfl, rfl⟩

/-- Removing the merged members by `==` removes exactly them. -/
theorem remove_gone (s t : St) (g : ℕ) (ht : ∀ x, (t.ent x).kind = (s.ent x).kind ∧ (t.ent x).pos = (s.ent x).pos ∧ (t.ent x).id = (s.ent x).id)
    (ks : List Node) (ha : Apart s ((leavesL g ks).map (·.2))) :
    (gone s ks).foldl (removeEq t) (leftover s ks) = pruneL s ks := by
  induction ks with
  | nil => rfl
  | cons k ks ih =>
    have hsub : ((leavesL g ks).map (·.2)).Sublist ((leavesL g (k :: ks)).map (·.2)) := by
      simp only [leavesL, List.map_append]
      exact List.sublist_append_right _ _
    have ih := ih (ha.sub hsub)
    simp only [gone, leftover, List.filter_cons, List.map_cons, pruneL] at ih ⊢
    cases hp : prune s k with
    | none =>
      simp only [Option.isNone_none, if_true, List.foldl_cons, Option.toList_none, List.nil_append, Option.getD_none]
      have : removeEq t (k :: List.map (fun k => (prune s k).getD k) ks) k = List.map (fun k => (prune s k).getD k) ks := by
        unfold removeEq
        rw [List.eraseP_cons_of_pos]
        cases k <;> simp [same]
      rw [this]
      exact ih
    | some k' =>
      simp only [Option.isNone_some, Option.toList_some, Option.getD_some, List.cons_append, List.nil_append]
      rw [if_neg (by simp), ← ih]
      have hk' : k' = (prune s k).getD k := by rw [hp]; rfl
      have hskip : ∀ (m l : List Node), (∀ x ∈ m, same t k' x = false) → m.foldl (removeEq t) (k' :: l) = k' :: m.foldl (removeEq t) l := by
        intro m
        induction m with
        | nil => intro l _; rfl
        | cons x m ihm =>
          intro l hm
          simp only [List.foldl_cons]
          have : removeEq t (k' :: l) x = k' :: removeEq t l x := by
            unfold removeEq
            rw [List.eraseP_cons_of_neg]
            rw [hm x (by simp)]; simp
          rw [this, ihm _ fun y hy => hm y (by simp [hy])]
      apply hskip
      intro x hx
      obtain ⟨u, rfl, hxk, -⟩ := gone_ent (s := s) (ks := ks) hx
      rcases leftover_shape s k with ⟨a, rfl, h2⟩ | ⟨g', a, b, rfl, h2⟩
      · rw [hk', h2]
        have hm1 : a ∈ (leavesL g (.ent a :: ks)).map (·.2) := by simp [leavesL, leaves]
        have hm2 : u ∈ (leavesL g ks).map (·.2) := by
          have := mem_leavesL (g := g) hxk (some g, u) (by simp [leaves])
          exact List.mem_map.2 ⟨_, this, rfl⟩
        have hne : a ≠ u := by
          have := ha.nodup
          simp only [leavesL, leaves, List.map_cons, List.cons_append, List.nil_append, List.nodup_cons] at this
          exact fun h => this.1 (h ▸ hm2)
        simp only [same, Bool.or_eq_false_iff, decide_eq_false_iff_not]
        refine ⟨hne, ?_⟩
        by_contra hc
        simp only [Bool.not_eq_false, Bool.and_eq_true, decide_eq_true_eq] at hc
        obtain ⟨⟨⟨c1, c2⟩, c3⟩, -⟩ := hc
        rw [(ht a).1, (ht u).1] at c1
        rw [(ht a).2.1, (ht u).2.1] at c2
        rw [(ht a).2.2, (ht u).2.2] at c3
        exact hne (ha.apart a hm1 u (hsub.subset hm2) c1 c2 c3)
      · rw [hk', h2]; rfl

mutual
/-- Adding an item. -/
theorem addNode_after (s : St) (hf : s.fresh = []) (done : List (Option ℕ × ℕ)) (p : Option ℕ) :
    (x : Node) → Apart s ((done ++ leaves p x).map (·.2)) → addNode (after s done) p x = (after s (done ++ leaves p x), prune s x)
  | .ent u, ha => by
    simp only [leaves] at ha
    simp only [addNode, addLeaf_after s hf done p u ha, leaves, prune]
  | .grp g kids, ha => by
    simp only [leaves] at ha
    simp only [addNode, addKids_after s hf done g kids ha, leaves, prune]
    rw [remove_gone s (after s (done ++ leavesL g kids)) g (fun x => ⟨rfl, rfl, rfl⟩) kids (ha.sub (by
      rw [List.map_append]
      exact List.sublist_append_right _ _))]
/-- Adding the members of a group. -/
theorem addKids_after (s : St) (hf : s.fresh = []) (done : List (Option ℕ × ℕ)) (g : ℕ) :
    (ks : List Node) → Apart s ((done ++ leavesL g ks).map (·.2)) →
      addKids (after s done) g ks = (after s (done ++ leavesL g ks), leftover s ks, gone s ks)
  | [], _ => by simp [addKids, leavesL, leftover, gone]
  | k :: ks, ha => by
    have h1 := addNode_after s hf done (some g) k (ha.sub (by
      simp only [leavesL, List.map_append]
      rw [← List.append_assoc]
      exact List.sublist_append_left _ _))
    have h2 := addKids_after s hf (done ++ leaves (some g) k) g ks (by simpa [leavesL] using ha)
    simp only [addKids, h1, h2, leavesL, ← List.append_assoc]
    cases hp : prune s k <;> simp [leftover, gone, hp]
end

mutual
/-- What is left of an item. -/
theorem prune_leaves (s : St) (p : Option ℕ) : (x : Node) →
    ((prune s x).toList.flatMap (leaves p)) = (leaves p x).filter fun q => (dest s q.2).isNone
  | .ent u => by
    simp only [prune, leaves]
    cases h : dest s u <;> simp [h, leaves]
  | .grp g kids => by
    simp [prune, leaves, pruneL_leaves s g kids]
/-- What is left of a list. -/
theorem pruneL_leaves (s : St) (g : ℕ) : (ks : List Node) →
    leavesL g (pruneL s ks) = (leavesL g ks).filter fun q => (dest s q.2).isNone
  | [] => by simp [pruneL, leavesL]
  | k :: ks => by
    have h1 := prune_leaves s (some g) k
    have h2 := pruneL_leaves s g ks
    simp only [pruneL, leavesL, List.filter_append, ← h1, ← h2]
    cases prune s k <;> simp [leavesL]
end

/-- Everything that inserting an item with `merge=True` does, when the entities of the item are different objects no two of which are of the
same class and name at the same place with the same id.  The entities left in the item are those that lie on no member of the map, in
their order; they join the map, whose members stay.  Only tags change: a member that an entity of the item lies on takes the tags of
that entity (if there are several members there, one of them does), everything else keeps its tags.  In the wires of every collection,
an end at an entity of its own that lies on a member goes to such a member, and all other ends and all terminals stay. -/
theorem C67_merge_partial (s : St) (hf : s.fresh = []) (x : Node) (ha : Apart s x.ents) :
    let r := addNode s none x
    (r.2.toList.flatMap Node.ents).Sublist x.ents ∧
    (∀ u, u ∈ r.2.toList.flatMap Node.ents ↔ u ∈ x.ents ∧ ∀ v, ¬ LiesOn s u v) ∧
    r.1.map = s.map ∧ r.1.fresh = r.2.toList.flatMap Node.ents ∧
    (∀ y, r.1.ent y = { s.ent y with tags := (r.1.ent y).tags }) ∧
    (∀ u ∈ x.ents, ∀ v, LiesOn s u v → ∃ v', LiesOn s u v' ∧ (r.1.ent v').tags = (s.ent u).tags) ∧
    (∀ y, (∀ u ∈ x.ents, ¬ LiesOn s u y) → (r.1.ent y).tags = (s.ent y).tags) ∧
    ∀ c, ∃ f : ℕ → ℕ, r.1.wires c = (s.wires c).map (fun w => { w with e1 := f w.e1, e2 := f w.e2 }) ∧
      (∀ e, (some c, e) ∈ leaves none x → (∃ v, LiesOn s e v) → LiesOn s e (f e)) ∧
      ∀ e, ((some c, e) ∉ leaves none x ∨ ∀ v, ¬ LiesOn s e v) → f e = e := by
  intro r
  have hr : r = (after s (leaves none x), prune s x) := by
    have := addNode_after s hf [] none x (by simpa [Node.ents] using ha)
    rw [after_nil] at this
    simpa using this
  have hleft : r.2.toList.flatMap Node.ents = ((leaves none x).filter fun q => (dest s q.2).isNone).map (·.2) := by
    rw [hr, ← prune_leaves s none x]
    cases prune s x <;> simp [Node.ents]
  have hdest : ∀ u, (dest s u).isNone ↔ ∀ v, ¬ LiesOn s u v := by
    intro u
    rw [Option.isNone_iff_eq_none, dest_none]
  refine ⟨?_, ?_, ?_, ?_, ?_, ?_, ?_, ?_⟩
  · rw [hleft]
    exact List.Sublist.map _ List.filter_sublist
  · intro u
    rw [hleft]
    simp only [Node.ents, List.mem_map, List.mem_filter, hdest]
    constructor
    · rintro ⟨q, ⟨h1, h2⟩, rfl⟩; exact ⟨⟨q, h1, rfl⟩, h2⟩
    · rintro ⟨⟨q, h1, rfl⟩, h2⟩; exact ⟨q, ⟨h1, h2⟩, rfl⟩
  · rw [hr]; rfl
  · rw [hleft, hr]
    simp [after, hf]
  · intro y; rw [hr]; rfl
  · intro u hu v hv
    obtain ⟨q, hq, rfl⟩ := List.mem_map.1 hu
    cases hd : dest s q.2 with
    | none => exact absurd hv (dest_none.1 hd v)
    | some v' =>
      refine ⟨v', dest_some hd, ?_⟩
      rw [hr]
      simp only [after, tagsAfter]
      cases hfd : (leaves none x).find? (fun q => dest s q.2 = some v') with
      | none =>
        have := List.find?_eq_none.1 hfd q hq
        simp [hd] at this
      | some q' =>
        have h1 := List.mem_of_find?_eq_some hfd
        have h2 := List.find?_some hfd
        simp only [decide_eq_true_eq] at h2
        have e1 := dest_some h2
        have e2 := dest_some hd
        simp only
        rw [ha.apart q'.2 (List.mem_map.2 ⟨q', h1, rfl⟩) q.2 hu (e1.2.1.symm.trans e2.2.1) (e1.2.2.1.symm.trans e2.2.2.1)
          (e1.2.2.2.1.symm.trans e2.2.2.2.1)]
  · intro y hy
    rw [hr]
    simp only [after, tagsAfter]
    rw [List.find?_eq_none.2]
    intro q hq hc
    exact hy q.2 (List.mem_map.2 ⟨q, hq, rfl⟩) (dest_some (of_decide_eq_true hc))
  · intro c
    refine ⟨endAfter s (leaves none x) c, by rw [hr]; rfl, ?_, ?_⟩
    · rintro e he ⟨v, hv⟩
      unfold endAfter
      rw [if_pos he]
      cases hd : dest s e with
      | none => exact absurd hv (dest_none.1 hd v)
      | some v' => exact dest_some hd
    · rintro e he
      unfold endAfter
      split
      · rename_i h
        rcases he with he | he
        · exact absurd h he
        · rw [dest_none.2 he]; rfl
      · rfl

/-- No wire is left hanging when every collection has wires between its own entities only: afterwards every end of its wires is a member
of the map. -/
theorem C67_wires_partial (s : St) (hf : s.fresh = []) (x : Node) (ha : Apart s x.ents) (c : ℕ)
    (hc : ∀ w ∈ s.wires c, (some c, w.e1) ∈ leaves none x ∧ (some c, w.e2) ∈ leaves none x) :
    ∀ w ∈ (settle (addNode s none x).1).wires c, w.e1 ∈ (settle (addNode s none x).1).map ∧ w.e2 ∈ (settle (addNode s none x).1).map := by
  obtain ⟨-, h2, h3, h4, -, -, -, h8⟩ := C67_merge_partial s hf x ha
  obtain ⟨f, hw, hf1, hf2⟩ := h8 c
  have hend : ∀ e, (some c, e) ∈ leaves none x → f e ∈ (settle (addNode s none x).1).map := by
    intro e he
    simp only [settle, List.mem_append]
    by_cases hl : ∃ v, LiesOn s e v
    · left; rw [h3]; exact (hf1 e he hl).1
    · right
      push Not at hl
      rw [h4, hf2 e (Or.inr hl), h2]
      exact ⟨List.mem_map.2 ⟨_, he, rfl⟩, hl⟩
  intro w hw'
  have : (settle (addNode s none x).1).wires c = (addNode s none x).1.wires c := rfl
  rw [this, hw] at hw'
  obtain ⟨w0, hw0, rfl⟩ := List.mem_map.1 hw'
  exact ⟨hend _ (hc w0 hw0).1, hend _ (hc w0 hw0).2⟩

/-- Inserting an item all of whose entities lie on something adds no entity. -/
theorem C67_again_partial (s : St) (hf : s.fresh = []) (x : Node) (ha : Apart s x.ents) (hall : ∀ u ∈ x.ents, ∃ v, LiesOn s u v) :
    (settle (addNode s none x).1).map = s.map ∧ (addNode s none x).2.toList.flatMap Node.ents = [] := by
  obtain ⟨-, h2, h3, h4, -⟩ := C67_merge_partial s hf x ha
  have hnil : (addNode s none x).2.toList.flatMap Node.ents = [] := by
    rw [List.eq_nil_iff_forall_not_mem]
    intro u hu
    obtain ⟨hu, hn⟩ := (h2 u).1 hu
    obtain ⟨v, hv⟩ := hall u hu
    exact hn v hv
  refine ⟨?_, hnil⟩
  simp only [settle]
  rw [h3, h4, hnil, List.append_nil]

/-- A one by one entity of the given class at the given place. -/
def at_ (kind : ℕ) (x : ℚ) (id : Option ℕ) (tags : ℕ) : MEnt :=
  ⟨kind, ⟨x, 0⟩, id, tags, some { topLeft := ⟨x - 1/2, -1/2⟩, botRight := ⟨x + 1/2, 1/2⟩ }⟩

/-- A blueprint with entity 5 in it, and a group (1) of two entities with a wire between them, the first of which (10) lies on entity 5. -/
def s0 : St where
  ent := fun u => if u = 5 then at_ 1 0 none 50 else if u = 10 then at_ 1 0 none 100 else at_ 1 3 none 110
  wires := fun c => if c = 1 then [⟨10, 1, 11, 1⟩] else []
  map := [5]
  fresh := []
  base := 0

/-- The group. -/
def g0 : Node := .grp 1 [.ent 10, .ent 11]

example : Apart s0 g0.ents ∧ (∀ w ∈ s0.wires 1, (some 1, w.e1) ∈ leaves none g0 ∧ (some 1, w.e2) ∈ leaves none g0) := by
  refine ⟨⟨by decide, by decide, ?_⟩, by decide⟩
  intro a ha b hb _ hpos _
  simp only [g0, Node.ents, leaves, leavesL, List.append_nil, List.cons_append, List.nil_append, List.map_cons, List.map_nil, List.mem_cons,
    List.not_mem_nil, or_false] at ha hb
  rcases ha with rfl | rfl <;> rcases hb with rfl | rfl
  · rfl
  · revert hpos; decide +kernel
  · revert hpos; decide +kernel
  · rfl

example : LiesOn s0 10 5 := ⟨by decide, by decide +kernel, by decide +kernel, by decide +kernel, _, _, rfl, rfl, by decide +kernel⟩

example : (settle (addNode s0 none g0).1).map = [5, 11] ∧ (addNode s0 none g0).2.toList.flatMap Node.ents = [11] ∧
    ((addNode s0 none g0).1.ent 5).tags = 100 ∧ (addNode s0 none g0).1.wires 1 = [⟨5, 1, 11, 1⟩] := by decide +kernel

/-- Two equal entities (10 and 12) in one group, a wire from the first. -/
def twins : St where
  ent := fun u => if u = 11 then at_ 1 3 none 0 else at_ 1 0 none 0
  wires := fun c => if c = 1 then [⟨10, 1, 11, 1⟩] else []
  map := []
  fresh := []
  base := 0

/-- False of the code: after merging, the wires of a group join entities of the blueprint or of the group.  When two entities of the
group lie on each other the second is merged into the first, but `item.entities.remove(entity)` (`spatial_hashmap.py:74`) removes the
first member that compares equal, which is the one that was kept; the wires go to an object that is in no list. -/
theorem C67_twins_refuted : ¬ ∀ s x c, s.fresh = [] → (∀ w ∈ s.wires c, (some c, w.e1) ∈ leaves none x ∧ (some c, w.e2) ∈ leaves none x) →
    ∀ w ∈ (addNode s none x).1.wires c, w.e1 ∈ s.map ∨ w.e1 ∈ (addNode s none x).2.toList.flatMap Node.ents := by
  intro h
  have := h twins (.grp 1 [.ent 10, .ent 12, .ent 11]) 1 rfl (by decide +kernel) ⟨10, 1, 11, 1⟩ (by decide +kernel)
  revert this
  decide +kernel

/-- A group (1) with a group (2) in it; the wire from the entity of the inner group is a wire of the outer one. -/
def nested : St where
  ent := fun u => if u = 5 then at_ 1 0 none 50 else if u = 10 then at_ 1 0 none 100 else at_ 1 3 none 110
  wires := fun c => if c = 1 then [⟨10, 1, 11, 1⟩] else []
  map := [5]
  fresh := []
  base := 0

/-- False of the code: after merging, all wires of an item join entities of the blueprint or of the item.  Only the wires of the group that
the merged entity is directly in are redirected (`circuit_connectable.py:188-193`); a wire of an outer group to an entity of an inner
group keeps pointing to the entity that was merged away, and the blueprint can no longer be exported. -/
theorem C67_nested_refuted : ¬ ∀ s x c, s.fresh = [] → Apart s x.ents → (∀ w ∈ s.wires c, w.e1 ∈ x.ents ∧ w.e2 ∈ x.ents) →
    ∀ w ∈ (addNode s none x).1.wires c, w.e1 ∈ s.map ∨ w.e1 ∈ (addNode s none x).2.toList.flatMap Node.ents := by
  intro h
  have := h nested (.grp 1 [.grp 2 [.ent 10], .ent 11]) 1 rfl ⟨by decide, by decide, by
    intro a ha b hb _ hpos _
    simp only [Node.ents, leaves, leavesL, List.append_nil, List.cons_append, List.nil_append, List.map_cons, List.map_nil, List.mem_cons,
      List.not_mem_nil, or_false] at ha hb
    rcases ha with rfl | rfl <;> rcases hb with rfl | rfl
    · rfl
    · revert hpos; decide +kernel
    · revert hpos; decide +kernel
    · rfl⟩ (by decide +kernel) ⟨10, 1, 11, 1⟩ (by decide +kernel)
  revert this
  decide +kernel

/-- **C67**: inserting succeeds exactly if the item is not an entity whose id is taken; then the item is merged as described above, what is left of it comes last
and can be merged with from then on.  Otherwise `DuplicateIDError` is raised and nothing is changed. -/
theorem C67_insert (s : St) (used : List ℕ) (l : List Node) (x : Node) :
    ((∃ u i, x = .ent u ∧ (s.ent u).id = some i ∧ i ∈ used) → insert s used l x = (s, l, some .duplicateId)) ∧
    ((∀ u i, x = .ent u → (s.ent u).id = some i → i ∉ used) → ∃ s', insert s used l x = (s', l ++ (addNode s none x).2.toList, none) ∧
      s'.map = (addNode s none x).1.map ++ (addNode s none x).1.fresh ∧ s'.fresh = [] ∧ s'.ent = (addNode s none x).1.ent ∧
      s'.wires = (addNode s none x).1.wires) := by
  constructor
  · rintro ⟨u, i, rfl, hi, hu⟩
    simp only [insert, topId, hi, if_pos hu]
  · intro h
    refine ⟨settle (addNode s none x).1, ?_, rfl, rfl, rfl, rfl⟩
    cases x with
    | grp a b => rfl
    | ent u =>
      cases e : (s.ent u).id with
      | none => simp only [insert, topId, e]
      | some i => simp only [insert, topId, e, if_neg (h u i rfl e)]

example : (insert ⟨fun u => at_ 1 u (some u) 0, fun _ => [], [5], [], 0⟩ [5] [.ent 5] (.ent 7)).2.2 = none := by decide +kernel

/-- False of the code: an entity that lies on a mergable one is merged.  Two entities are mergable only if they have the same id
(`entity.py:747`), but inserting an entity whose id is taken raises `DuplicateIDError` before merging is tried
(`entity_list.py:297` and 378-379). -/
theorem C67_id_refuted : ¬ ∀ s used l u v, s.fresh = [] → LiesOn s u v → (∀ i, (s.ent v).id = some i → i ∈ used) →
    (insert s used l (.ent u)).2.2 = none := by
  intro h
  have := h ⟨fun _ => at_ 1 0 (some 7) 0, fun _ => [], [5], [], 0⟩ [7] [.ent 5] 10 5 rfl
    ⟨by decide, rfl, by decide +kernel, rfl, _, _, rfl, rfl, by decide +kernel⟩ (by intro i hi; simp [at_] at hi; simp [hi])
  revert this
  decide +kernel

/-- False of the code: in a group, an entity at the same place in the group as a member of the same class and name is merged into it.
If the group is not at the origin the member's global position includes that of the group and that of the new entity does not
(`entity_list.py:314-327`), so that they are never found to be at the same place.  For the same reason no overlap is reported. -/
theorem C67_frame_refuted : ¬ ∀ s p u v, s.fresh = [] → v ∈ s.map → (s.ent v).kind = (s.ent u).kind → (s.ent v).pos = (s.ent u).pos →
    (s.ent v).id = (s.ent u).id → touches 0 (s.ent v) (s.ent u) = true → (addLeaf s p u).2 = true := by
  intro h
  have := h ⟨fun _ => at_ 1 0 none 0, fun _ => [], [5], [], ⟨10, 0⟩⟩ none 10 5 rfl (by decide) rfl rfl rfl (by decide +kernel)
  revert this
  decide +kernel

end Merge
end Draftsman
