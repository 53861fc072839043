import Verif.Model.SetEntities
import Verif.Props.EntityList
/-
C118: assigning to the entities of a blueprint or a group.
-/
namespace Draftsman
namespace SetEntities
open EList

/-- The id an entry carries. -/
def idOf : Src → Option String
  | .obj e => e.id
  | .dict _ id _ => id
  | .other => none

/-- What else there is to an entry. -/
def keyOf : Src → Option Nat
  | .obj e => e.key
  | .dict _ _ k => some k
  | .other => none

/-- Entities, groups, and dictionaries with a name. -/
def Usable (x : Src) : Prop := (∃ e, x = .obj e) ∨ ∃ n id k, x = .dict (some n) id k

/-- No two entries carry the same id; the empty id does not count. -/
def Distinct (l : List Src) : Prop := l.Pairwise fun x y => idOf x = idOf y → idOf x = none ∨ idOf x = some ""

/-- A dictionary that was used has lost its name. -/
def Spent (x y : Src) : Prop := (∃ e, x = .obj e ∧ y = .obj e) ∨ ∃ n id k, x = .dict n id k ∧ y = .dict none id k

/-- The entries of what is assigned. -/
def entries : Value → List Src
  | .none => []
  | .elist l => l.map .obj
  | .list l => l
  | .tuple l => l
  | .scalar => []

/-- What can be assigned to a blueprint. -/
def Valid (v : Value) : Prop := v ≠ .scalar ∧ (∀ x ∈ entries v, Usable x) ∧ Distinct (entries v)

theorem append_ok {s : EList} (h : Good s) {v : EL} (hu : ∀ u ∈ s.root.map (·.uid), u < v.uid)
    (hid : ∀ e ∈ s.root, e.id = v.id → truthy v.id = false) :
    ∃ s', s.append v = (s', none) ∧ s'.root = s.root ++ [v] ∧ Good s' := by
  obtain ⟨s', h1, h2, h3⟩ := good_insert h (idx := s.root.length) (v := v) (by omega) (fun hc => by have := hu _ hc; omega) (by
    rw [Bool.eq_false_iff]
    intro hc
    obtain ⟨ht, e, he, heq⟩ := (idTaken_iff h _).1 hc
    rw [hid e he heq] at ht
    cases ht)
  refine ⟨s', h1, ?_, h3⟩
  rw [h2]
  simp

theorem append_dup {s : EList} (h : Good s) {v e : EL} (he : e ∈ s.root) (hid : e.id = v.id) (ht : truthy v.id = true) :
    s.append v = (s, some .duplicateId) := by
  have : s.idTaken v = true := (idTaken_iff h v).2 ⟨ht, e, he, hid⟩
  simp only [append, EList.insert, this, if_true]

/-- What the loop makes of entries that can be used and carry ids of their own. -/
theorem build_ok (l : List Src) : ∀ (s : EList) (next : ℕ), Good s → (∀ u ∈ s.root.map (·.uid), u < next) → (∀ x ∈ l, Usable x) → Distinct l →
    (∀ x ∈ l, ∀ e ∈ s.root, e.id = idOf x → truthy (idOf x) = false) →
    ∃ s' l', build s next l = (s', next + l.length, l', none) ∧ Good s' ∧ List.Forall₂ Spent l l' ∧
      s'.root.map (fun e => (e.id, e.key)) = s.root.map (fun e => (e.id, e.key)) ++ l.map (fun x => (idOf x, keyOf x)) ∧
      s'.root.map (·.uid) = s.root.map (·.uid) ++ List.range' next l.length := by
  induction l with
  | nil =>
    intro s next h _ _ _ _
    exact ⟨s, [], rfl, h, .nil, by simp, by simp⟩
  | cons x r ih =>
    intro s next h hu hus hd hid
    have hone : ∀ v : EL, v.uid = next → v.id = idOf x → ∃ s1, s.append v = (s1, none) ∧ s1.root = s.root ++ [v] ∧ Good s1 := by
      intro v h1 h2
      exact append_ok h (by rw [h1]; exact hu) (by rw [h2]; exact hid x (by simp))
    have hrest : ∀ (v : EL) (s1 : EList), v.uid = next → v.id = idOf x → v.key = keyOf x → s1.root = s.root ++ [v] → Good s1 →
        ∃ s' l', build s1 (next + 1) r = (s', next + (r.length + 1), l', none) ∧ Good s' ∧ List.Forall₂ Spent r l' ∧
      s'.root.map (fun e => (e.id, e.key)) = s.root.map (fun e => (e.id, e.key)) ++ (x :: r).map (fun x => (idOf x, keyOf x)) ∧
      s'.root.map (·.uid) = s.root.map (·.uid) ++ List.range' next (r.length + 1) := by
      intro v s1 h1 h2 h2' h3 h4
      obtain ⟨s', l', h5, h6, h7, h8, h9⟩ := ih s1 (next + 1) h4
        (by
          intro u hm
          rw [h3] at hm
          simp only [List.map_append, List.mem_append, List.map_cons, List.map_nil, List.mem_singleton] at hm
          rcases hm with hm | hm
          · have := hu u hm; omega
          · omega)
        (fun y hy => hus y (by simp [hy])) (List.pairwise_cons.1 hd).2
        (by
          intro y hy e he heq
          rw [h3] at he
          rcases List.mem_append.1 he with he | he
          · exact hid y (by simp [hy]) e he heq
          · simp only [List.mem_singleton] at he
            subst he
            have hxy : idOf x = idOf y := by rw [← h2]; exact heq
            rw [← hxy]
            exact (truthy_false_iff _).2 ((List.pairwise_cons.1 hd).1 y hy hxy))
      refine ⟨s', l', by rw [h5, show next + 1 + r.length = next + (r.length + 1) by omega], h6, h7, ?_, ?_⟩
      · rw [h8, h3]
        simp [h2, h2']
      · rw [h9, h3]
        simp [h1, List.range'_succ]
    rcases hus x (by simp) with ⟨e, rfl⟩ | ⟨n, id, k, rfl⟩
    · obtain ⟨s1, h1, h2, h3⟩ := hone { e with uid := next } rfl rfl
      obtain ⟨s', l', h5, h6, h7, h8, h9⟩ := hrest { e with uid := next } s1 rfl rfl rfl h2 h3
      refine ⟨s', .obj e :: l', ?_, h6, .cons (Or.inl ⟨e, rfl, rfl⟩) h7, h8, h9⟩
      simp only [build, h1, h5, List.length_cons]
    · obtain ⟨s1, h1, h2, h3⟩ := hone ⟨next, id, some k⟩ rfl rfl
      obtain ⟨s', l', h5, h6, h7, h8, h9⟩ := hrest _ s1 rfl rfl rfl h2 h3
      refine ⟨s', .dict none id k :: l', ?_, h6, .cons (Or.inr ⟨some n, id, k, rfl, rfl⟩) h7, h8, h9⟩
      simp only [build, h1, h5, List.length_cons]

/-- The loop comes through only on entries that can be used and carry ids of their own. -/
theorem build_none (l : List Src) : ∀ (s : EList) (next : ℕ), Good s → (∀ u ∈ s.root.map (·.uid), u < next) → (build s next l).2.2.2 = none →
    (∀ x ∈ l, Usable x) ∧ Distinct l ∧ ∀ x ∈ l, ∀ e ∈ s.root, e.id = idOf x → truthy (idOf x) = false := by
  induction l with
  | nil => intro s next _ _ _; simp [Distinct]
  | cons x r ih =>
    intro s next h hu hb
    have key : ∀ v : EL, v.uid = next → v.id = idOf x → Usable x →
        (∀ s1, s.append v = (s1, none) → (build s1 (next + 1) r).2.2.2 = none) → (∀ s1 err, s.append v ≠ (s1, some err)) →
        (∀ y ∈ x :: r, Usable y) ∧ Distinct (x :: r) ∧ ∀ y ∈ x :: r, ∀ e ∈ s.root, e.id = idOf y → truthy (idOf y) = false := by
      intro v h1 h2 h3 h4 h5
      have hx : ∀ e ∈ s.root, e.id = v.id → truthy v.id = false := by
        intro e he heq
        rw [Bool.eq_false_iff]
        intro ht
        exact h5 _ _ (append_dup h he heq ht)
      obtain ⟨s1, h6, h7, h8⟩ := append_ok h (v := v) (by rw [h1]; exact hu) hx
      obtain ⟨h9, h10, h11⟩ := ih s1 (next + 1) h8 (by
        intro u hm
        rw [h7] at hm
        simp only [List.map_append, List.mem_append, List.map_cons, List.map_nil, List.mem_singleton] at hm
        rcases hm with hm | hm
        · have := hu u hm; omega
        · omega) (h4 s1 h6)
      refine ⟨?_, List.pairwise_cons.2 ⟨?_, h10⟩, ?_⟩
      · intro y hy
        rcases List.mem_cons.1 hy with rfl | hy
        · exact h3
        · exact h9 y hy
      · intro y hy hxy
        rw [hxy]
        exact (truthy_false_iff _).1 (h11 y hy v (by rw [h7]; simp) (by rw [h2, hxy]))
      · intro y hy e he heq
        rcases List.mem_cons.1 hy with rfl | hy
        · rw [← h2]; exact hx e he (by rw [h2]; exact heq)
        · exact h11 y hy e (by rw [h7]; simp [he]) heq
    match x, hb, key with
    | .obj e, hb, key =>
      refine key { e with uid := next } rfl rfl (Or.inl ⟨e, rfl⟩) ?_ ?_
      · intro s1 h1
        simp only [build, h1] at hb
        exact hb
      · intro s1 err h1
        simp only [build, h1] at hb
        cases hb
    | .dict (some n) id k, hb, key =>
      refine key ⟨next, id, some k⟩ rfl rfl (Or.inr ⟨n, id, k, rfl⟩) ?_ ?_
      · intro s1 h1
        simp only [build, h1] at hb
        exact hb
      · intro s1 err h1
        simp only [build, h1] at hb
        cases hb
    | .dict none id k, hb, _ => simp only [build] at hb; cases hb
    | .other, hb, _ => simp only [build] at hb; cases hb

/-- What an assignment of the entries `l` that is accepted does. -/
structure Replaced (w w' : World) (l : List Src) : Prop where
  /-- the members are as given, in the order given -/
  contents : w'.lst.root.map (fun e => (e.id, e.key)) = l.map (fun x => (idOf x, keyOf x))
  /-- the members are new objects: identities from `next` on are not in use -/
  new : ∀ e ∈ w'.lst.root, w.next ≤ e.uid
  /-- no object is listed twice -/
  nodup : (w'.lst.root.map (·.uid)).Nodup
  /-- every id names the right member -/
  right : w'.lst.Right
  /-- the members have the blueprint or group as parent -/
  parents : ∀ e ∈ w'.lst.root, e.uid ∈ w'.children
  /-- the wires stay as they were -/
  wires : w'.wires = w.wires

theorem replace_ok (w : World) (l : List Src) (hu : ∀ x ∈ l, Usable x) (hd : Distinct l) :
    ∃ w' l', replace w l = (w', l', none) ∧ Replaced w w' l ∧ List.Forall₂ Spent l l' := by
  obtain ⟨s, l', h1, h2, h3, h4, h5⟩ := build_ok l EList.empty w.next good_empty (by simp [EList.empty]) hu hd (by simp [EList.empty])
  have h5' : s.root.map (·.uid) = List.range' w.next l.length := by simpa [EList.empty] using h5
  refine ⟨⟨s, w.wires, w.children ++ s.root.map (·.uid), w.next + l.length⟩, l', ?_, ⟨?_, ?_, ?_, h2.right, ?_, rfl⟩, h3⟩
  · simp only [replace, h1]
  · simpa [EList.empty] using h4
  · intro e he
    have : e.uid ∈ s.root.map (·.uid) := List.mem_map_of_mem he
    rw [h5', List.mem_range'_1] at this
    exact this.1
  · exact h2.2
  · intro e he
    exact List.mem_append_right _ (List.mem_map_of_mem he)

theorem replace_bad (w : World) (l : List Src) (h : ¬ ((∀ x ∈ l, Usable x) ∧ Distinct l)) :
    ∃ n l' e, replace w l = ({ w with next := n }, l', some e) := by
  have := mt (fun hb => build_none l EList.empty w.next good_empty (by simp [EList.empty]) hb) (fun hc => h ⟨hc.1, hc.2.1⟩)
  rcases hb : build EList.empty w.next l with ⟨s, n, l', _ | e⟩
  · rw [hb] at this
    exact absurd rfl this
  · exact ⟨n, l', e, by simp only [replace, hb]⟩

theorem forall₂_spent_obj {l : List EL} {l' : List Src} (h : List.Forall₂ Spent (l.map .obj) l') : l' = l.map .obj := by
  induction l generalizing l' with
  | nil => cases h; rfl
  | cons e r ih =>
    cases h with
    | cons h1 h2 =>
      rcases h1 with ⟨e', h3, h4⟩ | ⟨n, id, k, h3, h4⟩
      · cases h3
        rw [h4, ih h2]; rfl
      · cases h3

theorem replaced_clear (w : World) : Replaced w { w with lst := w.lst.clear } [] where
  contents := rfl
  new := by simp [EList.clear, EList.empty]
  nodup := by simp [EList.clear, EList.empty]
  right := good_empty.right
  parents := by simp [EList.clear, EList.empty]
  wires := rfl

/-- C118, for all blueprints and all that can be assigned: assigning `None`, another `EntityList` or a sequence of entities, groups and
dictionaries with names makes the blueprint hold new objects with just the given contents in the given order, of which it is the
parent and which are found by their ids. -/
theorem C118_blueprint (w : World) (v : Value) (hv : Valid v) :
    (setBlueprint w v).2.2 = none ∧ Replaced w (setBlueprint w v).1 (entries v) := by
  obtain ⟨h0, h1, h2⟩ := hv
  cases v with
  | none => exact ⟨rfl, replaced_clear w⟩
  | scalar => exact absurd rfl h0
  | elist l =>
    obtain ⟨w', l', h3, h4, h5⟩ := replace_ok w _ h1 h2
    simp only [entries] at h3 h4
    simp only [setBlueprint, h3, entries]
    exact ⟨trivial, h4⟩
  | list l =>
    obtain ⟨w', l', h3, h4, h5⟩ := replace_ok w _ h1 h2
    simp only [entries] at h3 h4
    simp only [setBlueprint, h3, entries]
    exact ⟨trivial, h4⟩
  | tuple l =>
    obtain ⟨w', l', h3, h4, h5⟩ := replace_ok w _ h1 h2
    simp only [entries] at h3 h4
    simp only [setBlueprint, h3, entries]
    exact ⟨trivial, h4⟩

/-- C118: whatever else is assigned to a blueprint is refused, and its list, its wires and the parents are as before. -/
theorem C118_blueprint_refuses (w : World) (v : Value) (hv : ¬ Valid v) :
    (setBlueprint w v).2.2 ≠ none ∧ (setBlueprint w v).1.lst = w.lst ∧ (setBlueprint w v).1.wires = w.wires ∧
      (setBlueprint w v).1.children = w.children := by
  cases v with
  | none => exact absurd ⟨by simp, by simp [entries], by simp [entries, Distinct]⟩ hv
  | scalar => simp [setBlueprint]
  | elist l =>
    obtain ⟨n, l', e, h⟩ := replace_bad w (l.map .obj) (fun hc => hv ⟨by simp, hc⟩)
    simp [setBlueprint, h]
  | list l =>
    obtain ⟨n, l', e, h⟩ := replace_bad w l (fun hc => hv ⟨by simp, hc⟩)
    simp [setBlueprint, h]
  | tuple l =>
    obtain ⟨n, l', e, h⟩ := replace_bad w l (fun hc => hv ⟨by simp, hc⟩)
    simp [setBlueprint, h]

/-- C118, for groups: the same, except that of the sequences only lists and entity lists can be assigned. -/
theorem C118_group (w : World) (v : Value) :
    (Valid v → (∀ l, v ≠ .tuple l) → (setGroup w v).2.2 = none ∧ Replaced w (setGroup w v).1 (entries v)) ∧
    (¬ Valid v ∨ (∃ l, v = .tuple l) → (setGroup w v).2.2 ≠ none ∧ (setGroup w v).1.lst = w.lst ∧ (setGroup w v).1.wires = w.wires ∧
      (setGroup w v).1.children = w.children) := by
  cases v with
  | tuple l => exact ⟨fun _ h => absurd rfl (h l), fun _ => by simp [setGroup]⟩
  | none => exact ⟨fun h _ => C118_blueprint w .none h, fun h => C118_blueprint_refuses w .none (h.resolve_right (by simp))⟩
  | scalar => exact ⟨fun h _ => C118_blueprint w .scalar h, fun h => C118_blueprint_refuses w .scalar (h.resolve_right (by simp))⟩
  | elist l => exact ⟨fun h _ => C118_blueprint w (.elist l) h, fun h => C118_blueprint_refuses w (.elist l) (h.resolve_right (by simp))⟩
  | list l => exact ⟨fun h _ => C118_blueprint w (.list l) h, fun h => C118_blueprint_refuses w (.list l) (h.resolve_right (by simp))⟩

/-- C118, partial (dictionaries lose their names, see `C118_dicts_refuted`): the entity list, the entities and the groups assigned are left
as they were, whether or not the assignment is accepted. -/
theorem C118_source_partial (w : World) (l : List EL) :
    (setBlueprint w (.elist l)).2.1 = .elist l ∧ (setGroup w (.elist l)).2.1 = .elist l ∧
    (setBlueprint w (.list (l.map .obj))).2.1 = .list (l.map .obj) ∧ (setGroup w (.list (l.map .obj))).2.1 = .list (l.map .obj) := by
  have hb : ∀ (r : List EL) (s : EList) (n : ℕ), (build s n (r.map .obj)).2.2.1 = r.map .obj := by
    intro r
    induction r with
    | nil => intros; rfl
    | cons e r ih =>
      intro s n
      simp only [List.map_cons, build]
      split
      · rfl
      · rename_i s' _
        have := ih s' (n + 1)
        simp only [this]
  have hr : (replace w (l.map .obj)).2.1 = l.map .obj := by
    have := hb l EList.empty w.next
    unfold replace
    split <;> (rename_i h; rw [h] at this; exact this)
  refine ⟨rfl, rfl, ?_, ?_⟩
  · simp only [setBlueprint, hr]
  · simp only [setGroup, hr]

/-- C118: an accepted assignment takes the name, and nothing else, out of the dictionaries assigned. -/
theorem C118_spent (w : World) (l : List Src) (hu : ∀ x ∈ l, Usable x) (hd : Distinct l) :
    ∃ l', (setBlueprint w (.list l)).2.1 = .list l' ∧ (setGroup w (.list l)).2.1 = .list l' ∧ List.Forall₂ Spent l l' := by
  obtain ⟨w', l', h3, h4, h5⟩ := replace_ok w l hu hd
  exact ⟨l', by simp only [setBlueprint, h3], by simp only [setGroup, h3], h5⟩

/-- A blueprint of two poles joined by a wire, the first with an id. -/
def poles : World := ⟨(EOp.run EList.empty [.append ⟨1, some "a", some 7⟩ false, .append ⟨2, none, some 8⟩ false]), [(1, 2)], [1, 2], 3⟩

/-- Its own list assigned to it, and a list with a dictionary. -/
example : Valid (.elist poles.lst.root) ∧ Valid (.list [.obj ⟨2, none, some 8⟩, .dict (some "lamp") (some "l") 9]) ∧
    ¬ Valid (.list [.obj ⟨2, some "l", some 8⟩, .dict (some "lamp") (some "l") 9]) ∧ ¬ Valid (.tuple [.other]) := by
  have h1 : poles.lst.root = [⟨1, some "a", some 7⟩, ⟨2, none, some 8⟩] := by decide
  refine ⟨⟨by simp, ?_, ?_⟩, ⟨by simp, ?_, ?_⟩, ?_, ?_⟩
  · rw [h1]
    simp [entries, Usable]
  · rw [h1]
    simp [entries, Distinct, idOf]
  · simp [entries, Usable]
  · simp [entries, Distinct, idOf]
  · rintro ⟨-, -, h⟩
    simp [entries, Distinct, idOf] at h
  · rintro ⟨-, h, -⟩
    simp [entries, Usable] at h

example : (setBlueprint poles (.list [.obj ⟨2, none, some 8⟩, .dict (some "lamp") (some "l") 9])).1.lst.root =
    [⟨3, none, some 8⟩, ⟨4, some "l", some 9⟩] := by decide

/-- C118 is false of the code in that the dictionaries of a list assigned do not stay as they are: their names are taken out, so that
assigning the list once more fails. -/
theorem C118_dicts_refuted : ¬ ∀ (w : World) (l : List Src), (∀ x ∈ l, Usable x) → Distinct l →
    (setBlueprint w (.list l)).2.1 = .list l := by
  intro h
  have := h poles [.dict (some "lamp") none 9] (by simp [Usable]) (by simp [Distinct])
  revert this
  decide

/-- C118 is false of the code in that the wires do not follow: assigning a blueprint's own list to it leaves wires between objects that are no
members any more. -/
theorem C118_wires_refuted : ¬ ∀ (w : World), (∀ p ∈ w.wires, p.1 ∈ w.lst.root.map (·.uid) ∧ p.2 ∈ w.lst.root.map (·.uid)) →
    ∀ p ∈ (setBlueprint w (.elist w.lst.root)).1.wires,
      p.1 ∈ (setBlueprint w (.elist w.lst.root)).1.lst.root.map (·.uid) ∧ p.2 ∈ (setBlueprint w (.elist w.lst.root)).1.lst.root.map (·.uid) := by
  intro h
  have := h poles (by decide) (1, 2) (by decide)
  revert this
  decide

/-- C118 is false of the code in that the parent of a former member is not reset: it still has the blueprint as parent, and giving it another
id makes the blueprint forget the id of the new member. -/
theorem C118_former_refuted : ¬ ∀ (w : World) (v : Value) (e : EL) (k : String), w.lst.Right → Valid v → e ∈ w.lst.root →
    e.uid ∈ (setBlueprint w v).1.children → ((setBlueprint w v).1.lst.renameEntity e (some k)).1.Right := by
  intro h
  have hg : Good poles.lst := EOp.run_good good_empty _ (by refine ⟨?_, ?_, trivial⟩ <;> simp only [EOp.Legal] <;> decide)
  have := h poles (.elist poles.lst.root) ⟨1, some "a", some 7⟩ "z" hg.right (by
    have h1 : poles.lst.root = [⟨1, some "a", some 7⟩, ⟨2, none, some 8⟩] := by decide
    refine ⟨by simp, ?_, ?_⟩
    · rw [h1]
      simp [entries, Usable]
    · rw [h1]
      simp [entries, Distinct, idOf]) (by decide) (by decide)
  have h2 := this.find ⟨3, some "a", some 7⟩ (by decide) "a" rfl (by decide)
  revert h2
  decide

end SetEntities
end Draftsman
