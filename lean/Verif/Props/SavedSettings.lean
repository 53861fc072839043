import Verif.Model.SavedSettings
import Verif.Props.ModSettings
import Mathlib.Data.List.Nodup

namespace Draftsman
namespace SavedSettings

open ModSettings

/-! ## C113: saved settings take the place of the defaults -/

/-- The name of a type of settings, in prototypes and in the file. -/
def typeName : Slot → String
  | .startup => "startup"
  | .global => "runtime-global"
  | .player => "runtime-per-user"

/-- Prototypes as the game accepts them: each has one of the three types, and no two have the same kind and name, or the same type and name. -/
structure Declared {α : Type} (raw : Kind → List (Proto α)) : Prop where
  typed : ∀ k, ∀ p ∈ raw k, ∃ t, p.type = some (typeName t)
  names : ∀ k, ((raw k).map Proto.name).Nodup
  types : ∀ k k' p p', p ∈ raw k → p' ∈ raw k' → p.type = p'.type → p.name = p'.name → k = k'

/-- What is saved: for types of settings, the names and values. -/
abbrev Saved := List (Slot × List (String × Tree))

/-- The tree of a file with these: `type → name → "value" → value`. -/
def tree (sv : Saved) : Tree :=
  .dict (sv.map fun p => (some (typeName p.1), .dict (p.2.map fun q => (some q.1, .dict [(some "value", q.2)]))))

/-- Name `n` of type `t` is saved with the value `v`. -/
def Has (sv : Saved) (t : Slot) (n : String) (v : Tree) : Prop := ∃ l, (t, l) ∈ sv ∧ (n, v) ∈ l

/-- The settings after the stage are what is declared, each with its saved value, or else its default. -/
structure Applied {α : Type} (raw : Kind → List (Proto α)) (sv : Saved) (s : St α) : Prop where
  there : ∀ k, ∀ p ∈ raw k, ∀ t, p.type = some (typeName t) → s.table.get? (t, p.name) = some (k, p.name)
  saved : ∀ k, ∀ p ∈ raw k, ∀ t, p.type = some (typeName t) → ∀ v, Has sv t p.name v → s.value (k, p.name) = some (.saved (value v))
  dflt : ∀ k, ∀ p ∈ raw k, ∀ t, p.type = some (typeName t) → (∀ v, ¬ Has sv t p.name v) → s.value (k, p.name) = some (.dflt p.dflt)
  only : ∀ t n, (∀ k, ∀ p ∈ raw k, ¬ (p.type = some (typeName t) ∧ p.name = n)) → s.table.get? (t, n) = none

/-! ### Lemmas -/

theorem slot_typeName (t : Slot) : slot? (typeName t) = some t := by cases t <;> decide +kernel

theorem typeName_inj {a b : Slot} (h : typeName a = typeName b) : a = b := by
  have := slot_typeName a
  rw [h, slot_typeName] at this
  exact (Option.some.inj this).symm

/-- What has been declared by a list of prototypes so far. -/
structure Inv {α : Type} (l : List (Kind × Proto α)) (s : St α) : Prop where
  there : ∀ q ∈ l, ∀ t, q.2.type = some (typeName t) → s.table.get? (t, q.2.name) = some (q.1, q.2.name)
  value : ∀ q ∈ l, s.value (q.1, q.2.name) = some (.dflt q.2.dflt)
  from' : ∀ t n o, s.table.get? (t, n) = some o → ∃ q ∈ l, q.2.type = some (typeName t) ∧ q.2.name = n ∧ o = (q.1, n)

theorem setOne_inv {α : Type} (l : List (Kind × Proto α)) (s : St α) (h : Inv l s) (k : Kind) (p : Proto α) (t : Slot) (ht : p.type = some (typeName t))
    (h1 : ∀ q ∈ l, (q.1, q.2.name) ≠ (k, p.name)) (h2 : ∀ q ∈ l, (q.2.type, q.2.name) ≠ (p.type, p.name)) :
    ∃ s', setOne k s p = .ok s' ∧ Inv (l ++ [(k, p)]) s' := by
  refine ⟨_, by simp only [setOne, ht, Option.bind_some, slot_typeName]; rfl, ?_, ?_, ?_⟩
  · intro q hq u hu
    simp only [List.mem_append, List.mem_singleton] at hq
    rw [Dict.get?_set]
    rcases hq with hq | rfl
    · have : ¬ ((t, p.name) = (u, q.2.name)) := by
        intro e
        simp only [Prod.mk.injEq] at e
        exact h2 q hq (by rw [hu, ht, e.1, e.2])
      rw [if_neg this]
      exact h.there q hq u hu
    · have : u = t := typeName_inj (Option.some.inj (hu.symm.trans ht))
      subst this
      simp
  · intro q hq
    simp only [List.mem_append, List.mem_singleton] at hq
    rcases hq with hq | rfl
    · simp only [if_neg (h1 q hq), h.value q hq]
    · simp
  · intro u n o ho
    rw [Dict.get?_set] at ho
    split at ho
    · rename_i e
      simp only [Prod.mk.injEq] at e
      refine ⟨(k, p), by simp, by rw [ht, e.1], e.2, ?_⟩
      rw [← Option.some.inj ho, e.2]
    · obtain ⟨q, hq, r⟩ := h.from' u n o ho
      exact ⟨q, by simp [hq], r⟩

theorem setAll_inv {α : Type} (k : Kind) : ∀ (ps : List (Proto α)) (l : List (Kind × Proto α)) (s : St α), Inv l s →
    (∀ p ∈ ps, ∃ t, p.type = some (typeName t)) →
    (l ++ ps.map fun p => (k, p)).Pairwise (fun a b => (a.1, a.2.name) ≠ (b.1, b.2.name) ∧ (a.2.type, a.2.name) ≠ (b.2.type, b.2.name)) →
    ∃ s', ps.foldlM (setOne k) s = .ok s' ∧ Inv (l ++ ps.map fun p => (k, p)) s'
  | [], l, s, h, _, _ => ⟨s, rfl, by simpa using h⟩
  | p :: ps, l, s, h, ht, hp => by
    obtain ⟨t, ht'⟩ := ht p (by simp)
    have hp' := List.pairwise_append.1 hp
    obtain ⟨s1, e1, h1⟩ := setOne_inv l s h k p t ht' (fun q hq => (hp'.2.2 q hq (k, p) (by simp)).1) (fun q hq => (hp'.2.2 q hq (k, p) (by simp)).2)
    obtain ⟨s2, e2, h2⟩ := setAll_inv k ps (l ++ [(k, p)]) s1 h1 (fun q hq => ht q (by simp [hq])) (by simpa using hp)
    exact ⟨s2, by simp only [List.foldlM_cons, e1, bind, Except.bind]; exact e2, by simpa using h2⟩

theorem setKinds_inv {α : Type} (raw : Kind → List (Proto α)) (ht : ∀ k, ∀ p ∈ raw k, ∃ t, p.type = some (typeName t)) :
    ∀ (ks : List Kind) (l : List (Kind × Proto α)) (s : St α), Inv l s →
    (l ++ ks.flatMap fun k => (raw k).map fun p => (k, p)).Pairwise (fun a b => (a.1, a.2.name) ≠ (b.1, b.2.name) ∧ (a.2.type, a.2.name) ≠ (b.2.type, b.2.name)) →
    ∃ s', ks.foldlM (setSettings raw) s = .ok s' ∧ Inv (l ++ ks.flatMap fun k => (raw k).map fun p => (k, p)) s'
  | [], l, s, h, _ => ⟨s, rfl, by simpa using h⟩
  | k :: ks, l, s, h, hp => by
    simp only [List.flatMap_cons, ← List.append_assoc] at hp
    obtain ⟨s1, e1, h1⟩ := setAll_inv k (raw k) l s h (ht k) (List.pairwise_append.1 hp).1
    obtain ⟨s2, e2, h2⟩ := setKinds_inv raw ht ks _ s1 h1 hp
    exact ⟨s2, by simp only [List.foldlM_cons, setSettings, e1, bind, Except.bind]; exact e2, by simpa [List.append_assoc] using h2⟩

theorem kinds_nodup : kinds.Nodup := by decide

theorem mem_kinds (k : Kind) : k ∈ kinds := by cases k <;> decide

theorem all_pairwise {α : Type} (raw : Kind → List (Proto α)) (h : Declared raw) (ks : List Kind) (hk : ks.Nodup) :
    (ks.flatMap fun k => (raw k).map fun p => (k, p)).Pairwise (fun a b => (a.1, a.2.name) ≠ (b.1, b.2.name) ∧ (a.2.type, a.2.name) ≠ (b.2.type, b.2.name)) := by
  induction ks with
  | nil => simp
  | cons k ks ih =>
    simp only [List.nodup_cons] at hk
    simp only [List.flatMap_cons, List.pairwise_append]
    refine ⟨?_, ih hk.2, ?_⟩
    · rw [List.pairwise_map]
      have := h.names k
      rw [List.Nodup, List.pairwise_map] at this
      refine this.imp ?_
      intro a b hab
      simp [hab]
    · intro a ha b hb
      simp only [List.mem_map, List.mem_flatMap] at ha hb
      obtain ⟨p, hp, rfl⟩ := ha
      obtain ⟨k', hk', p', hp', rfl⟩ := hb
      have hne : k ≠ k' := by
        rintro rfl
        exact hk.1 hk'
      refine ⟨by simp [hne], ?_⟩
      intro e
      simp only [Prod.mk.injEq] at e
      exact hne (h.types k k' p p' hp hp' e.1 e.2)

/-- The defaults are in place. -/
theorem convert_inv {α : Type} (raw : Kind → List (Proto α)) (h : Declared raw) :
    ∃ s, convert raw = .ok s ∧ Inv (kinds.flatMap fun k => (raw k).map fun p => (k, p)) s := by
  have := setKinds_inv raw h.typed kinds [] ⟨[], fun _ => none⟩ ⟨by simp, by simp, by simp⟩ (by simpa using all_pairwise raw h kinds kinds_nodup)
  simpa [convert] using this

theorem mem_all {α : Type} (raw : Kind → List (Proto α)) (q : Kind × Proto α) :
    q ∈ (kinds.flatMap fun k => (raw k).map fun p => (k, p)) ↔ q.2 ∈ raw q.1 := by
  simp only [List.mem_flatMap, List.mem_map]
  constructor
  · rintro ⟨k, -, p, hp, rfl⟩
    exact hp
  · intro hq
    exact ⟨q.1, mem_kinds _, q.2, hq, rfl⟩

/-- Different places of the table have different prototypes. -/
def Inj (T : Dict (Slot × String) (Kind × String)) : Prop := ∀ a b o, T.get? a = some o → T.get? b = some o → a = b

theorem inv_inj {α : Type} (raw : Kind → List (Proto α)) (h : Declared raw) (s : St α) (hi : Inv (kinds.flatMap fun k => (raw k).map fun p => (k, p)) s) :
    Inj s.table := by
  rintro ⟨t, n⟩ ⟨t', n'⟩ o ha hb
  obtain ⟨q, hq, ht, hn, ho⟩ := hi.from' t n o ha
  obtain ⟨q', hq', ht', hn', ho'⟩ := hi.from' t' n' o hb
  rw [mem_all] at hq hq'
  rw [ho] at ho'
  simp only [Prod.mk.injEq] at ho'
  obtain ⟨k, p⟩ := q
  obtain ⟨k', p'⟩ := q'
  simp only at *
  obtain ⟨rfl, rfl⟩ := ho'
  have : p = p' := List.inj_on_of_nodup_map (h.names k) hq hq' (hn.trans hn'.symm)
  subst this
  rw [typeName_inj (Option.some.inj (ht.symm.trans ht'))]

/-- The names and values of one type are applied. -/
theorem applyNames {α : Type} (t : Slot) (d : Val) : ∀ (l : List (String × Tree)) (s : St α), Inj s.table →
    (∀ q ∈ l, subscript d (some q.1) = .ok (.dict [(some "value", value q.2)])) →
    (l.map Prod.fst).Nodup →
    ∃ s', (l.map fun q => some q.1).foldlM (applyOne (some t) d) s = .ok s' ∧ s'.table = s.table ∧
      (∀ q ∈ l, ∀ o, s.table.get? (t, q.1) = some o → s'.value o = some (.saved (value q.2))) ∧
      (∀ o, (∀ q ∈ l, s.table.get? (t, q.1) ≠ some o) → s'.value o = s.value o)
  | [], s, _, _, _ => ⟨s, rfl, rfl, by simp, by simp⟩
  | (n, v) :: l, s, hi, hd, hn => by
    simp only [List.map_cons, List.nodup_cons] at hn
    have hsub := hd (n, v) (by simp)
    have hval : subscript (.dict [(some "value", value v)]) (some "value") = .ok (value v) := by simp [subscript, Dict.get?]
    obtain ⟨s1, e1, t1, v1⟩ : ∃ s1, applyOne (some t) d s (some n) = .ok s1 ∧ s1.table = s.table ∧
        ∀ o, s1.value o = if s.table.get? (t, n) = some o then some (.saved (value v)) else s.value o := by
      cases ho : s.table.get? (t, n) with
      | none => exact ⟨s, by simp [applyOne, ho], rfl, by simp⟩
      | some o =>
        refine ⟨{ s with value := fun o' => if o' = o then some (.saved (value v)) else s.value o' }, ?_, rfl, ?_⟩
        · simp only [applyOne, Option.bind_some, ho, hsub, hval]
        intro o'
        by_cases h : o' = o
        · simp [h]
        · have : ¬ o = o' := fun e => h e.symm
          simp [h, this]
    obtain ⟨s2, e2, t2, v2, r2⟩ := applyNames t d l s1 (t1 ▸ hi) (fun q hq => hd q (by simp [hq])) hn.2
    refine ⟨s2, ?_, t2.trans t1, ?_, ?_⟩
    · simp only [List.map_cons, List.foldlM_cons, e1, bind, Except.bind]
      exact e2
    · intro q hq o ho
      simp only [List.mem_cons] at hq
      rcases hq with rfl | hq
      · rw [r2 o ?_, v1 o, if_pos ho]
        intro q' hq' ho'
        rw [t1] at ho'
        have := hi _ _ _ ho ho'
        simp only [Prod.mk.injEq, true_and] at this
        exact hn.1 (List.mem_map.2 ⟨q', hq', this.symm⟩)
      · exact v2 q hq o (by rw [t1]; exact ho)
    · intro o ho
      rw [r2 o ?_, v1 o, if_neg (ho (n, v) (by simp))]
      intro q hq
      rw [t1]
      exact ho q (by simp [hq])

/-- The tree of the settings of one type. -/
def typeTree (l : List (String × Tree)) : List (Option String × Tree) := l.map fun q => (some q.1, .dict [(some "value", q.2)])

theorem valuePairs_typeTree (l : List (String × Tree)) :
    valuePairs (typeTree l) = l.map fun q => (some q.1, .dict [(some "value", value q.2)]) := by
  induction l with
  | nil => rfl
  | cons q l ih =>
    simp only [typeTree, List.map_cons, valuePairs, value] at *
    rw [ih]

theorem get_types (l : List (String × Tree)) (hn : (l.map Prod.fst).Nodup) (q : String × Tree) (hq : q ∈ l) :
    Dict.get? (valuePairs (typeTree l)) (some q.1) = some (.dict [(some "value", value q.2)]) := by
  rw [valuePairs_typeTree]
  have hk : Dict.keys (l.map fun q => ((some q.1 : Option String), Val.dict [(some "value", value q.2)])) = (l.map Prod.fst).map some := by
    simp [Dict.keys]
  exact Dict.get?_of_mem (d := l.map fun q => ((some q.1 : Option String), Val.dict [(some "value", value q.2)]))
    (by rw [hk]; exact hn.map (Option.some_injective _)) (List.mem_map.2 ⟨q, hq, rfl⟩)

theorem applyTypes {α : Type} : ∀ (sv : Saved) (s : St α), Inj s.table → (∀ p ∈ sv, (p.2.map Prod.fst).Nodup) → (sv.map Prod.fst).Nodup →
    ∃ s', (sv.map fun p => ((some (typeName p.1) : Option String), Val.dict (valuePairs (typeTree p.2)))).foldlM applyType s = .ok s' ∧ s'.table = s.table ∧
      (∀ t n v o, Has sv t n v → s.table.get? (t, n) = some o → s'.value o = some (.saved (value v))) ∧
      (∀ o, (∀ t n v, Has sv t n v → s.table.get? (t, n) ≠ some o) → s'.value o = s.value o)
  | [], s, _, _, _ => ⟨s, rfl, rfl, by rintro t n v o ⟨l, hl, -⟩; simp at hl, by simp⟩
  | (t, l) :: sv, s, hi, hl, hn => by
    simp only [List.map_cons, List.nodup_cons] at hn
    have hnl := hl (t, l) (by simp)
    obtain ⟨s1, e1, t1, v1, r1⟩ := applyNames (α := α) t (.dict (valuePairs (typeTree l))) l s hi (by
      intro q hq
      simp only [subscript]
      rw [get_types l hnl q hq]) hnl
    obtain ⟨s2, e2, t2, v2, r2⟩ := applyTypes sv s1 (t1 ▸ hi) (fun p hp => hl p (by simp [hp])) hn.2
    refine ⟨s2, ?_, t2.trans t1, ?_, ?_⟩
    · have hk : iterate (.dict (valuePairs (typeTree l))) = .ok (l.map fun q => some q.1) := by
        simp [iterate, valuePairs_typeTree, Dict.keys]
      simp only [List.map_cons, List.foldlM_cons, applyType, hk, Option.bind_some, slot_typeName, e1, bind, Except.bind]
      exact e2
    · rintro u n v o ⟨l', hl', hv⟩ ho
      simp only [List.mem_cons, Prod.mk.injEq] at hl'
      rcases hl' with ⟨rfl, rfl⟩ | hl'
      · rw [r2 o ?_, v1 (n, v) hv o ho]
        rintro u' n' v' ⟨l'', hl'', -⟩ ho'
        rw [t1] at ho'
        have := hi _ _ _ ho ho'
        simp only [Prod.mk.injEq] at this
        exact hn.1 (List.mem_map.2 ⟨_, hl'', this.1.symm⟩)
      · exact v2 u n v o ⟨l', hl', hv⟩ (by rw [t1]; exact ho)
    · intro o ho
      rw [r2 o ?_, r1 o ?_]
      · intro q hq
        exact ho t q.1 q.2 ⟨l, by simp, hq⟩
      · rintro u n v ⟨l', hl', hv⟩
        rw [t1]
        exact ho u n v ⟨l', by simp [hl'], hv⟩

theorem okPairs_mem : ∀ (l : List (Option String × Tree)), OkPairs l → ∀ p ∈ l, Ok p.2
  | [], _, p, hp => by simp at hp
  | (k, t) :: l, h, p, hp => by
    simp only [List.mem_cons] at hp
    rcases hp with rfl | hp
    · exact h.2.1
    · exact okPairs_mem l h.2.2 p hp

theorem valuePairs_tree (sv : Saved) :
    valuePairs (sv.map fun p => (some (typeName p.1), .dict (p.2.map fun q => (some q.1, .dict [(some "value", q.2)])))) =
      sv.map fun p => ((some (typeName p.1) : Option String), Val.dict (valuePairs (typeTree p.2))) := by
  induction sv with
  | nil => rfl
  | cons p sv ih =>
    simp only [List.map_cons, valuePairs, value] at *
    rw [ih]
    rfl

/-- Whatever the reader, when it gives the tree of the file. -/
theorem finish_applied {α : Type} (raw : Kind → List (Proto α)) (h : Declared raw) (sv : Saved) (hok : Ok (tree sv))
    (reader : Bytes → Except PyErr (Val × Bytes)) (b rest : Bytes) (hr : reader b = .ok (value (tree sv), rest)) :
    ∃ s, finish reader raw (some b) = .ok s ∧ Applied raw sv s := by
  obtain ⟨s0, e0, i0⟩ := convert_inv raw h
  have hinj := inv_inj raw h s0 i0
  have h1 : (sv.map Prod.fst).Nodup := by
    have := hok.2.1
    rw [List.map_map] at this
    refine List.Nodup.of_map (fun t => some (typeName t)) ?_
    rw [List.map_map]
    exact this
  have h2 : ∀ p ∈ sv, (p.2.map Prod.fst).Nodup := by
    intro p hp
    have := okPairs_mem _ hok.2.2 _ (List.mem_map.2 ⟨p, hp, rfl⟩)
    have := this.2.1
    rw [List.map_map] at this
    refine List.Nodup.of_map some ?_
    rw [List.map_map]
    exact this
  obtain ⟨s, e, ht, hv, hrest⟩ := applyTypes sv s0 hinj h2 h1
  refine ⟨s, ?_, ?_, ?_, ?_, ?_⟩
  · have hval : value (tree sv) = .dict (sv.map fun p => ((some (typeName p.1) : Option String), Val.dict (valuePairs (typeTree p.2)))) := by
      rw [tree, value, valuePairs_tree]
    simp only [finish, e0, hr, hval, applyAll, e]
  · intro k p hp t htp
    rw [ht]
    exact i0.there (k, p) ((mem_all raw (k, p)).2 hp) t htp
  · intro k p hp t htp v hhas
    exact hv t p.name v _ hhas (i0.there (k, p) ((mem_all raw (k, p)).2 hp) t htp)
  · intro k p hp t htp hno
    rw [hrest _ ?_]
    · exact i0.value (k, p) ((mem_all raw (k, p)).2 hp)
    · intro t' n v hhas hget
      have := hinj _ _ _ hget (i0.there (k, p) ((mem_all raw (k, p)).2 hp) t htp)
      simp only [Prod.mk.injEq] at this
      rw [this.1, this.2] at hhas
      exact hno v hhas
  · intro t n hno
    rw [ht]
    cases hg : s0.table.get? (t, n) with
    | none => rfl
    | some o =>
      obtain ⟨q, hq, h3, h4, -⟩ := i0.from' t n o hg
      exact absurd ⟨h3, h4⟩ (hno q.1 q.2 ((mem_all raw q).1 hq))

/-! ### Theorems -/

/-- C113: after the settings stage every declared setting is in the table of its type and has the value saved for it in the file, or its default when none is
saved, and nothing else is in the tables, so that what is saved for mods that are gone is ignored.  For all prototypes and all files of any size, version and flags.
Missing: lists, unsigned numbers and too deep nesting, which cannot be read (C50). -/
theorem C113_new_partial {α : Type} (raw : Kind → List (Proto α)) (h : Declared raw) (sv : Saved) (hok : Ok (tree sv)) (hp : Plain (tree sv)) (version : Bytes)
    (hv : version.length = 8) (f : UInt8) (limit : ℕ) (hd : depth (tree sv) ≤ limit) (rest : Bytes) :
    ∃ s, newFinish limit raw (some (file version f (tree sv) ++ rest)) = .ok s ∧ Applied raw sv s :=
  finish_applied raw h sv hok _ _ rest (C50_decode_partial (tree sv) hok hp version hv f limit hd rest)

/-- C113: without a file every declared setting has its default, in both versions of the update. -/
theorem C113_noFile {α : Type} (raw : Kind → List (Proto α)) (h : Declared raw) (limit : ℕ) :
    ∃ s, newFinish limit raw none = .ok s ∧ oldFinish limit raw none = .ok s ∧ Applied raw [] s := by
  obtain ⟨s, e, hi⟩ := convert_inv raw h
  refine ⟨s, by simp [newFinish, finish, e], by simp [oldFinish, finish, e], ?_, ?_, ?_, ?_⟩
  · intro k p hp t ht
    exact hi.there (k, p) ((mem_all raw (k, p)).2 hp) t ht
  · rintro k p hp t ht v ⟨l, hl, -⟩
    simp at hl
  · intro k p hp t ht _
    exact hi.value (k, p) ((mem_all raw (k, p)).2 hp)
  · intro t n hno
    cases hg : s.table.get? (t, n) with
    | none => rfl
    | some o =>
      obtain ⟨q, hq, h3, h4, -⟩ := hi.from' t n o hg
      exact absurd ⟨h3, h4⟩ (hno q.1 q.2 ((mem_all raw q).1 hq))

mutual
/-- A tree without integers (which files have had since version 2 of the game). -/
def NoInt : Tree → Prop
  | .int _ => False
  | .dict l => NoIntPairs l
  | _ => True

def NoIntPairs : List (Option String × Tree) → Prop
  | [] => True
  | (_, t) :: l => NoInt t ∧ NoIntPairs l
end

mutual
theorem getData_enc (f : UInt8) : ∀ (t : Tree), Ok t → Plain t → NoInt t → ∀ (limit : ℕ) (s : Bytes), depth t ≤ limit →
    getData limit (enc f t ++ s) = .ok (value t, s)
  | .none, _, _, _, limit + 1, s, _ => by
    simp [enc, getData, unpack_one, bind, Except.bind, le, value]
  | .bool b, _, _, _, limit + 1, s, _ => by
    cases b <;> simp [enc, getData, unpack_one, bind, Except.bind, le, value, ModSettings.bool]
  | .number n, h, _, _, limit + 1, s, _ => by
    simp [enc, getData, unpack_one, bind, Except.bind, le, value, unpack_append _ _ 8 (toLe_length 8 _), le_toLe 8 n h]
  | .str k, h, _, _, limit + 1, s, _ => by
    have h' : StrOk k := by simpa [Ok] using h
    cases k <;> simp [enc, getData, unpack_one, bind, Except.bind, le, value, readString_encStr _ h']
  | .dict l, h, hp, hi, limit + 1, s, hd => by
    have h1 := getPairs_enc f l h.2.2 hp hi limit s (by simpa [depth] using hd) [] (by simpa using h.2.1)
    simp only [enc, getData, List.cons_append, List.append_assoc, unpack_one, bind, Except.bind, value, List.drop_succ_cons, List.drop_zero,
      unpack_append _ _ 4 (toLe_length 4 _), le_toLe 4 _ h.1, h1]
    simp [le]
  | .int n, _, _, hi, _, _, _ => absurd hi (by simp [NoInt])
  | .list l, _, hp, _, _, _, _ => absurd hp (by simp [Plain])
  | .uint n, _, hp, _, _, _, _ => absurd hp (by simp [Plain])
  | .none, _, _, _, 0, _, hd => absurd hd (by simp [depth])
  | .bool _, _, _, _, 0, _, hd => absurd hd (by simp [depth])
  | .number _, _, _, _, 0, _, hd => absurd hd (by simp [depth])
  | .str _, _, _, _, 0, _, hd => absurd hd (by simp [depth])
  | .dict _, _, _, _, 0, _, hd => absurd hd (by simp [depth])

theorem getPairs_enc (f : UInt8) : ∀ (l : List (Option String × Tree)), OkPairs l → PlainPairs l → NoIntPairs l → ∀ (limit : ℕ) (s : Bytes),
    depthPairs l ≤ limit → ∀ d : Dict (Option String) Val, (d.keys ++ l.map Prod.fst).Nodup →
      readPairs (getData limit) l.length d (encPairs f l ++ s) = .ok (d ++ valuePairs l, s)
  | [], _, _, _, _, _, _, d, _ => by simp [readPairs, encPairs, valuePairs]
  | (k, t) :: l, h, hp, hi, limit, s, hd, d, hn => by
    have e1 := readString_encStr k h.1 (enc f t ++ (encPairs f l ++ s))
    have hd' : depth t ≤ limit ∧ depthPairs l ≤ limit := by simpa [depthPairs] using hd
    have e2 := getData_enc f t h.2.1 hp.1 hi.1 limit (encPairs f l ++ s) hd'.1
    have hk : k ∉ d.keys := by
      intro hk
      rw [List.nodup_append] at hn
      exact hn.2.2 k hk k (by simp) rfl
    have hset : d.set k (value t) = d ++ [(k, value t)] := set_append d k _ hk
    have e3 := getPairs_enc f l h.2.2 hp.2 hi.2 limit s hd'.2 (d ++ [(k, value t)]) (by
      simpa [Dict.keys] using hn)
    simp only [readPairs, List.length_cons, encPairs, List.append_assoc, e1, e2, bind, Except.bind, hset, e3, valuePairs]
    simp
end

/-- C113: in `draftsman.env.update` the same holds of files without integers.  Missing: integers, see the refutations. -/
theorem C113_old_partial {α : Type} (raw : Kind → List (Proto α)) (h : Declared raw) (sv : Saved) (hok : Ok (tree sv)) (hp : Plain (tree sv)) (hi : NoInt (tree sv))
    (version : Bytes) (hv : version.length = 8) (f : UInt8) (limit : ℕ) (hd : depth (tree sv) ≤ limit) (rest : Bytes) :
    ∃ s, oldFinish limit raw (some (file version f (tree sv) ++ rest)) = .ok s ∧ Applied raw sv s := by
  refine finish_applied raw h sv hok _ _ rest ?_
  simp only [getModSettings, file, List.append_assoc, List.cons_append, unpack_append _ _ 8 hv, unpack_one, bind, Except.bind]
  simp [ModSettings.bool, le, getData_enc f _ hok hp hi limit rest hd]

/-! ### Where it fails -/

/-- The prototypes of one setting for an integer. -/
def oneInt {α : Type} (n : String) (a : α) : Kind → List (Proto α)
  | .int => [⟨n, some "startup", a⟩]
  | _ => []

theorem oneInt_declared {α : Type} (n : String) (a : α) : Declared (oneInt n a) := by
  refine ⟨?_, ?_, ?_⟩
  · intro k p hp
    cases k <;> simp [oneInt] at hp
    exact ⟨.startup, by simp [hp, typeName]⟩
  · intro k
    cases k <;> simp [oneInt]
  · intro k k' p p' hp hp' _ _
    cases k <;> cases k' <;> simp_all [oneInt]

theorem getData_dict_one (f : UInt8) (k : Option String) (t : Tree) (hk : StrOk k) (n : ℕ) (s r : Bytes) (v : Val)
    (h : getData n (enc f t ++ s) = .ok (v, r)) : getData (n + 1) (enc f (.dict [(k, t)]) ++ s) = .ok (.dict [(k, v)], r) := by
  have e1 := readString_encStr k hk (enc f t ++ s)
  have e0 : le (toLe 4 1) = 1 := le_toLe 4 1 (by decide)
  rw [enc, getData]
  generalize getData n = rd at h ⊢
  simp only [List.cons_append, List.append_assoc, unpack_one, bind, Except.bind, List.drop_succ_cons, List.drop_zero,
    unpack_append _ _ 4 (toLe_length 4 _), List.length_singleton, e0, readPairs, encPairs, List.append_nil, e1, h]
  simp [le, Dict.set]

/-- C113 refuted: `draftsman.env.update` does not know the integers that files have had since version 2 of the game.  Whatever integer is saved for a setting, the setting is
left without a value (`nil`), neither the saved one nor its default, and without any complaint. -/
theorem C113_int_refuted {α : Type} (n : String) (hn : StrOk (some n)) (a : α) (i : ℤ) (version : Bytes) (hv : version.length = 8) (f : UInt8) (limit : ℕ) :
    ∃ s, oldFinish (limit + 4) (oneInt n a) (some (file version f (tree [(.startup, [(n, .int i)])]))) = .ok s ∧
      s.table.get? (.startup, n) = some (.int, n) ∧ s.value (.int, n) = some (.saved .none) := by
  have h0 : getData (limit + 1) (enc f (.int i)  ++ []) = .ok (.none, toLe 8 (i % 2 ^ 64).toNat) := by
    simp [enc, getData, unpack_one, bind, Except.bind, le]
  have hs : ∀ x : String, x = "value" ∨ x = "startup" → StrOk (some x) := by
    rintro x (rfl | rfl) <;> · unfold StrOk; decide +kernel
  have h1 := getData_dict_one f (some "value") (.int i) (hs _ (Or.inl rfl)) _ _ _ _ h0
  have h2 := getData_dict_one f (some n) _ hn _ _ _ _ h1
  have h3 := getData_dict_one f (some "startup") _ (hs _ (Or.inr rfl)) _ _ _ _ h2
  have h4 : getModSettings (limit + 4) (file version f (tree [(.startup, [(n, .int i)])])) =
      .ok (.dict [(some "startup", .dict [(some n, .dict [(some "value", .none)])])], toLe 8 (i % 2 ^ 64).toNat) := by
    simp only [getModSettings, file, unpack_append _ _ 8 hv, unpack_one, bind, Except.bind]
    simp only [List.append_nil] at h3
    simp only [tree, List.map_cons, List.map_nil, typeName, h3]
    simp [ModSettings.bool, le]
  have h5 : convert (oneInt n a) = .ok ⟨[((.startup, n), (.int, n))], fun o => if o = (.int, n) then some (.dflt a) else none⟩ := by
    simp only [convert, kinds, List.foldlM_cons, List.foldlM_nil, setSettings, oneInt, setOne, bind, Except.bind, pure, Except.pure, Option.bind_some]
    have : slot? "startup" = some .startup := slot_typeName .startup
    simp [this, Dict.set]
  have hsl : slot? "startup" = some .startup := slot_typeName .startup
  refine ⟨⟨[((.startup, n), (.int, n))], fun o => if o = (.int, n) then some (.saved .none) else if o = (.int, n) then some (.dflt a) else none⟩, ?_, ?_, ?_⟩
  · simp only [oldFinish, finish, h5, h4, applyAll, List.foldlM_cons, List.foldlM_nil, applyType, iterate, Dict.keys, List.map_cons, List.map_nil, Option.bind_some, hsl,
      applyOne, Dict.get?, if_true, subscript, bind, Except.bind, pure, Except.pure]
  · simp [Dict.get?]
  · simp

theorem slot_none (ty : String) (h : ty ∉ ["startup", "runtime-global", "global", "runtime-per-user", "player"]) : slot? ty = none := by
  simp only [List.mem_cons, List.not_mem_nil, or_false, not_or] at h
  simp [slot?, h]

/-- C113 refuted: a type that the table of settings does not have (its names are the five written here) makes the update fail as soon as the file has a setting of that type. -/
theorem C113_type_refuted {α : Type} (s : St α) (ty : String) (ht : ty ∉ ["startup", "runtime-global", "global", "runtime-per-user", "player"]) (n : Option String) (v : Val)
    (l : List (Option String × Val)) : applyAll s (.dict [(some ty, .dict ((n, v) :: l))]) = .error .typeError := by
  simp [applyAll, applyType, iterate, Dict.keys, slot_none ty ht, applyOne, bind, Except.bind]

/-- C113: a file that cannot be read stops the update with the error of the reader, in both versions of the update: defaults are never used in place of a file that is there. -/
theorem C113_unreadable {α : Type} (raw : Kind → List (Proto α)) (h : Declared raw) (limit : ℕ) (b : Bytes) (e : PyErr) :
    (decode limit b = .error e → newFinish limit raw (some b) = .error (.py e)) ∧
      (getModSettings limit b = .error e → oldFinish limit raw (some b) = .error (.py e)) := by
  obtain ⟨s, h1, -⟩ := convert_inv raw h
  constructor <;> intro h2 <;> simp [newFinish, oldFinish, finish, h1, h2]

/-- C113: a saved setting without the key `"value"` stops the update when the setting is declared, and is ignored when it is not. -/
theorem C113_noValue {α : Type} (s : St α) (t : Slot) (n : String) (d : List (Option String × Val)) (hd : ∀ p ∈ d, p.1 ≠ some "value") :
    applyAll s (.dict [(some (typeName t), .dict [(some n, .dict d)])]) = if (s.table.get? (t, n)).isSome then .error .keyError else .ok s := by
  have hg : Dict.get? d (some "value") = none := by
    induction d with
    | nil => rfl
    | cons p d ih =>
      obtain ⟨k, v⟩ := p
      have hk : k ≠ some "value" := hd (k, v) (by simp)
      rw [Dict.get?, if_neg hk]
      exact ih fun q hq => hd q (by simp [hq])
  have hs := slot_typeName t
  cases ho : s.table.get? (t, n) <;>
    simp [applyAll, applyType, iterate, Dict.keys, hs, applyOne, ho, subscript, hg, Dict.get?, bind, Except.bind, pure, Except.pure]

/-! ### Cases that meet the hypotheses -/

/-- Two mods' settings: a number of the map, and a switch of the start. -/
def exRaw : Kind → List (Proto ℕ)
  | .bool => [⟨"fast", some "startup", 0⟩]
  | .double => [⟨"speed", some "runtime-global", 1⟩, ⟨"fast2", some "runtime-per-user", 2⟩]
  | _ => []

/-- Saved: the switch, and something of a mod that is gone. -/
def exSaved : Saved := [(.startup, [("fast", .bool true), ("gone", .int 7)]), (.global, [])]

example : Declared exRaw ∧ Ok (tree exSaved) ∧ Plain (tree exSaved) ∧ depth (tree exSaved) = 4 ∧ Has exSaved .startup "fast" (.bool true) ∧
    (∀ v, ¬ Has exSaved .global "speed" v) := by
  refine ⟨⟨?_, ?_, ?_⟩, ?_, ?_, ?_, ?_, ?_⟩
  · intro k p hp
    cases k <;> simp [exRaw] at hp
    · exact ⟨.startup, by simp [hp, typeName]⟩
    · rcases hp with rfl | rfl
      · exact ⟨.global, rfl⟩
      · exact ⟨.player, rfl⟩
  · intro k
    cases k <;> simp [exRaw]
  · intro k k' p p' hp hp' h1 h2
    cases k <;> cases k' <;> simp_all [exRaw]
    · rcases hp' with rfl | rfl <;> simp at h2
    · rcases hp with rfl | rfl <;> simp at h2
  · simp only [tree, exSaved, List.map_cons, List.map_nil, Ok, OkPairs, StrOk, typeName]; decide +kernel
  · simp [tree, exSaved, Plain, PlainPairs]
  · simp [tree, exSaved, depth, depthPairs]
  · exact ⟨[("fast", .bool true), ("gone", .int 7)], by simp [exSaved], by simp⟩
  · rintro v ⟨l, hl, hv⟩
    simp [exSaved] at hl
    subst hl
    simp at hv

example : Ok (tree [(.player, [("a", .str (some "é")), ("b", .number 5)])]) ∧ NoInt (tree [(.player, [("a", .str (some "é")), ("b", .number 5)])]) := by
  constructor
  · simp only [tree, List.map_cons, List.map_nil, Ok, OkPairs, StrOk, typeName]; decide +kernel
  · simp [tree, NoInt, NoIntPairs]

example : "runtime" ∉ ["startup", "runtime-global", "global", "runtime-per-user", "player"] := by decide +kernel

/-- A file cut off in its header, and one with a list. -/
example : decode 5 [2, 0] = .error .structError ∧ getModSettings 5 [2, 0] = .error .structError ∧
    getModSettings 5 [1, 0, 0, 0, 0, 0, 0, 0, 0, 4, 0, 0, 0, 0, 0] = .error .typeError := by
  refine ⟨rfl, rfl, rfl⟩

example : ∀ p ∈ [(some "valu", Val.none)], p.1 ≠ some "value" := by decide +kernel

end SavedSettings
end Draftsman
