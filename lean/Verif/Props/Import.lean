import Verif.Model.Import
import Verif.Props.EntityList
import Mathlib.Data.Int.Notation
import Mathlib.Data.List.Nodup
import Mathlib.Tactic.Linarith
/-
C65: blueprints and groups made from dictionaries.
-/
namespace Draftsman
namespace Import

/-- The `entity_number` written in an element, if it is a dictionary that has one. -/
def EntArg.number : EntArg → Option ℤ
  | .dict _ n _ => n
  | .inst _ => none

/-- The element can be made into an entity: an instance, or a dictionary that has a name. -/
def EntArg.Named : EntArg → Prop
  | .dict n _ _ => n ≠ none
  | .inst _ => True

/-- The element is a dictionary. -/
def EntArg.IsDict : EntArg → Prop
  | .dict _ _ _ => True
  | .inst _ => False

/-- All references in a dictionary. -/
def Arg.refs (a : Arg) : List Ref := (a.scheds.flatMap (·.locos)) ++ ((a.wires.getD []).flatMap fun w => [w.e1, w.e2])

/-- The reference `r` of the dictionary has become `r'`, the entity made from the element that carries that very `entity_number`. -/
def Made (a : Arg) (L : Loaded) (r r' : Ref) : Prop :=
  match r with
  | .obj _ => r' = r
  | .num k => ∃ (i : ℕ) (e : EntArg) (u : ℕ), a.ents[i]? = some e ∧ e.number = some k ∧ L.ents[i]? = some u ∧ r' = .obj u

/-- The numbers of the entities are `1, 2, 3, …` in order, as the exporter writes them. -/
def Numbered (a : Arg) : Prop := ∀ (i : ℕ) (e : EntArg), a.ents[i]? = some e → e.number = some ((i : ℤ) + 1)

/-- Python accepts `number - 1` as an index into a list of `n`. -/
def Reach (n : ℕ) : Ref → Prop
  | .obj _ => True
  | .num k => 1 - (n : ℤ) ≤ k ∧ k ≤ n

theorem objects_length (f n : ℕ) : (objects f n).length = n := by simp [objects]

theorem objects_get (f n i : ℕ) (h : i < n) : (objects f n)[i]? = some (f + i) := by
  simp [objects, List.getElem?_range h]

theorem loadEnts_ok (l : List EntArg) : (loadEnts l).2 = none ↔ ∀ e ∈ l, e.Named := by
  induction l with
  | nil => simp [loadEnts]
  | cons e t ih =>
    cases e with
    | inst u => simp [loadEnts, ih, EntArg.Named]
    | dict nm n r => cases nm <;> simp [loadEnts, ih, EntArg.Named]

theorem loadEnts_err (l : List EntArg) (e : PyErr) (h : (loadEnts l).2 = some e) : e = .keyError := by
  induction l with
  | nil => simp [loadEnts] at h
  | cons a t ih =>
    cases a with
    | inst u => simp only [loadEnts] at h; exact ih h
    | dict nm n r =>
      cases nm with
      | none => simp [loadEnts] at h; exact h.symm
      | some x => simp only [loadEnts] at h; exact ih h

/-- The element after its name was taken out. -/
def EntArg.bare : EntArg → EntArg
  | .dict _ n r => .dict none n r
  | .inst u => .inst u

theorem loadEnts_left (l : List EntArg) (h : (loadEnts l).2 = none) : (loadEnts l).1 = l.map EntArg.bare := by
  induction l with
  | nil => rfl
  | cons a t ih =>
    cases a with
    | inst u => simp only [loadEnts] at h ⊢; simp [ih h, EntArg.bare]
    | dict nm n r =>
      cases nm with
      | none => simp [loadEnts] at h
      | some x => simp only [loadEnts] at h ⊢; simp [ih h, EntArg.bare]

/-- What `resolve` does. -/
theorem resolve_ok (f n : ℕ) (r : Ref) : (∃ r', resolve (objects f n) r = .ok r') ↔ Reach n r := by
  cases r with
  | obj u => simp [resolve, Reach]
  | num k =>
    simp only [resolve, Reach, EList.pyIndex, objects_length]
    split <;> rename_i h
    · split at h
      · simp at h
      · split at h
        · simp at h
        · simp; omega
    · split at h
      · simp only [Option.some.injEq] at h
        rw [objects_get f n _ (by omega)]
        simp; omega
      · split at h
        · simp only [Option.some.injEq] at h
          rw [objects_get f n _ (by omega)]
          simp; omega
        · simp at h

theorem resolve_err (es : List ℕ) (r : Ref) (e : PyErr) (h : resolve es r = .error e) : e = .indexError := by
  cases r with
  | obj u => simp [resolve] at h
  | num k =>
    simp only [resolve] at h
    split at h
    · simpa using h.symm
    · split at h
      · simpa using h.symm
      · simp at h

theorem resolve_pos (f n : ℕ) (k : ℤ) (h1 : 1 ≤ k) (h2 : k ≤ n) : resolve (objects f n) (.num k) = .ok (.obj (f + (k - 1).toNat)) := by
  simp only [resolve, EList.pyIndex, objects_length]
  rw [if_pos (by omega)]
  simp only []
  rw [objects_get f n _ (by omega)]

theorem convRefs_ok (es : List ℕ) (l l' : List Ref) : convRefs es l = (l', none) ↔ List.Forall₂ (fun r r' => resolve es r = .ok r') l l' := by
  induction l generalizing l' with
  | nil => simp [convRefs, eq_comm]
  | cons r t ih =>
    simp only [convRefs]
    cases h : resolve es r with
    | error e => simp [List.forall₂_cons_left_iff, h]
    | ok r' =>
      simp only [Prod.mk.injEq, List.forall₂_cons_left_iff, h, Except.ok.injEq]
      constructor
      · rintro ⟨rfl, h2⟩
        exact ⟨r', _, rfl, (ih _).1 (Prod.ext rfl h2), rfl⟩
      · rintro ⟨b, u, rfl, hu, rfl⟩
        have := (ih u).2 hu
        simp [this]

theorem convRefs_err (es : List ℕ) (l : List Ref) (e : PyErr) (h : (convRefs es l).2 = some e) : e = .indexError := by
  induction l with
  | nil => simp [convRefs] at h
  | cons r t ih =>
    simp only [convRefs] at h
    cases hr : resolve es r with
    | error e' => rw [hr] at h; simp at h; subst h; exact resolve_err es r _ hr
    | ok r' => rw [hr] at h; exact ih h

theorem convRefs_none (f n : ℕ) (l : List Ref) : (convRefs (objects f n) l).2 = none ↔ ∀ r ∈ l, Reach n r := by
  induction l with
  | nil => simp [convRefs]
  | cons r t ih =>
    have hr := resolve_ok f n r
    simp only [convRefs, List.forall_mem_cons]
    cases h : resolve (objects f n) r with
    | error e => rw [h] at hr; simp at hr; simp [hr]
    | ok r' => rw [h] at hr; simp at hr; simp [hr, ih]

/-- A schedule handed over, after the blueprint's list of its locomotives has become `l`. -/
def SchedArg.after (s : SchedArg) (l : List Ref) : SchedArg := if s.inst then { s with locos := l } else s

theorem convScheds_ok (es : List ℕ) (l : List SchedArg) (h : (convScheds es l).2.2 = none) :
    List.Forall₂ (fun s l' => convRefs es s.locos = (l', none)) l (convScheds es l).1 ∧
      (convScheds es l).2.1 = List.zipWith SchedArg.after l (convScheds es l).1 := by
  induction l with
  | nil => simp [convScheds]
  | cons s t ih =>
    simp only [convScheds] at h ⊢
    cases hc : (convRefs es s.locos).2 with
    | some e => rw [hc] at h; simp at h
    | none =>
      rw [hc] at h
      simp only [] at h ⊢
      obtain ⟨h1, h2⟩ := ih h
      exact ⟨.cons (Prod.ext rfl hc) h1, by simp [h2, SchedArg.after]⟩

theorem convScheds_none (f n : ℕ) (l : List SchedArg) :
    (convScheds (objects f n) l).2.2 = none ↔ ∀ r ∈ l.flatMap (·.locos), Reach n r := by
  induction l with
  | nil => simp [convScheds]
  | cons s t ih =>
    have hc := convRefs_none f n s.locos
    simp only [convScheds, List.flatMap_cons, List.forall_mem_append]
    cases h : (convRefs (objects f n) s.locos).2 with
    | some e => rw [h] at hc; simp only [reduceCtorEq, false_iff] at hc; simp [hc]
    | none => rw [h] at hc; simp only [true_iff] at hc; rw [ih]; exact ⟨fun h => ⟨hc, h⟩, fun h => h.2⟩

theorem convScheds_err (es : List ℕ) (l : List SchedArg) (e : PyErr) (h : (convScheds es l).2.2 = some e) : e = .indexError := by
  induction l with
  | nil => simp [convScheds] at h
  | cons s t ih =>
    simp only [convScheds] at h
    cases hc : (convRefs es s.locos).2 with
    | some e' => rw [hc] at h; simp at h; subst h; exact convRefs_err es _ _ hc
    | none => rw [hc] at h; exact ih h

theorem convWires_ok (es : List ℕ) (l : List RWire) (h : (convWires es l).2 = none) :
    List.Forall₂ (fun w w' => resolve es w.e1 = .ok w'.e1 ∧ resolve es w.e2 = .ok w'.e2 ∧ w'.t1 = w.t1 ∧ w'.t2 = w.t2) l (convWires es l).1 := by
  induction l with
  | nil => simp [convWires]
  | cons w t ih =>
    simp only [convWires] at h ⊢
    cases h1 : resolve es w.e1 with
    | error e => rw [h1] at h; simp at h
    | ok r1 =>
      cases h2 : resolve es w.e2 with
      | error e => rw [h1, h2] at h; simp at h
      | ok r2 =>
        rw [h1, h2] at h
        exact .cons ⟨h1, h2, rfl, rfl⟩ (ih h)

theorem convWires_none (f n : ℕ) (l : List RWire) :
    (convWires (objects f n) l).2 = none ↔ ∀ r ∈ l.flatMap (fun w => [w.e1, w.e2]), Reach n r := by
  induction l with
  | nil => simp [convWires]
  | cons w t ih =>
    have hr1 := resolve_ok f n w.e1
    have hr2 := resolve_ok f n w.e2
    simp only [convWires, List.flatMap_cons, List.forall_mem_append, List.forall_mem_cons]
    cases h1 : resolve (objects f n) w.e1 with
    | error e => rw [h1] at hr1; simp at hr1; simp [hr1]
    | ok r1 =>
      rw [h1] at hr1; simp at hr1
      cases h2 : resolve (objects f n) w.e2 with
      | error e => rw [h2] at hr2; simp at hr2; simp [hr2]
      | ok r2 => rw [h2] at hr2; simp at hr2; simp only [ih]; simp [hr1, hr2]

theorem convWires_err (es : List ℕ) (l : List RWire) (e : PyErr) (h : (convWires es l).2 = some e) : e = .indexError := by
  induction l with
  | nil => simp [convWires] at h
  | cons w t ih =>
    simp only [convWires] at h
    cases h1 : resolve es w.e1 with
    | error e' => rw [h1] at h; simp at h; subst h; exact resolve_err es _ _ h1
    | ok r1 =>
      cases h2 : resolve es w.e2 with
      | error e' => rw [h1, h2] at h; simp at h; subst h; exact resolve_err es _ _ h2
      | ok r2 => rw [h1, h2] at h; exact ih h

/-- The lists behind a successful load. -/
theorem setup_ok {f : ℕ} {a a' : Arg} {L : Loaded} (h : setup f a = (a', .ok L)) :
    (loadEnts a.ents).2 = none ∧ (convScheds (objects f a.ents.length) a.scheds).2.2 = none ∧
    (convWires (objects f a.ents.length) (a.wires.getD [])).2 = none ∧
    L = ⟨objects f a.ents.length, (convScheds (objects f a.ents.length) a.scheds).1, (convWires (objects f a.ents.length) (a.wires.getD [])).1⟩ ∧
    a' = ⟨(loadEnts a.ents).1, (convScheds (objects f a.ents.length) a.scheds).2.1,
      a.wires.map fun ws => (convWires (objects f a.ents.length) ws).1⟩ := by
  simp only [setup] at h
  cases hl : (loadEnts a.ents).2 with
  | some e => rw [hl] at h; simp at h
  | none =>
    rw [hl] at h
    cases hs : (convScheds (objects f a.ents.length) a.scheds).2.2 with
    | some e => simp only [hs] at h; simp at h
    | none =>
      simp only [hs] at h
      cases hw : a.wires with
      | none =>
        rw [hw] at h
        simp only [Prod.mk.injEq, Except.ok.injEq] at h
        obtain ⟨rfl, rfl⟩ := h
        exact ⟨rfl, rfl, rfl, rfl, by simp⟩
      | some ws =>
        rw [hw] at h
        simp only [] at h
        cases hc : (convWires (objects f a.ents.length) ws).2 with
        | some e => simp only [hc] at h; simp at h
        | none =>
          simp only [hc, Prod.mk.injEq, Except.ok.injEq] at h
          obtain ⟨rfl, rfl⟩ := h
          exact ⟨rfl, rfl, hc, rfl, rfl⟩

theorem forall_mem_refs {a : Arg} {P : Ref → Prop} : (∀ r ∈ a.refs, P r) ↔
    (∀ r ∈ a.scheds.flatMap (·.locos), P r) ∧ ∀ r ∈ (a.wires.getD []).flatMap (fun w => [w.e1, w.e2]), P r := by
  rw [Arg.refs, List.forall_mem_append]

/-- Loading succeeds exactly when every entity has a name and Python accepts every number less one as an index; otherwise there is a
`KeyError` or an `IndexError`. -/
theorem C65_outcome (f : ℕ) (a : Arg) :
    ((∃ L, (setup f a).2 = .ok L) ↔ (∀ e ∈ a.ents, e.Named) ∧ ∀ r ∈ a.refs, Reach a.ents.length r) ∧
    (∀ e, (setup f a).2 = .error e → ((∀ x ∈ a.ents, x.Named) → e = .indexError) ∧ ((∃ x ∈ a.ents, ¬ x.Named) → e = .keyError)) := by
  have hl := loadEnts_ok a.ents
  have hs := convScheds_none f a.ents.length a.scheds
  have hw := convWires_none f a.ents.length (a.wires.getD [])
  rw [forall_mem_refs, ← hs, ← hw, ← hl]
  clear hs hw
  simp only [setup]
  cases h1 : (loadEnts a.ents).2 with
  | some e =>
    rw [h1] at hl
    simp only [reduceCtorEq, false_iff] at hl
    refine ⟨by simp, fun e' he' => ?_⟩
    simp only [Except.error.injEq] at he'
    subst he'
    exact ⟨fun hc => by simp at hc, fun _ => loadEnts_err _ _ h1⟩
  | none =>
    rw [h1] at hl
    simp only [true_iff] at hl
    have hl' : ¬ ∃ x ∈ a.ents, ¬ x.Named := by push Not; exact hl
    cases h2 : (convScheds (objects f a.ents.length) a.scheds).2.2 with
    | some e =>
      refine ⟨by simp, fun e' he' => ?_⟩
      simp only [Except.error.injEq] at he'
      subst he'
      exact ⟨fun _ => convScheds_err _ _ _ h2, fun hc => absurd hc hl'⟩
    | none =>
      cases h3 : a.wires with
      | none => simp [convWires]
      | some ws =>
        simp only [Option.getD_some]
        cases h4 : (convWires (objects f a.ents.length) ws).2 with
        | some e =>
          refine ⟨by simp, fun e' he' => ?_⟩
          simp only [Except.error.injEq] at he'
          subst he'
          exact ⟨fun _ => convWires_err _ _ _ h4, fun hc => absurd hc hl'⟩
        | none => simp

/-- The claim about references, for dictionaries whose entities are numbered `1, 2, 3, …` in order and whose references use positive
numbers: a blueprint that loads has one new object for every entity of the dictionary, every end of every wire and every locomotive
is the object made from the entity that carries that number, and nothing else about the wires changes. -/
theorem C65_references_partial (f : ℕ) (a a' : Arg) (L : Loaded) (h : setup f a = (a', .ok L)) (hn : Numbered a)
    (hp : ∀ k, Ref.num k ∈ a.refs → 1 ≤ k) :
    L.ents.length = a.ents.length ∧ L.ents.Nodup ∧ (∀ u ∈ L.ents, f ≤ u) ∧
    List.Forall₂ (fun w w' => Made a L w.e1 w'.e1 ∧ w'.t1 = w.t1 ∧ Made a L w.e2 w'.e2 ∧ w'.t2 = w.t2) (a.wires.getD []) L.wires ∧
    List.Forall₂ (fun s l => List.Forall₂ (Made a L) s.locos l) a.scheds L.locos := by
  have hout := (C65_outcome f a).1.1 ⟨L, by rw [h]⟩
  obtain ⟨hl, hs, hw, hL, -⟩ := setup_ok h
  have hreach := hout.2
  have made : ∀ r ∈ a.refs, ∀ r', resolve (objects f a.ents.length) r = .ok r' → Made a L r r' := by
    intro r hr r' hr'
    cases r with
    | obj u => simp only [resolve, Except.ok.injEq] at hr'; exact hr'.symm
    | num k =>
      have h1 := hp k hr
      have h2 := (hreach _ hr).2
      rw [resolve_pos f _ k h1 h2] at hr'
      simp only [Except.ok.injEq] at hr'
      have hlt : (k - 1).toNat < a.ents.length := by omega
      refine ⟨(k - 1).toNat, a.ents[(k - 1).toNat], f + (k - 1).toNat, List.getElem?_eq_getElem hlt, ?_, ?_, hr'.symm⟩
      · rw [hn _ _ (List.getElem?_eq_getElem hlt)]
        congr 1; omega
      · rw [hL]; exact objects_get f _ _ hlt
  have made1 := (forall_mem_refs (P := fun r => ∀ r', resolve (objects f a.ents.length) r = .ok r' → Made a L r r')).1 made
  refine ⟨by rw [hL]; exact objects_length _ _, ?_, ?_, ?_, ?_⟩
  · rw [hL]
    exact List.Nodup.map (fun x y h => by simpa using h) List.nodup_range
  · rw [hL]
    intro u hu
    simp only [objects, List.mem_map] at hu
    omega
  · have h1 := convWires_ok _ _ hw
    have h2 : (convWires (objects f a.ents.length) (a.wires.getD [])).1 = L.wires := by rw [hL]
    rw [h2] at h1
    have h3 := made1.2
    revert h1 h3
    generalize a.wires.getD [] = ws
    generalize L.wires = ws'
    intro h1 h3
    induction h1 with
    | nil => exact .nil
    | @cons w w' t t' hw _ ih =>
      simp only [List.flatMap_cons, List.forall_mem_append, List.forall_mem_cons] at h3
      exact .cons ⟨h3.1.1 _ hw.1, hw.2.2.1, h3.1.2.1 _ hw.2.1, hw.2.2.2⟩ (ih h3.2)
  · have h1 := (convScheds_ok _ _ hs).1
    have h2 : (convScheds (objects f a.ents.length) a.scheds).1 = L.locos := by rw [hL]
    rw [h2] at h1
    have h3 := made1.1
    revert h1 h3
    generalize a.scheds = ss
    generalize L.locos = ls
    intro h1 h3
    induction h1 with
    | nil => exact .nil
    | @cons s l t t' hl _ ih =>
      simp only [List.flatMap_cons, List.forall_mem_append] at h3
      refine .cons ?_ (ih h3.2)
      have h4 := (convRefs_ok _ _ _).1 hl
      have h5 := h3.1
      clear hl
      revert h4 h5
      generalize s.locos = x
      intro h4 h5
      induction h4 with
      | nil => exact .nil
      | cons hr _ ih2 =>
        simp only [List.forall_mem_cons] at h5
        exact .cons (h5.1 _ hr) (ih2 h5.2)

/-- Two entities numbered in order, a wire between them and a schedule with the second as its locomotive. -/
def good : Arg := ⟨[.dict (some 7) (some 1) 0, .dict (some 8) (some 2) 0], [⟨false, [.num 2]⟩], some [⟨.num 1, 1, .num 2, 1⟩]⟩

example : (setup 100 good).2 = .ok ⟨[100, 101], [[.obj 101]], [⟨.obj 100, 1, .obj 101, 1⟩]⟩ := by decide

example : Numbered good ∧ ∀ k, Ref.num k ∈ good.refs → 1 ≤ k := by
  constructor
  · intro i e h
    match i with
    | 0 => simp [good] at h; subst h; rfl
    | 1 => simp [good] at h; subst h; rfl
    | i + 2 => simp [good] at h
  · intro k hk
    simp [good, Arg.refs] at hk
    omega

/-- What becomes of the caller's dictionary: the entities lose their names, the wires are the list that the blueprint now has, a
schedule that was handed over as a `Schedule` has the blueprint's locomotives, one handed over as a dictionary is as before. -/
theorem C65_left (f : ℕ) (a a' : Arg) (L : Loaded) (h : setup f a = (a', .ok L)) :
    a'.ents = a.ents.map EntArg.bare ∧ a'.wires = a.wires.map (fun _ => L.wires) ∧ a'.scheds = List.zipWith SchedArg.after a.scheds L.locos := by
  obtain ⟨hl, hs, hw, rfl, rfl⟩ := setup_ok h
  refine ⟨loadEnts_left _ hl, ?_, (convScheds_ok _ _ hs).2⟩
  cases a.wires <;> rfl

/-- A dictionary with an entity in it can be loaded once only: the second time there is always a `KeyError`. -/
theorem C65_again (f f' : ℕ) (a a' : Arg) (L : Loaded) (h : setup f a = (a', .ok L)) (hd : ∃ e ∈ a.ents, e.IsDict) :
    (setup f' a').2 = .error .keyError := by
  obtain ⟨h1, -, -⟩ := C65_left f a a' L h
  obtain ⟨e, he, hd⟩ := hd
  have hbad : ¬ ∀ e ∈ a'.ents, e.Named := by
    intro hall
    have := hall e.bare (by rw [h1]; exact List.mem_map_of_mem he)
    cases e with
    | dict n k r => exact this rfl
    | inst u => exact hd
  have ho := C65_outcome f' a'
  cases hs : (setup f' a').2 with
  | ok L' => exact absurd (ho.1.1 ⟨L', hs⟩).1 hbad
  | error e' => push Not at hbad; rw [(ho.2 e' hs).2 hbad]

example : (setup 200 (setup 100 good).1).2 = .error .keyError := by decide

/-- False of the code: loading a dictionary leaves it as it was, so that loading it again gives the same blueprint once more.
`Blueprint({"blueprint": d})` twice with the same `d` raises `KeyError: 'name'` the second time, because
`elem.pop("name")` (`entity_list.py:103`) takes the names out of the caller's dictionaries. -/
theorem C65_again_refuted : ¬ ∀ f f' a L, (setup f a).2 = .ok L → ∃ L', (setup f' (setup f a).1).2 = .ok L' := by
  intro h
  obtain ⟨L', hL⟩ := h 100 200 good _ rfl
  have : (setup 200 (setup 100 good).1).2 = .error .keyError := by decide
  rw [this] at hL
  cases hL

/-- Two instances and a wire between them by number, as a user would write it. -/
def insts : Arg := ⟨[.inst 1, .inst 2], [], some [⟨.num 1, 1, .num 2, 1⟩]⟩

/-- False of the code: two blueprints made with the same list of wires each have wires between their own entities.  The first one keeps
the caller's list and replaces the numbers in it (`blueprint.py:575` and 625-631), so that the wires of the second join
the entities of the first, and the second cannot be exported. -/
theorem C65_shared_refuted : ¬ ∀ f f' a L L', (setup f a).2 = .ok L → (∀ r ∈ a.refs, ∃ k, r = .num k) → f + a.ents.length ≤ f' →
    (setup f' (setup f a).1).2 = .ok L' → ∀ w ∈ L'.wires, ∃ u ∈ L'.ents, w.e1 = .obj u := by
  intro h
  have := h 100 200 insts ⟨[100, 101], [], [⟨.obj 100, 1, .obj 101, 1⟩]⟩ ⟨[200, 201], [], [⟨.obj 100, 1, .obj 101, 1⟩]⟩ (by decide)
    (by intro r hr; simp [insts, Arg.refs] at hr; rcases hr with rfl | rfl <;> exact ⟨_, rfl⟩) (by decide) (by decide)
    ⟨.obj 100, 1, .obj 101, 1⟩ (by decide)
  obtain ⟨u, hu, he⟩ := this
  simp only [Ref.obj.injEq] at he
  subst he
  revert hu
  decide

/-- False of the code: a wire to number 0, which no entity has, is refused.  `self.entities[0 - 1]` is the last entity
(`blueprint.py:628`). -/
theorem C65_zero_refuted : ¬ ∀ f a k, Ref.num k ∈ a.refs → (∀ e ∈ a.ents, e.number ≠ some k) → ∃ e, (setup f a).2 = .error e := by
  intro h
  obtain ⟨e, he⟩ := h 100 ⟨[.dict (some 7) (some 1) 0, .dict (some 8) (some 2) 0], [], some [⟨.num 1, 1, .num 0, 1⟩]⟩ 0 (by decide) (by decide)
  have : (setup 100 ⟨[.dict (some 7) (some 1) 0, .dict (some 8) (some 2) 0], [], some [⟨.num 1, 1, .num 0, 1⟩]⟩).2 =
    .ok ⟨[100, 101], [], [⟨.obj 100, 1, .obj 101, 1⟩]⟩ := by decide
  rw [this] at he
  cases he

/-- False of the code: a reference goes to the entity that carries the number.  It goes to the entity at that place in the list
(`blueprint.py:621` and 627-631); the key `entity_number` is not looked at.  With the entities listed as 2, 1 a wire from 1
starts at the entity numbered 2. -/
theorem C65_order_refuted : ¬ ∀ f a L, (setup f a).2 = .ok L → (∀ k, Ref.num k ∈ a.refs → ∃ e ∈ a.ents, e.number = some k) →
    (a.ents.map EntArg.number).Nodup → List.Forall₂ (fun w w' => Made a L w.e1 w'.e1) (a.wires.getD []) L.wires := by
  intro h
  have := h 100 ⟨[.dict (some 7) (some 2) 0, .dict (some 8) (some 1) 0], [], some [⟨.num 1, 1, .num 2, 1⟩]⟩
    ⟨[100, 101], [], [⟨.obj 100, 1, .obj 101, 1⟩]⟩ (by decide)
    (by intro k hk; simp [Arg.refs] at hk; rcases hk with rfl | rfl <;> simp [EntArg.number]) (by decide)
  simp only [Option.getD_some, List.forall₂_cons, Made] at this
  obtain ⟨⟨i, e, u, h1, h2, h3, h4⟩, -⟩ := this
  match i with
  | 0 => simp at h1; subst h1; simp [EntArg.number] at h2
  | 1 => simp at h3 h4; subst h3; simp at h4
  | i + 2 => simp at h1

/-- False of the code: a dictionary that is refused is left as it was.  The names are gone and the wires before the bad one are
converted when the `IndexError` comes. -/
theorem C65_half_refuted : ¬ ∀ f a e, (setup f a).2 = .error e → (setup f a).1 = a := by
  intro h
  have := h 100 ⟨[.dict (some 7) (some 1) 0], [], some [⟨.num 1, 1, .num 1, 2⟩, ⟨.num 1, 1, .num 9, 1⟩]⟩ .indexError (by decide)
  revert this
  decide

/-- What becomes of the caller's wires when one of them cannot be resolved: those before it are converted, of its own two ends the first
is if that was not the trouble, and everything after it is as before. -/
theorem C65_failed (f : ℕ) (a a' : Arg) (e : PyErr) (h : setup f a = (a', .error e)) (hn : ∀ x ∈ a.ents, x.Named)
    (hr : ∀ s ∈ a.scheds, ∀ r ∈ s.locos, Reach a.ents.length r) :
    ∃ pre w post pre' w', a.wires = some (pre ++ w :: post) ∧ a'.wires = some (pre' ++ w' :: post) ∧
      List.Forall₂ (fun x y => (∃ u, y.e1 = .obj u) ∧ (∃ u, y.e2 = .obj u) ∧ y.t1 = x.t1 ∧ y.t2 = x.t2) pre pre' ∧
      (¬ Reach a.ents.length w.e1 ∧ w' = w ∨
        Reach a.ents.length w.e1 ∧ ¬ Reach a.ents.length w.e2 ∧ (∃ u, w'.e1 = .obj u) ∧ w' = { w with e1 := w'.e1 }) := by
  have hobj : ∀ (n : ℕ) (r r' : Ref), resolve (objects f n) r = .ok r' → ∃ u, r' = .obj u := by
    intro n r r' h
    cases r with
    | obj u => exact ⟨u, by simpa [resolve, eq_comm] using h⟩
    | num k =>
      simp only [resolve] at h
      split at h
      · simp at h
      · split at h
        · simp at h
        · rename_i u _; exact ⟨u, by simpa [eq_comm] using h⟩
  have key : ∀ (n : ℕ) (l : List RWire), (convWires (objects f n) l).2 ≠ none → ∃ pre w post pre' w', l = pre ++ w :: post ∧
      (convWires (objects f n) l).1 = pre' ++ w' :: post ∧
      List.Forall₂ (fun x y => (∃ u, y.e1 = .obj u) ∧ (∃ u, y.e2 = .obj u) ∧ y.t1 = x.t1 ∧ y.t2 = x.t2) pre pre' ∧
      (¬ Reach n w.e1 ∧ w' = w ∨ Reach n w.e1 ∧ ¬ Reach n w.e2 ∧ (∃ u, w'.e1 = .obj u) ∧ w' = { w with e1 := w'.e1 }) := by
    intro n l
    induction l with
    | nil => simp [convWires]
    | cons w t ih =>
      intro hne
      simp only [convWires] at hne ⊢
      cases h1 : resolve (objects f n) w.e1 with
      | error x =>
        refine ⟨[], w, t, [], w, rfl, by simp, .nil, Or.inl ⟨?_, rfl⟩⟩
        intro hc
        obtain ⟨r, hr⟩ := (resolve_ok f n w.e1).mpr hc
        rw [h1] at hr; cases hr
      | ok r1 =>
        have hreach := (resolve_ok f n w.e1).mp ⟨r1, h1⟩
        cases h2 : resolve (objects f n) w.e2 with
        | error x =>
          refine ⟨[], w, t, [], { w with e1 := r1 }, rfl, by simp, .nil, Or.inr ⟨hreach, ?_, hobj n _ _ h1, rfl⟩⟩
          intro hc
          obtain ⟨r, hr⟩ := (resolve_ok f n w.e2).mpr hc
          rw [h2] at hr; cases hr
        | ok r2 =>
          simp only [h1, h2] at hne
          obtain ⟨pre, v, post, pre', v', e1, e2, e3, e4⟩ := ih hne
          refine ⟨w :: pre, v, post, { w with e1 := r1, e2 := r2 } :: pre', v', by simp [e1], by simp [e2], ?_, e4⟩
          exact .cons ⟨hobj n _ _ h1, hobj n _ _ h2, rfl, rfl⟩ e3
  have hl := (loadEnts_ok a.ents).mpr hn
  have hs := (convScheds_none f a.ents.length a.scheds).mpr (by simpa using fun r s h h2 => hr s h r h2)
  simp only [setup, hl, hs] at h
  cases hw : a.wires with
  | none => simp [hw] at h
  | some ws =>
    simp only [hw] at h
    cases hc : (convWires (objects f a.ents.length) ws).2 with
    | none => simp [hc] at h
    | some x =>
      simp only [hc, Prod.mk.injEq] at h
      obtain ⟨pre, w, post, pre', w', e1, e2, e3, e4⟩ := key a.ents.length ws (by simp [hc])
      exact ⟨pre, w, post, pre', w', by rw [e1], by rw [← h.1, ← e2], e3, e4⟩

/-- The second of three wires cannot be resolved at its second end. -/
example : setup 7 ⟨[.dict (some 1) (some 1) 0], [], some [⟨.num 1, 1, .num 1, 2⟩, ⟨.num 1, 1, .num 9, 1⟩, ⟨.num 1, 1, .num 1, 1⟩]⟩ =
    (⟨[.dict none (some 1) 0], [], some [⟨.obj 7, 1, .obj 7, 2⟩, ⟨.obj 7, 1, .num 9, 1⟩, ⟨.num 1, 1, .num 1, 1⟩]⟩, .error .indexError) := by
  decide

/-- The group made from a blueprint string keeps the wires as the numbers they were. -/
theorem C65_group (f : ℕ) (a : Arg) (g : Grp) (h : groupLoad f a = .ok g) :
    g.wires = a.wires ∧ (g.wires = none → g.wireEnds = .error .attributeError) ∧
    (∀ w ∈ (a.wires.getD []).head?, (∃ k, w.e1 = .num k) → g.wireEnds = .error .typeError) := by
  simp only [groupLoad] at h
  split at h
  · simp at h
  · split at h
    · simp at h
    · simp only [Except.ok.injEq] at h
      subst h
      refine ⟨rfl, fun hw => ?_, fun w hw => ?_⟩
      · simp only [] at hw
        simp [Grp.wireEnds, Grp.getWires, hw, bind, Except.bind]
      · rintro ⟨k, hk⟩
        cases hws : a.wires with
        | none => simp [hws] at hw
        | some ws =>
          cases ws with
          | nil => simp [hws] at hw
          | cons w' t =>
            simp [hws] at hw
            subst hw
            simp [Grp.wireEnds, Grp.getWires, bind, Except.bind, List.mapM_cons, hk, callRef]

example : ∃ g, groupLoad 100 good = .ok g ∧ g.wireEnds = .error .typeError := by
  exact ⟨_, rfl, by decide⟩

/-- False of the code: the wires of a group made from a blueprint string join the group's entities.  They are left as numbers
("TODO: wires", `group.py:206`), so that exporting a blueprint with this group raises `TypeError: 'int' object is not callable`.
If the string has no wires the attribute is missing altogether, and asking for `wires` raises `AttributeError`. -/
theorem C65_group_refuted : (¬ ∀ f a g, groupLoad f a = .ok g → (∀ k, Ref.num k ∈ a.refs → 1 ≤ k ∧ k ≤ a.ents.length) →
      ∃ l, g.wireEnds = .ok l) ∧
    ¬ ∀ f a g, groupLoad f a = .ok g → ∃ ws, g.getWires = .ok ws := by
  constructor
  · intro h
    obtain ⟨l, hl⟩ := h 100 good ⟨[100, 101], [[.obj 101]], good.wires⟩ (by decide) (by
      intro k hk
      simp [good, Arg.refs] at hk
      simp [good]
      omega)
    cases hl
  · intro h
    obtain ⟨l, hl⟩ := h 100 ⟨[.dict (some 7) (some 1) 0], [], none⟩ ⟨[100], [], none⟩ (by decide)
    cases hl

end Import
end Draftsman
