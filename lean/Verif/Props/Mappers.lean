import Verif.Model.Mappers
import Verif.Props.Upgrade
import Verif.Props.Checks

/-! ## C103: mappings can be given by name, by dictionary or by model -/

namespace Draftsman
namespace Mappers
open Upgrade

/-- What a target that is given stands for: nothing, the module of that name or else the entity of that name, or what it says. -/
inductive Means (D : Data) : Ref → Option Id → Prop
  | blank : Means D .blank none
  | item {n : String} (h : D.modules n = true) : Means D (.name n) (some ⟨n, "item"⟩)
  | entity {n : String} (h : D.modules n = false) {p : Proto} (h' : D.tables.ent n = some p) : Means D (.name n) (some ⟨n, "entity"⟩)
  | dict (d : Id) : Means D (.dict d) (some d)
  | model (d : Id) : Means D (.model d) (some d)

/-- It is a name, a dictionary or `None`. -/
def Ref.noModel : Ref → Prop
  | .model _ => False
  | _ => True

/-- A name that is neither that of a module nor that of an entity. -/
def Unknown (D : Data) (r : Ref) : Prop := ∃ n, r = .name n ∧ D.modules n = false ∧ D.tables.ent n = none

theorem Means.unique {D : Data} {r : Ref} {a b : Option Id} (h : Means D r a) (h' : Means D r b) : a = b := by
  cases h with
  | blank => cases h'; rfl
  | item h => cases h' with
    | item => rfl
    | entity h1 => rw [h] at h1; cases h1
  | entity h => cases h' with
    | item h1 => rw [h] at h1; cases h1
    | entity => rfl
  | dict d => cases h'; rfl
  | model d => cases h'; rfl

theorem means_or_unknown (D : Data) (r : Ref) : (∃ a, Means D r a) ∨ Unknown D r := by
  cases r with
  | blank => exact .inl ⟨_, .blank⟩
  | dict d => exact .inl ⟨_, .dict d⟩
  | model d => exact .inl ⟨_, .model d⟩
  | name n =>
    cases h : D.modules n with
    | true => exact .inl ⟨_, .item h⟩
    | false => cases h' : D.tables.ent n with
      | none => exact .inr ⟨n, rfl, h, h'⟩
      | some p => exact .inl ⟨_, .entity h h'⟩

theorem mapperType_item {D : Data} {n : String} (h : D.modules n = true) : mapperType D n = .ok "item" := by
  simp [mapperType, h]

theorem mapperType_entity {D : Data} {n : String} (h : D.modules n = false) {p : Proto} (h' : D.tables.ent n = some p) :
    mapperType D n = .ok "entity" := by
  simp [mapperType, h, h']

theorem mapperType_unknown {D : Data} {n : String} (h : D.modules n = false) (h' : D.tables.ent n = none) :
    mapperType D n = .error .draftsmanError := by
  simp [mapperType, h, h']

theorem mapperDict_means {D : Data} {r : Ref} {a : Option Id} (h : Means D r a) (hm : r.noModel) : mapperDict D r = .ok a := by
  cases h with
  | blank => rfl
  | item h => simp only [mapperDict, mapperType_item h]; rfl
  | entity h h' => simp only [mapperDict, mapperType_entity h h']; rfl
  | dict d => rfl
  | model d => exact hm.elim

theorem mapperDict_unknown {D : Data} {r : Ref} (h : Unknown D r) : mapperDict D r = .error .draftsmanError := by
  obtain ⟨n, rfl, h1, h2⟩ := h
  simp only [mapperDict, mapperType_unknown h1 h2]; rfl

/-- C103: `set_mapping` sets the mapping its arguments stand for, however they are given, except as models. -/
theorem C103_set_partial {D : Data} {f t : Ref} {a b : Option Id} (hf : Means D f a) (ht : Means D t b) (hf' : f.noModel) (ht' : t.noModel)
    (s : S) (i : ℤ) : setRef D s f t i = (setMapping s a b i, none) := by
  simp only [setRef, mapperDict_means hf hf', mapperDict_means ht ht']

/-- C103: `remove_mapping` removes the mapping its arguments stand for, however they are given, except as models. -/
theorem C103_remove_partial {D : Data} {f t : Ref} {a b : Option Id} (hf : Means D f a) (ht : Means D t b) (hf' : f.noModel) (ht' : t.noModel)
    (s : S) (i : Option ℤ) : removeRef D s f t i = removeMapping s a b i := by
  simp only [removeRef, mapperDict_means hf hf', mapperDict_means ht ht']

/-- C103: an unknown name is refused by both methods with an `InvalidMapperError`, and nothing is changed. -/
theorem C103_unknown {D : Data} {f t : Ref} (h : Unknown D f ∨ (∃ a, Means D f a) ∧ f.noModel ∧ Unknown D t) (s : S) (i : ℤ) (j : Option ℤ) :
    setRef D s f t i = (s, some .draftsmanError) ∧ removeRef D s f t j = (s, some .draftsmanError) := by
  rcases h with h | ⟨⟨a, ha⟩, hm, h⟩
  · simp only [setRef, removeRef, mapperDict_unknown h, and_self]
  · simp only [setRef, removeRef, mapperDict_unknown h, mapperDict_means ha hm, and_self]

/-- C103: a model is refused by both methods with a `TypeError`, and nothing is changed. -/
theorem C103_model {D : Data} {f t : Ref} (h : ¬ f.noModel ∨ (∃ a, Means D f a) ∧ f.noModel ∧ ¬ t.noModel) (s : S) (i : ℤ) (j : Option ℤ) :
    setRef D s f t i = (s, some .typeError) ∧ removeRef D s f t j = (s, some .typeError) := by
  rcases h with h | ⟨⟨a, ha⟩, hm, h⟩
  · cases f with
    | model d => exact ⟨rfl, rfl⟩
    | _ => exact absurd trivial h
  · cases t with
    | model d =>
      have h2 : mapperDict D (.model d) = .error .typeError := rfl
      simp only [setRef, removeRef, mapperDict_means ha hm, h2, and_self]
    | _ => exact absurd trivial h

/-- C103: a failing call changes nothing. -/
theorem C103_failed (D : Data) (f t : Ref) (s : S) (i : ℤ) (j : Option ℤ) :
    ((setRef D s f t i).2 ≠ none → (setRef D s f t i).1 = s) ∧ ((removeRef D s f t j).2 ≠ none → (removeRef D s f t j).1 = s) := by
  constructor
  · unfold setRef
    cases mapperDict D f with
    | error e => exact fun _ => rfl
    | ok a => cases mapperDict D t with
      | error e => exact fun _ => rfl
      | ok b => exact fun h => absurd rfl h
  · unfold removeRef
    cases mapperDict D f with
    | error e => exact fun _ => rfl
    | ok a => cases mapperDict D t with
      | error e => exact fun _ => rfl
      | ok b =>
        simp only
        unfold removeMapping
        cases j with
        | none => cases s with
          | none => exact fun _ => rfl
          | some l =>
            simp only
            split
            · exact fun h => absurd rfl h
            · exact fun _ => rfl
        | some j => cases s with
          | none => exact fun _ => rfl
          | some l =>
            simp only
            split
            · exact fun h => absurd rfl h
            · exact fun _ => rfl

theorem plain_set {s : S} (hp : Plain s) (f t : Option Id) (i : ℤ) : ∃ l, setMapping s f t i = some l ∧ Plain (some l) := by
  unfold setMapping
  simp only
  cases hk : (s.getD []).findIdx? (fun e => e.index == i) with
  | some k =>
    refine ⟨_, rfl, ?_⟩
    intro e he
    simp only [Option.getD_some] at he
    rcases List.mem_or_eq_of_mem_set he with h | rfl
    · exact hp e h
    · rfl
  | none =>
    refine ⟨_, rfl, ?_⟩
    intro e he
    simp only [Option.getD_some, insort] at he
    rcases List.eq_or_mem_of_mem_insertIdx he with rfl | h
    · rfl
    · exact hp e h

/-- C103: a mapping that was set can be removed again at its index, in any form that stands for the same two targets; its slot is then empty and no other
slot has changed. -/
theorem C103_back_partial {D : Data} {f t f' t' : Ref} {a b : Id} (hf : Means D f (some a)) (ht : Means D t (some b)) (hf' : Means D f' (some a))
    (ht' : Means D t' (some b)) (m1 : f.noModel) (m2 : t.noModel) (m3 : f'.noModel) (m4 : t'.noModel) (s : S) (hs : Sorted s) (hp : Plain s) (i : ℤ) :
    (removeRef D (setRef D s f t i).1 f' t' (some i)).2 = none ∧
    table (removeRef D (setRef D s f t i).1 f' t' (some i)).1 = Function.update (table s) i none := by
  rw [C103_set_partial hf ht m1 m2, C103_remove_partial hf' ht' m3 m4]
  obtain ⟨h1, h2⟩ := C41_set s hs (some a) (some b) i
  obtain ⟨l, hl, hpl⟩ := plain_set hp (some a) (some b) i
  simp only [hl] at h1 h2 ⊢
  have := (C41_remove_at_partial l h2 hpl a b i).1 (by rw [h1, Function.update_self])
  rw [h1, Function.update_idem] at this
  exact this

/-- C103: without an index the mapping is removed too, if no lower slot holds it; blank sides are allowed here. -/
theorem C103_back_first {D : Data} {f t f' t' : Ref} {a b : Option Id} (hf : Means D f a) (ht : Means D t b) (hf' : Means D f' a)
    (ht' : Means D t' b) (m1 : f.noModel) (m2 : t.noModel) (m3 : f'.noModel) (m4 : t'.noModel) (s : S) (hs : Sorted s) (hp : Plain s) (i : ℤ)
    (hlow : ∀ j < i, table s j ≠ some (a, b)) :
    (removeRef D (setRef D s f t i).1 f' t' none).2 = none ∧
    table (removeRef D (setRef D s f t i).1 f' t' none).1 = Function.update (table s) i none := by
  rw [C103_set_partial hf ht m1 m2, C103_remove_partial hf' ht' m3 m4]
  obtain ⟨h1, h2⟩ := C41_set s hs a b i
  obtain ⟨l, hl, hpl⟩ := plain_set hp a b i
  simp only [hl] at h1 h2 ⊢
  have := (C41_remove_first l h2 hpl a b).1 i (by rw [h1, Function.update_self])
    (fun j hj => by rw [h1, Function.update_of_ne (ne_of_lt hj)]; exact hlow j hj)
  rw [h1, Function.update_idem] at this
  exact this

/-! ### The attribute -/

/-- The two types a `MapperID` can have. -/
def Typed (o : Option Id) : Prop := ∀ d, o = some d → d.type = "entity" ∨ d.type = "item"

/-- A side of a mapping in a sequence: the empty name leaves it blank too. -/
def Side (D : Data) (r : Ref) (o : Option Id) : Prop := r = .name "" ∧ o = none ∨ r ≠ .name "" ∧ Means D r o

/-- What is stored for an entry of the list at a place. -/
inductive Stores (D : Data) (k : ℕ) : Checks.MapperArg Ref → Ent → Prop
  | seq {f t : Ref} {r : List Ref} {a b : Option Id} (hf : Side D f a) (ht : Side D t b) (ta : Typed a) (tb : Typed b) (hk : (k : ℤ) < 2 ^ 64) :
    Stores D k (.seq (f :: t :: r)) ⟨k, a, b, false⟩
  | dict {i : ℤ} {f t : Option Ref} {a b : Option Id} (hf : Means D (f.getD .blank) a) (ht : Means D (t.getD .blank) b) (ta : Typed a) (tb : Typed b)
    (h0 : 0 ≤ i) (hi : i < 2 ^ 64) : Stores D k (.dict i f t) ⟨i, a, b, false⟩

theorem checkRef_iff (D : Data) (r : Ref) (a : Option Id) : checkRef D r = .ok a ↔ Means D r a ∧ Typed a := by
  constructor
  · intro h
    cases r with
    | blank => simp only [checkRef, Except.ok.injEq] at h; subst h; exact ⟨.blank, fun d hd => by cases hd⟩
    | name n =>
      simp only [checkRef] at h
      cases hm : D.modules n with
      | true =>
        rw [mapperType_item hm] at h
        simp only [Except.ok.injEq] at h; subst h
        exact ⟨.item hm, fun d hd => by cases hd; exact .inr rfl⟩
      | false => cases he : D.tables.ent n with
        | none => rw [mapperType_unknown hm he] at h; cases h
        | some p =>
          rw [mapperType_entity hm he] at h
          simp only [Except.ok.injEq] at h; subst h
          exact ⟨.entity hm he, fun d hd => by cases hd; exact .inl rfl⟩
    | dict d =>
      unfold checkRef at h
      by_cases ht : d.type = "entity" ∨ d.type = "item"
      · simp only [if_pos ht, Except.ok.injEq] at h; subst h
        exact ⟨.dict d, fun e he => by cases he; exact ht⟩
      · simp only [if_neg ht] at h; cases h
    | model d =>
      unfold checkRef at h
      by_cases ht : d.type = "entity" ∨ d.type = "item"
      · simp only [if_pos ht, Except.ok.injEq] at h; subst h
        exact ⟨.model d, fun e he => by cases he; exact ht⟩
      · simp only [if_neg ht] at h; cases h
  · rintro ⟨h, ht⟩
    cases h with
    | blank => rfl
    | item h => simp only [checkRef, mapperType_item h]
    | entity h h' => simp only [checkRef, mapperType_entity h h']
    | dict d => simp only [checkRef, if_pos (ht d rfl)]
    | model d => simp only [checkRef, if_pos (ht d rfl)]

theorem checkMapper_dict (D : Data) (i : ℤ) (f t : Option Ref) (e : Ent) : checkMapper D (.dict i f t) = .ok e ↔
    ∃ a b, Means D (f.getD .blank) a ∧ Means D (t.getD .blank) b ∧ Typed a ∧ Typed b ∧ 0 ≤ i ∧ i < 2 ^ 64 ∧ e = ⟨i, a, b, false⟩ := by
  constructor
  · intro h
    unfold checkMapper at h
    cases hf : checkRef D (f.getD .blank) with
    | error x => simp only [hf] at h; cases h
    | ok a => cases ht : checkRef D (t.getD .blank) with
      | error x => simp only [hf, ht] at h; cases h
      | ok b =>
        simp only [hf, ht] at h
        by_cases hi : 0 ≤ i ∧ i < 2 ^ 64
        · rw [if_pos hi] at h
          simp only [Except.ok.injEq] at h
          rw [checkRef_iff] at hf ht
          exact ⟨a, b, hf.1, ht.1, hf.2, ht.2, hi.1, hi.2, h.symm⟩
        · rw [if_neg hi] at h; cases h
  · rintro ⟨a, b, hf, ht, ta, tb, h0, hi, rfl⟩
    unfold checkMapper
    simp only [(checkRef_iff D _ _).2 ⟨hf, ta⟩, (checkRef_iff D _ _).2 ⟨ht, tb⟩, if_pos (And.intro h0 hi)]

theorem side_iff (D : Data) (r : Ref) (a : Option Id) : Means D (((if truthy r then some r else none) : Option Ref).getD .blank) a ↔ Side D r a := by
  cases r with
  | blank => simp [truthy, Side]
  | dict d => simp [truthy, Side]
  | model d => simp [truthy, Side]
  | name n =>
    by_cases hn : n = ""
    · subst hn
      simp only [truthy, Side, ne_eq, not_true_eq_false, decide_false, Bool.false_eq_true, if_false, Option.getD_none, true_and, false_and, or_false]
      constructor
      · intro h; cases h; rfl
      · rintro rfl; exact .blank
    · simp [truthy, Side, hn]

theorem checkMapper_error {D : Data} {m : Checks.MapperArg Ref} {x : PyErr} (h : checkMapper D m = .error x) : x = .dataFormat := by
  unfold checkMapper at h
  split at h
  · split at h
    · split at h
      · cases h
      · cases h; rfl
    · cases h; rfl
  · cases h; rfl

theorem checkList_ok {D : Data} {l : List (Checks.MapperArg Ref)} {es : List Ent} : checkList D l = .ok es ↔
    es.length = l.length ∧ ∀ (k : ℕ) m e, l[k]? = some m → es[k]? = some e → checkMapper D m = .ok e := by
  induction l generalizing es with
  | nil =>
    simp only [checkList, Except.ok.injEq, List.length_nil, List.length_eq_zero_iff]
    constructor
    · rintro rfl; exact ⟨rfl, by simp⟩
    · exact fun h => h.1.symm
  | cons m l ih =>
    constructor
    · intro h
      unfold checkList at h
      cases hm : checkMapper D m with
      | error x => rw [hm] at h; simp at h
      | ok e => cases hl : checkList D l with
        | error x => rw [hm, hl] at h; simp at h
        | ok es' =>
          rw [hm, hl] at h
          simp only [Except.ok.injEq] at h
          subst h
          obtain ⟨h1, h2⟩ := ih.1 hl
          refine ⟨by simp [h1], ?_⟩
          intro k m' e' hk hk'
          cases k with
          | zero => simp at hk hk'; subst hk hk'; exact hm
          | succ k => simp at hk hk'; exact h2 k m' e' hk hk'
    · rintro ⟨h1, h2⟩
      cases es with
      | nil => simp at h1
      | cons e es =>
        have hm := h2 0 m e rfl rfl
        have hl := (ih (es := es)).2 ⟨by simpa using h1, fun k m' e' hk hk' => h2 (k + 1) m' e' (by simpa using hk) (by simpa using hk')⟩
        simp only [checkList, hm, hl]

theorem checkList_error {D : Data} {l : List (Checks.MapperArg Ref)} {x : PyErr} (h : checkList D l = .error x) :
    x = .dataFormat ∧ ∃ m ∈ l, ∀ e, checkMapper D m ≠ .ok e := by
  induction l generalizing x with
  | nil => simp [checkList] at h
  | cons m l ih =>
    unfold checkList at h
    cases hm : checkMapper D m with
    | error y =>
      rw [hm] at h
      simp only [Except.error.injEq] at h
      exact ⟨h.symm, m, by simp, by simp [hm]⟩
    | ok e => cases hl : checkList D l with
      | error y =>
        rw [hm, hl] at h
        simp only [Except.error.injEq] at h
        obtain ⟨-, m', h1, h2⟩ := ih hl
        exact ⟨h.symm, m', by simp [h1], h2⟩
      | ok es => rw [hm, hl] at h; simp at h

/-- The check of the normalized entry says what is stored for the entry. -/
theorem check_normalized (D : Data) (l : List (Checks.MapperArg Ref)) (hl : ∀ items, Checks.MapperArg.seq items ∈ l → 2 ≤ items.length) (k : ℕ)
    (m : Checks.MapperArg Ref) (hk : l[k]? = some m) :
    ∃ m', (Checks.normalizeMappers truthy l)[k]? = some m' ∧ ∀ e, checkMapper D m' = .ok e ↔ Stores D k m e := by
  obtain ⟨h1, h2⟩ := (Checks.C88_shorthand_partial truthy l).1 hl
  obtain ⟨h3, h4⟩ := h2 k m hk
  cases m with
  | seq items =>
    have := hl items (List.mem_of_getElem? hk)
    match items, this with
    | f :: t :: r, _ =>
      refine ⟨_, h3 f t r rfl, ?_⟩
      intro e
      rw [checkMapper_dict]
      constructor
      · rintro ⟨a, b, hf, ht, ta, tb, h0, hi, rfl⟩
        exact .seq ((side_iff D f a).1 hf) ((side_iff D t b).1 ht) ta tb hi
      · rintro ⟨hf, ht, ta, tb, hk⟩
        exact ⟨_, _, (side_iff D f _).2 hf, (side_iff D t _).2 ht, ta, tb, by omega, hk, rfl⟩
  | dict i f t =>
    refine ⟨_, h4 (by simp), ?_⟩
    intro e
    rw [checkMapper_dict]
    constructor
    · rintro ⟨a, b, hf, ht, ta, tb, h0, hi, rfl⟩
      exact .dict hf ht ta tb h0 hi
    · rintro ⟨⟩
      exact ⟨_, _, by assumption, by assumption, by assumption, by assumption, by assumption, by assumption, rfl⟩
  | other v =>
    refine ⟨_, h4 (by simp), ?_⟩
    intro e
    simp only [checkMapper, reduceCtorEq, false_iff]
    rintro ⟨⟩

theorem checkPair_error {T : Tables} {f t : Option Id} {x : PyErr} (h : checkPair T f t = .error x) : x = .keyError := by
  have hh : ∀ ns x, firstHidden T ns = .error x → x = .keyError := by
    intro ns
    induction ns with
    | nil => intro x h; simp [firstHidden] at h
    | cons n ns ih =>
      intro x h
      unfold firstHidden at h
      cases hn : T.item n with
      | none => rw [hn] at h; cases h; rfl
      | some it =>
        rw [hn] at h
        by_cases hf : "hidden" ∈ it.flags
        · simp only [if_pos hf] at h; cases h
        · simp only [if_neg hf] at h; exact ih x h
  have hm : ∀ m x, minedItems m = .error x → x = .keyError := by
    intro m x h
    cases m <;> simp [minedItems] at h
    exact h.symm
  unfold checkPair at h
  split at h
  · cases h
  · split at h
    · split at h
      · cases h
      · split at h
        · cases h
        · split at h
          · cases h
          · unfold checkEntities at h
            split at h
            · split at h
              · cases h
              · split at h
                · cases h
                · split at h
                  · rename_i hx; cases h; exact hm _ _ hx
                  · split at h
                    · rename_i hx; cases h; exact hh _ _ hx
                    · cases h
                    · cases h
            · cases h; rfl
    · cases h

theorem mappersValid_error {T : Tables} {c : Checks.Ctx} {s : S} {x : PyErr} (h : Checks.mappersValid T c s = .error x) : x = .keyError := by
  have key : ∀ (l : List Ent) ws d x, Checks.mapperLoop T ws d l = .error x → x = .keyError := by
    intro l
    induction l with
    | nil => intro ws d x h; simp [Checks.mapperLoop] at h
    | cons m l ih =>
      intro ws d x h
      unfold Checks.mapperLoop at h
      cases hm : checkPair T m.frm m.to with
      | error e => rw [hm] at h; simp only [Except.error.injEq] at h; subst h; exact checkPair_error hm
      | ok r => rw [hm] at h; exact ih _ _ x h
  unfold Checks.mappersValid at h
  cases s with
  | none => cases h
  | some l =>
    simp only at h
    by_cases hs : Checks.skip .minimum c
    · rw [if_pos hs] at h; cases h
    · rw [if_neg hs] at h
      cases hl : Checks.mapperLoop T [] [] l with
      | ok r => rw [hl] at h; cases h
      | error e => rw [hl] at h; cases h; exact key l _ _ _ hl

theorem stores_short {D : Data} {k : ℕ} {items : List Ref} {e : Ent} (h : Stores D k (.seq items) e) : 2 ≤ items.length := by
  cases h; simp

theorem stores_check {D : Data} {k : ℕ} {m : Checks.MapperArg Ref} {e : Ent} (h : ∀ items, m ≠ .seq items) (hm : checkMapper D m = .ok e) : Stores D k m e := by
  cases m with
  | seq items => exact absurd rfl (h items)
  | other v => simp [checkMapper] at hm
  | dict i f t =>
    obtain ⟨a, b, hf, ht, ta, tb, h0, hi, rfl⟩ := (checkMapper_dict D i f t e).1 hm
    exact .dict hf ht ta tb h0 hi

theorem checkList_iff (D : Data) (l : List (Checks.MapperArg Ref)) (es : List Ent) : checkList D (Checks.normalizeMappers truthy l) = .ok es ↔
    es.length = l.length ∧ ∀ (k : ℕ) m e, l[k]? = some m → es[k]? = some e → Stores D k m e := by
  by_cases hl : ∀ items, Checks.MapperArg.seq items ∈ l → 2 ≤ items.length
  · have hlen := ((Checks.C88_shorthand_partial truthy l).1 hl).1
    rw [checkList_ok, hlen]
    refine and_congr_right fun h1 => ?_
    constructor
    · intro h k m e hk hk'
      obtain ⟨m', h2, h3⟩ := check_normalized D l hl k m hk
      exact (h3 e).1 (h k m' e h2 hk')
    · intro h k m' e hk hk'
      have hlt : k < l.length := by
        rw [← hlen]
        exact (List.getElem?_eq_some_iff.1 hk).1
      obtain ⟨m'', h2, h3⟩ := check_normalized D l hl k l[k] (List.getElem?_eq_getElem hlt)
      rw [hk, Option.some.injEq] at h2
      subst h2
      exact (h3 e).2 (h k _ e (List.getElem?_eq_getElem hlt) hk')
  · obtain ⟨items, hmem, hshort⟩ : ∃ items, Checks.MapperArg.seq items ∈ l ∧ items.length < 2 := by
      simp only [not_forall, Nat.not_le] at hl
      obtain ⟨items, h1, h2⟩ := hl
      exact ⟨items, h1, h2⟩
    rw [(Checks.C88_shorthand_partial truthy l).2 ⟨items, hmem, hshort⟩]
    obtain ⟨k, hk⟩ := List.getElem?_of_mem hmem
    have hlt : k < l.length := (List.getElem?_eq_some_iff.1 hk).1
    constructor
    · intro h
      obtain ⟨h1, h2⟩ := checkList_ok.1 h
      have := h2 k _ es[k] hk (List.getElem?_eq_getElem _)
      simp [checkMapper] at this
    · rintro ⟨h1, h2⟩
      have := stores_short (h2 k _ es[k] hk (List.getElem?_eq_getElem _))
      omega

/-- C103: assigning to `mappers` in a mode that validates: if each entry can be stored, the list holds just what the entries stand for, in order; if one cannot,
that is a `DataFormatError` and nothing is changed. -/
theorem C103_assign (D : Data) (mode : Mode) (s : S) (l : List (Checks.MapperArg Ref)) :
    ((∀ (k : ℕ) m, l[k]? = some m → ∃ e, Stores D k m e) → (assign D mode s (some l)).2 ≠ some .dataFormat ∧
      ∃ es, (assign D mode s (some l)).1 = some es ∧ es.length = l.length ∧ ∀ (k : ℕ) m, l[k]? = some m → ∃ e, es[k]? = some e ∧ Stores D k m e) ∧
    ((∃ (k : ℕ) (m : Checks.MapperArg Ref), l[k]? = some m ∧ ∀ e, ¬ Stores D k m e) → assign D mode s (some l) = (s, some .dataFormat)) := by
  constructor
  · intro h
    obtain ⟨es, hes⟩ : ∃ es : List Ent, es.length = l.length ∧ ∀ (k : ℕ) m e, l[k]? = some m → es[k]? = some e → Stores D k m e := by
      have : Inhabited Ent := ⟨⟨0, none, none, true⟩⟩
      choose! g hg using h
      refine ⟨l.mapIdx g, by simp, ?_⟩
      intro k m e hk he
      rw [List.getElem?_mapIdx, hk] at he
      simp only [Option.map_some, Option.some.injEq] at he
      subst he
      exact hg k m hk
    have hc := (checkList_iff D l es).2 hes
    refine ⟨?_, es, ?_, hes.1, ?_⟩
    · simp only [assign, hc]
      cases hm : Checks.mappersValid D.tables (some mode.val) (some es) with
      | ok w => simp
      | error x => simp only [ne_eq, Option.some.injEq]; rw [mappersValid_error hm]; exact fun h => by cases h
    · simp only [assign, hc]
      cases Checks.mappersValid D.tables (some mode.val) (some es) <;> rfl
    · intro k m hk
      have hlt : k < es.length := by rw [hes.1]; exact (List.getElem?_eq_some_iff.1 hk).1
      exact ⟨es[k], List.getElem?_eq_getElem hlt, hes.2 k m _ hk (List.getElem?_eq_getElem hlt)⟩
  · rintro ⟨k, m, hk, hno⟩
    cases hc : checkList D (Checks.normalizeMappers truthy l) with
    | error x => simp only [assign, hc, (checkList_error hc).1]
    | ok es =>
      obtain ⟨h1, h2⟩ := (checkList_iff D l es).1 hc
      have hlt : k < es.length := by rw [h1]; exact (List.getElem?_eq_some_iff.1 hk).1
      exact absurd (h2 k m _ hk (List.getElem?_eq_getElem hlt)) (hno _)

theorem Side.unique {D : Data} {r : Ref} {a b : Option Id} (h : Side D r a) (h' : Side D r b) : a = b := by
  rcases h with ⟨h1, rfl⟩ | ⟨h1, h2⟩ <;> rcases h' with ⟨h3, rfl⟩ | ⟨h3, h4⟩
  · rfl
  · exact absurd h1 h3
  · exact absurd h3 h1
  · exact h2.unique h4

/-- C103: an entry is stored in one way only. -/
theorem C103_one {D : Data} {k : ℕ} {m : Checks.MapperArg Ref} {e e' : Ent} (h : Stores D k m e) (h' : Stores D k m e') : e = e' := by
  cases h with
  | seq hf ht =>
    cases h' with
    | seq hf' ht' => rw [hf.unique hf', ht.unique ht']
  | dict hf ht =>
    cases h' with
    | dict hf' ht' => rw [hf.unique hf', ht.unique ht']

/-- C103: assigning two lists whose entries stand for the same does the same. -/
theorem C103_forms (D : Data) (mode : Mode) (s : S) (l l' : List (Checks.MapperArg Ref)) (hlen : l.length = l'.length)
    (h : ∀ (k : ℕ) m m', l[k]? = some m → l'[k]? = some m' → ∀ e, Stores D k m e ↔ Stores D k m' e) :
    assign D mode s (some l) = assign D mode s (some l') := by
  have hiff : ∀ es, checkList D (Checks.normalizeMappers truthy l) = .ok es ↔ checkList D (Checks.normalizeMappers truthy l') = .ok es := by
    intro es
    rw [checkList_iff, checkList_iff, hlen]
    refine and_congr_right fun h1 => ?_
    constructor
    · intro h2 k m e hk he
      have hlt : k < l.length := by rw [hlen]; exact (List.getElem?_eq_some_iff.1 hk).1
      exact (h k _ m (List.getElem?_eq_getElem hlt) hk e).1 (h2 k _ e (List.getElem?_eq_getElem hlt) he)
    · intro h2 k m e hk he
      have hlt : k < l'.length := by rw [← hlen]; exact (List.getElem?_eq_some_iff.1 hk).1
      exact (h k m _ hk (List.getElem?_eq_getElem hlt) e).2 (h2 k _ e (List.getElem?_eq_getElem hlt) he)
  have heq : checkList D (Checks.normalizeMappers truthy l) = checkList D (Checks.normalizeMappers truthy l') := by
    cases h1 : checkList D (Checks.normalizeMappers truthy l) with
    | ok es => rw [(hiff es).1 h1]
    | error x => cases h2 : checkList D (Checks.normalizeMappers truthy l') with
      | ok es => rw [(hiff es).2 h2] at h1; cases h1
      | error y => rw [(checkList_error h1).1, (checkList_error h2).1]
  simp only [assign, heq]

/-- C103: pairs assigned fill the slots in order: the list is sorted, and slot `k` holds what the pair at place `k` stands for. -/
theorem C103_pairs (D : Data) (mode : Mode) (s : S) (l : List (Checks.MapperArg Ref)) (hseq : ∀ m ∈ l, ∃ items, m = .seq items)
    (h : ∀ (k : ℕ) m, l[k]? = some m → ∃ e, Stores D k m e) :
    Sorted (assign D mode s (some l)).1 ∧ (∀ i : ℤ, i < 0 ∨ l.length ≤ i → table (assign D mode s (some l)).1 i = none) ∧
    ∀ (k : ℕ) f t r, l[k]? = some (.seq (f :: t :: r)) →
      ∃ a b, Side D f a ∧ Side D t b ∧ table (assign D mode s (some l)).1 k = some (a, b) := by
  obtain ⟨-, es, hes, hlen, hst⟩ := (C103_assign D mode s l).1 h
  have hidx : ∀ (k : ℕ) e, es[k]? = some e → e.index = k := by
    intro k e he
    have hlt : k < l.length := by rw [← hlen]; exact (List.getElem?_eq_some_iff.1 he).1
    obtain ⟨e', he', hs⟩ := hst k _ (List.getElem?_eq_getElem hlt)
    rw [he, Option.some.injEq] at he'
    subst he'
    obtain ⟨items, hit⟩ := hseq l[k] (List.getElem_mem hlt)
    rw [hit] at hs
    cases hs
    rfl
  have hsorted : Sorted (some es) := by
    unfold Sorted
    simp only [Option.getD_some]
    rw [List.pairwise_iff_getElem]
    intro i j hi hj hij
    rw [hidx i _ (List.getElem?_eq_getElem hi), hidx j _ (List.getElem?_eq_getElem hj)]
    omega
  rw [hes]
  refine ⟨hsorted, ?_, ?_⟩
  · intro i hi
    unfold table
    simp only [Option.getD_some, Option.map_eq_none_iff, List.find?_eq_none, beq_iff_eq]
    intro e he
    obtain ⟨k, hk⟩ := List.getElem?_of_mem he
    have h1 := hidx k e hk
    have h2 : k < es.length := (List.getElem?_eq_some_iff.1 hk).1
    omega
  · intro k f t r hk
    obtain ⟨e, he, hs⟩ := hst k _ hk
    cases hs with
    | seq hf ht => exact ⟨_, _, hf, ht, table_of_mem hsorted (List.mem_of_getElem? he)⟩

/-- C103: mappings that were assigned as pairs can be set anew, one by one, in any form but as models. -/
theorem C103_reset (D : Data) (mode : Mode) (s : S) (l : List (Checks.MapperArg Ref)) (hseq : ∀ m ∈ l, ∃ items, m = .seq items)
    (h : ∀ (k : ℕ) m, l[k]? = some m → ∃ e, Stores D k m e) {f t : Ref} {a b : Option Id} (hf : Means D f a) (ht : Means D t b) (hf' : f.noModel)
    (ht' : t.noModel) (i : ℤ) :
    table (setRef D (assign D mode s (some l)).1 f t i).1 = Function.update (table (assign D mode s (some l)).1) i (some (a, b)) := by
  rw [C103_set_partial hf ht hf' ht']
  exact (C41_set _ (C103_pairs D mode s l hseq h).1 a b i).1

/-- C103: `None` empties the list. -/
theorem C103_none (D : Data) (mode : Mode) (s : S) : assign D mode s none = (none, none) := rfl

/-- C103: with less than strict validation nothing but a `DataFormatError` is raised. -/
theorem C103_quiet (D : Data) (s : S) (l : List (Checks.MapperArg Ref))
    (h : ∀ (k : ℕ) m, l[k]? = some m → ∃ e, Stores D k m e) : (assign D .minimum s (some l)).2 = none := by
  cases hc : checkList D (Checks.normalizeMappers truthy l) with
  | error x =>
    have h1 := ((C103_assign D .minimum s l).1 h).1
    simp only [assign, hc, (checkList_error hc).1] at h1
    exact absurd rfl h1
  | ok es =>
    have hk : Checks.skip .minimum (some Mode.minimum.val) = true := rfl
    simp only [assign, hc, Checks.mappersValid, hk, if_true]

/-! ### Cases, and where the claim fails -/

/-- A few modules, entities and items. -/
def exData : Data where
  modules n := decide (n = "speed-module")
  tables := {
    ent := fun n => if n ∈ ["transport-belt", "fast-transport-belt"] then some ⟨[], some (.result n), none, some 1, some 1, some 1⟩ else none
    item := fun n => if n ∈ ["transport-belt", "fast-transport-belt", "iron-plate", "copper-plate"] then some ⟨[], none⟩ else none }

example : Means exData (.name "transport-belt") (some ⟨"transport-belt", "entity"⟩) ∧ Means exData (.name "speed-module") (some ⟨"speed-module", "item"⟩) ∧
    Unknown exData (.name "iron-plate") ∧
    setRef exData none (.name "transport-belt") (.dict ⟨"fast-transport-belt", "entity"⟩) 3 =
      (some [⟨3, some ⟨"transport-belt", "entity"⟩, some ⟨"fast-transport-belt", "entity"⟩, true⟩], none) ∧
    removeRef exData (some [⟨3, some ⟨"transport-belt", "entity"⟩, some ⟨"fast-transport-belt", "entity"⟩, true⟩]) (.dict ⟨"transport-belt", "entity"⟩)
      (.name "fast-transport-belt") (some 3) = (some [], none) ∧
    setRef exData none (.name "speed-module") (.name "iron-plate") 3 = (none, some .draftsmanError) ∧
    setRef exData none .blank (.model ⟨"speed-module", "item"⟩) 3 = (none, some .typeError) :=
  ⟨.entity rfl rfl, .item rfl, ⟨_, rfl, rfl, rfl⟩, by decide +kernel, by decide +kernel, by decide +kernel, by decide +kernel⟩

example : Stores exData 0 (.seq [.name "transport-belt", .name ""]) ⟨0, some ⟨"transport-belt", "entity"⟩, none, false⟩ ∧
    assign exData .strict none (some [.seq [.name "transport-belt", .name ""], .dict 4 (some (.model ⟨"speed-module", "item"⟩)) none]) =
      (some [⟨0, some ⟨"transport-belt", "entity"⟩, none, false⟩, ⟨4, some ⟨"speed-module", "item"⟩, none, false⟩], none) ∧
    assign exData .strict none (some [.seq [.name "transport-belt", .name "fast-transport-belt"], .seq [.name "speed-module"]]) = (none, some .dataFormat) ∧
    assign exData .strict none (some [.dict (-1) none none]) = (none, some .dataFormat) ∧
    assign exData .strict none (some [.dict 0 (some (.dict ⟨"transport-belt", "tile"⟩)) none]) = (none, some .dataFormat) :=
  ⟨.seq (.inr ⟨by decide, .entity rfl rfl⟩) (.inl ⟨rfl, rfl⟩) (fun d hd => by cases hd; exact .inl rfl) (fun d hd => by cases hd) (by decide),
    by decide +kernel, by decide +kernel, by decide +kernel, by decide +kernel⟩

example : Sorted (none : S) ∧ Plain (none : S) := ⟨.nil, fun e h => by simp at h⟩

/-- C103: `set_mapping` says it takes a `MapperID`, and raises a `TypeError` for one. -/
theorem C103_model_refuted : ¬ ∀ (D : Data) (s : S) (f t : Ref) (a b : Option Id) (i : ℤ), Means D f a → Means D t b →
    setRef D s f t i = (setMapping s a b i, none) := by
  intro h
  have := h exData none (.model ⟨"transport-belt", "entity"⟩) .blank _ none 0 (.model _) .blank
  revert this
  decide +kernel

/-- C103: a mapping that was assigned cannot be removed by `remove_mapping`: `mappers = [("transport-belt", "fast-transport-belt")]` and then
`remove_mapping("transport-belt", "fast-transport-belt")` is a `ValueError`. -/
theorem C103_removed_refuted : ¬ ∀ (D : Data) (mode : Mode) (f t : Ref) (a b : Option Id), Means D f a → Means D t b → f.noModel → t.noModel →
    (assign D mode none (some [.seq [f, t]])).2 = none → (removeRef D (assign D mode none (some [.seq [f, t]])).1 f t none).2 = none := by
  intro h
  have := h exData .strict (.name "transport-belt") (.name "fast-transport-belt") _ _ (.entity rfl rfl) (.entity rfl rfl) trivial trivial (by decide +kernel)
  revert this
  decide +kernel

/-- C103: an assignment that raises can change the planner: a mapping of the entity `iron-plate`, which is an item, raises a `KeyError` in the check, and the
mappers are stored already. -/
theorem C103_unchanged_refuted : ¬ ∀ (D : Data) (mode : Mode) (s : S) (l : List (Checks.MapperArg Ref)), (assign D mode s (some l)).2 ≠ none →
    (assign D mode s (some l)).1 = s := by
  intro h
  have := h exData .strict none [.dict 0 (some (.dict ⟨"iron-plate", "entity"⟩)) (some (.dict ⟨"copper-plate", "entity"⟩))] (by decide +kernel)
  revert this
  decide +kernel

end Mappers
end Draftsman
