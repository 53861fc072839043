import Verif.Model.DeciderList
import Verif.Props.Decider
import Mathlib.Data.List.Forall2
/-
C105: conditions and outputs of decider combinators, stored, extended, copied and exported.
-/
namespace Draftsman
namespace Decider

open Wait (Heap get setCmp)

variable {R : Type}

/-- The dictionaries of a list that holds nothing else. -/
def Raws (l : List (Item R)) (ds : List R) : Prop := l = ds.map .raw

/-- C105: with validation a list can be assigned and nothing else; without it anything can. -/
theorem C105_stored (old v : Val R) :
    (∀ l, v = .list l → ∀ b, store b old v = (v, Option.none)) ∧
    ((∀ l, v ≠ .list l) → store true old v = (old, some .dataFormat)) ∧ store false old v = (v, Option.none) := by
  refine ⟨?_, fun h => ?_, rfl⟩
  · rintro l rfl b
    cases b <;> rfl
  · cases v with
    | list l => exact absurd rfl (h l)
    | one r => rfl
    | none => rfl

example : store true (.list [.raw "a"]) (.one 3) = (.list [.raw "a"], some .dataFormat) := rfl

/-- C105: a condition can be added to any list with `|=` and `&=`: it comes last, is compared in this way, and nothing else changes. -/
theorem C105_added (validating isAnd : Bool) (h : Heap) (l : List (Item R)) (r : Nat) (hr : r < h.length) :
    ∃ h', extend validating isAnd h (.list l) (.one r) = (h', .list (l ++ [.obj r]), Option.none) ∧
      get h' r = ⟨(get h r).what, isAnd⟩ ∧ ∀ s, s ≠ r → get h' s = get h s := by
  refine ⟨setCmp h r isAnd, by cases validating <;> rfl, ?_, fun s hs => ?_⟩
  · simp [Wait.get, setCmp, List.getD_eq_getElem?_getD, List.getElem?_eq_getElem hr]
  · simp only [Wait.get, setCmp, List.getD_eq_getElem?_getD, List.getElem?_modify, if_neg (Ne.symm hs)]
    cases h[s]? <;> rfl

example : extend (R := String) true true [⟨7, false⟩, ⟨8, false⟩] (.list [.raw "a", .obj 0]) (.one 1) =
    ([⟨7, false⟩, ⟨8, true⟩], .list [.raw "a", .obj 0, .obj 1], none) := by decide

/-- C105: a failing `|=` or `&=` leaves the combinator and all conditions as they were, and fails with anything that is no single condition. -/
theorem C105_failed (validating isAnd : Bool) (h : Heap) (l : List (Item R)) (v : Val R) :
    ((∀ r, v ≠ .one r) → extend validating isAnd h (.list l) v = (h, .list l, some .typeError)) ∧
    ∀ e, (extend validating isAnd h (.list l) v).2.2 = some e → (extend validating isAnd h (.list l) v) = (h, .list l, some e) := by
  have key : (∀ r, v ≠ .one r) → extend validating isAnd h (.list l) v = (h, .list l, some .typeError) := by
    intro hv
    cases v with
    | one r => exact absurd rfl (hv r)
    | none => rfl
    | list m => rfl
  refine ⟨key, fun e he => ?_⟩
  cases v with
  | one r => cases validating <;> cases he
  | none => rw [key (by nofun)] at he ⊢; cases he; rfl
  | list m => rw [key (by nofun)] at he ⊢; cases he; rfl

example : (extend (R := String) true false [] (.list [.raw "a"]) (.list [.raw "b"])).2.2 = some .typeError := rfl

theorem allRaw_iff (l : List (Item R)) (ds : List R) : allRaw l = some ds ↔ Raws l ds := by
  unfold Raws
  induction l generalizing ds with
  | nil =>
    rw [allRaw]
    cases ds <;> simp
  | cons x l ih =>
    cases x with
    | obj r =>
      rw [allRaw]
      refine ⟨nofun, fun h => ?_⟩
      cases ds <;> cases h
    | raw d =>
      rw [allRaw]
      constructor
      · intro h
        obtain ⟨ds', h1, rfl⟩ := Option.map_eq_some_iff.1 h
        rw [(ih ds').1 h1]
        rfl
      · intro h
        cases ds with
        | nil => cases h
        | cons e ds =>
          simp only [List.map_cons, List.cons.injEq, Item.raw.injEq] at h
          rw [(ih ds).2 h.2, h.1]
          rfl

theorem allRaw_none (l : List (Item R)) : allRaw l = Option.none ↔ ∃ r, .obj r ∈ l := by
  induction l with
  | nil => simp [allRaw]
  | cons x l ih =>
    cases x with
    | obj r => simp [allRaw]
    | raw d => simp [allRaw, ih]

/-- C105: conditions and outputs that were given as dictionaries, or read from a blueprint string, are exported as they were given; the key is left out if
there are none.  Missing: those made with the operators, see `C105_made`. -/
theorem C105_dictionaries_partial (l : List (Item R)) (ds : List R) (h : Raws l ds) :
    written (.list l) = .ok (if ds = [] then Option.none else some ds) := by
  cases ds with
  | nil => obtain rfl : l = [] := h; rfl
  | cons d ds =>
    have hl : allRaw l = some (d :: ds) := (allRaw_iff l _).2 h
    cases l with
    | nil => cases h
    | cons x l =>
      rw [if_neg (by simp)]
      simp only [written, exported, hl]

example : written (.list [.raw "a", .raw "b"]) = .ok (some ["a", "b"]) := rfl

/-- C105: a list with a single condition or output made otherwise cannot be written into a blueprint string: `TypeError`. -/
theorem C105_made (l : List (Item R)) (r : Nat) (h : .obj r ∈ l) : written (.list l) = .error .typeError := by
  have hl : allRaw l = Option.none := (allRaw_none l).2 ⟨r, h⟩
  cases l with
  | nil => cases h
  | cons x l => simp only [written, exported, hl]

/-- Refuted: the conditions of a decider combinator can be exported.  Those made with the operators, as the documentation says they are to be, cannot:
their type is not known to the model of the control behavior, so that the objects themselves are put into the exported dictionary, and writing it as JSON
is a `TypeError`. -/
theorem C105_made_refuted : ¬ ∀ (h : Heap) (a b : Nat), a < h.length → b < h.length → ∀ h' l, opVal (R := String) true h (.one a) (.one b) = (h', .ok l) →
    ∃ ds, written (.list l) = .ok ds := by
  intro H
  obtain ⟨ds, hd⟩ := H [⟨7, false⟩, ⟨8, false⟩] 0 1 (by decide) (by decide) _ _ rfl
  rw [C105_made _ 0 (by simp)] at hd
  cases hd

/-- Refuted: what a comparison gives can be assigned.  One comparison alone is no list, and is refused with a `DataFormatError`. -/
theorem C105_single_refuted : ¬ ∀ (old : Val String) (r : Nat), (store true old (.one r)).2 = Option.none := fun h => by
  have := h .none 0
  cases this

/-- C105: a condition put before a list with `|` or `&` fails if the list is empty or begins with a dictionary, as the lists of combinators read from strings
do, and does the right thing otherwise. -/
theorem C105_before (isAnd : Bool) (h : Heap) (r : Nat) (l : List (Item R)) :
    (l = [] → opVal isAnd h (.one r) (.list l) = (h, .error .indexError)) ∧
    (∀ d m, l = .raw d :: m → opVal isAnd h (.one r) (.list l) = (h, .error .attributeError)) ∧
    ∀ s m, l = .obj s :: m → opVal isAnd h (.one r) (.list l) = (setCmp h s isAnd, .ok (.obj r :: l)) := by
  refine ⟨?_, ?_, ?_⟩
  · rintro rfl; rfl
  · rintro d m rfl; rfl
  · rintro s m rfl; rfl

/-- Refuted: a condition can be put before those of a combinator that was read from a blueprint string: `AttributeError`. -/
theorem C105_before_refuted : ¬ ∀ (h : Heap) (r : Nat) (ds : List String), ds ≠ [] → ∃ l, (opVal false h (.one r) (.list (ds.map .raw))).2 = .ok l := by
  intro H
  obtain ⟨l, hl⟩ := H [] 0 ["a"] (by decide)
  rw [show (opVal false [] (.one 0) (.list (["a"].map .raw))) = ([], .error .attributeError) from rfl] at hl
  cases hl

/-! ### Copies -/

/-- `y` in the heap `h'` is a copy of `x` in `h`: the same dictionary, or another object with the same content. -/
def CopyOf (h h' : Heap) : Item R → Item R → Prop
  | .raw d, .raw e => d = e
  | .obj r, .obj s => h.length ≤ s ∧ s < h'.length ∧ get h' s = get h r
  | _, _ => False

theorem get_append (h t : Heap) {r : Nat} (hr : r < h.length) : get (h ++ t) r = get h r := by
  simp [Wait.get, List.getD_eq_getElem?_getD, List.getElem?_append_left hr]

theorem copy_spec (h0 : Heap) : ∀ (l : List (Item R)) (h : Heap) (memo : List (Nat × Nat)), h0 <+: h →
    (∀ r s, memo.lookup r = some s → h0.length ≤ s ∧ s < h.length ∧ get h s = get h0 r) → (∀ r, .obj r ∈ l → r < h0.length) →
    h <+: (copyItems h memo l).1 ∧ List.Forall₂ (CopyOf h0 (copyItems h memo l).1) l (copyItems h memo l).2
  | [], h, _, _, _, _ => ⟨List.prefix_refl _, .nil⟩
  | .raw d :: l, h, memo, hp, hm, hl => by
    obtain ⟨h1, h2⟩ := copy_spec h0 l h memo hp hm (fun r hr => hl r (by simp [hr]))
    exact ⟨h1, .cons rfl h2⟩
  | .obj r :: l, h, memo, hp, hm, hl => by
    have lift : ∀ {h h' : Heap} {s : Nat}, h <+: h' → s < h.length → s < h'.length ∧ get h' s = get h s := by
      rintro h _ s ⟨t, rfl⟩ hs
      exact ⟨by rw [List.length_append]; omega, get_append h t hs⟩
    rw [copyItems]
    cases hk : memo.lookup r with
    | some s =>
      simp only
      obtain ⟨h1, h2⟩ := copy_spec h0 l h memo hp hm (fun r hr => hl r (by simp [hr]))
      obtain ⟨k1, k2, k3⟩ := hm r s hk
      obtain ⟨k4, k5⟩ := lift h1 k2
      exact ⟨h1, .cons ⟨k1, k4, k5.trans k3⟩ h2⟩
    | none =>
      simp only
      have hr := hl r (by simp)
      have hnew : get (h ++ [get h r]) h.length = get h0 r := by
        rw [show get (h ++ [get h r]) h.length = get h r by simp [Wait.get, List.getD_eq_getElem?_getD]]
        exact (lift hp hr).2
      have hle := hp.length_le
      obtain ⟨h1, h2⟩ := copy_spec h0 l (h ++ [get h r]) ((r, h.length) :: memo) (hp.trans (List.prefix_append _ _)) (fun r' s hs => by
        rw [List.lookup_cons] at hs
        by_cases he : r' = r
        · subst he
          rw [beq_self_eq_true] at hs
          obtain rfl := Option.some.inj hs
          exact ⟨hle, by simp, hnew⟩
        · rw [beq_false_of_ne he] at hs
          obtain ⟨k1, k2, k3⟩ := hm r' s hs
          exact ⟨k1, by rw [List.length_append]; omega, (get_append h _ k2).trans k3⟩) (fun r hr => hl r (by simp [hr]))
      obtain ⟨k4, k5⟩ := lift h1 (s := h.length) (by simp)
      exact ⟨(List.prefix_append _ _).trans h1, .cons ⟨hle, k4, k5.trans hnew⟩ h2⟩

/-- C105: copying a combinator, which adding it to a blueprint does, copies its conditions and outputs: they have the same content, are other objects,
and changing the ones leaves the others as they are. -/
theorem C105_copy (h : Heap) (l : List (Item R)) (hl : ∀ r, .obj r ∈ l → r < h.length) :
    List.Forall₂ (CopyOf h (copyItems h [] l).1) l (copyItems h [] l).2 ∧ (∀ r, r < h.length → get (copyItems h [] l).1 r = get h r) ∧
      ∀ s, .obj s ∈ (copyItems h [] l).2 → .obj s ∉ l := by
  obtain ⟨h1, h2⟩ := copy_spec h l h [] (List.prefix_refl _) (by nofun) hl
  refine ⟨h2, fun r hr => ?_, fun s hs hs' => ?_⟩
  · obtain ⟨t, ht⟩ := h1
    rw [← ht, get_append h t hr]
  · obtain ⟨x, hx⟩ : ∃ x, CopyOf h (copyItems h [] l).1 x (.obj s) := by
      obtain ⟨i, hi, he⟩ := List.getElem_of_mem hs
      have hi' : i < l.length := by rw [h2.length_eq]; exact hi
      have k := (List.forall₂_iff_get.1 h2).2 i hi' hi
      rw [List.get_eq_getElem, List.get_eq_getElem, he] at k
      exact ⟨_, k⟩
    have := hl s hs'
    cases x with
    | raw d => exact hx
    | obj r => exact absurd hx.1 (by omega)

/-- The element with its identity replaced. -/
def rename (f : Nat → Nat) : Item R → Item R
  | .raw d => .raw d
  | .obj r => .obj (f r)

theorem copy_rename : ∀ (l : List (Item R)) (h : Heap) (memo : List (Nat × Nat)), (∀ r s, memo.lookup r = some s → s < h.length) →
    (∀ r r' s, memo.lookup r = some s → memo.lookup r' = some s → r = r') →
    ∃ f, (∀ r s, memo.lookup r = some s → f r = s) ∧ (copyItems h memo l).2 = l.map (rename f) ∧
      ∀ a b, (.obj a ∈ l ∨ (memo.lookup a).isSome) → (.obj b ∈ l ∨ (memo.lookup b).isSome) → f a = f b → a = b
  | [], h, memo, hm, hi => by
    refine ⟨fun r => (memo.lookup r).getD 0, fun r s hr => by simp [hr], rfl, fun a b ha hb hab => ?_⟩
    obtain ⟨s, hs⟩ := Option.isSome_iff_exists.1 (ha.resolve_left (by simp))
    obtain ⟨t, ht⟩ := Option.isSome_iff_exists.1 (hb.resolve_left (by simp))
    simp only [hs, ht, Option.getD_some] at hab
    subst hab
    exact hi a b s hs ht
  | .raw d :: l, h, memo, hm, hi => by
    obtain ⟨f, h1, h2, h3⟩ := copy_rename l h memo hm hi
    exact ⟨f, h1, congrArg (Item.raw d :: ·) h2, fun a b ha hb => h3 a b (by simpa using ha) (by simpa using hb)⟩
  | .obj r :: l, h, memo, hm, hi => by
    rw [copyItems]
    cases hk : memo.lookup r with
    | some s =>
      simp only
      obtain ⟨f, h1, h2, h3⟩ := copy_rename l h memo hm hi
      have aux : ∀ a, (.obj a ∈ Item.obj r :: l ∨ (memo.lookup a).isSome) → (.obj a ∈ l ∨ (memo.lookup a).isSome) := by
        rintro a (ha | ha)
        · rcases List.mem_cons.1 ha with h' | h'
          · cases h'; exact .inr (by rw [hk]; rfl)
          · exact .inl h'
        · exact .inr ha
      exact ⟨f, h1, by rw [h2, List.map_cons, rename, h1 r s hk], fun a b ha hb => h3 a b (aux a ha) (aux b hb)⟩
    | none =>
      simp only
      have key : ∀ r', ((r, h.length) :: memo).lookup r' = if r' = r then some h.length else memo.lookup r' := by
        intro r'
        rw [List.lookup_cons]
        by_cases he : r' = r
        · rw [if_pos he, he, beq_self_eq_true]
        · rw [if_neg he, beq_false_of_ne he]
      obtain ⟨f, h1, h2, h3⟩ := copy_rename l (h ++ [get h r]) ((r, h.length) :: memo) (fun r' s hs => by
        rw [key] at hs
        rw [List.length_append]
        split at hs
        · cases hs; simp
        · have := hm r' s hs; omega) (fun a b s ha hb => by
        rw [key] at ha hb
        split at ha <;> split at hb
        · simp_all
        · cases ha; exact absurd (hm b _ hb) (by omega)
        · cases hb; exact absurd (hm a _ ha) (by omega)
        · exact hi a b s ha hb)
      have aux : ∀ a, (.obj a ∈ Item.obj r :: l ∨ (memo.lookup a).isSome) → (.obj a ∈ l ∨ (((r, h.length) :: memo).lookup a).isSome) := by
        intro a ha
        rw [key]
        by_cases he : a = r
        · exact .inr (by rw [if_pos he]; rfl)
        · rw [if_neg he]
          exact ha.imp_left fun h' => by
            rcases List.mem_cons.1 h' with h' | h'
            · cases h'; exact absurd rfl he
            · exact h'
      refine ⟨f, fun r' s hs => h1 r' s ?_, ?_, fun a b ha hb => h3 a b (aux a ha) (aux b hb)⟩
      · rw [key, if_neg (by rintro rfl; rw [hk] at hs; cases hs), hs]
      · rw [h2, List.map_cons, rename, h1 r h.length (by rw [key, if_pos rfl])]

/-- C105: an object that occurs at several places of the list is one object in the copy too, and different ones stay different. -/
theorem C105_copy_shared (h : Heap) (l : List (Item R)) :
    ∃ f, (copyItems h [] l).2 = l.map (rename f) ∧ ∀ a b, .obj a ∈ l → .obj b ∈ l → f a = f b → a = b := by
  obtain ⟨f, -, h2, h3⟩ := copy_rename l h [] (by nofun) (by nofun)
  exact ⟨f, h2, fun a b ha hb => h3 a b (.inl ha) (.inl hb)⟩

/-- C105: the copy equals the original, compared as Python compares lists, just if there are no conditions or outputs but dictionaries in it. -/
theorem C105_copy_equal (h : Heap) (l : List (Item R)) (hl : ∀ r, .obj r ∈ l → r < h.length) :
    (copyItems h [] l).2 = l ↔ ∃ ds, Raws l ds := by
  constructor
  · intro he
    cases ha : allRaw l with
    | some ds => exact ⟨ds, (allRaw_iff l ds).1 ha⟩
    | none =>
      obtain ⟨r, hr⟩ := (allRaw_none l).1 ha
      exact absurd hr ((C105_copy h l hl).2.2 r (by rw [he]; exact hr))
  · rintro ⟨ds, rfl⟩
    have : ∀ (ds : List R) h, (copyItems h [] (ds.map Item.raw)).2 = ds.map .raw := by
      intro ds
      induction ds with
      | nil => intro h; rfl
      | cons d ds ih => intro h; exact congrArg (Item.raw d :: ·) (ih h)
    exact this ds h

example : copyItems (R := String) [⟨7, false⟩] [] [.raw "a", .obj 0, .obj 0] = ([⟨7, false⟩, ⟨7, false⟩], [.raw "a", .obj 1, .obj 1]) := by decide

/-- Refuted: a copy of a combinator equals it.  Conditions made with the operators are only equal to themselves, so that a combinator with such conditions
does not equal its copy in a blueprint. -/
theorem C105_equal_refuted : ¬ ∀ (h : Heap) (l : List (Item String)), (∀ r, .obj r ∈ l → r < h.length) → (copyItems h [] l).2 = l := by
  intro H
  have := H [⟨7, false⟩] [.obj 0] (by simp)
  revert this
  decide

end Decider
end Draftsman
