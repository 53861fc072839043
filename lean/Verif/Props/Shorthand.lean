import Verif.Model.Shorthand
import Mathlib.Algebra.Order.Ring.Int
import Mathlib.Data.List.Basic

namespace Draftsman
namespace Shorthand

/-! ## C53: lists in shorthand -/

/-- `r` is `l` with the `k`-th entry (counted from 0) replaced according to `f`, and everything to which `f` has nothing to say kept. -/
structure Expanded (f : ℕ → Val → Val → Prop) (short : Val → Prop) (l r : List Val) : Prop where
  length : r.length = l.length
  numbered : ∀ (k : ℕ) (v : Val), l[k]? = some v → short v → ∃ w : Val, r[k]? = some w ∧ f (k + 1) v w
  kept : ∀ (k : ℕ) (v : Val), l[k]? = some v → ¬ short v → r[k]? = some v

/-- A plain name. -/
def IsName (v : Val) : Prop := ∃ s, v = .str s

/-- The full entry number `k` for a plain name. -/
def NameEntry (k : ℕ) (v w : Val) : Prop :=
  ∃ s d, v = .str s ∧ w = .dict d ∧ d.length = 2 ∧ Dict.get? d "index" = some (.int k) ∧ Dict.get? d "name" = some (.str s)

/-- The full icon number `k` for a plain name. -/
def IconEntry (k : ℕ) (v w : Val) : Prop :=
  ∃ s d, v = .str s ∧ w = .dict d ∧ d.length = 2 ∧ Dict.get? d "index" = some (.int k) ∧ Dict.get? d "signal" = some (.str s)

theorem names_from (l : List Val) (p : ℕ) : (expandNamesFrom p l).length = l.length ∧
    ∀ (k : ℕ) (v : Val), l[k]? = some v → (expandNamesFrom p l)[k]? = some (expandName (p + k) v) := by
  induction l generalizing p with
  | nil => simp [expandNamesFrom]
  | cons a l ih =>
    refine ⟨by simp [expandNamesFrom, (ih (p + 1)).1], ?_⟩
    intro k v h
    cases k with
    | zero => simp only [List.getElem?_cons_zero, Option.some.injEq] at h; subst h; simp [expandNamesFrom]
    | succ k =>
      simp only [List.getElem?_cons_succ] at h
      simp only [expandNamesFrom, List.getElem?_cons_succ]
      rw [(ih (p + 1)).2 k v h]
      congr 2; omega

theorem icons_from (l : List Val) (p : ℕ) : (expandIconsFrom p l).length = l.length ∧
    ∀ (k : ℕ) (v : Val), l[k]? = some v → (expandIconsFrom p l)[k]? = some (expandIcon (p + k) v) := by
  induction l generalizing p with
  | nil => simp [expandIconsFrom]
  | cons a l ih =>
    refine ⟨by simp [expandIconsFrom, (ih (p + 1)).1], ?_⟩
    intro k v h
    cases k with
    | zero => simp only [List.getElem?_cons_zero, Option.some.injEq] at h; subst h; simp [expandIconsFrom]
    | succ k =>
      simp only [List.getElem?_cons_succ] at h
      simp only [expandIconsFrom, List.getElem?_cons_succ]
      rw [(ih (p + 1)).2 k v h]
      congr 2; omega

theorem expandName_kept (i : ℕ) (v : Val) (h : ¬ IsName v) : expandName i v = v := by
  cases v <;> first | rfl | exact absurd ⟨_, rfl⟩ h

theorem expandIcon_kept (i : ℕ) (v : Val) (h : ¬ IsName v) : expandIcon i v = v := by
  cases v <;> first | rfl | exact absurd ⟨_, rfl⟩ h

theorem names_again (l : List Val) (p q : ℕ) : expandNamesFrom q (expandNamesFrom p l) = expandNamesFrom p l := by
  induction l generalizing p q with
  | nil => rfl
  | cons a l ih =>
    simp only [expandNamesFrom, ih]
    cases a <;> rfl

theorem icons_again (l : List Val) (p q : ℕ) : expandIconsFrom q (expandIconsFrom p l) = expandIconsFrom p l := by
  induction l generalizing p q with
  | nil => rfl
  | cons a l ih =>
    simp only [expandIconsFrom, ih]
    cases a <;> rfl

theorem names_expanded (l : List Val) : Expanded NameEntry IsName l (expandNamesFrom 0 l) := by
  refine ⟨(names_from l 0).1, ?_, ?_⟩
  · rintro k v h ⟨s, rfl⟩
    exact ⟨_, (names_from l 0).2 k _ h, s, _, rfl, rfl, rfl, by simp [Dict.get?], by simp [Dict.get?]⟩
  · intro k v h hv
    rw [(names_from l 0).2 k _ h, expandName_kept _ _ hv]

/-- Filters of inserters, wagons, deconstruction planners and asteroid collectors: a list or tuple is expanded to a list in which the k-th plain name has number k, everything else
is as it was, and expanding once more changes nothing. -/
theorem C53_filters (l : List Val) : ∃ r, expandNames (.list l) = .list r ∧ expandNames (.tuple l) = .list r ∧ Expanded NameEntry IsName l r ∧
    expandNames (.list r) = .list r :=
  ⟨_, rfl, rfl, names_expanded l, by rw [expandNames, names_again]⟩

/-- Turret priorities, given as a list or tuple. -/
theorem C53_priorities_partial (l : List Val) : ∃ r, expandPriorities (.list l) = .list r ∧ expandPriorities (.tuple l) = .list r ∧ Expanded NameEntry IsName l r ∧
    expandPriorities (.list r) = .list r :=
  ⟨_, rfl, rfl, names_expanded l, by rw [expandPriorities, names_again]⟩

/-- Icons of a blueprint. -/
theorem C53_blueprint_icons (l : List Val) : ∃ r, expandIcons (.list l) = .list r ∧ expandIcons (.tuple l) = .list r ∧ Expanded IconEntry IsName l r ∧
    expandIcons (.list r) = .list r := by
  refine ⟨_, rfl, rfl, ⟨(icons_from l 0).1, ?_, ?_⟩, by rw [expandIcons, icons_again]⟩
  · rintro k v h ⟨s, rfl⟩
    exact ⟨_, (icons_from l 0).2 k _ h, s, _, rfl, rfl, rfl, by simp [Dict.get?], by simp [Dict.get?]⟩
  · intro k v h hv
    rw [(icons_from l 0).2 k _ h, expandIcon_kept _ _ hv]

/-- A plain name or a signal with its type. -/
def IsSignal (v : Val) : Prop := IsName v ∨ ∃ d t, v = .dict d ∧ Dict.get? d "type" = some t

/-- The full icon number `k` for a plain name or signal: the name gets a type from the table, `"item"` if it can be an item. -/
def SignalEntry (types : Types) (k : ℕ) (v w : Val) : Prop :=
  ∃ d g, w = .dict d ∧ d.length = 2 ∧ Dict.get? d "index" = some (.int k) ∧ Dict.get? d "signal" = some g ∧
    ((∀ s, v = .str s → ∃ ts t e, types s = some ts ∧ t ∈ ts ∧ ("item" ∈ ts → t = "item") ∧ g = .dict e ∧ e.length = 2 ∧
      Dict.get? e "name" = some (.str s) ∧ Dict.get? e "type" = some (.str t)) ∧ ((¬ IsName v) → g = v))

/-- Every plain name is known, with at least one type. -/
def Known (types : Types) (l : List Val) : Prop := ∀ s, .str s ∈ l → ∃ ts, types s = some ts ∧ ts ≠ []

theorem chooseType_spec (ts : List String) (h : ts ≠ []) : ∃ t, chooseType ts = .ok t ∧ t ∈ ts ∧ ("item" ∈ ts → t = "item") := by
  unfold chooseType
  by_cases hi : "item" ∈ ts
  · exact ⟨"item", by rw [if_pos hi], hi, fun _ => rfl⟩
  · cases ts with
    | nil => exact absurd rfl h
    | cons t ts => exact ⟨t, by rw [if_neg hi], List.mem_cons_self, fun h => absurd h hi⟩

theorem normalizeIcon_spec (types : Types) (i : ℕ) (v : Val) (h : ∀ s, v = .str s → ∃ ts, types s = some ts ∧ ts ≠ []) :
    ∃ w, normalizeIcon types i v = .ok w ∧ (IsSignal v → SignalEntry types (i + 1) v w) ∧ (¬ IsSignal v → w = v) ∧ ∀ j, normalizeIcon types j w = .ok w := by
  cases v with
  | str s =>
    obtain ⟨ts, hts, hne⟩ := h s rfl
    obtain ⟨t, ht, hm, hi⟩ := chooseType_spec ts hne
    refine ⟨.dict [("index", .int (i + 1)), ("signal", .dict [("name", .str s), ("type", .str t)])],
      by simp only [normalizeIcon, signalDict, hts, ht, Except.map], ?_, ?_, ?_⟩
    · intro _
      refine ⟨_, _, rfl, rfl, by simp [Dict.get?], by simp only [Dict.get?]; rfl, ?_, fun hn => absurd ⟨s, rfl⟩ hn⟩
      intro s' hs'
      injection hs' with hs'
      subst hs'
      exact ⟨ts, t, _, hts, hm, hi, rfl, rfl, by simp [Dict.get?], by simp [Dict.get?]⟩
    · intro hn; exact absurd (.inl ⟨s, rfl⟩) hn
    · intro j; simp [normalizeIcon, Dict.get?]
  | dict d =>
    cases hd : Dict.get? d "type" with
    | none =>
      refine ⟨.dict d, by simp [normalizeIcon, hd], ?_, fun _ => rfl, fun j => by simp [normalizeIcon, hd]⟩
      rintro (⟨s, hs⟩ | ⟨d', t, hs, ht⟩)
      · cases hs
      · cases hs; rw [hd] at ht; simp at ht
    | some t =>
      refine ⟨.dict [("index", .int (i + 1)), ("signal", .dict d)], by simp only [normalizeIcon, hd, Option.isSome_some, if_true], ?_, ?_, ?_⟩
      · intro _
        refine ⟨_, _, rfl, rfl, by simp [Dict.get?], by simp only [Dict.get?]; rfl, ?_, fun _ => rfl⟩
        intro s hs; cases hs
      · intro hn; exact absurd (.inr ⟨d, t, rfl, hd⟩) hn
      · intro j; simp [normalizeIcon, Dict.get?]
  | none => exact ⟨_, rfl, (by rintro (⟨s, hs⟩ | ⟨d, t, hs, -⟩) <;> cases hs), fun _ => rfl, fun _ => rfl⟩
  | int n => exact ⟨_, rfl, (by rintro (⟨s, hs⟩ | ⟨d, t, hs, -⟩) <;> cases hs), fun _ => rfl, fun _ => rfl⟩
  | tuple l => exact ⟨_, rfl, (by rintro (⟨s, hs⟩ | ⟨d, t, hs, -⟩) <;> cases hs), fun _ => rfl, fun _ => rfl⟩
  | list l => exact ⟨_, rfl, (by rintro (⟨s, hs⟩ | ⟨d, t, hs, -⟩) <;> cases hs), fun _ => rfl, fun _ => rfl⟩

theorem normalizeIconsFrom_spec (types : Types) (p : ℕ) (l : List Val) (h : Known types l) :
    ∃ r, normalizeIconsFrom types p l = .ok r ∧ r.length = l.length ∧
      (∀ (k : ℕ) (v : Val), l[k]? = some v → ∃ w, r[k]? = some w ∧ (IsSignal v → SignalEntry types (p + k + 1) v w) ∧ (¬ IsSignal v → w = v)) ∧
      ∀ q, normalizeIconsFrom types q r = .ok r := by
  induction l generalizing p with
  | nil => exact ⟨[], rfl, rfl, by simp, fun _ => rfl⟩
  | cons a l ih =>
    obtain ⟨w, hw, h1, h2, h3⟩ := normalizeIcon_spec types p a fun s hs => h s (by rw [hs]; exact List.mem_cons_self)
    obtain ⟨r, hr, hl, hk, hq⟩ := ih (p + 1) fun s hs => h s (List.mem_cons_of_mem _ hs)
    refine ⟨w :: r, by simp only [normalizeIconsFrom, hw, hr, Except.map], by simp [hl], ?_, ?_⟩
    · intro k v hv
      cases k with
      | zero =>
        simp only [List.getElem?_cons_zero, Option.some.injEq] at hv
        subst hv
        exact ⟨w, rfl, h1, h2⟩
      | succ k =>
        simp only [List.getElem?_cons_succ] at hv ⊢
        obtain ⟨w', g1, g2, g3⟩ := hk k v hv
        refine ⟨w', g1, ?_, g3⟩
        rwa [show p + (k + 1) + 1 = p + 1 + k + 1 by omega]
    · intro q
      simp only [normalizeIconsFrom, h3, hq, Except.map]

/-- Icons of planners and books, if the names are known: the k-th plain name, or signal with a type, becomes the icon number k; everything else is as it was;
and expanding once more changes nothing. -/
theorem C53_icons (types : Types) (l : List Val) (h : Known types l) : ∃ r, normalizeIcons types (.list l) = .ok (.list r) ∧
    normalizeIcons types (.tuple l) = .ok (.list r) ∧ Expanded (SignalEntry types) IsSignal l r ∧ normalizeIcons types (.list r) = .ok (.list r) := by
  obtain ⟨r, hr, hl, hk, hq⟩ := normalizeIconsFrom_spec types 0 l h
  refine ⟨r, by simp [normalizeIcons, hr, Except.map], by simp [normalizeIcons, hr, Except.map], ⟨hl, ?_, ?_⟩, by simp [normalizeIcons, hq, Except.map]⟩
  · intro k v hv hs
    obtain ⟨w, h1, h2, -⟩ := hk k v hv
    have := h2 hs
    rw [Nat.zero_add] at this
    exact ⟨w, h1, this⟩
  · intro k v hv hs
    obtain ⟨w, h1, -, h3⟩ := hk k v hv
    rw [h1, h3 hs]

/-- A name that is not known is an error. -/
theorem C53_unknown (types : Types) (hne : ∀ s, types s ≠ some []) (l : List Val) (s : String) (hs : .str s ∈ l) (h : types s = none) :
    normalizeIcons types (.list l) = .error .invalidSignal := by
  have key : ∀ (l : List Val) (p : ℕ), .str s ∈ l → normalizeIconsFrom types p l = .error .invalidSignal := by
    intro l
    induction l with
    | nil => intro p h; simp at h
    | cons a l ih =>
      intro p hm
      rw [normalizeIconsFrom]
      by_cases ha : ∃ s', a = .str s' ∧ types s' = none
      · obtain ⟨s', rfl, hs'⟩ := ha
        simp [normalizeIcon, signalDict, hs', Except.map]
      · push Not at ha
        have hm' : .str s ∈ l := by
          rcases List.mem_cons.1 hm with rfl | hm
          · exact absurd h (ha s rfl)
          · exact hm
        obtain ⟨w, hw, -⟩ := normalizeIcon_spec types p a (by
          intro s' hs'
          cases ht : types s' with
          | none => exact absurd ht (ha s' hs')
          | some ts => exact ⟨ts, rfl, by rintro rfl; exact hne _ ht⟩)
        rw [hw, ih _ hm']
        rfl
  simp [normalizeIcons, key l 0 hs, Except.map]

/-- A pair or longer tuple that begins with a name. -/
def IsPair (v : Val) : Prop := ∃ s c r, v = .tuple (.str s :: c :: r)

/-- The full filter number `k` for such a tuple. -/
def FilterEntry (types : Types) (k : ℕ) (v w : Val) : Prop :=
  ∃ s c r ts t d, v = .tuple (.str s :: c :: r) ∧ types s = some ts ∧ t ∈ ts ∧ ("item" ∈ ts → t = "item") ∧ w = .dict d ∧ d.length = 5 ∧
    Dict.get? d "index" = some (.int k) ∧ Dict.get? d "name" = some (.str s) ∧ Dict.get? d "type" = some (.str t) ∧
    Dict.get? d "comparator" = some (.str "=") ∧ Dict.get? d "count" = some c

theorem sectionFrom_spec (types : Types) (p : ℕ) (l : List Val)
    (h : ∀ t, .tuple t ∈ l → ∃ s c r ts, t = .str s :: c :: r ∧ types s = some ts ∧ ts ≠ []) :
    ∃ r, normalizeSectionFrom types p l = (r, none) ∧ r.length = l.length ∧
      (∀ (k : ℕ) (v : Val), l[k]? = some v → ∃ w, r[k]? = some w ∧ (IsPair v → FilterEntry types (p + k + 1) v w) ∧ (¬ IsPair v → w = v)) ∧
      ∀ q, normalizeSectionFrom types q r = (r, none) := by
  induction l generalizing p with
  | nil => exact ⟨[], rfl, rfl, by simp, fun _ => rfl⟩
  | cons a l ih =>
    obtain ⟨r, hr, hl, hk, hq⟩ := ih (p + 1) fun t ht => h t (List.mem_cons_of_mem _ ht)
    have rest : ∀ (w : Val) (k : ℕ) (v : Val), (a :: l)[k + 1]? = some v →
        ∃ w', (w :: r)[k + 1]? = some w' ∧ (IsPair v → FilterEntry types (p + (k + 1) + 1) v w') ∧ (¬ IsPair v → w' = v) := by
      intro w k v hv
      simp only [List.getElem?_cons_succ] at hv ⊢
      obtain ⟨w', g1, g2, g3⟩ := hk k v hv
      refine ⟨w', g1, ?_, g3⟩
      rwa [show p + (k + 1) + 1 = p + 1 + k + 1 by omega]
    by_cases ha : ∃ t, a = .tuple t
    · obtain ⟨t, rfl⟩ := ha
      obtain ⟨s, c, r', ts, rfl, hts, hne⟩ := h t List.mem_cons_self
      obtain ⟨t, ht, hm, hi⟩ := chooseType_spec ts hne
      refine ⟨.dict [("index", .int (p + 1)), ("name", .str s), ("type", .str t), ("comparator", .str "="), ("count", c)] :: r,
        by simp only [normalizeSectionFrom, sectionEntry, hts, ht, hr], by simp [hl], ?_, ?_⟩
      · intro k v hv
        cases k with
        | zero =>
          simp only [List.getElem?_cons_zero, Option.some.injEq] at hv
          subst hv
          refine ⟨_, rfl, ?_, fun hn => absurd ⟨s, c, r', rfl⟩ hn⟩
          intro _
          exact ⟨s, c, r', ts, t, _, rfl, hts, hm, hi, rfl, rfl, by simp [Dict.get?], by simp [Dict.get?], by simp [Dict.get?], by simp [Dict.get?],
            by simp [Dict.get?]⟩
        | succ k => exact rest _ k v hv
      · intro q
        simp only [normalizeSectionFrom, hq]
    · have hgo : ∀ q l, normalizeSectionFrom types q (a :: l) = (a :: (normalizeSectionFrom types (q + 1) l).1, (normalizeSectionFrom types (q + 1) l).2) := by
        intro q l
        cases a <;> first | rfl | exact absurd ⟨_, rfl⟩ ha
      refine ⟨a :: r, by rw [hgo, hr], by simp [hl], ?_, fun q => by rw [hgo, hq]⟩
      intro k v hv
      cases k with
      | zero =>
        simp only [List.getElem?_cons_zero, Option.some.injEq] at hv
        subst hv
        refine ⟨_, rfl, ?_, fun _ => rfl⟩
        rintro ⟨s, c, r', rfl⟩
        exact absurd ⟨_, rfl⟩ ha
      | succ k => exact rest _ k v hv

/-- Filters of a section of a constant combinator or request: if every tuple is a known name with a count, the k-th tuple becomes the filter number k, everything else is
as it was, and expanding once more changes nothing.  Plain names are not expanded here, see `C53_section_refuted`. -/
theorem C53_section_partial (types : Types) (l : List Val) (h : ∀ t, .tuple t ∈ l → ∃ s c r ts, t = .str s :: c :: r ∧ types s = some ts ∧ ts ≠ []) :
    ∃ r, normalizeSection types l = (r, none) ∧ Expanded (FilterEntry types) IsPair l r ∧ normalizeSection types r = (r, none) := by
  obtain ⟨r, hr, hl, hk, hq⟩ := sectionFrom_spec types 0 l h
  refine ⟨r, hr, ⟨hl, ?_, ?_⟩, hq 0⟩
  · intro k v hv hs
    obtain ⟨w, h1, h2, -⟩ := hk k v hv
    have := h2 hs
    rw [Nat.zero_add] at this
    exact ⟨w, h1, this⟩
  · intro k v hv hs
    obtain ⟨w, h1, -, h3⟩ := hk k v hv
    rw [h1, h3 hs]

/-- C53: the first tuple of a section whose name is not known is an `InvalidSignalError`; a name without any type is a `StopIteration`. -/
theorem C53_section_unknown (types : Types) (l m : List Val) (s : String) (c : List Val)
    (hl : ∀ t, .tuple t ∈ l → ∃ s c r ts, t = .str s :: c :: r ∧ types s = some ts ∧ ts ≠ []) :
    (types s = none → (normalizeSection types (l ++ .tuple (.str s :: c) :: m)).2 = some .invalidSignal) ∧
    (types s = some [] → (normalizeSection types (l ++ .tuple (.str s :: c) :: m)).2 = some .stopIteration) := by
  have key : ∀ (l : List Val) (p : ℕ), (∀ t, .tuple t ∈ l → ∃ s c r ts, t = .str s :: c :: r ∧ types s = some ts ∧ ts ≠ []) →
      (types s = none → (normalizeSectionFrom types p (l ++ .tuple (.str s :: c) :: m)).2 = some .invalidSignal) ∧
      (types s = some [] → (normalizeSectionFrom types p (l ++ .tuple (.str s :: c) :: m)).2 = some .stopIteration) := by
    intro l
    induction l with
    | nil =>
      intro p _
      constructor <;> intro h <;> simp [normalizeSectionFrom, sectionEntry, h, chooseType]
    | cons v l ih =>
      intro p hl
      have ih := ih (p + 1) fun t ht => hl t (List.mem_cons_of_mem _ ht)
      cases v with
      | tuple t =>
        obtain ⟨s', c', r', ts, rfl, hts, hne⟩ := hl t (by simp)
        obtain ⟨x, hx, -⟩ := chooseType_spec ts hne
        simpa [normalizeSectionFrom, sectionEntry, hts, hx] using ih
      | _ => simpa [normalizeSectionFrom] using ih
  exact key l 0 hl

/-- Not proved because it is false: that a section given as plain names is expanded. -/
theorem C53_section_refuted : ¬ ∀ (types : Types) (l : List Val), Known types l →
    ∀ (k : ℕ) (s : String), l[k]? = some (.str s) → ∃ d, (normalizeSection types l).1[k]? = some (.dict d) ∧ Dict.get? d "index" = some (.int (k + 1)) := by
  intro h
  obtain ⟨d, hd, -⟩ := h (fun _ => some ["item"]) [.str "iron-plate"] (fun _ _ => ⟨_, rfl, by simp⟩) 0 "iron-plate" rfl
  simp [normalizeSection, normalizeSectionFrom] at hd

/-- Not proved because it is false: that a list which cannot be expanded is left as it was.  The part before the unknown name is changed in place. -/
theorem C53_section_failed_refuted : ¬ ∀ (types : Types) (l : List Val), (normalizeSection types l).2 ≠ none → (normalizeSection types l).1 = l := by
  intro h
  have := h (fun s => if s = "a" then some ["item"] else none) [.tuple [.str "a", .int 1], .tuple [.str "b", .int 1]]
    (by simp [normalizeSection, normalizeSectionFrom, sectionEntry, chooseType])
  simp [normalizeSection, normalizeSectionFrom, sectionEntry, chooseType] at this

/-- Not proved because it is false: that numbers given in a list are different from one another.  A full entry can have the number of a plain name. -/
theorem C53_distinct_refuted : ¬ ∀ (l r : List Val), expandNames (.list l) = .list r → ∀ (i j : ℕ) (d e : List (String × Val)), i ≠ j →
    r[i]? = some (.dict d) → r[j]? = some (.dict e) → ∀ m n : ℤ, Dict.get? d "index" = some (.int m) → Dict.get? e "index" = some (.int n) → m ≠ n := by
  intro h
  exact h [.str "a", .dict [("index", .int 1), ("name", .str "b")]] _ rfl 0 1 _ _ (by decide) rfl rfl 1 1 (by simp [Dict.get?]) (by simp [Dict.get?]) rfl

/-- Not proved because it is false: that a signal given as a dictionary without a type (the game writes items so) is expanded. -/
theorem C53_untyped_refuted : ¬ ∀ (types : Types) (l : List Val) (r : List Val), normalizeIcons types (.list l) = .ok (.list r) →
    ∀ (k : ℕ) (d : List (String × Val)), l[k]? = some (.dict d) → Dict.get? d "index" = none →
      ∃ e, r[k]? = some (.dict e) ∧ Dict.get? e "index" = some (.int (k + 1)) := by
  intro h
  obtain ⟨e, he, hi⟩ := h (fun _ => none) [.dict [("name", .str "iron-plate")]] _ rfl 0 _ rfl (by simp [Dict.get?])
  simp only [List.getElem?_cons_zero, Option.some.injEq, Val.dict.injEq] at he
  subst he
  simp [Dict.get?] at hi

/-- Not proved because it is false: that what is not a list is left alone.  Turret priorities given as one text are expanded letter by letter. -/
theorem C53_text_refuted : ¬ ∀ s : String, expandPriorities (.str s) = .str s := by
  intro h
  have := h "biter"
  simp [expandPriorities] at this

/-- A list with a name, a full entry and a name. -/
example : expandNames (.tuple [.str "a", .dict [("index", .int 7), ("name", .str "b")], .str "c"]) =
    .list [.dict [("index", .int 1), ("name", .str "a")], .dict [("index", .int 7), ("name", .str "b")], .dict [("index", .int 3), ("name", .str "c")]] := by
  simp [expandNames, expandNamesFrom, expandName]

/-- Icons with a known name and a full entry. -/
example : normalizeIcons (fun s => if s = "iron-plate" then some ["recipe", "item"] else none)
    (.list [.dict [("index", .int 7), ("signal", .none)], .str "iron-plate"]) =
    .ok (.list [.dict [("index", .int 7), ("signal", .none)], .dict [("index", .int 2), ("signal", .dict [("name", .str "iron-plate"), ("type", .str "item")])]]) := by
  simp [normalizeIcons, normalizeIconsFrom, normalizeIcon, Dict.get?, signalDict, chooseType, Except.map]

/-- A section of one pair and one full entry. -/
example : normalizeSection (fun _ => some ["virtual"]) [.tuple [.str "signal-A", .int 5], .dict [("index", .int 9)]] =
    ([.dict [("index", .int 1), ("name", .str "signal-A"), ("type", .str "virtual"), ("comparator", .str "="), ("count", .int 5)], .dict [("index", .int 9)]], none) := by
  simp [normalizeSection, normalizeSectionFrom, sectionEntry, chooseType]

end Shorthand
end Draftsman
