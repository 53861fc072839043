import Verif.Model.Record
import Verif.Proof.Dict
import Verif.Props.Instruments
/-
C90: records can be used like dictionaries, and conditions are stored as written.
-/
namespace Draftsman
namespace Record

/-- The names a field may be addressed by: the one in the exported dictionary and the one of the attribute. -/
def Names (f : String × Option String) (k : String) : Prop := f.2 = some k ∨ f.1 = k

/-- No name belongs to two fields. -/
structure Tidy (c : Cls) : Prop where
  once : (c.fields.map Prod.fst).Nodup
  apart : ∀ f ∈ c.fields, ∀ g ∈ c.fields, ∀ k, Names f k → Names g k → f = g

/-- Every field has a value, as in every validated model, and nothing else is kept with the fields. -/
def Full {V : Type} (c : Cls) (r : Rec V) : Prop := ∀ n, (r.dict.get? n).isSome ↔ n ∈ c.fields.map Prod.fst

/-- The three ways to ask for a key agree that it has the value `v`. -/
structure Reads {V : Type} (c : Cls) (r : Rec V) (k : String) (v : V) : Prop where
  item : getItem c r k = .ok (.value v)
  inside : contains c r k = true
  get : ∀ d, get c r k d = v

/-- The three ways to ask for a key give the same for both records. -/
structure Same {V : Type} (c : Cls) (r s : Rec V) (k : String) : Prop where
  item : getItem c r k = getItem c s k
  inside : contains c r k = contains c s k
  get : ∀ d, get c r k d = get c s k d

theorem table_get {c : Cls} (h : Tidy c) {f : String × Option String} (hf : f ∈ c.fields) :
    c.table.get? (f.2.getD f.1) = some f.1 := by
  have e : c.table = (c.fields.map (fun f => (f.2.getD f.1, f.1))).foldl (fun (d : Dict String String) p => d.set p.1 p.2) [] := by
    rw [List.foldl_map]; rfl
  rw [e]
  refine Instruments.get?_fold_mem _ _ ?_ _ _ (List.mem_map.2 ⟨f, hf, rfl⟩)
  rw [List.map_map]
  refine List.Nodup.map_on ?_ (h.once.of_map _)
  intro a ha b hb hab
  have key : ∀ g : String × Option String, Names g (g.2.getD g.1) := by
    rintro ⟨n, _ | al⟩
    · exact .inr rfl
    · exact .inl rfl
  have hab : a.2.getD a.1 = b.2.getD b.1 := hab
  exact h.apart a ha b hb (a.2.getD a.1) (key a) (hab ▸ key b)

theorem table_none {c : Cls} {k : String} (hk : ∀ f ∈ c.fields, f.2.getD f.1 ≠ k) : c.table.get? k = none := by
  have e : c.table = (c.fields.map (fun f => (f.2.getD f.1, f.1))).foldl (fun (d : Dict String String) p => d.set p.1 p.2) [] := by
    rw [List.foldl_map]; rfl
  rw [e, Instruments.get?_fold_not]
  · rfl
  · simp only [List.map_map, List.mem_map, Function.comp, not_exists, not_and]
    exact hk

theorem resolve_field {c : Cls} (h : Tidy c) {f : String × Option String} (hf : f ∈ c.fields) {k : String} (hk : Names f k) :
    c.resolve k = f.1 := by
  unfold Cls.resolve
  by_cases e : f.2.getD f.1 = k
  · rw [← e, table_get h hf]; rfl
  · have e1 : f.1 = k := by
      rcases hk with hk | hk
      · simp [hk] at e
      · exact hk
    rw [table_none, e1]; · rfl
    intro g hg hgk
    have hn : Names g k := by
      obtain ⟨n, _ | al⟩ := g
      · exact .inr hgk
      · exact .inl (congrArg some hgk)
    have := h.apart f hf g hg k hk hn
    subst this
    exact e hgk

theorem resolve_other {c : Cls} {k : String} (hk : ∀ f ∈ c.fields, ¬ Names f k) : c.resolve k = k := by
  unfold Cls.resolve
  rw [table_none]; · rfl
  intro g hg hgk
  refine hk g hg ?_
  obtain ⟨n, _ | al⟩ := g
  · exact .inr hgk
  · exact .inl (congrArg some hgk)

/-- C90: a field written under any of its names is read back under all of them, in every way of asking, and whatever is asked under the names of other
fields, or under names that belong to no field, is as before. -/
theorem C90_field {V : Type} (c : Cls) (h : Tidy c) (r : Rec V) (f : String × Option String) (hf : f ∈ c.fields) (k : String) (hk : Names f k) (v : V) :
    (∀ j, Names f j → Reads c (setItem c r k v) j v) ∧
    (∀ g ∈ c.fields, g ≠ f → ∀ j, Names g j → Same c (setItem c r k v) r j) ∧
    (∀ j, (∀ g ∈ c.fields, ¬ Names g j) → Same c (setItem c r k v) r j) := by
  have hm : f.1 ∈ c.fields.map Prod.fst := List.mem_map.2 ⟨f, hf, rfl⟩
  have hs : setItem c r k v = { r with dict := r.dict.set f.1 v } := by
    rw [setItem, resolve_field h hf hk, setAttr, if_pos hm]
  have other : ∀ j, c.resolve j ≠ f.1 → Same c (setItem c r k v) r j := by
    intro j hj
    have hg : (r.dict.set f.1 v).get? (c.resolve j) = r.dict.get? (c.resolve j) := by
      rw [Dict.get?_set, if_neg (fun e => hj e.symm)]
    rw [hs]
    exact ⟨by simp [getItem, getAttr, hg], by simp [contains, hg], by simp [get, hg]⟩
  refine ⟨?_, ?_, ?_⟩
  · intro j hj
    rw [hs]
    have hr := resolve_field h hf hj
    exact ⟨by simp [getItem, getAttr, hr, Dict.get?_set], by simp [contains, hr, Dict.get?_set], by simp [get, hr, Dict.get?_set]⟩
  · intro g hg hgf j hj
    refine other j ?_
    rw [resolve_field h hg hj]
    intro e
    exact hgf (h.apart g hg f hf g.1 (.inr rfl) (.inr e.symm))
  · intro j hj
    refine other j ?_
    rw [resolve_other hj]
    intro e
    exact hj f hf (.inr e.symm)

/-- C90: in a validated model every field can be asked for in all three ways, which agree. -/
theorem C90_present {V : Type} (c : Cls) (h : Tidy c) (r : Rec V) (hr : Full c r) (f : String × Option String) (hf : f ∈ c.fields) :
    ∃ v, ∀ k, Names f k → Reads c r k v := by
  obtain ⟨v, hv⟩ := Option.isSome_iff_exists.1 ((hr f.1).2 (List.mem_map.2 ⟨f, hf, rfl⟩))
  refine ⟨v, fun k hk => ?_⟩
  have e := resolve_field h hf hk
  exact ⟨by simp [getItem, getAttr, e, hv], by simp [contains, e, hv], by simp [get, e, hv]⟩

/-- C90: a key that is no field and no attribute of the class is kept and read back with `[]`, though `in` and `get` do not see it; nothing else
changes. -/
theorem C90_extra {V : Type} (c : Cls) (h : Tidy c) (r : Rec V) (hr : Full c r) (k : String) (hk : ∀ f ∈ c.fields, ¬ Names f k) (ha : k ∉ c.attrs) (v : V) :
    getItem c (setItem c r k v) k = .ok (.value v) ∧
    contains c (setItem c r k v) k = false ∧ (∀ d, get c (setItem c r k v) k d = d) ∧
    (∀ j, j ≠ k → Same c (setItem c r k v) r j) := by
  have hm : k ∉ c.fields.map Prod.fst := by
    intro hm
    obtain ⟨f, hf, e⟩ := List.mem_map.1 hm
    exact hk f hf (.inr e)
  have hd : r.dict.get? k = none := by
    rcases e : r.dict.get? k with _ | w
    · rfl
    · exact absurd ((hr k).1 (by simp [e])) hm
  have hs : setItem c r k v = { r with extra := r.extra.set k v } := by
    rw [setItem, resolve_other hk, setAttr, if_neg hm]
    by_cases he : (r.extra.get? k).isSome
    · rw [if_pos he]
    · rw [if_neg he]
      have he : r.extra.get? k = none := by simpa using he
      simp [getAttr, hd, ha, he]
  rw [hs]
  refine ⟨by simp [getItem, getAttr, resolve_other hk, hd, ha, Dict.get?_set], by simp [contains, resolve_other hk, hd],
    by simp [get, resolve_other hk, hd], ?_⟩
  intro j hj
  have hrj : c.resolve j ≠ k := by
    by_cases hjf : ∃ f ∈ c.fields, Names f j
    · obtain ⟨f, hf, hfj⟩ := hjf
      rw [resolve_field h hf hfj]
      exact fun e => hk f hf (.inr e)
    · rw [resolve_other (fun f hf hfj => hjf ⟨f, hf, hfj⟩)]; exact hj
  exact ⟨by simp [getItem, getAttr, Dict.get?_set, Ne.symm hrj], by simp [contains], by simp [get]⟩

/-- C90: asking with `[]` for a key that was never written raises `AttributeError`. -/
theorem C90_missing {V : Type} (c : Cls) (r : Rec V) (hr : Full c r) (k : String) (hk : ∀ f ∈ c.fields, ¬ Names f k) (ha : k ∉ c.attrs)
    (he : k ∉ r.extra.keys) : getItem c r k = .error .attributeError ∧ contains c r k = false := by
  have hd : r.dict.get? k = none := by
    rcases e : r.dict.get? k with _ | w
    · rfl
    · obtain ⟨f, hf, e⟩ := List.mem_map.1 ((hr k).1 (by simp [e]))
      exact absurd (.inr e) (hk f hf)
  have hx : r.extra.get? k = none := (Dict.get?_eq_none _ _).2 he
  exact ⟨by simp [getItem, getAttr, resolve_other hk, hd, ha, hx], by simp [contains, resolve_other hk, hd]⟩

/-- The rows of the control behavior of a rail signal, with one alias. -/
def signalCls : Cls := { fields := [("red_output_signal", none), ("yellow_output_signal", some "orange_output_signal")], attrs := ["get", "copy", "json"] }
/-- A control behavior with both fields. -/
def signalRec : Rec ℤ := { dict := [("red_output_signal", 1), ("yellow_output_signal", 2)], extra := [] }

theorem signal_tidy : Tidy signalCls := by
  refine ⟨by decide, ?_⟩
  intro f hf g hg k h1 h2
  simp only [signalCls, List.mem_cons, List.not_mem_nil, or_false] at hf hg
  rcases hf with rfl | rfl <;> rcases hg with rfl | rfl <;> simp only [Names] at h1 h2 <;> simp_all
  all_goals (rcases h2 with rfl | rfl <;> revert h1 <;> decide)

theorem signal_full : Full signalCls signalRec := by
  intro n
  rw [Dict.get?_isSome]
  rfl

example : Reads signalCls (setItem signalCls signalRec "orange_output_signal" 7) "yellow_output_signal" 7 :=
  (C90_field signalCls signal_tidy signalRec ("yellow_output_signal", some "orange_output_signal") (by decide) _ (.inl rfl) 7).1 _ (.inr rfl)
example : Same signalCls (setItem signalCls signalRec "orange_output_signal" 7) signalRec "red_output_signal" :=
  (C90_field signalCls signal_tidy signalRec ("yellow_output_signal", some "orange_output_signal") (by decide) _ (.inl rfl) 7).2.1
    ("red_output_signal", none) (by decide) (by decide) _ (.inr rfl)
example : ∃ v, ∀ k, Names ("yellow_output_signal", some "orange_output_signal") k → Reads signalCls signalRec k v :=
  C90_present _ signal_tidy _ signal_full _ (by decide)
theorem blue_no_field : ∀ f ∈ signalCls.fields, ¬ Names f "blue_output_signal" := by
  intro f hf
  simp only [signalCls, List.mem_cons, List.not_mem_nil, or_false] at hf
  rcases hf with rfl | rfl <;> unfold Names <;> decide
example : contains signalCls (setItem signalCls signalRec "blue_output_signal" 7) "blue_output_signal" = false :=
  (C90_extra _ signal_tidy _ signal_full _ blue_no_field (by decide) 7).2.1
example : getItem signalCls signalRec "blue_output_signal" = .error .attributeError :=
  (C90_missing _ _ signal_full _ blue_no_field (by decide) (by decide)).1

/-- C90 is false of keys that are no fields: `record[key] = value` keeps the value and `record[key]` gives it back, but `key in record` is then false and
`record.get(key, default)` gives the default. -/
theorem C90_extra_refuted : ¬ ∀ (c : Cls) (r : Rec ℤ) (k : String) (v : ℤ), Tidy c → Full c r → contains c (setItem c r k v) k = true ∧
    get c (setItem c r k v) k 0 = v := by
  intro h
  exact absurd (h signalCls signalRec "blue_output_signal" 7 signal_tidy signal_full) (by decide)

/-- C90 is false of names of methods: `record["get"]` gives the method though `"get" in record` is false, where a dictionary raises `KeyError`. -/
theorem C90_method_refuted : ¬ ∀ (c : Cls) (r : Rec ℤ) (k : String), Tidy c → Full c r → contains c r k = false →
    ∃ e, getItem c r k = .error e := by
  intro h
  obtain ⟨e, he⟩ := h signalCls signalRec "get" signal_tidy signal_full (by decide)
  revert he
  simp only [show getItem signalCls signalRec "get" = .ok (.method "get") from by decide]
  nofun

/-- C90 is false of the error: asking for a key that is missing raises `AttributeError`, not `KeyError`, so code that handles dictionaries does not
handle it. -/
theorem C90_missing_refuted : ¬ ∀ (c : Cls) (r : Rec ℤ) (k : String), Tidy c → Full c r → contains c r k = false →
    getItem c r k = .error .keyError ∨ ∃ v, getItem c r k = .ok v := by
  intro h
  rcases h signalCls signalRec "blue_output_signal" signal_tidy signal_full (by decide) with h | ⟨v, h⟩ <;>
    rw [(C90_missing _ _ signal_full _ blue_no_field (by decide) (by decide)).1] at h <;> nomatch h

theorem sectionsGet_cons {S : Type} (x : Option String × S) (l : List (Option String × S)) (key : String) :
    sectionsGet (x :: l) key = if x.1 = some key then .ok x.2 else sectionsGet l key := by
  unfold sectionsGet
  by_cases h : x.1 = some key <;> simp [h]

/-- C90: `sections[name]` is the first section of the group of that name, and raises `StopIteration` just if there is none. -/
theorem C90_sections {S : Type} (l : List (Option String × S)) (key : String) :
    (∀ s, sectionsGet l key = .ok s ↔ ∃ a b, l = a ++ (some key, s) :: b ∧ ∀ x ∈ a, x.1 ≠ some key) ∧
    (sectionsGet l key = .error .stopIteration ↔ ∀ x ∈ l, x.1 ≠ some key) := by
  induction l with
  | nil => simp [sectionsGet]
  | cons y l ih =>
    obtain ⟨g, t⟩ := y
    rw [sectionsGet_cons]
    by_cases h : g = some key
    · subst h
      rw [if_pos rfl]
      refine ⟨fun s => ⟨fun h => ⟨[], l, ?_, by simp⟩, ?_⟩, by simp⟩
      · cases h; rfl
      · rintro ⟨_ | ⟨x, a⟩, b, h1, h2⟩
        · simp at h1; rw [h1.1]
        · simp only [List.cons_append, List.cons.injEq] at h1
          exact absurd (by rw [← h1.1]) (h2 x (by simp))
    · rw [if_neg h]
      refine ⟨fun s => ?_, by rw [ih.2]; simp [h]⟩
      rw [ih.1]
      constructor
      · rintro ⟨a, b, rfl, ha⟩
        exact ⟨(g, t) :: a, b, rfl, by simpa [h] using ha⟩
      · rintro ⟨_ | ⟨x, a⟩, b, h1, h2⟩
        · simp at h1; exact absurd h1.1.1 h
        · simp only [List.cons_append, List.cons.injEq] at h1
          exact ⟨a, b, h1.2, fun z hz => h2 z (by simp [hz])⟩

example : sectionsGet [(none, 1), (some "a", 2), (some "a", 3)] "a" = .ok 2 :=
  ((C90_sections _ _).1 2).2 ⟨[(none, 1)], [(some "a", 3)], rfl, by decide⟩

/-- C90 is false of sections: the one record that has its own `[]` looks for a group of that name, so the key that is in it and can be written cannot be
read, and raises `StopIteration`. -/
theorem C90_sections_refuted : ¬ ∀ (l : List (Option String × ℤ)),
    contains { fields := [("sections", none)], attrs := [] } ({ dict := [("sections", l)], extra := [] } : Rec (List (Option String × ℤ))) "sections" = true →
    ∃ s, sectionsGet l "sections" = .ok s := by
  intro h
  obtain ⟨s, hs⟩ := h [(none, 1)] (by decide)
  rw [((C90_sections _ _).2).2 (by decide)] at hs
  nomatch hs

/-! ### Conditions -/

/-- What a comparator means, in the spelling of the game and in that of Python. -/
def relation (cmp : String) : Option (ℤ → ℤ → Bool) :=
  if cmp = ">" then some (fun x y => decide (y < x)) else if cmp = "<" then some (fun x y => decide (x < y))
  else if cmp = "=" ∨ cmp = "==" then some (fun x y => decide (x = y)) else if cmp = "≥" ∨ cmp = ">=" then some (fun x y => decide (y ≤ x))
  else if cmp = "≤" ∨ cmp = "<=" then some (fun x y => decide (x ≤ y)) else if cmp = "≠" ∨ cmp = "!=" then some (fun x y => decide (x ≠ y)) else none

/-- What the game makes of a condition for given signals: it knows only its own spellings, and the second signal goes before the constant. -/
def Cond.holds (c : Cond) (env : Sig → ℤ) : Option Bool :=
  if c.comparator ∈ [">", "<", "=", "≥", "≤", "≠"] then
    c.first.bind fun a => (relation c.comparator).map fun r => r (env a) (match c.second with | some b => env b | none => c.constant)
  else none

/-- What was asked for: the value of the right side, if it is one. -/
def Operand.value (sig : String → Option Sig) (num : String → Option ℤ) (env : Sig → ℤ) : Operand → Option ℤ
  | .const n => some n
  | .signal n => (sig n).elim (num n) (fun s => some (env s))

/-- The right side is a signal or a number of 32 bits. -/
def Operand.Fits (sig : String → Option Sig) (num : String → Option ℤ) : Operand → Prop
  | .const n => -(2 : ℤ) ^ 31 ≤ n ∧ n < 2 ^ 31
  | .signal n => (∃ s, sig n = some s) ∨ ∃ k, num n = some k ∧ -(2 : ℤ) ^ 31 ≤ k ∧ k < 2 ^ 31

theorem spelling_rel {cmp : String} (h : cmp ∈ spellings) : normalize cmp ∈ [">", "<", "=", "≥", "≤", "≠"] ∧ relation (normalize cmp) = relation cmp := by
  simp only [spellings, List.mem_cons, List.not_mem_nil, or_false] at h
  rcases h with rfl | rfl | rfl | rfl | rfl | rfl | rfl | rfl | rfl | rfl <;> exact ⟨by decide, by simp [relation, normalize]⟩

theorem readSecond_ok (sig : String → Option Sig) (num : String → Option ℤ) (c c' : Cond) (hc : c.second = none) (b : Operand)
    (h : readSecond sig num c b = .ok c') : c'.first = c.first ∧ c'.comparator = c.comparator ∧
      ∀ env, b.value sig num env = some (match c'.second with | some b => env b | none => c'.constant) := by
  rcases b with n | n
  · simp only [readSecond, readSecond.constant] at h
    split_ifs at h
    cases h
    exact ⟨rfl, rfl, fun env => by simp [Operand.value, hc]⟩
  · simp only [readSecond] at h
    rcases e : sig n with _ | s <;> simp only [e] at h
    · rcases e' : num n with _ | k <;> simp only [e', readSecond.constant] at h
      · cases h
      · split_ifs at h
        cases h
        exact ⟨rfl, rfl, fun env => by simp [Operand.value, e, e', hc]⟩
    · cases h
      exact ⟨rfl, rfl, fun env => by simp [Operand.value, e]⟩

/-- C90: a condition that is accepted is stored under its name with the meaning it was written with, for all values of signals and whichever spelling
was used, in a form the game knows; all other settings are as before. -/
theorem C90_condition (sig : String → Option Sig) (num : String → Option ℤ) (cb cb' : Dict String (Option Cond)) (name : String) (a : Option String) (cmp : String)
    (b : Operand) (h : setCondition sig num cb name a cmp b = .ok cb') :
    (∃ c, cb'.get? name = some (some c) ∧ (∀ n, a = some n → c.first = sig n ∧ (sig n).isSome) ∧ (a = none → c.first = none) ∧
      c.comparator ∈ [">", "<", "=", "≥", "≤", "≠"] ∧
      ∀ env n s, a = some n → sig n = some s → ∃ r y, relation cmp = some r ∧ b.value sig num env = some y ∧ c.holds env = some (r (env s) y)) ∧
    (∀ k, k ≠ name → cb'.get? k = cb.get? k) := by
  unfold setCondition at h
  rcases ef : readFirst sig a with e | first <;> simp only [ef] at h
  · cases h
  split_ifs at h with hc
  have hc : cmp ∈ spellings := by simpa using hc
  rcases es : readSecond sig num { first := first, comparator := cmp } b with e | c <;> simp only [es] at h
  · cases h
  cases h
  obtain ⟨h1, h2, h3⟩ := readSecond_ok sig num _ c rfl b es
  simp only at h1 h2
  obtain ⟨hn, hr⟩ := spelling_rel hc
  have hfirst : (∀ n, a = some n → first = sig n ∧ (sig n).isSome) ∧ (a = none → first = none) := by
    rcases a with _ | n
    · simp only [readFirst, Except.ok.injEq] at ef
      exact ⟨nofun, fun _ => ef.symm⟩
    · simp only [readFirst] at ef
      rcases e : sig n with _ | s <;> simp only [e] at ef
      · cases ef
      · cases ef
        exact ⟨fun m hm => by cases hm; simp [e], nofun⟩
  refine ⟨⟨{ c with comparator := normalize c.comparator }, by simp [Dict.get?_set], ?_, ?_, by rw [h2]; exact hn, ?_⟩, ?_⟩
  · intro n hn; rw [show ({ c with comparator := normalize c.comparator } : Cond).first = first from h1]; exact hfirst.1 n hn
  · intro hn; rw [show ({ c with comparator := normalize c.comparator } : Cond).first = first from h1]; exact hfirst.2 hn
  · intro env n s hn' hs
    have hr' : ∃ r, relation cmp = some r := by
      simp only [spellings, List.mem_cons, List.not_mem_nil, or_false] at hc
      rcases hc with rfl | rfl | rfl | rfl | rfl | rfl | rfl | rfl | rfl | rfl <;> simp [relation]
    obtain ⟨r, hr'⟩ := hr'
    refine ⟨r, _, hr', h3 env, ?_⟩
    simp only [Cond.holds, h2]
    rw [if_pos hn, h1, (hfirst.1 n hn').1, hs, hr, hr']
    rfl
  · intro k hk
    rw [Dict.get?_set, if_neg (fun e => hk e.symm)]

/-- C90: a condition is accepted just if the left side is empty or a known signal, the comparator one of the ten spellings, and the right side a known
signal or a number of 32 bits; otherwise nothing is stored and the error is a `ValueError`. -/
theorem C90_accepted (sig : String → Option Sig) (num : String → Option ℤ) (cb : Dict String (Option Cond)) (name : String) (a : Option String) (cmp : String)
    (b : Operand) : ((∃ cb', setCondition sig num cb name a cmp b = .ok cb') ↔
      (∀ n, a = some n → ∃ s, sig n = some s) ∧ (∃ r, relation cmp = some r) ∧ b.Fits sig num) ∧
    (∀ e, setCondition sig num cb name a cmp b = .error e → e = .valueError) := by
  have hcmp : cmp ∈ spellings ↔ ∃ r, relation cmp = some r := by
    constructor
    · intro hc
      simp only [spellings, List.mem_cons, List.not_mem_nil, or_false] at hc
      rcases hc with rfl | rfl | rfl | rfl | rfl | rfl | rfl | rfl | rfl | rfl <;> simp [relation]
    · rintro ⟨r, hr⟩
      unfold relation at hr
      simp only [spellings, List.mem_cons, List.not_mem_nil, or_false]
      split_ifs at hr with h1 h2 h3 h4 h5 h6 <;> tauto
  have hfirst : (∃ f, readFirst sig a = .ok f) ↔ ∀ n, a = some n → ∃ s, sig n = some s := by
    rcases a with _ | n
    · simp [readFirst]
    · simp only [readFirst, Option.some.injEq, forall_eq']
      rcases sig n with _ | s <;> simp
  have hfe : ∀ e, readFirst sig a = .error e → e = .valueError := by
    intro e
    rcases a with _ | n
    · simp [readFirst]
    · simp only [readFirst]
      rcases sig n with _ | s <;> simp
      exact fun h => h.symm
  have hsecond : ∀ c, (∃ c', readSecond sig num c b = .ok c') ↔ b.Fits sig num := by
    intro c
    rcases b with n | n
    · simp only [readSecond, readSecond.constant, Operand.Fits]
      split_ifs with h <;> simp only [h] <;> simp
    · simp only [readSecond, Operand.Fits]
      rcases sig n with _ | s
      · rcases num n with _ | k
        · simp
        · simp only [readSecond.constant]
          split_ifs with h
          · exact ⟨fun _ => .inr ⟨k, rfl, h⟩, fun _ => ⟨_, rfl⟩⟩
          · simp only [exists_false, false_iff, not_or, Option.some.injEq, not_false_eq_true, true_and]
            rintro ⟨j, rfl, hj⟩
            exact h hj
      · simp
  have hse : ∀ c e, readSecond sig num c b = .error e → e = .valueError := by
    intro c e
    rcases b with n | n
    · simp only [readSecond, readSecond.constant]
      split_ifs <;> simp
      exact fun h => h.symm
    · simp only [readSecond]
      rcases sig n with _ | s
      · rcases num n with _ | k
        · simp; exact fun h => h.symm
        · simp only [readSecond.constant]
          split_ifs <;> simp
          exact fun h => h.symm
      · simp
  rw [← hfirst, ← hcmp]
  unfold setCondition
  rcases ef : readFirst sig a with e | first
  · simpa using hfe e ef
  · simp only
    by_cases hc' : cmp ∈ spellings
    swap
    · simp [hc', eq_comm]
    · rw [if_neg (not_not.2 hc')]
      rw [← hsecond { first := first, comparator := cmp }]
      rcases es : readSecond sig num { first := first, comparator := cmp } b with e | c
      · simpa [hc'] using hse _ e es
      · simp [hc']

/-- C90: removing a condition empties it and leaves all other settings; setting it again is as if it had never been removed. -/
theorem C90_removed (sig : String → Option Sig) (num : String → Option ℤ) (cb : Dict String (Option Cond)) (name : String) (a : Option String) (cmp : String)
    (b : Operand) : (removeCondition cb name).get? name = some none ∧ (∀ k, k ≠ name → (removeCondition cb name).get? k = cb.get? k) ∧
    setCondition sig num (removeCondition cb name) name a cmp b = setCondition sig num cb name a cmp b := by
  refine ⟨by simp [removeCondition, Dict.get?_set], fun k hk => by rw [removeCondition, Dict.get?_set, if_neg (fun e => hk e.symm)], ?_⟩
  simp only [setCondition, removeCondition, Dict.set_set]

/-- A few signals. -/
def someSigs (n : String) : Option Sig :=
  if n = "signal-A" then some ⟨"signal-A", "virtual"⟩ else if n = "iron-plate" then some ⟨"iron-plate", "item"⟩ else none
/-- One numeral. -/
def someNums (n : String) : Option ℤ := if n = "10" then some 10 else none

example : setCondition someSigs someNums [("circuit_enabled", none)] "circuit_condition" (some "signal-A") ">=" (.const 5) =
    .ok [("circuit_enabled", none), ("circuit_condition", some { first := some ⟨"signal-A", "virtual"⟩, comparator := "≥", constant := 5 })] := by
  decide
example : ∃ cb', setCondition someSigs someNums [] "circuit_condition" (some "signal-A") "!=" (.signal "iron-plate") = .ok cb' :=
  ((C90_accepted someSigs someNums [] "circuit_condition" (some "signal-A") "!=" (.signal "iron-plate")).1).2
    ⟨by intro n hn; cases hn; exact ⟨_, rfl⟩, ⟨_, rfl⟩, .inl ⟨_, rfl⟩⟩

/-- The entities whose control behaviors are no dictionaries: belts and the three kinds of chests that give items to robots or store them. -/
def Bare (owner : String) : Prop :=
  owner = "TransportBelt" ∨ owner = "LogisticActiveContainer" ∨ owner = "LogisticPassiveContainer" ∨ owner = "LogisticStorageContainer"

theorem bare_iff (owner : String) : owner ∈ bareControls ↔ Bare owner := by
  simp [bareControls, Bare]

/-- C90: on every entity whose control behavior can be written like a dictionary a condition is set as said above; on the others the condition is stored as
well, but `TypeError` is raised then.  If something is wrong with the condition nothing is stored. -/
theorem C90_owner (owner : String) (sig : String → Option Sig) (num : String → Option ℤ) (cb : Dict String (Option Cond)) (name : String) (a : Option String)
    (cmp : String) (b : Operand) :
    (∀ cb', setCondition sig num cb name a cmp b = .ok cb' →
      (¬ Bare owner → setConditionOn owner sig num cb name a cmp b = (cb', none)) ∧
      (Bare owner → setConditionOn owner sig num cb name a cmp b = (cb', some .typeError))) ∧
    (∀ e, setCondition sig num cb name a cmp b = .error e → setConditionOn owner sig num cb name a cmp b = (cb, some e)) := by
  rw [← bare_iff]
  unfold setConditionOn
  rcases setCondition sig num cb name a cmp b with x | cb'
  · refine ⟨nofun, fun e h => ?_⟩
    cases h
    rfl
  · refine ⟨fun d h => ?_, nofun⟩
    cases h
    exact ⟨fun h => by simp only [if_neg h], fun h => by simp only [if_pos h]⟩

example : setConditionOn "Lamp" someSigs someNums [] "circuit_condition" (some "signal-A") ">" (.const 5) =
    ([("circuit_condition", some { first := some ⟨"signal-A", "virtual"⟩, comparator := ">", constant := 5 })], none) := by decide

/-- C90 is false of transport belts and of active, passive and storage chests: their control behaviors derive from the formats of mixins and not from
`DraftsmanBaseModel`, so they cannot be written with `[]`, and `set_circuit_condition` and `set_logistic_condition` raise `TypeError` for every condition. -/
theorem C90_belt_refuted : ¬ ∀ (owner : String) (sig : String → Option Sig) (num : String → Option ℤ) (cb : Dict String (Option Cond)) (name : String)
    (a : Option String) (cmp : String) (b : Operand), (∀ n, a = some n → ∃ s, sig n = some s) → (∃ r, relation cmp = some r) → b.Fits sig num →
    (setConditionOn owner sig num cb name a cmp b).2 = none := by
  intro h
  have he := h "TransportBelt" someSigs someNums [] "circuit_condition" (some "signal-A") ">" (.const 5)
    (by intro n hn; cases hn; exact ⟨_, rfl⟩) ⟨_, rfl⟩ (by simp [Operand.Fits])
  revert he
  decide

/-- C90: setting a condition that fails leaves the conditions as they were.  False of these entities: the condition is stored before the `TypeError` is
raised. -/
theorem C90_stored_refuted : ¬ ∀ (owner : String) (sig : String → Option Sig) (num : String → Option ℤ) (cb : Dict String (Option Cond)) (name : String)
    (a : Option String) (cmp : String) (b : Operand) (e : PyErr), (setConditionOn owner sig num cb name a cmp b).2 = some e →
    (setConditionOn owner sig num cb name a cmp b).1 = cb := by
  intro h
  have he := h "TransportBelt" someSigs someNums [] "circuit_condition" (some "signal-A") ">" (.const 5) .typeError (by decide)
  revert he
  decide

/-- C90 is false of the errors of conditions: the documentation says `DataFormatError` for a wrong comparator, signal or constant, but the arguments are
converted before the body runs, and the error is the `ValidationError` of pydantic, which is a `ValueError` and no `DataFormatError`. -/
theorem C90_error_refuted : ¬ ∀ (sig : String → Option Sig) (num : String → Option ℤ) (cb : Dict String (Option Cond)) (name : String) (a : Option String)
    (cmp : String) (b : Operand) (e : PyErr), setCondition sig num cb name a cmp b = .error e → e = .dataFormat := by
  intro h
  exact absurd (h someSigs someNums [] "circuit_condition" (some "signal-A") "=>" (.const 5) .valueError (by decide)) (by decide)

/-- C90 is false of texts: a right side that is a text and no signal should be refused, but a numeral is taken for a constant. -/
theorem C90_numeral_refuted : ¬ ∀ (sig : String → Option Sig) (num : String → Option ℤ) (cb : Dict String (Option Cond)) (name : String) (a : Option String)
    (cmp : String) (n : String), sig n = none → ∃ e, setCondition sig num cb name a cmp (.signal n) = .error e := by
  intro h
  obtain ⟨e, he⟩ := h someSigs someNums [] "circuit_condition" (some "signal-A") ">" "10" (by decide)
  rw [show setCondition someSigs someNums [] "circuit_condition" (some "signal-A") ">" (.signal "10") =
    .ok [("circuit_condition", some { first := some ⟨"signal-A", "virtual"⟩, comparator := ">", constant := 10 })] from by decide] at he
  nomatch he

end Record
end Draftsman
