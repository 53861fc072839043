import Verif.Props.GameData
import Verif.Props.ModLoad
/-
C75: the items and their order.  C76: the recipes of a category and of a machine.
-/
namespace Draftsman
namespace GameData
open Dict (get?_of_mem mem_of_get?)

/-! ### C75, what is claimed -/

/-- The subgroup and group of an item; without a subgroup it is in the one called "other". -/
def Home (gs : List Grp) (ss : List Sub) (i : Item) (s : Sub) (g : Grp) : Prop :=
  s ∈ ss ∧ g ∈ gs ∧ s.name = i.subgroup.getD "other".toList ∧ g.name = s.group

/-- The rank of an item in its subgroup and group. -/
def itemRank (g : Grp) (s : Sub) (i : Item) : Rank := ⟨(g.order, g.name), (s.order, s.name), (i.order, i.name), i.name⟩

/-- The names of groups are distinct, and so are those of subgroups and of items. -/
def Distinct (gs : List Grp) (ss : List Sub) (is : List Item) : Prop :=
  (gs.map (·.name)).Nodup ∧ (ss.map (·.name)).Nodup ∧ (is.map (·.name)).Nodup

/-! ### C75, lemmas -/

theorem toDict_aux {α : Type} (name : α → Str) : ∀ (l : List α) (d : Dict Str α), (d.keys ++ l.map name).Nodup →
    l.foldl (fun d x => d.set (name x) x) d = d ++ l.map fun x => (name x, x)
  | [], d, _ => by simp
  | x :: r, d, h => by
    have hx : name x ∉ d.keys := by
      intro hx
      rw [List.nodup_append] at h
      exact h.2.2 _ hx _ (by simp) rfl
    have hset : ∀ d : Dict Str α, name x ∉ d.keys → d.set (name x) x = d ++ [(name x, x)] := by
      intro d hd
      induction d with
      | nil => rfl
      | cons e t ih =>
        obtain ⟨k, v⟩ := e
        simp only [Dict.keys_cons, List.mem_cons, not_or] at hd
        rw [Dict.set, if_neg (fun hk => hd.1 hk.symm), ih hd.2]
        rfl
    rw [List.foldl_cons, hset d hx, toDict_aux name r]
    · simp
    · have : Dict.keys (d ++ [(name x, x)]) = d.keys ++ [name x] := by simp [Dict.keys]
      rw [this]
      simpa using h

theorem toDict_eq {α : Type} (name : α → Str) {l : List α} (h : (l.map name).Nodup) : toDict name l = l.map fun x => (name x, x) := by
  rw [toDict, toDict_aux name l [] (by simpa using h)]
  simp

theorem toDict_values {α : Type} (name : α → Str) {l : List α} (h : (l.map name).Nodup) : (toDict name l).map (·.2) = l := by
  rw [toDict_eq name h, List.map_map]
  simp [Function.comp_def]

theorem sortKey_lt {o o' : Option Str} {n n' : Str} : orderKey o ++ [n] < orderKey o' ++ [n'] ↔ Sooner (o, n) (o', n') := by
  have h1 : ¬ (['1'] : Str) < [] := by decide
  have h2 : ([] : Str) < ['1'] := by decide
  cases o <;> cases o' <;> simp [orderKey, Sooner, OrderLt, List.cons_lt_cons_iff, h1, h2]

theorem sortBy_perm {α : Type} (order : α → Option Str) (name : α → Str) (l : List α) : (sortBy order name l).Perm l :=
  List.perm_insertionSort _ _

theorem sortBy_pairwise {α : Type} (order : α → Option Str) (name : α → Str) {l : List α} (h : (l.map name).Nodup) :
    (sortBy order name l).Pairwise fun a b => Sooner (order a, name a) (order b, name b) := by
  have : Std.Total (fun a b : α => orderKey (order a) ++ [name a] ≤ orderKey (order b) ++ [name b]) := ⟨fun a b => le_total _ _⟩
  have : IsTrans α (fun a b : α => orderKey (order a) ++ [name a] ≤ orderKey (order b) ++ [name b]) := ⟨fun a b c => le_trans⟩
  have hp := List.pairwise_insertionSort (fun a b : α => orderKey (order a) ++ [name a] ≤ orderKey (order b) ++ [name b]) l
  have hn : ((sortBy order name l).map name).Nodup := ((sortBy_perm order name l).map name).nodup_iff.mpr h
  have hn' : (sortBy order name l).Pairwise fun a b => name a ≠ name b := List.pairwise_map.mp hn
  refine (hp.and hn').imp ?_
  rintro a b ⟨hle, hne⟩
  rw [← sortKey_lt]
  refine lt_of_le_of_ne hle fun he => hne ?_
  have := congrArg List.getLast? he
  simpa using this

theorem Sooner.asymm {a b : Option Str × Str} (h : Sooner a b) : ¬ Sooner b a := by
  obtain ⟨o, n⟩ := a
  obtain ⟨o', n'⟩ := b
  rw [← sortKey_lt] at h ⊢
  exact lt_asymm h

theorem Earlier.asymm {a b : Rank} (h : Earlier a b) : ¬ Earlier b a := by
  unfold Earlier at *
  intro h'
  have irr : ∀ x, ¬ Sooner x x := fun x hx => hx.asymm hx
  rcases h with h | ⟨e, h⟩
  · rcases h' with h' | ⟨e', _⟩
    · exact h.asymm h'
    · rw [e'] at h; exact irr _ h
  rcases h' with h' | ⟨_, h'⟩
  · rw [e] at h'; exact irr _ h'
  rcases h with h | ⟨e, h⟩
  · rcases h' with h' | ⟨e', _⟩
    · exact h.asymm h'
    · rw [e'] at h; exact irr _ h
  rcases h' with h' | ⟨_, h'⟩
  · rw [e] at h'; exact irr _ h'
  rcases h with h | ⟨e, h⟩
  · rcases h' with h' | ⟨e', _⟩
    · exact h.asymm h'
    · rw [e'] at h; exact irr _ h
  rcases h' with h' | ⟨_, h'⟩
  · rw [e] at h'; exact irr _ h'
  exact lt_asymm h h'

theorem eq_of_name {α : Type} {name : α → Str} {l : List α} (h : (l.map name).Nodup) {a b : α} (ha : a ∈ l) (hb : b ∈ l)
    (hn : name a = name b) : a = b := List.inj_on_of_nodup_map h ha hb hn

/-- An item belongs to one subgroup and one group. -/
theorem Home.unique {gs : List Grp} {ss : List Sub} {is : List Item} (hd : Distinct gs ss is) {i : Item} {s s' : Sub} {g g' : Grp}
    (h : Home gs ss i s g) (h' : Home gs ss i s' g') : s = s' ∧ g = g' := by
  have hs : s = s' := eq_of_name hd.2.1 h.1 h'.1 (h.2.2.1.trans h'.2.2.1.symm)
  subst hs
  exact ⟨rfl, eq_of_name hd.1 h.2.1 h'.2.1 (h.2.2.2.trans h'.2.2.2.symm)⟩

theorem nodup_filter {α : Type} {name : α → Str} {l : List α} (h : (l.map name).Nodup) (p : α → Bool) : ((l.filter p).map name).Nodup :=
  h.sublist (List.filter_sublist.map name)

theorem fill_names (is : List Item) : (is.map fill).map (·.name) = is.map (·.name) := by simp [fill, Function.comp_def]

theorem itemsOf_eq {is : List Item} (h : (is.map (·.name)).Nodup) (s : Sub) :
    itemsOf is s = sortBy Item.order Item.name ((is.map fill).filter fun i => i.subgroup.getD other = s.name) := by
  have hf : ((is.map fill).map Item.name).Nodup := by
    have := fill_names is
    rw [this]; exact h
  exact toDict_values _ (((sortBy_perm _ _ _).map Item.name).nodup_iff.mpr (nodup_filter hf _))

theorem subsOf_eq {ss : List Sub} (h : (ss.map (·.name)).Nodup) (g : Grp) :
    subsOf ss g = sortBy Sub.order Sub.name (ss.filter fun s => s.group = g.name) :=
  toDict_values _ (((sortBy_perm _ _ _).map Sub.name).nodup_iff.mpr (nodup_filter h _))

theorem mem_itemsOf {is : List Item} (h : (is.map (·.name)).Nodup) {s : Sub} {i : Item} :
    i ∈ itemsOf is s ↔ (∃ j ∈ is, fill j = i) ∧ s.name = i.subgroup.getD "other".toList := by
  rw [itemsOf_eq h, (sortBy_perm _ _ _).mem_iff, List.mem_filter, List.mem_map, decide_eq_true_eq, eq_comm (a := s.name)]
  rfl

theorem mem_subsOf {ss : List Sub} (h : (ss.map (·.name)).Nodup) {g : Grp} {s : Sub} : s ∈ subsOf ss g ↔ s ∈ ss ∧ g.name = s.group := by
  rw [subsOf_eq h, (sortBy_perm _ _ _).mem_iff, List.mem_filter, decide_eq_true_eq, eq_comm (a := g.name)]

/-- The items in the order in which they are put into the dictionary. -/
def flat (gs : List Grp) (ss : List Sub) (is : List Item) : List Item :=
  (sortBy Grp.order Grp.name gs).flatMap fun g => (subsOf ss g).flatMap fun s => itemsOf is s

theorem mem_flat {gs : List Grp} {ss : List Sub} {is : List Item} (hd : Distinct gs ss is) {i : Item} :
    i ∈ flat gs ss is ↔ (∃ j ∈ is, fill j = i) ∧ ∃ s g, Home gs ss i s g := by
  simp only [flat, List.mem_flatMap, (sortBy_perm _ _ _).mem_iff, mem_subsOf hd.2.1, mem_itemsOf hd.2.2, Home]
  constructor
  · rintro ⟨g, hg, s, ⟨hs, hgs⟩, hi, hsi⟩
    exact ⟨hi, s, g, hs, hg, hsi, hgs⟩
  · rintro ⟨hi, s, g, hs, hg, hsi, hgs⟩
    exact ⟨g, hg, s, ⟨hs, hgs⟩, hi, hsi⟩

theorem flat_pairwise {gs : List Grp} {ss : List Sub} {is : List Item} (hd : Distinct gs ss is) :
    (flat gs ss is).Pairwise fun i j => ∀ s g s' g', Home gs ss i s g → Home gs ss j s' g' → Earlier (itemRank g s i) (itemRank g' s' j) := by
  have hgs := sortBy_pairwise Grp.order Grp.name hd.1
  have home : ∀ {g s i}, g ∈ sortBy Grp.order Grp.name gs → s ∈ subsOf ss g → i ∈ itemsOf is s → Home gs ss i s g := by
    intro g s i hg hs hi
    rw [(sortBy_perm _ _ _).mem_iff] at hg
    rw [mem_subsOf hd.2.1] at hs
    rw [mem_itemsOf hd.2.2] at hi
    exact ⟨hs.1, hg, hi.2, hs.2⟩
  rw [flat, List.pairwise_flatMap]
  constructor
  · intro g hg
    rw [List.pairwise_flatMap]
    constructor
    · intro s hs
      have hf : ((is.map fill).map Item.name).Nodup := by
        have := fill_names is
        rw [this]; exact hd.2.2
      have hp := sortBy_pairwise Item.order Item.name (nodup_filter hf fun i => i.subgroup.getD other = s.name)
      rw [← itemsOf_eq hd.2.2] at hp
      refine hp.imp_of_mem ?_
      intro i j hi hj hij s1 g1 s2 g2 h1 h2
      obtain ⟨rfl, rfl⟩ := h1.unique hd (home hg hs hi)
      obtain ⟨rfl, rfl⟩ := h2.unique hd (home hg hs hj)
      exact Or.inr ⟨rfl, Or.inr ⟨rfl, Or.inl hij⟩⟩
    · have hp := sortBy_pairwise Sub.order Sub.name (nodup_filter hd.2.1 fun s => s.group = g.name)
      rw [← subsOf_eq hd.2.1] at hp
      refine hp.imp_of_mem ?_
      intro s s' hs hs' hss i hi j hj s1 g1 s2 g2 h1 h2
      obtain ⟨rfl, rfl⟩ := h1.unique hd (home hg hs hi)
      obtain ⟨rfl, rfl⟩ := h2.unique hd (home hg hs' hj)
      exact Or.inr ⟨rfl, Or.inl hss⟩
  · refine hgs.imp_of_mem ?_
    intro g g' hg hg' hgg i hi j hj s1 g1 s2 g2 h1 h2
    obtain ⟨s, hs, hi⟩ := List.mem_flatMap.mp hi
    obtain ⟨s', hs', hj⟩ := List.mem_flatMap.mp hj
    obtain ⟨rfl, rfl⟩ := h1.unique hd (home hg hs hi)
    obtain ⟨rfl, rfl⟩ := h2.unique hd (home hg' hs' hj)
    exact Or.inl hgg

theorem flat_names {gs : List Grp} {ss : List Sub} {is : List Item} (hd : Distinct gs ss is) : ((flat gs ss is).map Item.name).Nodup := by
  rw [List.Nodup, List.pairwise_map]
  refine (flat_pairwise hd).imp_of_mem ?_
  intro i j hi hj h hn
  obtain ⟨⟨i', hi', rfl⟩, s, g, hh⟩ := (mem_flat hd).mp hi
  obtain ⟨⟨j', hj', rfl⟩, s', g', hh'⟩ := (mem_flat hd).mp hj
  have : i' = j' := eq_of_name hd.2.2 hi' hj' hn
  subst this
  have := h s g s g hh hh
  exact this.asymm this

theorem getItems_ok {gs : List Grp} {ss : List Sub} {is : List Item} {D : Dict Str Item} (h : getItems gs ss is = .ok D) :
    (∀ s ∈ ss, ∃ g ∈ gs, g.name = s.group) ∧ (∀ i ∈ is, ∃ s ∈ ss, s.name = i.subgroup.getD "other".toList) ∧
      D = toDict Item.name (flat gs ss is) := by
  unfold getItems at h
  split at h
  · simp at h
  · rename_i h1
    split at h
    · simp at h
    · rename_i h2
      refine ⟨?_, ?_, by simpa [flat, eq_comm] using h⟩
      · simpa using h1
      · simpa [other] using h2

theorem items_eq {gs : List Grp} {ss : List Sub} {is : List Item} {D : Dict Str Item} (hd : Distinct gs ss is)
    (h : getItems gs ss is = .ok D) : D = (flat gs ss is).map fun i => (i.name, i) := by
  rw [(getItems_ok h).2.2, toDict_eq _ (flat_names hd)]

/-- Every item has a home. -/
theorem home_of_ok {gs : List Grp} {ss : List Sub} {is : List Item} {D : Dict Str Item}
    (h : getItems gs ss is = .ok D) {i : Item} (hi : i ∈ is) : ∃ s g, Home gs ss (fill i) s g := by
  obtain ⟨s, hs, hsn⟩ := (getItems_ok h).2.1 i hi
  obtain ⟨g, hg, hgn⟩ := (getItems_ok h).1 s hs
  exact ⟨s, g, hs, hg, hsn, hgn⟩

theorem mem_items {gs : List Grp} {ss : List Sub} {is : List Item} {D : Dict Str Item} (hd : Distinct gs ss is)
    (h : getItems gs ss is = .ok D) {e : Str × Item} : e ∈ D ↔ ∃ i ∈ is, e = (i.name, fill i) := by
  rw [items_eq hd h, List.mem_map]
  constructor
  · rintro ⟨j, hj, rfl⟩
    obtain ⟨⟨i, hi, rfl⟩, _⟩ := (mem_flat hd).mp hj
    exact ⟨i, hi, rfl⟩
  · rintro ⟨i, hi, rfl⟩
    exact ⟨fill i, (mem_flat hd).mpr ⟨⟨i, hi, rfl⟩, home_of_ok h hi⟩, rfl⟩

/-! ### C75, theorems -/

/-- The dictionary has no key twice, whatever the items. -/
theorem C75_keys {gs : List Grp} {ss : List Sub} {is : List Item} {D : Dict Str Item} (h : getItems gs ss is = .ok D) : D.keys.Nodup := by
  rw [(getItems_ok h).2.2, toDict]
  have : ∀ (l : List Item) (d : Dict Str Item), d.keys.Nodup → (l.foldl (fun d x => d.set (Item.name x) x) d).keys.Nodup := by
    intro l
    induction l with
    | nil => intro d hd; exact hd
    | cons x r ih => intro d hd; exact ih _ (Dict.nodup_set hd _ _)
  exact this _ [] (by simp)

/-- It holds every item under its name, with the empty order if it had none, and nothing else. -/
theorem C75_items {gs : List Grp} {ss : List Sub} {is : List Item} {D : Dict Str Item} (hd : Distinct gs ss is)
    (h : getItems gs ss is = .ok D) : D.Perm (is.map fun i => (i.name, { i with order := some (i.order.getD []) })) := by
  have hk := C75_keys h
  refine (List.perm_ext_iff_of_nodup (List.Nodup.of_map _ hk) (List.Nodup.of_map Prod.fst ?_)).mpr ?_
  · rw [List.map_map]; exact hd.2.2
  · intro e
    rw [mem_items hd h, List.mem_map]
    constructor
    · rintro ⟨i, hi, rfl⟩; exact ⟨i, hi, rfl⟩
    · rintro ⟨i, hi, rfl⟩; exact ⟨i, hi, rfl⟩

/-- The items come by group, within it by subgroup, within that by order and name; groups and subgroups likewise by order and name, those
without an order last. -/
theorem C75_sorted {gs : List Grp} {ss : List Sub} {is : List Item} {D : Dict Str Item} (hd : Distinct gs ss is)
    (h : getItems gs ss is = .ok D) :
    D.Pairwise fun a b => ∃ s g s' g', Home gs ss a.2 s g ∧ Home gs ss b.2 s' g' ∧ Earlier (itemRank g s a.2) (itemRank g' s' b.2) := by
  rw [items_eq hd h, List.pairwise_map]
  refine (flat_pairwise hd).imp_of_mem ?_
  intro i j hi hj hij
  obtain ⟨_, s, g, hh⟩ := (mem_flat hd).mp hi
  obtain ⟨_, s', g', hh'⟩ := (mem_flat hd).mp hj
  exact ⟨s, g, s', g', hh, hh', hij s g s' g' hh hh'⟩

/-- It works if every subgroup has its group and every item its subgroup, and otherwise it raises a `KeyError`. -/
theorem C75_works (gs : List Grp) (ss : List Sub) (is : List Item) :
    ((∃ D, getItems gs ss is = .ok D) ↔
      (∀ s ∈ ss, ∃ g ∈ gs, g.name = s.group) ∧ ∀ i ∈ is, ∃ s ∈ ss, s.name = i.subgroup.getD "other".toList) ∧
    ((∃ D, getItems gs ss is = .ok D) ∨ getItems gs ss is = .error .keyError) := by
  constructor
  · constructor
    · rintro ⟨D, h⟩
      exact ⟨(getItems_ok h).1, (getItems_ok h).2.1⟩
    · rintro ⟨h1, h2⟩
      unfold getItems
      rw [if_neg (by simpa using h1), if_neg (by simpa [other] using h2)]
      exact ⟨_, rfl⟩
  · unfold getItems
    split
    · exact Or.inr rfl
    · split
      · exact Or.inr rfl
      · exact Or.inl ⟨_, rfl⟩

/-- The two sorts agree: objects that bear the names of items are put by `get_order` into the order of the items, provided groups and
subgroups have orders. -/
theorem C75_agrees {gs : List Grp} {ss : List Sub} {is : List Item} {D : Dict Str Item} (hd : Distinct gs ss is)
    (h : getItems gs ss is = .ok D) (hg : ∀ g ∈ gs, g.order.isSome) (hs : ∀ s ∈ ss, s.order.isSome)
    {objs : List Obj} (ho : ∀ o ∈ objs, o.mined = none ∧ o.name ≠ [] ∧ o.name ∈ D.keys) :
    ∃ L, getOrder D (toDict Sub.name ss) (toDict Grp.name gs) objs = .ok L ∧
      L.Pairwise fun n m => D.keys.idxOf n ≤ D.keys.idxOf m := by
  have hk := C75_keys h
  have hget : ∀ {α : Type} {name : α → Str} {l : List α}, (l.map name).Nodup → ∀ x ∈ l, (toDict name l).get? (name x) = some x := by
    intro α name l hl x hx
    have hmem : (name x, x) ∈ toDict name l := by rw [toDict_eq name hl]; exact List.mem_map_of_mem hx
    have hnd : (toDict name l).keys.Nodup := by rw [toDict_eq name hl]; simpa [Dict.keys, Function.comp_def] using hl
    exact get?_of_mem hnd hmem
  have hrank : ∀ o ∈ objs, ∃ i s g, (o.name, i) ∈ D ∧ i.name = o.name ∧ Home gs ss i s g ∧
      Ranked D (toDict Sub.name ss) (toDict Grp.name gs) o ⟨(g.order, g.name), (s.order, s.name), (i.order, i.name), o.name⟩ := by
    intro o hob
    obtain ⟨h1, h2, h3⟩ := ho o hob
    obtain ⟨i, hi⟩ := Option.isSome_iff_exists.mp ((Dict.get?_isSome D o.name).mpr h3)
    have hmem := mem_of_get? hi
    obtain ⟨j, hj, hji⟩ := (mem_items hd h).mp hmem
    obtain ⟨s, g, hh⟩ := home_of_ok h hj
    simp only [Prod.mk.injEq] at hji
    rw [← hji.2] at hh
    have hio : i.order.isSome := by rw [hji.2]; rfl
    have hor : i.order.or o.order = i.order := by
      obtain ⟨x, hx⟩ := Option.isSome_iff_exists.mp hio
      rw [hx]; rfl
    refine ⟨i, s, g, hmem, by rw [hji.1, hji.2]; rfl, hh, ?_⟩
    have := Ranked.item (items := D) (subs := toDict Sub.name ss) (grps := toDict Grp.name gs) (o := o) i s g (Or.inl ⟨h1, h2, hi⟩)
      ⟨by rw [← hh.2.2.1]; exact hget hd.2.1 s hh.1, by rw [← hh.2.2.2]; exact hget hd.1 g hh.2.1, hs s hh.1, hg g hh.2.1⟩
    rwa [hor] at this
  obtain ⟨L, hL⟩ := (C73_works_partial D (toDict Sub.name ss) (toDict Grp.name gs) objs).1.mpr fun o hob => by
    obtain ⟨i, s, g, _, _, _, hr⟩ := hrank o hob
    exact ⟨_, hr⟩
  refine ⟨L, hL, ?_⟩
  obtain ⟨os, hp, rfl, hpw⟩ := C73_sorted hL
  rw [List.pairwise_map]
  refine hpw.imp_of_mem ?_
  intro a b ha hb hab
  by_contra hlt
  push Not at hlt
  obtain ⟨i, s, g, hi, hin, hh, hr⟩ := hrank a (hp.mem_iff.mp ha)
  obtain ⟨j, s', g', hj, hjn, hh', hr'⟩ := hrank b (hp.mem_iff.mp hb)
  refine hab _ _ hr hr' ?_
  have hka := (ho a (hp.mem_iff.mp ha)).2.2
  have hkb := (ho b (hp.mem_iff.mp hb)).2.2
  have hsort := List.pairwise_iff_getElem.mp (C75_sorted hd h)
  have la : D.keys.idxOf a.name < D.length := by simpa [Dict.keys] using List.idxOf_lt_length_of_mem hka
  have lb : D.keys.idxOf b.name < D.length := by simpa [Dict.keys] using List.idxOf_lt_length_of_mem hkb
  obtain ⟨s1, g1, s2, g2, e1, e2, e3⟩ := hsort _ _ lb la hlt
  have hat : ∀ (n : Str) (x : Item) (hl : D.keys.idxOf n < D.length), (n, x) ∈ D → D[D.keys.idxOf n] = (n, x) := by
    intro n x hl hx
    have h1 : (D[D.keys.idxOf n]).1 = n := by
      have := List.getElem_idxOf (x := n) (xs := D.keys) (by simpa [Dict.keys] using hl)
      exact (List.getElem_map (fun e : Str × Item => e.1) (l := D)).symm.trans this
    have h2 := get?_of_mem hk (List.getElem_mem hl)
    have h3 := get?_of_mem hk hx
    rw [h1, h3] at h2
    exact Prod.ext h1 (by simpa using h2.symm)
  rw [hat _ _ _ hj] at e1 e3
  rw [hat _ _ _ hi] at e2 e3
  obtain ⟨rfl, rfl⟩ := e1.unique hd hh'
  obtain ⟨rfl, rfl⟩ := e2.unique hd hh
  simpa [itemRank, hin, hjn] using e3

/-- Refuted: an item is placed by its own subgroup.  If two categories have items of the same name, the one added later is returned, but in
the place of the other when that one's subgroup comes first, although it belongs to a later subgroup. -/
theorem C75_twice_refuted : ∃ (gs : List Grp) (ss : List Sub) (is : List Item) (D : Dict Str Item), getItems gs ss is = .ok D ∧
    (gs.map (·.name)).Nodup ∧ (ss.map (·.name)).Nodup ∧
    ¬ D.Pairwise fun a b => ∃ s g s' g', Home gs ss a.2 s g ∧ Home gs ss b.2 s' g' ∧ Earlier (itemRank g s a.2) (itemRank g' s' b.2) := by
  refine ⟨[⟨['g'], none⟩], [⟨['s'], some ['a'], ['g']⟩, ⟨['t'], some ['b'], ['g']⟩],
    [⟨['x'], some ['a'], some ['s']⟩, ⟨['x'], some ['z'], some ['t']⟩, ⟨['y'], some ['b'], some ['s']⟩],
    [(['x'], ⟨['x'], some ['z'], some ['t']⟩), (['y'], ⟨['y'], some ['b'], some ['s']⟩)], by decide +kernel, by decide, by decide, ?_⟩
  intro h
  rw [List.pairwise_cons] at h
  obtain ⟨s, g, s', g', h1, h2, h3⟩ := h.1 (['y'], ⟨['y'], some ['b'], some ['s']⟩) (by simp)
  obtain ⟨a1, a2, a3, a4⟩ := h1
  obtain ⟨b1, b2, b3, b4⟩ := h2
  simp only [List.mem_cons, List.not_mem_nil, or_false] at a1 a2 b1 b2
  subst a2 b2
  rcases a1 with rfl | rfl
  · simp at a3
  rcases b1 with rfl | rfl
  · revert h3
    simp [Earlier, Sooner, OrderLt, itemRank]
    decide
  · simp at b3

/-- Two groups, subgroups with and without orders, an item without an order and one without a subgroup. -/
example : Distinct [⟨['g'], none⟩, ⟨['h'], some ['a']⟩] [⟨"other".toList, none, ['g']⟩, ⟨['s'], some ['b'], ['h']⟩]
      [⟨['x'], some ['a'], none⟩, ⟨['z'], some ['c'], some ['s']⟩, ⟨['y'], none, some ['s']⟩] ∧
    getItems [⟨['g'], none⟩, ⟨['h'], some ['a']⟩] [⟨"other".toList, none, ['g']⟩, ⟨['s'], some ['b'], ['h']⟩]
      [⟨['x'], some ['a'], none⟩, ⟨['z'], some ['c'], some ['s']⟩, ⟨['y'], none, some ['s']⟩] =
      .ok [(['y'], ⟨['y'], some [], some ['s']⟩), (['z'], ⟨['z'], some ['c'], some ['s']⟩), (['x'], ⟨['x'], some ['a'], none⟩)] := by
  refine ⟨by unfold Distinct; decide, by decide +kernel⟩

/-- The two sorts on the same data. -/
example : getItems [⟨['h'], some ['a']⟩] [⟨['s'], some ['b'], ['h']⟩] [⟨['z'], some ['c'], some ['s']⟩, ⟨['y'], none, some ['s']⟩] =
      .ok [(['y'], ⟨['y'], some [], some ['s']⟩), (['z'], ⟨['z'], some ['c'], some ['s']⟩)] ∧
    getOrder [(['y'], ⟨['y'], some [], some ['s']⟩), (['z'], ⟨['z'], some ['c'], some ['s']⟩)]
      (toDict Sub.name [⟨['s'], some ['b'], ['h']⟩]) (toDict Grp.name [⟨['h'], some ['a']⟩])
      [⟨['z'], none, none, ['t'], none⟩, ⟨['y'], none, none, ['t'], none⟩] = .ok [['y'], ['z']] := by
  constructor <;> decide +kernel

/-! ### C76, lemmas -/

theorem categories_init (cs : List Str) (c : Str) : (noRecipes cs).get? c = if c ∈ cs then some [] else none := by
  have : ∀ d : Dict Str (List Str), (cs.foldl (fun (d : Dict Str (List Str)) c => d.set c []) d).get? c = if c ∈ cs then some [] else d.get? c := by
    induction cs with
    | nil => intro d; simp
    | cons x r ih =>
      intro d
      rw [List.foldl_cons, ih, Dict.get?_set]
      by_cases h : c ∈ r
      · simp [h]
      · by_cases hx : x = c
        · simp [hx]
        · have : ¬ c = x := fun y => hx y.symm
          simp [h, hx, this]
  exact this []

theorem addAll_spec : ∀ (l : List Recipe) (d : Dict Str (List Str)),
    ((∀ r ∈ l, r.cat ∈ d.keys) → ∃ D, l.foldlM addRecipe d = .ok D ∧ D.keys = d.keys ∧
      ∀ c, D.get? c = (d.get? c).map fun ns => ns ++ (l.filter fun r => r.cat = c).map (·.name)) ∧
    ((∃ r ∈ l, r.cat ∉ d.keys) → l.foldlM addRecipe d = .error .keyError)
  | [], d => by
    refine ⟨fun _ => ⟨d, rfl, rfl, fun c => ?_⟩, by simp⟩
    simp
  | r :: l, d => by
    by_cases hr : r.cat ∈ d.keys
    · obtain ⟨ns, hns⟩ := Option.isSome_iff_exists.mp ((Dict.get?_isSome d r.cat).mpr hr)
      have hadd : addRecipe d r = .ok (d.set r.cat (ns ++ [r.name])) := by simp [addRecipe, hns]
      have hkeys : (d.set r.cat (ns ++ [r.name])).keys = d.keys := by rw [Dict.keys_set, if_pos hr]
      have ih := addAll_spec l (d.set r.cat (ns ++ [r.name]))
      rw [hkeys] at ih
      simp only [List.foldlM_cons, hadd, bind, Except.bind]
      constructor
      · intro h
        obtain ⟨D, h1, h2, h3⟩ := ih.1 fun x hx => h x (by simp [hx])
        refine ⟨D, h1, h2, fun c => ?_⟩
        rw [h3 c, Dict.get?_set]
        by_cases hc : r.cat = c
        · subst hc
          simp [hns]
        · simp [hc]
      · rintro ⟨x, hx, hn⟩
        rcases List.mem_cons.mp hx with rfl | hx
        · exact absurd hr hn
        · exact ih.2 ⟨x, hx, hn⟩
    · have hadd : addRecipe d r = .error .keyError := by
        have := (Dict.get?_eq_none d r.cat).mpr hr
        simp [addRecipe, this]
      simp only [List.foldlM_cons, hadd, bind, Except.bind]
      exact ⟨fun h => absurd (h r (List.mem_cons_self)) hr, fun _ => trivial⟩

theorem mem_categories (cs : List Str) (c : Str) : c ∈ (noRecipes cs).keys ↔ c ∈ cs := by
  rw [← Dict.get?_isSome, categories_init]
  by_cases h : c ∈ cs <;> simp [h]

theorem forMachine_aux (d : Dict Str (List Str)) : ∀ (cats acc : List Str),
    cats.foldlM (addCategory d) acc =
      if ∀ c ∈ cats, c ∈ d.keys then .ok (acc ++ cats.flatMap fun c => (d.get? c).getD []) else .error .keyError
  | [], acc => by simp [pure, Except.pure]
  | c :: r, acc => by
    by_cases hc : c ∈ d.keys
    · obtain ⟨ns, hns⟩ := Option.isSome_iff_exists.mp ((Dict.get?_isSome d c).mpr hc)
      simp only [List.foldlM_cons, addCategory, hns, bind, Except.bind]
      rw [show (r.foldlM (addCategory d) (acc ++ ns)) = _ from forMachine_aux d r (acc ++ ns)]
      simp [hc, hns]
    · have := (Dict.get?_eq_none d c).mpr hc
      simp [List.foldlM_cons, addCategory, this, bind, Except.bind, hc]

/-! ### C76, theorems -/

/-- Every category lists the recipes of that category, in the order of the recipes; those without one are for crafting. -/
theorem C76_categories {cs : List Str} {l : List Recipe} {D : Dict Str (List Str)} (h : recipeCategories cs l = .ok D) (c : Str) :
    D.get? c = if c ∈ cs then some ((l.filter fun r => r.category.getD "crafting".toList = c).map (·.name)) else none := by
  unfold recipeCategories at h
  have hs := addAll_spec l (noRecipes cs)
  by_cases hall : ∀ r ∈ l, r.cat ∈ (noRecipes cs).keys
  · obtain ⟨D', h1, _, h3⟩ := hs.1 hall
    rw [h1, Except.ok.injEq] at h
    subst h
    rw [h3 c, categories_init]
    by_cases hc : c ∈ cs
    · rw [if_pos hc, if_pos hc]; rfl
    · rw [if_neg hc, if_neg hc]; rfl
  · push Not at hall
    rw [hs.2 hall] at h
    cases h

/-- It works if every recipe's category is there, and otherwise raises a `KeyError`. -/
theorem C76_works (cs : List Str) (l : List Recipe) :
    ((∃ D, recipeCategories cs l = .ok D) ↔ ∀ r ∈ l, r.category.getD "crafting".toList ∈ cs) ∧
    ((∃ D, recipeCategories cs l = .ok D) ∨ recipeCategories cs l = .error .keyError) := by
  unfold recipeCategories
  have hs := addAll_spec l (noRecipes cs)
  simp only [mem_categories] at hs
  by_cases hall : ∀ r ∈ l, r.cat ∈ cs
  · obtain ⟨D, h1, _⟩ := hs.1 hall
    exact ⟨⟨fun _ => hall, fun _ => ⟨D, h1⟩⟩, Or.inl ⟨D, h1⟩⟩
  · have h2 := hs.2 (by push Not at hall; exact hall)
    refine ⟨⟨?_, fun h => absurd h hall⟩, Or.inr h2⟩
    rintro ⟨D, h⟩
    rw [h2] at h; cases h

/-- A machine is listed with the recipes whose category is one of its own, and no others. -/
theorem C76_machine {cs : List Str} {l : List Recipe} {D : Dict Str (List Str)} (h : recipeCategories cs l = .ok D) {cats L : List Str}
    (hm : forMachine D cats = .ok L) (n : Str) :
    n ∈ L ↔ ∃ r ∈ l, r.name = n ∧ r.category.getD "crafting".toList ∈ cats := by
  unfold forMachine at hm
  rw [forMachine_aux] at hm
  split at hm
  · rename_i hall
    simp only [List.nil_append, Except.ok.injEq] at hm
    subst hm
    simp only [List.mem_flatMap]
    constructor
    · rintro ⟨c, hc, hn⟩
      rw [C76_categories h c] at hn
      split at hn
      · simp only [Option.getD_some, List.mem_map, List.mem_filter, decide_eq_true_eq] at hn
        obtain ⟨r, ⟨hr, hrc⟩, rfl⟩ := hn
        exact ⟨r, hr, rfl, hrc ▸ hc⟩
      · simp at hn
    · rintro ⟨r, hr, rfl, hc⟩
      refine ⟨_, hc, ?_⟩
      have hin := (C76_works cs l).1.mp ⟨D, h⟩ r hr
      rw [C76_categories h, if_pos hin]
      simp only [Option.getD_some, List.mem_map, List.mem_filter, decide_eq_true_eq]
      exact ⟨r, ⟨hr, rfl⟩, rfl⟩
  · cases hm

/-- No recipe is listed twice for a machine, as long as recipes have different names and the machine names no category twice. -/
theorem C76_once {cs : List Str} {l : List Recipe} {D : Dict Str (List Str)} (h : recipeCategories cs l = .ok D) {cats L : List Str}
    (hm : forMachine D cats = .ok L) (hl : (l.map (·.name)).Nodup) (hc : cats.Nodup) : L.Nodup := by
  unfold forMachine at hm
  rw [forMachine_aux] at hm
  split at hm
  · simp only [List.nil_append, Except.ok.injEq] at hm
    subst hm
    have hsub : ∀ c, ((D.get? c).getD []).Sublist (l.map (·.name)) := by
      intro c
      rw [C76_categories h c]
      split
      · exact List.filter_sublist.map _
      · exact List.nil_sublist _
    refine List.pairwise_flatMap.mpr ⟨fun c _ => hl.sublist (hsub c), hc.imp ?_⟩
    intro c c' hne x hx y hy hxy
    subst hxy
    rw [C76_categories h c] at hx
    rw [C76_categories h c'] at hy
    split at hx
    · split at hy
      · simp only [Option.getD_some, List.mem_map, List.mem_filter, decide_eq_true_eq] at hx hy
        obtain ⟨r, ⟨hr, hrc⟩, hrn⟩ := hx
        obtain ⟨r', ⟨hr', hrc'⟩, hrn'⟩ := hy
        have : r = r' := eq_of_name hl hr hr' (hrn.trans hrn'.symm)
        subst this
        exact hne (hrc.symm.trans hrc')
      · simp at hy
    · simp at hx
  · cases hm

/-- A machine can be listed if its categories are there. -/
theorem C76_machine_works {cs : List Str} {l : List Recipe} {D : Dict Str (List Str)} (h : recipeCategories cs l = .ok D) (cats : List Str) :
    ((∃ L, forMachine D cats = .ok L) ↔ ∀ c ∈ cats, c ∈ cs) ∧
    ((∃ L, forMachine D cats = .ok L) ∨ forMachine D cats = .error .keyError) := by
  have hk : ∀ c, c ∈ D.keys ↔ c ∈ cs := by
    intro c
    rw [← Dict.get?_isSome, C76_categories h c]
    by_cases hc : c ∈ cs <;> simp [hc]
  unfold forMachine
  rw [forMachine_aux]
  simp only [hk]
  by_cases hall : ∀ c ∈ cats, c ∈ cs
  · rw [if_pos hall]; exact ⟨⟨fun _ => hall, fun _ => ⟨_, rfl⟩⟩, Or.inl ⟨_, rfl⟩⟩
  · rw [if_neg hall]; exact ⟨⟨fun ⟨L, h⟩ => by simp at h, fun h => absurd h hall⟩, Or.inr rfl⟩

/-- Three recipes in two categories, and a machine for both. -/
example : recipeCategories ["crafting".toList, "smelting".toList]
      [⟨['a'], none⟩, ⟨['b'], some "smelting".toList⟩, ⟨['c'], some "crafting".toList⟩] =
      .ok [("crafting".toList, [['a'], ['c']]), ("smelting".toList, [['b']])] ∧
    forMachine [("crafting".toList, [['a'], ['c']]), ("smelting".toList, [['b']])] ["smelting".toList, "crafting".toList] =
      .ok [['b'], ['a'], ['c']] := by
  constructor <;> decide +kernel

end GameData
end Draftsman
