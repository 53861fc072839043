import Verif.Model.GameData
import Verif.Proof.Dict
import Verif.Proof.Except
import Mathlib.Data.List.Perm.Basic
/-
C73: the order of the game's objects.  C74: the conversion of Lua tables.
-/
namespace Draftsman
namespace GameData

/-! ### C73, what is claimed -/

/-- A missing order comes after every order that is there; others compare as strings. -/
def OrderLt : Option Str → Option Str → Prop
  | some x, some y => x < y
  | some _, none => True
  | none, _ => False

/-- Something with an order and a name comes sooner than another if its order does, or if the orders are equal and its name comes sooner. -/
def Sooner (a b : Option Str × Str) : Prop := OrderLt a.1 b.1 ∨ a.1 = b.1 ∧ a.2 < b.2

/-- By what an object is sorted. -/
structure Rank where
  group : Option Str × Str
  subgroup : Option Str × Str
  object : Option Str × Str
  name : Str
  deriving DecidableEq

/-- First by group, then by subgroup, then by the object or its item, and last by the name of the object. -/
def Earlier (a b : Rank) : Prop :=
  Sooner a.group b.group ∨ a.group = b.group ∧ (Sooner a.subgroup b.subgroup ∨ a.subgroup = b.subgroup ∧
    (Sooner a.object b.object ∨ a.object = b.object ∧ a.name < b.name))

/-- The item that stands for an object: the one it is mined as, or the one of its name. -/
def Stands (items : Dict Str Item) (o : Obj) (i : Item) : Prop :=
  (o.mined = none ∧ o.name ≠ [] ∧ items.get? o.name = some i) ∨ (∃ m, m ≠ [] ∧ o.mined = some m ∧ items.get? m = some i)

/-- No item stands for the object. -/
def Alone (items : Dict Str Item) (o : Obj) : Prop :=
  o.mined = some [] ∨ o.mined = none ∧ (o.name = [] ∨ items.get? o.name = none)

/-- `g` and `s` are the group and subgroup to which the name `n` of a subgroup leads; both have orders. -/
def LeadsTo (subs : Dict Str Sub) (grps : Dict Str Grp) (n : Str) (s : Sub) (g : Grp) : Prop :=
  subs.get? n = some s ∧ grps.get? s.group = some g ∧ s.order.isSome ∧ g.order.isSome

/-- The rank of an object: by its item, if there is one, with the order of the object should the item have none; otherwise by itself.
Without a subgroup it is among the fluids if it is one, and among the rest if not. -/
inductive Ranked (items : Dict Str Item) (subs : Dict Str Sub) (grps : Dict Str Grp) (o : Obj) : Rank → Prop
  | item (i : Item) (s : Sub) (g : Grp) (hi : Stands items o i)
      (hl : LeadsTo subs grps (i.subgroup.getD "other".toList) s g) :
      Ranked items subs grps o ⟨(g.order, g.name), (s.order, s.name), (i.order.or o.order, i.name), o.name⟩
  | alone (s : Sub) (g : Grp) (hi : Alone items o)
      (hl : LeadsTo subs grps (o.subgroup.getD (if o.type = "fluid".toList then "fluid".toList else "other".toList)) s g) :
      Ranked items subs grps o ⟨(g.order, g.name), (s.order, s.name), (o.order, o.name), o.name⟩

/-! ### C73, lemmas -/

/-- The key of a rank. -/
def keyOf (r : Rank) : List Str :=
  [r.group.1.getD [], r.group.2, r.subgroup.1.getD [], r.subgroup.2] ++ orderKey r.object.1 ++ [r.object.2, r.name]

/-- Group and subgroup have orders. -/
def Full (r : Rank) : Prop := r.group.1.isSome ∧ r.subgroup.1.isSome

theorem keyOf_lt {a b : Rank} (ha : Full a) (hb : Full b) : keyOf a < keyOf b ↔ Earlier a b := by
  obtain ⟨⟨go, gn⟩, ⟨so, sn⟩, ⟨oo, on⟩, n⟩ := a
  obtain ⟨⟨go', gn'⟩, ⟨so', sn'⟩, ⟨oo', on'⟩, n'⟩ := b
  obtain ⟨ha1, ha2⟩ := ha
  obtain ⟨hb1, hb2⟩ := hb
  simp only at ha1 ha2 hb1 hb2
  obtain ⟨go, rfl⟩ := Option.isSome_iff_exists.mp ha1
  obtain ⟨so, rfl⟩ := Option.isSome_iff_exists.mp ha2
  obtain ⟨go', rfl⟩ := Option.isSome_iff_exists.mp hb1
  obtain ⟨so', rfl⟩ := Option.isSome_iff_exists.mp hb2
  have h1 : ¬ (['1'] : Str) < [] := by decide
  have h2 : ([] : Str) < ['1'] := by decide
  cases oo <;> cases oo' <;>
    simp [keyOf, orderKey, Earlier, Sooner, OrderLt, List.cons_lt_cons_iff, h1, h2] <;> tauto

theorem keyOf_inj {a b : Rank} (ha : Full a) (hb : Full b) (h : keyOf a = keyOf b) : a = b := by
  obtain ⟨⟨go, gn⟩, ⟨so, sn⟩, ⟨oo, on⟩, n⟩ := a
  obtain ⟨⟨go', gn'⟩, ⟨so', sn'⟩, ⟨oo', on'⟩, n'⟩ := b
  obtain ⟨ha1, ha2⟩ := ha
  obtain ⟨hb1, hb2⟩ := hb
  simp only at ha1 ha2 hb1 hb2
  obtain ⟨go, rfl⟩ := Option.isSome_iff_exists.mp ha1
  obtain ⟨so, rfl⟩ := Option.isSome_iff_exists.mp ha2
  obtain ⟨go', rfl⟩ := Option.isSome_iff_exists.mp hb1
  obtain ⟨so', rfl⟩ := Option.isSome_iff_exists.mp hb2
  cases oo <;> cases oo' <;> simp_all [keyOf, orderKey]

theorem Ranked.full {items : Dict Str Item} {subs : Dict Str Sub} {grps : Dict Str Grp} {o : Obj} {r : Rank}
    (h : Ranked items subs grps o r) : Full r := by
  cases h with
  | item i s g hi hl => exact ⟨hl.2.2.2, hl.2.2.1⟩
  | alone s g hi hl => exact ⟨hl.2.2.2, hl.2.2.1⟩

theorem Ranked.name_eq {items : Dict Str Item} {subs : Dict Str Sub} {grps : Dict Str Grp} {o : Obj} {r : Rank}
    (h : Ranked items subs grps o r) : r.name = o.name := by
  cases h <;> rfl

theorem place_ok {subs : Dict Str Sub} {grps : Dict Str Grp} {n : Str} {p : Sub × Grp} :
    place subs grps n = .ok p ↔ subs.get? n = some p.1 ∧ grps.get? p.1.group = some p.2 := by
  obtain ⟨s, g⟩ := p
  unfold place
  cases h : subs.get? n with
  | none => simp
  | some s' =>
    cases h' : grps.get? s'.group with
    | none =>
      simp only [h', reduceCtorEq, Option.some.injEq, false_iff, not_and]
      rintro rfl; simp [h']
    | some g' =>
      simp only [h', Except.ok.injEq, Prod.mk.injEq, Option.some.injEq]
      constructor
      · rintro ⟨rfl, rfl⟩; exact ⟨rfl, h'⟩
      · rintro ⟨rfl, h2⟩; rw [h'] at h2; exact ⟨rfl, by simpa using h2⟩

theorem sortInfo_ok {items : Dict Str Item} {o : Obj} {x : Str × Option Str × Str} : sortInfo items o = .ok x ↔
    (∃ i, Stands items o i ∧ x = (i.name, i.order.or o.order, i.subgroup.getD other)) ∨
    (Alone items o ∧ x = (o.name, o.order, o.subgroup.getD (if o.type = "fluid".toList then "fluid".toList else other))) := by
  have hor : ∀ (i : Item), orderOf i o = i.order.or o.order := by
    intro i; unfold orderOf; cases i.order <;> rfl
  unfold sortInfo itemFor Stands Alone
  generalize (if o.type = "fluid".toList then "fluid".toList else other) = fl
  cases hm : o.mined with
  | some m =>
    by_cases he : m = []
    · subst he; simp [eq_comm]
    · cases hi : items.get? m with
      | none => simp [he, hi]
      | some i => simp [he, hi, hor, eq_comm]
  | none =>
    by_cases he : o.name = []
    · cases hi : items.get? o.name with
      | none => simp [he, eq_comm]
      | some i =>
        simp [he, eq_comm]
    · cases hi : items.get? o.name with
      | none => simp [eq_comm]
      | some i => simp [he, hi, hor, eq_comm]

theorem objKey_ok {items : Dict Str Item} {subs : Dict Str Sub} {grps : Dict Str Grp} {o : Obj} {k : List Str} :
    objKey items subs grps o = .ok k ↔ ∃ r, Ranked items subs grps o r ∧ k = keyOf r := by
  constructor
  · intro h
    unfold objKey at h
    cases hs : sortInfo items o with
    | error e => simp [hs] at h
    | ok x =>
      cases hp : place subs grps x.2.2 with
      | error e => simp [hs, hp] at h
      | ok p =>
        have hp' := place_ok.mp hp
        cases ho : p.1.order with
        | none => simp [hs, hp, ho] at h
        | some so =>
          cases hg : p.2.order with
          | none => simp [hs, hp, ho, hg] at h
          | some go =>
            simp only [hs, hp, ho, hg, Except.ok.injEq] at h
            rcases sortInfo_ok.mp hs with ⟨i, hi, rfl⟩ | ⟨hi, rfl⟩
            · exact ⟨_, .item i p.1 p.2 hi ⟨hp'.1, hp'.2, by simp [ho], by simp [hg]⟩, by simp [keyOf, ← h, ho, hg]⟩
            · exact ⟨_, .alone p.1 p.2 hi ⟨hp'.1, hp'.2, by simp [ho], by simp [hg]⟩, by simp [keyOf, ← h, ho, hg]⟩
  · rintro ⟨r, hr, rfl⟩
    unfold objKey
    cases hr with
    | item i s g hi hl =>
      obtain ⟨h1, h2, h3, h4⟩ := hl
      obtain ⟨so, hso⟩ := Option.isSome_iff_exists.mp h3
      obtain ⟨go, hgo⟩ := Option.isSome_iff_exists.mp h4
      rw [sortInfo_ok.mpr (Or.inl ⟨i, hi, rfl⟩)]
      have hp : place subs grps (i.subgroup.getD other) = .ok (s, g) := place_ok.mpr ⟨h1, h2⟩
      simp [hp, hso, hgo, keyOf]
    | alone s g hi hl =>
      obtain ⟨h1, h2, h3, h4⟩ := hl
      obtain ⟨so, hso⟩ := Option.isSome_iff_exists.mp h3
      obtain ⟨go, hgo⟩ := Option.isSome_iff_exists.mp h4
      rw [sortInfo_ok.mpr (Or.inr ⟨hi, rfl⟩)]
      have hp : place subs grps (o.subgroup.getD (if o.type = "fluid".toList then "fluid".toList else other)) = .ok (s, g) :=
        place_ok.mpr ⟨h1, h2⟩
      simp only [hp, hso, hgo, keyOf, Option.getD_some]

theorem Ranked.unique {items : Dict Str Item} {subs : Dict Str Sub} {grps : Dict Str Grp} {o : Obj} {r r' : Rank}
    (h : Ranked items subs grps o r) (h' : Ranked items subs grps o r') : r = r' := by
  have h1 := objKey_ok.mpr ⟨r, h, rfl⟩
  have h2 := objKey_ok.mpr ⟨r', h', rfl⟩
  rw [h1] at h2
  exact keyOf_inj h.full h'.full (by simpa using h2)

theorem keyed_ok {items : Dict Str Item} {subs : Dict Str Sub} {grps : Dict Str Grp} {o : Obj} {x : List Str × Str} :
    ((objKey items subs grps o).map fun k => (k, o.name)) = .ok x ↔ ∃ r, Ranked items subs grps o r ∧ x = (keyOf r, r.name) := by
  constructor
  · intro h
    cases hk : objKey items subs grps o with
    | error e => simp [hk, Except.map] at h
    | ok k =>
      obtain ⟨r, hr, rfl⟩ := objKey_ok.mp hk
      refine ⟨r, hr, ?_⟩
      rw [hr.name_eq]
      simpa [hk, Except.map, eq_comm] using h
  · rintro ⟨r, hr, rfl⟩
    rw [objKey_ok.mpr ⟨r, hr, rfl⟩, hr.name_eq]
    rfl

theorem key_le_iff {a b : Rank} (ha : Full a) (hb : Full b) : keyOf a ≤ keyOf b ↔ ¬ Earlier b a := by
  rw [← keyOf_lt hb ha, not_lt]

/-- What the sort does: the ranks of the objects, put in order. -/
theorem getOrder_ranks {items : Dict Str Item} {subs : Dict Str Sub} {grps : Dict Str Grp} {objs : List Obj} {L : List Str}
    (h : getOrder items subs grps objs = .ok L) :
    ∃ rs : List Rank, List.Forall₂ (Ranked items subs grps) objs rs ∧
      ∃ rs' : List Rank, rs'.Perm rs ∧ rs'.Pairwise (fun a b => ¬ Earlier b a) ∧ L = rs'.map Rank.name := by
  unfold getOrder at h
  cases hm : objs.mapM (fun o => (objKey items subs grps o).map fun k => (k, o.name)) with
  | error e => simp [hm] at h
  | ok ks =>
    simp only [hm, Except.ok.injEq] at h
    have hf := (mapM_ok_iff _ _ _).mp hm
    have : ∃ rs : List Rank, List.Forall₂ (Ranked items subs grps) objs rs ∧ ks = rs.map fun r => (keyOf r, r.name) := by
      clear h hm
      induction hf with
      | nil => exact ⟨[], .nil, rfl⟩
      | cons hx _ ih =>
        obtain ⟨rs, h1, rfl⟩ := ih
        obtain ⟨r, hr, rfl⟩ := keyed_ok.mp hx
        exact ⟨r :: rs, .cons hr h1, rfl⟩
    obtain ⟨rs, h1, rfl⟩ := this
    refine ⟨rs, h1, rs.insertionSort (fun a b => keyOf a ≤ keyOf b), List.perm_insertionSort _ _, ?_, ?_⟩
    · have hfull : ∀ r ∈ rs, Full r := by
        clear h hf hm
        induction h1 with
        | nil => simp
        | cons hr _ ih =>
          intro r hx
          rcases List.mem_cons.mp hx with rfl | hx
          · exact hr.full
          · exact ih r hx
      have : Std.Total (fun a b : Rank => keyOf a ≤ keyOf b) := ⟨fun a b => le_total _ _⟩
      have : IsTrans Rank (fun a b : Rank => keyOf a ≤ keyOf b) := ⟨fun a b c => le_trans⟩
      have hp := List.pairwise_insertionSort (fun a b : Rank => keyOf a ≤ keyOf b) rs
      refine hp.imp_of_mem ?_
      intro a b ha hb hab
      rw [(List.perm_insertionSort _ rs).mem_iff] at ha hb
      exact (key_le_iff (hfull a ha) (hfull b hb)).mp hab
    · rw [← h]
      have := List.map_insertionSort (fun a b : Rank => keyOf a ≤ keyOf b)
        (fun a b : List Str × Str => a.1 ≤ b.1) (fun r => (keyOf r, r.name)) rs (by intros; exact Iff.rfl)
      rw [← this, List.map_map]
      rfl

/-! ### C73, theorems -/

/-- The result has the names of the objects, each as often as there are objects of that name. -/
theorem C73_names {items : Dict Str Item} {subs : Dict Str Sub} {grps : Dict Str Grp} {objs : List Obj} {L : List Str}
    (h : getOrder items subs grps objs = .ok L) : L.Perm (objs.map Obj.name) := by
  obtain ⟨rs, h1, rs', h2, _, rfl⟩ := getOrder_ranks h
  refine (h2.map Rank.name).trans (List.Perm.of_eq ?_)
  clear h h2
  induction h1 with
  | nil => rfl
  | cons hr _ ih => simp [hr.name_eq, ih]

/-- The names come in the order of the ranks of the objects. -/
theorem C73_sorted {items : Dict Str Item} {subs : Dict Str Sub} {grps : Dict Str Grp} {objs : List Obj} {L : List Str}
    (h : getOrder items subs grps objs = .ok L) :
    ∃ os : List Obj, os.Perm objs ∧ L = os.map Obj.name ∧
      os.Pairwise fun a b => ∀ ra rb, Ranked items subs grps a ra → Ranked items subs grps b rb → ¬ Earlier rb ra := by
  obtain ⟨rs, h1, rs', h2, h3, rfl⟩ := getOrder_ranks h
  obtain ⟨os, h4, h5⟩ := List.perm_comp_forall₂ h2.symm.symm (List.Forall₂.flip h1)
  have h5' : os.Perm objs := h5
  have h4' : List.Forall₂ (fun r o => Ranked items subs grps o r) rs' os := h4
  refine ⟨os, h5', ?_, ?_⟩
  · clear h h1 h2 h3 h4 h5 h5'
    induction h4' with
    | nil => rfl
    | cons hr _ ih => simp [hr.name_eq, ih]
  · clear h h1 h2 h4 h5 h5'
    induction h4' with
    | nil => exact .nil
    | cons hr ht ih =>
      rw [List.pairwise_cons] at h3 ⊢
      refine ⟨?_, ih h3.2⟩
      intro b hb ra rb hra hrb
      have : ∃ r ∈ _, Ranked items subs grps b r := List.forall₂_iff_get.mp ht |> fun hg => by
        obtain ⟨n, hn, rfl⟩ := List.mem_iff_get.mp hb
        exact ⟨_, List.get_mem _ ⟨n, by rw [hg.1]; exact n.2⟩, hg.2 n (by rw [hg.1]; exact n.2) n.2⟩
      obtain ⟨r, hr1, hr2⟩ := this
      rw [hra.unique hr, hrb.unique hr2]
      exact h3.1 r hr1

/-- When the sort works: every object has a rank.  That every object of the game has one is not so, see `C73_group_refuted` and
`C73_mined_refuted`. -/
theorem C73_works_partial (items : Dict Str Item) (subs : Dict Str Sub) (grps : Dict Str Grp) (objs : List Obj) :
    ((∃ L, getOrder items subs grps objs = .ok L) ↔ ∀ o ∈ objs, ∃ r, Ranked items subs grps o r) ∧
    ((∃ L, getOrder items subs grps objs = .ok L) ∨ getOrder items subs grps objs = .error .keyError) := by
  have herr : ∀ o e, ((objKey items subs grps o).map fun k => (k, o.name)) = .error e → e = .keyError := by
    intro o e h
    have h1 : ∀ e, sortInfo items o = .error e → e = .keyError := by
      intro e h
      unfold sortInfo at h
      repeat' split at h
      all_goals simp_all
    have h2 : ∀ n e, place subs grps n = .error e → e = .keyError := by
      intro n e h
      unfold place at h
      repeat' split at h
      all_goals simp_all
    unfold objKey at h
    cases hs : sortInfo items o with
    | error x =>
      have := h1 x hs
      simp_all [Except.map]
    | ok x =>
      cases hp : place subs grps x.2.2 with
      | error y =>
        have := h2 _ y hp
        simp_all [Except.map]
      | ok p =>
        simp only [hs, hp] at h
        split at h <;> simp_all [Except.map]
  have hmap : ∀ l : List Obj, (∃ ks, l.mapM (fun o => (objKey items subs grps o).map fun k => (k, o.name)) = .ok ks) ↔
      ∀ o ∈ l, ∃ r, Ranked items subs grps o r := by
    intro l
    constructor
    · rintro ⟨ks, h⟩ o ho
      have hf := (mapM_ok_iff _ _ _).mp h
      clear h
      induction hf with
      | nil => simp at ho
      | cons hx _ ih =>
        rcases List.mem_cons.mp ho with rfl | ho
        · obtain ⟨r, hr, _⟩ := keyed_ok.mp hx
          exact ⟨r, hr⟩
        · exact ih ho
    · intro h
      induction l with
      | nil => exact ⟨[], rfl⟩
      | cons o l ih =>
        obtain ⟨ks, hks⟩ := ih fun o ho => h o (by simp [ho])
        obtain ⟨r, hr⟩ := h o (by simp)
        exact ⟨(keyOf r, r.name) :: ks, (mapM_ok_iff _ _ _).mpr (.cons (keyed_ok.mpr ⟨r, hr, rfl⟩) ((mapM_ok_iff _ _ _).mp hks))⟩
  rw [← hmap]
  unfold getOrder
  cases hm : objs.mapM (fun o => (objKey items subs grps o).map fun k => (k, o.name)) with
  | ok ks => simp
  | error e =>
    obtain ⟨o, _, ho⟩ := mapM_error_mem hm
    simp [herr o e ho]

/-- The order in which the objects are given makes no difference. -/
theorem C73_unique {items : Dict Str Item} {subs : Dict Str Sub} {grps : Dict Str Grp} {objs objs' : List Obj} {L : List Str}
    (hp : objs.Perm objs') (h : getOrder items subs grps objs = .ok L) : getOrder items subs grps objs' = .ok L := by
  obtain ⟨L', h'⟩ : ∃ L', getOrder items subs grps objs' = .ok L' :=
    (C73_works_partial items subs grps objs').1.mpr fun o ho =>
      (C73_works_partial items subs grps objs).1.mp ⟨L, h⟩ o (hp.mem_iff.mpr ho)
  obtain ⟨rs, h1, s, h2, h3, rfl⟩ := getOrder_ranks h
  obtain ⟨rs', h1', s', h2', h3', rfl⟩ := getOrder_ranks h'
  obtain ⟨t, ht1, ht2⟩ := List.perm_comp_forall₂ hp h1'
  have ht1 : List.Forall₂ (Ranked items subs grps) objs t := ht1
  have heq : t = rs := by
    clear h h' h2 h3 h2' h3' ht2 h1' hp
    induction h1 generalizing t with
    | nil => cases ht1; rfl
    | cons hr _ ih =>
      cases ht1 with
      | cons hr' ht => rw [hr.unique hr', ih _ ht ht]
  subst heq
  have hfull : ∀ r ∈ t, Full r := by
    rename_i hd
    clear h h' h2 h3 h2' h3' ht2 h1' h1 hp hd
    induction ht1 with
    | nil => simp
    | cons hr _ ih =>
      intro r hx
      rcases List.mem_cons.mp hx with rfl | hx
      · exact hr.full
      · exact ih r hx
  have hss : s.Perm s' := h2.trans (ht2.trans h2'.symm)
  have heq : s = s' := by
    refine hss.eq_of_pairwise ?_ h3 h3'
    intro a b ha hb hab hba
    have ha := hfull a (h2.mem_iff.mp ha)
    have hb := hfull b (h2.mem_iff.mp (hss.mem_iff.mpr hb))
    exact keyOf_inj ha hb (le_antisymm ((key_le_iff ha hb).mpr hab) ((key_le_iff hb ha).mpr hba))
  rw [h', heq]

/-- Refuted: whatever items, subgroups and groups are accepted by `get_items`, the objects can be sorted by them.  An order is optional for
groups and subgroups, and `get_items` heeds that, but `get_order` reads it without a default and raises a `KeyError`. -/
theorem C73_group_refuted : ∃ (gs : List Grp) (ss : List Sub) (is : List Item) (D : Dict Str Item) (o : Obj),
    getItems gs ss is = .ok D ∧ D.get? o.name ≠ none ∧
    getOrder D (toDict Sub.name ss) (toDict Grp.name gs) [o] = .error .keyError :=
  ⟨[⟨"g".toList, none⟩], [⟨"s".toList, some "a".toList, "g".toList⟩], [⟨"i".toList, some "b".toList, some "s".toList⟩],
    [("i".toList, ⟨"i".toList, some "b".toList, some "s".toList⟩)], ⟨"i".toList, none, none, "item".toList, none⟩,
    by decide +kernel, by decide +kernel, by decide +kernel⟩

/-- Refuted: an entity falls back on its own order and subgroup when it has no item.  One that is mined as an item of a category that
`get_items` does not collect, or that does not exist, raises a `KeyError`. -/
theorem C73_mined_refuted : ∃ (items : Dict Str Item) (subs : Dict Str Sub) (grps : Dict Str Grp) (o : Obj) (m : Str),
    o.mined = some m ∧ items.get? m = none ∧ (∃ L, getOrder items subs grps [{ o with mined := none }] = .ok L) ∧
    getOrder items subs grps [o] = .error .keyError :=
  ⟨[], [("s".toList, ⟨"s".toList, some "a".toList, "g".toList⟩)], [("g".toList, ⟨"g".toList, some "a".toList⟩)],
    ⟨"e".toList, some "a".toList, some "s".toList, "car".toList, some "x".toList⟩, "x".toList, rfl, rfl,
    ⟨["e".toList], by decide +kernel⟩, by decide +kernel⟩

/-- Refuted: objects without an order come last.  `get_items` gives every item without an order the empty one, so those objects that have an
item come first within their subgroup, and their own order is not looked at either. -/
theorem C73_last_refuted : ∃ (gs : List Grp) (ss : List Sub) (is : List Item) (D : Dict Str Item) (a b : Obj) (i j : Item),
    getItems gs ss is = .ok D ∧ i ∈ is ∧ i.name = a.name ∧ i.order = none ∧ a.order = some "z".toList ∧
    j ∈ is ∧ j.name = b.name ∧ j.order = some "a".toList ∧ i.subgroup = j.subgroup ∧
    getOrder D (toDict Sub.name ss) (toDict Grp.name gs) [b, a] = .ok [a.name, b.name] :=
  ⟨[⟨"g".toList, some "a".toList⟩], [⟨"s".toList, some "a".toList, "g".toList⟩],
    [⟨"x".toList, none, some "s".toList⟩, ⟨"b".toList, some "a".toList, some "s".toList⟩],
    [("x".toList, ⟨"x".toList, some [], some "s".toList⟩), ("b".toList, ⟨"b".toList, some "a".toList, some "s".toList⟩)],
    ⟨"x".toList, some "z".toList, none, "car".toList, none⟩, ⟨"b".toList, none, none, "car".toList, none⟩,
    ⟨"x".toList, none, some "s".toList⟩, ⟨"b".toList, some "a".toList, some "s".toList⟩,
    by decide +kernel, by decide, rfl, rfl, rfl, by decide, rfl, rfl, rfl, by decide +kernel⟩

/-- Two groups; an entity sorted by the item it is mined as, a fluid sorted by its type, and something without an order sorted last. -/
example : getOrder
    [("rail".toList, ⟨"rail".toList, some "b".toList, some "train".toList⟩)]
    [("train".toList, ⟨"train".toList, some "a".toList, "logistics".toList⟩),
     ("fluid".toList, ⟨"fluid".toList, some "c".toList, "fluids".toList⟩),
     ("other".toList, ⟨"other".toList, some "b".toList, "logistics".toList⟩)]
    [("logistics".toList, ⟨"logistics".toList, some "a".toList⟩), ("fluids".toList, ⟨"fluids".toList, some "b".toList⟩)]
    [⟨"water".toList, none, none, "fluid".toList, none⟩,
     ⟨"ghost".toList, none, none, "ghost".toList, none⟩,
     ⟨"cliff".toList, some "a".toList, none, "cliff".toList, none⟩,
     ⟨"straight-rail".toList, some "z".toList, none, "rail".toList, some "rail".toList⟩] =
    .ok ["straight-rail".toList, "cliff".toList, "ghost".toList, "water".toList] := by decide +kernel

/-! ### C74, what is claimed -/

mutual
/-- A Lua value of the kind the game's data is made of: every table is an array, with the keys 1, 2, 3 and so on in this order, or has only
strings as keys. -/
def Regular : Lua → Prop
  | .atom _ => True
  | .table l => (l.map (·.1) = (List.range l.length).map (fun i : Nat => LKey.int (i + 1)) ∨ ∀ e ∈ l.map (·.1), ∃ s, e = LKey.str s) ∧ RegularAll l
/-- All values are of that kind. -/
def RegularAll : List (LKey × Lua) → Prop
  | [] => True
  | (_, v) :: r => Regular v ∧ RegularAll r
end

/-! ### C74, lemmas -/

mutual
/-- The table from which a value comes, if it comes from a regular one. -/
def back : PyVal → Lua
  | .atom n => .atom n
  | .list l => .table (backList 0 l)
  | .dict l => .table (backAll l)
/-- The entries for a list, from the key after `n` on. -/
def backList (n : Nat) : List PyVal → List (LKey × Lua)
  | [] => []
  | v :: r => (.int (n + 1), back v) :: backList (n + 1) r
/-- The entries for a dictionary. -/
def backAll : List (LKey × PyVal) → List (LKey × Lua)
  | [] => []
  | (k, v) :: r => (k, back v) :: backAll r
end

theorem convertAll_keys : ∀ l : List (LKey × Lua), (convertAll l).map (·.1) = l.map (·.1)
  | [] => rfl
  | (k, v) :: r => by simp [convertAll, convertAll_keys r]

theorem backList_eq (l : List (LKey × PyVal)) : ∀ n : Nat, l.map (·.1) = (List.range l.length).map (fun i => LKey.int ((n + i : Nat) + 1)) →
    backList n (l.map (·.2)) = backAll l := by
  induction l with
  | nil => intro n _; rfl
  | cons e r ih =>
    obtain ⟨k, v⟩ := e
    intro n h
    simp only [List.map_cons, List.length_cons, List.range_succ_eq_map, List.map_map, List.cons.injEq] at h
    obtain ⟨h1, h2⟩ := h
    simp only [List.map_cons, backList, backAll]
    rw [ih (n + 1) ?_, h1]
    · simp
    · rw [h2]
      apply List.map_congr_left
      intro i _
      simp only [Function.comp_apply, LKey.int.injEq]
      omega

theorem all_isInt {l : List LKey} (h : l.all LKey.isInt = true) (hs : ∀ e ∈ l, ∃ s, e = LKey.str s) : l = [] := by
  cases l with
  | nil => rfl
  | cons e r =>
    obtain ⟨s, rfl⟩ := hs e (by simp)
    simp [LKey.isInt] at h

mutual
theorem back_convert : ∀ t : Lua, Regular t → back (convert t) = t
  | .atom n, _ => rfl
  | .table l, h => by
    obtain ⟨h1, h2⟩ := h
    have ih := back_convertAll l h2
    by_cases hk : (l.map (·.1)).all LKey.isInt = true
    · rw [convert, if_pos hk, back]
      have hk' : l.map (·.1) = (List.range l.length).map (fun i : Nat => LKey.int (i + 1)) := by
        rcases h1 with h1 | h1
        · exact h1
        · have := all_isInt hk h1
          rw [List.map_eq_nil_iff] at this
          simp [this]
      rw [backList_eq, ih]
      rw [convertAll_keys, hk']
      have : (convertAll l).length = l.length := by simpa using congrArg List.length (convertAll_keys l)
      rw [this]
      apply List.map_congr_left
      intro i _
      simp
    · rw [convert, if_neg hk, back, ih]
theorem back_convertAll : ∀ l : List (LKey × Lua), RegularAll l → backAll (convertAll l) = l
  | [], _ => rfl
  | (k, v) :: r, h => by
    obtain ⟨h1, h2⟩ := h
    rw [convertAll, backAll, back_convert v h1, back_convertAll r h2]
end

theorem convertAll_values : ∀ l : List (LKey × Lua), convertAll l = l.map fun e => (e.1, convert e.2)
  | [] => rfl
  | (k, v) :: r => by simp [convertAll, convertAll_values r]

/-! ### C74, theorems -/

/-- An array becomes the list of its values, converted, in order. -/
theorem C74_array (vs : List Lua) :
    convert (.table (vs.mapIdx fun i v => (.int (i + 1), v))) = .list (vs.map convert) := by
  have hk : ((vs.mapIdx fun i v => (LKey.int (i + 1), v)).map (·.1)).all LKey.isInt = true := by
    simp only [List.all_map, List.all_eq_true]
    intro e he
    obtain ⟨i, hi, rfl⟩ := List.mem_mapIdx.mp he
    rfl
  rw [convert, if_pos hk, convertAll_values, List.map_map]
  congr 1
  apply List.ext_getElem <;> simp

/-- A table with string keys, unless it is empty, becomes a dictionary with the same keys in the same order, whose values are converted. -/
theorem C74_record (l : List (Str × Lua)) (hl : l ≠ []) :
    convert (.table (l.map fun e => (.str e.1, e.2))) = .dict (l.map fun e => (.str e.1, convert e.2)) := by
  have hk : ¬ ((l.map fun e => (LKey.str e.1, e.2)).map (·.1)).all LKey.isInt = true := by
    cases l with
    | nil => exact absurd rfl hl
    | cons e r => simp [LKey.isInt]
  rw [convert, if_neg hk, convertAll_values, List.map_map]
  rfl

/-- A table with both kinds of keys becomes a dictionary and loses nothing. -/
theorem C74_mixed (l : List (LKey × Lua)) {s : Str} {v : Lua} (h : (LKey.str s, v) ∈ l) :
    convert (.table l) = .dict (l.map fun e => (e.1, convert e.2)) := by
  have hk : ¬ (l.map (·.1)).all LKey.isInt = true := by
    intro hk
    have := List.all_eq_true.mp hk _ (List.mem_map_of_mem h)
    simp [LKey.isInt] at this
  rw [convert, if_neg hk, convertAll_values]

/-- Nothing of a regular value is lost: two with the same conversion are the same. -/
theorem C74_faithful_partial {a b : Lua} (ha : Regular a) (hb : Regular b) (h : convert a = convert b) : a = b := by
  rw [← back_convert a ha, h, back_convert b hb]

/-- Refuted: nothing is lost.  A table with integer keys that are not 1, 2, 3 and so on becomes the list of its values without the keys. -/
theorem C74_sparse_refuted : ∃ a b : Lua, a ≠ b ∧ convert a = convert b :=
  ⟨.table [(.int 1, .atom 0), (.int 5, .atom 1)], .table [(.int 1, .atom 0), (.int 2, .atom 1)], by simp,
    by simp [convert, convertAll, LKey.isInt]⟩

/-- Refuted: a table with keys that are no numbers keeps them.  Booleans pass for integers in Python, so a table with boolean keys becomes the
list of its values, and which value belonged to `true` is lost. -/
theorem C74_bool_refuted : ∃ a b : Lua, a ≠ b ∧ convert a = .list [.atom 0, .atom 1] ∧ convert b = convert a ∧
    ∀ x ∈ [a, b], ∃ l : List (LKey × Lua), x = .table l ∧ l ≠ [] ∧ ∀ e ∈ l, ∃ c : Bool, e.1 = .bool c :=
  ⟨.table [(.bool true, .atom 0), (.bool false, .atom 1)], .table [(.bool false, .atom 0), (.bool true, .atom 1)], by simp,
    by simp [convert, convertAll, LKey.isInt], by simp [convert, convertAll, LKey.isInt], by
      intro x hx
      rcases List.mem_cons.mp hx with rfl | hx
      · exact ⟨_, rfl, by simp, by simp⟩
      · rw [List.mem_singleton.mp hx]
        exact ⟨_, rfl, by simp, by simp⟩⟩

/-- Refuted: a table without integer keys becomes a dictionary.  The empty table, say of an optional field or of a category that has no
prototype, becomes a list. -/
theorem C74_empty_refuted : ∃ l : List (LKey × Lua), (∀ e ∈ l, e.1.isInt = false) ∧ ¬ ∃ d, convert (.table l) = .dict d :=
  ⟨[], by simp, by simp [convert, convertAll]⟩

/-- Refuted: the value under the key `i + 1` is at the index `i` of the list.  The values come in the order in which Lua iterates over the
table, which for keys assigned out of order need not be that of the keys. -/
theorem C74_order_refuted : ∃ (l : List (LKey × Lua)) (vs : List PyVal), (l.map (·.1)).Perm [.int 1, .int 2] ∧
    convert (.table l) = .list vs ∧ ∃ v, (LKey.int 1, v) ∈ l ∧ vs[0]? ≠ some (convert v) :=
  ⟨[(.int 2, .atom 7), (.int 1, .atom 8)], [.atom 7, .atom 8], by decide, by simp [convert, convertAll, LKey.isInt], .atom 8, by simp,
    by simp [convert]⟩

/-- A table of the usual kind: nested, with an array within. -/
example : Regular (.table [(.str "a".toList, .table [(.int 1, .atom 3), (.int 2, .atom 4)]), (.str "b".toList, .atom 5)]) ∧
    convert (.table [(.str "a".toList, .table [(.int 1, .atom 3), (.int 2, .atom 4)]), (.str "b".toList, .atom 5)]) =
      .dict [(.str "a".toList, .list [.atom 3, .atom 4]), (.str "b".toList, .atom 5)] := by
  simp [Regular, RegularAll, convert, convertAll, LKey.isInt]
  decide

end GameData
end Draftsman
