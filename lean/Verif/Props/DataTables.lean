import Verif.Model.DataTables
import Verif.Proof.Dict
import Verif.Proof.Trains
import Mathlib.Data.Int.Notation
import Mathlib.Data.List.Nodup
import Mathlib.Data.List.Count
import Mathlib.Tactic.Linarith
/-
C66: adding items, item groups, fluids and entities to the data tables.
-/
namespace Draftsman
namespace DataTables

/-- The items listed under a subgroup. -/
def listedIn (t : Tables) (s : ℕ) : List Item :=
  match t.subgroups.get? s with
  | none => []
  | some n => t.items n.ref

/-- The subgroups listed under a group. -/
def subsOf (t : Tables) (g : ℕ) : List Node :=
  match t.groups.get? g with
  | none => []
  | some n => t.subs n.ref

/-- No two subgroups hold the same list object, no two groups do, and every list in use has been allotted. -/
structure Unshared (t : Tables) : Prop where
  subgroups : ∀ a b na nb, t.subgroups.get? a = some na → t.subgroups.get? b = some nb → na.ref = nb.ref → a = b
  groups : ∀ a b na nb, t.groups.get? a = some na → t.groups.get? b = some nb → na.ref = nb.ref → a = b
  used : (∀ a n, t.subgroups.get? a = some n → n.ref < t.next) ∧ ∀ a n, t.groups.get? a = some n → n.ref < t.next

/-- A subgroup that is not known is refused, without effect. -/
theorem C66_unknown (t : Tables) (name stack order sub : ℕ) (more : Option ℕ) :
    (((addItem t name stack order sub more).2 ≠ none ↔ t.subgroups.get? (((t.raw.get? name).map (·.subgroup)).getD sub) = none) ∧
      ((addItem t name stack order sub more).2 ≠ none → addItem t name stack order sub more = (t, some .typeError))) ∧
    ∀ group l, (((addSubgroup t name group l order).2 ≠ none ↔ t.groups.get? group = none) ∧
      ((addSubgroup t name group l order).2 ≠ none → addSubgroup t name group l order = (t, some .typeError))) := by
  constructor
  · have : (newItem t name stack order sub more).subgroup = ((t.raw.get? name).map (·.subgroup)).getD sub := by
      unfold newItem; cases t.raw.get? name <;> rfl
    simp only [addItem, this]
    cases t.subgroups.get? (((t.raw.get? name).map (·.subgroup)).getD sub) <;> simp
  · intro group l
    unfold addSubgroup
    simp only
    cases t.groups.get? group <;> simp

/-- What `add_item` does when it succeeds: the item now has the stack size asked for, an existing item keeps its order and subgroup and
whatever else is not overridden, no other item changes, and the item is appended to the list of its subgroup. -/
theorem C66_item (t t' : Tables) (name stack order sub : ℕ) (more : Option ℕ) (h : addItem t name stack order sub more = (t', none)) :
    (∃ i, t'.raw.get? name = some i ∧ i.name = name ∧ i.stack = stack ∧
      i.order = ((t.raw.get? name).map (·.order)).getD order ∧ i.subgroup = ((t.raw.get? name).map (·.subgroup)).getD sub ∧
      i.more = (match more with | some m => some m | none => (t.raw.get? name).bind (·.more)) ∧
      listedIn t' i.subgroup = listedIn t i.subgroup ++ [i]) ∧
    stackSize t' name = some stack ∧
    (∀ n, n ≠ name → t'.raw.get? n = t.raw.get? n) ∧ t'.subgroups = t.subgroups ∧ t'.groups = t.groups ∧ t'.subs = t.subs := by
  have hi : (newItem t name stack order sub more).name = name ∧ (newItem t name stack order sub more).stack = stack ∧
      (newItem t name stack order sub more).order = ((t.raw.get? name).map (·.order)).getD order ∧
      (newItem t name stack order sub more).subgroup = ((t.raw.get? name).map (·.subgroup)).getD sub ∧
      (newItem t name stack order sub more).more = (match more with | some m => some m | none => (t.raw.get? name).bind (·.more)) := by
    unfold newItem
    cases t.raw.get? name with
    | none => cases more <;> simp
    | some e => cases more <;> simp
  unfold addItem at h
  simp only at h
  cases hs : t.subgroups.get? (newItem t name stack order sub more).subgroup with
  | none => rw [hs] at h; simp at h
  | some s =>
    rw [hs] at h
    simp only [Prod.mk.injEq, and_true] at h
    subst h
    refine ⟨⟨_, by rw [Dict.get?_set, if_pos rfl], hi.1, hi.2.1, hi.2.2.1, hi.2.2.2.1, hi.2.2.2.2, ?_⟩, ?_, ?_, rfl, rfl, rfl⟩
    · simp only [listedIn, hs, upd, if_true]
    · simp only [stackSize, Dict.get?_set, if_true, Option.map_some, hi.2.1]
    · intro n hn
      simp only [Dict.get?_set, if_neg (Ne.symm hn)]

/-- The claim for a new item when no two subgroups share a list: it is listed once under its own subgroup, not at all under any other,
and no other subgroup's list changes. -/
theorem C66_once_partial (t t' : Tables) (name stack order sub : ℕ) (more : Option ℕ) (hu : Unshared t)
    (hnew : t.raw.get? name = none) (hfree : ∀ s, ∀ i ∈ listedIn t s, i.name ≠ name)
    (h : addItem t name stack order sub more = (t', none)) :
    ((listedIn t' sub).filter (fun i => i.name = name)).length = 1 ∧
    (∀ s, s ≠ sub → listedIn t' s = listedIn t s) ∧
    ∀ s, (listedIn t' s).filter (fun i => i.name ≠ name) = listedIn t s := by
  obtain ⟨⟨i, h1, h2, -, -, h5, -, h7⟩, -, -, hsub, -, -⟩ := C66_item t t' name stack order sub more h
  rw [hnew] at h5
  simp only [Option.map_none, Option.getD_none] at h5
  rw [h5] at h7
  have hn : newItem t name stack order sub more = ⟨name, stack, order, sub, more⟩ := by simp [newItem, hnew]
  have hother : ∀ s, s ≠ sub → listedIn t' s = listedIn t s := by
    intro s hs
    unfold addItem at h
    rw [hn] at h
    simp only at h
    cases hg : t.subgroups.get? sub with
    | none => rw [hg] at h; simp at h
    | some n =>
      rw [hg] at h
      simp only [Prod.mk.injEq, and_true] at h
      subst h
      simp only [listedIn]
      cases hg2 : t.subgroups.get? s with
      | none => rfl
      | some n2 =>
        simp only [upd]
        rw [if_neg]
        exact fun hc => hs (hu.subgroups _ _ _ _ hg2 hg hc)
  have hkeep : ∀ s, (listedIn t s).filter (fun i => i.name ≠ name) = listedIn t s := fun s =>
    List.filter_eq_self.2 fun j hj => by simpa using hfree s j hj
  refine ⟨?_, hother, fun s => ?_⟩
  · rw [h7, List.filter_append, List.length_append]
    rw [List.filter_eq_nil_iff.2 (fun j hj => by simpa using hfree sub j hj)]
    simp [h2]
  · by_cases hs : s = sub
    · subst hs
      rw [h7, List.filter_append, hkeep]
      simp [h2]
    · rw [hother s hs, hkeep]

/-- Adding a subgroup with a list given: it is known under its name, holds exactly the items given and is appended to its group; the
other subgroups, and the lists of the other groups, are as before. -/
theorem C66_subgroup_partial (t t' : Tables) (name group order : ℕ) (l : List Item) (hu : Unshared t)
    (h : addSubgroup t name group (some l) order = (t', none)) :
    listedIn t' name = l ∧ (∃ n, t'.subgroups.get? name = some n ∧ n.name = name ∧ subsOf t' group = subsOf t group ++ [n]) ∧
    (∀ s, s ≠ name → listedIn t' s = listedIn t s) ∧ (∀ g, g ≠ group → subsOf t' g = subsOf t g) ∧ t'.raw = t.raw ∧ Unshared t' := by
  unfold addSubgroup at h
  simp only at h
  cases hg : t.groups.get? group with
  | none => rw [hg] at h; simp at h
  | some g =>
    rw [hg] at h
    simp only [Prod.mk.injEq, and_true] at h
    subst h
    refine ⟨?_, ⟨_, by rw [Dict.get?_set, if_pos rfl], rfl, ?_⟩, ?_, ?_, rfl, ⟨?_, hu.groups, ?_, ?_⟩⟩
    · simp [listedIn, Dict.get?_set, upd]
    · simp [subsOf, hg, upd]
    · intro s hs
      simp only [listedIn, Dict.get?_set, if_neg (Ne.symm hs)]
      cases hs2 : t.subgroups.get? s with
      | none => rfl
      | some n => simp only [upd]; rw [if_neg (by have := hu.used.1 _ _ hs2; omega)]
    · intro g' hg'
      simp only [subsOf]
      cases hs2 : t.groups.get? g' with
      | none => rfl
      | some n =>
        simp only [upd]
        rw [if_neg]
        exact fun hc => hg' (hu.groups _ _ _ _ hs2 hg hc)
    · intro a b na nb ha hb hab
      simp only [Dict.get?_set] at ha hb
      split at ha <;> split at hb
      · rename_i h1 h2; exact h1.symm.trans h2
      · simp only [Option.some.injEq] at ha
        have := hu.used.1 _ _ hb
        subst ha; simp only at hab; omega
      · simp only [Option.some.injEq] at hb
        have := hu.used.1 _ _ ha
        subst hb; simp only at hab; omega
      · exact hu.subgroups _ _ _ _ ha hb hab
    · intro a n ha
      simp only [Dict.get?_set] at ha
      split at ha
      · simp only [Option.some.injEq] at ha; subst ha; simp
      · have := hu.used.1 _ _ ha; simp only; omega
    · intro a n ha
      have := hu.used.2 _ _ ha
      simp only; omega

/-- A call of one of the functions, always with a list given. -/
inductive Op where
  | group (name order : ℕ) (l : List Node)
  | subgroup (name group : ℕ) (l : List Item) (order : ℕ)
  | item (name stack order sub : ℕ) (more : Option ℕ)

/-- The tables after a call; a refused call changes nothing (`C66_unknown`). -/
def Op.run (t : Tables) : Op → Tables
  | .group n o l => addGroup t n o (some l)
  | .subgroup n g l o => (addSubgroup t n g (some l) o).1
  | .item n st o s m => (addItem t n st o s m).1

/-- Lists stay unshared through any sequence of calls that give the lists. -/
theorem C66_unshared_partial (ops : List Op) (t : Tables) (hu : Unshared t) : Unshared (ops.foldl Op.run t) := by
  apply foldl_inv Unshared Op.run ops t hu
  intro s op _ hs
  cases op with
  | group n o l =>
    refine ⟨hs.subgroups, ?_, ?_, ?_⟩
    · intro a b na nb ha hb hab
      simp only [Op.run, addGroup, Dict.get?_set] at ha hb
      split at ha <;> split at hb
      · rename_i h1 h2; exact h1.symm.trans h2
      · simp only [Option.some.injEq] at ha
        have := hs.used.2 _ _ hb
        subst ha; simp only at hab; omega
      · simp only [Option.some.injEq] at hb
        have := hs.used.2 _ _ ha
        subst hb; simp only at hab; omega
      · exact hs.groups _ _ _ _ ha hb hab
    · intro a n' ha
      have := hs.used.1 _ _ ha
      simp only [Op.run, addGroup]; omega
    · intro a n' ha
      simp only [Op.run, addGroup, Dict.get?_set] at ha ⊢
      split at ha
      · simp only [Option.some.injEq] at ha; subst ha; simp
      · have := hs.used.2 _ _ ha; omega
  | subgroup n g l o =>
    cases h : (addSubgroup s n g (some l) o).2 with
    | some e =>
      have := ((C66_unknown s n 0 o 0 none).2 g (some l)).2 (by rw [h]; simp)
      simp only [Op.run, this]; exact hs
    | none => exact (C66_subgroup_partial s _ n g o l hs (Prod.ext rfl h)).2.2.2.2.2
  | item n st o sb m =>
    simp only [Op.run, addItem]
    split
    · exact hs
    · exact ⟨hs.subgroups, hs.groups, hs.used⟩

/-- One group (10) with one subgroup (20) that holds one item (5). -/
def t0 : Tables where
  raw := [(5, ⟨5, 50, 0, 20, none⟩)]
  subgroups := [(20, ⟨20, 0, 1⟩)]
  groups := [(10, ⟨10, 0, 2⟩)]
  items := fun i => if i = 1 then [⟨5, 50, 0, 20, none⟩] else []
  subs := fun i => if i = 2 then [⟨20, 0, 1⟩] else []
  next := 3

theorem t0_unshared : Unshared t0 := by
  have k1 : ∀ a n, t0.subgroups.get? a = some n → a = 20 ∧ n = ⟨20, 0, 1⟩ := by
    intro a n h
    simp [t0, Dict.get?] at h
    exact ⟨h.1.symm, h.2.symm⟩
  have k2 : ∀ a n, t0.groups.get? a = some n → a = 10 ∧ n = ⟨10, 0, 2⟩ := by
    intro a n h
    simp [t0, Dict.get?] at h
    exact ⟨h.1.symm, h.2.symm⟩
  refine ⟨?_, ?_, ?_, ?_⟩
  · intro a b na nb ha hb _; rw [(k1 _ _ ha).1, (k1 _ _ hb).1]
  · intro a b na nb ha hb _; rw [(k2 _ _ ha).1, (k2 _ _ hb).1]
  · intro a n h; rw [(k1 _ _ h).2]; decide
  · intro a n h; rw [(k2 _ _ h).2]; decide

/-- A new item in a new subgroup. -/
example : let t := [Op.subgroup 21 10 [] 0, Op.item 6 100 0 21 none].foldl Op.run t0
    (listedIn t 21).map (·.name) = [6] ∧ (listedIn t 20).map (·.name) = [5] ∧ (subsOf t 10).map (·.name) = [20, 21] ∧ stackSize t 6 = some 100 := by
  decide

example : t0.raw.get? 6 = none ∧ (∀ i ∈ listedIn t0 20, i.name ≠ 6) ∧ (addItem t0 6 100 0 20 none).2 = none := by decide

/-- False of the code: an item that is modified is listed once.  `add_item` for an item that exists appends a second entry to the
subgroup (`items.py:114`); the old one stays, with the old stack size. -/
theorem C66_modify_refuted : ¬ ∀ t t' name stack order sub more, Unshared t → addItem t name stack order sub more = (t', none) →
    ∀ s, ∀ i ∈ listedIn t' s, i.name = name → i.stack = stack := by
  intro h
  have := h t0 _ 5 200 0 20 none t0_unshared rfl 20 ⟨5, 50, 0, 20, none⟩ (by decide) rfl
  revert this
  decide

/-- False of the code: an item added to one subgroup is not listed under another.  Two subgroups added without `items` hold the same
list, the default argument of `add_subgroup` (`items.py:43`). -/
theorem C66_default_refuted : ¬ ∀ t a b g name, Unshared t → t.raw.get? name = none → a ≠ b → t.groups.get? g ≠ none →
    listedIn (addItem (addSubgroup (addSubgroup t a g none 0).1 b g none 0).1 name 1 0 a none).1 b = listedIn (addSubgroup (addSubgroup t a g none 0).1 b g none 0).1 b := by
  intro h
  have := h t0 21 22 10 6 t0_unshared (by decide) (by decide) (by decide)
  revert this
  decide

/-- False of the code: a subgroup added to one group is not listed under another.  Two groups added without `subgroups` hold the same
list, the default argument of `add_group` (`items.py:21`). -/
theorem C66_defaultGroup_refuted : ¬ ∀ t a b name, Unshared t → a ≠ b → subsOf (addGroup (addGroup t a 0 none) b 0 none) b = [] →
    subsOf (addSubgroup (addGroup (addGroup t a 0 none) b 0 none) name a (some []) 0).1 b = [] := by
  intro h
  have := h t0 11 12 21 t0_unshared (by decide) (by decide)
  revert this
  decide

/-- False of the code: modifying a group keeps its subgroups.  The value kept of the old one is assigned to a variable `items` that is
not used, and looked up among the items at that (`items.py:26-28`), so that the group ends up empty. -/
theorem C66_regroup_refuted : ¬ ∀ t name order, Unshared t → t.groups.get? name ≠ none → subsOf (addGroup t name order none) name = subsOf t name := by
  intro h
  have := h t0 10 7 t0_unshared (by decide)
  revert this
  decide

/-- False of the code: a new subgroup has the order asked for.  If there is an item of the same name (`inserter` is both) the order of
the item is taken (`items.py:48-49`). -/
theorem C66_namesake_refuted : ¬ ∀ t t' name group l order, Unshared t → t.subgroups.get? name = none →
    addSubgroup t name group l order = (t', none) → (t'.subgroups.get? name).map (·.order) = some order := by
  intro h
  have := h t0 _ 5 10 none 9 t0_unshared (by decide) rfl
  revert this
  decide

/-- What `add_group` does: the group is known under its name, with the order of the item of that name if there is one and the order asked
for if not.  With a list given it holds that list, without one the list that all groups so added share.  Other groups, when no two
share a list and none holds that shared one, are as before. -/
theorem C66_group (t : Tables) (name order : ℕ) (arg : Option (List Node)) :
    (∃ n, (addGroup t name order arg).groups.get? name = some n ∧ n.name = name ∧
      n.order = ((t.raw.get? name).map (·.order)).getD order) ∧
    subsOf (addGroup t name order arg) name = arg.getD (t.subs 0) ∧
    (∀ g, g ≠ name → (∀ n, t.groups.get? g = some n → n.ref < t.next) → subsOf (addGroup t name order arg) g = subsOf t g) ∧
    (addGroup t name order arg).raw = t.raw ∧ (addGroup t name order arg).subgroups = t.subgroups := by
  cases arg with
  | none =>
    refine ⟨⟨⟨name, ((t.raw.get? name).map (·.order)).getD order, 0⟩, by
      simp only [addGroup, Dict.get?_set, if_true]
      cases t.raw.get? name <;> rfl, rfl, rfl⟩, ?_, ?_, rfl, rfl⟩
    · simp [subsOf, addGroup, Dict.get?_set]
    · intro g hg _
      simp [subsOf, addGroup, Dict.get?_set, Ne.symm hg]
  | some l =>
    refine ⟨⟨⟨name, ((t.raw.get? name).map (·.order)).getD order, t.next⟩, by
      simp only [addGroup, Dict.get?_set, if_true]
      cases t.raw.get? name <;> rfl, rfl, rfl⟩, ?_, ?_, rfl, rfl⟩
    · simp [subsOf, addGroup, Dict.get?_set, upd]
    · intro g hg hu
      simp only [subsOf, addGroup, Dict.get?_set, if_neg (Ne.symm hg)]
      cases h : t.groups.get? g with
      | none => rfl
      | some n =>
        have := hu n h
        simp [upd, Nat.ne_of_lt this]

/-- What `add_subgroup` does without a list: the subgroup holds the list that all subgroups so added share, with whatever is in it. -/
theorem C66_shared (t t' : Tables) (name group order : ℕ) (h : addSubgroup t name group none order = (t', none)) :
    listedIn t' name = t.items 0 ∧
    ∃ n, t'.subgroups.get? name = some n ∧ n.name = name ∧ n.order = ((t.raw.get? name).map (·.order)).getD order := by
  unfold addSubgroup at h
  cases hg : t.groups.get? group with
  | none => simp [hg] at h
  | some g =>
    simp only [hg, Prod.mk.injEq, and_true] at h
    subst h
    exact ⟨by simp [listedIn, Dict.get?_set], ⟨name, ((t.raw.get? name).map (·.order)).getD order, 0⟩, by
      simp only [Dict.get?_set, if_true]
      cases t.raw.get? name <;> rfl, rfl, rfl⟩

example : (addSubgroup t0 21 10 none 3).2 = none := by decide

/-- Adding a fluid: its temperature range starts at the temperature asked for, or else the one it had, or else 25, and ends at the
maximum asked for, or else the one it had, or else the start; no other fluid changes, and an unknown fluid has no range. -/
theorem C66_fluid (raw : Dict ℕ Fluid) (name : ℕ) (order : Option ℕ) (d m : Option ℤ) :
    (let lo := d.getD (((raw.get? name).map (·.default)).getD 25)
     temperatureRange (addFluid raw name order d m) name = some (lo, m.getD (((raw.get? name).bind (·.max)).getD lo))) ∧
    (∀ n, n ≠ name → temperatureRange (addFluid raw name order d m) n = temperatureRange raw n) ∧
    ∀ n, temperatureRange raw n = none ↔ n ∉ raw.keys := by
  refine ⟨?_, fun n hn => ?_, fun n => ?_⟩
  · simp only [temperatureRange, addFluid, Dict.get?_set, if_true]
    cases raw.get? name <;> cases d <;> cases m <;> simp
  · simp only [temperatureRange, addFluid, Dict.get?_set, if_neg (Ne.symm hn)]
  · rw [← Dict.get?_eq_none]
    simp only [temperatureRange]
    cases raw.get? n <;> simp

example : temperatureRange (addFluid [(1, ⟨3, 15, some 100⟩)] 1 none none none) 1 = some (15, 100) ∧
    temperatureRange (addFluid [] 2 none none (some 500)) 2 = some (25, 500) ∧ temperatureRange [] 2 = none := by decide

/-- False of the code: modifying a fluid keeps its order unless another is asked for.  Without `order` it becomes the empty string
(`fluids.py:31`). -/
theorem C66_fluid_refuted : ¬ ∀ raw name f d m, Dict.get? raw name = some f →
    ((addFluid raw name none d m).get? name).map (·.order) = some f.order := by
  intro h
  have := h [(1, ⟨3, 15, some 100⟩)] 1 _ none none rfl
  revert this
  decide

/-- False of the code: a temperature range is not empty.  A fluid given a default temperature above the maximum it has, or a maximum
below 25 and no default temperature, has a range with no temperature in it. -/
theorem C66_range_refuted : ¬ ∀ raw name order d m lo hi, (∀ n r, temperatureRange raw n = some r → r.1 ≤ r.2) →
    (d = none ∨ m = none) → temperatureRange (addFluid raw name order d m) name = some (lo, hi) → lo ≤ hi := by
  intro h
  have := h [] 1 none none (some 10) 25 10 (by intro n r hr; simp [temperatureRange] at hr) (Or.inl rfl) (by decide)
  revert this
  decide

/-- Adding an entity whose name is not listed under any type: it is listed once, under the type asked for, `new_entity` makes it an
instance of that class, its box and mask are the ones asked for, and nothing else changes. -/
theorem C66_entity_partial (dm : ℕ → List ℕ) (t : EntTables) (name type box : ℕ) (mask : Option (List ℕ)) (hidden : Bool) (order : List ℕ)
    (hnew : ∀ ty l, t.ofType.get? ty = some l → name ∉ l) (hty : type ∈ order) :
    let t' := addEntity dm t name type box mask hidden
    (∀ ty, ((t'.ofType.get? ty).getD []).count name = if ty = type then 1 else 0) ∧
    classOf order t' name = some type ∧
    t'.raw.get? name = some ⟨type, box, mask.getD (dm type), hidden⟩ ∧ t'.boxes.get? name = some box ∧
    (∀ n, n ≠ name → t'.raw.get? n = t.raw.get? n ∧ t'.boxes.get? n = t.boxes.get? n ∧ classOf order t' n = classOf order t n) := by
  intro t'
  have hof : ∀ ty, (t'.ofType.get? ty).getD [] = (t.ofType.get? ty).getD [] ++ if ty = type then [name] else [] := by
    intro ty
    simp only [t', addEntity]
    by_cases h : ty = type
    · subst h
      cases ht : t.ofType.get? ty <;> simp [Dict.get?_set]
    · cases ht : t.ofType.get? type <;> simp [Dict.get?_set, h, Ne.symm h]
  have hnot : ∀ ty, name ∉ (t.ofType.get? ty).getD [] := by
    intro ty
    cases ht : t.ofType.get? ty with
    | none => simp
    | some l => exact hnew ty l ht
  refine ⟨fun ty => ?_, ?_, ?_, ?_, fun n hn => ⟨?_, ?_, ?_⟩⟩
  · rw [hof, List.count_append, List.count_eq_zero_of_not_mem (hnot ty)]
    split <;> simp
  · have : (fun ty => ((t'.ofType.get? ty).getD []).contains name) = fun ty => decide (ty = type) := by
      funext ty
      rw [hof]
      by_cases h : ty = type
      · simp [h]
      · have := hnot ty
        rw [if_neg h]
        simp [h, this]
    unfold classOf
    rw [this]
    cases hf : order.find? fun ty => decide (ty = type) with
    | none =>
      have := List.find?_eq_none.1 hf type hty
      simp at this
    | some x =>
      have := List.find?_some hf
      simp at this
      rw [this]
  · simp only [t', addEntity, Dict.get?_set, if_true]
  · simp only [t', addEntity, Dict.get?_set, if_true]
  · simp only [t', addEntity, Dict.get?_set, if_neg (Ne.symm hn)]
  · simp only [t', addEntity, Dict.get?_set, if_neg (Ne.symm hn)]
  · unfold classOf
    congr 1
    funext ty
    rw [hof]
    by_cases h : ty = type
    · simp [h, hn]
    · simp [h]

example : classOf [1, 2] (addEntity (fun _ => []) ⟨[], [(2, [9])], []⟩ 8 2 4 none false) 8 = some 2 ∧
    classOf [1, 2] (addEntity (fun _ => []) ⟨[], [(2, [9])], []⟩ 8 2 4 none false) 9 = some 2 := by decide

/-- False of the code: an entity added again under another type is of that type from then on.  The name stays in the list of the old
type ("FIXME", `entities.py:253`), and `new_entity` takes whichever type it tests first. -/
theorem C66_retype_refuted : ¬ ∀ dm t name type box mask hidden order, type ∈ order → order.Nodup →
    classOf order (addEntity dm t name type box mask hidden) name = some type := by
  intro h
  have := h (fun _ => []) ⟨[(8, ⟨1, 4, [], false⟩)], [(1, [8])], [(8, 4)]⟩ 8 2 4 none false [1, 2] (by decide) (by decide)
  revert this
  decide

end DataTables
end Draftsman
