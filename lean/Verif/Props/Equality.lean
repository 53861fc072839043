import Verif.Model.Equality
import Verif.Proof.Except
import Mathlib.Data.List.Forall2
/-
C89: two blueprints compare equal just if they have the same contents.
-/
namespace Draftsman
namespace Equality
open Schedule (Stop)

/-! ### Equality of lists -/

theorem loop_iff {α : Type} (eq : α → α → Bool) (l r : List α) : ∀ is : List Nat,
    loop eq l r is = true ↔ ∀ i ∈ is, ∃ a b, l[i]? = some a ∧ r[i]? = some b ∧ eq a b = true := by
  intro is
  induction is with
  | nil => simp [loop]
  | cons i is ih =>
    rw [List.forall_mem_cons, ← ih]
    simp only [loop]
    cases hl : l[i]? with
    | none => simp
    | some a =>
      cases hr : r[i]? with
      | none => simp
      | some b => cases he : eq a b <;> simp [he]

theorem listEq_iff {α : Type} {eq : α → α → Bool} {R : α → α → Prop} (h : ∀ a b, eq a b = true ↔ R a b) (l r : List α) :
    listEq eq l r = true ↔ List.Forall₂ R l r := by
  unfold listEq
  by_cases hl : l.length = r.length
  · rw [if_neg (not_not.2 hl), loop_iff, List.forall₂_iff_get]
    constructor
    · intro H
      refine ⟨hl, fun i h1 h2 => ?_⟩
      obtain ⟨a, b, ha, hb, he⟩ := H i (List.mem_range.2 h1)
      rw [List.getElem?_eq_getElem h1] at ha
      rw [List.getElem?_eq_getElem h2] at hb
      cases ha; cases hb
      exact (h _ _).1 he
    · rintro ⟨-, H⟩ i hi
      have h1 := List.mem_range.1 hi
      have h2 : i < r.length := hl ▸ h1
      exact ⟨l[i], r[i], List.getElem?_eq_getElem h1, List.getElem?_eq_getElem h2, (h _ _).2 (H i h1 h2)⟩
  · rw [if_pos hl]
    simp only [Bool.false_eq_true, false_iff]
    exact fun H => hl H.length_eq

theorem builtinEq_iff {α : Type} {eq : α → α → Bool} {R : α → α → Prop} (h : ∀ a b, eq a b = true ↔ R a b) : ∀ l r : List α,
    builtinEq eq l r = true ↔ List.Forall₂ R l r
  | [], [] => by simp [builtinEq]
  | [], b :: r => by simp [builtinEq]
  | a :: l, [] => by simp [builtinEq]
  | a :: l, b :: r => by simp [builtinEq, builtinEq_iff h l r, h]

theorem builtinEq_eq {α : Type} {eq : α → α → Bool} (h : ∀ a b, eq a b = true ↔ a = b) (l r : List α) : builtinEq eq l r = true ↔ l = r := by
  rw [builtinEq_iff h, List.forall₂_eq_eq_eq]

/-! ### The claim -/

/-- Two members that should count as the same: entities alike in all that is compared, or the very same group. -/
inductive Same {V : Type} : Member V → Member V → Prop where
  | entity (u v : Nat) (e : Ent V) : Same (.entity u e) (.entity v e)
  | group (u : Nat) : Same (.group u) (.group u)

variable {V : Type} [DecidableEq V]

theorem entEq_iff (a b : Ent V) : entEq a b = true ↔ a = b := by
  obtain ⟨_, _, _, _, _, _⟩ := a
  obtain ⟨_, _, _, _, _, _⟩ := b
  simp [entEq]

theorem memberEq_iff (a b : Member V) : memberEq a b = true ↔ Same a b := by
  match a, b with
  | .entity u a, .entity v b =>
    rw [memberEq, entEq_iff]
    constructor
    · rintro rfl; exact .entity _ _ _
    · intro h; cases h; rfl
  | .group u, .group v =>
    simp only [memberEq, decide_eq_true_eq]
    constructor
    · rintro rfl; exact .group _
    · intro h; cases h; rfl
  | .entity u a, .group v => simp only [memberEq, Bool.false_eq_true, false_iff]; exact nofun
  | .group u, .entity v b => simp only [memberEq, Bool.false_eq_true, false_iff]; exact nofun

omit [DecidableEq V] in
theorem same_entity {u v : Nat} {a b : Ent V} (h : Same (.entity u a) (.entity v b)) : a = b := by cases h; rfl

omit [DecidableEq V] in
theorem same_group {u v : Nat} (h : Same (V := V) (.group u) (.group v)) : u = v := by cases h; rfl

theorem tileEq_iff (a b : Tile) : tileEq a b = true ↔ a = b := by
  obtain ⟨_, _⟩ := a
  obtain ⟨_, _⟩ := b
  simp [tileEq]

theorem schEq_iff (a b : Sch) : schEq a b = true ↔ a = b := by
  obtain ⟨_, _⟩ := a
  obtain ⟨_, _⟩ := b
  simp [schEq, builtinEq_eq (eq := assocEq) (fun a b => by simp [assocEq])]

theorem settingsEq_iff (a b : Settings V) : settingsEq a b = true ↔ a = b := by
  obtain ⟨_, _, _, _, _, _, _, _, _⟩ := a
  obtain ⟨_, _, _, _, _, _, _, _, _⟩ := b
  simp [settingsEq]

/-- C89: two blueprints are equal just if they have the same settings, members that are the same one by one, the same tiles in the same order, and
schedules with the same stops whose locomotives are the same objects.  Missing: wires, see the refutation. -/
theorem C89_parts_partial (a b : Blueprint V) :
    bpEq a b = true ↔ a.settings = b.settings ∧ List.Forall₂ Same a.entities b.entities ∧ a.tiles = b.tiles ∧ a.schedules = b.schedules := by
  have h : listEq schEq a.schedules b.schedules = true ↔ a.schedules = b.schedules := by
    rw [listEq_iff schEq_iff, List.forall₂_eq_eq_eq]
  simp only [bpEq, Bool.and_eq_true, settingsEq_iff, listEq_iff memberEq_iff, builtinEq_eq tileEq_iff, h]

omit [DecidableEq V] in
theorem Same.refl (a : Member V) : Same a a := by cases a <;> constructor
omit [DecidableEq V] in
theorem Same.symm {a b : Member V} (h : Same a b) : Same b a := by cases h <;> constructor
omit [DecidableEq V] in
theorem Same.trans {a b c : Member V} (h : Same a b) (h' : Same b c) : Same a c := by cases h <;> cases h' <;> constructor

/-- C89: equality is an equivalence relation. -/
theorem C89_equivalence :
    (∀ a : Blueprint V, bpEq a a = true) ∧ (∀ a b : Blueprint V, bpEq a b = true → bpEq b a = true) ∧
    (∀ a b c : Blueprint V, bpEq a b = true → bpEq b c = true → bpEq a c = true) := by
  have htrans : ∀ {x y z : List (Member V)}, List.Forall₂ Same x y → List.Forall₂ Same y z → List.Forall₂ Same x z := by
    intro x y z h
    induction h generalizing z with
    | nil => exact id
    | cons h1 _ ih => intro h'; cases h' with | cons h2 h3 => exact .cons (h1.trans h2) (ih h3)
  refine ⟨fun a => ?_, fun a b h => ?_, fun a b c h h' => ?_⟩
  · rw [C89_parts_partial]
    exact ⟨rfl, List.forall₂_same.2 fun m _ => Same.refl m, rfl, rfl⟩
  · rw [C89_parts_partial] at h ⊢
    exact ⟨h.1.symm, (List.Forall₂.flip (h.2.1.imp fun _ _ => Same.symm)), h.2.2.1.symm, h.2.2.2.symm⟩
  · rw [C89_parts_partial] at h h' ⊢
    exact ⟨h.1.trans h'.1, htrans h.2.1 h'.2.1, h.2.2.1.trans h'.2.2.1, h.2.2.2.trans h'.2.2.2⟩

/-! ### Blueprints made from dictionaries -/

theorem impRef_range (start n k : Nat) (hk : k ≠ 0) (u : Nat) (h : impRef ((List.range n).map (start + ·)) k = .ok u) : k ≤ n ∧ u = start + (k - 1) := by
  unfold impRef at h
  have hp : EList.pyIndex ((List.range n).map (start + ·)) ((k : Int) - 1) = if k - 1 < n then some (k - 1) else none := by
    unfold EList.pyIndex
    simp only [List.length_map, List.length_range]
    by_cases hn : k - 1 < n
    · rw [if_pos hn]
      split_ifs <;> first | omega | (congr 1; omega)
    · rw [if_neg hn]
      split_ifs <;> first | omega | rfl
  rw [hp] at h
  by_cases hn : k - 1 < n
  · rw [if_pos hn] at h
    simp only [List.getElem?_map, List.getElem?_range hn, Option.map_some, Except.ok.injEq] at h
    exact ⟨by omega, h.symm⟩
  · rw [if_neg hn] at h
    cases h

theorem impRef_bound (start n k u : Nat) (h : impRef ((List.range n).map (start + ·)) k = .ok u) : start ≤ u ∧ u < start + n := by
  unfold impRef at h
  split at h
  · cases h
  · rename_i i hi
    split at h
    · cases h
    · rename_i v hv
      cases h
      have := List.mem_of_getElem? hv
      simp only [List.mem_map, List.mem_range] at this
      omega

omit [DecidableEq V] in
theorem load_ok {start : Nat} {d : Data V} {b : Blueprint V} (h : load start d = .ok b) :
    b.settings = d.settings ∧ b.entities = d.entities.mapIdx (fun i e => .entity (start + i) e) ∧ b.tiles = d.tiles ∧
    d.schedules.mapM (loadSch ((List.range d.entities.length).map (start + ·))) = .ok b.schedules ∧ b.stock = d.stock ∧ b.index = d.index := by
  unfold load at h
  simp only [bind, Except.bind, pure, Except.pure] at h
  cases hs : d.schedules.mapM (loadSch ((List.range d.entities.length).map (start + ·))) with
  | error e => rw [hs] at h; cases h
  | ok ss =>
    rw [hs] at h
    cases hw : d.wires.mapM (impWire ((List.range d.entities.length).map (start + ·))) with
    | error e => simp only [hw] at h; cases h
    | ok ws =>
      simp only [hw] at h
      cases h
      exact ⟨rfl, rfl, rfl, rfl, rfl, rfl⟩

theorem loadSch_ok {objs : List Nat} {s : List Nat × List Stop} {x : Sch} (h : loadSch objs s = .ok x) :
    ∃ ls, s.1.mapM (impRef objs) = .ok ls ∧ x = ⟨ls.map some, s.2⟩ := by
  unfold loadSch at h
  simp only [bind, Except.bind, pure, Except.pure] at h
  cases hs : s.1.mapM (impRef objs) with
  | error e => rw [hs] at h; cases h
  | ok ls => rw [hs] at h; cases h; exact ⟨ls, rfl, rfl⟩

omit [DecidableEq V] in
theorem same_mapIdx (l l' : List (Ent V)) (f g : Nat → Nat) :
    List.Forall₂ Same (l.mapIdx fun i e => .entity (f i) e) (l'.mapIdx fun i e => .entity (g i) e) ↔ l = l' := by
  constructor
  · intro h
    have hl : l.length = l'.length := by simpa using h.length_eq
    refine List.ext_getElem hl fun i h1 h2 => ?_
    have := (List.forall₂_iff_get.1 h).2 i (by simpa using h1) (by simpa using h2)
    simp only [List.get_eq_getElem, List.getElem_mapIdx] at this
    exact same_entity this
  · rintro rfl
    rw [List.forall₂_iff_get]
    refine ⟨by simp, fun i h1 h2 => ?_⟩
    simp only [List.get_eq_getElem, List.getElem_mapIdx]
    exact .entity _ _ _

/-- C89: two blueprints made from one dictionary should be equal; they are just if no schedule has a locomotive. -/
theorem C89_loaded (d : Data V) (s t : Nat) (a b : Blueprint V) (hs : load s d = .ok a) (ht : load t d = .ok b) (hd : s + d.entities.length ≤ t) :
    bpEq a b = true ↔ ∀ x ∈ d.schedules, x.1 = [] := by
  obtain ⟨a1, a2, a3, a4, -⟩ := load_ok hs
  obtain ⟨b1, b2, b3, b4, -⟩ := load_ok ht
  rw [C89_parts_partial, a1, a2, a3, b1, b2, b3, same_mapIdx]
  simp only [true_and]
  rw [mapM_ok_iff] at a4 b4
  generalize a.schedules = x at a4
  generalize b.schedules = y at b4
  generalize d.schedules = l at a4 b4 ⊢
  clear a1 a2 a3 b1 b2 b3 hs ht
  constructor
  · rintro rfl z hz
    obtain ⟨i, hi, rfl⟩ := List.getElem_of_mem hz
    have hla := a4.length_eq
    have hx := (List.forall₂_iff_get.1 a4).2 i hi (hla ▸ hi)
    have hy := (List.forall₂_iff_get.1 b4).2 i hi (hla ▸ hi)
    simp only [List.get_eq_getElem] at hx hy
    obtain ⟨ls, h1, h2⟩ := loadSch_ok hx
    obtain ⟨ls', h3, h4⟩ := loadSch_ok hy
    rw [h4] at h2
    simp only [Sch.mk.injEq, and_true] at h2
    have hll : ls' = ls := (Option.some_injective _).list_map h2
    subst hll
    cases hk : l[i].1 with
    | nil => rfl
    | cons k ks =>
      rw [hk, mapM_ok_iff] at h1 h3
      cases h1 with
      | cons h5 _ => cases h3 with
        | cons h6 _ =>
          have := impRef_bound _ _ _ _ h5
          have := impRef_bound _ _ _ _ h6
          omega
  · intro hn
    have : ∀ (objs objs' : List Nat), ∀ z ∈ l, loadSch objs z = loadSch objs' z := by
      intro o o' z hz
      simp only [loadSch, hn z hz, List.mapM_nil]
    have e : l.mapM (loadSch ((List.range d.entities.length).map (s + ·))) = l.mapM (loadSch ((List.range d.entities.length).map (t + ·))) := by
      clear a4 b4 hn
      induction l with
      | nil => rfl
      | cons z l ih =>
        rw [List.mapM_cons, List.mapM_cons, this _ _ z (by simp), ih (fun o o' w hw => this o o' w (by simp [hw]))]
    rw [← mapM_ok_iff] at a4 b4
    rw [e, b4] at a4
    exact (Except.ok.inj a4).symm

theorem locos_inj {s n : Nat} {ks ks' ls : List Nat} (h : List.Forall₂ (fun a b => impRef ((List.range n).map (s + ·)) a = .ok b) ks ls)
    (h' : List.Forall₂ (fun a b => impRef ((List.range n).map (s + ·)) a = .ok b) ks' ls) (hp : ∀ k ∈ ks, k ≠ 0) (hp' : ∀ k ∈ ks', k ≠ 0) : ks = ks' := by
  induction h generalizing ks' with
  | nil => cases h'; rfl
  | cons h1 _ ih => cases h' with
    | cons h2 h3 =>
      have e1 := impRef_range _ _ _ (hp _ List.mem_cons_self) _ h1
      have e2 := impRef_range _ _ _ (hp' _ List.mem_cons_self) _ h2
      have n1 := hp _ List.mem_cons_self
      have n2 := hp' _ List.mem_cons_self
      congr 1
      · omega
      · exact ih h3 (fun k hk => hp k (by simp [hk])) (fun k hk => hp' k (by simp [hk]))

/-- C89: blueprints made from dictionaries with references that start at 1 are equal only if the dictionaries agree in all but wires, stock connections and
index.  The objects are taken to be the same ones, see `C89_loaded` for that. -/
theorem C89_content_partial (d d' : Data V) (s : Nat) (a b : Blueprint V) (hs : load s d = .ok a) (ht : load s d' = .ok b)
    (hp : ∀ x ∈ d.schedules, ∀ k ∈ x.1, k ≠ 0) (hp' : ∀ x ∈ d'.schedules, ∀ k ∈ x.1, k ≠ 0) :
    bpEq a b = true ↔ d.settings = d'.settings ∧ d.entities = d'.entities ∧ d.tiles = d'.tiles ∧ d.schedules = d'.schedules := by
  obtain ⟨a1, a2, a3, a4, -⟩ := load_ok hs
  obtain ⟨b1, b2, b3, b4, -⟩ := load_ok ht
  rw [C89_parts_partial, a1, a2, a3, b1, b2, b3, same_mapIdx]
  refine and_congr_right fun _ => and_congr_right fun he => and_congr_right fun _ => ?_
  rw [← he] at b4
  constructor
  · intro hx
    rw [hx] at a4
    have h1 := (mapM_ok_iff _ _ _).1 a4
    have h2 := (mapM_ok_iff _ _ _).1 b4
    have hl : d.schedules.length = d'.schedules.length := h1.length_eq.trans h2.length_eq.symm
    refine List.ext_getElem hl fun i hi hi' => ?_
    have h3 := (List.forall₂_iff_get.1 h1).2 i hi (h1.length_eq ▸ hi)
    have h4 := (List.forall₂_iff_get.1 h2).2 i hi' (h1.length_eq ▸ hi)
    simp only [List.get_eq_getElem] at h3 h4
    obtain ⟨ls, h5, h6⟩ := loadSch_ok h3
    obtain ⟨ls', h7, h8⟩ := loadSch_ok h4
    rw [h8] at h6
    simp only [Sch.mk.injEq] at h6
    have hll : ls' = ls := (Option.some_injective _).list_map h6.1
    subst hll
    refine Prod.ext ?_ h6.2.symm
    rw [mapM_ok_iff] at h5 h7
    have h9 := hp _ (List.getElem_mem hi)
    have h10 := hp' _ (List.getElem_mem hi')
    exact locos_inj h5 h7 h9 h10
  · intro hx
    rw [hx, b4] at a4
    exact (Except.ok.inj a4).symm

/-- C89: a blueprint should equal its copy; it does just if it has no groups. -/
theorem C89_copied (b : Blueprint V) (next : Nat) (hn : 0 < next) : bpEq b (copyOf next b) = true ↔ ∀ u, .group u ∉ b.entities := by
  rw [C89_parts_partial]
  simp only [copyOf, true_and, and_true]
  rw [List.forall₂_map_right_iff, List.forall₂_same]
  constructor
  · intro h u hu
    have := same_group (h _ hu)
    omega
  · intro h m hm
    cases m with
    | entity u e => exact .entity _ _ _
    | group u => exact absurd hm (h u)

/-- The object a member is. -/
def Member.id : Member V → Nat
  | .entity u _ => u
  | .group u => u

omit [DecidableEq V] in
/-- C89: a copy has as many members, none of which is a member of the original, and different members of the original have different copies. -/
theorem C89_copied_new (b : Blueprint V) (next : Nat) (hn : ∀ m ∈ b.entities, m.id < next) :
    (copyOf next b).entities.length = b.entities.length ∧ (∀ m ∈ (copyOf next b).entities, ∀ n ∈ b.entities, m.id ≠ n.id) ∧
      ((b.entities.map Member.id).Nodup → ((copyOf next b).entities.map Member.id).Nodup) := by
  have hm : (copyOf next b).entities.map Member.id = (b.entities.map Member.id).map (next + ·) := by
    simp only [copyOf, List.map_map]
    apply List.map_congr_left
    intro m _
    cases m <;> rfl
  refine ⟨by simp [copyOf], ?_, ?_⟩
  · intro m hm' n hn'
    have : m.id ∈ (copyOf next b).entities.map Member.id := List.mem_map_of_mem hm'
    rw [hm, List.mem_map] at this
    obtain ⟨u, -, hu⟩ := this
    have := hn n hn'
    omega
  · intro h
    rw [hm]
    exact List.Pairwise.map _ (fun a b hab => by omega) h

/-! ### Examples and refutations -/

/-- A locomotive with a schedule, a chest, two wires. -/
def exData : Data Nat where
  settings := ⟨0, 1, 2, 3, 4, 5, 6, 7, 8⟩
  entities := [⟨"Locomotive", "locomotive", ⟨0, 0⟩, none, 0, [7]⟩, ⟨"Container", "chest", ⟨5, 5⟩, some "c", 0, []⟩]
  tiles := [⟨"concrete", ⟨1, 1⟩⟩]
  schedules := [([1], [⟨"A", []⟩])]
  wires := [⟨1, 1, 2, 1⟩]
  stock := 0
  index := 0

example : (load 10 exData).toOption.map (fun b => (bpEq b b, b.schedules.map Sch.locos)) = some (true, [[some 10]]) := by decide +kernel

/-- C89: two blueprints made from one dictionary are not equal if it has a schedule with a locomotive. -/
theorem C89_loaded_refuted : ¬ ∀ (d : Data Nat) (s t : Nat) (a b : Blueprint Nat), load s d = .ok a → load t d = .ok b → bpEq a b = true := by
  intro h
  have h' : ∀ n, ∃ a, load n exData = .ok a := fun n => ⟨⟨exData.settings, exData.entities.mapIdx (fun i e => .entity (n + i) e), exData.tiles,
    [⟨[some (n + 0)], [⟨"A", []⟩]⟩], [⟨n + 0, 1, n + 1, 1⟩], 0, 0⟩, rfl⟩
  obtain ⟨a, ha⟩ := h' 10
  obtain ⟨b, hb⟩ := h' 20
  have := (C89_loaded exData 10 20 a b ha hb (by decide)).1 (h exData 10 20 a b ha hb) _ (List.mem_singleton.2 rfl)
  cases this

/-- C89: blueprints that differ in their wires, stock connections and index are equal. -/
theorem C89_wires_refuted : ¬ ∀ (d d' : Data Nat) (s : Nat) (a b : Blueprint Nat), load s d = .ok a → load s d' = .ok b → bpEq a b = true →
    d.wires = d'.wires ∨ d.stock = d'.stock ∨ d.index = d'.index := by
  intro h
  have h' : ∃ a b, load 10 exData = .ok a ∧ load 10 { exData with wires := [], stock := 1, index := 1 } = .ok b := by
    refine ⟨⟨exData.settings, exData.entities.mapIdx (fun i e => .entity (10 + i) e), exData.tiles, [⟨[some 10], [⟨"A", []⟩]⟩], [⟨10, 1, 11, 1⟩], 0, 0⟩,
      ⟨exData.settings, exData.entities.mapIdx (fun i e => .entity (10 + i) e), exData.tiles, [⟨[some 10], [⟨"A", []⟩]⟩], [], 1, 1⟩, ?_, ?_⟩
    · decide +kernel
    · decide +kernel
  obtain ⟨a, b, ha, hb⟩ := h'
  have he : bpEq a b = true := (C89_content_partial exData _ 10 a b ha hb (by decide) (by decide)).2 ⟨rfl, rfl, rfl, rfl⟩
  have := h exData _ 10 a b ha hb he
  revert this
  decide

/-- C89: a blueprint with a group in it is not equal to its own copy. -/
theorem C89_copied_refuted : ¬ ∀ (b : Blueprint Nat) (next : Nat), bpEq b (copyOf next b) = true := by
  intro h
  have := (C89_copied ⟨⟨0, 0, 0, 0, 0, 0, 0, 0, 0⟩, [.group 3], [], [], [], 0, 0⟩ 5 (by decide)).1 (h _ 5) 3
  simp at this

/-- C89: blueprints with the same members in another order are not equal. -/
theorem C89_order_refuted : ¬ ∀ (b : Blueprint Nat) (l : List (Member Nat)), l.Perm b.entities → bpEq b { b with entities := l } = true := by
  intro h
  have := h ⟨⟨0, 0, 0, 0, 0, 0, 0, 0, 0⟩, [.group 3, .group 4], [], [], [], 0, 0⟩ [.group 4, .group 3] (List.Perm.swap _ _ _)
  revert this
  decide +kernel

/-! ### Shapes -/

/-- C89: equal boxes are the same box; equal sets of boxes have the same boxes in order, and overlap the same sets. -/
theorem C89_boxes (a b : List AABB) (c : List Shp) (h : setEq (a.map .box) (b.map .box) = true) :
    a = b ∧ collisionSetOverlaps shpOverlaps (a.map .box) c = collisionSetOverlaps shpOverlaps (b.map .box) c := by
  have hb : ∀ x y, aabbEq x y = true ↔ x = y := by
    rintro ⟨_, _, _⟩ ⟨_, _, _⟩
    simp only [aabbEq, Bool.and_eq_true, decide_eq_true_eq, AABB.mk.injEq]
    tauto
  have : a = b := by
    rw [setEq, builtinEq_iff (R := fun x y => shpEq x y = true) (fun _ _ => Iff.rfl), List.forall₂_map_left_iff, List.forall₂_map_right_iff] at h
    rw [← List.forall₂_eq_eq_eq]
    exact h.imp fun x y => (hb x y).1
  exact ⟨this, by rw [this]⟩

example : setEq [.box ⟨⟨0, 0⟩, ⟨1, 1⟩, ⟨2, 0⟩⟩] [.box ⟨⟨0, 0⟩, ⟨1, 1⟩, ⟨2, 0⟩⟩] = true := by decide +kernel

/-- C89: equality of shapes is an equivalence relation. -/
theorem C89_shapes :
    (∀ a : List Shp, setEq a a = true) ∧ (∀ a b : List Shp, setEq a b = true → setEq b a = true) ∧
    (∀ a b c : List Shp, setEq a b = true → setEq b c = true → setEq a c = true) := by
  have key : ∀ a b : Shp, shpEq a b = true ↔ ((∃ x, a = .box x ∧ b = .box x) ∨ ∃ r s : Rct, a = .rct r ∧ b = .rct s ∧
      (r.rect.position, r.rect.width, r.rect.height, r.angle) = (s.rect.position, s.rect.width, s.rect.height, s.angle)) := by
    intro a b
    match a, b with
    | .box x, .box y =>
      obtain ⟨_, _, _⟩ := x
      obtain ⟨_, _, _⟩ := y
      simp only [shpEq, aabbEq, Bool.and_eq_true, decide_eq_true_eq, Shp.box.injEq, reduceCtorEq, false_and, exists_false, or_false]
      constructor
      · rintro ⟨rfl, rfl, rfl⟩; exact ⟨_, rfl, rfl⟩
      · rintro ⟨_, rfl, h⟩; cases h; exact ⟨rfl, rfl, rfl⟩
    | .rct r, .rct s =>
      simp [shpEq, rectEq]
    | .box x, .rct s => simp [shpEq]
    | .rct r, .box y => simp [shpEq]
  have hr : ∀ a, shpEq a a = true := by
    intro a
    rw [key]
    cases a with
    | box x => exact .inl ⟨x, rfl, rfl⟩
    | rct r => exact .inr ⟨r, r, rfl, rfl, rfl⟩
  have hs : ∀ a b, shpEq a b = true → shpEq b a = true := by
    intro a b h
    rw [key] at h ⊢
    rcases h with ⟨x, h1, h2⟩ | ⟨r, s, h1, h2, h3⟩
    · exact .inl ⟨x, h2, h1⟩
    · exact .inr ⟨s, r, h2, h1, h3.symm⟩
  have ht : ∀ a b c, shpEq a b = true → shpEq b c = true → shpEq a c = true := by
    intro a b c h h'
    rw [key] at h h' ⊢
    rcases h with ⟨x, h1, h2⟩ | ⟨r, s, h1, h2, h3⟩ <;> rcases h' with ⟨y, h4, h5⟩ | ⟨r', s', h4, h5, h6⟩
    · rw [h2] at h4; cases h4; exact .inl ⟨x, h1, h5⟩
    · rw [h2] at h4; cases h4
    · rw [h2] at h4; cases h4
    · rw [h2] at h4; cases h4; exact .inr ⟨r, s', h1, h5, h3.trans h6⟩
  have hi := builtinEq_iff (eq := shpEq) (R := fun a b => shpEq a b = true) (fun _ _ => Iff.rfl)
  refine ⟨fun a => ?_, fun a b h => ?_, fun a b c h h' => ?_⟩
  · rw [setEq, hi]; exact List.forall₂_same.2 fun x _ => hr x
  · rw [setEq, hi] at h ⊢; exact List.Forall₂.flip (h.imp fun _ _ => hs _ _)
  · rw [setEq, hi] at h h' ⊢
    induction h generalizing c with
    | nil => exact h'
    | cons h1 _ ih => cases h' with | cons h2 h3 => exact .cons (ht _ _ _ h1 h2) (ih _ h3)

/-- C89: equal rectangles may overlap different shapes: one was turned after it was built and the other was not. -/
theorem C89_rectangle_refuted : ¬ ∀ a b c : Rct, rectEq a b = true → shpOverlaps (.rct a) (.rct c) = shpOverlaps (.rct b) (.rct c) := by
  intro h
  have : ∃ a b c : Rct, rectEq a b = true ∧ shpOverlaps (.rct a) (.rct c) = true ∧ shpOverlaps (.rct b) (.rct c) = false := by
    refine ⟨⟨36, ⟨⟨0, 0⟩, 1, 4, 3 / 5, 4 / 5, [⟨0, -1⟩, ⟨1, 0⟩, ⟨0, 1⟩, ⟨-1, 0⟩]⟩⟩,
      ⟨36, ⟨⟨0, 0⟩, 1, 4, 3 / 5, 4 / 5, [⟨4 / 5, -3 / 5⟩, ⟨3 / 5, 4 / 5⟩, ⟨-4 / 5, 3 / 5⟩, ⟨-3 / 5, -4 / 5⟩]⟩⟩,
      ⟨36, ⟨⟨18 / 25, 24 / 25⟩, 1, 4, 3 / 5, 4 / 5, [⟨0, -1⟩, ⟨1, 0⟩, ⟨0, 1⟩, ⟨-1, 0⟩]⟩⟩, ?_, ?_, ?_⟩ <;> decide +kernel
  obtain ⟨a, b, c, h1, h2, h3⟩ := this
  rw [h a b c h1, h3] at h2
  cases h2

end Equality
end Draftsman
