import Verif.Model.NestMap
import Verif.Proof.SpatialHash
import Mathlib.Data.List.Nodup

/-
Lemmas for C122: positions and membership through parents, and the map of the blueprint under each operation.
-/
namespace Draftsman.NestMap

/-- Parents are older than their members. -/
def Dec (o : Nat → Obj) : Prop := ∀ i p, (o i).parent = some p → p < i

theorem Dec.zero {o : Nat → Obj} (h : Dec o) : (o 0).parent = none := by
  cases hp : (o 0).parent with
  | none => rfl
  | some p => exact absurd (h 0 p hp) (by omega)

theorem worldF_fuel {o : Nat → Obj} (h : Dec o) : ∀ f f' i, i ≤ f → i ≤ f' → worldF o f i = worldF o f' i := by
  intro f
  induction f with
  | zero =>
    intro f' i hi _
    obtain rfl : i = 0 := by omega
    cases f' with
    | zero => rfl
    | succ f' => simp only [worldF, h.zero]
  | succ f ih =>
    intro f' i hi hi'
    cases f' with
    | zero =>
      obtain rfl : i = 0 := by omega
      simp only [worldF, h.zero]
    | succ f' =>
      simp only [worldF]
      cases hp : (o i).parent with
      | none => rfl
      | some p =>
        have := h i p hp
        simp only
        rw [ih f' p (by omega) (by omega)]

theorem world_none {o : Nat → Obj} {i : Nat} (hp : (o i).parent = none) : world o i = (o i).pos := by
  unfold world
  cases i with
  | zero => rfl
  | succ i => simp only [worldF, hp]

theorem world_some {o : Nat → Obj} (h : Dec o) {i p : Nat} (hp : (o i).parent = some p) : world o i = world o p + (o i).pos := by
  have hlt := h i p hp
  unfold world
  cases i with
  | zero => omega
  | succ i =>
    simp only [worldF, hp]
    rw [worldF_fuel h i p p (by omega) (le_refl _)]

theorem belowF_fuel {o : Nat → Obj} (h : Dec o) (g : Nat) : ∀ f f' i, i ≤ f → i ≤ f' → belowF o g f i = belowF o g f' i := by
  intro f
  induction f with
  | zero =>
    intro f' i hi _
    obtain rfl : i = 0 := by omega
    cases f' with
    | zero => rfl
    | succ f' => simp only [belowF, h.zero, Bool.or_false]
  | succ f ih =>
    intro f' i hi hi'
    cases f' with
    | zero =>
      obtain rfl : i = 0 := by omega
      simp only [belowF, h.zero, Bool.or_false]
    | succ f' =>
      simp only [belowF]
      cases hp : (o i).parent with
      | none => rfl
      | some p =>
        have := h i p hp
        simp only
        rw [ih f' p (by omega) (by omega)]

theorem below_self (o : Nat → Obj) (g : Nat) : below o g g = true := by
  unfold below
  cases g <;> simp [belowF]

theorem below_none {o : Nat → Obj} {g i : Nat} (hp : (o i).parent = none) (hi : i ≠ g) : below o g i = false := by
  unfold below
  cases i with
  | zero => simp [belowF, hi]
  | succ i => simp [belowF, hp, hi]

theorem below_some {o : Nat → Obj} (h : Dec o) {g i p : Nat} (hp : (o i).parent = some p) (hi : i ≠ g) :
    below o g i = ((o i).listed && below o g p) := by
  have hlt := h i p hp
  unfold below
  cases i with
  | zero => omega
  | succ i =>
    simp only [belowF, hp]
    rw [belowF_fuel h g i p p (by omega) (le_refl _)]
    simp [hi]

/-- What it takes to be below. -/
theorem below_true {o : Nat → Obj} (h : Dec o) {g i : Nat} (hb : below o g i = true) (hi : i ≠ g) :
    ∃ p, (o i).parent = some p ∧ (o i).listed = true ∧ below o g p = true := by
  cases hp : (o i).parent with
  | none => rw [below_none hp hi] at hb; cases hb
  | some p =>
    rw [below_some h hp hi, Bool.and_eq_true] at hb
    exact ⟨p, rfl, hb.1, hb.2⟩

theorem below_le {o : Nat → Obj} (h : Dec o) {g : Nat} : ∀ i, below o g i = true → g ≤ i := by
  intro i
  induction i using Nat.strong_induction_on with
  | _ i ih =>
    intro hb
    by_cases hi : i = g
    · omega
    obtain ⟨p, hp, -, hb'⟩ := below_true h hb hi
    have := h i p hp
    have := ih p this hb'
    omega

theorem world_congr {o o' : Nat → Obj} (h : Dec o) (h' : Dec o') : ∀ i, (∀ j, j ≤ i → (o' j).parent = (o j).parent ∧ (o' j).pos = (o j).pos) →
    world o' i = world o i := by
  intro i
  induction i using Nat.strong_induction_on with
  | _ i ih =>
    intro he
    obtain ⟨e1, e2⟩ := he i (le_refl _)
    cases hp : (o i).parent with
    | none => rw [world_none hp, world_none (e1.trans hp), e2]
    | some p =>
      have hlt := h i p hp
      rw [world_some h hp, world_some h' (e1.trans hp), e2, ih p hlt (fun j hj => he j (by omega))]

theorem below_congr {o o' : Nat → Obj} (h : Dec o) (h' : Dec o') (g : Nat) :
    ∀ i, (∀ j, j ≤ i → (o' j).parent = (o j).parent ∧ (o' j).listed = (o j).listed) → below o' g i = below o g i := by
  intro i
  induction i using Nat.strong_induction_on with
  | _ i ih =>
    intro he
    obtain ⟨e1, e2⟩ := he i (le_refl _)
    by_cases hi : i = g
    · subst hi; rw [below_self, below_self]
    cases hp : (o i).parent with
    | none => rw [below_none hp hi, below_none (e1.trans hp) hi]
    | some p =>
      have hlt := h i p hp
      rw [below_some h hp hi, below_some h' (e1.trans hp) hi, e2, ih p hlt (fun j hj => he j (by omega))]

/-- Positions of what is in the blueprint depend on what is in the blueprint. -/
theorem world_live {o o' : Nat → Obj} (h : Dec o) (h' : Dec o')
    (he : ∀ j, below o 0 j = true → (o' j).parent = (o j).parent ∧ (o' j).pos = (o j).pos) :
    ∀ i, below o 0 i = true → world o' i = world o i := by
  intro i
  induction i using Nat.strong_induction_on with
  | _ i ih =>
    intro hb
    obtain ⟨e1, e2⟩ := he i hb
    cases hp : (o i).parent with
    | none => rw [world_none hp, world_none (e1.trans hp), e2]
    | some p =>
      have hlt := h i p hp
      have hi : i ≠ 0 := by omega
      obtain ⟨p', hp', -, hb'⟩ := below_true h hb hi
      rw [hp] at hp'
      obtain rfl : p = p' := by simpa using hp'
      rw [world_some h hp, world_some h' (e1.trans hp), e2, ih p hlt hb']

theorem worldBox_congr {o o' : Nat → Obj} {i : Nat} (hb : (o' i).box = (o i).box) (hw : world o' i = world o i) :
    worldBox o' i = worldBox o i := by
  unfold worldBox; rw [hb, hw]

theorem mem_cells {o : Nat → Obj} {i : Nat} {e : Cell × Nat} :
    e ∈ cells o i ↔ e.2 = i ∧ e.1 ∈ cellsFromAabb 8 (worldBox o i) := by
  unfold cells
  rw [List.mem_map]
  constructor
  · rintro ⟨c, hc, rfl⟩; exact ⟨rfl, hc⟩
  · rintro ⟨rfl, h⟩; exact ⟨e.1, h, rfl⟩

theorem nodup_cells (o : Nat → Obj) (i : Nat) : (cells o i).Nodup :=
  (nodup_cellsFromAabb 8 _).map (fun a b h => by simpa using h)

theorem mem_entries {o : Nat → Obj} {n g : Nat} {e : Cell × Nat} :
    e ∈ entries o n g ↔ e.2 < n ∧ below o g e.2 = true ∧ e.1 ∈ cellsFromAabb 8 (worldBox o e.2) := by
  unfold entries
  rw [List.mem_flatMap]
  constructor
  · rintro ⟨i, hi, he⟩
    rw [List.mem_filter, List.mem_range] at hi
    obtain ⟨h1, h2⟩ := mem_cells.1 he
    rw [h1]; exact ⟨hi.1, hi.2, h2⟩
  · rintro ⟨h1, h2, h3⟩
    exact ⟨e.2, by rw [List.mem_filter, List.mem_range]; exact ⟨h1, h2⟩, mem_cells.2 ⟨rfl, h3⟩⟩

theorem nodup_entries (o : Nat → Obj) (n g : Nat) : (entries o n g).Nodup := by
  unfold entries
  rw [List.nodup_flatMap]
  refine ⟨fun i _ => nodup_cells o i, ?_⟩
  refine List.Pairwise.imp_of_mem ?_ ((List.nodup_range (n := n)).filter _)
  intro a b _ _ hab
  rw [Function.onFun, List.disjoint_left]
  intro e h1 h2
  exact hab ((mem_cells.1 h1).1.symm.trans (mem_cells.1 h2).1)

/-! ## States -/

/-- What holds of every state. -/
structure Ok (s : State) : Prop where
  root : s.obj 0 = { parent := none, listed := true, pos := 0, box := none }
  next : 0 < s.next
  dec : Dec s.obj
  coll : ∀ i p, (s.obj i).parent = some p → (s.obj p).box = none
  fresh : ∀ i, s.next ≤ i → s.obj i = unused
  reg : ∀ e ∈ s.map, e.2 < s.next

/-- The map holds each entity of the blueprint in the cells where it is, once each, and nothing else. -/
structure Exact (s : State) : Prop where
  nodup : s.map.Nodup
  mem : ∀ e, e ∈ s.map ↔ below s.obj 0 e.2 = true ∧ e.1 ∈ cellsFromAabb 8 (worldBox s.obj e.2)

theorem Ok.world_zero {s : State} (h : Ok s) : world s.obj 0 = 0 := by
  rw [world_none (by rw [h.root]), h.root]

theorem Ok.below_lt {s : State} (h : Ok s) {i : Nat} (hb : below s.obj 0 i = true) : i < s.next := by
  by_contra hc
  have hf := h.fresh i (by omega)
  have := h.next
  rw [below_none (by rw [hf]; rfl) (by omega)] at hb
  cases hb

theorem zero_add' (v : Vec) : (0 : Vec) + v = v := by
  cases v with
  | mk x y => show Vec.mk (0 + x) (0 + y) = _; simp

theorem empty_ok : Ok empty := by
  refine ⟨rfl, by simp [empty], ?_, ?_, ?_, by simp [empty]⟩
  · intro i p h; simp only [empty] at h; split at h <;> simp [unused] at h
  · intro i p h; simp only [empty] at h; split at h <;> simp [unused] at h
  · intro i h; simp only [empty] at h ⊢; rw [if_neg (by omega)]

theorem cellsFromAabb_none (o : Nat → Obj) {i : Nat} (h : (o i).box = none) : cellsFromAabb 8 (worldBox o i) = [] := by
  simp [worldBox, h, cellsFromAabb]

theorem empty_exact : Exact empty := by
  refine ⟨by simp [empty], fun e => ?_⟩
  have hb : (empty.obj e.2).box = none := by simp only [empty]; split <;> rfl
  rw [cellsFromAabb_none _ hb]
  simp [empty]

/-! ## Appending an entity -/

theorem appendLeaf_obj (s : State) (c : Nat) (pos : Vec) (box : AABB) (j : Nat) :
    (appendLeaf s c pos box).obj j = if j = s.next then { parent := some c, listed := true, pos, box := some box } else s.obj j := by
  simp only [appendLeaf]
  split <;> rfl

theorem appendLeaf_ok {s : State} (h : Ok s) {c : Nat} (hc : c < s.next) (hg : (s.obj c).box = none) (pos : Vec) (box : AABB) :
    Ok (appendLeaf s c pos box) := by
  have hn := h.next
  refine ⟨?_, by simp [appendLeaf], ?_, ?_, ?_, ?_⟩
  · rw [appendLeaf_obj, if_neg (by omega), h.root]
  · intro i p hp
    rw [appendLeaf_obj] at hp
    split at hp
    · simp only [Option.some.injEq] at hp; omega
    · exact h.dec i p hp
  · intro i p hp
    rw [appendLeaf_obj] at hp
    split at hp
    · simp only [Option.some.injEq] at hp; subst hp
      rw [appendLeaf_obj, if_neg (by omega)]; exact hg
    · have h1 := h.coll i p hp
      rw [appendLeaf_obj]
      split
      · rename_i hpn
        have hlt := h.dec i p hp
        rw [h.fresh i (by omega)] at hp; simp [unused] at hp
      · exact h1
  · intro i hi
    simp only [appendLeaf] at hi
    rw [appendLeaf_obj, if_neg (by omega), h.fresh i (by omega)]
  · intro e he
    simp only [appendLeaf] at he ⊢
    split at he
    · rcases List.mem_append.1 he with he | he
      · have := h.reg e he; omega
      · rw [(mem_cells.1 he).1]; omega
    · have := h.reg e he; omega

theorem appendLeaf_old {s : State} (h : Ok s) {c : Nat} (hc : c < s.next) (hg : (s.obj c).box = none) (pos : Vec) (box : AABB) {i : Nat}
    (hi : i < s.next) (g : Nat) :
    below (appendLeaf s c pos box).obj g i = below s.obj g i ∧ worldBox (appendLeaf s c pos box).obj i = worldBox s.obj i := by
  have hk := appendLeaf_ok h hc hg pos box
  have he : ∀ j, j ≤ i → (appendLeaf s c pos box).obj j = s.obj j := fun j hj => by rw [appendLeaf_obj, if_neg (by omega)]
  exact ⟨below_congr h.dec hk.dec g i (fun j hj => by rw [he j hj]; exact ⟨rfl, rfl⟩),
    worldBox_congr (by rw [he i (le_refl _)]) (world_congr h.dec hk.dec i (fun j hj => by rw [he j hj]; exact ⟨rfl, rfl⟩))⟩

theorem appendLeaf_new {s : State} (h : Ok s) {c : Nat} (hc : c < s.next) (hg : (s.obj c).box = none) (pos : Vec) (box : AABB) :
    below (appendLeaf s c pos box).obj 0 s.next = below s.obj 0 c ∧
      world (appendLeaf s c pos box).obj s.next = world s.obj c + pos := by
  have hn := h.next
  have hk := appendLeaf_ok h hc hg pos box
  have hp : ((appendLeaf s c pos box).obj s.next).parent = some c := by rw [appendLeaf_obj, if_pos rfl]
  have he : ∀ j, j ≤ c → (appendLeaf s c pos box).obj j = s.obj j := fun j hj => by rw [appendLeaf_obj, if_neg (by omega)]
  constructor
  · rw [below_some hk.dec hp (by omega), (appendLeaf_old h hc hg pos box hc 0).1, appendLeaf_obj, if_pos rfl]; simp
  · rw [world_some hk.dec hp, world_congr h.dec hk.dec c (fun j hj => by rw [he j hj]; exact ⟨rfl, rfl⟩), appendLeaf_obj, if_pos rfl]

theorem appendLeaf_exact {s : State} (h : Ok s) (hx : Exact s) {c : Nat} (hc : c < s.next) (hg : (s.obj c).box = none)
    (hs : c = 0 ∨ below s.obj 0 c = false) (pos : Vec) (box : AABB) : Exact (appendLeaf s c pos box) := by
  have hk := appendLeaf_ok h hc hg pos box
  obtain ⟨hb, hw⟩ := appendLeaf_new h hc hg pos box
  have hnew : ∀ e : Cell × Nat, e ∈ s.map → e.2 ≠ s.next := fun e he => by have := h.reg e he; omega
  by_cases hc0 : c = 0
  · subst hc0
    have hbox : worldBox (fun i => if i = s.next then ({ parent := none, listed := true, pos, box := some box } : Obj) else s.obj i) s.next =
        worldBox (appendLeaf s 0 pos box).obj s.next := by
      refine worldBox_congr (by rw [appendLeaf_obj]; simp) ?_
      rw [hw, h.world_zero, zero_add', world_none (by simp)]; simp
    have hmap : (appendLeaf s 0 pos box).map = s.map ++
        cells (fun i => if i = s.next then ({ parent := none, listed := true, pos, box := some box } : Obj) else s.obj i) s.next := by
      simp [appendLeaf]
    refine ⟨?_, fun e => ?_⟩
    · rw [hmap, List.nodup_append]
      refine ⟨hx.nodup, nodup_cells _ _, ?_⟩
      rintro a ha b hb' rfl
      exact hnew a ha (mem_cells.1 hb').1
    · rw [hmap, List.mem_append, hx.mem, mem_cells, hbox]
      by_cases hi : e.2 < s.next
      · obtain ⟨h1, h2⟩ := appendLeaf_old h hc hg pos box hi 0
        rw [h1, h2]
        exact ⟨fun x => x.elim id (fun y => absurd y.1 (by omega)), .inl⟩
      · by_cases hi2 : e.2 = s.next
        · rw [hi2, hb, below_self]
          constructor
          · rintro (x | x)
            · rw [h.fresh s.next (le_refl _) |> fun z => below_none (g := 0) (by rw [z]; rfl) (by have := h.next; omega)] at x
              cases x.1
            · exact ⟨rfl, x.2⟩
          · exact fun x => .inr ⟨rfl, x.2⟩
        · constructor
          · rintro (x | x)
            · exact absurd (h.below_lt x.1) hi
            · exact absurd x.1 hi2
          · intro x
            have := hk.below_lt x.1
            simp only [appendLeaf] at this; omega
  · have hl : below s.obj 0 c = false := hs.resolve_left hc0
    have hmap : (appendLeaf s c pos box).map = s.map := by simp [appendLeaf, hc0]
    refine ⟨by rw [hmap]; exact hx.nodup, fun e => ?_⟩
    rw [hmap, hx.mem]
    by_cases hi : e.2 < s.next
    · obtain ⟨h1, h2⟩ := appendLeaf_old h hc hg pos box hi 0
      rw [h1, h2]
    · constructor
      · exact fun x => absurd (h.below_lt x.1) hi
      · intro x
        have hlt := hk.below_lt x.1
        simp only [appendLeaf] at hlt
        obtain hi2 : e.2 = s.next := by omega
        rw [hi2, hb, hl] at x
        cases x.1

/-! ## A new group -/

theorem newGroup_ok {s : State} (h : Ok s) (pos : Vec) : Ok (newGroup s pos) := by
  have hn := h.next
  refine ⟨?_, by simp [newGroup], ?_, ?_, ?_, ?_⟩
  · simp only [newGroup]; rw [if_neg (by omega), h.root]
  · intro i p hp
    simp only [newGroup] at hp
    split at hp
    · simp [unused] at hp
    · exact h.dec i p hp
  · intro i p hp
    simp only [newGroup] at hp ⊢
    split at hp
    · simp [unused] at hp
    · split
      · rfl
      · exact h.coll i p hp
  · intro i hi
    simp only [newGroup] at hi ⊢
    rw [if_neg (by omega), h.fresh i (by omega)]
  · intro e he
    have := h.reg e he
    simp only [newGroup]; omega

theorem newGroup_exact {s : State} (h : Ok s) (hx : Exact s) (pos : Vec) : Exact (newGroup s pos) := by
  have hn := h.next
  have hk := newGroup_ok h pos
  have he : ∀ j, j ≠ s.next → (newGroup s pos).obj j = s.obj j := fun j hj => by simp [newGroup, hj]
  refine ⟨hx.nodup, fun e => ?_⟩
  show e ∈ s.map ↔ _
  rw [hx.mem]
  by_cases hi : e.2 < s.next
  · rw [below_congr h.dec hk.dec 0 e.2 (fun j hj => by rw [he j (by omega)]; exact ⟨rfl, rfl⟩),
      worldBox_congr (by rw [he e.2 (by omega)]) (world_congr h.dec hk.dec e.2 (fun j hj => by rw [he j (by omega)]; exact ⟨rfl, rfl⟩))]
  · refine ⟨fun x => absurd (h.below_lt x.1) hi, fun x => ?_⟩
    have hlt := hk.below_lt x.1
    simp only [newGroup] at hlt
    obtain hi2 : e.2 = s.next := by omega
    rw [hi2, below_none (by simp [newGroup, unused]) (by omega)] at x
    cases x.1

/-! ## A copy of a group -/

theorem copyObj_old {s : State} {g : Nat} {up : Option Nat} {j : Nat} (hj : j < s.next) : copyObj s g up j = s.obj j := by
  unfold copyObj; rw [if_neg (by omega)]

theorem copyObj_top {s : State} {g : Nat} {up : Option Nat} (hg : g < s.next) :
    copyObj s g up s.next = { s.obj g with parent := up, listed := true } := by
  unfold copyObj; rw [if_pos (by omega), if_pos rfl]

theorem copyObj_in {s : State} {g : Nat} {up : Option Nat} {k : Nat} (hk : 0 < k) (hk2 : g + k < s.next)
    (hb : below s.obj g (g + k) = true) :
    copyObj s g up (s.next + k) = { s.obj (g + k) with parent := (s.obj (g + k)).parent.map fun p => p - g + s.next } := by
  unfold copyObj
  rw [if_pos (by omega), if_neg (by omega), show s.next + k - s.next + g = g + k by omega, if_pos hb]

theorem copyObj_out {s : State} {g : Nat} {up : Option Nat} {k : Nat} (hk : 0 < k) (hk2 : g + k < s.next)
    (hb : below s.obj g (g + k) = false) : copyObj s g up (s.next + k) = unused := by
  unfold copyObj
  rw [if_pos (by omega), if_neg (by omega), show s.next + k - s.next + g = g + k by omega, if_neg (by simp [hb])]

theorem copyObj_far {s : State} (h : Ok s) {g : Nat} {up : Option Nat} {j : Nat} (hj : s.next + (s.next - g) ≤ j) : copyObj s g up j = unused := by
  unfold copyObj; rw [if_neg (by omega)]; exact h.fresh j (by omega)

theorem copy_dec {s : State} (h : Ok s) {g : Nat} (hg : g < s.next) {up : Option Nat} (hup : ∀ c, up = some c → c < s.next) :
    Dec (copyObj s g up) := by
  intro j p hp
  by_cases h1 : j < s.next
  · rw [copyObj_old h1] at hp; exact h.dec j p hp
  by_cases h2 : s.next + (s.next - g) ≤ j
  · rw [copyObj_far h h2] at hp; simp [unused] at hp
  obtain ⟨k, rfl⟩ : ∃ k, j = s.next + k := ⟨j - s.next, by omega⟩
  by_cases hk : k = 0
  · subst hk
    rw [Nat.add_zero, copyObj_top hg] at hp
    have := hup p hp; omega
  cases hb : below s.obj g (g + k) with
  | false => rw [copyObj_out (by omega) (by omega) hb] at hp; simp [unused] at hp
  | true =>
    rw [copyObj_in (by omega) (by omega) hb] at hp
    obtain ⟨p', hp', -, hb'⟩ := below_true h.dec hb (by omega)
    rw [hp'] at hp
    simp only [Option.map_some, Option.some.injEq] at hp
    have := h.dec _ _ hp'
    have := below_le h.dec p' hb'
    omega

theorem appendGroup_ok {s : State} (h : Ok s) {c g : Nat} (hc : c < s.next) (hcb : (s.obj c).box = none) (hg : g < s.next)
    (hgb : (s.obj g).box = none) : Ok (appendGroup s c g) := by
  have hn := h.next
  have hd : Dec (copyObj s g (some c)) := copy_dec h hg (fun c' hc' => by simp only [Option.some.injEq] at hc'; omega)
  refine ⟨?_, by simp only [appendGroup]; omega, hd, ?_, fun i hi => copyObj_far h hi, ?_⟩
  · simp only [appendGroup]; rw [copyObj_old (by omega), h.root]
  · intro j p hp
    simp only [appendGroup] at hp ⊢
    by_cases h1 : j < s.next
    · rw [copyObj_old h1] at hp
      have := h.dec j p hp
      rw [copyObj_old (by omega)]; exact h.coll j p hp
    by_cases h2 : s.next + (s.next - g) ≤ j
    · rw [copyObj_far h h2] at hp; simp [unused] at hp
    obtain ⟨k, rfl⟩ : ∃ k, j = s.next + k := ⟨j - s.next, by omega⟩
    by_cases hk : k = 0
    · subst hk
      rw [Nat.add_zero, copyObj_top hg] at hp
      simp only [Option.some.injEq] at hp; subst hp
      rw [copyObj_old hc]; exact hcb
    cases hb : below s.obj g (g + k) with
    | false => rw [copyObj_out (by omega) (by omega) hb] at hp; simp [unused] at hp
    | true =>
      rw [copyObj_in (by omega) (by omega) hb] at hp
      obtain ⟨p', hp', -, hb'⟩ := below_true h.dec hb (by omega)
      rw [hp'] at hp
      simp only [Option.map_some, Option.some.injEq] at hp
      have hlt := h.dec _ _ hp'
      have hle := below_le h.dec p' hb'
      subst hp
      rw [show p' - g + s.next = s.next + (p' - g) by omega]
      by_cases hpg : p' = g
      · rw [show s.next + (p' - g) = s.next by omega, copyObj_top hg]; exact hgb
      · rw [copyObj_in (by omega) (by omega) (by rw [show g + (p' - g) = p' by omega]; exact hb'), show g + (p' - g) = p' by omega]
        exact h.coll _ _ hp'
  · intro e he
    simp only [appendGroup] at he ⊢
    split at he
    · rcases List.mem_append.1 he with he | he
      · have := h.reg e he; omega
      · exact (mem_entries.1 he).1
    · have := h.reg e he; omega

/-- What is in the copy, seen from any collection `r` older than it, or from the copy itself. -/
theorem copy_below {s : State} (h : Ok s) {g : Nat} (hg : g < s.next) {up : Option Nat} (hup : ∀ c, up = some c → c < s.next)
    {r : Nat} (hr : r ≤ s.next) : ∀ k, g + k < s.next →
    below (copyObj s g up) r (s.next + k) = (below s.obj g (g + k) && below (copyObj s g up) r s.next) := by
  have hd := copy_dec h hg hup
  intro k
  induction k using Nat.strong_induction_on with
  | _ k ih =>
    intro hk
    by_cases hk0 : k = 0
    · subst hk0; rw [Nat.add_zero, Nat.add_zero, below_self]; simp
    cases hb : below s.obj g (g + k) with
    | false =>
      rw [Bool.false_and]
      exact below_none (by rw [copyObj_out (by omega) hk hb]; rfl) (by omega)
    | true =>
      obtain ⟨p, hp, hl, hb'⟩ := below_true h.dec hb (by omega)
      have hlt := h.dec _ _ hp
      have hle := below_le h.dec p hb'
      have hp' : (copyObj s g up (s.next + k)).parent = some (s.next + (p - g)) := by
        rw [copyObj_in (by omega) hk hb, hp]; simp; omega
      rw [below_some hd hp' (by omega), copyObj_in (by omega) hk hb]
      simp only [hl, Bool.true_and]
      rw [ih (p - g) (by omega) (by omega), show g + (p - g) = p by omega, hb', Bool.true_and]

theorem copy_world {s : State} (h : Ok s) {g : Nat} (hg : g < s.next) : ∀ k, g + k < s.next →
    world (copyObj s g none) (s.next + k) = world (copyObj s g (some 0)) (s.next + k) := by
  have hn := h.next
  have h1 := copy_dec h hg (up := none) (fun c hc => by simp at hc)
  have h2 := copy_dec h hg (up := some 0) (fun c hc => by simp only [Option.some.injEq] at hc; omega)
  intro k
  induction k using Nat.strong_induction_on with
  | _ k ih =>
    intro hk
    by_cases hk0 : k = 0
    · subst hk0
      rw [Nat.add_zero, world_none (by rw [copyObj_top hg]), world_some h2 (p := 0) (by rw [copyObj_top hg]),
        world_none (o := copyObj s g (some 0)) (i := 0) (by rw [copyObj_old hn, h.root]), copyObj_old hn, h.root, copyObj_top hg, copyObj_top hg,
        zero_add']
    cases hb : below s.obj g (g + k) with
    | false =>
      rw [world_none (by rw [copyObj_out (by omega) hk hb]; rfl), world_none (by rw [copyObj_out (by omega) hk hb]; rfl),
        copyObj_out (by omega) hk hb, copyObj_out (by omega) hk hb]
    | true =>
      obtain ⟨p, hp, hl, hb'⟩ := below_true h.dec hb (by omega)
      have hlt := h.dec _ _ hp
      have hle := below_le h.dec p hb'
      have hp' : ∀ up, (copyObj s g up (s.next + k)).parent = some (s.next + (p - g)) := by
        intro up
        rw [copyObj_in (by omega) hk hb, hp]; simp; omega
      rw [world_some h1 (hp' none), world_some h2 (hp' (some 0)), ih (p - g) (by omega) (by omega),
        copyObj_in (by omega) hk hb, copyObj_in (by omega) hk hb]

theorem copy_box {s : State} {g : Nat} (hg : g < s.next) {up up' : Option Nat} : ∀ k, g + k < s.next →
    (copyObj s g up (s.next + k)).box = (copyObj s g up' (s.next + k)).box := by
  intro k hk
  by_cases hk0 : k = 0
  · subst hk0; rw [Nat.add_zero, copyObj_top hg, copyObj_top hg]
  cases hb : below s.obj g (g + k) with
  | false => rw [copyObj_out (by omega) hk hb, copyObj_out (by omega) hk hb]
  | true => rw [copyObj_in (by omega) hk hb, copyObj_in (by omega) hk hb]

theorem appendGroup_exact {s : State} (h : Ok s) (hx : Exact s) {c g : Nat} (hc : c < s.next) (hcb : (s.obj c).box = none) (hg : g < s.next)
    (hgb : (s.obj g).box = none) (hs : c = 0 ∨ below s.obj 0 c = false) : Exact (appendGroup s c g) := by
  have hn := h.next
  have hk := appendGroup_ok h hc hcb hg hgb
  have hold : ∀ i, i < s.next → below (appendGroup s c g).obj 0 i = below s.obj 0 i ∧
      worldBox (appendGroup s c g).obj i = worldBox s.obj i := by
    intro i hi
    have he : ∀ j, j ≤ i → (appendGroup s c g).obj j = s.obj j := fun j hj => copyObj_old (by omega)
    exact ⟨below_congr h.dec hk.dec 0 i (fun j hj => by rw [he j hj]; exact ⟨rfl, rfl⟩),
      worldBox_congr (by rw [he i (le_refl _)]) (world_congr h.dec hk.dec i (fun j hj => by rw [he j hj]; exact ⟨rfl, rfl⟩))⟩
  have hup : ∀ c', some c = some c' → c' < s.next := fun c' hc' => by simp only [Option.some.injEq] at hc'; omega
  have htop : below (copyObj s g (some c)) 0 s.next = below s.obj 0 c := by
    have hd : Dec (copyObj s g (some c)) := hk.dec
    rw [below_some hd (p := c) (by rw [copyObj_top hg]) (by omega)]
    show ((copyObj s g (some c) s.next).listed && below (appendGroup s c g).obj 0 c) = _
    rw [(hold c hc).1, copyObj_top hg]; simp
  by_cases hc0 : c = 0
  · subst hc0
    have hmap : (appendGroup s 0 g).map = s.map ++ entries (copyObj s g none) (s.next + (s.next - g)) s.next := by simp [appendGroup]
    have h1 := copy_dec h hg (up := none) (fun c hc => by simp at hc)
    refine ⟨?_, fun e => ?_⟩
    · rw [hmap, List.nodup_append]
      refine ⟨hx.nodup, nodup_entries _ _ _, ?_⟩
      rintro a ha b hb' rfl
      have := h.reg a ha
      have := below_le h1 _ (mem_entries.1 hb').2.1
      omega
    · rw [hmap, List.mem_append, hx.mem, mem_entries]
      by_cases hi : e.2 < s.next
      · rw [(hold _ hi).1, (hold _ hi).2]
        refine ⟨fun x => x.elim id (fun y => absurd (below_le h1 _ y.2.1) (by omega)), .inl⟩
      · by_cases hi2 : e.2 < s.next + (s.next - g)
        · obtain ⟨k, hk'⟩ : ∃ k, e.2 = s.next + k := ⟨e.2 - s.next, by omega⟩
          have hlk : g + k < s.next := by omega
          have hb1 := copy_below h hg (up := none) (fun c hc => by simp at hc) (r := s.next) (le_refl _) k hlk
          have hb2 := copy_below h hg (up := some 0) (fun c hc => by simp only [Option.some.injEq] at hc; omega) (r := 0) (by omega) k hlk
          rw [below_self, Bool.and_true] at hb1
          rw [htop, below_self, Bool.and_true] at hb2
          have hbox : worldBox (copyObj s g none) (s.next + k) = worldBox (copyObj s g (some 0)) (s.next + k) :=
            worldBox_congr (copy_box hg k hlk) (copy_world h hg k hlk)
          show _ ↔ below (copyObj s g (some 0)) 0 e.2 = true ∧ _ ∈ cellsFromAabb 8 (worldBox (copyObj s g (some 0)) e.2)
          rw [hk', hb1, hb2, hbox]
          constructor
          · rintro (x | x)
            · exact absurd (h.below_lt x.1) (by omega)
            · exact x.2
          · exact fun x => .inr ⟨by omega, x⟩
        · constructor
          · rintro (x | x)
            · exact absurd (h.below_lt x.1) hi
            · exact absurd x.1 hi2
          · exact fun x => absurd (hk.below_lt x.1) hi2
  · have hl : below s.obj 0 c = false := hs.resolve_left hc0
    have hmap : (appendGroup s c g).map = s.map := by simp [appendGroup, hc0]
    refine ⟨by rw [hmap]; exact hx.nodup, fun e => ?_⟩
    rw [hmap, hx.mem]
    by_cases hi : e.2 < s.next
    · rw [(hold _ hi).1, (hold _ hi).2]
    · refine ⟨fun x => absurd (h.below_lt x.1) hi, fun x => ?_⟩
      have hlt : e.2 < s.next + (s.next - g) := hk.below_lt x.1
      obtain ⟨k, hk'⟩ : ∃ k, e.2 = s.next + k := ⟨e.2 - s.next, by omega⟩
      have hb2 := copy_below h hg hup (r := 0) (by omega) k (by omega)
      rw [htop, hl, Bool.and_false] at hb2
      have hx1 : below (copyObj s g (some c)) 0 e.2 = true := x.1
      rw [hk', hb2] at hx1
      cases hx1

/-! ## Deleting -/

/-- Going up from an object of the blueprint one stays in the blueprint. -/
theorem below_up {o : Nat → Obj} (h : Dec o) {i : Nat} : ∀ j, below o i j = true → below o 0 j = true → below o 0 i = true := by
  intro j
  induction j using Nat.strong_induction_on with
  | _ j ih =>
    intro hb h0
    by_cases hij : j = i
    · subst hij; exact h0
    obtain ⟨p, hp, -, hb'⟩ := below_true h hb hij
    have hlt := h j p hp
    obtain ⟨p', hp', -, h0'⟩ := below_true h h0 (by omega)
    rw [hp] at hp'
    obtain rfl : p = p' := by simpa using hp'
    exact ih p hlt hb' h0'

theorem delete_obj {s : State} {i : Nat} (hl : (s.obj i).listed = true) (j : Nat) :
    (delete s i).obj j = if j = i then { s.obj j with listed := false } else s.obj j := by
  simp [delete, hl]

theorem delete_same {s : State} {i j : Nat} : ((delete s i).obj j).parent = (s.obj j).parent ∧ ((delete s i).obj j).pos = (s.obj j).pos ∧
    ((delete s i).obj j).box = (s.obj j).box := by
  by_cases hl : (s.obj i).listed = true
  · rw [delete_obj hl]; split <;> exact ⟨rfl, rfl, rfl⟩
  · simp [delete, hl]

theorem delete_next (s : State) (i : Nat) : (delete s i).next = s.next := by unfold delete; split <;> rfl

theorem delete_ok {s : State} (h : Ok s) {i : Nat} (hi : (s.obj i).parent ≠ none) : Ok (delete s i) := by
  have hi0 : i ≠ 0 := fun hc => hi (by rw [hc, h.root])
  refine ⟨?_, by rw [delete_next]; exact h.next, fun j p hp => h.dec j p (delete_same.1 ▸ hp), fun j p hp => ?_, fun j hj => ?_, fun e he => ?_⟩
  · by_cases hl : (s.obj i).listed = true
    · rw [delete_obj hl, if_neg (by omega), h.root]
    · simp only [delete, hl]; exact h.root
  · rw [delete_same.2.2]; exact h.coll j p (delete_same.1 ▸ hp)
  · rw [delete_next] at hj
    by_cases hl : (s.obj i).listed = true
    · rw [delete_obj hl, if_neg, h.fresh j hj]
      rintro rfl; rw [h.fresh j hj] at hl; cases hl
    · simp only [delete, hl]; exact h.fresh j hj
  · rw [delete_next]
    unfold delete at he
    split at he
    · simp only at he
      split at he
      · exact h.reg e (List.diff_subset _ _ he)
      · exact h.reg e he
    · exact h.reg e he

theorem delete_world {s : State} (h : Ok s) {i : Nat} (hi : (s.obj i).parent ≠ none) (j : Nat) :
    worldBox (delete s i).obj j = worldBox s.obj j :=
  worldBox_congr delete_same.2.2 (world_congr h.dec (delete_ok h hi).dec j (fun _ _ => ⟨delete_same.1, delete_same.2.1⟩))

theorem delete_below {s : State} (h : Ok s) {i : Nat} (hi : (s.obj i).parent ≠ none) (hl : (s.obj i).listed = true) : ∀ j,
    below (delete s i).obj 0 j = (below s.obj 0 j && !below s.obj i j) := by
  have hi0 : i ≠ 0 := fun hc => hi (by rw [hc, h.root])
  have hk := delete_ok h hi
  intro j
  induction j using Nat.strong_induction_on with
  | _ j ih =>
    by_cases hj0 : j = 0
    · subst hj0
      rw [below_self, below_self, below_none (by rw [h.root]) (by omega)]; rfl
    cases hp : (s.obj j).parent with
    | none =>
      rw [below_none (delete_same.1.trans hp) hj0, below_none hp hj0]; rfl
    | some p =>
      have hlt := h.dec j p hp
      rw [below_some hk.dec (delete_same.1.trans hp) hj0, below_some h.dec hp hj0, ih p hlt, delete_obj hl]
      by_cases hji : j = i
      · subst hji; rw [if_pos rfl, below_self]; simp
      · rw [if_neg hji, below_some h.dec hp hji]
        cases (s.obj j).listed <;> cases below s.obj 0 p <;> cases below s.obj i p <;> rfl

theorem delete_exact {s : State} (h : Ok s) (hx : Exact s) {i : Nat} (hi : (s.obj i).parent ≠ none)
    (hs : (s.obj i).parent = some 0 ∨ below s.obj 0 i = false) : Exact (delete s i) := by
  by_cases hl : (s.obj i).listed = true
  swap
  · have : delete s i = s := by simp [delete, hl]
    rw [this]; exact hx
  by_cases h0 : (s.obj i).parent = some 0
  · have hmap : (delete s i).map = s.map.diff (entries s.obj s.next i) := by simp [delete, hl, h0]
    refine ⟨by rw [hmap]; exact hx.nodup.diff, fun e => ?_⟩
    rw [hmap, hx.nodup.mem_sdiff_iff, hx.mem, mem_entries, delete_world h hi, delete_below h hi hl]
    constructor
    · rintro ⟨⟨a, b⟩, c⟩
      refine ⟨?_, b⟩
      cases hc : below s.obj i e.2 with
      | false => simp [a]
      | true => exact absurd ⟨h.below_lt a, hc, b⟩ c
    · rintro ⟨a, b⟩
      rw [Bool.and_eq_true, Bool.not_eq_true'] at a
      exact ⟨⟨a.1, b⟩, fun c => by rw [a.2] at c; cases c.2.1⟩
  · have hl0 := hs.resolve_left h0
    have hmap : (delete s i).map = s.map := by simp [delete, hl, h0]
    refine ⟨by rw [hmap]; exact hx.nodup, fun e => ?_⟩
    rw [hmap, hx.mem, delete_world h hi, delete_below h hi hl]
    refine and_congr_left fun _ => ?_
    rw [Bool.and_eq_true, Bool.not_eq_true']
    refine ⟨fun a => ⟨a, ?_⟩, fun a => a.1⟩
    cases hc : below s.obj i e.2 with
    | false => rfl
    | true => rw [below_up h.dec e.2 hc a] at hl0; cases hl0

/-! ## Changing positions -/

/-- Another position and another box for one object. -/
def repos (o : Nat → Obj) (i : Nat) (v : Vec) (b : AABB → AABB) : Nat → Obj :=
  fun j => if j = i then { o j with pos := v, box := (o j).box.map b } else o j

theorem repos_same (o : Nat → Obj) (i : Nat) (v : Vec) (b : AABB → AABB) (j : Nat) :
    (repos o i v b j).parent = (o j).parent ∧ (repos o i v b j).listed = (o j).listed ∧ ((repos o i v b j).box = none ↔ (o j).box = none) := by
  unfold repos; split
  · exact ⟨rfl, rfl, by simp⟩
  · exact ⟨rfl, rfl, Iff.rfl⟩

theorem repos_pos {o : Nat → Obj} {i : Nat} {v : Vec} {b : AABB → AABB} {j : Nat} (h : j ≠ i) : repos o i v b j = o j := by
  unfold repos; rw [if_neg h]

theorem repos_dec {o : Nat → Obj} (h : Dec o) (i : Nat) (v : Vec) (b : AABB → AABB) : Dec (repos o i v b) :=
  fun j p hp => h j p ((repos_same o i v b j).1 ▸ hp)

theorem repos_below {o : Nat → Obj} (h : Dec o) (i : Nat) (v : Vec) (b : AABB → AABB) (g j : Nat) : below (repos o i v b) g j = below o g j :=
  below_congr h (repos_dec h i v b) g j (fun k _ => ⟨(repos_same o i v b k).1, (repos_same o i v b k).2.1⟩)

theorem repos_ok {s : State} (h : Ok s) {i : Nat} (hi0 : i ≠ 0) (hi : i < s.next) (v : Vec) (b : AABB → AABB) {m : List (Cell × Nat)}
    (hm : ∀ e ∈ m, e.2 < s.next) : Ok { s with obj := repos s.obj i v b, map := m } := by
  refine ⟨?_, h.next, repos_dec h.dec i v b, fun j p hp => ?_, fun j hj => ?_, hm⟩
  · show repos s.obj i v b 0 = _
    rw [repos_pos (by omega)]; exact h.root
  · show (repos s.obj i v b p).box = none
    rw [(repos_same s.obj i v b p).2.2]; exact h.coll j p ((repos_same s.obj i v b j).1 ▸ hp)
  · show repos s.obj i v b j = _
    have : s.next ≤ j := hj
    rw [repos_pos (by omega)]; exact h.fresh j hj

/-- Moving what is not in the blueprint does not matter to it. -/
theorem repos_exact {s : State} (h : Ok s) (hx : Exact s) {i : Nat} (hl : below s.obj 0 i = false) (v : Vec) (b : AABB → AABB) :
    Exact { s with obj := repos s.obj i v b } := by
  refine ⟨hx.nodup, fun e => ?_⟩
  show e ∈ s.map ↔ below (repos s.obj i v b) 0 e.2 = true ∧ e.1 ∈ cellsFromAabb 8 (worldBox (repos s.obj i v b) e.2)
  rw [hx.mem, repos_below h.dec]
  refine and_congr_right fun hb => ?_
  have hne : ∀ j, below s.obj 0 j = true → j ≠ i := by rintro j hj rfl; rw [hl] at hj; cases hj
  rw [worldBox_congr (by rw [repos_pos (hne _ hb)]) (world_live h.dec (repos_dec h.dec i v b) (fun j hj => by
    rw [repos_pos (hne j hj)]; exact ⟨rfl, rfl⟩) e.2 hb)]

theorem move_eq (s : State) (g : Nat) (pos : Vec) :
    (fun j => if j = g then { s.obj j with pos } else s.obj j) = repos s.obj g pos id := by
  funext j
  unfold repos
  split
  · simp
  · rfl

theorem move_ok {s : State} (h : Ok s) (g : Nat) (pos : Vec) : Ok (move s g pos) := by
  unfold move
  split
  · rename_i hc
    rw [move_eq]
    exact repos_ok h hc.2.2.1 hc.2.2.2 pos id h.reg
  · exact h

theorem move_exact {s : State} (h : Ok s) (hx : Exact s) (g : Nat) (pos : Vec) : Exact (move s g pos) := by
  unfold move
  split
  · rename_i hc
    rw [move_eq]
    exact repos_exact h hx (below_none hc.1 hc.2.2.1) pos id
  · exact hx

theorem alter_obj (c : Nat) (f : Vec → Vec) (b : Nat → AABB → AABB) (s : State) (i : Nat) :
    (alter c f b s i).obj = repos s.obj i (f (s.obj i).pos) (b i) := by
  funext j
  simp only [alter, repos]
  split
  · rename_i hj; subst hj; rfl
  · rfl

theorem alter_ok {s : State} (h : Ok s) {c i : Nat} (hi : i < s.next) (hi0 : i ≠ 0) (f : Vec → Vec) (b : Nat → AABB → AABB) :
    Ok (alter c f b s i) := by
  have he : alter c f b s i = { s with obj := repos s.obj i (f (s.obj i).pos) (b i), map := (alter c f b s i).map } := by
    rw [← alter_obj c f b s i]; rfl
  rw [he]
  refine repos_ok h hi0 hi _ _ ?_
  intro e he
  simp only [alter] at he
  split at he
  · rcases List.mem_append.1 he with he | he
    · exact h.reg e (List.diff_subset _ _ he)
    · rw [(mem_cells.1 he).1]; exact hi
  · exact h.reg e he

theorem alter_same (c : Nat) (f : Vec → Vec) (b : Nat → AABB → AABB) (s : State) (i j : Nat) :
    ((alter c f b s i).obj j).parent = (s.obj j).parent ∧
    ((alter c f b s i).obj j).listed = (s.obj j).listed ∧ (((alter c f b s i).obj j).box = none ↔ (s.obj j).box = none) := by
  rw [alter_obj]; exact repos_same s.obj i _ _ j

theorem alter_outside {s : State} (h : Ok s) (hx : Exact s) {c i : Nat} (hc : c ≠ 0) (hl : below s.obj 0 i = false) (f : Vec → Vec)
    (b : Nat → AABB → AABB) : Exact (alter c f b s i) := by
  have := repos_exact h hx hl (f (s.obj i).pos) (b i)
  have he : alter c f b s i = { s with obj := repos s.obj i (f (s.obj i).pos) (b i) } := by
    rw [← alter_obj c f b s i]
    simp only [alter, hc, if_false]
  rw [he]; exact this

theorem alter_leaf {s : State} (h : Ok s) (hx : Exact s) {i : Nat} (hl : below s.obj 0 i = true) (hb : (s.obj i).box ≠ none) (f : Vec → Vec)
    (b : Nat → AABB → AABB) : Exact (alter 0 f b s i) := by
  set o' := repos s.obj i (f (s.obj i).pos) (b i) with ho
  have hd' : Dec o' := repos_dec h.dec _ _ _
  have he : alter 0 f b s i = { s with obj := o', map := s.map.diff (cells s.obj i) ++ cells o' i } := by
    rw [ho, ← alter_obj 0 f b s i]
    simp only [alter, if_true]
  have hw : ∀ j, j ≠ i → world o' j = world s.obj j := by
    intro j
    induction j using Nat.strong_induction_on with
    | _ j ih =>
      intro hj
      cases hp : (s.obj j).parent with
      | none => rw [world_none hp, world_none ((repos_same _ _ _ _ _).1.trans hp), repos_pos hj]
      | some p =>
        rw [world_some h.dec hp, world_some hd' ((repos_same _ _ _ _ _).1.trans hp), ih p (h.dec j p hp), ho, repos_pos hj]
        rintro rfl
        exact hb (h.coll j p hp)
  have hnot : ∀ k, (k, i) ∉ s.map.diff (cells s.obj i) := by
    intro k hk
    rw [hx.nodup.mem_sdiff_iff, hx.mem, mem_cells] at hk
    exact hk.2 ⟨rfl, hk.1.2⟩
  rw [he]
  refine ⟨?_, fun e => ?_⟩
  · show (s.map.diff (cells s.obj i) ++ cells o' i).Nodup
    rw [List.nodup_append]
    refine ⟨hx.nodup.diff, nodup_cells _ _, ?_⟩
    rintro ⟨k, j⟩ ha b hb' rfl
    obtain rfl : j = i := (mem_cells.1 hb').1
    exact hnot k ha
  · show e ∈ s.map.diff (cells s.obj i) ++ cells o' i ↔ below o' 0 e.2 = true ∧ e.1 ∈ cellsFromAabb 8 (worldBox o' e.2)
    obtain ⟨k, j⟩ := e
    rw [List.mem_append, mem_cells, ho, repos_below h.dec, ← ho]
    by_cases hj : j = i
    · subst hj
      simp only [hl, true_and]
      exact ⟨fun x => x.elim (fun y => absurd y (hnot k)) id, .inr⟩
    · rw [hx.nodup.mem_sdiff_iff, hx.mem, mem_cells, worldBox_congr (by rw [ho, repos_pos hj]) (hw j hj)]
      simp only [hj, false_and, or_false, not_false_eq_true, and_true]

theorem alter_below {s : State} (h : Ok s) (c : Nat) (f : Vec → Vec) (b : Nat → AABB → AABB) (i g j : Nat) :
    below (alter c f b s i).obj g j = below s.obj g j := by
  rw [alter_obj]; exact repos_below h.dec i _ _ g j

theorem foldl_alter_ok {c : Nat} (f : Vec → Vec) (b : Nat → AABB → AABB) : ∀ (l : List Nat) {s : State}, Ok s → (∀ i ∈ l, i < s.next ∧ i ≠ 0) →
    Ok (l.foldl (alter c f b) s) := by
  intro l
  induction l with
  | nil => intro s h _; exact h
  | cons i l ih =>
    intro s h hl
    exact ih (alter_ok h (hl i (by simp)).1 (hl i (by simp)).2 f b) (fun j hj => hl j (by simp [hj]))

theorem foldl_alter_outside {c : Nat} (hc : c ≠ 0) (f : Vec → Vec) (b : Nat → AABB → AABB) : ∀ (l : List Nat) {s : State}, Ok s → Exact s →
    (∀ i ∈ l, i < s.next ∧ i ≠ 0 ∧ below s.obj 0 i = false) → Exact (l.foldl (alter c f b) s) := by
  intro l
  induction l with
  | nil => intro s _ h _; exact h
  | cons i l ih =>
    intro s h hx hl
    obtain ⟨h1, h2, h3⟩ := hl i (by simp)
    refine ih (alter_ok h h1 h2 f b) (alter_outside h hx hc h3 f b) (fun j hj => ?_)
    obtain ⟨a, b, d⟩ := hl j (by simp [hj])
    exact ⟨a, b, by rw [alter_below h]; exact d⟩

theorem foldl_alter_leaf (f : Vec → Vec) (b : Nat → AABB → AABB) : ∀ (l : List Nat) {s : State}, Ok s → Exact s →
    (∀ i ∈ l, i < s.next ∧ i ≠ 0 ∧ below s.obj 0 i = true ∧ (s.obj i).box ≠ none) → Exact (l.foldl (alter 0 f b) s) := by
  intro l
  induction l with
  | nil => intro s _ h _; exact h
  | cons i l ih =>
    intro s h hx hl
    obtain ⟨h1, h2, h3, h4⟩ := hl i (by simp)
    refine ih (alter_ok h h1 h2 f b) (alter_leaf h hx h3 h4 f b) (fun j hj => ?_)
    obtain ⟨a, a', d, e⟩ := hl j (by simp [hj])
    exact ⟨a, a', by rw [alter_below h]; exact d, by rw [Ne, (alter_same 0 f b s i j).2.2]; exact e⟩

theorem mem_members {s : State} {c i : Nat} : i ∈ members s c ↔ i < s.next ∧ (s.obj i).listed = true ∧ (s.obj i).parent = some c := by
  simp [members]

theorem members_ok {s : State} (h : Ok s) (c : Nat) (f : Vec → Vec) (b : Nat → AABB → AABB) : Ok ((members s c).foldl (alter c f b) s) := by
  refine foldl_alter_ok f b _ h (fun i hi => ?_)
  obtain ⟨h1, -, h3⟩ := mem_members.1 hi
  have := h.dec i c h3
  exact ⟨h1, by omega⟩

theorem members_exact {s : State} (h : Ok s) (hx : Exact s) {c : Nat} (f : Vec → Vec) (b : Nat → AABB → AABB)
    (hs : (c = 0 ∧ ∀ i, (s.obj i).parent = some 0 → (s.obj i).listed = true → (s.obj i).box ≠ none) ∨ below s.obj 0 c = false) :
    Exact ((members s c).foldl (alter c f b) s) := by
  rcases hs with ⟨rfl, hs⟩ | hs
  · refine foldl_alter_leaf f b _ h hx (fun i hi => ?_)
    obtain ⟨h1, h2, h3⟩ := mem_members.1 hi
    have hlt := h.dec i 0 h3
    exact ⟨h1, by omega, by rw [below_some h.dec h3 (by omega), h2, below_self]; rfl, hs i h3 h2⟩
  · have hc0 : c ≠ 0 := by rintro rfl; rw [below_self] at hs; cases hs
    refine foldl_alter_outside hc0 f b _ h hx (fun i hi => ?_)
    obtain ⟨h1, h2, h3⟩ := mem_members.1 hi
    have hlt := h.dec i c h3
    exact ⟨h1, by omega, by rw [below_some h.dec h3 (by omega), hs, Bool.and_false]⟩

theorem turn_ok {s : State} (h : Ok s) (c : Nat) (f : Vec → Vec) (b : Nat → AABB → AABB) : Ok (turn s c f b) := by
  unfold turn; split
  · exact members_ok h c f b
  · exact h

theorem turn_exact {s : State} (h : Ok s) (hx : Exact s) {c : Nat} (f : Vec → Vec) (b : Nat → AABB → AABB)
    (hs : c = 0 ∨ below s.obj 0 c = false) : Exact (turn s c f b) := by
  unfold turn; split
  · rename_i ha
    refine members_exact h hx f b (hs.imp (fun hc => ⟨hc, fun i hp hl hb => ?_⟩) id)
    have hlt : i < s.next := by
      by_contra hc'
      rw [h.fresh i (by omega)] at hl; cases hl
    have := List.all_eq_true.1 ha i (mem_members.2 ⟨hlt, hl, by rw [hc]; exact hp⟩)
    rw [hb] at this; cases this
  · exact hx

theorem step_ok {s : State} (h : Ok s) (e : Event) : Ok (step s e) := by
  cases e with
  | leaf c pos box =>
    simp only [step]; split
    · rename_i hc; exact appendLeaf_ok h hc.1 hc.2 pos box
    · exact h
  | group pos => exact newGroup_ok h pos
  | copy c g =>
    simp only [step]; split
    · rename_i hc; exact appendGroup_ok h hc.1 hc.2.1 hc.2.2.1 hc.2.2.2.1
    · exact h
  | delete i =>
    simp only [step]; split
    · rename_i hc; exact delete_ok h hc.2
    · exact h
  | move g pos => exact move_ok h g pos
  | translate c v =>
    simp only [step]; split
    · exact members_ok h c _ _
    · exact h
  | turn c f b =>
    simp only [step]; split
    · exact turn_ok h c f b
    · exact h

theorem foldl_ok : ∀ (es : List Event) {s : State}, Ok s → Ok (es.foldl step s) := by
  intro es
  induction es with
  | nil => intro s h; exact h
  | cons e es ih => intro s h; exact ih (step_ok h e)

theorem run_ok (es : List Event) : Ok (run es) := foldl_ok es empty_ok

end Draftsman.NestMap
