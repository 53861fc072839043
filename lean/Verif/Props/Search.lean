import Verif.Model.Search
import Verif.Props.SpatialHash
/-
C34, C35: filtered searches.
-/
namespace Draftsman

/-- The criteria hold of an entity: its name, type and direction are among those asked for, where asked. -/
def SArgs.Meets (a : SArgs) (t : SAttr) : Prop :=
  (∀ ns, a.names = some ns → t.name ∈ ns) ∧ (∀ ts, a.types = some ts → t.type ∈ ts) ∧
  (∀ ds, a.dirs = some ds → ∃ d, t.dir = some d ∧ d ∈ ds)

/-- The entity is in the region asked for: its position is in the circle, its box contains the point, or its box overlaps the area. -/
def SArgs.Inside (a : SArgs) (x : SItem) : Prop :=
  match a.position with
  | some p => match a.radius with
    | some r => InDisc x.pos p r
    | none => ∃ b ∈ x.box, b.Has p
  | none => match a.area with
    | some q => ∃ b ∈ x.box, ∃ p, b.HasStrictly p ∧ q.HasStrictly p
    | none => True

/-- The area, if any, is proper. -/
def SArgs.Proper (a : SArgs) : Prop := ∀ q, a.area = some q → q.Proper

/-- The entity is far enough from the right and bottom edges for the index to be exact. -/
def SArgs.Clear (a : SArgs) (x : SItem) : Prop :=
  match a.position with
  | some p => match a.radius with
    | some r => 0 ≤ r ∧ ∃ b ∈ x.box, b.Has x.pos ∧ x.pos.x ≤ b.botRight.x - 1/1000 ∧ x.pos.y ≤ b.botRight.y - 1/1000
    | none => ∃ b ∈ x.box, p.x ≤ b.botRight.x - 1/1000 ∧ p.y ≤ b.botRight.y - 1/1000
  | none => match a.area with
    | some q => q.position = 0 ∧ ∃ b ∈ x.box, max b.topLeft.x q.topLeft.x ≤ min b.botRight.x q.botRight.x - 1/1000 ∧
        max b.topLeft.y q.topLeft.y ≤ min b.botRight.y q.botRight.y - 1/1000
    | none => True

theorem SArgs.test_iff (a : SArgs) (t : SAttr) : a.test t = true ↔ a.Meets t := by
  unfold SArgs.test SArgs.Meets
  cases h1 : a.names <;> cases h2 : a.types <;> cases h3 : a.dirs <;> cases h4 : t.dir <;> simp [and_assoc]

theorem sliceTo_length {α : Type} (l : List α) (n : ℕ) (h : l.length ≤ n) : sliceTo l n = l := by
  unfold sliceTo
  rw [if_pos (by omega)]
  exact List.take_of_length_le (by omega)

theorem findEntities_unlimited (a : SArgs) (cs : ℕ) (m : SMap) (flat : List SItem) (attr : SItem → SAttr) (hl : a.limit = none) :
    findEntities a cs m flat attr = (a.region cs m flat).filter fun x => a.test (attr x) != a.invert := by
  unfold findEntities
  rw [hl]
  cases a.invert
  · simp only [Bool.false_eq_true, if_false, Bool.bne_false]
    exact sliceTo_length _ _ (List.length_filter_le _ _)
  · simp only [if_true, Bool.bne_true]
    exact sliceTo_length _ _ (List.length_filter_le _ _)

/-- C34: the answer has only members that lie in the region and meet the criteria (do not meet them, when inverted), each once. -/
theorem C34_only (a : SArgs) (cs : ℕ) (ops : List SOp) (h : ToldApart ops) (hw : WellPlaced ops) (hq : a.Proper)
    (flat : List SItem) (hflat : ∀ x, x ∈ flat ↔ x ∈ SOp.members ops) (hnd : flat.Nodup) (hnd' : (SOp.members ops).Nodup) (attr : SItem → SAttr)
    (hl : a.limit = none) :
    (∀ x ∈ findEntities a cs (SOp.run cs ops) flat attr,
      x ∈ flat ∧ a.Inside x ∧ (a.invert = false → a.Meets (attr x)) ∧ (a.invert = true → ¬ a.Meets (attr x))) ∧
    (findEntities a cs (SOp.run cs ops) flat attr).Nodup := by
  rw [findEntities_unlimited a cs _ flat attr hl]
  have hreg : (∀ x ∈ a.region cs (SOp.run cs ops) flat, x ∈ flat ∧ a.Inside x) ∧ (a.region cs (SOp.run cs ops) flat).Nodup := by
    unfold SArgs.region SArgs.Inside
    cases hp : a.position with
    | some p =>
      cases hr : a.radius with
      | some r =>
        obtain ⟨h1, h2⟩ := C15_only cs ops h r p
        exact ⟨fun x hx => ⟨(hflat x).2 (h1 x hx).1, (h1 x hx).2⟩, h2⟩
      | none =>
        obtain ⟨h1, h2⟩ := C14_only cs ops h p
        exact ⟨fun x hx => ⟨(hflat x).2 (h1.subset hx), h2 x hx⟩, h1.nodup hnd'⟩
    | none =>
      cases har : a.area with
      | some q =>
        obtain ⟨h1, h2⟩ := C13_only cs ops h hw q (hq q har)
        exact ⟨fun x hx => ⟨(hflat x).2 (h1 x hx).1, (h1 x hx).2⟩, h2⟩
      | none => exact ⟨fun x hx => ⟨hx, trivial⟩, hnd⟩
  refine ⟨fun x hx => ?_, hreg.2.filter _⟩
  obtain ⟨hx, ht⟩ := List.mem_filter.1 hx
  refine ⟨(hreg.1 x hx).1, (hreg.1 x hx).2, fun hi => ?_, fun hi => ?_⟩
  · rw [hi] at ht; exact (a.test_iff _).1 (by simpa using ht)
  · rw [hi] at ht
    rw [← a.test_iff]
    simpa using ht

/-- C34: every member that lies in the region, clear of the edges, and meets the criteria (or not, when inverted) is in the answer.
Missing for the full property: the edges, and the members that C13 to C15 miss. -/
theorem C34_all_partial (a : SArgs) (cs : ℕ) (hcs : 0 < cs) (ops : List SOp) (h : ToldApart ops) (hw : WellPlaced ops)
    (flat : List SItem) (hflat : ∀ x, x ∈ flat ↔ x ∈ SOp.members ops) (attr : SItem → SAttr) (hl : a.limit = none)
    (x : SItem) (hx : x ∈ flat) (hin : a.Inside x) (hc : a.Clear x) (hm : a.Meets (attr x) ↔ a.invert = false) :
    x ∈ findEntities a cs (SOp.run cs ops) flat attr := by
  rw [findEntities_unlimited a cs _ flat attr hl]
  refine List.mem_filter.2 ⟨?_, ?_⟩
  · have hx' := (hflat x).1 hx
    unfold SArgs.region
    unfold SArgs.Inside at hin
    unfold SArgs.Clear at hc
    cases hp : a.position with
    | some p =>
      rw [hp] at hin hc
      cases hr : a.radius with
      | some r =>
        rw [hr] at hin hc
        obtain ⟨h0, b, hb, h1, h2, h3⟩ := hc
        exact C15_all_partial cs hcs ops h hw r h0 p x hx' b hb h1 h2 h3 hin
      | none =>
        rw [hr] at hin hc
        obtain ⟨b, hb, h1, h2⟩ := hc
        obtain ⟨b', hb', hhas⟩ := hin
        have : b' = b := Option.mem_unique hb' hb
        subst this
        exact C14_all_partial cs hcs ops h hw p x hx' b' hb hhas h1 h2
    | none =>
      rw [hp] at hin hc
      cases har : a.area with
      | some q =>
        rw [har] at hin hc
        obtain ⟨h0, b, hb, h1, h2⟩ := hc
        exact C13_all_partial cs hcs ops h hw q h0 x hx' b hb h1 h2
      | none => exact hx
  · cases hi : a.invert with
    | false => rw [hi] at hm; simp [(a.test_iff _).2 (hm.2 rfl)]
    | true =>
      rw [hi] at hm
      have : ¬ a.test (attr x) = true := fun h => by simpa using hm.1 ((a.test_iff _).1 h)
      simpa using this

/-- C34: without a region the answer is exactly the matching part of the flattened list, in its order, whatever the index holds. -/
theorem C34_whole (a : SArgs) (cs : ℕ) (m : SMap) (flat : List SItem) (attr : SItem → SAttr) (hl : a.limit = none)
    (hp : a.position = none) (ha : a.area = none) :
    (findEntities a cs m flat attr).Sublist flat ∧
    ∀ x, ((a.Meets (attr x) ↔ a.invert = false) → (findEntities a cs m flat attr).count x = flat.count x) ∧
      (¬ (a.Meets (attr x) ↔ a.invert = false) → x ∉ findEntities a cs m flat attr) := by
  rw [findEntities_unlimited a cs _ flat attr hl]
  have : a.region cs m flat = flat := by unfold SArgs.region; rw [hp, ha]
  rw [this]
  refine ⟨List.filter_sublist, fun x => ?_⟩
  have hk : (a.test (attr x) != a.invert) = true ↔ (a.Meets (attr x) ↔ a.invert = false) := by
    rw [← a.test_iff]
    cases a.test (attr x) <;> cases a.invert <;> simp
  exact ⟨fun h => List.count_filter (p := fun x => a.test (attr x) != a.invert) (hk.2 h), fun h hm => h (hk.1 (List.mem_filter.1 hm).2)⟩

/-- C34: a search and its inversion split the region. -/
theorem C34_invert (a : SArgs) (cs : ℕ) (m : SMap) (flat : List SItem) (attr : SItem → SAttr) (hl : a.limit = none) (x : SItem) :
    (findEntities { a with invert := false } cs m flat attr).count x + (findEntities { a with invert := true } cs m flat attr).count x =
      (a.region cs m flat).count x := by
  rw [findEntities_unlimited { a with invert := false } cs _ flat attr hl, findEntities_unlimited { a with invert := true } cs _ flat attr hl]
  have e : ∀ i, ({ a with invert := i } : SArgs).region cs m flat = a.region cs m flat := fun _ => rfl
  have e' : ∀ i t, ({ a with invert := i } : SArgs).test t = a.test t := fun _ _ => rfl
  simp only [e, e']
  cases ht : a.test (attr x)
  · rw [List.count_filter (p := fun x => a.test (attr x) != true) (by simp [ht]), List.count_eq_zero.2, Nat.zero_add]
    intro hm
    have := (List.mem_filter.1 hm).2
    simp [ht] at this
  · have hz : ((a.region cs m flat).filter fun x => a.test (attr x) != true).count x = 0 := by
      rw [List.count_eq_zero]
      intro hm
      have := (List.mem_filter.1 hm).2
      simp [ht] at this
    rw [List.count_filter (p := fun x => a.test (attr x) != false) (by simp [ht]), hz, Nat.add_zero]

/-- C34: a limit that is not negative truncates the unlimited answer. -/
theorem C34_limit (a : SArgs) (cs : ℕ) (m : SMap) (flat : List SItem) (attr : SItem → SAttr) (n : ℕ) :
    findEntities { a with limit := some (n : ℤ) } cs m flat attr = (findEntities { a with limit := none } cs m flat attr).take n := by
  rw [findEntities_unlimited { a with limit := none } cs _ flat attr rfl]
  have e : ∀ l, ({ a with limit := l } : SArgs).region cs m flat = a.region cs m flat := fun _ => rfl
  have e' : ∀ l t, ({ a with limit := l } : SArgs).test t = a.test t := fun _ _ => rfl
  unfold findEntities
  simp only [e, e']
  cases a.invert
  · simp only [Bool.false_eq_true, if_false, Bool.bne_false, sliceTo, Int.natCast_nonneg, if_true, Int.toNat_natCast]
  · simp only [if_true, Bool.bne_true, sliceTo, Int.natCast_nonneg, Int.toNat_natCast]

/-- C34: the single searches give the first member of the point search, with the name if one is asked for. -/
theorem C34_single (cs : ℕ) (ops : List SOp) (h : ToldApart ops) (attr : SItem → SAttr) (name : String) (p : Vec) (x : SItem) :
    (findEntity cs (SOp.run cs ops) attr name p = some x → x ∈ SOp.members ops ∧ (∃ b ∈ x.box, b.Has p) ∧ (attr x).name = name) ∧
    (findEntityAt cs (SOp.run cs ops) p = some x → x ∈ SOp.members ops ∧ ∃ b ∈ x.box, b.Has p) := by
  obtain ⟨h1, h2⟩ := C14_only cs ops h p
  constructor
  · intro hx
    obtain ⟨hx, hn⟩ := List.mem_filter.1 (List.mem_of_mem_head? hx)
    exact ⟨h1.subset hx, h2 x hx, by simpa using hn⟩
  · intro hx
    have hx := List.mem_of_mem_head? hx
    exact ⟨h1.subset hx, h2 x hx⟩

/-- What the first of a filtered part of a list is: no earlier element is in the part. -/
theorem head_filter_first {α : Type} {L M : List α} {P Q : α → Bool} {x : α} (hM : M = L.filter Q) (hx : (M.filter P).head? = some x) :
    ∃ pre post, L = pre ++ x :: post ∧ ∀ y ∈ pre, y ∈ M → P y = false := by
  subst hM
  rw [List.filter_filter, List.head?_filter, List.find?_eq_some_iff_append] at hx
  obtain ⟨_, pre, post, hL, hpre⟩ := hx
  refine ⟨pre, post, hL, fun y hy hm => ?_⟩
  have h1 := hpre y hy
  have h2 := (List.mem_filter.1 hm).2
  simpa [h2] using h1

/-- C34, as documented for the single searches: if several entities are at the position, the one that was placed first is returned.  Missing: earlier entities whose right or
lower edge is within `1/1000` of the position (`C14_edge_refuted`). -/
theorem C34_first_partial (cs : ℕ) (hcs : 0 < cs) (ops : List SOp) (h : ToldApart ops) (hw : WellPlaced ops) (attr : SItem → SAttr) (name : String) (p : Vec) (x : SItem) :
    (findEntity cs (SOp.run cs ops) attr name p = some x → ∃ pre post, SOp.members ops = pre ++ x :: post ∧
      ∀ y ∈ pre, (attr y).name = name → ∀ b ∈ y.box, b.Has p → b.botRight.x < p.x + 1/1000 ∨ b.botRight.y < p.y + 1/1000) ∧
    (findEntityAt cs (SOp.run cs ops) p = some x → ∃ pre post, SOp.members ops = pre ++ x :: post ∧
      ∀ y ∈ pre, ∀ b ∈ y.box, b.Has p → b.botRight.x < p.x + 1/1000 ∨ b.botRight.y < p.y + 1/1000) := by
  have hM := getOnPoint_eq cs ops h p
  rw [List.filter_filter] at hM
  have near : ∀ y ∈ SOp.members ops, ∀ b ∈ y.box, b.Has p → ¬ (b.botRight.x < p.x + 1/1000 ∨ b.botRight.y < p.y + 1/1000) → y ∈ (SOp.run cs ops).getOnPoint cs p := by
    intro y hy b hb hp hn
    rw [not_or, not_lt, not_lt] at hn
    exact C14_all_partial cs hcs ops h hw p y hy b hb hp (by linarith [hn.1]) (by linarith [hn.2])
  constructor
  · intro hx
    obtain ⟨pre, post, hL, hpre⟩ := head_filter_first hM hx
    refine ⟨pre, post, hL, fun y hy hn b hb hp => ?_⟩
    by_contra hc
    have := hpre y hy (near y (by rw [hL]; simp [hy]) b hb hp hc)
    simp [hn] at this
  · intro hx
    obtain ⟨pre, post, hL, hpre⟩ := head_filter_first (P := fun _ => true) hM (by simpa [findEntityAt] using hx)
    refine ⟨pre, post, hL, fun y hy b hb hp => ?_⟩
    by_contra hc
    have := hpre y hy (near y (by rw [hL]; simp [hy]) b hb hp hc)
    cases this

/-- Two belts that overlap: the first is found; and if it is taken away and put back, the other. -/
def C34_pile : List SOp := [.add (beltAt 1 0), .add (beltAt 2 (1/4)), .remove (beltAt 1 0), .add (beltAt 1 0)]

example : ToldApart C34_pile ∧ WellPlaced C34_pile ∧ findEntityAt 8 (SOp.run 8 (C34_pile.take 2)) ⟨1/2, 1/2⟩ = some (beltAt 1 0) ∧
    findEntityAt 8 (SOp.run 8 C34_pile) ⟨1/2, 1/2⟩ = some (beltAt 2 (1/4)) ∧ SOp.members C34_pile = [] ++ beltAt 2 (1/4) :: [beltAt 1 0] := by
  refine ⟨by unfold ToldApart; decide +kernel, ?_, by decide +kernel, by decide +kernel, by decide +kernel⟩
  intro o ho x hx b hb
  simp only [C34_pile, List.mem_cons, List.not_mem_nil, or_false] at ho
  rcases ho with rfl | rfl | rfl | rfl <;> cases hx <;> cases hb <;> refine ⟨?_, rfl⟩ <;> unfold AABB.Proper <;> norm_num

/-- Two belts and a search by area, name and direction. -/
def C34_args : SArgs := ⟨none, none, some ⟨⟨0, 0⟩, ⟨9, 1⟩, 0⟩, some ["transport-belt"], none, some [0, 4], false, none⟩

def C34_attr : SItem → SAttr := fun x => ⟨if x.uid = 1 then "pipe" else "transport-belt", "belt", if x.uid = 1 then none else some 4⟩

example : C34_args.Inside (beltAt 2 8) ∧ C34_args.Clear (beltAt 2 8) ∧ C34_args.Meets (C34_attr (beltAt 2 8)) ∧
    findEntities C34_args 8 (SOp.run 8 [.add (beltAt 1 0), .add (beltAt 2 8)]) [beltAt 1 0, beltAt 2 8] C34_attr = [beltAt 2 8] := by
  refine ⟨⟨_, rfl, ⟨17/2, 1/2⟩, ?_, ?_⟩, ⟨rfl, _, rfl, ?_, ?_⟩, ⟨?_, ?_, ?_⟩, ?_⟩
  · unfold AABB.HasStrictly; decide +kernel
  · unfold AABB.HasStrictly; decide +kernel
  · decide +kernel
  · decide +kernel
  · intro ns h; cases h; decide
  · intro ns h; cases h
  · intro ns h; cases h; exact ⟨4, rfl, by decide⟩
  · decide +kernel

/-- C34 fails in groups: an entity put into a group at (100, 0) is indexed as if the group were at the origin, so a search of the group where
the entity is does not find it. -/
theorem C34_group_refuted :
    let m := SMap.insertInGroup 8 [] (beltAt 0 0) ⟨100, 0⟩
    let x := (beltAt 0 0).shift ⟨100, 0⟩
    let a : SArgs := ⟨none, none, some ⟨⟨100, 0⟩, ⟨101, 1⟩, 0⟩, none, none, none, false, none⟩
    x.box = some ⟨⟨100, 0⟩, ⟨101, 1⟩, 0⟩ ∧ a.Clear x ∧ a.Meets (C34_attr x) ∧ findEntities a 8 m [x] C34_attr = [] := by
  refine ⟨by decide +kernel, ⟨rfl, ⟨⟨100, 0⟩, ⟨101, 1⟩, 0⟩, by decide +kernel, by decide +kernel, by decide +kernel⟩, ?_, by decide +kernel⟩
  exact ⟨fun _ h => (by cases h), fun _ h => (by cases h), fun _ h => (by cases h)⟩

instance (cs : ℕ) (b : AABB) (c : Cell) : Decidable (b.Covers' cs c) := by unfold AABB.Covers'; infer_instance

/-- C34 in groups, for every group position and every content: a new entity stands in the cells its box would cover were the group at the
origin, moved to where it is, behind the members already there, and these stay as they were. -/
theorem C34_group_index (cs : ℕ) (hcs : 0 < cs) (ops : List SOp) (h : ToldApart ops) (x : SItem) (d : Vec)
    (hx : ∀ y ∈ SOp.members ops, y.uid ≠ x.uid) (c : Cell) :
    ((SMap.insertInGroup cs (SOp.run cs ops) x d).get? c).getD [] =
      ((SOp.run cs ops).get? c).getD [] ++
        (if x.box.any (fun b => decide (b.Covers' cs c)) then
          [{ x with pos := ⟨x.pos.x + d.x, x.pos.y + d.y⟩, box := x.box.map fun b =>
              { b with topLeft := ⟨b.topLeft.x + d.x, b.topLeft.y + d.y⟩, botRight := ⟨b.botRight.x + d.x, b.botRight.y + d.y⟩ } }]
         else []) := by
  obtain ⟨hk, hi⟩ := run_index cs ops h
  have hmap : ∀ m : SMap, (m.shiftItem x.uid d).get? c = (m.get? c).map fun l => l.map fun y => if y.uid = x.uid then y.shift d else y := by
    intro m
    unfold SMap.shiftItem
    induction m with
    | nil => rfl
    | cons p r ih =>
      simp only [List.map_cons, Dict.get?]
      split
      · rfl
      · exact ih
  have hcov : (x.box.any (fun b => decide (b.Covers' cs c)) = true) ↔ c ∈ cellsFromAabb cs x.box := by
    cases hb : x.box with
    | none => simp [cellsFromAabb]
    | some b => rw [mem_cellsFromAabb hcs]; simp
  have hsame : ∀ l : List SItem, (∀ y ∈ l, y ∈ SOp.members ops) → (l.map fun y => if y.uid = x.uid then y.shift d else y) = l := by
    intro l hl
    conv_rhs => rw [← List.map_id l]
    apply List.map_congr_left
    intro y hy
    simp [hx y (hl y hy)]
  have hold : ∀ l, (SOp.run cs ops).get? c = some l → ∀ y ∈ l, y ∈ SOp.members ops := by
    intro l hl y hy
    rw [hi] at hl
    have h2 := congrArg (·.getD []) hl
    simp only [view_getD, Option.getD_some] at h2
    rw [← h2] at hy
    exact (List.mem_filter.1 hy).1
  unfold SMap.insertInGroup
  rw [hmap, (SMap.add_get? cs _ x hk).2]
  by_cases hc : c ∈ cellsFromAabb cs x.box
  · rw [if_pos hc, if_pos (hcov.2 hc)]
    simp only [Option.map_some, Option.getD_some, List.map_append, List.map_cons, List.map_nil, if_true]
    congr 1
    cases hg : (SOp.run cs ops).get? c with
    | none => rfl
    | some l => exact hsame l (hold l hg)
  · rw [if_neg hc, if_neg (fun h => hc (hcov.1 h)), List.append_nil]
    cases hg : (SOp.run cs ops).get? c with
    | none => rfl
    | some l => exact hsame l (hold l hg)

example : (SMap.insertInGroup 8 (SOp.run 8 [.add (beltAt 1 3)]) (beltAt 0 0) ⟨100, 0⟩).get? (0, 0) =
    some [beltAt 1 3, beltAt 0 100] := by decide +kernel

/-- C34: a negative limit drops entities from the end instead. -/
theorem C34_negative_limit_refuted :
    findEntities ⟨none, none, none, none, none, none, false, some (-1)⟩ 8 [] [beltAt 0 0, beltAt 1 7] C34_attr = [beltAt 0 0] := by
  decide +kernel

/-! ### C35 -/

/-- The name criterion of a tile search. -/
def SArgs.Named (a : SArgs) (n : String) : Prop := ∀ ns, a.names = some ns → n ∈ ns

/-- The name test of a tile search. -/
def SArgs.tileTest (a : SArgs) (n : String) : Bool := match a.names with | none => true | some ns => decide (n ∈ ns)

theorem SArgs.tileTest_iff (a : SArgs) (n : String) : a.tileTest n = true ↔ a.Named n := by
  unfold SArgs.tileTest SArgs.Named
  cases a.names <;> simp

theorem findTiles_eq (a : SArgs) (cs : ℕ) (m : SMap) (tiles : List SItem) (name : SItem → String) (hl : a.limit = none) :
    findTiles a cs m tiles name = (a.tileRegion cs m tiles).filter fun x => a.tileTest (name x) != a.invert := by
  unfold findTiles
  rw [hl]
  have s := fun (l : List SItem) (p : SItem → Bool) => sliceTo_length (l.filter p) l.length (List.length_filter_le _ _)
  cases a.invert
  · simp only [Bool.false_eq_true, if_false, Bool.bne_false]
    exact s _ _
  · simp only [if_true, Bool.bne_true]
    exact s _ _

theorem findTiles_unlimited (a : SArgs) (cs : ℕ) (m : SMap) (tiles : List SItem) (name : SItem → String) (hl : a.limit = none) (x : SItem) :
    x ∈ findTiles a cs m tiles name ↔ x ∈ a.tileRegion cs m tiles ∧ (a.Named (name x) ↔ a.invert = false) := by
  rw [findTiles_eq a cs m tiles name hl, List.mem_filter, ← a.tileTest_iff]
  cases a.tileTest (name x) <;> cases a.invert <;> simp

/-- The region of a tile search as documented, without a lone position. -/
def SArgs.TileInside (a : SArgs) (x : SItem) : Prop :=
  match a.position, a.radius with
  | some p, some r => InDisc x.pos p r
  | _, _ => match a.area with
    | some q => ∃ b ∈ x.box, ∃ p, b.HasStrictly p ∧ q.HasStrictly p
    | none => True

/-- C35: a tile search by circle or area returns only tiles in the region with a right name (a wrong one, when inverted). -/
theorem C35_only (a : SArgs) (cs : ℕ) (ops : List SOp) (h : ToldApart ops) (hw : WellPlaced ops) (hq : a.Proper)
    (tiles : List SItem) (ht : ∀ x, x ∈ tiles ↔ x ∈ SOp.members ops) (name : SItem → String) (hl : a.limit = none) :
    ∀ x ∈ findTiles a cs (SOp.run cs ops) tiles name, x ∈ tiles ∧ a.TileInside x ∧ (a.Named (name x) ↔ a.invert = false) := by
  intro x hx
  obtain ⟨hx, hm⟩ := (findTiles_unlimited a cs _ tiles name hl x).1 hx
  have : x ∈ tiles ∧ a.TileInside x := by
    unfold SArgs.tileRegion at hx
    unfold SArgs.TileInside
    cases hp : a.position with
    | some p =>
      cases hr : a.radius with
      | some r =>
        rw [hp, hr] at hx
        obtain ⟨h1, -⟩ := C15_only cs ops h r p
        exact ⟨(ht x).2 (h1 x hx).1, (h1 x hx).2⟩
      | none =>
        rw [hp, hr] at hx
        cases har : a.area with
        | some q =>
          rw [har] at hx
          obtain ⟨h1, -⟩ := C13_only cs ops h hw q (hq q har)
          exact ⟨(ht x).2 (h1 x hx).1, (h1 x hx).2⟩
        | none => rw [har] at hx; exact ⟨hx, trivial⟩
    | none =>
      rw [hp] at hx
      cases har : a.area with
      | some q =>
        rw [har] at hx
        obtain ⟨h1, -⟩ := C13_only cs ops h hw q (hq q har)
        exact ⟨(ht x).2 (h1 x hx).1, (h1 x hx).2⟩
      | none => rw [har] at hx; exact ⟨hx, trivial⟩
  exact ⟨this.1, this.2, hm⟩

/-- A tile: a unit square at integer coordinates, positioned at its top left corner (`/repo/draftsman/classes/tile.py:49`). -/
def SItem.IsTile (x : SItem) : Prop := ∃ i j : ℤ, x.pos = ⟨i, j⟩ ∧ x.box = some ⟨⟨i, j⟩, ⟨i + 1, j + 1⟩, 0⟩

/-- C35: for tiles on the grid a search by circle is exact. -/
theorem C35_circle (a : SArgs) (cs : ℕ) (hcs : 0 < cs) (ops : List SOp) (h : ToldApart ops) (hw : WellPlaced ops) (hq : a.Proper)
    (tiles : List SItem) (ht : ∀ x, x ∈ tiles ↔ x ∈ SOp.members ops) (htile : ∀ x ∈ tiles, x.IsTile) (name : SItem → String)
    (hl : a.limit = none) (p : Vec) (r : ℚ) (hr0 : 0 ≤ r) (hp : a.position = some p) (hr : a.radius = some r) (x : SItem) :
    x ∈ findTiles a cs (SOp.run cs ops) tiles name ↔ x ∈ tiles ∧ InDisc x.pos p r ∧ (a.Named (name x) ↔ a.invert = false) := by
  constructor
  · intro hx
    obtain ⟨h1, h2, h3⟩ := C35_only a cs ops h hw hq tiles ht name hl x hx
    unfold SArgs.TileInside at h2
    rw [hp, hr] at h2
    exact ⟨h1, h2, h3⟩
  · rintro ⟨h1, h2, h3⟩
    refine (findTiles_unlimited a cs _ tiles name hl x).2 ⟨?_, h3⟩
    unfold SArgs.tileRegion
    rw [hp, hr]
    obtain ⟨i, j, e1, e2⟩ := htile x h1
    refine C15_all_partial cs hcs ops h hw r hr0 p x ((ht x).1 h1) _ e2 ?_ ?_ ?_ h2
    · unfold AABB.Has
      rw [e1]
      simp
    · rw [e1]; simp only; linarith
    · rw [e1]; simp only; linarith

/-- C35: for tiles on the grid a search by an area with integer corners is exact: the tiles whose square overlaps it. -/
theorem C35_area (a : SArgs) (cs : ℕ) (hcs : 0 < cs) (ops : List SOp) (h : ToldApart ops) (hw : WellPlaced ops)
    (tiles : List SItem) (ht : ∀ x, x ∈ tiles ↔ x ∈ SOp.members ops) (hops : ∀ o ∈ ops, ∀ x ∈ o.item, x.IsTile) (name : SItem → String)
    (hl : a.limit = none) (hp : a.position = none ∨ a.radius = none) (q : AABB) (hq : a.area = some q) (hqp : q.Proper) (hq0 : q.position = 0)
    (hqg : q.OnGrid 1) (x : SItem) :
    x ∈ findTiles a cs (SOp.run cs ops) tiles name ↔
      x ∈ tiles ∧ (∃ b ∈ x.box, ∃ p, b.HasStrictly p ∧ q.HasStrictly p) ∧ (a.Named (name x) ↔ a.invert = false) := by
  rw [findTiles_unlimited a cs _ tiles name hl x]
  have hreg : a.tileRegion cs (SOp.run cs ops) tiles = (SOp.run cs ops).getInAabb cs q := by
    unfold SArgs.tileRegion
    rcases hp with hp | hp
    · rw [hp, hq]
    · rw [hp, hq]; cases a.position <;> rfl
  rw [hreg, C13_exact_on_grid cs hcs ops h hw 1 (by omega) (by omega) (fun o ho y hy b hb => ?_) q hqp hq0 hqg, ht, and_assoc]
  obtain ⟨i, j, -, e⟩ := hops o ho y hy
  have : b = ⟨⟨i, j⟩, ⟨i + 1, j + 1⟩, 0⟩ := by
    have : some b = some (⟨⟨i, j⟩, ⟨i + 1, j + 1⟩, 0⟩ : AABB) := hb.symm.trans e
    exact Option.some.inj this
  exact ⟨i, j, i + 1, j + 1, by rw [this]; simp, by rw [this]; simp⟩

/-- C35: without a region all tiles with a right name are returned, in order. -/
theorem C35_whole (a : SArgs) (cs : ℕ) (m : SMap) (tiles : List SItem) (name : SItem → String) (hl : a.limit = none)
    (hp : a.position = none) (ha : a.area = none) :
    (findTiles a cs m tiles name).Sublist tiles ∧ ∀ x, x ∈ findTiles a cs m tiles name ↔ x ∈ tiles ∧ (a.Named (name x) ↔ a.invert = false) := by
  have hreg : a.tileRegion cs m tiles = tiles := by unfold SArgs.tileRegion; rw [hp, ha]
  refine ⟨?_, fun x => by rw [findTiles_unlimited a cs m tiles name hl x, hreg]⟩
  rw [findTiles_eq a cs m tiles name hl, hreg]
  exact List.filter_sublist

/-- C35: a limit that is not negative truncates the unlimited answer. -/
theorem C35_limit (a : SArgs) (cs : ℕ) (m : SMap) (tiles : List SItem) (name : SItem → String) (n : ℕ) :
    findTiles { a with limit := some (n : ℤ) } cs m tiles name = (findTiles { a with limit := none } cs m tiles name).take n := by
  have e : ∀ l, ({ a with limit := l } : SArgs).tileRegion cs m tiles = a.tileRegion cs m tiles := fun _ => rfl
  unfold findTiles
  simp only [e]
  have s : ∀ l : List SItem, sliceTo l (n : ℤ) = l.take n := by intro l; simp [sliceTo]
  cases a.invert <;> simp only [Bool.false_eq_true, if_false, if_true, s] <;> rw [sliceTo_length _ _ (List.length_filter_le _ _)]

/-- A tile at integer coordinates. -/
def foundTileAt (uid : Nat) (i j : ℤ) : SItem := ⟨uid, 0, ⟨i, j⟩, some ⟨⟨i, j⟩, ⟨i + 1, j + 1⟩, 0⟩⟩

/-- C35: the tiles at a tile coordinate are found. -/
theorem C35_find_tile (cs : ℕ) (hcs : 0 < cs) (ops : List SOp) (h : ToldApart ops) (hw : WellPlaced ops)
    (htile : ∀ x ∈ SOp.members ops, x.IsTile) (i j : ℤ) (x : SItem) :
    x ∈ findTile cs (SOp.run cs ops) ⟨i, j⟩ ↔ x ∈ SOp.members ops ∧ x.pos = ⟨i, j⟩ := by
  unfold findTile
  constructor
  · intro hx
    obtain ⟨h1, h2⟩ := C14_only cs ops h (⟨1/2, 1/2⟩ + ⟨i, j⟩)
    obtain ⟨b, hb, hhas⟩ := h2 x hx
    refine ⟨h1.subset hx, ?_⟩
    obtain ⟨k, l, e1, e2⟩ := htile x (h1.subset hx)
    have hbe : b = ⟨⟨k, l⟩, ⟨k + 1, l + 1⟩, 0⟩ := Option.some.inj (hb.symm.trans e2)
    subst hbe
    unfold AABB.Has at hhas
    simp only [Vec.zero_x, Vec.zero_y, add_zero, Vec.add_x, Vec.add_y] at hhas
    obtain ⟨a1, a2, a3, a4⟩ := hhas
    have b1 : (k : ℚ) < i + 1 := by linarith
    have b2 : (i : ℚ) < k + 1 := by linarith
    have b3 : (l : ℚ) < j + 1 := by linarith
    have b4 : (j : ℚ) < l + 1 := by linarith
    have c1 : k < i + 1 := by exact_mod_cast b1
    have c2 : i < k + 1 := by exact_mod_cast b2
    have c3 : l < j + 1 := by exact_mod_cast b3
    have c4 : j < l + 1 := by exact_mod_cast b4
    rw [e1, show k = i by omega, show l = j by omega]
  · rintro ⟨hx, hp⟩
    obtain ⟨k, l, e1, e2⟩ := htile x hx
    have e3 := e1.symm.trans hp
    simp only [Vec.mk.injEq] at e3
    refine C14_all_partial cs hcs ops h hw _ x hx _ e2 ?_ ?_ ?_
    · unfold AABB.Has
      simp only [Vec.zero_x, Vec.zero_y, add_zero, Vec.add_x, Vec.add_y]
      exact ⟨by linarith [e3.1], by linarith [e3.1], by linarith [e3.2], by linarith [e3.2]⟩
    · simp only [Vec.add_x]; linarith [e3.1]
    · simp only [Vec.add_y]; linarith [e3.2]

example : (foundTileAt 0 3 4).IsTile ∧ findTile 8 (SOp.run 8 [.add (foundTileAt 0 3 4), .add (foundTileAt 1 8 4)]) ⟨8, 4⟩ = [foundTileAt 1 8 4] :=
  ⟨⟨3, 4, by decide +kernel, by decide +kernel⟩, by decide +kernel⟩

/-- C35 fails for a position without a radius: it is ignored and all tiles are returned. -/
theorem C35_position_refuted :
    findTiles ⟨some ⟨100, 100⟩, none, none, none, none, none, false, none⟩ 8 (SOp.run 8 [.add (foundTileAt 0 3 4)]) [foundTileAt 0 3 4] (fun _ => "landfill")
      = [foundTileAt 0 3 4] ∧ ∀ b ∈ (foundTileAt 0 3 4).box, ¬ b.Has ⟨100, 100⟩ := by
  refine ⟨by decide +kernel, fun b hb => ?_⟩
  cases hb
  unfold AABB.Has
  decide +kernel

end Draftsman
