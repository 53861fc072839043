import Verif.Model.Overlap
import Verif.Props.SpatialHash
/-
C69: warnings about overlapping objects.
-/
namespace Draftsman.Overlap
open Draftsman

/-! ## Specification -/

/-- Specification: the two objects exist on a common collision layer. -/
def ShareLayer {S : Type} (a b : Attr S) : Prop := ∃ l, (∃ la, a.mask = some la ∧ l ∈ la) ∧ ∃ lb, b.mask = some lb ∧ l ∈ lb

/-- Specification: both are rails, and not the same rail twice. -/
def DifferentRails {S : Type} (a b : Attr S) (pa pb : Vec) : Prop :=
  (a.cls = .straightRail ∨ a.cls = .curvedRail) ∧ (b.cls = .straightRail ∨ b.cls = .curvedRail) ∧
  ¬ (a.name = b.name ∧ a.dir = b.dir ∧ pa = pb)

/-- Specification: a gate and a straight rail whose directions do not differ by quarter turns. -/
def Skew {S : Type} (a b : Attr S) : Prop :=
  ((a.cls = .gate ∧ b.cls = .straightRail) ∨ (a.cls = .straightRail ∧ b.cls = .gate)) ∧ a.dir.val % 4 ≠ b.dir.val % 4

/-- Specification: some shape of one meets some shape of the other. -/
def Meet {S : Type} (ov : S → S → Bool) (a b : Attr S) : Prop := ∃ s ∈ a.shapes, ∃ t ∈ b.shapes, ov s t = true

/-- Specification of a collision as `validate_insert` understands it. -/
def Collide {S : Type} (ov : S → S → Bool) (a b : Attr S) (pa pb : Vec) : Prop :=
  ShareLayer a b ∧ ¬ DifferentRails a b pa pb ∧ ¬ Skew a b ∧ Meet ov a b

/-! ## One pair -/

theorem parallel_iff (a b : Direction) : parallel a b = true ↔ a.val % 4 = b.val % 4 := by
  unfold parallel
  rw [decide_eq_true_eq]
  omega

theorem judge_ok {S : Type} (ov : S → S → Bool) (a b : Attr S) (pa pb : Vec) (ha : a.mask ≠ none) (hb : b.mask ≠ none) :
    ∃ w, judge ov a b pa pb = .ok w ∧ (w = true ↔ Collide ov a b pa pb) := by
  obtain ⟨la, hla⟩ := Option.ne_none_iff_exists'.1 ha
  obtain ⟨lb, hlb⟩ := Option.ne_none_iff_exists'.1 hb
  unfold judge
  rw [hla, hlb]
  simp only
  have hshare : (lb.any fun l => decide (l ∈ la)) = true ↔ ShareLayer a b := by
    simp only [List.any_eq_true, decide_eq_true_eq]
    constructor
    · rintro ⟨l, h1, h2⟩; exact ⟨l, ⟨la, hla, h2⟩, lb, hlb, h1⟩
    · rintro ⟨l, ⟨la', h1, h2⟩, lb', h3, h4⟩
      rw [hla] at h1; rw [hlb] at h3
      cases h1; cases h3
      exact ⟨l, h4, h2⟩
  have hrail : ((a.cls.isRail && b.cls.isRail) && !identical a b pa pb) = true ↔ DifferentRails a b pa pb := by
    simp only [DifferentRails, Cls.isRail, identical, Bool.and_eq_true, Bool.or_eq_true, decide_eq_true_eq, Bool.not_eq_true',
      Bool.and_eq_false_iff, decide_eq_false_iff_not, and_assoc]
    tauto
  have hskew : ((decide (a.cls = .straightRail ∧ b.cls = .gate) || decide (a.cls = .gate ∧ b.cls = .straightRail)) && !parallel a.dir b.dir) = true
      ↔ Skew a b := by
    have hpar := parallel_iff a.dir b.dir
    simp only [Skew, Bool.and_eq_true, Bool.or_eq_true, decide_eq_true_eq, Bool.not_eq_true']
    rw [← Bool.not_eq_true, hpar]
    tauto
  by_cases h1 : (lb.any fun l => decide (l ∈ la)) = true
  · rw [if_neg (by simpa using h1)]
    by_cases h2 : ((a.cls.isRail && b.cls.isRail) && !identical a b pa pb) = true
    · rw [if_pos h2]
      exact ⟨false, rfl, by simp [Collide, hrail.1 h2]⟩
    · rw [if_neg h2]
      by_cases h3 : ((decide (a.cls = .straightRail ∧ b.cls = .gate) || decide (a.cls = .gate ∧ b.cls = .straightRail)) && !parallel a.dir b.dir) = true
      · rw [if_pos h3]
        exact ⟨false, rfl, by simp [Collide, hskew.1 h3]⟩
      · rw [if_neg h3]
        refine ⟨_, rfl, ?_⟩
        rw [C04_collision_sets]
        constructor
        · intro h; exact ⟨hshare.1 h1, fun hh => h2 (hrail.2 hh), fun hh => h3 (hskew.2 hh), h⟩
        · exact fun h => h.2.2.2
  · rw [if_pos (by simpa using h1)]
    exact ⟨false, rfl, by simp only [Collide]; constructor
                          · intro h; cases h
                          · intro h; exact absurd (hshare.2 h.1) h1⟩

theorem warnLoop_spec {S : Type} (ov : S → S → Bool) (attr : SItem → Attr S) (mergable : SItem → SItem → Bool) (x : SItem)
    (l : List SItem) (hx : (attr x).mask ≠ none) (hl : ∀ y ∈ l, (attr y).mask ≠ none) :
    (warnLoop ov attr false mergable x l).2 = none ∧ (warnLoop ov attr false mergable x l).1.Sublist l ∧
    ∀ y, y ∈ (warnLoop ov attr false mergable x l).1 ↔ y ∈ l ∧ Collide ov (attr x) (attr y) x.pos y.pos := by
  induction l with
  | nil => simp [warnLoop]
  | cons z r ih =>
    obtain ⟨h1, h2, h3⟩ := ih fun y hy => hl y (List.mem_cons_of_mem _ hy)
    obtain ⟨w, hw, hc⟩ := judge_ok ov (attr x) (attr z) x.pos z.pos hx (hl z (List.mem_cons_self ..))
    unfold warnLoop
    simp only [Bool.false_and, Bool.false_eq_true, if_false, hw]
    refine ⟨h1, ?_, ?_⟩
    · split
      · exact h2.cons_cons z
      · exact h2.cons z
    · intro y
      by_cases hwt : w = true
      · rw [if_pos hwt, List.mem_cons, List.mem_cons, h3]
        constructor
        · rintro (rfl | h)
          · exact ⟨.inl rfl, hc.1 hwt⟩
          · exact ⟨.inr h.1, h.2⟩
        · rintro ⟨rfl | h, h'⟩
          · exact .inl rfl
          · exact .inr ⟨h, h'⟩
      · rw [if_neg hwt, h3, List.mem_cons]
        constructor
        · exact fun h => ⟨.inr h.1, h.2⟩
        · rintro ⟨rfl | h, h'⟩
          · exact absurd (hc.2 h') hwt
          · exact ⟨h, h'⟩

/-- Specification: shapes that meet lie in boxes that overlap. -/
def Boxed {S : Type} (ov : S → S → Bool) (attr : SItem → Attr S) (x y : SItem) : Prop :=
  Meet ov (attr x) (attr y) → ∃ b ∈ y.box, ∃ q ∈ x.box, ∃ p, b.HasStrictly p ∧ q.HasStrictly p

/-- C69: after any history of insertions into and removals from the map, with all coordinates multiples of `1/n` for some
`n ≤ 1000` and all collision masks known, inserting an object without merging issues one warning for each member it collides with
and no other: the two share a layer, some of their shapes meet, they are not two different rails, and they are not a gate and a
straight rail at an angle other than quarter turns. -/
theorem C69_warn {S : Type} (ov : S → S → Bool) (attr : SItem → Attr S) (mergable : SItem → SItem → Bool) (cs : ℕ) (hcs : 0 < cs)
    (ops : List SOp) (h : ToldApart ops) (hw : WellPlaced ops) (n : ℕ) (hn : 0 < n) (hn' : n ≤ 1000)
    (hg : ∀ o ∈ ops, ∀ y ∈ o.item, ∀ b ∈ y.box, b.OnGrid n) (x : SItem) (q : AABB) (hb : x.box = some q) (hq : q.Proper)
    (hp : q.position = 0) (hqg : q.OnGrid n) (hx : (attr x).mask ≠ none) (hm : ∀ y ∈ SOp.members ops, (attr y).mask ≠ none)
    (hbox : ∀ y ∈ SOp.members ops, Boxed ov attr x y) :
    ∃ ws, validateInsert ov attr false mergable cs (SOp.run cs ops) (.leaf x) = (ws, none) ∧ ws.Nodup ∧
      ∀ u y, (u, y) ∈ ws ↔ u = x ∧ y ∈ SOp.members ops ∧ Collide ov (attr x) (attr y) x.pos y.pos := by
  have hex := C13_exact_on_grid cs hcs ops h hw n hn hn' hg q hq hp hqg
  obtain ⟨h1, h2, h3⟩ := warnLoop_spec ov attr mergable x ((SOp.run cs ops).getInAabb cs q) hx (fun y hy => hm y ((hex y).1 hy).1)
  have hnd : ((SOp.run cs ops).getInAabb cs q).Nodup := by
    have := (SMap.scan_index (run_index cs ops h) (SMap.overlapsItem q) (cellsFromAabb cs (some q))).2.1
    refine List.Pairwise.imp ?_ this
    rintro a b hab rfl
    exact hab (SItem.eqv_refl _)
  refine ⟨(warnLoop ov attr false mergable x ((SOp.run cs ops).getInAabb cs q)).1.map fun y => (x, y), ?_, ?_, ?_⟩
  · simp only [validateInsert, warnItem, hb]
    rw [h1]
  · exact (h2.nodup hnd).map (fun a b hab => congrArg Prod.snd hab)
  · intro u y
    simp only [List.mem_map, Prod.mk.injEq]
    constructor
    · rintro ⟨z, hz, rfl, rfl⟩
      obtain ⟨h4, h5⟩ := (h3 z).1 hz
      exact ⟨rfl, ((hex z).1 h4).1, h5⟩
    · rintro ⟨rfl, hy, hc⟩
      obtain ⟨b, hb', q', hq', p, hp1, hp2⟩ := hbox y hy hc.2.2.2
      rw [hb] at hq'; cases hq'
      exact ⟨y, (h3 y).2 ⟨(hex y).2 ⟨hy, b, hb', p, hp1, hp2⟩, hc⟩, rfl, rfl⟩

/-! ## Examples with boxes -/

/-- A box of an entity that covers the tiles from `(x, y)` to `(x + w, y + h)`. -/
def thing (uid key : ℕ) (x y w h : ℚ) : SItem := ⟨uid, key, ⟨x + w / 2, y + h / 2⟩, some ⟨⟨x, y⟩, ⟨x + w, y + h⟩, 0⟩⟩

/-- Attributes by `key`: 0 a machine, 1 a straight rail facing north, 2 a gate facing east, 3 an object on another layer, 4 a
straight rail facing south, 5 an unknown name, 6 a gate facing north east. -/
def attrs (x : SItem) : Attr AABB :=
  match x.key with
  | 1 => ⟨"straight-rail", .straightRail, 0, some ["object", "rail"], x.box.toList⟩
  | 2 => ⟨"gate", .gate, 4, some ["object"], x.box.toList⟩
  | 3 => ⟨"lamp", .other, 0, some ["floor"], x.box.toList⟩
  | 4 => ⟨"straight-rail", .straightRail, 8, some ["object", "rail"], x.box.toList⟩
  | 5 => ⟨"unknown", .other, 0, none, x.box.toList⟩
  | 6 => ⟨"gate", .gate, 2, some ["object"], x.box.toList⟩
  | _ => ⟨"machine", .other, 0, some ["object"], x.box.toList⟩

/-- Nothing merges, or things of the same kind do. -/
def sameKey (a b : SItem) : Bool := a.key = b.key

theorem boxed_attrs (x y : SItem) (hx : ∀ b ∈ x.box, b.Proper) (hy : ∀ b ∈ y.box, b.Proper) : Boxed aabbOverlapsAabb attrs x y := by
  have hs : ∀ z : SItem, (attrs z).shapes = z.box.toList := by intro z; unfold attrs; split <;> rfl
  rintro ⟨s, h1, t, h2, hov⟩
  rw [hs, Option.mem_toList] at h1 h2
  obtain ⟨p, hp1, hp2⟩ := (C04_overlap_iff s t (hx s h1) (hy t h2)).1 hov
  exact ⟨t, h2, s, h1, p, hp2, hp1⟩

/-- A history for `C69_warn`: of a machine, a rail, a lamp and a distant machine, the new machine collides with the first two. -/
example :
    let ops : List SOp := [.add (thing 0 0 0 0 2 2), .add (thing 1 1 2 0 2 2), .add (thing 2 3 1 1 1 1), .add (thing 3 0 20 0 2 2)]
    let x := thing 9 0 1 0 3 3
    ToldApart ops ∧ WellPlaced ops ∧ (∀ y ∈ SOp.members ops, (attrs y).mask ≠ none) ∧
    (validateInsert aabbOverlapsAabb attrs false sameKey 8 (SOp.run 8 ops) (.leaf x)).1.map (fun p => (p.1.uid, p.2.uid)) =
      [(9, 0), (9, 1)] := by
  unfold ToldApart WellPlaced AABB.Proper; decide +kernel

/-! ## Groups -/

/-- C69: inserting a group issues the warnings of its nested entities one after another, each against what the map held before,
when none of them fails. -/
theorem C69_group {S : Type} (ov : S → S → Bool) (attr : SItem → Attr S) (merge : Bool) (mergable : SItem → SItem → Bool) (cs : ℕ)
    (m : SMap) (t : STree) (h : ∀ x ∈ t.leaves, (warnItem ov attr merge mergable cs m x).2 = none) :
    validateInsert ov attr merge mergable cs m t =
      (t.leaves.flatMap fun x => (warnItem ov attr merge mergable cs m x).1.map fun y => (x, y), none) := by
  refine tree t h
where
  tree (t : STree) (h : ∀ x ∈ t.leaves, (warnItem ov attr merge mergable cs m x).2 = none) :
      validateInsert ov attr merge mergable cs m t =
        (t.leaves.flatMap fun x => (warnItem ov attr merge mergable cs m x).1.map fun y => (x, y), none) := by
    match t with
    | .leaf x =>
      have := h x (by simp [STree.leaves])
      simp [validateInsert, STree.leaves, this]
    | .group l =>
      simp only [validateInsert, STree.leaves]
      exact forest l (by simpa [STree.leaves] using h)
  forest (l : List STree) (h : ∀ x ∈ STree.leavesAll l, (warnItem ov attr merge mergable cs m x).2 = none) :
      validateAll ov attr merge mergable cs m l =
        ((STree.leavesAll l).flatMap fun x => (warnItem ov attr merge mergable cs m x).1.map fun y => (x, y), none) := by
    match l with
    | [] => rfl
    | t :: r =>
      have h1 := tree t (fun x hx => h x (by simp [STree.leavesAll, hx]))
      have h2 := forest r (fun x hx => h x (by simp [STree.leavesAll, hx]))
      simp only [validateAll, STree.leavesAll, h1, h2, Warns.andThen, List.flatMap_append]

/-- C69 fails inside a group: two machines on top of each other are reported when they are added one by one, and not when they
are added as a group. -/
theorem C69_group_refuted :
    let a := thing 0 0 0 0 2 2
    let b := thing 1 0 1 1 2 2
    (validateInsert aabbOverlapsAabb attrs false sameKey 8 (SOp.run 8 [.add a]) (.leaf b)).1 = [(b, a)] ∧
    validateInsert aabbOverlapsAabb attrs false sameKey 8 (SOp.run 8 []) (.group [.leaf a, .leaf b]) = ([], none) := by
  constructor
  · decide +kernel
  · rw [C69_group]
    · decide +kernel
    · decide +kernel

/-! ## Gates -/

/-- C69: whatever the map holds and whether or not merging is asked for, an object is only ever reported against something it
collides with. -/
theorem C69_sound {S : Type} (ov : S → S → Bool) (attr : SItem → Attr S) (merge : Bool) (mergable : SItem → SItem → Bool) (cs : ℕ)
    (m : SMap) (x y : SItem) (hy : (x, y) ∈ (validateInsert ov attr merge mergable cs m (.leaf x)).1) :
    Collide ov (attr x) (attr y) x.pos y.pos := by
  have key : ∀ l : List SItem, y ∈ (warnLoop ov attr merge mergable x l).1 → judge ov (attr x) (attr y) x.pos y.pos = .ok true := by
    intro l
    induction l with
    | nil => intro h; simp [warnLoop] at h
    | cons z r ih =>
      intro h
      unfold warnLoop at h
      split at h
      · cases h
      · split at h
        · cases h
        · rename_i w hw
          simp only at h
          by_cases hwt : w = true
          · rw [if_pos hwt] at h
            rcases List.mem_cons.1 h with rfl | h
            · rw [hw, hwt]
            · exact ih h
          · rw [if_neg hwt] at h; exact ih h
  have hj : judge ov (attr x) (attr y) x.pos y.pos = .ok true := by
    simp only [validateInsert, List.mem_map, Prod.mk.injEq] at hy
    obtain ⟨z, hz, -, rfl⟩ := hy
    unfold warnItem at hz
    split at hz
    · cases hz
    · exact key _ hz
  have hm : (attr x).mask ≠ none ∧ (attr y).mask ≠ none := by
    constructor <;> intro hn <;> unfold judge at hj
    · rw [hn] at hj
      cases hmy : (attr y).mask <;> rw [hmy] at hj <;> cases hj
    · rw [hn] at hj; cases hj
  obtain ⟨w, hw, hc⟩ := judge_ok ov (attr x) (attr y) x.pos y.pos hm.1 hm.2
  rw [hj] at hw
  cases hw
  exact hc.1 rfl

/-- C69: a gate and a straight rail are never reported unless their directions differ by quarter turns. -/
theorem C69_gate_partial {S : Type} (ov : S → S → Bool) (attr : SItem → Attr S) (merge : Bool) (mergable : SItem → SItem → Bool) (cs : ℕ)
    (m : SMap) (x y : SItem) (h : ((attr x).cls = .gate ∧ (attr y).cls = .straightRail) ∨ ((attr x).cls = .straightRail ∧ (attr y).cls = .gate))
    (hy : (x, y) ∈ (validateInsert ov attr merge mergable cs m (.leaf x)).1) : (attr x).dir.val % 4 = (attr y).dir.val % 4 := by
  have hns := (C69_sound ov attr merge mergable cs m x y hy).2.2.1
  by_contra hne
  exact hns ⟨h, hne⟩

example : (validateInsert aabbOverlapsAabb attrs false sameKey 8 (SOp.run 8 [.add (thing 0 1 0 0 2 2)]) (.leaf (thing 1 2 0 0 1 1))).1
    = [(thing 1 2 0 0 1 1, thing 0 1 0 0 2 2)] := by decide +kernel

/-- C69 fails for gates: a gate across a rail, the ordinary crossing, is reported as a collision, because with sixteen directions
perpendicular ones differ by four. -/
theorem C69_gate_refuted :
    let rail := thing 0 1 0 0 2 2
    let gate := thing 1 2 0 0 1 1
    (attrs rail).dir = 0 ∧ (attrs gate).dir = 4 ∧
    (validateInsert aabbOverlapsAabb attrs false sameKey 8 (SOp.run 8 [.add rail]) (.leaf gate)).1 = [(gate, rail)] := by
  decide +kernel

/-- C69 fails for rails: a rail facing south on top of the same rail facing north, which covers exactly the same ground, is not
reported. -/
theorem C69_rail_refuted :
    let north := thing 0 1 0 0 2 2
    let south := thing 1 4 0 0 2 2
    (attrs north).shapes = (attrs south).shapes ∧
    validateInsert aabbOverlapsAabb attrs false sameKey 8 (SOp.run 8 [.add north]) (.leaf south) = ([], none) := by
  decide +kernel

/-! ## Merging, equal members, unknown names -/

/-- C69 fails with merging: the search stops at the first member the object merges with.  Whether a third object is reported
depends on the order in which the members were added. -/
theorem C69_merge_refuted :
    let a := thing 0 0 0 0 2 2
    let b := thing 1 3 1 1 2 2
    let x := thing 2 3 0 0 2 2
    let at' := fun y : SItem => { attrs y with mask := some ["object"] }
    (validateInsert aabbOverlapsAabb at' true sameKey 8 (SOp.run 8 [.add a, .add b]) (.leaf x)).1 = [(x, a)] ∧
    (validateInsert aabbOverlapsAabb at' true sameKey 8 (SOp.run 8 [.add b, .add a]) (.leaf x)).1 = [] := by
  decide +kernel

/-- C69 fails for members that compare equal: two machines in the way give one warning. -/
theorem C69_equal_refuted :
    let a := thing 0 0 0 0 2 2
    let b := thing 1 0 0 0 2 2
    (validateInsert aabbOverlapsAabb attrs false sameKey 8 (SOp.run 8 [.add a, .add b]) (.leaf (thing 2 1 0 0 2 2))).1.length = 1 := by
  decide +kernel

/-- C69 fails for unknown names, which have no collision mask: putting such an object (a tile of an unknown name, for instance) on
another one, or another one on it, raises an exception instead of a warning. -/
theorem C69_unknown_refuted {S : Type} (ov : S → S → Bool) (attr : SItem → Attr S) (mergable : SItem → SItem → Bool) (cs : ℕ) (m : SMap)
    (x : SItem) (q : AABB) (hb : x.box = some q) (y : SItem) (r : List SItem) (ho : m.getInAabb cs q = y :: r) :
    ((attr y).mask = none → validateInsert ov attr false mergable cs m (.leaf x) = ([], some .attributeError)) ∧
    ((attr y).mask ≠ none → (attr x).mask = none → validateInsert ov attr false mergable cs m (.leaf x) = ([], some .typeError)) := by
  simp only [validateInsert, warnItem, hb, ho]
  constructor
  · intro hy
    simp [warnLoop, judge, hy]
  · intro hy hx
    obtain ⟨l, hl⟩ := Option.ne_none_iff_exists'.1 hy
    simp [warnLoop, judge, hl, hx]

example : (SOp.run 8 [.add (thing 0 0 0 0 2 2)]).getInAabb 8 ⟨⟨0, 0⟩, ⟨0 + 1, 0 + 1⟩, 0⟩ = [thing 0 0 0 0 2 2] ∧
    (attrs (thing 1 5 0 0 1 1)).mask = none := by decide +kernel

/-- C69 fails for the masks of game version 2.0, which are tables: extracting them keeps the keys of the table, so that two objects on
entirely different layers share the layer `"layers"`, and none shares a layer with the default masks. -/
theorem C69_mask_refuted (la lb : List String) (rest rest' : List (String × List String)) :
    (∃ l, l ∈ (RawMask.table (("layers", la) :: rest)).toSet ∧ l ∈ (RawMask.table (("layers", lb) :: rest')).toSet) ∧
    (∀ l ∈ (RawMask.table [("layers", la)]).toSet, l ∉ ["item-layer", "object-layer", "player-layer", "water-tile"]) := by
  refine ⟨⟨"layers", by simp [RawMask.toSet], by simp [RawMask.toSet]⟩, ?_⟩
  intro l hl
  simp only [RawMask.toSet, List.map_cons, List.map_nil, List.mem_singleton] at hl
  subst hl; decide

end Draftsman.Overlap
