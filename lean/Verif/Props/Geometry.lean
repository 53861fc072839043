import Verif.Model.Geometry
import Mathlib.Tactic.Linarith
import Mathlib.Tactic.Ring
import Mathlib.Tactic.NormNum
/-
C04 (box overlap), C05 (bounding boxes), C06 (dimensions), C07 (quarter turns), C08 (box/circle).
-/
namespace Draftsman

/-! ## Specification: boxes as sets of points -/

/-- `p` lies in the closed box, in world coordinates. -/
def AABB.Has (a : AABB) (p : Vec) : Prop :=
  a.topLeft.x + a.position.x ≤ p.x ∧ p.x ≤ a.botRight.x + a.position.x ∧
  a.topLeft.y + a.position.y ≤ p.y ∧ p.y ≤ a.botRight.y + a.position.y

/-- `p` lies strictly inside the box. -/
def AABB.HasStrictly (a : AABB) (p : Vec) : Prop :=
  a.topLeft.x + a.position.x < p.x ∧ p.x < a.botRight.x + a.position.x ∧
  a.topLeft.y + a.position.y < p.y ∧ p.y < a.botRight.y + a.position.y

/-- The box has positive width and height. -/
def AABB.Proper (a : AABB) : Prop := a.topLeft.x < a.botRight.x ∧ a.topLeft.y < a.botRight.y

/-- The corners are in order (possibly degenerate). -/
def AABB.Ordered (a : AABB) : Prop := a.topLeft.x ≤ a.botRight.x ∧ a.topLeft.y ≤ a.botRight.y

/-- Box `b` covers box `a`. -/
def AABB.Covers (b a : AABB) : Prop := ∀ p, a.Has p → b.Has p

/-! ## C04 -/

/-- Two proper boxes are reported overlapping exactly when they share an interior point. -/
theorem C04_overlap_iff (a b : AABB) (ha : a.Proper) (hb : b.Proper) :
    aabbOverlapsAabb a b = true ↔ ∃ p, a.HasStrictly p ∧ b.HasStrictly p := by
  obtain ⟨hax, hay⟩ := ha
  obtain ⟨hbx, hby⟩ := hb
  simp only [aabbOverlapsAabb, Bool.and_eq_true, decide_iff]
  simp only [AABB.worldTopLeft, AABB.worldBotRight, AABB.HasStrictly]
  constructor
  · rintro ⟨⟨h1, h2⟩, h3, h4⟩
    refine ⟨⟨(max (a.topLeft.x + a.position.x) (b.topLeft.x + b.position.x) +
        min (a.botRight.x + a.position.x) (b.botRight.x + b.position.x)) / 2,
      (max (a.topLeft.y + a.position.y) (b.topLeft.y + b.position.y) +
        min (a.botRight.y + a.position.y) (b.botRight.y + b.position.y)) / 2⟩, ?_, ?_⟩ <;>
    · simp only
      refine ⟨?_, ?_, ?_, ?_⟩ <;> grind
  · rintro ⟨p, ⟨h1, h2, h3, h4⟩, h5, h6, h7, h8⟩
    refine ⟨⟨?_, ?_⟩, ?_, ?_⟩ <;> linarith

/-- A case meeting the hypotheses where the boxes properly overlap, and one where they only touch. -/
example : (⟨⟨0, 0⟩, ⟨2, 2⟩, 0⟩ : AABB).Proper ∧
    aabbOverlapsAabb ⟨⟨0, 0⟩, ⟨2, 2⟩, 0⟩ ⟨⟨0, 0⟩, ⟨2, 2⟩, ⟨1, -1⟩⟩ = true ∧
    aabbOverlapsAabb ⟨⟨0, 0⟩, ⟨2, 2⟩, 0⟩ ⟨⟨0, 0⟩, ⟨2, 2⟩, ⟨2, 0⟩⟩ = false := by
  unfold AABB.Proper; decide +kernel

/-- The overlap test is symmetric. -/
theorem C04_overlap_symm (a b : AABB) : aabbOverlapsAabb a b = aabbOverlapsAabb b a := by
  rw [Bool.eq_iff_iff]
  simp only [aabbOverlapsAabb, Bool.and_eq_true, decide_iff]
  constructor <;> rintro ⟨⟨h1, h2⟩, h3, h4⟩ <;> exact ⟨⟨h2, h1⟩, h4, h3⟩

/-- Shifting both boxes by the same vector does not change the answer. -/
theorem C04_overlap_shift (a b : AABB) (v : Vec) :
    aabbOverlapsAabb (a.shift v) (b.shift v) = aabbOverlapsAabb a b := by
  rw [Bool.eq_iff_iff]
  simp only [aabbOverlapsAabb, Bool.and_eq_true, decide_iff]
  simp only [AABB.worldTopLeft, AABB.worldBotRight, AABB.shift, Vec.add_x, Vec.add_y]
  constructor <;> rintro ⟨⟨h1, h2⟩, h3, h4⟩ <;> refine ⟨⟨?_, ?_⟩, ?_, ?_⟩ <;> linarith

/-- Only the world corners matter: folding the position into the corners changes nothing. -/
theorem C04_overlap_position_irrelevant (a b : AABB) :
    aabbOverlapsAabb a.getBoundingBox b = aabbOverlapsAabb a b := by
  rw [Bool.eq_iff_iff]
  simp only [aabbOverlapsAabb, Bool.and_eq_true, decide_iff]
  simp [AABB.worldTopLeft, AABB.worldBotRight, AABB.getBoundingBox]

/-- The point test is exactly closed membership. -/
theorem C04_point_iff (p : Vec) (a : AABB) : pointInAabb p a = true ↔ a.Has p := by
  simp only [pointInAabb, Bool.and_eq_true, decide_iff]
  simp only [AABB.worldTopLeft, AABB.worldBotRight, AABB.Has, ge_iff_le]
  constructor
  · rintro ⟨⟨h1, h2⟩, h3, h4⟩; exact ⟨h1, h2, h3, h4⟩
  · rintro ⟨h1, h2, h3, h4⟩; exact ⟨⟨h1, h2⟩, h3, h4⟩

example : (⟨⟨0, 0⟩, ⟨2, 2⟩, ⟨10, 0⟩⟩ : AABB).Has ⟨12, 1⟩ := by unfold AABB.Has; norm_num

/-- Compound collision sets overlap exactly when some pair of their shapes does. -/
theorem C04_collision_sets {S : Type} (ov : S → S → Bool) (a b : List S) :
    collisionSetOverlaps ov a b = true ↔ ∃ s ∈ a, ∃ t ∈ b, ov s t = true := by
  unfold collisionSetOverlaps
  split <;> simp [List.any_eq_true]

/-! ## C05 -/

theorem extendAabb_assoc_fold (o : Option AABB) (l : List (Option AABB)) :
    l.foldl extendAabb o = none ↔ o = none ∧ ∀ b ∈ l, b = none := by
  induction l generalizing o with
  | nil => simp
  | cons b l ih =>
    rw [List.foldl_cons, ih]
    cases o <;> cases b <;> simp [extendAabb]

/-- Extending a box by another gives a box covering both, and every box covering both covers it. -/
theorem C05_extend_is_join (a b : AABB) (ha : a.Ordered) (hb : b.Ordered) :
    ∃ r, extendAabb (some a) (some b) = some r ∧ r.Ordered ∧ r.Covers a ∧ r.Covers b ∧
      ∀ c : AABB, c.Covers a → c.Covers b → c.Covers r := by
  refine ⟨_, rfl, ?_, ?_, ?_, ?_⟩
  · unfold AABB.Ordered at *
    simp only [AABB.worldTopLeft, AABB.worldBotRight]
    constructor <;> grind
  · intro p hp
    unfold AABB.Has at *
    simp only [AABB.worldTopLeft, AABB.worldBotRight, Vec.zero_x, Vec.zero_y]
    refine ⟨?_, ?_, ?_, ?_⟩ <;> grind
  · intro p hp
    unfold AABB.Has at *
    simp only [AABB.worldTopLeft, AABB.worldBotRight, Vec.zero_x, Vec.zero_y]
    refine ⟨?_, ?_, ?_, ?_⟩ <;> grind
  · intro c hca hcb p hp
    have h1 := hca a.worldTopLeft
    have h2 := hca a.worldBotRight
    have h3 := hcb b.worldTopLeft
    have h4 := hcb b.worldBotRight
    unfold AABB.Has at *
    unfold AABB.Ordered at ha hb
    simp only [AABB.worldTopLeft, AABB.worldBotRight, Vec.zero_x, Vec.zero_y] at *
    have h1 := h1 ⟨by grind, by grind, by grind, by grind⟩
    have h2 := h2 ⟨by grind, by grind, by grind, by grind⟩
    have h3 := h3 ⟨by grind, by grind, by grind, by grind⟩
    have h4 := h4 ⟨by grind, by grind, by grind, by grind⟩
    refine ⟨?_, ?_, ?_, ?_⟩ <;> grind

example : (⟨⟨0, 0⟩, ⟨1, 1⟩, ⟨5, 5⟩⟩ : AABB).Ordered ∧
    extendAabb (some ⟨⟨0, 0⟩, ⟨1, 1⟩, ⟨5, 5⟩⟩) (some ⟨⟨-1, -2⟩, ⟨0, 3⟩, 0⟩) =
      some ⟨⟨-1, -2⟩, ⟨6, 6⟩, 0⟩ := by unfold AABB.Ordered; decide +kernel

/-- The bounding box of a collection is absent exactly when no member has a box. -/
theorem C05_absent_iff (boxes : List (Option AABB)) :
    worldBoundingBox boxes = none ↔ ∀ b ∈ boxes, b = none := by
  simp [worldBoundingBox, extendAabb_assoc_fold]

/-- Core of the join property for the fold, with an explicit accumulator. -/
theorem fold_join (o : Option AABB) (l : List (Option AABB))
    (ho : ∀ a, o = some a → a.Ordered) (hl : ∀ a, some a ∈ l → a.Ordered) (r : AABB)
    (hr : l.foldl extendAabb o = some r) :
    r.Ordered ∧ (∀ a, (o = some a ∨ some a ∈ l) → r.Covers a) ∧
      ∀ c : AABB, (∀ a, (o = some a ∨ some a ∈ l) → c.Covers a) → c.Covers r := by
  induction l generalizing o with
  | nil =>
    simp only [List.foldl_nil] at hr
    refine ⟨ho r hr, ?_, ?_⟩
    · rintro a (h | h)
      · rw [hr] at h; injection h with h; subst h; exact fun p hp => hp
      · simp at h
    · intro c hc; exact hc r (Or.inl hr)
  | cons b l ih =>
    rw [List.foldl_cons] at hr
    have hl' : ∀ a, some a ∈ l → a.Ordered := fun a ha => hl a (List.mem_cons_of_mem _ ha)
    match o, b, ho, hl with
    | none, b, _, hl =>
      have hb : ∀ a, b = some a → a.Ordered := fun a ha => hl a (by rw [ha]; simp)
      obtain ⟨h1, h2, h3⟩ := ih (extendAabb none b) hb hl' hr
      refine ⟨h1, ?_, ?_⟩
      · rintro a (h | h)
        · exact absurd h (by simp)
        · rcases List.mem_cons.1 h with h | h
          · exact h2 a (Or.inl h.symm)
          · exact h2 a (Or.inr h)
      · intro c hc
        apply h3 c
        rintro a (h | h)
        · exact hc a (Or.inr (List.mem_cons.2 (Or.inl h.symm)))
        · exact hc a (Or.inr (List.mem_cons_of_mem _ h))
    | some a0, none, ho, hl =>
      obtain ⟨h1, h2, h3⟩ := ih (extendAabb (some a0) none) ho hl' hr
      refine ⟨h1, ?_, ?_⟩
      · rintro a (h | h)
        · exact h2 a (Or.inl h)
        · rcases List.mem_cons.1 h with h | h
          · exact absurd h (by simp)
          · exact h2 a (Or.inr h)
      · intro c hc
        apply h3 c
        rintro a (h | h)
        · exact hc a (Or.inl h)
        · exact hc a (Or.inr (List.mem_cons_of_mem _ h))
    | some a0, some b0, ho, hl =>
      obtain ⟨j, hj, hjo, hja, hjb, hjmin⟩ := C05_extend_is_join a0 b0 (ho a0 rfl) (hl b0 (by simp))
      rw [hj] at hr
      obtain ⟨h1, h2, h3⟩ := ih (some j) (by intro a h; injection h with h; subst h; exact hjo) hl' hr
      have hrj := h2 j (Or.inl rfl)
      refine ⟨h1, ?_, ?_⟩
      · rintro a (h | h)
        · injection h with h; subst h; exact fun p hp => hrj p (hja p hp)
        · rcases List.mem_cons.1 h with h | h
          · injection h with h; subst h; exact fun p hp => hrj p (hjb p hp)
          · exact h2 a (Or.inr h)
      · intro c hc
        apply h3 c
        rintro a (h | h)
        · injection h with h; subst h
          exact hjmin c (hc a0 (Or.inl rfl)) (hc b0 (Or.inr (by simp)))
        · exact hc a (Or.inr (List.mem_cons_of_mem _ h))

/-- The bounding box of a collection is the smallest box covering every member's box. -/
theorem C05_world_box_is_join (boxes : List (Option AABB)) (hl : ∀ a, some a ∈ boxes → a.Ordered)
    (r : AABB) (hr : worldBoundingBox boxes = some r) :
    (∀ a, some a ∈ boxes → r.Covers a) ∧
      ∀ c : AABB, (∀ a, some a ∈ boxes → c.Covers a) → c.Covers r := by
  obtain ⟨_, h2, h3⟩ := fold_join none boxes (by simp) hl r hr
  exact ⟨fun a ha => h2 a (Or.inr ha), fun c hc => h3 c (fun a ha => by
    rcases ha with ha | ha
    · exact absurd ha (by simp)
    · exact hc a ha)⟩

example : worldBoundingBox [some ⟨⟨0, 0⟩, ⟨1, 1⟩, 0⟩, none, some ⟨⟨-3, 0⟩, ⟨-2, 4⟩, 0⟩] =
    some ⟨⟨-3, 0⟩, ⟨1, 4⟩, 0⟩ := by decide +kernel

/-- Insertion order does not matter: any permutation of the members gives a bounding box with the
same points (and the same presence). -/
theorem C05_order_independent (l₁ l₂ : List (Option AABB)) (hp : l₁.Perm l₂)
    (hl : ∀ a, some a ∈ l₁ → a.Ordered) :
    (worldBoundingBox l₁ = none ∧ worldBoundingBox l₂ = none) ∨
    ∃ r₁ r₂, worldBoundingBox l₁ = some r₁ ∧ worldBoundingBox l₂ = some r₂ ∧
      ∀ p, r₁.Has p ↔ r₂.Has p := by
  cases h1 : worldBoundingBox l₁ with
  | none =>
    left
    refine ⟨rfl, (C05_absent_iff l₂).2 ?_⟩
    intro b hb
    exact (C05_absent_iff l₁).1 h1 b (hp.mem_iff.2 hb)
  | some r₁ =>
    right
    cases h2 : worldBoundingBox l₂ with
    | none =>
      have := (C05_absent_iff l₁).2 (fun b hb => (C05_absent_iff l₂).1 h2 b (hp.mem_iff.1 hb))
      rw [this] at h1; exact absurd h1 (by simp)
    | some r₂ =>
      have hl2 : ∀ a, some a ∈ l₂ → a.Ordered := fun a ha => hl a (hp.mem_iff.2 ha)
      obtain ⟨c1, m1⟩ := C05_world_box_is_join l₁ hl r₁ h1
      obtain ⟨c2, m2⟩ := C05_world_box_is_join l₂ hl2 r₂ h2
      exact ⟨r₁, r₂, rfl, rfl, fun p => ⟨m1 r₂ (fun a ha => c2 a (hp.mem_iff.1 ha)) p,
        m2 r₁ (fun a ha => c1 a (hp.mem_iff.2 ha)) p⟩⟩

example : [some (⟨⟨0, 0⟩, ⟨1, 1⟩, 0⟩ : AABB), none].Perm [none, some ⟨⟨0, 0⟩, ⟨1, 1⟩, 0⟩] :=
  List.Perm.swap _ _ _

/-! ## C06 -/

/-- The reported width and height are the least integers not below the extents. -/
theorem C06_least (a : AABB) (w h : Int) (hd : aabbToDimensions (some a) = (w, h)) :
    (a.botRight.x - a.topLeft.x ≤ w ∧ ∀ n : Int, a.botRight.x - a.topLeft.x ≤ n → w ≤ n) ∧
    (a.botRight.y - a.topLeft.y ≤ h ∧ ∀ n : Int, a.botRight.y - a.topLeft.y ≤ n → h ≤ n) := by
  simp only [aabbToDimensions, Prod.mk.injEq] at hd
  obtain ⟨rfl, rfl⟩ := hd
  exact ⟨⟨Int.le_ceil _, fun n hn => Int.ceil_le.2 hn⟩, Int.le_ceil _, fun n hn => Int.ceil_le.2 hn⟩

example : aabbToDimensions (some ⟨⟨-1/2, 0⟩, ⟨1/2, 21/10⟩, 0⟩) = (1, 3) := by decide +kernel

/-- No box, no size. -/
theorem C06_none : aabbToDimensions none = (0, 0) := rfl

/-- Moving the box, by position or by corners, leaves the dimensions unchanged. -/
theorem C06_shift (a : AABB) (v u : Vec) :
    aabbToDimensions (some { topLeft := a.topLeft + v, botRight := a.botRight + v,
                             position := a.position + u }) = aabbToDimensions (some a) := by
  simp [aabbToDimensions]

/-! ## C07 -/

/-- Specification of a clockwise quarter turn (y points down). -/
def turn (p : Vec) : Vec := ⟨-p.y, p.x⟩

/-- Membership in the box relative to its own position. -/
def AABB.HasLocal (a : AABB) (p : Vec) : Prop :=
  a.topLeft.x ≤ p.x ∧ p.x ≤ a.botRight.x ∧ a.topLeft.y ≤ p.y ∧ p.y ≤ a.botRight.y

theorem turn4 (p : Vec) : turn^[4] p = p := by simp [Function.iterate_succ, turn]

theorem turn_iterate_mod (k : Nat) (p : Vec) : turn^[k] p = turn^[k % 4] p := by
  conv => lhs; rw [← Nat.div_add_mod k 4]
  rw [Nat.add_comm, Function.iterate_add_apply, Function.iterate_mul]
  congr 1
  have : turn^[4] = id := by funext p; exact turn4 p
  rw [this, Function.iterate_id]; rfl

/-- The image of a point under a rotation by `amt` sixteenths (a multiple of four) is that many
quarter turns. -/
theorem rotatePoint_eq_turn (p : Vec) (amt : Int) (h : amt % 4 = 0) :
    rotatePoint p (quarterCos amt) (quarterSin amt) = turn^[(amt / 4 % 4).toNat] p := by
  have : amt % 16 = 0 ∨ amt % 16 = 4 ∨ amt % 16 = 8 ∨ amt % 16 = 12 := by omega
  rcases this with h' | h' | h' | h'
  · have : (amt / 4 % 4).toNat = 0 := by omega
    simp [this, quarterCos, quarterSin, h', rotatePoint]
  · have : (amt / 4 % 4).toNat = 1 := by omega
    simp [this, quarterCos, quarterSin, h', rotatePoint, turn]
  · have : (amt / 4 % 4).toNat = 2 := by omega
    simp [this, quarterCos, quarterSin, h', rotatePoint, turn, Function.iterate_succ]
  · have : (amt / 4 % 4).toNat = 3 := by omega
    simp [this, quarterCos, quarterSin, h', rotatePoint, turn, Function.iterate_succ]

/-- A rotation amount is accepted exactly when it is a whole number of quarter turns. -/
theorem C07_rejects (a : AABB) (amt : Int) :
    (amt % 4 ≠ 0 → a.rotate amt = .error .valueError) ∧
    (amt % 4 = 0 → ∃ b, a.rotate amt = .ok b) := by
  unfold AABB.rotate
  constructor
  · intro h; simp [h]
  · intro h; simp [h]

/-- The rotated box is again ordered, keeps its position, and contains exactly the turned points. -/
theorem C07_exact_image (a b : AABB) (amt : Int) (ha : a.Ordered) (hr : a.rotate amt = .ok b) :
    b.Ordered ∧ b.position = a.position ∧
      ∀ p, b.HasLocal (turn^[(amt / 4 % 4).toNat] p) ↔ a.HasLocal p := by
  have h4 : amt % 4 = 0 := by
    by_contra h; unfold AABB.rotate at hr; simp [h] at hr
  unfold AABB.rotate at hr
  simp only [h4, ne_eq, not_true, if_false, Except.ok.injEq, rotatePoint_eq_turn _ _ h4] at hr
  have hk : (amt / 4 % 4).toNat = 0 ∨ (amt / 4 % 4).toNat = 1 ∨ (amt / 4 % 4).toNat = 2 ∨
      (amt / 4 % 4).toNat = 3 := by omega
  obtain ⟨hx, hy⟩ := ha
  rcases hk with hk | hk | hk | hk <;> rw [hk] at hr ⊢ <;> subst hr <;>
    simp only [Function.iterate_succ, Function.iterate_zero, Function.comp_apply, id_eq, turn,
      AABB.Ordered, AABB.HasLocal, true_and] <;>
    refine ⟨⟨by grind, by grind⟩, fun p => ⟨?_, ?_⟩⟩ <;> rintro ⟨h1, h2, h3, h4⟩ <;>
    refine ⟨?_, ?_, ?_, ?_⟩ <;> grind

example : (⟨⟨-1/2, -1⟩, ⟨1/2, 2⟩, ⟨7, 7⟩⟩ : AABB).Ordered ∧
    (⟨⟨-1/2, -1⟩, ⟨1/2, 2⟩, ⟨7, 7⟩⟩ : AABB).rotate 4 = .ok ⟨⟨-2, -1/2⟩, ⟨1, 1/2⟩, ⟨7, 7⟩⟩ := by
  unfold AABB.Ordered; decide +kernel

theorem turn_iterate_ordered_eq (a b : AABB) (ha : a.Ordered) (hb : b.Ordered)
    (hp : a.position = b.position) (h : ∀ p, a.HasLocal p ↔ b.HasLocal p) : a = b := by
  have h1 := (h a.topLeft).1 ⟨le_refl _, ha.1, le_refl _, ha.2⟩
  have h2 := (h a.botRight).1 ⟨ha.1, le_refl _, ha.2, le_refl _⟩
  have h3 := (h b.topLeft).2 ⟨le_refl _, hb.1, le_refl _, hb.2⟩
  have h4 := (h b.botRight).2 ⟨hb.1, le_refl _, hb.2, le_refl _⟩
  obtain ⟨⟨ax, ay⟩, ⟨bx, bY⟩, ap⟩ := a
  obtain ⟨⟨cx, cy⟩, ⟨dx, dy⟩, bp⟩ := b
  simp only [AABB.HasLocal] at h1 h2 h3 h4
  simp only at hp
  subst hp
  simp only [AABB.mk.injEq, Vec.mk.injEq, and_true]
  refine ⟨⟨?_, ?_⟩, ?_, ?_⟩ <;> linarith

/-- Rotations compose additively. -/
theorem C07_compose (a b c : AABB) (s t : Int) (ha : a.Ordered) (h1 : a.rotate s = .ok b)
    (h2 : b.rotate t = .ok c) : a.rotate (s + t) = .ok c := by
  have hs : s % 4 = 0 := by
    by_contra h; rw [(C07_rejects a s).1 h] at h1; exact absurd h1 (by simp)
  have ht : t % 4 = 0 := by
    by_contra h; rw [(C07_rejects b t).1 h] at h2; exact absurd h2 (by simp)
  obtain ⟨d, hd⟩ := (C07_rejects a (s + t)).2 (by omega)
  obtain ⟨ob, pb, ib⟩ := C07_exact_image a b s ha h1
  obtain ⟨oc, pc, ic⟩ := C07_exact_image b c t ob h2
  obtain ⟨od, pd, id'⟩ := C07_exact_image a d (s + t) ha hd
  rw [hd]
  congr 1
  apply turn_iterate_ordered_eq d c od oc (by rw [pd, pc, pb])
  intro p
  -- write `p` as the image of some point under the combined turn
  set k := ((s + t) / 4 % 4).toNat with hk
  have hsurj : p = turn^[k] (turn^[4 - k] p) := by
    rw [← Function.iterate_add_apply]
    have : k + (4 - k) = 4 := by omega
    rw [this, turn4]
  rw [hsurj, id']
  set q := turn^[4 - k] p
  have hkk : turn^[k] q = turn^[(t / 4 % 4).toNat] (turn^[(s / 4 % 4).toNat] q) := by
    clear_value q
    rw [← Function.iterate_add_apply, turn_iterate_mod k, turn_iterate_mod (_ + _)]
    have : k % 4 = ((t / 4 % 4).toNat + (s / 4 % 4).toNat) % 4 := by omega
    rw [this]
  rw [hkk, ic, ib]

/-- A full turn (and no turn) gives the same box. -/
theorem C07_full_turn (a : AABB) (ha : a.Ordered) (n : Int) : a.rotate (16 * n) = .ok a := by
  obtain ⟨b, hb⟩ := (C07_rejects a (16 * n)).2 (by omega)
  obtain ⟨ob, pb, ib⟩ := C07_exact_image a b _ ha hb
  rw [hb]
  congr 1
  apply turn_iterate_ordered_eq b a ob ha pb
  intro p
  have : ((16 * n) / 4 % 4).toNat = 0 := by omega
  rw [this] at ib
  exact ib p

/-- A whole collision set is rotated shape by shape: it succeeds exactly for quarter turns, keeps the
number and order of shapes, and rotates each one exactly. -/
theorem C07_collision_set (shapes : List AABB) (amt : Int) (h : amt % 4 = 0) :
    ∃ out, collisionSetRotate shapes amt = .ok out ∧
      List.Forall₂ (fun a b => AABB.rotate a amt = .ok b) shapes out := by
  induction shapes with
  | nil => exact ⟨[], rfl, .nil⟩
  | cons a l ih =>
    obtain ⟨b, hb⟩ := (C07_rejects a amt).2 h
    obtain ⟨out, ho, hf⟩ := ih
    refine ⟨b :: out, ?_, .cons hb hf⟩
    unfold collisionSetRotate at *
    rw [List.mapM_cons, hb, ho]
    rfl

example : collisionSetRotate [⟨⟨0, 0⟩, ⟨1, 2⟩, 0⟩] 8 = .ok [⟨⟨-1, -2⟩, ⟨0, 0⟩, 0⟩] := by
  decide +kernel

/-! ## C08 -/

/-- Specification: squared distance at most the squared radius. -/
def InDisc (p c : Vec) (r : ℚ) : Prop := (p.x - c.x) ^ 2 + (p.y - c.y) ^ 2 ≤ r ^ 2

theorem C08_point_in_circle_iff (p c : Vec) (r : ℚ) : pointInCircle p r c = true ↔ InDisc p c r := by
  simp only [pointInCircle, decide_iff, InDisc]
  constructor <;> intro h <;> linarith

theorem sq_abs_le {u v : ℚ} (h : |u| ≤ v) : u ^ 2 ≤ v ^ 2 := by
  have h1 := abs_le.1 h
  nlinarith [h1.1, h1.2, abs_nonneg u]

/-- A box and a circle of non-negative radius are reported as overlapping exactly when a point of
the (closed) box lies in the (closed) disc. -/
theorem C08_overlap_iff (a : AABB) (r : ℚ) (c : Vec) (ha : a.Ordered) (hr : 0 ≤ r) :
    aabbOverlapsCircle a r c = true ↔ ∃ p, a.Has p ∧ InDisc p c r := by
  obtain ⟨⟨x1, y1⟩, ⟨x2, y2⟩, ⟨px, py⟩⟩ := a
  obtain ⟨cx, cy⟩ := c
  obtain ⟨hx, hy⟩ := ha
  simp only at hx hy
  simp only [aabbOverlapsCircle, AABB.Has, InDisc]
  set w := (x2 - x1) / 2 with hw
  set h := (y2 - y1) / 2 with hh
  set mx := x1 + px + w with hmx
  set my := y1 + py + h with hmy
  have hw0 : 0 ≤ w := by linarith
  have hh0 : 0 ≤ h := by linarith
  have key : (∃ p : Vec, (x1 + px ≤ p.x ∧ p.x ≤ x2 + px ∧ y1 + py ≤ p.y ∧ p.y ≤ y2 + py) ∧
      (p.x - cx) ^ 2 + (p.y - cy) ^ 2 ≤ r ^ 2) ↔
      ∃ u v : ℚ, |u| ≤ w ∧ |v| ≤ h ∧ (mx + u - cx) ^ 2 + (my + v - cy) ^ 2 ≤ r ^ 2 := by
    constructor
    · rintro ⟨⟨p, q⟩, ⟨h1, h2, h3, h4⟩, h5⟩
      refine ⟨p - mx, q - my, abs_le.2 ⟨?_, ?_⟩, abs_le.2 ⟨?_, ?_⟩, ?_⟩
      · simp only at *; linarith
      · simp only at *; linarith
      · simp only at *; linarith
      · simp only at *; linarith
      · simpa using h5
    · rintro ⟨u, v, hu, hv, h5⟩
      have hu := abs_le.1 hu
      have hv := abs_le.1 hv
      exact ⟨⟨mx + u, my + v⟩, ⟨by simp only; linarith, by simp only; linarith, by simp only; linarith,
        by simp only; linarith⟩, h5⟩
  rw [key]
  -- reduce to the position of the centre relative to the middle of the box
  set dx := |cx - mx| with hdx
  set dy := |cy - my| with hdy
  have ndx : 0 ≤ dx := abs_nonneg _
  have ndy : 0 ≤ dy := abs_nonneg _
  have bound : ∀ (e m w' u : ℚ), |u| ≤ w' → |e - m| - w' ≤ |m + u - e| := by
    intro e m w' u hu
    have := abs_sub_abs_le_abs_sub (e - m) u
    have h2 : |e - m - u| = |m + u - e| := by rw [← abs_neg]; congr 1; ring
    linarith
  have achieve : ∀ (e m w' : ℚ), 0 ≤ w' → w' ≤ |e - m| →
      ∃ u, |u| ≤ w' ∧ (m + u - e) ^ 2 = (|e - m| - w') ^ 2 := by
    intro e m w' hw' hle
    rcases le_total 0 (e - m) with hs | hs
    · refine ⟨w', by rw [abs_of_nonneg hw'], ?_⟩
      rw [abs_of_nonneg hs]; ring
    · refine ⟨-w', by rw [abs_neg, abs_of_nonneg hw'], ?_⟩
      rw [abs_of_nonpos hs]; ring
  have inside : ∀ (e m w' : ℚ), |e - m| ≤ w' → ∃ u, |u| ≤ w' ∧ (m + u - e) ^ 2 = 0 := by
    intro e m w' hle
    exact ⟨e - m, hle, by ring⟩
  have sqle : ∀ {s t : ℚ}, 0 ≤ s → s ≤ |t| → s ^ 2 ≤ t ^ 2 := by
    intro s t hs hst
    have := mul_self_le_mul_self hs hst
    rw [← pow_two, ← pow_two, sq_abs] at this
    exact this
  split
  · rename_i hgt
    simp only [Bool.false_eq_true, false_iff]
    rintro ⟨u, v, hu, hv, hle⟩
    have b1 := bound cx mx w u hu
    have b2 : r < |mx + u - cx| := by linarith
    have b3 : r ^ 2 < (mx + u - cx) ^ 2 := by
      rw [← sq_abs (mx + u - cx)]; nlinarith
    nlinarith [sq_nonneg (my + v - cy)]
  · rename_i hgx
    split
    · rename_i hgt
      simp only [Bool.false_eq_true, false_iff]
      rintro ⟨u, v, hu, hv, hle⟩
      have b1 := bound cy my h v hv
      have b2 : r < |my + v - cy| := by linarith
      have b3 : r ^ 2 < (my + v - cy) ^ 2 := by
        rw [← sq_abs (my + v - cy)]; nlinarith
      nlinarith [sq_nonneg (mx + u - cx)]
    · rename_i hgy
      have hgx := not_lt.1 hgx
      have hgy := not_lt.1 hgy
      split
      · rename_i hin
        simp only [true_iff]
        obtain ⟨u, hu, eu⟩ := inside cx mx w hin
        rcases le_total h dy with hc | hc
        · obtain ⟨v, hv, ev⟩ := achieve cy my h hh0 hc
          exact ⟨u, v, hu, hv, by rw [eu, ev]; nlinarith⟩
        · obtain ⟨v, hv, ev⟩ := inside cy my h hc
          exact ⟨u, v, hu, hv, by rw [eu, ev]; nlinarith⟩
      · rename_i hout
        have hout := not_le.1 hout
        split
        · rename_i hin
          simp only [true_iff]
          obtain ⟨v, hv, ev⟩ := inside cy my h hin
          obtain ⟨u, hu, eu⟩ := achieve cx mx w hw0 hout.le
          exact ⟨u, v, hu, hv, by rw [eu, ev]; nlinarith⟩
        · rename_i houty
          have houty := not_le.1 houty
          rw [decide_iff]
          constructor
          · intro hle
            obtain ⟨u, hu, eu⟩ := achieve cx mx w hw0 hout.le
            obtain ⟨v, hv, ev⟩ := achieve cy my h hh0 houty.le
            exact ⟨u, v, hu, hv, by rw [eu, ev]; exact hle⟩
          · rintro ⟨u, v, hu, hv, hle⟩
            have b1 := sqle (by linarith : 0 ≤ dx - w) (bound cx mx w u hu)
            have b2 := sqle (by linarith : 0 ≤ dy - h) (bound cy my h v hv)
            linarith

/-- Corner case: the disc reaches the corner exactly (3-4-5 triangle), and just fails to. -/
example : (⟨⟨0, 0⟩, ⟨1, 1⟩, ⟨10, 10⟩⟩ : AABB).Ordered ∧ (0 : ℚ) ≤ 5 ∧
    aabbOverlapsCircle ⟨⟨0, 0⟩, ⟨1, 1⟩, ⟨10, 10⟩⟩ 5 ⟨14, 15⟩ = true ∧
    aabbOverlapsCircle ⟨⟨0, 0⟩, ⟨1, 1⟩, ⟨10, 10⟩⟩ (49/10) ⟨14, 15⟩ = false := by
  unfold AABB.Ordered; decide +kernel

end Draftsman
