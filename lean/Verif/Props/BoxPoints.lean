import Verif.Model.BoxPoints
import Mathlib.Tactic.Ring
import Mathlib.Tactic.Linarith
import Mathlib.Data.List.Nodup
/-
C127: boxes and their corners, and which boxes move together.
-/
namespace Draftsman
namespace BoxPoints

/-- `get_points` lists the corners of the box that `world_top_left` and `world_bot_right` span, clockwise from the top left. -/
def Agree (w : World) (b : Box) : Prop :=
  w.getPoints b = [w.topLeft b, ⟨(w.botRight b).x, (w.topLeft b).y⟩, w.botRight b, ⟨(w.topLeft b).x, (w.botRight b).y⟩]

/-- No bounding box is taken of a box whose position is not the origin at that time. -/
def Calm (w : World) : List Op → Prop
  | [] => True
  | o :: l => (∀ k b, o = .bound k → w.boxes[k]? = some b → w.cell b.pos = 0) ∧ Calm (w.step o).1 l

theorem agree_iff (w : World) (b : Box) : Agree w b ↔ b.points = listPoints b.tl b.br := by
  unfold Agree World.getPoints World.topLeft World.botRight
  have hinj : Function.Injective (fun p : Vec => (⟨p.x + (w.cell b.pos).x, p.y + (w.cell b.pos).y⟩ : Vec)) := by
    intro p q h
    simp only [Vec.mk.injEq, add_left_inj] at h
    exact Vec.ext h.1 h.2
  constructor
  · intro h
    exact (List.map_injective_iff.mpr hinj) (by rw [h]; rfl)
  · intro h
    rw [h]; rfl

theorem pushAll_boxes (v : Vec) (ks : List ℕ) : ∀ w : World, (w.pushAll v ks).boxes = w.boxes := by
  induction ks with
  | nil => intro w; rfl
  | cons k ks ih =>
    intro w
    rw [World.pushAll]
    cases w.boxes[k]? with
    | none => exact ih w
    | some b => rw [ih]; rfl

theorem listPoints_eq {tl br d : Vec} : listPoints tl br = listPoints ⟨tl.x + d.x, tl.y + d.y⟩ ⟨br.x + d.x, br.y + d.y⟩ ↔ d = 0 := by
  constructor
  · intro h
    simp only [listPoints, List.cons.injEq, Vec.mk.injEq] at h
    refine Vec.ext ?_ ?_
    · have := h.1.1; simp only [Vec.zero_x]; linarith
    · have := h.1.2; simp only [Vec.zero_y]; linarith
  · rintro rfl
    simp [listPoints]

theorem step_boxes (w : World) (o : Op) : (w.step o).1.boxes = w.boxes ∧ (∀ k b, o = .bound k → w.boxes[k]? ≠ some b) ∨
    ∃ b, (w.step o).1.boxes = w.boxes ++ [b] ∧ (b.points = listPoints b.tl b.br ↔ ∀ k a, o = .bound k → w.boxes[k]? = some a → w.cell a.pos = 0) := by
  cases o with
  | new tl br p =>
    cases p with
    | lit p => exact Or.inr ⟨_, rfl, ⟨fun _ => by simp, fun _ => rfl⟩⟩
    | of k =>
      rw [World.step]
      cases w.boxes[k]? with
      | none => exact Or.inl ⟨rfl, by simp⟩
      | some b => exact Or.inr ⟨_, rfl, ⟨fun _ => by simp, fun _ => rfl⟩⟩
  | rotate k amt =>
    rw [World.step]
    cases w.boxes[k]? with
    | none => exact Or.inl ⟨rfl, by simp⟩
    | some b =>
      simp only []
      by_cases h : amt % 4 ≠ 0
      · rw [if_pos h]; exact Or.inl ⟨rfl, by simp⟩
      · rw [if_neg h]; exact Or.inr ⟨_, rfl, ⟨fun _ => by simp, fun _ => rfl⟩⟩
  | add k v =>
    rw [World.step]
    cases w.boxes[k]? with
    | none => exact Or.inl ⟨rfl, by simp⟩
    | some b => exact Or.inr ⟨_, rfl, ⟨fun _ => by simp, fun _ => rfl⟩⟩
  | bound k =>
    rw [World.step]
    cases hk : w.boxes[k]? with
    | none => exact Or.inl ⟨rfl, fun j b h => by cases h; simp [hk]⟩
    | some b =>
      refine Or.inr ⟨_, rfl, ?_⟩
      rw [listPoints_eq]
      constructor
      · intro h j a hj ha
        cases hj
        rw [hk] at ha
        cases ha
        exact h
      · intro h
        exact h k b rfl hk
  | extend j k =>
    rw [World.step]
    cases w.boxes[j]? with
    | none => exact Or.inl ⟨rfl, by simp⟩
    | some a =>
      cases w.boxes[k]? with
      | none => exact Or.inl ⟨rfl, by simp⟩
      | some b => exact Or.inr ⟨_, rfl, ⟨fun _ => by simp, fun _ => rfl⟩⟩
  | collide ks v => exact Or.inl ⟨pushAll_boxes v ks w, by simp⟩

theorem run_std (l : List Op) : ∀ w : World, (∀ b ∈ (w.run l).boxes, b.points = listPoints b.tl b.br) ↔
    (∀ b ∈ w.boxes, b.points = listPoints b.tl b.br) ∧ Calm w l := by
  induction l with
  | nil => intro w; simp [World.run, Calm]
  | cons o l ih =>
    intro w
    rw [World.run, ih, Calm]
    rcases step_boxes w o with ⟨h1, h2⟩ | ⟨b, h1, h2⟩
    · rw [h1]
      constructor
      · rintro ⟨h3, h4⟩
        exact ⟨h3, fun k b hk hb => absurd hb (h2 k b hk), h4⟩
      · rintro ⟨h3, -, h4⟩
        exact ⟨h3, h4⟩
    · rw [h1, ← h2]
      constructor
      · rintro ⟨h3, h4⟩
        exact ⟨fun c hc => h3 c (by simp [hc]), h3 b (by simp), h4⟩
      · rintro ⟨h3, h4, h5⟩
        refine ⟨fun c hc => ?_, h5⟩
        rcases List.mem_append.mp hc with hc | hc
        · exact h3 c hc
        · rw [List.mem_singleton.mp hc]; exact h4

/-- After any program, the corners of all boxes agree exactly if no bounding box was taken of a box away from the origin: everything else keeps them in step, also what is
made from boxes whose corners do not agree. -/
theorem C127_corners (l : List Op) : (∀ b ∈ (World.empty.run l).boxes, Agree (World.empty.run l) b) ↔ Calm World.empty l := by
  simp only [agree_iff]
  rw [run_std]
  simp [World.empty]

/-- A bounding box spans what the box spans, and its corners are off by the position of the box. -/
theorem C127_bound {w : World} {k : ℕ} {b : Box} (hk : w.boxes[k]? = some b) : ∃ c, (w.step (.bound k)).1.boxes = w.boxes ++ [c] ∧
    (w.step (.bound k)).1.topLeft c = w.topLeft b ∧ (w.step (.bound k)).1.botRight c = w.botRight b ∧
    (Agree w b → ((w.step (.bound k)).1.getPoints c).map (· + w.cell b.pos) = w.getPoints b) ∧
    (Agree (w.step (.bound k)).1 c ↔ w.cell b.pos = 0) := by
  simp only [World.step, hk]
  refine ⟨_, rfl, by simp [World.topLeft, World.bound], by simp [World.botRight, World.bound], fun h => ?_, ?_⟩
  · rw [agree_iff] at h
    simp only [World.getPoints, World.bound, if_true, h]
    simp [listPoints, Vec.ext_iff]
  · rw [agree_iff, listPoints_eq]

/-- For a box at the origin the test against any shape says the same of the bounding box as of the box. -/
theorem C127_rect_partial {w : World} {k : ℕ} {b : Box} (hk : w.boxes[k]? = some b) (hb : Agree w b) (h0 : w.cell b.pos = 0) (s : Rect.Shape) :
    ∃ c, (w.step (.bound k)).1.boxes = w.boxes ++ [c] ∧
      Rect.rectOverlapsRect ((w.step (.bound k)).1.shape c) s = Rect.rectOverlapsRect (w.shape b) s := by
  obtain ⟨c, h1, -, -, h2, -⟩ := C127_bound hk
  refine ⟨c, h1, ?_⟩
  have h3 := h2 hb
  rw [h0] at h3
  have h4 : (w.step (.bound k)).1.getPoints c = w.getPoints b := by
    rw [← h3]
    conv_lhs => rw [← List.map_id ((w.step (.bound k)).1.getPoints c)]
    exact List.map_congr_left fun p _ => by simp [Vec.ext_iff]
  rw [World.shape, World.shape, h4]

/-- The box without its points and with its position by value, as `C04` to `C08` are about. -/
def plain (w : World) (b : Box) : AABB := ⟨b.tl, b.br, w.cell b.pos⟩

/-- Each step makes the box that the functions without objects make (`C04` to `C08`), and raises what they raise; the boxes before stay as they are. -/
theorem C127_refines (w : World) (k j : ℕ) (b a : Box) (hk : w.boxes[k]? = some b) (hj : w.boxes[j]? = some a) :
    (∀ tl br p, ∃ c, (w.step (.new tl br (.lit p))).1.boxes = w.boxes ++ [c] ∧ plain (w.step (.new tl br (.lit p))).1 c = ⟨tl, br, p⟩) ∧
    (∀ tl br, ∃ c, (w.step (.new tl br (.of k))).1.boxes = w.boxes ++ [c] ∧ plain (w.step (.new tl br (.of k))).1 c = ⟨tl, br, w.cell b.pos⟩) ∧
    (∀ v, ∃ c, (w.step (.add k v)).1.boxes = w.boxes ++ [c] ∧ plain (w.step (.add k v)).1 c = (plain w b).shift v) ∧
    (∃ c, (w.step (.bound k)).1.boxes = w.boxes ++ [c] ∧ plain (w.step (.bound k)).1 c = (plain w b).getBoundingBox) ∧
    (∃ c, (w.step (.extend j k)).1.boxes = w.boxes ++ [c] ∧ some (plain (w.step (.extend j k)).1 c) = extendAabb (some (plain w a)) (some (plain w b))) ∧
    (∀ amt x, (plain w b).rotate amt = .ok x → (w.step (.rotate k amt)).2 = none ∧
      ∃ c, (w.step (.rotate k amt)).1.boxes = w.boxes ++ [c] ∧ plain (w.step (.rotate k amt)).1 c = x) ∧
    ∀ amt e, (plain w b).rotate amt = .error e → w.step (.rotate k amt) = (w, some e) := by
  refine ⟨fun tl br p => ⟨_, rfl, by simp [plain, World.step, World.make]⟩, fun tl br => ?_, fun v => ?_, ?_, ?_, fun amt x h => ?_, fun amt e h => ?_⟩
  · simp only [World.step, hk]
    exact ⟨_, rfl, rfl⟩
  · simp only [World.step, hk]
    exact ⟨_, rfl, by simp [plain, World.make, AABB.shift]⟩
  · simp only [World.step, hk]
    exact ⟨_, rfl, by simp [plain, World.bound, AABB.getBoundingBox]⟩
  · simp only [World.step, hk, hj]
    exact ⟨_, rfl, by simp [plain, World.make, extendAabb, AABB.worldTopLeft, AABB.worldBotRight, World.topLeft, World.botRight]⟩
  · simp only [World.step, hk]
    by_cases h4 : amt % 4 ≠ 0
    · rw [AABB.rotate, if_pos h4] at h; cases h
    · rw [AABB.rotate, if_neg h4] at h
      cases h
      rw [if_neg h4]
      exact ⟨rfl, _, rfl, rfl⟩
  · simp only [World.step, hk]
    by_cases h4 : amt % 4 ≠ 0
    · rw [AABB.rotate, if_pos h4] at h; cases h; rw [if_pos h4]
    · rw [AABB.rotate, if_neg h4] at h; cases h

/-- A box whose corners agree is judged by the test against rectangles as `C09` says of boxes, and boxes are equal exactly if they have the same numbers; so equal boxes whose
corners agree are judged alike. -/
theorem C127_shape (w : World) (a b : Box) : (Agree w b → w.shape b = Rect.aabbToShape (plain w b)) ∧ (w.same a b = true ↔ plain w a = plain w b) ∧
    (w.same a b = true → Agree w a → Agree w b → ∀ s, Rect.rectOverlapsRect (w.shape a) s = Rect.rectOverlapsRect (w.shape b) s) := by
  have h1 : ∀ b, Agree w b → w.shape b = Rect.aabbToShape (plain w b) := by
    intro b hb
    rw [agree_iff] at hb
    rw [World.shape, World.getPoints, hb]
    rfl
  have h2 : w.same a b = true ↔ plain w a = plain w b := by
    simp only [World.same, plain, Bool.and_eq_true, decide_eq_true_eq, AABB.mk.injEq]
    exact ⟨fun ⟨x, y, z⟩ => ⟨y, z, x⟩, fun ⟨y, z, x⟩ => ⟨x, y, z⟩⟩
  refine ⟨h1 b, h2, fun h ha hb s => ?_⟩
  rw [h1 a ha, h1 b hb, h2.mp h]

/-- A new box leaves the boxes before where they are. -/
theorem C127_stay (l : List Op) (o : Op) (ho : ∀ ks v, o ≠ .collide ks v) (b : Box) (hb : b ∈ (World.empty.run l).boxes) :
    plain ((World.empty.run l).step o).1 b = plain (World.empty.run l) b := by
  have hlt : ∀ (l : List Op) (w : World), (∀ b ∈ w.boxes, b.pos < w.next) → ∀ b ∈ (w.run l).boxes, b.pos < (w.run l).next := by
    intro l
    induction l with
    | nil => intro w h; exact h
    | cons o l ih =>
      intro w h
      rw [World.run]
      refine ih _ ?_
      have one : ∀ w' : World, (∃ b : Box, w'.boxes = w.boxes ++ [b] ∧ b.pos < w'.next ∧ w.next ≤ w'.next) → ∀ b ∈ w'.boxes, b.pos < w'.next := by
        rintro w' ⟨c, h1, h2, h3⟩ b hb
        rw [h1] at hb
        rcases List.mem_append.mp hb with hb | hb
        · exact lt_of_lt_of_le (h b hb) h3
        · rw [List.mem_singleton.mp hb]; exact h2
      have hmem : ∀ {k : ℕ} {b : Box}, w.boxes[k]? = some b → b.pos < w.next := fun hk => h _ (List.mem_of_getElem? hk)
      cases o with
      | new tl br p =>
        cases p with
        | lit p => exact one _ ⟨_, rfl, Nat.lt_succ_self _, Nat.le_succ _⟩
        | of k =>
          rw [World.step]
          cases hk : w.boxes[k]? with
          | none => exact h
          | some b => exact one _ ⟨_, rfl, (hmem hk : b.pos < w.next), le_refl _⟩
      | rotate k amt =>
        rw [World.step]
        cases hk : w.boxes[k]? with
        | none => exact h
        | some b =>
          simp only []
          by_cases h4 : amt % 4 ≠ 0
          · rw [if_pos h4]; exact h
          · rw [if_neg h4]; exact one _ ⟨_, rfl, (hmem hk : b.pos < w.next), le_refl _⟩
      | add k v =>
        rw [World.step]
        cases w.boxes[k]? with
        | none => exact h
        | some b => exact one _ ⟨_, rfl, Nat.lt_succ_self _, Nat.le_succ _⟩
      | bound k =>
        rw [World.step]
        cases w.boxes[k]? with
        | none => exact h
        | some b => exact one _ ⟨_, rfl, Nat.lt_succ_self _, Nat.le_succ _⟩
      | extend j k =>
        rw [World.step]
        cases w.boxes[j]? with
        | none => exact h
        | some a =>
          cases w.boxes[k]? with
          | none => exact h
          | some b => exact one _ ⟨_, rfl, Nat.lt_succ_self _, Nat.le_succ _⟩
      | collide ks v =>
        have hx : ∀ (ks : List ℕ) (w : World), (w.pushAll v ks).next = w.next := by
          intro ks
          induction ks with
          | nil => intro w; rfl
          | cons k ks ihk =>
            intro w
            rw [World.pushAll]
            cases w.boxes[k]? with
            | none => exact ihk w
            | some b => rw [ihk]; rfl
        show ∀ b ∈ (w.pushAll v ks).boxes, b.pos < (w.pushAll v ks).next
        rw [pushAll_boxes, hx]; exact h
  have hb' := hlt l World.empty (by simp [World.empty]) b hb
  generalize World.empty.run l = w at hb hb'
  have hne : b.pos ≠ w.next := Nat.ne_of_lt hb'
  cases o with
  | new tl br p =>
    cases p with
    | lit p => simp [plain, World.step, World.make, hne]
    | of k =>
      rw [World.step]
      cases w.boxes[k]? <;> rfl
  | rotate k amt =>
    rw [World.step]
    cases w.boxes[k]? with
    | none => rfl
    | some b =>
      simp only []
      by_cases h4 : amt % 4 ≠ 0
      · rw [if_pos h4]
      · rw [if_neg h4]; rfl
  | add k v =>
    rw [World.step]
    cases w.boxes[k]? with
    | none => rfl
    | some c => simp [plain, World.make, hne]
  | bound k =>
    rw [World.step]
    cases w.boxes[k]? with
    | none => rfl
    | some c => simp [plain, World.bound, hne]
  | extend j k =>
    rw [World.step]
    cases w.boxes[j]? with
    | none => rfl
    | some a =>
      cases w.boxes[k]? with
      | none => rfl
      | some c => simp [plain, World.make, hne]
  | collide ks v => exact absurd rfl (ho ks v)

/-- How many boxes of the list have the vector. -/
def shares (w : World) (ks : List ℕ) (c : ℕ) : ℕ := (ks.filter fun k => (w.boxes[k]?).any fun b => b.pos == c).length

theorem pushAll_cell (v : Vec) (c : ℕ) (ks : List ℕ) : ∀ w : World,
    (w.pushAll v ks).cell c = ⟨(w.cell c).x + shares w ks c * v.x, (w.cell c).y + shares w ks c * v.y⟩ := by
  induction ks with
  | nil => intro w; simp [World.pushAll, shares]
  | cons k ks ih =>
    intro w
    rw [World.pushAll]
    cases hk : w.boxes[k]? with
    | none => simp only []; rw [ih]; simp [shares, hk]
    | some b =>
      simp only []
      rw [ih]
      have hs : shares (w.push b.pos v) ks c = shares w ks c := rfl
      rw [hs]
      by_cases hc : b.pos = c
      · subst hc
        have h1 : shares w (k :: ks) b.pos = shares w ks b.pos + 1 := by simp [shares, hk]
        rw [h1]
        simp only [World.push, if_true, Vec.mk.injEq]
        push_cast
        constructor <;> ring
      · have h1 : shares w (k :: ks) c = shares w ks c := by simp [shares, hk, hc]
        rw [h1]
        simp [World.push, Ne.symm hc]

/-- A set made at a place moves a box by that place once for each box of the set that has the same vector: corners, points and all. -/
theorem C127_push (w : World) (ks : List ℕ) (v : Vec) (b : Box) :
    (w.step (.collide ks v)).1.boxes = w.boxes ∧
    (w.step (.collide ks v)).1.topLeft b = w.topLeft b + ⟨shares w ks b.pos * v.x, shares w ks b.pos * v.y⟩ ∧
    (w.step (.collide ks v)).1.botRight b = w.botRight b + ⟨shares w ks b.pos * v.x, shares w ks b.pos * v.y⟩ ∧
    (w.step (.collide ks v)).1.getPoints b = (w.getPoints b).map (· + ⟨shares w ks b.pos * v.x, shares w ks b.pos * v.y⟩) := by
  simp only [World.step]
  refine ⟨pushAll_boxes v ks w, ?_, ?_, ?_⟩
  · simp only [World.topLeft, pushAll_cell, Vec.ext_iff, Vec.add_x, Vec.add_y]; constructor <;> ring
  · simp only [World.botRight, pushAll_cell, Vec.ext_iff, Vec.add_x, Vec.add_y]; constructor <;> ring
  · simp only [World.getPoints, pushAll_cell, List.map_map]
    refine List.map_congr_left fun p _ => ?_
    simp only [Function.comp, Vec.ext_iff, Vec.add_x, Vec.add_y]; constructor <;> ring

/-- Steps that make vectors of their own. -/
def Own : Op → Prop
  | .new _ _ (.of _) => False
  | .rotate _ _ => False
  | _ => True

theorem own_inv (l : List Op) : ∀ w : World, (∀ o ∈ l, Own o) → (w.boxes.map Box.pos).Nodup → (∀ b ∈ w.boxes, b.pos < w.next) →
    ((w.run l).boxes.map Box.pos).Nodup := by
  induction l with
  | nil => intro w _ h _; exact h
  | cons o l ih =>
    intro w ho hn hlt
    have hl : ∀ o ∈ l, Own o := fun o h => ho o (by simp [h])
    have mk : ∀ w' : World, (∃ b : Box, w'.boxes = w.boxes ++ [b] ∧ b.pos = w.next ∧ w'.next = w.next + 1) → ((w'.run l).boxes.map Box.pos).Nodup := by
      rintro w' ⟨b, h1, h2, h3⟩
      refine ih w' hl ?_ ?_
      · rw [h1, List.map_append, List.nodup_append]
        refine ⟨hn, by simp, ?_⟩
        intro x hx y hy
        obtain ⟨a, ha, rfl⟩ := List.mem_map.mp hx
        simp only [List.map_cons, List.map_nil, List.mem_singleton] at hy
        have := hlt a ha
        omega
      · intro a ha
        rw [h1] at ha
        rcases List.mem_append.mp ha with ha | ha
        · have := hlt a ha; omega
        · rw [List.mem_singleton.mp ha]; omega
    rw [World.run]
    have hown := ho o (by simp)
    cases o with
    | new tl br p =>
      cases p with
      | lit p => exact mk _ ⟨_, rfl, rfl, rfl⟩
      | of k => exact absurd hown id
    | rotate k amt => exact absurd hown id
    | add k v =>
      rw [World.step]
      cases w.boxes[k]? with
      | none => exact ih w hl hn hlt
      | some b => exact mk _ ⟨_, rfl, rfl, rfl⟩
    | bound k =>
      rw [World.step]
      cases w.boxes[k]? with
      | none => exact ih w hl hn hlt
      | some b => exact mk _ ⟨_, rfl, rfl, rfl⟩
    | extend j k =>
      rw [World.step]
      cases w.boxes[j]? with
      | none => exact ih w hl hn hlt
      | some a =>
        cases w.boxes[k]? with
        | none => exact ih w hl hn hlt
        | some b => exact mk _ ⟨_, rfl, rfl, rfl⟩
    | collide ks v =>
      have hb := pushAll_boxes v ks w
      have hx : ∀ (ks : List ℕ) (w : World), (w.pushAll v ks).next = w.next := by
        intro ks
        induction ks with
        | nil => intro w; rfl
        | cons k ks ihk =>
          intro w
          rw [World.pushAll]
          cases w.boxes[k]? with
          | none => exact ihk w
          | some b => rw [ihk]; rfl
      refine ih _ hl ?_ ?_
      · show ((w.pushAll v ks).boxes.map Box.pos).Nodup
        rw [hb]; exact hn
      · show ∀ b ∈ (w.pushAll v ks).boxes, b.pos < (w.pushAll v ks).next
        rw [hb, hx]; exact hlt

/-- After a program in which no box is turned or placed at the vector of another, a set moves the boxes that it is given, each once, and no others.  Turned boxes and
boxes placed at a vector are missing: they move with the one that they have the vector from (`C127_alias_refuted`). -/
theorem C127_moves_partial {l : List Op} (hl : ∀ o ∈ l, Own o) {ks : List ℕ} (hk : ks.Nodup) (v : Vec) {k : ℕ} {b : Box}
    (hb : (World.empty.run l).boxes[k]? = some b) :
    ((World.empty.run l).step (.collide ks v)).1.topLeft b = (World.empty.run l).topLeft b + (if k ∈ ks then v else 0) ∧
    ((World.empty.run l).step (.collide ks v)).1.botRight b = (World.empty.run l).botRight b + (if k ∈ ks then v else 0) := by
  have hn := own_inv l World.empty hl (by simp [World.empty]) (by simp [World.empty])
  generalize World.empty.run l = w at hn hb
  have huniq : ∀ j, (w.boxes[j]?).any (fun a => a.pos == b.pos) = true → j = k := by
    intro j hj
    cases hjb : w.boxes[j]? with
    | none => rw [hjb] at hj; cases hj
    | some a =>
      rw [hjb] at hj
      have hp : a.pos = b.pos := by simpa using hj
      have h1 : (w.boxes.map Box.pos)[j]? = some b.pos := by rw [List.getElem?_map, hjb, Option.map_some, hp]
      have h2 : (w.boxes.map Box.pos)[k]? = some b.pos := by rw [List.getElem?_map, hb, Option.map_some]
      have hlt : j < (w.boxes.map Box.pos).length := by
        rcases Nat.lt_or_ge j (w.boxes.map Box.pos).length with h | h
        · exact h
        · rw [List.getElem?_eq_none h] at h1; cases h1
      exact (List.getElem?_inj hlt hn).mp (h1.trans h2.symm)
  have hcount : shares w ks b.pos = if k ∈ ks then 1 else 0 := by
    have hf : (ks.filter fun j => (w.boxes[j]?).any fun a => a.pos == b.pos) = ks.filter fun j => j == k := by
      refine List.filter_congr fun j _ => ?_
      by_cases hjk : j = k
      · subst hjk; simp [hb]
      · have h1 : (j == k) = false := by simpa using hjk
        rw [h1]
        cases hc : (w.boxes[j]?).any (fun a => a.pos == b.pos) with
        | false => rfl
        | true => exact absurd (huniq j hc) hjk
    rw [shares, hf, ← List.countP_eq_length_filter]
    change ks.count k = _
    by_cases h : k ∈ ks
    · rw [if_pos h]; exact List.nodup_iff_count_eq_one.mp hk k h
    · rw [if_neg h]; exact List.count_eq_zero_of_not_mem h
  obtain ⟨-, h1, h2, -⟩ := C127_push w ks v b
  rw [h1, h2, hcount]
  by_cases h : k ∈ ks
  · simp [h]
  · simp only [h, if_false, Nat.cast_zero, zero_mul]
    exact ⟨rfl, rfl⟩

/-- The bounding box of a box away from the origin equals the box made afresh with the same numbers, spans what the box spans, and yet does not overlap a rectangle that
lies on it, which the box does. -/
theorem C127_corners_refuted : ∃ a b c : Box, ∃ w : World, w = World.empty.run
      [.new ⟨-1, -1⟩ ⟨1, 1⟩ (.lit ⟨10, 0⟩), .bound 0, .new ⟨9, -1⟩ ⟨11, 1⟩ (.lit 0)] ∧ w.boxes = [a, b, c] ∧
    w.same b c = true ∧ w.topLeft b = w.topLeft a ∧ w.botRight b = w.botRight a ∧ ¬ Agree w b ∧
    ∃ r, Rect.mkRectangle ⟨10, 0⟩ 1 1 1 0 = .ok r ∧ Rect.rectOverlapsRect (w.shape a) r.toShape = true ∧
      Rect.rectOverlapsRect (w.shape c) r.toShape = true ∧ Rect.rectOverlapsRect (w.shape b) r.toShape = false := by
  refine ⟨_, _, _, _, rfl, rfl, ?_, ?_, ?_, ?_, _, rfl, ?_, ?_, ?_⟩
  · decide +kernel
  · decide +kernel
  · decide +kernel
  · unfold Agree; decide +kernel
  · decide +kernel
  · decide +kernel
  · decide +kernel

/-- A box that was turned has the vector of the box it was made from: a set made of the one moves the other. -/
theorem C127_alias_refuted : ∃ a b : Box, ∃ w : World, w = World.empty.run [.new ⟨-1, -2⟩ ⟨1, 2⟩ (.lit 0), .rotate 0 4] ∧ w.boxes = [a, b] ∧
    w.topLeft a = ⟨-1, -2⟩ ∧ w.topLeft b = ⟨-2, -1⟩ ∧
    (w.step (.collide [1] ⟨5, 0⟩)).1.topLeft b = ⟨3, -1⟩ ∧ (w.step (.collide [1] ⟨5, 0⟩)).1.topLeft a = ⟨4, -2⟩ := by
  refine ⟨_, _, _, rfl, rfl, ?_, ?_, ?_, ?_⟩ <;> decide +kernel

/-- A program with a bounding box at the origin, a turn, a sum and a set. -/
example : Calm World.empty [.new ⟨-1, -2⟩ ⟨1, 2⟩ (.lit 0), .bound 0, .rotate 1 4, .add 2 ⟨3, 0⟩, .collide [1] ⟨1, 1⟩, .extend 0 3] := by
  refine ⟨by simp, ?_, by simp, by simp, by simp, by simp, trivial⟩
  intro k b hk hb
  cases hk
  cases hb
  rfl

/-- A program whose boxes have vectors of their own, and a set of two of them. -/
example : (∀ o ∈ [Op.new ⟨-1, -2⟩ ⟨1, 2⟩ (.lit 0), .bound 0, .add 1 ⟨3, 0⟩], Own o) ∧ [0, 2].Nodup ∧
    ∃ b, (World.empty.run [.new ⟨-1, -2⟩ ⟨1, 2⟩ (.lit 0), .bound 0, .add 1 ⟨3, 0⟩]).boxes[2]? = some b ∧
      (World.empty.run [.new ⟨-1, -2⟩ ⟨1, 2⟩ (.lit 0), .bound 0, .add 1 ⟨3, 0⟩]).topLeft b = ⟨2, -2⟩ := by
  refine ⟨by simp [Own], by decide, _, rfl, by decide +kernel⟩

/-- A set that holds a box twice moves it twice. -/
example : shares (World.empty.run [.new ⟨-1, -2⟩ ⟨1, 2⟩ (.lit 0)]) [0, 0] 0 = 2 := by decide +kernel

end BoxPoints
end Draftsman
