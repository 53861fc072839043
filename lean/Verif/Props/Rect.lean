import Mathlib.Tactic.NormNum
import Mathlib.Tactic.Positivity
import Verif.Proof.Rect
/-
C09, C10: the rotated-rectangle overlap test and the bounding box of a rotated rectangle.
-/
set_option linter.unusedSimpArgs false

namespace Draftsman.Rect

/-! ### Specification -/

/-- A filled rectangle: centre, direction of its first axis, half extents. -/
structure OBox where
  center : Vec
  c : ℚ
  s : ℚ
  a : ℚ
  b : ℚ

/-- A proper rectangle: unit axis direction, positive extents. -/
def OBox.Good (X : OBox) : Prop := X.c ^ 2 + X.s ^ 2 = 1 ∧ 0 < X.a ∧ 0 < X.b

/-- The point with coordinates `(u, v)` in the frame of the rectangle. -/
def OBox.at (X : OBox) (u v : ℚ) : Vec :=
  ⟨X.center.x + (u * X.c - v * X.s), X.center.y + (u * X.s + v * X.c)⟩

/-- The interior of the rectangle. -/
def OBox.Interior (X : OBox) (p : Vec) : Prop :=
  ∃ u v, |u| < X.a ∧ |v| < X.b ∧ p = X.at u v

/-- The closed rectangle. -/
def OBox.Closed (X : OBox) (p : Vec) : Prop :=
  ∃ u v, |u| ≤ X.a ∧ |v| ≤ X.b ∧ p = X.at u v

/-- The filled rectangle a `Rectangle` stands for. -/
def Rectangle.box (r : Rectangle) : OBox := ⟨r.position, r.cos, r.sin, r.width / 2, r.height / 2⟩

/-- The collision shapes of the library, as the user describes them. -/
inductive Solid where
  | rect (position : Vec) (width height cos sin : ℚ)
  | aabb (box : AABB)

/-- Positive extents and a genuine angle. -/
def Solid.Good : Solid → Prop
  | .rect _ w h c s => 0 < w ∧ 0 < h ∧ c ^ 2 + s ^ 2 = 1
  | .aabb A => A.topLeft.x < A.botRight.x ∧ A.topLeft.y < A.botRight.y

/-- Points strictly inside a solid. -/
def Solid.Interior : Solid → Vec → Prop
  | .rect p w h c s, q => (OBox.mk p c s (w/2) (h/2)).Interior q
  | .aabb A, q =>
      A.topLeft.x + A.position.x < q.x ∧ q.x < A.botRight.x + A.position.x ∧
      A.topLeft.y + A.position.y < q.y ∧ q.y < A.botRight.y + A.position.y

/-- The object built by the library for a solid. -/
def Solid.shape : Solid → Except PyErr Shape
  | .rect p w h c s => (mkRectangle p w h c s).map Rectangle.toShape
  | .aabb A => .ok (aabbToShape A)

/-! ### Internal: shapes that describe an oriented box -/

/-- The points of a shape are the corners of a box. -/
def Corners (X : OBox) (l : List Vec) : Prop :=
  l ≠ [] ∧ (∀ p ∈ l, ∃ σ τ : ℚ, |σ| ≤ 1 ∧ |τ| ≤ 1 ∧ p = X.at (σ * X.a) (τ * X.b)) ∧
  ∀ σ τ : ℚ, (σ = 1 ∨ σ = -1) → (τ = 1 ∨ τ = -1) → X.at (σ * X.a) (τ * X.b) ∈ l

/-- The normals of a shape are the two axes of a box, up to sign. -/
def Axes (X : OBox) (l : List Vec) : Prop :=
  (∀ n ∈ l, n = ⟨X.c, X.s⟩ ∨ n = ⟨-X.c, -X.s⟩ ∨ n = ⟨-X.s, X.c⟩ ∨ n = ⟨X.s, -X.c⟩) ∧
  (∃ σ : ℚ, (σ = 1 ∨ σ = -1) ∧ (⟨σ * X.c, σ * X.s⟩ : Vec) ∈ l) ∧
  ∃ σ : ℚ, (σ = 1 ∨ σ = -1) ∧ (⟨σ * -X.s, σ * X.c⟩ : Vec) ∈ l

/-- Half the extent of a box along an axis. -/
def OBox.reach (X : OBox) (n : Vec) : ℚ :=
  X.a * |X.c * n.x + X.s * n.y| + X.b * |-X.s * n.x + X.c * n.y|

theorem dot_at (X : OBox) (u v : ℚ) (n : Vec) :
    dot (X.at u v) n = dot X.center n + u * (X.c * n.x + X.s * n.y) + v * (-X.s * n.x + X.c * n.y) := by
  simp only [dot, OBox.at]; ring

theorem exists_sign (r : ℚ) : ∃ σ : ℚ, (σ = 1 ∨ σ = -1) ∧ σ * r = |r| := by
  rcases abs_cases r with ⟨h, _⟩ | ⟨h, _⟩
  · exact ⟨1, .inl rfl, by rw [h]; ring⟩
  · exact ⟨-1, .inr rfl, by rw [h]; ring⟩

theorem abs_le_mul {σ a α : ℚ} (hσ : |σ| ≤ 1) (ha : 0 < a) :
    -(a * |α|) ≤ σ * a * α ∧ σ * a * α ≤ a * |α| := by
  rw [← abs_le, abs_mul, abs_mul, abs_of_pos ha]
  have := abs_nonneg α
  nlinarith [mul_nonneg ha.le this]

theorem flatten_corners {X : OBox} (hX : X.Good) {l : List Vec} (hl : Corners X l) (n : Vec) :
    flattenPointsOn l n = (some (dot X.center n - X.reach n), some (dot X.center n + X.reach n)) := by
  obtain ⟨-, ha, hb⟩ := hX
  obtain ⟨hne, hsub, hall⟩ := hl
  obtain ⟨lo, hi, he, ⟨p, hp, hlo⟩, ⟨q, hq, hhi⟩, hb'⟩ := flatten_spec l n hne
  obtain ⟨σ, hσ, hσ'⟩ := exists_sign (X.c * n.x + X.s * n.y)
  obtain ⟨τ, hτ, hτ'⟩ := exists_sign (-X.s * n.x + X.c * n.y)
  have hneg : ∀ {σ : ℚ}, (σ = 1 ∨ σ = -1) → (-σ = 1 ∨ -σ = -1) := by
    rintro σ (rfl | rfl) <;> simp
  have up := (hb' _ (hall σ τ hσ hτ)).2
  have dn := (hb' _ (hall (-σ) (-τ) (hneg hσ) (hneg hτ))).1
  rw [dot_at] at up dn
  have e1 : σ * X.a * (X.c * n.x + X.s * n.y) = X.a * |X.c * n.x + X.s * n.y| := by
    rw [← hσ']; ring
  have e2 : τ * X.b * (-X.s * n.x + X.c * n.y) = X.b * |-X.s * n.x + X.c * n.y| := by
    rw [← hτ']; ring
  obtain ⟨σ₁, τ₁, h1, h2, rfl⟩ := hsub p hp
  obtain ⟨σ₂, τ₂, h3, h4, rfl⟩ := hsub q hq
  rw [dot_at] at hlo hhi
  have b1 := (abs_le_mul (α := X.c * n.x + X.s * n.y) h1 ha).1
  have b2 := (abs_le_mul (α := -X.s * n.x + X.c * n.y) h2 hb).1
  have b3 := (abs_le_mul (α := X.c * n.x + X.s * n.y) h3 ha).2
  have b4 := (abs_le_mul (α := -X.s * n.x + X.c * n.y) h4 hb).2
  have r1 : lo = dot X.center n - X.reach n := by
    apply le_antisymm
    · unfold OBox.reach; linarith
    · unfold OBox.reach; linarith
  have r2 : hi = dot X.center n + X.reach n := by
    apply le_antisymm
    · unfold OBox.reach; linarith
    · unfold OBox.reach; linarith
  rw [he, r1, r2]

theorem separating_iff {X Y : OBox} (hX : X.Good) (hY : Y.Good) {l m : List Vec} (hl : Corners X l)
    (hm : Corners Y m) (n : Vec) :
    isSeparatingAxis l m n = false ↔ |dot Y.center n - dot X.center n| < X.reach n + Y.reach n := by
  simp only [isSeparatingAxis, flatten_corners hX hl, flatten_corners hY hm, geRange,
    Bool.or_eq_false_iff, decide_eq_false_iff_not, ge_iff_le, not_le, abs_lt]
  constructor <;> rintro ⟨h1, h2⟩ <;> constructor <;> linarith

/-- The projection of an interior point is strictly inside the projection of the box. -/
theorem interior_reach {X : OBox} (hX : X.Good) {p n : Vec} (hp : X.Interior p)
    (hn : n.x ≠ 0 ∨ n.y ≠ 0) : |dot p n - dot X.center n| < X.reach n := by
  obtain ⟨hcs, ha, hb⟩ := hX
  obtain ⟨u, v, hu, hv, rfl⟩ := hp
  rw [dot_at, OBox.reach]
  obtain ⟨α, hα⟩ : ∃ α, α = X.c * n.x + X.s * n.y := ⟨_, rfl⟩
  obtain ⟨β, hβ⟩ : ∃ β, β = -X.s * n.x + X.c * n.y := ⟨_, rfl⟩
  rw [← hα, ← hβ]
  have hnz : α ≠ 0 ∨ β ≠ 0 := by
    by_contra hc
    push Not at hc
    have hx : n.x = X.c * α - X.s * β := by rw [hα, hβ]; linear_combination -(n.x) * hcs
    have hy : n.y = X.s * α + X.c * β := by rw [hα, hβ]; linear_combination -(n.y) * hcs
    rw [hc.1, hc.2] at hx hy
    simp at hx hy
    rcases hn with h | h
    · exact h hx
    · exact h hy
  have e : dot X.center n + u * α + v * β - dot X.center n = u * α + v * β := by ring
  rw [e]
  have t := abs_add_le (u * α) (v * β)
  rw [abs_mul, abs_mul] at t
  have hα0 := abs_nonneg α
  have hβ0 := abs_nonneg β
  have k1 : |u| * |α| ≤ X.a * |α| := mul_le_mul_of_nonneg_right hu.le hα0
  have k2 : |v| * |β| ≤ X.b * |β| := mul_le_mul_of_nonneg_right hv.le hβ0
  rcases hnz with h | h
  · have := mul_lt_mul_of_pos_right hu (abs_pos.2 h)
    linarith
  · have := mul_lt_mul_of_pos_right hv (abs_pos.2 h)
    linarith

/-- A reported separation is right whatever (non-zero) normals are tried. -/
theorem disjoint_sound {X Y : OBox} (hX : X.Good) (hY : Y.Good) {a b : Shape}
    (ha : Corners X a.points) (hb : Corners Y b.points)
    (hn : ∀ n ∈ a.normals ++ b.normals, n.x ≠ 0 ∨ n.y ≠ 0)
    {p : Vec} (h1 : X.Interior p) (h2 : Y.Interior p) : rectOverlapsRect a b = true := by
  have key : ∀ n ∈ a.normals ++ b.normals, isSeparatingAxis a.points b.points n = false := by
    intro n hmem
    rw [separating_iff hX hY ha hb]
    have k1 := interior_reach hX h1 (hn n hmem)
    have k2 := interior_reach hY h2 (hn n hmem)
    rw [abs_lt] at k1 k2 ⊢
    constructor <;> linarith
  unfold rectOverlapsRect
  rw [if_neg, if_neg]
  · simp only [List.any_eq_true, not_exists, not_and, Bool.not_eq_true]
    exact fun n hm => key n (by simp [hm])
  · simp only [List.any_eq_true, not_exists, not_and, Bool.not_eq_true]
    exact fun n hm => key n (by simp [hm])

theorem overlap_iff_boxes {X Y : OBox} (hX : X.Good) (hY : Y.Good) {a b : Shape}
    (ha : Corners X a.points) (hb : Corners Y b.points) (na : Axes X a.normals)
    (nb : Axes Y b.normals) :
    rectOverlapsRect a b = true ↔ ∃ p, X.Interior p ∧ Y.Interior p := by
  constructor
  · intro h
    have hall : ∀ n ∈ a.normals ++ b.normals, isSeparatingAxis a.points b.points n = false := by
      unfold rectOverlapsRect at h
      split_ifs at h with h1 h2
      simp only [List.any_eq_true, not_exists, not_and, Bool.not_eq_true] at h1 h2
      intro n hm
      rcases List.mem_append.1 hm with hm | hm
      · exact h1 n hm
      · exact h2 n hm
    -- the condition for `n` and for `σ n` is the same
    have cond : ∀ (nx ny : ℚ) (σ : ℚ), (σ = 1 ∨ σ = -1) →
        (⟨σ * nx, σ * ny⟩ : Vec) ∈ a.normals ++ b.normals →
        |dot Y.center ⟨nx, ny⟩ - dot X.center ⟨nx, ny⟩| < X.reach ⟨nx, ny⟩ + Y.reach ⟨nx, ny⟩ := by
      rintro nx ny σ hσ hm
      have := (separating_iff hX hY ha hb _).1 (hall _ hm)
      rcases hσ with rfl | rfl
      · simpa using this
      · have e1 : ∀ V : Vec, dot V ⟨-1 * nx, -1 * ny⟩ = - dot V ⟨nx, ny⟩ := by
          intro V; simp only [dot]; ring
        have e2 : ∀ Z : OBox, Z.reach ⟨-1 * nx, -1 * ny⟩ = Z.reach ⟨nx, ny⟩ := by
          intro Z
          simp only [OBox.reach]
          rw [show Z.c * (-1 * nx) + Z.s * (-1 * ny) = -(Z.c * nx + Z.s * ny) by ring,
            show -Z.s * (-1 * nx) + Z.c * (-1 * ny) = -(-Z.s * nx + Z.c * ny) by ring, abs_neg, abs_neg]
        rw [e1, e1, e2, e2] at this
        rwa [show -dot Y.center ⟨nx, ny⟩ - -dot X.center ⟨nx, ny⟩ =
          -(dot Y.center ⟨nx, ny⟩ - dot X.center ⟨nx, ny⟩) by ring, abs_neg] at this
    obtain ⟨-, ⟨σ1, hσ1, m1⟩, σ2, hσ2, m2⟩ := na
    obtain ⟨-, ⟨σ3, hσ3, m3⟩, σ4, hσ4, m4⟩ := nb
    have k1 := cond _ _ σ1 hσ1 (List.mem_append_left _ m1)
    have k2 := cond _ _ σ2 hσ2 (List.mem_append_left _ m2)
    have k3 := cond _ _ σ3 hσ3 (List.mem_append_right _ m3)
    have k4 := cond _ _ σ4 hσ4 (List.mem_append_right _ m4)
    obtain ⟨hXcs, hXa, hXb⟩ := hX
    obtain ⟨hYcs, hYa, hYb⟩ := hY
    obtain ⟨C, hC⟩ : ∃ C, C = X.c * Y.c + X.s * Y.s := ⟨_, rfl⟩
    obtain ⟨S, hS⟩ : ∃ S, S = X.c * Y.s - X.s * Y.c := ⟨_, rfl⟩
    obtain ⟨d1, hd1⟩ : ∃ d, d = (Y.center.x - X.center.x) * X.c + (Y.center.y - X.center.y) * X.s := ⟨_, rfl⟩
    obtain ⟨d2, hd2⟩ : ∃ d, d = -(Y.center.x - X.center.x) * X.s + (Y.center.y - X.center.y) * X.c := ⟨_, rfl⟩
    have hCS : C ^ 2 + S ^ 2 = 1 := by
      rw [hC, hS]
      have : (X.c * Y.c + X.s * Y.s) ^ 2 + (X.c * Y.s - X.s * Y.c) ^ 2
          = (X.c ^ 2 + X.s ^ 2) * (Y.c ^ 2 + Y.s ^ 2) := by ring
      rw [this, hXcs, hYcs]; ring
    have z1 : X.c * X.c + X.s * X.s = 1 := by linear_combination hXcs
    have z2 : Y.c * Y.c + Y.s * Y.s = 1 := by linear_combination hYcs
    have q1 : |d1| < X.a + |C| * Y.a + |S| * Y.b := by
      have e1 : dot Y.center ⟨X.c, X.s⟩ - dot X.center ⟨X.c, X.s⟩ = d1 := by
        simp only [dot, hd1]; ring
      have e2 : X.reach ⟨X.c, X.s⟩ = X.a := by
        simp only [OBox.reach, z1]
        rw [show -X.s * X.c + X.c * X.s = 0 by ring]; simp
      have e3 : Y.reach ⟨X.c, X.s⟩ = |C| * Y.a + |S| * Y.b := by
        simp only [OBox.reach]
        rw [show Y.c * X.c + Y.s * X.s = C by rw [hC]; ring,
          show -Y.s * X.c + Y.c * X.s = -S by rw [hS]; ring, abs_neg]; ring
      rw [e1, e2, e3] at k1; linarith
    have q2 : |d2| < X.b + |S| * Y.a + |C| * Y.b := by
      have e1 : dot Y.center ⟨-X.s, X.c⟩ - dot X.center ⟨-X.s, X.c⟩ = d2 := by
        simp only [dot, hd2]; ring
      have e2 : X.reach ⟨-X.s, X.c⟩ = X.b := by
        simp only [OBox.reach]
        rw [show X.c * -X.s + X.s * X.c = 0 by ring,
          show -X.s * -X.s + X.c * X.c = 1 by linear_combination z1]; simp
      have e3 : Y.reach ⟨-X.s, X.c⟩ = |S| * Y.a + |C| * Y.b := by
        simp only [OBox.reach]
        rw [show Y.c * -X.s + Y.s * X.c = S by rw [hS]; ring,
          show -Y.s * -X.s + Y.c * X.c = C by rw [hC]; ring]; ring
      rw [e1, e2, e3] at k2; linarith
    have q3 : |C * d1 + S * d2| < Y.a + |C| * X.a + |S| * X.b := by
      have e1 : dot Y.center ⟨Y.c, Y.s⟩ - dot X.center ⟨Y.c, Y.s⟩ = C * d1 + S * d2 := by
        simp only [dot, hd1, hd2, hC, hS]
        linear_combination (-(Y.center.x - X.center.x) * Y.c - (Y.center.y - X.center.y) * Y.s) * hXcs
      have e2 : Y.reach ⟨Y.c, Y.s⟩ = Y.a := by
        simp only [OBox.reach, z2]
        rw [show -Y.s * Y.c + Y.c * Y.s = 0 by ring]; simp
      have e3 : X.reach ⟨Y.c, Y.s⟩ = |C| * X.a + |S| * X.b := by
        simp only [OBox.reach]
        rw [show X.c * Y.c + X.s * Y.s = C by rw [hC],
          show -X.s * Y.c + X.c * Y.s = S by rw [hS]; ring]; ring
      rw [e1, e2, e3] at k3; linarith
    have q4 : |-S * d1 + C * d2| < Y.b + |S| * X.a + |C| * X.b := by
      have e1 : dot Y.center ⟨-Y.s, Y.c⟩ - dot X.center ⟨-Y.s, Y.c⟩ = -S * d1 + C * d2 := by
        simp only [dot, hd1, hd2, hC, hS]
        linear_combination ((Y.center.x - X.center.x) * Y.s - (Y.center.y - X.center.y) * Y.c) * hXcs
      have e2 : Y.reach ⟨-Y.s, Y.c⟩ = Y.b := by
        simp only [OBox.reach]
        rw [show Y.c * -Y.s + Y.s * Y.c = 0 by ring,
          show -Y.s * -Y.s + Y.c * Y.c = 1 by linear_combination z2]; simp
      have e3 : X.reach ⟨-Y.s, Y.c⟩ = |S| * X.a + |C| * X.b := by
        simp only [OBox.reach]
        rw [show X.c * -Y.s + X.s * Y.c = -S by rw [hS]; ring,
          show -X.s * -Y.s + X.c * Y.c = C by rw [hC]; ring, abs_neg]; ring
      rw [e1, e2, e3] at k4; linarith
    obtain ⟨u, v, hu, hv, h1, h2⟩ := boxes_meet hXa hXb hYa hYb hCS q1 q2 q3 q4
    refine ⟨Y.at u v, ⟨d1 + C * u - S * v, d2 + S * u + C * v, h1, h2, ?_⟩, u, v, hu, hv, rfl⟩
    simp only [OBox.at, hd1, hd2, hC, hS]
    ext
    · simp only
      linear_combination (-(Y.center.x - X.center.x) - (u * Y.c - v * Y.s)) * hXcs
    · simp only
      linear_combination (-(Y.center.y - X.center.y) - (u * Y.s + v * Y.c)) * hXcs
  · rintro ⟨p, h1, h2⟩
    refine disjoint_sound hX hY ha hb ?_ h1 h2
    intro n hm
    have nz : ∀ Z : OBox, Z.Good → (n = ⟨Z.c, Z.s⟩ ∨ n = ⟨-Z.c, -Z.s⟩ ∨ n = ⟨-Z.s, Z.c⟩ ∨ n = ⟨Z.s, -Z.c⟩) →
        (n.x ≠ 0 ∨ n.y ≠ 0) := by
      intro Z hZ hn
      by_contra hc
      push Not at hc
      have := hZ.1
      rcases hn with rfl | rfl | rfl | rfl <;> simp at hc <;> rw [hc.1, hc.2] at this <;> simp at this
    rcases List.mem_append.1 hm with hm | hm
    · exact nz X hX (na.1 n hm)
    · exact nz Y hY (nb.1 n hm)

/-- The box a solid fills. -/
def Solid.box : Solid → OBox
  | .rect p w h c s => ⟨p, c, s, w/2, h/2⟩
  | .aabb A => ⟨⟨(A.topLeft.x + A.botRight.x) / 2 + A.position.x,
      (A.topLeft.y + A.botRight.y) / 2 + A.position.y⟩, 1, 0,
      (A.botRight.x - A.topLeft.x) / 2, (A.botRight.y - A.topLeft.y) / 2⟩

theorem Solid.box_good {S : Solid} (h : S.Good) : S.box.Good := by
  cases S with
  | rect p w h' c s =>
    obtain ⟨h1, h2, h3⟩ := h
    exact ⟨h3, by simp only [Solid.box]; linarith, by simp only [Solid.box]; linarith⟩
  | aabb A =>
    obtain ⟨h1, h2⟩ := h
    exact ⟨by simp [Solid.box], by simp only [Solid.box]; linarith, by simp only [Solid.box]; linarith⟩

theorem Solid.box_interior (S : Solid) (q : Vec) : S.box.Interior q ↔ S.Interior q := by
  cases S with
  | rect p w h c s => rfl
  | aabb A =>
    simp only [Solid.Interior, Solid.box, OBox.Interior, OBox.at]
    constructor
    · rintro ⟨u, v, hu, hv, rfl⟩
      rw [abs_lt] at hu hv
      refine ⟨?_, ?_, ?_, ?_⟩ <;> simp only <;> linarith
    · rintro ⟨h1, h2, h3, h4⟩
      refine ⟨q.x - ((A.topLeft.x + A.botRight.x) / 2 + A.position.x),
        q.y - ((A.topLeft.y + A.botRight.y) / 2 + A.position.y), ?_, ?_, ?_⟩
      · rw [abs_lt]; constructor <;> linarith
      · rw [abs_lt]; constructor <;> linarith
      · ext <;> simp only <;> ring

theorem rect_corners (p : Vec) (w h c s : ℚ) (n : List Vec) :
    Corners ⟨p, c, s, w/2, h/2⟩ (Rectangle.getPoints ⟨p, w, h, c, s, n⟩) := by
  refine ⟨by simp [Rectangle.getPoints, localPoints], ?_, ?_⟩
  · intro q hq
    simp only [Rectangle.getPoints, localPoints, rotatePoint, List.map_cons, List.map_nil,
      List.mem_cons, List.not_mem_nil, or_false] at hq
    have o : |(1:ℚ)| ≤ 1 := by simp
    have m : |(-1:ℚ)| ≤ 1 := by simp
    rcases hq with rfl | rfl | rfl | rfl
    · exact ⟨-1, -1, m, m, by simp only [OBox.at]; ext <;> simp only <;> ring⟩
    · exact ⟨1, -1, o, m, by simp only [OBox.at]; ext <;> simp only <;> ring⟩
    · exact ⟨1, 1, o, o, by simp only [OBox.at]; ext <;> simp only <;> ring⟩
    · exact ⟨-1, 1, m, o, by simp only [OBox.at]; ext <;> simp only <;> ring⟩
  · intro σ τ hσ hτ
    simp only [Rectangle.getPoints, localPoints, rotatePoint, List.map_cons, List.map_nil,
      List.mem_cons, List.not_mem_nil, or_false, OBox.at]
    rcases hσ with rfl | rfl <;> rcases hτ with rfl | rfl
    · right; right; left; ext <;> simp only <;> ring
    · right; left; ext <;> simp only <;> ring
    · right; right; right; ext <;> simp only <;> ring
    · left; ext <;> simp only <;> ring

theorem mkRectangle_ok {p : Vec} {w h c s : ℚ} (hw : 0 < w) (hh : 0 < h) :
    ∃ n, mkRectangle p w h c s = .ok ⟨p, w, h, c, s, n⟩ ∧ Axes ⟨p, c, s, w/2, h/2⟩ n := by
  refine ⟨[⟨s, -c⟩, ⟨c, s⟩, ⟨-s, c⟩, ⟨-c, -s⟩], ?_, ?_⟩
  · have hw' := hw.ne'
    have hh' := hh.ne'
    simp only [mkRectangle, hw', hh', or_self, if_false, Rectangle.getPoints, localPoints, rotatePoint,
      List.map_cons, List.map_nil, normalizeBy, perpendicular, abs_of_pos hw, abs_of_pos hh]
    congr 2
    simp only [List.cons.injEq, and_true]
    refine ⟨?_, ?_, ?_, ?_⟩ <;> ext <;> simp <;> field_simp <;> ring
  · refine ⟨?_, ⟨1, .inl rfl, by simp⟩, 1, .inl rfl, by simp⟩
    intro n hn
    simp only [List.mem_cons, List.not_mem_nil, or_false] at hn
    rcases hn with rfl | rfl | rfl | rfl <;> simp

theorem Solid.shape_ok {S : Solid} (h : S.Good) :
    ∃ a, S.shape = .ok a ∧ Corners S.box a.points ∧ Axes S.box a.normals := by
  cases S with
  | rect p w h' c s =>
    obtain ⟨h1, h2, h3⟩ := h
    obtain ⟨n, he, hn⟩ := mkRectangle_ok (p := p) (c := c) (s := s) h1 h2
    refine ⟨⟨Rectangle.getPoints ⟨p, w, h', c, s, n⟩, n⟩, ?_, rect_corners p w h' c s n, hn⟩
    simp only [Solid.shape, he]; rfl
  | aabb A =>
    refine ⟨aabbToShape A, rfl, ⟨by simp [aabbToShape], ?_, ?_⟩, ?_⟩
    · intro q hq
      simp only [aabbToShape, List.map_cons, List.map_nil, List.mem_cons, List.not_mem_nil,
        or_false] at hq
      have o : |(1:ℚ)| ≤ 1 := by simp
      have m : |(-1:ℚ)| ≤ 1 := by simp
      rcases hq with rfl | rfl | rfl | rfl
      · exact ⟨-1, -1, m, m, by simp only [OBox.at, Solid.box]; ext <;> simp only <;> ring⟩
      · exact ⟨1, -1, o, m, by simp only [OBox.at, Solid.box]; ext <;> simp only <;> ring⟩
      · exact ⟨1, 1, o, o, by simp only [OBox.at, Solid.box]; ext <;> simp only <;> ring⟩
      · exact ⟨-1, 1, m, o, by simp only [OBox.at, Solid.box]; ext <;> simp only <;> ring⟩
    · intro σ τ hσ hτ
      simp only [aabbToShape, List.map_cons, List.map_nil, List.mem_cons, List.not_mem_nil,
        or_false, OBox.at, Solid.box]
      rcases hσ with rfl | rfl <;> rcases hτ with rfl | rfl
      · right; right; left; ext <;> simp only <;> ring
      · right; left; ext <;> simp only <;> ring
      · right; right; right; ext <;> simp only <;> ring
      · left; ext <;> simp only <;> ring
    · refine ⟨?_, ⟨1, .inl rfl, by simp [Solid.box, aabbToShape]⟩, 1, .inl rfl,
        by simp [Solid.box, aabbToShape]⟩
      intro n hn
      simp only [aabbToShape, List.mem_cons, List.not_mem_nil, or_false] at hn
      rcases hn with rfl | rfl | rfl | rfl <;> simp [Solid.box]

/-! ### C09 -/

/-- C09: for freshly built shapes of any kind (rectangle at any angle, axis-aligned box) the library's
test reports an overlap exactly when the two shapes have a common interior point. -/
theorem C09_overlap_iff (S T : Solid) (hS : S.Good) (hT : T.Good) :
    ∃ a b, S.shape = .ok a ∧ T.shape = .ok b ∧
      (rectOverlapsRect a b = true ↔ ∃ p, S.Interior p ∧ T.Interior p) := by
  obtain ⟨a, ea, ca, na⟩ := Solid.shape_ok hS
  obtain ⟨b, eb, cb, nb⟩ := Solid.shape_ok hT
  refine ⟨a, b, ea, eb, ?_⟩
  rw [overlap_iff_boxes (Solid.box_good hS) (Solid.box_good hT) ca cb na nb]
  simp only [Solid.box_interior]

/-- A 3-4-5 rectangle against an axis-aligned box: overlapping, and the test says so. -/
example : (Solid.rect ⟨0, 0⟩ 2 4 (3/5) (4/5)).Good ∧ (Solid.aabb ⟨⟨1, 0⟩, ⟨3, 1⟩, 0⟩).Good ∧
    ((Solid.rect ⟨0, 0⟩ 2 4 (3/5) (4/5)).shape.toOption.bind fun a =>
      (Solid.aabb ⟨⟨1, 0⟩, ⟨3, 1⟩, 0⟩).shape.toOption.map fun b => rectOverlapsRect a b) = some true := by
  refine ⟨⟨by norm_num, by norm_num, by norm_num⟩, ⟨by norm_num, by norm_num⟩, by decide +kernel⟩

/-- The bounding boxes of these two overlap, yet the rectangles do not, and the test says so. -/
example : ((Solid.rect ⟨0, 0⟩ 1 4 (3/5) (4/5)).shape.toOption.bind fun a =>
      (Solid.rect ⟨18/25, 24/25⟩ 1 4 (3/5) (4/5)).shape.toOption.map fun b =>
        rectOverlapsRect a b) = some false := by decide +kernel

/-- C09: a degenerate rectangle is rejected at construction. -/
theorem C09_degenerate (p : Vec) (w h c s : ℚ) (hz : w = 0 ∨ h = 0) :
    (Solid.rect p w h c s).shape = .error .zeroDivision := by
  simp only [Solid.shape, mkRectangle, hz, if_true]; rfl

example : (Solid.rect ⟨1, 2⟩ 0 3 1 0).shape = .error .zeroDivision := C09_degenerate _ _ _ _ _ (.inl rfl)

/-- C09: the test is symmetric, for any two shapes. -/
theorem C09_symm (a b : Shape) : rectOverlapsRect a b = rectOverlapsRect b a := by
  have hs : ∀ n, isSeparatingAxis a.points b.points n = isSeparatingAxis b.points a.points n := by
    intro n; simp only [isSeparatingAxis]; rw [Bool.or_comm]
  have : isSeparatingAxis a.points b.points = isSeparatingAxis b.points a.points := funext hs
  unfold rectOverlapsRect
  rw [this]
  cases a.normals.any _ <;> cases b.normals.any _ <;> rfl

example : rectOverlapsRect (aabbToShape ⟨⟨0, 0⟩, ⟨2, 2⟩, 0⟩) (aabbToShape ⟨⟨1, 1⟩, ⟨3, 3⟩, 0⟩) = true := by
  decide +kernel

/-- C09, rolling stock: a wagon's rectangle is built at angle 0 and later given the wagon's angle
without recomputing its normals.  Reported disjointness is still right. -/
theorem C09_wagon_disjoint_sound_partial (p q : Vec) (w h w' h' c s c' s' : ℚ) (hw : 0 < w) (hh : 0 < h)
    (hw' : 0 < w') (hh' : 0 < h') (hcs : c ^ 2 + s ^ 2 = 1) (hcs' : c' ^ 2 + s' ^ 2 = 1)
    (r r' : Rectangle) (hr : mkRectangle p w h 1 0 = .ok r) (hr' : mkRectangle q w' h' 1 0 = .ok r')
    (hd : rectOverlapsRect (r.setAngle c s).toShape (r'.setAngle c' s').toShape = false) :
    ¬ ∃ z, (OBox.mk p c s (w/2) (h/2)).Interior z ∧ (OBox.mk q c' s' (w'/2) (h'/2)).Interior z := by
  obtain ⟨n, e, ax⟩ := mkRectangle_ok (p := p) (c := 1) (s := 0) hw hh
  obtain ⟨n', e', ax'⟩ := mkRectangle_ok (p := q) (c := 1) (s := 0) hw' hh'
  rw [e] at hr; rw [e'] at hr'
  injection hr with hr; injection hr' with hr'
  subst hr hr'
  rintro ⟨z, h1, h2⟩
  have nz : ∀ m ∈ n ++ n', m.x ≠ 0 ∨ m.y ≠ 0 := by
    intro m hm
    rcases List.mem_append.1 hm with hm | hm
    · rcases ax.1 m hm with rfl | rfl | rfl | rfl <;> simp
    · rcases ax'.1 m hm with rfl | rfl | rfl | rfl <;> simp
  have := disjoint_sound (X := OBox.mk p c s (w/2) (h/2)) (Y := OBox.mk q c' s' (w'/2) (h'/2))
    (a := (Rectangle.setAngle ⟨p, w, h, 1, 0, n⟩ c s).toShape)
    (b := (Rectangle.setAngle ⟨q, w', h', 1, 0, n'⟩ c' s').toShape)
    ⟨hcs, by simp only; linarith, by simp only; linarith⟩
    ⟨hcs', by simp only; linarith, by simp only; linarith⟩
    (rect_corners p w h c s n) (rect_corners q w' h' c' s' n') nz h1 h2
  rw [hd] at this
  cases this

example : ((mkRectangle ⟨0, 0⟩ 1 4 1 0).toOption.bind fun r => (mkRectangle ⟨8, 0⟩ 1 4 1 0).toOption.map
    fun r' => rectOverlapsRect (r.setAngle (3/5) (4/5)).toShape (r'.setAngle (3/5) (4/5)).toShape)
    = some false := by decide +kernel

/-- C09 fails for rolling stock: two parallel wagons (1 × 4 tiles, both at the 3-4-5 angle, 1.2 tiles
apart across the track) are reported to overlap although they have no interior point in common, because
`orientation` turns the rectangle but not its normals. -/
theorem C09_wagon_overlap_refuted :
    ∃ r r', mkRectangle ⟨0, 0⟩ 1 4 1 0 = .ok r ∧ mkRectangle ⟨18/25, 24/25⟩ 1 4 1 0 = .ok r' ∧
      rectOverlapsRect (r.setAngle (3/5) (4/5)).toShape (r'.setAngle (3/5) (4/5)).toShape = true ∧
      ¬ ∃ z, (r.setAngle (3/5) (4/5)).box.Interior z ∧ (r'.setAngle (3/5) (4/5)).box.Interior z := by
  refine ⟨⟨⟨0, 0⟩, 1, 4, 1, 0, [⟨0, -1⟩, ⟨1, 0⟩, ⟨0, 1⟩, ⟨-1, 0⟩]⟩,
    ⟨⟨18/25, 24/25⟩, 1, 4, 1, 0, [⟨0, -1⟩, ⟨1, 0⟩, ⟨0, 1⟩, ⟨-1, 0⟩]⟩, by decide +kernel,
    by decide +kernel, by decide +kernel, ?_⟩
  rintro ⟨z, ⟨u, v, hu, hv, hz⟩, u', v', hu', hv', hz'⟩
  rw [hz] at hz'
  simp only [Rectangle.setAngle, Rectangle.box, OBox.at, Vec.mk.injEq] at hz' hu hv hu' hv'
  rw [abs_lt] at hu hu'
  obtain ⟨h1, h2⟩ := hz'
  linarith

/-! ### C10 -/

/-- The four numbers describe a box containing every point of `X`. -/
def Covers (S : Scan) (X : OBox) : Prop :=
  ∃ x0 y0 x1 y1, S = ⟨some x0, some y0, some x1, some y1⟩ ∧
    ∀ p, X.Closed p → x0 ≤ p.x ∧ p.x ≤ x1 ∧ y0 ≤ p.y ∧ p.y ≤ y1

/-- Every side of the box touches `X`. -/
def Tight (S : Scan) (X : OBox) : Prop :=
  (∃ p, X.Closed p ∧ S.xMin = some p.x) ∧ (∃ p, X.Closed p ∧ S.yMin = some p.y) ∧
  (∃ p, X.Closed p ∧ S.xMax = some p.x) ∧ (∃ p, X.Closed p ∧ S.yMax = some p.y)

theorem scan_axis_right (m A B : ℚ) (h : 0 ≤ A ∨ B ≤ 0) :
    [m - A + B, m + A + B, m + A - B, m - A - B].foldl
      (fun (acc : Option ℚ × Option ℚ) v => scanAxis v acc.1 acc.2) (none, none)
      = (some (m - |A| - |B|), some (m + |A| + |B|)) := by
  have t1 : (m + A + B < m - A + B) ↔ A < 0 := by constructor <;> intro <;> linarith
  have t2 : (m + A - B < m - A + B) ↔ A < B := by constructor <;> intro <;> linarith
  have t3 : (m + A - B < m + A + B) ↔ 0 < B := by constructor <;> intro <;> linarith
  have t4 : (m - A - B < m - A + B) ↔ 0 < B := by constructor <;> intro <;> linarith
  have t5 : (m - A - B < m + A + B) ↔ 0 < A + B := by constructor <;> intro <;> linarith
  have t6 : (m - A - B < m + A - B) ↔ 0 < A := by constructor <;> intro <;> linarith
  have t7 : (m + A + B < m + A - B) ↔ B < 0 := by constructor <;> intro <;> linarith
  have t8 : (m + A + B < m - A - B) ↔ A + B < 0 := by constructor <;> intro <;> linarith
  have t9 : (m + A - B < m - A - B) ↔ A < 0 := by constructor <;> intro <;> linarith
  simp only [List.foldl_cons, List.foldl_nil, scanAxis]
  rcases lt_or_ge A 0 with hA | hA
  · have hB : B ≤ 0 := by rcases h with h | h <;> linarith
    have n1 : ¬ 0 < B := by linarith
    have n2 : ¬ 0 < A := by linarith
    have n3 : A + B < 0 := by linarith
    have n4 : ¬ 0 < A + B := by linarith
    rcases eq_or_lt_of_le hB with hB' | hB'
    · subst hB'
      simp only [add_zero, sub_zero] at t1 t2 t6 t8 t9
      simp [t1, t6, t8, t9, hA, n2, abs_of_neg hA]
      ring
    · simp [t1, t3, t5, t6, t7, t8, t9, hA, n1, n2, n3, n4, hB', abs_of_neg hA, abs_of_neg hB']
      ring
  · have n1 : ¬ A < 0 := by linarith
    rcases lt_trichotomy B 0 with hB | hB | hB
    · have m1 : ¬ A < B := by linarith
      have m2 : ¬ 0 < B := by linarith
      simp [t1, t2, t3, t4, t7, t9, n1, m1, m2, hB, abs_of_nonneg hA, abs_of_neg hB]
      ring
    · subst hB
      simp only [add_zero, sub_zero] at t1 t2 t6 t8 t9
      simp [t1, t6, t8, t9, n1, abs_of_nonneg hA]
    · by_cases m1 : A < B
      · have m2 : ¬ B < 0 := by linarith
        have m3 : ¬ A + B < 0 := by linarith
        by_cases m4 : 0 < A
        · simp [t1, t2, t6, t8, n1, m1, m3, m4, abs_of_nonneg hA, abs_of_pos hB]
        · have : A = 0 := by linarith
          subst this
          simp only [add_zero, sub_zero] at t1 t2 t6 t8 t9 t5 t3
          simp [t2, t3, t6, t8, hB, m2, abs_of_pos hB]
      · have m2 : ¬ B < 0 := by linarith
        simp [t1, t2, t4, t7, n1, m1, m2, hB, abs_of_nonneg hA, abs_of_pos hB]

theorem scan_axis_wrong (m A B : ℚ) (hA : A < 0) (hB : 0 < B) :
    ∃ x, x < m + |A| + |B| ∧ [m - A + B, m + A + B, m + A - B, m - A - B].foldl
      (fun (acc : Option ℚ × Option ℚ) v => scanAxis v acc.1 acc.2) (none, none)
      = (some (m - |A| - |B|), some x) := by
  have t1 : m + A + B < m - A + B := by linarith
  have t3 : m + A - B < m + A + B := by linarith
  have t6 : ¬ m - A - B < m + A - B := by linarith
  refine ⟨m - A - B, by rw [abs_of_neg hA, abs_of_pos hB]; linarith, ?_⟩
  simp only [List.foldl_cons, List.foldl_nil, scanAxis, t1, t3, t6, if_true, if_false, abs_of_neg hA,
    abs_of_pos hB]
  congr 2; ring

theorem scan_foldl (pts : List Vec) (S : Scan) :
    ((pts.foldl scanStep S).xMin, (pts.foldl scanStep S).xMax) =
      (pts.map (·.x)).foldl (fun (acc : Option ℚ × Option ℚ) v => scanAxis v acc.1 acc.2) (S.xMin, S.xMax) ∧
    ((pts.foldl scanStep S).yMin, (pts.foldl scanStep S).yMax) =
      (pts.map (·.y)).foldl (fun (acc : Option ℚ × Option ℚ) v => scanAxis v acc.1 acc.2) (S.yMin, S.yMax) := by
  induction pts generalizing S with
  | nil => exact ⟨rfl, rfl⟩
  | cons p l ih =>
    simp only [List.foldl_cons, List.map_cons]
    exact ih (scanStep S p)

theorem bbox_axes (r : Rectangle) :
    (r.getBoundingBox.xMin, r.getBoundingBox.xMax) =
      (let A := r.width / 2 * r.cos; let B := r.height / 2 * r.sin
       [r.position.x - A + B, r.position.x + A + B, r.position.x + A - B, r.position.x - A - B].foldl
        (fun (acc : Option ℚ × Option ℚ) v => scanAxis v acc.1 acc.2) (none, none)) ∧
    (r.getBoundingBox.yMin, r.getBoundingBox.yMax) =
      (let A := r.width / 2 * r.sin; let B := -(r.height / 2 * r.cos)
       [r.position.y - A + B, r.position.y + A + B, r.position.y + A - B, r.position.y - A - B].foldl
        (fun (acc : Option ℚ × Option ℚ) v => scanAxis v acc.1 acc.2) (none, none)) := by
  obtain ⟨h1, h2⟩ := scan_foldl r.getPoints {}
  unfold Rectangle.getBoundingBox
  rw [h1, h2]
  constructor
  · congr 1
    simp only [Rectangle.getPoints, localPoints, rotatePoint, List.map_cons, List.map_nil,
      List.cons.injEq, and_true]
    refine ⟨?_, ?_, ?_, ?_⟩ <;> ring
  · congr 1
    simp only [Rectangle.getPoints, localPoints, rotatePoint, List.map_cons, List.map_nil,
      List.cons.injEq, and_true]
    refine ⟨?_, ?_, ?_, ?_⟩ <;> ring

theorem closed_range {X : OBox} {p : Vec} (hp : X.Closed p) (n : Vec) :
    |dot p n - dot X.center n| ≤ X.reach n := by
  obtain ⟨u, v, hu, hv, rfl⟩ := hp
  rw [dot_at, OBox.reach]
  rw [show ∀ a b c : ℚ, a + b + c - a = b + c by intros; ring]
  refine (abs_add_le _ _).trans ?_
  rw [abs_mul, abs_mul]
  exact add_le_add (mul_le_mul_of_nonneg_right hu (abs_nonneg _))
    (mul_le_mul_of_nonneg_right hv (abs_nonneg _))

theorem closed_attains {X : OBox} (ha : 0 ≤ X.a) (hb : 0 ≤ X.b) (n : Vec) :
    (∃ p, X.Closed p ∧ dot p n = dot X.center n + X.reach n) ∧
    (∃ p, X.Closed p ∧ dot p n = dot X.center n - X.reach n) := by
  obtain ⟨σ, hσ, hσ'⟩ := exists_sign (X.c * n.x + X.s * n.y)
  obtain ⟨τ, hτ, hτ'⟩ := exists_sign (-X.s * n.x + X.c * n.y)
  have aux : ∀ {σ a : ℚ}, 0 ≤ a → (σ = 1 ∨ σ = -1) → |σ * a| ≤ a := by
    rintro σ a ha (rfl | rfl) <;> simp [abs_of_nonneg ha]
  refine ⟨⟨X.at (σ * X.a) (τ * X.b), ⟨_, _, aux ha hσ, aux hb hτ, rfl⟩, ?_⟩,
    ⟨X.at (-(σ * X.a)) (-(τ * X.b)), ⟨_, _, by rw [abs_neg]; exact aux ha hσ,
      by rw [abs_neg]; exact aux hb hτ, rfl⟩, ?_⟩⟩
  · rw [dot_at, OBox.reach, ← hσ', ← hτ']; ring
  · rw [dot_at, OBox.reach, ← hσ', ← hτ']; ring

theorem reach_x (r : Rectangle) (hw : 0 < r.width) (hh : 0 < r.height) :
    r.box.reach ⟨1, 0⟩ = |r.width / 2 * r.cos| + |r.height / 2 * r.sin| := by
  simp only [OBox.reach, Rectangle.box, abs_mul, abs_of_pos (half_pos hw), abs_of_pos (half_pos hh)]
  simp

theorem reach_y (r : Rectangle) (hw : 0 < r.width) (hh : 0 < r.height) :
    r.box.reach ⟨0, 1⟩ = |r.width / 2 * r.sin| + |-(r.height / 2 * r.cos)| := by
  simp only [OBox.reach, Rectangle.box, abs_mul, abs_neg, abs_of_pos (half_pos hw),
    abs_of_pos (half_pos hh)]
  simp

/-- C10 (left and top sides): the lower bounds are always the exact minima. -/
theorem C10_min_sides (r : Rectangle) (hw : 0 < r.width) (hh : 0 < r.height) :
    ∃ x0 y0, r.getBoundingBox.xMin = some x0 ∧ r.getBoundingBox.yMin = some y0 ∧
      (∀ p, r.box.Closed p → x0 ≤ p.x ∧ y0 ≤ p.y) ∧
      (∃ p, r.box.Closed p ∧ p.x = x0) ∧ ∃ p, r.box.Closed p ∧ p.y = y0 := by
  obtain ⟨hx, hy⟩ := bbox_axes r
  have key : ∀ m A B : ℚ, ([m - A + B, m + A + B, m + A - B, m - A - B].foldl
      (fun (acc : Option ℚ × Option ℚ) v => scanAxis v acc.1 acc.2) (none, none)).1 = some (m - |A| - |B|) := by
    intro m A B
    by_cases h : 0 ≤ A ∨ B ≤ 0
    · rw [scan_axis_right m A B h]
    · push Not at h
      obtain ⟨x, -, h⟩ := scan_axis_wrong m A B h.1 h.2
      rw [h]
  have ex := congrArg Prod.fst hx
  have ey := congrArg Prod.fst hy
  simp only [key] at ex ey
  have ha : (0:ℚ) ≤ r.box.a := (half_pos hw).le
  have hb : (0:ℚ) ≤ r.box.b := (half_pos hh).le
  obtain ⟨-, px, hpx, hpx'⟩ := closed_attains ha hb ⟨1, 0⟩
  obtain ⟨-, py, hpy, hpy'⟩ := closed_attains ha hb ⟨0, 1⟩
  rw [reach_x r hw hh] at hpx'
  rw [reach_y r hw hh] at hpy'
  refine ⟨_, _, ex, ey, ?_, ⟨px, hpx, ?_⟩, py, hpy, ?_⟩
  · intro p hp
    have h1 := (abs_le.1 (closed_range hp ⟨1, 0⟩)).1
    have h2 := (abs_le.1 (closed_range hp ⟨0, 1⟩)).1
    rw [reach_x r hw hh] at h1
    rw [reach_y r hw hh] at h2
    simp only [dot, Rectangle.box] at h1 h2
    constructor <;> linarith
  · simp only [dot, Rectangle.box] at hpx'; linarith
  · simp only [dot, Rectangle.box] at hpy'; linarith

example : (Rectangle.getBoundingBox ⟨⟨0, 0⟩, 2, 4, 3/5, 4/5, []⟩).xMin = some (-11/5) := by decide +kernel

/-- C10: the bounding box contains the rectangle exactly when the angle's cosine is not negative, or the
sine is zero (the four scans each miss the first corner as a candidate for the maximum). -/
theorem C10_covers_iff (r : Rectangle) (hw : 0 < r.width) (hh : 0 < r.height) :
    Covers r.getBoundingBox r.box ↔ (0 ≤ r.cos ∨ r.sin = 0) := by
  have hw2 := half_pos hw
  have hh2 := half_pos hh
  have ha : (0:ℚ) ≤ r.box.a := hw2.le
  have hb : (0:ℚ) ≤ r.box.b := hh2.le
  obtain ⟨hx, hy⟩ := bbox_axes r
  constructor
  · rintro ⟨x0, y0, x1, y1, he, hall⟩
    by_contra hc
    push Not at hc
    obtain ⟨hc, hs⟩ := hc
    rw [he] at hx hy
    rcases lt_or_gt_of_ne hs with hs | hs
    · have hA : r.width / 2 * r.sin < 0 := mul_neg_of_pos_of_neg hw2 hs
      have hB : 0 < -(r.height / 2 * r.cos) := by have := mul_neg_of_pos_of_neg hh2 hc; linarith
      obtain ⟨x, hlt, hf⟩ := scan_axis_wrong r.position.y _ _ hA hB
      simp only [hf, Prod.mk.injEq, Option.some.injEq] at hy
      obtain ⟨⟨p, hp, hpv⟩, -⟩ := closed_attains ha hb ⟨0, 1⟩
      rw [reach_y r hw hh] at hpv
      simp only [dot, Rectangle.box] at hpv
      have := (hall p hp).2.2.2
      linarith
    · have hA : r.width / 2 * r.cos < 0 := mul_neg_of_pos_of_neg hw2 hc
      have hB : 0 < r.height / 2 * r.sin := mul_pos hh2 hs
      obtain ⟨x, hlt, hf⟩ := scan_axis_wrong r.position.x _ _ hA hB
      simp only [hf, Prod.mk.injEq, Option.some.injEq] at hx
      obtain ⟨⟨p, hp, hpv⟩, -⟩ := closed_attains ha hb ⟨1, 0⟩
      rw [reach_x r hw hh] at hpv
      simp only [dot, Rectangle.box] at hpv
      have := (hall p hp).2.1
      linarith
  · intro hcond
    have c1 : 0 ≤ r.width / 2 * r.cos ∨ r.height / 2 * r.sin ≤ 0 := by
      rcases hcond with h | h
      · exact .inl (mul_nonneg hw2.le h)
      · right; rw [h]; simp
    have c2 : 0 ≤ r.width / 2 * r.sin ∨ -(r.height / 2 * r.cos) ≤ 0 := by
      rcases hcond with h | h
      · right; have := mul_nonneg hh2.le h; linarith
      · left; rw [h]; simp
    simp only [scan_axis_right _ _ _ c1, scan_axis_right _ _ _ c2, Prod.mk.injEq] at hx hy
    refine ⟨r.position.x - |r.width / 2 * r.cos| - |r.height / 2 * r.sin|,
      r.position.y - |r.width / 2 * r.sin| - |-(r.height / 2 * r.cos)|,
      r.position.x + |r.width / 2 * r.cos| + |r.height / 2 * r.sin|,
      r.position.y + |r.width / 2 * r.sin| + |-(r.height / 2 * r.cos)|, ?_, ?_⟩
    · rw [← hx.1, ← hx.2, ← hy.1, ← hy.2]
    · intro p hp
      have h1 := abs_le.1 (closed_range hp ⟨1, 0⟩)
      have h2 := abs_le.1 (closed_range hp ⟨0, 1⟩)
      rw [reach_x r hw hh] at h1
      rw [reach_y r hw hh] at h2
      simp only [dot, Rectangle.box] at h1 h2
      refine ⟨?_, ?_, ?_, ?_⟩ <;> linarith [h1.1, h1.2, h2.1, h2.2]

/-- C10 as claimed, restricted to the angles for which it holds (`cos ≥ 0` or `sin = 0`): the box contains
the rectangle and every side touches it. Missing: angles strictly between 90° and 270° other than 180°, for
which `C10_covers_iff` shows the claim is false. -/
theorem C10_exact_partial (r : Rectangle) (hw : 0 < r.width) (hh : 0 < r.height)
    (hang : 0 ≤ r.cos ∨ r.sin = 0) : Covers r.getBoundingBox r.box ∧ Tight r.getBoundingBox r.box := by
  refine ⟨(C10_covers_iff r hw hh).2 hang, ?_⟩
  have hw2 := half_pos hw
  have hh2 := half_pos hh
  have ha : (0:ℚ) ≤ r.box.a := hw2.le
  have hb : (0:ℚ) ≤ r.box.b := hh2.le
  obtain ⟨hx, hy⟩ := bbox_axes r
  have c1 : 0 ≤ r.width / 2 * r.cos ∨ r.height / 2 * r.sin ≤ 0 := by
    rcases hang with h | h
    · exact .inl (mul_nonneg hw2.le h)
    · right; rw [h]; simp
  have c2 : 0 ≤ r.width / 2 * r.sin ∨ -(r.height / 2 * r.cos) ≤ 0 := by
    rcases hang with h | h
    · right; have := mul_nonneg hh2.le h; linarith
    · left; rw [h]; simp
  simp only [scan_axis_right _ _ _ c1, scan_axis_right _ _ _ c2, Prod.mk.injEq] at hx hy
  obtain ⟨⟨p1, hp1, e1⟩, p2, hp2, e2⟩ := closed_attains ha hb ⟨1, 0⟩
  obtain ⟨⟨p3, hp3, e3⟩, p4, hp4, e4⟩ := closed_attains ha hb ⟨0, 1⟩
  rw [reach_x r hw hh] at e1 e2
  rw [reach_y r hw hh] at e3 e4
  simp only [dot, Rectangle.box] at e1 e2 e3 e4
  refine ⟨⟨p2, hp2, ?_⟩, ⟨p4, hp4, ?_⟩, ⟨p1, hp1, ?_⟩, ⟨p3, hp3, ?_⟩⟩
  · rw [hx.1]; congr 1; linarith
  · rw [hy.1]; congr 1; linarith
  · rw [hx.2]; congr 1; linarith
  · rw [hy.2]; congr 1; linarith

example : Rectangle.getBoundingBox ⟨⟨0, 0⟩, 2, 4, 3/5, 4/5, []⟩ =
    ⟨some (-11/5), some (-2), some (11/5), some 2⟩ := by decide +kernel

/-- C10 fails: a 2 × 4 wagon at the angle with cosine -3/5 and sine 4/5 sticks out of its own bounding
box. -/
theorem C10_covers_refuted :
    ∃ r : Rectangle, 0 < r.width ∧ 0 < r.height ∧ r.cos ^ 2 + r.sin ^ 2 = 1 ∧
      ¬ Covers r.getBoundingBox r.box := by
  refine ⟨⟨⟨0, 0⟩, 2, 4, -3/5, 4/5, []⟩, by norm_num, by norm_num, by norm_num, ?_⟩
  rw [C10_covers_iff _ (by norm_num) (by norm_num)]
  norm_num

example : Rectangle.getBoundingBox ⟨⟨0, 0⟩, 2, 4, -3/5, 4/5, []⟩ =
    ⟨some (-11/5), some (-2), some (-1), some 2⟩ := by decide +kernel

end Draftsman.Rect
