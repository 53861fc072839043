import Mathlib.Tactic.FinCases
import Verif.Model.OrientVec
/-
C23, C24: vectors of legacy directions and of orientations.
-/
namespace Draftsman

/-! ### C23 -/

/-- C23 fails for the vectors of legacy directions: north is the only one with the vector of its own wind (the direction of twice its number); east, south and
west have those of north-east, east and south-east, and the diagonals have none. -/
theorem C23_legacy_vector_refuted (m : ℝ) (hm : m ≠ 0) (d : LegacyDirection) :
    (d.toVector (√2 / 2) m = .ok (Direction.toVector (√2 / 2) m ⟨2 * d.val, by omega⟩) ↔ d.val = 0) ∧
    (d.val % 2 = 0 → d.toVector (√2 / 2) m = .ok (Direction.toVector (√2 / 2) m ⟨d.val, by omega⟩)) ∧
    (d.val % 2 = 1 → d.toVector (√2 / 2) m = .error .keyError) := by
  fin_cases d <;> simp [LegacyDirection.toVector, Direction.toVector, hm]

/-! ### C24 -/
namespace Orientation

/-- The sine and cosine of an orientation are those of the number it was made of. -/
theorem angle_mod1 (x : ℚ) : Real.sin ((mod1 x : ℝ) * Real.pi * 2) = Real.sin ((x : ℝ) * Real.pi * 2) ∧
    Real.cos ((mod1 x : ℝ) * Real.pi * 2) = Real.cos ((x : ℝ) * Real.pi * 2) := by
  have h : ((mod1 x : ℚ) : ℝ) * Real.pi * 2 = (x : ℝ) * Real.pi * 2 - (⌊x⌋ : ℤ) * (2 * Real.pi) := by
    rw [mod1]
    push_cast
    ring
  rw [h]
  exact ⟨Real.sin_sub_int_mul_two_pi _ _, Real.cos_sub_int_mul_two_pi _ _⟩

/-- C24: the vector of an orientation made of any number points at that fraction of a full turn, clockwise from north (y grows to the south), and its
length is the magnitude. -/
theorem C24_vector (x : ℚ) (m : ℝ) :
    (mk' x).toVector m = (m * Real.sin (2 * Real.pi * x), -(m * Real.cos (2 * Real.pi * x))) ∧
    ((mk' x).toVector m).1 ^ 2 + ((mk' x).toVector m).2 ^ 2 = m ^ 2 := by
  have h : (mk' x).toVector m = (m * Real.sin (2 * Real.pi * x), -(m * Real.cos (2 * Real.pi * x))) := by
    simp only [toVector, mk', angle_mod1]
    rw [show (x : ℝ) * Real.pi * 2 = 2 * Real.pi * x by ring]
    ext <;> simp only <;> ring
  refine ⟨h, ?_⟩
  rw [h]
  have := Real.sin_sq_add_cos_sq (2 * Real.pi * (x : ℝ))
  linear_combination m ^ 2 * this

/-- C24: the vector of a sum is that of the one turned by the other, and the vector of the opposite is the negated one. -/
theorem C24_vector_add (x y : ℚ) (m : ℝ) :
    (add (mk' x) (mk' y)).toVector m =
      (((mk' x).toVector m).1 * Real.cos (2 * Real.pi * y) - ((mk' x).toVector m).2 * Real.sin (2 * Real.pi * y),
       ((mk' x).toVector m).1 * Real.sin (2 * Real.pi * y) + ((mk' x).toVector m).2 * Real.cos (2 * Real.pi * y)) ∧
    (mk' x).opposite.toVector m = (-((mk' x).toVector m).1, -((mk' x).toVector m).2) := by
  constructor
  · have e : ((mod1 x + mod1 y : ℚ) : ℝ) * Real.pi * 2 = (mod1 x : ℝ) * Real.pi * 2 + (mod1 y : ℝ) * Real.pi * 2 := by
      push_cast
      ring
    rw [show (2 * Real.pi * (y : ℝ)) = (y : ℝ) * Real.pi * 2 by ring]
    simp only [toVector, add, mk', angle_mod1, e, Real.sin_add, Real.cos_add]
    ext <;> simp only <;> ring
  · have e : ((mod1 x + 1 / 2 : ℚ) : ℝ) * Real.pi * 2 = (mod1 x : ℝ) * Real.pi * 2 + Real.pi := by
      push_cast
      ring
    simp only [toVector, opposite, mk', angle_mod1, e, Real.sin_add_pi, Real.cos_add_pi]
    ext <;> simp only <;> ring

/-- C24: a direction and its orientation have the same vector. -/
theorem C24_vector_direction (d : Direction) (o : Orientation) (ho : d.toOrientation = .ok o) (m : ℝ) :
    o.toVector m = d.toVector (√2 / 2) m := by
  have key : ∀ (k : ℚ) (a b t : ℝ), 2 * Real.pi * (k : ℝ) = t → Real.sin t = a → -Real.cos t = b → (mk' k).toVector m = (a * m, b * m) := by
    intro k a b t ht ha hb
    rw [(C24_vector k m).1, ht, ha, ← hb]
    ext <;> simp only <;> ring
  have q : ∀ t : ℝ, Real.sin (t + Real.pi / 4) = √2 / 2 * (Real.sin t + Real.cos t) ∧ Real.cos (t + Real.pi / 4) = √2 / 2 * (Real.cos t - Real.sin t) := by
    intro t
    rw [Real.sin_add, Real.cos_add, Real.sin_pi_div_four, Real.cos_pi_div_four]
    exact ⟨by ring, by ring⟩
  fin_cases d <;> simp only [Direction.toOrientation, orientationTable] at ho <;> cases ho
  · exact key 0 0 (-1) 0 (by simp) (by simp) (by simp)
  · exact key _ _ _ (0 + Real.pi / 4) (by push_cast; ring) (by rw [(q 0).1]; simp) (by rw [(q 0).2]; simp)
  · exact key _ 1 0 (Real.pi / 2) (by push_cast; ring) (by simp) (by simp)
  · exact key _ _ _ (Real.pi / 2 + Real.pi / 4) (by push_cast; ring) (by rw [(q _).1]; simp) (by rw [(q _).2]; simp)
  · exact key _ 0 1 Real.pi (by push_cast; ring) (by simp) (by simp)
  · exact key _ _ _ (Real.pi + Real.pi / 4) (by push_cast; ring) (by rw [(q _).1]; simp) (by rw [(q _).2]; simp)
  · exact key _ (-1) 0 (Real.pi / 2 + Real.pi) (by push_cast; ring) (by rw [Real.sin_add_pi]; simp) (by rw [Real.cos_add_pi]; simp)
  · exact key _ _ _ (Real.pi / 2 + Real.pi + Real.pi / 4) (by push_cast; ring) (by rw [(q _).1, Real.sin_add_pi, Real.cos_add_pi]; simp)
      (by rw [(q _).2, Real.sin_add_pi, Real.cos_add_pi]; simp)

example : (2 : Direction).toOrientation = .ok (mk' (1 / 8)) := rfl
example : (mk' (5 / 4)).toVector 2 = (2, 0) := by
  rw [(C24_vector _ _).1, show 2 * Real.pi * ((5 / 4 : ℚ) : ℝ) = Real.pi / 2 + 2 * Real.pi by push_cast; ring, Real.sin_add_two_pi, Real.cos_add_two_pi]
  simp
example : (2 : LegacyDirection).toVector (1 : ℤ) 3 = .ok (3, -3) ∧ (3 : LegacyDirection).toVector (1 : ℤ) 3 = .error .keyError := ⟨rfl, rfl⟩

end Orientation

end Draftsman
