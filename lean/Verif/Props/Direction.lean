import Mathlib.Tactic.Linarith
import Mathlib.Tactic.FieldSimp
import Mathlib.Tactic.LinearCombination
import Mathlib.Tactic.FinCases
import Mathlib.Data.Fintype.Basic
import Mathlib.Algebra.Order.Floor.Semiring
import Verif.Model.Direction
import Verif.Proof.Round
/-
C23-C26, C58: directions, orientations, ticks, validation modes.
-/
namespace Draftsman

/-! ### C23 -/

theorem Direction.wrap_val (v : Int) : ((Direction.wrap v).val : Int) = v % 16 := by
  simp only [Direction.wrap]; omega

/-- Specification: the wind reached from `d` by turning `k` sixteenths clockwise. -/
def IsTurned (d e : Direction) (k : Int) : Prop := ∃ n : Int, (e.val : Int) = d.val + k + 16 * n

theorem isTurned_wrap (d : Direction) (k : Int) : IsTurned d (Direction.wrap (d.val + k)) k :=
  ⟨-((d.val + k) / 16), by rw [Direction.wrap_val]; omega⟩

/-- C23: `opposite` is a half turn, `next`/`previous` are a quarter turn or one sixteenth, clockwise and
counter-clockwise. -/
theorem C23_turns (d : Direction) :
    IsTurned d d.opposite 8 ∧ IsTurned d (d.next true) 4 ∧ IsTurned d (d.next false) 1 ∧
    IsTurned d (d.previous true) (-4) ∧ IsTurned d (d.previous false) (-1) := by
  refine ⟨isTurned_wrap d 8, isTurned_wrap d 4, isTurned_wrap d 1,
    by simpa [Direction.previous, sub_eq_add_neg] using isTurned_wrap d (-4),
    by simpa [Direction.previous, sub_eq_add_neg] using isTurned_wrap d (-1)⟩

/-- A wind is determined by the turn that reaches it. -/
theorem isTurned_unique {d e f : Direction} {k l : Int} (h1 : IsTurned d e k) (h2 : IsTurned d f l)
    (hkl : ∃ n, k = l + 16 * n) : e = f := by
  obtain ⟨a, ha⟩ := h1
  obtain ⟨b, hb⟩ := h2
  obtain ⟨n, hn⟩ := hkl
  have := e.isLt
  have := f.isLt
  ext
  omega

/-- C23: any number of steps is one turn by the sum. -/
theorem C23_iterate (d : Direction) (b : Bool) (n : Nat) :
    IsTurned d ((Direction.next · b)^[n] d) (n * (if b then 4 else 1)) ∧
    IsTurned d ((Direction.previous · b)^[n] d) (-(n * (if b then 4 else 1))) := by
  induction n with
  | zero => exact ⟨⟨0, by simp⟩, ⟨0, by simp⟩⟩
  | succ n ih =>
    obtain ⟨⟨a, ha⟩, c, hc⟩ := ih
    rw [Function.iterate_succ_apply', Function.iterate_succ_apply']
    constructor
    · generalize (Direction.next · b)^[n] d = e at ha ⊢
      obtain ⟨t, ht⟩ := isTurned_wrap e (if b then 4 else 1)
      refine ⟨a + t, ?_⟩
      rw [Direction.next, ht, ha]
      cases b <;> simp <;> ring
    · generalize (Direction.previous · b)^[n] d = e at hc ⊢
      obtain ⟨t, ht⟩ := isTurned_wrap e (-(if b then 4 else 1))
      refine ⟨c + t, ?_⟩
      rw [Direction.previous, sub_eq_add_neg, ht, hc]
      cases b <;> simp <;> ring

/-- C23: opposite is an involution; next and previous undo each other; four quarter turns, sixteen small
steps, or two opposites return to the start. -/
theorem C23_group (d : Direction) (b : Bool) :
    d.opposite.opposite = d ∧ (d.next b).previous b = d ∧ (d.previous b).next b = d ∧
    (Direction.next · true)^[4] d = d ∧ (Direction.next · false)^[16] d = d ∧
    (Direction.next · true)^[2] d = d.opposite := by
  revert d b; decide

/-- C23: vectors of opposite directions are negatives of each other, for any magnitude. -/
theorem C23_vector_opposite {R : Type} [CommRing R] (r m : R) (d : Direction) :
    d.opposite.toVector r m = (-(d.toVector r m).1, -(d.toVector r m).2) := by
  fin_cases d <;> simp [Direction.opposite, Direction.wrap, Direction.toVector]

/-- C23: a quarter turn of the direction is a quarter turn of the vector (clockwise, y down). -/
theorem C23_vector_next {R : Type} [CommRing R] (r m : R) (d : Direction) :
    (d.next true).toVector r m = (-(d.toVector r m).2, (d.toVector r m).1) := by
  fin_cases d <;> simp [Direction.next, Direction.wrap, Direction.toVector]

/-- C23: the eight principal winds give vectors of the requested length (`r` is `1/√2`). -/
theorem C23_vector_length {R : Type} [CommRing R] (r m : R) (hr : 2 * r ^ 2 = 1) (d : Direction)
    (hd : d.val % 2 = 0) : (d.toVector r m).1 ^ 2 + (d.toVector r m).2 ^ 2 = m ^ 2 := by
  fin_cases d <;> simp [Direction.toVector] at hd ⊢ <;> linear_combination m ^ 2 * hr

/-- `1/√2` exists in some ring: 2 · 2² = 1 modulo 7. -/
example : (2 : Fin 7) * 2 ^ 2 = 1 := by decide

/-- C23 fails for the eight intermediate winds: their vector is zero, whatever the magnitude. -/
theorem C23_vector_length_refuted {R : Type} [CommRing R] (r m : R) (d : Direction) (hd : d.val % 2 = 1) :
    d.toVector r m = (0, 0) := by
  fin_cases d <;> simp [Direction.toVector] at hd ⊢

example : (5 : Direction).val % 2 = 1 := rfl

/-- C23 fails for legacy directions: `opposite` answers in the sixteen-wind enum, so applying `opposite`
again never returns to the start. -/
theorem C23_legacy_opposite_refuted (d : LegacyDirection) : (d.opposite.opposite).val ≠ d.val := by
  revert d; decide

/-- C23, legacy directions, what remains: read as eighths, the numbers are right. -/
theorem C23_legacy_partial (d : LegacyDirection) :
    (d.opposite.val : Int) % 8 = (d.val + 4) % 8 ∧ ((d.next false).val : Int) % 8 = (d.val + 2) % 8 ∧
    ((d.next true).val : Int) % 8 = (d.val + 1) % 8 ∧ ((d.previous false).val : Int) % 8 = (d.val - 2) % 8 ∧
    ((d.previous true).val : Int) % 8 = (d.val - 1) % 8 := by
  revert d; decide

/-! ### C24 -/
namespace Orientation

theorem mod1_range (x : ℚ) : 0 ≤ mod1 x ∧ mod1 x < 1 := by
  have h1 := Int.floor_le x
  have h2 := Int.lt_floor_add_one x
  unfold mod1
  constructor <;> linarith

/-- Specification: `v` is the representative of `x` on the circle `[0, 1)`. -/
def OnCircle (x v : ℚ) : Prop := 0 ≤ v ∧ v < 1 ∧ ∃ n : ℤ, x = v + n

theorem onCircle_mod1 (x : ℚ) : OnCircle x (mod1 x) :=
  ⟨(mod1_range x).1, (mod1_range x).2, ⌊x⌋, by unfold mod1; ring⟩

theorem OnCircle.unique {x v w : ℚ} (h1 : OnCircle x v) (h2 : OnCircle x w) : v = w := by
  obtain ⟨a1, a2, n, a3⟩ := h1
  obtain ⟨b1, b2, m, b3⟩ := h2
  have h : (n : ℚ) - m = w - v := by linarith
  have l1 : ((n - m : ℤ) : ℚ) < 1 := by push_cast; linarith
  have l2 : (-1 : ℚ) < ((n - m : ℤ) : ℚ) := by push_cast; linarith
  have : n - m < 1 := by exact_mod_cast l1
  have : -1 < n - m := by exact_mod_cast l2
  have : n = m := by omega
  subst this
  linarith

/-- C24: an orientation holds the fractional part of the number it is built from. -/
theorem C24_wraps (x : ℚ) : OnCircle x (mk' x).value := onCircle_mod1 x

/-- C24: addition and subtraction wrap around the circle. -/
theorem C24_add (x y : ℚ) : OnCircle (x + y) (add (mk' x) (mk' y)).value ∧
    OnCircle (x - y) (sub (mk' x) (mk' y)).value ∧ OnCircle (x + y) (addFloat (mk' x) y).value := by
  obtain ⟨-, -, n, hn⟩ := onCircle_mod1 x
  obtain ⟨-, -, m, hm⟩ := onCircle_mod1 y
  refine ⟨?_, ?_, ?_⟩
  · obtain ⟨h1, h2, k, hk⟩ := onCircle_mod1 (mod1 x + mod1 y)
    exact ⟨h1, h2, n + m + k, by push_cast; simp only [add, mk']; linarith⟩
  · obtain ⟨h1, h2, k, hk⟩ := onCircle_mod1 (mod1 x - mod1 y)
    exact ⟨h1, h2, n - m + k, by push_cast; simp only [sub, mk']; linarith⟩
  · obtain ⟨h1, h2, k, hk⟩ := onCircle_mod1 (mod1 x + y)
    exact ⟨h1, h2, n + k, by push_cast; simp only [addFloat, mk']; linarith⟩

example : (add (mk' (3/4)) (mk' (1/2))).value = 1/4 := by decide +kernel

/-- C24: opposite is half a turn, and opposite twice is the same orientation. -/
theorem C24_opposite (x : ℚ) : OnCircle (x + 1/2) (mk' x).opposite.value ∧
    (mk' x).opposite.opposite.value = (mk' x).value := by
  have key : ∀ y : ℚ, OnCircle (y + 1/2) (mod1 (mod1 (mod1 y + 1/2))) := by
    intro y
    obtain ⟨-, -, n, hn⟩ := onCircle_mod1 y
    obtain ⟨-, -, m, hm⟩ := onCircle_mod1 (mod1 y + 1/2)
    obtain ⟨h1, h2, k, hk⟩ := onCircle_mod1 (mod1 (mod1 y + 1/2))
    exact ⟨h1, h2, n + m + k, by push_cast; linarith⟩
  refine ⟨key x, ?_⟩
  have h2 := key (mod1 (mod1 x + 1/2))
  obtain ⟨-, -, n, hn⟩ := onCircle_mod1 x
  obtain ⟨-, -, m, hm⟩ := onCircle_mod1 (mod1 x + 1/2)
  obtain ⟨a1, a2, k, hk⟩ := h2
  refine OnCircle.unique (x := x) ⟨a1, a2, n + m + k - 1, ?_⟩ (onCircle_mod1 x)
  push_cast
  simp only [mk', opposite] at *
  linarith

example : (mk' (9/10)).opposite.value = 2/5 := by decide +kernel

/-- C24: a principal direction survives the round trip through an orientation. -/
theorem C24_direction_roundtrip (d : Direction) (hd : d.val % 2 = 0) :
    ∃ o, d.toOrientation = .ok o ∧ OnCircle (d.val / 16) o.value ∧ o.toDirection true = .ok d ∧
      (d.val % 4 = 0 → o.toDirection false = .ok d) := by
  have aux : ∀ x : ℚ, 0 ≤ x → x < 1 → ∀ y, x = y → OnCircle x y :=
    fun x h1 h2 y h => ⟨h ▸ h1, h ▸ h2, 0, by simp [h]⟩
  fin_cases d <;> simp at hd
  · exact ⟨mk' 0, rfl, aux _ (by norm_num) (by norm_num) _ (by decide +kernel), by decide +kernel, by decide +kernel⟩
  · exact ⟨mk' (1/8), rfl, aux _ (by norm_num) (by norm_num) _ (by decide +kernel), by decide +kernel, by decide +kernel⟩
  · exact ⟨mk' (1/4), rfl, aux _ (by norm_num) (by norm_num) _ (by decide +kernel), by decide +kernel, by decide +kernel⟩
  · exact ⟨mk' (3/8), rfl, aux _ (by norm_num) (by norm_num) _ (by decide +kernel), by decide +kernel, by decide +kernel⟩
  · exact ⟨mk' (1/2), rfl, aux _ (by norm_num) (by norm_num) _ (by decide +kernel), by decide +kernel, by decide +kernel⟩
  · exact ⟨mk' (5/8), rfl, aux _ (by norm_num) (by norm_num) _ (by decide +kernel), by decide +kernel, by decide +kernel⟩
  · exact ⟨mk' (3/4), rfl, aux _ (by norm_num) (by norm_num) _ (by decide +kernel), by decide +kernel, by decide +kernel⟩
  · exact ⟨mk' (7/8), rfl, aux _ (by norm_num) (by norm_num) _ (by decide +kernel), by decide +kernel, by decide +kernel⟩

example : (6 : Direction).val % 2 = 0 := rfl

/-- C24 fails for the intermediate winds: they have no orientation (`KeyError`). -/
theorem C24_direction_roundtrip_refuted (d : Direction) (hd : d.val % 2 = 1) :
    d.toOrientation = .error .keyError := by
  fin_cases d <;> simp at hd ⊢ <;> rfl

/-- C24 fails for legacy directions: east (2 of 8) becomes north-east, and every odd one is a `KeyError`. -/
theorem C24_legacy_orientation_refuted :
    (2 : LegacyDirection).toOrientation = .ok (mk' (1/8)) ∧
    ∀ d : LegacyDirection, d.val % 2 = 1 → d.toOrientation = .error .keyError := by
  refine ⟨rfl, ?_⟩
  intro d hd
  fin_cases d <;> simp at hd ⊢ <;> rfl

/-- Distance between two points of the circle of circumference one. -/
def circleDist (x y : ℚ) : ℚ := min (mod1 (x - y)) (mod1 (y - x))

theorem circleDist_le (x y : ℚ) : circleDist x y ≤ |x - y| := by
  unfold circleDist
  have h : ∀ z : ℚ, 0 ≤ z → mod1 z ≤ z := by
    intro z hz
    have : (0:ℚ) ≤ ⌊z⌋ := by exact_mod_cast Int.floor_nonneg.2 hz
    unfold mod1; linarith
  rcases le_total 0 (x - y) with hz | hz
  · rw [abs_of_nonneg hz]; exact (min_le_left _ _).trans (h _ hz)
  · rw [abs_of_nonpos hz]
    refine (min_le_right _ _).trans ((h (y - x) (by linarith)).trans (by linarith))

theorem toDirection_sixteen (x : ℚ) :
    ((mk' x).value < 31/32 → ∃ d, (mk' x).toDirection true = .ok d ∧ |(mk' x).value - (d.val : ℚ)/16| ≤ 1/32) ∧
    (31/32 ≤ (mk' x).value → (mk' x).toDirection true = .error .valueError) := by
  obtain ⟨h0, h1⟩ := mod1_range x
  obtain ⟨k, hk⟩ : ∃ k, k = pyRound ((mk' x).value * 16) := ⟨_, rfl⟩
  have hk' := hk
  obtain ⟨r1, r2⟩ := pyRound_spec ((mk' x).value * 16)
  have b := abs_le.1 r1
  simp only [toDirection, if_true, ← hk] at b ⊢
  constructor
  · intro hlt
    have e0 : -1 < k := by
      have : (-1:ℚ) < k := by simp only [mk'] at b; linarith
      exact_mod_cast this
    have e1 : k < 16 := by
      have : (k:ℚ) < 16 := by linarith
      exact_mod_cast this
    refine ⟨⟨k.toNat, by omega⟩, ?_, ?_⟩
    · unfold Direction.mk?; rw [dif_pos ⟨by omega, e1⟩]
    · have hc : ((k.toNat : ℕ) : ℚ) = (k:ℚ) := by
        have : ((k.toNat : ℕ) : ℤ) = k := by omega
        exact_mod_cast congrArg (fun z : ℤ => (z:ℚ)) this
      simp only [hc]
      rw [abs_le]; constructor <;> linarith
  · intro hge
    have e1 : 15 < k := by
      rcases eq_or_lt_of_le hge with he | hlt
      · have : k = 16 := by
          rw [hk, ← he]; decide +kernel
        omega
      · have : (15:ℚ) < k := by linarith
        exact_mod_cast this
    unfold Direction.mk?; rw [dif_neg (by omega)]

theorem toDirection_four (x : ℚ) :
    ((mk' x).value < 7/8 → ∃ d, (mk' x).toDirection false = .ok d ∧ d.val % 4 = 0 ∧
      |(mk' x).value - (d.val : ℚ)/16| ≤ 1/8) ∧
    (7/8 ≤ (mk' x).value → (mk' x).toDirection false = .error .valueError) := by
  obtain ⟨h0, h1⟩ := mod1_range x
  obtain ⟨k, hk⟩ : ∃ k, k = pyRound ((mk' x).value * 4) := ⟨_, rfl⟩
  have hk' := hk
  obtain ⟨r1, r2⟩ := pyRound_spec ((mk' x).value * 4)
  have b := abs_le.1 r1
  simp only [toDirection, Bool.false_eq_true, if_false, ← hk] at b ⊢
  constructor
  · intro hlt
    have e0 : -1 < k := by
      have : (-1:ℚ) < k := by simp only [mk'] at b; linarith
      exact_mod_cast this
    have e1 : k < 4 := by
      have : (k:ℚ) < 4 := by linarith
      exact_mod_cast this
    refine ⟨⟨(k * 4).toNat, by omega⟩, ?_, ?_, ?_⟩
    · unfold Direction.mk?; rw [dif_pos ⟨by omega, by omega⟩]
    · simp only; omega
    · have hc : (((k * 4).toNat : ℕ) : ℚ) = (k:ℚ) * 4 := by
        have : (((k * 4).toNat : ℕ) : ℤ) = k * 4 := by omega
        have := congrArg (fun z : ℤ => (z:ℚ)) this
        push_cast at this
        exact this
      simp only [hc]
      rw [abs_le]; constructor <;> linarith
  · intro hge
    have e1 : 3 < k := by
      rcases eq_or_lt_of_le hge with he | hlt
      · have : k = 4 := by
          rw [hk, ← he]; decide +kernel
        omega
      · have : (3:ℚ) < k := by linarith
        exact_mod_cast this
    unfold Direction.mk?; rw [dif_neg (by omega)]

/-- On the circle, nothing on a grid of spacing `1/n` is closer than a grid point within `1/(2n)`. -/
theorem nearest_of_within {v : ℚ} (n : ℕ) (hn : 0 < n) (a b : ℤ) (h : |v - (a:ℚ)/n| ≤ 1/(2*n)) :
    circleDist v ((a:ℚ)/n) ≤ circleDist v ((b:ℚ)/n) := by
  have hn' : (0:ℚ) < n := by exact_mod_cast hn
  by_cases hab : ∃ m : ℤ, a = b + m * n
  · obtain ⟨m, rfl⟩ := hab
    have e : ((b + m * n : ℤ) : ℚ) / n = (b:ℚ)/n + m := by push_cast; field_simp
    have s1 : ∀ y : ℚ, mod1 (y - m) = mod1 y := by
      intro y; unfold mod1; rw [Int.floor_sub_intCast]; push_cast; ring
    have s2 : ∀ y : ℚ, mod1 (y + m) = mod1 y := by
      intro y; unfold mod1; rw [Int.floor_add_intCast]; push_cast; ring
    unfold circleDist
    rw [e, show v - ((b:ℚ)/n + m) = v - b/n - m by ring, show (b:ℚ)/n + m - v = b/n - v + m by ring, s1, s2]
  · push Not at hab
    refine (circleDist_le _ _).trans (h.trans ?_)
    have far : ∀ k : ℤ, 1/(2*(n:ℚ)) ≤ |v - (b:ℚ)/n - k| := by
      intro k
      have hne : a ≠ b + k * n := hab k
      have hz : (1:ℚ) ≤ |((a - (b + k * n) : ℤ) : ℚ)| := by
        rw [← Int.cast_abs]
        have : (1:ℤ) ≤ |a - (b + k * n)| := Int.one_le_abs (by omega)
        exact_mod_cast this
      have e : ((a - (b + k * n) : ℤ) : ℚ) / n = (v - (b:ℚ)/n - k) - (v - (a:ℚ)/n) := by
        push_cast; field_simp; ring
      have h2 : |((a - (b + k * n) : ℤ) : ℚ) / n| = |((a - (b + k * n) : ℤ) : ℚ)| / n := by
        rw [abs_div, abs_of_pos hn']
      have h3 : 1/(n:ℚ) ≤ |((a - (b + k * n) : ℤ) : ℚ) / n| := by
        rw [h2]; exact div_le_div_of_nonneg_right hz hn'.le
      rw [e] at h3
      have h4 := abs_sub (v - (b:ℚ)/n - k) (v - (a:ℚ)/n)
      have h5 : 1/(n:ℚ) = 1/(2*n) + 1/(2*n) := by field_simp; ring
      linarith
    unfold circleDist
    apply le_min
    · have := far ⌊v - (b:ℚ)/n⌋
      rwa [show v - (b:ℚ)/n - ⌊v - (b:ℚ)/n⌋ = mod1 (v - b/n) from rfl, abs_of_nonneg (mod1_range _).1] at this
    · have := far (-⌊(b:ℚ)/n - v⌋)
      rw [← abs_neg] at this
      have e : -(v - (b:ℚ)/n - ((-⌊(b:ℚ)/n - v⌋ : ℤ) : ℚ)) = mod1 ((b:ℚ)/n - v) := by
        unfold mod1; push_cast; ring
      rw [e, abs_of_nonneg (mod1_range _).1] at this
      exact this

/-- C24, sixteen-way, restricted to orientations below 31/32 of a turn: the result is a direction nearest on
the circle. Missing: the last 1/32 of the circle, where the conversion raises
(`C24_to_direction_refuted`). -/
theorem C24_nearest_sixteen_partial (x : ℚ) (h : (mk' x).value < 31/32) :
    ∃ d, (mk' x).toDirection true = .ok d ∧
      ∀ e : Direction, circleDist (mk' x).value ((d.val : ℚ)/16) ≤ circleDist (mk' x).value ((e.val : ℚ)/16) := by
  obtain ⟨d, hd, hb⟩ := (toDirection_sixteen x).1 h
  refine ⟨d, hd, fun e => ?_⟩
  have := nearest_of_within (v := (mk' x).value) 16 (by norm_num) d.val e.val (by push_cast; norm_num at hb ⊢; exact hb)
  simpa using this

example : (mk' (1/3)).value < 31/32 ∧ (mk' (1/3)).toDirection true = .ok 5 := by decide +kernel

/-- C24, four-way, restricted to orientations below 7/8 of a turn: the result is a nearest cardinal
direction. Missing: from 7/8 (north-west) on, where the conversion raises. -/
theorem C24_nearest_four_partial (x : ℚ) (h : (mk' x).value < 7/8) :
    ∃ d, (mk' x).toDirection false = .ok d ∧ d.val % 4 = 0 ∧ ∀ e : Direction, e.val % 4 = 0 →
      circleDist (mk' x).value ((d.val : ℚ)/16) ≤ circleDist (mk' x).value ((e.val : ℚ)/16) := by
  obtain ⟨d, hd, hm, hb⟩ := (toDirection_four x).1 h
  refine ⟨d, hd, hm, fun e he => ?_⟩
  have conv : ∀ f : Direction, f.val % 4 = 0 → ((f.val : ℚ)/16) = (((f.val / 4 : ℕ) : ℤ) : ℚ) / (4:ℕ) := by
    intro f hf
    have : f.val = 4 * (f.val / 4) := by omega
    have h' : (f.val : ℚ) = 4 * ((f.val / 4 : ℕ) : ℚ) := by exact_mod_cast this
    rw [h', Int.cast_natCast, Nat.cast_ofNat]; ring
  rw [conv d hm] at hb ⊢
  rw [conv e he]
  exact nearest_of_within 4 (by norm_num) _ _ (by norm_num at hb ⊢; exact hb)

example : (mk' (1/3)).toDirection false = .ok 4 := by decide +kernel

/-- C24 fails: every orientation in the last thirty-second of the circle (sixteen-way) or from north-west on
(four-way) cannot be converted at all; `Orientation.NORTHWEST.to_direction()` raises `ValueError`. -/
theorem C24_to_direction_refuted (x : ℚ) :
    (31/32 ≤ (mk' x).value → (mk' x).toDirection true = .error .valueError) ∧
    (7/8 ≤ (mk' x).value → (mk' x).toDirection false = .error .valueError) ∧
    (mk' (7/8)).toDirection = .error .valueError :=
  ⟨(toDirection_sixteen x).2, (toDirection_four x).2, by decide +kernel⟩

example : 31/32 ≤ (mk' (99/100)).value := by decide +kernel

/-! ### C58 -/

/-- C58: equality and `<` follow the position on the circle. -/
theorem C58_eq_lt (x y v w : ℚ) (hx : OnCircle x v) (hy : OnCircle y w) :
    (eq (mk' x) (mk' y) = true ↔ v = w) ∧ (lt (mk' x) (mk' y) = true ↔ v < w) := by
  have e1 := (onCircle_mod1 x).unique hx
  have e2 := (onCircle_mod1 y).unique hy
  simp [eq, lt, mk', e1, e2]

example : OnCircle (5/4) (1/4) := ⟨by norm_num, by norm_num, 1, by norm_num⟩

/-- C58, restricted to orientations built from numbers in `[0, 1)`: all six comparisons agree with the
order of the values. Missing: values outside, which arise from `+` (see `C58_refuted`). -/
theorem C58_consistent_partial (x y : ℚ) (hx : 0 ≤ x ∧ x < 1) (hy : 0 ≤ y ∧ y < 1) :
    (eq (mk' x) (mk' y) = true ↔ x = y) ∧ (lt (mk' x) (mk' y) = true ↔ x < y) ∧
    (gt (mk' x) (mk' y) = true ↔ x > y) ∧ (le (mk' x) (mk' y) = true ↔ x ≤ y) ∧
    (ge (mk' x) (mk' y) = true ↔ x ≥ y) ∧ (ne (mk' x) (mk' y) = true ↔ x ≠ y) := by
  have e1 := C58_eq_lt x y x y ⟨hx.1, hx.2, 0, by simp⟩ ⟨hy.1, hy.2, 0, by simp⟩
  exact ⟨e1.1, e1.2, decide_iff, decide_iff, decide_iff, decide_iff⟩

example : lt (mk' (1/8)) (mk' (1/4)) = true ∧ ge (mk' (1/8)) (mk' (1/4)) = false := by decide +kernel

/-- C58 fails: the sum of west and south is both smaller and greater than south-east, and equal to east
without being `<=` east. -/
theorem C58_refuted :
    lt (add (mk' (3/4)) (mk' (1/2))) (mk' (3/8)) = true ∧ gt (add (mk' (3/4)) (mk' (1/2))) (mk' (3/8)) = true ∧
    eq (add (mk' (3/4)) (mk' (1/2))) (mk' (1/4)) = true ∧ le (add (mk' (3/4)) (mk' (1/2))) (mk' (1/4)) = false := by
  decide +kernel

/-- C58 fails: the sum of west and south is both equal to and different from east. -/
theorem C58_ne_refuted : eq (add (mk' (3/4)) (mk' (1/2))) (mk' (1/4)) = true ∧ ne (add (mk' (3/4)) (mk' (1/2))) (mk' (1/4)) = true := by
  decide +kernel

end Orientation

/-! ### C25 -/
namespace Ticks

/-- C25: the number of ticks is sixty per second rounded to the nearest tick (ties to even), for every
span of time. -/
theorem C25_nearest (us : Int) :
    RoundsTo ((us : ℚ) * 60 / 1000000) (fromTimedelta (ofMicroseconds us)) := by
  rw [← pyRound_eq_iff]
  unfold fromTimedelta ofMicroseconds
  simp only
  have h : us = (us / 86400000000) * 86400000000 + (us % 86400000000 / 1000000) * 1000000 + us % 1000000 := by
    omega
  obtain ⟨k, hk⟩ : ∃ k : Int, k = us / 86400000000 * day + us % 86400000000 / 1000000 * second := ⟨_, rfl⟩
  have e : (us : ℚ) * 60 / 1000000 = ((us % 1000000 : Int) : ℚ) * 60 / 1000000 + (k : ℚ) := by
    have hq : (us : ℚ) = ((us / 86400000000 : Int) : ℚ) * 86400000000
        + ((us % 86400000000 / 1000000 : Int) : ℚ) * 1000000 + ((us % 1000000 : Int) : ℚ) := by
      exact_mod_cast h
    rw [hq, hk]
    simp only [day, second]
    push_cast
    ring
  rw [e, pyRound_add_int]
  · rw [hk]; ring
  · rw [hk]; unfold day second; omega

/-- C25: whole seconds convert exactly. -/
theorem C25_whole_seconds (s : Int) : fromTimedelta (ofMicroseconds (s * 1000000)) = 60 * s := by
  have := C25_nearest (s * 1000000)
  refine this.unique ?_
  have e : ((s * 1000000 : Int) : ℚ) * 60 / 1000000 - ((60 * s : Int) : ℚ) = 0 := by push_cast; ring
  unfold RoundsTo; rw [e]; simp

example : fromTimedelta (ofMicroseconds (263 * 1000000)) = 15780 ∧
    fromTimedelta (ofMicroseconds (-1500000)) = -90 := by decide +kernel

/-- C25: conversion is additive when one span is a whole number of seconds. -/
theorem C25_additive (s us : Int) :
    fromTimedelta (ofMicroseconds (s * 1000000 + us)) =
      fromTimedelta (ofMicroseconds (s * 1000000)) + fromTimedelta (ofMicroseconds us) := by
  rw [C25_whole_seconds]
  have h1 := pyRound_eq_iff.2 (C25_nearest (s * 1000000 + us))
  have h2 := pyRound_eq_iff.2 (C25_nearest us)
  rw [← h1, ← h2]
  have e : ((s * 1000000 + us : Int) : ℚ) * 60 / 1000000 = (us : ℚ) * 60 / 1000000 + ((60 * s : Int) : ℚ) := by
    push_cast; ring
  rw [e, pyRound_add_int _ _ (by omega)]
  ring

example : fromTimedelta (ofMicroseconds (2 * 1000000 + 250000)) = 135 := by decide +kernel

/-- C25: longer spans never have fewer ticks. -/
theorem C25_monotone (a b : Int) (h : a ≤ b) :
    fromTimedelta (ofMicroseconds a) ≤ fromTimedelta (ofMicroseconds b) := by
  have h1 := pyRound_eq_iff.2 (C25_nearest a)
  have h2 := pyRound_eq_iff.2 (C25_nearest b)
  rw [← h1, ← h2]
  apply pyRound_mono
  have : (a:ℚ) ≤ b := by exact_mod_cast h
  linarith

example : fromTimedelta (ofMicroseconds 999999) = 60 ∧ fromTimedelta (ofMicroseconds 1000000) = 60 := by
  decide +kernel

end Ticks

/-! ### C26 -/
namespace ValidationMode

/-- Specification: position in the documented order none < minimum < strict < pedantic. -/
def order : List ValidationMode := [.none, .minimum, .strict, .pedantic]

/-- `a` comes strictly before `b` in the documented order. -/
def Before (a b : ValidationMode) : Prop := ∃ p q r, order = p ++ a :: q ++ b :: r

theorem before_iff (a b : ValidationMode) : Before a b ↔ a.index < b.index := by
  constructor
  · rintro ⟨p, q, r, h⟩
    have h1 : order[p.length]? = some a := by rw [h]; simp
    have h2 : order[p.length + 1 + q.length]? = some b := by
      rw [h, List.getElem?_append_right (by simp; omega)]
      have : p.length + 1 + q.length - (p ++ a :: q).length = 0 := by simp; omega
      rw [this]; rfl
    have key : ∀ (n : Nat) (m : ValidationMode), order[n]? = some m → n = m.index := by
      intro n m hm
      match n with
      | 0 | 1 | 2 | 3 => simp [order] at hm; subst hm; rfl
      | n + 4 => simp [order] at hm
    have := key _ _ h1
    have := key _ _ h2
    omega
  · intro h
    cases a <;> cases b <;> simp [index] at h
    · exact ⟨[], [], [.strict, .pedantic], rfl⟩
    · exact ⟨[], [.minimum], [.pedantic], rfl⟩
    · exact ⟨[], [.minimum, .strict], [], rfl⟩
    · exact ⟨[.none], [], [.pedantic], rfl⟩
    · exact ⟨[.none], [.strict], [], rfl⟩
    · exact ⟨[.none, .minimum], [], [], rfl⟩

/-- C26: every comparison operator agrees with the documented order. -/
theorem C26_operators (a b : ValidationMode) :
    (lt a b = true ↔ Before a b) ∧ (gt a b = true ↔ Before b a) ∧ (eq a b = true ↔ a = b) ∧
    (ne a b = true ↔ a ≠ b) ∧ (le a b = true ↔ Before a b ∨ a = b) ∧ (ge a b = true ↔ Before b a ∨ a = b) := by
  simp only [before_iff]
  revert a b
  intro a b
  cases a <;> cases b <;> decide

/-- C26: the documented order is a strict total order. -/
theorem C26_total (a b c : ValidationMode) :
    (lt a b = true ∨ eq a b = true ∨ lt b a = true) ∧ ¬ (lt a b = true ∧ lt b a = true) ∧
    lt a a = false ∧ (lt a b = true → lt b c = true → lt a c = true) := by
  cases a <;> cases b <;> cases c <;> decide

/-- C26: a mode is truthy exactly when it is not `none`. -/
theorem C26_truthy (a : ValidationMode) : truthy a = true ↔ a ≠ .none := by
  cases a <;> decide

example : lt .minimum .pedantic = true ∧ ge .strict .pedantic = false := by decide

end ValidationMode
end Draftsman
