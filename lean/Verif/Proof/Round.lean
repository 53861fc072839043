import Mathlib.Tactic.Linarith
import Mathlib.Tactic.NormNum
import Verif.Model.Round
namespace Draftsman

/-- Specification of rounding: nearest integer, ties to the even one. -/
def RoundsTo (q : ℚ) (n : ℤ) : Prop :=
  |q - n| ≤ 1/2 ∧ (|q - n| = 1/2 → n % 2 = 0)

theorem pyRound_spec (q : ℚ) : RoundsTo q (pyRound q) := by
  have h1 := Int.floor_le q
  have h2 := Int.lt_floor_add_one q
  unfold RoundsTo pyRound
  simp only
  split_ifs with a b c
  · refine ⟨?_, ?_⟩
    · rw [abs_of_nonneg (by linarith)]; linarith
    · rw [abs_of_nonneg (by linarith)]; intro h; linarith
  · push_cast
    refine ⟨?_, ?_⟩
    · rw [abs_of_nonpos (by linarith)]; linarith
    · rw [abs_of_nonpos (by linarith)]; intro h; linarith
  · refine ⟨?_, fun _ => c⟩
    rw [abs_of_nonneg (by linarith)]; linarith
  · push_cast
    refine ⟨?_, fun _ => by omega⟩
    rw [abs_of_nonpos (by linarith)]; linarith

theorem RoundsTo.unique {q : ℚ} {m n : ℤ} (hm : RoundsTo q m) (hn : RoundsTo q n) : m = n := by
  obtain ⟨m1, m2⟩ := hm
  obtain ⟨n1, n2⟩ := hn
  have a1 := abs_le.1 m1
  have b1 := abs_le.1 n1
  by_contra hne
  rcases lt_or_gt_of_ne hne with h | h
  · have hq : (m:ℚ) + 1 ≤ n := by exact_mod_cast h
    have em : |q - m| = 1/2 := by rw [abs_of_nonneg (by linarith)]; linarith
    have en : |q - n| = 1/2 := by rw [abs_of_nonpos (by linarith)]; linarith
    have e1 := m2 em
    have e2 := n2 en
    have : (n:ℚ) = m + 1 := by linarith
    have : n = m + 1 := by exact_mod_cast this
    omega
  · have hq : (n:ℚ) + 1 ≤ m := by exact_mod_cast h
    have em : |q - m| = 1/2 := by rw [abs_of_nonpos (by linarith)]; linarith
    have en : |q - n| = 1/2 := by rw [abs_of_nonneg (by linarith)]; linarith
    have e1 := m2 em
    have e2 := n2 en
    have : (m:ℚ) = n + 1 := by linarith
    have : m = n + 1 := by exact_mod_cast this
    omega

theorem pyRound_eq_iff {q : ℚ} {n : ℤ} : pyRound q = n ↔ RoundsTo q n :=
  ⟨fun h => h ▸ pyRound_spec q, fun h => (pyRound_spec q).unique h⟩

theorem pyRound_intCast (n : ℤ) : pyRound (n : ℚ) = n := by
  rw [pyRound_eq_iff]; simp [RoundsTo]

theorem pyRound_add_int (q : ℚ) (n : ℤ) (h : n % 2 = 0) : pyRound (q + n) = pyRound q + n := by
  rw [pyRound_eq_iff]
  obtain ⟨h1, h2⟩ := pyRound_spec q
  have e : q + n - ((pyRound q + n : ℤ) : ℚ) = q - pyRound q := by push_cast; ring
  refine ⟨by rw [e]; exact h1, ?_⟩
  rw [e]; intro h'; have := h2 h'; omega

theorem pyRound_mono {p q : ℚ} (h : p ≤ q) : pyRound p ≤ pyRound q := by
  obtain ⟨p1, p2⟩ := pyRound_spec p
  obtain ⟨q1, q2⟩ := pyRound_spec q
  by_contra hlt
  push Not at hlt
  have a1 := abs_le.1 p1
  have b1 := abs_le.1 q1
  have hq : (pyRound q : ℚ) + 1 ≤ pyRound p := by exact_mod_cast hlt
  have ep : |p - pyRound p| = 1/2 := by rw [abs_of_nonpos (by linarith)]; linarith
  have eq : |q - pyRound q| = 1/2 := by rw [abs_of_nonneg (by linarith)]; linarith
  have e1 := p2 ep
  have e2 := q2 eq
  have : (pyRound p : ℚ) = pyRound q + 1 := by linarith
  have : pyRound p = pyRound q + 1 := by exact_mod_cast this
  omega

end Draftsman
