import Verif.Proof.Trains
import Mathlib.Tactic.IntervalCases
import Mathlib.Tactic.NormNum

namespace Draftsman

/-! ## C37: train discovery -/

/-- Squared distance of two points. -/
def sqDist (a b : Vec) : ℚ := (a.x - b.x) ^ 2 + (a.y - b.y) ^ 2

/-- The two bogies of a wagon lie two tiles before and behind its centre. -/
def bogie (w : Wagon) (s : ℚ) : Vec := ⟨w.pos.x + s * w.vec.x, w.pos.y + s * w.vec.y⟩

/-- The bogie of `b` that is nearer to the centre of `a` (the rear one if they are equally near) is `t`. -/
def NearBogie (a b : Wagon) (t : Vec) : Prop :=
  (t = bogie b 2 ∧ sqDist a.pos (bogie b 2) < sqDist a.pos (bogie b (-2))) ∨
  (t = bogie b (-2) ∧ sqDist a.pos (bogie b (-2)) ≤ sqDist a.pos (bogie b 2))

/-- Between 2.9 and 3.1 tiles apart. -/
def Hooked (p t : Vec) : Prop := (29/10) ^ 2 < sqDist p t ∧ sqDist p t ≤ (31/10) ^ 2

/-- The two wagons point the same or the opposite way, less than 45 degrees off, orientations being compared as numbers. -/
def PointsAlong (a b : Wagon) : Prop :=
  |b.orient - a.orient| < 1/8 ∨ |b.orient - Int.fract (a.orient + 1/2)| < 1/8

/-- The same as angles, that is modulo half a turn. -/
def Parallel (a b : Wagon) : Prop := ∃ k : ℤ, |b.orient - a.orient - k / 2| < 1/8

/-- `b` is coupled to `a`: it is in the layout and in reach, one of the bogies of `a` is at coupling distance from the nearer bogie of `b`,
and the orientations agree. -/
def Coupled (along : Wagon → Wagon → Prop) (all : List Wagon) (a b : Wagon) : Prop :=
  b ∈ all ∧ sqDist b.pos a.pos ≤ (15/2) ^ 2 ∧ along a b ∧ ∃ s : ℚ, (s = 2 ∨ s = -2) ∧ ∃ t, NearBogie a b t ∧ Hooked (bogie a s) t

theorem sqDist_eq (a b : Vec) : Wagon.dist2 a b = sqDist a b := by unfold Wagon.dist2 sqDist; ring

theorem bogie_eq (w : Wagon) (s : ℚ) : w.pos + Wagon.toVec w.vec s = bogie w s := by
  show Vec.mk _ _ = _
  simp only [bogie, Wagon.toVec, Vec.mk.injEq]
  constructor <;> ring

theorem nearBogie_iff (a b : Wagon) (t : Vec) : NearBogie a b t ↔ t = Wagon.truck a b := by
  unfold NearBogie Wagon.truck
  simp only [bogie_eq, sqDist_eq]
  split
  · constructor
    · rintro (h | h)
      · exact h.1
      · exact absurd h.2 (by linarith)
    · intro h; exact Or.inl ⟨h, by assumption⟩
  · constructor
    · rintro (h | h)
      · exact absurd h.2 (by linarith)
      · exact h.1
    · intro h; exact Or.inr ⟨h, by linarith⟩

theorem hooked_iff (p t : Vec) : Wagon.coupledAt p t = true ↔ Hooked p t := by
  simp only [Wagon.coupledAt, Hooked, sqDist_eq, Bool.and_eq_true, decide_eq_true_eq]
  norm_num

theorem aligned_iff (a b : Wagon) : a.aligned b = true ↔ PointsAlong a b := by
  have e : Wagon.opposite a.orient = Int.fract (a.orient + 1/2) := rfl
  simp only [Wagon.aligned, PointsAlong, Bool.or_eq_true, Bool.and_eq_true, decide_eq_true_eq, e, abs_lt]
  constructor
  · rintro (h | h)
    · exact Or.inl ⟨by linarith [h.1], by linarith [h.2]⟩
    · exact Or.inr ⟨by linarith [h.1], by linarith [h.2]⟩
  · rintro (h | h)
    · exact Or.inl ⟨by linarith [h.1], by linarith [h.2]⟩
    · exact Or.inr ⟨by linarith [h.1], by linarith [h.2]⟩

theorem coupled_iff (all : List Wagon) (a b : Wagon) :
    Coupled PointsAlong all a b ↔ b ∈ a.nearby all ∧ a.joined b = true := by
  have hj : a.joined b = true ↔ PointsAlong a b ∧ ∃ s : ℚ, (s = 2 ∨ s = -2) ∧ ∃ t, NearBogie a b t ∧ Hooked (bogie a s) t := by
    simp only [Wagon.joined, Bool.and_eq_true, aligned_iff, Bool.or_eq_true, Wagon.front, Wagon.back, hooked_iff]
    have ef : a.forward false = a.vec := rfl
    simp only [ef, bogie_eq, nearBogie_iff, exists_eq_left, or_and_right, exists_or]
  have hn : b ∈ a.nearby all ↔ b ∈ all ∧ sqDist b.pos a.pos ≤ (15/2) ^ 2 := by
    simp only [Wagon.nearby, List.mem_filter, decide_eq_true_eq, sqDist_eq]
    norm_num
  unfold Coupled
  rw [hj, hn, and_assoc]

/-- C37: discovery terminates; a recursion depth beyond the number of wagons changes nothing. -/
theorem C37_terminates (all : List Wagon) (w : Wagon) (n m : ℕ) (hn : all.length < n) (hm : all.length < m) :
    findTrain all n w = findTrain all m w := by
  unfold findTrain
  have h := fresh_le all ⟨[w], [w], true⟩
  rw [traverse_stable all n m w false ⟨[w], [w], true⟩ (by omega) (by omega)]

theorem findTrain_mem (all : List Wagon) (w : Wagon) (n : ℕ) (hn : all.length < n) (x : Wagon) :
    x ∈ findTrain all n w ↔ Relation.ReflTransGen (fun a b => b ∈ a.nearby all ∧ a.joined b = true) w x := by
  have h := fresh_le all ⟨[w], [w], true⟩
  obtain ⟨hp, hc⟩ := traverse_post all n w false ⟨[w], [w], true⟩ (by omega)
  have e : x ∈ findTrain all n w ↔ x ∈ (traverse all n w false ⟨[w], [w], true⟩).train := by
    unfold findTrain
    simp only
    split <;> simp
  have hw : w ∈ (traverse all n w false ⟨[w], [w], true⟩).used := hp.mono w (by simp)
  rw [e, hp.train (by simp)]
  constructor
  · intro hx
    rcases hp.reach x hx with h1 | h1
    · have : x = w := by simpa using h1
      subst this; exact Relation.ReflTransGen.refl
    · exact h1
  · intro hr
    clear e
    induction hr with
    | refl => exact hw
    | @tail b c _ hbc ih =>
      by_cases hb : b = w
      · subst hb; exact hc c hbc.1 hbc.2
      · exact hp.closed b ih (by simpa using hb) c hbc.1 hbc.2

/-- C37: what is returned are exactly the wagons coupled to the starting one, directly or through others, orientations being compared as
numbers. -/
theorem C37_members (all : List Wagon) (w : Wagon) (n : ℕ) (hn : all.length < n) (x : Wagon) :
    x ∈ findTrain all n w ↔ Relation.ReflTransGen (Coupled PointsAlong all) w x := by
  rw [findTrain_mem all w n hn x]
  have e : (fun a b => b ∈ a.nearby all ∧ a.joined b = true) = Coupled PointsAlong all := by
    funext a b
    exact propext (coupled_iff all a b).symm
  rw [e]

/-- Orientations one of the eight compass points. -/
def Compass (w : Wagon) : Prop := ∃ k : ℕ, k < 8 ∧ w.orient = k / 8

theorem compass_parallel {a b : Wagon} (ha : Compass a) (hb : Compass b) : PointsAlong a b ↔ Parallel a b := by
  obtain ⟨i, hi, ei⟩ := ha
  obtain ⟨j, hj, ej⟩ := hb
  have hfr : Int.fract (a.orient + 1/2) = if i < 4 then a.orient + 1/2 else a.orient - 1/2 := by
    split
    · rename_i h
      rw [Int.fract_eq_iff]
      have : (i : ℚ) ≤ 3 := by exact_mod_cast (by omega : i ≤ 3)
      refine ⟨by rw [ei]; positivity, by rw [ei]; linarith, 0, by simp⟩
    · rename_i h
      rw [Int.fract_eq_iff]
      have h1 : (4 : ℚ) ≤ i := by exact_mod_cast (by omega : 4 ≤ i)
      have h2 : (i : ℚ) ≤ 7 := by exact_mod_cast (by omega : i ≤ 7)
      refine ⟨by rw [ei]; linarith, by rw [ei]; linarith, 1, by push_cast; ring⟩
  constructor
  · rintro (h | h)
    · exact ⟨0, by simpa using h⟩
    · rw [hfr] at h
      split at h
      · refine ⟨1, ?_⟩
        rw [show b.orient - a.orient - ((1 : ℤ) : ℚ) / 2 = b.orient - (a.orient + 1/2) by push_cast; ring]; exact h
      · refine ⟨-1, ?_⟩
        rw [show b.orient - a.orient - ((-1 : ℤ) : ℚ) / 2 = b.orient - (a.orient - 1/2) by push_cast; ring]; exact h
  · rintro ⟨k, hk⟩
    have hz : (j : ℤ) - i - 4 * k = 0 := by
      have h8 : |((j : ℤ) - i - 4 * k : ℤ)| < 1 := by
        have : |(((j : ℤ) - i - 4 * k : ℤ) : ℚ)| < 1 := by
          have e : (((j : ℤ) - i - 4 * k : ℤ) : ℚ) = 8 * (b.orient - a.orient - k / 2) := by rw [ei, ej]; push_cast; ring
          rw [e, abs_mul, abs_of_pos (by norm_num : (0 : ℚ) < 8)]
          linarith
        exact_mod_cast this
      rw [abs_lt] at h8
      omega
    unfold PointsAlong
    rw [hfr, ei, ej]
    have hk3 : k = 0 ∨ k = 1 ∨ k = -1 := by omega
    rcases hk3 with rfl | rfl | rfl
    · left
      have : j = i := by omega
      subst this; norm_num
    · right
      have : j = i + 4 := by omega
      subst this
      rw [if_pos (by omega)]
      push_cast
      rw [show ((i : ℚ) + 4) / 8 - (i / 8 + 1 / 2) = 0 by ring]; norm_num
    · right
      have : i = j + 4 := by omega
      subst this
      rw [if_neg (by omega)]
      push_cast
      rw [show (j : ℚ) / 8 - ((j + 4) / 8 - 1 / 2) = 0 by ring]; norm_num

/-- C37: for wagons along the compass points, orientations may be compared as angles. -/
theorem C37_compass_partial (all : List Wagon) (w : Wagon) (hw : w ∈ all) (hc : ∀ a ∈ all, Compass a) (n : ℕ) (hn : all.length < n)
    (x : Wagon) : x ∈ findTrain all n w ↔ Relation.ReflTransGen (Coupled Parallel all) w x := by
  rw [C37_members all w n hn x]
  have key : ∀ a ∈ all, ∀ b, Coupled PointsAlong all a b ↔ Coupled Parallel all a b := by
    intro a ha b
    constructor
    · rintro ⟨h1, h2, h3, h4⟩; exact ⟨h1, h2, (compass_parallel (hc a ha) (hc b h1)).1 h3, h4⟩
    · rintro ⟨h1, h2, h3, h4⟩; exact ⟨h1, h2, (compass_parallel (hc a ha) (hc b h1)).2 h3, h4⟩
  constructor
  · intro h
    have : x ∈ all ∧ Relation.ReflTransGen (Coupled Parallel all) w x := by
      induction h with
      | refl => exact ⟨hw, Relation.ReflTransGen.refl⟩
      | tail _ hbc ih => exact ⟨hbc.1, ih.2.tail ((key _ ih.1 _).1 hbc)⟩
    exact this.2
  · intro h
    have : x ∈ all ∧ Relation.ReflTransGen (Coupled PointsAlong all) w x := by
      induction h with
      | refl => exact ⟨hw, Relation.ReflTransGen.refl⟩
      | tail _ hbc ih => exact ⟨hbc.1, ih.2.tail ((key _ ih.1 _).2 hbc)⟩
    exact this.2

/-- C37: each is returned once, provided that no bogie is at coupling distance from both bogies of another wagon. -/
theorem C37_once_partial (all : List Wagon) (w : Wagon) (hw : w ∈ all) (n : ℕ) (hn : all.length < n)
    (hno : ∀ a ∈ all, ∀ b ∈ all, ∀ t, NearBogie a b t → ¬ (Hooked (bogie a 2) t ∧ Hooked (bogie a (-2)) t)) :
    (findTrain all n w).Nodup := by
  have h := fresh_le all ⟨[w], [w], true⟩
  have hn' := traverse_nodup all ?_ n w false ⟨[w], [w], true⟩ hw (by omega) (by simp)
  · unfold findTrain
    simp only
    split
    · exact List.nodup_reverse.2 hn'.1
    · exact hn'.1
  · intro a ha b hb _ ⟨h1, h2⟩
    have ef : a.forward false = a.vec := rfl
    simp only [Wagon.front, Wagon.back, hooked_iff, ef, bogie_eq] at h1 h2
    exact hno a ha b hb _ ((nearBogie_iff a b _).2 rfl) ⟨h1, h2⟩

/-- The search is by position and radius around the wagon, so two wagons in line 7 tiles apart, both facing north. -/
def exWagonA : Wagon := ⟨1, ⟨0, 0⟩, 0, ⟨0, -1⟩, true⟩
def exWagonB : Wagon := ⟨2, ⟨0, 7⟩, 0, ⟨0, -1⟩, false⟩
def exWagonC : Wagon := ⟨3, ⟨0, 14⟩, 1/2, ⟨0, 1⟩, true⟩
def exWagonD : Wagon := ⟨4, ⟨4, 7⟩, 0, ⟨0, -1⟩, true⟩

example : findTrain [exWagonD, exWagonC, exWagonB, exWagonA] 5 exWagonB = [exWagonA, exWagonB, exWagonC] := by decide +kernel

example : ∀ a ∈ [exWagonD, exWagonC, exWagonB, exWagonA], Compass a := by
  intro a ha
  simp only [List.mem_cons, List.not_mem_nil, or_false] at ha
  rcases ha with rfl | rfl | rfl | rfl
  · exact ⟨0, by decide, by decide +kernel⟩
  · exact ⟨4, by decide, by decide +kernel⟩
  · exact ⟨0, by decide, by decide +kernel⟩
  · exact ⟨0, by decide, by decide +kernel⟩

/-- The hypothesis of `C37_once_partial` holds of this layout. -/
example : ∀ a ∈ [exWagonC, exWagonB, exWagonA], ∀ b ∈ [exWagonC, exWagonB, exWagonA], ∀ t, NearBogie a b t →
    ¬ (Hooked (bogie a 2) t ∧ Hooked (bogie a (-2)) t) := by
  intro a ha b hb t ht
  rw [nearBogie_iff] at ht
  subst ht
  rw [← hooked_iff, ← hooked_iff]
  revert b
  revert a
  decide +kernel

/-- A loop of two wagons joined at both ends is possible only with curved rails; here a wagon beside another, its bogie level with the
centre. -/
def exBeside : Wagon := ⟨5, ⟨9/4, 2⟩, 0, ⟨0, -1⟩, false⟩

/-- C37 refuted: a wagon near both bogies of another is returned twice. -/
theorem C37_twice_refuted : ∃ (all : List Wagon) (w : Wagon), w ∈ all ∧ all.Nodup ∧ ∀ n, all.length < n → ¬ (findTrain all n w).Nodup := by
  refine ⟨[exWagonA, exBeside], exWagonA, by simp, by decide +kernel, ?_⟩
  intro n hn
  rw [C37_terminates _ _ n 3 hn (by decide)]
  decide +kernel

/-- A wagon turned left by a twentieth of a turn (a vector near to the sine and cosine). -/
def exTurned : Wagon := ⟨6, ⟨3/5, 69/10⟩, 19/20, ⟨-3/10, -19/20⟩, false⟩

/-- C37 refuted for angles: north (0) and slightly left of north (0.95) are not recognised as parallel. -/
theorem C37_wrap_refuted : ∃ (all : List Wagon) (w x : Wagon), w ∈ all ∧ Coupled Parallel all w x ∧
    ∀ n, all.length < n → x ∉ findTrain all n w := by
  refine ⟨[exWagonA, exTurned], exWagonA, exTurned, by simp, ⟨by simp, ?_, ⟨2, ?_⟩, -2, Or.inr rfl, bogie exTurned 2, ?_, ?_⟩, ?_⟩
  · decide +kernel
  · rw [abs_lt]; constructor <;> (simp only [exWagonA, exTurned]; norm_num)
  · rw [nearBogie_iff]; decide +kernel
  · rw [← hooked_iff]; decide +kernel
  · intro n hn
    rw [C37_terminates _ _ n 3 hn (by decide)]
    decide +kernel

end Draftsman
