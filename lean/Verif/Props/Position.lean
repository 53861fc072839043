import Mathlib.Tactic.Linarith
import Mathlib.Tactic.Ring
import Verif.Model.Position
import Verif.Proof.Round
/-
C27, C28: position, tile position, footprint and direction of one entity.
-/
namespace Draftsman.PEnt

/-! ### C27 -/

/-- Specification: position is tile position plus half the current footprint. -/
def Agree (e : PEnt) : Prop := e.pos.x = e.tile.x + e.w / 2 ∧ e.pos.y = e.tile.y + e.h / 2

/-- The footprint of a four-way entity is its static one or the transposed one. -/
def DimsOk (e : PEnt) : Prop := (e.w = e.sw ∧ e.h = e.sh) ∨ (e.w = e.sh ∧ e.h = e.sw)

/-- Specification: `p` is a grid-aligned position for the footprint of `e`. -/
def Aligned (e : PEnt) (p : Vec) (i j : ℤ) : Prop := p.x = i + e.w / 2 ∧ p.y = j + e.h / 2

theorem pyTrunc_intCast (n : ℤ) : pyTrunc (n : ℚ) = n := by unfold pyTrunc; split <;> simp

/-- C27: after setting the tile position (in either way) the two positions agree. -/
theorem C27_set_tile (e : PEnt) (v : PosArg) : Agree (e.setTilePosition v) := ⟨rfl, rfl⟩

/-- C27: a tile position reads back as it was set. -/
theorem C27_tile_readback (e : PEnt) (x y : ℤ) :
    (e.setTilePosition (.tuple x y)).tile = ⟨x, y⟩ ∧ (e.setTilePosition (.vector ⟨x, y⟩)).tile = ⟨x, y⟩ := by
  simp [setTilePosition, PosArg.toInt, pyTrunc_intCast]

/-- C27: a tile position given by coordinates is made whole by cutting off the fraction. -/
theorem C27_tile_whole (e : PEnt) (x y : ℚ) :
    ∃ i j : ℤ, (e.setTilePosition (.tuple x y)).tile = ⟨i, j⟩ ∧ |(i : ℚ)| ≤ |x| ∧ |x - i| < 1 ∧ |(j : ℚ)| ≤ |y| ∧ |y - j| < 1 := by
  have key : ∀ q : ℚ, |((pyTrunc q : ℤ) : ℚ)| ≤ |q| ∧ |q - (pyTrunc q : ℤ)| < 1 := by
    intro q
    unfold pyTrunc
    split
    · rename_i h
      have h1 := Int.floor_le q
      have h2 := Int.lt_floor_add_one q
      have h3 : (0 : ℚ) ≤ (⌊q⌋ : ℤ) := by exact_mod_cast Int.floor_nonneg.2 h
      rw [abs_of_nonneg h3, abs_of_nonneg h, abs_lt]
      exact ⟨h1, by linarith, by linarith⟩
    · rename_i h
      push Not at h
      have h1 := Int.le_ceil q
      have h2 := Int.ceil_lt_add_one q
      have h3 : ((⌈q⌉ : ℤ) : ℚ) ≤ 0 := by exact_mod_cast Int.ceil_le.2 (by simpa using h.le)
      rw [abs_of_nonpos h3, abs_of_neg h, abs_lt]
      exact ⟨by linarith, by linarith, by linarith⟩
  exact ⟨pyTrunc x, pyTrunc y, rfl, (key x).1, (key x).2, (key y).1, (key y).2⟩

/-- A tile position given as a vector is taken as it is, so it need not be whole. -/
theorem C27_tile_vector (e : PEnt) (v : Vec) : (e.setTilePosition (.vector v)).tile = v := rfl

/-- C27: setting a grid-aligned position gives exactly that position and the tile position it stands for. -/
theorem C27_set_position (e : PEnt) (hh : e.held = false) (hg : e.turning ≠ .group) (v : PosArg) (i j : ℤ)
    (ha : Aligned e v.toFloat i j) :
    ∃ e', e.setPosition v = .ok e' ∧ e'.pos = v.toFloat ∧ e'.tile = ⟨i, j⟩ ∧ Agree e' := by
  obtain ⟨hx, hy⟩ := ha
  have ex : v.toFloat.x - (e.w:ℚ) / 2 = (i : ℚ) := by rw [hx]; ring
  have ey : v.toFloat.y - (e.h:ℚ) / 2 = (j : ℚ) := by rw [hy]; ring
  refine ⟨{ e with pos := v.toFloat, tile := ⟨i, j⟩ }, ?_, rfl, rfl, hx, hy⟩
  unfold setPosition
  rw [if_neg (by simp [hh])]
  cases ht : e.turning <;> simp_all [pyRound_intCast]

/-- C27: for any position at all, the tile position is a nearest one (at most half a tile off). -/
theorem C27_set_position_near (e e' : PEnt) (hg : e.turning ≠ .group) (v : PosArg) (h : e.setPosition v = .ok e') :
    e'.pos = v.toFloat ∧ (∃ i j : ℤ, e'.tile = ⟨i, j⟩) ∧
    |e'.pos.x - (e'.tile.x + e'.w / 2)| ≤ 1/2 ∧ |e'.pos.y - (e'.tile.y + e'.h / 2)| ≤ 1/2 := by
  unfold setPosition at h
  split at h
  · simp at h
  have key : e' = { e with
      pos := v.toFloat
      tile := ⟨pyRound (v.toFloat.x - e.w / 2), pyRound (v.toFloat.y - e.h / 2)⟩ } := by
    cases ht : e.turning <;> simp_all
  subst key
  have h1 := (pyRound_spec (v.toFloat.x - e.w / 2)).1
  have h2 := (pyRound_spec (v.toFloat.y - e.h / 2)).1
  refine ⟨rfl, ⟨_, _, rfl⟩, ?_, ?_⟩
  · simp only; rw [show v.toFloat.x - ((pyRound (v.toFloat.x - e.w/2) : ℚ) + (e.w:ℚ)/2)
      = v.toFloat.x - e.w/2 - pyRound (v.toFloat.x - e.w/2) by ring]; exact h1
  · simp only; rw [show v.toFloat.y - ((pyRound (v.toFloat.y - e.h/2) : ℚ) + (e.h:ℚ)/2)
      = v.toFloat.y - e.h/2 - pyRound (v.toFloat.y - e.h/2) by ring]; exact h2

theorem setTile_self (e : PEnt) :
    (e.setTilePosition (.vector e.tile)).tile = e.tile ∧ (e.setTilePosition (.vector e.tile)).w = e.w ∧
    (e.setTilePosition (.vector e.tile)).h = e.h := ⟨rfl, rfl, rfl⟩

/-- C27: changing the direction never moves the top-left tile and keeps the two positions in agreement. -/
theorem C27_set_direction (e e' : PEnt) (v : Option Int) (ha : Agree e) (hd : DimsOk e)
    (h : e.setDirection v = .ok e') : e'.tile = e.tile ∧ Agree e' ∧ DimsOk e' := by
  unfold setDirection at h
  cases ht : e.turning
  · simp [ht] at h
  · simp only [ht, setDirection4] at h
    cases hc : checkDirection .fourWay e.mode v with
    | error err => simp [hc, bind, Except.bind] at h
    | ok d =>
      simp only [hc, bind, Except.bind, pure, Except.pure] at h
      obtain ⟨nw, hnw⟩ : ∃ nw, nw = if v = some 4 ∨ v = some 12 then e.sh else e.sw := ⟨_, rfl⟩
      obtain ⟨nh, hnh⟩ : ∃ nh, nh = if v = some 4 ∨ v = some 12 then e.sw else e.sh := ⟨_, rfl⟩
      rw [← hnw, ← hnh] at h
      have hdims : (nw = e.sw ∧ nh = e.sh) ∨ (nw = e.sh ∧ nh = e.sw) := by
        rw [hnw, hnh]; split <;> simp
      split at h
      · simp only [Except.ok.injEq] at h; subst h
        exact ⟨rfl, ⟨rfl, rfl⟩, hdims⟩
      · rename_i hcond
        simp only [Except.ok.injEq] at h; subst h
        refine ⟨rfl, ?_, hdims⟩
        have hw : e.w = nw ∧ e.h = nh := by
          unfold DimsOk at hd
          by_contra hcon
          apply hcond
          rcases hd with ⟨a, b⟩ | ⟨a, b⟩ <;> rcases hdims with ⟨c, d⟩ | ⟨c, d⟩ <;>
            simp_all
        unfold Agree at ha ⊢
        simp only [← hw.1, ← hw.2]
        exact ha
  · simp only [ht, setDirection8] at h
    cases hc : checkDirection .eightWay e.mode v with
    | error err => simp [hc, bind, Except.bind] at h
    | ok d =>
      simp only [hc, bind, Except.bind, pure, Except.pure, Except.ok.injEq] at h
      subst h
      refine ⟨rfl, ⟨rfl, rfl⟩, ?_⟩
      unfold DimsOk setTilePosition
      simp only
      split <;> simp
  · simp [ht] at h

theorem setDirection4_turning {e e' : PEnt} {v : Option Int} (h : e.setDirection4 v = .ok e') :
    e'.turning = e.turning := by
  unfold setDirection4 at h
  cases hc : checkDirection .fourWay e.mode v with
  | error err => simp [hc, bind, Except.bind] at h
  | ok d =>
    simp only [hc, bind, Except.bind, pure, Except.pure] at h
    generalize (if v = some 4 ∨ v = some 12 then e.sh else e.sw) = nw at h
    generalize (if v = some 4 ∨ v = some 12 then e.sw else e.sh) = nh at h
    by_cases hcond : nw ≠ nh ∧ e.w ≠ nw ∧ e.h ≠ nh
    · rw [if_pos hcond, Except.ok.injEq] at h; subst h; rfl
    · rw [if_neg hcond, Except.ok.injEq] at h; subst h; rfl

theorem setDirection8_turning {e e' : PEnt} {v : Option Int} (h : e.setDirection8 v = .ok e') :
    e'.turning = e.turning := by
  unfold setDirection8 at h
  cases hc : checkDirection .eightWay e.mode v with
  | error err => simp [hc, bind, Except.bind] at h
  | ok d =>
    simp only [hc, bind, Except.bind, pure, Except.pure, Except.ok.injEq] at h
    subst h; rfl

/-- States reachable by any sequence of setter calls whose positions are grid-aligned for the footprint at
that moment (calls that raise change nothing). -/
inductive Reach (e : PEnt) : PEnt → Prop where
  | refl : Reach e e
  | tile {a} (v : PosArg) : Reach e a → Reach e (a.setTilePosition v)
  | position {a b} (v : PosArg) (i j : ℤ) : Reach e a → Aligned a v.toFloat i j → a.setPosition v = .ok b → Reach e b
  | direction {a b} (v : Option Int) : Reach e a → a.setDirection v = .ok b → Reach e b

/-- C27: the agreement survives every sequence of setter calls. -/
theorem C27_history (e e' : PEnt) (hg : e.turning ≠ .group) (ha : Agree e) (hd : DimsOk e) (h : Reach e e') :
    Agree e' ∧ DimsOk e' := by
  suffices Agree e' ∧ DimsOk e' ∧ e'.turning = e.turning from ⟨this.1, this.2.1⟩
  induction h with
  | refl => exact ⟨ha, hd, rfl⟩
  | tile v _ ih => exact ⟨⟨rfl, rfl⟩, ih.2.1, ih.2.2⟩
  | @position a b v i j _ hal hs ih =>
    obtain ⟨_, h2, h3⟩ := ih
    have hnh : a.held = false := by
      by_contra hx
      simp only [Bool.not_eq_false] at hx
      simp [setPosition, hx] at hs
    obtain ⟨c, hc, _, _, hag⟩ := C27_set_position a hnh (h3 ▸ hg) v i j hal
    rw [hc, Except.ok.injEq] at hs
    subst hs
    refine ⟨hag, ?_⟩
    have e1 : c.w = a.w ∧ c.h = a.h ∧ c.sw = a.sw ∧ c.sh = a.sh ∧ c.turning = a.turning := by
      unfold setPosition at hc
      rw [if_neg (by simp [hnh])] at hc
      cases ht : a.turning <;> simp only [ht, Except.ok.injEq] at hc <;> subst hc <;> exact ⟨rfl, rfl, rfl, rfl, rfl⟩
    unfold DimsOk
    rw [e1.1, e1.2.1, e1.2.2.1, e1.2.2.2.1]
    exact ⟨h2, e1.2.2.2.2.trans h3⟩
  | @direction a b v _ hs ih =>
    obtain ⟨h1, h2, h3⟩ := ih
    obtain ⟨_, q2, q3⟩ := C27_set_direction a b v h1 h2 hs
    refine ⟨q2, q3, ?_⟩
    rw [← h3]
    unfold setDirection at hs
    cases ht : a.turning
    · simp [ht] at hs
    · simp only [ht] at hs
      exact (setDirection4_turning hs).trans ht
    · simp only [ht] at hs
      exact (setDirection8_turning hs).trans ht
    · simp [ht] at hs

/-- A boiler (3 by 2 tiles) looking north. -/
def boiler : PEnt :=
  { turning := .fourWay, mode := .strict, sw := 3, sh := 2, w := 3, h := 2, dir := some 0,
    pos := ⟨3/2, 1⟩, tile := ⟨0, 0⟩, held := false, doubleGrid := false, flippable := true }

example : Agree boiler ∧ DimsOk boiler ∧ boiler.turning ≠ .group := by
  refine ⟨⟨?_, ?_⟩, .inl ⟨rfl, rfl⟩, by decide⟩ <;> decide +kernel
example : Aligned boiler ⟨11/2, -4⟩ 4 (-5) := by refine ⟨?_, ?_⟩ <;> decide +kernel
/-- Turning the boiler east transposes it and moves its centre, not its corner. -/
example : boiler.setDirection (some 4) =
    .ok { boiler with dir := some 4, w := 2, h := 3, pos := ⟨1, 3/2⟩ } := by decide +kernel

/-! ### C28 -/

/-- Specification: the footprint for a stored cardinal direction. -/
def FootprintFor (e : PEnt) (d : Int) : Prop :=
  (d = 4 ∨ d = 12 → e.w = e.sh ∧ e.h = e.sw) ∧ (d = 0 ∨ d = 8 → e.w = e.sw ∧ e.h = e.sh)

theorem setDirection4_spec (e : PEnt) (v : Option Int) (d : Option Int)
    (hc : checkDirection .fourWay e.mode v = .ok d) :
    ∃ e', e.setDirection4 v = .ok e' ∧ e'.dir = d ∧ e'.sw = e.sw ∧ e'.sh = e.sh ∧
      e'.w = (if v = some 4 ∨ v = some 12 then e.sh else e.sw) ∧
      e'.h = (if v = some 4 ∨ v = some 12 then e.sw else e.sh) := by
  simp only [setDirection4, hc, bind, Except.bind, pure, Except.pure]
  obtain ⟨nw, hnw⟩ : ∃ nw, nw = if v = some 4 ∨ v = some 12 then e.sh else e.sw := ⟨_, rfl⟩
  obtain ⟨nh, hnh⟩ : ∃ nh, nh = if v = some 4 ∨ v = some 12 then e.sw else e.sh := ⟨_, rfl⟩
  rw [← hnw, ← hnh]
  by_cases hcond : nw ≠ nh ∧ e.w ≠ nw ∧ e.h ≠ nh
  · rw [if_pos hcond]; exact ⟨_, rfl, rfl, rfl, rfl, rfl, rfl⟩
  · rw [if_neg hcond]; exact ⟨_, rfl, rfl, rfl, rfl, rfl, rfl⟩

/-- C28, restricted to assigning one of the four cardinal directions: in every validation mode and from every
state the direction is stored and the footprint is the one for it. Missing: diagonal arguments, see
`C28_footprint_iff` and `C28_footprint_refuted`. -/
theorem C28_cardinal_partial (e : PEnt) (ht : e.turning = .fourWay) (v : Int) (hv : v = 0 ∨ v = 4 ∨ v = 8 ∨ v = 12) :
    ∃ e', e.setDirection (some v) = .ok e' ∧ e'.dir = some v ∧ e'.sw = e.sw ∧ e'.sh = e.sh ∧ FootprintFor e' v := by
  have hc : checkDirection .fourWay e.mode (some v) = .ok (some v) := by
    unfold checkDirection
    rcases hv with rfl | rfl | rfl | rfl <;> simp
  obtain ⟨e', h1, h2, h3, h4, h5, h6⟩ := setDirection4_spec e (some v) _ hc
  refine ⟨e', by simpa [setDirection, ht] using h1, h2, h3, h4, ?_⟩
  unfold FootprintFor
  rw [h5, h6, h3, h4]
  rcases hv with rfl | rfl | rfl | rfl <;> simp

/-- C28: with strict validation any of the sixteen directions is replaced by the nearest cardinal one
counter-clockwise. -/
theorem C28_snap (e : PEnt) (ht : e.turning = .fourWay) (hm : e.mode = .strict ∨ e.mode = .pedantic)
    (v : Int) (hv : 0 ≤ v ∧ v < 16) :
    ∃ e' c, e.setDirection (some v) = .ok e' ∧ e'.dir = some c ∧ (c = 0 ∨ c = 4 ∨ c = 8 ∨ c = 12) ∧ c ≤ v ∧ v < c + 4 := by
  have hc : checkDirection .fourWay e.mode (some v) = .ok (some (v / 4 * 4)) := by
    unfold checkDirection
    rcases hm with h | h <;> rw [h] <;> simp [ValidationMode.truthy, ValidationMode.le, ValidationMode.gt, ValidationMode.index, hv]
  obtain ⟨e', h1, h2, -⟩ := setDirection4_spec e (some v) _ hc
  exact ⟨e', v / 4 * 4, by simpa [setDirection, ht] using h1, h2, by omega, by omega, by omega⟩

/-- C28: exactly which assignments of strictly validated directions leave the right footprint. -/
theorem C28_footprint_iff (e : PEnt) (ht : e.turning = .fourWay) (hm : e.mode = .strict ∨ e.mode = .pedantic)
    (v : Int) (hv : 0 ≤ v ∧ v < 16) :
    ∃ e' c, e.setDirection (some v) = .ok e' ∧ e'.dir = some c ∧
      (FootprintFor e' c ↔ e.sw = e.sh ∨ ¬ ((4 < v ∧ v < 8) ∨ 12 < v)) := by
  have hc : checkDirection .fourWay e.mode (some v) = .ok (some (v / 4 * 4)) := by
    unfold checkDirection
    rcases hm with h | h <;> rw [h] <;> simp [ValidationMode.truthy, ValidationMode.le, ValidationMode.gt, ValidationMode.index, hv]
  obtain ⟨e', h1, h2, h3, h4, h5, h6⟩ := setDirection4_spec e (some v) _ hc
  refine ⟨e', v / 4 * 4, by simpa [setDirection, ht] using h1, h2, ?_⟩
  unfold FootprintFor
  rw [h5, h6, h3, h4]
  by_cases c : v = 4 ∨ v = 12
  · simp [c]; omega
  · simp [c]
    omega

/-- C28 fails: a boiler told to face south-east is stored as facing east but keeps its north-south
footprint. -/
theorem C28_footprint_refuted : ∃ e', boiler.setDirection (some 6) = .ok e' ∧ e'.dir = some 4 ∧ ¬ FootprintFor e' 4 :=
  ⟨{ boiler with dir := some 4 }, by decide +kernel, rfl, by unfold FootprintFor; decide⟩

/-- C28 fails for `None`, documented as meaning north: a strictly validated four-way entity raises
`TypeError`. -/
theorem C28_none_refuted (e : PEnt) (ht : e.turning = .fourWay) (hm : e.mode = .strict ∨ e.mode = .pedantic) :
    e.setDirection none = .error .typeError := by
  unfold setDirection setDirection4 checkDirection
  rcases hm with h | h <;> rw [ht, h] <;> rfl

/-- C28 for eight-way entities fails: the setter compares with the pre-2.0 numbers, so facing north-east
transposes the footprint and facing east does not. -/
theorem C28_eight_way_refuted (e : PEnt) (ht : e.turning = .eightWay) (hsq : e.sw ≠ e.sh) :
    (∃ a, e.setDirection (some 4) = .ok a ∧ a.dir = some 4 ∧ ¬ (a.w = e.sh ∧ a.h = e.sw)) ∧
    (∃ b, e.setDirection (some 2) = .ok b ∧ b.dir = some 2 ∧ b.w = e.sh ∧ b.h = e.sw) := by
  have hc : ∀ v : Int, 0 ≤ v → v < 16 → checkDirection .eightWay e.mode (some v) = .ok (some v) := by
    intro v h1 h2; unfold checkDirection; simp [h1, h2]
  have key : ∀ v : Int, 0 ≤ v → v < 16 → ∃ a, e.setDirection (some v) = .ok a ∧ a.dir = some v ∧
      a.w = (if some v = some 2 ∨ some v = some 3 ∨ some v = some 6 ∨ some v = some 7 then e.sh else e.sw) ∧
      a.h = (if some v = some 2 ∨ some v = some 3 ∨ some v = some 6 ∨ some v = some 7 then e.sw else e.sh) := by
    intro v h1 h2
    simp only [setDirection, ht, setDirection8, hc v h1 h2, bind, Except.bind, pure, Except.pure]
    exact ⟨_, rfl, rfl, rfl, rfl⟩
  constructor
  · obtain ⟨a, h1, h2, h3, h4⟩ := key 4 (by decide) (by decide)
    refine ⟨a, h1, h2, ?_⟩
    rw [h3, h4]; simp; omega
  · obtain ⟨a, h1, h2, h3, h4⟩ := key 2 (by decide) (by decide)
    exact ⟨a, h1, h2, by rw [h3]; simp, by rw [h4]; simp⟩

example : ({ boiler with turning := .eightWay } : PEnt).sw ≠ ({ boiler with turning := .eightWay } : PEnt).sh := by decide

end Draftsman.PEnt
