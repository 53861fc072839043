import Mathlib.Algebra.Order.Field.Power
import Mathlib.Tactic.FieldSimp
import Mathlib.Tactic.LinearCombination
import Mathlib.Tactic.Positivity
import Mathlib.Tactic.Ring
import Verif.Model.FloatPos
import Verif.Proof.Round
import Verif.Props.Transform
/-
C114: positions on the grid of the game are computed without rounding errors.
-/
namespace Draftsman.FloatPos

/-- The doubles, with exponents of any size. -/
def Double (d : ℚ) : Prop := ∃ (m : ℤ) (k : ℤ), |m| < 2 ^ 53 ∧ d = m * 2 ^ k

theorem two_pow_pos (k : ℤ) : (0 : ℚ) < 2 ^ k := zpow_pos (by norm_num) k

theorem ulp_pos (x : ℚ) : 0 < ulp x := two_pow_pos _

theorem log_le {x : ℚ} (h : x ≠ 0) : (2 : ℚ) ^ Int.log 2 |x| ≤ |x| := by
  simpa using Int.zpow_log_le_self (b := 2) (r := |x|) one_lt_two (abs_pos.2 h)

theorem lt_log (x : ℚ) : |x| < (2 : ℚ) ^ (Int.log 2 |x| + 1) := by
  simpa using Int.lt_zpow_succ_log_self (b := 2) one_lt_two |x|

/-- Multiples of `2⁻ᵏ` with at most 53 bits are not rounded. -/
theorem rnd_dyadic (m : ℤ) (k : ℕ) (hm : |m| < 2 ^ 53) : rnd (m / 2 ^ k) = m / 2 ^ k := by
  by_cases h : (m : ℚ) / 2 ^ k = 0
  · simp [rnd, h]
  have h1 := log_le h
  have h2 : |(m : ℚ) / 2 ^ k| < 2 ^ ((53 : ℤ) - k) := by
    rw [abs_div, zpow_sub₀ (by norm_num)]
    simp only [abs_pow, Nat.abs_ofNat, zpow_natCast]
    gcongr
    exact_mod_cast hm
  have h3 := (zpow_lt_zpow_iff_right₀ (by norm_num : (1 : ℚ) < 2)).1 (lt_of_le_of_lt h1 h2)
  obtain ⟨j, hj⟩ : ∃ j : ℕ, Int.log 2 |(m : ℚ) / 2 ^ k| - 52 = -((k + j : ℕ) : ℤ) :=
    ⟨(52 - Int.log 2 |(m : ℚ) / 2 ^ k| - k).toNat, by push_cast; omega⟩
  have hu : ulp ((m : ℚ) / 2 ^ k) = ((2 : ℚ) ^ (k + j))⁻¹ := by rw [ulp, hj, zpow_neg, zpow_natCast]
  have hq : (m : ℚ) / 2 ^ k / ulp ((m : ℚ) / 2 ^ k) = ((m * 2 ^ j : ℤ) : ℚ) := by
    rw [hu, pow_add]; push_cast; field_simp
  rw [rnd, if_neg h, hq, pyRound_intCast, hu, pow_add]
  push_cast
  field_simp

/-- An integer next to an integral multiple of the last bit is no nearer than the rounded one. -/
theorem pyRound_nearest (q : ℚ) (n : ℤ) : |(pyRound q : ℚ) - q| ≤ |n - q| ∧ (n ≠ pyRound q → |(pyRound q : ℚ) - q| = |n - q| → pyRound q % 2 = 0) := by
  obtain ⟨h1, h2⟩ := pyRound_spec q
  rw [abs_sub_comm] at h1 h2
  by_cases hn : n = pyRound q
  · exact ⟨by rw [hn], fun h => absurd hn h⟩
  have hd : (1 : ℚ) ≤ |(n : ℚ) - pyRound q| := by
    have : (1 : ℤ) ≤ |n - pyRound q| := Int.one_le_abs (sub_ne_zero.2 hn)
    exact_mod_cast this
  have ht : |(n : ℚ) - pyRound q| ≤ |n - q| + |(pyRound q : ℚ) - q| := by
    have := abs_sub_le (n : ℚ) q (pyRound q)
    rwa [abs_sub_comm q] at this
  exact ⟨by linarith, fun _ he => h2 (by linarith)⟩

theorem abs_scale (a b u : ℚ) (hu : 0 < u) : |a * u - b| = |a - b / u| * u := by
  have : a * u - b = (a - b / u) * u := by field_simp
  rw [this, abs_mul, abs_of_pos hu]

/-- C114, the meaning of rounding: `rnd` gives a double, no double is nearer, and where another one is as near the significand is
even. -/
theorem C114_nearest (x : ℚ) (hx : x ≠ 0) :
    ∃ m k : ℤ, rnd x = m * 2 ^ k ∧ 2 ^ 52 ≤ |m| ∧ |m| ≤ 2 ^ 53 ∧
      ∀ d, Double d → |rnd x - x| ≤ |d - x| ∧ (d ≠ rnd x → |rnd x - x| = |d - x| → m % 2 = 0) := by
  have hu := ulp_pos x
  have lo := log_le hx
  have hi := lt_log x
  set e := Int.log 2 |x| with he
  have hlo : (2 : ℚ) ^ 52 * ulp x = 2 ^ e := by
    rw [ulp, ← he, ← zpow_natCast, ← zpow_add₀ (by norm_num)]; congr 1; push_cast; ring
  have hhi : (2 : ℚ) ^ 53 * ulp x = 2 ^ (e + 1) := by
    rw [ulp, ← he, ← zpow_natCast, ← zpow_add₀ (by norm_num)]; congr 1; push_cast; ring
  have hr : rnd x = pyRound (x / ulp x) * ulp x := by rw [rnd, if_neg hx]
  have hq1 : (2 : ℚ) ^ 52 ≤ |x / ulp x| := by rw [abs_div, abs_of_pos hu, le_div_iff₀ hu, hlo]; exact lo
  have hq2 : |x / ulp x| < (2 : ℚ) ^ 53 := by rw [abs_div, abs_of_pos hu, div_lt_iff₀ hu, hhi]; exact hi
  -- the sign
  obtain ⟨s, hs, hsx⟩ : ∃ s : ℤ, (s = 1 ∨ s = -1) ∧ (s : ℚ) * |x| = x := by
    rcases abs_cases x with ⟨h, _⟩ | ⟨h, _⟩
    · exact ⟨1, Or.inl rfl, by rw [h]; simp⟩
    · exact ⟨-1, Or.inr rfl, by rw [h]; simp⟩
  have hss : (s : ℚ) * s = 1 := by rcases hs with rfl | rfl <;> norm_num
  have habs : ∀ a : ℚ, |(s : ℚ) * a| = |a| := by intro a; rcases hs with rfl | rfl <;> simp
  have hint : ∀ n : ℤ, |rnd x - x| ≤ |n * ulp x - x| ∧ (n * ulp x ≠ rnd x → |rnd x - x| = |n * ulp x - x| → pyRound (x / ulp x) % 2 = 0) := by
    intro n
    rw [hr, abs_scale _ _ _ hu, abs_scale _ _ _ hu]
    obtain ⟨a, b⟩ := pyRound_nearest (x / ulp x) n
    refine ⟨by gcongr, fun hne heq => b ?_ (mul_right_cancel₀ hu.ne' heq)⟩
    rintro rfl; exact hne rfl
  refine ⟨pyRound (x / ulp x), e - 52, by rw [hr, ulp], ?_, ?_, ?_⟩
  · rcases abs_cases (x / ulp x) with ⟨h, _⟩ | ⟨h, _⟩
    · rw [h] at hq1
      have : pyRound (((2 ^ 52 : ℤ)) : ℚ) ≤ pyRound (x / ulp x) := pyRound_mono (by push_cast; exact hq1)
      rw [pyRound_intCast] at this
      exact this.trans (le_abs_self _)
    · rw [h] at hq1
      have : pyRound (x / ulp x) ≤ pyRound (((-2 ^ 52 : ℤ)) : ℚ) := pyRound_mono (by push_cast; linarith)
      rw [pyRound_intCast] at this
      exact le_trans (by omega) (neg_le_abs _)
  · obtain ⟨a, b⟩ := abs_lt.1 hq2
    have h1 : pyRound (x / ulp x) ≤ pyRound (((2 ^ 53 : ℤ)) : ℚ) := pyRound_mono (by push_cast; linarith)
    have h2 : pyRound (((-2 ^ 53 : ℤ)) : ℚ) ≤ pyRound (x / ulp x) := pyRound_mono (by push_cast; linarith)
    rw [pyRound_intCast] at h1 h2
    exact abs_le.2 ⟨by omega, h1⟩
  · rintro d ⟨m, k, hm, rfl⟩
    by_cases hk : e - 52 ≤ k
    · obtain ⟨j, hj⟩ : ∃ j : ℕ, k = (e - 52) + j := ⟨(k - (e - 52)).toNat, by omega⟩
      have : (m : ℚ) * 2 ^ k = ((m * 2 ^ j : ℤ) : ℚ) * ulp x := by
        rw [hj, zpow_add₀ (by norm_num), zpow_natCast, ulp, ← he]; push_cast; ring
      rw [this]; exact hint _
    · -- a finer number is nearer to zero than `2 ^ e`
      have hd : |(m : ℚ) * 2 ^ k| < 2 ^ e := by
        rw [abs_mul, abs_of_pos (two_pow_pos k)]
        calc |(m : ℚ)| * 2 ^ k < 2 ^ 53 * 2 ^ k := by
              apply mul_lt_mul_of_pos_right _ (two_pow_pos k); exact_mod_cast hm
          _ = 2 ^ ((53 : ℤ) + k) := by rw [zpow_add₀ (by norm_num)]; norm_cast
          _ ≤ 2 ^ e := zpow_le_zpow_right₀ (by norm_num) (by omega)
      have h1 := (hint (s * 2 ^ 52)).1
      have h2 : |((s * 2 ^ 52 : ℤ) : ℚ) * ulp x - x| = |x| - 2 ^ e := by
        have : ((s * 2 ^ 52 : ℤ) : ℚ) * ulp x - x = s * (2 ^ e - |x|) := by
          rw [mul_sub, hsx, ← hlo]; push_cast; ring
        rw [this, habs, abs_of_nonpos (by linarith)]; ring
      have h3 : |x| - |(m : ℚ) * 2 ^ k| ≤ |(m : ℚ) * 2 ^ k - x| := by
        rw [abs_sub_comm]; exact abs_sub_abs_le_abs_sub _ _
      exact ⟨by linarith, fun _ heq => by linarith⟩

/-- A multiple of 1/256, at most `B` of them from zero. -/
def OnGrid (B : ℤ) (q : ℚ) : Prop := ∃ m : ℤ, q = m / 256 ∧ |m| ≤ B

namespace OnGrid
variable {B C : ℤ} {p q : ℚ}

theorem mono (h : OnGrid B q) (hB : B ≤ C) : OnGrid C q := by
  obtain ⟨m, h1, h2⟩ := h; exact ⟨m, h1, h2.trans hB⟩
theorem neg (h : OnGrid B q) : OnGrid B (-q) := by
  obtain ⟨m, h1, h2⟩ := h; exact ⟨-m, by rw [h1]; push_cast; ring, by rwa [abs_neg]⟩
theorem add (h : OnGrid B p) (h' : OnGrid C q) : OnGrid (B + C) (p + q) := by
  obtain ⟨m, h1, h2⟩ := h
  obtain ⟨n, h3, h4⟩ := h'
  exact ⟨m + n, by rw [h1, h3]; push_cast; ring, (abs_add_le m n).trans (by omega)⟩
theorem sub (h : OnGrid B p) (h' : OnGrid C q) : OnGrid (B + C) (p - q) := by
  rw [sub_eq_add_neg]; exact h.add h'.neg
theorem int (n : ℤ) (h : 256 * |n| ≤ B) : OnGrid B n := ⟨256 * n, by push_cast; ring, by rw [abs_mul]; exact h⟩
theorem zero (h : 0 ≤ B) : OnGrid B 0 := ⟨0, by simp, by simpa using h⟩
theorem halves (n : ℕ) (h : 128 * (n : ℤ) ≤ B) : OnGrid B ((n : ℚ) / 2) :=
  ⟨128 * n, by push_cast; ring, by rw [abs_mul, Nat.abs_cast]; exact h⟩
theorem one_half (h : 128 ≤ B) : OnGrid B (1 / 2) := ⟨128, by norm_num, by simpa using h⟩
theorem nonneg (h : OnGrid B p) : 0 ≤ B := by
  obtain ⟨m, _, h2⟩ := h; exact (abs_nonneg m).trans h2

/-- Nothing is rounded on the grid. -/
theorem rnd_eq (h : OnGrid B q) (hB : B < 2 ^ 53) : rnd q = q := by
  obtain ⟨m, h1, h2⟩ := h
  have := rnd_dyadic m 8 (by omega)
  rw [h1]
  convert this using 2 <;> norm_num
end OnGrid

/-- An entity at a position on the grid at most `B` away from the origin, at most `S` tiles wide and high. -/
structure EFits (B : ℤ) (S : ℕ) (e : PEnt) : Prop where
  x : OnGrid B e.pos.x
  y : OnGrid B e.pos.y
  w : e.w ≤ S
  h : e.h ≤ S
  sw : e.sw ≤ S
  sh : e.sh ≤ S

/-- A tile at most `B` away from the origin. -/
def TFits (B : ℤ) (t : PTile) : Prop := 256 * |t.x| ≤ B ∧ 256 * |t.y| ≤ B

/-- A collection of such entities and tiles. -/
def Fits (B : ℤ) (S : ℕ) (l : Layout) : Prop := (∀ e ∈ l.entities, EFits B S e) ∧ ∀ t ∈ l.tiles, TFits B t

variable {B C : ℤ} {S : ℕ}

theorem EFits.mono {e : PEnt} (h : EFits B S e) (hB : B ≤ C) : EFits C S e :=
  ⟨h.x.mono hB, h.y.mono hB, h.w, h.h, h.sw, h.sh⟩
theorem EFits.held {e : PEnt} (h : EFits B S e) (b : Bool) : EFits B S { e with held := b } :=
  ⟨h.x, h.y, h.w, h.h, h.sw, h.sh⟩
theorem TFits.mono {t : PTile} (h : TFits B t) (hB : B ≤ C) : TFits C t := ⟨h.1.trans hB, h.2.trans hB⟩

theorem half_eq (n : ℕ) (h : n ≤ S) (hS : 128 * (S : ℤ) < 2 ^ 53) : half n = n / 2 :=
  (OnGrid.halves (B := 128 * S) n (by omega)).rnd_eq hS

theorem setPosition_eq (e : PEnt) (v : PosArg) (hx : OnGrid B v.toFloat.x) (hy : OnGrid B v.toFloat.y) (hw : e.w ≤ S) (hh : e.h ≤ S)
    (hB : B + 128 * S < 2 ^ 53) : setPosition e v = e.setPosition v := by
  have h0 := hx.nonneg
  have hS : 128 * (S : ℤ) < 2 ^ 53 := by omega
  have h1 : fsub v.toFloat.x (half e.w) = v.toFloat.x - e.w / 2 := by
    rw [fsub, half_eq e.w hw hS]
    exact (hx.sub (OnGrid.halves (B := 128 * S) e.w (by omega))).rnd_eq hB
  have h2 : fsub v.toFloat.y (half e.h) = v.toFloat.y - e.h / 2 := by
    rw [fsub, half_eq e.h hh hS]
    exact (hy.sub (OnGrid.halves (B := 128 * S) e.h (by omega))).rnd_eq hB
  simp only [setPosition, PEnt.setPosition, h1, h2]
  cases e.turning <;> rfl

/-- Turning moves an entity, but it is placed again at once. -/
theorem turn_place (e : PEnt) (k : Int → Int) (v : PosArg) (hx : OnGrid B v.toFloat.x) (hy : OnGrid B v.toFloat.y) (he : EFits C S e)
    (hB : B + 128 * S < 2 ^ 53) :
    (turnBy e k >>= fun e' => setPosition e' v) = (Draftsman.turnBy e k >>= fun e' => e'.setPosition v) := by
  obtain ⟨-, -, ew, eh, esw, esh⟩ := he
  rcases e with ⟨t, m, sw, sh, w, h, dir, pos, tile, held, dg, fl⟩
  simp only at ew eh esw esh
  cases t with
  | fixed => exact setPosition_eq _ _ hx hy ew eh hB
  | group => rfl
  | fourWay =>
    cases dir with
    | none => rfl
    | some d =>
      simp only [turnBy, Draftsman.turnBy, PEnt.setDirection, setDirection4, PEnt.setDirection4, bind, Except.bind]
      cases PEnt.checkDirection .fourWay m (some (d + k d)) with
      | error err => rfl
      | ok d' =>
        simp only
        split_ifs <;> (simp only [pure, Except.pure]; rw [setPosition_eq _ _ hx hy (by first | assumption) (by first | assumption) hB]; try rfl)
  | eightWay =>
    cases dir with
    | none => rfl
    | some d =>
      simp only [turnBy, Draftsman.turnBy, PEnt.setDirection, setDirection8, PEnt.setDirection8, bind, Except.bind]
      cases PEnt.checkDirection .eightWay m (some (d + k d)) with
      | error err => rfl
      | ok d' =>
        simp only
        split_ifs <;> (simp only [pure, Except.pure]; rw [setPosition_eq _ _ hx hy (by first | assumption) (by first | assumption) hB]; rfl)

theorem placed_fits {e e' : PEnt} {v : PosArg} (hx : OnGrid B v.toFloat.x) (hy : OnGrid B v.toFloat.y) (hw : e.w ≤ S) (hh : e.h ≤ S)
    (hsw : e.sw ≤ S) (hsh : e.sh ≤ S) (h : e.setPosition v = .ok e') : EFits B S e' := by
  unfold PEnt.setPosition at h
  split at h
  · cases h
  · split at h <;> (cases h; exact ⟨hx, hy, hw, hh, hsw, hsh⟩)

theorem turned_sizes {e e' : PEnt} {k : Int → Int} (he : EFits C S e) (h : Draftsman.turnBy e k = .ok e') :
    e'.w ≤ S ∧ e'.h ≤ S ∧ e'.sw ≤ S ∧ e'.sh ≤ S := by
  obtain ⟨-, -, ew, eh, esw, esh⟩ := he
  rcases e with ⟨t, m, sw, sh, w, h', dir, pos, tile, held, dg, fl⟩
  simp only at ew eh esw esh
  cases t with
  | fixed => cases h; exact ⟨ew, eh, esw, esh⟩
  | group => cases h
  | fourWay =>
    cases dir with
    | none => cases h
    | some d =>
      simp only [Draftsman.turnBy, PEnt.setDirection, PEnt.setDirection4, bind, Except.bind] at h
      cases hc : PEnt.checkDirection .fourWay m (some (d + k d)) with
      | error err => rw [hc] at h; cases h
      | ok d' =>
        rw [hc] at h
        simp only at h
        split_ifs at h <;> (cases h; exact ⟨by assumption, by assumption, esw, esh⟩)
  | eightWay =>
    cases dir with
    | none => cases h
    | some d =>
      simp only [Draftsman.turnBy, PEnt.setDirection, PEnt.setDirection8, bind, Except.bind] at h
      cases hc : PEnt.checkDirection .eightWay m (some (d + k d)) with
      | error err => rw [hc] at h; cases h
      | ok d' =>
        rw [hc] at h
        simp only at h
        split_ifs at h <;> (cases h; exact ⟨by assumption, by assumption, esw, esh⟩)

theorem turn_place_fits {e e' : PEnt} {k : Int → Int} {v : PosArg} (hx : OnGrid B v.toFloat.x) (hy : OnGrid B v.toFloat.y)
    (he : EFits C S e) (h : (Draftsman.turnBy e k >>= fun e' => e'.setPosition v) = .ok e') : EFits B S e' := by
  cases ht : Draftsman.turnBy e k with
  | error err => rw [ht] at h; cases h
  | ok e₁ =>
    rw [ht] at h
    obtain ⟨a, b, c, d⟩ := turned_sizes he ht
    exact placed_fits hx hy a b c d h

/-- Two loops whose steps agree on what fits agree, and what they leave fits. -/
theorem transform_agree {step step' : PEnt → Except PyErr PEnt} {t t' : PTile → PTile} {l : Layout} (hl : Fits B S l) (hBC : B ≤ C)
    (h1 : ∀ e, EFits B S e → step e = step' e) (h2 : ∀ e e', EFits B S e → step' e = .ok e' → EFits C S e')
    (h3 : ∀ a, TFits B a → t a = t' a) (h4 : ∀ a, TFits B a → TFits C (t' a)) :
    transformWith step t l = transformWith step' t' l ∧ Fits C S (transformWith step' t' l).1 := by
  have key : ∀ es : List PEnt, (∀ e ∈ es, EFits B S e) →
      eachEntity step es = eachEntity step' es ∧ ∀ e ∈ (eachEntity step' es).1, EFits C S e := by
    intro es
    induction es with
    | nil => intro _; exact ⟨rfl, by simp [eachEntity]⟩
    | cons e es ih =>
      intro hes
      obtain ⟨i1, i2⟩ := ih fun a ha => hes a (List.mem_cons_of_mem _ ha)
      have he := (hes e List.mem_cons_self).held false
      simp only [eachEntity, h1 _ he, i1, true_and]
      cases hs : step' { e with held := false } with
      | error err =>
        intro a ha
        rcases List.mem_cons.1 ha with rfl | ha
        · exact he.mono hBC
        · exact (hes a (List.mem_cons_of_mem _ ha)).mono hBC
      | ok e' =>
        intro a ha
        rcases List.mem_cons.1 ha with rfl | ha
        · exact (h2 _ _ he hs).held true
        · exact i2 a ha
  obtain ⟨k1, k2⟩ := key l.entities hl.1
  unfold transformWith
  rw [k1]
  rcases hk : eachEntity step' l.entities with ⟨es, _ | err⟩
  · rw [hk] at k2
    refine ⟨?_, k2, ?_⟩
    · simp only [Prod.mk.injEq, Layout.mk.injEq, true_and, and_true]
      exact List.map_congr_left fun a ha => h3 a (hl.2 a ha)
    · intro a ha
      obtain ⟨b, hb, rfl⟩ := List.mem_map.1 ha
      exact h4 b (hl.2 b hb)
  · rw [hk] at k2
    exact ⟨rfl, k2, fun a ha => (hl.2 a ha).mono hBC⟩

theorem translate_agree {l : Layout} (hl : Fits B S l) (x y : ℤ) (hB : B + 256 * (|x| + |y|) + 128 * S < 2 ^ 53) :
    translate l x y = (Draftsman.translate l x y).1 ∧ Fits (B + 256 * (|x| + |y|)) S (Draftsman.translate l x y).1.1 := by
  have ax := abs_nonneg x
  have ay := abs_nonneg y
  refine transform_agree hl (by omega) ?_ ?_ (fun _ _ => rfl) ?_
  · intro e he
    have h0 := he.x.nonneg
    have gx : OnGrid (256 * |x|) x := OnGrid.int x le_rfl
    have gy : OnGrid (256 * |y|) y := OnGrid.int y le_rfl
    have ex : fadd e.pos.x (rnd x) = e.pos.x + x := by rw [fadd, gx.rnd_eq (by omega)]; exact (he.x.add gx).rnd_eq (by omega)
    have ey : fadd e.pos.y (rnd y) = e.pos.y + y := by rw [fadd, gy.rnd_eq (by omega)]; exact (he.y.add gy).rnd_eq (by omega)
    rw [translateStep, Draftsman.translateStep, ex, ey]
    exact setPosition_eq (B := B + 256 * (|x| + |y|)) (S := S) _ _ ((he.x.add gx).mono (by omega)) ((he.y.add gy).mono (by omega)) he.w he.h
      (by omega)
  · intro e e' he h
    have gx : OnGrid (256 * |x|) x := OnGrid.int x le_rfl
    have gy : OnGrid (256 * |y|) y := OnGrid.int y le_rfl
    exact placed_fits ((he.x.add gx).mono (by omega)) ((he.y.add gy).mono (by omega)) he.w he.h he.sw he.sh h
  · intro a ha
    have h1 := ha.1
    have h2 := ha.2
    have h3 := abs_add_le a.x x
    have h4 := abs_add_le a.y y
    refine ⟨?_, ?_⟩ <;> simp only <;> omega

/-- The four matrices: one of the two factors of each row is zero, the other one is a sign. -/
theorem rot_cases (a : ℤ) : ∃ s : ℤ, (s = 1 ∨ s = -1) ∧ (rotMatrix a = (s, 0, 0, s) ∨ rotMatrix a = (0, s, -s, 0)) := by
  unfold rotMatrix
  split_ifs
  · exact ⟨1, by simp⟩
  · exact ⟨1, by simp⟩
  · exact ⟨-1, by simp⟩
  · exact ⟨-1, by simp⟩

theorem OnGrid.sign {q : ℚ} (h : OnGrid B q) {s : ℤ} (hs : s = 1 ∨ s = -1) : OnGrid B (q * s) := by
  rcases hs with rfl | rfl
  · simpa using h
  · simpa using h.neg

theorem fmul_sign {q : ℚ} (h : OnGrid B q) (hB : B < 2 ^ 53) {s : ℤ} (hs : s = 1 ∨ s = -1) : fmul q s = q * s :=
  (h.sign hs).rnd_eq hB
theorem fmul_zero (q : ℚ) : fmul q ((0 : ℤ) : ℚ) = 0 := by simp [fmul, rnd]

/-- A row of a matrix applied to a point of the grid. -/
theorem row {p q : ℚ} (hp : OnGrid B p) (hq : OnGrid B q) (hB : B < 2 ^ 53) {a b : ℤ} (h : (a = 1 ∨ a = -1) ∧ b = 0 ∨ a = 0 ∧ (b = 1 ∨ b = -1)) :
    fadd (fmul p a) (fmul q b) = p * a + q * b ∧ OnGrid B (p * a + q * b) := by
  rcases h with ⟨ha, rfl⟩ | ⟨rfl, hb⟩
  · have e : p * a + q * ((0 : ℤ) : ℚ) = p * a := by simp
    rw [e, fmul_zero, fmul_sign hp hB ha, fadd, add_zero]
    exact ⟨(hp.sign ha).rnd_eq hB, hp.sign ha⟩
  · have e : p * ((0 : ℤ) : ℚ) + q * b = q * b := by simp
    rw [e, fmul_zero, fmul_sign hq hB hb, fadd, zero_add]
    exact ⟨(hq.sign hb).rnd_eq hB, hq.sign hb⟩

theorem rot_rows (a : ℤ) :
    (((rotMatrix a).1 = 1 ∨ (rotMatrix a).1 = -1) ∧ (rotMatrix a).2.2.1 = 0 ∨ (rotMatrix a).1 = 0 ∧ ((rotMatrix a).2.2.1 = 1 ∨ (rotMatrix a).2.2.1 = -1)) ∧
    (((rotMatrix a).2.1 = 1 ∨ (rotMatrix a).2.1 = -1) ∧ (rotMatrix a).2.2.2 = 0 ∨ (rotMatrix a).2.1 = 0 ∧ ((rotMatrix a).2.2.2 = 1 ∨ (rotMatrix a).2.2.2 = -1)) := by
  obtain ⟨s, rfl | rfl, h | h⟩ := rot_cases a <;> rw [h] <;> simp

/-- The centre of a tile. -/
theorem centre {B n : ℤ} (h : 256 * |n| ≤ B) (hB : B + 256 < 2 ^ 53) :
    fadd (rnd n) (1/2) = n + 1/2 ∧ OnGrid (B + 128) ((n : ℚ) + 1/2) := by
  have h0 := abs_nonneg n
  have g : OnGrid B n := OnGrid.int n h
  have g' : OnGrid (B + 128) ((n : ℚ) + 1/2) := g.add (OnGrid.one_half le_rfl)
  exact ⟨by rw [fadd, g.rnd_eq (by omega)]; exact g'.rnd_eq (by omega), g'⟩

theorem corner {q : ℚ} (h : OnGrid (B + 128) q) (hB : B + 256 < 2 ^ 53) : fsub q (1/2) = q - 1/2 :=
  ((h.sub (OnGrid.one_half (B := 128) le_rfl)).mono (by omega)).rnd_eq hB

theorem trunc_grid {q : ℚ} (h : OnGrid (B + 128) q) : 256 * |pyTrunc (q - 1/2)| ≤ B + 256 := by
  obtain ⟨m, h1, h2⟩ := h
  obtain ⟨h3, h4⟩ := abs_le.1 h2
  have e : q - 1/2 = ((m - 128 : ℤ) : ℚ) / 256 := by rw [h1]; push_cast; ring
  rw [e]
  unfold pyTrunc
  split
  · have a := Int.floor_le (((m - 128 : ℤ) : ℚ) / 256)
    have b : 0 ≤ ⌊((m - 128 : ℤ) : ℚ) / 256⌋ := Int.floor_nonneg.2 (by assumption)
    rw [abs_of_nonneg b]
    rw [le_div_iff₀ (by norm_num)] at a
    have : ⌊((m - 128 : ℤ) : ℚ) / 256⌋ * 256 ≤ m - 128 := by exact_mod_cast a
    omega
  · rename_i hneg
    have a := Int.le_ceil (((m - 128 : ℤ) : ℚ) / 256)
    have b : ⌈((m - 128 : ℤ) : ℚ) / 256⌉ ≤ 0 := Int.ceil_le.2 (by push_cast; push_cast at hneg; linarith)
    rw [abs_of_nonpos b]
    rw [div_le_iff₀ (by norm_num)] at a
    have : m - 128 ≤ ⌈((m - 128 : ℤ) : ℚ) / 256⌉ * 256 := by exact_mod_cast a
    omega

theorem rotate_agree {l : Layout} (hl : Fits B S l) (a : ℤ) (hB : B + 256 + 128 * S < 2 ^ 53) :
    rotate l a = Draftsman.rotate l a ∧ Fits (B + 256) S (Draftsman.rotate l a).1 := by
  unfold rotate Draftsman.rotate
  simp only
  split
  · exact ⟨rfl, fun e he => (hl.1 e he).mono (by omega), fun t ht => (hl.2 t ht).mono (by omega)⟩
  obtain ⟨r1, r2⟩ := rot_rows (a % 16)
  refine transform_agree hl (by omega) ?_ ?_ ?_ ?_
  · intro e he
    obtain ⟨e1, g1⟩ := row he.x he.y (by omega) r1
    obtain ⟨e2, g2⟩ := row he.x he.y (by omega) r2
    rw [rotateStep, Draftsman.rotateStep]
    simp only [e1, e2]
    exact turn_place _ _ _ g1 g2 he (by omega)
  · intro e e' he h
    obtain ⟨e1, g1⟩ := row he.x he.y (by omega) r1
    obtain ⟨e2, g2⟩ := row he.x he.y (by omega) r2
    rw [Draftsman.rotateStep] at h
    exact (turn_place_fits g1 g2 he h).mono (by omega)
  · intro t ht
    obtain ⟨c1, k1⟩ := centre ht.1 (by omega)
    obtain ⟨c2, k2⟩ := centre ht.2 (by omega)
    obtain ⟨e1, g1⟩ := row k1 k2 (by omega) r1
    obtain ⟨e2, g2⟩ := row k1 k2 (by omega) r2
    simp only [rotateTile, Draftsman.rotateTile, c1, c2, e1, e2]
    rw [corner g1 (by omega), corner g2 (by omega)]
  · intro t ht
    obtain ⟨c1, k1⟩ := centre ht.1 (by omega)
    obtain ⟨c2, k2⟩ := centre ht.2 (by omega)
    obtain ⟨e1, g1⟩ := row k1 k2 (by omega) r1
    obtain ⟨e2, g2⟩ := row k1 k2 (by omega) r2
    exact ⟨trunc_grid g1, trunc_grid g2⟩

theorem flip_agree {l : Layout} (hl : Fits B S l) (f : FlipArg) (hB : B + 256 + 128 * S < 2 ^ 53) :
    flip l f = Draftsman.flip l f ∧ Fits (B + 256) S (Draftsman.flip l f).1 := by
  have up : Fits (B + 256) S l := ⟨fun e he => (hl.1 e he).mono (by omega), fun t ht => (hl.2 t ht).mono (by omega)⟩
  unfold flip Draftsman.flip
  split
  · exact ⟨rfl, up⟩
  split
  · exact ⟨rfl, up⟩
  obtain ⟨s, u, hs, hu, hm⟩ : ∃ s u : ℤ, (s = 1 ∨ s = -1) ∧ (u = 1 ∨ u = -1) ∧
      (if f = .horizontal then ((-1, 1) : ℚ × ℚ) else (1, -1)) = ((s : ℚ), (u : ℚ)) := by
    split
    · exact ⟨-1, 1, by simp, by simp, by simp⟩
    · exact ⟨1, -1, by simp, by simp, by simp⟩
  refine transform_agree hl (by omega) ?_ ?_ ?_ ?_
  · intro e he
    simp only [flipStep, Draftsman.flipStep, hm, fmul_sign he.x (by omega) hs, fmul_sign he.y (by omega) hu]
    exact turn_place _ _ _ (he.x.sign hs) (he.y.sign hu) he (by omega)
  · intro e e' he h
    simp only [Draftsman.flipStep, hm] at h
    exact (turn_place_fits (he.x.sign hs) (he.y.sign hu) he h).mono (by omega)
  · intro t ht
    obtain ⟨c1, k1⟩ := centre ht.1 (by omega)
    obtain ⟨c2, k2⟩ := centre ht.2 (by omega)
    simp only [flipTile, Draftsman.flipTile, hm, c1, c2, fmul_sign k1 (by omega) hs, fmul_sign k2 (by omega) hu]
    rw [corner (k1.sign hs) (by omega), corner (k2.sign hu) (by omega)]
  · intro t ht
    obtain ⟨c1, k1⟩ := centre ht.1 (by omega)
    obtain ⟨c2, k2⟩ := centre ht.2 (by omega)
    simp only [Draftsman.flipTile, hm]
    exact ⟨trunc_grid (k1.sign hs), trunc_grid (k2.sign hu)⟩

/-- A call that moves a collection. -/
inductive Move where
  | translate (x y : ℤ)
  | rotate (angle : ℤ)
  | flip (f : FlipArg)

/-- How far a call can move something, in units of the grid. -/
def Move.reach : Move → ℤ
  | .translate x y => 256 * (|x| + |y|)
  | _ => 256

/-- A call without rounding. -/
def Move.exact (l : Layout) : Move → Outcome
  | .translate x y => (Draftsman.translate l x y).1
  | .rotate a => Draftsman.rotate l a
  | .flip f => Draftsman.flip l f

/-- The same call in doubles. -/
def Move.rounded (l : Layout) : Move → Outcome
  | .translate x y => FloatPos.translate l x y
  | .rotate a => FloatPos.rotate l a
  | .flip f => FloatPos.flip l f

/-- Calls one after the other, whether or not they raise; what they raise is collected. -/
def history (call : Layout → Move → Outcome) : Layout → List Move → Layout × List (Option PyErr)
  | l, [] => (l, [])
  | l, m :: ms => let r := history call (call l m).1 ms; (r.1, (call l m).2 :: r.2)

theorem Move.reach_nonneg (m : Move) : 0 ≤ m.reach := by
  cases m <;> simp only [reach] <;> positivity

theorem Move.agree {l : Layout} (hl : Fits B S l) (m : Move) (hB : B + m.reach + 128 * S < 2 ^ 53) :
    m.rounded l = m.exact l ∧ Fits (B + m.reach) S (m.exact l).1 := by
  cases m with
  | translate x y => exact translate_agree hl x y hB
  | rotate a => exact rotate_agree hl a hB
  | flip f => exact flip_agree hl f hB

/-- C114: on the grid, any calls compute in doubles what they compute exactly, as long as nothing can get `2⁵³/256` tiles away from
the origin: positions, tile positions, footprints, directions and exceptions. -/
theorem C114_moves_partial (ms : List Move) (B : ℤ) (S : ℕ) (l : Layout) (hl : Fits B S l)
    (hB : B + (ms.map Move.reach).sum + 128 * S < 2 ^ 53) :
    history Move.rounded l ms = history Move.exact l ms := by
  induction ms generalizing B l with
  | nil => rfl
  | cons m ms ih =>
    have hm := m.reach_nonneg
    have hs : 0 ≤ (ms.map Move.reach).sum := by
      apply List.sum_nonneg; intro a ha
      obtain ⟨b, -, rfl⟩ := List.mem_map.1 ha
      exact b.reach_nonneg
    simp only [List.map_cons, List.sum_cons] at hB
    obtain ⟨h1, h2⟩ := Move.agree hl m (by omega)
    simp only [history, h1]
    rw [ih (B + m.reach) _ h2 (by omega)]

/-- C114, for C22: on the grid, moving a collection away and back in doubles gives the collection again. -/
theorem C114_back_partial (l : Layout) (x y : ℤ) (hl : Fits B S l) (hB : B + 512 * (|x| + |y|) + 128 * S < 2 ^ 53)
    (hh : ∀ e ∈ l.entities, e.held = true) (ht : ∀ e ∈ l.entities, e.Settled) :
    translate (translate l x y).1 (-x) (-y) = (l, none) := by
  have ax := abs_nonneg x
  have ay := abs_nonneg y
  obtain ⟨h1, h2⟩ := translate_agree hl x y (by omega)
  obtain ⟨l', hl', -⟩ := C22_effect l x y
  rw [h1]
  rw [(translate_agree h2 (-x) (-y) (by rw [abs_neg, abs_neg]; omega)).1, hl']
  exact C22_inverse l l' hh ht x y hl'

/-- C114, for C29: global positions of objects on the grid, within groups of any depth, are computed without rounding, and so are the
positions that are exported. -/
theorem C114_global_partial (h : GHeap) (B : ℤ) (hh : ∀ u, OnGrid B (h u).pos.x ∧ OnGrid B (h u).pos.y) (n u : ℕ)
    (hB : B * (n + 1) < 2 ^ 53) :
    globalPos h n u = h.globalPos n u ∧
    ∀ g : Vec, OnGrid C g.x → OnGrid C g.y → B * (n + 1) + C < 2 ^ 53 →
      exported h n u g = ⟨(h.globalPos n u).x - g.x, (h.globalPos n u).y - g.y⟩ := by
  have h0 := (hh 0).1.nonneg
  have key : globalPos h n u = h.globalPos n u ∧ OnGrid (B * (n + 1)) (h.globalPos n u).x ∧ OnGrid (B * (n + 1)) (h.globalPos n u).y := by
    induction n generalizing u with
    | zero => exact ⟨rfl, by simpa [GHeap.globalPos] using (hh u).1, by simpa [GHeap.globalPos] using (hh u).2⟩
    | succ n ih =>
      have e : B * (((n + 1 : ℕ) : ℤ) + 1) = B * (n + 1) + B := by push_cast; ring
      have nn : 0 ≤ B * ((n : ℤ) + 1) := by positivity
      rw [e] at hB ⊢
      simp only [globalPos, GHeap.globalPos]
      cases hp : (h u).parent with
      | none => exact ⟨rfl, (hh u).1.mono (by omega), (hh u).2.mono (by omega)⟩
      | some p =>
        simp only
        split
        · exact ⟨rfl, (hh u).1.mono (by omega), (hh u).2.mono (by omega)⟩
        · obtain ⟨i1, i2, i3⟩ := ih p (by omega)
          have g1 := i2.add (hh u).1
          have g2 := i3.add (hh u).2
          rw [i1, fadd, fadd, g1.rnd_eq hB, g2.rnd_eq hB]
          exact ⟨rfl, g1, g2⟩
  obtain ⟨k1, k2, k3⟩ := key
  refine ⟨k1, fun g hx hy hg => ?_⟩
  rw [exported, k1, fsub, fsub, (k2.sub hx).rnd_eq hg, (k3.sub hy).rnd_eq hg]

/-- The value of a rounding, from the exponent and the significand. -/
theorem rnd_val (x : ℚ) (e m : ℤ) (h1 : (2 : ℚ) ^ e ≤ |x|) (h2 : |x| < 2 ^ (e + 1)) (h3 : RoundsTo (x / 2 ^ (e - 52)) m) :
    rnd x = m * 2 ^ (e - 52) := by
  have hx : x ≠ 0 := by
    rintro rfl
    have := two_pow_pos e
    rw [abs_zero] at h1
    linarith
  have hp : 0 < |x| := abs_pos.2 hx
  have l1 := (Int.zpow_le_iff_le_log (b := 2) (R := ℚ) one_lt_two hp (x := e)).1 (by simpa using h1)
  have l2 := (Int.lt_zpow_iff_log_lt (b := 2) (R := ℚ) one_lt_two hp (x := e + 1)).1 (by simpa using h2)
  have l3 : Int.log 2 |x| = e := by omega
  rw [rnd, if_neg hx, ulp, l3, pyRound_eq_iff.2 h3]

/-- A rounding that is none of `C114_nearest`'s trivial ones: a tenth. -/
example : (1 / 10 : ℚ) ≠ 0 ∧ rnd (1 / 10) = 3602879701896397 / 2 ^ 55 ∧ rnd (1 / 10) ≠ 1 / 10 := by
  have : rnd (1 / 10) = 3602879701896397 / 2 ^ 55 := by
    rw [rnd_val _ (-4) 7205759403792794] <;> norm_num [RoundsTo]
  exact ⟨by norm_num, this, by rw [this]; norm_num⟩

/-- A chest, one tile wide, at `p`. -/
def chestAt (p : Vec) : PEnt :=
  ⟨.fixed, .strict, 1, 1, 1, 1, none, p, ⟨pyRound (p.x - 1 / 2), pyRound (p.y - 1 / 2)⟩, true, false, true⟩

/-- The double written `0.1`. -/
def tenth : ℚ := 3602879701896397 / 2 ^ 55

theorem tenth_up : fadd tenth (rnd (1 : ℤ)) = 2476979795053773 / 2 ^ 51 := by
  have h : rnd ((1 : ℤ) : ℚ) = 1 := by simpa using rnd_dyadic 1 0 (by norm_num)
  rw [fadd, h, rnd_val _ 0 4953959590107546]
  all_goals norm_num [tenth, RoundsTo]

theorem tenth_down : fadd (2476979795053773 / 2 ^ 51) (rnd (-1 : ℤ)) = 225179981368525 / 2 ^ 51 := by
  have h : rnd ((-1 : ℤ) : ℚ) = -1 := by simpa using rnd_dyadic (-1) 0 (by norm_num)
  have := rnd_dyadic 225179981368525 51 (by norm_num)
  rw [fadd, h]
  convert this using 2 <;> norm_num

theorem chest_step (p : Vec) (x y : ℤ) :
    translate ⟨[chestAt p], []⟩ x y = (⟨[{ chestAt p with
      pos := ⟨fadd p.x (rnd x), fadd p.y (rnd y)⟩
      tile := ⟨pyRound (fsub (fadd p.x (rnd x)) (half 1)), pyRound (fsub (fadd p.y (rnd y)) (half 1))⟩ }], []⟩, none) := rfl

/-- C114 fails off the grid: a chest at 0.1 that is moved one tile to the right and one to the left again ends at
0.10000000000000009, so that moves of a collection (C22) do not undo each other exactly. -/
theorem C114_back_refuted : ¬ ∀ (l : Layout) (x y : ℤ), (∀ e ∈ l.entities, e.held = true ∧ e.Settled ∧ Double e.pos.x ∧ Double e.pos.y) →
    translate (translate l x y).1 (-x) (-y) = (l, none) := by
  intro h
  have := h ⟨[chestAt ⟨tenth, 1/2⟩], []⟩ 1 0 ?_
  · rw [chest_step] at this
    have h1 := congrArg (fun o : Outcome => o.1.entities.map (·.pos.x)) this
    simp only [translate, transformWith, eachEntity, translateStep, setPosition, chestAt, PosArg.toFloat, Bool.false_eq_true, if_false,
      List.map_cons, List.map_nil, List.cons.injEq, and_true] at h1
    rw [tenth_up, tenth_down] at h1
    norm_num [tenth] at h1
  · intro e he
    obtain rfl := List.mem_singleton.1 he
    refine ⟨rfl, ⟨fun _ => by simp [chestAt], fun d hd => by cases hd⟩, ⟨3602879701896397, -55, by norm_num, ?_⟩, ⟨1, -1, by norm_num, ?_⟩⟩
    · norm_num [chestAt, tenth]
    · norm_num [chestAt]

/-- C114 fails far away: `2⁵³` tiles to the right the half tile is lost, and on the way back the chest ends at 0. -/
theorem C114_far_refuted : ¬ ∀ (l : Layout) (x y : ℤ), (∀ e ∈ l.entities, e.held = true ∧ e.Settled ∧ OnGrid 256 e.pos.x ∧ OnGrid 256 e.pos.y) →
    translate (translate l x y).1 (-x) (-y) = (l, none) := by
  intro h
  have := h ⟨[chestAt ⟨1/2, 1/2⟩], []⟩ (2 ^ 53) 0 ?_
  · rw [chest_step] at this
    have h1 := congrArg (fun o : Outcome => o.1.entities.map (·.pos.x)) this
    simp only [translate, transformWith, eachEntity, translateStep, setPosition, chestAt, PosArg.toFloat, Bool.false_eq_true, if_false,
      List.map_cons, List.map_nil, List.cons.injEq, and_true] at h1
    have r1 : rnd ((2 ^ 53 : ℤ) : ℚ) = 2 ^ 53 := by
      rw [rnd_val _ 53 (2 ^ 52)] <;> norm_num [RoundsTo]
    have r2 : rnd ((-2 ^ 53 : ℤ) : ℚ) = -2 ^ 53 := by
      rw [rnd_val _ 53 (-2 ^ 52)] <;> norm_num [RoundsTo]
    have r3 : fadd (1 / 2) (2 ^ 53) = 2 ^ 53 := by
      rw [fadd, rnd_val _ 53 (2 ^ 52)] <;> norm_num [RoundsTo]
    rw [r1, r2, r3] at h1
    norm_num [fadd, rnd] at h1
  · intro e he
    obtain rfl := List.mem_singleton.1 he
    exact ⟨rfl, ⟨fun _ => by simp [chestAt], fun d hd => by cases hd⟩, OnGrid.one_half (by norm_num), OnGrid.one_half (by norm_num)⟩

/-- The hypotheses of `C114_moves_partial` hold of a chest at (300.5, −1000000.5) and of a tile, and of three calls. -/
example : Fits (256 * 2000000) 1 ⟨[chestAt ⟨601/2, -2000001/2⟩], [⟨-7, 12⟩]⟩ ∧
    (256 * 2000000 : ℤ) + ([.translate 5 (-90000), .rotate 4, .flip .vertical].map Move.reach).sum + 128 * (1 : ℕ) < 2 ^ 53 := by
  refine ⟨⟨?_, ?_⟩, ?_⟩
  · intro e he
    obtain rfl := List.mem_singleton.1 he
    exact ⟨⟨601 * 128, by norm_num [chestAt], by norm_num⟩, ⟨-2000001 * 128, by norm_num [chestAt], by norm_num⟩, le_rfl, le_rfl, le_rfl, le_rfl⟩
  · intro t ht
    obtain rfl := List.mem_singleton.1 ht
    exact ⟨by decide, by decide⟩
  · norm_num [Move.reach]

/-- And of `C114_back_partial`. -/
example : Fits (256 * 2000000) 1 ⟨[chestAt ⟨601/2, 1/256⟩], []⟩ ∧ (256 * 2000000 : ℤ) + 512 * (|(3:ℤ)| + |(-8:ℤ)|) + 128 * (1 : ℕ) < 2 ^ 53 ∧
    (chestAt ⟨601/2, 1/256⟩).held = true ∧ (chestAt ⟨601/2, 1/256⟩).Settled := by
  refine ⟨⟨?_, by simp⟩, by norm_num, rfl, ⟨fun _ => by simp [chestAt], fun d hd => by cases hd⟩⟩
  intro e he
  obtain rfl := List.mem_singleton.1 he
  exact ⟨⟨601 * 128, by norm_num [chestAt], by norm_num⟩, ⟨1, by norm_num [chestAt], by norm_num⟩, le_rfl, le_rfl, le_rfl, le_rfl⟩

/-- And of `C114_global_partial`: objects at (1.5, −0.25), each in the one before it, 100 deep. -/
example : (∀ u, OnGrid 384 ((fun u => ⟨.group, ⟨3/2, -1/4⟩, some (u - 1), []⟩ : GHeap) u).pos.x ∧
      OnGrid 384 ((fun u => ⟨.group, ⟨3/2, -1/4⟩, some (u - 1), []⟩ : GHeap) u).pos.y) ∧
    (384 : ℤ) * ((100 : ℕ) + 1) + 256 < 2 ^ 53 ∧ OnGrid 256 (1 : ℚ) :=
  ⟨fun _ => ⟨⟨384, by norm_num, by norm_num⟩, ⟨-64, by norm_num, by norm_num⟩⟩, by norm_num, ⟨256, by norm_num, by norm_num⟩⟩

end Draftsman.FloatPos
