import Mathlib.Analysis.Convex.Radon
import Mathlib.LinearAlgebra.Dimension.Constructions
import Mathlib.Tactic.Linarith
import Mathlib.Tactic.FieldSimp
import Mathlib.Tactic.Ring
import Mathlib.Tactic.LinearCombination
import Verif.Model.Rect
/-
Helper lemmas for the separating-axis test.
-/
namespace Draftsman.Rect

/-- A box meets a slab as soon as the centres are close enough. -/
theorem box_slab {A B₁ B₂ p q d : ℚ} (hA : 0 < A) (h1 : 0 < B₁) (h2 : 0 < B₂)
    (h : |d| < A + |p| * B₁ + |q| * B₂) :
    ∃ u v, |u| < B₁ ∧ |v| < B₂ ∧ |d + p * u + q * v| < A := by
  have hp := abs_nonneg p
  have hq := abs_nonneg q
  have hp1 : 0 ≤ |p| * B₁ := by positivity
  have hq1 : 0 ≤ |q| * B₂ := by positivity
  obtain ⟨T, hT⟩ : ∃ T, T = A + |p| * B₁ + |q| * B₂ := ⟨_, rfl⟩
  have hTpos : 0 < T := by rw [hT]; linarith
  have hsgn : ∀ r : ℚ, ∃ σ : ℚ, |σ| ≤ 1 ∧ r * σ = |r| := fun r => by
    rcases abs_cases r with ⟨h, _⟩ | ⟨h, _⟩
    · exact ⟨1, by simp, by simp [h]⟩
    · exact ⟨-1, by simp, by simp [h]⟩
  obtain ⟨σ, hσ, hσ'⟩ := hsgn p
  obtain ⟨τ, hτ, hτ'⟩ := hsgn q
  have hdT : |d / T| < 1 := by
    rw [abs_div, abs_of_pos hTpos, div_lt_one hTpos, hT]; exact h
  have key : ∀ (ρ B : ℚ), 0 < B → |ρ| ≤ 1 → |-(ρ * B * (d / T))| < B := by
    intro ρ B hB hρ
    rw [abs_neg, abs_mul, abs_mul, abs_of_pos hB]
    have := abs_nonneg ρ
    have := abs_nonneg (d / T)
    nlinarith [mul_le_mul_of_nonneg_right hρ hB.le]
  refine ⟨-(σ * B₁ * (d / T)), -(τ * B₂ * (d / T)), key _ _ h1 hσ, key _ _ h2 hτ, ?_⟩
  have : d + p * -(σ * B₁ * (d / T)) + q * -(τ * B₂ * (d / T)) = A * (d / T) := by
    have e : d + p * -(σ * B₁ * (d / T)) + q * -(τ * B₂ * (d / T))
        = d - (p * σ) * B₁ * (d / T) - (q * τ) * B₂ * (d / T) := by ring
    rw [e, hσ', hτ']
    have hd : d = T * (d / T) := by field_simp
    have : d - |p| * B₁ * (d / T) - |q| * B₂ * (d / T) =
      (T - |p| * B₁ - |q| * B₂) * (d / T) := by
        conv_lhs => rw [hd]
        field_simp
    rw [this, hT]; ring
  rw [this, abs_mul, abs_of_pos hA]
  nlinarith

theorem strip_convex (f : ℚ × ℚ → ℚ) (hf : IsLinearMap ℚ f) (d r : ℚ) :
    Convex ℚ {w | |d + f w| < r} := by
  have : {w | |d + f w| < r} = {w | f w < r - d} ∩ {w | -r - d < f w} := by
    ext w
    simp only [Set.mem_ofPred_eq, Set.mem_inter_iff, abs_lt]
    constructor <;> rintro ⟨h, k⟩ <;> constructor <;> linarith
  rw [this]
  exact (convex_halfSpace_lt hf _).inter (convex_halfSpace_gt hf _)

/-- Two rotated boxes given by half-extents: if no face normal separates them they meet.  The proof is
Helly's theorem for the four open strips. -/
theorem boxes_meet {A₁ A₂ B₁ B₂ C S d₁ d₂ : ℚ} (hA1 : 0 < A₁) (hA2 : 0 < A₂) (hB1 : 0 < B₁)
    (hB2 : 0 < B₂) (hCS : C ^ 2 + S ^ 2 = 1)
    (h1 : |d₁| < A₁ + |C| * B₁ + |S| * B₂) (h2 : |d₂| < A₂ + |S| * B₁ + |C| * B₂)
    (h3 : |C * d₁ + S * d₂| < B₁ + |C| * A₁ + |S| * A₂)
    (h4 : |-S * d₁ + C * d₂| < B₂ + |S| * A₁ + |C| * A₂) :
    ∃ u v, |u| < B₁ ∧ |v| < B₂ ∧ |d₁ + C * u - S * v| < A₁ ∧ |d₂ + S * u + C * v| < A₂ := by
  let F : Fin 4 → Set (ℚ × ℚ) := fun i =>
    match i with
    | 0 => {w | |0 + w.1| < B₁}
    | 1 => {w | |0 + w.2| < B₂}
    | 2 => {w | |d₁ + (C * w.1 - S * w.2)| < A₁}
    | 3 => {w | |d₂ + (S * w.1 + C * w.2)| < A₂}
  have hconv : ∀ i, Convex ℚ (F i) := by
    intro i
    fin_cases i
    · exact strip_convex (fun w => w.1) ⟨by intros; simp, by intros; simp⟩ _ _
    · exact strip_convex (fun w => w.2) ⟨by intros; simp, by intros; simp⟩ _ _
    · exact strip_convex (fun w => C * w.1 - S * w.2)
        ⟨by intros; simp; ring, by intros; simp; ring⟩ _ _
    · exact strip_convex (fun w => S * w.1 + C * w.2)
        ⟨by intros; simp; ring, by intros; simp; ring⟩ _ _
  have hfr : Module.finrank ℚ (ℚ × ℚ) = 2 := by simp
  have t012 : (F 0 ∩ F 1 ∩ F 2).Nonempty := by
    obtain ⟨u, v, hu, hv, h⟩ := box_slab (p := C) (q := -S) (d := d₁) hA1 hB1 hB2 (by rwa [abs_neg])
    refine ⟨(u, v), ⟨by simpa [F] using hu, by simpa [F] using hv⟩, ?_⟩
    have : d₁ + C * u + -S * v = d₁ + (C * u - S * v) := by ring
    simpa only [F, Set.mem_ofPred_eq, this] using h
  have t013 : (F 0 ∩ F 1 ∩ F 3).Nonempty := by
    obtain ⟨u, v, hu, hv, h⟩ := box_slab (p := S) (q := C) hA2 hB1 hB2 h2
    refine ⟨(u, v), ⟨by simpa [F] using hu, by simpa [F] using hv⟩, ?_⟩
    have : d₂ + S * u + C * v = d₂ + (S * u + C * v) := by ring
    simpa only [F, Set.mem_ofPred_eq, this] using h
  have t230 : (F 2 ∩ F 3 ∩ F 0).Nonempty := by
    obtain ⟨u, v, hu, hv, h⟩ := box_slab (p := C) (q := S) (d := -(C * d₁ + S * d₂)) hB1 hA1 hA2
      (by rwa [abs_neg])
    refine ⟨(C * (u - d₁) + S * (v - d₂), -S * (u - d₁) + C * (v - d₂)), ⟨?_, ?_⟩, ?_⟩
    · have : d₁ + (C * (C * (u - d₁) + S * (v - d₂)) - S * (-S * (u - d₁) + C * (v - d₂))) = u := by
        linear_combination (u - d₁) * hCS
      simpa only [F, Set.mem_ofPred_eq, this] using hu
    · have : d₂ + (S * (C * (u - d₁) + S * (v - d₂)) + C * (-S * (u - d₁) + C * (v - d₂))) = v := by
        linear_combination (v - d₂) * hCS
      simpa only [F, Set.mem_ofPred_eq, this] using hv
    · have : -(C * d₁ + S * d₂) + C * u + S * v = 0 + (C * (u - d₁) + S * (v - d₂)) := by ring
      simpa only [F, Set.mem_ofPred_eq, ← this] using h
  have t231 : (F 2 ∩ F 3 ∩ F 1).Nonempty := by
    obtain ⟨u, v, hu, hv, h⟩ := box_slab (p := -S) (q := C) (d := -(-S * d₁ + C * d₂)) hB2 hA1 hA2
      (by rwa [abs_neg, abs_neg])
    refine ⟨(C * (u - d₁) + S * (v - d₂), -S * (u - d₁) + C * (v - d₂)), ⟨?_, ?_⟩, ?_⟩
    · have : d₁ + (C * (C * (u - d₁) + S * (v - d₂)) - S * (-S * (u - d₁) + C * (v - d₂))) = u := by
        linear_combination (u - d₁) * hCS
      simpa only [F, Set.mem_ofPred_eq, this] using hu
    · have : d₂ + (S * (C * (u - d₁) + S * (v - d₂)) + C * (-S * (u - d₁) + C * (v - d₂))) = v := by
        linear_combination (v - d₂) * hCS
      simpa only [F, Set.mem_ofPred_eq, this] using hv
    · have : -(-S * d₁ + C * d₂) + -S * u + C * v = 0 + (-S * (u - d₁) + C * (v - d₂)) := by ring
      simpa only [F, Set.mem_ofPred_eq, ← this] using h
  have hel := Convex.helly_theorem' (𝕜 := ℚ) (F := F) (s := Finset.univ) (fun i _ => hconv i) (by
    rw [hfr]
    intro I _ hI
    have : ∃ k : Fin 4, k ∉ I := by
      by_contra hne
      push Not at hne
      have : I = Finset.univ := by ext i; simp [hne i]
      rw [this] at hI; simp at hI
    obtain ⟨k, hk⟩ := this
    have aux : ∀ (a b c k : Fin 4), (F a ∩ F b ∩ F c).Nonempty → k ∉ I →
        (∀ i, i = a ∨ i = b ∨ i = c ∨ i = k) → (⋂ i ∈ I, F i).Nonempty := by
      rintro a b c k ⟨w, ⟨ha, hb⟩, hc⟩ hk hall
      refine ⟨w, ?_⟩
      simp only [Set.mem_iInter]
      intro i hi
      rcases hall i with rfl | rfl | rfl | rfl
      · exact ha
      · exact hb
      · exact hc
      · exact absurd hi hk
    fin_cases k
    · exact aux 2 3 1 0 t231 hk (by decide)
    · exact aux 2 3 0 1 t230 hk (by decide)
    · exact aux 0 1 3 2 t013 hk (by decide)
    · exact aux 0 1 2 3 t012 hk (by decide))
  obtain ⟨w, hw⟩ := hel
  simp only [Finset.mem_univ, Set.iInter_true, Set.mem_iInter] at hw
  have w0 := hw 0
  have w1 := hw 1
  have w2 := hw 2
  have w3 := hw 3
  simp only [F, Set.mem_ofPred_eq, zero_add] at w0 w1 w2 w3
  exact ⟨w.1, w.2, w0, w1, by rwa [add_sub_assoc], by rwa [add_assoc]⟩

/-- What the projection loop computes: an attained lower and an attained upper bound. -/
theorem flatten_spec (pts : List Vec) (n : Vec) (hne : pts ≠ []) :
    ∃ lo hi, flattenPointsOn pts n = (some lo, some hi) ∧
      (∃ p ∈ pts, dot p n = lo) ∧ (∃ p ∈ pts, dot p n = hi) ∧
      ∀ p ∈ pts, lo ≤ dot p n ∧ dot p n ≤ hi := by
  have gen : ∀ (l : List Vec) (lo hi : ℚ), ∃ lo' hi',
      l.foldl (flattenStep n) (some lo, some hi) = (some lo', some hi') ∧
      (lo' = lo ∨ ∃ p ∈ l, dot p n = lo') ∧ (hi' = hi ∨ ∃ p ∈ l, dot p n = hi') ∧
      lo' ≤ lo ∧ hi ≤ hi' ∧ ∀ p ∈ l, lo' ≤ dot p n ∧ dot p n ≤ hi' := by
    intro l
    induction l with
    | nil => intro lo hi; exact ⟨lo, hi, rfl, .inl rfl, .inl rfl, le_rfl, le_rfl, by simp⟩
    | cons p l ih =>
      intro lo hi
      rw [List.foldl_cons]
      have : flattenStep n (some lo, some hi) p =
          (some (if dot p n < lo then dot p n else lo), some (if dot p n > hi then dot p n else hi)) := by
        simp only [flattenStep]
        split_ifs <;> rfl
      rw [this]
      obtain ⟨lo', hi', he, h1, h2, h3, h4, h5⟩ := ih _ _
      refine ⟨lo', hi', he, ?_, ?_, ?_, ?_, ?_⟩
      · rcases h1 with h1 | ⟨q, hq, h1⟩
        · split_ifs at h1
          · exact .inr ⟨p, by simp, h1.symm⟩
          · exact .inl h1
        · exact .inr ⟨q, by simp [hq], h1⟩
      · rcases h2 with h2 | ⟨q, hq, h2⟩
        · split_ifs at h2
          · exact .inr ⟨p, by simp, h2.symm⟩
          · exact .inl h2
        · exact .inr ⟨q, by simp [hq], h2⟩
      · split_ifs at h3 <;> linarith
      · split_ifs at h4 <;> linarith
      · intro q hq
        rcases List.mem_cons.1 hq with rfl | hq
        · split_ifs at h3 h4 <;> constructor <;> linarith
        · exact h5 q hq
  cases pts with
  | nil => exact absurd rfl hne
  | cons p l =>
    obtain ⟨lo', hi', he, h1, h2, h3, h4, h5⟩ := gen l (dot p n) (dot p n)
    refine ⟨lo', hi', ?_, ?_, ?_, ?_⟩
    · simpa [flattenPointsOn, List.foldl_cons, flattenStep] using he
    · rcases h1 with h1 | ⟨q, hq, h1⟩
      · exact ⟨p, by simp, h1.symm⟩
      · exact ⟨q, by simp [hq], h1⟩
    · rcases h2 with h2 | ⟨q, hq, h2⟩
      · exact ⟨p, by simp, h2.symm⟩
      · exact ⟨q, by simp [hq], h2⟩
    · intro q hq
      rcases List.mem_cons.1 hq with rfl | hq
      · exact ⟨h3, h4⟩
      · exact h5 q hq

end Draftsman.Rect
