import Verif.Model.Checks
import Verif.Proof.Dict
import Verif.Props.Instruments
import Mathlib.Algebra.Group.Even
import Mathlib.Algebra.Group.Int.Even
import Mathlib.Data.List.Induction
import Mathlib.Tactic.Linarith
/-
C88: every check of a field reports exactly the values it is about.
-/
namespace Draftsman
namespace Checks
open Instruments (Inst Speaker Tidy extract extract_mirror)

/-- The modes in which values are looked at closely. -/
def Checked (ctx : Ctx) : Prop := ctx = some .strict ∨ ctx = some .pedantic

instance (ctx : Ctx) : Decidable (Checked ctx) := by unfold Checked; infer_instance

/-- A check reports one warning under a condition, and otherwise nothing. -/
def Reports (l : List Warn) (p : Prop) (w : Warn) : Prop := (p → l = [w]) ∧ (¬ p → l = [])

theorem skip_minimum (ctx : Ctx) : skip .minimum ctx = false ↔ Checked ctx := by
  match ctx with
  | none => simp [skip, Checked]
  | some .none => simp [Checked]; decide
  | some .minimum => simp [Checked]; decide
  | some .strict => simp [Checked]; decide
  | some .pedantic => simp [Checked]; decide

theorem skip_strict (ctx : Ctx) : skip .strict ctx = false ↔ ctx = some .pedantic := by
  match ctx with
  | none => simp [skip]
  | some .none => decide
  | some .minimum => decide
  | some .strict => decide
  | some .pedantic => decide

theorem skip_pos {ctx : Ctx} (h : Checked ctx) : skip .minimum ctx = false := (skip_minimum ctx).2 h

theorem skip_neg {ctx : Ctx} (h : ¬ Checked ctx) : skip .minimum ctx = true := by
  rw [← Bool.not_eq_false]; exact fun e => h ((skip_minimum ctx).1 e)

theorem pedantic_neg {ctx : Ctx} (h : ctx ≠ some .pedantic) : skip .strict ctx = true := by
  rw [← Bool.not_eq_false]; exact fun e => h ((skip_strict ctx).1 e)

/-- Reports under a condition of its own in the checked modes. -/
theorem reports_if {ctx : Ctx} {l : List Warn} {p : Prop} [Decidable p] {w : Warn}
    (h : l = if skip .minimum ctx then [] else if p then [w] else []) : Reports l (Checked ctx ∧ p) w := by
  constructor
  · rintro ⟨hc, hp⟩
    rw [h, skip_pos hc]
    simp [hp]
  · intro hn
    by_cases hc : Checked ctx
    · have hp : ¬ p := fun hp => hn ⟨hc, hp⟩
      rw [h, skip_pos hc]
      simp [hp]
    · rw [h, skip_neg hc]
      simp

/-! ### Names and signals -/

/-- C88: an unknown name is reported, a known one is not. -/
theorem C88_name (kind : String) (names : List String) (ctx : Ctx) (value : String) :
    Reports (knownName kind names ctx value) (Checked ctx ∧ value ∉ names) (.unknownName kind value) := by
  refine reports_if ?_
  unfold knownName
  by_cases h : value ∈ names <;> simp [h]

example : knownName "item" ["coal"] (some .strict) "cola" = [.unknownName "item" "cola"] ∧ knownName "item" ["coal"] (some .strict) "coal" = [] ∧
    knownName "item" ["coal"] (some .minimum) "cola" = [] := by decide +kernel

/-- C88: a known signal whose type is none of its own is reported; an unknown signal is not. -/
theorem C88_signal (raw : List String) (types : String → List String) (ctx : Ctx) (name : String) (type : Option String) :
    Reports (typeMatches raw types ctx name type) (Checked ctx ∧ name ∈ raw ∧ ∀ t, type = some t → t ∉ types name) (.mismatch name type) := by
  classical
  refine reports_if ?_
  unfold typeMatches
  by_cases h : name ∈ raw
  · cases type with
    | none => simp [h]
    | some t => by_cases ht : t ∈ types name <;> simp [h, ht]
  · simp [h]

example : typeMatches ["coal"] (fun _ => ["item"]) (some .pedantic) "coal" (some "fluid") = [.mismatch "coal" (some "fluid")] := by decide +kernel

/-- C88: a constant combinator that is given a pure virtual signal gets an `AttributeError` that escapes; anything else is accepted in silence. -/
theorem C88_virtual_partial (ctx : Ctx) (value : String) :
    (Checked ctx ∧ (value = "signal-everything" ∨ value = "signal-anything" ∨ value = "signal-each") → notPureVirtual ctx value = .error .attributeError) ∧
    (¬(Checked ctx ∧ (value = "signal-everything" ∨ value = "signal-anything" ∨ value = "signal-each")) → notPureVirtual ctx value = .ok []) := by
  have hv : value ∈ pureVirtual ↔ (value = "signal-everything" ∨ value = "signal-anything" ∨ value = "signal-each") := by simp [pureVirtual]
  rw [← hv]
  unfold notPureVirtual
  constructor
  · rintro ⟨hc, h⟩
    simp [skip_pos hc, h]
  · intro hn
    by_cases hc : Checked ctx
    · have hp : value ∉ pureVirtual := fun h => hn ⟨hc, h⟩
      simp [skip_pos hc, hp]
    · simp [skip_neg hc]

example : notPureVirtual (some .strict) "signal-A" = .ok [] := by decide +kernel

/-- C88: a pure virtual signal in a constant combinator should give a warning; the text of the warning cannot be made, and an `AttributeError` escapes. -/
theorem C88_virtual_refuted : ¬ ∀ ctx value, ∃ l, notPureVirtual ctx value = .ok l := by
  intro h
  obtain ⟨l, hl⟩ := h (some .strict) "signal-each"
  rw [show notPureVirtual (some .strict) "signal-each" = .error .attributeError by decide +kernel] at hl
  cases hl

/-- C88: a filter beyond the number of filters of a known entity is refused, and no other. -/
theorem C88_filters_partial (count : Option Int) (ctx : Ctx) (value : Int) :
    ((Checked ctx ∧ ∃ n, count = some n ∧ n < value) → withinFilterCount count ctx value = .error .valueError) ∧
    (¬(Checked ctx ∧ ∃ n, count = some n ∧ n < value) → withinFilterCount count ctx value = .ok []) := by
  unfold withinFilterCount
  constructor
  · rintro ⟨hc, n, rfl, h⟩
    simp [skip_pos hc, h]
  · intro hn
    by_cases hc : Checked ctx
    · cases count with
      | none => simp [skip_pos hc]
      | some n =>
        have : ¬ n < value := fun h => hn ⟨hc, n, rfl, h⟩
        simp [skip_pos hc, this]
    · simp [skip_neg hc]

example : withinFilterCount (some 5) (some .strict) 6 = .error .valueError ∧ withinFilterCount (some 5) (some .strict) 5 = .ok [] := by decide +kernel

/-- C88: the filters are numbered from 1, but 0 and negative numbers are accepted. -/
theorem C88_filters_refuted : ¬ ∀ count ctx value, Checked ctx → withinFilterCount (some count) ctx value = .ok [] → 1 ≤ value := by
  intro h
  exact absurd (h 5 (some .strict) (-3) (by decide) (by decide +kernel)) (by decide)

/-! ### Inventories -/

/-- The factor by which a quality enlarges an inventory. -/
inductive Factor : String → Rat → Prop where
  | normal : Factor "normal" 1
  | uncommon : Factor "uncommon" (13 / 10)
  | rare : Factor "rare" (16 / 10)
  | epic : Factor "epic" (19 / 10)
  | legendary : Factor "legendary" (25 / 10)

theorem multiplier_iff (q : String) (f : Rat) : multiplier q = some f ↔ Factor q f := by
  constructor
  · intro h
    unfold multiplier at h
    split at h <;> first
      | (cases h; constructor)
      | cases h
  · rintro (_ | _ | _ | _ | _) <;> rfl

/-- The size of the inventory of an entity of known quality: the size of the prototype, enlarged unless quality does not matter. -/
def HasSize (p : Option Proto) (quality : Option String) (n : Int) : Prop :=
  ∃ pr base, p = some pr ∧ pr.size = some base ∧
    ((pr.qualityAffects = some false ∧ n = base) ∨
     (pr.qualityAffects ≠ some false ∧ ∃ q f, quality = some q ∧ Factor q f ∧ (n : Rat) ≤ base * f ∧ (base : Rat) * f < n + 1))

/-- C88: the size of an inventory. -/
theorem C88_size (p : Option Proto) (quality : Option String) (n : Int) : inventorySize p quality = .ok (some n) ↔ HasSize p quality n := by
  unfold inventorySize HasSize
  cases p with
  | none => simp
  | some pr =>
    cases hs : pr.size with
    | none => simp [hs]
    | some base =>
      simp only [Option.bind_some, hs, qualityAffectsSize, Option.map_some, Option.some.injEq]
      cases hq : pr.qualityAffects with
      | some b =>
        cases b with
        | false =>
          simp only [Option.getD_some, Bool.false_eq_true, if_false]
          constructor
          · intro h; cases h; exact ⟨pr, n, rfl, hs, .inl ⟨hq, rfl⟩⟩
          · rintro ⟨pr', b', rfl, hs', h | ⟨h, -⟩⟩
            · rw [hs] at hs'; cases hs'; rw [h.2]
            · exact absurd hq h
        | true =>
          simp only [Option.getD_some, if_true]
          cases hm : quality.bind multiplier with
          | none =>
            simp only [reduceCtorEq, false_iff]
            rintro ⟨pr', b', rfl, hs', h | ⟨-, q, f, rfl, hf, -⟩⟩
            · rw [hq] at h; cases h.1
            · rw [Option.bind_some, (multiplier_iff q f).2 hf] at hm; cases hm
          | some f =>
            obtain ⟨q, rfl, hf⟩ := Option.bind_eq_some_iff.1 hm
            simp only [Except.ok.injEq, Option.some.injEq, Int.floor_eq_iff]
            constructor
            · intro h; exact ⟨pr, base, rfl, hs, .inr ⟨by rw [hq]; simp, q, f, rfl, (multiplier_iff q f).1 hf, h⟩⟩
            · rintro ⟨pr', b', rfl, hs', h | ⟨-, q', f', e, hf', h⟩⟩
              · rw [hq] at h; cases h.1
              · rw [hs] at hs'; cases hs'; cases e
                rw [(multiplier_iff _ _).2 hf'] at hf; cases hf; exact h
      | none =>
        simp only [Option.getD_none, if_true]
        cases hm : quality.bind multiplier with
        | none =>
          simp only [reduceCtorEq, false_iff]
          rintro ⟨pr', b', rfl, hs', h | ⟨-, q, f, rfl, hf, -⟩⟩
          · rw [hq] at h; cases h.1
          · rw [Option.bind_some, (multiplier_iff q f).2 hf] at hm; cases hm
        | some f =>
          obtain ⟨q, rfl, hf⟩ := Option.bind_eq_some_iff.1 hm
          simp only [Except.ok.injEq, Option.some.injEq, Int.floor_eq_iff]
          constructor
          · intro h; exact ⟨pr, base, rfl, hs, .inr ⟨by rw [hq]; simp, q, f, rfl, (multiplier_iff q f).1 hf, h⟩⟩
          · rintro ⟨pr', b', rfl, hs', h | ⟨-, q', f', e, hf', h⟩⟩
            · rw [hq] at h; cases h.1
            · rw [hs] at hs'; cases hs'; cases e
              rw [(multiplier_iff _ _).2 hf'] at hf; cases hf; exact h

example : inventorySize (some ⟨some 16, none, none⟩) (some "rare") = .ok (some 25) := by decide +kernel
example : inventorySize (some ⟨some 16, none, some false⟩) (some "rare") = .ok (some 16) := by decide +kernel

/-- C88: a bar is reported where the prototype has none, and, by pedants only, if it lies beyond a size that is known and not 0. -/
theorem C88_bar_partial (p : Option Proto) (quality : Option String) (ctx : Ctx) (bar : Option Int) (l : List Warn)
    (h : barCheck p quality ctx bar = .ok l) :
    (∀ w ∈ l, w = .barDisabled ∨ ∃ b n, w = .barTooLarge b n) ∧
    (.barDisabled ∈ l ↔ Checked ctx ∧ bar ≠ none ∧ ∃ pr, p = some pr ∧ pr.barEnabled = some false) ∧
    (∀ b n, .barTooLarge b n ∈ l ↔ ctx = some .pedantic ∧ bar = some b ∧ HasSize p quality n ∧ n ≠ 0 ∧ n ≤ b) := by
  cases bar with
  | none =>
    simp only [barCheck, barLessCheck, Except.map, barEnabledCheck, Except.ok.injEq] at h
    subst h
    simp
  | some b =>
    simp only [barCheck] at h
    have hE : Reports (barEnabledCheck p ctx (some b)) (Checked ctx ∧ inventoryBarEnabled p = some false) .barDisabled :=
      reports_if (by simp only [barEnabledCheck])
    have hD : inventoryBarEnabled p = some false ↔ ∃ pr, p = some pr ∧ pr.barEnabled = some false := by
      cases p with
      | none => simp [inventoryBarEnabled]
      | some pr => cases hb : pr.barEnabled <;> simp [inventoryBarEnabled, hb]
    cases hL : barLessCheck p quality ctx (some b) with
    | error e => rw [hL] at h; cases h
    | ok l' =>
      rw [hL] at h
      simp only [Except.map, Except.ok.injEq] at h
      have hless : ∀ w, w ∈ l' ↔ ctx = some .pedantic ∧ ∃ n, w = .barTooLarge b n ∧ HasSize p quality n ∧ n ≠ 0 ∧ n ≤ b := by
        intro w
        simp only [barLessCheck] at hL
        by_cases hp : ctx = some .pedantic
        · rw [(skip_strict ctx).2 hp] at hL
          simp only [Bool.false_eq_true, if_false] at hL
          cases hs : inventorySize p quality with
          | error e => rw [hs] at hL; cases hL
          | ok o =>
            rw [hs] at hL
            cases o with
            | none =>
              cases hL
              simp only [List.not_mem_nil, false_iff, not_and, not_exists]
              intro _ n _ hn
              rw [(C88_size p quality n).2 hn] at hs; cases hs
            | some n =>
              have huniq : ∀ m, HasSize p quality m ↔ m = n := by
                intro m
                rw [← C88_size, hs]
                simp only [Except.ok.injEq, Option.some.injEq]
                exact eq_comm
              by_cases hb : n ≠ 0 ∧ b ≥ n
              · simp only [if_pos hb] at hL
                cases hL
                simp only [List.mem_singleton, huniq]
                constructor
                · rintro rfl; exact ⟨hp, n, rfl, rfl, hb.1, hb.2⟩
                · rintro ⟨-, m, rfl, rfl, -⟩; rfl
              · simp only [if_neg hb] at hL
                cases hL
                simp only [List.not_mem_nil, false_iff, not_and, not_exists, huniq]
                rintro - m - rfl h0 h1
                exact hb ⟨h0, h1⟩
        · rw [pedantic_neg hp] at hL
          cases hL
          simp [hp]
      subst h
      have hmemE : ∀ w, w ∈ barEnabledCheck p ctx (some b) ↔ w = .barDisabled ∧ Checked ctx ∧ inventoryBarEnabled p = some false := by
        intro w
        by_cases hc : Checked ctx ∧ inventoryBarEnabled p = some false
        · rw [hE.1 hc]; simp [hc]
        · rw [hE.2 hc]; simp only [List.not_mem_nil, false_iff]; exact fun h => hc h.2
      refine ⟨?_, ?_, ?_⟩
      · intro w hw
        rcases List.mem_append.1 hw with hw | hw
        · exact .inl ((hmemE w).1 hw).1
        · obtain ⟨-, n, rfl, -⟩ := (hless w).1 hw
          exact .inr ⟨b, n, rfl⟩
      · rw [List.mem_append, hmemE, hless, ← hD]
        simp
      · intro b' n
        rw [List.mem_append, hmemE, hless]
        simp only [reduceCtorEq, false_and, false_or, Warn.barTooLarge.injEq, Option.some.injEq]
        constructor
        · rintro ⟨h1, m, ⟨rfl, rfl⟩, h2⟩; exact ⟨h1, rfl, h2⟩
        · rintro ⟨h1, rfl, h2⟩; exact ⟨h1, n, ⟨rfl, rfl⟩, h2⟩

example : barCheck (some ⟨some 16, some false, none⟩) (some "normal") (some .pedantic) (some 20) = .ok [.barDisabled, .barTooLarge 20 16] := by
  decide +kernel
example : barCheck (some ⟨some 16, none, none⟩) (some "rare") (some .pedantic) (some 20) = .ok [] := by decide +kernel

/-- C88: when does the check of a bar raise: only for a quality that has no factor, and then it is a `KeyError` that escapes. -/
theorem C88_bar_raises (p : Option Proto) (quality : Option String) (ctx : Ctx) (bar : Option Int) (e : PyErr) :
    barCheck p quality ctx bar = .error e ↔
      e = .keyError ∧ ctx = some .pedantic ∧ bar ≠ none ∧ (∃ pr, p = some pr ∧ pr.size ≠ none ∧ pr.qualityAffects ≠ some false) ∧
        ∀ q f, quality = some q → ¬ Factor q f := by
  have hmul : quality.bind multiplier = none ↔ ∀ q f, quality = some q → ¬ Factor q f := by
    cases quality with
    | none => simp
    | some q =>
      simp only [Option.bind_some, Option.some.injEq]
      constructor
      · rintro h q' f rfl hf; rw [(multiplier_iff _ _).2 hf] at h; cases h
      · intro h
        cases hm : multiplier q with
        | none => rfl
        | some f => exact absurd ((multiplier_iff q f).1 hm) (h q f rfl)
  rw [← hmul]
  cases bar with
  | none => simp [barCheck, barLessCheck, Except.map]
  | some b =>
    by_cases hp : ctx = some .pedantic
    · subst hp
      have hsk : skip .strict (some .pedantic) = false := by decide
      simp only [barCheck, barLessCheck, hsk, true_and, ne_eq, reduceCtorEq, not_false_eq_true, Bool.false_eq_true, if_false]
      cases p with
      | none => simp [inventorySize, Except.map]
      | some pr =>
        have ha : qualityAffectsSize (some pr) = some true ↔ pr.qualityAffects ≠ some false := by
          cases hq : pr.qualityAffects with
          | none => simp [qualityAffectsSize, hq]
          | some b => cases b <;> simp [qualityAffectsSize, hq]
        have hex : (∃ pr', some pr = some pr' ∧ ¬pr'.size = none ∧ ¬pr'.qualityAffects = some false) ↔
            (pr.size ≠ none ∧ pr.qualityAffects ≠ some false) := by
          constructor
          · rintro ⟨_, h, h1⟩; cases h; exact h1
          · intro h; exact ⟨pr, rfl, h⟩
        rw [hex]
        cases hs : pr.size with
        | none => simp [inventorySize, hs, Except.map]
        | some n =>
          by_cases hq : pr.qualityAffects ≠ some false
          · cases hm : quality.bind multiplier with
            | none =>
              simp only [inventorySize, hs, Option.bind_some, if_pos (ha.2 hq), hm, Except.map, Except.error.injEq]
              exact ⟨fun h => ⟨h.symm, ⟨nofun, hq⟩, trivial⟩, fun h => h.1.symm⟩
            | some f =>
              simp only [inventorySize, hs, Option.bind_some, if_pos (ha.2 hq), hm]
              by_cases hb : ⌊(n : Rat) * f⌋ ≠ 0 ∧ b ≥ ⌊(n : Rat) * f⌋
              · simp only [if_pos hb]; simp [Except.map]
              · simp only [if_neg hb]; simp [Except.map]
          · have : ¬ qualityAffectsSize (some pr) = some true := fun h => hq (ha.1 h)
            simp only [inventorySize, hs, Option.bind_some, if_neg this]
            by_cases hb : n ≠ 0 ∧ b ≥ n
            · simp only [if_pos hb]; simp [Except.map, hq]
            · simp only [if_neg hb]; simp [Except.map, hq]
    · simp [barCheck, barLessCheck, pedantic_neg hp, hp, Except.map]

/-- C88: a quality that is stored unchecked makes the validation of the bar raise a `KeyError` in place of reporting the quality. -/
theorem C88_bar_refuted : ¬ ∀ p quality ctx bar, ∃ l, barCheck p quality ctx bar = .ok l := by
  intro h
  obtain ⟨l, hl⟩ := h (some ⟨some 16, none, none⟩) (some "mythical") (some .pedantic) (some 3)
  rw [show barCheck (some ⟨some 16, none, none⟩) (some "mythical") (some .pedantic) (some 3) = .error .keyError by decide +kernel] at hl
  cases hl

/-! ### Grid, temperature, volume -/

/-- C88: a tile position with an odd coordinate is reported, with the even position at or before it; one with even coordinates is not. -/
theorem C88_grid (ctx : Ctx) (x y : Int) :
    ∃ cx cy : Int, (Even cx ∧ cx ≤ x ∧ x < cx + 2) ∧ (Even cy ∧ cy ≤ y ∧ y < cy + 2) ∧
      Reports (gridAligned ctx (x, y)) (Checked ctx ∧ (Odd x ∨ Odd y)) (.grid x y cx cy) := by
  have hf : ∀ z : Int, ⌊(z : Rat) / 2⌋ = z / 2 := by
    intro z
    have := Rat.floor_intCast_div_natCast z 2
    simpa using this
  have he : ∀ z : Int, Even (⌊(z : Rat) / 2⌋ * 2) ∧ ⌊(z : Rat) / 2⌋ * 2 ≤ z ∧ z < ⌊(z : Rat) / 2⌋ * 2 + 2 := by
    intro z
    rw [hf]
    exact ⟨⟨z / 2, by omega⟩, by omega, by omega⟩
  refine ⟨_, _, he x, he y, ?_⟩
  have : (Odd x ∨ Odd y) ↔ (x % 2 = 1 ∨ y % 2 = 1) := by rw [Int.odd_iff, Int.odd_iff]
  rw [this]
  exact reports_if rfl

example : gridAligned (some .strict) (-3, 4) = [.grid (-3) 4 (-4) 4] ∧ gridAligned (some .strict) (2, -4) = [] := by decide +kernel

/-- C88: a temperature outside of `[0, 1000]` is reported by pedants only. -/
theorem C88_temperature (ctx : Ctx) (value : Option Rat) :
    (∀ q, value = some q → Reports (temperatureCheck ctx value) (ctx = some .pedantic ∧ (q < 0 ∨ 1000 < q)) (.temperature q)) ∧
    (value = none → temperatureCheck ctx value = []) := by
  refine ⟨?_, by rintro rfl; rfl⟩
  rintro q rfl
  have hq : (q < 0 ∨ 1000 < q) ↔ ¬(0 ≤ q ∧ q ≤ 1000) := by
    rw [not_and_or, not_le, not_le]
  constructor
  · rintro ⟨hp, h⟩
    simp only [temperatureCheck, (skip_strict ctx).2 hp, if_neg (hq.1 h)]
    rfl
  · intro hn
    by_cases hp : ctx = some .pedantic
    · have : 0 ≤ q ∧ q ≤ 1000 := by
        by_contra h; exact hn ⟨hp, hq.2 h⟩
      simp [temperatureCheck, this]
    · simp [temperatureCheck, pedantic_neg hp]

example : temperatureCheck (some .pedantic) (some 1001) = [.temperature 1001] ∧ temperatureCheck (some .strict) (some 1001) = [] := by decide +kernel

/-- C88: a volume outside of `[0, 1]` is reported in strict mode and refused by pedants; nothing else is. -/
theorem C88_volume_partial (value : Option Rat) :
    volumeCheck none value = .ok [] ∧ volumeCheck (some .minimum) value = .ok [] ∧
    (∀ q, value = some q → (q < 0 ∨ 1 < q) → volumeCheck (some .strict) value = .ok [.volume q] ∧ volumeCheck (some .pedantic) value = .error .valueError) ∧
    ((∀ q, value = some q → 0 ≤ q ∧ q ≤ 1) → ∀ ctx, volumeCheck ctx value = .ok []) := by
  refine ⟨rfl, rfl, ?_, ?_⟩
  · rintro q rfl h
    have : ¬(0 ≤ q ∧ q ≤ 1) := by rw [not_and_or, not_le, not_le]; exact h
    exact ⟨by simp only [volumeCheck, if_neg this]; rfl, by simp only [volumeCheck, if_neg this]; rfl⟩
  · intro h ctx
    cases value with
    | none => rcases ctx with _ | (_ | _ | _ | _) <;> rfl
    | some q =>
      have := h q rfl
      rcases ctx with _ | (_ | _ | _ | _) <;> first | rfl | simp only [volumeCheck, if_pos this]

example : volumeCheck (some .strict) (some 2) = .ok [.volume 2] := by decide +kernel

/-- C88: with validation off nothing should be reported, but a volume out of range is. -/
theorem C88_volume_refuted : ¬ ∀ value, volumeCheck (some .none) value = .ok [] := by
  intro h
  exact absurd (h (some 2)) (by decide +kernel)

/-! ### Speakers -/

/-- C88: the number of an instrument is reported just if there is no such instrument. -/
theorem C88_instrument (raw : List Inst) (ht : Tidy raw) (ctx : Ctx) (i : Int) (n : String) :
    Reports (instrumentIdCheck (some (extract raw)) ctx (some i)) (Checked ctx ∧ ¬(0 ≤ i ∧ i < raw.length)) (.instrumentId i) ∧
    Reports (instrumentNameCheck (some (extract raw)) ctx (some n)) (Checked ctx ∧ ∀ x ∈ raw, x.name ≠ n) (.instrumentName n) := by
  have hm := extract_mirror raw ht
  constructor
  · have : ((extract raw).nameOf.get? i).isNone = true ↔ ¬(0 ≤ i ∧ i < raw.length) := by
      constructor
      · intro h hi
        have hx : raw[i.toNat]? = some raw[i.toNat] := List.getElem?_eq_getElem (by omega)
        have := hm.name i.toNat _ hx
        rw [Int.toNat_of_nonneg hi.1] at this
        rw [this] at h; cases h
      · intro h
        rw [hm.noName i (by have : (extract raw).raw.length = raw.length := rfl; omega)]
        rfl
    rw [← this]
    exact reports_if rfl
  · have : ((extract raw).indexOf.get? n).isNone = true ↔ ∀ x ∈ raw, x.name ≠ n := by
      constructor
      · intro h x hx e
        obtain ⟨k, hk⟩ := List.mem_iff_getElem?.1 hx
        have := hm.index k x hk
        rw [e] at this
        rw [this] at h; cases h
      · intro h
        rw [hm.noIndex n h]
        rfl
    rw [← this]
    exact reports_if rfl

/-- C88: a note is reported just if the instrument the speaker has does not have it.  Missing: the name `"self"`, see the refutation. -/
theorem C88_note_partial (raw : List Inst) (ht : Tidy raw) (current : Speaker) (k : Nat) (x : Inst) (hx : raw[k]? = some x)
    (hk : current.instrument = some (k : Int)) (ctx : Ctx) (j : Int) (n : String) (hn : n ≠ "self") :
    Reports (noteIdCheck (some (extract raw)) current ctx (some j)) (Checked ctx ∧ ¬(0 ≤ j ∧ j < x.notes.length)) (.noteId j) ∧
    Reports (noteNameCheck (some (extract raw)) current ctx (some n)) (Checked ctx ∧ n ∉ x.notes) (.noteName n) := by
  have hm := extract_mirror raw ht
  constructor
  · have hh : ((Instruments.nameEntry x.name x.notes).get? (some j)).isNone = true ↔ ¬(0 ≤ j ∧ j < x.notes.length) := by
      constructor
      · intro h hj
        have := Instruments.nameEntry_note x.name x.notes j.toNat _ (List.getElem?_eq_getElem (by omega))
        rw [Int.toNat_of_nonneg hj.1] at this
        rw [this] at h; cases h
      · intro h
        rw [Instruments.nameEntry_none _ _ _ (by omega)]
        rfl
    rw [← hh]
    refine reports_if ?_
    simp only [noteIdCheck, hk, Option.bind_some, hm.name k x hx]
  · have hg : Instruments.getInstrument (extract raw) current = some x.name := (hm.faithful ht).getInst current k x hx hk
    have hh : ((Instruments.indexEntry k x.notes).get? n).isNone = true ↔ n ∉ x.notes := by
      constructor
      · intro h hmem
        obtain ⟨j, hj⟩ := List.mem_iff_getElem?.1 hmem
        rw [Instruments.indexEntry_note _ _ (ht.notes x (List.mem_of_getElem? hx)) j n hj] at h
        cases h
      · intro h
        rw [Instruments.indexEntry_none _ _ _ h hn]
        rfl
    rw [← hh]
    refine reports_if ?_
    simp only [noteNameCheck, hg, Option.bind_some, hm.index k x hx]

/-- An example: two instruments. -/
def exRaw : List Inst := [⟨"drum", ["kick", "snare"]⟩, ⟨"bell", ["high"]⟩]

theorem exRaw_tidy : Tidy exRaw := ⟨by decide, by decide, by decide⟩

example : instrumentIdCheck (some (extract exRaw)) (some .strict) (some 2) = [.instrumentId 2] ∧
    noteIdCheck (some (extract exRaw)) ⟨some 1, none⟩ (some .strict) (some 1) = [.noteId 1] ∧
    noteNameCheck (some (extract exRaw)) ⟨some 1, none⟩ (some .strict) (some "high") = [] := by decide +kernel

/-- C88: `"self"` is no note, and no instrument has one of that name, yet it is not reported. -/
theorem C88_note_refuted : ¬ ∀ (raw : List Inst) (current : Speaker) (k : Nat) (x : Inst) (ctx : Ctx) (n : String), Tidy raw → raw[k]? = some x →
    current.instrument = some (k : Int) → Checked ctx → n ∉ x.notes → noteNameCheck (some (extract raw)) current ctx (some n) = [.noteName n] := by
  intro h
  have := h exRaw ⟨some 0, none⟩ 0 ⟨"drum", ["kick", "snare"]⟩ (some .strict) "self" exRaw_tidy rfl rfl (.inl rfl) (by decide)
  revert this
  decide +kernel

/-- C88: when a speaker is validated as a whole, its instrument is reported if there is none of that number, and its note if its instrument is known and
does not have it. -/
theorem C88_parameters_partial (raw : List Inst) (ht : Tidy raw) (ctx : Ctx) (i j : Int) :
    let l := parametersCheck (some (extract raw)) ⟨some i, some j⟩ ctx ⟨some i, some j⟩
    (¬ Checked ctx → l = []) ∧
    (Checked ctx → ¬(0 ≤ i ∧ i < raw.length) → l = [.instrumentId i]) ∧
    (Checked ctx → ∀ k x, i = (k : Nat) → raw[k]? = some x → l = if 0 ≤ j ∧ j < x.notes.length then [] else [.noteId j]) := by
  have hI := fun ctx => (C88_instrument raw ht ctx i "").1
  refine ⟨?_, ?_, ?_⟩
  · intro hc
    simp only [parametersCheck, instrumentIdCheck, noteIdCheck, skip_neg hc]
    rfl
  · intro hc hi
    simp only [parametersCheck]
    rw [(hI ctx).1 ⟨hc, hi⟩]
    have hnone : (extract raw).nameOf.get? i = none :=
      (extract_mirror raw ht).noName i (by have : (extract raw).raw.length = raw.length := rfl; omega)
    simp [noteIdCheck, hnone]
  · rintro hc k x rfl hx
    have hlen : k < raw.length := (List.getElem?_eq_some_iff.1 hx).1
    have h2 := (C88_note_partial raw ht ⟨some (k : Int), some j⟩ k x hx rfl ctx j "" (by decide)).1
    simp only [parametersCheck]
    rw [(hI ctx).2 (fun h => h.2 (by omega)), List.nil_append]
    by_cases hj : 0 ≤ j ∧ j < x.notes.length
    · rw [if_pos hj]; exact h2.2 (fun h => h.2 hj)
    · rw [if_neg hj]; exact h2.1 ⟨hc, hj⟩

example : parametersCheck (some (extract exRaw)) ⟨some 1, some 1⟩ (some .strict) ⟨some 1, some 1⟩ = [.noteId 1] := by decide +kernel

/-- C88: when instrument and note are assigned together, the note is looked up in the instrument the speaker had before: a good pair is reported. -/
theorem C88_parameters_refuted : ¬ ∀ (raw : List Inst) (current : Speaker) (k : Nat) (x : Inst) (j : Int), Tidy raw → raw[k]? = some x → 0 ≤ j →
    j < x.notes.length → parametersCheck (some (extract raw)) current (some .strict) ⟨some (k : Int), some j⟩ = [] := by
  intro h
  have := h exRaw ⟨some 1, some 0⟩ 0 ⟨"drum", ["kick", "snare"]⟩ 1 exRaw_tidy rfl (by decide) (by decide)
  revert this
  decide +kernel

/-! ### Arithmetic combinators -/

/-- C88: if an operand or the output is "anything" or "everything", the first one such is reported, and otherwise nothing. -/
theorem C88_forbidden_partial (ctx : Ctx) (a : Arith) :
    noForbidden ctx a =
      if Checked ctx then
        (([a.first, a.second, a.output].filterMap id).find? fun n => n = "signal-anything" ∨ n = "signal-everything").toList.map .forbidden
      else [] := by
  have key : ∀ l : List (Option String), firstForbidden l =
      ((l.filterMap id).find? fun n => n = "signal-anything" ∨ n = "signal-everything").toList.map .forbidden := by
    intro l
    induction l with
    | nil => rfl
    | cons o l ih =>
      cases o with
      | none => simpa [firstForbidden] using ih
      | some n =>
        by_cases h : n = "signal-anything" ∨ n = "signal-everything"
        · simp [firstForbidden, h]
        · simp only [firstForbidden, if_neg h, ih, List.filterMap_cons, id, List.find?_cons]
          rw [decide_eq_false h]
  unfold noForbidden
  by_cases hc : Checked ctx
  · rw [skip_pos hc, if_pos hc, ← key]
    rfl
  · rw [skip_neg hc, if_neg hc]
    rfl

example : noForbidden (some .strict) ⟨some "signal-A", none, some "signal-everything"⟩ = [.forbidden "signal-everything"] := by decide +kernel

/-- C88: every signal that is not allowed should be reported; only the first is. -/
theorem C88_forbidden_refuted : ¬ ∀ a : Arith, ∀ n, (a.first = some n ∨ a.second = some n ∨ a.output = some n) →
    (n = "signal-anything" ∨ n = "signal-everything") → .forbidden n ∈ noForbidden (some .strict) a := by
  intro h
  have := h ⟨some "signal-anything", none, some "signal-everything"⟩ "signal-everything" (.inr (.inr rfl)) (.inr rfl)
  revert this
  decide +kernel

/-- C88: the output "each" is reported just if no operand is "each". -/
theorem C88_each (ctx : Ctx) (a : Arith) :
    Reports (properEach ctx a) (Checked ctx ∧ a.output = some "signal-each" ∧ a.first ≠ some "signal-each" ∧ a.second ≠ some "signal-each") .each := by
  refine reports_if ?_
  obtain ⟨f, s, o⟩ := a
  unfold properEach
  congr 1
  cases o with
  | none => simp
  | some n =>
    by_cases hn : n = "signal-each"
    · subst hn
      by_cases h1 : f = some "signal-each"
      · simp [h1]
      · by_cases h2 : s = some "signal-each" <;> simp [h1, h2]
    · simp [hn]

example : properEach (some .strict) ⟨some "signal-A", none, some "signal-each"⟩ = [.each] ∧
    properEach (some .strict) ⟨some "signal-A", some "signal-each", some "signal-each"⟩ = [] := by decide +kernel

/-! ### Upgrade planners -/

theorem normalizeLoop_some {V : Type} (truthy : V → Bool) (l : List (MapperArg V)) (i : Nat) (h : ∀ items, .seq items ∈ l → 2 ≤ items.length) :
    ∃ l', normalizeLoop truthy i l = some l' ∧ l'.length = l.length ∧ ∀ (k : Nat) (m : MapperArg V), l[k]? = some m →
      (∀ (a b : V) (r : List V), m = .seq (a :: b :: r) → l'[k]? = some (.dict ((i + k : Nat) : Int) (if truthy a then some a else none) (if truthy b then some b else none))) ∧
      ((∀ items : List V, m ≠ .seq items) → l'[k]? = some m) := by
  induction l generalizing i with
  | nil => exact ⟨[], rfl, rfl, by simp⟩
  | cons m l ih =>
    obtain ⟨l', h1, h2, h3⟩ := ih (i + 1) (fun items hi => h items (by simp [hi]))
    have hm : ∃ m', normalizeMapper truthy i m = some m' ∧
        (∀ (a b : V) (r : List V), m = .seq (a :: b :: r) → m' = .dict (i : Int) (if truthy a then some a else none) (if truthy b then some b else none)) ∧
        ((∀ items : List V, m ≠ .seq items) → m' = m) := by
      match m with
      | .seq (a :: b :: r) =>
        refine ⟨_, rfl, ?_, fun hh => absurd rfl (hh _)⟩
        rintro a' b' r' e
        cases e; rfl
      | .seq [a] => have := h [a] (by simp); simp at this
      | .seq [] => have := h [] (by simp); simp at this
      | .dict j f t => exact ⟨_, rfl, fun _ _ _ e => (nomatch e), fun _ => rfl⟩
      | .other v => exact ⟨_, rfl, fun _ _ _ e => (nomatch e), fun _ => rfl⟩
    obtain ⟨m', hm1, hm2, hm3⟩ := hm
    refine ⟨m' :: l', by simp only [normalizeLoop, hm1, h1], by simp [h2], ?_⟩
    intro k x hx
    cases k with
    | zero =>
      simp only [List.getElem?_cons_zero, Option.some.injEq] at hx
      subst hx
      exact ⟨fun a b r e => by simp [hm2 a b r e], fun hh => by simp [hm3 hh]⟩
    | succ k =>
      simp only [List.getElem?_cons_succ] at hx ⊢
      have := h3 k x hx
      rw [show i + (k + 1) = i + 1 + k by omega]
      exact this

theorem normalizeLoop_none {V : Type} (truthy : V → Bool) (l : List (MapperArg V)) (i : Nat) (h : ∃ items, .seq items ∈ l ∧ items.length < 2) :
    normalizeLoop truthy i l = none := by
  induction l generalizing i with
  | nil => simp at h
  | cons m l ih =>
    obtain ⟨items, hmem, hlen⟩ := h
    rcases List.mem_cons.1 hmem with rfl | hmem
    · match items, hlen with
      | [], _ => simp [normalizeLoop, normalizeMapper]
      | [a], _ => simp [normalizeLoop, normalizeMapper]
    · simp only [normalizeLoop, ih (i + 1) ⟨items, hmem, hlen⟩]
      cases normalizeMapper truthy i m <;> rfl

/-- C88: sequences of at least two stand for mappers numbered by their place, empty parts left out, and other mappers stay as they are.  Missing: with one
sequence shorter than two nothing is converted, see the refutation. -/
theorem C88_shorthand_partial {V : Type} (truthy : V → Bool) (l : List (MapperArg V)) :
    ((∀ items, .seq items ∈ l → 2 ≤ items.length) → (normalizeMappers truthy l).length = l.length ∧ ∀ (k : Nat) (m : MapperArg V), l[k]? = some m →
      (∀ (a b : V) (r : List V), m = .seq (a :: b :: r) →
        (normalizeMappers truthy l)[k]? = some (.dict (k : Int) (if truthy a then some a else none) (if truthy b then some b else none))) ∧
      ((∀ items : List V, m ≠ .seq items) → (normalizeMappers truthy l)[k]? = some m)) ∧
    ((∃ items, .seq items ∈ l ∧ items.length < 2) → normalizeMappers truthy l = l) := by
  constructor
  · intro h
    obtain ⟨l', h1, h2, h3⟩ := normalizeLoop_some truthy l 0 h
    simp only [normalizeMappers, h1, Option.getD_some]
    refine ⟨h2, fun k m hk => ?_⟩
    have := h3 k m hk
    rw [Nat.zero_add] at this
    exact this
  · intro h
    simp only [normalizeMappers, normalizeLoop_none truthy l 0 h, Option.getD_none]

example : normalizeMappers (fun s => decide (s ≠ "")) [.seq ["a", "b"], .dict 7 none (some "c"), .seq ["d", "", "e"]] =
    [.dict 0 (some "a") (some "b"), .dict 7 none (some "c"), .dict 2 (some "d") none] := by decide +kernel

/-- C88: one sequence that is too short, and no other is converted either. -/
theorem C88_shorthand_refuted : ¬ ∀ (truthy : String → Bool) (l : List (MapperArg String)) (k : Nat) (a b : String), l[k]? = some (.seq [a, b]) →
    truthy a = true → truthy b = true → (normalizeMappers truthy l)[k]? = some (.dict (k : Int) (some a) (some b)) := by
  intro h
  have := h (fun _ => true) [.seq ["a", "b"], .seq ["c"]] 0 "a" "b" rfl rfl rfl
  revert this
  decide +kernel

/-- The last mapper at an index. -/
def lastAt (l : List Upgrade.Ent) (i : Int) : Option Upgrade.Ent := l.reverse.find? fun m => m.index = i

/-- How many mappers are at an index. -/
def countAt (l : List Upgrade.Ent) (i : Int) : Nat := l.countP fun m => m.index = i

theorem lastAt_snoc (l : List Upgrade.Ent) (m : Upgrade.Ent) (i : Int) : lastAt (l ++ [m]) i = if m.index = i then some m else lastAt l i := by
  simp only [lastAt, List.reverse_append, List.reverse_cons, List.reverse_nil, List.nil_append, List.singleton_append, List.find?_cons]
  by_cases h : m.index = i <;> simp [h]

theorem countAt_snoc (l : List Upgrade.Ent) (m : Upgrade.Ent) (i : Int) : countAt (l ++ [m]) i = countAt l i + if m.index = i then 1 else 0 := by
  simp only [countAt, List.countP_append, List.countP_cons, List.countP_nil]
  by_cases h : m.index = i <;> simp [h]

theorem lastAt_none {l : List Upgrade.Ent} {i : Int} (h : lastAt l i = none) : countAt l i = 0 := by
  rw [lastAt, List.find?_eq_none] at h
  rw [countAt, List.countP_eq_zero]
  intro m hm
  exact h m (List.mem_reverse.2 hm)

theorem lastAt_some {l : List Upgrade.Ent} {i : Int} {m : Upgrade.Ent} (h : lastAt l i = some m) : m.index = i ∧ 0 < countAt l i := by
  have h1 := List.find?_some h
  have h2 := List.mem_of_find?_eq_some h
  refine ⟨by simpa using h1, ?_⟩
  rw [countAt, List.countP_pos_iff]
  exact ⟨m, List.mem_reverse.1 h2, h1⟩

/-- What the table of indices holds after some mappers. -/
theorem occupied (l : List Upgrade.Ent) :
    (l.foldl occupy []).keys.Nodup ∧ ∀ i, (l.foldl occupy []).get? i = (lastAt l i).map fun m => (countAt l i - 1, m) := by
  induction l using List.reverseRecOn with
  | nil => exact ⟨by simp, fun i => rfl⟩
  | append_singleton l m ih =>
    obtain ⟨hn, hg⟩ := ih
    rw [List.foldl_append]
    simp only [List.foldl_cons, List.foldl_nil]
    have hm := hg m.index
    generalize l.foldl occupy [] = d at hn hg hm
    unfold occupy
    cases hl : lastAt l m.index with
    | none =>
      rw [hl] at hm
      rw [hm]
      refine ⟨Dict.nodup_set hn _ _, fun i => ?_⟩
      simp only [Option.map_none]
      rw [Dict.get?_set, lastAt_snoc, countAt_snoc, hg]
      by_cases hi : m.index = i
      · subst hi
        simp [lastAt_none hl]
      · simp [hi]
    | some m' =>
      rw [hl] at hm
      rw [hm]
      refine ⟨Dict.nodup_set hn _ _, fun i => ?_⟩
      simp only [Option.map_some]
      rw [Dict.get?_set, lastAt_snoc, countAt_snoc, hg]
      by_cases hi : m.index = i
      · subst hi
        have := (lastAt_some hl).2
        simp only [if_true, Option.map_some, Option.some.injEq, Prod.mk.injEq, and_true]
        omega
      · simp [hi]

theorem mapperLoop_eq (T : Upgrade.Tables) (l : List Upgrade.Ent) (ws : List Warn) (d : Dict Int (Nat × Upgrade.Ent))
    (rs : Upgrade.Ent → Option (List Upgrade.Reason)) (h : ∀ m ∈ l, Upgrade.checkPair T m.frm m.to = .ok (rs m)) :
    mapperLoop T ws d l = .ok (ws ++ l.flatMap (fun m => ((rs m).getD []).map .upgrade), l.foldl occupy d) := by
  induction l generalizing ws d with
  | nil => simp [mapperLoop]
  | cons m l ih =>
    simp only [mapperLoop, h m (by simp)]
    rw [ih _ _ (fun m' hm' => h m' (by simp [hm']))]
    simp

/-- C88: the mappers of an upgrade planner: first the reasons against each pair in order, then one warning for each index that occurs more than once,
with the number of mappers that are overwritten and the last one, and nothing else. -/
theorem C88_mappers (T : Upgrade.Tables) (ctx : Ctx) (hc : Checked ctx) (l : List Upgrade.Ent) (rs : Upgrade.Ent → Option (List Upgrade.Reason))
    (h : ∀ m ∈ l, Upgrade.checkPair T m.frm m.to = .ok (rs m)) :
    ∃ over, mappersValid T ctx (some l) = .ok (l.flatMap (fun m => ((rs m).getD []).map .upgrade) ++ over) ∧ over.Nodup ∧
      ∀ w, w ∈ over ↔ ∃ m n, lastAt l m.index = some m ∧ countAt l m.index = n + 2 ∧
        w = .overwritten m.index (n + 1) (m.frm.map (·.name)) (m.to.map (·.name)) := by
  obtain ⟨hn, hg⟩ := occupied l
  refine ⟨overwrites (l.foldl occupy []), ?_, ?_, ?_⟩
  · simp only [mappersValid, skip_pos hc, mapperLoop_eq T l [] [] rs h]
    rfl
  · unfold overwrites
    generalize l.foldl occupy [] = d at hn
    clear hg h
    induction d with
    | nil => simp
    | cons e d ih =>
      simp only [Dict.keys, List.map_cons, List.nodup_cons] at hn
      rw [List.flatMap_cons]
      refine List.nodup_append.2 ⟨?_, ih hn.2, ?_⟩
      · by_cases h0 : e.2.1 > 0 <;> simp [h0]
      · rintro w hw w' hw' rfl
        by_cases h0 : e.2.1 > 0
        · simp only [if_pos h0, List.mem_singleton] at hw
          subst hw
          rw [List.mem_flatMap] at hw'
          obtain ⟨e', he', hw'⟩ := hw'
          by_cases h1 : e'.2.1 > 0
          · simp only [if_pos h1, List.mem_singleton, Warn.overwritten.injEq] at hw'
            exact hn.1 (List.mem_map.2 ⟨e', he', hw'.1.symm⟩)
          · simp [h1] at hw'
        · simp [h0] at hw
  · intro w
    unfold overwrites
    rw [List.mem_flatMap]
    constructor
    · rintro ⟨⟨i, c, m⟩, he, hw⟩
      have hget := Dict.get?_of_mem hn he
      rw [hg] at hget
      obtain ⟨m', hl, hm'⟩ := Option.map_eq_some_iff.1 hget
      simp only [Prod.mk.injEq] at hm'
      obtain ⟨h1, rfl⟩ := hm'
      obtain ⟨hi, hpos⟩ := lastAt_some hl
      simp only at hi hl h1 hpos
      by_cases h0 : c > 0
      · simp only [if_pos h0, List.mem_singleton] at hw
        refine ⟨m', c - 1, by rw [hi]; exact hl, by rw [hi]; omega, ?_⟩
        rw [hw, hi, show c - 1 + 1 = c by omega]
      · simp [h0] at hw
    · rintro ⟨m, n, hl, hcount, rfl⟩
      have hget := hg m.index
      rw [hl, hcount] at hget
      exact ⟨_, Dict.mem_of_get? hget, by simp⟩

/-- C88: a pair that makes the check raise makes the validation of the planner raise. -/
theorem C88_mappers_raise (T : Upgrade.Tables) (ctx : Ctx) (hc : Checked ctx) (l : List Upgrade.Ent)
    (h : ∃ m ∈ l, ∃ e, Upgrade.checkPair T m.frm m.to = .error e) : ∃ e, mappersValid T ctx (some l) = .error e := by
  have key : ∀ (l : List Upgrade.Ent) ws d, (∃ m ∈ l, ∃ e, Upgrade.checkPair T m.frm m.to = .error e) → ∃ e, mapperLoop T ws d l = .error e := by
    intro l
    induction l with
    | nil => intro ws d h; simp at h
    | cons m l ih =>
      intro ws d h
      simp only [mapperLoop]
      cases hm : Upgrade.checkPair T m.frm m.to with
      | error e => exact ⟨e, rfl⟩
      | ok r =>
        obtain ⟨m', hmem, e, he⟩ := h
        rcases List.mem_cons.1 hmem with rfl | hmem
        · rw [hm] at he; cases he
        · exact ih _ _ ⟨m', hmem, e, he⟩
  obtain ⟨e, he⟩ := key l [] [] h
  exact ⟨e, by simp only [mappersValid, skip_pos hc, he]; rfl⟩

/-- An example: one known entity. -/
def exTables : Upgrade.Tables where
  ent := fun n => if n = "belt" then some ⟨[], some (.result "belt"), some "transport-belt", some 1, some 1, some 1⟩ else none
  item := fun n => if n = "belt" then some ⟨[], some "belt"⟩ else none

example : mappersValid exTables (some .strict) (some [⟨0, some ⟨"belt", "entity"⟩, none, false⟩, ⟨3, none, some ⟨"blet", "entity"⟩, false⟩,
    ⟨0, none, some ⟨"belt", "entity"⟩, false⟩]) = .ok [.upgrade (.unknown "blet"), .overwritten 0 1 none (some "belt")] := by decide +kernel

/-! ### All together -/

/-- C88: without context, with validation off or at its minimum no check reports anything or raises; only the volume is left out, see the refutation. -/
theorem C88_quiet_partial (ctx : Ctx) (hc : ¬ Checked ctx) :
    (∀ kind names value, knownName kind names ctx value = []) ∧
    (∀ raw types name type, typeMatches raw types ctx name type = []) ∧
    (∀ value, notPureVirtual ctx value = .ok []) ∧
    (∀ count value, withinFilterCount count ctx value = .ok []) ∧
    (∀ p quality bar, barCheck p quality ctx bar = .ok []) ∧
    (∀ tile, gridAligned ctx tile = []) ∧
    (∀ value, temperatureCheck ctx value = []) ∧
    (∀ t value, instrumentIdCheck t ctx value = []) ∧ (∀ t value, instrumentNameCheck t ctx value = []) ∧
    (∀ t current value, noteIdCheck t current ctx value = []) ∧ (∀ t current value, noteNameCheck t current ctx value = []) ∧
    (∀ a, noForbidden ctx a = []) ∧ (∀ a, properEach ctx a = []) ∧
    (∀ T mappers, mappersValid T ctx mappers = .ok []) := by
  have h1 := skip_neg hc
  have h2 : skip .strict ctx = true := pedantic_neg fun h => hc (.inr h)
  refine ⟨?_, ?_, ?_, ?_, ?_, ?_, ?_, ?_, ?_, ?_, ?_, ?_, ?_, ?_⟩
  · intros; simp [knownName, h1]
  · intros; simp [typeMatches, h1]
  · intros; simp [notPureVirtual, h1]
  · intros; simp [withinFilterCount, h1]
  · intro p quality bar
    cases bar <;> simp [barCheck, barLessCheck, barEnabledCheck, h1, h2, Except.map]
  · intros; simp [gridAligned, h1]
  · intro value; cases value <;> simp [temperatureCheck, h2]
  · intros; simp [instrumentIdCheck, h1]
  · intros; simp [instrumentNameCheck, h1]
  · intros; simp [noteIdCheck, h1]
  · intros; simp [noteNameCheck, h1]
  · intros; simp [noForbidden, h1]
  · intros; simp [properEach, h1]
  · intro T mappers; cases mappers <;> simp [mappersValid, h1]

example : ¬ Checked (some .minimum) := by decide

/-- C88: what is reported or refused in strict mode is so in pedantic mode. -/
theorem C88_stricter :
    (∀ kind names value, knownName kind names (some .strict) value = knownName kind names (some .pedantic) value) ∧
    (∀ raw types name type, typeMatches raw types (some .strict) name type = typeMatches raw types (some .pedantic) name type) ∧
    (∀ p quality bar ls lp, barCheck p quality (some .strict) bar = .ok ls → barCheck p quality (some .pedantic) bar = .ok lp → ∀ w ∈ ls, w ∈ lp) ∧
    (∀ value ls, volumeCheck (some .strict) value = .ok ls → ls ≠ [] → volumeCheck (some .pedantic) value = .error .valueError) ∧
    (∀ T mappers, mappersValid T (some .strict) mappers = mappersValid T (some .pedantic) mappers) := by
  refine ⟨fun _ _ _ => rfl, fun _ _ _ _ => rfl, ?_, ?_, fun _ _ => rfl⟩
  · intro p quality bar ls lp hs hp w hw
    obtain ⟨a1, a2, a3⟩ := C88_bar_partial _ _ _ _ _ hs
    obtain ⟨-, b2, -⟩ := C88_bar_partial _ _ _ _ _ hp
    rcases a1 w hw with rfl | ⟨b, n, rfl⟩
    · exact b2.2 ⟨.inr rfl, (a2.1 hw).2⟩
    · have := ((a3 b n).1 hw).1
      cases this
  · intro value ls hs hne
    cases value with
    | none => cases hs; exact absurd rfl hne
    | some q =>
      by_cases h : 0 ≤ q ∧ q ≤ 1
      · simp only [volumeCheck, if_pos h] at hs
        cases hs; exact absurd rfl hne
      · simp only [volumeCheck, if_neg h]
        rfl

/-- C88: of an entity that is not known, neither bar nor instrument nor note is reported. -/
theorem C88_unknown (ctx : Ctx) (quality : Option String) (bar : Option Int) (current : Speaker) (i : Option Int) (n : Option String) :
    barCheck none quality ctx bar = .ok [] ∧ instrumentIdCheck none ctx i = [] ∧ instrumentNameCheck none ctx n = [] ∧
    noteIdCheck none current ctx i = [] ∧ noteNameCheck none current ctx n = [] := by
  refine ⟨?_, ?_, ?_, ?_, ?_⟩
  · cases bar with
    | none => rfl
    | some b =>
      simp only [barCheck, barLessCheck, barEnabledCheck, inventorySize, inventoryBarEnabled]
      cases skip .strict ctx <;> cases skip .minimum ctx <;> rfl
  · simp [instrumentIdCheck]
  · simp [instrumentNameCheck]
  · simp [noteIdCheck]
  · simp [noteNameCheck]

end Checks
end Draftsman
