import Verif.Model.InfPipe
import Mathlib.Tactic.NormNum

/-
C121: the settings of infinity pipes.
-/
namespace Draftsman.InfPipe

/-! ## Specification -/

/-- The values have the types and ranges of the format, field by field. -/
structure Typed (s : Settings) : Prop where
  name : s.name = .none ∨ ∃ n, s.name = .text n
  percentage : s.percentage = .none ∨ ∃ q : Rat, 0 ≤ q ∧ s.percentage = .float q
  mode : s.mode = .none ∨ ∃ m ∈ ["at-least", "at-most", "exactly", "add", "remove"], s.mode = .text m
  temperature : s.temperature = .none ∨ ∃ t : Int, -2 ^ 63 ≤ t ∧ t < 2 ^ 63 ∧ s.temperature = .int t

/-- What the game asks of the temperature: it is only given together with a fluid, and lies in the range of that fluid if the
fluid is known. -/
def Fits (fluids : String → Option (Int × Int)) (s : Settings) : Prop :=
  ∀ t, s.temperature = .int t → ∃ n, s.name = .text n ∧ ∀ lo hi, fluids n = some (lo, hi) → lo ≤ t ∧ t ≤ hi

/-- What a pipe holds that the game accepts. -/
def Playable (p : Pipe) : Prop := ∀ s, p.settings = some s → Typed s ∧ Fits p.fluids s

/-- The modes that check. -/
def Checks (m : ValidationMode) : Prop := m = .strict ∨ m = .pedantic

/-- The value a field holds. -/
def Settings.at (s : Settings) : Field → Val
  | .name => s.name
  | .percentage => s.percentage
  | .mode => s.mode
  | .temperature => s.temperature

/-- The settings `w` hold the values of `s`, an `int` as percentage as a `float`. -/
def Holds (s w : Settings) : Prop :=
  w.name = s.name ∧ w.mode = s.mode ∧ w.temperature = s.temperature ∧
    (w.percentage = s.percentage ∨ ∃ i : Int, s.percentage = .int i ∧ w.percentage = .float i)

/-! ## Lemmas -/

theorem after_checks {m : ValidationMode} (h : Checks m) (fl : String → Option (Int × Int)) (s : Settings) :
    after m fl s = clash fl s := by
  rcases h with rfl | rfl <;> simp [after, ValidationMode.index]

theorem clash_fits {fl : String → Option (Int × Int)} {s : Settings} (h : Typed s) : clash fl s = none ↔ Fits fl s := by
  obtain ⟨n, q, m, t⟩ := s
  rcases h.temperature with ht | ⟨t', -, -, ht⟩ <;> simp only at ht <;> subst ht
  · simp [clash, Fits]
  · rcases h.name with hn | ⟨n', hn⟩ <;> simp only at hn <;> subst hn
    · simp [clash, Fits]
    · simp only [clash, Fits]
      cases hf : fl n' with
      | none => simp [hf]
      | some r => obtain ⟨lo, hi⟩ := r; simp [hf]

theorem clash_error {fl : String → Option (Int × Int)} {s : Settings} (h : Typed s) {x : PyErr} (hx : clash fl s = some x) :
    x = .dataFormat := by
  obtain ⟨n, q, m, t⟩ := s
  rcases h.temperature with ht | ⟨t', -, -, ht⟩ <;> simp only at ht <;> subst ht
  · simp [clash] at hx
  · rcases h.name with hn | ⟨n', hn⟩ <;> simp only at hn <;> subst hn
    · simp [clash] at hx; exact hx.symm
    · simp only [clash] at hx
      cases hf : fl n' with
      | none => simp [hf] at hx
      | some r => obtain ⟨lo, hi⟩ := r; simp [hf] at hx; exact hx.2.symm

theorem check_typed {s : Settings} {f : Field} {v w : Val} (h : Typed s) (hw : check f v = some w) : Typed (store s f w) := by
  obtain ⟨h1, h2, h3, h4⟩ := h
  cases f
  · refine ⟨?_, h2, h3, h4⟩
    cases v <;> simp [check] at hw <;> subst hw
    · exact .inl rfl
    · exact .inr ⟨_, rfl⟩
  · refine ⟨h1, ?_, h3, h4⟩
    cases v <;> simp [check] at hw
    · subst hw; exact .inl rfl
    · obtain ⟨hc, rfl⟩ := hw; exact .inr ⟨_, by exact_mod_cast hc, rfl⟩
    · obtain ⟨hc, rfl⟩ := hw; exact .inr ⟨_, hc, rfl⟩
  · refine ⟨h1, h2, ?_, h4⟩
    cases v <;> simp [check] at hw
    · subst hw; exact .inl rfl
    · obtain ⟨hc, rfl⟩ := hw; exact .inr ⟨_, by simpa using hc, rfl⟩
  · refine ⟨h1, h2, h3, ?_⟩
    cases v <;> simp [check] at hw
    · subst hw; exact .inl rfl
    · obtain ⟨hc, rfl⟩ := hw; exact .inr ⟨_, by norm_num; exact hc.1, by norm_num; exact hc.2, rfl⟩

theorem store_at (s : Settings) (f : Field) (v : Val) : (store s f v).at f = v ∧ ∀ g, g ≠ f → (store s f v).at g = s.at g := by
  constructor
  · cases f <;> rfl
  · intro g hg; cases f <;> cases g <;> first | rfl | exact absurd rfl hg

/-- The check of one field accepts what is typed. -/
theorem check_some {s : Settings} (h : Typed s) :
    check .name s.name = some s.name ∧ check .percentage s.percentage = some s.percentage ∧
      check .mode s.mode = some s.mode ∧ check .temperature s.temperature = some s.temperature := by
  obtain ⟨h1, h2, h3, h4⟩ := h
  refine ⟨?_, ?_, ?_, ?_⟩
  · rcases h1 with h | ⟨n, h⟩ <;> rw [h] <;> rfl
  · rcases h2 with h | ⟨n, hn, h⟩ <;> rw [h]
    · rfl
    · simp [check, hn]
  · rcases h3 with h | ⟨n, hn, h⟩ <;> rw [h]
    · rfl
    · simp only [check, if_pos hn]
  · rcases h4 with h | ⟨n, ha, hb, h⟩ <;> rw [h]
    · rfl
    · norm_num at ha hb; simp [check, ha, hb]

theorem assignAll_typed {p : Pipe} (hm : Checks p.mode) {s : Settings} (h : Typed s) :
    (Fits p.fluids s → assignAll p s = ({ p with settings := some s }, none)) ∧
      (¬ Fits p.fluids s → assignAll p s = (p, some .dataFormat)) := by
  obtain ⟨h1, h2, h3, h4⟩ := check_some h
  constructor
  · intro hf
    simp only [assignAll, h1, h2, h3, h4, after_checks hm]
    have : clash p.fluids ⟨s.name, s.percentage, s.mode, s.temperature⟩ = none := (clash_fits h).2 hf
    rw [this]
  · intro hf
    simp only [assignAll, h1, h2, h3, h4, after_checks hm]
    cases hc : clash p.fluids ⟨s.name, s.percentage, s.mode, s.temperature⟩ with
    | none => exact absurd ((clash_fits h).1 hc) hf
    | some x => simp only; rw [clash_error h hc]

theorem check_value {f : Field} {v w : Val} (hw : check f v = some w) :
    w = v ∨ ∃ i : Int, f = .percentage ∧ v = .int i ∧ w = .float i := by
  cases f <;> cases v <;> simp [check] at hw <;> first | exact .inl hw.symm | exact .inl hw.2.symm | skip
  exact .inr ⟨_, rfl, rfl, hw.2.symm⟩

theorem check_all {s : Settings} {n q m t : Val} (hn : check .name s.name = some n) (hq : check .percentage s.percentage = some q)
    (hmo : check .mode s.mode = some m) (ht : check .temperature s.temperature = some t) :
    Typed ⟨n, q, m, t⟩ ∧ Holds s ⟨n, q, m, t⟩ := by
  refine ⟨check_typed (s := ⟨n, q, m, .none⟩) (check_typed (s := ⟨n, q, .none, .none⟩)
        (check_typed (s := ⟨n, .none, .none, .none⟩) (check_typed (s := ⟨.none, .none, .none, .none⟩)
          ⟨.inl rfl, .inl rfl, .inl rfl, .inl rfl⟩ hn) hq) hmo) ht, ?_, ?_, ?_, ?_⟩
  · simpa using check_value hn
  · simpa using check_value hmo
  · simpa using check_value ht
  · simpa using check_value hq

/-- What `assignAll` does in the modes that check. -/
theorem assignAll_cases {p : Pipe} (hm : Checks p.mode) (s : Settings) :
    (∃ w, Typed w ∧ Holds s w ∧ Fits p.fluids w ∧ assignAll p s = ({ p with settings := some w }, none)) ∨
      assignAll p s = (p, some .dataFormat) := by
  have hne : p.mode ≠ .none := by rcases hm with h | h <;> rw [h] <;> decide
  simp only [assignAll]
  split
  · rename_i n q m t hn hq hmo ht
    obtain ⟨hw, hh⟩ := check_all hn hq hmo ht
    rw [after_checks hm]
    cases hc : clash p.fluids ⟨n, q, m, t⟩ with
    | none => exact .inl ⟨_, hw, hh, (clash_fits hw).1 hc, rfl⟩
    | some x => right; simp only; rw [clash_error hw hc]
  · right; rw [if_neg hne]

/-! ## Theorems -/

/-- C121: setting all parameters at once is all or nothing.  Settings of the right types that the game accepts are stored as
they are; anything else the game would refuse raises a `DataFormatError` and changes nothing. -/
theorem C121_all {p : Pipe} (hm : Checks p.mode) (name percentage mode temperature : Val) :
    (∀ (_ : Typed ⟨name, percentage, mode, temperature⟩), Fits p.fluids ⟨name, percentage, mode, temperature⟩ →
        setInfiniteFluid p name percentage mode temperature =
          ({ p with settings := some ⟨name, percentage, mode, temperature⟩ }, none)) ∧
      (∀ (_ : Typed ⟨name, percentage, mode, temperature⟩), ¬ Fits p.fluids ⟨name, percentage, mode, temperature⟩ →
        setInfiniteFluid p name percentage mode temperature = (p, some .dataFormat)) ∧
      ∀ p' r, setInfiniteFluid p name percentage mode temperature = (p', r) →
        (r = none ∧ Playable p' ∧ ∃ w, p' = { p with settings := some w } ∧ Holds ⟨name, percentage, mode, temperature⟩ w) ∨
          (r = some .dataFormat ∧ p' = p) := by
  refine ⟨fun h => (assignAll_typed hm h).1, fun h => (assignAll_typed hm h).2, fun p' r h => ?_⟩
  rcases assignAll_cases hm ⟨name, percentage, mode, temperature⟩ with ⟨w, h1, hh, h2, h3⟩ | h3
  · rw [setInfiniteFluid, h3] at h
    simp only [Prod.mk.injEq] at h
    obtain ⟨rfl, rfl⟩ := h
    refine .inl ⟨rfl, fun s hs => ?_, w, rfl, hh⟩
    simp only [Option.some.injEq] at hs; subst hs; exact ⟨h1, h2⟩
  · rw [setInfiniteFluid, h3] at h
    simp only [Prod.mk.injEq] at h
    exact .inr ⟨h.2.symm, h.1.symm⟩

/-- The fluids of the cases below. -/
def someFluids : String → Option (Int × Int)
  | "water" => some (15, 100)
  | "steam" => some (15, 5000)
  | "ammonia" => some (-35, -33)
  | _ => none

example : setInfiniteFluid (fresh .strict someFluids) (.text "steam") (.float 1) (.text "exactly") (.int 500) =
    ({ fresh .strict someFluids with settings := some ⟨.text "steam", .float 1, .text "exactly", .int 500⟩ }, none) := by
  refine (C121_all (.inl rfl) _ _ _ _).1 ⟨.inr ⟨_, rfl⟩, .inr ⟨1, by norm_num, rfl⟩, .inr ⟨_, by simp, rfl⟩, .inr ⟨500, by norm_num, by norm_num, rfl⟩⟩ ?_
  intro t ht; simp only [Val.int.injEq] at ht; subst ht
  exact ⟨_, rfl, fun lo hi h => by simp [fresh, someFluids] at h; omega⟩

/-- C121: a single assignment without an exception, in a mode that checks, changes this field only and leaves settings that
the game accepts. -/
theorem C121_assign {p : Pipe} (hm : Checks p.mode) {s : Settings} (hp : p.settings = some s) (ht : Typed s) {f : Field}
    {v : Val} {p' : Pipe} (h : step p (.field f v) = (p', none)) :
    ∃ s', p'.settings = some s' ∧ Typed s' ∧ Fits p.fluids s' ∧ p'.fluids = p.fluids ∧ p'.mode = p.mode ∧
      (∀ g, g ≠ f → s'.at g = s.at g) ∧ (s'.at f = v ∨ ∃ i : Int, f = .percentage ∧ v = .int i ∧ s'.at f = .float i) := by
  have hne : p.mode ≠ .none := by rcases hm with h | h <;> rw [h] <;> decide
  simp only [step, assign, hp] at h
  split at h
  · rename_i w hw
    simp only [Prod.mk.injEq] at h
    obtain ⟨rfl, h⟩ := h
    have hty := check_typed ht hw
    rw [after_checks hm] at h
    refine ⟨_, rfl, hty, (clash_fits hty).1 h, rfl, rfl, (store_at s f w).2, ?_⟩
    rw [(store_at s f w).1]
    cases f <;> cases v <;> simp [check] at hw <;> first | exact .inl hw.symm | exact .inl hw.2.symm | skip
    exact .inr ⟨_, rfl, rfl, hw.2.symm⟩
  · rw [if_neg hne] at h; simp at h

example : ∃ p', step { fresh .strict someFluids with settings := some { defaults with name := .text "water" } }
    (.field .temperature (.int 20)) = (p', none) := ⟨_, rfl⟩

/-- What a history keeps in the modes that check. -/
theorem step_typed {p : Pipe} (hm : Checks p.mode) (h : ∀ s, p.settings = some s → Typed s) {e : Event}
    (he : ∀ m, e = .mode m → Checks m) :
    (∀ s, (step p e).1.settings = some s → Typed s) ∧ Checks (step p e).1.mode ∧ (step p e).1.fluids = p.fluids := by
  have hne : p.mode ≠ .none := by rcases hm with h | h <;> rw [h] <;> decide
  cases e with
  | field f v =>
    simp only [step, assign]
    split
    · exact ⟨h, hm, rfl⟩
    · rename_i s hs
      split
      · rename_i w hw
        refine ⟨fun s' hs' => ?_, hm, rfl⟩
        simp only [Option.some.injEq] at hs'; subst hs'
        exact check_typed (h s hs) hw
      · rw [if_neg hne]; exact ⟨fun s' hs' => h s' hs', hm, rfl⟩
  | all s =>
    rcases assignAll_cases hm s with ⟨w, h1, -, h2, h3⟩ | h3
    · simp only [step, h3]
      refine ⟨fun s' hs' => ?_, hm, trivial⟩
      simp only [Option.some.injEq] at hs'; subst hs'; exact h1
    · simp only [step, h3]; exact ⟨h, hm, trivial⟩
  | clear => exact ⟨fun s hs => by simp [step] at hs, hm, rfl⟩
  | mode m => exact ⟨h, he m rfl, rfl⟩

theorem run_typed {p : Pipe} (hm : Checks p.mode) (h : ∀ s, p.settings = some s → Typed s) {es : List Event}
    (he : ∀ m, .mode m ∈ es → Checks m) :
    (∀ s, (run p es).settings = some s → Typed s) ∧ Checks (run p es).mode ∧ (run p es).fluids = p.fluids := by
  induction es generalizing p with
  | nil => exact ⟨h, hm, rfl⟩
  | cons e es ih =>
    obtain ⟨h1, h2, h3⟩ := step_typed hm h (e := e) (fun m hm' => he m (by simp [hm']))
    obtain ⟨i1, i2, i3⟩ := ih h2 h1 (fun m hm' => he m (by simp [hm']))
    exact ⟨i1, i2, i3.trans h3⟩

theorem fresh_typed (m : ValidationMode) (fl : String → Option (Int × Int)) :
    ∀ s, (fresh m fl).settings = some s → Typed s := by
  intro s hs
  simp only [fresh, Option.some.injEq] at hs; subst hs
  exact ⟨.inl rfl, .inr ⟨0, le_refl _, rfl⟩, .inr ⟨_, by simp, rfl⟩, .inl rfl⟩

/-- C121: after any history of a new pipe in the modes that check, with any number of refused assignments, every field holds a
value of the format; and if the last assignment (of one field or of all) was not refused, the game accepts the settings. -/
theorem C121_history {m : ValidationMode} (hm : Checks m) (fluids : String → Option (Int × Int)) {es : List Event}
    (he : ∀ m, .mode m ∈ es → Checks m) :
    (∀ s, (run (fresh m fluids) es).settings = some s → Typed s) ∧
      ∀ (e : Event) (p' : Pipe), (∀ m, e ≠ .mode m) → step (run (fresh m fluids) es) e = (p', none) → Playable p' := by
  obtain ⟨h1, h2, h3⟩ := run_typed (p := fresh m fluids) hm (fresh_typed m fluids) he
  refine ⟨h1, fun e p' hne hs => ?_⟩
  cases e with
  | field f v =>
    cases hp : (run (fresh m fluids) es).settings with
    | none => simp [step, assign, hp] at hs
    | some s =>
      obtain ⟨s', a1, a2, a3, a4, -⟩ := C121_assign h2 hp (h1 s hp) hs
      intro s₁ hs₁
      rw [a1] at hs₁
      simp only [Option.some.injEq] at hs₁; subst hs₁
      exact ⟨a2, a4 ▸ a3⟩
  | all s =>
    rcases assignAll_cases h2 s with ⟨w, b1, -, b2, b3⟩ | b3
    · simp only [step, b3, Prod.mk.injEq, and_true] at hs
      subst hs
      intro s₁ hs₁
      simp only [Option.some.injEq] at hs₁; subst hs₁; exact ⟨b1, b2⟩
    · simp [step, b3] at hs
  | clear =>
    simp only [step, Prod.mk.injEq, and_true] at hs
    subst hs; intro s hs; simp at hs
  | mode m => exact absurd rfl (hne m)

/-- The history of `test_set_infinite_fluid_temperature`: steam at 200 degrees, refused as water. -/
example : let p := run (fresh .strict someFluids) [.field .name (.text "steam"), .field .temperature (.int 200), .field .name (.text "water")]
    (step p (.field .temperature (.int 30))).2 = none ∧ (step p (.field .mode (.text "add"))).2 = some .dataFormat := by
  decide +kernel

/-- C121: as long as a temperature does not fit to its fluid, every assignment to the percentage or to the mode is refused too,
with any value; taking the temperature away always works and leaves settings that the game accepts. -/
theorem C121_stuck {p : Pipe} (hm : Checks p.mode) {s : Settings} (hp : p.settings = some s) (ht : Typed s)
    (hf : ¬ Fits p.fluids s) :
    (∀ v, (step p (.field .percentage v)).2 = some .dataFormat ∧ (step p (.field .mode v)).2 = some .dataFormat) ∧
      ∃ p', step p (.field .temperature .none) = (p', none) ∧ Playable p' ∧
        p'.settings = some { s with temperature := .none } := by
  have hne : p.mode ≠ .none := by rcases hm with h | h <;> rw [h] <;> decide
  have key : ∀ f, (f = .percentage ∨ f = .mode) → ∀ v, (step p (.field f v)).2 = some .dataFormat := by
    intro f hfm v
    simp only [step, assign, hp]
    split
    · rename_i w hw
      have hty := check_typed ht hw
      simp only [after_checks hm]
      cases hc : clash p.fluids (store s f w) with
      | none =>
        refine absurd ((clash_fits hty).1 hc) (fun h => hf ?_)
        rcases hfm with rfl | rfl <;> exact h
      | some x => rw [clash_error hty hc]
    · rw [if_neg hne]
  refine ⟨fun v => ⟨key _ (.inl rfl) v, key _ (.inr rfl) v⟩, { p with settings := some { s with temperature := .none } }, ?_, ?_, rfl⟩
  · simp [step, assign, hp, check, store, after_checks hm, clash]
  · intro s' hs'
    simp only [Option.some.injEq] at hs'; subst hs'
    exact ⟨⟨ht.name, ht.percentage, ht.mode, .inl rfl⟩, fun t h => by simp at h⟩

/-- A pipe with a temperature and no fluid. -/
def wrongPipe : Pipe := ⟨some ⟨.none, .float 0, .none, .int 3⟩, .strict, someFluids⟩

example : Checks wrongPipe.mode ∧ Typed ⟨.none, .float 0, .none, .int 3⟩ ∧ ¬ Fits wrongPipe.fluids ⟨.none, .float 0, .none, .int 3⟩ :=
  ⟨.inl rfl, ⟨.inl rfl, .inr ⟨0, le_refl _, rfl⟩, .inl rfl, .inr ⟨3, by norm_num, by norm_num, rfl⟩⟩,
    fun h => by obtain ⟨n, hn, -⟩ := h 3 rfl; simp at hn⟩

/-- C121: another fluid and its temperature, one after the other, arrive in either order, though the first of the two
assignments is refused when the ranges do not allow the mixture. -/
theorem C121_swap {p : Pipe} (hm : Checks p.mode) {s : Settings} (hp : p.settings = some s) (ht : Typed s) {n : String}
    {t : Int} (h1 : -2 ^ 63 ≤ t) (h2 : t < 2 ^ 63) (hfit : Fits p.fluids { s with name := .text n, temperature := .int t }) :
    ∀ es, es = [Event.field .name (.text n), .field .temperature (.int t)] ∨
        es = [Event.field .temperature (.int t), .field .name (.text n)] →
      run p es = { p with settings := some { s with name := .text n, temperature := .int t } } ∧
        ∀ e₁ e₂, es = [e₁, e₂] → (step (step p e₁).1 e₂).2 = none := by
  have hc : check .temperature (.int t) = some (.int t) := by norm_num at h1 h2; simp [check, h1, h2]
  have hn : check .name (.text n) = some (.text n) := rfl
  have hty : Typed { s with name := .text n, temperature := .int t } :=
    ⟨.inr ⟨n, rfl⟩, ht.percentage, ht.mode, .inr ⟨t, h1, h2, rfl⟩⟩
  have hcl := (clash_fits hty).2 hfit
  rintro es (rfl | rfl)
  · refine ⟨by simp [run, step, assign, hp, hc, hn, store], ?_⟩
    intro e₁ e₂ he
    simp only [List.cons.injEq, and_true] at he
    obtain ⟨rfl, rfl⟩ := he
    simp [step, assign, hp, hc, hn, store, after_checks hm, hcl]
  · refine ⟨by simp [run, step, assign, hp, hc, hn, store], ?_⟩
    intro e₁ e₂ he
    simp only [List.cons.injEq, and_true] at he
    obtain ⟨rfl, rfl⟩ := he
    simp [step, assign, hp, hc, hn, store, after_checks hm, hcl]

example : Fits someFluids { defaults with name := .text "ammonia", temperature := .int (-34) } := by
  intro t h; simp only [Val.int.injEq] at h; subst h
  exact ⟨_, rfl, fun lo hi h => by simp [someFluids] at h; omega⟩

/-- C121: without validation nothing is refused, whatever was assigned before; a value of the format arrives as in the modes
that check, and any other arrives as it is. -/
theorem C121_none {p : Pipe} (hm : p.mode = .none) {s : Settings} (hp : p.settings = some s) (f : Field) (v : Val) :
    ∃ s', step p (.field f v) = ({ p with settings := some s' }, none) ∧ (∀ g, g ≠ f → s'.at g = s.at g) ∧
      (s'.at f = v ∨ ∃ i : Int, 0 ≤ i ∧ f = .percentage ∧ v = .int i ∧ s'.at f = .float i) := by
  simp only [step, assign, hp]
  cases hw : check f v with
  | none =>
    simp only [hm, if_true]
    exact ⟨_, rfl, (store_at s f v).2, .inl (store_at s f v).1⟩
  | some w =>
    refine ⟨store s f w, by simp [hm, after, ValidationMode.index], (store_at s f w).2, ?_⟩
    rw [(store_at s f w).1]
    cases f <;> cases v <;> simp [check] at hw <;> first | exact .inl hw.symm | exact .inl hw.2.symm | skip
    exact .inr ⟨_, hw.1, rfl, rfl, hw.2.symm⟩

example : (step (fresh .none someFluids) (.field .percentage (.float (-1)))).1.settings =
    some { defaults with percentage := .float (-1) } := by decide +kernel

/-- C121: nor when all settings are assigned at once. -/
theorem C121_none_all {p : Pipe} (hm : p.mode = .none) (s : Settings) :
    ∃ w, step p (.all s) = ({ p with settings := some w }, none) ∧ Holds s w := by
  have hv : ∀ f v, (check f v).getD v = v ∨ ∃ i : Int, f = .percentage ∧ v = .int i ∧ (check f v).getD v = .float i := by
    intro f v
    cases h : check f v with
    | none => exact .inl rfl
    | some w => exact check_value h
  simp only [step, assignAll]
  split
  · rename_i n q m t hn hq hmo ht
    exact ⟨_, by simp [hm, after, ValidationMode.index], (check_all hn hq hmo ht).2⟩
  · refine ⟨_, by rw [if_pos hm], ?_, ?_, ?_, ?_⟩
    · simpa using hv .name s.name
    · simpa using hv .mode s.mode
    · simpa using hv .temperature s.temperature
    · simpa using hv .percentage s.percentage

example : (step (fresh .none someFluids) (.all ⟨.other, .int 3, .text "x", .int 5⟩)).1.settings =
    some ⟨.other, .float 3, .text "x", .int 5⟩ := by decide +kernel

/-- C121: merging copies settings that the game accepts, and refuses others without changing the settings. -/
theorem C121_merge {p q : Pipe} (hm : Checks p.mode) (hq : ∀ s, q.settings = some s → Typed s) (hfl : q.fluids = p.fluids) :
    (Playable q → merge p q = ({ p with settings := q.settings }, none)) ∧
      (¬ Playable q → merge p q = (p, some .dataFormat)) := by
  cases hs : q.settings with
  | none =>
    refine ⟨fun _ => by simp [merge, hs], fun h => absurd (fun s h' => ?_) h⟩
    rw [hs] at h'; simp at h'
  | some s =>
    have ht := hq s hs
    simp only [merge, hs]
    constructor
    · intro h; exact (assignAll_typed hm ht).1 (hfl ▸ (h s hs).2)
    · intro h
      refine (assignAll_typed hm ht).2 (fun hf => h (fun s' hs' => ?_))
      rw [hs] at hs'; simp only [Option.some.injEq] at hs'; subst hs'
      exact ⟨ht, hfl ▸ hf⟩

example : Playable (fresh .strict someFluids) := fun s hs => by
  refine ⟨fresh_typed _ _ s hs, ?_⟩
  simp only [fresh, Option.some.injEq] at hs; subst hs
  intro t h; simp [defaults] at h

/-- C121: in every mode but `NONE` the fields keep values of the format, in any history, with and without refusals. -/
theorem C121_typed {p : Pipe} (hm : p.mode ≠ .none) (h : ∀ s, p.settings = some s → Typed s) {es : List Event}
    (he : ∀ m, .mode m ∈ es → m ≠ .none) : ∀ s, (run p es).settings = some s → Typed s := by
  induction es generalizing p with
  | nil => exact h
  | cons e es ih =>
    have hr : ∀ m, .mode m ∈ es → m ≠ .none := fun m hm' => he m (by simp [hm'])
    show ∀ s, (run (step p e).1 es).settings = some s → Typed s
    cases e with
    | field f v =>
      simp only [step, assign]
      split
      · exact ih hm h hr
      · rename_i s hs
        split
        · rename_i w hw
          refine ih (p := { p with settings := some (store s f w) }) hm (fun s' hs' => ?_) hr
          simp only [Option.some.injEq] at hs'; subst hs'
          exact check_typed (h s hs) hw
        · rw [if_neg hm]; exact ih hm h hr
    | all s =>
      simp only [step, assignAll]
      split
      · rename_i n q m t hn hq hmo ht
        split
        · refine ih (p := { p with settings := some ⟨n, q, m, t⟩ }) hm (fun s' hs' => ?_) hr
          simp only [Option.some.injEq] at hs'; subst hs'
          exact (check_all hn hq hmo ht).1
        · exact ih hm h hr
      · rw [if_neg hm]; exact ih hm h hr
    | clear => exact ih (p := { p with settings := none }) hm (fun s hs => by simp at hs) hr
    | mode m => exact ih (p := { p with mode := m }) (he m (by simp)) h hr

example : (run (fresh .minimum someFluids) [.field .percentage (.float (-1)), .field .temperature (.int 3), .field .mode .other]).settings =
    some { defaults with temperature := .int 3 } := by decide +kernel

/-- Refuted: a refused assignment changes nothing.  A temperature that does not fit to the fluid is refused and stored, for
every known fluid and every such temperature. -/
theorem C121_refused_refuted {p : Pipe} (hm : Checks p.mode) {s : Settings} (hp : p.settings = some s) {n : String}
    (hn : s.name = .text n) {lo hi t : Int} (hr : p.fluids n = some (lo, hi)) (h1 : -2 ^ 63 ≤ t) (h2 : t < 2 ^ 63)
    (ho : t < lo ∨ hi < t) :
    ∃ p', step p (.field .temperature (.int t)) = (p', some .dataFormat) ∧
      p'.settings = some { s with temperature := .int t } ∧ ¬ Playable p' := by
  have hc : check .temperature (.int t) = some (.int t) := by norm_num at h1 h2; simp [check, h1, h2]
  refine ⟨{ p with settings := some { s with temperature := .int t } }, ?_, rfl, ?_⟩
  · simp only [step, assign, hp, hc, store, after_checks hm, clash, hn, hr]
    rw [if_neg (by simp), if_neg (by omega)]
  · intro h
    obtain ⟨n', hn', h'⟩ := (h _ rfl).2 t rfl
    simp only [hn, Val.text.injEq] at hn'; subst hn'
    have := h' lo hi hr
    omega

example : ∃ (p : Pipe) (s : Settings), p.settings = some s ∧ Checks p.mode ∧ s.name = .text "water" ∧ p.fluids "water" = some (15, 100) :=
  ⟨{ fresh .strict someFluids with settings := some { defaults with name := .text "water" } }, _, rfl, .inl rfl, rfl, rfl⟩

/-- Refuted: the modes that check something check the temperature.  `MINIMUM` takes a temperature without any fluid, which the
game refuses to import. -/
theorem C121_minimum_refuted (fluids : String → Option (Int × Int)) :
    ∃ p', step (fresh .minimum fluids) (.field .temperature (.int 20)) = (p', none) ∧ ¬ Playable p' := by
  refine ⟨_, rfl, fun h => ?_⟩
  obtain ⟨n, hn, -⟩ := (h _ rfl).2 20 rfl
  simp [store, defaults] at hn

/-- Refuted: only a `DataFormatError` comes out.  Settings set to `None`, which the attribute allows, make every assignment to a
single field an `AttributeError`; and a temperature that is text, taken without validation, makes the next assignment with
validation a `TypeError`. -/
theorem C121_error_refuted :
    (∀ (p : Pipe) (f : Field) (v : Val), (step (step p .clear).1 (.field f v)).2 = some .attributeError) ∧
      (let p := run (fresh .none someFluids) [.field .name (.text "water"), .field .temperature (.text "hot"), .mode .strict]
       (step p (.field .mode (.text "add"))).2 = some .typeError) := by
  refine ⟨fun p f v => rfl, by decide +kernel⟩

end Draftsman.InfPipe
