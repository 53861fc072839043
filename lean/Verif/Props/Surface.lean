import Verif.Model.Surface
/-
C11: surface conditions.
-/
namespace Draftsman.Surface

/-- Specification: the value meets the inclusive bounds that are present. -/
def Meets (c : Condition) (v : ℚ) : Prop := (∀ m, c.min = some m → m ≤ v) ∧ (∀ m, c.max = some m → v ≤ m)

theorem inRange_iff (c : Condition) (v : ℚ) : inRange c v = true ↔ Meets c v := by
  unfold inRange Meets
  cases c.min <;> cases c.max <;> simp

/-- C11: the check passes exactly when every condition whose property the surface defines is met. -/
theorem C11_passes_iff (cs : List Condition) (props : Table) :
    passes (some cs) props = true ↔ ∀ c ∈ cs, ∀ v, props.lookup c.property = some v → Meets c v := by
  unfold passes
  induction cs with
  | nil => simp [checkAll]
  | cons c cs ih =>
    simp only [checkAll, List.mem_cons, forall_eq_or_imp]
    simp only at ih
    cases hl : props.lookup c.property with
    | none => simpa using ih
    | some v =>
      simp only [Option.some.injEq, forall_eq']
      by_cases hr : inRange c v = true
      · simp only [hr, if_true, ih, (inRange_iff c v).1 hr, true_and]
      · have : ¬ Meets c v := fun h => hr ((inRange_iff c v).2 h)
        simp [hr, this]

example : passes (some [⟨"pressure", some 1000, some 4000⟩, ⟨"gravity", none, some 5⟩, ⟨"x", some 1, none⟩])
      [("gravity", 5), ("pressure", 4000)] = true ∧
    passes (some [⟨"pressure", some 1000, some 4000⟩]) [("pressure", 4001)] = false := by decide +kernel

/-- C11: no condition list, or an empty one, always passes. -/
theorem C11_none (props : Table) : passes none props = true ∧ passes (some []) props = true := ⟨rfl, rfl⟩

/-- C11: adding a condition anywhere can only turn yes into no. -/
theorem C11_antitone (as bs : List Condition) (c : Condition) (props : Table)
    (h : passes (some (as ++ c :: bs)) props = true) : passes (some (as ++ bs)) props = true := by
  rw [C11_passes_iff] at h ⊢
  intro d hd
  apply h
  simp only [List.mem_append, List.mem_cons] at hd ⊢
  rcases hd with hd | hd
  · exact .inl hd
  · exact .inr (.inr hd)

example : passes (some ([⟨"gravity", some 1, none⟩] ++ ⟨"pressure", some 1, none⟩ :: []))
    [("gravity", 5), ("pressure", 4000)] = true := by decide +kernel

/-- C11: the order and repetition of conditions do not matter. -/
theorem C11_order (as bs : List Condition) (hsub : ∀ c, c ∈ as ↔ c ∈ bs) (props : Table) :
    passes (some as) props = passes (some bs) props := by
  rw [Bool.eq_iff_iff, C11_passes_iff, C11_passes_iff]
  constructor
  · intro h c hc; exact h c ((hsub c).2 hc)
  · intro h c hc; exact h c ((hsub c).1 hc)

example : passes (some [⟨"gravity", some 6, none⟩, ⟨"pressure", some 1, none⟩]) [("gravity", 5), ("pressure", 40)]
  = passes (some [⟨"pressure", some 1, none⟩, ⟨"gravity", some 6, none⟩]) [("gravity", 5), ("pressure", 40)] := by
  decide +kernel

/-- The value `get_surface_properties` gives for a property: the entry of that name of the prototype of the surface, or the game default, for
four properties of a known surface; nothing otherwise. -/
def valueRead (planets : List (String × Planet)) (surface prop : String) : Option ℚ :=
  match planets.lookup surface with
  | none => none
  | some p =>
    if prop = "solar-power" then some ((p.entries.lookup prop).getD 100)
    else if prop = "magnetic-field" then some ((p.entries.lookup prop).getD 90)
    else if prop = "pressure" then some ((p.entries.lookup prop).getD 1000)
    else if prop = "gravity" then some ((p.entries.lookup prop).getD 10)
    else none

/-- The game's default of a property. -/
def default : String → Option ℚ
  | "solar-power" => some 100
  | "magnetic-field" => some 90
  | "pressure" => some 1000
  | "gravity" => some 10
  | _ => none

/-- The value a planet has for a property: what its `surface_properties` say, or else the default. -/
def surfaceValue (planets : List (String × Planet)) (surface prop : String) : Option ℚ :=
  (planets.lookup surface).bind fun p => ((p.surfaceProperties.getD []).lookup prop).or (default prop)

/-- The prototype of a planet as the game has them: these four are in `surface_properties`, never entries of the prototype itself. -/
def AsInGame (p : Planet) : Prop := ∀ k ∈ ["solar-power", "magnetic-field", "pressure", "gravity"], p.entries.lookup k = none

theorem getSurfaceProperties_lookup (planets : List (String × Planet)) (surface prop : String) :
    (getSurfaceProperties planets surface).lookup prop = valueRead planets surface prop := by
  unfold getSurfaceProperties valueRead
  cases planets.lookup surface with
  | none => rfl
  | some t =>
    simp only [List.lookup]
    by_cases h1 : prop = "solar-power"
    · subst h1; rfl
    by_cases h2 : prop = "magnetic-field"
    · subst h2; rfl
    by_cases h3 : prop = "pressure"
    · subst h3; rfl
    by_cases h4 : prop = "gravity"
    · subst h4; rfl
    have : ∀ s, prop ≠ s → (prop == s) = false := by intro s h; simpa using h
    simp only [this _ h1, this _ h2, this _ h3, this _ h4, h1, h2, h3, h4, if_false]

/-- C11: an entity is placeable on a surface exactly when each of its conditions is met by the value that is
read for the surface, if any; unknown entities are placeable everywhere.  Missing: that this is the value the surface has, see
`C11_planet_refuted`. -/
theorem C11_placeable_partial (entities : List (String × Option (List Condition)))
    (planets : List (String × Planet)) (name surface : String) :
    isPlacableOn entities planets name surface = true ↔
      ∀ cs, entities.lookup name = some (some cs) → ∀ c ∈ cs, ∀ v,
        valueRead planets surface c.property = some v → Meets c v := by
  unfold isPlacableOn surfaceConditions
  cases h : entities.lookup name with
  | none => simp [passes]
  | some o =>
    cases o with
    | none => simp [passes, checkAll]
    | some cs => simp [C11_passes_iff, getSurfaceProperties_lookup]

example : isPlacableOn [("biochamber", some [⟨"pressure", some 2000, some 2000⟩])]
      [("gleba", ⟨[("pressure", 2000)], none⟩), ("nauvis", ⟨[], none⟩)] "biochamber" "gleba" = true ∧
    isPlacableOn [("biochamber", some [⟨"pressure", some 2000, some 2000⟩])]
      [("gleba", ⟨[("pressure", 2000)], none⟩), ("nauvis", ⟨[], none⟩)] "biochamber" "nauvis" = false := by decide +kernel

/-- C11: recipes use the same rule; an unknown recipe is a `KeyError`.  Missing as in `C11_placeable_partial`. -/
theorem C11_usable_partial (recipes : List (String × Option (List Condition)))
    (planets : List (String × Planet)) (name surface : String) :
    (isUsableOn recipes planets name surface = .ok true ↔ recipes.lookup name ≠ none ∧
      ∀ cs, recipes.lookup name = some (some cs) → ∀ c ∈ cs, ∀ v,
        valueRead planets surface c.property = some v → Meets c v) ∧
    (isUsableOn recipes planets name surface = .error .keyError ↔ recipes.lookup name = none) := by
  unfold isUsableOn
  cases h : recipes.lookup name with
  | none => simp
  | some o =>
    cases o with
    | none => simp
    | some cs => simp [C11_passes_iff, getSurfaceProperties_lookup]

example : isUsableOn [("r", some [⟨"gravity", some 0, some 0⟩])] [("platform", ⟨[("gravity", 0)], none⟩)] "r" "platform"
    = .ok true := by decide +kernel

theorem valueRead_default (planets : List (String × Planet)) (surface : String) (p : Planet) (hp : planets.lookup surface = some p)
    (hg : AsInGame p) (prop : String) : valueRead planets surface prop = default prop := by
  unfold valueRead
  simp only [hp]
  by_cases h1 : prop = "solar-power"
  · subst h1; rw [hg _ (by simp)]; rfl
  by_cases h2 : prop = "magnetic-field"
  · subst h2; rw [hg _ (by simp)]; rfl
  by_cases h3 : prop = "pressure"
  · subst h3; rw [hg _ (by simp)]; rfl
  by_cases h4 : prop = "gravity"
  · subst h4; rw [hg _ (by simp)]; rfl
  rw [if_neg h1, if_neg h2, if_neg h3, if_neg h4]
  unfold default
  split <;> first | exact absurd rfl h1 | exact absurd rfl h2 | exact absurd rfl h3 | exact absurd rfl h4 | rfl

/-- C11: with the game's own planets nothing depends on the planet: what can be placed or used on one can be on every other. -/
theorem C11_planets (entities recipes : List (String × Option (List Condition))) (planets : List (String × Planet)) (name a b : String) (p q : Planet)
    (ha : planets.lookup a = some p) (hb : planets.lookup b = some q) (hp : AsInGame p) (hq : AsInGame q) :
    isPlacableOn entities planets name a = isPlacableOn entities planets name b ∧
      isUsableOn recipes planets name a = isUsableOn recipes planets name b := by
  have key : ∀ cs, passes cs (getSurfaceProperties planets a) = passes cs (getSurfaceProperties planets b) := by
    intro cs
    cases cs with
    | none => rfl
    | some cs =>
      rw [Bool.eq_iff_iff, C11_passes_iff, C11_passes_iff]
      simp only [getSurfaceProperties_lookup, valueRead_default planets a p ha hp, valueRead_default planets b q hb hq]
  constructor
  · exact key _
  · unfold isUsableOn
    cases recipes.lookup name with
    | none => rfl
    | some o => cases o with
      | none => rfl
      | some cs => exact congrArg Except.ok (key (some cs))

/-- Two planets of the game, as far as these values go. -/
def gamePlanets : List (String × Planet) :=
  [("nauvis", ⟨[("distance", 15), ("magnitude", 1)], some [("day-night-cycle", 25200)]⟩),
   ("vulcanus", ⟨[("distance", 10), ("magnitude", 3 / 2)], some [("solar-power", 400), ("magnetic-field", 25), ("gravity", 40), ("pressure", 4000)]⟩)]

example : AsInGame (gamePlanets[1]).2 ∧ isPlacableOn [("foundry", some [⟨"pressure", some 4000, some 4000⟩])] gamePlanets "foundry" "vulcanus" = false := by
  refine ⟨?_, by decide +kernel⟩
  intro k hk
  simp only [List.mem_cons, List.not_mem_nil, or_false] at hk
  rcases hk with rfl | rfl | rfl | rfl <;> decide +kernel

/-- Refuted: an entity is placeable on a planet exactly when the values of the planet meet its conditions.  The values of a planet are under
`surface_properties` in its prototype, and are looked for in the prototype itself, so that the defaults are taken for every planet: an entity that can only be
placed on Vulcanus, where the pressure is 4000, is said not to be placeable there. -/
theorem C11_planet_refuted : ¬ ∀ (entities : List (String × Option (List Condition))) (planets : List (String × Planet)) (name surface : String),
    isPlacableOn entities planets name surface = true ↔
      ∀ cs, entities.lookup name = some (some cs) → ∀ c ∈ cs, ∀ v, surfaceValue planets surface c.property = some v → Meets c v := by
  intro h
  have := (h [("foundry", some [⟨"pressure", some 4000, some 4000⟩])] gamePlanets "foundry" "vulcanus").2 (by
    intro cs hcs c hc v hv
    obtain rfl : cs = [⟨"pressure", some 4000, some 4000⟩] := by simpa [List.lookup] using hcs.symm
    obtain rfl := List.mem_singleton.1 hc
    obtain rfl : (4000 : ℚ) = v := Option.some.inj ((by decide +kernel : some (4000 : ℚ) = surfaceValue gamePlanets "vulcanus" "pressure").trans hv)
    exact ⟨fun m hm => (Option.some.inj hm).ge, fun m hm => (Option.some.inj hm).le⟩)
  exact absurd this (by decide +kernel)

end Draftsman.Surface
