import Verif.Model.Modules
import Verif.Proof.Dict
import Verif.Proof.Trains

namespace Draftsman
namespace Modules

/-! ## C55: modules allowed by effects -/

/-- The module may be used in a machine with these effects and this recipe. -/
def Usable (m : Module) (allowed : List String) (recipe : Option String) : Prop :=
  (∀ e x, (e, x) ∈ m.effect → 0 < x → e ∈ allowed) ∧
  ∀ r, recipe = some r → (∀ l, m.limitation = some l → r ∈ l) ∧ ∀ l, m.blacklist = some l → r ∉ l

theorem usable_iff (m : Module) (allowed : List String) (recipe : Option String) :
    (!skipped m recipe && fits m allowed) = true ↔ Usable m allowed recipe := by
  have hf : fits m allowed = true ↔ ∀ e x, (e, x) ∈ m.effect → 0 < x → e ∈ allowed := by
    unfold fits
    rw [List.all_eq_true]
    constructor
    · intro h e x hm hx
      have := h (e, x) (List.mem_filter.2 ⟨hm, by simpa using hx⟩)
      simpa using this
    · rintro h ⟨e, x⟩ hp
      have := List.mem_filter.1 hp
      simpa using h e x this.1 (by simpa using this.2)
  have hs : (!skipped m recipe) = true ↔ ∀ r, recipe = some r → (∀ l, m.limitation = some l → r ∈ l) ∧ ∀ l, m.blacklist = some l → r ∉ l := by
    cases recipe with
    | none => simp [skipped]
    | some r => cases hl : m.limitation <;> cases hb : m.blacklist <;> simp [skipped, hl, hb]
  rw [Bool.and_eq_true, hf, hs, Usable, and_comm]

/-- The modules offered are exactly the usable ones of the table. -/
theorem C55_exact (raw : Dict String Module) (allowed : List String) (recipe : Option String) :
    ∃ out, fromEffects raw (some allowed) recipe = some out ∧ ∀ n, n ∈ out ↔ ∃ m, (n, m) ∈ raw ∧ Usable m allowed recipe := by
  refine ⟨_, rfl, ?_⟩
  intro n
  simp only [List.mem_map, List.mem_filter, usable_iff]
  constructor
  · rintro ⟨⟨n', m⟩, ⟨hm, hu⟩, rfl⟩; exact ⟨m, hm, hu⟩
  · rintro ⟨m, hm, hu⟩; exact ⟨(n, m), ⟨hm, hu⟩, rfl⟩

/-- Each is offered once. -/
theorem C55_once (raw : Dict String Module) (h : raw.keys.Nodup) (allowed : List String) (recipe : Option String) (out : List String)
    (ho : fromEffects raw (some allowed) recipe = some out) : out.Nodup := by
  simp only [fromEffects, Option.map_some, Option.some.injEq] at ho
  subst ho
  exact h.sublist (List.filter_sublist.map _)

/-- Allowing more effects takes no module away. -/
theorem C55_more (raw : Dict String Module) (a b : List String) (hab : ∀ e ∈ a, e ∈ b) (recipe : Option String) (oa ob : List String)
    (ha : fromEffects raw (some a) recipe = some oa) (hb : fromEffects raw (some b) recipe = some ob) (n : String) (hn : n ∈ oa) : n ∈ ob := by
  obtain ⟨oa', ha', ha''⟩ := C55_exact raw a recipe
  obtain ⟨ob', hb', hb''⟩ := C55_exact raw b recipe
  rw [ha, Option.some.injEq] at ha'
  rw [hb, Option.some.injEq] at hb'
  subst ha' hb'
  obtain ⟨m, hm, hu⟩ := (ha'' n).1 hn
  exact (hb'' n).2 ⟨m, hm, fun e x he hx => hab e (hu.1 e x he hx), hu.2⟩

/-- Giving a recipe offers no module that is not offered without one. -/
theorem C55_recipe (raw : Dict String Module) (a : List String) (recipe : String) (o₁ o₂ : List String)
    (h1 : fromEffects raw (some a) (some recipe) = some o₁) (h2 : fromEffects raw (some a) none = some o₂) (n : String) (hn : n ∈ o₁) : n ∈ o₂ := by
  obtain ⟨o₁', h1', h1''⟩ := C55_exact raw a (some recipe)
  obtain ⟨o₂', h2', h2''⟩ := C55_exact raw a none
  rw [h1, Option.some.injEq] at h1'
  rw [h2, Option.some.injEq] at h2'
  subst h1' h2'
  obtain ⟨m, hm, hu⟩ := (h1'' n).1 hn
  exact (h2'' n).2 ⟨m, hm, hu.1, by simp⟩

/-- Without knowledge of the effects nothing is said. -/
theorem C55_unknown (raw : Dict String Module) (recipe : Option String) : fromEffects raw none recipe = none := rfl

/-- A speed module, a productivity module and one with a blacklist. -/
def table : Dict String Module :=
  [("speed", ⟨"speed", [("speed", 1 / 5), ("consumption", 1 / 2)], none, none, 0⟩),
   ("prod", ⟨"productivity", [("productivity", 1 / 25), ("speed", -1 / 10)], some ["gear"], none, 0⟩),
   ("eff", ⟨"efficiency", [("consumption", -3 / 10)], none, some ["gear"], 0⟩)]

example : fromEffects table (some ["speed", "consumption"]) none = some ["speed", "eff"] := by decide +kernel
example : fromEffects table (some ["speed", "consumption", "productivity"]) (some "gear") = some ["speed", "prod"] := by decide +kernel
example : fromEffects table (some ["productivity"]) (some "pipe") = some ["eff"] := by decide +kernel

/-! ## C59: tables extended at run time -/

/-- The word for a type of signal. -/
def word : SigType → String
  | .item => "item"
  | .fluid => "fluid"
  | .recipe => "recipe"
  | .entity => "entity"
  | .spaceLocation => "space-location"
  | .asteroidChunk => "asteroid-chunk"
  | .quality => "quality"
  | .virtual => "virtual"

theorem parseType_word (type : String) (ty : SigType) (h : parseType type = some ty) : word ty = type := by
  unfold parseType at h
  split at h <;> simp only [Option.some.injEq, reduceCtorEq] at h <;> subst h <;> rfl

/-- A signal type is one of eight words. -/
theorem C59_signal_type (t : Signals) (name type : String) :
    (∃ t', addSignal t name type = .ok t') ↔
      type ∈ ["item", "fluid", "recipe", "entity", "space-location", "asteroid-chunk", "quality", "virtual"] := by
  unfold addSignal
  constructor
  · rintro ⟨t', h⟩
    cases hp : parseType type with
    | none => rw [hp] at h; simp at h
    | some ty =>
      unfold parseType at hp
      split at hp <;> simp_all
  · intro h
    simp only [List.mem_cons, List.not_mem_nil, or_false] at h
    rcases h with rfl | rfl | rfl | rfl | rfl | rfl | rfl | rfl <;> exact ⟨_, rfl⟩

/-- An added signal has the type, keeps the types it had, is listed once more under it, and nothing changes for other names and types. -/
theorem C59_signal (t t' : Signals) (name type : String) (h : addSignal t name type = .ok t') :
    ∃ ty, word ty = type ∧ t'.raw.get? name = some ty ∧
      (∃ ts, t'.typeOf.get? name = some ts ∧ ∀ u, u ∈ ts ↔ u = ty ∨ ∃ ts₀, t.typeOf.get? name = some ts₀ ∧ u ∈ ts₀) ∧
      (∀ n u, (t'.lists u).count n = (t.lists u).count n + if n = name ∧ u = ty then 1 else 0) ∧
      (∀ n, n ≠ name → t'.raw.get? n = t.raw.get? n ∧ t'.typeOf.get? n = t.typeOf.get? n) := by
  unfold addSignal at h
  cases hp : parseType type with
  | none => rw [hp] at h; simp at h
  | some ty =>
    rw [hp] at h
    simp only [Except.ok.injEq] at h
    subst h
    refine ⟨ty, parseType_word type ty hp, by simp [Dict.get?_set], ?_, ?_, ?_⟩
    · cases ht : t.typeOf.get? name with
      | none => exact ⟨[ty], by simp [Dict.get?_set], by simp⟩
      | some ts =>
        refine ⟨if ty ∈ ts then ts else ts ++ [ty], by simp [Dict.get?_set], ?_⟩
        intro u
        by_cases hm : ty ∈ ts
        · rw [if_pos hm]
          constructor
          · intro hu; exact .inr ⟨ts, rfl, hu⟩
          · rintro (rfl | ⟨ts₀, h0, hu⟩)
            · exact hm
            · simp only [Option.some.injEq] at h0; subst h0; exact hu
        · rw [if_neg hm, List.mem_append, List.mem_singleton]
          constructor
          · rintro (hu | rfl)
            · exact .inr ⟨ts, rfl, hu⟩
            · exact .inl rfl
          · rintro (rfl | ⟨ts₀, h0, hu⟩)
            · exact .inr rfl
            · simp only [Option.some.injEq] at h0; subst h0; exact .inl hu
    · intro n u
      by_cases hu : u = ty
      · subst hu
        by_cases hn : n = name
        · subst hn; simp
        · have : ¬ name = n := fun e => hn e.symm
          simp [hn, this]
      · simp [hu]
    · intro n hn
      have hn' : ¬ name = n := fun e => hn e.symm
      refine ⟨by simp [Dict.get?_set, hn'], ?_⟩
      cases ht : t.typeOf.get? name <;> simp [Dict.get?_set, hn']

/-- The two tables of signals agree: a name is listed under a type exactly if the type is one of its types. -/
def Agree (t : Signals) : Prop := ∀ n u, n ∈ t.lists u ↔ ∃ ts, t.typeOf.get? n = some ts ∧ u ∈ ts

/-- Any sequence of additions keeps the lists and the types in agreement; a refused addition changes nothing. -/
theorem C59_agree (t : Signals) (h : Agree t) (ops : List (String × String)) :
    Agree (ops.foldl (fun t p => match addSignal t p.1 p.2 with | .ok t' => t' | .error _ => t) t) := by
  refine foldl_inv Agree _ ops t h ?_
  intro t p _ ht
  cases ha : addSignal t p.1 p.2 with
  | error e => simpa [ha] using ht
  | ok t' =>
    simp only
    obtain ⟨ty, -, -, ⟨ts, hts, hu⟩, hc, ho⟩ := C59_signal t t' p.1 p.2 ha
    intro n u
    rw [← List.count_pos_iff, hc]
    by_cases hn : n = p.1
    · subst hn
      rw [hts]
      constructor
      · intro hp
        refine ⟨ts, rfl, (hu u).2 ?_⟩
        by_cases hy : u = ty
        · exact .inl hy
        · right
          rw [if_neg (fun e => hy e.2)] at hp
          exact (ht p.1 u).1 (List.count_pos_iff.1 (by simpa using hp))
      · rintro ⟨ts', he, hm⟩
        simp only [Option.some.injEq] at he
        subst he
        rcases (hu u).1 hm with rfl | hm
        · simp
        · have := List.count_pos_iff.2 ((ht p.1 u).2 hm)
          omega
    · rw [if_neg (fun e => hn e.1), Nat.add_zero, List.count_pos_iff, (ho n hn).2]
      exact ht n u

/-- Not proved because it is false: that a signal is listed once.  Adding it twice lists it twice. -/
theorem C59_signal_once_refuted : ¬ ∀ (t t' : Signals) (name type : String), (∀ u, (t.lists u).Nodup) → addSignal t name type = .ok t' →
    ∀ u, (t'.lists u).Nodup := by
  intro h
  have := h ⟨[("a", .item)], [("a", [.item])], fun u => if u = .item then ["a"] else []⟩ _ "a" "item" (by intro u; dsimp only; split <;> simp) rfl .item
  simp at this

/-- A module that was not there is added with the given data, is listed once in its category, and nothing else changes. -/
theorem C59_module_new_partial (t t' : Tables) (name category : String) (a : Args) (h : addModule t name category a = .ok t') (hn : t.raw.get? name = none) :
    (∃ m, t'.raw.get? name = some m ∧ m.category = category ∧ m.effect = a.effect.getD [] ∧ m.limitation = a.limitation ∧ m.blacklist = a.blacklist) ∧
    (∃ l, t.categories.get? category = some l ∧ t'.categories.get? category = some (l ++ [name])) ∧
    (∀ n, n ≠ name → t'.raw.get? n = t.raw.get? n) ∧ (∀ c, c ≠ category → t'.categories.get? c = t.categories.get? c) := by
  unfold addModule at h
  cases hc : t.categories.get? category with
  | none => rw [hc] at h; simp at h
  | some l =>
    rw [hc] at h
    simp only [Except.ok.injEq] at h
    subst h
    refine ⟨⟨_, by simp [Dict.get?_set]; rfl, rfl, by simp [hn], by cases a.limitation <;> simp [hn], by cases a.blacklist <;> simp [hn]⟩,
      ⟨l, rfl, by simp [Dict.get?_set]⟩, ?_, ?_⟩
    · intro n h'
      have : ¬ name = n := fun e => h' e.symm
      simp [Dict.get?_set, this]
    · intro c h'
      have : ¬ category = c := fun e => h' e.symm
      simp [Dict.get?_set, this]

/-- A category that does not exist is refused. -/
theorem C59_module_category (t : Tables) (name category : String) (a : Args) :
    (∃ t', addModule t name category a = .ok t') ↔ category ∈ t.categories.keys := by
  unfold addModule
  rw [← Dict.get?_isSome]
  cases t.categories.get? category <;> simp

/-- Not proved because it is false: that a module has the effects it was added with.  An existing module keeps the ones it had. -/
theorem C59_module_effect_refuted : ¬ ∀ (t t' : Tables) (name category : String) (a : Args) (e : Dict String ℚ), a.effect = some e →
    addModule t name category a = .ok t' → ∃ m, t'.raw.get? name = some m ∧ m.effect = e := by
  intro h
  obtain ⟨m, hm, he⟩ := h ⟨[("m", ⟨"c", [("speed", 1)], none, none, 0⟩)], [("c", ["m"])]⟩ _ "m" "c" { effect := some [("speed", 2)] } _ rfl rfl
  simp only [Dict.get?, Dict.set, if_true, Option.some.injEq] at hm
  subst hm
  revert he
  decide +kernel

/-- Not proved because it is false: that a module is listed once, in its own category.  One that is added again under another category stays listed in the
first, and one that is added again under the same is listed twice. -/
theorem C59_module_once_refuted : ¬ ∀ (t t' : Tables) (name category : String) (a : Args),
    (∀ c l n, t.categories.get? c = some l → n ∈ l → ∃ m, t.raw.get? n = some m ∧ m.category = c) → addModule t name category a = .ok t' →
    ∀ c l n, t'.categories.get? c = some l → n ∈ l → ∃ m, t'.raw.get? n = some m ∧ m.category = c := by
  intro h
  obtain ⟨m, hm, hc⟩ := h ⟨[("m", ⟨"c", [], none, none, 0⟩)], [("c", ["m"]), ("d", [])]⟩ _ "m" "d" {} (by
      intro c l n hl hn
      simp only [Dict.get?] at hl
      split at hl
      · rename_i hc
        simp only [Option.some.injEq] at hl
        subst hl hc
        rw [List.mem_singleton] at hn
        subst hn
        exact ⟨_, rfl, rfl⟩
      · split at hl
        · simp only [Option.some.injEq] at hl
          subst hl
          simp at hn
        · simp at hl) rfl "c" ["m"] "m" (by decide +kernel) (by simp)
  simp only [Dict.get?, Dict.set, if_true, Option.some.injEq] at hm
  subst hm
  revert hc
  decide

/-- Not proved because it is false: that adding a category loses no module.  Adding one that exists empties it. -/
theorem C59_category_refuted : ¬ ∀ (t : Tables) (name c : String) (l : List String) (n : String), t.categories.get? c = some l → n ∈ l →
    ∃ l', (addCategory t name).categories.get? c = some l' ∧ n ∈ l' := by
  intro h
  obtain ⟨l', hl, hn⟩ := h ⟨[], [("c", ["m"])]⟩ "c" "c" ["m"] "m" rfl (by simp)
  simp only [addCategory, Dict.set, Dict.get?, if_true, Option.some.injEq] at hl
  subst hl
  simp at hn

/-- Adding a category that does not exist makes it empty and changes nothing else. -/
theorem C59_category_partial (t : Tables) (name : String) (h : t.categories.get? name = none) :
    (addCategory t name).raw = t.raw ∧ (addCategory t name).categories.get? name = some [] ∧
      ∀ c l, t.categories.get? c = some l → (addCategory t name).categories.get? c = some l := by
  refine ⟨rfl, by simp [addCategory, Dict.get?_set], ?_⟩
  intro c l hc
  have : ¬ name = c := by rintro rfl; rw [h] at hc; simp at hc
  simp [addCategory, Dict.get?_set, this, hc]

/-- A new item signal, and a second type for an old one. -/
example : ∃ t', addSignal ⟨[("a", .item)], [("a", [.item])], fun u => if u = .item then ["a"] else []⟩ "a" "recipe" = .ok t' ∧
    t'.typeOf = [("a", [.item, .recipe])] ∧ t'.lists .recipe = ["a"] ∧ t'.lists .item = ["a"] := by
  refine ⟨_, rfl, by decide, by decide, by decide⟩

/-- An agreeing table. -/
example : Agree ⟨[("a", .item)], [("a", [.item])], fun u => if u = .item then ["a"] else []⟩ := by
  intro n u
  simp only [Dict.get?]
  by_cases hn : "a" = n
  · subst hn; cases u <;> simp
  · have : ¬ n = "a" := fun e => hn e.symm
    cases u <;> simp [hn, this]

/-- A new module. -/
example : addModule ⟨[], [("speed", [])]⟩ "s" "speed" { effect := some [("speed", 1 / 5)] } =
    .ok ⟨[("s", ⟨"speed", [("speed", 1 / 5)], none, none, 0⟩)], [("speed", ["s"])]⟩ := by
  decide +kernel

end Modules
end Draftsman
