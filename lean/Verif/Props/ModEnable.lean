import Verif.Model.ModEnable
/-
C72: enabling and disabling mods.
-/
namespace Draftsman
namespace ModEnable

/-! ### Lemmas -/

theorem setOne_ok_iff (n : String) (b : Bool) (l : List Entry) : (∃ L, setOne n b l = .ok L) ↔ n ∈ l.map (·.name) := by
  induction l with
  | nil => simp [setOne]
  | cons e r ih =>
    by_cases h : e.name = n
    · simp [setOne, h]
    · have h' : n ≠ e.name := fun x => h x.symm
      have : (∃ L, setOne n b (e :: r) = .ok L) ↔ ∃ L, setOne n b r = .ok L := by
        simp only [setOne, if_neg h]
        cases setOne n b r <;> simp [Except.map]
      rw [this, ih, List.map_cons, List.mem_cons]
      simp [h']

theorem setOne_names {n : String} {b : Bool} : ∀ {l L : List Entry}, setOne n b l = .ok L → L.map (·.name) = l.map (·.name)
  | [], L, h => by simp [setOne] at h
  | e :: r, L, h => by
    by_cases hn : e.name = n
    · simp only [setOne, if_pos hn, Except.ok.injEq] at h
      subst h; rfl
    · simp only [setOne, if_neg hn] at h
      cases hr : setOne n b r with
      | error x => simp [hr, Except.map] at h
      | ok t =>
        simp only [hr, Except.map, Except.ok.injEq] at h
        subst h
        simp [setOne_names hr]

theorem setOne_enabled {n : String} {b : Bool} (m : String) : ∀ {l L : List Entry}, setOne n b l = .ok L →
    isEnabled (some L) m = if m = n then b else isEnabled (some l) m
  | [], L, h => by simp [setOne] at h
  | e :: r, L, h => by
    by_cases hn : e.name = n
    · simp only [setOne, if_pos hn, Except.ok.injEq] at h
      subst h
      by_cases hm : m = n
      · simp [isEnabled, hm, hn]
      · have : ¬ n = m := fun x => hm x.symm
        simp [isEnabled, hm, hn, this]
    · simp only [setOne, if_neg hn] at h
      cases hr : setOne n b r with
      | error x => simp [hr, Except.map] at h
      | ok t =>
        simp only [hr, Except.map, Except.ok.injEq] at h
        subst h
        have ih := setOne_enabled m hr
        by_cases he : e.name = m
        · have : ¬ m = n := fun x => hn (he.trans x)
          simp [isEnabled, he, this]
        · simpa [isEnabled, List.find?_cons, he] using ih

theorem setEach_names {b : Bool} : ∀ {names : List String} {l L : List Entry}, setEach b names l = .ok L → L.map (·.name) = l.map (·.name)
  | [], l, L, h => by
    simp only [setEach, List.foldlM_nil, pure, Except.pure, Except.ok.injEq] at h
    rw [h]
  | n :: r, l, L, h => by
    simp only [setEach, List.foldlM_cons, bind, Except.bind] at h
    cases hs : setOne n b l with
    | error x => simp [hs] at h
    | ok t =>
      simp only [hs] at h
      rw [setEach_names (names := r) h, setOne_names hs]

theorem setEach_enabled {b : Bool} (m : String) : ∀ {names : List String} {l L : List Entry}, setEach b names l = .ok L →
    isEnabled (some L) m = if m ∈ names then b else isEnabled (some l) m
  | [], l, L, h => by
    simp only [setEach, List.foldlM_nil, pure, Except.pure, Except.ok.injEq] at h
    simp [h]
  | n :: r, l, L, h => by
    simp only [setEach, List.foldlM_cons, bind, Except.bind] at h
    cases hs : setOne n b l with
    | error x => simp [hs] at h
    | ok t =>
      simp only [hs] at h
      rw [setEach_enabled m (names := r) h, setOne_enabled m hs]
      by_cases h1 : m ∈ r
      · simp [h1]
      · by_cases h2 : m = n <;> simp [h1, h2]

theorem setEach_ok_iff (b : Bool) : ∀ (names : List String) (l : List Entry),
    (∃ L, setEach b names l = .ok L) ↔ ∀ n ∈ names, n ∈ l.map (·.name)
  | [], l => by simp [setEach, pure, Except.pure]
  | n :: r, l => by
    have hone := setOne_ok_iff n b l
    simp only [setEach, List.foldlM_cons, bind, Except.bind]
    cases hs : setOne n b l with
    | error x =>
      simp only [hs, reduceCtorEq, exists_false, false_iff] at hone ⊢
      intro h
      exact hone (h n (by simp))
    | ok t =>
      have hn : n ∈ l.map (·.name) := hone.mp ⟨t, hs⟩
      have ih := setEach_ok_iff b r t
      simp only [setEach] at ih
      simp only [ih, setOne_names hs, List.mem_cons, forall_eq_or_imp, hn, true_and]

/-- A setting for `names` that goes through the loop. -/
theorem set_loop {mods : List String} {file : Option (List Entry)} {names : List String} {b : Bool} {L : List Entry} (hn : names ≠ ["all"])
    (h : setModsEnabled mods file names b = .ok L) : (∀ n ∈ names, n ∈ mods) ∧ setEach b names (entries mods file) = .ok L := by
  rw [setModsEnabled.eq_def, if_neg hn] at h
  split at h
  · simp at h
  · rename_i hany
    refine ⟨?_, h⟩
    simpa using hany

/-! ### Theorems -/

/-- After the call exactly the mods named are set; every other mod is as it was, whether or not there was a file. -/
theorem C72_enabled {mods : List String} {file : Option (List Entry)} {names : List String} {b : Bool} {L : List Entry} (hn : names ≠ ["all"])
    (h : setModsEnabled mods file names b = .ok L) (m : String) :
    isEnabled (some L) m = if m ∈ names then b else isEnabled file m := by
  rw [setEach_enabled m (set_loop hn h).2]
  cases file with
  | some l => rfl
  | none =>
    congr 1
    simp only [entries, Option.getD_none, isEnabled, Option.getD_some, List.find?_nil]
    cases hf : List.find? (fun e => decide (e.name = m)) (mods.map fun m => (⟨m, true⟩ : Entry)) with
    | none => rfl
    | some e =>
      have := List.mem_of_find?_eq_some hf
      simp only [List.mem_map] at this
      obtain ⟨x, _, rfl⟩ := this
      rfl

/-- The file keeps its entries, in their order; without a file one entry is written for every mod. -/
theorem C72_entries {mods : List String} {file : Option (List Entry)} {names : List String} {b : Bool} {L : List Entry} (hn : names ≠ ["all"])
    (h : setModsEnabled mods file names b = .ok L) :
    L.map (·.name) = match file with | some l => l.map (·.name) | none => mods := by
  rw [setEach_names (set_loop hn h).2]
  cases file with
  | some l => rfl
  | none => simp [entries, Function.comp_def]

/-- A name that is no mod's is refused, and nothing is written. -/
theorem C72_unknown {mods : List String} {file : Option (List Entry)} {names : List String} {b : Bool} (hn : names ≠ ["all"])
    {n : String} (h : n ∈ names) (hm : n ∉ mods) : setModsEnabled mods file names b = .error .missingMod := by
  have : (names.any fun n => decide (n ∉ mods)) = true := List.any_eq_true.mpr ⟨n, h, by simpa using hm⟩
  rw [setModsEnabled.eq_def, if_neg hn, if_pos this]

/-- When the call works: every mod named exists and, if there is a file, is listed in it.  The second condition is not part of the claim
(`C72_new_refuted`). -/
theorem C72_works_partial (mods : List String) (file : Option (List Entry)) {names : List String} (b : Bool) (hn : names ≠ ["all"]) :
    (∃ L, setModsEnabled mods file names b = .ok L) ↔
      (∀ n ∈ names, n ∈ mods) ∧ ∀ l, file = some l → ∀ n ∈ names, ∃ e ∈ l, e.name = n := by
  constructor
  · rintro ⟨L, h⟩
    obtain ⟨h1, h2⟩ := set_loop hn h
    refine ⟨h1, ?_⟩
    rintro l rfl n hm
    simpa [entries] using (setEach_ok_iff b names _).mp ⟨L, h2⟩ n hm
  · rintro ⟨h1, h2⟩
    have : ¬ (names.any fun n => decide (n ∉ mods)) = true := by simpa using h1
    rw [setModsEnabled.eq_def, if_neg hn, if_neg this]
    refine (setEach_ok_iff b names _).mpr fun n hm => ?_
    cases file with
    | none => simpa [entries] using h1 n hm
    | some l => simpa [entries] using h2 l rfl n hm

/-- Disabling and enabling the same mods again leaves them, and only them, enabled. -/
theorem C72_again {mods : List String} {file : Option (List Entry)} {names : List String} {L : List Entry} {a b : Bool} (hn : names ≠ ["all"])
    (h : setModsEnabled mods file names a = .ok L) :
    ∃ L', setModsEnabled mods (some L) names b = .ok L' ∧ ∀ m, isEnabled (some L') m = if m ∈ names then b else isEnabled file m := by
  have hl := set_loop hn h
  have hw : ∃ L', setModsEnabled mods (some L) names b = .ok L' := by
    refine (C72_works_partial mods (some L) b hn).mpr ⟨hl.1, ?_⟩
    rintro l hL n hm
    cases hL
    have := (setEach_ok_iff a names _).mp ⟨L, hl.2⟩ n hm
    rw [← setEach_names hl.2] at this
    simpa using this
  obtain ⟨L', h'⟩ := hw
  refine ⟨L', h', fun m => ?_⟩
  rw [C72_enabled hn h', C72_enabled hn h]
  split <;> rfl

/-- Refuted: `["all"]` sets every mod.  Whenever there is a mod, and there always is `base`, it fails: the names are taken for mods, and
strings have no `name`. -/
theorem C72_all_refuted {mods : List String} (hm : mods ≠ []) (file : Option (List Entry)) (b : Bool) :
    setModsEnabled mods file ["all"] b = .error .attributeError := by
  cases mods with
  | nil => exact absurd rfl hm
  | cons m r => simp [setModsEnabled]

/-- Refuted: every mod that is found can be enabled or disabled.  One that is not yet listed in `mod-list.json`, say because it has just been
added to the folder, cannot: the search for its entry ends in a `StopIteration`, although such a mod is taken to be enabled. -/
theorem C72_new_refuted : ∃ (mods : List String) (file : Option (List Entry)) (n : String), n ∈ mods ∧ isEnabled file n = true ∧
    setModsEnabled mods file [n] false = .error .stopIteration :=
  ⟨["base", "new"], some [⟨"base", true⟩], "new", by decide, by decide +kernel, by decide +kernel⟩

/-- Refuted: a mod listed twice is set in both entries.  Only the first is set, which is the one that is read here. -/
theorem C72_twice_refuted : ∃ (mods : List String) (l : List Entry) (n : String) (L : List Entry),
    setModsEnabled mods (some l) [n] false = .ok L ∧ ¬ ∀ e ∈ L, e.name = n → e.enabled = false :=
  ⟨["m"], [⟨"m", true⟩, ⟨"m", true⟩], "m", [⟨"m", false⟩, ⟨"m", true⟩], by decide +kernel, by decide⟩

/-! ### Examples -/

example : setModsEnabled ["base", "a", "b"] none ["a"] false = .ok [⟨"base", true⟩, ⟨"a", false⟩, ⟨"b", true⟩] := by decide +kernel
example : setModsEnabled ["base", "a", "b"] (some [⟨"b", false⟩, ⟨"a", false⟩]) ["b", "a"] true = .ok [⟨"b", true⟩, ⟨"a", true⟩] := by
  decide +kernel
example : setModsEnabled ["base", "a"] none ["a", "x"] false = .error .missingMod := by decide +kernel

end ModEnable
end Draftsman
