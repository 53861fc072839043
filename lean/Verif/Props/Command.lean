import Verif.Model.Command
import Verif.Props.GameVersion
import Mathlib.Data.List.Basic
import Mathlib.Order.Nat
/-! C111: what the commands of the console script change. -/
namespace Draftsman
namespace Command
open ModEnable GameVersion

variable {γ : Type}

/-- All the files with extracted data. -/
def allTables : List String := ["mods", "entities", "fluids", "instruments", "items", "modules", "planets", "recipes", "signals", "tiles"]

/-- The files `d'` differ from `d` in that those named in `fs` hold what was extracted. -/
def Written (s : Source γ) (fs : List String) (d d' : String → γ) : Prop :=
  (∀ f ∈ fs, ∃ c, s.extract f = .ok c ∧ d' f = c) ∧ ∀ f, f ∉ fs → d' f = d f

theorem Written.cons {s : Source γ} {f : String} {fs : List String} {d d' : String → γ} {c : γ} (hc : s.extract f = .ok c) (hf : f ∉ fs)
    (h : Written s fs (put d f c) d') : Written s (f :: fs) d d' := by
  refine ⟨?_, ?_⟩
  · intro g hg
    rcases List.mem_cons.1 hg with rfl | hg
    · refine ⟨c, hc, ?_⟩
      rw [h.2 g hf]
      simp [put]
    · exact h.1 g hg
  · intro g hg
    rw [h.2 g (fun x => hg (List.mem_cons_of_mem _ x))]
    have hne : g ≠ f := fun e => hg (by rw [e]; exact List.mem_cons_self)
    simp [put, hne]

theorem extractEach_written (s : Source γ) : ∀ (l : List String), l.Nodup → ∀ d, ∃ a b, l = a ++ b ∧ Written s a d (extractEach s l d).1 ∧
    ((extractEach s l d).2 = none → b = []) ∧ ∀ e, (extractEach s l d).2 = some e → ∃ f r, b = f :: r ∧ s.extract f = .error e
  | [], _, d => ⟨[], [], rfl, ⟨by simp, fun _ _ => rfl⟩, fun _ => rfl, fun e h => by cases h⟩
  | f :: r, hn, d => by
    cases hc : s.extract f with
    | error e =>
      refine ⟨[], f :: r, rfl, ?_, ?_, ?_⟩
      · simp only [extractEach, hc]
        exact ⟨by simp, fun _ _ => rfl⟩
      · simp only [extractEach, hc]
        intro h
        cases h
      · simp only [extractEach, hc]
        intro e' h
        cases h
        exact ⟨f, r, rfl, hc⟩
    | ok c =>
      obtain ⟨a, b, hab, hw, h1, h2⟩ := extractEach_written s r (List.nodup_cons.1 hn).2 (put d f c)
      refine ⟨f :: a, b, by rw [hab]; rfl, ?_, ?_, ?_⟩
      · simp only [extractEach, hc]
        refine Written.cons hc (fun h => (List.nodup_cons.1 hn).1 ?_) hw
        rw [hab]
        exact List.mem_append_left _ h
      · simp only [extractEach, hc]
        exact h1
      · simp only [extractEach, hc]
        exact h2

theorem tables_nodup : tables.Nodup := by decide +kernel

theorem mods_notin : "mods" ∉ tables := by decide +kernel

theorem extractData_written (s : Source γ) (d : String → γ) : ∃ a b, allTables = a ++ b ∧ Written s a d (extractData s d).1 ∧
    ((extractData s d).2 = none → b = []) ∧ ((extractData s d).2 ≠ none → b ≠ []) := by
  unfold extractData
  cases hm : s.extract "mods" with
  | error e => exact ⟨[], allTables, rfl, ⟨by simp, fun _ _ => rfl⟩, fun h => (by cases h), fun _ => by decide⟩
  | ok c =>
    cases hi : s.items with
    | some e =>
      refine ⟨["mods"], tables, rfl, ?_, fun h => (by cases h), fun _ => by decide⟩
      exact Written.cons hm (by simp) ⟨by simp, fun _ _ => rfl⟩
    | none =>
      obtain ⟨a, b, hab, hw, h1, h2⟩ := extractEach_written s tables tables_nodup (put d "mods" c)
      refine ⟨"mods" :: a, b, ?_, Written.cons hm (fun h => mods_notin (by rw [hab]; exact List.mem_append_left _ h)) hw, h1, ?_⟩
      · show "mods" :: tables = _
        rw [hab]
        rfl
      · intro h
        cases he : (extractEach s tables (put d "mods" c)).2 with
        | none => exact absurd he h
        | some e =>
          obtain ⟨f, r, hb, _⟩ := h2 e he
          rw [hb]
          simp

/-- Commands that report change no file. -/
theorem C111_reports (env : Env γ) (verbose : Bool) (w : World γ) :
    ∀ c ∈ [Cmd.help, .version, .factorioVersion none, .list, .modSettings], (main env verbose c w).1 = w := by
  intro c hc
  simp only [List.mem_cons, List.not_mem_nil, or_false] at hc
  rcases hc with rfl | rfl | rfl | rfl | rfl
  · rfl
  · rfl
  · simp only [main]
    split <;> rfl
  · simp only [main]
    split <;> rfl
  · rfl

theorem setEnabled_scope (env : Env γ) (names : List String) (b : Bool) (w : World γ) :
    (setEnabled env names b w).1.repo = w.repo ∧ (setEnabled env names b w).1.version = w.version ∧ (setEnabled env names b w).1.data = w.data := by
  unfold setEnabled
  split
  · exact ⟨rfl, rfl, rfl⟩
  · split <;> exact ⟨rfl, rfl, rfl⟩

/-- Enabling and disabling change only the list of mods: as `ModEnable.setModsEnabled` says, or not at all. -/
theorem C111_enable (env : Env γ) (verbose : Bool) (w : World γ) (names : List String) (b : Bool) :
    let r := main env verbose (if b then .enable names else .disable names) w
    r.1.repo = w.repo ∧ r.1.version = w.version ∧ r.1.data = w.data ∧
      (r.2 = none → ∃ mods l, discover env w false = .ok mods ∧ setModsEnabled mods w.modList names b = .ok l ∧ r.1.modList = some l) ∧
      (r.2 ≠ none → r.1.modList = w.modList) := by
  have e : main env verbose (if b then .enable names else .disable names) w = setEnabled env names b w := by cases b <;> rfl
  simp only [e]
  obtain ⟨h1, h2, h3⟩ := setEnabled_scope env names b w
  refine ⟨h1, h2, h3, ?_, ?_⟩
  · intro h
    simp only [setEnabled] at h ⊢
    cases hd : discover env w false with
    | error e => simp [hd] at h
    | ok mods =>
      cases hs : setModsEnabled mods w.modList names b with
      | error e => simp [hd, hs] at h
      | ok l => exact ⟨mods, l, rfl, hs, by simp [hs]⟩
  · intro h
    simp only [setEnabled] at h ⊢
    cases hd : discover env w false with
    | error e => rfl
    | ok mods =>
      cases hs : setModsEnabled mods w.modList names b with
      | error e => simp [hs]
      | ok l => simp [hd, hs] at h

/-- Choosing a version of the game changes only which version is checked out, and nothing if it fails; the data stay those of the version before. -/
theorem C111_choose (env : Env γ) (verbose : Bool) (w : World γ) (v : List Char) :
    let r := main env verbose (.factorioVersion (some v)) w
    r.1.modList = w.modList ∧ r.1.version = w.version ∧ r.1.data = w.data ∧ r.1.repo.tags = w.repo.tags ∧ (r.2 ≠ none → r.1 = w) := by
  refine ⟨rfl, rfl, rfl, (C95_tags verbose w.repo v).1, ?_⟩
  intro h
  have h' : (specify verbose w.repo v).2 ≠ none := h
  obtain ⟨e, he⟩ := Option.ne_none_iff_exists'.1 h'
  show { w with repo := (specify verbose w.repo v).1 } = w
  rw [C95_unchanged verbose w.repo v e he]

/-- A successful update writes the version of the game that is checked out and all ten files as they are extracted from it with the mods enabled, and
nothing else. -/
theorem C111_updated (env : Env γ) (verbose noMods : Bool) (w : World γ) (h : (main env verbose (.update noMods) w).2 = none) :
    let s := env.source w.repo.head (isEnabled w.modList) noMods
    let w' := (main env verbose (.update noMods) w).1
    w'.modList = w.modList ∧ w'.repo = w.repo ∧ recorded s.base = .ok w'.version ∧ Written s allTables w.data w'.data := by
  intro s w'
  show w'.modList = _ ∧ _
  simp only [main, update] at h
  simp only [w', main, update]
  cases hd : discover env w noMods with
  | error e => simp [hd] at h
  | ok mods =>
    cases hl : s.lifecycle with
    | some e => simp [hd, s, hl] at h
    | none =>
      cases hv : recorded s.base with
      | error e => simp [s] at hl hv; simp [hd, hl, hv] at h
      | ok v =>
        cases hr : s.raw with
        | some e => simp [s] at hl hv hr; simp [hd, hl, hv, hr] at h
        | none =>
          simp only [s] at hl hv hr
          simp only [hd, hl, hv, hr] at h ⊢
          obtain ⟨a, b, hab, hw, h1, _⟩ := extractData_written s w.data
          have hb := h1 h
          subst hb
          rw [List.append_nil] at hab
          subst hab
          exact ⟨trivial, trivial, trivial, hw⟩

/-- A failed update leaves the mod list and the repository as they are, and the data too, or else it has recorded the version and written some of the
files, from the first on, but not all. -/
theorem C111_failed (env : Env γ) (verbose noMods : Bool) (w : World γ) (h : (main env verbose (.update noMods) w).2 ≠ none) :
    let s := env.source w.repo.head (isEnabled w.modList) noMods
    let w' := (main env verbose (.update noMods) w).1
    w' = w ∨ (w'.modList = w.modList ∧ w'.repo = w.repo ∧ recorded s.base = .ok w'.version ∧
      ∃ a b, allTables = a ++ b ∧ b ≠ [] ∧ Written s a w.data w'.data) := by
  intro s w'
  show w' = w ∨ _
  simp only [main, update] at h
  simp only [w', main, update]
  cases hd : discover env w noMods with
  | error e => exact .inl rfl
  | ok mods =>
    cases hl : s.lifecycle with
    | some e => exact .inl rfl
    | none =>
      cases hv : recorded s.base with
      | error e => exact .inl rfl
      | ok v =>
        cases hr : s.raw with
        | some e =>
          exact .inr ⟨rfl, rfl, rfl, [], allTables, rfl, by decide, by simp [Written]⟩
        | none =>
          simp only [s] at hl hv hr
          simp only [hd, hl, hv, hr] at h ⊢
          obtain ⟨a, b, hab, hw, _, h2⟩ := extractData_written s w.data
          exact .inr ⟨trivial, trivial, trivial, a, b, hab, h2 h, hw⟩

/-- The mods are made for the version of the game with these numbers. -/
def Suits (v : List Int) (l : List Found) : Prop := ∀ f ∈ l, f.name ≠ "base" → f.name ≠ "core" → ModList.tupleLt v f.needs = false

/-- Nothing is wrong with what is checked out: the mods are made for it, and everything can be extracted. -/
structure Sound (env : Env γ) (w : World γ) (noMods : Bool) (v : List Char × List Int) : Prop where
  found : env.broken w.repo.head noMods = none
  suits : Suits v.2 (env.found w.repo.head noMods)
  lifecycle : (env.source w.repo.head (isEnabled w.modList) noMods).lifecycle = none
  version : recorded (env.source w.repo.head (isEnabled w.modList) noMods).base = .ok v
  raw : (env.source w.repo.head (isEnabled w.modList) noMods).raw = none
  items : (env.source w.repo.head (isEnabled w.modList) noMods).items = none
  extract : ∀ f ∈ allTables, ∃ c, (env.source w.repo.head (isEnabled w.modList) noMods).extract f = .ok c

theorem discover_ok {env : Env γ} {w : World γ} {noMods : Bool} (h : env.broken w.repo.head noMods = none)
    (hs : Suits w.version.2 (env.found w.repo.head noMods)) : ∃ l, discover env w noMods = .ok l := by
  simp only [discover, h]
  refine ⟨_, if_neg ?_⟩
  rw [List.any_eq_true]
  rintro ⟨f, hf, hb⟩
  simp only [Bool.and_eq_true, bne_iff_ne, ne_eq] at hb
  rw [hs f hf hb.1.1 hb.1.2] at hb
  exact absurd hb.2 (by simp)

theorem extractEach_ok {s : Source γ} : ∀ (l : List String) (d : String → γ), (∀ f ∈ l, ∃ c, s.extract f = .ok c) → (extractEach s l d).2 = none
  | [], _, _ => rfl
  | f :: r, d, h => by
    obtain ⟨c, hc⟩ := h f (by simp)
    simp only [extractEach, hc]
    exact extractEach_ok r _ fun g hg => h g (List.mem_cons_of_mem _ hg)

/-- An update succeeds if nothing is wrong with what is checked out, and no mod is made for a later version of the game than the one that was
recorded before.  Not proved because it is false: that it succeeds without the latter, see `C111_newer_refuted`. -/
theorem C111_succeeds_partial (env : Env γ) (verbose noMods : Bool) (w : World γ) {v : List Char × List Int} (h : Sound env w noMods v)
    (hs : Suits w.version.2 (env.found w.repo.head noMods)) : (main env verbose (.update noMods) w).2 = none := by
  obtain ⟨l, hl⟩ := discover_ok h.found hs
  obtain ⟨c, hc⟩ := h.extract "mods" (by decide)
  simp only [main, hl, update, h.lifecycle, h.version, h.raw, extractData, hc, h.items]
  exact extractEach_ok tables _ fun f hf => h.extract f (List.mem_cons_of_mem _ hf)

/-- A successful update can be done again, if the mods are made for the version it recorded, and changes nothing the second time. -/
theorem C111_again (env : Env γ) (verbose noMods : Bool) (w : World γ) (h : (main env verbose (.update noMods) w).2 = none)
    (hs : Suits (main env verbose (.update noMods) w).1.version.2 (env.found w.repo.head noMods)) :
    main env verbose (.update noMods) (main env verbose (.update noMods) w).1 = ((main env verbose (.update noMods) w).1, none) := by
  obtain ⟨h1, h2, h3, h4⟩ := C111_updated env verbose noMods w h
  have hb : env.broken w.repo.head noMods = none ∧ (env.source w.repo.head (isEnabled w.modList) noMods).lifecycle = none ∧
      (env.source w.repo.head (isEnabled w.modList) noMods).raw = none ∧ (env.source w.repo.head (isEnabled w.modList) noMods).items = none := by
    simp only [main, discover] at h
    cases hb : env.broken w.repo.head noMods with
    | some e => simp [hb] at h
    | none =>
      simp only [hb] at h
      split at h
      · cases h
      · simp only [update] at h
        cases hl : (env.source w.repo.head (isEnabled w.modList) noMods).lifecycle with
        | some e => simp [hl] at h
        | none =>
          simp only [hl, h3] at h
          cases hr : (env.source w.repo.head (isEnabled w.modList) noMods).raw with
          | some e => simp [hr] at h
          | none =>
            simp only [hr, extractData] at h
            obtain ⟨c, hc, _⟩ := h4.1 "mods" (by decide)
            cases hi : (env.source w.repo.head (isEnabled w.modList) noMods).items with
            | some e => simp [hc, hi] at h
            | none => exact ⟨rfl, rfl, rfl, rfl⟩
  generalize hw : (main env verbose (.update noMods) w).1 = w' at *
  have hsound : Sound env w' noMods w'.version := by
    refine ⟨?_, ?_, ?_, ?_, ?_, ?_, ?_⟩
    · rw [h2]; exact hb.1
    · rw [h2]; exact hs
    · rw [h1, h2]; exact hb.2.1
    · rw [h1, h2]; exact h3
    · rw [h1, h2]; exact hb.2.2.1
    · rw [h1, h2]; exact hb.2.2.2
    · rw [h1, h2]
      intro f hf
      obtain ⟨c, hc, _⟩ := h4.1 f hf
      exact ⟨c, hc⟩
  have h5 := C111_succeeds_partial env verbose noMods w' hsound (by rw [h2]; exact hs)
  obtain ⟨g1, g2, g3, g4⟩ := C111_updated env verbose noMods w' h5
  generalize hw' : (main env verbose (.update noMods) w').1 = w'' at *
  refine Prod.ext ?_ h5
  rw [hw']
  have hd : w''.data = w'.data := by
    funext f
    by_cases hf : f ∈ allTables
    · obtain ⟨c, hc, e⟩ := g4.1 f hf
      obtain ⟨c', hc', e'⟩ := h4.1 f hf
      rw [h1, h2, hc'] at hc
      cases hc
      rw [e, e']
    · exact g4.2 f hf
  have hv : w''.version = w'.version := by
    rw [h1, h2, h3] at g3
    exact (Except.ok.inj g3).symm
  cases w''
  cases w'
  simp only at g1 g2 hd hv
  subst g1 g2 hd hv
  rfl

/-- What stands in a file was there at first, or was extracted at an update: from a version that was checked out, with some mods enabled. -/
theorem C111_history (env : Env γ) (verbose : Bool) (cs : List Cmd) (w : World γ) (f : String) :
    (mainAll env verbose cs w).data f = w.data f ∨
      ∃ a b noMods, cs = a ++ .update noMods :: b ∧
        (env.source (mainAll env verbose a w).repo.head (isEnabled (mainAll env verbose a w).modList) noMods).extract f =
          .ok ((mainAll env verbose cs w).data f) := by
  induction cs generalizing w with
  | nil => exact .inl rfl
  | cons c r ih =>
    rcases ih (main env verbose c w).1 with h | ⟨a, b, n, hr, h⟩
    · by_cases hc : (main env verbose c w).1.data f = w.data f
      · exact .inl (h.trans hc)
      · right
        cases c with
        | update noMods =>
          refine ⟨[], r, noMods, rfl, ?_⟩
          show (env.source w.repo.head (isEnabled w.modList) noMods).extract f = .ok ((mainAll env verbose r (main env verbose (.update noMods) w).1).data f)
          rw [h]
          cases he : (main env verbose (.update noMods) w).2 with
          | none =>
            obtain ⟨_, _, _, h4⟩ := C111_updated env verbose noMods w he
            by_cases hf : f ∈ allTables
            · obtain ⟨c, hc, e⟩ := h4.1 f hf
              rw [e, hc]
            · exact absurd (h4.2 f hf) hc
          | some e =>
            rcases C111_failed env verbose noMods w (by rw [he]; simp) with h4 | ⟨_, _, _, a, b, _, _, h4⟩
            · rw [h4] at hc
              exact absurd rfl hc
            · by_cases hf : f ∈ a
              · obtain ⟨c, hc, e⟩ := h4.1 f hf
                rw [e, hc]
              · exact absurd (h4.2 f hf) hc
        | enable names => exact absurd (congrFun (setEnabled_scope env names true w).2.2 f) hc
        | disable names => exact absurd (congrFun (setEnabled_scope env names false w).2.2 f) hc
        | help => exact absurd rfl hc
        | version => exact absurd rfl hc
        | factorioVersion v =>
          cases v with
          | none => exact absurd (by rw [C111_reports env verbose w (.factorioVersion none) (by simp)]) hc
          | some v => exact absurd rfl hc
        | list => exact absurd (by rw [C111_reports env verbose w .list (by simp)]) hc
        | modSettings => exact absurd rfl hc
    · right
      exact ⟨c :: a, b, n, by rw [hr]; rfl, h⟩

/-! ### Where it fails -/

/-- A repository with two versions of the game, the first one checked out and its data extracted; a mod comes with it. -/
def repo2 : Repo := ⟨true, [⟨"2.0.28".toList, 1, 10⟩, ⟨"2.1.0".toList, 2, 20⟩], 1⟩

/-- The mods and data of the two versions; every file holds the number of the version. -/
def env2 : Env Nat where
  found := fun h _ => [⟨"core", []⟩, ⟨"base", []⟩, ⟨"quality", if h = 1 then [2, 0] else [2, 1]⟩]
  broken := fun _ _ => none
  settings := none
  source := fun h _ _ => ⟨none, if h = 1 then "2.0.28".toList else "2.1.0".toList, none, none, fun _ => .ok h⟩

/-- The data of the first version. -/
def world2 : World Nat := ⟨none, repo2, ("2.0.28.0".toList, [2, 0, 28, 0]), fun _ => 1⟩

/-- The update succeeds with the first version, and the second one can be checked out. -/
example : (main env2 false (.update false) world2).2 = none ∧ (main env2 false (.factorioVersion (some "2.1".toList)) world2).2 = none ∧
    (main env2 false (.factorioVersion (some "2.1".toList)) world2).1.repo.head = 2 := by decide +kernel

/-- With the second version checked out, nothing is wrong with it. -/
theorem world2_sound : Sound env2 { world2 with repo := { repo2 with head := 2 } } false ("2.1.0.0".toList, [2, 1, 0, 0]) :=
  ⟨rfl, by unfold Suits; decide +kernel, rfl, by decide +kernel, rfl, rfl, fun _ _ => ⟨2, rfl⟩⟩

/-- Not proved because it is false: that an update succeeds if nothing is wrong with what is checked out.  The mods, also those that come with the game, are
compared with the version recorded before; so after a later version of the game has been checked out there is no way to get its data. -/
theorem C111_newer_refuted : ¬ ∀ (env : Env Nat) (verbose noMods : Bool) (w : World Nat) (v : List Char × List Int), Sound env w noMods v →
    (main env verbose (.update noMods) w).2 = none := by
  intro h
  have := h env2 false false { world2 with repo := { repo2 with head := 2 } } _ world2_sound
  revert this
  decide +kernel

/-- As before, but the tiles of the second version cannot be extracted, and its mods are not looked at. -/
def env3 : Env Nat :=
  { env2 with
    found := fun _ _ => []
    source := fun h _ _ => ⟨none, if h = 1 then "2.0.28".toList else "2.1.0".toList, none, none, fun f => if h = 2 ∧ f = "tiles" then .error .keyError else .ok h⟩ }

/-- Not proved because it is false: that a failed update changes nothing.  The version is recorded first, and every file is written as soon as it is
extracted, so that afterwards some data are those of one version and some those of another. -/
theorem C111_mixed_refuted : ¬ ∀ (env : Env Nat) (verbose noMods : Bool) (w : World Nat), (main env verbose (.update noMods) w).2 ≠ none →
    (main env verbose (.update noMods) w).1.version = w.version ∧ (main env verbose (.update noMods) w).1.data = w.data := by
  intro h
  have h1 := h env3 false false { world2 with repo := { repo2 with head := 2 } } (by decide +kernel)
  have h2 := congrFun h1.2 "signals"
  revert h2
  decide +kernel

end Command
end Draftsman
