import Verif.Model.Signals
import Verif.Props.GameData
import Verif.Props.GameItems
import Verif.Props.EntTypes
import Mathlib.Data.List.Dedup

/-!
C83: the tables of signals, fluids, modules, fuels and tiles hold what the game's data has.
-/
namespace Draftsman
namespace Signals
open GameData

/-! ### What is claimed of signals -/

/-- The kinds of prototypes of entities that the game knows besides those that can be in a blueprint. -/
def otherEntities : List String := [
  "arrow", "artillery-flare", "artillery-projectile", "asteroid", "beam", "capture-robot", "cargo-pod", "character", "character-corpse",
  "cliff", "combat-robot", "construction-robot", "corpse", "deconstructible-tile-proxy", "entity-ghost", "explosion", "fire", "fish",
  "highlight-box", "item-entity", "item-request-proxy", "lane-splitter", "lightning", "logistic-robot", "particle-source", "plant",
  "projectile", "rail-remnants", "resource", "rocket-silo-rocket", "rocket-silo-rocket-shadow", "segment", "segmented-unit", "simple-entity",
  "smoke-with-trigger", "speech-bubble", "spider-leg", "spider-unit", "sticker", "stream", "temporary-container", "tile-ghost", "tree",
  "unit", "unit-spawner"]

/-- The prototypes of category `c` are signals of type `t`. -/
inductive Gives : String → String → Prop
  | virtual : Gives "virtual-signal" "virtual"
  | item (c : String) : c ∈ getItemsCats → Gives c "item"
  | tool (c : String) : c ∈ ["selection-tool", "copy-paste-tool", "space-platform-starter-pack"] → Gives c "item"
  | fluid : Gives "fluid" "fluid"
  | recipe : Gives "recipe" "recipe"
  | entity (c : String) : c ∈ "logistic-container" :: EntTypes.plain → Gives c "entity"
  | otherEntity (c : String) : c ∈ otherEntities → Gives c "entity"
  | planet : Gives "planet" "space-location"
  | location : Gives "space-location" "space-location"
  | chunk : Gives "asteroid-chunk" "asteroid-chunk"
  | quality : Gives "quality" "quality"

/-- The data has a prototype of that name that is a signal of that type. -/
def Has (data : Raw) (t : String) (n : Str) (o : Obj) : Prop := ∃ c ps, Gives c t ∧ data.get? c = some ps ∧ (n, o) ∈ ps

/-- Every prototype is stored under its name. -/
def Named (data : Raw) : Prop := ∀ c ps, data.get? c = some ps → ∀ p ∈ ps, p.2.name = p.1

/-- The list is in the order of the game. -/
def Ordered (T : Tuple) (os : List Obj) : Prop :=
  os.Pairwise fun a b => ∀ ra rb, Ranked T.items T.subs T.grps a ra → Ranked T.items T.subs T.grps b rb → ¬ Earlier rb ra

/-! ### Lemmas -/

theorem table_gives {c t : String} : (c, t) ∈ table ↔ Gives c t := by
  constructor
  · have h : ∀ x ∈ table, x = ("virtual-signal", "virtual") ∨ (x.1 ∈ getItemsCats ∧ x.2 = "item") ∨
        (x.1 ∈ ["selection-tool", "copy-paste-tool", "space-platform-starter-pack"] ∧ x.2 = "item") ∨ x = ("fluid", "fluid") ∨
        x = ("recipe", "recipe") ∨ (x.1 ∈ "logistic-container" :: EntTypes.plain ∧ x.2 = "entity") ∨ (x.1 ∈ otherEntities ∧ x.2 = "entity") ∨
        x = ("planet", "space-location") ∨ x = ("space-location", "space-location") ∨ x = ("asteroid-chunk", "asteroid-chunk") ∨
        x = ("quality", "quality") := by decide +kernel
    intro hx
    rcases h _ hx with h | ⟨h, rfl⟩ | ⟨h, rfl⟩ | h | h | ⟨h, rfl⟩ | ⟨h, rfl⟩ | h | h | h | h
    · cases h; exact .virtual
    · exact .item _ h
    · exact .tool _ h
    · cases h; exact .fluid
    · cases h; exact .recipe
    · exact .entity _ h
    · exact .otherEntity _ h
    · cases h; exact .planet
    · cases h; exact .location
    · cases h; exact .chunk
    · cases h; exact .quality
  · intro h
    cases h with
    | virtual => decide +kernel
    | item _ h => have : ∀ c ∈ getItemsCats, (c, "item") ∈ table := by decide +kernel
                  exact this c h
    | tool _ h =>
      have : ∀ c ∈ ["selection-tool", "copy-paste-tool", "space-platform-starter-pack"], (c, "item") ∈ table := by decide +kernel
      exact this c h
    | fluid => decide +kernel
    | recipe => decide +kernel
    | entity _ h => have : ∀ c ∈ "logistic-container" :: EntTypes.plain, (c, "entity") ∈ table := by decide +kernel
                    exact this c h
    | otherEntity _ h => have : ∀ c ∈ otherEntities, (c, "entity") ∈ table := by decide +kernel
                         exact this c h
    | planet => decide +kernel
    | location => decide +kernel
    | chunk => decide +kernel
    | quality => decide +kernel

/-- All prototypes that are signals, with their types, in the order of the table. -/
def entries (data : Raw) : List (String × Str × Obj) := table.flatMap fun c => ((data.get? c.1).getD []).map fun p => (c.2, p)

theorem mem_entries {data : Raw} {t : String} {n : Str} {o : Obj} : (t, n, o) ∈ entries data ↔ Has data t n o := by
  simp only [entries, List.mem_flatMap, List.mem_map, Prod.exists, Has]
  constructor
  · rintro ⟨c, t', h, n', o', ho, he⟩
    cases he
    cases hd : data.get? c with
    | none => simp [hd] at ho
    | some ps => exact ⟨c, ps, table_gives.mp h, hd, by simpa [hd] using ho⟩
  · rintro ⟨c, ps, h1, h2, h3⟩
    exact ⟨c, t, table_gives.mpr h1, n, o, by simpa [h2] using h3, rfl⟩

theorem collect_entries (data : Raw) : collect data = (entries data).foldl (fun s e => addOne e.1 s e.2) ⟨[], [], fun _ => []⟩ := by
  unfold collect entries
  generalize (⟨[], [], fun _ => []⟩ : State) = s
  induction table generalizing s with
  | nil => rfl
  | cons c l ih =>
    rw [List.foldl_cons, ih, List.flatMap_cons, List.foldl_append]
    congr 1
    unfold addSignals
    cases data.get? c.1 with
    | none => rfl
    | some ps => simp [List.foldl_map]

theorem addOne_typeOf {t : String} {s : State} {p : Str × Obj} {n : Str} {t' : String} :
    (∃ l, (addOne t s p).typeOf.get? n = some l ∧ t' ∈ l) ↔ (∃ l, s.typeOf.get? n = some l ∧ t' ∈ l) ∨ n = p.1 ∧ t' = t := by
  simp only [addOne]
  cases h : s.typeOf.get? p.1 with
  | none =>
    simp only [Dict.get?_set]
    by_cases hn : p.1 = n
    · subst hn; simp [h]
    · simp [hn, Ne.symm hn]
  | some l =>
    simp only [Dict.get?_set]
    by_cases hn : p.1 = n
    · subst hn
      by_cases ht : t ∈ l
      · simp only [if_pos ht, if_true, Option.some.injEq, exists_eq_left', h]
        exact ⟨.inl, fun h' => h'.elim id fun ⟨_, e⟩ => e ▸ ht⟩
      · simp [ht, h]
    · simp [hn, Ne.symm hn]

theorem foldl_spec : ∀ (es : List (String × Str × Obj)) (s : State), s.raw.keys = s.typeOf.keys → s.raw.keys.Nodup →
    (∀ n l, s.typeOf.get? n = some l → l.Nodup) →
    let s' := es.foldl (fun s e => addOne e.1 s e.2) s
    s'.raw.keys = s'.typeOf.keys ∧ s'.raw.keys.Nodup ∧ (∀ n l, s'.typeOf.get? n = some l → l.Nodup) ∧
    (∀ t, s'.lists t = s.lists t ++ (es.filter (·.1 = t)).map (·.2.2)) ∧
    (∀ n t, (∃ l, s'.typeOf.get? n = some l ∧ t ∈ l) ↔ (∃ l, s.typeOf.get? n = some l ∧ t ∈ l) ∨ ∃ o, (t, n, o) ∈ es) ∧
    (∀ n o, s'.raw.get? n = some o → (s.raw.get? n = some o ∧ ∀ e ∈ es, e.2.1 ≠ n) ∨
      ∃ pre t post, es = pre ++ (t, n, o) :: post ∧ ∀ e ∈ post, e.2.1 ≠ n) ∧
    (∀ n, (s'.raw.get? n).isSome ↔ (s.raw.get? n).isSome ∨ ∃ t o, (t, n, o) ∈ es) := by
  intro es
  induction es with
  | nil => intro s h1 h2 h3; exact ⟨h1, h2, h3, by simp, by simp, fun n o h => .inl ⟨h, by simp⟩, by simp⟩
  | cons e es ih =>
    intro s h1 h2 h3
    obtain ⟨t, n, o⟩ := e
    have k1 : (addOne t s (n, o)).raw.keys = (addOne t s (n, o)).typeOf.keys := by
      simp only [addOne]
      cases h : s.typeOf.get? n <;> simp only [Dict.keys_set, h1] <;> by_cases hm : n ∈ s.typeOf.keys <;> simp only [hm, if_true, if_false]
    have k2 : (addOne t s (n, o)).raw.keys.Nodup := Dict.nodup_set h2 _ _
    have k3 : ∀ m l, (addOne t s (n, o)).typeOf.get? m = some l → l.Nodup := by
      intro m l
      simp only [addOne]
      cases h : s.typeOf.get? n with
      | none =>
        simp only [Dict.get?_set]
        split
        · intro h; cases h; simp
        · exact h3 m l
      | some l' =>
        simp only [Dict.get?_set]
        split
        · intro e
          cases e
          have := h3 n l' h
          split
          · exact this
          · rename_i ht
            rw [List.nodup_append]
            exact ⟨this, by simp, fun a ha b hb => by simp at hb; subst hb; exact fun e => ht (e ▸ ha)⟩
        · exact h3 m l
    obtain ⟨g1, g2, g3, g4, g5, g6, g7⟩ := ih (addOne t s (n, o)) k1 k2 k3
    refine ⟨g1, g2, g3, fun t' => ?_, fun m t' => ?_, fun m x h => ?_, fun m => ?_⟩
    · rw [List.foldl_cons, g4]
      simp only [addOne, List.filter_cons]
      by_cases ht : t = t'
      · subst ht; simp
      · simp [ht, Ne.symm ht]
    · rw [List.foldl_cons, g5, addOne_typeOf]
      simp only [List.mem_cons, Prod.mk.injEq]
      constructor
      · rintro ((h | ⟨rfl, rfl⟩) | ⟨o', h⟩)
        · exact .inl h
        · exact .inr ⟨o, .inl ⟨rfl, rfl, rfl⟩⟩
        · exact .inr ⟨o', .inr h⟩
      · rintro (h | ⟨o', ⟨rfl, rfl, rfl⟩ | h⟩)
        · exact .inl (.inl h)
        · exact .inl (.inr ⟨rfl, rfl⟩)
        · exact .inr ⟨o', h⟩
    · rw [List.foldl_cons] at h
      rcases g6 m x h with ⟨h0, h'⟩ | ⟨pre, t', post, rfl, h1'⟩
      · simp only [addOne, Dict.get?_set] at h0
        clear h
        split at h0
        · rename_i hn; subst hn; cases h0; exact .inr ⟨[], t, es, rfl, h'⟩
        · rename_i hn; exact .inl ⟨h0, fun e he => by
            rcases List.mem_cons.mp he with rfl | he
            · exact hn
            · exact h' e he⟩
      · exact .inr ⟨(t, n, o) :: pre, t', post, rfl, h1'⟩
    · rw [List.foldl_cons, g7]
      simp only [addOne, Dict.get?_set, List.mem_cons, Prod.mk.injEq]
      constructor
      · rintro (h | ⟨t', o', h⟩)
        · split at h
          · rename_i hn; subst hn; exact .inr ⟨t, o, .inl ⟨rfl, rfl, rfl⟩⟩
          · exact .inl h
        · exact .inr ⟨t', o', .inr h⟩
      · rintro (h | ⟨t', o', ⟨rfl, rfl, rfl⟩ | h⟩)
        · left; split
          · simp
          · exact h
        · left; simp
        · exact .inr ⟨t', o', h⟩

theorem reorder_ok {α : Type} {d : Dict Str α} : ∀ {names : List Str} {out : Dict Str α}, reorder d names = .ok out →
    (∀ n ∈ names, (d.get? n).isSome) ∧ (∀ n, out.get? n = if n ∈ names then d.get? n else none) ∧ out.keys.Sublist names ∧ out.keys.Nodup := by
  have gen : ∀ (names : List Str) (acc out : Dict Str α), acc.keys.Nodup → names.foldlM (fun out n => match d.get? n with
      | none => Except.error PyErr.keyError
      | some x => .ok (out.set n x)) acc = .ok out →
      (∀ n ∈ names, (d.get? n).isSome) ∧ (∀ n, out.get? n = if n ∈ names then d.get? n else acc.get? n) ∧
      (∃ l, l.Sublist names ∧ out.keys = acc.keys ++ l) ∧ out.keys.Nodup := by
    intro names
    induction names with
    | nil => intro acc out hn h; simp only [List.foldlM_nil] at h; cases h; exact ⟨by simp, by simp, ⟨[], by simp, by simp⟩, hn⟩
    | cons a l ih =>
      intro acc out hn h
      rw [List.foldlM_cons] at h
      cases ha : d.get? a with
      | none => rw [ha] at h; cases h
      | some x =>
        rw [ha] at h
        obtain ⟨h1, h2, ⟨l', h3, h4⟩, h5⟩ := ih _ out (Dict.nodup_set hn a x) h
        refine ⟨?_, fun n => ?_, ?_, h5⟩
        · intro n hn
          rcases List.mem_cons.mp hn with rfl | hn
          · simp [ha]
          · exact h1 n hn
        · rw [h2]
          by_cases hl : n ∈ l
          · simp [hl]
          · by_cases hna : n = a
            · subst hna; simp [hl, Dict.get?_set, ha]
            · simp [hl, hna, Dict.get?_set, Ne.symm hna]
        · rw [Dict.keys_set] at h4
          split at h4
          · exact ⟨l', h3.cons _, h4⟩
          · exact ⟨a :: l', h3.cons_cons _, by rw [h4]; simp⟩
  intro names out h
  obtain ⟨h1, h2, ⟨l, h3, h4⟩, h5⟩ := gen names [] out (by simp) h
  refine ⟨h1, fun n => by rw [h2]; rfl, ?_, h5⟩
  rw [h4]
  simpa using h3

theorem reorder_works {α : Type} {d : Dict Str α} {names : List Str} (h : ∀ n ∈ names, (d.get? n).isSome) : ∃ out, reorder d names = .ok out := by
  unfold reorder
  generalize ([] : Dict Str α) = acc
  induction names generalizing acc with
  | nil => exact ⟨acc, rfl⟩
  | cons a l ih =>
    rw [List.foldlM_cons]
    obtain ⟨x, hx⟩ := Option.isSome_iff_exists.mp (h a (by simp))
    rw [hx]
    exact ih (fun n hn => h n (by simp [hn])) _

theorem reorder_error {α : Type} {d : Dict Str α} {names : List Str} {n : Str} (hn : n ∈ names) (h : d.get? n = none) :
    reorder d names = .error .keyError := by
  unfold reorder
  generalize ([] : Dict Str α) = acc
  induction names generalizing acc with
  | nil => simp at hn
  | cons a l ih =>
    rw [List.foldlM_cons]
    cases ha : d.get? a with
    | none => rfl
    | some x =>
      rcases List.mem_cons.mp hn with rfl | hn
      · rw [h] at ha; cases ha
      · exact ih hn _

/-- The dictionary is that one, put into order. -/
theorem reorder_perm {α : Type} {d : Dict Str α} (hd : d.keys.Nodup) {names : List Str} (hn : names.Perm d.keys) {out : Dict Str α}
    (h : reorder d names = .ok out) : out.keys = names ∧ out.Perm d := by
  obtain ⟨-, h2, h3, h4⟩ := reorder_ok h
  have hk : out.keys = names := by
    refine h3.eq_of_length_le ?_
    have : names ⊆ out.keys := by
      intro n hn'
      have h5 := h2 n
      rw [if_pos hn'] at h5
      rw [← Dict.get?_isSome, h5, Dict.get?_isSome]
      exact hn.subset hn'
    exact (List.subperm_of_subset (hn.nodup_iff.mpr hd) this).length_le
  refine ⟨hk, (List.perm_ext_iff_of_nodup (List.Nodup.of_map Prod.fst h4) (List.Nodup.of_map Prod.fst hd)).mpr fun e => ?_⟩
  constructor
  · intro he
    have := Dict.get?_of_mem h4 he
    rw [h2] at this
    split at this
    · exact Dict.mem_of_get? this
    · cases this
  · intro he
    have := Dict.get?_of_mem hd he
    refine Dict.mem_of_get? ?_
    rw [h2, if_pos (hn.symm.subset (List.mem_map.mpr ⟨e, he, rfl⟩)), this]

/-- What a successful extraction has done. -/
theorem extract_ok {T : Tuple} {data : Raw} {t : Tables} (h : extract T data = .ok t) :
    t.typeOf = (collect data).typeOf ∧ ∃ all, order T (types.flatMap (collect data).lists) = .ok all ∧
      reorder (collect data).raw all = .ok t.raw ∧
      (types.mapM fun ty => (order T ((collect data).lists ty)).map fun l => (ty, l)) = .ok t.lists := by
  unfold extract at h
  cases ha : order T (types.flatMap (collect data).lists) with
  | error e => simp only [ha, bind, Except.bind] at h; cases h
  | ok all =>
    simp only [ha, bind, Except.bind] at h
    cases hl : (types.mapM fun ty => (order T ((collect data).lists ty)).map fun l => (ty, l)) with
    | error e => simp only [hl] at h; cases h
    | ok ls =>
      simp only [hl] at h
      cases hr : reorder (collect data).raw all with
      | error e => simp only [hr] at h; cases h
      | ok raw => simp only [hr] at h; cases h; exact ⟨rfl, all, rfl, hr, rfl⟩

theorem collect_spec (data : Raw) :
    let s := collect data
    s.raw.keys = s.typeOf.keys ∧ s.raw.keys.Nodup ∧ (∀ n l, s.typeOf.get? n = some l → l.Nodup) ∧
    (∀ t, s.lists t = ((entries data).filter (·.1 = t)).map (·.2.2)) ∧
    (∀ n t, (∃ l, s.typeOf.get? n = some l ∧ t ∈ l) ↔ ∃ o, Has data t n o) ∧
    (∀ n o, s.raw.get? n = some o → ∃ pre t post, entries data = pre ++ (t, n, o) :: post ∧ ∀ e ∈ post, e.2.1 ≠ n) ∧
    (∀ n, (s.raw.get? n).isSome ↔ ∃ t o, Has data t n o) := by
  obtain ⟨h1, h2, h3, h4, h5, h6, h7⟩ := foldl_spec (entries data) ⟨[], [], fun _ => []⟩ rfl (by simp) (by simp)
  rw [collect_entries]
  refine ⟨h1, h2, h3, fun t => by rw [h4]; rfl, fun n t => ?_, fun n o h => ?_, fun n => ?_⟩
  · rw [h5]; simp [mem_entries]
  · rcases h6 n o h with ⟨h, -⟩ | h
    · simp at h
    · exact h
  · rw [h7]; simp [mem_entries]

theorem gives_type {c t : String} (h : Gives c t) : t ∈ types := by
  cases h <;> decide

/-! ### Signals -/

/-- The types of a signal are exactly those of the categories in which the data has its name, without repetitions; a name in none of them is
not in the table. -/
theorem C83_types {T : Tuple} {data : Raw} {t : Tables} (h : extract T data = .ok t) (n : Str) :
    (∀ ty, (∃ l, signalTypes t n = some l ∧ ty ∈ l) ↔ ∃ o, Has data ty n o) ∧
    (∀ l, signalTypes t n = some l → l.Nodup ∧ l ≠ []) := by
  obtain ⟨h1, -⟩ := extract_ok h
  obtain ⟨k1, -, k3, -, k5, -, k7⟩ := collect_spec data
  rw [signalTypes, h1]
  refine ⟨k5 n, fun l hl => ⟨k3 n l hl, ?_⟩⟩
  rintro rfl
  have : (((collect data).raw.get? n).isSome) := by
    rw [Dict.get?_isSome, k1, ← Dict.get?_isSome, hl]; rfl
  obtain ⟨ty, o, ho⟩ := (k7 n).mp this
  obtain ⟨l, hl', hm⟩ := (k5 n ty).mpr ⟨o, ho⟩
  rw [hl] at hl'
  cases hl'
  simp at hm

theorem gives_nodup : ∀ ty ∈ types, (((table.filter (·.2 = ty)).map (·.1))).Nodup := by decide +kernel

theorem entries_filter (data : Raw) (ty : String) : (entries data).filter (·.1 = ty) =
    ((table.filter (·.2 = ty)).map (·.1)).flatMap fun c => ((data.get? c).getD []).map fun p => (ty, p) := by
  unfold entries
  induction table with
  | nil => rfl
  | cons c l ih =>
    rw [List.flatMap_cons, List.filter_append, ih]
    by_cases hc : c.2 = ty
    · subst hc; simp [List.filter_map, Function.comp_def]
    · simp [hc, List.filter_map, Function.comp_def]

/-- Each of the eight lists has the names of exactly the prototypes of its type, as often as there are any, in the order of the game. -/
theorem C83_lists {T : Tuple} {data : Raw} {t : Tables} (h : extract T data = .ok t) {ty : String} (hty : ty ∈ types) :
    ∃ os : List Obj, t.lists.get? ty = some (os.map Obj.name) ∧ Ordered T os ∧ (∀ o, o ∈ os ↔ ∃ n, Has data ty n o) ∧
      ∀ cs : List String, cs.Nodup → (∀ c, c ∈ cs ↔ Gives c ty) → os.Perm (cs.flatMap fun c => ((data.get? c).getD []).map (·.2)) := by
  obtain ⟨-, all, -, -, hl⟩ := extract_ok h
  obtain ⟨-, -, -, k4, -⟩ := collect_spec data
  have hget : ∀ (ts : List String) (ls : Dict String (List Str)), (ts.mapM fun ty => (order T ((collect data).lists ty)).map fun l => (ty, l)) = .ok ls →
      ty ∈ ts → ∃ L, order T ((collect data).lists ty) = .ok L ∧ ls.get? ty = some L := by
    intro ts
    induction ts with
    | nil => intro ls _ h; simp at h
    | cons a ts ih =>
      intro ls h hm
      rw [List.mapM_cons] at h
      cases ha : order T ((collect data).lists a) with
      | error e => rw [ha] at h; cases h
      | ok L =>
        rw [ha] at h
        simp only [Except.map, bind, Except.bind] at h
        cases hr : (ts.mapM fun ty => (order T ((collect data).lists ty)).map fun l => (ty, l)) with
        | error e => simp only [Except.map] at hr; rw [hr] at h; cases h
        | ok r =>
          have hr' := hr
          simp only [Except.map] at hr'
          rw [hr'] at h
          cases h
          by_cases he : ty = a
          · subst he; exact ⟨L, ha, by simp [Dict.get?]⟩
          · obtain ⟨L', g1, g2⟩ := ih r hr (by simpa [he] using hm)
            exact ⟨L', g1, by simp [Dict.get?, Ne.symm he] at g2 ⊢; exact g2⟩
  obtain ⟨L, h1, h2⟩ := hget types t.lists hl hty
  obtain ⟨os, g1, g2, g3⟩ := C73_sorted h1
  refine ⟨os, by rw [h2, g2], g3, fun o => ?_, fun cs hn hc => ?_⟩
  · rw [g1.mem_iff, k4]
    simp only [List.mem_map, List.mem_filter, Prod.exists, decide_eq_true_eq]
    constructor
    · rintro ⟨t', n, o', ⟨hm, rfl⟩, rfl⟩; exact ⟨n, mem_entries.mp hm⟩
    · rintro ⟨n, hn⟩; exact ⟨ty, n, o, ⟨mem_entries.mpr hn, rfl⟩, rfl⟩
  · rw [k4, entries_filter, List.map_flatMap] at g1
    simp only [List.map_map, Function.comp_def] at g1
    refine g1.trans (List.Perm.flatMap_right _ ((List.perm_ext_iff_of_nodup (gives_nodup ty hty) hn).mpr fun c => ?_))
    rw [hc, ← table_gives]
    simp only [List.mem_map, List.mem_filter, Prod.exists, decide_eq_true_eq]
    constructor
    · rintro ⟨c', t', ⟨hm, rfl⟩, rfl⟩; exact hm
    · intro hm; exact ⟨c, ty, ⟨hm, rfl⟩, rfl⟩

theorem mem_lists {data : Raw} {o : Obj} : o ∈ types.flatMap (collect data).lists ↔ ∃ ty n, Has data ty n o := by
  obtain ⟨-, -, -, k4, -⟩ := collect_spec data
  simp only [List.mem_flatMap, k4, List.mem_map, List.mem_filter, Prod.exists, decide_eq_true_eq]
  constructor
  · rintro ⟨ty, -, t', n, o', ⟨hm, rfl⟩, rfl⟩; exact ⟨t', n, mem_entries.mp hm⟩
  · rintro ⟨ty, n, hn⟩
    obtain ⟨c, ps, hc, -⟩ := id hn
    exact ⟨ty, gives_type hc, ty, n, o, ⟨mem_entries.mpr hn, rfl⟩, rfl⟩

theorem has_name {data : Raw} (hN : Named data) {ty : String} {n : Str} {o : Obj} (h : Has data ty n o) : o.name = n := by
  obtain ⟨c, ps, -, h1, h2⟩ := h
  exact hN c ps h1 _ h2

theorem table_sorted : table.Pairwise fun a b => types.idxOf a.2 ≤ types.idxOf b.2 := by
  have : (table.map fun a => types.idxOf a.2).Pairwise (· ≤ ·) := by decide +kernel
  exact List.pairwise_map.mp this

theorem entries_sorted (data : Raw) : (entries data).Pairwise fun a b => types.idxOf a.1 ≤ types.idxOf b.1 := by
  unfold entries
  rw [List.pairwise_flatMap]
  refine ⟨fun c _ => ?_, table_sorted.imp ?_⟩
  · rw [List.pairwise_map]; exact List.pairwise_of_forall (fun _ _ => le_refl _)
  · intro a b hab x hx y hy
    simp only [List.mem_map] at hx hy
    obtain ⟨_, _, rfl⟩ := hx
    obtain ⟨_, _, rfl⟩ := hy
    exact hab

/-- The raw signals have exactly the names of the prototypes that are signals of any type, each once and in the order of the game; under a name there is the
prototype of the last of its types, where the types come as virtual, item, fluid, recipe, entity, location, chunk and quality. -/
theorem C83_raw {T : Tuple} {data : Raw} (hN : Named data) {t : Tables} (h : extract T data = .ok t) :
    (∀ n, (t.raw.get? n).isSome ↔ ∃ ty o, Has data ty n o) ∧
    (∀ n o, t.raw.get? n = some o → ∃ ty, Has data ty n o ∧ ∀ ty' o', Has data ty' n o' →
      ["virtual", "item", "fluid", "recipe", "entity", "space-location", "asteroid-chunk", "quality"].idxOf ty' ≤
      ["virtual", "item", "fluid", "recipe", "entity", "space-location", "asteroid-chunk", "quality"].idxOf ty) ∧
    t.raw.keys.Nodup ∧
    ∃ os : List Obj, Ordered T os ∧ (∀ o, o ∈ os ↔ ∃ ty n, Has data ty n o) ∧ t.raw.keys.Sublist (os.map Obj.name) := by
  obtain ⟨-, all, ha, hr, -⟩ := extract_ok h
  obtain ⟨k1, k2, -, k4, k5, k6, k7⟩ := collect_spec data
  obtain ⟨os, g1, rfl, g3⟩ := C73_sorted ha
  obtain ⟨r1, r2, r3, r4⟩ := reorder_ok hr
  have hmem : ∀ n, n ∈ os.map Obj.name ↔ ∃ ty o, Has data ty n o := by
    intro n
    simp only [List.mem_map, g1.mem_iff, mem_lists]
    constructor
    · rintro ⟨o, ⟨ty, m, ho⟩, rfl⟩
      have := has_name hN ho
      subst this
      exact ⟨ty, o, ho⟩
    · rintro ⟨ty, o, ho⟩; exact ⟨o, ⟨ty, n, ho⟩, has_name hN ho⟩
  refine ⟨fun n => ?_, fun n o ho => ?_, r4, os, g3, fun o => by rw [g1.mem_iff, mem_lists], r3⟩
  · rw [r2]
    by_cases hn : n ∈ os.map Obj.name
    · rw [if_pos hn, ← hmem n]; exact ⟨fun _ => hn, fun _ => r1 n hn⟩
    · rw [if_neg hn, ← hmem n]; simp [hn]
  · rw [r2] at ho
    split at ho
    · obtain ⟨pre, ty, post, he, hp⟩ := k6 n o ho
      refine ⟨ty, mem_entries.mp (by rw [he]; simp), fun ty' o' h' => ?_⟩
      have hs := entries_sorted data
      have h' := mem_entries.mpr h'
      rw [he] at hs h'
      rw [List.pairwise_append] at hs
      rcases List.mem_append.mp h' with hm | hm
      · exact hs.2.2 _ hm (ty, n, o) (by simp)
      · rcases List.mem_cons.mp hm with hm | hm
        · cases hm; exact le_refl _
        · exact absurd rfl (hp _ hm)
    · cases ho

/-- The extraction works exactly if every prototype that is a signal has its place in the order of the game; otherwise it raises a `KeyError`. -/
theorem C83_works (T : Tuple) {data : Raw} (hN : Named data) :
    ((∃ t, extract T data = .ok t) ↔ ∀ ty n o, Has data ty n o → ∃ r, Ranked T.items T.subs T.grps o r) ∧
    ((∃ t, extract T data = .ok t) ∨ extract T data = .error .keyError) := by
  obtain ⟨w1, w2⟩ := C73_works_partial T.items T.subs T.grps (types.flatMap (collect data).lists)
  obtain ⟨-, -, -, -, -, -, k7⟩ := collect_spec data
  by_cases hall : ∀ ty n o, Has data ty n o → ∃ r, Ranked T.items T.subs T.grps o r
  · obtain ⟨all, ha⟩ := w1.mpr fun o ho => by obtain ⟨ty, n, ho⟩ := mem_lists.mp ho; exact hall ty n o ho
    have hl : ∃ ls, (types.mapM fun ty => (order T ((collect data).lists ty)).map fun l => (ty, l)) = .ok ls := by
      have : ∀ ts : List String, ts ⊆ types → ∃ ls, (ts.mapM fun ty => (order T ((collect data).lists ty)).map fun l => (ty, l)) = .ok ls := by
        intro ts
        induction ts with
        | nil => intro _; exact ⟨[], rfl⟩
        | cons a ts ih =>
          intro hs
          obtain ⟨ls, hls⟩ := ih fun x hx => hs (by simp [hx])
          obtain ⟨L, hL⟩ := (C73_works_partial T.items T.subs T.grps ((collect data).lists a)).1.mpr fun o ho => by
            obtain ⟨ty, n, ho⟩ := mem_lists.mp (List.mem_flatMap.mpr ⟨a, hs (by simp), ho⟩)
            exact hall ty n o ho
          have hL' : order T ((collect data).lists a) = .ok L := hL
          refine ⟨(a, L) :: ls, ?_⟩
          rw [List.mapM_cons, hL', hls]
          rfl
      exact this types (List.Subset.refl _)
    obtain ⟨ls, hl⟩ := hl
    have ha' : order T (types.flatMap (collect data).lists) = .ok all := ha
    obtain ⟨raw, hr⟩ := reorder_works (d := (collect data).raw) (names := all) fun n hn => by
      have := (C73_names ha).subset hn
      obtain ⟨o, ho, rfl⟩ := List.mem_map.mp this
      obtain ⟨ty, n, ho⟩ := mem_lists.mp ho
      rw [has_name hN ho]
      exact (k7 n).mpr ⟨ty, o, ho⟩
    have : extract T data = .ok ⟨raw, (collect data).typeOf, ls⟩ := by
      simp only [extract, ha', hl, hr, bind, Except.bind]; rfl
    exact ⟨⟨fun _ => hall, fun _ => ⟨_, this⟩⟩, .inl ⟨_, this⟩⟩
  · have hno : ¬ ∃ L, order T (types.flatMap (collect data).lists) = .ok L := by
      intro hL
      exact hall fun ty n o ho => w1.mp hL o (mem_lists.mpr ⟨ty, n, ho⟩)
    have he : order T (types.flatMap (collect data).lists) = .error .keyError := w2.resolve_left hno
    have : extract T data = .error .keyError := by simp only [extract, he, bind, Except.bind]
    rw [this]
    exact ⟨⟨fun ⟨_, h⟩ => (nomatch h), fun h => absurd h hall⟩, .inr rfl⟩

/-! ### Items and entities are signals -/

theorem toDict_keys {α : Type} (name : α → Str) (l : List α) {n : Str} (h : n ∈ (toDict name l).keys) : ∃ x ∈ l, name x = n := by
  have : ∀ (l : List α) (d : Dict Str α), n ∈ (l.foldl (fun d x => d.set (name x) x) d).keys → n ∈ d.keys ∨ ∃ x ∈ l, name x = n := by
    intro l
    induction l with
    | nil => intro d h; exact .inl h
    | cons a l ih =>
      intro d h
      rcases ih _ h with h | ⟨x, hx, h⟩
      · rw [← Dict.get?_isSome, Dict.get?_set] at h
        split at h
        · rename_i ha; exact .inr ⟨a, by simp, ha⟩
        · exact .inl ((Dict.get?_isSome _ _).mp h)
      · exact .inr ⟨x, by simp [hx], h⟩
  rcases this l [] h with h | h
  · simp at h
  · exact h

theorem toDict_mem {α : Type} (name : α → Str) (l : List α) {p : Str × α} (h : p ∈ toDict name l) : p.2 ∈ l := by
  have hset : ∀ (d : Dict Str α) k v, ∀ q ∈ d.set k v, q ∈ d ∨ q = (k, v) := by
    intro d k v
    induction d with
    | nil => intro q hq; simp [Dict.set] at hq; exact .inr hq
    | cons a d ih =>
      intro q hq
      simp only [Dict.set] at hq
      split at hq
      · rename_i ha
        rcases List.mem_cons.mp hq with rfl | hq
        · exact .inr (by rw [← ha])
        · exact .inl (by simp [hq])
      · rcases List.mem_cons.mp hq with rfl | hq
        · exact .inl (by simp)
        · rcases ih q hq with h | h
          · exact .inl (by simp [h])
          · exact .inr h
  have : ∀ (l : List α) (d : Dict Str α), p ∈ l.foldl (fun d x => d.set (name x) x) d → p ∈ d ∨ p.2 ∈ l := by
    intro l
    induction l with
    | nil => intro d h; exact .inl h
    | cons a l ih =>
      intro d h
      rcases ih _ h with h | h
      · rcases hset d _ _ p h with h | rfl
        · exact .inl h
        · exact .inr (by simp)
      · exact .inr (by simp [h])
  rcases this l [] h with h | h
  · simp at h
  · exact h

/-- Every item is an item signal, and that is the type it gets if only its name is given. -/
theorem C83_items {T : Tuple} {data : Raw} (hN : Named data) {t : Tables} (h : extract T data = .ok t) {gs : List Grp} {ss : List Sub}
    {D : Dict Str Item} (hD : getItems gs ss (itemsIn data) = .ok D) {n : Str} (hn : n ∈ D.keys) (first : List String → Option String) :
    (∃ l, signalTypes t n = some l ∧ "item" ∈ l) ∧ signalType first t n = some "item" := by
  have hs : ∃ l, signalTypes t n = some l ∧ "item" ∈ l := by
    rw [(C83_types h n).1]
    rw [(getItems_ok hD).2.2] at hn
    obtain ⟨i, hi, rfl⟩ := toDict_keys _ _ hn
    simp only [flat, List.mem_flatMap] at hi
    obtain ⟨g, -, s, -, hi⟩ := hi
    unfold itemsOf at hi
    obtain ⟨q, hq, rfl⟩ := List.mem_map.mp hi
    have := (sortBy_perm _ _ _).subset (toDict_mem _ _ hq)
    obtain ⟨j, hj, hq'⟩ := List.mem_map.mp (List.mem_filter.mp this).1
    simp only [itemsIn, List.mem_flatMap, List.mem_map] at hj
    obtain ⟨c, hc, p, hp, rfl⟩ := hj
    cases hd : data.get? c with
    | none => simp [hd] at hp
    | some ps =>
      have hp' : p ∈ ps := by simpa [hd] using hp
      have hname : q.2.name = p.1 := by rw [← hq', ← hN c ps hd p hp']; rfl
      rw [hname]
      exact ⟨p.2, c, ps, .item c hc, hd, hp'⟩
  refine ⟨hs, ?_⟩
  obtain ⟨l, h1, h2⟩ := hs
  simp [signalType, h1, h2]

/-- Every entity that can be in a blueprint is an entity signal: the two extractions read the same data. -/
theorem C83_entities {T : Tuple} {data : Raw} {t : Tables} (h : extract T data = .ok t) {ents : EntTypes.Data} (w : EntTypes.Wf ents)
    {s : EntTypes.Tables} (hs : EntTypes.extract ents = .ok s)
    (same : ∀ c qs, ents.get? c = some qs → ∀ q ∈ qs, ∃ ps o, data.get? c = some ps ∧ (q.1.toList, o) ∈ ps) {n : String}
    (hn : (s.raw.get? n).isSome) : ∃ l, signalTypes t n.toList = some l ∧ "entity" ∈ l := by
  rw [(C83_types h n.toList).1]
  obtain ⟨c, hc, p, hp, rfl⟩ := (EntTypes.C78_raw w hs).2 n (.inl hn)
  simp only [EntTypes.found, List.mem_filter, List.mem_map] at hp
  obtain ⟨⟨q, hq, rfl⟩, -⟩ := hp
  cases hd : ents.get? c with
  | none => simp [hd] at hq
  | some qs =>
    have hq' : q ∈ qs := by simpa [hd] using hq
    obtain ⟨ps, o, h1, h2⟩ := same c qs hd q hq'
    rw [(w.own c qs hd q hq').1]
    exact ⟨o, c, ps, .entity c hc, h1, h2⟩

/-! ### Fluids -/

theorem exists_map_perm {α β : Type} {f : α → β} {l : List α} {l' : List β} (h : l'.Perm (l.map f)) : ∃ l'' : List α, l''.Perm l ∧ l' = l''.map f := by
  have : Relation.Comp (· = List.map f ·) (·.Perm ·) l' l := by rw [List.eq_map_comp_perm]; exact h
  obtain ⟨l'', h1, h2⟩ := this
  exact ⟨l'', h2, h1⟩

/-- Putting a dictionary into another order. -/
theorem reorder_eq {α : Type} {d ms : Dict Str α} (hd : d.keys.Nodup) (hp : ms.Perm d) : reorder d ms.keys = .ok ms := by
  have hk : ms.keys.Perm d.keys := hp.map _
  obtain ⟨out, ho⟩ := reorder_works (d := d) (names := ms.keys) fun n hn => (Dict.get?_isSome _ _).mpr (hk.subset hn)
  obtain ⟨h1, h2⟩ := reorder_perm hd hk ho
  have hn : ms.keys.Nodup := hk.nodup_iff.mpr hd
  rw [ho]
  congr 1
  refine Dict.ext_of_keys (h1 ▸ hn) h1 fun n => ?_
  cases hg : out.get? n with
  | none =>
    rw [Dict.get?_eq_none, h1, ← Dict.get?_eq_none] at hg
    exact hg.symm
  | some x =>
    have : (n, x) ∈ ms := hp.symm.subset (h2.subset (Dict.mem_of_get? hg))
    exact (Dict.get?_of_mem hn this).symm

/-- The fluids are those of the data, in the order of the game.  It works exactly if every fluid has its place in that order. -/
theorem C83_fluids (T : Tuple) {fluids : Dict Str Obj} (hk : fluids.keys.Nodup) (hN : ∀ p ∈ fluids, p.2.name = p.1) :
    ((∃ d, extractFluids T fluids = .ok d) ↔ ∀ p ∈ fluids, ∃ r, Ranked T.items T.subs T.grps p.2 r) ∧
    ((∃ d, extractFluids T fluids = .ok d) ∨ extractFluids T fluids = .error .keyError) ∧
    ∀ d, extractFluids T fluids = .ok d → d.Perm fluids ∧ Ordered T (d.map (·.2)) := by
  obtain ⟨w1, w2⟩ := C73_works_partial T.items T.subs T.grps (fluids.map (·.2))
  cases ho : order T (fluids.map (·.2)) with
  | error e =>
    have hno : ¬ ∃ L, getOrder T.items T.subs T.grps (fluids.map (·.2)) = .ok L := by
      rintro ⟨L, hL⟩
      rw [order] at ho
      rw [ho] at hL
      cases hL
    have he : order T (fluids.map (·.2)) = .error .keyError := w2.resolve_left hno
    have : extractFluids T fluids = .error .keyError := by simp only [extractFluids, he, bind, Except.bind]
    rw [this]
    refine ⟨⟨fun ⟨_, h⟩ => (nomatch h), fun h => absurd (w1.mpr ?_) hno⟩, .inr rfl, fun d h => (nomatch h)⟩
    rintro o ho'
    obtain ⟨p, hp, rfl⟩ := List.mem_map.mp ho'
    exact h p hp
  | ok L =>
    obtain ⟨os, g1, g2, g3⟩ := C73_sorted ho
    obtain ⟨ms, m1, rfl⟩ := exists_map_perm g1
    have hL : L = Dict.keys ms := by
      rw [g2, List.map_map]
      exact List.map_congr_left fun p hp => hN p (m1.subset hp)
    have : extractFluids T fluids = .ok ms := by
      simp only [extractFluids, ho, bind, Except.bind, hL]
      exact reorder_eq hk m1
    rw [this]
    refine ⟨⟨fun _ p hp => w1.mp ⟨L, ho⟩ _ (List.mem_map.mpr ⟨p, hp, rfl⟩), fun _ => ⟨_, rfl⟩⟩, .inl ⟨_, rfl⟩, fun d h => ?_⟩
    cases h
    exact ⟨m1, g3⟩

/-! ### Modules -/

theorem set_new {α : Type} {d : Dict Str α} {k : Str} {v : α} (h : k ∉ d.keys) : d.set k v = d ++ [(k, v)] := by
  induction d with
  | nil => rfl
  | cons p d ih =>
    simp only [Dict.keys_cons, List.mem_cons, not_or] at h
    simp [Dict.set, Ne.symm h.1, ih h.2]

theorem modules_fold (d : Dict Str Mod) : ∀ (ms : List (Str × Mod)) (acc : Dict Str Mod × Dict Str (List Str)),
    (∀ p ∈ ms, d.get? p.1 = some p.2) → (acc.1.keys ++ ms.map (·.1)).Nodup →
    ((∀ p ∈ ms, ∃ c ∈ acc.2.keys, p.2.category = some c) → ∃ D, (ms.map (·.1)).foldlM (moduleStep d) acc = .ok (acc.1 ++ ms, D) ∧
      D.keys = acc.2.keys ∧ ∀ c, D.get? c = (acc.2.get? c).map fun ns => ns ++ (ms.filter fun p => p.2.category = some c).map (·.1)) ∧
    ((¬ ∀ p ∈ ms, ∃ c ∈ acc.2.keys, p.2.category = some c) → (ms.map (·.1)).foldlM (moduleStep d) acc = .error .keyError) := by
  intro ms
  induction ms with
  | nil => intro acc _ _; exact ⟨fun _ => ⟨acc.2, by simp [pure, Except.pure], rfl, by simp⟩, by simp⟩
  | cons p ms ih =>
    intro acc h1 h2
    obtain ⟨raw, cats⟩ := acc
    simp only [List.map_cons, List.foldlM_cons]
    have hp := h1 p (by simp)
    have hnew : p.1 ∉ raw.keys := by
      intro hm
      exact (List.nodup_append.mp h2).2.2 _ hm p.1 (by simp) rfl
    by_cases hc : ∃ c ∈ cats.keys, p.2.category = some c
    · obtain ⟨c, hc, hcat⟩ := hc
      obtain ⟨l, hl⟩ := Option.isSome_iff_exists.mp ((Dict.get?_isSome _ _).mpr hc)
      have hstep : moduleStep d (raw, cats) p.1 = .ok (raw ++ [p], cats.set c (l ++ [p.1])) := by
        simp only [moduleStep, hp, hcat, hl, set_new hnew]
      have hkeys : (cats.set c (l ++ [p.1])).keys = cats.keys := by rw [Dict.keys_set, if_pos hc]
      have hnd : (Dict.keys (raw ++ [p]) ++ ms.map (·.1)).Nodup := by
        simpa [Dict.keys] using h2
      obtain ⟨ih1, ih2⟩ := ih (raw ++ [p], cats.set c (l ++ [p.1])) (fun q hq => h1 q (by simp [hq])) hnd
      rw [hstep]
      simp only [hkeys] at ih1 ih2
      constructor
      · intro hall
        obtain ⟨D, e1, e2, e3⟩ := ih1 fun q hq => hall q (by simp [hq])
        refine ⟨D, by simpa [bind, Except.bind] using e1, e2, fun c' => ?_⟩
        rw [e3, Dict.get?_set]
        by_cases he : c = c'
        · subst he; simp [hl, hcat]
        · have : ¬ p.2.category = some c' := by rw [hcat]; simpa using he
          simp [he, this]
      · intro hall
        refine ih2 fun h => hall fun q hq => ?_
        rcases List.mem_cons.mp hq with rfl | hq
        · exact ⟨c, hc, hcat⟩
        · exact h q hq
    · have hstep : moduleStep d (raw, cats) p.1 = .error .keyError := by
        simp only [moduleStep, hp]
        cases hcat : p.2.category with
        | none => rfl
        | some c =>
          have : cats.get? c = none := (Dict.get?_eq_none _ _).mpr fun hm => hc ⟨c, hm, hcat⟩
          simp only [this]
      rw [hstep]
      exact ⟨fun h => absurd (h p (by simp)) hc, fun _ => rfl⟩

/-- The modules are those of the data, in the order of the game; every category that the game has lists its modules in that order, and no other
category is there.  It works exactly if every module has its place in the order and a category that the game has. -/
theorem C83_modules (T : Tuple) (cats : List Str) {mods : Dict Str Mod} (hk : mods.keys.Nodup) (hN : ∀ p ∈ mods, p.2.obj.name = p.1) :
    ((∃ r, extractModules T cats mods = .ok r) ↔
      ∀ p ∈ mods, (∃ r, Ranked T.items T.subs T.grps p.2.obj r) ∧ ∃ c ∈ cats, p.2.category = some c) ∧
    ((∃ r, extractModules T cats mods = .ok r) ∨ extractModules T cats mods = .error .keyError) ∧
    ∀ raw D, extractModules T cats mods = .ok (raw, D) → raw.Perm mods ∧ Ordered T (raw.map (·.2.obj)) ∧
      ∀ c, D.get? c = if c ∈ cats then some ((raw.filter fun p => p.2.category = some c).map (·.1)) else none := by
  obtain ⟨w1, w2⟩ := C73_works_partial T.items T.subs T.grps (mods.map (·.2.obj))
  cases ho : order T (mods.map (·.2.obj)) with
  | error e =>
    have hno : ¬ ∃ L, getOrder T.items T.subs T.grps (mods.map (·.2.obj)) = .ok L := by
      rintro ⟨L, hL⟩
      rw [order] at ho
      rw [ho] at hL
      cases hL
    have he : order T (mods.map (·.2.obj)) = .error .keyError := w2.resolve_left hno
    have : extractModules T cats mods = .error .keyError := by simp only [extractModules, he, bind, Except.bind]
    rw [this]
    refine ⟨⟨fun ⟨_, h⟩ => (nomatch h), fun h => absurd (w1.mpr ?_) hno⟩, .inr rfl, fun _ _ h => (nomatch h)⟩
    rintro o ho'
    obtain ⟨p, hp, rfl⟩ := List.mem_map.mp ho'
    exact (h p hp).1
  | ok L =>
    obtain ⟨os, g1, g2, g3⟩ := C73_sorted ho
    obtain ⟨ms, m1, rfl⟩ := exists_map_perm g1
    have hL : L = ms.map (·.1) := by
      rw [g2, List.map_map]
      exact List.map_congr_left fun p hp => hN p (m1.subset hp)
    have hn : (ms.map (·.1)).Nodup := (m1.map Prod.fst).nodup_iff.mpr hk
    have heq : extractModules T cats mods = (ms.map (·.1)).foldlM (moduleStep mods) ([], noRecipes cats) := by
      simp only [extractModules, ho, bind, Except.bind, hL]; rfl
    obtain ⟨f1, f2⟩ := modules_fold mods ms ([], noRecipes cats) (fun p hp => Dict.get?_of_mem hk (m1.subset hp)) (by simpa using hn)
    rw [← heq] at f1 f2
    simp only [mem_categories] at f1 f2
    have hr : ∀ p ∈ mods, ∃ r, Ranked T.items T.subs T.grps p.2.obj r := fun p hp => w1.mp ⟨L, ho⟩ _ (List.mem_map.mpr ⟨p, hp, rfl⟩)
    by_cases hall : ∀ p ∈ ms, ∃ c ∈ cats, p.2.category = some c
    · obtain ⟨D, e1, -, e3⟩ := f1 hall
      rw [e1]
      refine ⟨⟨fun _ p hp => ⟨hr p hp, hall p (m1.symm.subset hp)⟩, fun _ => ⟨_, rfl⟩⟩, .inl ⟨_, rfl⟩, fun raw D' h => ?_⟩
      cases h
      refine ⟨by simpa using m1, g3, fun c => ?_⟩
      rw [e3, categories_init]
      by_cases hc : c ∈ cats <;> simp [hc]
    · rw [f2 hall]
      refine ⟨⟨fun ⟨_, h⟩ => (nomatch h), fun h => absurd (fun p hp => (h p (m1.subset hp)).2) hall⟩, .inr rfl, fun _ _ h => (nomatch h)⟩

/-! ### Fuels -/

theorem fuels_fold : ∀ (items : Dict Str (Option Str)) (d : Dict Str (List Str)),
    ((∀ p ∈ items, ∀ c, p.2 = some c → c ∈ d.keys) → ∃ D, items.foldlM fuelStep d = .ok D ∧ D.keys = d.keys ∧
      ∀ c n, (∃ l, D.get? c = some l ∧ n ∈ l) ↔ (∃ l, d.get? c = some l ∧ n ∈ l) ∨ c ∈ d.keys ∧ (n, some c) ∈ items) ∧
    ((¬ ∀ p ∈ items, ∀ c, p.2 = some c → c ∈ d.keys) → items.foldlM fuelStep d = .error .keyError) := by
  intro items
  induction items with
  | nil => intro d; exact ⟨fun _ => ⟨d, rfl, rfl, by simp⟩, by simp⟩
  | cons p items ih =>
    intro d
    obtain ⟨n, f⟩ := p
    rw [List.foldlM_cons]
    cases f with
    | none =>
      obtain ⟨i1, i2⟩ := ih d
      constructor
      · intro hall
        obtain ⟨D, e1, e2, e3⟩ := i1 fun q hq => hall q (by simp [hq])
        exact ⟨D, e1, e2, fun c m => by rw [e3]; simp⟩
      · intro hall
        refine i2 fun h => hall fun q hq => ?_
        rcases List.mem_cons.mp hq with rfl | hq
        · intro c hc; cases hc
        · exact h q hq
    | some c =>
      by_cases hc : c ∈ d.keys
      · obtain ⟨l, hl⟩ := Option.isSome_iff_exists.mp ((Dict.get?_isSome _ _).mpr hc)
        have hstep : fuelStep d (n, some c) = .ok (d.set c (if n ∈ l then l else l ++ [n])) := by simp only [fuelStep, hl]
        have hkeys : (d.set c (if n ∈ l then l else l ++ [n])).keys = d.keys := by rw [Dict.keys_set, if_pos hc]
        obtain ⟨i1, i2⟩ := ih (d.set c (if n ∈ l then l else l ++ [n]))
        rw [hkeys] at i1 i2
        rw [hstep]
        constructor
        · intro hall
          obtain ⟨D, e1, e2, e3⟩ := i1 fun q hq => hall q (by simp [hq])
          refine ⟨D, e1, e2, fun c' m => ?_⟩
          rw [e3, Dict.get?_set]
          by_cases he : c = c'
          · subst he
            have : m ∈ (if n ∈ l then l else l ++ [n]) ↔ m ∈ l ∨ m = n := by
              split
              · rename_i hnl; exact ⟨.inl, fun h => h.elim id fun e => e ▸ hnl⟩
              · simp
            simp only [if_true, Option.some.injEq, exists_eq_left', this, hl, hc, true_and, List.mem_cons, Prod.mk.injEq, and_true]
            tauto
          · simp [he, Ne.symm he]
        · intro hall
          refine i2 fun h => hall fun q hq => ?_
          rcases List.mem_cons.mp hq with rfl | hq
          · intro c' hc'; cases hc'; exact hc
          · exact h q hq
      · have hstep : fuelStep d (n, some c) = .error .keyError := by
          simp only [fuelStep, (Dict.get?_eq_none _ _).mpr hc]
        rw [hstep]
        exact ⟨fun h => absurd (h _ (List.mem_cons_self) c rfl) hc, fun _ => rfl⟩

/-- Every category of fuels that the game has holds exactly the items that burn as that, and no other category is there.  It works exactly if
every item's category is one that the game has. -/
theorem C83_fuels (cats : List Str) (items : Dict Str (Option Str)) :
    ((∃ D, extractFuels cats items = .ok D) ↔ ∀ n c, (n, some c) ∈ items → c ∈ cats) ∧
    ((∃ D, extractFuels cats items = .ok D) ∨ extractFuels cats items = .error .keyError) ∧
    ∀ D, extractFuels cats items = .ok D → ∀ c, (c ∉ cats → D.get? c = none) ∧
      (c ∈ cats → ∃ l, D.get? c = some l ∧ ∀ n, n ∈ l ↔ (n, some c) ∈ items) := by
  obtain ⟨f1, f2⟩ := fuels_fold items (noRecipes cats)
  have heq : extractFuels cats items = items.foldlM fuelStep (noRecipes cats) := rfl
  rw [← heq] at f1 f2
  simp only [mem_categories] at f1 f2
  have hiff : (∀ p ∈ items, ∀ c, p.2 = some c → c ∈ cats) ↔ ∀ n c, (n, some c) ∈ items → c ∈ cats :=
    ⟨fun h n c hm => h _ hm c rfl, fun h p hp c hc => h p.1 c (by rw [← hc]; exact hp)⟩
  by_cases hall : ∀ p ∈ items, ∀ c, p.2 = some c → c ∈ cats
  · obtain ⟨D, e1, e2, e3⟩ := f1 hall
    rw [e1]
    refine ⟨⟨fun _ => hiff.mp hall, fun _ => ⟨_, rfl⟩⟩, .inl ⟨_, rfl⟩, fun D' h c => ?_⟩
    cases h
    constructor
    · intro hc
      rw [Dict.get?_eq_none, e2, mem_categories]
      exact hc
    · intro hc
      obtain ⟨l, hl⟩ := Option.isSome_iff_exists.mp ((Dict.get?_isSome D c).mpr (by rw [e2, mem_categories]; exact hc))
      refine ⟨l, hl, fun n => ?_⟩
      have := e3 c n
      rw [categories_init, if_pos hc] at this
      simpa [hl, hc] using this
  · rw [f2 hall, ← hiff]
    exact ⟨⟨fun ⟨_, h⟩ => (nomatch h), fun h => absurd h hall⟩, .inr rfl, fun _ h => (nomatch h)⟩

/-! ### Tiles -/

theorem mem_left {α β : Type} {R : α → β → Prop} {l : List α} {r : List β} (h : List.Forall₂ R l r) {a : α} (ha : a ∈ l) : ∃ b ∈ r, R a b := by
  induction h with
  | nil => simp at ha
  | cons hx _ ih =>
    rcases List.mem_cons.mp ha with rfl | ha
    · exact ⟨_, List.mem_cons_self, hx⟩
    · obtain ⟨b, hb, hr⟩ := ih ha; exact ⟨b, by simp [hb], hr⟩

theorem mem_right {α β : Type} {R : α → β → Prop} {l : List α} {r : List β} (h : List.Forall₂ R l r) {b : β} (hb : b ∈ r) : ∃ a ∈ l, R a b := by
  induction h with
  | nil => simp at hb
  | cons hx _ ih =>
    rcases List.mem_cons.mp hb with rfl | hb
    · exact ⟨_, List.mem_cons_self, hx⟩
    · obtain ⟨a, ha, hr⟩ := ih hb; exact ⟨a, by simp [ha], hr⟩

/-- The tiles are those of the data, each with its collision mask as a set, in the order of their order strings, those without one last, and of their names.
It works exactly if every tile has a collision mask. -/
theorem C83_tiles {tiles : Dict Str Tile} (hk : tiles.keys.Nodup) :
    ((∃ d, extractTiles tiles = .ok d) ↔ ∀ p ∈ tiles, p.2.mask.isSome) ∧
    ((∃ d, extractTiles tiles = .ok d) ∨ extractTiles tiles = .error .keyError) ∧
    ∀ d, extractTiles tiles = .ok d → d.keys.Perm tiles.keys ∧ d.Pairwise (fun a b => Sooner (a.2.order, a.1) (b.2.order, b.1)) ∧
      ∀ p ∈ d, ∃ q ∈ tiles, q.1 = p.1 ∧ q.2.order = p.2.order ∧ ∃ m m', q.2.mask = some m ∧ p.2.mask = some m' ∧ m'.Nodup ∧ ∀ x, x ∈ m' ↔ x ∈ m := by
  have herr : ∀ p e, tileMask p = .error e → e = .keyError := by
    intro p e h
    unfold tileMask at h
    cases hm : p.2.mask with
    | none => rw [hm] at h; cases h; rfl
    | some m => rw [hm] at h; cases h
  have hok : ∀ p q, tileMask p = .ok q ↔ ∃ m, p.2.mask = some m ∧ q = (p.1, { p.2 with mask := some m.dedup }) := by
    intro p q
    unfold tileMask
    cases hm : p.2.mask with
    | none => simp
    | some m => simp [eq_comm]
  cases hm : tiles.mapM tileMask with
  | error e =>
    obtain ⟨p, hp, he⟩ := mapM_error_mem hm
    have := herr p e he
    subst this
    have hx : extractTiles tiles = .error .keyError := by simp only [extractTiles, hm, bind, Except.bind]
    rw [hx]
    refine ⟨⟨fun ⟨_, h⟩ => (nomatch h), fun h => ?_⟩, .inr rfl, fun _ h => (nomatch h)⟩
    obtain ⟨m, hm'⟩ := Option.isSome_iff_exists.mp (h p hp)
    rw [(hok p _).mpr ⟨m, hm', rfl⟩] at he
    cases he
  | ok ts =>
    have hf := (mapM_ok_iff _ _ _).mp hm
    have hkeys : Dict.keys ts = tiles.keys := by
      clear hm hk
      induction hf with
      | nil => rfl
      | cons h _ ih =>
        obtain ⟨m, -, rfl⟩ := (hok _ _).mp h
        simp [ih]
    have hall : ∀ p ∈ tiles, p.2.mask.isSome := by
      intro p hp
      obtain ⟨q, -, h⟩ := mem_left hf hp
      obtain ⟨m, hm, -⟩ := (hok _ _).mp h
      simp [hm]
    have hnd : (ts.map (·.1)).Nodup := by
      have : (Dict.keys ts).Nodup := hkeys ▸ hk
      exact this
    have hperm := sortBy_perm (fun (p : Str × Tile) => p.2.order) (·.1) ts
    have hx : extractTiles tiles = .ok (sortBy (fun (p : Str × Tile) => p.2.order) (·.1) ts) := by
      simp only [extractTiles, hm, bind, Except.bind]
      exact reorder_eq hnd hperm
    rw [hx]
    refine ⟨⟨fun _ => hall, fun _ => ⟨_, rfl⟩⟩, .inl ⟨_, rfl⟩, fun d h => ?_⟩
    cases h
    refine ⟨(hperm.map Prod.fst).trans (List.Perm.of_eq hkeys), sortBy_pairwise _ _ hnd, fun p hp => ?_⟩
    obtain ⟨q, hq, h⟩ := mem_right hf (hperm.subset hp)
    obtain ⟨m, hm, rfl⟩ := (hok _ _).mp h
    exact ⟨q, hq, rfl, rfl, m, m.dedup, hm, rfl, m.nodup_dedup, fun x => List.mem_dedup⟩

/-! ### Concrete cases -/

/-- A game with one group and three subgroups. -/
def groups : List Grp := [⟨['g'], some ['a']⟩]

def subgroups : List Sub := [⟨['s'], some ['a'], ['g']⟩, ⟨"fluid".toList, some ['b'], ['g']⟩, ⟨"other".toList, some ['c'], ['g']⟩]

/-- An object of that game with neither an order nor a subgroup. -/
def obj (name type : String) : Obj := ⟨name.toList, none, none, type.toList, none⟩

/-- Two items, of which one is also an entity and one a recipe; a fluid that is also a recipe; a tool for selecting. -/
def game : Raw := [
  ("item", [("plate".toList, obj "plate" "item"), ("chest".toList, obj "chest" "item")]),
  ("selection-tool", [("wand".toList, obj "wand" "selection-tool")]),
  ("fluid", [("acid".toList, obj "acid" "fluid")]),
  ("recipe", [("acid".toList, obj "acid" "recipe"), ("plate".toList, obj "plate" "recipe")]),
  ("container", [("chest".toList, obj "chest" "container")])]

/-- The items of that game and their order. -/
def gameTuple : Tuple := ⟨match getItems groups subgroups (itemsIn game) with
  | .ok D => D
  | .error _ => [], toDict Sub.name subgroups, toDict Grp.name groups⟩

theorem game_named : Named game := by
  intro c ps h
  have : ∀ e ∈ game, ∀ p ∈ e.2, p.2.name = p.1 := by decide +kernel
  exact this (c, ps) (Dict.mem_of_get? h)

/-- What comes out. -/
def gameSignals : Tables where
  raw := [("acid".toList, obj "acid" "recipe"), ("chest".toList, obj "chest" "container"), ("plate".toList, obj "plate" "recipe"),
    ("wand".toList, obj "wand" "selection-tool")]
  typeOf := [("plate".toList, ["item", "recipe"]), ("chest".toList, ["item", "entity"]), ("wand".toList, ["item"]),
    ("acid".toList, ["fluid", "recipe"])]
  lists := [("virtual", []), ("item", ["chest".toList, "plate".toList, "wand".toList]), ("fluid", ["acid".toList]),
    ("recipe", ["plate".toList, "acid".toList]), ("entity", ["chest".toList]), ("space-location", []), ("asteroid-chunk", []), ("quality", [])]

deriving instance DecidableEq for Tables

theorem game_extract : extract gameTuple game = .ok gameSignals := by
  have : (match extract gameTuple game with
    | .ok t => decide (t = gameSignals)
    | .error _ => false) = true := by decide +kernel
  cases h : extract gameTuple game with
  | error e => rw [h] at this; cases this
  | ok t => rw [h] at this; simp at this; rw [this]

/-- C83_types, C83_lists, C83_raw and C83_works of that game. -/
example : (∃ l, signalTypes gameSignals "acid".toList = some l ∧ "recipe" ∈ l) ∧ (∃ o, Has game "recipe" "acid".toList o) ∧
    (∃ os : List Obj, gameSignals.lists.get? "item" = some (os.map Obj.name) ∧ Ordered gameTuple os) ∧
    (gameSignals.raw.get? "chest".toList).isSome ∧ (∀ ty n o, Has game ty n o → ∃ r, Ranked gameTuple.items gameTuple.subs gameTuple.grps o r) :=
  ⟨⟨_, rfl, by decide⟩, ((C83_types game_extract _).1 "recipe").mp ⟨_, rfl, by decide⟩,
    (C83_lists game_extract (by decide : "item" ∈ types)).imp fun _ h => ⟨h.1, h.2.1⟩, rfl,
    (C83_works gameTuple game_named).1.mp ⟨_, game_extract⟩⟩

/-- C83_items of that game. -/
example (first : List String → Option String) : ∃ D, getItems groups subgroups (itemsIn game) = .ok D ∧ "plate".toList ∈ D.keys ∧
    signalType first gameSignals "plate".toList = some "item" :=
  ⟨gameTuple.items, by decide +kernel, by decide +kernel,
    (C83_items game_named game_extract (by decide +kernel : getItems groups subgroups (itemsIn game) = .ok gameTuple.items) (by decide +kernel) first).2⟩

/-- The data of the sample of C78, as the extraction of signals sees it. -/
def sampleRaw : Raw := EntTypes.sample.map fun e => (e.1, e.2.map fun q => (q.1.toList, obj q.1 e.1))

/-- C83_entities: the sample of C78 gives the two tables, and a chest of it is in both. -/
example : ∃ t s, extract gameTuple sampleRaw = .ok t ∧ EntTypes.extract EntTypes.sample = .ok s ∧
    (∀ c qs, EntTypes.sample.get? c = some qs → ∀ q ∈ qs, ∃ ps o, sampleRaw.get? c = some ps ∧ (q.1.toList, o) ∈ ps) ∧
    (s.raw.get? "iron-chest").isSome ∧ ∃ l, signalTypes t "iron-chest".toList = some l ∧ "entity" ∈ l := by
  have h1 : (match extract gameTuple sampleRaw with
    | .ok _ => true
    | .error _ => false) = true := by decide +kernel
  have h2 : (match EntTypes.extract EntTypes.sample with
    | .ok s => (s.raw.get? "iron-chest").isSome
    | .error _ => false) = true := by decide +kernel
  have same : ∀ c qs, EntTypes.sample.get? c = some qs → ∀ q ∈ qs, ∃ ps o, sampleRaw.get? c = some ps ∧ (q.1.toList, o) ∈ ps := by
    have : ∀ e ∈ EntTypes.sample, sampleRaw.get? e.1 = some (e.2.map fun q => (q.1.toList, obj q.1 e.1)) := by decide +kernel
    intro c qs h q hq
    exact ⟨_, obj q.1 c, this (c, qs) (Dict.mem_of_get? h), List.mem_map.mpr ⟨q, hq, rfl⟩⟩
  cases he : extract gameTuple sampleRaw with
  | error e => rw [he] at h1; cases h1
  | ok t =>
    cases hs : EntTypes.extract EntTypes.sample with
    | error e => rw [hs] at h2; cases h2
    | ok s =>
      rw [hs] at h2
      exact ⟨t, s, rfl, rfl, same, h2, C83_entities he EntTypes.sample_wf hs same h2⟩

/-- C83_fluids: two fluids are put in order; a fluid whose subgroup does not exist has no place. -/
example : extractFluids gameTuple [("b".toList, obj "b" "fluid"), ("a".toList, obj "a" "fluid")] =
      .ok [("a".toList, obj "a" "fluid"), ("b".toList, obj "b" "fluid")] ∧
    extractFluids gameTuple [("b".toList, { obj "b" "fluid" with subgroup := some ['x'] })] = .error .keyError := by
  constructor <;> decide +kernel

/-- C83_modules: two modules of a category; a category of which the game does not know. -/
example : extractModules gameTuple [['s'], ['e']] [("b".toList, ⟨obj "b" "module", some ['s']⟩), ("a".toList, ⟨obj "a" "module", some ['s']⟩)] =
      .ok ([("a".toList, ⟨obj "a" "module", some ['s']⟩), ("b".toList, ⟨obj "b" "module", some ['s']⟩)], [(['s'], [['a'], ['b']]), (['e'], [])]) ∧
    extractModules gameTuple [['s']] [("b".toList, ⟨obj "b" "module", some ['x']⟩)] = .error .keyError := by
  constructor <;> decide +kernel

/-- C83_fuels: an item that burns and one that does not; a category of which the game does not know. -/
example : extractFuels [['c'], ['n']] [(['w'], some ['c']), (['p'], none)] = .ok [(['c'], [['w']]), (['n'], [])] ∧
    extractFuels [['c']] [(['w'], some ['x'])] = .error .keyError := by
  constructor <;> decide +kernel

/-- C83_tiles: a tile without an order is last; a tile without a collision mask. -/
example : extractTiles [(['a'], ⟨none, some [['l'], ['l']]⟩), (['c'], ⟨some ['x'], some []⟩), (['b'], ⟨some ['x'], some []⟩)] =
      .ok [(['b'], ⟨some ['x'], some []⟩), (['c'], ⟨some ['x'], some []⟩), (['a'], ⟨none, some [['l']]⟩)] ∧
    extractTiles [(['a'], ⟨none, none⟩)] = .error .keyError := by
  constructor <;> decide +kernel

/-! ### What is not so -/

/-- Refuted: what is an item signal is an item.  The lists of categories differ: selection tools, copy-paste tools and starter packs are item signals
(`environment/update.py:1430-1439`) but not among the items (`environment/update.py:801-816`), so that the game's own `"space-platform-starter-pack"` is unknown
as an item. -/
theorem C83_item_refuted : ∃ (gs : List Grp) (ss : List Sub) (data : Raw) (D : Dict Str Item) (t : Tables) (n : Str), Named data ∧
    getItems gs ss (itemsIn data) = .ok D ∧ extract ⟨D, toDict Sub.name ss, toDict Grp.name gs⟩ data = .ok t ∧
    signalTypes t n = some ["item"] ∧ n ∉ D.keys :=
  ⟨groups, subgroups, game, gameTuple.items, gameSignals, "wand".toList, game_named, by decide +kernel, game_extract, by decide +kernel,
    by decide +kernel⟩

/-- Refuted: `signal_dict` gives a signal named by a string one type, the same each time.  What is not an item but several other things, as a fluid that is also a
recipe, gets whichever type the iteration of a set of strings yields first (`data/signals.py:129`), and that order changes from one run of Python to the
next. -/
theorem C83_ambiguous_refuted : ∃ (T : Tuple) (data : Raw) (t : Tables) (n : Str) (first first' : List String → Option String),
    Named data ∧ extract T data = .ok t ∧ (∀ l x, first l = some x → x ∈ l) ∧ (∀ l x, first' l = some x → x ∈ l) ∧
    (∀ l, l ≠ [] → (first l).isSome ∧ (first' l).isSome) ∧ signalType first t n = some "fluid" ∧ signalType first' t n = some "recipe" :=
  ⟨gameTuple, game, gameSignals, "acid".toList, List.head?, List.getLast?, game_named, game_extract, fun _ _ h => List.mem_of_head? h,
    fun _ _ h => List.mem_of_getLast? h, fun l hl => ⟨by simpa using hl, by simpa using hl⟩, by decide +kernel, by decide +kernel⟩

/-- Refuted: the raw signals hold for an item the prototype of the item.  If there is a recipe or entity of the same name, as for most items, it is
that one (`environment/update.py:1395-1399`). -/
theorem C83_raw_refuted : ∃ (T : Tuple) (data : Raw) (t : Tables) (n : Str) (o o' : Obj), Named data ∧ extract T data = .ok t ∧ Has data "item" n o ∧
    t.raw.get? n = some o' ∧ o'.type ≠ o.type ∧ ∃ first, signalType first t n = some "item" :=
  ⟨gameTuple, game, gameSignals, "chest".toList, obj "chest" "item", obj "chest" "container", game_named, game_extract,
    ⟨"item", _, .item _ (by decide), rfl, by decide +kernel⟩, by decide +kernel, by decide +kernel, List.head?, by decide +kernel⟩

end Signals
end Draftsman
