import Verif.Model.EnvUpdate
import Verif.Props.ModLoad
import Mathlib.Data.List.Nodup
import Mathlib.Data.List.Induction

namespace Draftsman
namespace EnvUpdate
open ModLoad (isWord isSkip isName isVer splitName keyLe keyLe_iff forall₂_mem_left forall₂_mem_right)
open Version (versionStringToTuple)

/-! ## C112: the update function of the documentation -/

/-- What the list of mods says of a name: of several entries the last counts. -/
def Listed (d : Disk) (n : List Char) : Option Bool :=
  ((d.modList.getD []).reverse.find? fun e => decide (e.1.filter (· ≠ ' ') = n)).map Prod.snd

/-- The object is one to be loaded: a folder of the game, or anything in the folder of mods, unless it is switched off. -/
def Considered (d : Disk) (n : List Char) (o : Obj) : Prop :=
  ((n, o) ∈ d.gameObjs ∧ (∃ i s, o = .folder i s) ∧ ∀ b, Listed d n = some b → b = true ∧ d.noMods = false) ∨
    ((n, o) ∈ d.modObjs ∧ d.noMods = false ∧ ∀ b, Listed d n = some b → b = true)

/-- All that is to be loaded are folders called as their mods, all different. -/
structure Plain (d : Disk) : Prop where
  folders : ∀ n o, Considered d n o → ∃ i s, o = .folder i s
  names : ∀ n o, Considered d n o → n ≠ [] ∧ ∀ c ∈ n, isSpace c = false ∧ c ≠ '.'
  distinct : ((d.gameObjs ++ d.modObjs).map Prod.fst).Nodup

/-- `s` is one of the dependencies of the mod `n`: the core has none, the base needs the core, the others have those they list, or the base if
they list none. -/
def Lists (n : List Char) (i : Info) (s : List Char) : Prop :=
  n ≠ "core".toList ∧ (n = "base".toList ∧ s = "core".toList ∨
    n ≠ "base".toList ∧ ((∃ l, i.deps = some l ∧ s ∈ l) ∨ i.deps = none ∧ s = "base".toList))

/-- The characters of names. -/
def NameChar (c : Char) : Prop := c.isAlphanum = true ∨ c = '_' ∨ c = '-'

/-- The dependency is written as the flag, possibly in parentheses, and the name, then anything that is no part of a name; blanks do not
count. -/
def Written (s : List Char) (flag : Option Char) (name : List Char) : Prop :=
  ∃ pre mid rest, s.filter (fun c => !isSpace c) = pre ++ flag.toList ++ mid ++ name ++ rest ∧
    (pre = [] ∧ mid = [] ∨ pre = ['('] ∧ mid = [')']) ∧ (∀ f, flag = some f → f = '?' ∨ f = '!' ∨ f = '~') ∧
    (∃ c r, name = c :: r ∧ c ≠ '-') ∧ (∀ c ∈ name, NameChar c) ∧ (∀ c ∈ rest.head?, ¬ NameChar c)

/-- The files of a mod in the order of the game. -/
def six : List String :=
  ["settings.lua", "settings-updates.lua", "settings-final-fixes.lua", "data.lua", "data-updates.lua", "data-final-fixes.lua"]

/-! ### What is considered -/

theorem get_enabled (noMods : Bool) (l : List (List Char × Bool)) (n : List Char) :
    (enabledList noMods l).get? n =
      (l.reverse.find? fun e => decide (e.1.filter (· ≠ ' ') = n)).map fun e => (e.2 && !noMods) := by
  unfold enabledList
  induction l using List.reverseRecOn with
  | nil => rfl
  | append_singleton r e ih =>
    rw [List.foldl_append]
    simp only [List.foldl_cons, List.foldl_nil, List.reverse_append, List.reverse_cons, List.reverse_nil, List.nil_append,
      List.singleton_append, List.find?_cons]
    rw [Dict.get?_set, ih]
    by_cases h : e.1.filter (· ≠ ' ') = n
    · rw [if_pos h, decide_eq_true h]
      rfl
    · rw [if_neg h, decide_eq_false h]

theorem isOn_iff (d : Disk) (dflt : Bool) (n : List Char) :
    isOn d dflt n = true ↔ (∀ b, Listed d n = some b → b = true ∧ d.noMods = false) ∧ (Listed d n = none → dflt = true) := by
  unfold isOn Listed
  rw [get_enabled]
  cases (d.modList.getD []).reverse.find? fun e => decide (e.1.filter (· ≠ ' ') = n) with
  | none => simp
  | some e => simp

theorem isDir_iff (o : Obj) : isDir o = true ↔ ∃ i s, o = .folder i s := by
  cases o <;> simp [isDir]

theorem mem_chosen (d : Disk) (n : List Char) (o : Obj) : (n, o) ∈ chosen d ↔ Considered d n o := by
  unfold chosen Considered
  simp only [List.mem_append, List.mem_filter, Bool.and_eq_true, isOn_iff, isDir_iff]
  constructor
  · rintro (⟨h1, h2, h3, -⟩ | ⟨h1, h2, h3⟩)
    · exact .inl ⟨h1, h2, h3⟩
    · refine .inr ⟨h1, ?_, fun b hb => (h2 b hb).1⟩
      cases hl : Listed d n with
      | none => simpa using h3 hl
      | some b => exact (h2 b hl).2
  · rintro (⟨h1, h2, h3⟩ | ⟨h1, h2, h3⟩)
    · exact .inl ⟨h1, h2, h3, fun _ => trivial⟩
    · exact .inr ⟨h1, fun b hb => ⟨h3 b hb, h2⟩, fun _ => by simp [h2]⟩

theorem chosen_nodup (d : Disk) (h : ((d.gameObjs ++ d.modObjs).map Prod.fst).Nodup) : ((chosen d).map Prod.fst).Nodup := by
  refine List.Nodup.sublist (List.Sublist.map _ ?_) h
  exact List.Sublist.append List.filter_sublist List.filter_sublist

/-! ### Plain names -/

theorem plain_all {n : List Char} (h : ∀ c ∈ n, isSpace c = false ∧ c ≠ '.') : n.all isFolderChar = true := by
  rw [List.all_eq_true]
  intro c hc
  obtain ⟨h1, h2⟩ := h c hc
  simp [isFolderChar, h1, h2]

theorem plain_name {n : List Char} (hn : n ≠ []) (h : ∀ c ∈ n, isSpace c = false ∧ c ≠ '.') : folderName n = some n := by
  unfold folderName
  rw [if_pos ⟨hn, plain_all h⟩]

theorem lower_dot (c : Char) (h : c.toLower = '.') : c = '.' := by
  unfold Char.toLower at h
  split at h
  · rename_i hc
    have h1 : 'A'.val.toNat ≤ c.val.toNat := UInt32.le_iff_toNat_le.1 hc.1
    have h2 : c.val.toNat ≤ 'Z'.val.toNat := UInt32.le_iff_toNat_le.1 hc.2
    have h3 := congrArg (fun x : Char => x.val.toNat) h
    simp only [UInt32.toNat_add] at h3
    rw [show 'A'.val.toNat = 65 from rfl] at h1
    rw [show 'Z'.val.toNat = 90 from rfl] at h2
    rw [show '.'.val.toNat = 46 from rfl, show ('a'.val - 'A'.val).toNat = 32 from rfl] at h3
    omega
  · exact h

theorem plain_zip {n : List Char} (h : ∀ c ∈ n, isSpace c = false ∧ c ≠ '.') : isZip n = false := by
  cases hz : isZip n with
  | false => rfl
  | true =>
    unfold isZip at hz
    rw [List.isSuffixOf_iff_suffix] at hz
    have : '.' ∈ n.map Char.toLower := hz.subset (by simp)
    obtain ⟨c, hc, e⟩ := List.mem_map.1 this
    exact absurd (lower_dot c e) (h c hc).2

/-! ### What a plain disk is discovered as -/

/-- The mod of a folder. -/
def mk (p : List Char × Obj) : Mod :=
  match p.2 with
  | .folder (some i) s => ⟨p.1, i.version.getD [], false, i.deps, s⟩
  | _ => ⟨p.1, [], false, none, []⟩

/-- The mods of a list of folders with different names. -/
def found (l : List (List Char × Obj)) : Found := ⟨l.map mk, l.zipIdx.map fun p => (p.1.1, some p.2)⟩

theorem keys_found (l : List (List Char × Obj)) : (found l).keys.keys = l.map Prod.fst := by
  unfold found Dict.keys
  rw [List.map_map]
  conv_rhs => rw [← List.zipIdx_map_fst 0 l]
  rw [List.map_map]
  rfl

theorem set_new {K V : Type} [DecidableEq K] (d : Dict K V) (k : K) (v : V) (h : k ∉ d.keys) : d.set k v = d ++ [(k, v)] := by
  induction d with
  | nil => rfl
  | cons p r ih =>
    obtain ⟨a, b⟩ := p
    simp only [Dict.keys, List.map_cons, List.mem_cons, not_or] at h
    rw [Dict.set, if_neg (fun e => h.1 e.symm), ih h.2]
    rfl

theorem found_snoc (l : List (List Char × Obj)) (p : List Char × Obj) (hn : p.1 ∉ l.map Prod.fst) :
    (⟨(found l).objs ++ [mk p], (found l).keys.set p.1 (some (found l).objs.length)⟩ : Found) = found (l ++ [p]) := by
  rw [set_new _ _ _ (by rw [keys_found]; exact hn)]
  unfold found
  simp [List.zipIdx_append]

/-- What must hold of one folder for it to be registered. -/
def Good (game : List ℤ) (p : List Char × Obj) : Prop :=
  ∃ i s, p.2 = .folder (some i) s ∧ checkGame game p.1 i = .ok ()

theorem register_plain (game : List ℤ) (l : List (List Char × Obj)) (p : List Char × Obj) (hn : p.1 ∉ l.map Prod.fst)
    (h0 : p.1 ≠ []) (hc : ∀ c ∈ p.1, isSpace c = false ∧ c ≠ '.') (hf : ∃ i s, p.2 = .folder i s) (f : Found) :
    register game (found l) p.1 p.2 = .ok f ↔ Good game p ∧ f = found (l ++ [p]) := by
  obtain ⟨n, o⟩ := p
  obtain ⟨i, s, ho⟩ := hf
  dsimp only at ho hn h0 hc ⊢
  subst ho
  unfold register readMod
  rw [if_neg (by rw [plain_zip hc]; decide)]
  simp only [plain_name h0 hc]
  cases i with
  | none =>
    simp only [reduceCtorEq, false_iff, not_and, Good]
    rintro ⟨i, s', h, -⟩
    cases h
  | some i =>
    simp only
    cases hg : checkGame game n i with
    | error e =>
      simp only [reduceCtorEq, false_iff, not_and]
      rintro ⟨i', s', h, h'⟩
      cases h
      rw [hg] at h'
      cases h'
    | ok u =>
      simp only
      rw [(Dict.get?_eq_none _ _).2 (by rw [keys_found]; exact hn)]
      simp only [Except.ok.injEq]
      have := found_snoc l (n, .folder (some i) s) hn
      simp only [mk] at this
      rw [this]
      constructor
      · rintro rfl
        exact ⟨⟨i, s, rfl, hg⟩, rfl⟩
      · rintro ⟨-, rfl⟩
        rfl

theorem discover_list (game : List ℤ) (l : List (List Char × Obj)) (hn : (l.map Prod.fst).Nodup)
    (hp : ∀ p ∈ l, p.1 ≠ [] ∧ (∀ c ∈ p.1, isSpace c = false ∧ c ≠ '.') ∧ ∃ i s, p.2 = .folder i s) (f : Found) :
    l.foldlM (fun f p => register game f p.1 p.2) {} = .ok f ↔ (∀ p ∈ l, Good game p) ∧ f = found l := by
  induction l using List.reverseRecOn generalizing f with
  | nil => simp [found, pure, Except.pure, eq_comm]
  | append_singleton r p ih =>
    rw [List.map_append, List.nodup_append] at hn
    have hpn : p.1 ∉ r.map Prod.fst := fun h => hn.2.2 _ h p.1 (by simp) rfl
    have hpp := hp p (by simp)
    have ih' := fun f => ih hn.1 (fun q hq => hp q (by simp [hq])) f
    rw [List.foldlM_append]
    simp only [bind, Except.bind]
    cases hr : r.foldlM (fun f p => register game f p.1 p.2) {} with
    | error e =>
      simp only [reduceCtorEq, false_iff, not_and]
      intro h
      have := (ih' (found r)).2 ⟨fun q hq => h q (by simp [hq]), rfl⟩
      rw [hr] at this
      cases this
    | ok f' =>
      obtain ⟨h1, rfl⟩ := (ih' f').1 hr
      simp only [List.foldlM_cons, List.foldlM_nil, bind, Except.bind, pure, Except.pure]
      have hreg := register_plain game r p hpn hpp.1 hpp.2.1 hpp.2.2
      cases hx : register game (found r) p.1 p.2 with
      | error e =>
        simp only [reduceCtorEq, false_iff, not_and]
        intro h
        have := (hreg _).2 ⟨h p (by simp), rfl⟩
        rw [hx] at this
        cases this
      | ok f'' =>
        obtain ⟨h2, rfl⟩ := (hreg f'').1 hx
        simp only [Except.ok.injEq]
        constructor
        · rintro rfl
          refine ⟨?_, rfl⟩
          intro q hq
          rcases List.mem_append.1 hq with hq | hq
          · exact h1 q hq
          · rw [List.mem_singleton.1 hq]; exact h2
        · rintro ⟨-, rfl⟩
          rfl

theorem discover_plain (d : Disk) (h : Plain d) (f : Found) :
    discover d = .ok f ↔ (∀ n o, Considered d n o → Good d.game (n, o)) ∧ f = found (chosen d) := by
  unfold discover
  rw [discover_list d.game (chosen d) (chosen_nodup d h.distinct)]
  · refine and_congr_left fun _ => ⟨fun h n o ho => h (n, o) ((mem_chosen _ _ _).2 ho), fun h p hp => ?_⟩
    exact h p.1 p.2 ((mem_chosen _ _ _).1 hp)
  · rintro ⟨n, o⟩ hp
    have hc := (mem_chosen _ _ _).1 hp
    exact ⟨(h.names n o hc).1, (h.names n o hc).2, h.folders n o hc⟩

theorem found_nodup (l : List (List Char × Obj)) (hn : (l.map Prod.fst).Nodup) : (found l).keys.keys.Nodup := by
  rw [keys_found]; exact hn

theorem mem_found (l : List (List Char × Obj)) (n : List Char) (v : Option ℕ) :
    (n, v) ∈ (found l).keys ↔ ∃ k o, v = some k ∧ l[k]? = some (n, o) := by
  unfold found
  simp only [List.mem_map, Prod.mk.injEq, Prod.exists, List.mem_zipIdx_iff_getElem?]
  constructor
  · rintro ⟨n', o, k, h1, rfl, rfl⟩
    exact ⟨k, o, rfl, h1⟩
  · rintro ⟨k, o, rfl, h⟩
    exact ⟨n, o, k, h, rfl, rfl⟩

theorem objs_found (l : List (List Char × Obj)) (k : ℕ) (p : List Char × Obj) (h : l[k]? = some p) : (found l).objs[k]? = some (mk p) := by
  unfold found
  rw [List.getElem?_map, h]
  rfl

theorem get_found (l : List (List Char × Obj)) (hn : (l.map Prod.fst).Nodup) (n : List Char) (v : Option ℕ) :
    (found l).keys.get? n = some v ↔ ∃ k o, v = some k ∧ l[k]? = some (n, o) := by
  rw [← mem_found]
  exact ⟨Dict.mem_of_get?, fun h => Dict.get?_of_mem (found_nodup l hn) h⟩

theorem modOf_found (l : List (List Char × Obj)) (hn : (l.map Prod.fst).Nodup) (n : List Char) (o : Obj) (h : (n, o) ∈ l) :
    modOf (found l) n = some (mk (n, o)) := by
  obtain ⟨k, hk⟩ := List.mem_iff_getElem?.1 h
  unfold modOf
  rw [(get_found l hn n (some k)).2 ⟨k, o, rfl, hk⟩]
  simp [objs_found l k _ hk]

/-! ### Dependencies as they are written -/

theorem word_of_name {c : Char} (h : NameChar c) (hc : c ≠ '-') : isWord c = true := by
  rcases h with h | h | h
  · simp [isWord, h]
  · simp [isWord, h]
  · exact absurd h hc

theorem isName_iff (c : Char) : isName c = true ↔ NameChar c := by
  simp [isName, isWord, NameChar, or_assoc]

theorem splitName_name (name rest : List Char) (h1 : ∃ c r, name = c :: r ∧ c ≠ '-') (h2 : ∀ c ∈ name, NameChar c)
    (h3 : ∀ c ∈ rest.head?, ¬ NameChar c) : splitName (name ++ rest) = some (name, rest) := by
  obtain ⟨c, r, rfl, hc⟩ := h1
  have hw := word_of_name (h2 c (by simp)) hc
  have hs : isSkip c = false := by simp [isSkip, hw]
  have hall : ∀ x ∈ c :: r, isName x = true := fun x hx => (isName_iff x).2 (h2 x hx)
  have hrest : rest.takeWhile isName = [] ∧ rest.dropWhile isName = rest := by
    cases rest with
    | nil => simp
    | cons y t =>
      have : isName y = false := by
        cases hy : isName y with
        | false => rfl
        | true => exact absurd ((isName_iff y).1 hy) (h3 y (by simp))
      simp [this]
  have hd : ((c :: r) ++ rest).dropWhile isSkip = (c :: r) ++ rest := by
    simp [hs]
  have ht : ((c :: r) ++ rest).takeWhile isName = c :: r := by
    rw [List.takeWhile_append_of_pos hall, hrest.1, List.append_nil]
  have ht' : ((c :: r) ++ rest).dropWhile isName = rest := by
    rw [List.dropWhile_append_of_pos hall, hrest.2]
  unfold splitName
  simp only [hd, ht, ht']
  simp

theorem splitName_paren (name rest : List Char) (h1 : ∃ c r, name = c :: r ∧ c ≠ '-') (h2 : ∀ c ∈ name, NameChar c)
    (h3 : ∀ c ∈ rest.head?, ¬ NameChar c) : splitName (')' :: (name ++ rest)) = some (name, rest) := by
  have := splitName_name name rest h1 h2 h3
  have hs : isSkip ')' = true := by decide
  unfold splitName at this ⊢
  simp only [List.dropWhile_cons, List.takeWhile_cons, hs, if_true] at this ⊢
  split at this
  · rename_i he
    rw [if_pos he]
    split at this
    · rename_i hm
      obtain ⟨c, r, rfl, hc⟩ := h1
      have hw := word_of_name (h2 c (by simp)) hc
      have hsk : isSkip c = false := by simp [isSkip, hw]
      simp [hsk] at hm
    · cases this
  · rename_i he
    rw [if_neg he]
    exact this

theorem parseDep_written (s : List Char) (flag : Option Char) (name : List Char) (h : Written s flag name) :
    parseDep s = .ok (flag, name) := by
  obtain ⟨pre, mid, rest, hs, hpm, hf, h1, h2, h3⟩ := h
  obtain ⟨c, r, hn, hc⟩ := h1
  have hw := word_of_name (h2 c (by simp [hn])) hc
  have hlead : isLead c = false := by simp [isLead, hw]
  have hflagc : ¬ (c = '?' ∨ c = '!' ∨ c = '~') := by
    rintro (rfl | rfl | rfl) <;> exact absurd hw (by decide)
  have hp1 : isLead '(' = true := by decide
  have hp2 : isLead ')' = true := by decide
  unfold parseDep
  simp only [hs]
  have key : ∃ f2, splitFlag ((pre ++ flag.toList ++ mid ++ name ++ rest).dropWhile isLead) = (flag, f2) ∧ splitName f2 = some (name, rest) := by
    cases flag with
    | none =>
      refine ⟨name ++ rest, ?_, splitName_name name rest ⟨c, r, hn, hc⟩ h2 h3⟩
      rcases hpm with ⟨rfl, rfl⟩ | ⟨rfl, rfl⟩
      · simp [hn, hlead, splitFlag, hflagc]
      · simp [hn, hlead, splitFlag, hflagc, hp1, hp2]
    | some f =>
      have hf' := hf f rfl
      have hl : isLead f = false := by rcases hf' with rfl | rfl | rfl <;> decide
      rcases hpm with ⟨rfl, rfl⟩ | ⟨rfl, rfl⟩
      · refine ⟨name ++ rest, ?_, splitName_name name rest ⟨c, r, hn, hc⟩ h2 h3⟩
        simp [hl, splitFlag, hf']
      · refine ⟨')' :: (name ++ rest), ?_, splitName_paren name rest ⟨c, r, hn, hc⟩ h2 h3⟩
        simp [hl, splitFlag, hf', hp1]
  obtain ⟨f2, hk1, hk2⟩ := key
  rw [hk1]
  simp only [hk2]

/-! ### The graph of the dependencies -/

theorem resolveLoop_ok (keys : Dict (List Char) (Option ℕ)) (v : Option ℕ) (ds : List (List Char)) (g g' : Graph)
    (h : resolveLoop keys v g ds = .ok g') :
    ∃ rs, List.Forall₂ (fun s r => resolveDep keys s = .ok r) ds rs ∧ ∀ i x, x ∈ g' i ↔ x ∈ g i ∨ v = some i ∧ some x ∈ rs := by
  induction ds generalizing g with
  | nil =>
    cases h
    exact ⟨[], .nil, by simp⟩
  | cons s r ih =>
    unfold resolveLoop at h
    cases hs : resolveDep keys s with
    | error e => rw [hs] at h; cases h
    | ok x =>
      rw [hs] at h
      cases x with
      | none =>
        obtain ⟨rs, h1, h2⟩ := ih g h
        exact ⟨none :: rs, .cons hs h1, fun i x => by rw [h2]; simp⟩
      | some x =>
        cases v with
        | none => cases h
        | some k =>
          obtain ⟨rs, h1, h2⟩ := ih _ h
          refine ⟨some x :: rs, .cons hs h1, fun i y => ?_⟩
          rw [h2]
          unfold addDep
          by_cases hik : i = k
          · subst hik
            simp [or_assoc]
          · simp [hik, Ne.symm hik]

theorem resolveLoop_exists (keys : Dict (List Char) (Option ℕ)) (k : ℕ) (ds : List (List Char)) (g : Graph)
    (h : ∀ s ∈ ds, ∃ r, resolveDep keys s = .ok r) : ∃ g', resolveLoop keys (some k) g ds = .ok g' := by
  induction ds generalizing g with
  | nil => exact ⟨g, rfl⟩
  | cons s r ih =>
    obtain ⟨x, hx⟩ := h s (by simp)
    unfold resolveLoop
    rw [hx]
    cases x with
    | none => exact ih g fun t ht => h t (by simp [ht])
    | some x => exact ih _ fun t ht => h t (by simp [ht])

theorem resolveAll_ok (f : Found) (l : Dict (List Char) (Option ℕ)) (g g' : Graph) (h : resolveAll f g l = .ok g') :
    (∀ p ∈ l, ∃ ds rs, depsOf f.objs p.1 p.2 = .ok ds ∧ List.Forall₂ (fun s r => resolveDep f.keys s = .ok r) ds rs ∧
      ∀ k, p.2 = some k → ∀ x, some x ∈ rs → x ∈ g' k) ∧
    (∀ i x, x ∈ g i → x ∈ g' i) ∧
    ∀ i x, x ∈ g' i → x ∈ g i ∨ ∃ n ds rs, (n, some i) ∈ l ∧ depsOf f.objs n (some i) = .ok ds ∧
      List.Forall₂ (fun s r => resolveDep f.keys s = .ok r) ds rs ∧ some x ∈ rs := by
  induction l generalizing g with
  | nil =>
    cases h
    exact ⟨by simp, fun _ _ h => h, fun _ _ h => .inl h⟩
  | cons p r ih =>
    obtain ⟨n, v⟩ := p
    unfold resolveAll at h
    cases hd : depsOf f.objs n v with
    | error e => rw [hd] at h; cases h
    | ok ds =>
      rw [hd] at h
      dsimp only at h
      cases hl : resolveLoop f.keys v g ds with
      | error e => rw [hl] at h; cases h
      | ok g1 =>
        rw [hl] at h
        obtain ⟨rs, hr1, hr2⟩ := resolveLoop_ok _ _ _ _ _ hl
        obtain ⟨h1, h2, h3⟩ := ih g1 h
        refine ⟨?_, fun i x hx => h2 i x ((hr2 i x).2 (.inl hx)), ?_⟩
        · intro p hp
          rcases List.mem_cons.1 hp with rfl | hp
          · exact ⟨ds, rs, hd, hr1, fun k hk x hx => h2 k x ((hr2 k x).2 (.inr ⟨hk, hx⟩))⟩
          · exact h1 p hp
        · intro i x hx
          rcases h3 i x hx with hx | ⟨n', ds', rs', e1, e2, e3, e4⟩
          · rcases (hr2 i x).1 hx with hx | ⟨rfl, hx⟩
            · exact .inl hx
            · exact .inr ⟨n, ds, rs, by simp, hd, hr1, hx⟩
          · exact .inr ⟨n', ds', rs', by simp [e1], e2, e3, e4⟩

theorem resolveAll_exists (f : Found) (l : Dict (List Char) (Option ℕ)) (g : Graph)
    (h : ∀ p ∈ l, ∃ k ds, p.2 = some k ∧ depsOf f.objs p.1 p.2 = .ok ds ∧ ∀ s ∈ ds, ∃ r, resolveDep f.keys s = .ok r) :
    ∃ g', resolveAll f g l = .ok g' := by
  induction l generalizing g with
  | nil => exact ⟨g, rfl⟩
  | cons p r ih =>
    obtain ⟨n, v⟩ := p
    obtain ⟨k, ds, hk, hds, hr⟩ := h (n, v) (by simp)
    dsimp only at hk hds
    subst hk
    obtain ⟨g1, hg1⟩ := resolveLoop_exists f.keys k ds g hr
    unfold resolveAll
    rw [hds]
    dsimp only
    rw [hg1]
    exact ih g1 fun p hp => h p (by simp [hp])

/-! ### Depths -/

theorem depthLoop_ok (sub : ℕ → Except PyErr ℕ) (l : List (Option ℕ)) (acc k : ℕ) (h : depthLoop sub acc l = .ok k) :
    acc ≤ k ∧ ∀ x ∈ l, ∃ d y, x = some d ∧ sub d = .ok y ∧ acc + y ≤ k := by
  induction l generalizing acc with
  | nil => cases h; simp
  | cons x r ih =>
    cases x with
    | none => cases h
    | some d =>
      unfold depthLoop at h
      cases hs : sub d with
      | error e => rw [hs] at h; cases h
      | ok y =>
        rw [hs] at h
        dsimp only at h
        obtain ⟨h1, h2⟩ := ih _ h
        refine ⟨by omega, ?_⟩
        intro z hz
        rcases List.mem_cons.1 hz with rfl | hz
        · exact ⟨d, y, rfl, hs, by omega⟩
        · obtain ⟨d', y', e1, e2, e3⟩ := h2 z hz
          exact ⟨d', y', e1, e2, by omega⟩

theorem depthLoop_exists (sub : ℕ → Except PyErr ℕ) (l : List (Option ℕ)) (acc : ℕ) (h : ∀ x ∈ l, ∃ d y, x = some d ∧ sub d = .ok y) :
    ∃ k, depthLoop sub acc l = .ok k := by
  induction l generalizing acc with
  | nil => exact ⟨acc, rfl⟩
  | cons x r ih =>
    obtain ⟨d, y, rfl, hs⟩ := h x List.mem_cons_self
    unfold depthLoop
    rw [hs]
    exact ih _ fun z hz => h z (List.mem_cons_of_mem _ hz)

theorem depthLoop_mono (sub sub' : ℕ → Except PyErr ℕ) (hs : ∀ d y, sub d = .ok y → sub' d = .ok y) (l : List (Option ℕ)) (acc k : ℕ)
    (h : depthLoop sub acc l = .ok k) : depthLoop sub' acc l = .ok k := by
  induction l generalizing acc with
  | nil => exact h
  | cons x r ih =>
    cases x with
    | none => cases h
    | some d =>
      unfold depthLoop at h ⊢
      cases hd : sub d with
      | error e => rw [hd] at h; cases h
      | ok y =>
        rw [hd] at h
        rw [hs d y hd]
        exact ih _ h

theorem depth_succ (g : Graph) (f n k : ℕ) (h : depth g f n = .ok k) : depth g (f + 1) n = .ok k := by
  induction f generalizing n k with
  | zero => cases h
  | succ f ih =>
    unfold depth at h ⊢
    exact depthLoop_mono _ _ (fun d y hd => ih d y hd) _ _ _ h

theorem depth_dep (g : Graph) (f n k : ℕ) (h : depth g f n = .ok k) (x : Option ℕ) (hx : x ∈ g n) :
    ∃ d y, x = some d ∧ depth g f d = .ok y ∧ y < k := by
  cases f with
  | zero => cases h
  | succ f =>
    unfold depth at h
    obtain ⟨-, h2⟩ := depthLoop_ok _ _ _ _ h
    obtain ⟨d, y, h3, h4, h5⟩ := h2 x hx
    exact ⟨d, y, h3, depth_succ _ _ _ _ h4, by omega⟩

/-! ### The load order -/

instance : Std.Total fun a b : (ℕ × List Char) × List Char => keyLe a.1 b.1 = true where
  total a b := Std.Total.total (r := fun a b : ℕ × List Char => keyLe a b = true) a.1 b.1

instance : IsTrans ((ℕ × List Char) × List Char) fun a b => keyLe a.1 b.1 = true where
  trans a b c := IsTrans.trans (r := fun a b : ℕ × List Char => keyLe a b = true) a.1 b.1 c.1

theorem loadOrder_spec (limit : ℕ) (f : Found) (l : List (List Char)) (h : loadOrder limit f = .ok l) :
    ∃ g ks, resolveAll f (fun _ => []) f.keys = .ok g ∧
      List.Forall₂ (fun p q => sortKey limit f.objs g p = .ok q) f.keys ks ∧
      l = (ks.insertionSort fun a b => keyLe a.1 b.1 = true).map Prod.snd := by
  unfold loadOrder at h
  cases hg : resolveAll f (fun _ => []) f.keys with
  | error e => rw [hg] at h; cases h
  | ok g =>
    rw [hg] at h
    dsimp only at h
    cases hk : f.keys.mapM (sortKey limit f.objs g) with
    | error e => rw [hk] at h; cases h
    | ok ks =>
      rw [hk] at h
      cases h
      exact ⟨g, ks, rfl, (mapM_ok_iff _ _ _).1 hk, rfl⟩

theorem sortKey_ok (limit : ℕ) (objs : List Mod) (g : Graph) (p : List Char × Option ℕ) (q : (ℕ × List Char) × List Char)
    (h : sortKey limit objs g p = .ok q) : ∃ k, p.2 = some k ∧ depth g limit k = .ok q.1.1 ∧ q.2 = p.1 := by
  unfold sortKey at h
  cases hp : p.2 with
  | none => rw [hp] at h; cases h
  | some k =>
    rw [hp] at h
    dsimp only at h
    cases ho : objs[k]? with
    | none => rw [ho] at h; cases h
    | some m =>
      rw [ho] at h
      dsimp only at h
      cases hd : depth g limit k with
      | error e => rw [hd] at h; cases h
      | ok x =>
        rw [hd] at h
        cases h
        exact ⟨k, rfl, hd, rfl⟩

theorem order_perm (limit : ℕ) (f : Found) (l : List (List Char)) (h : loadOrder limit f = .ok l) : l.Perm f.keys.keys := by
  obtain ⟨g, ks, -, hks, rfl⟩ := loadOrder_spec _ _ _ h
  refine ((List.perm_insertionSort _ ks).map Prod.snd).trans (List.Perm.of_eq ?_)
  clear h
  generalize f.keys = l at hks
  induction hks with
  | nil => rfl
  | cons h1 _ ih =>
    obtain ⟨k, -, -, e⟩ := sortKey_ok _ _ _ _ _ h1
    rw [List.map_cons, e, ih]
    rfl

theorem no_none (limit : ℕ) (f : Found) (l : List (List Char)) (h : loadOrder limit f = .ok l) (n : List Char) : (n, none) ∉ f.keys := by
  obtain ⟨g, ks, -, hks, rfl⟩ := loadOrder_spec _ _ _ h
  intro hn
  obtain ⟨q, -, hq⟩ := forall₂_mem_left hks _ hn
  obtain ⟨k, hk, -⟩ := sortKey_ok _ _ _ _ _ hq
  cases hk

/-- A dependency in the graph is a place in the order. -/
theorem order_before (limit : ℕ) (f : Found) (hn : f.keys.keys.Nodup) (l : List (List Char)) (h : loadOrder limit f = .ok l)
    (n m : List Char) (kn km : ℕ) (hkn : f.keys.get? n = some (some kn)) (hkm : f.keys.get? m = some (some km))
    (hdep : ∃ ds, depsOf f.objs n (some kn) = .ok ds ∧ ∃ s ∈ ds, resolveDep f.keys s = .ok (some (some km))) :
    l.Pairwise fun a b => ¬ (a = n ∧ b = m) := by
  obtain ⟨g, ks, hg, hks, rfl⟩ := loadOrder_spec _ _ _ h
  obtain ⟨h1, -, -⟩ := resolveAll_ok _ _ _ _ hg
  obtain ⟨ds, hds, s, hs, hr⟩ := hdep
  obtain ⟨ds', rs, e1, e2, e3⟩ := h1 _ (Dict.mem_of_get? hkn)
  dsimp only at e1 e3
  rw [hds] at e1
  cases e1
  obtain ⟨r, hr1, hr2⟩ := forall₂_mem_left e2 s hs
  rw [hr] at hr2
  cases hr2
  have hx := e3 kn rfl _ hr1
  have perm := List.perm_insertionSort (fun a b : (ℕ × List Char) × List Char => keyLe a.1 b.1 = true) ks
  have sorted := List.pairwise_insertionSort (fun a b : (ℕ × List Char) × List Char => keyLe a.1 b.1 = true) ks
  have hall : ∀ q ∈ ks, ∃ k, f.keys.get? q.2 = some (some k) ∧ depth g limit k = .ok q.1.1 := by
    intro q hq
    obtain ⟨p, hp, hpq⟩ := forall₂_mem_right hks q hq
    obtain ⟨k, hk1, hk2, hk3⟩ := sortKey_ok _ _ _ _ _ hpq
    refine ⟨k, ?_, hk2⟩
    rw [hk3, ← hk1]
    exact Dict.get?_of_mem hn hp
  rw [List.pairwise_map]
  refine List.Pairwise.imp_of_mem ?_ sorted
  rintro a b ha hb hab ⟨rfl, rfl⟩
  obtain ⟨ka, ha1, ha2⟩ := hall a (perm.mem_iff.1 ha)
  obtain ⟨kb, hb1, hb2⟩ := hall b (perm.mem_iff.1 hb)
  rw [hkn] at ha1
  rw [hkm] at hb1
  cases ha1
  cases hb1
  obtain ⟨d, y, e, hy, hlt⟩ := depth_dep _ _ _ _ ha2 _ hx
  cases e
  rw [hb2] at hy
  cases hy
  rw [keyLe_iff] at hab
  omega

/-! ### What runs -/

theorem six_stages : stages = six.map String.toList := by decide +kernel

theorem stages_nodup : stages.Nodup := by decide +kernel

theorem update_ok (limit : ℕ) (d : Disk) (o : Outcome) (h : update limit d = .ok o) :
    ∃ f order, discover d = .ok f ∧ loadOrder limit f = .ok order ∧ (f.keys.get? "core".toList).isSome = true ∧
      extractMods f f.keys = .ok o.versions ∧ o.runs = runs f order := by
  unfold update at h
  cases hf : discover d with
  | error e => rw [hf] at h; cases h
  | ok f =>
    rw [hf] at h
    dsimp only at h
    cases ho : loadOrder limit f with
    | error e => rw [ho] at h; cases h
    | ok order =>
      rw [ho] at h
      dsimp only at h
      cases hc : f.keys.get? "core".toList with
      | none => rw [hc] at h; cases h
      | some c =>
        rw [hc] at h
        dsimp only at h
        cases hv : extractMods f f.keys with
        | error e => rw [hv] at h; cases h
        | ok v =>
          rw [hv] at h
          cases h
          exact ⟨f, order, rfl, ho, by rw [hc]; rfl, hv, rfl⟩

theorem runs_pairwise (f : Found) (order : List (List Char)) (s n m : List Char) (h : order.Pairwise fun a b => ¬ (a = n ∧ b = m)) :
    (runs f order).Pairwise fun a b => ¬ (a = (s, n) ∧ b = (s, m)) := by
  unfold runs
  rw [List.pairwise_flatMap]
  constructor
  · intro t ht
    rw [List.pairwise_map]
    refine (h.filter _).imp ?_
    rintro a b hab ⟨h1, h2⟩
    cases h1
    cases h2
    exact hab ⟨rfl, rfl⟩
  · refine stages_nodup.imp ?_
    rintro t t' hne x hx y hy ⟨rfl, rfl⟩
    obtain ⟨a, -, ha⟩ := List.mem_map.1 hx
    obtain ⟨b, -, hb⟩ := List.mem_map.1 hy
    cases ha
    cases hb
    exact hne rfl

theorem mem_runs (f : Found) (order : List (List Char)) (s n : List Char) :
    (s, n) ∈ runs f order ↔ s ∈ stages ∧ n ∈ order ∧ ∃ m, modOf f n = some m ∧ s ∈ m.stages := by
  unfold runs
  simp only [List.mem_flatMap, List.mem_map, List.mem_filter, Prod.mk.injEq]
  constructor
  · rintro ⟨t, ht, k, ⟨hk, hm⟩, rfl, rfl⟩
    refine ⟨ht, hk, ?_⟩
    cases ho : modOf f k with
    | none => rw [ho] at hm; cases hm
    | some m =>
      rw [ho] at hm
      exact ⟨m, rfl, by simpa using hm⟩
  · rintro ⟨hs, hn, m, hm, hst⟩
    exact ⟨s, hs, n, ⟨hn, by simp [hm, hst]⟩, rfl, rfl⟩

theorem runs_nodup (f : Found) (order : List (List Char)) (h : order.Nodup) : (runs f order).Nodup := by
  unfold runs List.Nodup
  rw [List.pairwise_flatMap]
  constructor
  · intro t ht
    rw [List.pairwise_map]
    refine (List.Pairwise.filter _ h).imp ?_
    rintro a b hab e
    cases e
    exact hab rfl
  · refine stages_nodup.imp ?_
    rintro t t' hne x hx y hy rfl
    obtain ⟨a, -, ha⟩ := List.mem_map.1 hx
    obtain ⟨b, -, hb⟩ := List.mem_map.1 hy
    cases ha
    cases hb
    exact hne rfl

/-- Whatever is on the disk: the files run stage by stage, all settings before all data. -/
theorem C112_stages (limit : ℕ) (d : Disk) (o : Outcome) (h : update limit d = .ok o) :
    o.runs.Pairwise fun a b => ∃ (i j : ℕ) (x y : String), six[i]? = some x ∧ a.1 = x.toList ∧ six[j]? = some y ∧ b.1 = y.toList ∧ i ≤ j := by
  obtain ⟨f, order, -, -, -, -, e⟩ := update_ok _ _ _ h
  rw [e]
  unfold runs
  rw [List.pairwise_flatMap]
  have hst : ∀ t ∈ stages, ∃ (i : ℕ) (x : String), six[i]? = some x ∧ t = x.toList := by
    intro t ht
    rw [six_stages] at ht
    obtain ⟨x, hx, rfl⟩ := List.mem_map.1 ht
    obtain ⟨i, hi⟩ := List.mem_iff_getElem?.1 hx
    exact ⟨i, x, hi, rfl⟩
  constructor
  · intro t ht
    obtain ⟨i, x, h1, h2⟩ := hst t ht
    rw [List.pairwise_map]
    refine List.Pairwise.imp (R := fun _ _ => True) ?_ ?_
    · intro _ _ _
      exact ⟨i, i, x, x, h1, h2, h1, h2, le_refl _⟩
    · exact List.pairwise_of_forall fun _ _ => trivial
  · rw [List.pairwise_iff_getElem]
    intro i j hi hj hij p hp q hq
    obtain ⟨a, -, rfl⟩ := List.mem_map.1 hp
    obtain ⟨b, -, rfl⟩ := List.mem_map.1 hq
    have hlen : stages.length = six.length := by rw [six_stages, List.length_map]
    refine ⟨i, j, six[i]'(hlen ▸ hi), six[j]'(hlen ▸ hj), List.getElem?_eq_getElem _, ?_, List.getElem?_eq_getElem _, ?_, hij.le⟩
    · simp [six_stages]
    · simp [six_stages]

theorem plain_found (limit : ℕ) (d : Disk) (hp : Plain d) (o : Outcome) (h : update limit d = .ok o) :
    (∀ n o, Considered d n o → Good d.game (n, o)) ∧ ∃ order, loadOrder limit (found (chosen d)) = .ok order ∧
      (∃ c, Considered d "core".toList c) ∧ extractMods (found (chosen d)) (found (chosen d)).keys = .ok o.versions ∧
      o.runs = runs (found (chosen d)) order := by
  obtain ⟨f, order, h1, h2, h3, h4, h5⟩ := update_ok _ _ _ h
  obtain ⟨hg, rfl⟩ := (discover_plain d hp f).1 h1
  refine ⟨hg, order, h2, ?_, h4, h5⟩
  rw [Dict.get?_isSome, keys_found] at h3
  obtain ⟨⟨n, c⟩, hc, e⟩ := List.mem_map.1 h3
  dsimp only at e
  subst e
  exact ⟨c, (mem_chosen _ _ _).1 hc⟩

/-- With plain folders exactly the files of what is considered are run, each once. -/
theorem C112_runs (limit : ℕ) (d : Disk) (hp : Plain d) (o : Outcome) (h : update limit d = .ok o) :
    o.runs.Nodup ∧ ∀ s n, (s, n) ∈ o.runs ↔ (∃ x ∈ six, s = x.toList) ∧ ∃ i st, Considered d n (.folder (some i) st) ∧ s ∈ st := by
  obtain ⟨hg, order, h2, -, -, h5⟩ := plain_found limit d hp o h
  have hnd := chosen_nodup d hp.distinct
  have perm := order_perm _ _ _ h2
  rw [keys_found] at perm
  refine ⟨?_, ?_⟩
  · rw [h5]
    exact runs_nodup _ _ (perm.nodup_iff.2 hnd)
  · intro s n
    rw [h5, mem_runs, six_stages, perm.mem_iff]
    constructor
    · rintro ⟨hs, hn, m, hm, hst⟩
      obtain ⟨x, hx, rfl⟩ := List.mem_map.1 hs
      obtain ⟨⟨n', ob⟩, hc, e⟩ := List.mem_map.1 hn
      dsimp only at e
      subst e
      obtain ⟨i, st, e, -⟩ := hg _ _ ((mem_chosen _ _ _).1 hc)
      dsimp only at e
      subst e
      rw [modOf_found _ hnd _ _ hc] at hm
      cases hm
      exact ⟨⟨x, hx, rfl⟩, i, st, (mem_chosen _ _ _).1 hc, hst⟩
    · rintro ⟨⟨x, hx, rfl⟩, i, st, hc, hst⟩
      have hc := (mem_chosen _ _ _).2 hc
      exact ⟨List.mem_map.2 ⟨x, hx, rfl⟩, List.mem_map.2 ⟨_, hc, rfl⟩, _, modOf_found _ hnd _ _ hc, hst⟩

theorem depsOf_found (l : List (List Char × Obj)) (k : ℕ) (n : List Char) (i : Info) (st : List (List Char))
    (h : l[k]? = some (n, .folder (some i) st)) : ∃ ds, depsOf (found l).objs n (some k) = .ok ds ∧ ∀ s, s ∈ ds ↔ Lists n i s := by
  unfold depsOf Lists
  by_cases hc : n = "core".toList
  · rw [if_pos hc]
    exact ⟨_, rfl, fun s => by simp [hc]⟩
  · rw [if_neg hc]
    by_cases hb : n = "base".toList
    · rw [if_pos hb]
      exact ⟨_, rfl, fun s => by simp [hb]⟩
    · rw [if_neg hb]
      simp only [Option.bind_some, objs_found l k _ h]
      refine ⟨_, rfl, fun s => ?_⟩
      simp only [mk]
      cases i.deps with
      | none =>
        refine ⟨fun h => ⟨hc, .inr ⟨hb, .inr ⟨rfl, by simpa using h⟩⟩⟩, ?_⟩
        rintro ⟨-, ⟨h, -⟩ | ⟨-, ⟨t, h, -⟩ | ⟨-, h⟩⟩⟩
        · exact absurd h hb
        · cases h
        · simp [h]
      | some t =>
        refine ⟨fun h => ⟨hc, .inr ⟨hb, .inl ⟨t, rfl, h⟩⟩⟩, ?_⟩
        rintro ⟨-, ⟨h, -⟩ | ⟨-, ⟨t', h, h'⟩ | ⟨h, -⟩⟩⟩
        · exact absurd h hb
        · cases h; exact h'
        · cases h

theorem get_considered (d : Disk) (_hp : Plain d) (n : List Char) :
    (found (chosen d)).keys.get? n = none ↔ ∀ o, ¬ Considered d n o := by
  rw [Dict.get?_eq_none, keys_found, List.mem_map]
  constructor
  · intro h o ho
    exact h ⟨(n, o), (mem_chosen _ _ _).2 ho, rfl⟩
  · rintro h ⟨⟨n', o⟩, ho, rfl⟩
    exact h o ((mem_chosen _ _ _).1 ho)

/-- With plain folders, when an update succeeds, everything needed is there, and nothing that is excluded; and every file runs after the same
file of the mods that its mod depends on. -/
theorem C112_before (limit : ℕ) (d : Disk) (hp : Plain d) (o : Outcome) (h : update limit d = .ok o)
    (n : List Char) (i : Info) (st : List (List Char)) (hc : Considered d n (.folder (some i) st)) (s : List Char) (hs : Lists n i s)
    (flag : Option Char) (m : List Char) (hw : Written s flag m) :
    (flag = some '!' → ∀ c, ¬ Considered d m c) ∧ (flag = none ∨ flag = some '~' → ∃ c, Considered d m c) ∧
      ((flag = none ∨ flag = some '?') → ∀ t before after, o.runs = before ++ (t, n) :: after → (t, m) ∉ after) := by
  obtain ⟨hg, order, h2, -, -, h5⟩ := plain_found limit d hp o h
  have hnd := chosen_nodup d hp.distinct
  obtain ⟨k, hk⟩ := List.mem_iff_getElem?.1 ((mem_chosen _ _ _).2 hc)
  obtain ⟨g, ks, hg', hks, -⟩ := loadOrder_spec _ _ _ h2
  obtain ⟨h1, -, -⟩ := resolveAll_ok _ _ _ _ hg'
  have hkn := (get_found _ hnd n (some k)).2 ⟨k, _, rfl, hk⟩
  obtain ⟨ds, hds, hmem⟩ := depsOf_found _ _ _ _ _ hk
  obtain ⟨ds', rs, e1, e2, -⟩ := h1 _ (Dict.mem_of_get? hkn)
  dsimp only at e1
  rw [hds] at e1
  cases e1
  obtain ⟨r, -, hr⟩ := forall₂_mem_left e2 s ((hmem s).2 hs)
  have hr0 := hr
  unfold resolveDep at hr
  rw [parseDep_written _ _ _ hw] at hr
  dsimp only at hr
  refine ⟨?_, ?_, ?_⟩
  · rintro rfl
    rw [if_pos rfl] at hr
    rw [← get_considered d hp]
    cases hm : (found (chosen d)).keys.get? m with
    | none => rfl
    | some v => rw [hm] at hr; cases hr
  · intro hf
    rw [if_neg (by rcases hf with rfl | rfl <;> simp)] at hr
    cases hm : (found (chosen d)).keys.get? m with
    | none =>
      rw [hm] at hr
      rcases hf with rfl | rfl <;> cases hr
    | some v =>
      by_contra hno
      rw [(get_considered d hp m).2 (fun c hcc => hno ⟨c, hcc⟩)] at hm
      cases hm
  · intro hf t before after ho
    rw [if_neg (by rcases hf with rfl | rfl <;> simp)] at hr
    cases hm : (found (chosen d)).keys.get? m with
    | none =>
      intro hin
      have : (t, m) ∈ o.runs := by rw [ho]; simp [hin]
      rw [h5, mem_runs] at this
      have := (order_perm _ _ _ h2).mem_iff.1 this.2.1
      rw [Dict.get?_eq_none] at hm
      exact hm this
    | some v =>
      obtain ⟨km, om, rfl, hkm⟩ := (get_found _ hnd m v).1 hm
      have hres : resolveDep (found (chosen d)).keys s = .ok (some (some km)) := by
        rw [hr0]
        rw [hm] at hr
        rcases hf with rfl | rfl
        · simpa using hr.symm
        · simpa using hr.symm
      have pw := runs_pairwise (found (chosen d)) order t n m
        (order_before limit _ (found_nodup _ hnd) _ h2 n m k km hkn hm ⟨ds, hds, s, (hmem s).2 hs, hres⟩)
      rw [← h5, ho, List.pairwise_append, List.pairwise_cons] at pw
      intro hin
      exact pw.2.1.1 _ hin ⟨rfl, rfl⟩

theorem extract_ok (f : Found) (l : Dict (List Char) (Option ℕ)) (v : Dict (List Char) (List ℤ)) (h : extractMods f l = .ok v)
    (hn : l.keys.Nodup) :
    v.keys = l.keys.filter (fun n => decide (n ≠ "core".toList)) ∧
      ∀ n k m, (n, some k) ∈ l → f.objs[k]? = some m → n ≠ "core".toList →
        ∃ t, versionStringToTuple m.version = .ok t ∧ (n, t) ∈ v := by
  induction l generalizing v with
  | nil => cases h; simp [Dict.keys]
  | cons p r ih =>
    obtain ⟨n, w⟩ := p
    simp only [Dict.keys, List.map_cons, List.nodup_cons] at hn
    unfold extractMods at h
    by_cases hc : n = "core".toList
    · rw [if_pos hc] at h
      obtain ⟨h1, h2⟩ := ih v h hn.2
      refine ⟨?_, ?_⟩
      · simp only [Dict.keys, List.map_cons, List.filter_cons, hc, ne_eq, not_true_eq_false, decide_false, Bool.false_eq_true, if_false]
          at h1 ⊢
        exact h1
      · intro n' k m hm ho hne
        rcases List.mem_cons.1 hm with e | hm
        · cases e
          exact absurd hc hne
        · exact h2 n' k m hm ho hne
    · rw [if_neg hc] at h
      cases hm : w.bind fun k => f.objs[k]? with
      | none => rw [hm] at h; cases h
      | some m =>
        rw [hm] at h
        dsimp only at h
        cases ht : versionStringToTuple m.version with
        | error e => rw [ht] at h; cases h
        | ok t =>
          rw [ht] at h
          dsimp only at h
          cases hr : extractMods f r with
          | error e => rw [hr] at h; cases h
          | ok u =>
            rw [hr] at h
            cases h
            obtain ⟨h1, h2⟩ := ih u hr hn.2
            refine ⟨?_, ?_⟩
            · simp only [Dict.keys, List.map_cons, List.filter_cons, hc, ne_eq, not_false_eq_true, decide_true, if_true] at h1 ⊢
              rw [h1]
            · intro n' k m' hm' ho hne
              rcases List.mem_cons.1 hm' with e | hm'
              · cases e
                simp only [Option.bind_some] at hm
                rw [hm] at ho
                cases ho
                exact ⟨t, ht, by simp⟩
              · obtain ⟨t', e1, e2⟩ := h2 n' k m' hm' ho hne
                exact ⟨t', e1, by simp [e2]⟩

/-- With plain folders the table of versions has what is considered, without the core, each with its version. -/
theorem C112_versions (limit : ℕ) (d : Disk) (hp : Plain d) (o : Outcome) (h : update limit d = .ok o) :
    o.versions.keys.Nodup ∧ (∀ n, n ∈ o.versions.keys ↔ n ≠ "core".toList ∧ ∃ c, Considered d n c) ∧
      ∀ n i st, Considered d n (.folder (some i) st) → n ≠ "core".toList →
        ∃ v t, i.version = some v ∧ versionStringToTuple v = .ok t ∧ o.versions.get? n = some t := by
  obtain ⟨hg, order, h2, -, h4, h5⟩ := plain_found limit d hp o h
  have hnd := chosen_nodup d hp.distinct
  obtain ⟨h6, h7⟩ := extract_ok _ _ _ h4 (found_nodup _ hnd)
  have hn : o.versions.keys.Nodup := by
    rw [h6]
    exact (found_nodup _ hnd).filter _
  refine ⟨hn, ?_, ?_⟩
  · intro n
    rw [h6, keys_found, List.mem_filter, List.mem_map]
    simp only [decide_eq_true_eq]
    constructor
    · rintro ⟨⟨⟨n', c⟩, hc, rfl⟩, hne⟩
      exact ⟨hne, c, (mem_chosen _ _ _).1 hc⟩
    · rintro ⟨hne, c, hc⟩
      exact ⟨⟨(n, c), (mem_chosen _ _ _).2 hc, rfl⟩, hne⟩
  · intro n i st hc hne
    obtain ⟨k, hk⟩ := List.mem_iff_getElem?.1 ((mem_chosen _ _ _).2 hc)
    obtain ⟨t, ht, hm⟩ := h7 n k _ ((mem_found _ _ _).2 ⟨k, _, rfl, hk⟩) (objs_found _ _ _ hk) hne
    simp only [mk] at ht
    cases hv : i.version with
    | none =>
      rw [hv] at ht
      rw [Option.getD_none, show versionStringToTuple [] = .error .valueError by decide +kernel] at ht
      cases ht
    | some v =>
      rw [hv] at ht
      exact ⟨v, t, rfl, ht, Dict.get?_of_mem hn hm⟩

/-- What a plain disk needs to be loaded. -/
structure Sound (limit : ℕ) (d : Disk) : Prop where
  core : ∃ c, Considered d "core".toList c
  /-- Every folder is a mod, of a version that can be read, for this game or an earlier one. -/
  infos : ∀ n o, Considered d n o → ∃ i st, o = .folder (some i) st ∧
    (n ≠ "core".toList → ∃ v t, i.version = some v ∧ versionStringToTuple v = .ok t) ∧
    (n ≠ "core".toList → n ≠ "base".toList → ∃ v t, i.factorio = some v ∧ versionStringToTuple v = .ok t ∧
      (t = d.game ∨ ModList.Newer d.game t))
  /-- Every dependency is written as it should be, is there if it is needed, and is not there if it is excluded. -/
  deps : ∀ n i st s, Considered d n (.folder (some i) st) → Lists n i s → ∃ flag m, Written s flag m ∧
    (flag = some '!' → ∀ c, ¬ Considered d m c) ∧ (flag = none ∨ flag = some '~' → ∃ c, Considered d m c)
  /-- There are no circles and no chains longer than the interpreter's limit. -/
  rank : ∃ r : List Char → ℕ, (∀ n i st s flag m c, Considered d n (.folder (some i) st) → Lists n i s → Written s flag m →
    flag = none ∨ flag = some '?' → Considered d m c → r m < r n) ∧ ∀ n c, Considered d n c → r n < limit

theorem extract_exists (f : Found) (l : Dict (List Char) (Option ℕ))
    (h : ∀ n v, (n, v) ∈ l → n ≠ "core".toList → ∃ k m t, v = some k ∧ f.objs[k]? = some m ∧ versionStringToTuple m.version = .ok t) :
    ∃ v, extractMods f l = .ok v := by
  induction l with
  | nil => exact ⟨[], rfl⟩
  | cons p r ih =>
    obtain ⟨n, w⟩ := p
    obtain ⟨v, hv⟩ := ih fun n v hm => h n v (by simp [hm])
    unfold extractMods
    by_cases hc : n = "core".toList
    · rw [if_pos hc]
      exact ⟨v, hv⟩
    · rw [if_neg hc]
      obtain ⟨k, m, t, rfl, hm, ht⟩ := h n w (by simp) hc
      simp only [Option.bind_some, hm, ht, hv]
      exact ⟨_, rfl⟩

theorem checkGame_ok (game : List ℤ) (n : List Char) (i : Info)
    (h : n ≠ "core".toList → n ≠ "base".toList → ∃ v t, i.factorio = some v ∧ versionStringToTuple v = .ok t ∧
      (t = game ∨ ModList.Newer game t)) : checkGame game n i = .ok () := by
  unfold checkGame
  by_cases hn : n = "base".toList ∨ n = "core".toList
  · rw [if_pos hn]
  · rw [if_neg hn]
    rw [not_or] at hn
    obtain ⟨v, t, h1, h2, h3⟩ := h hn.2 hn.1
    simp only [h1, h2]
    rw [if_neg]
    rw [Bool.not_eq_true]
    rcases h3 with rfl | h3
    · exact ModList.tupleLt_irrefl _
    · rw [← ModList.tupleLt_iff] at h3
      cases hg : ModList.tupleLt game t with
      | false => rfl
      | true =>
        have := ModList.tupleLt_trans _ _ _ h3 hg
        rw [ModList.tupleLt_irrefl] at this
        cases this

/-- Plain folders that are sound are loaded.  Missing for the claim: that archives, folders with a version in their name, several versions of
a mod and other files in the folder are dealt with; see the refutations. -/
theorem C112_loads_partial (limit : ℕ) (d : Disk) (hp : Plain d) (hs : Sound limit d) : ∃ o, update limit d = .ok o := by
  have hnd := chosen_nodup d hp.distinct
  have hgood : ∀ n o, Considered d n o → Good d.game (n, o) := by
    intro n o hc
    obtain ⟨i, st, rfl, -, hg⟩ := hs.infos n o hc
    exact ⟨i, st, rfl, checkGame_ok _ _ _ hg⟩
  have hdisc := (discover_plain d hp _).2 ⟨hgood, rfl⟩
  -- every dependency resolves
  have hres : ∀ n i st s, Considered d n (.folder (some i) st) → Lists n i s → ∃ r, resolveDep (found (chosen d)).keys s = .ok r ∧
      ∀ x, r = some x → ∃ k m o flag, x = some k ∧ (chosen d)[k]? = some (m, o) ∧ Written s flag m ∧ (flag = none ∨ flag = some '?') := by
    intro n i st s hc hl
    obtain ⟨flag, m, hw, h1, h2⟩ := hs.deps n i st s hc hl
    have hfl : flag = none ∨ flag = some '?' ∨ flag = some '!' ∨ flag = some '~' := by
      obtain ⟨pre, mid, rest, -, -, hf, -⟩ := hw
      cases flag with
      | none => exact .inl rfl
      | some f => rcases hf f rfl with rfl | rfl | rfl <;> simp
    unfold resolveDep
    rw [parseDep_written _ _ _ hw]
    simp only
    by_cases hx : flag = some '!'
    · rw [if_pos hx, (get_considered d hp m).2 (h1 hx)]
      exact ⟨none, rfl, fun x h => by cases h⟩
    · rw [if_neg hx]
      cases hg : (found (chosen d)).keys.get? m with
      | none =>
        by_cases hq : flag = some '?'
        · simp only [hq, if_true]
          exact ⟨none, rfl, fun x h => by cases h⟩
        · obtain ⟨c, hcm⟩ := h2 (by tauto)
          exact absurd hcm ((get_considered d hp m).1 hg c)
      | some v =>
        simp only
        by_cases ht : flag = some '~'
        · rw [if_pos ht]
          exact ⟨none, rfl, fun x h => by cases h⟩
        · rw [if_neg ht]
          obtain ⟨k, o, rfl, hk⟩ := (get_found _ hnd m v).1 hg
          refine ⟨_, rfl, fun x h => ?_⟩
          cases h
          exact ⟨k, m, o, flag, rfl, hk, hw, by tauto⟩
  have hkey : ∀ n v, (n, v) ∈ (found (chosen d)).keys → ∃ k i st ds, v = some k ∧ (chosen d)[k]? = some (n, .folder (some i) st) ∧
      Considered d n (.folder (some i) st) ∧ depsOf (found (chosen d)).objs n v = .ok ds ∧ ∀ s, s ∈ ds ↔ Lists n i s := by
    intro n v hm
    obtain ⟨k, o, rfl, hk⟩ := (mem_found _ _ _).1 hm
    have hc := (mem_chosen _ _ _).1 (List.mem_of_getElem? hk)
    obtain ⟨i, st, rfl, -⟩ := hs.infos n o hc
    obtain ⟨ds, h1, h2⟩ := depsOf_found _ _ _ _ _ hk
    exact ⟨k, i, st, ds, rfl, hk, hc, h1, h2⟩
  obtain ⟨g, hg⟩ := resolveAll_exists (found (chosen d)) (found (chosen d)).keys (fun _ => []) (by
    rintro ⟨n, v⟩ hm
    obtain ⟨k, i, st, ds, rfl, hk, hc, h1, h2⟩ := hkey n v hm
    refine ⟨k, ds, rfl, h1, fun s hsd => ?_⟩
    obtain ⟨r, hr, -⟩ := hres n i st s hc ((h2 s).1 hsd)
    exact ⟨r, hr⟩)
  obtain ⟨-, -, hback⟩ := resolveAll_ok _ _ _ _ hg
  obtain ⟨r, hr1, hr2⟩ := hs.rank
  have hdepth : ∀ fuel k n o, (chosen d)[k]? = some (n, o) → r n < fuel → ∃ x, depth g fuel k = .ok x := by
    intro fuel
    induction fuel with
    | zero => intro k n o _ h; omega
    | succ fuel ih =>
      intro k n o hk hlt
      unfold depth
      refine depthLoop_exists _ _ _ fun x hx => ?_
      rcases hback k x hx with hx | ⟨n', ds, rs, e1, e2, e3, e4⟩
      · cases hx
      · obtain ⟨k', i, st, ds', h0, hk', hc, h1, h2⟩ := hkey n' _ e1
        cases h0
        rw [hk] at hk'
        cases hk'
        rw [e2] at h1
        cases h1
        obtain ⟨s, hsd, hsr⟩ := forall₂_mem_right e3 _ e4
        obtain ⟨r', hr', hx'⟩ := hres n i st s hc ((h2 s).1 hsd)
        rw [hsr] at hr'
        cases hr'
        obtain ⟨km, m, om, flag, rfl, hkm, hw, hf⟩ := hx' x rfl
        have := hr1 n i st s flag m om hc ((h2 s).1 hsd) hw hf ((mem_chosen _ _ _).1 (List.mem_of_getElem? hkm))
        obtain ⟨y, hy⟩ := ih km m om hkm (by omega)
        exact ⟨km, y, rfl, hy⟩
  have hsort : ∃ ks, (found (chosen d)).keys.mapM (sortKey limit (found (chosen d)).objs g) = .ok ks := by
    cases hm : (found (chosen d)).keys.mapM (sortKey limit (found (chosen d)).objs g) with
    | ok ks => exact ⟨ks, rfl⟩
    | error e =>
      obtain ⟨⟨n, v⟩, hp', he⟩ := mapM_error_mem hm
      obtain ⟨k, i, st, ds, rfl, hk, hc, -⟩ := hkey n v hp'
      obtain ⟨x, hx⟩ := hdepth limit k n _ hk (hr2 n _ hc)
      unfold sortKey at he
      simp only [objs_found _ _ _ hk, hx] at he
      cases he
  obtain ⟨ks, hks⟩ := hsort
  obtain ⟨v, hv⟩ := extract_exists (found (chosen d)) (found (chosen d)).keys (by
    intro n v hm hne
    obtain ⟨k, i, st, ds, rfl, hk, hc, -⟩ := hkey n v hm
    obtain ⟨i', st', e, hver, -⟩ := hs.infos n _ hc
    cases e
    obtain ⟨w, t, hw, ht⟩ := hver hne
    refine ⟨k, _, t, rfl, objs_found _ _ _ hk, ?_⟩
    simp only [mk, hw, Option.getD_some, ht])
  obtain ⟨c, hc⟩ := hs.core
  have hcore : (found (chosen d)).keys.get? "core".toList ≠ none := fun h => (get_considered d hp _).1 h c hc
  unfold update
  rw [hdisc]
  simp only [loadOrder, hg, hks]
  cases hgc : (found (chosen d)).keys.get? "core".toList with
  | none => exact absurd hgc hcore
  | some w =>
    simp only [hv]
    exact ⟨_, rfl⟩

/-! ### Other files in the folder of mods -/

theorem register_keys (game : List ℤ) (f f' : Found) (n : List Char) (o : Obj) (h : register game f n o = .ok f') :
    ∃ v, f'.keys = f.keys.set n v ∧ (o = .file → v = none) := by
  unfold register at h
  cases hr : readMod n o with
  | error e => rw [hr] at h; cases h
  | ok r =>
    rw [hr] at h
    cases r with
    | none => cases h; exact ⟨none, rfl, fun _ => rfl⟩
    | some p =>
      obtain ⟨m, i⟩ := p
      have ho : o ≠ .file := by
        rintro rfl
        unfold readMod at hr
        split at hr
        · split at hr <;> cases hr
        · cases hr
      dsimp only at h
      cases hc : checkGame game m.name i with
      | error e => rw [hc] at h; cases h
      | ok u =>
        rw [hc] at h
        dsimp only at h
        split at h
        · cases h
          exact ⟨_, rfl, fun e => absurd e ho⟩
        · cases h
        · split at h
          · cases h
          · rename_i k _ p' _
            cases hrep : replaces p' m with
            | error e => rw [hrep] at h; cases h
            | ok b =>
              rw [hrep] at h
              cases b
              · cases h
                exact ⟨_, rfl, fun e => absurd e ho⟩
              · cases h
                exact ⟨_, rfl, fun e => absurd e ho⟩

theorem file_stays (game : List ℤ) (l : List (List Char × Obj)) (f f' : Found) (n : List Char)
    (h : l.foldlM (fun f p => register game f p.1 p.2) f = .ok f') (hl : ∀ o, (n, o) ∈ l → o = .file)
    (hn : f.keys.get? n = some none ∨ (n, Obj.file) ∈ l) : f'.keys.get? n = some none := by
  induction l generalizing f with
  | nil =>
    cases h
    rcases hn with hn | hn
    · exact hn
    · cases hn
  | cons p r ih =>
    simp only [List.foldlM_cons, bind, Except.bind] at h
    cases hr : register game f p.1 p.2 with
    | error e => rw [hr] at h; cases h
    | ok f1 =>
      rw [hr] at h
      obtain ⟨v, hv, hvf⟩ := register_keys _ _ _ _ _ hr
      refine ih f1 h (fun o ho => hl o (by simp [ho])) ?_
      by_cases hpn : p.1 = n
      · left
        have : p.2 = .file := hl p.2 (by rw [← hpn]; simp)
        rw [hv, Dict.get?_set, if_pos hpn, hvf this]
      · rcases hn with hn | hn
        · left
          rw [hv, Dict.get?_set, if_neg hpn]
          exact hn
        · rcases List.mem_cons.1 hn with e | hn
          · exact absurd (by rw [← e]) hpn
          · exact .inr hn

/-- Whatever else is on the disk: a regular file in the folder of mods, the list of mods for example, makes the update fail, unless mods are
left out or a mod of its name is switched off. -/
theorem C112_file_fails (limit : ℕ) (d : Disk) (n : List Char) (hm : (n, .file) ∈ d.modObjs) (hone : ∀ o, (n, o) ∈ d.gameObjs ++ d.modObjs → o = .file)
    (hno : d.noMods = false) (hl : Listed d n ≠ some false) : ∃ e, update limit d = .error e := by
  cases hu : update limit d with
  | error e => exact ⟨e, rfl⟩
  | ok o =>
    obtain ⟨f, order, h1, h2, -⟩ := update_ok _ _ _ hu
    exfalso
    have hc : Considered d n .file := .inr ⟨hm, hno, fun b hb => by
      cases b
      · exact absurd hb hl
      · rfl⟩
    have := file_stays d.game (chosen d) {} f n h1 (fun o ho => hone o (by
      rcases (mem_chosen _ _ _).1 ho with h | h
      · simp [h.1]
      · simp [h.1])) (.inr ((mem_chosen _ _ _).2 hc))
    exact no_none _ _ _ h2 n (Dict.mem_of_get? this)

/-! ### What the claim would also say -/

/-- A folder with information. -/
def dir (version : String) (deps : Option (List String)) : Obj :=
  .folder (some ⟨some version.toList, some "2.0".toList, deps.map (·.map String.toList)⟩) ["data.lua".toList]

/-- The game with its two folders, a list of mods and some mods. -/
def disk (list : Option (List (String × Bool))) (mods : List (String × Obj)) : Disk :=
  ⟨[2, 0, 28, 0], list.map (·.map fun e => (e.1.toList, e.2)),
    [("core".toList, .folder (some ⟨none, none, none⟩) ["data.lua".toList]), ("base".toList, dir "2.0.28" none)],
    mods.map fun p => (p.1.toList, p.2), false⟩

/-- Not proved because it is false: that files which are no mods make no difference.  `mods[mod_obj]` is set to the `None` that `register_mod`
returns for them, and `mod.info` fails (`env.py:1827`, 1851): with `mod-list.json` in the folder of mods, where the game keeps it, the
update always fails. -/
theorem C112_files_refuted : ¬ ∀ (limit : ℕ) (list : Option (List (String × Bool))) (mods : List (String × Obj)) (o : Outcome),
    update limit (disk list mods) = .ok o → update limit (disk list (mods ++ [("mod-list.json", .file)])) = .ok o := by
  intro h
  have := h 1000 (some [("base", true)]) [] _ (by
    rw [show update 1000 (disk (some [("base", true)]) []) = .ok ⟨[("data.lua".toList, "core".toList), ("data.lua".toList, "base".toList)],
      [("base".toList, [2, 0, 28])]⟩ by decide +kernel])
  revert this
  rw [show update 1000 (disk (some [("base", true)]) ([] ++ [("mod-list.json", .file)])) = .error .attributeError by decide +kernel]
  simp

/-- A mod as an archive. -/
def zip (folder version : String) (deps : Option (List String)) : Obj :=
  .archive [folder.toList] (some ⟨some version.toList, some "2.0".toList, deps.map (·.map String.toList)⟩) ["data.lua".toList]

/-- Not proved because it is false: that a mod can be an archive as well as a folder.  The dictionary has the name of the file, and not that of
the mod, so that the mods which need it miss it. -/
theorem C112_archive_refuted : ¬ ∀ (limit : ℕ) (others : List (String × Obj)) (o : Outcome),
    update limit (disk none (("a", dir "1.0.0" none) :: others)) = .ok o →
      ∃ o', update limit (disk none (("a_1.0.0.zip", zip "a_1.0.0" "1.0.0" none) :: others)) = .ok o' := by
  intro h
  obtain ⟨o', ho⟩ := h 1000 [("b", dir "1.0.0" (some ["a"]))]
    ⟨[("data.lua".toList, "core".toList), ("data.lua".toList, "base".toList), ("data.lua".toList, "a".toList),
      ("data.lua".toList, "b".toList)], [("base".toList, [2, 0, 28]), ("a".toList, [1, 0, 0]), ("b".toList, [1, 0, 0])]⟩
    (by decide +kernel)
  revert ho
  rw [show update 1000 (disk none [("a_1.0.0.zip", zip "a_1.0.0" "1.0.0" none), ("b", dir "1.0.0" (some ["a"]))]) = .error .missingMod by
    decide +kernel]
  simp

/-- Not proved because it is false: that mods which are switched off are not loaded; archives are looked up in the list under the name of the
file. -/
theorem C112_disabled_refuted : ¬ ∀ (limit : ℕ) (o : Outcome),
    update limit (disk (some [("a", false)]) [("a_1.0.0.zip", zip "a_1.0.0" "1.0.0" none)]) = .ok o →
      ("data.lua".toList, "a_1.0.0.zip".toList) ∉ o.runs := by
  intro h
  refine h 1000 ⟨[("data.lua".toList, "core".toList), ("data.lua".toList, "base".toList), ("data.lua".toList, "a_1.0.0.zip".toList)],
    [("base".toList, [2, 0, 28]), ("a_1.0.0.zip".toList, [1, 0, 0])]⟩ (by decide +kernel) ?_
  decide +kernel

/-- Not proved because it is false: that of several versions of a mod one is loaded.  The newer replaces the older under its own file name only,
so that both are; and in the other order the newer one runs twice. -/
theorem C112_once_refuted : ¬ ∀ (limit : ℕ) (x y : String × Obj) (o : Outcome), update limit (disk none [x, y]) = .ok o →
    (x = ("a", dir "1.0.0" none) ∧ y = ("a_2.0.0", dir "2.0.0" none) ∨ x = ("a", dir "2.0.0" none) ∧ y = ("a_1.0.0", dir "1.0.0" none)) →
    ¬ (("data.lua".toList, x.1.toList) ∈ o.runs ∧ ("data.lua".toList, y.1.toList) ∈ o.runs) := by
  intro h
  refine h 1000 ("a", dir "1.0.0" none) ("a_2.0.0", dir "2.0.0" none)
    ⟨[("data.lua".toList, "core".toList), ("data.lua".toList, "base".toList), ("data.lua".toList, "a".toList),
      ("data.lua".toList, "a_2.0.0".toList)], [("base".toList, [2, 0, 28]), ("a".toList, [1, 0, 0]), ("a_2.0.0".toList, [2, 0, 0])]⟩
    (by decide +kernel) (.inl ⟨rfl, rfl⟩) ?_
  decide +kernel

/-- The other order: the table says 2.0.0 of both names. -/
example : update 1000 (disk none [("a", dir "2.0.0" none), ("a_1.0.0", dir "1.0.0" none)]) =
    .ok ⟨[("data.lua".toList, "core".toList), ("data.lua".toList, "base".toList), ("data.lua".toList, "a".toList),
      ("data.lua".toList, "a_1.0.0".toList)], [("base".toList, [2, 0, 28]), ("a".toList, [2, 0, 0]), ("a_1.0.0".toList, [2, 0, 0])]⟩ := by
  decide +kernel

/-- Not proved because it is false: that leaving mods out leaves the official ones in, as the documentation says: everything that the list of
mods has is left out, and it has the base. -/
theorem C112_noMods_refuted : ¬ ∀ (limit : ℕ) (list : Option (List (String × Bool))) (o : Outcome),
    update limit (disk list []) = .ok o → update limit { disk list [] with noMods := true } = .ok o := by
  intro h
  have := h 1000 (some [("base", true)]) ⟨[("data.lua".toList, "core".toList), ("data.lua".toList, "base".toList)],
      [("base".toList, [2, 0, 28])]⟩ (by decide +kernel)
  revert this
  rw [show update 1000 { disk (some [("base", true)]) [] with noMods := true } = .ok ⟨[("data.lua".toList, "core".toList)], []⟩ by
    decide +kernel]
  decide

/-- A disk with mods that depend on each other, written in several ways, and one that is switched off. -/
def exDisk : Disk :=
  disk (some [("base", true), ("off", false)])
    [("z", dir "0.1.0" (some ["base >= 2.0", "? b", "!c"])), ("b", dir "1.2.3" (some ["~ z", "(?) q"])), ("off", dir "1.0.0" none)]

example : update 1000 exDisk =
    .ok ⟨[("data.lua".toList, "b".toList), ("data.lua".toList, "core".toList), ("data.lua".toList, "base".toList),
      ("data.lua".toList, "z".toList)], [("base".toList, [2, 0, 28]), ("z".toList, [0, 1, 0]), ("b".toList, [1, 2, 3])]⟩ := by
  decide +kernel

theorem ex_considered (n : List Char) (o : Obj) : Considered exDisk n o ↔
    (n = ['c', 'o', 'r', 'e'] ∧ o = .folder (some ⟨none, none, none⟩) ["data.lua".toList]) ∨ (n = ['b', 'a', 's', 'e'] ∧ o = dir "2.0.28" none) ∨
      (n = ['z'] ∧ o = dir "0.1.0" (some ["base >= 2.0", "? b", "!c"])) ∨ (n = ['b'] ∧ o = dir "1.2.3" (some ["~ z", "(?) q"])) := by
  rw [← mem_chosen, show chosen exDisk = [(['c', 'o', 'r', 'e'], .folder (some ⟨none, none, none⟩) ["data.lua".toList]),
    (['b', 'a', 's', 'e'], dir "2.0.28" none), (['z'], dir "0.1.0" (some ["base >= 2.0", "? b", "!c"])),
    (['b'], dir "1.2.3" (some ["~ z", "(?) q"]))] by decide +kernel]
  simp

/-- The dependencies of the example, as they are written. -/
theorem ex_written : Written "core".toList none "core".toList ∧ Written "base >= 2.0".toList none "base".toList ∧
    Written "? b".toList (some '?') "b".toList ∧ Written "!c".toList (some '!') "c".toList ∧ Written "~ z".toList (some '~') "z".toList ∧
    Written "(?) q".toList (some '?') "q".toList := by
  refine ⟨⟨[], [], [], by decide +kernel, .inl ⟨rfl, rfl⟩, by simp, ⟨'c', "ore".toList, by decide +kernel, by decide⟩, ?_, ?_⟩,
    ⟨[], [], ">=2.0".toList, by decide +kernel, .inl ⟨rfl, rfl⟩, by simp, ⟨'b', "ase".toList, by decide +kernel, by decide⟩, ?_, ?_⟩,
    ⟨[], [], [], by decide +kernel, .inl ⟨rfl, rfl⟩, by simp, ⟨'b', [], by decide +kernel, by decide⟩, ?_, ?_⟩,
    ⟨[], [], [], by decide +kernel, .inl ⟨rfl, rfl⟩, by simp, ⟨'c', [], by decide +kernel, by decide⟩, ?_, ?_⟩,
    ⟨[], [], [], by decide +kernel, .inl ⟨rfl, rfl⟩, by simp, ⟨'z', [], by decide +kernel, by decide⟩, ?_, ?_⟩,
    ⟨['('], [')'], [], by decide +kernel, .inr ⟨rfl, rfl⟩, by simp, ⟨'q', [], by decide +kernel, by decide⟩, ?_, ?_⟩⟩ <;>
  · unfold NameChar
    decide +kernel

theorem ex_lists (n : List Char) (i : Info) (st : List (List Char)) (s : List Char) (hc : Considered exDisk n (.folder (some i) st))
    (hl : Lists n i s) : (n = ['b', 'a', 's', 'e'] ∧ s = "core".toList) ∨
      (n = ['z'] ∧ (s = "base >= 2.0".toList ∨ s = "? b".toList ∨ s = "!c".toList)) ∨ (n = ['b'] ∧ (s = "~ z".toList ∨ s = "(?) q".toList)) := by
  rcases (ex_considered n _).1 hc with ⟨rfl, h⟩ | ⟨rfl, h⟩ | ⟨rfl, h⟩ | ⟨rfl, h⟩
  · exact absurd (by decide +kernel) hl.1
  · rcases hl.2 with ⟨-, h⟩ | ⟨h, -⟩
    · exact .inl ⟨rfl, h⟩
    · exact absurd (by decide +kernel) h
  · right; left
    rcases hl.2 with ⟨h', -⟩ | ⟨-, h'⟩
    · exact absurd h' (by decide +kernel)
    · cases h
      rcases h' with ⟨l, h1, h2⟩ | ⟨h1, -⟩
      · cases h1
        refine ⟨rfl, ?_⟩
        beta_reduce at h2
        rw [List.map_cons, List.map_cons, List.map_cons, List.map_nil, List.mem_cons, List.mem_cons, List.mem_singleton] at h2
        exact h2
      · cases h1
  · right; right
    rcases hl.2 with ⟨h', -⟩ | ⟨-, h'⟩
    · exact absurd h' (by decide +kernel)
    · cases h
      rcases h' with ⟨l, h1, h2⟩ | ⟨h1, -⟩
      · cases h1
        refine ⟨rfl, ?_⟩
        beta_reduce at h2
        rw [List.map_cons, List.map_cons, List.map_nil, List.mem_cons, List.mem_singleton] at h2
        exact h2
      · cases h1

theorem written_unique {s : List Char} {f f' : Option Char} {m m' : List Char} (h : Written s f m) (h' : Written s f' m') : f = f' ∧ m = m' := by
  have := (parseDep_written _ _ _ h).symm.trans (parseDep_written _ _ _ h')
  simpa using this

/-- The disk of the example is plain and sound. -/
example : Plain exDisk ∧ Sound 1000 exDisk := by
  obtain ⟨w1, w2, w3, w4, w5, w6⟩ := ex_written
  have cz : ∃ c, Considered exDisk ['z'] c := ⟨_, (ex_considered _ _).2 (.inr (.inr (.inl ⟨rfl, rfl⟩)))⟩
  have cb : ∃ c, Considered exDisk "base".toList c := ⟨_, (ex_considered _ _).2 (.inr (.inl ⟨by decide +kernel, rfl⟩))⟩
  have cc : ∃ c, Considered exDisk "core".toList c := ⟨_, (ex_considered _ _).2 (.inl ⟨by decide +kernel, rfl⟩)⟩
  refine ⟨⟨?_, ?_, by decide +kernel⟩, ⟨cc, ?_, ?_, fun n => if n = ['z'] then 2 else if n = ['b', 'a', 's', 'e'] then 1 else 0, ?_, ?_⟩⟩
  · intro n o h
    rcases (ex_considered n o).1 h with ⟨rfl, rfl⟩ | ⟨rfl, rfl⟩ | ⟨rfl, rfl⟩ | ⟨rfl, rfl⟩ <;> exact ⟨_, _, rfl⟩
  · intro n o h
    rcases (ex_considered n o).1 h with ⟨rfl, rfl⟩ | ⟨rfl, rfl⟩ | ⟨rfl, rfl⟩ | ⟨rfl, rfl⟩ <;> decide +kernel
  · intro n o h
    have v : ∃ t, versionStringToTuple "2.0".toList = .ok t ∧ (t = exDisk.game ∨ ModList.Newer exDisk.game t) :=
      ⟨[2, 0], by decide +kernel, .inr ⟨[2, 0], .inl ⟨28, [0], rfl, rfl⟩⟩⟩
    obtain ⟨t, v1, v2⟩ := v
    rcases (ex_considered n o).1 h with ⟨rfl, rfl⟩ | ⟨rfl, rfl⟩ | ⟨rfl, rfl⟩ | ⟨rfl, rfl⟩
    · exact ⟨_, _, rfl, fun h => absurd (by decide +kernel) h, fun h => absurd (by decide +kernel) h⟩
    · exact ⟨_, _, rfl, fun _ => ⟨_, [2, 0, 28], rfl, by decide +kernel⟩, fun _ _ => ⟨_, t, rfl, v1, v2⟩⟩
    · exact ⟨_, _, rfl, fun _ => ⟨_, [0, 1, 0], rfl, by decide +kernel⟩, fun _ _ => ⟨_, t, rfl, v1, v2⟩⟩
    · exact ⟨_, _, rfl, fun _ => ⟨_, [1, 2, 3], rfl, by decide +kernel⟩, fun _ _ => ⟨_, t, rfl, v1, v2⟩⟩
  · intro n i st s hc hl
    rcases ex_lists n i st s hc hl with ⟨-, rfl⟩ | ⟨-, rfl | rfl | rfl⟩ | ⟨-, rfl | rfl⟩
    · exact ⟨_, _, w1, by simp, fun _ => cc⟩
    · exact ⟨_, _, w2, by simp, fun _ => cb⟩
    · exact ⟨_, _, w3, by simp, by simp⟩
    · refine ⟨_, _, w4, fun _ c h => ?_, by simp⟩
      rcases (ex_considered _ c).1 h with ⟨h, -⟩ | ⟨h, -⟩ | ⟨h, -⟩ | ⟨h, -⟩ <;> exact absurd h (by decide +kernel)
    · exact ⟨_, _, w5, by simp, fun _ => cz⟩
    · exact ⟨_, _, w6, by simp, by simp⟩
  · intro n i st s flag m c hc hl hw hf hm
    rcases ex_lists n i st s hc hl with ⟨rfl, rfl⟩ | ⟨rfl, rfl | rfl | rfl⟩ | ⟨rfl, rfl | rfl⟩
    · obtain ⟨rfl, rfl⟩ := written_unique hw w1
      decide +kernel
    · obtain ⟨rfl, rfl⟩ := written_unique hw w2
      decide +kernel
    · obtain ⟨rfl, rfl⟩ := written_unique hw w3
      decide +kernel
    · obtain ⟨rfl, rfl⟩ := written_unique hw w4
      simp at hf
    · obtain ⟨rfl, rfl⟩ := written_unique hw w5
      simp at hf
    · obtain ⟨rfl, rfl⟩ := written_unique hw w6
      rcases (ex_considered _ c).1 hm with ⟨h, -⟩ | ⟨h, -⟩ | ⟨h, -⟩ | ⟨h, -⟩ <;> exact absurd h (by decide +kernel)
  · intro n c h
    rcases (ex_considered n c).1 h with ⟨rfl, -⟩ | ⟨rfl, -⟩ | ⟨rfl, -⟩ | ⟨rfl, -⟩ <;> decide +kernel

end EnvUpdate
end Draftsman
