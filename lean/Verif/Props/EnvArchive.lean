import Verif.Props.EnvUpdate

namespace Draftsman
namespace EnvUpdate
open ModLoad (isVer)
open Version (versionStringToTuple)

/-! ## C112: what is read of archives and folders, and which of two mods of a name gives way -/

/-- A version as it stands in the name of a file: digits and dots. -/
def VersionText (v : List Char) : Prop := v ≠ [] ∧ ∀ c ∈ v, c.isDigit = true ∨ c = '.'

/-- The name of a file is that of an archive of the mod `n`, version `v`; anything can follow. -/
def ArchiveName (file n v : List Char) : Prop := n ≠ [] ∧ VersionText v ∧ ∃ rest, file = n ++ '_' :: (v ++ '.' :: 'z' :: 'i' :: 'p' :: rest)

theorem isVer_iff (c : Char) : isVer c = true ↔ c.isDigit = true ∨ c = '.' := by simp [isVer]

theorem take_drop {v : List Char} (h : ∀ c ∈ v, c.isDigit = true ∨ c = '.') (t : List Char) :
    (v ++ '.' :: 'z' :: t).takeWhile isVer = v ++ ['.'] ∧ (v ++ '.' :: 'z' :: t).dropWhile isVer = 'z' :: t := by
  induction v with
  | nil => exact ⟨by simp [isVer], by simp [isVer]⟩
  | cons c v ih =>
    obtain ⟨h1, h2⟩ := ih fun a ha => h a (List.mem_cons_of_mem _ ha)
    have hc := (isVer_iff c).2 (h c List.mem_cons_self)
    exact ⟨by rw [List.cons_append, List.takeWhile_cons, if_pos hc, h1]; rfl, by rw [List.cons_append, List.dropWhile_cons, if_pos hc, h2]⟩

theorem archiveTail_iff (t v : List Char) :
    archiveTail t = some v ↔ VersionText v ∧ ∃ rest, t = v ++ '.' :: 'z' :: 'i' :: 'p' :: rest := by
  constructor
  · intro h
    unfold archiveTail at h
    simp only at h
    split at h
    · rename_i hc
      obtain ⟨h1, h2, h3⟩ := hc
      obtain rfl := Option.some.inj h
      have hne : t.takeWhile isVer ≠ [] := by rintro he; rw [he] at h1; simp at h1
      have hl : (t.takeWhile isVer).getLast hne = '.' := by
        rw [List.getLast?_eq_some_getLast hne] at h2; exact Option.some.inj h2
      have hd := List.dropLast_append_getLast hne
      rw [hl] at hd
      refine ⟨⟨?_, ?_⟩, ?_⟩
      · intro he
        have := congrArg List.length he
        rw [List.length_dropLast] at this
        simp at this
        omega
      · intro c hc
        have : c ∈ t.takeWhile isVer := List.dropLast_subset _ hc
        exact (isVer_iff c).1 (List.mem_takeWhile_imp this)
      · obtain ⟨rest, hr⟩ := List.isPrefixOf_iff_prefix.1 h3
        refine ⟨rest, ?_⟩
        conv_lhs => rw [← List.takeWhile_append_dropWhile (p := isVer) (l := t), ← hr, ← hd]
        simp
    · cases h
  · rintro ⟨⟨hv, hc⟩, rest, rfl⟩
    obtain ⟨h1, h2⟩ := take_drop hc ('i' :: 'p' :: rest)
    unfold archiveTail
    simp only [h1, h2]
    rw [if_pos]
    · simp
    · refine ⟨?_, by simp, by simp [List.isPrefixOf]⟩
      have := List.length_pos_of_ne_nil hv
      simp only [List.length_append, List.length_cons, List.length_nil]
      omega

theorem archive_cons (c : Char) (r n v : List Char) :
    ArchiveName (c :: r) n v ↔ (∃ p, n = c :: p ∧ ArchiveName r p v) ∨ (n = [c] ∧ ∃ t, r = '_' :: t ∧ archiveTail t = some v) := by
  constructor
  · rintro ⟨hn, hv, rest, he⟩
    cases n with
    | nil => exact absurd rfl hn
    | cons a p =>
      rw [List.cons_append, List.cons.injEq] at he
      obtain ⟨rfl, he⟩ := he
      by_cases hp : p = []
      · subst hp
        exact .inr ⟨rfl, _, he, (archiveTail_iff _ _).2 ⟨hv, rest, rfl⟩⟩
      · exact .inl ⟨p, rfl, hp, hv, rest, he⟩
  · rintro (⟨p, rfl, hp, hv, rest, rfl⟩ | ⟨rfl, t, rfl, ht⟩)
    · exact ⟨by simp, hv, rest, rfl⟩
    · obtain ⟨hv, rest, rfl⟩ := (archiveTail_iff _ _).1 ht
      exact ⟨by simp, hv, rest, rfl⟩

theorem split_some {r p v : List Char} (c : Char) (h : archiveSplit r = some (p, v)) : archiveSplit (c :: r) = some (c :: p, v) := by
  simp [archiveSplit, h]
theorem split_here {t : List Char} (c : Char) (h : archiveSplit ('_' :: t) = none) :
    archiveSplit (c :: '_' :: t) = (archiveTail t).map fun v => ([c], v) := by
  rw [archiveSplit.eq_def]
  simp only [h]
theorem split_other {r : List Char} (c : Char) (h : archiveSplit r = none) (hr : ∀ t, r ≠ '_' :: t) : archiveSplit (c :: r) = none := by
  rw [archiveSplit.eq_def]
  simp only [h]

theorem archiveSplit_none (file : List Char) : archiveSplit file = none → ∀ n v, ¬ ArchiveName file n v := by
  induction file with
  | nil =>
    rintro - n v ⟨hn, -, rest, he⟩
    exact absurd he (by simp)
  | cons c r ih =>
    intro h n v hnv
    cases hs : archiveSplit r with
    | some q => rw [split_some c hs] at h; cases h
    | none =>
      rcases (archive_cons _ _ _ _).1 hnv with ⟨p, rfl, hp⟩ | ⟨rfl, t, rfl, ht⟩
      · exact ih hs _ _ hp
      · rw [split_here c hs, ht] at h; cases h

/-- C112: of the name of an archive, the name of the mod is what stands before an underscore, digits and dots, and `.zip`, as long as it can
be. -/
theorem C112_archive_name (file n v : List Char) :
    archiveSplit file = some (n, v) ↔ ArchiveName file n v ∧ ∀ n' v', ArchiveName file n' v' → n'.length ≤ n.length := by
  have key : ∀ file n v, archiveSplit file = some (n, v) → ArchiveName file n v ∧ ∀ n' v', ArchiveName file n' v' → n'.length ≤ n.length := by
    intro file
    induction file with
    | nil => intro n v h; cases h
    | cons c r ih =>
      intro n v h
      cases hs : archiveSplit r with
      | some q =>
        obtain ⟨p, w⟩ := q
        rw [split_some c hs] at h
        cases h
        obtain ⟨h1, h2⟩ := ih _ _ hs
        refine ⟨(archive_cons _ _ _ _).2 (.inl ⟨p, rfl, h1⟩), fun n' v' h' => ?_⟩
        rcases (archive_cons _ _ _ _).1 h' with ⟨p', rfl, hp⟩ | ⟨rfl, -⟩
        · have := h2 _ _ hp; simp only [List.length_cons]; omega
        · simp
      | none =>
        by_cases hr : ∃ t, r = '_' :: t
        · obtain ⟨t, rfl⟩ := hr
          rw [split_here c hs] at h
          cases ht : archiveTail t with
          | none => rw [ht] at h; cases h
          | some w =>
            rw [ht] at h
            cases h
            refine ⟨(archive_cons _ _ _ _).2 (.inr ⟨rfl, t, rfl, ht⟩), fun n' v' h' => ?_⟩
            rcases (archive_cons _ _ _ _).1 h' with ⟨p', rfl, hp⟩ | ⟨rfl, -⟩
            · exact absurd hp (archiveSplit_none _ hs _ _)
            · simp
        · rw [split_other c hs fun t e => hr ⟨t, e⟩] at h
          cases h
  refine ⟨key file n v, fun ⟨h1, h2⟩ => ?_⟩
  cases hs : archiveSplit file with
  | none => exact absurd h1 (archiveSplit_none _ hs _ _)
  | some q =>
    obtain ⟨p, w⟩ := q
    obtain ⟨k1, k2⟩ := key _ _ _ hs
    have e : p.length = n.length := Nat.le_antisymm (h2 _ _ k1) (k2 _ _ h1)
    obtain ⟨-, hv, rest, he⟩ := h1
    obtain ⟨-, hw, rest', he'⟩ := k1
    obtain ⟨rfl, e2⟩ := List.append_inj (he'.symm.trans he) e
    have t1 := (archiveTail_iff _ w).2 ⟨hw, rest', rfl⟩
    have t2 := (archiveTail_iff _ v).2 ⟨hv, rest, rfl⟩
    rw [(List.cons.inj e2).2] at t1
    rw [t1] at t2
    rw [Option.some.inj t2]

theorem no_underscore {v : List Char} (h : VersionText v) : '_' ∉ v := by
  intro hm
  rcases h.2 _ hm with h | h <;> revert h <;> decide

/-- An archive called as the game calls them is read as that mod. -/
theorem archive_usual {n v : List Char} (hn : n ≠ []) (hv : VersionText v) :
    archiveSplit (n ++ '_' :: (v ++ ['.', 'z', 'i', 'p'])) = some (n, v) := by
  rw [C112_archive_name]
  refine ⟨⟨hn, hv, [], rfl⟩, ?_⟩
  rintro n' v' ⟨-, -, rest, he⟩
  by_contra hlt
  -- a longer name would end at an underscore within the version
  obtain ⟨x, rfl⟩ : ∃ x, n' = n ++ x := by
    obtain ⟨x, hx⟩ := (List.prefix_of_prefix_length_le ⟨_, rfl⟩ ⟨_, he.symm⟩ (by omega) : n <+: n')
    exact ⟨x, hx.symm⟩
  rw [List.append_assoc, List.append_cancel_left_eq] at he
  cases x with
  | nil => simp at hlt
  | cons a y =>
    rw [List.cons_append, List.cons.injEq] at he
    have hm : '_' ∈ v ++ ['.', 'z', 'i', 'p'] := by rw [he.2]; simp
    rcases List.mem_append.1 hm with hm | hm
    · exact no_underscore hv hm
    · simp at hm

/-- C112: an archive called `n_v.zip` is read as the mod `n`, blanks left out, with the version and the dependencies of its information, if it
has a folder of its own and information with a version; and as nothing else. -/
theorem C112_archive_read {n v : List Char} (hn : n ≠ []) (hv : VersionText v) (tops : List (List Char)) (info : Option Info)
    (st : List (List Char)) (m : Mod) (i : Info) :
    readMod (n ++ '_' :: (v ++ ['.', 'z', 'i', 'p'])) (.archive tops info st) = .ok (some (m, i)) ↔
      ((∃ t, tops = [t]) ∨ n ++ '_' :: v ∈ tops) ∧ info = some i ∧
        ∃ ver, i.version = some ver ∧ m = ⟨n.filter (· ≠ ' '), ver, true, i.deps, st⟩ := by
  have hz : isZip (n ++ '_' :: (v ++ ['.', 'z', 'i', 'p'])) = true := by
    unfold isZip
    rw [List.isSuffixOf_iff_suffix, List.map_append, List.map_cons, List.map_append]
    exact ⟨n.map Char.toLower ++ Char.toLower '_' :: v.map Char.toLower, by simp⟩
  unfold readMod
  rw [hz, archive_usual hn hv, ← List.length_eq_one_iff]
  simp only [if_true]
  split
  · rename_i ht
    rw [and_iff_right ht]
    cases info with
    | none => simp
    | some j =>
      cases hver : j.version with
      | none =>
        simp only [hver, reduceCtorEq, false_iff, not_and]
        rintro h ⟨ver, h2, -⟩
        rw [← Option.some.inj h, hver] at h2
        cases h2
      | some ver =>
        simp only [hver, Except.ok.injEq, Option.some.injEq, Prod.mk.injEq]
        constructor
        · rintro ⟨rfl, rfl⟩; exact ⟨rfl, ver, hver, rfl⟩
        · rintro ⟨rfl, ver', h2, rfl⟩
          rw [hver] at h2
          rw [Option.some.inj h2]
          exact ⟨rfl, rfl⟩
  · rename_i ht
    simp [ht]

/-- A name without blanks and dots. -/
def FolderText (n : List Char) : Prop := n ≠ [] ∧ ∀ c ∈ n, isSpace c = false ∧ c ≠ '.'

theorem folderChar_iff (c : Char) : isFolderChar c = true ↔ isSpace c = false ∧ c ≠ '.' := by simp [isFolderChar]

theorem folderBack_some (file p : List Char) (h : folderBack file = some p) :
    FolderText p ∧ ∃ v, VersionText v ∧ file = p ++ '_' :: v := by
  induction file generalizing p with
  | nil => cases h
  | cons c r ih =>
    rw [folderBack.eq_def] at h
    simp only at h
    split at h
    · rename_i hc
      have hc := (folderChar_iff c).1 hc
      cases hb : folderBack r with
      | some q =>
        rw [hb] at h
        cases h
        obtain ⟨⟨-, h1⟩, v, hv, rfl⟩ := ih q hb
        refine ⟨⟨by simp, ?_⟩, v, hv, rfl⟩
        intro a ha
        rcases List.mem_cons.1 ha with rfl | ha
        · exact hc
        · exact h1 a ha
      | none =>
        rw [hb] at h
        simp only at h
        split at h
        · rename_i v
          split at h
          · rename_i hv
            cases h
            refine ⟨⟨by simp, by simpa using hc⟩, v, ⟨hv.1, fun a ha => ?_⟩, rfl⟩
            exact (isVer_iff a).1 (List.all_eq_true.1 hv.2 a ha)
          · cases h
        · cases h
    · cases h

theorem folderBack_none (file : List Char) (h : folderBack file = none) (p v : List Char) (hp : FolderText p) (hv : VersionText v) :
    file ≠ p ++ '_' :: v := by
  induction file generalizing p with
  | nil => simp
  | cons c r ih =>
    rintro he
    obtain ⟨hp, hc⟩ := hp
    cases p with
    | nil => exact hp rfl
    | cons a q =>
      rw [List.cons_append, List.cons.injEq] at he
      obtain ⟨rfl, rfl⟩ := he
      rw [folderBack.eq_def] at h
      simp only [(folderChar_iff c).2 (hc c List.mem_cons_self), if_true] at h
      cases hb : folderBack (q ++ '_' :: v) with
      | some x => rw [hb] at h; cases h
      | none =>
        by_cases hq : q = []
        · subst hq
          rw [hb] at h
          simp only [List.nil_append] at h
          rw [if_pos ⟨hv.1, List.all_eq_true.2 fun a ha => (isVer_iff a).2 (hv.2 a ha)⟩] at h
          cases h
        · exact ih hb q ⟨hq, fun a ha => hc a (List.mem_cons_of_mem _ ha)⟩ rfl

/-- C112: the name of a folder is that of the mod if it has neither blanks nor dots; otherwise it must end in an underscore and a version, which
are left out; other folders are refused. -/
theorem C112_folder_name (file : List Char) :
    (FolderText file → folderName file = some file) ∧
    (∀ n v, FolderText n → VersionText v → '.' ∈ v → folderName (n ++ '_' :: v) = some n) ∧
    (∀ n, folderName file = some n → FolderText n ∧ (file = n ∨ ∃ v, VersionText v ∧ file = n ++ '_' :: v)) := by
  refine ⟨fun h => plain_name h.1 h.2, ?_, ?_⟩
  · intro n v hn hv hd
    unfold folderName
    rw [if_neg]
    · cases hb : folderBack (n ++ '_' :: v) with
      | none => exact absurd rfl (folderBack_none _ hb n v hn hv)
      | some p =>
        obtain ⟨hp, w, hw, he⟩ := folderBack_some _ _ hb
        -- both end at the last underscore
        have key : ∀ (a b x y : List Char), '_' ∉ x → '_' ∉ y → a ++ '_' :: x = b ++ '_' :: y → a = b := by
          intro a
          induction a with
          | nil =>
            intro b x y hx hy e
            cases b with
            | nil => rfl
            | cons c b =>
              simp only [List.nil_append, List.cons_append, List.cons.injEq] at e
              exact absurd (e.2 ▸ by simp) hx
          | cons c a ih =>
            intro b x y hx hy e
            cases b with
            | nil =>
              simp only [List.nil_append, List.cons_append, List.cons.injEq] at e
              exact absurd (e.2.symm ▸ by simp) hy
            | cons c' b =>
              simp only [List.cons_append, List.cons.injEq] at e
              rw [e.1, ih b x y hx hy e.2]
        rw [key _ _ _ _ (no_underscore hv) (no_underscore hw) he]
    · rintro ⟨-, h⟩
      have := (folderChar_iff '.').1 (List.all_eq_true.1 h '.' (by simp [hd]))
      exact this.2 rfl
  · intro n h
    unfold folderName at h
    split at h
    · rename_i hc
      cases h
      exact ⟨⟨hc.1, fun c hm => (folderChar_iff c).1 (List.all_eq_true.1 hc.2 c hm)⟩, .inl rfl⟩
    · obtain ⟨h1, h2⟩ := folderBack_some _ _ h
      exact ⟨h1, .inr h2⟩

/-- C112: of two mods of a name the newer is used, of two of the same version the folder; of two folders or two archives the first. -/
theorem C112_replaces (p c : Mod) (v w : List Int) (hv : versionStringToTuple p.version = .ok v) (hw : versionStringToTuple c.version = .ok w) :
    ∃ b, replaces p c = .ok b ∧ (b = true ↔ ModList.Newer w v ∨ v = w ∧ p.archive = true ∧ c.archive = false) := by
  unfold replaces
  rw [hv, hw]
  simp only
  split
  · rename_i h
    exact ⟨true, rfl, by simp [(ModList.tupleLt_iff _ _).1 h]⟩
  · rename_i h
    split
    · rename_i h'
      refine ⟨false, rfl, ?_⟩
      simp only [Bool.false_eq_true, false_iff, not_or, not_and]
      refine ⟨fun hn => h ((ModList.tupleLt_iff _ _).2 hn), ?_⟩
      rintro rfl
      rw [ModList.tupleLt_irrefl] at h'
      cases h'
    · rename_i h'
      have e : v = w := by
        rcases ModList.tupleLt_total v w with a | a | a
        · exact absurd a h
        · exact a
        · exact absurd a h'
      subst e
      refine ⟨_, rfl, ?_⟩
      have : ¬ ModList.Newer v v := fun hn => h ((ModList.tupleLt_iff _ _).2 hn)
      simp [this]

/-- `my_mod_1.0.2.zip` and the folder `my_mod_1.0.2` are of `my_mod`; a name with blanks is read too. -/
example : archiveSplit "my_mod_1.0.2.zip".toList = some ("my_mod".toList, "1.0.2".toList) ∧
    VersionText "1.0.2".toList ∧ FolderText "my_mod".toList ∧ folderName "my_mod_1.0.2".toList = some "my_mod".toList ∧
    folderName "my mod".toList = none := by
  refine ⟨by decide +kernel, ⟨by decide +kernel, by decide +kernel⟩, ⟨by decide +kernel, by decide +kernel⟩, by decide +kernel, by decide +kernel⟩

example : replaces ⟨"a".toList, "1.2".toList, true, none, []⟩ ⟨"a".toList, "1.2".toList, false, none, []⟩ = .ok true ∧
    replaces ⟨"a".toList, "1.2".toList, false, none, []⟩ ⟨"a".toList, "1.10".toList, true, none, []⟩ = .ok true ∧
    replaces ⟨"a".toList, "1.2".toList, false, none, []⟩ ⟨"a".toList, "1.2".toList, true, none, []⟩ = .ok false ∧
    versionStringToTuple "1.2".toList = .ok [1, 2] := by decide +kernel

end EnvUpdate
end Draftsman
