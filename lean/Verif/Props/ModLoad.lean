import Verif.Model.ModLoad
import Verif.Props.ModList
import Mathlib.Data.List.TakeWhile
import Verif.Proof.Dict
import Verif.Proof.Except

namespace Draftsman
namespace ModLoad
open ModList (Newer tupleLt tupleLt_iff tupleLt_total tupleLt_irrefl tupleLt_trans)

/-! ## C70: the order in which mods are loaded -/

/-- The numbers `v` stand to the numbers `w` as the sign says. -/
def Cmp (op : List Char) (v w : List ℤ) : Prop :=
  op = "==".toList ∧ v = w ∨ op = ">=".toList ∧ (v = w ∨ Newer v w) ∨ op = "<=".toList ∧ (v = w ∨ Newer w v) ∨
    op = ">".toList ∧ Newer v w ∨ op = "<".toList ∧ Newer w v

/-- The mod has a version that the dependency admits. -/
def Meets (d : Dep) (m : Mod) : Prop :=
  ∀ s, d.version = some s → ∃ op v w, d.op = some op ∧ Version.versionStringToTuple m.version = .ok v ∧
    Version.versionStringToTuple s = .ok w ∧ Cmp op v w

/-- `d` is a dependency of the mod `m` of the name `n`: the core has none, the base depends on the core whatever it says, every other mod has
those it lists. -/
def Needs (n : List Char) (m : Mod) (d : Dep) : Prop :=
  n ≠ "core".toList ∧ (n = "base".toList ∧ d = ⟨none, "core".toList, none, none⟩ ∨ n ≠ "base".toList ∧ d ∈ m.deps)

/-- All mods can be loaded, in the sense of the program. -/
structure Orderly (limit : ℕ) (mods : Mods) : Prop where
  /-- The core lists nothing. -/
  core : ∀ m, mods.get? "core".toList = some m → m.deps = []
  /-- Every dependency listed is one that must come first. -/
  plain : ∀ n m d, mods.get? n = some m → Needs n m d → d.flag = none ∨ d.flag = some .optional ∨ d.flag = some .hidden
  /-- And it is there, in an admitted version. -/
  met : ∀ n m d, mods.get? n = some m → Needs n m d → ∃ k, mods.get? d.name = some k ∧ Meets d k
  /-- There are no circles and no chains longer than the interpreter's limit. -/
  rank : ∃ r : List Char → ℕ, (∀ n m d, mods.get? n = some m → Needs n m d → r d.name < r n) ∧ ∀ n ∈ mods.keys, r n < limit

theorem mem_effDeps (n : List Char) (m : Mod) (d : Dep) (hn : n ≠ "core".toList) : d ∈ effDeps n m ↔ Needs n m d := by
  unfold effDeps Needs
  by_cases hb : n = "base".toList
  · rw [if_pos hb]
    simp [hb]
  · rw [if_neg hb]
    exact ⟨fun h => ⟨hn, .inr ⟨hb, h⟩⟩, fun h => h.2.elim (fun h => absurd h.1 hb) (·.2)⟩

theorem verOk_iff (op : List Char) (v w : List ℤ) (h : op ∈ opList) : verOk op v w = true ↔ Cmp op v w := by
  have total : ∀ a b : List ℤ, (!tupleLt a b) = true ↔ a = b ∨ Newer a b := by
    intro a b
    rw [← tupleLt_iff]
    rcases tupleLt_total a b with h | h | h
    · simp only [h, Bool.not_true, Bool.false_eq_true, false_iff, not_or]
      refine ⟨?_, ?_⟩
      · rintro rfl
        rw [tupleLt_irrefl] at h
        cases h
      · intro h'
        have := tupleLt_trans _ _ _ h h'
        rw [tupleLt_irrefl] at this
        cases this
    · subst h
      simp [tupleLt_irrefl]
    · simp only [h, or_true, iff_true, Bool.not_eq_true']
      cases hb : tupleLt a b with
      | false => rfl
      | true =>
        have := tupleLt_trans _ _ _ h hb
        rw [tupleLt_irrefl] at this
        cases this
  simp only [opList, List.mem_cons, List.not_mem_nil, or_false] at h
  rcases h with rfl | rfl | rfl | rfl | rfl
  · simp [verOk, Cmp]
  · simp only [verOk, reduceCtorEq, List.cons.injEq, Char.reduceEq, and_true, if_false, if_true, Cmp, String.reduceToList]
    simp [total]
  · simp only [verOk, reduceCtorEq, List.cons.injEq, Char.reduceEq, and_true, if_false, if_true, Cmp, String.reduceToList]
    simp [total, eq_comm]
  · simp [verOk, Cmp, tupleLt_iff]
  · simp [verOk, Cmp, tupleLt_iff]

theorem checkVersion_ok (d : Dep) (m : Mod) : (∃ u, checkVersion m.version d = .ok u) ↔ Meets d m := by
  unfold checkVersion Meets
  cases hv : d.version with
  | none => simp
  | some s =>
    simp only [Option.some.injEq]
    cases ho : d.op with
    | none =>
      constructor
      · rintro ⟨u, h⟩; cases h
      · intro h; obtain ⟨op, v, w, h, -⟩ := h s rfl; cases h
    | some op =>
      dsimp only
      by_cases hop : op ∈ opList
      · rw [if_neg (by simpa using hop)]
        cases ha : Version.versionStringToTuple m.version with
        | error e =>
          constructor
          · rintro ⟨u, h⟩; cases h
          · intro h; obtain ⟨op, v, w, -, h, -⟩ := h s rfl; cases h
        | ok a =>
          dsimp only
          cases hb : Version.versionStringToTuple s with
          | error e =>
            constructor
            · rintro ⟨u, h⟩; cases h
            · intro h; obtain ⟨op, v, w, -, -, h, -⟩ := h s rfl; rw [hb] at h; cases h
          | ok b =>
            dsimp only
            by_cases hc : verOk op a b = true
            · rw [if_pos hc]
              refine ⟨fun _ => ?_, fun _ => ⟨(), rfl⟩⟩
              rintro s rfl
              exact ⟨op, a, b, rfl, rfl, hb, (verOk_iff op a b hop).1 hc⟩
            · rw [if_neg hc]
              constructor
              · rintro ⟨u, h⟩; cases h
              · intro h
                obtain ⟨op', v, w, h1, h2, h3, h4⟩ := h s rfl
                rw [hb] at h3
                cases h1; cases h2; cases h3
                exact absurd ((verOk_iff op a b hop).2 h4) hc
      · rw [if_pos hop]
        constructor
        · rintro ⟨u, h⟩; cases h
        · intro h
          obtain ⟨op', v, w, h1, -, -, h4⟩ := h s rfl
          cases h1
          refine absurd ?_ hop
          rcases h4 with ⟨rfl, -⟩ | ⟨rfl, -⟩ | ⟨rfl, -⟩ | ⟨rfl, -⟩ | ⟨rfl, -⟩ <;> simp [opList]

/-- What becomes of a dependency: replaced by the mod, if it is one of the flags that allow it. -/
theorem resolveDep_mod (mods : Mods) (d : Dep) (x : RDep) :
    resolveDep mods d = .ok x → (∀ d', x ≠ .left d') → x = .mod d.name ∧ (d.flag = none ∨ d.flag = some .optional ∨ d.flag = some .hidden) ∧
      ∃ k, mods.get? d.name = some k ∧ Meets d k := by
  intro h hx
  unfold resolveDep at h
  split at h
  · split at h
    · cases h
    · cases h; exact absurd rfl (hx d)
  · rename_i hf
    split at h
    · cases h; exact absurd rfl (hx d)
    · cases hk : mods.get? d.name with
      | none => rw [hk] at h; cases h
      | some k =>
        rw [hk] at h
        dsimp only at h
        cases hc : checkVersion k.version d with
        | error e => rw [hc] at h; cases h
        | ok u =>
          rw [hc] at h
          dsimp only at h
          split at h
          · cases h; exact absurd rfl (hx d)
          · rename_i hu
            cases h
            refine ⟨rfl, ?_, k, rfl, (checkVersion_ok d k).1 ⟨u, hc⟩⟩
            cases hd : d.flag with
            | none => exact .inl rfl
            | some f => cases f <;> simp_all

theorem resolveDep_ok (mods : Mods) (d : Dep) (hf : d.flag = none ∨ d.flag = some .optional ∨ d.flag = some .hidden) (k : Mod)
    (hk : mods.get? d.name = some k) (hm : Meets d k) : resolveDep mods d = .ok (.mod d.name) := by
  obtain ⟨u, hu⟩ := (checkVersion_ok d k).2 hm
  unfold resolveDep
  rw [if_neg (by rintro h; rw [h] at hf; simp at hf), if_neg (by rw [hk]; rintro ⟨-, h⟩; cases h), hk]
  dsimp only
  rw [hu]
  dsimp only
  rw [if_neg (by rintro h; rw [h] at hf; simp at hf)]

theorem resolveAll_get (mods l : Mods) (g : Dict (List Char) (List RDep)) (h : resolveAll mods l = .ok g) (n : List Char) :
    (∀ m, l.get? n = some m → ∃ ds, resolveMod mods n m = .ok ds ∧ g.get? n = some ds) ∧ (l.get? n = none → g.get? n = none) := by
  induction l generalizing g with
  | nil =>
    simp only [resolveAll, Except.ok.injEq] at h
    subst h
    simp
  | cons p r ih =>
    obtain ⟨a, m⟩ := p
    unfold resolveAll at h
    cases hm : resolveMod mods a m with
    | error e => rw [hm] at h; cases h
    | ok ds =>
      rw [hm] at h
      dsimp only at h
      cases hr : resolveAll mods r with
      | error e => rw [hr] at h; cases h
      | ok t =>
        rw [hr] at h
        cases h
        simp only [Dict.get?]
        by_cases ha : a = n
        · subst ha
          rw [if_pos rfl]
          simp [hm]
        · rw [if_neg ha, if_neg ha]
          exact ih t hr

theorem resolveAll_ok (mods l : Mods) (h : ∀ p ∈ l, ∃ ds, resolveMod mods p.1 p.2 = .ok ds) : ∃ g, resolveAll mods l = .ok g := by
  induction l with
  | nil => exact ⟨[], rfl⟩
  | cons p r ih =>
    obtain ⟨ds, hd⟩ := h p List.mem_cons_self
    obtain ⟨g, hg⟩ := ih fun q hq => h q (List.mem_cons_of_mem _ hq)
    unfold resolveAll
    rw [hd]
    dsimp only
    rw [hg]
    exact ⟨_, rfl⟩

theorem depthLoop_ok (sub : List Char → Except PyErr ℕ) (l : List RDep) (acc k : ℕ) (h : depthLoop sub acc l = .ok k) :
    acc ≤ k ∧ ∀ x ∈ l, ∃ d y, x = .mod d ∧ sub d = .ok y ∧ acc + y ≤ k := by
  induction l generalizing acc with
  | nil =>
    cases h
    simp
  | cons x r ih =>
    cases x with
    | left d => cases h
    | mod d =>
      unfold depthLoop at h
      cases hs : sub d with
      | error e => rw [hs] at h; cases h
      | ok y =>
        rw [hs] at h
        dsimp only at h
        obtain ⟨h1, h2⟩ := ih _ h
        refine ⟨by omega, ?_⟩
        intro z hz
        rcases List.mem_cons.1 hz with rfl | hz
        · exact ⟨d, y, rfl, hs, by omega⟩
        · obtain ⟨d', y', e1, e2, e3⟩ := h2 z hz
          exact ⟨d', y', e1, e2, by omega⟩

theorem depthLoop_exists (sub : List Char → Except PyErr ℕ) (l : List RDep) (acc : ℕ)
    (h : ∀ x ∈ l, ∃ d y, x = .mod d ∧ sub d = .ok y) : ∃ k, depthLoop sub acc l = .ok k := by
  induction l generalizing acc with
  | nil => exact ⟨acc, rfl⟩
  | cons x r ih =>
    obtain ⟨d, y, rfl, hs⟩ := h x List.mem_cons_self
    unfold depthLoop
    rw [hs]
    exact ih _ fun z hz => h z (List.mem_cons_of_mem _ hz)

theorem depthLoop_mono (sub sub' : List Char → Except PyErr ℕ) (hs : ∀ d y, sub d = .ok y → sub' d = .ok y) (l : List RDep) (acc k : ℕ)
    (h : depthLoop sub acc l = .ok k) : depthLoop sub' acc l = .ok k := by
  induction l generalizing acc with
  | nil => exact h
  | cons x r ih =>
    cases x with
    | left d => cases h
    | mod d =>
      unfold depthLoop at h ⊢
      cases hd : sub d with
      | error e => rw [hd] at h; cases h
      | ok y =>
        rw [hd] at h
        rw [hs d y hd]
        exact ih _ h

theorem depth_succ (g : Dict (List Char) (List RDep)) (f : ℕ) (n : List Char) (k : ℕ) (h : depth g f n = .ok k) :
    depth g (f + 1) n = .ok k := by
  induction f generalizing n k with
  | zero => cases h
  | succ f ih =>
    unfold depth at h ⊢
    exact depthLoop_mono _ _ (fun d y hd => ih d y hd) _ _ _ h

theorem depth_mono (g : Dict (List Char) (List RDep)) (f f' : ℕ) (hf : f ≤ f') (n : List Char) (k : ℕ) (h : depth g f n = .ok k) :
    depth g f' n = .ok k := by
  induction hf with
  | refl => exact h
  | step _ ih => exact depth_succ _ _ _ _ ih

/-- The dependencies of a mod whose depth is known have smaller depths, found with one call less. -/
theorem depth_dep (g : Dict (List Char) (List RDep)) (f : ℕ) (n : List Char) (k : ℕ) (h : depth g f n = .ok k) (ds : List RDep)
    (hg : g.get? n = some ds) (x : RDep) (hx : x ∈ ds) : ∃ d y f', x = .mod d ∧ f = f' + 1 ∧ depth g f' d = .ok y ∧ y < k := by
  cases f with
  | zero => cases h
  | succ f =>
    unfold depth at h
    rw [hg] at h
    obtain ⟨-, h2⟩ := depthLoop_ok _ _ _ _ h
    obtain ⟨d, y, h3, h4, h5⟩ := h2 x hx
    exact ⟨d, y, f, h3, rfl, h4, by omega⟩

theorem forall₂_mem_left {α β : Type} {R : α → β → Prop} {l : List α} {r : List β} (h : List.Forall₂ R l r) (a : α) (ha : a ∈ l) :
    ∃ b ∈ r, R a b := by
  induction h with
  | nil => cases ha
  | cons h1 h2 ih =>
    rcases List.mem_cons.1 ha with rfl | ha
    · exact ⟨_, List.mem_cons_self, h1⟩
    · obtain ⟨b, hb, hR⟩ := ih ha
      exact ⟨b, List.mem_cons_of_mem _ hb, hR⟩

theorem forall₂_mem_right {α β : Type} {R : α → β → Prop} {l : List α} {r : List β} (h : List.Forall₂ R l r) (b : β) (hb : b ∈ r) :
    ∃ a ∈ l, R a b := by
  induction h with
  | nil => cases hb
  | cons h1 h2 ih =>
    rcases List.mem_cons.1 hb with rfl | hb
    · exact ⟨_, List.mem_cons_self, h1⟩
    · obtain ⟨a, ha, hR⟩ := ih hb
      exact ⟨a, List.mem_cons_of_mem _ ha, hR⟩

/-! ### The keys of the sort -/

theorem codes_injective {a b : List Char} (h : (a.map fun c => (c.toNat : ℤ)) = b.map fun c => (c.toNat : ℤ)) : a = b := by
  have : Function.Injective fun c : Char => (c.toNat : ℤ) := by
    intro x y h
    have : x.toNat = y.toNat := by simpa using h
    exact Char.toNat_inj.1 this
  exact List.map_injective_iff.2 this h

theorem strLt_total (a b : List Char) : strLt a b = true ∨ a = b ∨ strLt b a = true := by
  rcases tupleLt_total (a.map fun c => (c.toNat : ℤ)) (b.map fun c => (c.toNat : ℤ)) with h | h | h
  · exact .inl h
  · exact .inr (.inl (codes_injective h))
  · exact .inr (.inr h)

theorem strLt_irrefl (a : List Char) : strLt a a = false := tupleLt_irrefl _

theorem strLt_trans (a b c : List Char) : strLt a b = true → strLt b c = true → strLt a c = true := tupleLt_trans _ _ _

theorem strLt_asymm (a b : List Char) (h : strLt a b = true) : strLt b a = false := by
  cases hb : strLt b a with
  | false => rfl
  | true =>
    have := strLt_trans _ _ _ h hb
    rw [strLt_irrefl] at this
    cases this

/-- The order of the keys, without negation. -/
theorem keyLe_iff (a b : ℕ × List Char) : keyLe a b = true ↔ a.1 < b.1 ∨ a.1 = b.1 ∧ (strLt a.2 b.2 = true ∨ a.2 = b.2) := by
  unfold keyLe
  by_cases h : a.1 = b.1
  · rw [if_pos h]
    simp only [h, lt_irrefl, true_and, false_or, Bool.not_eq_true']
    rcases strLt_total a.2 b.2 with h' | h' | h'
    · simp [h', strLt_asymm _ _ h']
    · simp [h', strLt_irrefl]
    · simp only [h', Bool.true_eq_false, false_iff, not_or, strLt_asymm _ _ h', Bool.false_eq_true, not_false_eq_true, true_and]
      intro e
      rw [e, strLt_irrefl] at h'
      cases h'
  · rw [if_neg h]
    simp [h]

instance : Std.Total fun a b : ℕ × List Char => keyLe a b = true where
  total a b := by
    rw [keyLe_iff, keyLe_iff]
    rcases Nat.lt_trichotomy a.1 b.1 with h | h | h
    · exact .inl (.inl h)
    · rcases strLt_total a.2 b.2 with h' | h' | h'
      · exact .inl (.inr ⟨h, .inl h'⟩)
      · exact .inl (.inr ⟨h, .inr h'⟩)
      · exact .inr (.inr ⟨h.symm, .inl h'⟩)
    · exact .inr (.inl h)

instance : IsTrans (ℕ × List Char) fun a b => keyLe a b = true where
  trans a b c := by
    rw [keyLe_iff, keyLe_iff, keyLe_iff]
    rintro (h1 | ⟨h1, h1'⟩) (h2 | ⟨h2, h2'⟩)
    · exact .inl (by omega)
    · exact .inl (by omega)
    · exact .inl (by omega)
    · refine .inr ⟨by omega, ?_⟩
      rcases h1' with h1' | h1' <;> rcases h2' with h2' | h2'
      · exact .inl (strLt_trans _ _ _ h1' h2')
      · exact .inl (h2' ▸ h1')
      · exact .inl (h1' ▸ h2')
      · exact .inr (h1'.trans h2')

instance : Std.Antisymm fun a b : ℕ × List Char => keyLe a b = true where
  antisymm a b := by
    rw [keyLe_iff, keyLe_iff]
    rintro (h1 | ⟨h1, h1'⟩) (h2 | ⟨h2, h2'⟩)
    · omega
    · omega
    · omega
    · refine Prod.ext h1 ?_
      rcases h1' with h1' | h1' <;> rcases h2' with h2' | h2'
      · rw [strLt_asymm _ _ h1'] at h2'; cases h2'
      · exact h2'.symm
      · exact h1'
      · exact h1'

/-- What a load order is made of. -/
theorem loadOrder_spec (limit : ℕ) (mods : Mods) (l : List (List Char)) (h : loadOrder limit mods = .ok l) :
    ∃ g ks, resolveAll mods mods = .ok g ∧ List.Forall₂ (fun n (p : ℕ × List Char) => depth g limit n = .ok p.1 ∧ p.2 = n) mods.keys ks ∧
      l = (ks.insertionSort fun a b => keyLe a b = true).map Prod.snd := by
  unfold loadOrder at h
  cases hg : resolveAll mods mods with
  | error e => rw [hg] at h; cases h
  | ok g =>
    rw [hg] at h
    dsimp only at h
    split at h
    · cases h
    · rename_i ks hks
      cases h
      refine ⟨g, ks, rfl, ?_, rfl⟩
      rw [mapM_ok_iff] at hks
      refine hks.imp ?_
      intro n p hp
      cases hd : depth g limit n with
      | error e => rw [hd] at hp; cases hp
      | ok k =>
        rw [hd] at hp
        cases hp
        exact ⟨rfl, rfl⟩

theorem forall₂_snd {g : Dict (List Char) (List RDep)} {limit : ℕ} {ns : List (List Char)} {ks : List (ℕ × List Char)}
    (h : List.Forall₂ (fun n (p : ℕ × List Char) => depth g limit n = .ok p.1 ∧ p.2 = n) ns ks) : ks.map Prod.snd = ns := by
  induction h with
  | nil => rfl
  | cons h1 _ ih => simp [h1.2, ih]

/-- Every mod that was selected is loaded once, and nothing else is. -/
theorem C70_all (limit : ℕ) (mods : Mods) (l : List (List Char)) (h : loadOrder limit mods = .ok l) : l.Perm mods.keys := by
  obtain ⟨g, ks, -, hks, rfl⟩ := loadOrder_spec _ _ _ h
  exact ((List.perm_insertionSort _ ks).map Prod.snd).trans (List.Perm.of_eq (forall₂_snd hks))

/-- What a successful run says about one dependency. -/
theorem ok_dep (limit : ℕ) (mods : Mods) (l : List (List Char)) (g : Dict (List Char) (List RDep)) (h : loadOrder limit mods = .ok l)
    (hg : resolveAll mods mods = .ok g) (n : List Char) (m : Mod) (d : Dep) (hm : mods.get? n = some m) (hd : Needs n m d) :
    (d.flag = none ∨ d.flag = some .optional ∨ d.flag = some .hidden) ∧ (∃ k, mods.get? d.name = some k ∧ Meets d k) ∧
      ∃ ds, g.get? n = some ds ∧ .mod d.name ∈ ds := by
  obtain ⟨g', ks, hg', hks, -⟩ := loadOrder_spec _ _ _ h
  rw [hg] at hg'
  cases hg'
  obtain ⟨ds, hds, hgn⟩ := (resolveAll_get _ _ _ hg n).1 m hm
  have hnk : n ∈ mods.keys := (Dict.get?_isSome _ _).1 (by rw [hm]; rfl)
  obtain ⟨p, -, hp, -⟩ := forall₂_mem_left hks n hnk
  have hleft : ∀ x ∈ ds, ∀ d', x ≠ .left d' := by
    intro x hx d' e
    obtain ⟨d2, -, -, e2, -⟩ := depth_dep _ _ _ _ hp ds hgn x hx
    rw [e] at e2
    cases e2
  unfold resolveMod at hds
  rw [if_neg hd.1, mapM_ok_iff] at hds
  obtain ⟨x, hx, hr⟩ := forall₂_mem_left hds d ((mem_effDeps _ _ _ hd.1).2 hd)
  obtain ⟨e, hf, hk⟩ := resolveDep_mod mods d x hr (hleft x hx)
  exact ⟨hf, hk, ds, hgn, e ▸ hx⟩

/-- Every mod comes after the mods it depends on. -/
theorem C70_before (limit : ℕ) (mods : Mods) (l : List (List Char)) (h : loadOrder limit mods = .ok l)
    (n : List Char) (m : Mod) (d : Dep) (hm : mods.get? n = some m) (hd : Needs n m d) (i : ℕ) (hi : l[i]? = some n) :
    ∃ j, j < i ∧ l[j]? = some d.name ∧ ∀ j', l[j']? = some d.name → j' < i := by
  obtain ⟨g, ks, hg, hks, hl⟩ := loadOrder_spec _ _ _ h
  obtain ⟨-, ⟨k, hk, -⟩, ds, hgn, hx⟩ := ok_dep limit mods l g h hg n m d hm hd
  have hnk : n ∈ mods.keys := (Dict.get?_isSome _ _).1 (by rw [hm]; rfl)
  have hdk : d.name ∈ mods.keys := (Dict.get?_isSome _ _).1 (by rw [hk]; rfl)
  obtain ⟨⟨kn, n'⟩, hpn, hdn, rfl⟩ := forall₂_mem_left hks n hnk
  obtain ⟨d2, y, f', e2, ef, hy, hlt⟩ := depth_dep _ _ _ _ hdn ds hgn _ hx
  cases e2
  have hy' := depth_mono g f' limit (by omega) _ _ hy
  have sorted := List.pairwise_insertionSort (fun a b : ℕ × List Char => keyLe a b = true) ks
  have perm := List.perm_insertionSort (fun a b : ℕ × List Char => keyLe a b = true) ks
  have hall : ∀ p ∈ ks.insertionSort fun a b => keyLe a b = true, depth g limit p.2 = .ok p.1 := by
    intro p hp
    obtain ⟨a, -, h1, h2⟩ := forall₂_mem_right hks p (perm.mem_iff.1 hp)
    rw [h2]
    exact h1
  generalize ks.insertionSort (fun a b => keyLe a b = true) = S at hl sorted perm hall
  have key : ∀ j', l[j']? = some d.name → j' < i := by
    intro j' hj'
    rw [hl, List.getElem?_map, Option.map_eq_some_iff] at hi hj'
    obtain ⟨p, hp, hpn'⟩ := hi
    obtain ⟨q, hq, hqn⟩ := hj'
    have hpd := hall p (List.mem_of_getElem? hp)
    have hqd := hall q (List.mem_of_getElem? hq)
    rw [hpn', hdn] at hpd
    rw [hqn, hy'] at hqd
    simp only [Except.ok.injEq] at hpd hqd
    by_contra hle
    rcases Nat.lt_or_eq_of_le (Nat.le_of_not_lt hle) with hij | hij
    · obtain ⟨hi', hpe⟩ := List.getElem?_eq_some_iff.1 hp
      obtain ⟨hj'', hqe⟩ := List.getElem?_eq_some_iff.1 hq
      have := List.pairwise_iff_getElem.1 sorted i j' hi' hj'' hij
      rw [hpe, hqe, keyLe_iff] at this
      omega
    · rw [hij, hq] at hp
      cases hp
      omega
  have hmem : d.name ∈ l := by
    rw [hl, List.mem_map]
    obtain ⟨q, hq, -, hq2⟩ := forall₂_mem_left hks d.name hdk
    exact ⟨q, perm.mem_iff.2 hq, hq2⟩
  obtain ⟨j, hj⟩ := List.mem_iff_getElem?.1 hmem
  exact ⟨j, key j hj, hj, key⟩

/-- Loading succeeds exactly when the core lists nothing, every dependency listed by the others is one that must come first and is there in
an admitted version, and there are no circles.  Missing for the claim: incompatible mods that are not there, optional mods that are not
there, and mods needed without an order are also harmless; see `C70_harmless_refuted`. -/
theorem C70_loads_partial (limit : ℕ) (mods : Mods) (hn : mods.keys.Nodup) :
    (∃ l, loadOrder limit mods = .ok l) ↔ Orderly limit mods := by
  constructor
  · rintro ⟨l, h⟩
    obtain ⟨g, ks, hg, hks, hl⟩ := loadOrder_spec _ _ _ h
    refine ⟨?_, ?_, ?_, ?_⟩
    · intro m hm
      obtain ⟨ds, hds, hgn⟩ := (resolveAll_get _ _ _ hg _).1 m hm
      unfold resolveMod at hds
      rw [if_pos rfl] at hds
      cases hds
      cases hd : m.deps with
      | nil => rfl
      | cons d r =>
        obtain ⟨p, -, hp, -⟩ := forall₂_mem_left hks "core".toList ((Dict.get?_isSome _ _).1 (by rw [hm]; rfl))
        obtain ⟨d2, -, -, e2, -⟩ := depth_dep _ _ _ _ hp _ hgn (.left d) (by rw [hd]; exact List.mem_cons_self)
        cases e2
    · intro n m d hm hd
      exact (ok_dep limit mods l g h hg n m d hm hd).1
    · intro n m d hm hd
      exact (ok_dep limit mods l g h hg n m d hm hd).2.1
    · have ex : ∀ n ∈ mods.keys, ∃ f, ∃ k, depth g f n = .ok k := by
        intro n hn
        obtain ⟨p, -, hp, -⟩ := forall₂_mem_left hks n hn
        exact ⟨limit, p.1, hp⟩
      classical
      refine ⟨fun n => if hn : ∃ f, ∃ k, depth g f n = .ok k then Nat.find hn - 1 else 0, ?_, ?_⟩
      · intro n m d hm hd
        obtain ⟨-, ⟨k, hk, -⟩, ds, hgn, hx⟩ := ok_dep limit mods l g h hg n m d hm hd
        have h1 := ex n ((Dict.get?_isSome _ _).1 (by rw [hm]; rfl))
        have h2 := ex d.name ((Dict.get?_isSome _ _).1 (by rw [hk]; rfl))
        dsimp only
        rw [dif_pos h1, dif_pos h2]
        obtain ⟨kn, hkn⟩ := Nat.find_spec h1
        obtain ⟨d2, y, f', e2, ef, hy, -⟩ := depth_dep _ _ _ _ hkn ds hgn _ hx
        cases e2
        have := Nat.find_min' h2 ⟨y, hy⟩
        have : Nat.find h2 ≠ 0 := by
          intro e
          obtain ⟨z, hz⟩ := Nat.find_spec h2
          rw [e] at hz
          cases hz
        omega
      · intro n hn
        have h1 := ex n hn
        dsimp only
        rw [dif_pos h1]
        obtain ⟨p, -, hp, -⟩ := forall₂_mem_left hks n hn
        have := Nat.find_min' h1 ⟨p.1, hp⟩
        have : Nat.find h1 ≠ 0 := by
          intro e
          obtain ⟨z, hz⟩ := Nat.find_spec h1
          rw [e] at hz
          cases hz
        omega
  · rintro ⟨hcore, hplain, hmet, r, hr, hlim⟩
    have hmod : ∀ n m, mods.get? n = some m → ∃ ds, resolveMod mods n m = .ok ds ∧ ∀ x ∈ ds, ∃ d, Needs n m d ∧ x = .mod d.name := by
      intro n m hm
      unfold resolveMod
      by_cases hc : n = "core".toList
      · rw [if_pos hc]
        refine ⟨_, rfl, ?_⟩
        rw [hcore m (hc ▸ hm)]
        simp
      · rw [if_neg hc]
        refine ⟨_, mapM_ok_map (resolveDep mods) (fun d => .mod d.name) _ ?_, ?_⟩
        · intro d hd
          have hd := (mem_effDeps _ _ _ hc).1 hd
          obtain ⟨k, hk, hmk⟩ := hmet n m d hm hd
          exact resolveDep_ok mods d (hplain n m d hm hd) k hk hmk
        · intro x hx
          obtain ⟨d, hd, rfl⟩ := List.mem_map.1 hx
          exact ⟨d, (mem_effDeps _ _ _ hc).1 hd, rfl⟩
    obtain ⟨g, hg⟩ := resolveAll_ok mods mods fun p hp => by
      obtain ⟨ds, h1, -⟩ := hmod p.1 p.2 (Dict.get?_of_mem hn hp)
      exact ⟨ds, h1⟩
    have hdepth : ∀ f n, n ∈ mods.keys → r n < f → ∃ k, depth g f n = .ok k := by
      intro f
      induction f with
      | zero => intro n _ h; omega
      | succ f ih =>
        intro n hnk hlt
        unfold depth
        refine depthLoop_exists _ _ _ ?_
        obtain ⟨m, hm⟩ := Option.isSome_iff_exists.1 ((Dict.get?_isSome _ _).2 hnk)
        obtain ⟨ds, h1, h2⟩ := hmod n m hm
        obtain ⟨ds', h3, h4⟩ := (resolveAll_get _ _ _ hg n).1 m hm
        rw [h1] at h3
        cases h3
        rw [h4]
        intro x hx
        obtain ⟨d, hd, rfl⟩ := h2 x hx
        obtain ⟨k, hk, -⟩ := hmet n m d hm hd
        obtain ⟨y, hy⟩ := ih d.name ((Dict.get?_isSome _ _).1 (by rw [hk]; rfl)) (by have := hr n m d hm hd; omega)
        exact ⟨d.name, y, rfl, hy⟩
    unfold loadOrder
    rw [hg]
    dsimp only
    rw [mapM_ok_map _ (fun n => (((depth g limit n).toOption).getD 0, n))]
    · exact ⟨_, rfl⟩
    · intro n hnk
      obtain ⟨k, hk⟩ := hdepth limit n hnk (hlim n hnk)
      rw [hk]
      rfl

theorem get?_perm {K V : Type} [DecidableEq K] {d d' : Dict K V} (hn : d.keys.Nodup) (h : d.Perm d') (k : K) : d'.get? k = d.get? k := by
  have hn' : d'.keys.Nodup := (List.Perm.nodup_iff (h.map Prod.fst)).1 hn
  cases hk : d.get? k with
  | none =>
    rw [Dict.get?_eq_none] at hk ⊢
    intro hk'
    exact hk ((h.map Prod.fst).mem_iff.2 hk')
  | some v => exact Dict.get?_of_mem hn' (h.mem_iff.1 (Dict.mem_of_get? hk))

theorem depth_congr (g g' : Dict (List Char) (List RDep)) (h : ∀ n, g.get? n = g'.get? n) (f : ℕ) : depth g f = depth g' f := by
  induction f with
  | zero => funext n; rfl
  | succ f ih =>
    funext n
    unfold depth
    rw [ih, h n]

theorem resolveMod_congr (mods mods' : Mods) (h : ∀ n, mods.get? n = mods'.get? n) (n : List Char) (m : Mod) :
    resolveMod mods n m = resolveMod mods' n m := by
  have : resolveDep mods = resolveDep mods' := by
    funext d
    unfold resolveDep
    rw [h]
  unfold resolveMod
  rw [this]

/-- The order does not depend on the order in which the mods were found on the disk. -/
theorem C70_listing (limit : ℕ) (mods mods' : Mods) (hn : mods.keys.Nodup) (hp : mods.Perm mods') (l : List (List Char))
    (h : loadOrder limit mods = .ok l) : loadOrder limit mods' = .ok l := by
  have hget := get?_perm hn hp
  have hkeys : mods.keys.Perm mods'.keys := hp.map Prod.fst
  have ord : Orderly limit mods' := by
    obtain ⟨h1, h2, h3, r, h4, h5⟩ := (C70_loads_partial limit mods hn).1 ⟨l, h⟩
    refine ⟨?_, ?_, ?_, r, ?_, ?_⟩
    · intro m hm; rw [hget] at hm; exact h1 m hm
    · intro n m d hm; rw [hget] at hm; exact h2 n m d hm
    · intro n m d hm; rw [hget] at hm ⊢; exact h3 n m d hm
    · intro n m d hm; rw [hget] at hm; exact h4 n m d hm
    · intro n hk; exact h5 n (hkeys.mem_iff.2 hk)
  obtain ⟨l', h'⟩ := (C70_loads_partial limit mods' (hkeys.nodup_iff.1 hn)).2 ord
  rw [h', Except.ok.injEq]
  obtain ⟨g, ks, hg, hks, rfl⟩ := loadOrder_spec _ _ _ h
  obtain ⟨g', ks', hg', hks', rfl⟩ := loadOrder_spec _ _ _ h'
  have hgg : ∀ n, g.get? n = g'.get? n := by
    intro n
    cases hm : mods.get? n with
    | none =>
      rw [(resolveAll_get _ _ _ hg n).2 hm, (resolveAll_get _ _ _ hg' n).2 (by rw [hget]; exact hm)]
    | some m =>
      obtain ⟨ds, h1, h2⟩ := (resolveAll_get _ _ _ hg n).1 m hm
      obtain ⟨ds', h1', h2'⟩ := (resolveAll_get _ _ _ hg' n).1 m (by rw [hget]; exact hm)
      rw [resolveMod_congr mods' mods hget, h1] at h1'
      cases h1'
      rw [h2, h2']
  have hd := depth_congr g g' hgg limit
  have asMap : ∀ (gg : Dict (List Char) (List RDep)) (ns : List (List Char)) (kk : List (ℕ × List Char)),
      List.Forall₂ (fun n (p : ℕ × List Char) => depth gg limit n = .ok p.1 ∧ p.2 = n) ns kk →
      kk = ns.map fun n => (((depth gg limit n).toOption).getD 0, n) := by
    intro gg ns kk hh
    induction hh with
    | nil => rfl
    | @cons a b _ _ h1 _ ih =>
      rw [List.map_cons, ← ih, h1.1]
      exact congrArg₂ _ (Prod.ext rfl h1.2) rfl
  have hkk : ks.Perm ks' := by
    rw [asMap g _ _ hks, asMap g' _ _ hks', hd]
    exact hkeys.map _
  refine congrArg _ ?_
  refine List.Perm.eq_of_pairwise' (r := fun a b : ℕ × List Char => keyLe a b = true) ?_ ?_ ?_
  · exact List.pairwise_insertionSort _ _
  · exact List.pairwise_insertionSort _ _
  · exact (List.perm_insertionSort _ _).trans (hkk.symm.trans (List.perm_insertionSort _ _).symm)

/-- Of several versions of a mod the first in its list is taken, if it is enabled; no other is looked at. -/
theorem C70_select {K α : Type} [DecidableEq K] (enabled : α → Bool) (d : Dict K (List α)) (hn : d.keys.Nodup) (s : Dict K α)
    (h : select enabled d = .ok s) (n : K) (m : α) :
    s.get? n = some m ↔ enabled m = true ∧ ∃ others, d.get? n = some (m :: others) := by
  induction d generalizing s with
  | nil => cases h; simp
  | cons p r ih =>
    obtain ⟨k, l⟩ := p
    cases l with
    | nil => cases h
    | cons a t =>
      unfold select at h
      cases hr : select enabled r with
      | error e => rw [hr] at h; cases h
      | ok u =>
        rw [hr] at h
        simp only [Dict.keys_cons, List.nodup_cons] at hn
        have ih := ih hn.2 u hr
        simp only [Except.map, Except.ok.injEq] at h
        have none_of : ∀ v, u.get? k ≠ some v := by
          intro v hv
          obtain ⟨-, -⟩ := (Dict.get?_isSome u k).1 (by rw [hv]; rfl) |> fun h => And.intro h trivial
          have key : ∀ (r : Dict K (List α)) (u : Dict K α), select enabled r = .ok u → ∀ x ∈ u.keys, x ∈ r.keys := by
            intro r
            induction r with
            | nil => intro u hu x hx; cases hu; cases hx
            | cons q r ih2 =>
              intro u hu x hx
              obtain ⟨k', l'⟩ := q
              cases l' with
              | nil => cases hu
              | cons a' t' =>
                unfold select at hu
                cases hr2 : select enabled r with
                | error e => rw [hr2] at hu; cases hu
                | ok u2 =>
                  rw [hr2] at hu
                  simp only [Except.map, Except.ok.injEq] at hu
                  subst hu
                  rw [Dict.keys_cons, List.mem_cons]
                  split at hx
                  · rw [Dict.keys_cons, List.mem_cons] at hx
                    exact hx.imp id (ih2 u2 hr2 x)
                  · exact .inr (ih2 u2 hr2 x hx)
          exact hn.1 (key r u hr k ((Dict.get?_isSome u k).1 (by rw [hv]; rfl)))
        subst h
        by_cases hk : k = n
        · subst hk
          simp only [Dict.get?, if_true, Option.some.injEq, List.cons.injEq]
          by_cases he : enabled a = true
          · rw [if_pos he]
            simp only [Dict.get?, if_true, Option.some.injEq]
            constructor
            · rintro rfl; exact ⟨he, t, rfl, rfl⟩
            · rintro ⟨-, -, h, -⟩; exact h
          · rw [if_neg he]
            constructor
            · intro h; exact absurd h (none_of m)
            · rintro ⟨h, -, rfl, -⟩; exact absurd h he
        · have : Dict.get? (if enabled a = true then (k, a) :: u else u) n = u.get? n := by
            split
            · rw [Dict.get?, if_neg hk]
            · rfl
          rw [this, ih, Dict.get?, if_neg hk]

/-! ### What is claimed and is false -/

/-- All mods can be loaded: the dependencies that are required or are there are in an admitted version, those that are incompatible are not
there, and mods that must come first do not go in a circle. -/
structure Loadable (limit : ℕ) (mods : Mods) : Prop where
  met : ∀ n m d, mods.get? n = some m → Needs n m d → d.flag ≠ some .incompatible →
    (∃ k, mods.get? d.name = some k ∧ Meets d k) ∨ (d.flag = some .optional ∨ d.flag = some .hidden) ∧ mods.get? d.name = none
  apart : ∀ n m d, mods.get? n = some m → Needs n m d → d.flag = some .incompatible → mods.get? d.name = none
  rank : ∃ r : List Char → ℕ, (∀ n m d, mods.get? n = some m → Needs n m d → d.flag ≠ some .incompatible → d.flag ≠ some .unordered →
    r d.name < r n) ∧ ∀ n ∈ mods.keys, r n < limit

/-- The core, the base, and one mod that lists one dependency. -/
def oneMod (d : Dep) : Mods :=
  [("core".toList, ⟨[], []⟩), ("base".toList, ⟨"2.0.28".toList, []⟩), ("a".toList, ⟨"1.0.0".toList, [d]⟩)]

theorem oneMod_cases {d : Dep} {n : List Char} {m : Mod} (h : (oneMod d).get? n = some m) :
    (n = "core".toList ∧ m = ⟨[], []⟩) ∨ (n = "base".toList ∧ m = ⟨"2.0.28".toList, []⟩) ∨ (n = "a".toList ∧ m = ⟨"1.0.0".toList, [d]⟩) := by
  have := Dict.mem_of_get? h
  simp only [oneMod, List.mem_cons, Prod.mk.injEq, List.not_mem_nil, or_false] at this
  exact this

theorem oneMod_loadable (d : Dep) (h1 : d.flag ≠ some .incompatible →
      (∃ k, (oneMod d).get? d.name = some k ∧ Meets d k) ∨ (d.flag = some .optional ∨ d.flag = some .hidden) ∧ (oneMod d).get? d.name = none)
    (h2 : d.flag = some .incompatible → (oneMod d).get? d.name = none) (h3 : d.name ≠ "a".toList) : Loadable 1000 (oneMod d) := by
  have need : ∀ n m e, (oneMod d).get? n = some m → Needs n m e →
      (n = "base".toList ∧ e = ⟨none, "core".toList, none, none⟩) ∨ (n = "a".toList ∧ e = d) := by
    intro n m e hm he
    rcases oneMod_cases hm with ⟨rfl, rfl⟩ | ⟨rfl, rfl⟩ | ⟨rfl, rfl⟩
    · exact absurd rfl he.1
    · rcases he.2 with h | h
      · exact .inl h
      · exact absurd rfl h.1
    · rcases he.2 with h | h
      · exact absurd h.1 (by decide)
      · exact .inr ⟨rfl, by simpa using h.2⟩
  refine ⟨?_, ?_, fun n => if n = "core".toList then 0 else if n = "a".toList then 2 else 1, ?_, ?_⟩
  · intro n m e hm he hf
    rcases need n m e hm he with ⟨-, rfl⟩ | ⟨-, rfl⟩
    · exact .inl ⟨⟨[], []⟩, by simp [oneMod, Dict.get?], fun s hs => by cases hs⟩
    · exact h1 hf
  · intro n m e hm he hf
    rcases need n m e hm he with ⟨-, rfl⟩ | ⟨-, rfl⟩
    · cases hf
    · exact h2 hf
  · intro n m e hm he _ _
    rcases need n m e hm he with ⟨rfl, rfl⟩ | ⟨rfl, rfl⟩
    · decide
    · dsimp only
      rw [if_neg h3, if_neg (show "a".toList ≠ "core".toList by decide), if_pos rfl]
      split <;> omega
  · intro n hn
    dsimp only
    split
    · omega
    · split <;> omega

/-- Not proved because it is false: that whatever can be loaded is loaded.  A mod that names an incompatible mod fails although that mod is
not there; so does one with an optional dependency that is not there, and one that needs another without an order. -/
theorem C70_harmless_refuted : ¬ ∀ (limit : ℕ) (mods : Mods), mods.keys.Nodup → Loadable limit mods → ∃ l, loadOrder limit mods = .ok l := by
  intro h
  obtain ⟨l, hl⟩ := h 1000 (oneMod ⟨some .incompatible, "b".toList, none, none⟩) (by decide)
    (oneMod_loadable _ (fun h => absurd rfl h) (fun _ => by decide) (by decide))
  have : loadOrder 1000 (oneMod ⟨some .incompatible, "b".toList, none, none⟩) = .error .attributeError := by decide +kernel
  rw [this] at hl
  cases hl

/-- The other two ways in which `C70_harmless_refuted` can be seen. -/
theorem C70_harmless2_refuted : ¬ ∀ (limit : ℕ) (mods : Mods), mods.keys.Nodup → Loadable limit mods →
    (∀ n m d, mods.get? n = some m → d ∈ m.deps → d.flag ≠ some .incompatible) → ∃ l, loadOrder limit mods = .ok l := by
  intro h
  obtain ⟨l, hl⟩ := h 1000 (oneMod ⟨some .optional, "b".toList, none, none⟩) (by decide)
    (oneMod_loadable _ (fun _ => .inr ⟨.inl rfl, by decide⟩) (fun h => by cases h) (by decide)) (by
      intro n m d hm hd
      rcases oneMod_cases hm with ⟨rfl, rfl⟩ | ⟨rfl, rfl⟩ | ⟨rfl, rfl⟩
      · cases hd
      · cases hd
      · simp only [List.mem_singleton] at hd
        rw [hd]
        decide)
  have : loadOrder 1000 (oneMod ⟨some .optional, "b".toList, none, none⟩) = .error .attributeError := by decide +kernel
  rw [this] at hl
  cases hl

/-- The third: needed, there, and not to be ordered. -/
theorem C70_unordered_refuted : ¬ ∀ (limit : ℕ) (mods : Mods), mods.keys.Nodup → Loadable limit mods →
    (∀ n m d, mods.get? n = some m → d ∈ m.deps → ∃ k, mods.get? d.name = some k) → ∃ l, loadOrder limit mods = .ok l := by
  intro h
  obtain ⟨l, hl⟩ := h 1000 (oneMod ⟨some .unordered, "base".toList, none, none⟩) (by decide)
    (oneMod_loadable _ (fun _ => .inl ⟨⟨"2.0.28".toList, []⟩, by simp [oneMod, Dict.get?], fun s hs => by cases hs⟩) (fun h => by cases h) (by decide)) (by
      intro n m d hm hd
      rcases oneMod_cases hm with ⟨rfl, rfl⟩ | ⟨rfl, rfl⟩ | ⟨rfl, rfl⟩
      · cases hd
      · cases hd
      · simp only [List.mem_singleton] at hd
        subst hd
        exact ⟨⟨"2.0.28".toList, []⟩, by simp [oneMod, Dict.get?]⟩)
  have : loadOrder 1000 (oneMod ⟨some .unordered, "base".toList, none, none⟩) = .error .attributeError := by decide +kernel
  rw [this] at hl
  cases hl

/-- `h` gives the depth of the dependency tree of every mod. -/
def Heights (mods : Mods) (h : List Char → ℕ) : Prop :=
  ∀ n m, mods.get? n = some m → (∀ d, Needs n m d → h d.name < h n) ∧ (h n = 1 ∨ ∃ d, Needs n m d ∧ h n = h d.name + 1)

/-- Six mods: `w` depends on `a` and `b`, `c` on `a2`, which depends on `a`. -/
def sixMods : Mods :=
  let dep (s : String) : Dep := ⟨none, s.toList, none, none⟩
  [("core".toList, ⟨[], []⟩), ("base".toList, ⟨"2.0.28".toList, []⟩), ("a".toList, ⟨"1.0.0".toList, [dep "base"]⟩),
    ("b".toList, ⟨"1.0.0".toList, [dep "base"]⟩), ("w".toList, ⟨"1.0.0".toList, [dep "a", dep "b"]⟩),
    ("a2".toList, ⟨"1.0.0".toList, [dep "a"]⟩), ("c".toList, ⟨"1.0.0".toList, [dep "a2"]⟩)]

/-- Their heights. -/
def sixHeights (n : List Char) : ℕ :=
  if n = "core".toList then 1 else if n = "base".toList then 2 else if n = "a".toList ∨ n = "b".toList then 3
  else if n = "w".toList ∨ n = "a2".toList then 4 else 5

/-- Not proved because it is false: that mods with a less deep dependency tree are loaded first.  The depths of the dependencies are added up,
so that a mod with two dependencies comes after one with a longer chain of dependencies. -/
theorem C70_depth_refuted : ¬ ∀ (limit : ℕ) (mods : Mods) (h : List Char → ℕ) (l : List (List Char)), Heights mods h →
    loadOrder limit mods = .ok l → l.Pairwise fun a b => h a ≤ h b := by
  intro h
  have hh : Heights sixMods sixHeights := by
    intro n m hm
    have := Dict.mem_of_get? hm
    simp only [sixMods, List.mem_cons, Prod.mk.injEq, List.not_mem_nil, or_false] at this
    rcases this with ⟨rfl, rfl⟩ | ⟨rfl, rfl⟩ | ⟨rfl, rfl⟩ | ⟨rfl, rfl⟩ | ⟨rfl, rfl⟩ | ⟨rfl, rfl⟩ | ⟨rfl, rfl⟩
    · exact ⟨fun d hd => absurd rfl hd.1, .inl (by decide)⟩
    · refine ⟨?_, .inr ⟨⟨none, "core".toList, none, none⟩, ⟨by decide, .inl ⟨rfl, rfl⟩⟩, by decide⟩⟩
      rintro d ⟨-, ⟨-, rfl⟩ | ⟨h, -⟩⟩
      · decide
      · exact absurd rfl h
    all_goals
      refine ⟨?_, .inr ⟨_, ⟨by decide, .inr ⟨by decide, List.mem_cons_self⟩⟩, by decide⟩⟩
      rintro d ⟨-, ⟨h, -⟩ | ⟨-, h⟩⟩
      · exact absurd h (by decide)
      · simp only [List.mem_cons, List.not_mem_nil, or_false] at h
        rcases h with rfl | rfl <;> decide
  have := h 1000 sixMods sixHeights ["core".toList, "base".toList, "a".toList, "b".toList, "a2".toList, "c".toList, "w".toList] hh
    (by decide +kernel)
  revert this
  decide

/-- Not proved because it is false: that a version may be asked for with the sign "=", which is what the game calls it. -/
theorem C70_equals_refuted : ¬ ∀ (v : List Char), (∃ t, Version.versionStringToTuple v = .ok t) →
    ∃ l, loadOrder 1000 [("core".toList, ⟨[], []⟩), ("base".toList, ⟨v, []⟩),
      ("a".toList, ⟨"1.0.0".toList, [⟨none, "base".toList, some "=".toList, some v⟩]⟩)] = .ok l := by
  intro h
  obtain ⟨l, hl⟩ := h "2.0.28".toList ⟨[2, 0, 28], by decide +kernel⟩
  revert hl
  rw [show loadOrder 1000 _ = .error .assertionError by decide +kernel]
  intro hl
  cases hl

/-- Not proved because it is false: that versions written with a different number of parts are compared as versions: 1.0.0 is not taken to be
at most 1.0. -/
theorem C70_parts_refuted : ¬ ∀ (v w : List Char) (s t : List ℤ), Version.versionStringToTuple v = .ok s →
    Version.versionStringToTuple w = .ok t → ModList.Same s t →
    ∃ l, loadOrder 1000 [("core".toList, ⟨[], []⟩), ("base".toList, ⟨v, []⟩),
      ("a".toList, ⟨"1.0.0".toList, [⟨none, "base".toList, some "<=".toList, some w⟩]⟩)] = .ok l := by
  intro h
  obtain ⟨l, hl⟩ := h "1.0.0".toList "1.0".toList [1, 0, 0] [1, 0] (by decide +kernel) (by decide +kernel) ⟨1, .inl rfl⟩
  revert hl
  rw [show loadOrder 1000 _ = .error .incorrectModVersion by decide +kernel]
  intro hl
  cases hl

/-- The dependency cannot be granted: it is there though it must not be, it is there in a version that is not admitted, or it is not there
though it is neither optional nor to be absent. -/
def Bad (mods : Mods) (d : Dep) : Prop :=
  d.flag = some .incompatible ∧ mods.get? d.name ≠ none ∨
    d.flag ≠ some .incompatible ∧ (∃ k, mods.get? d.name = some k ∧ ¬ Meets d k) ∨
    (d.flag = none ∨ d.flag = some .unordered) ∧ mods.get? d.name = none

theorem versionTuple_error {s : List Char} {e : PyErr} (h : Version.versionStringToTuple s = .error e) : e = .valueError := by
  obtain ⟨t, -, ht⟩ := mapM_error_mem h
  unfold pyInt at ht
  repeat' split at ht
  all_goals cases ht
  all_goals rfl

theorem checkVersion_error {d : Dep} {m : Mod} {e : PyErr} (h : checkVersion m.version d = .error e) :
    e = .assertionError ∨ e = .valueError ∨ e = .incorrectModVersion := by
  unfold checkVersion at h
  cases hv : d.version with
  | none => rw [hv] at h; cases h
  | some s =>
    rw [hv] at h
    dsimp only at h
    cases ho : d.op with
    | none => rw [ho] at h; cases h; simp
    | some op =>
      rw [ho] at h
      dsimp only at h
      split at h
      · cases h; simp
      · cases ha : Version.versionStringToTuple m.version with
        | error x => rw [ha] at h; cases h; exact .inr (.inl (versionTuple_error ha))
        | ok a =>
          rw [ha] at h
          dsimp only at h
          cases hb : Version.versionStringToTuple s with
          | error x => rw [hb] at h; cases h; exact .inr (.inl (versionTuple_error hb))
          | ok b =>
            rw [hb] at h
            dsimp only at h
            split at h <;> cases h
            simp

/-- Why a dependency is refused. -/
theorem resolveDep_error {mods : Mods} {d : Dep} {e : PyErr} (h : resolveDep mods d = .error e) :
    e = .incompatibleMod ∧ d.flag = some .incompatible ∧ mods.get? d.name ≠ none ∨
    e = .missingMod ∧ (d.flag = none ∨ d.flag = some .unordered) ∧ mods.get? d.name = none ∨
    (e = .assertionError ∨ e = .valueError ∨ e = .incorrectModVersion) ∧ d.flag ≠ some .incompatible ∧
      ∃ k, mods.get? d.name = some k ∧ ¬ Meets d k := by
  unfold resolveDep at h
  by_cases hi : d.flag = some .incompatible
  · rw [if_pos hi] at h
    split at h
    · rename_i hs
      cases h
      exact .inl ⟨rfl, hi, by intro hn; rw [hn] at hs; cases hs⟩
    · cases h
  · rw [if_neg hi] at h
    split at h
    · cases h
    · rename_i hf
      cases hk : mods.get? d.name with
      | none =>
        rw [hk] at h
        cases h
        refine .inr (.inl ⟨rfl, ?_, rfl⟩)
        rcases hd : d.flag with _ | f
        · exact .inl rfl
        · cases f <;> simp_all
      | some k =>
        rw [hk] at h
        dsimp only at h
        cases hc : checkVersion k.version d with
        | error x =>
          rw [hc] at h
          cases h
          refine .inr (.inr ⟨checkVersion_error hc, hi, k, rfl, ?_⟩)
          intro hm
          obtain ⟨u, hu⟩ := (checkVersion_ok d k).2 hm
          rw [hc] at hu
          cases hu
        | ok u =>
          rw [hc] at h
          dsimp only at h
          split at h <;> cases h

theorem resolveDep_bad {mods : Mods} {d : Dep} (h : Bad mods d) : ∃ e, resolveDep mods d = .error e := by
  unfold resolveDep
  rcases h with ⟨hf, hp⟩ | ⟨hf, k, hk, hm⟩ | ⟨hf, hn⟩
  · rw [if_pos hf, if_pos (Option.ne_none_iff_isSome.1 hp)]
    exact ⟨_, rfl⟩
  · rw [if_neg hf, if_neg (by rw [hk]; simp), hk]
    dsimp only
    cases hc : checkVersion k.version d with
    | error x => exact ⟨x, rfl⟩
    | ok u => exact absurd ((checkVersion_ok d k).1 ⟨u, hc⟩) hm
  · rw [if_neg (by rcases hf with h | h <;> rw [h] <;> simp), if_neg (by rcases hf with h | h <;> rw [h] <;> simp), hn]
    exact ⟨_, rfl⟩

theorem resolveAll_error {mods : Mods} {e : PyErr} : ∀ {l : Mods}, resolveAll mods l = .error e → ∃ p ∈ l, resolveMod mods p.1 p.2 = .error e
  | [], h => by cases h
  | (n, m) :: r, h => by
    unfold resolveAll at h
    cases hm : resolveMod mods n m with
    | error x =>
      rw [hm] at h
      cases h
      exact ⟨(n, m), by simp, hm⟩
    | ok ds =>
      rw [hm] at h
      dsimp only at h
      cases hr : resolveAll mods r with
      | error x =>
        rw [hr] at h
        cases h
        obtain ⟨p, hp, hx⟩ := resolveAll_error hr
        exact ⟨p, by simp [hp], hx⟩
      | ok g => rw [hr] at h; cases h

theorem depthLoop_error {sub : List Char → Except PyErr ℕ} (hs : ∀ n e, sub n = .error e → e = .attributeError ∨ e = .recursionError) :
    ∀ (l : List RDep) (acc : ℕ) (e : PyErr), depthLoop sub acc l = .error e → e = .attributeError ∨ e = .recursionError
  | [], _, _, h => by cases h
  | .left _ :: _, _, _, h => by cases h; exact .inl rfl
  | .mod k :: r, acc, e, h => by
    unfold depthLoop at h
    cases hk : sub k with
    | error x => rw [hk] at h; cases h; exact hs k _ hk
    | ok x => rw [hk] at h; exact depthLoop_error hs r _ e h

theorem depth_error (g : Dict (List Char) (List RDep)) : ∀ (f : ℕ) (n : List Char) (e : PyErr), depth g f n = .error e →
    e = .attributeError ∨ e = .recursionError
  | 0, _, _, h => by cases h; exact .inr rfl
  | f + 1, _, e, h => depthLoop_error (depth_error g f) _ _ e h

/-- What an error says: a mod is missing only if one that is needed, and not only optional, is not there; mods are incompatible only if a mod
says so of one that is there; a version is wrong only if the mod needed is there in a version that is not admitted. -/
theorem C70_reasons (limit : ℕ) (mods : Mods) (e : PyErr) (h : loadOrder limit mods = .error e) :
    (e = .missingMod → ∃ p ∈ mods, ∃ d, Needs p.1 p.2 d ∧ (d.flag = none ∨ d.flag = some .unordered) ∧ mods.get? d.name = none) ∧
    (e = .incompatibleMod → ∃ p ∈ mods, ∃ d, Needs p.1 p.2 d ∧ d.flag = some .incompatible ∧ mods.get? d.name ≠ none) ∧
    (e = .incorrectModVersion → ∃ p ∈ mods, ∃ d, Needs p.1 p.2 d ∧ d.flag ≠ some .incompatible ∧
      ∃ k, mods.get? d.name = some k ∧ ¬ Meets d k) := by
  have key : (e = .attributeError ∨ e = .recursionError) ∨ ∃ p ∈ mods, ∃ d, Needs p.1 p.2 d ∧ resolveDep mods d = .error e := by
    unfold loadOrder at h
    cases hg : resolveAll mods mods with
    | error x =>
      rw [hg] at h
      cases h
      obtain ⟨p, hp, hx⟩ := resolveAll_error hg
      unfold resolveMod at hx
      split at hx
      · cases hx
      · rename_i hc
        obtain ⟨d, hd, hde⟩ := mapM_error_mem hx
        exact .inr ⟨p, hp, d, (mem_effDeps _ _ _ hc).1 hd, hde⟩
    | ok g =>
      rw [hg] at h
      dsimp only at h
      cases hk : mods.keys.mapM (fun n => (depth g limit n).map fun k => (k, n)) with
      | error x =>
        rw [hk] at h
        cases h
        obtain ⟨n, -, hn⟩ := mapM_error_mem hk
        cases hd : depth g limit n with
        | error y =>
          rw [hd] at hn
          cases hn
          exact .inl (depth_error _ _ _ _ hd)
        | ok y => rw [hd] at hn; cases hn
      | ok ks => rw [hk] at h; cases h
  rcases key with hk | ⟨p, hp, d, hn, hd⟩
  · refine ⟨?_, ?_, ?_⟩ <;> (rintro rfl; simp at hk)
  · refine ⟨?_, ?_, ?_⟩ <;> rintro rfl
    · rcases resolveDep_error hd with ⟨h, -⟩ | ⟨-, h1, h2⟩ | ⟨h, -⟩
      · cases h
      · exact ⟨p, hp, d, hn, h1, h2⟩
      · simp at h
    · rcases resolveDep_error hd with ⟨-, h1, h2⟩ | ⟨h, -⟩ | ⟨h, -⟩
      · exact ⟨p, hp, d, hn, h1, h2⟩
      · cases h
      · simp at h
    · rcases resolveDep_error hd with ⟨h, -⟩ | ⟨h, -⟩ | ⟨-, h1, h2⟩
      · cases h
      · cases h
      · exact ⟨p, hp, d, hn, h1, h2⟩

/-- Loading is refused for its dependencies, and not because of what happens to them afterwards, exactly when a dependency cannot be
granted. -/
theorem C70_refused (limit : ℕ) (mods : Mods) :
    (∃ e, loadOrder limit mods = .error e ∧ e ≠ .attributeError ∧ e ≠ .recursionError) ↔
      ∃ p ∈ mods, ∃ d, Needs p.1 p.2 d ∧ Bad mods d := by
  constructor
  · rintro ⟨e, h, h1, h2⟩
    unfold loadOrder at h
    cases hg : resolveAll mods mods with
    | error x =>
      rw [hg] at h
      cases h
      obtain ⟨p, hp, hx⟩ := resolveAll_error hg
      unfold resolveMod at hx
      split at hx
      · cases hx
      · rename_i hc
        obtain ⟨d, hd, hde⟩ := mapM_error_mem hx
        refine ⟨p, hp, d, (mem_effDeps _ _ _ hc).1 hd, ?_⟩
        rcases resolveDep_error hde with ⟨-, h1, h2⟩ | ⟨-, h1, h2⟩ | ⟨-, h1, h2⟩
        · exact .inl ⟨h1, h2⟩
        · exact .inr (.inr ⟨h1, h2⟩)
        · exact .inr (.inl ⟨h1, h2⟩)
    | ok g =>
      rw [hg] at h
      dsimp only at h
      cases hk : mods.keys.mapM (fun n => (depth g limit n).map fun k => (k, n)) with
      | error x =>
        rw [hk] at h
        cases h
        obtain ⟨n, -, hn⟩ := mapM_error_mem hk
        cases hd : depth g limit n with
        | error y =>
          rw [hd] at hn
          cases hn
          rcases depth_error _ _ _ _ hd with h | h
          · exact absurd h h1
          · exact absurd h h2
        | ok y => rw [hd] at hn; cases hn
      | ok ks => rw [hk] at h; cases h
  · rintro ⟨p, hp, d, hn, hb⟩
    cases hg : resolveAll mods mods with
    | error x =>
      refine ⟨x, by unfold loadOrder; rw [hg], ?_⟩
      obtain ⟨p', -, hx⟩ := resolveAll_error hg
      unfold resolveMod at hx
      split at hx
      · cases hx
      · obtain ⟨d', -, hde⟩ := mapM_error_mem hx
        rcases resolveDep_error hde with ⟨h, -⟩ | ⟨h, -⟩ | ⟨h | h | h, -⟩ <;> rw [h] <;> exact ⟨by decide, by decide⟩
    | ok g =>
      exfalso
      have hall : ∀ {l : Mods} {g}, resolveAll mods l = .ok g → ∀ p ∈ l, ∃ ds, resolveMod mods p.1 p.2 = .ok ds := by
        intro l
        induction l with
        | nil => intro g _ p hp; cases hp
        | cons q r ih =>
          intro g hg p hp
          obtain ⟨n, m⟩ := q
          unfold resolveAll at hg
          cases hm : resolveMod mods n m with
          | error x => rw [hm] at hg; cases hg
          | ok ds =>
            rw [hm] at hg
            dsimp only at hg
            cases hr : resolveAll mods r with
            | error x => rw [hr] at hg; cases hg
            | ok g' =>
              rcases List.mem_cons.1 hp with rfl | hp
              · exact ⟨ds, hm⟩
              · exact ih hr p hp
      obtain ⟨ds, hds⟩ := hall hg p hp
      unfold resolveMod at hds
      rw [if_neg hn.1] at hds
      obtain ⟨x, -, hx⟩ := forall₂_mem_left ((mapM_ok_iff _ _ _).1 hds) d ((mem_effDeps _ _ _ hn.1).2 hn)
      obtain ⟨e, he⟩ := resolveDep_bad hb
      rw [he] at hx
      cases hx

/-- The base asked for in a version, an optional mod that is there, and a hidden optional one: all conditions of `C70_loads_partial` hold. -/
def fourMods : Mods :=
  [("z".toList, ⟨"0.1.0".toList, [⟨none, "base".toList, some ">=".toList, some "2.0".toList⟩]⟩), ("core".toList, ⟨[], []⟩),
    ("a".toList, ⟨"1.0.0".toList, [⟨some .optional, "z".toList, some "<".toList, some "0.2".toList⟩, ⟨some .hidden, "base".toList, none, none⟩]⟩),
    ("base".toList, ⟨"2.0.28".toList, []⟩)]

example : loadOrder 1000 fourMods = .ok ["core".toList, "base".toList, "z".toList, "a".toList] := by decide +kernel

example : fourMods.keys.Nodup := by decide

example : Orderly 1000 fourMods := (C70_loads_partial 1000 fourMods (by decide)).1 ⟨["core".toList, "base".toList, "z".toList, "a".toList], by decide +kernel⟩

/-- `C70_before` for `a`, at the end of that order. -/
example : Needs "a".toList ⟨"1.0.0".toList, [⟨some .optional, "z".toList, some "<".toList, some "0.2".toList⟩, ⟨some .hidden, "base".toList, none, none⟩]⟩
    ⟨some .hidden, "base".toList, none, none⟩ := ⟨by decide, .inr ⟨by decide, by decide⟩⟩

/-- `C70_refused` and `C70_reasons`: a mod that is not there; and one that is hidden and absent, which is not refused for that. -/
example : loadOrder 1000 [("core".toList, ⟨[], []⟩), ("base".toList, ⟨"2.0".toList, []⟩),
    ("a".toList, ⟨"1.0.0".toList, [⟨none, "b".toList, none, none⟩]⟩)] = .error .missingMod := by decide +kernel

example : loadOrder 1000 [("core".toList, ⟨[], []⟩), ("base".toList, ⟨"2.0".toList, []⟩),
    ("a".toList, ⟨"1.0.0".toList, [⟨some .hidden, "b".toList, none, none⟩]⟩)] = .error .attributeError := by decide +kernel

/-- `C70_select`: a disabled mod and one with two versions. -/
example : select (fun n : ℕ => decide (n < 5)) [('a', [7, 1]), ('b', [2, 9])] = .ok [('b', 2)] := by decide

/-! ## C71: dependency strings -/

/-- A flag as it is written. -/
def flagText : Option Flag → List Char
  | none => []
  | some .incompatible => "!".toList
  | some .optional => "?".toList
  | some .hidden => "(?)".toList
  | some .unordered => "~".toList

/-- A dependency as it is written, without spaces. -/
def Dep.text (d : Dep) : List Char := flagText d.flag ++ (d.name ++ (d.op.getD [] ++ d.version.getD []))

/-- A letter, a digit, an underscore or a hyphen. -/
def NameChar (c : Char) : Prop := c.isAlphanum = true ∨ c = '_' ∨ c = '-'

/-- The signs. -/
def Sign (o : List Char) : Prop :=
  o = ">".toList ∨ o = "<".toList ∨ o = "=".toList ∨ o = ">=".toList ∨ o = "<=".toList ∨ o = "==".toList

/-- A dependency that can be written: its name is not empty and does not begin with a hyphen, a version comes with a sign. -/
structure Plain (d : Dep) : Prop where
  name : ∃ c r, d.name = c :: r ∧ c ≠ '-'
  chars : ∀ c ∈ d.name, NameChar c
  op : ∀ o, d.op = some o → Sign o
  version : ∀ v, d.version = some v → v ≠ [] ∧ (∀ c ∈ v, c.isDigit = true ∨ c = '.') ∧ d.op ≠ none

theorem isName_iff (c : Char) : isName c = true ↔ NameChar c := by
  simp [isName, isWord, NameChar, or_assoc]

theorem splitFlag_text (f : Option Flag) (c : Char) (r : List Char) (hc : isWord c = true) : splitFlag (flagText f ++ c :: r) = (f, c :: r) := by
  cases f with
  | none =>
    have h1 : c ≠ '!' := by rintro rfl; revert hc; decide
    have h2 : c ≠ '?' := by rintro rfl; revert hc; decide
    have h3 : c ≠ '(' := by rintro rfl; revert hc; decide
    have h4 : c ≠ '~' := by rintro rfl; revert hc; decide
    simp only [flagText, List.nil_append]
    unfold splitFlag
    split
    · rename_i h; cases h; exact absurd rfl h1
    · rename_i h; cases h; exact absurd rfl h2
    · rename_i h; cases h; exact absurd rfl h3
    · rename_i h; cases h; exact absurd rfl h4
    · rfl
  | some f => cases f <;> rfl

theorem takeWhile_append_stop {p : Char → Bool} (a b : List Char) (ha : ∀ c ∈ a, p c = true) (hb : ∀ c r, b = c :: r → p c = false) :
    (a ++ b).takeWhile p = a ∧ (a ++ b).dropWhile p = b := by
  induction a with
  | nil =>
    cases b with
    | nil => exact ⟨rfl, rfl⟩
    | cons c r =>
      have := hb c r rfl
      simp [this]
  | cons x t ih =>
    have hx := ha x List.mem_cons_self
    obtain ⟨h1, h2⟩ := ih fun c hc => ha c (List.mem_cons_of_mem _ hc)
    simp [hx, h1, h2]

theorem splitOp_two (c : Char) (w : List Char) (hc : isOp c = true) : splitOp (c :: '=' :: w) = (some [c, '='], w) := by
  simp [splitOp, hc]

theorem splitOp_one (c : Char) (w : List Char) (hc : isOp c = true) (hw : ∀ t, w ≠ '=' :: t) : splitOp (c :: w) = (some [c], w) := by
  cases w with
  | nil => simp [splitOp, hc]
  | cons x t =>
    have hx : x ≠ '=' := fun e => hw t (e ▸ rfl)
    simp only [splitOp, hc, if_true]

/-- A dependency string is read as what was written, wherever spaces were put. -/
theorem C71_read (d : Dep) (hd : Plain d) (s : List Char) (hs : s.filter (· ≠ ' ') = d.text) : parseDep s = .ok d := by
  obtain ⟨flag, name, op, version⟩ := d
  obtain ⟨⟨c, r, hname, hc⟩, hchars, hop, hver⟩ := hd
  simp only at hname hc hchars hop hver
  subst hname
  have hcw : isWord c = true := by
    have := hchars c List.mem_cons_self
    rcases this with h | h | h
    · simp [isWord, h]
    · simp [isWord, h]
    · exact absurd h hc
  -- what follows the name
  have hstop : ∀ x t, op.getD [] ++ version.getD [] = x :: t → isName x = false := by
    intro x t h
    cases op with
    | none =>
      cases version with
      | none => cases h
      | some v => exact absurd rfl (hver v rfl).2.2
    | some o =>
      rcases hop o rfl with rfl | rfl | rfl | rfl | rfl | rfl <;> (simp at h; rw [← h.1]; decide)
  have hsplit : splitName (c :: r ++ (op.getD [] ++ version.getD [])) = some (c :: r, op.getD [] ++ version.getD []) := by
    have hskip : isSkip c = false := by simp [isSkip, hcw]
    have e1 : (c :: r ++ (op.getD [] ++ version.getD [])).takeWhile isSkip = [] := by simp [hskip]
    have e2 : (c :: r ++ (op.getD [] ++ version.getD [])).dropWhile isSkip = c :: r ++ (op.getD [] ++ version.getD []) := by simp [hskip]
    obtain ⟨e3, e4⟩ := takeWhile_append_stop (p := isName) (c :: r) (op.getD [] ++ version.getD []) (fun x hx => (isName_iff x).2 (hchars x hx)) hstop
    unfold splitName
    simp only [e1, e2, e3, e4]
    rfl
  have hdig : ∀ v, version = some v → ∀ x ∈ v, isVer x = true := by
    intro v hv x hx
    rcases (hver v hv).2.1 x hx with h | h <;> simp [isVer, h]
  have hsplitOp : splitOp (op.getD [] ++ version.getD []) = (op, version.getD []) := by
    cases op with
    | none =>
      cases version with
      | none => rfl
      | some v => exact absurd rfl (hver v rfl).2.2
    | some o =>
      have hv : ∀ x t, version.getD [] = x :: t → x ≠ '=' := by
        intro x t h e
        cases version with
        | none => cases h
        | some v =>
          simp only [Option.getD_some] at h
          have := hdig v rfl x (by rw [h]; exact List.mem_cons_self)
          rw [e] at this
          revert this
          decide
      have hv' : ∀ t, version.getD [] ≠ '=' :: t := fun t h => hv _ t h rfl
      generalize version.getD [] = w at hv'
      rcases hop o rfl with rfl | rfl | rfl | rfl | rfl | rfl
      all_goals
        first
        | exact splitOp_two _ w (by decide)
        | exact splitOp_one _ w (by decide) hv'
  have hvers : (version.getD []).takeWhile isVer = version.getD [] := by
    rw [List.takeWhile_eq_self_iff]
    cases version with
    | none => simp
    | some v => simpa using hdig v rfl
  unfold parseDep
  have htext : Dep.text ⟨flag, c :: r, op, version⟩ = flagText flag ++ c :: (r ++ (op.getD [] ++ version.getD [])) := rfl
  rw [htext] at hs
  simp only [hs, splitFlag_text flag c _ hcw]
  rw [show c :: (r ++ (op.getD [] ++ version.getD [])) = c :: r ++ (op.getD [] ++ version.getD []) from rfl, hsplit]
  simp only [hsplitOp, hvers]
  congr 2
  cases version with
  | none => rfl
  | some v =>
    simp only [Option.getD_some]
    rw [if_neg (by simpa using (hver v rfl).1)]

theorem splitFlag_sound (s : List Char) : s = flagText (splitFlag s).1 ++ (splitFlag s).2 := by
  unfold splitFlag
  split <;> rfl

theorem splitName_sound (r : List Char) (p : List Char × List Char) (h : splitName r = some p) :
    (∃ junk, r = junk ++ (p.1 ++ p.2) ∧ ∀ c ∈ junk, isSkip c = true) ∧ p.1 ≠ [] ∧ ∀ c ∈ p.1, isName c = true := by
  unfold splitName at h
  simp only at h
  have hr := List.takeWhile_append_dropWhile (p := isSkip) (l := r)
  have hsk : ∀ c ∈ r.takeWhile isSkip, isSkip c = true := fun c hc => List.mem_takeWhile_imp hc
  generalize r.takeWhile isSkip = sk at *
  generalize r.dropWhile isSkip = rest at *
  split at h
  · split at h
    · rename_i hm
      cases h
      refine ⟨?_, by simp, by simp [isName]⟩
      have hrev : sk.reverse = sk.reverse.takeWhile (· ≠ '-') ++ sk.reverse.dropWhile (· ≠ '-') := List.takeWhile_append_dropWhile.symm
      have hne : sk.reverse.dropWhile (· ≠ '-') ≠ [] := by
        intro e
        rw [List.dropWhile_eq_nil_iff] at e
        have := e '-' (List.mem_reverse.2 hm)
        simp at this
      obtain ⟨x, t, ht⟩ := List.exists_cons_of_ne_nil hne
      have hx : x = '-' := by
        have := List.head_dropWhile_not (fun c : Char => decide (c ≠ '-')) hne
        simp only [ht, List.head_cons, decide_eq_false_iff_not, not_not] at this
        exact this
      subst hx
      rw [ht] at hrev
      have hsk' : sk = t.reverse ++ '-' :: (sk.reverse.takeWhile (· ≠ '-')).reverse := by
        have := congrArg List.reverse hrev
        simpa using this
      refine ⟨t.reverse, ?_, ?_⟩
      · rw [← hr]
        conv_lhs => rw [hsk']
        simp
      · intro c hc
        refine hsk c ?_
        rw [hsk']
        exact List.mem_append_left _ hc
    · cases h
  · rename_i hne
    cases h
    refine ⟨⟨sk, ?_, hsk⟩, ?_, fun c hc => List.mem_takeWhile_imp hc⟩
    · rw [← hr, List.takeWhile_append_dropWhile]
    · simpa using hne

theorem splitOp_sound (s : List Char) : s = (splitOp s).1.getD [] ++ (splitOp s).2 ∧ ∀ o, (splitOp s).1 = some o → Sign o := by
  cases s with
  | nil => exact ⟨rfl, by simp [splitOp]⟩
  | cons c r =>
    by_cases hc : isOp c = true
    · have hc' : c = '>' ∨ c = '<' ∨ c = '=' := by simpa [isOp, or_assoc] using hc
      by_cases hr : ∃ t, r = '=' :: t
      · obtain ⟨t, rfl⟩ := hr
        rw [splitOp_two c t hc]
        refine ⟨rfl, ?_⟩
        rintro o h
        cases h
        rcases hc' with rfl | rfl | rfl <;> simp [Sign]
      · rw [splitOp_one c r hc (fun t e => hr ⟨t, e⟩)]
        refine ⟨rfl, ?_⟩
        rintro o h
        cases h
        rcases hc' with rfl | rfl | rfl <;> simp [Sign]
    · have : splitOp (c :: r) = (none, c :: r) := by simp [splitOp, hc]
      rw [this]
      exact ⟨rfl, by simp⟩

/-- What is read stands in the string, in this order: the flag, something that is left out, the name, the sign, the version, and a rest that
is left out. -/
theorem C71_sound (s : List Char) (d : Dep) (h : parseDep s = .ok d) :
    ∃ junk rest, s.filter (· ≠ ' ') = flagText d.flag ++ (junk ++ (d.name ++ (d.op.getD [] ++ (d.version.getD [] ++ rest)))) ∧
      (∀ c ∈ junk, c.isAlphanum = false ∧ c ≠ '_' ∧ c ≠ '?' ∧ c ≠ '!') ∧ d.name ≠ [] ∧ (∀ c ∈ d.name, NameChar c) ∧ (∀ o, d.op = some o → Sign o) ∧
      ∀ v, d.version = some v → v ≠ [] ∧ ∀ c ∈ v, c.isDigit = true ∨ c = '.' := by
  unfold parseDep at h
  simp only at h
  have hf := splitFlag_sound (s.filter (· ≠ ' '))
  generalize splitFlag (s.filter (· ≠ ' ')) = f at *
  cases hn : splitName f.2 with
  | none => rw [hn] at h; cases h
  | some n =>
    rw [hn] at h
    simp only [Except.ok.injEq] at h
    subst h
    obtain ⟨⟨junk, h1, h2⟩, h3, h4⟩ := splitName_sound _ _ hn
    obtain ⟨h5, h6⟩ := splitOp_sound n.2
    generalize splitOp n.2 = o at *
    have hv : (if (o.2.takeWhile isVer).isEmpty then none else some (o.2.takeWhile isVer) : Option (List Char)).getD [] = o.2.takeWhile isVer := by
      split
      · rename_i h
        simpa using (List.isEmpty_iff.1 h).symm
      · rfl
    refine ⟨junk, o.2.dropWhile isVer, ?_, ?_, h3, fun c hc => (isName_iff c).1 (h4 c hc), h6, ?_⟩
    · simp only [hv, List.takeWhile_append_dropWhile]
      rw [← h5, ← h1]
      exact hf
    · intro c hc
      have := h2 c hc
      simp only [isSkip, isWord, Bool.and_eq_true, Bool.not_eq_true', Bool.or_eq_false_iff, beq_eq_false_iff_ne, bne_iff_ne] at this
      exact ⟨this.1.1.1, this.1.1.2, this.1.2, this.2⟩
    · intro v hv
      split at hv
      · cases hv
      · rename_i hne
        cases hv
        refine ⟨by simpa using hne, fun c hc => ?_⟩
        have := List.mem_takeWhile_imp hc
        simpa [isVer] using this

/-- Not proved because it is false: that a dependency on a mod with a space in its name is read as one on that mod. -/
theorem C71_spaces_refuted : ¬ ∀ (name : List Char), (∃ c r, name = c :: r ∧ c ≠ '-') → (∀ c ∈ name, NameChar c ∨ c = ' ') →
    parseDep name = .ok ⟨none, name, none, none⟩ := by
  intro h
  have := h "Squeak Through".toList ⟨'S', "queak Through".toList, by decide, by decide⟩ (by
    intro c hc
    simp only [NameChar]
    revert c
    decide)
  revert this
  decide +kernel

/-- Not proved because it is false: that a string which is no dependency is refused.  What follows the name is taken for a version without a
sign, or left out. -/
theorem C71_refused_refuted : ¬ ∀ (s : List Char), (¬ ∃ d, Plain d ∧ s.filter (· ≠ ' ') = d.text) → ∃ e, parseDep s = .error e := by
  intro h
  obtain ⟨e, he⟩ := h "a.b".toList (by
    rintro ⟨d, hd, ht⟩
    have := C71_read d hd "a.b".toList ht
    rw [show parseDep "a.b".toList = .ok ⟨none, "a".toList, none, some ".".toList⟩ by decide +kernel] at this
    cases this
    exact absurd rfl (hd.version _ rfl).2.2)
  rw [show parseDep "a.b".toList = .ok ⟨none, "a".toList, none, some ".".toList⟩ by decide +kernel] at he
  cases he

/-- A dependency as mods write it, with spaces. -/
example : parseDep "(?) some-mod_2 >= 1.10.0".toList = .ok ⟨some .hidden, "some-mod_2".toList, some ">=".toList, some "1.10.0".toList⟩ := by
  decide +kernel

example : Plain ⟨some .hidden, "some-mod_2".toList, some ">=".toList, some "1.10.0".toList⟩ := by
  refine ⟨⟨'s', "ome-mod_2".toList, by decide, by decide⟩, ?_, ?_, ?_⟩
  · simp only [NameChar]; decide
  · rintro o h; cases h; simp [Sign]
  · rintro v h; cases h; exact ⟨by decide, by decide, by decide⟩

example : "(?) some-mod_2 >= 1.10.0".toList.filter (· ≠ ' ') =
    Dep.text ⟨some .hidden, "some-mod_2".toList, some ">=".toList, some "1.10.0".toList⟩ := by decide

end ModLoad
end Draftsman
