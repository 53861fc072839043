import Verif.Model.ModList
import Verif.Proof.Dict
import Verif.Proof.Except
import Mathlib.Algebra.Order.Ring.Int
import Mathlib.Data.List.Perm.Basic

namespace Draftsman
namespace ModList

/-! ## C51: mod versions -/

/-- `v` is a later version than `w`: at the first difference its number is larger, or it goes on where the other stops. -/
def Newer (v w : List ℤ) : Prop :=
  ∃ p, (∃ x s, v = p ++ x :: s ∧ w = p) ∨ ∃ x y s t, v = p ++ x :: s ∧ w = p ++ y :: t ∧ y < x

/-- The numbers of a version. -/
def Numbers (f : Found) (v : List ℤ) : Prop := Version.versionStringToTuple f.version = .ok v

/-- `f` may stand before `g`: it is newer, or the same version and not an archive before a folder. -/
def Before (f g : Found) : Prop :=
  ∃ v w, Numbers f v ∧ Numbers g w ∧ (Newer v w ∨ v = w ∧ (f.archive = true → g.archive = true))

theorem tupleLt_iff : ∀ v w : List ℤ, tupleLt v w = true ↔ Newer w v
  | [], [] => by
    simp only [tupleLt, Newer]
    constructor
    · simp
    · rintro ⟨p, ⟨x, s, h, -⟩ | ⟨x, y, s, t, h, -⟩⟩ <;> simp at h
  | [], b :: bs => by
    simp only [tupleLt, true_iff]
    exact ⟨[], .inl ⟨b, bs, rfl, rfl⟩⟩
  | a :: as, [] => by
    simp only [tupleLt, Newer]
    constructor
    · simp
    · rintro ⟨p, ⟨x, s, h, -⟩ | ⟨x, y, s, t, h, -⟩⟩ <;> simp at h
  | a :: as, b :: bs => by
    by_cases hab : a = b
    · subst hab
      simp only [tupleLt, if_true]
      rw [tupleLt_iff as bs]
      constructor
      · rintro ⟨p, ⟨x, s, h, h'⟩ | ⟨x, y, s, t, h, h', hl⟩⟩
        · exact ⟨a :: p, .inl ⟨x, s, by rw [h]; rfl, by rw [h']⟩⟩
        · exact ⟨a :: p, .inr ⟨x, y, s, t, by rw [h]; rfl, by rw [h']; rfl, hl⟩⟩
      · rintro ⟨p, ⟨x, s, h, h'⟩ | ⟨x, y, s, t, h, h', hl⟩⟩
        · cases p with
          | nil => simp at h'
          | cons q p =>
            simp only [List.cons_append, List.cons.injEq] at h h'
            exact ⟨p, .inl ⟨x, s, h.2, h'.2⟩⟩
        · cases p with
          | nil => simp only [List.nil_append, List.cons.injEq] at h h'; omega
          | cons q p =>
            simp only [List.cons_append, List.cons.injEq] at h h'
            exact ⟨p, .inr ⟨x, y, s, t, h.2, h'.2, hl⟩⟩
    · simp only [tupleLt, if_neg hab, decide_eq_true_eq]
      constructor
      · intro h; exact ⟨[], .inr ⟨b, a, bs, as, rfl, rfl, h⟩⟩
      · rintro ⟨p, ⟨x, s, h, h'⟩ | ⟨x, y, s, t, h, h', hl⟩⟩
        · cases p with
          | nil => simp at h'
          | cons q p =>
            simp only [List.cons_append, List.cons.injEq] at h h'
            exact absurd (h'.1.trans h.1.symm) hab
        · cases p with
          | nil => simp only [List.nil_append, List.cons.injEq] at h h'; omega
          | cons q p =>
            simp only [List.cons_append, List.cons.injEq] at h h'
            exact absurd (h'.1.trans h.1.symm) hab

theorem tupleLt_total : ∀ v w : List ℤ, tupleLt v w = true ∨ v = w ∨ tupleLt w v = true
  | [], [] => by simp
  | [], _ :: _ => by simp [tupleLt]
  | _ :: _, [] => by simp [tupleLt]
  | a :: as, b :: bs => by
    by_cases hab : a = b
    · subst hab
      have := tupleLt_total as bs
      simpa [tupleLt] using this
    · have : ¬ b = a := fun h => hab h.symm
      simp only [tupleLt, if_neg hab, if_neg this, decide_eq_true_eq]
      omega

theorem tupleLt_irrefl : ∀ v : List ℤ, tupleLt v v = false
  | [] => rfl
  | a :: as => by simp [tupleLt, tupleLt_irrefl as]

theorem tupleLt_trans : ∀ u v w : List ℤ, tupleLt u v = true → tupleLt v w = true → tupleLt u w = true
  | [], [], _, h, _ => by simp [tupleLt] at h
  | [], _ :: _, [], _, h => by simp [tupleLt] at h
  | [], _ :: _, _ :: _, _, _ => rfl
  | _ :: _, [], _, h, _ => by simp [tupleLt] at h
  | _ :: _, _ :: _, [], _, h => by simp [tupleLt] at h
  | a :: as, b :: bs, c :: cs, h1, h2 => by
    simp only [tupleLt] at h1 h2 ⊢
    split at h1 <;> split at h2 <;> (try simp only [decide_eq_true_eq] at h1) <;> (try simp only [decide_eq_true_eq] at h2)
    · rename_i e1 e2; subst e1 e2; simp only [if_true]; exact tupleLt_trans as bs cs h1 h2
    · rename_i e1 e2; subst e1; rw [if_neg e2]; simpa using h2
    · rename_i e1 e2; subst e2; rw [if_neg e1]; simpa using h1
    · rw [if_neg (by omega : ¬ a = c), decide_eq_true_eq]; omega

theorem keyLt_asymm_total (a b : List ℤ × Bool) : (!keyLt a b || !keyLt b a) = true := by
  obtain ⟨v, p⟩ := a
  obtain ⟨w, q⟩ := b
  by_cases h : v = w
  · subst h; cases p <;> cases q <;> simp [keyLt]
  · have h' : ¬ w = v := fun e => h e.symm
    simp only [keyLt, if_neg h, if_neg h']
    by_contra hc
    simp only [Bool.or_eq_true, Bool.not_eq_true', not_or, Bool.not_eq_false] at hc
    have := tupleLt_trans _ _ _ hc.1 hc.2
    rw [tupleLt_irrefl] at this
    exact absurd this (by simp)

theorem ge_trans (a b c : List ℤ × Bool) (h1 : (!keyLt a b) = true) (h2 : (!keyLt b c) = true) : (!keyLt a c) = true := by
  obtain ⟨u, p⟩ := a
  obtain ⟨v, q⟩ := b
  obtain ⟨w, r⟩ := c
  simp only [keyLt, Bool.not_eq_true'] at h1 h2 ⊢
  by_cases huv : u = v
  · subst huv
    by_cases hvw : u = w
    · subst hvw
      simp only [if_true] at h1 h2 ⊢
      revert h1 h2
      cases p <;> cases q <;> cases r <;> simp
    · simp only [if_neg hvw] at h2 ⊢
      exact h2
  · simp only [if_neg huv] at h1
    have g1 : tupleLt v u = true := by
      rcases tupleLt_total u v with h | h | h
      · rw [h1] at h; simp at h
      · exact absurd h huv
      · exact h
    by_cases hvw : v = w
    · subst hvw
      simp only [if_neg huv]; exact h1
    · simp only [if_neg hvw] at h2
      have g2 : tupleLt w v = true := by
        rcases tupleLt_total v w with h | h | h
        · rw [h2] at h; simp at h
        · exact absurd h hvw
        · exact h
      have g3 := tupleLt_trans _ _ _ g2 g1
      have huw : ¬ u = w := by rintro rfl; rw [tupleLt_irrefl] at g3; simp at g3
      rw [if_neg huw]
      by_contra hc
      simp only [Bool.not_eq_false] at hc
      have := tupleLt_trans _ _ _ g3 hc
      rw [tupleLt_irrefl] at this
      exact absurd this (by simp)

theorem before_of_key (a b : (List ℤ × Bool) × Found) (ha : key a.2 = .ok a.1) (hb : key b.2 = .ok b.1)
    (h : (!keyLt a.1 b.1) = true) : Before a.2 b.2 := by
  obtain ⟨⟨v, p⟩, f⟩ := a
  obtain ⟨⟨w, q⟩, g⟩ := b
  simp only [key] at ha hb
  cases hv : Version.versionStringToTuple f.version with
  | error e => rw [hv] at ha; simp at ha
  | ok v' =>
    cases hw : Version.versionStringToTuple g.version with
    | error e => rw [hw] at hb; simp at hb
    | ok w' =>
      rw [hv] at ha; rw [hw] at hb
      simp only [Except.ok.injEq, Prod.mk.injEq] at ha hb
      obtain ⟨rfl, rfl⟩ := ha
      obtain ⟨rfl, rfl⟩ := hb
      refine ⟨v', w', hv, hw, ?_⟩
      simp only [keyLt] at h
      by_cases hvw : v' = w'
      · right
        refine ⟨hvw, fun hf => ?_⟩
        rw [if_pos hvw, hf] at h
        simpa using h
      · left
        rw [if_neg hvw] at h
        rcases tupleLt_total v' w' with h' | h' | h'
        · rw [h'] at h; simp at h
        · exact absurd h' hvw
        · exact (tupleLt_iff _ _).1 h'

theorem keyed_spec {l : List Found} {ks : List ((List ℤ × Bool) × Found)}
    (h : List.Forall₂ (fun a b => Except.map (fun k => (k, a)) (key a) = Except.ok b) l ks) :
    ks.map Prod.snd = l ∧ ∀ p ∈ ks, key p.2 = .ok p.1 := by
  induction h with
  | nil => simp
  | @cons a b l ks hab _ ih =>
    cases hk : key a with
    | error e => rw [hk] at hab; simp [Except.map] at hab
    | ok k =>
      rw [hk] at hab
      simp only [Except.map, Except.ok.injEq] at hab
      subst hab
      refine ⟨by simp [ih.1], ?_⟩
      intro p hp
      rcases List.mem_cons.1 hp with rfl | hp
      · exact hk
      · exact ih.2 p hp

theorem insertKeyed_perm (a : (List ℤ × Bool) × Found) (l : List ((List ℤ × Bool) × Found)) : (insertKeyed a l).Perm (a :: l) := by
  induction l with
  | nil => exact .refl _
  | cons b r ih =>
    simp only [insertKeyed]
    split
    · exact (ih.cons b).trans (.swap a b r)
    · exact .refl _

theorem sortKeyed_perm (l : List ((List ℤ × Bool) × Found)) : (sortKeyed l).Perm l := by
  induction l with
  | nil => exact .refl _
  | cons a r ih => exact (insertKeyed_perm a _).trans (ih.cons a)

theorem insertKeyed_sorted (a : (List ℤ × Bool) × Found) (l : List ((List ℤ × Bool) × Found))
    (h : l.Pairwise fun a b => (!keyLt a.1 b.1) = true) : (insertKeyed a l).Pairwise fun a b => (!keyLt a.1 b.1) = true := by
  induction l with
  | nil => simp [insertKeyed]
  | cons b r ih =>
    obtain ⟨hb, hr⟩ := List.pairwise_cons.1 h
    simp only [insertKeyed]
    split
    · rename_i hk
      refine List.pairwise_cons.2 ⟨?_, ih hr⟩
      intro c hc
      rcases List.mem_cons.1 ((insertKeyed_perm a r).mem_iff.1 hc) with rfl | hc
      · have := keyLt_asymm_total c.1 b.1
        rw [hk] at this
        simpa using this
      · exact hb c hc
    · rename_i hk
      have hab : (!keyLt a.1 b.1) = true := by simpa using hk
      refine List.pairwise_cons.2 ⟨?_, h⟩
      intro c hc
      rcases List.mem_cons.1 hc with rfl | hc
      · exact hab
      · exact ge_trans _ _ _ hab (hb c hc)

theorem sortKeyed_sorted (l : List ((List ℤ × Bool) × Found)) : (sortKeyed l).Pairwise fun a b => (!keyLt a.1 b.1) = true := by
  induction l with
  | nil => exact .nil
  | cons a r ih => exact insertKeyed_sorted a _ ih

theorem insertKeyed_filter (k : List ℤ × Bool) (a : (List ℤ × Bool) × Found) (l : List ((List ℤ × Bool) × Found)) :
    (insertKeyed a l).filter (fun x => x.1 = k) = (a :: l).filter (fun x => x.1 = k) := by
  induction l with
  | nil => rfl
  | cons b r ih =>
    simp only [insertKeyed]
    split
    · rename_i hk
      rw [List.filter_cons, ih]
      by_cases ha : a.1 = k
      · by_cases hb : b.1 = k
        · rw [ha, hb] at hk
          have := keyLt_asymm_total k k
          rw [hk] at this
          simp at this
        · simp [ha, hb]
      · simp [List.filter_cons, ha]
    · rfl

theorem sortKeyed_filter (k : List ℤ × Bool) (l : List ((List ℤ × Bool) × Found)) :
    (sortKeyed l).filter (fun x => x.1 = k) = l.filter (fun x => x.1 = k) := by
  induction l with
  | nil => rfl
  | cons a r ih =>
    rw [sortKeyed, insertKeyed_filter, List.filter_cons, List.filter_cons, ih]

/-- What sorting does. -/
theorem sortVersions_spec (l l' : List Found) (h : sortVersions l = .ok l') : l'.Pairwise Before ∧ l'.Perm l := by
  unfold sortVersions at h
  cases hk : l.mapM (fun f => (key f).map (fun k => (k, f))) with
  | error e => rw [hk] at h; simp at h
  | ok ks =>
    rw [hk] at h
    simp only [Except.ok.injEq] at h
    subst h
    rw [mapM_ok_iff] at hk
    obtain ⟨hm, hks⟩ := keyed_spec hk
    have hp := sortKeyed_perm ks
    refine ⟨?_, (hp.map Prod.snd).trans (by rw [hm])⟩
    rw [List.pairwise_map]
    have hs := sortKeyed_sorted ks
    refine hs.imp_of_mem ?_
    intro a b ha hb hab
    exact before_of_key a b (hks a (hp.mem_iff.1 ha)) (hks b (hp.mem_iff.1 hb)) hab

theorem get?_addMod (d : Dict String (List Found)) (f : Found) (n : String) :
    (addMod d f).get? n = if f.name = n then some ((d.get? n).getD [] ++ [f]) else d.get? n := by
  unfold addMod
  cases h : d.get? f.name with
  | none =>
    simp only [Dict.get?_set]
    split
    · rename_i e; rw [← e, h]; rfl
    · rfl
  | some l =>
    simp only [Dict.get?_set]
    split
    · rename_i e; rw [← e, h]; rfl
    · rfl

theorem collect_spec (used : Bool) (d d' : Dict String (List Found)) (fs : List Found) (h : collect used d fs = .ok d') (n : String) :
    d'.get? n = if fs.any (fun f => f.name = n) then some ((d.get? n).getD [] ++ fs.filter (fun f => f.name = n)) else d.get? n := by
  induction fs generalizing used d with
  | nil => simp only [collect, Except.ok.injEq] at h; subst h; simp
  | cons f fs ih =>
    simp only [collect] at h
    cases hc : construct used f with
    | error e => rw [hc] at h; simp at h
    | ok u =>
      rw [hc] at h
      rw [ih u _ h, get?_addMod]
      by_cases hn : f.name = n
      · by_cases ha : fs.any (fun f => f.name = n) = true
        · simp [hn, ha]
        · have hf : fs.filter (fun f => f.name = n) = [] := by
            rw [List.filter_eq_nil_iff]
            intro x hx hxn
            exact ha (List.any_eq_true.2 ⟨x, hx, hxn⟩)
          simp [hn, hf]
      · simp [hn]

theorem sortAll_spec (d d' : Dict String (List Found)) (h : sortAll d = .ok d') (n : String) :
    (d.get? n = none ∧ d'.get? n = none) ∨ ∃ l l', d.get? n = some l ∧ d'.get? n = some l' ∧ if n = "core" then l' = l else sortVersions l = .ok l' := by
  induction d generalizing d' with
  | nil => simp only [sortAll, Except.ok.injEq] at h; subst h; simp
  | cons p r ih =>
    obtain ⟨m, l⟩ := p
    simp only [sortAll] at h
    have key : ∀ l', (sortAll r).map ((m, l') :: ·) = .ok d' → (if m = "core" then l' = l else sortVersions l = .ok l') →
        (Dict.get? ((m, l) :: r) n = none ∧ d'.get? n = none) ∨
          ∃ l₁ l₂, Dict.get? ((m, l) :: r) n = some l₁ ∧ d'.get? n = some l₂ ∧ if n = "core" then l₂ = l₁ else sortVersions l₁ = .ok l₂ := by
      intro l' hr hl
      cases hs : sortAll r with
      | error e => rw [hs] at hr; simp [Except.map] at hr
      | ok r' =>
        rw [hs] at hr
        simp only [Except.map, Except.ok.injEq] at hr
        subst hr
        by_cases hm : m = n
        · subst hm
          right
          exact ⟨l, l', by simp [Dict.get?], by simp [Dict.get?], hl⟩
        · simp only [Dict.get?, if_neg hm]
          exact ih r' hs
    by_cases hm : m = "core"
    · rw [if_pos hm] at h
      exact key l h (by rw [if_pos hm])
    · rw [if_neg hm] at h
      cases hs : sortVersions l with
      | error e => rw [hs] at h; simp at h
      | ok l' =>
        rw [hs] at h
        exact key l' h (by rw [if_neg hm]; exact hs)

/-- What is discovered: the game's folders, and the mods unless they are left out. -/
def Present (game mods : List Found) (noMods : Bool) (f : Found) : Prop := f ∈ game ∨ noMods = false ∧ f ∈ mods

/-- If discovery succeeds, the versions of every mod are listed newest first, with folders before archives of the same version, and the
list holds exactly the folders and archives of that name, each as often as it was found. -/
theorem C51_order (used : Bool) (game mods : List Found) (noMods : Bool) (d : Dict String (List Found))
    (h : discover used game mods noMods = .ok d) (n : String) (hn : n ≠ "core") (l : List Found) (hl : d.get? n = some l) :
    l.Pairwise Before ∧ l.Perm ((game ++ if noMods then [] else mods).filter (fun f => f.name = n)) := by
  unfold discover at h
  generalize (game ++ if noMods = true then [] else mods) = fs at h ⊢
  cases hc : collect used [] fs with
  | error e => rw [hc] at h; simp at h
  | ok c =>
    rw [hc] at h
    rcases sortAll_spec c d h n with ⟨-, h'⟩ | ⟨l₁, l₂, h1, h2, h3⟩
    · rw [h'] at hl; simp at hl
    · rw [hl, Option.some.injEq] at h2
      subst h2
      rw [if_neg hn] at h3
      obtain ⟨hp, hq⟩ := sortVersions_spec _ _ h3
      refine ⟨hp, hq.trans ?_⟩
      have := collect_spec used [] c fs hc n
      rw [h1] at this
      split at this
      · simp only [Dict.get?_nil, Option.getD_none, List.nil_append, Option.some.injEq] at this
        rw [this]
      · simp at this

/-- Everything found is listed under its name. -/
theorem C51_listed (used : Bool) (game mods : List Found) (noMods : Bool) (d : Dict String (List Found))
    (h : discover used game mods noMods = .ok d) (f : Found) (hf : Present game mods noMods f) :
    ∃ l, d.get? f.name = some l ∧ f ∈ l := by
  unfold discover at h
  have hm : f ∈ game ++ if noMods = true then [] else mods := by
    rcases hf with hf | ⟨hn, hf⟩
    · exact List.mem_append_left _ hf
    · subst hn; exact List.mem_append_right _ (by simpa using hf)
  generalize (game ++ if noMods = true then [] else mods) = fs at h hm
  cases hc : collect used [] fs with
  | error e => rw [hc] at h; simp at h
  | ok c =>
    rw [hc] at h
    have hs := collect_spec used [] c fs hc f.name
    rw [if_pos (List.any_eq_true.2 ⟨f, hm, by simp⟩)] at hs
    have hmem : f ∈ fs.filter (fun g => g.name = f.name) := List.mem_filter.2 ⟨hm, by simp⟩
    simp only [Dict.get?_nil, Option.getD_none, List.nil_append] at hs
    rcases sortAll_spec c d h f.name with ⟨h', -⟩ | ⟨l₁, l₂, h1, h2, h3⟩
    · rw [hs] at h'; simp at h'
    · rw [hs, Option.some.injEq] at h1
      subst h1
      refine ⟨l₂, h2, ?_⟩
      split at h3
      · rw [h3]; exact hmem
      · exact (sortVersions_spec _ _ h3).2.mem_iff.2 hmem

/-- The one in front is not older than any other. -/
theorem C51_front (used : Bool) (game mods : List Found) (noMods : Bool) (d : Dict String (List Found))
    (h : discover used game mods noMods = .ok d) (n : String) (hn : n ≠ "core") (f : Found) (l : List Found) (hl : d.get? n = some (f :: l))
    (g : Found) (hg : Present game mods noMods g) (hgn : g.name = n) (v w : List ℤ) (hv : Numbers f v) (hw : Numbers g w) :
    ¬ Newer w v ∧ (w = v → f.archive = true → g.archive = true) := by
  obtain ⟨hp, -⟩ := C51_order used game mods noMods d h n hn _ hl
  obtain ⟨l', hl', hgl⟩ := C51_listed used game mods noMods d h g hg
  rw [hgn, hl, Option.some.injEq] at hl'
  subst hl'
  have irr : ¬ Newer v v := by rw [← tupleLt_iff, tupleLt_irrefl]; simp
  rcases List.mem_cons.1 hgl with rfl | hgl
  · have : w = v := by rw [Numbers, hv, Except.ok.injEq] at hw; exact hw.symm
    subst this
    exact ⟨irr, fun _ h => h⟩
  · obtain ⟨v', w', hv', hw', hb⟩ := (List.pairwise_cons.1 hp).1 g hgl
    rw [Numbers, hv, Except.ok.injEq] at hv'
    rw [Numbers, hw, Except.ok.injEq] at hw'
    subst hv' hw'
    rcases hb with hb | ⟨rfl, hb⟩
    · refine ⟨fun hc => ?_, ?_⟩
      · rw [← tupleLt_iff] at hb hc
        have := tupleLt_trans _ _ _ hb hc
        rw [tupleLt_irrefl] at this; simp at this
      · rintro rfl; exact absurd hb irr
    · exact ⟨irr, fun _ => hb⟩

theorem collect_ok (used : Bool) (d : Dict String (List Found)) (fs : List Found)
    (h : (fs.filter (fun f => !f.hasDeps)).length + (if used then 1 else 0) ≤ 1) : ∃ d', collect used d fs = .ok d' := by
  induction fs generalizing used d with
  | nil => exact ⟨d, rfl⟩
  | cons f fs ih =>
    simp only [collect, construct]
    cases hd : f.hasDeps with
    | true =>
      simp only [if_true]
      exact ih used _ (by simpa [List.filter_cons, hd] using h)
    | false =>
      simp only [List.filter_cons, hd, Bool.not_false, if_true, List.length_cons] at h
      have hu : used = false := by
        cases used with
        | false => rfl
        | true => simp at h
      subst hu
      simp only [Bool.false_eq_true, if_false]
      exact ih true _ (by simp at h ⊢; omega)

theorem sortAll_ok (d : Dict String (List Found)) (h : ∀ p ∈ d, p.1 ≠ "core" → ∃ l', sortVersions p.2 = .ok l') :
    ∃ d', sortAll d = .ok d' := by
  induction d with
  | nil => exact ⟨[], rfl⟩
  | cons p r ih =>
    obtain ⟨n, l⟩ := p
    obtain ⟨r', hr⟩ := ih fun q hq => h q (List.mem_cons_of_mem _ hq)
    simp only [sortAll]
    by_cases hn : n = "core"
    · rw [if_pos hn, hr]; exact ⟨_, rfl⟩
    · obtain ⟨l', hl⟩ := h (n, l) List.mem_cons_self hn
      rw [if_neg hn, hl, hr]
      exact ⟨_, rfl⟩

theorem sortVersions_ok (l : List Found) (h : ∀ f ∈ l, ∃ v, Numbers f v) : ∃ l', sortVersions l = .ok l' := by
  unfold sortVersions
  cases hk : l.mapM (fun f => (key f).map (fun k => (k, f))) with
  | ok ks => exact ⟨_, rfl⟩
  | error e =>
    obtain ⟨f, hf, e', he⟩ := (mapM_error_iff _ l).1 ⟨e, hk⟩
    obtain ⟨v, hv⟩ := h f hf
    rw [Numbers] at hv
    simp [key, hv, Except.map] at he

theorem collect_mem (used : Bool) (d d' : Dict String (List Found)) (fs : List Found) (h : collect used d fs = .ok d')
    (P : String → Found → Prop) (hd : ∀ p ∈ d, ∀ f ∈ p.2, P p.1 f) (hf : ∀ f ∈ fs, P f.name f) : ∀ p ∈ d', ∀ f ∈ p.2, P p.1 f := by
  have hset : ∀ (d : Dict String (List Found)) (n : String) (l : List Found), (∀ p ∈ d, ∀ f ∈ p.2, P p.1 f) → (∀ f ∈ l, P n f) →
      ∀ p ∈ d.set n l, ∀ f ∈ p.2, P p.1 f := by
    intro d n l hd hl
    induction d with
    | nil => simpa [Dict.set] using hl
    | cons q r ih =>
      obtain ⟨m, k⟩ := q
      simp only [Dict.set]
      split
      · rename_i e
        subst e
        intro p hp
        rcases List.mem_cons.1 hp with rfl | hp
        · exact hl
        · exact hd p (List.mem_cons_of_mem _ hp)
      · intro p hp
        rcases List.mem_cons.1 hp with rfl | hp
        · exact hd _ List.mem_cons_self
        · exact ih (fun q hq => hd q (List.mem_cons_of_mem _ hq)) p hp
  have hget : ∀ (d : Dict String (List Found)) (n : String) (l : List Found), d.get? n = some l → (n, l) ∈ d := by
    intro d n l h
    induction d with
    | nil => simp at h
    | cons q r ih =>
      obtain ⟨m, k⟩ := q
      simp only [Dict.get?] at h
      split at h
      · rename_i e; subst e; simp only [Option.some.injEq] at h; subst h; exact List.mem_cons_self
      · exact List.mem_cons_of_mem _ (ih h)
  induction fs generalizing used d with
  | nil => simp only [collect, Except.ok.injEq] at h; subst h; exact hd
  | cons f fs ih =>
    simp only [collect] at h
    cases hc : construct used f with
    | error e => rw [hc] at h; simp at h
    | ok u =>
      rw [hc] at h
      refine ih u _ h ?_ (fun g hg => hf g (List.mem_cons_of_mem _ hg))
      unfold addMod
      have hff := hf f List.mem_cons_self
      cases hg : d.get? f.name with
      | none => exact hset d _ _ hd (by simpa using hff)
      | some l =>
        refine hset d _ _ hd ?_
        intro g hgm
        rcases List.mem_append.1 hgm with hgm | hgm
        · exact hd _ (hget d _ l hg) g hgm
        · rw [List.mem_singleton.1 hgm]; exact hff

/-- Discovery succeeds if the versions are numbers with dots between and at most one mod says nothing about its dependencies.  Without the
last condition it does not hold, see `C51_dependencies_refuted`. -/
theorem C51_found_partial (game mods : List Found) (noMods : Bool)
    (hv : ∀ f, Present game mods noMods f → f.name ≠ "core" → ∃ v, Numbers f v)
    (hd : ((game ++ if noMods then [] else mods).filter (fun f => !f.hasDeps)).length ≤ 1) :
    ∃ d, discover false game mods noMods = .ok d := by
  unfold discover
  have hm : ∀ f ∈ (game ++ if noMods = true then [] else mods), f.name ≠ "core" → ∃ v, Numbers f v := by
    intro f hf
    refine hv f ?_
    rcases List.mem_append.1 hf with hf | hf
    · exact .inl hf
    · cases noMods with
      | true => simp at hf
      | false => exact .inr ⟨rfl, by simpa using hf⟩
  generalize (game ++ if noMods = true then [] else mods) = fs at hd hm
  obtain ⟨c, hc⟩ := collect_ok false [] fs (by simpa using hd)
  rw [hc]
  refine sortAll_ok c ?_
  intro p hp hpn
  refine sortVersions_ok _ ?_
  intro f hf
  exact collect_mem false [] c fs hc (fun n f => n ≠ "core" → ∃ v, Numbers f v) (by simp) hm p hp f hf hpn

/-- Not proved because it is false: that mods which say nothing about their dependencies can be discovered.  Two of them cannot. -/
theorem C51_dependencies_refuted : ¬ ∀ (game mods : List Found), (∀ f ∈ game ++ mods, ∃ v, Numbers f v) →
    ∃ d, discover false game mods false = .ok d := by
  intro h
  obtain ⟨d, hd⟩ := h [] [⟨"a", "1.0.0".toList, false, false, true⟩, ⟨"b", "1.0.0".toList, false, false, true⟩] (by
    intro f hf
    refine ⟨[1, 0, 0], ?_⟩
    simp only [List.nil_append, List.mem_cons, List.not_mem_nil, or_false] at hf
    rcases hf with rfl | rfl <;> (unfold Numbers; decide +kernel))
  exact absurd hd (by simp [discover, collect, construct])

/-- Two version texts mean the same version if they differ only in zeros at the end. -/
def Same (v w : List ℤ) : Prop := ∃ k, v = w ++ List.replicate k 0 ∨ w = v ++ List.replicate k 0

/-- Not proved because it is false: that a folder comes before an archive of the same version when the versions are written with a different
number of parts: "1.0" counts as older than "1.0.0". -/
theorem C51_parts_refuted : ¬ ∀ (game mods : List Found) (d : Dict String (List Found)), discover false game mods false = .ok d →
    ∀ n l, n ≠ "core" → d.get? n = some l →
      l.Pairwise fun f g => ∀ v w, Numbers f v → Numbers g w → Same v w → f.archive = true → g.archive = true := by
  intro h
  have := h [] [⟨"a", "1.0".toList, false, true, true⟩, ⟨"a", "1.0.0".toList, true, true, true⟩]
    [("a", [⟨"a", "1.0.0".toList, true, true, true⟩, ⟨"a", "1.0".toList, false, true, true⟩])] (by decide +kernel) "a" _ (by decide) rfl
  have := (List.pairwise_cons.1 this).1 _ List.mem_cons_self [1, 0, 0] [1, 0] (by unfold Numbers; decide +kernel) (by unfold Numbers; decide +kernel)
    ⟨1, .inl rfl⟩ rfl
  exact absurd this (by decide)

/-- Three versions and a folder: 0.10 is newer than 0.9, and the folder comes before the archive. -/
example : discover false [⟨"base", "2.0.28".toList, false, true, true⟩]
    [⟨"m", "0.9.0".toList, true, true, true⟩, ⟨"m", "0.10.0".toList, true, true, true⟩, ⟨"m", "0.10.0".toList, false, true, true⟩,
     ⟨"k", "1.0.0".toList, true, false, true⟩] false =
    .ok [("base", [⟨"base", "2.0.28".toList, false, true, true⟩]),
      ("m", [⟨"m", "0.10.0".toList, false, true, true⟩, ⟨"m", "0.10.0".toList, true, true, true⟩, ⟨"m", "0.9.0".toList, true, true, true⟩]),
      ("k", [⟨"k", "1.0.0".toList, true, false, true⟩])] := by
  decide +kernel

/-- The hypotheses of `C51_front` for it. -/
example : Numbers ⟨"m", "0.10.0".toList, false, true, true⟩ [0, 10, 0] ∧ Newer [0, 10, 0] [0, 9, 0] :=
  ⟨by unfold Numbers; decide +kernel, [0], .inr ⟨10, 9, [0], [0], rfl, rfl, by decide⟩⟩

end ModList
end Draftsman
