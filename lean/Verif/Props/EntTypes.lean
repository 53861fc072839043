import Verif.Model.EntTypes
import Verif.Proof.Dict
import Mathlib.Data.List.Nodup
/-
C78: the extraction of entities.  C79: the class picked by `new_entity`.
-/
namespace Draftsman
namespace EntTypes

/-- The prototypes of a type that can be in a blueprint, in the order of the data. -/
def found (data : Data) (type : String) : List Proto := (((data.get? type).getD []).map (·.2)).filter (fun p => placeable p)

/-- Data as the game makes it: prototypes are kept under their own type and name, and no two entities have the same name. -/
structure Wf (data : Data) : Prop where
  own : ∀ ty ps, data.get? ty = some ps → ∀ kp ∈ ps, kp.2.name = kp.1 ∧ kp.2.type = ty
  nodup : ∀ ty ps, data.get? ty = some ps → ps.keys.Nodup
  apart : ∀ ty ty' ps ps', data.get? ty = some ps → data.get? ty' = some ps' → ∀ k ∈ ps.keys, k ∈ ps'.keys → ty = ty'

/-- The types that are extracted with a list of their own. -/
def plain : List String := before ++ after

/-! ### What a part of the extraction does to the tables of prototypes -/

/-- Exactly the prototypes in `S` have been entered. -/
def Entered (S : Proto → Prop) (s s' : Tables) : Prop :=
  (∀ n, (∀ p, S p → p.name ≠ n) → s'.raw.get? n = s.raw.get? n ∧ s'.flippable.get? n = s.flippable.get? n) ∧
  ∀ p, S p → ∃ b, p.box = some b ∧ s'.raw.get? p.name = some (rawOf p b) ∧ s'.flippable.get? p.name = some (isFlippable p)

theorem Entered.comp {S T : Proto → Prop} {s s' s'' : Tables} (h : Entered S s s') (h' : Entered T s' s'')
    (apart : ∀ p q, S p → T q → p.name ≠ q.name) : Entered (fun p => S p ∨ T p) s s'' := by
  refine ⟨fun n hn => ?_, fun p hp => ?_⟩
  · have h1 := h.1 n (fun p hp => hn p (Or.inl hp))
    have h2 := h'.1 n (fun p hp => hn p (Or.inr hp))
    exact ⟨h2.1.trans h1.1, h2.2.trans h1.2⟩
  · rcases hp with hp | hp
    · obtain ⟨b, hb, h1, h2⟩ := h.2 p hp
      have h3 := h'.1 p.name (fun q hq => (apart p q hp hq).symm)
      exact ⟨b, hb, h3.1.trans h1, h3.2.trans h2⟩
    · exact h'.2 p hp

theorem Entered.refl (s : Tables) : Entered (fun _ => False) s s := ⟨fun _ _ => ⟨rfl, rfl⟩, fun _ h => h.elim⟩

theorem Entered.congr {S T : Proto → Prop} {s s' : Tables} (h : Entered S s s') (e : ∀ p, T p ↔ S p) : Entered T s s' := by
  have : T = S := funext fun p => propext (e p)
  rw [this]; exact h

theorem Entered.ofType {S : Proto → Prop} {s s' : Tables} (h : Entered S s s') (o : Dict String (List String)) :
    Entered S s { s' with ofType := o } := h

theorem Entered.ofType' {S : Proto → Prop} {s s' : Tables} (o : Dict String (List String)) (h : Entered S { s with ofType := o } s') :
    Entered S s s' := h

/-- One prototype. -/
theorem step_ok {s s' : Tables} {kp : String × Proto} (hk : kp.2.name = kp.1) (h : step s kp = .ok s') :
    Entered (fun p => p = kp.2 ∧ placeable p = true) s s' ∧
    ∀ t, s'.ofType.get? t = if t = kp.2.type ∧ placeable kp.2 = true then some ((s.ofType.get? t).getD [] ++ [kp.2.name]) else s.ofType.get? t := by
  rw [step] at h
  by_cases hp : placeable kp.2 = false
  · rw [if_pos hp] at h
    cases h
    refine ⟨(Entered.refl s).congr (fun p => ⟨?_, False.elim⟩), fun t => by simp [hp]⟩
    rintro ⟨rfl, h⟩
    rw [hp] at h; cases h
  · rw [if_neg hp] at h
    have hp' : placeable kp.2 = true := by simpa using hp
    cases hb : kp.2.box with
    | none => rw [hb] at h; cases h
    | some b =>
      rw [hb] at h
      simp only [Except.ok.injEq] at h
      subst h
      refine ⟨⟨fun n hn => ?_, ?_⟩, fun t => ?_⟩
      · have := hn kp.2 ⟨rfl, hp'⟩
        rw [Dict.get?_set, Dict.get?_set, if_neg this, if_neg (hk ▸ this)]
        exact ⟨rfl, rfl⟩
      · rintro p ⟨rfl, -⟩
        refine ⟨b, hb, ?_, ?_⟩
        · rw [Dict.get?_set, if_pos rfl]
        · rw [Dict.get?_set, if_pos hk.symm]
      · by_cases ht : t = kp.2.type
        · subst ht
          cases hg : s.ofType.get? kp.2.type with
          | none => simp [Dict.get?_set, hp']
          | some l => simp [Dict.get?_set, hp']
        · have ht' : kp.2.type ≠ t := fun e => ht e.symm
          cases hg : s.ofType.get? kp.2.type with
          | none => simp [Dict.get?_set, ht', ht]
          | some l => simp [Dict.get?_set, ht', ht]

theorem step_total {s : Tables} {kp : String × Proto} (h : placeable kp.2 = true → kp.2.box.isSome) : ∃ s', step s kp = .ok s' := by
  rw [step]
  by_cases hp : placeable kp.2 = false
  · exact ⟨s, by rw [if_pos hp]⟩
  · rw [if_neg hp]
    obtain ⟨b, hb⟩ := Option.isSome_iff_exists.mp (h (by simpa using hp))
    rw [hb]
    exact ⟨_, rfl⟩

theorem foldlM_cons_ok {σ α : Type} {f : σ → α → Except PyErr σ} {s s' : σ} {a : α} {l : List α} :
    (a :: l).foldlM f s = .ok s' ↔ ∃ m, f s a = .ok m ∧ l.foldlM f m = .ok s' := by
  rw [List.foldlM_cons]
  cases f s a with
  | error x => simp [bind, Except.bind]
  | ok m => simp [bind, Except.bind]

/-- The prototypes of a list that can be in a blueprint. -/
def good (ps : List (String × Proto)) : List Proto := (ps.map (·.2)).filter (fun p => placeable p)

theorem good_cons (kp : String × Proto) (ps : List (String × Proto)) :
    good (kp :: ps) = if placeable kp.2 = true then kp.2 :: good ps else good ps := by
  simp only [good, List.map_cons, List.filter_cons]

theorem mem_good {ps : List (String × Proto)} {p : Proto} : p ∈ good ps ↔ (∃ k, (k, p) ∈ ps) ∧ placeable p = true := by
  simp [good]

/-- A loop over prototypes with the step of a type or of the logistic containers. -/
theorem fold_entered {f : Tables → String × Proto → Except PyErr Tables} {Q : String × Proto → Prop}
    (hf : ∀ s s' kp, Q kp → f s kp = .ok s' → Entered (fun p => p = kp.2 ∧ placeable p = true) s s') :
    ∀ (ps : List (String × Proto)) (s s' : Tables), (∀ kp ∈ ps, Q kp) → (∀ kp, Q kp → kp.2.name = kp.1) → (ps.map (·.1)).Nodup → ps.foldlM f s = .ok s' →
      Entered (fun p => p ∈ good ps) s s' := by
  intro ps
  induction ps with
  | nil =>
    intro s s' _ _ _ h
    simp only [List.foldlM_nil, pure, Except.pure, Except.ok.injEq] at h
    subst h
    exact (Entered.refl s).congr (fun p => by simp [good])
  | cons kp ps ih =>
    intro s s' hk hq hn h
    obtain ⟨m, h1, h2⟩ := foldlM_cons_ok.mp h
    rw [List.map_cons, List.nodup_cons] at hn
    have e1 := hf s m kp (hk kp (by simp)) h1
    have e2 := ih m s' (fun x hx => hk x (by simp [hx])) hq hn.2 h2
    refine (e1.comp e2 ?_).congr (fun p => ?_)
    · rintro p q ⟨rfl, -⟩ hq' he
      obtain ⟨⟨k, hkq⟩, -⟩ := mem_good.mp hq'
      have h3 : q.name = k := hq _ (hk (k, q) (by simp [hkq]))
      have h4 := hq _ (hk kp (by simp))
      exact hn.1 (List.mem_map.mpr ⟨(k, q), hkq, by rw [← h4, he, h3]⟩)
    · rw [mem_good, mem_good]
      constructor
      · rintro ⟨⟨k, hk⟩, hp⟩
        rcases List.mem_cons.mp hk with rfl | hk
        · exact Or.inl ⟨rfl, hp⟩
        · exact Or.inr ⟨⟨k, hk⟩, hp⟩
      · rintro (⟨rfl, hp⟩ | ⟨⟨k, hk⟩, hp⟩)
        · exact ⟨⟨kp.1, by simp⟩, hp⟩
        · exact ⟨⟨k, by simp [hk]⟩, hp⟩

theorem fold_ofType (ty : String) : ∀ (ps : List (String × Proto)) (s s' : Tables), (∀ kp ∈ ps, kp.2.name = kp.1 ∧ kp.2.type = ty) →
    ps.foldlM step s = .ok s' → ∀ t, s'.ofType.get? t =
      if t = ty ∧ good ps ≠ [] then some ((s.ofType.get? t).getD [] ++ (good ps).map (·.name)) else s.ofType.get? t := by
  intro ps
  induction ps with
  | nil =>
    intro s s' _ h t
    simp only [List.foldlM_nil, pure, Except.pure, Except.ok.injEq] at h
    subst h
    simp [good]
  | cons kp ps ih =>
    intro s s' hk h t
    obtain ⟨m, h1, h2⟩ := foldlM_cons_ok.mp h
    have e1 := (step_ok (hk kp (by simp)).1 h1).2 t
    have e2 := ih m s' (fun x hx => hk x (by simp [hx])) h2 t
    rw [e2, e1, (hk kp (by simp)).2, good_cons]
    by_cases ht : t = ty <;> by_cases hp : placeable kp.2 = true <;> by_cases hg : good ps = [] <;> simp [ht, hp, hg]

theorem fold_total {f : Tables → String × Proto → Except PyErr Tables} (I : Tables → Prop) : ∀ (ps : List (String × Proto)) (s : Tables), I s →
    (∀ s, I s → ∀ kp ∈ ps, ∃ s', f s kp = .ok s' ∧ I s') → ∃ s', ps.foldlM f s = .ok s' := by
  intro ps
  induction ps with
  | nil => intro s _ _; exact ⟨s, rfl⟩
  | cons kp ps ih =>
    intro s hs h
    obtain ⟨m, hm, hi⟩ := h s hs kp (by simp)
    obtain ⟨s', hs'⟩ := ih m hi (fun s hs x hx => h s hs x (by simp [hx]))
    exact ⟨s', foldlM_cons_ok.mpr ⟨m, hm, hs'⟩⟩

theorem fold_boxed : ∀ (ps : List (String × Proto)) (s s' : Tables), ps.foldlM step s = .ok s' → ∀ p ∈ good ps, p.box.isSome := by
  intro ps
  induction ps with
  | nil => intro s s' _ p hp; simp [good] at hp
  | cons kp ps ih =>
    intro s s' h p hp
    obtain ⟨m, h1, h2⟩ := foldlM_cons_ok.mp h
    obtain ⟨⟨k, hk⟩, hpl⟩ := mem_good.mp hp
    rcases List.mem_cons.mp hk with rfl | hk
    · rw [step] at h1
      simp only [hpl, Bool.true_eq_false, if_false] at h1
      cases hb : p.box with
      | none => rw [hb] at h1; cases h1
      | some b => rfl
    · exact ih m s' h2 p (mem_good.mpr ⟨⟨k, hk⟩, hpl⟩)

/-! ### One type -/

/-- When a type can be extracted: it is not there at all, or it has a prototype that can be in a blueprint and all those have a collision box. -/
def Fine (data : Data) (ty : String) : Prop :=
  data.get? ty = none ∨ found data ty ≠ [] ∧ ∀ p ∈ found data ty, p.box.isSome

theorem found_some {data : Data} {ty : String} {ps : Dict String Proto} (h : data.get? ty = some ps) : found data ty = good ps := by
  simp [found, good, h]

theorem found_none {data : Data} {ty : String} (h : data.get? ty = none) : found data ty = [] := by
  simp [found, h]

theorem addEntities_ok {data : Data} (w : Wf data) {s s' : Tables} {ty : String} (hs : s.ofType.get? ty = none)
    (h : addEntities data s ty = .ok s') : Fine data ty ∧ Entered (fun p => p ∈ found data ty) s s' ∧
    ∀ t, s'.ofType.get? t = if t = ty then some ((found data ty).map (·.name)) else s.ofType.get? t := by
  rw [addEntities] at h
  cases hd : data.get? ty with
  | none =>
    rw [hd] at h
    simp only [Except.ok.injEq] at h
    subst h
    rw [found_none hd]
    refine ⟨Or.inl hd, ((Entered.refl s).congr (fun p => by simp)).ofType _, fun t => ?_⟩
    rw [Dict.get?_set]
    by_cases ht : t = ty
    · simp [ht]
    · rw [if_neg ht, if_neg (fun e => ht e.symm)]
  | some ps =>
    rw [hd] at h
    have own := w.own ty ps hd
    cases hps : ps with
    | nil => rw [hps] at h; cases h
    | cons a r =>
      rw [hps] at h
      simp only at h
      rw [← hps] at h
      cases hf : ps.foldlM step s with
      | error x => rw [hf] at h; cases h
      | ok m =>
        rw [hf] at h
        simp only at h
        cases hg : m.ofType.get? ty with
        | none => rw [hg] at h; cases h
        | some l =>
          rw [hg] at h
          simp only [Except.ok.injEq] at h
          subst h
          have e := fold_ofType ty ps s m own hf
          rw [found_some hd]
          have ne : good ps ≠ [] := by
            intro e0
            have := e ty
            rw [hg, e0] at this
            simp [hs] at this
          refine ⟨Or.inr ⟨by rw [found_some hd]; exact ne, by rw [found_some hd]; exact fold_boxed ps s m hf⟩, ?_, fun t => ?_⟩
          · exact fold_entered (fun s s' kp hk h => (step_ok hk h).1) ps s m (fun kp hkp => (own kp hkp).1) (fun _ h => h) (w.nodup ty ps hd) hf
          · rw [e t]
            by_cases ht : t = ty
            · simp [ht, ne, hs]
            · simp [ht]

theorem addEntities_total {data : Data} (w : Wf data) {s : Tables} {ty : String} (hf : Fine data ty) :
    ∃ s', addEntities data s ty = .ok s' := by
  rw [addEntities]
  rcases hf with hd | ⟨ne, hb⟩
  · rw [hd]; exact ⟨_, rfl⟩
  · cases hd : data.get? ty with
    | none => exact ⟨_, rfl⟩
    | some ps =>
      rw [found_some hd] at ne hb
      cases hps : ps with
      | nil => rw [hps] at ne; simp [good] at ne
      | cons a r =>
        simp only
        rw [← hps]
        obtain ⟨m, hm⟩ := fold_total (f := step) (fun _ => True) ps s trivial
          (fun s _ kp hkp => (step_total (s := s) (fun hp => hb kp.2 (mem_good.mpr ⟨⟨kp.1, hkp⟩, hp⟩))).imp (fun _ h => ⟨h, trivial⟩))
        rw [hm]
        have e := fold_ofType ty ps s m (w.own ty ps hd) hm ty
        rw [if_pos ⟨rfl, ne⟩] at e
        simp only [e]
        exact ⟨_, rfl⟩

/-! ### Many types -/

theorem found_mem {data : Data} {ty : String} {p : Proto} (h : p ∈ found data ty) :
    ∃ ps, data.get? ty = some ps ∧ (∃ k, (k, p) ∈ ps) ∧ placeable p = true := by
  cases hd : data.get? ty with
  | none => rw [found_none hd] at h; cases h
  | some ps =>
    rw [found_some hd] at h
    exact ⟨ps, rfl, mem_good.mp h⟩

theorem found_apart {data : Data} (w : Wf data) {ty ty' : String} {p q : Proto} (hp : p ∈ found data ty) (hq : q ∈ found data ty')
    (h : p.name = q.name) : ty = ty' := by
  obtain ⟨ps, h1, ⟨k, hk⟩, -⟩ := found_mem hp
  obtain ⟨qs, h2, ⟨j, hj⟩, -⟩ := found_mem hq
  have e1 : p.name = k := (w.own ty ps h1 _ hk).1
  have e2 : q.name = j := (w.own ty' qs h2 _ hj).1
  refine w.apart ty ty' ps qs h1 h2 p.name ?_ ?_
  · rw [e1]; exact List.mem_map.mpr ⟨_, hk, rfl⟩
  · rw [h, e2]; exact List.mem_map.mpr ⟨_, hj, rfl⟩

theorem many_ok {data : Data} (w : Wf data) : ∀ (ts : List String) (s s' : Tables), ts.Nodup → (∀ t ∈ ts, s.ofType.get? t = none) →
    ts.foldlM (addEntities data) s = .ok s' → (∀ t ∈ ts, Fine data t) ∧ Entered (fun p => ∃ t ∈ ts, p ∈ found data t) s s' ∧
    ∀ t, s'.ofType.get? t = if t ∈ ts then some ((found data t).map (·.name)) else s.ofType.get? t := by
  intro ts
  induction ts with
  | nil =>
    intro s s' _ _ h
    simp only [List.foldlM_nil, pure, Except.pure, Except.ok.injEq] at h
    subst h
    exact ⟨by simp, (Entered.refl s).congr (fun p => by simp), by simp⟩
  | cons ty ts ih =>
    intro s s' hn hs h
    obtain ⟨m, h1, h2⟩ := foldlM_cons_ok.mp h
    rw [List.nodup_cons] at hn
    obtain ⟨f1, e1, o1⟩ := addEntities_ok w (hs ty (by simp)) h1
    obtain ⟨f2, e2, o2⟩ := ih m s' hn.2 (fun t ht => by
      rw [o1, if_neg (fun e : t = ty => hn.1 (e ▸ ht))]; exact hs t (by simp [ht])) h2
    refine ⟨?_, ?_, fun t => ?_⟩
    · intro t ht
      rcases List.mem_cons.mp ht with rfl | ht
      · exact f1
      · exact f2 t ht
    · refine (e1.comp e2 ?_).congr (fun p => by simp)
      rintro p q hp ⟨t, ht, hq⟩ he
      exact hn.1 (found_apart w hp hq he ▸ ht)
    · rw [o2, o1]
      by_cases ht : t = ty
      · subst ht; simp [hn.1]
      · simp [ht]

theorem many_total {data : Data} (w : Wf data) : ∀ (ts : List String) (s : Tables), (∀ t ∈ ts, Fine data t) →
    ∃ s', ts.foldlM (addEntities data) s = .ok s' := by
  intro ts
  induction ts with
  | nil => intro s _; exact ⟨s, rfl⟩
  | cons ty ts ih =>
    intro s h
    obtain ⟨m, hm⟩ := addEntities_total w (s := s) (h ty (by simp))
    obtain ⟨s', hs'⟩ := ih m (fun t ht => h t (by simp [ht]))
    exact ⟨s', foldlM_cons_ok.mpr ⟨m, hm, hs'⟩⟩

/-! ### Logistic containers -/

/-- The prototypes with the given mode. -/
def withMode (ps : List Proto) (m : String) : List Proto := ps.filter (fun p => p.mode == some m)

/-- When the logistic containers can be extracted: there is a table of them, not empty, and those that can be in a blueprint have a
collision box and a mode. -/
def FineLogistic (data : Data) : Prop :=
  ∃ ps, data.get? "logistic-container" = some ps ∧ ps ≠ [] ∧ ∀ p ∈ found data "logistic-container", p.box.isSome ∧ p.mode.isSome

/-- The list a container goes to. -/
def listOf (p : Proto) : Option String := p.mode.bind (fun m => modeList.lookup m)

theorem modeList_other {m t : String} (h : modeList.lookup m = some t) : t ≠ "logistic-container" ∧ t ∉ plain ∧ (m, t) ∈ modeList := by
  have tab : ∀ x ∈ modeList, x.2 ≠ "logistic-container" ∧ x.2 ∉ plain := by decide +kernel
  have mem : (m, t) ∈ modeList := by
    have := List.lookup_eq_some_iff.mp h
    obtain ⟨l₁, l₂, e, -⟩ := this
    rw [e]; simp
  exact ⟨(tab _ mem).1, (tab _ mem).2, mem⟩

theorem logisticStep_ok {s s' : Tables} {kp : String × Proto} (hk : kp.2.name = kp.1) (ht : kp.2.type = "logistic-container")
    (h : logisticStep s kp = .ok s') : Entered (fun p => p = kp.2 ∧ placeable p = true) s s' ∧
    (placeable kp.2 = true → kp.2.box.isSome ∧ kp.2.mode.isSome) ∧
    (∀ t, t ≠ "logistic-container" → s'.ofType.get? t =
      if placeable kp.2 = true ∧ listOf kp.2 = some t then (s.ofType.get? t).map (· ++ [kp.2.name]) else s.ofType.get? t) := by
  rw [logisticStep] at h
  by_cases hp : placeable kp.2 = false
  · rw [if_pos hp] at h
    cases h
    refine ⟨(Entered.refl s).congr (fun p => ⟨?_, False.elim⟩), (fun h => by simp [hp] at h), fun t _ => by simp [hp]⟩
    rintro ⟨rfl, h⟩
    rw [hp] at h; cases h
  · rw [if_neg hp] at h
    have hp' : placeable kp.2 = true := by simpa using hp
    cases hm : step s kp with
    | error x => rw [hm] at h; cases h
    | ok m =>
      rw [hm] at h
      simp only at h
      obtain ⟨e, o⟩ := step_ok hk hm
      have hbox : kp.2.box.isSome := by
        rw [step, if_neg hp] at hm
        cases hb : kp.2.box with
        | none => rw [hb] at hm; cases hm
        | some b => rfl
      cases hmode : kp.2.mode with
      | none => rw [hmode] at h; cases h
      | some md =>
        rw [hmode] at h
        simp only at h
        cases hl : modeList.lookup md with
        | none =>
          rw [hl] at h
          simp only [Except.ok.injEq] at h
          subst h
          refine ⟨e, fun _ => ⟨hbox, by simp⟩, fun t htt => ?_⟩
          rw [o t, ht]
          simp [htt, listOf, hmode, hl]
        | some t₀ =>
          rw [hl] at h
          simp only at h
          have h0 := (modeList_other hl).1
          cases hg : m.ofType.get? t₀ with
          | none => rw [hg] at h; cases h
          | some l =>
            rw [hg] at h
            simp only [Except.ok.injEq] at h
            subst h
            refine ⟨e.ofType _, fun _ => ⟨hbox, by simp⟩, fun t htt => ?_⟩
            have ot := o t
            rw [ht] at ot
            simp only [htt, false_and, if_false] at ot
            rw [Dict.get?_set]
            by_cases h1 : t₀ = t
            · subst h1
              rw [if_pos rfl, if_pos ⟨hp', by simp [listOf, hmode, hl]⟩, ← ot, hg, hk]
              rfl
            · rw [if_neg h1, ot, if_neg]
              rintro ⟨-, h2⟩
              simp [listOf, hmode, hl] at h2
              exact h1 h2

theorem logistic_fold : ∀ (ps : List (String × Proto)) (s s' : Tables),
    (∀ kp ∈ ps, kp.2.name = kp.1 ∧ kp.2.type = "logistic-container") → ps.foldlM logisticStep s = .ok s' →
    (∀ p ∈ good ps, p.box.isSome ∧ p.mode.isSome) ∧
    ∀ t, t ≠ "logistic-container" → s'.ofType.get? t =
      (s.ofType.get? t).map (· ++ ((good ps).filter (fun p => listOf p == some t)).map (·.name)) := by
  intro ps
  induction ps with
  | nil =>
    intro s s' _ h
    simp only [List.foldlM_nil, pure, Except.pure, Except.ok.injEq] at h
    subst h
    refine ⟨by simp [good], fun t _ => ?_⟩
    cases s.ofType.get? t <;> simp [good]
  | cons kp ps ih =>
    intro s s' hk h
    obtain ⟨m, h1, h2⟩ := foldlM_cons_ok.mp h
    obtain ⟨-, b, o⟩ := logisticStep_ok (hk kp (by simp)).1 (hk kp (by simp)).2 h1
    obtain ⟨b', o'⟩ := ih m s' (fun x hx => hk x (by simp [hx])) h2
    refine ⟨fun p hp => ?_, fun t ht => ?_⟩
    · rw [good_cons] at hp
      split at hp
      · rename_i hpl
        rcases List.mem_cons.mp hp with rfl | hp
        · exact b hpl
        · exact b' p hp
      · exact b' p hp
    · rw [o' t ht, o t ht, good_cons]
      by_cases hpl : placeable kp.2 = true <;> by_cases hl : listOf kp.2 = some t <;> cases s.ofType.get? t <;> simp [hpl, hl]

theorem logistic_total : ∀ (ps : List (String × Proto)) (s : Tables), (∀ kp ∈ ps, kp.2.name = kp.1 ∧ kp.2.type = "logistic-container") →
    (∀ p ∈ good ps, p.box.isSome ∧ p.mode.isSome) → (∀ x ∈ modeList, (s.ofType.get? x.2).isSome) → ∃ s', ps.foldlM logisticStep s = .ok s' := by
  intro ps s hk hb hs
  refine fold_total (fun s => ∀ x ∈ modeList, (s.ofType.get? x.2).isSome) ps s hs (fun s hs kp hkp => ?_)
  have key : ∃ s', logisticStep s kp = .ok s' := by
    rw [logisticStep]
    by_cases hp : placeable kp.2 = false
    · exact ⟨s, by rw [if_pos hp]⟩
    · rw [if_neg hp]
      have hp' : placeable kp.2 = true := by simpa using hp
      have hg := hb kp.2 (mem_good.mpr ⟨⟨kp.1, hkp⟩, hp'⟩)
      obtain ⟨m, hm⟩ := step_total (s := s) (kp := kp) (fun _ => hg.1)
      have o := (step_ok (hk kp hkp).1 hm).2
      obtain ⟨md, hmd⟩ := Option.isSome_iff_exists.mp hg.2
      rw [hm, hmd]
      simp only
      cases hl : modeList.lookup md with
      | none => exact ⟨_, rfl⟩
      | some t =>
        obtain ⟨h0, -, hmem⟩ := modeList_other hl
        have := o t
        rw [(hk kp hkp).2, if_neg (fun e => h0 e.1)] at this
        obtain ⟨l, hl'⟩ := Option.isSome_iff_exists.mp (hs _ hmem)
        simp only [this, hl']
        exact ⟨_, rfl⟩
  obtain ⟨s', hs'⟩ := key
  refine ⟨s', hs', fun x hx => ?_⟩
  have tab : ∀ x ∈ modeList, x.2 ≠ "logistic-container" := by decide +kernel
  rw [(logisticStep_ok (hk kp hkp).1 (hk kp hkp).2 hs').2.2 x.2 (tab x hx)]
  split
  · rw [Option.isSome_map]; exact hs x hx
  · exact hs x hx

theorem addLogistic_ok {data : Data} (w : Wf data) {s s' : Tables} (h : addLogistic data s = .ok s') :
    FineLogistic data ∧ Entered (fun p => p ∈ found data "logistic-container") s s' ∧
    (∀ x ∈ modeList, s'.ofType.get? x.2 = some ((withMode (found data "logistic-container") x.1).map (·.name))) ∧
    ∀ t, t ≠ "logistic-container" → (∀ x ∈ modeList, x.2 ≠ t) → s'.ofType.get? t = s.ofType.get? t := by
  rw [addLogistic] at h
  cases hd : data.get? "logistic-container" with
  | none => rw [hd] at h; cases h
  | some ps =>
    rw [hd] at h
    have own := w.own _ ps hd
    cases hps : ps with
    | nil => rw [hps] at h; cases h
    | cons a r =>
      rw [hps] at h
      simp only at h
      rw [← hps] at h
      obtain ⟨hb, o⟩ := logistic_fold ps _ s' own h
      have e := fold_entered (fun s s' kp hk h => (logisticStep_ok hk.1 hk.2 h).1) ps _ s' own (fun _ h => h.1) (w.nodup _ ps hd) h
      rw [found_some hd]
      refine ⟨⟨ps, hd, by rw [hps]; simp, by rw [found_some hd]; exact hb⟩, e.ofType' _, fun x hx => ?_, fun t ht hx => ?_⟩
      · have tab : ∀ x ∈ modeList, x.2 ≠ "logistic-container" ∧ ∀ m, modeList.lookup m = some x.2 ↔ m = x.1 := by
          intro x hx
          refine ⟨(by decide +kernel : ∀ x ∈ modeList, x.2 ≠ "logistic-container") x hx, fun m => ⟨fun h => ?_, fun h => ?_⟩⟩
          · have hm := (modeList_other h).2.2
            have inj : ∀ a ∈ modeList, ∀ b ∈ modeList, a.2 = b.2 → a.1 = b.1 := by decide +kernel
            exact inj _ hm x hx rfl
          · subst h
            exact (by decide +kernel : ∀ x ∈ modeList, modeList.lookup x.1 = some x.2) x hx
        rw [o x.2 (tab x hx).1]
        have hset : (((((s.ofType.set "logistic-container-passive" []).set "logistic-container-active" []).set
            "logistic-container-storage" []).set "logistic-container-buffer" []).set "logistic-container-request" []).get? x.2 = some [] := by
          simp only [Dict.get?_set]
          simp only [modeList, List.mem_cons, List.not_mem_nil, or_false] at hx
          rcases hx with rfl | rfl | rfl | rfl | rfl <;> simp
        simp only [hset, Option.map_some, List.nil_append]
        congr 2
        rw [withMode]
        apply List.filter_congr
        intro p _
        cases hm : p.mode with
        | none => simp [listOf, hm]
        | some m =>
          have := (tab x hx).2 m
          simp [listOf, hm, this]
      · rw [o t ht]
        have hset : (((((s.ofType.set "logistic-container-passive" []).set "logistic-container-active" []).set
            "logistic-container-storage" []).set "logistic-container-buffer" []).set "logistic-container-request" []).get? t = s.ofType.get? t := by
          simp only [modeList, List.mem_cons, List.not_mem_nil, or_false, forall_eq_or_imp, forall_eq] at hx
          obtain ⟨h1, h2, h3, h4, h5⟩ := hx
          simp only [Dict.get?_set, h1, h2, h3, h4, h5, if_false]
        have hnone : (good ps).filter (fun p => listOf p == some t) = [] := by
          rw [List.filter_eq_nil_iff]
          intro p _ hp
          have hp : listOf p = some t := by simpa using hp
          rw [listOf, Option.bind_eq_some_iff] at hp
          obtain ⟨m, -, hm⟩ := hp
          exact hx _ (modeList_other hm).2.2 rfl
        simp only [hset, hnone]
        cases s.ofType.get? t <;> simp

theorem addLogistic_total {data : Data} (w : Wf data) {s : Tables} (h : FineLogistic data) : ∃ s', addLogistic data s = .ok s' := by
  obtain ⟨ps, hd, hne, hb⟩ := h
  rw [found_some hd] at hb
  rw [addLogistic, hd]
  cases hps : ps with
  | nil => exact absurd hps hne
  | cons a r =>
    simp only
    rw [← hps]
    apply logistic_total ps _ (w.own _ ps hd) hb
    intro x hx
    simp only [Dict.get?_set]
    simp only [modeList, List.mem_cons, List.not_mem_nil, or_false] at hx
    rcases hx with rfl | rfl | rfl | rfl | rfl <;> simp

/-! ### The extraction -/

theorem table_plain : before.Nodup ∧ after.Nodup ∧ (∀ t ∈ after, t ∉ before) ∧ "logistic-container" ∉ plain ∧ ∀ x ∈ modeList, x.2 ∉ plain := by
  decide +kernel

theorem extract_spec {data : Data} (w : Wf data) {s : Tables} (h : extract data = .ok s) :
    (∀ t ∈ plain, Fine data t) ∧ FineLogistic data ∧
    Entered (fun p => ∃ t ∈ "logistic-container" :: plain, p ∈ found data t) ⟨[], [], []⟩ s ∧
    (∀ t ∈ plain, s.ofType.get? t = some ((found data t).map (·.name))) ∧
    ∀ x ∈ modeList, s.ofType.get? x.2 = some ((withMode (found data "logistic-container") x.1).map (·.name)) := by
  obtain ⟨n1, n2, n3, n4, n5⟩ := table_plain
  rw [extract] at h
  cases h1 : before.foldlM (addEntities data) ⟨[], [], []⟩ with
  | error x => rw [h1] at h; cases h
  | ok s₁ =>
    rw [h1] at h
    simp only at h
    cases h2 : addLogistic data s₁ with
    | error x => rw [h2] at h; cases h
    | ok s₂ =>
      rw [h2] at h
      simp only at h
      obtain ⟨f1, e1, o1⟩ := many_ok w before _ s₁ n1 (fun t _ => rfl) h1
      obtain ⟨f2, e2, o2, o2'⟩ := addLogistic_ok w h2
      have out : ∀ t ∈ plain, t ≠ "logistic-container" ∧ ∀ x ∈ modeList, x.2 ≠ t :=
        fun t ht => ⟨fun e => n4 (e ▸ ht), fun x hx e => n5 x hx (e ▸ ht)⟩
      have fresh : ∀ t ∈ after, s₂.ofType.get? t = none := by
        intro t ht
        have hp : t ∈ plain := by simp [plain, ht]
        rw [o2' t (out t hp).1 (out t hp).2, o1, if_neg (n3 t ht)]
        rfl
      obtain ⟨f3, e3, o3⟩ := many_ok w after s₂ s n2 fresh h
      refine ⟨?_, f2, ?_, ?_, ?_⟩
      · intro t ht
        rcases List.mem_append.mp ht with ht | ht
        · exact f1 t ht
        · exact f3 t ht
      · refine ((e1.comp e2 ?_).comp e3 ?_).congr (fun p => ?_)
        · rintro p q ⟨t, ht, hp⟩ hq he
          exact n4 (found_apart w hp hq he ▸ List.mem_append_left _ ht)
        · rintro p q (⟨t, ht, hp⟩ | hp) ⟨t', ht', hq⟩ he
          · exact n3 t' ht' (found_apart w hp hq he ▸ ht)
          · have := found_apart w hp hq he
            exact n4 (this ▸ List.mem_append_right _ ht')
        · simp only [plain, List.mem_cons, List.mem_append]
          constructor
          · rintro ⟨t, rfl | ht | ht, hp⟩
            · exact Or.inl (Or.inr hp)
            · exact Or.inl (Or.inl ⟨t, ht, hp⟩)
            · exact Or.inr ⟨t, ht, hp⟩
          · rintro ((⟨t, ht, hp⟩ | hp) | ⟨t, ht, hp⟩)
            · exact ⟨t, Or.inr (Or.inl ht), hp⟩
            · exact ⟨_, Or.inl rfl, hp⟩
            · exact ⟨t, Or.inr (Or.inr ht), hp⟩
      · intro t ht
        rw [o3]
        by_cases ha : t ∈ after
        · rw [if_pos ha]
        · rw [if_neg ha, o2' t (out t ht).1 (out t ht).2, o1, if_pos]
          rcases List.mem_append.mp ht with ht | ht
          · exact ht
          · exact absurd ht ha
      · intro x hx
        rw [o3, if_neg (fun hm => n5 x hx (List.mem_append_right _ hm))]
        exact o2 x hx

/-- The extraction succeeds exactly if every type which is there has a prototype that can be in a blueprint, all of those have a collision box,
and logistic containers are there and have a mode as well. -/
theorem C78_succeeds {data : Data} (w : Wf data) : (∃ s, extract data = .ok s) ↔ (∀ t ∈ plain, Fine data t) ∧ FineLogistic data := by
  constructor
  · rintro ⟨s, h⟩
    exact ⟨(extract_spec w h).1, (extract_spec w h).2.1⟩
  · rintro ⟨h1, h2⟩
    obtain ⟨s₁, e1⟩ := many_total w before ⟨[], [], []⟩ (fun t ht => h1 t (List.mem_append_left _ ht))
    obtain ⟨s₂, e2⟩ := addLogistic_total w (s := s₁) h2
    obtain ⟨s, e3⟩ := many_total w after s₂ (fun t ht => h1 t (List.mem_append_right _ ht))
    exact ⟨s, by rw [extract, e1]; simp only [e2]; exact e3⟩

/-- Every type has the list of its prototypes that can be in a blueprint, in the order of the data, and so has every logistic mode. -/
theorem C78_lists {data : Data} (w : Wf data) {s : Tables} (h : extract data = .ok s) :
    (∀ t ∈ plain, s.ofType.get? t = some ((found data t).map (·.name))) ∧
    ∀ m t, (m, t) ∈ modeList → s.ofType.get? t = some ((withMode (found data "logistic-container") m).map (·.name)) :=
  ⟨(extract_spec w h).2.2.2.1, fun m t hm => (extract_spec w h).2.2.2.2 (m, t) hm⟩

theorem found_nodup {data : Data} (w : Wf data) (t : String) : ((found data t).map (·.name)).Nodup := by
  cases hd : data.get? t with
  | none => rw [found_none hd]; simp
  | some ps =>
    have e : (ps.map (·.2)).map (·.name) = ps.keys := by
      rw [List.map_map, Dict.keys]
      exact List.map_congr_left (fun kp hkp => (w.own t ps hd kp hkp).1)
    rw [found_some hd, good]
    exact ((List.filter_sublist).map _).nodup (e ▸ w.nodup t ps hd)

/-- The layers, each with whether prototypes of a type are on it unless they say otherwise. -/
def onLayers (type : String) : List (String × Bool) :=
  let wagons := ["locomotive", "cargo-wagon", "fluid-wagon", "artillery-wagon"]
  let rails := ["straight-rail", "curved-rail"]
  let signals := ["rail-signal", "rail-chain-signal"]
  let belts := ["linked-belt", "loader", "splitter", "underground-belt"]
  [("train-layer", decide (type ∈ "gate" :: wagons)),
   ("rail-layer", decide (type ∈ rails ++ signals)),
   ("floor-layer", decide (type ∈ "heat-pipe" :: "transport-belt" :: rails ++ signals)),
   ("transport-belt-layer", decide (type ∈ "transport-belt" :: belts)),
   ("item-layer", decide (type ∉ "heat-pipe" :: "land-mine" :: "transport-belt" :: wagons)),
   ("object-layer", decide (type ∉ wagons ++ signals)),
   ("water-tile", decide (type ∉ wagons ++ signals)),
   ("player-layer", decide (type ∉ "heat-pipe" :: "land-mine" :: "transport-belt" :: wagons ++ rails ++ signals ++ belts))]

theorem defaultMask_perm (t : String) : (defaultMask t).Perm (((onLayers t).filter (·.2)).map (·.1)) := by
  by_cases h : t ∈ ["gate", "heat-pipe", "land-mine", "linked-belt", "loader", "straight-rail", "curved-rail", "rail-signal", "rail-chain-signal",
    "locomotive", "cargo-wagon", "fluid-wagon", "artillery-wagon", "splitter", "transport-belt", "underground-belt"]
  · revert h; revert t; decide +kernel
  · simp only [List.mem_cons, List.not_mem_nil, or_false, not_or] at h
    have e1 : defaultMask t = ["item-layer", "object-layer", "player-layer", "water-tile"] := by simp [defaultMask, h]
    have e2 : onLayers t = [("train-layer", false), ("rail-layer", false), ("floor-layer", false), ("transport-belt-layer", false),
      ("item-layer", true), ("object-layer", true), ("water-tile", true), ("player-layer", true)] := by simp [onLayers, h]
    rw [e1, e2]
    decide +kernel

/-- An entry describes a prototype. -/
structure Describes (p : Proto) (r : Raw) : Prop where
  name : r.name = p.name
  type : r.type = p.type
  box : p.box = some r.box
  mask : ∀ m, p.mask = some m → m ≠ [] → r.mask = m
  noMask : p.mask = none → r.mask.Perm (((onLayers p.type).filter (·.2)).map (·.1))
  flags : ∀ fs, p.flags = some fs → r.flags = fs
  hidden : p.flags = none → ("hidden" ∈ r.flags ↔ p.hidden = true)

/-- The table of prototypes has exactly the prototypes that can be in a blueprint, each under its name, described as in the data. -/
theorem C78_raw {data : Data} (w : Wf data) {s : Tables} (h : extract data = .ok s) :
    (∀ t ∈ "logistic-container" :: plain, ∀ p ∈ found data t, ∃ r, s.raw.get? p.name = some r ∧ Describes p r ∧
      ∃ b, s.flippable.get? p.name = some b ∧ (b = true ↔ p.name ∉ ["pumpjack", "chemical-plant", "oil-refinery"] ∧
        p.type ∉ ["rail-signal", "rail-chain-signal", "train-stop"])) ∧
    ∀ n, ((s.raw.get? n).isSome ∨ (s.flippable.get? n).isSome) → ∃ t ∈ "logistic-container" :: plain, ∃ p ∈ found data t, p.name = n := by
  have e := (extract_spec w h).2.2.1
  constructor
  · intro t ht p hp
    obtain ⟨b, hb, h1, h2⟩ := e.2 p ⟨t, ht, hp⟩
    refine ⟨_, h1, ⟨rfl, rfl, hb, ?_, ?_, ?_, ?_⟩, _, h2, by simp only [isFlippable]; split_ifs <;> simp_all⟩
    · intro m hm hne
      cases m with
      | nil => exact absurd rfl hne
      | cons a l => simp only [rawOf, maskOf, hm]
    · intro hm; simp only [rawOf, maskOf, hm]; exact defaultMask_perm _
    · intro fs hf; simp only [rawOf, hf]
    · intro hf
      simp only [rawOf, hf]
      cases p.hidden <;> simp
  · intro n hn
    by_contra hne
    have := e.1 n (fun p hp hpn => hne (by obtain ⟨t, ht, hp⟩ := hp; exact ⟨t, ht, p, hp, hpn⟩))
    rw [this.1, this.2] at hn
    rcases hn with hn | hn <;> cases hn

/-! ### The class of a new entity -/

theorem newEntityFrom_hit {o : Dict String (List String)} {n : String} : ∀ (l : List (String × String)),
    (∀ x ∈ l, (o.get? x.1).isSome) → ∀ t c, (t, c) ∈ l → (∀ ls, o.get? t = some ls → n ∈ ls) →
    (∀ x ∈ l, x ≠ (t, c) → ∀ ls, o.get? x.1 = some ls → n ∉ ls) → newEntityFrom o n l = construct o c (some n) := by
  intro l
  induction l with
  | nil => intro _ t c h; cases h
  | cons x l ih =>
    intro hs t c hm hin hout
    obtain ⟨t', c'⟩ := x
    obtain ⟨ls, hls⟩ := Option.isSome_iff_exists.mp (hs (t', c') (by simp))
    simp only at hls
    rw [newEntityFrom, hls]
    by_cases he : (t', c') = (t, c)
    · obtain ⟨rfl, rfl⟩ := Prod.mk.injEq .. ▸ he
      simp only [List.contains_iff_mem, hin ls hls, if_true]
    · have : n ∉ ls := hout (t', c') (by simp) he ls hls
      simp only [List.contains_iff_mem, this, if_false]
      refine ih (fun x hx => hs x (by simp [hx])) t c ?_ hin (fun x hx => hout x (by simp [hx]))
      rcases List.mem_cons.mp hm with h | h
      · exact absurd h.symm he
      · exact h

theorem newEntityFrom_miss {o : Dict String (List String)} {n : String} : ∀ (l : List (String × String)),
    (∀ x ∈ l, ∃ ls, o.get? x.1 = some ls ∧ n ∉ ls) → newEntityFrom o n l = .ok (.generic n) := by
  intro l
  induction l with
  | nil => intro _; rfl
  | cons x l ih =>
    intro h
    obtain ⟨ls, h1, h2⟩ := h x (by simp)
    obtain ⟨t, c⟩ := x
    simp only at h1
    rw [newEntityFrom, h1]
    simp only [List.contains_iff_mem, h2, if_false]
    exact ih (fun x hx => h x (by simp [hx]))

/-- A test of `new_entity` is on a type with a list of its own or on a logistic mode, each is tested once. -/
theorem table_tests : (tests.map (·.1)).Nodup ∧ (∀ x ∈ tests, x.1 ∈ plain ∨ ∃ y ∈ modeList, y.2 = x.1) ∧ ∀ y ∈ modeList, ∃ x ∈ tests, x.1 = y.2 := by
  refine ⟨by decide +kernel, by decide +kernel, by decide +kernel⟩

/-- The class in a test takes the names of that type as its own. -/
theorem table_similar : ∀ x ∈ tests, ∃ c, classes.find? (fun c => c.name == x.2) = some c ∧ c.similar = x.1 := by
  have : tests.all (fun x => (classes.find? (fun c => c.name == x.2)).any (fun c => c.similar == x.1)) = true := by decide +kernel
  intro x hx
  have := List.all_eq_true.mp this x hx
  cases hf : classes.find? (fun c => c.name == x.2) with
  | none => rw [hf] at this; cases this
  | some c => rw [hf] at this; exact ⟨c, rfl, by simpa using this⟩

theorem withMode_mem {ps : List Proto} {m : String} {p : Proto} : p ∈ withMode ps m ↔ p ∈ ps ∧ p.mode = some m := by
  simp [withMode]

/-- The prototypes that a test of `new_entity` finds. -/
def Hits (data : Data) (t : String) (p : Proto) : Prop :=
  t ∈ plain ∧ p ∈ found data t ∨ ∃ m, (m, t) ∈ modeList ∧ p ∈ found data "logistic-container" ∧ p.mode = some m

theorem lists_of_tests {data : Data} (w : Wf data) {s : Tables} (h : extract data = .ok s) {t : String} (ht : t ∈ tests.map (·.1)) :
    ∃ ls, s.ofType.get? t = some ls ∧ ∀ n, n ∈ ls ↔ ∃ p, Hits data t p ∧ p.name = n := by
  obtain ⟨x, hx, rfl⟩ := List.mem_map.mp ht
  obtain ⟨l1, l2⟩ := C78_lists w h
  have n5 := table_plain.2.2.2.2
  rcases table_tests.2.1 x hx with hp | ⟨⟨m, t⟩, hy, e⟩
  · refine ⟨_, l1 _ hp, fun n => ?_⟩
    rw [List.mem_map]
    constructor
    · rintro ⟨p, hp', rfl⟩
      exact ⟨p, Or.inl ⟨hp, hp'⟩, rfl⟩
    · rintro ⟨p, ⟨-, hp'⟩ | ⟨m, hm, -⟩, rfl⟩
      · exact ⟨p, hp', rfl⟩
      · exact absurd hp (n5 _ hm)
  · simp only at e
    subst e
    refine ⟨_, l2 m _ hy, fun n => ?_⟩
    rw [List.mem_map]
    constructor
    · rintro ⟨p, hp', rfl⟩
      rw [withMode_mem] at hp'
      exact ⟨p, Or.inr ⟨m, hy, hp'⟩, rfl⟩
    · rintro ⟨p, ⟨hpl, -⟩ | ⟨m', hm, hp'⟩, rfl⟩
      · exact absurd hpl (n5 _ hy)
      · have inj : ∀ a ∈ modeList, ∀ b ∈ modeList, a.2 = b.2 → a.1 = b.1 := by decide +kernel
        have : m = m' := inj _ hy _ hm rfl
        subst this
        exact ⟨p, withMode_mem.mpr hp', rfl⟩

theorem hits_apart {data : Data} (w : Wf data) {t t' : String} {p q : Proto} (hp : Hits data t p) (hq : Hits data t' q) (h : p.name = q.name) :
    t = t' := by
  have n4 := table_plain.2.2.2.1
  rcases hp with ⟨h1, h2⟩ | ⟨m, h1, h2, h3⟩ <;> rcases hq with ⟨k1, k2⟩ | ⟨m', k1, k2, k3⟩
  · exact found_apart w h2 k2 h
  · exact absurd (found_apart w h2 k2 h ▸ h1) n4
  · exact absurd (found_apart w k2 h2 h.symm ▸ k1) n4
  · have : p = q := by
      obtain ⟨ps, g1, ⟨k, hk⟩, -⟩ := found_mem h2
      obtain ⟨qs, g2, ⟨j, hj⟩, -⟩ := found_mem k2
      rw [g1, Option.some.injEq] at g2
      subst g2
      have a1 : p.name = k := (w.own _ ps g1 _ hk).1
      have a2 : q.name = j := (w.own _ ps g1 _ hj).1
      have : k = j := by rw [← a1, ← a2, h]
      subst this
      have nd := w.nodup _ ps g1
      have e : ps.get? k = some p := Dict.get?_of_mem nd hk
      have e' : ps.get? k = some q := Dict.get?_of_mem nd hj
      rw [e] at e'
      exact Option.some.inj e'
    subst this
    rw [h3, Option.some.injEq] at k3
    subst k3
    have inj : ∀ a ∈ modeList, ∀ b ∈ modeList, a.1 = b.1 → a.2 = b.2 := by decide +kernel
    exact inj _ h1 _ k1 rfl

/-- No name is in a list twice, and none is in the lists of two types or modes. -/
theorem C78_once {data : Data} (w : Wf data) {s : Tables} (h : extract data = .ok s) {t t' : String} {l l' : List String}
    (ht : t ∈ plain ∨ ∃ m, (m, t) ∈ modeList) (ht' : t' ∈ plain ∨ ∃ m, (m, t') ∈ modeList) (hl : s.ofType.get? t = some l)
    (hl' : s.ofType.get? t' = some l') : l.Nodup ∧ ∀ n ∈ l, n ∈ l' → t = t' := by
  obtain ⟨l1, l2⟩ := C78_lists w h
  have nd : l.Nodup := by
    rcases ht with ht | ⟨m, ht⟩
    · rw [l1 t ht, Option.some.injEq] at hl
      exact hl ▸ found_nodup w t
    · rw [l2 m t ht, Option.some.injEq] at hl
      exact hl ▸ ((List.filter_sublist).map _).nodup (found_nodup w "logistic-container")
  have hit : ∀ {t : String} {l : List String}, (t ∈ plain ∨ ∃ m, (m, t) ∈ modeList) → s.ofType.get? t = some l → ∀ n ∈ l,
      ∃ p, Hits data t p ∧ p.name = n := by
    intro t l ht hl n hn
    rcases ht with ht | ⟨m, ht⟩
    · rw [l1 t ht, Option.some.injEq] at hl
      rw [← hl] at hn
      obtain ⟨p, hp, rfl⟩ := List.mem_map.mp hn
      exact ⟨p, Or.inl ⟨ht, hp⟩, rfl⟩
    · rw [l2 m t ht, Option.some.injEq] at hl
      rw [← hl] at hn
      obtain ⟨p, hp, rfl⟩ := List.mem_map.mp hn
      exact ⟨p, Or.inr ⟨m, ht, withMode_mem.mp hp⟩, rfl⟩
  refine ⟨nd, fun n hn hn' => ?_⟩
  obtain ⟨p, hp, e⟩ := hit ht hl n hn
  obtain ⟨q, hq, e'⟩ := hit ht' hl' n hn'
  exact hits_apart w hp hq (e.trans e'.symm)

/-- The classes without a base class. -/
def orphans : List String := ["CargoBay", "FusionReactor", "HalfDiagonalRail", "RailSupport"]

theorem table_orphans : ∀ c ∈ classes, c.derived = false ↔ c.name ∈ orphans := by decide +kernel

theorem new_of_hit {data : Data} (w : Wf data) {s : Tables} (h : extract data = .ok s) {t c : String} (ht : (t, c) ∈ tests) {p : Proto}
    (hp : Hits data t p) : ∃ ls, s.ofType.get? t = some ls ∧ p.name ∈ ls ∧
      newEntity s.ofType p.name = if c ∈ orphans then .error .typeError else .ok (.known c p.name ls) := by
  have hmem : ∀ x ∈ tests, x.1 ∈ tests.map (·.1) := fun x hx => List.mem_map.mpr ⟨x, hx, rfl⟩
  obtain ⟨ls, h1, h2⟩ := lists_of_tests w h (hmem _ ht)
  refine ⟨ls, h1, (h2 _).mpr ⟨p, hp, rfl⟩, ?_⟩
  rw [newEntity, newEntityFrom_hit tests ?_ t c ht ?_ ?_]
  · obtain ⟨k, k1, k2⟩ := table_similar _ ht
    simp only at k1 k2
    rw [construct, k1]
    simp only [k2, h1]
    have hk := List.mem_of_find?_eq_some k1
    have hname : k.name = c := by simpa using List.find?_some k1
    have := table_orphans k hk
    rw [hname] at this
    by_cases ho : c ∈ orphans
    · simp [ho, this.mpr ho]
    · have : k.derived ≠ false := fun e => ho (this.mp e)
      simp [ho, this]
  · intro x hx
    obtain ⟨l, hl, -⟩ := lists_of_tests w h (hmem x hx)
    rw [hl]; rfl
  · intro l hl
    rw [h1, Option.some.injEq] at hl
    subst hl
    exact (h2 _).mpr ⟨p, hp, rfl⟩
  · intro x hx hne l hl hin
    obtain ⟨l', hl', h3⟩ := lists_of_tests w h (hmem x hx)
    rw [hl, Option.some.injEq] at hl'
    subst hl'
    obtain ⟨q, hq, hqn⟩ := (h3 _).mp hin
    have e := hits_apart w hq hp hqn
    apply hne
    have nd := table_tests.1
    have := List.inj_on_of_nodup_map nd hx ht e
    exact this

/-- A type as the name of a class: words begin with a capital, hyphens are dropped. -/
def camel : Bool → List Char → List Char
  | _, [] => []
  | up, c :: r => if c = '-' then camel true r else (if up then c.toUpper else c) :: camel false r

/-- The types that no test of `new_entity` asks for. -/
def unmade : List String := ["asteroid-collector", "loader-1x1", "market", "turret"]

/-- The types whose class has no base class. -/
def orphanTypes : List String := ["cargo-bay", "fusion-reactor", "half-diagonal-rail", "rail-support"]

theorem table_class : (plain.all fun t => unmade.contains t || tests.any fun x => x.1 == t &&
    (x.2.toList == camel true t.toList || (t == "pipe-to-ground" && x.2 == "UndergroundPipe")) &&
    (orphans.contains x.2 == orphanTypes.contains t)) = true := by decide +kernel

theorem class_of {t : String} (ht : t ∈ plain) (hu : t ∉ unmade) : ∃ c, (t, c) ∈ tests ∧
    (c.toList = camel true t.toList ∨ t = "pipe-to-ground" ∧ c = "UndergroundPipe") ∧ (c ∈ orphans ↔ t ∈ orphanTypes) := by
  have := List.all_eq_true.mp table_class t ht
  simp only [Bool.or_eq_true, List.contains_iff_mem, hu, false_or, List.any_eq_true, Bool.and_eq_true, beq_iff_eq] at this
  obtain ⟨⟨t', c⟩, hx, ⟨rfl, h2⟩, h3⟩ := this
  refine ⟨c, hx, h2, ?_⟩
  have := Bool.eq_iff_iff.mp h3
  simpa only [List.contains_iff_mem] using this

/-- For every prototype that can be in a blueprint, of a type outside the two lists of exceptions, `new_entity` makes an object of the
class named after the type (`UndergroundPipe` for `pipe-to-ground`), whose name is among those that the class knows. -/
theorem C79_known_partial {data : Data} (w : Wf data) {s : Tables} (h : extract data = .ok s) {t : String} (ht : t ∈ plain) (hu : t ∉ unmade)
    (ho : t ∉ orphanTypes) {p : Proto} (hp : p ∈ found data t) :
    ∃ c, newEntity s.ofType p.name = .ok (.known c p.name ((found data t).map (·.name))) ∧
      (c.toList = camel true t.toList ∨ t = "pipe-to-ground" ∧ c = "UndergroundPipe") := by
  obtain ⟨c, h1, h2, h3⟩ := class_of ht hu
  obtain ⟨ls, g1, -, g2⟩ := new_of_hit w h h1 (Or.inl ⟨ht, hp⟩)
  rw [(C78_lists w h).1 t ht, Option.some.injEq] at g1
  subst g1
  rw [if_neg (fun e => ho (h3.mp e))] at g2
  exact ⟨c, g2, h2⟩

/-- The classes for logistic modes. -/
def modeClass : List (String × String) := [("passive-provider", "LogisticPassiveContainer"), ("active-provider", "LogisticActiveContainer"),
  ("storage", "LogisticStorageContainer"), ("buffer", "LogisticBufferContainer"), ("requester", "LogisticRequestContainer")]

/-- A logistic container becomes an object of the class for its mode, which knows the names of the containers with that mode. -/
theorem C79_logistic {data : Data} (w : Wf data) {s : Tables} (h : extract data = .ok s) {p : Proto} (hp : p ∈ found data "logistic-container")
    {m c : String} (hm : p.mode = some m) (hc : (m, c) ∈ modeClass) :
    newEntity s.ofType p.name = .ok (.known c p.name ((withMode (found data "logistic-container") m).map (·.name))) := by
  have tab : ∀ x ∈ modeClass, ∃ y ∈ modeList, y.1 = x.1 ∧ (y.2, x.2) ∈ tests ∧ x.2 ∉ orphans := by decide +kernel
  obtain ⟨⟨m', t⟩, hy, e, ht, ho⟩ := tab _ hc
  simp only at e ht ho
  subst e
  obtain ⟨ls, g1, -, g2⟩ := new_of_hit w h ht (Or.inr ⟨m', hy, hp, hm⟩)
  rw [(C78_lists w h).2 m' t hy, Option.some.injEq] at g1
  subst g1
  rw [if_neg ho] at g2
  exact g2

/-- A name which is not that of a prototype that can be in a blueprint gives a generic entity with that name. -/
theorem C79_generic {data : Data} (w : Wf data) {s : Tables} (h : extract data = .ok s) {n : String}
    (hn : ∀ t ∈ "logistic-container" :: plain, ∀ p ∈ found data t, p.name ≠ n) : newEntity s.ofType n = .ok (.generic n) := by
  refine newEntityFrom_miss tests (fun x hx => ?_)
  obtain ⟨ls, h1, h2⟩ := lists_of_tests w h (List.mem_map.mpr ⟨x, hx, rfl⟩)
  refine ⟨ls, h1, fun hin => ?_⟩
  obtain ⟨p, hp, hpn⟩ := (h2 n).mp hin
  rcases hp with ⟨ht, hp⟩ | ⟨m, -, hp, -⟩
  · exact hn x.1 (by simp [ht]) p hp hpn
  · exact hn "logistic-container" (by simp) p hp hpn

/-- Refuted: every known entity gets the class of its type.  Asteroid collectors, which have a class, and loaders of one tile, markets and turrets without
ammunition are never asked for (`entity.py:128-297`): they become generic entities, always. -/
theorem C79_unmade_refuted {data : Data} (w : Wf data) {s : Tables} (h : extract data = .ok s) {t : String} (ht : t ∈ unmade) {p : Proto}
    (hp : p ∈ found data t) : newEntity s.ofType p.name = .ok (.generic p.name) := by
  have tab : ∀ t ∈ unmade, t ∈ plain ∧ t ∉ tests.map (·.1) := by decide +kernel
  refine newEntityFrom_miss tests (fun x hx => ?_)
  obtain ⟨ls, h1, h2⟩ := lists_of_tests w h (List.mem_map.mpr ⟨x, hx, rfl⟩)
  refine ⟨ls, h1, fun hin => ?_⟩
  obtain ⟨q, hq, hqn⟩ := (h2 _).mp hin
  have := hits_apart w hq (Or.inl ⟨(tab t ht).1, hp⟩) hqn
  exact (tab t ht).2 (this ▸ List.mem_map.mpr ⟨x, hx, rfl⟩)

/-- Refuted: entities can be made from their names.  Cargo bays, fusion reactors, half diagonal rails and rail supports have classes that are not derived
from `Entity` (`prototypes/cargo_bay.py:16`, `fusion_reactor.py:15`, `half_diagonal_rail.py:15`, `rail_support.py:15`): making one is a `TypeError`,
always. -/
theorem C79_orphan_refuted {data : Data} (w : Wf data) {s : Tables} (h : extract data = .ok s) {t : String} (ht : t ∈ orphanTypes) {p : Proto}
    (hp : p ∈ found data t) : newEntity s.ofType p.name = .error .typeError := by
  have tab : ∀ t ∈ orphanTypes, t ∈ plain ∧ t ∉ unmade := by decide +kernel
  obtain ⟨c, h1, -, h3⟩ := class_of (tab t ht).1 (tab t ht).2
  obtain ⟨ls, -, -, g2⟩ := new_of_hit w h h1 (Or.inl ⟨(tab t ht).1, hp⟩)
  rw [if_pos (h3.mpr ht)] at g2
  exact g2

/-- Made without a name, an object of a class derived from `Entity` has the name of the first prototype of its type; without one it is refused. -/
theorem C79_default_partial {data : Data} (w : Wf data) {s : Tables} (h : extract data = .ok s) {c : Class} (hc : c ∈ classes)
    (ho : c.name ∉ orphans) : (c.similar ∈ plain ∧ constructDefault s.ofType c.name =
        match found data c.similar with
        | [] => .error .dataFormat
        | p :: _ => .ok (.known c.name p.name ((found data c.similar).map (·.name)))) ∨
    ∃ m, (m, c.similar) ∈ modeList ∧ constructDefault s.ofType c.name =
        match withMode (found data "logistic-container") m with
        | [] => .error .dataFormat
        | p :: _ => .ok (.known c.name p.name ((withMode (found data "logistic-container") m).map (·.name))) := by
  have tab : ∀ c ∈ classes, c.similar ∈ plain ∨ ∃ y ∈ modeList, y.2 = c.similar := by decide +kernel
  have nd : (classes.map (·.name)).Nodup := by decide +kernel
  have hfind : classes.find? (fun k => k.name == c.name) = some c := by
    cases hf : classes.find? (fun k => k.name == c.name) with
    | none => exact absurd (beq_self_eq_true c.name) (List.find?_eq_none.mp hf c hc)
    | some k =>
      have e : k.name = c.name := by simpa using List.find?_some hf
      rw [List.inj_on_of_nodup_map nd (List.mem_of_find?_eq_some hf) hc e]
  have hd : c.derived ≠ false := fun e => ho ((table_orphans c hc).mp e)
  have key : ∀ l : List Proto, s.ofType.get? c.similar = some (l.map (·.name)) → constructDefault s.ofType c.name =
      match l with
      | [] => .error .dataFormat
      | p :: _ => .ok (.known c.name p.name (l.map (·.name))) := by
    intro l hl
    rw [constructDefault, hfind]
    simp only [hl, Option.getD_some, construct, hfind, hd]
    cases l <;> rfl
  rcases tab c hc with hp | ⟨⟨m, t⟩, hy, e⟩
  · exact Or.inl ⟨hp, key _ ((C78_lists w h).1 _ hp)⟩
  · simp only at e
    subst e
    exact Or.inr ⟨m, hy, key _ ((C78_lists w h).2 m _ hy)⟩

/-! ### Concrete cases -/

theorem wf_of {data : Data} (h1 : ∀ x ∈ data, x.2.keys.Nodup ∧ ∀ kp ∈ x.2, kp.2.name = kp.1 ∧ kp.2.type = x.1)
    (h2 : ∀ x ∈ data, ∀ y ∈ data, ∀ k ∈ x.2.keys, k ∈ y.2.keys → x.1 = y.1) : Wf data where
  own _ _ h := (h1 _ (Dict.mem_of_get? h)).2
  nodup _ _ h := (h1 _ (Dict.mem_of_get? h)).1
  apart _ _ _ _ h h' k hk hk' := h2 _ (Dict.mem_of_get? h) _ (Dict.mem_of_get? h') k hk hk'

/-- A prototype with the usual contents. -/
def usual (name type : String) : String × Proto := (name, ⟨name, type, some 0, none, none, false, none⟩)

/-- Some data of the game: chests, one of them not for blueprints, a pipe, an asteroid collector, a cargo bay, two logistic chests. -/
def sample : Data := [
  ("container", [usual "wooden-chest" "container", usual "iron-chest" "container",
    ("crash-site-chest", ⟨"crash-site-chest", "container", some 0, none, some ["not-blueprintable"], false, none⟩)]),
  ("pipe-to-ground", [usual "pipe-to-ground" "pipe-to-ground"]),
  ("asteroid-collector", [usual "asteroid-collector" "asteroid-collector"]),
  ("cargo-bay", [usual "cargo-bay" "cargo-bay"]),
  ("logistic-container", [("storage-chest", ⟨"storage-chest", "logistic-container", some 0, some ["object-layer"], some ["player-creation"], false,
    some "storage"⟩), ("buffer-chest", ⟨"buffer-chest", "logistic-container", some 0, none, none, true, some "buffer"⟩)])]

theorem sample_wf : Wf sample := wf_of (by decide +kernel) (by decide +kernel)

/-- The sample can be extracted; what `C78_lists`, `C78_raw` and the theorems of C79 say of it. -/
example : (match extract sample with
      | .error _ => false
      | .ok s => decide (s.ofType.get? "container" = some ["wooden-chest", "iron-chest"] ∧ s.ofType.get? "car" = some [] ∧
        s.ofType.get? "logistic-container-buffer" = some ["buffer-chest"] ∧ s.raw.get? "crash-site-chest" = none ∧
        s.raw.get? "buffer-chest" = some ⟨"buffer-chest", "logistic-container", 0, ["item-layer", "object-layer", "player-layer", "water-tile"],
      ["hidden"]⟩ ∧
        newEntity s.ofType "iron-chest" = .ok (.known "Container" "iron-chest" ["wooden-chest", "iron-chest"]) ∧
        newEntity s.ofType "pipe-to-ground" = .ok (.known "UndergroundPipe" "pipe-to-ground" ["pipe-to-ground"]) ∧
        newEntity s.ofType "storage-chest" = .ok (.known "LogisticStorageContainer" "storage-chest" ["storage-chest"]) ∧
        newEntity s.ofType "asteroid-collector" = .ok (.generic "asteroid-collector") ∧
        newEntity s.ofType "cargo-bay" = .error .typeError ∧
        newEntity s.ofType "crash-site-chest" = .ok (.generic "crash-site-chest") ∧
        constructDefault s.ofType "Container" = .ok (.known "Container" "wooden-chest" ["wooden-chest", "iron-chest"]) ∧
        constructDefault s.ofType "Car" = .error .dataFormat)) = true := by decide +kernel

/-- The same with the two chests exchanged, as `C78_order_refuted` asks. -/
def sample' : Data := ("container", [usual "iron-chest" "container", usual "wooden-chest" "container"]) :: sample.tail

example : Wf sample' ∧ found sample' "container" = (found sample "container").reverse ∧ (match extract sample' with
      | .error _ => false
      | .ok s => decide (constructDefault s.ofType "Container" = .ok (.known "Container" "iron-chest" ["iron-chest", "wooden-chest"]))) = true :=
  ⟨wf_of (by decide +kernel) (by decide +kernel), by decide +kernel, by decide +kernel⟩

/-! ### Where the extraction goes wrong -/

/-- Refuted: all data of the game can be extracted.  If all prototypes of a type are kept out of blueprints (as cars were before version 2.0), the
list for the type is never made and reading it for the sort is a `KeyError` (`environment/update.py:1010`). -/
theorem C78_unlisted_refuted : Wf (("car", [("car", ⟨"car", "car", some 0, none, some ["not-blueprintable"], false, none⟩)]) :: sample) ∧
    (match extract (("car", [("car", ⟨"car", "car", some 0, none, some ["not-blueprintable"], false, none⟩)]) :: sample) with
      | .error x => decide (x = .keyError)
      | .ok _ => false) = true :=
  ⟨wf_of (by decide +kernel) (by decide +kernel), by decide +kernel⟩

/-- Refuted: entities without a collision box are extracted with an empty collision set, as the code at `environment/update.py:1160-1161` has it.  They
never get there: `add_entity` requires the argument. -/
theorem C78_box_refuted : Wf (("market", [("stall", ⟨"stall", "market", none, none, none, false, none⟩)]) :: sample) ∧
    (match extract (("market", [("stall", ⟨"stall", "market", none, none, none, false, none⟩)]) :: sample) with
      | .error x => decide (x = .typeError)
      | .ok _ => false) = true :=
  ⟨wf_of (by decide +kernel) (by decide +kernel), by decide +kernel⟩

/-- Refuted: the collision mask is that of the prototype.  An empty mask, by which an entity collides with nothing, is replaced by the default of the type
(`environment/update.py:978-979`). -/
theorem C78_mask_refuted (p : Proto) (b : Nat) (h : p.mask = some []) : (rawOf p b).mask = defaultMask p.type ∧ (rawOf p b).mask ≠ [] := by
  have : ∀ t, defaultMask t ≠ [] := by
    intro t
    rw [defaultMask]
    repeat' split
    all_goals simp
  simp [rawOf, maskOf, h, this]

/-- Refuted: hidden entities are marked as hidden.  The flag is lost if the prototype has any flags (`data/entities.py:234-238`). -/
theorem C78_hidden_refuted (p : Proto) (b : Nat) (fs : List String) (h : p.flags = some fs) (hn : "hidden" ∉ fs) :
    "hidden" ∉ (rawOf p b).flags := by
  simpa [rawOf, h] using hn

/-- Refuted: the lists of types are "sorted by their Factorio order strings" (`data/entities.py:32-33`).  The function that should sort does nothing
(`environment/update.py:990-994`), so they are in the order of the data, and with them the default names. -/
theorem C78_order_refuted {d d' : Data} (w : Wf d) (w' : Wf d') {s s' : Tables} (h : extract d = .ok s) (h' : extract d' = .ok s') {t : String}
    (ht : t ∈ plain) (rev : found d' t = (found d t).reverse) (two : (found d t).map (·.name) ≠ ((found d t).map (·.name)).reverse) :
    s.ofType.get? t ≠ s'.ofType.get? t := by
  rw [(C78_lists w h).1 t ht, (C78_lists w' h').1 t ht, rev, List.map_reverse]
  intro e
  exact two (Option.some.inj e)

/-- Refuted: rails that have no mask of their own are on the rail layer.  Of the rail types extracted only `straight-rail` is known to
`get_default_collision_mask`, the others get the general default (`environment/update.py:75-82`). -/
theorem C78_rails_refuted : "rail-layer" ∈ defaultMask "straight-rail" ∧
    ∀ t ∈ ["curved-rail-a", "curved-rail-b", "half-diagonal-rail", "legacy-straight-rail", "legacy-curved-rail", "rail-ramp"],
      t ∈ plain ∧ "rail-layer" ∉ defaultMask t ∧ "player-layer" ∈ defaultMask t := by decide +kernel

end EntTypes
end Draftsman
