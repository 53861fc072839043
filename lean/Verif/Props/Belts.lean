import Verif.Model.Belts
import Verif.Proof.Dict
import Mathlib.Data.List.Basic

namespace Draftsman
namespace Belts

/-! ## C56: reversing belts -/

/-- Items leave the entity at its front: all belts and splitters, and the exits of underground belts. -/
def Carries (e : Ent) : Prop := e.kind = .belt ∨ e.kind = .splitter ∨ e.kind = .underground ∧ e.io = some .output

/-- The cell next to a cell in a direction; y grows to the south.  Belts look north, east, south or west. -/
def ahead (d : Direction) (c : ℤ × ℤ) : ℤ × ℤ :=
  if d = ⟨0, by decide⟩ then (c.1, c.2 - 1)
  else if d = ⟨4, by decide⟩ then (c.1 + 1, c.2)
  else if d = ⟨8, by decide⟩ then (c.1, c.2 + 1)
  else if d = ⟨12, by decide⟩ then (c.1 - 1, c.2)
  else c

theorem ahead_eq (d : Direction) (c : ℤ × ℤ) : ahead d c = add c (vec d) := by
  have h : ∀ d : Direction, vec d = if d = ⟨0, by decide⟩ then (0, -1) else if d = ⟨4, by decide⟩ then (1, 0) else if d = ⟨8, by decide⟩ then (0, 1)
      else if d = ⟨12, by decide⟩ then (-1, 0) else (0, 0) := by decide
  rw [h]
  unfold ahead add
  split_ifs <;> ext <;> simp <;> ring

/-- Number `k` delivers to number `i`: the cell in front of one of its cells is a cell of the other. -/
def Feeds (es : List Ent) (k i : ℕ) : Prop :=
  ∃ e f c, es[k]? = some e ∧ es[i]? = some f ∧ Carries e ∧ c ∈ e.cells ∧ ahead e.dir c ∈ f.cells

/-- A layout that can be built: belts and undergrounds cover one cell, nothing overlaps, belts have a direction. -/
structure Layout (es : List Ent) : Prop where
  one : ∀ e ∈ es, e.kind = .belt ∨ e.kind = .underground → ∃ c, e.cells = [c]
  apart : ∀ (i j : ℕ) (e f : Ent) (c : ℤ × ℤ), es[i]? = some e → es[j]? = some f → c ∈ e.cells → c ∈ f.cells → i = j
  dirs : ∀ e ∈ es, e.kind ≠ .other → e.hasDir = true

/-- No underground exit has something without a direction (a chest, a pole) in front of it. -/
def ExitsFree (es : List Ent) : Prop :=
  ∀ e ∈ es, e.kind = .underground → e.io = some .output → ∀ f ∈ es, ∀ c ∈ e.cells, ahead e.dir c ∈ f.cells → f.hasDir = true

theorem add_zero' (a : ℤ × ℤ) : add a (0, 0) = a := by simp [add]

theorem covers_iff (e : Ent) (c : ℤ × ℤ) : covers (0, 0) e c = true ↔ c ∈ e.cells := by
  unfold covers
  rw [List.any_eq_true]
  constructor
  · rintro ⟨d, hd, h⟩
    rw [add_zero', decide_eq_true_eq] at h
    exact h ▸ hd
  · intro h
    exact ⟨c, h, by rw [add_zero']; simp⟩

theorem findAt_iff (es : List Ent) (hl : Layout es) (c : ℤ × ℤ) (j : ℕ) : findAt (0, 0) es c = some j ↔ ∃ f, es[j]? = some f ∧ c ∈ f.cells := by
  unfold findAt
  constructor
  · intro h
    rw [List.findIdx?_eq_some_iff_getElem] at h
    obtain ⟨hj, hc, -⟩ := h
    exact ⟨es[j], List.getElem?_eq_getElem hj, (covers_iff _ _).1 hc⟩
  · rintro ⟨f, hf, hc⟩
    cases hfi : es.findIdx? (fun e => covers (0, 0) e c) with
    | none =>
      rw [List.findIdx?_eq_none_iff] at hfi
      have := hfi f (List.mem_of_getElem? hf)
      rw [(covers_iff f c).2 hc] at this
      simp at this
    | some k =>
      rw [List.findIdx?_eq_some_iff_getElem] at hfi
      obtain ⟨hk, hck, -⟩ := hfi
      rw [hl.apart k j es[k] f c (List.getElem?_eq_getElem hk) hf ((covers_iff _ _).1 hck) hc]

theorem targets_iff (es : List Ent) (hl : Layout es) (k i : ℕ) (e f : Ent) (hk : es[k]? = some e) (hi : es[i]? = some f) (hf : f.kind ≠ .other) :
    i ∈ targets (0, 0) es e ↔ Feeds es k i := by
  have hb : f.isBelt = true := by simpa [Ent.isBelt] using hf
  have hem := List.mem_of_getElem? hk
  have feeds : Feeds es k i ↔ Carries e ∧ ∃ c ∈ e.cells, ahead e.dir c ∈ f.cells := by
    constructor
    · rintro ⟨e', f', c, h1, h2, h3, h4, h5⟩
      rw [hk, Option.some.injEq] at h1
      rw [hi, Option.some.injEq] at h2
      subst h1 h2
      exact ⟨h3, c, h4, h5⟩
    · rintro ⟨h3, c, h4, h5⟩
      exact ⟨e, f, c, hk, hi, h3, h4, h5⟩
  rw [feeds]
  have fr : e.kind = .belt ∨ e.kind = .underground → ((∃ c ∈ e.cells, ahead e.dir c ∈ f.cells) ↔ findAt (0, 0) es (front e) = some i) := by
    intro h
    obtain ⟨c, hc⟩ := hl.one e hem h
    rw [findAt_iff es hl]
    simp only [ahead_eq, front, hc, List.headD_cons, List.mem_singleton, exists_eq_left, hi, Option.some.injEq, exists_eq_left']
  unfold targets Carries
  cases hkd : e.kind with
  | belt =>
    rw [fr (.inl hkd)]
    cases hfa : findAt (0, 0) es (front e) with
    | none => simp
    | some j =>
      by_cases hji : j = i
      · subst hji; simp [hi, hb]
      · simp only [reduceCtorEq, false_and, or_false, true_and, Option.some.injEq]
        split
        · simp [eq_comm]
        · simp [hji]
  | underground =>
    rw [fr (.inr hkd)]
    cases hfa : findAt (0, 0) es (front e) with
    | none => simp
    | some j =>
      by_cases ho : e.io = some .output
      · simp [ho, eq_comm]
      · simp [ho]
  | splitter =>
    simp only [reduceCtorEq, false_and, or_false, or_true, true_and, List.mem_filter, List.mem_range]
    have hil : i < es.length := (List.getElem?_eq_some_iff.1 hi).1
    simp only [hil, hi, hb, Option.map_some, Option.getD_some, Bool.true_and, List.any_eq_true, covers_iff, add_zero', ahead_eq, true_and]
  | other => simp

theorem targets_nodup (off : ℤ × ℤ) (es : List Ent) (e : Ent) : (targets off es e).Nodup := by
  unfold targets
  cases e.kind with
  | belt => cases findAt off es (front e) with
    | none => simp
    | some j => simp only; split <;> simp
  | underground =>
    simp only
    split
    · cases findAt off es (front e) <;> simp
    · simp
  | splitter => exact List.nodup_range.filter _
  | other => simp

/-- What the direction map says: directions as they are, and the given pointers. -/
def Says (es : List Ent) (L : ℕ → List ℕ) (m : DirMap) : Prop :=
  (∀ j d ps, m.get? j = some (d, ps) → (∃ f, es[j]? = some f ∧ d = f.dir) ∧ ps = L j) ∧ ∀ j, m.get? j = none → L j = []

theorem record_says (es : List Ent) (L : ℕ → List ℕ) (m m' : DirMap) (i j : ℕ) (h : Says es L m) (hr : record es i m j = .ok m') :
    Says es (fun k => L k ++ if k = j then [i] else []) m' ∧ ∀ k, (m.get? k).isSome → (m'.get? k).isSome := by
  unfold record at hr
  have fin : ∀ (d : Direction), (∃ f, es[j]? = some f ∧ d = f.dir) → m' = m.set j (d, L j ++ [i]) →
      Says es (fun k => L k ++ if k = j then [i] else []) m' ∧ ∀ k, (m.get? k).isSome → (m'.get? k).isSome := by
    rintro d hd rfl
    refine ⟨⟨?_, ?_⟩, ?_⟩
    · intro k d' ps hk
      rw [Dict.get?_set] at hk
      by_cases hjk : j = k
      · subst hjk
        rw [if_pos rfl] at hk
        simp only [Option.some.injEq, Prod.mk.injEq] at hk
        obtain ⟨rfl, rfl⟩ := hk
        exact ⟨hd, by simp⟩
      · rw [if_neg hjk] at hk
        have hkj : ¬ k = j := fun e => hjk e.symm
        obtain ⟨h1, h2⟩ := h.1 k d' ps hk
        exact ⟨h1, by simp [hkj, h2]⟩
    · intro k hk
      rw [Dict.get?_set] at hk
      by_cases hjk : j = k
      · rw [if_pos hjk] at hk; simp at hk
      · rw [if_neg hjk] at hk
        have hkj : ¬ k = j := fun e => hjk e.symm
        simp [hkj, h.2 k hk]
    · intro k hk
      rw [Dict.get?_set]
      split
      · rfl
      · exact hk
  cases hg : m.get? j with
  | some p =>
    obtain ⟨d, ps⟩ := p
    rw [hg] at hr
    simp only [Except.ok.injEq] at hr
    obtain ⟨h1, rfl⟩ := h.1 j d ps hg
    exact fin d h1 hr.symm
  | none =>
    rw [hg] at hr
    cases he : es[j]? with
    | none => simp [he] at hr
    | some f =>
      simp only [he] at hr
      split at hr
      · simp only [Except.ok.injEq] at hr
        refine fin f.dir ⟨f, he, rfl⟩ ?_
        rw [h.2 j hg]
        exact hr.symm
      · simp at hr

theorem recordAll_says (es : List Ent) (L : ℕ → List ℕ) (m m' : DirMap) (i : ℕ) (js : List ℕ) (hn : js.Nodup) (h : Says es L m)
    (hr : recordAll es i m js = .ok m') :
    Says es (fun k => L k ++ if k ∈ js then [i] else []) m' ∧ ∀ k, (m.get? k).isSome → (m'.get? k).isSome := by
  induction js generalizing m L with
  | nil => simp only [recordAll, Except.ok.injEq] at hr; subst hr; exact ⟨by simpa using h, fun _ h => h⟩
  | cons j js ih =>
    simp only [recordAll] at hr
    cases h1 : record es i m j with
    | error e => rw [h1] at hr; simp at hr
    | ok m1 =>
      rw [h1] at hr
      obtain ⟨s1, k1⟩ := record_says es L m m1 i j h h1
      obtain ⟨hj, hjs⟩ := List.nodup_cons.1 hn
      obtain ⟨s2, k2⟩ := ih _ m1 hjs s1 hr
      refine ⟨?_, fun k hk => k2 k (k1 k hk)⟩
      have : (fun k => L k ++ if k ∈ j :: js then [i] else []) = fun k => (L k ++ if k = j then [i] else []) ++ if k ∈ js then [i] else [] := by
        funext k
        by_cases hkj : k = j
        · subst hkj; simp [hj]
        · simp [hkj]
      rw [this]
      exact s2

/-- Whether number `i` was found to point at number `j`. -/
def hits (off : ℤ × ℤ) (es : List Ent) (i j : ℕ) : Bool := (es[i]?.map fun e => decide (j ∈ targets off es e)).getD false

def ptrs (off : ℤ × ℤ) (es : List Ent) (n j : ℕ) : List ℕ := (List.range n).filter fun i => hits off es i j

theorem ptrs_succ (off : ℤ × ℤ) (es : List Ent) (n j : ℕ) (e : Ent) (he : es[n]? = some e) :
    ptrs off es (n + 1) j = ptrs off es n j ++ if j ∈ targets off es e then [n] else [] := by
  unfold ptrs
  rw [List.range_succ, List.filter_append]
  congr 1
  simp only [List.filter_cons, List.filter_nil, hits, he, Option.map_some, Option.getD_some, decide_eq_true_eq]

/-- The map after the first `n` entities. -/
def Inv (off : ℤ × ℤ) (es : List Ent) (n : ℕ) (m : DirMap) : Prop :=
  Says es (ptrs off es n) m ∧ ∀ j e, j < n → es[j]? = some e → e.kind ≠ .other → (m.get? j).isSome

theorem pass1_inv (off : ℤ × ℤ) (es : List Ent) (m m' : DirMap) (n : ℕ) (r : List Ent) (hr : r = es.drop n) (hn : n ≤ es.length) (h : Inv off es n m)
    (hp : pass1 off es m n r = .ok m') : Inv off es es.length m' := by
  induction r generalizing n m with
  | nil =>
    simp only [pass1, Except.ok.injEq] at hp
    subst hp
    have : es.length ≤ n := by
      have := congrArg List.length hr
      simp at this
      omega
    have : n = es.length := by omega
    exact this ▸ h
  | cons e r ih =>
    have hlt : n < es.length := by
      have := congrArg List.length hr
      simp at this
      omega
    have he : es[n]? = some e := by
      rw [List.getElem?_eq_getElem hlt]
      rw [List.drop_eq_getElem_cons hlt] at hr
      injection hr with h1 h2
      rw [h1]
    have hr' : r = es.drop (n + 1) := by
      rw [List.drop_eq_getElem_cons hlt] at hr
      injection hr
    simp only [pass1] at hp
    cases hv : visit off es m n e with
    | error x => rw [hv] at hp; simp at hp
    | ok m1 =>
      rw [hv] at hp
      refine ih m1 (n + 1) hr' hlt ?_ hp
      unfold visit at hv
      have hps : ptrs off es (n + 1) = fun j => ptrs off es n j ++ if j ∈ targets off es e then [n] else [] := by
        funext j; exact ptrs_succ off es n j e he
      by_cases hb : e.isBelt = true
      · rw [if_pos hb] at hv
        have hm0 : ∃ m0, recordAll es n m0 (targets off es e) = .ok m1 ∧ Says es (ptrs off es n) m0 ∧ (m0.get? n).isSome ∧
            ∀ k, (m.get? k).isSome → (m0.get? k).isSome := by
          cases hg : m.get? n with
          | some p => exact ⟨m, by simpa [hg] using hv, h.1, by simp [hg], fun _ h => h⟩
          | none =>
            refine ⟨m.set n (e.dir, []), by simpa [hg] using hv, ⟨?_, ?_⟩, by simp [Dict.get?_set], ?_⟩
            · intro j d ps hj
              rw [Dict.get?_set] at hj
              by_cases hnj : n = j
              · subst hnj
                rw [if_pos rfl] at hj
                simp only [Option.some.injEq, Prod.mk.injEq] at hj
                obtain ⟨rfl, rfl⟩ := hj
                exact ⟨⟨e, he, rfl⟩, (h.1.2 n hg).symm⟩
              · rw [if_neg hnj] at hj
                exact h.1.1 j d ps hj
            · intro j hj
              rw [Dict.get?_set] at hj
              by_cases hnj : n = j
              · rw [if_pos hnj] at hj; simp at hj
              · rw [if_neg hnj] at hj
                exact h.1.2 j hj
            · intro k hk
              rw [Dict.get?_set]
              split
              · rfl
              · exact hk
        obtain ⟨m0, hr0, hs0, hn0, hk0⟩ := hm0
        obtain ⟨s1, k1⟩ := recordAll_says es _ m0 m1 n _ (targets_nodup off es e) hs0 hr0
        refine ⟨by rw [hps]; exact s1, ?_⟩
        intro j f hj hf hko
        by_cases hjn : j = n
        · subst hjn; exact k1 j hn0
        · exact k1 j (hk0 j (h.2 j f (by omega) hf hko))
      · rw [if_neg hb] at hv
        simp only [Except.ok.injEq] at hv
        subst hv
        have hko : e.kind = .other := by
          by_contra hc
          exact hb (by simpa [Ent.isBelt] using hc)
        have ht : targets off es e = [] := by unfold targets; rw [hko]
        refine ⟨by rw [hps, ht]; simpa using h.1, ?_⟩
        intro j f hj hf hkf
        by_cases hjn : j = n
        · subst hjn
          rw [he, Option.some.injEq] at hf
          subst hf
          exact absurd hko hkf
        · exact h.2 j f (by omega) hf hkf

theorem reverse_inv (off : ℤ × ℤ) (es es' : List Ent) (h : reverse off es = .ok es') :
    ∃ m, es' = es.mapIdx (fun i e => turn m i e) ∧ Inv off es es.length m := by
  unfold reverse at h
  cases hp : pass1 off es [] 0 es with
  | error x => rw [hp] at h; simp at h
  | ok m =>
    rw [hp] at h
    simp only [Except.ok.injEq] at h
    refine ⟨m, h.symm, pass1_inv off es [] m 0 es (by simp) (by simp) ?_ hp⟩
    exact ⟨⟨by simp, by simp [ptrs]⟩, by simp⟩

/-- Nothing is added, removed or moved: the number of entities, their kinds, names and places are as before; and what is no belt is as before. -/
theorem C56_kept (off : ℤ × ℤ) (es es' : List Ent) (h : reverse off es = .ok es') :
    es'.length = es.length ∧ ∀ (i : ℕ) (e : Ent), es[i]? = some e → ∃ e', es'[i]? = some e' ∧ e'.kind = e.kind ∧ e'.name = e.name ∧ e'.cells = e.cells ∧
      e'.hasDir = e.hasDir ∧ (e.kind = .other → e' = e) := by
  obtain ⟨m, rfl, -⟩ := reverse_inv off es es' h
  refine ⟨by simp, ?_⟩
  intro i e he
  refine ⟨turn m i e, by simp [List.getElem?_mapIdx, he], ?_⟩
  unfold turn
  cases hk : e.kind with
  | belt =>
    simp only
    split
    · split <;> simp
    · simp
  | underground => simp
  | splitter => simp
  | other => simp [hk]

/-- Splitters and underground belts are turned around, and undergrounds swap entry and exit. -/
theorem C56_turned (off : ℤ × ℤ) (es es' : List Ent) (h : reverse off es = .ok es') (i : ℕ) (e : Ent) (he : es[i]? = some e) :
    (e.kind = .splitter → ∃ e', es'[i]? = some e' ∧ e'.dir = e.dir.opposite ∧ e'.io = e.io) ∧
    (e.kind = .underground → ∃ e', es'[i]? = some e' ∧ e'.dir = e.dir.opposite ∧ (e'.io = some .output ↔ e.io = some .input) ∧
      (e'.io = some .input ↔ e.io = some .output)) := by
  obtain ⟨m, rfl, -⟩ := reverse_inv off es es' h
  constructor
  · intro hk
    exact ⟨turn m i e, by simp [List.getElem?_mapIdx, he], by simp [turn, hk], by simp [turn, hk]⟩
  · intro hk
    refine ⟨turn m i e, by simp [List.getElem?_mapIdx, he], by simp [turn, hk], ?_⟩
    simp only [turn, hk]
    cases e.io with
    | none => simp [swapIo]
    | some io => cases io <;> simp [swapIo]

theorem mem_ptrs (es : List Ent) (hl : Layout es) (i k : ℕ) (f : Ent) (hi : es[i]? = some f) (hf : f.kind ≠ .other) :
    k ∈ ptrs (0, 0) es es.length i ↔ Feeds es k i := by
  unfold ptrs hits
  rw [List.mem_filter, List.mem_range]
  cases hk : es[k]? with
  | none =>
    simp only [Option.map_none, Option.getD_none, Bool.false_eq_true, and_false, false_iff]
    rintro ⟨e, -, -, h, -⟩
    rw [hk] at h; simp at h
  | some e =>
    have hkl := (List.getElem?_eq_some_iff.1 hk).1
    simp only [hkl, Option.map_some, Option.getD_some, decide_eq_true_eq, true_and]
    exact targets_iff es hl k i e f hk hi hf

theorem nodup_ptrs (off : ℤ × ℤ) (es : List Ent) (n i : ℕ) : (ptrs off es n i).Nodup := List.nodup_range.filter _

theorem turn_belt (es : List Ent) (hl : Layout es) (m : DirMap) (hm : Inv (0, 0) es es.length m) (i : ℕ) (e : Ent) (he : es[i]? = some e) (hk : e.kind = .belt) :
    (∀ k f, Feeds es k i → (∀ k', Feeds es k' i → k' = k) → es[k]? = some f → f.dir ≠ e.dir → turn m i e = { e with dir := f.dir.opposite }) ∧
    ((∀ k f, Feeds es k i → (∀ k', Feeds es k' i → k' = k) → es[k]? = some f → f.dir = e.dir) → turn m i e = { e with dir := e.dir.opposite }) := by
  have hko : e.kind ≠ .other := by rw [hk]; simp
  have hil := (List.getElem?_eq_some_iff.1 he).1
  obtain ⟨⟨d, ps⟩, hp⟩ := Option.isSome_iff_exists.1 (hm.2 i e hil he hko)
  obtain ⟨-, rfl⟩ := hm.1.1 i d ps hp
  have hmem := fun k => mem_ptrs es hl i k e he hko
  have hnd := nodup_ptrs (0, 0) es es.length i
  unfold turn
  simp only [hk, hp, Option.map_some, Option.getD_some]
  generalize hq : ptrs (0, 0) es es.length i = q at hmem hnd
  have look : ∀ k, k ∈ q → ∃ f ps, es[k]? = some f ∧ m.get? k = some (f.dir, ps) := by
    intro k hkq
    obtain ⟨e', f', c, h1, h2, h3, -⟩ := (hmem k).1 hkq
    have hkl := (List.getElem?_eq_some_iff.1 h1).1
    have : e'.kind ≠ .other := by
      intro hc
      rcases h3 with h | h | ⟨h, -⟩ <;> rw [hc] at h <;> simp at h
    obtain ⟨⟨d', ps'⟩, hg⟩ := Option.isSome_iff_exists.1 (hm.2 k e' hkl h1 this)
    obtain ⟨⟨f, hf, rfl⟩, -⟩ := hm.1.1 k d' ps' hg
    exact ⟨f, ps', hf, hg⟩
  constructor
  · intro k f hfe huniq hkf hne
    have hqk : q = [k] := by
      cases q with
      | nil => exact absurd ((hmem k).2 hfe) (by simp)
      | cons a q =>
        have ha : a = k := huniq a ((hmem a).1 List.mem_cons_self)
        subst ha
        cases q with
        | nil => rfl
        | cons b q =>
          have hb : b = a := huniq b ((hmem b).1 (by simp))
          subst hb
          simp at hnd
    obtain ⟨f', ps', h1, h2⟩ := look k (by rw [hqk]; simp)
    rw [hkf, Option.some.injEq] at h1
    subst h1
    rw [hqk]
    simp only [List.head?_cons, Option.bind_some, h2, List.length_singleton, true_and]
    rw [if_pos (fun e => hne e.symm)]
  · intro hall
    cases q with
    | nil => simp
    | cons a q =>
      obtain ⟨f', ps', h1, h2⟩ := look a (by simp)
      simp only [List.head?_cons, Option.bind_some, h2]
      cases q with
      | nil =>
        have : f'.dir = e.dir := hall a f' ((hmem a).1 (by simp)) (fun k' hk' => by simpa using (hmem k').2 hk') h1
        rw [if_neg (fun hc => hc.2 this.symm)]
      | cons b q => rw [if_neg (fun hc => absurd hc.1 (by simp))]

/-- A belt that is fed by exactly one thing, from another direction, is turned to look back at it; every other belt is turned around.  For a collection at the origin
(a blueprint); for a group elsewhere it does not hold, see `C56_group_refuted`. -/
theorem C56_belt_partial (es es' : List Ent) (hl : Layout es) (h : reverse (0, 0) es = .ok es') (i : ℕ) (e : Ent) (he : es[i]? = some e) (hk : e.kind = .belt) :
    (∀ k f, Feeds es k i → (∀ k', Feeds es k' i → k' = k) → es[k]? = some f → f.dir ≠ e.dir → es'[i]? = some { e with dir := f.dir.opposite }) ∧
    ((∀ k f, Feeds es k i → (∀ k', Feeds es k' i → k' = k) → es[k]? = some f → f.dir = e.dir) → es'[i]? = some { e with dir := e.dir.opposite }) := by
  obtain ⟨m, rfl, hm⟩ := reverse_inv (0, 0) es es' h
  obtain ⟨h1, h2⟩ := turn_belt es hl m hm i e he hk
  constructor
  · intro k f a b c d
    simp [List.getElem?_mapIdx, he, h1 k f a b c d]
  · intro a
    simp [List.getElem?_mapIdx, he, h2 a]

theorem vec_opposite (d : Direction) : vec d.opposite = (-(vec d).1, -(vec d).2) := by
  revert d; decide

theorem back (a : ℤ × ℤ) (d : Direction) : ahead d.opposite (ahead d a) = a := by
  rw [ahead_eq, ahead_eq, vec_opposite]; unfold add; ext <;> simp

/-- What fed a belt or splitter straight on is fed by it afterwards; and so is what alone fed a belt round a corner. -/
theorem C56_back (es es' : List Ent) (hl : Layout es) (h : reverse (0, 0) es = .ok es') (i k : ℕ) (e f : Ent) (hi : es[i]? = some e) (hk : es[k]? = some f)
    (hf : Feeds es k i) (hkind : e.kind = .belt ∨ e.kind = .splitter)
    (hd : f.dir = e.dir ∨ e.kind = .belt ∧ ∀ k', Feeds es k' i → k' = k) : Feeds es' i k := by
  obtain ⟨e₁, e₂, c, h1, h2, h3, h4, h5⟩ := hf
  have hf : Feeds es k i := ⟨e₁, e₂, c, h1, h2, h3, h4, h5⟩
  rw [hk, Option.some.injEq] at h1
  rw [hi, Option.some.injEq] at h2
  subst h1 h2
  obtain ⟨f', hf', -, -, hfc, -⟩ := (C56_kept (0, 0) es es' h).2 k f hk
  have main : ∃ e', es'[i]? = some e' ∧ e'.kind = e.kind ∧ e'.cells = e.cells ∧ e'.dir = f.dir.opposite := by
    obtain ⟨e', he', hkk, -, hcc, -⟩ := (C56_kept (0, 0) es es' h).2 i e hi
    refine ⟨e', he', hkk, hcc, ?_⟩
    rcases hkind with hkind | hkind
    · obtain ⟨g1, g2⟩ := C56_belt_partial es es' hl h i e hi hkind
      by_cases hne : f.dir = e.dir
      · by_cases hu : ∀ k', Feeds es k' i → k' = k
        · have := g2 (fun k'' f'' hk'' _ hf'' => by
            have := hu k'' hk''
            subst this
            rw [hk, Option.some.injEq] at hf''
            exact hf'' ▸ hne)
          rw [this, Option.some.injEq] at he'
          rw [← he', hne]
        · have := g2 (fun k'' f'' hk'' hu'' hf'' => by
            have : k'' = k := (hu'' k hf).symm
            subst this
            exact absurd hu'' hu)
          rw [this, Option.some.injEq] at he'
          rw [← he', hne]
      · rcases hd with hd | ⟨-, hd⟩
        · exact absurd hd hne
        · have := g1 k f hf hd hk hne
          rw [this, Option.some.injEq] at he'
          rw [← he']
    · obtain ⟨e'', he'', hdir, -⟩ := (C56_turned (0, 0) es es' h i e hi).1 hkind
      rw [he', Option.some.injEq] at he''
      subst he''
      rcases hd with hd | ⟨hb, -⟩
      · rw [hdir, hd]
      · rw [hb] at hkind; simp at hkind
  obtain ⟨e', he', hkk, hcc, hdir⟩ := main
  refine ⟨e', f', ahead f.dir c, he', hf', ?_, by rw [hcc]; exact h5, ?_⟩
  · rcases hkind with hkind | hkind
    · exact .inl (hkk.trans hkind)
    · exact .inr (.inl (hkk.trans hkind))
  · rw [hdir, back, hfc]; exact h4

/-- A layout of straight runs: whatever belt, underground or splitter stands in front of or behind another has the same direction. -/
def Straight (es : List Ent) : Prop :=
  ∀ e ∈ es, ∀ f ∈ es, e.kind ≠ .other → f.kind ≠ .other → ∀ c ∈ e.cells,
    (ahead e.dir c ∈ f.cells ∨ ahead e.dir.opposite c ∈ f.cells) → f.dir = e.dir

theorem opposite_opposite (d : Direction) : d.opposite.opposite = d := by revert d; decide

/-- What a straight layout becomes. -/
def turned (e : Ent) : Ent :=
  match e.kind with
  | .other => e
  | .underground => { e with dir := e.dir.opposite, io := swapIo e.io }
  | _ => { e with dir := e.dir.opposite }

theorem swapIo_swapIo (x : Option Io) : swapIo (swapIo x) = x := by
  cases x with
  | none => rfl
  | some x => cases x <;> rfl

theorem turned_turned (e : Ent) : turned (turned e) = e := by
  obtain ⟨kind, name, dir, hasDir, io, cells⟩ := e
  cases kind <;> simp [turned, opposite_opposite, swapIo_swapIo]

theorem turned_fields (e : Ent) : (turned e).kind = e.kind ∧ (turned e).cells = e.cells ∧ (turned e).hasDir = e.hasDir ∧
    (e.kind ≠ .other → (turned e).dir = e.dir.opposite) := by
  obtain ⟨kind, name, dir, hasDir, io, cells⟩ := e
  cases kind <;> simp [turned]

theorem layout_turned (es : List Ent) (hl : Layout es) : Layout (es.map turned) := by
  refine ⟨?_, ?_, ?_⟩
  · intro e he hk
    obtain ⟨e, hm, rfl⟩ := List.mem_map.1 he
    rw [(turned_fields e).1] at hk
    rw [(turned_fields e).2.1]
    exact hl.one e hm hk
  · intro i j e f c hi hj hc hd
    rw [List.getElem?_map] at hi hj
    obtain ⟨e, he, rfl⟩ := Option.map_eq_some_iff.1 hi
    obtain ⟨f, hf, rfl⟩ := Option.map_eq_some_iff.1 hj
    rw [(turned_fields e).2.1] at hc
    rw [(turned_fields f).2.1] at hd
    exact hl.apart i j e f c he hf hc hd
  · intro e he hk
    obtain ⟨e, hm, rfl⟩ := List.mem_map.1 he
    rw [(turned_fields e).1] at hk
    rw [(turned_fields e).2.2.1]
    exact hl.dirs e hm hk

theorem straight_turned (es : List Ent) (hs : Straight es) : Straight (es.map turned) := by
  intro e he f hf hke hkf c hc h
  obtain ⟨e, hm, rfl⟩ := List.mem_map.1 he
  obtain ⟨f, hn, rfl⟩ := List.mem_map.1 hf
  rw [(turned_fields e).1] at hke
  rw [(turned_fields f).1] at hkf
  rw [(turned_fields e).2.1] at hc
  rw [(turned_fields e).2.2.2 hke, (turned_fields f).2.1] at h
  rw [(turned_fields e).2.2.2 hke, (turned_fields f).2.2.2 hkf]
  rw [opposite_opposite] at h
  rw [hs e hm f hn hke hkf c hc h.symm]

/-- In a layout of straight runs everything is simply turned around. -/
theorem C56_straight (es es' : List Ent) (hl : Layout es) (hs : Straight es) (h : reverse (0, 0) es = .ok es') : es' = es.map turned := by
  obtain ⟨m, rfl, hm⟩ := reverse_inv (0, 0) es es' h
  apply List.ext_getElem?
  intro i
  rw [List.getElem?_mapIdx, List.getElem?_map]
  cases he : es[i]? with
  | none => rfl
  | some e =>
    simp only [Option.map_some, Option.some.injEq]
    cases hk : e.kind with
    | belt =>
      rw [(turn_belt es hl m hm i e he hk).2]
      · simp [turned, hk]
      · rintro k f ⟨e₁, e₂, c, h1, h2, h3, h4, h5⟩ - hkf
        rw [hkf, Option.some.injEq] at h1
        rw [he, Option.some.injEq] at h2
        subst h1 h2
        refine (hs f (List.mem_of_getElem? hkf) e (List.mem_of_getElem? he) ?_ (by rw [hk]; simp) c h4 (.inl h5)).symm
        intro hc
        rcases h3 with h | h | ⟨h, -⟩ <;> rw [hc] at h <;> simp at h
    | underground => simp [turn, turned, hk]
    | splitter => simp [turn, turned, hk]
    | other => simp [turn, turned, hk]

theorem recordAll_ok (es : List Ent) (i : ℕ) (m : DirMap) (js : List ℕ) (h : ∀ j ∈ js, ∃ f, es[j]? = some f ∧ f.hasDir = true) :
    ∃ m', recordAll es i m js = .ok m' := by
  induction js generalizing m with
  | nil => exact ⟨m, rfl⟩
  | cons j js ih =>
    have : ∃ m1, record es i m j = .ok m1 := by
      unfold record
      cases hg : m.get? j with
      | some p => exact ⟨_, rfl⟩
      | none =>
        obtain ⟨f, hf, hd⟩ := h j List.mem_cons_self
        exact ⟨m.set j (f.dir, [i]), by simp [hf, hd]⟩
    obtain ⟨m1, h1⟩ := this
    simp only [recordAll, h1]
    exact ih m1 fun j hj => h j (List.mem_cons_of_mem _ hj)

/-- Reversing succeeds if no underground exit faces something without a direction. -/
theorem C56_succeeds_partial (es : List Ent) (hl : Layout es) (hx : ExitsFree es) : ∃ es', reverse (0, 0) es = .ok es' := by
  have ht : ∀ e ∈ es, ∀ j ∈ targets (0, 0) es e, ∃ f, es[j]? = some f ∧ f.hasDir = true := by
    intro e he j hj
    have hjb : ∀ f, es[j]? = some f → f.isBelt = true → f.hasDir = true := by
      intro f hf hb
      exact hl.dirs f (List.mem_of_getElem? hf) (by simpa [Ent.isBelt] using hb)
    unfold targets at hj
    cases hk : e.kind with
    | belt =>
      rw [hk] at hj
      simp only at hj
      cases hfa : findAt (0, 0) es (front e) with
      | none => simp [hfa] at hj
      | some j' =>
        simp only [hfa] at hj
        split at hj
        · rename_i hb
          rw [List.mem_singleton] at hj
          subst hj
          cases hf : es[j]? with
          | none => simp [hf] at hb
          | some f => exact ⟨f, rfl, hjb f hf (by simpa [hf] using hb)⟩
        · simp at hj
    | underground =>
      rw [hk] at hj
      simp only at hj
      split at hj
      · rename_i ho
        cases hfa : findAt (0, 0) es (front e) with
        | none => simp [hfa] at hj
        | some j' =>
          simp only [hfa, List.mem_singleton] at hj
          subst hj
          obtain ⟨f, hf, hc⟩ := (findAt_iff es hl _ _).1 hfa
          obtain ⟨c, hcc⟩ := hl.one e he (.inr hk)
          simp only [front, hcc, List.headD_cons, ← ahead_eq] at hc
          exact ⟨f, hf, hx e he hk ho f (List.mem_of_getElem? hf) c (by simp [hcc]) hc⟩
      · simp at hj
    | splitter =>
      rw [hk] at hj
      obtain ⟨-, hj⟩ := List.mem_filter.1 hj
      cases hf : es[j]? with
      | none => simp [hf] at hj
      | some f =>
        simp only [hf, Option.map_some, Option.getD_some, Bool.and_eq_true] at hj
        exact ⟨f, rfl, hjb f hf hj.1⟩
    | other => rw [hk] at hj; simp at hj
  have key : ∀ (r : List Ent) (m : DirMap) (n : ℕ), (∀ e ∈ r, e ∈ es) → ∃ m', pass1 (0, 0) es m n r = .ok m' := by
    intro r
    induction r with
    | nil => intro m n _; exact ⟨m, rfl⟩
    | cons e r ih =>
      intro m n hr
      have : ∃ m1, visit (0, 0) es m n e = .ok m1 := by
        unfold visit
        split
        · exact recordAll_ok es n _ _ (ht e (hr e List.mem_cons_self))
        · exact ⟨m, rfl⟩
      obtain ⟨m1, h1⟩ := this
      simp only [pass1, h1]
      exact ih m1 (n + 1) fun e he => hr e (List.mem_cons_of_mem _ he)
  obtain ⟨m, hm⟩ := key es [] 0 fun _ h => h
  exact ⟨_, by unfold reverse; rw [hm]⟩

/-- Reversing a layout of straight runs twice gives it back, if both succeed. -/
theorem C56_twice_partial (es es' es'' : List Ent) (hl : Layout es) (hs : Straight es) (h : reverse (0, 0) es = .ok es') (h' : reverse (0, 0) es' = .ok es'') :
    es'' = es := by
  have h1 := C56_straight es es' hl hs h
  subst h1
  have h2 := C56_straight _ es'' (layout_turned es hl) (straight_turned es hs) h'
  rw [h2, List.map_map]
  have : turned ∘ turned = id := by funext e; exact turned_turned e
  rw [this, List.map_id]

/-- A belt in the direction `d` at a cell. -/
def beltAt (x y : ℤ) (d : Direction) : Ent := ⟨.belt, "transport-belt", d, true, none, [(x, y)]⟩

theorem layout_of (es : List Ent) (h1 : ∀ e ∈ es, ∃ c, e.cells = [c]) (h2 : (es.map (·.cells.headD (0, 0))).Nodup) (h3 : ∀ e ∈ es, e.kind ≠ .other → e.hasDir = true) :
    Layout es := by
  refine ⟨fun e he _ => h1 e he, ?_, h3⟩
  intro i j e f c hi hj hc hd
  obtain ⟨a, ha⟩ := h1 e (List.mem_of_getElem? hi)
  obtain ⟨b, hb⟩ := h1 f (List.mem_of_getElem? hj)
  rw [ha, List.mem_singleton] at hc
  rw [hb, List.mem_singleton] at hd
  have hil := (List.getElem?_eq_some_iff.1 hi).1
  have hjl := (List.getElem?_eq_some_iff.1 hj).1
  have e1 : (es.map (·.cells.headD (0, 0)))[i]? = some c := by rw [List.getElem?_map, hi]; simp [ha, hc]
  have e2 : (es.map (·.cells.headD (0, 0)))[j]? = some c := by rw [List.getElem?_map, hj]; simp [hb, hd]
  exact (List.getElem?_inj (by simpa using hil) h2).1 (e1.trans e2.symm)

/-- Not proved because it is false: that every belt is turned around, or at least looks elsewhere afterwards.  Two belts face to face stay as they are. -/
theorem C56_facing_refuted : ¬ ∀ (es es' : List Ent), Layout es → reverse (0, 0) es = .ok es' → ∀ (i : ℕ) (e e' : Ent), es[i]? = some e → e.kind = .belt →
    es'[i]? = some e' → e'.dir ≠ e.dir := by
  intro h
  exact h [beltAt 0 0 4, beltAt 1 0 12] [beltAt 0 0 4, beltAt 1 0 12]
    (layout_of _ (by simp [beltAt]) (by decide) (by simp [beltAt])) (by decide) 0 _ _ rfl rfl rfl rfl

/-- Not proved because it is false: that a buildable layout can always be reversed.  An underground exit in front of a chest cannot. -/
theorem C56_chest_refuted : ¬ ∀ es : List Ent, Layout es → ∃ es', reverse (0, 0) es = .ok es' := by
  intro h
  obtain ⟨es', he⟩ := h [⟨.underground, "underground-belt", 4, true, some .output, [(0, 0)]⟩, ⟨.other, "wooden-chest", 0, false, none, [(1, 0)]⟩]
    (layout_of _ (by simp) (by decide) (by simp))
  have : reverse (0, 0) [⟨.underground, "underground-belt", 4, true, some .output, [(0, 0)]⟩, ⟨.other, "wooden-chest", 0, false, none, [(1, 0)]⟩] =
      .error .attributeError := by decide
  rw [this] at he
  simp at he

/-- Not proved because it is false: that reversing twice gives back any layout.  A belt that begins beside another feeds it after the first reversal, and the second takes
that for a corner. -/
theorem C56_twice_refuted : ¬ ∀ (es es' es'' : List Ent), Layout es → reverse (0, 0) es = .ok es' → reverse (0, 0) es' = .ok es'' → es'' = es := by
  intro h
  have := h [beltAt 0 0 4, beltAt 0 1 8] [beltAt 0 0 12, beltAt 0 1 0] [beltAt 0 0 8, beltAt 0 1 8]
    (layout_of _ (by simp [beltAt]) (by decide) (by simp [beltAt])) (by decide) (by decide)
  revert this
  decide

/-- Not proved because it is false: that in a group away from the origin a corner is reversed.  The search there uses positions in the group as if they were positions
in the world, and finds nothing. -/
theorem C56_group_refuted : ¬ ∀ (off : ℤ × ℤ) (es es' : List Ent), Layout es → reverse off es = .ok es' → ∀ (i k : ℕ) (e f : Ent), es[i]? = some e → e.kind = .belt →
    es[k]? = some f → Feeds es k i → (∀ k', Feeds es k' i → k' = k) → Feeds es' i k := by
  intro h
  have hlay : Layout [beltAt 0 0 4, beltAt 1 0 8] := layout_of _ (by simp [beltAt]) (by decide) (by simp [beltAt])
  obtain ⟨e, f, c, h1, h2, -, h4, h5⟩ := h (10, 10) [beltAt 0 0 4, beltAt 1 0 8] [beltAt 0 0 12, beltAt 1 0 0] hlay (by decide) 1 0 _ _ rfl rfl rfl
    ⟨_, _, (0, 0), rfl, rfl, .inl rfl, by simp [beltAt], by decide⟩ (by
      rintro k' ⟨e, f, c, h1, h2, -, h4, h5⟩
      match k', h1 with
      | 0, _ => rfl
      | 1, h1 =>
        simp only [List.getElem?_cons_succ, List.getElem?_cons_zero, Option.some.injEq] at h1 h2
        subst h1 h2
        simp only [beltAt, List.mem_singleton] at h4
        subst h4
        revert h5
        decide
      | k + 2, h1 => simp at h1)
  simp only [List.getElem?_cons_succ, List.getElem?_cons_zero, Option.some.injEq] at h1 h2
  subst h1 h2
  simp only [beltAt, List.mem_singleton] at h4
  subst h4
  revert h5
  decide

/-- A corner: east, then south; and an underground pair and a splitter. -/
example : reverse (0, 0) [beltAt 0 0 4, beltAt 1 0 8, beltAt 1 1 8] = .ok [beltAt 0 0 12, beltAt 1 0 12, beltAt 1 1 0] := by decide
example : reverse (0, 0) [⟨.underground, "u", 4, true, some .input, [(0, 0)]⟩, ⟨.underground, "u", 4, true, some .output, [(3, 0)]⟩,
      ⟨.splitter, "s", 4, true, none, [(4, 0), (4, 1)]⟩, beltAt 5 1 4] =
    .ok [⟨.underground, "u", 12, true, some .output, [(0, 0)]⟩, ⟨.underground, "u", 12, true, some .input, [(3, 0)]⟩,
      ⟨.splitter, "s", 12, true, none, [(4, 0), (4, 1)]⟩, beltAt 5 1 12] := by decide

/-- A straight run is a layout as required. -/
example : Layout [beltAt 0 0 4, beltAt 1 0 4] ∧ Straight [beltAt 0 0 4, beltAt 1 0 4] ∧ ExitsFree [beltAt 0 0 4, beltAt 1 0 4] := by
  refine ⟨layout_of _ (by simp [beltAt]) (by decide) (by simp [beltAt]), ?_, ?_⟩
  · intro e he f hf _ _ _ _ _
    simp only [List.mem_cons, List.not_mem_nil, or_false] at he hf
    rcases he with rfl | rfl <;> rcases hf with rfl | rfl <;> rfl
  · intro e he hk
    simp only [List.mem_cons, List.not_mem_nil, or_false] at he
    rcases he with rfl | rfl <;> simp [beltAt] at hk

end Belts
end Draftsman
