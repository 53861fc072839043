import Verif.Model.Instruments
import Verif.Proof.Dict
import Mathlib.Data.List.Nodup
import Mathlib.Data.Int.Notation
import Mathlib.Tactic.Linarith
/-
C64: names and numbers of instruments and notes.
-/
namespace Draftsman
namespace Instruments

/-- Names tell instruments apart, and within an instrument notes; no note has the reserved name. -/
structure Tidy (raw : List Inst) : Prop where
  names : (raw.map (·.name)).Nodup
  notes : ∀ x ∈ raw, x.notes.Nodup
  reserved : ∀ x ∈ raw, "self" ∉ x.notes

/-- Through a speaker, names and numbers translate into each other as the list of instruments says, and everything else is unknown. -/
structure Faithful (t : Tables) : Prop where
  setInst : ∀ (s : Speaker) (i : ℕ) (x : Inst), t.raw[i]? = some x → setInstrument t s (some x.name) = { s with instrument := some i }
  getInst : ∀ (s : Speaker) (i : ℕ) (x : Inst), t.raw[i]? = some x → s.instrument = some i → getInstrument t s = some x.name
  setNt : ∀ (s : Speaker) (i : ℕ) (x : Inst) (j : ℕ) (n : String), t.raw[i]? = some x → x.notes[j]? = some n → s.instrument = some i →
    setNote t s (some n) = { s with note := some j }
  getNt : ∀ (s : Speaker) (i : ℕ) (x : Inst) (j : ℕ) (n : String), t.raw[i]? = some x → x.notes[j]? = some n → s.instrument = some i →
    s.note = some j → getNote t s = some n
  noInst : ∀ (s : Speaker) (n : String), (∀ x ∈ t.raw, x.name ≠ n) → setInstrument t s (some n) = { s with instrument := none }
  noId : ∀ (s : Speaker) (i : ℤ), s.instrument = some i → (i < 0 ∨ t.raw.length ≤ i) → getInstrument t s = none ∧ getNote t s = none
  noNt : ∀ (s : Speaker) (i : ℕ) (x : Inst) (n : String), t.raw[i]? = some x → s.instrument = some i → n ∉ x.notes → n ≠ "self" →
    setNote t s (some n) = { s with note := none }
  noNtId : ∀ (s : Speaker) (i : ℕ) (x : Inst) (j : ℤ), t.raw[i]? = some x → s.instrument = some i → s.note = some j → (j < 0 ∨ x.notes.length ≤ j) →
    getNote t s = none

theorem get?_fold_not {K V : Type} [DecidableEq K] (ps : List (K × V)) (d : Dict K V) (k : K) (h : k ∉ ps.map (·.1)) :
    (ps.foldl (fun d p => d.set p.1 p.2) d).get? k = d.get? k := by
  induction ps generalizing d with
  | nil => rfl
  | cons p r ih =>
    simp only [List.map_cons, List.mem_cons, not_or] at h
    rw [List.foldl_cons, ih _ h.2, Dict.get?_set, if_neg (fun e => h.1 e.symm)]

theorem get?_fold_mem {K V : Type} [DecidableEq K] (ps : List (K × V)) (d : Dict K V) (hn : (ps.map (·.1)).Nodup) (k : K) (v : V) (h : (k, v) ∈ ps) :
    (ps.foldl (fun d p => d.set p.1 p.2) d).get? k = some v := by
  induction ps generalizing d with
  | nil => simp at h
  | cons p r ih =>
    simp only [List.map_cons, List.nodup_cons] at hn
    rw [List.foldl_cons]
    rcases List.mem_cons.1 h with rfl | h
    · rw [get?_fold_not _ _ _ hn.1, Dict.get?_set, if_pos rfl]
    · exact ih _ hn.2 h

theorem mem_mapIdx {α β : Type} (f : ℕ → α → β) (l : List α) (i : ℕ) (a : α) (h : l[i]? = some a) : f i a ∈ l.mapIdx f := by
  rw [List.mem_mapIdx]
  obtain ⟨hi, rfl⟩ := List.getElem?_eq_some_iff.1 h
  exact ⟨i, hi, rfl⟩

theorem mapIdx_fst {α β : Type} (f : α → β) {γ : Type} (g : ℕ → α → γ) (l : List α) : (l.mapIdx fun i a => (f a, g i a)).map (·.1) = l.map f := by
  apply List.ext_getElem <;> simp

theorem mapIdx_idx {α γ : Type} (g : α → γ) (l : List α) : (l.mapIdx fun i a => ((i : ℤ), g a)).map (·.1) = (List.range l.length).map fun i : ℕ => (i : ℤ) := by
  apply List.ext_getElem <;> simp

theorem range_nodup (n : ℕ) : ((List.range n).map fun i : ℕ => (i : ℤ)).Nodup := by
  apply List.Nodup.map
  · intro a b h; simpa using h
  · exact List.nodup_range

theorem indexEntry_self (i : ℤ) (notes : List String) (h : "self" ∉ notes) : (indexEntry i notes).get? "self" = some i := by
  unfold indexEntry
  rw [get?_fold_not _ _ _ (by rw [mapIdx_fst (fun n => n)]; simpa using h)]
  rfl

theorem indexEntry_note (i : ℤ) (notes : List String) (h : notes.Nodup) (j : ℕ) (n : String) (hj : notes[j]? = some n) :
    (indexEntry i notes).get? n = some (j : ℤ) := by
  unfold indexEntry
  exact get?_fold_mem _ _ (by rw [mapIdx_fst (fun n => n)]; simpa using h) _ _ (mem_mapIdx (fun (j : ℕ) n => (n, (j : ℤ))) notes j n hj)

theorem indexEntry_none (i : ℤ) (notes : List String) (n : String) (h : n ∉ notes) (hs : n ≠ "self") : (indexEntry i notes).get? n = none := by
  unfold indexEntry
  rw [get?_fold_not _ _ _ (by rw [mapIdx_fst (fun n => n)]; simpa using h)]
  simp [Dict.get?, Ne.symm hs]

theorem some_idx {γ : Type} (l : List γ) : (l.mapIdx fun i a => (some (i : ℤ), a)).map (·.1) = (List.range l.length).map fun i : ℕ => some (i : ℤ) := by
  apply List.ext_getElem <;> simp

theorem nameEntry_self (name : String) (notes : List String) : (nameEntry name notes).get? none = some name := by
  unfold nameEntry
  rw [get?_fold_not _ _ _ (by rw [some_idx]; simp)]
  rfl

theorem nameEntry_note (name : String) (notes : List String) (j : ℕ) (n : String) (hj : notes[j]? = some n) :
    (nameEntry name notes).get? (some (j : ℤ)) = some n := by
  unfold nameEntry
  refine get?_fold_mem _ _ ?_ _ _ (mem_mapIdx (fun (j : ℕ) n => (some (j : ℤ), n)) notes j n hj)
  rw [some_idx]
  apply List.Nodup.map
  · intro a b h; simpa using h
  · exact List.nodup_range

theorem nameEntry_none (name : String) (notes : List String) (j : ℤ) (h : j < 0 ∨ notes.length ≤ j) : (nameEntry name notes).get? (some j) = none := by
  unfold nameEntry
  rw [get?_fold_not _ _ _ ?_]
  · simp [Dict.get?]
  · rw [some_idx]
    simp only [List.mem_map, List.mem_range, Option.some.injEq, not_exists, not_and]
    intro k hk e
    omega

/-- The tables say what the list says. -/
structure Mirror (t : Tables) : Prop where
  index : ∀ (i : ℕ) (x : Inst), t.raw[i]? = some x → t.indexOf.get? x.name = some (indexEntry i x.notes)
  name : ∀ (i : ℕ) (x : Inst), t.raw[i]? = some x → t.nameOf.get? i = some (nameEntry x.name x.notes)
  noIndex : ∀ n, (∀ x ∈ t.raw, x.name ≠ n) → t.indexOf.get? n = none
  noName : ∀ i : ℤ, (i < 0 ∨ t.raw.length ≤ i) → t.nameOf.get? i = none

theorem Mirror.faithful {t : Tables} (h : Mirror t) (ht : Tidy t.raw) : Faithful t := by
  have hgi : ∀ (s : Speaker) (i : ℕ) (x : Inst), t.raw[i]? = some x → s.instrument = some i → getInstrument t s = some x.name := by
    intro s i x hx hs
    simp [getInstrument, hs, h.name i x hx, nameEntry_self]
  refine ⟨?_, hgi, ?_, ?_, ?_, ?_, ?_, ?_⟩
  · intro s i x hx
    simp [setInstrument, h.index i x hx, indexEntry_self _ _ (ht.reserved x (List.mem_of_getElem? hx))]
  · intro s i x j n hx hj hs
    simp [setNote, hgi s i x hx hs, h.index i x hx, indexEntry_note _ _ (ht.notes x (List.mem_of_getElem? hx)) j n hj]
  · intro s i x j n hx hj hs hn
    simp [getNote, hs, hn, h.name i x hx, nameEntry_note _ _ j n hj]
  · intro s n hn
    simp [setInstrument, h.noIndex n hn]
  · intro s i hs hi
    refine ⟨by simp [getInstrument, hs, h.noName i hi], ?_⟩
    cases hn : s.note <;> simp [getNote, hs, hn, h.noName i hi]
  · intro s i x n hx hs hn hne
    simp [setNote, hgi s i x hx hs, h.index i x hx, indexEntry_none _ _ n hn hne]
  · intro s i x j hx hs hn hj
    simp [getNote, hs, hn, h.name i x hx, nameEntry_none _ _ j hj]

theorem extract_mirror (raw : List Inst) (ht : Tidy raw) : Mirror (extract raw) := by
  refine ⟨?_, ?_, ?_, ?_⟩
  · intro i x hx
    exact get?_fold_mem _ _ (by rw [mapIdx_fst (fun x : Inst => x.name)]; exact ht.names) _ _
      (mem_mapIdx (fun (i : ℕ) (x : Inst) => (x.name, indexEntry i x.notes)) raw i x hx)
  · intro i x hx
    refine get?_fold_mem _ _ ?_ _ _ (mem_mapIdx (fun (i : ℕ) (x : Inst) => ((i : ℤ), nameEntry x.name x.notes)) raw i x hx)
    rw [mapIdx_idx (fun x : Inst => nameEntry x.name x.notes)]
    exact range_nodup _
  · intro n hn
    show Dict.get? (List.foldl _ _ _) _ = _
    rw [get?_fold_not]
    · rfl
    · rw [mapIdx_fst (fun x : Inst => x.name)]
      have hn' : ∀ x ∈ raw, x.name ≠ n := hn
      simpa using hn'
  · intro i hi
    show Dict.get? (List.foldl _ _ _) _ = _
    rw [get?_fold_not]
    · rfl
    · rw [mapIdx_idx (fun x : Inst => nameEntry x.name x.notes)]
      simp only [List.mem_map, List.mem_range, not_exists, not_and]
      intro k hk e
      have : (extract raw).raw.length = raw.length := rfl
      omega

/-- C64: the tables extracted from the game translate between names and numbers.  Missing: repeated names, and notes with the reserved name, see the
refutations. -/
theorem C64_extract_partial (raw : List Inst) (ht : Tidy raw) : Faithful (extract raw) := (extract_mirror raw ht).faithful ht

theorem insertAt_end (l : List Inst) (x : Inst) : insertAt l l.length x = l ++ [x] := by
  unfold insertAt
  have : ¬ ((l.length : ℤ) < 0) := by omega
  simp [this]

theorem add_mirror (t : Tables) (h : Mirror t) (name : String) (notes : List String) (hn : ∀ x ∈ t.raw, x.name ≠ name) : Mirror (add t name notes none) := by
  have hraw : (add t name notes none).raw = t.raw ++ [⟨name, notes⟩] := insertAt_end _ _
  refine ⟨?_, ?_, ?_, ?_⟩
  · intro i x hx
    rw [hraw, List.getElem?_append] at hx
    show Dict.get? (Dict.set _ _ _) _ = _
    rw [Dict.get?_set]
    split at hx
    · rw [if_neg (fun e => hn x (List.mem_of_getElem? hx) e.symm)]
      exact h.index i x hx
    · rename_i hi
      rw [List.getElem?_singleton] at hx
      split at hx
      · rename_i h0
        simp only [Option.some.injEq] at hx
        subst hx
        rw [if_pos rfl]
        have : i = t.raw.length := by omega
        subst this
        rfl
      · simp at hx
  · intro i x hx
    rw [hraw, List.getElem?_append] at hx
    show Dict.get? (Dict.set _ _ _) _ = _
    rw [Dict.get?_set]
    simp only [Option.getD_none]
    split at hx
    · rw [if_neg (by omega)]
      exact h.name i x hx
    · rename_i hi
      rw [List.getElem?_singleton] at hx
      split at hx
      · rename_i h0
        simp only [Option.some.injEq] at hx
        subst hx
        have : i = t.raw.length := by omega
        subst this
        rw [if_pos rfl]
      · simp at hx
  · intro n hne
    rw [hraw] at hne
    show Dict.get? (Dict.set _ _ _) _ = _
    rw [Dict.get?_set, if_neg (by
      intro e
      exact hne ⟨name, notes⟩ (by simp) e)]
    exact h.noIndex n fun x hx => hne x (by simp [hx])
  · intro i hi
    rw [hraw] at hi
    simp only [List.length_append, List.length_singleton] at hi
    show Dict.get? (Dict.set _ _ _) _ = _
    rw [Dict.get?_set]
    simp only [Option.getD_none]
    rw [if_neg (by omega)]
    exact h.noName i (by omega)

/-- A new name, told from the others, with notes told apart. -/
def Fresh (raw : List Inst) (name : String) (notes : List String) : Prop := (∀ x ∈ raw, x.name ≠ name) ∧ notes.Nodup ∧ "self" ∉ notes

theorem Tidy.append {raw : List Inst} (h : Tidy raw) {name : String} {notes : List String} (hf : Fresh raw name notes) : Tidy (raw ++ [⟨name, notes⟩]) := by
  obtain ⟨f1, f2, f3⟩ := hf
  refine ⟨?_, ?_, ?_⟩
  · rw [List.map_append, List.nodup_append]
    refine ⟨h.names, by simp, ?_⟩
    intro a ha b hb e
    obtain ⟨x, hx, rfl⟩ := List.mem_map.1 ha
    simp only [List.map_cons, List.map_nil, List.mem_singleton] at hb
    exact f1 x hx (e.trans hb)
  · intro x hx
    rcases List.mem_append.1 hx with hx | hx
    · exact h.notes x hx
    · simp only [List.mem_singleton] at hx; subst hx; exact f2
  · intro x hx
    rcases List.mem_append.1 hx with hx | hx
    · exact h.reserved x hx
    · simp only [List.mem_singleton] at hx; subst hx; exact f3

/-- Instruments added one after another, each with a new name. -/
inductive Added : List Inst → List (String × List String) → Prop
  | nil (raw) : Added raw []
  | cons {raw name notes r} : Fresh raw name notes → Added (raw ++ [⟨name, notes⟩]) r → Added raw ((name, notes) :: r)

/-- C64: after extraction and any number of additions at the end, the tables still translate between names and numbers, and the list is the old one with the
new instruments.  Missing: additions at other places, see `C64_insert_refuted`. -/
theorem C64_added_partial (raw : List Inst) (ht : Tidy raw) (ops : List (String × List String)) (ha : Added raw ops) :
    Faithful (ops.foldl (fun t p => add t p.1 p.2 none) (extract raw)) ∧
      (ops.foldl (fun t p => add t p.1 p.2 none) (extract raw)).raw = raw ++ ops.map fun p => ⟨p.1, p.2⟩ := by
  have key : ∀ (ops : List (String × List String)) (t : Tables), Mirror t → Tidy t.raw → Added t.raw ops →
      (Faithful (ops.foldl (fun t p => add t p.1 p.2 none) t)) ∧ (ops.foldl (fun t p => add t p.1 p.2 none) t).raw = t.raw ++ ops.map fun p => ⟨p.1, p.2⟩ := by
    intro ops
    induction ops with
    | nil => intro t hm ht _; exact ⟨hm.faithful ht, by simp⟩
    | cons p r ih =>
      intro t hm ht ha
      obtain ⟨n, ns⟩ := p
      cases ha with
      | cons hf hr =>
        have hraw : (add t n ns none).raw = t.raw ++ [⟨n, ns⟩] := insertAt_end _ _
        rw [List.foldl_cons]
        have := ih (add t n ns none) (add_mirror t hm n ns hf.1) (by rw [hraw]; exact ht.append hf) (by rw [hraw]; exact hr)
        refine ⟨this.1, ?_⟩
        rw [this.2, hraw]
        simp
  exact key ops (extract raw) (extract_mirror raw ht) ht ha

/-- C64: an unknown speaker is refused. -/
theorem C64_unknown (speakers : List String) (d : Dict String Tables) (name : String) (notes : List String) (index : Option Int) (entity : String)
    (h : entity ∉ speakers) : addInstrument speakers d name notes index entity = .error .typeError := by
  simp [addInstrument, h]

/-- C64: an addition is made to the speaker that is named, and to no other. -/
theorem C64_others (speakers : List String) (d d' : Dict String Tables) (name : String) (notes : List String) (index : Option Int) (entity : String)
    (h : addInstrument speakers d name notes index entity = .ok d') :
    ∃ t, d.get? entity = some t ∧ d'.get? entity = some (add t name notes index) ∧ ∀ e, e ≠ entity → d'.get? e = d.get? e := by
  unfold addInstrument at h
  split at h
  · split at h
    · simp at h
    · rename_i t ht
      simp only [Except.ok.injEq] at h
      subst h
      exact ⟨t, ht, by simp [Dict.get?_set], fun e he => by simp [Dict.get?_set, Ne.symm he]⟩
  · simp at h

/-- C64: numbers are kept as given, those outside 32 bits refused. -/
theorem C64_id (v : Option ℤ) : checkId true v = if ∀ i, v = some i → 0 ≤ i ∧ i < 2 ^ 32 then .ok v else .error .dataFormat := by
  cases v with
  | none => simp [checkId]
  | some i =>
    simp only [checkId, Bool.true_and]
    by_cases h : 0 ≤ i ∧ i < 2 ^ 32
    · rw [if_neg (by simpa using h), if_pos (by intro j hj; simp only [Option.some.injEq] at hj; subst hj; exact h)]
    · rw [if_pos (by simp only [Bool.not_eq_true', Bool.and_eq_false_iff, decide_eq_false_iff_not]; omega), if_neg (by intro e; exact h (e i rfl))]

/-- C64 refuted: an instrument added anywhere but at the end leaves the numbers of the later ones wrong, whatever the tables were. -/
theorem C64_insert_refuted (t : Tables) (hf : Faithful t) (ht : Tidy t.raw) (k : ℕ) (hk : k < t.raw.length) (name : String) (notes : List String) :
    ¬ Faithful (add t name notes (some k)) := by
  intro h
  obtain ⟨x, hx⟩ : ∃ x, t.raw[k]? = some x := ⟨_, List.getElem?_eq_getElem hk⟩
  have hraw : (add t name notes (some (k : ℤ))).raw[k + 1]? = some x := by
    show (insertAt t.raw k ⟨name, notes⟩)[k + 1]? = _
    unfold insertAt
    have : ¬ ((k : ℤ) < 0) := by omega
    simp only [this, if_false, Int.toNat_natCast]
    rw [List.getElem?_append_right (by simp [Nat.min_eq_left hk.le])]
    rw [List.length_take, Nat.min_eq_left hk.le, Nat.add_sub_cancel_left, List.getElem?_cons_succ, List.getElem?_drop, Nat.add_zero]
    exact hx
  have h1 := h.getInst ⟨some ((k + 1 : ℕ) : ℤ), none⟩ (k + 1) x hraw rfl
  have h2 : getInstrument (add t name notes (some (k : ℤ))) ⟨some ((k + 1 : ℕ) : ℤ), none⟩ = getInstrument t ⟨some ((k + 1 : ℕ) : ℤ), none⟩ := by
    simp only [getInstrument]
    show Option.bind (Dict.get? (Dict.set _ _ _) _) _ = _
    rw [Dict.get?_set, if_neg (by simp)]
  rw [h2] at h1
  by_cases hl : k + 1 < t.raw.length
  · obtain ⟨y, hy⟩ : ∃ y, t.raw[k + 1]? = some y := ⟨_, List.getElem?_eq_getElem hl⟩
    have h3 := hf.getInst ⟨some ((k + 1 : ℕ) : ℤ), none⟩ (k + 1) y hy rfl
    rw [h1, Option.some.injEq] at h3
    have e1 : (t.raw.map (·.name))[k]? = some x.name := by rw [List.getElem?_map, hx]; rfl
    have e2 : (t.raw.map (·.name))[k + 1]? = some y.name := by rw [List.getElem?_map, hy]; rfl
    have := (List.getElem?_inj (by simpa using hk) ht.names).1 (e1.trans (by rw [e2, h3]))
    omega
  · have h3 := (hf.noId ⟨some ((k + 1 : ℕ) : ℤ), none⟩ _ rfl (by right; omega)).1
    rw [h1] at h3
    simp at h3

/-- A list of instruments. -/
def exRaw : List Inst := [⟨"alarms", ["alarm-1", "alarm-2"]⟩, ⟨"drum", ["kick", "snare", "hat"]⟩, ⟨"piano", ["C", "D"]⟩]

theorem exRaw_tidy : Tidy exRaw := ⟨by decide, by decide, by decide⟩

example : Added exRaw [("bass", ["C", "E"]), ("bell", [])] :=
  .cons ⟨by decide, by decide, by decide⟩ (.cons ⟨by decide, by decide, by decide⟩ (.nil _))

example : setNote (extract exRaw) (setInstrument (extract exRaw) ⟨some 0, some 1⟩ (some "drum")) (some "hat") = ⟨some 1, some 2⟩ := by decide +kernel

/-- C64 refuted: choosing an instrument that has a note called "self" chooses the instrument with the number of that note. -/
theorem C64_self_refuted : ∃ (raw : List Inst) (s : Speaker), (raw.map (·.name)).Nodup ∧ (∀ x ∈ raw, x.notes.Nodup) ∧ raw[2]? = some ⟨"me", ["self"]⟩ ∧
    setInstrument (extract raw) s (some "me") = { s with instrument := some 0 } ∧ getInstrument (extract raw) (setInstrument (extract raw) s (some "me")) = some "alarms" :=
  ⟨[⟨"alarms", []⟩, ⟨"drum", []⟩, ⟨"me", ["self"]⟩], ⟨none, none⟩, by decide, by decide, by decide, by decide +kernel, by decide +kernel⟩

/-- C64 refuted: "self" is accepted as the name of a note of every instrument, and stands for the number of the instrument. -/
theorem C64_self_note_refuted (raw : List Inst) (ht : Tidy raw) (s : Speaker) (i : ℕ) (x : Inst) (hx : raw[i]? = some x) (hs : s.instrument = some (i : ℤ)) :
    setNote (extract raw) s (some "self") = { s with note := some (i : ℤ) } := by
  have hm := extract_mirror raw ht
  simp [setNote, getInstrument, hs, hm.name i x hx, nameEntry_self, hm.index i x hx, indexEntry_self _ _ (ht.reserved x (List.mem_of_getElem? hx))]

/-- C64 refuted: with a new instrument the number of the note stays, and may stand for no note of it. -/
theorem C64_stale_refuted : ∃ (t : Tables) (s : Speaker), Faithful t ∧ getNote t s = some "hat" ∧
    getNote t (setInstrument t s (some "piano")) = none ∧ (setInstrument t s (some "piano")).note = some 2 :=
  ⟨extract exRaw, ⟨some 1, some 2⟩, C64_extract_partial _ exRaw_tidy, by decide +kernel, by decide +kernel, by decide +kernel⟩

/-- One of the ways to choose an instrument or a note: by number or by name. -/
inductive Choice where
  | instId (i : Option ℤ) | noteId (i : Option ℤ) | instName (n : Option String) | noteName (n : Option String)

/-- What is chosen, all in all. -/
def choose (validate : Bool) (t : Tables) (p : Params) : Choice → Params
  | .instId i => { p with ids := { p.ids with instrument := i } }
  | .noteId i => { p with ids := { p.ids with note := i } }
  | .instName n => assignInstrument validate t p n
  | .noteName n => assignNote validate t p n

/-- C64: what is read and exported after any sequence of choices depends on neither the names stored beside the numbers nor on whether assignments are checked. -/
theorem C64_stored (t : Tables) (cs : List Choice) (v w : Bool) (p q : Params) (h : p.ids = q.ids) :
    (cs.foldl (choose v t) p).ids = (cs.foldl (choose w t) q).ids := by
  induction cs generalizing p q with
  | nil => exact h
  | cons c cs ih =>
    refine ih _ _ ?_
    cases c <;> simp [choose, assignInstrument, assignNote, h]

/-- C64: choosing by name sets the number as `instrument_name` and `note_name` do; the name itself is kept when assignments are checked, and otherwise the name kept
before stays.  The other name always stays. -/
theorem C64_kept (validate : Bool) (t : Tables) (p : Params) (n : Option String) :
    ((assignInstrument validate t p n).ids = setInstrument t p.ids n ∧ (assignNote validate t p n).ids = setNote t p.ids n) ∧
    (validate = true → (assignInstrument validate t p n).instName = n ∧ (assignNote validate t p n).noteName = n) ∧
    (validate = false → (assignInstrument validate t p n).instName = p.instName ∧ (assignNote validate t p n).noteName = p.noteName) ∧
    (assignInstrument validate t p n).noteName = p.noteName ∧ (assignNote validate t p n).instName = p.instName := by
  cases validate <;> simp [assignInstrument, assignNote]

example : (assignNote true (extract exRaw) (assignInstrument true (extract exRaw) ⟨⟨some 0, some 1⟩, none, none⟩ (some "drum")) (some "hat")) =
    ⟨⟨some 1, some 2⟩, some "drum", some "hat"⟩ := by decide +kernel

/-- C64: speakers with the same instrument and the same note compare equal.  False of the code: a name that was assigned is kept beside the number, is compared
and not exported, so a speaker with an instrument chosen by name differs from one with the same instrument chosen by number, and from itself after export. -/
theorem C64_equal_refuted : ¬ ∀ (t : Tables) (cs cs' : List Choice) (p : Params), Faithful t →
    (cs.foldl (choose true t) p).ids = (cs'.foldl (choose true t) p).ids → cs.foldl (choose true t) p = cs'.foldl (choose true t) p := by
  intro h
  have := h (extract exRaw) [.instName (some "drum")] [.instId (some 1)] ⟨⟨some 0, some 0⟩, none, none⟩ (C64_extract_partial _ exRaw_tidy) (by decide +kernel)
  revert this
  decide +kernel

end Instruments
end Draftsman
