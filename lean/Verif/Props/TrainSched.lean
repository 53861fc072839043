import Verif.Props.Trains

namespace Draftsman

/-! ## C36: a train has one schedule -/

theorem mem_foldl_erase : ∀ (locos l : List ℕ), l.Nodup → ∀ x, x ∈ locos.foldl List.erase l ↔ x ∈ l ∧ x ∉ locos
  | [], l, _, x => by simp
  | a :: r, l, h, x => by
    rw [List.foldl_cons, mem_foldl_erase r _ (h.erase a), h.mem_erase_iff]
    simp only [List.mem_cons, not_or]
    tauto

theorem nodup_foldl_erase : ∀ (locos l : List ℕ), l.Nodup → (locos.foldl List.erase l).Nodup
  | [], _, h => h
  | a :: r, _, h => nodup_foldl_erase r _ (h.erase a)

theorem filter_erase_of_false {p : ℕ → Bool} {a : ℕ} (h : p a = false) : ∀ l : List ℕ, (l.erase a).filter p = l.filter p
  | [] => rfl
  | b :: r => by
    by_cases hb : b = a
    · subst hb; simp [h]
    · rw [List.erase_cons_tail (by simpa using hb)]
      simp only [List.filter_cons, filter_erase_of_false h r]

theorem filter_foldl_erase {p : ℕ → Bool} : ∀ (locos l : List ℕ), (∀ a ∈ locos, p a = false) → (locos.foldl List.erase l).filter p = l.filter p
  | [], _, _ => rfl
  | a :: r, l, h => by
    rw [List.foldl_cons, filter_foldl_erase r _ fun b hb => h b (by simp [hb]), filter_erase_of_false (h a (by simp))]

theorem addLoco_rest (s : Sched) (a : ℕ) : (s.addLoco a).rest = s.rest := by unfold Sched.addLoco; split <;> rfl

theorem addLoco_mem (s : Sched) (a x : ℕ) : x ∈ (s.addLoco a).locos ↔ x ∈ s.locos ∨ x = a := by
  unfold Sched.addLoco
  split
  · constructor
    · exact Or.inl
    · rintro (h | rfl) <;> assumption
  · simp

theorem addLoco_nodup (s : Sched) (a : ℕ) (h : s.locos.Nodup) : (s.addLoco a).locos.Nodup := by
  unfold Sched.addLoco
  split
  · exact h
  · rw [List.nodup_append]
    refine ⟨h, by simp, ?_⟩
    rintro x hx y hy rfl
    simp only [List.mem_singleton] at hy
    subst hy; contradiction

theorem addLoco_filter {p : ℕ → Bool} (s : Sched) (a : ℕ) (h : p a = false) : (s.addLoco a).locos.filter p = s.locos.filter p := by
  unfold Sched.addLoco
  split
  · rfl
  · simp [List.filter_append, h]

theorem addLocos_spec {p : ℕ → Bool} : ∀ (locos : List ℕ) (s : Sched), (locos.foldl Sched.addLoco s).rest = s.rest ∧
    (∀ x, x ∈ (locos.foldl Sched.addLoco s).locos ↔ x ∈ s.locos ∨ x ∈ locos) ∧
    (s.locos.Nodup → (locos.foldl Sched.addLoco s).locos.Nodup) ∧
    ((∀ a ∈ locos, p a = false) → (locos.foldl Sched.addLoco s).locos.filter p = s.locos.filter p)
  | [], s => by simp
  | a :: r, s => by
    obtain ⟨h1, h2, h3, h4⟩ := addLocos_spec (p := p) r (s.addLoco a)
    rw [List.foldl_cons]
    refine ⟨h1.trans (addLoco_rest s a), ?_, fun h => h3 (addLoco_nodup s a h), ?_⟩
    · intro x; rw [h2, addLoco_mem]; simp only [List.mem_cons]; tauto
    · intro h
      rw [h4 fun b hb => h b (by simp [hb]), addLoco_filter s a (h a (by simp))]

theorem lastWith_some {stops i : ℕ} {ss : List Sched} (h : lastWith stops ss = some i) : ∃ (hi : i < ss.length), (ss[i]).rest = stops := by
  unfold lastWith at h
  rw [Option.map_eq_some_iff] at h
  obtain ⟨p, hp, rfl⟩ := h
  have hm := List.mem_of_getLast? hp
  rw [List.mem_filter] at hm
  obtain ⟨h1, h2⟩ := hm
  obtain ⟨x, j⟩ := p
  have := List.mem_zipIdx h1
  simp only [Nat.zero_add, Nat.sub_zero] at this
  refine ⟨this.2.1, ?_⟩
  have h3 := this.2.2
  simp only [decide_eq_true_eq] at h2
  simp only
  rw [← h3]; exact h2

theorem lastWith_none {stops : ℕ} {ss : List Sched} : lastWith stops ss = none ↔ ∀ s ∈ ss, s.rest ≠ stops := by
  unfold lastWith
  rw [Option.map_eq_none_iff, List.getLast?_eq_none_iff, List.filter_eq_nil_iff]
  constructor
  · intro h s hs hr
    obtain ⟨i, hi⟩ := List.getElem?_of_mem hs
    have : (s, i) ∈ ss.zipIdx := by
      rw [List.mem_zipIdx_iff_getElem?]; exact hi
    exact absurd (h _ this) (by simp [hr])
  · intro h p hp
    have : p.1 ∈ ss := by
      obtain ⟨x, i⟩ := p
      have := (List.mem_zipIdx hp).2.2
      rw [this]; exact List.getElem_mem _
    simp [h _ this]

/-- The schedules before the assignment, with the new one added when no equal one exists. -/
def withNew (ss : List Sched) (s : Sched) : List Sched := if ∃ t ∈ ss, t.rest = s.rest then ss else ss ++ [s]

/-- What a schedule says about all but the given locomotives. -/
def others (locos : List ℕ) (s : Sched) : List ℕ × ℕ := (s.locos.filter (· ∉ locos), s.rest)

theorem others_wipe (locos : List ℕ) (s : Sched) : others locos (s.wipe locos) = others locos s := by
  unfold others Sched.wipe
  simp only [Prod.mk.injEq, and_true]
  exact filter_foldl_erase _ _ fun a ha => by simp [ha]

theorem others_add (locos : List ℕ) (s : Sched) : others locos (locos.foldl Sched.addLoco s) = others locos s := by
  obtain ⟨h1, _, _, h4⟩ := addLocos_spec (p := fun x => decide (x ∉ locos)) locos s
  unfold others
  rw [h1, h4 fun a ha => by simp [ha]]

theorem exists_wipe (ss : List Sched) (locos : List ℕ) (stops : ℕ) :
    (∀ t ∈ ss.map (Sched.wipe locos), t.rest ≠ stops) ↔ ¬ ∃ t ∈ ss, t.rest = stops := by
  constructor
  · rintro h ⟨t, ht, hr⟩
    exact h (t.wipe locos) (List.mem_map.2 ⟨t, ht, rfl⟩) hr
  · rintro h t ht hr
    obtain ⟨u, hu, rfl⟩ := List.mem_map.1 ht
    exact h ⟨u, hu, hr⟩

/-- C36: all that the schedules say about other trains, and their stops, is left alone, and a schedule is added only if there is no equal
one. -/
theorem C36_others (ss : List Sched) (locos : List ℕ) (s : Sched) :
    (setSchedule ss locos (some s)).map (others locos) = (withNew ss s).map (others locos) := by
  have hw : (ss.map (Sched.wipe locos)).map (others locos) = ss.map (others locos) := by
    rw [List.map_map]; exact List.map_congr_left fun t _ => others_wipe locos t
  unfold setSchedule withNew
  simp only
  cases h : lastWith s.rest (ss.map (Sched.wipe locos)) with
  | none =>
    rw [lastWith_none, exists_wipe] at h
    simp only [h, ↓reduceIte, List.map_append, hw, List.map_cons, List.map_nil, others_add]
  | some i =>
    have hne : ∃ t ∈ ss, t.rest = s.rest := by
      by_contra hcon
      rw [← exists_wipe ss locos, ← lastWith_none] at hcon
      rw [h] at hcon; simp at hcon
    simp only [hne, ↓reduceIte]
    rw [← hw]
    apply List.ext_getElem?
    intro j
    simp only [List.getElem?_map, List.getElem?_modify]
    cases hj : (ss[j]?) with
    | none => simp
    | some t =>
      by_cases hij : i = j
      · simp [hij, others_add]
      · simp [hij]

/-- C36: after an assignment the train's locomotives are listed in exactly one schedule, whose stops are the assigned ones. -/
theorem C36_assigned (ss : List Sched) (locos : List ℕ) (s : Sched) (hss : ∀ t ∈ ss, t.locos.Nodup) :
    ∃ j, ∃ (hj : j < (setSchedule ss locos (some s)).length), ((setSchedule ss locos (some s))[j]).rest = s.rest ∧
      ∀ i (hi : i < (setSchedule ss locos (some s)).length), ∀ l ∈ locos, l ∈ ((setSchedule ss locos (some s))[i]).locos ↔ i = j := by
  have hwipe : ∀ t ∈ ss.map (Sched.wipe locos), ∀ l ∈ locos, l ∉ t.locos := by
    intro t ht l hl
    obtain ⟨u, hu, rfl⟩ := List.mem_map.1 ht
    intro h
    exact ((mem_foldl_erase locos u.locos (hss u hu) l).1 h).2 hl
  obtain ⟨r, hr⟩ : ∃ r, r = setSchedule ss locos (some s) := ⟨_, rfl⟩
  rw [← hr]
  unfold setSchedule at hr
  simp only at hr
  cases h : lastWith s.rest (ss.map (Sched.wipe locos)) with
  | none =>
    rw [h] at hr
    simp only at hr
    subst hr
    refine ⟨(ss.map (Sched.wipe locos)).length, by simp, ?_, ?_⟩
    · simp only [List.getElem_append_right (Nat.le_refl _), Nat.sub_self, List.getElem_cons_zero]
      exact (addLocos_spec (p := fun _ => true) locos s).1
    · intro i hi l hl
      simp only [List.length_append, List.length_cons, List.length_nil] at hi
      by_cases hlt : i < (ss.map (Sched.wipe locos)).length
      · rw [List.getElem_append_left hlt]
        have := hwipe _ (List.getElem_mem hlt) l hl
        constructor
        · intro hh; exact absurd hh this
        · intro hh; omega
      · have hi' : i = (ss.map (Sched.wipe locos)).length := by omega
        subst hi'
        simp only [List.getElem_append_right (Nat.le_refl _), Nat.sub_self, List.getElem_cons_zero, iff_true]
        exact ((addLocos_spec (p := fun _ => true) locos s).2.1 l).2 (Or.inr hl)
  | some k =>
    rw [h] at hr
    simp only at hr
    subst hr
    obtain ⟨hk, hr⟩ := lastWith_some h
    refine ⟨k, by simpa using hk, ?_, ?_⟩
    · simp only [List.getElem_modify_eq]
      rw [(addLocos_spec (p := fun _ => true) locos _).1]; exact hr
    · intro i hi l hl
      have hi' : i < (ss.map (Sched.wipe locos)).length := by simpa using hi
      by_cases hik : i = k
      · subst hik
        simp only [List.getElem_modify_eq, iff_true]
        exact ((addLocos_spec (p := fun _ => true) locos _).2.1 l).2 (Or.inr hl)
      · rw [List.getElem_modify, if_neg (Ne.symm hik)]
        have := hwipe _ (List.getElem_mem hi') l hl
        exact ⟨fun hh => absurd hh this, fun hh => absurd hh hik⟩

/-- C36: clearing takes the train out of every schedule and touches nothing else. -/
theorem C36_cleared (ss : List Sched) (locos : List ℕ) (hss : ∀ t ∈ ss, t.locos.Nodup) :
    (∀ t ∈ setSchedule ss locos none, ∀ l ∈ locos, l ∉ t.locos) ∧
      (setSchedule ss locos none).map (others locos) = ss.map (others locos) := by
  unfold setSchedule
  refine ⟨?_, ?_⟩
  · intro t ht l hl
    obtain ⟨u, hu, rfl⟩ := List.mem_map.1 ht
    intro h
    exact ((mem_foldl_erase locos u.locos (hss u hu) l).1 h).2 hl
  · simp only [List.map_map]; exact List.map_congr_left fun t _ => others_wipe locos t

/-- C36: the locomotives concerned are those coupled to one of the given cars. -/
theorem C36_train (all : List Wagon) (n : ℕ) (hn : all.length < n) (cars : List Wagon) (l : ℕ) :
    l ∈ trainLocos all n cars ↔ ∃ c ∈ cars, ∃ x, Relation.ReflTransGen (Coupled PointsAlong all) c x ∧ x.loco = true ∧ x.uid = l := by
  have key : ∀ (cs acc : List Wagon), (∀ x ∈ acc, ∀ y, Relation.ReflTransGen (Coupled PointsAlong all) x y → y ∈ acc) → ∀ x,
      x ∈ cs.foldl (fun acc c => if c ∈ acc then acc else acc ∪ findTrain all n c) acc ↔
        x ∈ acc ∨ ∃ c ∈ cs, Relation.ReflTransGen (Coupled PointsAlong all) c x := by
    intro cs
    induction cs with
    | nil => intro acc _ x; simp
    | cons c r ih =>
      intro acc hacc x
      rw [List.foldl_cons]
      by_cases hc : c ∈ acc
      · rw [if_pos hc, ih acc hacc x]
        constructor
        · rintro (h | ⟨d, hd, h⟩)
          · exact Or.inl h
          · exact Or.inr ⟨d, by simp [hd], h⟩
        · rintro (h | ⟨d, hd, h⟩)
          · exact Or.inl h
          · rcases List.mem_cons.1 hd with rfl | hd
            · exact Or.inl (hacc _ hc _ h)
            · exact Or.inr ⟨d, hd, h⟩
      · rw [if_neg hc, ih _ ?_ x]
        · simp only [List.mem_union_iff, C37_members all c n hn]
          constructor
          · rintro ((h | h) | ⟨d, hd, h⟩)
            · exact Or.inl h
            · exact Or.inr ⟨c, by simp, h⟩
            · exact Or.inr ⟨d, by simp [hd], h⟩
          · rintro (h | ⟨d, hd, h⟩)
            · exact Or.inl (Or.inl h)
            · rcases List.mem_cons.1 hd with rfl | hd
              · exact Or.inl (Or.inr h)
              · exact Or.inr ⟨d, hd, h⟩
        · intro y hy z hz
          simp only [List.mem_union_iff, C37_members all c n hn] at hy ⊢
          rcases hy with h | h
          · exact Or.inl (hacc y h z hz)
          · exact Or.inr (h.trans hz)
  unfold trainLocos collectCars
  simp only [List.mem_map, List.mem_filter, key cars [] (by simp), List.not_mem_nil, false_or]
  constructor
  · rintro ⟨x, ⟨⟨c, hc, h⟩, hx⟩, e⟩; exact ⟨c, hc, x, h, hx, e⟩
  · rintro ⟨c, hc, x, h, hx, e⟩; exact ⟨x, ⟨⟨c, hc, h⟩, hx⟩, e⟩

/-! ### Histories -/

/-- Every locomotive is listed in at most one schedule, and there once. -/
def OneEach (ss : List Sched) : Prop :=
  (∀ t ∈ ss, t.locos.Nodup) ∧ ∀ l, ∀ i j : ℕ, (∃ t : Sched, ss[i]? = some t ∧ l ∈ t.locos) → (∃ t : Sched, ss[j]? = some t ∧ l ∈ t.locos) → i = j

/-- An edit of the schedules: assignment (or clearing), or the removal of a train. -/
inductive SchedOp where
  | assign (locos : List ℕ) (s : Option Sched)
  | remove (locos : List ℕ)

/-- Run an edit. -/
def SchedOp.run (ss : List Sched) : SchedOp → List Sched
  | .assign locos s => setSchedule ss locos s
  | .remove locos => ss.map (Sched.wipe locos)

/-- The schedules given have no locomotives of their own. -/
def SchedOp.Blank : SchedOp → Prop
  | .assign _ (some s) => s.locos = []
  | _ => True

theorem wiped_one {ss : List Sched} (h : OneEach ss) (locos : List ℕ) : OneEach (ss.map (Sched.wipe locos)) := by
  refine ⟨?_, ?_⟩
  · intro t ht
    obtain ⟨u, hu, rfl⟩ := List.mem_map.1 ht
    exact nodup_foldl_erase _ _ (h.1 u hu)
  · intro l i j ⟨t, ht, hl⟩ ⟨t', ht', hl'⟩
    rw [List.getElem?_map, Option.map_eq_some_iff] at ht ht'
    obtain ⟨u, hu, rfl⟩ := ht
    obtain ⟨u', hu', rfl⟩ := ht'
    exact h.2 l i j ⟨u, hu, ((mem_foldl_erase _ _ (h.1 u (List.mem_of_getElem? hu)) l).1 hl).1⟩
      ⟨u', hu', ((mem_foldl_erase _ _ (h.1 u' (List.mem_of_getElem? hu')) l).1 hl').1⟩

theorem assign_one {ss : List Sched} (h : OneEach ss) (locos : List ℕ) (s : Sched) (hs : s.locos = []) :
    OneEach (setSchedule ss locos (some s)) := by
  have ho := C36_others ss locos s
  obtain ⟨j, hj, _, hin⟩ := C36_assigned ss locos s h.1
  have hwn : OneEach (withNew ss s) := by
    unfold withNew
    split
    · exact h
    · refine ⟨?_, ?_⟩
      · intro t ht
        rcases List.mem_append.1 ht with ht | ht
        · exact h.1 t ht
        · simp only [List.mem_singleton] at ht; subst ht; simp [hs]
      · have key : ∀ (l i : ℕ), (∃ t : Sched, (ss ++ [s])[i]? = some t ∧ l ∈ t.locos) → ∃ t : Sched, ss[i]? = some t ∧ l ∈ t.locos := by
          rintro l i ⟨t, ht, hl⟩
          rw [List.getElem?_append] at ht
          split at ht
          · exact ⟨t, ht, hl⟩
          · have : t = s := by
              have := List.mem_of_getElem? ht
              simpa using this
            subst this; simp [hs] at hl
        intro l i k h1 h2
        exact h.2 l i k (key l i h1) (key l k h2)
  refine ⟨?_, ?_⟩
  · intro t ht
    unfold setSchedule at ht
    simp only at ht
    have hw := (wiped_one h locos).1
    split at ht
    · rename_i k hk
      obtain ⟨i, hi⟩ := List.getElem?_of_mem ht
      rw [List.getElem?_modify] at hi
      cases hu : (ss.map (Sched.wipe locos))[i]? with
      | none => rw [hu] at hi; simp at hi
      | some u =>
        rw [hu] at hi
        have hun := hw u (List.mem_of_getElem? hu)
        by_cases hik : k = i
        · simp [hik] at hi; subst hi; exact (addLocos_spec (p := fun _ => true) locos u).2.2.1 hun
        · simp [hik] at hi; subst hi; exact hun
    · rcases List.mem_append.1 ht with ht | ht
      · exact hw t ht
      · simp only [List.mem_singleton] at ht
        subst ht
        exact (addLocos_spec (p := fun _ => true) locos s).2.2.1 (by simp [hs])
  · intro l i k ⟨t, ht, hl⟩ ⟨t', ht', hl'⟩
    by_cases hloc : l ∈ locos
    · obtain ⟨hi, rfl⟩ := List.getElem?_eq_some_iff.1 ht
      obtain ⟨hk, rfl⟩ := List.getElem?_eq_some_iff.1 ht'
      rw [(hin i hi l hloc).1 hl, (hin k hk l hloc).1 hl']
    · have key : ∀ i : ℕ, (∃ t : Sched, (setSchedule ss locos (some s))[i]? = some t ∧ l ∈ t.locos) →
          ∃ t : Sched, (withNew ss s)[i]? = some t ∧ l ∈ t.locos := by
        rintro i ⟨t, ht, hl⟩
        have e : ((setSchedule ss locos (some s)).map (others locos))[i]? = some (others locos t) := by
          rw [List.getElem?_map, ht]; rfl
        rw [ho, List.getElem?_map, Option.map_eq_some_iff] at e
        obtain ⟨u, hu, he⟩ := e
        refine ⟨u, hu, ?_⟩
        have hm : l ∈ (others locos t).1 := by simp [others, hl, hloc]
        rw [← he] at hm
        simp only [others, List.mem_filter] at hm
        exact hm.1
      exact hwn.2 l i k (key i ⟨t, ht, hl⟩) (key k ⟨t', ht', hl'⟩)

/-- C36: through any history of assignments, clearings and removals, every locomotive is in at most one schedule. -/
theorem C36_history (ops : List SchedOp) (hb : ∀ o ∈ ops, o.Blank) (ss : List Sched) (h : OneEach ss) :
    OneEach (ops.foldl SchedOp.run ss) := by
  induction ops generalizing ss with
  | nil => exact h
  | cons o r ih =>
    rw [List.foldl_cons]
    apply ih (fun p hp => hb p (by simp [hp]))
    have ho := hb o (by simp)
    cases o with
    | remove locos => exact wiped_one h locos
    | assign locos s =>
      cases s with
      | none => exact wiped_one h locos
      | some s => exact assign_one h locos s ho

example : OneEach [] := ⟨by simp, by simp⟩

example : ([.assign [1, 2] (some ⟨[], 7⟩), .assign [3] (some ⟨[], 8⟩), .assign [2] (some ⟨[], 8⟩), .remove [3]] : List SchedOp).foldl
    SchedOp.run [] = [⟨[1], 7⟩, ⟨[2], 8⟩] := by decide

example : ∀ o ∈ ([.assign [1, 2] (some ⟨[], 7⟩), .assign [3] (some ⟨[], 8⟩), .assign [2] (some ⟨[], 8⟩), .remove [3]] : List SchedOp),
    o.Blank := by simp [SchedOp.Blank]

example : setSchedule [⟨[1, 2, 5], 7⟩, ⟨[3], 8⟩] [2, 1] (some ⟨[], 8⟩) = [⟨[5], 7⟩, ⟨[3, 2, 1], 8⟩] := by decide

example : setSchedule [⟨[1, 2, 5], 7⟩, ⟨[3], 8⟩] [2, 1] none = [⟨[5], 7⟩, ⟨[3], 8⟩] := by decide

example : trainLocos [exWagonD, exWagonC, exWagonB, exWagonA] 5 [exWagonB, exWagonA] = [1, 3] := by decide +kernel

/-! ### Removal -/

/-- C36: removing a train without an exception drops its locomotives from every schedule and leaves all else in the schedules. -/
theorem C36_removed (es : List EL) (ss : List Sched) (isLoco : EL → Bool) (cars : List EL) (hss : ∀ t ∈ ss, t.locos.Nodup)
    (h : (removeTrain es ss isLoco cars).2 = none) :
    (∀ t ∈ (removeTrain es ss isLoco cars).1.2, ∀ c ∈ cars, isLoco c = true → c.uid ∉ t.locos) ∧
      (removeTrain es ss isLoco cars).1.2.map (others (cars.map EL.uid)) = ss.map (others (cars.map EL.uid)) := by
  unfold removeTrain at h ⊢
  split at h
  · simp at h
  · rename_i es' heq
    simp only
    refine ⟨?_, ?_⟩
    · intro t ht c hc hl hmem
      obtain ⟨u, hu, rfl⟩ := List.mem_map.1 ht
      have := ((mem_foldl_erase _ u.locos (hss u hu) c.uid).1 hmem).2
      apply this
      rw [List.mem_dedup, List.mem_map]
      exact ⟨c, List.mem_filter.2 ⟨hc, hl⟩, rfl⟩
    · rw [List.map_map]
      apply List.map_congr_left
      intro t _
      simp only [Function.comp_apply, others, Sched.wipe, Prod.mk.injEq, and_true]
      apply filter_foldl_erase
      intro a ha
      rw [List.mem_dedup, List.mem_map] at ha
      obtain ⟨c, hc, rfl⟩ := ha
      have : c.uid ∈ cars.map EL.uid := List.mem_map.2 ⟨c, (List.mem_filter.1 hc).1, rfl⟩
      simp [this]

/-- C36: and of the entities, when no two are equal, exactly the cars go. -/
theorem C36_removed_entities (es : List EL) (ss : List Sched) (isLoco : EL → Bool) (cars : List EL)
    (hne : es.Pairwise fun a b => a.eqv b = false ∧ b.eqv a = false) (hc : cars.Nodup) (hin : ∀ c ∈ cars, c ∈ es) :
    (removeTrain es ss isLoco cars).2 = none ∧ (removeTrain es ss isLoco cars).1.1 = es.filter (· ∉ cars) := by
  have self : ∀ c : EL, c.eqv c = true := by intro c; simp [EL.eqv]
  have key : ∀ (cars es : List EL), (es.Pairwise fun a b => a.eqv b = false ∧ b.eqv a = false) → cars.Nodup → (∀ c ∈ cars, c ∈ es) →
      removeCars es cars = (es.filter (· ∉ cars), none) := by
    intro cars
    induction cars with
    | nil => intro es _ _ _; simp [removeCars]
    | cons c r ih =>
      intro es hne hc hin
      have hmem := hin c (by simp)
      have hany : es.any (fun e => e.eqv c) = true := List.any_eq_true.2 ⟨c, hmem, self c⟩
      have herase : es.eraseP (fun e => e.eqv c) = es.filter (· ≠ c) := by
        clear hin ih hany hc
        induction es with
        | nil => rfl
        | cons a t iht =>
          rw [List.pairwise_cons] at hne
          by_cases hac : a = c
          · subst hac
            rw [List.eraseP_cons_of_pos (by simp [self])]
            simp only [ne_eq, not_true_eq_false, decide_false, Bool.false_eq_true, not_false_eq_true, List.filter_cons_of_neg]
            symm
            rw [List.filter_eq_self]
            intro b hb
            have := (hne.1 b hb).1
            simp only [decide_eq_true_eq]
            rintro rfl
            rw [self] at this; simp at this
          · have hct : c ∈ t := by
              rcases List.mem_cons.1 hmem with h | h
              · exact absurd h.symm hac
              · exact h
            rw [List.eraseP_cons_of_neg (by rw [(hne.1 c hct).1]; simp), iht hne.2 hct]
            simp [hac]
      rw [List.nodup_cons] at hc
      unfold removeCars
      rw [if_pos hany, herase, ih _ (hne.filter _) hc.2]
      · rw [List.filter_filter]
        congr 1
        apply List.filter_congr
        intro x _
        simp only [List.mem_cons, not_or, ne_eq]
        by_cases h1 : x = c <;> by_cases h2 : x ∈ r <;> simp [h1, h2]
      · intro d hd
        simp only [List.mem_filter]
        refine ⟨hin d (by simp [hd]), ?_⟩
        simp only [decide_eq_true_eq]
        rintro rfl
        exact hc.1 hd
  unfold removeTrain
  rw [key cars es hne hc hin]
  exact ⟨rfl, rfl⟩

def exCarA : EL := ⟨1, none, some 10⟩
def exCarB : EL := ⟨2, none, some 11⟩
def exCarC : EL := ⟨3, none, some 12⟩

example : removeTrain [exCarA, exCarB, exCarC] [⟨[1, 3], 7⟩, ⟨[2], 8⟩] (fun c => c.uid != 3) [exCarB, exCarA]
    = (([exCarC], [⟨[3], 7⟩, ⟨[], 8⟩]), none) := by decide

example : [exCarA, exCarB, exCarC].Pairwise fun a b => a.eqv b = false ∧ b.eqv a = false := by decide

/-! ### Where it fails -/

/-- C36 refuted for schedules built with the same locomotive twice (the constructor and plain assignment do not check): one mention
survives. -/
theorem C36_double_refuted : ∃ (ss : List Sched) (l : ℕ), ∃ t ∈ setSchedule ss [l] none, l ∈ t.locos :=
  ⟨[⟨[1, 1], 7⟩], 1, ⟨[1], 7⟩, by decide, by decide⟩

/-- C36 refuted for `add_train_at_station`: a schedule with the stops of an existing one is added again, because whole schedules are
compared, locomotives included. -/
theorem C36_station_refuted : ∃ (ss : List Sched) (s : Sched), (∃ t ∈ ss, t.rest = s.rest) ∧ (scheduleFor true ss s).1.length = ss.length + 1 :=
  ⟨[⟨[1], 7⟩], ⟨[], 7⟩, ⟨⟨[1], 7⟩, by decide, rfl⟩, by decide⟩

/-- C36: `add_train_at_position` reuses it. -/
theorem C36_position (ss : List Sched) (s : Sched) :
    (scheduleFor false ss s).1 = withNew ss s ∧ ∃ t, (scheduleFor false ss s).1[(scheduleFor false ss s).2]? = some t ∧ t.rest = s.rest := by
  unfold scheduleFor withNew
  simp only [Bool.false_eq_true, ↓reduceIte]
  cases h : ss.findIdx? fun t => decide (s.rest = t.rest) with
  | none =>
    rw [List.findIdx?_eq_none_iff] at h
    have hn : ¬ ∃ t ∈ ss, t.rest = s.rest := by
      rintro ⟨t, ht, hr⟩
      have := h t ht
      simp [hr] at this
    simp only [hn, ↓reduceIte]
    exact ⟨trivial, s, by simp, rfl⟩
  | some i =>
    rw [List.findIdx?_eq_some_iff_getElem] at h
    obtain ⟨hi, hp, _⟩ := h
    simp only [decide_eq_true_eq] at hp
    have hn : ∃ t ∈ ss, t.rest = s.rest := ⟨ss[i], List.getElem_mem hi, hp.symm⟩
    simp only [hn, ↓reduceIte]
    exact ⟨trivial, ss[i], List.getElem?_eq_getElem hi, hp.symm⟩

/-- C36 refuted for removal: entities are deleted by equality, so of two equal cars the wrong one can go while the schedules lose the
other. -/
theorem C36_twin_refuted : ∃ (es : List EL) (c : EL), c ∈ es ∧ c ∈ (removeTrain es [] (fun _ => true) [c]).1.1 ∧
    (removeTrain es [] (fun _ => true) [c]).2 = none :=
  ⟨[⟨1, none, some 10⟩, ⟨2, none, some 10⟩], ⟨2, none, some 10⟩, by decide, by decide, by decide⟩

/-- C36 refuted for failing removals: an absent car leaves the cars before it deleted but still in their schedules. -/
theorem C36_absent_refuted : ∃ (es : List EL) (ss : List Sched) (a b : EL), a ∈ es ∧
    (removeTrain es ss (fun _ => true) [a, b]).2 = some .valueError ∧ a ∉ (removeTrain es ss (fun _ => true) [a, b]).1.1 ∧
    (removeTrain es ss (fun _ => true) [a, b]).1.2 = ss ∧ ∃ t ∈ ss, a.uid ∈ t.locos :=
  ⟨[exCarA], [⟨[1], 7⟩], exCarA, exCarB, by decide, by decide, by decide, by decide, ⟨[1], 7⟩, by decide, by decide⟩

end Draftsman
