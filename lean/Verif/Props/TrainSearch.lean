import Verif.Model.TrainSearch
import Verif.Props.Trains
import Verif.Props.Search
/-
C63: searching for trains.
-/
namespace Draftsman
namespace TrainSearch

/-- A count meets a number or a range with optional bounds; counts are never negative. -/
def Meets (r : Range) (k : ℕ) : Prop :=
  match r with
  | .exact n => (k : ℤ) = n
  | .between lo hi => (∀ a, lo = some a → a ≤ (k : ℤ)) ∧ (∀ b, hi = some b → (k : ℤ) ≤ b)

/-- The stop stands where a train headed by `w` would halt: three tiles ahead and two to the right, facing as the train does. -/
def Halts (w : Wagon) (s : Stop) : Prop :=
  (w.orient = 0 ∧ s.pos = ⟨w.pos.x + 2, w.pos.y - 3⟩ ∧ s.dir = 0) ∨
  (w.orient = 1/4 ∧ s.pos = ⟨w.pos.x + 3, w.pos.y + 2⟩ ∧ s.dir = 4) ∨
  (w.orient = 1/2 ∧ s.pos = ⟨w.pos.x - 2, w.pos.y + 3⟩ ∧ s.dir = 8) ∨
  (w.orient = 3/4 ∧ s.pos = ⟨w.pos.x - 3, w.pos.y - 2⟩ ∧ s.dir = 12)

/-- What the documentation asks of a train that is returned. -/
structure Matches (c : Coll) (q : Query) (t : List Wagon) : Prop where
  length : ∀ r, q.length = some r → Meets r t.length
  any : q.station = .any → ∃ w, t.head? = some w ∧ ∃ s ∈ c.stops, Halts w s
  names : ∀ ns, q.station = .names ns → ∃ w, t.head? = some w ∧ ∃ s ∈ c.stops, Halts w s ∧ (∃ n ∈ ns, s.name = some n)
  types : ∀ d, q.numType = some d → ∀ e ∈ d, Meets e.2 (t.countP fun w => c.typeOf w.uid = e.1)
  called : ∀ d, q.numName = some d → ∀ e ∈ d, Meets e.2 (t.countP fun w => c.nameOf w.uid = e.1)
  orientation : ∀ o, q.orientation = some o → ∀ w ∈ t, ∃ k : ℤ, w.orient - o = k
  config : ∀ l, q.config = some l → t.map (fun w => c.nameOf w.uid) = l
  schedule : ∀ n, q.schedule = some n → ∃ s ∈ c.scheds, s.rest = n ∧ ∃ w ∈ t, c.typeOf w.uid = "locomotive" ∧ w.uid ∈ s.locos

/-- What the query needs of a train, beyond the documentation: orientations written as numbers below one; a head along
one of the four directions; some locomotive, and schedules that list all locomotives of a train or none; a non-empty set of names; one stop per place and
direction. -/
structure Fit (c : Coll) (q : Query) (t : List Wagon) : Prop where
  orientation : ∀ o, q.orientation = some o → (0 ≤ o ∧ o < 1) ∧ ∀ w ∈ t, 0 ≤ w.orient ∧ w.orient < 1
  station : q.station ≠ .off → q.station ≠ .names [] ∧ (∃ w, t.head? = some w ∧ (w.orient = 0 ∨ w.orient = 1/4 ∨ w.orient = 1/2 ∨ w.orient = 3/4)) ∧
    ∀ s ∈ c.stops, ∀ s' ∈ c.stops, s.pos = s'.pos → s.dir = s'.dir → s = s'
  schedule : q.schedule ≠ none → (∃ w ∈ t, c.typeOf w.uid = "locomotive") ∧ ∀ s ∈ c.scheds, ∀ w ∈ t, ∀ w' ∈ t, c.typeOf w.uid = "locomotive" →
    c.typeOf w'.uid = "locomotive" → w.uid ∈ s.locos → w'.uid ∈ s.locos

theorem inRange_iff (r : Range) (k : ℕ) : inRange (normalize r) k = true ↔ Meets r k := by
  cases r with
  | exact n =>
    unfold inRange normalize Meets
    rw [Bool.and_eq_true, decide_iff]
    simp only
    rw [decide_iff]
    omega
  | between lo hi =>
    unfold inRange normalize Meets
    rw [Bool.and_eq_true, decide_iff]
    cases lo <;> cases hi <;> simp

theorem countsOk_iff (attr : ℕ → String) (d : Option (Dict String Range)) (t : List Wagon) :
    countsOk attr d t = true ↔ ∀ d', d = some d' → ∀ e ∈ d', Meets e.2 (t.countP fun w => attr w.uid = e.1) := by
  unfold countsOk
  cases d with
  | none => simp
  | some d =>
    simp only [List.all_eq_true, Option.some.injEq, inRange_iff, List.countP_eq_length_filter]
    constructor
    · rintro h _ rfl e he; exact h e he
    · intro h e he; exact h d rfl e he

theorem toDirection_quarters : (Orientation.mk' 0).toDirection = .ok 0 ∧ (Orientation.mk' (1/4)).toDirection = .ok 4 ∧
    (Orientation.mk' (1/2)).toDirection = .ok 8 ∧ (Orientation.mk' (3/4)).toDirection = .ok 12 := by
  refine ⟨?_, ?_, ?_, ?_⟩ <;> decide +kernel

theorem atStation_spec (c : Coll) (w : Wagon) (t : List Wagon) (hw : w.orient = 0 ∨ w.orient = 1/4 ∨ w.orient = 1/2 ∨ w.orient = 3/4) :
    ∃ p : Stop → Bool, (∀ s, p s = true ↔ Halts w s) ∧ atStation c (w :: t) = .ok ((c.stops.find? p).map (·.name)) := by
  have hcase : ∀ (d : Direction), (Orientation.mk' w.orient).toDirection = .ok d → ∃ p : Stop → Bool, (∀ s, p s = true ↔
      s.pos = ⟨w.pos.x + (d.toVector (R := ℚ) 0 3).1 + ((d.next true).toVector (R := ℚ) 0 2).1,
        w.pos.y + (d.toVector (R := ℚ) 0 3).2 + ((d.next true).toVector (R := ℚ) 0 2).2⟩ ∧ s.dir = d) ∧
      atStation c (w :: t) = .ok ((c.stops.find? p).map (·.name)) := by
    intro d hd
    refine ⟨fun s => decide (s.pos = ⟨w.pos.x + (d.toVector (R := ℚ) 0 3).1 + ((d.next true).toVector (R := ℚ) 0 2).1,
        w.pos.y + (d.toVector (R := ℚ) 0 3).2 + ((d.next true).toVector (R := ℚ) 0 2).2⟩) && decide (s.dir = d), ?_, ?_⟩
    · intro s; simp
    · simp only [atStation, hd]
  rcases hw with h | h | h | h
  · obtain ⟨p, h1, h2⟩ := hcase 0 (by rw [h]; exact toDirection_quarters.1)
    refine ⟨p, fun s => ?_, h2⟩
    rw [h1]
    have e1 : (Direction.toVector (R := ℚ) 0 3 (0 : Direction)) = (0, -3) := by decide +kernel
    have e2 : (Direction.toVector (R := ℚ) 0 2 (Direction.next (0 : Direction) true)) = (2, 0) := by decide +kernel
    rw [e1, e2]
    unfold Halts
    rw [h]
    norm_num [sub_eq_add_neg]
  · obtain ⟨p, h1, h2⟩ := hcase 4 (by rw [h]; exact toDirection_quarters.2.1)
    refine ⟨p, fun s => ?_, h2⟩
    rw [h1]
    have e1 : (Direction.toVector (R := ℚ) 0 3 (4 : Direction)) = (3, 0) := by decide +kernel
    have e2 : (Direction.toVector (R := ℚ) 0 2 (Direction.next (4 : Direction) true)) = (0, 2) := by decide +kernel
    rw [e1, e2]
    unfold Halts
    rw [h]
    norm_num
  · obtain ⟨p, h1, h2⟩ := hcase 8 (by rw [h]; exact toDirection_quarters.2.2.1)
    refine ⟨p, fun s => ?_, h2⟩
    rw [h1]
    have e1 : (Direction.toVector (R := ℚ) 0 3 (8 : Direction)) = (0, 3) := by decide +kernel
    have e2 : (Direction.toVector (R := ℚ) 0 2 (Direction.next (8 : Direction) true)) = (-2, 0) := by decide +kernel
    rw [e1, e2]
    unfold Halts
    rw [h]
    norm_num [sub_eq_add_neg]
  · obtain ⟨p, h1, h2⟩ := hcase 12 (by rw [h]; exact toDirection_quarters.2.2.2)
    refine ⟨p, fun s => ?_, h2⟩
    rw [h1]
    have e1 : (Direction.toVector (R := ℚ) 0 3 (12 : Direction)) = (-3, 0) := by decide +kernel
    have e2 : (Direction.toVector (R := ℚ) 0 2 (Direction.next (12 : Direction) true)) = (0, -2) := by decide +kernel
    rw [e1, e2]
    unfold Halts
    rw [h]
    norm_num [sub_eq_add_neg]

theorem stationOk_spec (c : Coll) (q : Query) (t : List Wagon) (hf : Fit c q t) :
    ∃ b, stationOk c q t = .ok b ∧ (b = true ↔ (q.station = .any → ∃ w, t.head? = some w ∧ ∃ s ∈ c.stops, Halts w s) ∧
      ∀ ns, q.station = .names ns → ∃ w, t.head? = some w ∧ ∃ s ∈ c.stops, Halts w s ∧ (∃ n ∈ ns, s.name = some n)) := by
  cases hq : q.station with
  | off => exact ⟨true, by simp [stationOk, hq], by simp⟩
  | any =>
    obtain ⟨-, ⟨w, hw, ho⟩, -⟩ := hf.station (by rw [hq]; simp)
    cases t with
    | nil => simp at hw
    | cons w' t =>
      simp only [List.head?_cons, Option.some.injEq] at hw
      subst hw
      obtain ⟨p, hp, he⟩ := atStation_spec c w' t ho
      refine ⟨(c.stops.find? p).isSome, by simp [stationOk, hq, he, Except.map], ?_⟩
      rw [List.find?_isSome]
      simp [hp]
  | names ns =>
    obtain ⟨hne, ⟨w, hw, ho⟩, huniq⟩ := hf.station (by rw [hq]; simp)
    have hns : ns ≠ [] := by rintro rfl; exact hne hq
    cases t with
    | nil => simp at hw
    | cons w' t =>
      simp only [List.head?_cons, Option.some.injEq] at hw
      subst hw
      obtain ⟨p, hp, he⟩ := atStation_spec c w' t ho
      have hval : stationOk c q (w' :: t) = .ok (among ns ((c.stops.find? p).map (·.name))) := by
        unfold stationOk
        rw [hq, he]
        cases ns with
        | nil => exact absurd rfl hns
        | cons a l => rfl
      refine ⟨_, hval, ?_⟩
      cases hfind : c.stops.find? p with
      | none =>
        simp only [Option.map_none, among, Bool.false_eq_true, false_iff, not_and, not_forall]
        intro _
        refine ⟨ns, rfl, ?_⟩
        rintro ⟨w, hw, s, hs, hh, -⟩
        simp only [List.head?_cons, Option.some.injEq] at hw
        subst hw
        exact List.find?_eq_none.1 hfind s hs ((hp s).2 hh)
      | some s0 =>
        have hs0 : s0 ∈ c.stops := List.mem_of_find?_eq_some hfind
        have hh0 : Halts w' s0 := (hp s0).1 (List.find?_some hfind)
        have hmem : ∀ o : Option String, (among ns (some o) = true) ↔ ∃ n ∈ ns, o = some n := by
          intro o
          cases o with
          | none => simp [among]
          | some n => simp [among]
        simp only [Option.map_some]
        rw [hmem]
        constructor
        · intro h
          refine ⟨by simp, ?_⟩
          intro ns' hns'
          simp only [Station.names.injEq] at hns'
          subst hns'
          exact ⟨w', rfl, s0, hs0, hh0, h⟩
        · rintro ⟨-, h⟩
          obtain ⟨w, hw, s, hs, hh, hn⟩ := h ns rfl
          simp only [List.head?_cons, Option.some.injEq] at hw
          subst hw
          have : s0.pos = s.pos ∧ s0.dir = s.dir := by
            rcases hh with ⟨a1, a2, a3⟩ | ⟨a1, a2, a3⟩ | ⟨a1, a2, a3⟩ | ⟨a1, a2, a3⟩ <;>
            rcases hh0 with ⟨b1, b2, b3⟩ | ⟨b1, b2, b3⟩ | ⟨b1, b2, b3⟩ | ⟨b1, b2, b3⟩ <;>
            first
            | (exfalso; rw [a1] at b1; norm_num at b1; done)
            | exact ⟨b2.trans a2.symm, b3.trans a3.symm⟩
          rw [huniq s0 hs0 s hs this.1 this.2]
          exact hn

theorem scheduleOk_spec (c : Coll) (q : Query) (t : List Wagon) (hf : Fit c q t) :
    ∃ b, scheduleOk c q.schedule t = .ok b ∧ (b = true ↔ ∀ n, q.schedule = some n → ∃ s ∈ c.scheds, s.rest = n ∧
      ∃ w ∈ t, c.typeOf w.uid = "locomotive" ∧ w.uid ∈ s.locos) := by
  cases hq : q.schedule with
  | none => exact ⟨true, by simp [scheduleOk], by simp⟩
  | some n =>
    obtain ⟨⟨w, hw, hl⟩, hshare⟩ := hf.schedule (by rw [hq]; simp)
    have hmem : w ∈ t.filter fun w => decide (c.typeOf w.uid = "locomotive") := by simp [hw, hl]
    cases hlast : (t.filter fun w => decide (c.typeOf w.uid = "locomotive")).getLast? with
    | none => rw [List.getLast?_eq_none_iff] at hlast; rw [hlast] at hmem; simp at hmem
    | some l =>
      have hlm : l ∈ t.filter fun w => decide (c.typeOf w.uid = "locomotive") := List.mem_of_getLast? hlast
      simp only [List.mem_filter, decide_eq_true_eq] at hlm
      have hval : scheduleOk c (some n) t = .ok (c.scheds.any fun f => decide (l.uid ∈ f.locos) && decide (f.rest = n)) := by
        unfold scheduleOk
        simp only [hlast]
        cases c.scheds <;> rfl
      refine ⟨_, hval, ?_⟩
      simp only [List.any_eq_true, Bool.and_eq_true, decide_eq_true_eq, Option.some.injEq]
      constructor
      · rintro ⟨s, hs, h1, h2⟩ n' rfl
        exact ⟨s, hs, h2, l, hlm.1, hlm.2, h1⟩
      · intro h
        obtain ⟨s, hs, h2, w', hw', hl', hin⟩ := h n rfl
        exact ⟨s, hs, hshare s hs w' hw' l hlm.1 hl' hlm.2 hin, h2⟩

theorem orientOk_spec (c : Coll) (q : Query) (t : List Wagon) (hf : Fit c q t) :
    orientOk q.orientation t = true ↔ ∀ o, q.orientation = some o → ∀ w ∈ t, ∃ k : ℤ, w.orient - o = k := by
  cases hq : q.orientation with
  | none => simp [orientOk]
  | some o =>
    obtain ⟨ho, hw⟩ := hf.orientation o hq
    simp only [orientOk, List.all_eq_true, decide_eq_true_eq, Option.some.injEq]
    constructor
    · rintro h _ rfl w hwt
      exact ⟨0, by rw [h w hwt]; simp⟩
    · intro h w hwt
      obtain ⟨k, hk⟩ := h o rfl w hwt
      obtain ⟨h1, h2⟩ := hw w hwt
      have hk0 : k = 0 := by
        have a1 : (k : ℚ) < 1 := by rw [← hk]; linarith [ho.1]
        have a2 : (-1 : ℚ) < k := by rw [← hk]; linarith [ho.2]
        have a3 : k < 1 := by exact_mod_cast a1
        have a4 : -1 < k := by exact_mod_cast a2
        omega
      subst hk0
      have : w.orient - o = 0 := by rw [hk]; simp
      linarith

theorem configOk_spec (c : Coll) (q : Query) (t : List Wagon) :
    configOk c q.config t = true ↔ ∀ l, q.config = some l → t.map (fun w => c.nameOf w.uid) = l := by
  cases hq : q.config with
  | none => simp [configOk]
  | some l =>
    simp only [configOk, decide_eq_true_eq, Option.some.injEq]
    constructor
    · rintro h _ rfl; exact h
    · intro h; exact h l rfl

theorem test_spec (c : Coll) (q : Query) (t : List Wagon) (hf : Fit c q t) : ∃ b, test c q t = .ok b ∧ (b = true ↔ Matches c q t) := by
  obtain ⟨b1, e1, h1⟩ := stationOk_spec c q t hf
  obtain ⟨b2, e2, h2⟩ := scheduleOk_spec c q t hf
  have h3 := orientOk_spec c q t hf
  have h4 := configOk_spec c q t
  have h5 := countsOk_iff c.typeOf q.numType t
  have h6 := countsOk_iff c.nameOf q.numName t
  have h7 : lengthOk q.length t = true ↔ ∀ r, q.length = some r → Meets r t.length := by
    unfold lengthOk
    cases q.length with
    | none => simp
    | some r => simp [inRange_iff]
  have hM : Matches c q t ↔ (∀ r, q.length = some r → Meets r t.length) ∧ b1 = true ∧ countsOk c.typeOf q.numType t = true ∧
      countsOk c.nameOf q.numName t = true ∧ orientOk q.orientation t = true ∧ configOk c q.config t = true ∧ b2 = true := by
    rw [h1, h2, h3, h4, h5, h6]
    constructor
    · rintro ⟨a1, a2, a3, a4, a5, a6, a7, a8⟩; exact ⟨a1, ⟨a2, a3⟩, a4, a5, a6, a7, a8⟩
    · rintro ⟨a1, ⟨a2, a3⟩, a4, a5, a6, a7, a8⟩; exact ⟨a1, a2, a3, a4, a5, a6, a7, a8⟩
  rw [hM, ← h7]
  unfold test
  rw [e1, e2]
  generalize lengthOk q.length t = l
  generalize countsOk c.typeOf q.numType t = x1
  generalize countsOk c.nameOf q.numName t = x2
  generalize orientOk q.orientation t = x3
  generalize configOk c q.config t = x4
  cases l
  · exact ⟨false, rfl, by simp⟩
  · cases b1
    · exact ⟨false, rfl, by simp⟩
    · cases x1
      · exact ⟨false, rfl, by simp⟩
      · cases x2
        · exact ⟨false, rfl, by simp⟩
        · cases x3
          · exact ⟨false, rfl, by simp⟩
          · cases x4
            · exact ⟨false, rfl, by simp⟩
            · exact ⟨b2, rfl, by simp⟩

theorem filterE_ok (p : List Wagon → Except PyErr Bool) (f : List Wagon → Bool) (l : List (List Wagon)) (h : ∀ t ∈ l, p t = .ok (f t)) :
    filterE p l = .ok (l.filter f) := by
  induction l with
  | nil => rfl
  | cons t l ih =>
    simp only [filterE, h t List.mem_cons_self, ih (fun t ht => h t (List.mem_cons_of_mem _ ht)), List.filter_cons]

open Classical in
/-- C63: the search returns, in order, those of the trains that match (or, inverted, those that do not), and of these the first `limit`.  Missing: what happens
to queries and trains that are not `Fit`, see the refutations. -/
theorem C63_filter_partial (c : Coll) (n : ℕ) (q : Query) (hf : ∀ t ∈ allTrains c.wagons n, Fit c q t) :
    ∃ r, findTrains c n q = .ok r ∧
      (q.limit = none → r = (allTrains c.wagons n).filter fun t => if q.invert then ¬ Matches c q t else Matches c q t) ∧
      (∀ k : ℕ, q.limit = some k → r = ((allTrains c.wagons n).filter fun t => if q.invert then ¬ Matches c q t else Matches c q t).take k) := by
  have hfe : filterE (fun t => (test c q t).map fun b => if q.invert then !b else b) (allTrains c.wagons n) =
      .ok ((allTrains c.wagons n).filter fun t => decide (if q.invert then ¬ Matches c q t else Matches c q t)) := by
    apply filterE_ok
    intro t ht
    obtain ⟨b, hb, hm⟩ := test_spec c q t (hf t ht)
    rw [hb]
    simp only [Except.map, Except.ok.injEq]
    cases q.invert <;> cases b <;> simp_all
  unfold findTrains
  dsimp only
  rw [hfe]
  refine ⟨_, rfl, ?_, ?_⟩
  · intro hl
    rw [hl]
    refine Eq.trans (?_ : _ = (allTrains c.wagons n).filter fun t => decide (if q.invert then ¬ Matches c q t else Matches c q t)) ?_
    · exact sliceTo_length _ _ (List.length_filter_le _ _)
    · congr 1; funext t; cases q.invert <;> simp
  · intro k hk
    rw [hk]
    simp [sliceTo]

/-! ## The trains -/

/-- C63: the trains that are filtered are the sets of coupled wagons, and every wagon is in one.  In the order of the wagons they start from. -/
theorem C63_trains (all : List Wagon) (n : ℕ) (hn : all.length < n) :
    (∀ t ∈ allTrains all n, ∃ w ∈ all, ∀ x, x ∈ t ↔ Relation.ReflTransGen (Coupled PointsAlong all) w x) ∧ ∀ w ∈ all, ∃ t ∈ allTrains all n, w ∈ t := by
  have hself : ∀ w, w ∈ findTrain all n w := fun w => (C37_members all w n hn w).2 Relation.ReflTransGen.refl
  have key : ∀ (l : List Wagon), (∀ w ∈ l, w ∈ all) → ∀ st : List Wagon × List (List Wagon),
      (∀ x, x ∈ st.1 ↔ ∃ t ∈ st.2, x ∈ t) → (∀ t ∈ st.2, ∃ w ∈ all, t = findTrain all n w) →
      let st' := l.foldl (fun (st : List Wagon × List (List Wagon)) w => if w ∈ st.1 then st else (st.1 ++ findTrain all n w, st.2 ++ [findTrain all n w])) st
      (∀ t ∈ st'.2, ∃ w ∈ all, t = findTrain all n w) ∧ (∀ w, w ∈ l ∨ w ∈ st.1 → ∃ t ∈ st'.2, w ∈ t) := by
    intro l
    induction l with
    | nil =>
      intro _ st h1 h2
      exact ⟨h2, fun w hw => (h1 w).1 (hw.resolve_left (by simp))⟩
    | cons w l ih =>
      intro hl st h1 h2
      simp only [List.foldl_cons]
      by_cases hw : w ∈ st.1
      · rw [if_pos hw]
        obtain ⟨g1, g2⟩ := ih (fun x hx => hl x (List.mem_cons_of_mem _ hx)) st h1 h2
        refine ⟨g1, ?_⟩
        rintro x (hx | hx)
        · rcases List.mem_cons.1 hx with rfl | hx
          · exact g2 x (Or.inr hw)
          · exact g2 x (Or.inl hx)
        · exact g2 x (Or.inr hx)
      · rw [if_neg hw]
        obtain ⟨g1, g2⟩ := ih (fun x hx => hl x (List.mem_cons_of_mem _ hx)) (st.1 ++ findTrain all n w, st.2 ++ [findTrain all n w])
          (by
            intro x
            simp only [List.mem_append, List.mem_singleton, h1]
            constructor
            · rintro (⟨t, ht, hx⟩ | hx)
              · exact ⟨t, Or.inl ht, hx⟩
              · exact ⟨_, Or.inr rfl, hx⟩
            · rintro ⟨t, ht | rfl, hx⟩
              · exact Or.inl ⟨t, ht, hx⟩
              · exact Or.inr hx)
          (by
            intro t ht
            rcases List.mem_append.1 ht with ht | ht
            · exact h2 t ht
            · simp only [List.mem_singleton] at ht
              exact ⟨w, hl w List.mem_cons_self, ht⟩)
        refine ⟨g1, ?_⟩
        rintro x (hx | hx)
        · rcases List.mem_cons.1 hx with rfl | hx
          · exact g2 x (Or.inr (List.mem_append_right _ (hself x)))
          · exact g2 x (Or.inl hx)
        · exact g2 x (Or.inr (List.mem_append_left _ hx))
  obtain ⟨h1, h2⟩ := key all (fun _ h => h) ([], []) (by simp) (by simp)
  refine ⟨?_, fun w hw => h2 w (Or.inl hw)⟩
  intro t ht
  obtain ⟨w, hw, rfl⟩ := h1 t ht
  exact ⟨w, hw, fun x => C37_members all w n hn x⟩

/-- C63: when coupling goes both ways, no wagon is in two trains. -/
theorem C63_disjoint_partial (all : List Wagon) (n : ℕ) (hn : all.length < n)
    (hsym : ∀ a ∈ all, ∀ b ∈ all, Coupled PointsAlong all a b → Coupled PointsAlong all b a) :
    (allTrains all n).Pairwise fun t t' => ∀ x, x ∈ t → x ∉ t' := by
  have hback : ∀ a b, a ∈ all → Relation.ReflTransGen (Coupled PointsAlong all) a b → b ∈ all ∧ Relation.ReflTransGen (Coupled PointsAlong all) b a := by
    intro a b ha h
    induction h with
    | refl => exact ⟨ha, Relation.ReflTransGen.refl⟩
    | tail _ hbc ih => exact ⟨hbc.1, Relation.ReflTransGen.head (hsym _ ih.1 _ hbc.1 hbc) ih.2⟩
  have key : ∀ (l : List Wagon), (∀ w ∈ l, w ∈ all) → ∀ st : List Wagon × List (List Wagon),
      (∀ x, x ∈ st.1 ↔ ∃ t ∈ st.2, x ∈ t) → (∀ t ∈ st.2, ∃ w ∈ all, t = findTrain all n w) → (st.2.Pairwise fun t t' => ∀ x, x ∈ t → x ∉ t') →
      (l.foldl (fun (st : List Wagon × List (List Wagon)) w => if w ∈ st.1 then st else (st.1 ++ findTrain all n w, st.2 ++ [findTrain all n w])) st).2.Pairwise
        fun t t' => ∀ x, x ∈ t → x ∉ t' := by
    intro l
    induction l with
    | nil => intro _ st _ _ h3; exact h3
    | cons w l ih =>
      intro hl st h1 h2 h3
      simp only [List.foldl_cons]
      have hwall := hl w List.mem_cons_self
      by_cases hw : w ∈ st.1
      · rw [if_pos hw]
        exact ih (fun x hx => hl x (List.mem_cons_of_mem _ hx)) st h1 h2 h3
      · rw [if_neg hw]
        refine ih (fun x hx => hl x (List.mem_cons_of_mem _ hx)) (st.1 ++ findTrain all n w, st.2 ++ [findTrain all n w]) ?_ ?_ ?_
        · intro x
          simp only [List.mem_append, List.mem_singleton, h1]
          constructor
          · rintro (⟨t, ht, hx⟩ | hx)
            · exact ⟨t, Or.inl ht, hx⟩
            · exact ⟨_, Or.inr rfl, hx⟩
          · rintro ⟨t, ht | rfl, hx⟩
            · exact Or.inl ⟨t, ht, hx⟩
            · exact Or.inr hx
        · intro t ht
          rcases List.mem_append.1 ht with ht | ht
          · exact h2 t ht
          · simp only [List.mem_singleton] at ht
            exact ⟨w, hwall, ht⟩
        · rw [List.pairwise_append]
          refine ⟨h3, by simp, ?_⟩
          intro t ht t' ht' x hx hx'
          simp only [List.mem_singleton] at ht'
          subst ht'
          obtain ⟨v, hv, rfl⟩ := h2 t ht
          have e1 := (C37_members all v n hn x).1 hx
          have e2 := (C37_members all w n hn x).1 hx'
          have e3 := (hback w x hwall e2).2
          exact hw ((h1 w).2 ⟨_, ht, (C37_members all v n hn w).2 (e1.trans e3)⟩)
  exact key all (fun _ h => h) ([], []) (by simp) (by simp) (by simp)

/-! ## Examples -/

/-- Two trains of three and one wagons, with a stop in front of the first. -/
def exColl : Coll :=
  { wagons := [exWagonD, exWagonC, exWagonB, exWagonA]
    stops := [⟨⟨-2, 17⟩, 8, some "Iron"⟩, ⟨⟨-2, 17⟩, 4, some "Coal"⟩, ⟨⟨2, -3⟩, 0, none⟩]
    typeOf := fun u => if u = 2 then "cargo-wagon" else "locomotive"
    nameOf := fun u => if u = 2 then "cargo-wagon" else "locomotive"
    scheds := [⟨[4], 7⟩, ⟨[1, 3], 8⟩] }

/-- No restriction. -/
def exAll : Query := ⟨none, none, .off, none, none, none, none, false, none⟩

/-- Trains of at least two cars with exactly one wagon, halted at a stop called Iron or Copper, following the second schedule. -/
def exQuery : Query := { exAll with length := some (.between (some 2) none), station := .names ["Copper", "Iron"], numType := some [("cargo-wagon", .exact 1)], schedule := some 8 }

example : allTrains exColl.wagons 5 = [[exWagonD], [exWagonC, exWagonB, exWagonA]] := by decide +kernel

theorem exQuery_fit : ∀ t ∈ allTrains exColl.wagons 5, Fit exColl exQuery t := by
  have h : allTrains exColl.wagons 5 = [[exWagonD], [exWagonC, exWagonB, exWagonA]] := by decide +kernel
  rw [h]
  intro t ht
  simp only [List.mem_cons, List.not_mem_nil, or_false] at ht
  rcases ht with rfl | rfl
  · refine ⟨fun o ho => by simp [exQuery, exAll] at ho, fun _ => ⟨by decide, ⟨exWagonD, rfl, Or.inl rfl⟩, by decide +kernel⟩,
      fun _ => ⟨⟨exWagonD, by simp, by decide⟩, by decide +kernel⟩⟩
  · refine ⟨fun o ho => by simp [exQuery, exAll] at ho, fun _ => ⟨by decide, ⟨exWagonC, rfl, Or.inr (Or.inr (Or.inl rfl))⟩, by decide +kernel⟩,
      fun _ => ⟨⟨exWagonA, by simp, by decide⟩, by decide +kernel⟩⟩

example : findTrains exColl 5 exQuery = .ok [[exWagonC, exWagonB, exWagonA]] := by decide +kernel

example : findTrains exColl 5 { exQuery with invert := true } = .ok [[exWagonD]] := by decide +kernel

example : findTrains exColl 5 { exAll with limit := some 1 } = .ok [[exWagonD]] := by decide +kernel

/-- Coupling goes both ways in this layout. -/
example : ∀ a ∈ exColl.wagons, ∀ b ∈ exColl.wagons, Coupled PointsAlong exColl.wagons a b → Coupled PointsAlong exColl.wagons b a := by
  intro a ha b hb
  rw [coupled_iff, coupled_iff]
  revert b
  revert a
  decide +kernel

/-- C63 refuted: alignment is not symmetric for turned wagons, and a wagon can be in two trains. -/
theorem C63_disjoint_refuted : ∃ all : List Wagon, all.Nodup ∧ ∀ n, all.length < n → ¬ (allTrains all n).Pairwise fun t t' => ∀ x, x ∈ t → x ∉ t' := by
  refine ⟨[⟨2, ⟨0, -34/5⟩, 9/20, ⟨3/10, 19/20⟩, true⟩, ⟨1, ⟨0, 0⟩, 1/20, ⟨3/10, -19/20⟩, true⟩], by decide +kernel, ?_⟩
  intro n hn
  have he : ∀ (all : List Wagon) (n m : ℕ), all.length < n → all.length < m → allTrains all n = allTrains all m := by
    intro all n m hn hm
    unfold allTrains
    congr 2
    funext st w
    rw [C37_terminates all w n m hn hm]
  rw [he _ n 3 hn (by decide)]
  decide +kernel

/-- C63 refuted: with a schedule in the query, a train without a locomotive is not passed over: the search raises an error. -/
theorem C63_schedule_refuted : ∃ (c : Coll) (q : Query), q.schedule = some 8 ∧
    (∃ t ∈ allTrains c.wagons 5, Matches c q t) ∧ findTrains c 5 q = .error .unboundLocal := by
  refine ⟨{ exColl with typeOf := fun u => if u = 4 then "cargo-wagon" else "locomotive" }, { exAll with schedule := some 8 }, rfl, ?_, by decide +kernel⟩
  refine ⟨[exWagonC, exWagonB, exWagonA], by decide +kernel, ?_⟩
  refine ⟨by intro r hr; simp [exAll] at hr, by intro h; simp [exAll] at h, by intro r hr; simp [exAll] at hr, by intro r hr; simp [exAll] at hr,
    by intro r hr; simp [exAll] at hr, by intro r hr; simp [exAll] at hr, by intro r hr; simp [exAll] at hr, ?_⟩
  intro n hn
  simp only [Option.some.injEq] at hn
  subst hn
  exact ⟨⟨[1, 3], 8⟩, by simp [exColl], rfl, exWagonA, by simp, by decide, by simp [exWagonA]⟩

/-- C63 refuted: orientations are compared as numbers, so that one and a quarter turns differ from a quarter turn. -/
theorem C63_orientation_refuted : ∃ (c : Coll) (q : Query), (∃ t ∈ allTrains c.wagons 5, Matches c q t) ∧ findTrains c 5 q = .ok [] := by
  refine ⟨exColl, { exAll with orientation := some 1, numType := some [("cargo-wagon", .exact 0)] }, ?_, by decide +kernel⟩
  refine ⟨[exWagonD], by decide +kernel, ?_⟩
  refine ⟨by intro r hr; simp [exAll] at hr, by intro h; simp [exAll] at h, by intro r hr; simp [exAll] at hr, ?_,
    by intro r hr; simp [exAll] at hr, ?_, by intro r hr; simp [exAll] at hr, by intro r hr; simp [exAll] at hr⟩
  · intro d hd e he
    simp only [Option.some.injEq] at hd
    subst hd
    simp only [List.mem_singleton] at he
    subst he
    rw [← inRange_iff]
    decide +kernel
  · intro o ho w hw
    simp only [Option.some.injEq] at ho
    subst ho
    simp only [List.mem_singleton] at hw
    subst hw
    exact ⟨-1, by simp [exWagonD]⟩

/-- C63 refuted: with an empty set of stop names every train is returned, though none is at such a stop. -/
theorem C63_names_refuted : ∃ (c : Coll) (q : Query), (∀ t, ¬ Matches c q t) ∧ findTrains c 5 q = .ok [[exWagonD], [exWagonC, exWagonB, exWagonA]] := by
  refine ⟨exColl, { exAll with station := .names [] }, ?_, by decide +kernel⟩
  intro t h
  obtain ⟨w, -, s, -, -, hs⟩ := h.names [] rfl
  simp at hs

/-- C63 refuted: asked for trains at a stop, the search raises an error when the head of some other train points a little to the left of north. -/
theorem C63_head_refuted : ∃ (c : Coll) (q : Query), q.station = .any ∧ (∃ t ∈ allTrains c.wagons 5, ∃ w, t.head? = some w ∧ ∃ s ∈ c.stops, Halts w s) ∧
    findTrains c 5 q = .error .valueError := by
  refine ⟨{ exColl with wagons := [exWagonA, ⟨9, ⟨50, 50⟩, 15/16, ⟨-3/8, -12/13⟩, true⟩] }, { exAll with station := .any }, rfl, ?_, by decide +kernel⟩
  exact ⟨[exWagonA], by decide +kernel, exWagonA, rfl, ⟨⟨2, -3⟩, 0, none⟩, by simp [exColl], Or.inl ⟨rfl, by decide +kernel, rfl⟩⟩

end TrainSearch
end Draftsman
