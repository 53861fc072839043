import Verif.Model.Power
import Mathlib.Data.List.Nodup
import Mathlib.Data.List.Count
import Mathlib.Data.Rat.Defs
import Mathlib.Tactic.Ring
import Mathlib.Tactic.Linarith
import Mathlib.Algebra.Order.Ring.Rat
/-
C62: automatic copper wires.
-/
namespace Draftsman
namespace Power

/-- Two poles that the method should join: different ones, no further apart than either reaches and, if asked for, in one row or column. -/
def Reachable (onlyAxis : Bool) (p q : Pole) : Prop :=
  p.el.uid ≠ q.el.uid ∧ (0 ≤ p.reach ∧ 0 ≤ q.reach) ∧
    (p.pos.x - q.pos.x) ^ 2 + (p.pos.y - q.pos.y) ^ 2 ≤ p.reach ^ 2 ∧ (p.pos.x - q.pos.x) ^ 2 + (p.pos.y - q.pos.y) ^ 2 ≤ q.reach ^ 2 ∧
    (onlyAxis = true → p.pos.x = q.pos.x ∨ p.pos.y = q.pos.y)

/-- The poles are different entities of the collection that take copper wires, with a place and a reach. -/
structure Poles (c : WColl) (poles : List Pole) : Prop where
  nodup : (poles.map (·.el.uid)).Nodup
  inside : ∀ p ∈ poles, p.el ∈ c.members
  power : ∀ p ∈ poles, c.power p.el.uid = true
  pos : ∀ p ∈ poles, c.pos p.el.uid = p.pos
  kind : ∀ p ∈ poles, c.kind p.el.uid = .pole
  reach : ∀ p ∈ poles, (c.proto p.el.uid).bind (·.maximum) = some p.reach

/-- What is used of one pole. -/
def Usable (c : WColl) (p : Pole) : Prop :=
  p.el ∈ c.members ∧ c.power p.el.uid = true ∧ c.pos p.el.uid = p.pos ∧ powerReach (c.kind p.el.uid) (c.proto p.el.uid) = .ok (some p.reach)

theorem Poles.usable {c : WColl} {poles : List Pole} (h : Poles c poles) (p : Pole) (hp : p ∈ poles) : Usable c p := by
  refine ⟨h.inside p hp, h.power p hp, h.pos p hp, ?_⟩
  have hr := h.reach p hp
  unfold powerReach
  rw [h.kind p hp, if_neg (by decide)]
  cases hc : c.proto p.el.uid with
  | none => rw [hc] at hr; cases hr
  | some q =>
    rw [hc] at hr
    dsimp only at hr ⊢
    rw [show q.maximum = some p.reach from hr]

theorem connectable_iff (o : Bool) (p q : Pole) : connectable o p q = true ↔ Reachable o p q := by
  unfold connectable Reachable
  simp only
  by_cases h1 : q.el.uid = p.el.uid
  · simp [h1]
  · rw [if_neg h1]
    have h1' : p.el.uid ≠ q.el.uid := fun h => h1 h.symm
    have hd : dist2 p q = (p.pos.x - q.pos.x) ^ 2 + (p.pos.y - q.pos.y) ^ 2 := by unfold dist2; ring
    have hm : (0 ≤ min p.reach q.reach ∧ dist2 p q ≤ min p.reach q.reach * min p.reach q.reach) ↔
        (0 ≤ p.reach ∧ 0 ≤ q.reach) ∧ (p.pos.x - q.pos.x) ^ 2 + (p.pos.y - q.pos.y) ^ 2 ≤ p.reach ^ 2 ∧
          (p.pos.x - q.pos.x) ^ 2 + (p.pos.y - q.pos.y) ^ 2 ≤ q.reach ^ 2 := by
      rw [hd]
      rcases le_total p.reach q.reach with h | h
      · rw [min_eq_left h]
        constructor
        · rintro ⟨a, b⟩
          refine ⟨⟨a, le_trans a h⟩, by rw [sq p.reach]; exact b, le_trans b ?_⟩
          rw [sq q.reach]
          exact mul_le_mul h h a (le_trans a h)
        · rintro ⟨⟨a, -⟩, b, -⟩
          exact ⟨a, by rw [sq p.reach] at b; exact b⟩
      · rw [min_eq_right h]
        constructor
        · rintro ⟨a, b⟩
          refine ⟨⟨le_trans a h, a⟩, le_trans b ?_, by rw [sq q.reach]; exact b⟩
          rw [sq p.reach]
          exact mul_le_mul h h a (le_trans a h)
        · rintro ⟨⟨-, a⟩, -, b⟩
          exact ⟨a, by rw [sq q.reach] at b; exact b⟩
    split
    · rename_i h2
      simp only [onAxis, Bool.and_eq_true, Bool.not_eq_true', Bool.or_eq_false_iff, decide_eq_false_iff_not] at h2
      constructor
      · intro h; simp at h
      · rintro ⟨-, -, -, -, h⟩
        rcases h h2.2 with h | h
        · exact absurd h h2.1.1
        · exact absurd h h2.1.2
    · rename_i h2
      rw [Bool.and_eq_true, decide_eq_true_iff, decide_eq_true_iff, hm]
      constructor
      · rintro ⟨a, b, c⟩
        refine ⟨h1', a, b, c, ?_⟩
        intro ho
        subst ho
        simp only [onAxis, Bool.and_true, Bool.not_eq_true', Bool.or_eq_false_iff, decide_eq_false_iff_not, not_and_or, not_not] at h2
        exact h2
      · rintro ⟨-, a, b, c, -⟩
        exact ⟨a, b, c⟩

theorem Reachable.symm {o : Bool} {p q : Pole} (h : Reachable o p q) : Reachable o q p := by
  obtain ⟨a, b, c, d, e⟩ := h
  refine ⟨Ne.symm a, b.symm, ?_, ?_, fun ho => (e ho).imp Eq.symm Eq.symm⟩
  · nlinarith [d]
  · nlinarith [c]

theorem insertBy_perm (le : Pole → Pole → Bool) (a : Pole) (l : List Pole) : (insertBy le a l).Perm (a :: l) := by
  induction l with
  | nil => exact List.Perm.refl _
  | cons b r ih =>
    unfold insertBy
    split
    · exact List.Perm.refl _
    · exact (List.Perm.cons b ih).trans (List.Perm.swap a b r)

theorem sortBy_perm (le : Pole → Pole → Bool) (l : List Pole) : (sortBy le l).Perm l := by
  induction l with
  | nil => exact List.Perm.refl _
  | cons a r ih => exact (insertBy_perm le a _).trans (ih.cons a)

theorem insertBy_pairwise {le : Pole → Pole → Bool} {R : Pole → Pole → Prop} (htot : ∀ a b, le a b = true ∨ le b a = true)
    (htrans : ∀ a b c, le a b = true → le b c = true → le a c = true) (a : Pole) (l : List Pole) (hR : ∀ b ∈ l, R a b)
    (hl : l.Pairwise fun a b => le a b = true ∧ (le b a = true → R a b)) :
    (insertBy le a l).Pairwise fun a b => le a b = true ∧ (le b a = true → R a b) := by
  induction l with
  | nil => simp [insertBy]
  | cons b r ih =>
    rw [List.pairwise_cons] at hl
    unfold insertBy
    split
    · rename_i hab
      rw [List.pairwise_cons, List.pairwise_cons]
      refine ⟨?_, hl⟩
      intro x hx
      refine ⟨?_, fun _ => hR x hx⟩
      rcases List.mem_cons.1 hx with rfl | hx
      · exact hab
      · exact htrans _ _ _ hab (hl.1 x hx).1
    · rename_i hab
      rw [List.pairwise_cons]
      refine ⟨?_, ih (fun x hx => hR x (List.mem_cons_of_mem _ hx)) hl.2⟩
      intro x hx
      rcases List.mem_cons.1 ((insertBy_perm le a r).mem_iff.1 hx) with rfl | hx
      · exact ⟨(htot b x).resolve_right hab, fun h => absurd h hab⟩
      · exact hl.1 x hx

theorem sortBy_pairwise {le : Pole → Pole → Bool} {R : Pole → Pole → Prop} (htot : ∀ a b, le a b = true ∨ le b a = true)
    (htrans : ∀ a b c, le a b = true → le b c = true → le a c = true) (l : List Pole) (hR : l.Pairwise R) :
    (sortBy le l).Pairwise fun a b => le a b = true ∧ (le b a = true → R a b) := by
  induction l with
  | nil => simp [sortBy]
  | cons a r ih =>
    rw [List.pairwise_cons] at hR
    exact insertBy_pairwise htot htrans a _ (fun b hb => hR.1 b ((sortBy_perm le r).mem_iff.1 hb)) (ih hR.2)

theorem candidates_perm (poles : List Pole) (pa oa : Bool) (p : Pole) : (candidates poles pa oa p).Perm (poles.filter (connectable oa p)) := by
  unfold candidates
  simp only
  split
  · exact (sortBy_perm _ _).trans (sortBy_perm _ _)
  · exact sortBy_perm _ _

theorem connectAll_ok (oa : Bool) (p : Pole) : ∀ (qs : List Pole) (c : WColl), Usable c p → (∀ q ∈ qs, Usable c q ∧ connectable oa p q = true) →
    connectAll p qs c = .ok ({ c with wires := c.wires ++ qs.map fun q => ⟨p.el.uid, 5, q.el.uid, 5⟩ }, []) := by
  have hhas : ∀ (c : WColl) (e : EL), e ∈ c.members → c.has e = true := by
    intro c e he
    unfold WColl.has
    rw [List.any_eq_true]
    exact ⟨e, he, by simp [EL.eqv]⟩
  intro qs
  induction qs with
  | nil => intro c _ _; simp [connectAll]
  | cons q qs ih =>
    intro c hp h3
    obtain ⟨hq, hc⟩ := h3 q List.mem_cons_self
    have hw : c.distanceWarn p.el.uid q.el.uid (min p.reach q.reach) = [] := by
      rw [WColl.distanceWarn, hp.2.2.1, hq.2.2.1, WColl.tooFar]
      unfold connectable at hc
      split at hc
      · cases hc
      · split at hc
        · cases hc
        · dsimp only at hc
          rw [dist2] at hc
          rw [hc]
          rfl
    simp only [connectAll, WColl.addPower, hhas c _ hp.1, hhas c _ hq.1, WColl.powerSide, hp.2.1, hq.2.1, hp.2.2.2, hq.2.2.2, WColl.minReach, hw]
    have := ih { c with wires := c.wires ++ [⟨p.el.uid, 5, q.el.uid, 5⟩] } hp (fun q' hq' => h3 q' (List.mem_cons_of_mem _ hq'))
    simp only [Bool.not_true, Bool.false_eq_true, if_false, if_true]
    rw [this]
    simp [Except.map]

theorem loop_ok (poles : List Pole) (pa oa : Bool) : ∀ (ps : List Pole) (c : WColl), (∀ p ∈ ps, p ∈ poles) → (∀ p ∈ poles, Usable c p) →
    loop poles pa oa ps c =
      .ok ({ c with wires := c.wires ++ ps.flatMap fun p => (candidates poles pa oa p).reverse.map fun q => ⟨p.el.uid, 5, q.el.uid, 5⟩ }, []) := by
  intro ps
  induction ps with
  | nil => intro c _ _; simp [loop]
  | cons p ps ih =>
    intro c h1 h2
    have hp := h2 p (h1 p List.mem_cons_self)
    have hc := connectAll_ok oa p (candidates poles pa oa p).reverse c hp (by
      intro q hq
      rw [List.mem_reverse, (candidates_perm poles pa oa p).mem_iff, List.mem_filter] at hq
      exact ⟨h2 q hq.1, hq.2⟩)
    simp only [loop, hc]
    have hrec := ih { c with wires := c.wires ++ (candidates poles pa oa p).reverse.map fun q => ⟨p.el.uid, 5, q.el.uid, 5⟩ }
      (fun q hq => h1 q (List.mem_cons_of_mem _ hq)) h2
    rw [hrec]
    simp [Except.map]

/-- C62: it succeeds, keeps what there was, and joins exactly the pairs of poles in each other's reach (on the same axis, if so asked); nothing else of the
collection changes, and there are no warnings.  Missing: that a pair is joined once, that poles stay below five wires, that the nearest come first. -/
theorem C62_joined_partial (c : WColl) (poles : List Pole) (pa oa : Bool) (h : Poles c poles) :
    ∃ new, generate c poles pa oa = .ok ({ c with wires := c.wires ++ new }, []) ∧
      ∀ w, w ∈ new ↔ ∃ p ∈ poles, ∃ q ∈ poles, Reachable oa p q ∧ w = ⟨p.el.uid, 5, q.el.uid, 5⟩ := by
  refine ⟨_, loop_ok poles pa oa poles c (fun _ h => h) h.usable, ?_⟩
  intro w
  simp only [List.mem_flatMap, List.mem_map, List.mem_reverse, (candidates_perm _ _ _ _).mem_iff, List.mem_filter, connectable_iff]
  constructor
  · rintro ⟨p, hp, q, ⟨hq, hr⟩, rfl⟩; exact ⟨p, hp, q, hq, hr, rfl⟩
  · rintro ⟨p, hp, q, hq, hr, rfl⟩; exact ⟨p, hp, q, ⟨hq, hr⟩, rfl⟩

theorem sum_ite (poles : List Pole) (u : ℕ) : (poles.map fun a => if a.el.uid = u then 1 else 0).sum = (poles.map (·.el.uid)).count u := by
  induction poles with
  | nil => rfl
  | cons p ps ih =>
    simp only [List.map_cons, List.sum_cons, ih, List.count_cons, beq_iff_eq]
    omega

/-- C62: what is added for one pair: one wire each way, so every pair of poles in reach is joined by exactly two wires. -/
theorem C62_twice (c : WColl) (poles : List Pole) (pa oa : Bool) (h : Poles c poles) (p q : Pole) (hp : p ∈ poles) (hq : q ∈ poles) (hr : Reachable oa p q) :
    ∃ new, generate c poles pa oa = .ok ({ c with wires := c.wires ++ new }, []) ∧
      new.count ⟨p.el.uid, 5, q.el.uid, 5⟩ = 1 ∧ new.count ⟨q.el.uid, 5, p.el.uid, 5⟩ = 1 := by
  refine ⟨_, loop_ok poles pa oa poles c (fun _ h => h) h.usable, ?_⟩
  have key : ∀ p q : Pole, p ∈ poles → q ∈ poles → Reachable oa p q →
      (poles.flatMap fun p => (candidates poles pa oa p).reverse.map fun q => (⟨p.el.uid, 5, q.el.uid, 5⟩ : Wire)).count ⟨p.el.uid, 5, q.el.uid, 5⟩ = 1 := by
    intro p q hp hq hr
    rw [List.count_flatMap]
    have inj : ∀ a ∈ poles, ∀ b ∈ poles, a.el.uid = b.el.uid → a = b := fun a ha b hb => List.inj_on_of_nodup_map h.nodup ha hb
    have hnd : poles.Nodup := List.Nodup.of_map _ h.nodup
    have hin : ∀ a ∈ poles, ((candidates poles pa oa a).reverse.map fun q => (⟨a.el.uid, 5, q.el.uid, 5⟩ : Wire)).count ⟨p.el.uid, 5, q.el.uid, 5⟩ =
        if a.el.uid = p.el.uid then 1 else 0 := by
      intro a ha
      split
      · rename_i hap
        have hap := inj a ha p hp hap
        subst hap
        have hndm : ((candidates poles pa oa a).reverse.map fun q => (⟨a.el.uid, 5, q.el.uid, 5⟩ : Wire)).Nodup := by
          have hm : ∀ x ∈ (candidates poles pa oa a).reverse, x ∈ poles := by
            intro x hx
            rw [List.mem_reverse, (candidates_perm poles pa oa a).mem_iff, List.mem_filter] at hx
            exact hx.1
          refine List.Nodup.map_on ?_ ?_
          · intro x hx y hy hxy
            simp only [Wire.mk.injEq, true_and, and_true] at hxy
            exact inj x (hm x hx) y (hm y hy) hxy
          · rw [List.nodup_reverse, (candidates_perm poles pa oa a).nodup_iff]
            exact hnd.filter _
        apply List.count_eq_one_of_mem hndm
        rw [List.mem_map]
        refine ⟨q, ?_, rfl⟩
        rw [List.mem_reverse, (candidates_perm poles pa oa a).mem_iff, List.mem_filter, connectable_iff]
        exact ⟨hq, hr⟩
      · rename_i hap
        apply List.count_eq_zero_of_not_mem
        rw [List.mem_map]
        rintro ⟨x, -, hx⟩
        simp only [Wire.mk.injEq] at hx
        exact hap hx.1
    have hmap : (poles.map (List.count (⟨p.el.uid, 5, q.el.uid, 5⟩ : Wire) ∘ fun a => (candidates poles pa oa a).reverse.map fun q => (⟨a.el.uid, 5, q.el.uid, 5⟩ : Wire))) =
        poles.map fun a => if a.el.uid = p.el.uid then 1 else 0 := by
      apply List.map_congr_left
      intro a ha
      exact hin a ha
    rw [hmap, sum_ite]
    exact List.count_eq_one_of_mem h.nodup (List.mem_map_of_mem hp)
  exact ⟨key p q hp hq hr, key q p hq hp hr.symm⟩

/-- C62: the order of what is added: pole by pole, and for each pole the farthest first; with `prefer_axis`, those off the axes first, and among these and
among the others the farthest first. -/
theorem C62_order (c : WColl) (poles : List Pole) (pa oa : Bool) (h : Poles c poles) :
    ∃ near : Pole → List Pole, generate c poles pa oa =
        .ok ({ c with wires := c.wires ++ poles.flatMap (fun p => (near p).map fun q => ⟨p.el.uid, 5, q.el.uid, 5⟩) }, []) ∧
      ∀ p ∈ poles, (∀ q, q ∈ near p ↔ q ∈ poles ∧ Reachable oa p q) ∧
        (near p).Pairwise fun q r =>
          (pa = true → (q.pos.x = p.pos.x ∨ q.pos.y = p.pos.y) → (r.pos.x = p.pos.x ∨ r.pos.y = p.pos.y)) ∧
          ((pa = false ∨ ((q.pos.x = p.pos.x ∨ q.pos.y = p.pos.y) ↔ (r.pos.x = p.pos.x ∨ r.pos.y = p.pos.y))) →
            (r.pos.x - p.pos.x) ^ 2 + (r.pos.y - p.pos.y) ^ 2 ≤ (q.pos.x - p.pos.x) ^ 2 + (q.pos.y - p.pos.y) ^ 2) := by
  refine ⟨fun p => (candidates poles pa oa p).reverse, loop_ok poles pa oa poles c (fun _ h => h) h.usable, ?_⟩
  intro p hp
  have hsq : ∀ q, dist2 q p = (q.pos.x - p.pos.x) ^ 2 + (q.pos.y - p.pos.y) ^ 2 := fun q => by unfold dist2; ring
  have hax : ∀ q, onAxis q p = true ↔ q.pos.x = p.pos.x ∨ q.pos.y = p.pos.y := fun q => by simp [onAxis]
  constructor
  · intro q
    rw [List.mem_reverse, (candidates_perm poles pa oa p).mem_iff, List.mem_filter, connectable_iff]
  · rw [List.pairwise_reverse]
    have h1 := sortBy_pairwise (le := fun a b => decide (dist2 a p ≤ dist2 b p)) (R := fun _ _ => True) (by
        intro a b; simp only [decide_eq_true_iff]; exact le_total _ _) (by
        intro a b c h1 h2; simp only [decide_eq_true_iff] at *; exact le_trans h1 h2) (poles.filter (connectable oa p))
        (List.pairwise_iff_forall_sublist.2 fun _ => trivial)
    unfold candidates
    simp only
    cases pa with
    | false =>
      simp only [Bool.false_eq_true, if_false]
      refine h1.imp ?_
      intro a b hab
      have := of_decide_eq_true hab.1
      rw [hsq, hsq] at this
      exact ⟨fun h => h.elim, fun _ => this⟩
    | true =>
      simp only [if_true]
      have h2 := sortBy_pairwise (le := fun a b => onAxis a p || !onAxis b p) (R := fun a b => dist2 a p ≤ dist2 b p) (by
        intro a b
        cases onAxis a p <;> cases onAxis b p <;> simp) (by
        intro a b c h1 h2
        revert h1 h2
        cases onAxis a p <;> cases onAxis b p <;> cases onAxis c p <;> simp) _ (h1.imp fun hab => of_decide_eq_true hab.1)
      refine h2.imp ?_
      intro a b hab
      rw [hsq, hsq] at hab
      refine ⟨fun _ hb => ?_, fun heq => hab.2 ?_⟩
      · rw [← hax] at hb ⊢
        simpa [hb] using hab.1
      · rw [← hax, ← hax] at heq
        simp only [Bool.true_eq_false, false_or] at heq
        cases ha : onAxis a p <;> cases hb : onAxis b p <;> simp_all

/-- Three poles in a row, two tiles apart, that reach four tiles, and one off the row. -/
def C62_poles : List Pole := [⟨⟨0, none, some 0⟩, ⟨0, 0⟩, 4⟩, ⟨⟨1, none, some 1⟩, ⟨2, 0⟩, 4⟩, ⟨⟨2, none, some 2⟩, ⟨4, 0⟩, 4⟩, ⟨⟨3, none, some 3⟩, ⟨1, 1⟩, 3 / 2⟩]

def C62_coll : WColl := ⟨C62_poles.map (·.el), fun _ => true, fun _ => false, [⟨0, 5, 2, 5⟩],
  fun u => ((C62_poles[u]?).map (·.pos)).getD ⟨0, 0⟩, fun _ => .pole, fun u => (C62_poles[u]?).map fun p => ⟨some p.reach, none, none⟩⟩

theorem C62_poles_ok : Poles C62_coll C62_poles := by
  refine ⟨by decide, ?_, fun _ _ => rfl, ?_, fun _ _ => rfl, ?_⟩
  · intro p hp
    exact List.mem_map_of_mem hp
  · simp [C62_poles, C62_coll]
  · simp [C62_poles, C62_coll]

example : Reachable false ⟨⟨0, none, some 0⟩, ⟨0, 0⟩, 4⟩ ⟨⟨3, none, some 3⟩, ⟨1, 1⟩, 3 / 2⟩ := by
  refine ⟨by decide, by norm_num, by norm_num, by norm_num, by simp⟩

/-- C62 fails: a pair that is joined already is joined again, and a pair is joined once each way. -/
theorem C62_again_refuted :
    ∃ c poles c', Poles c poles ∧ generate c poles true true = .ok (c', []) ∧ c'.wires = [⟨0, 5, 2, 5⟩, ⟨0, 5, 2, 5⟩, ⟨0, 5, 1, 5⟩, ⟨1, 5, 2, 5⟩, ⟨1, 5, 0, 5⟩,
      ⟨2, 5, 0, 5⟩, ⟨2, 5, 1, 5⟩] := by
  refine ⟨C62_coll, C62_poles, _, C62_poles_ok, loop_ok _ _ _ _ _ (fun _ h => h) C62_poles_ok.usable, ?_⟩
  decide +kernel

/-- Seven poles on one spot. -/
def C62_seven : List Pole := (List.range 7).map fun i => ⟨⟨i, none, some i⟩, ⟨0, 0⟩, 4⟩

/-- C62 fails for the limit of five connections, which is not looked at: of seven poles in reach of each other, each gets twelve wires. -/
theorem C62_limit_refuted :
    ∃ c poles c', Poles c poles ∧ generate c poles true false = .ok (c', []) ∧ ∀ p ∈ poles, (c'.wires.filter fun w => w.e1 = p.el.uid ∨ w.e2 = p.el.uid).length = 12 := by
  have h : Poles ⟨C62_seven.map (·.el), fun _ => true, fun _ => false, [], fun _ => ⟨0, 0⟩, fun _ => .pole, fun _ => some ⟨some 4, none, none⟩⟩ C62_seven := by
    refine ⟨by decide, fun p hp => List.mem_map_of_mem hp, fun _ _ => rfl, ?_, fun _ _ => rfl, ?_⟩ <;> intro p hp <;>
      obtain ⟨i, -, rfl⟩ := List.mem_map.1 hp <;> rfl
  refine ⟨_, C62_seven, _, h, loop_ok _ _ _ _ _ (fun _ h => h) h.usable, ?_⟩
  decide +kernel

end Power
end Draftsman
