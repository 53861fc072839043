import Verif.Model.Export
import Verif.Proof.Except
import Verif.Props.Group
import Mathlib.Data.List.Nodup
/-
C32, C33: export and import of references and positions.
-/
namespace Draftsman
open GHeap

namespace Bp

/-- `g` is the blueprint itself or a group nested in it. -/
def Holds (b : Bp) (g : ℕ) : Prop := g = b.root ∨ ∃ gs, Within b.heap b.root gs g ∧ (b.heap g).kind = .group

/-- `u` is an entity of the blueprint, at whatever depth. -/
def Member (b : Bp) (u : ℕ) : Prop := (b.heap u).kind = .entity ∧ ∃ gs, Within b.heap b.root gs u

/-- The containment structure is sound and the recursion bound suffices. -/
structure Sound (b : Bp) : Prop where
  wf : ∃ rank, Wf b.heap rank ∧ rank b.root < b.depth
  uid : ∀ u, (b.el u).uid = u

/-- No two different entities of the blueprint compare equal. -/
def Distinct (b : Bp) : Prop := ∀ u v, b.Member u → b.Member v → (b.el u).eqv (b.el v) = true → u = v

/-- Every wire anywhere in the blueprint and every schedule of the blueprint refers to live entities of the blueprint, and no schedule
of the blueprint is without locomotives. -/
structure Closed (b : Bp) : Prop where
  wires : ∀ g w, b.Holds g → w ∈ b.ws g → b.Member w.e1 ∧ b.alive w.e1 = true ∧ b.Member w.e2 ∧ b.alive w.e2 = true
  scheds : ∀ s ∈ b.scheds b.root, ∀ u ∈ s.locos, b.Member u ∧ b.alive u = true
  used : ∀ s ∈ b.scheds b.root, s.locos ≠ []

theorem mem_flat {b : Bp} (hs : b.Sound) (u : ℕ) : u ∈ b.flat ↔ b.Member u := by
  obtain ⟨rank, hwf, hr⟩ := hs.wf
  exact (C29_flatten b.heap rank hwf b.root b.depth hr).2 u

theorem flat_nodup {b : Bp} (hs : b.Sound) : b.flat.Nodup := by
  obtain ⟨rank, hwf, hr⟩ := hs.wf
  exact (C29_flatten b.heap rank hwf b.root b.depth hr).1

theorem mem_flatWires (h : GHeap) {rank : ℕ → ℕ} (hwf : Wf h rank) (ws : ℕ → List Wire) (n c : ℕ) (hn : rank c ≤ n) (w : Wire) :
    w ∈ flatWires h ws n (h c).children ↔ ∃ g, (∃ gs, Within h c gs g ∧ (h g).kind = .group) ∧ w ∈ ws g := by
  induction n generalizing c with
  | zero =>
    simp only [flatWires, List.not_mem_nil, false_iff]
    rintro ⟨g, ⟨gs, hw, -⟩, -⟩
    cases hw with
    | here hu => have := hwf.acyclic _ _ hu; omega
    | under hu _ _ => have := hwf.acyclic _ _ hu; omega
  | succ n ih =>
    simp only [flatWires, List.mem_flatMap]
    constructor
    · rintro ⟨u, hu, hw⟩
      have hr := hwf.acyclic c u hu
      by_cases hk : (h u).kind = .entity
      · rw [if_pos hk] at hw; simp at hw
      · rw [if_neg hk] at hw
        have hkg : (h u).kind = .group := by
          cases hk' : (h u).kind with
          | group => rfl
          | entity => exact absurd hk' hk
          | blueprint => exact absurd hk' (hwf.inner c u hu)
        rcases List.mem_append.1 hw with hw | hw
        · exact ⟨u, ⟨[], .here hu, hkg⟩, hw⟩
        · obtain ⟨g, ⟨gs, hg, hkg'⟩, hw⟩ := (ih u (by omega)).1 hw
          exact ⟨g, ⟨u :: gs, .under hu hkg hg, hkg'⟩, hw⟩
    · rintro ⟨g, ⟨gs, hg, hkg⟩, hw⟩
      cases hg with
      | here hu =>
        exact ⟨g, hu, by rw [if_neg (by rw [hkg]; decide)]; exact List.mem_append_left _ hw⟩
      | @under _ u _ gs hu hk hg =>
        have hr := hwf.acyclic c u hu
        refine ⟨u, hu, ?_⟩
        rw [if_neg (by rw [hk]; decide)]
        exact List.mem_append_right _ ((ih u (by omega)).2 ⟨g, ⟨gs, hg, hkg⟩, hw⟩)

theorem mem_allWires {b : Bp} (hs : b.Sound) (w : Wire) : w ∈ b.allWires ↔ ∃ g, b.Holds g ∧ w ∈ b.ws g := by
  obtain ⟨rank, hwf, hr⟩ := hs.wf
  rw [allWires, List.mem_append, mem_flatWires b.heap hwf b.ws b.depth b.root (by omega)]
  constructor
  · rintro (h | ⟨g, hg, hw⟩)
    · exact ⟨b.root, Or.inl rfl, h⟩
    · exact ⟨g, Or.inr hg, hw⟩
  · rintro ⟨g, rfl | hg, hw⟩
    · exact Or.inl hw
    · exact Or.inr ⟨g, hg, hw⟩

theorem number_none {b : Bp} (u : ℕ) : b.number u = none ↔ ∀ v ∈ b.flat, (b.el v).eqv (b.el u) = false := by
  simp [number, List.findIdx?_eq_none_iff]

theorem number_some {b : Bp} (hs : b.Sound) (hd : b.Distinct) (u : ℕ) (hu : b.Member u) : b.number u = some (b.flat.idxOf u + 1) := by
  have hm := (mem_flat hs u).2 hu
  have hlt := List.idxOf_lt_length_of_mem hm
  have : b.flat.findIdx? (fun v => (b.el v).eqv (b.el u)) = some (b.flat.idxOf u) := by
    rw [List.findIdx?_eq_some_iff_getElem]
    refine ⟨hlt, ?_, ?_⟩
    · rw [List.getElem_idxOf hlt]; simp [EL.eqv]
    · intro j hj hc
      have hje := hd _ _ ((mem_flat hs _).1 (List.getElem_mem (by omega))) hu hc
      have h2 : b.flat[b.flat.idxOf u]'hlt = u := List.getElem_idxOf hlt
      have := (flat_nodup hs).getElem_inj_iff.1 (hje.trans h2.symm)
      omega
  rw [number, this]; rfl

theorem expEnd_error {b : Bp} (u : ℕ) : (∃ e, b.expEnd u = .error e) ↔ b.alive u = false ∨ ∀ v ∈ b.flat, (b.el v).eqv (b.el u) = false := by
  rw [← number_none, expEnd]
  cases ha : b.alive u <;> cases hn : b.number u <;> simp

theorem expLoco_error {b : Bp} (u : ℕ) : (∃ e, b.expLoco u = .error e) ↔ b.alive u = false ∨ ∀ v ∈ b.flat, (b.el v).eqv (b.el u) = false := by
  rw [← number_none, expLoco]
  cases ha : b.alive u <;> cases hn : b.number u <;> simp

theorem expWire_error {b : Bp} (w : Wire) : (∃ e, b.expWire w = .error e) ↔ (∃ e, b.expEnd w.e1 = .error e) ∨ ∃ e, b.expEnd w.e2 = .error e := by
  rw [expWire]
  cases h1 : b.expEnd w.e1 <;> cases h2 : b.expEnd w.e2 <;> simp [bind, Except.bind, pure, Except.pure]

theorem expSched_error {b : Bp} (s : Sched) :
    (∃ e, b.expSched s = .error e) ↔ s.locos = [] ∨ ∃ u ∈ s.locos, ∃ e, b.expLoco u = .error e := by
  rw [← mapM_error_iff, expSched]
  by_cases h : s.locos = []
  · simp [h]
  rw [if_neg h]
  simp only [h, false_or]
  cases h1 : s.locos.mapM b.expLoco <;> simp [bind, Except.bind, pure, Except.pure]

/-- The lists behind a successful export. -/
theorem toDict_ok {b : Bp} {x : Exported} (h : b.toDict = .ok x) :
    ∃ ss ws, (b.scheds b.root).mapM b.expSched = .ok ss ∧ b.allWires.mapM b.expWire = .ok ws ∧
      x = ⟨orOmit (b.flat.mapIdx fun i u => (i + 1, u, b.heap.globalPos b.depth u - b.sgp)), orOmit (b.tiles.map fun t => (t.1, t.2 - b.sgp)),
        orOmit ss, orOmit (ws.foldl addNew []), vecOrOmit b.snap, vecOrOmit b.rel⟩ := by
  rw [toDict] at h
  cases h1 : (b.scheds b.root).mapM b.expSched with
  | error e => rw [h1] at h; simp [bind, Except.bind] at h
  | ok ss =>
    cases h2 : b.allWires.mapM b.expWire with
    | error e => rw [h1, h2] at h; simp [bind, Except.bind] at h
    | ok ws =>
      rw [h1, h2] at h
      simp only [bind, Except.bind, pure, Except.pure, Except.ok.injEq] at h
      exact ⟨ss, ws, rfl, rfl, h.symm⟩

theorem orOmit_getD {α : Type} (l : List α) : (orOmit l).getD [] = l := by
  cases l <;> simp [orOmit]

theorem foldl_addNew (l acc : List Wire) :
    ∃ r, l.foldl addNew acc = acc ++ r ∧ r.Sublist l ∧ (acc.Nodup → (acc ++ r).Nodup) ∧ ∀ w ∈ l, w ∈ acc ++ r := by
  induction l generalizing acc with
  | nil => exact ⟨[], by simp⟩
  | cons a t ih =>
    simp only [List.foldl_cons, addNew]
    by_cases ha : a ∈ acc
    · rw [if_pos ha]
      obtain ⟨r, h1, h2, h3, h4⟩ := ih acc
      refine ⟨r, h1, h2.cons a, h3, fun w hw => ?_⟩
      rcases List.mem_cons.1 hw with rfl | hw
      · exact List.mem_append_left _ ha
      · exact h4 w hw
    · rw [if_neg ha]
      obtain ⟨r, h1, h2, h3, h4⟩ := ih (acc ++ [a])
      refine ⟨a :: r, by rw [h1]; simp, h2.cons_cons a, fun hn => ?_, fun w hw => ?_⟩
      · have : (acc ++ [a]).Nodup := by
          rw [List.nodup_append]
          refine ⟨hn, by simp, ?_⟩
          intro x hx y hy
          simp only [List.mem_singleton] at hy
          subst hy
          intro e; exact ha (e ▸ hx)
        have := h3 this
        rwa [List.append_assoc, List.singleton_append] at this
      · rcases List.mem_cons.1 hw with rfl | hw
        · simp
        · have := h4 w hw
          rwa [List.append_assoc, List.singleton_append] at this

end Bp
open Bp

/-- In the exported dictionary the entity with number `k` is the one made from object `u`. -/
def Exported.Numbered (x : Exported) (k u : ℕ) : Prop := ∃ p, (k, u, p) ∈ x.entities.getD []

/-- C32: entities are numbered 1, 2, 3, … in depth-first order, every entity of the blueprint being there exactly once. -/
theorem C32_numbers (b : Bp) (hs : b.Sound) (x : Exported) (h : b.toDict = .ok x) :
    (x.entities.getD []).map (fun t => t.1) = List.range' 1 (x.entities.getD []).length ∧
    ((x.entities.getD []).map fun t => t.2.1) = b.flat ∧ b.flat.Nodup ∧ (∀ u, u ∈ b.flat ↔ b.Member u) := by
  obtain ⟨ss, ws, -, -, rfl⟩ := toDict_ok h
  refine ⟨?_, ?_, flat_nodup hs, mem_flat hs⟩
  · simp only [orOmit_getD]
    apply List.ext_getElem <;> simp [Nat.add_comm]
  · simp only [orOmit_getD]
    apply List.ext_getElem <;> simp

theorem numbered_iff {b : Bp} {x : Exported} (h : b.toDict = .ok x) (k u : ℕ) :
    x.Numbered k u ↔ ∃ i, b.flat[i]? = some u ∧ k = i + 1 := by
  obtain ⟨ss, ws, -, -, rfl⟩ := toDict_ok h
  simp only [Exported.Numbered, orOmit_getD, List.mem_mapIdx, Prod.mk.injEq]
  constructor
  · rintro ⟨p, i, hi, rfl, rfl, -⟩
    exact ⟨i, List.getElem?_eq_getElem hi, rfl⟩
  · rintro ⟨i, hi, rfl⟩
    obtain ⟨hi', he⟩ := List.getElem?_eq_some_iff.1 hi
    exact ⟨_, i, hi', rfl, he, rfl⟩

/-- C32: export fails exactly if a wire of the blueprint or of a group in it, or a schedule of the blueprint, refers to something that is
gone or that equals no entity of the blueprint, or a schedule of the blueprint has no locomotives. -/
theorem C32_outside (b : Bp) (hs : b.Sound) :
    (∃ e, b.toDict = .error e) ↔
      (∃ s ∈ b.scheds b.root, s.locos = [] ∨ ∃ u ∈ s.locos, b.alive u = false ∨ ∀ v, b.Member v → (b.el v).eqv (b.el u) = false) ∨
      ∃ g w, b.Holds g ∧ w ∈ b.ws g ∧
        ((b.alive w.e1 = false ∨ ∀ v, b.Member v → (b.el v).eqv (b.el w.e1) = false) ∨
          (b.alive w.e2 = false ∨ ∀ v, b.Member v → (b.el v).eqv (b.el w.e2) = false)) := by
  have e1 : (∃ e, (b.scheds b.root).mapM b.expSched = .error e) ↔
      (∃ s ∈ b.scheds b.root, s.locos = [] ∨ ∃ u ∈ s.locos, b.alive u = false ∨ ∀ v, b.Member v → (b.el v).eqv (b.el u) = false) := by
    rw [mapM_error_iff]
    simp only [expSched_error, expLoco_error, mem_flat hs]
  have e2 : (∃ e, b.allWires.mapM b.expWire = .error e) ↔
      ∃ g w, b.Holds g ∧ w ∈ b.ws g ∧
        ((b.alive w.e1 = false ∨ ∀ v, b.Member v → (b.el v).eqv (b.el w.e1) = false) ∨
          (b.alive w.e2 = false ∨ ∀ v, b.Member v → (b.el v).eqv (b.el w.e2) = false)) := by
    rw [mapM_error_iff]
    simp only [expWire_error, expEnd_error, mem_flat hs, mem_allWires hs]
    constructor
    · rintro ⟨w, ⟨g, hg, hw⟩, h⟩; exact ⟨g, w, hg, hw, h⟩
    · rintro ⟨g, w, hg, hw, h⟩; exact ⟨w, ⟨g, hg, hw⟩, h⟩
  rw [← e1, ← e2, toDict]
  cases h1 : (b.scheds b.root).mapM b.expSched <;> cases h2 : b.allWires.mapM b.expWire <;>
    simp [bind, Except.bind, pure, Except.pure]

/-- The numbers a wire and a schedule are exported with. -/
def numWire (b : Bp) (w : Wire) : Wire := ⟨b.flat.idxOf w.e1 + 1, w.t1, b.flat.idxOf w.e2 + 1, w.t2⟩

def numSched (b : Bp) (s : Sched) : Sched := ⟨s.locos.map fun u => b.flat.idxOf u + 1, s.rest⟩

theorem toDict_closed {b : Bp} (hs : b.Sound) (hd : b.Distinct) (hc : b.Closed) :
    ∃ x, b.toDict = .ok x ∧ x.schedules.getD [] = (b.scheds b.root).map (numSched b) ∧
      ∃ l : List Wire, l.Sublist b.allWires ∧ l.Nodup ∧ (∀ w ∈ b.allWires, w ∈ l) ∧ x.wires.getD [] = l.map (numWire b) := by
  have hend : ∀ u, b.Member u → b.alive u = true → b.expEnd u = .ok (b.flat.idxOf u + 1) ∧ b.expLoco u = .ok (b.flat.idxOf u + 1) := by
    intro u hu ha
    simp [expEnd, expLoco, ha, number_some hs hd u hu]
  have h1 : (b.scheds b.root).mapM b.expSched = .ok ((b.scheds b.root).map (numSched b)) := by
    apply mapM_ok_map
    intro s hsm
    rw [expSched, if_neg (hc.used s hsm), mapM_ok_map _ (fun u => b.flat.idxOf u + 1) _ (fun u hu => (hend u (hc.scheds s hsm u hu).1 (hc.scheds s hsm u hu).2).2)]
    rfl
  have hwm : ∀ w ∈ b.allWires, b.Member w.e1 ∧ b.alive w.e1 = true ∧ b.Member w.e2 ∧ b.alive w.e2 = true := by
    intro w hw
    obtain ⟨g, hg, hw⟩ := (mem_allWires hs w).1 hw
    exact hc.wires g w hg hw
  have h2 : b.allWires.mapM b.expWire = .ok (b.allWires.map (numWire b)) := by
    apply mapM_ok_map
    intro w hw
    obtain ⟨m1, a1, m2, a2⟩ := hwm w hw
    rw [expWire, (hend _ m1 a1).1, (hend _ m2 a2).1]
    rfl
  refine ⟨_, by rw [toDict, h1, h2]; rfl, by simp only [orOmit_getD], ?_⟩
  obtain ⟨r, r1, r2, r3, r4⟩ := foldl_addNew (b.allWires.map (numWire b)) []
  obtain ⟨l, l1, l2⟩ := List.sublist_map_iff.1 r2
  simp only [List.nil_append] at r1 r3 r4
  subst l2
  refine ⟨l, l1, List.Nodup.of_map _ (r3 List.nodup_nil), ?_, by simp only [orOmit_getD]; exact r1⟩
  intro w hw
  obtain ⟨w', hw', he⟩ := List.mem_map.1 (r4 _ (List.mem_map_of_mem hw))
  have hinj : ∀ u v, b.Member u → b.flat.idxOf u + 1 = b.flat.idxOf v + 1 → u = v := by
    intro u v hu h
    have hlt := List.idxOf_lt_length_of_mem ((mem_flat hs u).2 hu)
    have e : b.flat.idxOf u = b.flat.idxOf v := by omega
    have hlt' : b.flat.idxOf v < b.flat.length := e ▸ hlt
    have := List.getElem_idxOf hlt
    have h' := List.getElem_idxOf hlt'
    rw [← this, ← h']
    congr 1
  obtain ⟨m1, -, m2, -⟩ := hwm w' (l1.subset hw')
  obtain ⟨x1, x2, x3, x4⟩ := w
  obtain ⟨y1, y2, y3, y4⟩ := w'
  simp only [numWire, Wire.mk.injEq] at he
  obtain ⟨q1, q2, q3, q4⟩ := he
  have p1 := hinj _ _ m1 q1
  have p2 := hinj _ _ m2 q3
  simp only at p1 p2
  subst p1 p2 q2 q4
  exact hw'

theorem forall₂_map_right {α β : Type} (R : α → β → Prop) (f : α → β) (l : List α) (h : ∀ a ∈ l, R a (f a)) : List.Forall₂ R l (l.map f) := by
  induction l with
  | nil => exact .nil
  | cons a t ih => exact .cons (h a List.mem_cons_self) (ih fun x hx => h x (List.mem_cons_of_mem _ hx))

/-- C32: if no two entities compare equal, all references are to live entities of the blueprint and no schedule is without locomotives,
the exported wires are those of the blueprint and of its groups, in order and without repetitions, with the numbers of the right entities,
and so are the schedules of the blueprint.  Missing: entities that compare equal, schedules without locomotives, and the schedules of
groups. -/
theorem C32_references_partial (b : Bp) (hs : b.Sound) (hd : b.Distinct) (hc : b.Closed) :
    ∃ x, b.toDict = .ok x ∧
      (∃ l : List Wire, l.Sublist b.allWires ∧ l.Nodup ∧ (∀ g w, b.Holds g → w ∈ b.ws g → w ∈ l) ∧
        List.Forall₂ (fun w k => x.Numbered k.e1 w.e1 ∧ k.t1 = w.t1 ∧ x.Numbered k.e2 w.e2 ∧ k.t2 = w.t2) l (x.wires.getD [])) ∧
      List.Forall₂ (fun s k => List.Forall₂ (fun u n => x.Numbered n u) s.locos k.locos ∧ k.rest = s.rest)
        (b.scheds b.root) (x.schedules.getD []) := by
  obtain ⟨x, hx, hss, l, l1, l2, l3, l4⟩ := toDict_closed hs hd hc
  have hnum : ∀ u, b.Member u → x.Numbered (b.flat.idxOf u + 1) u := by
    intro u hu
    rw [numbered_iff hx]
    have hlt := List.idxOf_lt_length_of_mem ((mem_flat hs u).2 hu)
    exact ⟨_, List.getElem?_eq_some_iff.2 ⟨hlt, List.getElem_idxOf hlt⟩, rfl⟩
  refine ⟨x, hx, ⟨l, l1, l2, fun g w hg hw => l3 w ((mem_allWires hs w).2 ⟨g, hg, hw⟩), ?_⟩, ?_⟩
  · rw [l4]
    apply forall₂_map_right
    intro w hw
    obtain ⟨g, hg, hw⟩ := (mem_allWires hs w).1 (l1.subset hw)
    obtain ⟨m1, -, m2, -⟩ := hc.wires g w hg hw
    exact ⟨hnum _ m1, rfl, hnum _ m2, rfl⟩
  · rw [hss]
    apply forall₂_map_right
    intro s hsm
    exact ⟨forall₂_map_right _ _ _ fun u hu => hnum u (hc.scheds s hsm u hu).1, rfl⟩

theorem impRef_ok (ents : List ℕ) (i : ℕ) (hi : i < ents.length) : impRef ents (i + 1) = .ok ents[i] := by
  have : EList.pyIndex ents (((i + 1 : ℕ) : ℤ) - 1) = some i := by
    unfold EList.pyIndex
    rw [if_pos (by omega)]
    congr 1
    omega
  rw [impRef, this]
  simp [List.getElem?_eq_getElem hi]

/-- C32: importing what was exported restores the references: with the objects `ents` made from the exported entities in order, every
imported wire and schedule joins the copies of what the original joined. -/
theorem C32_reimport_partial (b : Bp) (hs : b.Sound) (hd : b.Distinct) (hc : b.Closed) (ents : List ℕ) (he : ents.length = b.flat.length) :
    ∃ x ss ws, b.toDict = .ok x ∧ impRefs x ents = .ok (ss, ws) ∧
      (∃ l : List Wire, l.Sublist b.allWires ∧ l.Nodup ∧ (∀ g w, b.Holds g → w ∈ b.ws g → w ∈ l) ∧
        List.Forall₂ (fun w k => (∃ i : ℕ, b.flat[i]? = some w.e1 ∧ ents[i]? = some k.e1) ∧ k.t1 = w.t1 ∧
          (∃ i : ℕ, b.flat[i]? = some w.e2 ∧ ents[i]? = some k.e2) ∧ k.t2 = w.t2) l ws) ∧
      List.Forall₂ (fun s k => List.Forall₂ (fun u n => ∃ i : ℕ, b.flat[i]? = some u ∧ ents[i]? = some n) s.locos k.locos ∧ k.rest = s.rest)
        (b.scheds b.root) ss := by
  obtain ⟨x, hx, hss, l, l1, l2, l3, l4⟩ := toDict_closed hs hd hc
  let σ : ℕ → ℕ := fun u => (ents[b.flat.idxOf u]?).getD 0
  have hlt : ∀ u, b.Member u → b.flat.idxOf u < b.flat.length := fun u hu => List.idxOf_lt_length_of_mem ((mem_flat hs u).2 hu)
  have hσ : ∀ u, b.Member u → impRef ents (b.flat.idxOf u + 1) = .ok (σ u) := by
    intro u hu
    have := hlt u hu
    rw [impRef_ok ents _ (by omega)]
    simp only [σ]
    rw [List.getElem?_eq_getElem (by omega)]
    rfl
  have hcor : ∀ u, b.Member u → ∃ i : ℕ, b.flat[i]? = some u ∧ ents[i]? = some (σ u) := by
    intro u hu
    have h := hlt u hu
    refine ⟨b.flat.idxOf u, List.getElem?_eq_some_iff.2 ⟨h, List.getElem_idxOf h⟩, ?_⟩
    simp only [σ]
    rw [List.getElem?_eq_getElem (by omega)]
    rfl
  have hlm : ∀ w ∈ l, b.Member w.e1 ∧ b.Member w.e2 := by
    intro w hw
    obtain ⟨g, hg, hw⟩ := (mem_allWires hs w).1 (l1.subset hw)
    exact ⟨(hc.wires g w hg hw).1, (hc.wires g w hg hw).2.2.1⟩
  have i1 : (x.schedules.getD []).mapM (impSched ents) = .ok ((b.scheds b.root).map fun s => ⟨s.locos.map σ, s.rest⟩) := by
    rw [hss, mapM_ok_iff, List.forall₂_map_left_iff]
    apply forall₂_map_right
    intro s hsm
    rw [impSched, numSched]
    have : (s.locos.map fun u => b.flat.idxOf u + 1).mapM (impRef ents) = .ok (s.locos.map σ) := by
      rw [mapM_ok_iff, List.forall₂_map_left_iff]
      exact forall₂_map_right _ _ _ fun u hu => hσ u (hc.scheds s hsm u hu).1
    simp only [this]
    rfl
  have i2 : (x.wires.getD []).mapM (impWire ents) = .ok (l.map fun w => ⟨σ w.e1, w.t1, σ w.e2, w.t2⟩) := by
    rw [l4, mapM_ok_iff, List.forall₂_map_left_iff]
    apply forall₂_map_right
    intro w hw
    rw [impWire, numWire]
    simp only [hσ _ (hlm w hw).1, hσ _ (hlm w hw).2]
    rfl
  refine ⟨x, _, _, hx, by rw [impRefs, i1, i2]; rfl, ⟨l, l1, l2, fun g w hg hw => l3 w ((mem_allWires hs w).2 ⟨g, hg, hw⟩), ?_⟩, ?_⟩
  · apply forall₂_map_right
    intro w hw
    exact ⟨hcor _ (hlm w hw).1, rfl, hcor _ (hlm w hw).2, rfl⟩
  · apply forall₂_map_right
    intro s hsm
    exact ⟨forall₂_map_right _ _ _ fun u hu => hcor u (hc.scheds s hsm u hu).1, rfl⟩

/-- The nested blueprint of C29 with wires in the blueprint and in a group, a schedule, a tile, and a grid offset. -/
def C32_bp : Bp where
  heap := C29_heap
  root := 0
  depth := 11
  el := fun u => ⟨u, none, some u⟩
  alive := fun _ => true
  ws := fun g => if g = 0 then [⟨4, 1, 1, 1⟩] else if g = 2 then [⟨4, 1, 1, 1⟩, ⟨1, 5, 4, 5⟩] else []
  scheds := fun g => if g = 0 then [⟨[4], 7⟩] else []
  tiles := [(1, ⟨3, 4⟩)]
  sgp := ⟨1, 2⟩
  snap := ⟨0, 0⟩
  rel := ⟨0, 5⟩

theorem C32_bp_ok : C32_bp.Sound ∧ C32_bp.Distinct ∧ C32_bp.Closed := by
  have h1 : C32_bp.Sound := ⟨⟨fun u => 10 - u, C29_heap_wf, by decide⟩, fun _ => rfl⟩
  refine ⟨h1, ?_, ?_, ?_, by decide⟩
  · intro u v _ _ h
    simp [C32_bp, EL.eqv] at h
    rcases h with h | h
    · exact of_decide_eq_true h
    · exact h
  · intro g w hg hw
    have m1 : C32_bp.Member 1 := ⟨rfl, [], .here (by decide)⟩
    have m4 : C32_bp.Member 4 := ⟨rfl, [2, 3], .under (by decide) rfl (.under (by decide) rfl (.here (by decide)))⟩
    simp only [C32_bp] at hw
    split at hw
    · simp only [List.mem_singleton] at hw; subst hw; exact ⟨m4, rfl, m1, rfl⟩
    · split at hw
      · simp only [List.mem_cons, List.not_mem_nil, or_false] at hw
        rcases hw with rfl | rfl
        · exact ⟨m4, rfl, m1, rfl⟩
        · exact ⟨m1, rfl, m4, rfl⟩
      · simp at hw
  · intro s hs u hu
    simp only [C32_bp, if_true, List.mem_singleton] at hs
    subst hs
    simp only [List.mem_singleton] at hu
    subst hu
    exact ⟨⟨rfl, [2, 3], .under (by decide) rfl (.under (by decide) rfl (.here (by decide)))⟩, rfl⟩

/-- C32 fails when two entities compare equal (here: same name and place, no ids): a wire to the second is exported as a wire to the
first. -/
theorem C32_twins_refuted :
    ∃ b : Bp, b.Sound ∧ b.Closed ∧ (⟨4, 1, 4, 3⟩ : Wire) ∈ b.ws b.root ∧
      ∃ x, b.toDict = .ok x ∧ x.Numbered 2 4 ∧ x.wires = some [⟨1, 1, 1, 3⟩] := by
  refine ⟨{ C32_bp with el := fun u => ⟨u, none, some 0⟩, ws := fun g => if g = 0 then [⟨4, 1, 4, 3⟩] else [] },
    ⟨C32_bp_ok.1.wf, fun _ => rfl⟩, ⟨?_, ?_, C32_bp_ok.2.2.used⟩, by decide, ?_⟩
  · intro g w hg hw
    simp only at hw
    split at hw
    · simp only [List.mem_singleton] at hw
      subst hw
      have m4 : C32_bp.Member 4 := ⟨rfl, [2, 3], .under (by decide) rfl (.under (by decide) rfl (.here (by decide)))⟩
      exact ⟨m4, rfl, m4, rfl⟩
    · simp at hw
  · exact C32_bp_ok.2.2.scheds
  · refine ⟨_, rfl, ?_, by decide +kernel⟩
    exact ⟨⟨11, 6⟩ - ⟨1, 2⟩, by decide +kernel⟩

/-- C32: a reference to an entity outside the blueprint goes unreported when it equals one inside. -/
theorem C32_outside_twin_refuted :
    ∃ b : Bp, b.Sound ∧ (⟨1, 1, 99, 1⟩ : Wire) ∈ b.ws b.root ∧ ¬ b.Member 99 ∧ ∃ x, b.toDict = .ok x ∧ x.wires = some [⟨1, 1, 2, 1⟩] := by
  refine ⟨{ C32_bp with el := fun u => ⟨u, none, some (if u = 99 then 4 else u)⟩, ws := fun g => if g = 0 then [⟨1, 1, 99, 1⟩] else [] },
    ⟨C32_bp_ok.1.wf, fun _ => rfl⟩, by decide, ?_, _, rfl, by decide +kernel⟩
  rintro hm
  have : (99 : ℕ) ∈ C32_bp.flat := (mem_flat C32_bp_ok.1 99).2 hm
  revert this
  decide +kernel

/-- C32 fails for the schedules of groups: they are not exported at all. -/
theorem C32_group_schedule_refuted :
    ∃ b : Bp, b.Sound ∧ b.Distinct ∧ b.Closed ∧ b.Holds 2 ∧ (⟨[4], 7⟩ : Sched) ∈ b.scheds 2 ∧ ∃ x, b.toDict = .ok x ∧ x.schedules = none := by
  refine ⟨{ C32_bp with scheds := fun g => if g = 2 then [⟨[4], 7⟩] else [] }, ⟨C32_bp_ok.1.wf, fun _ => rfl⟩, C32_bp_ok.2.1,
    ⟨C32_bp_ok.2.2.wires, by intro s hs; simp [C32_bp] at hs, by intro s hs; simp [C32_bp] at hs⟩, Or.inr ⟨[], .here (by decide), rfl⟩, by decide, _, rfl, by decide +kernel⟩

/-- C32 fails for a schedule no locomotive has, such as `set_train_schedule(train, None)` leaves behind: although nothing in the blueprint
refers to anything outside, the blueprint cannot be exported (`KeyError`). -/
theorem C32_unused_schedule_refuted :
    ∃ b : Bp, b.Sound ∧ b.Distinct ∧ (∀ g w, b.Holds g → w ∈ b.ws g → b.Member w.e1 ∧ b.alive w.e1 = true ∧ b.Member w.e2 ∧ b.alive w.e2 = true) ∧
      (∀ s ∈ b.scheds b.root, ∀ u ∈ s.locos, b.Member u ∧ b.alive u = true) ∧ (⟨[], 7⟩ : Sched) ∈ b.scheds b.root ∧
      b.toDict = .error .keyError := by
  refine ⟨{ C32_bp with scheds := fun g => if g = 0 then [⟨[4], 8⟩, ⟨[], 7⟩] else [] }, ⟨C32_bp_ok.1.wf, fun _ => rfl⟩, C32_bp_ok.2.1,
    C32_bp_ok.2.2.wires, ?_, by decide, by decide +kernel⟩
  intro s hs u hu
  simp only [C32_bp, if_true, List.mem_cons, List.not_mem_nil, or_false] at hs
  rcases hs with rfl | rfl
  · simp only [List.mem_singleton] at hu
    subst hu
    exact C32_bp_ok.2.2.scheds ⟨[4], 7⟩ (by decide) 4 (by decide)
  · cases hu

/-- C32: importing takes the wire number 0 for the last entity instead of reporting it. -/
theorem C32_zero_refuted : impRefs ⟨none, none, none, some [⟨0, 1, 1, 1⟩], none, none⟩ [10, 20, 30] = .ok ([], [⟨30, 1, 10, 1⟩]) := by
  decide

/-! ### C33 -/

/-- C33: every exported entity has its global position minus the grid position, and every tile its position minus the grid
position. -/
theorem C33_positions (b : Bp) (x : Exported) (h : b.toDict = .ok x) :
    ((x.entities.getD []).map fun t => t.2) = b.flat.map (fun u => (u, b.heap.globalPos b.depth u - b.sgp)) ∧
    x.tiles.getD [] = b.tiles.map (fun t => (t.1, t.2 - b.sgp)) := by
  obtain ⟨ss, ws, -, -, rfl⟩ := toDict_ok h
  simp only [orOmit_getD, and_true]
  apply List.ext_getElem <;> simp

/-- C33: snap keys are left out exactly when zero, the lists exactly when empty. -/
theorem C33_omitted (b : Bp) (hs : b.Sound) (x : Exported) (h : b.toDict = .ok x) :
    (x.snap = none ↔ b.snap.x = 0 ∧ b.snap.y = 0) ∧ (x.rel = none ↔ b.rel.x = 0 ∧ b.rel.y = 0) ∧
    (∀ v, x.snap = some v → v = b.snap) ∧ (∀ v, x.rel = some v → v = b.rel) ∧
    (x.entities = none ↔ ∀ u, ¬ b.Member u) ∧ (x.tiles = none ↔ b.tiles = []) ∧ (x.schedules = none ↔ b.scheds b.root = []) ∧
    (x.wires = none ↔ ∀ g, b.Holds g → b.ws g = []) := by
  obtain ⟨ss, ws, h1, h2, rfl⟩ := toDict_ok h
  have hv : ∀ v : Vec, vecOrOmit v = none ↔ v.x = 0 ∧ v.y = 0 := by
    intro v
    obtain ⟨a, c⟩ := v
    simp [vecOrOmit]
  have hv' : ∀ v w : Vec, vecOrOmit v = some w → w = v := by
    intro v w h
    simp only [vecOrOmit] at h
    split at h
    · simp at h
    · simpa using h.symm
  have ho : ∀ {α : Type} (l : List α), orOmit l = none ↔ l = [] := by
    intro α l
    cases l <;> simp [orOmit]
  have l1 := ((mapM_ok_iff _ _ _).1 h1).length_eq
  have l2 := ((mapM_ok_iff _ _ _).1 h2).length_eq
  refine ⟨hv _, hv _, hv' _, hv' _, ?_, ?_, ?_, ?_⟩
  · simp only [ho]
    rw [← List.length_eq_zero_iff, List.length_mapIdx, List.length_eq_zero_iff, List.eq_nil_iff_forall_not_mem]
    simp only [mem_flat hs]
  · simp only [ho, List.map_eq_nil_iff]
  · simp only [ho]
    rw [← List.length_eq_zero_iff, ← l1, List.length_eq_zero_iff]
  · simp only [ho]
    obtain ⟨r, r1, r2, -, r4⟩ := foldl_addNew ws []
    simp only [List.nil_append] at r1 r4
    rw [r1]
    have : r = [] ↔ ws = [] := by
      constructor
      · rintro rfl
        exact List.eq_nil_iff_forall_not_mem.2 fun w hw => by simpa using r4 w hw
      · rintro rfl
        simpa using r2
    rw [this, ← List.length_eq_zero_iff, ← l2, List.length_eq_zero_iff, List.eq_nil_iff_forall_not_mem]
    constructor
    · intro hn g hg
      exact List.eq_nil_iff_forall_not_mem.2 fun w hw => hn w ((mem_allWires hs w).2 ⟨g, hg, hw⟩)
    · intro hn w hw
      obtain ⟨g, hg, hw⟩ := (mem_allWires hs w).1 hw
      rw [hn g hg] at hw
      simp at hw

/-- The blueprint made from an exported dictionary, as far as positions go: new objects 1, 2, 3, … directly in the blueprint 0, no grid
position (it is not exported).  The other parts are as given. -/
def imported (x : Exported) (rest : Bp) : Bp :=
  { rest with
    heap := fun u => match u with
      | 0 => ⟨.blueprint, ⟨0, 0⟩, none, List.range' 1 (x.entities.getD []).length⟩
      | k + 1 => ⟨.entity, (((x.entities.getD [])[k]?).map fun t => t.2.2).getD ⟨0, 0⟩, some 0, []⟩
    root := 0
    depth := 2
    tiles := x.tiles.getD []
    sgp := ⟨0, 0⟩
    snap := x.snap.getD ⟨0, 0⟩
    rel := x.rel.getD ⟨0, 0⟩ }

/-- C33: exporting what was imported from an exported dictionary gives the same positions and the same snap keys. -/
theorem C33_roundtrip (b rest : Bp) (x x' : Exported) (h : b.toDict = .ok x) (h' : (imported x rest).toDict = .ok x') :
    ((x'.entities.getD []).map fun t => (t.1, t.2.2)) = ((x.entities.getD []).map fun t => (t.1, t.2.2)) ∧
    x'.tiles = x.tiles ∧ x'.snap = x.snap ∧ x'.rel = x.rel := by
  obtain ⟨ss, ws, -, -, hx⟩ := toDict_ok h
  obtain ⟨ss', ws', -, -, hx'⟩ := toDict_ok h'
  have hsub : ∀ v : Vec, v - ⟨0, 0⟩ = v := by intro v; ext <;> simp
  have hvv : ∀ v : Vec, vecOrOmit ((vecOrOmit v).getD ⟨0, 0⟩) = vecOrOmit v := by
    intro v
    by_cases hv : v = ⟨0, 0⟩
    · subst hv; rfl
    · simp [vecOrOmit, hv]
  have hoo : ∀ {α : Type} (l : List α), orOmit ((orOmit l).getD []) = orOmit l := by intro α l; rw [orOmit_getD]
  refine ⟨?_, ?_, ?_, ?_⟩
  · have hflat : (imported x rest).flat = List.range' 1 (x.entities.getD []).length := by
      have : ∀ us : List ℕ, (∀ u ∈ us, ∃ k, u = k + 1) → (imported x rest).heap.flatten 2 us = us := by
        intro us hus
        apply flatten_leaves
        intro u hu
        obtain ⟨k, rfl⟩ := hus u hu
        rfl
      exact this _ (by
        intro u hu
        have := List.mem_range'.1 hu
        obtain ⟨i, -, rfl⟩ := this
        exact ⟨i, by omega⟩)
    have hent : x'.entities.getD [] = (imported x rest).flat.mapIdx (fun i u => (i + 1, u, (imported x rest).heap.globalPos 2 u - ⟨0, 0⟩)) := by
      rw [hx']; simp only [orOmit_getD]; rfl
    have hnum : ∀ i (hi : i < (x.entities.getD []).length), ((x.entities.getD [])[i]'hi).1 = i + 1 := by
      intro i hi
      subst hx
      simp [orOmit_getD]
    rw [hent, hflat]
    apply List.ext_getElem
    · simp
    · intro i h1 h2
      simp only [List.length_map, List.length_mapIdx, List.length_range'] at h1
      simp only [List.getElem_map, List.getElem_mapIdx, List.getElem_range', hsub]
      rw [hnum i h1]
      have : (1 + 1 * i : ℕ) = i + 1 := by omega
      rw [this]
      simp only [globalPos, imported]
      simp [h1]
  · rw [hx', hx]
    simp only [imported, hsub]
    simp [hoo]
  · rw [hx', hx]; exact hvv _
  · rw [hx', hx]; exact hvv _

example : ∃ x, C32_bp.toDict = .ok x ∧ x = ⟨some [(1, 1, ⟨6, 5⟩), (2, 4, ⟨10, 4⟩)], some [(1, ⟨2, 2⟩)], some [⟨[2], 7⟩],
    some [⟨2, 1, 1, 1⟩, ⟨1, 5, 2, 5⟩], none, some ⟨0, 5⟩⟩ := ⟨_, rfl, by decide +kernel⟩

end Draftsman
