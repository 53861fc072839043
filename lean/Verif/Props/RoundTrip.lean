import Verif.Model.RoundTrip
import Verif.Props.Export
import Mathlib.Tactic.Ring
/-
C96: a dictionary made by export can be loaded, and exporting what was loaded gives the same dictionary.
-/
namespace Draftsman
namespace RoundTrip
open Bp

variable {C : Type}

/-! ### Specification -/

/-- What `==` will see of the `k`-th entity of the dictionary, counted from 1. -/
def Dictionary.look (key : C → Vec → ℕ) (d : Dictionary C) (k : ℕ) : Option ℕ := (d.ents[k - 1]?).map fun e => key e.2.1 e.2.2

/-- Specification: no two entities of the dictionary will compare equal. -/
def Dictionary.Apart (key : C → Vec → ℕ) (d : Dictionary C) : Prop :=
  ∀ i j (hi : i < d.ents.length) (hj : j < d.ents.length), key d.ents[i].2.1 d.ents[i].2.2 = key d.ents[j].2.1 d.ents[j].2.2 → i = j

/-- Specification: `k'` is the number of the first entity that looks like the one with number `k`. -/
def First (key : C → Vec → ℕ) (d : Dictionary C) (k k' : ℕ) : Prop :=
  1 ≤ k' ∧ d.look key k' = d.look key k ∧ ∀ j, 1 ≤ j → j < k' → d.look key j ≠ d.look key k

/-- Properties of dictionaries that were exported. -/
structure Dictionary.Proper (d : Dictionary C) : Prop where
  entities : d.entities = orOmit d.ents
  numbered : ∀ i (h : i < d.ents.length), d.ents[i].1 = i + 1
  tiles : d.tiles = orOmit (d.tiles.getD [])
  schedules : d.schedules = orOmit (d.schedules.getD [])
  wires : d.wires = orOmit (d.wires.getD [])
  once : (d.wires.getD []).Nodup
  snap : d.snap = vecOrOmit (d.snap.getD ⟨0, 0⟩)
  rel : d.rel = vecOrOmit (d.rel.getD ⟨0, 0⟩)
  locos : ∀ s ∈ d.schedules.getD [], ∀ k ∈ s.locos, 1 ≤ k ∧ k ≤ d.ents.length
  used : ∀ s ∈ d.schedules.getD [], s.locos ≠ []
  ends : ∀ w ∈ d.wires.getD [], (1 ≤ w.e1 ∧ w.e1 ≤ d.ents.length) ∧ 1 ≤ w.e2 ∧ w.e2 ≤ d.ents.length

/-! ### Exported dictionaries -/

theorem orOmit_again {α : Type} (l : List α) : orOmit ((orOmit l).getD []) = orOmit l := by rw [orOmit_getD]

theorem mapIdx_then {α β γ : Type} (f : ℕ → α → β) (g : β → γ) (l : List α) : (l.mapIdx f).map g = l.mapIdx fun i a => g (f i a) := by
  apply List.ext_getElem <;> simp

theorem getD_get (l : List ℕ) {i : ℕ} (h : i < l.length) : l.getD i 0 = l[i] := by simp [h]

theorem vec_sub_zero (v : Vec) : v - ⟨0, 0⟩ = v := by
  obtain ⟨x, y⟩ := v
  show (⟨x - 0, y - 0⟩ : Vec) = ⟨x, y⟩
  rw [sub_zero, sub_zero]

theorem vecOrOmit_again (v : Vec) : vecOrOmit ((vecOrOmit v).getD ⟨0, 0⟩) = vecOrOmit v := by
  unfold vecOrOmit
  by_cases h : v = ⟨0, 0⟩
  · simp [h]
  · simp [h]

theorem number_range {b : Bp} {u k : ℕ} (h : b.number u = some k) : 1 ≤ k ∧ k ≤ b.flat.length := by
  unfold Bp.number at h
  obtain ⟨i, hi, rfl⟩ := Option.map_eq_some_iff.1 h
  rw [List.findIdx?_eq_some_iff_getElem] at hi
  exact ⟨by omega, hi.1⟩

theorem expLoco_range {b : Bp} {u k : ℕ} (h : b.expLoco u = .ok k) : 1 ≤ k ∧ k ≤ b.flat.length := by
  unfold expLoco at h
  split at h
  · cases h
  · split at h
    · cases h
    · rename_i k' hk
      cases h
      exact number_range hk

theorem expEnd_range {b : Bp} {u k : ℕ} (h : b.expEnd u = .ok k) : 1 ≤ k ∧ k ≤ b.flat.length := by
  unfold expEnd at h
  split at h
  · cases h
  · split at h
    · cases h
    · rename_i k' hk
      cases h
      exact number_range hk

theorem forall₂_right {α β : Type} {R : α → β → Prop} {l : List α} {r : List β} (h : List.Forall₂ R l r) {b : β} (hb : b ∈ r) : ∃ a ∈ l, R a b := by
  induction h with
  | nil => cases hb
  | cons h1 _ ih =>
    rcases List.mem_cons.1 hb with rfl | hb
    · exact ⟨_, List.mem_cons_self, h1⟩
    · obtain ⟨a, ha, hr⟩ := ih hb
      exact ⟨a, List.mem_cons_of_mem _ ha, hr⟩

theorem toDict_proper {b : Full C} {d : Dictionary C} (h : b.toDict = .ok d) : d.Proper ∧
    d.ents = b.bp.flat.mapIdx fun i u => (i + 1, b.content u, b.bp.heap.globalPos b.bp.depth u - b.bp.sgp) := by
  unfold Full.toDict at h
  cases hx : b.bp.toDict with
  | error e => rw [hx] at h; cases h
  | ok x =>
    rw [hx] at h
    simp only [bind, Except.bind, Except.ok.injEq] at h
    obtain ⟨ss, ws, h1, h2, rfl⟩ := toDict_ok hx
    have hmap : ∀ l : List (ℕ × ℕ × Vec), ((orOmit l).map (·.map fun e => (e.1, b.content e.2.1, e.2.2))) = orOmit (l.map fun e => (e.1, b.content e.2.1, e.2.2)) := by
      intro l
      cases l <;> simp [orOmit]
    have hents : d.ents = b.bp.flat.mapIdx fun i u => (i + 1, b.content u, b.bp.heap.globalPos b.bp.depth u - b.bp.sgp) := by
      subst h
      simp only [Dictionary.ents, hmap, orOmit_getD]
      rw [mapIdx_then]
    have hlen : d.ents.length = b.bp.flat.length := by rw [hents]; simp
    refine ⟨⟨?_, ?_, ?_, ?_, ?_, ?_, ?_, ?_, ?_, ?_, ?_⟩, hents⟩
    · rw [hents]
      subst h
      simp only [hmap]
      rw [mapIdx_then]
    · intro i hi
      have : d.ents[i] = (b.bp.flat.mapIdx fun i u => (i + 1, b.content u, b.bp.heap.globalPos b.bp.depth u - b.bp.sgp))[i]'(by rw [← hents]; exact hi) := by
        congr 1
      rw [this]
      simp
    · subst h; simp only [orOmit_again]
    · subst h; simp only [orOmit_again]
    · subst h; simp only [orOmit_again]
    · subst h
      simp only [orOmit_getD]
      obtain ⟨r, e, -, hn, -⟩ := foldl_addNew ws []
      rw [e]
      exact hn List.nodup_nil
    · subst h; simp only [vecOrOmit_again]
    · subst h; simp only [vecOrOmit_again]
    · rw [hlen]
      subst h
      simp only [orOmit_getD]
      intro s hs k hk
      obtain ⟨s0, -, h0⟩ := forall₂_right ((mapM_ok_iff _ _ _).1 h1) hs
      unfold expSched at h0
      by_cases he : s0.locos = []
      · rw [if_pos he] at h0; cases h0
      rw [if_neg he] at h0
      cases hl : s0.locos.mapM b.bp.expLoco with
      | error e => rw [hl] at h0; cases h0
      | ok ls =>
        rw [hl] at h0
        simp only [bind, Except.bind, pure, Except.pure, Except.ok.injEq] at h0
        subst h0
        obtain ⟨u, -, hu⟩ := forall₂_right ((mapM_ok_iff _ _ _).1 hl) hk
        exact expLoco_range hu
    · subst h
      simp only [orOmit_getD]
      intro s hs
      obtain ⟨s0, -, h0⟩ := forall₂_right ((mapM_ok_iff _ _ _).1 h1) hs
      unfold expSched at h0
      by_cases he : s0.locos = []
      · rw [if_pos he] at h0; cases h0
      rw [if_neg he] at h0
      cases hl : s0.locos.mapM b.bp.expLoco with
      | error e => rw [hl] at h0; cases h0
      | ok ls =>
        rw [hl] at h0
        simp only [bind, Except.bind, pure, Except.pure, Except.ok.injEq] at h0
        subst h0
        have := ((mapM_ok_iff _ _ _).1 hl).length_eq
        intro hn
        simp only at hn
        rw [hn] at this
        exact he (List.length_eq_zero_iff.1 this)
    · rw [hlen]
      subst h
      simp only [orOmit_getD]
      intro w hw
      obtain ⟨r, e, hsub, -, -⟩ := foldl_addNew ws []
      rw [e] at hw
      obtain ⟨w0, -, h0⟩ := forall₂_right ((mapM_ok_iff _ _ _).1 h2) (hsub.subset hw)
      unfold expWire at h0
      cases ha : b.bp.expEnd w0.e1 with
      | error e => rw [ha] at h0; cases h0
      | ok k1 =>
        cases hb : b.bp.expEnd w0.e2 with
        | error e => rw [ha, hb] at h0; cases h0
        | ok k2 =>
          rw [ha, hb] at h0
          simp only [bind, Except.bind, pure, Except.pure, Except.ok.injEq] at h0
          subst h0
          exact ⟨expEnd_range ha, expEnd_range hb⟩

/-! ### Loading -/

variable (key : C → Vec → ℕ) (start : ℕ)

theorem objects_get (n i : ℕ) (h : i < n) : (objects start n)[i]'(by simpa [objects] using h) = start + 1 + i := by simp [objects]

theorem objects_ref (n k : ℕ) (h : 1 ≤ k ∧ k ≤ n) : impRef (objects start n) k = .ok (start + k) := by
  obtain ⟨i, rfl⟩ : ∃ i, k = i + 1 := ⟨k - 1, by omega⟩
  rw [impRef_ok _ i (by simp [objects]; omega), objects_get _ _ _ (by omega)]
  congr 1
  omega

/-- The keys of the entities. -/
def keys (d : Dictionary C) : List ℕ := d.ents.map fun e => key e.2.1 e.2.2

/-- The number under which the entity with number `k` is exported again. -/
def canon (d : Dictionary C) (k : ℕ) : ℕ := (keys key d).idxOf ((keys key d).getD (k - 1) 0) + 1

/-- The wires and schedules with new numbers. -/
def canonWire (d : Dictionary C) (w : Wire) : Wire := ⟨canon key d w.e1, w.t1, canon key d w.e2, w.t2⟩

@[inherit_doc canonWire] def canonSched (d : Dictionary C) (s : Sched) : Sched := ⟨s.locos.map (canon key d), s.rest⟩

@[inherit_doc canonWire] def renumber (d : Dictionary C) : Dictionary C :=
  { d with schedules := orOmit ((d.schedules.getD []).map (canonSched key d)), wires := orOmit (((d.wires.getD []).map (canonWire key d)).foldl addNew []) }

/-- The loaded blueprint, given its schedules and wires. -/
def loadedBp [Inhabited C] (d : Dictionary C) (ss : List Sched) (ws : List Wire) : Bp where
  heap := loadedHeap start d
  root := start
  depth := 1
  el := loadedEl key start d
  alive := fun _ => true
  ws := fun g => if g = start then ws else []
  scheds := fun g => if g = start then ss else []
  tiles := d.tiles.getD []
  sgp := ⟨0, 0⟩
  snap := d.snap.getD ⟨0, 0⟩
  rel := d.rel.getD ⟨0, 0⟩

variable [Inhabited C]

theorem load_eq {d : Dictionary C} (hd : d.Proper) :
    load key start d = .ok ⟨loadedBp key start d ((d.schedules.getD []).map fun s => ⟨s.locos.map (start + ·), s.rest⟩)
      ((d.wires.getD []).map fun w => ⟨start + w.e1, w.t1, start + w.e2, w.t2⟩), fun u => ((d.ents[u - (start + 1)]?).map fun e => e.2.1).getD default⟩ := by
  have h1 : (d.schedules.getD []).mapM (impSched (objects start d.ents.length)) = .ok ((d.schedules.getD []).map fun s => ⟨s.locos.map (start + ·), s.rest⟩) := by
    apply mapM_ok_map
    intro s hs
    rw [impSched, mapM_ok_map _ (start + ·) _ (fun k hk => objects_ref start _ k (hd.locos s hs k hk))]
    rfl
  have h2 : (d.wires.getD []).mapM (impWire (objects start d.ents.length)) = .ok ((d.wires.getD []).map fun w => ⟨start + w.e1, w.t1, start + w.e2, w.t2⟩) := by
    apply mapM_ok_map
    intro w hw
    rw [impWire, objects_ref start _ _ (hd.ends w hw).1, objects_ref start _ _ (hd.ends w hw).2]
    rfl
  unfold load impRefs
  rw [h1, h2]
  rfl

omit [Inhabited C] in
theorem heap_entity (d : Dictionary C) {u : ℕ} (h : start < u) : loadedHeap start d u = ⟨.entity, ((d.ents[u - (start + 1)]?).map fun e => e.2.2).getD ⟨0, 0⟩, some start, []⟩ := by
  rw [loadedHeap, if_neg (by omega)]

theorem objects_gt {n u : ℕ} (h : u ∈ objects start n) : start < u := by
  simp only [objects, List.mem_map, List.mem_range] at h
  obtain ⟨i, -, rfl⟩ := h
  omega

theorem loaded_flat (d : Dictionary C) (ss : List Sched) (ws : List Wire) : (loadedBp key start d ss ws).flat = objects start d.ents.length := by
  have h1 : (loadedBp key start d ss ws).flat = (objects start d.ents.length).flatMap fun u =>
      if (loadedHeap start d u).kind = .entity then [u] else [] := by
    unfold Bp.flat loadedBp
    simp only [GHeap.flatten]
    rw [show (loadedHeap start d start).children = objects start d.ents.length by simp [loadedHeap]]
  rw [h1]
  have : ∀ l : List ℕ, (∀ u ∈ l, start < u) → (l.flatMap fun u => if (loadedHeap start d u).kind = .entity then [u] else []) = l := by
    intro l hl
    induction l with
    | nil => rfl
    | cons a t ih =>
      rw [List.flatMap_cons, ih fun u hu => hl u (List.mem_cons_of_mem _ hu), heap_entity start d (hl a List.mem_cons_self)]
      rfl
  exact this _ fun u hu => objects_gt start hu

theorem loaded_wires (d : Dictionary C) (ss : List Sched) (ws : List Wire) : (loadedBp key start d ss ws).allWires = ws := by
  have hnil : ∀ l : List ℕ, (∀ u ∈ l, start < u) →
      (l.flatMap fun u => if (loadedHeap start d u).kind = .entity then [] else (if u = start then ws else []) ++ ([] : List Wire)) = [] := by
    intro l hl
    rw [List.flatMap_eq_nil_iff]
    intro u hu
    rw [heap_entity start d (hl u hu)]
    rfl
  unfold Bp.allWires loadedBp
  simp only [flatWires, if_true]
  rw [show (loadedHeap start d start).children = objects start d.ents.length by simp [loadedHeap], hnil _ fun u hu => objects_gt start hu, List.append_nil]

theorem loaded_number (d : Dictionary C) (ss : List Sched) (ws : List Wire) {k : ℕ} (h : 1 ≤ k ∧ k ≤ d.ents.length) :
    (loadedBp key start d ss ws).number (start + k) = some (canon key d k) := by
  have hk : k - 1 < (keys key d).length := by simp [keys]; omega
  have hidx : (keys key d).idxOf ((keys key d).getD (k - 1) 0) < (keys key d).length := by
    apply List.idxOf_lt_length_of_mem
    rw [getD_get _ hk]
    exact List.getElem_mem hk
  have hlen : (keys key d).length = d.ents.length := by simp [keys]
  have hel : ∀ i, i < d.ents.length → (loadedEl key start d (start + 1 + i)).key = some ((keys key d).getD i 0) := by
    intro i hi
    unfold loadedEl
    have e1 : start + 1 + i - (start + 1) = i := by omega
    rw [getD_get _ (by omega)]
    simp only [e1, keys, List.getElem?_eq_getElem hi, List.getElem_map, Option.map_some]
  have hk' : start + k = start + 1 + (k - 1) := by omega
  unfold Bp.number
  rw [loaded_flat]
  have : (objects start d.ents.length).findIdx? (fun v => ((loadedBp key start d ss ws).el v).eqv ((loadedBp key start d ss ws).el (start + k))) =
      some ((keys key d).idxOf ((keys key d).getD (k - 1) 0)) := by
    rw [List.findIdx?_eq_some_iff_getElem]
    have hin : (keys key d).idxOf ((keys key d).getD (k - 1) 0) < d.ents.length := hlen ▸ hidx
    refine ⟨by rw [objects, List.length_map, List.length_range]; exact hin, ?_, ?_⟩
    · rw [objects_get _ _ _ hin]
      simp only [loadedBp, EL.eqv, hk', hel _ (show k - 1 < d.ents.length by omega), hel _ hin]
      rw [getD_get _ hidx, List.getElem_idxOf hidx]
      simp [loadedEl]
    · intro j hj
      rw [objects_get _ _ _ (by omega)]
      simp only [loadedBp, EL.eqv, hk', hel _ (show k - 1 < d.ents.length by omega), hel _ (show j < d.ents.length by omega)]
      have hne : (keys key d).getD j 0 ≠ (keys key d).getD (k - 1) 0 := by
        intro he
        have : (keys key d).idxOf ((keys key d).getD (k - 1) 0) ≤ j := by
          by_contra hc
          have := List.not_of_lt_findIdx (show j < (keys key d).findIdx (· == (keys key d).getD (k - 1) 0) from hj)
          rw [getD_get _ (by omega)] at he
          simp [he] at this
        omega
      have hne' : j ≠ k - 1 := by rintro rfl; exact hne rfl
      have hne2 : ¬ (start + 1 + j = start + 1 + (k - 1)) := by omega
      simp only [loadedEl, hne2, decide_false, Bool.false_or, Option.some.injEq, hne, Bool.and_false, Bool.false_and, Bool.false_eq_true, not_false_eq_true]
  rw [this]
  rfl

theorem loaded_toDict {d : Dictionary C} (hd : d.Proper) : ∃ b, load key start d = .ok b ∧ b.toDict = .ok (renumber key d) := by
  refine ⟨_, load_eq key start hd, ?_⟩
  generalize hss : ((d.schedules.getD []).map fun s => (⟨s.locos.map (start + ·), s.rest⟩ : Sched)) = ss
  generalize hws : ((d.wires.getD []).map fun w => (⟨start + w.e1, w.t1, start + w.e2, w.t2⟩ : Wire)) = ws
  have hn := fun k h => loaded_number key start d ss ws (k := k) h
  have hend : ∀ k, 1 ≤ k ∧ k ≤ d.ents.length → (loadedBp key start d ss ws).expEnd (start + k) = .ok (canon key d k) ∧
      (loadedBp key start d ss ws).expLoco (start + k) = .ok (canon key d k) := by
    intro k h
    unfold expEnd expLoco
    rw [hn k h]
    simp [loadedBp]
  have h1 : ((loadedBp key start d ss ws).scheds (loadedBp key start d ss ws).root).mapM (loadedBp key start d ss ws).expSched =
      .ok ((d.schedules.getD []).map (canonSched key d)) := by
    have e : (loadedBp key start d ss ws).scheds (loadedBp key start d ss ws).root = (d.schedules.getD []).map fun s => (⟨s.locos.map (start + ·), s.rest⟩ : Sched) := by
      simp [loadedBp, hss]
    rw [e, mapM_ok_iff, List.forall₂_map_left_iff, List.forall₂_map_right_iff, List.forall₂_same]
    intro s hs
    have : (s.locos.map (start + ·)).mapM (loadedBp key start d ss ws).expLoco = .ok (s.locos.map (canon key d)) := by
      rw [mapM_ok_iff, List.forall₂_map_left_iff, List.forall₂_map_right_iff, List.forall₂_same]
      intro k hk
      exact (hend k (hd.locos s hs k hk)).2
    unfold expSched
    rw [if_neg (by simpa using hd.used s hs), this]
    rfl
  have h2 : (loadedBp key start d ss ws).allWires.mapM (loadedBp key start d ss ws).expWire = .ok ((d.wires.getD []).map (canonWire key d)) := by
    rw [loaded_wires, ← hws, mapM_ok_iff, List.forall₂_map_left_iff, List.forall₂_map_right_iff, List.forall₂_same]
    intro w hw
    unfold expWire
    simp only
    rw [hws, (hend _ (hd.ends w hw).1).1, (hend _ (hd.ends w hw).2).1]
    rfl
  have hent : (List.mapIdx (fun i u => (i + 1, u, (loadedBp key start d ss ws).heap.globalPos (loadedBp key start d ss ws).depth u - (loadedBp key start d ss ws).sgp))
      (loadedBp key start d ss ws).flat).map (fun e => (e.1, ((d.ents[e.2.1 - (start + 1)]?).map fun e => e.2.1).getD default, e.2.2)) = d.ents := by
    rw [loaded_flat]
    apply List.ext_getElem
    · simp [objects]
    · intro i h3 h4
      have e1 : start + 1 + i - (start + 1) = i := by omega
      have hg : (loadedBp key start d ss ws).heap.globalPos (loadedBp key start d ss ws).depth (start + 1 + i) = d.ents[i].2.2 := by
        simp only [loadedBp, GHeap.globalPos]
        rw [heap_entity start d (by omega)]
        simp [loadedHeap, e1, List.getElem?_eq_getElem h4]
      rw [List.getElem_map, List.getElem_mapIdx, objects_get _ _ _ h4]
      simp only [hg, e1, List.getElem?_eq_getElem h4, Option.map_some, Option.getD_some]
      have hv : d.ents[i].2.2 - (loadedBp key start d ss ws).sgp = d.ents[i].2.2 := by
        exact vec_sub_zero _
      rw [hv, ← hd.numbered i h4]
  have htile : (loadedBp key start d ss ws).tiles.map (fun t => (t.1, t.2 - (loadedBp key start d ss ws).sgp)) = d.tiles.getD [] := by
    conv_rhs => rw [← List.map_id (d.tiles.getD [])]
    apply List.map_congr_left
    rintro ⟨n, v⟩ -
    exact congrArg (Prod.mk n) (vec_sub_zero v)
  have hmap : ∀ (f : ℕ × ℕ × Vec → ℕ × C × Vec) (l : List (ℕ × ℕ × Vec)), (orOmit l).map (·.map f) = orOmit (l.map f) := by
    intro f l
    cases l <;> simp [orOmit]
  unfold Full.toDict Bp.toDict
  simp only [h1, h2]
  simp only [bind, Except.bind, pure, Except.pure, hmap, hent, htile]
  rw [← hd.entities, ← hd.tiles]
  have hs : vecOrOmit (loadedBp key start d ss ws).snap = d.snap := hd.snap.symm
  have hr : vecOrOmit (loadedBp key start d ss ws).rel = d.rel := hd.rel.symm
  rw [hs, hr]
  rfl

/-! ### Numbers -/

omit [Inhabited C] in
theorem look_eq (d : Dictionary C) (k : ℕ) : d.look key k = (keys key d)[k - 1]? := by
  rw [Dictionary.look, keys, List.getElem?_map]

omit [Inhabited C] in
theorem canon_spec (d : Dictionary C) {k : ℕ} (h : 1 ≤ k ∧ k ≤ d.ents.length) : First key d k (canon key d k) ∧ canon key d k ≤ d.ents.length := by
  have hlen : (keys key d).length = d.ents.length := by simp [keys]
  have hk : k - 1 < (keys key d).length := by omega
  have hidx : (keys key d).idxOf ((keys key d).getD (k - 1) 0) < (keys key d).length := by
    apply List.idxOf_lt_length_of_mem
    rw [getD_get _ hk]
    exact List.getElem_mem hk
  refine ⟨⟨by unfold canon; omega, ?_, ?_⟩, by unfold canon; omega⟩
  · rw [look_eq, look_eq, canon, Nat.add_sub_cancel, List.getElem?_eq_getElem hidx, List.getElem?_eq_getElem hk, List.getElem_idxOf hidx, getD_get _ hk]
  · intro j h1 hj he
    unfold canon at hj
    rw [look_eq, look_eq, List.getElem?_eq_getElem hk, List.getElem?_eq_getElem (by omega)] at he
    have := List.not_of_lt_findIdx (show j - 1 < (keys key d).findIdx (· == (keys key d).getD (k - 1) 0) by
      have : j - 1 < (keys key d).idxOf ((keys key d).getD (k - 1) 0) := by omega
      exact this)
    have h4 : (keys key d).getD (k - 1) 0 = (keys key d)[k - 1] := getD_get _ hk
    rw [beq_eq_false_iff_ne] at this
    exact this ((Option.some.inj he).trans h4.symm)

omit [Inhabited C] in
theorem first_unique {d : Dictionary C} {k a b : ℕ} (ha : First key d k a) (hb : First key d k b) : a = b := by
  rcases Nat.lt_trichotomy a b with h | h | h
  · exact absurd ha.2.1 (hb.2.2 a ha.1 h)
  · exact h
  · exact absurd hb.2.1 (ha.2.2 b hb.1 h)

omit [Inhabited C] in
theorem canon_canon (d : Dictionary C) {k : ℕ} (h : 1 ≤ k ∧ k ≤ d.ents.length) : canon key d (canon key d k) = canon key d k := by
  obtain ⟨h1, h2⟩ := canon_spec key d h
  obtain ⟨h3, -⟩ := canon_spec key d ⟨h1.1, h2⟩
  refine first_unique key (d := d) (k := k) ⟨h3.1, h3.2.1.trans h1.2.1, fun j a b => ?_⟩ h1
  rw [← h1.2.1]
  exact h3.2.2 j a b

omit [Inhabited C] in
theorem renumber_proper {d : Dictionary C} (hd : d.Proper) : (renumber key d).Proper where
  entities := hd.entities
  numbered := hd.numbered
  tiles := hd.tiles
  schedules := by simp only [renumber, orOmit_again]
  wires := by simp only [renumber, orOmit_again]
  once := by
    simp only [renumber, orOmit_getD]
    obtain ⟨r, e, -, hn, -⟩ := foldl_addNew ((d.wires.getD []).map (canonWire key d)) []
    rw [e]
    exact hn List.nodup_nil
  snap := hd.snap
  rel := hd.rel
  locos := by
    simp only [renumber, orOmit_getD]
    intro s hs k hk
    obtain ⟨s0, h0, rfl⟩ := List.mem_map.1 hs
    obtain ⟨k0, hk0, rfl⟩ := List.mem_map.1 hk
    have := canon_spec key d (hd.locos s0 h0 k0 hk0)
    exact ⟨this.1.1, this.2⟩
  used := by
    simp only [renumber, orOmit_getD]
    intro s hs
    obtain ⟨s0, h0, rfl⟩ := List.mem_map.1 hs
    simpa [canonSched] using hd.used s0 h0
  ends := by
    simp only [renumber, orOmit_getD]
    intro w hw
    obtain ⟨r, e, hsub, -, -⟩ := foldl_addNew ((d.wires.getD []).map (canonWire key d)) []
    rw [e] at hw
    obtain ⟨w0, h0, rfl⟩ := List.mem_map.1 (hsub.subset hw)
    have h1 := canon_spec key d (hd.ends w0 h0).1
    have h2 := canon_spec key d (hd.ends w0 h0).2
    exact ⟨⟨h1.1.1, h1.2⟩, h2.1.1, h2.2⟩

theorem foldl_addNew_nodup {l : List Wire} (h : l.Nodup) : l.foldl addNew [] = l := by
  have key : ∀ (l acc : List Wire), (acc ++ l).Nodup → l.foldl addNew acc = acc ++ l := by
    intro l
    induction l with
    | nil => intro acc _; simp
    | cons a t ih =>
      intro acc hn
      have ha : a ∉ acc := by
        intro hm
        have := (List.nodup_append.1 hn).2.2 a hm a List.mem_cons_self
        exact this rfl
      rw [List.foldl_cons, addNew, if_neg ha, ih (acc ++ [a]) (by rwa [List.append_assoc]), List.append_assoc]
      rfl
  exact key l [] h

omit [Inhabited C] in
theorem renumber_fixed {d : Dictionary C} (hd : d.Proper) : renumber key d = d ↔
    (∀ s ∈ d.schedules.getD [], ∀ k ∈ s.locos, canon key d k = k) ∧ ∀ w ∈ d.wires.getD [], canon key d w.e1 = w.e1 ∧ canon key d w.e2 = w.e2 := by
  constructor
  · intro h
    have hs : (d.schedules.getD []).map (canonSched key d) = d.schedules.getD [] := by
      conv_rhs => rw [← h]
      simp only [renumber, orOmit_getD]
    have hw : ((d.wires.getD []).map (canonWire key d)).foldl addNew [] = d.wires.getD [] := by
      conv_rhs => rw [← h]
      simp only [renumber, orOmit_getD]
    have hw' : (d.wires.getD []).map (canonWire key d) = d.wires.getD [] := by
      obtain ⟨r, e, hsub, -, -⟩ := foldl_addNew ((d.wires.getD []).map (canonWire key d)) []
      rw [e, List.nil_append] at hw
      rw [hw] at hsub
      exact (hsub.eq_of_length (by simp)).symm
    have hfix : ∀ {α : Type} (f : α → α) (l : List α), l.map f = l → ∀ a ∈ l, f a = a := by
      intro α f l h
      induction l with
      | nil => intro a ha; cases ha
      | cons x t ih =>
        simp only [List.map_cons, List.cons.injEq] at h
        intro a ha
        rcases List.mem_cons.1 ha with rfl | ha
        · exact h.1
        · exact ih h.2 a ha
    refine ⟨fun s hsm k hk => ?_, fun w hwm => ?_⟩
    · have := hfix _ _ hs s hsm
      exact hfix _ _ (congrArg Sched.locos this) k hk
    · have := hfix _ _ hw' w hwm
      exact ⟨congrArg Wire.e1 this, congrArg Wire.e2 this⟩
  · rintro ⟨hs, hw⟩
    have h1 : (d.schedules.getD []).map (canonSched key d) = d.schedules.getD [] := by
      conv_rhs => rw [← List.map_id (d.schedules.getD [])]
      apply List.map_congr_left
      intro s hsm
      obtain ⟨l, r⟩ := s
      have : l.map (canon key d) = l := by
        conv_rhs => rw [← List.map_id l]
        exact List.map_congr_left fun k hk => hs _ hsm k hk
      simp [canonSched, this]
    have h2 : (d.wires.getD []).map (canonWire key d) = d.wires.getD [] := by
      conv_rhs => rw [← List.map_id (d.wires.getD [])]
      apply List.map_congr_left
      intro w hwm
      obtain ⟨a, b, c, e⟩ := w
      have := hw _ hwm
      simp only at this
      simp [canonWire, this.1, this.2]
    rw [renumber, h1, h2, foldl_addNew_nodup hd.once, ← hd.schedules, ← hd.wires]

/-! ### Theorems -/

/-- C96: what was exported can be loaded and exported again.  The second dictionary has the same entities, tiles and grid; every reference goes to
the first entity that compares equal to the one it went to. -/
theorem C96_again (b : Full C) (d : Dictionary C) (h : b.toDict = .ok d) :
    ∃ b' d', load key start d = .ok b' ∧ b'.toDict = .ok d' ∧
      d'.entities = d.entities ∧ d'.tiles = d.tiles ∧ d'.snap = d.snap ∧ d'.rel = d.rel ∧
      List.Forall₂ (fun s s' => List.Forall₂ (First key d) s.locos s'.locos ∧ s'.rest = s.rest) (d.schedules.getD []) (d'.schedules.getD []) ∧
      (d'.wires.getD []).Nodup ∧
      ∀ w', w' ∈ d'.wires.getD [] ↔ ∃ w ∈ d.wires.getD [], First key d w.e1 w'.e1 ∧ w'.t1 = w.t1 ∧ First key d w.e2 w'.e2 ∧ w'.t2 = w.t2 := by
  obtain ⟨hd, -⟩ := toDict_proper h
  obtain ⟨b', h1, h2⟩ := loaded_toDict key start hd
  refine ⟨b', _, h1, h2, rfl, rfl, rfl, rfl, ?_, (renumber_proper key hd).once, ?_⟩
  · simp only [renumber, orOmit_getD]
    apply forall₂_map_right
    intro s hs
    exact ⟨forall₂_map_right _ _ _ fun k hk => (canon_spec key d (hd.locos s hs k hk)).1, rfl⟩
  · intro w'
    simp only [renumber, orOmit_getD]
    obtain ⟨r, e, hsub, -, hall⟩ := foldl_addNew ((d.wires.getD []).map (canonWire key d)) []
    rw [e]
    constructor
    · intro hw
      obtain ⟨w, hm, rfl⟩ := List.mem_map.1 (hsub.subset hw)
      exact ⟨w, hm, (canon_spec key d (hd.ends w hm).1).1, rfl, (canon_spec key d (hd.ends w hm).2).1, rfl⟩
    · rintro ⟨w, hw, f1, t1, f2, t2⟩
      have := hall _ (List.mem_map_of_mem (f := canonWire key d) hw)
      have e : w' = canonWire key d w := by
        obtain ⟨a, b, c, e⟩ := w'
        simp only at f1 t1 f2 t2
        rw [first_unique key f1 (canon_spec key d (hd.ends w hw).1).1, first_unique key f2 (canon_spec key d (hd.ends w hw).2).1, t1, t2]
        rfl
      rw [e]
      exact this

/-- C96: exporting what was loaded gives the dictionary that was loaded just if no reference goes to an entity that compares equal to an earlier
one. -/
theorem C96_stable (b : Full C) (d : Dictionary C) (h : b.toDict = .ok d) :
    ∃ b', load key start d = .ok b' ∧ (b'.toDict = .ok d ↔
      (∀ s ∈ d.schedules.getD [], ∀ k ∈ s.locos, First key d k k) ∧ ∀ w ∈ d.wires.getD [], First key d w.e1 w.e1 ∧ First key d w.e2 w.e2) := by
  obtain ⟨hd, -⟩ := toDict_proper h
  obtain ⟨b', h1, h2⟩ := loaded_toDict key start hd
  refine ⟨b', h1, ?_⟩
  have hiff : ∀ k, 1 ≤ k ∧ k ≤ d.ents.length → (canon key d k = k ↔ First key d k k) := by
    intro k hk
    constructor
    · intro he
      have := (canon_spec key d hk).1
      rwa [he] at this
    · exact fun hf => first_unique key (canon_spec key d hk).1 hf
  rw [h2, Except.ok.injEq, renumber_fixed key hd]
  refine and_congr ?_ ?_
  · exact forall₂_congr fun s hs => forall₂_congr fun k hk => hiff k (hd.locos s hs k hk)
  · exact forall₂_congr fun w hw => and_congr (hiff _ (hd.ends w hw).1) (hiff _ (hd.ends w hw).2)

/-- C96: if no two of the entities compare equal, exporting what was loaded gives the same dictionary. -/
theorem C96_apart (b : Full C) (d : Dictionary C) (h : b.toDict = .ok d) (ha : d.Apart key) :
    ∃ b', load key start d = .ok b' ∧ b'.toDict = .ok d := by
  obtain ⟨hd, -⟩ := toDict_proper h
  obtain ⟨b', h1, h2⟩ := C96_stable key start b d h
  have hf : ∀ k, 1 ≤ k ∧ k ≤ d.ents.length → First key d k k := by
    intro k hk
    refine ⟨hk.1, rfl, fun j hj hjk he => ?_⟩
    rw [Dictionary.look, Dictionary.look, List.getElem?_eq_getElem (show j - 1 < d.ents.length by omega), List.getElem?_eq_getElem (show k - 1 < d.ents.length by omega)] at he
    have := ha (j - 1) (k - 1) (by omega) (by omega) (Option.some.inj he)
    omega
  exact ⟨b', h1, h2.2 ⟨fun s hs k hk => hf k (hd.locos s hs k hk), fun w hw => ⟨hf _ (hd.ends w hw).1, hf _ (hd.ends w hw).2⟩⟩⟩

/-- C96: after one more time it stays the same, whatever compares equal. -/
theorem C96_settles (b : Full C) (d : Dictionary C) (h : b.toDict = .ok d) (start' : ℕ) :
    ∃ b' d' b'', load key start d = .ok b' ∧ b'.toDict = .ok d' ∧ load key start' d' = .ok b'' ∧ b''.toDict = .ok d' := by
  obtain ⟨hd, -⟩ := toDict_proper h
  obtain ⟨b', h1, h2⟩ := loaded_toDict key start hd
  have hp := renumber_proper key hd
  obtain ⟨b'', h3, h4⟩ := loaded_toDict key start' hp
  refine ⟨b', _, b'', h1, h2, h3, ?_⟩
  rw [h4, Except.ok.injEq, renumber_fixed key hp]
  have hc : ∀ k, canon key (renumber key d) k = canon key d k := fun _ => rfl
  refine ⟨?_, ?_⟩
  · simp only [renumber, orOmit_getD]
    intro s hs k hk
    obtain ⟨s0, h0, rfl⟩ := List.mem_map.1 hs
    obtain ⟨k0, hk0, rfl⟩ := List.mem_map.1 hk
    exact canon_canon key d (hd.locos s0 h0 k0 hk0)
  · intro w hw
    have hw' : w ∈ ((d.wires.getD []).map (canonWire key d)).foldl addNew [] := by simpa only [renumber, orOmit_getD] using hw
    obtain ⟨r, e, hsub, -, -⟩ := foldl_addNew ((d.wires.getD []).map (canonWire key d)) []
    rw [e] at hw'
    obtain ⟨w0, h0, rfl⟩ := List.mem_map.1 (hsub.subset hw')
    exact ⟨canon_canon key d (hd.ends w0 h0).1, canon_canon key d (hd.ends w0 h0).2⟩

/-! ### Examples -/

/-- Three entities, of which 2 and 3 are alike but have different ids, with a wire from 1 to 3 and a schedule of 3. -/
def exBp (third : Vec) : Full ℕ where
  bp := {
    heap := fun u => if u = 0 then ⟨.blueprint, ⟨0, 0⟩, none, [1, 2, 3]⟩ else ⟨.entity, if u = 1 then ⟨1, 1⟩ else if u = 2 then ⟨3, 3⟩ else third, some 0, []⟩
    root := 0
    depth := 1
    el := fun u => ⟨u, some (if u = 2 then "a" else "b"), some u⟩
    alive := fun _ => true
    ws := fun _ => [⟨1, 1, 3, 1⟩, ⟨1, 1, 2, 1⟩]
    scheds := fun _ => [⟨[3], 5⟩]
    tiles := [(1, ⟨1, 1⟩)]
    sgp := ⟨1, 0⟩
    snap := ⟨0, 0⟩
    rel := ⟨2, 0⟩ }
  content := fun u => if u = 1 then 10 else 20

/-- The contents and the place in one number. -/
def exKey (c : ℕ) (v : Vec) : ℕ := c * 10000 + v.x.num.toNat * 100 + v.y.num.toNat

/-- The dictionaries: before loading, and after. -/
def exTwice (third : Vec) : Option (Dictionary ℕ × Dictionary ℕ) :=
  match (exBp third).toDict with
  | .ok d => match load exKey 7 d with
    | .ok b => match b.toDict with
      | .ok d' => some (d, d')
      | _ => none
    | _ => none
  | _ => none

/-- C96_again, C96_stable, C96_apart: all different. -/
example : (exTwice ⟨5, 5⟩).map (fun x => decide (x.1 = x.2 ∧ x.1.wires = some [⟨1, 1, 3, 1⟩, ⟨1, 1, 2, 1⟩] ∧ x.1.schedules = some [⟨[3], 5⟩] ∧
    x.1.entities = some [(1, 10, ⟨0, 1⟩), (2, 20, ⟨2, 3⟩), (3, 20, ⟨4, 5⟩)])) = some true := by decide +kernel
/-- C96_apart -/
def exDict : Dictionary ℕ := ⟨some [(1, 10, ⟨0, 1⟩), (2, 20, ⟨2, 3⟩), (3, 20, ⟨4, 5⟩)], some [(1, ⟨0, 1⟩)], some [⟨[3], 5⟩],
  some [⟨1, 1, 3, 1⟩, ⟨1, 1, 2, 1⟩], none, some ⟨2, 0⟩⟩

example : ∃ b', load exKey 7 exDict = .ok b' ∧ b'.toDict = .ok exDict := by
  refine C96_apart exKey 7 (exBp ⟨5, 5⟩) exDict ?_ ?_
  · have h : ((exBp ⟨5, 5⟩).toDict.toOption) = some exDict := by decide +kernel
    cases hx : (exBp ⟨5, 5⟩).toDict with
    | error e => rw [hx] at h; cases h
    | ok d => rw [hx] at h; exact congrArg Except.ok (Option.some.inj h)
  · have h : ∀ i : Fin 3, ∀ j : Fin 3, exKey (exDict.ents[i]'i.2).2.1 (exDict.ents[i]'i.2).2.2 = exKey (exDict.ents[j]'j.2).2.1 (exDict.ents[j]'j.2).2.2 → i = j := by
      decide +kernel
    intro i j hi hj he
    exact congrArg Fin.val (h ⟨i, hi⟩ ⟨j, hj⟩ he)
/-- C96_settles: entities 2 and 3 at one place. -/
example : (exTwice ⟨3, 3⟩).map (fun x => (x.1.wires, x.1.schedules, x.2.wires, x.2.schedules)) =
    some (some [⟨1, 1, 3, 1⟩, ⟨1, 1, 2, 1⟩], some [⟨[3], 5⟩], some [⟨1, 1, 2, 1⟩], some [⟨[2], 5⟩]) := by decide +kernel

/-- C96: exporting what was loaded may give another dictionary than the one that was loaded: if two entities differ only in their ids, which are not
exported, the wires and schedules of the second go to the first after loading and exporting once more, and wires are lost. -/
theorem C96_ids_refuted : ¬ ∀ (b : Full ℕ) (d : Dictionary ℕ) (b' : Full ℕ), b.toDict = .ok d → load exKey 7 d = .ok b' → b'.toDict = .ok d := by
  intro h
  have h1 : (exTwice ⟨3, 3⟩).map (fun x => decide (x.1 = x.2)) = some false := by decide +kernel
  unfold exTwice at h1
  split at h1
  · rename_i d hd
    split at h1
    · rename_i b' hb
      rw [h _ d b' hd hb] at h1
      simp at h1
    · cases h1
  · cases h1

end RoundTrip
end Draftsman
