import Verif.Model.TileList
import Verif.Model.Search
import Verif.Props.SpatialHash
import Mathlib.Data.List.Perm.Basic
import Mathlib.Data.List.Infix
/-
C68: the list of tiles and its spatial map.
-/
namespace Draftsman.TileList
open Draftsman

/-! ## Histories -/

/-- The calls a history is made of.  `bad` is the exception the validation of the new tile ends with, if any. -/
inductive TOp where
  | insert (idx : Int) (src : Src) (merge : Bool) (bad : Option PyErr)
  | append (src : Src) (merge : Bool) (bad : Option PyErr)
  | set (idx : Int) (t : SItem) (bad : Option PyErr)
  | del (idx : Int)
  | delSlice (a b c : Option Int)
  | clear
  | rename (uid name : ℕ)
  | move (uid : ℕ) (p : Vec)

/-- The state and the exception after one call. -/
def step (s : TL) : TOp → TL × Option PyErr
  | .insert i src m b => insert s i src m b
  | .append src m b => append s src m b
  | .set i t b => setItem s i t b
  | .del i => delInt s i
  | .delSlice a b c => delSlice s a b c
  | .clear => (clear s, none)
  | .rename u n => (rename s u n, none)
  | .move u p => move s u p

/-- The state after a history; exceptions are caught by the caller. -/
def run (s : TL) (ops : List TOp) : TL := ops.foldl (fun s o => (step s o).1) s

/-- Specification: a tile covers the unit square to the bottom right of its position. -/
def UnitSquare (t : SItem) : Prop := t.box = some ⟨t.pos, ⟨t.pos.x + 1, t.pos.y + 1⟩, 0⟩

instance (t : SItem) : Decidable (UnitSquare t) := inferInstanceAs (Decidable (_ = _))

/-- Specification: the tiles handed in cover unit squares. -/
def TOp.Unit : TOp → Prop
  | .insert _ (.copyOf t _) _ _ | .insert _ (.ref t) _ _ | .append (.copyOf t _) _ _ | .append (.ref t) _ _ | .set _ t _ => UnitSquare t
  | _ => True

/-- Specification: no replacement fails its validation. -/
def TOp.NoFailedSet : TOp → Prop
  | .set _ _ b => b = none
  | _ => True

/-- Specification: the call neither renames nor moves a tile. -/
def TOp.Fixed : TOp → Prop
  | .rename _ _ | .move _ _ => False
  | _ => True

instance : DecidablePred TOp.Unit := fun o => by unfold TOp.Unit; split <;> infer_instance
instance : DecidablePred TOp.NoFailedSet := fun o => by unfold TOp.NoFailedSet; split <;> infer_instance
instance : DecidablePred TOp.Fixed := fun o => by unfold TOp.Fixed; split <;> infer_instance

/-- Specification: no two tiles of the list have the same name and the same position. -/
def NoTwins (l : List SItem) : Prop := l.Pairwise fun x y => ¬ (x.key = y.key ∧ x.pos = y.pos)

instance (l : List SItem) : Decidable (NoTwins l) := inferInstanceAs (Decidable (List.Pairwise _ _))

/-- What `==` sees of a tile. -/
def val (x : SItem) : ℕ × Vec := (x.key, x.pos)

theorem eqv_val {x y : SItem} : x.eqv y = true ↔ val x = val y := by
  rw [SItem.eqv_iff]; simp [val]

/-! ## Python lists -/

theorem pyInsert_perm {α : Type} (l : List α) (i : Int) (x : α) : (EList.pyInsert l i x).Perm (x :: l) := by
  unfold EList.pyInsert
  apply List.perm_insertIdx
  split <;> omega

theorem pyIndex_some {α : Type} {l : List α} {i : Int} {k : ℕ} (h : EList.pyIndex l i = some k) : k < l.length := by
  unfold EList.pyIndex at h
  split at h
  · cases h; omega
  · split at h
    · cases h; omega
    · cases h

theorem set_perm {α : Type} (l : List α) (i : ℕ) (x old : α) (h : l[i]? = some old) :
    l.Perm (old :: l.eraseIdx i) ∧ (l.set i x).Perm (x :: l.eraseIdx i) := by
  induction l generalizing i with
  | nil => simp at h
  | cons a r ih =>
    cases i with
    | zero => simp at h; subst h; simp
    | succ i =>
      simp at h
      obtain ⟨h1, h2⟩ := ih i h
      simp only [List.eraseIdx_cons_succ, List.set_cons_succ]
      exact ⟨(h1.cons a).trans (List.Perm.swap ..), (h2.cons a).trans (List.Perm.swap ..)⟩

theorem clampBound_pos {n : ℕ} {d : Int} {a : Option Int} (hd : 0 ≤ d ∧ d ≤ n) : 0 ≤ clampBound n 0 n d a ∧ clampBound n 0 n d a ≤ n := by
  unfold clampBound; split
  · exact hd
  · split <;> omega

theorem clampBound_neg {n : ℕ} {d : Int} {a : Option Int} (hd : -1 ≤ d ∧ d ≤ n - 1) :
    -1 ≤ clampBound n (-1) (n - 1) d a ∧ clampBound n (-1) (n - 1) d a ≤ n - 1 := by
  unfold clampBound; split
  · exact hd
  · split <;> omega

theorem sliceRange_spec (n : ℕ) (a b : Option Int) (c : Int) (hc : c ≠ 0) :
    (sliceRange n a b c).Nodup ∧ ∀ i ∈ sliceRange n a b c, 0 ≤ i ∧ i < n := by
  unfold sliceRange
  have nd : ∀ (s : Int) (m : ℕ), ((List.range m).map fun (k : ℕ) => s + k * c).Nodup := by
    intro s m
    refine List.Nodup.map ?_ List.nodup_range
    intro x y hxy
    simp only at hxy
    have : (x : Int) * c = y * c := by linarith
    exact_mod_cast mul_right_cancel₀ hc this
  split
  · rename_i hp
    refine ⟨nd _ _, ?_⟩
    intro i hi
    simp only [List.mem_map, List.mem_range] at hi
    obtain ⟨k, hk, rfl⟩ := hi
    have h1 := clampBound_pos (n := n) (d := 0) (a := a) (by omega)
    have h2 := clampBound_pos (n := n) (d := n) (a := b) (by omega)
    generalize clampBound n 0 n 0 a = s at *
    generalize clampBound n 0 n n b = e at *
    have h3 : (k : Int) + 1 ≤ (e - s + c - 1) / c := by omega
    have h4 := (Int.le_ediv_iff_mul_le hp).1 h3
    have h5 : 0 ≤ (k : Int) * c := by positivity
    constructor
    · linarith
    · nlinarith
  · rename_i hp
    refine ⟨nd _ _, ?_⟩
    intro i hi
    simp only [List.mem_map, List.mem_range] at hi
    obtain ⟨k, hk, rfl⟩ := hi
    have h1 := clampBound_neg (n := n) (d := n - 1) (a := a) (by omega)
    have h2 := clampBound_neg (n := n) (d := -1) (a := b) (by omega)
    generalize clampBound n (-1) (n - 1) (n - 1) a = s at *
    generalize clampBound n (-1) (n - 1) (-1) b = e at *
    have hc' : 0 < -c := by omega
    have h3 : (k : Int) + 1 ≤ (s - e + (-c) - 1) / (-c) := by omega
    have h4 := (Int.le_ediv_iff_mul_le hc').1 h3
    have h5 : 0 ≤ (k : Int) * (-c) := by positivity
    constructor
    · nlinarith
    · nlinarith

/-- Dropping and keeping positions splits a list. -/
theorem split_at (l : List SItem) (sel : List Int) (hn : sel.Nodup) (hb : ∀ i ∈ sel, 0 ≤ i ∧ i < l.length) :
    l.Perm (sel.filterMap (fun i => l[i.toNat]?) ++ dropAt sel l) := by
  have key : ∀ (l : List SItem) (o : ℕ) (sel : List Int), sel.Nodup → (∀ i ∈ sel, o ≤ i ∧ i < o + l.length) →
      l.Perm (sel.filterMap (fun i => l[i.toNat - o]?) ++ ((l.zipIdx o).filter fun p => (p.2 : Int) ∉ sel).map (·.1)) := by
    intro l
    induction l with
    | nil =>
      intro o sel _ hb
      have : sel = [] := by
        cases sel with
        | nil => rfl
        | cons i r => have := hb i (List.mem_cons_self ..); simp at this; omega
      simp [this]
    | cons x l ih =>
      intro o sel hn hb
      have rest : ∀ sel' : List Int, sel'.Nodup → (∀ i ∈ sel', (o : Int) + 1 ≤ i ∧ i < o + 1 + l.length) →
          sel'.filterMap (fun i => (x :: l)[i.toNat - o]?) = sel'.filterMap (fun i => l[i.toNat - (o + 1)]?) := by
        intro sel' _ hb'
        apply List.filterMap_congr
        intro i hi
        have := hb' i hi
        have h1 : i.toNat - o = (i.toNat - (o + 1)) + 1 := by omega
        rw [h1, List.getElem?_cons_succ]
      by_cases ho : (o : Int) ∈ sel
      · have hp := List.perm_cons_erase ho
        have hn' : (sel.erase (o : Int)).Nodup := hn.erase _
        have hb' : ∀ i ∈ sel.erase (o : Int), (o : Int) + 1 ≤ i ∧ i < o + 1 + l.length := by
          intro i hi
          have h1 := hb i (List.mem_of_mem_erase hi)
          have h2 : i ≠ o := fun h => by subst h; exact (hn.not_mem_erase) hi
          simp only [List.length_cons] at h1; push_cast at h1; omega
        have ihh := ih (o + 1) (sel.erase (o : Int)) hn' (by push_cast; exact hb')
        rw [List.zipIdx_cons, List.filter_cons_of_neg (by simp [ho])]
        refine List.Perm.trans (ihh.cons x) ?_
        rw [← List.cons_append]
        refine List.Perm.append ?_ ?_
        · refine List.Perm.trans ?_ (hp.filterMap _).symm
          rw [List.filterMap_cons]
          simp only [Int.toNat_natCast, Nat.sub_self, List.getElem?_cons_zero]
          rw [rest _ hn' hb']
        · apply List.Perm.of_eq
          congr 1
          apply List.filter_congr
          intro p hp
          have h3 := List.le_snd_of_mem_zipIdx hp
          have h4 : (p.2 : Int) ≠ o := by omega
          simp [List.mem_erase_of_ne h4]
      · have hb' : ∀ i ∈ sel, (o : Int) + 1 ≤ i ∧ i < o + 1 + l.length := by
          intro i hi
          have h1 := hb i hi
          have h2 : i ≠ o := fun h => by subst h; exact ho hi
          simp only [List.length_cons] at h1; push_cast at h1; omega
        have ihh := ih (o + 1) sel hn (by push_cast; exact hb')
        rw [List.zipIdx_cons, List.filter_cons_of_pos (by simpa using ho), rest _ hn hb']
        simp only [List.map_cons]
        exact (ihh.cons x).trans List.perm_middle.symm
  have := key l 0 sel hn (by simpa using hb)
  simpa [dropAt] using this

/-! ## One call as a change of the members -/

/-- Removing several tiles from the map. -/
def removeAll (m : SMap) (xs : List SItem) : SMap := xs.foldl (SMap.remove cellSize) m

theorem removeEach_eq (root : List SItem) (sel : List Int) (m : SMap) :
    removeEach m root sel = removeAll m (sel.filterMap fun i => root[i.toNat]?) := by
  unfold removeEach removeAll
  induction sel generalizing m with
  | nil => rfl
  | cons i r ih =>
    simp only [List.foldl_cons, List.filterMap_cons]
    cases h : root[i.toNat]? with
    | none => simpa using ih m
    | some x => simpa using ih _

/-- A successful call takes the tiles `xs` out and puts the tiles `ys` in, in the list and in the map. -/
structure Shape (s s' : TL) (xs ys R : List SItem) : Prop where
  before : s.root.Perm (xs ++ R)
  after : s'.root.Perm (ys ++ R)
  map : s'.map = ys.foldl (SMap.add cellSize) (removeAll s.map xs)
  unit : ∀ y ∈ ys, UnitSquare y

theorem Shape.same {s s' : TL} (h1 : s'.root = s.root) (h2 : s'.map = s.map) : Shape s s' [] [] s.root :=
  ⟨by simp, by simp [h1], by simp [h2, removeAll], by simp⟩

theorem setParent_mem {s : TL} {u uid : ℕ} (hp : s.parent = true) (h : u ∈ s.parented ∨ uid = u) : u ∈ setParent s uid := by
  unfold setParent
  rw [if_pos hp]
  rcases h with h | h
  · exact List.mem_cons_of_mem _ h
  · rw [h]; exact List.mem_cons_self ..

theorem place_shape (s : TL) (idx : Int) (t : SItem) (merge : Bool) (bad : Option PyErr) (ht : UnitSquare t) :
    ∃ ys, Shape s (place s idx t merge bad).1 [] ys s.root ∧
      (ys = [] ∨ ys = [t] ∧ (merge = true → ∀ q, t.box = some q → ∀ y ∈ s.map.getInAabb cellSize q, mergable y t = false)) := by
  unfold place
  cases bad with
  | some e => exact ⟨[], Shape.same rfl rfl, .inl rfl⟩
  | none =>
    have added : ∀ (s' : TL), s' = { s with root := EList.pyInsert s.root idx t, map := s.map.add cellSize t, parented := setParent s t.uid } →
        Shape s s' [] [t] s.root := by
      rintro s' rfl
      refine ⟨by simp, pyInsert_perm .., by simp [removeAll], by simpa using ht⟩
    cases merge with
    | false => exact ⟨[t], added _ rfl, .inr ⟨rfl, by simp⟩⟩
    | true =>
      simp only [if_true]
      rcases C16_merge cellSize mergable s.map t with ⟨h, -⟩ | ⟨h, h'⟩
      · rw [h]; exact ⟨[], Shape.same rfl rfl, .inl rfl⟩
      · rw [h]; exact ⟨[t], added _ rfl, .inr ⟨rfl, fun _ => h'⟩⟩

/-- The tile an insertion adds and whether it merges, see `insert_shape`. -/
def Merged (s : TL) (t : SItem) : Prop := ∀ q, t.box = some q → ∀ y ∈ s.map.getInAabb cellSize q, mergable y t = false

theorem insert_shape (s : TL) (idx : Int) (src : Src) (merge : Bool) (bad : Option PyErr)
    (hu : TOp.Unit (.insert idx src merge bad)) :
    ∃ ys, Shape s (insert s idx src merge bad).1 [] ys s.root ∧
      (ys = [] ∨ ∃ t, ys = [t] ∧ (merge = true → Merged s t)) := by
  have lift : ∀ (t : SItem), UnitSquare t → ∃ ys, Shape s (place { s with next := s.next + 1 } idx t merge bad).1 [] ys s.root ∧
      (ys = [] ∨ ∃ t, ys = [t] ∧ (merge = true → Merged s t)) := by
    intro t ht
    obtain ⟨ys, ⟨h1, h2, h3, h4⟩, h⟩ := place_shape { s with next := s.next + 1 } idx t merge bad ht
    refine ⟨ys, ⟨h1, h2, h3, h4⟩, h.imp id ?_⟩
    rintro ⟨h7, h8⟩
    exact ⟨t, h7, h8⟩
  unfold insert
  cases src with
  | name n p => exact lift _ rfl
  | copyOf t p =>
    cases p with
    | none => exact lift _ hu
    | some p =>
      simp only
      split
      · exact ⟨[], Shape.same rfl rfl, .inl rfl⟩
      · exact lift _ rfl
  | ref t =>
    simp only
    split
    · exact ⟨[], Shape.same rfl rfl, .inl rfl⟩
    · obtain ⟨ys, h, h'⟩ := place_shape s idx t merge bad hu
      exact ⟨ys, h, h'.imp id fun ⟨h7, h8⟩ => ⟨t, h7, h8⟩⟩

theorem del_shape (s : TL) (i : ℕ) (x : SItem) (h : s.root[i]? = some x) :
    Shape s { s with root := s.root.eraseIdx i, map := s.map.remove cellSize x } [x] [] (s.root.eraseIdx i) := by
  exact ⟨(set_perm s.root i x x h).1, by simp, by simp [removeAll], by simp⟩

/-- Every call but clearing, renaming and moving has such a shape. -/
theorem step_shape (s : TL) (o : TOp) (hu : o.Unit) (hs : o.NoFailedSet) (hf : o.Fixed) (hc : o ≠ .clear) :
    ∃ xs ys R, Shape s (step s o).1 xs ys R := by
  cases o with
  | insert i src m b => obtain ⟨ys, h, -⟩ := insert_shape s i src m b hu; exact ⟨_, _, _, h⟩
  | append src m b =>
    obtain ⟨ys, h, -⟩ := insert_shape s s.root.length src m b (by cases src <;> exact hu); exact ⟨_, _, _, h⟩
  | set i t b =>
    cases hs
    simp only [step, setItem]
    split
    · exact ⟨_, _, _, Shape.same rfl rfl⟩
    · rename_i k hk
      split
      · exact ⟨_, _, _, Shape.same rfl rfl⟩
      · rename_i old ho
        obtain ⟨h1, h2⟩ := set_perm s.root k t old ho
        exact ⟨[old], [t], s.root.eraseIdx k, h1, h2, by simp [removeAll], by intro y hy; rw [List.mem_singleton.1 hy]; exact hu⟩
  | del i =>
    simp only [step, delInt]
    split
    · exact ⟨_, _, _, Shape.same rfl rfl⟩
    · split
      · exact ⟨_, _, _, Shape.same rfl rfl⟩
      · rename_i old ho; exact ⟨_, _, _, del_shape s _ old ho⟩
  | delSlice a b c =>
    simp only [step, delSlice]
    split
    · exact ⟨_, _, _, Shape.same rfl rfl⟩
    · rename_i hc0
      obtain ⟨h1, h2⟩ := sliceRange_spec s.root.length a b _ hc0
      exact ⟨_, [], _, split_at s.root _ h1 h2, by simp, by simp [removeEach_eq], by simp⟩
  | clear => exact absurd rfl hc
  | rename u n => exact hf.elim
  | move u p => exact hf.elim

/-! ## The map up to equality of tiles -/

theorem index_addAll {m : SMap} {L : List SItem} (h : SMap.Index cellSize m L) (ys : List SItem) :
    SMap.Index cellSize (ys.foldl (SMap.add cellSize) m) (L ++ ys) := by
  induction ys generalizing m L with
  | nil => simpa using h
  | cons y r ih =>
    have := ih (SMap.index_add h y)
    simpa using this

theorem eraseP_val (L : List SItem) (x : SItem) : (L.eraseP fun y => y.eqv x).map val = (L.map val).erase (val x) := by
  induction L with
  | nil => rfl
  | cons y r ih =>
    by_cases h : y.eqv x = true
    · have h' := eqv_val.1 h
      simp [h, h']
    · have h' : val y ≠ val x := fun hh => h (eqv_val.2 hh)
      rw [List.eraseP_cons_of_neg (by simpa using h), List.map_cons, List.map_cons, ih, List.erase_cons_tail (by simpa using h')]

theorem remA {m : SMap} {L xs : List SItem} {R : List (ℕ × Vec)} (h : SMap.Index cellSize m L) (hL : ∀ x ∈ L, UnitSquare x)
    (hx : ∀ x ∈ xs, UnitSquare x) (hp : (L.map val).Perm (xs.map val ++ R)) :
    ∃ L', SMap.Index cellSize (removeAll m xs) L' ∧ (∀ x ∈ L', UnitSquare x) ∧ (L'.map val).Perm R := by
  induction xs generalizing m L with
  | nil => exact ⟨L, h, hL, by simpa using hp⟩
  | cons x r ih =>
    have h1 : SMap.Index cellSize (SMap.remove cellSize m x) (L.eraseP fun y => y.eqv x) := by
      apply SMap.index_remove h
      intro y hy he
      rw [hL y hy, hx x (List.mem_cons_self ..), (SItem.eqv_iff.1 he).2]
    refine ih h1 (fun y hy => hL y (List.mem_of_mem_eraseP hy)) (fun y hy => hx y (List.mem_cons_of_mem _ hy)) ?_
    rw [eraseP_val]
    have := hp.erase (val x)
    simpa using this

/-- The invariant up to equality. -/
def InvA (s : TL) : Prop :=
  ∃ L, SMap.Index cellSize s.map L ∧ (∀ x ∈ L, UnitSquare x) ∧ (∀ x ∈ s.root, UnitSquare x) ∧ (L.map val).Perm (s.root.map val)

theorem invA_shape {s s' : TL} {xs ys R : List SItem} (h : InvA s) (hs : Shape s s' xs ys R) : InvA s' := by
  obtain ⟨L, h1, h2, h3, h4⟩ := h
  have hxs : ∀ x ∈ xs, UnitSquare x := fun x hx => h3 x (hs.before.mem_iff.2 (List.mem_append_left _ hx))
  have hp := h4.trans (hs.before.map val)
  rw [List.map_append] at hp
  obtain ⟨L', h5, h6, h7⟩ := remA h1 h2 hxs hp
  refine ⟨L' ++ ys, ?_, ?_, ?_, ?_⟩
  · rw [hs.map]; exact index_addAll h5 ys
  · intro x hx
    rcases List.mem_append.1 hx with hx | hx
    · exact h6 x hx
    · exact hs.unit x hx
  · intro x hx
    rcases List.mem_append.1 (hs.after.mem_iff.1 hx) with hx | hx
    · exact hs.unit x hx
    · exact h3 x (hs.before.mem_iff.2 (List.mem_append_right _ hx))
  · rw [List.map_append]
    refine List.Perm.trans ?_ (hs.after.map val).symm
    rw [List.map_append]
    exact (h7.append_right _).trans List.perm_append_comm

theorem invA_empty (p : Bool) (n : ℕ) : InvA (empty p n) :=
  ⟨[], SMap.index_nil _, by simp, by simp [empty], by simp [empty]⟩

theorem invA_clear (s : TL) : InvA (clear s) := ⟨[], SMap.index_nil _, by simp, by simp [clear], by simp [clear]⟩

theorem invA_step {s : TL} (o : TOp) (hu : o.Unit) (hs : o.NoFailedSet) (hf : o.Fixed) (h : InvA s) : InvA (step s o).1 := by
  by_cases hc : o = .clear
  · subst hc; exact invA_clear s
  · obtain ⟨xs, ys, R, hsh⟩ := step_shape s o hu hs hf hc
    exact invA_shape h hsh

theorem run_snoc (s : TL) (ops : List TOp) (o : TOp) : run s (ops ++ [o]) = (step (run s ops) o).1 := by
  simp [run]

theorem invA_run (p : Bool) (n : ℕ) (ops : List TOp) (hu : ∀ o ∈ ops, o.Unit) (hs : ∀ o ∈ ops, o.NoFailedSet)
    (hf : ∀ o ∈ ops, o.Fixed) : InvA (run (empty p n) ops) := by
  induction ops using List.reverseRecOn with
  | nil => exact invA_empty p n
  | append_singleton ops o ih =>
    rw [run_snoc]
    refine invA_step o (hu o (by simp)) (hs o (by simp)) (hf o (by simp)) (ih ?_ ?_ ?_)
    · intro o' h; exact hu o' (List.mem_append_left _ h)
    · intro o' h; exact hs o' (List.mem_append_left _ h)
    · intro o' h; exact hf o' (List.mem_append_left _ h)

/-- Specification: the tiles of the list whose square meets a cell of eight by eight tiles (squares are cut by `1/1000` at the
right and at the bottom, so that a tile left of a cell border is not in the next cell). -/
def inCell (c : Cell) (x : SItem) : Bool :=
  decide (x.pos.x < (c.1 + 1) * 8 ∧ (c.1 : ℚ) * 8 ≤ x.pos.x + 1 - 1/1000) &&
  decide (x.pos.y < (c.2 + 1) * 8 ∧ (c.2 : ℚ) * 8 ≤ x.pos.y + 1 - 1/1000)

theorem mem_cells_iff {x : SItem} (h : UnitSquare x) (c : Cell) : c ∈ cellsFromAabb cellSize x.box ↔ inCell c x = true := by
  rw [h, mem_cellsFromAabb (by decide)]
  unfold AABB.Covers' inCell
  simp only [Bool.and_eq_true, decide_eq_true_eq]
  norm_num

theorem view_some_ne (l : List SItem) : view l ≠ some [] := by
  unfold view; split <;> simp_all

theorem filter_inCell {L : List SItem} (h : ∀ x ∈ L, UnitSquare x) (c : Cell) :
    L.filter (fun x => c ∈ cellsFromAabb cellSize x.box) = L.filter (inCell c) := by
  apply List.filter_congr
  intro x hx
  rw [Bool.eq_iff_iff, decide_eq_true_eq]
  exact mem_cells_iff (h x hx) c

theorem inCell_val {x y : SItem} (h : val x = val y) (c : Cell) : inCell c x = inCell c y := by
  have : x.pos = y.pos := congrArg Prod.snd h
  unfold inCell; rw [this]

theorem filter_val_perm {L M : List SItem} (h : (L.map val).Perm (M.map val)) (c : Cell) :
    ((L.filter (inCell c)).map val).Perm ((M.filter (inCell c)).map val) := by
  let q : ℕ × Vec → Bool := fun v => inCell c ⟨0, v.1, v.2, none⟩
  have e : ∀ K : List SItem, (K.filter (inCell c)).map val = (K.map val).filter q := by
    intro K
    rw [List.filter_map]
    congr 1
  rw [e, e]
  exact h.filter q

/-- C68: after any history of insertions (of new tiles, of copies, of given objects, merging or not, accepted or refused by the
validation), replacements that pass validation, deletions by index or by any slice, and clearings, each cell of the map holds,
up to `==`, exactly the tiles of the list that lie in the cell, each as often as the list holds it, and no cell is left
empty. -/
theorem C68_index (p : Bool) (n : ℕ) (ops : List TOp) (hu : ∀ o ∈ ops, o.Unit) (hs : ∀ o ∈ ops, o.NoFailedSet)
    (hf : ∀ o ∈ ops, o.Fixed) (c : Cell) :
    ((((run (empty p n) ops).map.get? c).getD []).map fun x => (x.key, x.pos)).Perm
      (((run (empty p n) ops).root.filter (inCell c)).map fun x => (x.key, x.pos)) ∧
    (run (empty p n) ops).map.get? c ≠ some [] := by
  obtain ⟨L, h1, h2, h3, h4⟩ := invA_run p n ops hu hs hf
  rw [h1.2 c, view_getD, filter_inCell h2]
  exact ⟨filter_val_perm h4 c, view_some_ne _⟩

/-- A history for `C68_index`. -/
example :
    let t : SItem := ⟨90, 1, ⟨7, 7⟩, some ⟨⟨7, 7⟩, ⟨8, 8⟩, 0⟩⟩
    let ops : List TOp := [.append (.name 1 ⟨7, 7⟩) false none, .append (.name 1 ⟨8, 7⟩) false none, .insert 0 (.ref t) false none,
      .append (.copyOf t none) true none, .append (.name 2 ⟨0, 0⟩) false (some .dataFormat), .set 1 t none,
      .append (.name 3 ⟨1, 1⟩) false none, .delSlice none none (some (-2))]
    (∀ o ∈ ops, o.Unit) ∧ (∀ o ∈ ops, o.NoFailedSet) ∧ (∀ o ∈ ops, o.Fixed) ∧
    (run (empty true 0) ops).root.map (·.uid) = [90, 1] ∧
    ((run (empty true 0) ops).map.get? (0, 0)).map (fun l => l.map (·.uid)) = some [90] ∧
    ((run (empty true 0) ops).map.get? (1, 0)).map (fun l => l.map (·.uid)) = some [1] := by
  decide +kernel

/-! ## The map as a set of objects -/

theorem eraseP_eq_erase {L : List SItem} (h : NoTwins L) {x : SItem} (hx : x ∈ L) : (L.eraseP fun y => y.eqv x) = L.erase x := by
  induction L with
  | nil => cases hx
  | cons y r ih =>
    by_cases hy : y = x
    · subst hy; simp [SItem.eqv_refl]
    · have hx' : x ∈ r := by
        rcases List.mem_cons.1 hx with h | h
        · exact absurd h.symm hy
        · exact h
      have hne : ¬ y.eqv x = true := fun he => (List.pairwise_cons.1 h).1 x hx' (SItem.eqv_iff.1 he)
      rw [List.eraseP_cons_of_neg (by simpa using hne), List.erase_cons_tail (by simpa using hy), ih (List.pairwise_cons.1 h).2 hx']

theorem NoTwins.perm {L M : List SItem} (h : NoTwins L) (hp : L.Perm M) : NoTwins M := by
  refine (hp.pairwise_iff ?_).1 h
  intro a b hab hba
  exact hab ⟨hba.1.symm, hba.2.symm⟩

theorem remB {m : SMap} {L xs R : List SItem} (h : SMap.Index cellSize m L) (hn : NoTwins L) (hp : L.Perm (xs ++ R)) :
    ∃ L', SMap.Index cellSize (removeAll m xs) L' ∧ L'.Perm R := by
  induction xs generalizing m L with
  | nil => exact ⟨L, h, by simpa using hp⟩
  | cons x r ih =>
    have hx : x ∈ L := hp.mem_iff.2 (by simp)
    have h1 : SMap.Index cellSize (SMap.remove cellSize m x) (L.erase x) := by
      rw [← eraseP_eq_erase hn hx]
      apply SMap.index_remove h
      intro y hy he
      by_contra hne
      have hyx : y ≠ x := fun h => hne (by rw [h])
      have := (hn.perm (List.perm_cons_erase hx))
      have hy' : y ∈ L.erase x := (List.mem_erase_of_ne hyx).2 hy
      have h2 := SItem.eqv_iff.1 he
      exact (List.pairwise_cons.1 this).1 y hy' ⟨h2.1.symm, h2.2.symm⟩
    refine ih h1 (List.Pairwise.sublist List.erase_sublist hn) ?_
    have := hp.erase x
    simpa using this

theorem get?_mapVal (f : SItem → SItem) (m : SMap) (c : Cell) :
    Dict.get? (m.map fun p => (p.1, p.2.map f)) c = (Dict.get? m c).map fun l => l.map f := by
  induction m with
  | nil => rfl
  | cons p r ih =>
    obtain ⟨k, l⟩ := p
    simp only [List.map_cons, Dict.get?]
    split
    · rfl
    · exact ih

theorem index_map {m : SMap} {L : List SItem} (f : SItem → SItem) (hf : ∀ x, (f x).box = x.box) (h : SMap.Index cellSize m L) :
    SMap.Index cellSize (m.map fun p => (p.1, p.2.map f)) (L.map f) := by
  refine ⟨?_, fun c => ?_⟩
  · have : Dict.keys (m.map fun p => (p.1, p.2.map f)) = Dict.keys m := by
      unfold Dict.keys; rw [List.map_map]; rfl
    rw [this]; exact h.1
  · rw [get?_mapVal, h.2 c, List.filter_map]
    have : L.filter ((fun x => decide (c ∈ cellsFromAabb cellSize x.box)) ∘ f) = L.filter fun x => c ∈ cellsFromAabb cellSize x.box := by
      apply List.filter_congr; intro x _; simp [hf]
    rw [this]
    unfold view
    by_cases hL : L.filter (fun x => decide (c ∈ cellsFromAabb cellSize x.box)) = []
    · simp [hL]
    · rw [if_neg hL, if_neg (by simpa using hL)]; rfl

/-- Every tile of a list with a parent has a parent. -/
def Locked (s : TL) : Prop := s.parent = true → ∀ x ∈ s.root, x.uid ∈ s.parented

/-- The invariant for objects. -/
def InvB (s : TL) : Prop :=
  ∃ L, SMap.Index cellSize s.map L ∧ L.Perm s.root ∧ (∀ x ∈ s.root, UnitSquare x)

theorem invB_shape {s s' : TL} {xs ys R : List SItem} (h : InvB s) (hn : NoTwins s.root) (hs : Shape s s' xs ys R) : InvB s' := by
  obtain ⟨L, h1, h2, h3⟩ := h
  obtain ⟨L', h4, h5⟩ := remB h1 (hn.perm h2.symm) (h2.trans hs.before)
  refine ⟨L' ++ ys, ?_, ?_, ?_⟩
  · rw [hs.map]; exact index_addAll h4 ys
  · exact ((h5.append_right _).trans List.perm_append_comm).trans hs.after.symm
  · intro x hx
    rcases List.mem_append.1 (hs.after.mem_iff.1 hx) with hx | hx
    · exact hs.unit x hx
    · exact h3 x (hs.before.mem_iff.2 (List.mem_append_right _ hx))

theorem place_locked (s : TL) (idx : Int) (t : SItem) (merge : Bool) (bad : Option PyErr) (h : Locked s) (hp : s.parent = true) :
    Locked (place s idx t merge bad).1 ∧ (place s idx t merge bad).1.parent = true := by
  unfold place
  cases bad with
  | some e => exact ⟨h, hp⟩
  | none =>
    simp only
    generalize hg : (if merge then s.map.addMerge cellSize mergable t else (s.map.add cellSize t, some t)) = r
    obtain ⟨m, o⟩ := r
    cases o with
    | none => exact ⟨h, hp⟩
    | some t' =>
      refine ⟨fun _ x hx => setParent_mem hp ?_, hp⟩
      rcases List.mem_cons.1 ((pyInsert_perm ..).mem_iff.1 hx) with rfl | hx
      · exact .inr rfl
      · exact .inl (h hp x hx)

theorem insert_locked (s : TL) (idx : Int) (src : Src) (merge : Bool) (bad : Option PyErr) (h : Locked s) (hp : s.parent = true) :
    Locked (insert s idx src merge bad).1 ∧ (insert s idx src merge bad).1.parent = true := by
  have h' : Locked { s with next := s.next + 1 } := h
  unfold insert
  split
  · exact place_locked _ _ _ _ _ h' hp
  · exact place_locked _ _ _ _ _ h' hp
  · split
    · exact ⟨h, hp⟩
    · exact place_locked _ _ _ _ _ h' hp
  · split
    · exact ⟨h, hp⟩
    · exact place_locked _ _ _ _ _ h hp

theorem update_locked (s : TL) (u : ℕ) (f : SItem → SItem) (hf : ∀ x, (f x).uid = x.uid) (h : Locked s) : Locked (update s u f) := by
  intro hp x hx
  simp only [update, List.mem_map] at hx
  obtain ⟨y, hy, rfl⟩ := hx
  have := h hp y hy
  simp only [update]
  split
  · rw [hf]; exact this
  · exact this

theorem locked_step (s : TL) (o : TOp) (h : Locked s) (hp : s.parent = true) :
    Locked (step s o).1 ∧ (step s o).1.parent = true := by
  cases o with
  | insert i src m b => exact insert_locked s i src m b h hp
  | append src m b => exact insert_locked s _ src m b h hp
  | set i t b =>
    simp only [step, setItem]
    split
    · exact ⟨h, hp⟩
    · split
      · exact ⟨h, hp⟩
      · split
        · exact ⟨h, hp⟩
        · refine ⟨fun _ x hx => setParent_mem hp ?_, hp⟩
          rcases List.mem_or_eq_of_mem_set hx with hx | rfl
          · exact .inl (h hp x hx)
          · exact .inr rfl
  | del i =>
    simp only [step, delInt]
    split
    · exact ⟨h, hp⟩
    · split
      · exact ⟨h, hp⟩
      · exact ⟨fun _ x hx => h hp x (List.mem_of_mem_eraseIdx hx), hp⟩
  | delSlice a b c =>
    simp only [step, delSlice]
    split
    · exact ⟨h, hp⟩
    · rename_i hc0
      obtain ⟨h1, h2⟩ := sliceRange_spec s.root.length a b _ hc0
      refine ⟨fun _ x hx => h hp x ?_, hp⟩
      exact (split_at s.root _ h1 h2).mem_iff.2 (List.mem_append_right _ hx)
  | clear => exact ⟨fun _ x hx => by simp [step, clear] at hx, hp⟩
  | rename u n => exact ⟨update_locked s u _ (fun _ => rfl) h, hp⟩
  | move u p =>
    simp only [step, move]
    split
    · exact ⟨h, hp⟩
    · exact ⟨update_locked s u _ (fun _ => rfl) h, hp⟩

theorem locked_run (n : ℕ) (ops : List TOp) : Locked (run (empty true n) ops) ∧ (run (empty true n) ops).parent = true := by
  induction ops using List.reverseRecOn with
  | nil => exact ⟨fun _ x hx => by simp [run, empty] at hx, rfl⟩
  | append_singleton ops o ih => rw [run_snoc]; exact locked_step _ _ ih.1 ih.2

/-- C68: after any history whatever on the tiles of a blueprint, a tile that is in the list refuses to be moved, and nothing
changes. -/
theorem C68_locked (n : ℕ) (ops : List TOp) (x : SItem) (hx : x ∈ (run (empty true n) ops).root) (p : Vec) :
    step (run (empty true n) ops) (.move x.uid p) = (run (empty true n) ops, some .draftsmanError) := by
  obtain ⟨h, hp⟩ := locked_run n ops
  simp only [step, move]
  rw [if_pos (h hp x hx)]

example : (run (empty true 0) [.append (.name 1 ⟨3, 3⟩) false none]).root = [⟨0, 1, ⟨3, 3⟩, some ⟨⟨3, 3⟩, ⟨4, 4⟩, 0⟩⟩] := by decide +kernel

/-- C68 fails for copies: appending a copy of a tile that is in a blueprint at another position, to the blueprint itself, raises
an exception, for every history and every member, because the copy is taken for a tile inside a collection. -/
theorem C68_copy_refuted (n : ℕ) (ops : List TOp) (x : SItem) (hx : x ∈ (run (empty true n) ops).root) (p : Vec) (m : Bool)
    (b : Option PyErr) :
    step (run (empty true n) ops) (.append (.copyOf x (some p)) m b) = (run (empty true n) ops, some .draftsmanError) := by
  obtain ⟨h, hp⟩ := locked_run n ops
  simp only [step, append, insert]
  rw [if_pos (h hp x hx)]

theorem invB_update {s : TL} (u : ℕ) (n : ℕ) (h : InvB s) : InvB (rename s u n) := by
  obtain ⟨L, h1, h2, h3⟩ := h
  refine ⟨L.map fun x => if x.uid = u then { x with key := n } else x, ?_, ?_, ?_⟩
  · exact index_map _ (fun x => by split <;> rfl) h1
  · exact h2.map _
  · intro x hx
    simp only [rename, update, List.mem_map] at hx
    obtain ⟨y, hy, rfl⟩ := hx
    have := h3 y hy
    split
    · exact this
    · exact this

theorem update_absent {s : TL} {u : ℕ} (f : SItem → SItem) (h : InvB s) (hu : ∀ x ∈ s.root, x.uid ≠ u) : update s u f = s := by
  obtain ⟨L, h1, h2, h3⟩ := h
  have hmap : ∀ l : List SItem, (∀ x ∈ l, x.uid ≠ u) → l.map (fun x => if x.uid = u then f x else x) = l := by
    intro l hl
    conv_rhs => rw [← List.map_id l]
    apply List.map_congr_left
    intro x hx
    rw [if_neg (hl x hx)]; rfl
  have hm : s.map.map (fun p => (p.1, p.2.map fun x => if x.uid = u then f x else x)) = s.map := by
    conv_rhs => rw [← List.map_id s.map]
    apply List.map_congr_left
    rintro ⟨c, l⟩ hcl
    have hg : Dict.get? s.map c = some l := by
      have := h1.1
      clear h1 h2 h3
      revert hcl this
      generalize s.map = m
      intro hcl hn
      induction m with
      | nil => cases hcl
      | cons q r ih =>
        obtain ⟨k, v⟩ := q
        rw [Dict.keys_cons, List.nodup_cons] at hn
        rcases List.mem_cons.1 hcl with h | h
        · cases h; simp [Dict.get?]
        · have hne : k ≠ c := by
            rintro rfl
            exact hn.1 (List.mem_map.2 ⟨_, h, rfl⟩)
          simp only [Dict.get?]
          rw [if_neg (by simpa using hne)]
          exact ih h hn.2
    rw [h1.2 c] at hg
    have hl : l = L.filter fun x => c ∈ cellsFromAabb cellSize x.box := by
      unfold view at hg; split at hg
      · cases hg
      · exact (Option.some.inj hg).symm
    simp only [id]
    rw [hmap l]
    intro x hx
    rw [hl] at hx
    exact hu x (h2.mem_iff.1 (List.mem_filter.1 hx).1)
  unfold update
  rw [hm, hmap s.root hu]

/-- Specification: no state on the way holds two tiles of the same name and position. -/
def AlwaysApart (s : TL) (ops : List TOp) : Prop := ∀ ops', ops' <+: ops → NoTwins (run s ops').root

theorem invB_run (n : ℕ) (ops : List TOp) (hu : ∀ o ∈ ops, o.Unit) (hs : ∀ o ∈ ops, o.NoFailedSet)
    (ha : AlwaysApart (empty true n) ops) : InvB (run (empty true n) ops) := by
  induction ops using List.reverseRecOn with
  | nil => exact ⟨[], SMap.index_nil _, by simp [run, empty], by simp [run, empty]⟩
  | append_singleton ops o ih =>
    have ih := ih (fun o' h => hu o' (List.mem_append_left _ h)) (fun o' h => hs o' (List.mem_append_left _ h))
      (fun ops' h => ha ops' (h.trans (List.prefix_append ..)))
    have hn := ha ops (List.prefix_append ..)
    rw [run_snoc]
    generalize hr : run (empty true n) ops = s at *
    have shaped : o.Fixed → o ≠ .clear → InvB (step s o).1 := by
      intro hf hc
      obtain ⟨xs, ys, R, hsh⟩ := step_shape s o (hu o (by simp)) (hs o (by simp)) hf hc
      exact invB_shape ih hn hsh
    cases o with
    | insert i src m b => exact shaped trivial (by simp)
    | append src m b => exact shaped trivial (by simp)
    | set i t b => exact shaped trivial (by simp)
    | del i => exact shaped trivial (by simp)
    | delSlice a b c => exact shaped trivial (by simp)
    | clear => exact ⟨[], SMap.index_nil _, by simp [step, clear], by simp [step, clear]⟩
    | rename u k => exact invB_update u k ih
    | move u p =>
      simp only [step, move]
      split
      · exact ih
      · rename_i hnot
        obtain ⟨hl, hp⟩ := locked_run n ops
        rw [hr] at hl hp
        have : ∀ x ∈ s.root, x.uid ≠ u := fun x hx he => hnot (he ▸ hl hp x hx)
        rw [update_absent _ ih this]
        exact ih

/-- C68, as far as it goes: after any history on the tiles of a blueprint, renamings and refused moves included, each cell of the
map holds exactly the objects of the list that lie in the cell.  Missing: histories on whose way the list holds two tiles of the
same name and position (`C68_twin_refuted`) or a replacement fails its validation (`C68_set_refuted`). -/
theorem C68_objects_partial (n : ℕ) (ops : List TOp) (hu : ∀ o ∈ ops, o.Unit) (hs : ∀ o ∈ ops, o.NoFailedSet)
    (ha : AlwaysApart (empty true n) ops) (c : Cell) :
    (((run (empty true n) ops).map.get? c).getD []).Perm ((run (empty true n) ops).root.filter (inCell c)) ∧
    (run (empty true n) ops).map.get? c ≠ some [] := by
  obtain ⟨L, h1, h2, h3⟩ := invB_run n ops hu hs ha
  have h4 : ∀ x ∈ L, UnitSquare x := fun x hx => h3 x (h2.mem_iff.1 hx)
  rw [h1.2 c, view_getD, filter_inCell h4]
  exact ⟨h2.filter _, view_some_ne _⟩

/-- Specification: the tile sits on the integer grid. -/
def OnGrid (p : Vec) : Prop := ∃ i j : ℤ, p = ⟨i, j⟩

theorem half_between {i k : ℤ} (h1 : (i : ℚ) ≤ 1/2 + k) (h2 : (1 : ℚ)/2 + k ≤ i + 1) : i = k := by
  have h3 : (i : ℚ) < (k + 1 : ℤ) := by push_cast; linarith
  have h4 : (k : ℚ) < (i + 1 : ℤ) := by push_cast; linarith
  have h5 : i < k + 1 := by exact_mod_cast h3
  have h6 : k < i + 1 := by exact_mod_cast h4
  omega

/-- C68, as far as it goes: in these histories `find_tile` at a grid position returns exactly the tiles of the list with that
position, for a list whose tiles are on the grid. -/
theorem C68_find_partial (n : ℕ) (ops : List TOp) (hu : ∀ o ∈ ops, o.Unit) (hs : ∀ o ∈ ops, o.NoFailedSet)
    (ha : AlwaysApart (empty true n) ops) (hg : ∀ x ∈ (run (empty true n) ops).root, OnGrid x.pos) (p : Vec) (hp : OnGrid p) :
    (findTile 8 (run (empty true n) ops).map p).Perm ((run (empty true n) ops).root.filter fun x => x.pos = p) := by
  obtain ⟨L, h1, h2, h3⟩ := invB_run n ops hu hs ha
  generalize run (empty true n) ops = s at *
  have h4 : ∀ x ∈ L, UnitSquare x := fun x hx => h3 x (h2.mem_iff.1 hx)
  have hget : s.map.getOnPoint 8 (⟨1/2, 1/2⟩ + p) =
      (L.filter fun x => mapCoords 8 (⟨1/2, 1/2⟩ + p) ∈ cellsFromAabb 8 x.box).filter (SMap.coversPoint (⟨1/2, 1/2⟩ + p)) := by
    unfold SMap.getOnPoint
    rw [h1.2]
    unfold view
    split
    · rename_i l hl
      split at hl
      · simp at hl
      · cases hl; rw [SMap.scanPoint_none]; simp
    · rename_i hl
      split at hl
      · rename_i hnil; rw [hnil]; rfl
      · simp at hl
  unfold findTile
  rw [hget, List.filter_filter]
  refine List.Perm.trans (List.Perm.of_eq ?_) (h2.filter _)
  apply List.filter_congr
  intro x hx
  obtain ⟨i, j, hij⟩ := hg x (h2.mem_iff.1 hx)
  obtain ⟨k, l, rfl⟩ := hp
  rw [Bool.eq_iff_iff, Bool.and_eq_true, coversPoint_iff, decide_eq_true_eq, decide_eq_true_eq, h4 x hx, mem_cellsFromAabb (by decide)]
  have hpt : (⟨1/2, 1/2⟩ + ⟨(k : ℚ), (l : ℚ)⟩ : Vec) = ⟨1/2 + k, 1/2 + l⟩ := rfl
  rw [hpt, hij]
  simp only [Option.mem_some_iff, exists_eq_left', AABB.Has, AABB.Covers', mapCoords]
  constructor
  · rintro ⟨⟨h5, h6, h7, h8⟩, -⟩
    have hz : (0 : Vec).x = 0 ∧ (0 : Vec).y = 0 := ⟨rfl, rfl⟩
    rw [hz.1] at h5 h6
    rw [hz.2] at h7 h8
    have e1 := half_between (i := i) (k := k) (by linarith) (by linarith)
    have e2 := half_between (i := j) (k := l) (by linarith) (by linarith)
    rw [e1, e2]
  · intro he
    have e1 : (i : ℚ) = k := congrArg Vec.x he
    have e2 : (j : ℚ) = l := congrArg Vec.y he
    rw [e1, e2]
    have hz : (0 : Vec).x = 0 ∧ (0 : Vec).y = 0 := ⟨rfl, rfl⟩
    have a1 := (le_floor_div (cs := 8) (by decide) (1/2 + (k : ℚ)) _).1 le_rfl
    have a2 := (floor_div_le (cs := 8) (by decide) (1/2 + (k : ℚ)) _).1 le_rfl
    have a3 := (le_floor_div (cs := 8) (by decide) (1/2 + (l : ℚ)) _).1 le_rfl
    have a4 := (floor_div_le (cs := 8) (by decide) (1/2 + (l : ℚ)) _).1 le_rfl
    rw [hz.1, hz.2]
    refine ⟨⟨by linarith, by linarith, by linarith, by linarith⟩, ⟨by linarith, by linarith⟩, by linarith, by linarith⟩

theorem apart_inits (s : TL) (ops : List TOp) : AlwaysApart s ops ↔ ∀ ops' ∈ ops.inits, NoTwins (run s ops').root := by
  unfold AlwaysApart; simp only [List.mem_inits]

/-- A history for `C68_objects_partial` and `C68_find_partial`. -/
example :
    let ops : List TOp := [.append (.name 1 ⟨7, 7⟩) true none, .append (.name 2 ⟨7, 7⟩) false none, .append (.name 1 ⟨8, 7⟩) false none,
      .rename 0 5, .move 1 ⟨0, 0⟩, .append (.name 1 ⟨7, 7⟩) false none, .del (-2)]
    (∀ o ∈ ops, o.Unit) ∧ (∀ o ∈ ops, o.NoFailedSet) ∧ AlwaysApart (empty true 0) ops ∧
    (∀ x ∈ (run (empty true 0) ops).root, OnGrid x.pos) ∧
    ((run (empty true 0) ops).root.map fun x => (x.uid, x.key)) = [(0, 5), (1, 2), (3, 1)] ∧
    ((findTile 8 (run (empty true 0) ops).map ⟨7, 7⟩).map fun x => (x.uid, x.key)) = [(0, 5), (1, 2), (3, 1)] ∧
    findTile 8 (run (empty true 0) ops).map ⟨8, 7⟩ = [] := by
  refine ⟨by decide +kernel, by decide +kernel, (apart_inits _ _).2 (by decide +kernel), ?_, by decide +kernel⟩
  have h : (run (empty true 0) [.append (.name 1 ⟨7, 7⟩) true none, .append (.name 2 ⟨7, 7⟩) false none, .append (.name 1 ⟨8, 7⟩) false none,
      .rename 0 5, .move 1 ⟨0, 0⟩, .append (.name 1 ⟨7, 7⟩) false none, .del (-2)]).root.map (·.pos) = [⟨7, 7⟩, ⟨7, 7⟩, ⟨7, 7⟩] := by
    decide +kernel
  intro x hx
  have := List.mem_map_of_mem (f := fun x : SItem => x.pos) hx
  rw [h] at this
  simp at this
  exact ⟨7, 7, by rw [this]; norm_num⟩

/-! ## Merging -/

/-- Specification: every insertion asks for merging, nothing is replaced, renamed or moved. -/
def TOp.Merging : TOp → Prop
  | .insert _ _ m _ | .append _ m _ => m = true
  | .set _ _ _ | .rename _ _ | .move _ _ => False
  | _ => True

instance : DecidablePred TOp.Merging := fun o => by unfold TOp.Merging; split <;> infer_instance

theorem merged_apart {s : TL} (h : InvA s) {t : SItem} (ht : UnitSquare t) (hm : Merged s t) :
    ∀ x ∈ s.root, ¬ (t.key = x.key ∧ t.pos = x.pos) := by
  rintro x hx ⟨hk, hp⟩
  obtain ⟨L, h1, h2, h3, h4⟩ := h
  have hv : val x ∈ L.map val := h4.mem_iff.2 (List.mem_map_of_mem hx)
  obtain ⟨y, hy, hyx⟩ := List.mem_map.1 hv
  have hyk : y.key = t.key := by rw [hk]; exact congrArg Prod.fst hyx
  have hyp : y.pos = t.pos := by rw [hp]; exact congrArg Prod.snd hyx
  have hyb : y.box = t.box := by rw [h2 y hy, ht, hyp]
  obtain ⟨-, -, hscan⟩ := SMap.scan_index h1 (SMap.overlapsItem (tileBox t.pos)) (cellsFromAabb cellSize (some (tileBox t.pos)))
  have hbox : t.box = some (tileBox t.pos) := ht
  have hov : SMap.overlapsItem (tileBox t.pos) y = true := by
    unfold SMap.overlapsItem
    rw [hyb, hbox]
    simp [aabbOverlapsAabb, AABB.worldTopLeft, AABB.worldBotRight, tileBox]
  obtain ⟨c, hc, -⟩ := common_cell (cs := cellSize) (by decide) (tileBox t.pos) (tileBox t.pos)
    (by simp [tileBox]; norm_num; linarith) (by simp [tileBox]; norm_num; linarith)
  obtain ⟨z, hz, hzy⟩ := hscan y hy hov ⟨c, hc, by rw [hyb, hbox]; exact hc⟩
  have := hm _ hbox z hz
  have hzk := SItem.eqv_iff.1 hzy
  unfold mergable at this
  rw [hzk.1, hzk.2, hyk, hyp] at this
  simp at this

theorem NoTwins.of_shape {s s' : TL} {xs R : List SItem} (h : NoTwins s.root) (hs : Shape s s' xs [] R) : NoTwins s'.root := by
  have := h.perm hs.before
  refine NoTwins.perm ?_ hs.after.symm
  exact (List.pairwise_append.1 this).2.1

/-- C68: when every insertion asks for merging, the list never holds two tiles of the same name and position, whatever is
inserted and deleted. -/
theorem C68_merge (p : Bool) (n : ℕ) (ops : List TOp) (hu : ∀ o ∈ ops, o.Unit) (hm : ∀ o ∈ ops, o.Merging) :
    (run (empty p n) ops).root.Pairwise fun x y => ¬ (x.key = y.key ∧ x.pos = y.pos) := by
  suffices InvA (run (empty p n) ops) ∧ NoTwins (run (empty p n) ops).root from this.2
  induction ops using List.reverseRecOn with
  | nil => exact ⟨invA_empty p n, List.Pairwise.nil⟩
  | append_singleton ops o ih =>
    obtain ⟨ih1, ih2⟩ := ih (fun o' h => hu o' (List.mem_append_left _ h)) (fun o' h => hm o' (List.mem_append_left _ h))
    rw [run_snoc]
    have ho := hm o (by simp)
    have huo := hu o (by simp)
    have ins : ∀ i src b, TOp.Unit (.insert i src true b) →
        NoTwins (insert (run (empty p n) ops) i src true b).1.root := by
      intro i src b hub
      obtain ⟨ys, hsh, hy⟩ := insert_shape (run (empty p n) ops) i src true b hub
      rcases hy with rfl | ⟨t, rfl, ht⟩
      · exact ih2.of_shape hsh
      · refine NoTwins.perm ?_ hsh.after.symm
        exact List.pairwise_cons.2 ⟨merged_apart ih1 (hsh.unit t (by simp)) (ht rfl), ih2⟩
    have fixed : o.Fixed ∧ o.NoFailedSet := by cases o <;> first | exact ⟨trivial, trivial⟩ | exact ho.elim
    refine ⟨invA_step o huo fixed.2 fixed.1 ih1, ?_⟩
    cases o with
    | insert i src m b => cases ho; exact ins i src b huo
    | append src m b => cases ho; exact ins _ src b (by cases src <;> exact huo)
    | set i t b => exact ho.elim
    | del i =>
      simp only [step, delInt]
      split
      · exact ih2
      · split
        · exact ih2
        · exact List.Pairwise.sublist (List.eraseIdx_sublist ..) ih2
    | delSlice a b c =>
      simp only [step, delSlice]
      split
      · exact ih2
      · rename_i hc0
        obtain ⟨h1, h2⟩ := sliceRange_spec (run (empty p n) ops).root.length a b _ hc0
        exact (List.pairwise_append.1 (ih2.perm (split_at _ _ h1 h2))).2.1
    | clear => exact List.Pairwise.nil
    | rename u k => exact ho.elim
    | move u p => exact ho.elim

/-- A history for `C68_merge`. -/
example :
    let ops : List TOp := [.append (.name 1 ⟨7, 7⟩) true none, .insert 0 (.name 1 ⟨7, 7⟩) true none, .append (.name 2 ⟨7, 7⟩) true none,
      .append (.copyOf (mkTile 40 2 ⟨7, 7⟩) none) true none, .append (.copyOf (mkTile 40 2 ⟨7, 7⟩) (some ⟨8, 8⟩)) true none]
    (∀ o ∈ ops, o.Unit) ∧ (∀ o ∈ ops, o.Merging) ∧
    ((run (empty true 0) ops).root.map fun x => (x.uid, x.key)) = [(0, 1), (2, 2), (4, 2)] := by decide +kernel

/-! ## Where the list and the map part -/

/-- A tile is not merged unless it is copied: asking for both is refused, without effect. -/
theorem C68_mergeRef (s : TL) (idx : Int) (t : SItem) (bad : Option PyErr) :
    insert s idx (.ref t) true bad = (s, some .valueError) := rfl

/-- C68 fails for equal tiles: with two tiles of the same name and position, deleting the second takes the first out of the map.
The object found at the position is then the deleted one, and renaming the tile that is in the list is not seen. -/
theorem C68_twin_refuted :
    let s := run (empty true 0) [.append (.name 1 ⟨0, 0⟩) false none, .append (.name 1 ⟨0, 0⟩) false none, .del 1]
    s.root.map (·.uid) = [0] ∧ (findTile 8 s.map ⟨0, 0⟩).map (·.uid) = [1] ∧
    (run s [.rename 0 2]).root.map (·.key) = [2] ∧ (findTile 8 (run s [.rename 0 2]).map ⟨0, 0⟩).map (·.key) = [1] := by
  decide +kernel

/-- C68 fails when a replacement is refused: the old tile stays in the list and is gone from the map. -/
theorem C68_set_refuted (e : PyErr) :
    let s := run (empty true 0) [.append (.name 1 ⟨0, 0⟩) false none]
    let s' := run s [.set 0 (mkTile 7 2 ⟨0, 0⟩) (some e)]
    (step s (.set 0 (mkTile 7 2 ⟨0, 0⟩) (some e))).2 = some e ∧ s'.root = s.root ∧
    (findTile 8 s.map ⟨0, 0⟩).map (·.uid) = [0] ∧ findTile 8 s'.map ⟨0, 0⟩ = [] := by
  cases e <;> decide +kernel

/-- C68 fails for tiles that were taken out: a tile deleted from, replaced in or cleared from the list of a blueprint still refuses to be moved. -/
theorem C68_parent_refuted :
    let s := run (empty true 0) [.append (.name 1 ⟨0, 0⟩) false none]
    (∀ o ∈ [TOp.del 0, .clear, .set 0 (mkTile 7 2 ⟨0, 0⟩) none, .delSlice none none none],
      0 ∉ (run s [o]).root.map (·.uid) ∧ (step (run s [o]) (.move 0 ⟨5, 5⟩)).2 = some .draftsmanError) := by
  decide +kernel

/-- C68 fails for a list without a parent (as made by `union`, `intersection` and `difference`): its tiles can be moved without
the map being told; a tile moved to another cell is no longer found, and stays in the map when it is deleted. -/
theorem C68_orphan_refuted :
    let s := run (empty false 0) [.append (.name 1 ⟨0, 0⟩) false none, .move 0 ⟨20, 20⟩]
    s.root.map (·.pos) = [⟨20, 20⟩] ∧ findTile 8 s.map ⟨20, 20⟩ = [] ∧
    (run s [.del 0]).root = [] ∧ (run s [.del 0]).map.map (fun q => (q.1, q.2.map (·.uid))) = [((0, 0), [0])] := by
  decide +kernel

/-! ## Dictionaries handed to the constructor -/

/-- C68: a list of different dictionaries, each with a name, is read completely and in order; afterwards none of them has a
name any more, and no other dictionary has changed. -/
theorem C68_dicts (d : ℕ → Option ℕ) (l : List ℕ) (hn : l.Nodup) (h : ∀ i ∈ l, d i ≠ none) :
    (initNames d l).2 = (l.filterMap d, none) ∧ (∀ i, (initNames d l).1 i = if i ∈ l then none else d i) ∧
    (l.filterMap d).length = l.length := by
  induction l generalizing d with
  | nil => simp [initNames]
  | cons a r ih =>
    obtain ⟨n, ha⟩ := Option.ne_none_iff_exists'.1 (h a (List.mem_cons_self ..))
    rw [List.nodup_cons] at hn
    have hd : ∀ i ∈ r, (if i = a then none else d i) = d i := by
      intro i hi; rw [if_neg]; rintro rfl; exact hn.1 hi
    obtain ⟨h1, h2, h3⟩ := ih (fun j => if j = a then none else d j) hn.2 (by
      intro i hi; rw [hd i hi]; exact h i (List.mem_cons_of_mem _ hi))
    have h4 : r.filterMap (fun j => if j = a then none else d j) = r.filterMap d := List.filterMap_congr hd
    rw [h4] at h1 h3
    simp only [initNames, ha]
    refine ⟨?_, ?_, ?_⟩
    · rw [h1]; simp [ha]
    · intro i
      rw [h2 i]
      by_cases hia : i = a
      · simp [hia]
      · simp [hia]
    · simp [ha, h3]

example : (initNames (fun i => some (i + 10)) [0, 2]).2 = ([10, 12], none) := by decide

/-- C68 fails on the caller's side: the dictionaries are emptied of their names, so any list that contains one of the dictionaries
read before fails with a `KeyError`. -/
theorem C68_dicts_refuted (d : ℕ → Option ℕ) (l : List ℕ) (hn : l.Nodup) (h : ∀ i ∈ l, d i ≠ none) (l' : List ℕ) (hl : ∃ i ∈ l', i ∈ l)
    : (initNames (initNames d l).1 l').2.2 = some .keyError := by
  obtain ⟨-, h2, -⟩ := C68_dicts d l hn h
  have key : ∀ (l' : List ℕ) (e : ℕ → Option ℕ), (∃ i ∈ l', e i = none) → (initNames e l').2.2 = some .keyError := by
    intro l'
    induction l' with
    | nil => rintro e ⟨i, hi, -⟩; cases hi
    | cons a r ih =>
      rintro e ⟨i, hi, he⟩
      unfold initNames
      cases hea : e a with
      | none => rfl
      | some n =>
        simp only
        apply ih
        rcases List.mem_cons.1 hi with rfl | hi
        · rw [hea] at he; cases he
        · exact ⟨i, hi, by split <;> first | rfl | exact he⟩
  apply key
  obtain ⟨i, hi, hil⟩ := hl
  exact ⟨i, hi, by rw [h2, if_pos hil]⟩

end Draftsman.TileList
