import Verif.Proof.SpatialHash
import Verif.Props.Geometry
import Mathlib.Tactic.FieldSimp
import Mathlib.Data.List.Induction
import Mathlib.Data.List.Perm.Subperm
/-
C13 (area queries), C14 (point queries), C15 (radius queries), C16 (index consistency) for the spatial hash map.
-/
namespace Draftsman

/-! ## Histories and their members -/

/-- The calls a history is made of. -/
inductive SOp where
  | add (x : SItem)
  | remove (x : SItem)
  | clear

namespace SOp
/-- The index after one call. -/
def step (cs : ℕ) (m : SMap) : SOp → SMap
  | add x => m.add cs x
  | remove x => m.remove cs x
  | clear => SMap.clear
/-- The index after a history, starting empty. -/
def run (cs : ℕ) (ops : List SOp) : SMap := ops.foldl (step cs) []

/-- Specification: who is a member after one call (members are removed by identity). -/
def member (L : List SItem) : SOp → List SItem
  | add x => L ++ [x]
  | remove x => L.erase x
  | clear => []
/-- Specification: the members after a history. -/
def members (ops : List SOp) : List SItem := ops.foldl member []

/-- The item a call mentions. -/
def item : SOp → Option SItem
  | add x => some x
  | remove x => some x
  | clear => none
end SOp

/-- Within the history, items that compare equal are the same object. -/
def ToldApart (ops : List SOp) : Prop :=
  ∀ o ∈ ops, ∀ o' ∈ ops, ∀ x ∈ o.item, ∀ y ∈ o'.item, x.key = y.key → x.pos = y.pos → x = y

/-- Every item has a proper world box or none. -/
def WellPlaced (ops : List SOp) : Prop :=
  ∀ o ∈ ops, ∀ x ∈ o.item, ∀ b ∈ x.box, b.Proper ∧ b.position = 0

/-- All coordinates of the box are multiples of `1/n`. -/
def AABB.OnGrid (n : ℕ) (b : AABB) : Prop :=
  ∃ i j k l : ℤ, b.topLeft = ⟨(i : ℚ) / n, (j : ℚ) / n⟩ ∧ b.botRight = ⟨(k : ℚ) / n, (l : ℚ) / n⟩

/-! ## Geometry of cells -/

theorem floor_div_le {cs : ℕ} (h : 0 < cs) (q : ℚ) (i : ℤ) : ⌊q / cs⌋ ≤ i ↔ q < (i + 1) * cs := by
  have hc : (0 : ℚ) < cs := by exact_mod_cast h
  rw [← Int.lt_add_one_iff, Int.floor_lt, div_lt_iff₀ hc]; push_cast; rfl

theorem le_floor_div {cs : ℕ} (h : 0 < cs) (q : ℚ) (i : ℤ) : i ≤ ⌊q / cs⌋ ↔ (i : ℚ) * cs ≤ q := by
  have hc : (0 : ℚ) < cs := by exact_mod_cast h
  rw [Int.le_floor, le_div_iff₀ hc]

/-- Specification: the half-open cell `c` meets the box shrunk by `1/1000` at the right and the bottom. -/
def AABB.Covers' (cs : ℕ) (b : AABB) (c : Cell) : Prop :=
  (b.topLeft.x < (c.1 + 1) * cs ∧ (c.1 : ℚ) * cs ≤ b.botRight.x - 1/1000) ∧
  (b.topLeft.y < (c.2 + 1) * cs ∧ (c.2 : ℚ) * cs ≤ b.botRight.y - 1/1000)

theorem mem_cellsFromAabb {cs : ℕ} (h : 0 < cs) (b : AABB) (c : Cell) : c ∈ cellsFromAabb cs (some b) ↔ b.Covers' cs c := by
  unfold cellsFromAabb AABB.Covers' mapCoords cellEps
  rw [mem_cellRange]
  simp only [floor_div_le h, le_floor_div h]

theorem grid_gap {n : ℕ} (hn : 0 < n) (hn' : n ≤ 1000) {i k : ℤ} (h : (i : ℚ) / n < k / n) : (i : ℚ) / n ≤ k / n - 1/1000 := by
  have hc : (0 : ℚ) < n := by exact_mod_cast hn
  have h1 : (i : ℚ) < k := by
    rwa [div_lt_div_iff_of_pos_right hc] at h
  have h2 : i + 1 ≤ k := by exact_mod_cast h1
  have h3 : ((i : ℚ) + 1) ≤ k := by exact_mod_cast h2
  have h4 : (1 : ℚ) / 1000 ≤ 1 / n := by
    apply one_div_le_one_div_of_le hc; exact_mod_cast hn'
  have h5 : ((i : ℚ) + 1) / n ≤ k / n := by gcongr
  rw [add_div] at h5
  linarith

/-- The common cell of two boxes that overlap by at least `1/1000` in both directions. -/
theorem common_cell {cs : ℕ} (h : 0 < cs) (a b : AABB)
    (hx : max a.topLeft.x b.topLeft.x ≤ min a.botRight.x b.botRight.x - 1/1000)
    (hy : max a.topLeft.y b.topLeft.y ≤ min a.botRight.y b.botRight.y - 1/1000) :
    ∃ c, c ∈ cellsFromAabb cs (some a) ∧ c ∈ cellsFromAabb cs (some b) := by
  refine ⟨(⌊max a.topLeft.x b.topLeft.x / cs⌋, ⌊max a.topLeft.y b.topLeft.y / cs⌋), ?_, ?_⟩ <;>
  · rw [mem_cellsFromAabb h]
    have h1 := (le_floor_div h (max a.topLeft.x b.topLeft.x) _).1 le_rfl
    have h2 := (floor_div_le h (max a.topLeft.x b.topLeft.x) _).1 le_rfl
    have h3 := (le_floor_div h (max a.topLeft.y b.topLeft.y) _).1 le_rfl
    have h4 := (floor_div_le h (max a.topLeft.y b.topLeft.y) _).1 le_rfl
    have := le_max_left a.topLeft.x b.topLeft.x
    have := le_max_right a.topLeft.x b.topLeft.x
    have := le_max_left a.topLeft.y b.topLeft.y
    have := le_max_right a.topLeft.y b.topLeft.y
    have := min_le_left a.botRight.x b.botRight.x
    have := min_le_right a.botRight.x b.botRight.x
    have := min_le_left a.botRight.y b.botRight.y
    have := min_le_right a.botRight.y b.botRight.y
    unfold AABB.Covers'
    refine ⟨⟨?_, ?_⟩, ?_, ?_⟩ <;> simp only <;> linarith

/-! ## The index of a history -/

theorem item_of_member {ops : List SOp} {x : SItem} (hx : x ∈ SOp.members ops) : ∃ o ∈ ops, x ∈ o.item := by
  unfold SOp.members at hx
  have key : ∀ (ops : List SOp) (L : List SItem), x ∈ ops.foldl SOp.member L → x ∈ L ∨ ∃ o ∈ ops, x ∈ o.item := by
    intro ops
    induction ops with
    | nil => intro L h; exact .inl h
    | cons o r ih =>
      intro L h
      rcases ih _ h with h | ⟨o', ho', h⟩
      · cases o with
        | add y =>
          simp only [SOp.member, List.mem_append, List.mem_singleton] at h
          rcases h with h | rfl
          · exact .inl h
          · exact .inr ⟨_, List.mem_cons_self .., rfl⟩
        | remove y => exact .inl (List.mem_of_mem_erase h)
        | clear => simp [SOp.member] at h
      · exact .inr ⟨o', List.mem_cons_of_mem _ ho', h⟩
  rcases key ops [] hx with h | h
  · simp at h
  · exact h

theorem run_index (cs : ℕ) (ops : List SOp) (h : ToldApart ops) : SMap.Index cs (SOp.run cs ops) (SOp.members ops) := by
  unfold SOp.run SOp.members
  induction ops using List.reverseRecOn with
  | nil => exact SMap.index_nil cs
  | append_singleton ops o ih =>
    have h' : ToldApart ops := fun a ha b hb => h a (List.mem_append_left _ ha) b (List.mem_append_left _ hb)
    rw [List.foldl_append, List.foldl_append]
    have ih := ih h'
    cases o with
    | add x => exact SMap.index_add ih x
    | clear => exact SMap.index_nil cs
    | remove x =>
      have hsame : ∀ y ∈ ops.foldl SOp.member [], y.eqv x = true → y = x := by
        intro y hy hyx
        obtain ⟨o, ho, hoy⟩ := item_of_member (ops := ops) hy
        obtain ⟨h1, h2⟩ := SItem.eqv_iff.1 hyx
        exact h o (List.mem_append_left _ ho) (.remove x) (by simp) y hoy x rfl h1 h2
      have hr := SMap.index_remove ih x (fun y hy hyx => by rw [hsame y hy hyx])
      have he : (ops.foldl SOp.member []).eraseP (fun y => y.eqv x) = (ops.foldl SOp.member []).erase x := by
        rw [List.erase_eq_eraseP]
        generalize ops.foldl SOp.member [] = L at hsame
        clear hr ih
        induction L with
        | nil => rfl
        | cons y r ih =>
          have ih := ih (fun z hz => hsame z (List.mem_cons_of_mem _ hz))
          by_cases hyx : y = x
          · subst hyx; simp [SItem.eqv_refl]
          · have h1 : ¬ y.eqv x = true := fun h => hyx (hsame y (List.mem_cons_self ..) h)
            have h2 : ¬ (x == y) = true := by simpa using fun h : x = y => hyx h.symm
            rw [List.eraseP_cons_of_neg (by simpa using h1), List.eraseP_cons_of_neg (by simpa using h2), ih]
      rw [he] at hr
      exact hr

/-! ## C16 -/

/-- C16: after any history of distinguishable items every cell holds exactly the members whose (shrunk) box meets it, as often
as they are members and in order of insertion; and no cell is empty. -/
theorem C16_cells (cs : ℕ) (hcs : 0 < cs) (ops : List SOp) (h : ToldApart ops) (c : Cell) :
    (∀ l, (SOp.run cs ops).get? c = some l → l ≠ [] ∧ l.Sublist (SOp.members ops)) ∧
    ∀ x, ((∃ b, x.box = some b ∧ b.Covers' cs c) →
        (((SOp.run cs ops).get? c).getD []).count x = (SOp.members ops).count x) ∧
      ((¬ ∃ b, x.box = some b ∧ b.Covers' cs c) → x ∉ ((SOp.run cs ops).get? c).getD []) := by
  obtain ⟨-, hi⟩ := run_index cs ops h
  rw [hi]
  have hcov : ∀ x : SItem, c ∈ cellsFromAabb cs x.box ↔ ∃ b, x.box = some b ∧ b.Covers' cs c := by
    intro x
    cases hb : x.box with
    | none => simp [cellsFromAabb]
    | some b => rw [mem_cellsFromAabb hcs]; simp
  constructor
  · intro l hl
    unfold view at hl
    split at hl
    · simp at hl
    · rename_i hne
      cases hl
      exact ⟨hne, List.filter_sublist⟩
  · intro x
    rw [view_getD]
    constructor
    · intro hx
      rw [List.count_filter]
      simpa using (hcov x).2 hx
    · intro hx hm
      have := (List.mem_filter.1 hm).2
      exact hx ((hcov x).1 (by simpa using this))

/-- Three belts' worth of boxes used below. -/
def beltAt (uid : Nat) (x : ℚ) : SItem :=
  ⟨uid, 0, ⟨x + 1/2, 1/2⟩, some ⟨⟨x, 0⟩, ⟨x + 1, 1⟩, 0⟩⟩

example : ToldApart [.add (beltAt 0 0), .add (beltAt 1 7), .remove (beltAt 0 0), .add (beltAt 2 8)] := by
  unfold ToldApart; decide +kernel

/-- C16, on a common grid (all coordinates multiples of `1/n`, `n ≤ 1000`): the cells of a box are exactly those whose interior
it meets. -/
theorem C16_cells_on_grid (cs : ℕ) (hcs : 0 < cs) (n : ℕ) (hn : 0 < n) (hn' : n ≤ 1000) (b : AABB) (hb : b.Proper)
    (hp : b.position = 0) (hg : b.OnGrid n) (c : Cell) :
    c ∈ cellsFromAabb cs (some b) ↔
      ∃ p, b.HasStrictly p ∧ (⟨⟨c.1 * cs, c.2 * cs⟩, ⟨(c.1 + 1) * cs, (c.2 + 1) * cs⟩, 0⟩ : AABB).HasStrictly p := by
  have hc : (0 : ℚ) < cs := by exact_mod_cast hcs
  have hc0 : (n : ℚ) ≠ 0 := by positivity
  rw [mem_cellsFromAabb hcs]
  rw [← C04_overlap_iff b _ hb ⟨by simp only; nlinarith, by simp only; nlinarith⟩]
  obtain ⟨i, j, k, l, h1, h2⟩ := hg
  simp only [aabbOverlapsAabb, Bool.and_eq_true, decide_iff]
  simp only [AABB.Covers', AABB.worldTopLeft, AABB.worldBotRight, hp, Vec.zero_x, Vec.zero_y, add_zero, h1, h2, gt_iff_lt]
  have key : ∀ (m k : ℤ), ((m : ℚ) * cs ≤ k / n - 1/1000) ↔ (m : ℚ) * cs < k / n := by
    intro m k
    constructor
    · intro h; linarith
    · intro h
      have e : (m : ℚ) * cs = ((m * cs * n : ℤ) : ℚ) / n := by
        push_cast; field_simp
      rw [e] at h ⊢
      exact grid_gap hn hn' h
  rw [key, key]

example : (⟨⟨29/4, 0⟩, ⟨35/4, 1⟩, 0⟩ : AABB).OnGrid 4 ∧ (⟨⟨29/4, 0⟩, ⟨35/4, 1⟩, 0⟩ : AABB).Proper :=
  ⟨⟨29, 0, 35, 4, by norm_num, by norm_num⟩, by norm_num [AABB.Proper]⟩

theorem sum_map_ite (l : List Cell) (P : Cell → Prop) [DecidablePred P] (n : ℕ) :
    (l.map fun c => if P c then n else 0).sum = n * (l.filter fun c => P c).length := by
  induction l with
  | nil => rfl
  | cons c r ih =>
    by_cases h : P c
    · simp only [List.map_cons, List.sum_cons, h, if_true, decide_true, List.filter_cons_of_pos, List.length_cons, ih]
      ring
    · simp [h, ih]

/-- C16: asked for everything after any history of distinguishable items, the index names each member once for every cell its
(shrunk) box meets, and nothing else.  `cells` is any enumeration of those cells. -/
theorem C16_everything (cs : ℕ) (hcs : 0 < cs) (ops : List SOp) (h : ToldApart ops) (x : SItem) (cells : List Cell) (hn : cells.Nodup)
    (hc : ∀ c, c ∈ cells ↔ ∃ b, x.box = some b ∧ b.Covers' cs c) :
    (SOp.run cs ops).getAll.count x = (SOp.members ops).count x * cells.length := by
  obtain ⟨hk, hi⟩ := run_index cs ops h
  have hcov : ∀ c, c ∈ cellsFromAabb cs x.box ↔ c ∈ cells := by
    intro c
    rw [hc]
    cases hb : x.box with
    | none => simp [cellsFromAabb]
    | some b => rw [mem_cellsFromAabb hcs]; simp
  have hval : ∀ p ∈ SOp.run cs ops, p.2.count x = if p.1 ∈ cells then (SOp.members ops).count x else 0 := by
    intro p hp
    have h1 := Dict.get?_of_mem hk hp
    rw [hi] at h1
    have h2 : p.2 = (SOp.members ops).filter fun y => p.1 ∈ cellsFromAabb cs y.box := by
      have := congrArg (·.getD []) h1
      simpa [view_getD] using this.symm
    rw [h2]
    split
    · rename_i hin
      rw [List.count_filter]
      simpa using (hcov p.1).2 hin
    · rename_i hin
      rw [List.count_eq_zero]
      intro hm
      exact hin ((hcov p.1).1 (by simpa using (List.mem_filter.1 hm).2))
  have e1 : (SOp.run cs ops).getAll.count x =
      ((SOp.run cs ops).keys.map fun c => if c ∈ cells then (SOp.members ops).count x else 0).sum := by
    unfold SMap.getAll Dict.keys
    rw [List.count_flatMap, List.map_map]
    congr 1
    exact List.map_congr_left hval
  rw [e1, sum_map_ite]
  rcases Nat.eq_zero_or_pos ((SOp.members ops).count x) with h0 | h0
  · rw [h0]; simp
  · congr 1
    apply List.Perm.length_eq
    rw [List.perm_ext_iff_of_nodup (hk.filter _) hn]
    intro c
    simp only [List.mem_filter, decide_eq_true_eq, and_iff_right_iff_imp]
    intro hin
    rw [← Dict.get?_isSome, hi]
    have hm : x ∈ (SOp.members ops).filter fun y => c ∈ cellsFromAabb cs y.box := by
      rw [List.mem_filter]
      exact ⟨List.count_pos_iff.1 h0, by simpa using (hcov c).2 hin⟩
    unfold view
    split
    · rename_i he
      rw [he] at hm; simp at hm
    · rfl

/-- A box across two cells is named twice. -/
example : (SOp.run 8 [.add ⟨0, 0, ⟨8, 1⟩, some ⟨⟨7, 0⟩, ⟨9, 2⟩, 0⟩⟩, .add (beltAt 1 3)]).getAll =
    [⟨0, 0, ⟨8, 1⟩, some ⟨⟨7, 0⟩, ⟨9, 2⟩, 0⟩⟩, beltAt 1 3, ⟨0, 0, ⟨8, 1⟩, some ⟨⟨7, 0⟩, ⟨9, 2⟩, 0⟩⟩] := by
  decide +kernel

/-- C16: inserting an item and removing it again restores the very same index, if nothing equal to it is in its cells. -/
theorem C16_add_remove (cs : ℕ) (ops : List SOp) (h : ToldApart (ops ++ [.add x])) (hx : x ∉ SOp.members ops) :
    SOp.run cs (ops ++ [.add x, .remove x]) = SOp.run cs ops := by
  have h' : ToldApart ops := fun a ha b hb => h a (List.mem_append_left _ ha) b (List.mem_append_left _ hb)
  obtain ⟨hn, hi⟩ := run_index cs ops h'
  have hne : ∀ y ∈ SOp.members ops, ¬ y.eqv x = true := by
    intro y hy hyx
    obtain ⟨o, ho, hoy⟩ := item_of_member hy
    obtain ⟨h1, h2⟩ := SItem.eqv_iff.1 hyx
    exact hx ((h o (List.mem_append_left _ ho) (.add x) (by simp) y hoy x rfl h1 h2) ▸ hy)
  have e : SOp.run cs (ops ++ [.add x, .remove x]) = ((SOp.run cs ops).add cs x).remove cs x := by
    simp [SOp.run, SOp.step]
  rw [e]
  generalize SOp.run cs ops = m at *
  -- each pass of `remove` undoes the corresponding pass of `add`; do it cell by cell from the last one added
  have step : ∀ (cells : List Cell), cells.Nodup → ∀ m : SMap, m.keys.Nodup →
      (∀ c ∈ cells, ∀ l, m.get? c = some l → l ≠ [] ∧ ∀ y ∈ l, ¬ y.eqv x = true) →
      cells.foldl (SMap.removeCell x) (cells.foldl (SMap.addCell x) m) = m := by
    intro cells hc m hm hl
    have hadd := foldl_get? (f := fun o => some (o.getD [] ++ [x])) (fun m c => SMap.addCell_nodup x m c)
      (fun m c j _ => SMap.addCell_get? x m c j) cells hc m hm
    have hrem := foldl_get? (fun m c => SMap.removeCell_nodup x m c) (fun m c j h => SMap.removeCell_get? x m c j h) cells hc
      (cells.foldl (SMap.addCell x) m) hadd.1
    have hval : ∀ j, (cells.foldl (SMap.removeCell x) (cells.foldl (SMap.addCell x) m)).get? j = m.get? j := by
      intro j
      rw [hrem.2, hadd.2]
      by_cases hj : j ∈ cells
      · simp only [hj, if_true, SMap.removed]
        rw [if_pos (by simp [SItem.eqv_refl])]
        cases hmj : m.get? j with
        | none => simp [SItem.eqv_refl, view]
        | some l =>
          obtain ⟨hne, hno⟩ := hl j hj l hmj
          have : (l ++ [x]).eraseP (fun y => y.eqv x) = l := by
            rw [List.eraseP_append_right _ (fun y hy => hno y hy)]
            simp [SItem.eqv_refl]
          simp [this, view, hne]
      · simp [hj]
    -- order of keys
    have hkeys : ∀ (cells : List Cell) (m : SMap), m.keys.Nodup → ∃ t, (cells.foldl (SMap.addCell x) m).keys = m.keys ++ t := by
      intro cells
      induction cells with
      | nil => intro m _; exact ⟨[], by simp⟩
      | cons c r ih =>
        intro m hm
        obtain ⟨t, ht⟩ := ih (SMap.addCell x m c) (SMap.addCell_nodup x m c hm)
        have : ∃ s, (SMap.addCell x m c).keys = m.keys ++ s := by
          unfold SMap.addCell
          cases hg : m.get? c with
          | some l =>
            have : c ∈ m.keys := (Dict.get?_isSome m c).1 (by simp [hg])
            exact ⟨[], by simp [Dict.keys_set, this]⟩
          | none =>
            have : c ∉ m.keys := (Dict.get?_eq_none m c).1 hg
            exact ⟨[c], by simp [Dict.keys_set, this]⟩
        obtain ⟨s, hs⟩ := this
        exact ⟨s ++ t, by rw [List.foldl_cons, ht, hs, List.append_assoc]⟩
    have hsub : ∀ (cells : List Cell) (m : SMap), (cells.foldl (SMap.removeCell x) m).keys.Sublist m.keys := by
      intro cells
      induction cells with
      | nil => intro m; exact List.Sublist.refl _
      | cons c r ih =>
        intro m
        refine (ih _).trans ?_
        unfold SMap.removeCell
        cases hg : m.get? c with
        | none => exact List.Sublist.refl _
        | some l =>
          have : c ∈ m.keys := (Dict.get?_isSome m c).1 (by simp [hg])
          simp only
          split
          · split
            · exact Dict.keys_del_sublist _ _
            · rw [Dict.keys_set, if_pos this]
          · exact List.Sublist.refl _
    refine Dict.ext_of_keys hrem.1 ?_ hval
    obtain ⟨t, ht⟩ := hkeys cells m hm
    have hs := hsub cells (cells.foldl (SMap.addCell x) m)
    rw [ht] at hs
    have hmem : ∀ c, c ∈ (cells.foldl (SMap.removeCell x) (cells.foldl (SMap.addCell x) m)).keys ↔ c ∈ m.keys := by
      intro c; rw [← Dict.get?_isSome, ← Dict.get?_isSome, hval]
    have hnd : (m.keys ++ t).Nodup := ht ▸ hadd.1
    generalize (cells.foldl (SMap.removeCell x) (cells.foldl (SMap.addCell x) m)).keys = K at *
    obtain ⟨K₁, K₂, rfl, s1, s2⟩ := List.sublist_append_iff.1 hs
    have hK₂ : K₂ = [] := by
      rw [List.eq_nil_iff_forall_not_mem]
      intro c hc'
      have : c ∈ m.keys := (hmem c).1 (List.mem_append_right _ hc')
      exact (List.nodup_append.1 hnd).2.2 c this c (s2.subset hc') rfl
    subst hK₂
    rw [List.append_nil] at *
    refine s1.eq_of_length_le ?_
    have := (List.Nodup.subperm hm (l₂ := K₁) (fun c hc => (hmem c).2 hc)).length_le
    exact this
  refine step _ (nodup_cellsFromAabb _ _) m hn ?_
  intro c hc l hl
  rw [hi] at hl
  unfold view at hl
  split at hl
  · simp at hl
  · rename_i hnil
    cases hl
    exact ⟨hnil, fun y hy => hne y (List.mem_filter.1 hy).1⟩

example : ToldApart ([.add (beltAt 1 7)] ++ [.add (beltAt 2 8)]) ∧ beltAt 2 8 ∉ SOp.members [.add (beltAt 1 7)] := by
  unfold ToldApart; decide +kernel

/-- C16: clearing empties the index. -/
theorem C16_clear (cs : ℕ) (ops : List SOp) : SOp.run cs (ops ++ [.clear]) = [] := by
  simp [SOp.run, SOp.step, SMap.clear]

/-- C16 fails for items that compare equal without covering the same cells (equality ignores the direction): removing one of
them takes the other out of some of its cells. -/
theorem C16_equal_refuted :
    let x : SItem := ⟨0, 0, ⟨8, 1⟩, some ⟨⟨15/2, 0⟩, ⟨17/2, 2⟩, 0⟩⟩
    let y : SItem := ⟨1, 0, ⟨8, 1⟩, some ⟨⟨7, 1/2⟩, ⟨8, 3/2⟩, 0⟩⟩
    SOp.members [.add x, .remove y] = [x] ∧ (SOp.run 8 [.add x]) = [((0, 0), [x]), ((1, 0), [x])] ∧
    SOp.run 8 [.add x, .remove y] = [((1, 0), [x])] := by
  decide +kernel

mutual
/-- Specification: the entities of a member, depth first. -/
def STree.leaves : STree → List SItem
  | .leaf x => [x]
  | .group l => STree.leavesAll l
/-- Specification: the entities of a list of members. -/
def STree.leavesAll : List STree → List SItem
  | [] => []
  | t :: r => t.leaves ++ STree.leavesAll r
end

mutual
theorem STree.addTo_eq (cs : ℕ) (m : SMap) : (t : STree) → t.addTo cs m = t.leaves.foldl (SMap.add cs) m
  | .leaf x => by simp [STree.addTo, STree.leaves]
  | .group l => by rw [STree.addTo, STree.leaves, STree.addAll_eq]
theorem STree.addAll_eq (cs : ℕ) (m : SMap) : (l : List STree) → STree.addAll cs m l = (STree.leavesAll l).foldl (SMap.add cs) m
  | [] => by simp [STree.addAll, STree.leavesAll]
  | t :: r => by rw [STree.addAll, STree.leavesAll, List.foldl_append, STree.addTo_eq cs m t, STree.addAll_eq]
end
mutual
theorem STree.removeFrom_eq (cs : ℕ) (m : SMap) : (t : STree) → t.removeFrom cs m = t.leaves.foldl (SMap.remove cs) m
  | .leaf x => by simp [STree.removeFrom, STree.leaves]
  | .group l => by rw [STree.removeFrom, STree.leaves, STree.removeAll_eq]
theorem STree.removeAll_eq (cs : ℕ) (m : SMap) :
    (l : List STree) → STree.removeAll cs m l = (STree.leavesAll l).foldl (SMap.remove cs) m
  | [] => by simp [STree.removeAll, STree.leavesAll]
  | t :: r => by rw [STree.removeAll, STree.leavesAll, List.foldl_append, STree.removeFrom_eq cs m t, STree.removeAll_eq]
end

/-- C16: adding (removing) a group is adding (removing) its nested entities one by one, depth first. -/
theorem C16_groups (cs : ℕ) (ops : List SOp) (t : STree) :
    t.addTo cs (SOp.run cs ops) = SOp.run cs (ops ++ t.leaves.map .add) ∧
    t.removeFrom cs (SOp.run cs ops) = SOp.run cs (ops ++ t.leaves.map .remove) := by
  simp only [STree.addTo_eq, STree.removeFrom_eq, SOp.run, List.foldl_append, List.foldl_map, SOp.step]
  exact ⟨trivial, trivial⟩

/-- C16: with merging, an item is either added as without merging or, exactly when some overlapping member found by the area
query accepts it, absorbed without touching the index. -/
theorem C16_merge (cs : ℕ) (mergable : SItem → SItem → Bool) (m : SMap) (x : SItem) :
    (m.addMerge cs mergable x = (m, none) ∧ ∃ q, x.box = some q ∧ ∃ y ∈ m.getInAabb cs q, mergable y x = true) ∨
    (m.addMerge cs mergable x = (m.add cs x, some x) ∧ ∀ q, x.box = some q → ∀ y ∈ m.getInAabb cs q, mergable y x = false) := by
  unfold SMap.addMerge
  cases hb : x.box with
  | none => right; simp
  | some q =>
    simp only
    by_cases h : (m.getInAabb cs q).any (fun y => mergable y x) = true
    · left
      rw [if_pos h]
      obtain ⟨y, hy, hyx⟩ := List.any_eq_true.1 h
      exact ⟨by trivial, q, rfl, y, hy, hyx⟩
    · right
      rw [if_neg h]
      refine ⟨by trivial, ?_⟩
      intro q' hq y hy
      cases hq
      by_contra hne
      exact h (List.any_eq_true.2 ⟨y, hy, by simpa using hne⟩)

/-! ## C13 -/

theorem overlapsItem_iff {q : AABB} {x : SItem} (hq : q.Proper) (hx : ∀ b ∈ x.box, b.Proper) :
    SMap.overlapsItem q x = true ↔ ∃ b ∈ x.box, ∃ p, b.HasStrictly p ∧ q.HasStrictly p := by
  unfold SMap.overlapsItem
  cases hb : x.box with
  | none => simp
  | some b => simp only [Option.mem_some_iff, exists_eq_left']; exact C04_overlap_iff b q (hx b hb) hq

/-- C13: everything an area query returns is a member overlapping the area, and nothing is returned twice. -/
theorem C13_only (cs : ℕ) (ops : List SOp) (h : ToldApart ops) (hw : WellPlaced ops) (q : AABB) (hq : q.Proper) :
    (∀ x ∈ (SOp.run cs ops).getInAabb cs q, x ∈ SOp.members ops ∧ ∃ b ∈ x.box, ∃ p, b.HasStrictly p ∧ q.HasStrictly p) ∧
    ((SOp.run cs ops).getInAabb cs q).Nodup := by
  obtain ⟨h1, h2, -⟩ := SMap.scan_index (run_index cs ops h) (SMap.overlapsItem q) (cellsFromAabb cs (some q))
  constructor
  · intro x hx
    obtain ⟨g1, g2, -⟩ := h1 x hx
    obtain ⟨o, ho, hox⟩ := item_of_member g2
    exact ⟨g2, (overlapsItem_iff hq (fun b hb => (hw o ho x hox b hb).1)).1 g1⟩
  · exact h2.imp (by intro a b hab hEq; exact hab (hEq ▸ SItem.eqv_refl _))

/-- C13, as far as it goes: every member whose box overlaps the area by at least `1/1000` in both directions is returned.
Missing: thinner overlaps (`C13_thin_refuted`), areas with a non-zero `position` (`C13_position_refuted`), items that compare
equal (`C13_equal_refuted`). -/
theorem C13_all_partial (cs : ℕ) (hcs : 0 < cs) (ops : List SOp) (h : ToldApart ops) (hw : WellPlaced ops)
    (q : AABB) (hp : q.position = 0)
    (x : SItem) (hx : x ∈ SOp.members ops) (b : AABB) (hb : b ∈ x.box)
    (hX : max b.topLeft.x q.topLeft.x ≤ min b.botRight.x q.botRight.x - 1/1000)
    (hY : max b.topLeft.y q.topLeft.y ≤ min b.botRight.y q.botRight.y - 1/1000) :
    x ∈ (SOp.run cs ops).getInAabb cs q := by
  obtain ⟨h1, -, h3⟩ := SMap.scan_index (run_index cs ops h) (SMap.overlapsItem q) (cellsFromAabb cs (some q))
  obtain ⟨o, ho, hox⟩ := item_of_member hx
  have hbp := hw o ho x hox b hb
  have hov : SMap.overlapsItem q x = true := by
    unfold SMap.overlapsItem
    rw [show x.box = some b from hb]
    simp only [aabbOverlapsAabb, Bool.and_eq_true, decide_iff]
    simp only [AABB.worldTopLeft, AABB.worldBotRight, hbp.2, hp, Vec.zero_x, Vec.zero_y, add_zero]
    have := le_max_left b.topLeft.x q.topLeft.x
    have := le_max_right b.topLeft.x q.topLeft.x
    have := le_max_left b.topLeft.y q.topLeft.y
    have := le_max_right b.topLeft.y q.topLeft.y
    have := min_le_left b.botRight.x q.botRight.x
    have := min_le_right b.botRight.x q.botRight.x
    have := min_le_left b.botRight.y q.botRight.y
    have := min_le_right b.botRight.y q.botRight.y
    refine ⟨⟨?_, ?_⟩, ?_, ?_⟩ <;> linarith
  obtain ⟨c, hc1, hc2⟩ := common_cell hcs b q hX hY
  obtain ⟨y, hy, hyx⟩ := h3 x hx hov ⟨c, hc2, by rw [show x.box = some b from hb]; exact hc1⟩
  obtain ⟨o', ho', hoy⟩ := item_of_member (h1 y hy).2.1
  obtain ⟨e1, e2⟩ := SItem.eqv_iff.1 hyx
  have := h o' ho' o ho y hoy x hox e1 e2
  exact this ▸ hy

/-- C13, on a common grid: when all coordinates are multiples of `1/n` for some `n ≤ 1000`, the answer is exactly the members
overlapping the area. -/
theorem C13_exact_on_grid (cs : ℕ) (hcs : 0 < cs) (ops : List SOp) (h : ToldApart ops) (hw : WellPlaced ops) (n : ℕ) (hn : 0 < n)
    (hn' : n ≤ 1000) (hg : ∀ o ∈ ops, ∀ x ∈ o.item, ∀ b ∈ x.box, b.OnGrid n)
    (q : AABB) (hq : q.Proper) (hp : q.position = 0) (hqg : q.OnGrid n) (x : SItem) :
    x ∈ (SOp.run cs ops).getInAabb cs q ↔
      x ∈ SOp.members ops ∧ ∃ b ∈ x.box, ∃ p, b.HasStrictly p ∧ q.HasStrictly p := by
  constructor
  · exact (C13_only cs ops h hw q hq).1 x
  · rintro ⟨hx, b, hb, p, hp1, hp2⟩
    obtain ⟨o, ho, hox⟩ := item_of_member hx
    have hbp := hw o ho x hox b hb
    obtain ⟨i, j, k, l, e1, e2⟩ := hg o ho x hox b hb
    obtain ⟨i', j', k', l', e1', e2'⟩ := hqg
    unfold AABB.HasStrictly at hp1 hp2
    rw [hbp.2, e1, e2] at hp1
    rw [hp, e1', e2'] at hp2
    simp only [Vec.zero_x, Vec.zero_y, add_zero] at hp1 hp2
    refine C13_all_partial cs hcs ops h hw q hp x hx b hb ?_ ?_
    · rw [e1, e2, e1', e2']
      simp only
      rcases max_choice ((i : ℚ) / n) (i' / n) with hm | hm <;> rcases min_choice ((k : ℚ) / n) (k' / n) with hm' | hm' <;>
        rw [hm, hm'] <;> apply grid_gap hn hn' <;> linarith
    · rw [e1, e2, e1', e2']
      simp only
      rcases max_choice ((j : ℚ) / n) (j' / n) with hm | hm <;> rcases min_choice ((l : ℚ) / n) (l' / n) with hm' | hm' <;>
        rw [hm, hm'] <;> apply grid_gap hn hn' <;> linarith

/-- A history meeting the hypotheses, with a non-trivial answer. -/
example : WellPlaced [.add (beltAt 0 0), .add (beltAt 1 7), .remove (beltAt 0 0)] ∧ (beltAt 1 7).box = some ⟨⟨7, 0⟩, ⟨8, 1⟩, 0⟩ ∧
    (SOp.run 8 [.add (beltAt 0 0), .add (beltAt 1 7), .remove (beltAt 0 0)]).getInAabb 8 ⟨⟨0, 0⟩, ⟨15/2, 1/2⟩, 0⟩ = [beltAt 1 7] := by
  unfold WellPlaced AABB.Proper; decide +kernel

/-- C13: a limit cuts the unlimited answer short. -/
theorem C13_limit (cs : ℕ) (m : SMap) (q : AABB) (n : Int) :
    m.getInAabb cs q (some n) = (m.getInAabb cs q).take n.toNat := SMap.scan_limit m _ n _

/-- C13 fails for overlaps thinner than `1/1000` across a cell boundary. -/
theorem C13_thin_refuted :
    let x : SItem := ⟨0, 0, ⟨4, 1/2⟩, some ⟨⟨0, 0⟩, ⟨8 + 1/2000, 1⟩, 0⟩⟩
    let q : AABB := ⟨⟨8, 0⟩, ⟨9, 1⟩, 0⟩
    SOp.members [.add x] = [x] ∧ aabbOverlapsAabb ⟨⟨0, 0⟩, ⟨8 + 1/2000, 1⟩, 0⟩ q = true ∧ (SOp.run 8 [.add x]).getInAabb 8 q = [] := by
  decide +kernel

/-- C13 fails for areas given with a non-zero `position`: the cells are taken from the local corners. -/
theorem C13_position_refuted :
    let q : AABB := ⟨⟨0, 0⟩, ⟨1, 1⟩, ⟨100, 0⟩⟩
    aabbOverlapsAabb ⟨⟨100, 0⟩, ⟨101, 1⟩, 0⟩ q = true ∧ (beltAt 0 100).box = some ⟨⟨100, 0⟩, ⟨101, 1⟩, 0⟩ ∧
    (SOp.run 8 [.add (beltAt 0 100)]).getInAabb 8 q = [] := by
  decide +kernel

/-- C13 fails for distinct members that compare equal: only one of them is returned. -/
theorem C13_equal_refuted :
    SOp.members [.add (beltAt 0 0), .add (beltAt 1 0)] = [beltAt 0 0, beltAt 1 0] ∧
    (SOp.run 8 [.add (beltAt 0 0), .add (beltAt 1 0)]).getInAabb 8 ⟨⟨0, 0⟩, ⟨1, 1⟩, 0⟩ = [beltAt 0 0] := by
  decide +kernel

/-! ## C14 -/

theorem coversPoint_iff {p : Vec} {x : SItem} : SMap.coversPoint p x = true ↔ ∃ b ∈ x.box, b.Has p := by
  unfold SMap.coversPoint
  cases hb : x.box with
  | none => simp
  | some b => simp only [Option.mem_some_iff, exists_eq_left']; exact C04_point_iff p b

theorem getOnPoint_eq (cs : ℕ) (ops : List SOp) (h : ToldApart ops) (p : Vec) :
    (SOp.run cs ops).getOnPoint cs p =
      ((SOp.members ops).filter fun x => mapCoords cs p ∈ cellsFromAabb cs x.box).filter (SMap.coversPoint p) := by
  unfold SMap.getOnPoint
  rw [(run_index cs ops h).2]
  unfold view
  split
  · rename_i l hl
    split at hl
    · simp at hl
    · cases hl; rw [SMap.scanPoint_none]; simp
  · rename_i hl
    split at hl
    · rename_i hnil; rw [hnil]; rfl
    · simp at hl

/-- C14: a point query returns only members whose closed box contains the point, each at most as often as it is a member, in
order of insertion. -/
theorem C14_only (cs : ℕ) (ops : List SOp) (h : ToldApart ops) (p : Vec) :
    ((SOp.run cs ops).getOnPoint cs p).Sublist (SOp.members ops) ∧
    ∀ x ∈ (SOp.run cs ops).getOnPoint cs p, ∃ b ∈ x.box, b.Has p := by
  rw [getOnPoint_eq cs ops h p]
  exact ⟨List.filter_sublist.trans List.filter_sublist, fun x hx => coversPoint_iff.1 (List.mem_filter.1 hx).2⟩

/-- C14, as far as it goes: every member whose box contains the point at least `1/1000` away from the right and bottom edges is
returned.  Missing: points on these edges (`C14_edge_refuted`). -/
theorem C14_all_partial (cs : ℕ) (hcs : 0 < cs) (ops : List SOp) (h : ToldApart ops) (hw : WellPlaced ops) (p : Vec)
    (x : SItem) (hx : x ∈ SOp.members ops) (b : AABB) (hb : b ∈ x.box) (hp : b.Has p)
    (hX : p.x ≤ b.botRight.x - 1/1000) (hY : p.y ≤ b.botRight.y - 1/1000) :
    x ∈ (SOp.run cs ops).getOnPoint cs p := by
  rw [getOnPoint_eq cs ops h p]
  obtain ⟨o, ho, hox⟩ := item_of_member hx
  have hbp := hw o ho x hox b hb
  refine List.mem_filter.2 ⟨List.mem_filter.2 ⟨hx, ?_⟩, coversPoint_iff.2 ⟨b, hb, hp⟩⟩
  rw [show x.box = some b from hb]
  simp only [decide_iff]
  rw [mem_cellsFromAabb hcs]
  unfold AABB.Has at hp
  rw [hbp.2] at hp
  simp only [Vec.zero_x, Vec.zero_y, add_zero] at hp
  have h1 := (le_floor_div hcs p.x _).1 le_rfl
  have h2 := (floor_div_le hcs p.x _).1 le_rfl
  have h3 := (le_floor_div hcs p.y _).1 le_rfl
  have h4 := (floor_div_le hcs p.y _).1 le_rfl
  unfold AABB.Covers' mapCoords
  refine ⟨⟨?_, ?_⟩, ?_, ?_⟩ <;> simp only <;> linarith

/-- C14, on a common grid: points strictly left of the right edge and above the bottom edge are answered exactly. -/
theorem C14_interior_on_grid (cs : ℕ) (hcs : 0 < cs) (ops : List SOp) (h : ToldApart ops) (hw : WellPlaced ops) (n : ℕ) (hn : 0 < n)
    (hn' : n ≤ 1000) (i j : ℤ) (x : SItem) (b : AABB) (hb : b ∈ x.box) (hg : b.OnGrid n)
    (hr : (i : ℚ) / n < b.botRight.x) (hbo : (j : ℚ) / n < b.botRight.y) :
    x ∈ (SOp.run cs ops).getOnPoint cs ⟨(i : ℚ) / n, (j : ℚ) / n⟩ ↔
      x ∈ SOp.members ops ∧ b.Has ⟨(i : ℚ) / n, (j : ℚ) / n⟩ := by
  constructor
  · intro hx
    obtain ⟨h1, h2⟩ := C14_only cs ops h ⟨(i : ℚ) / n, (j : ℚ) / n⟩
    obtain ⟨b', hb', hh⟩ := h2 x hx
    have : b' = b := Option.mem_unique hb' hb
    exact ⟨h1.subset hx, this ▸ hh⟩
  · rintro ⟨hx, hp⟩
    obtain ⟨_, _, k, l, -, e⟩ := hg
    rw [e] at hr hbo
    exact C14_all_partial cs hcs ops h hw _ x hx b hb hp (by rw [e]; exact grid_gap hn hn' hr) (by rw [e]; exact grid_gap hn hn' hbo)

example : (SOp.run 8 [.add (beltAt 0 0), .add (beltAt 1 7), .remove (beltAt 0 0)]).getOnPoint 8 ⟨(15 : ℤ) / (2 : ℕ), (0 : ℤ) / (2 : ℕ)⟩ = [beltAt 1 7] := by
  decide +kernel

/-- C14: a limit cuts the unlimited answer short. -/
theorem C14_limit (cs : ℕ) (m : SMap) (p : Vec) (n : Int) :
    m.getOnPoint cs p (some n) = (m.getOnPoint cs p).take n.toNat := by
  unfold SMap.getOnPoint
  split
  · rw [← SMap.scanPoint_limit]; simp
  · simp

/-- C14 fails on the edges: a box ending at a cell boundary is never found at a point of its right edge, although the closed
box contains the point. -/
theorem C14_edge_refuted (cs : ℕ) (hcs : 0 < cs) (ops : List SOp) (h : ToldApart ops) (x : SItem) (b : AABB) (hb : b ∈ x.box)
    (k : ℤ) (hk : b.botRight.x = k * cs) (y : ℚ) : x ∉ (SOp.run cs ops).getOnPoint cs ⟨b.botRight.x, y⟩ := by
  rw [getOnPoint_eq cs ops h]
  intro hx
  have h1 := (List.mem_filter.1 (List.mem_filter.1 hx).1).2
  rw [show x.box = some b from hb] at h1
  simp only [decide_iff] at h1
  rw [mem_cellsFromAabb hcs] at h1
  obtain ⟨⟨-, h2⟩, -⟩ := h1
  have h3 := (le_floor_div hcs b.botRight.x k).2 hk.symm.le
  have hc : (0 : ℚ) < cs := by exact_mod_cast hcs
  have h4 : ((k : ℚ)) ≤ (⌊b.botRight.x / (cs : ℚ)⌋ : ℤ) := by exact_mod_cast h3
  unfold mapCoords at h2
  simp only at h2
  have := mul_le_mul_of_nonneg_right h4 hc.le
  linarith

example : (⟨⟨7, 0⟩, ⟨8, 1⟩, 0⟩ : AABB).Has ⟨8, 1/2⟩ ∧ (beltAt 1 7).box = some ⟨⟨7, 0⟩, ⟨8, 1⟩, 0⟩ ∧
    ((⟨⟨7, 0⟩, ⟨8, 1⟩, 0⟩ : AABB).botRight.x) = (1 : ℤ) * (8 : ℕ) := by
  unfold AABB.Has; decide +kernel

/-! ## C15 -/

/-- C15: a radius query returns only members whose position is within the radius, none twice. -/
theorem C15_only (cs : ℕ) (ops : List SOp) (h : ToldApart ops) (r : ℚ) (c : Vec) :
    (∀ x ∈ (SOp.run cs ops).getInRadius cs r c, x ∈ SOp.members ops ∧ InDisc x.pos c r) ∧
    ((SOp.run cs ops).getInRadius cs r c).Nodup := by
  obtain ⟨h1, h2, -⟩ := SMap.scan_index (run_index cs ops h) (fun x => pointInCircle x.pos r c) (cellsFromRadius cs r c)
  constructor
  · intro x hx
    obtain ⟨g1, g2, -⟩ := h1 x hx
    exact ⟨g2, (C08_point_in_circle_iff _ _ _).1 g1⟩
  · exact h2.imp (by intro a b hab hEq; exact hab (hEq ▸ SItem.eqv_refl _))

/-- C15, as far as it goes: every member in range that lies inside its own box (and not on its right or bottom edge) is
returned.  Missing: members without a box or outside it (`C15_refuted`). -/
theorem C15_all_partial (cs : ℕ) (hcs : 0 < cs) (ops : List SOp) (h : ToldApart ops) (hw : WellPlaced ops) (r : ℚ) (hr : 0 ≤ r)
    (c : Vec) (x : SItem) (hx : x ∈ SOp.members ops) (b : AABB) (hb : b ∈ x.box) (hp : b.Has x.pos)
    (hX : x.pos.x ≤ b.botRight.x - 1/1000) (hY : x.pos.y ≤ b.botRight.y - 1/1000) (hd : InDisc x.pos c r) :
    x ∈ (SOp.run cs ops).getInRadius cs r c := by
  obtain ⟨h1, -, h3⟩ := SMap.scan_index (run_index cs ops h) (fun x => pointInCircle x.pos r c) (cellsFromRadius cs r c)
  obtain ⟨o, ho, hox⟩ := item_of_member hx
  have hbp := hw o ho x hox b hb
  unfold AABB.Has at hp
  rw [hbp.2] at hp
  simp only [Vec.zero_x, Vec.zero_y, add_zero] at hp
  have f1 := (le_floor_div hcs x.pos.x _).1 le_rfl
  have f2 := (floor_div_le hcs x.pos.x _).1 le_rfl
  have f3 := (le_floor_div hcs x.pos.y _).1 le_rfl
  have f4 := (floor_div_le hcs x.pos.y _).1 le_rfl
  have hc : (0 : ℚ) < cs := by exact_mod_cast hcs
  have dx : |x.pos.x - c.x| ≤ r := by
    apply abs_le_of_sq_le_sq _ hr
    unfold InDisc at hd; nlinarith [sq_nonneg (x.pos.y - c.y)]
  have dy : |x.pos.y - c.y| ≤ r := by
    apply abs_le_of_sq_le_sq _ hr
    unfold InDisc at hd; nlinarith [sq_nonneg (x.pos.x - c.x)]
  obtain ⟨dx1, dx2⟩ := abs_le.1 dx
  obtain ⟨dy1, dy2⟩ := abs_le.1 dy
  have hcell : mapCoords cs x.pos ∈ cellsFromRadius cs r c := by
    unfold cellsFromRadius
    rw [List.mem_filter, mem_cellRange]
    constructor
    · unfold mapCoords
      exact ⟨⟨(floor_div_le hcs _ _).2 (by simp only; linarith), (le_floor_div hcs _ _).2 (by simp only; linarith)⟩,
        (floor_div_le hcs _ _).2 (by simp only; linarith), (le_floor_div hcs _ _).2 (by simp only; linarith)⟩
    · rw [C08_overlap_iff _ _ _ ⟨by simp only; nlinarith, by simp only; nlinarith⟩ hr]
      refine ⟨x.pos, ?_, hd⟩
      unfold AABB.Has mapCoords
      simp only [Vec.zero_x, Vec.zero_y, add_zero]
      exact ⟨f1, f2.le, f3, f4.le⟩
  have hbox : mapCoords cs x.pos ∈ cellsFromAabb cs x.box := by
    rw [show x.box = some b from hb, mem_cellsFromAabb hcs]
    unfold AABB.Covers' mapCoords
    refine ⟨⟨?_, ?_⟩, ?_, ?_⟩ <;> simp only <;> linarith
  obtain ⟨y, hy, hyx⟩ := h3 x hx ((C08_point_in_circle_iff _ _ _).2 hd) ⟨_, hcell, hbox⟩
  obtain ⟨o', ho', hoy⟩ := item_of_member (h1 y hy).2.1
  obtain ⟨e1, e2⟩ := SItem.eqv_iff.1 hyx
  exact (h o' ho' o ho y hoy x hox e1 e2) ▸ hy

/-- A member meeting the hypotheses, found across a cell boundary. -/
example : (⟨⟨7, 0⟩, ⟨8, 1⟩, 0⟩ : AABB).Has (beltAt 1 7).pos ∧ InDisc (beltAt 1 7).pos ⟨9, 1/2⟩ 2 ∧
    (SOp.run 8 [.add (beltAt 0 0), .add (beltAt 1 7)]).getInRadius 8 2 ⟨9, 1/2⟩ = [beltAt 1 7] := by
  unfold AABB.Has InDisc; decide +kernel

/-- C15: a limit cuts the unlimited answer short; never more than the limit is returned. -/
theorem C15_limit (cs : ℕ) (m : SMap) (r : ℚ) (c : Vec) (n : ℕ) :
    m.getInRadius cs r c (some n) = (m.getInRadius cs r c).take n ∧ (m.getInRadius cs r c (some n)).length ≤ n := by
  have h : m.getInRadius cs r c (some n) = (m.getInRadius cs r c).take n := by
    unfold SMap.getInRadius; rw [SMap.scan_limit]; simp
  refine ⟨h, ?_⟩
  rw [h]; exact List.length_take_le _ _

/-- C15 fails for members without a bounding box (unknown entities): they are in no cell, so no query ever finds them, not even
at their own position. -/
theorem C15_refuted (cs : ℕ) (ops : List SOp) (h : ToldApart ops) (x : SItem) (hx : x.box = none) (r : ℚ) (c : Vec) :
    x ∉ (SOp.run cs ops).getInRadius cs r c := by
  obtain ⟨h1, -, -⟩ := SMap.scan_index (run_index cs ops h) (fun x => pointInCircle x.pos r c) (cellsFromRadius cs r c)
  intro hm
  obtain ⟨-, -, k, -, hk⟩ := h1 x hm
  rw [hx] at hk; simp [cellsFromAabb] at hk

example : SOp.members [.add ⟨0, 0, 0, none⟩] = [⟨0, 0, 0, none⟩] ∧ InDisc (0 : Vec) 0 1 := by
  unfold InDisc; decide +kernel

end Draftsman
