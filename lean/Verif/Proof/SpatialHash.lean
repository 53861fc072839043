import Verif.Model.SpatialHash
import Verif.Proof.Dict
import Mathlib.Data.List.Nodup
import Mathlib.Tactic.Linarith
/- Lemmas about the spatial hash map. -/
namespace Draftsman

theorem mem_pyRange {a b k : Int} : k ∈ pyRange a b ↔ a ≤ k ∧ k < b := by
  simp only [pyRange, List.mem_map, List.mem_range]
  constructor
  · rintro ⟨n, hn, rfl⟩; omega
  · rintro ⟨h1, h2⟩; exact ⟨(k - a).toNat, by omega, by omega⟩

theorem nodup_pyRange (a b : Int) : (pyRange a b).Nodup := by
  unfold pyRange
  refine List.Nodup.map (fun x y h => ?_) List.nodup_range
  omega

theorem mem_cellRange {lo hi c : Cell} :
    c ∈ cellRange lo hi ↔ (lo.1 ≤ c.1 ∧ c.1 ≤ hi.1) ∧ lo.2 ≤ c.2 ∧ c.2 ≤ hi.2 := by
  obtain ⟨i, j⟩ := c
  simp only [cellRange, List.mem_flatMap, List.mem_map, mem_pyRange, Prod.mk.injEq]
  constructor
  · rintro ⟨j', ⟨h1, h2⟩, i', ⟨h3, h4⟩, rfl, rfl⟩; refine ⟨⟨?_, ?_⟩, ?_, ?_⟩ <;> omega
  · rintro ⟨⟨h1, h2⟩, h3, h4⟩; exact ⟨j, by omega, i, by omega, rfl, rfl⟩

theorem nodup_cellRange (lo hi : Cell) : (cellRange lo hi).Nodup := by
  unfold cellRange
  rw [List.nodup_flatMap]
  constructor
  · intro j _
    exact List.Nodup.map (fun x y h => by simpa using h) (nodup_pyRange _ _)
  · refine (nodup_pyRange _ _).imp ?_
    intro a b hab c hc1 hc2
    simp only [List.mem_map] at hc1 hc2
    obtain ⟨_, _, rfl⟩ := hc1
    obtain ⟨_, _, h⟩ := hc2
    simp only [Prod.mk.injEq] at h
    exact hab h.2.symm

theorem nodup_cellsFromAabb (cs : ℕ) (b : Option AABB) : (cellsFromAabb cs b).Nodup := by
  cases b with
  | none => exact List.nodup_nil
  | some a => exact nodup_cellRange _ _

theorem nodup_cellsFromRadius (cs : ℕ) (r : ℚ) (c : Vec) : (cellsFromRadius cs r c).Nodup :=
  (nodup_cellRange _ _).filter _

namespace SItem
theorem eqv_iff {a b : SItem} : a.eqv b = true ↔ a.key = b.key ∧ a.pos = b.pos := by
  simp [eqv]
theorem eqv_refl (a : SItem) : a.eqv a = true := by simp [eqv]
theorem eqv_symm {a b : SItem} (h : a.eqv b = true) : b.eqv a = true := by
  rw [eqv_iff] at *; exact ⟨h.1.symm, h.2.symm⟩
theorem eqv_trans {a b c : SItem} (h : a.eqv b = true) (h' : b.eqv c = true) : a.eqv c = true := by
  rw [eqv_iff] at *; exact ⟨h.1.trans h'.1, h.2.trans h'.2⟩
end SItem

/-- A cell with contents, or no cell. -/
def view (l : List SItem) : Option (List SItem) := if l = [] then none else some l

theorem view_getD (l : List SItem) : (view l).getD [] = l := by unfold view; split <;> simp_all

/-- Generic loop over distinct keys, each pass touching its own key only. -/
theorem foldl_get? {step : SMap → Cell → SMap} {f : Option (List SItem) → Option (List SItem)}
    (hn : ∀ m c, m.keys.Nodup → (step m c).keys.Nodup)
    (hs : ∀ m c j, m.keys.Nodup → (step m c).get? j = if c = j then f (m.get? j) else m.get? j)
    (cells : List Cell) (hc : cells.Nodup) (m : SMap) (hm : m.keys.Nodup) :
    (cells.foldl step m).keys.Nodup ∧
    ∀ j, (cells.foldl step m).get? j = if j ∈ cells then f (m.get? j) else m.get? j := by
  induction cells generalizing m with
  | nil => simpa using hm
  | cons c r ih =>
    rw [List.nodup_cons] at hc
    obtain ⟨h1, h2⟩ := ih hc.2 (step m c) (hn m c hm)
    refine ⟨h1, fun j => ?_⟩
    rw [List.foldl_cons, h2, hs m c j hm]
    by_cases hcj : c = j
    · subst hcj; simp [hc.1]
    · have : ¬ j = c := fun h => hcj h.symm
      simp [hcj, this]

namespace SMap

theorem addCell_get? (x : SItem) (m : SMap) (c j : Cell) :
    (addCell x m c).get? j = if c = j then some ((m.get? j).getD [] ++ [x]) else m.get? j := by
  unfold addCell
  by_cases h : c = j
  · subst h
    cases hm : m.get? c <;> simp [Dict.get?_set]
  · cases hm : m.get? c <;> simp [Dict.get?_set, h]

theorem addCell_nodup (x : SItem) (m : SMap) (c : Cell) (h : m.keys.Nodup) : (addCell x m c).keys.Nodup := by
  unfold addCell
  split <;> exact Dict.nodup_set h _ _

/-- Effect of one removal on the contents of a covered cell. -/
def removed (x : SItem) (o : Option (List SItem)) : Option (List SItem) :=
  match o with
  | none => none
  | some l => if l.any (fun y => y.eqv x) then view (l.eraseP fun y => y.eqv x) else some l

theorem removeCell_nodup (x : SItem) (m : SMap) (c : Cell) (h : m.keys.Nodup) : (removeCell x m c).keys.Nodup := by
  unfold removeCell
  split
  · exact h
  · split
    · simp only; split
      · exact Dict.nodup_del h _
      · exact Dict.nodup_set h _ _
    · exact h

theorem removeCell_get? (x : SItem) (m : SMap) (c j : Cell) (h : m.keys.Nodup) :
    (removeCell x m c).get? j = if c = j then removed x (m.get? j) else m.get? j := by
  unfold removeCell removed view
  by_cases hc : c = j
  · subst hc
    cases hm : m.get? c with
    | none => simp [hm]
    | some l =>
      simp only [if_true]
      split
      · split
        · rw [Dict.get?_del h]; simp
        · rw [Dict.get?_set]; simp
      · exact hm
  · cases hm : m.get? c with
    | none => simp [hc]
    | some l =>
      simp only [hc, if_false]
      split
      · split
        · rw [Dict.get?_del h]; simp [hc]
        · rw [Dict.get?_set]; simp [hc]
      · rfl

theorem add_get? (cs : ℕ) (m : SMap) (x : SItem) (hm : m.keys.Nodup) :
    (add cs m x).keys.Nodup ∧ ∀ j, (add cs m x).get? j =
      if j ∈ cellsFromAabb cs x.box then some ((m.get? j).getD [] ++ [x]) else m.get? j :=
  foldl_get? (f := fun o => some (o.getD [] ++ [x])) (fun m c => addCell_nodup x m c)
    (fun m c j _ => addCell_get? x m c j) _ (nodup_cellsFromAabb _ _) m hm

theorem remove_get? (cs : ℕ) (m : SMap) (x : SItem) (hm : m.keys.Nodup) :
    (remove cs m x).keys.Nodup ∧ ∀ j, (remove cs m x).get? j =
      if j ∈ cellsFromAabb cs x.box then removed x (m.get? j) else m.get? j :=
  foldl_get? (fun m c => removeCell_nodup x m c) (fun m c j h => removeCell_get? x m c j h) _ (nodup_cellsFromAabb _ _) m hm

/-- The index of a list of members. -/
def Index (cs : ℕ) (m : SMap) (L : List SItem) : Prop :=
  m.keys.Nodup ∧ ∀ c, m.get? c = view (L.filter fun x => c ∈ cellsFromAabb cs x.box)

theorem index_nil (cs : ℕ) : Index cs [] [] := by
  refine ⟨by simp, fun c => by simp [view]⟩

theorem index_add {cs : ℕ} {m : SMap} {L : List SItem} (h : Index cs m L) (x : SItem) : Index cs (add cs m x) (L ++ [x]) := by
  obtain ⟨h1, h2⟩ := add_get? cs m x h.1
  refine ⟨h1, fun c => ?_⟩
  rw [h2, h.2, view_getD, List.filter_append]
  by_cases hc : c ∈ cellsFromAabb cs x.box
  · simp [hc, view]
  · simp [hc]

theorem filter_eraseP_of_imp {p q : SItem → Bool} {L : List SItem} (h : ∀ y ∈ L, p y = true → q y = true) :
    (L.eraseP p).filter q = (L.filter q).eraseP p := by
  induction L with
  | nil => rfl
  | cons y r ih =>
    have ih' := ih (fun z hz => h z (List.mem_cons_of_mem _ hz))
    by_cases hp : p y = true
    · have hq := h y (List.mem_cons_self ..) hp
      simp [hp, hq]
    · by_cases hq : q y = true
      · simp [hp, hq, ih']
      · simp [hp, hq, ih']

theorem filter_eraseP_of_not {p q : SItem → Bool} {L : List SItem} (h : ∀ y ∈ L, p y = true → q y = false) :
    (L.eraseP p).filter q = L.filter q := by
  induction L with
  | nil => rfl
  | cons y r ih =>
    have ih' := ih (fun z hz => h z (List.mem_cons_of_mem _ hz))
    by_cases hp : p y = true
    · have hq := h y (List.mem_cons_self ..) hp
      simp [hp, hq]
    · by_cases hq : q y = true
      · simp [hp, hq, ih']
      · simp [hp, hq, ih']

theorem removed_view (x : SItem) (l : List SItem) : removed x (view l) = view (l.eraseP fun y => y.eqv x) := by
  unfold removed view
  by_cases hl : l = []
  · simp [hl]
  · simp only [hl, if_false]
    split_ifs with h1 h2
    · rfl
    · rfl
    · rename_i h3
      rw [List.eraseP_of_forall_not] at h3
      · exact absurd h3 hl
      · intro a ha hh; exact h1 (List.any_eq_true.2 ⟨a, ha, hh⟩)
    · rw [List.eraseP_of_forall_not]
      intro a ha hh; exact h1 (List.any_eq_true.2 ⟨a, ha, hh⟩)

theorem index_remove {cs : ℕ} {m : SMap} {L : List SItem} (h : Index cs m L) (x : SItem)
    (hb : ∀ y ∈ L, y.eqv x = true → y.box = x.box) : Index cs (remove cs m x) (L.eraseP fun y => y.eqv x) := by
  obtain ⟨h1, h2⟩ := remove_get? cs m x h.1
  refine ⟨h1, fun c => ?_⟩
  rw [h2, h.2, removed_view]
  by_cases hc : c ∈ cellsFromAabb cs x.box
  · rw [if_pos hc, filter_eraseP_of_imp]
    intro y hy hyx
    rw [hb y hy hyx]; simpa using hc
  · rw [if_neg hc, filter_eraseP_of_not]
    intro y hy hyx
    rw [hb y hy hyx]; simpa using hc

/-! Scanning. -/

theorem scanCell_prefix (ok : SItem → Bool) (l items : List SItem) : ∃ t, scanCell ok none l items = items ++ t := by
  induction l generalizing items with
  | nil => exact ⟨[], by simp [scanCell]⟩
  | cons x r ih =>
    unfold scanCell
    split
    · rw [if_neg (by simp [full])]
      split
      · exact ih items
      · obtain ⟨t, ht⟩ := ih (items ++ [x]); exact ⟨x :: t, by rw [ht]; simp⟩
    · exact ih items

theorem full_take (n : Int) (I : List SItem) : full (some n) (I.take n.toNat) = decide (n ≤ I.length) := by
  unfold full
  by_cases h : n ≤ I.length
  · simp only [h, decide_true, decide_eq_true_eq, List.length_take]; omega
  · simp only [h, decide_false, decide_eq_false_iff_not, List.length_take]; omega

theorem scanCell_limit (ok : SItem → Bool) (n : Int) (l I : List SItem) :
    scanCell ok (some n) l (I.take n.toNat) = (scanCell ok none l I).take n.toNat := by
  induction l generalizing I with
  | nil => rfl
  | cons x r ih =>
    by_cases hok : ok x = true
    · by_cases hf : n ≤ I.length
      · obtain ⟨t, ht⟩ := scanCell_prefix ok (x :: r) I
        rw [ht]
        unfold scanCell
        rw [if_pos hok, full_take, if_pos (by simpa using hf), List.take_append_of_le_length (by omega)]
      · have hI : I.take n.toNat = I := List.take_of_length_le (by omega)
        unfold scanCell
        rw [if_pos hok, if_pos hok, full_take, if_neg (by simpa using hf), hI, if_neg (show ¬ full none I = true by simp [full])]
        by_cases ha : I.any (fun y => y.eqv x) = true
        · rw [if_pos ha, if_pos ha, ← ih, hI]
        · rw [if_neg ha, if_neg ha, ← ih, List.take_of_length_le (l := I ++ [x]) (by simp; omega)]
    · unfold scanCell
      rw [if_neg hok, if_neg hok, ih]

theorem scan_limit (m : SMap) (ok : SItem → Bool) (n : Int) (cells : List Cell) :
    scan m ok (some n) cells = (scan m ok none cells).take n.toNat := by
  unfold scan
  have : ∀ I : List SItem, cells.foldl (scanStep m ok (some n)) (I.take n.toNat) =
      (cells.foldl (scanStep m ok none) I).take n.toNat := by
    induction cells with
    | nil => intro I; rfl
    | cons c r ih =>
      intro I
      rw [List.foldl_cons, List.foldl_cons, ← ih]
      congr 1
      unfold scanStep
      cases hc : m.get? c with
      | none => rfl
      | some l => exact scanCell_limit ok n l I
  have h := this []
  rwa [List.take_nil] at h

/-- Invariant of an unlimited scan. -/
structure Scanned (ok : SItem → Bool) (src : SItem → Prop) (I : List SItem) : Prop where
  sound : ∀ x ∈ I, ok x = true ∧ src x
  once : I.Pairwise fun x y => ¬ x.eqv y = true

theorem scanCell_spec (ok : SItem → Bool) (src : SItem → Prop) (l I : List SItem) (hl : ∀ x ∈ l, src x) (h : Scanned ok src I) :
    Scanned ok src (scanCell ok none l I) ∧ (∀ x ∈ I, x ∈ scanCell ok none l I) ∧
    ∀ x ∈ l, ok x = true → ∃ y ∈ scanCell ok none l I, y.eqv x = true := by
  induction l generalizing I with
  | nil => exact ⟨h, fun x hx => hx, by simp⟩
  | cons x r ih =>
    have hr : ∀ y ∈ r, src y := fun y hy => hl y (List.mem_cons_of_mem _ hy)
    unfold scanCell
    by_cases hok : ok x = true
    · rw [if_pos hok, if_neg (by simp [full])]
      by_cases ha : I.any (fun y => y.eqv x) = true
      · rw [if_pos ha]
        obtain ⟨h1, h2, h3⟩ := ih I hr h
        refine ⟨h1, h2, ?_⟩
        intro y hy hoky
        rcases List.mem_cons.1 hy with rfl | hy
        · obtain ⟨z, hz, hzy⟩ := List.any_eq_true.1 ha
          exact ⟨z, h2 z hz, hzy⟩
        · exact h3 y hy hoky
      · rw [if_neg ha]
        have hI : Scanned ok src (I ++ [x]) := by
          constructor
          · intro y hy
            rcases List.mem_append.1 hy with hy | hy
            · exact h.sound y hy
            · rw [List.mem_singleton] at hy; subst hy; exact ⟨hok, hl y (List.mem_cons_self ..)⟩
          · rw [List.pairwise_append]
            refine ⟨h.once, by simp, ?_⟩
            intro a ha' b hb hab
            rw [List.mem_singleton] at hb; subst hb
            exact ha (List.any_eq_true.2 ⟨a, ha', hab⟩)
        obtain ⟨h1, h2, h3⟩ := ih (I ++ [x]) hr hI
        refine ⟨h1, fun y hy => h2 y (List.mem_append_left _ hy), ?_⟩
        intro y hy hoky
        rcases List.mem_cons.1 hy with rfl | hy
        · exact ⟨y, h2 y (by simp), SItem.eqv_refl y⟩
        · exact h3 y hy hoky
    · rw [if_neg hok]
      obtain ⟨h1, h2, h3⟩ := ih I hr h
      refine ⟨h1, h2, ?_⟩
      intro y hy hoky
      rcases List.mem_cons.1 hy with rfl | hy
      · exact absurd hoky hok
      · exact h3 y hy hoky

/-- What an unlimited scan returns. -/
theorem scan_spec (m : SMap) (ok : SItem → Bool) (cells : List Cell) :
    Scanned ok (fun x => ∃ c ∈ cells, ∃ l, m.get? c = some l ∧ x ∈ l) (scan m ok none cells) ∧
    ∀ c ∈ cells, ∀ l, m.get? c = some l → ∀ x ∈ l, ok x = true → ∃ y ∈ scan m ok none cells, y.eqv x = true := by
  unfold scan
  have key : ∀ (rest : List Cell) (hrest : ∀ c ∈ rest, c ∈ cells) (I : List SItem)
      (_ : Scanned ok (fun x => ∃ c ∈ cells, ∃ l, m.get? c = some l ∧ x ∈ l) I),
      Scanned ok (fun x => ∃ c ∈ cells, ∃ l, m.get? c = some l ∧ x ∈ l) (rest.foldl (scanStep m ok none) I) ∧
      (∀ x ∈ I, x ∈ rest.foldl (scanStep m ok none) I) ∧
      ∀ c ∈ rest, ∀ l, m.get? c = some l → ∀ x ∈ l, ok x = true → ∃ y ∈ rest.foldl (scanStep m ok none) I, y.eqv x = true := by
    intro rest
    induction rest with
    | nil => intro _ I hI; exact ⟨hI, fun x hx => hx, by simp⟩
    | cons c r ih =>
      intro hrest I hI
      have hr := fun d hd => hrest d (List.mem_cons_of_mem _ hd)
      simp only [List.foldl_cons]
      cases hc : m.get? c with
      | none =>
        have hstep : scanStep m ok none I c = I := by simp only [scanStep, hc]
        rw [hstep]
        obtain ⟨h1, h2, h3⟩ := ih hr I hI
        refine ⟨h1, h2, ?_⟩
        intro d hd l hl
        rcases List.mem_cons.1 hd with rfl | hd
        · rw [hc] at hl; simp at hl
        · exact h3 d hd l hl
      | some l =>
        have hstep : scanStep m ok none I c = scanCell ok none l I := by simp only [scanStep, hc]
        rw [hstep]
        obtain ⟨g1, g2, g3⟩ := scanCell_spec ok (fun x => ∃ c ∈ cells, ∃ l, m.get? c = some l ∧ x ∈ l) l I
          (fun x hx => ⟨c, hrest c (List.mem_cons_self ..), l, hc, hx⟩) hI
        obtain ⟨h1, h2, h3⟩ := ih hr _ g1
        refine ⟨h1, fun x hx => h2 x (g2 x hx), ?_⟩
        intro d hd l' hl' x hx hok
        rcases List.mem_cons.1 hd with rfl | hd
        · rw [hc] at hl'; cases hl'
          obtain ⟨y, hy, hyx⟩ := g3 x hx hok
          exact ⟨y, h2 y hy, hyx⟩
        · exact h3 d hd l' hl' x hx hok
  obtain ⟨h1, -, h3⟩ := key cells (fun c hc => hc) [] ⟨by simp, List.Pairwise.nil⟩
  exact ⟨h1, h3⟩

/-- The same in terms of the members. -/
theorem scan_index {cs : ℕ} {m : SMap} {L : List SItem} (h : Index cs m L) (ok : SItem → Bool) (cells : List Cell) :
    (∀ x ∈ scan m ok none cells, ok x = true ∧ x ∈ L ∧ ∃ c ∈ cells, c ∈ cellsFromAabb cs x.box) ∧
    (scan m ok none cells).Pairwise (fun x y => ¬ x.eqv y = true) ∧
    ∀ x ∈ L, ok x = true → (∃ c ∈ cells, c ∈ cellsFromAabb cs x.box) → ∃ y ∈ scan m ok none cells, y.eqv x = true := by
  obtain ⟨h1, h2⟩ := scan_spec m ok cells
  refine ⟨?_, h1.once, ?_⟩
  · intro x hx
    obtain ⟨hok, c, hc, l, hl, hxl⟩ := h1.sound x hx
    rw [h.2] at hl
    unfold view at hl
    split at hl
    · simp at hl
    · cases hl
      rw [List.mem_filter] at hxl
      exact ⟨hok, hxl.1, c, hc, by simpa using hxl.2⟩
  · rintro x hx hok ⟨c, hc, hcx⟩
    have hmem : x ∈ L.filter fun x => c ∈ cellsFromAabb cs x.box := List.mem_filter.2 ⟨hx, by simpa using hcx⟩
    refine h2 c hc _ ?_ x hmem hok
    rw [h.2, view, if_neg (List.ne_nil_of_mem hmem)]

theorem scanPoint_none (p : Vec) (l I : List SItem) :
    scanPoint p none l I = I ++ l.filter (coversPoint p) := by
  induction l generalizing I with
  | nil => simp [scanPoint]
  | cons x r ih =>
    unfold scanPoint
    by_cases h : coversPoint p x = true
    · rw [if_pos h, if_neg (by simp [full]), ih, List.filter_cons_of_pos h]; simp
    · rw [if_neg h, ih, List.filter_cons_of_neg h]

theorem scanPoint_limit (p : Vec) (n : Int) (l I : List SItem) :
    scanPoint p (some n) l (I.take n.toNat) = (scanPoint p none l I).take n.toNat := by
  induction l generalizing I with
  | nil => rfl
  | cons x r ih =>
    by_cases hok : coversPoint p x = true
    · by_cases hf : n ≤ I.length
      · rw [scanPoint_none]
        unfold scanPoint
        rw [if_pos hok, full_take, if_pos (by simpa using hf), List.take_append_of_le_length (by omega)]
      · have hI : I.take n.toNat = I := List.take_of_length_le (by omega)
        unfold scanPoint
        rw [if_pos hok, if_pos hok, full_take, if_neg (by simpa using hf), hI, if_neg (show ¬ full none I = true by simp [full])]
        rw [← ih, List.take_of_length_le (l := I ++ [x]) (by simp; omega)]
    · unfold scanPoint
      rw [if_neg hok, if_neg hok, ih]

end SMap
end Draftsman
