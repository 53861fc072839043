import Verif.Model.SchedList
import Verif.Props.TileList
import Mathlib.Tactic.SplitIfs

namespace Draftsman
namespace SchedList

/-! ## C92: lists of schedules -/

variable {S D : Type}

/-- Nothing but schedules. -/
def Only (l : List (Val S D)) : Prop := ∀ v ∈ l, ∃ s, v = .sched s

/-- Position `n` of a list of length `len` is what index `i` means in Python. -/
def Points (len : ℕ) (i : Int) (n : ℕ) : Prop := n < len ∧ ((0 ≤ i ∧ i = n) ∨ (i < 0 ∧ i + len = n))

/-- The index is out of range. -/
def Outside (len : ℕ) (i : Int) : Prop := i < -len ∨ (len : Int) ≤ i

/-- One element taken out at position `n`. -/
def Cut (l l' : List (Val S D)) (n : ℕ) : Prop := ∃ pre x post, l = pre ++ x :: post ∧ l' = pre ++ post ∧ pre.length = n

/-- Where a bound of a slice lies among the gaps `0` to `len` of a list. -/
def gap (len : ℕ) (dflt : ℕ) : Option Int → ℕ
  | none => dflt
  | some a => min (if a < 0 then a + len else a).toNat len

/-- What a call that succeeds does to a list. -/
def Effect (eq : Val S D → Val S D → Bool) (l l' : List (Val S D)) : Op S D → Prop
  | .insert i v => (∃ s, v = .sched s) ∧ ∃ pre post, l = pre ++ post ∧ l' = pre ++ v :: post ∧ pre.length = gap l.length 0 (some i)
  | .append v => (∃ s, v = .sched s) ∧ l' = l ++ [v]
  | .extend vs => Only vs ∧ l' = l ++ vs
  | .extendSelf => l' = l ++ l
  | .set (.int i) v => ∃ n, Points l.length i n ∧ l'.length = l.length ∧ l'[n]? = some v ∧ ∀ m, m ≠ n → l'[m]? = l[m]?
  | .set (.slice a b c) v => ∃ t vs, v = .seq t vs ∧ Only vs ∧ c ≠ some 0 ∧
      ((c = none ∨ c = some 1) → ∃ pre mid post, l = pre ++ mid ++ post ∧ l' = pre ++ vs ++ post ∧ pre.length = gap l.length 0 a ∧
        pre.length + mid.length = max (gap l.length 0 a) (gap l.length l.length b)) ∧
      (c ≠ none → c ≠ some 1 → l'.length = l.length ∧ (TileList.sliceRange l.length a b (c.getD 1)).length = vs.length ∧
        (∀ k : ℕ, (k : Int) ∉ TileList.sliceRange l.length a b (c.getD 1) → l'[k]? = l[k]?) ∧
        ∀ (j : ℕ) (i : Int), (TileList.sliceRange l.length a b (c.getD 1))[j]? = some i → l'[i.toNat]? = vs[j]?)
  | .del (.int i) => ∃ n, Points l.length i n ∧ Cut l l' n
  | .del (.slice a b c) => c ≠ some 0 ∧ l'.Sublist l ∧ l'.length + (TileList.sliceRange l.length a b (c.getD 1)).length = l.length ∧
      ∀ (k : ℕ) v, l[k]? = some v → (k : Int) ∉ TileList.sliceRange l.length a b (c.getD 1) → v ∈ l'
  | .pop i => ∃ n, Points l.length i n ∧ Cut l l' n
  | .remove v => ∃ pre x post, l = pre ++ x :: post ∧ l' = pre ++ post ∧ eq x v = true ∧ ∀ y ∈ pre, eq y v = false
  | .reverse => l' = l.reverse
  | .clear => l' = []

/-- The exception a call raises. -/
def Fault (eq : Val S D → Val S D → Bool) (l : List (Val S D)) (e : PyErr) : Op S D → Prop
  | .insert _ v | .append v => (¬ ∃ s, v = .sched s) ∧ e = .typeError
  | .extend vs => ¬ Only vs ∧ e = .typeError
  | .extendSelf => False
  | .set ix v => (¬ (∃ s, v = .sched s) ∧ ¬ (∃ t vs, v = .seq t vs ∧ Only vs)) ∧ e = .typeError ∨
      ((∃ s, v = .sched s) ∨ ∃ t vs, v = .seq t vs ∧ Only vs) ∧
        match ix with
        | .int i => Outside l.length i ∧ e = .indexError
        | .slice a b c => (c = some 0 ∧ e = .valueError) ∨ (c ≠ some 0 ∧ (∃ s, v = .sched s) ∧ e = .typeError) ∨
            (c ≠ some 0 ∧ c ≠ some 1 ∧ c ≠ none ∧ e = .valueError ∧ ∃ t vs, v = .seq t vs ∧ (TileList.sliceRange l.length a b (c.getD 1)).length ≠ vs.length)
  | .del (.int i) => Outside l.length i ∧ e = .indexError
  | .del (.slice _ _ c) => c = some 0 ∧ e = .valueError
  | .pop i => Outside l.length i ∧ e = .indexError
  | .remove v => (∀ y ∈ l, eq y v = false) ∧ e = .valueError
  | .reverse | .clear => False

theorem isSched_iff {v : Val S D} : v.isSched = true ↔ ∃ s, v = .sched s := by
  cases v <;> simp [Val.isSched]

theorem admits_iff {v : Val S D} : admits v = true ↔ (∃ s, v = .sched s) ∨ ∃ t vs, v = .seq t vs ∧ Only vs := by
  cases v with
  | seq t l => simp [admits, List.all_eq_true, isSched_iff, Only]
  | sched s => simp [admits, Val.isSched]
  | dict d => simp [admits, Val.isSched]
  | other n => simp [admits, Val.isSched]

theorem pyIndex_points {α : Type} (l : List α) (i : Int) :
    (∀ n, EList.pyIndex l i = some n ↔ Points l.length i n) ∧ (EList.pyIndex l i = none ↔ Outside l.length i) := by
  unfold EList.pyIndex Points Outside
  constructor
  · intro n
    split_ifs with h1 h2
    · simp only [Option.some.injEq]; omega
    · simp only [Option.some.injEq]; omega
    · simp only [false_iff]; omega
  · split_ifs <;> simp <;> omega

theorem pyInsert_eq {α : Type} (l : List α) (i : Int) (v : α) :
    EList.pyInsert l i v = l.take (gap l.length 0 (some i)) ++ v :: l.drop (gap l.length 0 (some i)) ∧ gap l.length 0 (some i) ≤ l.length := by
  have hg : gap l.length 0 (some i) = (if i < 0 then max 0 (i + l.length) else min i l.length : Int).toNat := by
    unfold gap; simp only; split_ifs <;> omega
  have hle : gap l.length 0 (some i) ≤ l.length := by simp only [gap]; omega
  refine ⟨?_, hle⟩
  unfold EList.pyInsert
  simp only [← hg]
  generalize gap l.length 0 (some i) = n at hle
  clear hg
  induction l generalizing n with
  | nil => simp at hle; subst hle; rfl
  | cons x l ih =>
    cases n with
    | zero => rfl
    | succ n => simpa using ih n (by simpa using hle)

theorem insert_ok {l l' : List (Val S D)} {i : Int} {v : Val S D} (h : insert l i v = (l', none)) :
    (∃ s, v = .sched s) ∧ l' = EList.pyInsert l i v := by
  unfold insert at h
  split_ifs at h with hv
  · cases h; exact ⟨isSched_iff.1 hv, rfl⟩
  · cases h

theorem append_eq (l : List (Val S D)) (v : Val S D) :
    append l v = if v.isSched then (l ++ [v], none) else (l, some .typeError) := by
  unfold append insert
  have : EList.pyInsert l (l.length : Int) v = l ++ [v] := by
    have h := (pyInsert_eq l (l.length : Int) v).1
    have hg : gap l.length 0 (some (l.length : Int)) = l.length := by simp only [gap]; omega
    rw [h, hg]; simp
  rw [this]

/-- The schedules before the first element that is none. -/
def before (vs : List (Val S D)) : List (Val S D) := vs.takeWhile Val.isSched

theorem extend_eq (l vs : List (Val S D)) :
    extend l vs = (l ++ before vs, if vs.all Val.isSched then none else some .typeError) := by
  induction vs generalizing l with
  | nil => simp [extend, before]
  | cons v r ih =>
    rw [extend, append_eq]
    by_cases hv : v.isSched = true
    · simp only [hv, if_true]
      rw [ih]
      simp [before, hv]
    · simp [before, hv]

theorem all_iff {vs : List (Val S D)} : vs.all Val.isSched = true ↔ Only vs := by
  simp [List.all_eq_true, isSched_iff, Only]

theorem before_only {vs : List (Val S D)} (h : Only vs) : before vs = vs := by
  unfold before
  induction vs with
  | nil => rfl
  | cons v r ih =>
    have hv := isSched_iff.2 (h v (List.mem_cons_self ..))
    rw [List.takeWhile_cons, if_pos hv, ih fun x hx => h x (List.mem_cons_of_mem _ hx)]

theorem mem_before {vs : List (Val S D)} {v : Val S D} (h : v ∈ vs.takeWhile Val.isSched) : v.isSched = true := by
  have := List.all_takeWhile (p := Val.isSched) (l := vs)
  exact List.all_eq_true.1 this v h

theorem cut_eraseIdx {l : List (Val S D)} {n : ℕ} (h : n < l.length) : Cut l (l.eraseIdx n) n := by
  refine ⟨l.take n, l[n], l.drop (n + 1), ?_, ?_, by simp; omega⟩
  · simp
  · exact List.eraseIdx_eq_take_drop_succ ..

/-! ### Reversing -/

theorem setItem_int {l : List (Val S D)} {n : ℕ} {v : Val S D} (hn : n < l.length) (hv : ∃ s, v = .sched s) :
    setItem l (.int n) v = (l.set n v, none) := by
  have ha : admits v = true := admits_iff.2 (.inl hv)
  have hp := ((pyIndex_points l (n : Int)).1 n).2 ⟨hn, .inl ⟨by omega, rfl⟩⟩
  simp [setItem, ha, pySet, hp]

theorem reverseFrom_spec (l : List (Val S D)) (hl : Only l) : ∀ (k i : ℕ) (m : List (Val S D)), i + k = l.length / 2 → m.length = l.length →
    (∀ j, j < l.length → m[j]? = if j < i ∨ l.length - i ≤ j then l[l.length - 1 - j]? else l[j]?) →
    reverseFrom l.length k i m = (l.reverse, none) := by
  intro k
  induction k with
  | zero =>
    intro i m hi hm hj
    rw [reverseFrom]
    congr 1
    apply List.ext_getElem?
    intro j
    by_cases h : j < l.length
    · rw [hj j h, List.getElem?_reverse h]
      split_ifs with h1
      · rfl
      · congr 1; omega
    · rw [List.getElem?_eq_none (by omega), List.getElem?_eq_none (by simp; omega)]
  | succ k ih =>
    intro i m hi hm hj
    have hlt : i < l.length := by omega
    have hlt' : l.length - i - 1 < l.length := by omega
    rw [reverseFrom]
    have h1 : m[l.length - i - 1]? = some l[l.length - i - 1] := by
      rw [hj _ hlt', if_neg (by omega), List.getElem?_eq_getElem hlt']
    have h2 : m[i]? = some l[i] := by
      rw [hj _ hlt, if_neg (by omega), List.getElem?_eq_getElem hlt]
    have hs : swap m i (l.length - i - 1) = ((m.set i l[l.length - i - 1]).set (l.length - i - 1) l[i], none) := by
      unfold swap
      rw [h1, h2]
      simp only
      rw [setItem_int (by omega) (hl _ (List.getElem_mem _))]
      simp only
      rw [setItem_int (by simp; omega) (hl _ (List.getElem_mem _))]
    rw [hs]
    simp only
    apply ih
    · omega
    · simp [hm]
    · intro j hjl
      rw [List.getElem?_set, List.getElem?_set]
      by_cases e1 : l.length - i - 1 = j
      · rw [if_pos e1, if_pos (by simp; omega), if_pos (by omega), ← List.getElem?_eq_getElem hlt]
        congr 1; omega
      · rw [if_neg e1]
        by_cases e2 : i = j
        · rw [if_pos e2, if_pos (by omega), if_pos (by omega), ← List.getElem?_eq_getElem hlt']
          congr 1; omega
        · rw [if_neg e2, hj j hjl]
          by_cases c1 : j < i ∨ l.length - i ≤ j
          · rw [if_pos c1, if_pos (by omega)]
          · rw [if_neg c1, if_neg (by omega)]

theorem reverse_eq {l : List (Val S D)} (hl : Only l) : reverse l = (l.reverse, none) := by
  unfold reverse
  apply reverseFrom_spec l hl
  · omega
  · rfl
  · intro j hj
    rw [if_neg (by omega)]

/-! ### Slices -/

theorem clamp_gap (n : ℕ) (d : ℕ) (a : Option Int) : (TileList.clampBound n 0 n d a) = (gap n d a : ℕ) := by
  unfold TileList.clampBound gap
  cases a with
  | none => rfl
  | some a => simp only; split_ifs <;> omega

theorem gap_le (n d : ℕ) (hd : d ≤ n) (a : Option Int) : gap n d a ≤ n := by
  cases a with
  | none => exact hd
  | some a => simp only [gap]; omega

theorem foldl_set {α : Type} (sel : List Int) (vs : List α) (l : List α) (hn : sel.Nodup) (hb : ∀ i ∈ sel, 0 ≤ i ∧ i < l.length)
    (hlen : sel.length = vs.length) :
    ((sel.zip vs).foldl (fun l p => l.set p.1.toNat p.2) l).length = l.length ∧
    (∀ k : ℕ, (k : Int) ∉ sel → ((sel.zip vs).foldl (fun l p => l.set p.1.toNat p.2) l)[k]? = l[k]?) ∧
    ∀ (j : ℕ) (i : Int), sel[j]? = some i → ((sel.zip vs).foldl (fun l p => l.set p.1.toNat p.2) l)[i.toNat]? = vs[j]? := by
  induction sel generalizing vs l with
  | nil => simp
  | cons s sel ih =>
    cases vs with
    | nil => simp at hlen
    | cons v vs =>
      have hs := hb s (List.mem_cons_self ..)
      obtain ⟨h1, h2, h3⟩ := ih vs (l.set s.toNat v) (List.nodup_cons.1 hn).2 (by
        intro i hi; simpa using hb i (List.mem_cons_of_mem _ hi)) (by simpa using hlen)
      simp only [List.zip_cons_cons, List.foldl_cons]
      refine ⟨by simpa using h1, ?_, ?_⟩
      · intro k hk
        rw [h2 k (fun h => hk (List.mem_cons_of_mem _ h)), List.getElem?_set, if_neg]
        intro e
        apply hk
        rw [List.mem_cons]; left; omega
      · intro j i hj
        cases j with
        | zero =>
          simp only [List.getElem?_cons_zero, Option.some.injEq] at hj ⊢
          subst hj
          have hns : ((s.toNat : ℕ) : Int) ∉ sel := by
            rw [Int.toNat_of_nonneg hs.1]; exact (List.nodup_cons.1 hn).1
          rw [h2 _ hns, List.getElem?_set, if_pos rfl, if_pos (by omega)]
        | succ j =>
          simp only [List.getElem?_cons_succ] at hj ⊢
          exact h3 j i hj

theorem dropAt_spec {α : Type} (l : List α) (sel : List Int) (hn : sel.Nodup) (hb : ∀ i ∈ sel, 0 ≤ i ∧ i < l.length) :
    (TileList.dropAt sel l).Sublist l ∧ (TileList.dropAt sel l).length + sel.length = l.length ∧
    ∀ (k : ℕ) v, l[k]? = some v → (k : Int) ∉ sel → v ∈ TileList.dropAt sel l := by
  have aux : ∀ (l : List α) (o : ℕ) (sel : List Int), sel.Nodup → (∀ i ∈ sel, (o : Int) ≤ i ∧ i < o + l.length) →
      (((l.zipIdx o).filter fun p => (p.2 : Int) ∉ sel).map (·.1)).Sublist l ∧
      (((l.zipIdx o).filter fun p => (p.2 : Int) ∉ sel).map (·.1)).length + sel.length = l.length ∧
      ∀ k v, l[k]? = some v → ((k + o : ℕ) : Int) ∉ sel → v ∈ ((l.zipIdx o).filter fun p => (p.2 : Int) ∉ sel).map (·.1) := by
    intro l
    induction l with
    | nil =>
      intro o sel _ hb
      have : sel = [] := by
        cases sel with
        | nil => rfl
        | cons i r => have := hb i (List.mem_cons_self ..); simp at this; omega
      simp [this]
    | cons x l ih =>
      intro o sel hn hb
      by_cases ho : (o : Int) ∈ sel
      · obtain ⟨h1, h2, h3⟩ := ih (o + 1) (sel.erase o) (hn.erase _) (by
          intro i hi
          have hm := hb i (List.mem_of_mem_erase hi)
          have hne : i ≠ o := by rintro rfl; exact hn.not_mem_erase hi
          simp at hm; push_cast; omega)
        have hf : ((x :: l).zipIdx o).filter (fun p => decide ((p.2 : Int) ∉ sel)) = (l.zipIdx (o + 1)).filter fun p => decide ((p.2 : Int) ∉ sel.erase o) := by
          rw [List.zipIdx_cons, List.filter_cons, if_neg (by simpa using ho)]
          apply List.filter_congr
          intro p hp
          have hge : o + 1 ≤ p.2 := List.le_snd_of_mem_zipIdx hp
          have : (p.2 : Int) ∈ sel.erase o ↔ (p.2 : Int) ∈ sel := by
            rw [List.mem_erase_of_ne (by omega)]
          simp [this]
        rw [hf]
        refine ⟨h1.cons _, ?_, ?_⟩
        · have := List.length_erase_of_mem ho
          have hp := List.length_pos_of_mem ho
          simp only [List.length_cons]; omega
        · intro k v hk hks
          cases k with
          | zero => simp at hks; exact absurd ho hks
          | succ k =>
            apply h3 k v (by simpa using hk)
            intro hm
            apply hks
            have := List.mem_of_mem_erase hm
            have e : ((k + 1 + o : ℕ) : Int) = ((k + (o + 1) : ℕ) : Int) := by push_cast; omega
            rw [e]; exact this
      · obtain ⟨h1, h2, h3⟩ := ih (o + 1) sel hn (by
          intro i hi
          have hm := hb i hi
          have hne : i ≠ o := by rintro rfl; exact ho hi
          simp at hm; push_cast; omega)
        have hf : ((x :: l).zipIdx o).filter (fun p => decide ((p.2 : Int) ∉ sel)) = (x, o) :: (l.zipIdx (o + 1)).filter fun p => decide ((p.2 : Int) ∉ sel) := by
          rw [List.zipIdx_cons, List.filter_cons, if_pos (by simpa using ho)]
        rw [hf]
        refine ⟨by simpa using h1.cons_cons x, ?_, ?_⟩
        · simp only [List.map_cons, List.length_cons]; omega
        · intro k v hk hks
          cases k with
          | zero => simp at hk; simp [hk]
          | succ k =>
            rw [List.map_cons, List.mem_cons]; right
            apply h3 k v (by simpa using hk)
            have e : ((k + 1 + o : ℕ) : Int) = ((k + (o + 1) : ℕ) : Int) := by push_cast; omega
            rw [← e]; exact hks
  have := aux l 0 sel hn (by intro i hi; have := hb i hi; push_cast; omega)
  simpa [TileList.dropAt] using this

/-! ### Theorems -/

/-- C92: what a call that succeeds does to a list of schedules: what Python's lists do. -/
theorem C92_effect (eq : Val S D → Val S D → Bool) {l l' : List (Val S D)} (hl : Only l) {o : Op S D} (h : o.run eq l = (l', none)) :
    Effect eq l l' o := by
  cases o with
  | insert i v =>
    obtain ⟨hv, rfl⟩ := insert_ok h
    obtain ⟨h1, h2⟩ := pyInsert_eq l i v
    exact ⟨hv, l.take (gap l.length 0 (some i)), l.drop (gap l.length 0 (some i)), by simp, h1, by simpa using h2⟩
  | append v =>
    simp only [Op.run, append_eq] at h
    split_ifs at h with hv
    · cases h; exact ⟨isSched_iff.1 hv, rfl⟩
    · cases h
  | extend vs =>
    simp only [Op.run, extend_eq, Prod.mk.injEq] at h
    have ha : vs.all Val.isSched = true := by
      by_contra hc
      simp [hc] at h
    have ho := all_iff.1 ha
    exact ⟨ho, by rw [← h.1, before_only ho]⟩
  | extendSelf =>
    simp only [Op.run, extend_eq, Prod.mk.injEq] at h
    show l' = l ++ l
    rw [← h.1, before_only hl]
  | set ix v =>
    simp only [Op.run, setItem] at h
    by_cases ha : admits v = true
    · simp only [ha, Bool.not_true, Bool.false_eq_true, if_false] at h
      cases ix with
      | int i =>
        simp only [pySet] at h
        cases hp : EList.pyIndex l i with
        | none => rw [hp] at h; cases h
        | some n =>
          rw [hp] at h
          cases h
          have hpt := ((pyIndex_points l i).1 n).1 hp
          refine ⟨n, hpt, by simp, ?_, ?_⟩
          · rw [List.getElem?_set, if_pos rfl, if_pos hpt.1]
          · intro m hm
            rw [List.getElem?_set, if_neg (Ne.symm hm)]
      | slice a b c =>
        simp only [pySetSlice] at h
        by_cases h0 : c.getD 1 = 0
        · rw [if_pos h0] at h; cases h
        · rw [if_neg h0] at h
          cases v with
          | sched s => simp at h
          | dict d => simp at h
          | other n => simp at h
          | seq t vs =>
            have hvs : Only vs := by
              rcases admits_iff.1 ha with ⟨s, e⟩ | ⟨t', vs', e, hv⟩
              · cases e
              · cases e; exact hv
            simp only at h
            refine ⟨t, vs, rfl, hvs, ?_, ?_, ?_⟩
            · rintro rfl; exact h0 rfl
            · intro hc
              have hc1 : c.getD 1 = 1 := by rcases hc with rfl | rfl <;> rfl
              rw [if_pos hc1] at h
              cases h
              have e0 := clamp_gap l.length 0 a
              have e1 := clamp_gap l.length l.length b
              have g0 := gap_le l.length 0 (by omega) a
              have g1 := gap_le l.length l.length (by omega) b
              rw [show ((0 : ℕ) : Int) = 0 from rfl] at e0
              rw [e0, e1]
              have e2 : (max ((gap l.length 0 a : ℕ) : Int) ((gap l.length l.length b : ℕ) : Int)).toNat = max (gap l.length 0 a) (gap l.length l.length b) := by omega
              rw [e2, Int.toNat_natCast]
              generalize gap l.length 0 a = p at *
              generalize gap l.length l.length b = q at *
              refine ⟨l.take p, (l.drop p).take (max p q - p), l.drop (max p q), ?_, rfl, by simp; omega, by simp; omega⟩
              have : l.drop (max p q) = (l.drop p).drop (max p q - p) := by rw [List.drop_drop]; congr 1; omega
              rw [this, List.append_assoc, List.take_append_drop, List.take_append_drop]
            · intro hn h1
              have hc1 : c.getD 1 ≠ 1 := by
                cases c with
                | none => exact absurd rfl hn
                | some c => intro e; exact h1 (by rw [← e]; rfl)
              rw [if_neg hc1] at h
              split_ifs at h with hlen
              · cases h
                obtain ⟨hnd, hb⟩ := TileList.sliceRange_spec l.length a b (c.getD 1) h0
                obtain ⟨s1, s2, s3⟩ := foldl_set (TileList.sliceRange l.length a b (c.getD 1)) vs l hnd hb hlen
                exact ⟨s1, hlen, s2, s3⟩
              · cases h
    · simp [ha] at h
  | del ix =>
    cases ix with
    | int i =>
      simp only [Op.run, delItem] at h
      cases hp : EList.pyIndex l i with
      | none => rw [hp] at h; cases h
      | some n =>
        rw [hp] at h
        cases h
        have hpt := ((pyIndex_points l i).1 n).1 hp
        exact ⟨n, hpt, cut_eraseIdx hpt.1⟩
    | slice a b c =>
      simp only [Op.run, delItem] at h
      split_ifs at h with h0
      · cases h
      · cases h
        obtain ⟨hnd, hb⟩ := TileList.sliceRange_spec l.length a b (c.getD 1) h0
        exact ⟨by rintro rfl; exact h0 rfl, dropAt_spec l _ hnd hb⟩
  | pop i =>
    simp only [Op.run, pop, delItem] at h
    cases hp : EList.pyIndex l i with
    | none => rw [hp] at h; cases h
    | some n =>
      rw [hp] at h
      cases h
      have hpt := ((pyIndex_points l i).1 n).1 hp
      exact ⟨n, hpt, cut_eraseIdx hpt.1⟩
  | remove v =>
    simp only [Op.run, remove] at h
    cases hf : l.findIdx? (eq · v) with
    | none => rw [hf] at h; cases h
    | some n =>
      rw [hf] at h
      obtain ⟨hn, he, hb⟩ := List.findIdx?_eq_some_iff_getElem.1 hf
      have hp := ((pyIndex_points l (n : Int)).1 n).2 ⟨hn, .inl ⟨by omega, rfl⟩⟩
      simp only [delItem, hp] at h
      cases h
      refine ⟨l.take n, l[n], l.drop (n + 1), by simp, List.eraseIdx_eq_take_drop_succ .., he, ?_⟩
      intro y hy
      obtain ⟨j, hj, rfl⟩ := List.mem_take_iff_getElem.1 hy
      have := hb j (by omega)
      simpa using this
  | reverse =>
    simp only [Op.run, reverse_eq hl, Prod.mk.injEq] at h
    exact h.1.symm
  | clear => cases h; rfl

/-- C92: which call raises which exception.  A call that raises leaves the list as it was, except `extend`, which has then added the schedules
before the first value that is none (`C92_extend_refuted`). -/
theorem C92_fault (eq : Val S D → Val S D → Bool) {l : List (Val S D)} (hl : Only l) (o : Op S D) (e : PyErr) :
    ((o.run eq l).2 = some e ↔ Fault eq l e o) ∧
    ((o.run eq l).2 ≠ none → (∀ vs, o ≠ .extend vs) → (o.run eq l).1 = l) ∧
    ∀ vs, o = .extend vs → ∃ pre post, vs = pre ++ post ∧ (o.run eq l).1 = l ++ pre ∧ Only pre ∧ ∀ v ∈ post.head?, ¬ ∃ s, v = .sched s := by
  have inj : ∀ {x : PyErr}, (some x = some e) ↔ e = x := fun {x} => ⟨fun h => (Option.some.inj h).symm, fun h => by rw [h]⟩
  refine ⟨?_, ?_, ?_⟩
  · cases o with
    | insert i v =>
      simp only [Op.run, insert, Fault, ← isSched_iff]
      split_ifs with hv <;> simp [hv, eq_comm]
    | append v =>
      simp only [Op.run, append_eq, Fault, ← isSched_iff]
      split_ifs with hv <;> simp [hv, eq_comm]
    | extend vs =>
      simp only [Op.run, extend_eq, Fault, ← all_iff]
      split_ifs with hv <;> simp [hv, eq_comm]
    | extendSelf =>
      simp [Op.run, extend_eq, Fault, all_iff.2 hl]
    | set ix v =>
      have hnot : (¬ (∃ s, v = .sched s) ∧ ¬ (∃ t vs, v = .seq t vs ∧ Only vs)) ↔ admits v = false := by
        rw [← not_or, ← admits_iff, Bool.not_eq_true]
      simp only [Fault, hnot]
      rw [← admits_iff]
      simp only [Op.run, setItem]
      by_cases ha : admits v = true
      · simp only [ha, Bool.not_true, Bool.false_eq_true, if_false, false_and, true_and, false_or, reduceCtorEq]
        cases ix with
        | int i =>
          simp only [pySet]
          cases hp : EList.pyIndex l i with
          | none =>
            have := (pyIndex_points l i).2.1 hp
            simp [this, eq_comm]
          | some n =>
            have hn : ¬ Outside l.length i := fun ho => by rw [(pyIndex_points l i).2.2 ho] at hp; cases hp
            simp [hn]
        | slice a b c =>
          simp only [pySetSlice]
          by_cases h0 : c.getD 1 = 0
          · have hc : c = some 0 := by
              cases c with
              | none => simp at h0
              | some c => simpa using h0
            subst hc
            simp [eq_comm]
          · have hc : c ≠ some 0 := by rintro rfl; exact h0 rfl
            rw [if_neg h0]
            cases v with
            | sched s => simp [hc, eq_comm]
            | dict d => simp [admits, Val.isSched] at ha
            | other n => simp [admits, Val.isSched] at ha
            | seq t vs =>
              simp only
              by_cases h1 : c.getD 1 = 1
              · have : c = some 1 ∨ c = none := by
                  cases c with
                  | none => exact .inr rfl
                  | some c => left; simpa using h1
                rw [if_pos h1]
                rcases this with rfl | rfl <;> simp
              · have hc1 : c ≠ some 1 := by rintro rfl; exact h1 rfl
                have hcn : c ≠ none := by rintro rfl; exact h1 rfl
                rw [if_neg h1]
                split_ifs with hlen
                · simp [hc, hlen]
                · constructor
                  · intro h; exact .inr (.inr ⟨hc, hc1, hcn, inj.1 h, t, vs, rfl, hlen⟩)
                  · rintro (⟨h, -⟩ | ⟨-, ⟨s, h⟩, -⟩ | ⟨-, -, -, h, -⟩)
                    · exact absurd h hc
                    · cases h
                    · exact inj.2 h
      · simp only [Bool.not_eq_true] at ha
        simp [ha, eq_comm]
    | del ix =>
      cases ix with
      | int i =>
        simp only [Op.run, delItem, Fault]
        cases hp : EList.pyIndex l i with
        | none =>
          have := (pyIndex_points l i).2.1 hp
          simp [this, eq_comm]
        | some n =>
          have hn : ¬ Outside l.length i := fun ho => by rw [(pyIndex_points l i).2.2 ho] at hp; cases hp
          simp [hn]
      | slice a b c =>
        simp only [Op.run, delItem, Fault]
        have hc : c.getD 1 = 0 ↔ c = some 0 := by cases c <;> simp
        rw [← hc]
        split_ifs with h0 <;> simp [h0, eq_comm]
    | pop i =>
      simp only [Op.run, pop, delItem, Fault]
      cases hp : EList.pyIndex l i with
      | none =>
        have := (pyIndex_points l i).2.1 hp
        simp [this, eq_comm]
      | some n =>
        have hn : ¬ Outside l.length i := fun ho => by rw [(pyIndex_points l i).2.2 ho] at hp; cases hp
        simp [hn]
    | remove v =>
      simp only [Op.run, remove, Fault]
      cases hf : l.findIdx? (eq · v) with
      | none =>
        have := List.findIdx?_eq_none_iff.1 hf
        simp only [eq_comm (a := e)]
        constructor
        · intro h; exact ⟨fun y hy => by simpa using this y hy, by simpa using h⟩
        · intro h; simp [h.2]
      | some n =>
        obtain ⟨hn, he, hb⟩ := List.findIdx?_eq_some_iff_getElem.1 hf
        have hp := ((pyIndex_points l (n : Int)).1 n).2 ⟨hn, .inl ⟨by omega, rfl⟩⟩
        simp only [delItem, hp]
        constructor
        · intro h; cases h
        · intro h; rw [h.1 _ (List.getElem_mem hn)] at he; cases he
    | reverse => simp [Op.run, reverse_eq hl, Fault]
    | clear => simp [Op.run, Fault]
  · intro hne hx
    cases o with
    | insert i v =>
      simp only [Op.run, insert] at hne ⊢
      split_ifs at hne ⊢ with hv
      · exact absurd rfl hne
      · rfl
    | append v =>
      simp only [Op.run, append_eq] at hne ⊢
      split_ifs at hne ⊢ with hv
      · exact absurd rfl hne
      · rfl
    | extend vs => exact absurd rfl (hx vs)
    | extendSelf => simp [Op.run, extend_eq, all_iff.2 hl] at hne
    | set ix v =>
      simp only [Op.run, setItem] at hne ⊢
      split_ifs at hne ⊢ with hv
      · rfl
      · cases ix with
        | int i =>
          simp only [pySet] at hne ⊢
          cases hp : EList.pyIndex l i with
          | none => rfl
          | some n => simp [hp] at hne
        | slice a b c =>
          simp only [pySetSlice] at hne ⊢
          by_cases h0 : c.getD 1 = 0
          · rw [if_pos h0]
          · rw [if_neg h0] at hne ⊢
            cases v with
            | sched s => rfl
            | dict d => rfl
            | other n => rfl
            | seq t vs =>
              simp only at hne ⊢
              split_ifs at hne ⊢ <;> first | rfl | exact absurd rfl hne
    | del ix =>
      cases ix with
      | int i =>
        simp only [Op.run, delItem] at hne ⊢
        cases hp : EList.pyIndex l i with
        | none => rfl
        | some n => simp [hp] at hne
      | slice a b c =>
        simp only [Op.run, delItem] at hne ⊢
        split_ifs at hne ⊢
        · rfl
        · exact absurd rfl hne
    | pop i =>
      simp only [Op.run, pop, delItem] at hne ⊢
      cases hp : EList.pyIndex l i with
      | none => rfl
      | some n => simp [hp] at hne
    | remove v =>
      simp only [Op.run, remove] at hne ⊢
      cases hf : l.findIdx? (eq · v) with
      | none => rfl
      | some n =>
        obtain ⟨hn, _, _⟩ := List.findIdx?_eq_some_iff_getElem.1 hf
        have hp := ((pyIndex_points l (n : Int)).1 n).2 ⟨hn, .inl ⟨by omega, rfl⟩⟩
        simp [hf, delItem, hp] at hne
    | reverse => simp [Op.run, reverse_eq hl] at hne
    | clear => simp [Op.run] at hne
  · rintro vs rfl
    refine ⟨vs.takeWhile Val.isSched, vs.dropWhile Val.isSched, (List.takeWhile_append_dropWhile ..).symm, ?_, ?_, ?_⟩
    · simp [Op.run, extend_eq, before]
    · intro v hv
      exact isSched_iff.1 (mem_before hv)
    · intro v hv hs
      have := List.head?_dropWhile_not Val.isSched vs
      simp only [Option.mem_def] at hv
      rw [hv] at this
      simp [isSched_iff.2 hs] at this

/-- The call puts a sequence in the place of one schedule: `l[i] = [...]`. -/
def Nests : Op S D → Prop
  | .set (.int _) (.seq _ _) => True
  | _ => False

theorem only_append {a b : List (Val S D)} (ha : Only a) (hb : Only b) : Only (a ++ b) := by
  intro v hv
  rcases List.mem_append.1 hv with h | h
  · exact ha v h
  · exact hb v h

theorem only_step (eq : Val S D → Val S D → Bool) {l : List (Val S D)} (hl : Only l) {o : Op S D} (ho : ¬ Nests o) : Only (o.run eq l).1 := by
  cases hr : (o.run eq l).2 with
  | some e =>
    by_cases hx : ∀ vs, o ≠ .extend vs
    · rw [(C92_fault eq hl o e).2.1 (by rw [hr]; simp) hx]; exact hl
    · push Not at hx
      obtain ⟨vs, rfl⟩ := hx
      obtain ⟨pre, post, -, h2, h3, -⟩ := (C92_fault eq hl (.extend vs) e).2.2 vs rfl
      rw [h2]
      exact only_append hl h3
  | none =>
    have he := C92_effect eq hl (l' := (o.run eq l).1) (o := o) (by rw [← hr])
    generalize (o.run eq l).1 = l' at he
    cases o with
    | insert i v =>
      obtain ⟨hv, pre, post, rfl, rfl, -⟩ := he
      intro x hx
      rcases List.mem_append.1 hx with h | h
      · exact hl x (by simp [h])
      · rcases List.mem_cons.1 h with rfl | h
        · exact hv
        · exact hl x (by simp [h])
    | append v =>
      obtain ⟨hv, rfl⟩ := he
      exact only_append hl (by intro x hx; rw [List.mem_singleton.1 hx]; exact hv)
    | extend vs =>
      obtain ⟨hv, rfl⟩ := he
      exact only_append hl hv
    | extendSelf =>
      have : l' = l ++ l := he
      rw [this]; exact only_append hl hl
    | set ix v =>
      cases ix with
      | int i =>
        have hs : ∃ s, v = .sched s := by
          have : admits v = true := by
            by_contra hc
            rw [Bool.not_eq_true] at hc
            simp [Op.run, setItem, hc] at hr
          rcases admits_iff.1 this with h | ⟨t, vs, rfl, -⟩
          · exact h
          · exact absurd trivial ho
        obtain ⟨n, hp, hlen, h1, h2⟩ := he
        intro x hx
        obtain ⟨m, hm⟩ := List.mem_iff_getElem?.1 hx
        by_cases e : m = n
        · subst e
          rw [h1] at hm
          cases hm
          exact hs
        · rw [h2 m e] at hm
          exact hl x (List.mem_of_getElem? hm)
      | slice a b c =>
        obtain ⟨t, vs, rfl, hvs, -, h1, h2⟩ := he
        by_cases hc : c = none ∨ c = some 1
        · obtain ⟨pre, mid, post, rfl, rfl, -⟩ := h1 hc
          intro x hx
          rcases List.mem_append.1 hx with h | h
          · rcases List.mem_append.1 h with h | h
            · exact hl x (by simp [h])
            · exact hvs x h
          · exact hl x (by simp [h])
        · push Not at hc
          obtain ⟨hlen, hv, h3, h4⟩ := h2 hc.1 hc.2
          intro x hx
          obtain ⟨m, hm⟩ := List.mem_iff_getElem?.1 hx
          by_cases hs : (m : Int) ∈ TileList.sliceRange l.length a b (c.getD 1)
          · obtain ⟨j, hj⟩ := List.mem_iff_getElem?.1 hs
            have := h4 j m hj
            rw [Int.toNat_natCast, hm] at this
            exact hvs x (List.mem_of_getElem? this.symm)
          · rw [h3 m hs] at hm
            exact hl x (List.mem_of_getElem? hm)
    | del ix =>
      cases ix with
      | int i =>
        obtain ⟨n, -, pre, y, post, rfl, rfl, -⟩ := he
        intro x hx
        apply hl
        rcases List.mem_append.1 hx with h | h <;> simp [h]
      | slice a b c => exact fun x hx => hl x (he.2.1.subset hx)
    | pop i =>
      obtain ⟨n, -, pre, y, post, rfl, rfl, -⟩ := he
      intro x hx
      apply hl
      rcases List.mem_append.1 hx with h | h <;> simp [h]
    | remove v =>
      obtain ⟨pre, y, post, rfl, rfl, -⟩ := he
      intro x hx
      apply hl
      rcases List.mem_append.1 hx with h | h <;> simp [h]
    | reverse =>
      have : l' = l.reverse := he
      rw [this]
      intro x hx
      exact hl x (by simpa using hx)
    | clear =>
      have : l' = [] := he
      rw [this]
      intro x hx
      cases hx

/-- What the constructor makes of one entry. -/
def Made (make : D → Except PyErr S) (v w : Val S D) : Prop := (∃ s, v = .sched s ∧ w = .sched s) ∨ ∃ d s, v = .dict d ∧ make d = .ok s ∧ w = .sched s

theorem fill_spec (make : D → Except PyErr S) (vs : List (Val S D)) : ∀ acc l', fill make acc vs = .ok l' ↔ ∃ ws, List.Forall₂ (Made make) vs ws ∧ l' = acc ++ ws := by
  induction vs with
  | nil => intro acc l'; simp [fill, eq_comm]
  | cons v r ih =>
    intro acc l'
    have key : ∀ s : S, (fill make (append acc (.sched s)).1 r = .ok l' ↔ ∃ ws, List.Forall₂ (Made make) r ws ∧ l' = acc ++ (.sched s :: ws)) := by
      intro s
      rw [append_eq]
      simp only [Val.isSched, if_true]
      rw [ih]
      simp
    cases v with
    | sched s =>
      rw [fill, key]
      constructor
      · rintro ⟨ws, h, rfl⟩; exact ⟨_, .cons (.inl ⟨s, rfl, rfl⟩) h, rfl⟩
      · rintro ⟨ws, h, rfl⟩
        cases h with
        | cons h1 h2 =>
          rcases h1 with ⟨s', e, rfl⟩ | ⟨d, s', e, -⟩
          · cases e; exact ⟨_, h2, rfl⟩
          · cases e
    | dict d =>
      rw [fill]
      cases hd : make d with
      | ok s =>
        simp only
        rw [key]
        constructor
        · rintro ⟨ws, h, rfl⟩; exact ⟨_, .cons (.inr ⟨d, s, rfl, hd, rfl⟩) h, rfl⟩
        · rintro ⟨ws, h, rfl⟩
          cases h with
          | cons h1 h2 =>
            rcases h1 with ⟨s', e, rfl⟩ | ⟨d', s', e, e2, rfl⟩
            · cases e
            · cases e; rw [hd] at e2; cases e2; exact ⟨_, h2, rfl⟩
      | error e =>
        simp only [false_iff, reduceCtorEq]
        rintro ⟨ws, h, rfl⟩
        cases h with
        | cons h1 h2 =>
          rcases h1 with ⟨s', e, rfl⟩ | ⟨d', s', e, e2, rfl⟩
          · cases e
          · cases e; rw [hd] at e2; cases e2
    | seq t l =>
      simp only [fill, false_iff, reduceCtorEq]
      rintro ⟨ws, h, rfl⟩
      cases h with
      | cons h1 h2 => rcases h1 with ⟨s', e, rfl⟩ | ⟨d', s', e, -⟩ <;> cases e
    | other n =>
      simp only [fill, false_iff, reduceCtorEq]
      rintro ⟨ws, h, rfl⟩
      cases h with
      | cons h1 h2 => rcases h1 with ⟨s', e, rfl⟩ | ⟨d', s', e, -⟩ <;> cases e

/-- C92: the constructor takes nothing or a `list` of schedules and of dictionaries that schedules can be made of, and keeps the order; anything
else, a `ScheduleList` included, it refuses. -/
theorem C92_built (make : D → Except PyErr S) (v : Option (Val S D)) (l : List (Val S D)) :
    init make v = .ok l ↔ (v = none ∧ l = []) ∨ ∃ vs, v = some (.seq true vs) ∧ List.Forall₂ (Made make) vs l := by
  cases v with
  | none => simp [init, eq_comm]
  | some v =>
    cases v with
    | seq t vs =>
      cases t with
      | true => simp [init, fill_spec]
      | false => simp [init]
    | sched s => simp [init]
    | dict d => simp [init]
    | other n => simp [init]

/-- C92: a list made by the constructor holds nothing but schedules whatever is called on it, failing calls included.
Missing: assignments of a sequence to the index of one schedule (`C92_index_refuted`). -/
theorem C92_only_partial (eq : Val S D → Val S D → Bool) {make : D → Except PyErr S} {v : Option (Val S D)} {l : List (Val S D)} (h : init make v = .ok l)
    (os : List (Op S D)) (ho : ∀ o ∈ os, ¬ Nests o) : Only (os.foldl (fun l o => (o.run eq l).1) l) := by
  have hl : Only l := by
    rcases (C92_built make v l).1 h with ⟨-, rfl⟩ | ⟨vs, -, hf⟩
    · intro x hx; cases hx
    · clear h
      induction hf with
      | nil => intro x hx; cases hx
      | cons h1 _ ih =>
        intro x hx
        rcases List.mem_cons.1 hx with rfl | hx
        · rcases h1 with ⟨s, -, rfl⟩ | ⟨d, s, -, -, rfl⟩ <;> exact ⟨s, rfl⟩
        · exact ih x hx
  clear h
  induction os generalizing l with
  | nil => exact hl
  | cons o r ih =>
    exact ih (fun x hx => ho x (List.mem_cons_of_mem _ hx)) (only_step eq hl (ho o (List.mem_cons_self ..)))

/-- C92: `pop` returns the schedule it takes out. -/
theorem C92_pop (l : List (Val S D)) (i : Int) (n : ℕ) (h : Points l.length i n) :
    (pop l i).2 = l[n]? ∧ l[n]?.isSome ∧ (pop l i).1 = (l.eraseIdx n, none) := by
  have hp := ((pyIndex_points l i).1 n).2 h
  simp [pop, hp, delItem, h.1]

section Examples

/-- Equality of the example: the numbers of schedules.  Model only. -/
def same : Val ℕ ℕ → Val ℕ ℕ → Bool
  | .sched a, .sched b => a == b
  | _, _ => false

/-- The schedules of a list.  Model only. -/
def nums (l : List (Val ℕ ℕ)) : List (Option ℕ) := l.map fun
  | .sched s => some s
  | _ => none

abbrev sl (l : List ℕ) : List (Val ℕ ℕ) := l.map .sched

example : Only (sl [1, 2, 3]) := by intro v hv; simp only [List.mem_map] at hv; obtain ⟨a, -, rfl⟩ := hv; exact ⟨a, rfl⟩
example : (nums ((Op.insert (-1) (.sched 9)).run same (sl [1, 2, 3])).1) = [some 1, some 2, some 9, some 3] := by decide
example : (nums ((Op.reverse).run same (sl [1, 2, 3, 4, 5])).1) = [some 5, some 4, some 3, some 2, some 1] := by decide
example : (nums ((Op.set (.slice (some 0) none (some 2)) (.seq true (sl [7, 8]))).run same (sl [1, 2, 3])).1) = [some 7, some 2, some 8] := by decide
example : (nums ((Op.set (.slice (some 2) (some 1) none) (.seq false (sl [7, 8]))).run same (sl [1, 2, 3])).1) = [some 1, some 2, some 7, some 8, some 3] := by decide
example : ((Op.set (.slice (some 0) none (some 2)) (.seq true (sl [7]))).run same (sl [1, 2, 3])).2 = some .valueError := by decide
example : ((Op.set (.slice none none none) (.sched 7)).run same (sl [1, 2, 3])).2 = some .typeError := by decide
example : (nums ((Op.del (.slice none none (some (-2)))).run same (sl [1, 2, 3, 4])).1) = [some 1, some 3] := by decide
example : (nums ((Op.extendSelf).run same (sl [1, 2])).1) = [some 1, some 2, some 1, some 2] := by decide
example : (nums ((Op.remove (.sched 2)).run same (sl [1, 2, 2, 3])).1) = [some 1, some 2, some 3] := by decide
example : Points (sl [1, 2, 3]).length (-1) 2 := by unfold Points; decide
example : (match init (fun d : ℕ => if d = 0 then .error .typeError else .ok d) (some (.seq true [.sched 4, .dict 5])) with | .ok l => nums l | _ => []) = [some 4, some 5] := by decide
example : (match init (S := ℕ) (fun d : ℕ => .ok d) (some (.seq false [.sched 4])) with | .error e => some e | _ => none) = some PyErr.typeError := by decide

/-- Claim: a schedule list holds nothing but schedules.  `schedules[0] = [schedule]` passes the check meant for slices and stores the list as
an element; exporting the blueprint then fails, for `list` has no `to_dict`. -/
theorem C92_index_refuted : ¬ ∀ (l : List (Val ℕ ℕ)) (o : Op ℕ ℕ), Only l → Only (o.run same l).1 := by
  intro h
  have := h (sl [1]) (.set (.int 0) (.seq true (sl [2]))) (by intro v hv; simp at hv; exact ⟨1, hv⟩)
  obtain ⟨s, e⟩ := this (.seq true (sl [2])) (by simp [Op.run, setItem, admits, Val.isSched, pySet, EList.pyIndex])
  cases e

/-- Claim: a call that raises changes nothing.  `extend` adds the schedules before the first value that is none. -/
theorem C92_extend_refuted : ¬ ∀ (l : List (Val ℕ ℕ)) (o : Op ℕ ℕ), Only l → (o.run same l).2 ≠ none → nums (o.run same l).1 = nums l := by
  intro h
  have := h (sl [1]) (.extend [.sched 2, .dict 3]) (by intro v hv; simp at hv; exact ⟨1, hv⟩) (by decide)
  revert this
  decide

end Examples

/-! ### Blueprints and groups -/

/-- No two of the owners `O` have the same `ScheduleList` object, and none has one not made yet. -/
def World.Apart (w : World S D) (O : ℕ → Prop) : Prop := (∀ x y, O x → O y → w.ref x = w.ref y → x = y) ∧ ∀ x, O x → w.ref x < w.next

/-- C92: a new list and a call on one's own list change what no other owner sees, and owners stay apart.
Missing: the assignment of the list of another owner (`C92_shared_refuted`). -/
theorem C92_own_partial (make : D → Except PyErr S) (eq : Val S D → Val S D → Bool) {w : World S D} {O : ℕ → Prop} (h : w.Apart O) {x y : ℕ}
    (hx : O x) (hy : O y) (hxy : y ≠ x) :
    (∀ o, (w.call eq x o).1.Apart O ∧ (w.call eq x o).1.sees y = w.sees y ∧ (w.call eq x o).1.sees x = (o.run eq (w.sees x)).1) ∧
    (∀ g s, (∀ n, s ≠ Src.obj n) → (w.assign make g x s).1.Apart O ∧ (w.assign make g x s).1.sees y = w.sees y) ∧
    ∀ s, (w.setup make x s).1.Apart O ∧ (w.setup make x s).1.sees y = w.sees y := by
  have fr : ∀ l, (w.fresh x l).Apart O ∧ (w.fresh x l).sees y = w.sees y := by
    intro l
    refine ⟨⟨?_, ?_⟩, ?_⟩
    · intro a b oa ob hab
      simp only [World.fresh, Function.update_apply] at hab
      split_ifs at hab with ha hb hb
      · rw [ha, hb]
      · have := h.2 b ob; omega
      · have := h.2 a oa; omega
      · exact h.1 a b oa ob hab
    · intro a oa
      simp only [World.fresh, Function.update_apply]
      split_ifs
      · omega
      · have := h.2 a oa; omega
    · have := h.2 y hy
      simp only [World.fresh, World.sees, Function.update_apply, if_neg hxy]
      rw [if_neg (by omega)]
  have hne : w.ref y ≠ w.ref x := fun e => hxy (h.1 y x hy hx e)
  refine ⟨?_, ?_, ?_⟩
  · intro o
    refine ⟨⟨h.1, h.2⟩, ?_, ?_⟩
    · simp [World.call, World.sees, hne]
    · simp [World.call, World.sees]
  · intro g s hs
    cases s with
    | none =>
      simp only [World.assign]
      split_ifs
      · exact fr []
      · refine ⟨⟨h.1, h.2⟩, ?_⟩
        simp [World.sees, hne]
    | obj n => exact absurd rfl (hs n)
    | val v =>
      simp only [World.assign]
      cases init make (some v) with
      | ok l => exact fr l
      | error e => exact ⟨h, rfl⟩
  · intro s
    cases s with
    | none => exact fr []
    | obj n =>
      simp only [World.setup]
      cases init make (some (.seq false (w.data n))) with
      | ok l => exact fr l
      | error e => exact ⟨h, rfl⟩
    | val v =>
      simp only [World.setup]
      cases init make (some v) with
      | ok l => exact fr l
      | error e => exact ⟨h, rfl⟩

/-- C92: what is assigned is what is shown: nothing for `None`, the schedules of the other list, or what the constructor makes of the value. -/
theorem C92_assigned (make : D → Except PyErr S) (g : Bool) (w : World S D) (x : ℕ) :
    (w.assign make g x .none).1.sees x = [] ∧ (∀ y, (w.assign make g x (.obj (w.ref y))).1.sees x = w.sees y) ∧
    (∀ v l, init make (some v) = .ok l → (w.assign make g x (.val v)).1.sees x = l ∧ (w.setup make x (.val v)).1.sees x = l) ∧
    (∀ v e, init make (some v) = .error e → w.assign make g x (.val v) = (w, some e) ∧ w.setup make x (.val v) = (w, some e)) := by
  refine ⟨?_, ?_, ?_, ?_⟩
  · cases g <;> simp [World.assign, World.fresh, World.sees]
  · intro y; simp [World.assign, World.sees]
  · intro v l h
    simp [World.assign, World.setup, h, World.fresh, World.sees]
  · intro v e h
    simp [World.assign, World.setup, h]

/-- Two blueprints with a schedule each.  Model only. -/
def pair : World ℕ ℕ := ⟨fun n => sl [n], 100, fun x => x % 100⟩

example : pair.Apart (· < 100) := ⟨by intro x y hx hy h; simp only [pair] at h; omega, by intro x hx; simp only [pair]; omega⟩
example : nums ((pair.call same 0 (.append (.sched 7))).1.sees 0) = [some 0, some 7] ∧ nums ((pair.call same 0 (.append (.sched 7))).1.sees 1) = [some 1] := by decide
example : nums ((pair.assign .ok false 0 (.val (.seq true [.sched 3, .dict 4]))).1.sees 0) = [some 3, some 4] := by decide

/-- Claim: blueprints do not share schedules.  After `b.schedules = a.schedules` a schedule appended to one appears in the other. -/
theorem C92_shared_refuted : ¬ ∀ (w : World ℕ ℕ) (x y : ℕ) (v : Val ℕ ℕ), x ≠ y →
    nums (((w.assign .ok false x (.obj (w.ref y))).1.call same x (.append v)).1.sees y) = nums (w.sees y) := by
  intro h
  have := h pair 0 1 (.sched 7) (by decide)
  revert this
  decide

/-- Claim: assigning `None` to the schedules of a blueprint empties its schedules only.  It clears the object in place: after
`b.schedules = a.schedules; b.schedules = None` the schedules of `a` are gone (groups get a new list). -/
theorem C92_none_refuted : ¬ ∀ (g : Bool) (w : World ℕ ℕ) (x y : ℕ), x ≠ y →
    nums (((w.assign .ok g x (.obj (w.ref y))).1.assign .ok g x .none).1.sees y) = nums (w.sees y) := by
  intro h
  have := h false pair 0 1 (by decide)
  revert this
  decide

/-- Claim: what can be assigned to `schedules` can be given to the constructor.  `Group(schedules=other.schedules)` raises `TypeError`: the
constructor of `ScheduleList` only takes a `list`, though the annotation allows a `ScheduleList`. -/
theorem C92_setup_refuted : ¬ ∀ (w : World ℕ ℕ) (x : ℕ) (s : Src ℕ ℕ), (w.assign .ok true x s).2 = none → (w.setup .ok x s).2 = none := by
  intro h
  have := h pair 0 (.obj 1) (by decide)
  revert this
  decide

end SchedList
end Draftsman
