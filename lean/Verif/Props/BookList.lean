import Verif.Model.BookList
import Verif.Props.SchedList
/-
C107: the list of blueprints of a book.
-/
namespace Draftsman
namespace BookList
open SchedList (Index Points Outside gap pyIndex_points pyInsert_eq dropAt_spec pySet pySetSlice)

variable {B D : Type}

/-- Nothing but objects of the four classes. -/
def Only (l : List (Val B D)) : Prop := ∀ v ∈ l, ∃ b, v = .obj b

/-- One element taken out at position `n`. -/
def Cut (l l' : List (Val B D)) (n : ℕ) : Prop := ∃ pre x post, l = pre ++ x :: post ∧ l' = pre ++ post ∧ pre.length = n

/-- What a call that succeeds does to a list; there is no slice that can be assigned. -/
def Effect (eq : Val B D → Val B D → Bool) (l l' : List (Val B D)) : Op B D → Prop
  | .insert i v => (∃ b, v = .obj b) ∧ ∃ pre post, l = pre ++ post ∧ l' = pre ++ v :: post ∧ pre.length = gap l.length 0 (some i)
  | .append v => (∃ b, v = .obj b) ∧ l' = l ++ [v]
  | .extend vs => Only vs ∧ l' = l ++ vs
  | .extendSelf => l' = l ++ l
  | .set (.int i) v => (∃ b, v = .obj b) ∧ ∃ n, Points l.length i n ∧ l'.length = l.length ∧ l'[n]? = some v ∧ ∀ m, m ≠ n → l'[m]? = l[m]?
  | .set (.slice _ _ _) _ => False
  | .del (.int i) => ∃ n, Points l.length i n ∧ Cut l l' n
  | .del (.slice a b c) => c ≠ some 0 ∧ l'.Sublist l ∧ l'.length + (TileList.sliceRange l.length a b (c.getD 1)).length = l.length ∧
      ∀ (k : ℕ) v, l[k]? = some v → (k : Int) ∉ TileList.sliceRange l.length a b (c.getD 1) → v ∈ l'
  | .pop i => ∃ n, Points l.length i n ∧ Cut l l' n
  | .remove v => ∃ pre x post, l = pre ++ x :: post ∧ l' = pre ++ post ∧ eq x v = true ∧ ∀ y ∈ pre, eq y v = false
  | .reverse => l' = l.reverse
  | .clear => l' = []

/-- The exception a call raises. -/
def Fault (eq : Val B D → Val B D → Bool) (l : List (Val B D)) (e : PyErr) : Op B D → Prop
  | .insert _ v | .append v => (¬ ∃ b, v = .obj b) ∧ e = .typeError
  | .extend vs => ¬ Only vs ∧ e = .typeError
  | .extendSelf => False
  | .set (.int i) v => (¬ (∃ b, v = .obj b) ∧ e = .typeError) ∨ ((∃ b, v = .obj b) ∧ Outside l.length i ∧ e = .indexError)
  | .set (.slice _ _ c) v => ((∃ b, v = .obj b) ∧ c = some 0 ∧ e = .valueError) ∨ (¬ ((∃ b, v = .obj b) ∧ c = some 0) ∧ e = .typeError)
  | .del (.int i) => Outside l.length i ∧ e = .indexError
  | .del (.slice _ _ c) => c = some 0 ∧ e = .valueError
  | .pop i => Outside l.length i ∧ e = .indexError
  | .remove v => (∀ y ∈ l, eq y v = false) ∧ e = .valueError
  | .reverse | .clear => False

theorem isObj_iff {v : Val B D} : v.isObj = true ↔ ∃ b, v = .obj b := by
  cases v <;> simp [Val.isObj]

theorem insert_ok {l l' : List (Val B D)} {i : Int} {v : Val B D} (h : insert l i v = (l', none)) :
    (∃ b, v = .obj b) ∧ l' = EList.pyInsert l i v := by
  unfold insert at h
  split_ifs at h with hv
  · cases h; exact ⟨isObj_iff.1 hv, rfl⟩
  · cases h

theorem append_eq (l : List (Val B D)) (v : Val B D) :
    append l v = if v.isObj then (l ++ [v], none) else (l, some .typeError) := by
  unfold append insert
  have : EList.pyInsert l (l.length : Int) v = l ++ [v] := by
    have h := (pyInsert_eq l (l.length : Int) v).1
    have hg : gap l.length 0 (some (l.length : Int)) = l.length := by simp only [gap]; omega
    rw [h, hg]; simp
  rw [this]

/-- The blueprints before the first element that is none. -/
def before (vs : List (Val B D)) : List (Val B D) := vs.takeWhile Val.isObj

theorem extend_eq (l vs : List (Val B D)) :
    extend l vs = (l ++ before vs, if vs.all Val.isObj then none else some .typeError) := by
  induction vs generalizing l with
  | nil => simp [extend, before]
  | cons v r ih =>
    rw [extend, append_eq]
    by_cases hv : v.isObj = true
    · simp only [hv, if_true]
      rw [ih]
      simp [before, hv]
    · simp [before, hv]

theorem all_iff {vs : List (Val B D)} : vs.all Val.isObj = true ↔ Only vs := by
  simp [List.all_eq_true, isObj_iff, Only]

theorem before_only {vs : List (Val B D)} (h : Only vs) : before vs = vs := by
  unfold before
  induction vs with
  | nil => rfl
  | cons v r ih =>
    have hv := isObj_iff.2 (h v (List.mem_cons_self ..))
    rw [List.takeWhile_cons, if_pos hv, ih fun x hx => h x (List.mem_cons_of_mem _ hx)]

theorem mem_before {vs : List (Val B D)} {v : Val B D} (h : v ∈ vs.takeWhile Val.isObj) : v.isObj = true := by
  have := List.all_takeWhile (p := Val.isObj) (l := vs)
  exact List.all_eq_true.1 this v h

theorem cut_eraseIdx {l : List (Val B D)} {n : ℕ} (h : n < l.length) : Cut l (l.eraseIdx n) n := by
  refine ⟨l.take n, l[n], l.drop (n + 1), ?_, ?_, by simp; omega⟩
  · simp
  · exact List.eraseIdx_eq_take_drop_succ ..

/-! ### Reversing -/

theorem setItem_int {l : List (Val B D)} {n : ℕ} {v : Val B D} (hn : n < l.length) (hv : ∃ b, v = .obj b) :
    setItem l (.int n) v = (l.set n v, none) := by
  have ha : v.isObj = true := isObj_iff.2 hv
  have hp := ((pyIndex_points l (n : Int)).1 n).2 ⟨hn, .inl ⟨by omega, rfl⟩⟩
  simp [setItem, ha, pySet, hp]

theorem reverseFrom_spec (l : List (Val B D)) (hl : Only l) : ∀ (k i : ℕ) (m : List (Val B D)), i + k = l.length / 2 → m.length = l.length →
    (∀ j, j < l.length → m[j]? = if j < i ∨ l.length - i ≤ j then l[l.length - 1 - j]? else l[j]?) →
    reverseFrom l.length k i m = (l.reverse, none) := by
  intro k
  induction k with
  | zero =>
    intro i m hi hm hj
    rw [reverseFrom]
    congr 1
    apply List.ext_getElem?
    intro j
    by_cases h : j < l.length
    · rw [hj j h, List.getElem?_reverse h]
      split_ifs with h1
      · rfl
      · congr 1; omega
    · rw [List.getElem?_eq_none (by omega), List.getElem?_eq_none (by simp; omega)]
  | succ k ih =>
    intro i m hi hm hj
    have hlt : i < l.length := by omega
    have hlt' : l.length - i - 1 < l.length := by omega
    rw [reverseFrom]
    have h1 : m[l.length - i - 1]? = some l[l.length - i - 1] := by
      rw [hj _ hlt', if_neg (by omega), List.getElem?_eq_getElem hlt']
    have h2 : m[i]? = some l[i] := by
      rw [hj _ hlt, if_neg (by omega), List.getElem?_eq_getElem hlt]
    have hs : swap m i (l.length - i - 1) = ((m.set i l[l.length - i - 1]).set (l.length - i - 1) l[i], none) := by
      unfold swap
      rw [h1, h2]
      simp only
      rw [setItem_int (by omega) (hl _ (List.getElem_mem _))]
      simp only
      rw [setItem_int (by simp; omega) (hl _ (List.getElem_mem _))]
    rw [hs]
    simp only
    apply ih
    · omega
    · simp [hm]
    · intro j hjl
      rw [List.getElem?_set, List.getElem?_set]
      by_cases e1 : l.length - i - 1 = j
      · rw [if_pos e1, if_pos (by simp; omega), if_pos (by omega), ← List.getElem?_eq_getElem hlt]
        congr 1; omega
      · rw [if_neg e1]
        by_cases e2 : i = j
        · rw [if_pos e2, if_pos (by omega), if_pos (by omega), ← List.getElem?_eq_getElem hlt']
          congr 1; omega
        · rw [if_neg e2, hj j hjl]
          by_cases c1 : j < i ∨ l.length - i ≤ j
          · rw [if_pos c1, if_pos (by omega)]
          · rw [if_neg c1, if_neg (by omega)]

theorem reverse_eq {l : List (Val B D)} (hl : Only l) : reverse l = (l.reverse, none) := by
  unfold reverse
  apply reverseFrom_spec l hl
  · omega
  · rfl
  · intro j hj
    rw [if_neg (by omega)]

theorem clear_eq : ∀ (n : ℕ) (l : List (Val B D)), l.length < n → clear n l = [] := by
  intro n
  induction n with
  | zero => intro l h; omega
  | succ n ih =>
    intro l h
    rw [clear]
    by_cases h0 : l = []
    · subst h0
      rfl
    · have hl : 0 < l.length := List.length_pos_iff.2 h0
      have hp := ((pyIndex_points l (-1)).1 (l.length - 1)).2 ⟨by omega, .inr ⟨by omega, by omega⟩⟩
      simp only [pop, delItem, SchedList.delItem, hp]
      exact ih _ (by rw [List.length_eraseIdx]; split <;> omega)

/-! ### Theorems -/

/-- C107: what a call that succeeds does to the list: what Python's lists do.  Assigning a slice never succeeds. -/
theorem C107_effect (eq : Val B D → Val B D → Bool) {l l' : List (Val B D)} (hl : Only l) {o : Op B D} (h : o.run eq l = (l', none)) :
    Effect eq l l' o := by
  cases o with
  | insert i v =>
    obtain ⟨hv, rfl⟩ := insert_ok h
    obtain ⟨h1, h2⟩ := pyInsert_eq l i v
    exact ⟨hv, l.take (gap l.length 0 (some i)), l.drop (gap l.length 0 (some i)), by simp, h1, by simpa using h2⟩
  | append v =>
    simp only [Op.run, append_eq] at h
    split_ifs at h with hv
    · cases h; exact ⟨isObj_iff.1 hv, rfl⟩
    · cases h
  | extend vs =>
    simp only [Op.run, extend_eq, Prod.mk.injEq] at h
    have ha : vs.all Val.isObj = true := by
      by_contra hc
      simp [hc] at h
    have ho := all_iff.1 ha
    exact ⟨ho, by rw [← h.1, before_only ho]⟩
  | extendSelf =>
    simp only [Op.run, extend_eq, Prod.mk.injEq] at h
    show l' = l ++ l
    rw [← h.1, before_only hl]
  | set ix v =>
    simp only [Op.run, setItem] at h
    by_cases ha : v.isObj = true
    · simp only [ha, Bool.not_true, Bool.false_eq_true, if_false] at h
      cases ix with
      | int i =>
        simp only [pySet] at h
        cases hp : EList.pyIndex l i with
        | none => rw [hp] at h; cases h
        | some n =>
          rw [hp] at h
          cases h
          have hpt := ((pyIndex_points l i).1 n).1 hp
          refine ⟨isObj_iff.1 ha, n, hpt, by simp, ?_, ?_⟩
          · rw [List.getElem?_set, if_pos rfl, if_pos hpt.1]
          · intro m hm
            rw [List.getElem?_set, if_neg (Ne.symm hm)]
      | slice a b c =>
        simp only [pySetSlice] at h
        split_ifs at h <;> cases h
    · simp [ha] at h
  | del ix =>
    cases ix with
    | int i =>
      simp only [Op.run, delItem, SchedList.delItem] at h
      cases hp : EList.pyIndex l i with
      | none => rw [hp] at h; cases h
      | some n =>
        rw [hp] at h
        cases h
        have hpt := ((pyIndex_points l i).1 n).1 hp
        exact ⟨n, hpt, cut_eraseIdx hpt.1⟩
    | slice a b c =>
      simp only [Op.run, delItem, SchedList.delItem] at h
      split_ifs at h with h0
      · cases h
      · cases h
        obtain ⟨hnd, hb⟩ := TileList.sliceRange_spec l.length a b (c.getD 1) h0
        exact ⟨by rintro rfl; exact h0 rfl, dropAt_spec l _ hnd hb⟩
  | pop i =>
    simp only [Op.run, pop, delItem, SchedList.delItem] at h
    cases hp : EList.pyIndex l i with
    | none => rw [hp] at h; cases h
    | some n =>
      rw [hp] at h
      cases h
      have hpt := ((pyIndex_points l i).1 n).1 hp
      exact ⟨n, hpt, cut_eraseIdx hpt.1⟩
  | remove v =>
    simp only [Op.run, remove] at h
    cases hf : l.findIdx? (eq · v) with
    | none => rw [hf] at h; cases h
    | some n =>
      rw [hf] at h
      obtain ⟨hn, he, hb⟩ := List.findIdx?_eq_some_iff_getElem.1 hf
      have hp := ((pyIndex_points l (n : Int)).1 n).2 ⟨hn, .inl ⟨by omega, rfl⟩⟩
      simp only [delItem, SchedList.delItem, hp] at h
      cases h
      refine ⟨l.take n, l[n], l.drop (n + 1), by simp, List.eraseIdx_eq_take_drop_succ .., he, ?_⟩
      intro y hy
      obtain ⟨j, hj, rfl⟩ := List.mem_take_iff_getElem.1 hy
      have := hb j (by omega)
      simpa using this
  | reverse =>
    simp only [Op.run, reverse_eq hl, Prod.mk.injEq] at h
    exact h.1.symm
  | clear =>
    simp only [Op.run, clear_eq _ _ (Nat.lt_succ_self _), Prod.mk.injEq] at h
    exact h.1.symm

/-- C107: which call raises which exception.  A call that raises leaves the list as it was, except `extend`, which has then added the blueprints
before the first value that is none (`C107_extend_refuted`). -/
theorem C107_fault (eq : Val B D → Val B D → Bool) {l : List (Val B D)} (hl : Only l) (o : Op B D) (e : PyErr) :
    ((o.run eq l).2 = some e ↔ Fault eq l e o) ∧
    ((o.run eq l).2 ≠ none → (∀ vs, o ≠ .extend vs) → (o.run eq l).1 = l) ∧
    ∀ vs, o = .extend vs → ∃ pre post, vs = pre ++ post ∧ (o.run eq l).1 = l ++ pre ∧ Only pre ∧ ∀ v ∈ post.head?, ¬ ∃ b, v = .obj b := by
  have inj : ∀ {x : PyErr}, (some x = some e) ↔ e = x := fun {x} => ⟨fun h => (Option.some.inj h).symm, fun h => by rw [h]⟩
  refine ⟨?_, ?_, ?_⟩
  · cases o with
    | insert i v =>
      simp only [Op.run, insert, Fault, ← isObj_iff]
      split_ifs with hv <;> simp [hv, eq_comm]
    | append v =>
      simp only [Op.run, append_eq, Fault, ← isObj_iff]
      split_ifs with hv <;> simp [hv, eq_comm]
    | extend vs =>
      simp only [Op.run, extend_eq, Fault, ← all_iff]
      split_ifs with hv <;> simp [hv, eq_comm]
    | extendSelf =>
      simp [Op.run, extend_eq, Fault, all_iff.2 hl]
    | set ix v =>
      cases ix with
      | int i =>
        simp only [Fault, Op.run, setItem, ← isObj_iff]
        by_cases ha : v.isObj = true
        · simp only [ha, Bool.not_true, Bool.false_eq_true, if_false, pySet]
          cases hp : EList.pyIndex l i with
          | none =>
            have := (pyIndex_points l i).2.1 hp
            simp [this, eq_comm]
          | some n =>
            have hn : ¬ Outside l.length i := fun ho => by rw [(pyIndex_points l i).2.2 ho] at hp; cases hp
            simp [hn]
        · simp [ha, eq_comm]
      | slice a b c =>
        simp only [Fault, Op.run, setItem, ← isObj_iff]
        have hc : c = some 0 ↔ c.getD 1 = 0 := by cases c <;> simp
        rw [hc]
        by_cases ha : v.isObj = true
        · simp only [ha, Bool.not_true, Bool.false_eq_true, if_false, pySetSlice]
          by_cases h0 : c.getD 1 = 0 <;> simp [h0, eq_comm]
        · simp [ha, eq_comm]
    | del ix =>
      cases ix with
      | int i =>
        simp only [Op.run, delItem, SchedList.delItem, Fault]
        cases hp : EList.pyIndex l i with
        | none =>
          have := (pyIndex_points l i).2.1 hp
          simp [this, eq_comm]
        | some n =>
          have hn : ¬ Outside l.length i := fun ho => by rw [(pyIndex_points l i).2.2 ho] at hp; cases hp
          simp [hn]
      | slice a b c =>
        simp only [Op.run, delItem, SchedList.delItem, Fault]
        have hc : c.getD 1 = 0 ↔ c = some 0 := by cases c <;> simp
        rw [← hc]
        split_ifs with h0 <;> simp [h0, eq_comm]
    | pop i =>
      simp only [Op.run, pop, delItem, SchedList.delItem, Fault]
      cases hp : EList.pyIndex l i with
      | none =>
        have := (pyIndex_points l i).2.1 hp
        simp [this, eq_comm]
      | some n =>
        have hn : ¬ Outside l.length i := fun ho => by rw [(pyIndex_points l i).2.2 ho] at hp; cases hp
        simp [hn]
    | remove v =>
      simp only [Op.run, remove, Fault]
      cases hf : l.findIdx? (eq · v) with
      | none =>
        have := List.findIdx?_eq_none_iff.1 hf
        simp only [eq_comm (a := e)]
        constructor
        · intro h; exact ⟨fun y hy => by simpa using this y hy, by simpa using h⟩
        · intro h; simp [h.2]
      | some n =>
        obtain ⟨hn, he, hb⟩ := List.findIdx?_eq_some_iff_getElem.1 hf
        have hp := ((pyIndex_points l (n : Int)).1 n).2 ⟨hn, .inl ⟨by omega, rfl⟩⟩
        simp only [delItem, SchedList.delItem, hp]
        constructor
        · intro h; cases h
        · intro h; rw [h.1 _ (List.getElem_mem hn)] at he; cases he
    | reverse => simp [Op.run, reverse_eq hl, Fault]
    | clear => simp [Op.run, Fault]
  · intro hne hx
    cases o with
    | insert i v =>
      simp only [Op.run, insert] at hne ⊢
      split_ifs at hne ⊢ with hv
      · exact absurd rfl hne
      · rfl
    | append v =>
      simp only [Op.run, append_eq] at hne ⊢
      split_ifs at hne ⊢ with hv
      · exact absurd rfl hne
      · rfl
    | extend vs => exact absurd rfl (hx vs)
    | extendSelf => simp [Op.run, extend_eq, all_iff.2 hl] at hne
    | set ix v =>
      simp only [Op.run, setItem] at hne ⊢
      split_ifs at hne ⊢ with hv
      · rfl
      · cases ix with
        | int i =>
          simp only [pySet] at hne ⊢
          cases hp : EList.pyIndex l i with
          | none => rfl
          | some n => simp [hp] at hne
        | slice a b c =>
          simp only [pySetSlice] at hne ⊢
          split_ifs <;> rfl
    | del ix =>
      cases ix with
      | int i =>
        simp only [Op.run, delItem, SchedList.delItem] at hne ⊢
        cases hp : EList.pyIndex l i with
        | none => rfl
        | some n => simp [hp] at hne
      | slice a b c =>
        simp only [Op.run, delItem, SchedList.delItem] at hne ⊢
        split_ifs at hne ⊢
        · rfl
        · exact absurd rfl hne
    | pop i =>
      simp only [Op.run, pop, delItem, SchedList.delItem] at hne ⊢
      cases hp : EList.pyIndex l i with
      | none => rfl
      | some n => simp [hp] at hne
    | remove v =>
      simp only [Op.run, remove] at hne ⊢
      cases hf : l.findIdx? (eq · v) with
      | none => rfl
      | some n =>
        obtain ⟨hn, _, _⟩ := List.findIdx?_eq_some_iff_getElem.1 hf
        have hp := ((pyIndex_points l (n : Int)).1 n).2 ⟨hn, .inl ⟨by omega, rfl⟩⟩
        simp [hf, delItem, SchedList.delItem, hp] at hne
    | reverse => simp [Op.run, reverse_eq hl] at hne
    | clear => simp [Op.run] at hne
  · rintro vs rfl
    refine ⟨vs.takeWhile Val.isObj, vs.dropWhile Val.isObj, (List.takeWhile_append_dropWhile ..).symm, ?_, ?_, ?_⟩
    · simp [Op.run, extend_eq, before]
    · intro v hv
      exact isObj_iff.1 (mem_before hv)
    · intro v hv hs
      have := List.head?_dropWhile_not Val.isObj vs
      simp only [Option.mem_def] at hv
      rw [hv] at this
      simp [isObj_iff.2 hs] at this

theorem only_append {a b : List (Val B D)} (ha : Only a) (hb : Only b) : Only (a ++ b) := by
  intro v hv
  rcases List.mem_append.1 hv with h | h
  · exact ha v h
  · exact hb v h

theorem only_step (eq : Val B D → Val B D → Bool) {l : List (Val B D)} (hl : Only l) (o : Op B D) : Only (o.run eq l).1 := by
  cases hr : (o.run eq l).2 with
  | some e =>
    by_cases hx : ∀ vs, o ≠ .extend vs
    · rw [(C107_fault eq hl o e).2.1 (by rw [hr]; simp) hx]; exact hl
    · push Not at hx
      obtain ⟨vs, rfl⟩ := hx
      obtain ⟨pre, post, -, h2, h3, -⟩ := (C107_fault eq hl (.extend vs) e).2.2 vs rfl
      rw [h2]
      exact only_append hl h3
  | none =>
    have he := C107_effect eq hl (l' := (o.run eq l).1) (o := o) (by rw [← hr])
    generalize (o.run eq l).1 = l' at he
    cases o with
    | insert i v =>
      obtain ⟨hv, pre, post, rfl, rfl, -⟩ := he
      intro x hx
      rcases List.mem_append.1 hx with h | h
      · exact hl x (by simp [h])
      · rcases List.mem_cons.1 h with rfl | h
        · exact hv
        · exact hl x (by simp [h])
    | append v =>
      obtain ⟨hv, rfl⟩ := he
      exact only_append hl (by intro x hx; rw [List.mem_singleton.1 hx]; exact hv)
    | extend vs =>
      obtain ⟨hv, rfl⟩ := he
      exact only_append hl hv
    | extendSelf =>
      have : l' = l ++ l := he
      rw [this]; exact only_append hl hl
    | set ix v =>
      cases ix with
      | int i =>
        obtain ⟨hs, n, hp, hlen, h1, h2⟩ := he
        intro x hx
        obtain ⟨m, hm⟩ := List.mem_iff_getElem?.1 hx
        by_cases e : m = n
        · subst e
          rw [h1] at hm
          cases hm
          exact hs
        · rw [h2 m e] at hm
          exact hl x (List.mem_of_getElem? hm)
      | slice a b c => exact he.elim
    | del ix =>
      cases ix with
      | int i =>
        obtain ⟨n, -, pre, y, post, rfl, rfl, -⟩ := he
        intro x hx
        apply hl
        rcases List.mem_append.1 hx with h | h <;> simp [h]
      | slice a b c => exact fun x hx => hl x (he.2.1.subset hx)
    | pop i =>
      obtain ⟨n, -, pre, y, post, rfl, rfl, -⟩ := he
      intro x hx
      apply hl
      rcases List.mem_append.1 hx with h | h <;> simp [h]
    | remove v =>
      obtain ⟨pre, y, post, rfl, rfl, -⟩ := he
      intro x hx
      apply hl
      rcases List.mem_append.1 hx with h | h <;> simp [h]
    | reverse =>
      have : l' = l.reverse := he
      rw [this]
      intro x hx
      exact hl x (by simpa using hx)
    | clear =>
      have : l' = [] := he
      rw [this]
      intro x hx
      cases hx

/-- The class a dictionary is of, by its keys: the first of the four that it has. -/
def Says (has : D → Kind → Bool) (d : D) (k : Kind) : Prop :=
  ∃ pre post, [Kind.blueprint, .deconstruction, .upgrade, .book] = pre ++ k :: post ∧ has d k = true ∧ ∀ j ∈ pre, has d j = false

theorem build_spec (has : D → Kind → Bool) (make : Kind → D → Except PyErr B) (d : D) :
    (∀ k, Says has d k → build has make d = make k d) ∧ ((∀ k, has d k = false) → build has make d = .error .dataFormat) ∧
    ((∃ k, Says has d k) ∨ ∀ k, has d k = false) := by
  have hsay : ∀ k, Says has d k ↔ match k with
      | .blueprint => has d .blueprint = true
      | .deconstruction => has d .blueprint = false ∧ has d .deconstruction = true
      | .upgrade => has d .blueprint = false ∧ has d .deconstruction = false ∧ has d .upgrade = true
      | .book => has d .blueprint = false ∧ has d .deconstruction = false ∧ has d .upgrade = false ∧ has d .book = true := by
    intro k
    constructor
    · rintro ⟨pre, post, he, hk, hp⟩
      rcases pre with - | ⟨a, - | ⟨b, - | ⟨c, - | ⟨x, pre⟩⟩⟩⟩ <;> simp only [List.nil_append, List.cons_append, List.cons.injEq] at he
      · obtain ⟨rfl, -⟩ := he; exact hk
      · obtain ⟨rfl, rfl, -⟩ := he; exact ⟨hp _ (by simp), hk⟩
      · obtain ⟨rfl, rfl, rfl, -⟩ := he; exact ⟨hp _ (by simp), hp _ (by simp), hk⟩
      · obtain ⟨rfl, rfl, rfl, rfl, -⟩ := he; exact ⟨hp _ (by simp), hp _ (by simp), hp _ (by simp), hk⟩
      · obtain ⟨-, -, -, -, h⟩ := he; simp at h
    · intro h
      cases k with
      | blueprint => exact ⟨[], _, rfl, h, by simp⟩
      | deconstruction => exact ⟨[.blueprint], _, rfl, h.2, by simpa using h.1⟩
      | upgrade => exact ⟨[.blueprint, .deconstruction], _, rfl, h.2.2, by simpa using ⟨h.1, h.2.1⟩⟩
      | book => exact ⟨[.blueprint, .deconstruction, .upgrade], _, rfl, h.2.2.2, by simpa using ⟨h.1, h.2.1, h.2.2.1⟩⟩
  refine ⟨?_, ?_, ?_⟩
  · intro k hk
    rw [hsay] at hk
    cases k <;> simp only at hk <;> simp [build, hk]
  · intro h
    simp [build, h]
  · by_cases h1 : has d .blueprint = true
    · exact .inl ⟨_, (hsay .blueprint).2 h1⟩
    rw [Bool.not_eq_true] at h1
    by_cases h2 : has d .deconstruction = true
    · exact .inl ⟨_, (hsay .deconstruction).2 ⟨h1, h2⟩⟩
    rw [Bool.not_eq_true] at h2
    by_cases h3 : has d .upgrade = true
    · exact .inl ⟨_, (hsay .upgrade).2 ⟨h1, h2, h3⟩⟩
    rw [Bool.not_eq_true] at h3
    by_cases h4 : has d .book = true
    · exact .inl ⟨_, (hsay .book).2 ⟨h1, h2, h3, h4⟩⟩
    rw [Bool.not_eq_true] at h4
    exact .inr fun k => by cases k <;> assumption

/-- What the constructor makes of one entry: an object stays, a dictionary becomes an object of the class it says. -/
def Made (has : D → Kind → Bool) (make : Kind → D → Except PyErr B) (v w : Val B D) : Prop :=
  (∃ b, v = .obj b ∧ w = .obj b) ∨ ∃ d k b, v = .dict d ∧ Says has d k ∧ make k d = .ok b ∧ w = .obj b

/-- Why one entry cannot be taken. -/
def Refused (has : D → Kind → Bool) (make : Kind → D → Except PyErr B) (v : Val B D) (e : PyErr) : Prop :=
  (∃ n, v = .other n ∧ e = .typeError) ∨ (∃ d k, v = .dict d ∧ Says has d k ∧ make k d = .error e) ∨ ∃ d, v = .dict d ∧ (∀ k, has d k = false) ∧ e = .dataFormat

theorem entry (has : D → Kind → Bool) (make : Kind → D → Except PyErr B) (acc : List (Val B D)) (v : Val B D) (r : List (Val B D)) :
    (∃ w, Made has make v w ∧ (∀ w', Made has make v w' → w' = w) ∧ fill has make acc (v :: r) = fill has make (acc ++ [w]) r) ∨
    ((¬ ∃ w, Made has make v w) ∧ ∃ e, Refused has make v e ∧ fill has make acc (v :: r) = .error e) := by
  cases v with
  | obj b =>
    refine .inl ⟨.obj b, .inl ⟨b, rfl, rfl⟩, ?_, ?_⟩
    · rintro w (⟨b', e, rfl⟩ | ⟨d, k, b', e, -⟩)
      · cases e; rfl
      · cases e
    · rw [fill, append_eq]; rfl
      all_goals simp
  | dict d =>
    obtain ⟨b1, b2, b3⟩ := build_spec has make d
    rcases b3 with ⟨k, hk⟩ | hn
    · have hu : ∀ k', Says has d k' → make k' d = make k d := fun k' hk' => by rw [← b1 k' hk', ← b1 k hk]
      cases hm : make k d with
      | ok b =>
        refine .inl ⟨.obj b, .inr ⟨d, k, b, rfl, hk, hm, rfl⟩, ?_, ?_⟩
        · rintro w (⟨b', e, rfl⟩ | ⟨d', k', b', e, hk', hm', rfl⟩)
          · cases e
          · cases e; rw [hu k' hk', hm] at hm'; cases hm'; rfl
        · rw [fill, b1 k hk, hm]
          simp only [append_eq, Val.isObj, if_true]
      | error e =>
        refine .inr ⟨?_, e, .inr (.inl ⟨d, k, rfl, hk, hm⟩), ?_⟩
        · rintro ⟨w, ⟨b', e', rfl⟩ | ⟨d', k', b', e', hk', hm', rfl⟩⟩
          · cases e'
          · cases e'; rw [hu k' hk', hm] at hm'; cases hm'
        · rw [fill, b1 k hk, hm]
    · refine .inr ⟨?_, .dataFormat, .inr (.inr ⟨d, rfl, hn, rfl⟩), ?_⟩
      · rintro ⟨w, ⟨b', e', rfl⟩ | ⟨d', k', b', e', hk', -⟩⟩
        · cases e'
        · cases e'
          obtain ⟨-, -, -, h, -⟩ := hk'
          rw [hn] at h
          cases h
      · rw [fill, b2 hn]
  | other n =>
    refine .inr ⟨?_, .typeError, .inl ⟨n, rfl, rfl⟩, ?_⟩
    · rintro ⟨w, ⟨b', e', rfl⟩ | ⟨d', k', b', e', -⟩⟩ <;> cases e'
    · rw [fill, append_eq]; rfl
      all_goals simp

theorem fill_spec (has : D → Kind → Bool) (make : Kind → D → Except PyErr B) (vs : List (Val B D)) : ∀ acc,
    (∀ l, fill has make acc vs = .ok l ↔ ∃ ws, List.Forall₂ (Made has make) vs ws ∧ l = acc ++ ws) ∧
    (∀ e, fill has make acc vs = .error e → ∃ pre v post, vs = pre ++ v :: post ∧ (∃ ws, List.Forall₂ (Made has make) pre ws) ∧ Refused has make v e) := by
  induction vs with
  | nil =>
    intro acc
    refine ⟨fun l => ?_, fun e h => by cases h⟩
    simp [fill, eq_comm]
  | cons v r ih =>
    intro acc
    rcases entry has make acc v r with ⟨w, hw, hu, hf⟩ | ⟨hno, e0, hr, hf⟩
    · rw [hf]
      obtain ⟨h1, h2⟩ := ih (acc ++ [w])
      refine ⟨fun l => ?_, fun e he => ?_⟩
      · rw [h1]
        constructor
        · rintro ⟨ws, h, rfl⟩; exact ⟨w :: ws, .cons hw h, by simp⟩
        · rintro ⟨ws, h, rfl⟩
          cases h with
          | cons a b => rw [hu _ a]; exact ⟨_, b, by simp⟩
      · obtain ⟨pre, x, post, rfl, ⟨ws, hws⟩, hx⟩ := h2 e he
        exact ⟨v :: pre, x, post, rfl, ⟨w :: ws, .cons hw hws⟩, hx⟩
    · rw [hf]
      refine ⟨fun l => ?_, fun e he => ?_⟩
      · constructor
        · intro h; cases h
        · rintro ⟨ws, h, -⟩
          cases h with
          | cons a b => exact absurd ⟨_, a⟩ hno
      · cases he
        exact ⟨[], v, r, rfl, ⟨[], .nil⟩, hr⟩

/-- C107: a list is made of values if each of them is an object, or a dictionary of which an object of the class it says can be made; the order is kept.  Otherwise
the exception is that of the first that cannot be taken. -/
theorem C107_built (has : D → Kind → Bool) (make : Kind → D → Except PyErr B) (vs : List (Val B D)) :
    (∀ l, fill has make [] vs = .ok l ↔ List.Forall₂ (Made has make) vs l) ∧
    (∀ e, fill has make [] vs = .error e → ∃ pre v post, vs = pre ++ v :: post ∧ (∃ ws, List.Forall₂ (Made has make) pre ws) ∧ Refused has make v e) := by
  obtain ⟨h1, h2⟩ := fill_spec has make vs []
  refine ⟨fun l => ?_, h2⟩
  rw [h1]
  simp

/-- C107: whatever is called on a list made by the constructor, failing calls included, it holds nothing but blueprints, planners and books. -/
theorem C107_only (has : D → Kind → Bool) (make : Kind → D → Except PyErr B) (eq : Val B D → Val B D → Bool) {vs l : List (Val B D)}
    (h : fill has make [] vs = .ok l) (os : List (Op B D)) : Only (os.foldl (fun l o => (o.run eq l).1) l) := by
  have hl : Only l := by
    have hf := ((C107_built has make vs).1 l).1 h
    clear h
    induction hf with
    | nil => intro x hx; cases hx
    | cons h1 _ ih =>
      intro x hx
      rcases List.mem_cons.1 hx with rfl | hx
      · rcases h1 with ⟨s, -, rfl⟩ | ⟨d, k, s, -, -, -, rfl⟩ <;> exact ⟨s, rfl⟩
      · exact ih x hx
  clear h
  induction os generalizing l with
  | nil => exact hl
  | cons o r ih => exact ih (only_step eq hl o)

/-- C107: `pop` returns what it takes out. -/
theorem C107_pop (l : List (Val B D)) (i : Int) (n : ℕ) (h : Points l.length i n) :
    (pop l i).2 = l[n]? ∧ l[n]?.isSome ∧ (pop l i).1 = (l.eraseIdx n, none) := by
  have hp := ((pyIndex_points l i).1 n).2 h
  simp [pop, hp, delItem, SchedList.delItem, h.1]

/-! ### Books -/

/-- No two of the books `O` have the same list object, and none has one not made yet. -/
def World.Apart (w : World B D) (O : ℕ → Prop) : Prop := (∀ x y, O x → O y → w.ref x = w.ref y → x = y) ∧ ∀ x, O x → w.ref x < w.next

/-- C107: a new list and a call on one's own list change what no other book shows, and books stay apart.
Missing: the assignment of the list of another book (`C107_shared_refuted`). -/
theorem C107_own_partial (has : D → Kind → Bool) (make : Kind → D → Except PyErr B) (eq : Val B D → Val B D → Bool) {w : World B D} {O : ℕ → Prop} (h : w.Apart O)
    {x y : ℕ} (hx : O x) (hy : O y) (hxy : y ≠ x) :
    (∀ o, (w.call eq x o).1.Apart O ∧ (w.call eq x o).1.sees y = w.sees y ∧ (w.call eq x o).1.sees x = (o.run eq (w.sees x)).1) ∧
    (∀ s, (∀ n, s ≠ Src.obj n) → (w.assign has make x s).1.Apart O ∧ (w.assign has make x s).1.sees y = w.sees y) ∧
    ∀ s, (w.setup has make x s).1.Apart O ∧ (w.setup has make x s).1.sees y = w.sees y := by
  have fr : ∀ l, (w.fresh x l).Apart O ∧ (w.fresh x l).sees y = w.sees y := by
    intro l
    refine ⟨⟨?_, ?_⟩, ?_⟩
    · intro a b oa ob hab
      simp only [World.fresh, Function.update_apply] at hab
      split_ifs at hab with ha hb hb
      · rw [ha, hb]
      · have := h.2 b ob; omega
      · have := h.2 a oa; omega
      · exact h.1 a b oa ob hab
    · intro a oa
      simp only [World.fresh, Function.update_apply]
      split_ifs
      · omega
      · have := h.2 a oa; omega
    · have := h.2 y hy
      simp only [World.fresh, World.sees, Function.update_apply, if_neg hxy]
      rw [if_neg (by omega)]
  have hne : w.ref y ≠ w.ref x := fun e => hxy (h.1 y x hy hx e)
  have md : ∀ vs, (w.made has make x vs).1.Apart O ∧ (w.made has make x vs).1.sees y = w.sees y := by
    intro vs
    simp only [World.made]
    cases fill has make [] vs with
    | ok l => exact fr l
    | error e => exact ⟨h, rfl⟩
  refine ⟨?_, ?_, ?_⟩
  · intro o
    refine ⟨⟨h.1, h.2⟩, ?_, ?_⟩
    · simp [World.call, World.sees, hne]
    · simp [World.call, World.sees]
  · intro s hs
    cases s with
    | none => exact fr []
    | obj n => exact absurd rfl (hs n)
    | list vs => exact md vs
    | iter vs => exact ⟨h, rfl⟩
    | other => exact ⟨h, rfl⟩
  · intro s
    cases s with
    | none => exact ⟨h, rfl⟩
    | obj n => exact md _
    | list vs => exact md vs
    | iter vs => exact md vs
    | other => exact ⟨h, rfl⟩

theorem made_sees (has : D → Kind → Bool) (make : Kind → D → Except PyErr B) (w : World B D) (x : ℕ) (vs : List (Val B D)) :
    (∀ l, List.Forall₂ (Made has make) vs l → (w.made has make x vs).1.sees x = l ∧ (w.made has make x vs).2 = none) ∧
    ((¬ ∃ l, List.Forall₂ (Made has make) vs l) → (w.made has make x vs).1 = w ∧ (w.made has make x vs).2 ≠ none) := by
  refine ⟨fun l hl => ?_, fun hl => ?_⟩
  · rw [World.made, ((C107_built has make vs).1 l).2 hl]
    simp [World.fresh, World.sees]
  · cases hf : fill has make [] vs with
    | ok l => exact absurd ⟨l, ((C107_built has make vs).1 l).1 hf⟩ hl
    | error e => simp [World.made, hf]

/-- C107: what is assigned is what is shown: nothing for `None`, what the other list shows, or what is made of the values of a `list`.  Values that no list can
be made of, and anything that is no `list`, are refused, and the book keeps what it had.  In `setup` anything that can be iterated over is taken, and
the list of another book is copied. -/
theorem C107_assigned (has : D → Kind → Bool) (make : Kind → D → Except PyErr B) (w : World B D) (x : ℕ) :
    (w.assign has make x .none).1.sees x = [] ∧ (∀ y, (w.assign has make x (.obj (w.ref y))).1.sees x = w.sees y) ∧
    (∀ vs l, List.Forall₂ (Made has make) vs l →
      ((w.assign has make x (.list vs)).1.sees x = l ∧ (w.assign has make x (.list vs)).2 = none) ∧
      ((w.setup has make x (.list vs)).1.sees x = l ∧ (w.setup has make x (.list vs)).2 = none) ∧
      ((w.setup has make x (.iter vs)).1.sees x = l ∧ (w.setup has make x (.iter vs)).2 = none)) ∧
    (∀ vs, (¬ ∃ l, List.Forall₂ (Made has make) vs l) →
      ((w.assign has make x (.list vs)).1 = w ∧ (w.assign has make x (.list vs)).2 ≠ none) ∧
      ((w.setup has make x (.list vs)).1 = w ∧ (w.setup has make x (.list vs)).2 ≠ none) ∧
      ((w.setup has make x (.iter vs)).1 = w ∧ (w.setup has make x (.iter vs)).2 ≠ none)) ∧
    (∀ vs, w.assign has make x (.iter vs) = (w, some .dataFormat)) ∧ w.assign has make x .other = (w, some .dataFormat) ∧
    w.setup has make x .none = (w, some .typeError) ∧ w.setup has make x .other = (w, some .typeError) ∧
    ∀ y, Only (w.sees y) → (w.setup has make x (.obj (w.ref y))).1.sees x = w.sees y ∧ (w.setup has make x (.obj (w.ref y))).2 = none := by
  refine ⟨by simp [World.assign, World.fresh, World.sees], fun y => by simp [World.assign, World.sees], ?_, ?_, fun _ => rfl, rfl, rfl, rfl, ?_⟩
  · intro vs l hl
    have := (made_sees has make w x vs).1 l hl
    exact ⟨this, this, this⟩
  · intro vs hl
    have := (made_sees has make w x vs).2 hl
    exact ⟨this, this, this⟩
  · intro y hy
    refine (made_sees has make w x (w.data (w.ref y))).1 _ ?_
    have : ∀ l : List (Val B D), Only l → List.Forall₂ (Made has make) l l := by
      intro l
      induction l with
      | nil => intro _; exact .nil
      | cons v r ih =>
        intro h
        obtain ⟨b, hb⟩ := h v (by simp)
        exact .cons (.inl ⟨b, hb, hb⟩) (ih fun z hz => h z (by simp [hz]))
    exact this _ hy

section Examples

/-- Equality of the example: the numbers of objects.  Model only. -/
def same : Val ℕ ℕ → Val ℕ ℕ → Bool
  | .obj a, .obj b => a == b
  | _, _ => false

/-- A list of objects. -/
abbrev bl (l : List ℕ) : List (Val ℕ ℕ) := l.map .obj

/-- Dictionaries of the example: even ones are blueprints, those that three divides are books (and those that six divides have both keys). -/
def keys (d : ℕ) : Kind → Bool
  | .blueprint => d % 2 == 0
  | .book => d % 3 == 0
  | _ => false

/-- The constructors of the example. -/
def cls : Kind → ℕ → Except PyErr ℕ
  | .blueprint, d => .ok (100 + d)
  | _, d => .ok (200 + d)

theorem bl_only (l : List ℕ) : Only (bl l) := by
  intro v hv
  obtain ⟨a, -, rfl⟩ := List.mem_map.1 hv
  exact ⟨a, rfl⟩

example : ((Op.insert (-1) (.obj 9)).run same (bl [1, 2, 3])).1 = bl [1, 2, 9, 3] := by decide
example : ((Op.reverse).run same (bl [1, 2, 3, 4, 5])).1 = bl [5, 4, 3, 2, 1] := by decide
example : ((Op.clear).run same (bl [1, 2, 3])).1 = [] := by decide
example : ((Op.del (.slice none none (some (-2)))).run same (bl [1, 2, 3, 4])).1 = bl [1, 3] := by decide
example : ((Op.extendSelf).run same (bl [1, 2])).1 = bl [1, 2, 1, 2] := by decide
example : ((Op.remove (.obj 2)).run same (bl [1, 2, 2, 3])).1 = bl [1, 2, 3] := by decide
example : fill keys cls [] [.obj 4, .dict 6, .dict 9] = .ok (bl [4, 106, 209]) := by decide
example : fill keys cls [] [.obj 4, .dict 5] = .error .dataFormat ∧ fill keys cls [] [.other 0, .dict 5] = .error .typeError := by decide
example : Says keys 6 .blueprint ∧ Says keys 9 .book := ⟨⟨[], _, rfl, rfl, by simp⟩, ⟨[.blueprint, .deconstruction, .upgrade], _, rfl, rfl, by decide⟩⟩

/-- Two books with a blueprint each.  Model only. -/
def pair : World ℕ ℕ := ⟨fun n => bl [n], 100, fun x => x % 100⟩

example : pair.Apart (· < 100) := ⟨by intro x y hx hy h; simp only [pair] at h; omega, by intro x hx; simp only [pair]; omega⟩
example : (pair.call same 0 (.append (.obj 7))).1.sees 0 = bl [0, 7] ∧ (pair.call same 0 (.append (.obj 7))).1.sees 1 = bl [1] := by decide

/-- Refuted: slices of the list of blueprints can be assigned, as the index of `__setitem__` says.  Whatever the list, the slice and the value, there is a
`TypeError` (or a `ValueError`): a list of blueprints is no blueprint, and a blueprint cannot be iterated over. -/
theorem C107_slice_refuted (eq : Val B D → Val B D → Bool) (l : List (Val B D)) (a b c : Option Int) (v : Val B D) :
    ((Op.set (.slice a b c) v).run eq l).1 = l ∧ ((Op.set (.slice a b c) v).run eq l).2 ≠ none := by
  simp only [Op.run, setItem, pySetSlice]
  split_ifs <;> simp

/-- Refuted: a call that raises changes nothing.  `extend` (and `+=`) adds the blueprints before the first value that is none. -/
theorem C107_extend_refuted : ¬ ∀ (l : List (Val ℕ ℕ)) (o : Op ℕ ℕ), Only l → (o.run same l).2 ≠ none → (o.run same l).1 = l := by
  intro h
  have := h (bl [1]) (.extend [.obj 2, .dict 4]) (bl_only _) (by decide)
  revert this
  decide

/-- Refuted: a dictionary can be put into the list as it can be given to the constructor.  `append`, `insert`, `extend` and the assignment of an item raise a
`TypeError`. -/
theorem C107_dict_refuted (eq : Val B D → Val B D → Bool) (l : List (Val B D)) (d : D) (i : Int) (r : List (Val B D)) :
    ∀ o ∈ [Op.append (.dict d), .insert i (.dict d), .extend (.dict d :: r), .set (.int i) (.dict d)], o.run eq l = (l, some .typeError) := by
  intro o ho
  simp only [List.mem_cons, List.not_mem_nil, or_false] at ho
  rcases ho with rfl | rfl | rfl | rfl <;> rfl

/-- Refuted: books do not share their blueprints.  After `b.blueprints = a.blueprints` a blueprint appended to one appears in the other. -/
theorem C107_shared_refuted (has : D → Kind → Bool) (make : Kind → D → Except PyErr B) (eq : Val B D → Val B D → Bool) (w : World B D) (x y : ℕ) (o : Op B D) :
    ((w.assign has make x (.obj (w.ref y))).1.call eq x o).1.sees y = (o.run eq (w.sees y)).1 := by
  by_cases h : y = x
  · subst h; simp [World.assign, World.call, World.sees]
  · simp [World.assign, World.call, World.sees, h]

end Examples

end BookList
end Draftsman
