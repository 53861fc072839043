import Verif.Model.Decider
import Verif.Props.WaitCond
import Mathlib.Algebra.Order.Ring.Int

namespace Draftsman
namespace Decider

/-! ## C46: comparisons -/

/-- The values a combinator sees: what each wire carries of each signal. -/
structure Env where
  red : ℕ → ℤ
  green : ℕ → ℤ

/-- The value of a signal on the selected wires. -/
def Env.value (E : Env) (s : ℕ) (n : Nets) : ℤ := (if n.red then E.red s else 0) + (if n.green then E.green s else 0)

/-- What an input stands for. -/
def Env.input (E : Env) (a : Input) : ℤ := E.value a.signal a.nets

/-- What the other side stands for. -/
def Env.other (E : Env) : Other → ℤ
  | .input b => E.input b
  | .int n => n

/-- The relation a stored comparator tests. -/
def Cmp.rel : Cmp → ℤ → ℤ → Prop
  | .gt, x, y => x > y
  | .lt, x, y => x < y
  | .eq, x, y => x = y
  | .ge, x, y => x ≥ y
  | .le, x, y => x ≤ y
  | .ne, x, y => x ≠ y

/-- The relation a Python operator stands for. -/
def PyOp.rel : PyOp → ℤ → ℤ → Prop
  | .eq, x, y => x = y
  | .ne, x, y => x ≠ y
  | .gt, x, y => x > y
  | .lt, x, y => x < y
  | .ge, x, y => x ≥ y
  | .le, x, y => x ≤ y

/-- The in-game meaning of a condition: its comparator between the first signal and the second signal, or the constant if there is none. -/
def Cond.holds (E : Env) (c : Cond) : Prop :=
  match c.first, c.cmp with
  | some s, some k =>
    match c.second, c.constant with
    | some t, _ => k.rel (E.value s c.firstNets) (E.value t c.secondNets)
    | none, some n => k.rel (E.value s c.firstNets) n
    | none, none => False
  | _, _ => False

/-- C46: `==`, `!=`, `<` and `>` build a condition that tests exactly that relation, sides in order.
Missing: `<=` and `>=`, see `C46_swapped_refuted`. -/
theorem C46_compare_partial (E : Env) (o : PyOp) (ho : o ≠ .ge) (ho' : o ≠ .le) (a : Input) (b : Other) :
    (compare o a b).holds E ↔ o.rel (E.input a) (E.other b) := by
  cases o <;> cases b <;> first | exact Iff.rfl | contradiction

/-- C46: the same with a constant on the left. -/
theorem C46_constant_left_partial (E : Env) (o : PyOp) (ho : o ≠ .ge) (ho' : o ≠ .le) (n : ℤ) (a : Input) :
    (compareInt o n a).holds E ↔ o.rel n (E.input a) := by
  cases o
  · exact ⟨fun h => Eq.symm h, fun h => Eq.symm h⟩
  · exact ⟨fun h => Ne.symm h, fun h => Ne.symm h⟩
  · exact Iff.rfl
  · exact Iff.rfl
  · contradiction
  · contradiction

/-- C46: whatever the operator, the condition compares the left input with the right side in that order. -/
theorem C46_sides (o : PyOp) (a : Input) (b : Other) :
    (compare o a b).first = some a.signal ∧ (compare o a b).firstNets = a.nets ∧
      match b with
      | .input b => (compare o a (.input b)).second = some b.signal ∧ (compare o a (.input b)).secondNets = b.nets ∧ (compare o a (.input b)).constant = none
      | .int n => (compare o a (.int n)).constant = some n ∧ (compare o a (.int n)).second = none ∧ (compare o a (.int n)).secondNets = ⟨true, true⟩ := by
  cases o <;> cases b <;> exact ⟨rfl, rfl, rfl, rfl, rfl⟩

/-- What comparators can be written as. -/
def spellings : List (String × Cmp) :=
  [("=", .eq), ("==", .eq), ("≥", .ge), (">=", .ge), ("≤", .le), ("<=", .le), ("≠", .ne), ("!=", .ne), (">", .gt), ("<", .lt)]

/-- C46: comparators can be given in the game's or in Python's spelling, and nothing else is one. -/
theorem C46_spelling (s : String) (k : Cmp) : normCmp s = some k ↔ (s, k) ∈ spellings := by
  constructor
  · intro h
    unfold normCmp at h
    repeat' split at h
    all_goals first | (cases h; done) | skip
    all_goals cases h
    all_goals rename_i h
    all_goals rcases h with rfl | rfl <;> decide
  · intro h
    simp only [spellings, List.mem_cons, Prod.mk.injEq, List.not_mem_nil, or_false] at h
    rcases h with ⟨rfl, rfl⟩ | ⟨rfl, rfl⟩ | ⟨rfl, rfl⟩ | ⟨rfl, rfl⟩ | ⟨rfl, rfl⟩ | ⟨rfl, rfl⟩ | ⟨rfl, rfl⟩ | ⟨rfl, rfl⟩ | ⟨rfl, rfl⟩ | ⟨rfl, rfl⟩ <;> decide

example : normCmp "≤" = some .le ∧ normCmp "=<" = none := by decide

/-- C46 refuted: `>=` always tests `≤`, and `<=` always tests `≥`; so whenever the two sides differ the condition is wrong. -/
theorem C46_swapped_refuted (E : Env) (a : Input) (b : Other) :
    ((compare .ge a b).holds E ↔ E.input a ≤ E.other b) ∧ ((compare .le a b).holds E ↔ E.input a ≥ E.other b) ∧
      (E.input a ≠ E.other b → ¬ ((compare .ge a b).holds E ↔ PyOp.ge.rel (E.input a) (E.other b)) ∧
        ¬ ((compare .le a b).holds E ↔ PyOp.le.rel (E.input a) (E.other b))) := by
  have h1 : (compare .ge a b).holds E ↔ E.input a ≤ E.other b := by cases b <;> exact Iff.rfl
  have h2 : (compare .le a b).holds E ↔ E.input a ≥ E.other b := by cases b <;> exact Iff.rfl
  refine ⟨h1, h2, fun hne => ⟨?_, ?_⟩⟩
  · rw [h1]; simp only [PyOp.rel]; omega
  · rw [h2]; simp only [PyOp.rel]; omega

/-- Signal 0 carries 3 on red and 4 on green. -/
def exEnv : Env := ⟨fun s => if s = 0 then 3 else 0, fun s => if s = 0 then 4 else 0⟩

example : (compare .gt ⟨0, ⟨true, true⟩⟩ (.int 6)).holds exEnv ∧ ¬ (compare .gt ⟨0, ⟨true, false⟩⟩ (.input ⟨0, ⟨false, true⟩⟩)).holds exEnv ∧
    exEnv.input ⟨0, ⟨true, true⟩⟩ ≠ exEnv.other (.int 6) := by
  rw [C46_compare_partial _ _ (by decide) (by decide), C46_compare_partial _ _ (by decide) (by decide)]
  simp [PyOp.rel, Env.input, Env.other, Env.value, exEnv]

/-! ## C47: combining conditions -/

open Wait (Heap WC Opd get setCmp conds meaning OneGroup Compatible joined Expr)

/-- The conditions an operand holds, by reference. -/
def refs : Opd → List ℕ
  | .one r => [r]
  | .many rs => rs

theorem conds_refs (h : Heap) (a : Opd) : conds h a = (refs a).map (get h) := by cases a <;> rfl

/-- The two operands are there, hold something, and no condition object occurs twice in them. -/
def Separate (h : Heap) (a b : Opd) : Prop :=
  refs a ≠ [] ∧ refs b ≠ [] ∧ (refs a ++ refs b).Nodup ∧ ∀ r ∈ refs a ++ refs b, r < h.length

theorem setCmp_length (h : Heap) (i : ℕ) (k : Bool) : (setCmp h i k).length = h.length := by simp [setCmp]

/-- What an operator does. -/
theorem op_spec (k : Bool) (h : Heap) (a b : Opd) (hs : Separate h a b) (hc : Compatible a b) :
    ∃ r bs, refs b = r :: bs ∧ op k h a b = (setCmp h r k, .ok (refs a ++ refs b)) ∧
      (refs a ++ refs b).map (get (setCmp h r k)) = joined k (conds h a) (conds h b) := by
  obtain ⟨ha, hb, hn, hv⟩ := hs
  cases hrb : refs b with
  | nil => exact absurd hrb hb
  | cons r bs =>
    refine ⟨r, bs, rfl, ?_, ?_⟩
    · cases a with
      | one a =>
        cases b with
        | one b => simp only [refs, List.cons.injEq] at hrb; obtain ⟨rfl, rfl⟩ := hrb; rfl
        | many b => simp only [refs] at hrb; subst hrb; rfl
      | many a =>
        cases b with
        | one b => simp only [refs, List.cons.injEq] at hrb; obtain ⟨rfl, rfl⟩ := hrb; rfl
        | many b => exact absurd hc (by simp [Compatible])
    · rw [conds_refs, conds_refs, hrb, List.map_append]
      rw [hrb, List.nodup_append, List.nodup_cons] at hn
      have hr : r < h.length := hv r (by simp [hrb])
      simp only [List.map_cons, joined]
      congr 1
      · refine List.map_congr_left fun x hx => ?_
        rw [Wait.get_setCmp, if_neg]
        rintro rfl
        exact hn.2.2 r hx r (by simp) rfl
      · congr 1
        · rw [Wait.get_setCmp, if_pos rfl, if_pos hr]
        · refine List.map_congr_left fun x hx => ?_
          rw [Wait.get_setCmp, if_neg]
          rintro rfl
          exact hn.2.1.1 hx

/-- C47: `|` means or, for operands that share no condition. -/
theorem C47_or_partial (h : Heap) (a b : Opd) (hs : Separate h a b) (hc : Compatible a b) :
    ∃ h' rs, op false h a b = (h', .ok rs) ∧
      ∀ v, meaning v (rs.map (get h')) = (meaning v (conds h a) || meaning v (conds h b)) := by
  obtain ⟨r, bs, -, h1, h2⟩ := op_spec false h a b hs hc
  refine ⟨_, _, h1, fun v => ?_⟩
  rw [h2]
  exact Wait.meaning_joined_or v _ _ (by simpa [conds_refs] using hs.1) (by simpa [conds_refs] using hs.2.1)

/-- C47: `&` means and, for operands that share no condition and contain no `or`. -/
theorem C47_and_partial (h : Heap) (a b : Opd) (hs : Separate h a b) (hc : Compatible a b) (ga : OneGroup (conds h a))
    (gb : OneGroup (conds h b)) :
    ∃ h' rs, op true h a b = (h', .ok rs) ∧
      ∀ v, meaning v (rs.map (get h')) = (meaning v (conds h a) && meaning v (conds h b)) := by
  obtain ⟨r, bs, -, h1, h2⟩ := op_spec true h a b hs hc
  refine ⟨_, _, h1, fun v => ?_⟩
  rw [h2]
  exact Wait.meaning_joined_and v _ _ (by simpa [conds_refs] using hs.1) (by simpa [conds_refs] using hs.2.1) ga gb

/-! ### Expressions -/

/-- Python evaluates the left operand, then the right, then the operator. -/
def eval (h : Heap) : Expr → Heap × Except PyErr Opd
  | .leaf r => (h, .ok (.one r))
  | .bin k a b =>
    match eval h a with
    | (h1, .error e) => (h1, .error e)
    | (h1, .ok x) =>
      match eval h1 b with
      | (h2, .error e) => (h2, .error e)
      | (h2, .ok y) =>
        match op k h2 x y with
        | (h3, .error e) => (h3, .error e)
        | (h3, .ok rs) => (h3, .ok (.many rs))

/-- The conditions written in an expression, in order. -/
def leaves : Expr → List ℕ
  | .leaf r => [r]
  | .bin _ a b => leaves a ++ leaves b

theorem leaves_ne_nil : ∀ x : Expr, leaves x ≠ []
  | .leaf _ => by simp [leaves]
  | .bin _ a _ => by simp [leaves, leaves_ne_nil a]

/-- Two heaps that differ only in the `compare_type` of the given conditions. -/
def Agree (l : List ℕ) (h h' : Heap) : Prop :=
  h'.length = h.length ∧ (∀ r, r ∉ l → get h' r = get h r) ∧ ∀ r, (get h' r).what = (get h r).what

theorem bool_agree {l : List ℕ} {h h' : Heap} (ha : Agree l h h') (v : ℕ → Bool) : ∀ x : Expr, x.bool v h' = x.bool v h
  | .leaf r => by simp only [Expr.bool]; rw [ha.2.2 r]
  | .bin true a b => by simp only [Expr.bool]; rw [bool_agree ha v a, bool_agree ha v b]
  | .bin false a b => by simp only [Expr.bool]; rw [bool_agree ha v a, bool_agree ha v b]

theorem plain_length {h h' : Heap} (hl : h'.length = h.length) : ∀ {x : Expr}, x.Plain h → x.Plain h'
  | .leaf r, hx => by simp only [Expr.Plain] at *; omega
  | .bin k a b, hx => ⟨plain_length hl hx.1, plain_length hl hx.2.1, hx.2.2.1, hx.2.2.2⟩

theorem plain_leaves {h : Heap} : ∀ {x : Expr}, x.Plain h → ∀ r ∈ leaves x, r < h.length
  | .leaf r, hx => by simpa [leaves, Expr.Plain] using hx
  | .bin k a b, hx => by
    intro r hr
    rcases List.mem_append.mp hr with hr | hr
    · exact plain_leaves hx.1 r hr
    · exact plain_leaves hx.2.1 r hr

theorem eval_spec : ∀ (x : Expr) (h : Heap), x.Plain h → (leaves x).Nodup →
    ∃ h' o, eval h x = (h', .ok o) ∧ refs o = leaves x ∧ Agree (leaves x) h h' ∧ (∀ v, meaning v (conds h' o) = x.bool v h) ∧
      (x.AndOnly → OneGroup (conds h' o)) ∧ (∀ r, x = .leaf r → o = .one r)
  | .leaf r, h, _, _ =>
    ⟨h, .one r, rfl, rfl, ⟨rfl, fun _ _ => rfl, fun _ => rfl⟩, by intro v; simp [conds, meaning, Wait.meaningFrom, Expr.bool],
      by intro _; simp [OneGroup, conds], by rintro _ ⟨⟩; rfl⟩
  | .bin k a b, h, hx, hn => by
    simp only [leaves] at hn
    have hn' := List.nodup_append.mp hn
    obtain ⟨h1, o1, e1, f1, g1, m1, s1, l1⟩ := eval_spec a h hx.1 hn'.1
    obtain ⟨h2, o2, e2, f2, g2, m2, s2, l2⟩ := eval_spec b h1 (plain_length g1.1 hx.2.1) hn'.2.1
    have hc : Compatible o1 o2 := by
      rcases hx.2.2.1 with ⟨r, hr⟩ | ⟨r, hr⟩
      · rw [l1 r hr]; cases o2 <;> trivial
      · rw [l2 r hr]; cases o1 <;> trivial
    have hs : Separate h2 o1 o2 := by
      refine ⟨by rw [f1]; exact leaves_ne_nil a, by rw [f2]; exact leaves_ne_nil b, by rw [f1, f2]; exact hn, ?_⟩
      rw [f1, f2, g2.1, g1.1]
      exact plain_leaves (x := .bin k a b) hx
    obtain ⟨r, bs, hrb, ho, hj⟩ := op_spec k h2 o1 o2 hs hc
    have c1 : conds h2 o1 = conds h1 o1 := by
      rw [conds_refs, conds_refs]
      refine List.map_congr_left fun x hx => g2.2.1 x fun hb => ?_
      rw [f1] at hx
      exact hn'.2.2 x hx x hb rfl
    have hrl : r ∈ leaves b := by rw [← f2, hrb]; simp
    have n1 : conds h2 o1 ≠ [] := by rw [conds_refs, f1]; simp [leaves_ne_nil a]
    have n2 : conds h2 o2 ≠ [] := by rw [conds_refs, f2]; simp [leaves_ne_nil b]
    refine ⟨setCmp h2 r k, .many (refs o1 ++ refs o2), ?_, ?_, ?_, ?_, ?_, ?_⟩
    · simp only [eval, e1, e2, ho]
    · rw [f1, f2]; rfl
    · refine ⟨by rw [setCmp_length, g2.1, g1.1], ?_, ?_⟩
      · intro x hx
        simp only [leaves, List.mem_append, not_or] at hx
        rw [Wait.get_setCmp, if_neg (by rintro rfl; exact hx.2 hrl), g2.2.1 x hx.2, g1.2.1 x hx.1]
      · intro x
        rw [← g1.2.2 x, ← g2.2.2 x, Wait.get_setCmp]
        split
        · split <;> rfl
        · rfl
    · intro v
      have e : conds (setCmp h2 r k) (.many (refs o1 ++ refs o2)) = joined k (conds h2 o1) (conds h2 o2) := hj
      rw [e]
      have hm1 : meaning v (conds h2 o1) = a.bool v h := by rw [c1]; exact m1 v
      have hm2 : meaning v (conds h2 o2) = b.bool v h := by rw [m2 v, bool_agree g1]
      cases k with
      | false => rw [Wait.meaning_joined_or v _ _ n1 n2, hm1, hm2]; rfl
      | true =>
        obtain ⟨hao, hbo⟩ := hx.2.2.2 rfl
        rw [Wait.meaning_joined_and v _ _ n1 n2 (by rw [c1]; exact s1 hao) (s2 hbo), hm1, hm2]; rfl
    · rintro ⟨rfl, hao, hbo⟩
      have e : conds (setCmp h2 r true) (.many (refs o1 ++ refs o2)) = joined true (conds h2 o1) (conds h2 o2) := hj
      rw [e]
      have s1' := s1 hao
      have s2' := s2 hbo
      rw [← c1] at s1'
      cases hc1 : conds h2 o1 with
      | nil => exact absurd hc1 n1
      | cons c t =>
        rw [hc1] at s1'
        cases hc2 : conds h2 o2 with
        | nil => exact absurd hc2 n2
        | cons c2 t2 =>
          rw [hc2] at s2'
          intro x hx'
          simp only [joined, List.cons_append, List.tail_cons, List.mem_append, List.mem_cons] at hx'
          rcases hx' with hx' | rfl | hx'
          · exact s1' x hx'
          · rfl
          · exact s2' x hx'
    · intro r hr; cases hr

/-- C47: an expression in which every condition is written once, `&` stands above no `|` and every operator has a single condition on one side,
is evaluated to the list of its conditions in order, whose meaning is the boolean expression written.  Missing: the other
expressions, see the refutations. -/
theorem C47_expression_partial (x : Expr) (h : Heap) (hx : x.Plain h) (hn : (leaves x).Nodup) :
    ∃ h' o, eval h x = (h', .ok o) ∧ refs o = leaves x ∧ (∀ v, meaning v (conds h' o) = x.bool v h) ∧
      (∀ r, r ∉ leaves x → get h' r = get h r) ∧ ∀ r, (get h' r).what = (get h r).what := by
  obtain ⟨h', o, h1, h2, h3, h4, -, -⟩ := eval_spec x h hx hn
  exact ⟨h', o, h1, h2, h4, h3.2.1, h3.2.2⟩

/-- `d | a & b & c`. -/
def exExpr : Expr := .bin false (.leaf 3) (.bin true (.bin true (.leaf 0) (.leaf 1)) (.leaf 2))
def exHeap : Heap := [⟨10, false⟩, ⟨11, false⟩, ⟨12, false⟩, ⟨13, true⟩]

example : exExpr.Plain exHeap ∧ (leaves exExpr).Nodup ∧
    (eval exHeap exExpr).2.toOption.map (conds (eval exHeap exExpr).1) = some [⟨13, true⟩, ⟨10, false⟩, ⟨11, true⟩, ⟨12, true⟩] := by
  refine ⟨?_, by decide, by decide⟩
  simp [exExpr, Expr.Plain, Expr.AndOnly, exHeap]

example : Separate exHeap (.many [0, 1]) (.one 2) ∧ Compatible (.many [0, 1]) (.one 2) := by
  refine ⟨⟨by decide, by decide, by decide, by decide⟩, trivial⟩

/-! ### Where it fails -/

/-- C47 refuted: `(a | b) & c` is read as `a | (b & c)`. -/
theorem C47_paren_refuted : ∃ (h : Heap) (v : ℕ → Bool) (h' : Heap) (o : Opd),
    eval h (.bin true (.bin false (.leaf 0) (.leaf 1)) (.leaf 2)) = (h', .ok o) ∧
      meaning v (conds h' o) ≠ (Expr.bin true (.bin false (.leaf 0) (.leaf 1)) (.leaf 2)).bool v h :=
  ⟨exHeap, fun n => n == 10, _, _, rfl, by decide⟩

/-- C47 refuted: a sum of two products of two cannot be written: two lists cannot be combined, whatever they hold. -/
theorem C47_lists_refuted :
    (∀ (k : Bool) (h : Heap) (as bs : List ℕ), (op k h (.many as) (.many bs)).2 = .error .typeError) ∧
    (eval exHeap (.bin false (.bin true (.leaf 0) (.leaf 1)) (.bin true (.leaf 2) (.leaf 3)))).2 = .error .typeError :=
  ⟨fun _ _ _ _ => rfl, by decide⟩

/-- C47 refuted: writing the same condition object twice changes the meaning: `b & a | a` is true when only `b` is. -/
theorem C47_reused_refuted : ∃ (h : Heap) (v : ℕ → Bool) (h' : Heap) (o : Opd),
    eval h (.bin false (.bin true (.leaf 1) (.leaf 0)) (.leaf 0)) = (h', .ok o) ∧
      meaning v (conds h' o) ≠ (Expr.bin false (.bin true (.leaf 1) (.leaf 0)) (.leaf 0)).bool v h :=
  ⟨exHeap, fun n => n == 11, _, _, rfl, by decide⟩

/-- C47 refuted: a later expression that uses a condition again changes the meaning of a list built before. -/
theorem C47_later_refuted : ∃ (h : Heap) (v : ℕ → Bool) (h1 h2 : Heap) (o o' : Opd),
    eval h (.bin true (.leaf 0) (.leaf 1)) = (h1, .ok o) ∧ eval h1 (.bin false (.leaf 2) (.leaf 1)) = (h2, .ok o') ∧
      meaning v (conds h2 o) ≠ meaning v (conds h1 o) :=
  ⟨exHeap, fun n => n == 10, _, _, _, _, rfl, rfl, by decide⟩

/-- C47 refuted: combining with an empty list on the right fails. -/
theorem C47_empty_refuted (k : Bool) (h : Heap) (a : ℕ) : (op k h (.one a) (.many [])).2 = .error .indexError := rfl

end Decider
end Draftsman
