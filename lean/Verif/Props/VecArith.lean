import Verif.Model.VecArith
import Verif.Props.FloatPos
/-
C129: calculating with vectors.
-/
namespace Draftsman
namespace VecArith

/-- The two numbers that an operand stands for: a number for itself twice, a sequence or vector for its first two entries, a mapping for what it has under 0 and 1. -/
inductive Reads : Val → Num → Num → Prop
  | num (n : Num) : Reads (.num n) n n
  | list (a b : Num) (l : List Val) : Reads (.list (.num a :: .num b :: l)) a b
  | tuple (a b : Num) (l : List Val) : Reads (.tuple (.num a :: .num b :: l)) a b
  | vec (a b : Num) : Reads (.vec (.num a) (.num b)) a b
  | dict (a b : Num) (l : List (Key × Val)) (h0 : l.find? (fun p => p.1 == Key.int 0) = some (.int 0, .num a))
      (h1 : l.find? (fun p => p.1 == Key.int 1) = some (.int 1, .num b)) : Reads (.dict l) a b

/-- The number is an `int`. -/
def Whole (n : Num) : Prop := ∃ z, n = .int z

/-- `r` is the result of the operator for the numbers `a` and `b`: its value, and whether it is an `int`. -/
def Result (op : Op) (a b r : Num) : Prop :=
  match op with
  | .add => r.q = a.q + b.q ∧ (Whole r ↔ Whole a ∧ Whole b)
  | .sub => r.q + b.q = a.q ∧ (Whole r ↔ Whole a ∧ Whole b)
  | .mul => r.q = a.q * b.q ∧ (Whole r ↔ Whole a ∧ Whole b)
  | .div => b.q ≠ 0 ∧ r.q * b.q = a.q ∧ ¬ Whole r
  | .floordiv => b.q ≠ 0 ∧ (∃ k : ℤ, r.q = k ∧ k ≤ a.q / b.q ∧ a.q / b.q < k + 1) ∧ (Whole r ↔ Whole a ∧ Whole b)

theorem num_ext {r s : Num} (h : r.q = s.q) (hw : Whole r ↔ Whole s) : r = s := by
  cases r with
  | int m =>
    obtain ⟨z, hz⟩ := hw.1 ⟨m, rfl⟩
    subst hz
    simp only [Num.q, Int.cast_inj] at h
    rw [h]
  | flt a =>
    cases s with
    | int n =>
      obtain ⟨z, hz⟩ := hw.2 ⟨n, rfl⟩
      cases hz
    | flt b => simp only [Num.q] at h; rw [h]

theorem result_unique {op : Op} {a b r s : Num} (hr : Result op a b r) (hs : Result op a b s) : r = s := by
  cases op with
  | add => exact num_ext (hr.1.trans hs.1.symm) (hr.2.trans hs.2.symm)
  | sub => exact num_ext (by have := hr.1; have := hs.1; linarith) (hr.2.trans hs.2.symm)
  | mul => exact num_ext (hr.1.trans hs.1.symm) (hr.2.trans hs.2.symm)
  | div =>
    obtain ⟨h0, h1, h2⟩ := hr
    obtain ⟨_, h3, h4⟩ := hs
    exact num_ext (mul_right_cancel₀ h0 (h1.trans h3.symm)) (iff_of_false h2 h4)
  | floordiv =>
    obtain ⟨_, ⟨k, hk, h1, h2⟩, h3⟩ := hr
    obtain ⟨_, ⟨l, hl, h4, h5⟩, h6⟩ := hs
    refine num_ext ?_ (h3.trans h6.symm)
    rw [hk, hl]
    have e1 : ((k : ℚ)) < l + 1 := lt_of_le_of_lt h1 h5
    have e2 : ((l : ℚ)) < k + 1 := lt_of_le_of_lt h4 h2
    have e3 : k < l + 1 := by exact_mod_cast e1
    have e4 : l < k + 1 := by exact_mod_cast e2
    have : k = l := by omega
    rw [this]

theorem whole_int (z : ℤ) : Whole (.int z) := ⟨z, rfl⟩
theorem not_whole_flt (q : ℚ) : ¬ Whole (.flt q) := by rintro ⟨z, h⟩; cases h

theorem fdiv_floor (m n : ℤ) : ((Int.fdiv m n : ℤ) : ℚ) = ⌊(m : ℚ) / n⌋ := by
  have nonneg : ∀ m n : ℤ, 0 ≤ n → ((Int.fdiv m n : ℤ) : ℚ) = ⌊(m : ℚ) / n⌋ := by
    intro m n hn
    obtain ⟨k, rfl⟩ := Int.eq_ofNat_of_zero_le hn
    rw [Int.fdiv_eq_ediv_of_nonneg _ hn, Int.cast_natCast, Rat.floor_intCast_div_natCast]
  rcases le_total 0 n with hn | hn
  · exact nonneg m n hn
  · have := nonneg (-m) (-n) (by omega)
    rwa [Int.neg_fdiv_neg, Int.cast_neg, Int.cast_neg, neg_div_neg_eq] at this

theorem arith_ok {op : Op} {a b r : Num} (h : arith op a b = .ok r) : Result op a b r := by
  cases op with
  | add => cases a <;> cases b <;> simp only [arith, Except.ok.injEq] at h <;> subst h <;> simp [Result, Num.q, whole_int, not_whole_flt]
  | sub => cases a <;> cases b <;> simp only [arith, Except.ok.injEq] at h <;> subst h <;> simp [Result, Num.q, whole_int, not_whole_flt]
  | mul => cases a <;> cases b <;> simp only [arith, Except.ok.injEq] at h <;> subst h <;> simp [Result, Num.q, whole_int, not_whole_flt]
  | div =>
    simp only [arith] at h
    split at h
    · cases h
    · rename_i hb
      simp only [Except.ok.injEq] at h
      subst h
      exact ⟨hb, div_mul_cancel₀ _ hb, not_whole_flt _⟩
  | floordiv =>
    simp only [arith] at h
    split at h
    · cases h
    · rename_i hb
      refine ⟨hb, ⟨⌊a.q / b.q⌋, ?_, Int.floor_le _, Int.lt_floor_add_one _⟩, ?_⟩
      · cases a <;> cases b <;> simp only [Except.ok.injEq] at h <;> subst h <;> simp only [Num.q, fdiv_floor]
      · cases a <;> cases b <;> simp only [Except.ok.injEq] at h <;> subst h <;> simp [whole_int, not_whole_flt]

theorem arith_error {op : Op} {a b : Num} {e : PyErr} (h : arith op a b = .error e) : e = .zeroDivision ∧ (op = .div ∨ op = .floordiv) ∧ b.q = 0 := by
  cases op <;> cases a <;> cases b <;> simp only [arith] at h <;> try (cases h)
  all_goals
    split at h
    · rename_i hb
      simp only [Except.error.injEq] at h
      exact ⟨h.symm, by simp, hb⟩
    · cases h

theorem arith_total {op : Op} {a b : Num} (h : b.q ≠ 0 ∨ (op ≠ .div ∧ op ≠ .floordiv)) : ∃ r, arith op a b = .ok r := by
  cases hr : arith op a b with
  | ok r => exact ⟨r, rfl⟩
  | error e =>
    obtain ⟨_, h1, h2⟩ := arith_error hr
    rcases h with h | ⟨h3, h4⟩
    · exact absurd h2 h
    · rcases h1 with h1 | h1
      · exact absurd h1 h3
      · exact absurd h1 h4

/-- Both entries of the operand are numbers: what the first attempt computes. -/
theorem pairwise_num {op : Op} {v : Num × Num} {o : Val} {a b : Num} (h0 : item o 0 = .ok (.num a)) (h1 : item o 1 = .ok (.num b)) :
    vecOp op v o = (do let x ← arith op v.1 a; let y ← arith op v.2 b; .ok (.num x, .num y)) := by
  simp only [vecOp, pairwise, bind, Except.bind, h0, h1, binop]
  cases h : arith op v.1 a with
  | error e => obtain ⟨rfl, _⟩ := arith_error h; simp [Except.map]
  | ok x =>
    cases h' : arith op v.2 b with
    | error e => obtain ⟨rfl, _⟩ := arith_error h'; simp [Except.map]
    | ok y => simp [Except.map]

theorem reads_op {op : Op} {v : Num × Num} {o : Val} {a b : Num} (h : Reads o a b) :
    vecOp op v o = (do let x ← arith op v.1 a; let y ← arith op v.2 b; .ok (.num x, .num y)) := by
  cases h with
  | num =>
    simp only [vecOp, pairwise, bind, Except.bind, item, scalar, binop]
    cases h : arith op v.1 a with
    | error e => simp [Except.map]
    | ok x => cases h' : arith op v.2 a <;> simp [Except.map]
  | list => exact pairwise_num rfl rfl
  | tuple => exact pairwise_num rfl rfl
  | vec => exact pairwise_num rfl rfl
  | dict _ _ l h0 h1 => exact pairwise_num (by simp [item, h0]) (by simp [item, h1])

/-- C129: an operator applied to a vector and an operand that stands for two numbers gives the vector of the two results, coordinate by coordinate; a number is used for
both coordinates, and further entries of a sequence are ignored. -/
theorem C129_componentwise {op : Op} {v : Num × Num} {o : Val} {a b : Num} (h : Reads o a b) (x y : Val) :
    vecOp op v o = .ok (x, y) ↔ ∃ r s, x = .num r ∧ y = .num s ∧ Result op v.1 a r ∧ Result op v.2 b s := by
  rw [reads_op h]
  simp only [bind, Except.bind]
  constructor
  · intro hr
    cases h1 : arith op v.1 a with
    | error e => rw [h1] at hr; cases hr
    | ok r =>
      cases h2 : arith op v.2 b with
      | error e => rw [h1, h2] at hr; cases hr
      | ok s =>
        rw [h1, h2] at hr
        simp only [Except.ok.injEq, Prod.mk.injEq] at hr
        exact ⟨r, s, hr.1.symm, hr.2.symm, arith_ok h1, arith_ok h2⟩
  · rintro ⟨r, s, rfl, rfl, h1, h2⟩
    have nz : ∀ {c d t}, Result op c d t → d.q ≠ 0 ∨ (op ≠ .div ∧ op ≠ .floordiv) := by
      intro c d t ht
      cases op
      · exact .inr (by simp)
      · exact .inr (by simp)
      · exact .inr (by simp)
      · exact .inl ht.1
      · exact .inl ht.1
    obtain ⟨r', h1'⟩ := arith_total (a := v.1) (nz h1)
    obtain ⟨s', h2'⟩ := arith_total (a := v.2) (nz h2)
    rw [h1', h2', result_unique h1 (arith_ok h1'), result_unique h2 (arith_ok h2')]

/-- C129: for such an operand nothing but a division by zero fails, and that does. -/
theorem C129_zero {op : Op} {v : Num × Num} {o : Val} {a b : Num} (h : Reads o a b) (e : PyErr) :
    vecOp op v o = .error e ↔ e = .zeroDivision ∧ (op = .div ∨ op = .floordiv) ∧ (a.q = 0 ∨ b.q = 0) := by
  rw [reads_op h]
  simp only [bind, Except.bind]
  constructor
  · intro hr
    cases h1 : arith op v.1 a with
    | error e' =>
      rw [h1] at hr
      simp only [Except.error.injEq] at hr
      subst hr
      obtain ⟨p, q, r⟩ := arith_error h1
      exact ⟨p, q, .inl r⟩
    | ok r =>
      cases h2 : arith op v.2 b with
      | error e' =>
        rw [h1, h2] at hr
        simp only [Except.error.injEq] at hr
        subst hr
        obtain ⟨p, q, r⟩ := arith_error h2
        exact ⟨p, q, .inr r⟩
      | ok s => rw [h1, h2] at hr; cases hr
  · rintro ⟨rfl, hop, hz⟩
    rcases hz with hz | hz
    · rcases hop with rfl | rfl <;> simp [arith, hz]
    · cases h1 : arith op v.1 a with
      | error e' => rw [(arith_error h1).1]
      | ok r => rcases hop with rfl | rfl <;> simp [arith, hz]

theorem binop_ok {op : Op} {a : Num} {b c : Val} (h : binop op a b = .ok c) : (∃ n r, b = .num n ∧ c = .num r) ∨ (op = .mul ∧ Whole a) := by
  cases b with
  | num n =>
    simp only [binop] at h
    cases hr : arith op a n with
    | error e => rw [hr] at h; cases h
    | ok r =>
      rw [hr] at h
      simp only [Except.map, Except.ok.injEq] at h
      exact .inl ⟨n, r, rfl, h.symm⟩
  | none => cases h
  | dict l => cases h
  | vec x y => cases h
  | text l => cases op <;> cases a <;> first | exact .inr ⟨rfl, whole_int _⟩ | cases h
  | list l => cases op <;> cases a <;> first | exact .inr ⟨rfl, whole_int _⟩ | cases h
  | tuple l => cases op <;> cases a <;> first | exact .inr ⟨rfl, whole_int _⟩ | cases h

theorem binop_error {op : Op} {a : Num} {b : Val} {e : PyErr} (h : binop op a b = .error e) : e = .typeError ∨ (e = .zeroDivision ∧ (op = .div ∨ op = .floordiv)) := by
  cases b with
  | num n =>
    simp only [binop] at h
    cases hr : arith op a n with
    | ok r => rw [hr] at h; cases h
    | error e' =>
      rw [hr] at h
      simp only [Except.map, Except.error.injEq] at h
      subst h
      obtain ⟨p, q, _⟩ := arith_error hr
      exact .inr ⟨p, q⟩
  | none => cases h; exact .inl rfl
  | dict l => cases h; exact .inl rfl
  | vec x y => cases h; exact .inl rfl
  | text l => cases op <;> cases a <;> cases h <;> exact .inl rfl
  | list l => cases op <;> cases a <;> cases h <;> exact .inl rfl
  | tuple l => cases op <;> cases a <;> cases h <;> exact .inl rfl

theorem item_reads {o : Val} {a b : Num} (h0 : item o 0 = .ok (.num a)) (h1 : item o 1 = .ok (.num b)) : Reads o a b := by
  cases o with
  | none => cases h0
  | num n => cases h0
  | text s =>
    simp only [item] at h0
    split at h0 <;> cases h0
  | list l =>
    match l with
    | [] => cases h0
    | [x] => cases h1
    | x :: y :: l => cases h0; cases h1; exact .list ..
  | tuple l =>
    match l with
    | [] => cases h0
    | [x] => cases h1
    | x :: y :: l => cases h0; cases h1; exact .tuple ..
  | vec x y => cases h0; cases h1; exact .vec ..
  | dict l =>
    have key : ∀ (i : ℕ) (c : Num), item (.dict l) i = .ok (.num c) → l.find? (fun p => p.1 == Key.int i) = some (.int i, .num c) := by
      intro i c h
      simp only [item] at h
      cases hf : l.find? (fun p => p.1 == Key.int i) with
      | none => rw [hf] at h; cases h
      | some p =>
        rw [hf] at h
        have hk := List.find?_some hf
        simp only [beq_iff_eq] at hk
        simp only [Except.ok.injEq] at h
        rw [← hk, ← h]
    exact .dict _ _ l (by simpa using key 0 a h0) (by simpa using key 1 b h1)

theorem pairwise_ok {op : Op} {v : Num × Num} {o x y : Val} (h : pairwise op v o = .ok (x, y)) :
    ∃ a b, item o 0 = .ok a ∧ item o 1 = .ok b ∧ binop op v.1 a = .ok x ∧ binop op v.2 b = .ok y := by
  simp only [pairwise, bind, Except.bind] at h
  cases h0 : item o 0 with
  | error e => rw [h0] at h; cases h
  | ok a =>
    rw [h0] at h
    cases h1 : binop op v.1 a with
    | error e => simp only [h1] at h; cases h
    | ok x' =>
      simp only [h1] at h
      cases h2 : item o 1 with
      | error e => rw [h2] at h; cases h
      | ok b =>
        rw [h2] at h
        cases h3 : binop op v.2 b with
        | error e => simp only [h3] at h; cases h
        | ok y' =>
          simp only [h3, Except.ok.injEq, Prod.mk.injEq] at h
          exact ⟨a, b, rfl, rfl, by rw [h1, h.1], by rw [h3, h.2]⟩

theorem scalar_ok {op : Op} {v : Num × Num} {o x y : Val} (h : scalar op v o = .ok (x, y)) : binop op v.1 o = .ok x ∧ binop op v.2 o = .ok y := by
  simp only [scalar, bind, Except.bind] at h
  cases h1 : binop op v.1 o with
  | error e => rw [h1] at h; cases h
  | ok x' =>
    rw [h1] at h
    cases h3 : binop op v.2 o with
    | error e => simp only [h3] at h; cases h
    | ok y' =>
      simp only [h3, Except.ok.injEq, Prod.mk.injEq] at h
      rw [h.1, h.2]
      exact ⟨rfl, rfl⟩

/-- C129, the part of the claim that holds: everything that does not stand for two numbers is refused, unless whole numbers are multiplied.
Missing: multiplication of vectors with whole numbers, see `C129_refused_refuted`. -/
theorem C129_refused_partial {op : Op} {v : Num × Num} (hv : op ≠ .mul ∨ (¬ Whole v.1 ∧ ¬ Whole v.2)) {o : Val} (h : ∀ a b, ¬ Reads o a b) :
    ∃ e, vecOp op v o = .error e := by
  have n1 : ∀ {p c : Val}, binop op v.1 p = .ok c → ∃ a, p = .num a := by
    intro p c h1
    rcases binop_ok h1 with ⟨a, _, ha, _⟩ | ⟨hm, hw⟩
    · exact ⟨a, ha⟩
    · rcases hv with hv | hv
      · exact absurd hm hv
      · exact absurd hw hv.1
  have n2 : ∀ {p c : Val}, binop op v.2 p = .ok c → ∃ a, p = .num a := by
    intro p c h1
    rcases binop_ok h1 with ⟨a, _, ha, _⟩ | ⟨hm, hw⟩
    · exact ⟨a, ha⟩
    · rcases hv with hv | hv
      · exact absurd hm hv
      · exact absurd hw hv.2
  cases hr : vecOp op v o with
  | error e => exact ⟨e, rfl⟩
  | ok r =>
    obtain ⟨x, y⟩ := r
    simp only [vecOp] at hr
    split at hr
    · obtain ⟨h1, _⟩ := scalar_ok hr
      obtain ⟨a, rfl⟩ := n1 h1
      exact absurd (.num a) (h a a)
    · obtain ⟨a, b, h0, h1, h2, h3⟩ := pairwise_ok hr
      obtain ⟨a, rfl⟩ := n1 h2
      obtain ⟨b, rfl⟩ := n2 h3
      exact absurd (item_reads h0 h1) (h a b)

theorem vecOp_error {op : Op} {v : Num × Num} {o : Val} {e : PyErr} (h : vecOp op v o = .error e) :
    e = .typeError ∨ (e = .zeroDivision ∧ (op = .div ∨ op = .floordiv)) ∨ (e ≠ .typeError ∧ (item o 0 = .error e ∨ item o 1 = .error e)) := by
  have sc : ∀ {e}, scalar op v o = .error e → e = .typeError ∨ (e = .zeroDivision ∧ (op = .div ∨ op = .floordiv)) := by
    intro e h
    simp only [scalar, bind, Except.bind] at h
    cases h1 : binop op v.1 o with
    | error e' => rw [h1] at h; cases h; exact binop_error h1
    | ok x' =>
      rw [h1] at h
      cases h3 : binop op v.2 o with
      | error e' => simp only [h3] at h; cases h; exact binop_error h3
      | ok y' => simp only [h3] at h; cases h
  simp only [vecOp] at h
  split at h
  · rcases sc h with h | h
    · exact .inl h
    · exact .inr (.inl h)
  · rename_i hne
    have hte : e ≠ .typeError := fun he => hne (by rw [h, he])
    simp only [pairwise, bind, Except.bind] at h
    cases h0 : item o 0 with
    | error e' => rw [h0] at h; cases h; exact .inr (.inr ⟨hte, .inl rfl⟩)
    | ok a =>
      rw [h0] at h
      cases h1 : binop op v.1 a with
      | error e' => simp only [h1] at h; cases h; exact .inr (.inl ((binop_error h1).resolve_left hte))
      | ok x' =>
        simp only [h1] at h
        cases h2 : item o 1 with
        | error e' => rw [h2] at h; cases h; exact .inr (.inr ⟨hte, .inr rfl⟩)
        | ok b =>
          rw [h2] at h
          cases h3 : binop op v.2 b with
          | error e' => simp only [h3] at h; cases h; exact .inr (.inl ((binop_error h3).resolve_left hte))
          | ok y' => simp only [h3] at h; cases h

/-- The operand is a sequence with fewer than two entries. -/
inductive Short : Val → Prop
  | list (l : List Val) : l.length < 2 → Short (.list l)
  | tuple (l : List Val) : l.length < 2 → Short (.tuple l)
  | text (s : List Char) : s.length < 2 → Short (.text s)

/-- The operand is a mapping that lacks one of the keys 0 and 1. -/
inductive Lacks : Val → Prop
  | dict (l : List (Key × Val)) (i : ℤ) : i = 0 ∨ i = 1 → (∀ p ∈ l, p.1 ≠ Key.int i) → Lacks (.dict l)

theorem item_error {o : Val} {i : ℕ} (hi : i < 2) {e : PyErr} (h : item o i = .error e) (hte : e ≠ .typeError) : (e = .indexError ∧ Short o) ∨ (e = .keyError ∧ Lacks o) := by
  cases o with
  | none => cases h; exact absurd rfl hte
  | num n => cases h; exact absurd rfl hte
  | vec x y =>
    simp only [item] at h
    split at h <;> cases h
  | text s =>
    simp only [item] at h
    split at h
    · cases h
    · rename_i hn
      cases h
      exact .inl ⟨rfl, .text s (by rw [List.getElem?_eq_none_iff] at hn; omega)⟩
  | list s =>
    simp only [item] at h
    split at h
    · cases h
    · rename_i hn
      cases h
      exact .inl ⟨rfl, .list s (by rw [List.getElem?_eq_none_iff] at hn; omega)⟩
  | tuple s =>
    simp only [item] at h
    split at h
    · cases h
    · rename_i hn
      cases h
      exact .inl ⟨rfl, .tuple s (by rw [List.getElem?_eq_none_iff] at hn; omega)⟩
  | dict l =>
    simp only [item] at h
    split at h
    · cases h
    · rename_i hn
      cases h
      refine .inr ⟨rfl, .dict l i (by omega) fun p hp => ?_⟩
      have := List.find?_eq_none.1 hn p hp
      simpa using this

/-- C129: what a refused operand raises: a `TypeError`; or a `ZeroDivisionError`, in a division; or an `IndexError`, if it is a sequence with fewer than two entries; or a
`KeyError`, if it is a mapping that lacks 0 or 1. -/
theorem C129_error {op : Op} {v : Num × Num} {o : Val} {e : PyErr} (h : vecOp op v o = .error e) :
    e = .typeError ∨ (e = .zeroDivision ∧ (op = .div ∨ op = .floordiv)) ∨ (e = .indexError ∧ Short o) ∨ (e = .keyError ∧ Lacks o) := by
  rcases vecOp_error h with h | h | ⟨hte, h | h⟩
  · exact .inl h
  · exact .inr (.inl h)
  · exact .inr (.inr (item_error (by omega) h hte))
  · exact .inr (.inr (item_error (by omega) h hte))

/-- C129: sequences that are too short are an `IndexError`: empty ones, and those of one number, unless that number is zero and divides. -/
theorem C129_short (op : Op) (v : Num × Num) (a : Num) :
    vecOp op v (.list []) = .error .indexError ∧ vecOp op v (.tuple []) = .error .indexError ∧ vecOp op v (.text []) = .error .indexError ∧
    (a.q ≠ 0 ∨ (op ≠ .div ∧ op ≠ .floordiv) → vecOp op v (.list [.num a]) = .error .indexError ∧ vecOp op v (.tuple [.num a]) = .error .indexError) := by
  refine ⟨rfl, rfl, rfl, fun h => ?_⟩
  obtain ⟨r, hr⟩ := arith_total (a := v.1) h
  constructor <;> simp [vecOp, pairwise, item, binop, hr, Except.map, bind, Except.bind]

/-- C129: `None` is refused with a `TypeError` by every operator, and by all but the multiplication so are texts with a character and sequences that begin with a value that is no
number. -/
theorem C129_none (op : Op) (v : Num × Num) : vecOp op v .none = .error .typeError ∧ (op ≠ .mul → (∀ c s, vecOp op v (.text (c :: s)) = .error .typeError) ∧
    ∀ x l, (∀ n, x ≠ .num n) → vecOp op v (.list (x :: l)) = .error .typeError ∧ vecOp op v (.tuple (x :: l)) = .error .typeError) := by
  refine ⟨rfl, fun hop => ?_⟩
  have ht : ∀ a s, binop op a (.text s) = .error .typeError := by
    intro a s
    cases op <;> cases a <;> first | rfl | exact absurd rfl hop
  have hl : ∀ a s, binop op a (.list s) = .error .typeError := by
    intro a s
    cases op <;> cases a <;> first | rfl | exact absurd rfl hop
  have hu : ∀ a s, binop op a (.tuple s) = .error .typeError := by
    intro a s
    cases op <;> cases a <;> first | rfl | exact absurd rfl hop
  refine ⟨fun c s => by simp [vecOp, pairwise, item, ht, scalar, bind, Except.bind], fun x l hx => ?_⟩
  have hb : ∀ a, binop op a x = .error .typeError := by
    intro a
    cases x <;> cases op <;> cases a <;> first | rfl | exact absurd rfl (hx _) | exact absurd rfl hop
  exact ⟨by simp [vecOp, pairwise, item, hb, scalar, hl, bind, Except.bind], by simp [vecOp, pairwise, item, hb, scalar, hu, bind, Except.bind]⟩

/-- C129: subtracting what was added gives the vector back, as does dividing by what it was multiplied with. -/
theorem C129_undo {v : Num × Num} {o : Val} {a b : Num} (h : Reads o a b) {r s : Num} :
    (vecOp .add v o = .ok (.num r, .num s) → ∃ x y, vecOp .sub (r, s) o = .ok (.num x, .num y) ∧ x.q = v.1.q ∧ y.q = v.2.q) ∧
    (vecOp .mul v o = .ok (.num r, .num s) → a.q ≠ 0 → b.q ≠ 0 → ∃ x y, vecOp .div (r, s) o = .ok (.num x, .num y) ∧ x.q = v.1.q ∧ y.q = v.2.q) := by
  constructor
  · intro hr
    obtain ⟨r', s', h1, h2, h3, h4⟩ := (C129_componentwise h _ _).1 hr
    cases h1
    cases h2
    obtain ⟨x, hx⟩ := arith_total (op := .sub) (a := r) (b := a) (.inr (by simp))
    obtain ⟨y, hy⟩ := arith_total (op := .sub) (a := s) (b := b) (.inr (by simp))
    refine ⟨x, y, (C129_componentwise h _ _).2 ⟨x, y, rfl, rfl, arith_ok hx, arith_ok hy⟩, ?_, ?_⟩
    · have := (arith_ok hx).1; have := h3.1; linarith
    · have := (arith_ok hy).1; have := h4.1; linarith
  · intro hr ha hb
    obtain ⟨r', s', h1, h2, h3, h4⟩ := (C129_componentwise h _ _).1 hr
    cases h1
    cases h2
    obtain ⟨x, hx⟩ := arith_total (op := .div) (a := r) (b := a) (.inl ha)
    obtain ⟨y, hy⟩ := arith_total (op := .div) (a := s) (b := b) (.inl hb)
    refine ⟨x, y, (C129_componentwise h _ _).2 ⟨x, y, rfl, rfl, arith_ok hx, arith_ok hy⟩, ?_, ?_⟩
    · exact mul_right_cancel₀ ha ((arith_ok hx).2.1.trans h3.1)
    · exact mul_right_cancel₀ hb ((arith_ok hy).2.1.trans h4.1)

/-- C129: addition and multiplication of two vectors do not depend on the order. -/
theorem C129_comm {op : Op} (hop : op = .add ∨ op = .mul) (v w : Num × Num) :
    vecOp op v (.vec (.num w.1) (.num w.2)) = vecOp op w (.vec (.num v.1) (.num v.2)) := by
  have ar : ∀ a b : Num, arith op a b = arith op b a := by
    intro a b
    rcases hop with rfl | rfl <;> cases a <;> cases b <;> simp [arith, add_comm, mul_comm]
  rw [reads_op (.vec w.1 w.2), reads_op (.vec v.1 v.2), ar v.1, ar v.2]

/-- C129: a vector equals exactly the vectors with the same coordinates, whether these are whole numbers or floats, and nothing that is no vector. -/
theorem C129_eq (v : Num × Num) (o : Val) : vecEq v o = true ↔ ∃ a b, o = .vec (.num a) (.num b) ∧ a.q = v.1.q ∧ b.q = v.2.q := by
  constructor
  · intro h
    simp only [vecEq] at h
    split at h
    · simp only [Bool.and_eq_true, beq_iff_eq] at h
      exact ⟨_, _, rfl, h.1.symm, h.2.symm⟩
    · cases h
  · rintro ⟨a, b, rfl, h1, h2⟩
    simp [vecEq, h1, h2]

/-- C129: the absolute value of a vector has the absolute values of the coordinates, of the same types. -/
theorem C129_abs (v : Num × Num) : (vecAbs v).1.q = |v.1.q| ∧ (vecAbs v).2.q = |v.2.q| ∧ (Whole (vecAbs v).1 ↔ Whole v.1) ∧ (Whole (vecAbs v).2 ↔ Whole v.2) := by
  obtain ⟨a, b⟩ := v
  cases a <;> cases b <;> simp [vecAbs, absNum, Num.q, whole_int, not_whole_flt]

/-- `r` is the multiple of ten to the power `-p` next to `x`, and if two are as near, the even multiple. -/
def Nearest (p : ℤ) (x r : ℚ) : Prop :=
  ∃ k : ℤ, r = k * (10 : ℚ) ^ (-p) ∧ ∀ n : ℤ, |r - x| ≤ |n * (10 : ℚ) ^ (-p) - x| ∧ (n ≠ k → |r - x| = |n * (10 : ℚ) ^ (-p) - x| → k % 2 = 0)

theorem nearest_of (p : ℤ) (x : ℚ) : Nearest p x (pyRound (x * (10 : ℚ) ^ p) / (10 : ℚ) ^ p) := by
  have h10 : (0 : ℚ) < (10 : ℚ) ^ p := by positivity
  refine ⟨pyRound (x * (10 : ℚ) ^ p), by rw [zpow_neg, div_eq_mul_inv], fun n => ?_⟩
  obtain ⟨h1, h2⟩ := FloatPos.pyRound_nearest (x * (10 : ℚ) ^ p) n
  have e : ∀ m : ℤ, |(m : ℚ) - x * (10 : ℚ) ^ p| = |(m : ℚ) * (10 : ℚ) ^ (-p) - x| * (10 : ℚ) ^ p := by
    intro m
    rw [← abs_of_pos h10, ← abs_mul, abs_of_pos h10, sub_mul, mul_assoc, zpow_neg, inv_mul_cancel₀ h10.ne', mul_one]
  rw [e, e] at h1
  rw [e, e] at h2
  rw [div_eq_mul_inv, ← zpow_neg]
  exact ⟨le_of_mul_le_mul_right h1 h10, fun hn he => h2 hn (by rw [he])⟩

theorem nearest_num (p : ℤ) (n : Num) : (Whole (roundNum p n) ↔ Whole n) ∧ Nearest p n.q (roundNum p n).q := by
  cases n with
  | flt q => exact ⟨by simp [roundNum, not_whole_flt], nearest_of p q⟩
  | int z =>
    refine ⟨by simp only [roundNum]; split <;> simp [whole_int], ?_⟩
    by_cases hp : 0 ≤ p
    · obtain ⟨k, rfl⟩ := Int.eq_ofNat_of_zero_le hp
      have h10 : (0 : ℚ) < 10 ^ k := by positivity
      simp only [roundNum, if_pos hp, Num.q]
      refine ⟨z * 10 ^ k, ?_, fun n => ⟨by simp, fun hn he => absurd ?_ hn⟩⟩
      · push_cast
        rw [zpow_neg, zpow_natCast, mul_assoc, mul_inv_cancel₀ h10.ne', mul_one]
      · rw [sub_self, abs_zero, eq_comm, abs_eq_zero, zpow_neg, zpow_natCast, sub_eq_zero, ← div_eq_mul_inv, div_eq_iff h10.ne'] at he
        exact_mod_cast he
    · have e : p = -((-p).toNat : ℤ) := by omega
      have := nearest_of p (z : ℚ)
      simp only [roundNum, if_neg hp, Num.q]
      generalize (-p).toNat = k at *
      subst e
      rw [zpow_neg, zpow_natCast, div_inv_eq_mul, ← div_eq_mul_inv] at this
      push_cast
      exact this

/-- C129: rounding a vector to `p` places gives for each coordinate the nearest number with so many places, the even one of two that are as near, of the same type as the
coordinate. -/
theorem C129_round (p : ℤ) (v : Num × Num) : (Nearest p v.1.q (vecRound p v).1.q ∧ (Whole (vecRound p v).1 ↔ Whole v.1)) ∧
    (Nearest p v.2.q (vecRound p v).2.q ∧ (Whole (vecRound p v).2 ↔ Whole v.2)) :=
  ⟨(nearest_num p v.1).symm, (nearest_num p v.2).symm⟩

/-- The claim that everything else is refused fails: a vector of whole numbers times a text is a vector of texts, and
times a list of two lists a vector of lists. -/
theorem C129_refused_refuted : ¬ ∀ (op : Op) (v : Num × Num) (o : Val), (∀ a b, ¬ Reads o a b) → ∃ e, vecOp op v o = .error e := by
  intro h
  obtain ⟨e, he⟩ := h .mul (.int 2, .int 3) (.text ['a', 'b']) (by intro a b h; cases h)
  have : vecOp .mul (.int 2, .int 3) (.text ['a', 'b']) = .ok (.text ['a', 'a'], .text ['b', 'b', 'b']) := rfl
  rw [this] at he
  cases he

/-- The claim that what is refused is refused with a `TypeError` fails: a sequence with one entry is an `IndexError`, and a position in the form of the game, with the keys
`"x"` and `"y"`, which positions can be assigned in, is a `KeyError`. -/
theorem C129_error_refuted : ¬ ∀ (op : Op) (v : Num × Num) (o : Val) (e : PyErr), (∀ a b, ¬ Reads o a b) → vecOp op v o = .error e → e = .typeError := by
  intro h
  have := h .add (.int 2, .int 3) (.dict [(.str "x", .num (.int 1)), (.str "y", .num (.int 1))]) .keyError (by
    intro a b h
    cases h with
    | dict _ _ _ h0 _ =>
      have h2 : (none : Option (Key × Val)) = some (.int 0, .num a) := h0
      cases h2) rfl
  cases this

/-! ## Concrete cases -/

/-- Two vectors, a vector and a pair with a further entry, a vector and a number; floor division rounds down, also for negative numbers. -/
example : vecOp .add (.int 1, .flt (5/2)) (.vec (.num (.int 3)) (.num (.int 4))) = .ok (.num (.int 4), .num (.flt (13/2))) ∧
    vecOp .sub (.int 1, .int 2) (.tuple [.num (.int 3), .num (.int 5), .none]) = .ok (.num (.int (-2)), .num (.int (-3))) ∧
    vecOp .mul (.flt (1/2), .int 2) (.num (.int 3)) = .ok (.num (.flt (3/2)), .num (.int 6)) ∧
    vecOp .floordiv (.int (-7), .flt (7/2)) (.list [.num (.int 2), .num (.int (-1))]) = .ok (.num (.int (-4)), .num (.flt (-4))) ∧
    vecOp .div (.int 1, .int 3) (.num (.int 2)) = .ok (.num (.flt (1/2)), .num (.flt (3/2))) := by
  refine ⟨?_, ?_, ?_, ?_, ?_⟩
  · exact (C129_componentwise (.vec ..) _ _).2 ⟨_, _, rfl, rfl, by norm_num [Result, Num.q, whole_int], by norm_num [Result, Num.q, whole_int, not_whole_flt]⟩
  · exact (C129_componentwise (.tuple _ _ [.none]) _ _).2 ⟨_, _, rfl, rfl, by norm_num [Result, Num.q, whole_int], by norm_num [Result, Num.q, whole_int, not_whole_flt]⟩
  · exact (C129_componentwise (.num ..) _ _).2 ⟨_, _, rfl, rfl, by norm_num [Result, Num.q, whole_int, not_whole_flt], by norm_num [Result, Num.q, whole_int, not_whole_flt]⟩
  · refine (C129_componentwise (.list _ _ []) _ _).2 ⟨_, _, rfl, rfl, ⟨by norm_num [Num.q], ⟨-4, ?_⟩, ?_⟩, ⟨by norm_num [Num.q], ⟨-4, ?_⟩, ?_⟩⟩ <;>
      norm_num [Num.q, whole_int, not_whole_flt]
  · exact (C129_componentwise (.num ..) _ _).2 ⟨_, _, rfl, rfl, by norm_num [Result, Num.q, whole_int, not_whole_flt], by norm_num [Result, Num.q, whole_int, not_whole_flt]⟩

/-- A division by zero in one coordinate; a mapping with the keys 0 and 1 is read. -/
example : vecOp .div (.int 1, .int 3) (.tuple [.num (.int 2), .num (.flt 0)]) = .error .zeroDivision ∧
    Reads (.dict [(.int 1, .num (.int 5)), (.int 0, .num (.int 4))]) (.int 4) (.int 5) :=
  ⟨(C129_zero (.tuple _ _ []) _).2 ⟨rfl, .inl rfl, .inr rfl⟩, .dict _ _ _ rfl rfl⟩

/-- Nothing that can be added: a text, a list that is too short. -/
example : (∀ a b, ¬ Reads (.text ['1', '2']) a b) ∧ (∀ a b, ¬ Reads (.list [.num (.int 1)]) a b) ∧ (Op.add ≠ Op.mul) ∧
    vecOp .add (.int 1, .int 2) (.list [.num (.int 1)]) = .error .indexError ∧ vecOp .add (.int 1, .int 2) (.text ['1', '2']) = .error .typeError :=
  ⟨fun a b h => (by cases h), fun a b h => (by cases h), by decide, rfl, rfl⟩

/-- Operands that are too short, and a mapping with the keys of positions. -/
example : Short (.text ['1']) ∧ Lacks (.dict [(.str "x", .num (.int 1)), (.int 1, .num (.int 2))]) ∧ vecOp .sub (.int 1, .int 2) (.dict [(.int 0, .num (.int 1))]) = .error .keyError ∧
    ((Num.int 3).q ≠ 0 ∨ (Op.div ≠ .div ∧ Op.div ≠ .floordiv)) :=
  ⟨.text _ (by decide), .dict _ 0 (.inl rfl) (by simp), rfl, .inl (by norm_num [Num.q])⟩

/-- A product with a list of two lists, and with a text where a coordinate is negative. -/
example : vecOp .mul (.int 2, .int 1) (.list [.list [.none], .list []]) = .ok (.list [.none, .none], .list []) ∧
    vecOp .mul (.int (-1), .int 1) (.text ['a', 'b']) = .ok (.text [], .text ['b']) :=
  ⟨rfl, rfl⟩

/-- Equality does not look at the types; a vector is not equal to the pair of its coordinates. -/
example : vecEq (.int 1, .flt 2) (.vec (.num (.flt 1)) (.num (.int 2))) = true ∧ vecEq (.int 1, .int 2) (.tuple [.num (.int 1), .num (.int 2)]) = false :=
  ⟨(C129_eq _ _).2 ⟨_, _, rfl, by norm_num [Num.q], by norm_num [Num.q]⟩, rfl⟩

/-- Rounding to places, tens, and of ties; absolute values. -/
example : vecRound 1 (.flt (1/4), .int 7) = (.flt (1/5), .int 7) ∧ vecRound (-1) (.int 25, .flt 35) = (.int 20, .flt 40) ∧ vecAbs (.int (-3), .flt (-1/2)) = (.int 3, .flt (1/2)) := by
  decide +kernel

end VecArith
end Draftsman
