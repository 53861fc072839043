import Verif.Model.WaitCond
import Mathlib.Data.List.Nodup
import Mathlib.Data.List.Range
import Mathlib.Tactic.Tauto

namespace Draftsman
namespace Wait

/-! ## C39: wait conditions -/

/-- The conditions an operand holds. -/
def conds (h : Heap) : Opd → List WC
  | .one r => [get h r]
  | .many rs => rs.map (get h)

/-- The in-game meaning, reading on from a group whose conditions so far have the value `cur`: `and` continues the group, `or` starts the
next one. -/
def meaningFrom (v : ℕ → Bool) : Bool → List WC → Bool
  | cur, [] => cur
  | cur, c :: r => if c.isAnd then meaningFrom v (cur && v c.what) r else cur || meaningFrom v (v c.what) r

/-- The in-game meaning of a list of conditions; the comparison of the first one does not count. -/
def meaning (v : ℕ → Bool) : List WC → Bool
  | [] => true
  | c :: r => meaningFrom v (v c.what) r

/-- One group only: no `or` but perhaps the first. -/
def OneGroup (l : List WC) : Prop := ∀ c ∈ l.tail, c.isAnd = true

/-- An operand that is really there, not empty, and without the same object twice. -/
def Good (h : Heap) : Opd → Prop
  | .one r => r < h.length
  | .many rs => rs ≠ [] ∧ rs.Nodup ∧ ∀ r ∈ rs, r < h.length

/-- Not both are lists. -/
def Compatible : Opd → Opd → Prop
  | .many _, .many _ => False
  | _, _ => True

/-- Combined conditions: those of the first, then those of the second with the comparison set. -/
def joined (k : Bool) (a b : List WC) : List WC :=
  a ++ match b with
    | [] => []
    | c :: r => { c with isAnd := k } :: r

theorem get_append_left {h e : Heap} {r : ℕ} (hr : r < h.length) : get (h ++ e) r = get h r := by
  unfold get
  rw [List.getD_eq_getElem?_getD, List.getD_eq_getElem?_getD, List.getElem?_append_left hr]

theorem get_append_length {h e : Heap} (c : WC) : get (h ++ c :: e) h.length = c := by
  unfold get; simp

theorem copyList_eq : ∀ (rs : List ℕ) (h : Heap) (memo : List (ℕ × ℕ)), rs.Nodup → (∀ r ∈ rs, r < h.length) → (∀ r ∈ rs, memo.lookup r = none) →
    copyList h memo rs = (h ++ rs.map (get h), List.range' h.length rs.length)
  | [], h, memo, _, _, _ => by simp [copyList]
  | r :: rs, h, memo, hn, hv, hm => by
    rw [List.nodup_cons] at hn
    have ih := copyList_eq rs (h ++ [get h r]) ((r, h.length) :: memo) hn.2
      (fun x hx => by have := hv x (by simp [hx]); simp; omega)
      (fun x hx => by
        have hne : x ≠ r := by rintro rfl; exact hn.1 hx
        rw [List.lookup_cons]
        have hb : (x == r) = false := by simpa using hne
        rw [hb]
        exact hm x (by simp [hx]))
    simp only [copyList, hm r (by simp), ih]
    have hmap : rs.map (get (h ++ [get h r])) = rs.map (get h) :=
      List.map_congr_left fun x hx => get_append_left (hv x (by simp [hx]))
    rw [hmap]
    simp [List.range'_succ]

theorem get_setCmp (h : Heap) (i r : ℕ) (k : Bool) : get (setCmp h i k) r =
    if i = r then (if r < h.length then { get h r with isAnd := k } else get h r) else get h r := by
  unfold get setCmp
  rw [List.getD_eq_getElem?_getD, List.getElem?_modify, List.getD_eq_getElem?_getD]
  by_cases hir : i = r
  · subst hir
    by_cases hl : i < h.length
    · simp [hl]
    · simp [hl]
  · simp [hir]

theorem map_get_range' (h e : Heap) : (List.range' h.length e.length).map (get (h ++ e)) = e := by
  apply List.ext_getElem
  · simp
  · intro i h1 h2
    simp only [List.getElem_map, List.getElem_range', Nat.one_mul]
    unfold get
    rw [List.getD_eq_getElem?_getD, List.getElem?_append_right (by omega)]
    simp only [Nat.add_sub_cancel_left]
    rw [List.getElem?_eq_getElem h2]; rfl

theorem setCmp_append {h e : Heap} {i : ℕ} (k : Bool) (hi : h.length ≤ i) : setCmp (h ++ e) i k = h ++ setCmp e (i - h.length) k := by
  unfold setCmp
  apply List.ext_getElem?
  intro j
  rw [List.getElem?_modify]
  by_cases hj : j < h.length
  · rw [List.getElem?_append_left hj, List.getElem?_append_left hj]
    have : ¬ i = j := by omega
    simp [this]
  · rw [List.getElem?_append_right (by omega), List.getElem?_append_right (by omega), List.getElem?_modify]
    by_cases hij : i = j
    · simp [hij]
    · have : ¬ i - h.length = j - h.length := by omega
      simp [hij, this]

/-- What an operator does: the heap is only extended, and the result holds the combined conditions in new objects. -/
theorem op_spec (k : Bool) (h : Heap) (a b : Opd) (ha : Good h a) (hb : Good h b) (hc : Compatible a b) :
    ∃ e rs, op k h a b = (h ++ e, .ok rs) ∧ rs.map (get (h ++ e)) = joined k (conds h a) (conds h b) ∧
      rs.Nodup ∧ (∀ r ∈ rs, h.length ≤ r ∧ r < (h ++ e).length) := by
  cases a with
  | one a =>
    cases b with
    | one b =>
      have e1 : get (h ++ [get h a]) b = get h b := get_append_left hb
      refine ⟨[get h a, { get h b with isAnd := k }], [h.length, h.length + 1], ?_, ?_, ?_, ?_⟩
      · simp only [op, e1, List.length_append, List.length_cons, List.length_nil, List.append_assoc, List.cons_append, List.nil_append]
        rw [setCmp_append k (by omega)]
        simp only [Nat.add_sub_cancel_left, Nat.zero_add]
        rfl
      · have := map_get_range' h [get h a, { get h b with isAnd := k }]
        simpa [joined, conds, List.range'_succ] using this
      · simp
      · simp
    | many bs =>
      obtain ⟨hne, hnd, hv⟩ := hb
      cases bs with
      | nil => exact absurd rfl hne
      | cons b0 bs =>
        have hcp := copyList_eq (b0 :: bs) (h ++ [get h a]) [] hnd (fun r hr => by have := hv r hr; simp; omega) (by simp)
        have hmap : (b0 :: bs).map (get (h ++ [get h a])) = (b0 :: bs).map (get h) :=
          List.map_congr_left fun x hx => get_append_left (hv x hx)
        rw [hmap] at hcp
        refine ⟨get h a :: { get h b0 with isAnd := k } :: bs.map (get h),
          List.range' h.length ((b0 :: bs).length + 1), ?_, ?_, ?_, ?_⟩
        · simp only [op, hcp, List.length_append, List.length_cons, List.length_nil, List.range'_succ, List.map_cons]
          simp only [Nat.zero_add, List.append_assoc, List.cons_append, List.nil_append]
          rw [setCmp_append k (by omega)]
          simp only [Nat.add_sub_cancel_left]
          rfl
        · have := map_get_range' h (get h a :: { get h b0 with isAnd := k } :: bs.map (get h))
          simp only [List.length_cons, List.length_map] at this
          simp only [List.length_cons]
          rw [this]
          simp [joined, conds]
        · exact List.nodup_range' (s := h.length)
        · intro r hr
          rw [List.mem_range'_1] at hr
          simp only [List.length_append, List.length_cons, List.length_map] at hr ⊢
          omega
  | many as =>
    cases b with
    | many bs => exact absurd hc (by simp [Compatible])
    | one b =>
      obtain ⟨hne, hnd, hv⟩ := ha
      have hcp := copyList_eq as (h ++ [get h b]) [] hnd (fun r hr => by have := hv r hr; simp; omega) (by simp)
      have hmap : as.map (get (h ++ [get h b])) = as.map (get h) :=
        List.map_congr_left fun x hx => get_append_left (hv x hx)
      rw [hmap] at hcp
      refine ⟨{ get h b with isAnd := k } :: as.map (get h), List.range' (h.length + 1) as.length ++ [h.length], ?_, ?_, ?_, ?_⟩
      · simp only [op, hcp, List.length_append, List.length_cons, List.length_nil, List.append_assoc, List.cons_append, List.nil_append,
          Nat.zero_add]
        rw [setCmp_append k (by omega)]
        simp only [Nat.sub_self]
        rfl
      · have := map_get_range' (h ++ [{ get h b with isAnd := k }]) (as.map (get h))
        simp only [List.length_append, List.length_cons, List.length_nil, List.length_map, List.append_assoc, List.cons_append,
          List.nil_append, Nat.zero_add] at this
        rw [List.map_append, this]
        simp [joined, conds, get_append_length]
      · rw [List.nodup_append]
        refine ⟨List.nodup_range' (s := h.length + 1), by simp, ?_⟩
        intro x hx y hy
        rw [List.mem_range'_1] at hx
        simp only [List.mem_singleton] at hy
        omega
      · intro r hr
        simp only [List.mem_append, List.mem_range'_1, List.mem_singleton] at hr
        simp only [List.length_append, List.length_cons, List.length_map]
        omega

/-- C39: combining never modifies an existing condition, whatever the operands. -/
theorem C39_operands_kept (k : Bool) (h : Heap) (a b : Opd) (x : Opd)
    (hx : ∀ r, x = .one r → r < h.length) (hx' : ∀ rs, x = .many rs → ∀ r ∈ rs, r < h.length) :
    conds (op k h a b).1 x = conds h x := by
  have hcl : ∀ (rs : List ℕ) (h : Heap) (memo : List (ℕ × ℕ)), (∀ p ∈ memo, p.2 < h.length) →
      ∃ e, (copyList h memo rs).1 = h ++ e := by
    intro rs
    induction rs with
    | nil => intro h memo _; exact ⟨[], by simp [copyList]⟩
    | cons r rs ih =>
      intro h memo hm
      simp only [copyList]
      split
      · exact ih h memo hm
      · obtain ⟨e, he⟩ := ih (h ++ [get h r]) ((r, h.length) :: memo) (by
          intro p hp
          rcases List.mem_cons.1 hp with rfl | hp
          · simp
          · have := hm p hp; simp; omega)
        exact ⟨get h r :: e, by rw [he]; simp⟩
  have hnew : ∀ (rs : List ℕ) (n : ℕ) (h : Heap) (memo : List (ℕ × ℕ)), n ≤ h.length → (∀ p ∈ memo, n ≤ p.2) →
      ∀ r ∈ (copyList h memo rs).2, n ≤ r := by
    intro rs
    induction rs with
    | nil => intro n h memo _ _ r hr; simp [copyList] at hr
    | cons r rs ih =>
      intro n h memo hn hm x hx
      simp only [copyList] at hx
      split at hx
      · rename_i r' hr'
        rcases List.mem_cons.1 hx with rfl | hx
        · have : (r, x) ∈ memo := by
            clear ih hx hm
            induction memo with
            | nil => simp at hr'
            | cons q t iht =>
              rw [List.lookup_cons] at hr'
              by_cases hq : r = q.1
              · subst hq; simp at hr'; subst hr'; simp
              · have hb : (r == q.1) = false := by simpa using hq
                rw [hb] at hr'
                simp [iht hr']
          exact hm _ this
        · exact ih n h memo hn hm x hx
      · rcases List.mem_cons.1 hx with rfl | hx
        · exact hn
        · exact ih n _ _ (by simp; omega) (by
            intro p hp
            rcases List.mem_cons.1 hp with rfl | hp
            · exact hn
            · exact hm p hp) x hx
  have key : ∃ e, (op k h a b).1 = h ++ e := by
    cases a with
    | one a =>
      cases b with
      | one b =>
        simp only [op, List.append_assoc]
        exact ⟨_, setCmp_append k (by simp)⟩
      | many bs =>
        obtain ⟨e, he⟩ := hcl bs (h ++ [get h a]) [] (by simp)
        have hge := hnew bs h.length (h ++ [get h a]) [] (by simp) (by simp)
        simp only [op]
        cases hbs : (copyList (h ++ [get h a]) [] bs).2 with
        | nil => simp only [he, List.append_assoc]; exact ⟨_, rfl⟩
        | cons b0 r =>
          simp only [he, List.append_assoc]
          exact ⟨_, setCmp_append k (hge b0 (by rw [hbs]; simp))⟩
    | many as =>
      cases b with
      | one b =>
        obtain ⟨e, he⟩ := hcl as (h ++ [get h b]) [] (by simp)
        simp only [op, he, List.append_assoc]
        exact ⟨_, setCmp_append k (le_refl _)⟩
      | many bs => exact ⟨[], by simp [op]⟩
  obtain ⟨e, he⟩ := key
  rw [he]
  cases x with
  | one r => simp [conds, get_append_left (hx r rfl)]
  | many rs =>
    simp only [conds]
    exact List.map_congr_left fun r hr => get_append_left (hx' rs rfl r hr)

theorem meaningFrom_append_or (v : ℕ → Bool) (c : WC) (hc : c.isAnd = false) (b : List WC) : ∀ (a : List WC) (cur : Bool),
    meaningFrom v cur (a ++ c :: b) = (meaningFrom v cur a || meaningFrom v (v c.what) b)
  | [], cur => by simp [meaningFrom, hc]
  | d :: a, cur => by
    simp only [List.cons_append, meaningFrom]
    split
    · exact meaningFrom_append_or v c hc b a _
    · rw [meaningFrom_append_or v c hc b a _, Bool.or_assoc]

theorem meaningFrom_group (v : ℕ → Bool) : ∀ (a b : List WC) (cur : Bool), (∀ c ∈ a, c.isAnd = true) →
    meaningFrom v cur (a ++ b) = meaningFrom v (cur && a.all fun c => v c.what) b
  | [], b, cur, _ => by simp
  | d :: a, b, cur, h => by
    simp only [List.cons_append, meaningFrom, h d (by simp), ↓reduceIte, List.all_cons]
    rw [meaningFrom_group v a b _ fun c hc => h c (by simp [hc]), Bool.and_assoc]

theorem meaning_joined_or (v : ℕ → Bool) (a b : List WC) (ha : a ≠ []) (hb : b ≠ []) :
    meaning v (joined false a b) = (meaning v a || meaning v b) := by
  cases a with
  | nil => exact absurd rfl ha
  | cons x a =>
    cases b with
    | nil => exact absurd rfl hb
    | cons y b => simp only [joined, List.cons_append, meaning]; exact meaningFrom_append_or v _ rfl b a _

theorem meaning_joined_and (v : ℕ → Bool) (a b : List WC) (ha : a ≠ []) (hb : b ≠ []) (ga : OneGroup a) (gb : OneGroup b) :
    meaning v (joined true a b) = (meaning v a && meaning v b) := by
  cases a with
  | nil => exact absurd rfl ha
  | cons x a =>
    cases b with
    | nil => exact absurd rfl hb
    | cons y b =>
      simp only [joined, List.cons_append, meaning]
      rw [meaningFrom_group v a _ _ ga]
      simp only [meaningFrom, ↓reduceIte]
      have e1 := meaningFrom_group v a [] (v x.what) ga
      have e2 := meaningFrom_group v b [] (v y.what) gb
      have e3 := meaningFrom_group v b [] ((v x.what && a.all fun c => v c.what) && v y.what) gb
      simp only [List.append_nil, meaningFrom] at e1 e2 e3
      rw [e1, e2, e3, Bool.and_assoc]

theorem conds_ne_nil {h : Heap} {a : Opd} (ha : Good h a) : conds h a ≠ [] := by
  cases a with
  | one r => simp [conds]
  | many rs => simpa [conds] using ha.1

/-- C39: `|` means or. -/
theorem C39_or_partial (h : Heap) (a b : Opd) (ha : Good h a) (hb : Good h b) (hc : Compatible a b) :
    ∃ h' rs, op false h a b = (h', .ok rs) ∧ ∀ v, meaning v (rs.map (get h')) = (meaning v (conds h a) || meaning v (conds h b)) := by
  obtain ⟨e, rs, h1, h2, _⟩ := op_spec false h a b ha hb hc
  exact ⟨_, rs, h1, fun v => by rw [h2]; exact meaning_joined_or v _ _ (conds_ne_nil ha) (conds_ne_nil hb)⟩

/-- C39: `&` means and, for operands that contain no `or`. -/
theorem C39_and_partial (h : Heap) (a b : Opd) (ha : Good h a) (hb : Good h b) (hc : Compatible a b)
    (ga : OneGroup (conds h a)) (gb : OneGroup (conds h b)) :
    ∃ h' rs, op true h a b = (h', .ok rs) ∧ ∀ v, meaning v (rs.map (get h')) = (meaning v (conds h a) && meaning v (conds h b)) := by
  obtain ⟨e, rs, h1, h2, _⟩ := op_spec true h a b ha hb hc
  exact ⟨_, rs, h1, fun v => by rw [h2]; exact meaning_joined_and v _ _ (conds_ne_nil ha) (conds_ne_nil hb) ga gb⟩

/-! ### Expressions -/

/-- An expression written with `&` and `|` over conditions on the heap. -/
inductive Expr where
  | leaf (r : ℕ)
  | bin (isAnd : Bool) (a b : Expr)

/-- Python evaluates the left operand, then the right, then the operator. -/
def Expr.eval (h : Heap) : Expr → Heap × Except PyErr Opd
  | .leaf r => (h, .ok (.one r))
  | .bin k a b =>
    match a.eval h with
    | (h1, .error e) => (h1, .error e)
    | (h1, .ok x) =>
      match b.eval h1 with
      | (h2, .error e) => (h2, .error e)
      | (h2, .ok y) =>
        match op k h2 x y with
        | (h3, .error e) => (h3, .error e)
        | (h3, .ok rs) => (h3, .ok (.many rs))

/-- The boolean expression written. -/
def Expr.bool (v : ℕ → Bool) (h : Heap) : Expr → Bool
  | .leaf r => v (get h r).what
  | .bin true a b => a.bool v h && b.bool v h
  | .bin false a b => a.bool v h || b.bool v h

/-- No `|` inside. -/
def Expr.AndOnly : Expr → Prop
  | .leaf _ => True
  | .bin k a b => k = true ∧ a.AndOnly ∧ b.AndOnly

/-- Expressions the operators can express: at every node one side is a single condition, and `&` stands above no `|`. -/
def Expr.Plain (h : Heap) : Expr → Prop
  | .leaf r => r < h.length
  | .bin k a b => a.Plain h ∧ b.Plain h ∧ ((∃ r, a = .leaf r) ∨ ∃ r, b = .leaf r) ∧ (k = true → a.AndOnly ∧ b.AndOnly)

theorem Expr.plain_mono {h e : Heap} : ∀ {x : Expr}, x.Plain h → x.Plain (h ++ e)
  | .leaf r, hx => by simp only [Plain, List.length_append] at hx ⊢; omega
  | .bin k a b, hx => ⟨plain_mono hx.1, plain_mono hx.2.1, hx.2.2.1, hx.2.2.2⟩

theorem Expr.bool_mono {h e : Heap} (v : ℕ → Bool) : ∀ {x : Expr}, x.Plain h → x.bool v (h ++ e) = x.bool v h
  | .leaf r, hx => by simp only [bool]; rw [get_append_left hx]
  | .bin true a b, hx => by simp only [bool]; rw [bool_mono v hx.1, bool_mono v hx.2.1]
  | .bin false a b, hx => by simp only [bool]; rw [bool_mono v hx.1, bool_mono v hx.2.1]

theorem good_mono {h e : Heap} {a : Opd} (ha : Good h a) : Good (h ++ e) a := by
  cases a with
  | one r => simp only [Good, List.length_append] at ha ⊢; omega
  | many rs =>
    refine ⟨ha.1, ha.2.1, fun r hr => ?_⟩
    have := ha.2.2 r hr
    simp only [List.length_append]; omega

theorem conds_mono {h e : Heap} {a : Opd} (ha : Good h a) : conds (h ++ e) a = conds h a := by
  cases a with
  | one r => simp only [conds]; rw [get_append_left ha]
  | many rs =>
    simp only [conds]
    exact List.map_congr_left fun r hr => get_append_left (ha.2.2 r hr)

theorem eval_spec : ∀ (x : Expr) (h : Heap), x.Plain h → ∃ e o, x.eval h = (h ++ e, .ok o) ∧ Good (h ++ e) o ∧
    (∀ v, meaning v (conds (h ++ e) o) = x.bool v h) ∧ (x.AndOnly → OneGroup (conds (h ++ e) o)) ∧ (∀ r, x = .leaf r → o = .one r)
  | .leaf r, h, hx => ⟨[], .one r, by simp [Expr.eval], by simpa [Good, Expr.Plain] using hx,
      by intro v; simp [conds, meaning, meaningFrom, Expr.bool], by intro _; simp [OneGroup, conds], by rintro _ ⟨⟩; rfl⟩
  | .bin k a b, h, hx => by
    obtain ⟨e1, o1, h1, g1, m1, s1, l1⟩ := eval_spec a h hx.1
    obtain ⟨e2, o2, h2, g2, m2, s2, l2⟩ := eval_spec b (h ++ e1) (Expr.plain_mono hx.2.1)
    have hc : Compatible o1 o2 := by
      rcases hx.2.2.1 with ⟨r, hr⟩ | ⟨r, hr⟩
      · rw [l1 r hr]; cases o2 <;> trivial
      · rw [l2 r hr]; cases o1 <;> trivial
    have g1' := good_mono (e := e2) g1
    obtain ⟨e3, rs, h3, j3, n3, v3⟩ := op_spec k (h ++ e1 ++ e2) o1 o2 g1' g2 hc
    refine ⟨e1 ++ e2 ++ e3, .many rs, ?_, ?_, ?_, ?_, ?_⟩
    · simp only [Expr.eval, h1, h2, h3]
      simp only [List.append_assoc]
    · refine ⟨?_, n3, ?_⟩
      · intro hnil
        subst hnil
        simp only [List.map_nil] at j3
        have := conds_ne_nil g1'
        cases hcc : conds (h ++ e1 ++ e2) o1 with
        | nil => exact this hcc
        | cons c t => rw [hcc] at j3; simp [joined] at j3
      · intro r hr
        have := (v3 r hr).2
        simpa [List.append_assoc] using this
    · intro v
      have e : conds (h ++ (e1 ++ e2 ++ e3)) (.many rs) = joined k (conds (h ++ e1 ++ e2) o1) (conds (h ++ e1 ++ e2) o2) := by
        rw [← j3]; simp [conds, List.append_assoc]
      rw [e]
      have hm1 : meaning v (conds (h ++ e1 ++ e2) o1) = a.bool v h := by rw [conds_mono g1]; exact m1 v
      have hm2 : meaning v (conds (h ++ e1 ++ e2) o2) = b.bool v h := by rw [m2 v, Expr.bool_mono v hx.2.1]
      cases k with
      | false =>
        rw [meaning_joined_or v _ _ (conds_ne_nil g1') (conds_ne_nil g2), hm1, hm2]; rfl
      | true =>
        obtain ⟨hao, hbo⟩ := hx.2.2.2 rfl
        rw [meaning_joined_and v _ _ (conds_ne_nil g1') (conds_ne_nil g2) (by rw [conds_mono g1]; exact s1 hao) (s2 hbo), hm1, hm2]; rfl
    · rintro ⟨rfl, hao, hbo⟩
      have e : conds (h ++ (e1 ++ e2 ++ e3)) (.many rs) = joined true (conds (h ++ e1 ++ e2) o1) (conds (h ++ e1 ++ e2) o2) := by
        rw [← j3]; simp [conds, List.append_assoc]
      rw [e]
      have s1' := s1 hao
      have s2' := s2 hbo
      rw [← conds_mono (e := e2) g1] at s1'
      cases hc1 : conds (h ++ e1 ++ e2) o1 with
      | nil => exact absurd hc1 (conds_ne_nil g1')
      | cons c t =>
        rw [hc1] at s1'
        cases hc2 : conds (h ++ e1 ++ e2) o2 with
        | nil => exact absurd hc2 (conds_ne_nil g2)
        | cons c2 t2 =>
          rw [hc2] at s2'
          intro x hx'
          simp only [joined, List.cons_append, List.tail_cons, List.mem_append, List.mem_cons] at hx'
          rcases hx' with hx' | rfl | hx'
          · exact s1' x hx'
          · rfl
          · exact s2' x hx'
    · intro r hr; cases hr

/-- C39: any expression in which `&` stands above no `|` and every operator has a single condition on one side is evaluated to a list
meaning the boolean expression written, and nothing that existed is modified.  (Missing: the other expressions, see the refutations.) -/
theorem C39_expression_partial (x : Expr) (h : Heap) (hx : x.Plain h) : ∃ h' o, x.eval h = (h', .ok o) ∧
    (∀ v, meaning v (conds h' o) = x.bool v h) ∧ h <+: h' := by
  obtain ⟨e, o, h1, _, h3, _, _⟩ := eval_spec x h hx
  exact ⟨h ++ e, o, h1, h3, e, rfl⟩

/-- `c | a & b & c`, over a heap of three conditions. -/
def exHeap : Heap := [⟨10, false⟩, ⟨11, true⟩, ⟨12, false⟩]
def exExpr : Expr := .bin false (.leaf 2) (.bin true (.bin true (.leaf 0) (.leaf 1)) (.leaf 2))

example : exExpr.Plain exHeap := by
  simp [exExpr, Expr.Plain, Expr.AndOnly, exHeap]

example : (exExpr.eval exHeap).2.toOption.map (conds (exExpr.eval exHeap).1) =
    some [⟨12, false⟩, ⟨10, false⟩, ⟨11, true⟩, ⟨12, true⟩] := by decide

example : Good exHeap (.many [0, 1]) ∧ Good exHeap (.one 2) ∧ Compatible (.many [0, 1]) (.one 2) ∧
    OneGroup (conds exHeap (.many [0, 1])) ∧ OneGroup (conds exHeap (.one 2)) := by
  refine ⟨⟨by simp, by simp, by simp [exHeap]⟩, by simp [Good, exHeap], trivial, ?_, ?_⟩ <;> simp [OneGroup, conds, exHeap, get]

/-! ### Where it fails -/

/-- C39 refuted: `(a | b) & c` is read as `a | (b & c)`. -/
theorem C39_paren_refuted : ∃ (h : Heap) (v : ℕ → Bool) (h' : Heap) (o : Opd),
    (Expr.bin true (.bin false (.leaf 0) (.leaf 1)) (.leaf 2)).eval h = (h', .ok o) ∧
      meaning v (conds h' o) ≠ (Expr.bin true (.bin false (.leaf 0) (.leaf 1)) (.leaf 2)).bool v h :=
  ⟨exHeap, fun n => n == 10, _, _, rfl, by decide⟩

/-- C39 refuted: two combinations cannot be combined with each other. -/
theorem C39_lists_refuted : ∃ (h : Heap),
    ((Expr.bin false (.bin true (.leaf 0) (.leaf 1)) (.bin true (.leaf 1) (.leaf 2))).eval h).2 = .error .typeError :=
  ⟨exHeap, by decide⟩

/-- C39 refuted: combining with an empty list on the right fails. -/
theorem C39_empty_refuted (k : Bool) (h : Heap) (a : ℕ) : (op k h (.one a) (.many [])).2 = .error .indexError := rfl

/-- C39 refuted for lists holding one object twice: the copies share it, so that setting the first comparison sets the other too. -/
theorem C39_shared_refuted : ∃ (h : Heap) (v : ℕ → Bool) (h' : Heap) (rs : List ℕ),
    op false h (.one 2) (.many [1, 0, 1]) = (h', .ok rs) ∧
      meaning v (rs.map (get h')) ≠ (meaning v (conds h (.one 2)) || meaning v (conds h (.many [1, 0, 1]))) :=
  ⟨[⟨10, true⟩, ⟨11, true⟩, ⟨12, false⟩], fun n => n == 11, _, _, rfl, by decide⟩

end Wait
end Draftsman
