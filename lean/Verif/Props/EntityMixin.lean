import Verif.Proof.EntityMixin
import Verif.Props.EntityList
/-
C117: an entity list as the mutable sequence it says it is.
-/
namespace Draftsman
open EList

/-- The member carries no id that can be looked up. -/
def NoId (e : EL) : Prop := e.id = none ∨ e.id = some ""

instance (e : EL) : Decidable (NoId e) := by unfold NoId; infer_instance

theorem noId_iff (e : EL) : NoId e ↔ truthy e.id = false := (truthy_false_iff e.id).symm

/-- C117, for all lists reached by legal calls and all positions: `pop` with a position within the list, counted from the end if negative,
returns the member there and removes it and nothing else, and the ids still name the right members. -/
theorem C117_pop (ops : List EOp) (hl : EOp.LegalRun EList.empty ops) (i : Int) (n : ℕ) (e : EL)
    (hi : i = n ∨ i + (EOp.run EList.empty ops).root.length = n ∧ i < 0) (hn : (EOp.run EList.empty ops).root[n]? = some e) :
    ∃ s', (EOp.run EList.empty ops).pop i = (s', .ok e) ∧ s'.root = (EOp.run EList.empty ops).root.eraseIdx n ∧ s'.Right := by
  have hg := EOp.run_good good_empty ops hl
  generalize EOp.run EList.empty ops = s at *
  obtain ⟨hlt, -⟩ := List.getElem?_eq_some_iff.1 hn
  obtain ⟨s', h1, h2, h3⟩ := good_delAt hg hn
  have hp : pyIndex s.root i = some n := by
    unfold pyIndex
    rcases hi with rfl | ⟨h4, h5⟩
    · rw [if_pos (by omega)]; simp
    · rw [if_neg (by omega), if_pos (by omega)]
      congr 1; omega
  have hmod : i % (s.root.length : Int) = n := by
    rcases hi with rfl | ⟨h4, h5⟩
    · exact Int.emod_eq_of_lt (by omega) (by omega)
    · rw [show i = (n : Int) - s.root.length by omega, Int.sub_emod_right]
      exact Int.emod_eq_of_lt (by omega) (by omega)
  refine ⟨s', ?_, h2, h3.right⟩
  unfold pop getInt delInt
  rw [hp]
  simp only [hn]
  rw [if_neg (by omega), hmod, hg.key_at hn]
  simp only [h1]

/-- C117: `pop` with a position outside the list fails with `IndexError` and leaves everything as it was. -/
theorem C117_pop_outside (ops : List EOp) (i : Int)
    (hi : i < -((EOp.run EList.empty ops).root.length : Int) ∨ ((EOp.run EList.empty ops).root.length : Int) ≤ i) :
    (EOp.run EList.empty ops).pop i = (EOp.run EList.empty ops, .error .indexError) := by
  generalize EOp.run EList.empty ops = s at *
  unfold pop getInt pyIndex
  rw [if_neg (by omega), if_neg (by omega)]

/-- C117: `pop` with an id returns the member carrying it and removes it and nothing else; if no member carries it, it fails with
`KeyError` and leaves everything as it was. -/
theorem C117_pop_id (ops : List EOp) (hl : EOp.LegalRun EList.empty ops) (k : String) (hk : k ≠ "") :
    (∀ (n : ℕ) (e : EL), (EOp.run EList.empty ops).root[n]? = some e → e.id = some k →
      ∃ s', (EOp.run EList.empty ops).popStr k = (s', .ok e.uid) ∧ s'.root = (EOp.run EList.empty ops).root.eraseIdx n ∧ s'.Right) ∧
    ((∀ e ∈ (EOp.run EList.empty ops).root, e.id ≠ some k) →
      (EOp.run EList.empty ops).popStr k = (EOp.run EList.empty ops, .error .keyError)) := by
  have hg := EOp.run_good good_empty ops hl
  generalize EOp.run EList.empty ops = s at *
  have hr := hg.right
  constructor
  · intro n e hn he
    obtain ⟨s', h1, h2, h3⟩ := good_delAt hg hn
    rw [if_pos ((truthy_iff _).2 ⟨by simp [he], by simp [he, hk]⟩), he] at h1
    refine ⟨s', ?_, h2, h3.right⟩
    unfold popStr delStr
    simp only [hr.find e (List.mem_of_getElem? hn) k he hk, hr.haspos n e hn k he hk, h1]
  · intro h
    have : s.getStr k = .error .keyError := by
      unfold getStr
      cases hc : s.keyMap.get? (some k) with
      | none => rfl
      | some u =>
        obtain ⟨e, he, -, hid⟩ := hr.found k u ((getStr_iff s k u).2 hc)
        exact absurd hid (h e he)
    unfold popStr
    simp only [this]

/-- C117: `remove` takes away the first member that is the given one or equal to it, and nothing else; if there is none it fails with
`ValueError` and leaves everything as it was. -/
theorem C117_remove (ops : List EOp) (hl : EOp.LegalRun EList.empty ops) (v : EL) :
    (∀ (n : ℕ) (e : EL), (EOp.run EList.empty ops).root[n]? = some e → e.eqv v = true →
        (∀ m < n, ∀ e', (EOp.run EList.empty ops).root[m]? = some e' → e'.eqv v = false) →
      ∃ s', (EOp.run EList.empty ops).removeVal v = (s', none) ∧ s'.root = (EOp.run EList.empty ops).root.eraseIdx n ∧ s'.Right) ∧
    ((∀ e ∈ (EOp.run EList.empty ops).root, e.eqv v = false) →
      (EOp.run EList.empty ops).removeVal v = (EOp.run EList.empty ops, some .valueError)) := by
  have hg := EOp.run_good good_empty ops hl
  generalize EOp.run EList.empty ops = s at *
  constructor
  · intro n e hn he hm
    obtain ⟨hlt, hget⟩ := List.getElem?_eq_some_iff.1 hn
    obtain ⟨s', h1, h2, h3⟩ := good_delAt hg hn
    have hf : s.root.findIdx? (fun e => e.eqv v) = some n := by
      rw [List.findIdx?_eq_some_iff_getElem]
      refine ⟨hlt, by rw [hget]; exact he, fun j hj => ?_⟩
      simp [hm j hj _ (List.getElem?_eq_getElem (by omega))]
    refine ⟨s', ?_, h2, h3.right⟩
    unfold removeVal
    simp only [hf]
    unfold delInt
    rw [if_neg (by omega), Int.emod_eq_of_lt (by omega) (by omega)]
    simp only [hg.key_at hn, h1]
  · intro h
    have : s.root.findIdx? (fun e => e.eqv v) = none := List.findIdx?_eq_none_iff.2 h
    unfold removeVal
    simp only [this]

/-- C117, partial (a list with an id in its back half cannot be reversed, see `C117_reverse_refuted`): if no member of the back half carries
an id, `reverse` turns the list round, and the ids name the right members at their new positions. -/
theorem C117_reverse_partial (ops : List EOp) (hl : EOp.LegalRun EList.empty ops)
    (h : ∀ (n : ℕ) e, (EOp.run EList.empty ops).root.length ≤ n + (EOp.run EList.empty ops).root.length / 2 →
      (EOp.run EList.empty ops).root[n]? = some e → NoId e) :
    ∃ s', (EOp.run EList.empty ops).reverse = (s', none) ∧ s'.root = (EOp.run EList.empty ops).root.reverse ∧ s'.Right := by
  have hg := EOp.run_good good_empty ops hl
  generalize EOp.run EList.empty ops = s at *
  obtain ⟨s', h1, h2, h3⟩ := reverseFrom_ok (s.root.length / 2) s 0 hg (by omega) (by
    intro q e _ hq he
    exact (noId_iff e).1 (h _ e (by omega) he))
  refine ⟨s', h1, ?_, h2.right⟩
  apply List.ext_getElem?
  intro p
  rw [h3]
  by_cases hp : p < s.root.length
  · rw [if_pos (by omega), List.getElem?_reverse hp]
    congr 1; omega
  · rw [if_neg (by omega), List.getElem?_eq_none (by omega), List.getElem?_eq_none (by simp; omega)]

/-- C117: in all other cases `reverse` fails with `DuplicateIDError` on meeting the last member of the back half that carries an id.  The
members outside of that one and its mirror image have then changed places, the others not; ids still name the right members. -/
theorem C117_reverse_stops (ops : List EOp) (hl : EOp.LegalRun EList.empty ops) (t : ℕ) (d : EL)
    (ht : t < (EOp.run EList.empty ops).root.length / 2)
    (hd : (EOp.run EList.empty ops).root[(EOp.run EList.empty ops).root.length - 1 - t]? = some d) (hid : ¬ NoId d)
    (h : ∀ (n : ℕ) e, (EOp.run EList.empty ops).root.length < n + 1 + t → (EOp.run EList.empty ops).root[n]? = some e → NoId e) :
    ∃ s', (EOp.run EList.empty ops).reverse = (s', some .duplicateId) ∧ s'.Right ∧
      s'.root = ((EOp.run EList.empty ops).root.reverse.take t ++
        ((EOp.run EList.empty ops).root.drop t).take ((EOp.run EList.empty ops).root.length - 2 * t)) ++
        (EOp.run EList.empty ops).root.reverse.drop ((EOp.run EList.empty ops).root.length - t) := by
  have hg := EOp.run_good good_empty ops hl
  generalize EOp.run EList.empty ops = s at *
  obtain ⟨s', h1, h2, h3⟩ := reverseFrom_taken (s.root.length / 2) s 0 t d hg (by omega) (by omega) (by omega)
    (by rw [show s.root.length - t - 1 = s.root.length - 1 - t by omega]; exact hd)
    (by rw [noId_iff] at hid; simpa using hid) (by
    intro q e _ hq he
    exact (noId_iff e).1 (h _ e (by omega) he))
  refine ⟨s', h1, h2.right, ?_⟩
  apply List.ext_getElem?
  intro p
  rw [h3]
  have hl1 : (s.root.reverse.take t).length = t := by simp; omega
  have hl2 : ((s.root.drop t).take (s.root.length - 2 * t)).length = s.root.length - 2 * t := by simp; omega
  by_cases hp1 : p < t
  · rw [if_pos (by omega), List.getElem?_append_left (by simp; omega), List.getElem?_append_left (by omega), List.getElem?_take_of_lt hp1,
      List.getElem?_reverse (by omega)]
    congr 1; omega
  · by_cases hp2 : p < s.root.length - t
    · rw [if_neg (by omega), List.getElem?_append_left (by simp; omega), List.getElem?_append_right (by omega), hl1,
        List.getElem?_take_of_lt (by omega), List.getElem?_drop]
      congr 1; omega
    · rw [List.getElem?_append_right (by simp; omega), List.getElem?_drop, List.length_append, hl1, hl2,
        show s.root.length - t + (p - (t + (s.root.length - 2 * t))) = p by omega]
      by_cases hp3 : p < s.root.length
      · rw [if_pos (by omega), List.getElem?_reverse hp3]
        congr 1; omega
      · rw [if_neg (by omega), List.getElem?_eq_none (by omega), List.getElem?_eq_none (by simp; omega)]

theorem fresh_not_mem (s : EList) : s.fresh ∉ s.root.map (·.uid) := by
  have : ∀ l : List ℕ, ∀ u ∈ l, u ≤ l.foldr max 0 := by
    intro l
    induction l with
    | nil => simp
    | cons a r ih =>
      intro u hu
      rcases List.mem_cons.1 hu with rfl | hu
      · simp
      · simp only [List.foldr_cons]
        exact le_trans (ih u hu) (le_max_right _ _)
  intro hc
  have := this _ _ hc
  unfold fresh at this
  omega

theorem good_append_copy {s : EList} (h : Good s) {v : EL} (hv : truthy v.id = false) :
    ∃ s', s.append { v with uid := s.fresh } = (s', none) ∧ s'.root = s.root ++ [{ v with uid := s.fresh }] ∧ Good s' := by
  obtain ⟨s', h1, h2, h3⟩ := good_insert h (idx := s.root.length) (v := { v with uid := s.fresh }) (by omega) (fresh_not_mem s) (by
    rw [Bool.eq_false_iff]
    intro hc
    have := ((idTaken_iff h _).1 hc).1
    simp only [hv] at this
    cases this)
  refine ⟨s', h1, ?_, h3⟩
  rw [h2]
  simp

theorem getInt_nat_outside {s : EList} {i : ℕ} (h : s.root.length ≤ i) : s.getInt i = .error .indexError := by
  unfold getInt pyIndex
  rw [if_neg (by omega), if_neg (by omega)]

theorem extendSelf_never (fuel : ℕ) : ∀ (s : EList) (i : ℕ), Good s → i < s.root.length → (∀ e ∈ s.root, truthy e.id = false) →
    s.extendSelf i fuel = none := by
  induction fuel with
  | zero => intros; rfl
  | succ fuel ih =>
    intro s i h hi he
    have hv := List.getElem?_eq_getElem hi
    obtain ⟨s', h1, h2, h3⟩ := good_append_copy h (he _ (List.mem_of_getElem? hv))
    simp only [extendSelf, getInt_nat hv, h1]
    refine ih s' (i + 1) h3 (by rw [h2]; simp; omega) ?_
    intro e hm
    rw [h2] at hm
    rcases List.mem_append.1 hm with hm | hm
    · exact he e hm
    · simp only [List.mem_singleton] at hm
      subst hm
      exact he s.root[i] (List.mem_of_getElem? hv)

theorem extendSelf_taken (fuel : ℕ) : ∀ (s : EList) (i t : ℕ) (d : EL), Good s → i ≤ t → t < i + fuel → s.root[t]? = some d → truthy d.id = true →
    (∀ q e, i ≤ q → q < t → s.root[q]? = some e → truthy e.id = false) →
    ∃ s' c, s.extendSelf i fuel = some (s', some .duplicateId) ∧ Good s' ∧ s'.root = s.root ++ c ∧
      c.map (fun e => (e.id, e.key)) = ((s.root.take t).drop i).map (fun e => (e.id, e.key)) := by
  induction fuel with
  | zero => intro s i t d h h1 h2; omega
  | succ fuel ih =>
    intro s i t d h hit htf hd htd hq
    obtain ⟨htl, -⟩ := List.getElem?_eq_some_iff.1 hd
    by_cases hti : t = i
    · subst hti
      refine ⟨s, [], ?_, h, by simp, by simp⟩
      have : s.idTaken { d with uid := s.fresh } = true := (idTaken_iff h _).2 ⟨htd, d, List.mem_of_getElem? hd, rfl⟩
      simp only [extendSelf, getInt_nat hd, append, EList.insert, this, if_true]
    have hil : i < s.root.length := by omega
    have hv := List.getElem?_eq_getElem hil
    obtain ⟨s1, h1, h2, h3⟩ := good_append_copy h (hq i _ (le_refl _) (by omega) hv)
    have hold : ∀ q, q < s.root.length → s1.root[q]? = s.root[q]? := by
      intro q hql
      rw [h2, List.getElem?_append_left hql]
    obtain ⟨s', c, h4, h5, h6, h7⟩ := ih s1 (i + 1) t d h3 (by omega) (by omega) (by rw [hold t htl]; exact hd) htd (by
      intro q e h8 h9 h10
      rw [hold q (by omega)] at h10
      exact hq q e (by omega) h9 h10)
    refine ⟨s', { s.root[i] with uid := s.fresh } :: c, ?_, h5, ?_, ?_⟩
    · simp only [extendSelf, getInt_nat hv, h1]
      exact h4
    · rw [h6, h2]; simp
    · have hdrop : (s.root.take t).drop i = s.root[i] :: (s.root.take t).drop (i + 1) := by
        rw [List.drop_eq_getElem_cons (by simp; omega)]
        simp
      rw [hdrop, List.map_cons, List.map_cons, h7, h2, List.take_append_of_le_length (by omega)]

/-- C117, partial (see `C117_endless_refuted`): extending a list by itself ends at once if the list is empty; if some member carries an id it
ends with `DuplicateIDError`, after copies of the members before the first such have been appended, and ids still name the right
members. -/
theorem C117_extend_self_partial (ops : List EOp) (hl : EOp.LegalRun EList.empty ops) :
    ((EOp.run EList.empty ops).root = [] → ∀ fuel, 0 < fuel →
      (EOp.run EList.empty ops).extendSelf 0 fuel = some (EOp.run EList.empty ops, none)) ∧
    ∀ (t : ℕ) (d : EL), (EOp.run EList.empty ops).root[t]? = some d → ¬ NoId d →
      (∀ q < t, ∀ e, (EOp.run EList.empty ops).root[q]? = some e → NoId e) → ∀ fuel, t < fuel →
      ∃ s' c, (EOp.run EList.empty ops).extendSelf 0 fuel = some (s', some .duplicateId) ∧ s'.Right ∧
        s'.root = (EOp.run EList.empty ops).root ++ c ∧
        c.map (fun e => (e.id, e.key)) = ((EOp.run EList.empty ops).root.take t).map (fun e => (e.id, e.key)) := by
  have hg := EOp.run_good good_empty ops hl
  generalize EOp.run EList.empty ops = s at *
  constructor
  · intro h fuel hf
    obtain ⟨f, rfl⟩ := Nat.exists_eq_succ_of_ne_zero (Nat.ne_of_gt hf)
    have := getInt_nat_outside (s := s) (i := 0) (by simp [h])
    rw [Nat.succ_eq_add_one, extendSelf, this]
  · intro t d hd hid hq fuel hf
    obtain ⟨s', c, h1, h2, h3, h4⟩ := extendSelf_taken fuel s 0 t d hg (by omega) (by omega) hd
      (by rw [noId_iff] at hid; simpa using hid) (fun q e _ h5 h6 => (noId_iff e).1 (hq q h5 e h6))
    exact ⟨s', c, h1, h2.right, h3, by simpa using h4⟩

/-- C117: a list that is not empty and has no ids is extended by itself without end: no number of rounds suffices. -/
theorem C117_extend_self_endless (ops : List EOp) (hl : EOp.LegalRun EList.empty ops) (hne : (EOp.run EList.empty ops).root ≠ [])
    (h : ∀ e ∈ (EOp.run EList.empty ops).root, NoId e) (fuel : ℕ) : (EOp.run EList.empty ops).extendSelf 0 fuel = none :=
  extendSelf_never fuel _ 0 (EOp.run_good good_empty ops hl) (List.length_pos_iff.2 hne) fun e he => (noId_iff e).1 (h e he)

/-- Three members, an id on the first. -/
def C117_front : List EOp := [.append ⟨1, some "a", some 7⟩ false, .append ⟨2, none, some 8⟩ false, .append ⟨3, none, none⟩ false]

/-- Four members, an id on the first and on the third. -/
def C117_back : List EOp :=
  [.append ⟨1, some "a", some 7⟩ false, .append ⟨2, none, some 8⟩ false, .append ⟨3, some "b", none⟩ false, .append ⟨4, none, some 8⟩ false]

theorem C117_front_legal : EOp.LegalRun EList.empty C117_front := by
  refine ⟨?_, ?_, ?_, trivial⟩ <;> simp only [EOp.Legal] <;> decide

theorem C117_back_legal : EOp.LegalRun EList.empty C117_back := by
  refine ⟨?_, ?_, ?_, ?_, trivial⟩ <;> simp only [EOp.Legal] <;> decide

/-- Pops from the end, by a position, and by id. -/
example : ((EOp.run EList.empty C117_back).pop (-1)).2.toOption = some ⟨4, none, some 8⟩ ∧
    (((EOp.run EList.empty C117_back).pop 0).1.keyToIdx.get? (some "b") = some 1) ∧
    ((EOp.run EList.empty C117_back).popStr "b").2.toOption = some 3 ∧
    (((EOp.run EList.empty C117_back).popStr "b").1.root.map (·.uid)) = [1, 2, 4] := by decide

/-- An instance of the hypotheses of `C117_pop`. -/
example : (-1 : Int) + (EOp.run EList.empty C117_back).root.length = (3 : ℕ) ∧
    (EOp.run EList.empty C117_back).root[3]? = some ⟨4, none, some 8⟩ := by decide

/-- The second member is equal to the fourth, and is the one removed. -/
example : ((EOp.run EList.empty C117_back).removeVal ⟨4, none, some 8⟩).1.root.map (·.uid) = [1, 3, 4] ∧
    (EOp.run EList.empty C117_back).removeVal ⟨9, none, some 9⟩ = (EOp.run EList.empty C117_back, some .valueError) := by decide

/-- A list with its id in front is turned round, and the id follows. -/
example : (EOp.run EList.empty C117_front).reverse.1.root.map (·.uid) = [3, 2, 1] ∧
    (EOp.run EList.empty C117_front).reverse.2 = none ∧
    (EOp.run EList.empty C117_front).reverse.1.keyToIdx.get? (some "a") = some 2 := by decide

/-- The hypotheses of `C117_reverse_partial` and of `C117_reverse_stops` are met by these lists. -/
example : (∀ n < 3, 3 ≤ n + 3 / 2 → ∀ e, (EOp.run EList.empty C117_front).root[n]? = some e → NoId e) ∧
    (EOp.run EList.empty C117_front).root.length = 3 ∧
    (EOp.run EList.empty C117_back).root[4 - 1 - 1]? = some ⟨3, some "b", none⟩ ∧ ¬ NoId ⟨3, some "b", none⟩ ∧
    (EOp.run EList.empty C117_back).root[3]? = some ⟨4, none, some 8⟩ ∧ NoId ⟨4, none, some 8⟩ := by
  refine ⟨?_, by decide, by decide, by decide, by decide, by decide⟩
  intro n hn h e he
  obtain rfl : n = 2 := by omega
  · have : (EOp.run EList.empty C117_front).root[2]? = some ⟨3, none, none⟩ := by decide
    rw [this] at he
    simp only [Option.some.injEq] at he
    subst he
    decide

/-- A list with an id in the back half is left half turned. -/
example : (EOp.run EList.empty C117_back).reverse.1.root.map (·.uid) = [4, 2, 3, 1] ∧
    (EOp.run EList.empty C117_back).reverse.2 = some .duplicateId := by decide

/-- Extending by itself stops at the id of the first member here; without it, ten rounds make ten more members. -/
example : (EOp.run EList.empty C117_back).extendSelf 0 10 = some (EOp.run EList.empty C117_back, some .duplicateId) ∧
    (EOp.run EList.empty [.append ⟨2, none, some 8⟩ false]).extendSelf 0 10 = none := by decide

/-- C117 is false of the code in that a list need not be reversible: `reverse` writes the last member in the place of the first while it still
stands at the end too, so that a member with an id there counts as a duplicate of itself. -/
theorem C117_reverse_refuted : ¬ ∀ (ops : List EOp), EOp.LegalRun EList.empty ops → (EOp.run EList.empty ops).reverse.2 = none := by
  intro h
  exact absurd (h C117_back C117_back_legal) (by decide)

/-- C117 is false of the code in that a reversal that fails leaves the list changed. -/
theorem C117_reverse_failed_refuted : ¬ ∀ (ops : List EOp), EOp.LegalRun EList.empty ops → (EOp.run EList.empty ops).reverse.2 ≠ none →
    (EOp.run EList.empty ops).reverse.1.root = (EOp.run EList.empty ops).root := by
  intro h
  exact absurd (h C117_back C117_back_legal (by decide)) (by decide)

/-- C117 is false of the code in that extending a list by itself need not end: the members appended are met by the same loop. -/
theorem C117_endless_refuted : ¬ ∀ (ops : List EOp), EOp.LegalRun EList.empty ops →
    ∃ fuel out, (EOp.run EList.empty ops).extendSelf 0 fuel = some out := by
  intro h
  have hl : EOp.LegalRun EList.empty [.append ⟨2, none, some 8⟩ false] := by
    refine ⟨?_, trivial⟩
    simp only [EOp.Legal]; decide
  obtain ⟨fuel, out, hf⟩ := h [.append ⟨2, none, some 8⟩ false] hl
  rw [C117_extend_self_endless _ hl (by decide) (by decide)] at hf
  cases hf

end Draftsman
