import Verif.Proof.EntityList
/-
C17, C18: string ids in entity lists.
-/
namespace Draftsman
open EList

/-- The calls a user can make on an entity list (or, for `rename…`, on a member of it). -/
inductive EOp where
  | insert (idx : Int) (v : EL) (merged : Bool)
  | append (v : EL) (merged : Bool)
  | del (i : Int)
  | delKey (k : String)
  | delSlice (a b : ℕ)
  | set (i : Int) (v : EL)
  | setKey (k : String) (v : EL)
  | clear
  | rename (v : EL) (id : Option String)
  | renameGroup (v : EL) (id : Option String)
  deriving DecidableEq, Repr

/-- The effect of one call. -/
def EOp.apply (s : EList) : EOp → EList × Option PyErr
  | .insert idx v merged => s.insert idx v merged
  | .append v merged => s.append v merged
  | .del i => s.delInt i
  | .delKey k => s.delStr k
  | .delSlice a b => s.delSlice a b
  | .set i v => s.setInt i v
  | .setKey k v => s.setStr k v
  | .clear => (s.clear, none)
  | .rename v id => s.renameEntity v id
  | .renameGroup v id => s.renameGroup v id

/-- The calls for which the bookkeeping is right.  An inserted value is a new object (the default: a copy), positions are not
negative, a renaming is to a non-empty id no other member carries, and no member with an id stands within `b - a - 2` places
after a deleted slice. -/
def EOp.Legal (s : EList) : EOp → Prop
  | .insert idx v _ => 0 ≤ idx ∧ ∀ e ∈ s.root, e.uid ≠ v.uid
  | .append v _ => ∀ e ∈ s.root, e.uid ≠ v.uid
  | .del _ => True
  | .delKey _ => True
  | .delSlice a b => a ≤ b ∧ b ≤ s.root.length ∧
      ∀ m e, b ≤ m → m + 2 < b + (b - a) → s.root[m]? = some e → e.id = none ∨ e.id = some ""
  | .set i v => 0 ≤ i ∧ ∀ e ∈ s.root, e.uid ≠ v.uid
  | .setKey _ v => ∀ e ∈ s.root, e.uid ≠ v.uid
  | .clear => True
  | .rename v id => v ∈ s.root ∧ id ≠ some "" ∧ (id = none ∨ ∀ e ∈ s.root, e.uid ≠ v.uid → e.id ≠ id)
  | .renameGroup v id => v ∈ s.root ∧ v.id ≠ some "" ∧ id ≠ some "" ∧ id ≠ none ∧ ∀ e ∈ s.root, e.uid ≠ v.uid → e.id ≠ id

/-- The state after a history; exceptions are caught by the user, who goes on. -/
def EOp.run (s : EList) : List EOp → EList
  | [] => s
  | op :: r => EOp.run (op.apply s).1 r

/-- Every call of the history is legal in the state it meets. -/
def EOp.LegalRun (s : EList) : List EOp → Prop
  | [] => True
  | op :: r => op.Legal s ∧ EOp.LegalRun (op.apply s).1 r

/-- What the property asks of a list. -/
structure EList.Right (s : EList) : Prop where
  /-- looking up an id returns a member carrying it -/
  found : ∀ k u, s.getStr k = .ok u → ∃ e ∈ s.root, e.uid = u ∧ e.id = some k
  /-- every member carrying an id is found by it -/
  find : ∀ e ∈ s.root, ∀ k, e.id = some k → k ≠ "" → s.getStr k = .ok e.uid
  /-- recorded positions are actual positions -/
  pos : ∀ k i, s.keyToIdx.get? (some k) = some i → ∃ e, s.getInt i = .ok e ∧ 0 ≤ i ∧ e.id = some k ∧ s.getStr k = .ok e.uid
  /-- every member carrying an id has a recorded position -/
  haspos : ∀ (n : ℕ) e, s.root[n]? = some e → ∀ k, e.id = some k → k ≠ "" → s.keyToIdx.get? (some k) = some (n : Int)
  /-- the reverse table is the inverse -/
  inv : ∀ i k, s.idxToKey.get? i = some k ↔ s.keyToIdx.get? k = some i
  /-- ids are pairwise distinct -/
  distinct : ∀ (n m : ℕ) e e', s.root[n]? = some e → s.root[m]? = some e' → e.id = e'.id → e.id ≠ none → e.id ≠ some "" → n = m

theorem EList.truthy_iff (k : Option String) : truthy k = true ↔ k ≠ none ∧ k ≠ some "" := by
  cases k with
  | none => simp [truthy]
  | some k => simp [truthy]

theorem EList.truthy_false_iff (k : Option String) : truthy k = false ↔ k = none ∨ k = some "" := by
  cases k with
  | none => simp [truthy]
  | some k => simp [truthy]

theorem EList.getStr_iff (s : EList) (k : String) (u : Nat) : s.getStr k = .ok u ↔ s.keyMap.get? (some k) = some u := by
  unfold getStr
  cases s.keyMap.get? (some k) <;> simp

theorem EList.getInt_nat {s : EList} {n : ℕ} {e : EL} (h : s.root[n]? = some e) : s.getInt n = .ok e := by
  obtain ⟨hlt, -⟩ := List.getElem?_eq_some_iff.1 h
  unfold getInt
  simp only [pyIndex_nat hlt, h]

theorem EList.Good.right {s : EList} (h : Good s) : s.Right where
  found := by
    intro k u hk
    obtain ⟨i, -, n, e, -, hn, he, hu⟩ := (h.1.km _ _).1 ((getStr_iff s k u).1 hk)
    exact ⟨e, List.mem_of_getElem? hn, hu, he⟩
  find := by
    intro e he k hk hne
    obtain ⟨n, hn⟩ := List.mem_iff_getElem?.1 he
    exact (getStr_iff s k _).2 ((h.1.km _ _).2 ⟨n, by simp [truthy, hne], n, e, rfl, hn, hk, rfl⟩)
  pos := by
    intro k i hi
    obtain ⟨u, ht, n, e, rfl, hn, he, rfl⟩ := (h.1.ki _ _).1 hi
    exact ⟨e, getInt_nat hn, by omega, he, (getStr_iff s k _).2 ((h.1.km _ _).2 ⟨n, ht, n, e, rfl, hn, he, rfl⟩)⟩
  haspos := by
    intro n e hn k hk hne
    exact (h.1.ki _ _).2 ⟨e.uid, by simp [truthy, hne], n, e, rfl, hn, hk, rfl⟩
  inv := fun i k => (h.1.ik i k).trans (h.1.ki k i).symm
  distinct := by
    intro n m e e' hn hm he h1 h2
    exact h.id_inj hn hm ((truthy_iff _).2 ⟨h1, h2⟩) he

/-- What a call that succeeds should make of the list itself: Python's list operations. -/
def EOp.listEffect (s : EList) : EOp → List EL
  | .insert idx v merged => if merged then s.root else s.root.insertIdx (min idx.toNat s.root.length) v
  | .append v merged => if merged then s.root else s.root ++ [v]
  | .del i => s.root.eraseIdx (i % s.root.length).toNat
  | .delKey k => s.root.filter fun e => e.id ≠ some k
  | .delSlice a b => s.root.take a ++ s.root.drop b
  | .set i v => s.root.set i.toNat v
  | .setKey k v => s.root.map fun e => if e.id = some k then v else e
  | .clear => []
  | .rename v id => s.root.map fun e => if e.uid = v.uid then { e with id := id } else e
  | .renameGroup v id => s.root.map fun e => if e.uid = v.uid then { e with id := id } else e

theorem EList.pyIndex_nonneg {α : Type} {l : List α} {i : Int} (h : 0 ≤ i) :
    pyIndex l i = if i < l.length then some i.toNat else none := by
  unfold pyIndex
  by_cases hc : i < l.length
  · rw [if_pos ⟨h, hc⟩, if_pos hc]
  · rw [if_neg (by omega), if_neg (by omega), if_neg hc]

theorem EList.Good.eraseIdx_filter {s : EList} (h : Good s) {n : ℕ} {e : EL} (hn : s.root[n]? = some e) (ht : truthy e.id = true) :
    s.root.eraseIdx n = s.root.filter fun e' => e'.id ≠ e.id := by
  have hall : ∀ m e', s.root[m]? = some e' → m ≠ n → e'.id ≠ e.id := by
    intro m e' hm hne hid
    exact hne (h.id_inj hn hm ht hid.symm).symm
  have gen : ∀ (l : List EL) (n : ℕ), l[n]? = some e → (∀ m e', l[m]? = some e' → m ≠ n → e'.id ≠ e.id) →
      l.eraseIdx n = l.filter fun e' => e'.id ≠ e.id := by
    intro l
    induction l with
    | nil => intro n hn; simp at hn
    | cons a r ih =>
      intro n hn hall
      cases n with
      | zero =>
        simp only [List.getElem?_cons_zero, Option.some.injEq] at hn
        subst hn
        simp only [List.eraseIdx_cons_zero]
        rw [List.filter_cons_of_neg (by simp)]
        symm
        rw [List.filter_eq_self]
        intro e' he'
        obtain ⟨m, hm⟩ := List.mem_iff_getElem?.1 he'
        have := hall (m + 1) e' (by simpa using hm) (by omega)
        simp [this]
      | succ n =>
        simp only [List.getElem?_cons_succ] at hn
        have h0 := hall 0 a (by simp) (by omega)
        rw [List.eraseIdx_cons_succ, List.filter_cons_of_pos (by simp [h0])]
        rw [ih n hn (fun m e' hm hne => hall (m + 1) e' (by simpa using hm) (by omega))]
  exact gen s.root n hn hall

theorem EList.Good.set_map {s : EList} (h : Good s) {n : ℕ} {e : EL} (hn : s.root[n]? = some e) (ht : truthy e.id = true) (v : EL) :
    s.root.set n v = s.root.map fun e' => if e'.id = e.id then v else e' := by
  apply List.ext_getElem?
  intro m
  rw [List.getElem?_set, List.getElem?_map]
  by_cases hm : n = m
  · subst hm
    obtain ⟨hlt, -⟩ := List.getElem?_eq_some_iff.1 hn
    rw [if_pos rfl, if_pos hlt, hn]; simp
  · rw [if_neg hm]
    cases hc : s.root[m]? with
    | none => rfl
    | some e' =>
      have : e'.id ≠ e.id := fun hid => hm (h.id_inj hn hc ht hid.symm)
      simp [this]

/-- One legal call: either an exception and nothing changed, or the list operation and the tables still right. -/
theorem EOp.step {s : EList} (h : Good s) (op : EOp) (hl : op.Legal s) :
    Good (op.apply s).1 ∧
      (((op.apply s).2 = none ∧ (op.apply s).1.root = op.listEffect s) ∨ ((op.apply s).2 ≠ none ∧ (op.apply s).1 = s)) := by
  have fresh : ∀ v : EL, (∀ e ∈ s.root, e.uid ≠ v.uid) → v.uid ∉ s.root.map (·.uid) := by
    intro v hv hm
    obtain ⟨e, he, hu⟩ := List.mem_map.1 hm
    exact hv e he hu
  have ins : ∀ (idx : Int) (v : EL) (merged : Bool), 0 ≤ idx → (∀ e ∈ s.root, e.uid ≠ v.uid) →
      Good (s.insert idx v merged).1 ∧ (((s.insert idx v merged).2 = none ∧ (s.insert idx v merged).1.root =
        if merged then s.root else s.root.insertIdx (min idx.toNat s.root.length) v) ∨
        ((s.insert idx v merged).2 ≠ none ∧ (s.insert idx v merged).1 = s)) := by
    intro idx v merged h0 hv
    cases ht : s.idTaken v with
    | true =>
      have : s.insert idx v merged = (s, some .duplicateId) := by simp [EList.insert, ht]
      rw [this]
      exact ⟨h, Or.inr ⟨by simp, rfl⟩⟩
    | false =>
      cases merged with
      | true =>
        have : s.insert idx v true = (s, none) := by simp [EList.insert, ht]
        rw [this]
        exact ⟨h, Or.inl ⟨rfl, by simp⟩⟩
      | false =>
        obtain ⟨s', h1, h2, h3⟩ := good_insert h h0 (fresh v hv) ht
        rw [h1]
        exact ⟨h3, Or.inl ⟨rfl, by simp [h2]⟩⟩
  have sets : ∀ (n : ℕ) (e v : EL), s.root[n]? = some e → (∀ e ∈ s.root, e.uid ≠ v.uid) →
      Good (s.setAt n (if truthy e.id = true then e.id else none) v).1 ∧
      (((s.setAt n (if truthy e.id = true then e.id else none) v).2 = none ∧
        (s.setAt n (if truthy e.id = true then e.id else none) v).1.root = s.root.set n v) ∨
        ((s.setAt n (if truthy e.id = true then e.id else none) v).2 ≠ none ∧
          (s.setAt n (if truthy e.id = true then e.id else none) v).1 = s)) := by
    intro n e v hn hv
    cases ht : s.idTaken v with
    | true =>
      have : s.setAt n (if truthy e.id = true then e.id else none) v = (s, some .duplicateId) := by simp [EList.setAt, ht]
      rw [this]
      exact ⟨h, Or.inr ⟨by simp, rfl⟩⟩
    | false =>
      obtain ⟨s', h1, h2, h3⟩ := good_setAt h hn (fresh v hv) ht
      rw [h1]
      exact ⟨h3, Or.inl ⟨rfl, h2⟩⟩
  cases op with
  | insert idx v merged => exact ins idx v merged hl.1 hl.2
  | append v merged =>
    have := ins s.root.length v merged (by omega) hl
    simpa [EOp.apply, EOp.listEffect, EList.append, List.insertIdx_length_self] using this
  | del i =>
    by_cases h0 : s.root.length = 0
    · have : s.delInt i = (s, some .zeroDivision) := by simp [delInt, h0]
      simp only [EOp.apply, this]
      exact ⟨h, Or.inr ⟨by simp, trivial⟩⟩
    · have hpos : (0 : Int) < s.root.length := by omega
      have hb := Int.emod_nonneg i (by omega : (s.root.length : Int) ≠ 0)
      have hb' := Int.emod_lt_of_pos i hpos
      obtain ⟨n, hn⟩ := Int.eq_ofNat_of_zero_le hb
      have hlt : n < s.root.length := by omega
      obtain ⟨e, he⟩ : ∃ e, s.root[n]? = some e := ⟨_, List.getElem?_eq_getElem hlt⟩
      obtain ⟨s', h1, h2, h3⟩ := good_delAt h he
      have : s.delInt i = (s', none) := by
        unfold delInt
        rw [if_neg h0]
        simp only [hn, h.key_at he]
        exact h1
      simp only [EOp.apply, EOp.listEffect, this, hn]
      exact ⟨h3, Or.inl ⟨trivial, by simpa using h2⟩⟩
  | delKey k =>
    cases hk : s.keyToIdx.get? (some k) with
    | none =>
      have : s.delStr k = (s, some .keyError) := by simp [delStr, hk]
      simp only [EOp.apply, this]
      exact ⟨h, Or.inr ⟨by simp, trivial⟩⟩
    | some i =>
      obtain ⟨u, ht, n, e, rfl, hn, he, -⟩ := (h.1.ki _ _).1 hk
      obtain ⟨s', h1, h2, h3⟩ := good_delAt h hn
      rw [he, if_pos ht] at h1
      have : s.delStr k = (s', none) := by simp only [delStr, hk]; exact h1
      simp only [EOp.apply, EOp.listEffect, this]
      refine ⟨h3, Or.inl ⟨trivial, ?_⟩⟩
      rw [h2, h.eraseIdx_filter hn (by rw [he]; exact ht), he]
  | delSlice a b =>
    obtain ⟨hab, hb, hfar⟩ := hl
    obtain ⟨s', h1, h2, h3⟩ := good_delSlice h hab hb (fun m e x y z => (truthy_false_iff _).2 (hfar m e x y z))
    simp only [EOp.apply, EOp.listEffect, h1]
    exact ⟨h3, Or.inl ⟨trivial, h2⟩⟩
  | set i v =>
    obtain ⟨h0, hv⟩ := hl
    by_cases hlt : i < s.root.length
    · obtain ⟨n, hn⟩ := Int.eq_ofNat_of_zero_le h0
      subst hn
      obtain ⟨e, he⟩ : ∃ e, s.root[n]? = some e := ⟨_, List.getElem?_eq_getElem (by omega)⟩
      have := sets n e v he hv
      simp only [EOp.apply, EOp.listEffect, setInt, h.key_at he]
      simpa using this
    · have hp : pyIndex s.root i = none := by rw [pyIndex_nonneg h0, if_neg hlt]
      have : ∃ err, s.setInt i v = (s, some err) := by
        unfold setInt setAt
        cases s.idTaken v with
        | true => exact ⟨.duplicateId, by simp⟩
        | false => exact ⟨.indexError, by simp [hp]⟩
      obtain ⟨err, this⟩ := this
      simp only [EOp.apply, this]
      exact ⟨h, Or.inr ⟨by simp, trivial⟩⟩
  | setKey k v =>
    cases hk : s.keyToIdx.get? (some k) with
    | none =>
      have : s.setStr k v = (s, some .keyError) := by simp [setStr, hk]
      simp only [EOp.apply, this]
      exact ⟨h, Or.inr ⟨by simp, trivial⟩⟩
    | some i =>
      obtain ⟨u, ht, n, e, rfl, hn, he, -⟩ := (h.1.ki _ _).1 hk
      have := sets n e v hn hl
      rw [h.set_map hn (by rw [he]; exact ht), he, if_pos ht] at this
      have e1 : s.setStr k v = s.setAt n (some k) v := by simp only [setStr, hk]
      simp only [EOp.apply, EOp.listEffect, e1]
      exact this
  | clear => exact ⟨good_empty, Or.inl ⟨rfl, rfl⟩⟩
  | rename v id =>
    obtain ⟨hv, hid', hfree⟩ := hl
    obtain ⟨n, hn⟩ := List.mem_iff_getElem?.1 hv
    by_cases hid : v.id = some ""
    · have hnone : s.keyToIdx.get? (some "") = none := by
        cases hc : s.keyToIdx.get? (some "") with
        | none => rfl
        | some i =>
          obtain ⟨u, ht, -⟩ := (h.1.ki _ _).1 hc
          simp [truthy] at ht
      have : s.renameEntity v id = (s, some .keyError) := by
        simp [renameEntity, removeKey, hid, hnone]
      simp only [EOp.apply, this]
      exact ⟨h, Or.inr ⟨by simp, trivial⟩⟩
    · obtain ⟨s', h1, h2, h3⟩ := good_renameEntity h hn hid hid' (by
        intro ht
        rcases hfree with rfl | hfree
        · simp [truthy] at ht
        · exact hfree)
      simp only [EOp.apply, EOp.listEffect, h1]
      exact ⟨h3, Or.inl ⟨trivial, h2⟩⟩
  | renameGroup v id =>
    obtain ⟨hv, hid, hid', hnn, hfree⟩ := hl
    obtain ⟨n, hn⟩ := List.mem_iff_getElem?.1 hv
    obtain ⟨s', h1, h2, h3⟩ := good_renameGroup h hn hid ((truthy_iff _).2 ⟨hnn, hid'⟩) hfree
    simp only [EOp.apply, EOp.listEffect, h1]
    exact ⟨h3, Or.inl ⟨trivial, h2⟩⟩

theorem EOp.run_good {s : EList} (h : Good s) (ops : List EOp) (hl : EOp.LegalRun s ops) : Good (EOp.run s ops) := by
  induction ops generalizing s with
  | nil => exact h
  | cons op r ih => exact ih (EOp.step h op hl.1).1 hl.2

/-- C17: after every history of legal calls, including failed ones, the ids name the right members.  Missing for the full
property: the calls excluded by `Legal`, for which it is false (see the `_refuted` theorems). -/
theorem C17_history_partial (ops : List EOp) (hl : EOp.LegalRun EList.empty ops) : (EOp.run EList.empty ops).Right :=
  (EOp.run_good good_empty ops hl).right

/-- C17: in every state reached by legal calls, a further legal call either fails and changes nothing at all, or does to the
list what the corresponding Python list operation does. -/
theorem C17_effect_partial (ops : List EOp) (hl : EOp.LegalRun EList.empty ops) (op : EOp) (hop : op.Legal (EOp.run EList.empty ops)) :
    ((op.apply (EOp.run EList.empty ops)).2 = none ∧
      (op.apply (EOp.run EList.empty ops)).1.root = op.listEffect (EOp.run EList.empty ops)) ∨
    ((op.apply (EOp.run EList.empty ops)).2 ≠ none ∧ (op.apply (EOp.run EList.empty ops)).1 = EOp.run EList.empty ops) :=
  (EOp.step (EOp.run_good good_empty ops hl) op hop).2

/-- A history of seven calls with ids moved by insertion and deletion; legal throughout. -/
def C17_example : List EOp :=
  [.append ⟨0, some "a", some 0⟩ false, .append ⟨1, none, some 1⟩ false, .insert 0 ⟨2, some "b", none⟩ false,
   .append ⟨3, some "a", some 3⟩ false, .rename ⟨1, none, some 1⟩ (some "c"), .del (-2), .setKey "b" ⟨4, some "d", some 9⟩]

example : EOp.LegalRun EList.empty C17_example := by
  simp only [C17_example, EOp.LegalRun, EOp.Legal]
  decide

example : (EOp.run EList.empty C17_example).getStr "d" = .ok 4 ∧ (EOp.run EList.empty C17_example).getStr "c" = .ok 1 ∧
    (EOp.run EList.empty C17_example).getStr "a" = .error .keyError ∧ (EOp.run EList.empty C17_example).root.length = 2 := by
  decide

/-- C17 fails for insertion at a negative index: `insert(-1, …)` moves the recorded position of a member that did not move. -/
theorem C17_negative_insert_refuted :
    ∃ s : EList, s = EOp.run EList.empty [.append ⟨0, some "a", some 0⟩ false, .append ⟨1, none, some 1⟩ false,
        .insert (-1) ⟨2, none, some 2⟩ false] ∧
      s.root.map (·.uid) = [0, 2, 1] ∧ s.keyToIdx.get? (some "a") = some 1 ∧ ¬ s.Right := by
  refine ⟨_, rfl, by decide, by decide, fun h => ?_⟩
  have := h.haspos 0 ⟨0, some "a", some 0⟩ (by decide) "a" rfl (by decide)
  revert this; decide

/-- C17 fails for replacement at a negative index: the replaced member is still found by its id. -/
theorem C17_negative_set_refuted :
    ∃ s : EList, s = EOp.run EList.empty [.append ⟨0, some "a", some 0⟩ false, .set (-1) ⟨1, some "b", some 1⟩] ∧
      s.root.map (·.uid) = [1] ∧ s.getStr "a" = .ok 0 ∧ ¬ s.Right := by
  refine ⟨_, rfl, by decide, by decide, fun h => ?_⟩
  obtain ⟨e, he, hu, -⟩ := h.found "a" 0 (by decide)
  revert hu; revert e; decide

/-- C17 fails for the deletion of a slice of three members followed by a member with an id: its recorded position is one too
high. -/
theorem C17_slice_refuted :
    ∃ s : EList, s = EOp.run EList.empty [.append ⟨0, none, some 0⟩ false, .append ⟨1, none, some 1⟩ false,
        .append ⟨2, none, some 2⟩ false, .append ⟨3, some "a", some 3⟩ false, .delSlice 0 3] ∧
      s.root.map (·.uid) = [3] ∧ s.keyToIdx.get? (some "a") = some 1 ∧ ¬ s.Right := by
  refine ⟨_, rfl, by decide, by decide, fun h => ?_⟩
  have := h.haspos 0 ⟨3, some "a", some 3⟩ (by decide) "a" rfl (by decide)
  revert this; decide

/-- C17 fails for the empty id: the member cannot be looked up, and a second one is accepted. -/
theorem C17_empty_id_refuted :
    ∃ s : EList, s = EOp.run EList.empty [.append ⟨0, some "", some 0⟩ false, .append ⟨1, some "", some 1⟩ false] ∧
      s.root.map (·.id) = [some "", some ""] ∧ s.getStr "" = .error .keyError := ⟨_, rfl, by decide, by decide⟩

/-- C17 fails when a deleted entity is renamed: it still knows its former parent, and the rename removes the key of the member
that took over its id. -/
theorem C17_deleted_rename_refuted :
    ∃ s : EList, s = EOp.run EList.empty [.append ⟨0, some "a", some 0⟩ false, .del 0, .append ⟨1, some "a", some 1⟩ false,
        .rename ⟨0, some "a", some 0⟩ none] ∧
      s.root.map (·.id) = [some "a"] ∧ s.getStr "a" = .error .keyError ∧ ¬ s.Right := by
  refine ⟨_, rfl, by decide, by decide, fun h => ?_⟩
  have := h.find ⟨1, some "a", some 1⟩ (by decide) "a" rfl (by decide)
  revert this; decide

/-- C17 fails for a group whose id is reset to `None`: `None` is recorded as its key, and the next group reset is refused. -/
theorem C17_group_none_refuted :
    ∃ s : EList, s = EOp.run EList.empty [.append ⟨0, some "a", none⟩ false, .append ⟨1, some "b", none⟩ false,
        .renameGroup ⟨0, some "a", none⟩ none] ∧
      s.keyMap.get? none = some 0 ∧ (s.renameGroup ⟨1, some "b", none⟩ none).2 = some .duplicateId := ⟨_, rfl, by decide, by decide⟩

/-! ### C18 -/

/-- C18: inserting a value whose id a member carries raises the duplicate-id error and leaves the list as it was, at any index
and whether or not it would have been merged. -/
theorem C18_insert (ops : List EOp) (hl : EOp.LegalRun EList.empty ops) (idx : Int) (v : EL) (merged : Bool) (k : String)
    (hk : v.id = some k) (hne : k ≠ "") (hdup : ∃ e ∈ (EOp.run EList.empty ops).root, e.id = some k) :
    (EOp.run EList.empty ops).insert idx v merged = (EOp.run EList.empty ops, some .duplicateId) := by
  have ht := (idTaken_iff (EOp.run_good good_empty ops hl) v).2 ⟨by simp [hk, truthy, hne], by rw [hk]; exact hdup⟩
  simp [EList.insert, ht]

/-- C18: replacing a member by a value whose id a member carries, be it the replaced one, raises the duplicate-id error (unless
the position or key is unknown) and leaves the list as it was. -/
theorem C18_set (ops : List EOp) (hl : EOp.LegalRun EList.empty ops) (v : EL) (k : String)
    (hk : v.id = some k) (hne : k ≠ "") (hdup : ∃ e ∈ (EOp.run EList.empty ops).root, e.id = some k) :
    (∀ i, (EOp.run EList.empty ops).setInt i v = (EOp.run EList.empty ops, some .duplicateId)) ∧
    (∀ j, (EOp.run EList.empty ops).setStr j v = (EOp.run EList.empty ops, some .duplicateId) ∨
      (EOp.run EList.empty ops).setStr j v = (EOp.run EList.empty ops, some .keyError)) := by
  have ht := (idTaken_iff (EOp.run_good good_empty ops hl) v).2 ⟨by simp [hk, truthy, hne], by rw [hk]; exact hdup⟩
  refine ⟨fun i => by simp [EList.setInt, EList.setAt, ht], fun j => ?_⟩
  cases hj : (EOp.run EList.empty ops).keyToIdx.get? (some j) with
  | none => right; simp [setStr, hj]
  | some i => left; simp [setStr, hj, setAt, ht]

/-- C18: conversely a value is only refused when its id is taken. -/
theorem C18_insert_iff (ops : List EOp) (hl : EOp.LegalRun EList.empty ops) (idx : Int) (hidx : 0 ≤ idx) (v : EL)
    (hfresh : ∀ e ∈ (EOp.run EList.empty ops).root, e.uid ≠ v.uid) :
    ((EOp.run EList.empty ops).insert idx v).2 = none ↔
      (v.id = none ∨ v.id = some "" ∨ ∀ e ∈ (EOp.run EList.empty ops).root, e.id ≠ v.id) := by
  have hg := EOp.run_good good_empty ops hl
  set s := EOp.run EList.empty ops with hs
  cases ht : s.idTaken v with
  | true =>
    have h1 : s.insert idx v = (s, some .duplicateId) := by simp [EList.insert, ht]
    rw [h1]
    obtain ⟨ht', e, he, hid⟩ := (idTaken_iff hg v).1 ht
    obtain ⟨h2, h3⟩ := (truthy_iff _).1 ht'
    simp only [reduceCtorEq, false_iff]
    rintro (h | h | h)
    · exact h2 h
    · exact h3 h
    · exact h e he hid
  | false =>
    obtain ⟨s', h1, -, -⟩ := good_insert hg hidx (v := v) (by
      intro hm
      obtain ⟨e, he, hu⟩ := List.mem_map.1 hm
      exact hfresh e he hu) ht
    rw [h1]
    simp only [true_iff]
    by_contra hc
    push Not at hc
    obtain ⟨h2, h3, e, he, hid⟩ := hc
    have := (idTaken_iff hg v).2 ⟨(truthy_iff _).2 ⟨h2, h3⟩, e, he, hid⟩
    rw [ht] at this; simp at this

/-- C18: renaming a member to an id another member carries raises the duplicate-id error. -/
theorem C18_rename (ops : List EOp) (hl : EOp.LegalRun EList.empty ops) (v e : EL) (k : String) (hne : k ≠ "")
    (hv : v ∈ (EOp.run EList.empty ops).root) (hid : v.id ≠ some "") (he : e ∈ (EOp.run EList.empty ops).root)
    (hek : e.id = some k) (hvk : v.id ≠ some k) :
    ((EOp.run EList.empty ops).renameEntity v (some k)).2 = some .duplicateId ∧
    ((EOp.run EList.empty ops).renameGroup v (some k)).2 = some .duplicateId := by
  have hg := EOp.run_good good_empty ops hl
  set s := EOp.run EList.empty ops with hs
  obtain ⟨n, hn⟩ := List.mem_iff_getElem?.1 hv
  obtain ⟨m, hm⟩ := List.mem_iff_getElem?.1 he
  have hmn : m ≠ n := by
    rintro rfl
    rw [hn] at hm
    simp only [Option.some.injEq] at hm
    exact hvk (hm ▸ hek)
  have key : ∀ l : List EL, ∀ s1 : EList, ({ s with root := l } : EList).removeKey v.id = (s1, none) →
      Maps s1 (fun k i u => Want s.root k i u ∧ i ≠ n) → s1.keyMap.get? (some k) = some e.uid := by
    intro l s1 _ hM
    refine (hM.km _ _).2 ⟨m, ⟨by simp [truthy, hne], m, e, rfl, hm, hek, rfl⟩, ?_⟩
    exact_mod_cast hmn
  constructor
  · obtain ⟨s1, h1, hr1, hM⟩ := hg.dropKey hn hid s.root
    have hk := key s.root s1 h1 hM
    have h1' : s.removeKey v.id = (s1, none) := h1
    unfold renameEntity
    rw [h1']
    simp [setKey, relabel, hk]
  · obtain ⟨s1, h1, hr1, hM⟩ := hg.dropKey hn hid (s.relabel v.uid (some k)).root
    have hk := key _ s1 h1 hM
    have h1' : (s.relabel v.uid (some k)).removeKey v.id = (s1, none) := h1
    unfold renameGroup
    rw [h1']
    simp [setKey, hk]

/-- C18: in every list reached by legal calls (which exclude renaming to a taken id) the ids of members are pairwise distinct,
the empty id aside. -/
theorem C18_distinct_partial (ops : List EOp) (hl : EOp.LegalRun EList.empty ops) :
    ((EOp.run EList.empty ops).root.filterMap (·.id)).filter (· ≠ "") |>.Nodup := by
  have hr := (EOp.run_good good_empty ops hl).right.distinct
  generalize (EOp.run EList.empty ops).root = l at hr
  induction l with
  | nil => simp
  | cons a r ih =>
    have ih := ih (fun n m e e' hn hm he h1 h2 => by
      have := hr (n + 1) (m + 1) e e' (by simpa using hn) (by simpa using hm) he h1 h2
      omega)
    cases ha : a.id with
    | none => simpa [List.filterMap_cons, ha] using ih
    | some k =>
      by_cases hk : k = ""
      · simpa [List.filterMap_cons, ha, hk] using ih
      · simp only [List.filterMap_cons, ha]
        rw [List.filter_cons_of_pos (by simp [hk]), List.nodup_cons]
        refine ⟨fun hmem => ?_, ih⟩
        simp only [List.mem_filter, List.mem_filterMap] at hmem
        obtain ⟨⟨e, he, hek⟩, -⟩ := hmem
        obtain ⟨m, hm⟩ := List.mem_iff_getElem?.1 he
        have := hr 0 (m + 1) a e (by simp) (by simpa using hm) (by rw [ha, hek]) (by simp [ha]) (by simp [ha, hk])
        omega

example : ((EOp.run EList.empty C17_example).root.filterMap (·.id)).filter (· ≠ "") = ["d", "c"] := by decide

/-- C18 fails for renaming: the error is raised, but the member keeps the duplicate id and its old id is forgotten. -/
theorem C18_rename_refuted :
    ∃ s s' : EList, s = EOp.run EList.empty [.append ⟨0, some "a", some 0⟩ false, .append ⟨1, some "b", some 1⟩ false] ∧
      s.renameEntity ⟨1, some "b", some 1⟩ (some "a") = (s', some .duplicateId) ∧
      s'.root.map (·.id) = [some "a", some "a"] ∧ s'.getStr "b" = .error .keyError := ⟨_, _, rfl, rfl, by decide, by decide⟩

/-- C18: replacing a member by another value with the same id, which would not make two members share an id, is refused too. -/
theorem C18_replace_same_id_refuted :
    ∃ s : EList, s = EOp.run EList.empty [.append ⟨0, some "a", some 0⟩ false] ∧
      s.setInt 0 ⟨1, some "a", some 1⟩ = (s, some .duplicateId) := ⟨_, rfl, by decide⟩

end Draftsman
