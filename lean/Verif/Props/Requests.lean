import Verif.Model.Requests
import Mathlib.Tactic.SplitIfs

namespace Draftsman
namespace Requests

/-! ## C49: item requests -/

/-- A place an item can be requested to, numbered as the caller does. -/
structure Key where
  item : String
  quality : String
  inventory : ℤ
  slot : ℤ
  deriving DecidableEq, Repr

/-- What a location says for a key; stored inventories count from one. -/
def Loc.at (k : Key) (l : Loc) : Option (Option ℤ) := if l.inventory = k.inventory + 1 ∧ l.stack = some k.slot then some l.count else none

/-- What a request says for a key. -/
def Entry.at (k : Key) (e : Entry) : List (Option ℤ) :=
  if e.name = k.item ∧ e.quality = some k.quality then (e.locs.getD []).filterMap (Loc.at k) else []

/-- All the counts requested to a place. -/
def held (l : List Entry) (k : Key) : List (Option ℤ) := l.flatMap (Entry.at k)

/-- The list passes the checks and every request in it has its list of places. -/
def Sound (l : List Entry) : Prop := ∀ e ∈ l, e.valid = true ∧ e.locs ≠ none

/-- The place a request names. -/
def Req.key (r : Req) (s : ℤ) : Key := ⟨r.item, r.quality, r.inventory, s⟩

/-- A request whose arguments are in range. -/
def Req.InRange (r : Req) (n s : ℤ) : Prop :=
  r.count = some n ∧ r.slot = some s ∧ 0 < n ∧ n ≤ 4294967295 ∧ 0 ≤ s ∧ s ≤ 4294967295 ∧ -1 ≤ r.inventory ∧ r.inventory ≤ 4294967294 ∧
    r.quality ∈ ["normal", "uncommon", "rare", "epic", "legendary", "quality-unknown", "any"]

theorem updateFirst_spec {α : Type} (p : α → Bool) (f : α → α) : ∀ l : List α,
    (l.find? p = none ∧ updateFirst p f l = none ∧ ∀ a ∈ l, p a = false) ∨
      ∃ l1 a l2, l = l1 ++ a :: l2 ∧ p a = true ∧ (∀ b ∈ l1, p b = false) ∧ l.find? p = some a ∧ updateFirst p f l = some (l1 ++ f a :: l2)
  | [] => .inl ⟨rfl, rfl, by simp⟩
  | a :: l => by
    by_cases h : p a = true
    · exact .inr ⟨[], a, l, rfl, h, by simp, by simp [h], by simp [updateFirst, h]⟩
    · have h' : p a = false := by simpa using h
      rcases updateFirst_spec p f l with ⟨h1, h2, h3⟩ | ⟨l1, b, l2, h1, h2, h3, h4, h5⟩
      · refine .inl ⟨by simp [h', h1], by simp [updateFirst, h', h2], ?_⟩
        intro b hb
        rcases List.mem_cons.mp hb with rfl | hb
        · exact h'
        · exact h3 b hb
      · refine .inr ⟨a :: l1, b, l2, by rw [h1]; rfl, h2, ?_, by simp [h', h4], by simp [updateFirst, h', h5]⟩
        intro c hc
        rcases List.mem_cons.mp hc with rfl | hc
        · exact h'
        · exact h3 c hc

theorem held_append (a b : List Entry) (k : Key) : held (a ++ b) k = held a k ++ held b k := by simp [held]

theorem held_cons (e : Entry) (b : List Entry) (k : Key) : held (e :: b) k = e.at k ++ held b k := by simp [held]

theorem loc_valid {r : Req} {n s : ℤ} (h : r.InRange n s) : (Loc.mk (r.inventory + 1) (some s) (some n)).valid = true := by
  obtain ⟨-, -, h1, h2, h3, h4, h5, h6, -⟩ := h
  simp only [Loc.valid, uint32, Option.any_some, Option.all_some, Bool.and_eq_true, decide_eq_true_eq]
  omega

theorem place_new {r : Req} {n s : ℤ} (h : r.InRange n s) {ls : List Loc}
    (hno : ∀ l ∈ ls, ¬ (l.inventory = r.inventory ∧ l.stack = some s)) : place r n ls = ls ++ [⟨r.inventory + 1, some s, some n⟩] := by
  unfold place
  rcases updateFirst_spec (fun l : Loc => decide (l.inventory = r.inventory ∧ l.stack = r.slot)) (fun l => { l with count := some n }) ls with
    ⟨-, h2, -⟩ | ⟨l1, a, l2, h1, h2, -⟩
  · rw [h2, h.2.1]
  · refine absurd ?_ (hno a (by rw [h1]; simp))
    simpa [h.2.1] using h2

theorem flatMap_nil {α β : Type} {f : α → List β} {l : List α} (h : l.flatMap f = []) : ∀ a ∈ l, f a = [] := by
  simpa [List.flatMap_eq_nil_iff] using h

/-- C49: a request for a place that has none, given with its slot, is stored with its count, and no other place changes, provided
the place of the same slot in the inventory before is empty too.  Missing: places that have a request already, and the inventory before, see
the refutations. -/
theorem C49_new_partial (l : List Entry) (hl : Sound l) (r : Req) (n s : ℤ) (hr : r.InRange n s) (hfree : held l (r.key s) = [])
    (hbefore : held l ⟨r.item, r.quality, r.inventory - 1, s⟩ = []) :
    ∃ l', request r (.list l) = (.list l', none) ∧ Sound l' ∧ ∀ k, held l' k = if k = r.key s then [some n] else held l k := by
  have hc : r.count.getD 0 = n := by rw [hr.1]; rfl
  have hn : n ≠ 0 := by have := hr.2.2.1; omega
  have hlv := loc_valid hr
  have hk : ∀ (ls : List Loc) (k : Key), (ls ++ [Loc.mk (r.inventory + 1) (some s) (some n)]).filterMap (Loc.at k) =
      ls.filterMap (Loc.at k) ++ if k.inventory = r.inventory ∧ k.slot = s then [some n] else [] := by
    intro ls k
    rw [List.filterMap_append]
    congr 1
    by_cases hh : k.inventory = r.inventory ∧ k.slot = s
    · rw [if_pos hh]
      simp [Loc.at, hh.1, hh.2]
    · rw [if_neg hh]
      simp only [List.filterMap_cons, List.filterMap_nil, Loc.at]
      rw [if_neg]
      rintro ⟨h1, h2⟩
      simp only [Option.some.injEq] at h2
      exact hh ⟨by omega, h2.symm⟩
  have hfin : ∀ k : Key, (if k = r.key s then [some n] else held l k) =
      held l k ++ (if k.item = r.item ∧ k.quality = r.quality ∧ k.inventory = r.inventory ∧ k.slot = s then [some n] else []) := by
    intro k
    by_cases hh : k = r.key s
    · rw [if_pos hh, if_pos (by subst hh; exact ⟨rfl, rfl, rfl, rfl⟩), hh, hfree]; rfl
    · rw [if_neg hh, if_neg (fun ⟨a, b, c, d⟩ => hh (by cases k; simp only at a b c d; subst a b c d; rfl)), List.append_nil]
  rcases updateFirst_spec (Entry.isFor r) (fun e => { e with locs := e.locs.map (place r n) }) l with ⟨h1, -, h3⟩ | ⟨l1, e, l2, h1, h2, h3, h4, h5⟩
  · refine ⟨l ++ [⟨r.item, some r.quality, some [⟨r.inventory + 1, some s, some n⟩]⟩], ?_, ?_, ?_⟩
    · simp only [request, build, hc, if_neg hn, h1, hr.2.1]
      rw [if_pos]
      rw [List.all_eq_true]
      intro e he
      rcases List.mem_append.mp he with he | he
      · exact (hl e he).1
      · simp only [List.mem_singleton] at he
        subst he
        have hq := hr.2.2.2.2.2.2.2.2
        simp only [Entry.valid, Option.all_some, Option.getD_some, List.all_cons, List.all_nil, Bool.and_true, hlv]
        simpa [qualities] using hq
    · intro e he
      rcases List.mem_append.mp he with he | he
      · exact hl e he
      · simp only [List.mem_singleton] at he
        subst he
        have hq := hr.2.2.2.2.2.2.2.2
        refine ⟨?_, by simp⟩
        simp only [Entry.valid, Option.all_some, Option.getD_some, List.all_cons, List.all_nil, Bool.and_true, hlv]
        simpa [qualities] using hq
    · intro k
      rw [held_append, hfin]
      congr 1
      rw [held_cons]
      simp only [held, List.flatMap_nil, List.append_nil, Entry.at, Option.getD_some]
      have := hk [] k
      simp only [List.nil_append, List.filterMap_nil] at this
      rw [this]
      by_cases ha : r.item = k.item ∧ r.quality = k.quality
      · obtain ⟨ha, hb⟩ := ha
        simp [ha, hb]
      · rw [if_neg (by simpa using ha), if_neg]
        rintro ⟨a, b, -⟩
        exact ha ⟨a.symm, b.symm⟩
  · have he := hl e (by rw [h1]; simp)
    obtain ⟨ls, hls⟩ := Option.ne_none_iff_exists'.mp he.2
    simp only [Entry.isFor, Bool.and_eq_true, decide_eq_true_eq] at h2
    have hno : ∀ x ∈ ls, ¬ (x.inventory = r.inventory ∧ x.stack = some s) := by
      rintro x hx ⟨hx1, hx2⟩
      have := flatMap_nil hbefore e (by rw [h1]; simp)
      simp only [Entry.at, h2.1, h2.2, and_self, if_true, hls, Option.getD_some] at this
      rw [List.filterMap_eq_nil_iff] at this
      have := this x hx
      simp only [Loc.at] at this
      rw [if_pos ⟨by omega, hx2⟩] at this
      exact absurd this (by simp)
    have hpl := place_new hr hno
    have hev : (Entry.mk e.name e.quality (some (place r n ls))).valid = true := by
      have hv := he.1
      simp only [Entry.valid, hls, Option.getD_some, Bool.and_eq_true] at hv ⊢
      refine ⟨hv.1, ?_⟩
      rw [hpl, List.all_append, hv.2]
      simp [hlv]
    refine ⟨l1 ++ ⟨e.name, e.quality, some (place r n ls)⟩ :: l2, ?_, ?_, ?_⟩
    · simp only [request, build, hc, if_neg hn, h4, hls, h5, Option.getD_some, Option.map_some]
      rw [if_pos]
      rw [List.all_eq_true]
      intro x hx
      rcases List.mem_append.mp hx with hx | hx
      · exact (hl x (by rw [h1]; simp [hx])).1
      · rcases List.mem_cons.mp hx with rfl | hx
        · exact hev
        · exact (hl x (by rw [h1]; simp [hx])).1
    · intro x hx
      rcases List.mem_append.mp hx with hx | hx
      · exact hl x (by rw [h1]; simp [hx])
      · rcases List.mem_cons.mp hx with rfl | hx
        · exact ⟨hev, by simp⟩
        · exact hl x (by rw [h1]; simp [hx])
    · intro k
      rw [hfin, h1, held_append, held_cons, held_append, held_cons]
      have e1 : (Entry.mk e.name e.quality (some (place r n ls))).at k = e.at k ++
          (if k.item = r.item ∧ k.quality = r.quality ∧ k.inventory = r.inventory ∧ k.slot = s then [some n] else []) := by
        simp only [Entry.at, hls, Option.getD_some, h2.1, h2.2, hpl, hk]
        by_cases ha : r.item = k.item ∧ r.quality = k.quality
        · obtain ⟨ha, hb⟩ := ha
          simp [ha, hb]
        · rw [if_neg (by simpa using ha), if_neg (by simpa using ha), if_neg]
          · rfl
          · rintro ⟨a, b, -⟩
            exact ha ⟨a.symm, b.symm⟩
      rw [e1]
      by_cases hh : k = r.key s
      · have hz := hfree
        rw [h1, held_append, held_cons] at hz
        have z1 := (List.append_eq_nil_iff.mp hz).1
        have z2 := (List.append_eq_nil_iff.mp (List.append_eq_nil_iff.mp hz).2)
        rw [hh, z1, z2.1, z2.2]
        simp
      · rw [if_neg (fun ⟨a, b, c, d⟩ => hh (by cases k; simp only at a b c d; subst a b c d; rfl))]
        simp

/-- C49: requesting zero (or no count) of an item removes every request for that item and leaves those for other items.  Missing: only the
named quality, inventory and slot ought to go, see `C49_zero_refuted`. -/
theorem C49_zero_partial (l : List Entry) (hl : Sound l) (r : Req) (hr : r.count.getD 0 = 0) :
    ∃ l', request r (.list l) = (.list l', none) ∧ Sound l' ∧ ∀ k, held l' k = if k.item = r.item then [] else held l k := by
  refine ⟨l.filter (fun e => decide (e.name ≠ r.item)), ?_, ?_, ?_⟩
  · simp only [request, build, if_pos hr]
    rw [if_pos]
    rw [List.all_eq_true]
    intro e he
    exact (hl e ((List.mem_filter.mp he).1)).1
  · exact fun e he => hl e ((List.mem_filter.mp he).1)
  · intro k
    clear hl
    induction l with
    | nil => simp [held]
    | cons e t ih =>
      by_cases he : e.name = r.item
      · rw [List.filter_cons_of_neg (by simpa using he), ih, held_cons]
        by_cases hk : k.item = r.item
        · rw [if_pos hk, if_pos hk]
        · rw [if_neg hk, if_neg hk]
          have : e.at k = [] := by
            rw [Entry.at, if_neg]; rintro ⟨h, -⟩; exact hk (h.symm.trans he)
          rw [this, List.nil_append]
      · rw [List.filter_cons_of_pos (by simpa using he), held_cons, ih, held_cons]
        by_cases hk : k.item = r.item
        · rw [if_pos hk, if_pos hk, List.append_nil]
          rw [Entry.at, if_neg]; rintro ⟨h, -⟩; exact he (h.trans hk)
        · rw [if_neg hk, if_neg hk]

/-- C49: a request that fails changes nothing. -/
theorem C49_failed (s : Items) (r : Req) (e : PyErr) (h : (request r s).2 = some e) : (request r s).1 = s := by
  unfold request at h ⊢
  cases hb : build r s with
  | error e => rfl
  | ok l =>
    rw [hb] at h
    by_cases hv : l.all Entry.valid = true
    · simp only [if_pos hv] at h; simp at h
    · simp only [if_neg hv]

/-- C49: what is stored after a request that succeeds is in range: inventories, slots and counts are 32 bit numbers, and qualities there are. -/
theorem C49_range (s : Items) (r : Req) (h : (request r s).2 = none) : ∃ l, (request r s).1 = .list l ∧ ∀ e ∈ l,
    (∀ q, e.quality = some q → q ∈ ["normal", "uncommon", "rare", "epic", "legendary", "quality-unknown", "any"]) ∧
    ∀ p, e.locs = some p → ∀ x ∈ p, 0 ≤ x.inventory ∧ x.inventory ≤ 4294967295 ∧ (∃ k, x.stack = some k ∧ 0 ≤ k ∧ k ≤ 4294967295) ∧
      ∀ n, x.count = some n → 0 ≤ n ∧ n ≤ 4294967295 := by
  unfold request at h ⊢
  cases hb : build r s with
  | error e => rw [hb] at h; cases h
  | ok l =>
    rw [hb] at h
    by_cases hv : l.all Entry.valid = true
    · simp only [if_pos hv]
      refine ⟨l, rfl, fun e he => ?_⟩
      have := List.all_eq_true.mp hv e he
      simp only [Entry.valid, Bool.and_eq_true] at this
      refine ⟨fun q hq => by simpa [hq, qualities] using this.1, fun p hp x hx => ?_⟩
      have hx' := this.2
      rw [hp, Option.getD_some] at hx'
      have := List.all_eq_true.mp hx' x hx
      simp only [Loc.valid, uint32, Bool.and_eq_true, decide_eq_true_eq] at this
      obtain ⟨⟨⟨h1, h2⟩, h3⟩, h4⟩ := this
      refine ⟨h1, by omega, ?_, fun n hn => ?_⟩
      · cases hk : x.stack with
        | none => simp [hk] at h3
        | some k =>
          simp only [hk, Option.any_some, uint32, Bool.and_eq_true, decide_eq_true_eq] at h3
          exact ⟨k, rfl, h3.1, by omega⟩
      · simp only [hn, Option.all_some, uint32, Bool.and_eq_true, decide_eq_true_eq] at h4
        exact ⟨h4.1, by omega⟩
    · simp only [if_neg hv] at h; cases h

example : (request ⟨"speed-module", some 4294967295, "rare", 0, some 0⟩ (.list [])).2 = none ∧
    (request ⟨"speed-module", some 4294967296, "rare", 0, some 0⟩ (.list [])).2 = some .dataFormat := by decide +kernel

/-! ### Any sequence, in one inventory -/

/-- The counts the caller takes to be requested. -/
abbrev Idea := Key → Option ℤ

/-- What a request is taken to do, the removal by item included. -/
def Req.idea (r : Req) (i : Idea) : Idea := fun k =>
  if r.count.getD 0 = 0 then (if k.item = r.item then none else i k)
  else if r.slot = some k.slot ∧ k.item = r.item ∧ k.quality = r.quality ∧ k.inventory = r.inventory then r.count else i k

/-- A sequence of requests to one inventory in which every request is a removal, or is in range and for a place that has none. -/
def Fresh (inv : ℤ) : Idea → List Req → Prop
  | _, [] => True
  | i, r :: rs => (r.count.getD 0 = 0 ∨ ∃ n s, r.InRange n s ∧ r.inventory = inv ∧ i (r.key s) = none) ∧ Fresh inv (r.idea i) rs

/-- The stored requests are those the caller takes to be there, one count each, all in that inventory. -/
def Agrees (inv : ℤ) (l : List Entry) (i : Idea) : Prop :=
  Sound l ∧ ∀ k, held l k = ((i k).map (fun n => [some n])).getD [] ∧ (k.inventory ≠ inv → i k = none)

theorem step_agrees (inv : ℤ) (l : List Entry) (i : Idea) (ha : Agrees inv l i) (r : Req)
    (hr : r.count.getD 0 = 0 ∨ ∃ n s, r.InRange n s ∧ r.inventory = inv ∧ i (r.key s) = none) :
    ∃ l', request r (.list l) = (.list l', none) ∧ Agrees inv l' (r.idea i) := by
  obtain ⟨h1, h2⟩ := ha
  by_cases hz : r.count.getD 0 = 0
  · obtain ⟨l', e1, e2, e3⟩ := C49_zero_partial l h1 r hz
    refine ⟨l', e1, e2, fun k => ⟨?_, ?_⟩⟩
    · rw [e3, (h2 k).1]
      simp only [Req.idea, if_pos hz]
      by_cases hk : k.item = r.item
      · rw [if_pos hk, if_pos hk]; rfl
      · rw [if_neg hk, if_neg hk]
    · intro hk
      simp only [Req.idea, if_pos hz]
      split
      · rfl
      · exact (h2 k).2 hk
  · rcases hr with hr | ⟨n, s, hr, hi, hfree⟩
    · exact absurd hr hz
    · have hf : held l (r.key s) = [] := by rw [(h2 _).1, hfree]; rfl
      have hb : held l ⟨r.item, r.quality, r.inventory - 1, s⟩ = [] := by
        rw [(h2 _).1, (h2 _).2]
        · rfl
        · simp only; omega
      obtain ⟨l', e1, e2, e3⟩ := C49_new_partial l h1 r n s hr hf hb
      have hid : ∀ k : Key, r.idea i k = if k = r.key s then some n else i k := by
        intro k
        simp only [Req.idea, if_neg hz]
        by_cases hh : k = r.key s
        · rw [if_pos hh, hh, if_pos ⟨hr.2.1, rfl, rfl, rfl⟩, hr.1]
        · rw [if_neg hh, if_neg]
          rintro ⟨a, b, c, d⟩
          rw [hr.2.1, Option.some.injEq] at a
          exact hh (by cases k; simp only at a b c d; subst a b c d; rfl)
      refine ⟨l', e1, e2, fun k => ⟨?_, ?_⟩⟩
      · rw [e3, hid]
        by_cases hh : k = r.key s
        · rw [if_pos hh, if_pos hh]; rfl
        · rw [if_neg hh, if_neg hh]; exact (h2 k).1
      · intro hk
        rw [hid, if_neg]
        · exact (h2 k).2 hk
        · rintro rfl; exact hk hi

/-- C49: after any sequence of requests to one inventory, none for a place that already has one, the places hold exactly the counts requested.
Missing: a second request for a place, several inventories, and removal of a single place. -/
theorem C49_history_partial (inv : ℤ) (rs : List Req) (l : List Entry) (i : Idea) (ha : Agrees inv l i) (hf : Fresh inv i rs) :
    ∃ l', rs.foldl (fun s r => (request r s).1) (.list l) = .list l' ∧ Agrees inv l' (rs.foldl (fun i r => r.idea i) i) := by
  induction rs generalizing l i with
  | nil => exact ⟨l, rfl, ha⟩
  | cons r t ih =>
    obtain ⟨l1, e1, e2⟩ := step_agrees inv l i ha r hf.1
    simp only [List.foldl_cons, e1]
    exact ih l1 _ e2 hf.2

theorem agrees_empty (inv : ℤ) : Agrees inv [] (fun _ => none) := ⟨by simp [Sound], fun k => ⟨rfl, fun _ => rfl⟩⟩

def exReqs : List Req := [⟨"speed-module", some 1, "normal", 0, some 0⟩, ⟨"speed-module", some 1, "rare", 0, some 1⟩,
  ⟨"speed-module", some 2, "normal", 0, some 3⟩, ⟨"speed-module", none, "rare", 0, none⟩, ⟨"speed-module", some 5, "normal", 0, some 0⟩]

example : Fresh 0 (fun _ => none) exReqs ∧
    (exReqs.foldl (fun s r => (request r s).1) (.list [])) = .list [⟨"speed-module", some "normal", some [⟨1, some 0, some 5⟩]⟩] := by
  refine ⟨⟨.inr ⟨1, 0, ?_, rfl, rfl⟩, .inr ⟨1, 1, ?_, rfl, by decide⟩, .inr ⟨2, 3, ?_, rfl, by decide⟩, .inl rfl,
    .inr ⟨5, 0, ?_, rfl, by decide⟩, trivial⟩, by decide +kernel⟩ <;>
  refine ⟨rfl, rfl, ?_⟩ <;> decide

/-! ### Where it fails -/

/-- A single request, as made. -/
def exItems : List Entry := [⟨"speed-module", some "normal", some [⟨1, some 0, some 1⟩]⟩]

/-- C49 refuted: requesting again to the same place does not replace the count; both are kept and the old one comes first. -/
theorem C49_again_refuted : request ⟨"speed-module", some 1, "normal", 0, some 0⟩ (.list []) = (.list exItems, none) ∧
    ∃ l', request ⟨"speed-module", some 5, "normal", 0, some 0⟩ (.list exItems) = (.list l', none) ∧
      held l' ⟨"speed-module", "normal", 0, 0⟩ = [some 1, some 5] :=
  ⟨by decide +kernel, [⟨"speed-module", some "normal", some [⟨1, some 0, some 1⟩, ⟨1, some 0, some 5⟩]⟩], by decide +kernel, by decide +kernel⟩

/-- C49 refuted: requesting to inventory 1 changes the count of inventory 0 and requests nothing to inventory 1. -/
theorem C49_inventory_refuted : ∃ l', request ⟨"speed-module", some 5, "normal", 1, some 0⟩ (.list exItems) = (.list l', none) ∧
    held l' ⟨"speed-module", "normal", 0, 0⟩ = [some 5] ∧ held l' ⟨"speed-module", "normal", 1, 0⟩ = [] :=
  ⟨[⟨"speed-module", some "normal", some [⟨1, some 0, some 5⟩]⟩], by decide +kernel, by decide +kernel, by decide +kernel⟩

/-- C49 refuted: requesting zero of one quality to one slot removes the other qualities and slots of the item as well, for all requests stored. -/
theorem C49_zero_refuted : ∃ (l l' : List Entry) (r : Req) (k : Key), request r (.list l) = (.list l', none) ∧ r.count = some 0 ∧
    k.quality ≠ r.quality ∧ some k.slot ≠ r.slot ∧ held l k = [some 1] ∧ held l' k = [] :=
  ⟨exItems, [], ⟨"speed-module", some 0, "rare", 0, some 2⟩, ⟨"speed-module", "normal", 0, 0⟩, by decide +kernel, rfl, by decide, by decide,
    by decide +kernel, by decide +kernel⟩

/-- C49 refuted: without a slot, the slot chosen for a new item can be one that is taken. -/
theorem C49_auto_refuted : ∃ (l l' : List Entry) (r : Req), r.slot = none ∧ request r (.list l) = (.list l', none) ∧
    held l ⟨"iron-plate", "normal", 0, 1⟩ = [some 4] ∧ held l' ⟨"iron-plate", "normal", 0, 1⟩ = [some 4] ∧
    held l' ⟨"speed-module", "normal", 0, 1⟩ = [some 2] :=
  ⟨[⟨"iron-plate", some "normal", some [⟨1, some 1, some 4⟩]⟩],
    [⟨"iron-plate", some "normal", some [⟨1, some 1, some 4⟩]⟩, ⟨"speed-module", some "normal", some [⟨1, some 1, some 2⟩]⟩],
    ⟨"speed-module", some 2, "normal", 0, none⟩, rfl, by decide +kernel, by decide +kernel, by decide +kernel, by decide +kernel⟩

/-- C49 refuted: without a slot, a further request for an item and quality that has one fails. -/
theorem C49_auto_again_refuted : (request ⟨"speed-module", some 2, "normal", 0, none⟩ (.list exItems)).2 = some .dataFormat := by decide +kernel

/-- C49 refuted: on an entity of a class that starts with an empty dictionary, no request can be made. -/
theorem C49_dict_refuted (r : Req) (h : r.count.getD 0 ≠ 0) : request r .dict = (.dict, some .attributeError) := by
  simp [request, build, h]

example : (Req.mk "iron-plate" (some 3) "normal" 0 none).count.getD 0 ≠ 0 := by decide

end Requests
end Draftsman
