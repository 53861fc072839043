import Verif.Model.Copy
import Verif.Proof.Dict
import Verif.Proof.Except
import Verif.Props.Group
/-
The invariant of a running `copy.deepcopy`.
-/
namespace Draftsman
namespace Copy
open GHeap

/-- `Under h x y`: `y` is `x` or is in it, at any depth, by following `entities` lists. -/
inductive Under (h : GHeap) : ℕ → ℕ → Prop where
  | self (x : ℕ) : Under h x x
  | into {x c y : ℕ} : c ∈ (h x).children → Under h c y → Under h x y

theorem Under.trans {h : GHeap} {x y z : ℕ} (a : Under h x y) (b : Under h y z) : Under h x z := by
  induction a with
  | self => exact b
  | into hc _ ih => exact .into hc (ih b)

theorem Under.rank_le {h : GHeap} {rank : ℕ → ℕ} (hwf : Wf h rank) {x y : ℕ} (a : Under h x y) : rank y ≤ rank x := by
  induction a with
  | self => exact le_refl _
  | into hc _ ih => exact le_trans ih (le_of_lt (hwf.acyclic _ _ hc))

/-- The objects that a group's wires and schedules refer to. -/
def refs (m : Mem) (x : ℕ) : List ℕ := (m.ws x).flatMap (fun w => [w.e1, w.e2]) ++ (m.scheds x).flatMap (·.locos)

/-- The memory before copying: parents agree with containment, which has no cycle; containers hold objects that exist; entities have no wires or schedules of
their own. -/
structure Start (m0 : Mem) (rank : ℕ → ℕ) : Prop where
  wf : Wf m0.heap rank
  bound : ∀ c u, c < m0.next → u ∈ (m0.heap c).children → u < m0.next
  lists : ∀ u, (m0.heap u).kind = .entity → m0.ws u = [] ∧ m0.scheds u = []

structure Inv (m0 m : Mem) : Prop where
  next : m0.next ≤ m.next
  old : ∀ v, v < m0.next → m.heap v = m0.heap v ∧ m.el v = m0.el v ∧ m.ws v = m0.ws v ∧ m.scheds v = m0.scheds v
  range : ∀ u v, m.memo.get? u = some v → u < m0.next ∧ m0.next ≤ v ∧ v < m.next
  inj : ∀ u u' v, m.memo.get? u = some v → m.memo.get? u' = some v → u = u'
  same : ∀ u v, m.memo.get? u = some v →
    (m.heap v).kind = (m0.heap u).kind ∧ (m.heap v).pos = (m0.heap u).pos ∧ m.el v = { m0.el u with uid := v }
  par : ∀ u v, m.memo.get? u = some v → ∀ d, (m.heap v).parent = some d → ∃ c, m.memo.get? c = some d ∧ u ∈ (m0.heap c).children

structure Done (alive : ℕ → Bool) (m0 m : Mem) (x v : ℕ) : Prop where
  memo : m.memo.get? x = some v
  children : (m0.heap x).children.map m.memo.get? = (m.heap v).children.map some
  att : ∀ c ∈ (m0.heap x).children, ∀ d, m.memo.get? c = some d → (m.heap d).parent.isSome
  ws : (m0.ws x).mapM (m.redirectWire alive) = .ok (m.ws v)
  scheds : (m0.scheds x).mapM (m.redirectSched alive) = .ok (m.scheds v)

def Ready (alive : ℕ → Bool) (rank : ℕ → ℕ) (m0 m : Mem) (r : ℕ) : Prop :=
  ∀ x, rank x < r → ∀ v, m.memo.get? x = some v → Done alive m0 m x v

structure Ext (S : ℕ → Prop) (m m' : Mem) : Prop where
  next : m.next ≤ m'.next
  memo : ∀ u v, m.memo.get? u = some v → m'.memo.get? u = some v
  node : ∀ v, v < m.next → (m'.heap v).kind = (m.heap v).kind ∧ (m'.heap v).pos = (m.heap v).pos ∧ m'.el v = m.el v ∧ m'.ws v = m.ws v ∧
    m'.scheds v = m.scheds v
  children : ∀ v, v < m.next → ¬ S v → (m'.heap v).children = (m.heap v).children
  parent : ∀ v, v < m.next → (m.heap v).parent.isSome → (m'.heap v).parent.isSome

theorem Ext.refl (S : ℕ → Prop) (m : Mem) : Ext S m m :=
  ⟨le_refl _, fun _ _ h => h, fun _ _ => ⟨rfl, rfl, rfl, rfl, rfl⟩, fun _ _ _ => rfl, fun _ _ h => h⟩

theorem Ext.trans {S : ℕ → Prop} {a b c : Mem} (h1 : Ext S a b) (h2 : Ext S b c) : Ext S a c where
  next := le_trans h1.next h2.next
  memo := fun u v h => h2.memo u v (h1.memo u v h)
  node := fun v hv => by
    obtain ⟨a1, a2, a3, a4, a5⟩ := h1.node v hv
    obtain ⟨b1, b2, b3, b4, b5⟩ := h2.node v (lt_of_lt_of_le hv h1.next)
    exact ⟨b1.trans a1, b2.trans a2, b3.trans a3, b4.trans a4, b5.trans a5⟩
  children := fun v hv hs => (h2.children v (lt_of_lt_of_le hv h1.next) hs).trans (h1.children v hv hs)
  parent := fun v hv h => h2.parent v (lt_of_lt_of_le hv h1.next) (h1.parent v hv h)

theorem Ext.weaken {S T : ℕ → Prop} {a b : Mem} (h : Ext S a b) (hst : ∀ v, S v → T v) : Ext T a b :=
  { h with children := fun v hv ht => h.children v hv (fun hs => ht (hst v hs)) }

theorem redirect_mono {m m' : Mem} (alive : ℕ → Bool) (h : ∀ u v, m.memo.get? u = some v → m'.memo.get? u = some v) {u v : ℕ}
    (hr : m.redirect alive u = .ok v) : m'.redirect alive u = .ok v := by
  unfold Mem.redirect at hr ⊢
  split at hr
  · rename_i ha
    rw [if_pos ha]
    cases hm : m.memo.get? u with
    | none => rw [hm] at hr; simp at hr
    | some w =>
      rw [hm] at hr
      simp only [Except.ok.injEq] at hr
      subst hr
      rw [h u w hm]
  · simp at hr

theorem mapM_mono {α β : Type} {f g : α → Except PyErr β} (h : ∀ a b, f a = .ok b → g a = .ok b) {l : List α} {r : List β}
    (hf : l.mapM f = .ok r) : l.mapM g = .ok r := by
  rw [mapM_ok_iff] at hf ⊢
  exact hf.imp fun a b hab => h a b hab

theorem redirectWire_ok {m : Mem} {alive : ℕ → Bool} {w w' : Wire} : m.redirectWire alive w = .ok w' ↔
    m.redirect alive w.e1 = .ok w'.e1 ∧ m.redirect alive w.e2 = .ok w'.e2 ∧ w'.t1 = w.t1 ∧ w'.t2 = w.t2 := by
  unfold Mem.redirectWire
  cases h1 : m.redirect alive w.e1 with
  | error e => simp [bind, Except.bind]
  | ok a =>
    cases h2 : m.redirect alive w.e2 with
    | error e => simp [bind, Except.bind]
    | ok b =>
      simp only [bind, Except.bind, pure, Except.pure, Except.ok.injEq]
      constructor
      · rintro rfl; exact ⟨rfl, rfl, rfl, rfl⟩
      · rintro ⟨rfl, rfl, h3, h4⟩
        rw [← h3, ← h4]

theorem redirectSched_ok {m : Mem} {alive : ℕ → Bool} {s s' : Sched} : m.redirectSched alive s = .ok s' ↔
    s.locos.mapM (m.redirect alive) = .ok s'.locos ∧ s'.rest = s.rest := by
  unfold Mem.redirectSched
  cases h1 : s.locos.mapM (m.redirect alive) with
  | error e => simp [bind, Except.bind]
  | ok a =>
    simp only [bind, Except.bind, pure, Except.pure, Except.ok.injEq]
    constructor
    · rintro rfl; exact ⟨rfl, rfl⟩
    · rintro ⟨rfl, h3⟩
      rw [← h3]

theorem redirectWire_mono {m m' : Mem} (alive : ℕ → Bool) (h : ∀ u v, m.memo.get? u = some v → m'.memo.get? u = some v) (w w' : Wire)
    (hr : m.redirectWire alive w = .ok w') : m'.redirectWire alive w = .ok w' := by
  rw [redirectWire_ok] at hr ⊢
  exact ⟨redirect_mono alive h hr.1, redirect_mono alive h hr.2.1, hr.2.2⟩

theorem redirectSched_mono {m m' : Mem} (alive : ℕ → Bool) (h : ∀ u v, m.memo.get? u = some v → m'.memo.get? u = some v) (s s' : Sched)
    (hr : m.redirectSched alive s = .ok s') : m'.redirectSched alive s = .ok s' := by
  rw [redirectSched_ok] at hr ⊢
  exact ⟨mapM_mono (fun _ _ => redirect_mono alive h) hr.1, hr.2⟩

/-- Everything in the list has a copy, when the copies are listed. -/
theorem memo_of_map {m : Mem} {l : List ℕ} {r : List ℕ} (h : l.map m.memo.get? = r.map some) {c : ℕ} (hc : c ∈ l) :
    ∃ d, m.memo.get? c = some d ∧ d ∈ r := by
  have : m.memo.get? c ∈ r.map some := h ▸ List.mem_map_of_mem hc
  obtain ⟨d, hd, he⟩ := List.mem_map.1 this
  exact ⟨d, he.symm, hd⟩

theorem map_memo_mono {m m' : Mem} (h : ∀ u v, m.memo.get? u = some v → m'.memo.get? u = some v) {l r : List ℕ}
    (hm : l.map m.memo.get? = r.map some) : l.map m'.memo.get? = r.map some := by
  rw [← hm]
  apply List.map_congr_left
  intro c hc
  obtain ⟨d, hd, -⟩ := memo_of_map hm hc
  rw [hd, h c d hd]

theorem Done.ext {alive : ℕ → Bool} {m0 m m' : Mem} {S : ℕ → Prop} {x v : ℕ} (hi : Inv m0 m) (he : Ext S m m') (hs : ¬ S v)
    (hd : Done alive m0 m x v) : Done alive m0 m' x v := by
  have hv := (hi.range x v hd.memo).2.2
  obtain ⟨-, -, -, n4, n5⟩ := he.node v hv
  refine ⟨he.memo _ _ hd.memo, ?_, ?_, ?_, ?_⟩
  · rw [he.children v hv hs]
    exact map_memo_mono he.memo hd.children
  · intro c hc d hd'
    obtain ⟨d0, hd0, -⟩ := memo_of_map hd.children hc
    have : d0 = d := by rw [he.memo _ _ hd0] at hd'; simpa using hd'
    subst this
    exact he.parent _ (hi.range _ _ hd0).2.2 (hd.att c hc d0 hd0)
  · rw [n4]
    exact mapM_mono (redirectWire_mono alive he.memo) hd.ws
  · rw [n5]
    exact mapM_mono (redirectSched_mono alive he.memo) hd.scheds

/-! ## The steps -/

theorem fresh_inv {m0 m : Mem} {rank : ℕ → ℕ} (_hs : Start m0 rank) (hi : Inv m0 m) {u : ℕ} (hu : u < m0.next)
    (hn : m.memo.get? u = none) : Inv m0 (m.fresh u) := by
  have hne : ∀ a b, m.memo.get? a = some b → a ≠ u := by
    rintro a b hab rfl; rw [hn] at hab; simp at hab
  have hlt : ∀ a b, m.memo.get? a = some b → b ≠ m.next := fun a b hab => ne_of_lt (hi.range a b hab).2.2
  have hget : ∀ a b, (m.fresh u).memo.get? a = some b → (a = u ∧ b = m.next) ∨ (a ≠ u ∧ m.memo.get? a = some b) := by
    intro a b h
    simp only [Mem.fresh, Dict.get?_set] at h
    split at h
    · rename_i h'; left; exact ⟨h'.symm, by simpa using h.symm⟩
    · rename_i h'; right; exact ⟨fun h'' => h' h''.symm, h⟩
  have hget' : ∀ a b, m.memo.get? a = some b → (m.fresh u).memo.get? a = some b := by
    intro a b h
    simp only [Mem.fresh, Dict.get?_set]
    rw [if_neg (fun h' => hne a b h h'.symm), h]
  refine ⟨?_, ?_, ?_, ?_, ?_, ?_⟩
  · exact Nat.le_succ_of_le hi.next
  · intro v hv
    have : v ≠ m.next := ne_of_lt (lt_of_lt_of_le hv hi.next)
    simp only [Mem.fresh, if_neg this]
    exact hi.old v hv
  · intro a b h
    rcases hget a b h with ⟨rfl, rfl⟩ | ⟨-, h⟩
    · exact ⟨hu, hi.next, Nat.lt_succ_self _⟩
    · obtain ⟨h1, h2, h3⟩ := hi.range a b h
      exact ⟨h1, h2, Nat.lt_succ_of_lt h3⟩
  · intro a a' b h h'
    rcases hget a b h with ⟨e1, e2⟩ | ⟨-, h1⟩ <;> rcases hget a' b h' with ⟨e3, e4⟩ | ⟨-, h2⟩
    · rw [e1, e3]
    · exact absurd e2 (hlt _ _ h2)
    · exact absurd e4 (hlt _ _ h1)
    · exact hi.inj _ _ _ h1 h2
  · intro a b h
    rcases hget a b h with ⟨rfl, rfl⟩ | ⟨-, h⟩
    · have hold := hi.old a hu
      simp [Mem.fresh, hold.1, hold.2.1]
    · have := hlt a b h
      simp only [Mem.fresh, if_neg this]
      exact hi.same a b h
  · intro a b h d hd
    rcases hget a b h with ⟨rfl, rfl⟩ | ⟨-, h⟩
    · simp [Mem.fresh] at hd
    · have := hlt a b h
      simp only [Mem.fresh, if_neg this] at hd
      obtain ⟨c, hc, hc'⟩ := hi.par a b h d hd
      exact ⟨c, hget' _ _ hc, hc'⟩

theorem fresh_ext {m : Mem} {u : ℕ} (hn : m.memo.get? u = none) (S : ℕ → Prop) : Ext S m (m.fresh u) where
  next := Nat.le_succ _
  memo := fun a b h => by
    simp only [Mem.fresh, Dict.get?_set]
    rw [if_neg, h]
    rintro rfl
    rw [hn] at h; simp at h
  node := fun v hv => by simp [Mem.fresh, ne_of_lt hv]
  children := fun v hv _ => by simp [Mem.fresh, ne_of_lt hv]
  parent := fun v hv h => by simpa [Mem.fresh, ne_of_lt hv] using h

theorem attach_eq {h : GHeap} {n v : ℕ} (hv : v ≠ n) (x : ℕ) : h.attach n v x =
    if x = v then { h v with parent := some n } else if x = n then { h n with children := (h n).children ++ [v] } else h x := by
  unfold GHeap.attach
  split
  · simp
  · rfl

theorem attach_inv {m0 m : Mem} (hi : Inv m0 m) {p n c v : ℕ} (hp : m.memo.get? p = some n) (hc : m.memo.get? c = some v)
    (hpc : c ∈ (m0.heap p).children) (hne : v ≠ n) : Inv m0 (m.attach n v) := by
  have hv := hi.range c v hc
  have hn := hi.range p n hp
  refine ⟨hi.next, ?_, hi.range, hi.inj, ?_, ?_⟩
  · intro x hx
    obtain ⟨h1, h2⟩ := hi.old x hx
    refine ⟨?_, h2⟩
    simp only [Mem.attach]
    rw [attach_eq hne, if_neg (by omega), if_neg (by omega), h1]
  · intro a b hab
    obtain ⟨h1, h2, h3⟩ := hi.same a b hab
    simp only [Mem.attach]
    rw [attach_eq hne]
    split
    · rename_i hb; subst hb; exact ⟨h1, h2, h3⟩
    · split
      · rename_i hb; subst hb; exact ⟨h1, h2, h3⟩
      · exact ⟨h1, h2, h3⟩
  · intro a b hab d hd
    simp only [Mem.attach] at hd
    rw [attach_eq hne] at hd
    split at hd
    · rename_i hb
      subst hb
      have : a = c := hi.inj _ _ _ hab hc
      subst this
      simp only [Option.some.injEq] at hd
      subst hd
      exact ⟨p, hp, hpc⟩
    · split at hd
      · rename_i hb; subst hb; exact hi.par a b hab d hd
      · exact hi.par a b hab d hd

theorem attach_ext {m : Mem} {n v : ℕ} (hne : v ≠ n) : Ext (· = n) m (m.attach n v) where
  next := le_refl _
  memo := fun _ _ h => h
  node := fun x _ => by
    simp only [Mem.attach]
    rw [attach_eq hne]
    split
    · rename_i hb; subst hb; simp
    · split
      · rename_i hb; subst hb; simp
      · simp
  children := fun x _ hx => by
    simp only [Mem.attach]
    rw [attach_eq hne]
    split
    · rename_i hb; subst hb; rfl
    · rfl
  parent := fun x _ h => by
    simp only [Mem.attach]
    rw [attach_eq hne]
    split
    · rfl
    · split
      · rename_i hb; subst hb; exact h
      · exact h

/-- What a group refers to that cannot be redirected. -/
theorem lists_error {alive : ℕ → Bool} {m : Mem} {ws : List Wire} {ss : List Sched} {e : PyErr}
    (h : ws.mapM (m.redirectWire alive) = .error e ∨ ss.mapM (m.redirectSched alive) = .error e) :
    e = .keyError ∧ ∃ a ∈ ws.flatMap (fun w => [w.e1, w.e2]) ++ ss.flatMap (·.locos), alive a = false ∨ m.memo.get? a = none := by
  have hred : ∀ a e, m.redirect alive a = .error e → e = .keyError ∧ (alive a = false ∨ m.memo.get? a = none) := by
    intro a e he
    unfold Mem.redirect at he
    split at he
    · cases hm : m.memo.get? a with
      | none => rw [hm] at he; simp at he; exact ⟨he.symm, Or.inr rfl⟩
      | some w => rw [hm] at he; simp at he
    · rename_i ha; simp at he; exact ⟨he.symm, Or.inl (by simpa using ha)⟩
  have hmap : ∀ {α β : Type} (f : α → Except PyErr β) (l : List α) (e : PyErr), l.mapM f = .error e → ∃ a ∈ l, f a = .error e := by
    intro α β f l
    induction l with
    | nil => intro e h; simp [pure, Except.pure] at h
    | cons a t ih =>
      intro e h
      rw [List.mapM_cons] at h
      cases hf : f a with
      | error e' =>
        rw [hf] at h
        simp [bind, Except.bind] at h
        exact ⟨a, List.mem_cons_self, by rw [hf, h]⟩
      | ok b =>
        rw [hf] at h
        cases ht : t.mapM f with
        | error e' =>
          rw [ht] at h
          simp [bind, Except.bind] at h
          subst h
          obtain ⟨x, hx, hx'⟩ := ih e' ht
          exact ⟨x, List.mem_cons_of_mem _ hx, hx'⟩
        | ok s => rw [ht] at h; simp [bind, Except.bind, pure, Except.pure] at h
  rcases h with h | h
  · obtain ⟨w, hw, he⟩ := hmap _ _ _ h
    unfold Mem.redirectWire at he
    cases h1 : m.redirect alive w.e1 with
    | error e' =>
      rw [h1] at he; simp [bind, Except.bind] at he; subst he
      obtain ⟨h2, h3⟩ := hred _ _ h1
      exact ⟨h2, w.e1, List.mem_append_left _ (List.mem_flatMap.2 ⟨w, hw, by simp⟩), h3⟩
    | ok a =>
      rw [h1] at he
      cases h2 : m.redirect alive w.e2 with
      | error e' =>
        rw [h2] at he; simp [bind, Except.bind] at he; subst he
        obtain ⟨h3, h4⟩ := hred _ _ h2
        exact ⟨h3, w.e2, List.mem_append_left _ (List.mem_flatMap.2 ⟨w, hw, by simp⟩), h4⟩
      | ok b => rw [h2] at he; simp [bind, Except.bind, pure, Except.pure] at he
  · obtain ⟨s, hs, he⟩ := hmap _ _ _ h
    unfold Mem.redirectSched at he
    cases h1 : s.locos.mapM (m.redirect alive) with
    | error e' =>
      rw [h1] at he; simp [bind, Except.bind] at he; subst he
      obtain ⟨a, ha, he'⟩ := hmap _ _ _ h1
      obtain ⟨h3, h4⟩ := hred _ _ he'
      exact ⟨h3, a, List.mem_append_right _ (List.mem_flatMap.2 ⟨s, hs, ha⟩), h4⟩
    | ok b => rw [h1] at he; simp [bind, Except.bind, pure, Except.pure] at he

/-! ## The recursion -/

/-- What a finished call of `deepcopy` on `u` has done. -/
structure After (alive : ℕ → Bool) (rank : ℕ → ℕ) (m0 m m' : Mem) (u v : ℕ) : Prop where
  inv : Inv m0 m'
  ext : Ext (fun _ => False) m m'
  memo : m'.memo.get? u = some v
  ready : Ready alive rank m0 m' (rank u + 1)
  new : ∀ x, m.memo.get? x = none → ∀ w, m'.memo.get? x = some w → Under m0.heap u x

/-- A reference in `u`, or in a group in it, that cannot be redirected: dead, or not in the group it is in. -/
def Bad (alive : ℕ → Bool) (m0 : Mem) (u : ℕ) : Prop :=
  ∃ x, Under m0.heap u x ∧ ∃ a ∈ refs m0 x, alive a = false ∨ ¬ Under m0.heap x a

theorem Bad.up {alive : ℕ → Bool} {m0 : Mem} {p c : ℕ} (hc : c ∈ (m0.heap p).children) (h : Bad alive m0 c) : Bad alive m0 p := by
  obtain ⟨x, hx, hr⟩ := h
  exact ⟨x, .into hc hx, hr⟩

/-- In a ready memory, what has a copy has copies of all that is in it. -/
theorem ready_under {alive : ℕ → Bool} {rank : ℕ → ℕ} {m0 m : Mem} (hs : Start m0 rank) {r : ℕ} (hr : Ready alive rank m0 m r) {x y : ℕ}
    (h : Under m0.heap x y) (hx : rank x < r) (hm : (m.memo.get? x).isSome) : (m.memo.get? y).isSome := by
  induction h with
  | self => exact hm
  | @into x c y hc _ ih =>
    obtain ⟨v, hv⟩ := Option.isSome_iff_exists.1 hm
    obtain ⟨d, hd, -⟩ := memo_of_map (hr x hx v hv).children hc
    exact ih (lt_trans (hs.wf.acyclic _ _ hc) hx) (by rw [hd]; rfl)

theorem copyAll_spec {alive : ℕ → Bool} {rank : ℕ → ℕ} {m0 : Mem} (hs : Start m0 rank) (k : ℕ)
    (ih : ∀ (m : Mem) (u : ℕ), Inv m0 m → u < m0.next → rank u < k → Ready alive rank m0 m (rank u + 1) →
      (∃ m' v, copyObj alive k m u = (m', .ok v) ∧ After alive rank m0 m m' u v) ∨
      (∃ m', copyObj alive k m u = (m', .error .keyError) ∧ Bad alive m0 u))
    (p n : ℕ) (hp : p < m0.next) : ∀ (cs pre : List ℕ) (m : Mem), (m0.heap p).children = pre ++ cs → (∀ c ∈ cs, rank c < k) → Inv m0 m →
      m.memo.get? p = some n → Ready alive rank m0 m (rank p) → pre.map m.memo.get? = (m.heap n).children.map some →
      (∀ c ∈ pre, ∀ d, m.memo.get? c = some d → (m.heap d).parent.isSome) →
      (∃ m', copyAll (copyObj alive k) n m cs = (m', none) ∧ Inv m0 m' ∧ Ext (· = n) m m' ∧ Ready alive rank m0 m' (rank p) ∧
        (m0.heap p).children.map m'.memo.get? = (m'.heap n).children.map some ∧
        (∀ c ∈ (m0.heap p).children, ∀ d, m'.memo.get? c = some d → (m'.heap d).parent.isSome) ∧
        (∀ x, m.memo.get? x = none → ∀ w, m'.memo.get? x = some w → Under m0.heap p x)) ∨
      (∃ m', copyAll (copyObj alive k) n m cs = (m', some .keyError) ∧ ∃ c ∈ (m0.heap p).children, Bad alive m0 c) := by
  intro cs
  induction cs with
  | nil =>
    intro pre m hch _ hi _ hr hmap hatt
    left
    refine ⟨m, rfl, hi, Ext.refl _ _, hr, ?_, ?_, ?_⟩
    · rw [hch]; simpa using hmap
    · rw [hch]; simpa using hatt
    · intro x hx w hw; rw [hx] at hw; simp at hw
  | cons c cs ihc =>
    intro pre m hch hrk hi hpm hr hmap hatt
    have hcp : c ∈ (m0.heap p).children := by rw [hch]; simp
    have hcr := hs.wf.acyclic p c hcp
    have hcn := hs.bound p c hp hcp
    rcases ih m c hi hcn (hrk c List.mem_cons_self) (fun x hx => hr x (by omega)) with ⟨m1, v, h1, ha⟩ | ⟨m1, h1, hb⟩
    · have hne : v ≠ n := by
        rintro rfl
        have := ha.inv.inj _ _ _ ha.memo (ha.ext.memo _ _ hpm)
        subst this
        omega
      have hpm1 := ha.ext.memo _ _ hpm
      have hnr := hi.range _ _ hpm
      have hinv2 : Inv m0 (m1.attach n v) := attach_inv ha.inv hpm1 ha.memo hcp hne
      have hext2 : Ext (· = n) m (m1.attach n v) := (ha.ext.weaken (fun _ h => h.elim)).trans (attach_ext hne)
      have hready1 : Ready alive rank m0 m1 (rank p) := by
        intro x hx w hw
        cases hxm : m.memo.get? x with
        | none => exact ha.ready x (by have := (ha.new x hxm w hw).rank_le hs.wf; omega) w hw
        | some w0 =>
          have : w0 = w := by have := ha.ext.memo _ _ hxm; rw [hw] at this; simpa using this.symm
          subst this
          exact (hr x hx w0 hxm).ext hi ha.ext (fun h => h)
      have hready2 : Ready alive rank m0 (m1.attach n v) (rank p) := by
        intro x hx w hw
        refine (hready1 x hx w hw).ext ha.inv (attach_ext hne) ?_
        rintro rfl
        have := ha.inv.inj _ _ _ hpm1 hw
        subst this
        omega
      have hchn : ((m1.attach n v).heap n).children = (m.heap n).children ++ [v] := by
        simp only [Mem.attach]
        rw [attach_eq hne, if_neg (Ne.symm hne), if_pos rfl]
        simp only [ha.ext.children n hnr.2.2 (fun h => h)]
      have hmap2 : (pre ++ [c]).map (m1.attach n v).memo.get? = ((m1.attach n v).heap n).children.map some := by
        rw [hchn, List.map_append, List.map_append, map_memo_mono hext2.memo hmap]
        simp [Mem.attach, ha.memo]
      have hatt2 : ∀ c' ∈ pre ++ [c], ∀ d, (m1.attach n v).memo.get? c' = some d → ((m1.attach n v).heap d).parent.isSome := by
        intro c' hc' d hd
        rcases List.mem_append.1 hc' with hc' | hc'
        · obtain ⟨d0, hd0, -⟩ := memo_of_map hmap hc'
          have : d0 = d := by have := hext2.memo _ _ hd0; rw [hd] at this; simpa using this.symm
          subst this
          exact hext2.parent _ (hi.range _ _ hd0).2.2 (hatt c' hc' d0 hd0)
        · simp only [List.mem_singleton] at hc'
          subst hc'
          have : d = v := by
            have hd' : m1.memo.get? c' = some d := hd
            rw [ha.memo] at hd'; simpa using hd'.symm
          subst this
          simp only [Mem.attach]
          rw [attach_eq hne, if_pos rfl]
          rfl
      rcases ihc (pre ++ [c]) (m1.attach n v) (by rw [hch]; simp) (fun c' hc' => hrk c' (List.mem_cons_of_mem _ hc')) hinv2
        (hext2.memo _ _ hpm) hready2 hmap2 hatt2 with ⟨m', e1, e2, e3, e4, e5, e6, e7⟩ | ⟨m', e1, e2⟩
      · left
        refine ⟨m', ?_, e2, hext2.trans e3, e4, e5, e6, ?_⟩
        · simp only [copyAll, h1]; exact e1
        · intro x hx w hw
          cases hx1 : (m1.attach n v).memo.get? x with
          | none => exact e7 x hx1 w hw
          | some w1 => exact .into hcp (ha.new x hx w1 hx1)
      · right
        exact ⟨m', by simp only [copyAll, h1]; exact e1, e2⟩
    · right
      exact ⟨m1, by simp only [copyAll, h1], c, hcp, hb⟩

theorem copyObj_spec {alive : ℕ → Bool} {rank : ℕ → ℕ} {m0 : Mem} (hs : Start m0 rank) : ∀ (k : ℕ) (m : Mem) (u : ℕ), Inv m0 m →
    u < m0.next → rank u < k → Ready alive rank m0 m (rank u + 1) →
      (∃ m' v, copyObj alive k m u = (m', .ok v) ∧ After alive rank m0 m m' u v) ∨
      (∃ m', copyObj alive k m u = (m', .error .keyError) ∧ Bad alive m0 u) := by
  intro k
  induction k with
  | zero => intro m u _ _ hk; omega
  | succ k ih =>
    intro m u hi hu hk hr
    unfold copyObj
    cases hm : m.memo.get? u with
    | some v =>
      left
      refine ⟨m, v, rfl, hi, Ext.refl _ _, hm, hr, ?_⟩
      intro x hx w hw; rw [hx] at hw; simp at hw
    | none =>
      have hfi := fresh_inv hs hi hu hm
      have hfm : (m.fresh u).memo.get? u = some m.next := by simp [Mem.fresh, Dict.get?_set]
      have hnew : ∀ x, m.memo.get? x = none → ∀ w, (m.fresh u).memo.get? x = some w → x = u := by
        intro x hx w hw
        simp only [Mem.fresh, Dict.get?_set] at hw
        split at hw
        · rename_i h; exact h.symm
        · rw [hx] at hw; simp at hw
      have hold := hi.old u hu
      have hfr : Ready alive rank m0 (m.fresh u) (rank u) := by
        intro x hx w hw
        cases hxm : m.memo.get? x with
        | none => have := hnew x hxm w hw; subst this; omega
        | some w0 =>
          have : w0 = w := by have := (fresh_ext hm (fun _ => False)).memo _ _ hxm; rw [hw] at this; simpa using this.symm
          subst this
          exact (hr x (by omega) w0 hxm).ext hi (fresh_ext hm (fun _ => False)) (fun h => h)
      simp only [hold.1]
      split
      · rename_i hk'
        left
        refine ⟨m.fresh u, m.next, rfl, hfi, fresh_ext hm _, hfm, ?_, ?_⟩
        · intro x hx w hw
          by_cases hxu : x = u
          · subst hxu
            have hw' : w = m.next := by rw [hfm] at hw; simpa using hw.symm
            subst hw'
            have hch := hs.wf.leaf x hk'
            have hl := hs.lists x hk'
            refine ⟨hfm, ?_, ?_, ?_, ?_⟩
            · rw [hch]; simp [Mem.fresh]
            · rw [hch]; simp
            · rw [hl.1]; simp [Mem.fresh, pure, Except.pure]
            · rw [hl.2]; simp [Mem.fresh, pure, Except.pure]
          · have hxm : m.memo.get? x = some w := by
              simp only [Mem.fresh, Dict.get?_set] at hw
              rwa [if_neg (fun h => hxu h.symm)] at hw
            exact (hr x hx w hxm).ext hi (fresh_ext hm (fun _ => False)) (fun h => h)
        · intro x hx w hw
          have := hnew x hx w hw
          subst this
          exact .self _
      · rename_i hk'
        have hspec := copyAll_spec hs k ih u m.next hu (m0.heap u).children [] (m.fresh u) (by simp)
          (fun c hc => by have := hs.wf.acyclic u c hc; omega) hfi hfm hfr (by simp [Mem.fresh]) (by simp)
        rcases hspec with ⟨m1, e1, e2, e3, e4, e5, e6, e7⟩ | ⟨m1, e1, c, hc, hb⟩
        · rw [e1]
          have hold1 := e2.old u hu
          have hum1 : m1.memo.get? u = some m.next := e3.memo _ _ hfm
          have hdisj : (∃ ss, (m0.scheds u).mapM (m1.redirectSched alive) = .ok ss) ∧ (∃ ws, (m0.ws u).mapM (m1.redirectWire alive) = .ok ws) ∨
              (∃ e, (m0.ws u).mapM (m1.redirectWire alive) = .error e ∨ (m0.scheds u).mapM (m1.redirectSched alive) = .error e) := by
            cases h1 : (m0.scheds u).mapM (m1.redirectSched alive) with
            | error e => exact Or.inr ⟨e, Or.inr rfl⟩
            | ok ss =>
              cases h2 : (m0.ws u).mapM (m1.redirectWire alive) with
              | error e => exact Or.inr ⟨e, Or.inl rfl⟩
              | ok ws => exact Or.inl ⟨⟨ss, rfl⟩, ⟨ws, rfl⟩⟩
          simp only [hold1.2.2.1, hold1.2.2.2]
          rcases hdisj with ⟨⟨ss, h1⟩, ⟨ws, h2⟩⟩ | ⟨e, he⟩
          · left
            rw [h1, h2]
            have hExt : Ext (fun _ => False) m (m1.setLists m.next ws ss) := by
              have h0 := (fresh_ext hm (· = m.next)).trans e3
              refine ⟨h0.next, h0.memo, ?_, ?_, h0.parent⟩
              · intro v hv
                obtain ⟨a1, a2, a3, a4, a5⟩ := h0.node v hv
                simp only [Mem.setLists, if_neg (ne_of_lt hv)]
                exact ⟨a1, a2, a3, a4, a5⟩
              · intro v hv _
                exact h0.children v hv (ne_of_lt hv)
            have hInv : Inv m0 (m1.setLists m.next ws ss) := by
              refine ⟨e2.next, ?_, e2.range, e2.inj, e2.same, e2.par⟩
              intro v hv
              have : v ≠ m.next := ne_of_lt (lt_of_lt_of_le hv hi.next)
              simp only [Mem.setLists, if_neg this]
              exact e2.old v hv
            refine ⟨_, _, rfl, hInv, hExt, hum1, ?_, ?_⟩
            · intro x hx w hw
              by_cases hxu : x = u
              · subst hxu
                have hw' : w = m.next := by
                  have hw0 : m1.memo.get? x = some w := hw
                  rw [hum1] at hw0; simpa using hw0.symm
                subst hw'
                refine ⟨hum1, e5, e6, ?_, ?_⟩
                · simp only [Mem.setLists, if_true]
                  exact h2
                · simp only [Mem.setLists, if_true]
                  exact h1
              · have hxr : rank x < rank u ∨ rank x = rank u := by omega
                have hw0 : m1.memo.get? x = some w := hw
                have hwn : w ≠ m.next := fun h => hxu (e2.inj _ _ _ hw0 (h ▸ hum1))
                have hd1 : Done alive m0 m1 x w := by
                  rcases hxr with hxr | hxr
                  · exact e4 x hxr w hw0
                  · -- not new: everything new is strictly below `u`
                    cases hxm : (m.fresh u).memo.get? x with
                    | some w0 =>
                      have hw1 : w0 = w := by have := e3.memo _ _ hxm; rw [hw0] at this; simpa using this.symm
                      subst hw1
                      have hxm' : m.memo.get? x = some w0 := by
                        simp only [Mem.fresh, Dict.get?_set] at hxm
                        rwa [if_neg (fun h => hxu h.symm)] at hxm
                      exact (((hr x hx w0 hxm').ext hi (fresh_ext hm (fun _ => False)) (fun h => h)).ext hfi e3 hwn)
                    | none =>
                      have hun := e7 x hxm w hw0
                      cases hun with
                      | self => exact absurd rfl hxu
                      | into hc hrest =>
                        have := hrest.rank_le hs.wf
                        have := hs.wf.acyclic _ _ hc
                        omega
                refine ⟨hd1.memo, hd1.children, hd1.att, ?_, ?_⟩
                · simp only [Mem.setLists, if_neg hwn]; exact hd1.ws
                · simp only [Mem.setLists, if_neg hwn]; exact hd1.scheds
            · intro x hx w hw
              have hw0 : m1.memo.get? x = some w := hw
              cases hx1 : (m.fresh u).memo.get? x with
              | none => exact e7 x hx1 w hw0
              | some w1 =>
                have := hnew x hx w1 hx1
                subst this
                exact .self _
          · right
            obtain ⟨hk1, a, ha, hbad⟩ := lists_error he
            subst hk1
            have hBad : Bad alive m0 u := by
              refine ⟨u, .self u, a, ha, ?_⟩
              rcases hbad with hbad | hbad
              · exact Or.inl hbad
              · right
                intro hun
                cases hun with
                | self => rw [hum1] at hbad; simp at hbad
                | @into _ c _ hc hrest =>
                  obtain ⟨d, hd, -⟩ := memo_of_map e5 hc
                  have := ready_under hs e4 hrest (hs.wf.acyclic _ _ hc) (by rw [hd]; rfl)
                  rw [hbad] at this
                  simp at this
            rcases he with he | he
            · cases h1 : (m0.scheds u).mapM (m1.redirectSched alive) with
              | error e' =>
                obtain ⟨hk2, -⟩ := lists_error (ws := m0.ws u) (Or.inr h1)
                subst hk2
                exact ⟨m1, rfl, hBad⟩
              | ok ss => rw [he]; exact ⟨m1, rfl, hBad⟩
            · rw [he]; exact ⟨m1, rfl, hBad⟩
        · right
          rw [e1]
          exact ⟨m1, rfl, hb.up hc⟩

end Copy
end Draftsman
