import Verif.Proof.Copy
import Verif.Props.Export
/-
C60, C61: copying groups and blueprints.
-/
namespace Draftsman
namespace Copy
open GHeap

/-- The wire between the images of the ends. -/
def renameWire (f : ℕ → ℕ) (w : Wire) : Wire := ⟨f w.e1, w.t1, f w.e2, w.t2⟩

/-- The schedule for the images of the locomotives. -/
def renameSched (f : ℕ → ℕ) (s : Sched) : Sched := ⟨s.locos.map f, s.rest⟩

/-- `f` takes everything in `u` to a copy of its own: new objects, pairwise different, of the same kind, with the same values, place and id, holding the
copies of what the originals hold, in the same order, and having the copies as parents; the copy of `u` itself has no parent.  All objects that existed
before are unchanged. -/
structure IsCopy (m0 m : Mem) (u : ℕ) (f : ℕ → ℕ) : Prop where
  fresh : ∀ x, Under m0.heap u x → m0.next ≤ f x ∧ f x < m.next
  inj : ∀ x y, Under m0.heap u x → Under m0.heap u y → f x = f y → x = y
  kind : ∀ x, Under m0.heap u x → (m.heap (f x)).kind = (m0.heap x).kind
  pos : ∀ x, Under m0.heap u x → (m.heap (f x)).pos = (m0.heap x).pos
  el : ∀ x, Under m0.heap u x → m.el (f x) = { m0.el x with uid := f x }
  children : ∀ x, Under m0.heap u x → (m.heap (f x)).children = (m0.heap x).children.map f
  parent : ∀ x c, Under m0.heap u x → c ∈ (m0.heap x).children → (m.heap (f c)).parent = some (f x)
  top : (m.heap (f u)).parent = none
  old : ∀ v, v < m0.next → m.heap v = m0.heap v ∧ m.el v = m0.el v ∧ m.ws v = m0.ws v ∧ m.scheds v = m0.scheds v

/-- Where the memo says the copy is. -/
def image (m : Mem) (x : ℕ) : ℕ := (m.memo.get? x).getD 0

theorem image_eq {m : Mem} {x v : ℕ} (h : m.memo.get? x = some v) : image m x = v := by simp [image, h]

theorem inv_start {m0 : Mem} (hm : m0.memo = []) : Inv m0 m0 := by
  refine ⟨le_refl _, fun _ _ => ⟨rfl, rfl, rfl, rfl⟩, ?_, ?_, ?_, ?_⟩ <;> intro u v <;> simp [hm]

theorem isCopy_of {m0 m : Mem} {rank : ℕ → ℕ} (hs : Start m0 rank) (hi : Inv m0 m) {u : ℕ}
    (hall : ∀ x, Under m0.heap u x → ∃ v, m.memo.get? x = some v ∧ (m0.heap x).children.map m.memo.get? = (m.heap v).children.map some ∧
      ∀ c ∈ (m0.heap x).children, ∀ d, m.memo.get? c = some d → (m.heap d).parent.isSome)
    (hnew : ∀ x v, m.memo.get? x = some v → Under m0.heap u x) : IsCopy m0 m u (image m) where
  fresh := fun x hx => by
    obtain ⟨v, hv, -⟩ := hall x hx
    rw [image_eq hv]
    exact (hi.range x v hv).2
  inj := fun x y hx hy h => by
    obtain ⟨v, hv, -⟩ := hall x hx
    obtain ⟨w, hw, -⟩ := hall y hy
    rw [image_eq hv, image_eq hw] at h
    exact hi.inj x y v hv (h ▸ hw)
  kind := fun x hx => by
    obtain ⟨v, hv, -⟩ := hall x hx
    rw [image_eq hv]; exact (hi.same x v hv).1
  pos := fun x hx => by
    obtain ⟨v, hv, -⟩ := hall x hx
    rw [image_eq hv]; exact (hi.same x v hv).2.1
  el := fun x hx => by
    obtain ⟨v, hv, -⟩ := hall x hx
    rw [image_eq hv]; exact (hi.same x v hv).2.2
  children := fun x hx => by
    obtain ⟨v, hv, hc, -⟩ := hall x hx
    rw [image_eq hv]
    have hgen : ∀ (l r : List ℕ), l.map m.memo.get? = r.map some → r = l.map (image m) := by
      intro l
      induction l with
      | nil => intro r h; cases r with
        | nil => rfl
        | cons => simp at h
      | cons a l ih => intro r h; cases r with
        | nil => simp at h
        | cons b r =>
          simp only [List.map_cons, List.cons.injEq] at h ⊢
          exact ⟨(image_eq h.1).symm, ih r h.2⟩
    exact hgen _ _ hc
  parent := fun x c hx hc => by
    obtain ⟨v, hv, hch, hatt⟩ := hall x hx
    obtain ⟨d, hd, -⟩ := memo_of_map hch hc
    obtain ⟨q, hq⟩ := Option.isSome_iff_exists.1 (hatt c hc d hd)
    obtain ⟨p, hp, hpc⟩ := hi.par c d hd q hq
    have : p = x := by
      have h1 := hs.wf.parent x c hc
      have h2 := hs.wf.parent p c hpc
      rw [h1] at h2; simpa using h2.symm
    subst this
    rw [image_eq hd, hq, image_eq hp]
  top := by
    obtain ⟨v, hv, -⟩ := hall u (.self u)
    rw [image_eq hv]
    cases hq : (m.heap v).parent with
    | none => rfl
    | some q =>
      obtain ⟨p, hp, hpc⟩ := hi.par u v hv q hq
      have h1 := (hnew p q hp).rank_le hs.wf
      have h2 := hs.wf.acyclic p u hpc
      omega
  old := hi.old

theorem redirect_image {alive : ℕ → Bool} {m : Mem} {a b : ℕ} (h : m.redirect alive a = .ok b) : alive a = true ∧ m.memo.get? a = some b := by
  unfold Mem.redirect at h
  split at h
  · rename_i ha
    cases hm : m.memo.get? a with
    | none => rw [hm] at h; simp at h
    | some w => rw [hm] at h; simp at h; exact ⟨ha, by rw [h]⟩
  · simp at h

theorem forall₂_eq_map {α β : Type} {R : α → β → Prop} {g : α → β} (h : ∀ a b, R a b → b = g a) {l : List α} {r : List β}
    (hf : List.Forall₂ R l r) : r = l.map g := by
  induction hf with
  | nil => rfl
  | cons hab _ ih => rw [List.map_cons, ← h _ _ hab, ← ih]

theorem wires_image {alive : ℕ → Bool} {m : Mem} {ws ws' : List Wire} (h : ws.mapM (m.redirectWire alive) = .ok ws') :
    ws' = ws.map (renameWire (image m)) := by
  rw [mapM_ok_iff] at h
  refine forall₂_eq_map ?_ h
  intro w w' hw
  obtain ⟨h1, h2, h3, h4⟩ := redirectWire_ok.1 hw
  have e1 := image_eq (redirect_image h1).2
  have e2 := image_eq (redirect_image h2).2
  cases w'
  simp only at e1 e2 h3 h4
  simp [renameWire, e1, e2, h3, h4]

theorem scheds_image {alive : ℕ → Bool} {m : Mem} {ss ss' : List Sched} (h : ss.mapM (m.redirectSched alive) = .ok ss') :
    ss' = ss.map (renameSched (image m)) := by
  rw [mapM_ok_iff] at h
  refine forall₂_eq_map ?_ h
  intro s s' hs
  obtain ⟨h1, h2⟩ := redirectSched_ok.1 hs
  rw [mapM_ok_iff] at h1
  have := forall₂_eq_map (g := image m) (fun a b hab => (image_eq (redirect_image hab).2).symm) h1
  cases s'
  simp only at this h2
  simp [renameSched, this, h2]

/-- C60: a group that refers only to live objects inside it, as do the groups in it, is copied: all its contents, at whatever depth, with wires and
schedules that join the copies as the originals are joined. -/
theorem C60_copy (alive : ℕ → Bool) (m0 : Mem) (rank : ℕ → ℕ) (hs : Start m0 rank) (u k : ℕ) (hu : u < m0.next) (hk : rank u < k)
    (hin : ∀ x, Under m0.heap u x → ∀ a ∈ refs m0 x, alive a = true ∧ Under m0.heap x a) :
    ∃ m f, copyGroup alive k m0 u = (m, .ok (f u)) ∧ IsCopy m0 m u f ∧
      ∀ x, Under m0.heap u x → m.ws (f x) = (m0.ws x).map (renameWire f) ∧ m.scheds (f x) = (m0.scheds x).map (renameSched f) := by
  have hs' : Start { m0 with memo := [] } rank := ⟨hs.wf, hs.bound, hs.lists⟩
  rcases copyObj_spec (alive := alive) hs' k { m0 with memo := [] } u (inv_start rfl) hu hk (by intro x _ v hv; simp at hv)
    with ⟨m, v, h1, ha⟩ | ⟨m, h1, x, hx, a, har, hbad⟩
  · have hall : ∀ x, Under m0.heap u x → ∃ w, Done alive { m0 with memo := [] } m x w := by
      intro x hx
      have := ready_under hs' ha.ready hx (Nat.lt_succ_self _) (by rw [ha.memo]; rfl)
      obtain ⟨w, hw⟩ := Option.isSome_iff_exists.1 this
      exact ⟨w, ha.ready x (Nat.lt_succ_of_le (hx.rank_le hs.wf)) w hw⟩
    refine ⟨m, image m, ?_, ?_, ?_⟩
    · rw [image_eq ha.memo]; exact h1
    · have := isCopy_of hs' ha.inv (u := u) (fun x hx => by
        obtain ⟨w, hw⟩ := hall x hx
        exact ⟨w, hw.memo, hw.children, hw.att⟩) (fun x w hw => ha.new x (by simp) w hw)
      exact ⟨this.fresh, this.inj, this.kind, this.pos, this.el, this.children, this.parent, this.top, this.old⟩
    · intro x hx
      obtain ⟨w, hw⟩ := hall x hx
      rw [image_eq hw.memo]
      exact ⟨wires_image hw.ws, scheds_image hw.scheds⟩
  · obtain ⟨h2, h3⟩ := hin x hx a har
    rcases hbad with hb | hb
    · rw [h2] at hb; simp at hb
    · exact absurd h3 hb

/-- C60: when the group, or a group in it, refers to something dead or not inside the group being copied, copying raises `KeyError`. -/
theorem C60_outside (alive : ℕ → Bool) (m0 : Mem) (rank : ℕ → ℕ) (hs : Start m0 rank) (u k : ℕ) (hu : u < m0.next) (hk : rank u < k)
    (x a : ℕ) (hx : Under m0.heap u x) (ha : a ∈ refs m0 x) (hbad : alive a = false ∨ ¬ Under m0.heap u a) :
    ∃ m, copyGroup alive k m0 u = (m, .error .keyError) := by
  have hs' : Start { m0 with memo := [] } rank := ⟨hs.wf, hs.bound, hs.lists⟩
  rcases copyObj_spec (alive := alive) hs' k { m0 with memo := [] } u (inv_start rfl) hu hk (by intro x _ v hv; simp at hv)
    with ⟨m, v, h1, haf⟩ | ⟨m, h1, -⟩
  · exfalso
    have := ready_under hs' haf.ready hx (Nat.lt_succ_self _) (by rw [haf.memo]; rfl)
    obtain ⟨w, hw⟩ := Option.isSome_iff_exists.1 this
    have hd := haf.ready x (Nat.lt_succ_of_le (hx.rank_le hs.wf)) w hw
    have hred : ∃ b, m.redirect alive a = .ok b := by
      rcases List.mem_append.1 ha with h | h
      · obtain ⟨w', hw', he⟩ := List.mem_flatMap.1 h
        have hws := (mapM_ok_iff _ _ _).1 hd.ws
        obtain ⟨i, hi, rfl⟩ := List.getElem_of_mem hw'
        have hi' := hws.length_eq ▸ hi
        have := redirectWire_ok.1 ((List.forall₂_iff_get.1 hws).2 i hi hi')
        simp only [List.mem_cons, List.not_mem_nil, or_false] at he
        rcases he with rfl | rfl
        · exact ⟨_, this.1⟩
        · exact ⟨_, this.2.1⟩
      · obtain ⟨s', hs'', he⟩ := List.mem_flatMap.1 h
        have hss := (mapM_ok_iff _ _ _).1 hd.scheds
        obtain ⟨i, hi, rfl⟩ := List.getElem_of_mem hs''
        have hi' := hss.length_eq ▸ hi
        have h5 := (mapM_ok_iff _ _ _).1 (redirectSched_ok.1 ((List.forall₂_iff_get.1 hss).2 i hi hi')).1
        obtain ⟨j, hj, rfl⟩ := List.getElem_of_mem he
        have hj' := h5.length_eq ▸ hj
        exact ⟨_, (List.forall₂_iff_get.1 h5).2 j hj hj'⟩
    obtain ⟨b, hb⟩ := hred
    obtain ⟨h5, h6⟩ := redirect_image hb
    rcases hbad with hbad | hbad
    · rw [h5] at hbad; simp at hbad
    · exact hbad (haf.new a (by simp) b h6)
  · exact ⟨m, h1⟩

/-- The objects of `C29_heap` with a wire and a schedule inside group 2. -/
def C60_mem : Mem where
  heap := C29_heap
  next := 5
  el := fun u => ⟨u, none, if u = 1 ∨ u = 4 then some u else none⟩
  ws := fun g => if g = 2 then [⟨4, 1, 4, 3⟩] else []
  scheds := fun g => if g = 3 then [⟨[4], 7⟩] else []
  memo := []

theorem C60_mem_start (m : Mem) (hh : m.heap = C29_heap) (hn : m.next = 5) (hw : ∀ u, u ∉ [0, 2, 3] → m.ws u = [] ∧ m.scheds u = []) :
    Start m (fun u => 10 - u) := by
  refine ⟨hh ▸ C29_heap_wf, ?_, ?_⟩
  · intro c u _ hu
    rw [hh] at hu
    unfold C29_heap at hu
    rw [hn]
    split at hu <;> simp at hu <;> omega
  · intro u hk
    refine hw u ?_
    intro hu
    simp only [List.mem_cons, List.not_mem_nil, or_false] at hu
    rw [hh] at hk
    rcases hu with rfl | rfl | rfl <;> simp [C29_heap] at hk

theorem C29_under {x y : ℕ} (h : Under C29_heap x y) : y = x ∨ (x = 0 ∧ (y = 1 ∨ y = 2 ∨ y = 3 ∨ y = 4)) ∨ (x = 2 ∧ (y = 3 ∨ y = 4)) ∨ (x = 3 ∧ y = 4) := by
  induction h with
  | self => exact Or.inl rfl
  | @into x c y hc _ ih =>
    unfold C29_heap at hc
    split at hc <;> simp at hc <;> omega

/-- The hypotheses of `C60_copy` hold of group 2 of `C60_mem`, and what comes out: the copy is 5, its group 6, its entity 7. -/
example : Start C60_mem (fun u => 10 - u) ∧ (∀ x, Under C60_mem.heap 2 x → ∀ a ∈ refs C60_mem x, a = 4 ∧ Under C60_mem.heap x a) ∧
    (copyGroup (fun _ => true) 9 C60_mem 2).2 = .ok 5 ∧ (copyGroup (fun _ => true) 9 C60_mem 2).1.ws 5 = [⟨7, 1, 7, 3⟩] ∧
    (copyGroup (fun _ => true) 9 C60_mem 2).1.scheds 6 = [⟨[7], 7⟩] ∧ ((copyGroup (fun _ => true) 9 C60_mem 2).1.heap 7).parent = some 6 := by
  refine ⟨C60_mem_start _ rfl rfl ?_, ?_, by decide +kernel, by decide +kernel, by decide +kernel, by decide +kernel⟩
  · intro u hu
    simp only [List.mem_cons, List.not_mem_nil, or_false, not_or] at hu
    simp [C60_mem, hu]
  · intro x hx a ha
    have h4 : Under C29_heap 3 4 := .into (by decide) (.self 4)
    rcases C29_under hx with rfl | ⟨h, -⟩ | ⟨-, rfl | rfl⟩ | ⟨h, -⟩
    · have : a = 4 := by simpa [refs, C60_mem] using ha
      exact ⟨this, this ▸ .into (c := 3) (by decide) h4⟩
    · omega
    · have : a = 4 := by simpa [refs, C60_mem] using ha
      exact ⟨this, this ▸ h4⟩
    · simp [refs, C60_mem] at ha
    · omega

/-- The hypotheses of `C60_outside` hold when a wire of the inner group goes to entity 1. -/
example : Start { C60_mem with ws := fun g => if g = 3 then [⟨4, 1, 1, 1⟩] else [] } (fun u => 10 - u) ∧ Under C60_mem.heap 2 3 ∧
    1 ∈ refs { C60_mem with ws := fun g => if g = 3 then [⟨4, 1, 1, 1⟩] else [] } 3 ∧ ¬ Under C60_mem.heap 2 1 := by
  refine ⟨C60_mem_start _ rfl rfl ?_, .into (by decide) (.self 3), by decide, ?_⟩
  · intro u hu
    simp only [List.mem_cons, List.not_mem_nil, or_false, not_or] at hu
    simp [C60_mem, hu]
  · intro h
    rcases C29_under h with h | h | h | h <;> omega

/-- C60 fails for wires to entities outside the group: they are documented to be left out, but copying raises `KeyError`. -/
theorem C60_dropped_refuted :
    ¬ ∀ (m0 : Mem) (rank : ℕ → ℕ) (u : ℕ), Start m0 rank → u < m0.next → ∃ k m v, copyGroup (fun _ => true) k m0 u = (m, .ok v) := by
  intro h
  obtain ⟨k, m, v, hk⟩ := h { C60_mem with ws := fun g => if g = 2 then [⟨4, 1, 1, 1⟩] else [] } (fun u => 10 - u) 2
    (C60_mem_start _ rfl rfl (by
      intro u hu
      simp only [List.mem_cons, List.not_mem_nil, or_false, not_or] at hu
      simp [C60_mem, hu])) (by decide)
  rcases k with _ | _ | _ | k
  · simp [copyGroup, copyObj] at hk
  · simp [copyGroup, copyObj, copyAll, C60_mem, C29_heap, Mem.fresh, Dict.get?, Dict.set] at hk
  · simp [copyGroup, copyObj, copyAll, C60_mem, C29_heap, Mem.fresh, Dict.get?, Dict.set] at hk
  · have := congrArg Prod.snd hk
    simp [copyGroup, copyObj, copyAll, C60_mem, C29_heap, Mem.fresh, Dict.get?, Dict.set, Mem.attach, Mem.redirectWire, Mem.redirect,
      Mem.redirectSched, Mem.setLists, bind, Except.bind, pure, Except.pure] at this

/-- A group (0) with an entity (1) and a group (2) holding an entity (3), in the order given; the inner group has a wire from 3 to 1. -/
def C60_pair (order : List ℕ) : Mem where
  heap := fun u => match u with
    | 0 => ⟨.group, 0, none, order⟩
    | 1 => ⟨.entity, ⟨7, 7⟩, some 0, []⟩
    | 2 => ⟨.group, 0, some 0, [3]⟩
    | 3 => ⟨.entity, ⟨1, 1⟩, some 2, []⟩
    | _ => ⟨.entity, 0, none, []⟩
  next := 4
  el := fun u => ⟨u, none, some u⟩
  ws := fun g => if g = 2 then [⟨3, 1, 1, 1⟩] else []
  scheds := fun _ => []
  memo := []

/-- C60 fails for a wire of an inner group to an entity of the outer one: whether the outer group can be copied depends on the order of its members. -/
theorem C60_order_refuted : (copyGroup (fun _ => true) 9 (C60_pair [1, 2]) 0).2 = .ok 4 ∧
    (copyGroup (fun _ => true) 9 (C60_pair [2, 1]) 0).2 = .error .keyError := by
  constructor <;> decide +kernel

/-! ## Blueprints -/

theorem copyBlueprint_spec (alive : ℕ → Bool) (m0 : Mem) (rank : ℕ → ℕ) (hs : Start m0 rank) (u k : ℕ) (hu : u < m0.next) (hk : rank u ≤ k)
    (hin : ∀ x, Under m0.heap u x → x ≠ u → ∀ a ∈ refs m0 x, alive a = true ∧ Under m0.heap x a) :
    ∃ m f, copyBlueprint alive k m0 u = (m, .ok (f u)) ∧ IsCopy m0 m u f ∧ m.ws (f u) = m0.ws u ∧ m.scheds (f u) = m0.scheds u ∧
      ∀ x, Under m0.heap u x → x ≠ u → m.ws (f x) = (m0.ws x).map (renameWire f) ∧ m.scheds (f x) = (m0.scheds x).map (renameSched f) := by
  have hs' : Start { m0 with memo := [] } rank := ⟨hs.wf, hs.bound, hs.lists⟩
  have hi0 : Inv { m0 with memo := [] } { m0 with memo := [] } := inv_start rfl
  have hfm : (({ m0 with memo := [] } : Mem).fresh u).memo.get? u = some m0.next := by simp [Mem.fresh, Dict.get?_set]
  have hone : ∀ x v, (({ m0 with memo := [] } : Mem).fresh u).memo.get? x = some v → x = u := by
    intro x v h
    simp only [Mem.fresh, Dict.get?_set] at h
    split at h
    · rename_i h'; exact h'.symm
    · simp at h
  have hspec := copyAll_spec (alive := alive) hs' k (fun m u => copyObj_spec hs' k m u) u m0.next hu (m0.heap u).children []
    (({ m0 with memo := [] } : Mem).fresh u) (by simp) (fun c hc => by have := hs.wf.acyclic u c hc; omega)
    (fresh_inv hs' hi0 hu rfl) hfm (by intro x hx v hv; have := hone x v hv; subst this; omega) (by simp [Mem.fresh]) (by simp)
  rcases hspec with ⟨m1, e1, e2, e3, e4, e5, e6, e7⟩ | ⟨m1, e1, c, hc, x, hx, a, har, hbad⟩
  · have hum : m1.memo.get? u = some m0.next := e3.memo _ _ hfm
    have hall : ∀ x, Under m0.heap u x → x ≠ u → ∃ w, Done alive { m0 with memo := [] } m1 x w := by
      intro x hx hxu
      cases hx with
      | self => exact absurd rfl hxu
      | @into _ c _ hc hrest =>
        obtain ⟨d, hd, -⟩ := memo_of_map e5 hc
        have hcr := hs.wf.acyclic _ _ hc
        have := ready_under hs' e4 hrest hcr (by rw [hd]; rfl)
        obtain ⟨w, hw⟩ := Option.isSome_iff_exists.1 this
        exact ⟨w, e4 x (lt_of_le_of_lt (hrest.rank_le hs.wf) hcr) w hw⟩
    have hun : ∀ x v, m1.memo.get? x = some v → Under m0.heap u x := by
      intro x v hxv
      cases hx0 : (({ m0 with memo := [] } : Mem).fresh u).memo.get? x with
      | none => exact e7 x hx0 v hxv
      | some w => have := hone x w hx0; subst this; exact .self _
    have hold := e2.old u hu
    refine ⟨m1.setLists m0.next (m1.ws u) (m1.scheds u), image m1, ?_, ?_, ?_, ?_, ?_⟩
    · unfold copyBlueprint
      simp only
      have e1' : copyAll (copyObj alive k) m0.next (({ m0 with memo := [] } : Mem).fresh u) (m0.heap u).children = (m1, none) := e1
      rw [e1']
      simp only [image_eq hum]
    · have := isCopy_of hs' e2 (u := u) (fun x hx => by
        by_cases hxu : x = u
        · subst hxu; exact ⟨_, hum, e5, e6⟩
        · obtain ⟨w, hw⟩ := hall x hx hxu
          exact ⟨w, hw.memo, hw.children, hw.att⟩) hun
      refine ⟨this.fresh, this.inj, this.kind, this.pos, this.el, this.children, this.parent, this.top, ?_⟩
      intro v hv
      have hvn : v ≠ m0.next := ne_of_lt hv
      simp only [Mem.setLists, if_neg hvn]
      exact this.old v hv
    · rw [image_eq hum]; simp [Mem.setLists, hold.2.2.1]
    · rw [image_eq hum]; simp [Mem.setLists, hold.2.2.2]
    · intro x hx hxu
      obtain ⟨w, hw⟩ := hall x hx hxu
      have hwn : w ≠ m0.next := fun h => hxu (e2.inj _ _ _ hw.memo (h ▸ hum))
      rw [image_eq hw.memo]
      simp only [Mem.setLists, if_neg hwn]
      exact ⟨wires_image hw.ws, scheds_image hw.scheds⟩
  · exfalso
    have hxu : x ≠ u := by
      rintro rfl
      have h1 := hx.rank_le hs.wf
      have h2 := hs.wf.acyclic _ _ hc
      omega
    obtain ⟨h2, h3⟩ := hin x (.into hc hx) hxu a har
    rcases hbad with hb | hb
    · rw [h2] at hb; simp at hb
    · exact hb h3

theorem flatten_under {h : GHeap} {u : ℕ} : ∀ (n : ℕ) (us : List ℕ), (∀ x ∈ us, Under h u x) → ∀ y ∈ h.flatten n us, Under h u y := by
  intro n
  induction n with
  | zero => intro us _ y hy; simp [GHeap.flatten] at hy
  | succ n ih =>
    intro us hus y hy
    simp only [GHeap.flatten, List.mem_flatMap] at hy
    obtain ⟨x, hx, hy⟩ := hy
    split at hy
    · simp only [List.mem_singleton] at hy; subst hy; exact hus y hx
    · exact ih _ (ih _ (fun c hc => (hus x hx).trans (.into hc (.self c)))) y hy

theorem flatten_copy {m0 m : Mem} {u : ℕ} {f : ℕ → ℕ} (hc : IsCopy m0 m u f) : ∀ (n : ℕ) (us : List ℕ), (∀ x ∈ us, Under m0.heap u x) →
    m.heap.flatten n (us.map f) = (m0.heap.flatten n us).map f := by
  intro n
  induction n with
  | zero => intro us _; rfl
  | succ n ih =>
    intro us hus
    simp only [GHeap.flatten, List.flatMap_map, List.map_flatMap]
    apply List.flatMap_congr
    intro x hx
    have hux := hus x hx
    have hch : ∀ c ∈ (m0.heap x).children, Under m0.heap u c := fun c hc => hux.trans (.into hc (.self c))
    simp only [hc.kind x hux]
    split
    · rfl
    · rw [hc.children x hux, ih _ hch, ih _ (flatten_under n _ hch)]

theorem flatWires_copy {m0 m : Mem} {u : ℕ} {f : ℕ → ℕ} (hc : IsCopy m0 m u f) (hw : ∀ x, Under m0.heap u x → x ≠ u → m.ws (f x) = (m0.ws x).map (renameWire f))
    {rank : ℕ → ℕ} (hwf : Wf m0.heap rank) : ∀ (n : ℕ) (us : List ℕ), (∀ x ∈ us, Under m0.heap u x ∧ rank x < rank u) →
    Bp.flatWires m.heap m.ws n (us.map f) = (Bp.flatWires m0.heap m0.ws n us).map (renameWire f) := by
  intro n
  induction n with
  | zero => intro us _; rfl
  | succ n ih =>
    intro us hus
    simp only [Bp.flatWires, List.flatMap_map, List.map_flatMap]
    apply List.flatMap_congr
    intro x hx
    obtain ⟨hux, hr⟩ := hus x hx
    simp only [hc.kind x hux]
    split
    · rfl
    · rw [hc.children x hux, ih _ (fun c hc => ⟨hux.trans (.into hc (.self c)), lt_trans (hwf.acyclic _ _ hc) hr⟩), List.map_append,
        hw x hux (by rintro rfl; omega)]

theorem globalPos_copy {m0 m : Mem} {u : ℕ} {f : ℕ → ℕ} (hc : IsCopy m0 m u f) {rank : ℕ → ℕ} (hwf : Wf m0.heap rank)
    (hb : (m0.heap u).kind = .blueprint) : ∀ (n x : ℕ), Under m0.heap u x → x ≠ u → m.heap.globalPos n (f x) = m0.heap.globalPos n x := by
  have hlast : ∀ {a b : ℕ}, Under m0.heap a b → b ≠ a → ∃ p, Under m0.heap a p ∧ b ∈ (m0.heap p).children := by
    intro a b h
    induction h with
    | self => intro h; exact absurd rfl h
    | @into x c y hc _ ih =>
      intro _
      by_cases hy : y = c
      · subst hy; exact ⟨x, .self x, hc⟩
      · obtain ⟨p, hp, hpc⟩ := ih hy
        exact ⟨p, .into hc hp, hpc⟩
  intro n
  induction n with
  | zero => intro x hx _; exact hc.pos x hx
  | succ n ih =>
    intro x hx hxu
    obtain ⟨p, hp, hpx⟩ := hlast hx hxu
    have h1 := hwf.parent p x hpx
    have h2 := hc.parent p x hp hpx
    simp only [GHeap.globalPos, h1, h2, hc.kind p hp, hc.pos x hx]
    split
    · rfl
    · rename_i hk
      rw [ih p hp (by rintro rfl; exact hk hb)]

/-- The exported dictionary when object `u` is called `f u`. -/
def renameExported (f : ℕ → ℕ) (x : Exported) : Exported :=
  { x with entities := x.entities.map (List.map fun t => (t.1, f t.2.1, t.2.2)) }

theorem findIdx?_map_congr {α β : Type} {p : β → Bool} {q : α → Bool} {g : α → β} : ∀ {l : List α}, (∀ a ∈ l, p (g a) = q a) →
    (l.map g).findIdx? p = l.findIdx? q := by
  intro l
  induction l with
  | nil => intro _; rfl
  | cons a l ih =>
    intro h
    rw [List.map_cons, List.findIdx?_cons, List.findIdx?_cons, h a List.mem_cons_self, ih (fun b hb => h b (List.mem_cons_of_mem _ hb))]

theorem orOmit_map {α β : Type} (g : α → β) (l : List α) : Bp.orOmit (l.map g) = (Bp.orOmit l).map (List.map g) := by
  unfold Bp.orOmit
  cases l <;> simp

/-- What copying a blueprint asks for: sound containment; every object in it exists (has a number below `next`); entities have no wires or schedules of their
own and are compared by content; groups in it refer to live objects inside themselves; the wires and schedules of the blueprint refer to existing objects. -/
structure Copyable (b : Bp) (next : ℕ) : Prop where
  wf : ∃ rank, Wf b.heap rank ∧ rank b.root ≤ b.depth
  root : b.root < next ∧ (b.heap b.root).kind = .blueprint
  bound : ∀ c u, c < next → u ∈ (b.heap c).children → u < next
  lists : ∀ u, (b.heap u).kind = .entity → b.ws u = [] ∧ b.scheds u = []
  uid : ∀ u, (b.el u).uid = u
  key : ∀ u, (b.heap u).kind = .entity → (b.el u).key.isSome
  inner : ∀ x, Under b.heap b.root x → x ≠ b.root → ∀ a ∈ refs ⟨b.heap, next, b.el, b.ws, b.scheds, []⟩ x, b.alive a = true ∧ Under b.heap x a
  outer : ∀ a ∈ refs ⟨b.heap, next, b.el, b.ws, b.scheds, []⟩ b.root, a < next

theorem Under.lt {m0 : Mem} {rank : ℕ → ℕ} (hs : Start m0 rank) {x y : ℕ} (h : Under m0.heap x y) : x < m0.next → y < m0.next := by
  induction h with
  | self => exact fun h => h
  | into hc _ ih => exact fun h => ih (hs.bound _ _ h hc)

theorem flatWires_mem {h : GHeap} {ws : ℕ → List Wire} {u : ℕ} {w : Wire} : ∀ (n : ℕ) (us : List ℕ), (∀ x ∈ us, Under h u x) →
    w ∈ Bp.flatWires h ws n us → ∃ c, c ∈ us ∧ ∃ x, Under h c x ∧ w ∈ ws x := by
  intro n
  induction n with
  | zero => intro us _ hw; simp [Bp.flatWires] at hw
  | succ n ih =>
    intro us hus hw
    simp only [Bp.flatWires, List.mem_flatMap] at hw
    obtain ⟨x, hx, hw⟩ := hw
    split at hw
    · simp at hw
    · rcases List.mem_append.1 hw with hw | hw
      · exact ⟨x, hx, x, .self x, hw⟩
      · obtain ⟨c, hc, y, hy, hwy⟩ := ih _ (fun c hc => (hus x hx).trans (.into hc (.self c))) hw
        exact ⟨x, hx, y, .into hc hy, hwy⟩

theorem mapM_congr {α β : Type} {g h : α → Except PyErr β} : ∀ {l : List α}, (∀ a ∈ l, g a = h a) → l.mapM g = l.mapM h := by
  intro l
  induction l with
  | nil => intro _; rfl
  | cons a l ih =>
    intro hh
    rw [List.mapM_cons, List.mapM_cons, hh a List.mem_cons_self, ih (fun b hb => hh b (List.mem_cons_of_mem _ hb))]

/-- C61: copying a blueprint copies all its contents, at whatever depth, leaves the originals as they were, and the copy exports the same dictionary (or
raises the same exception), with each entity replaced by its copy.  Missing: the wires and schedules of the copy do not join its own entities, see
`C61_wires_refuted`; and the dictionary stays the same only as long as neither blueprint is changed, see `C61_moved_refuted`. -/
theorem C61_copy_partial (b : Bp) (next : ℕ) (hb : Copyable b next) :
    ∃ c f, copyBp b next = .ok c ∧ c.root = f b.root ∧
      (∃ top, IsCopy ⟨b.heap, next, b.el, b.ws, b.scheds, []⟩ ⟨c.heap, top, c.el, c.ws, c.scheds, []⟩ b.root f) ∧
      c.toDict = b.toDict.map (renameExported f) := by
  obtain ⟨rank, hwf, hrank⟩ := hb.wf
  have hs : Start ⟨b.heap, next, b.el, b.ws, b.scheds, []⟩ rank := ⟨hwf, hb.bound, hb.lists⟩
  obtain ⟨m, f, h1, hc, hw, hss, hin⟩ := copyBlueprint_spec b.alive ⟨b.heap, next, b.el, b.ws, b.scheds, []⟩ rank hs b.root b.depth hb.root.1 hrank hb.inner
  have hcp : copyBp b next = .ok { b with heap := m.heap, root := f b.root, el := m.el, ws := m.ws, scheds := m.scheds, alive := fun v => if v < next then b.alive v else true } := by
    unfold copyBp
    rw [h1]
  refine ⟨_, f, hcp, rfl, ⟨m.next, ⟨hc.fresh, hc.inj, hc.kind, hc.pos, hc.el, hc.children, hc.parent, hc.top, hc.old⟩⟩, ?_⟩
  have hchild : ∀ x ∈ (b.heap b.root).children, Under b.heap b.root x := fun x hx => .into hx (.self x)
  have hflat : ∀ x ∈ b.flat, Under b.heap b.root x ∧ x ≠ b.root ∧ (b.heap x).kind = .entity := by
    intro x hx
    refine ⟨flatten_under _ _ hchild x hx, ?_, flatten_entities_only _ _ _ x hx⟩
    rintro rfl
    have := flatten_entities_only _ _ _ _ hx
    rw [hb.root.2] at this
    simp at this
  generalize hcd : ({ b with heap := m.heap, root := f b.root, el := m.el, ws := m.ws, scheds := m.scheds, alive := fun v => if v < next then b.alive v else true } : Bp) = c
  have cheap : c.heap = m.heap := by rw [← hcd]
  have cel : c.el = m.el := by rw [← hcd]
  have cflat : c.flat = b.flat.map f := by
    rw [← hcd]
    simp only [Bp.flat]
    rw [hc.children _ (.self _)]
    exact flatten_copy hc _ _ hchild
  have cwires : c.allWires = b.ws b.root ++ (Bp.flatWires b.heap b.ws b.depth (b.heap b.root).children).map (renameWire f) := by
    rw [← hcd]
    simp only [Bp.allWires]
    rw [hw, hc.children _ (.self _)]
    congr 1
    exact flatWires_copy hc (fun x hx hxu => (hin x hx hxu).1) hwf _ _ (fun x hx => ⟨hchild x hx, hwf.acyclic _ _ hx⟩)
  -- numbers of the originals
  have num1 : ∀ a, a < next → c.number a = b.number a := by
    intro a ha
    simp only [Bp.number, cflat]
    rw [findIdx?_map_congr]
    intro v hv
    obtain ⟨h2, h3, h4⟩ := hflat v hv
    have h5 := hc.fresh v h2
    have e1 : c.el (f v) = { b.el v with uid := f v } := by rw [cel]; exact hc.el v h2
    have e2 : c.el a = b.el a := by rw [cel]; exact (hc.old a ha).2.1
    rw [e1, e2]
    have hk := hb.key v h4
    have hne : f v ≠ a := by have := h5.1; simp only at this; omega
    simp only [EL.eqv, hb.uid, hne, hk, decide_false, Bool.false_or, Bool.true_and]
    by_cases hva : v = a
    · subst hva; simp
    · simp [hva]
  -- numbers of the copies
  have num2 : ∀ a, Under b.heap b.root a → c.number (f a) = b.number a := by
    intro a ha
    simp only [Bp.number, cflat]
    rw [findIdx?_map_congr]
    intro v hv
    obtain ⟨h2, h3, h4⟩ := hflat v hv
    have e1 : c.el (f v) = { b.el v with uid := f v } := by rw [cel]; exact hc.el v h2
    have e2 : c.el (f a) = { b.el a with uid := f a } := by rw [cel]; exact hc.el a ha
    rw [e1, e2]
    have : f v = f a ↔ v = a := ⟨hc.inj v a h2 ha, fun h => by rw [h]⟩
    simp only [EL.eqv, hb.uid, this]
  have cal1 : ∀ a, a < next → c.alive a = b.alive a := by
    intro a ha; rw [← hcd]; simp [ha]
  have cal2 : ∀ a, Under b.heap b.root a → c.alive (f a) = true := by
    intro a ha
    have := (hc.fresh a ha).1
    simp only at this
    rw [← hcd]
    simp only
    rw [if_neg (by omega)]
  have ends1 : ∀ a, a < next → c.expEnd a = b.expEnd a := by
    intro a ha; simp only [Bp.expEnd, cal1 a ha, num1 a ha]
  have ends2 : ∀ a, Under b.heap b.root a → b.alive a = true → c.expEnd (f a) = b.expEnd a := by
    intro a ha hal; simp only [Bp.expEnd, cal2 a ha, hal, num2 a ha]
  have hwires : c.allWires.mapM c.expWire = b.allWires.mapM b.expWire := by
    have hgen : ∀ (l : List Wire) (g : Wire → Wire), (∀ w ∈ l, c.expWire (g w) = b.expWire w) → (l.map g).mapM c.expWire = l.mapM b.expWire := by
      intro l g
      induction l with
      | nil => intro _; rfl
      | cons w l ih =>
        intro h
        rw [List.map_cons, List.mapM_cons, List.mapM_cons, h w List.mem_cons_self, ih (fun w hw => h w (List.mem_cons_of_mem _ hw))]
    have e1 : (b.ws b.root).mapM c.expWire = (b.ws b.root).mapM b.expWire := by
      have := hgen (b.ws b.root) id (by
        intro w hw
        have hlt : ∀ a ∈ [w.e1, w.e2], a < next := fun a ha => hb.outer a (List.mem_append_left _ (List.mem_flatMap.2 ⟨w, hw, ha⟩))
        simp only [id, Bp.expWire, ends1 _ (hlt w.e1 (by simp)), ends1 _ (hlt w.e2 (by simp))])
      simpa using this
    have e2 := hgen (Bp.flatWires b.heap b.ws b.depth (b.heap b.root).children) (renameWire f) (by
      intro w hw
      obtain ⟨c', hc', x, hx, hwx⟩ := flatWires_mem _ _ hchild hw
      have hux : Under b.heap b.root x := .into hc' hx
      have hxu : x ≠ b.root := by
        rintro rfl
        have h2 := hx.rank_le hwf
        have h3 := hwf.acyclic _ _ hc'
        omega
      have hr : ∀ a ∈ [w.e1, w.e2], b.alive a = true ∧ Under b.heap b.root a := fun a ha => by
        obtain ⟨h2, h3⟩ := hb.inner x hux hxu a (List.mem_append_left _ (List.mem_flatMap.2 ⟨w, hwx, ha⟩))
        exact ⟨h2, hux.trans h3⟩
      obtain ⟨h2, h3⟩ := hr w.e1 (by simp)
      obtain ⟨h4, h5⟩ := hr w.e2 (by simp)
      simp only [Bp.expWire, renameWire, ends2 _ h3 h2, ends2 _ h5 h4])
    rw [cwires, List.mapM_append, e1, e2, ← List.mapM_append]
    rfl
  have hscheds : (c.scheds c.root).mapM c.expSched = (b.scheds b.root).mapM b.expSched := by
    have e0 : c.scheds c.root = b.scheds b.root := by rw [← hcd]; exact hss
    rw [e0]
    apply mapM_congr
    intro s hsm
    have : s.locos.mapM c.expLoco = s.locos.mapM b.expLoco := by
      apply mapM_congr
      intro a ha
      have hlt : a < next := hb.outer a (List.mem_append_right _ (List.mem_flatMap.2 ⟨s, hsm, ha⟩))
      simp only [Bp.expLoco, cal1 a hlt, num1 a hlt]
    simp only [Bp.expSched, this]
  have hents : (c.flat.mapIdx fun i u => (i + 1, u, c.heap.globalPos c.depth u - c.sgp)) =
      (b.flat.mapIdx fun i u => (i + 1, u, b.heap.globalPos b.depth u - b.sgp)).map fun t => (t.1, f t.2.1, t.2.2) := by
    have hd : c.depth = b.depth := by rw [← hcd]
    have hsg : c.sgp = b.sgp := by rw [← hcd]
    rw [cflat, cheap, hd, hsg]
    apply List.ext_getElem
    · simp
    intro i hi1 hi2
    simp only [List.getElem_mapIdx, List.getElem_map]
    have hmem : b.flat[i]'(by simpa using hi1) ∈ b.flat := List.getElem_mem _
    obtain ⟨h2, h3, -⟩ := hflat _ hmem
    have hg := globalPos_copy hc hwf hb.root.2 b.depth _ h2 h3
    rw [hg]
  have ht : c.tiles = b.tiles ∧ c.sgp = b.sgp ∧ c.snap = b.snap ∧ c.rel = b.rel := by rw [← hcd]; exact ⟨rfl, rfl, rfl, rfl⟩
  unfold Bp.toDict
  rw [hwires, hscheds, hents, ht.1, ht.2.1, ht.2.2.1, ht.2.2.2]
  cases (b.scheds b.root).mapM b.expSched with
  | error e => rfl
  | ok ss =>
    cases b.allWires.mapM b.expWire with
    | error e => rfl
    | ok ws =>
      simp only [bind, Except.bind, pure, Except.pure, Except.map, renameExported, orOmit_map]

/-- The blueprint of C32 with a wire in it and one inside its group. -/
def C61_bp : Bp := { C32_bp with ws := fun g => if g = 0 then [⟨4, 1, 1, 1⟩] else if g = 2 then [⟨4, 1, 4, 3⟩] else [] }

theorem C61_bp_ok : Copyable C61_bp 5 := by
  refine ⟨⟨fun u => 10 - u, C29_heap_wf, by decide⟩, ⟨by decide, rfl⟩, ?_, ?_, fun _ => rfl, fun _ _ => rfl, ?_, by decide⟩
  · intro c u _ hu
    have hu' : u ∈ (C29_heap c).children := hu
    unfold C29_heap at hu'
    split at hu' <;> simp at hu' <;> omega
  · intro u hk
    have h0 : u ≠ 0 := by rintro rfl; simp [C61_bp, C32_bp, C29_heap] at hk
    have h2 : u ≠ 2 := by rintro rfl; simp [C61_bp, C32_bp, C29_heap] at hk
    simp [C61_bp, C32_bp, h0, h2]
  · intro x hx hx0 a ha
    refine ⟨rfl, ?_⟩
    have h2 : x = 2 ∧ a = 4 := by
      simp only [refs, C61_bp, C32_bp, List.mem_append] at ha hx0
      by_cases h2 : x = 2
      · subst h2
        simp at ha
        exact ⟨rfl, ha⟩
      · simp [hx0, h2] at ha
    rw [h2.1, h2.2]
    exact .into (c := 3) (by decide) (.into (c := 4) (by decide) (.self 4))

/-- The copy of `C61_bp`: its entities are 6 and 9; its dictionary is that of the original. -/
example : ∃ c, copyBp C61_bp 5 = .ok c ∧ c.flat = [6, 9] ∧ c.ws 7 = [⟨9, 1, 9, 3⟩] ∧
    c.toDict = .ok ⟨some [(1, 6, ⟨6, 5⟩), (2, 9, ⟨10, 4⟩)], some [(1, ⟨2, 2⟩)], some [⟨[2], 7⟩], some [⟨2, 1, 1, 1⟩, ⟨2, 1, 2, 3⟩], none, some ⟨0, 5⟩⟩ :=
  ⟨_, rfl, by decide +kernel, by decide +kernel, by decide +kernel⟩

/-- C61 fails for the wires of the blueprint itself: those of the copy join entities of the original. -/
theorem C61_wires_refuted :
    ∃ b c, Copyable b 5 ∧ b.Closed ∧ copyBp b 5 = .ok c ∧ ∃ w ∈ c.ws c.root, w.e1 ∈ b.flat ∧ w.e1 ∉ c.flat ∧ w.e2 ∈ b.flat ∧ w.e2 ∉ c.flat := by
  refine ⟨C61_bp, _, C61_bp_ok, ⟨?_, C32_bp_ok.2.2.scheds, C32_bp_ok.2.2.used⟩, rfl, ⟨4, 1, 1, 1⟩, by decide +kernel, by decide +kernel, by decide +kernel, by decide +kernel,
    by decide +kernel⟩
  intro g w hg hw
  have m1 : C61_bp.Member 1 := ⟨rfl, [], .here (by decide)⟩
  have m4 : C61_bp.Member 4 := ⟨rfl, [2, 3], .under (by decide) rfl (.under (by decide) rfl (.here (by decide)))⟩
  simp only [C61_bp, C32_bp] at hw
  split at hw
  · simp only [List.mem_singleton] at hw; subst hw; exact ⟨m4, rfl, m1, rfl⟩
  · split at hw
    · simp only [List.mem_singleton] at hw; subst hw; exact ⟨m4, rfl, m4, rfl⟩
    · simp at hw

/-- C61: after moving an entity of the copy (here 6, the copy of 1; its new content is 99), or once the original's entities are gone, the copy can no longer
be exported. -/
theorem C61_moved_refuted :
    ∃ c, copyBp C61_bp 5 = .ok c ∧ (∃ x, c.toDict = .ok x) ∧
      ({ c with el := fun u => if u = 6 then ⟨6, none, some 99⟩ else c.el u } : Bp).toDict = .error .invalidAssociation ∧
      ({ c with scheds := fun _ => [], alive := fun u => decide (5 ≤ u) } : Bp).toDict = .error .invalidAssociation :=
  ⟨_, rfl, ⟨_, rfl⟩, by decide +kernel, by decide +kernel⟩

/-- C61: the copy of a blueprint is not a working blueprint: assigning its label raises `AttributeError`, though it works on the original. -/
theorem C61_label_refuted : assignLabel builtAttrs = .ok () ∧ assignLabel copiedAttrs = .error .attributeError := by
  constructor <;> decide +kernel

end Copy
end Draftsman
