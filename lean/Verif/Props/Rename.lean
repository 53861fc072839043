import Verif.Model.Rename
import Verif.Props.Position
import Verif.Props.Geometry

namespace Draftsman
namespace Rename

/-! ## C93: renaming -/

/-- Specification: how many tiles a box with corners `b` needs along each axis, overridden by the data. -/
def Spans (d : Data) (n : String) (w h : ℕ) : Prop :=
  (match d.width n with
   | some x => w = x
   | none => match d.box n with
     | some (some b) => b.botRight.x - b.topLeft.x ≤ w ∧ ∀ k : ℕ, b.botRight.x - b.topLeft.x ≤ k → w ≤ k
     | _ => w = 0) ∧
  (match d.height n with
   | some y => h = y
   | none => match d.box n with
     | some (some b) => b.botRight.y - b.topLeft.y ≤ h ∧ ∀ k : ℕ, b.botRight.y - b.topLeft.y ≤ k → h ≤ k
     | _ => h = 0)

/-- All boxes of the data are ordered. -/
def Data.Ordered (d : Data) : Prop := ∀ n b, d.box n = some (some b) → b.Ordered

theorem ceil_toNat {x : ℚ} {w : ℕ} (hx : 0 ≤ x) : ⌈x⌉.toNat = w ↔ x ≤ w ∧ ∀ k : ℕ, x ≤ k → w ≤ k := by
  have h0 : 0 ≤ ⌈x⌉ := Int.ceil_nonneg hx
  constructor
  · rintro rfl
    constructor
    · have := Int.le_ceil x
      have e : ((⌈x⌉.toNat : ℕ) : ℚ) = (⌈x⌉ : ℚ) := by exact_mod_cast Int.toNat_of_nonneg h0
      rw [e]; exact this
    · intro k hk
      have : ⌈x⌉ ≤ (k : ℤ) := Int.ceil_le.2 (by exact_mod_cast hk)
      omega
  · rintro ⟨h1, h2⟩
    have a : ⌈x⌉ ≤ (w : ℤ) := Int.ceil_le.2 (by exact_mod_cast h1)
    have b := h2 ⌈x⌉.toNat (by
      have := Int.le_ceil x
      have e : ((⌈x⌉.toNat : ℕ) : ℚ) = (⌈x⌉ : ℚ) := by exact_mod_cast Int.toNat_of_nonneg h0
      rw [e]; exact this)
    omega

theorem static_spans {d : Data} (hd : d.Ordered) (n : String) (w h : ℕ) :
    override d n (dims (d.static n)) = (w, h) ↔ Spans d n w h := by
  have key : ∀ b : AABB, (aabbToDimensions (some b.getBoundingBox)).1 = ⌈b.botRight.x - b.topLeft.x⌉ ∧
      (aabbToDimensions (some b.getBoundingBox)).2 = ⌈b.botRight.y - b.topLeft.y⌉ := by
    intro b
    simp [aabbToDimensions, AABB.getBoundingBox]
  unfold override Spans
  rw [Prod.mk.injEq]
  cases hb : d.box n with
  | none => cases d.width n <;> cases d.height n <;> simp [dims, Data.static, hb, aabbToDimensions, eq_comm]
  | some o =>
    cases o with
    | none => cases d.width n <;> cases d.height n <;> simp [dims, Data.static, hb, aabbToDimensions, eq_comm]
    | some b =>
      have ho := hd n b hb
      have hx : 0 ≤ b.botRight.x - b.topLeft.x := by have := ho.1; linarith
      have hy : 0 ≤ b.botRight.y - b.topLeft.y := by have := ho.2; linarith
      have e : d.static n = some b.getBoundingBox := by simp [Data.static, hb]
      simp only [dims, e, (key b).1, (key b).2]
      apply and_congr
      · cases d.width n with
        | none => simpa using ceil_toNat hx
        | some x => simp [eq_comm]
      · cases d.height n with
        | none => simpa using ceil_toNat hy
        | some y => simp [eq_comm]

set_option linter.unnecessarySeqFocus false in
/-- Turning a box by quarter turns keeps or swaps its dimensions. -/
theorem dims_turned {b : AABB} (hb : b.Ordered) {k : Int} (hk : k = 0 ∨ k = 4 ∨ k = 8 ∨ k = 12) :
    dims (turned b k) = if k = 4 ∨ k = 12 then (dims (some b.getBoundingBox)).swap else dims (some b.getBoundingBox) := by
  obtain ⟨⟨x0, y0⟩, ⟨x1, y1⟩, ⟨px, py⟩⟩ := b
  obtain ⟨h1, h2⟩ := hb
  simp only at h1 h2
  rcases hk with rfl | rfl | rfl | rfl <;>
    simp [dims, turned, AABB.rotate, quarterCos, quarterSin, rotatePoint, aabbToDimensions, AABB.getBoundingBox, h1, h2] <;> ring_nf <;> simp

theorem check_none (t : Turning) (v : Option Int) : PEnt.checkDirection t .none v = .ok v := rfl

theorem settle_keeps (p : PEnt) (pl : PosArg ⊕ PosArg) : (settle p pl).turning = p.turning ∧ (settle p pl).mode = p.mode ∧ (settle p pl).sw = p.sw ∧
    (settle p pl).sh = p.sh ∧ (settle p pl).w = p.w ∧ (settle p pl).h = p.h ∧ (settle p pl).dir = p.dir ∧ (settle p pl).held = p.held ∧
    (settle p pl).doubleGrid = p.doubleGrid ∧ (settle p pl).flippable = p.flippable := by
  cases pl with
  | inl v =>
    unfold settle PEnt.setPosition
    by_cases hh : p.held = true
    · simp [hh]
    · cases p.turning <;> simp [hh]
  | inr v => simp [settle, PEnt.setTilePosition]

/-- The footprint a class takes up when it is constructed: turned for directions the class knows. -/
def Sideways (t : Turning) (dir : Option Int) : Prop :=
  (t = .fourWay ∧ (dir = some 4 ∨ dir = some 12)) ∨ (t = .eightWay ∧ (dir = some 2 ∨ dir = some 3 ∨ dir = some 6 ∨ dir = some 7))

theorem direct_spec {cache c : List String} {n : String} {a : Args} {p q : PEnt} (hp : p.turning = a.turning) (hm : p.mode = .none) (hdir : p.dir = a.dir)
    (hpl : ∃ p0, p = settle p0 a.place) (h : direct cache n a p = .ok (c, q)) :
    q.turning = a.turning ∧ q.dir = a.dir ∧ q.held = p.held ∧
    (Sideways a.turning a.dir → q.w = p.h ∧ q.h = p.w) ∧ (¬ Sideways a.turning a.dir → q.w = p.w ∧ q.h = p.h) ∧
    (a.turning = .fourWay → q.sw = p.w ∧ q.sh = p.h) ∧ (a.turning = .fixed → q.sw = p.sw ∧ q.sh = p.sh) ∧
    q.doubleGrid = p.doubleGrid ∧ q.flippable = p.flippable ∧
    (∃ q0, q = settle q0 a.place) ∧ (a.turning = .fourWay → n ∈ c) ∧ (∀ m ∈ cache, m ∈ c) := by
  unfold direct at h
  cases ht : a.turning with
  | fourWay =>
    simp only [ht, bind, Except.bind] at h
    cases hq : ({ p with sw := p.w, sh := p.h } : PEnt).setDirection4 a.dir with
    | error e => rw [hq] at h; cases h
    | ok q0 =>
      rw [hq] at h
      simp only [Except.ok.injEq, Prod.mk.injEq] at h
      obtain ⟨hc, rfl⟩ := h
      obtain ⟨k1, k2, k3, k4, k5, k6, k7, k8, k9, k10⟩ := settle_keeps q0 a.place
      rw [k1, k3, k4, k5, k6, k7, k8, k9, k10]
      have f : q0.turning = p.turning ∧ q0.dir = a.dir ∧ q0.held = p.held ∧ q0.sw = p.w ∧ q0.sh = p.h ∧
          q0.w = (if a.dir = some 4 ∨ a.dir = some 12 then p.h else p.w) ∧ q0.h = (if a.dir = some 4 ∨ a.dir = some 12 then p.w else p.h) ∧
          q0.doubleGrid = p.doubleGrid ∧ q0.flippable = p.flippable := by
        simp only [PEnt.setDirection4, hm, check_none, bind, Except.bind, pure, Except.pure] at hq
        split_ifs at hq <;> (cases hq; simp_all [PEnt.setTilePosition])
      obtain ⟨f1, f2, f3, f4, f5, f6, f7, f8, f9⟩ := f
      refine ⟨by rw [f1, hp, ht], f2, f3, ?_, ?_, fun _ => ⟨f4, f5⟩, nofun, f8, f9, ⟨q0, rfl⟩, ?_, ?_⟩
      · rintro (⟨-, h⟩ | ⟨h, -⟩)
        · rw [f6, f7, if_pos h, if_pos h]; exact ⟨rfl, rfl⟩
        · cases h
      · intro h
        have : ¬ (a.dir = some 4 ∨ a.dir = some 12) := fun hh => h (.inl ⟨rfl, hh⟩)
        rw [f6, f7, if_neg this, if_neg this]; exact ⟨rfl, rfl⟩
      · intro _; rw [← hc]; split_ifs with hn
        · exact hn
        · exact List.mem_cons_self ..
      · intro m hmm; rw [← hc]; split_ifs
        · exact hmm
        · exact List.mem_cons_of_mem _ hmm
  | eightWay =>
    simp only [ht, bind, Except.bind] at h
    cases hq : ({ p with sw := p.w, sh := p.h } : PEnt).setDirection8 a.dir with
    | error e => rw [hq] at h; cases h
    | ok q0 =>
      rw [hq] at h
      simp only [Except.ok.injEq, Prod.mk.injEq] at h
      obtain ⟨hc, rfl⟩ := h
      obtain ⟨k1, k2, k3, k4, k5, k6, k7, k8, k9, k10⟩ := settle_keeps q0 a.place
      rw [k1, k3, k4, k5, k6, k7, k8, k9, k10]
      simp only [PEnt.setDirection8, hm, check_none, bind, Except.bind, pure, Except.pure, Except.ok.injEq] at hq
      subst hq
      dsimp only [PEnt.setTilePosition]
      refine ⟨by rw [hp, ht], rfl, rfl, ?_, ?_, nofun, nofun, rfl, rfl, ⟨_, rfl⟩, nofun, fun m hmm => by rw [← hc]; exact hmm⟩
      · rintro (⟨h, -⟩ | ⟨-, h⟩)
        · cases h
        · rw [if_pos h, if_pos h]; exact ⟨rfl, rfl⟩
      · intro h
        have : ¬ (a.dir = some 2 ∨ a.dir = some 3 ∨ a.dir = some 6 ∨ a.dir = some 7) := fun hh => h (.inr ⟨rfl, hh⟩)
        rw [if_neg this, if_neg this]; exact ⟨rfl, rfl⟩
  | fixed =>
    simp only [ht, Except.ok.injEq, Prod.mk.injEq] at h
    obtain ⟨hc, rfl⟩ := h
    exact ⟨by rw [hp, ht], hdir, rfl, fun h => (by rcases h with ⟨h, -⟩ | ⟨h, -⟩ <;> cases h), fun _ => ⟨rfl, rfl⟩, nofun, fun _ => ⟨rfl, rfl⟩,
      rfl, rfl, hpl, nofun, fun m hmm => by rw [← hc]; exact hmm⟩
  | group =>
    simp only [ht, Except.ok.injEq, Prod.mk.injEq] at h
    obtain ⟨hc, rfl⟩ := h
    exact ⟨by rw [hp, ht], hdir, rfl, fun h => (by rcases h with ⟨h, -⟩ | ⟨h, -⟩ <;> cases h), fun _ => ⟨rfl, rfl⟩, nofun, nofun,
      rfl, rfl, hpl, nofun, fun m hmm => by rw [← hc]; exact hmm⟩

/-- What a constructor makes. -/
theorem construct_spec {d : Data} {cache c : List String} {n : String} {a : Args} {e : Ent} (h : construct d cache n a = .ok (c, e)) :
    e.name = n ∧ e.p.turning = a.turning ∧ e.vehicle = a.vehicle ∧ e.turns = a.turns ∧ e.p.mode = a.mode ∧ e.p.dir = a.dir ∧ e.p.held = false ∧
    (Sideways a.turning a.dir → e.p.w = (override d n (dims (d.static n))).2 ∧ e.p.h = (override d n (dims (d.static n))).1) ∧
    (¬ Sideways a.turning a.dir → e.p.w = (override d n (dims (d.static n))).1 ∧ e.p.h = (override d n (dims (d.static n))).2) ∧
    (a.turning = .fourWay → e.p.sw = (override d n (dims (d.static n))).1 ∧ e.p.sh = (override d n (dims (d.static n))).2) ∧
    (a.turning = .fixed → e.p.sw = 0 ∧ e.p.sh = 0) ∧
    e.p.doubleGrid = a.doubleGrid ∧ e.p.flippable = a.flippable ∧
    ownRect d n a.vehicle = .ok e.rect ∧
    (∀ v, a.place = .inr v → e.p.tile = v.toInt ∧ e.p.Agree) ∧
    (a.turning = .fourWay → n ∈ c) ∧ (∀ m ∈ cache, m ∈ c) := by
  unfold construct at h
  simp only [bind, Except.bind] at h
  cases hr : ownRect d n a.vehicle with
  | error x => rw [hr] at h; cases h
  | ok rect =>
    rw [hr] at h
    simp only at h
    cases hq : direct cache n a (settle (start d n a) a.place) with
    | error x => rw [hq] at h; cases h
    | ok r =>
      obtain ⟨c', q⟩ := r
      rw [hq] at h
      simp only [Except.ok.injEq, Prod.mk.injEq] at h
      obtain ⟨rfl, rfl⟩ := h
      obtain ⟨k1, k2, k3, k4, k5, k6, k7, k8, k9, k10⟩ := settle_keeps (start d n a) a.place
      obtain ⟨s1, s2, s3, s4, s5, s6, s7, s8, s9, ⟨q0, s10⟩, s11, s12⟩ := direct_spec k1 k2 k7 ⟨_, rfl⟩ hq
      rw [k5, k6] at s4 s5 s6
      rw [k3, k4] at s7
      rw [k8] at s3; rw [k9] at s8; rw [k10] at s9
      refine ⟨rfl, s1, rfl, rfl, rfl, s2, s3, s4, s5, s6, s7, s8, s9, rfl, ?_, s11, s12⟩
      · intro v hv
        rw [hv] at s10
        constructor
        · simp only [s10, settle, PEnt.setTilePosition]
        · simp only [s10, settle, PEnt.setTilePosition, PEnt.Agree, and_self]

theorem box_static {d : Data} {n : String} {b : AABB} (h : d.box n = some (some b)) : d.static n = some b.getBoundingBox := by
  simp [Data.static, h]

/-- Facing a cardinal direction. -/
def Cardinal (v : Option Int) : Prop := v = some 0 ∨ v = some 4 ∨ v = some 8 ∨ v = some 12

/-- The footprint read off the cache. -/
theorem fourway_dims {d : Data} (hd : d.Ordered) {cache : List String} {e : Ent} (hv : e.vehicle = false) (ht : e.p.turning = .fourWay)
    (hc : e.name ∈ cache) (hk : Cardinal e.p.dir) :
    dims (collisionBox d cache e) = if e.p.dir = some 4 ∨ e.p.dir = some 12 then (dims (d.static e.name)).swap else dims (d.static e.name) := by
  have h1 : collisionBox d cache e = (d.box e.name).join.bind fun b => turned b (e.p.dir.getD 0) := by
    simp only [collisionBox, hv, ht, Bool.false_eq_true, if_false]
    rw [if_pos ⟨hc, hk⟩]
  rw [h1]
  cases hb : d.box e.name with
  | none => simp [dims, Data.static, hb, aabbToDimensions]
  | some o =>
    cases o with
    | none => simp [dims, Data.static, hb, aabbToDimensions]
    | some b =>
      rw [box_static hb]
      have := dims_turned (hd _ b hb) (k := e.p.dir.getD 0) (by rcases hk with h | h | h | h <;> simp [h])
      simp only [Option.join_some, Option.bind_some]
      rw [this]
      rcases hk with h | h | h | h <;> simp [h]

/-- C93: an entity in a collection cannot be renamed, nor can a name be anything but a string under validation; otherwise renaming succeeds.
A refusal leaves the entity as it was. -/
theorem C93_refused (d : Data) (cache : List String) (e : Ent) (n : String) (str : Bool) :
    ((rename d cache e n str).2 = if e.p.held then some .draftsmanError else if e.p.mode.truthy && !str then some .dataFormat else none) ∧
    ((rename d cache e n str).2 ≠ none → (rename d cache e n str).1 = e) := by
  unfold rename
  split_ifs <;> simp

/-- C93: renaming keeps the tile position, the direction and everything else but the name, the footprint and the position, which is again tile
position plus half the footprint. -/
theorem C93_kept {d : Data} {cache : List String} {e e' : Ent} {n : String} {str : Bool} (h : rename d cache e n str = (e', none)) :
    e'.name = n ∧ e'.p.tile = e.p.tile ∧ e'.p.Agree ∧ e'.p.dir = e.p.dir ∧ e'.p.turning = e.p.turning ∧ e'.p.mode = e.p.mode ∧ e'.p.held = false ∧
    e'.p.sw = e.p.sw ∧ e'.p.sh = e.p.sh ∧ e'.p.doubleGrid = e.p.doubleGrid ∧ e'.p.flippable = e.p.flippable ∧
    e'.vehicle = e.vehicle ∧ e'.turns = e.turns ∧ e'.rect = e.rect := by
  unfold rename at h
  by_cases hh : e.p.held = true
  · simp [hh] at h
  · rw [if_neg hh] at h
    split_ifs at h with h2
    · cases h
    · cases h
      refine ⟨rfl, rfl, ⟨rfl, rfl⟩, rfl, rfl, rfl, ?_, rfl, rfl, rfl, rfl, rfl, rfl, rfl⟩
      simpa [PEnt.setTilePosition] using hh

theorem renamed_dims {d : Data} {cache : List String} {e e' : Ent} {n : String} {str : Bool} (h : rename d cache e n str = (e', none)) :
    (e'.p.w, e'.p.h) = override d n (dims (collisionBox d cache { e with name := n })) := by
  unfold rename at h
  by_cases hh : e.p.held = true
  · simp [hh] at h
  · rw [if_neg hh] at h
    split_ifs at h with h2
    · cases h
    · cases h
      rfl

/-- C93: an entity that is no vehicle and not turned in four ways has the footprint of its new name. -/
theorem C93_plain_partial {d : Data} (hd : d.Ordered) {cache : List String} {e e' : Ent} {n : String} {str : Bool} (hv : e.vehicle = false)
    (ht : e.p.turning ≠ .fourWay) (h : rename d cache e n str = (e', none)) : Spans d n e'.p.w e'.p.h := by
  rw [← static_spans hd, ← Prod.eta (e'.p.w, e'.p.h), renamed_dims h]
  have hb : collisionBox d cache { e with name := n } = d.static n := by
    unfold collisionBox
    simp only [hv, Bool.false_eq_true, if_false]
  rw [hb]

/-- C93: a four-way entity has the footprint of its new name, turned with it.
Missing: names no entity has been constructed with (`C93_cache_refuted`), directions that are none of the four (`C93_diagonal_refuted`), names with
a footprint of their own when facing east or west (`C93_override_refuted`). -/
theorem C93_fourway_partial {d : Data} (hd : d.Ordered) {cache : List String} {e e' : Ent} {n : String} {str : Bool} (hv : e.vehicle = false)
    (ht : e.p.turning = .fourWay) (hc : n ∈ cache) (hk : Cardinal e.p.dir)
    (ho : (d.width n = none ∧ d.height n = none) ∨ ¬ (e.p.dir = some 4 ∨ e.p.dir = some 12)) (h : rename d cache e n str = (e', none)) :
    if e.p.dir = some 4 ∨ e.p.dir = some 12 then Spans d n e'.p.h e'.p.w else Spans d n e'.p.w e'.p.h := by
  have h1 := renamed_dims h
  rw [fourway_dims hd (e := { e with name := n }) hv ht hc hk] at h1
  simp only at h1
  split_ifs at h1 ⊢ with hs
  · rw [← static_spans hd]
    rcases ho with ⟨hw, hh⟩ | ho
    · simp only [override, hw, hh, Option.getD_none, Prod.fst_swap, Prod.snd_swap, Prod.mk.injEq] at h1 ⊢
      exact ⟨h1.2.symm, h1.1.symm⟩
    · exact absurd hs ho
  · rw [← static_spans hd, ← h1]

/-- C93: constructing gives the footprint of the name, turned with the entity; four-way entities remember it facing north and enter their name
in the cache, which only grows. -/
theorem C93_constructed {d : Data} (hd : d.Ordered) {cache c : List String} {n : String} {a : Args} {e : Ent} (h : construct d cache n a = .ok (c, e)) :
    (Sideways a.turning a.dir → Spans d n e.p.h e.p.w) ∧ (¬ Sideways a.turning a.dir → Spans d n e.p.w e.p.h) ∧
    (a.turning = .fourWay → Spans d n e.p.sw e.p.sh ∧ n ∈ c) ∧ (∀ m ∈ cache, m ∈ c) ∧
    (∀ v, a.place = .inr v → e.p.tile = v.toInt ∧ e.p.Agree) := by
  obtain ⟨-, -, -, -, -, -, -, s1, s2, s3, -, -, -, -, s4, s5, s6⟩ := construct_spec h
  refine ⟨?_, ?_, ?_, s6, s4⟩
  · intro hs
    rw [← static_spans hd, (s1 hs).1, (s1 hs).2]
  · intro hs
    rw [← static_spans hd, (s2 hs).1, (s2 hs).2]
  · intro hf
    rw [← static_spans hd, (s3 hf).1, (s3 hf).2]
    exact ⟨rfl, s5 hf⟩

theorem pent_eq {p q : PEnt} (h1 : p.turning = q.turning) (h2 : p.mode = q.mode) (h3 : p.sw = q.sw) (h4 : p.sh = q.sh) (h5 : p.w = q.w) (h6 : p.h = q.h)
    (h7 : p.dir = q.dir) (h8 : p.held = q.held) (h9 : p.doubleGrid = q.doubleGrid) (h10 : p.flippable = q.flippable) (h11 : p.tile = q.tile)
    (h12 : p.Agree) (h13 : q.Agree) : p = q := by
  have hp : p.pos = q.pos := by
    apply Vec.ext
    · rw [h12.1, h13.1, h11, h5]
    · rw [h12.2, h13.2, h11, h6]
  cases p; cases q
  simp_all

/-- C93: renaming an entity just constructed gives the entity constructed with the other name at the same tile position; of a four-way
entity, if the two names have the same footprint facing north (`C93_turn_refuted`) and under the conditions of `C93_fourway_partial`. -/
theorem C93_same_partial {d : Data} (hd : d.Ordered) {c0 c1 c2 c3 : List String} {m n : String} {a : Args} {v : PosArg} {e e' f : Ent} {str : Bool}
    (hv : a.vehicle = false) (hp : a.place = .inr v) (h0 : construct d c0 m a = .ok (c1, e)) (h1 : rename d c2 e n str = (e', none))
    (h2 : construct d c2 n a = .ok (c3, f))
    (hk : a.turning = .fixed ∨ (a.turning = .fourWay ∧ n ∈ c2 ∧ Cardinal a.dir ∧ ((d.width n = none ∧ d.height n = none) ∨ ¬ (a.dir = some 4 ∨ a.dir = some 12)) ∧
      ∀ w h, Spans d m w h → Spans d n w h)) : e' = f := by
  have k0 := construct_spec h0
  have k2 := construct_spec h2
  have f0 := C93_constructed hd h0
  have f2 := C93_constructed hd h2
  have k1 := C93_kept h1
  obtain ⟨a1, a2, a3, a4, a5, a6, a7, -, -, -, a8, a9, a10, a11, a12, -, -⟩ := k0
  obtain ⟨b1, b2, b3, b4, b5, b6, b7, -, -, -, b8, b9, b10, b11, b12, -, -⟩ := k2
  obtain ⟨g1, g2, g3, g4, g5, g6, g7, g8, g9, g10, g11, g12, g13, g14⟩ := k1
  have hrect : e.rect = none ∧ f.rect = none := by
    rw [hv] at a11 b11
    simp only [ownRect, Except.ok.injEq] at a11 b11
    exact ⟨a11.symm, b11.symm⟩
  have uniq : ∀ {w h w' h' : ℕ}, Spans d n w h → Spans d n w' h' → w = w' ∧ h = h' := by
    intro w h w' h' x y
    rw [← static_spans hd] at x y
    rw [x] at y
    exact ⟨congrArg Prod.fst y, congrArg Prod.snd y⟩
  have hdims : e'.p.w = f.p.w ∧ e'.p.h = f.p.h ∧ e'.p.sw = f.p.sw ∧ e'.p.sh = f.p.sh := by
    rcases hk with ht | ⟨ht, hc, hk, ho, hs⟩
    · have x := C93_plain_partial hd (a3.trans hv) (by rw [a2, ht]; decide) h1
      have y := f2.2.1 (by rintro (⟨h, -⟩ | ⟨h, -⟩) <;> rw [ht] at h <;> cases h)
      have z := uniq x y
      refine ⟨z.1, z.2, ?_, ?_⟩
      · rw [g8, (a8 ht).1, (b8 ht).1]
      · rw [g9, (a8 ht).2, (b8 ht).2]
    · have x := C93_fourway_partial hd (a3.trans hv) (a2.trans ht) hc (by rw [a6]; exact hk) (by rw [a6]; exact ho) h1
      rw [a6] at x
      have r := uniq (hs _ _ (f0.2.2.1 ht).1) (f2.2.2.1 ht).1
      rw [← g8, ← g9] at r
      split_ifs at x with hx
      · have z := uniq x (f2.1 (.inl ⟨ht, hx⟩))
        exact ⟨z.2, z.1, r.1, r.2⟩
      · have z := uniq x (f2.2.1 (by
          rintro (⟨-, h⟩ | ⟨h, -⟩)
          · exact hx h
          · rw [ht] at h; cases h))
        exact ⟨z.1, z.2, r.1, r.2⟩
  have hpe : e'.p = f.p := pent_eq (by rw [g5, a2, b2]) (by rw [g6, a5, b5]) hdims.2.2.1 hdims.2.2.2 hdims.1 hdims.2.1 (by rw [g4, a6, b6]) (by rw [g7, b7])
    (by rw [g10, a9, b9]) (by rw [g11, a10, b10]) (by rw [g2, (a12 v hp).1, (b12 v hp).1]) g3 (b12 v hp).2
  have c1 : e'.name = f.name := by rw [g1, b1]
  have c2 : e'.vehicle = f.vehicle := by rw [g12, a3, b3]
  have c3 : e'.turns = f.turns := by rw [g13, a4, b4]
  have c4 : e'.rect = f.rect := by rw [g14, hrect.1, hrect.2]
  cases e'; cases f
  simp_all

/-- C93: assigning its own name to an entity just constructed changes nothing.  Missing: vehicles (`C93_self_refuted`), and for four-way entities
what is missing in `C93_fourway_partial` (other than the cache). -/
theorem C93_self_partial {d : Data} (hd : d.Ordered) {c0 c1 : List String} {n : String} {a : Args} {v : PosArg} {e : Ent}
    (hv : a.vehicle = false) (hp : a.place = .inr v) (h0 : construct d c0 n a = .ok (c1, e))
    (hk : a.turning = .fixed ∨ (a.turning = .fourWay ∧ Cardinal a.dir ∧ ((d.width n = none ∧ d.height n = none) ∨ ¬ (a.dir = some 4 ∨ a.dir = some 12)))) :
    rename d c1 e n true = (e, none) := by
  have k0 := construct_spec h0
  obtain ⟨a1, a2, a3, a4, a5, a6, a7, -, -, -, a8, a9, a10, a11, a12, a13, -⟩ := k0
  have hr := (C93_refused d c1 e n true).1
  simp only [a7, Bool.not_true, Bool.and_false, Bool.false_eq_true, if_false] at hr
  have hok : rename d c1 e n true = ((rename d c1 e n true).1, none) := by rw [← hr]
  -- constructing once more with the cache as it is now gives the same entity
  have again : ∃ c3, construct d c1 n a = .ok (c3, e) := by
    unfold construct at h0 ⊢
    simp only [bind, Except.bind] at h0 ⊢
    cases hr : ownRect d n a.vehicle with
    | error x => rw [hr] at h0; cases h0
    | ok rect =>
      rw [hr] at h0
      simp only at h0 ⊢
      unfold direct at h0 ⊢
      rcases hk with ht | ⟨ht, -⟩
      · simp only [ht] at h0 ⊢
        cases h0
        exact ⟨_, rfl⟩
      · simp only [ht, bind, Except.bind] at h0 ⊢
        cases hq : ({ settle (start d n a) a.place with sw := (settle (start d n a) a.place).w, sh := (settle (start d n a) a.place).h } : PEnt).setDirection4 a.dir with
        | error x => rw [hq] at h0; cases h0
        | ok q =>
          rw [hq] at h0
          cases h0
          exact ⟨_, rfl⟩
  obtain ⟨c3, h2⟩ := again
  have := C93_same_partial hd hv hp h0 hok h2 (by
    rcases hk with ht | ⟨ht, h1, h2⟩
    · exact .inl ht
    · exact .inr ⟨ht, a13 ht, h1, h2, fun _ _ h => h⟩)
  rw [hok, this]

/-- C93: turning a renamed four-way entity gives the footprint of its new name, if that of its old name was the same.
Missing: other new names (`C93_turn_refuted`). -/
theorem C93_turn_partial {d : Data} {cache : List String} {e e' : Ent} {n : String} {str : Bool} (h : rename d cache e n str = (e', none))
    (hs : Spans d n e.p.sw e.p.sh) {v : Option Int} {q : PEnt} (hq : e'.p.setDirection4 v = .ok q) :
    if v = some 4 ∨ v = some 12 then Spans d n q.h q.w else Spans d n q.w q.h := by
  obtain ⟨-, -, -, -, -, -, -, g8, g9, -⟩ := C93_kept h
  rw [← g8, ← g9] at hs
  unfold PEnt.setDirection4 at hq
  cases hc : PEnt.checkDirection .fourWay e'.p.mode v with
  | error x => simp [hc, bind, Except.bind] at hq
  | ok dd =>
    simp only [hc, bind, Except.bind, pure, Except.pure] at hq
    split_ifs at hq ⊢ <;> (cases hq; exact hs)

/-- C93: a name whose entity has an empty collision set cannot be given to a vehicle at construction, but by renaming. -/
theorem C93_nobox {d : Data} {cache : List String} {n : String} (hn : d.box n = some none) :
    (∀ a : Args, a.vehicle = true → construct d cache n a = .error .indexError) ∧
    ∀ e : Ent, e.p.held = false → (rename d cache e n true).2 = none := by
  refine ⟨fun a ha => by simp [construct, ownRect, ha, hn, bind, Except.bind], fun e he => ?_⟩
  have := (C93_refused d cache e n true).1
  simpa [he] using this

section Examples

/-- A box around the origin.  Model only. -/
def around (w h : ℚ) : AABB := { topLeft := ⟨-w / 2, -h / 2⟩, botRight := ⟨w / 2, h / 2⟩ }

/-- Two drills, a generator, a wagon of two sizes, a chest, and an entity with a footprint of its own.  Model only. -/
def game : Data where
  box n := if n = "electric-mining-drill" then some (some (around (14 / 5) (14 / 5))) else if n = "burner-mining-drill" then some (some (around (7 / 5) (7 / 5)))
    else if n = "steam-engine" then some (some (around (5 / 2) (47 / 10))) else if n = "wagon" then some (some (around (6 / 5) (24 / 5)))
    else if n = "long-wagon" then some (some (around (6 / 5) (44 / 5))) else if n = "chest" then some (some (around (7 / 10) (7 / 10)))
    else if n = "gateway" then some (some (around (5 / 2) (47 / 10))) else none
  width n := if n = "gateway" then some 4 else none
  height n := if n = "gateway" then some 6 else none

theorem game_ordered : game.Ordered := by
  have ar : ∀ w h : ℚ, 0 ≤ w → 0 ≤ h → (around w h).Ordered := by
    intro w h h1 h2; constructor <;> simp only [around] <;> linarith
  intro n b h
  simp only [game] at h
  split_ifs at h
  all_goals (cases h; apply ar <;> norm_num)

/-- A four-way entity facing `dir`.  Model only. -/
def four (dir : Int) : Args := ⟨.fourWay, false, .strict, some dir, 0, false, true, .inr (.tuple 0 0)⟩
/-- An entity without direction.  Model only. -/
def plain : Args := ⟨.fixed, false, .strict, none, 0, false, true, .inr (.tuple 3 4)⟩
/-- A vehicle.  Model only. -/
def wagon (turns : Fin 4) : Args := ⟨.fixed, true, .strict, none, turns, false, true, .inr (.tuple 0 0)⟩

/-- Footprint of the entity constructed, and renamed after that.  Model only. -/
def sizes (d : Data) (c0 : List String) (n m : String) (a : Args) : Option ((ℕ × ℕ) × (ℕ × ℕ)) :=
  match construct d c0 n a with
  | .ok (c, e) => some ((e.p.w, e.p.h), ((rename d c e m true).1.p.w, (rename d c e m true).1.p.h))
  | .error _ => none

/-- `C93_nobox` -/
example : construct ⟨fun _ => some none, fun _ => none, fun _ => none⟩ [] "ghost" (wagon 0) = .error .indexError := (C93_nobox rfl).1 _ rfl
example : sizes game [] "chest" "electric-mining-drill" plain = some ((1, 1), (3, 3)) := by decide +kernel
example : sizes game ["burner-mining-drill"] "electric-mining-drill" "burner-mining-drill" (four 4) = some ((3, 3), (2, 2)) := by decide +kernel
example : sizes game ["steam-engine"] "electric-mining-drill" "steam-engine" (four 4) = some ((3, 3), (5, 3)) := by decide +kernel
example : sizes game [] "steam-engine" "steam-engine" (four 12) = some ((5, 3), (5, 3)) := by decide +kernel

/-- What the entity is after construction and renaming, for `c0` the names entered before.  Model only. -/
def after (d : Data) (c0 : List String) (m n : String) (a : Args) : Option (Ent × Ent) :=
  match construct d c0 m a with
  | .ok (c, e) => if (rename d c e n true).2 = none then some (e, (rename d c e n true).1) else none
  | .error _ => none

theorem after_some {d : Data} {c0 : List String} {m n : String} {a : Args} (h : (after d c0 m n a).isSome = true) :
    ∃ c e e', construct d c0 m a = .ok (c, e) ∧ rename d c e n true = (e', none) ∧ after d c0 m n a = some (e, e') := by
  unfold after at h ⊢
  cases hc : construct d c0 m a with
  | error x => rw [hc] at h; cases h
  | ok r =>
    obtain ⟨c, e⟩ := r
    rw [hc] at h
    simp only at h ⊢
    split_ifs at h ⊢ with h1
    · exact ⟨c, e, _, rfl, by rw [← h1], rfl⟩
    · cases h

/-- Claim: a renamed four-way entity has the footprint of its new name.  The collision boxes are cached per name by the constructor: renamed to a
name no entity was constructed with yet, the entity has a footprint of no tiles. -/
theorem C93_cache_refuted : ¬ ∀ (d : Data) (m n : String) (a : Args) (c : List String) (e e' : Ent), d.Ordered → construct d [] m a = .ok (c, e) →
    Cardinal a.dir → ¬ Sideways a.turning a.dir → a.vehicle = false → rename d c e n true = (e', none) → Spans d n e'.p.w e'.p.h := by
  intro h
  obtain ⟨c, e, e', h1, h2, h3⟩ := after_some (show (after game [] "electric-mining-drill" "burner-mining-drill" (four 0)).isSome = true by decide +kernel)
  have hs : (after game [] "electric-mining-drill" "burner-mining-drill" (four 0)).map (fun r => r.2.p.w) = some 0 := by decide +kernel
  rw [h3] at hs
  have := (h game _ _ _ c e e' game_ordered h1 (.inl rfl) (by simp [Sideways, four]) rfl h2).1
  simp only [Option.map_some, Option.some.injEq] at hs
  rw [hs] at this
  have := this.1
  simp [around] at this
  norm_num at this

/-- Claim: a renamed four-way entity has the footprint of its new name whatever its direction.  Under no validation an entity may face north-east;
then the cache has no box for it and the footprint is of no tiles, though the constructor gave it one. -/
theorem C93_diagonal_refuted : ¬ ∀ (d : Data) (c0 c : List String) (n : String) (a : Args) (e e' : Ent), d.Ordered → construct d c0 n a = .ok (c, e) →
    ¬ Sideways a.turning a.dir → a.vehicle = false → rename d c e n true = (e', none) → e'.p.w = e.p.w := by
  intro h
  obtain ⟨c, e, e', h1, h2, h3⟩ := after_some (show (after game [] "steam-engine" "steam-engine" { four 2 with mode := .none }).isSome = true by decide +kernel)
  have hs : (after game [] "steam-engine" "steam-engine" { four 2 with mode := .none }).map (fun r => (r.1.p.w, r.2.p.w)) = some (3, 0) := by decide +kernel
  rw [h3] at hs
  have := h game _ c _ _ e e' game_ordered h1 (by simp [Sideways, four]) rfl h2
  simp only [Option.map_some, Option.some.injEq, Prod.mk.injEq] at hs
  omega

/-- Claim: a renamed four-way entity has the footprint of its new name, turned with it.  A footprint given by the data is put in as it is, not
turned: facing east, the entity stands as if facing north. -/
theorem C93_override_refuted : ¬ ∀ (d : Data) (c0 c : List String) (n : String) (a : Args) (e e' : Ent), d.Ordered → construct d c0 n a = .ok (c, e) →
    a.turning = .fourWay → Cardinal a.dir → a.vehicle = false → rename d c e n true = (e', none) → e'.p.w = e.p.w ∧ e'.p.h = e.p.h := by
  intro h
  obtain ⟨c, e, e', h1, h2, h3⟩ := after_some (show (after game [] "gateway" "gateway" (four 4)).isSome = true by decide +kernel)
  have hs : (after game [] "gateway" "gateway" (four 4)).map (fun r => ((r.1.p.w, r.1.p.h), (r.2.p.w, r.2.p.h))) = some ((6, 4), (4, 6)) := by decide +kernel
  rw [h3] at hs
  have := h game _ c _ _ e e' game_ordered h1 rfl (.inr (.inl rfl)) rfl h2
  simp only [Option.map_some, Option.some.injEq, Prod.mk.injEq] at hs
  omega

/-- Claim: a renamed vehicle has the footprint of its new name.  A vehicle keeps the rectangle made from its first name: a wagon renamed to one
twice as long keeps its length. -/
theorem C93_vehicle_refuted : ¬ ∀ (d : Data) (c0 c : List String) (m n : String) (a : Args) (e e' : Ent), d.Ordered → construct d c0 m a = .ok (c, e) →
    a.vehicle = true → e.turns = 0 → rename d c e n true = (e', none) → Spans d n e'.p.w e'.p.h := by
  intro h
  obtain ⟨c, e, e', h1, h2, h3⟩ := after_some (show (after game [] "wagon" "long-wagon" (wagon 0)).isSome = true by decide +kernel)
  have hs : (after game [] "wagon" "long-wagon" (wagon 0)).map (fun r => (r.1.turns, r.2.p.h)) = some (0, 5) := by decide +kernel
  rw [h3] at hs
  simp only [Option.map_some, Option.some.injEq, Prod.mk.injEq] at hs
  have := (h game _ c _ _ _ e e' game_ordered h1 rfl hs.1 h2).2
  rw [hs.2] at this
  have := this.1
  simp [around] at this
  norm_num at this

/-- Claim: assigning its own name to an entity changes nothing.  A wagon facing east is constructed with the footprint of one facing north; the
assignment turns the footprint and moves the wagon, as the tile position is kept. -/
theorem C93_self_refuted : ¬ ∀ (d : Data) (c0 c : List String) (n : String) (a : Args) (e e' : Ent), d.Ordered → construct d c0 n a = .ok (c, e) →
    rename d c e n true = (e', none) → e'.p.pos = e.p.pos := by
  intro h
  obtain ⟨c, e, e', h1, h2, h3⟩ := after_some (show (after game [] "wagon" "wagon" (wagon 1)).isSome = true by decide +kernel)
  have hs : (after game [] "wagon" "wagon" (wagon 1)).map (fun r => (r.1.p.pos, r.2.p.pos)) = some (⟨1, 5 / 2⟩, ⟨5 / 2, 1⟩) := by decide +kernel
  rw [h3] at hs
  simp only [Option.map_some, Option.some.injEq, Prod.mk.injEq] at hs
  have := h game _ c _ _ e e' game_ordered h1 h2
  rw [hs.1, hs.2] at this
  exact absurd this (by decide +kernel)

/-- Claim: a renamed entity turns with the footprint of its new name.  Turning goes back to the footprint remembered by the constructor, that of
the old name: a drill of three by three renamed to one of two by two takes up three by three again. -/
theorem C93_turn_refuted : ¬ ∀ (d : Data) (c0 c : List String) (m n : String) (a : Args) (e e' : Ent) (q : PEnt), d.Ordered → construct d c0 m a = .ok (c, e) →
    n ∈ c0 → rename d c e n true = (e', none) → e'.p.setDirection4 (some 0) = .ok q → Spans d n q.w q.h := by
  intro h
  obtain ⟨c, e, e', h1, h2, h3⟩ := after_some (show (after game ["burner-mining-drill"] "electric-mining-drill" "burner-mining-drill" (four 0)).isSome = true by decide +kernel)
  have hs : (after game ["burner-mining-drill"] "electric-mining-drill" "burner-mining-drill" (four 0)).map
      (fun r => (r.2.p.w, match r.2.p.setDirection4 (some 0) with | .ok q => some q.w | .error _ => none)) = some (2, some 3) := by decide +kernel
  rw [h3] at hs
  simp only [Option.map_some, Option.some.injEq, Prod.mk.injEq] at hs
  cases hq : e'.p.setDirection4 (some 0) with
  | error x => rw [hq] at hs; exact (nomatch hs.2)
  | ok q =>
    rw [hq] at hs
    have := (h game _ c _ _ _ e e' q game_ordered h1 (by simp) h2 hq).1
    rw [Option.some.inj hs.2] at this
    have := this.2 2 (by simp [around]; norm_num)
    omega

/-- The hypotheses of `C93_same_partial`, `C93_self_partial` and `C93_turn_partial` are met by constructed entities. -/
example : ∃ c e e', construct game ["steam-engine"] "electric-mining-drill" (four 4) = .ok (c, e) ∧ rename game c e "steam-engine" true = (e', none) ∧
    Spans game "steam-engine" e'.p.h e'.p.w := by
  obtain ⟨c, e, e', h1, h2, h3⟩ := after_some (show (after game ["steam-engine"] "electric-mining-drill" "steam-engine" (four 4)).isSome = true by decide +kernel)
  refine ⟨c, e, e', h1, h2, ?_⟩
  have k := construct_spec h1
  have hm := (C93_constructed game_ordered h1).2.2.2.1 "steam-engine" (by simp)
  have hdir : e.p.dir = some 4 := k.2.2.2.2.2.1
  have := C93_fourway_partial game_ordered (e := e) k.2.2.1 k.2.1 hm (by rw [hdir]; exact .inr (.inl rfl)) (.inl ⟨rfl, rfl⟩) h2
  rw [hdir] at this
  simpa using this

example : ∃ c e, construct game [] "steam-engine" (four 12) = .ok (c, e) ∧ rename game c e "steam-engine" true = (e, none) := by
  obtain ⟨c, e, e', h1, -, -⟩ := after_some (show (after game [] "steam-engine" "steam-engine" (four 12)).isSome = true by decide +kernel)
  exact ⟨c, e, h1, C93_self_partial game_ordered rfl rfl h1 (.inr ⟨rfl, .inr (.inr (.inr rfl)), .inl ⟨rfl, rfl⟩⟩)⟩

example : (rename game [] { name := "chest", p := { start game "chest" plain with held := true }, vehicle := false, turns := 0, rect := none } "wagon" true).2 = some .draftsmanError := by
  decide +kernel

end Examples

end Rename
end Draftsman
