import Mathlib.Tactic.Linarith
import Mathlib.Tactic.Ring
import Verif.Model.InPlace
import Verif.Proof.Round
/-
C108: coordinates changed in place.
-/
namespace Draftsman
namespace InPlace

@[simp] theorem get_put_same (v : Vec) (a : Axis) (q : ℚ) : get (put v a q) a = q := by cases a <;> rfl
theorem get_put_ne (v : Vec) {a b : Axis} (h : b ≠ a) (q : ℚ) : get (put v a q) b = get v b := by cases a <;> cases b <;> first | rfl | exact absurd rfl h
theorem vec_ext {u v : Vec} (h : ∀ a, get u a = get v a) : u = v := Vec.ext (h .x) (h .y)

@[simp] theorem write_ent (w : World) (c : ℕ) (v : Vec) : (w.write c v).ent = w.ent := rfl
@[simp] theorem write_grp (w : World) (c : ℕ) (v : Vec) : (w.write c v).grp = w.grp := rfl
@[simp] theorem write_next (w : World) (c : ℕ) (v : Vec) : (w.write c v).next = w.next := rfl
@[simp] theorem write_kind (w : World) (c d : ℕ) (v : Vec) : ((w.write c v).cell d).kind = (w.cell d).kind := by
  by_cases h : d = c
  · subst h; simp [World.write]
  · simp [World.write, h]
theorem write_val (w : World) (c d : ℕ) (v : Vec) : ((w.write c v).cell d).val = if d = c then v else (w.cell d).val := by
  by_cases h : d = c
  · subst h; simp [World.write]
  · simp [World.write, h]
@[simp] theorem poke_ent (w : World) (c : ℕ) (a : Axis) (q : ℚ) : (w.poke c a q).ent = w.ent := rfl
@[simp] theorem poke_grp (w : World) (c : ℕ) (a : Axis) (q : ℚ) : (w.poke c a q).grp = w.grp := rfl
@[simp] theorem poke_next (w : World) (c : ℕ) (a : Axis) (q : ℚ) : (w.poke c a q).next = w.next := rfl
@[simp] theorem poke_kind (w : World) (c d : ℕ) (a : Axis) (q : ℚ) : ((w.poke c a q).cell d).kind = (w.cell d).kind := write_kind _ _ _ _
theorem poke_val (w : World) (c d : ℕ) (a : Axis) (q : ℚ) : ((w.poke c a q).cell d).val = if d = c then put (w.cell c).val a q else (w.cell d).val := write_val _ _ _ _

/-- What `entity.position` and `entity.tile_position` show. -/
def World.pos (w : World) (e : ℕ) : Option Vec := (w.ent e).map fun n => (w.cell n.pos).val
def World.tile (w : World) (e : ℕ) : Option Vec := (w.ent e).map fun n => (w.cell n.tile).val
/-- What `group.position` shows. -/
def World.place (w : World) (g : ℕ) : Option Vec := (w.grp g).map fun n => (w.cell n.pos).val

/-- Histories, with the origin of every entity: one made by its constructor is its own origin, and a copy has the origin of what was copied. -/
inductive Hist : World → (ℕ → ℕ) → Prop where
  | start : Hist World.empty id
  | step {w o} (op : Op) : Hist w o → (∀ e, op ≠ .copy e) → Hist (w.step op).1 o
  | copy {w o} (e : ℕ) : Hist w o → Hist (w.step (.copy e)).1 (if (w.ent e).isSome then Function.update o w.next (o e) else o)

/-- What holds after every history. -/
structure Sound (w : World) (o : ℕ → ℕ) : Prop where
  id : ∀ e n, w.ent e = some n → e < w.next
  pos : ∀ e n, w.ent e = some n → n.pos < w.next
  tile : ∀ e n, w.ent e = some n → n.tile < w.next
  two : ∀ e f n m, w.ent e = some n → w.ent f = some m → n.pos ≠ m.tile
  posInj : ∀ e f n m, w.ent e = some n → w.ent f = some m → n.pos = m.pos → e = f
  tileInj : ∀ e f n m, w.ent e = some n → w.ent f = some m → n.tile = m.tile → e = f
  posKind : ∀ e n, w.ent e = some n → (w.cell n.pos).kind = .posOf (o e)
  tileKind : ∀ e n, w.ent e = some n → (w.cell n.tile).kind = .tileOf (o e)
  grp : ∀ g n, w.grp g = some n → n.pos < w.next
  fresh : ∀ e, w.next ≤ e → o e = e

/-- A world with the same entities and kinds of vectors is as sound. -/
theorem Sound.same {w w' : World} {o : ℕ → ℕ} (h : Sound w o) (he : w'.ent = w.ent) (hg : w'.grp = w.grp) (hn : w'.next = w.next)
    (hk : ∀ c, (w'.cell c).kind = (w.cell c).kind) : Sound w' o := by
  constructor
  · rw [he, hn]; exact h.id
  · rw [he, hn]; exact h.pos
  · rw [he, hn]; exact h.tile
  · rw [he]; exact h.two
  · rw [he]; exact h.posInj
  · rw [he]; exact h.tileInj
  · intro e n x; rw [hk]; rw [he] at x; exact h.posKind e n x
  · intro e n x; rw [hk]; rw [he] at x; exact h.tileKind e n x
  · rw [hg, hn]; exact h.grp
  · rw [hn]; exact h.fresh

/-- A new entity with two new vectors. -/
theorem Sound.add {w w' : World} {o : ℕ → ℕ} (h : Sound w o) (n : Ent) (r : ℕ) (hn : n.pos = w.next + 1 ∧ n.tile = w.next + 2)
    (he : w'.ent = Function.update w.ent w.next (some n)) (hg : w'.grp = w.grp) (hx : w'.next = w.next + 3)
    (hk : ∀ c, c < w.next → (w'.cell c).kind = (w.cell c).kind) (hp : (w'.cell (w.next + 1)).kind = .posOf r) (ht : (w'.cell (w.next + 2)).kind = .tileOf r) :
    Sound w' (Function.update o w.next r) := by
  have look : ∀ e m, w'.ent e = some m → (e = w.next ∧ m = n) ∨ (e < w.next ∧ w.ent e = some m) := by
    intro e m hm
    rw [he] at hm
    by_cases x : e = w.next
    · subst x; simp at hm; exact .inl ⟨rfl, hm.symm⟩
    · rw [Function.update_of_ne x] at hm
      exact .inr ⟨h.id e m hm, hm⟩
  constructor
  · intro e m hm
    rcases look e m hm with ⟨rfl, rfl⟩ | ⟨a, b⟩ <;> omega
  · intro e m hm
    rcases look e m hm with ⟨rfl, rfl⟩ | ⟨a, b⟩
    · omega
    · have := h.pos e m b; omega
  · intro e m hm
    rcases look e m hm with ⟨rfl, rfl⟩ | ⟨a, b⟩
    · omega
    · have := h.tile e m b; omega
  · intro e f m k hm hk'
    rcases look e m hm with ⟨rfl, rfl⟩ | ⟨a, b⟩ <;> rcases look f k hk' with ⟨rfl, rfl⟩ | ⟨c, d⟩
    · omega
    · have := h.tile f k d; omega
    · have := h.pos e m b; omega
    · exact h.two e f m k b d
  · intro e f m k hm hk' hh
    rcases look e m hm with ⟨rfl, rfl⟩ | ⟨a, b⟩ <;> rcases look f k hk' with ⟨rfl, rfl⟩ | ⟨c, d⟩
    · rfl
    · have := h.pos f k d; omega
    · have := h.pos e m b; omega
    · exact h.posInj e f m k b d hh
  · intro e f m k hm hk' hh
    rcases look e m hm with ⟨rfl, rfl⟩ | ⟨a, b⟩ <;> rcases look f k hk' with ⟨rfl, rfl⟩ | ⟨c, d⟩
    · rfl
    · have := h.tile f k d; omega
    · have := h.tile e m b; omega
    · exact h.tileInj e f m k b d hh
  · intro e m hm
    rcases look e m hm with ⟨rfl, rfl⟩ | ⟨a, b⟩
    · rw [hn.1, hp]; simp
    · rw [hk _ (h.pos e m b), h.posKind e m b, Function.update_of_ne (by omega)]
  · intro e m hm
    rcases look e m hm with ⟨rfl, rfl⟩ | ⟨a, b⟩
    · rw [hn.2, ht]; simp
    · rw [hk _ (h.tile e m b), h.tileKind e m b, Function.update_of_ne (by omega)]
  · intro g m hm
    rw [hg] at hm
    have := h.grp g m hm
    omega
  · intro e hle
    rw [Function.update_of_ne (by omega)]
    exact h.fresh e (by omega)

theorem Sound.mapEnt {w : World} {o : ℕ → ℕ} (h : Sound w o) (e : ℕ) (v : Option Ent)
    (hv : ∀ m, v = some m → ∃ n, w.ent e = some n ∧ m.pos = n.pos ∧ m.tile = n.tile) : Sound { w with ent := Function.update w.ent e v } o := by
  have look : ∀ f m, (Function.update w.ent e v) f = some m → ∃ n, w.ent f = some n ∧ m.pos = n.pos ∧ m.tile = n.tile := by
    intro f m hm
    by_cases x : f = e
    · subst x; rw [Function.update_self] at hm; exact hv m hm
    · rw [Function.update_of_ne x] at hm; exact ⟨m, hm, rfl, rfl⟩
  constructor
  · intro f m hm
    obtain ⟨n, a, b, c⟩ := look f m hm
    exact h.id f n a
  · intro f m hm
    obtain ⟨n, a, b, c⟩ := look f m hm
    rw [b]; exact h.pos f n a
  · intro f m hm
    obtain ⟨n, a, b, c⟩ := look f m hm
    rw [c]; exact h.tile f n a
  · intro f g m k hm hk
    obtain ⟨n, a, b, c⟩ := look f m hm
    obtain ⟨n', a', b', c'⟩ := look g k hk
    rw [b, c']; exact h.two f g n n' a a'
  · intro f g m k hm hk hh
    obtain ⟨n, a, b, c⟩ := look f m hm
    obtain ⟨n', a', b', c'⟩ := look g k hk
    rw [b, b'] at hh; exact h.posInj f g n n' a a' hh
  · intro f g m k hm hk hh
    obtain ⟨n, a, b, c⟩ := look f m hm
    obtain ⟨n', a', b', c'⟩ := look g k hk
    rw [c, c'] at hh; exact h.tileInj f g n n' a a' hh
  · intro f m hm
    obtain ⟨n, a, b, c⟩ := look f m hm
    rw [b]; exact h.posKind f n a
  · intro f m hm
    obtain ⟨n, a, b, c⟩ := look f m hm
    rw [c]; exact h.tileKind f n a
  · exact h.grp
  · exact h.fresh

theorem Sound.later {w : World} {o : ℕ → ℕ} (h : Sound w o) : Sound { w with next := w.next + 1 } o :=
  ⟨fun e n x => Nat.lt_succ_of_lt (h.id e n x), fun e n x => Nat.lt_succ_of_lt (h.pos e n x), fun e n x => Nat.lt_succ_of_lt (h.tile e n x), h.two, h.posInj, h.tileInj,
    h.posKind, h.tileKind, fun g n x => Nat.lt_succ_of_lt (h.grp g n x), fun e x => h.fresh e (by simp only at x; omega)⟩

theorem Sound.group {w : World} {o : ℕ → ℕ} (h : Sound w o) (g : ℕ) (b : Bool) (s : Src) (hs : s.there w = true) : Sound (w.putGroup g b s) o := by
  cases s with
  | cell c =>
    refine ⟨h.id, h.pos, h.tile, h.two, h.posInj, h.tileInj, h.posKind, h.tileKind, ?_, h.fresh⟩
    intro f n hn
    by_cases x : f = g
    · subst x
      simp only [World.putGroup, Function.update_self, Option.some.injEq] at hn
      subst hn
      show c < w.next
      simpa [Src.there] using hs
    · simp only [World.putGroup, Function.update_of_ne x] at hn
      exact h.grp f n hn
  | tuple x y =>
    refine ⟨fun e n q => Nat.lt_succ_of_lt (h.id e n q), fun e n q => Nat.lt_succ_of_lt (h.pos e n q), fun e n q => Nat.lt_succ_of_lt (h.tile e n q), h.two, h.posInj,
      h.tileInj, ?_, ?_, ?_, fun e q => h.fresh e (by simp only [World.putGroup] at q; omega)⟩
    · intro e n q
      have := h.pos e n q
      simp only [World.putGroup]
      rw [Function.update_of_ne (by omega)]
      exact h.posKind e n q
    · intro e n q
      have := h.tile e n q
      simp only [World.putGroup]
      rw [Function.update_of_ne (by omega)]
      exact h.tileKind e n q
    · intro f n hn
      by_cases e : f = g
      · subst e
        simp only [World.putGroup, Function.update_self, Option.some.injEq] at hn
        subst hn
        simp [World.putGroup]
      · simp only [World.putGroup, Function.update_of_ne e] at hn
        exact Nat.lt_succ_of_lt (h.grp f n hn)

theorem coord_frame (w : World) (c : ℕ) (a : Axis) (q : ℚ) : (w.coord c a q).1.ent = w.ent ∧ (w.coord c a q).1.grp = w.grp ∧ (w.coord c a q).1.next = w.next ∧
    ∀ d, ((w.coord c a q).1.cell d).kind = (w.cell d).kind := by
  unfold World.coord
  split
  · simp
  · split <;> simp
  · split <;> simp

theorem sound {w : World} {o : ℕ → ℕ} (h : Hist w o) : Sound w o := by
  induction h with
  | start => constructor <;> intros <;> first | rfl | (rename_i x; cases x) | (rename_i x _; cases x)
  | @step w o op _ hop ih =>
    cases op with
    | newEntity a b v =>
      have := ih.add (w' := w.newEntity a b v) ⟨w.next + 1, w.next + 2, a, b, false⟩ w.next ⟨rfl, rfl⟩ rfl rfl rfl
        (by intro c hc; simp only [World.newEntity, World.setTile, write_kind]; rw [Function.update_of_ne (by omega), Function.update_of_ne (by omega)])
        (by simp only [World.newEntity, World.setTile, write_kind]; rw [Function.update_of_ne (by omega), Function.update_self])
        (by simp only [World.newEntity, World.setTile, write_kind]; rw [Function.update_self])
      rwa [Function.update_eq_self_iff.2 (ih.fresh _ le_rfl).symm] at this
    | newGroup s =>
      simp only [World.step]
      split_ifs with hs
      · refine ih.later.group _ _ _ ?_
        cases s with
        | cell c => simp only [Src.there, decide_eq_true_eq] at hs ⊢; omega
        | tuple x y => rfl
      · exact ih
    | copy e => exact absurd rfl (hop e)
    | gone e => exact ih.mapEnt e none (by intro m hm; cases hm)
    | hold e b =>
      simp only [World.step]
      cases hn : w.ent e with
      | none => exact ih
      | some n => exact ih.mapEnt e _ (by intro m hm; cases hm; exact ⟨n, hn, rfl, rfl⟩)
    | holdGroup g b =>
      simp only [World.step]
      cases hn : w.grp g with
      | none => exact ih
      | some n =>
        refine ⟨ih.id, ih.pos, ih.tile, ih.two, ih.posInj, ih.tileInj, ih.posKind, ih.tileKind, ?_, ih.fresh⟩
        intro f m hm
        by_cases x : f = g
        · subst x
          simp only [Function.update_self, Option.some.injEq] at hm
          subst hm
          exact ih.grp f n hn
        · simp only [Function.update_of_ne x] at hm
          exact ih.grp f m hm
    | setPos e v =>
      simp only [World.step]
      cases hn : w.ent e with
      | none => exact ih
      | some n =>
        simp only [World.setPos]
        split_ifs
        · exact ih
        · exact ih.same rfl rfl rfl (by intro c; simp)
    | setTile e v =>
      simp only [World.step]
      cases hn : w.ent e with
      | none => exact ih
      | some n => exact ih.same rfl rfl rfl (by intro c; simp [World.setTile])
    | groupPos g s =>
      simp only [World.step]
      cases hn : w.grp g with
      | none => exact ih
      | some n =>
        simp only
        split_ifs with h1 h2
        · exact ih
        · exact ih.group _ _ _ h2
        · exact ih
    | coord c a q =>
      simp only [World.step]
      split_ifs
      · obtain ⟨h1, h2, h3, h4⟩ := coord_frame w c a q
        exact ih.same h1 h2 h3 h4
      · exact ih
    | item c k q =>
      simp only [World.step]
      split_ifs
      · cases k with
        | name a => exact ih.same rfl rfl rfl (by intro d; simp [World.item])
        | int i =>
          simp only [World.item]
          split_ifs
          · exact ih.same rfl rfl rfl (by intro d; simp)
          · exact ih.same rfl rfl rfl (by intro d; simp)
          · exact ih
      · exact ih
    | update c x y =>
      simp only [World.step]
      split_ifs
      · exact ih.same rfl rfl rfl (by intro d; simp)
      · exact ih
  | @copy w o e _ ih =>
    simp only [World.step]
    cases hn : w.ent e with
    | none => simpa using ih
    | some n =>
      simp only [Option.isSome_some, if_true]
      refine ih.add (w' := w.copy n) ⟨w.next + 1, w.next + 2, n.w, n.h, false⟩ (o e) ⟨rfl, rfl⟩ rfl rfl rfl ?_ ?_ ?_
      · intro c hc
        simp only [World.copy]
        rw [Function.update_of_ne (by omega), Function.update_of_ne (by omega)]
      · simp only [World.copy]
        rw [Function.update_of_ne (by omega), Function.update_self]
        exact ih.posKind e n hn
      · simp only [World.copy]
        rw [Function.update_self]
        exact ih.tileKind e n hn

theorem pos_of {w w' : World} (he : w'.ent = w.ent) {e : ℕ} {n : Ent} (hn : w.ent e = some n) : w'.pos e = some (w'.cell n.pos).val := by
  simp [World.pos, he, hn]

theorem tile_of {w w' : World} (he : w'.ent = w.ent) {e : ℕ} {n : Ent} (hn : w.ent e = some n) : w'.tile e = some (w'.cell n.tile).val := by
  simp [World.tile, he, hn]

theorem pos_none {w w' : World} (he : w'.ent = w.ent) {e : ℕ} (hn : w.ent e = none) : w'.pos e = none := by simp [World.pos, he, hn]
theorem tile_none {w w' : World} (he : w'.ent = w.ent) {e : ℕ} (hn : w.ent e = none) : w'.tile e = none := by simp [World.tile, he, hn]

/-- Which vectors show something else after one vector object changed. -/
theorem pos_poke {w : World} {o : ℕ → ℕ} (h : Sound w o) {e : ℕ} {n : Ent} (hn : w.ent e = some n) (a : Axis) (q : ℚ) :
    (w.poke n.pos a q).pos e = some (put (w.cell n.pos).val a q) ∧ (∀ f, f ≠ e → (w.poke n.pos a q).pos f = w.pos f) ∧
    (∀ f, (w.poke n.pos a q).tile f = w.tile f) ∧ (w.poke n.tile a q).tile e = some (put (w.cell n.tile).val a q) ∧
    (∀ f, f ≠ e → (w.poke n.tile a q).tile f = w.tile f) ∧ ∀ f, (w.poke n.tile a q).pos f = w.pos f := by
  refine ⟨?_, ?_, ?_, ?_, ?_, ?_⟩
  · simp [World.pos, hn, poke_val]
  · intro f hf
    cases hm : w.ent f with
    | none => simp [World.pos, hm]
    | some m => simp only [World.pos, poke_ent, hm, Option.map_some, poke_val]; rw [if_neg (fun x => hf (h.posInj f e m n hm hn x))]
  · intro f
    cases hm : w.ent f with
    | none => simp [World.tile, hm]
    | some m => simp only [World.tile, poke_ent, hm, Option.map_some, poke_val]; rw [if_neg (fun x => h.two e f n m hn hm x.symm)]
  · simp [World.tile, hn, poke_val]
  · intro f hf
    cases hm : w.ent f with
    | none => simp [World.tile, hm]
    | some m => simp only [World.tile, poke_ent, hm, Option.map_some, poke_val]; rw [if_neg (fun x => hf (h.tileInj f e m n hm hn x))]
  · intro f
    cases hm : w.ent f with
    | none => simp [World.pos, hm]
    | some m => simp only [World.pos, poke_ent, hm, Option.map_some, poke_val]; rw [if_neg (fun x => h.two f e m n hm hn x)]

theorem Sound.poke {w : World} {o : ℕ → ℕ} (h : Sound w o) (c : ℕ) (a : Axis) (q : ℚ) : Sound (w.poke c a q) o := h.same rfl rfl rfl (by intro d; simp)

/-- Specification: the fraction of `q` is cut off. -/
def Cut (q : ℚ) (i : ℤ) : Prop := |(i : ℚ)| ≤ |q| ∧ |q - i| < 1

theorem cut (q : ℚ) : Cut q (pyTrunc q) := by
  unfold pyTrunc Cut
  split
  · rename_i h
    have h1 := Int.floor_le q
    have h2 := Int.lt_floor_add_one q
    have h3 : (0 : ℚ) ≤ (⌊q⌋ : ℤ) := by exact_mod_cast Int.floor_nonneg.2 h
    rw [abs_of_nonneg h3, abs_of_nonneg h, abs_lt]
    exact ⟨h1, by linarith, by linarith⟩
  · rename_i h
    push Not at h
    have h1 := Int.le_ceil q
    have h2 := Int.ceil_lt_add_one q
    have h3 : ((⌈q⌉ : ℤ) : ℚ) ≤ 0 := by exact_mod_cast Int.ceil_le.2 (by simpa using h.le)
    rw [abs_of_nonpos h3, abs_of_neg h, abs_lt]
    exact ⟨by linarith, by linarith, by linarith⟩

theorem cut_int (i : ℤ) : pyTrunc (i : ℚ) = i := by unfold pyTrunc; split <;> simp

/-- Specification: how far an entity reaches along an axis, in tiles: its width along `x`, its height along `y`. -/
def extent (n : Ent) : Axis → ℕ
  | .x => n.w
  | .y => n.h

theorem size_extent (n : Ent) (a : Axis) : n.size a = extent n a := by cases a <;> rfl

/-- C108: what `entity.position.x = v` (or `y`) does after any history.  The coordinate of the entity is set and nothing else of its position, nor the position of
any other entity.  The tile position that is brought along is that of the origin of the entity; if the origin is gone, there is an exception. -/
theorem C108_position {w : World} {o : ℕ → ℕ} (h : Hist w o) {e : ℕ} {n : Ent} (hn : w.ent e = some n) (a : Axis) (v : ℚ) :
    (w.coord n.pos a v).1.pos e = some (put (w.cell n.pos).val a v) ∧ (∀ f, f ≠ e → (w.coord n.pos a v).1.pos f = w.pos f) ∧
    (∀ f, f ≠ o e → (w.coord n.pos a v).1.tile f = w.tile f) ∧
    (w.ent (o e) = none → (w.coord n.pos a v).2 = some .attributeError) ∧
    ∀ m, w.ent (o e) = some m → (w.coord n.pos a v).2 = none ∧
      ∃ i : ℤ, RoundsTo (v - extent m a / 2) i ∧ (w.coord n.pos a v).1.tile (o e) = some (put (w.cell m.tile).val a i) := by
  have hs := sound h
  obtain ⟨p1, p2, p3, -⟩ := pos_poke hs hn a v
  simp only [World.coord, hs.posKind e n hn, size_extent]
  cases hm : w.ent (o e) with
  | none => exact ⟨p1, p2, fun f _ => p3 f, by simp, by simp⟩
  | some m =>
    have hs' := hs.poke n.pos a v
    have hm' : (w.poke n.pos a v).ent (o e) = some m := hm
    obtain ⟨-, -, -, q4, q5, q6⟩ := pos_poke hs' hm' a (pyRound (v - extent m a / 2))
    refine ⟨by rw [q6, p1], fun f hf => by rw [q6, p2 f hf], fun f hf => by rw [q5 f hf, p3], by simp, ?_⟩
    rintro m' hm''
    cases hm''
    refine ⟨rfl, _, pyRound_spec _, ?_⟩
    rw [q4, poke_val, if_neg (fun x => hs.two e (o e) n m hn hm x.symm)]

/-- C108: what `entity.tile_position.x = v` (or `y`) does after any history: the fraction is cut off; the position that is brought along, with the
fraction, is that of the origin. -/
theorem C108_tile {w : World} {o : ℕ → ℕ} (h : Hist w o) {e : ℕ} {n : Ent} (hn : w.ent e = some n) (a : Axis) (v : ℚ) :
    (∃ i : ℤ, Cut v i ∧ (w.coord n.tile a v).1.tile e = some (put (w.cell n.tile).val a i)) ∧ (∀ f, f ≠ e → (w.coord n.tile a v).1.tile f = w.tile f) ∧
    (∀ f, f ≠ o e → (w.coord n.tile a v).1.pos f = w.pos f) ∧
    (w.ent (o e) = none → (w.coord n.tile a v).2 = some .attributeError) ∧
    ∀ m, w.ent (o e) = some m → (w.coord n.tile a v).2 = none ∧ (w.coord n.tile a v).1.pos (o e) = some (put (w.cell m.pos).val a (v + extent m a / 2)) := by
  have hs := sound h
  obtain ⟨-, -, -, p1, p2, p3⟩ := pos_poke hs hn a (pyTrunc v)
  simp only [World.coord, hs.tileKind e n hn, size_extent]
  cases hm : w.ent (o e) with
  | none => exact ⟨⟨_, cut v, p1⟩, p2, fun f _ => p3 f, by simp, by simp⟩
  | some m =>
    have hs' := hs.poke n.tile a (pyTrunc v)
    have hm' : (w.poke n.tile a (pyTrunc v)).ent (o e) = some m := hm
    obtain ⟨q4, q5, q6, -⟩ := pos_poke hs' hm' a (v + extent m a / 2)
    refine ⟨⟨_, cut v, by rw [q6, p1]⟩, fun f hf => by rw [q6, p2 f hf], fun f hf => by rw [q5 f hf, p3], by simp, ?_⟩
    rintro m' hm''
    cases hm''
    refine ⟨rfl, ?_⟩
    rw [q4, poke_val, if_neg (fun x => hs.two (o e) e m n hm hn x)]

/-- Specification: position and tile position say the same, in one coordinate. -/
def AgreeOn (w : World) (e : ℕ) (a : Axis) : Prop :=
  ∃ n p t, w.ent e = some n ∧ w.pos e = some p ∧ w.tile e = some t ∧ get p a = get t a + extent n a / 2

/-- C108: for an entity that is no copy, `position.x = v` keeps the two positions in agreement if the tile grid allows `v`, `tile_position.x = v` does if `v` is
whole, and both leave the other coordinate and all other entities alone.
Missing: copies (`C108_copy_refuted`), fractions (`C108_fraction_refuted`). -/
theorem C108_agree_partial {w : World} {o : ℕ → ℕ} (h : Hist w o) {e : ℕ} {n : Ent} (hn : w.ent e = some n) (ho : o e = e) (a : Axis) (i : ℤ) :
    (AgreeOn (w.coord n.pos a (i + extent n a / 2)).1 e a ∧ AgreeOn (w.coord n.tile a i).1 e a) ∧
    ((w.coord n.pos a (i + extent n a / 2)).2 = none ∧ (w.coord n.tile a i).2 = none) ∧
    (∀ b, b ≠ a → AgreeOn w e b → AgreeOn (w.coord n.pos a (i + extent n a / 2)).1 e b ∧ AgreeOn (w.coord n.tile a i).1 e b) ∧
    ∀ f, f ≠ e → ((w.coord n.pos a (i + extent n a / 2)).1.pos f = w.pos f ∧ (w.coord n.pos a (i + extent n a / 2)).1.tile f = w.tile f) ∧
      (w.coord n.tile a i).1.pos f = w.pos f ∧ (w.coord n.tile a i).1.tile f = w.tile f := by
  obtain ⟨p1, p2, p3, -, p5⟩ := C108_position h hn a (i + extent n a / 2)
  obtain ⟨⟨k, hk, t1⟩, t2, t3, -, t5⟩ := C108_tile h hn a i
  rw [ho] at p3 p5 t3 t5
  obtain ⟨p6, j, hj, p7⟩ := p5 n hn
  obtain ⟨t6, t7⟩ := t5 n hn
  have hi : j = i := by
    refine hj.unique ?_
    have : ((i : ℚ) + extent n a / 2 - extent n a / 2) - i = 0 := by ring
    unfold RoundsTo
    rw [this]
    norm_num
  have hki : k = i := by
    have h2 := hk.2
    have : |((i - k : ℤ) : ℚ)| < 1 := by push_cast; exact h2
    rw [← Int.cast_abs] at this
    have : |i - k| < 1 := by exact_mod_cast this
    have := abs_lt.1 this
    omega
  rw [hi] at p7
  rw [hki] at t1
  have e1 : (w.coord n.pos a ((i : ℚ) + extent n a / 2)).1.ent e = some n := by rw [(coord_frame _ _ _ _).1, hn]
  have e2 : (w.coord n.tile a (i : ℚ)).1.ent e = some n := by rw [(coord_frame _ _ _ _).1, hn]
  refine ⟨⟨⟨n, _, _, e1, p1, p7, by simp⟩, ⟨n, _, _, e2, t7, t1, by simp⟩⟩, ⟨p6, t6⟩, ?_, fun f hf => ⟨⟨p2 f hf, p3 f hf⟩, t3 f hf, t2 f hf⟩⟩
  rintro b hb ⟨n', p, t, a1, a2, a3, a4⟩
  rw [hn] at a1
  cases a1
  rw [pos_of (w := w) rfl hn] at a2
  rw [tile_of (w := w) rfl hn] at a3
  cases a2
  cases a3
  exact ⟨⟨n, _, _, e1, p1, p7, by rw [get_put_ne _ hb, get_put_ne _ hb]; exact a4⟩, ⟨n, _, _, e2, t7, t1, by rw [get_put_ne _ hb, get_put_ne _ hb]; exact a4⟩⟩

/-! ### Groups -/

/-- Histories in which groups get their positions as coordinates. -/
inductive Tuples : World → (ℕ → ℕ) → Prop where
  | start : Tuples World.empty id
  | step {w o} (op : Op) : Tuples w o → (∀ e, op ≠ .copy e) → (∀ c, op ≠ .newGroup (.cell c)) → (∀ g c, op ≠ .groupPos g (.cell c)) → Tuples (w.step op).1 o
  | copy {w o} (e : ℕ) : Tuples w o → Tuples (w.step (.copy e)).1 (if (w.ent e).isSome then Function.update o w.next (o e) else o)

theorem Tuples.hist {w : World} {o : ℕ → ℕ} (h : Tuples w o) : Hist w o := by
  induction h with
  | start => exact .start
  | step op _ h1 _ _ ih => exact .step op ih h1
  | copy e _ ih => exact .copy e ih

theorem Tuples.plain {w : World} {o : ℕ → ℕ} (h : Tuples w o) : (∀ g n, w.grp g = some n → (w.cell n.pos).kind = .plain) ∧
    ∀ g k n m, w.grp g = some n → w.grp k = some m → n.pos = m.pos → g = k := by
  have keep : ∀ {w w' : World}, w'.grp = w.grp → (∀ c, c < w.next → (w'.cell c).kind = (w.cell c).kind) → (∀ g n, w.grp g = some n → n.pos < w.next) →
      ((∀ g n, w.grp g = some n → (w.cell n.pos).kind = .plain) ∧ ∀ g k n m, w.grp g = some n → w.grp k = some m → n.pos = m.pos → g = k) →
      (∀ g n, w'.grp g = some n → (w'.cell n.pos).kind = .plain) ∧ ∀ g k n m, w'.grp g = some n → w'.grp k = some m → n.pos = m.pos → g = k := by
    rintro w w' hg hk hb ⟨h1, h2⟩
    rw [hg]
    exact ⟨fun g n hn => by rw [hk _ (hb g n hn)]; exact h1 g n hn, h2⟩
  have grow : ∀ (w : World) (g : ℕ) (b : Bool) (x y : ℚ), (∀ g n, w.grp g = some n → n.pos < w.next) →
      ((∀ g n, w.grp g = some n → (w.cell n.pos).kind = .plain) ∧ ∀ g k n m, w.grp g = some n → w.grp k = some m → n.pos = m.pos → g = k) →
      (∀ k n, (w.putGroup g b (.tuple x y)).grp k = some n → ((w.putGroup g b (.tuple x y)).cell n.pos).kind = .plain) ∧
      ∀ k k' n m, (w.putGroup g b (.tuple x y)).grp k = some n → (w.putGroup g b (.tuple x y)).grp k' = some m → n.pos = m.pos → k = k' := by
    rintro w g b x y hb ⟨h1, h2⟩
    have look : ∀ k n, (w.putGroup g b (.tuple x y)).grp k = some n → (k = g ∧ n.pos = w.next) ∨ (w.grp k = some n ∧ n.pos < w.next) := by
      intro k n hn
      by_cases e : k = g
      · subst e
        simp only [World.putGroup, Function.update_self, Option.some.injEq] at hn
        subst hn
        exact .inl ⟨rfl, rfl⟩
      · simp only [World.putGroup, Function.update_of_ne e] at hn
        exact .inr ⟨hn, hb k n hn⟩
    refine ⟨?_, ?_⟩
    · intro k n hn
      rcases look k n hn with ⟨rfl, e⟩ | ⟨e, l⟩
      · rw [e]; simp [World.putGroup]
      · simp only [World.putGroup]
        rw [Function.update_of_ne (by omega)]
        exact h1 k n e
    · intro k k' n m hn hm hh
      rcases look k n hn with ⟨rfl, e⟩ | ⟨e, l⟩ <;> rcases look k' m hm with ⟨rfl, e'⟩ | ⟨e', l'⟩
      · rfl
      · omega
      · omega
      · exact h2 k k' n m e e' hh
  induction h with
  | start =>
    refine ⟨?_, ?_⟩
    · intro g n hn; cases hn
    · intro g k n m hn; cases hn
  | @step w o op hh hop h1 h2 ih =>
    have hs := sound hh.hist
    cases op with
    | newEntity a b v =>
      exact keep (w := w) (w' := w.newEntity a b v) rfl
        (by intro c hc; simp only [World.newEntity, World.setTile, write_kind]; rw [Function.update_of_ne (by omega), Function.update_of_ne (by omega)]) hs.grp ih
    | newGroup s =>
      cases s with
      | cell c => exact absurd rfl (h1 c)
      | tuple x y => exact grow { w with next := w.next + 1 } _ _ _ _ hs.later.grp ih
    | copy e => exact absurd rfl (hop e)
    | gone e => exact ih
    | hold e b =>
      simp only [World.step]
      cases hn : w.ent e <;> exact ih
    | holdGroup g b =>
      simp only [World.step]
      cases hn : w.grp g with
      | none => exact ih
      | some n =>
        have look : ∀ k m, (Function.update w.grp g (some { n with held := b })) k = some m → ∃ m', w.grp k = some m' ∧ m.pos = m'.pos := by
          intro k m hm
          by_cases x : k = g
          · subst x
            simp only [Function.update_self, Option.some.injEq] at hm
            subst hm
            exact ⟨n, hn, rfl⟩
          · rw [Function.update_of_ne x] at hm
            exact ⟨m, hm, rfl⟩
        refine ⟨?_, ?_⟩
        · intro k m hm
          obtain ⟨m', a, c⟩ := look k m hm
          rw [c]; exact ih.1 k m' a
        · intro k k' m m' hm hm' hh
          obtain ⟨q, a, c⟩ := look k m hm
          obtain ⟨q', a', c'⟩ := look k' m' hm'
          exact ih.2 k k' q q' a a' (by rw [← c, ← c', hh])
    | setPos e v =>
      simp only [World.step]
      cases hn : w.ent e with
      | none => exact ih
      | some n =>
        simp only [World.setPos]
        split_ifs
        · exact ih
        · exact keep (w := w) rfl (by intro c _; simp) hs.grp ih
    | setTile e v =>
      simp only [World.step]
      cases hn : w.ent e with
      | none => exact ih
      | some n => exact keep (w := w) rfl (by intro c _; simp [World.setTile]) hs.grp ih
    | groupPos g s =>
      cases s with
      | cell c => exact absurd rfl (h2 g c)
      | tuple x y =>
        simp only [World.step]
        cases hn : w.grp g with
        | none => exact ih
        | some n =>
          simp only [Src.there, if_true]
          split_ifs
          · exact ih
          · exact grow w _ _ _ _ hs.grp ih
    | coord c a q =>
      simp only [World.step]
      split_ifs
      · obtain ⟨h1, h2, h3, h4⟩ := coord_frame w c a q
        exact keep h2 (fun d _ => h4 d) hs.grp ih
      · exact ih
    | item c k q =>
      simp only [World.step]
      split_ifs
      · cases k with
        | name a => exact keep (w := w) rfl (by intro d _; simp [World.item]) hs.grp ih
        | int i =>
          simp only [World.item]
          split_ifs
          · exact keep (w := w) rfl (by intro d _; simp) hs.grp ih
          · exact keep (w := w) rfl (by intro d _; simp) hs.grp ih
          · exact ih
      · exact ih
    | update c x y =>
      simp only [World.step]
      split_ifs
      · exact keep (w := w) rfl (by intro d _; simp) hs.grp ih
      · exact ih
  | @copy w o e hh ih =>
    simp only [World.step]
    cases hn : w.ent e with
    | none => exact ih
    | some n =>
      refine keep (w := w) (w' := w.copy n) rfl ?_ (sound hh.hist).grp ih
      intro c hc
      simp only [World.copy]
      rw [Function.update_of_ne (by omega), Function.update_of_ne (by omega)]

theorem coord_elsewhere {w : World} {o : ℕ → ℕ} (h : Sound w o) {d : ℕ} (hd : (w.cell d).kind = .plain) (c : ℕ) (hc : d ≠ c) (a : Axis) (q : ℚ) :
    ((w.coord c a q).1.cell d).val = (w.cell d).val := by
  unfold World.coord
  split
  · rw [poke_val, if_neg hc]
  · rename_i e _
    cases hm : w.ent e with
    | none => simp only; rw [poke_val, if_neg hc]
    | some m =>
      simp only
      have : d ≠ m.tile := fun x => by rw [x, h.tileKind e m hm] at hd; cases hd
      rw [poke_val, if_neg this, poke_val, if_neg hc]
  · rename_i e _
    cases hm : w.ent e with
    | none => simp only; rw [poke_val, if_neg hc]
    | some m =>
      simp only
      have : d ≠ m.pos := fun x => by rw [x, h.posKind e m hm] at hd; cases hd
      rw [poke_val, if_neg this, poke_val, if_neg hc]

/-- C108: when groups get their positions as coordinates, a coordinate changed in place of an entity moves no group, one of a group moves that group only, and no entity.
Missing: positions given as vectors (`C108_shared_refuted`). -/
theorem C108_groups_partial {w : World} {o : ℕ → ℕ} (h : Tuples w o) (a : Axis) (v : ℚ) :
    (∀ e n, w.ent e = some n → ∀ g, (w.coord n.pos a v).1.place g = w.place g ∧ (w.coord n.tile a v).1.place g = w.place g) ∧
    ∀ g n, w.grp g = some n → (w.coord n.pos a v).1.place g = some (put (w.cell n.pos).val a v) ∧ (∀ k, k ≠ g → (w.coord n.pos a v).1.place k = w.place k) ∧
      ∀ e, (w.coord n.pos a v).1.pos e = w.pos e ∧ (w.coord n.pos a v).1.tile e = w.tile e := by
  have hs := sound h.hist
  obtain ⟨h1, h2⟩ := h.plain
  refine ⟨?_, ?_⟩
  · intro e n hn g
    have aux : ∀ c, (∀ m, w.grp g = some m → m.pos ≠ c) → (w.coord c a v).1.place g = w.place g := by
      intro c hc
      simp only [World.place, (coord_frame w c a v).2.1]
      cases hm : w.grp g with
      | none => rfl
      | some m => simp only [Option.map_some]; rw [coord_elsewhere hs (h1 g m hm) c (hc m hm)]
    refine ⟨aux _ ?_, aux _ ?_⟩
    · intro m hm x
      have := h1 g m hm
      rw [x, hs.posKind e n hn] at this
      cases this
    · intro m hm x
      have := h1 g m hm
      rw [x, hs.tileKind e n hn] at this
      cases this
  · intro g n hn
    have hc : w.coord n.pos a v = (w.poke n.pos a v, none) := by simp only [World.coord, h1 g n hn]
    rw [hc]
    refine ⟨?_, ?_, ?_⟩
    · simp [World.place, hn, poke_val]
    · intro k hk
      simp only [World.place, poke_grp]
      cases hm : w.grp k with
      | none => rfl
      | some m => simp only [Option.map_some]; rw [poke_val, if_neg (fun x => hk (h2 k g m n hm hn x))]
    · intro e
      cases hm : w.ent e with
      | none => exact ⟨by simp [World.pos, hm], by simp [World.tile, hm]⟩
      | some m =>
        have a1 : m.pos ≠ n.pos := fun x => by have := h1 g n hn; rw [← x, hs.posKind e m hm] at this; cases this
        have a2 : m.tile ≠ n.pos := fun x => by have := h1 g n hn; rw [← x, hs.tileKind e m hm] at this; cases this
        exact ⟨by simp [World.pos, hm, poke_val, a1], by simp [World.tile, hm, poke_val, a2]⟩

/-! ### Refuted -/

/-- Refuted: position and tile position of an entity agree after a coordinate is set.  For a fraction they never do: the tile position is whole, the
position is not. -/
theorem C108_fraction_refuted {w : World} {o : ℕ → ℕ} (h : Hist w o) {e : ℕ} {n : Ent} (hn : w.ent e = some n) (ho : o e = e) (a : Axis) (v : ℚ)
    (hv : ∀ i : ℤ, v ≠ i) : ¬ AgreeOn (w.coord n.tile a v).1 e a := by
  obtain ⟨⟨i, -, t1⟩, -, -, -, t5⟩ := C108_tile h hn a v
  rw [ho] at t5
  obtain ⟨-, t7⟩ := t5 n hn
  rintro ⟨n', p, t, a1, a2, a3, a4⟩
  rw [(coord_frame _ _ _ _).1, hn] at a1
  rw [t7] at a2
  rw [t1] at a3
  cases a1
  cases a2
  cases a3
  simp only [get_put_same] at a4
  exact hv i (by linarith)

/-- Refuted: the position of an entity in a collection cannot be changed.  Assigning the position is refused, but a coordinate of it can be assigned; whether the
entity has a parent is not looked at. -/
theorem C108_held_refuted {w : World} {o : ℕ → ℕ} (h : Hist w o) {e : ℕ} {n : Ent} (hn : w.ent e = some n) (hh : n.held = true) (ho : o e = e) (a : Axis) (v : ℚ) :
    (∀ u, w.step (.setPos e u) = (w, some .draftsmanError)) ∧
    (w.coord n.pos a v).2 = none ∧ (w.coord n.pos a v).1.pos e = some (put (w.cell n.pos).val a v) := by
  obtain ⟨p1, -, -, -, p5⟩ := C108_position h hn a v
  rw [ho] at p5
  exact ⟨fun u => by simp [World.step, hn, World.setPos, hh], (p5 n hn).1, p1⟩

/-- Refuted: a coordinate of a copy can be set as that of the original.  `append` copies, so this is what entities of blueprints are: the tile position of the copy
stays as it was, and that of the original changes, though its position does not. -/
theorem C108_copy_refuted {w : World} {o : ℕ → ℕ} (h : Hist w o) {e : ℕ} {n m : Ent} (hn : w.ent e = some n) (ho : o e ≠ e) (hm : w.ent (o e) = some m) (a : Axis)
    (v : ℚ) : (w.coord n.pos a v).1.pos e = some (put (w.cell n.pos).val a v) ∧ (w.coord n.pos a v).1.tile e = w.tile e ∧
    (w.coord n.pos a v).1.pos (o e) = w.pos (o e) ∧
    ∃ i : ℤ, RoundsTo (v - extent m a / 2) i ∧ (w.coord n.pos a v).1.tile (o e) = some (put (w.cell m.tile).val a i) := by
  obtain ⟨p1, p2, p3, -, p5⟩ := C108_position h hn a v
  exact ⟨p1, p3 e (Ne.symm ho), p2 _ ho, (p5 m hm).2⟩

/-- Refuted: setting a coordinate to a number never fails.  When the original of a copy is gone, it raises an `AttributeError`, after the coordinate was stored. -/
theorem C108_gone_refuted {w : World} {o : ℕ → ℕ} (h : Hist w o) {e : ℕ} {n : Ent} (hn : w.ent e = some n) (hg : w.ent (o e) = none) (a : Axis) (v : ℚ) :
    (w.coord n.pos a v).2 = some .attributeError ∧ (w.coord n.tile a v).2 = some .attributeError ∧
    (w.coord n.pos a v).1.pos e = some (put (w.cell n.pos).val a v) := by
  obtain ⟨p1, -, -, p4, -⟩ := C108_position h hn a v
  obtain ⟨-, -, -, t4, -⟩ := C108_tile h hn a v
  exact ⟨p4 hg, t4 hg, p1⟩

/-- Refuted: coordinates can be set by index as by name.  `position[0] = v`, `position["x"] = v` and `position.update(v, u)` change the position and leave the tile
position as it was. -/
theorem C108_index_refuted {w : World} {o : ℕ → ℕ} (h : Hist w o) {e : ℕ} {n : Ent} (hn : w.ent e = some n) (v u : ℚ) :
    ((w.item n.pos (.name .x) v).1.pos e = some (put (w.cell n.pos).val .x v) ∧ ∀ f, (w.item n.pos (.name .x) v).1.tile f = w.tile f) ∧
    ((w.item n.pos (.int 0) v).1.pos e = some (put (w.cell n.pos).val .x v) ∧ ∀ f, (w.item n.pos (.int 0) v).1.tile f = w.tile f) ∧
    ((w.write n.pos ⟨v, u⟩).pos e = some ⟨v, u⟩ ∧ ∀ f, (w.write n.pos ⟨v, u⟩).tile f = w.tile f) := by
  have hs := sound h
  obtain ⟨p1, -, p3, -⟩ := pos_poke hs hn .x v
  refine ⟨⟨p1, p3⟩, ⟨p1, p3⟩, ?_, ?_⟩
  · simp [World.pos, hn, write_val]
  · intro f
    cases hm : w.ent f with
    | none => simp [World.tile, hm]
    | some m => simp only [World.tile, write_ent, hm, Option.map_some, write_val]; rw [if_neg (fun x => hs.two e f n m hn hm x.symm)]

/-- Refuted: groups do not share their positions.  After `group.position = entity.position` (or that of another group) the group has the same vector object,
and goes where the entity goes. -/
theorem C108_shared_refuted {w : World} {o : ℕ → ℕ} (h : Hist w o) {e g : ℕ} {n : Ent} {k : Grp} (hn : w.ent e = some n) (hk : w.grp g = some k) (hh : k.held = false)
    (he : n.held = false) (u : PosArg) :
    (((w.step (.groupPos g (.cell n.pos))).1.step (.setPos e u)).1).place g = some u.toFloat := by
  have hs := sound h
  have hl : (Src.cell n.pos).there w = true := by simpa [Src.there] using hs.pos e n hn
  have h1 : (w.step (.groupPos g (.cell n.pos))).1 = w.putGroup g false (.cell n.pos) := by simp [World.step, hk, hh, hl]
  rw [h1]
  have h2 : (w.putGroup g false (.cell n.pos)).ent e = some n := hn
  simp only [World.step, h2, World.setPos, he, World.place]
  simp only [Bool.false_eq_true, if_false, write_grp, World.putGroup, Function.update_self, Option.map_some, write_val]
  rw [if_neg (hs.two e e n n hn hn)]
  simp

section Examples

/-- A furnace (two by two) at the origin, its copy, and a group. -/
def exOps : List Op := [.newEntity 2 2 (.tuple 0 0), .copy 0, .newGroup (.tuple 5 5)]

/-- Run operations.  Model only. -/
def runAll (w : World) (ops : List Op) : World := ops.foldl (fun w op => (w.step op).1) w

theorem ex_tuples : Tuples (runAll World.empty exOps) (Function.update id 3 0) := by
  have h1 : Tuples (World.empty.step (.newEntity 2 2 (.tuple 0 0))).1 id := .step _ .start (by intro _ x; cases x) (by intro _ x; cases x) (by intro _ _ x; cases x)
  have h2 := Tuples.copy 0 h1
  exact .step (.newGroup (.tuple 5 5)) h2 (by intro _ x; cases x) (by intro _ x; cases x) (by intro _ _ x; cases x)

example : Hist (runAll World.empty exOps) (Function.update id 3 0) := ex_tuples.hist
example : (runAll World.empty exOps).ent 0 = some ⟨1, 2, 2, 2, false⟩ ∧ (runAll World.empty exOps).ent 3 = some ⟨4, 5, 2, 2, false⟩ ∧
    (runAll World.empty exOps).grp 6 = some ⟨7, false⟩ := by decide +kernel
/-- The copy is moved in place: its own tile position stays, and that of the original changes. -/
example : let w := runAll World.empty (exOps ++ [.coord 4 .x 10]); w.pos 3 = some ⟨10, 1⟩ ∧ w.tile 3 = some ⟨0, 0⟩ ∧ w.pos 0 = some ⟨1, 1⟩ ∧ w.tile 0 = some ⟨9, 0⟩ := by
  decide +kernel
/-- The original is moved in place. -/
example : let w := runAll World.empty (exOps ++ [.coord 1 .x 10]); w.pos 0 = some ⟨10, 1⟩ ∧ w.tile 0 = some ⟨9, 0⟩ := by decide +kernel
example : ((runAll World.empty (exOps ++ [.gone 0])).step (.coord 4 .x 10)).2 = some .attributeError := by decide +kernel
example : let w := runAll World.empty (exOps ++ [.coord 2 .x (27 / 10)]); w.pos 0 = some ⟨37 / 10, 1⟩ ∧ w.tile 0 = some ⟨2, 0⟩ := by decide +kernel
example : let w := runAll World.empty (exOps ++ [.groupPos 6 (.cell 1), .setPos 0 (.tuple 3 3)]); w.place 6 = some ⟨3, 3⟩ := by decide +kernel
/-- Held, the original cannot be moved as a whole. -/
example : let w := runAll World.empty (exOps ++ [.hold 0 true]); w.ent 0 = some ⟨1, 2, 2, 2, true⟩ ∧ (w.step (.setPos 0 (.tuple 3 3))).2 = some .draftsmanError ∧
    (w.step (.coord 1 .y 3)).1.pos 0 = some ⟨1, 3⟩ := by decide +kernel

end Examples

end InPlace
end Draftsman
