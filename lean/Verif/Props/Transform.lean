import Mathlib.Tactic.FinCases
import Verif.Proof.Transform
import Verif.Props.Position
/-
C20, C21, C22: rotating, flipping and translating a collection.
-/
set_option linter.unusedSimpArgs false
namespace Draftsman

/-! ### Shared specification -/

/-- One clockwise quarter turn about the origin (y points down). -/
def quarterTurn (p : Vec) : Vec := ⟨-p.y, p.x⟩

/-- `a` sixteenths of a turn, for a multiple of four. -/
def turnSixteenths (a : Int) (p : Vec) : Vec := quarterTurn^[(a % 16 / 4).toNat] p

/-- Does the entity have a direction of its own? -/
def PEnt.Directional (e : PEnt) : Prop := e.turning = .fourWay ∨ e.turning = .eightWay

/-- A member of a collection in a normal state: assignments are validated, and a directional entity holds one
of the sixteen directions, a cardinal one if it is a four-way entity. -/
structure PEnt.Sane (e : PEnt) : Prop where
  validated : e.mode.truthy = true
  held : e.held = true
  direction : e.Directional → ∃ d, e.dir = some d ∧ 0 ≤ d ∧ d < 16 ∧ (e.turning = .fourWay → d % 4 = 0)

/-- Position, tile position and footprint are as the setters leave them. -/
structure PEnt.Settled (e : PEnt) : Prop where
  tile : e.turning ≠ .group → e.tile = ⟨pyRound (e.pos.x - e.w / 2), pyRound (e.pos.y - e.h / 2)⟩
  footprint : ∀ d, e.dir = some d → e.w = (e.turned d).w ∧ e.h = (e.turned d).h

/-- The direction, zero when there is none. -/
def PEnt.facing (e : PEnt) : Int := e.dir.getD 0

/-- The entity after a transformation: facing `k`, at `p`. -/
def PEnt.after (e : PEnt) (k : Int) (p : Vec) : PEnt :=
  { (({ e with held := false } : PEnt).turned k).placed p with held := true }

namespace PEnt

theorem after_pos (e : PEnt) (k : Int) (p : Vec) : (e.after k p).pos = p := by
  unfold after turned placed; cases h : e.turning <;> simp [h]
theorem after_turning (e : PEnt) (k : Int) (p : Vec) : (e.after k p).turning = e.turning := by
  unfold after turned placed; cases h : e.turning <;> simp [h]
theorem after_mode (e : PEnt) (k : Int) (p : Vec) : (e.after k p).mode = e.mode := by
  unfold after turned placed; cases h : e.turning <;> simp [h]
theorem after_held (e : PEnt) (k : Int) (p : Vec) : (e.after k p).held = true := rfl
theorem after_flippable (e : PEnt) (k : Int) (p : Vec) : (e.after k p).flippable = e.flippable := by
  unfold after turned placed; cases h : e.turning <;> simp [h]
theorem after_dir (e : PEnt) (k : Int) (p : Vec) (h : e.Directional) : (e.after k p).dir = some k := by
  unfold after turned placed; rcases h with h | h <;> simp [h]
theorem after_dir_fixed (e : PEnt) (k : Int) (p : Vec) (h : ¬ e.Directional) : (e.after k p).dir = e.dir := by
  unfold after turned placed; unfold Directional at h; cases h' : e.turning <;> simp_all
theorem after_after (e : PEnt) (k l : Int) (p q : Vec) : (e.after k p).after l q = e.after l q := by
  rcases e with ⟨t, _, _, _, _, _, _, _, _, _, _, _⟩
  cases t <;> rfl
/-- Without a direction, `k` does not matter. -/
theorem after_undirected (e : PEnt) (k l : Int) (p : Vec) (h : ¬ e.Directional) : e.after k p = e.after l p := by
  rcases e with ⟨t, _, _, _, _, _, _, _, _, _, _, _⟩
  cases t <;> first | rfl | exact absurd (.inl rfl) h | exact absurd (.inr rfl) h
theorem after_tile (e : PEnt) (k : Int) (p : Vec) (hg : e.turning ≠ .group) :
    (e.after k p).tile = ⟨pyRound ((e.after k p).pos.x - (e.after k p).w / 2), pyRound ((e.after k p).pos.y - (e.after k p).h / 2)⟩ := by
  unfold after turned placed
  cases h : e.turning
  · simp only [h]
  · simp only [h]
  · simp only [h]
  · exact absurd h hg

theorem after_sane (e : PEnt) (k : Int) (p : Vec) (hs : e.Sane)
    (hk : e.Directional → 0 ≤ k ∧ k < 16 ∧ (e.turning = .fourWay → k % 4 = 0)) : (e.after k p).Sane := by
  refine ⟨by rw [after_mode]; exact hs.validated, rfl, ?_⟩
  unfold Directional
  rw [after_turning]
  intro h
  obtain ⟨h1, h2, h3⟩ := hk h
  exact ⟨k, after_dir e k p h, h1, h2, h3⟩

/-- A settled entity re-placed where it is does not change. -/
theorem after_self (e : PEnt) (hs : e.Sane) (ht : e.Settled) : e.after e.facing e.pos = e := by
  have hh := hs.held
  have h1 := ht.tile
  have h2 := ht.footprint
  have h3 := hs.direction
  unfold after placed
  unfold Directional at h3
  cases h : e.turning
  · rw [h] at h1
    have := h1 (by simp)
    ext <;> simp_all [turned]
  · obtain ⟨d, hd, -⟩ := h3 (.inl h)
    obtain ⟨hw, hhh⟩ := h2 d hd
    have ht := h1 (by simp [h])
    simp only [turned, h] at hw hhh
    simp only [turned, h, facing, hd, Option.getD_some]
    ext <;> simp_all
  · obtain ⟨d, hd, -⟩ := h3 (.inr h)
    obtain ⟨hw, hhh⟩ := h2 d hd
    have ht := h1 (by simp [h])
    simp only [turned, h] at hw hhh
    simp only [turned, h, facing, hd, Option.getD_some]
    ext <;> simp_all
  · ext <;> simp_all [turned]

end PEnt

theorem rotMatrix_apply (a : Int) (ha : a = 0 ∨ a = 4 ∨ a = 8 ∨ a = 12) (p : Vec) :
    (⟨p.x * (rotMatrix a).1 + p.y * (rotMatrix a).2.2.1, p.x * (rotMatrix a).2.1 + p.y * (rotMatrix a).2.2.2⟩ : Vec)
      = turnSixteenths a p := by
  rcases ha with rfl | rfl | rfl | rfl <;>
    simp [rotMatrix, turnSixteenths, quarterTurn]

/-- The common part of `rotate` and `flip`: turning the direction, then placing. -/
theorem turnBy_ok (e : PEnt) (hs : e.Sane) (hg : e.turning ≠ .group) (k : Int → Int) (p : Vec)
    (hk : e.Directional → 0 ≤ e.facing + k e.facing ∧ e.facing + k e.facing < 16 ∧
      (e.turning = .fourWay → (e.facing + k e.facing) % 4 = 0)) :
    (turnBy { e with held := false } k >>= fun e' => e'.setPosition (.tuple p.x p.y)) =
      .ok ((({ e with held := false } : PEnt).turned (e.facing + k e.facing)).placed p) := by
  by_cases hd : e.Directional
  · obtain ⟨d, hdir, -⟩ := hs.direction hd
    have hf : e.facing = d := by simp [PEnt.facing, hdir]
    obtain ⟨h1, h2, h3⟩ := hk hd
    obtain ⟨e', he', hh', hp'⟩ := PEnt.setDirection_then_place { e with held := false } (e.facing + k e.facing) h1 h2
      hd h3 rfl
    have : turnBy { e with held := false } k = .ok e' := by
      rw [← he', hf]
      unfold turnBy
      rcases hd with h | h <;> simp [h, hdir]
    rw [this]
    show e'.setPosition _ = _
    rw [PEnt.setPosition_free _ _ hh', ← hp']
    rfl
  · have hfix : e.turning = .fixed := by
      unfold PEnt.Directional at hd; cases h : e.turning <;> simp_all
    have : turnBy { e with held := false } k = .ok { e with held := false } := by
      unfold turnBy; simp [hfix]
    rw [this]
    show PEnt.setPosition { e with held := false } (.tuple p.x p.y) = _
    rw [PEnt.setPosition_free _ _ rfl]
    simp [PEnt.turned, hfix, PosArg.toFloat]

theorem turnBy_error (e : PEnt) (hs : e.Sane) (hd : e.Directional) (k : Int → Int) (f : PEnt → Except PyErr PEnt)
    (hk : ¬ (0 ≤ e.facing + k e.facing ∧ e.facing + k e.facing < 16)) :
    (turnBy { e with held := false } k >>= f) = .error .dataFormat := by
  obtain ⟨d, hdir, -⟩ := hs.direction hd
  have hf : e.facing = d := by simp [PEnt.facing, hdir]
  have hi := PEnt.setDirection_invalid { e with held := false } (e.facing + k e.facing) hs.validated hk hd
  have : turnBy { e with held := false } k = .error .dataFormat := by
    rw [← hi, hf]
    unfold turnBy
    rcases hd with h | h <;> simp [h, hdir]
  rw [this]; rfl

theorem turnBy_group (e : PEnt) (hg : e.turning = .group) (k : Int → Int) (f : PEnt → Except PyErr PEnt) :
    (turnBy { e with held := false } k >>= f) = .error .attributeError := by
  unfold turnBy; simp [hg]; rfl

/-! ### C20 -/

theorem rotateStep_eq (a : Int) (ha : a = 0 ∨ a = 4 ∨ a = 8 ∨ a = 12) (e : PEnt) :
    rotateStep a { e with held := false } = (turnBy { e with held := false } (fun _ => a) >>= fun e' =>
      e'.setPosition (.tuple (turnSixteenths a e.pos).x (turnSixteenths a e.pos).y)) := by
  rw [← rotMatrix_apply a ha e.pos]; rfl

/-- Which entities a rotation by `a` sixteenths can handle: no group, and no directional entity whose
direction plus `a` reaches sixteen. -/
def Rotates (a : Int) (e : PEnt) : Prop :=
  e.turning ≠ .group ∧ (e.Directional → e.facing + a < 16)

theorem rotateStep_ok (a : Int) (ha : a = 0 ∨ a = 4 ∨ a = 8 ∨ a = 12) (e : PEnt) (hs : e.Sane) (hr : Rotates a e) :
    rotateStep a { e with held := false } =
      .ok ((({ e with held := false } : PEnt).turned (e.facing + a)).placed (turnSixteenths a e.pos)) := by
  rw [rotateStep_eq a ha, turnBy_ok e hs hr.1]
  intro hd
  obtain ⟨d, hdir, h0, h1, h4⟩ := hs.direction hd
  have hf : e.facing = d := by simp [PEnt.facing, hdir]
  have := hr.2 hd
  refine ⟨by omega, this, fun ht => ?_⟩
  have := h4 ht
  omega

theorem rotateStep_fails (a : Int) (ha : a = 0 ∨ a = 4 ∨ a = 8 ∨ a = 12) (e : PEnt) (hs : e.Sane) (hr : ¬ Rotates a e) :
    ∃ err, rotateStep a { e with held := false } = .error err := by
  rw [rotateStep_eq a ha]
  by_cases hg : e.turning = .group
  · exact ⟨_, turnBy_group e hg _ _⟩
  · have hd : e.Directional ∧ ¬ e.facing + a < 16 := by
      unfold Rotates at hr; simp only [ne_eq, hg, not_false_eq_true, true_and, Classical.not_imp] at hr; exact hr
    exact ⟨_, turnBy_error e hs hd.1 _ _ (fun h => hd.2 h.2)⟩

theorem quarter_mod (angle : Int) (h : angle % 16 % 4 = 0) :
    angle % 16 = 0 ∨ angle % 16 = 4 ∨ angle % 16 = 8 ∨ angle % 16 = 12 := by omega

theorem turnSixteenths_mod (a : Int) (p : Vec) : turnSixteenths (a % 16) p = turnSixteenths a p := by
  unfold turnSixteenths; rw [show a % 16 % 16 = a % 16 by omega]

theorem quarterTurn_four (p : Vec) (k : ℕ) : quarterTurn^[k + 4] p = quarterTurn^[k] p := by
  rw [Function.iterate_add_apply]
  congr 1
  ext <;> simp [quarterTurn]

theorem quarterTurn_mod (p : Vec) (k : ℕ) : quarterTurn^[k % 4] p = quarterTurn^[k] p := by
  induction k using Nat.strong_induction_on with
  | _ k ih =>
    by_cases h : k < 4
    · rw [Nat.mod_eq_of_lt h]
    · obtain ⟨m, rfl⟩ : ∃ m, k = m + 4 := ⟨k - 4, by omega⟩
      rw [quarterTurn_four, ← ih m (by omega)]
      congr 1
      rw [show (m + 4) % 4 = m % 4 by omega]

theorem turnSixteenths_add (a b : Int) (ha : a % 4 = 0) (hb : b % 4 = 0) (p : Vec) :
    turnSixteenths (a + b) p = turnSixteenths b (turnSixteenths a p) := by
  unfold turnSixteenths
  rw [← Function.iterate_add_apply, ← quarterTurn_mod p ((b % 16 / 4).toNat + _)]
  congr 1
  omega

/-- Where a tile goes: its centre is turned about the origin. -/
theorem rotateTile_centre (a : Int) (ha : a = 0 ∨ a = 4 ∨ a = 8 ∨ a = 12) (t : PTile) :
    (⟨(rotateTile a t).x + 1/2, (rotateTile a t).y + 1/2⟩ : Vec) = turnSixteenths a ⟨t.x + 1/2, t.y + 1/2⟩ := by
  have key : ∀ (x y : ℚ) (m n : ℤ), x = m → y = n → tileAt x y = ⟨m, n⟩ := by
    rintro x y m n rfl rfl; simp [tileAt, pyTrunc_int]
  rcases ha with rfl | rfl | rfl | rfl
  · have : rotateTile 0 t = ⟨t.x, t.y⟩ := by
      unfold rotateTile rotMatrix; exact key _ _ _ _ (by norm_num) (by norm_num)
    rw [this]; simp [turnSixteenths]
  · have : rotateTile 4 t = ⟨-t.y - 1, t.x⟩ := by
      unfold rotateTile rotMatrix; exact key _ _ _ _ (by norm_num; ring) (by norm_num)
    rw [this]; simp [turnSixteenths, quarterTurn]; ring
  · have : rotateTile 8 t = ⟨-t.x - 1, -t.y - 1⟩ := by
      unfold rotateTile rotMatrix; exact key _ _ _ _ (by norm_num; ring) (by norm_num; ring)
    rw [this]; simp [turnSixteenths, quarterTurn]; constructor <;> ring
  · have : rotateTile 12 t = ⟨t.y, -t.x - 1⟩ := by
      unfold rotateTile rotMatrix; exact key _ _ _ _ (by norm_num) (by norm_num; ring)
    rw [this]; simp [turnSixteenths, quarterTurn]; ring

theorem rotate_ok_iff (l : Layout) (hs : ∀ e ∈ l.entities, e.Sane) (angle : Int) :
    (rotate l angle).2 = none ↔ angle % 4 = 0 ∧ ∀ e ∈ l.entities, Rotates (angle % 16) e := by
  unfold rotate
  simp only
  by_cases h4 : angle % 16 % 4 ≠ 0
  · rw [if_pos h4]; simp; omega
  · rw [if_neg h4]
    have ha := quarter_mod angle (by omega)
    constructor
    · intro h
      refine ⟨by omega, fun e he => ?_⟩
      by_contra hr
      obtain ⟨err, herr⟩ := rotateStep_fails _ ha e (hs e he) hr
      obtain ⟨e', he'⟩ := transformWith_ok (g := rotateTile (angle % 16))
        (l' := (transformWith (rotateStep (angle % 16)) (rotateTile (angle % 16)) l).1)
        (Prod.ext rfl h) e he
      rw [herr] at he'; simp at he'
    · rintro ⟨_, h⟩
      rw [transformWith_all (f := fun e => (({ e with held := false } : PEnt).turned (e.facing + angle % 16)).placed
        (turnSixteenths (angle % 16) e.pos)) (fun e he => rotateStep_ok _ ha e (hs e he) (h e he))]

theorem rotate_ok (l : Layout) (hs : ∀ e ∈ l.entities, e.Sane) (angle : Int) (h4 : angle % 4 = 0)
    (hr : ∀ e ∈ l.entities, Rotates (angle % 16) e) :
    rotate l angle = (⟨l.entities.map (fun e => e.after (e.facing + angle % 16) (turnSixteenths angle e.pos)),
      l.tiles.map (rotateTile (angle % 16))⟩, none) := by
  unfold rotate
  simp only
  rw [if_neg (by omega)]
  have ha := quarter_mod angle (by omega)
  rw [transformWith_all (f := fun e => (({ e with held := false } : PEnt).turned (e.facing + angle % 16)).placed
        (turnSixteenths (angle % 16) e.pos)) (fun e he => rotateStep_ok _ ha e (hs e he) (hr e he))]
  simp only [turnSixteenths_mod]
  rfl

/-- C20: a rotation that is not a whole number of quarter turns is rejected and changes nothing. -/
theorem C20_rejects (l : Layout) (angle : Int) (h : angle % 4 ≠ 0) : rotate l angle = (l, some .rotation) := by
  unfold rotate; simp only; rw [if_pos (by omega)]

example : (6 : Int) % 4 ≠ 0 := by decide

/-- C20: exactly which collections can be rotated by which angles. -/
theorem C20_succeeds_iff (l : Layout) (hs : ∀ e ∈ l.entities, e.Sane) (angle : Int) :
    (rotate l angle).2 = none ↔ angle % 4 = 0 ∧
      ∀ e ∈ l.entities, e.turning ≠ .group ∧ (e.Directional → e.facing + angle % 16 < 16) :=
  rotate_ok_iff l hs angle

/-- Specification of the effect on one entity. -/
structure RotatedTo (angle : Int) (e e' : PEnt) : Prop where
  position : e'.pos = turnSixteenths angle e.pos
  direction : e.Directional → ∃ d d', e.dir = some d ∧ e'.dir = some d' ∧ 0 ≤ d' ∧ d' < 16 ∧ ∃ n, d' = d + angle + 16 * n
  undirected : ¬ e.Directional → e'.dir = e.dir
  tile : e'.tile = ⟨pyRound (e'.pos.x - e'.w / 2), pyRound (e'.pos.y - e'.h / 2)⟩
  kind : e'.turning = e.turning ∧ e'.held = true

/-- C20: a rotation that does not raise turns every position about the origin, advances every direction by the
angle, and turns every tile about its centre, staying on the integer grid. -/
theorem C20_effect (l l' : Layout) (hs : ∀ e ∈ l.entities, e.Sane) (angle : Int) (h : rotate l angle = (l', none)) :
    List.Forall₂ (RotatedTo angle) l.entities l'.entities ∧
    List.Forall₂ (fun t t' => (⟨(t'.x : ℚ) + 1/2, t'.y + 1/2⟩ : Vec) = turnSixteenths angle ⟨t.x + 1/2, t.y + 1/2⟩)
      l.tiles l'.tiles := by
  obtain ⟨h4, hr⟩ := (rotate_ok_iff l hs angle).1 (by rw [h])
  rw [rotate_ok l hs angle h4 hr, Prod.mk.injEq] at h
  obtain ⟨rfl, -⟩ := h
  constructor
  · simp only [List.forall₂_map_right_iff]
    rw [List.forall₂_same]
    intro e he
    refine ⟨PEnt.after_pos _ _ _, ?_, PEnt.after_dir_fixed _ _ _, PEnt.after_tile _ _ _ (hr e he).1, PEnt.after_turning _ _ _, rfl⟩
    intro hd
    obtain ⟨d, hdir, h0, h1, -⟩ := (hs e he).direction hd
    have hf : e.facing = d := by simp [PEnt.facing, hdir]
    have := (hr e he).2 hd
    refine ⟨d, e.facing + angle % 16, hdir, PEnt.after_dir _ _ _ hd, by omega, by omega, -(angle / 16), by omega⟩
  · simp only [List.forall₂_map_right_iff]
    rw [List.forall₂_same]
    intro t ht
    rw [rotateTile_centre _ (quarter_mod angle (by omega)), turnSixteenths_mod]

/-- C20: rotation is rigid: offsets between members are turned, distances are kept. -/
theorem C20_rigid (l l' : Layout) (hs : ∀ e ∈ l.entities, e.Sane) (angle : Int) (h : rotate l angle = (l', none))
    (i j : ℕ) (hi : i < l.entities.length) (hj : j < l.entities.length) :
    ∃ (hi' : i < l'.entities.length) (hj' : j < l'.entities.length),
      l'.entities[i].pos - l'.entities[j].pos = turnSixteenths angle (l.entities[i].pos - l.entities[j].pos) ∧
      (l'.entities[i].pos.x - l'.entities[j].pos.x)^2 + (l'.entities[i].pos.y - l'.entities[j].pos.y)^2 =
        (l.entities[i].pos.x - l.entities[j].pos.x)^2 + (l.entities[i].pos.y - l.entities[j].pos.y)^2 := by
  obtain ⟨he, -⟩ := C20_effect l l' hs angle h
  have hlen := he.length_eq
  refine ⟨hlen ▸ hi, hlen ▸ hj, ?_⟩
  have e1 := (List.forall₂_iff_get.1 he).2 i hi (hlen ▸ hi)
  have e2 := (List.forall₂_iff_get.1 he).2 j hj (hlen ▸ hj)
  have p1 := e1.position
  have p2 := e2.position
  simp only [List.get_eq_getElem] at p1 p2
  rw [p1, p2]
  generalize l.entities[i].pos = p
  generalize l.entities[j].pos = q
  have hk : ∀ k : ℕ, quarterTurn^[k] p - quarterTurn^[k] q = quarterTurn^[k] (p - q) ∧
      ((quarterTurn^[k] p).x - (quarterTurn^[k] q).x)^2 + ((quarterTurn^[k] p).y - (quarterTurn^[k] q).y)^2
        = (p.x - q.x)^2 + (p.y - q.y)^2 := by
    intro k
    induction k with
    | zero => simp
    | succ k ih =>
      rw [Function.iterate_succ_apply', Function.iterate_succ_apply', Function.iterate_succ_apply', ← ih.1]
      constructor
      · ext <;> simp [quarterTurn]; ring
      · rw [← ih.2]; simp only [quarterTurn]; ring
  exact hk _

/-- C20, as far as it goes: when rotating by `a` and then by `b` both succeed, the result is the one of
rotating by `a + b`. Missing: see `C20_compose_refuted`. -/
theorem C20_compose_partial (l l₁ l₂ : Layout) (hs : ∀ e ∈ l.entities, e.Sane) (a b : Int)
    (h₁ : rotate l a = (l₁, none)) (h₂ : rotate l₁ b = (l₂, none)) : rotate l (a + b) = (l₂, none) := by
  obtain ⟨ha, hra⟩ := (rotate_ok_iff l hs a).1 (by rw [h₁])
  rw [rotate_ok l hs a ha hra, Prod.mk.injEq] at h₁
  obtain ⟨rfl, -⟩ := h₁
  have hs₁ : ∀ e ∈ l.entities.map (fun e => e.after (e.facing + a % 16) (turnSixteenths a e.pos)), e.Sane := by
    intro e he
    obtain ⟨e, hx, rfl⟩ := List.mem_map.1 he
    clear he
    have he := hx
    refine PEnt.after_sane _ _ _ (hs e he) fun hd => ?_
    obtain ⟨d, hdir, h0, h1, h4⟩ := (hs e he).direction hd
    have hf : e.facing = d := by simp [PEnt.facing, hdir]
    have := (hra e he).2 hd
    refine ⟨by omega, this, fun ht => ?_⟩
    have := h4 ht
    omega
  obtain ⟨hb, hrb⟩ := (rotate_ok_iff _ hs₁ b).1 (by rw [h₂])
  rw [rotate_ok _ hs₁ b hb hrb, Prod.mk.injEq] at h₂
  obtain ⟨rfl, -⟩ := h₂
  have hfacing : ∀ e ∈ l.entities, e.Directional → (e.after (e.facing + a % 16) (turnSixteenths a e.pos)).facing = e.facing + a % 16 := by
    intro e he hd
    simp [PEnt.facing, PEnt.after_dir _ _ _ hd]
  have hsum : ∀ e ∈ l.entities, e.Directional → e.facing + a % 16 + b % 16 < 16 ∧ 0 ≤ e.facing := by
    intro e he hd
    have h := (hrb _ (List.mem_map_of_mem he)).2 (by unfold PEnt.Directional; rw [PEnt.after_turning]; exact hd)
    rw [hfacing e he hd] at h
    obtain ⟨d, hdir, h0, h1, h4⟩ := (hs e he).direction hd
    have hf : e.facing = d := by simp [PEnt.facing, hdir]
    exact ⟨h, by omega⟩
  have hturn := turnSixteenths_add a b (by omega) (by omega)
  rw [rotate_ok l hs (a + b) (by omega)]
  · congr 2
    · rw [List.map_map]
      apply List.map_congr_left
      intro e he
      simp only [Function.comp, PEnt.after_pos, PEnt.after_after, hturn]
      by_cases hd : e.Directional
      · rw [hfacing e he hd]
        have := hsum e he hd
        rw [show e.facing + (a + b) % 16 = e.facing + a % 16 + b % 16 by omega]
      · exact PEnt.after_undirected _ _ _ _ hd
    · rw [List.map_map]
      apply List.map_congr_left
      intro t ht
      have c1 := rotateTile_centre (a % 16) (quarter_mod a (by omega)) t
      have c2 := rotateTile_centre (b % 16) (quarter_mod b (by omega)) (rotateTile (a % 16) t)
      have c3 := rotateTile_centre ((a + b) % 16) (quarter_mod (a + b) (by omega)) t
      rw [c1, turnSixteenths_mod, turnSixteenths_mod] at c2
      rw [turnSixteenths_mod, hturn, ← c2] at c3
      simp only [Vec.mk.injEq, add_left_inj, Int.cast_inj] at c3
      simp only [Function.comp]
      generalize rotateTile ((a + b) % 16) t = t1 at *
      generalize rotateTile (b % 16) (rotateTile (a % 16) t) = t2 at *
      cases t1; cases t2; simp_all
  · intro e he
    refine ⟨(hra e he).1, fun hd => ?_⟩
    have := hsum e he hd
    omega


/-- An inserter at tile (2, 0) facing `d`, inside a collection. -/
def inserterFacing (d : Int) : PEnt :=
  { turning := .fourWay, mode := .strict, sw := 1, sh := 1, w := 1, h := 1, dir := some d,
    pos := ⟨5/2, 1/2⟩, tile := ⟨2, 0⟩, held := true, doubleGrid := false, flippable := true }

/-- A chest at tile (0, 0), inside a collection. -/
def chest : PEnt :=
  { turning := .fixed, mode := .strict, sw := 1, sh := 1, w := 1, h := 1, dir := none,
    pos := ⟨1/2, 1/2⟩, tile := ⟨0, 0⟩, held := true, doubleGrid := false, flippable := true }

theorem inserterFacing_sane (d : Int) (h : d = 0 ∨ d = 4 ∨ d = 8 ∨ d = 12) : (inserterFacing d).Sane :=
  ⟨rfl, rfl, fun _ => ⟨d, rfl, by omega, by omega, by omega⟩⟩
theorem chest_sane : chest.Sane :=
  ⟨rfl, rfl, fun h => by rcases h with h | h <;> simp [chest] at h⟩

/-- A layout meeting the hypotheses of `C20_effect`, `C20_rigid` and `C20_compose_partial`. -/
example : ∃ l₁ l₂, rotate ⟨[chest, inserterFacing 4], [⟨3, -1⟩]⟩ 4 = (l₁, none) ∧ rotate l₁ 4 = (l₂, none) ∧
    l₂.entities = [chest.after 0 ⟨-1/2, -1/2⟩, (inserterFacing 4).after 12 ⟨-5/2, -1/2⟩] ∧ l₂.tiles = [⟨-4, 0⟩] := by
  refine ⟨(rotate ⟨[chest, inserterFacing 4], [⟨3, -1⟩]⟩ 4).1, (rotate (rotate ⟨[chest, inserterFacing 4], [⟨3, -1⟩]⟩ 4).1 4).1, ?_, ?_, ?_, ?_⟩ <;>
    decide +kernel

/-- C20: whole turns change nothing (collections without groups). -/
theorem C20_full_turn (l : Layout) (hs : ∀ e ∈ l.entities, e.Sane) (ht : ∀ e ∈ l.entities, e.Settled)
    (hg : ∀ e ∈ l.entities, e.turning ≠ .group) (n : Int) : rotate l (16 * n) = (l, none) := by
  have h16 : 16 * n % 16 = 0 := by omega
  rw [rotate_ok l hs (16 * n) (by omega)]
  · rw [h16]
    have h1 : l.entities.map (fun e => e.after (e.facing + 0) (turnSixteenths (16 * n) e.pos)) = l.entities := by
      conv_rhs => rw [← List.map_id l.entities]
      apply List.map_congr_left
      intro e he
      have : turnSixteenths (16 * n) e.pos = e.pos := by unfold turnSixteenths; rw [h16]; rfl
      rw [this, add_zero, PEnt.after_self e (hs e he) (ht e he)]; rfl
    have h2 : l.tiles.map (rotateTile 0) = l.tiles := by
      conv_rhs => rw [← List.map_id l.tiles]
      apply List.map_congr_left
      intro t _
      have c := rotateTile_centre 0 (.inl rfl) t
      simp only [turnSixteenths, Vec.mk.injEq] at c
      simp at c
      generalize rotateTile 0 t = u at *
      cases t; cases u; simp_all
    rw [h1, h2]
  · intro e he
    refine ⟨hg e he, fun hd => ?_⟩
    obtain ⟨d, hdir, h0, h1, -⟩ := (hs e he).direction hd
    have hf : e.facing = d := by simp [PEnt.facing, hdir]
    omega

example : (inserterFacing 4).Settled :=
  ⟨fun _ => by decide +kernel, fun d hd => by cases hd; decide⟩

/-- C20 fails: with any directional member two half turns never both succeed (an exception is raised),
although a full turn is fine. -/
theorem C20_compose_refuted (l : Layout) (hs : ∀ e ∈ l.entities, e.Sane) (hg : ∀ e ∈ l.entities, e.turning ≠ .group)
    (hd : ∃ e ∈ l.entities, e.Directional) :
    (rotate l 16).2 = none ∧ ¬ ∃ l₁ l₂, rotate l 8 = (l₁, none) ∧ rotate l₁ 8 = (l₂, none) := by
  constructor
  · rw [rotate_ok_iff l hs]
    refine ⟨by decide, fun e he => ⟨hg e he, fun hd => ?_⟩⟩
    obtain ⟨d, hdir, h0, h1, -⟩ := (hs e he).direction hd
    have hf : e.facing = d := by simp [PEnt.facing, hdir]
    omega
  · rintro ⟨l₁, l₂, h1, h2⟩
    obtain ⟨e, he, hdd⟩ := hd
    obtain ⟨-, hra⟩ := (rotate_ok_iff l hs 8).1 (by rw [h1])
    obtain ⟨d, hdir, h0, h16, h4⟩ := (hs e he).direction hdd
    have hf : e.facing = d := by simp [PEnt.facing, hdir]
    have r1 := (hra e he).2 hdd
    rw [rotate_ok l hs 8 (by decide) hra, Prod.mk.injEq] at h1
    obtain ⟨rfl, -⟩ := h1
    have hs₁ : ∀ e ∈ l.entities.map (fun e => e.after (e.facing + 8 % 16) (turnSixteenths 8 e.pos)), e.Sane := by
      intro x hx
      obtain ⟨y, hy, rfl⟩ := List.mem_map.1 hx
      refine PEnt.after_sane _ _ _ (hs y hy) fun hd' => ?_
      obtain ⟨d', hdir', h0', h1', h4'⟩ := (hs y hy).direction hd'
      have hf' : y.facing = d' := by simp [PEnt.facing, hdir']
      have := (hra y hy).2 hd'
      refine ⟨by omega, by omega, fun ht => ?_⟩
      have := h4' ht
      omega
    obtain ⟨-, hrb⟩ := (rotate_ok_iff _ hs₁ 8).1 (by rw [h2])
    have r2 := (hrb _ (List.mem_map_of_mem he)).2 (by unfold PEnt.Directional; rw [PEnt.after_turning]; exact hdd)
    have hfa : (e.after (e.facing + 8 % 16) (turnSixteenths 8 e.pos)).facing = e.facing + 8 % 16 := by
      simp [PEnt.facing, PEnt.after_dir _ _ _ hdd]
    rw [hfa] at r2
    omega

example : (inserterFacing 0).Directional ∧ (inserterFacing 0).turning ≠ .group := by
  unfold PEnt.Directional; decide

/-- C20 fails: a collection containing a group cannot be rotated at all, not even by zero. -/
theorem C20_group_refuted (l : Layout) (hs : ∀ e ∈ l.entities, e.Sane) (hg : ∃ e ∈ l.entities, e.turning = .group)
    (angle : Int) : (rotate l angle).2 ≠ none := by
  rw [Ne, rotate_ok_iff l hs]
  rintro ⟨-, h⟩
  obtain ⟨e, he, ht⟩ := hg
  exact (h e he).1 ht

example : ({ chest with turning := .group } : PEnt).turning = .group ∧ ({ chest with turning := .group } : PEnt).Sane :=
  ⟨rfl, rfl, rfl, fun h => by rcases h with h | h <;> simp [chest] at h⟩

/-- C20 fails: when a rotation raises midway, the collection is left half rotated (here the chest has moved,
the inserter facing west has not and has lost its parent). -/
theorem C20_halfway_refuted :
    rotate ⟨[chest, inserterFacing 12], [⟨0, 0⟩]⟩ 4 =
      (⟨[chest.after 0 ⟨-1/2, 1/2⟩, { inserterFacing 12 with held := false }], [⟨0, 0⟩]⟩, some .dataFormat) := by
  decide +kernel

/-! ### C21 -/

/-- Specification: mirroring a point. -/
def mirrorVec (f : FlipArg) (p : Vec) : Vec := if f = .horizontal then ⟨-p.x, p.y⟩ else ⟨p.x, -p.y⟩

/-- What `flip` adds to a direction. -/
def flipShift (f : FlipArg) (d : Int) : Int :=
  if f = .horizontal then ((-2 * (d - 8)) % 16) % 16 else (((-2 * d) % 16) - 8) % 16

theorem flipStep_eq (f : FlipArg) (e : PEnt) :
    flipStep f { e with held := false } = (turnBy { e with held := false } (flipShift f) >>= fun e' =>
      e'.setPosition (.tuple (mirrorVec f e.pos).x (mirrorVec f e.pos).y)) := by
  unfold flipStep flipShift mirrorVec
  cases f <;> simp

/-- Which entities can be flipped: no group, and the sum computed by the code stays below sixteen. -/
def Flips (f : FlipArg) (e : PEnt) : Prop :=
  e.turning ≠ .group ∧ (e.Directional → e.facing + flipShift f e.facing < 16)

theorem flip_range (f : FlipArg) (e : PEnt) (hs : e.Sane) (hr : Flips f e) (hd : e.Directional) :
    0 ≤ e.facing + flipShift f e.facing ∧ e.facing + flipShift f e.facing < 16 ∧
      (e.turning = .fourWay → (e.facing + flipShift f e.facing) % 4 = 0) := by
  obtain ⟨d, hdir, h0, h1, h4⟩ := hs.direction hd
  have hf : e.facing = d := by simp [PEnt.facing, hdir]
  have := hr.2 hd
  refine ⟨?_, this, fun ht => ?_⟩
  · unfold flipShift; split <;> omega
  · have := h4 ht
    unfold flipShift; split <;> omega

theorem flipStep_ok (f : FlipArg) (e : PEnt) (hs : e.Sane) (hr : Flips f e) :
    flipStep f { e with held := false } =
      .ok ((({ e with held := false } : PEnt).turned (e.facing + flipShift f e.facing)).placed (mirrorVec f e.pos)) := by
  rw [flipStep_eq, turnBy_ok e hs hr.1 _ _ (flip_range f e hs hr)]

theorem flipStep_fails (f : FlipArg) (e : PEnt) (hs : e.Sane) (hr : ¬ Flips f e) :
    ∃ err, flipStep f { e with held := false } = .error err := by
  rw [flipStep_eq]
  by_cases hg : e.turning = .group
  · exact ⟨_, turnBy_group e hg _ _⟩
  · have hd : e.Directional ∧ ¬ e.facing + flipShift f e.facing < 16 := by
      unfold Flips at hr; simp only [ne_eq, hg, not_false_eq_true, true_and, Classical.not_imp] at hr; exact hr
    exact ⟨_, turnBy_error e hs hd.1 _ _ (fun h => hd.2 h.2)⟩

theorem flip_ok_iff (l : Layout) (hs : ∀ e ∈ l.entities, e.Sane) (f : FlipArg) (hf : f ≠ .other) :
    (flip l f).2 = none ↔ (∀ e ∈ l.entities, e.flippable = true) ∧ ∀ e ∈ l.entities, Flips f e := by
  unfold flip
  by_cases hfl : l.entities.any (fun e => !e.flippable) = true
  · rw [if_pos hfl]
    simp only [List.any_eq_true, Bool.not_eq_true'] at hfl
    obtain ⟨e, he, h⟩ := hfl
    simp only [reduceCtorEq, false_iff]
    rintro ⟨h', -⟩
    rw [h' e he] at h; simp at h
  · rw [if_neg hfl, if_neg hf]
    have hall : ∀ e ∈ l.entities, e.flippable = true := by
      intro e he
      by_contra hx
      apply hfl
      rw [List.any_eq_true]
      exact ⟨e, he, by simp [hx]⟩
    constructor
    · intro h
      refine ⟨hall, fun e he => ?_⟩
      by_contra hr
      obtain ⟨err, herr⟩ := flipStep_fails f e (hs e he) hr
      obtain ⟨e', he'⟩ := transformWith_ok (g := flipTile f)
        (l' := (transformWith (flipStep f) (flipTile f) l).1) (Prod.ext rfl h) e he
      rw [herr] at he'; simp at he'
    · rintro ⟨_, h⟩
      rw [transformWith_all (f := fun e => (({ e with held := false } : PEnt).turned (e.facing + flipShift f e.facing)).placed
        (mirrorVec f e.pos)) (fun e he => flipStep_ok f e (hs e he) (h e he))]

theorem flip_ok (l : Layout) (hs : ∀ e ∈ l.entities, e.Sane) (f : FlipArg) (hf : f ≠ .other)
    (hfl : ∀ e ∈ l.entities, e.flippable = true) (hr : ∀ e ∈ l.entities, Flips f e) :
    flip l f = (⟨l.entities.map (fun e => e.after (e.facing + flipShift f e.facing) (mirrorVec f e.pos)),
      l.tiles.map (flipTile f)⟩, none) := by
  unfold flip
  rw [if_neg (by simpa using hfl), if_neg hf]
  rw [transformWith_all (f := fun e => (({ e with held := false } : PEnt).turned (e.facing + flipShift f e.facing)).placed
        (mirrorVec f e.pos)) (fun e he => flipStep_ok f e (hs e he) (hr e he))]
  rfl

theorem flipTile_centre (f : FlipArg) (t : PTile) :
    (⟨(flipTile f t).x + 1/2, (flipTile f t).y + 1/2⟩ : Vec) = mirrorVec f ⟨t.x + 1/2, t.y + 1/2⟩ := by
  have key : ∀ (x y : ℚ) (m n : ℤ), x = m → y = n → tileAt x y = ⟨m, n⟩ := by
    rintro x y m n rfl rfl; simp [tileAt, pyTrunc_int]
  by_cases h : f = .horizontal
  · have : flipTile f t = ⟨-t.x - 1, t.y⟩ := by
      unfold flipTile; simp only [h, if_true]; exact key _ _ _ _ (by push_cast; ring) (by ring)
    rw [this]; simp [mirrorVec, h]; ring
  · have : flipTile f t = ⟨t.x, -t.y - 1⟩ := by
      unfold flipTile; simp only [h, if_false]; exact key _ _ _ _ (by ring) (by push_cast; ring)
    rw [this]; simp [mirrorVec, h]; ring

theorem tile_ext_centre {t u : PTile} (h : (⟨(t.x:ℚ) + 1/2, t.y + 1/2⟩ : Vec) = ⟨u.x + 1/2, u.y + 1/2⟩) : t = u := by
  simp only [Vec.mk.injEq, add_left_inj, Int.cast_inj] at h
  cases t; cases u; simp_all

/-- C21: exactly which flippable collections can be flipped: horizontally, nothing may face the western half
(9..15); vertically, nothing may face 5..8 or 13..15. -/
theorem C21_succeeds_iff (l : Layout) (hs : ∀ e ∈ l.entities, e.Sane) (hfl : ∀ e ∈ l.entities, e.flippable = true) :
    ((flip l .horizontal).2 = none ↔
      ∀ e ∈ l.entities, e.turning ≠ .group ∧ (e.Directional → e.facing ≤ 8)) ∧
    ((flip l .vertical).2 = none ↔
      ∀ e ∈ l.entities, e.turning ≠ .group ∧ (e.Directional → e.facing ≤ 4 ∨ (9 ≤ e.facing ∧ e.facing ≤ 12))) := by
  have key : ∀ e ∈ l.entities, e.Directional → 0 ≤ e.facing ∧ e.facing < 16 := by
    intro e he hd
    obtain ⟨d, hdir, h0, h1, -⟩ := (hs e he).direction hd
    have hf : e.facing = d := by simp [PEnt.facing, hdir]
    omega
  constructor
  · rw [flip_ok_iff l hs _ (by simp)]
    constructor
    · rintro ⟨-, h⟩ e he
      refine ⟨(h e he).1, fun hd => ?_⟩
      have h1 := (h e he).2 hd
      have := key e he hd
      simp only [flipShift, if_true] at h1
      omega
    · intro h
      refine ⟨hfl, fun e he => ⟨(h e he).1, fun hd => ?_⟩⟩
      have := (h e he).2 hd
      have := key e he hd
      simp only [flipShift, if_true]
      omega
  · rw [flip_ok_iff l hs _ (by simp)]
    constructor
    · rintro ⟨-, h⟩ e he
      refine ⟨(h e he).1, fun hd => ?_⟩
      have h1 := (h e he).2 hd
      have := key e he hd
      simp only [flipShift, reduceCtorEq, if_false] at h1
      omega
    · intro h
      refine ⟨hfl, fun e he => ⟨(h e he).1, fun hd => ?_⟩⟩
      have := (h e he).2 hd
      have := key e he hd
      simp only [flipShift, reduceCtorEq, if_false]
      omega

/-- Specification of the effect of a flip on one entity: directions are reflected in the axis. -/
structure FlippedTo (f : FlipArg) (e e' : PEnt) : Prop where
  position : e'.pos = if f = .horizontal then ⟨-e.pos.x, e.pos.y⟩ else ⟨e.pos.x, -e.pos.y⟩
  direction : e.Directional → ∃ d d', e.dir = some d ∧ e'.dir = some d' ∧ 0 ≤ d' ∧ d' < 16 ∧
    ∃ n, d' = (if f = .horizontal then 0 else 8) - d + 16 * n
  undirected : ¬ e.Directional → e'.dir = e.dir
  tile : e'.tile = ⟨pyRound (e'.pos.x - e'.w / 2), pyRound (e'.pos.y - e'.h / 2)⟩
  kind : e'.turning = e.turning ∧ e'.held = true

/-- C21: a flip that does not raise mirrors positions, directions and tiles. -/
theorem C21_effect (l l' : Layout) (hs : ∀ e ∈ l.entities, e.Sane) (f : FlipArg) (hf : f ≠ .other)
    (h : flip l f = (l', none)) :
    List.Forall₂ (FlippedTo f) l.entities l'.entities ∧
    List.Forall₂ (fun t t' => t' = if f = .horizontal then (⟨-t.x - 1, t.y⟩ : PTile) else ⟨t.x, -t.y - 1⟩)
      l.tiles l'.tiles := by
  obtain ⟨hfl, hr⟩ := (flip_ok_iff l hs f hf).1 (by rw [h])
  rw [flip_ok l hs f hf hfl hr, Prod.mk.injEq] at h
  obtain ⟨rfl, -⟩ := h
  constructor
  · simp only [List.forall₂_map_right_iff]
    rw [List.forall₂_same]
    intro e he
    refine ⟨PEnt.after_pos _ _ _, ?_, PEnt.after_dir_fixed _ _ _, PEnt.after_tile _ _ _ (hr e he).1, PEnt.after_turning _ _ _, rfl⟩
    intro hd
    obtain ⟨d, hdir, h0, h1, -⟩ := (hs e he).direction hd
    have hf : e.facing = d := by simp [PEnt.facing, hdir]
    obtain ⟨r0, r1, -⟩ := flip_range f e (hs e he) (hr e he) hd
    refine ⟨d, e.facing + flipShift f e.facing, hdir, PEnt.after_dir _ _ _ hd, r0, r1, ?_⟩
    rw [hf]
    unfold flipShift
    split
    · exact ⟨1 - (-2 * (d - 8)) / 16, by omega⟩
    · refine ⟨- ((-2 * d) / 16) - ((-2 * d) % 16 - 8) / 16 - 1, ?_⟩
      omega
  · simp only [List.forall₂_map_right_iff]
    rw [List.forall₂_same]
    intro t _
    apply tile_ext_centre
    rw [flipTile_centre]
    unfold mirrorVec
    split <;> (ext <;> simp <;> ring)

example : ∃ l', flip ⟨[chest, inserterFacing 4], [⟨3, -1⟩]⟩ .horizontal = (l', none) ∧
    l'.entities.map (·.dir) = [none, some 12] ∧ l'.tiles = [⟨-4, -1⟩] :=
  ⟨(flip ⟨[chest, inserterFacing 4], [⟨3, -1⟩]⟩ .horizontal).1, by decide +kernel, by decide +kernel, by decide +kernel⟩

theorem flipped_sane (l : Layout) (hs : ∀ e ∈ l.entities, e.Sane) (f : FlipArg) (hr : ∀ e ∈ l.entities, Flips f e) :
    ∀ e ∈ l.entities.map (fun e => e.after (e.facing + flipShift f e.facing) (mirrorVec f e.pos)), e.Sane := by
  intro x hx
  obtain ⟨y, hy, rfl⟩ := List.mem_map.1 hx
  exact PEnt.after_sane _ _ _ (hs y hy) (flip_range f y (hs y hy) (hr y hy))

theorem flipped_flippable (l : Layout) (f : FlipArg) (hfl : ∀ e ∈ l.entities, e.flippable = true) :
    ∀ e ∈ l.entities.map (fun e => e.after (e.facing + flipShift f e.facing) (mirrorVec f e.pos)), e.flippable = true := by
  intro x hx
  obtain ⟨y, hy, rfl⟩ := List.mem_map.1 hx
  rw [PEnt.after_flippable, hfl y hy]

theorem facing_after (e : PEnt) (k : Int) (p : Vec) (hd : e.Directional) : (e.after k p).facing = k := by
  simp [PEnt.facing, PEnt.after_dir _ _ _ hd]

theorem directional_after (e : PEnt) (k : Int) (p : Vec) (hd : e.Directional) : (e.after k p).Directional := by
  unfold PEnt.Directional; rw [PEnt.after_turning]; exact hd

/-- C21, as far as it goes: if flipping twice along one axis succeeds, nothing has changed. Missing: see
`C21_twice_refuted`. -/
theorem C21_twice_partial (l l₁ l₂ : Layout) (hs : ∀ e ∈ l.entities, e.Sane) (ht : ∀ e ∈ l.entities, e.Settled)
    (f : FlipArg) (hf : f ≠ .other) (h₁ : flip l f = (l₁, none)) (h₂ : flip l₁ f = (l₂, none)) : l₂ = l := by
  obtain ⟨hfl, hr⟩ := (flip_ok_iff l hs f hf).1 (by rw [h₁])
  rw [flip_ok l hs f hf hfl hr, Prod.mk.injEq] at h₁
  obtain ⟨rfl, -⟩ := h₁
  have hs₁ := flipped_sane l hs f hr
  obtain ⟨hfl₁, hr₁⟩ := (flip_ok_iff _ hs₁ f hf).1 (by rw [h₂])
  rw [flip_ok _ hs₁ f hf hfl₁ hr₁, Prod.mk.injEq] at h₂
  obtain ⟨rfl, -⟩ := h₂
  have e1 : List.map (fun e => e.after (e.facing + flipShift f e.facing) (mirrorVec f e.pos))
      (l.entities.map (fun e => e.after (e.facing + flipShift f e.facing) (mirrorVec f e.pos))) = l.entities := by
    rw [List.map_map]
    conv_rhs => rw [← List.map_id l.entities]
    apply List.map_congr_left
    intro e he
    simp only [Function.comp, PEnt.after_pos, PEnt.after_after, id]
    have hm : mirrorVec f (mirrorVec f e.pos) = e.pos := by
      unfold mirrorVec; cases f <;> simp
    rw [hm]
    by_cases hd : e.Directional
    · rw [facing_after _ _ _ hd]
      have r1 := flip_range f e (hs e he) (hr e he) hd
      have r2 := (hr₁ _ (List.mem_map_of_mem he)).2 (directional_after _ _ _ hd)
      rw [facing_after _ _ _ hd] at r2
      obtain ⟨d, hdir, h0, h1, -⟩ := (hs e he).direction hd
      have hfc : e.facing = d := by simp [PEnt.facing, hdir]
      have : e.facing + flipShift f e.facing + flipShift f (e.facing + flipShift f e.facing) = e.facing := by
        rw [hfc] at r1 r2 ⊢
        unfold flipShift at r1 r2 ⊢
        split_ifs at r1 r2 ⊢ <;> omega
      rw [this, PEnt.after_self e (hs e he) (ht e he)]
    · rw [PEnt.after_undirected _ _ e.facing _ hd, PEnt.after_self e (hs e he) (ht e he)]
  have e2 : List.map (flipTile f) (l.tiles.map (flipTile f)) = l.tiles := by
    rw [List.map_map]
    conv_rhs => rw [← List.map_id l.tiles]
    apply List.map_congr_left
    intro t _
    apply tile_ext_centre
    simp only [Function.comp, id]
    rw [flipTile_centre, flipTile_centre]
    unfold mirrorVec; cases f <;> simp
  show (⟨_, _⟩ : Layout) = l
  rw [e1, e2]

example : ∃ l₁ l₂, flip ⟨[chest, inserterFacing 8], [⟨3, -1⟩]⟩ .horizontal = (l₁, none) ∧ flip l₁ .horizontal = (l₂, none) :=
  ⟨(flip ⟨[chest, inserterFacing 8], [⟨3, -1⟩]⟩ .horizontal).1,
   (flip (flip ⟨[chest, inserterFacing 8], [⟨3, -1⟩]⟩ .horizontal).1 .horizontal).1, by decide +kernel, by decide +kernel⟩

/-- C21 fails: with a member not facing north or south (horizontal axis), or not facing east or west (vertical
axis), one of the two flips always raises. -/
theorem C21_twice_refuted (l : Layout) (hs : ∀ e ∈ l.entities, e.Sane) (f : FlipArg) (hf : f ≠ .other)
    (hd : ∃ e ∈ l.entities, e.Directional ∧
      (if f = .horizontal then e.facing ≠ 0 ∧ e.facing ≠ 8 else e.facing ≠ 4 ∧ e.facing ≠ 12)) :
    ¬ ∃ l₁ l₂, flip l f = (l₁, none) ∧ flip l₁ f = (l₂, none) := by
  rintro ⟨l₁, l₂, h₁, h₂⟩
  obtain ⟨e, he, hdd, hne⟩ := hd
  obtain ⟨hfl, hr⟩ := (flip_ok_iff l hs f hf).1 (by rw [h₁])
  rw [flip_ok l hs f hf hfl hr, Prod.mk.injEq] at h₁
  obtain ⟨rfl, -⟩ := h₁
  have hs₁ := flipped_sane l hs f hr
  obtain ⟨hfl₁, hr₁⟩ := (flip_ok_iff _ hs₁ f hf).1 (by rw [h₂])
  have r1 := flip_range f e (hs e he) (hr e he) hdd
  have r2 := (hr₁ _ (List.mem_map_of_mem he)).2 (directional_after _ _ _ hdd)
  rw [facing_after _ _ _ hdd] at r2
  obtain ⟨d, hdir, h0, h1, -⟩ := (hs e he).direction hdd
  have hfc : e.facing = d := by simp [PEnt.facing, hdir]
  rw [hfc] at r1 r2 hne
  unfold flipShift at r1 r2
  split_ifs at r1 r2 hne <;> omega

example : (inserterFacing 4).Directional ∧ (inserterFacing 4).facing ≠ 0 ∧ (inserterFacing 4).facing ≠ 8 := by
  unfold PEnt.Directional; decide

/-- C21: flipping horizontally then vertically, when it succeeds, is a half turn. -/
theorem C21_half_turn (l l₁ l₂ : Layout) (hs : ∀ e ∈ l.entities, e.Sane)
    (h₁ : flip l .horizontal = (l₁, none)) (h₂ : flip l₁ .vertical = (l₂, none)) : rotate l 8 = (l₂, none) := by
  obtain ⟨hfl, hr⟩ := (flip_ok_iff l hs .horizontal (by simp)).1 (by rw [h₁])
  rw [flip_ok l hs _ (by simp) hfl hr, Prod.mk.injEq] at h₁
  obtain ⟨rfl, -⟩ := h₁
  have hs₁ := flipped_sane l hs _ hr
  obtain ⟨hfl₁, hr₁⟩ := (flip_ok_iff _ hs₁ .vertical (by simp)).1 (by rw [h₂])
  rw [flip_ok _ hs₁ _ (by simp) hfl₁ hr₁, Prod.mk.injEq] at h₂
  obtain ⟨rfl, -⟩ := h₂
  have hdirs : ∀ e ∈ l.entities, e.Directional → e.facing + flipShift .horizontal e.facing +
      flipShift .vertical (e.facing + flipShift .horizontal e.facing) = e.facing + 8 ∧ e.facing + 8 < 16 := by
    intro e he hd
    have r1 := flip_range _ e (hs e he) (hr e he) hd
    have r2 := (hr₁ _ (List.mem_map_of_mem he)).2 (directional_after _ _ _ hd)
    rw [facing_after _ _ _ hd] at r2
    obtain ⟨d, hdir, h0, h1, -⟩ := (hs e he).direction hd
    have hfc : e.facing = d := by simp [PEnt.facing, hdir]
    rw [hfc] at r1 r2 ⊢
    simp only [flipShift, if_true, reduceCtorEq, if_false] at r1 r2 ⊢
    omega
  rw [rotate_ok l hs 8 (by decide) (fun e he => ⟨(hr e he).1, fun hd => (hdirs e he hd).2⟩)]
  congr 2
  · rw [List.map_map]
    apply List.map_congr_left
    intro e he
    simp only [Function.comp, PEnt.after_pos, PEnt.after_after]
    have hm : mirrorVec .vertical (mirrorVec .horizontal e.pos) = turnSixteenths 8 e.pos := by
      simp [mirrorVec, turnSixteenths, quarterTurn]
    rw [hm]
    by_cases hd : e.Directional
    · rw [facing_after _ _ _ hd, (hdirs e he hd).1]; rfl
    · exact PEnt.after_undirected _ _ _ _ hd
  · rw [List.map_map]
    apply List.map_congr_left
    intro t _
    apply tile_ext_centre
    simp only [Function.comp]
    rw [flipTile_centre, flipTile_centre, rotateTile_centre _ (by decide)]
    simp [mirrorVec, turnSixteenths, quarterTurn]

example : ∃ l₁ l₂, flip ⟨[chest, inserterFacing 4], [⟨3, -1⟩]⟩ .horizontal = (l₁, none) ∧ flip l₁ .vertical = (l₂, none) :=
  ⟨(flip ⟨[chest, inserterFacing 4], [⟨3, -1⟩]⟩ .horizontal).1,
   (flip (flip ⟨[chest, inserterFacing 4], [⟨3, -1⟩]⟩ .horizontal).1 .vertical).1, by decide +kernel, by decide +kernel⟩

/-- C21: flipping conjugates a rotation to its inverse, when the three steps succeed. -/
theorem C21_conjugate (l l₁ l₂ l₃ : Layout) (hs : ∀ e ∈ l.entities, e.Sane) (f : FlipArg) (hf : f ≠ .other) (a : Int)
    (h₁ : flip l f = (l₁, none)) (h₂ : rotate l₁ a = (l₂, none)) (h₃ : flip l₂ f = (l₃, none)) :
    rotate l (-a) = (l₃, none) := by
  obtain ⟨hfl, hr⟩ := (flip_ok_iff l hs f hf).1 (by rw [h₁])
  rw [flip_ok l hs _ hf hfl hr, Prod.mk.injEq] at h₁
  obtain ⟨rfl, -⟩ := h₁
  have hs₁ := flipped_sane l hs _ hr
  obtain ⟨h4, hr₁⟩ := (rotate_ok_iff _ hs₁ a).1 (by rw [h₂])
  rw [rotate_ok _ hs₁ a h4 hr₁, Prod.mk.injEq] at h₂
  obtain ⟨rfl, -⟩ := h₂
  have hs₂ : ∀ e ∈ (l.entities.map (fun e => e.after (e.facing + flipShift f e.facing) (mirrorVec f e.pos))).map
      (fun e => e.after (e.facing + a % 16) (turnSixteenths a e.pos)), e.Sane := by
    intro x hx
    obtain ⟨y, hy, rfl⟩ := List.mem_map.1 hx
    clear hx
    refine PEnt.after_sane _ _ _ (hs₁ y hy) fun hd' => ?_
    obtain ⟨d', hdir', h0', h1', h4'⟩ := (hs₁ y hy).direction hd'
    have hf' : y.facing = d' := by simp [PEnt.facing, hdir']
    have := (hr₁ y hy).2 hd'
    refine ⟨by omega, by omega, fun ht => ?_⟩
    have := h4' ht
    omega
  obtain ⟨hfl₂, hr₂⟩ := (flip_ok_iff _ hs₂ f hf).1 (by rw [h₃])
  rw [flip_ok _ hs₂ f hf hfl₂ hr₂, Prod.mk.injEq] at h₃
  obtain ⟨rfl, -⟩ := h₃
  have hdirs : ∀ e ∈ l.entities, e.Directional →
      e.facing + flipShift f e.facing + a % 16 + flipShift f (e.facing + flipShift f e.facing + a % 16)
        = e.facing + (-a) % 16 ∧ e.facing + (-a) % 16 < 16 := by
    intro e he hd
    have r1 := flip_range f e (hs e he) (hr e he) hd
    have r2 := (hr₁ _ (List.mem_map_of_mem he)).2 (directional_after _ _ _ hd)
    have r3 := (hr₂ _ (List.mem_map_of_mem (List.mem_map_of_mem he))).2 (directional_after _ _ _ (directional_after _ _ _ hd))
    rw [facing_after _ _ _ hd] at r2
    rw [facing_after _ _ _ (directional_after _ _ _ hd), facing_after _ _ _ hd] at r3
    obtain ⟨d, hdir, h0, h1, -⟩ := (hs e he).direction hd
    have hfc : e.facing = d := by simp [PEnt.facing, hdir]
    rw [hfc] at r1 r2 r3 ⊢
    unfold flipShift at r1 r2 r3 ⊢
    split_ifs at r1 r2 r3 ⊢ <;> omega
  have hturn : ∀ p, mirrorVec f (turnSixteenths a (mirrorVec f p)) = turnSixteenths (-a) p := by
    intro p
    rcases quarter_mod a (by omega) with h | h | h | h
    · have h' : -a % 16 = 0 := by omega
      unfold turnSixteenths mirrorVec; rw [h, h']; cases f <;> simp [quarterTurn]
    · have h' : -a % 16 = 12 := by omega
      unfold turnSixteenths mirrorVec; rw [h, h']; cases f <;> simp [quarterTurn]
    · have h' : -a % 16 = 8 := by omega
      unfold turnSixteenths mirrorVec; rw [h, h']; cases f <;> simp [quarterTurn]
    · have h' : -a % 16 = 4 := by omega
      unfold turnSixteenths mirrorVec; rw [h, h']; cases f <;> simp [quarterTurn]
  rw [rotate_ok l hs (-a) (by omega) (fun e he => ⟨(hr e he).1, fun hd => (hdirs e he hd).2⟩)]
  congr 2
  · rw [List.map_map, List.map_map]
    apply List.map_congr_left
    intro e he
    simp only [Function.comp, PEnt.after_pos, PEnt.after_after, hturn]
    by_cases hd : e.Directional
    · rw [facing_after _ _ _ hd, facing_after _ _ _ hd, (hdirs e he hd).1]
    · exact PEnt.after_undirected _ _ _ _ hd
  · rw [List.map_map, List.map_map]
    apply List.map_congr_left
    intro t _
    apply tile_ext_centre
    simp only [Function.comp]
    rw [flipTile_centre, rotateTile_centre _ (quarter_mod a (by omega)), flipTile_centre, turnSixteenths_mod, hturn,
      rotateTile_centre _ (quarter_mod (-a) (by omega)), turnSixteenths_mod]

example : ∃ l₁ l₂ l₃, flip ⟨[chest, inserterFacing 0], [⟨3, -1⟩]⟩ .horizontal = (l₁, none) ∧ rotate l₁ 4 = (l₂, none) ∧
    flip l₂ .horizontal = (l₃, none) :=
  ⟨(flip ⟨[chest, inserterFacing 0], [⟨3, -1⟩]⟩ .horizontal).1,
   (rotate (flip ⟨[chest, inserterFacing 0], [⟨3, -1⟩]⟩ .horizontal).1 4).1,
   (flip (rotate (flip ⟨[chest, inserterFacing 0], [⟨3, -1⟩]⟩ .horizontal).1 4).1 .horizontal).1,
   by decide +kernel, by decide +kernel, by decide +kernel⟩

/-- C21: a wrong argument, or a member that cannot be flipped, is rejected and nothing changes. -/
theorem C21_rejects (l : Layout) (f : FlipArg) (h : f = .other ∨ ∃ e ∈ l.entities, e.flippable = false) :
    (flip l f).1 = l ∧ (flip l f).2 ≠ none := by
  unfold flip
  by_cases hfl : l.entities.any (fun e => !e.flippable) = true
  · rw [if_pos hfl]; simp
  · rw [if_neg hfl]
    rcases h with h | ⟨e, he, h⟩
    · rw [if_pos h]; simp
    · exact absurd (List.any_eq_true.2 ⟨e, he, by simp [h]⟩) hfl

example : ({ chest with flippable := false } : PEnt).flippable = false := rfl

/-! ### C22 -/

theorem translateStep_ok (x y : Int) (e : PEnt) :
    translateStep x y { e with held := false } =
      .ok (({ e with held := false } : PEnt).placed ⟨e.pos.x + x, e.pos.y + y⟩) := by
  unfold translateStep
  rw [PEnt.setPosition_free _ _ rfl]; rfl

/-- The entity moved to `p`. -/
def PEnt.movedTo (e : PEnt) (p : Vec) : PEnt := { ({ e with held := false } : PEnt).placed p with held := true }

theorem PEnt.movedTo_movedTo (e : PEnt) (p q : Vec) : (e.movedTo p).movedTo q = e.movedTo q := by
  rcases e with ⟨t, _, _, _, _, _, _, _, _, _, _, _⟩
  cases t <;> rfl
theorem PEnt.movedTo_pos (e : PEnt) (p : Vec) : (e.movedTo p).pos = p := by
  rcases e with ⟨t, _, _, _, _, _, _, _, _, _, _, _⟩
  cases t <;> rfl
theorem PEnt.movedTo_doubleGrid (e : PEnt) (p : Vec) : (e.movedTo p).doubleGrid = e.doubleGrid := by
  rcases e with ⟨t, _, _, _, _, _, _, _, _, _, _, _⟩
  cases t <;> rfl

theorem translate_eq (l : Layout) (x y : Int) :
    (translate l x y).1 = (⟨l.entities.map (fun e => e.movedTo ⟨e.pos.x + x, e.pos.y + y⟩),
      l.tiles.map (fun t => ⟨t.x + x, t.y + y⟩)⟩, none) := by
  unfold translate
  simp only
  rw [transformWith_all (f := fun e => ({ e with held := false } : PEnt).placed ⟨e.pos.x + x, e.pos.y + y⟩)
    (fun e _ => translateStep_ok x y e)]
  rfl

/-- C22: translation always succeeds and moves every entity (groups included) and every tile by the shift,
changing nothing else but the tile position. -/
theorem C22_effect (l : Layout) (x y : Int) :
    ∃ l', (translate l x y).1 = (l', none) ∧
      List.Forall₂ (fun e e' => e'.pos = e.pos + ⟨x, y⟩ ∧ e'.dir = e.dir ∧ e'.w = e.w ∧ e'.h = e.h ∧ e'.turning = e.turning
        ∧ e'.held = true) l.entities l'.entities ∧
      List.Forall₂ (fun t t' => t'.x = t.x + x ∧ t'.y = t.y + y) l.tiles l'.tiles := by
  refine ⟨_, translate_eq l x y, ?_, ?_⟩
  · simp only [List.forall₂_map_right_iff]
    rw [List.forall₂_same]
    intro e _
    rcases e with ⟨t, _, _, _, _, _, _, _, _, _, _, _⟩
    cases t <;> exact ⟨rfl, rfl, rfl, rfl, rfl, rfl⟩
  · simp only [List.forall₂_map_right_iff]
    rw [List.forall₂_same]
    exact fun t _ => ⟨rfl, rfl⟩

/-- C22: relative offsets never change. -/
theorem C22_rigid (l l' : Layout) (x y : Int) (h : (translate l x y).1 = (l', none))
    (i j : ℕ) (hi : i < l.entities.length) (hj : j < l.entities.length) :
    ∃ (hi' : i < l'.entities.length) (hj' : j < l'.entities.length),
      l'.entities[i].pos - l'.entities[j].pos = l.entities[i].pos - l.entities[j].pos := by
  rw [translate_eq, Prod.mk.injEq] at h
  obtain ⟨rfl, -⟩ := h
  refine ⟨by simpa using hi, by simpa using hj, ?_⟩
  ext <;> simp [PEnt.movedTo_pos]

/-- C22: two translations are one by the sum. -/
theorem C22_compose (l l₁ l₂ : Layout) (x y u v : Int) (h₁ : (translate l x y).1 = (l₁, none))
    (h₂ : (translate l₁ u v).1 = (l₂, none)) : (translate l (x + u) (y + v)).1 = (l₂, none) := by
  rw [translate_eq, Prod.mk.injEq] at h₁
  obtain ⟨rfl, -⟩ := h₁
  rw [translate_eq, Prod.mk.injEq] at h₂
  obtain ⟨rfl, -⟩ := h₂
  rw [translate_eq]
  simp only [List.map_map]
  congr 2
  · apply List.map_congr_left
    intro e _
    simp only [Function.comp, PEnt.movedTo_pos, PEnt.movedTo_movedTo]
    congr 2 <;> push_cast <;> ring
  · apply List.map_congr_left
    intro t _
    simp only [Function.comp, PTile.mk.injEq]
    omega

/-- C22: translating by nothing changes nothing (settled members). -/
theorem C22_zero (l : Layout) (hh : ∀ e ∈ l.entities, e.held = true) (ht : ∀ e ∈ l.entities, e.Settled) :
    (translate l 0 0).1 = (l, none) := by
  rw [translate_eq]
  have e1 : l.entities.map (fun e => e.movedTo ⟨e.pos.x + (0:ℤ), e.pos.y + (0:ℤ)⟩) = l.entities := by
    conv_rhs => rw [← List.map_id l.entities]
    apply List.map_congr_left
    intro e he
    have h1 := (ht e he).tile
    have h2 := hh e he
    rcases e with ⟨t, _, _, _, _, _, _, _, _, _, _, _⟩
    cases t <;> simp_all [PEnt.movedTo, PEnt.placed]
  have e2 : l.tiles.map (fun t => (⟨t.x + 0, t.y + 0⟩ : PTile)) = l.tiles := by
    conv_rhs => rw [← List.map_id l.tiles]
    apply List.map_congr_left
    intro t _
    cases t; simp
  rw [e1, e2]

/-- C22: translating back undoes it (settled members). -/
theorem C22_inverse (l l₁ : Layout) (hh : ∀ e ∈ l.entities, e.held = true) (ht : ∀ e ∈ l.entities, e.Settled) (x y : Int)
    (h : (translate l x y).1 = (l₁, none)) : (translate l₁ (-x) (-y)).1 = (l, none) := by
  obtain ⟨l₂, h₂, -⟩ := C22_effect l₁ (-x) (-y)
  have := C22_compose l l₁ l₂ x y (-x) (-y) h h₂
  rw [show x + -x = 0 by omega, show y + -y = 0 by omega, C22_zero l hh ht] at this
  rw [h₂, this]

/-- C22: on grid-aligned members the tile position moves by the shift too. -/
theorem C22_tile (l l' : Layout) (x y : Int) (h : (translate l x y).1 = (l', none))
    (i : ℕ) (hi : i < l.entities.length) (m n : ℤ) (hg : l.entities[i].turning ≠ .group)
    (ht : l.entities[i].tile = ⟨m, n⟩) (ha : l.entities[i].Agree) :
    ∃ hi' : i < l'.entities.length, l'.entities[i].tile = ⟨(m + x : ℤ), (n + y : ℤ)⟩ := by
  rw [translate_eq, Prod.mk.injEq] at h
  obtain ⟨rfl, -⟩ := h
  refine ⟨by simpa using hi, ?_⟩
  simp only [List.getElem_map]
  generalize l.entities[i] = e at *
  obtain ⟨ax, ay⟩ := ha
  rw [ht] at ax ay
  have e1 : e.pos.x + x - (e.w:ℚ) / 2 = ((m + x : ℤ) : ℚ) := by rw [ax]; push_cast; ring
  have e2 : e.pos.y + y - (e.h:ℚ) / 2 = ((n + y : ℤ) : ℚ) := by rw [ay]; push_cast; ring
  have : (e.movedTo ⟨e.pos.x + x, e.pos.y + y⟩).tile =
      ⟨pyRound (e.pos.x + x - (e.w:ℚ) / 2), pyRound (e.pos.y + y - (e.h:ℚ) / 2)⟩ := by
    rcases e with ⟨t, _, _, _, _, _, _, _, _, _, _, _⟩
    cases t <;> first | rfl | exact absurd rfl hg
  rw [this, e1, e2, pyRound_intCast, pyRound_intCast]

example : (inserterFacing 4).Agree ∧ (inserterFacing 4).tile = ⟨(2 : ℤ), (0 : ℤ)⟩ := by
  refine ⟨⟨?_, ?_⟩, ?_⟩ <;> decide +kernel

/-- C22 fails for the tile position of members placed half-way between tiles: rounding to even moves this
chest's tile position by two when translated by one. -/
theorem C22_offgrid_refuted :
    ∃ l', (translate ⟨[chest.movedTo ⟨1, 1/2⟩], []⟩ 1 0).1 = (l', none) ∧
      (chest.movedTo ⟨1, 1/2⟩).tile.x = 0 ∧ l'.entities.map (·.tile.x) = [2] :=
  ⟨(translate ⟨[chest.movedTo ⟨1, 1/2⟩], []⟩ 1 0).1.1, by decide +kernel, by decide +kernel, by decide +kernel⟩

/-- C22: the warning is issued exactly when some member is bound to the double grid and the shift is odd in
some coordinate. -/
theorem C22_warning (l : Layout) (x y : Int) :
    (translate l x y).2 = true ↔
      (∃ e ∈ l.entities, e.doubleGrid = true) ∧ ((∃ k, x = 2 * k + 1) ∨ (∃ k, y = 2 * k + 1)) := by
  simp only [translate, Bool.and_eq_true, Bool.or_eq_true, beq_iff_eq, List.any_eq_true]
  refine and_congr Iff.rfl (or_congr ?_ ?_)
  · exact ⟨fun h => ⟨x / 2, by omega⟩, fun ⟨k, hk⟩ => by omega⟩
  · exact ⟨fun h => ⟨y / 2, by omega⟩, fun ⟨k, hk⟩ => by omega⟩

example : (translate ⟨[{ chest with doubleGrid := true }], []⟩ (-3) 2).2 = true := by decide +kernel

end Draftsman
