import Verif.Model.SetTiles
import Verif.Props.TileList
/-
C68: assigning to the tiles of a blueprint.
-/
namespace Draftsman.TileList
open Draftsman

/-- Specification: the name and position an entry stands for, if it stands for a tile. -/
def Entry.tells : Entry → Option (ℕ × Vec)
  | .tile t => some (t.key, t.pos)
  | .dict (some n) p => some (n, p)
  | _ => none

/-- Specification: a tile given covers its unit square. -/
def Entry.Sound : Entry → Prop
  | .tile t => UnitSquare t
  | _ => True

/-- The call of `append` for an entry. -/
def Entry.op : Entry → TOp
  | .tile t => .append (.copyOf t none) false none
  | .dict (some n) p => .append (.name n p) false none
  | _ => .clear

theorem pyInsert_end {α : Type} (l : List α) (x : α) : EList.pyInsert l l.length x = l ++ [x] := by
  unfold EList.pyInsert
  rw [if_neg (by omega)]
  simp

/-- One entry. -/
theorem append_entry (s : TL) (e : Entry) {v : ℕ × Vec} (he : e.tells = some v) : ∃ x : SItem,
    x.uid = s.next ∧ val x = v ∧
    step s e.op = ({ s with root := s.root ++ [x], map := s.map.add cellSize x, parented := setParent s x.uid, next := s.next + 1 }, none) := by
  match e, he with
  | .tile t, he =>
    cases he
    refine ⟨{ t with uid := s.next }, rfl, rfl, ?_⟩
    simp only [Entry.op, step, append, insert, place, Bool.false_eq_true, if_false, pyInsert_end]
    rfl
  | .dict (some n) p, he =>
    cases he
    refine ⟨mkTile s.next n p, rfl, rfl, ?_⟩
    simp only [Entry.op, step, append, insert, place, Bool.false_eq_true, if_false, pyInsert_end]
    rfl

theorem build_cons (s : TL) (e : Entry) (r : List Entry) {v : ℕ × Vec} (he : e.tells = some v) :
    build s (e :: r) = build (step s e.op).1 r := by
  obtain ⟨x, -, -, h⟩ := append_entry s e he
  match e, he with
  | .tile t, _ =>
    simp only [Entry.op, step] at h ⊢
    simp only [build, h]
  | .dict (some n) p, _ =>
    simp only [Entry.op, step] at h ⊢
    simp only [build, h]

/-- The loop, for entries that all stand for tiles. -/
theorem build_run (l : List Entry) : ∀ (s : TL) (vs : List (ℕ × Vec)), s.parent = true → l.map Entry.tells = vs.map some →
    build s l = (run s (l.map Entry.op), none) ∧
    ∃ new : List SItem, (run s (l.map Entry.op)).root = s.root ++ new ∧ new.map val = vs ∧
      new.map (·.uid) = List.range' s.next l.length ∧
      (∀ x ∈ new, x.uid ∈ (run s (l.map Entry.op)).parented) ∧ (∀ u ∈ s.parented, u ∈ (run s (l.map Entry.op)).parented) ∧
      (run s (l.map Entry.op)).next = s.next + l.length ∧ (run s (l.map Entry.op)).parent = true := by
  induction l with
  | nil =>
    intro s vs hp hv
    cases vs with
    | nil => exact ⟨rfl, [], by simp [run], rfl, rfl, by simp, fun u h => h, rfl, hp⟩
    | cons => simp at hv
  | cons e r ih =>
    intro s vs hp hv
    cases vs with
    | nil => simp at hv
    | cons v vs =>
      simp only [List.map_cons, List.cons.injEq] at hv
      obtain ⟨x, h1, h2, h3⟩ := append_entry s e hv.1
      obtain ⟨i1, new, i2, i3, i4, i5, i6, i7, i8⟩ := ih (step s e.op).1 vs (by rw [h3]; exact hp) hv.2
      have hrun : run s ((e :: r).map Entry.op) = run (step s e.op).1 (r.map Entry.op) := rfl
      rw [hrun, build_cons s e r hv.1]
      have hx : x.uid ∈ (step s e.op).1.parented := by
        rw [h3]; simp [setParent, hp]
      refine ⟨i1, x :: new, ?_, ?_, ?_, ?_, ?_, ?_, i8⟩
      · rw [i2, h3]; simp
      · simp [h2, i3]
      · rw [List.map_cons, i4, h3, h1, List.length_cons, List.range'_succ]
      · intro y hy
        rcases List.mem_cons.1 hy with rfl | hy
        · exact i6 _ hx
        · exact i5 y hy
      · intro u hu
        refine i6 u ?_
        rw [h3]; simp only [setParent, hp, if_true]
        exact List.mem_cons_of_mem _ hu
      · rw [i7, h3]; simp; omega

theorem entries_ops {l : List Entry} (hs : ∀ e ∈ l, e.Sound) :
    (∀ o ∈ l.map Entry.op, o.Unit) ∧ (∀ o ∈ l.map Entry.op, o.NoFailedSet) ∧ (∀ o ∈ l.map Entry.op, o.Fixed) := by
  have key : ∀ e ∈ l, e.op.Unit ∧ e.op.NoFailedSet ∧ e.op.Fixed := by
    intro e he
    match e, hs e he with
    | .tile t, h => exact ⟨h, trivial, trivial⟩
    | .dict (some n) p, _ => exact ⟨trivial, trivial, trivial⟩
    | .dict none p, _ => exact ⟨trivial, trivial, trivial⟩
    | .other, _ => exact ⟨trivial, trivial, trivial⟩
  simp only [List.mem_map]
  exact ⟨by rintro o ⟨e, he, rfl⟩; exact (key e he).1, by rintro o ⟨e, he, rfl⟩; exact (key e he).2.1,
    by rintro o ⟨e, he, rfl⟩; exact (key e he).2.2⟩

/-- C68: assigning tiles and dictionaries of tiles to a blueprint makes it hold new tiles with exactly the names and positions given, in the same
order; none of them is a tile that was there before; all of them belong to the blueprint, and the map holds them, each in its cells. -/
theorem C68_assign (s : TL) (l : List Entry) (vs : List (ℕ × Vec)) (hv : l.map Entry.tells = vs.map some) (hs : ∀ e ∈ l, e.Sound) :
    (setTiles s (.list l)).2 = none ∧
    (setTiles s (.list l)).1.root.map (fun x => (x.key, x.pos)) = vs ∧
    ((setTiles s (.list l)).1.root.map (·.uid)).Nodup ∧
    (∀ x ∈ (setTiles s (.list l)).1.root, s.next ≤ x.uid ∧ x.uid < (setTiles s (.list l)).1.next ∧
      x.uid ∈ (setTiles s (.list l)).1.parented) ∧
    ∀ c : Cell, ((((setTiles s (.list l)).1.map.get? c).getD []).map fun x => (x.key, x.pos)).Perm
      (((setTiles s (.list l)).1.root.filter (inCell c)).map fun x => (x.key, x.pos)) ∧
      (setTiles s (.list l)).1.map.get? c ≠ some [] := by
  obtain ⟨h1, new, h2, h3, h4, h5, -, h7, -⟩ := build_run l (empty true s.next) vs rfl hv
  obtain ⟨o1, o2, o3⟩ := entries_ops hs
  have hset : setTiles s (.list l) = ({ run (empty true s.next) (l.map Entry.op) with
      parented := (run (empty true s.next) (l.map Entry.op)).parented ++ s.parented }, none) := by
    simp only [setTiles, replaceTiles, h1]
  rw [hset]
  have hroot : (run (empty true s.next) (l.map Entry.op)).root = new := by rw [h2]; rfl
  refine ⟨rfl, ?_, ?_, ?_, fun c => C68_index true s.next (l.map Entry.op) o1 o2 o3 c⟩
  · simp only [hroot]; exact h3
  · simp only [hroot, h4]; exact List.nodup_range'
  · simp only [hroot, h7]
    intro x hx
    have hm : x.uid ∈ List.range' s.next l.length := by
      rw [← show (empty true s.next).next = s.next from rfl, ← h4]
      exact List.mem_map_of_mem hx
    rw [List.mem_range'_1] at hm
    exact ⟨hm.1, hm.2, List.mem_append_left _ (h5 x hx)⟩

/-- C68: assigning a tile list is assigning the list of its tiles; assigning `None` leaves no tile, in the list or in the map. -/
theorem C68_assign_tiles (s : TL) (l : List SItem) :
    setTiles s (.tiles l) = setTiles s (.list (l.map .tile)) ∧
    (setTiles s .none).2 = none ∧ (setTiles s .none).1.root = [] ∧ ∀ c, (setTiles s .none).1.map.get? c = none :=
  ⟨rfl, rfl, rfl, fun _ => rfl⟩

theorem build_fails (l : List Entry) : ∀ s : TL, none ∈ l.map Entry.tells → ∃ e, (build s l).2 = some e := by
  induction l with
  | nil => intro s h; simp at h
  | cons e r ih =>
    intro s h
    cases hv : e.tells with
    | some v =>
      rw [build_cons s e r hv]
      refine ih _ ?_
      simpa [hv] using h
    | none =>
      match e, hv with
      | .dict none p, _ => exact ⟨_, rfl⟩
      | .other, _ => exact ⟨_, rfl⟩

/-- C68: a value with an entry that is neither a tile nor a dictionary with a name, or one that is no list at all, is refused, and the tiles, their
map and their parents stay as they were. -/
theorem C68_assign_refused (s : TL) (v : Value) (hv : v = .scalar ∨ ∃ l, v = .list l ∧ none ∈ l.map Entry.tells) :
    (setTiles s v).2 ≠ none ∧ (setTiles s v).1.root = s.root ∧ (setTiles s v).1.map = s.map ∧ (setTiles s v).1.parented = s.parented := by
  rcases hv with rfl | ⟨l, rfl, h⟩
  · exact ⟨by simp [setTiles], rfl, rfl, rfl⟩
  · obtain ⟨e, he⟩ := build_fails l (empty true s.next) h
    rcases hb : build (empty true s.next) l with ⟨s', e'⟩
    rw [hb] at he
    simp only at he
    subst he
    simp only [setTiles, replaceTiles, hb]
    simp

/-- C68 fails for former tiles: whatever list is assigned to the tiles of a blueprint, a tile that was there before and is not any more still
refuses to be moved. -/
theorem C68_assign_former_refuted (n : ℕ) (ops : List TOp) (x : SItem) (hx : x ∈ (run (empty true n) ops).root) (l : List Entry)
    (vs : List (ℕ × Vec)) (hv : l.map Entry.tells = vs.map some) (p : Vec) :
    (move (setTiles (run (empty true n) ops) (.list l)).1 x.uid p).2 = some .draftsmanError := by
  have hin : x.uid ∈ (run (empty true n) ops).parented := by
    obtain ⟨h, hp⟩ := locked_run n ops
    exact h hp x hx
  obtain ⟨h1, -⟩ := build_run l (empty true (run (empty true n) ops).next) vs rfl hv
  simp only [setTiles, replaceTiles, h1, move]
  rw [if_pos (List.mem_append_right _ hin)]

/-- Two tiles replaced by one of them and a dictionary; a list with a stray entry. -/
example :
    let s := run (empty true 0) [.append (.name 1 ⟨7, 7⟩) false none, .append (.name 2 ⟨8, 7⟩) false none]
    let l : List Entry := [.tile (mkTile 1 2 ⟨8, 7⟩), .dict (some 3) ⟨0, 0⟩]
    l.map Entry.tells = [(2, ⟨8, 7⟩), (3, ⟨0, 0⟩)].map some ∧ UnitSquare (mkTile 1 2 ⟨8, 7⟩) ∧
    (setTiles s (.list l)).1.root.map (·.uid) = [2, 3] ∧
    none ∈ [Entry.tile (mkTile 1 2 ⟨8, 7⟩), .other].map Entry.tells ∧
    (setTiles s (.list [.tile (mkTile 1 2 ⟨8, 7⟩), .other])).1.root.map (·.uid) = [0, 1] ∧
    (mkTile 0 1 ⟨7, 7⟩) ∈ s.root := by
  refine ⟨rfl, by decide +kernel, by decide +kernel, by decide +kernel, by decide +kernel, by decide +kernel⟩

end Draftsman.TileList
