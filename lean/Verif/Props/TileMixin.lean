import Verif.Model.TileMixin
import Verif.Props.TileList
import Verif.Proof.EntityList
/-
C68, C117: a list of tiles as a mutable sequence.
-/
namespace Draftsman.TileList
open Draftsman

theorem setItem_ok {s : TL} {i : ℕ} (hi : i < s.root.length) (t : SItem) :
    (setItem s i t none).2 = none ∧ (setItem s i t none).1.root = s.root.set i t := by
  unfold setItem
  rw [EList.pyIndex_nat hi]
  simp [List.getElem?_eq_getElem hi]

/-- The loop of `reverse` is a history of replacements. -/
theorem reverseFrom_run (k : ℕ) : ∀ (s : TL) (i : ℕ), i + k = s.root.length / 2 → (∀ x ∈ s.root, UnitSquare x) →
    ∃ (s' : TL) (ops : List TOp), reverseFrom s.root.length i k s = (s', none) ∧ s' = run s ops ∧
      (∀ o ∈ ops, o.Unit) ∧ (∀ o ∈ ops, o.NoFailedSet) ∧ (∀ o ∈ ops, o.Fixed) ∧
      ∀ p, s'.root[p]? = if i ≤ p ∧ p < s.root.length - i then s.root[s.root.length - p - 1]? else s.root[p]? := by
  induction k with
  | zero =>
    intro s i hik _
    refine ⟨s, [], rfl, rfl, by simp, by simp, by simp, fun p => ?_⟩
    split
    · rename_i hc
      rw [show s.root.length - p - 1 = p by omega]
    · rfl
  | succ k ih =>
    intro s i hik hu
    have hil : i < s.root.length := by omega
    have hjl : s.root.length - i - 1 < s.root.length := by omega
    have hi := List.getElem?_eq_getElem hil
    have hj := List.getElem?_eq_getElem hjl
    generalize ha : s.root[i] = a at hi
    generalize hb : s.root[s.root.length - i - 1] = b at hj
    obtain ⟨h1, h2⟩ := setItem_ok hil b
    obtain ⟨h3, h4⟩ := setItem_ok (s := (setItem s i b none).1) (i := s.root.length - i - 1) (by rw [h2]; simp; omega) a
    set s1 := (setItem (setItem s i b none).1 (s.root.length - i - 1 : ℕ) a none).1 with hs1
    have hswap : swap s i (s.root.length - i - 1) = (s1, none) := by
      unfold swap
      rw [hi, hj]
      simp only
      rcases e1 : setItem s i b none with ⟨t, _ | e⟩
      · simp only
        rw [e1] at h3 hs1
        rcases e2 : setItem t (s.root.length - i - 1 : ℕ) a none with ⟨t', _ | e⟩
        · rw [hs1, e2]
        · rw [e2] at h3; simp at h3
      · rw [e1] at h1; simp at h1
    have hr1 : s1.root = (s.root.set i b).set (s.root.length - i - 1) a := by rw [h4, h2]
    have hlen : s1.root.length = s.root.length := by rw [hr1]; simp
    have hua : UnitSquare a := hu a (List.mem_of_getElem? hi)
    have hub : UnitSquare b := hu b (List.mem_of_getElem? hj)
    have hu1 : ∀ x ∈ s1.root, UnitSquare x := by
      intro x hx
      rw [hr1] at hx
      rcases List.mem_or_eq_of_mem_set hx with hx | rfl
      · rcases List.mem_or_eq_of_mem_set hx with hx | rfl
        · exact hu x hx
        · exact hub
      · exact hua
    have hget : ∀ p, s1.root[p]? = if p = i then s.root[s.root.length - i - 1]? else
        if p = s.root.length - i - 1 then s.root[i]? else s.root[p]? := by
      intro p
      rw [hr1, List.getElem?_set, List.getElem?_set, hi, hj]
      by_cases hc : s.root.length - i - 1 = p
      · rw [if_pos hc, if_pos (by simp; omega), if_neg (by omega), if_pos hc.symm]
      · rw [if_neg hc]
        by_cases hc2 : i = p
        · rw [if_pos hc2, if_pos (by omega), if_pos hc2.symm]
        · rw [if_neg hc2, if_neg (fun x => hc2 x.symm), if_neg (fun x => hc x.symm)]
    obtain ⟨s2, ops, h5, h6, h7, h8, h9, h10⟩ := ih s1 (i + 1) (by omega) hu1
    refine ⟨s2, .set i b none :: .set (s.root.length - i - 1 : ℕ) a none :: ops, ?_, ?_, ?_, ?_, ?_, fun p => ?_⟩
    · simp only [reverseFrom, hswap]
      rw [← hlen]; exact h5
    · rw [h6, hs1]; rfl
    · intro o ho
      simp only [List.mem_cons] at ho
      rcases ho with rfl | rfl | ho
      · exact hub
      · exact hua
      · exact h7 o ho
    · intro o ho
      simp only [List.mem_cons] at ho
      rcases ho with rfl | rfl | ho
      · rfl
      · rfl
      · exact h8 o ho
    · intro o ho
      simp only [List.mem_cons] at ho
      rcases ho with rfl | rfl | ho
      · trivial
      · trivial
      · exact h9 o ho
    · rw [h10, hlen, hget, hget]
      by_cases hp : p = i
      · subst hp
        rw [if_neg (by omega), if_pos rfl, if_pos (by omega)]
      · by_cases hp2 : p = s.root.length - i - 1
        · subst hp2
          rw [if_neg (by omega), if_neg hp, if_pos rfl, if_pos (by omega), show s.root.length - (s.root.length - i - 1) - 1 = i by omega]
        · by_cases hp3 : i + 1 ≤ p ∧ p < s.root.length - (i + 1)
          · rw [if_pos hp3, if_neg (by omega), if_neg (by omega), if_pos (by omega)]
          · rw [if_neg hp3, if_neg hp, if_neg hp2, if_neg (by omega)]

/-- C68: any list of tiles, reached by any history of insertions, replacements, deletions and clearings, can be reversed, and its map still holds
the tiles of the list, each in its cells. -/
theorem C68_reverse (p : Bool) (n : ℕ) (ops : List TOp) (hu : ∀ o ∈ ops, o.Unit) (hs : ∀ o ∈ ops, o.NoFailedSet)
    (hf : ∀ o ∈ ops, o.Fixed) :
    (reverse (run (empty p n) ops)).2 = none ∧
    (reverse (run (empty p n) ops)).1.root = (run (empty p n) ops).root.reverse ∧
    ∀ c : Cell, ((((reverse (run (empty p n) ops)).1.map.get? c).getD []).map fun x => (x.key, x.pos)).Perm
      ((((run (empty p n) ops).root.reverse).filter (inCell c)).map fun x => (x.key, x.pos)) ∧
      (reverse (run (empty p n) ops)).1.map.get? c ≠ some [] := by
  obtain ⟨L, h1, h2, h3, h4⟩ := invA_run p n ops hu hs hf
  obtain ⟨s', ops', h5, h6, h7, h8, h9, h10⟩ := reverseFrom_run ((run (empty p n) ops).root.length / 2) (run (empty p n) ops) 0 (by omega) h3
  have hr : reverse (run (empty p n) ops) = (s', none) := h5
  have hroot : s'.root = (run (empty p n) ops).root.reverse := by
    apply List.ext_getElem?
    intro q
    rw [h10]
    by_cases hp : q < (run (empty p n) ops).root.length
    · rw [if_pos (by omega), List.getElem?_reverse hp]
      congr 1; omega
    · rw [if_neg (by omega), List.getElem?_eq_none (by omega), List.getElem?_eq_none (by simp; omega)]
  have happ : s' = run (empty p n) (ops ++ ops') := by
    rw [h6]; simp [run, List.foldl_append]
  refine ⟨by rw [hr], by rw [hr]; exact hroot, fun c => ?_⟩
  have := C68_index p n (ops ++ ops')
    (fun o ho => (List.mem_append.1 ho).elim (hu o) (h7 o)) (fun o ho => (List.mem_append.1 ho).elim (hs o) (h8 o))
    (fun o ho => (List.mem_append.1 ho).elim (hf o) (h9 o)) c
  rw [← happ, hroot] at this
  rw [hr]
  exact this

/-- C68: `pop` with a position within the list, counted from the end if negative, returns the tile there and deletes it as `del` does; with any other
position it fails and changes nothing. -/
theorem C68_pop (s : TL) (i : Int) :
    (∀ (n : ℕ) (t : SItem), (i = n ∨ i + s.root.length = n ∧ i < 0) → s.root[n]? = some t →
      pop s i = ((step s (.del i)).1, .ok t) ∧ (step s (.del i)).2 = none ∧ (pop s i).1.root = s.root.eraseIdx n) ∧
    (i < -(s.root.length : Int) ∨ (s.root.length : Int) ≤ i → pop s i = (s, .error .indexError)) := by
  constructor
  · intro n t hi hn
    obtain ⟨hlt, -⟩ := List.getElem?_eq_some_iff.1 hn
    have hp : EList.pyIndex s.root i = some n := by
      unfold EList.pyIndex
      rcases hi with rfl | ⟨h4, h5⟩
      · rw [if_pos (by omega)]; simp
      · rw [if_neg (by omega), if_pos (by omega)]
        congr 1; omega
    simp only [pop, step, delInt, hp, hn]
    exact ⟨trivial, trivial, trivial⟩
  · intro hi
    have hp : EList.pyIndex s.root i = none := by
      unfold EList.pyIndex
      rw [if_neg (by omega), if_neg (by omega)]
    simp only [pop, hp]

/-- Two equal tiles and another, turned round; the last popped. -/
example :
    let ops : List TOp := [.append (.name 1 ⟨7, 7⟩) false none, .append (.name 1 ⟨8, 7⟩) false none, .append (.name 1 ⟨7, 7⟩) false none,
      .append (.name 2 ⟨0, 0⟩) false none]
    (∀ o ∈ ops, o.Unit) ∧ (∀ o ∈ ops, o.NoFailedSet) ∧ (∀ o ∈ ops, o.Fixed) ∧
    (reverse (run (empty true 0) ops)).1.root.map (·.uid) = [3, 2, 1, 0] ∧
    (((reverse (run (empty true 0) ops)).1.map.get? (1, 0)).getD []).map (·.uid) = [1] ∧
    (pop (run (empty true 0) ops) (-1)).2.toOption.map (·.uid) = some 3 := by
  decide +kernel

end Draftsman.TileList
