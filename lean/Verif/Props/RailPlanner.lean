import Verif.Model.RailPlanner
import Mathlib.Tactic.Common
/-
C98: a rail planner can be made of every rail planner item.
-/
namespace Draftsman
namespace RailPlanner

/-- C98: no item data, name, position or direction gives a rail planner: the constructor raises always. -/
theorem C98_never (raw : String → Option Item) (group : Except PyErr Unit) (name : String) (head : Except PyErr (Int × Int)) (direction : Int) :
    ∀ p, init raw group name head direction ≠ .ok p := by
  intro p h
  have hs : ∀ v x, setHeadDirection v ≠ .ok x := by
    intro v x hx
    unfold setHeadDirection at hx
    cases hm : Direction.mk? v with
    | error e => rw [hm] at hx; cases hx
    | ok d => rw [hm] at hx; cases hx
  unfold init at h
  cases group with
  | error e => cases h
  | ok u =>
    cases hr : raw name with
    | none => rw [hr] at h; cases h
    | some it =>
      rw [hr] at h
      obtain ⟨t, s, c⟩ := it
      cases t with
      | none => cases h
      | some t =>
        by_cases ht : t = "rail-planner"
        · subst ht
          cases s <;> cases c <;> cases head
          any_goals cases h
          rename_i s c q
          cases hd : setHeadDirection direction with
          | ok x => exact hs _ _ hd
          | error e =>
            have : (Except.error e : Except PyErr Planner) = .ok p := by
              rw [← h]
              simp [key, hd, bind, Except.bind]
            cases this
        · have : (Except.error .draftsmanError : Except PyErr Planner) = .ok p := by
            rw [← h]
            simp [key, ht, bind, Except.bind]
          cases this

/-- C98, which exception it is: with arguments that are in order and an item that is a rail planner with both rails named, `TypeError`; the setter of the
direction calls `Direction.next(eight_way=…)`, and the parameter is `four_way`. -/
theorem C98_type (raw : String → Option Item) (name s c : String) (head : Int × Int) (direction : Direction)
    (h : raw name = some ⟨some "rail-planner", some s, some c⟩) :
    init raw (.ok ()) name (.ok head) direction.val = .error .typeError := by
  unfold init
  rw [h]
  have hm : Direction.mk? (direction.val : Int) = .ok direction := by
    revert direction; decide
  simp [key, setHeadDirection, hm, keyword, nextParams, bind, Except.bind]

/-- C98: a name that is no item, or an item of another kind, is refused with `DraftsmanError`. -/
theorem C98_name (raw : String → Option Item) (name : String) (head : Except PyErr (Int × Int)) (direction : Int)
    (h : ∀ it, raw name = some it → ∃ t, it.type = some t ∧ t ≠ "rail-planner") :
    init raw (.ok ()) name head direction = .error .draftsmanError := by
  unfold init
  cases hr : raw name with
  | none => rfl
  | some it =>
    obtain ⟨t, ht, hn⟩ := h it hr
    simp [key, ht, hn, bind, Except.bind]

/-- C98: a rail planner item without the key `"straight_rail"` or `"curved_rail"` (as the game's own has it since version 2.0, which lists its rails under
`"rails"`) is refused with `KeyError`. -/
theorem C98_rails (raw : String → Option Item) (name : String) (it : Item) (head : Except PyErr (Int × Int)) (direction : Int)
    (h : raw name = some it) (ht : it.type = some "rail-planner") (hm : it.straight = none ∨ it.curved = none) :
    init raw (.ok ()) name head direction = .error .keyError := by
  unfold init
  rw [h]
  rcases hm with hm | hm
  · simp [key, ht, hm, bind, Except.bind]
  · cases hs : it.straight <;> simp [key, ht, hm, hs, bind, Except.bind]

/-! ### Examples -/

/-- The item of version 1.1, that of version 2.0, and an item that is no rail planner. -/
def exRaw : String → Option Item := fun n =>
  if n = "old-rail" then some ⟨some "rail-planner", some "straight-rail", some "curved-rail"⟩
  else if n = "rail" then some ⟨some "rail-planner", none, none⟩
  else if n = "iron-plate" then some ⟨some "item", none, none⟩
  else none

/-- C98_type, C98_rails, C98_name -/
example : exRaw "old-rail" = some ⟨some "rail-planner", some "straight-rail", some "curved-rail"⟩ ∧
    init exRaw (.ok ()) "old-rail" (.ok (0, 0)) 0 = .error .typeError ∧
    init exRaw (.ok ()) "old-rail" (.ok (0, 0)) 17 = .error .valueError ∧
    init exRaw (.ok ()) "rail" (.ok (0, 0)) 0 = .error .keyError ∧
    init exRaw (.ok ()) "iron-plate" (.ok (0, 0)) 0 = .error .draftsmanError ∧
    init exRaw (.ok ()) "no-such-thing" (.ok (0, 0)) 0 = .error .draftsmanError := by decide +kernel

/-- C98: a rail planner cannot be made: for the item `"rail"` of version 1.1 data, at the origin and facing north, which is what `RailPlanner()` is given
by default, there is no planner. -/
theorem C98_made_refuted : ¬ ∀ (raw : String → Option Item) (name s c : String),
    raw name = some ⟨some "rail-planner", some s, some c⟩ → ∃ p, init raw (.ok ()) name (.ok (0, 0)) 0 = .ok p := by
  intro h
  obtain ⟨p, hp⟩ := h exRaw "old-rail" "straight-rail" "curved-rail" (by decide +kernel)
  exact C98_never _ _ _ _ _ p hp

end RailPlanner
end Draftsman
