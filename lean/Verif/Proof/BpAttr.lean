import Verif.Model.BpAttr
import Verif.Proof.Setup
import Verif.Props.Setup
/-
Lemmas on the setters of blueprintables: what each writes and what it leaves alone.
-/
namespace Draftsman
namespace BpAttr
open Setup

/-- The slot written by a setter. -/
def actSlot (k : Kind) : Act → Option Slot
  | .step t => slotOf k t
  | .setting f _ => some (.setting f)
  | .books _ => some (.hidden "_blueprints")

/-- The value written by a setter. -/
def actVal (b : Bool) (r : Rules) : Act → Except PyErr Val
  | .step t => valOf b r t
  | .setting f v => alwaysChecked b r f v
  | .books .none => .ok (.ints [])
  | .books v => r.make "_blueprints" v

theorem set_get (d : Dict String Val) (f : String) (w : Val) :
    (d.set f w).get? f = some w ∧ ∀ g, g ≠ f → (d.set f w).get? g = d.get? g := by
  refine ⟨by simp [Dict.get?_set], fun g hg => ?_⟩
  rw [Dict.get?_set, if_neg (fun hh => hg hh.symm)]

theorem hidden_get {s : St} {f : String} {w : Val} :
    get { s with hidden := s.hidden.set f w } (.hidden f) = some w ∧
    ∀ sl', sl' ≠ .hidden f → get { s with hidden := s.hidden.set f w } sl' = get s sl' := by
  refine ⟨(set_get _ _ _).1, fun sl' hne => ?_⟩
  cases sl' with
  | hidden g => exact (set_get _ _ _).2 g (fun hg => hne (by rw [hg]))
  | _ => rfl

theorem act_get {k : Kind} {b : Bool} {r : Rules} {s s' : St} {a : Act} {sl : Slot} (h : act k b r s a = .ok s')
    (hs : actSlot k a = some sl) :
    s'.replaced = s.replaced ∧ (s'.settings.isSome = s.settings.isSome) ∧
    ∃ w, actVal b r a = .ok w ∧ get s' sl = some w ∧ ∀ sl', sl' ≠ sl → get s' sl' = get s sl' := by
  cases a with
  | step t => exact step_get h hs
  | setting f v =>
    cases hs
    rw [act] at h
    cases hd : s.settings with
    | none => rw [hd] at h; cases h
    | some d =>
      rw [hd] at h
      obtain ⟨w, hw, rfl⟩ := map_ok h
      refine ⟨rfl, rfl, w, hw, (set_get _ _ _).1, fun sl' hne => ?_⟩
      cases sl' with
      | setting g =>
        show (d.set f w).get? g = s.settings.bind _
        rw [hd]
        exact (set_get _ _ _).2 g (fun hg => hne (by rw [hg]))
      | _ => rfl
  | books v =>
    cases hs
    cases v with
    | none =>
      cases h
      exact ⟨rfl, rfl, .ints [], rfl, hidden_get.1, hidden_get.2⟩
    | _ =>
      obtain ⟨w, hw, rfl⟩ := map_ok h
      exact ⟨rfl, rfl, w, hw, hidden_get.1, hidden_get.2⟩

theorem map_fate {x : Except PyErr Val} {f : Val → St} : match x with
      | .ok _ => ∃ m, x.map f = .ok m
      | .error e => x.map f = .error e := by
  cases x with
  | ok a => exact ⟨f a, rfl⟩
  | error e => rfl

/-- Does the setter write one of the settings? -/
def inSettings : Act → Bool
  | .step (.setting _ _) => true
  | .setting _ _ => true
  | _ => false

theorem act_ok {k : Kind} {b : Bool} {r : Rules} {s : St} {a : Act} (hs : inSettings a → s.settings.isSome)
    (hw : ∀ d, a ≠ .step (.whole d)) : match actVal b r a with
      | .ok _ => ∃ m, act k b r s a = .ok m
      | .error e => act k b r s a = .error e := by
  cases a with
  | step t => exact step_ok (fun f v h => hs (by rw [h]; rfl)) (fun d h => hw d (by rw [h]))
  | setting f v =>
    obtain ⟨d, hd⟩ := Option.isSome_iff_exists.mp (hs rfl)
    have : act k b r s (.setting f v) = (alwaysChecked b r f v).map fun w => { s with settings := some (d.set f w) } := by
      rw [act, hd]
    rw [this]
    exact map_fate
  | books v =>
    cases v with
    | none => exact ⟨_, rfl⟩
    | _ => exact map_fate

/-- Reading depends on nothing but the slot. -/
theorem readAt_congr {s s' : St} (hrep : s'.replaced = s.replaced) {p : Place} (h : get s' (slotAt p) = get s (slotAt p)) :
    readAt s' p = readAt s p := by
  cases p with
  | obj f =>
    have h : s'.obj.get? f = s.obj.get? f := h
    simp only [readAt, hrep, h]
  | setting f =>
    have h : (s'.settings.bind fun d => d.get? f) = (s.settings.bind fun d => d.get? f) := h
    simp only [readAt, hrep]
    have key : ∀ (o : Option Val) (x : Option (Dict String Val)), (match o, x with
        | none, some d => match d.get? f with
          | some v => Except.ok v
          | none => .error .attributeError
        | _, _ => .error .attributeError) = match o, x.bind fun d => d.get? f with
        | none, some v => (Except.ok v : Except PyErr Val)
        | _, _ => .error .attributeError := by
      intro o x
      cases o <;> cases x with
      | none => rfl
      | some d => first | rfl | (cases hg : d.get? f <;> simp [hg])
    exact (key _ _).trans ((by rw [h]) : _ = _) |>.trans (key _ _).symm
  | vec f =>
    have h : s'.hidden.get? f = s.hidden.get? f := h
    simp only [readAt, hrep, h]
  | hidden f =>
    have h : s'.hidden.get? f = s.hidden.get? f := h
    simp only [readAt, h]
  | root f =>
    have h : s'.root.get? f = s.root.get? f := h
    simp only [readAt, h]

/-- Every setter writes where the getter of the same name reads. -/
theorem setter_slot {k : Kind} {n : String} {v : Val} {a : Act} (h : setter k n v = some a) :
    ∃ p, (getters k).lookup n = some p ∧ actSlot k a = some (slotAt p) := by
  have common : (if n = "label" then some (.step (.always "label" v))
      else if n = "version" then some (.step (.checked "version" (normVersion v)))
      else if n = "index" then some (.step (.index v)) else none : Option Act) = some a →
      ∃ p, (getters k).lookup n = some p ∧ actSlot k a = some (slotAt p) := by
    intro h
    split_ifs at h <;> cases h <;> subst_vars <;> cases k <;> exact ⟨_, rfl, rfl⟩
  cases k with
  | blueprint =>
    rw [setter] at h
    by_cases h0 : n = "label_color"
    · rw [if_pos h0] at h
      cases h
      subst h0
      exact ⟨_, rfl, rfl⟩
    rw [if_neg h0] at h
    by_cases h1 : n = "description"
    · rw [if_pos h1] at h
      cases h
      subst h1
      exact ⟨_, rfl, rfl⟩
    rw [if_neg h1] at h
    by_cases h2 : n = "icons"
    · rw [if_pos h2] at h
      cases h
      subst h2
      exact ⟨_, rfl, rfl⟩
    rw [if_neg h2] at h
    by_cases h3 : n = "snapping_grid_size"
    · rw [if_pos h3] at h
      cases h
      subst h3
      exact ⟨_, rfl, rfl⟩
    rw [if_neg h3] at h
    by_cases h4 : n = "snapping_grid_position"
    · rw [if_pos h4] at h
      cases h
      subst h4
      exact ⟨_, rfl, rfl⟩
    rw [if_neg h4] at h
    by_cases h5 : n = "absolute_snapping"
    · rw [if_pos h5] at h
      cases h
      subst h5
      exact ⟨_, rfl, rfl⟩
    rw [if_neg h5] at h
    by_cases h6 : n = "position_relative_to_grid"
    · rw [if_pos h6] at h
      cases h
      subst h6
      exact ⟨_, rfl, rfl⟩
    rw [if_neg h6] at h
    by_cases h7 : n = "wires"
    · rw [if_pos h7] at h
      cases h
      subst h7
      exact ⟨_, rfl, rfl⟩
    rw [if_neg h7] at h
    by_cases h8 : n = "stock_connections"
    · rw [if_pos h8] at h
      cases h
      subst h8
      exact ⟨_, rfl, rfl⟩
    rw [if_neg h8] at h
    exact common h
  | book =>
    rw [setter] at h
    by_cases h0 : n = "label_color"
    · rw [if_pos h0] at h
      cases h
      subst h0
      exact ⟨_, rfl, rfl⟩
    rw [if_neg h0] at h
    by_cases h1 : n = "description"
    · rw [if_pos h1] at h
      cases h
      subst h1
      exact ⟨_, rfl, rfl⟩
    rw [if_neg h1] at h
    by_cases h2 : n = "icons"
    · rw [if_pos h2] at h
      cases h
      subst h2
      exact ⟨_, rfl, rfl⟩
    rw [if_neg h2] at h
    by_cases h3 : n = "active_index"
    · rw [if_pos h3] at h
      cases h
      subst h3
      exact ⟨_, rfl, rfl⟩
    rw [if_neg h3] at h
    by_cases h4 : n = "blueprints"
    · rw [if_pos h4] at h
      cases h
      subst h4
      exact ⟨_, rfl, rfl⟩
    rw [if_neg h4] at h
    exact common h
  | upgrade =>
    rw [setter] at h
    by_cases hm : n ∈ ["description", "icons", "mappers"]
    · rw [if_pos hm] at h
      cases h
      simp only [List.mem_cons, List.not_mem_nil, or_false] at hm
      rcases hm with rfl | rfl | rfl <;> exact ⟨_, rfl, rfl⟩
    · rw [if_neg hm] at h
      exact common h
  | decon =>
    rw [setter] at h
    by_cases hm : n ∈ ["description", "icons", "entity_filter_mode", "entity_filters", "trees_and_rocks_only", "tile_filter_mode",
        "tile_filters", "tile_selection_mode"]
    · rw [if_pos hm] at h
      cases h
      simp only [List.mem_cons, List.not_mem_nil, or_false] at hm
      rcases hm with rfl | rfl | rfl | rfl | rfl | rfl | rfl | rfl <;> exact ⟨_, rfl, rfl⟩
    · rw [if_neg hm] at h
      exact common h

/-- Attributes of different names are in different slots. -/
theorem slots_differ {k : Kind} {n m : String} {p q : Place} (hp : (getters k).lookup n = some p) (hq : (getters k).lookup m = some q)
    (h : m ≠ n) : slotAt q ≠ slotAt p := by
  have key : ∀ k : Kind, ∀ x ∈ getters k, ∀ y ∈ getters k, slotAt y.2 = slotAt x.2 → y.1 = x.1 := by
    intro k
    cases k <;> decide
  have mem : ∀ {l : List (String × Place)} {n : String} {p : Place}, l.lookup n = some p → (n, p) ∈ l := by
    intro l n p hl
    induction l with
    | nil => cases hl
    | cons z l ih =>
      obtain ⟨z1, z2⟩ := z
      rw [List.lookup_cons] at hl
      by_cases hz : n = z1
      · subst hz
        simp at hl
        rw [hl]
        exact List.mem_cons_self
      · rw [beq_eq_false_iff_ne.mpr hz] at hl
        exact List.mem_cons_of_mem _ (ih hl)
  intro he
  exact h (key k _ (mem hp) _ (mem hq) he)

/-- What an assignment does: nothing, or it writes the slot of its own attribute. -/
theorem assign_slot (k : Kind) (b : Bool) (r : Rules) (s : St) (n : String) (v : Val) :
    ((assign k b r s n v).1 = s ∧ (assign k b r s n v).2 ≠ none) ∨
    ∃ a p w, setter k n v = some a ∧ (getters k).lookup n = some p ∧ actVal b r a = .ok w ∧ (assign k b r s n v).2 = none ∧
      (assign k b r s n v).1.replaced = s.replaced ∧ (assign k b r s n v).1.settings.isSome = s.settings.isSome ∧
      get (assign k b r s n v).1 (slotAt p) = some w ∧ ∀ sl, sl ≠ slotAt p → get (assign k b r s n v).1 sl = get s sl := by
  rw [assign]
  cases ha : setter k n v with
  | none => exact Or.inl ⟨rfl, by simp⟩
  | some a =>
    simp only []
    cases hr : act k b r s a with
    | error e => exact Or.inl ⟨rfl, by simp⟩
    | ok s' =>
      obtain ⟨p, hp, hsl⟩ := setter_slot ha
      obtain ⟨h1, h2, w, h3, h4, h5⟩ := act_get hr hsl
      exact Or.inr ⟨a, p, w, rfl, hp, h3, rfl, h1, h2, h4, h5⟩

end BpAttr
end Draftsman
