import Verif.Model.Setup
import Verif.Proof.Dict
/-
Lemmas on running the statements of a `setup`: what each writes, and what the rest leaves alone.
-/
namespace Draftsman
namespace Setup

/-- Which dictionary of the data, and which key. -/
inductive Slot where
  | obj (f : String) | hidden (f : String) | setting (f : String) | root (f : String)
  deriving DecidableEq

/-- What is in a slot. -/
def get (s : St) : Slot → Option Val
  | .obj f => s.obj.get? f
  | .hidden f => s.hidden.get? f
  | .setting f => (s.settings.bind fun d => d.get? f)
  | .root f => s.root.get? f

/-- The slot written by a statement. -/
def slotOf (k : Kind) : Step → Option Slot
  | .always f _ => some (.obj f)
  | .checked f _ => some (.obj f)
  | .raw f _ => some (.obj f)
  | .vec f _ => some (.hidden f)
  | .list f _ => some (.hidden f)
  | .priv f _ => some (.hidden f)
  | .setting f _ => some (.setting f)
  | .whole _ => none
  | .index _ => some (.root "index")
  | .extra key _ => if key = rootItem k then none else if key ∈ privates k then some (.hidden key) else some (.root key)

/-- The value written by a statement. -/
def valOf (b : Bool) (r : Rules) : Step → Except PyErr Val
  | .always f v => alwaysChecked b r f v
  | .checked f v => ifChecked b r f v
  | .raw _ v => .ok v
  | .vec _ v => toVec v
  | .list f v => r.make f v
  | .priv _ v => .ok v
  | .setting f v => ifChecked b r f v
  | .whole _ => .ok .none
  | .index v => ifChecked b r "index" v
  | .extra _ v => .ok v

/-- A statement about a single slot does not set the settings as a whole and does not replace the object. -/
def Single (k : Kind) (t : Step) : Prop := (slotOf k t).isSome

theorem map_ok {α β : Type} {x : Except PyErr α} {f : α → β} {y : β} (h : x.map f = .ok y) : ∃ a, x = .ok a ∧ f a = y := by
  cases x with
  | error e => simp [Except.map] at h
  | ok a => exact ⟨a, rfl, by simpa [Except.map] using h⟩

theorem step_get {k : Kind} {b : Bool} {r : Rules} {s s' : St} {t : Step} {sl : Slot} (h : step k b r s t = .ok s')
    (hs : slotOf k t = some sl) :
    s'.replaced = s.replaced ∧ (s'.settings.isSome = s.settings.isSome) ∧
    ∃ w, valOf b r t = .ok w ∧ get s' sl = some w ∧ ∀ sl', sl' ≠ sl → get s' sl' = get s sl' := by
  have key : ∀ (d : Dict String Val) (f : String) (w : Val), (d.set f w).get? f = some w ∧ ∀ g, g ≠ f → (d.set f w).get? g = d.get? g := by
    intro d f w
    refine ⟨by simp [Dict.get?_set], fun g hg => ?_⟩
    rw [Dict.get?_set, if_neg (fun hh => hg hh.symm)]
  cases t with
  | always f v =>
    obtain ⟨w, hw, rfl⟩ := map_ok h
    cases hs
    refine ⟨rfl, rfl, w, hw, (key _ _ _).1, fun sl' hne => ?_⟩
    cases sl' with
    | obj g => exact (key _ _ _).2 g (fun hg => hne (by rw [hg]))
    | _ => rfl
  | checked f v =>
    obtain ⟨w, hw, rfl⟩ := map_ok h
    cases hs
    refine ⟨rfl, rfl, w, hw, (key _ _ _).1, fun sl' hne => ?_⟩
    cases sl' with
    | obj g => exact (key _ _ _).2 g (fun hg => hne (by rw [hg]))
    | _ => rfl
  | raw f v =>
    cases h
    cases hs
    refine ⟨rfl, rfl, v, rfl, (key _ _ _).1, fun sl' hne => ?_⟩
    cases sl' with
    | obj g => exact (key _ _ _).2 g (fun hg => hne (by rw [hg]))
    | _ => rfl
  | vec f v =>
    obtain ⟨w, hw, rfl⟩ := map_ok h
    cases hs
    refine ⟨rfl, rfl, w, hw, (key _ _ _).1, fun sl' hne => ?_⟩
    cases sl' with
    | hidden g => exact (key _ _ _).2 g (fun hg => hne (by rw [hg]))
    | _ => rfl
  | list f v =>
    obtain ⟨w, hw, rfl⟩ := map_ok h
    cases hs
    refine ⟨rfl, rfl, w, hw, (key _ _ _).1, fun sl' hne => ?_⟩
    cases sl' with
    | hidden g => exact (key _ _ _).2 g (fun hg => hne (by rw [hg]))
    | _ => rfl
  | priv f v =>
    cases h
    cases hs
    refine ⟨rfl, rfl, v, rfl, (key _ _ _).1, fun sl' hne => ?_⟩
    cases sl' with
    | hidden g => exact (key _ _ _).2 g (fun hg => hne (by rw [hg]))
    | _ => rfl
  | setting f v =>
    cases hs
    rw [step] at h
    cases hd : s.settings with
    | none => rw [hd] at h; cases h
    | some d =>
      rw [hd] at h
      obtain ⟨w, hw, rfl⟩ := map_ok h
      refine ⟨rfl, rfl, w, hw, (key _ _ _).1, fun sl' hne => ?_⟩
      cases sl' with
      | setting g =>
        show (d.set f w).get? g = s.settings.bind _
        rw [hd]
        exact (key _ _ _).2 g (fun hg => hne (by rw [hg]))
      | _ => rfl
  | whole d => cases hs
  | index v =>
    obtain ⟨w, hw, rfl⟩ := map_ok h
    cases hs
    refine ⟨rfl, rfl, w, hw, (key _ _ _).1, fun sl' hne => ?_⟩
    cases sl' with
    | root g => exact (key _ _ _).2 g (fun hg => hne (by rw [hg]))
    | _ => rfl
  | extra name v =>
    rw [step] at h
    rw [slotOf] at hs
    by_cases h1 : name = rootItem k
    · rw [if_pos h1] at hs
      cases hs
    · rw [if_neg h1] at hs h
      by_cases h2 : name ∈ privates k
      · rw [if_pos h2] at hs h
        cases h
        cases hs
        refine ⟨rfl, rfl, v, rfl, (key _ _ _).1, fun sl' hne => ?_⟩
        cases sl' with
        | hidden g => exact (key _ _ _).2 g (fun hg => hne (by rw [hg]))
        | _ => rfl
      · rw [if_neg h2] at hs h
        cases h
        cases hs
        refine ⟨rfl, rfl, v, rfl, (key _ _ _).1, fun sl' hne => ?_⟩
        cases sl' with
        | root g => exact (key _ _ _).2 g (fun hg => hne (by rw [hg]))
        | _ => rfl

theorem run_cons {k : Kind} {b : Bool} {r : Rules} {t : Step} {ts : List Step} {s s' : St}
    (h : run k b r (t :: ts) s = (s', none)) : ∃ m, step k b r s t = .ok m ∧ run k b r ts m = (s', none) := by
  rw [run] at h
  cases hs : step k b r s t with
  | error e => rw [hs] at h; simp at h
  | ok m => rw [hs] at h; exact ⟨m, rfl, h⟩

theorem run_append {k : Kind} {b : Bool} {r : Rules} (xs ys : List Step) (s : St) :
    run k b r (xs ++ ys) s = match run k b r xs s with
      | (m, none) => run k b r ys m
      | (m, some e) => (m, some e) := by
  induction xs generalizing s with
  | nil => rfl
  | cons t ts ih =>
    rw [List.cons_append, run, run]
    cases hs : step k b r s t with
    | error e => rfl
    | ok m => exact ih m

theorem run_append_ok {k : Kind} {b : Bool} {r : Rules} {xs ys : List Step} {s s' : St}
    (h : run k b r (xs ++ ys) s = (s', none)) : ∃ m, run k b r xs s = (m, none) ∧ run k b r ys m = (s', none) := by
  rw [run_append] at h
  rcases hx : run k b r xs s with ⟨m, _ | e⟩
  · rw [hx] at h
    exact ⟨m, rfl, h⟩
  · rw [hx] at h
    simp at h

/-- Statements about other slots leave a slot alone. -/
theorem run_frame {k : Kind} {b : Bool} {r : Rules} {ts : List Step} {s s' : St} (h : run k b r ts s = (s', none))
    (hs : ∀ t ∈ ts, Single k t) :
    s'.replaced = s.replaced ∧ s'.settings.isSome = s.settings.isSome ∧
    ∀ sl, (∀ t ∈ ts, slotOf k t ≠ some sl) → get s' sl = get s sl := by
  induction ts generalizing s with
  | nil =>
    rw [run] at h
    cases h
    exact ⟨rfl, rfl, fun _ _ => rfl⟩
  | cons t ts ih =>
    obtain ⟨m, h1, h2⟩ := run_cons h
    obtain ⟨i1, i2, i3⟩ := ih h2 (fun u hu => hs u (List.mem_cons_of_mem _ hu))
    obtain ⟨sl0, hsl⟩ := Option.isSome_iff_exists.mp (hs t List.mem_cons_self)
    obtain ⟨j1, j2, w, -, -, j3⟩ := step_get h1 hsl
    refine ⟨i1.trans j1, i2.trans j2, fun sl hne => ?_⟩
    rw [i3 sl (fun u hu => hne u (List.mem_cons_of_mem _ hu))]
    exact j3 sl (fun hh => hne t List.mem_cons_self (by rw [hsl, hh]))

/-- If all statements are about different slots, each slot holds what was written there. -/
theorem run_mem {k : Kind} {b : Bool} {r : Rules} {ts : List Step} {s s' : St} (h : run k b r ts s = (s', none))
    (hs : ∀ t ∈ ts, Single k t) (hn : (ts.map (slotOf k)).Nodup) :
    ∀ t ∈ ts, ∀ sl, slotOf k t = some sl → ∃ w, valOf b r t = .ok w ∧ get s' sl = some w := by
  induction ts generalizing s with
  | nil => intro t ht; cases ht
  | cons t ts ih =>
    obtain ⟨m, h1, h2⟩ := run_cons h
    rw [List.map_cons, List.nodup_cons] at hn
    have hs' : ∀ u ∈ ts, Single k u := fun u hu => hs u (List.mem_cons_of_mem _ hu)
    intro u hu sl hsl
    rcases List.mem_cons.mp hu with rfl | hu
    · obtain ⟨-, -, w, hw, hg, -⟩ := step_get h1 hsl
      refine ⟨w, hw, ?_⟩
      rw [(run_frame h2 hs').2.2 sl (fun x hx hh => hn.1 (List.mem_map.mpr ⟨x, hx, hh.trans hsl.symm⟩))]
      exact hg
    · exact ih h2 hs' hn.2 u hu sl hsl

/-- Whether a statement on a single slot fails does not depend on the data, as long as there are settings. -/
theorem step_ok {k : Kind} {b : Bool} {r : Rules} {s : St} {t : Step} (hs : ∀ f v, t = .setting f v → s.settings.isSome)
    (hw : ∀ d, t ≠ .whole d) : match valOf b r t with
      | .ok _ => ∃ m, step k b r s t = .ok m
      | .error e => step k b r s t = .error e := by
  have key : ∀ (x : Except PyErr Val) (f : Val → St), match x with
      | .ok _ => ∃ m, x.map f = .ok m
      | .error e => x.map f = .error e := by
    intro x f
    cases x with
    | ok a => exact ⟨f a, rfl⟩
    | error e => rfl
  cases t with
  | always f v => exact key _ _
  | checked f v => exact key _ _
  | raw f v => exact ⟨_, rfl⟩
  | vec f v => exact key _ _
  | list f v => exact key _ _
  | priv f v => exact ⟨_, rfl⟩
  | setting f v =>
    obtain ⟨d, hd⟩ := Option.isSome_iff_exists.mp (hs f v rfl)
    have : step k b r s (.setting f v) = (ifChecked b r f v).map fun w => { s with settings := some (d.set f w) } := by
      rw [step, hd]
    rw [this]
    exact key _ _
  | whole d => exact absurd rfl (hw d)
  | index v => exact key _ _
  | extra name v =>
    show ∃ m, step k b r s (.extra name v) = .ok m
    rw [step]
    split
    · exact ⟨_, rfl⟩
    · split
      · exact ⟨_, rfl⟩
      · exact ⟨_, rfl⟩

end Setup
end Draftsman
