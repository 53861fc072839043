import Verif.Proof.BpAttr
/-
C123: assigning attributes of blueprints, blueprint books and planners.
-/
namespace Draftsman
namespace BpAttr
open Setup

/-- The attributes whose setters are meant, as documented: all of `Setup.spec` but the four lists of objects. -/
def table (k : Kind) : List Entry :=
  (spec .none k).filter fun e => !(["entities", "tiles", "schedules", "blueprints"].contains e.attr)

/-- The value can be assigned. -/
def Fits (e : Entry) (b : Bool) (r : Rules) (v : Val) : Prop := ∃ w, e.conv.Holds b r e.field v w

theorem plain_iff {b : Bool} {r : Rules} {f : String} {v w : Val} : ifChecked b r f v = .ok w ↔ Conv.Holds b r f v w .plain := by
  refine ⟨holds_plain, fun h => ?_⟩
  cases b with
  | true => exact h
  | false => exact congrArg Except.ok (Eq.symm h)

theorem cleaned_iff {b : Bool} {r : Rules} {f : String} {v w : Val} : alwaysChecked b r f v = .ok w ↔ Conv.Holds b r f v w .cleaned := by
  refine ⟨holds_cleaned, fun h => ?_⟩
  rcases h with h | ⟨rfl, rfl, e, he⟩
  · cases b with
    | true => exact h
    | false => show lenient r f v = _; rw [lenient, h]
  · show lenient r f w = _
    rw [lenient, he]

theorem vector_iff {b : Bool} {r : Rules} {f : String} {v w : Val} : toVec v = .ok w ↔ Conv.Holds b r f v w .vector := by
  refine ⟨holds_vector, fun h => ?_⟩
  rcases h with ⟨rfl, rfl⟩ | ⟨x, y, rest, rfl, rfl⟩ <;> rfl

theorem empty_iff {b : Bool} {r : Rules} {f : String} {v w : Val} :
    (Except.ok (orEmpty v) : Except PyErr Val) = .ok w ↔ Conv.Holds b r f v w .empty := by
  refine ⟨holds_empty, fun h => ?_⟩
  rcases h with ⟨rfl, rfl⟩ | ⟨h, rfl⟩
  · rfl
  · cases w <;> first | rfl | exact absurd rfl h

/-- The setter of every attribute of the table: it writes where the getter reads, and what it writes is as documented. -/
theorem table_setter {k : Kind} {e : Entry} (he : e ∈ table k) (b : Bool) (r : Rules) (v : Val) :
    ∃ a, setter k e.attr v = some a ∧ inSettings a = e.inSettings ∧ (∀ d, a ≠ .step (.whole d)) ∧
      ∀ w, actVal b r a = .ok w ↔ e.conv.Holds b r e.field v w := by
  have main : ∀ e ∈ spec .none k, e.attr ∉ ["entities", "tiles", "schedules", "blueprints"] →
      ∃ a, setter k e.attr v = some a ∧ inSettings a = e.inSettings ∧ (∀ d, a ≠ .step (.whole d)) ∧
      ∀ w, actVal b r a = .ok w ↔ e.conv.Holds b r e.field v w := by
    intro e he hn
    cases k <;> simp only [spec, List.mem_cons, List.not_mem_nil, or_false] at he
    · rcases he with rfl | rfl | rfl | rfl | rfl | rfl | rfl | rfl | rfl | rfl | rfl | rfl | rfl | rfl | rfl <;>
        first
          | exact absurd (by decide) hn
          | exact ⟨_, rfl, rfl, fun d h => (by cases h), fun w => plain_iff⟩
          | exact ⟨_, rfl, rfl, fun d h => (by cases h), fun w => cleaned_iff⟩
          | exact ⟨_, rfl, rfl, fun d h => (by cases h), fun w => vector_iff⟩
          | exact ⟨_, rfl, rfl, fun d h => (by cases h), fun w => empty_iff⟩
    · rcases he with rfl | rfl | rfl | rfl | rfl | rfl | rfl | rfl <;>
        first
          | exact absurd (by decide) hn
          | exact ⟨_, rfl, rfl, fun d h => (by cases h), fun w => plain_iff⟩
          | exact ⟨_, rfl, rfl, fun d h => (by cases h), fun w => cleaned_iff⟩
    · rcases he with rfl | rfl | rfl | rfl | rfl | rfl <;>
        first
          | exact ⟨_, rfl, rfl, fun d h => (by cases h), fun w => plain_iff⟩
          | exact ⟨_, rfl, rfl, fun d h => (by cases h), fun w => cleaned_iff⟩
    · rcases he with rfl | rfl | rfl | rfl | rfl | rfl | rfl | rfl | rfl | rfl | rfl <;>
        first
          | exact ⟨_, rfl, rfl, fun d h => (by cases h), fun w => plain_iff⟩
          | exact ⟨_, rfl, rfl, fun d h => (by cases h), fun w => cleaned_iff⟩
  obtain ⟨h1, h2⟩ := List.mem_filter.mp he
  exact main e h1 (by simpa using h2)

/-! ## C123 -/

/-- An assignment is accepted exactly if there is a value that it stands for, according to the documentation and the validation of the
field.  Missing: upgrade planners that were set up with `settings=None` (`C123_settings_refuted`). -/
theorem C123_accepts_partial {k : Kind} {e : Entry} (he : e ∈ table k) {b : Bool} {r : Rules} {s : St} {v : Val}
    (hset : e.inSettings → s.settings.isSome) : (assign k b r s e.attr v).2 = none ↔ Fits e b r v := by
  obtain ⟨a, ha, hi, hw, hv⟩ := table_setter he b r v
  have hok := act_ok (k := k) (b := b) (r := r) (s := s) (a := a) (fun h => hset (hi ▸ h)) hw
  rw [assign, ha]
  simp only []
  cases hx : actVal b r a with
  | ok w =>
    rw [hx] at hok
    obtain ⟨m, hm⟩ := hok
    rw [hm]
    exact ⟨fun _ => ⟨w, (hv w).mp hx⟩, fun _ => rfl⟩
  | error x =>
    rw [hx] at hok
    have hok : act k b r s a = .error x := hok
    rw [hok]
    refine ⟨fun h => absurd h (by simp), fun hf => ?_⟩
    obtain ⟨w, h⟩ := hf
    have h2 := (hv w).mpr h
    rw [hx] at h2
    cases h2

/-- After an assignment that is accepted the attribute reads what was assigned, as validation converts it. -/
theorem C123_readback {k : Kind} {e : Entry} (he : e ∈ table k) {b : Bool} {r : Rules} {s : St} {v : Val} (hrep : s.replaced = none)
    (h : (assign k b r s e.attr v).2 = none) :
    ∃ w, e.conv.Holds b r e.field v w ∧ read k (assign k b r s e.attr v).1 e.attr = .ok w := by
  obtain ⟨a, ha, -, -, hv⟩ := table_setter he b r v
  rcases assign_slot k b r s e.attr v with ⟨-, h2⟩ | ⟨a', p, w, ha', hp, hw, -, h1, -, h3, -⟩
  · exact absurd h h2
  · rw [ha] at ha'
    cases ha'
    exact ⟨w, (hv w).mp hw, read_slot (h1.trans hrep) hp h3⟩

/-- An assignment, accepted or not, does not change what any other attribute reads. -/
theorem C123_frame {k : Kind} {b : Bool} {r : Rules} {s : St} {n m : String} {v : Val} (h : m ≠ n) :
    read k (assign k b r s n v).1 m = read k s m := by
  rcases assign_slot k b r s n v with ⟨h1, -⟩ | ⟨a, p, w, -, hp, -, -, h1, -, -, h4⟩
  · rw [h1]
  · rw [Setup.read, Setup.read]
    cases hq : (getters k).lookup m with
    | none => rfl
    | some q => exact readAt_congr h1 (h4 _ (slots_differ hp hq h))

/-- An assignment that raises an exception changes nothing at all. -/
theorem C123_refused {k : Kind} {b : Bool} {r : Rules} {s : St} {n : String} {v : Val} (h : (assign k b r s n v).2 ≠ none) :
    (assign k b r s n v).1 = s := by
  rcases assign_slot k b r s n v with ⟨h1, -⟩ | ⟨-, -, -, -, -, -, h2, -⟩
  · exact h1
  · exact absurd h2 h

theorem assign_kept (k : Kind) (b : Bool) (r : Rules) (s : St) (n : String) (v : Val) :
    (assign k b r s n v).1.replaced = s.replaced ∧ (assign k b r s n v).1.settings.isSome = s.settings.isSome := by
  rcases assign_slot k b r s n v with ⟨h1, -⟩ | ⟨-, -, -, -, -, -, -, h1, h2, -⟩
  · rw [h1]; exact ⟨rfl, rfl⟩
  · exact ⟨h1, h2⟩

/-- After any program of assignments, to whatever attributes, in whatever modes, with exceptions caught, an attribute reads the value of the
last assignment to it whose value fits, and what it read at first if there was none.
Missing: as for `C123_accepts_partial`. -/
theorem C123_history_partial {k : Kind} {e : Entry} (he : e ∈ table k) (l : List Asg) : ∀ {s : St}, s.replaced = none →
    (e.inSettings → s.settings.isSome) →
    ((∀ a ∈ l, a.name = e.attr → ¬ Fits e a.validating a.rules a.value) ∧ read k (after k l s) e.attr = read k s e.attr) ∨
    ∃ pre a post w, l = pre ++ a :: post ∧ a.name = e.attr ∧ e.conv.Holds a.validating a.rules e.field a.value w ∧
      (∀ x ∈ post, x.name = e.attr → ¬ Fits e x.validating x.rules x.value) ∧ read k (after k l s) e.attr = .ok w := by
  induction l with
  | nil => intro s _ _; exact Or.inl ⟨by simp, rfl⟩
  | cons a l ih =>
    intro s hrep hset
    obtain ⟨k1, k2⟩ := assign_kept k a.validating a.rules s a.name a.value
    have hset1 : e.inSettings → (assign k a.validating a.rules s a.name a.value).1.settings.isSome := fun h => by rw [k2]; exact hset h
    rcases ih (k1.trans hrep) hset1 with ⟨h1, h2⟩ | ⟨pre, x, post, w, rfl, hx⟩
    · by_cases hn : a.name = e.attr
      · by_cases hf : Fits e a.validating a.rules a.value
        · right
          have hacc := (C123_accepts_partial (b := a.validating) (r := a.rules) (v := a.value) he hset).mpr hf
          obtain ⟨w, hw, hr⟩ := C123_readback (b := a.validating) (r := a.rules) (v := a.value) he hrep hacc
          refine ⟨[], a, l, w, rfl, hn, hw, h1, ?_⟩
          show read k (after k l _) _ = _
          rw [h2, hn]
          exact hr
        · left
          refine ⟨fun x hx => ?_, ?_⟩
          · rcases List.mem_cons.mp hx with rfl | hx
            · exact fun _ => hf
            · exact h1 x hx
          · show read k (after k l _) _ = _
            rw [h2]
            refine congrArg (fun z => read k z e.attr) (C123_refused ?_)
            intro hc
            rw [hn] at hc
            exact hf ((C123_accepts_partial he hset).mp hc)
      · left
        refine ⟨fun x hx => ?_, ?_⟩
        · rcases List.mem_cons.mp hx with rfl | hx
          · exact fun hh => absurd hh hn
          · exact h1 x hx
        · show read k (after k l _) _ = _
          rw [h2]
          exact C123_frame (fun hh => hn hh.symm)
    · exact Or.inr ⟨a :: pre, x, post, w, rfl, hx⟩

/-- The list of a book: `None` empties it, anything else is made into a list or refused. -/
theorem C123_books {b : Bool} {r : Rules} {s : St} {v : Val} :
    ((assign .book b r s "blueprints" v).2 = none ↔ v = .none ∨ ∃ w, r.make "_blueprints" v = .ok w) ∧
    ((assign .book b r s "blueprints" v).2 = none → ∃ w, read .book (assign .book b r s "blueprints" v).1 "blueprints" = .ok w ∧
      ((v = .none ∧ w = .ints []) ∨ (v ≠ .none ∧ r.make "_blueprints" v = .ok w))) := by
  have hs : setter .book "blueprints" v = some (.books v) := rfl
  have hro : ∀ {w : Val} {s' : St}, s'.hidden = s.hidden.set "_blueprints" w → read .book s' "blueprints" = .ok w := by
    intro w s' h
    show readAt s' (.hidden "_blueprints") = _
    rw [readAt, h, (set_get _ _ _).1]
  by_cases hv : v = .none
  · subst hv
    exact ⟨⟨fun _ => Or.inl rfl, fun _ => rfl⟩, fun _ => ⟨.ints [], hro rfl, Or.inl ⟨rfl, rfl⟩⟩⟩
  · have ha : act .book b r s (.books v) = (r.make "_blueprints" v).map fun w => { s with hidden := s.hidden.set "_blueprints" w } := by
      cases v <;> first | rfl | exact absurd rfl hv
    rw [assign, hs]
    simp only [ha]
    cases hm : r.make "_blueprints" v with
    | error x =>
      refine ⟨⟨fun h => absurd h (by simp [Except.map]), fun h => ?_⟩, fun h => absurd h (by simp [Except.map])⟩
      rcases h with h | ⟨w, h⟩
      · exact absurd h hv
      · cases h
    | ok w => exact ⟨⟨fun _ => Or.inr ⟨w, rfl⟩, fun _ => rfl⟩, fun _ => ⟨w, hro rfl, Or.inr ⟨hv, rfl⟩⟩⟩

/-- There is nothing else to assign: any other name, `item` among them, is refused. -/
theorem C123_others {k : Kind} {b : Bool} {r : Rules} {s : St} {n : String} {v : Val} (h : n ∉ (table k).map Entry.attr)
    (hb : ¬ (k = .book ∧ n = "blueprints")) : assign k b r s n v = (s, some .attributeError) := by
  have hn : setter k n v = none := by
    cases k <;> simp only [table, spec] at h <;> simp_all [setter, List.filter]
  rw [assign, hn]

/-- In every mode, strict ones included, the wires and stock connections of a blueprint accept whatever is assigned, even if every value
fails validation. -/
theorem C123_unchecked_refuted : ∀ n ∈ ["wires", "stock_connections"], ∀ (r : Rules) (s : St) (v : Val), v ≠ .none → s.replaced = none →
    (assign .blueprint true r s n v).2 = none ∧ read .blueprint (assign .blueprint true r s n v).1 n = .ok v := by
  intro n hn r s v hv hrep
  have ho : orEmpty v = v := by cases v <;> first | rfl | exact absurd rfl hv
  simp only [List.mem_cons, List.not_mem_nil, or_false] at hn
  rcases hn with rfl | rfl
  · refine ⟨rfl, ?_⟩
    show readAt { s with hidden := s.hidden.set "_wires" (orEmpty v) } (.hidden "_wires") = _
    rw [readAt, (set_get _ _ _).1, ho]
  · refine ⟨rfl, ?_⟩
    show readAt { s with obj := s.obj.set "stock_connections" (orEmpty v) } (.obj "stock_connections") = _
    simp only [readAt, hrep, (set_get _ _ _).1, ho]

/-- The snapping grid of a blueprint cannot be removed: the documentation says that `None` removes it and that it then reads as `None`, but it reads
as a vector of zeros. -/
theorem C123_grid_refuted : ∀ (b : Bool) (r : Rules) (s : St), s.replaced = none →
    (assign .blueprint b r s "snapping_grid_size" .none).2 = none ∧
    read .blueprint (assign .blueprint b r s "snapping_grid_size" .none).1 "snapping_grid_size" = .ok (.ints [0, 0]) := by
  intro b r s hrep
  refine ⟨rfl, ?_⟩
  show readAt { s with hidden := s.hidden.set "_snap_to_grid" (.ints [0, 0]) } (.vec "_snap_to_grid") = _
  simp only [readAt, hrep, (set_get _ _ _).1]

/-- An upgrade planner that was set up with `settings=None` takes no description, icons or mappers any more, in any mode. -/
theorem C123_settings_refuted : ∃ s, setup .upgrade v10 true laxRules ⟨[], some none⟩ (blank .upgrade .none) = (s, none) ∧
    ∀ n ∈ ["description", "icons", "mappers"], ∀ (b : Bool) (r : Rules) (v : Val),
      assign .upgrade b r s n v = (s, some .attributeError) := by
  refine ⟨_, rfl, ?_⟩
  intro n hn b r v
  simp only [List.mem_cons, List.not_mem_nil, or_false] at hn
  rcases hn with rfl | rfl | rfl <;> rfl

theorem no_lists {k : Kind} {e : Entry} (he : e ∈ table k) : e.conv ≠ .list := by
  obtain ⟨h1, h2⟩ := List.mem_filter.mp he
  intro hc
  cases k <;> simp only [spec, List.mem_cons, List.not_mem_nil, or_false] at h1
  · rcases h1 with rfl | rfl | rfl | rfl | rfl | rfl | rfl | rfl | rfl | rfl | rfl | rfl | rfl | rfl | rfl <;> first | (cases hc; done) | exact absurd h2 (by decide)
  · rcases h1 with rfl | rfl | rfl | rfl | rfl | rfl | rfl | rfl <;> first | (cases hc; done) | exact absurd h2 (by decide)
  · rcases h1 with rfl | rfl | rfl | rfl | rfl | rfl <;> cases hc
  · rcases h1 with rfl | rfl | rfl | rfl | rfl | rfl | rfl | rfl | rfl | rfl | rfl <;> cases hc

/-- If assignments are not validated every value is accepted, but for the three vectors, where it must be `None` or have two components. -/
theorem C123_none {k : Kind} {e : Entry} (he : e ∈ table k) {r : Rules} {s : St} {v : Val} (hset : e.inSettings → s.settings.isSome) :
    (assign k false r s e.attr v).2 = none ↔ (e.conv = .vector → v = .none ∨ ∃ x y rest, v = .ints (x :: y :: rest)) := by
  rw [C123_accepts_partial he hset, Fits]
  cases hc : e.conv with
  | plain => exact ⟨fun _ h => (by cases h), fun _ => ⟨v, rfl⟩⟩
  | cleaned =>
    refine ⟨fun _ h => (by cases h), fun _ => ?_⟩
    cases hk : r.check e.field v with
    | ok w => exact ⟨w, Or.inl hk⟩
    | error x => exact ⟨v, Or.inr ⟨rfl, rfl, x, hk⟩⟩
  | version => exact ⟨fun _ h => (by cases h), fun _ => ⟨normVersion v, rfl⟩⟩
  | vector =>
    refine ⟨fun ⟨w, hw⟩ _ => ?_, fun h => ?_⟩
    · rcases hw with ⟨h, -⟩ | ⟨x, y, rest, h, -⟩
      · exact Or.inl h
      · exact Or.inr ⟨x, y, rest, h⟩
    · rcases h rfl with rfl | ⟨x, y, rest, rfl⟩
      · exact ⟨_, Or.inl ⟨rfl, rfl⟩⟩
      · exact ⟨_, Or.inr ⟨x, y, rest, rfl, rfl⟩⟩
  | list => exact absurd hc (no_lists he)
  | empty =>
    refine ⟨fun _ h => (by cases h), fun _ => ?_⟩
    by_cases hv : v = .none
    · exact ⟨_, Or.inl ⟨hv, rfl⟩⟩
    · exact ⟨_, Or.inr ⟨hv, rfl⟩⟩

/-! Examples. -/

/-- `label` of a book: the text that was assigned. -/
example : ∃ e ∈ table .book, e.attr = "label" ∧ Fits e true textRules (.str "a") ∧ ¬ Fits e true textRules (.int 1) := by
  refine ⟨⟨"label", ["label"], .none, .cleaned, "label", false⟩, by simp [table, spec], rfl, ⟨.str "a", Or.inl rfl⟩, ?_⟩
  rintro ⟨w, h | ⟨h, -⟩⟩
  · cases h
  · cases h

/-- A program on a blueprint: two labels, the second of which is refused, and a version given by its components. -/
example : read .blueprint (after .blueprint [⟨true, textRules, "label", .str "a"⟩, ⟨true, textRules, "label", .int 3⟩,
      ⟨false, textRules, "version", .ints [1, 0]⟩] (blank .blueprint .none)) "label" = .ok (.str "a") ∧
    read .blueprint (after .blueprint [⟨true, textRules, "label", .str "a"⟩, ⟨true, textRules, "label", .int 3⟩,
      ⟨false, textRules, "version", .ints [1, 0]⟩] (blank .blueprint .none)) "version" = .ok (.int 281474976710656) := by decide

/-- Without validation a number is taken as a description; with it, it is refused. -/
example : (assign .blueprint false textRules (blank .blueprint .none) "description" (.int 5)).2 = none ∧
    (assign .blueprint true textRules (blank .blueprint .none) "description" (.int 5)).2 = some .dataFormat ∧
    (assign .blueprint false textRules (blank .blueprint .none) "snapping_grid_size" (.ints [5])).2 = some .indexError := by decide

/-- Settings of the planners are there after construction. -/
example : (blank .decon .none).settings.isSome ∧ (blank .upgrade .none).settings.isSome ∧ (blank .decon .none).replaced = none := by decide

/-- Refused and other assignments. -/
example : (assign .decon true textRules (blank .decon .none) "tile_filters" (.int 1)).2 ≠ none ∧
    assign .decon true laxRules (blank .decon .none) "item" (.int 1) = (blank .decon .none, some .attributeError) ∧
    "item" ∉ (table .decon).map Entry.attr ∧ "tile_filters" ∈ (table .decon).map Entry.attr := by decide

/-- The list of a book. -/
example : (assign .book true laxRules (blank .book .none) "blueprints" .none).2 = none ∧
    read .book (assign .book true laxRules (blank .book .none) "blueprints" (.ints [1, 2])).1 "blueprints" = .ok (.ints [1, 2]) := by decide

end BpAttr
end Draftsman
