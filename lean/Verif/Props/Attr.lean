import Verif.Model.AttrTable
import Mathlib.Data.List.Infix
/-
C77: attributes of entities read back what was assigned, one assignment does not change another attribute, and a refused assignment
changes nothing.
-/
namespace Draftsman
namespace Attr

/-! ### Reading and storing along a path -/

theorem lookup_setField (f g : String) (w : Val) (fs : List (String × Val)) :
    (setField f w fs).lookup g = if g = f then some w else fs.lookup g := by
  induction fs with
  | nil =>
    by_cases h : g = f
    · simp [setField, h]
    · simp [setField, List.lookup, h, beq_eq_false_iff_ne.mpr h]
  | cons x r ih =>
    obtain ⟨k, u⟩ := x
    rw [setField]
    by_cases hk : k = f
    · rw [if_pos hk]
      by_cases h : g = f
      · simp [List.lookup, h, hk]
      · have : (g == k) = false := beq_eq_false_iff_ne.mpr (hk ▸ h)
        simp [List.lookup, this, h]
    · rw [if_neg hk]
      by_cases h : g = k
      · have : g ≠ f := h ▸ hk
        simp only [List.lookup, beq_iff_eq.mpr h, this, if_false]
      · have : (g == k) = false := beq_eq_false_iff_ne.mpr h
        simp only [List.lookup, this]
        exact ih

/-- The two kinds of models. -/
def Maker (mk : List (String × Val) → Val) : Prop := mk = .model ∨ mk = .bare

theorem field_maker {mk : List (String × Val) → Val} (hm : Maker mk) (fs : List (String × Val)) (f : String) :
    field (mk fs) f = match fs.lookup f with
      | some w => .ok w
      | none => .error .attributeError := by
  rcases hm with rfl | rfl <;> rfl

theorem field_setField_same {mk : List (String × Val) → Val} (hm : Maker mk) (f : String) (w : Val) (fs : List (String × Val)) :
    field (mk (setField f w fs)) f = .ok w := by
  simp [field_maker hm, lookup_setField]

theorem field_setField_other {mk : List (String × Val) → Val} (hm : Maker mk) {f g : String} (h : g ≠ f) (w : Val) (fs : List (String × Val)) :
    field (mk (setField f w fs)) g = field (mk fs) g := by
  simp [field_maker hm, lookup_setField, h]

theorem write_one {e e' v : Val} {f : String} : write e v [f] = .ok e' ↔
    ∃ mk fs, Maker mk ∧ e = mk fs ∧ (mk = .bare → ∃ u, fs.lookup f = some u) ∧ e' = mk (setField f v fs) := by
  constructor
  · intro h
    cases e with
    | model fs => exact ⟨.model, fs, .inl rfl, rfl, fun h => absurd (congrFun h []) (by simp), by simpa [write, eq_comm] using h⟩
    | bare fs =>
      rw [write] at h
      cases hf : fs.lookup f with
      | none => simp [hf] at h
      | some u => exact ⟨.bare, fs, .inr rfl, rfl, fun _ => ⟨u, hf⟩, by simpa [hf, eq_comm] using h⟩
    | _ => simp [write] at h
  · rintro ⟨mk, fs, rfl | rfl, rfl, hb, rfl⟩
    · rfl
    · obtain ⟨u, hu⟩ := hb rfl
      simp [write, hu]

theorem write_more {e e' v : Val} {f g : String} {p : List String} : write e v (f :: g :: p) = .ok e' ↔
    ∃ mk fs w w', Maker mk ∧ e = mk fs ∧ fs.lookup f = some w ∧ write w v (g :: p) = .ok w' ∧ e' = mk (setField f w' fs) := by
  constructor
  · intro h
    cases e with
    | model fs =>
      rw [write] at h
      cases hf : fs.lookup f with
      | none => simp [hf] at h
      | some w =>
        cases hw : write w v (g :: p) with
        | error x => simp [Except.map, hf, hw] at h
        | ok w' => exact ⟨.model, fs, w, w', .inl rfl, rfl, hf, hw, by simpa [Except.map, hf, hw, eq_comm] using h⟩
    | bare fs =>
      rw [write] at h
      cases hf : fs.lookup f with
      | none => simp [hf] at h
      | some w =>
        cases hw : write w v (g :: p) with
        | error x => simp [Except.map, hf, hw] at h
        | ok w' => exact ⟨.bare, fs, w, w', .inr rfl, rfl, hf, hw, by simpa [Except.map, hf, hw, eq_comm] using h⟩
    | _ => simp [write] at h
  · rintro ⟨mk, fs, w, w', rfl | rfl, rfl, hf, hw, rfl⟩ <;> simp [write, hf, hw, Except.map]

/-- What was stored is read back at the same path. -/
theorem read_write {p : List String} : ∀ {e e' v : Val}, write e v p = .ok e' → read e' p = .ok v := by
  induction p with
  | nil => intro e e' v h; simp [write] at h; simp [read, h]
  | cons f p ih =>
    intro e e' v h
    cases p with
    | nil =>
      obtain ⟨mk, fs, hm, rfl, -, rfl⟩ := write_one.mp h
      simp [read, field_setField_same hm]
    | cons g q =>
      obtain ⟨mk, fs, w, w', hm, rfl, hf, hw, rfl⟩ := write_more.mp h
      rw [read, field_setField_same hm]
      exact ih hw

/-- Nothing changes at a path that is neither above nor below. -/
theorem read_write_other {p : List String} : ∀ {q : List String} {e e' v : Val}, write e v p = .ok e' → ¬ p <+: q → ¬ q <+: p →
    read e' q = read e q := by
  induction p with
  | nil => intro q e e' v _ h; exact absurd (List.nil_prefix) h
  | cons f p ih =>
    intro q e e' v h h1 h2
    cases q with
    | nil => exact absurd (List.nil_prefix) h2
    | cons g q =>
      by_cases hg : g = f
      · subst hg
        have h1' : ¬ p <+: q := fun c => h1 (List.cons_prefix_cons.mpr ⟨rfl, c⟩)
        have h2' : ¬ q <+: p := fun c => h2 (List.cons_prefix_cons.mpr ⟨rfl, c⟩)
        cases p with
        | nil => exact absurd (List.nil_prefix) h1'
        | cons k p =>
          obtain ⟨mk, fs, w, w', hm, rfl, hf, hw, rfl⟩ := write_more.mp h
          have : field (mk fs) g = .ok w := by simp [field_maker hm, hf]
          rw [read, field_setField_same hm, read, this]
          exact ih hw h1' h2'
      · cases p with
        | nil =>
          obtain ⟨mk, fs, hm, rfl, -, rfl⟩ := write_one.mp h
          rw [read, field_setField_other hm hg, read]
        | cons k p =>
          obtain ⟨mk, fs, w, w', hm, rfl, hf, hw, rfl⟩ := write_more.mp h
          rw [read, field_setField_other hm hg, read]

/-- Whether storing succeeds does not depend on the value. -/
theorem write_any {p : List String} : ∀ {e e' v : Val} (w : Val), write e v p = .ok e' → ∃ e'', write e w p = .ok e'' := by
  induction p with
  | nil => intro e e' v w _; exact ⟨w, rfl⟩
  | cons f p ih =>
    intro e e' v w h
    cases p with
    | nil =>
      obtain ⟨mk, fs, hm, rfl, hb, rfl⟩ := write_one.mp h
      exact ⟨_, write_one.mpr ⟨mk, fs, hm, rfl, hb, rfl⟩⟩
    | cons g q =>
      obtain ⟨mk, fs, u, u', hm, rfl, hf, hu, rfl⟩ := write_more.mp h
      obtain ⟨u'', hu'⟩ := ih w hu
      exact ⟨_, write_more.mpr ⟨mk, fs, u, u'', hm, rfl, hf, hu', rfl⟩⟩

theorem write_twice {p : List String} : ∀ {e e' v : Val} (_ : write e v p = .ok e') (w : Val), ∃ e'', write e' w p = .ok e'' := by
  induction p with
  | nil => intro e e' v _ w; exact ⟨w, rfl⟩
  | cons f p ih =>
    intro e e' v h w
    cases p with
    | nil =>
      obtain ⟨mk, fs, hm, rfl, hb, rfl⟩ := write_one.mp h
      exact ⟨_, write_one.mpr ⟨mk, _, hm, rfl, fun _ => ⟨v, by simp [lookup_setField]⟩, rfl⟩⟩
    | cons g q =>
      obtain ⟨mk, fs, u, u', hm, rfl, hf, hu, rfl⟩ := write_more.mp h
      obtain ⟨u'', hu'⟩ := ih hu w
      exact ⟨_, write_more.mpr ⟨mk, _, u', u'', hm, rfl, by simp [lookup_setField], hu', rfl⟩⟩

theorem put_ok {e e' v : Val} {p : List String} (h : put e p v = (e', none)) : write e v p = .ok e' := by
  rw [put] at h
  split at h <;> simp at h
  rename_i x hx
  rw [hx, h]

theorem put_error {e e' v : Val} {p : List String} {x : PyErr} (h : put e p v = (e', some x)) : e' = e := by
  rw [put] at h
  split at h <;> simp at h
  exact h.1.symm

theorem checkPut_ok {ck : Val → Except PyErr Val} {e e' v : Val} {p : List String} (h : checkPut ck e p v = (e', none)) :
    ∃ w, ck v = .ok w ∧ write e w p = .ok e' := by
  rw [checkPut] at h
  split at h
  · simp at h
  · split at h
    · simp at h
    · rename_i w hw
      exact ⟨w, hw, put_ok h⟩

theorem checkPut_error {ck : Val → Except PyErr Val} {e e' v : Val} {p : List String} {x : PyErr}
    (h : checkPut ck e p v = (e', some x)) : e' = e := by
  rw [checkPut] at h
  split at h
  · simp at h; exact h.1.symm
  · split at h
    · simp at h; exact h.1.symm
    · exact put_error h

/-! ### What the table says -/

/-- Attributes that hold a sub-object with further attributes in it. -/
def wholes : List String :=
  ["control_behavior", "request_filters", "inventory", "infinity_settings", "parameters", "alert_parameters", "automatic_targeting_parameters"]

/-- The attributes of lamps that are stored as they are. -/
def lampRaw : List String := ["color_mode", "always_on", "color"]

/-- The attributes of infinity pipes that belong to the fluid. -/
def fluidAttrs : List String :=
  ["infinite_fluid_name", "infinite_fluid_percentage", "infinite_fluid_mode", "infinite_fluid_temperature"]

/-- Attributes whose values are converted even while validation is off. -/
def converted : List String :=
  ["color", "use_filters", "filters", "inventory", "bar", "infinity_settings", "parameters", "alert_parameters", "request_filters"]

theorem table_path : ∀ c ∈ classes, ∀ a ∈ c.attrs, a.name ≠ "recipe_quality" → a.get = a.set := by decide +kernel

theorem table_style : ∀ c ∈ classes, ∀ a ∈ c.attrs,
    (a.style = .raw → c.name = "Lamp" ∧ a.name ∈ lampRaw) ∧ (a.style = .orZero → a.name = "link_id") ∧
    (a.style = .restored → a.name = "items") ∧ (a.style = .late → c.name = "InfinityPipe" ∧ a.name ∈ fluidAttrs) ∧
    (a.style = .early → a.name ∈ ["recipe", "recipe_quality", "player_description"]) := by decide +kernel

theorem table_always : ∀ c ∈ classes, ∀ a ∈ c.attrs,
    a.style = .always → a.name ∈ converted ∧ (a.name = "bar" → c.name = "CargoWagon") := by decide +kernel

theorem table_broken : ∀ c ∈ classes, ∀ a ∈ c.attrs, a.style = .broken → c.name = "ConstantCombinator" ∧ a.name = "sections" := by decide +kernel

theorem table_storage_all : (classes.all fun c => c.attrs.all fun a => c.attrs.all fun b =>
    decide (a.name = b.name) || decide (a.name ∈ wholes) || decide (b.name ∈ wholes) || decide (b.name = "recipe_quality") ||
    (!(a.set.isPrefixOf b.get) && !(b.get.isPrefixOf a.set))) = true := by decide +kernel

theorem table_storage {c : Cls} (hc : c ∈ classes) {a b : Attr} (ha : a ∈ c.attrs) (hb : b ∈ c.attrs) (hab : a.name ≠ b.name)
    (h1 : a.name ∉ wholes) (h2 : b.name ∉ wholes) (h3 : b.name ≠ "recipe_quality") : ¬ a.set <+: b.get ∧ ¬ b.get <+: a.set := by
  have := List.all_eq_true.mp (List.all_eq_true.mp (List.all_eq_true.mp table_storage_all c hc) a ha) b hb
  simpa [hab, h1, h2, h3, ← List.isPrefixOf_iff_prefix] using this

/-! ### Properties -/

theorem attr_cases {c : Cls} (hc : c ∈ classes) {a : Attr} (ha : a ∈ c.attrs) :
    (a.style = .raw → c.name = "Lamp" ∧ a.name ∈ lampRaw) ∧ (a.style = .orZero → a.name = "link_id") ∧
    (a.style = .restored → a.name = "items") ∧ (a.style = .late → c.name = "InfinityPipe" ∧ a.name ∈ fluidAttrs) ∧
    (a.style = .early → a.name ∈ ["recipe", "recipe_quality", "player_description"]) ∧
    (a.style = .always → a.name ∈ converted ∧ (a.name = "bar" → c.name = "CargoWagon")) := by
  obtain ⟨t1, t2, t3, t4, t5⟩ := table_style c hc a ha
  exact ⟨t1, t2, t3, t4, t5, table_always c hc a ha⟩

/-- Assigning to an attribute that is validated, with validation on: if it succeeds, the validation accepted the value, and the attribute
reads as what the validation made of it.  Missing: the quality of a recipe, which is read from another place
(`C77_quality_refuted`); lamps, whose own attributes are not validated (`C77_lamp_refuted`); `link_id` and `items` see `C77_none`. -/
theorem C77_validated_partial {c : Cls} (hc : c ∈ classes) {a : Attr} (ha : a ∈ c.attrs) (hq : a.name ≠ "recipe_quality")
    (hl : ¬ (c.name = "Lamp" ∧ a.name ∈ lampRaw)) (h1 : a.name ≠ "link_id") (h2 : a.name ≠ "items")
    {r : Rules} {e e' v : Val} (h : assign true r a e v = (e', none)) :
    ∃ w, r.check v = .ok w ∧ read e' a.get = .ok w := by
  obtain ⟨t1, t2, t3, t4, t5, t6⟩ := attr_cases hc ha
  have fin : ∀ {x : Val}, checkPut r.check x a.set v = (e', none) → ∃ w, r.check v = .ok w ∧ read e' a.get = .ok w := by
    intro x hx
    obtain ⟨w, hw, hp⟩ := checkPut_ok hx
    exact ⟨w, hw, by rw [table_path c hc a ha hq]; exact read_write hp⟩
  cases hs : a.style with
  | checked => simp only [assign, hs, if_true] at h; exact fin h
  | always => simp only [assign, hs, if_true] at h; exact fin h
  | raw => exact absurd (t1 hs) hl
  | orZero => exact absurd (t2 hs) h1
  | restored => exact absurd (t3 hs) h2
  | early =>
    simp only [assign, hs, if_true] at h
    split at h
    · simp at h
    · exact fin h
  | late =>
    simp only [assign, hs, if_true] at h
    split at h
    · simp at h
    · rename_i x hx
      simp only [Prod.mk.injEq] at h
      rw [h.1] at hx
      exact fin hx
  | broken => simp [assign, hs] at h

/-- With validation off the attribute reads as what was assigned; some are converted if possible. -/
theorem C77_unvalidated_partial {c : Cls} (hc : c ∈ classes) {a : Attr} (ha : a ∈ c.attrs) (hq : a.name ≠ "recipe_quality")
    (h1 : a.name ≠ "link_id") (h2 : a.name ≠ "items") {r : Rules} {e e' v : Val} (h : assign false r a e v = (e', none)) :
    read e' a.get = .ok v ∨ ∃ w, r.check v = .ok w ∧ read e' a.get = .ok w ∧
      (a.name ∈ converted ∧ (a.name = "bar" → c.name = "CargoWagon") ∨ a.name ∈ fluidAttrs) := by
  obtain ⟨t1, t2, t3, t4, t5, t6⟩ := attr_cases hc ha
  have plain : put e a.set v = (e', none) → read e' a.get = .ok v := by
    intro hx
    rw [table_path c hc a ha hq]
    exact read_write (put_ok hx)
  have len : checkPut (lenient r.check) e a.set v = (e', none) → read e' a.get = .ok v ∨ ∃ w, r.check v = .ok w ∧ read e' a.get = .ok w := by
    intro hx
    obtain ⟨w, hw, hp⟩ := checkPut_ok hx
    have hr : read e' a.get = .ok w := by rw [table_path c hc a ha hq]; exact read_write hp
    rw [lenient] at hw
    split at hw
    · cases hw; exact .inl hr
    · exact .inr ⟨w, hw, hr⟩
  cases hs : a.style with
  | checked => simp only [assign, hs] at h; exact .inl (plain h)
  | always =>
    simp only [assign, hs] at h
    exact (len h).imp id fun ⟨w, hw, hr⟩ => ⟨w, hw, hr, .inl (t6 hs)⟩
  | raw => simp only [assign, hs] at h; exact .inl (plain h)
  | orZero => exact absurd (t2 hs) h1
  | restored => exact absurd (t3 hs) h2
  | early =>
    simp only [assign, hs] at h
    split at h
    · simp at h
    · rename_i x hx
      simp only [Bool.false_eq_true, if_false, Prod.mk.injEq, and_true] at h
      rw [h] at hx
      exact .inl (plain hx)
  | late =>
    simp only [assign, hs] at h
    split at h
    · simp at h
    · rename_i x hx
      simp only [Bool.false_eq_true, if_false, Prod.mk.injEq, and_true] at h
      rw [h] at hx
      exact (len hx).imp id fun ⟨w, hw, hr⟩ => ⟨w, hw, hr, .inr (t4 hs).2⟩
  | broken => simp only [assign, hs] at h; exact .inl (plain h)

theorem table_none : ∀ c ∈ classes, ∀ a ∈ c.attrs, (a.name = "link_id" ↔ a.style = .orZero) ∧ (a.name = "items" ↔ a.style = .restored) := by
  decide +kernel

/-- `link_id` and `items` never read `None` after an assignment: it becomes 0 or the empty list (both `atom 0`); anything else is kept, as
validated if validation is on. -/
theorem C77_none {c : Cls} (hc : c ∈ classes) {a : Attr} (ha : a ∈ c.attrs) (hn : a.name = "link_id" ∨ a.name = "items")
    {b : Bool} {r : Rules} {e e' v : Val} (h : assign b r a e v = (e', none)) :
    ∃ u w, (if b then r.check v = .ok u else u = v) ∧ read e' a.get = .ok w ∧ (u = .none → w = .atom 0) ∧ (u ≠ .none → w = u) := by
  obtain ⟨n1, n2⟩ := table_none c hc a ha
  have hq : a.name ≠ "recipe_quality" := by
    rcases hn with hn | hn <;> rw [hn] <;> decide
  have hp := table_path c hc a ha hq
  rcases hn with hn | hn
  · have hs := n1.mp hn
    simp only [assign, hs] at h
    cases b with
    | true =>
      simp only [if_true] at h
      obtain ⟨w, hw, hx⟩ := checkPut_ok h
      cases hu : r.check v with
      | error x => rw [hu] at hw; simp [Except.map] at hw
      | ok u =>
        rw [hu] at hw
        simp only [Except.map, Except.ok.injEq] at hw
        refine ⟨u, w, by simp, by rw [hp]; exact read_write hx, ?_, ?_⟩
        · intro hu'; subst hu'; exact hw.symm
        · intro hu'; cases u with
          | none => exact absurd rfl hu'
          | _ => exact hw.symm
    | false =>
      simp only [Bool.false_eq_true, if_false] at h
      refine ⟨v, _, by simp, by rw [hp]; exact read_write (put_ok h), ?_, ?_⟩
      · intro hv; subst hv; rfl
      · intro hv; cases v with
        | none => exact absurd rfl hv
        | _ => rfl
  · have hs := n2.mp hn
    simp only [assign, hs] at h
    cases b with
    | true =>
      simp only [if_true] at h
      split at h
      · simp at h
      · split at h
        · simp at h
        · simp at h
        · rename_i u hu
          refine ⟨u, _, by simp [hu], by rw [hp]; exact read_write (put_ok h), ?_, ?_⟩
          · intro hv; subst hv; rfl
          · intro hv; cases u with
            | none => exact absurd rfl hv
            | _ => rfl
    | false =>
      simp only [Bool.false_eq_true, if_false] at h
      refine ⟨v, _, by simp, by rw [hp]; exact read_write (put_ok h), ?_, ?_⟩
      · intro hv; subst hv; rfl
      · intro hv; cases v with
        | none => exact absurd rfl hv
        | _ => rfl

theorem put_frame {e : Val} {p q : List String} {v : Val} (h1 : ¬ p <+: q) (h2 : ¬ q <+: p) : read (put e p v).1 q = read e q := by
  rw [put]
  split
  · rename_i e' h; exact read_write_other h h1 h2
  · rfl

theorem checkPut_frame {ck : Val → Except PyErr Val} {e : Val} {p q : List String} {v : Val} (h1 : ¬ p <+: q) (h2 : ¬ q <+: p) :
    read (checkPut ck e p v).1 q = read e q := by
  rw [checkPut]
  split
  · rfl
  · split
    · rfl
    · exact put_frame h1 h2

theorem assign_frame {b : Bool} {r : Rules} {a : Attr} {e v : Val} {q : List String} (h1 : ¬ a.set <+: q) (h2 : ¬ q <+: a.set) :
    read (assign b r a e v).1 q = read e q := by
  cases hs : a.style with
  | checked => simp only [assign, hs]; split; exacts [checkPut_frame h1 h2, put_frame h1 h2]
  | always => simp only [assign, hs]; exact checkPut_frame h1 h2
  | raw => simp only [assign, hs]; exact put_frame h1 h2
  | orZero => simp only [assign, hs]; split; exacts [checkPut_frame h1 h2, put_frame h1 h2]
  | restored =>
    simp only [assign, hs]
    split
    · split
      · rename_i e' x hx; rw [put_error hx]
      · rename_i e' hx
        have h' : read e' q = read e q := read_write_other (put_ok hx) h1 h2
        split
        · rfl
        · exact h'
        · rw [put_frame h1 h2, h']
    · exact put_frame h1 h2
  | early =>
    simp only [assign, hs]
    split
    · rename_i e' x hx; rw [put_error hx]
    · rename_i e' hx
      have h' : read e' q = read e q := read_write_other (put_ok hx) h1 h2
      split
      · rw [checkPut_frame h1 h2, h']
      · exact h'
  | late =>
    simp only [assign, hs]
    split
    · rename_i e' x hx; rw [checkPut_error hx]
    · rename_i e' hx
      obtain ⟨w, -, hw⟩ := checkPut_ok hx
      have h' : read e' q = read e q := read_write_other hw h1 h2
      split <;> exact h'
  | broken => simp only [assign, hs]; split; exacts [rfl, put_frame h1 h2]

/-- An assignment, whether it succeeds or not, does not change any other attribute.  Missing: an attribute that holds a whole sub-object
and the attributes in it, which of course change together, and the quality of a recipe (`C77_quality_refuted`). -/
theorem C77_frame_partial {c : Cls} (hc : c ∈ classes) {a b : Attr} (ha : a ∈ c.attrs) (hb : b ∈ c.attrs) (hab : a.name ≠ b.name)
    (h1 : a.name ∉ wholes) (h2 : b.name ∉ wholes) (h3 : b.name ≠ "recipe_quality") (m : Bool) (r : Rules) (e v : Val) :
    read (assign m r a e v).1 b.get = read e b.get :=
  assign_frame (table_storage hc ha hb hab h1 h2 h3).1 (table_storage hc ha hb hab h1 h2 h3).2

/-- A refused assignment leaves the entity as it was.  Missing: `recipe`, `recipe_quality` and `player_description`, which are stored before
they are validated, and the fluid of an infinity pipe, which is validated once more after it was stored (`C77_refused_refuted`,
`C77_fluid_refuted`); `items` only for a `DataFormatError`. -/
theorem C77_refused_partial {c : Cls} (hc : c ∈ classes) {a : Attr} (ha : a ∈ c.attrs)
    (h1 : a.name ∉ ["recipe", "recipe_quality", "player_description"]) (h2 : ¬ (c.name = "InfinityPipe" ∧ a.name ∈ fluidAttrs))
    {m : Bool} {r : Rules} {e e' v : Val} {x : PyErr} (h3 : a.name = "items" → x = .dataFormat)
    (h : assign m r a e v = (e', some x)) : e' = e := by
  obtain ⟨t1, t2, t3, t4, t5, t6⟩ := attr_cases hc ha
  cases hs : a.style with
  | checked => simp only [assign, hs] at h; split at h; exacts [checkPut_error h, put_error h]
  | always => simp only [assign, hs] at h; exact checkPut_error h
  | raw => simp only [assign, hs] at h; exact put_error h
  | orZero => simp only [assign, hs] at h; split at h; exacts [checkPut_error h, put_error h]
  | restored =>
    have hx := h3 (t3 hs)
    subst hx
    simp only [assign, hs] at h
    split at h
    · split at h
      · rename_i e₁ x hx
        simp only [Prod.mk.injEq] at h
        rw [← h.1]; exact put_error hx
      · rename_i e₁ hx
        split at h
        · simp at h; exact h.symm
        · rename_i hne _ ; simp only [Prod.mk.injEq, Option.some.injEq] at h
          exact absurd h.2 (by simpa using hne)
        · rename_i w _
          obtain ⟨e₂, h₂⟩ := write_twice (put_ok hx) (orZero w)
          rw [put, h₂] at h
          simp at h
    · exact put_error h
  | early => exact absurd (t5 hs) h1
  | late => exact absurd (t4 hs) h2
  | broken =>
    simp only [assign, hs] at h
    split at h
    · simp only [Prod.mk.injEq] at h; exact h.1.symm
    · exact put_error h

theorem checkPut_accepts {ck : Val → Except PyErr Val} {e v w : Val} {p : List String} {e₀ : Val} (hp : write e v p = .ok e₀)
    (hc : ck v = .ok w) : ∃ e', checkPut ck e p v = (e', none) := by
  obtain ⟨e', he⟩ := write_any w hp
  exact ⟨e', by rw [checkPut, hp]; simp only [hc]; rw [put, he]⟩

/-- Whether a value can take an attribute of this name: a model can, one without extra keys only if it has the field. -/
def Takes (e : Val) (f : String) : Prop := (∃ fs, e = .model fs) ∨ ∃ fs u, e = .bare fs ∧ fs.lookup f = some u

theorem field_ok {e w : Val} {g : String} (h : field e g = .ok w) : ∃ mk gs, Maker mk ∧ e = mk gs ∧ gs.lookup g = some w := by
  cases e with
  | model gs => exact ⟨.model, gs, .inl rfl, rfl, by rw [field] at h; split at h <;> simp_all⟩
  | bare gs => exact ⟨.bare, gs, .inr rfl, rfl, by rw [field] at h; split at h <;> simp_all⟩
  | _ => simp [field] at h

theorem write_parent {p : List String} (f : String) : ∀ {e x : Val} (v : Val), read e p = .ok x → Takes x f → ∃ e', write e v (p ++ [f]) = .ok e' := by
  induction p with
  | nil =>
    intro e x v h hx
    simp only [read, Except.ok.injEq] at h
    subst h
    rcases hx with ⟨fs, rfl⟩ | ⟨fs, u, rfl, hu⟩
    · exact ⟨_, rfl⟩
    · exact ⟨_, write_one.mpr ⟨.bare, fs, .inr rfl, rfl, fun _ => ⟨u, hu⟩, rfl⟩⟩
  | cons g p ih =>
    intro e x v h hx
    rw [read] at h
    cases hg : field e g with
    | error x => rw [hg] at h; simp at h
    | ok w =>
      rw [hg] at h
      simp only at h
      obtain ⟨w', hw⟩ := ih v h hx
      obtain ⟨mk, gs, hm, rfl, hl⟩ := field_ok hg
      cases hq : p ++ [f] with
      | nil => simp at hq
      | cons k q =>
        rw [hq] at hw
        rw [List.cons_append, hq]
        exact ⟨_, write_more.mpr ⟨mk, gs, w, w', hm, rfl, hl, hw, rfl⟩⟩

/-- An assignment is refused for no other reason than that the object holding the attribute is missing or cannot hold it, or that validation refuses: if
`p` is the path to that object, which is there and is a model that takes the attribute, and validation accepts the value, the assignment succeeds.
Missing: the sections of a constant combinator while validation is on (`C77_sections_refuted`). -/
theorem C77_accepts_partial {c : Cls} (hc : c ∈ classes) {a : Attr} (ha : a ∈ c.attrs) {p : List String} {f : String} (hset : a.set = p ++ [f])
    {e v w x : Val} (he : read e p = .ok x) (hx : Takes x f) {r : Rules} (hr : r.check v = .ok w)
    (hafter : a.name ∈ fluidAttrs → ∀ x, r.after x = none) (m : Bool) (hb : ¬ (m = true ∧ c.name = "ConstantCombinator" ∧ a.name = "sections")) : ∃ e', assign m r a e v = (e', none) := by
  obtain ⟨t1, t2, t3, t4, t5, t6⟩ := attr_cases hc ha
  have any : ∀ u, ∃ e', write e u a.set = .ok e' := fun u => by rw [hset]; exact write_parent f u he hx
  have plain : ∀ u, ∃ e', put e a.set u = (e', none) := fun u => by
    obtain ⟨e', h⟩ := any u
    exact ⟨e', by rw [put, h]⟩
  obtain ⟨e₀, h₀⟩ := any v
  have hlen : lenient r.check v = .ok w := by rw [lenient, hr]
  cases hs : a.style with
  | checked =>
    simp only [assign, hs]
    cases m
    · exact plain v
    · exact checkPut_accepts h₀ hr
  | always =>
    simp only [assign, hs]
    cases m
    · exact checkPut_accepts h₀ hlen
    · exact checkPut_accepts h₀ hr
  | raw => simp only [assign, hs]; exact plain v
  | orZero =>
    simp only [assign, hs]
    cases m
    · exact plain _
    · exact checkPut_accepts (ck := fun u => (r.check u).map orZero) h₀ (w := orZero w) (by simp only [hr]; rfl)
  | early =>
    simp only [assign, hs, put, h₀]
    cases m
    · exact ⟨_, rfl⟩
    · obtain ⟨e₂, h₂⟩ := write_twice h₀ v
      exact checkPut_accepts h₂ hr
  | restored =>
    simp only [assign, hs]
    cases m
    · exact plain _
    · simp only [put, h₀, if_true, hr]
      obtain ⟨e₂, h₂⟩ := write_twice h₀ (orZero w)
      exact ⟨e₂, by rw [h₂]⟩
  | late =>
    have hf := hafter (t4 hs).2
    simp only [assign, hs]
    cases m
    · obtain ⟨e', h⟩ := checkPut_accepts h₀ hlen
      exact ⟨e', by simp [h]⟩
    · obtain ⟨e', h⟩ := checkPut_accepts h₀ hr
      exact ⟨e', by simp [h, hf]⟩
  | broken =>
    cases m
    · simp only [assign, hs]; exact plain v
    · exact absurd ⟨rfl, table_broken c hc a ha hs⟩ hb

/-- Refuted: what validation would accept can be assigned.  The sections of a constant combinator cannot be assigned at all while validation
is on: its setter names a class that does not exist, and every value is an `AttributeError`. -/
theorem C77_sections_refuted : constantCombinator ∈ classes ∧ ∃ a ∈ constantCombinator.attrs, a.name = "sections" ∧
    ∀ (r : Rules) (e v : Val), assign true r a e v = (e, some .attributeError) :=
  ⟨by simp [classes], ⟨"sections", ["control_behavior", "sections", "sections"], ["control_behavior", "sections", "sections"], .broken⟩,
    by decide +kernel, rfl, fun _ _ _ => rfl⟩

theorem write_fails {f : String} {x : PyErr} : ∀ (p : List String) (e u : Val),
    (∀ y, read e p = .ok y → write y u [f] = .error x) → (∀ y, read e p = .error y → x = .attributeError) → write e u (p ++ [f]) = .error x := by
  intro p
  induction p with
  | nil => intro e u h _; exact h e rfl
  | cons g p ih =>
    intro e u h he
    cases hq : p ++ [f] with
    | nil => simp at hq
    | cons k q =>
      rw [List.cons_append, hq]
      cases hg : field e g with
      | error y =>
        rw [he y (by rw [read, hg])]
        cases e with
        | model gs => rw [field] at hg; rw [write]; split at hg <;> simp_all
        | bare gs => rw [field] at hg; rw [write]; split at hg <;> simp_all
        | _ => rfl
      | ok w =>
        have := ih w u (fun y hy => h y (by rw [read, hg]; exact hy)) (fun y hy => he y (by rw [read, hg]; exact hy))
        rw [hq] at this
        obtain ⟨mk, gs, rfl | rfl, rfl, hl⟩ := field_ok hg <;> simp [write, hl, this, Except.map]

/-- If the object holding the attribute is missing, the assignment fails with `AttributeError`, whatever the value and the mode. -/
theorem C77_missing {a : Attr} {p : List String} {f : String} (hset : a.set = p ++ [f]) {e : Val}
    (he : ∀ fs, read e p ≠ .ok (.model fs) ∧ read e p ≠ .ok (.bare fs)) (m : Bool) (r : Rules) (v : Val) :
    (assign m r a e v).2 = some .attributeError := by
  have hw : ∀ u, write e u a.set = .error .attributeError := fun u => by
    rw [hset]
    refine write_fails p e u (fun y hy => ?_) (fun _ _ => rfl)
    cases y with
    | model fs => exact absurd hy (he fs).1
    | bare fs => exact absurd hy (he fs).2
    | _ => rfl
  have hput : ∀ u, put e a.set u = (e, some .attributeError) := fun u => by rw [put, hw]
  have hck : ∀ ck, checkPut ck e a.set v = (e, some .attributeError) := fun ck => by rw [checkPut, hw]; rfl
  cases hs : a.style <;> cases m <;> simp [assign, hs, hput, hck]

/-- If the object is there but takes no extra keys and does not have the attribute, a validated assignment always fails, with `DataFormatError` or,
without validation, `ValueError`, and changes nothing. -/
theorem C77_sealed {a : Attr} (hstyle : a.style = .checked) {p : List String} {f : String} (hset : a.set = p ++ [f]) {e : Val} {fs : List (String × Val)}
    (he : read e p = .ok (.bare fs)) (hf : fs.lookup f = none) (m : Bool) (r : Rules) (v : Val) :
    assign m r a e v = (e, some (if m then .dataFormat else .valueError)) := by
  have hw : ∀ u, write e u a.set = .error .valueError := fun u => by
    rw [hset]
    refine write_fails p e u (fun y hy => ?_) (fun y hy => ?_) <;> rw [he] at hy <;> cases hy
    simp [write, hf]
  cases m <;> simp [assign, hstyle, put, checkPut, hw, refusal]

/-- The chests whose control behavior takes no extra keys and has no `circuit_enabled`. -/
def sealedChests : List Cls := [logisticActiveContainer, logisticPassiveContainer, logisticStorageContainer]

/-- Refuted: an assignment that validation accepts succeeds.  `circuit_enabled` of active, passive and storage chests cannot be set to anything: the mixin writes a
field that their control behaviors do not have, and these derive from `BaseModel`, which takes no extra keys
(`prototypes/logistic_active_container.py:47-51`).  On buffer and requester chests the same assignment works. -/
theorem C77_sealed_refuted : ∀ c ∈ sealedChests, c ∈ classes ∧ ∃ a ∈ c.attrs, a.name = "circuit_enabled" ∧
    ∀ (m : Bool) (r : Rules) (v : Val), assign m r a c.fresh v = (c.fresh, some (if m then .dataFormat else .valueError)) := by
  intro c hc
  have ha : (⟨"circuit_enabled", ["control_behavior", "circuit_enabled"], ["control_behavior", "circuit_enabled"], .checked⟩ : Attr) ∈ c.attrs := by
    revert c; decide +kernel
  have hf : ∃ fs, read c.fresh ["control_behavior"] = .ok (.bare fs) ∧ fs.lookup "circuit_enabled" = none := by
    simp only [sealedChests, List.mem_cons, List.not_mem_nil, or_false] at hc
    rcases hc with rfl | rfl | rfl <;> exact ⟨_, rfl, by decide +kernel⟩
  obtain ⟨fs, h1, h2⟩ := hf
  refine ⟨by simp only [sealedChests, List.mem_cons, List.not_mem_nil, or_false] at hc; rcases hc with rfl | rfl | rfl <;> simp [classes], _, ha, rfl, fun m r v => ?_⟩
  exact C77_sealed rfl (p := ["control_behavior"]) (f := "circuit_enabled") rfl h1 h2 m r v

theorem resolve_fold (l : List Attr) : ∀ acc : List Attr, (acc.map (·.name)).Nodup →
    ((l.foldl (fun acc a => if acc.any (fun b => decide (b.name = a.name)) then acc else acc ++ [a]) acc).map (·.name)).Nodup ∧
    ∀ n, (l.foldl (fun acc a => if acc.any (fun b => decide (b.name = a.name)) then acc else acc ++ [a]) acc).find? (fun b => b.name == n) =
      (acc ++ l).find? (fun b => b.name == n) := by
  induction l with
  | nil => intro acc h; simp [h]
  | cons a l ih =>
    intro acc h
    rw [List.foldl_cons]
    by_cases ha : acc.any (fun b => decide (b.name = a.name)) = true
    · rw [if_pos ha]
      refine ⟨(ih acc h).1, fun n => ?_⟩
      rw [(ih acc h).2 n]
      simp only [List.find?_append, List.find?_cons]
      by_cases hn : (a.name == n) = true
      · obtain ⟨b, hb, hb'⟩ := List.any_eq_true.mp ha
        have : (acc.find? (fun b => b.name == n)).isSome := by
          rw [List.find?_isSome]
          exact ⟨b, hb, by simpa [of_decide_eq_true hb'] using hn⟩
        obtain ⟨y, hy⟩ := Option.isSome_iff_exists.mp this
        simp [hy]
      · simp [hn]
    · rw [if_neg ha]
      have hnd : ((acc ++ [a]).map (·.name)).Nodup := by
        simp only [List.any_eq_true, decide_eq_true_eq, not_exists, not_and] at ha
        rw [List.map_append, List.nodup_append]
        refine ⟨h, by simp, ?_⟩
        intro x hx y hy
        obtain ⟨b, hb, rfl⟩ := List.mem_map.mp hx
        simp only [List.map_cons, List.map_nil, List.mem_singleton] at hy
        rw [hy]
        exact ha b hb
      refine ⟨(ih _ hnd).1, fun n => ?_⟩
      rw [(ih _ hnd).2 n]
      simp

/-- Every name denotes at most one attribute, that of the first class in the order of resolution which has it. -/
theorem C77_resolved (c : Cls) : (c.attrs.map (·.name)).Nodup ∧
    ∀ n, c.attrs.find? (fun b => b.name == n) = c.layers.flatten.find? (fun b => b.name == n) := by
  have := resolve_fold c.layers.flatten [] (by simp)
  simpa [Cls.attrs] using this

/-- A wall has `circuit_enabled` from two mixins, the first one wins. -/
example : (wall.layers.flatten.filter (fun b => b.name == "circuit_enabled")).length = 2 ∧
    (wall.attrs.filter (fun b => b.name == "circuit_enabled")).length = 1 := by decide +kernel

/-- The attributes that cannot be read on a new entity. -/
def unreadable : List (String × List String) := [
  ("AgriculturalTower", ["circuit_enabled"]), ("Lamp", ["circuit_enabled"]), ("LogisticActiveContainer", ["circuit_enabled"]),
  ("LogisticBufferContainer", ["circuit_enabled"]), ("LogisticPassiveContainer", ["circuit_enabled"]),
  ("LogisticRequestContainer", ["circuit_enabled"]), ("LogisticStorageContainer", ["circuit_enabled"]),
  ("OffshorePump", ["circuit_enabled"]), ("PowerSwitch", ["circuit_enabled"]), ("Pump", ["circuit_enabled"]),
  ("RocketSilo", ["auto_launch"]),
  ("CargoLandingPad", ["trash_not_requested", "request_from_buffers", "requests_enabled", "sections"]),
  ("SpacePlatformHub", ["trash_not_requested", "request_from_buffers", "requests_enabled", "sections"]),
  ("SpiderVehicle", ["auto_target_without_gunner", "auto_target_with_gunner"])]

/-- Whether reading succeeds. -/
def readable (e : Val) (p : List String) : Bool :=
  match read e p with
  | .ok _ => true
  | .error _ => false

theorem table_fresh : (classes.all fun c => c.attrs.all fun a =>
    readable c.fresh a.get == !(((unreadable.lookup c.name).getD []).contains a.name)) = true := by decide +kernel

/-- On a new entity every attribute can be read, with the exceptions listed. -/
theorem C77_fresh_partial {c : Cls} (hc : c ∈ classes) {a : Attr} (ha : a ∈ c.attrs)
    (h : ∀ l, unreadable.lookup c.name = some l → a.name ∉ l) : ∃ v, read c.fresh a.get = .ok v := by
  have := List.all_eq_true.mp (List.all_eq_true.mp table_fresh c hc) a ha
  have hn : ((unreadable.lookup c.name).getD []).contains a.name = false := by
    cases hl : unreadable.lookup c.name with
    | none => rfl
    | some l => simpa using h l hl
  rw [hn] at this
  cases hr : read c.fresh a.get with
  | ok v => exact ⟨v, rfl⟩
  | error x => simp [readable, hr] at this

/-- Refuted: every attribute of a new entity can be read.  All those listed as `unreadable` raise `AttributeError`: the mixin
reads `control_behavior.circuit_enabled`, a field that lamps, pumps, power switches, logistic containers and others do not have
(`classes/mixins/circuit_condition.py:53`); `auto_launch` of rocket silos has no field (`prototypes/rocket_silo.py:39-45`); landing pads
and platform hubs are built with `request_filters = None` (`classes/mixins/request_filters.py:72`), spider vehicles with a plain dictionary for
`automatic_targeting_parameters` (`prototypes/spider_vehicle.py:119, 147`). -/
theorem C77_fresh_refuted : ∀ x ∈ unreadable, ∀ n ∈ x.2, ∃ c ∈ classes, ∃ a ∈ c.attrs, c.name = x.1 ∧ a.name = n ∧
    readable c.fresh a.get = false := by decide +kernel

/-- Refuted: the quality of a recipe reads back what was assigned.  Whatever was assigned, the getter returns the recipe, for every
class with that attribute. -/
theorem C77_quality_refuted : ∀ c ∈ classes, ∀ a ∈ c.attrs, a.name = "recipe_quality" →
    ∃ b ∈ c.attrs, b.name = "recipe" ∧ a.get = b.get ∧ a.set ≠ a.get := by decide +kernel

/-- Refuted: a refused assignment changes nothing.  The recipe and the player description are stored before they are validated. -/
theorem C77_refused_refuted : ∀ n ∈ ["recipe", "player_description"], ∃ c ∈ classes, ∃ a ∈ c.attrs, a.name = n ∧
    ∀ (r : Rules) (v : Val) (x : PyErr), r.check v = .error x → ∃ e', assign true r a c.fresh v = (e', some x) ∧ read e' a.get = .ok v := by
  have early : ∀ c ∈ classes, ∀ a ∈ c.attrs, a.style = .early → a.get = a.set →
      (∃ f, a.set = [] ++ [f]) → (∃ fs, c.fresh = .model fs) →
      ∀ (r : Rules) (v : Val) (x : PyErr), r.check v = .error x → ∃ e', assign true r a c.fresh v = (e', some x) ∧ read e' a.get = .ok v := by
    rintro c - a - hs hg ⟨f, hf⟩ ⟨fs, hfs⟩ r v x hx
    obtain ⟨e', he⟩ := write_parent f (p := []) v (e := c.fresh) rfl (.inl ⟨fs, hfs⟩)
    rw [← hf] at he
    obtain ⟨e₂, h₂⟩ := write_twice he v
    exact ⟨e', by simp [assign, hs, put, he, checkPut, h₂, hx], by rw [hg]; exact read_write he⟩
  intro n hn
  rcases List.mem_cons.mp hn with rfl | hn
  · have h1 : assemblingMachine ∈ classes := by simp [classes]
    have h2 : (⟨"recipe", ["recipe"], ["recipe"], .early⟩ : Attr) ∈ assemblingMachine.attrs := by decide +kernel
    exact ⟨_, h1, _, h2, rfl, early _ h1 _ h2 rfl rfl ⟨"recipe", rfl⟩ ⟨_, rfl⟩⟩
  · rw [List.mem_singleton] at hn
    subst hn
    have h1 : constantCombinator ∈ classes := by simp [classes]
    have h2 : (⟨"player_description", ["player_description"], ["player_description"], .early⟩ : Attr) ∈ constantCombinator.attrs := by
      decide +kernel
    exact ⟨_, h1, _, h2, rfl, early _ h1 _ h2 rfl rfl ⟨"player_description", rfl⟩ ⟨_, rfl⟩⟩

/-- Refuted: a refused assignment changes nothing.  The fluid of an infinity pipe is stored, then the whole settings are
validated; if that fails, the value stays.  The project's own test says so (`test/prototypes/test_infinity_pipe.py:194-197`). -/
theorem C77_fluid_refuted : ∀ n ∈ fluidAttrs, ∃ a ∈ infinityPipe.attrs, a.name = n ∧
    ∀ (r : Rules) (v w : Val) (x : PyErr), r.check v = .ok w → (∀ e, r.after e = some x) →
      ∃ e', assign true r a infinityPipe.fresh v = (e', some x) ∧ read e' a.get = .ok w := by
  have late : ∀ a ∈ infinityPipe.attrs, a.style = .late → a.get = a.set → (∃ f, a.set = ["infinity_settings"] ++ [f]) →
      ∀ (r : Rules) (v w : Val) (x : PyErr), r.check v = .ok w → (∀ e, r.after e = some x) →
      ∃ e', assign true r a infinityPipe.fresh v = (e', some x) ∧ read e' a.get = .ok w := by
    rintro a - hs hg ⟨f, hf⟩ r v w x hx hy
    obtain ⟨e', he⟩ := write_parent f (p := ["infinity_settings"]) v (e := infinityPipe.fresh) rfl (.inl ⟨_, rfl⟩)
    rw [← hf] at he
    obtain ⟨e₂, h₂⟩ := write_any w he
    exact ⟨e₂, by simp [assign, hs, put, he, checkPut, h₂, hx, hy], by rw [hg]; exact read_write h₂⟩
  have tab : ∀ n ∈ fluidAttrs, ∃ a ∈ infinityPipe.attrs, a.name = n ∧ a.style = .late ∧ a.get = a.set ∧ a.set.dropLast = ["infinity_settings"] := by
    decide +kernel
  intro n hn
  obtain ⟨a, ha, h1, h2, h3, h4⟩ := tab n hn
  refine ⟨a, ha, h1, late a ha h2 h3 ?_⟩
  have hne : a.set ≠ [] := fun h => by rw [h] at h4; simp at h4
  exact ⟨a.set.getLast hne, by rw [← h4, List.dropLast_append_getLast]⟩

/-- Refuted: every assignment is validated.  The colour mode, `always_on` and the colour of a lamp take any value even with
validation on. -/
theorem C77_lamp_refuted : ∀ n ∈ lampRaw, ∃ a ∈ lamp.attrs, a.name = n ∧
    ∀ (r : Rules) (v : Val), ∃ e', assign true r a lamp.fresh v = (e', none) ∧ read e' a.get = .ok v := by
  have tab : ∀ n ∈ lampRaw, ∃ a ∈ lamp.attrs, a.name = n ∧ a.style = .raw ∧ a.get = a.set ∧
      (a.set = [n] ∨ a.set = ["control_behavior", n]) := by decide +kernel
  intro n hn
  obtain ⟨a, ha, h1, h2, h3, h4⟩ := tab n hn
  refine ⟨a, ha, h1, fun r v => ?_⟩
  have : ∃ e', write lamp.fresh v a.set = .ok e' := by
    rcases h4 with h4 | h4 <;> rw [h4]
    · exact write_parent n (p := []) v rfl (.inl ⟨_, rfl⟩)
    · exact write_parent n (p := ["control_behavior"]) v rfl (.inl ⟨_, rfl⟩)
  obtain ⟨e', he⟩ := this
  exact ⟨e', by simp [assign, h2, put, he], by rw [h3]; exact read_write he⟩

/-- Refuted: "gets set to an empty `dict` if set to `None`" (`classes/mixins/control_behavior.py:74-75`).  It stays `None`, and with it gone all
attributes kept in it can neither be read nor set. -/
theorem C77_cleared_refuted {c : Cls} (hc : c ∈ classes) {a : Attr} {p q : List String} {f g : String}
    (hset : a.set = "control_behavior" :: p ++ [f]) (hget : a.get = "control_behavior" :: g :: q) {b : Attr} (hb : b ∈ c.attrs)
    (hname : b.name = "control_behavior") {r : Rules} {e e' : Val} (h : assign false r b e .none = (e', none)) (m : Bool) (r' : Rules) (v : Val) :
    read e' b.get = .ok .none ∧ read e' a.get = .error .attributeError ∧ (assign m r' a e' v).2 = some .attributeError := by
  have tab : ∀ c ∈ classes, ∀ b ∈ c.attrs, b.name = "control_behavior" → b.get = ["control_behavior"] ∧ b.set = ["control_behavior"] ∧
      b.style = .checked := by decide +kernel
  obtain ⟨h1, h2, h3⟩ := tab c hc b hb hname
  simp only [assign, h3] at h
  have hw := put_ok h
  have hr := read_write hw
  rw [h2] at hr
  have hf : field e' "control_behavior" = .ok .none := by
    rw [read] at hr
    cases hx : field e' "control_behavior" with
    | error x => rw [hx] at hr; simp at hr
    | ok u => rw [hx] at hr; simpa [read] using hr
  refine ⟨by rw [h1]; exact hr, by rw [hget, read, hf]; rfl, C77_missing (p := "control_behavior" :: p) hset ?_ m r' v⟩
  intro fs
  rw [read, hf]
  cases p with
  | nil => simp [read]
  | cons k q => simp [read, field]

/-! ### Concrete cases -/

/-- A constant combinator which is switched, with a validation that accepts it: the switch reads back, the sections stay. -/
example : ∃ e', assign true ⟨fun _ => .ok (.atom 7), fun _ => none⟩ ⟨"is_on", ["control_behavior", "is_on"],
    ["control_behavior", "is_on"], .checked⟩ constantCombinator.fresh (.atom 5) = (e', none) ∧
    read e' ["control_behavior", "is_on"] = .ok (.atom 7) ∧ read e' ["control_behavior", "sections", "sections"] = .ok (.atom 0) :=
  ⟨_, rfl, rfl, rfl⟩

/-- The row just used is in the table, so `C77_validated_partial`, `C77_frame_partial` and `C77_accepts_partial` speak of it. -/
example : (⟨"is_on", ["control_behavior", "is_on"], ["control_behavior", "is_on"], .checked⟩ : Attr) ∈
    constantCombinator.attrs := by decide +kernel

/-- Its sections can be assigned while validation is off. -/
example : ∃ e', assign false ⟨fun _ => .error .dataFormat, fun _ => none⟩ ⟨"sections", ["control_behavior", "sections", "sections"],
    ["control_behavior", "sections", "sections"], .broken⟩ constantCombinator.fresh (.atom 5) = (e', none) ∧
    read e' ["control_behavior", "sections", "sections"] = .ok (.atom 5) := ⟨_, rfl, rfl⟩

/-- A refused value: the combinator is as before. -/
example : assign true ⟨fun _ => .error .dataFormat, fun _ => none⟩ ⟨"is_on", ["control_behavior", "is_on"], ["control_behavior", "is_on"], .checked⟩
    constantCombinator.fresh (.atom 5) = (constantCombinator.fresh, some .dataFormat) := rfl

/-- A linked container: `None` becomes 0. -/
example : ∃ e', assign true ⟨fun v => .ok v, fun _ => none⟩ ⟨"link_id", ["link_id"], ["link_id"], .orZero⟩ linkedContainer.fresh .none = (e', none) ∧
    read e' ["link_id"] = .ok (.atom 0) := ⟨_, rfl, rfl⟩

/-- An accumulator without control behavior: its output signal is gone. -/
example : ∃ e', assign false ⟨fun v => .ok v, fun _ => none⟩ ⟨"control_behavior", ["control_behavior"], ["control_behavior"], .checked⟩
    accumulator.fresh .none = (e', none) ∧ read e' ["control_behavior", "output_signal"] = .error .attributeError := ⟨_, rfl, rfl⟩

end Attr
end Draftsman
