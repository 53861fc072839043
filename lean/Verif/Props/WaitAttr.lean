import Verif.Model.WaitAttr
/-
C124: the attributes of wait conditions and their validation.
-/
namespace Draftsman
namespace WaitAttr

/-- A value that came out of validation passes it, and is not changed by it. -/
def Stable (r : Rules) : Prop := ∀ f v w, r f v = .ok w → r f w = .ok w

/-- The value of a field passes. -/
def Passes (r : Rules) (root : Root) (f : Field) : Prop := ∃ w, r f (root f) = .ok w

theorem all_fields (f : Field) : f ∈ fields := by cases f <;> decide

/-- `validate` finds nothing exactly if it is told not to look or if every field passes. -/
theorem C124_validate (isNone force : Bool) (r : Rules) (root : Root) :
    validate isNone force r root = [] ↔ (isNone = true ∧ force = false) ∨ ∀ f, Passes r root f := by
  rw [validate]
  have hall : (fields.all fun f => (r f (root f)).isOk) = true ↔ ∀ f, Passes r root f := by
    rw [List.all_eq_true]
    refine ⟨fun h f => ?_, fun h f _ => ?_⟩
    · have := h f (all_fields f)
      cases hr : r f (root f) with
      | ok w => exact ⟨w, hr⟩
      | error e => rw [hr] at this; cases this
    · obtain ⟨w, hw⟩ := h f
      rw [hw]
      rfl
  split
  · next h =>
    simp only [Bool.and_eq_true, Bool.not_eq_true'] at h
    exact ⟨fun _ => Or.inl h, fun _ => rfl⟩
  · next h =>
    simp only [Bool.and_eq_true, Bool.not_eq_true'] at h
    by_cases ha : (fields.all fun f => (r f (root f)).isOk) = true
    · rw [if_pos ha]
      exact ⟨fun _ => Or.inr (hall.mp ha), fun _ => rfl⟩
    · rw [if_neg ha]
      refine ⟨fun h2 => (by cases h2), fun h2 => ?_⟩
      rcases h2 with h2 | h2
      · exact absurd h2 h
      · exact absurd (hall.mpr h2) ha

/-- Making a wait condition with validation succeeds only if all its fields pass afterwards; without it, it always succeeds. -/
theorem C124_make {isNone : Bool} {r : Rules} {args root : Root} (h : make isNone r args = .ok root) :
    (isNone = false → ∀ f, Passes r root f) ∧ ∀ f w, r f (fill args f) = .ok w → root f = w := by
  rw [make] at h
  cases hv : validate isNone false r (fun f => lenient r f (fill args f)) with
  | cons e l => rw [hv] at h; cases h
  | nil =>
    rw [hv] at h
    cases h
    refine ⟨fun hn => ?_, fun f w hw => ?_⟩
    · rcases (C124_validate _ _ _ _).mp hv with ⟨h1, -⟩ | h1
      · rw [hn] at h1; cases h1
      · exact h1
    · show lenient r f (fill args f) = w
      rw [lenient, hw]

/-- What the constructor fills in: 30 seconds for the type `time`, 5 for `inactivity`, a condition for the three types that use one, and nothing
else; what is given is kept, as converted. -/
theorem C124_defaults {isNone : Bool} {r : Rules} {args root : Root} (h : make isNone r args = .ok root)
    (h30 : r .ticks (.num 1800) = .ok (.num 1800)) (h5 : r .ticks (.num 300) = .ok (.num 300)) (hn : r .ticks .none = .ok .none)
    (hc : r .condition (.cond 0) = .ok (.cond 0)) (hcn : r .condition .none = .ok .none) :
    (args .ticks = .none → root .ticks = if args .type = .text "time" then .num 1800 else
      if args .type = .text "inactivity" then .num 300 else .none) ∧
    (args .condition = .none → root .condition = if args .type = .text "item_count" ∨ args .type = .text "fluid_count" ∨
      args .type = .text "circuit" then .cond 0 else .none) ∧
    (∀ f w, args f ≠ .none → r f (args f) = .ok w → root f = w) ∧ (∀ f e, args f ≠ .none → r f (args f) = .error e → root f = args f) := by
  have hroot : ∀ f, root f = lenient r f (fill args f) := by
    rw [make] at h
    cases hv : validate isNone false r (fun f => lenient r f (fill args f)) with
    | cons e l => rw [hv] at h; cases h
    | nil => rw [hv] at h; cases h; exact fun _ => rfl
  have hfill : ∀ f, args f ≠ .none → fill args f = args f := by
    intro f hf
    cases f <;> simp_all [fill]
  refine ⟨fun ht => ?_, fun ht => ?_, fun f w hf hw => ?_, fun f e hf he => ?_⟩
  · rw [hroot, fill]
    by_cases h1 : args .type = .text "time"
    · simp [h1, ht, lenient, h30]
    · by_cases h2 : args .type = .text "inactivity"
      · simp [h2, ht, lenient, h5]
      · simp [h1, h2, ht, lenient, hn]
  · rw [hroot, fill]
    by_cases h1 : args .type = .text "item_count" ∨ args .type = .text "fluid_count" ∨ args .type = .text "circuit"
    · rw [if_pos h1, if_pos (by simpa [ht] using h1), lenient, hc]
    · rw [if_neg h1, if_neg (by simpa [ht] using h1), ht, lenient, hcn]
  · rw [hroot, hfill f hf, lenient, hw]
  · rw [hroot, hfill f hf, lenient, he]

/-- The constructor with validation accepts what passes, filled in, and refuses everything else. -/
theorem C124_accepts {r : Rules} (hs : Stable r) {args : Root} :
    (∃ root, make false r args = .ok root) ↔ ∀ f, ∃ w, r f (fill args f) = .ok w := by
  rw [make]
  have key : (∀ f, Passes r (fun f => lenient r f (fill args f)) f) ↔ ∀ f, ∃ w, r f (fill args f) = .ok w := by
    refine forall_congr' fun f => ?_
    rw [Passes, lenient]
    cases hr : r f (fill args f) with
    | ok w => exact ⟨fun _ => ⟨w, rfl⟩, fun _ => ⟨w, hs _ _ _ hr⟩⟩
    | error e => simp only [hr]
  rw [← key]
  cases hv : validate false false r (fun f => lenient r f (fill args f)) with
  | nil =>
    refine ⟨fun _ => ?_, fun _ => ⟨_, rfl⟩⟩
    rcases (C124_validate _ _ _ _).mp hv with ⟨h1, -⟩ | h1
    · cases h1
    · exact h1
  | cons e l =>
    refine ⟨fun ⟨_, h⟩ => (by cases h), fun h => ?_⟩
    have := (C124_validate false false _ _).mpr (Or.inr h)
    rw [hv] at this
    cases this

/-- An assignment is refused exactly if it is validated and the value fails, and then nothing changes. -/
theorem C124_refused {b : Bool} {r : Rules} {root : Root} {f : Field} {v : Val} :
    ((assign b r root f v).2 ≠ none ↔ b = true ∧ ∃ e, r f v = .error e) ∧
    ((assign b r root f v).2 ≠ none → (assign b r root f v).1 = root) := by
  rw [assign]
  cases b with
  | false => simp
  | true => cases hr : r f v <;> simp

/-- After an assignment that is accepted the attribute reads the value, converted if assignments are validated; the others read what they
did. -/
theorem C124_readback {b : Bool} {r : Rules} {root : Root} {f : Field} {v : Val} (h : (assign b r root f v).2 = none) :
    (if b then r f v = .ok ((assign b r root f v).1 f) else (assign b r root f v).1 f = v) ∧
    ∀ g, g ≠ f → (assign b r root f v).1 g = root g := by
  rw [assign] at h ⊢
  cases b with
  | false => exact ⟨by simp [put], fun g hg => by simp [put, hg]⟩
  | true =>
    cases hr : r f v with
    | error e => rw [hr] at h; cases h
    | ok w => exact ⟨by simp [put], fun g hg => by simp [put, hg]⟩

theorem assign_passes {b : Bool} {r : Rules} (hs : Stable r) {root : Root} {f g : Field} {v : Val} (hp : Passes r root g)
    (hb : b = true ∨ (f = g → ∃ w, r f v = .ok w)) : Passes r (assign b r root f v).1 g := by
  rw [assign]
  cases b with
  | false =>
    by_cases hg : g = f
    · subst hg
      rcases hb with hb | hb
      · cases hb
      · simpa [Passes, put] using hb rfl
    · simpa [Passes, put, hg] using hp
  | true =>
    simp only [if_true]
    cases hr : r f v with
    | error e => exact hp
    | ok w =>
      by_cases hg : g = f
      · subst hg
        exact ⟨w, by simpa [put] using hs _ _ _ hr⟩
      · simpa [Passes, put, hg] using hp

/-- A wait condition that was made with validation, and to which only validated assignments were made, or others of values that pass, is
valid at every time. -/
theorem C124_valid {r : Rules} (hs : Stable r) (l : List Asg) : ∀ {root : Root}, (∀ f, Passes r root f) →
    (∀ a ∈ l, a.validating = true ∨ ∃ w, r a.field a.value = .ok w) → ∀ isNone force, validate isNone force r (after r l root) = [] := by
  induction l with
  | nil => intro root hp _ isNone force; exact (C124_validate _ _ _ _).mpr (Or.inr hp)
  | cons a l ih =>
    intro root hp hl
    refine ih (fun f => assign_passes hs (hp f) ?_) (fun x hx => hl x (List.mem_cons_of_mem _ hx))
    rcases hl a List.mem_cons_self with h | h
    · exact Or.inl h
    · exact Or.inr fun _ => h

/-- A wait condition that is not valid becomes so by validated assignments of passing values to the fields that fail, in any order and among
any other validated assignments. -/
theorem C124_repaired {r : Rules} (hs : Stable r) (l : List Asg) : ∀ {root : Root}, (∀ a ∈ l, a.validating = true) →
    (∀ f, ¬ Passes r root f → ∃ a ∈ l, a.field = f ∧ ∃ w, r f a.value = .ok w) → ∀ isNone force, validate isNone force r (after r l root) = [] := by
  induction l with
  | nil =>
    intro root _ h isNone force
    refine (C124_validate _ _ _ _).mpr (Or.inr fun f => ?_)
    refine Classical.byContradiction fun hf => ?_
    obtain ⟨a, ha, -⟩ := h f hf
    cases ha
  | cons a l ih =>
    intro root hl h
    refine ih (fun x hx => hl x (List.mem_cons_of_mem _ hx)) (fun f hf => ?_)
    have ha := hl a List.mem_cons_self
    have hf0 : ¬ Passes r root f := fun hp => hf (assign_passes hs hp (Or.inl ha))
    obtain ⟨x, hx, hxf, w, hw⟩ := h f hf0
    rcases List.mem_cons.mp hx with rfl | hx
    · refine absurd ⟨w, ?_⟩ hf
      subst hxf
      rw [assign, ha]
      simpa [hw, put] using hs _ _ _ hw
    · exact ⟨x, hx, hxf, w, hw⟩

/-- After any program of assignments a field holds the value of the last assignment to it that was not refused, as converted, and what it held at
first if there was none. -/
theorem C124_history {r : Rules} (f : Field) (l : List Asg) : ∀ {root : Root},
    ((∀ a ∈ l, a.field = f → a.validating = true ∧ ∃ e, r f a.value = .error e) ∧ after r l root f = root f) ∨
    ∃ pre a post, l = pre ++ a :: post ∧ a.field = f ∧
      (∀ x ∈ post, x.field = f → x.validating = true ∧ ∃ e, r f x.value = .error e) ∧
      (if a.validating then r f a.value = .ok (after r l root f) else after r l root f = a.value) := by
  induction l with
  | nil => intro root; exact Or.inl ⟨by simp, rfl⟩
  | cons a l ih =>
    intro root
    rcases ih (root := (assign a.validating r root a.field a.value).1) with ⟨h1, h2⟩ | ⟨pre, x, post, rfl, hx⟩
    · have hstep : after r (a :: l) root f = (assign a.validating r root a.field a.value).1 f := h2
      by_cases hf : a.field = f
      · cases hr : (assign a.validating r root a.field a.value).2 with
        | none =>
          right
          refine ⟨[], a, l, rfl, hf, h1, ?_⟩
          have := (C124_readback hr).1
          rw [hf] at this hstep
          rw [hstep]
          exact this
        | some e =>
          left
          have hne : (assign a.validating r root a.field a.value).2 ≠ none := by rw [hr]; simp
          refine ⟨fun x hx => ?_, ?_⟩
          · rcases List.mem_cons.mp hx with rfl | hx
            · intro _
              have := C124_refused.1.mp hne
              rwa [hf] at this
            · exact h1 x hx
          · rw [hstep, C124_refused.2 hne]
      · left
        refine ⟨fun x hx => ?_, ?_⟩
        · rcases List.mem_cons.mp hx with rfl | hx
          · exact fun h => absurd h hf
          · exact h1 x hx
        · rw [hstep]
          by_cases hr : (assign a.validating r root a.field a.value).2 = none
          · exact (C124_readback hr).2 f (fun h => hf h.symm)
          · rw [C124_refused.2 hr]
    · exact Or.inr ⟨a :: pre, x, post, rfl, hx⟩

/-! Examples and what is false. -/

/-- Rules like those of pydantic: a type is one of the nine, `ticks` is `None` or a number of 32 bits, which may be given as a text. -/
def someRules : Rules
  | .type, .text s => if s ∈ ["time", "inactivity", "full", "empty", "item_count", "fluid_count", "circuit", "passenger_present",
      "passenger_not_present"] then .ok (.text s) else .error .dataFormat
  | .compareType, .text s => if s = "and" ∨ s = "or" then .ok (.text s) else .error .dataFormat
  | .ticks, .none => .ok .none
  | .ticks, .num n => if 0 ≤ n ∧ n < 2 ^ 32 then .ok (.num n) else .error .dataFormat
  | .ticks, .text s => if s = "60" then .ok (.num 60) else .error .dataFormat
  | .condition, .none => .ok .none
  | .condition, .cond n => .ok (.cond n)
  | _, _ => .error .dataFormat

theorem someRules_stable : Stable someRules := by
  intro f v w h
  cases f <;> cases v <;> simp only [someRules] at h <;> (try split at h) <;> (try cases h) <;> simp_all [someRules]

/-- The arguments for a wait of the given type. -/
def argsOf (t : String) : Root
  | .type => .text t
  | .compareType => .text "or"
  | _ => .none

/-- The documentation of `ticks` says 30 seconds for the type `time`, but that is so only if the type is given to the constructor: changed to `time` later,
there are none, and `validate` does not mind. -/
theorem C124_ticks_refuted : ∃ a b, make false someRules (argsOf "time") = .ok a ∧ make false someRules (argsOf "full") = .ok b ∧
    a .ticks = .num 1800 ∧ after someRules [⟨true, .type, .text "time"⟩] b .type = .text "time" ∧
    after someRules [⟨true, .type, .text "time"⟩] b .ticks = .none ∧
    validate false true someRules (after someRules [⟨true, .type, .text "time"⟩] b) = [] := by
  refine ⟨_, _, rfl, rfl, ?_⟩
  decide

/-- Validation that finds nothing does not mean that the values are those of the format: one that was assigned without validation stays as it was
given, though validation would convert it. -/
theorem C124_converted_refuted : ∃ b, make false someRules (argsOf "full") = .ok b ∧
    validate false true someRules (after someRules [⟨false, .ticks, .text "60"⟩] b) = [] ∧
    after someRules [⟨false, .ticks, .text "60"⟩] b .ticks = .text "60" ∧
    after someRules [⟨true, .ticks, .text "60"⟩] b .ticks = .num 60 := by
  refine ⟨_, rfl, ?_⟩
  decide

/-- The defaults for rules like pydantic's. -/
example : someRules .ticks (.num 1800) = .ok (.num 1800) ∧ someRules .ticks (.num 300) = .ok (.num 300) ∧
    someRules .ticks .none = .ok .none ∧ someRules .condition (.cond 0) = .ok (.cond 0) ∧ someRules .condition .none = .ok .none ∧
    ∃ a b, make false someRules (argsOf "circuit") = .ok a ∧ make true someRules (argsOf "full") = .ok b ∧
      a .condition = .cond 0 ∧ b .condition = .none ∧ a .ticks = .none := by
  refine ⟨rfl, rfl, rfl, rfl, rfl, _, _, rfl, rfl, ?_⟩
  decide

/-- A wait condition that is made, spoilt without validation and repaired. -/
example : ∃ b, make false someRules (argsOf "inactivity") = .ok b ∧ (∀ f, Passes someRules b f) ∧ b .ticks = .num 300 ∧
    validate false false someRules (after someRules [⟨false, .ticks, .num (-1)⟩] b) = [.dataFormat] ∧
    validate true false someRules (after someRules [⟨false, .ticks, .num (-1)⟩] b) = [] ∧
    validate false false someRules (after someRules [⟨false, .ticks, .num (-1)⟩, ⟨true, .ticks, .num 5⟩] b) = [] := by
  refine ⟨_, rfl, (C124_make (isNone := false) (args := argsOf "inactivity") rfl).1 rfl, ?_⟩
  decide

/-- A type that does not exist is refused by the constructor, unless it is told not to validate. -/
example : make false someRules (argsOf "never") = .error .dataFormat ∧ (∃ b, make true someRules (argsOf "never") = .ok b ∧ b .type = .text "never") := by
  exact ⟨rfl, _, rfl, rfl⟩

/-- An assignment that is refused. -/
example : (assign true someRules (argsOf "full") .compareType (.text "xor")).2 ≠ none ∧
    (assign false someRules (argsOf "full") .compareType (.text "xor")).2 = none := by decide

end WaitAttr
end Draftsman
