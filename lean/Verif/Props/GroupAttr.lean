import Verif.Model.GroupAttr
/-
C126: the attributes of groups.
-/
namespace Draftsman
namespace GroupAttr

/-- What the attribute is to read after `v` was assigned to it: the value itself, a new empty one for `None`, a position or list of schedules made from it. -/
inductive Reads (env : Env) : Attr → Val → Val → Prop
  | name (s : String) : Reads env .name (.text s) (.text s)
  | type (s : String) : Reads env .type (.text s) (.text s)
  | id (s : String) : Reads env .id (.text s) (.text s)
  | noId : Reads env .id .none .none
  | position (v w : Val) (h : env.toVec v = .ok w) : Reads env .position v w
  | mask (n : Nat) : Reads env .mask (.obj .set n) (.obj .set n)
  | noMask : Reads env .mask .none (.obj .set 0)
  | schedules (n : Nat) : Reads env .schedules (.obj .schedules n) (.obj .schedules n)
  | noSchedules : Reads env .schedules .none (.obj .schedules 1)
  | madeSchedules (v w : Val) (h0 : v ≠ .none) (h1 : ∀ n, v ≠ .obj .schedules n) (h : env.toScheds v = .ok w) : Reads env .schedules v w
  | wires (v : Val) (h : v ≠ .none) : Reads env .wires v v
  | noWires : Reads env .wires .none (.obj .list 2)

/-- An assignment raises nothing exactly if the value is one of those documented, the position is not that of a group inside another, and a new id is
not refused by the list that the group is in. -/
theorem C126_accepts (env : Env) (inside : Bool) (g : Grp) (a : Attr) (v : Val) :
    (assign env inside g a v).2 = none ↔ (∃ w, Reads env a v w) ∧ (a = .position → inside = false) ∧
      (a = .id → inside = true → env.rekey (g .id) v = none) := by
  constructor
  · intro h
    cases a with
    | name => cases v <;> first | exact ⟨⟨_, .name _⟩, by simp, by simp⟩ | cases h
    | type => cases v <;> first | exact ⟨⟨_, .type _⟩, by simp, by simp⟩ | cases h
    | id =>
      cases v with
      | none => exact ⟨⟨_, .noId⟩, by simp, fun _ hi => by simpa [assign, hi] using h⟩
      | text s => exact ⟨⟨_, .id s⟩, by simp, fun _ hi => by simpa [assign, hi] using h⟩
      | obj k n => cases h
    | position =>
      cases inside with
      | true => cases h
      | false =>
        simp only [assign] at h
        cases hv : env.toVec v with
        | ok w => exact ⟨⟨w, .position v w hv⟩, by simp, by simp⟩
        | error e => simp [hv] at h
    | mask =>
      cases v with
      | none => exact ⟨⟨_, .noMask⟩, by simp, by simp⟩
      | text s => cases h
      | obj k n => cases k <;> first | exact ⟨⟨_, .mask n⟩, by simp, by simp⟩ | cases h
    | schedules =>
      cases v with
      | none => exact ⟨⟨_, .noSchedules⟩, by simp, by simp⟩
      | text s =>
        simp only [assign] at h
        cases hv : env.toScheds (.text s) with
        | ok w => exact ⟨⟨w, .madeSchedules _ w (by simp) (by simp) hv⟩, by simp, by simp⟩
        | error e => simp [hv] at h
      | obj k n =>
        by_cases hk : k = .schedules
        · subst hk; exact ⟨⟨_, .schedules n⟩, by simp, by simp⟩
        · cases hv : env.toScheds (.obj k n) with
          | ok w => exact ⟨⟨w, .madeSchedules _ w (by simp) (by simp [hk]) hv⟩, by simp, by simp⟩
          | error e => cases k <;> first | exact absurd rfl hk | simp [assign, hv] at h
    | wires =>
      by_cases hv : v = .none
      · subst hv; exact ⟨⟨_, .noWires⟩, by simp, by simp⟩
      · exact ⟨⟨_, .wires v hv⟩, by simp, by simp⟩
    | readOnly => cases h
  · rintro ⟨⟨w, hw⟩, hp, hi⟩
    cases hw with
    | name s => rfl
    | type s => rfl
    | id s =>
      cases inside with
      | false => rfl
      | true => simpa [assign] using hi rfl rfl
    | noId =>
      cases inside with
      | false => rfl
      | true => simpa [assign] using hi rfl rfl
    | position v w h => simp [assign, hp rfl, h]
    | mask n => rfl
    | noMask => rfl
    | schedules n => rfl
    | noSchedules => rfl
    | madeSchedules v w h0 h1 h =>
      cases v with
      | none => exact absurd rfl h0
      | text s => simp [assign, h]
      | obj k n => cases k <;> first | exact absurd rfl (h1 n) | simp [assign, h]
    | wires v h => cases v <;> rfl
    | noWires => rfl

theorem put_self (g : Grp) (a : Attr) (v : Val) : put g a v a = some v := by simp [put]

theorem put_other (g : Grp) {a b : Attr} (h : b ≠ a) (v : Val) : put g a v b = g b := by simp [put, h]

/-- What an assignment leaves: nothing changes, or the one attribute reads what is documented. -/
theorem assign_cases (env : Env) (inside : Bool) (g : Grp) (a : Attr) (v : Val) :
    ((assign env inside g a v).2 ≠ none ∧ (assign env inside g a v).1 = g) ∨
    ∃ w, Reads env a v w ∧ (assign env inside g a v).1 = put g a w ∧ ((assign env inside g a v).2 = none ∨ a = .id ∧ inside = true) := by
  cases a with
  | name => cases v <;> first | exact Or.inr ⟨_, .name _, rfl, Or.inl rfl⟩ | exact Or.inl ⟨by simp [assign], rfl⟩
  | type => cases v <;> first | exact Or.inr ⟨_, .type _, rfl, Or.inl rfl⟩ | exact Or.inl ⟨by simp [assign], rfl⟩
  | id =>
    have hi : ∀ x : Option PyErr, (if inside then x else none) = none ∨ (Attr.id = .id ∧ inside = true) := by
      intro x
      cases inside
      · exact Or.inl rfl
      · exact Or.inr ⟨rfl, rfl⟩
    cases v with
    | none => exact Or.inr ⟨_, .noId, rfl, hi _⟩
    | text s => exact Or.inr ⟨_, .id s, rfl, hi _⟩
    | obj k n => exact Or.inl ⟨by simp [assign], rfl⟩
  | position =>
    cases inside with
    | true => exact Or.inl ⟨by simp [assign], rfl⟩
    | false =>
      cases hv : env.toVec v with
      | ok w => exact Or.inr ⟨w, .position v w hv, by simp [assign, hv], Or.inl (by simp [assign, hv])⟩
      | error e => exact Or.inl ⟨by simp [assign, hv], by simp [assign, hv]⟩
  | mask =>
    cases v with
    | none => exact Or.inr ⟨_, .noMask, rfl, Or.inl rfl⟩
    | text s => exact Or.inl ⟨by simp [assign], rfl⟩
    | obj k n => cases k <;> first | exact Or.inr ⟨_, .mask n, rfl, Or.inl rfl⟩ | exact Or.inl ⟨by simp [assign], rfl⟩
  | schedules =>
    cases v with
    | none => exact Or.inr ⟨_, .noSchedules, rfl, Or.inl rfl⟩
    | text s =>
      cases hv : env.toScheds (.text s) with
      | ok w => exact Or.inr ⟨w, .madeSchedules _ w (by simp) (by simp) hv, by simp [assign, hv], Or.inl (by simp [assign, hv])⟩
      | error e => exact Or.inl ⟨by simp [assign, hv], by simp [assign, hv]⟩
    | obj k n =>
      by_cases hk : k = .schedules
      · subst hk; exact Or.inr ⟨_, .schedules n, rfl, Or.inl rfl⟩
      · cases hv : env.toScheds (.obj k n) with
        | ok w =>
          refine Or.inr ⟨w, .madeSchedules _ w (by simp) (by simp [hk]) hv, ?_, Or.inl ?_⟩ <;>
            (cases k <;> first | exact absurd rfl hk | simp [assign, hv])
        | error e =>
          refine Or.inl ⟨?_, ?_⟩ <;> (cases k <;> first | exact absurd rfl hk | simp [assign, hv])
  | wires =>
    by_cases hv : v = .none
    · subst hv; exact Or.inr ⟨_, .noWires, rfl, Or.inl rfl⟩
    · exact Or.inr ⟨_, .wires v hv, by cases v <;> first | exact absurd rfl hv | rfl, Or.inl (by cases v <;> rfl)⟩
  | readOnly => exact Or.inl ⟨by simp [assign], rfl⟩

/-- An accepted value is read as documented, and no other attribute changes. -/
theorem C126_readback {env : Env} {inside : Bool} {g : Grp} {a : Attr} {v : Val} (h : (assign env inside g a v).2 = none) :
    (∃ w, Reads env a v w ∧ get (assign env inside g a v).1 a = .ok w) ∧
    ∀ b, b ≠ a → get (assign env inside g a v).1 b = get g b := by
  rcases assign_cases env inside g a v with ⟨h1, -⟩ | ⟨w, hw, he, -⟩
  · exact absurd h h1
  · rw [he]
    exact ⟨⟨w, hw, by rw [get, put_self]⟩, fun b hb => by rw [get, get, put_other g hb]⟩

/-- A refused value changes nothing, unless it is a new id for a group inside another. -/
theorem C126_refused_partial {env : Env} {inside : Bool} {g : Grp} {a : Attr} {v : Val} (h : (assign env inside g a v).2 ≠ none)
    (ha : a ≠ .id ∨ inside = false) : (assign env inside g a v).1 = g := by
  rcases assign_cases env inside g a v with ⟨-, h1⟩ | ⟨w, hw, he, h1 | ⟨h1, h2⟩⟩
  · exact h1
  · exact absurd h1 h
  · rcases ha with ha | ha
    · exact absurd h1 ha
    · rw [ha] at h2; cases h2

/-- What a refused assignment raises: a `TypeError` for values of the wrong type; a `DraftsmanError` for the position of a group inside another; what the making of the position
or of the list of schedules, or the list of the parent raises; an `AttributeError` for an attribute that cannot be assigned. -/
theorem C126_error {env : Env} {inside : Bool} {g : Grp} {a : Attr} {v : Val} {e : PyErr} (h : (assign env inside g a v).2 = some e) :
    (e = .typeError ∧ a ∈ [Attr.id, .name, .type, .mask] ∧ ∀ w, ¬ Reads env a v w) ∨ (e = .draftsmanError ∧ a = .position ∧ inside = true) ∨
    (a = .position ∧ inside = false ∧ env.toVec v = .error e) ∨ (a = .schedules ∧ (∀ n, v ≠ .obj .schedules n) ∧ v ≠ .none ∧ env.toScheds v = .error e) ∨
    (a = .id ∧ inside = true ∧ env.rekey (g .id) v = some e) ∨ (e = .attributeError ∧ a = .readOnly) := by
  cases a with
  | name => cases v <;> simp [assign] at h <;> exact Or.inl ⟨h.symm, by simp, fun w hw => by cases hw⟩
  | type => cases v <;> simp [assign] at h <;> exact Or.inl ⟨h.symm, by simp, fun w hw => by cases hw⟩
  | id =>
    cases v with
    | obj k n => simp [assign] at h; exact Or.inl ⟨h.symm, by simp, fun w hw => by cases hw⟩
    | none => simp [assign] at h; exact Or.inr (Or.inr (Or.inr (Or.inr (Or.inl ⟨rfl, h⟩))))
    | text s => simp [assign] at h; exact Or.inr (Or.inr (Or.inr (Or.inr (Or.inl ⟨rfl, h⟩))))
  | position =>
    cases inside with
    | true => simp [assign] at h; exact Or.inr (Or.inl ⟨h.symm, rfl, rfl⟩)
    | false =>
      cases hv : env.toVec v with
      | ok w => simp [assign, hv] at h
      | error e' => simp [assign, hv] at h; subst h; exact Or.inr (Or.inr (Or.inl ⟨rfl, rfl, rfl⟩))
  | mask =>
    cases v with
    | none => simp [assign] at h
    | text s => simp [assign] at h; exact Or.inl ⟨h.symm, by simp, fun w hw => by cases hw⟩
    | obj k n => cases k <;> simp [assign] at h <;> exact Or.inl ⟨h.symm, by simp, fun w hw => by cases hw⟩
  | schedules =>
    have key : ∀ u, (∀ n, u ≠ .obj .schedules n) → u ≠ .none → (assign env inside g .schedules u).2 = some e → env.toScheds u = .error e := by
      intro u h1 h2 h
      cases hu : env.toScheds u with
      | ok w =>
        cases u with
        | none => exact absurd rfl h2
        | text s => simp [assign, hu] at h
        | obj k n => cases k <;> first | exact absurd rfl (h1 n) | simp [assign, hu] at h
      | error e' =>
        cases u with
        | none => exact absurd rfl h2
        | text s => simp [assign, hu] at h; rw [h]
        | obj k n => cases k <;> first | exact absurd rfl (h1 n) | (simp [assign, hu] at h; rw [h])
    have h1 : ∀ n, v ≠ .obj .schedules n := by rintro n rfl; simp [assign] at h
    have h2 : v ≠ .none := by rintro rfl; simp [assign] at h
    exact Or.inr (Or.inr (Or.inr (Or.inl ⟨rfl, h1, h2, key v h1 h2 h⟩)))
  | wires => cases v <;> simp [assign] at h
  | readOnly => simp [assign] at h; exact Or.inr (Or.inr (Or.inr (Or.inr (Or.inr ⟨h.symm, rfl⟩))))

/-- The assignment takes effect on the attribute: the value is one of those documented, and no position of a group inside another. -/
def Effective (env : Env) (a : Attr) (x : Asg) : Prop := x.attr = a ∧ (∃ w, Reads env a x.value w) ∧ (a = .position → x.inside = false)

theorem assign_put {env : Env} {inside : Bool} {g : Grp} {a : Attr} {v w : Val} (hw : Reads env a v w) (hp : a = .position → inside = false) :
    (assign env inside g a v).1 = put g a w := by
  cases hw with
  | name s => rfl
  | type s => rfl
  | id s => rfl
  | noId => rfl
  | position v w h => simp [assign, hp rfl, h]
  | mask n => rfl
  | noMask => rfl
  | schedules n => rfl
  | noSchedules => rfl
  | madeSchedules v w h0 h1 h =>
    cases v with
    | none => exact absurd rfl h0
    | text s => simp [assign, h]
    | obj k n => cases k <;> first | exact absurd rfl (h1 n) | simp [assign, h]
  | wires v h => cases v <;> first | exact absurd rfl h | rfl
  | noWires => rfl

theorem assign_same {env : Env} {g : Grp} {a : Attr} {x : Asg} (h : ¬ Effective env a x) :
    (assign env x.inside g x.attr x.value).1 a = g a := by
  rcases assign_cases env x.inside g x.attr x.value with ⟨-, h1⟩ | ⟨w, hw, he, -⟩
  · rw [h1]
  · by_cases hx : x.attr = a
    · subst hx
      have hin : x.attr = .position ∧ x.inside = true := by
        refine Classical.byContradiction fun hn => h ⟨rfl, ⟨w, hw⟩, fun hp => ?_⟩
        cases hi : x.inside with
        | false => rfl
        | true => exact absurd ⟨hp, hi⟩ hn
      rw [hin.1, hin.2]
      rfl
    · rw [he, put_other g (fun h2 => hx h2.symm)]

/-- After any program of assignments an attribute reads what the last assignment that took effect on it makes it read, and what it read at first if there
was none. -/
theorem C126_history (env : Env) (a : Attr) (l : List Asg) : ∀ {g : Grp},
    ((∀ x ∈ l, ¬ Effective env a x) ∧ get (after env l g) a = get g a) ∨
    ∃ pre x post w, l = pre ++ x :: post ∧ x.attr = a ∧ Reads env a x.value w ∧ get (after env l g) a = .ok w ∧
      ∀ y ∈ post, ¬ Effective env a y := by
  induction l with
  | nil => intro g; exact Or.inl ⟨by simp, rfl⟩
  | cons x l ih =>
    intro g
    rcases ih (g := (assign env x.inside g x.attr x.value).1) with ⟨h1, h2⟩ | ⟨pre, y, post, w, rfl, h⟩
    · have hstep : get (after env (x :: l) g) a = get (assign env x.inside g x.attr x.value).1 a := h2
      by_cases hx : Effective env a x
      · obtain ⟨hxa, ⟨w, hw⟩, hp⟩ := hx
        refine Or.inr ⟨[], x, l, w, rfl, hxa, hw, ?_, h1⟩
        rw [hstep, hxa, assign_put hw hp, get, put_self]
      · refine Or.inl ⟨fun y hy => ?_, ?_⟩
        · rcases List.mem_cons.mp hy with rfl | hy
          · exact hx
          · exact h1 y hy
        · rw [hstep, get, get, assign_same hx]
    · exact Or.inr ⟨x :: pre, y, post, w, rfl, h⟩

/-- The attributes are of their kinds: texts, an id that is a text or `None`, a set. -/
def Typed (g : Grp) : Prop :=
  (∃ s, get g .name = .ok (.text s)) ∧ (∃ s, get g .type = .ok (.text s)) ∧ (get g .id = .ok .none ∨ ∃ s, get g .id = .ok (.text s)) ∧
  (∃ n, get g .mask = .ok (.obj .set n)) ∧ ∃ v, get g .schedules = .ok v

/-- A program of assignments leaves the attributes of their kinds, and lists of schedules that, if all that are made from other values are. -/
theorem C126_typed (env : Env) (l : List Asg) {g : Grp} (hg : Typed g) : Typed (after env l g) ∧
    ((∀ v w, env.toScheds v = .ok w → ∃ n, w = .obj .schedules n) → (∃ n, get g .schedules = .ok (.obj .schedules n)) →
      ∃ n, get (after env l g) .schedules = .ok (.obj .schedules n)) := by
  obtain ⟨h1, h2, h3, h4, h5⟩ := hg
  refine ⟨⟨?_, ?_, ?_, ?_, ?_⟩, fun hs h6 => ?_⟩
  · rcases C126_history env .name l (g := g) with ⟨-, h⟩ | ⟨_, _, _, w, -, -, hw, h, -⟩
    · rw [h]; exact h1
    · generalize hv : Asg.value _ = v at hw
      cases hw with
      | name s => exact ⟨s, h⟩
  · rcases C126_history env .type l (g := g) with ⟨-, h⟩ | ⟨_, _, _, w, -, -, hw, h, -⟩
    · rw [h]; exact h2
    · generalize hv : Asg.value _ = v at hw
      cases hw with
      | type s => exact ⟨s, h⟩
  · rcases C126_history env .id l (g := g) with ⟨-, h⟩ | ⟨_, _, _, w, -, -, hw, h, -⟩
    · rw [h]; exact h3
    · generalize hv : Asg.value _ = v at hw
      cases hw with
      | id s => exact Or.inr ⟨s, h⟩
      | noId => exact Or.inl h
  · rcases C126_history env .mask l (g := g) with ⟨-, h⟩ | ⟨_, _, _, w, -, -, hw, h, -⟩
    · rw [h]; exact h4
    · generalize hv : Asg.value _ = v at hw
      cases hw with
      | mask n => exact ⟨n, h⟩
      | noMask => exact ⟨0, h⟩
  · rcases C126_history env .schedules l (g := g) with ⟨-, h⟩ | ⟨_, _, _, w, -, -, hw, h, -⟩
    · rw [h]; exact h5
    · exact ⟨w, h⟩
  · rcases C126_history env .schedules l (g := g) with ⟨-, h⟩ | ⟨_, _, _, w, -, -, hw, h, -⟩
    · rw [h]; exact h6
    · generalize hv : Asg.value _ = v at hw
      cases hw with
      | schedules n => exact ⟨n, h⟩
      | noSchedules => exact ⟨1, h⟩
      | madeSchedules _ w _ _ h7 =>
        obtain ⟨n, rfl⟩ := hs _ _ h7
        exact ⟨n, h⟩

theorem step_ok {env : Env} {r : Except PyErr Grp} {a : Attr} {v : Val} {g : Grp} (h : step env r a v = .ok g) :
    ∃ g0 w, r = .ok g0 ∧ Reads env a v w ∧ g = put g0 a w := by
  cases r with
  | error e => cases h
  | ok g0 =>
    simp only [step] at h
    rcases assign_cases env false g0 a v with ⟨h1, -⟩ | ⟨w, hw, he, -⟩
    · rcases hx : assign env false g0 a v with ⟨g1, e⟩
      rw [hx] at h h1
      cases e with
      | none => exact absurd rfl h1
      | some e => cases h
    · rcases hx : assign env false g0 a v with ⟨g1, e⟩
      rw [hx] at h he
      cases e with
      | none => cases h; exact ⟨g0, w, rfl, hw, he⟩
      | some e => cases h

theorem step_reads {env : Env} {g0 : Grp} {a : Attr} {v w : Val} (hw : Reads env a v w) : step env (.ok g0) a v = .ok (put g0 a w) := by
  have h1 := assign_put (inside := false) (g := g0) hw (fun _ => rfl)
  have h2 := (C126_accepts env false g0 a v).mpr ⟨⟨w, hw⟩, fun _ => rfl, fun _ h => by cases h⟩
  rcases hx : assign env false g0 a v with ⟨g1, e⟩
  rw [hx] at h1 h2
  simp only [] at h1 h2
  rw [step, hx]
  subst h1 h2
  rfl

/-- A group that is made reads what it was made with: id, name, type, position, an empty mask, and, if it was not made from a string, the schedules and wires; made
from a string, those of the string. -/
theorem C126_construct {env : Env} {x : Args} {g : Grp} (h : construct env x = .ok g) :
    (∃ w, Reads env .id x.id w ∧ get g .id = .ok w) ∧ (∃ w, Reads env .name x.name w ∧ get g .name = .ok w) ∧
    (∃ w, Reads env .type x.type w ∧ get g .type = .ok w) ∧ (∃ w, Reads env .position x.position w ∧ get g .position = .ok w) ∧
    get g .mask = .ok (.obj .set 0) ∧
    (x.string = .none → (∃ w, env.toScheds x.schedules = .ok w ∧ get g .schedules = .ok w) ∧
      ∃ w, Reads env .wires x.wires w ∧ get g .wires = .ok w) ∧
    (x.string ≠ .none → ∃ s w, env.load x.string = .ok (s, w) ∧
      (∀ v, s = some v → ∃ u, env.toScheds v = .ok u ∧ get g .schedules = .ok u) ∧ (s = none → get g .schedules = .ok (.obj .schedules 1)) ∧
      ∀ v, w = some v → get g .wires = .ok v) ∧ Typed g := by
  simp only [construct] at h
  cases hm : env.mode x.mode with
  | error e => rw [hm] at h; cases h
  | ok u =>
    rw [hm] at h
    obtain ⟨g6, wp, h6, hwp, rfl⟩ := step_ok h
    cases h4 : step env (step env (step env (step env (.ok fun _ => none) .id x.id) .name x.name) .type x.type) .mask .none with
    | error e => rw [h4] at h6; cases h6
    | ok g4 =>
      rw [h4] at h6
      obtain ⟨g3, wm, h3, hwm, rfl⟩ := step_ok h4
      obtain ⟨g2, wt, h2, hwt, rfl⟩ := step_ok h3
      obtain ⟨g1, wn, h1, hwn, rfl⟩ := step_ok h2
      obtain ⟨g0, wi, h0, hwi, rfl⟩ := step_ok h1
      have hmask : wm = .obj .set 0 := by cases hwm; rfl
      subst hmask
      have hn : ∃ s, wn = .text s := by
        generalize x.name = v at hwn
        cases hwn with
        | name s => exact ⟨s, rfl⟩
      have ht : ∃ s, wt = .text s := by
        generalize x.type = v at hwt
        cases hwt with
        | type s => exact ⟨s, rfl⟩
      have hi : wi = .none ∨ ∃ s, wi = .text s := by
        generalize x.id = v at hwi
        cases hwi with
        | id s => exact Or.inr ⟨s, rfl⟩
        | noId => exact Or.inl rfl
      obtain ⟨sn, rfl⟩ := hn
      obtain ⟨st, rfl⟩ := ht
      simp only [] at h6
      by_cases hs : x.string = .none
      · rw [if_neg (by simp [hs])] at h6
        simp only [setup] at h6
        cases hsc : env.toScheds x.schedules with
        | error e => rw [hsc] at h6; cases h6
        | ok ws =>
          rw [hsc] at h6
          simp only [Except.ok.injEq] at h6
          subst h6
          refine ⟨⟨wi, hwi, by simp [get, put]⟩, ⟨_, hwn, by simp [get, put]⟩, ⟨_, hwt, by simp [get, put]⟩, ⟨wp, hwp, by simp [get, put]⟩,
            by simp [get, put], fun _ => ⟨⟨ws, rfl, by simp [get, put]⟩, ?_⟩, fun h => absurd hs h, ?_⟩
          · by_cases hw : x.wires = .none
            · exact ⟨.obj .list 2, by rw [hw]; exact .noWires, by simp [get, put, hw]⟩
            · exact ⟨x.wires, .wires _ hw, by simp [get, put, hw]⟩
          · refine ⟨⟨sn, by simp [get, put]⟩, ⟨st, by simp [get, put]⟩, ?_, ⟨0, by simp [get, put]⟩, ⟨ws, by simp [get, put]⟩⟩
            rcases hi with rfl | ⟨s, rfl⟩
            · exact Or.inl (by simp [get, put])
            · exact Or.inr ⟨s, by simp [get, put]⟩
      · rw [if_pos hs] at h6
        cases hl : env.load x.string with
        | error e => rw [hl] at h6; cases h6
        | ok p =>
          obtain ⟨s, w⟩ := p
          rw [hl] at h6
          simp only [setup] at h6
          have hex : ∃ ws, (∀ v, s = some v → env.toScheds v = .ok ws) ∧ (s = none → ws = .obj .schedules 1) ∧
              (match (generalizing := false) w with
                | some w => put (put (put (put (put (put g0 .id wi) .name (.text sn)) .type (.text st)) .mask (.obj .set 0)) .schedules ws) .wires w
                | none => put (put (put (put (put g0 .id wi) .name (.text sn)) .type (.text st)) .mask (.obj .set 0)) .schedules ws) = g6 := by
            cases s with
            | none =>
              simp only [Except.ok.injEq] at h6
              exact ⟨_, by simp, fun _ => rfl, h6⟩
            | some v =>
              simp only [] at h6
              cases hv : env.toScheds v with
              | error e => rw [hv] at h6; cases h6
              | ok ws =>
                rw [hv] at h6
                simp only [Except.ok.injEq] at h6
                exact ⟨ws, fun v' h => by cases h; exact hv, by simp, h6⟩
          obtain ⟨ws, hsc, hsn, h6⟩ := hex
          · skip
            have hg6 : ∀ a, a ≠ .schedules → a ≠ .wires → g6 a = put (put (put (put g0 .id wi) .name (.text sn)) .type (.text st)) .mask (.obj .set 0) a := by
              intro a ha hb
              subst h6
              cases w <;> simp [put, ha, hb]
            have hsg : g6 .schedules = some ws := by subst h6; cases w <;> simp [put]
            refine ⟨⟨wi, hwi, by simp [get, put_other, hg6, put]⟩, ⟨_, hwn, by simp [get, put_other, hg6, put]⟩, ⟨_, hwt, by simp [get, put_other, hg6, put]⟩,
              ⟨wp, hwp, by simp [get, put]⟩, by simp [get, put_other, hg6, put], fun h => absurd h hs, fun _ => ⟨s, w, rfl, ?_, ?_, ?_⟩, ?_⟩
            · rintro v rfl
              exact ⟨ws, hsc v rfl, by simp [get, put_other, hsg]⟩
            · rintro rfl
              simp [get, put_other, hsg, hsn rfl]
            · rintro v rfl
              subst h6
              simp [get, put]
            · refine ⟨⟨sn, by simp [get, put_other, hg6, put]⟩, ⟨st, by simp [get, put_other, hg6, put]⟩, ?_, ⟨0, by simp [get, put_other, hg6, put]⟩,
                ⟨ws, by simp [get, put_other, hsg]⟩⟩
              rcases hi with rfl | ⟨s, rfl⟩
              · exact Or.inl (by simp [get, put_other, hg6, put])
              · exact Or.inr ⟨s, by simp [get, put_other, hg6, put]⟩

/-- Making a group fails only for a reason: a mode that is none, an argument that is not of those documented, a string that cannot be loaded, or a list of
schedules that cannot be made. -/
theorem C126_made (env : Env) (x : Args) (hm : env.mode x.mode = .ok ()) (hi : ∃ w, Reads env .id x.id w) (hn : ∃ w, Reads env .name x.name w)
    (ht : ∃ w, Reads env .type x.type w) (hp : ∃ w, env.toVec x.position = .ok w)
    (hs : x.string = .none → ∃ w, env.toScheds x.schedules = .ok w)
    (hl : x.string ≠ .none → ∃ s w, env.load x.string = .ok (s, w) ∧ ∀ v, s = some v → ∃ u, env.toScheds v = .ok u) :
    ∃ g, construct env x = .ok g := by
  obtain ⟨wi, hi⟩ := hi
  obtain ⟨wn, hn⟩ := hn
  obtain ⟨wt, ht⟩ := ht
  obtain ⟨wp, hp⟩ := hp
  simp only [construct, hm]
  rw [step_reads hi, step_reads hn, step_reads ht, step_reads .noMask]
  simp only []
  by_cases h : x.string = .none
  · obtain ⟨ws, hs⟩ := hs h
    rw [if_neg (by simp [h])]
    simp only [setup, hs]
    exact ⟨_, step_reads (.position _ wp hp)⟩
  · obtain ⟨s, w, hl, hu⟩ := hl h
    rw [if_pos h, hl]
    cases s with
    | none => exact ⟨_, step_reads (.position _ wp hp)⟩
    | some v =>
      obtain ⟨u, hu⟩ := hu v rfl
      simp only [setup, hu]
      exact ⟨_, step_reads (.position _ wp hp)⟩

/-! What is false, and examples. -/

/-- An environment like the library: vectors are kept, lists become lists of schedules, the string `"0wires"` holds wires and the string `"0"` holds none, and the
list of the parent has the id `"taken"`. -/
def someEnv : Env where
  toVec
    | .obj .vector n => .ok (.obj .vector n)
    | .obj .list n => .ok (.obj .vector (n + 100))
    | _ => .error .typeError
  toScheds
    | .none => .ok (.obj .schedules 3)
    | .obj .list n => .ok (.obj .schedules (n + 100))
    | _ => .error .typeError
  mode
    | .text "strict" => .ok ()
    | .text "none" => .ok ()
    | _ => .error .valueError
  load
    | .text "0" => .ok (none, none)
    | .text "0wires" => .ok (some (.obj .list 7), some (.obj .list 8))
    | _ => .error .malformedBlueprintString
  rekey _ v := if v = .text "taken" then some .duplicateId else none

/-- A group that is made from a string in which there are no wires has no wires: reading the attribute fails. -/
theorem C126_wires_refuted : ∃ g, construct someEnv { position := .obj .vector 5, schedules := .obj .list 6, string := .text "0" } = .ok g ∧
    get g .wires = .error .attributeError ∧ get g .name = .ok (.text "group") := by
  exact ⟨_, rfl, rfl, rfl⟩

/-- The constructor is documented to take a list of schedules of the library's own class, which is no `list`: it refuses it, though the attribute takes it. -/
theorem C126_schedules_refuted (n : Nat) :
    construct someEnv { position := .obj .vector 5, schedules := .obj .schedules n } = .error .typeError ∧
    ∀ g, (assign someEnv false g .schedules (.obj .schedules n)).2 = none :=
  ⟨rfl, fun _ => rfl⟩

/-- An id that the list of the parent refuses is kept all the same. -/
theorem C126_id_refuted (g : Grp) : (assign someEnv true g .id (.text "taken")).2 = some .duplicateId ∧
    get (assign someEnv true g .id (.text "taken")).1 .id = .ok (.text "taken") := ⟨rfl, rfl⟩

/-- A group made, renamed and refused. -/
example : ∃ g, construct someEnv { position := .obj .list 5, schedules := .obj .list 6, id := .text "a" } = .ok g ∧ Typed g ∧
    get g .position = .ok (.obj .vector 105) ∧ get g .wires = .ok (.obj .list 2) ∧
    get (after someEnv [⟨false, .name, .text "x"⟩, ⟨true, .name, .none⟩, ⟨true, .position, .obj .vector 1⟩, ⟨false, .mask, .obj .set 9⟩] g) .name = .ok (.text "x") ∧
    get (after someEnv [⟨false, .name, .text "x"⟩, ⟨true, .name, .none⟩, ⟨true, .position, .obj .vector 1⟩, ⟨false, .mask, .obj .set 9⟩] g) .position =
      .ok (.obj .vector 105) := by
  exact ⟨_, rfl, (C126_construct (env := someEnv) (x := { position := .obj .list 5, schedules := .obj .list 6, id := .text "a" }) rfl).2.2.2.2.2.2.2, rfl, rfl, rfl, rfl⟩

/-- A value that is refused, and one of each kind that is not. -/
example : (assign someEnv false (fun _ => none) .mask (.obj .list 1)).2 = some .typeError ∧
    (assign someEnv false (fun _ => none) .mask .none).2 = none ∧ (assign someEnv true (fun _ => none) .position (.obj .vector 1)).2 = some .draftsmanError ∧
    (assign someEnv false (fun _ => none) .readOnly .none).2 = some .attributeError := ⟨rfl, rfl, rfl, rfl⟩

/-- The lists made from other values are lists of schedules. -/
example : ∀ v w, someEnv.toScheds v = .ok w → ∃ n, w = .obj .schedules n := by
  intro v w h
  cases v with
  | none => cases h; exact ⟨_, rfl⟩
  | text s => cases h
  | obj k n => cases k <;> first | (cases h; exact ⟨_, rfl⟩) | cases h

/-- A group from a string with schedules and wires. -/
example : ∃ g, construct someEnv { position := .obj .vector 5, schedules := .obj .list 6, string := .text "0wires" } = .ok g ∧
    get g .wires = .ok (.obj .list 8) ∧ get g .schedules = .ok (.obj .schedules 107) := ⟨_, rfl, rfl, rfl⟩

end GroupAttr
end Draftsman
