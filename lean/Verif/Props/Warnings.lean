import Verif.Model.Warnings
/-
C97: the decorator `reissue_warnings` changes nothing but the line that warnings are attributed to.
-/
namespace Draftsman
namespace Warnings

variable {W : Type}

/-- The same program without decorators. -/
def Prog.plain : Prog W → Prog W
  | .ret v => .ret v
  | .throw e => .throw e
  | .warn w k => .warn w k.plain
  | .call _ f k => .call false f.plain fun v => (k v).plain
  | .attempt f h k => .attempt f.plain (fun e => (h e).plain) fun v => (k v).plain

/-- No decorated function that is called raises. -/
def Prog.Calm (act : W → Action) : Prog W → Prop
  | .ret _ => True
  | .throw _ => True
  | .warn _ k => k.Calm act
  | .call d f k => f.Calm act ∧ (d = true → ∃ v, (run act f).2 = .ok v) ∧ ∀ v, (run act f).2 = .ok v → (k v).Calm act
  | .attempt f h k => f.Calm act ∧ (∀ e, (run act f).2 = .error e → (h e).Calm act) ∧ ∀ v, (run act f).2 = .ok v → (k v).Calm act

/-- Only warnings that are to be reported are seen. -/
theorem run_reported (act : W → Action) (p : Prog W) : ∀ w ∈ (run act p).1, act w = .report := by
  have hre : ∀ v (l : List W), ∀ w ∈ (reissue act v l).1, act w = .report := by
    intro v l
    induction l with
    | nil => simp [reissue]
    | cons a r ih =>
      rw [reissue]
      cases ha : act a
      · intro w hw
        rcases List.mem_cons.1 hw with rfl | hw
        · exact ha
        · exact ih w hw
      · exact ih
      · simp
  induction p with
  | ret v => simp [run]
  | throw e => simp [run]
  | warn w k ih =>
    rw [run]
    cases ha : act w
    · intro x hx
      rcases List.mem_cons.1 hx with rfl | hx
      · exact ha
      · exact ih x hx
    · exact ih
    · simp
  | call d f k ihf ihk =>
    have hi : ∀ w ∈ (if d then inner act (run act f) else run act f).1, act w = .report := by
      cases d
      · exact ihf
      · rcases hr : run act f with ⟨l, _ | v⟩
        · simp [inner]
        · exact hre v l
    rw [run]
    generalize (if d then inner act (run act f) else run act f) = r at hi
    rcases r with ⟨l, _ | v⟩
    · exact hi
    · intro w hw
      rcases List.mem_append.1 hw with hw | hw
      · exact hi w hw
      · exact ihk v w hw
  | attempt f h k ihf ihh ihk =>
    rw [run]
    rcases hr : run act f with ⟨l, e | v⟩
    · rw [hr] at ihf
      intro w hw
      rcases List.mem_append.1 hw with hw | hw
      · exact ihf w hw
      · exact ihh e w hw
    · rw [hr] at ihf
      intro w hw
      rcases List.mem_append.1 hw with hw | hw
      · exact ihf w hw
      · exact ihk v w hw

theorem reissue_reported (act : W → Action) (v : Nat) (l : List W) (h : ∀ w ∈ l, act w = .report) : reissue act v l = (l, .ok v) := by
  induction l with
  | nil => rfl
  | cons a r ih =>
    rw [reissue, h a List.mem_cons_self]
    simp only
    rw [ih fun w hw => h w (List.mem_cons_of_mem _ hw)]

theorem inner_run (act : W → Action) (f : Prog W) :
    inner act (run act f) = match run act f with
      | (_, .error e) => ([], .error e)
      | (l, .ok v) => (l, .ok v) := by
  have h := run_reported act f
  rcases hr : run act f with ⟨l, e | v⟩
  · rfl
  · rw [hr] at h
    exact reissue_reported act v l h

/-- C97: whatever the filters say, a program ends the same way with and without decorators, and no warning is seen with them that is not seen, in this
order, without. -/
theorem C97_result (act : W → Action) (p : Prog W) : (run act p).2 = (run act p.plain).2 ∧ (run act p).1.Sublist (run act p.plain).1 := by
  induction p with
  | ret v => exact ⟨rfl, List.Sublist.refl _⟩
  | throw e => exact ⟨rfl, List.Sublist.refl _⟩
  | warn w k ih =>
    rw [run, Prog.plain, run]
    cases act w
    · exact ⟨ih.1, ih.2.cons_cons w⟩
    · exact ih
    · exact ⟨rfl, List.Sublist.refl _⟩
  | call d f k ihf ihk =>
    have hi : (if d then inner act (run act f) else run act f).2 = (run act f.plain).2 ∧ (if d then inner act (run act f) else run act f).1.Sublist (run act f.plain).1 := by
      cases d
      · exact ihf
      · rw [if_pos rfl, inner_run]
        rcases hr : run act f with ⟨l, e | v⟩
        · rw [hr] at ihf
          exact ⟨ihf.1, List.nil_sublist _⟩
        · rw [hr] at ihf
          exact ihf
    rw [run, Prog.plain, run]
    generalize (if d then inner act (run act f) else run act f) = r at hi
    rw [if_neg (by simp)]
    rcases r with ⟨l, e | v⟩ <;> rcases hp : run act f.plain with ⟨l', e' | v'⟩ <;> rw [hp] at hi <;> obtain ⟨h1, h2⟩ := hi <;> cases h1
    · exact ⟨rfl, h2⟩
    · exact ⟨(ihk v).1, h2.append (ihk v).2⟩
  | attempt f h k ihf ihh ihk =>
    rw [run, Prog.plain, run]
    rcases hr : run act f with ⟨l, e | v⟩ <;> rcases hp : run act f.plain with ⟨l', e' | v'⟩ <;> rw [hr, hp] at ihf <;> obtain ⟨h1, h2⟩ := ihf <;> cases h1
    · exact ⟨(ihh e).1, h2.append (ihh e).2⟩
    · exact ⟨(ihk v).1, h2.append (ihk v).2⟩

/-- C97: if no decorated function raises, exactly the warnings are seen that would be seen without decorators, in the same order.  Otherwise see
`C97_lost_refuted`. -/
theorem C97_warnings_partial (act : W → Action) (p : Prog W) (h : p.Calm act) : run act p = run act p.plain := by
  induction p with
  | ret v => rfl
  | throw e => rfl
  | warn w k ih => rw [run, Prog.plain, run, ih h]
  | call d f k ihf ihk =>
    obtain ⟨h1, h2, h3⟩ := h
    have hi : (if d then inner act (run act f) else run act f) = run act f.plain := by
      rw [← ihf h1]
      cases d
      · rfl
      · obtain ⟨v, hv⟩ := h2 rfl
        rw [if_pos rfl, inner_run]
        rcases hr : run act f with ⟨l, e | v⟩
        · rw [hr] at hv; cases hv
        · rfl
    rw [run, Prog.plain, run, hi, if_neg (by simp)]
    rcases hp : run act f.plain with ⟨l, e | v⟩
    · rfl
    · have := ihk v (h3 v (by rw [ihf h1, hp]))
      simp only [this]
  | attempt f hd k ihf ihh ihk =>
    obtain ⟨h1, h2, h3⟩ := h
    rw [run, Prog.plain, run, ihf h1]
    rcases hp : run act f.plain with ⟨l, e | v⟩
    · have := ihh e (h2 e (by rw [ihf h1, hp]))
      simp only [this]
    · have := ihk v (h3 v (by rw [ihf h1, hp]))
      simp only [this]

/-- C97: of a decorated function that raises no warning is seen, whatever it calls. -/
theorem C97_lost (act : W → Action) (f : Prog W) (k : Nat → Prog W) (e : Exc W) (h : (run act f).2 = .error e) :
    run act (.call true f k) = ([], .error e) := by
  rcases hr : run act f with ⟨l, e' | v⟩ <;> rw [hr] at h <;> cases h
  rw [run, if_pos rfl, hr]
  rfl

/-! ### Examples -/

/-- Two warnings, one of them in a decorated function inside a decorated one, and one more after an exception was caught. -/
def exProg : Prog Nat := .call true (.warn 1 (.call true (.warn 2 (.ret 5)) fun v => .ret (v + 1))) fun v => .attempt (.throw (.err .keyError)) (fun _ => .warn 3 (.ret v)) .ret

example : run (fun _ => .report) exProg = ([1, 2, 3], .ok 6) ∧ run (fun w => if w = 2 then .ignore else .report) exProg = ([1, 3], .ok 6) ∧
    run (fun w => if w = 2 then .raise else .report) exProg = ([], .error (.warning 2)) := ⟨rfl, rfl, rfl⟩
/-- C97_warnings_partial -/
example : exProg.Calm fun _ => .report := by
  refine ⟨⟨trivial, fun _ => ⟨5, rfl⟩, fun _ _ => trivial⟩, fun _ => ⟨6, rfl⟩, fun v _ => ⟨trivial, fun _ _ => trivial, fun _ _ => trivial⟩⟩
/-- C97_lost: a warning, then an exception. -/
example : run (fun _ => .report) (.call true (.warn 1 (.throw (.err .keyError))) .ret) = (([] : List Nat), .error (.err .keyError)) := rfl

/-- C97: the warnings of a decorated function that raises are lost: a function that warns and then fails shows its warning only
without the decorator.  So it is with `EntityList.extend` (`classes/entity_list.py:178-202`) if the first of the entities gives a warning and the second
has an id that is taken: the first stays in the list, and of its warning nothing is seen. -/
theorem C97_lost_refuted : ¬ ∀ p : Prog Nat, (run (fun _ => .report) p).1 = (run (fun _ => .report) p.plain).1 := by
  intro h
  exact absurd (h (.call true (.warn 1 (.throw (.err .indexError))) .ret)) (by decide)

end Warnings
end Draftsman
