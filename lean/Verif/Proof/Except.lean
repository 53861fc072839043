import Verif.Model.Py
import Mathlib.Data.List.Forall2
/-
`List.mapM` in the exception monad.
-/
namespace Draftsman

theorem mapM_ok_iff {α β : Type} (f : α → Except PyErr β) (l : List α) (r : List β) :
    l.mapM f = .ok r ↔ List.Forall₂ (fun a b => f a = .ok b) l r := by
  induction l generalizing r with
  | nil =>
    simp only [List.mapM_nil, pure, Except.pure, Except.ok.injEq, List.forall₂_nil_left_iff]
    exact eq_comm
  | cons a t ih =>
    rw [List.mapM_cons]
    cases hf : f a with
    | error e =>
      simp only [bind, Except.bind]
      constructor
      · intro h; simp at h
      · intro h
        cases h with
        | cons h _ => rw [hf] at h; simp at h
    | ok b =>
      cases ht : t.mapM f with
      | error e =>
        simp only [bind, Except.bind]
        constructor
        · intro h; simp at h
        · intro h
          cases h with
          | cons _ h => rw [(ih _).2 h] at ht; simp at ht
      | ok s =>
        simp only [bind, Except.bind, pure, Except.pure, Except.ok.injEq]
        constructor
        · rintro rfl
          exact .cons hf ((ih _).1 ht)
        · intro h
          cases h with
          | cons h1 h2 =>
            rw [hf] at h1
            rw [(ih _).2 h2] at ht
            simp only [Except.ok.injEq] at h1 ht
            rw [h1, ht]

theorem mapM_ok_map {α β : Type} (f : α → Except PyErr β) (g : α → β) (l : List α) (h : ∀ a ∈ l, f a = .ok (g a)) :
    l.mapM f = .ok (l.map g) := by
  rw [mapM_ok_iff]
  induction l with
  | nil => exact .nil
  | cons a t ih => exact .cons (h a List.mem_cons_self) (ih fun x hx => h x (List.mem_cons_of_mem _ hx))

theorem mapM_error_mem {α β : Type} {f : α → Except PyErr β} {e : PyErr} : ∀ {l : List α}, l.mapM f = .error e → ∃ a ∈ l, f a = .error e
  | [], h => by simp [pure, Except.pure] at h
  | a :: l, h => by
    rw [List.mapM_cons] at h
    cases ha : f a with
    | error x =>
      simp only [ha, bind, Except.bind, Except.error.injEq] at h
      exact ⟨a, by simp, by rw [ha, h]⟩
    | ok b =>
      cases hl : l.mapM f with
      | error x =>
        simp only [ha, hl, bind, Except.bind, Except.error.injEq] at h
        obtain ⟨c, hc, hx⟩ := mapM_error_mem hl
        exact ⟨c, by simp [hc], by rw [hx, h]⟩
      | ok r => simp [ha, hl, bind, Except.bind, pure, Except.pure] at h

theorem mapM_error_iff {α β : Type} (f : α → Except PyErr β) (l : List α) :
    (∃ e, l.mapM f = .error e) ↔ ∃ a ∈ l, ∃ e, f a = .error e := by
  induction l with
  | nil => simp [pure, Except.pure]
  | cons a t ih =>
    rw [List.mapM_cons]
    cases hf : f a with
    | error e => simp [bind, Except.bind, hf]
    | ok b =>
      cases ht : t.mapM f with
      | error e =>
        rw [ht] at ih
        simp only [bind, Except.bind]
        obtain ⟨x, hx, hx'⟩ := ih.1 ⟨e, rfl⟩
        exact ⟨fun _ => ⟨x, List.mem_cons_of_mem _ hx, hx'⟩, fun _ => ⟨e, rfl⟩⟩
      | ok s =>
        rw [ht] at ih
        simp only [bind, Except.bind, pure, Except.pure]
        constructor
        · rintro ⟨e, he⟩; simp at he
        · rintro ⟨x, hx, e, he⟩
          rcases List.mem_cons.1 hx with rfl | hx
          · rw [hf] at he; simp at he
          · obtain ⟨e', he'⟩ := ih.2 ⟨x, hx, e, he⟩
            simp at he'

end Draftsman
