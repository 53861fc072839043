import Verif.Model.Trains
import Mathlib.Logic.Relation
import Mathlib.Tactic.Linarith
import Mathlib.Tactic.Ring
import Mathlib.Tactic.Tauto
import Mathlib.Data.List.Nodup

namespace Draftsman

/-- The wagons not yet used. -/
def TState.fresh (all : List Wagon) (st : TState) : ℕ := (all.filter fun x => x ∉ st.used).length

theorem fresh_mono {all : List Wagon} {s t : TState} (h : ∀ x ∈ s.used, x ∈ t.used) : t.fresh all ≤ s.fresh all := by
  unfold TState.fresh
  apply List.Sublist.length_le
  apply List.monotone_filter_right
  intro x hx
  simp only [decide_eq_true_eq] at hx ⊢
  exact fun hh => hx (h x hh)

theorem fresh_lt {all : List Wagon} {s t : TState} {a : Wagon} (h : ∀ x ∈ s.used, x ∈ t.used) (ha : a ∈ all) (hs : a ∉ s.used)
    (ht : a ∈ t.used) : t.fresh all < s.fresh all := by
  unfold TState.fresh
  have hsub : ((all.filter fun x => x ∉ t.used)).Sublist (all.filter fun x => x ∉ s.used) := by
    apply List.monotone_filter_right
    intro x hx
    simp only [decide_eq_true_eq] at hx ⊢
    exact fun hh => hx (h x hh)
  rcases Nat.lt_or_ge (all.filter fun x => x ∉ t.used).length (all.filter fun x => x ∉ s.used).length with h1 | h1
  · exact h1
  · exfalso
    have := hsub.eq_of_length_le h1
    have h2 : a ∈ all.filter fun x => x ∉ s.used := by simp [ha, hs]
    rw [← this] at h2
    simp [ht] at h2

theorem fresh_le (all : List Wagon) (st : TState) : st.fresh all ≤ all.length := by
  unfold TState.fresh; exact List.length_filter_le ..

theorem foldl_inv {α σ : Type*} (P : σ → Prop) (f : σ → α → σ) : ∀ (l : List α) (s : σ), P s → (∀ s x, x ∈ l → P s → P (f s x)) →
    P (l.foldl f s)
  | [], _, h, _ => h
  | a :: l, s, h, hf => by
    simp only [List.foldl_cons]
    exact foldl_inv P f l _ (hf s a (by simp) h) fun s x hx => hf s x (by simp [hx])

theorem visit_mono {rec : Wagon → Bool → TState → TState} (hrec : ∀ w b st, ∀ x ∈ st.used, x ∈ (rec w b st).used) (w : Wagon) (bw : Bool)
    (st : TState) (a : Wagon) : ∀ x ∈ st.used, x ∈ (visit rec w bw st a).used := by
  intro x hx
  unfold visit
  split
  · exact hx
  · split
    · exact hx
    · have h1 : x ∈ (if w.front bw a then rec a (w.isBackwards bw a) { st with used := a :: st.used, train := a :: st.train }
          else st).used := by
        split
        · exact hrec _ _ _ _ (by simp [hx])
        · exact hx
      simp only
      split
      · exact hrec _ _ _ _ (by simp only [List.mem_cons]; exact Or.inr h1)
      · exact h1

theorem traverse_mono (all : List Wagon) : ∀ n w bw st, ∀ x ∈ st.used, x ∈ (traverse all n w bw st).used
  | 0, _, _, _, _, hx => hx
  | n + 1, w, bw, st, x, hx => by
    unfold traverse
    exact foldl_inv (fun s : TState => x ∈ s.used) _ (w.nearby all)
      { st with allBack := if w.loco && !bw then false else st.allBack } hx fun s a _ hs => visit_mono (traverse_mono all n) w bw s a x hs

theorem mem_nearby {all : List Wagon} {w x : Wagon} (h : x ∈ w.nearby all) : x ∈ all := by
  unfold Wagon.nearby at h; exact (List.mem_filter.1 h).1

theorem visit_congr {all : List Wagon} {n m : ℕ}
    (ih : ∀ w bw st, st.fresh all < n → st.fresh all < m → traverse all n w bw st = traverse all m w bw st)
    (w : Wagon) (bw : Bool) (st : TState) (a : Wagon) (ha : a ∈ all) (h1 : st.fresh all < n + 1) (h2 : st.fresh all < m + 1) :
    visit (traverse all n) w bw st a = visit (traverse all m) w bw st a := by
  unfold visit
  by_cases hu : a ∈ st.used
  · simp [hu]
  · simp only [hu, ↓reduceIte]
    split
    · rfl
    · have hlt : ∀ t : TState, (∀ x ∈ st.used, x ∈ t.used) → a ∈ t.used → t.fresh all < n ∧ t.fresh all < m := by
        intro t hm hat
        have := fresh_lt hm ha hu hat
        omega
      have e1 : (if w.front bw a then traverse all n a (w.isBackwards bw a) { st with used := a :: st.used, train := a :: st.train }
          else st) = (if w.front bw a then traverse all m a (w.isBackwards bw a)
            { st with used := a :: st.used, train := a :: st.train } else st) := by
        split
        · obtain ⟨p, q⟩ := hlt { st with used := a :: st.used, train := a :: st.train } (by intro x hx; simp [hx]) (by simp)
          exact ih _ _ _ p q
        · rfl
      simp only [e1]
      split
      · have hm : ∀ x ∈ st.used, x ∈ (if w.front bw a then traverse all m a (w.isBackwards bw a)
            { st with used := a :: st.used, train := a :: st.train } else st).used := by
          intro x hx
          split
          · exact traverse_mono _ _ _ _ _ _ (by simp [hx])
          · exact hx
        apply ih
        · exact (hlt _ (by intro x hx; simp only [List.mem_cons]; exact Or.inr (hm x hx)) (by simp)).1
        · exact (hlt _ (by intro x hx; simp only [List.mem_cons]; exact Or.inr (hm x hx)) (by simp)).2
      · rfl

theorem foldl_visit_congr {all : List Wagon} {n m : ℕ}
    (ih : ∀ w bw st, st.fresh all < n → st.fresh all < m → traverse all n w bw st = traverse all m w bw st)
    (w : Wagon) (bw : Bool) : ∀ (l : List Wagon) (st : TState), (∀ x ∈ l, x ∈ all) → st.fresh all < n + 1 → st.fresh all < m + 1 →
    l.foldl (visit (traverse all n) w bw) st = l.foldl (visit (traverse all m) w bw) st
  | [], _, _, _, _ => rfl
  | a :: l, st, hl, h1, h2 => by
    simp only [List.foldl_cons]
    have e := visit_congr ih w bw st a (hl a (by simp)) h1 h2
    have hle := fresh_mono (all := all) (visit_mono (traverse_mono all m) w bw st a)
    rw [e]
    exact foldl_visit_congr ih w bw l _ (fun x hx => hl x (by simp [hx])) (by omega) (by omega)

theorem traverse_stable (all : List Wagon) : ∀ n m w bw st, st.fresh all < n → st.fresh all < m →
    traverse all n w bw st = traverse all m w bw st
  | 0, _, _, _, _, h, _ => absurd h (by omega)
  | _ + 1, 0, _, _, _, _, h => absurd h (by omega)
  | n + 1, m + 1, w, bw, st, h1, h2 => by
    unfold traverse
    exact foldl_visit_congr (traverse_stable all n m) w bw _ _ (fun x hx => mem_nearby hx) h1 h2

/-! ### What a traversal adds -/

/-- `x` is a neighbour of `w` at either truck, as the loop decides it. -/
def Wagon.joined (w x : Wagon) : Bool := w.aligned x && (w.front false x || w.back false x)

theorem front_back (w : Wagon) (bw : Bool) (x : Wagon) : (w.front bw x || w.back bw x) = (w.front false x || w.back false x) := by
  cases bw
  · rfl
  · have e : ∀ m : ℚ, Wagon.toVec (w.forward true) m = Wagon.toVec (w.forward false) (-m) := by
      intro m; simp [Wagon.toVec, Wagon.forward]
    unfold Wagon.front Wagon.back
    rw [e, e, neg_neg, Bool.or_comm]

/-- Post-condition of a traversal from `w`. -/
structure Post (all : List Wagon) (w : Wagon) (st st' : TState) : Prop where
  mono : ∀ x ∈ st.used, x ∈ st'.used
  reach : ∀ x ∈ st'.used, x ∈ st.used ∨ Relation.ReflTransGen (fun a b => b ∈ a.nearby all ∧ a.joined b = true) w x
  closed : ∀ x ∈ st'.used, x ∉ st.used → ∀ y ∈ x.nearby all, x.joined y = true → y ∈ st'.used
  train : (∀ x, x ∈ st.train ↔ x ∈ st.used) → ∀ x, x ∈ st'.train ↔ x ∈ st'.used

theorem Post.refl (all : List Wagon) (w : Wagon) (st : TState) : Post all w st st :=
  ⟨fun _ h => h, fun _ h => Or.inl h, fun _ h h' => absurd h h', fun h => h⟩

theorem Post.trans {all : List Wagon} {w : Wagon} {a b c : TState} (h : Post all w a b) (h' : Post all w b c) : Post all w a c := by
  refine ⟨fun x hx => h'.mono x (h.mono x hx), ?_, ?_, fun ht => h'.train (h.train ht)⟩
  · intro x hx
    rcases h'.reach x hx with h1 | h1
    · exact h.reach x h1
    · exact Or.inr h1
  · intro x hx hn y hy hj
    by_cases hb : x ∈ b.used
    · exact h'.mono _ (h.closed x hb hn y hy hj)
    · exact h'.closed x hx hb y hy hj

/-- Recursing into a wagon just added. -/
theorem Post.enter {all : List Wagon} {w a : Wagon} {st t st' : TState} (ha : a ∈ w.nearby all) (hj : w.joined a = true)
    (hu : ∀ x, x ∈ t.used ↔ x = a ∨ x ∈ st.used) (ht : ∀ x, x ∈ t.train ↔ x = a ∨ x ∈ st.train)
    (h : Post all a t st') (hc : ∀ y ∈ a.nearby all, a.joined y = true → y ∈ st'.used) : Post all w st st' := by
  refine ⟨fun x hx => h.mono x ((hu x).2 (Or.inr hx)), ?_, ?_, ?_⟩
  · intro x hx
    rcases h.reach x hx with h1 | h1
    · rcases (hu x).1 h1 with rfl | h2
      · exact Or.inr (Relation.ReflTransGen.single ⟨ha, hj⟩)
      · exact Or.inl h2
    · exact Or.inr (Relation.ReflTransGen.head ⟨ha, hj⟩ h1)
  · intro x hx hn y hy hjy
    by_cases hxa : x = a
    · subst hxa; exact hc y hy hjy
    · exact h.closed x hx (by rw [hu]; tauto) y hy hjy
  · intro he
    apply h.train
    intro x
    rw [hu, ht, he]

theorem visit_post {all : List Wagon} {n : ℕ}
    (ih : ∀ w bw st, st.fresh all < n → Post all w st (traverse all n w bw st) ∧
      ∀ y ∈ w.nearby all, w.joined y = true → y ∈ (traverse all n w bw st).used)
    (w : Wagon) (bw : Bool) (st : TState) (a : Wagon) (ha : a ∈ w.nearby all) (h1 : st.fresh all < n + 1) :
    Post all w st (visit (traverse all n) w bw st a) ∧ (w.joined a = true → a ∈ (visit (traverse all n) w bw st a).used) := by
  by_cases hu : a ∈ st.used
  · have e : visit (traverse all n) w bw st a = st := by simp [visit, hu]
    rw [e]
    exact ⟨Post.refl .., fun _ => hu⟩
  by_cases hal : w.aligned a = true
  swap
  · have e : visit (traverse all n) w bw st a = st := by simp [visit, hu, hal]
    rw [e]
    refine ⟨Post.refl .., fun hj => ?_⟩
    simp [Wagon.joined, hal] at hj
  have hfb := front_back w bw a
  have hlt : ∀ t : TState, (∀ x ∈ st.used, x ∈ t.used) → a ∈ t.used → t.fresh all < n := by
    intro t hm hat
    have := fresh_lt hm (mem_nearby ha) hu hat
    omega
  have hjoin : (w.front bw a = true ∨ w.back bw a = true) → w.joined a = true := by
    intro h
    unfold Wagon.joined
    rw [hal, ← hfb]
    rcases h with h | h <;> simp [h]
  -- the state after the front check
  obtain ⟨t, ht⟩ : ∃ t, t = (if w.front bw a then traverse all n a (w.isBackwards bw a)
      { st with used := a :: st.used, train := a :: st.train } else st) := ⟨_, rfl⟩
  have hv : visit (traverse all n) w bw st a =
      if w.back bw a then traverse all n a (w.isBackwards bw a) { t with used := a :: t.used, train := t.train ++ [a] } else t := by
    unfold visit
    simp only [hu, hal, ↓reduceIte, Bool.not_true, Bool.false_eq_true]
    rw [← ht]
  have hpt : Post all w st t ∧ (w.front bw a = true → a ∈ t.used) := by
    rw [ht]
    by_cases hf : w.front bw a = true
    · simp only [hf, ↓reduceIte]
      have hi := ih a (w.isBackwards bw a) { st with used := a :: st.used, train := a :: st.train }
        (hlt _ (by intro x hx; simp [hx]) (by simp))
      exact ⟨Post.enter ha (hjoin (Or.inl hf)) (by intro x; simp) (by intro x; simp) hi.1 hi.2, fun _ => hi.1.mono a (by simp)⟩
    · simp only [hf, Bool.false_eq_true, ↓reduceIte]
      exact ⟨Post.refl .., fun h => absurd h (by simp)⟩
  rw [hv]
  by_cases hb : w.back bw a = true
  · simp only [hb, ↓reduceIte]
    have hi := ih a (w.isBackwards bw a) { t with used := a :: t.used, train := t.train ++ [a] }
      (hlt _ (by intro x hx; simp only [List.mem_cons]; exact Or.inr (hpt.1.mono x hx)) (by simp))
    refine ⟨hpt.1.trans (Post.enter ha (hjoin (Or.inr hb)) (by intro x; simp) (by intro x; simp [or_comm]) hi.1 hi.2), fun _ => ?_⟩
    exact hi.1.mono a (by simp)
  · simp only [hb, Bool.false_eq_true, ↓reduceIte]
    refine ⟨hpt.1, fun hj => ?_⟩
    unfold Wagon.joined at hj
    rw [← hfb] at hj
    simp [hb] at hj
    exact hpt.2 hj.2

theorem foldl_visit_post {all : List Wagon} {n : ℕ}
    (ih : ∀ w bw st, st.fresh all < n → Post all w st (traverse all n w bw st) ∧
      ∀ y ∈ w.nearby all, w.joined y = true → y ∈ (traverse all n w bw st).used)
    (w : Wagon) (bw : Bool) : ∀ (l : List Wagon) (st : TState), (∀ x ∈ l, x ∈ w.nearby all) → st.fresh all < n + 1 →
    Post all w st (l.foldl (visit (traverse all n) w bw) st) ∧
      ∀ y ∈ l, w.joined y = true → y ∈ (l.foldl (visit (traverse all n) w bw) st).used
  | [], st, _, _ => ⟨Post.refl .., by simp⟩
  | a :: l, st, hl, h1 => by
    simp only [List.foldl_cons]
    have hv := visit_post ih w bw st a (hl a (by simp)) h1
    have hle := fresh_mono (all := all) hv.1.mono
    have hr := foldl_visit_post ih w bw l _ (fun x hx => hl x (by simp [hx])) (by omega : (visit (traverse all n) w bw st a).fresh all < n + 1)
    refine ⟨hv.1.trans hr.1, ?_⟩
    intro y hy hj
    rcases List.mem_cons.1 hy with rfl | hy
    · exact hr.1.mono _ (hv.2 hj)
    · exact hr.2 y hy hj

theorem traverse_post (all : List Wagon) : ∀ n w bw st, st.fresh all < n → Post all w st (traverse all n w bw st) ∧
      ∀ y ∈ w.nearby all, w.joined y = true → y ∈ (traverse all n w bw st).used
  | 0, _, _, _, h => absurd h (by omega)
  | n + 1, w, bw, st, h => by
    unfold traverse
    have := foldl_visit_post (traverse_post all n) w bw (w.nearby all)
      { st with allBack := if w.loco && !bw then false else st.allBack } (fun _ h => h) h
    exact ⟨⟨this.1.mono, this.1.reach, this.1.closed, this.1.train⟩, this.2⟩

/-- With no wagon at both ends of another, nothing is listed twice. -/
theorem traverse_nodup (all : List Wagon)
    (hno : ∀ a ∈ all, ∀ b ∈ all, a.aligned b = true → ¬ (a.front false b = true ∧ a.back false b = true)) :
    ∀ n w bw st, w ∈ all → st.fresh all < n → (st.train.Nodup ∧ ∀ x, x ∈ st.train ↔ x ∈ st.used) →
      ((traverse all n w bw st).train.Nodup ∧ ∀ x, x ∈ (traverse all n w bw st).train ↔ x ∈ (traverse all n w bw st).used)
  | 0, _, _, _, _, h, _ => absurd h (by omega)
  | n + 1, w, bw, st, hw, h, hi => by
    unfold traverse
    have key := foldl_inv (fun s : TState => s.fresh all < n + 1 ∧ s.train.Nodup ∧ ∀ x, x ∈ s.train ↔ x ∈ s.used)
      (visit (traverse all n) w bw) (w.nearby all) { st with allBack := if w.loco && !bw then false else st.allBack } ⟨h, hi⟩ ?_
    · exact key.2
    intro s a ha ⟨h1, hs⟩
    have hle := fresh_mono (all := all) (visit_mono (traverse_mono all n) w bw s a)
    refine ⟨by omega, ?_⟩
    by_cases hu : a ∈ s.used
    · have e : visit (traverse all n) w bw s a = s := by simp [visit, hu]
      rw [e]; exact hs
    by_cases hal : w.aligned a = true
    swap
    · have e : visit (traverse all n) w bw s a = s := by simp [visit, hu, hal]
      rw [e]; exact hs
    have hnot : ¬ (w.front bw a = true ∧ w.back bw a = true) := by
      have h0 := hno w hw a (mem_nearby ha) hal
      cases bw
      · exact h0
      · intro hh
        apply h0
        have e : ∀ m : ℚ, Wagon.toVec (w.forward true) m = Wagon.toVec (w.forward false) (-m) := by
          intro m; simp [Wagon.toVec, Wagon.forward]
        unfold Wagon.front Wagon.back at *
        rw [e, e, neg_neg] at hh
        exact ⟨hh.2, hh.1⟩
    have hfr : ∀ tr bk, ({ used := a :: s.used, train := tr, allBack := bk } : TState).fresh all < n := by
      intro tr bk
      have := fresh_lt (t := { used := a :: s.used, train := tr, allBack := bk }) (s := s) (all := all) (a := a)
        (by intro x hx; simp [hx]) (mem_nearby ha) hu (by simp)
      omega
    have hat : a ∉ s.train := by rw [hs.2]; exact hu
    by_cases hf : w.front bw a = true
    · have hb : w.back bw a = false := by
        cases hh : w.back bw a
        · rfl
        · exact absurd ⟨hf, hh⟩ hnot
      have e : visit (traverse all n) w bw s a = traverse all n a (w.isBackwards bw a)
          { s with used := a :: s.used, train := a :: s.train } := by simp [visit, hu, hal, hf, hb]
      rw [e]
      apply traverse_nodup all hno n _ _ _ (mem_nearby ha) (hfr _ _)
      refine ⟨List.nodup_cons.2 ⟨hat, hs.1⟩, ?_⟩
      intro x; simp [hs.2]
    · by_cases hb : w.back bw a = true
      · have e : visit (traverse all n) w bw s a = traverse all n a (w.isBackwards bw a)
            { s with used := a :: s.used, train := s.train ++ [a] } := by simp [visit, hu, hal, hf, hb]
        rw [e]
        apply traverse_nodup all hno n _ _ _ (mem_nearby ha) (hfr _ _)
        refine ⟨?_, ?_⟩
        · show (s.train ++ [a]).Nodup
          rw [List.nodup_append]
          refine ⟨hs.1, by simp, ?_⟩
          intro x hx y hy
          simp only [List.mem_singleton] at hy
          subst hy
          rintro rfl
          exact hat hx
        · intro x; simp [hs.2, or_comm]
      · have e : visit (traverse all n) w bw s a = s := by simp [visit, hu, hal, hf, hb]
        rw [e]; exact hs

end Draftsman
