import Verif.Model.Py
namespace Draftsman

theorem digitVal_digitChar (n : Nat) (h : n < 10) : digitVal? (digitChar n) = some n := by
  match n, h with
  | 0, _ | 1, _ | 2, _ | 3, _ | 4, _ | 5, _ | 6, _ | 7, _ | 8, _ | 9, _ => decide

theorem digitChar_ne (n : Nat) : digitChar n ≠ '_' ∧ digitChar n ≠ '.' ∧ digitChar n ≠ '-' ∧
    digitChar n ≠ '+' ∧ isSpace (digitChar n) = false := by
  match n with
  | 0 | 1 | 2 | 3 | 4 | 5 | 6 | 7 | 8 => decide
  | n+9 => simp [digitChar, isSpace]

/-- the digit strings produced by `natStr` -/
def AllDigits (s : List Char) : Prop := ∀ c ∈ s, ∃ n, n < 10 ∧ c = digitChar n

theorem natStr_allDigits (n : Nat) : AllDigits (natStr n) := by
  fun_induction natStr n with
  | case1 n h => intro c hc; simp at hc; exact ⟨n, h, hc⟩
  | case2 n h ih =>
    intro c hc
    simp at hc
    rcases hc with hc | hc
    · exact ih c hc
    · exact ⟨n % 10, by omega, hc⟩

theorem natStr_ne_nil (n : Nat) : natStr n ≠ [] := by
  unfold natStr; split <;> simp

theorem pyDigits_digit (acc d : Nat) (hd : d < 10) (cs : List Char) :
    pyDigits acc (digitChar d :: cs) = pyDigits (acc * 10 + d) cs := by
  have h := digitChar_ne d
  rw [pyDigits]
  · rw [digitVal_digitChar d hd]
  · intro c cs' he _; exact h.1 he

theorem pyDigits_append (acc : Nat) (s : List Char) (hs : AllDigits s) (d : Nat) (hd : d < 10) :
    pyDigits acc (s ++ [digitChar d]) = (pyDigits acc s).map (· * 10 + d) := by
  induction s generalizing acc with
  | nil => simp [pyDigits_digit acc d hd, pyDigits]
  | cons c cs ih =>
    obtain ⟨n, hn, rfl⟩ := hs c (by simp)
    rw [List.cons_append, pyDigits_digit _ _ hn, pyDigits_digit _ _ hn]
    exact ih _ (fun c hc => hs c (by simp [hc]))

theorem pyNat_append (s : List Char) (hs : AllDigits s) (hne : s ≠ []) (d : Nat) (hd : d < 10) :
    pyNat (s ++ [digitChar d]) = (pyNat s).map (· * 10 + d) := by
  match s, hne with
  | c :: cs, _ =>
    obtain ⟨n, hn, rfl⟩ := hs c (by simp)
    simp only [List.cons_append, pyNat, digitVal_digitChar n hn]
    exact pyDigits_append _ _ (fun c hc => hs c (by simp [hc])) d hd

theorem pyNat_natStr (n : Nat) : pyNat (natStr n) = some n := by
  fun_induction natStr n with
  | case1 n h => simp [pyNat, digitVal_digitChar n h, pyDigits]
  | case2 n h ih =>
    rw [pyNat_append _ (natStr_allDigits _) (natStr_ne_nil _) _ (by omega), ih]
    simp; omega

theorem dropWhile_eq_self_of_all {p : Char → Bool} {s : List Char} (h : ∀ c ∈ s, p c = false) :
    s.dropWhile p = s := by
  cases s with
  | nil => rfl
  | cons c cs => simp [List.dropWhile, h c (by simp)]

theorem pyStrip_eq_self {s : List Char} (h : ∀ c ∈ s, isSpace c = false) : pyStrip s = s := by
  unfold pyStrip
  rw [dropWhile_eq_self_of_all h, dropWhile_eq_self_of_all (by simpa using h), List.reverse_reverse]

theorem natStr_noSpace (n : Nat) : ∀ c ∈ natStr n, isSpace c = false := by
  intro c hc
  obtain ⟨m, _, rfl⟩ := natStr_allDigits n c hc
  exact (digitChar_ne m).2.2.2.2

theorem intStr_noSpace (i : Int) : ∀ c ∈ intStr i, isSpace c = false := by
  intro c hc
  cases i with
  | ofNat n => exact natStr_noSpace n c hc
  | negSucc n =>
    simp [intStr] at hc
    rcases hc with rfl | hc
    · decide
    · exact natStr_noSpace _ c hc

theorem natStr_noDot (n : Nat) : '.' ∉ natStr n := by
  intro hc
  obtain ⟨m, _, h⟩ := natStr_allDigits n _ hc
  exact (digitChar_ne m).2.1 h.symm

theorem intStr_noDot (i : Int) : '.' ∉ intStr i := by
  intro hc
  cases i with
  | ofNat n => exact natStr_noDot n hc
  | negSucc n =>
    simp [intStr] at hc
    exact natStr_noDot _ hc

theorem pyInt_intStr (i : Int) : pyInt (intStr i) = .ok i := by
  unfold pyInt
  rw [pyStrip_eq_self (intStr_noSpace i)]
  cases i with
  | negSucc n => simp [intStr, pyNat_natStr]; omega
  | ofNat n =>
    simp only [intStr]
    have hd := natStr_allDigits n
    have hp := pyNat_natStr n
    cases hs : natStr n with
    | nil => exact absurd hs (natStr_ne_nil n)
    | cons c cs =>
      rw [hs] at hd hp
      obtain ⟨m, _, rfl⟩ := hd c (by simp)
      have h := digitChar_ne m
      split
      · rename_i he; simp at he; exact absurd he.1 h.2.2.1
      · rename_i he; simp at he; exact absurd he.1 h.2.2.2.1
      · rw [hp]; rfl

theorem pySplit_ne_nil (sep : Char) (s : List Char) : pySplit sep s ≠ [] := by
  cases s with
  | nil => simp [pySplit]
  | cons c cs => simp only [pySplit]; split; simp; split <;> simp

theorem pySplit_noSep (sep : Char) (s : List Char) (h : sep ∉ s) : pySplit sep s = [s] := by
  induction s with
  | nil => rfl
  | cons c cs ih =>
    simp at h
    simp [pySplit, ih h.2, Ne.symm h.1]

theorem pySplit_append (sep : Char) (p rest : List Char) (h : sep ∉ p) :
    pySplit sep (p ++ sep :: rest) = p :: pySplit sep rest := by
  induction p with
  | nil => simp [pySplit]
  | cons c cs ih =>
    simp at h
    simp [pySplit, ih h.2, Ne.symm h.1]

theorem pySplit_pyJoin (sep : Char) (ps : List (List Char)) (hne : ps ≠ [])
    (h : ∀ p ∈ ps, sep ∉ p) : pySplit sep (pyJoin sep ps) = ps := by
  match ps, hne with
  | [p], _ => simpa [pyJoin] using pySplit_noSep sep p (h p (by simp))
  | p :: q :: ps, _ =>
    rw [pyJoin, pySplit_append _ _ _ (h p (by simp)),
      pySplit_pyJoin sep (q :: ps) (by simp) (fun r hr => h r (by simp [hr]))]

end Draftsman
