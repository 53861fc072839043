import Verif.Model.Energy
import Verif.Proof.Py
import Verif.Proof.Round
/-
C12: energy strings.
-/
namespace Draftsman.Energy

/-! ### Specification -/

/-- The decimal value of a list of digits. -/
def digitsValue (ds : List (Fin 10)) : Nat := ds.foldl (fun acc d => acc * 10 + d.val) 0

/-- The text of a list of digits (leading zeros allowed). -/
def digitsText (ds : List (Fin 10)) : List Char := ds.map fun d => digitChar d.val

/-- SI prefixes and their powers of ten. -/
inductive Prefix where
  | none | k | K | M | G | T | P | E | Z | Y
  deriving DecidableEq, Repr

/-- The letter of a prefix. -/
def Prefix.text : Prefix → List Char
  | .none => [] | .k => ['k'] | .K => ['K'] | .M => ['M'] | .G => ['G'] | .T => ['T'] | .P => ['P']
  | .E => ['E'] | .Z => ['Z'] | .Y => ['Y']

/-- The exponent of a prefix. -/
def Prefix.exp : Prefix → Nat
  | .none => 0 | .k => 3 | .K => 3 | .M => 6 | .G => 9 | .T => 12 | .P => 15 | .E => 18 | .Z => 21 | .Y => 24

theorem pyDigits_text (ds : List (Fin 10)) (acc : Nat) :
    pyDigits acc (digitsText ds) = some (ds.foldl (fun acc d => acc * 10 + d.val) acc) := by
  induction ds generalizing acc with
  | nil => rfl
  | cons d ds ih =>
    rw [digitsText, List.map_cons, pyDigits_digit acc d.val d.isLt]
    exact ih _

theorem pyNat_text (d : Fin 10) (ds : List (Fin 10)) :
    pyNat (digitsText (d :: ds)) = some (digitsValue (d :: ds)) := by
  simp only [digitsText, List.map_cons, pyNat, digitVal_digitChar d.val d.isLt]
  have := pyDigits_text ds d.val
  simp only [digitsText] at this
  rw [this]
  simp [digitsValue]

theorem text_noSpace (ds : List (Fin 10)) : ∀ c ∈ digitsText ds, isSpace c = false := by
  intro c hc
  simp only [digitsText, List.mem_map] at hc
  obtain ⟨d, -, rfl⟩ := hc
  exact (digitChar_ne d.val).2.2.2.2

theorem pyInt_text (ds : List (Fin 10)) (h : ds ≠ []) : pyInt (digitsText ds) = .ok (digitsValue ds) := by
  unfold pyInt
  rw [pyStrip_eq_self (text_noSpace ds)]
  match ds, h with
  | d :: ds, _ =>
    have hne := digitChar_ne d.val
    have e := pyNat_text d ds
    simp only [digitsText, List.map_cons] at e ⊢
    split
    · rename_i heq; simp at heq; exact absurd heq.1 hne.2.2.1
    · rename_i heq; simp at heq; exact absurd heq.1 hne.2.2.2.1
    · simp only [e]

theorem digitChar_not_alpha (d : Fin 10) : isAlpha (digitChar d.val) = false := by
  revert d; decide

/-- C12: a decimal number with an optional SI prefix and `J` or `W` parses to the nearest integer (ties to
even) of number × prefix, divided by 60 for `W`. -/
theorem C12_parse (ds : List (Fin 10)) (hds : ds ≠ []) (p : Prefix) (watt : Bool) :
    ∃ r, parseEnergy (digitsText ds ++ p.text ++ [if watt then 'W' else 'J']) = .ok r ∧
      RoundsTo ((digitsValue ds : ℚ) * 10 ^ p.exp / (if watt then 60 else 1)) r := by
  refine ⟨pyRound ((digitsValue ds : ℚ) * 10 ^ p.exp / (if watt then 60 else 1)), ?_, pyRound_spec _⟩
  unfold parseEnergy
  rw [List.reverse_append, List.reverse_singleton, List.singleton_append]
  have hend : ¬ ((if watt then 'W' else 'J') ≠ 'J' ∧ (if watt then 'W' else 'J') ≠ 'W') := by
    cases watt <;> simp
  have hW : ((if watt then 'W' else 'J') = 'W') ↔ watt = true := by cases watt <;> simp
  simp only [hend, if_false, hW]
  obtain ⟨d, init, hd⟩ : ∃ d init, ds = init ++ [d] := by
    refine ⟨ds.getLast hds, ds.dropLast, ?_⟩
    rw [List.dropLast_append_getLast]
  have hi := pyInt_text ds hds
  have hrev : (digitsText ds).reverse.reverse = digitsText ds := List.reverse_reverse _
  cases p
  case none =>
    have hr : (digitsText ds ++ Prefix.text .none).reverse = digitChar d.val :: (digitsText init).reverse := by
      rw [hd]; simp [digitsText, Prefix.text]
    have hr' : (digitChar d.val :: (digitsText init).reverse).reverse = digitsText ds := by
      rw [← hr]; simp [Prefix.text]
    simp only [hr, digitChar_not_alpha, hr', hi, bind, Except.bind, Prefix.exp]
    cases watt <;> simp
    rfl
  all_goals
    simp only [Prefix.text, List.reverse_append, List.reverse_singleton, List.singleton_append, hrev, hi,
      show isAlpha 'k' = true from by decide, show isAlpha 'K' = true from by decide,
      show isAlpha 'M' = true from by decide, show isAlpha 'G' = true from by decide,
      show isAlpha 'T' = true from by decide, show isAlpha 'P' = true from by decide,
      show isAlpha 'E' = true from by decide, show isAlpha 'Z' = true from by decide,
      show isAlpha 'Y' = true from by decide,
      show energyChars.lookup 'k' = some (10^3) from by decide +kernel,
      show energyChars.lookup 'K' = some (10^3) from by decide +kernel,
      show energyChars.lookup 'M' = some (10^6) from by decide +kernel,
      show energyChars.lookup 'G' = some (10^9) from by decide +kernel,
      show energyChars.lookup 'T' = some (10^12) from by decide +kernel,
      show energyChars.lookup 'P' = some (10^15) from by decide +kernel,
      show energyChars.lookup 'E' = some (10^18) from by decide +kernel,
      show energyChars.lookup 'Z' = some (10^21) from by decide +kernel,
      show energyChars.lookup 'Y' = some (10^24) from by decide +kernel,
      if_true, bind, Except.bind, Prefix.exp]
    congr 2
    cases watt <;> simp
    all_goals ring

example : parseEnergy "0150kW".toList = .ok 2500 ∧ parseEnergy "7W".toList = .ok 0 ∧
    parseEnergy "12MJ".toList = .ok 12000000 := by decide +kernel

/-- C12: a string that does not end in `J` or `W` is rejected (`IndexError` for the empty string,
`ValueError` otherwise). -/
theorem C12_bad_unit (s : List Char) (h : s.getLast? ≠ some 'J') (h' : s.getLast? ≠ some 'W') :
    parseEnergy s = .error (if s = [] then .indexError else .valueError) := by
  unfold parseEnergy
  rcases List.eq_nil_or_concat s with rfl | ⟨t, c, rfl⟩
  · rfl
  · simp only [List.concat_eq_append, List.getLast?_append, List.getLast?_singleton, Option.some_or,
      ne_eq, Option.some.injEq] at h h'

    simp [h, h']

example : parseEnergy "10kX".toList = .error .valueError ∧ parseEnergy [] = .error .indexError := by
  decide +kernel

/-- C12: a letter before the unit that is not an SI prefix is rejected, whatever precedes it. -/
theorem C12_bad_prefix (t : List Char) (c : Char) (u : Char) (hu : u = 'J' ∨ u = 'W')
    (hletter : ('a' ≤ c ∧ c ≤ 'z') ∨ ('A' ≤ c ∧ c ≤ 'Z'))
    (hc : ∀ p : Prefix, p.text ≠ [c]) : parseEnergy (t ++ [c, u]) = .error .valueError := by
  have ha : isAlpha c = true := by simpa [isAlpha] using hletter
  have hl : energyChars.lookup c = none := by
    have h : c ≠ 'k' ∧ c ≠ 'K' ∧ c ≠ 'M' ∧ c ≠ 'G' ∧ c ≠ 'T' ∧ c ≠ 'P' ∧ c ≠ 'E' ∧ c ≠ 'Z' ∧ c ≠ 'Y' := by
      refine ⟨?_, ?_, ?_, ?_, ?_, ?_, ?_, ?_, ?_⟩ <;> rintro rfl
      · exact hc .k rfl
      · exact hc .K rfl
      · exact hc .M rfl
      · exact hc .G rfl
      · exact hc .T rfl
      · exact hc .P rfl
      · exact hc .E rfl
      · exact hc .Z rfl
      · exact hc .Y rfl
    have hb : ∀ d : Char, c ≠ d → (c == d) = false := by intro d h; simpa using h
    obtain ⟨a1, a2, a3, a4, a5, a6, a7, a8, a9⟩ := h
    simp only [energyChars, List.lookup, hb _ a1, hb _ a2, hb _ a3, hb _ a4, hb _ a5, hb _ a6, hb _ a7,
      hb _ a8, hb _ a9]
  unfold parseEnergy
  simp only [List.reverse_append, List.reverse_cons, List.reverse_nil, List.nil_append,
    List.cons_append, ha, hl, if_true]
  rcases hu with rfl | rfl <;> simp

example : parseEnergy "10mJ".toList = .error .valueError := by decide +kernel

theorem lookup_prefix (c : Char) (m : ℚ) (h : energyChars.lookup c = some m) : ∃ p : Prefix, p.text = [c] ∧ m = 10 ^ p.exp := by
  by_contra hn
  push Not at hn
  have hb : ∀ d : Char, c ≠ d → (c == d) = false := by intro d h; simpa using h
  have hc : ∀ (p : Prefix) (d : Char), p.text = [d] → energyChars.lookup d = some (10 ^ p.exp) → c ≠ d := by
    rintro p d hp hl rfl
    rw [hl, Option.some.injEq] at h
    exact hn p hp h.symm
  have a1 := hc .k 'k' rfl (by decide +kernel)
  have a2 := hc .K 'K' rfl (by decide +kernel)
  have a3 := hc .M 'M' rfl (by decide +kernel)
  have a4 := hc .G 'G' rfl (by decide +kernel)
  have a5 := hc .T 'T' rfl (by decide +kernel)
  have a6 := hc .P 'P' rfl (by decide +kernel)
  have a7 := hc .E 'E' rfl (by decide +kernel)
  have a8 := hc .Z 'Z' rfl (by decide +kernel)
  have a9 := hc .Y 'Y' rfl (by decide +kernel)
  simp [energyChars, List.lookup, hb _ a1, hb _ a2, hb _ a3, hb _ a4, hb _ a5, hb _ a6, hb _ a7, hb _ a8, hb _ a9] at h

/-- C12: nothing else is accepted: a string that parses is an integer as Python reads it, at most one SI prefix and a unit, and the result is
the nearest integer of that number. -/
theorem C12_only (s : List Char) (r : Int) (h : parseEnergy s = .ok r) :
    ∃ (t : List Char) (n : Int) (p : Prefix) (watt : Bool), s = t ++ p.text ++ [if watt then 'W' else 'J'] ∧ pyInt t = .ok n ∧
      RoundsTo ((n : ℚ) * 10 ^ p.exp / (if watt then 60 else 1)) r := by
  unfold parseEnergy at h
  rcases List.eq_nil_or_concat s with rfl | ⟨t, u, rfl⟩
  · simp at h
  rw [List.concat_eq_append, List.reverse_append, List.reverse_singleton, List.singleton_append] at h
  simp only at h
  split at h
  · simp at h
  rename_i hu
  have hu' : ∃ watt : Bool, u = (if watt then 'W' else 'J') ∧ (if u = 'W' then (1 / 60 : ℚ) else 1) = 1 / (if watt then 60 else 1) := by
    by_cases h1 : u = 'J'
    · exact ⟨false, by simp [h1], by simp [h1]⟩
    · have h2 : u = 'W' := by
        by_contra h2; exact hu ⟨h1, h2⟩
      exact ⟨true, by simp [h2], by simp [h2]⟩
  obtain ⟨watt, hw, hm⟩ := hu'
  rw [hm] at h
  have fin : ∀ (t' : List Char) (p : Prefix) (x : ℚ), t = t' ++ p.text → x = 1 / (if watt then 60 else 1) * 10 ^ p.exp →
      (pyInt t').bind (fun n => Except.ok (pyRound (n * x))) = .ok r →
      ∃ (t' : List Char) (n : Int) (p : Prefix) (watt : Bool), t.concat u = t' ++ p.text ++ [if watt then 'W' else 'J'] ∧ pyInt t' = .ok n ∧
        RoundsTo ((n : ℚ) * 10 ^ p.exp / (if watt then 60 else 1)) r := by
    intro t' p x ht hx hb
    cases hn : pyInt t' with
    | error e => simp [hn, Except.bind] at hb
    | ok n =>
      simp only [hn, Except.bind, Except.ok.injEq] at hb
      refine ⟨t', n, p, watt, by rw [ht, ← hw]; simp, hn, ?_⟩
      rw [← hb, hx, show (n : ℚ) * (1 / (if watt then 60 else 1) * 10 ^ p.exp) = n * 10 ^ p.exp / (if watt then 60 else 1) by ring]
      exact pyRound_spec _
  cases ht : t.reverse with
  | nil =>
    have : t = [] := by simpa using ht
    rw [ht] at h
    exact fin [] .none _ (by simp [this, Prefix.text]) (by simp [Prefix.exp]) h
  | cons c rest =>
    rw [ht] at h
    have htt : t = rest.reverse ++ [c] := by rw [← List.reverse_reverse t, ht]; simp
    simp only at h
    split at h
    · cases hl : energyChars.lookup c with
      | none => simp [hl] at h
      | some m =>
        obtain ⟨p, hp, hpm⟩ := lookup_prefix c m hl
        simp only [hl] at h
        exact fin rest.reverse p _ (by rw [htt, hp]) (by rw [hpm]) h
    · rw [List.reverse_cons, ← htt] at h
      exact fin t .none _ (by simp [Prefix.text]) (by simp [Prefix.exp]) h

example : parseEnergy " -3 kJ".toList = .ok (-3000) ∧ pyInt " -3 ".toList = .ok (-3) := by decide +kernel

end Draftsman.Energy
