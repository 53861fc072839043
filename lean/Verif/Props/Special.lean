import Verif.Model.Special
import Mathlib.Tactic.Ring
import Mathlib.Tactic.Linarith
import Mathlib.Tactic.Positivity
/-
C87: setting one link, one infinity filter or adding one section changes that one only, and interfaces come back as they were exported.
-/
namespace Draftsman
namespace Special

/-! ### Linked containers -/

/-- Bit `i` of an integer in two's complement: the parity of `⌊v / 2^i⌋`. -/
def bitOf (v : Int) (i : Nat) : Prop := v / 2 ^ i % 2 = 1

theorem testBit_iff (v : Int) (i : Nat) : Int.testBit v i = true ↔ bitOf v i := by
  induction i generalizing v with
  | zero =>
    rw [← Int.bit_decomp v, Int.testBit_bit_zero, Int.bit_val]
    simp only [bitOf, pow_zero, Int.ediv_one]
    cases Int.bodd v <;> simp
  | succ i ih =>
    rw [← Int.bit_decomp v, Int.testBit_bit_succ, ih, Int.bit_val]
    have : (2 * Int.div2 v + (bif Int.bodd v then 1 else 0)) / 2 ^ (i + 1) = Int.div2 v / 2 ^ i := by
      rw [pow_succ', ← Int.ediv_ediv_of_nonneg (by decide)]
      congr 1
      cases Int.bodd v <;> simp
      omega
    simp only [bitOf, this]

theorem testBit_two_pow (n i : Nat) : Int.testBit (2 ^ n) i = decide (n = i) := by
  have : ((2 : Int) ^ n) = ((2 ^ n : Nat) : Int) := by push_cast; rfl
  rw [this]
  show Nat.testBit (2 ^ n) i = _
  exact Nat.testBit_two_pow

theorem testBit_mask (i : Nat) : Int.testBit 0xFFFFFFFF i = decide (i < 32) := by
  show Nat.testBit (2 ^ 32 - 1) i = _
  exact Nat.testBit_two_pow_sub_one 32 i

/-- Two integers with the same bits are the same. -/
theorem testBit_ext : ∀ {v w : Int}, (∀ i, Int.testBit v i = Int.testBit w i) → v = w
  | .ofNat a, .ofNat b, h => by
    congr 1
    exact Nat.eq_of_testBit_eq h
  | .negSucc a, .negSucc b, h => by
    congr 1
    refine Nat.eq_of_testBit_eq fun i => ?_
    have := h i
    simpa [Int.testBit] using this
  | .ofNat a, .negSucc b, h => by
    exfalso
    have := h (a + b)
    simp only [Int.testBit] at this
    rw [Nat.testBit_lt_two_pow (lt_of_le_of_lt (Nat.le_add_right a b) Nat.lt_two_pow_self),
      Nat.testBit_lt_two_pow (lt_of_le_of_lt (Nat.le_add_left b a) Nat.lt_two_pow_self)] at this
    simp at this
  | .negSucc a, .ofNat b, h => by
    exfalso
    have := h (a + b)
    simp only [Int.testBit] at this
    rw [Nat.testBit_lt_two_pow (lt_of_le_of_lt (Nat.le_add_right a b) Nat.lt_two_pow_self),
      Nat.testBit_lt_two_pow (lt_of_le_of_lt (Nat.le_add_left b a) Nat.lt_two_pow_self)] at this
    simp at this

theorem land_mask (n : Int) : Int.land n 0xFFFFFFFF = n % 2 ^ 32 := by
  refine testBit_ext fun i => ?_
  rw [Int.testBit_land, testBit_mask]
  rw [Bool.eq_iff_iff, Bool.and_eq_true, decide_eq_true_iff, testBit_iff, testBit_iff]
  have hr0 : 0 ≤ n % 2 ^ 32 := Int.emod_nonneg _ (by decide)
  have hr1 : n % 2 ^ 32 < 2 ^ 32 := Int.emod_lt_of_pos _ (by decide)
  by_cases hi : i < 32
  · have key : n / 2 ^ i = n % 2 ^ 32 / 2 ^ i + 2 ^ (31 - i) * 2 * (n / 2 ^ 32) := by
      conv_lhs => rw [← Int.emod_add_mul_ediv n (2 ^ 32)]
      have : (2 : Int) ^ 32 = 2 ^ i * (2 ^ (31 - i) * 2) := by
        rw [← pow_succ, ← pow_add]; congr 1; omega
      rw [show n % 2 ^ 32 + 2 ^ 32 * (n / 2 ^ 32) = n % 2 ^ 32 + 2 ^ i * (2 ^ (31 - i) * 2 * (n / 2 ^ 32)) by
        rw [← mul_assoc, ← this]]
      exact Int.add_mul_ediv_left _ _ (by positivity)
    unfold bitOf
    rw [key, show 2 ^ (31 - i) * 2 * (n / 2 ^ 32) = 2 * (2 ^ (31 - i) * (n / 2 ^ 32)) by ring, Int.add_mul_emod_self_left]
    exact ⟨fun h => h.1, fun h => ⟨h, hi⟩⟩
  · have : n % 2 ^ 32 / 2 ^ i = 0 := by
      refine Int.ediv_eq_zero_of_lt hr0 (lt_of_lt_of_le hr1 ?_)
      exact pow_le_pow_right₀ (by decide) (by omega)
    unfold bitOf
    rw [this]
    simp [hi]

/-- C87: in a mode that checks, an integer is stored with its lowest 32 bits, i.e. reduced modulo `2 ^ 32`, negative numbers too. -/
theorem C87_mask {mode : ValidationMode} (hm : mode ≠ .none) (s : LinkArg) (n : Int) :
    setLinkId mode s (.int n) = (.int (n % 2 ^ 32), none) := by
  have h0 : 0 ≤ n % 2 ^ 32 := Int.emod_nonneg _ (by decide)
  have h1 : n % 2 ^ 32 < 2 ^ 32 := Int.emod_lt_of_pos _ (by decide)
  rw [setLinkId, if_pos hm, onlyUseLowestBits, land_mask, linkField, if_pos ⟨h0, h1⟩]
  rfl

example : setLinkId .strict (.int 7) (.int (2 ^ 40 + 5)) = (.int 5, none) := by decide +kernel
example : setLinkId .minimum (.int 7) (.int (-1)) = (.int 4294967295, none) := by decide +kernel

/-- C87: `None` sets the link to 0 in every mode; what pydantic reads as integer is stored only if it fits, and otherwise nothing changes. -/
theorem C87_assign (mode : ValidationMode) (s : LinkArg) :
    setLinkId mode s .none = (.int 0, none) ∧
    (mode ≠ .none → ∀ n, 0 ≤ n → n < 2 ^ 32 → setLinkId mode s (.other (some n)) = (.int n, none)) ∧
    (mode ≠ .none → ∀ v, v = none ∨ (∃ n, v = some n ∧ ¬(0 ≤ n ∧ n < 2 ^ 32)) → setLinkId mode s (.other v) = (s, some .dataFormat)) := by
  refine ⟨?_, ?_, ?_⟩
  · cases mode <;> rfl
  · intro hm n h0 h1
    have h1' : n < 4294967296 := h1
    simp [setLinkId, hm, onlyUseLowestBits, linkField, h0, h1', storeLink]
  · rintro hm v (rfl | ⟨n, rfl, h⟩)
    · simp [setLinkId, hm, onlyUseLowestBits, linkField]
    · rw [setLinkId, if_pos hm, onlyUseLowestBits, linkField, if_neg h]
      nofun

example : setLinkId .strict (.int 7) (.other (some 9)) = (.int 9, none) := by decide +kernel
example : setLinkId .strict (.int 7) (.other (some 4294967297)) = (.int 7, some .dataFormat) := by decide +kernel

theorem bitOf_emod (w : Int) {i : Nat} (hi : i < 32) : bitOf (w % 2 ^ 32) i ↔ bitOf w i := by
  rw [← land_mask, ← testBit_iff, ← testBit_iff, Int.testBit_land, testBit_mask]
  simp [hi]

theorem bitOf_lor (v : Int) (n i : Nat) : bitOf (Int.lor v (2 ^ n)) i ↔ (i = n ∨ bitOf v i) := by
  rw [← testBit_iff, ← testBit_iff, Int.testBit_lor, testBit_two_pow]
  simp only [Bool.or_eq_true, decide_eq_true_iff]
  tauto

theorem bitOf_clear (v : Int) (n i : Nat) : bitOf (Int.land v (Int.lnot (2 ^ n))) i ↔ (i ≠ n ∧ bitOf v i) := by
  rw [← testBit_iff, ← testBit_iff, Int.testBit_land, Int.testBit_lnot, testBit_two_pow]
  simp only [Bool.and_eq_true, Bool.not_eq_true', decide_eq_false_iff_not]
  tauto

/-- C87: setting one link sets that bit and no other of the 32.  If nothing is checked, no bit at all besides is touched; otherwise the link is a
32 bit number afterwards. -/
theorem C87_link (mode : ValidationMode) (v : Int) (number : Nat) (hn : number < 32) (enabled : Bool) :
    ∃ w, setLink mode (.int v) number enabled = (.int w, none) ∧
      (∀ i, i < 32 ∨ mode = .none → (bitOf w i ↔ if i = number then enabled = true else bitOf v i)) ∧
      (mode ≠ .none → 0 ≤ w ∧ w < 2 ^ 32) := by
  have hr : ¬¬(0 ≤ (number : Int) ∧ (number : Int) < 32) := by omega
  have hbits : ∀ i, (bitOf (if enabled then Int.lor v (2 ^ number) else Int.land v (Int.lnot (2 ^ number))) i ↔
      if i = number then enabled = true else bitOf v i) := by
    intro i
    cases enabled
    · simp only [Bool.false_eq_true, if_false, bitOf_clear]
      by_cases h : i = number <;> simp [h]
    · simp only [if_true, bitOf_lor]
      by_cases h : i = number <;> simp [h]
  have hs : setLink mode (.int v) number enabled =
      setLinkId mode (.int v) (.int (if enabled then Int.lor v (2 ^ number) else Int.land v (Int.lnot (2 ^ number)))) := by
    simp only [setLink, if_neg hr, Int.toNat_natCast]
    cases enabled <;> simp
  rw [hs]
  generalize (if enabled then Int.lor v (2 ^ number) else Int.land v (Int.lnot (2 ^ number))) = x at hbits
  by_cases hm : mode = .none
  · subst hm
    exact ⟨x, rfl, fun i _ => hbits i, fun h => absurd rfl h⟩
  · refine ⟨x % 2 ^ 32, C87_mask hm _ _, ?_, fun _ => ⟨Int.emod_nonneg _ (by decide), Int.emod_lt_of_pos _ (by decide)⟩⟩
    rintro i (hi | hi)
    · rw [bitOf_emod _ hi, hbits]
    · exact absurd hi hm

example : setLink .strict (.int 5) 1 true = (.int 7, none) ∧ setLink .strict (.int 7) 2 false = (.int 3, none) := by decide +kernel

/-- C87: the number of a link is in `[0, 32)`, otherwise nothing changes. -/
theorem C87_range (mode : ValidationMode) (s : LinkArg) (number : Int) (enabled : Bool) (h : number < 0 ∨ 32 ≤ number) :
    setLink mode s number enabled = (s, some .valueError) := by
  have : ¬(0 ≤ number ∧ number < 32) := by omega
  simp only [setLink, if_pos this]

example : setLink .none (.int 5) 32 true = (.int 5, some .valueError) := by decide +kernel

/-- C87: a call that fails, whatever is stored, changes nothing. -/
theorem C87_failed (mode : ValidationMode) (s v : LinkArg) (number : Int) (enabled : Bool) :
    ((setLinkId mode s v).2 ≠ none → (setLinkId mode s v).1 = s) ∧ ((setLink mode s number enabled).2 ≠ none → (setLink mode s number enabled).1 = s) := by
  have key : ∀ v, (setLinkId mode s v).2 ≠ none → (setLinkId mode s v).1 = s := by
    intro v
    unfold setLinkId
    split
    · split <;> simp
    · simp
  refine ⟨key v, ?_⟩
  unfold setLink
  split
  · simp
  · split
    · split <;> exact key _
    · simp

example : setLink .none (.other none) 3 true = (.other none, some .typeError) := by decide +kernel

/-- C87: the documentation promises an `AssertionError` for numbers outside `[0, 32)`; it is a `ValueError`. -/
theorem C87_range_refuted :
    ¬ ∀ mode s number enabled, number < 0 ∨ 32 ≤ number → (setLink mode s number enabled).2 = some PyErr.assertionError := by
  intro h
  exact absurd (h .strict (.int 0) 32 true (by decide)) (by decide +kernel)

/-- Links set one after the other. -/
def setLinks (mode : ValidationMode) (v : LinkArg) (calls : List (Nat × Bool)) : LinkArg :=
  calls.foldl (fun s c => (setLink mode s c.1 c.2).1) v

/-- What the last call about link `i` asked for, if there is any. -/
def lastFor (i : Nat) (calls : List (Nat × Bool)) : Option Bool := (calls.reverse.find? (fun c => c.1 = i)).map (·.2)

/-- C87: after any sequence of calls, every link is what the last call about it asked for, and as at the beginning if there was none. -/
theorem C87_links (mode : ValidationMode) (calls : List (Nat × Bool)) (hc : ∀ c ∈ calls, c.1 < 32) (v : Int) :
    ∃ w, setLinks mode (.int v) calls = .int w ∧
      ∀ i < 32, (bitOf w i ↔ match lastFor i calls with
        | some b => b = true
        | none => bitOf v i) := by
  induction calls generalizing v with
  | nil => exact ⟨v, rfl, fun i _ => Iff.rfl⟩
  | cons c calls ih =>
    obtain ⟨x, hx, hb, -⟩ := C87_link mode v c.1 (hc c (by simp)) c.2
    obtain ⟨w, hw, hbits⟩ := ih (fun d hd => hc d (by simp [hd])) x
    refine ⟨w, ?_, fun i hi => ?_⟩
    · simp only [setLinks, List.foldl_cons, hx]
      exact hw
    · rw [hbits i hi]
      simp only [lastFor, List.reverse_cons, List.find?_append]
      cases hf : calls.reverse.find? (fun c => c.1 = i) with
      | some d => simp
      | none =>
        have := hb i (.inl hi)
        by_cases h : i = c.1
        · simp only [h, if_true] at this
          simp [h, this]
        · simp only [h, if_false] at this
          simp [Ne.symm h, this]

example : setLinks .strict (.int 0) [(0, true), (3, true), (0, false)] = .int 8 := by decide +kernel

/-- C87: as long as assignments are checked, a link that is a 32 bit number stays one, whatever is called, fails or not. -/
theorem C87_invariant {mode : ValidationMode} (hm : mode ≠ .none) (calls : List LinkCall) (v : Int) (h0 : 0 ≤ v) (h1 : v < 2 ^ 32) :
    ∃ w, calls.foldl (linkStep mode) (.int v) = .int w ∧ 0 ≤ w ∧ w < 2 ^ 32 := by
  induction calls generalizing v with
  | nil => exact ⟨v, rfl, h0, h1⟩
  | cons c calls ih =>
    have step : ∃ x, linkStep mode (.int v) c = .int x ∧ 0 ≤ x ∧ x < 2 ^ 32 := by
      cases c with
      | link n b =>
        by_cases hn : 0 ≤ n ∧ n < 32
        · obtain ⟨x, hx, -, hr⟩ := C87_link mode v n.toNat (by omega) b
          rw [Int.toNat_of_nonneg hn.1] at hx
          exact ⟨x, by simp only [linkStep, hx], hr hm⟩
        · exact ⟨v, by simp only [linkStep, C87_range mode _ n b (by omega)], h0, h1⟩
      | assign a =>
        cases a with
        | none => exact ⟨0, by simp only [linkStep, (C87_assign mode _).1], by decide, by decide⟩
        | int n => exact ⟨n % 2 ^ 32, by rw [linkStep, C87_mask hm], Int.emod_nonneg _ (by decide), Int.emod_lt_of_pos _ (by decide)⟩
        | other a =>
          by_cases hn : ∃ n, a = some n ∧ 0 ≤ n ∧ n < 2 ^ 32
          · obtain ⟨n, rfl, hn⟩ := hn
            exact ⟨n, by simp only [linkStep, (C87_assign mode _).2.1 hm n hn.1 hn.2], hn⟩
          · refine ⟨v, ?_, h0, h1⟩
            rw [linkStep, (C87_assign mode _).2.2 hm a]
            cases a with
            | none => exact .inl rfl
            | some n => exact .inr ⟨n, rfl, fun h => hn ⟨n, rfl, h⟩⟩
    obtain ⟨x, hx, hr⟩ := step
    rw [List.foldl_cons, hx]
    exact ih x hr.1 hr.2

example : [LinkCall.assign (.int (-1)), .link 0 false, .link 77 true, .assign (.other none)].foldl (linkStep .strict) (.int 0) = .int 4294967294 := by
  decide +kernel

/-- C87: "only the lowest bits are used" holds when assignments are checked; with validation off the wide number is kept, and exported. -/
theorem C87_mask_refuted : ¬ ∀ mode s n, (setLinkId mode s (.int n)).1 = .int (n % 2 ^ 32) := by
  intro h
  exact absurd (h .none (.int 0) (2 ^ 40)) (by decide +kernel)

/-! ### Infinity containers -/

/-- The filter in a slot. -/
def slot (fs : List InfFilter) (i : Int) : Option InfFilter := fs.find? (fun f => f.index = i)

/-- No two filters in one slot. -/
def Distinct (fs : List InfFilter) : Prop := (fs.map (·.index)).Nodup

/-- What the arguments ask for: the stack size of the item unless a count is given, 0 for unknown items. -/
def wanted (stack : String → Option Int) (name : String) (a : InfArgs) : InfFilter :=
  ⟨a.index + 1, name, some (a.count.getD ((stack name).getD 0)), a.mode⟩

/-- A filter the format allows. -/
def Fits (f : InfFilter) : Prop :=
  (0 ≤ f.index ∧ f.index < 2 ^ 16) ∧ (∀ c, f.count = some c → 0 ≤ c ∧ c < 2 ^ 32) ∧
    (f.mode = none ∨ f.mode = some "at-least" ∨ f.mode = some "at-most" ∨ f.mode = some "exactly")

theorem makeFilter_some (i : Int) (n : String) (c : Option Int) (m : Option String) :
    (Fits ⟨i, n, c, m⟩ → makeFilter i (some n) c m = .ok ⟨i, n, c, m⟩) ∧
    (¬ Fits ⟨i, n, c, m⟩ → makeFilter i (some n) c m = .error .dataFormat) := by
  have hm : (∀ x ∈ m, x ∈ infModes) ↔ (m = none ∨ m = some "at-least" ∨ m = some "at-most" ∨ m = some "exactly") := by
    cases m with
    | none => simp
    | some x => simp [infModes]
  have key : Fits ⟨i, n, c, m⟩ ↔
      ((0 ≤ i ∧ i < 2 ^ 16) ∧ (∀ x ∈ c, 0 ≤ x ∧ x < 2 ^ 32) ∧ (∀ x ∈ m, x ∈ infModes)) := by
    rw [hm]; exact Iff.rfl
  constructor
  · intro h
    simp only [makeFilter, if_pos (key.1 h)]
  · intro h
    simp only [makeFilter, if_neg (fun h' => h (key.2 h'))]

theorem findFilter_none {fs : List InfFilter} {i : Int} : findFilter fs i = none ↔ slot fs i = none := by
  simp only [findFilter, slot, List.findIdx?_eq_none_iff, List.find?_eq_none]
  constructor
  · intro h x hx; have := h x hx; simp at this ⊢; exact fun e => this e.symm
  · intro h x hx; have := h x hx; simp at this ⊢; exact fun e => this e.symm

theorem slot_cons (f : InfFilter) (fs : List InfFilter) (j : Int) :
    slot (f :: fs) j = if f.index = j then some f else slot fs j := by
  simp only [slot, List.find?_cons]
  by_cases h : f.index = j <;> simp [h]

theorem findFilter_cons (f : InfFilter) (fs : List InfFilter) (i : Int) :
    findFilter (f :: fs) i = if i = f.index then some 0 else (findFilter fs i).map (· + 1) := by
  simp only [findFilter, List.findIdx?_cons]
  by_cases h : i = f.index <;> simp [h]

theorem slot_none_of_notMem {fs : List InfFilter} {i : Int} (h : i ∉ fs.map (·.index)) : slot fs i = none := by
  rw [slot, List.find?_eq_none]
  intro x hx
  simp only [decide_eq_true_eq]
  intro e
  exact h (List.mem_map.2 ⟨x, hx, e⟩)

theorem slot_set {fs : List InfFilter} {i : Int} {k : Nat} (hk : findFilter fs i = some k) {f : InfFilter} (hf : f.index = i) (j : Int) :
    slot (fs.set k f) j = (if j = i then some f else slot fs j) ∧ (fs.set k f).map (·.index) = fs.map (·.index) := by
  induction fs generalizing k with
  | nil => simp [findFilter] at hk
  | cons g fs ih =>
    rw [findFilter_cons] at hk
    by_cases h : i = g.index
    · simp only [h, if_true, Option.some.injEq] at hk
      subst hk
      simp only [List.set_cons_zero, slot_cons, List.map_cons, hf, h, and_true]
      by_cases hj : j = g.index
      · simp [hj]
      · simp [hj, Ne.symm hj]
    · simp only [h, if_false, Option.map_eq_some_iff] at hk
      obtain ⟨k', hk', rfl⟩ := hk
      obtain ⟨h1, h2⟩ := ih hk'
      simp only [List.set_cons_succ, slot_cons, List.map_cons, h1, h2, and_true]
      by_cases hj : g.index = j
      · have : ¬ j = i := fun e => h (by rw [← e, hj])
        simp [hj, this]
      · simp [hj]

theorem slot_erase {fs : List InfFilter} (hd : Distinct fs) {i : Int} {k : Nat} (hk : findFilter fs i = some k) (j : Int) :
    slot (fs.eraseIdx k) j = (if j = i then none else slot fs j) := by
  induction fs generalizing k with
  | nil => simp [findFilter] at hk
  | cons g fs ih =>
    rw [findFilter_cons] at hk
    simp only [Distinct, List.map_cons, List.nodup_cons] at hd
    by_cases h : i = g.index
    · simp only [h, if_true, Option.some.injEq] at hk
      subst hk
      simp only [List.eraseIdx_cons_zero, slot_cons, h]
      by_cases hj : j = g.index
      · simp [hj, slot_none_of_notMem hd.1]
      · simp [hj, Ne.symm hj]
    · simp only [h, if_false, Option.map_eq_some_iff] at hk
      obtain ⟨k', hk', rfl⟩ := hk
      simp only [List.eraseIdx_cons_succ, slot_cons, ih hd.2 hk']
      by_cases hj : g.index = j
      · have : ¬ j = i := fun e => h (by rw [← e, hj])
        simp [hj, this]
      · simp [hj]

theorem slot_append (fs : List InfFilter) (f : InfFilter) (h : slot fs f.index = none) (j : Int) :
    slot (fs ++ [f]) j = if j = f.index then some f else slot fs j := by
  simp only [slot, List.find?_append] at h ⊢
  by_cases hj : j = f.index
  · subst hj; simp [h]
  · simp [hj, Ne.symm hj]

theorem notMem_of_slot_none {fs : List InfFilter} {i : Int} (h : slot fs i = none) : i ∉ fs.map (·.index) := by
  intro hm
  obtain ⟨x, hx, e⟩ := List.mem_map.1 hm
  rw [slot, List.find?_eq_none] at h
  exact h x hx (by simp [e])

/-- What a call should do to the slots: `some` new contents of the slot `index + 1`, or `none` if it is to fail. -/
def Asked (stack : String → Option Int) (fs : List InfFilter) (a : InfArgs) (r : Option (Option InfFilter)) : Prop :=
  match a.item with
  | none => if slot fs (a.index + 1) = none then r = none else r = some none
  | some n => (Fits (wanted stack n a) → r = some (some (wanted stack n a))) ∧ (¬ Fits (wanted stack n a) → r = none)

/-- C87: a call of `set_infinity_filter` either fails and changes nothing, or puts the filter asked for into its slot (empties it if `None` is asked
for), and leaves all other slots as they are.  It fails just if the filter does not fit the format, or an empty slot is to be emptied. -/
theorem C87_filter (stack : String → Option Int) (fs : List InfFilter) (hd : Distinct fs) (a : InfArgs) (r : Option (Option InfFilter))
    (ha : Asked stack fs a r) :
    match r with
    | none => setInfinityFilter stack (some (some fs)) a = (some (some fs), some .dataFormat)
    | some new => ∃ fs', setInfinityFilter stack (some (some fs)) a = (some (some fs'), none) ∧ Distinct fs' ∧
        (∀ j, slot fs' j = if j = a.index + 1 then new else slot fs j) := by
  obtain ⟨index, item, mode, count⟩ := a
  cases item with
  | none =>
    simp only [Asked] at ha
    cases hf : findFilter fs (index + 1) with
    | none =>
      rw [if_pos (findFilter_none.1 hf)] at ha
      subst ha
      simp [setInfinityFilter, hf, makeFilter]
    | some k =>
      rw [if_neg (fun h => by rw [findFilter_none.2 h] at hf; cases hf)] at ha
      subst ha
      refine ⟨fs.eraseIdx k, by simp [setInfinityFilter, hf], ?_, fun j => slot_erase hd hf j⟩
      exact hd.sublist ((List.eraseIdx_sublist fs k).map _)
  | some n =>
    have hw : makeFilter (index + 1) (some n) (defaultCount stack ⟨index, some n, mode, count⟩) mode =
        makeFilter (index + 1) (some n) (wanted stack n ⟨index, some n, mode, count⟩).count mode := by
      cases count <;> rfl
    simp only [Asked] at ha
    by_cases hfit : Fits (wanted stack n ⟨index, some n, mode, count⟩)
    · obtain rfl := ha.1 hfit
      have hmk := hw.trans ((makeFilter_some _ _ _ _).1 hfit)
      cases hf : findFilter fs (index + 1) with
      | none =>
        have hs := findFilter_none.1 hf
        refine ⟨fs ++ [wanted stack n ⟨index, some n, mode, count⟩], ?_, ?_, fun j => slot_append fs _ hs j⟩
        · simp only [setInfinityFilter, hf, hmk]
          rfl
        · simp only [Distinct, List.map_append, List.map_cons, List.map_nil]
          refine List.nodup_append.2 ⟨hd, by simp, ?_⟩
          rintro x hx y hy rfl
          simp only [List.mem_singleton] at hy
          subst hy
          exact notMem_of_slot_none hs hx
      | some k =>
        refine ⟨fs.set k (wanted stack n ⟨index, some n, mode, count⟩), ?_, ?_, fun j => (slot_set hf rfl j).1⟩
        · simp only [setInfinityFilter, hf, hmk]
          rfl
        · rw [Distinct, (slot_set hf rfl 0).2]
          exact hd
    · obtain rfl := ha.2 hfit
      have hmk := hw.trans ((makeFilter_some _ _ _ _).2 hfit)
      cases hf : findFilter fs (index + 1) <;> simp only [setInfinityFilter, hf, hmk]

example : setInfinityFilter (fun _ => some 50) (some (some [⟨1, "iron-ore", some 3, none⟩])) ⟨1, some "coal", some "exactly", none⟩ =
    (some (some [⟨1, "iron-ore", some 3, none⟩, ⟨2, "coal", some 50, some "exactly"⟩]), none) := by decide +kernel
example : setInfinityFilter (fun _ => some 50) (some (some [⟨1, "iron-ore", some 3, none⟩, ⟨2, "coal", none, none⟩])) ⟨0, none, none, none⟩ =
    (some (some [⟨2, "coal", none, none⟩]), none) := by decide +kernel
example : setInfinityFilter (fun _ => some 50) (some (some [⟨1, "iron-ore", some 3, none⟩])) ⟨0, some "coal", some "never", some 1⟩ =
    (some (some [⟨1, "iron-ore", some 3, none⟩]), some .dataFormat) := by decide +kernel

/-- The slots after a call that asks for something. -/
noncomputable def askSlots (stack : String → Option Int) (m : Int → Option InfFilter) (a : InfArgs) : Int → Option InfFilter :=
  open Classical in
  match a.item with
  | none => fun j => if j = a.index + 1 then none else m j
  | some n => if Fits (wanted stack n a) then fun j => if j = a.index + 1 then some (wanted stack n a) else m j else m

/-- C87: after any sequence of calls, failing or not, the slots hold what the calls that could succeed put there last. -/
theorem C87_filters (stack : String → Option Int) (calls : List InfArgs) (fs : List InfFilter) (hd : Distinct fs) :
    ∃ fs', calls.foldl (fun s a => (setInfinityFilter stack s a).1) (some (some fs)) = some (some fs') ∧ Distinct fs' ∧
      slot fs' = calls.foldl (askSlots stack) (slot fs) := by
  induction calls generalizing fs with
  | nil => exact ⟨fs, rfl, hd, rfl⟩
  | cons a calls ih =>
    have step : ∃ fs', (setInfinityFilter stack (some (some fs)) a).1 = some (some fs') ∧ Distinct fs' ∧
        slot fs' = askSlots stack (slot fs) a := by
      classical
      cases hi : a.item with
      | none =>
        by_cases hs : slot fs (a.index + 1) = none
        · have := C87_filter stack fs hd a none (by simp [Asked, hi, hs])
          refine ⟨fs, by rw [this], hd, ?_⟩
          funext j
          simp only [askSlots, hi]
          by_cases hj : j = a.index + 1
          · simp [hj, hs]
          · simp [hj]
        · obtain ⟨fs', h1, h2, h3⟩ := C87_filter stack fs hd a (some none) (by simp [Asked, hi, hs])
          exact ⟨fs', by rw [h1], h2, by funext j; simp only [askSlots, hi, h3]⟩
      | some n =>
        by_cases hfit : Fits (wanted stack n a)
        · obtain ⟨fs', h1, h2, h3⟩ := C87_filter stack fs hd a (some (some (wanted stack n a))) (by simp [Asked, hi, hfit])
          exact ⟨fs', by rw [h1], h2, by funext j; simp only [askSlots, hi, if_pos hfit, h3]⟩
        · have := C87_filter stack fs hd a none (by simp [Asked, hi, hfit])
          exact ⟨fs, by rw [this], hd, by funext j; simp only [askSlots, hi, if_neg hfit]⟩
    obtain ⟨fs', h1, h2, h3⟩ := step
    obtain ⟨fs'', h4, h5, h6⟩ := ih fs' h2
    exact ⟨fs'', by rw [List.foldl_cons, h1, h4], h5, by rw [h6, List.foldl_cons, h3]⟩

example : Distinct [⟨1, "iron-ore", some 3, none⟩, ⟨2, "coal", none, none⟩] := by simp [Distinct]

/-- C87: a call of `set_infinity_filter` that fails, whatever the settings, changes nothing. -/
theorem C87_filter_failed (stack : String → Option Int) (s : InfSettings) (a : InfArgs) (h : (setInfinityFilter stack s a).2 ≠ none) :
    (setInfinityFilter stack s a).1 = s := by
  unfold setInfinityFilter at h ⊢
  split at h
  · split at h
    · exact absurd rfl h
    · split at h
      · simp_all
      · split at h <;> exact absurd rfl h
  · simp_all

example : (setInfinityFilter (fun _ => none) (some none) ⟨0, some "iron-plate", none, none⟩).2 = some .typeError := by decide +kernel

/-- C87: emptying a slot that is empty should do nothing; it raises a `DataFormatError`. -/
theorem C87_filter_refuted : ¬ ∀ stack fs a, a.item = none → (setInfinityFilter stack (some (some fs)) a).2 = none := by
  intro h
  exact absurd (h (fun _ => none) [] ⟨0, none, none, none⟩ rfl) (by decide +kernel)

/-- C87: the slots are numbered from 1 in the format, but the slot before the first is accepted and stored as 0. -/
theorem C87_filter_index_refuted :
    ¬ ∀ stack fs a fs', setInfinityFilter stack (some (some fs)) a = (some (some fs'), none) → (∀ f ∈ fs, 1 ≤ f.index) → ∀ f ∈ fs', 1 ≤ f.index := by
  intro h
  have := h (fun _ => some 50) [] ⟨-1, some "coal", none, none⟩ [⟨0, "coal", some 50, none⟩] (by decide +kernel) (by simp)
  simp at this

/-- C87: settings or filters that are `None` are allowed, but then no filter can be set. -/
theorem C87_filter_none_refuted : ¬ ∀ stack s a, (setInfinityFilter stack s a).2 = none ∨ (setInfinityFilter stack s a).2 = some .dataFormat := by
  intro h
  have := h (fun _ => some 50) (some none) ⟨0, some "coal", none, none⟩
  revert this
  decide +kernel

/-! ### Electric energy interfaces -/

theorem dropDefault_ok {d : Values} {k : Key} {r : Exported} (hk : ¬(r k = none ∧ d k = none)) :
    ∃ r', dropDefault d k r = .ok r' ∧ (∀ j, j ≠ k → r' j = r j) ∧ r' k = (if (r k).getD none = d k then none else r k) := by
  by_cases he : (r k).getD none = d k
  · cases hr : r k with
    | none => exact absurd ⟨hr, by rw [← he, hr]; rfl⟩ hk
    | some q =>
      refine ⟨fun j => if j = k then none else r j, ?_, fun j hj => by simp [hj], by simp [← hr, he]⟩
      rw [dropDefault, if_pos he, hr]
  · exact ⟨r, by simp only [dropDefault, if_neg he], fun _ _ => rfl, by rw [if_neg he]⟩

theorem dropDefault_error {d : Values} {k : Key} {r : Exported} (hr : r k = none) (hd : d k = none) :
    dropDefault d k r = .error .keyError := by
  have : (r k).getD none = d k := by rw [hr, hd]; rfl
  rw [dropDefault, if_pos this, hr]

theorem baseDict_defaults (en : Bool) (v : Values) (k : Key) : baseDict en true v k = (v k).map some := by
  cases h : v k <;> simp [baseDict, h]

/-- C87: an export without defaults has a value just if it is set and not the default; a `KeyError` is raised just if some value is `None` and its default
is not known. -/
theorem C87_export (d : Values) (en : Bool) (v : Values) :
    ((∀ k, ¬(v k = none ∧ d k = none)) →
      ∃ r, interfaceDict d en true v = .ok r ∧ ∀ k, r k = (if v k = none ∨ v k = d k then none else some (v k))) ∧
    ((∃ k, v k = none ∧ d k = none) → interfaceDict d en true v = .error .keyError) := by
  have hb := baseDict_defaults en v
  have hno : ∀ k, baseDict en true v k = none ↔ v k = none := by
    intro k; rw [hb]; cases v k <;> simp
  have hval : ∀ k, (if (baseDict en true v k).getD none = d k then none else baseDict en true v k) =
      (if v k = none ∨ v k = d k then none else some (v k)) := by
    intro k
    rw [hb]
    cases h : v k with
    | none => simp
    | some q => simp
  constructor
  · intro h
    obtain ⟨r1, e1, o1, s1⟩ := dropDefault_ok (d := d) (k := .buffer) (r := baseDict en true v) (fun ⟨a, b⟩ => h _ ⟨(hno _).1 a, b⟩)
    have p1 := o1 .production (by decide)
    have u1 := o1 .usage (by decide)
    obtain ⟨r2, e2, o2, s2⟩ := dropDefault_ok (d := d) (k := .production) (r := r1)
      (fun ⟨a, b⟩ => h .production ⟨(hno _).1 (p1 ▸ a), b⟩)
    have u2 := (o2 .usage (by decide)).trans u1
    obtain ⟨r3, e3, o3, s3⟩ := dropDefault_ok (d := d) (k := .usage) (r := r2)
      (fun ⟨a, b⟩ => h .usage ⟨(hno _).1 (u2 ▸ a), b⟩)
    refine ⟨r3, ?_, ?_⟩
    · simp only [interfaceDict, if_true]
      rw [e1]
      show (dropDefault d .production r1 >>= _) = _
      rw [e2]
      exact e3
    · intro k
      cases k with
      | buffer => rw [o3 .buffer (by decide), o2 .buffer (by decide), s1, hval]
      | production => rw [o3 .production (by decide), s2, p1, hval]
      | usage => rw [s3, u2, hval]
  · intro h
    simp only [interfaceDict, if_true]
    by_cases hB : v .buffer = none ∧ d .buffer = none
    · rw [dropDefault_error ((hno _).2 hB.1) hB.2]
      rfl
    · obtain ⟨r1, e1, o1, -⟩ := dropDefault_ok (d := d) (k := .buffer) (r := baseDict en true v) (fun ⟨a, b⟩ => hB ⟨(hno _).1 a, b⟩)
      rw [e1]
      show (dropDefault d .production r1 >>= _) = _
      have p1 := o1 .production (by decide)
      have u1 := o1 .usage (by decide)
      by_cases hP : v .production = none ∧ d .production = none
      · rw [dropDefault_error (p1.trans ((hno _).2 hP.1)) hP.2]
        rfl
      · obtain ⟨r2, e2, o2, -⟩ := dropDefault_ok (d := d) (k := .production) (r := r1)
          (fun ⟨a, b⟩ => hP ⟨(hno _).1 (p1 ▸ a), b⟩)
        rw [e2]
        show dropDefault d .usage r2 = _
        have u2 := (o2 .usage (by decide)).trans u1
        obtain ⟨k, hk⟩ := h
        cases k with
        | buffer => exact absurd hk hB
        | production => exact absurd hk hP
        | usage => exact dropDefault_error (u2.trans ((hno _).2 hk.1)) hk.2

example : ∃ r, interfaceDict (fun _ => some 10) true true (fun k => if k = .buffer then some 10 else some 3) = .ok r ∧
    r .buffer = none ∧ r .usage = some (some 3) := by
  obtain ⟨r, h, hk⟩ := (C87_export (fun _ => some 10) true (fun k => if k = .buffer then some 10 else some 3)).1 (by intro k h; simp at h)
  refine ⟨r, h, ?_, ?_⟩ <;> rw [hk] <;> decide +kernel

/-- C87: without the option that leaves out defaults, every value is exported, and one that is `None` if `None` is not left out either; this never fails. -/
theorem C87_plain (d : Values) (en : Bool) (v : Values) :
    ∃ r, interfaceDict d en false v = .ok r ∧ ∀ k, (∀ q, v k = some q → r k = some (some q)) ∧ (v k = none → r k = if en = true then none else some none) := by
  refine ⟨_, rfl, fun k => ⟨fun q hq => by simp [baseDict, hq], fun hk => ?_⟩⟩
  cases en <;> simp [baseDict, hk]

example : ∃ r, interfaceDict (fun _ => some 10) false false (fun k => if k = .buffer then some 10 else none) = .ok r ∧ r .buffer = some (some 10) ∧ r .usage = some none := by
  obtain ⟨r, h, hk⟩ := C87_plain (fun _ => some 10) false (fun k => if k = .buffer then some 10 else none)
  exact ⟨r, h, (hk .buffer).1 10 rfl, (hk .usage).2 rfl⟩

/-- C87: an interface all of whose values are set is read back as it was exported, with any options. -/
theorem C87_import_partial (d : Values) (en ed : Bool) (v : Values) (hv : ∀ k, v k ≠ none) :
    ∃ r, interfaceDict d en ed v = .ok r ∧ interfaceInit d r = v := by
  cases ed with
  | true =>
    obtain ⟨r, h, hk⟩ := (C87_export d en v).1 (fun k hk => hv k hk.1)
    refine ⟨r, h, funext fun k => ?_⟩
    simp only [interfaceInit, hk, hv k, false_or]
    by_cases he : v k = d k
    · simp [he]
    · simp only [if_neg he, Option.getD_some]
      cases hq : v k with
      | none => exact absurd hq (hv k)
      | some q => rfl
  | false =>
    refine ⟨_, rfl, funext fun k => ?_⟩
    cases hq : v k with
    | none => exact absurd hq (hv k)
    | some q => simp [interfaceInit, baseDict, hq]

example : ∀ k : Key, (fun _ => some (3 : Rat) : Values) k ≠ none := by intro k; simp

/-- C87: an interface whose prototype is not known cannot be exported: `KeyError`. -/
theorem C87_export_refuted : ¬ ∀ d en ed v, ∃ r, interfaceDict d en ed v = .ok r := by
  intro h
  obtain ⟨r, hr⟩ := h (fun _ => none) true true (fun _ => none)
  rw [(C87_export _ _ _).2 ⟨.buffer, rfl, rfl⟩] at hr
  cases hr

/-- C87: a value set to `None` comes back as the default of the prototype. -/
theorem C87_import_refuted : ¬ ∀ d en ed v r, interfaceDict d en ed v = .ok r → interfaceInit d r = v := by
  intro h
  obtain ⟨r, hr, hk⟩ := (C87_export (fun _ => some 10) true (fun _ => none)).1 (by intro k h; simp at h)
  have := congrFun (h _ _ _ _ r hr) .buffer
  simp [interfaceInit, hk] at this

/-! ### Sections -/

/-- The index a new section asks for. -/
def newIndex (l : List Section) : Option Int → Int
  | some i => i + 1
  | none => l.length + 1

theorem addSection_ok {l : List Section} {index : Option Int} (h : 0 ≤ newIndex l index ∧ newIndex l index < 2 ^ 32) (group : Option String)
    (active : Bool) : addSection (some l) group index active = (some (l ++ [⟨newIndex l index, group, active⟩]), .ok ⟨newIndex l index, group, active⟩) := by
  cases index with
  | none => rw [addSection]; exact if_pos h
  | some i => rw [addSection]; exact if_pos h

theorem addSection_error {l : List Section} {index : Option Int} (h : ¬(0 ≤ newIndex l index ∧ newIndex l index < 2 ^ 32)) (group : Option String)
    (active : Bool) : addSection (some l) group index active = (some l, .error .valueError) := by
  cases index with
  | none => rw [addSection]; exact if_neg h
  | some i => rw [addSection]; exact if_neg h

/-- C87: a new section comes last and the others stay as they are; if no index is given it is one more than the number of sections. -/
theorem C87_section {l : List Section} {group : Option String} {index : Option Int} {active : Bool} {s : Option (List Section)} {new : Section}
    (h : addSection (some l) group index active = (s, .ok new)) :
    s = some (l ++ [new]) ∧ new.group = group ∧ new.active = active ∧ (∀ i, index = some i → new.index = i + 1) ∧
      (index = none → new.index = l.length + 1) ∧ 0 ≤ new.index ∧ new.index < 2 ^ 32 := by
  by_cases hr : 0 ≤ newIndex l index ∧ newIndex l index < 2 ^ 32
  · rw [addSection_ok hr] at h
    obtain ⟨h1, h2⟩ := Prod.mk.inj h
    obtain rfl := Except.ok.inj h2
    subst h1
    exact ⟨rfl, rfl, rfl, fun i hi => by rw [hi]; rfl, fun hi => by rw [hi]; rfl, hr⟩
  · rw [addSection_error hr] at h
    exact nomatch (Prod.mk.inj h).2

/-- C87: adding a section fails just if the index is out of range, and then nothing changes. -/
theorem C87_section_fails (l : List Section) (group : Option String) (index : Option Int) (active : Bool) (hl : l.length + 1 < 2 ^ 32) :
    (∃ i, index = some i ∧ ¬(-1 ≤ i ∧ i < 2 ^ 32 - 1) ∧ addSection (some l) group index active = (some l, .error .valueError)) ∨
    (∀ i, index = some i → (-1 ≤ i ∧ i < 2 ^ 32 - 1)) ∧ ∃ s new, addSection (some l) group index active = (s, .ok new) := by
  cases index with
  | none =>
    have : 0 ≤ newIndex l none ∧ newIndex l none < 2 ^ 32 := by simp only [newIndex]; omega
    exact .inr ⟨fun i h => (nomatch h), _, _, addSection_ok this group active⟩
  | some i =>
    by_cases h : -1 ≤ i ∧ i < 2 ^ 32 - 1
    · have : 0 ≤ newIndex l (some i) ∧ newIndex l (some i) < 2 ^ 32 := by simp only [newIndex]; omega
      exact .inr ⟨fun j hj => by cases hj; exact h, _, _, addSection_ok this group active⟩
    · have : ¬(0 ≤ newIndex l (some i) ∧ newIndex l (some i) < 2 ^ 32) := by simp only [newIndex]; omega
      exact .inl ⟨i, rfl, h, addSection_error this group active⟩

example : addSection (some [⟨1, none, true⟩]) (some "g") none false = (some [⟨1, none, true⟩, ⟨2, some "g", false⟩], .ok ⟨2, some "g", false⟩) := by
  decide +kernel
example : addSection (some [⟨1, none, true⟩]) none (some (-2)) false = (some [⟨1, none, true⟩], .error .valueError) := by decide +kernel

theorem addSection_default {l : List Section} (h : (l.length : Int) + 1 < 2 ^ 32) (group : Option String) (active : Bool) :
    (addSection (some l) group none active).1 = some (l ++ [⟨l.length + 1, group, active⟩]) := by
  have hr : 0 ≤ newIndex l none ∧ newIndex l none < 2 ^ 32 := ⟨Int.add_nonneg (Int.natCast_nonneg _) (by decide), h⟩
  rw [addSection_ok hr]
  rfl

theorem sections_aux (bound : Int) (step : Option (List Section) → Option String × Bool → Option (List Section))
    (hs : ∀ l g, ((l.length : Int) + 1 < bound) → step (some l) g = some (l ++ [⟨l.length + 1, g.1, g.2⟩]))
    (news : List (Option String × Bool)) (hl : (news.length : Int) < bound) :
    news.foldl step (some []) = some (news.zipIdx.map (fun g => ⟨(g.2 : Int) + 1, g.1.1, g.1.2⟩)) := by
  induction news using List.reverseRecOn with
  | nil => rfl
  | append_singleton news g ih =>
    rw [List.length_append, List.length_singleton, Nat.cast_add, Nat.cast_one] at hl
    rw [List.foldl_append, ih (lt_trans (lt_add_one _) hl)]
    rw [List.foldl_cons, List.foldl_nil, hs _ _ (by simpa using hl)]
    simp [List.zipIdx_append]

/-- C87: sections added without index to an entity that has none are numbered 1, 2, … in order. -/
theorem C87_sections (news : List (Option String × Bool)) (hl : (news.length : Int) < 2 ^ 32) :
    news.foldl (fun s g => (addSection s g.1 none g.2).1) (some []) =
      some (news.zipIdx.map (fun g => ⟨(g.2 : Int) + 1, g.1.1, g.1.2⟩)) :=
  by
  have hs : ∀ (l : List Section) (g : Option String × Bool), ((l.length : Int) + 1 < 2 ^ 32) →
      (addSection (some l) g.1 none g.2).1 = some (l ++ [⟨l.length + 1, g.1, g.2⟩]) := fun _ g h => addSection_default h g.1 g.2
  generalize (2 : Int) ^ 32 = bound at hl hs
  revert hs
  generalize @addSection = f
  intro hs
  exact sections_aux bound (fun s g => (f s g.1 none g.2).1) hs news hl

example : [(some "a", true), (none, false)].foldl (fun s g => (addSection s g.1 none g.2).1) (some []) =
    some [⟨1, some "a", true⟩, ⟨2, none, false⟩] := by decide +kernel

/-- C87: with one index given by hand, the next section may get the same. -/
theorem C87_sections_refuted :
    ¬ ∀ l group active s new, (l.map Section.index).Nodup → addSection (some l) group none active = (some s, .ok new) → (s.map Section.index).Nodup := by
  intro h
  have := h [⟨2, none, true⟩] none true [⟨2, none, true⟩, ⟨2, none, true⟩] ⟨2, none, true⟩ (by simp) (by decide +kernel)
  simp at this

end Special
end Draftsman
