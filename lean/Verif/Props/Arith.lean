import Verif.Model.Arith
import Verif.Proof.Trains

namespace Draftsman
namespace Arith

/-! ## C48: reading what was written -/

/-- What a caller means by an argument: nothing, the constant, or the signal of that name; `none` if it means nothing valid. -/
def denotes (T : Table) : Arg → Option Operand
  | .none => some .none
  | .int n => if -2147483648 ≤ n ∧ n ≤ 2147483647 then some (.const n) else none
  | .name s =>
    match T s with
    | some (t :: ts) => some (.sig ⟨s, if "item" ∈ t :: ts then "item" else t, "normal"⟩)
    | _ => none
  | .sig s => some (.sig s)

/-- The stored fields of an operand hold just that operand: a constant and no signal, a signal and no constant, or neither. -/
def Holds (o : Operand) (c : Option ℤ) (s : Option Sig) : Prop :=
  match o with
  | .none => c = none ∧ s = none
  | .const n => c = some n ∧ s = none
  | .sig x => c = none ∧ s = some x

theorem int32_iff (n : ℤ) : int32 n = true ↔ -2147483648 ≤ n ∧ n ≤ 2147483647 := by
  simp only [int32, Bool.and_eq_true, decide_eq_true_eq]; omega

theorem signalOf_eq (T : Table) (s : String) :
    (∀ x, signalOf T s = .ok x → denotes T (.name s) = some (.sig x)) ∧ (∀ e, signalOf T s = .error e → denotes T (.name s) = none) := by
  cases h : T s with
  | none => simp [signalOf, denotes, h]
  | some ts =>
    cases ts with
    | nil => simp [signalOf, denotes, h]
    | cons t ts => by_cases hi : "item" ∈ t :: ts <;> simp only [signalOf, denotes, h, hi, if_true, if_false] <;> simp

/-- C48: on a combinator with a control behaviour, assigning the first operand either succeeds, and then it reads as what was meant, nothing else is
stored for it, and the other settings read as before; or the argument means nothing, an error is raised, and everything stored is as before. -/
theorem C48_first (T : Table) (c : Conds) (v : Arg) :
    match denotes T v with
    | some o => ∃ c', setFirst T (some (some c)) v = (some (some c'), none) ∧ getFirst (some (some c')) = .ok o ∧
        Holds o c'.firstConst c'.firstSig ∧
        c' = { c with firstConst := c'.firstConst, firstSig := c'.firstSig }
    | none => ∃ e, setFirst T (some (some c)) v = (some (some c), some e) := by
  cases v with
  | none => exact ⟨_, rfl, rfl, ⟨rfl, rfl⟩, rfl⟩
  | int n =>
    simp only [denotes, setFirst, fresh]
    by_cases h : -2147483648 ≤ n ∧ n ≤ 2147483647
    · rw [if_pos h, if_pos ((int32_iff n).mpr h)]; exact ⟨_, rfl, rfl, ⟨rfl, rfl⟩, rfl⟩
    · rw [if_neg h, if_neg (by rw [int32_iff]; exact h)]; exact ⟨_, rfl⟩
  | name s =>
    simp only [setFirst, fresh, checkSig]
    have hs := signalOf_eq T s
    cases h : signalOf T s with
    | ok x => rw [hs.1 x h]; exact ⟨_, rfl, rfl, ⟨rfl, rfl⟩, rfl⟩
    | error e => rw [hs.2 e h]; exact ⟨_, rfl⟩
  | sig s => exact ⟨_, rfl, rfl, ⟨rfl, rfl⟩, rfl⟩

/-- C48: the same for the second operand. -/
theorem C48_second (T : Table) (c : Conds) (v : Arg) :
    match denotes T v with
    | some o => ∃ c', setSecond T (some (some c)) v = (some (some c'), none) ∧ getSecond (some (some c')) = .ok o ∧
        Holds o c'.secondConst c'.secondSig ∧
        c' = { c with secondConst := c'.secondConst, secondSig := c'.secondSig }
    | none => ∃ e, setSecond T (some (some c)) v = (some (some c), some e) := by
  cases v with
  | none => exact ⟨_, rfl, rfl, ⟨rfl, rfl⟩, rfl⟩
  | int n =>
    simp only [denotes, setSecond, fresh]
    by_cases h : -2147483648 ≤ n ∧ n ≤ 2147483647
    · rw [if_pos h, if_pos ((int32_iff n).mpr h)]; exact ⟨_, rfl, rfl, ⟨rfl, rfl⟩, rfl⟩
    · rw [if_neg h, if_neg (by rw [int32_iff]; exact h)]; exact ⟨_, rfl⟩
  | name s =>
    simp only [setSecond, fresh, checkSig]
    have hs := signalOf_eq T s
    cases h : signalOf T s with
    | ok x => rw [hs.1 x h]; exact ⟨_, rfl, rfl, ⟨rfl, rfl⟩, rfl⟩
    | error e => rw [hs.2 e h]; exact ⟨_, rfl⟩
  | sig s => exact ⟨_, rfl, rfl, ⟨rfl, rfl⟩, rfl⟩

/-! ### Any sequence -/

/-- One step of use. -/
inductive Step where
  | first (v : Arg)
  | second (v : Arg)
  | op (v : Option String)
  | output (v : Arg)
  | all (f : Arg) (fn : Nets) (o : Option String) (s : Arg) (sn : Nets) (u : Arg)
  | remove

def Step.run (T : Table) (st : State) : Step → State × Option PyErr
  | .first v => setFirst T st v
  | .second v => setSecond T st v
  | .op v => setOp st v
  | .output v => setOutput T st v
  | .all f fn o s sn u => setAll T st f fn o s sn u
  | .remove => Arith.remove st

/-- The state after a sequence of steps, errors having been caught by the caller. -/
def runAll (T : Table) (st : State) (l : List Step) : State := l.foldl (fun s x => (x.run T s).1) st

/-- What the caller takes a combinator to be. -/
structure Idea where
  first : Operand
  second : Operand
  op : Option String
  output : Option Sig
  deriving DecidableEq, Repr

/-- An operation name, in upper case, if there is such an operation. -/
def opDenotes : Option String → Option (Option String)
  | none => some none
  | some s => if s.toUpper ∈ ["*", "/", "+", "-", "%", "^", "<<", ">>", "AND", "OR", "XOR"] then some (some s.toUpper) else none

/-- A signal or nothing. -/
def sigDenotes (T : Table) (v : Arg) : Option (Option Sig) :=
  match denotes T v with
  | some .none => some none
  | some (.sig s) => some (some s)
  | _ => none

/-- What the caller takes a step to do: an assignment with a meaning replaces what it names, any other changes nothing, and removing the conditions
leaves nothing but the default operation. -/
def Step.idea (T : Table) (i : Idea) : Step → Idea
  | .first v => match denotes T v with
    | some o => { i with first := o }
    | none => i
  | .second v => match denotes T v with
    | some o => { i with second := o }
    | none => i
  | .op v => match opDenotes v with
    | some o => { i with op := o }
    | none => i
  | .output v => match sigDenotes T v with
    | some o => { i with output := o }
    | none => i
  | .all f _ o s _ u => match denotes T f, opDenotes (some (o.getD "*")), denotes T s, sigDenotes T u with
    | some f, some o, some s, some u => ⟨f, s, o, u⟩
    | _, _, _, _ => i
  | .remove => ⟨.none, .none, some "*", none⟩

/-- The combinator reads as the caller takes it to be. -/
def Reads (st : State) (i : Idea) : Prop :=
  getFirst st = .ok i.first ∧ getSecond st = .ok i.second ∧ getOp st = .ok i.op ∧ getOutput st = .ok i.output

/-- Steps that do not set the second operand to nothing behind the default: not removing, and not setting everything with no second operand. -/
def Step.Explicit : Step → Prop
  | .remove => False
  | .all _ _ _ s _ _ => s ≠ .none
  | _ => True

theorem checkOp_eq (v : Option String) :
    (∀ o, checkOp v = .ok o → opDenotes v = some o) ∧ (∀ e, checkOp v = .error e → opDenotes v = none) := by
  cases v with
  | none => simp [checkOp, opDenotes]
  | some s =>
    by_cases h : s.toUpper ∈ ["*", "/", "+", "-", "%", "^", "<<", ">>", "AND", "OR", "XOR"]
    · have e1 : checkOp (some s) = .ok (some s.toUpper) := if_pos h
      have e2 : opDenotes (some s) = some (some s.toUpper) := if_pos h
      rw [e1, e2]; simp
    · have e1 : checkOp (some s) = .error .dataFormat := if_neg h
      have e2 : opDenotes (some s) = none := if_neg h
      rw [e1, e2]; simp

theorem checkSig_eq (T : Table) (v : Arg) :
    (∀ o, checkSig T v = .ok o → sigDenotes T v = some o) ∧ (∀ e, checkSig T v = .error e → sigDenotes T v = none) := by
  cases v with
  | none => simp [checkSig, sigDenotes, denotes]
  | int n => 
    refine ⟨by simp [checkSig], fun e _ => ?_⟩
    simp only [sigDenotes, denotes]
    split <;> rename_i h <;> first | rfl | (split at h <;> simp at h)
  | name s =>
    have hs := signalOf_eq T s
    simp only [checkSig, sigDenotes]
    cases h : signalOf T s with
    | ok x => rw [hs.1 x h]; simp [Except.map]
    | error e => rw [hs.2 e h]; simp [Except.map]
  | sig s => simp [checkSig, sigDenotes, denotes]

/-- What the stored fields read as. -/
def readOf (c : Option ℤ) (s : Option Sig) : Operand :=
  match s, c with
  | some s, _ => .sig s
  | none, some n => .const n
  | none, none => .none

theorem getFirst_eq (c : Conds) : getFirst (some (some c)) = .ok (readOf c.firstConst c.firstSig) := by
  simp only [getFirst, readOf]; cases c.firstSig <;> cases c.firstConst <;> rfl

theorem getSecond_eq (c : Conds) : getSecond (some (some c)) = .ok (readOf c.secondConst c.secondSig) := by
  simp only [getSecond, readOf]; cases c.secondSig <;> cases c.secondConst <;> rfl

theorem operandFields_eq (T : Table) (d : Option ℤ) (v : Arg) (hv : v ≠ .none ∨ d = none) :
    (∀ c s, operandFields T d v = .ok (c, s) → denotes T v = some (readOf c s)) ∧
      (∀ e, operandFields T d v = .error e → denotes T v = none) := by
  cases v with
  | none =>
    rcases hv with hv | rfl
    · exact absurd rfl hv
    · refine ⟨?_, by simp [operandFields, checkSig, Except.map]⟩
      intro c s h
      simp only [operandFields, checkSig, Except.map, Except.ok.injEq, Prod.mk.injEq] at h
      obtain ⟨rfl, rfl⟩ := h
      rfl
  | int n =>
    simp only [operandFields, denotes]
    by_cases h : -2147483648 ≤ n ∧ n ≤ 2147483647
    · rw [if_pos h, if_pos ((int32_iff n).mpr h)]
      refine ⟨?_, by simp⟩
      intro c s h
      simp only [Except.ok.injEq, Prod.mk.injEq] at h
      obtain ⟨rfl, rfl⟩ := h
      rfl
    · rw [if_neg h, if_neg (by rw [int32_iff]; exact h)]; simp
  | name s =>
    have hs := signalOf_eq T s
    simp only [operandFields, checkSig]
    cases h : signalOf T s with
    | ok x =>
      rw [hs.1 x h]
      refine ⟨?_, by simp [Except.map]⟩
      intro c s h
      simp only [Except.map, Except.ok.injEq, Prod.mk.injEq] at h
      obtain ⟨rfl, rfl⟩ := h
      rfl
    | error e => rw [hs.2 e h]; simp [Except.map]
  | sig s =>
    refine ⟨?_, by simp [operandFields, checkSig, Except.map]⟩
    intro c s h
    simp only [operandFields, checkSig, Except.map, Except.ok.injEq, Prod.mk.injEq] at h
    obtain ⟨rfl, rfl⟩ := h
    rfl

theorem step_reads (T : Table) (c : Conds) (i : Idea) (hr : Reads (some (some c)) i) (x : Step) (hx : x.Explicit) :
    ∃ c', (x.run T (some (some c))).1 = some (some c') ∧ Reads (some (some c')) (x.idea T i) := by
  obtain ⟨r1, r2, r3, r4⟩ := hr
  cases x with
  | first v =>
    have h := C48_first T c v
    simp only [Step.run, Step.idea]
    cases hd : denotes T v with
    | none => rw [hd] at h; obtain ⟨e, he⟩ := h; exact ⟨c, by rw [he], r1, r2, r3, r4⟩
    | some o =>
      rw [hd] at h
      obtain ⟨c', h1, h2, h3, h4⟩ := h
      refine ⟨c', by rw [h1], h2, ?_, ?_, ?_⟩
      · rw [h4]; exact r2
      · rw [h4]; exact r3
      · rw [h4]; exact r4
  | second v =>
    have h := C48_second T c v
    simp only [Step.run, Step.idea]
    cases hd : denotes T v with
    | none => rw [hd] at h; obtain ⟨e, he⟩ := h; exact ⟨c, by rw [he], r1, r2, r3, r4⟩
    | some o =>
      rw [hd] at h
      obtain ⟨c', h1, h2, h3, h4⟩ := h
      refine ⟨c', by rw [h1], ?_, h2, ?_, ?_⟩
      · rw [h4]; exact r1
      · rw [h4]; exact r3
      · rw [h4]; exact r4
  | op v =>
    simp only [Step.run, Step.idea, setOp]
    have h := checkOp_eq v
    cases hd : checkOp v with
    | ok o => rw [h.1 o hd]; exact ⟨_, rfl, r1, r2, rfl, r4⟩
    | error e => rw [h.2 e hd]; exact ⟨_, rfl, r1, r2, r3, r4⟩
  | output v =>
    simp only [Step.run, Step.idea, setOutput]
    have h := checkSig_eq T v
    cases hd : checkSig T v with
    | ok o => rw [h.1 o hd]; exact ⟨_, rfl, r1, r2, r3, rfl⟩
    | error e => rw [h.2 e hd]; exact ⟨_, rfl, r1, r2, r3, r4⟩
  | all f fn o s sn u =>
    simp only [Step.run, Step.idea, setAll]
    have hf := operandFields_eq T none f (Or.inr rfl)
    have hs := operandFields_eq T (some 0) s (Or.inl hx)
    have ho := checkOp_eq (some (o.getD "*"))
    have hu := checkSig_eq T u
    cases df : operandFields T none f with
    | error e => rw [hf.2 e df]; exact ⟨c, rfl, r1, r2, r3, r4⟩
    | ok pf =>
      obtain ⟨fc, fs⟩ := pf
      rw [hf.1 fc fs df]
      cases dop : checkOp (some (o.getD "*")) with
      | error e => rw [ho.2 e dop]; exact ⟨c, rfl, r1, r2, r3, r4⟩
      | ok o' =>
        rw [ho.1 o' dop]
        cases ds : operandFields T (some 0) s with
        | error e => rw [hs.2 e ds]; exact ⟨c, rfl, r1, r2, r3, r4⟩
        | ok ps =>
          obtain ⟨sc, ss⟩ := ps
          rw [hs.1 sc ss ds]
          cases du : checkSig T u with
          | error e => rw [hu.2 e du]; exact ⟨c, rfl, r1, r2, r3, r4⟩
          | ok u' =>
            rw [hu.1 u' du]
            exact ⟨_, rfl, getFirst_eq _, getSecond_eq _, rfl, rfl⟩
  | remove => exact absurd hx (by simp [Step.Explicit])

/-- C48: after any sequence of assignments that reads, at the start, as the caller takes it to, every setting reads as the caller takes it to.
Missing: removing the conditions, and setting everything with no second operand, see the refutations. -/
theorem C48_history_partial (T : Table) (l : List Step) (hl : ∀ x ∈ l, x.Explicit) (c : Conds) (i : Idea) (hr : Reads (some (some c)) i) :
    ∃ c', runAll T (some (some c)) l = some (some c') ∧ Reads (some (some c')) (l.foldl (Step.idea T) i) := by
  induction l generalizing c i with
  | nil => exact ⟨c, rfl, hr⟩
  | cons x t ih =>
    obtain ⟨c1, h1, h2⟩ := step_reads T c i hr x (hl x (by simp))
    have h3 := ih (fun y hy => hl y (by simp [hy])) c1 (x.idea T i) h2
    simp only [runAll, List.foldl_cons] at *
    rw [h1]
    exact h3

/-- C48: removing the conditions clears the first operand, the output signal and both sides' signals, whatever was stored before. -/
theorem C48_remove_partial (c : Option Conds) :
    ∃ c', remove (some c) = (some (some c'), none) ∧ getFirst (some (some c')) = .ok .none ∧ getOutput (some (some c')) = .ok none ∧
      c'.firstSig = none ∧ c'.secondSig = none ∧ getOp (some (some c')) = .ok (some "*") :=
  ⟨{}, rfl, rfl, rfl, rfl, rfl, rfl⟩

/-- Two signals. -/
def exTable : Table := fun s => if s = "signal-A" then some ["virtual"] else if s = "iron-plate" then some ["recipe", "item"] else none

example : (∀ x ∈ [Step.first (.name "signal-A"), .second (.int 7), .first (.int 5000000000), .op (some "xor"),
      .all (.int 3) (true, false) none (.name "iron-plate") (true, true) (.name "nothing"), .second (.name "iron-plate")], x.Explicit) ∧
    Reads (some (some {})) ⟨.none, .const 0, some "*", none⟩ ∧
    ([Step.first (.name "signal-A"), .second (.int 7), .first (.int 5000000000), .op (some "xor"),
      .all (.int 3) (true, false) none (.name "iron-plate") (true, true) (.name "nothing"), .second (.name "iron-plate")]).foldl
        (Step.idea exTable) ⟨.none, .const 0, some "*", none⟩ =
      ⟨.sig ⟨"signal-A", "virtual", "normal"⟩, .sig ⟨"iron-plate", "item", "normal"⟩, some "XOR", none⟩ := by
  refine ⟨?_, ⟨rfl, rfl, rfl, rfl⟩, by decide +kernel⟩
  intro x hx
  simp only [List.mem_cons, List.not_mem_nil, or_false] at hx
  rcases hx with rfl | rfl | rfl | rfl | rfl | rfl <;> simp [Step.Explicit]

/-! ### Which errors are raised -/

/-- The names of signals a step is given. -/
def Arg.names : Arg → List String
  | .name s => [s]
  | _ => []

/-- The names of signals a step is given. -/
def Step.names : Step → List String
  | .first v | .second v | .output v => v.names
  | .all f _ _ s _ u => f.names ++ s.names ++ u.names
  | _ => []

theorem signalOf_error {T : Table} {s : String} {e : PyErr} (h : signalOf T s = .error e) : e = .dataFormat ∨ e = .stopIteration ∧ T s = some [] := by
  unfold signalOf at h
  cases ht : T s with
  | none => rw [ht] at h; left; cases h; rfl
  | some ts =>
    rw [ht] at h
    cases ts with
    | nil => simp at h; right; exact ⟨h.symm, rfl⟩
    | cons t ts => by_cases hi : "item" ∈ t :: ts <;> simp only [hi, if_true, if_false] at h <;> cases h

theorem checkSig_error {T : Table} {v : Arg} {e : PyErr} (h : checkSig T v = .error e) :
    e = .dataFormat ∨ e = .stopIteration ∧ ∃ s ∈ v.names, T s = some [] := by
  cases v with
  | none => cases h
  | int n => cases h; exact .inl rfl
  | name s =>
    simp only [checkSig] at h
    cases hs : signalOf T s with
    | ok x => rw [hs] at h; cases h
    | error e' =>
      rw [hs] at h
      cases h
      exact (signalOf_error hs).imp_right fun h => ⟨h.1, s, by simp [Arg.names], h.2⟩
  | sig s => cases h

theorem operandFields_error {T : Table} {d : Option ℤ} {v : Arg} {e : PyErr} (h : operandFields T d v = .error e) :
    e = .dataFormat ∨ e = .stopIteration ∧ ∃ s ∈ v.names, T s = some [] := by
  cases v with
  | int n =>
    rw [operandFields] at h
    by_cases hn : int32 n = true
    · rw [if_pos hn] at h; cases h
    · rw [if_neg hn] at h; cases h; exact .inl rfl
  | _ =>
    rw [operandFields] at h
    · generalize hc : checkSig T _ = r at h
      cases r with
      | ok _ => cases h
      | error e' => cases h; exact checkSig_error hc
    · simp

theorem checkOp_error {v : Option String} {e : PyErr} (h : checkOp v = .error e) : e = .dataFormat := by
  cases v with
  | none => cases h
  | some s =>
    rw [checkOp] at h
    by_cases hs : s.toUpper ∈ operations
    · rw [if_pos hs] at h; cases h
    · rw [if_neg hs] at h; cases h; rfl

/-- C48: whatever fails is a `DataFormatError`, except that a signal the data gives no type at all is a `StopIteration`. -/
theorem C48_refused (T : Table) (c : Option Conds) (x : Step) (e : PyErr) (h : (x.run T (some c)).2 = some e) :
    e = .dataFormat ∨ e = .stopIteration ∧ ∃ s ∈ x.names, T s = some [] := by
  cases x with
  | first v =>
    cases v with
    | none => cases h
    | int n =>
      simp only [Step.run, setFirst] at h
      by_cases hn : int32 n = true
      · rw [if_pos hn] at h; cases h
      · rw [if_neg hn] at h; cases h; exact .inl rfl
    | name s =>
      simp only [Step.run, setFirst] at h
      cases hc : checkSig T (.name s) with
      | ok _ => rw [hc] at h; cases h
      | error e' => rw [hc] at h; cases h; exact checkSig_error hc
    | sig s => cases h
  | second v =>
    cases v with
    | none => cases h
    | int n =>
      simp only [Step.run, setSecond] at h
      by_cases hn : int32 n = true
      · rw [if_pos hn] at h; cases h
      · rw [if_neg hn] at h; cases h; exact .inl rfl
    | name s =>
      simp only [Step.run, setSecond] at h
      cases hc : checkSig T (.name s) with
      | ok _ => rw [hc] at h; cases h
      | error e' => rw [hc] at h; cases h; exact checkSig_error hc
    | sig s => cases h
  | op v =>
    simp only [Step.run, setOp] at h
    cases hc : checkOp v with
    | ok _ => rw [hc] at h; cases h
    | error e' => rw [hc] at h; cases h; exact .inl (checkOp_error hc)
  | output v =>
    simp only [Step.run, setOutput] at h
    cases hc : checkSig T v with
    | ok _ => rw [hc] at h; cases h
    | error e' => rw [hc] at h; cases h; exact checkSig_error hc
  | all f fn o s sn u =>
    simp only [Step.run, setAll] at h
    cases hf : operandFields T none f with
    | error e' =>
      rw [hf] at h; cases h
      exact (operandFields_error hf).imp_right fun ⟨h1, n, h2, h3⟩ => ⟨h1, n, by simp [Step.names, h2], h3⟩
    | ok pf =>
      cases ho : checkOp (some (o.getD "*")) with
      | error e' => rw [hf, ho] at h; cases h; exact .inl (checkOp_error ho)
      | ok o' =>
        cases hs : operandFields T (some 0) s with
        | error e' =>
          rw [hf, ho, hs] at h; cases h
          exact (operandFields_error hs).imp_right fun ⟨h1, n, h2, h3⟩ => ⟨h1, n, by simp [Step.names, h2], h3⟩
        | ok ps =>
          cases hu : checkSig T u with
          | error e' =>
            rw [hf, ho, hs, hu] at h; cases h
            exact (checkSig_error hu).imp_right fun ⟨h1, n, h2, h3⟩ => ⟨h1, n, by simp [Step.names, h2], h3⟩
          | ok u' => rw [hf, ho, hs, hu] at h; cases h
  | remove => cases h

example : ((Step.output (.int 3)).run exTable (some (some {}))).2 = some .dataFormat ∧
    ((Step.all (.int 5000000000) (true, true) none .none (true, true) .none).run exTable (some none)).2 = some .dataFormat := by decide +kernel

/-! ### Where it fails -/

/-- C48 refuted: removing the conditions leaves the second operand as the constant 0, whatever it was (even nothing). -/
theorem C48_remove_refuted (c : Option Conds) : getSecond (remove (some c)).1 = .ok (.const 0) ∧
    (∃ c, getSecond (some c) = .ok .none ∧ getSecond (remove (some c)).1 ≠ .ok .none) := by
  refine ⟨rfl, some { secondConst := none }, rfl, by decide⟩

/-- C48 refuted: setting everything with no second operand makes it the constant 0. -/
theorem C48_all_none_refuted (T : Table) (st : State) (fn sn : Nets) (o : Option String) (f u : Arg)
    (hok : (setAll T st f fn o .none sn u).2 = none) :
    getSecond (setAll T st f fn o .none sn u).1 = .ok (.const 0) := by
  simp only [setAll] at hok ⊢
  cases h1 : operandFields T none f with
  | error e => rw [h1] at hok; simp at hok
  | ok p =>
    cases h2 : checkOp (some (o.getD "*")) with
    | error e => rw [h1, h2] at hok; simp at hok
    | ok o' =>
      cases h3 : checkSig T u with
      | error e => rw [h1, h2, h3] at hok; simp [operandFields, checkSig, Except.map] at hok
      | ok u' => simp [operandFields, checkSig, Except.map, getSecond]

example : (setAll exTable none (.name "signal-A") (true, true) none .none (true, true) .none).2 = none := by decide +kernel

/-- C48 refuted: setting everything with a signal as second operand leaves the constant 0 stored beside it. -/
theorem C48_stale_refuted : ∃ (T : Table) (c' : Conds) (s : Sig),
    setAll T (some (some {})) .none (true, true) none (.sig s) (true, true) .none = (some (some c'), none) ∧
      getSecond (some (some c')) = .ok (.sig s) ∧ ¬ Holds (.sig s) c'.secondConst c'.secondSig :=
  ⟨exTable, { secondSig := some ⟨"signal-A", "virtual", "normal"⟩ }, ⟨"signal-A", "virtual", "normal"⟩, by decide +kernel, rfl, by simp [Holds]⟩

/-- C48 refuted: once the control behaviour has been set to `None`, which is accepted, no setting can be read, and none be changed but by setting all at once. -/
theorem C48_none_refuted (T : Table) (st : State) (x : Step) (hx : ∀ f fn o s sn u, x ≠ .all f fn o s sn u) :
    (dropBehavior st).2 = none ∧ x.run T (dropBehavior st).1 = (none, some .attributeError) ∧
      getFirst (dropBehavior st).1 = .error .attributeError ∧ getSecond (dropBehavior st).1 = .error .attributeError ∧
      getOp (dropBehavior st).1 = .error .attributeError ∧ getOutput (dropBehavior st).1 = .error .attributeError := by
  refine ⟨rfl, ?_, rfl, rfl, rfl, rfl⟩
  cases x with
  | all f fn o s sn u => exact absurd rfl (hx f fn o s sn u)
  | _ => rfl

end Arith
end Draftsman
