import Verif.Model.Wires
import Verif.Props.Group
import Mathlib.Data.List.Basic
import Mathlib.Analysis.Real.Sqrt
/-
C30, C31: wires.
-/
namespace Draftsman
open GHeap

/-- The arguments of a wire call: `none` for a copper wire, otherwise the colour. -/
structure WArgs where
  color : Option String
  e1 : EL
  e2 : EL
  side1 : String
  side2 : String

/-- The wire calls, with the warnings issued. -/
def WArgs.call (a : WArgs) (c : WColl) : Except PyErr (WColl × List WireWarn) :=
  match a.color with
  | none => c.addPower a.e1 a.e2 a.side1 a.side2
  | some k => c.addCircuit k a.e1 a.e2 a.side1 a.side2

/-- The wire calls. -/
def WArgs.add (a : WArgs) (c : WColl) : Except PyErr WColl := (a.call c).map Prod.fst

def WArgs.remove (a : WArgs) (c : WColl) : Except PyErr WColl :=
  match a.color with
  | none => c.removePower a.e1 a.e2 a.side1 a.side2
  | some k => c.removeCircuit k a.e1 a.e2 a.side1 a.side2

/-- The connector numbers of the blueprint format: 1 and 2 for the red and green input, 3 and 4 for the red and green output, 5
for copper and 6 for the second copper side of a power switch. -/
def WArgs.connector (color : Option String) (side : String) : ℕ :=
  match color, side with
  | none, "input" => 5
  | none, _ => 6
  | some "red", "input" => 1
  | some "green", "input" => 2
  | some "red", _ => 3
  | some _, _ => 4

/-- The wire that the arguments describe. -/
def WArgs.wire (a : WArgs) : Wire :=
  ⟨a.e1.uid, WArgs.connector a.color a.side1, a.e2.uid, WArgs.connector a.color a.side2⟩

/-- The arguments name a colour and sides that exist. -/
def WArgs.Named (a : WArgs) : Prop :=
  (a.color = none ∨ a.color = some "red" ∨ a.color = some "green") ∧ (a.side1 = "input" ∨ a.side1 = "output") ∧
  (a.side2 = "input" ∨ a.side2 = "output")

/-- Both ends are in the collection (up to `==`). -/
def WArgs.Inside (a : WArgs) (c : WColl) : Prop := (∃ m ∈ c.members, m.eqv a.e1 = true) ∧ (∃ m ∈ c.members, m.eqv a.e2 = true)

/-- Both ends can take such a wire. -/
def WArgs.Connectable (a : WArgs) (c : WColl) : Prop :=
  match a.color with
  | none => c.power a.e1.uid = true ∧ c.power a.e2.uid = true
  | some _ => c.circuit a.e1.uid = true ∧ c.circuit a.e2.uid = true

/-- `r` is how far an entity of a known name reaches with copper wires. -/
def WColl.Copper (c : WColl) (u : ℕ) (r : ℚ) : Prop :=
  ∃ p, c.proto u = some p ∧ (c.kind u = .switch → r = p.wireMax.getD 0) ∧ (c.kind u ≠ .switch → p.maximum = some r)

/-- `r` is how far an entity of a known name reaches with circuit wires. -/
def WColl.Wired (c : WColl) (u : ℕ) (r : ℚ) : Prop :=
  ∃ p, c.proto u = some p ∧ (c.kind u = .pole → r = p.maximum.getD 0) ∧ (c.kind u = .switch → r = p.wireMax.getD 0) ∧
    (c.kind u = .combinator ∨ c.kind u = .other → r = p.circuitMax.getD 0)

/-- How far an end reaches. -/
def WArgs.Reach (a : WArgs) (c : WColl) (u : ℕ) (r : ℚ) : Prop :=
  match a.color with
  | none => c.Copper u r
  | some _ => c.Wired u r

/-- It is known of both ends how far they reach. -/
def WArgs.Known (a : WArgs) (c : WColl) : Prop := (∃ r, a.Reach c a.e1.uid r) ∧ ∃ r, a.Reach c a.e2.uid r

theorem powerReach_iff (c : WColl) (u : ℕ) (r : ℚ) : powerReach (c.kind u) (c.proto u) = .ok (some r) ↔ c.Copper u r := by
  unfold powerReach WColl.Copper
  cases hp : c.proto u with
  | none => by_cases hk : c.kind u = .switch <;> simp [hk]
  | some p =>
    by_cases hk : c.kind u = .switch
    · simp [hk, eq_comm]
    · cases hm : p.maximum <;> simp [hk, hm]

theorem circuitReach_iff (c : WColl) (u : ℕ) (r : ℚ) : circuitReach (c.kind u) (c.proto u) = some r ↔ c.Wired u r := by
  unfold circuitReach WColl.Wired
  cases hp : c.proto u with
  | none => simp
  | some p => cases hk : c.kind u <;> simp [eq_comm]

theorem WColl.minReach_ok {a b : Option ℚ} {r : ℚ} (h : WColl.minReach a b = .ok r) : ∃ x y, a = some x ∧ b = some y ∧ r = min x y := by
  cases a with
  | none => cases h
  | some x =>
    cases b with
    | none => cases h
    | some y => exact ⟨x, y, rfl, rfl, (Except.ok.inj h).symm⟩

theorem WColl.has_iff (c : WColl) (e : EL) : c.has e = true ↔ ∃ m ∈ c.members, m.eqv e = true := by
  simp [WColl.has]

theorem WColl.powerSide_iff (s : String) : (∃ t, WColl.powerSide s = some t) ↔ s = "input" ∨ s = "output" := by
  unfold WColl.powerSide
  by_cases h : s = "input"
  · simp [h]
  · by_cases h' : s = "output" <;> simp [h, h']

theorem WColl.circuitSide_iff (s : String) : (∃ t, WColl.circuitSide s = some t) ↔ s = "input" ∨ s = "output" := by
  unfold WColl.circuitSide
  by_cases h : s = "input"
  · simp [h]
  · by_cases h' : s = "output" <;> simp [h, h']

theorem WColl.colorVal_iff (s : String) : (∃ t, WColl.colorVal s = some t) ↔ s = "red" ∨ s = "green" := by
  unfold WColl.colorVal
  by_cases h : s = "red"
  · simp [h]
  · by_cases h' : s = "green" <;> simp [h, h']

/-- The warnings of a call whose ends reach as far as given. -/
def WArgs.warns (a : WArgs) (c : WColl) (r1 r2 : ℚ) : List WireWarn :=
  match a.color with
  | none => c.distanceWarn a.e1.uid a.e2.uid (min r1 r2)
  | some _ => c.sideWarn a.e1.uid a.e2.uid a.side1 a.side2 ++ c.distanceWarn a.e1.uid a.e2.uid (min r1 r2)

theorem WArgs.call_ok (a : WArgs) (c : WColl) (hn : a.Named) (hi : a.Inside c) (hc : a.Connectable c) {r1 r2 : ℚ} (hr1 : a.Reach c a.e1.uid r1)
    (hr2 : a.Reach c a.e2.uid r2) : a.call c = .ok ({ c with wires := c.wires ++ [a.wire] }, a.warns c r1 r2) := by
  obtain ⟨color, e1, e2, side1, side2⟩ := a
  obtain ⟨h1, h2, h3⟩ := hn
  have i1 := (c.has_iff e1).2 hi.1
  have i2 := (c.has_iff e2).2 hi.2
  simp only at h1 h2 h3
  rcases h1 with rfl | h1
  · have g1 := (powerReach_iff _ _ _).2 hr1
    have g2 := (powerReach_iff _ _ _).2 hr2
    clear hr1 hr2
    dsimp only at g1 g2
    simp only [WArgs.Connectable] at hc
    rcases h2 with rfl | rfl <;> rcases h3 with rfl | rfl <;>
    simp [WArgs.call, WColl.addPower, WColl.powerSide, i1, i2, hc.1, hc.2, g1, g2, WColl.minReach, WArgs.wire, WArgs.connector, WArgs.warns]
  · obtain ⟨k, hk⟩ : ∃ k, color = some k := by rcases h1 with rfl | rfl <;> exact ⟨_, rfl⟩
    subst hk
    have g1 := (circuitReach_iff _ _ _).2 hr1
    have g2 := (circuitReach_iff _ _ _).2 hr2
    clear hr1 hr2
    dsimp only at g1 g2
    simp only [WArgs.Connectable] at hc
    simp only [Option.some.injEq] at h1
    rcases h1 with rfl | rfl <;> rcases h2 with rfl | rfl <;> rcases h3 with rfl | rfl <;>
    simp [WArgs.call, WColl.addCircuit, WColl.circuitSide, WColl.colorVal, i1, i2, hc.1, hc.2, g1, g2, WColl.minReach,
      WArgs.wire, WArgs.connector, WArgs.warns]

theorem WArgs.add_ok (a : WArgs) (c : WColl) (hn : a.Named) (hi : a.Inside c) (hc : a.Connectable c) (hk : a.Known c) :
    a.add c = .ok { c with wires := c.wires ++ [a.wire] } := by
  obtain ⟨⟨r1, h1⟩, r2, h2⟩ := hk
  rw [WArgs.add, a.call_ok c hn hi hc h1 h2]
  rfl

theorem WArgs.remove_ok (a : WArgs) (c : WColl) (hn : a.Named) (hi : a.Inside c) :
    a.remove c = .ok { c with wires := (c.wires.erase a.wire).erase a.wire.flip } := by
  obtain ⟨color, e1, e2, side1, side2⟩ := a
  obtain ⟨h1, h2, h3⟩ := hn
  have i1 := (c.has_iff e1).2 hi.1
  have i2 := (c.has_iff e2).2 hi.2
  simp only at h1 h2 h3
  rcases h1 with rfl | rfl | rfl <;> rcases h2 with rfl | rfl <;> rcases h3 with rfl | rfl <;>
    simp [WArgs.remove, WColl.removePower, WColl.removeCircuit, WColl.powerSide, WColl.circuitSide, WColl.colorVal, i1, i2,
      WArgs.wire, WArgs.connector, WColl.removeOne, Wire.flip]

theorem WArgs.call_needs (a : WArgs) (c : WColl) (x : WColl × List WireWarn) (h : a.call c = .ok x) : a.Named ∧ a.Inside c ∧ a.Connectable c ∧ a.Known c := by
  obtain ⟨color, e1, e2, side1, side2⟩ := a
  by_cases i1 : c.has e1 = true
  · by_cases i2 : c.has e2 = true
    · have hi : (⟨color, e1, e2, side1, side2⟩ : WArgs).Inside c := ⟨(c.has_iff e1).1 i1, (c.has_iff e2).1 i2⟩
      cases color with
      | none =>
        simp only [WArgs.call, WColl.addPower, i1, i2, Bool.not_true, Bool.false_eq_true, if_false] at h
        cases p1 : WColl.powerSide side1 with
        | none => simp [p1] at h
        | some t1 =>
          cases p2 : WColl.powerSide side2 with
          | none => simp [p1, p2] at h
          | some t2 =>
            simp only [p1, p2] at h
            refine ⟨⟨Or.inl rfl, (WColl.powerSide_iff _).1 ⟨_, p1⟩, (WColl.powerSide_iff _).1 ⟨_, p2⟩⟩, hi, ?_⟩
            simp only [WArgs.Connectable]
            cases q1 : c.power e1.uid <;> cases q2 : c.power e2.uid <;> rw [q1, q2] at h <;> try cases h
            cases g1 : powerReach (c.kind e1.uid) (c.proto e1.uid) with
            | error x => rw [g1] at h; cases h
            | ok r1 =>
              cases g2 : powerReach (c.kind e2.uid) (c.proto e2.uid) with
              | error x => rw [g1, g2] at h; cases h
              | ok r2 =>
                rw [g1, g2] at h
                dsimp only at h
                cases hm : WColl.minReach r1 r2 with
                | error x => rw [hm] at h; cases h
                | ok r =>
                  obtain ⟨x, y, rfl, rfl, -⟩ := WColl.minReach_ok hm
                  exact ⟨⟨rfl, rfl⟩, ⟨x, (powerReach_iff _ _ _).1 g1⟩, y, (powerReach_iff _ _ _).1 g2⟩
      | some k =>
        simp only [WArgs.call, WColl.addCircuit, i1, i2, Bool.not_true, Bool.false_eq_true, if_false] at h
        cases pk : WColl.colorVal k with
        | none => simp [pk] at h
        | some kv =>
          cases p1 : WColl.circuitSide side1 with
          | none => simp [pk, p1] at h
          | some t1 =>
            cases p2 : WColl.circuitSide side2 with
            | none => simp [pk, p1, p2] at h
            | some t2 =>
              simp only [pk, p1, p2] at h
              refine ⟨⟨Or.inr ?_, (WColl.circuitSide_iff _).1 ⟨_, p1⟩, (WColl.circuitSide_iff _).1 ⟨_, p2⟩⟩, hi, ?_⟩
              · rcases (WColl.colorVal_iff _).1 ⟨_, pk⟩ with rfl | rfl <;> simp
              · simp only [WArgs.Connectable]
                cases q1 : c.circuit e1.uid <;> cases q2 : c.circuit e2.uid <;> rw [q1, q2] at h <;> try cases h
                cases hm : WColl.minReach (circuitReach (c.kind e1.uid) (c.proto e1.uid)) (circuitReach (c.kind e2.uid) (c.proto e2.uid)) with
                | error x => rw [hm] at h; cases h
                | ok r =>
                  obtain ⟨x, y, g1, g2, -⟩ := WColl.minReach_ok hm
                  exact ⟨⟨rfl, rfl⟩, ⟨x, (circuitReach_iff _ _ _).1 g1⟩, y, (circuitReach_iff _ _ _).1 g2⟩
    · cases color <;> simp [WArgs.call, WColl.addPower, WColl.addCircuit, i1, i2] at h
  · cases color <;> simp [WArgs.call, WColl.addPower, WColl.addCircuit, i1] at h

theorem WArgs.add_needs (a : WArgs) (c c' : WColl) (h : a.add c = .ok c') : a.Named ∧ a.Inside c ∧ a.Connectable c ∧ a.Known c := by
  rw [WArgs.add] at h
  cases hx : a.call c with
  | error e => rw [hx] at h; cases h
  | ok x => exact a.call_needs c x hx

/-- C30: a connection is added exactly when colour and sides exist, both ends are in the collection and can take the wire, and it is known how far they
reach; the call then appends the wire described and changes nothing else. -/
theorem C30_add (a : WArgs) (c : WColl) :
    ((∃ c', a.add c = .ok c') ↔ a.Named ∧ a.Inside c ∧ a.Connectable c ∧ a.Known c) ∧
    ∀ c', a.add c = .ok c' → a.wire ∈ c'.wires ∧ c'.wires = c.wires ++ [a.wire] ∧ c'.members = c.members := by
  refine ⟨⟨fun ⟨c', h⟩ => a.add_needs c c' h, fun ⟨h1, h2, h3, h4⟩ => ⟨_, a.add_ok c h1 h2 h3 h4⟩⟩, fun c' h => ?_⟩
  obtain ⟨h1, h2, h3, h4⟩ := a.add_needs c c' h
  rw [a.add_ok c h1 h2 h3 h4] at h
  simp only [Except.ok.injEq] at h
  subst h
  simp

theorem WColl.tooFar_iff (a b : Vec) (r : ℚ) : WColl.tooFar a b r = true ↔ (r : ℝ) < Real.sqrt ((a.x - b.x) ^ 2 + (a.y - b.y) ^ 2) := by
  have he : ((a.x - b.x : ℝ) ^ 2 + (a.y - b.y : ℝ) ^ 2) = (((a.x - b.x) * (a.x - b.x) + (a.y - b.y) * (a.y - b.y) : ℚ) : ℝ) := by push_cast; ring
  rw [he, WColl.tooFar, Bool.not_eq_true', Bool.and_eq_false_iff, decide_eq_false_iff_not, decide_eq_false_iff_not]
  constructor
  · intro h
    by_cases h0 : 0 ≤ r
    · have h := h.resolve_left (not_not.2 h0)
      rw [Real.lt_sqrt (by exact_mod_cast h0), sq]
      exact_mod_cast not_le.1 h
    · exact lt_of_lt_of_le (by exact_mod_cast not_le.1 h0) (Real.sqrt_nonneg _)
  · intro h
    by_cases h0 : 0 ≤ r
    · right
      rw [Real.lt_sqrt (by exact_mod_cast h0), sq] at h
      exact not_le.2 (by exact_mod_cast h)
    · exact .inl h0

/-- C30: there is a warning about the distance just if the two ends are further apart than either reaches, and one about a side just if a circuit wire is to
go to the output of something that is no combinator; each at most once. -/
theorem C30_warnings (a : WArgs) (c c' : WColl) (ws : List WireWarn) (h : a.call c = .ok (c', ws)) :
    ws.Nodup ∧ (.side1 ∈ ws ↔ a.color ≠ none ∧ a.side1 = "output" ∧ c.kind a.e1.uid ≠ .combinator) ∧
      (.side2 ∈ ws ↔ a.color ≠ none ∧ a.side2 = "output" ∧ c.kind a.e2.uid ≠ .combinator) ∧
      ∀ r1 r2, a.Reach c a.e1.uid r1 → a.Reach c a.e2.uid r2 →
        (.distance ∈ ws ↔ ((min r1 r2 : ℚ) : ℝ) < Real.sqrt (((c.pos a.e1.uid).x - (c.pos a.e2.uid).x) ^ 2 + ((c.pos a.e1.uid).y - (c.pos a.e2.uid).y) ^ 2)) := by
  obtain ⟨h1, h2, h3, ⟨r1, h4⟩, r2, h5⟩ := a.call_needs c _ h
  have key : ∀ x y, a.Reach c a.e1.uid x → a.Reach c a.e2.uid y → ws = a.warns c x y := by
    intro x y hx hy
    rw [a.call_ok c h1 h2 h3 hx hy] at h
    simp only [Except.ok.injEq, Prod.mk.injEq] at h
    exact h.2.symm
  refine ⟨?_, ?_, ?_, fun x y hx hy => ?_⟩
  · rw [key _ _ h4 h5, WArgs.warns, WColl.distanceWarn, WColl.sideWarn]
    cases a.color <;> dsimp only <;> split <;> (try split) <;> (try split) <;> decide
  · rw [key _ _ h4 h5, WArgs.warns, WColl.distanceWarn, WColl.sideWarn]
    cases a.color <;> dsimp only <;> simp
  · rw [key _ _ h4 h5, WArgs.warns, WColl.distanceWarn, WColl.sideWarn]
    cases a.color <;> dsimp only <;> simp
  · rw [key _ _ hx hy, ← WColl.tooFar_iff, WArgs.warns, WColl.distanceWarn, WColl.sideWarn]
    cases a.color <;> dsimp only <;> simp

/-- An end of a copper wire has a prototype without `maximum_wire_distance`. -/
def WArgs.Lacks (a : WArgs) (c : WColl) : Prop :=
  a.color = none ∧ ∃ u, (u = a.e1.uid ∨ u = a.e2.uid) ∧ c.kind u ≠ .switch ∧ ∃ p, c.proto u = some p ∧ p.maximum = none

/-- C30: which error there is: for ends that are not in the collection, then for colours, then for sides, then for ends that take no such wire; and at last,
if it is not known how far an end reaches, a `KeyError` if that is missing from a prototype, and a `TypeError` if the name is unknown. -/
theorem C30_fails (a : WArgs) (c : WColl) :
    (¬ a.Inside c → a.call c = .error .invalidAssociation) ∧
    (a.Inside c → (∃ k, a.color = some k ∧ k ≠ "red" ∧ k ≠ "green") → a.call c = .error .invalidWireType) ∧
    (a.Inside c → (a.color = none ∨ a.color = some "red" ∨ a.color = some "green") → ¬ ((a.side1 = "input" ∨ a.side1 = "output") ∧ (a.side2 = "input" ∨ a.side2 = "output")) →
      a.call c = .error .invalidConnectionSide) ∧
    (a.Inside c → a.Named → ¬ a.Connectable c → a.call c = .error (if a.color = none then .notPowerConnectable else .notCircuitConnectable)) ∧
    (a.Inside c → a.Named → a.Connectable c → ¬ a.Known c → (a.Lacks c → a.call c = .error .keyError) ∧ (¬ a.Lacks c → a.call c = .error .typeError)) := by
  obtain ⟨color, e1, e2, side1, side2⟩ := a
  simp only [WArgs.Inside, WArgs.Named, ← WColl.has_iff, ← WColl.powerSide_iff]
  refine ⟨fun h => ?_, fun h hk => ?_, fun h hc hs => ?_, fun h hn hc => ?_, fun h hn hc hk => ?_⟩
  · cases color <;> simp only [WArgs.call, WColl.addPower, WColl.addCircuit] <;> by_cases h1 : c.has e1 = true
    · rw [if_neg (by simp [h1]), if_pos (by simpa [h1] using h)]
    · rw [if_pos (by simpa using h1)]
    · rw [if_neg (by simp [h1]), if_pos (by simpa [h1] using h)]
    · rw [if_pos (by simpa using h1)]
  · obtain ⟨k, rfl, h1, h2⟩ := hk
    simp [WArgs.call, WColl.addCircuit, h.1, h.2, WColl.colorVal, h1, h2]
  · have key : ∀ s, (∃ t, WColl.powerSide s = some t) ↔ ∃ t, WColl.circuitSide s = some t := fun s => by rw [WColl.powerSide_iff, WColl.circuitSide_iff]
    rcases hc with rfl | hc
    · simp only [WArgs.call, WColl.addPower, h.1, h.2, Bool.not_true, Bool.false_eq_true, if_false]
      cases p1 : WColl.powerSide side1 with
      | none => rfl
      | some t1 =>
        cases p2 : WColl.powerSide side2 with
        | none => rfl
        | some t2 => exact absurd ⟨⟨_, p1⟩, ⟨_, p2⟩⟩ hs
    · rw [key, key] at hs
      obtain ⟨k, rfl, hk⟩ : ∃ k, color = some k ∧ ∃ v, WColl.colorVal k = some v := by rcases hc with rfl | rfl <;> exact ⟨_, rfl, _, rfl⟩
      obtain ⟨v, hk⟩ := hk
      simp only [WArgs.call, WColl.addCircuit, h.1, h.2, Bool.not_true, Bool.false_eq_true, if_false, hk]
      cases p1 : WColl.circuitSide side1 with
      | none => rfl
      | some t1 =>
        cases p2 : WColl.circuitSide side2 with
        | none => rfl
        | some t2 => exact absurd ⟨⟨_, p1⟩, ⟨_, p2⟩⟩ hs
  · obtain ⟨hn, hs1, hs2⟩ := hn
    cases color with
    | none =>
      obtain ⟨t1, p1⟩ := hs1
      obtain ⟨t2, p2⟩ := hs2
      simp only [WArgs.call, WColl.addPower, h.1, h.2, Bool.not_true, Bool.false_eq_true, if_false, p1, p2, if_true]
      simp only [WArgs.Connectable] at hc
      by_cases q1 : c.power e1.uid = true
      · rw [if_neg (by simp [q1]), if_pos (by simpa [q1] using hc)]
      · rw [if_pos (by simpa using q1)]
    | some k =>
      obtain ⟨v, hk⟩ := (WColl.colorVal_iff k).2 (by simpa using hn)
      obtain ⟨t1, p1⟩ := (WColl.circuitSide_iff _).2 ((WColl.powerSide_iff _).1 hs1)
      obtain ⟨t2, p2⟩ := (WColl.circuitSide_iff _).2 ((WColl.powerSide_iff _).1 hs2)
      simp only [WArgs.call, WColl.addCircuit, h.1, h.2, Bool.not_true, Bool.false_eq_true, if_false, p1, p2, hk, reduceCtorEq]
      simp only [WArgs.Connectable] at hc
      by_cases q1 : c.circuit e1.uid = true
      · rw [if_neg (by simp [q1]), if_pos (by simpa [q1] using hc)]
      · rw [if_pos (by simpa using q1)]
  · obtain ⟨hn, hs1, hs2⟩ := hn
    cases color with
    | none =>
      obtain ⟨t1, p1⟩ := hs1
      obtain ⟨t2, p2⟩ := hs2
      simp only [WArgs.Connectable] at hc
      simp only [WArgs.Known, WArgs.Reach, ← powerReach_iff] at hk
      simp only [WArgs.call, WColl.addPower, h.1, h.2, hc.1, hc.2, Bool.not_true, Bool.false_eq_true, if_false, p1, p2, WArgs.Lacks, true_and]
      have err : ∀ u, (c.kind u ≠ .switch ∧ ∃ p, c.proto u = some p ∧ p.maximum = none) ↔ powerReach (c.kind u) (c.proto u) = .error .keyError := by
        intro u
        unfold powerReach
        by_cases hu : c.kind u = .switch
        · simp [hu]
        · cases hp : c.proto u with
          | none => simp [hu]
          | some p => cases hm : p.maximum <;> simp [hu, hm]
      have err' : ∀ u x, powerReach (c.kind u) (c.proto u) = .error x → x = .keyError := by
        intro u x hx
        unfold powerReach at hx
        by_cases hu : c.kind u = .switch
        · rw [if_pos hu] at hx; cases hx
        · rw [if_neg hu] at hx
          cases hp : c.proto u with
          | none => rw [hp] at hx; cases hx
          | some p =>
            rw [hp] at hx
            cases hm : p.maximum with
            | none => dsimp only at hx; rw [hm] at hx; cases hx; rfl
            | some r => dsimp only at hx; rw [hm] at hx; cases hx
      simp only [err, or_and_right, exists_or, exists_eq_left]
      cases g1 : powerReach (c.kind e1.uid) (c.proto e1.uid) with
      | error x => rw [err' _ _ g1]; exact ⟨fun _ => rfl, fun h => absurd (.inl rfl) h⟩
      | ok r1 =>
        cases g2 : powerReach (c.kind e2.uid) (c.proto e2.uid) with
        | error x => rw [err' _ _ g2]; exact ⟨fun _ => rfl, fun h => absurd (.inr rfl) h⟩
        | ok r2 =>
          refine ⟨fun h => (by simp at h), fun _ => ?_⟩
          rw [g1, g2] at hk
          cases r1 with
          | none => rfl
          | some x =>
            cases r2 with
            | none => rfl
            | some y => exact absurd ⟨⟨x, rfl⟩, ⟨y, rfl⟩⟩ hk
    | some k =>
      obtain ⟨v, hv⟩ := (WColl.colorVal_iff k).2 (by simpa using hn)
      obtain ⟨t1, p1⟩ := (WColl.circuitSide_iff _).2 ((WColl.powerSide_iff _).1 hs1)
      obtain ⟨t2, p2⟩ := (WColl.circuitSide_iff _).2 ((WColl.powerSide_iff _).1 hs2)
      simp only [WArgs.Connectable] at hc
      simp only [WArgs.Known, WArgs.Reach, ← circuitReach_iff] at hk
      simp only [WArgs.call, WColl.addCircuit, h.1, h.2, hc.1, hc.2, Bool.not_true, Bool.false_eq_true, if_false, p1, p2, hv, WArgs.Lacks, reduceCtorEq, false_and]
      refine ⟨nofun, fun _ => ?_⟩
      cases g1 : circuitReach (c.kind e1.uid) (c.proto e1.uid) with
      | none => rfl
      | some x =>
        cases g2 : circuitReach (c.kind e2.uid) (c.proto e2.uid) with
        | none => rfl
        | some y => exact absurd ⟨⟨x, g1⟩, ⟨y, g2⟩⟩ hk

/-- C30: different wire arguments describe different wires: the connector numbers tell colour and side. -/
theorem C30_wire_injective (a b : WArgs) (ha : a.Named) (hb : b.Named) (h : a.wire = b.wire) :
    a.color = b.color ∧ a.side1 = b.side1 ∧ a.side2 = b.side2 ∧ a.e1.uid = b.e1.uid ∧ a.e2.uid = b.e2.uid := by
  obtain ⟨color, e1, e2, side1, side2⟩ := a
  obtain ⟨color', e1', e2', side1', side2'⟩ := b
  obtain ⟨h1, h2, h3⟩ := ha
  obtain ⟨g1, g2, g3⟩ := hb
  simp only at h1 h2 h3 g1 g2 g3
  simp only [WArgs.wire, Wire.mk.injEq] at h
  obtain ⟨x1, x2, x3, x4⟩ := h
  rcases h1 with rfl | rfl | rfl <;> rcases h2 with rfl | rfl <;> rcases g1 with rfl | rfl | rfl <;>
    rcases g2 with rfl | rfl <;> simp [WArgs.connector] at x2 <;>
    rcases h3 with rfl | rfl <;> rcases g3 with rfl | rfl <;> simp_all [WArgs.connector]

/-- C30: a removal deletes, if there, one wire of each orientation and keeps all other wires in order. -/
theorem C30_remove (a : WArgs) (c : WColl) (hn : a.Named) (hi : a.Inside c) :
    ∃ c', a.remove c = .ok c' ∧ c'.wires.Sublist c.wires ∧
      (∀ w, w ≠ a.wire → w ≠ a.wire.flip → c'.wires.count w = c.wires.count w) ∧
      (a.wire ≠ a.wire.flip → c'.wires.count a.wire = c.wires.count a.wire - 1 ∧
        c'.wires.count a.wire.flip = c.wires.count a.wire.flip - 1) ∧
      (c.wires.filter fun w => decide (w ≠ a.wire ∧ w ≠ a.wire.flip)) = (c'.wires.filter fun w => decide (w ≠ a.wire ∧ w ≠ a.wire.flip)) := by
  refine ⟨_, a.remove_ok c hn hi, (List.erase_sublist).trans List.erase_sublist, ?_, ?_, ?_⟩
  · intro w h1 h2
    simp only
    rw [List.count_erase_of_ne h2, List.count_erase_of_ne h1]
  · intro hne
    simp only
    rw [List.count_erase_of_ne hne, List.count_erase_self, List.count_erase_self, List.count_erase_of_ne hne.symm]
    exact ⟨rfl, rfl⟩
  · simp only
    have key : ∀ (l : List Wire) (x : Wire) (p : Wire → Bool), p x = false → (l.erase x).filter p = l.filter p := by
      intro l x p hp
      induction l with
      | nil => rfl
      | cons y r ih =>
        rw [List.erase_cons]
        by_cases h : (y == x) = true
        · rw [if_pos h]
          have : y = x := by simpa using h
          subst this
          rw [List.filter_cons_of_neg (by simp [hp])]
        · rw [if_neg h]
          simp only [List.filter_cons, ih]
    rw [key _ _ _ (by simp), key _ _ _ (by simp)]

/-- C30: if the connection is present at most once, in one orientation or the other, it is absent in both after the removal.  Missing
for the full property: connections present more often. -/
theorem C30_remove_absent_partial (a : WArgs) (c : WColl) (hn : a.Named) (hi : a.Inside c)
    (h1 : c.wires.count a.wire ≤ 1) (h2 : c.wires.count a.wire.flip ≤ 1) :
    ∃ c', a.remove c = .ok c' ∧ a.wire ∉ c'.wires ∧ a.wire.flip ∉ c'.wires := by
  refine ⟨_, a.remove_ok c hn hi, ?_, ?_⟩
  · intro hm
    have := List.mem_of_mem_erase hm
    rw [← List.count_pos_iff, List.count_erase_self] at this
    omega
  · intro hm
    rw [← List.count_pos_iff, List.count_erase_self] at hm
    by_cases he : a.wire = a.wire.flip
    · rw [← he, List.count_erase_self] at hm; omega
    · rw [List.count_erase_of_ne (Ne.symm he)] at hm; omega

/-- C30: adding and then removing a connection that was not there restores the wires.  Missing: connections already present. -/
theorem C30_add_remove_partial (a : WArgs) (c c' : WColl) (h : a.add c = .ok c') (h1 : a.wire ∉ c.wires) (h2 : a.wire.flip ∉ c.wires) :
    a.remove c' = .ok c := by
  obtain ⟨hn, hi, hc, hk⟩ := a.add_needs c c' h
  rw [a.add_ok c hn hi hc hk] at h
  simp only [Except.ok.injEq] at h
  subst h
  rw [a.remove_ok { c with wires := c.wires ++ [a.wire] } hn hi]
  simp only
  rw [List.erase_append_right _ h1, show [a.wire].erase a.wire = [] by simp, List.append_nil, List.erase_of_not_mem h2]

/-- Two poles in a blueprint with a wire between two other entities. -/
def C30_coll : WColl := ⟨[⟨1, none, some 1⟩, ⟨2, none, some 2⟩], fun _ => true, fun _ => true, [⟨3, 1, 4, 1⟩], fun u => ⟨2 * u, 0⟩, fun _ => .pole,
  fun _ => some ⟨some (3 / 2), none, none⟩⟩

def C30_args : WArgs := ⟨some "green", ⟨1, none, some 1⟩, ⟨2, none, some 2⟩, "output", "input"⟩

example : C30_args.Named ∧ C30_args.Inside C30_coll ∧ C30_args.Connectable C30_coll ∧ C30_args.Known C30_coll ∧ C30_args.wire = ⟨1, 4, 2, 2⟩ ∧
    C30_args.wire ∉ C30_coll.wires ∧ C30_args.wire.flip ∉ C30_coll.wires :=
  ⟨⟨Or.inr (Or.inr rfl), Or.inr rfl, Or.inl rfl⟩, ⟨⟨_, List.mem_cons_self, by decide⟩, ⟨_, List.mem_cons_of_mem _ List.mem_cons_self, by decide⟩⟩,
    ⟨rfl, rfl⟩, ⟨⟨3 / 2, _, rfl, fun _ => rfl, nofun, nofun⟩, ⟨3 / 2, _, rfl, fun _ => rfl, nofun, nofun⟩⟩, by decide, by decide, by decide⟩
/-- C30_warnings: two poles that reach one and a half tiles, two tiles apart; and the output of a pole -/
example : (C30_args.call C30_coll).map Prod.snd = .ok [.side1, .distance] := by decide +kernel
/-- C30_fails: poles of unknown names, and something without a reach -/
example : C30_args.call { C30_coll with proto := fun _ => none } = .error .typeError ∧
    ({ C30_args with color := none } : WArgs).call { C30_coll with proto := fun _ => some ⟨none, none, none⟩ } = .error .keyError := by
  constructor
  · exact (C30_fails C30_args { C30_coll with proto := fun _ => none }).2.2.2.2 ⟨⟨_, List.mem_cons_self, by decide⟩, ⟨_, List.mem_cons_of_mem _ List.mem_cons_self, by decide⟩⟩
      ⟨Or.inr (Or.inr rfl), Or.inr rfl, Or.inl rfl⟩ ⟨rfl, rfl⟩ (by rintro ⟨⟨r, p, h, -⟩, -⟩; cases h) |>.2 (by rintro ⟨h, -⟩; cases h)
  · rfl

/-- C30 fails for entities whose names are not known: there is no reach to compare the distance with, a `TypeError`, and nothing is added. -/
theorem C30_unknown_refuted : ¬ ∀ (a : WArgs) (c : WColl), a.Named → a.Inside c → a.Connectable c → ∃ c', a.add c = .ok c' := by
  intro h
  obtain ⟨c', h⟩ := h C30_args { C30_coll with proto := fun _ => none } ⟨Or.inr (Or.inr rfl), Or.inr rfl, Or.inl rfl⟩
    ⟨⟨_, List.mem_cons_self, by decide⟩, ⟨_, List.mem_cons_of_mem _ List.mem_cons_self, by decide⟩⟩ ⟨rfl, rfl⟩
  obtain ⟨-, -, -, ⟨r, p, h, -⟩, -⟩ := WArgs.add_needs _ _ _ h
  cases h

/-- C30 fails for a connection that exists: it is added again, in the same or in the other orientation. -/
theorem C30_add_again_refuted :
    ∃ c c' c'' : WColl, C30_args.add C30_coll = .ok c ∧ C30_args.add c = .ok c' ∧ c'.wires.count C30_args.wire = 2 ∧
      (⟨some "green", ⟨2, none, some 2⟩, ⟨1, none, some 1⟩, "input", "output"⟩ : WArgs).add c = .ok c'' ∧
      c''.wires = [⟨3, 1, 4, 1⟩, C30_args.wire, C30_args.wire.flip] := ⟨_, _, _, rfl, rfl, by decide, rfl, by decide⟩

/-- C30 fails for a connection added twice: one removal leaves it present. -/
theorem C30_remove_absent_refuted :
    ∃ c c' c'' : WColl, C30_args.add C30_coll = .ok c ∧ C30_args.add c = .ok c' ∧ C30_args.remove c' = .ok c'' ∧
      C30_args.wire ∈ c''.wires := ⟨_, _, _, rfl, rfl, rfl, by decide⟩

/-- C30 fails for a connection present in the other orientation: adding and removing it loses it. -/
theorem C30_add_remove_refuted :
    ∃ c c' : WColl, (⟨none, ⟨1, none, some 1⟩, ⟨2, none, some 2⟩, "input", "input"⟩ : WArgs).add { C30_coll with wires := [⟨2, 5, 1, 5⟩] } = .ok c ∧
      (⟨none, ⟨1, none, some 1⟩, ⟨2, none, some 2⟩, "input", "input"⟩ : WArgs).remove c = .ok c' ∧ c'.wires = [] := ⟨_, _, rfl, rfl, by decide⟩

/-- C30: membership is tested by `==`, so a wire to an equal entity outside the collection is accepted. -/
theorem C30_twin_refuted :
    ∃ c : WColl, (⟨none, ⟨1, none, some 1⟩, ⟨9, none, some 2⟩, "input", "input"⟩ : WArgs).add C30_coll = .ok c ∧
      (∀ m ∈ c.members, m.uid ≠ 9) ∧ (⟨1, 5, 9, 5⟩ : Wire) ∈ c.wires := ⟨_, rfl, by decide, by decide⟩

/-! ### C31 -/

theorem dropWires_spec (h : GHeap) {rank : ℕ → ℕ} (hwf : Wf h rank) (drop : ℕ → Bool) (n : ℕ) (c : ℕ) (hn : rank c < n)
    (ws : ℕ → List Wire) (g : ℕ) :
    ((g = c ∨ (∃ gs, Within h c gs g) ∧ (h g).kind = .group) → dropWires h drop n c ws g = (ws g).filter fun w => !drop w.t1) ∧
    (¬ (g = c ∨ (∃ gs, Within h c gs g) ∧ (h g).kind = .group) → dropWires h drop n c ws g = ws g) := by
  induction n generalizing c ws g with
  | zero => omega
  | succ n ih =>
    -- the loop over the children
    have loop : ∀ (us : List ℕ) (ws : ℕ → List Wire), (∀ u ∈ us, u ∈ (h c).children) →
        ((∃ u ∈ us, (h u).kind = .group ∧ (g = u ∨ (∃ gs, Within h u gs g) ∧ (h g).kind = .group)) →
          us.foldl (fun ws u => if (h u).kind = .entity then ws else dropWires h drop n u ws) ws g = (ws g).filter fun w => !drop w.t1) ∧
        (¬ (∃ u ∈ us, (h u).kind = .group ∧ (g = u ∨ (∃ gs, Within h u gs g) ∧ (h g).kind = .group)) →
          us.foldl (fun ws u => if (h u).kind = .entity then ws else dropWires h drop n u ws) ws g = ws g) := by
      intro us
      induction us with
      | nil => intro ws _; simp
      | cons u r ihr =>
        intro ws hus
        have hu := hus u List.mem_cons_self
        have hr : ∀ u ∈ r, u ∈ (h c).children := fun v hv => hus v (List.mem_cons_of_mem _ hv)
        have hrank := hwf.acyclic c u hu
        simp only [List.foldl_cons]
        by_cases hk : (h u).kind = .entity
        · rw [if_pos hk]
          obtain ⟨r1, r2⟩ := ihr ws hr
          constructor
          · rintro ⟨v, hv, hkv, hg⟩
            rcases List.mem_cons.1 hv with rfl | hv
            · rw [hk] at hkv; simp at hkv
            · exact r1 ⟨v, hv, hkv, hg⟩
          · intro hno
            exact r2 (fun ⟨v, hv, hg⟩ => hno ⟨v, List.mem_cons_of_mem _ hv, hg⟩)
        · rw [if_neg hk]
          have hkg : (h u).kind = .group := by
            cases hk' : (h u).kind with
            | group => rfl
            | entity => exact absurd hk' hk
            | blueprint => exact absurd hk' (hwf.inner c u hu)
          obtain ⟨i1, i2⟩ := ih u (by omega) ws g
          obtain ⟨r1, r2⟩ := ihr (dropWires h drop n u ws) hr
          by_cases hA : g = u ∨ (∃ gs, Within h u gs g) ∧ (h g).kind = .group
          · have e1 := i1 hA
            constructor
            · intro _
              by_cases hB : ∃ u ∈ r, (h u).kind = .group ∧ (g = u ∨ (∃ gs, Within h u gs g) ∧ (h g).kind = .group)
              · rw [r1 hB, e1, List.filter_filter]
                simp
              · rw [r2 hB, e1]
            · intro hno
              exact absurd ⟨u, List.mem_cons_self, hkg, hA⟩ hno
          · have e2 := i2 hA
            constructor
            · rintro ⟨v, hv, hkv, hg⟩
              rcases List.mem_cons.1 hv with rfl | hv
              · exact absurd hg hA
              · rw [r1 ⟨v, hv, hkv, hg⟩, e2]
            · intro hno
              rw [r2 (fun ⟨v, hv, hg⟩ => hno ⟨v, List.mem_cons_of_mem _ hv, hg⟩), e2]
    obtain ⟨l1, l2⟩ := loop (h c).children ws (fun _ hu => hu)
    have hself : ∀ gs, ¬ Within h c gs c := by
      have hr : ∀ {c gs u}, Within h c gs u → rank u < rank c := by
        intro c gs u hw
        induction hw with
        | here hu => exact hwf.acyclic _ _ hu
        | under hg _ _ ih => exact lt_trans ih (hwf.acyclic _ _ hg)
      intro gs hw
      exact absurd (hr hw) (by omega)
    have hiff : (∃ u ∈ (h c).children, (h u).kind = .group ∧ (g = u ∨ (∃ gs, Within h u gs g) ∧ (h g).kind = .group)) ↔
        (∃ gs, Within h c gs g) ∧ (h g).kind = .group := by
      constructor
      · rintro ⟨u, hu, hk, rfl | ⟨⟨gs, hw⟩, hkg⟩⟩
        · exact ⟨⟨[], .here hu⟩, hk⟩
        · exact ⟨⟨u :: gs, .under hu hk hw⟩, hkg⟩
      · rintro ⟨⟨gs, hw⟩, hkg⟩
        cases hw with
        | here hu => exact ⟨g, hu, hkg, Or.inl rfl⟩
        | @under _ u _ gs hu hk hw => exact ⟨u, hu, hk, Or.inr ⟨⟨gs, hw⟩, hkg⟩⟩
    simp only [dropWires]
    constructor
    · rintro (rfl | hg)
      · rw [if_pos rfl, l2 (fun hc => (hself _ (hiff.1 hc).1.choose_spec))]
      · by_cases hgc : g = c
        · subst hgc
          obtain ⟨⟨gs, hw⟩, -⟩ := hg
          exact absurd hw (hself gs)
        · rw [if_neg hgc, l1 (hiff.2 hg)]
    · intro hno
      rw [if_neg (fun e => hno (Or.inl e)), l2 (fun hc => hno (Or.inr (hiff.1 hc)))]

/-- Every wire has two ends of the same kind, as the wire calls ensure. -/
def WiresOk (l : List Wire) : Prop := ∀ w ∈ l, (isCopper w.t1 = true ∧ isCopper w.t2 = true) ∨ (isCircuit w.t1 = true ∧ isCircuit w.t2 = true)

/-- C31: removing all power connections of a collection leaves, in it and in every group nested in it, exactly the circuit wires in
their order, and touches no other collection. -/
theorem C31_power (h : GHeap) (rank : ℕ → ℕ) (hwf : Wf h rank) (c n : ℕ) (hn : rank c < n) (ws : ℕ → List Wire)
    (hok : ∀ g, WiresOk (ws g)) (g : ℕ) :
    ((g = c ∨ (∃ gs, Within h c gs g) ∧ (h g).kind = .group) →
      dropWires h isCopper n c ws g = (ws g).filter (fun w => isCircuit w.t1 && isCircuit w.t2) ∧
      (∀ w ∈ dropWires h isCopper n c ws g, isCopper w.t1 = false ∧ isCopper w.t2 = false)) ∧
    (¬ (g = c ∨ (∃ gs, Within h c gs g) ∧ (h g).kind = .group) → dropWires h isCopper n c ws g = ws g) := by
  have excl : ∀ t, isCopper t = true → isCircuit t = true → False := by
    intro t h1 h2
    simp only [isCopper, isCircuit, Bool.or_eq_true, beq_iff_eq] at h1 h2
    omega
  obtain ⟨s1, s2⟩ := dropWires_spec h hwf isCopper n c hn ws g
  refine ⟨fun hg => ?_, s2⟩
  have e := s1 hg
  have e' : (ws g).filter (fun w => !isCopper w.t1) = (ws g).filter (fun w => isCircuit w.t1 && isCircuit w.t2) := by
    apply List.filter_congr
    intro w hw
    rcases hok g w hw with ⟨h1, h2⟩ | ⟨h1, h2⟩
    · cases hc : isCircuit w.t1 with
      | true => exact absurd hc (fun hc => excl _ h1 hc)
      | false => simp [h1]
    · cases hc : isCopper w.t1 with
      | true => exact absurd hc (fun hc => excl _ hc h1)
      | false => simp [h1, h2]
  refine ⟨by rw [e, e'], fun w hw => ?_⟩
  rw [e, e', List.mem_filter, Bool.and_eq_true] at hw
  constructor
  · cases hc : isCopper w.t1 with
    | true => exact absurd hc (fun hc => excl _ hc hw.2.1)
    | false => rfl
  · cases hc : isCopper w.t2 with
    | true => exact absurd hc (fun hc => excl _ hc hw.2.2)
    | false => rfl

/-- C31: removing all circuit connections leaves exactly the copper wires, likewise. -/
theorem C31_circuit (h : GHeap) (rank : ℕ → ℕ) (hwf : Wf h rank) (c n : ℕ) (hn : rank c < n) (ws : ℕ → List Wire)
    (hok : ∀ g, WiresOk (ws g)) (g : ℕ) :
    ((g = c ∨ (∃ gs, Within h c gs g) ∧ (h g).kind = .group) →
      dropWires h isCircuit n c ws g = (ws g).filter (fun w => isCopper w.t1 && isCopper w.t2) ∧
      (∀ w ∈ dropWires h isCircuit n c ws g, isCircuit w.t1 = false ∧ isCircuit w.t2 = false)) ∧
    (¬ (g = c ∨ (∃ gs, Within h c gs g) ∧ (h g).kind = .group) → dropWires h isCircuit n c ws g = ws g) := by
  have excl : ∀ t, isCopper t = true → isCircuit t = true → False := by
    intro t h1 h2
    simp only [isCopper, isCircuit, Bool.or_eq_true, beq_iff_eq] at h1 h2
    omega
  obtain ⟨s1, s2⟩ := dropWires_spec h hwf isCircuit n c hn ws g
  refine ⟨fun hg => ?_, s2⟩
  have e := s1 hg
  have e' : (ws g).filter (fun w => !isCircuit w.t1) = (ws g).filter (fun w => isCopper w.t1 && isCopper w.t2) := by
    apply List.filter_congr
    intro w hw
    rcases hok g w hw with ⟨h1, h2⟩ | ⟨h1, h2⟩
    · cases hc : isCircuit w.t1 with
      | true => exact absurd hc (fun hc => excl _ h1 hc)
      | false => simp [h1, h2]
    · cases hc : isCopper w.t1 with
      | true => exact absurd hc (fun hc => excl _ hc h1)
      | false => simp [h1]
  refine ⟨by rw [e, e'], fun w hw => ?_⟩
  rw [e, e', List.mem_filter, Bool.and_eq_true] at hw
  constructor
  · cases hc : isCircuit w.t1 with
    | true => exact absurd hc (fun hc => excl _ hw.2.1 hc)
    | false => rfl
  · cases hc : isCircuit w.t2 with
    | true => exact absurd hc (fun hc => excl _ hw.2.2 hc)
    | false => rfl

/-- C31: the wire calls keep the condition `WiresOk`. -/
theorem C31_wires_ok (a : WArgs) (c c' : WColl) (hok : WiresOk c.wires) (h : a.add c = .ok c' ∨ a.remove c = .ok c') :
    WiresOk c'.wires := by
  rcases h with h | h
  · obtain ⟨hn, hi, hc, hk⟩ := a.add_needs c c' h
    rw [a.add_ok c hn hi hc hk] at h
    simp only [Except.ok.injEq] at h
    subst h
    intro w hw
    rcases List.mem_append.1 hw with hw | hw
    · exact hok w hw
    · simp only [List.mem_singleton] at hw
      subst hw
      obtain ⟨color, e1, e2, side1, side2⟩ := a
      obtain ⟨h1, h2, h3⟩ := hn
      simp only at h1 h2 h3
      rcases h1 with rfl | rfl | rfl <;> rcases h2 with rfl | rfl <;> rcases h3 with rfl | rfl <;>
        simp [WArgs.wire, WArgs.connector, isCopper, isCircuit]
  · have sub : c'.wires.Sublist c.wires := by
      obtain ⟨color, e1, e2, side1, side2⟩ := a
      have key : ∀ (l : List Wire) x y, (WColl.removeOne (WColl.removeOne l x) y).Sublist l :=
        fun l x y => (List.erase_sublist).trans List.erase_sublist
      cases color with
      | none =>
        simp only [WArgs.remove, WColl.removePower] at h
        split at h
        · simp at h
        · split at h
          · simp at h
          · split at h
            · simp only [Except.ok.injEq] at h; subst h; exact key _ _ _
            · simp at h
      | some k =>
        simp only [WArgs.remove, WColl.removeCircuit] at h
        split at h
        · simp at h
        · split at h
          · simp at h
          · split at h
            · simp at h
            · split at h
              · simp only [Except.ok.injEq] at h; subst h; exact key _ _ _
              · simp at h
    exact fun w hw => hok w (sub.subset hw)

example : dropWires C29_heap isCopper 11 0 (fun _ => [⟨1, 5, 2, 5⟩, ⟨1, 1, 2, 3⟩, ⟨1, 6, 2, 5⟩, ⟨3, 4, 2, 2⟩]) 3 = [⟨1, 1, 2, 3⟩, ⟨3, 4, 2, 2⟩] := by
  decide

end Draftsman
