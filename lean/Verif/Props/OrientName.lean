import Verif.Model.OrientName
import Verif.Props.Direction
import Mathlib.Tactic.IntervalCases
/-
C125: names, representation and hash of orientations.
-/
namespace Draftsman
namespace OrientName
open Orientation

/-- The names of the eight winds, clockwise from north. -/
def winds : List String := ["NORTH", "NORTHEAST", "EAST", "SOUTHEAST", "SOUTH", "SOUTHWEST", "WEST", "NORTHWEST"]

/-- `v` turns of the circle is the wind called `n`. -/
def IsWind (v : ℚ) (n : String) : Prop := ∃ i : Nat, winds[i]? = some n ∧ v = (i : ℚ) / 8

/-- An orientation is named rightly: it has the name of the wind it is, if it is one, and otherwise none. -/
def Named (x : Obj) : Prop := ∀ n, x.name = some n ↔ IsWind x.o.value n

theorem mem_of_lookup {v : ℚ} {n : String} : ∀ {l : List (ℚ × String)}, l.lookup v = some n → (v, n) ∈ l
  | [], h => by cases h
  | (k, m) :: l, h => by
    rw [List.lookup_cons] at h
    by_cases hk : v = k
    · subst hk
      simp at h
      simp [h]
    · rw [beq_false_of_ne hk] at h
      exact List.mem_cons_of_mem _ (mem_of_lookup h)

theorem mem_wind {v : ℚ} {n : String} (h : (v, n) ∈ reverseMapping) : IsWind v n := by
  simp only [reverseMapping, List.mem_cons, Prod.mk.injEq, List.not_mem_nil, or_false] at h
  rcases h with ⟨rfl, rfl⟩ | ⟨rfl, rfl⟩ | ⟨rfl, rfl⟩ | ⟨rfl, rfl⟩ | ⟨rfl, rfl⟩ | ⟨rfl, rfl⟩ | ⟨rfl, rfl⟩ | ⟨rfl, rfl⟩
  · exact ⟨0, rfl, by norm_num⟩
  · exact ⟨1, rfl, by norm_num⟩
  · exact ⟨2, rfl, by norm_num⟩
  · exact ⟨3, rfl, by norm_num⟩
  · exact ⟨4, rfl, by norm_num⟩
  · exact ⟨5, rfl, by norm_num⟩
  · exact ⟨6, rfl, by norm_num⟩
  · exact ⟨7, rfl, by norm_num⟩

theorem lookup_wind (v : ℚ) (n : String) : reverseMapping.lookup v = some n ↔ IsWind v n := by
  constructor
  · exact fun h => mem_wind (mem_of_lookup h)
  · rintro ⟨i, hi, rfl⟩
    have : i < 8 := by
      have := List.getElem?_eq_some_iff.mp hi
      obtain ⟨h, -⟩ := this
      simpa [winds] using h
    interval_cases i <;> simp [winds] at hi <;> subst hi <;> decide +kernel

theorem isWind_range {v : ℚ} {n : String} (h : IsWind v n) : 0 ≤ v ∧ v < 1 := by
  obtain ⟨i, hi, rfl⟩ := h
  have h8 : i < 8 := by
    obtain ⟨h, -⟩ := List.getElem?_eq_some_iff.mp hi
    simpa [winds] using h
  have : (i : ℚ) < 8 := by exact_mod_cast h8
  have h0 : (0 : ℚ) ≤ i := Nat.cast_nonneg i
  constructor <;> linarith

theorem mod1_of_range {v : ℚ} (h : 0 ≤ v ∧ v < 1) : mod1 v = v := by
  rw [mod1, Int.floor_eq_zero_iff.mpr ⟨h.1, h.2⟩]
  simp

theorem wind_unique {v : ℚ} {n m : String} (h : IsWind v n) (h2 : IsWind v m) : n = m := by
  have := (lookup_wind v n).mpr h
  rw [(lookup_wind v m).mpr h2] at this
  exact (Option.some.inj this).symm

/-- An orientation made from a number is named rightly exactly if the number is in `[0, 1)` or is no wind. -/
theorem C125_float (addr : Nat) (v : ℚ) : Named (ofFloat addr v) ↔ (0 ≤ v ∧ v < 1) ∨ ∀ n, ¬ IsWind (mod1 v) n := by
  constructor
  · intro h
    by_cases hv : 0 ≤ v ∧ v < 1
    · exact Or.inl hv
    · refine Or.inr fun n hn => hv ?_
      exact isWind_range ((lookup_wind v n).mp ((h n).mpr hn))
  · rintro (h | h) n
    · show reverseMapping.lookup v = some n ↔ IsWind (mod1 v) n
      rw [mod1_of_range h, lookup_wind]
    · refine ⟨fun h2 => ?_, fun h2 => absurd h2 (h n)⟩
      have := (lookup_wind v n).mp h2
      have h3 : IsWind (mod1 v) n := by rwa [mod1_of_range (isWind_range this)]
      exact absurd h3 (h n)

/-- The constants are the eight winds and have their names. -/
theorem C125_constants (addr : Nat) (i : Fin 8) : Named (constant addr i) ∧ (constant addr i).name = winds[i.val]? ∧
    (constant addr i).o.value = (i.val : ℚ) / 8 := by
  have hw : ∃ n, winds[i.val]? = some n := ⟨_, List.getElem?_eq_getElem (by simp [winds])⟩
  obtain ⟨n, hn⟩ := hw
  have hr := isWind_range ⟨i.val, hn, rfl⟩
  refine ⟨(C125_float _ _).mpr (Or.inl hr), ?_, mod1_of_range hr⟩
  rw [hn]
  exact (lookup_wind _ _).mpr ⟨i.val, hn, rfl⟩

/-- Opposites are named rightly, whatever they are the opposites of. -/
theorem C125_opposite (addr : Nat) (x : Obj) : Named (opposite addr x) := by
  refine (C125_float _ _).mpr (Or.inl ?_)
  obtain ⟨h1, h2, -⟩ := onCircle_mod1 (x.o.value + 1/2)
  exact ⟨h1, h2⟩

/-- Sums and differences of orientations are named rightly exactly if they stay within the circle or are no wind. -/
theorem C125_sums (addr : Nat) (x y : Obj) (v : ℚ) :
    (Named (add addr x y) ↔ (0 ≤ x.o.value + y.o.value ∧ x.o.value + y.o.value < 1) ∨ ∀ n, ¬ IsWind (mod1 (x.o.value + y.o.value)) n) ∧
    (Named (sub addr x y) ↔ (0 ≤ x.o.value - y.o.value ∧ x.o.value - y.o.value < 1) ∨ ∀ n, ¬ IsWind (mod1 (x.o.value - y.o.value)) n) ∧
    (Named (addFloat addr x v) ↔ (0 ≤ x.o.value + v ∧ x.o.value + v < 1) ∨ ∀ n, ¬ IsWind (mod1 (x.o.value + v)) n) ∧
    (Named (rsubFloat addr v x) ↔ (0 ≤ v - x.o.value ∧ v - x.o.value < 1) ∨ ∀ n, ¬ IsWind (mod1 (v - x.o.value)) n) :=
  ⟨C125_float _ _, C125_float _ _, C125_float _ _, C125_float _ _⟩

theorem ofFloat_sound {addr : Nat} {v : ℚ} {n : String} (h : (ofFloat addr v).name = some n) : IsWind (ofFloat addr v).o.value n := by
  have hw := (lookup_wind v n).mp h
  show IsWind (mod1 v) n
  rwa [mod1_of_range (isWind_range hw)]

theorem eval_value (addr : Expr → Nat) (e : Expr) : (e.eval addr).o.value = mod1 (e.eval addr).o.raw := by
  cases e <;> rfl

/-- No program gets an orientation with a wrong name: one that has a name is the wind it is called after, and its value is in `[0, 1)`. -/
theorem C125_never_wrong (addr : Expr → Nat) (e : Expr) :
    (∀ n, (e.eval addr).name = some n → IsWind (e.eval addr).o.value n) ∧ 0 ≤ (e.eval addr).o.value ∧ (e.eval addr).o.value < 1 := by
  constructor
  · cases e with
    | again e =>
      intro n h
      simp only [Expr.eval, ofObj, Option.map_eq_some_iff] at h
      obtain ⟨p, hp, rfl⟩ := h
      have h1 := List.find?_some hp
      simp only [Bool.and_eq_true, decide_eq_true_eq] at h1
      have h2 := mem_wind (v := p.1) (n := p.2) (List.mem_of_find?_eq_some hp)
      show IsWind (mod1 (e.eval addr).o.raw) p.2
      rw [← eval_value, h1.2]
      exact h2
    | _ => exact fun n h => ofFloat_sound h
  · rw [eval_value]
    obtain ⟨h1, h2, -⟩ := onCircle_mod1 (e.eval addr).o.raw
    exact ⟨h1, h2⟩

/-- What is printed for an orientation that is named rightly: its wind, if it is one, and its value. -/
theorem C125_repr {x : Obj} (hx : Named x) (num : ℚ → String) :
    (∀ n, IsWind x.o.value n → repr num x = "<Orientation." ++ n ++ ": " ++ num x.o.value ++ ">") ∧
    ((∀ n, ¬ IsWind x.o.value n) → repr num x = "<Orientation: " ++ num x.o.value ++ ">") := by
  constructor
  · intro n hn
    rw [repr, (hx n).mpr hn]
    show "<" ++ "Orientation" ++ ("." ++ n) ++ _ ++ _ ++ _ = _
    rw [← String.append_assoc]
    rfl
  · intro h
    have : x.name = none := by
      cases hn : x.name with
      | none => rfl
      | some n => exact absurd ((hx n).mp hn) (h n)
    rw [repr, this]
    rfl

/-- Orientations that are named rightly and compare equal are printed alike. -/
theorem C125_alike {x y : Obj} (hx : Named x) (hy : Named y) (h : x.o.eq y.o = true) (num : ℚ → String) : repr num x = repr num y := by
  have hv : x.o.value = y.o.value := by simpa [Orientation.eq] using h
  have hn : x.name = y.name := by
    refine Option.ext fun n => ?_
    rw [hx n, hy n, hv]
  rw [repr, repr, hn, hv]

/-- A set of orientations has each object once, and all of them, however many are equal. -/
theorem C125_set (l : List Obj) (ha : ∀ x ∈ l, x.addr % 16 = 0) (hid : ∀ x ∈ l, ∀ y ∈ l, x.addr = y.addr → x = y) :
    (∀ x, x ∈ setOf l ↔ x ∈ l) ∧ (setOf l).Nodup := by
  have same : ∀ x ∈ l, ∀ y ∈ l, sameKey x y = true ↔ x = y := by
    intro x hx y hy
    constructor
    · intro h
      simp only [sameKey, Bool.and_eq_true, decide_eq_true_eq, Obj.hash, Nat.shiftRight_eq_div_pow] at h
      refine hid x hx y hy ?_
      have h1 := ha x hx
      have h2 := ha y hy
      have := h.1
      omega
    · rintro rfl
      simp [sameKey]
  have key : ∀ (r s : List Obj), (∀ x ∈ r, x ∈ l) → (∀ x ∈ s, x ∈ l) → s.Nodup →
      (∀ x, x ∈ r.foldl setAdd s ↔ x ∈ s ∨ x ∈ r) ∧ (r.foldl setAdd s).Nodup := by
    intro r
    induction r with
    | nil => intro s _ _ hs; exact ⟨fun x => by simp, hs⟩
    | cons a r ih =>
      intro s hr hs hn
      have hal := hr a List.mem_cons_self
      have hmem : s.any (sameKey a) = true ↔ a ∈ s := by
        rw [List.any_eq_true]
        constructor
        · rintro ⟨y, hy, h⟩
          rw [(same a hal y (hs y hy)).mp h]
          exact hy
        · exact fun h => ⟨a, h, (same a hal a hal).mpr rfl⟩
      rw [List.foldl_cons]
      by_cases h : a ∈ s
      · have e : setAdd s a = s := by rw [setAdd, if_pos (hmem.mpr h)]
        rw [e]
        obtain ⟨h1, h2⟩ := ih s (fun x hx => hr x (List.mem_cons_of_mem _ hx)) hs hn
        refine ⟨fun x => ?_, h2⟩
        rw [h1 x, List.mem_cons]
        constructor
        · rintro (h3 | h3)
          · exact Or.inl h3
          · exact Or.inr (Or.inr h3)
        · rintro (h3 | rfl | h3)
          · exact Or.inl h3
          · exact Or.inl h
          · exact Or.inr h3
      · have e : setAdd s a = s ++ [a] := by rw [setAdd, if_neg (fun h2 => h (hmem.mp h2))]
        rw [e]
        obtain ⟨h1, h2⟩ := ih (s ++ [a]) (fun x hx => hr x (List.mem_cons_of_mem _ hx))
          (fun x hx => by
            rcases List.mem_append.mp hx with h3 | h3
            · exact hs x h3
            · rw [List.mem_singleton.mp h3]; exact hal)
          (List.nodup_append.mpr ⟨hn, List.nodup_singleton a, fun x hx y hy hxy => h (by rw [← List.mem_singleton.mp hy, ← hxy]; exact hx)⟩)
        refine ⟨fun x => ?_, h2⟩
        rw [h1 x, List.mem_append, List.mem_singleton, List.mem_cons, or_assoc]
  obtain ⟨h1, h2⟩ := key l [] (fun x hx => hx) (by simp) List.nodup_nil
  exact ⟨fun x => by rw [setOf, h1 x]; simp, h2⟩

/-! What is false, and examples. -/

/-- The sum of north-west and east is north-east, but is not printed like it: the name is looked up before the number is taken round the circle. -/
theorem C125_sum_refuted (a b c d : Nat) (num : ℚ → String) :
    (add a (constant b 7) (constant c 2)).o.eq (constant d 1).o = true ∧
    repr num (add a (constant b 7) (constant c 2)) = "<Orientation: " ++ num (1/8) ++ ">" ∧
    repr num (constant d 1) = "<Orientation.NORTHEAST: " ++ num (1/8) ++ ">" := by
  have h1 : (add a (constant b 7) (constant c 2)).name = none := by
    show reverseMapping.lookup (mod1 (((7 : Fin 8).val : ℚ) / 8) + mod1 (((2 : Fin 8).val : ℚ) / 8)) = none
    decide +kernel
  have h2 : (add a (constant b 7) (constant c 2)).o.value = 1/8 := by
    show mod1 (mod1 (((7 : Fin 8).val : ℚ) / 8) + mod1 (((2 : Fin 8).val : ℚ) / 8)) = 1/8
    decide +kernel
  have h3 : (constant d 1).name = some "NORTHEAST" := by
    show reverseMapping.lookup (((1 : Fin 8).val : ℚ) / 8) = _
    decide +kernel
  have h4 : (constant d 1).o.value = 1/8 := by
    show mod1 (((1 : Fin 8).val : ℚ) / 8) = 1/8
    decide +kernel
  refine ⟨by rw [Orientation.eq, h2, h4]; exact decide_eq_true rfl, by rw [repr, h1, h2]; rfl, by rw [repr, h3, h4]; rfl⟩

/-- An orientation made from an orientation loses its name, wherever in memory that is: the name is looked up by a hash that is no number's. -/
theorem C125_again_refuted (addr : Nat) (x : Obj) (h1 : 16 ≤ x.addr) (h2 : x.addr < 2 ^ 62) : (ofObj addr x).name = none := by
  simp only [ofObj, Option.map_eq_none_iff, List.find?_eq_none]
  intro p hp
  simp only [Bool.and_eq_true, decide_eq_true_eq, not_and]
  intro h
  exfalso
  simp only [Obj.hash, Nat.shiftRight_eq_div_pow] at h
  have hf : floatHash p.1 = 0 ∨ 2 ^ 58 ≤ floatHash p.1 := by
    rw [floatHash]
    rcases Nat.eq_zero_or_pos (p.1 * 8).num.toNat with h0 | h0
    · exact Or.inl (by rw [h0, Nat.zero_mul])
    · exact Or.inr (Nat.le_mul_of_pos_left _ h0)
  rcases hf with hf | hf <;> omega

/-- Two orientations that are equal are two members of a set, and the number they are equal to has another hash. -/
theorem C125_set_refuted : (constant 16 2).o.eq (constant 32 2).o = true ∧ (setOf [constant 16 2, constant 32 2]).length = 2 ∧
    (constant 16 2).hash ≠ floatHash (1/4) := by
  decide +kernel

/-- Objects that meet the hypotheses of the theorem on sets. -/
example : setOf [constant 16 2, constant 32 2, constant 16 2, ofFloat 48 (5/4)] = [constant 16 2, constant 32 2, ofFloat 48 (5/4)] := by decide +kernel

/-- A third of the circle has no name; a turn and a quarter should have one. -/
example : Named (ofFloat 16 (1/3)) ∧ ¬ Named (ofFloat 16 (5/4)) := by
  refine ⟨(C125_float _ _).mpr (Or.inl (by norm_num)), fun h => ?_⟩
  rcases (C125_float _ _).mp h with h | h
  · norm_num at h
  · exact h "EAST" ⟨2, rfl, by decide +kernel⟩

/-- The opposite of a turn and a quarter is named. -/
example : (opposite 32 (ofFloat 16 (5/4))).name = some "WEST" := by decide +kernel

/-- A hash that a number has: an object at a high enough address would be taken for it. -/
example : (constant (2 ^ 63) 2).hash = floatHash (1/4) ∧ (constant 4096 2).addr < 2 ^ 62 := by decide +kernel

end OrientName
end Draftsman
