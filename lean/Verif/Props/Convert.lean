import Verif.Model.Convert
/-
C86: values in shorthand are understood, or refused.
-/
namespace Draftsman
namespace Convert

variable {Sig : Type}

/-! ### The claim in plain terms -/

/-- The number that a value stands for. -/
inductive Reads (env : Env Sig) : Val → Rat → Prop
  | bool (b : Bool) : Reads env (.bool b) (if b then 1 else 0)
  | int (n : Int) : Reads env (.int n) n
  | num (q : Rat) : Reads env (.num q) q
  | str (s : String) (q : Rat) : env.real s = some q → Reads env (.str s) q

/-- A channel of a color: a number from 0 to 255. -/
def Channel (env : Env Sig) (v : Val) (q : Rat) : Prop := Reads env v q ∧ 0 ≤ q ∧ q ≤ 255

/-- The fourth channel, which may be missing or null. -/
def Alpha (env : Env Sig) (v : Option Val) (a : Option Rat) : Prop :=
  match v with
  | Option.none => a = Option.none
  | some .none => a = Option.none
  | some v => ∃ q, a = some q ∧ Channel env v q

/-! ### Lemmas -/

theorem both_valid {α β γ : Type} {f : α → β → γ} {x : Out α} {y : Out β} {c : γ} :
    Out.both f x y = .valid c ↔ ∃ a b, x = .valid a ∧ y = .valid b ∧ f a b = c := by
  cases x <;> cases y <;> simp [Out.both]

theorem both_escape {α β γ : Type} {f : α → β → γ} {x : Out α} {y : Out β} {e : PyErr} :
    Out.both f x y = .escape e ↔ x = .escape e ∨ (∀ e', x ≠ .escape e') ∧ y = .escape e := by
  cases x <;> cases y <;> simp [Out.both]

theorem floatField_valid {env : Env Sig} {v : Val} {q : Rat} : floatField env v = .valid q ↔ Reads env v q := by
  constructor
  · intro h
    cases v with
    | bool b => simp only [floatField, Out.valid.injEq] at h; subst h; exact .bool b
    | int n => simp only [floatField, Out.valid.injEq] at h; subst h; exact .int n
    | num q => simp only [floatField, Out.valid.injEq] at h; subst h; exact .num q
    | str s =>
      simp only [floatField] at h
      cases hs : env.real s with
      | none => rw [hs] at h; cases h
      | some q => rw [hs] at h; cases h; exact .str s q hs
    | _ => simp [floatField] at h
  · intro h
    cases h with
    | bool b => rfl
    | int n => rfl
    | num q => rfl
    | str s q h => simp [floatField, h]

theorem floatField_total (env : Env Sig) (v : Val) (e : PyErr) : floatField env v ≠ .escape e := by
  cases v with
  | str s => simp only [floatField]; cases env.real s <;> simp
  | _ => simp [floatField]

theorem channel_valid {env : Env Sig} {v : Val} {q : Rat} : channel env v = .valid q ↔ Channel env v q := by
  rw [channel, Channel, ← floatField_valid]
  cases h : floatField env v with
  | escape e => simp
  | invalid => simp
  | valid p =>
    simp only [Out.valid.injEq]
    by_cases hp : 0 ≤ p ∧ p ≤ 255
    · rw [if_pos hp, Out.valid.injEq]
      constructor
      · rintro rfl; exact ⟨rfl, hp⟩
      · rintro ⟨rfl, _⟩; rfl
    · rw [if_neg hp]
      constructor
      · intro h; cases h
      · rintro ⟨rfl, h⟩; exact absurd h hp

theorem channel_total (env : Env Sig) (v : Val) (e : PyErr) : channel env v ≠ .escape e := by
  rw [channel]
  have := floatField_total env v
  cases h : floatField env v with
  | escape e => exact absurd h (this e)
  | invalid => simp
  | valid p => simp only; split <;> simp

theorem optional_valid {α : Type} {f : Val → Out α} {v : Val} {a : Option α} :
    optional f v = .valid a ↔ (v = .none ∧ a = Option.none) ∨ (v ≠ .none ∧ ∃ x, a = some x ∧ f v = .valid x) := by
  by_cases hv : v = .none
  · subst hv; simp [optional, eq_comm]
  · have : optional f v = (f v).map some := by
      cases v <;> first | rfl | exact absurd rfl hv
    rw [this]
    cases f v <;> simp [Out.map, hv, eq_comm]

theorem optional_escape {α : Type} {f : Val → Out α} {v : Val} {e : PyErr} : optional f v = .escape e ↔ v ≠ .none ∧ f v = .escape e := by
  by_cases hv : v = .none
  · subst hv; simp [optional]
  · have : optional f v = (f v).map some := by
      cases v <;> first | rfl | exact absurd rfl hv
    rw [this]
    cases f v <;> simp [Out.map, hv]

theorem alpha_valid {env : Env Sig} {o : Option Val} {a : Option Rat} :
    defaulted (optional (channel env)) Option.none o = .valid a ↔ Alpha env o a := by
  cases o with
  | none => simp [defaulted, Alpha, eq_comm]
  | some v =>
    rw [defaulted, optional_valid, Alpha.eq_def]
    by_cases hv : v = .none
    · subst hv; simp
    · simp only [hv, false_and, not_false_eq_true, true_and, false_or, ne_eq]
      cases v <;> first | exact absurd rfl hv | simp [channel_valid]

theorem fields_valid {env : Env Sig} {d : List (String × Val)} {c : Color} :
    colorFields env d = .valid c ↔ ∃ r g b, entry d "r" = some r ∧ entry d "g" = some g ∧ entry d "b" = some b ∧
      Channel env r c.r ∧ Channel env g c.g ∧ Channel env b c.b ∧ Alpha env (entry d "a") c.a := by
  have req : ∀ (o : Option Val) (q : Rat), required (channel env) o = .valid q ↔ ∃ v, o = some v ∧ Channel env v q := by
    intro o q
    cases o with
    | none => simp [required]
    | some v => simp [required, channel_valid]
  rw [colorFields]
  simp only [both_valid, req, alpha_valid]
  constructor
  · rintro ⟨f, a, ⟨f', b, ⟨r, g, ⟨vr, e1, h1⟩, ⟨vg, e2, h2⟩, rfl⟩, ⟨vb, e3, h3⟩, rfl⟩, h4, rfl⟩
    exact ⟨vr, vg, vb, e1, e2, e3, h1, h2, h3, h4⟩
  · rintro ⟨vr, vg, vb, e1, e2, e3, h1, h2, h3, h4⟩
    exact ⟨_, c.a, ⟨_, c.b, ⟨c.r, c.g, ⟨vr, e1, h1⟩, ⟨vg, e2, h2⟩, rfl⟩, ⟨vb, e3, h3⟩, rfl⟩, h4, rfl⟩

theorem fields_total (env : Env Sig) (d : List (String × Val)) (e : PyErr) : colorFields env d ≠ .escape e := by
  have req : ∀ (o : Option Val) (e : PyErr), required (channel env) o ≠ .escape e := by
    intro o e
    cases o with
    | none => simp [required]
    | some v => exact channel_total env v e
  have alp : ∀ e, defaulted (optional (channel env)) Option.none (entry d "a") ≠ .escape e := by
    intro e
    cases entry d "a" with
    | none => simp [defaulted]
    | some v =>
      rw [defaulted]
      intro h
      exact channel_total env v e (optional_escape.1 h).2
  rw [colorFields]
  simp only [ne_eq, both_escape, req, alp, and_false, or_false, not_false_eq_true]

/-! ### Colors -/

/-- Examples: text is read by pydantic as nothing, signals are texts. -/
def plain : Env String where
  real := fun s => if s = "0.5" then some (1 / 2) else Option.none
  whole := fun _ => Option.none
  truth := fun s => if s = "yes" then some true else Option.none
  signal := fun v => match v with
    | .str s => .valid s
    | _ => .invalid

/-- A color given as a list or tuple of three or more values is the color with these channels in the order red, green, blue, alpha; it is accepted
exactly if they are numbers from 0 to 255, the alpha may also be null. -/
theorem C86_color (env : Env Sig) (r g b : Val) (rest : List Val) (c : Color) :
    (colorOf env (.list (r :: g :: b :: rest)) = .valid c ↔
      Channel env r c.r ∧ Channel env g c.g ∧ Channel env b c.b ∧ Alpha env rest.head? c.a) ∧
    colorOf env (.tuple (r :: g :: b :: rest)) = colorOf env (.list (r :: g :: b :: rest)) := by
  refine ⟨?_, rfl⟩
  cases rest with
  | nil =>
    have : colorOf env (.list [r, g, b]) = colorFields env [("r", r), ("g", g), ("b", b)] := rfl
    rw [this, fields_valid]
    simp [entry]
  | cons a rest =>
    have : colorOf env (.list (r :: g :: b :: a :: rest)) = colorFields env [("r", r), ("g", g), ("b", b), ("a", a)] := rfl
    rw [this, fields_valid]
    simp [entry]

example : colorOf plain (.tuple [.num (1 / 4), .int 1, .str "0.5", .bool true]) = .valid ⟨1 / 4, 1, 1 / 2, some 1⟩ :=
  (C86_color plain (.num (1 / 4)) (.int 1) (.str "0.5") [.bool true] ⟨1 / 4, 1, 1 / 2, some 1⟩).2.trans
    ((C86_color plain _ _ _ _ _).1.2 ⟨⟨.num _, by decide +kernel, by decide +kernel⟩, ⟨.int 1, by decide +kernel, by decide +kernel⟩,
      ⟨.str _ _ rfl, by decide +kernel, by decide +kernel⟩, 1, rfl, .bool true, by decide +kernel, by decide +kernel⟩)

/-- A dictionary is the same color as the sequence of its entries. -/
theorem C86_color_dict (env : Env Sig) (d : List (String × Val)) (c : Color) :
    colorOf env (.dict d) = .valid c ↔ ∃ r g b, entry d "r" = some r ∧ entry d "g" = some g ∧ entry d "b" = some b ∧
      colorOf env (.tuple (r :: g :: b :: (entry d "a").toList)) = .valid c := by
  have h : colorOf env (.dict d) = colorFields env d := rfl
  rw [h, fields_valid]
  constructor
  · rintro ⟨r, g, b, e1, e2, e3, h1, h2, h3, h4⟩
    refine ⟨r, g, b, e1, e2, e3, (C86_color env r g b _ c).2.trans ((C86_color env r g b _ c).1.2 ⟨h1, h2, h3, ?_⟩)⟩
    cases he : entry d "a" <;> rw [he] at h4 <;> exact h4
  · rintro ⟨r, g, b, e1, e2, e3, h1⟩
    obtain ⟨h1, h2, h3, h4⟩ := (C86_color env r g b _ c).1.1 ((C86_color env r g b _ c).2.symm.trans h1)
    refine ⟨r, g, b, e1, e2, e3, h1, h2, h3, ?_⟩
    cases he : entry d "a" <;> rw [he] at h4 <;> exact h4

example : colorOf plain (.dict [("g", .int 2), ("b", .int 3), ("r", .int 255)]) = .valid ⟨255, 2, 3, Option.none⟩ := by
  rw [C86_color_dict]
  exact ⟨.int 255, .int 2, .int 3, rfl, rfl, rfl, (C86_color plain _ _ _ _ ⟨255, 2, 3, Option.none⟩).2.trans ((C86_color plain _ _ _ _ _).1.2
    ⟨⟨.int 255, by decide +kernel, by decide +kernel⟩, ⟨.int 2, by decide +kernel, by decide +kernel⟩, ⟨.int 3, by decide +kernel, by decide +kernel⟩, rfl⟩)⟩

/-- No value for a color raises anything but a `DataFormatError`, except for lists and tuples of less than three values, which raise an `IndexError`. -/
theorem C86_color_raises_partial (env : Env Sig) (v : Val) (e : PyErr) :
    colorOf env v = .escape e ↔ e = .indexError ∧ ∃ l : List Val, (v = .list l ∨ v = .tuple l) ∧ l.length < 3 := by
  have seq : ∀ l : List Val, andThen (colorFields env) (colorFromSequence l) = .escape e ↔ e = .indexError ∧ l.length < 3 := by
    intro l
    match l with
    | [] => exact ⟨fun h => by cases h; exact ⟨rfl, by simp⟩, fun h => by rw [h.1]; rfl⟩
    | [_] => exact ⟨fun h => by cases h; exact ⟨rfl, by simp⟩, fun h => by rw [h.1]; rfl⟩
    | [_, _] => exact ⟨fun h => by cases h; exact ⟨rfl, by simp⟩, fun h => by rw [h.1]; rfl⟩
    | [a, b, c] => exact ⟨fun h => absurd h (fields_total env _ e), fun h => absurd h.2 (by simp)⟩
    | a :: b :: c :: d :: r => exact ⟨fun h => absurd h (fields_total env _ e), fun h => absurd h.2 (by simp)⟩
  cases v with
  | list l => rw [colorOf, seq]; simp
  | tuple l => rw [colorOf, seq]; simp
  | dict d =>
    rw [colorOf]
    exact ⟨fun h => absurd h (fields_total env _ e), fun ⟨_, l, h, _⟩ => by rcases h with h | h <;> cases h⟩
  | _ => simp [colorOf]

example : colorOf plain (.list [.int 1, .int 2]) = .escape .indexError :=
  (C86_color_raises_partial plain _ _).2 ⟨rfl, _, .inl rfl, by decide⟩

/-- Claim: "an unsuitable color is refused with a `DataFormatError`" (mixins/color.py:60).  Refuted: two numbers raise an `IndexError`
(signatures.py:596-599); five numbers are accepted and the last one is ignored. -/
theorem C86_color_refuted :
    (¬∀ (env : Env String) (v : Val) (e : PyErr), colorOf env v ≠ .escape e) ∧
    (¬∀ (env : Env String) (l : List Val) (c : Color), colorOf env (.list l) = .valid c → l.length ≤ 4) := by
  refine ⟨fun h => h plain (.list [.int 1, .int 2]) .indexError rfl, fun h => ?_⟩
  have := h plain [.int 1, .int 2, .int 3, .int 4, .str "nonsense"] ⟨1, 2, 3, some 4⟩ ((C86_color plain _ _ _ _ _).1.2
    ⟨⟨.int 1, by decide +kernel, by decide +kernel⟩, ⟨.int 2, by decide +kernel, by decide +kernel⟩, ⟨.int 3, by decide +kernel, by decide +kernel⟩,
      4, rfl, .int 4, by decide +kernel, by decide +kernel⟩)
  simp at this

/-! ### Networks -/

theorem any_isStr (s : String) (l : List Val) : l.any (isStr s) = true ↔ Val.str s ∈ l := by
  rw [List.any_eq_true]
  constructor
  · rintro ⟨v, hv, h⟩
    cases v with
    | str t => simp only [isStr, beq_iff_eq] at h; subst h; exact hv
    | _ => simp [isStr] at h
  · intro h
    exact ⟨_, h, by simp [isStr]⟩

/-- A set of wire colors selects these networks and no others. -/
theorem C86_networks (env : Env Sig) (l : List Val) : ∃ n, networksOf env (.set l) = .valid n ∧
    (n.red = some true ↔ Val.str "red" ∈ l) ∧ (n.red = some false ↔ Val.str "red" ∉ l) ∧
    (n.green = some true ↔ Val.str "green" ∈ l) ∧ (n.green = some false ↔ Val.str "green" ∉ l) := by
  have hr := any_isStr "red" l
  have hg := any_isStr "green" l
  have key : ∀ a b : Bool, (["red", "green"].filter fun e => !(if e = "red" then a else b)) =
      (if a then [] else ["red"]) ++ (if b then [] else ["green"]) := by decide +kernel
  have hf : networksFromSet l = ((if l.any (isStr "red") then [] else ["red"]) ++ (if l.any (isStr "green") then [] else ["green"])).map
      fun e => (e, Val.bool false) := by
    rw [networksFromSet]
    cases h1 : l.any (isStr "red") <;> cases h2 : l.any (isStr "green") <;> simp [h1, h2]
  rw [networksOf, hf, ← hr, ← hg]
  cases l.any (isStr "red") <;> cases l.any (isStr "green") <;>
    exact ⟨_, rfl, by simp, by simp, by simp, by simp⟩

example : ∃ n, networksOf plain (.set [.str "red"]) = .valid n ∧ n = ⟨some true, some false⟩ := ⟨_, rfl, rfl⟩

/-- Claim: "a selection of networks that names an unknown wire is refused".  Refuted: anything but "red" and "green" in the set is
ignored (signatures.py:695-697), so that a misspelt color silently selects nothing. -/
theorem C86_networks_refuted :
    ¬∀ (env : Env String) (l : List Val) (n : Networks), networksOf env (.set l) = .valid n → ∀ v ∈ l, v = .str "red" ∨ v = .str "green" := by
  intro h
  have := h plain [.str "gren"] ⟨some false, some false⟩ rfl (.str "gren") (by simp)
  simp at this

/-! ### Conditions -/

/-- The comparator that a text stands for: the six signs of the game, and the four of Python. -/
inductive Means : String → String → Prop
  | gt : Means ">" ">"
  | lt : Means "<" "<"
  | eq : Means "=" "="
  | ge : Means "≥" "≥"
  | le : Means "≤" "≤"
  | ne : Means "≠" "≠"
  | pyEq : Means "==" "="
  | pyGe : Means ">=" "≥"
  | pyLe : Means "<=" "≤"
  | pyNe : Means "!=" "≠"

theorem means_iff (s t : String) : Means s t ↔ (s, t) ∈ [(">", ">"), ("<", "<"), ("=", "="), ("≥", "≥"), ("≤", "≤"), ("≠", "≠"), ("==", "="), (">=", "≥"),
    ("<=", "≤"), ("!=", "≠")] := by
  constructor
  · intro h; cases h <;> decide
  · intro h
    simp only [List.mem_cons, Prod.mk.injEq, List.not_mem_nil, or_false] at h
    rcases h with ⟨rfl, rfl⟩ | ⟨rfl, rfl⟩ | ⟨rfl, rfl⟩ | ⟨rfl, rfl⟩ | ⟨rfl, rfl⟩ | ⟨rfl, rfl⟩ | ⟨rfl, rfl⟩ | ⟨rfl, rfl⟩ | ⟨rfl, rfl⟩ | ⟨rfl, rfl⟩ <;> constructor

theorem comparator_str (s : String) : comparatorField (.str s) =
    if s = "==" then .valid (some "=") else if s = ">=" then .valid (some "≥") else if s = "<=" then .valid (some "≤") else if s = "!=" then .valid (some "≠")
    else if s ∈ [">", "<", "=", "≥", "≤", "≠"] then .valid (some s) else .invalid := by
  by_cases h1 : s = "=="
  · subst h1; rfl
  by_cases h2 : s = ">="
  · subst h2; rfl
  by_cases h3 : s = "<="
  · subst h3; rfl
  by_cases h4 : s = "!="
  · subst h4; rfl
  rw [if_neg h1, if_neg h2, if_neg h3, if_neg h4]
  have : normalizeComparator (.str s) = .ok (.str s) := by
    simp [normalizeComparator, hashable, conversions, List.find?, Ne.symm h1, Ne.symm h2, Ne.symm h3, Ne.symm h4, beq_eq_decide]
  rw [comparatorField, this]

/-- A comparator is accepted exactly if it is one of the ten texts, or null, and is then the sign it stands for. -/
theorem C86_comparator (v : Val) (c : Option String) :
    comparatorField v = .valid c ↔ (v = .none ∧ c = Option.none) ∨ ∃ s t, v = .str s ∧ c = some t ∧ Means s t := by
  cases v with
  | str s =>
    rw [comparator_str]
    simp only [reduceCtorEq, false_and, Val.str.injEq, exists_and_left, false_or]
    constructor
    · intro h
      refine ⟨s, rfl, ?_⟩
      split at h
      · cases h; rename_i h; subst h; exact ⟨_, rfl, .pyEq⟩
      split at h
      · cases h; rename_i h; subst h; exact ⟨_, rfl, .pyGe⟩
      split at h
      · cases h; rename_i h; subst h; exact ⟨_, rfl, .pyLe⟩
      split at h
      · cases h; rename_i h; subst h; exact ⟨_, rfl, .pyNe⟩
      split at h
      · cases h
        rename_i h
        simp only [List.mem_cons, List.not_mem_nil, or_false] at h
        rcases h with rfl | rfl | rfl | rfl | rfl | rfl <;> exact ⟨_, rfl, by constructor⟩
      · cases h
    · rintro ⟨s', rfl, t, rfl, h⟩
      cases h <;> rfl
  | none => simp [comparatorField, normalizeComparator, hashable, eq_comm]
  | tuple l =>
    simp only [comparatorField, normalizeComparator]
    cases hashable (.tuple l) <;> simp
  | object b => cases b <;> simp [comparatorField, normalizeComparator, hashable]
  | _ => simp [comparatorField, normalizeComparator, hashable]

example : comparatorField (.str "!=") = .valid (some "≠") ∧ comparatorField (.str "=>") = .invalid := ⟨rfl, rfl⟩

theorem condFields_valid {env : Env Sig} {d : List (String × Val)} {r : Cond Sig} : conditionFields env d = .valid r ↔
    defaulted (optional env.signal) Option.none (entry d "first_signal") = .valid r.first ∧
    defaulted (optional (networksOf env)) (some ⟨some true, some true⟩) (entry d "first_signal_networks") = .valid r.firstNetworks ∧
    defaulted comparatorField (some "<") (entry d "comparator") = .valid r.comparator ∧
    defaulted (optional (int32Field env)) (some 0) (entry d "constant") = .valid r.constant ∧
    defaulted (optional env.signal) Option.none (entry d "second_signal") = .valid r.second ∧
    defaulted (optional (networksOf env)) (some ⟨some true, some true⟩) (entry d "second_signal_networks") = .valid r.secondNetworks := by
  rw [conditionFields]
  simp only [both_valid]
  constructor
  · rintro ⟨_, x6, ⟨_, x5, ⟨_, x4, ⟨_, x3, ⟨x1, x2, h1, h2, rfl⟩, h3, rfl⟩, h4, rfl⟩, h5, rfl⟩, h6, rfl⟩
    exact ⟨h1, h2, h3, h4, h5, h6⟩
  · rintro ⟨h1, h2, h3, h4, h5, h6⟩
    exact ⟨_, _, ⟨_, _, ⟨_, _, ⟨_, _, ⟨_, _, h1, h2, rfl⟩, h3, rfl⟩, h4, rfl⟩, h5, rfl⟩, h6, rfl⟩

theorem int32_int (env : Env Sig) (x : Val) (hx : isInt x = true) (k : Option Int) : optional (int32Field env) x = .valid k ↔
    ∃ n, (x = .int n ∨ ∃ b, x = .bool b ∧ n = if b then 1 else 0) ∧ -2 ^ 31 ≤ n ∧ n < 2 ^ 31 ∧ k = some n := by
  have key : ∀ m : Int, (if -2 ^ 31 ≤ m ∧ m < 2 ^ 31 then Out.valid m else .invalid).map some = .valid k ↔ -2 ^ 31 ≤ m ∧ m < 2 ^ 31 ∧ k = some m := by
    intro m
    by_cases hm : -2 ^ 31 ≤ m ∧ m < 2 ^ 31
    · rw [if_pos hm]
      simp only [Out.map, Out.valid.injEq]
      exact ⟨fun h => ⟨hm.1, hm.2, h.symm⟩, fun h => h.2.2.symm⟩
    · rw [if_neg hm]
      exact ⟨fun h => (by cases h), fun h => absurd ⟨h.1, h.2.1⟩ hm⟩
  cases x with
  | int m =>
    refine (key m).trans ⟨fun h => ⟨m, .inl rfl, h⟩, ?_⟩
    rintro ⟨n, h | ⟨b, h, _⟩, h'⟩
    · cases h; exact h'
    · cases h
  | bool b =>
    refine (key (if b then 1 else 0)).trans ⟨fun h => ⟨_, .inr ⟨b, rfl, rfl⟩, h⟩, ?_⟩
    rintro ⟨n, h | ⟨b', h, rfl⟩, h'⟩
    · cases h
    · cases h; exact h'
  | _ => simp [isInt] at hx

theorem isInt_false {x : Val} (h : isInt x = false) : (∀ n, x ≠ .int n) ∧ ∀ b, x ≠ .bool b := by
  constructor
  · rintro n rfl; simp [isInt] at h
  · rintro n rfl; simp [isInt] at h

/-- A condition `(signal, comparator, value)` compares the signal with the constant if the value is an integer, and with the second signal otherwise;
it is accepted exactly if all three are; everything else has its default. -/
theorem C86_condition (env : Env Sig) (a c x : Val) (rest : List Val) (r : Cond Sig) :
    (conditionOf env (.tuple (a :: c :: x :: rest)) = .valid r ↔
      optional env.signal a = .valid r.first ∧ comparatorField c = .valid r.comparator ∧
      r.firstNetworks = some ⟨some true, some true⟩ ∧ r.secondNetworks = some ⟨some true, some true⟩ ∧
      ((∃ n, (x = .int n ∨ ∃ b, x = .bool b ∧ n = if b then 1 else 0) ∧ -2 ^ 31 ≤ n ∧ n < 2 ^ 31 ∧ r.constant = some n ∧ r.second = Option.none) ∨
        ((∀ n, x ≠ .int n) ∧ (∀ b, x ≠ .bool b) ∧ optional env.signal x = .valid r.second ∧ r.constant = some 0))) ∧
    conditionOf env (.list (a :: c :: x :: rest)) = conditionOf env (.tuple (a :: c :: x :: rest)) := by
  refine ⟨?_, rfl⟩
  cases hx : isInt x with
  | true =>
    have : conditionOf env (.tuple (a :: c :: x :: rest)) = conditionFields env [("first_signal", a), ("comparator", c), ("constant", x)] := by
      simp [conditionOf, andThen, conditionFromSequence, item, hx, bind, Except.bind, pure, Except.pure]
    rw [this, condFields_valid]
    have e1 : entry [("first_signal", a), ("comparator", c), ("constant", x)] "first_signal" = some a := rfl
    have e2 : entry [("first_signal", a), ("comparator", c), ("constant", x)] "first_signal_networks" = Option.none := rfl
    have e3 : entry [("first_signal", a), ("comparator", c), ("constant", x)] "comparator" = some c := rfl
    have e4 : entry [("first_signal", a), ("comparator", c), ("constant", x)] "constant" = some x := rfl
    have e5 : entry [("first_signal", a), ("comparator", c), ("constant", x)] "second_signal" = Option.none := rfl
    have e6 : entry [("first_signal", a), ("comparator", c), ("constant", x)] "second_signal_networks" = Option.none := rfl
    simp only [e1, e2, e3, e4, e5, e6, defaulted, Out.valid.injEq, int32_int env x hx]
    constructor
    · rintro ⟨h1, h2, h3, ⟨n, h4, h5, h6, h7⟩, h8, h9⟩
      exact ⟨h1, h3, h2.symm, h9.symm, .inl ⟨n, h4, h5, h6, h7, h8.symm⟩⟩
    · rintro ⟨h1, h3, h2, h9, ⟨n, h4, h5, h6, h7, h8⟩ | ⟨h4, h5, _⟩⟩
      · exact ⟨h1, h2.symm, h3, ⟨n, h4, h5, h6, h7⟩, h8.symm, h9.symm⟩
      · cases x with
        | int n => exact absurd rfl (h4 n)
        | bool b => exact absurd rfl (h5 b)
        | _ => simp [isInt] at hx
  | false =>
    have : conditionOf env (.tuple (a :: c :: x :: rest)) = conditionFields env [("first_signal", a), ("comparator", c), ("second_signal", x)] := by
      simp [conditionOf, andThen, conditionFromSequence, item, hx, bind, Except.bind, pure, Except.pure]
    rw [this, condFields_valid]
    have e1 : entry [("first_signal", a), ("comparator", c), ("second_signal", x)] "first_signal" = some a := rfl
    have e2 : entry [("first_signal", a), ("comparator", c), ("second_signal", x)] "first_signal_networks" = Option.none := rfl
    have e3 : entry [("first_signal", a), ("comparator", c), ("second_signal", x)] "comparator" = some c := rfl
    have e4 : entry [("first_signal", a), ("comparator", c), ("second_signal", x)] "constant" = Option.none := rfl
    have e5 : entry [("first_signal", a), ("comparator", c), ("second_signal", x)] "second_signal" = some x := rfl
    have e6 : entry [("first_signal", a), ("comparator", c), ("second_signal", x)] "second_signal_networks" = Option.none := rfl
    obtain ⟨n1, n2⟩ := isInt_false hx
    simp only [e1, e2, e3, e4, e5, e6, defaulted, Out.valid.injEq]
    constructor
    · rintro ⟨h1, h2, h3, h4, h5, h9⟩
      exact ⟨h1, h3, h2.symm, h9.symm, .inr ⟨n1, n2, h5, h4.symm⟩⟩
    · rintro ⟨h1, h3, h2, h9, ⟨n, h4 | ⟨b, h4, _⟩, _⟩ | ⟨_, _, h4, h5⟩⟩
      · exact absurd h4 (n1 n)
      · exact absurd h4 (n2 b)
      · exact ⟨h1, h2.symm, h3, h5.symm, h4, h9.symm⟩

example : conditionOf plain (.tuple [.str "signal-A", .str ">=", .int 100]) =
    .valid ⟨some "signal-A", some ⟨some true, some true⟩, some "≥", some 100, Option.none, some ⟨some true, some true⟩⟩ := by
  rw [(C86_condition plain _ _ _ _ _).1]
  exact ⟨rfl, rfl, rfl, rfl, .inl ⟨100, .inl rfl, by decide, by decide, rfl, rfl⟩⟩

example : conditionOf plain (.list [.str "signal-A", .str "≠", .str "signal-B"]) =
    .valid ⟨some "signal-A", some ⟨some true, some true⟩, some "≠", some 0, some "signal-B", some ⟨some true, some true⟩⟩ := by
  refine (C86_condition plain _ _ _ [] ⟨some "signal-A", some ⟨some true, some true⟩, some "≠", some 0, some "signal-B", some ⟨some true, some true⟩⟩).2.trans ?_
  rw [(C86_condition plain _ _ _ _ _).1]
  exact ⟨rfl, rfl, rfl, rfl, .inr ⟨fun _ h => (nomatch h), fun _ h => (nomatch h), rfl, rfl⟩⟩

theorem networkFields_total (env : Env Sig) (d : List (String × Val)) (e : PyErr) : networkFields env d ≠ .escape e := by
  have key : ∀ (o : Option Val) (e : PyErr), defaulted (optional (boolField env)) (some true) o ≠ .escape e := by
    intro o e
    cases o with
    | none => simp [defaulted]
    | some v =>
      rw [defaulted, ne_eq, optional_escape]
      rintro ⟨_, h⟩
      cases v with
      | str s => simp only [boolField] at h; cases hs : env.truth s <;> rw [hs] at h <;> cases h
      | int n => simp only [boolField] at h; split at h <;> [cases h; (split at h <;> cases h)]
      | num n => simp only [boolField] at h; split at h <;> [cases h; (split at h <;> cases h)]
      | _ => simp [boolField] at h
  rw [networkFields, ne_eq, both_escape]
  simp only [key, and_false, or_self, not_false_eq_true]

theorem networks_total (env : Env Sig) (v : Val) (e : PyErr) : networksOf env v ≠ .escape e := by
  cases v with
  | set l => exact networkFields_total env _ e
  | dict d => exact networkFields_total env _ e
  | _ => simp [networksOf]

theorem comparator_escape (v : Val) (e : PyErr) : comparatorField v = .escape e ↔ e = .typeError ∧ hashable v = false := by
  rw [comparatorField]
  cases h : hashable v with
  | false => simp [normalizeComparator, h, eq_comm]
  | true =>
    have : ∃ w, normalizeComparator v = .ok w := by
      cases v with
      | str s => simp only [normalizeComparator, h, if_true]; split <;> exact ⟨_, rfl⟩
      | _ => simp only [normalizeComparator, h, if_true]; exact ⟨_, rfl⟩
    obtain ⟨w, hw⟩ := this
    rw [hw]
    cases w with
    | str s => simp only; split <;> simp
    | _ => simp

theorem int32_total (env : Env Sig) (v : Val) (e : PyErr) : int32Field env v ≠ .escape e := by
  have : intField env v ≠ .escape e := by
    cases v with
    | str s => simp only [intField]; cases env.whole s <;> simp
    | num q => simp only [intField]; split <;> simp
    | _ => simp [intField]
  rw [int32Field]
  cases h : intField env v with
  | escape e' => intro h'; rw [h] at this; exact this h'
  | invalid => simp
  | valid n => simp only; split <;> simp

/-- A condition whose signals raise nothing raises anything but a `DataFormatError` exactly if it is a sequence of less than three values
(text counts as the sequence of its letters), or if its comparator cannot be hashed. -/
theorem C86_condition_raises_partial (env : Env Sig) (hs : ∀ v e, env.signal v ≠ .escape e) (v : Val) (e : PyErr) :
    conditionOf env v = .escape e ↔
      (e = .indexError ∧ ((∃ l : List Val, (v = .list l ∨ v = .tuple l) ∧ l.length < 3) ∨ ∃ s, v = .str s ∧ s.length < 3)) ∨
      (e = .typeError ∧ ∃ c, hashable c = false ∧
        ((∃ a x rest, v = .list (a :: c :: x :: rest) ∨ v = .tuple (a :: c :: x :: rest)) ∨ ∃ d, v = .dict d ∧ entry d "comparator" = some c)) := by
  have sig : ∀ (o : Option Val) (e : PyErr), defaulted (optional env.signal) Option.none o ≠ .escape e := by
    intro o e
    cases o with
    | none => simp [defaulted]
    | some v => rw [defaulted, ne_eq, optional_escape]; exact fun h => hs _ _ h.2
  have net : ∀ (o : Option Val) (e : PyErr), defaulted (optional (networksOf env)) (some ⟨some true, some true⟩) o ≠ .escape e := by
    intro o e
    cases o with
    | none => simp [defaulted]
    | some v => rw [defaulted, ne_eq, optional_escape]; exact fun h => networks_total _ _ _ h.2
  have con : ∀ (o : Option Val) (e : PyErr), defaulted (optional (int32Field env)) (some 0) o ≠ .escape e := by
    intro o e
    cases o with
    | none => simp [defaulted]
    | some v => rw [defaulted, ne_eq, optional_escape]; exact fun h => int32_total _ _ _ h.2
  have fields : ∀ d, conditionFields env d = .escape e ↔ e = .typeError ∧ ∃ c, hashable c = false ∧ entry d "comparator" = some c := by
    intro d
    rw [conditionFields]
    simp only [both_escape, ne_eq, sig, net, con, and_false, or_false, false_or, not_false_eq_true, implies_true, true_and]
    cases hc : entry d "comparator" with
    | none => simp [defaulted]
    | some c =>
      rw [defaulted, comparator_escape]
      simp
  have seq : ∀ l : List Val, andThen (conditionFields env) (conditionFromSequence l) = .escape e ↔ (e = .indexError ∧ l.length < 3) ∨
        (e = .typeError ∧ ∃ c, hashable c = false ∧ ∃ a x rest, l = a :: c :: x :: rest) := by
    intro l
    match l with
    | [] => exact ⟨fun h => by cases h; exact .inl ⟨rfl, by simp⟩, fun h => by rcases h with h | ⟨_, _, _, _, _, _, h⟩ <;> [(rw [h.1]; rfl); cases h]⟩
    | [_] => exact ⟨fun h => by cases h; exact .inl ⟨rfl, by simp⟩, fun h => by rcases h with h | ⟨_, _, _, _, _, _, h⟩ <;> [(rw [h.1]; rfl); cases h]⟩
    | [_, _] => exact ⟨fun h => by cases h; exact .inl ⟨rfl, by simp⟩, fun h => by rcases h with h | ⟨_, _, _, _, _, _, h⟩ <;> [(rw [h.1]; rfl); cases h]⟩
    | a :: c :: x :: r =>
      have : ∃ d, conditionFromSequence (a :: c :: x :: r) = .ok d ∧ entry d "comparator" = some c := by
        cases hx : isInt x with
        | true => exact ⟨[("first_signal", a), ("comparator", c), ("constant", x)], by
            simp [conditionFromSequence, item, hx, bind, Except.bind, pure, Except.pure], rfl⟩
        | false => exact ⟨[("first_signal", a), ("comparator", c), ("second_signal", x)], by
            simp [conditionFromSequence, item, hx, bind, Except.bind, pure, Except.pure], rfl⟩
      obtain ⟨d, hd, hc⟩ := this
      rw [hd, andThen, fields, hc]
      constructor
      · rintro ⟨he, c', h1, h2⟩
        cases h2
        exact .inr ⟨he, c, h1, a, x, r, rfl⟩
      · rintro (⟨_, h⟩ | ⟨he, c', h1, _, _, _, h2⟩)
        · exact absurd h (by simp)
        · cases h2
          exact ⟨he, c, h1, rfl⟩
  cases v with
  | list l =>
    refine (seq l).trans ?_
    simp
  | tuple l =>
    refine (seq l).trans ?_
    simp
  | str s =>
    refine (seq (letters s)).trans ?_
    have hl : (letters s).length = s.length := by rw [letters, List.length_map, String.length_toList]
    have hh : ¬∃ c, hashable c = false ∧ ∃ a x rest, letters s = a :: c :: x :: rest := by
      rintro ⟨c, hc, a, x, r, h⟩
      have : c ∈ letters s := by rw [h]; simp
      rw [letters, List.mem_map] at this
      obtain ⟨_, _, rfl⟩ := this
      simp [hashable] at hc
    rw [hl]
    simp only [hh, and_false, or_false]
    simp
  | dict d =>
    refine (fields d).trans ?_
    simp
  | _ => simp [conditionOf]

example : conditionOf plain (.str "ab") = .escape .indexError ∧ conditionOf plain (.dict [("comparator", .list [])]) = .escape .typeError ∧
    (∀ v e, plain.signal v ≠ .escape e) := by
  have hp : ∀ v e, plain.signal v ≠ .escape e := by intro v e; cases v <;> simp [plain]
  exact ⟨(C86_condition_raises_partial plain hp _ _).2 (.inl ⟨rfl, .inr ⟨_, rfl, by decide⟩⟩),
    (C86_condition_raises_partial plain hp _ _).2 (.inr ⟨rfl, .list [], rfl, .inr ⟨_, rfl, rfl⟩⟩), hp⟩

/-- Claim: "an unsuitable condition is refused with a `DataFormatError`, and all of a suitable one is used".  Refuted: `("signal-A", ">")` raises an
`IndexError`, a list as comparator a `TypeError` (signatures.py:746-755, 771); a fourth value is ignored; and a constant given as a float, which is accepted
in a dictionary, is taken for a signal in a sequence and refused. -/
theorem C86_condition_refuted :
    (¬∀ (env : Env String) (v : Val) (e : PyErr), (∀ v e, env.signal v ≠ .escape e) → conditionOf env v ≠ .escape e) ∧
    (¬∀ (env : Env String) (l : List Val) (c : Cond String), conditionOf env (.tuple l) = .valid c → l.length ≤ 3) ∧
    (¬∀ (env : Env String) (a c x : Val) (r : Cond String), conditionOf env (.dict [("first_signal", a), ("comparator", c), ("constant", x)]) = .valid r →
      conditionOf env (.tuple [a, c, x]) = .valid r) := by
  have hp : ∀ v e, plain.signal v ≠ .escape e := by intro v e; cases v <;> simp [plain]
  refine ⟨fun h => ?_, fun h => ?_, fun h => ?_⟩
  · exact h plain (.tuple [.str "signal-A", .str ">"]) .indexError hp ((C86_condition_raises_partial plain hp _ _).2
      (.inl ⟨rfl, .inl ⟨_, .inr rfl, by decide⟩⟩))
  · have := h plain [.str "signal-A", .str ">", .int 1, .int 2] ⟨some "signal-A", some ⟨some true, some true⟩, some ">", some 1, Option.none, some ⟨some true, some true⟩⟩
      ((C86_condition plain _ _ _ _ _).1.2 ⟨rfl, rfl, rfl, rfl, .inl ⟨1, .inl rfl, by decide, by decide, rfl, rfl⟩⟩)
    simp at this
  · have := h plain (.str "signal-A") (.str ">") (.num 5) ⟨some "signal-A", some ⟨some true, some true⟩, some ">", some 5, Option.none, some ⟨some true, some true⟩⟩
      ((condFields_valid (env := plain) (d := [("first_signal", .str "signal-A"), ("comparator", .str ">"), ("constant", .num 5)])).2
        ⟨rfl, rfl, rfl, rfl, rfl, rfl⟩)
    rw [(C86_condition plain _ _ _ _ _).1] at this
    obtain ⟨_, _, _, _, ⟨n, h | ⟨b, h, _⟩, _⟩ | ⟨_, _, h, _⟩⟩ := this
    · cases h
    · cases h
    · cases h

/-! ### Positions -/

/-- The integer that a value stands for in a field: fractions stand for none. -/
inductive Whole (env : Env Sig) : Val → Int → Prop
  | bool (b : Bool) : Whole env (.bool b) (if b then 1 else 0)
  | int (n : Int) : Whole env (.int n) n
  | num (n : Int) : Whole env (.num n) n
  | str (s : String) (n : Int) : env.whole s = some n → Whole env (.str s) n

theorem castFloat_ok {env : Env Sig} {v w : Val} : castFloat env v = .ok w ↔ ∃ q, Reads env v q ∧ w = .num q := by
  rw [show (castFloat env v = .ok w) ↔ ∃ q, floatField env v = .valid q ∧ w = .num q from ?_]
  · simp only [floatField_valid]
  · cases v with
    | str s => simp only [castFloat, floatField]; cases env.real s <;> simp [eq_comm]
    | _ => simp [castFloat, floatField, eq_comm]

/-- The two coordinates as a list, tuple, dictionary or vector. -/
def forms (x y : Val) (rest : List Val) : List Val :=
  [.list (x :: y :: rest), .tuple (x :: y :: rest), .dict [("x", x), ("y", y)], .dict [("y", y), ("x", x)], .vector x y]

/-- A position in real numbers can be given as a list, a tuple, a dictionary or a vector, all of which mean the same: it is accepted exactly if both coordinates are
numbers, and holds these. -/
theorem C86_position (env : Env Sig) (x y : Val) (rest : List Val) (v : Val) (hv : v ∈ forms x y rest) (p : Rat × Rat) :
    floatPosition env v = .valid p ↔ Reads env x p.1 ∧ Reads env y p.2 := by
  have fields : ∀ (a b : Val), positionFields (floatField env) [("x", a), ("y", b)] = .valid p ↔ Reads env a p.1 ∧ Reads env b p.2 := by
    intro a b
    rw [positionFields, both_valid]
    have e1 : entry [("x", a), ("y", b)] "x" = some a := rfl
    have e2 : entry [("x", a), ("y", b)] "y" = some b := rfl
    simp only [e1, e2, required, floatField_valid]
    constructor
    · rintro ⟨a, b, h1, h2, rfl⟩; exact ⟨h1, h2⟩
    · rintro ⟨h1, h2⟩; exact ⟨_, _, h1, h2, rfl⟩
  have fields' : positionFields (floatField env) [("y", y), ("x", x)] = .valid p ↔ Reads env x p.1 ∧ Reads env y p.2 := by
    rw [positionFields, both_valid]
    have e1 : entry [("y", y), ("x", x)] "x" = some x := rfl
    have e2 : entry [("y", y), ("x", x)] "y" = some y := rfl
    simp only [e1, e2, required, floatField_valid]
    constructor
    · rintro ⟨a, b, h1, h2, rfl⟩; exact ⟨h1, h2⟩
    · rintro ⟨h1, h2⟩; exact ⟨_, _, h1, h2, rfl⟩
  have noread : ∀ (w : Val) (e : PyErr), castFloat env w = .error e → ∀ q, ¬Reads env w q := by
    intro w e he q hq
    rw [castFloat_ok.2 ⟨q, hq, rfl⟩] at he
    cases he
  have errs : ∀ (w : Val) (e : PyErr), castFloat env w = .error e → e = .typeError ∨ e = .valueError := by
    intro w e he
    cases w with
    | str s => simp only [castFloat] at he; cases hs : env.real s <;> rw [hs] at he <;> cases he; exact .inr rfl
    | _ => simp [castFloat] at he <;> exact .inl he.symm
  have main : ∀ (v : Val), (fromOther (castFloat env) v = (do let a ← castFloat env x; let b ← castFloat env y; pure (a, b))) →
      (∀ d, v = .dict d → (positionFields (floatField env) d = .valid p ↔ Reads env x p.1 ∧ Reads env y p.2)) →
      (floatPosition env v = .valid p ↔ Reads env x p.1 ∧ Reads env y p.2) := by
    intro v h hd
    rw [floatPosition, positionOf, h]
    cases hx : castFloat env x with
    | error e =>
      have nx := noread x e hx p.1
      simp only [bind, Except.bind, nx, false_and, iff_false]
      rcases errs x e hx with rfl | rfl
      · cases v with
        | dict d => rw [if_pos rfl, unconverted, hd d rfl]; exact fun h => nx h.1
        | _ => simp [unconverted]
      · simp
    | ok a =>
      cases hy : castFloat env y with
      | error e =>
        have ny := noread y e hy p.2
        simp only [bind, Except.bind, ny, and_false, iff_false]
        rcases errs y e hy with rfl | rfl
        · cases v with
          | dict d => rw [if_pos rfl, unconverted, hd d rfl]; exact fun h => ny h.2
          | _ => simp [unconverted]
        · simp
      | ok b =>
        obtain ⟨q, hq, rfl⟩ := castFloat_ok.1 hx
        obtain ⟨q', hq', rfl⟩ := castFloat_ok.1 hy
        simp only [bind, Except.bind, pure, Except.pure]
        rw [fields]
        have uniq : ∀ {w : Val} {a b : Rat}, Reads env w a → Reads env w b → a = b := by
          intro w a b h1 h2
          have := (floatField_valid.2 h1).symm.trans (floatField_valid.2 h2)
          simpa using this
        constructor
        · rintro ⟨h1, h2⟩
          cases h1; cases h2
          exact ⟨hq, hq'⟩
        · rintro ⟨h1, h2⟩
          rw [uniq h1 hq, uniq h2 hq']
          exact ⟨.num q, .num q'⟩
  simp only [forms, List.mem_cons, List.not_mem_nil, or_false] at hv
  rcases hv with rfl | rfl | rfl | rfl | rfl
  · exact main _ rfl (fun d h => by cases h)
  · exact main _ rfl (fun d h => by cases h)
  · exact main _ rfl (fun d h => by cases h; exact fields x y)
  · exact main _ rfl (fun d h => by cases h; exact fields')
  · rw [floatPosition, positionOf]
    exact fields x y

example : floatPosition plain (.dict [("y", .int 2), ("x", .str "0.5")]) = .valid (1 / 2, 2) :=
  (C86_position plain (.str "0.5") (.int 2) [] _ (by simp [forms]) _).2 ⟨.str _ _ rfl, .int 2⟩

/-- A position in whole numbers given as a vector is accepted exactly if both coordinates are whole numbers. -/
theorem C86_whole (env : Env Sig) (x y : Val) (p : Int × Int) : intPosition env (.vector x y) = .valid p ↔ Whole env x p.1 ∧ Whole env y p.2 := by
  have key : ∀ (w : Val) (n : Int), intField env w = .valid n ↔ Whole env w n := by
    intro w n
    constructor
    · intro h
      cases w with
      | bool b => simp only [intField, Out.valid.injEq] at h; subst h; exact .bool b
      | int n => simp only [intField, Out.valid.injEq] at h; subst h; exact .int n
      | num q =>
        simp only [intField] at h
        split at h
        · rename_i hq
          cases h
          have : ((q.num : Int) : Rat) = q := by rw [← Rat.coe_int_num_of_den_eq_one hq]; simp
          rw [← this]
          simpa using Whole.num (env := env) q.num
        · cases h
      | str s =>
        simp only [intField] at h
        cases hs : env.whole s with
        | none => rw [hs] at h; cases h
        | some k => rw [hs] at h; cases h; exact .str s _ hs
      | _ => simp [intField] at h
    · intro h
      cases h with
      | bool b => rfl
      | int n => rfl
      | num n => simp [intField]
      | str s n h => simp [intField, h]
  rw [intPosition, positionOf]
  simp only [fromOther]
  rw [positionFields, both_valid]
  have e1 : entry [("x", x), ("y", y)] "x" = some x := rfl
  have e2 : entry [("x", x), ("y", y)] "y" = some y := rfl
  simp only [e1, e2, required, key]
  constructor
  · rintro ⟨a, b, h1, h2, rfl⟩; exact ⟨h1, h2⟩
  · rintro ⟨h1, h2⟩; exact ⟨_, _, h1, h2, rfl⟩

example : intPosition plain (.vector (.num 3) (.int (-4))) = .valid (3, -4) := (C86_whole plain _ _ _).2 ⟨.num 3, .int (-4)⟩

theorem posFields_total (env : Env Sig) (d : List (String × Val)) (e : PyErr) : positionFields (floatField env) d ≠ .escape e := by
  have req : ∀ (o : Option Val) (e : PyErr), required (floatField env) o ≠ .escape e := by
    intro o e
    cases o with
    | none => simp [required]
    | some v => exact floatField_total env v e
  rw [positionFields, ne_eq, both_escape]
  simp only [req, and_false, or_self, not_false_eq_true]

theorem pair_escape (env : Env Sig) (v : Val) (e : PyErr) (a b : Except PyErr Val) (k : PyErr) (hk : k ≠ .typeError) (hk' : k ≠ .valueError)
    (ha : ∀ e, a = .error e → e = k) (hb : ∀ e, b = .error e → e = k)
    (h : fromOther (castFloat env) v = (do let x ← castFloat env (← a); let y ← castFloat env (← b); pure (x, y))) :
    floatPosition env v = .escape e ↔ e = k ∧ (a = .error k ∨ ∃ x q, a = .ok x ∧ Reads env x q ∧ b = .error k) := by
  have errs : ∀ (w : Val) (e : PyErr), castFloat env w = .error e → e = .typeError ∨ e = .valueError := by
    intro w e he
    cases w with
    | str s => simp only [castFloat] at he; cases hs : env.real s <;> rw [hs] at he <;> cases he; exact .inr rfl
    | _ => simp [castFloat] at he <;> exact .inl he.symm
  have unc : unconverted (floatField env) v ≠ .escape e := by
    cases v with
    | dict d => exact posFields_total env d e
    | _ => simp [unconverted]
  have noread : ∀ (w : Val) (e : PyErr), castFloat env w = .error e → ∀ q, ¬Reads env w q := by
    intro w e he q hq
    rw [castFloat_ok.2 ⟨q, hq, rfl⟩] at he
    cases he
  rw [floatPosition, positionOf, h]
  cases a with
  | error e' =>
    cases ha e' rfl
    simp only [bind, Except.bind, if_neg hk, if_neg hk', Out.escape.injEq, true_or, and_true]
    exact eq_comm
  | ok x =>
    simp only [bind, Except.bind]
    cases hx : castFloat env x with
    | error e' =>
      refine iff_of_false ?_ ?_
      · rcases errs x e' hx with rfl | rfl
        · simpa using unc
        · simp
      · rintro ⟨_, h | ⟨w, q, h, hq, _⟩⟩
        · cases h
        · cases h
          exact noread x e' hx q hq
    | ok x' =>
      obtain ⟨q, hq, rfl⟩ := castFloat_ok.1 hx
      cases b with
      | error e' =>
        cases hb e' rfl
        simp only [if_neg hk, if_neg hk', Out.escape.injEq]
        exact ⟨fun h => ⟨h.symm, .inr ⟨x, q, rfl, hq, trivial⟩⟩, fun h => h.1.symm⟩
      | ok y =>
        refine iff_of_false ?_ ?_
        · dsimp only
          cases hy : castFloat env y with
          | error e' =>
            rcases errs y e' hy with rfl | rfl
            · simpa using unc
            · simp
          | ok y' => exact posFields_total env _ e
        · rintro ⟨_, h | ⟨w, q, h, hq, h'⟩⟩
          · cases h
          · cases h'

/-- A position raises something else than a `DataFormatError` exactly in these cases: an `IndexError` for a list or tuple that is empty or has only one coordinate, a
number; and a `KeyError` for a dictionary without `"x"`, or without `"y"` if `"x"` is a number. -/
theorem C86_position_raises_partial (env : Env Sig) (v : Val) (e : PyErr) :
    floatPosition env v = .escape e ↔
      (e = .indexError ∧ ∃ l : List Val, (v = .list l ∨ v = .tuple l) ∧ (l = [] ∨ ∃ x q, l = [x] ∧ Reads env x q)) ∨
      (e = .keyError ∧ ∃ d, v = .dict d ∧ (entry d "x" = Option.none ∨ ∃ x q, entry d "x" = some x ∧ Reads env x q ∧ entry d "y" = Option.none)) := by
  have it : ∀ (l : List Val) (i : Nat) (e : PyErr), item l i = .error e → e = .indexError := by
    intro l i e h
    rw [item] at h
    split at h <;> cases h
    rfl
  have lk : ∀ (d : List (String × Val)) (k : String) (e : PyErr), lookup d k = .error e → e = .keyError := by
    intro l i e h
    rw [lookup] at h
    split at h <;> cases h
    rfl
  have lk1 : ∀ (d : List (String × Val)) (k : String), lookup d k = .error .keyError ↔ entry d k = Option.none := by
    intro d k
    rw [lookup]
    cases entry d k <;> simp
  have lk2 : ∀ (d : List (String × Val)) (k : String) (v : Val), lookup d k = .ok v ↔ entry d k = some v := by
    intro d k v
    rw [lookup]
    cases entry d k <;> simp
  have seq : ∀ l : List Val, ((item l 0 = .error .indexError ∨ ∃ x q, item l 0 = .ok x ∧ Reads env x q ∧ item l 1 = .error .indexError) ↔
      (l = [] ∨ ∃ x q, l = [x] ∧ Reads env x q)) := by
    intro l
    match l with
    | [] => simp [item]
    | [x] => simp [item]
    | x :: y :: r => simp [item]
  cases v with
  | list l =>
    rw [pair_escape env (.list l) e (item l 0) (item l 1) .indexError (by simp) (by simp) (it l 0) (it l 1) rfl, seq]
    simp
  | tuple l =>
    rw [pair_escape env (.tuple l) e (item l 0) (item l 1) .indexError (by simp) (by simp) (it l 0) (it l 1) rfl, seq]
    simp
  | dict d =>
    rw [pair_escape env (.dict d) e (lookup d "x") (lookup d "y") .keyError (by simp) (by simp) (lk d "x") (lk d "y") rfl]
    simp [lk1, lk2]
  | vector x y =>
    simp only [reduceCtorEq, or_self, false_and, exists_const, and_false, iff_false]
    exact posFields_total env _ e
  | _ => simp [floatPosition, positionOf, fromOther, unconverted]

example : floatPosition plain (.tuple [.str "0.5"]) = .escape .indexError ∧ floatPosition plain (.list [.str "abc"]) = .invalid :=
  ⟨(C86_position_raises_partial plain _ _).2 (.inl ⟨rfl, _, .inr rfl, .inr ⟨_, _, rfl, .str _ _ rfl⟩⟩), rfl⟩

/-- Claim: "an unsuitable position is refused with a `DataFormatError`, and the forms of a position mean the same".  Refuted: `[1]` raises an `IndexError` and
`{"x": 1}` a `KeyError`, since only `TypeError` is caught (signatures.py:634-638); a fractional tile position is refused as a vector, but given as a
tuple it is rounded towards zero. -/
theorem C86_position_refuted :
    (¬∀ (env : Env String) (v : Val) (e : PyErr), floatPosition env v ≠ .escape e) ∧
    floatPosition plain (.list [.int 1]) = .escape .indexError ∧ floatPosition plain (.dict [("x", .int 1)]) = .escape .keyError ∧
    (¬∀ (env : Env String) (x y : Val) (p : Int × Int), intPosition env (.tuple [x, y]) = .valid p → intPosition env (.vector x y) = .valid p) ∧
    intPosition plain (.tuple [.num (-1 / 2), .num (5 / 2)]) = .valid (0, 2) := by
  have e : intPosition plain (.tuple [.num (-1 / 2), .num (5 / 2)]) = .valid (0, 2) := by
    have h1 : truncate (-1 / 2) = 0 := by decide +kernel
    have h2 : truncate (5 / 2) = 2 := by decide +kernel
    simp [intPosition, positionOf, fromOther, castInt, item, bind, Except.bind, pure, Except.pure, h1, h2, positionFields, entry, required, intField, Out.both]
  refine ⟨fun h => h plain (.list [.int 1]) .indexError rfl, rfl, rfl, fun h => ?_, e⟩
  have := (C86_whole plain _ _ _).1 (h plain (.num (-1 / 2)) (.num (5 / 2)) (0, 2) e)
  obtain ⟨h1, _⟩ := this
  generalize hq : (-1 / 2 : Rat) = q at h1
  cases h1 with
  | num n =>
    have h2 := congrArg Rat.den hq
    rw [show (-1 / 2 : Rat).den = 2 by decide +kernel, Rat.den_intCast] at h2
    cases h2

end Convert
end Draftsman
