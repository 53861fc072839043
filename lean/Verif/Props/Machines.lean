import Verif.Model.Machines
import Verif.Props.Modules
import Verif.Proof.Except
import Verif.Proof.Dict

/-!
C82: a recipe or a list of item requests that a machine cannot use is warned about, and nothing else is.
-/
namespace Draftsman
namespace Machines

/-! ### What a machine can use -/

/-- The ingredient is of that name. -/
inductive Names : Ingr → String → Prop
  | list (n : String) (l : List String) : Names (.list (n :: l)) n
  | dict (n : String) : Names (.dict (some n)) n

/-- The list of ingredients that applies. -/
inductive Lists (R : Recipe) (expensive : Bool) : List Ingr → Prop
  | always (l : List Ingr) : R.ingredients = some l → Lists R expensive l
  | normal (l : List Ingr) : R.ingredients = none → expensive = false → R.normal = some (some l) → Lists R expensive l
  | expensive (l : List Ingr) : R.ingredients = none → expensive = true → R.expensive = some (some l) → Lists R expensive l

/-- The recipe consumes the item. -/
def Uses (D : Data) (r : String) (expensive : Bool) (s : String) : Prop :=
  ∃ R, D.recipes.get? r = some R ∧ ∃ l, Lists R expensive l ∧ ∃ i ∈ l, Names i s

/-- The recipe is known and all its ingredients have a name. -/
def Readable (D : Data) (r : String) (expensive : Bool) : Prop :=
  ∃ R, D.recipes.get? r = some R ∧ ∃ l, Lists R expensive l ∧ ∀ i ∈ l, ∃ s, Names i s

theorem name_ok {i : Ingr} {s : String} : i.name = .ok s ↔ Names i s := by
  constructor
  · intro h
    cases i with
    | list l => cases l with
      | nil => simp [Ingr.name] at h
      | cons a l => simp only [Ingr.name, Except.ok.injEq] at h; subst h; exact .list _ _
    | dict n => cases n with
      | none => simp [Ingr.name] at h
      | some a => simp only [Ingr.name, Except.ok.injEq] at h; subst h; exact .dict _
  · intro h; cases h <;> rfl

theorem mapM_total {α β : Type} {f : α → Except PyErr β} : ∀ {l : List α}, (∀ x ∈ l, ∃ y, f x = .ok y) → ∃ out, l.mapM f = .ok out := by
  intro l
  induction l with
  | nil => intro _; exact ⟨[], rfl⟩
  | cons x l ih =>
    intro h
    obtain ⟨y, hy⟩ := h x (by simp)
    obtain ⟨out, ho⟩ := ih fun z hz => h z (by simp [hz])
    exact ⟨y :: out, by rw [List.mapM_cons, hy]; simp only [bind, Except.bind, ho]; rfl⟩

theorem mapM_mem {α β : Type} {f : α → Except PyErr β} {l : List α} {out : List β} (h : l.mapM f = .ok out) (y : β) :
    y ∈ out ↔ ∃ x ∈ l, f x = .ok y := by
  induction l generalizing out with
  | nil => simp only [List.mapM_nil] at h; cases h; simp
  | cons x l ih =>
    rw [List.mapM_cons] at h
    cases hx : f x with
    | error e => rw [hx] at h; cases h
    | ok z =>
      rw [hx] at h
      simp only [bind, Except.bind] at h
      cases hl : l.mapM f with
      | error e => rw [hl] at h; cases h
      | ok zs =>
        rw [hl] at h
        cases h
        simp only [List.mem_cons, ih hl]
        constructor
        · rintro (rfl | ⟨w, hw, hf⟩)
          · exact ⟨x, .inl rfl, hx⟩
          · exact ⟨w, .inr hw, hf⟩
        · rintro ⟨w, rfl | hw, hf⟩
          · rw [hx] at hf; cases hf; exact .inl rfl
          · exact .inr ⟨w, hw, hf⟩

theorem lists_unique {R : Recipe} {x : Bool} {l l' : List Ingr} (h : Lists R x l) (h' : Lists R x l') : l = l' := by
  cases h <;> cases h' <;> simp_all

theorem getIngredients_of {D : Data} {r : String} {x : Bool} {R : Recipe} (hR : D.recipes.get? r = some R) {l : List Ingr} (hl : Lists R x l) :
    getIngredients D (some r) x = (l.mapM Ingr.name).map some := by
  cases hl with
  | always h => simp [getIngredients, hR, h]
  | normal h hx hn => subst hx; simp [getIngredients, hR, h, hn]
  | expensive h hx hn => subst hx; simp [getIngredients, hR, h, hn]

/-- The ingredients of a recipe are exactly the names that occur in the list that applies. -/
theorem C82_ingredients {D : Data} {r : String} {x : Bool} (h : Readable D r x) :
    ∃ l, getIngredients D (some r) x = .ok (some l) ∧ ∀ s, s ∈ l ↔ Uses D r x s := by
  obtain ⟨R, hR, l, hl, hn⟩ := h
  obtain ⟨out, ho⟩ := mapM_total (f := Ingr.name) (l := l) fun i hi => (hn i hi).imp fun _ => name_ok.mpr
  refine ⟨out, by rw [getIngredients_of hR hl, ho]; rfl, fun s => ?_⟩
  rw [mapM_mem ho]
  constructor
  · rintro ⟨i, hi, h⟩; exact ⟨R, hR, l, hl, i, hi, name_ok.mp h⟩
  · rintro ⟨R', hR', l', hl', i, hi, h⟩
    rw [hR] at hR'
    cases hR'
    cases lists_unique hl hl'
    exact ⟨i, hi, name_ok.mpr h⟩

/-- For no recipe and for an unknown one there are none, and everything else is an exception. -/
theorem C82_ingredients_none {D : Data} {r : Option String} {x : Bool} :
    (getIngredients D r x = .ok none ↔ ∀ s, r = some s → D.recipes.get? s = none) ∧
    ((∃ e, getIngredients D r x = .error e) ↔ ∃ s, r = some s ∧ (D.recipes.get? s).isSome ∧ ¬ Readable D s x) := by
  cases r with
  | none => simp [getIngredients]
  | some s =>
    cases hR : D.recipes.get? s with
    | none => simp [getIngredients, hR]
    | some R =>
      by_cases hr : Readable D s x
      · obtain ⟨l, hl, -⟩ := C82_ingredients hr
        constructor
        · simp [hl, hR]
        · refine iff_of_false (by simp [hl]) ?_
          rintro ⟨s', h, -, h'⟩
          cases h
          exact h' hr
      · have : ∃ e, getIngredients D (some s) x = .error e := by
          by_cases hl : ∃ l, Lists R x l
          · obtain ⟨l, hl⟩ := hl
            rw [getIngredients_of hR hl]
            cases ho : l.mapM Ingr.name with
            | error e => exact ⟨e, rfl⟩
            | ok out =>
              refine absurd ⟨R, hR, l, hl, fun i hi => ?_⟩ hr
              cases hi' : i.name with
              | ok s => exact ⟨s, name_ok.mp hi'⟩
              | error e =>
                exfalso
                clear hl hr
                induction l generalizing out with
                | nil => simp at hi
                | cons a l ih =>
                  rw [List.mapM_cons] at ho
                  rcases List.mem_cons.mp hi with rfl | hi
                  · rw [hi'] at ho; cases ho
                  · cases ha : a.name with
                    | error e => rw [ha] at ho; cases ho
                    | ok s =>
                      rw [ha] at ho
                      simp only [bind, Except.bind] at ho
                      cases hl : l.mapM Ingr.name with
                      | error e => rw [hl] at ho; cases ho
                      | ok zs => exact ih zs hl hi
          · refine ⟨.keyError, ?_⟩
            cases hi : R.ingredients with
            | some l => exact absurd ⟨l, .always l hi⟩ hl
            | none =>
              simp only [getIngredients, hR, hi]
              cases x with
              | false =>
                simp only [Bool.false_eq_true, if_false]
                cases hn : R.normal with
                | none => rfl
                | some o => cases o with
                  | none => rfl
                  | some l => exact absurd ⟨l, .normal l hi rfl hn⟩ hl
              | true =>
                simp only [if_true]
                cases hn : R.expensive with
                | none => rfl
                | some o => cases o with
                  | none => rfl
                  | some l => exact absurd ⟨l, .expensive l hi rfl hn⟩ hl
        obtain ⟨e, he⟩ := this
        constructor
        · simp [he, hR]
        · exact iff_of_true ⟨e, he⟩ ⟨s, rfl, by simp [hR], hr⟩

/-- The effects the machine admits: those declared, or those its class has by default. -/
inductive Admits (e : EntRaw) (k : Kind) (s : String) : Prop
  | one : e.effects = some (.one s) → Admits e k s
  | many (l : List String) : e.effects = some (.many l) → s ∈ l → Admits e k s
  | default : e.effects = none → k ≠ .assembler → k ≠ .furnace →
      s ∈ ["speed", "productivity", "consumption", "pollution", "quality"] → Admits e k s

theorem effects_mem {D : Data} {m : Machine} {e : EntRaw} (h : D.ents.get? m.name = some e) :
    ∃ l, allowedEffects D m = some l ∧ ∀ s, s ∈ l ↔ Admits e m.kind s := by
  unfold allowedEffects
  simp only [h]
  cases he : e.effects with
  | none =>
    by_cases hk : m.kind = .assembler ∨ m.kind = .furnace
    · refine ⟨[], by simp [hk], fun s => ⟨by simp, fun h => ?_⟩⟩
      cases h with
      | one h => simp [he] at h
      | many l h => simp [he] at h
      | default _ h1 h2 => exact absurd hk (by simp [h1, h2])
    · refine ⟨["speed", "productivity", "consumption", "pollution", "quality"], if_neg hk, fun s => ⟨fun h => ?_, fun h => ?_⟩⟩
      · exact .default he (fun h => hk (.inl h)) (fun h => hk (.inr h)) h
      · cases h with
        | one h => simp [he] at h
        | many l h => simp [he] at h
        | default _ _ _ h => exact h
  | some x => cases x with
    | one a =>
      refine ⟨[a], rfl, fun s => ⟨fun h => ?_, fun h => ?_⟩⟩
      · simp only [List.mem_singleton] at h; subst h; exact .one he
      · cases h with
        | one h => rw [he] at h; cases h; simp
        | many l h => rw [he] at h; cases h
        | default h => rw [he] at h; cases h
    | many l =>
      refine ⟨l, rfl, fun s => ⟨fun h => .many l he h, fun h => ?_⟩⟩
      cases h with
      | one h => rw [he] at h; cases h
      | many l' h h' => rw [he] at h; cases h; exact h'
      | default h => rw [he] at h; cases h

/-- The module fits into the machine: its positive effects are admitted, and with a recipe its limitation and its blacklist permit that. -/
def Fits (D : Data) (e : EntRaw) (k : Kind) (r : Option String) (s : String) : Prop :=
  ∃ md, (s, md) ∈ D.modules ∧ (∀ f x, (f, x) ∈ md.effect → 0 < x → Admits e k f) ∧
    ∀ n, r = some n → (∀ l, md.limitation = some l → n ∈ l) ∧ ∀ l, md.blacklist = some l → n ∉ l

theorem modules_mem {D : Data} {m : Machine} {e : EntRaw} (h : D.ents.get? m.name = some e) :
    ∃ l, allowedModules D m = some l ∧ ∀ s, s ∈ l ↔ Fits D e m.kind (if m.kind = .assembler then m.recipe else none) s := by
  obtain ⟨a, ha, hm⟩ := effects_mem h
  obtain ⟨l, hl, hx⟩ := Modules.C55_exact D.modules a (if m.kind = .assembler then m.recipe else none)
  refine ⟨l, by rw [allowedModules, ha, hl], fun s => ?_⟩
  rw [hx]
  simp only [Fits, Modules.Usable, hm]

/-- The item can be used in an assembling machine with that recipe: it is an ingredient or a module that fits. -/
def Usable (D : Data) (e : EntRaw) (r s : String) : Prop := Uses D r false s ∨ Fits D e .assembler (some r) s

theorem allowed_mem {D : Data} {m : Machine} {e : EntRaw} (hk : m.kind = .assembler) (he : D.ents.get? m.name = some e) {r : String}
    (hr : m.recipe = some r) (hread : Readable D r false) :
    ∃ l, allowedItems D m = .ok (some l) ∧ ∀ s, s ∈ l ↔ Usable D e r s := by
  obtain ⟨is, hi, hm⟩ := C82_ingredients hread
  obtain ⟨ms, h1, h2⟩ := modules_mem he
  refine ⟨ms ++ is, by simp [allowedItems, hk, hr, hi, h1], fun s => ?_⟩
  rw [List.mem_append, h2, hm, hk, if_pos rfl, hr, Usable]
  exact or_comm

/-! ### Assigning a recipe -/

theorem checkItems_spec {D : Data} {m : Machine} {l : List String} (ha : allowedItems D m = .ok (some l)) :
    ∀ {is : List Item} {ns : List String}, is.mapM Item.name = .ok ns →
    ∃ w, checkItems D m is = .ok w ∧ (w = [] ∧ (∀ n ∈ ns, n ∈ l) ∨
      ∃ pre n post, ns = pre ++ n :: post ∧ (∀ x ∈ pre, x ∈ l) ∧ n ∉ l ∧ w = [.notUsed n]) := by
  intro is
  induction is with
  | nil => intro ns h; simp only [List.mapM_nil] at h; cases h; exact ⟨[], rfl, .inl ⟨rfl, by simp⟩⟩
  | cons i is ih =>
    intro ns h
    rw [List.mapM_cons] at h
    cases hi : i.name with
    | error e => rw [hi] at h; cases h
    | ok n =>
      rw [hi] at h
      simp only [bind, Except.bind] at h
      cases hl : is.mapM Item.name with
      | error e => rw [hl] at h; cases h
      | ok zs =>
        rw [hl] at h
        cases h
        simp only [checkItems, hi, ha]
        by_cases hn : n ∈ l
        · simp only [if_pos hn]
          obtain ⟨w, hw, h⟩ := ih hl
          refine ⟨w, hw, ?_⟩
          rcases h with ⟨h1, h2⟩ | ⟨pre, x, post, h1, h2, h3, h4⟩
          · exact .inl ⟨h1, by simpa [hn] using h2⟩
          · exact .inr ⟨n :: pre, x, post, by simp [h1], by simpa [hn] using h2, h3, h4⟩
        · exact ⟨_, by simp only [if_neg hn], .inr ⟨[], n, zs, rfl, by simp, hn, rfl⟩⟩

/-- Assigning a known recipe to a known assembling machine whose requests have names: it is stored; there is a warning if the machine cannot
make it, and one about the first request that is neither an ingredient nor a module that fits, and no other.
Missing from the claim: rocket silos, unknown recipes, unknown machines and abbreviated requests, for which it is false. -/
theorem C82_recipe_partial {D : Data} {mode : Mode} (hmode : mode.loud = true) {m : Machine} (hk : m.kind = .assembler) {e : EntRaw}
    (he : D.ents.get? m.name = some e) {r : String} (hr : Readable D r false) {ns : List String} (hi : m.items.mapM Item.name = .ok ns) :
    ∃ w, setRecipe D mode m (some r) = ({ m with recipe := some r }, .ok w) ∧
      (∀ x, .unknownRecipe x ∉ w) ∧
      (∀ x, .notForMachine x ∈ w ↔ x = r ∧ ∃ l, D.forMachine.get? m.name = some l ∧ r ∉ l) ∧
      (∀ x, .notUsed x ∈ w ↔ ∃ pre post, ns = pre ++ x :: post ∧ (∀ y ∈ pre, Usable D e r y) ∧ ¬ Usable D e r x) ∧
      w.length ≤ 2 ∧ ∀ x ∈ w, (∃ y, x = .notForMachine y) ∨ ∃ y, x = .notUsed y := by
  obtain ⟨l, hl, hm⟩ := allowed_mem (m := { m with recipe := some r }) hk he rfl hr
  obtain ⟨w, hw, h⟩ := checkItems_spec hl hi
  obtain ⟨R, hR, -⟩ := id hr
  have hkn : known D r = [] := by simp [known, hR]
  have hp : permitted D { m with recipe := some r } r = match D.forMachine.get? m.name with
      | none => []
      | some l => if r ∈ l then [] else [.notForMachine r] := by
    cases hf : D.forMachine.get? m.name with
    | none => simp [permitted, hf]
    | some l' => by_cases hrl : r ∈ l' <;> simp [permitted, hf, hR, hrl]
  refine ⟨permitted D { m with recipe := some r } r ++ w, ?_, ?_, ?_, ?_, ?_, ?_⟩
  · simp only [setRecipe, hmode, if_true, hw, Except.map, hkn, List.nil_append]
  · intro x hx
    rw [hp] at hx
    rcases List.mem_append.mp hx with hx | hx
    · split at hx <;> [simp at hx; skip]
      split at hx <;> simp at hx
    · rcases h with ⟨rfl, -⟩ | ⟨_, _, _, _, _, _, rfl⟩ <;> simp at hx
  · intro x
    rw [hp, List.mem_append]
    have : (Warn.notForMachine x ∈ w) ↔ False := by
      rcases h with ⟨rfl, -⟩ | ⟨_, _, _, _, _, _, rfl⟩ <;> simp
    rw [this, or_false]
    cases hf : D.forMachine.get? m.name with
    | none => simp
    | some l' => by_cases hrl : r ∈ l' <;> simp [hrl]
  · intro x
    rw [hp, List.mem_append]
    have : ∀ o : Option (List String), (Warn.notUsed x ∈ (match o with
      | none => ([] : List Warn)
      | some l => if r ∈ l then [] else [.notForMachine r])) ↔ False := by
      intro o
      cases o with
      | none => simp
      | some l' => by_cases hrl : r ∈ l' <;> simp [hrl]
    rw [this, false_or]
    rcases h with ⟨rfl, h⟩ | ⟨pre, n, post, h1, h2, h3, rfl⟩
    · constructor
      · simp
      · rintro ⟨pre, post, rfl, -, hx⟩
        exact absurd ((hm x).mp (h x (by simp))) hx
    · simp only [List.mem_singleton, Warn.notUsed.injEq]
      constructor
      · rintro rfl
        exact ⟨pre, post, h1, fun y hy => (hm y).mp (h2 y hy), fun hx => h3 ((hm x).mpr hx)⟩
      · rintro ⟨pre', post', h1', h2', h3'⟩
        rw [h1] at h1'
        rcases List.append_eq_append_iff.mp h1' with ⟨c, hc, hd⟩ | ⟨c, hc, hd⟩
        · cases c with
          | nil => simpa using (List.cons.inj hd).1.symm
          | cons a c =>
            have ha : n = a := by simpa using (List.cons.inj hd).1
            exact absurd ((hm n).mpr (h2' n (by rw [hc]; simp [ha]))) h3
        · cases c with
          | nil => simpa using (List.cons.inj hd).1
          | cons a c =>
            have ha : x = a := by simpa using (List.cons.inj hd).1
            exact absurd ((hm x).mp (h2 x (by rw [hc]; simp [ha]))) h3'
  · rw [hp, List.length_append]
    have h1 : w.length ≤ 1 := by rcases h with ⟨rfl, -⟩ | ⟨_, _, _, _, _, _, rfl⟩ <;> simp
    have h2 : ∀ o : Option (List String), (match o with
      | none => ([] : List Warn)
      | some l => if r ∈ l then [] else [.notForMachine r]).length ≤ 1 := by
      intro o
      cases o with
      | none => simp
      | some l' => by_cases hrl : r ∈ l' <;> simp [hrl]
    have := h2 (D.forMachine.get? m.name)
    omega
  · intro x hx
    rw [hp] at hx
    rcases List.mem_append.mp hx with hx | hx
    · left
      split at hx <;> [simp at hx; skip]
      split at hx <;> simp at hx
      exact ⟨_, hx⟩
    · right
      rcases h with ⟨rfl, -⟩ | ⟨_, n, _, _, _, _, rfl⟩
      · simp at hx
      · exact ⟨n, by simpa using hx⟩

/-- Without requests a recipe can be assigned to any machine: there is a warning exactly if the recipe is unknown, or known but not among those
of the machine. -/
theorem C82_recipe_empty {D : Data} {mode : Mode} (hmode : mode.loud = true) {m : Machine} (hi : m.items = []) (r : String) :
    ∃ w, setRecipe D mode m (some r) = ({ m with recipe := some r }, .ok w) ∧
      ∀ x, x ∈ w ↔ x = .unknownRecipe r ∧ D.recipes.get? r = none ∨
        x = .notForMachine r ∧ (D.recipes.get? r).isSome ∧ ∃ l, D.forMachine.get? m.name = some l ∧ r ∉ l := by
  refine ⟨known D r ++ permitted D { m with recipe := some r } r, ?_, fun x => ?_⟩
  · simp [setRecipe, hmode, hi, checkItems, Except.map]
  · rw [List.mem_append]
    refine or_congr ?_ ?_
    · cases h : D.recipes.get? r <;> simp [known, h]
    · simp only [permitted]
      cases hf : D.forMachine.get? m.name with
      | none => simp
      | some l => cases h : D.recipes.get? r <;> by_cases hl : r ∈ l <;> simp [hl]

/-- Whatever is assigned is stored, even if there is an exception; taking the recipe away, and the modes without warnings, never raise one
or warn. -/
theorem C82_recipe_stored (D : Data) (mode : Mode) (m : Machine) (v : Option String) :
    (setRecipe D mode m v).1 = { m with recipe := v } ∧
    (v = none ∨ mode = .none ∨ mode = .minimum → (setRecipe D mode m v).2 = .ok []) := by
  refine ⟨?_, fun h => ?_⟩
  · cases v <;> cases mode <;> rfl
  · cases v <;> cases mode <;> simp_all [setRecipe, Mode.loud]

/-- The claim for unknown recipes: assigning one to an assembling machine that has a request raises a `TypeError` instead of the warning. -/
theorem C82_unknown_refuted {D : Data} {mode : Mode} (hmode : mode.loud = true) {m : Machine} (hk : m.kind = .assembler) {r : String}
    (hr : D.recipes.get? r = none) (hi : m.items ≠ []) : (setRecipe D mode m (some r)).2 = .error .typeError := by
  obtain ⟨k, n, rc, is⟩ := m
  cases is with
  | nil => simp at hi
  | cons i is =>
    simp only at hk
    subst hk
    cases i <;> simp [setRecipe, hmode, checkItems, Item.name, allowedItems, getIngredients, hr, Except.map]

/-- The claim for rocket silos: assigning any recipe to one that has a request raises a `TypeError`. -/
theorem C82_silo_refuted {D : Data} {mode : Mode} (hmode : mode.loud = true) {m : Machine} (hk : m.kind = .silo) (r : String)
    (hi : m.items ≠ []) : (setRecipe D mode m (some r)).2 = .error .typeError := by
  obtain ⟨k, n, rc, is⟩ := m
  cases is with
  | nil => simp at hi
  | cons i is =>
    simp only at hk
    subst hk
    cases i <;> simp [setRecipe, hmode, checkItems, Item.name, allowedItems, Except.map]

/-- The claim for unknown machines: assigning a known recipe to an assembling machine of an unknown name that has a full request raises an
`AttributeError`. -/
theorem C82_machine_refuted {D : Data} {mode : Mode} (hmode : mode.loud = true) {m : Machine} (hk : m.kind = .assembler)
    (he : D.ents.get? m.name = none) {r : String} (hr : Readable D r false) {n : String} {is : List Item} (hi : m.items = .model n :: is) :
    (setRecipe D mode m (some r)).2 = .error .attributeError := by
  obtain ⟨k, nm, rc, is'⟩ := m
  simp only at hk he hi
  subst hk hi
  obtain ⟨l, hl, -⟩ := C82_ingredients hr
  simp [setRecipe, hmode, checkItems, Item.name, allowedItems, hl, allowedModules, Modules.fromEffects, allowedEffects, he, Except.map]

/-! ### Assigning requests -/

theorem items_names {is : List Item} (h : ∀ i ∈ is, ∀ n, i ≠ .short n) : ∃ ns, is.mapM Item.name = .ok ns := by
  refine mapM_total fun i hi => ?_
  cases i with
  | raw n => exact ⟨n, rfl⟩
  | model n => exact ⟨n, rfl⟩
  | short n => exact absurd rfl (h _ hi n)

theorem names_short {is : List Item} {n : String} (h : Item.short n ∈ is) : is.mapM Item.name = .error .typeError := by
  induction is with
  | nil => simp at h
  | cons i is ih =>
    rw [List.mapM_cons]
    cases i with
    | short m => rfl
    | raw m => rw [ih (by simpa using h)]; rfl
    | model m => rw [ih (by simpa using h)]; rfl

theorem names_mem {is : List Item} {ns : List String} (h : is.mapM Item.name = .ok ns) (n : String) :
    n ∈ ns ↔ .raw n ∈ is ∨ .model n ∈ is := by
  rw [mapM_mem h]
  constructor
  · rintro ⟨i, hi, hn⟩
    cases i with
    | raw m => cases hn; exact .inl hi
    | model m => cases hn; exact .inr hi
    | short m => cases hn
  · rintro (h | h)
    · exact ⟨_, h, rfl⟩
    · exact ⟨_, h, rfl⟩

/-- A request as pydantic makes it, an `ItemRequest` for the same item. -/
def asModel (i : Item) : Item :=
  .model (match i with
    | .raw n => n
    | .short n => n
    | .model n => n)

theorem toModel_eq : Item.toModel = asModel := funext fun i => by cases i <;> rfl

theorem setItems_ok {D : Data} {c : Cache} {ok : Item → Bool} {mode : Mode} (hm : mode ≠ .none) {m : Machine} {l : List Item}
    (hall : l.all ok = true) (hmode : mode.loud = true) {w : List Warn} (hw : itemWarnings D c { m with items := l } = .ok w) :
    setItems D c ok mode m (some l) = ({ m with items := l.map asModel }, .ok w) := by
  simp only [setItems, if_neg hm, hall, if_true, hmode, hw, toModel_eq]

/-- Assigning full requests to an assembling machine with a recipe: they are stored as pydantic makes them, and there is a warning for exactly
the modules whose limitation leaves out the recipe.
Missing from the claim: items that are neither modules nor ingredients, modules with a blacklist, and modules that do not fit the machine; about
these there is no warning. -/
theorem C82_items_partial {D : Data} {c : Cache} {ok : Item → Bool} {mode : Mode} (hmode : mode.loud = true) {m : Machine}
    (hk : m.kind = .assembler) {r : String} (hr : m.recipe = some r) {l : List Item} (hok : ∀ i ∈ l, ok i = true)
    (hl : ∀ i ∈ l, ∀ n, i ≠ .short n) :
    ∃ w, setItems D c ok mode m (some l) = ({ m with items := l.map asModel }, .ok w) ∧
      ∀ x, x ∈ w ↔ ∃ n md lim, x = .notWithRecipe n ∧ (.raw n ∈ l ∨ .model n ∈ l) ∧ D.modules.get? n = some md ∧
        md.limitation = some lim ∧ r ∉ lim := by
  obtain ⟨ns, hns⟩ := items_names hl
  have hm : mode ≠ .none := by rintro rfl; simp [Mode.loud] at hmode
  have hall : l.all ok = true := List.all_eq_true.mpr hok
  have hw : itemWarnings D c { m with items := l } = .ok ((ns.filter (limited D r)).map .notWithRecipe) := by
    simp only [itemWarnings, hk, moduleWarnings, hr, hns, Except.map]
  refine ⟨_, setItems_ok hm hall hmode hw, fun x => ?_⟩
  simp only [List.mem_map, List.mem_filter]
  constructor
  · rintro ⟨n, ⟨h1, h2⟩, rfl⟩
    unfold limited at h2
    cases hmd : D.modules.get? n with
    | none => simp [hmd] at h2
    | some md =>
      cases hlim : md.limitation with
      | none => simp [hmd, hlim] at h2
      | some lim => exact ⟨n, md, lim, rfl, (names_mem hns n).mp h1, hmd, hlim, by simpa [hmd, hlim] using h2⟩
  · rintro ⟨n, md, lim, rfl, h1, h2, h3, h4⟩
    exact ⟨n, ⟨(names_mem hns n).mpr h1, by simp [limited, h2, h3, h4]⟩, rfl⟩

/-- Assigning full requests to a reactor or a mining drill whose fuels are known: there is a warning for exactly the fuels that it does not
burn, and none for items that are not fuel. -/
theorem C82_fuel_partial {D : Data} {c : Cache} {ok : Item → Bool} {mode : Mode} (hmode : mode.loud = true) {m : Machine}
    (hk : m.kind = .reactor ∨ m.kind = .drill) {a : List String} (ha : c.get? m.name = some (some a)) {l : List Item}
    (hok : ∀ i ∈ l, ok i = true) (hl : ∀ i ∈ l, ∀ n, i ≠ .short n) :
    ∃ w, setItems D c ok mode m (some l) = ({ m with items := l.map asModel }, .ok w) ∧
      ∀ x, x ∈ w ↔ ∃ n, x = .wrongFuel n ∧ (.raw n ∈ l ∨ .model n ∈ l) ∧ (∃ k f, (k, f) ∈ D.fuels ∧ n ∈ f) ∧ n ∉ a := by
  obtain ⟨ns, hns⟩ := items_names hl
  have hm : mode ≠ .none := by rintro rfl; simp [Mode.loud] at hmode
  have hall : l.all ok = true := List.all_eq_true.mpr hok
  have hw : itemWarnings D c { m with items := l } =
      .ok ((ns.filter fun n => decide (n ∈ allFuels D) && !decide (n ∈ a)).map .wrongFuel) := by
    rcases hk with hk | hk <;> simp [itemWarnings, hk, fuelWarnings, allowedFuels, ha, hns, Except.map]
  refine ⟨_, setItems_ok hm hall hmode hw, fun x => ?_⟩
  simp only [List.mem_map, List.mem_filter, Bool.and_eq_true, decide_eq_true_eq, Bool.not_eq_true', decide_eq_false_iff_not, names_mem hns]
  have hf : ∀ n, n ∈ allFuels D ↔ ∃ k f, (k, f) ∈ D.fuels ∧ n ∈ f := by
    intro n
    simp only [allFuels, List.mem_flatMap, Prod.exists]
  constructor
  · rintro ⟨n, ⟨h1, h2, h3⟩, rfl⟩; exact ⟨n, rfl, h1, (hf n).mp h2, h3⟩
  · rintro ⟨n, rfl, h1, h2, h3⟩; exact ⟨n, ⟨h1, (hf n).mpr h2, h3⟩, rfl⟩

/-- Reactors and mining drills that the data do not have: any request is stored, without warnings. -/
theorem C82_fuel_unknown {D : Data} {c : Cache} {ok : Item → Bool} {mode : Mode} (hmode : mode.loud = true) {m : Machine}
    (hk : m.kind = .reactor ∨ m.kind = .drill) (ha : c.get? m.name = some none) {l : List Item} (hok : ∀ i ∈ l, ok i = true) :
    setItems D c ok mode m (some l) = ({ m with items := l.map asModel }, .ok []) := by
  have hm : mode ≠ .none := by rintro rfl; simp [Mode.loud] at hmode
  refine setItems_ok hm (List.all_eq_true.mpr hok) hmode ?_
  rcases hk with hk | hk <;> simp [itemWarnings, hk, fuelWarnings, allowedFuels, ha]

/-- Without validation nothing is checked; with the minimum there are no warnings; a list that pydantic refuses leaves the machine as it was;
`None` empties the list. -/
theorem C82_items_quiet (D : Data) (c : Cache) (ok : Item → Bool) (mode : Mode) (m : Machine) (l : List Item) :
    setItems D c ok mode m none = ({ m with items := [] }, .ok []) ∧
    setItems D c ok .none m (some l) = ({ m with items := l }, .ok []) ∧
    (l.all ok = true → setItems D c ok .minimum m (some l) = ({ m with items := l.map asModel }, .ok [])) ∧
    (mode ≠ .none → l.all ok = false → setItems D c ok mode m (some l) = (m, .error .dataFormat)) := by
  refine ⟨rfl, rfl, fun h => by simp [setItems, h, Mode.loud, toModel_eq], fun h1 h2 => by simp [setItems, h1, h2]⟩

/-- The claim for furnaces: any request raises a `TypeError`, and the list stays as it was given. -/
theorem C82_furnace_refuted {D : Data} {c : Cache} {ok : Item → Bool} {mode : Mode} (hmode : mode.loud = true) {m : Machine}
    (hk : m.kind = .furnace) {l : List Item} (hl : l ≠ []) (hok : ∀ i ∈ l, ok i = true) :
    setItems D c ok mode m (some l) = ({ m with items := l }, .error .typeError) := by
  have hm : mode ≠ .none := by rintro rfl; simp [Mode.loud] at hmode
  have hall : l.all ok = true := List.all_eq_true.mpr hok
  have hf : (∃ w, fuelWarnings D c { m with items := l } = .ok w) ∨ fuelWarnings D c { m with items := l } = .error .typeError := by
    unfold fuelWarnings
    cases allowedFuels c m.name with
    | none => exact .inl ⟨_, rfl⟩
    | some a =>
      by_cases hs : ∃ n, Item.short n ∈ l
      · obtain ⟨n, hs⟩ := hs
        exact .inr (by simp only [names_short hs, Except.map])
      · obtain ⟨ns, h⟩ := items_names (is := l) fun i hi n h => hs ⟨n, h ▸ hi⟩
        exact .inl ⟨(ns.filter fun n => decide (n ∈ allFuels D) && !decide (n ∈ a)).map .wrongFuel, by simp only [h, Except.map]⟩
  have : itemWarnings D c { m with items := l } = .error .typeError := by
    unfold itemWarnings
    simp only [hk]
    rw [hk] at hf
    rcases hf with ⟨w, hf⟩ | hf
    · rw [hf]; simp [bind, Except.bind, hl]
    · rw [hf]; rfl
  simp only [setItems, if_neg hm, hall, if_true, hmode, this]

/-- The claim for burner generators: a full request, though it be the right fuel, raises a `TypeError`. -/
theorem C82_generator_refuted {D : Data} {c : Cache} {ok : Item → Bool} {mode : Mode} (hmode : mode.loud = true) {m : Machine}
    (hk : m.kind = .generator) {a : List String} (ha : c.get? m.name = some (some a)) {l : List Item} (hl : l ≠ [])
    (hok : ∀ i ∈ l, ok i = true) (hs : ∀ i ∈ l, ∀ n, i ≠ .short n) :
    setItems D c ok mode m (some l) = ({ m with items := l }, .error .typeError) := by
  have hm : mode ≠ .none := by rintro rfl; simp [Mode.loud] at hmode
  have hall : l.all ok = true := List.all_eq_true.mpr hok
  obtain ⟨ns, hns⟩ := items_names hs
  have : itemWarnings D c { m with items := l } = .error .typeError := by
    simp [itemWarnings, hk, fuelWarnings, allowedFuels, ha, hns, Except.map, bind, Except.bind, hl]
  simp only [setItems, if_neg hm, hall, if_true, hmode, this]

/-- The claim for abbreviated requests, where the item is given by its name alone: pydantic accepts them, but an assembling machine with a
recipe raises a `TypeError`, and the list stays as it was given. -/
theorem C82_short_refuted {D : Data} {c : Cache} {ok : Item → Bool} {mode : Mode} (hmode : mode.loud = true) {m : Machine}
    (hk : m.kind = .assembler) {r : String} (hr : m.recipe = some r) {l : List Item} {n : String} (hl : .short n ∈ l)
    (hok : ∀ i ∈ l, ok i = true) : setItems D c ok mode m (some l) = ({ m with items := l }, .error .typeError) := by
  have hm : mode ≠ .none := by rintro rfl; simp [Mode.loud] at hmode
  have hall : l.all ok = true := List.all_eq_true.mpr hok
  have : itemWarnings D c { m with items := l } = .error .typeError := by
    simp [itemWarnings, hk, moduleWarnings, hr, names_short hl, Except.map]
  simp only [setItems, if_neg hm, hall, if_true, hmode, this]

/-- The claim for rocket silos, labs, beacons and containers: whatever is assigned, there is no warning. -/
theorem C82_unchecked_refuted {D : Data} {c : Cache} {ok : Item → Bool} (mode : Mode) {m : Machine}
    (hk : m.kind ∈ [.silo, .lab, .beacon, .container]) (l : List Item) (hok : ∀ i ∈ l, ok i = true) :
    (setItems D c ok mode m (some l)).2 = .ok [] := by
  have hall : l.all ok = true := List.all_eq_true.mpr hok
  have : itemWarnings D c { m with items := l } = .ok [] := by
    simp only [List.mem_cons, List.not_mem_nil, or_false] at hk
    rcases hk with hk | hk | hk | hk <;> simp [itemWarnings, hk]
  cases mode <;> simp [setItems, hall, this, Mode.loud]

/-! ### Fuels -/

/-- The categories of fuel that an energy source takes: those listed, or else the single one named, or else chemical fuel. -/
def Takes (s : Source) (cat : String) : Prop :=
  (∃ l, s.categories = some l ∧ cat ∈ l) ∨ (s.categories = none ∧ (s.category = some cat ∨ (s.category = none ∧ cat = "chemical")))

theorem mem_fuelCategories {s : Source} {cat : String} : cat ∈ s.fuelCategories ↔ Takes s cat := by
  unfold Source.fuelCategories Takes
  cases s.categories with
  | some l => simp
  | none => cases s.category <;> simp [eq_comm]

/-- The categories of fuel that an entity of that class burns. -/
inductive Burns (k : Kind) (e : EntRaw) (cat : String) : Prop
  | source (s : Source) : k ≠ .generator → e.source = some (some s) → s.type = some "burner" → Takes s cat → Burns k e cat
  | burner (s : Source) : k = .generator → e.burner = some (some s) → Takes s cat → Burns k e cat

/-- What the set kept for a name should be. -/
def Right (D : Data) (kind : String → Kind) (name : String) (v : Option (List String)) : Prop :=
  match D.ents.get? name with
  | none => v = none
  | some e => ∃ l, v = some l ∧ ∀ s, s ∈ l ↔ ∃ cat f, Burns (kind name) e cat ∧ D.fuels.get? cat = some f ∧ s ∈ f

theorem collect_ok {D : Data} : ∀ {ks acc : List String}, (∀ k ∈ ks, (D.fuels.get? k).isSome) →
    (collect D ks acc).2 = none ∧ ∀ s, s ∈ (collect D ks acc).1 ↔ s ∈ acc ∨ ∃ k ∈ ks, ∃ f, D.fuels.get? k = some f ∧ s ∈ f := by
  intro ks
  induction ks with
  | nil => intro acc _; simp [collect]
  | cons k ks ih =>
    intro acc h
    obtain ⟨f, hf⟩ := Option.isSome_iff_exists.mp (h k (by simp))
    obtain ⟨h1, h2⟩ := ih (acc := acc ++ f) fun k hk => h k (by simp [hk])
    simp only [collect, hf]
    refine ⟨h1, fun s => ?_⟩
    rw [h2, List.mem_append]
    constructor
    · rintro ((h | h) | ⟨k', hk', h⟩)
      · exact .inl h
      · exact .inr ⟨k, by simp, f, hf, h⟩
      · exact .inr ⟨k', by simp [hk'], h⟩
    · rintro (h | ⟨k', hk', f', hf', h⟩)
      · exact .inl (.inl h)
      · rcases List.mem_cons.mp hk' with rfl | hk'
        · rw [hf] at hf'; cases hf'; exact .inl (.inr h)
        · exact .inr ⟨k', hk', f', hf', h⟩

theorem inputSource_burns {k : Kind} {e : EntRaw} {o : Option Source} (h : inputSource k e = .ok o) (cat : String) :
    Burns k e cat ↔ ∃ s, o = some s ∧ cat ∈ s.fuelCategories := by
  simp only [mem_fuelCategories]
  by_cases hk : k = .generator
  · subst hk
    simp only [inputSource, if_true] at h
    cases hb : e.burner with
    | none => rw [hb] at h; cases h
    | some o' =>
      rw [hb] at h
      cases h
      constructor
      · rintro (⟨s, h1, -⟩ | ⟨s, -, h2, h3⟩)
        · exact absurd rfl h1
        · rw [hb] at h2; cases h2; exact ⟨s, rfl, h3⟩
      · rintro ⟨s, rfl, h⟩; exact .burner s rfl hb h
  · simp only [inputSource, if_neg hk] at h
    cases hs : e.source with
    | none => rw [hs] at h; cases h
    | some o' =>
      rw [hs] at h
      cases o' with
      | none =>
        cases h
        constructor
        · rintro (⟨s, -, h2, -⟩ | ⟨s, h1, -⟩)
          · rw [hs] at h2; cases h2
          · exact absurd h1 hk
        · rintro ⟨s, h, -⟩; cases h
      | some s =>
        simp only at h
        cases ht : s.type with
        | none => rw [ht] at h; cases h
        | some t =>
          rw [ht] at h
          simp only at h
          by_cases hb : t = "burner"
          · rw [if_pos hb] at h
            cases h
            subst hb
            constructor
            · rintro (⟨s', -, h2, -, h4⟩ | ⟨s', h1, -⟩)
              · rw [hs] at h2; cases h2; exact ⟨s, rfl, h4⟩
              · exact absurd h1 hk
            · rintro ⟨s', h, h'⟩; cases h; exact .source s hk hs ht h'
          · rw [if_neg hb] at h
            cases h
            constructor
            · rintro (⟨s', -, h2, h3, -⟩ | ⟨s', h1, -⟩)
              · rw [hs] at h2; cases h2; rw [ht] at h3; cases h3; exact absurd rfl hb
              · exact absurd h1 hk
            · rintro ⟨s', h, -⟩; cases h

/-- Constructing entities one after the other, ignoring the exceptions. -/
def constructAll (D : Data) (kind : String → Kind) : List String → Cache → Cache
  | [], c => c
  | n :: ns, c => constructAll D kind ns (remember D (kind n) n c).1

theorem remember_right {D : Data} {kind : String → Kind} (hcat : ∀ name e cat, D.ents.get? name = some e → Burns (kind name) e cat →
    (D.fuels.get? cat).isSome) {c : Cache} (hc : ∀ n v, c.get? n = some v → Right D kind n v) (name : String) :
    (∀ n v, (remember D (kind name) name c).1.get? n = some v → Right D kind n v) ∧
    ((remember D (kind name) name c).2 = none → ((remember D (kind name) name c).1.get? name).isSome) ∧
    ∀ n, (c.get? n).isSome → (remember D (kind name) name c).1.get? n = c.get? n := by
  unfold remember
  cases hn : c.get? name with
  | some v => exact ⟨hc, fun _ => by simp [hn], fun _ _ => rfl⟩
  | none =>
    have fresh : ∀ {n : String} {x : Option (List String)}, (c.get? n).isSome → (c.set name x).get? n = c.get? n := by
      intro n x h
      rw [Dict.get?_set]
      split
      · rename_i h'; subst h'; simp [hn] at h
      · rfl
    have put : ∀ {x : Option (List String)}, Right D kind name x → ∀ n v, (c.set name x).get? n = some v → Right D kind n v := by
      intro x hx n v h
      rw [Dict.get?_set] at h
      split at h
      · rename_i h'; subst h'; cases h; exact hx
      · exact hc n v h
    have got : ∀ {x : Option (List String)}, ((c.set name x).get? name).isSome := by
      intro x
      rw [Dict.get?_set]
      simp
    cases he : D.ents.get? name with
    | none =>
      exact ⟨put (by simp [Right, he]), fun _ => got, fun n h => fresh h⟩
    | some e =>
      simp only
      cases hs : inputSource (kind name) e with
      | error x => exact ⟨hc, by simp, fun _ _ => rfl⟩
      | ok o =>
        cases o with
        | none =>
          refine ⟨put ?_, fun _ => got, fun n h => fresh h⟩
          simp only [Right, he]
          refine ⟨[], rfl, fun s => ⟨by simp, ?_⟩⟩
          rintro ⟨cat, f, hb, -⟩
          obtain ⟨s, h, -⟩ := (inputSource_burns hs cat).mp hb
          cases h
        | some s =>
          simp only
          have hall : ∀ k ∈ s.fuelCategories, (D.fuels.get? k).isSome := fun k hk =>
            hcat name e k he ((inputSource_burns hs k).mpr ⟨s, rfl, hk⟩)
          obtain ⟨h1, h2⟩ := collect_ok (acc := []) hall
          refine ⟨put ?_, fun _ => got, fun n h => fresh h⟩
          simp only [Right, he]
          refine ⟨_, rfl, fun x => ?_⟩
          rw [h2]
          simp only [List.not_mem_nil, false_or]
          constructor
          · rintro ⟨k, hk, f, hf, hx⟩; exact ⟨k, f, (inputSource_burns hs k).mpr ⟨s, rfl, hk⟩, hf, hx⟩
          · rintro ⟨k, f, hb, hf, hx⟩
            obtain ⟨s', h, hk⟩ := (inputSource_burns hs k).mp hb
            cases h
            exact ⟨k, hk, f, hf, hx⟩

theorem constructAll_right {D : Data} {kind : String → Kind} (hcat : ∀ name e cat, D.ents.get? name = some e → Burns (kind name) e cat →
    (D.fuels.get? cat).isSome) : ∀ (ns : List String) (c : Cache), (∀ n v, c.get? n = some v → Right D kind n v) →
    (∀ n v, (constructAll D kind ns c).get? n = some v → Right D kind n v) ∧ ∀ n, (c.get? n).isSome → (constructAll D kind ns c).get? n = c.get? n := by
  intro ns
  induction ns with
  | nil => intro c h; exact ⟨h, fun _ _ => rfl⟩
  | cons a ns ih =>
    intro c h
    obtain ⟨h1, -, h3⟩ := remember_right hcat h a
    obtain ⟨g1, g2⟩ := ih _ h1
    exact ⟨g1, fun n hn => by rw [constructAll, g2 n (by rw [h3 n hn]; exact hn), h3 n hn]⟩

/-- However many entities of whatever names were constructed before and after, an entity that was constructed without an exception knows exactly
the fuels of its categories, and `None` if its name is unknown.  Missing from the claim: a category of fuel without fuels, and one name used for
two classes. -/
theorem C82_cache_partial {D : Data} {kind : String → Kind} (hcat : ∀ name e cat, D.ents.get? name = some e → Burns (kind name) e cat →
    (D.fuels.get? cat).isSome) (before after : List String) (name : String)
    (h : (remember D (kind name) name (constructAll D kind before [])).2 = none) :
    ∃ v, (constructAll D kind (before ++ name :: after) []).get? name = some v ∧ Right D kind name v := by
  have split : ∀ (ns : List String) (c : Cache), constructAll D kind (ns ++ name :: after) c =
      constructAll D kind after (remember D (kind name) name (constructAll D kind ns c)).1 := by
    intro ns
    induction ns with
    | nil => intro c; rfl
    | cons a ns ih => intro c; exact ih _
  obtain ⟨h1, -⟩ := constructAll_right hcat before [] (by simp [Dict.get?])
  obtain ⟨g1, g2, -⟩ := remember_right hcat h1 name
  obtain ⟨v, hv⟩ := Option.isSome_iff_exists.mp (g2 h)
  obtain ⟨-, k2⟩ := constructAll_right hcat after _ g1
  exact ⟨v, by rw [split, k2 name (by simp [hv]), hv], g1 name v hv⟩

/-! ### Furnaces, queries and requests -/

/-- The ingredients of a known furnace are exactly those of the recipes in its crafting categories. -/
theorem C82_furnace_inputs {D : Data} {name : String} {e : EntRaw} (he : D.ents.get? name = some e) {cs : List String}
    (hc : e.crafting = some cs) (hcat : ∀ k ∈ cs, ∃ rs, D.categories.get? k = some rs ∧ ∀ r ∈ rs, Readable D r false) :
    ∃ l, furnaceInputs D name = .ok (some l) ∧
      ∀ s, s ∈ l ↔ ∃ k ∈ cs, ∃ rs, D.categories.get? k = some rs ∧ ∃ r ∈ rs, Uses D r false s := by
  set f : String → Except PyErr (List String) := fun k => match D.categories.get? k with
    | some l => Except.ok (ε := PyErr) l
    | none => .error .keyError with hf
  set g : String → Except PyErr (List String) := fun r => do
    match ← getIngredients D (some r) false with
    | some l => Except.ok (ε := PyErr) l
    | none => .error .typeError with hg
  obtain ⟨rs, hrs⟩ := mapM_total (f := f) (l := cs) fun k hk => by
    obtain ⟨rs, h, -⟩ := hcat k hk
    exact ⟨rs, by simp [hf, h]⟩
  have hfl : ∀ r, r ∈ rs.flatten ↔ ∃ k ∈ cs, ∃ l, D.categories.get? k = some l ∧ r ∈ l := by
    intro r
    simp only [List.mem_flatten, mapM_mem hrs]
    constructor
    · rintro ⟨l, ⟨k, hk, h⟩, hr⟩
      cases hd : D.categories.get? k with
      | none => simp [hf, hd] at h
      | some l' => simp only [hf, hd, Except.ok.injEq] at h; subst h; exact ⟨k, hk, l', hd, hr⟩
    · rintro ⟨k, hk, l, h, hr⟩; exact ⟨l, ⟨k, hk, by simp [hf, h]⟩, hr⟩
  have hgr : ∀ r, Readable D r false → ∃ l, g r = .ok l ∧ ∀ s, s ∈ l ↔ Uses D r false s := by
    intro r h
    obtain ⟨l, h1, h2⟩ := C82_ingredients h
    exact ⟨l, by simp only [hg, h1, bind, Except.bind], h2⟩
  have hread : ∀ r ∈ rs.flatten, Readable D r false := by
    intro r hr
    obtain ⟨k, hk, l, hl, hr⟩ := (hfl r).mp hr
    obtain ⟨rs', h1, h2⟩ := hcat k hk
    rw [hl] at h1
    cases h1
    exact h2 r hr
  obtain ⟨ns, hns⟩ := mapM_total (f := g) (l := rs.flatten) fun r hr => (hgr r (hread r hr)).imp fun _ h => h.1
  refine ⟨ns.flatten, ?_, fun s => ?_⟩
  · simp only [furnaceInputs, he, hc]
    change (do let rs ← cs.mapM f; let ns ← rs.flatten.mapM g; return some ns.flatten) = _
    rw [hrs]
    simp only [bind, Except.bind, hns]
    rfl
  · simp only [List.mem_flatten, mapM_mem hns]
    constructor
    · rintro ⟨l, ⟨r, hr, h⟩, hs⟩
      obtain ⟨l', h1, h2⟩ := hgr r (hread r (List.mem_flatten.mpr hr))
      rw [h] at h1
      cases h1
      obtain ⟨k, hk, rs', hk', hr'⟩ := (hfl r).mp (List.mem_flatten.mpr hr)
      exact ⟨k, hk, rs', hk', r, hr', (h2 s).mp hs⟩
    · rintro ⟨k, hk, rs', hk', r, hr, hu⟩
      have hr' := (hfl r).mpr ⟨k, hk, rs', hk', hr⟩
      obtain ⟨l, h1, h2⟩ := hgr r (hread r hr')
      exact ⟨l, ⟨r, List.mem_flatten.mp hr', h1⟩, (h2 s).mpr hu⟩

/-- Requesting an item for a known lab warns exactly if it is neither a module nor one of its science packs. -/
theorem C82_lab_partial {D : Data} {item : String} {m : Machine} {w : List Warn} (hk : m.kind = .lab) {e : EntRaw}
    (he : D.ents.get? m.name = some e) {l : List String} (hl : e.inputs = some l) :
    ∃ w', setRequest D item (m, .ok w) = (m, .ok (w ++ w')) ∧
      ∀ x, x ∈ w' ↔ x = .notInLab item ∧ D.modules.get? item = none ∧ item ∉ l := by
  cases hm : D.modules.get? item with
  | some md => exact ⟨[], by simp [setRequest, hk, hm], by simp⟩
  | none =>
    by_cases h : item ∈ l
    · exact ⟨[], by simp [setRequest, hk, hm, he, hl, h], by simp [h]⟩
    · exact ⟨[.notInLab item], by simp [setRequest, hk, hm, he, hl, h], by simp [h]⟩

/-- The claim for labs of an unknown name: the request is stored, and then there is a `TypeError`, unless the item is a module. -/
theorem C82_lab_refuted {D : Data} {item : String} {m : Machine} {w : List Warn} (hk : m.kind = .lab) (he : D.ents.get? m.name = none)
    (hm : D.modules.get? item = none) : setRequest D item (m, .ok w) = (m, .error .typeError) := by
  simp [setRequest, hk, hm, he]

/-- Containers: every request is stored, and then there is an `AttributeError`. -/
theorem C82_container_refuted {D : Data} {item : String} {m : Machine} {w : List Warn} (hk : m.kind = .container) :
    setRequest D item (m, .ok w) = (m, .error .attributeError) := by
  simp [setRequest, hk, perItem, Except.map]

/-- The number of modules in a machine is never computed: it is 0 as long as the requests are as they were given, and a `TypeError` once pydantic
has seen one; the modules among the requests cannot be listed at all; and neither can the ingredients, if there is one. -/
theorem C82_queries_refuted {D : Data} {m : Machine} :
    (∀ n, slotsOccupied D m ≠ .ok (n + 1)) ∧ (∀ n, .model n ∈ m.items → slotsOccupied D m = .error .typeError) ∧
    perItem m = .error .attributeError ∧
    ∀ allowed is, ingredientItems allowed m = .ok is → is = [] ∧ ∀ i ∈ m.items, ∃ n l, i.name = .ok n ∧ allowed = .ok (some l) ∧ n ∉ l := by
  refine ⟨fun n h => ?_, fun n h => ?_, rfl, fun allowed => ?_⟩
  · unfold slotsOccupied at h
    split at h
    · cases h
    · split at h
      · cases h
      · cases h
  · have : m.items.any Item.isModel = true := List.any_eq_true.mpr ⟨_, h, rfl⟩
    unfold slotsOccupied
    rw [if_pos this]
  · unfold ingredientItems
    have gen : ∀ (is acc out : List Item), is.foldlM (fun acc i => do
        let n ← i.name
        match ← allowed with
        | none => Except.error PyErr.typeError
        | some l => if n ∈ l then .error .typeError else return acc) acc = .ok out →
        out = acc ∧ ∀ i ∈ is, ∃ n l, i.name = .ok n ∧ allowed = .ok (some l) ∧ n ∉ l := by
      intro is
      induction is with
      | nil => intro acc out h; simp only [List.foldlM_nil] at h; cases h; exact ⟨rfl, by simp⟩
      | cons i is ih =>
        intro acc out h
        rw [List.foldlM_cons] at h
        cases hn : i.name with
        | error e => rw [hn] at h; cases h
        | ok n =>
          cases ha : allowed with
          | error e => rw [hn, ha] at h; cases h
          | ok o => cases o with
            | none => rw [hn, ha] at h; cases h
            | some l =>
              rw [hn, ha] at h
              simp only [bind, Except.bind] at h
              by_cases hl : n ∈ l
              · rw [if_pos hl] at h; cases h
              · rw [if_neg hl] at h
                subst ha
                obtain ⟨h1, h2⟩ := ih acc out h
                refine ⟨h1, fun j hj => ?_⟩
                rcases List.mem_cons.mp hj with rfl | hj
                · exact ⟨n, l, hn, rfl, hl⟩
                · exact h2 j hj
    exact fun is h => gen m.items [] is h

/-- `allowed_items` of a drill or reactor with the right set of fuels kept for its name: `None` for an unknown name, else the fuels that it burns, and for drills also the
modules that fit. -/
theorem C82_fuelled_partial {D : Data} {kind : String → Kind} {c : Cache} {m : Machine} (hk : m.kind = .drill ∨ m.kind = .reactor) (hkind : kind m.name = m.kind)
    {v : Option (List String)} (hc : c.get? m.name = some v) (hv : Right D kind m.name v) :
    (D.ents.get? m.name = none → allowedFuelled D c m = .ok none) ∧
    ∀ e, D.ents.get? m.name = some e → ∃ l, allowedFuelled D c m = .ok (some l) ∧
      ∀ s, s ∈ l ↔ (m.kind = .drill ∧ Fits D e .drill none s) ∨ ∃ cat f, Burns m.kind e cat ∧ D.fuels.get? cat = some f ∧ s ∈ f := by
  refine ⟨fun he => ?_, fun e he => ?_⟩
  · simp only [Right, he] at hv
    subst hv
    rcases hk with hk | hk
    · simp [allowedFuelled, hk, allowedModules, allowedEffects, he, Modules.fromEffects]
    · simp [allowedFuelled, hk, allowedFuels, hc]
  · simp only [Right, he] at hv
    obtain ⟨f, rfl, hf⟩ := hv
    rw [hkind] at hf
    rcases hk with hk | hk
    · obtain ⟨ms, h1, h2⟩ := modules_mem he
      refine ⟨ms ++ f, by simp [allowedFuelled, hk, h1, allowedFuels, hc], fun s => ?_⟩
      rw [List.mem_append, h2, hf, hk]
      simp
    · exact ⟨f, by simp [allowedFuelled, hk, allowedFuels, hc], fun s => by rw [hf, hk]; simp⟩

/-- The claim for a drill that has been given the name of a kind of drill that none was made of before: no fuels are kept for it, and the items allowed in it cannot be asked for. -/
theorem C82_fuelled_refuted {D : Data} {c : Cache} {m : Machine} (hk : m.kind = .drill) {e : EntRaw} (he : D.ents.get? m.name = some e) (hc : c.get? m.name = none) :
    allowedFuelled D c m = .error .typeError := by
  obtain ⟨ms, h1, -⟩ := modules_mem he
  simp [allowedFuelled, hk, h1, allowedFuels, hc]

/-! ### Cases -/

/-- Some game data. -/
def game : Data where
  recipes := [("gear", ⟨some [.list ["iron-plate", "2"]], none, none⟩),
    ("wire", ⟨none, some (some [.dict (some "copper-plate")]), some (some [.dict (some "copper-ore")])⟩),
    ("smelt", ⟨some [.dict (some "iron-ore")], none, none⟩)]
  forMachine := [("asm", ["gear", "wire"])]
  categories := [("smelting", ["smelt"])]
  modules := [("prod", { category := "p", effect := [("productivity", 1/10), ("speed", -1/10)], limitation := some ["gear"] }),
    ("fast", { category := "s", effect := [("speed", 1/2)] }),
    ("pure", { category := "s", effect := [("speed", 1/2)], blacklist := some ["gear"] })]
  ents := [("asm", ⟨some (.many ["speed", "productivity"]), none, none, none, none⟩),
    ("oven", ⟨none, some ["smelting"], none, some (some ⟨some "burner", none, none⟩), none⟩),
    ("pile", ⟨none, none, none, some (some ⟨some "burner", some ["nuclear"], none⟩), none⟩),
    ("odd", ⟨none, none, none, some (some ⟨some "burner", some ["chemical", "soul"], none⟩), none⟩),
    ("lab", ⟨none, none, some ["red-pack"], none, none⟩)]
  fuels := [("chemical", ["coal", "wood"]), ("nuclear", ["cell"])]

/-- An assembling machine with two requests. -/
def asm : Machine := ⟨.assembler, "asm", none, [.model "fast", .model "copper-plate"]⟩

theorem gear_readable : Readable game "gear" false :=
  ⟨⟨some [.list ["iron-plate", "2"]], none, none⟩, by decide +kernel, [.list ["iron-plate", "2"]], .always _ rfl,
    by simp; exact ⟨"iron-plate", .list _ _⟩⟩

example : setRecipe game .strict asm (some "gear") = ({ asm with recipe := some "gear" }, .ok [.notUsed "copper-plate"]) := by decide +kernel
example : setRecipe game .strict asm (some "smelt") = ({ asm with recipe := some "smelt" }, .ok [.notForMachine "smelt", .notUsed "copper-plate"]) := by
  decide +kernel
example : setRecipe game .strict asm (some "wire") = ({ asm with recipe := some "wire" }, .ok []) := by decide +kernel
example := C82_recipe_partial (D := game) (mode := .strict) rfl (m := asm) rfl (e := ⟨some (.many ["speed", "productivity"]), none, none, none, none⟩)
  (by decide +kernel) gear_readable (ns := ["fast", "copper-plate"]) rfl
example := C82_recipe_empty (D := game) (mode := .pedantic) rfl (m := { asm with items := [] }) rfl "smelt"
example : Usable game ⟨some (.many ["speed", "productivity"]), none, none, none, none⟩ "gear" "iron-plate" :=
  .inl ⟨⟨some [.list ["iron-plate", "2"]], none, none⟩, by decide +kernel, [.list ["iron-plate", "2"]], .always _ rfl,
    .list ["iron-plate", "2"], by simp, .list _ _⟩
example : getIngredients game (some "wire") true = .ok (some ["copper-ore"]) := by decide +kernel
example := C82_unknown_refuted (D := game) (mode := .strict) rfl (m := asm) rfl (r := "what") (by decide +kernel) (by simp [asm])
example := C82_silo_refuted (D := game) (mode := .strict) rfl (m := { asm with kind := .silo }) rfl "gear" (by simp [asm])
example := C82_machine_refuted (D := game) (mode := .strict) rfl (m := { asm with name := "what" }) rfl (by decide +kernel) gear_readable rfl
example : (setItems game [] (fun _ => true) .strict { asm with recipe := some "wire" } (some [.raw "prod", .raw "fast"])).2 =
    .ok [.notWithRecipe "prod"] := by decide +kernel
example := C82_items_partial (D := game) (c := []) (ok := fun _ => true) (mode := .strict) rfl (m := { asm with recipe := some "wire" }) rfl rfl
  (l := [.raw "prod", .raw "fast"]) (by simp) (by simp)
example : allowedFuelled game [("oven", some ["coal", "wood"])] ⟨.drill, "oven", none, []⟩ = .ok (some ["prod", "fast", "pure", "coal", "wood"]) := by decide +kernel
theorem oven_right : Right game (fun _ => .drill) "oven" (some ["coal", "wood"]) := by
  have he : game.ents.get? "oven" = some ⟨none, some ["smelting"], none, some (some ⟨some "burner", none, none⟩), none⟩ := by decide +kernel
  have hf : game.fuels.get? "chemical" = some ["coal", "wood"] := by decide +kernel
  simp only [Right, he]
  refine ⟨_, rfl, fun s => ⟨fun h => ⟨"chemical", _, .source _ (by simp) rfl rfl (.inr ⟨rfl, .inr ⟨rfl, rfl⟩⟩), hf, h⟩, ?_⟩⟩
  rintro ⟨cat, f, hb, h1, h2⟩
  cases hb with
  | burner s hk => cases hk
  | source s _ hs _ ht =>
    simp only [Option.some.injEq] at hs
    subst hs
    rcases ht with ⟨l, hl, _⟩ | ⟨_, ht | ⟨_, rfl⟩⟩
    · cases hl
    · cases ht
    · rw [hf] at h1
      cases h1
      exact h2

example := C82_fuelled_partial (D := game) (kind := fun _ => .drill) (c := [("oven", some ["coal", "wood"])]) (m := ⟨.drill, "oven", none, []⟩) (.inl rfl) rfl
  (v := some ["coal", "wood"]) rfl oven_right
example := C82_fuelled_refuted (D := game) (c := []) (m := ⟨.drill, "oven", none, []⟩) rfl (e := ⟨none, some ["smelting"], none, some (some ⟨some "burner", none, none⟩), none⟩)
  (by decide +kernel) rfl
example := C82_furnace_refuted (D := game) (c := []) (ok := fun _ => true) (mode := .strict) rfl (m := ⟨.furnace, "oven", none, []⟩) rfl
  (l := [.raw "iron-ore"]) (by simp) (by simp)
example := C82_short_refuted (D := game) (c := []) (ok := fun _ => true) (mode := .strict) rfl (m := { asm with recipe := some "wire" }) rfl rfl
  (l := [.short "fast"]) (n := "fast") (by simp) (by simp)
example := C82_fuel_partial (D := game) (c := [("pile", some ["cell"])]) (ok := fun _ => true) (mode := .strict) rfl
  (m := ⟨.reactor, "pile", none, []⟩) (.inl rfl) (a := ["cell"]) (by decide +kernel) (l := [.raw "coal", .raw "cell", .raw "stone"]) (by simp) (by simp)
example : (setItems game [("pile", some ["cell"])] (fun _ => true) .strict ⟨.reactor, "pile", none, []⟩
    (some [.raw "coal", .raw "cell", .raw "stone"])).2 = .ok [.wrongFuel "coal"] := by decide +kernel
example := C82_fuel_unknown (D := game) (c := [("what", none)]) (ok := fun _ => true) (mode := .strict) rfl (m := ⟨.reactor, "what", none, []⟩)
  (.inl rfl) (by decide +kernel) (l := [.raw "coal", .short "cell"]) (by simp)
example : Takes ⟨some "burner", none, none⟩ "chemical" := .inr ⟨rfl, .inr ⟨rfl, rfl⟩⟩
example : constructAll game (fun _ => .reactor) ["oven", "what", "pile", "oven"] [] =
    [("oven", some ["coal", "wood"]), ("what", none), ("pile", some ["cell"])] := by decide +kernel
example : furnaceInputs game "oven" = .ok (some ["iron-ore"]) := by decide +kernel
example : setRequest game "stone" (⟨.lab, "lab", none, []⟩, .ok []) = (⟨.lab, "lab", none, []⟩, .ok [.notInLab "stone"]) := by decide +kernel

/-- The claim depends on the order: requesting an item that the recipe does not use after choosing the recipe gives no warning, choosing the
recipe after the request does, and the machine is the same. -/
theorem C82_order_refuted : ∃ (D : Data) (ok : Item → Bool) (m : Machine) (r : String) (l : List Item),
    let a := setRecipe D .strict m (some r)
    let b := setItems D [] ok .strict m (some l)
    let ab := setItems D [] ok .strict a.1 (some l)
    let ba := setRecipe D .strict b.1 (some r)
    ab.1 = ba.1 ∧ a.2 = .ok [] ∧ ab.2 = .ok [] ∧ b.2 = .ok [] ∧ ba.2 = .ok [.notUsed "copper-plate"] :=
  ⟨game, fun _ => true, ⟨.assembler, "asm", none, []⟩, "gear", [.raw "copper-plate"], by decide +kernel⟩

/-- The claim for modules with a blacklist: requesting one for a machine with a recipe on it gives no warning, though it is not among the modules
offered; choosing the recipe again gives one. -/
theorem C82_blacklist_refuted : ∃ (D : Data) (m : Machine), m.kind = .assembler ∧ m.recipe = some "gear" ∧
    (setItems D [] (fun _ => true) .strict m (some [.raw "pure"])).2 = .ok [] ∧
    (∃ l, allowedModules D m = some l ∧ "pure" ∉ l) ∧
    (setRecipe D .strict (setItems D [] (fun _ => true) .strict m (some [.raw "pure"])).1 (some "gear")).2 = .ok [.notUsed "pure"] :=
  ⟨game, ⟨.assembler, "asm", some "gear", []⟩, rfl, rfl, by decide +kernel, ⟨["prod", "fast"], by decide +kernel, by decide⟩, by decide +kernel⟩

/-- The claim for a category of fuel without fuels: the first construction raises a `KeyError`, the second one succeeds, with the fuels of the
categories before it. -/
theorem C82_cache_refuted : ∃ (D : Data) (name : String),
    (remember D .reactor name []).2 = some .keyError ∧
    (remember D .reactor name (remember D .reactor name []).1).2 = none ∧
    allowedFuels (remember D .reactor name []).1 name = some ["coal", "wood"] :=
  ⟨game, "odd", by decide +kernel⟩

end Machines
end Draftsman
