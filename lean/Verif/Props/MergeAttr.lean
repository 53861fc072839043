import Verif.Model.MergeTable
import Verif.Props.Attr
/-
C81: merging an entity takes over the attributes of the other one, and equality compares them.
-/
namespace Draftsman
namespace MergeAttr
open Attr

/-! ### Paths -/

theorem read_append (e : Val) (p q : List String) : read e (p ++ q) = match read e p with
    | .ok v => read v q
    | .error x => .error x := by
  induction p generalizing e with
  | nil => rfl
  | cons f p ih =>
    simp only [List.cons_append, Attr.read]
    cases field e f with
    | error x => rfl
    | ok w => exact ih w

theorem setField_same (f : String) (w : Val) (fs : List (String × Val)) (h : fs.lookup f = some w) : setField f w fs = fs := by
  induction fs with
  | nil => simp at h
  | cons x r ih =>
    obtain ⟨g, u⟩ := x
    simp only [setField]
    by_cases hg : g = f
    · subst hg
      simp only [List.lookup_cons_self, Option.some.injEq] at h
      simp [h]
    · rw [if_neg hg, ih]
      rw [List.lookup_cons] at h
      have : (f == g) = false := by simpa using fun h' : f = g => hg h'.symm
      rwa [this] at h

/-- Storing what is there already changes nothing. -/
theorem write_same {p : List String} : ∀ {e v : Val}, read e p = .ok v → write e v p = .ok e := by
  induction p with
  | nil => intro e v h; simp only [Attr.read, Except.ok.injEq] at h; simp [write, h]
  | cons f p ih =>
    intro e v h
    simp only [Attr.read] at h
    cases e with
    | none => simp [field] at h
    | atom n => simp [field] at h
    | model fs =>
      simp only [field] at h
      cases hl : fs.lookup f with
      | none => simp [hl] at h
      | some w =>
        simp only [hl] at h
        cases p with
        | nil => simp only [Attr.read, Except.ok.injEq] at h; subst h; simp [write, setField_same f w fs hl]
        | cons g q =>
          simp only [write, hl, ih h, Except.map]
          rw [setField_same f w fs hl]
    | bare fs =>
      simp only [field] at h
      cases hl : fs.lookup f with
      | none => simp [hl] at h
      | some w =>
        simp only [hl] at h
        cases p with
        | nil => simp only [Attr.read, Except.ok.injEq] at h; subst h; simp [write, hl, setField_same f w fs hl]
        | cons g q =>
          simp only [write, hl, ih h, Except.map]
          rw [setField_same f w fs hl]

/-- What can be read can be replaced. -/
theorem write_readable {p : List String} {e v : Val} (h : read e p = .ok v) (w : Val) : ∃ e', write e w p = .ok e' :=
  write_any w (write_same h)

/-- Storing the value of `b` at `p` keeps every agreement with `b` at `q`. -/
theorem agree_write {a a' b v w : Val} {p q : List String} (hw : write a v p = .ok a') (hb : read b p = .ok v)
    (ha : read a q = .ok w) (hq : read b q = .ok w) : read a' q = .ok w := by
  by_cases h1 : p <+: q
  · obtain ⟨s, rfl⟩ := h1
    rw [read_append, hb] at hq
    rw [read_append, read_write hw]
    exact hq
  · by_cases h2 : q <+: p
    · obtain ⟨s, rfl⟩ := h2
      rw [read_append, hq] at hb
      have : read a (q ++ s) = .ok v := by rw [read_append, ha]; exact hb
      rw [write_same this] at hw
      cases hw
      exact ha
    · rw [read_write_other hw h1 h2]; exact ha

/-- An assignment of a value that validation leaves alone stores it. -/
theorem assign_write {b : Bool} {r : Rules} {m : Attr} {e e' v : Val} (hs : m.style ≠ .late ∧ m.style ≠ .broken)
    (hn : m.style = .orZero ∨ m.style = .restored → v ≠ .none) (hc : r.check v = .ok v)
    (h : assign b r m e v = (e', none)) : write e v m.set = .ok e' := by
  have hz : (m.style = .orZero ∨ m.style = .restored) → orZero v = v := by
    intro h'
    have := hn h'
    cases v <;> simp_all [orZero]
  have hl : lenient r.check v = .ok v := by simp [lenient, hc]
  have two : ∀ {e₁ e₂ : Val}, put e m.set v = (e₁, none) → write e₁ v m.set = .ok e₂ → e₂ = e₁ := by
    intro e₁ e₂ h1 h2
    rw [write_same (read_write (put_ok h1))] at h2
    exact (Except.ok.inj h2).symm
  cases hst : m.style with
  | late => exact absurd hst hs.1
  | broken => exact absurd hst hs.2
  | raw => simp only [assign, hst] at h; exact put_ok h
  | checked =>
    simp only [assign, hst] at h
    split at h
    · obtain ⟨w, h1, h2⟩ := checkPut_ok h
      rw [hc] at h1; cases h1; exact h2
    · exact put_ok h
  | always =>
    simp only [assign, hst] at h
    obtain ⟨w, h1, h2⟩ := checkPut_ok h
    have : w = v := by split at h1 <;> simp_all
    subst this; exact h2
  | orZero =>
    simp only [assign, hst] at h
    have hz' := hz (.inl hst)
    split at h
    · obtain ⟨w, h1, h2⟩ := checkPut_ok h
      rw [hc] at h1
      simp only [Except.map, hz', Except.ok.injEq] at h1
      subst h1; exact h2
    · rw [hz'] at h; exact put_ok h
  | early =>
    simp only [assign, hst] at h
    split at h
    · simp at h
    · rename_i e₁ he
      split at h
      · obtain ⟨w, h1, h2⟩ := checkPut_ok h
        rw [hc] at h1; cases h1
        rw [two he h2]; exact put_ok he
      · cases h; exact put_ok he
  | restored =>
    simp only [assign, hst] at h
    have hz' := hz (.inr hst)
    split at h
    · split at h
      · simp at h
      · rename_i e₁ he
        rw [hc] at h
        simp only [hz'] at h
        rw [two he (put_ok h)]; exact put_ok he
    · rw [hz'] at h; exact put_ok h

/-- An assignment of a value that validation leaves alone succeeds if the attribute can be read. -/
theorem assign_ok {b : Bool} {r : Rules} {m : Attr} {e v w : Val} (hs : m.style ≠ .late ∧ m.style ≠ .broken) (hc : r.check v = .ok v)
    (hr : read e m.set = .ok w) : (assign b r m e v).2 = none := by
  have hp : ∀ u, ∃ e', write e u m.set = .ok e' ∧ put e m.set u = (e', none) := by
    intro u
    obtain ⟨e', he⟩ := write_readable hr u
    exact ⟨e', he, by simp [put, he]⟩
  have hk : ∀ {ck : Val → Except PyErr Val} {u : Val}, ck v = .ok u → (checkPut ck e m.set v).2 = none := by
    intro ck u hu
    obtain ⟨e₁, h1, -⟩ := hp v
    obtain ⟨e₂, -, h2⟩ := hp u
    simp [checkPut, h1, hu, h2]
  have hl : lenient r.check v = .ok v := by simp [lenient, hc]
  cases hst : m.style with
  | late => exact absurd hst hs.1
  | broken => exact absurd hst hs.2
  | raw => simp only [assign, hst]; obtain ⟨_, -, h⟩ := hp v; rw [h]
  | checked =>
    simp only [assign, hst]
    split
    · exact hk hc
    · obtain ⟨_, -, h⟩ := hp v; rw [h]
  | always =>
    simp only [assign, hst]
    cases b
    · exact hk hl
    · exact hk hc
  | orZero =>
    simp only [assign, hst]
    split
    · exact hk (ck := fun v => (r.check v).map orZero) (u := orZero v) (by simp [hc, Except.map])
    · obtain ⟨_, -, h⟩ := hp (orZero v); rw [h]
  | early =>
    simp only [assign, hst]
    obtain ⟨e₁, h1, h⟩ := hp v
    rw [h]
    simp only
    split
    · obtain ⟨e₂, h2⟩ := write_twice h1 v
      simp [checkPut, h2, hc, put]
    · rfl
  | restored =>
    simp only [assign, hst]
    split
    · obtain ⟨e₁, h1, h⟩ := hp v
      rw [h]
      simp only [hc]
      obtain ⟨e₂, h2⟩ := write_twice h1 (orZero v)
      simp [put, h2]
    · obtain ⟨_, -, h⟩ := hp (orZero v); rw [h]

/-- After an assignment that raised nothing the attribute can be read. -/
theorem assign_stored {b : Bool} {r : Rules} {m : Attr} {e e' v : Val} (hs : m.style ≠ .late ∧ m.style ≠ .broken) (h : assign b r m e v = (e', none)) :
    ∃ u, read e' m.set = .ok u := by
  have hk : ∀ {ck : Val → Except PyErr Val} {e : Val}, checkPut ck e m.set v = (e', none) → ∃ u, read e' m.set = .ok u := by
    intro ck e h
    obtain ⟨w, -, h2⟩ := checkPut_ok h
    exact ⟨w, read_write h2⟩
  have hp : ∀ {u e : Val}, put e m.set u = (e', none) → ∃ u, read e' m.set = .ok u := fun h => ⟨_, read_write (put_ok h)⟩
  cases hst : m.style with
  | late => exact absurd hst hs.1
  | broken => exact absurd hst hs.2
  | raw => simp only [assign, hst] at h; exact hp h
  | checked =>
    simp only [assign, hst] at h
    split at h
    · exact hk h
    · exact hp h
  | always => simp only [assign, hst] at h; exact hk h
  | orZero =>
    simp only [assign, hst] at h
    split at h
    · exact hk h
    · exact hp h
  | early =>
    simp only [assign, hst] at h
    split at h
    · simp at h
    · rename_i e₁ he
      split at h
      · exact hk h
      · cases h; exact hp he
  | restored =>
    simp only [assign, hst] at h
    split at h
    · split at h
      · simp at h
      · split at h
        · simp at h
        · simp at h
        · exact hp h
    · exact hp h

/-- What lies above something readable is readable. -/
theorem read_above {e v : Val} {p q : List String} (h : read e (p ++ q) = .ok v) : ∃ w, read e p = .ok w := by
  rw [read_append] at h
  cases hp : Attr.read e p with
  | error x => simp [hp] at h
  | ok w => exact ⟨w, rfl⟩

/-! ### Merging -/

/-- The attributes that merging leaves as they are, besides the quality of the entity. -/
def kept : List (String × List String) := [
  ("AmmoTurret", ["priority_list", "ignore_unprioritized"]),
  ("ArithmeticCombinator", ["player_description"]),
  ("ArtilleryTurret", ["auto_target"]),
  ("ArtilleryWagon", ["auto_target", "enable_logistics_while_moving", "equipment_grid"]),
  ("AssemblingMachine", ["recipe_quality"]),
  ("AsteroidCollector", ["chunk_filter"]),
  ("Car", ["driver_is_main_gunner", "selected_gun_index", "enable_logistics_while_moving", "equipment_grid"]),
  ("CargoWagon", ["enable_logistics_while_moving", "equipment_grid"]),
  ("ConstantCombinator", ["player_description"]),
  ("DeciderCombinator", ["player_description"]),
  ("DisplayPanel", ["text", "icon", "always_show", "show_in_chart"]),
  ("ElectricTurret", ["priority_list", "ignore_unprioritized"]),
  ("FluidTurret", ["priority_list", "ignore_unprioritized"]),
  ("Inserter", ["spoil_priority", "use_filters"]),
  ("Lamp", ["always_on", "color"]),
  ("Loader", ["use_filters"]),
  ("Locomotive", ["enable_logistics_while_moving", "equipment_grid"]),
  ("RocketSilo", ["auto_launch", "recipe_quality"]),
  ("SelectorCombinator", ["player_description"]),
  ("SimpleEntityWithForce", ["variation"]),
  ("SimpleEntityWithOwner", ["variation"]),
  ("SpacePlatformHub", ["request_missing_construction_materials"]),
  ("SpiderVehicle", ["automatic_targeting_parameters", "auto_target_without_gunner", "auto_target_with_gunner",
    "driver_is_main_gunner", "selected_gun_index", "enable_logistics_while_moving", "equipment_grid"])]

/-- Whether merging leaves the attribute as it is. -/
def isKept (c n : String) : Bool := n == "quality" || ((kept.lookup c).getD []).contains n

/-- Whether comparing passes over the attribute. -/
def isIgnored (c n : String) : Bool := isKept c n || (c == "Inserter" && ["pickup_position", "drop_position", "filter_mode"].contains n)

theorem table_classes : table.map (·.1) = classes := rfl

theorem table_steps : (table.all fun r => (order r.2).all fun n => match attrOf r.1 n with
    | some m => decide (m.get = m.set) && decide (m.style ≠ .late ∧ m.style ≠ .broken) && (decide (m.style ≠ .orZero) || decide (m.set = ["link_id"])) &&
      (decide (m.style ≠ .restored) || decide (m.set = ["items"]))
    | none => false) = true := by decide +kernel

theorem table_taken : (table.all fun r => r.1.attrs.all fun a => isKept r.1.name a.name ||
    (order r.2).any fun n => match attrOf r.1 n with
      | some m => m.set.isPrefixOf a.set
      | none => false) = true := by decide +kernel

theorem table_kept : (table.all fun r => (r.1.attrs.filter fun a => isKept r.1.name a.name).all fun a => (order r.2).all fun n =>
    match attrOf r.1 n with
      | some m => !m.set.isPrefixOf a.set && !a.set.isPrefixOf m.set
      | none => true) = true := by decide +kernel

theorem table_fixed : (table.all fun r => ["name", "direction", "orientation", "position"].all fun f => (order r.2).all fun n =>
    match attrOf r.1 n with
      | some m => !m.set.isPrefixOf [f] && ![f].isPrefixOf m.set
      | none => true) = true := by decide +kernel

theorem attrOf_mem {c : Cls} {n : String} {m : Attr} (h : attrOf c n = some m) : m ∈ c.attrs := List.mem_of_find?_eq_some h

theorem step_facts {r : Cls × List Part} (hr : r ∈ table) {n : String} (hn : n ∈ order r.2) : ∃ m, attrOf r.1 n = some m ∧ m.get = m.set ∧
    (m.style ≠ .late ∧ m.style ≠ .broken) ∧ (m.style = .orZero → m.set = ["link_id"]) ∧ (m.style = .restored → m.set = ["items"]) := by
  have h := List.all_eq_true.mp (List.all_eq_true.mp table_steps r hr) n hn
  cases hm : attrOf r.1 n with
  | none => simp [hm] at h
  | some m =>
    simp only [hm, Bool.and_eq_true, Bool.or_eq_true, decide_eq_true_eq] at h
    exact ⟨m, rfl, h.1.1.1, h.1.1.2, fun h' => h.1.2.resolve_left (fun g => g h'), fun h' => h.2.resolve_left (fun g => g h')⟩

/-- Validation leaves the values of the other entity alone, whatever entity they are assigned to. -/
def Accepts (rules : Attr → Val → Rules) (c : Cls) (b : Val) : Prop :=
  ∀ m ∈ c.attrs, ∀ s v, read b m.get = .ok v → (rules m s).check v = .ok v

theorem steps_agree {vd : Bool} {rules : Attr → Val → Rules} {r : Cls × List Part} (hr : r ∈ table) {b : Val} (hacc : Accepts rules r.1 b)
    (hn : ∀ n ∈ ["link_id", "items"], read b [n] ≠ .ok .none) : ∀ (ns : List String) (a a' : Val) (done : List (List String)),
    (∀ n ∈ ns, n ∈ order r.2) → (∀ p ∈ done, ∃ v, read a p = .ok v ∧ read b p = .ok v) → steps vd rules r.1 b ns a = (a', none) →
    (∀ p ∈ done, ∃ v, read a' p = .ok v ∧ read b p = .ok v) ∧
    ∀ n ∈ ns, ∀ m, attrOf r.1 n = some m → ∃ v, read a' m.set = .ok v ∧ read b m.set = .ok v := by
  intro ns
  induction ns with
  | nil => intro a a' done _ hd h; simp only [steps, Prod.mk.injEq, and_true] at h; subst h; exact ⟨hd, by simp⟩
  | cons n ns ih =>
    intro a a' done hsub hd h
    obtain ⟨m, hm, hget, hl, hz1, hz2⟩ := step_facts hr (hsub n (by simp))
    simp only [steps, hm] at h
    cases hb : read b m.get with
    | error x => simp [hb] at h
    | ok v =>
      simp only [hb] at h
      cases ha : assign vd (rules m a) m a v with
      | mk a₁ o =>
        cases o with
        | some x => simp [ha] at h
        | none =>
          simp only [ha] at h
          have hnone : m.style = .orZero ∨ m.style = .restored → v ≠ .none := by
            rintro (h' | h') rfl
            · rw [hget, hz1 h'] at hb; exact hn "link_id" (by simp) hb
            · rw [hget, hz2 h'] at hb; exact hn "items" (by simp) hb
          have hw := assign_write hl hnone (hacc m (attrOf_mem hm) a v hb) ha
          rw [hget] at hb
          have hd' : ∀ p ∈ m.set :: done, ∃ v, read a₁ p = .ok v ∧ read b p = .ok v := by
            intro p hp
            rcases List.mem_cons.mp hp with rfl | hp
            · exact ⟨v, read_write hw, hb⟩
            · obtain ⟨w, h1, h2⟩ := hd p hp
              exact ⟨w, agree_write hw hb h1 h2, h2⟩
          obtain ⟨g1, g2⟩ := ih a₁ a' (m.set :: done) (fun k hk => hsub k (List.mem_cons_of_mem _ hk)) hd' h
          refine ⟨fun p hp => g1 p (List.mem_cons_of_mem _ hp), fun k hk m' hm' => ?_⟩
          rcases List.mem_cons.mp hk with rfl | hk
          · rw [hm] at hm'; cases hm'; exact g1 _ (by simp)
          · exact g2 k hk m' hm'

/-- After a merge every attribute of the entity is that of the other one, if the values of the other one are valid and its link and items are
not `None`.  Missing: the attributes of `kept` and the quality, which are not merged at all (`C81_kept`, `C81_merge_refuted`). -/
theorem C81_taken_partial {a b a' : Ent} (ha : (a.cls, a.parts) ∈ table) {vd : Bool} {rules : Attr → Val → Rules}
    (hacc : Accepts rules a.cls b.root) (hn : ∀ n ∈ ["link_id", "items"], read b.root [n] ≠ .ok .none)
    (h : merge vd rules a b = (a', none)) {m : Attr} (hm : m ∈ a.cls.attrs) (hk : isKept a.cls.name m.name = false) :
    read a'.root m.set = read b.root m.set := by
  simp only [merge, Prod.mk.injEq] at h
  obtain ⟨h1, h2⟩ := h
  subst h1
  obtain ⟨-, g⟩ := steps_agree ha hacc hn (order a.parts) a.root (steps vd rules a.cls b.root (order a.parts) a.root).1 []
    (fun _ h => h) (by simp) (Prod.ext rfl h2)
  have t := List.all_eq_true.mp (List.all_eq_true.mp table_taken _ ha) m hm
  simp only [hk, Bool.false_or, List.any_eq_true] at t
  obtain ⟨n, hn', t⟩ := t
  cases hx : attrOf a.cls n with
  | none => simp [hx] at t
  | some k =>
    simp only [hx, List.isPrefixOf_iff_prefix] at t
    obtain ⟨s, hs⟩ := t
    obtain ⟨v, g1, g2⟩ := g n hn' k hx
    rw [← hs, read_append, read_append, g1, g2]

theorem steps_frame {vd : Bool} {rules : Attr → Val → Rules} {c : Cls} {b : Val} {q : List String} : ∀ (ns : List String) (a : Val),
    (∀ n ∈ ns, ∀ m, attrOf c n = some m → ¬ m.set <+: q ∧ ¬ q <+: m.set) → read (steps vd rules c b ns a).1 q = read a q := by
  intro ns
  induction ns with
  | nil => intro a _; rfl
  | cons n ns ih =>
    intro a h
    simp only [steps]
    split
    · rfl
    · rename_i m hm
      obtain ⟨h1, h2⟩ := h n (by simp) m hm
      split
      · rfl
      · rename_i v hv
        have f := assign_frame (b := vd) (r := rules m a) (a := m) (e := a) (v := v) h1 h2
        split
        · rename_i a' ha
          rw [ha] at f
          rw [ih a' fun k hk => h k (List.mem_cons_of_mem _ hk)]; exact f
        · rename_i a' x ha
          rw [ha] at f; exact f

/-- Merging, whether it succeeds or not, leaves the quality and the attributes of `kept` as they were. -/
theorem C81_kept {a b : Ent} (ha : (a.cls, a.parts) ∈ table) {m : Attr} (hm : m ∈ a.cls.attrs) (hk : isKept a.cls.name m.name = true)
    (vd : Bool) (rules : Attr → Val → Rules) : read (merge vd rules a b).1.root m.set = read a.root m.set := by
  refine steps_frame _ _ fun n hn k hk' => ?_
  have t := List.all_eq_true.mp (List.all_eq_true.mp (List.all_eq_true.mp table_kept _ ha) m (List.mem_filter.mpr ⟨hm, hk⟩)) n hn
  simp only [hk', Bool.and_eq_true, Bool.not_eq_true', ← Bool.not_eq_true, List.isPrefixOf_iff_prefix] at t
  exact t

/-- Neither do the class, the name, the position, the direction, the orientation or the id change. -/
theorem C81_fixed {a b : Ent} (ha : (a.cls, a.parts) ∈ table) (vd : Bool) (rules : Attr → Val → Rules) :
    (merge vd rules a b).1.cls = a.cls ∧ (merge vd rules a b).1.parts = a.parts ∧ (merge vd rules a b).1.pos = a.pos ∧
    (merge vd rules a b).1.id = a.id ∧
    ∀ f ∈ ["name", "direction", "orientation", "position"], read (merge vd rules a b).1.root [f] = read a.root [f] := by
  refine ⟨rfl, rfl, rfl, rfl, fun f hf => steps_frame _ _ fun n hn k hk' => ?_⟩
  have t := List.all_eq_true.mp (List.all_eq_true.mp (List.all_eq_true.mp table_fixed _ ha) f hf) n hn
  simp only [hk', Bool.and_eq_true, Bool.not_eq_true', ← Bool.not_eq_true, List.isPrefixOf_iff_prefix] at t
  exact t

theorem steps_ok {vd : Bool} {rules : Attr → Val → Rules} {r : Cls × List Part} (hr : r ∈ table) {b : Val} (hacc : Accepts rules r.1 b) :
    ∀ (ns : List String) (a : Val), (∀ n ∈ ns, n ∈ order r.2) →
    (∀ n ∈ ns, ∀ m, attrOf r.1 n = some m → (∃ v, read a m.set = .ok v) ∧ ∃ v, read b m.set = .ok v) →
    (steps vd rules r.1 b ns a).2 = none := by
  intro ns
  induction ns with
  | nil => intros; rfl
  | cons n ns ih =>
    intro a hsub h
    obtain ⟨m, hm, hget, hl, -⟩ := step_facts hr (hsub n (by simp))
    obtain ⟨⟨w, hw⟩, ⟨v, hv⟩⟩ := h n (by simp) m hm
    have hck := hacc m (attrOf_mem hm) a v (by rw [hget]; exact hv)
    have ok := assign_ok (b := vd) hl hck hw
    simp only [steps, hm, hget, hv]
    cases hx : assign vd (rules m a) m a v with
    | mk a₁ o =>
      rw [hx] at ok
      simp only at ok
      subst ok
      simp only
      refine ih a₁ (fun k hk => hsub k (List.mem_cons_of_mem _ hk)) fun k hk m' hm' => ?_
      obtain ⟨⟨w', hw'⟩, hb'⟩ := h k (List.mem_cons_of_mem _ hk) m' hm'
      refine ⟨?_, hb'⟩
      obtain ⟨u, hu⟩ := assign_stored hl hx
      by_cases h1 : m.set <+: m'.set
      · obtain ⟨w₁, hw₁⟩ := hb'
        obtain ⟨s, hs⟩ := h1
        cases s with
        | nil => rw [List.append_nil] at hs; rw [← hs]; exact ⟨u, hu⟩
        | cons f s =>
          rw [← hs, read_append, hv] at hw₁
          have hnone : v ≠ .none := by rintro rfl; simp [Attr.read, field] at hw₁
          have hwr := assign_write hl (fun _ => hnone) hck hx
          exact ⟨w₁, by rw [← hs, read_append, read_write hwr]; exact hw₁⟩
      · by_cases h2 : m'.set <+: m.set
        · obtain ⟨s, hs⟩ := h2
          rw [← hs] at hu
          exact read_above hu
        · have f := assign_frame (b := vd) (r := rules m a) (a := m) (e := a) (v := v) h1 h2
          rw [hx] at f
          exact ⟨w', by rw [f]; exact hw'⟩

theorem table_plain : (table.all fun r => (order r.2).all fun n => n != "global_position" && n != "id") = true := by decide +kernel

/-- Merging succeeds if the attributes that are merged can be read on both entities and the values of the other one are valid. -/
theorem C81_succeeds {a b : Ent} (ha : (a.cls, a.parts) ∈ table) (hb : b.cls = a.cls) {vd : Bool} {rules : Attr → Val → Rules}
    (hacc : Accepts rules a.cls b.root) (h : ∀ n ∈ order a.parts, (∃ v, a.value n = .ok v) ∧ ∃ v, b.value n = .ok v) :
    (merge vd rules a b).2 = none := by
  refine steps_ok ha hacc _ _ (fun _ h => h) fun n hn m hm => ?_
  obtain ⟨m', hm', hget, -⟩ := step_facts ha hn
  rw [hm] at hm'; cases hm'
  obtain ⟨⟨v, hv⟩, ⟨w, hw⟩⟩ := h n hn
  have hname : m.name = n := by simpa using List.find?_some hm
  have key : ∀ e : Ent, e.cls = a.cls → ∀ u, e.value n = .ok u → n ≠ "global_position" → n ≠ "id" → read e.root m.set = .ok u := by
    intro e he u hu h1 h2
    simpa [Ent.value, h1, h2, getPath, he, hm, hget] using hu
  have hni : n ≠ "global_position" ∧ n ≠ "id" := by
    have t := List.all_eq_true.mp (List.all_eq_true.mp table_plain _ ha) n hn
    simpa using t
  exact ⟨⟨v, key a rfl v hv hni.1 hni.2⟩, ⟨w, key b hb w hw hni.1 hni.2⟩⟩

/-! ### Comparing -/

theorem allSame_true {veq : Val → Val → Bool} {a b : Ent} : ∀ {l : List String}, allSame veq a b l = .ok true ↔
    ∀ n ∈ l, ∃ v w, a.value n = .ok v ∧ b.value n = .ok w ∧ veq v w = true := by
  intro l
  induction l with
  | nil => simp [allSame]
  | cons n l ih =>
    simp only [allSame, List.mem_cons, forall_eq_or_imp]
    cases ha : a.value n with
    | error x => simp
    | ok v =>
      cases hb : b.value n with
      | error x => simp
      | ok w =>
        by_cases hv : veq v w = true
        · simp [hv, ih]
        · simp [hv]

/-- Equality of entities is equality of the class and of everything that the parts of the class compare. -/
theorem eq_true {veq : Val → Val → Bool} {a b : Ent} : eq veq a b = .ok true ↔ a.cls.name = b.cls.name ∧
    ∀ n ∈ comparisons a.parts, ∃ v w, a.value n = .ok v ∧ b.value n = .ok w ∧ veq v w = true := by
  simp only [eq]
  split
  · rename_i h; simp [h, allSame_true]
  · rename_i h; simp [h]

theorem mergable_true {veq : Val → Val → Bool} {a b : Ent} : mergable veq a b = .ok true ↔ a.cls.name = b.cls.name ∧
    ∀ n ∈ ["name", "global_position", "id"] ++ sames a.parts, ∃ v w, a.value n = .ok v ∧ b.value n = .ok w ∧ veq v w = true := by
  simp only [mergable]
  split
  · rename_i h; simp only [h, true_and]; exact allSame_true
  · rename_i h; simp [h]

theorem allSame_next {veq : Val → Val → Bool} {a b : Ent} {n : String} {l : List String} {v w : Val} (h1 : a.value n = .ok v)
    (h2 : b.value n = .ok w) (h3 : veq v w = true) : allSame veq a b (n :: l) = allSame veq a b l := by
  simp [allSame, h1, h2, h3]

theorem table_names : (table.map (·.1.name)).Nodup := by decide +kernel

theorem inj_of_nodup {α β : Type} (f : α → β) : ∀ {l : List α}, (l.map f).Nodup → ∀ {x y : α}, x ∈ l → y ∈ l → f x = f y → x = y := by
  intro l
  induction l with
  | nil => intro _ x y hx; simp at hx
  | cons z l ih =>
    intro hn x y hx hy h
    rw [List.map_cons, List.nodup_cons] at hn
    rcases List.mem_cons.mp hx with hx | hx <;> rcases List.mem_cons.mp hy with hy | hy
    · rw [hx, hy]
    · exact absurd (List.mem_map.mpr ⟨y, hy, by rw [← h, hx]⟩) hn.1
    · exact absurd (List.mem_map.mpr ⟨x, hx, by rw [h, hy]⟩) hn.1
    · exact ih hn.2 hx hy h

theorem same_row {a b : Ent} (ha : (a.cls, a.parts) ∈ table) (hb : (b.cls, b.parts) ∈ table) (h : a.cls.name = b.cls.name) :
    a.cls = b.cls ∧ a.parts = b.parts := by
  have := inj_of_nodup (fun r : Cls × List Part => r.1.name) table_names ha hb h
  simpa using this

theorem table_compared : (table.all fun r => (comparisons r.2).all fun n => (["name", "global_position", "id"] ++ sames r.2).contains n &&
    ["name", "global_position", "id", "direction", "orientation"].contains n && (attrOf r.1 n).isNone ||
    match attrOf r.1 n with
      | some m => decide (m.get = m.set) && !isKept r.1.name m.name && n != "global_position" && n != "id"
      | none => false) = true := by decide +kernel

/-- After merging a mergable entity the two are equal, if comparing values is reflexive and the compared attributes of the other one can be read. -/
theorem C81_equal {a b a' : Ent} (ha : (a.cls, a.parts) ∈ table) (hb : (b.cls, b.parts) ∈ table) {veq : Val → Val → Bool}
    (hrefl : ∀ v, veq v v = true) (hm : mergable veq a b = .ok true) {vd : Bool} {rules : Attr → Val → Rules}
    (hacc : Accepts rules a.cls b.root) (hn : ∀ n ∈ ["link_id", "items"], read b.root [n] ≠ .ok .none)
    (hr : ∀ n ∈ comparisons b.parts, ∃ v, b.value n = .ok v) (h : merge vd rules a b = (a', none)) : eq veq a' b = .ok true := by
  have h' := h
  simp only [merge, Prod.mk.injEq] at h
  obtain ⟨h1, -⟩ := h
  simp only [mergable] at hm
  split at hm
  case isFalse => simp at hm
  rename_i hname
  obtain ⟨hc, hp⟩ := same_row ha hb hname
  obtain ⟨-, -, -, -, hf⟩ := C81_fixed (b := b) ha vd rules
  rw [h'] at hf
  rw [eq_true]
  refine ⟨by rw [← h1]; exact hname, fun n hn' => ?_⟩
  have hparts : a'.parts = a.parts := by rw [← h1]
  have hcls : a'.cls = a.cls := by rw [← h1]
  have hpos : a'.pos = a.pos := by rw [← h1]
  have hid : a'.id = a.id := by rw [← h1]
  rw [hparts] at hn'
  have t := List.all_eq_true.mp (List.all_eq_true.mp table_compared _ ha) n hn'
  rw [Bool.or_eq_true] at t
  rcases t with t | t
  · simp only [Bool.and_eq_true, List.contains_iff_mem] at t
    obtain ⟨⟨t1, t2⟩, t3⟩ := t
    obtain ⟨v, w, g1, g2, g3⟩ := allSame_true.mp hm n t1
    refine ⟨v, w, ?_, g2, g3⟩
    rw [← g1]
    have hnone : attrOf a.cls n = none := by simpa using t3
    simp only [List.mem_cons, List.not_mem_nil, or_false] at t2
    rcases t2 with rfl | rfl | rfl | rfl | rfl <;> simp [Ent.value, getPath, hcls, hpos, hid, hnone, hf]
  · cases hx : attrOf a.cls n with
    | none => simp [hx] at t
    | some m =>
      simp only [hx, Bool.and_eq_true, decide_eq_true_eq, Bool.not_eq_true', bne_iff_ne] at t
      obtain ⟨⟨⟨t1, t2⟩, t3⟩, t4⟩ := t
      obtain ⟨v, hv⟩ := hr n (by rw [← hp]; exact hn')
      refine ⟨v, v, ?_, hv, hrefl v⟩
      have e := C81_taken_partial ha hacc hn h' (attrOf_mem hx) t2
      have hv' : read b.root m.set = .ok v := by simpa [Ent.value, t3, t4, getPath, ← hc, hx, t1] using hv
      simp [Ent.value, t3, t4, getPath, hcls, hx, t1, e, hv']

/-- Equality of entities is reflexive on entities whose compared attributes can be read, symmetric and transitive, if equality of values is. -/
theorem C81_equivalence {veq : Val → Val → Bool} (hrefl : ∀ v, veq v v = true) (hsymm : ∀ v w, veq v w = true → veq w v = true)
    (htrans : ∀ u v w, veq u v = true → veq v w = true → veq u w = true) :
    (∀ a : Ent, (∀ n ∈ comparisons a.parts, ∃ v, a.value n = .ok v) → eq veq a a = .ok true) ∧
    (∀ a b : Ent, (a.cls, a.parts) ∈ table → (b.cls, b.parts) ∈ table → eq veq a b = .ok true → eq veq b a = .ok true) ∧
    ∀ a b c : Ent, (a.cls, a.parts) ∈ table → (b.cls, b.parts) ∈ table → eq veq a b = .ok true → eq veq b c = .ok true →
      eq veq a c = .ok true := by
  refine ⟨fun a h => eq_true.mpr ⟨rfl, fun n hn => ?_⟩, fun a b ha hb h => ?_, fun a b c ha hb h1 h2 => ?_⟩
  · obtain ⟨v, hv⟩ := h n hn; exact ⟨v, v, hv, hv, hrefl v⟩
  · obtain ⟨h1, h2⟩ := eq_true.mp h
    obtain ⟨-, hp⟩ := same_row ha hb h1
    refine eq_true.mpr ⟨h1.symm, fun n hn => ?_⟩
    obtain ⟨v, w, g1, g2, g3⟩ := h2 n (by rw [hp]; exact hn)
    exact ⟨w, v, g2, g1, hsymm _ _ g3⟩
  · obtain ⟨h1, g1⟩ := eq_true.mp h1
    obtain ⟨h2, g2⟩ := eq_true.mp h2
    obtain ⟨-, hp⟩ := same_row ha hb h1
    refine eq_true.mpr ⟨h1.trans h2, fun n hn => ?_⟩
    obtain ⟨v, w, k1, k2, k3⟩ := g1 n hn
    obtain ⟨w', u, l1, l2, l3⟩ := g2 n (by rw [← hp]; exact hn)
    rw [k2] at l1; cases l1
    exact ⟨v, u, k1, l2, htrans _ _ _ k3 l3⟩

/-- Two results of reading that agree: both fail alike, or both give values that are equal. -/
def Alike (veq : Val → Val → Bool) (x y : Except PyErr Val) : Prop :=
  (∃ v w, x = .ok v ∧ y = .ok w ∧ veq v w = true) ∨ ∃ z, x = .error z ∧ y = .error z

theorem alike_read {veq : Val → Val → Bool} (hdeep : ∀ v w f, veq v w = true → Alike veq (field v f) (field w f)) :
    ∀ (p : List String) (v w : Val), veq v w = true → Alike veq (read v p) (read w p) := by
  intro p
  induction p with
  | nil => intro v w h; exact .inl ⟨v, w, rfl, rfl, h⟩
  | cons f p ih =>
    intro v w h
    simp only [Attr.read]
    rcases hdeep v w f h with ⟨x, y, hx, hy, hxy⟩ | ⟨z, hx, hy⟩
    · rw [hx, hy]; exact ih x y hxy
    · rw [hx, hy]; exact .inr ⟨z, rfl, rfl⟩

theorem table_seen : (table.all fun r => r.1.attrs.all fun a => isIgnored r.1.name a.name ||
    (comparisons r.2).any fun n => match attrOf r.1 n with
      | some m => m.get.isPrefixOf a.set && n != "global_position" && n != "id"
      | none => false) = true := by decide +kernel

theorem table_ignored : (table.all fun r => (r.1.attrs.filter fun a => isIgnored r.1.name a.name).all fun a => (comparisons r.2).all fun n =>
    match getPath r.1 n with
      | some p => !a.set.isPrefixOf p && !p.isPrefixOf a.set
      | none => true) = true := by decide +kernel

/-- Equal entities agree in every attribute, if equality of values looks at the attributes of sub-objects.  Missing: the quality, the
attributes of `kept`, and three of an inserter, which are not compared (`C81_ignored`). -/
theorem C81_compared_partial {a b : Ent} (ha : (a.cls, a.parts) ∈ table) (hb : (b.cls, b.parts) ∈ table) {veq : Val → Val → Bool}
    (hdeep : ∀ v w f, veq v w = true → Alike veq (field v f) (field w f)) (h : eq veq a b = .ok true) {m : Attr} (hm : m ∈ a.cls.attrs)
    (hi : isIgnored a.cls.name m.name = false) : Alike veq (read a.root m.set) (read b.root m.set) := by
  obtain ⟨h1, h2⟩ := eq_true.mp h
  obtain ⟨hc, hp⟩ := same_row ha hb h1
  have t := List.all_eq_true.mp (List.all_eq_true.mp table_seen _ ha) m hm
  simp only [hi, Bool.false_or, List.any_eq_true] at t
  obtain ⟨n, hn, t⟩ := t
  cases hx : attrOf a.cls n with
  | none => simp [hx] at t
  | some k =>
    simp only [hx, Bool.and_eq_true, List.isPrefixOf_iff_prefix, bne_iff_ne] at t
    obtain ⟨⟨⟨s, hs⟩, t3⟩, t4⟩ := t
    obtain ⟨v, w, g1, g2, g3⟩ := h2 n hn
    have e1 : read a.root k.get = .ok v := by simpa [Ent.value, t3, t4, getPath, hx] using g1
    have e2 : read b.root k.get = .ok w := by simpa [Ent.value, t3, t4, getPath, ← hc, hx] using g2
    rw [← hs, read_append, read_append, e1, e2]
    exact alike_read hdeep s v w g3

theorem allSame_congr {veq : Val → Val → Bool} {a a' b : Ent} : ∀ {l : List String}, (∀ n ∈ l, a'.value n = a.value n) →
    allSame veq a' b l = allSame veq a b l := by
  intro l
  induction l with
  | nil => intro _; rfl
  | cons n l ih =>
    intro h
    simp only [allSame, h n (by simp), ih fun k hk => h k (List.mem_cons_of_mem _ hk)]

/-- Whatever is assigned to one of the attributes that are not compared, with or without success, equality does not notice. -/
theorem C81_ignored {a : Ent} (ha : (a.cls, a.parts) ∈ table) {m : Attr} (hm : m ∈ a.cls.attrs) (hi : isIgnored a.cls.name m.name = true)
    (veq : Val → Val → Bool) (b : Ent) (vd : Bool) (r : Rules) (v : Val) :
    eq veq { a with root := (assign vd r m a.root v).1 } b = eq veq a b := by
  simp only [eq]
  split
  · refine allSame_congr fun n hn => ?_
    have t := List.all_eq_true.mp (List.all_eq_true.mp (List.all_eq_true.mp table_ignored _ ha) m (List.mem_filter.mpr ⟨hm, hi⟩)) n hn
    simp only [Ent.value]
    split
    · rfl
    · split
      · rfl
      · cases hx : getPath a.cls n with
        | none => rfl
        | some p =>
          simp only [hx, Bool.and_eq_true, Bool.not_eq_true', ← Bool.not_eq_true, List.isPrefixOf_iff_prefix] at t
          exact assign_frame t.1 t.2
  · rfl

/-! ### Hashing -/

theorem table_hash : (table.all fun r => decide (r.1.name = "SimpleEntityWithForce" ∨ r.1.name = "SimpleEntityWithOwner") ||
    decide (r.2.findSome? (fun p : Part => p.hash) = some .ident)) = true := by decide +kernel

/-- Every entity can be hashed, by its address.  Missing: the two classes of simple entities (`C81_hash_refuted`). -/
theorem C81_hash_partial {c : Cls} {ps : List Part} (h : (c, ps) ∈ table) (hc : c.name ≠ "SimpleEntityWithForce" ∧ c.name ≠ "SimpleEntityWithOwner")
    (addr : Nat) : hash ps addr = .ok (addr >>> 4) := by
  have t := List.all_eq_true.mp table_hash _ h
  simp only [hc.1, hc.2, or_self, decide_false, Bool.false_or, decide_eq_true_eq] at t
  simp [hash, t]

/-! ### Where the claim fails -/

/-- Equality of values as structures. -/
noncomputable def structural (v w : Val) : Bool := @decide (v = w) (Classical.propDecidable _)

theorem structural_refl (v : Val) : structural v v = true := by simp [structural]

theorem structural_deep (v w : Val) (f : String) (h : structural v w = true) : Alike structural (field v f) (field w f) := by
  have : v = w := by simpa [structural] using h
  subst this
  cases hf : field v f with
  | ok x => exact .inl ⟨x, x, rfl, rfl, structural_refl x⟩
  | error z => exact .inr ⟨z, rfl, rfl⟩

/-- No validation. -/
def free : Attr → Val → Rules := fun _ _ => ⟨fun v => .ok v, fun _ => none⟩

/-- An asteroid collector with the chunks that it collects. -/
def collector (chunks quality : Nat) : Ent where
  cls := asteroidCollector
  parts := [hashPart, controlBehaviorMixinPart, directionalMixinPart, entityPart]
  pos := 0
  id := .none
  root := .model [("name", .atom 0), ("quality", .atom quality), ("tags", .atom 0), ("direction", .atom 0),
    ("control_behavior", .model []), ("chunk_filter", .atom chunks)]

/-- An accumulator or rail signal with the given control behavior. -/
def plain (c : Cls) (ps : List Part) (cb tags : Val) : Ent where
  cls := c
  parts := ps
  pos := 0
  id := .none
  root := .model [("name", .atom 0), ("quality", .atom 0), ("tags", tags), ("direction", .atom 0), ("control_behavior", cb)]

theorem collector_row (k q : Nat) : ((collector k q).cls, (collector k q).parts) ∈ table := by
  simp only [collector, table, List.mem_cons, true_or, or_true]

theorem collector_mergable (k l q r : Nat) : mergable structural (collector k q) (collector l r) = .ok true := by
  refine mergable_true.mpr ⟨rfl, fun n hn => ?_⟩
  rw [show ["name", "global_position", "id"] ++ sames (collector k q).parts = ["name", "global_position", "id", "direction"] from rfl] at hn
  simp only [List.mem_cons, List.not_mem_nil, or_false] at hn
  rcases hn with rfl | rfl | rfl | rfl
  · exact ⟨.atom 0, .atom 0, rfl, rfl, structural_refl _⟩
  · exact ⟨.atom 0, .atom 0, rfl, rfl, structural_refl _⟩
  · exact ⟨.none, .none, rfl, rfl, structural_refl _⟩
  · exact ⟨.atom 0, .atom 0, rfl, rfl, structural_refl _⟩

theorem collector_equal (k l q r : Nat) : eq structural (collector k q) (collector l r) = .ok true := by
  refine eq_true.mpr ⟨rfl, fun n hn => ?_⟩
  rw [show comparisons (collector k q).parts = ["name", "global_position", "id", "tags", "direction", "control_behavior"] from rfl] at hn
  simp only [List.mem_cons, List.not_mem_nil, or_false] at hn
  rcases hn with rfl | rfl | rfl | rfl | rfl | rfl
  · exact ⟨.atom 0, .atom 0, rfl, rfl, structural_refl _⟩
  · exact ⟨.atom 0, .atom 0, rfl, rfl, structural_refl _⟩
  · exact ⟨.none, .none, rfl, rfl, structural_refl _⟩
  · exact ⟨.atom 0, .atom 0, rfl, rfl, structural_refl _⟩
  · exact ⟨.atom 0, .atom 0, rfl, rfl, structural_refl _⟩
  · exact ⟨.model [], .model [], rfl, rfl, structural_refl _⟩

/-- Claim: after merging, the attributes are those of the other entity.  Two asteroid collectors that can be merged: the chunks that the
other one collects are not taken over, nor is its quality. -/
theorem C81_merge_refuted : ¬ ∀ (a b a' : Ent), (a.cls, a.parts) ∈ table → (b.cls, b.parts) ∈ table → mergable structural a b = .ok true →
    merge true free a b = (a', none) → ∀ m ∈ a.cls.attrs, read a'.root m.set = read b.root m.set := by
  intro h
  have := h _ _ _ (collector_row 1 0) (collector_row 2 0) (collector_mergable 1 2 0 0) rfl ⟨"chunk_filter", ["chunk_filter"], ["chunk_filter"], .checked⟩ (by decide +kernel)
  change (Except.ok (.atom 1) : Except PyErr Val) = .ok (.atom 2) at this
  simp at this

/-- Claim: an entity is equal to itself and can be merged.  Without control behavior comparing an accumulator with itself raises an
`AttributeError`, and so does merging a rail signal into another one. -/
theorem C81_missing_refuted : eq structural (plain accumulator [accumulatorPart, controlBehaviorMixinPart, entityPart] .none (.atom 0))
      (plain accumulator [accumulatorPart, controlBehaviorMixinPart, entityPart] .none (.atom 0)) = .error .attributeError ∧
    (merge true free (plain railSignal [hashPart, readRailSignalMixinPart, controlBehaviorMixinPart, eightWayDirectionalMixinPart, entityPart] .none (.atom 0))
      (plain railSignal [hashPart, readRailSignalMixinPart, controlBehaviorMixinPart, eightWayDirectionalMixinPart, entityPart] .none (.atom 0))).2 =
      some .attributeError := by
  refine ⟨?_, rfl⟩
  rw [eq, if_pos rfl, show comparisons (plain accumulator [accumulatorPart, controlBehaviorMixinPart, entityPart] .none (.atom 0)).parts =
    ["name", "global_position", "id", "tags", "control_behavior", "output_signal"] from rfl,
    allSame_next (v := .atom 0) (w := .atom 0) rfl rfl (structural_refl _),
    allSame_next (v := .atom 0) (w := .atom 0) rfl rfl (structural_refl _),
    allSame_next (v := .none) (w := .none) rfl rfl (structural_refl _),
    allSame_next (v := .atom 0) (w := .atom 0) rfl rfl (structural_refl _),
    allSame_next (v := .none) (w := .none) rfl rfl (structural_refl _)]
  rfl

/-- Claim: a merge that fails changes nothing.  A control behavior that validation refuses: the tags have been taken over by then. -/
theorem C81_half_refuted : ¬ ∀ (a b a' : Ent) (rules : Attr → Val → Rules) (x : PyErr), (a.cls, a.parts) ∈ table →
    merge true rules a b = (a', some x) → a' = a := by
  intro h
  have := h (plain wall [hashPart, controlBehaviorMixinPart, entityPart] (.atom 1) (.atom 1))
    (plain wall [hashPart, controlBehaviorMixinPart, entityPart] (.atom 2) (.atom 2)) _
    (fun m _ => ⟨fun v => if m.name = "tags" then .ok v else .error .dataFormat, fun _ => none⟩) .dataFormat
    (by simp only [plain, table, List.mem_cons, true_or, or_true]) rfl
  have := congrArg (fun e : Ent => read e.root ["tags"]) this
  change (Except.ok (.atom 2) : Except PyErr Val) = .ok (.atom 1) at this
  simp at this

/-- Claim: equal entities agree in all attributes.  Two asteroid collectors that collect different chunks and have different quality are
equal. -/
theorem C81_equal_refuted : ¬ ∀ a b : Ent, (a.cls, a.parts) ∈ table → (b.cls, b.parts) ∈ table → eq structural a b = .ok true →
    ∀ m ∈ a.cls.attrs, read a.root m.set = read b.root m.set := by
  intro h
  have := h _ _ (collector_row 1 0) (collector_row 2 5) (collector_equal 1 2 0 5) ⟨"chunk_filter", ["chunk_filter"], ["chunk_filter"], .checked⟩
    (by decide +kernel)
  change (Except.ok (.atom 1) : Except PyErr Val) = .ok (.atom 2) at this
  simp at this

/-- Claim: entities can be hashed.  Both classes of simple entities inherit `__eq__` from `DirectionalMixin` and with it a `__hash__` that is
`None`, so that `hash` raises a `TypeError`. -/
theorem C81_unhashable_refuted : ∀ r ∈ table, r.1.name = "SimpleEntityWithForce" ∨ r.1.name = "SimpleEntityWithOwner" →
    ∀ addr, hash r.2 addr = .error .typeError := by
  intro r hr hn addr
  have t : (table.all fun r => !decide (r.1.name = "SimpleEntityWithForce" ∨ r.1.name = "SimpleEntityWithOwner") ||
    decide (r.2.findSome? (fun p : Part => p.hash) = some .null)) = true := by decide +kernel
  have := List.all_eq_true.mp t r hr
  simp only [hn, decide_true, Bool.not_true, Bool.false_or, decide_eq_true_eq] at this
  simp [hash, this]

/-- Claim: equal entities have the same hash.  The hash is the address, so that a copy of an entity is equal to it and has another hash. -/
theorem C81_hash_refuted : ¬ ∀ (a b : Ent) (x y h k : Nat), (a.cls, a.parts) ∈ table → (b.cls, b.parts) ∈ table →
    eq structural a b = .ok true → hash a.parts x = .ok h → hash b.parts y = .ok k → h = k := by
  intro h
  have := h (collector 1 0) (collector 1 0) 16 32 1 2 (collector_row 1 0) (collector_row 1 0) (collector_equal 1 1 0 0) rfl rfl
  simp at this

/-! ### Concrete cases -/

/-- Two inserters: pickup position, filters and control behavior are taken from the other one, the spoil priority is not. -/
def arm (k : Nat) : Ent where
  cls := inserter
  parts := [inserterPart, filtersMixinPart, stackSizeMixinPart, controlBehaviorMixinPart, directionalMixinPart, entityPart]
  pos := 3
  id := .atom 9
  root := .model [("name", .atom 0), ("quality", .atom k), ("tags", .atom k), ("direction", .atom 4), ("pickup_position", .atom k),
    ("drop_position", .atom k), ("filter_mode", .atom k), ("spoil_priority", .atom k), ("filters", .atom k), ("use_filters", .atom k),
    ("override_stack_size", .atom k), ("control_behavior", .model [("circuit_set_filters", .atom k), ("circuit_enabled", .atom k)])]

theorem arm_row (k : Nat) : ((arm k).cls, (arm k).parts) ∈ table := by
  simp only [arm, table, List.mem_cons, true_or, or_true]

example : ∃ a', merge true free (arm 1) (arm 2) = (a', none) ∧ read a'.root ["pickup_position"] = .ok (.atom 2) ∧
    read a'.root ["control_behavior", "circuit_set_filters"] = .ok (.atom 2) ∧ read a'.root ["spoil_priority"] = .ok (.atom 1) ∧
    read a'.root ["quality"] = .ok (.atom 1) := ⟨_, rfl, rfl, rfl, rfl, rfl⟩

/-- They meet the hypotheses of `C81_taken_partial` and `C81_succeeds`. -/
example : Accepts free (arm 1).cls (arm 2).root ∧ (∀ n ∈ ["link_id", "items"], read (arm 2).root [n] ≠ .ok .none) ∧
    ∀ n ∈ order (arm 1).parts, (∃ v, (arm 1).value n = .ok v) ∧ ∃ v, (arm 2).value n = .ok v := by
  refine ⟨fun _ _ _ _ _ => rfl, ?_, ?_⟩
  · intro n hn
    simp only [List.mem_cons, List.not_mem_nil, or_false] at hn
    rcases hn with rfl | rfl
    · change (Except.error PyErr.attributeError : Except PyErr Val) ≠ _; simp
    · change (Except.error PyErr.attributeError : Except PyErr Val) ≠ _; simp
  · intro n hn
    rw [show order (arm 1).parts = ["tags", "control_behavior", "override_stack_size", "filters", "pickup_position", "drop_position",
      "filter_mode"] from rfl] at hn
    simp only [List.mem_cons, List.not_mem_nil, or_false] at hn
    rcases hn with rfl | rfl | rfl | rfl | rfl | rfl | rfl <;> exact ⟨⟨_, rfl⟩, ⟨_, rfl⟩⟩

/-- Two collectors meet the hypotheses of `C81_equal`; structural equality meets those of `C81_compared_partial` and `C81_equivalence`. -/
example : mergable structural (collector 1 0) (collector 2 5) = .ok true ∧ (∃ a', merge true free (collector 1 0) (collector 2 5) = (a', none)) ∧
    ∀ n ∈ comparisons (collector 2 5).parts, ∃ v, (collector 2 5).value n = .ok v := by
  refine ⟨collector_mergable _ _ _ _, ⟨_, rfl⟩, fun n hn => ?_⟩
  obtain ⟨-, h⟩ := eq_true.mp (collector_equal 2 2 5 5)
  obtain ⟨v, -, h, -⟩ := h n hn
  exact ⟨v, h⟩

/-- Assigning the chunks of a collector, which `C81_ignored` speaks of, is possible. -/
example : ∃ e, assign true ⟨fun v => .ok v, fun _ => none⟩ ⟨"chunk_filter", ["chunk_filter"], ["chunk_filter"], .checked⟩ (collector 1 0).root (.atom 8) =
    (e, none) ∧ read e ["chunk_filter"] = .ok (.atom 8) ∧ isIgnored "AsteroidCollector" "chunk_filter" = true := ⟨_, rfl, rfl, rfl⟩

/-- A chest at address 48. -/
example : hash [hashPart, inventoryMixinPart, requestItemsMixinPart, entityPart] 48 = .ok 3 := rfl

end MergeAttr
end Draftsman
