import Verif.Proof.Ctor
/-
C84: the arguments of the constructor of an entity end up in its fields.
-/
namespace Draftsman
namespace Ctor
open Attr

/-! ### The claim in plain terms -/

/-- The key under which a field is exported. -/
def exportName (f : String) : String :=
  if f = "result_inventory" then "result-inventory" else if f = "chunk_filter" then "chunk-filter"
  else if f = "io_type" then "type" else if f = "priority_list" then "priority-list" else f

/-- The argument for a field: by its exported name, or else by its own. -/
def argument (kw : Kw) (f : String) : Option Obj :=
  match kw (exportName f) with
  | some o => some o
  | none => kw f

/-- The fields whose value is converted by pydantic. -/
def converted : List String :=
  ["control_behavior", "priority_list", "ignore_unprioritized", "orientation", "grid", "trunk_inventory", "ammo_inventory", "request_filters",
   "inventory", "infinity_settings", "use_filters", "filters", "color", "parameters", "alert_parameters", "entity_number", "result_inventory"]

/-- What is stored for an argument: the very object, except that some fields are converted and some replace `None`. -/
def kept (w : World) (cls f : String) (o : Obj) : Obj :=
  if f = "control_behavior" ∧ cls ∈ ["ConstantCombinator", "DeciderCombinator"] then w.coerce f (if o = .none then .new w.call f "{}" else o)
  else if f ∈ converted ∨ (cls = "FluidWagon" ∧ f = "enable_logistics_while_moving") then w.coerce f o
  else if f = "items" then (if o = .none then .new w.call f "[]" else o)
  else if f = "link_id" then (if o = .none then .const "0" else o)
  else if f = "tags" ∧ cls ∈ ["ConstantCombinator", "ElectricPole"] then (if o = .none then .new w.call f "{}" else o)
  else if f ∈ ["buffer_size", "power_production", "power_usage"] then (if o = .none then w.own ("default_" ++ f) else o)
  else o

/-- The fields of an entity class. -/
def Kind.fields (c : Kind) : List String := fieldNames c.cls.fresh

/-- The parameters that the class itself declares, with their defaults. -/
def Kind.declared (c : Kind) : List (String × Obj) :=
  match c.layers with
  | l :: _ => l.params
  | [] => []

/-! ### The symbolic run of all classes -/

/-- The statement that comes after the mode has been set, of asteroid collectors. -/
def chunkStmt : Stmt := .set "chunk_filter" (.par "chunk_filter")

/-- The constructors without it. -/
def Kind.earlyLayers (c : Kind) : List Layer :=
  match c.layers with
  | l :: r => { l with post := l.post.filter fun s => !(s == chunkStmt) } :: r
  | [] => []

def Kind.sym (c : Kind) : Option (Sym × SEnt) := sinit c c.earlyLayers ⟨[], []⟩

def isCollector (c : Kind) : Bool := decide (c.cls.name = "AsteroidCollector")

theorem execAll_append (w : World) (c : Kind) (l : Layer) (kw : Kw) : ∀ (a b : List Stmt) (e : Ent),
    execAll w c l kw (a ++ b) e = match execAll w c l kw a e with
      | .ok e' => execAll w c l kw b e'
      | .error x => .error x
  | [], b, e => rfl
  | x :: r, b, e => by
    simp only [List.cons_append, execAll]
    cases exec w c l kw e x with
    | error y => rfl
    | ok e' => exact execAll_append w c l kw r b e'

/-- Whether the first constructor ends with that statement exactly for asteroid collectors. -/
def lateOk (c : Kind) : Bool :=
  match c.layers with
  | l :: _ =>
    if isCollector c then decide (l.post = l.post.filter (fun s => !(s == chunkStmt)) ++ [chunkStmt]) &&
      decide (c.attrs.find? (fun b => decide (b.name = "chunk_filter")) = some ⟨"chunk_filter", ["chunk_filter"], ["chunk_filter"], .checked⟩)
    else l.post.all fun s => !(s == chunkStmt)
  | [] => false

theorem late_ok : kinds.all lateOk = true := by decide +kernel

/-- For all other classes nothing was left out. -/
theorem construct_early {c : Kind} (hc : c ∈ kinds) (hn : c.cls.name ≠ "AsteroidCollector") (w : World) (kw : Kw) :
    construct w c kw = initFrom w c c.earlyLayers kw := by
  have h := List.all_eq_true.1 late_ok c hc
  rw [construct, Kind.earlyLayers]
  rw [lateOk] at h
  cases hl : c.layers with
  | nil => rfl
  | cons l r =>
    simp only [hl, isCollector, decide_eq_true_eq, if_neg hn] at h ⊢
    have : l.post.filter (fun s => !(s == chunkStmt)) = l.post := List.filter_eq_self.2 (List.all_eq_true.1 h)
    rw [this]

/-- Asteroid collectors assign the chunks at the end. -/
theorem construct_late {c : Kind} (hc : c ∈ kinds) (hn : c.cls.name = "AsteroidCollector") (w : World) (kw : Kw) :
    construct w c kw = match initFrom w c c.earlyLayers kw with
      | .error x => .error x
      | .ok e => match store w e.mode .checked "chunk_filter" ((kw "chunk_filter").getD ((c.declared.lookup "chunk_filter").getD .none)) with
        | .ok x => .ok { e with root := upd e.root "chunk_filter" x }
        | .error x => .error x := by
  have h := List.all_eq_true.1 late_ok c hc
  rw [construct, Kind.earlyLayers]
  rw [lateOk] at h
  cases hl : c.layers with
  | nil => simp [hl] at h
  | cons l r =>
    simp only [hl, isCollector, hn, decide_true, if_true, Bool.and_eq_true, decide_eq_true_eq] at h ⊢
    obtain ⟨hp, ha⟩ := h
    have hd : c.declared = l.params := by simp [Kind.declared, hl]
    simp only [initFrom]
    have hup : Layer.up { l with post := l.post.filter fun s => !(s == chunkStmt) } w kw = l.up w kw := rfl
    rw [hup]
    cases initFrom w c r (l.up w kw) with
    | error x => rfl
    | ok e =>
      simp only []
      have hex : ∀ xs e, execAll w c { l with post := l.post.filter fun s => !(s == chunkStmt) } kw xs e = execAll w c l kw xs e := by
        intro xs
        induction xs with
        | nil => intro e; rfl
        | cons x r ih =>
          intro e
          simp only [execAll]
          have : exec w c { l with post := l.post.filter fun s => !(s == chunkStmt) } kw e x = exec w c l kw e x := by
            cases x with
            | set a y => cases y <;> first | rfl | (rename_i d; cases d <;> rfl)
            | setField a y => cases y <;> first | rfl | (rename_i d; cases d <;> rfl)
            | mode => rfl
            | place => rfl
            | ioType => rfl
          rw [this]
          cases exec w c l kw e x with
          | error y => rfl
          | ok e' => exact ih e'
      rw [hp, execAll_append, ← hp, hex]
      cases execAll w c l kw (l.post.filter fun s => !(s == chunkStmt)) e with
      | error x => rfl
      | ok e' =>
        simp only [execAll, chunkStmt, exec, setAttr, ha]
        have hb : l.eval w kw (.par "chunk_filter") = (kw "chunk_filter").getD ((c.declared.lookup "chunk_filter").getD .none) := by
          rw [hd]
          simp only [Layer.eval, Layer.bind]
          cases kw "chunk_filter" <;> rfl
        rw [hb]
        cases store w e'.mode .checked "chunk_filter" ((kw "chunk_filter").getD ((c.declared.lookup "chunk_filter").getD .none)) <;> rfl

/-- A constructed entity is described by the symbolic run, but for the chunks of asteroid collectors. -/
theorem described {c : Kind} (hc : c ∈ kinds) {n : Sym} {s : SEnt} (hs : c.sym = some (n, s)) {w : World} {kw : Kw} {e : Ent}
    (h : construct w c kw = .ok e) :
    n.ev w kw ≠ .none ∧ ∃ e₀, s.Rep w c kw e₀ ∧ e.mode = e₀.mode ∧ e.place = e₀.place ∧ e.inst = e₀.inst ∧
      (∀ f, f ≠ "chunk_filter" ∨ c.cls.name ≠ "AsteroidCollector" → e.root f = e₀.root f) := by
  have hr := sinit_rep (w := w) (c := c) c.earlyLayers (start_rep w kw) hs
  by_cases hn : c.cls.name = "AsteroidCollector"
  · rw [construct_late hc hn] at h
    rcases hr with ⟨_, he⟩ | ⟨hne, e₀, he, hrep⟩
    · simp [he] at h
    · simp only [he] at h
      split at h
      · cases h
        refine ⟨hne, e₀, hrep, rfl, rfl, rfl, ?_⟩
        intro f hf
        rcases hf with hf | hf
        · simp only [upd, if_neg hf]
        · exact absurd hn hf
      · cases h
  · rw [construct_early hc hn] at h
    rcases hr with ⟨_, he⟩ | ⟨hne, e₀, he, hrep⟩
    · simp [he] at h
    · rw [he] at h
      cases h
      exact ⟨hne, e, hrep, rfl, rfl, rfl, fun _ _ => rfl⟩

/-- A table fact about the symbolic run of every class. -/
def checkAll (q : Kind → Sym → SEnt → Bool) : Bool :=
  kinds.all fun c => match c.sym with
    | none => false
    | some (n, s) => q c n s

theorem of_checkAll {q : Kind → Sym → SEnt → Bool} (h : checkAll q = true) {c : Kind} (hc : c ∈ kinds) :
    ∃ n s, c.sym = some (n, s) ∧ q c n s = true := by
  have := List.all_eq_true.1 h c hc
  split at this
  · cases this
  · rename_i n s hs
    exact ⟨n, s, hs, this⟩

/-- The form in which a field keeps its argument, as in `kept`. -/
def formOf (cls f : String) : Form :=
  if f = "control_behavior" ∧ cls ∈ ["ConstantCombinator", "DeciderCombinator"] then .convNew
  else if f ∈ converted ∨ (cls = "FluidWagon" ∧ f = "enable_logistics_while_moving") then .conv
  else if f = "items" then .orNew "[]"
  else if f = "link_id" then .orConst "0"
  else if f = "tags" ∧ cls ∈ ["ConstantCombinator", "ElectricPole"] then .orNew "{}"
  else if f ∈ ["buffer_size", "power_production", "power_usage"] then .orOwn ("default_" ++ f)
  else .raw

theorem formOf_kept (w : World) (cls f : String) (o : Obj) : (formOf cls f).apply w f o = kept w cls f o := by
  unfold formOf kept
  split
  · rfl
  split
  · rfl
  split
  · rfl
  split
  · rfl
  split
  · rfl
  split
  · rfl
  · rfl

/-- The fields of which the claim does not hold. -/
def Excepted (c : Kind) (f : String) : Prop :=
  f = "position" ∨ (c.cls.name = "AsteroidCollector" ∧ (f = "chunk_filter" ∨ f = "result_inventory"))

instance (c : Kind) (f : String) : Decidable (Excepted c f) := by unfold Excepted; infer_instance

def givenOk (c : Kind) (_ : Sym) (s : SEnt) : Bool :=
  c.fields.all fun f => decide (Excepted c f) || match s.field c f with
    | none => false
    | some v => decide (strip (some (exportName f)) none [] f v = some (formOf c.cls.name f)) &&
      decide (strip (some f) none [exportName f] f v = some (formOf c.cls.name f)) && closed [exportName f, f] v

theorem given_ok : checkAll givenOk = true := by decide +kernel

theorem field_of {c : Kind} (hc : c ∈ kinds) {f : String} (hf : f ∈ c.fields) (hx : ¬Excepted c f) {w : World} {kw : Kw} {e : Ent}
    (h : construct w c kw = .ok e) : ∃ v, e.root f = some (v.ev w kw) ∧ strip (some (exportName f)) none [] f v = some (formOf c.cls.name f) ∧
      strip (some f) none [exportName f] f v = some (formOf c.cls.name f) ∧ closed [exportName f, f] v = true ∧
      ∃ n s, c.sym = some (n, s) ∧ s.field c f = some v := by
  obtain ⟨n, s, hs, hq⟩ := of_checkAll given_ok hc
  obtain ⟨_, e₀, hrep, _, _, _, hroot⟩ := described hc hs h
  have := List.all_eq_true.1 hq f hf
  simp only [hx, decide_false, Bool.false_or] at this
  split at this
  · cases this
  · rename_i v hv
    simp only [Bool.and_eq_true, decide_eq_true_eq] at this
    refine ⟨v, ?_, this.1.1, this.1.2, this.2, n, s, hs, hv⟩
    rw [hroot f, field_ev hrep hv]
    by_cases hn : c.cls.name = "AsteroidCollector"
    · left
      intro hfc
      exact hx (.inr ⟨hn, .inl hfc⟩)
    · exact .inr hn

theorem means_key {kw : Kw} {k : String} {o : Obj} {skip : List String} (h : kw k = some o) (hs : ∀ j ∈ skip, kw j = none) :
    Means kw (some k) none skip o := by
  refine ⟨?_, ?_, hs⟩
  · intro j hj
    cases hj
    exact h
  · intro x hx
    cases hx

theorem means_lit {kw : Kw} {d : Obj} {skip : List String} (hs : ∀ j ∈ skip, kw j = none) : Means kw none (some d) skip d := by
  refine ⟨?_, ?_, hs⟩
  · intro j hj
    cases hj
  · intro x hx
    cases hx
    rfl

theorem argument_none {kw : Kw} {f : String} (h : argument kw f = none) : ∀ j ∈ [exportName f, f], kw j = none := by
  rw [argument] at h
  cases hk : kw (exportName f) with
  | some q => rw [hk] at h; cases h
  | none =>
    rw [hk] at h
    intro j hj
    simp only [List.mem_cons, List.not_mem_nil, or_false] at hj
    rcases hj with rfl | rfl
    · exact hk
    · exact h

/-! ### Theorems -/

/-- Whatever is given for a field, by its own name or by the name under which it is exported, is what the field holds: the object itself,
or what pydantic makes of it for the fields listed.
Missing: the position (`C84_place`), and two fields of asteroid collectors, for which the claim is false (`C84_chunks_refuted`, `C84_dropped_refuted`). -/
theorem C84_given_partial {c : Kind} (hc : c ∈ kinds) {f : String} (hf : f ∈ c.fields) (hx : ¬Excepted c f) {w : World} {kw : Kw} {e : Ent}
    (h : construct w c kw = .ok e) {o : Obj} (ho : argument kw f = some o) : e.root f = some (kept w c.cls.name f o) := by
  obtain ⟨v, hr, h1, h2, _⟩ := field_of hc hf hx h
  rw [hr, ← formOf_kept]
  congr 1
  rw [argument] at ho
  cases hk : kw (exportName f) with
  | some q =>
    rw [hk] at ho
    cases ho
    exact strip_ev (means_key hk (fun _ hm => absurd hm List.not_mem_nil)) f v h1
  | none =>
    rw [hk] at ho
    refine strip_ev (means_key ho ?_) f v h2
    intro j hj
    rw [List.mem_singleton.1 hj]
    exact hk

def defaultOk (c : Kind) (_ : Sym) (s : SEnt) : Bool :=
  c.declared.all fun p => !decide (p.1 ∈ c.fields) || decide (Excepted c p.1) || match s.field c p.1 with
    | none => false
    | some v => decide (strip none (some p.2) [exportName p.1, p.1] p.1 v = some (formOf c.cls.name p.1))

theorem default_ok : checkAll defaultOk = true := by decide +kernel

/-- A parameter that is left out counts as if its default had been given.  Missing: as for `C84_given_partial`. -/
theorem C84_default_partial {c : Kind} (hc : c ∈ kinds) {f : String} {d : Obj} (hd : (f, d) ∈ c.declared) (hf : f ∈ c.fields) (hx : ¬Excepted c f)
    {w : World} {kw : Kw} {e : Ent} (h : construct w c kw = .ok e) (ho : argument kw f = none) : e.root f = some (kept w c.cls.name f d) := by
  obtain ⟨v, hr, _, _, _, n, s, hs, hv⟩ := field_of hc hf hx h
  obtain ⟨n', s', hs', hq⟩ := of_checkAll default_ok hc
  rw [hs] at hs'
  cases hs'
  have := List.all_eq_true.1 hq (f, d) hd
  simp only [hf, decide_true, Bool.not_true, hx, decide_false, Bool.false_or, hv, decide_eq_true_eq] at this
  rw [hr, ← formOf_kept]
  exact congrArg some (strip_ev (means_lit (argument_none ho)) f v this)

/-- A field depends on its own argument only: two calls that agree on it give the same object, whatever else they are given.  With no argument
at all it is the default, the same for all calls up to objects newly made.  Missing: as for `C84_given_partial`. -/
theorem C84_separate_partial {c : Kind} (hc : c ∈ kinds) {f : String} (hf : f ∈ c.fields) (hx : ¬Excepted c f) {w : World} {kw kw' : Kw} {e e' : Ent}
    (h : construct w c kw = .ok e) (h' : construct w c kw' = .ok e') (hk : kw (exportName f) = kw' (exportName f)) (hk' : kw f = kw' f) :
    e.root f = e'.root f := by
  obtain ⟨v, hr, _, _, hcl, n, s, hs, hv⟩ := field_of hc hf hx h
  obtain ⟨v', hr', _, _, _, n', s', hs', hv'⟩ := field_of hc hf hx h'
  rw [hs] at hs'
  cases hs'
  rw [hv] at hv'
  cases hv'
  rw [hr, hr']
  refine congrArg some (closed_ev ?_ v hcl)
  intro k hm
  simp only [List.mem_cons, List.not_mem_nil, or_false] at hm
  rcases hm with rfl | rfl
  · exact hk
  · exact hk'

/-- The names that are taken by parameters of `Entity` and kept elsewhere. -/
def reserved : List String := ["name", "quality", "position", "tile_position", "id", "validate", "validate_assignment", "entity_number"]

def extraOk (c : Kind) (_ : Sym) (s : SEnt) : Bool :=
  (s.fields.all fun p => decide (p.1 ∈ c.fields)) &&
  (s.base.known.all fun p => decide (p.1 ∈ reserved) || decide (p.1 ∈ c.declared.map Prod.fst)) &&
  (s.base.hidden.all fun k => decide (k ∈ reserved) || decide (k ∈ c.declared.map Prod.fst))

theorem extra_ok : checkAll extraOk = true := by decide +kernel

theorem lookup_none_of {α : Type} {l : List (String × α)} {k : String} (h : ∀ p ∈ l, p.1 ≠ k) : l.lookup k = none := by
  rw [List.lookup_eq_none_iff]
  intro p hp
  have := h p hp
  simpa using fun hc : k = p.1 => this hc.symm

/-- Keywords that the class does not know are kept in the model, and nothing else turns up there. -/
theorem C84_extra {c : Kind} (hc : c ∈ kinds) {k : String} (hf : k ∉ c.fields) (hd : k ∉ c.declared.map Prod.fst) (hr : k ∉ reserved)
    {w : World} {kw : Kw} {e : Ent} (h : construct w c kw = .ok e) : e.root k = (kw k).map (w.coerce k) := by
  obtain ⟨n, s, hs, hq⟩ := of_checkAll extra_ok hc
  obtain ⟨_, e₀, hrep, _, _, _, hroot⟩ := described hc hs h
  simp only [extraOk, Bool.and_eq_true, List.all_eq_true, decide_eq_true_eq, Bool.or_eq_true] at hq
  obtain ⟨⟨h1, h2⟩, h3⟩ := hq
  have hcf : k ≠ "chunk_filter" ∨ c.cls.name ≠ "AsteroidCollector" := by
    by_cases hn : c.cls.name = "AsteroidCollector"
    · left
      rintro rfl
      have : ∀ c ∈ kinds, c.cls.name = "AsteroidCollector" → "chunk_filter" ∈ c.fields := by decide +kernel
      exact hf (this c hc hn)
    · exact .inr hn
  rw [hroot k hcf]
  obtain ⟨kwE, hE, hb⟩ := hrep.base
  have hlk : s.fields.lookup k = none := lookup_none_of (fun p hp hpk => hf (by rw [← hpk]; exact h1 p hp))
  rw [hb k, hlk]
  have hkey : c.key k = k := if_neg hf
  have hres : ¬(k ∈ ["name", "quality", "entity_number"] ∨ c.key k ∈ ["name", "quality", "entity_number"]) := by
    rw [hkey]
    intro hm
    simp only [or_self] at hm
    apply hr
    simp only [List.mem_cons, List.not_mem_nil, or_false] at hm
    rcases hm with rfl | rfl | rfl <;> decide
  simp only []
  rw [build_root_other w c kwE k hres, hkey]
  have hrest : entityInit.rest kwE k = kwE k := by
    rw [Layer.rest, if_neg]
    intro ha
    have : k ∈ ["name", "quality", "tile_position", "id", "validate", "validate_assignment"] := (any_iff entityInit k).1 ha
    apply hr
    simp only [List.mem_cons, List.not_mem_nil, or_false] at this
    rcases this with rfl | rfl | rfl | rfl | rfl | rfl <;> decide
  have hget : kwE k = kw k := by
    rw [hE k, SKw.get, lookup_none_of]
    · simp only []
      rw [if_neg]
      · rfl
      · intro hm
        rcases h3 k hm with h | h
        · exact hr h
        · exact hd h
    · intro p hp hpk
      rcases h2 p hp with h | h
      · exact hr (hpk ▸ h)
      · exact hd (hpk ▸ h)
  rw [hrest, hget]
  cases kw k with
  | some o => rfl
  | none => exact if_neg hf

def restOk (c : Kind) (n : Sym) (s : SEnt) : Bool :=
  decide (s.position = .present (.pick "position" (.lit .none))) && decide (s.tile = .pick "tile_position" (.lit (.const "(0, 0)"))) &&
  decide (s.mode = .pick "validate_assignment" (.lit (.const "ValidationMode.STRICT"))) &&
  decide (s.inst.lookup "id" = some (.pick "id" (.lit .none))) &&
  decide (c.declared.lookup "name" ≠ some .none) &&
  decide (n = .pick "name" (.lit ((c.declared.lookup "name").getD .none)))

theorem rest_ok : checkAll restOk = true := by decide +kernel

/-- The entity is put at `position` if that is given and not `None`, and otherwise at `tile_position`, by default the origin. -/
theorem C84_place {c : Kind} (hc : c ∈ kinds) {w : World} {kw : Kw} {e : Ent} (h : construct w c kw = .ok e) :
    (∀ o, kw "position" = some o → o ≠ .none → e.place = .position o) ∧
    ((kw "position" = none ∨ kw "position" = some .none) → e.place = .tile ((kw "tile_position").getD (.const "(0, 0)"))) := by
  obtain ⟨n, s, hs, hq⟩ := of_checkAll rest_ok hc
  obtain ⟨_, e₀, hrep, _, hp, _, _⟩ := described hc hs h
  simp only [restOk, Bool.and_eq_true, decide_eq_true_eq] at hq
  obtain ⟨⟨⟨⟨⟨h1, h2⟩, _⟩, _⟩, _⟩, _⟩ := hq
  rw [hp, hrep.place, h1, h2]
  constructor
  · intro o ho hn
    simp only [SGet.ev, Sym.ev, ho, Option.getD_some, placeOf]
  · rintro (ho | ho) <;> simp only [SGet.ev, Sym.ev, ho, Option.getD_none, Option.getD_some, placeOf]

/-- The mode of validation is the one given, by default `STRICT`, and the id is the one given, by default none. -/
theorem C84_mode {c : Kind} (hc : c ∈ kinds) {w : World} {kw : Kw} {e : Ent} (h : construct w c kw = .ok e) :
    e.mode = (kw "validate_assignment").getD (.const "ValidationMode.STRICT") ∧ e.inst "id" = some ((kw "id").getD .none) := by
  obtain ⟨n, s, hs, hq⟩ := of_checkAll rest_ok hc
  obtain ⟨_, e₀, hrep, hm, _, hi, _⟩ := described hc hs h
  simp only [restOk, Bool.and_eq_true, decide_eq_true_eq] at hq
  obtain ⟨⟨⟨⟨⟨_, _⟩, h3⟩, h4⟩, _⟩, _⟩ := hq
  refine ⟨by rw [hm, hrep.mode, h3]; rfl, ?_⟩
  rw [hi, hrep.inst, h4]
  rfl

/-- Constructing fails exactly if the name is `None`, with a `DataFormatError`; nothing else is looked at.  Missing: asteroid collectors, which
validate their chunks as well (`C84_collector`). -/
theorem C84_works_partial {c : Kind} (hc : c ∈ kinds) (hn : c.cls.name ≠ "AsteroidCollector") (w : World) (kw : Kw) :
    (kw "name" ≠ some .none → ∃ e, construct w c kw = .ok e) ∧ (kw "name" = some .none → construct w c kw = .error .dataFormat) := by
  obtain ⟨n, s, hs, hq⟩ := of_checkAll rest_ok hc
  simp only [restOk, Bool.and_eq_true, decide_eq_true_eq] at hq
  obtain ⟨⟨_, h5⟩, h6⟩ := hq
  have hev : n.ev w kw = (kw "name").getD ((c.declared.lookup "name").getD .none) := by rw [h6]; rfl
  have hd : (c.declared.lookup "name").getD .none ≠ .none := by
    cases hl : c.declared.lookup "name" with
    | some d => rw [hl] at h5; exact fun hc => h5 (congrArg some hc)
    | none =>
      have : ∀ c ∈ kinds, c.declared.lookup "name" ≠ none := by decide +kernel
      exact absurd hl (this c hc)
  rw [construct_early hc hn]
  rcases sinit_rep (w := w) (c := c) c.earlyLayers (start_rep w kw) hs with ⟨hne, he⟩ | ⟨hne, e, he, _⟩
  · refine ⟨?_, fun _ => he⟩
    intro hk
    rw [hev] at hne
    cases hkn : kw "name" with
    | none => rw [hkn] at hne; exact absurd hne hd
    | some o => rw [hkn] at hne hk; exact absurd (congrArg some hne) hk
  · refine ⟨fun _ => ⟨e, he⟩, ?_⟩
    intro hk
    rw [hev, hk] at hne
    exact absurd rfl hne

/-- Asteroid collectors: the chunks are assigned last, with validation on unless the mode is `NONE`. -/
theorem C84_collector {c : Kind} (hc : c ∈ kinds) (hn : c.cls.name = "AsteroidCollector") (w : World) (kw : Kw) (hk : kw "name" ≠ some .none) :
    let o := (kw "chunk_filter").getD (.shared "AsteroidCollector" "chunk_filter" "[]")
    let off := w.isOff ((kw "validate_assignment").getD (.const "ValidationMode.STRICT"))
    (off = true → ∃ e, construct w c kw = .ok e ∧ e.root "chunk_filter" = some o) ∧
    (off = false → ∀ x, w.check "chunk_filter" o = .ok x → ∃ e, construct w c kw = .ok e ∧ e.root "chunk_filter" = some x) ∧
    (off = false → ∀ x, w.check "chunk_filter" o = .error x → construct w c kw = .error x) := by
  intro o off
  obtain ⟨n, s, hs, hq⟩ := of_checkAll rest_ok hc
  simp only [restOk, Bool.and_eq_true, decide_eq_true_eq] at hq
  obtain ⟨⟨⟨⟨_, h3⟩, _⟩, h5⟩, h6⟩ := hq
  have hdn : ∀ c ∈ kinds, c.cls.name = "AsteroidCollector" → c.declared.lookup "chunk_filter" = some (.shared "AsteroidCollector" "chunk_filter" "[]") := by
    decide +kernel
  have hname : n.ev w kw ≠ .none := by
    have : ∀ c ∈ kinds, (c.declared.lookup "name").getD .none ≠ .none := by decide +kernel
    rw [h6]
    show (kw "name").getD _ ≠ .none
    cases hkn : kw "name" with
    | none => exact this c hc
    | some q => exact fun hq => hk (by rw [hkn]; exact congrArg some hq)
  rcases sinit_rep (w := w) (c := c) c.earlyLayers (start_rep w kw) hs with ⟨hne, _⟩ | ⟨_, e, he, hrep⟩
  · exact absurd hne hname
  · have hm : e.mode = (kw "validate_assignment").getD (.const "ValidationMode.STRICT") := by rw [hrep.mode, h3]; rfl
    rw [construct_late hc hn, he]
    simp only [hdn c hc hn, Option.getD_some, store, hm]
    refine ⟨?_, ?_, ?_⟩
    · intro ho
      have ho' : w.isOff ((kw "validate_assignment").getD (.const "ValidationMode.STRICT")) = true := ho
      simp only [ho', if_true]
      exact ⟨_, rfl, by simp only [upd, if_true]; rfl⟩
    · intro ho x hx
      have ho' : w.isOff ((kw "validate_assignment").getD (.const "ValidationMode.STRICT")) = false := ho
      have hx' : w.check "chunk_filter" ((kw "chunk_filter").getD (.shared "AsteroidCollector" "chunk_filter" "[]")) = .ok x := hx
      simp only [ho', hx']
      exact ⟨_, rfl, by simp only [upd, if_true]⟩
    · intro ho x hx
      have ho' : w.isOff ((kw "validate_assignment").getD (.const "ValidationMode.STRICT")) = false := ho
      have hx' : w.check "chunk_filter" ((kw "chunk_filter").getD (.shared "AsteroidCollector" "chunk_filter" "[]")) = .error x := hx
      simp only [ho', hx']
      rfl

/-- Nothing given to a constructor is ever validated, again with the exception of asteroid collectors: two programs that differ in their checks
only build the same entities and fail on the same calls. -/
theorem C84_unchecked_partial {c : Kind} (hc : c ∈ kinds) (hn : c.cls.name ≠ "AsteroidCollector") (w : World)
    (check : String → Obj → Except PyErr Obj) (kw : Kw) : construct { w with check := check } c kw = construct w c kw := by
  obtain ⟨n, s, hs, _⟩ := of_checkAll rest_ok hc
  have hev : ∀ v : Sym, v.ev { w with check := check } kw = v.ev w kw := by
    intro v
    induction v with
    | lit o => rfl
    | new a t => rfl
    | own a => rfl
    | pick k s ih => simp only [Sym.ev, ih]
    | pickMade k f s ih => simp only [Sym.ev, ih]
    | orElse s d ih ih' => simp only [Sym.ev, ih, ih']
    | made f s ih => simp only [Sym.ev, ih]
    | typeOr k s ih => simp only [Sym.ev, ih]
  rw [construct_early hc hn, construct_early hc hn]
  rcases sinit_rep (w := w) (c := c) c.earlyLayers (start_rep w kw) hs with ⟨h1, he⟩ | ⟨h1, e, he, hr⟩ <;>
    rcases sinit_rep (w := { w with check := check }) (c := c) c.earlyLayers (start_rep _ kw) hs with ⟨h2, he'⟩ | ⟨h2, e', he', hr'⟩
  · rw [he, he']
  · exact absurd h1 (hev n ▸ h2)
  · exact absurd (hev n ▸ h2) h1
  · rw [he, he']
    congr 1
    obtain ⟨kwE, hE, hb⟩ := hr.base
    obtain ⟨kwE', hE', hb'⟩ := hr'.base
    have hg : ∀ g : SGet, g.ev { w with check := check } kw = g.ev w kw := by
      intro g
      cases g <;> simp only [SGet.ev, hev]
    have hk : kwE' = kwE := funext fun k => by rw [hE k, hE' k, hg]
    subst hk
    have h1 : e'.root = e.root := by
      funext f
      rw [hb f, hb' f]
      cases s.fields.lookup f with
      | some v => simp only [hev]
      | none => rfl
    have h2 : e'.inst = e.inst := by
      funext f
      rw [hr.inst f, hr'.inst f]
      cases s.inst.lookup f with
      | some v => simp only [Option.map_some, hev]
      | none => rfl
    have h3 : e'.place = e.place := by rw [hr.place, hr'.place, hg, hev]
    have h4 : e'.mode = e.mode := by rw [hr.mode, hr'.mode, hev]
    cases e
    cases e'
    simp only at h1 h2 h3 h4
    subst h1 h2 h3 h4
    rfl

/-- The only attribute that is assigned with validation on is of the style `checked`: after the statements of asteroid collectors have been
taken out, all classes run with validation off throughout. -/
theorem C84_late {c : Kind} (hc : c ∈ kinds) : c.sym.isSome = true ∧ (c.cls.name = "AsteroidCollector" →
    c.attrs.find? (fun b => decide (b.name = "chunk_filter")) = some ⟨"chunk_filter", ["chunk_filter"], ["chunk_filter"], .checked⟩) := by
  refine ⟨?_, ?_⟩
  · obtain ⟨n, s, hs, _⟩ := of_checkAll rest_ok hc
    rw [hs]
    rfl
  · intro hn
    have h := List.all_eq_true.1 late_ok c hc
    rw [lateOk] at h
    cases hl : c.layers with
    | nil => simp [hl] at h
    | cons l r =>
      simp only [hl, isCollector, hn, decide_true, if_true, Bool.and_eq_true, decide_eq_true_eq] at h
      exact h.2

/-- Without an argument the tags of an entity are one and the same dictionary for all entities of the class ever constructed, but for two
classes that make a new one. -/
theorem C84_tags {c : Kind} (hc : c ∈ kinds) {w : World} {kw : Kw} {e : Ent} (h : construct w c kw = .ok e) (hk : kw "tags" = none) :
    e.root "tags" = some (if c.cls.name = "ConstantCombinator" ∨ c.cls.name = "ElectricPole" then .new w.call "tags" "{}"
      else .shared c.cls.name "tags" "{}") := by
  have hq : ∀ c ∈ kinds, "tags" ∈ c.fields ∧ ("tags", if c.cls.name = "ConstantCombinator" ∨ c.cls.name = "ElectricPole" then .none
      else .shared c.cls.name "tags" "{}") ∈ c.declared := by decide +kernel
  have hx : ¬Excepted c "tags" := by
    rintro (hx | ⟨_, hx | hx⟩) <;> exact absurd hx (by decide)
  rw [C84_default_partial hc (hq c hc).2 (hq c hc).1 hx h (by rw [argument]; exact (by rw [show exportName "tags" = "tags" from rfl, hk]))]
  simp only [kept]
  split <;> simp_all [converted]

/-! ### Where the claim fails -/

theorem lamp_mem : lamp ∈ kinds := by
  unfold kinds
  repeat (first | with_reducible exact List.mem_cons_self | apply List.mem_cons_of_mem)

theorem collector_mem : asteroidCollector ∈ kinds := by
  unfold kinds
  repeat (first | with_reducible exact List.mem_cons_self | apply List.mem_cons_of_mem)

theorem belt_mem : undergroundBelt ∈ kinds := by
  unfold kinds
  repeat (first | with_reducible exact List.mem_cons_self | apply List.mem_cons_of_mem)

/-- A world in which nothing is changed by validation. -/
def plainWorld : World where
  coerce := fun _ o => o
  check := fun _ o => .ok o
  own := fun a => .const a
  off := fun _ => false
  isInput := fun o => decide (o = .const "'input'")
  call := 1

/-- Keywords from a list. -/
def kws (l : List (String × Obj)) : Kw := fun k => l.lookup k

/-- What a field holds after construction. -/
def after (w : World) (c : Kind) (kw : Kw) (f : String) : Option Obj :=
  match construct w c kw with
  | .ok e => e.root f
  | .error _ => none

/-- Two entities made by different calls with no arguments share objects that can be changed: the default tags of two lamps are one
dictionary, so that a tag put on one lamp is on the other as well.  Same for the default items of containers and for other fields. -/
theorem C84_shared_refuted : ¬∀ c ∈ kinds, ∀ (w w' : World) (e e' : Ent) (f : String) (cls p t : String), w.call ≠ w'.call →
    construct w c (kws []) = .ok e → construct w' c (kws []) = .ok e' → e.root f = e'.root f → e.root f ≠ some (.shared cls p t) := by
  intro h
  cases h1 : construct plainWorld lamp (kws []) with
  | error x => exact absurd h1 (by
      obtain ⟨e, he⟩ := (C84_works_partial (c := lamp) lamp_mem (by decide) plainWorld (kws [])).1 (by decide)
      rw [he]
      exact nofun)
  | ok e =>
    cases h2 : construct { plainWorld with call := 2 } lamp (kws []) with
    | error x => exact absurd h2 (by
        obtain ⟨e, he⟩ := (C84_works_partial (c := lamp) lamp_mem (by decide) { plainWorld with call := 2 } (kws [])).1 (by decide)
        rw [he]
        exact nofun)
    | ok e' =>
      have t1 := C84_tags (c := lamp) lamp_mem h1 rfl
      have t2 := C84_tags (c := lamp) lamp_mem h2 rfl
      exact h lamp lamp_mem plainWorld { plainWorld with call := 2 } e e' "tags" "Lamp" "tags" "{}" (by decide) h1 h2
        (by rw [t1, t2]; rfl) (by rw [t1]; rfl)

/-- The chunk filter of an asteroid collector given by the key under which it is exported is lost: the default, an empty list, is stored. -/
theorem C84_chunks_refuted : ¬∀ c ∈ kinds, ∀ f ∈ c.fields, f ≠ "position" → ∀ (w : World) (kw : Kw) (e : Ent) (o : Obj),
    construct w c kw = .ok e → argument kw f = some o → e.root f = some (kept w c.cls.name f o) := by
  intro h
  obtain ⟨e, he, hr⟩ := (C84_collector (c := asteroidCollector) collector_mem (by decide) plainWorld (kws [("chunk-filter", .given 7)])
    (by decide)).2.1 (by decide) _ rfl
  have := h asteroidCollector collector_mem "chunk_filter" (by decide +kernel) (by decide) plainWorld _ e (.given 7) he (by decide)
  rw [hr] at this
  exact absurd this (by decide)

/-- The argument `result_inventory` of an asteroid collector is accepted and dropped. -/
theorem C84_dropped_refuted : ¬∀ c ∈ kinds, ∀ p ∈ c.declared.map Prod.fst, p ∈ c.fields → p ≠ "position" → ∀ (w : World) (kw : Kw) (e : Ent) (o : Obj),
    construct w c kw = .ok e → kw p = some o → kw (exportName p) = some o ∨ kw (exportName p) = none → e.root p = some (kept w c.cls.name p o) := by
  intro h
  have hdrop : after plainWorld asteroidCollector (kws [("result_inventory", .given 7)]) "result_inventory" =
      some (.new 1 "result_inventory" "default") := by decide +kernel
  rw [after] at hdrop
  split at hdrop
  · rename_i e he
    have := h asteroidCollector collector_mem "result_inventory" (by decide +kernel) (by decide +kernel) (by decide) plainWorld _ e (.given 7) he
      (by decide) (.inr (by decide))
    rw [hdrop] at this
    exact absurd this (by decide)
  · cases hdrop

/-- Cargo bays, fusion reactors, half diagonal rails and rail supports cannot be constructed at all: the classes have no base class, and the
constructor of `object` takes no arguments. -/
theorem C84_orphan_refuted : orphans.length = 4 ∧ ∀ l ∈ orphans, ∀ (w : World) (kw : Kw), constructOrphan l w kw = .error .typeError := by
  refine ⟨rfl, ?_⟩
  intro l _ w kw
  rfl

/-- The requested items are a list, to which requests are appended; by default they are a dictionary in five classes, so that the first
request for such an entity raises an `AttributeError`. -/
theorem C84_items_refuted : (kinds.filter fun c => decide ("items" ∈ c.fields) && decide (after plainWorld c (kws []) "items" =
    some (.shared c.cls.name "items" "{}"))).map (fun c => c.cls.name) =
    ["Car", "ElectricTurret", "FluidTurret", "SpiderVehicle", "Turret"] := by
  decide +kernel

/-- Arguments that a class declares without having a settable attribute of that name. -/
theorem C84_names_refuted : (kinds.flatMap fun c => (c.declared.map Prod.fst).filterMap fun p =>
    if p ∈ reserved ∨ p ∈ c.attrs.map Attr.name then none else some (c.cls.name, p)) =
    [("AgriculturalTower", "direction"), ("AgriculturalTower", "override_stack_size"), ("AgriculturalTower", "items"),
     ("ArtilleryTurret", "artillery_auto_targeting"), ("ArtilleryWagon", "grid"), ("ArtilleryWagon", "artillery_auto_targeting"),
     ("AsteroidCollector", "result_inventory"), ("Car", "grid"), ("Car", "trunk_inventory"), ("Car", "ammo_inventory"), ("CargoWagon", "grid"),
     ("ConstantCombinator", "connections"), ("FluidWagon", "enable_logistics_while_moving"), ("FluidWagon", "grid"), ("Locomotive", "grid"),
     ("SpiderVehicle", "grid"), ("SpiderVehicle", "trunk_inventory"), ("SpiderVehicle", "ammo_inventory")] := by
  decide +kernel

/-- The direction of an underground belt given twice, as `io_type` and as `type`, is the one of `type` even though `io_type` says otherwise. -/
theorem C84_both_refuted : ¬∀ c ∈ kinds, ∀ f ∈ c.fields, ¬Excepted c f → ∀ (w : World) (kw : Kw) (e : Ent) (o : Obj),
    construct w c kw = .ok e → kw f = some o → e.root f = some (kept w c.cls.name f o) := by
  intro h
  cases he : construct plainWorld undergroundBelt (kws [("io_type", .const "'output'"), ("type", .const "'input'")]) with
  | error x => exact absurd he (by
      obtain ⟨e, he⟩ := (C84_works_partial (c := undergroundBelt) belt_mem (by decide) plainWorld
        (kws [("io_type", .const "'output'"), ("type", .const "'input'")])).1 (by decide)
      rw [he]
      exact nofun)
  | ok e =>
    have h1 := h undergroundBelt belt_mem "io_type" (by decide +kernel) (by decide) plainWorld _ e _ he rfl
    have h2 := C84_given_partial (c := undergroundBelt) belt_mem (f := "io_type") (by decide +kernel) (by decide) he
      (o := .const "'input'") rfl
    rw [h1] at h2
    exact absurd h2 (by decide)

/-- A name that belongs to no entity of the class is accepted, though the documentation of `Entity.__init__` promises an `InvalidEntityError`;
so is a keyword that no class knows, for which a warning is promised. -/
theorem C84_invalid_refuted : ¬∀ (known : Obj → Prop), (∃ o, ¬known o ∧ o ≠ .none) → ∀ c ∈ kinds, ∀ (w : World) (kw : Kw) (o : Obj), kw "name" = some o → ¬known o →
    ∃ x, construct w c kw = .error x := by
  intro h
  obtain ⟨x, hx⟩ := h (fun o => o = .none) ⟨.given 0, by decide, by decide⟩ lamp lamp_mem plainWorld (kws [("name", .given 7)]) (.given 7) rfl (by decide)
  obtain ⟨e, he⟩ := (C84_works_partial (c := lamp) lamp_mem (by decide) plainWorld (kws [("name", .given 7)])).1 (by decide)
  rw [he] at hx
  cases hx

/-! ### Cases -/

/-- Arguments for the examples. -/
def someArgs : Kw := kws [("name", .const "'small-lamp'"), ("position", .given 1), ("always_on", .given 2), ("color", .given 3), ("colour", .given 4),
  ("id", .given 5), ("type", .given 6), ("validate_assignment", .const "ValidationMode.NONE")]

/-- A world in which conversion shows. -/
def markWorld : World := { plainWorld with coerce := fun f o => .made f o, check := fun _ o => if o = .given 9 then .error .valueError else .ok (.made "checked" o) }

theorem someArgs_ok {c : Kind} (hc : c ∈ kinds) (hn : c.cls.name ≠ "AsteroidCollector") : ∃ e, construct markWorld c someArgs = .ok e :=
  (C84_works_partial hc hn markWorld someArgs).1 (by decide)

-- C84_given_partial, C84_works_partial: the object itself for `always_on`, a converted one for `color`
/-- The fields hold what is given by exported name, or else by their own, or else what is declared, before the constructors assign anything. -/
theorem C84_built {c : Kind} (hc : c ∈ kinds) {f : String} (hf : f ∈ c.fields) (hr : f ∉ reserved) (w : World) (kw : Kw) :
    (build w c kw).root f = some (match argument kw f with
      | some o => w.coerce f o
      | none => .new w.call f "default") := by
  have hk : c.key f = exportName f := by
    have hall : kinds.all (fun c => c.fields.all fun f => decide (c.key f = exportName f)) = true := by decide +kernel
    have := List.all_eq_true.1 (List.all_eq_true.1 hall c hc) f hf
    simpa using this
  have hrest : ∀ k, k ∉ reserved → entityInit.rest kw k = kw k := by
    intro k hk
    have : entityInit.params.any (fun p => decide (p.1 = k)) = false := by
      simp only [reserved, List.mem_cons, List.not_mem_nil, or_false, not_or] at hk
      simp [entityInit, eq_comm, hk]
    simp [Layer.rest, this]
  have he : exportName f ∉ reserved := by
    unfold exportName
    split
    · decide
    split
    · decide
    split
    · decide
    split
    · decide
    · exact hr
  have hf' : f ∈ fieldNames c.cls.fresh := hf
  have r1 := hrest _ he
  have r2 := hrest _ hr
  simp only [reserved, List.mem_cons, List.not_mem_nil, or_false, not_or] at he hr
  simp only [build, hk, r1, r2, he, hr, if_false, argument, if_pos hf']
  cases kw (exportName f) with
  | some o => rfl
  | none => cases kw f <;> rfl

example : (build markWorld undergroundBelt someArgs).root "io_type" = some (.made "io_type" (.given 6)) ∧
    (build plainWorld asteroidCollector (kws [("chunk-filter", .given 7)])).root "chunk_filter" = some (.given 7) := by decide +kernel

example : ∃ e, construct markWorld lamp someArgs = .ok e ∧ e.root "always_on" = some (.given 2) ∧ e.root "color" = some (.made "color" (.given 3)) := by
  obtain ⟨e, he⟩ := someArgs_ok lamp_mem (by decide)
  exact ⟨e, he, C84_given_partial lamp_mem (f := "always_on") (by decide +kernel) (by decide) he rfl,
    C84_given_partial lamp_mem (f := "color") (by decide +kernel) (by decide) he rfl⟩

-- C84_given_partial by the exported name
example : ∃ e, construct markWorld undergroundBelt someArgs = .ok e ∧ e.root "io_type" = some (.given 6) := by
  obtain ⟨e, he⟩ := someArgs_ok belt_mem (by decide)
  exact ⟨e, he, C84_given_partial belt_mem (f := "io_type") (by decide +kernel) (by decide) he rfl⟩

-- C84_default_partial
example : ∃ e, construct markWorld lamp (kws []) = .ok e ∧ e.root "always_on" = some (.const "False") := by
  obtain ⟨e, he⟩ := (C84_works_partial lamp_mem (by decide) markWorld (kws [])).1 (by decide)
  exact ⟨e, he, C84_default_partial lamp_mem (f := "always_on") (d := .const "False") (by decide +kernel) (by decide +kernel) (by decide) he rfl⟩

-- C84_separate_partial: the color does not depend on whether the lamp is always on
example : ∃ e e', construct markWorld lamp someArgs = .ok e ∧ construct markWorld lamp (kws [("color", .given 3)]) = .ok e' ∧
    e.root "color" = e'.root "color" ∧ e.root "always_on" ≠ e'.root "always_on" := by
  obtain ⟨e, he⟩ := someArgs_ok lamp_mem (by decide)
  obtain ⟨e', he'⟩ := (C84_works_partial lamp_mem (by decide) markWorld (kws [("color", .given 3)])).1 (by decide)
  refine ⟨e, e', he, he', C84_separate_partial lamp_mem (f := "color") (by decide +kernel) (by decide) he he' rfl rfl, ?_⟩
  rw [C84_given_partial lamp_mem (f := "always_on") (by decide +kernel) (by decide) he rfl,
    C84_default_partial lamp_mem (f := "always_on") (d := .const "False") (by decide +kernel) (by decide +kernel) (by decide) he' rfl]
  decide

-- C84_extra, C84_place, C84_mode
example : ∃ e, construct markWorld lamp someArgs = .ok e ∧ e.root "colour" = some (.made "colour" (.given 4)) ∧ e.place = .position (.given 1) ∧
    e.mode = .const "ValidationMode.NONE" ∧ e.inst "id" = some (.given 5) := by
  obtain ⟨e, he⟩ := someArgs_ok lamp_mem (by decide)
  exact ⟨e, he, C84_extra lamp_mem (by decide +kernel) (by decide +kernel) (by decide) he, (C84_place lamp_mem he).1 _ rfl (by decide),
    (C84_mode lamp_mem he).1, (C84_mode lamp_mem he).2⟩

-- C84_place: without a position
example : ∃ e, construct markWorld lamp (kws [("position", .none), ("tile_position", .given 3)]) = .ok e ∧ e.place = .tile (.given 3) := by
  obtain ⟨e, he⟩ := (C84_works_partial lamp_mem (by decide) markWorld (kws [("position", .none), ("tile_position", .given 3)])).1 (by decide)
  exact ⟨e, he, (C84_place lamp_mem he).2 (.inr rfl)⟩

-- C84_works_partial: no name
example : construct markWorld lamp (kws [("name", .none)]) = .error .dataFormat :=
  (C84_works_partial lamp_mem (by decide) markWorld (kws [("name", .none)])).2 rfl

-- C84_collector, C84_late: valid chunks, invalid ones, and no validation
example : (∃ e, construct markWorld asteroidCollector (kws [("chunk_filter", .given 8)]) = .ok e ∧ e.root "chunk_filter" = some (.made "checked" (.given 8))) ∧
    construct markWorld asteroidCollector (kws [("chunk_filter", .given 9)]) = .error .valueError ∧
    (∃ e, construct markWorld asteroidCollector (kws [("chunk_filter", .given 9), ("validate_assignment", .const "ValidationMode.NONE")]) = .ok e ∧
      e.root "chunk_filter" = some (.given 9)) :=
  ⟨(C84_collector collector_mem (by decide) markWorld _ (by decide)).2.1 (by decide) _ rfl,
   (C84_collector collector_mem (by decide) markWorld _ (by decide)).2.2 (by decide) _ rfl,
   (C84_collector collector_mem (by decide) markWorld _ (by decide)).1 (by decide)⟩

-- C84_unchecked_partial: a check that rejects everything changes nothing
example : construct { markWorld with check := fun _ _ => .error .valueError } lamp someArgs = construct markWorld lamp someArgs :=
  C84_unchecked_partial lamp_mem (by decide) markWorld _ someArgs

-- C84_tags
example : ∃ e, construct markWorld lamp someArgs = .ok e ∧ e.root "tags" = some (.shared "Lamp" "tags" "{}") := by
  obtain ⟨e, he⟩ := someArgs_ok lamp_mem (by decide)
  exact ⟨e, he, C84_tags lamp_mem he rfl⟩

end Ctor
end Draftsman
