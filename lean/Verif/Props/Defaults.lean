import Verif.Model.Defaults
import Verif.Props.Ctor
import Mathlib.Tactic.SplitIfs
/-
C91: leaving out defaults loses nothing.
-/
namespace Draftsman
namespace Ctor
open Attr

/-- A symbolic value when some keywords are known to be missing. -/
def Sym.bare (skip : List String) : Sym → Sym
  | .pick k s => if k ∈ skip then s.bare skip else .pick k s
  | .pickMade k f s => if k ∈ skip then s.bare skip else .pickMade k f s
  | .typeOr k s => if k ∈ skip then s.bare skip else .typeOr k s
  | .orElse s d => match s.bare skip with
    | .lit .none => d.bare skip
    | .lit o => .lit o
    | .new a t => .new a t
    | _ => .orElse s d
  | .made f s => .made f (s.bare skip)
  | s => s

theorem bare_ev {w : World} {kw : Kw} {skip : List String} (h : ∀ k ∈ skip, kw k = none) : ∀ s : Sym, (s.bare skip).ev w kw = s.ev w kw := by
  intro s
  induction s with
  | lit o => rfl
  | new a t => rfl
  | own a => rfl
  | pick k s ih =>
    simp only [Sym.bare]
    split
    · rename_i hk
      rw [ih]; simp [Sym.ev, h k hk]
    · rfl
  | pickMade k f s ih =>
    simp only [Sym.bare]
    split
    · rename_i hk
      rw [ih]; simp [Sym.ev, h k hk]
    · rfl
  | typeOr k s ih =>
    simp only [Sym.bare]
    split
    · rename_i hk
      rw [ih]; simp [Sym.ev, h k hk]
    · rfl
  | orElse s d ihs ihd =>
    simp only [Sym.bare]
    split
    · rename_i e
      rw [e] at ihs
      rw [ihd]
      simp only [Sym.ev] at ihs ⊢
      simp [Ctor.orElse, ← ihs]
    · rename_i o ho e
      rw [e] at ihs
      simp only [Sym.ev] at ihs ⊢
      rw [← ihs, Ctor.orElse, if_neg (fun hh => ho (by rw [hh]))]
    · rename_i a t e
      rw [e] at ihs
      simp only [Sym.ev] at ihs ⊢
      rw [← ihs, Ctor.orElse, if_neg nofun]
    · rfl
  | made f s ih => simp only [Sym.bare, Sym.ev, ih]

/-- The text a value was made from. -/
def Sym.source : Sym → Option String
  | .lit .none => some "None"
  | .lit (.const t) => some t
  | .lit (.shared _ _ t) => some t
  | .new _ t => if t = "default" then none else some t
  | _ => none

theorem source_val {w : World} {c : Kind} {V : Type} (S : Sense w c V) {kw : Kw} {s : Sym} {t : String} (h : s.source = some t) :
    S.val (s.ev w kw) = S.text t := by
  cases s with
  | lit o =>
    cases o with
    | none => cases h; exact S.none
    | const x => cases h; exact S.const _
    | shared a p x => cases h; exact S.shared _ _ _
    | given n => cases h
    | new n a b => cases h
    | made a b => cases h
  | new a x =>
    simp only [Sym.source] at h
    split at h
    · cases h
    · rename_i hx
      cases h
      exact S.new _ _ _ hx
  | own a => cases h
  | pick k s => cases h
  | pickMade k f s => cases h
  | orElse s d => cases h
  | made f s => cases h
  | typeOr k s => cases h

/-- The fields for which a new entity does not hold the default of its format. -/
def oddFields : List (String × String) :=
  [("ArtilleryTurret", "items"), ("Car", "items"), ("ElectricTurret", "items"), ("FluidTurret", "items"), ("SpiderVehicle", "items"), ("Turret", "items"),
   ("ArtilleryWagon", "enable_logistics_while_moving"), ("AssemblingMachine", "recipe_quality"), ("CargoLandingPad", "request_filters"),
   ("SpacePlatformHub", "request_filters"), ("LogisticStorageContainer", "request_filters"), ("Inserter", "filters"), ("RocketSilo", "recipe"),
   ("SpiderVehicle", "automatic_targeting_parameters"), ("ElectricEnergyInterface", "buffer_size"), ("ElectricEnergyInterface", "power_production"),
   ("ElectricEnergyInterface", "power_usage")]

/-- The settings of an entity: its fields but for the name, which must be given, the place and the number. -/
def Setting (c : Kind) (f : String) : Prop := f ∈ c.fields ∧ ¬Excepted c f ∧ f ≠ "name" ∧ f ≠ "entity_number"

instance (c : Kind) (f : String) : Decidable (Setting c f) := by unfold Setting; infer_instance

def defaultIs (f : String) (d : String) : Sym → Bool
  | .new g t => if t = "default" then decide (g = f) else decide (t = d)
  | .made g s => decide (g = f) && match s.source with
    | some t => decide (t = d) || (decide (t = "{}") && decide (f ∈ modelFields))
    | none => false
  | s => decide (s.source = some d)

def agreeOk (c : Kind) (_ : Sym) (s : SEnt) : Bool :=
  c.fields.all fun f => !decide (Setting c f) || decide ((c.cls.name, f) ∈ oddFields) || match s.field c f, c.formatDefault f with
    | some v, some d => defaultIs f d (v.bare [exportName f, f])
    | _, _ => false

theorem agree_ok : checkAll agreeOk = true := by decide +kernel

/-- Exported names tell fields apart, and none is the plain name of another field. -/
def namesOk (c : Kind) : Bool :=
  c.fields.all fun f => decide (c.key f = exportName f) &&
    c.fields.all fun g => (!decide (exportName g = exportName f) || decide (g = f)) && (!decide (exportName g = f) || decide (g = f))

theorem names_ok : kinds.all namesOk = true := by decide +kernel

theorem default_val {w : World} {c : Kind} {V : Type} (S : Sense w c V) {f d : String} (hd : c.formatDefault f = some d) {s : Sym} {kw : Kw}
    (h : defaultIs f d s = true) : S.val (s.ev w kw) = S.text d := by
  have other : s.source = some d → S.val (s.ev w kw) = S.text d := fun h => source_val S h
  cases s with
  | new g t =>
    simp only [defaultIs] at h
    split at h
    · rename_i ht
      have hg : g = f := by simpa using h
      subst hg; subst ht
      exact S.dflt _ _ _ hd
    · rename_i ht
      have ht' : t = d := by simpa using h
      subst ht'
      exact S.new _ _ _ ht
  | made g s =>
    simp only [defaultIs, Bool.and_eq_true, decide_eq_true_eq] at h
    obtain ⟨rfl, h⟩ := h
    simp only [Sym.ev]
    rw [S.coerce]
    rcases e : s.source with _ | t
    · simp [e] at h
    · simp only [e, Bool.or_eq_true, Bool.and_eq_true, decide_eq_true_eq] at h
      rw [source_val S e]
      rcases h with rfl | ⟨rfl, hm⟩
      · exact S.keep _ _ hd
      · exact S.empty _ _ hm hd
  | lit o => exact other (by simpa [defaultIs] using h)
  | own a => exact other (by simpa [defaultIs] using h)
  | pick k s => exact other (by simpa [defaultIs] using h)
  | pickMade k g s => exact other (by simpa [defaultIs] using h)
  | orElse s d => exact other (by simpa [defaultIs] using h)
  | typeOr k s => exact other (by simpa [defaultIs] using h)

/-- C91: a setting that is not given has the default that its format declares.  Missing: the settings listed in `oddFields`, for which this is false
(`C91_odd`). -/
theorem C91_default_partial {c : Kind} (hc : c ∈ kinds) {f : String} (hf : Setting c f) (ho : (c.cls.name, f) ∉ oddFields) {w : World} {V : Type}
    (S : Sense w c V) {kw : Kw} {e : Ent} (h : construct w c kw = .ok e) (hk : argument kw f = none) :
    ∃ d o, c.formatDefault f = some d ∧ e.root f = some o ∧ S.val o = S.text d := by
  obtain ⟨v, hr, _, _, _, n, s, hs, hv⟩ := field_of hc hf.1 hf.2.1 h
  obtain ⟨n', s', hs', hq⟩ := of_checkAll agree_ok hc
  rw [hs] at hs'
  cases hs'
  have := List.all_eq_true.1 hq f hf.1
  simp only [hf, ho, decide_true, decide_false, Bool.not_true, Bool.false_or, hv] at this
  rcases hd : c.formatDefault f with _ | d
  · simp [hd] at this
  · simp only [hd] at this
    refine ⟨d, _, rfl, hr, ?_⟩
    rw [← bare_ev (argument_none hk) v]
    exact default_val S hd this

theorem key_find {c : Kind} (hc : c ∈ kinds) {f : String} (hf : f ∈ c.fields) :
    (fieldNames c.cls.fresh).find? (fun g => decide (c.key g = exportName f)) = some f ∧
    ((fieldNames c.cls.fresh).find? (fun g => decide (c.key g = f)) = some f ∨ (fieldNames c.cls.fresh).find? (fun g => decide (c.key g = f)) = none) := by
  have hn := List.all_eq_true.1 names_ok c hc
  have hk : ∀ g ∈ c.fields, c.key g = exportName g := by
    intro g hg
    have := List.all_eq_true.1 hn g hg
    simp only [Bool.and_eq_true, decide_eq_true_eq] at this
    exact this.1
  have hu : ∀ g ∈ c.fields, (exportName g = exportName f → g = f) ∧ (exportName g = f → g = f) := by
    intro g hg
    have := List.all_eq_true.1 hn f hf
    simp only [Bool.and_eq_true, decide_eq_true_eq, List.all_eq_true, Bool.or_eq_true, Bool.not_eq_true', decide_eq_false_iff_not] at this
    have := this.2 g hg
    exact ⟨fun e => this.1.resolve_left (fun h => h e), fun e => this.2.resolve_left (fun h => h e)⟩
  constructor
  · rcases e : (fieldNames c.cls.fresh).find? (fun g => decide (c.key g = exportName f)) with _ | g
    · have := List.find?_eq_none.1 e f hf
      simp [hk f hf] at this
    · have h1 := List.find?_some e
      have h2 : g ∈ c.fields := List.mem_of_find?_eq_some e
      rw [decide_eq_true_eq, hk g h2] at h1
      rw [(hu g h2).1 h1]
  · rcases e : (fieldNames c.cls.fresh).find? (fun g => decide (c.key g = f)) with _ | g
    · exact .inr rfl
    · have h1 := List.find?_some e
      have h2 : g ∈ c.fields := List.mem_of_find?_eq_some e
      rw [decide_eq_true_eq, hk g h2] at h1
      left; rw [(hu g h2).2 h1]

/-- What reaches the constructor for a field when the exported dictionary is read. -/
theorem argument_dump {c : Kind} (hc : c ∈ kinds) {f : String} (hf : f ∈ c.fields) {w : World} {V : Type} [DecidableEq V] (S : Sense w c V) (e : Ent) :
    argument (dump S e) f = match e.root f with
      | some o => if leftOut S f o then none else some o
      | none => none := by
  obtain ⟨h1, h2⟩ := key_find hc hf
  have a : dump S e (exportName f) = match e.root f with
      | some o => if leftOut S f o then none else some o
      | none => none := by
    simp only [dump, h1]
    cases e.root f <;> rfl
  have b : dump S e (exportName f) = none → dump S e f = none := by
    intro h
    rcases h2 with h2 | h2
    · rw [a] at h
      simp only [dump, h2]
      exact h
    · simp only [dump, h2]
  rw [argument]
  rcases x : dump S e (exportName f) with _ | o
  · simp only [b x]
    rw [← a, x]
  · simp only
    rw [← a, x]

theorem kept_val {w : World} {c : Kind} {V : Type} (S : Sense w c V) {f : String} {o : Obj} (hn : S.val o ≠ S.text "None")
    (hs : S.conv f (S.val o) = S.val o) : S.val (kept w c.cls.name f o) = S.val o := by
  have ho : o ≠ .none := by
    rintro rfl
    exact hn S.none
  unfold kept
  split_ifs <;> first | rfl | (rw [S.coerce]; exact hs)

/-- C91: an entity can be exported, whatever it holds, unless it is an electric energy interface. -/
theorem C91_exports {c : Kind} {w : World} {V : Type} [DecidableEq V] (S : Sense w c V) (e : Ent) (hc : c.cls.name ≠ "ElectricEnergyInterface") :
    toDict S e = .ok (dump S e) := by
  simp [toDict, delMissing, hc]

/-- C91: an electric energy interface cannot be exported exactly if one of its three numbers is `None` or missing and the game data give no default for it
either. -/
theorem C91_energy_fails {c : Kind} (hcn : c.cls.name = "ElectricEnergyInterface") {w : World} {V : Type} [DecidableEq V] (S : Sense w c V) (e : Ent) :
    toDict S e = .error .keyError ↔
      ∃ f ∈ ["buffer_size", "power_production", "power_usage"], (∀ o, e.root f = some o → S.val o = S.text "None") ∧
        S.val (w.own ("default_" ++ f)) = S.text "None" := by
  have key : toDict S e = .error .keyError ↔ delMissing S e = true := by
    unfold toDict
    split <;> simp_all
  rw [key, delMissing]
  simp only [hcn, decide_true, Bool.true_and, List.any_eq_true, Bool.and_eq_true, decide_eq_true_eq]
  constructor
  · rintro ⟨f, hf, h1, h2⟩
    refine ⟨f, hf, fun o ho => ?_, h1⟩
    rw [ho] at h2
    simpa using h2
  · rintro ⟨f, hf, h1, h2⟩
    refine ⟨f, hf, h2, ?_⟩
    cases hr : e.root f with
    | none => rfl
    | some o => simpa using h1 o hr

theorem toDict_ok {c : Kind} {w : World} {V : Type} [DecidableEq V] {S : Sense w c V} {e : Ent} {d : Kw} (h : toDict S e = .ok d) : dump S e = d := by
  unfold toDict at h
  split at h
  · cases h
  · cases h; rfl

theorem toDict_bind {c : Kind} {w : World} {V : Type} [DecidableEq V] {S : Sense w c V} {e e' : Ent} (h : (toDict S e >>= construct w c) = .ok e') :
    construct w c (dump S e) = .ok e' := by
  cases hd : toDict S e with
  | error x => rw [hd] at h; cases h
  | ok d =>
    rw [hd] at h
    rw [toDict_ok hd]
    exact h

/-- C91: a setting that is exported comes back with the same value, whatever the entity holds; `hs` says that the value is one that reading does not
change again. -/
theorem C91_exported {c : Kind} (hc : c ∈ kinds) {f : String} (hf : Setting c f) {w : World} {V : Type} [DecidableEq V] (S : Sense w c V)
    {e e' : Ent} {o : Obj} (ho : e.root f = some o) (hl : leftOut S f o = false) (hs : S.conv f (S.val o) = S.val o)
    (h : (toDict S e >>= construct w c) = .ok e') : ∃ o', e'.root f = some o' ∧ S.val o' = S.val o := by
  replace h := toDict_bind h
  have ha : argument (dump S e) f = some o := by
    rw [argument_dump hc hf.1, ho]
    simp [hl]
  refine ⟨_, C84_given_partial hc hf.1 hf.2.1 h ha, kept_val S ?_ hs⟩
  intro hn
  simp [leftOut, hn] at hl

/-- C91: exporting with defaults left out and reading the result again gives the same settings, whatever the entity holds.  Missing: the settings in
`oddFields`, and `None` where it is not the default; for both the claim is false. -/
theorem C91_roundtrip_partial {c : Kind} (hc : c ∈ kinds) {f : String} (hf : Setting c f) (hodd : (c.cls.name, f) ∉ oddFields) {w : World} {V : Type}
    [DecidableEq V] (S : Sense w c V) {e e' : Ent} {o : Obj} (ho : e.root f = some o) (hs : S.conv f (S.val o) = S.val o)
    (hn : S.val o = S.text "None" → c.formatDefault f = some "None") (h : (toDict S e >>= construct w c) = .ok e') :
    ∃ o', e'.root f = some o' ∧ S.val o' = S.val o := by
  cases hl : leftOut S f o with
  | false => exact C91_exported hc hf S ho hl hs h
  | true =>
    replace h := toDict_bind h
    have ha : argument (dump S e) f = none := by
      rw [argument_dump hc hf.1, ho]
      simp [hl]
    obtain ⟨d, o', hd, hr, hv⟩ := C91_default_partial hc hf hodd S h ha
    refine ⟨o', hr, ?_⟩
    rw [hv]
    have hne : ¬(c.cls.name = "ElectricEnergyInterface" ∧ f ∈ ownFields) := by
      rintro ⟨h1, h2⟩
      rw [h1] at hodd
      simp only [ownFields, List.mem_cons, List.not_mem_nil, or_false] at h2
      rcases h2 with rfl | rfl | rfl <;> exact hodd (by decide)
    by_cases hnone : S.val o = S.text "None"
    · rw [hn hnone] at hd
      cases hd
      exact hnone.symm
    · simp only [leftOut, hd, hnone, hf.2.2.2, decide_false, Bool.false_or, Bool.or_eq_true, Bool.and_eq_true, decide_eq_true_eq] at hl
      rcases hl with hl | hl
      · exact hl.symm
      · exact absurd hl.1 hne

/-- C91: a new entity exports none of its settings.  Missing: the settings in `oddFields`. -/
theorem C91_new_partial {c : Kind} (hc : c ∈ kinds) {f : String} (hf : Setting c f) (hodd : (c.cls.name, f) ∉ oddFields) {w : World} {V : Type}
    [DecidableEq V] (S : Sense w c V) {kw : Kw} {e : Ent} (h : construct w c kw = .ok e) (hk : argument kw f = none) {d : Kw} (hd : toDict S e = .ok d) :
    d (exportName f) = none := by
  rw [← toDict_ok hd]
  obtain ⟨d, o, hd, hr, hv⟩ := C91_default_partial hc hf hodd S h hk
  have ha := argument_dump hc hf.1 S e
  rw [hr] at ha
  have hl : leftOut S f o = true := by simp [leftOut, hd, hv]
  simp only [hl, if_true] at ha
  exact argument_none ha _ (by simp)

/-- C91: reading an exported electric energy interface gives the same numbers unless they are `None`. -/
theorem C91_energy {c : Kind} (hc : c ∈ kinds) (hcn : c.cls.name = "ElectricEnergyInterface") {f : String} (hf : f ∈ ownFields) {w : World} {V : Type}
    [DecidableEq V] (S : Sense w c V) {e e' : Ent} {o : Obj} (ho : e.root f = some o) (hn : S.val o ≠ S.text "None")
    (hs : S.conv f (S.val o) = S.val o) (h : (toDict S e >>= construct w c) = .ok e') : ∃ o', e'.root f = some o' ∧ S.val o' = S.val o := by
  have hq : ∀ c ∈ kinds, c.cls.name = "ElectricEnergyInterface" → ∀ f ∈ ownFields, Setting c f ∧ (f, Obj.none) ∈ c.declared ∧
      c.formatDefault f = some "None" := by decide +kernel
  obtain ⟨hset, hdec, hfd⟩ := hq c hc hcn f hf
  cases hl : leftOut S f o with
  | false => exact C91_exported hc hset S ho hl hs h
  | true =>
    replace h := toDict_bind h
    have ha : argument (dump S e) f = none := by
      rw [argument_dump hc hset.1, ho]
      simp [hl]
    have hr := C84_default_partial hc hdec hset.1 hset.2.1 h ha
    have hk : kept w c.cls.name f .none = w.own ("default_" ++ f) := by
      rw [hcn]
      simp only [ownFields, List.mem_cons, List.not_mem_nil, or_false] at hf
      rcases hf with rfl | rfl | rfl <;> simp [kept, converted]
    rw [hk] at hr
    refine ⟨_, hr, ?_⟩
    simp only [leftOut, hfd, hn, hset.2.2.2, decide_false, Bool.false_or, Bool.and_eq_true, decide_eq_true_eq] at hl
    exact hl.2.symm

/-- What a new entity holds for the settings that differ from the default of the format; those of electric energy interfaces come from the game. -/
def oddTexts : List (String × String × String) :=
  [("ArtilleryTurret", "items", "{}"), ("Car", "items", "{}"), ("ElectricTurret", "items", "{}"), ("FluidTurret", "items", "{}"),
   ("SpiderVehicle", "items", "{}"), ("Turret", "items", "{}"), ("ArtilleryWagon", "enable_logistics_while_moving", "False"),
   ("AssemblingMachine", "recipe_quality", "None"), ("CargoLandingPad", "request_filters", "None"), ("SpacePlatformHub", "request_filters", "None"),
   ("LogisticStorageContainer", "request_filters", "[]"), ("Inserter", "filters", "None"), ("RocketSilo", "recipe", "'rocket-part'"),
   ("SpiderVehicle", "automatic_targeting_parameters", "{}")]

def oddOk (c : Kind) (_ : Sym) (s : SEnt) : Bool :=
  oddTexts.all fun p => !decide (p.1 = c.cls.name) || (decide (Setting c p.2.1) && match s.field c p.2.1 with
    | some v => match v.bare [exportName p.2.1, p.2.1] with
      | .made g x => decide (g = p.2.1) && decide (x.source = some p.2.2)
      | x => decide (x.source = some p.2.2)
    | none => false)

theorem odd_ok : checkAll oddOk = true := by decide +kernel

/-- C91: what the settings that make the exception hold in a new entity, and so whenever they were left out: not the default of the format. -/
theorem C91_odd {c : Kind} (hc : c ∈ kinds) {f t : String} (hp : (c.cls.name, f, t) ∈ oddTexts) {w : World} {V : Type} (S : Sense w c V) {kw : Kw} {e : Ent}
    (h : construct w c kw = .ok e) (hk : argument kw f = none) :
    ∃ o, e.root f = some o ∧ (S.val o = S.text t ∨ S.val o = S.conv f (S.text t)) := by
  obtain ⟨n', s', hs', hq⟩ := of_checkAll odd_ok hc
  have hq := List.all_eq_true.1 hq _ hp
  simp only [decide_true, Bool.not_true, Bool.false_or, Bool.and_eq_true, decide_eq_true_eq] at hq
  obtain ⟨hset, hq⟩ := hq
  obtain ⟨v, hr, _, _, _, n, s, hs, hv⟩ := field_of hc hset.1 hset.2.1 h
  rw [hs] at hs'
  cases hs'
  rw [hv] at hq
  refine ⟨_, hr, ?_⟩
  rw [← bare_ev (argument_none hk) v]
  simp only at hq
  split at hq
  · rename_i g x e
    simp only [Bool.and_eq_true, decide_eq_true_eq] at hq
    right
    rw [e]
    simp only [Sym.ev]
    rw [S.coerce, source_val S hq.2, hq.1]
  · exact .inl (source_val S (by simpa using hq))

/-! ### Cases -/

/-- The text an object was made from. -/
def word (c : Kind) : Obj → String
  | .none => "None"
  | .const t => t
  | .given n => "given " ++ toString n
  | .shared _ _ t => t
  | .new _ f t => if t = "default" then (c.formatDefault f).getD t else t
  | .made _ o => word c o

/-- Conversion that only makes models of empty dictionaries. -/
def wordConv (c : Kind) (f x : String) : String :=
  if f ∈ modelFields ∧ x = "{}" then (c.formatDefault f).getD x else x

/-- A world of texts. -/
def wordWorld (c : Kind) : World where
  coerce := fun f o => .const (wordConv c f (word c o))
  check := fun _ o => .ok o
  own := fun a => .const a
  off := fun _ => false
  isInput := fun o => decide (o = .const "'input'")
  call := 1

/-- Objects are worth their texts. -/
def wordSense (c : Kind) : Sense (wordWorld c) c String where
  val := word c
  text := id
  conv := wordConv c
  none := rfl
  const := fun _ => rfl
  shared := fun _ _ _ => rfl
  new := fun n a t h => by simp [word, h]
  dflt := fun n f d h => by simp [word, h]
  coerce := fun f o => rfl
  keep := fun f d h => by
    simp only [wordConv, id, h]
    split <;> rfl
  empty := fun f d hm h => by simp [wordConv, hm, h]

/-- A field after export and import. -/
def again (c : Kind) (e : Ent) (f : String) : Option Obj :=
  match toDict (wordSense c) e >>= construct (wordWorld c) c with
  | .ok e' => e'.root f
  | .error _ => none

/-- An entity that holds one setting besides its name. -/
def holding (f : String) (o : Obj) : Ent where
  root := fun k => if k = "name" then some (.given 1) else if k = f then some o else none
  inst := fun _ => none
  place := .tile (.const "(0, 0)")
  mode := .const "ValidationMode.STRICT"

example : again accumulator (holding "tags" (.const "{'a': 1}")) "tags" = some (.const "{'a': 1}") := by decide +kernel
example : again undergroundBelt (holding "io_type" (.const "'output'")) "io_type" = some (.const "'output'") := by decide +kernel
example : ∃ o', again undergroundBelt (holding "io_type" (.const "'input'")) "io_type" = some o' ∧ word undergroundBelt o' = "'input'" :=
  ⟨.const "'input'", by decide +kernel, rfl⟩
/-- The hypotheses of `C91_roundtrip_partial` are met by a belt that goes down. -/
example (e' : Ent) (h : (toDict (wordSense undergroundBelt) (holding "io_type" (.const "'input'")) >>= construct (wordWorld undergroundBelt) undergroundBelt) = .ok e') :
    ∃ o', e'.root "io_type" = some o' ∧ word undergroundBelt o' = "'input'" :=
  C91_roundtrip_partial (by simp [kinds]) (by decide +kernel) (by decide +kernel) (wordSense undergroundBelt) (o := .const "'input'") (by decide +kernel)
    (by decide +kernel) (by decide +kernel) h
/-- And of `C91_energy` by a buffer of its own. -/
example (e' : Ent) (h : (toDict (wordSense electricEnergyInterface) (holding "buffer_size" (.const "default_buffer_size")) >>= construct (wordWorld electricEnergyInterface) electricEnergyInterface) = .ok e') :
    ∃ o', e'.root "buffer_size" = some o' ∧ word electricEnergyInterface o' = "default_buffer_size" :=
  C91_energy (by simp [kinds]) (by decide +kernel) (by decide +kernel) (wordSense electricEnergyInterface) (o := .const "default_buffer_size")
    (by decide +kernel) (by decide +kernel) (by decide +kernel) h

/-- A world of texts in which the game data say nothing of the entity. -/
def unknownWorld (c : Kind) : World := { wordWorld c with own := fun _ => .none }

/-- Objects are worth their texts there, too. -/
def unknownSense (c : Kind) : Sense (unknownWorld c) c String where
  val := word c
  text := id
  conv := wordConv c
  none := rfl
  const := fun _ => rfl
  shared := fun _ _ _ => rfl
  new := fun n a t h => by simp [word, h]
  dflt := fun n f d h => by simp [word, h]
  coerce := fun f o => rfl
  keep := fun f d h => by
    simp only [wordConv, id, h]
    split <;> rfl
  empty := fun f d hm h => by simp [wordConv, hm, h]

/-- C91: a new electric energy interface that the game data do not know, as one of a mod that is not loaded, has `None` for its numbers and cannot be
exported at all (`KeyError`). -/
theorem C91_energy_refuted : ¬ ∀ c ∈ kinds, ∀ (kw : Kw) (e : Ent), construct (unknownWorld c) c kw = .ok e → ∃ d, toDict (unknownSense c) e = .ok d := by
  intro h
  have h := h electricEnergyInterface (by simp [kinds]) (fun k => if k = "name" then some (.given 1) else none)
  have ha : (match construct (unknownWorld electricEnergyInterface) electricEnergyInterface (fun k => if k = "name" then some (.given 1) else none) with
      | .ok e => delMissing (unknownSense electricEnergyInterface) e
      | .error _ => false) = true := by decide +kernel
  split at ha
  · rename_i e he
    obtain ⟨d, hd⟩ := h e he
    rw [toDict, if_pos ha] at hd
    cases hd
  · cases ha

/-- C91 is false of artillery wagons: the format says that logistics while moving is on by default, the constructor that it is off.  A wagon with it on
is exported without the setting and comes back with it off. -/
theorem C91_wagon_refuted : ¬ ∀ c ∈ kinds, ∀ f, Setting c f → ∀ (e e' : Ent) (o : Obj), e.root f = some o → word c o ≠ "None" →
    (toDict (wordSense c) e >>= construct (wordWorld c) c) = .ok e' → ∃ o', e'.root f = some o' ∧ word c o' = word c o := by
  intro h
  have h := h artilleryWagon (by simp [kinds]) "enable_logistics_while_moving" (by decide +kernel) (holding "enable_logistics_while_moving" (.const "True"))
  have ha : again artilleryWagon (holding "enable_logistics_while_moving" (.const "True")) "enable_logistics_while_moving" = some (.const "False") := by
    decide +kernel
  rw [again] at ha
  split at ha
  · rename_i e' he
    obtain ⟨o', h1, h2⟩ := h e' (.const "True") (by decide +kernel) (by decide +kernel) he
    rw [ha] at h1
    cases h1
    exact absurd h2 (by decide)
  · cases ha

/-- C91 is false of rocket silos: no recipe is the default of the format and left out, but the constructor puts in `rocket-part`. -/
theorem C91_silo_refuted : ¬ ∀ c ∈ kinds, ∀ f, Setting c f → ∀ (e e' : Ent) (o : Obj), e.root f = some o → c.formatDefault f = some (word c o) →
    (toDict (wordSense c) e >>= construct (wordWorld c) c) = .ok e' → ∃ o', e'.root f = some o' ∧ word c o' = word c o := by
  intro h
  have h := h rocketSilo (by simp [kinds]) "recipe" (by decide +kernel) (holding "recipe" .none)
  have ha : again rocketSilo (holding "recipe" .none) "recipe" = some (.const "'rocket-part'") := by decide +kernel
  rw [again] at ha
  split at ha
  · rename_i e' he
    obtain ⟨o', h1, h2⟩ := h e' .none (by decide +kernel) (by decide +kernel) he
    rw [ha] at h1
    cases h1
    exact absurd h2 (by decide)
  · cases ha

/-- C91 is false of `None`: it is always left out, so where it is not the default it comes back as the default; `direction` is one such setting, which
may be set to `None`. -/
theorem C91_none_refuted : ¬ ∀ c ∈ kinds, ∀ f, Setting c f → (c.cls.name, f) ∉ oddFields → ∀ (e e' : Ent) (o : Obj), e.root f = some o →
    (toDict (wordSense c) e >>= construct (wordWorld c) c) = .ok e' → ∃ o', e'.root f = some o' ∧ word c o' = word c o := by
  intro h
  have h := h boiler (by simp [kinds]) "direction" (by decide +kernel) (by decide +kernel) (holding "direction" .none)
  have ha : again boiler (holding "direction" .none) "direction" = some (.const "Direction.NORTH") := by decide +kernel
  rw [again] at ha
  split at ha
  · rename_i e' he
    obtain ⟨o', h1, h2⟩ := h e' .none (by decide +kernel) he
    rw [ha] at h1
    cases h1
    exact absurd h2 (by decide)
  · cases ha

/-- C91 is false of new cars: their constructor puts an empty dictionary where the format has an empty list, so that `items` is exported though nothing
was requested. -/
theorem C91_new_refuted : ¬ ∀ c ∈ kinds, ∀ f, Setting c f → ∀ (kw : Kw) (e : Ent), argument kw f = none → construct (wordWorld c) c kw = .ok e →
    ∀ d, toDict (wordSense c) e = .ok d → d (exportName f) = none := by
  intro h
  have h := h car (by simp [kinds]) "items" (by decide +kernel) (fun k => if k = "name" then some (.given 1) else none)
  have ha : (match construct (wordWorld car) car (fun k => if k = "name" then some (.given 1) else none) with
      | .ok e => dump (wordSense car) e "items"
      | .error _ => none).isSome = true := by decide +kernel
  split at ha
  · rename_i e he
    have := h e (by decide +kernel) he _ (by rw [C91_exports (wordSense car) e (by decide +kernel)])
    rw [show exportName "items" = "items" from by decide] at this
    rw [this] at ha
    cases ha
  · cases ha

end Ctor
end Draftsman
