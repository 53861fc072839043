import Verif.Model.CtorTable
/-
Symbolic execution of constructors: what ends up in a field as an expression in the caller's keywords, and a proof that this is what the
constructor does for all keywords.
-/
namespace Draftsman
namespace Ctor
open Attr

/-- A value as an expression in the caller's keywords. -/
inductive Sym where
  | lit (o : Obj)
  | new (what source : String)
  | own (a : String)
  | pick (k : String) (els : Sym)
  | pickMade (k f : String) (els : Sym)
  | orElse (s d : Sym)
  | made (f : String) (s : Sym)
  | typeOr (k : String) (s : Sym)
  deriving DecidableEq, Repr

def Sym.ev (w : World) (kw : Kw) : Sym → Obj
  | .lit o => o
  | .new a t => .new w.call a t
  | .own a => w.own a
  | .pick k s => (kw k).getD (s.ev w kw)
  | .pickMade k f s => match kw k with
    | some o => w.coerce f o
    | none => s.ev w kw
  | .orElse s d => Ctor.orElse (s.ev w kw) (d.ev w kw)
  | .made f s => w.coerce f (s.ev w kw)
  | .typeOr k s => match kw k with
    | some t => if w.isInput (s.ev w kw) then t else s.ev w kw
    | none => s.ev w kw

/-- What a keyword is: surely given, surely not, or whatever the caller did. -/
inductive SGet where
  | present (s : Sym)
  | absent
  | caller (k : String)
  deriving DecidableEq, Repr

def SGet.ev (w : World) (kw : Kw) : SGet → Option Obj
  | .present s => some (s.ev w kw)
  | .absent => none
  | .caller k => kw k

def SGet.getD (d : Sym) : SGet → Sym
  | .present s => s
  | .absent => d
  | .caller k => .pick k d

/-- Keywords as seen by a constructor. -/
structure SKw where
  known : List (String × Sym)
  hidden : List String

def SKw.get (s : SKw) (k : String) : SGet :=
  match s.known.lookup k with
  | some v => .present v
  | none => if k ∈ s.hidden then .absent else .caller k

def SKw.Rep (w : World) (kw₀ : Kw) (kw : Kw) (s : SKw) : Prop := ∀ k, kw k = (s.get k).ev w kw₀

def Layer.sbind (l : Layer) (s : SKw) (p : String) : Sym := (s.get p).getD (.lit ((l.params.lookup p).getD .none))

def Layer.srest (l : Layer) (s : SKw) (k : String) : SGet :=
  if l.params.any (fun p => decide (p.1 = k)) then .absent else s.get k

def Layer.seval (l : Layer) (s : SKw) : Expr → Option Sym
  | .par p => some (l.sbind s p)
  | .kwarg k (.obj d) => some ((l.srest s k).getD (.lit d))
  | .kwarg k (.new t) => some ((l.srest s k).getD (.new k t))
  | .obj o => some (.lit o)
  | .orNew p => some (.orElse (l.sbind s p) (.new p "{}"))
  | .orOwn p a => some (.orElse (l.sbind s p) (.own a))
  | .typeOr p => match l.srest s "type" with
    | .caller k => some (.typeOr k (l.sbind s p))
    | _ => none

theorem getD_ev (w : World) (kw : Kw) (g : SGet) (d : Sym) : (g.getD d).ev w kw = (g.ev w kw).getD (d.ev w kw) := by
  cases g <;> rfl

theorem sbind_ev {w : World} {kw₀ kw : Kw} {s : SKw} (h : s.Rep w kw₀ kw) (l : Layer) (p : String) :
    (l.sbind s p).ev w kw₀ = l.bind kw p := by
  rw [Layer.sbind, getD_ev, ← h p, Layer.bind]
  cases kw p <;> rfl

theorem srest_ev {w : World} {kw₀ kw : Kw} {s : SKw} (h : s.Rep w kw₀ kw) (l : Layer) (k : String) :
    (l.srest s k).ev w kw₀ = l.rest kw k := by
  rw [Layer.srest, Layer.rest]
  split
  · rfl
  · exact (h k).symm

theorem seval_ev {w : World} {kw₀ kw : Kw} {s : SKw} (h : s.Rep w kw₀ kw) (l : Layer) {x : Expr} {v : Sym} (hv : l.seval s x = some v) :
    v.ev w kw₀ = l.eval w kw x := by
  cases x with
  | par p => cases hv; exact sbind_ev h l p
  | kwarg k d =>
    cases d with
    | obj d => cases hv; rw [getD_ev, srest_ev h]; rfl
    | new t => cases hv; rw [getD_ev, srest_ev h]; rfl
  | obj o => cases hv; rfl
  | orNew p => cases hv; simp only [Sym.ev, sbind_ev h]; rfl
  | orOwn p a => cases hv; simp only [Sym.ev, sbind_ev h]; rfl
  | typeOr p =>
    simp only [Layer.seval] at hv
    split at hv
    · rename_i k hk
      cases hv
      have := srest_ev h l "type"
      rw [hk] at this
      simp only [Sym.ev, sbind_ev h, Layer.eval]
      rw [← this]
      rfl
    · cases hv

/-- The keywords passed on. -/
def Layer.sup (l : Layer) (s : SKw) : Option SKw := do
  let es ← l.pass.mapM fun p => (l.seval s p.2).map fun v => (p.1, v)
  pure ⟨es ++ s.known.filter (fun q => !l.params.any (fun p => decide (p.1 = q.1))), s.hidden ++ l.params.map Prod.fst⟩

theorem lookup_append {α : Type} (a b : List (String × α)) (k : String) :
    (a ++ b).lookup k = (a.lookup k).or (b.lookup k) := by
  induction a with
  | nil => simp
  | cons x r ih =>
    obtain ⟨n, v⟩ := x
    simp only [List.cons_append, List.lookup_cons]
    cases k == n <;> simp [ih]

theorem lookup_filter {α : Type} (l : List (String × α)) (q : String → Bool) (k : String) :
    (l.filter fun x => q x.1).lookup k = if q k then l.lookup k else none := by
  induction l with
  | nil => simp
  | cons x r ih =>
    obtain ⟨n, v⟩ := x
    by_cases hk : k = n
    · subst hk
      by_cases hq : q k = true
      · simp [hq]
      · simp only [List.filter_cons, hq]
        simpa [hq] using ih
    · have hb : (k == n) = false := by simpa using hk
      by_cases hq : q n = true
      · simp only [List.filter_cons, hq, if_true, List.lookup_cons, hb, ih]
      · simp only [List.filter_cons, hq, List.lookup_cons, hb]
        simpa using ih

theorem mapM_lookup {α β : Type} (f : α → Option β) : ∀ (l : List (String × α)) {es : List (String × β)},
    (l.mapM fun p => (f p.2).map fun v => (p.1, v)) = some es → ∀ k,
      (match l.lookup k with
       | some x => ∃ v, f x = some v ∧ es.lookup k = some v
       | none => es.lookup k = none)
  | [], es, h, k => by
    simp at h; subst h; simp
  | (n, x) :: r, es, h, k => by
    rw [List.mapM_cons] at h
    cases hx : f x with
    | none => simp [hx] at h
    | some v =>
      cases hr : (r.mapM fun p => (f p.2).map fun v => (p.1, v)) with
      | none => simp [hx, hr] at h
      | some t =>
        simp [hx, hr] at h
        subst h
        have := mapM_lookup f r hr k
        simp only [List.lookup_cons]
        cases hb : k == n with
        | true => exact ⟨v, hx, rfl⟩
        | false => simpa using this

theorem any_iff (l : Layer) (k : String) : l.params.any (fun p => decide (p.1 = k)) = true ↔ k ∈ l.params.map Prod.fst := by
  simp

theorem sup_rep {w : World} {kw₀ kw : Kw} {s s' : SKw} (h : s.Rep w kw₀ kw) (l : Layer) (hs : l.sup s = some s') :
    s'.Rep w kw₀ (l.up w kw) := by
  intro k
  simp only [Layer.sup, Option.bind_eq_bind, Option.bind_eq_some_iff, Option.pure_def, Option.some.injEq] at hs
  obtain ⟨es, hes, rfl⟩ := hs
  have hl := mapM_lookup (l.seval s) l.pass hes k
  simp only [Layer.up, SKw.get, lookup_append]
  cases hp : l.pass.lookup k with
  | some x =>
    rw [hp] at hl
    obtain ⟨v, hv, hk⟩ := hl
    simp only [hk]
    exact congrArg some (seval_ev h l hv).symm
  | none =>
    rw [hp] at hl
    have hl' : es.lookup k = none := hl
    simp only [hl', Option.none_or]
    have hf := lookup_filter s.known (fun q => !l.params.any (fun p => decide (p.1 = q))) k
    rw [hf, Layer.rest]
    by_cases ha : l.params.any (fun p => decide (p.1 = k)) = true
    · have : k ∈ l.params.map Prod.fst := (any_iff l k).1 ha
      simp only [ha, Bool.not_true, if_true]
      simp only [List.mem_append, this, or_true, if_true]
      rfl
    · have hm : k ∉ l.params.map Prod.fst := fun hc => ha ((any_iff l k).2 hc)
      have ha' : l.params.any (fun p => decide (p.1 = k)) = false := Bool.eq_false_iff.2 ha
      rw [ha']
      simp only [Bool.not_false, if_true]
      rw [if_neg (by simp), h k, SKw.get]
      cases s.known.lookup k with
      | some v => rfl
      | none =>
        simp only [List.mem_append, hm, or_false]

/-- An entity under construction, symbolically; `base` is what the constructor of `Entity` received. -/
structure SEnt where
  fields : List (String × Sym)
  inst : List (String × Sym)
  position : SGet
  tile : Sym
  mode : Sym
  base : SKw

def placeOf (p : Option Obj) (t : Obj) : Place :=
  match p with
  | some .none => .tile t
  | some o => .position o
  | none => .tile t

structure SEnt.Rep (w : World) (c : Kind) (kw₀ : Kw) (e : Ent) (s : SEnt) : Prop where
  base : ∃ kwE, s.base.Rep w kw₀ kwE ∧ ∀ f, e.root f = match s.fields.lookup f with
    | some v => some (v.ev w kw₀)
    | none => (build w c kwE).root f
  inst : ∀ a, e.inst a = (s.inst.lookup a).map (Sym.ev w kw₀)
  place : e.place = placeOf (s.position.ev w kw₀) (s.tile.ev w kw₀)
  mode : e.mode = s.mode.ev w kw₀

def none_ : Obj := .const "ValidationMode.NONE"

def sstore (style : Style) (f : String) (v : Sym) : Sym :=
  match style with
  | .checked | .raw | .early | .broken => v
  | .restored => .orElse v (.new f "[]")
  | .orZero => .orElse v (.lit (.const "0"))
  | .always | .late => .made f v

def ssetAttr (c : Kind) (s : SEnt) (a : String) (v : Sym) : Option SEnt :=
  match c.attrs.find? (fun b => decide (b.name = a)) with
  | none => some { s with inst := (a, v) :: s.inst }
  | some b => match b.set with
    | [f] => if s.mode = .lit none_ then some { s with fields := (f, sstore b.style f v) :: s.fields } else none
    | _ => none

def sexec (c : Kind) (l : Layer) (k : SKw) (s : SEnt) : Stmt → Option SEnt
  | .set a x => (l.seval k x).bind (ssetAttr c s a)
  | .setField f x => (l.seval k x).map fun v => { s with fields := (f, v) :: s.fields }
  | .mode => some { s with mode := l.sbind k "validate_assignment" }
  | .place => some { s with position := l.srest k "position", tile := l.sbind k "tile_position" }
  | .ioType => match l.srest k "type" with
    | .present v => ssetAttr c s "io_type" v
    | g => match l.srest k "io_type" with
      | .present v => ssetAttr c s "io_type" (g.getD v)
      | _ => none

def sexecAll (c : Kind) (l : Layer) (k : SKw) : List Stmt → SEnt → Option SEnt
  | [], s => some s
  | x :: r, s => (sexec c l k s x).bind (sexecAll c l k r)

theorem upd_rep {m : String → Option Obj} {fs : List (String × Sym)} {w : World} {kw₀ : Kw} {d : String → Option Obj}
    (h : ∀ f, m f = match fs.lookup f with | some v => some (v.ev w kw₀) | none => d f) (k : String) (v : Sym) (o : Obj) (ho : v.ev w kw₀ = o) :
    ∀ f, upd m k o f = match ((k, v) :: fs).lookup f with | some v => some (v.ev w kw₀) | none => d f := by
  intro f
  simp only [upd, List.lookup_cons]
  by_cases hf : f = k
  · subst hf
    simp [ho]
  · have hb : (f == k) = false := by simpa using hf
    simp only [if_neg hf, hb, h f]

theorem ssetAttr_rep {w : World} {c : Kind} {kw₀ : Kw} {e : Ent} {s s' : SEnt} (h : s.Rep w c kw₀ e) {a : String} {v : Sym}
    (hs : ssetAttr c s a v = some s') : ∃ e', setAttr w c e a (v.ev w kw₀) = .ok e' ∧ s'.Rep w c kw₀ e' := by
  rw [ssetAttr] at hs
  rw [setAttr]
  cases hb : c.attrs.find? (fun b => decide (b.name = a)) with
  | none =>
    simp only [hb, Option.some.injEq] at hs
    subst hs
    refine ⟨_, rfl, h.base, ?_, h.place, h.mode⟩
    intro b
    have hi := h.inst b
    simp only [upd, List.lookup_cons]
    by_cases hf : b = a
    · subst hf; simp
    · have hbb : (b == a) = false := by simpa using hf
      simp only [if_neg hf, hbb, hi]
  | some b =>
    simp only [hb] at hs ⊢
    split at hs
    · rename_i f hset
      split at hs
      · rename_i hm
        cases hs
        have hmode : e.mode = none_ := by rw [h.mode, hm]; rfl
        have hoff : w.isOff e.mode = true := by rw [hmode]; simp [World.isOff, none_]
        have hst : store w e.mode b.style f (v.ev w kw₀) = .ok ((sstore b.style f v).ev w kw₀) := by
          simp only [store, hoff, if_true, sstore]
          cases b.style <;> rfl
        simp only [hset, hst]
        refine ⟨_, rfl, ?_, h.inst, h.place, h.mode⟩
        obtain ⟨kwE, hE, hroot⟩ := h.base
        exact ⟨kwE, hE, upd_rep hroot f _ _ rfl⟩
      · cases hs
    · cases hs

theorem sexec_rep {w : World} {c : Kind} {kw₀ kw : Kw} {k : SKw} (hk : k.Rep w kw₀ kw) (l : Layer) {e : Ent} {s s' : SEnt} (h : s.Rep w c kw₀ e)
    {x : Stmt} (hs : sexec c l k s x = some s') : ∃ e', exec w c l kw e x = .ok e' ∧ s'.Rep w c kw₀ e' := by
  cases x with
  | set a x =>
    simp only [sexec, Option.bind_eq_some_iff] at hs
    obtain ⟨v, hv, hs⟩ := hs
    obtain ⟨e', he, hr⟩ := ssetAttr_rep h hs
    refine ⟨e', ?_, hr⟩
    rw [exec, ← seval_ev hk l hv]
    exact he
  | setField f x =>
    simp only [sexec, Option.map_eq_some_iff] at hs
    obtain ⟨v, hv, rfl⟩ := hs
    refine ⟨_, rfl, ?_, h.inst, h.place, h.mode⟩
    obtain ⟨kwE, hE, hroot⟩ := h.base
    exact ⟨kwE, hE, upd_rep hroot f _ _ (seval_ev hk l hv)⟩
  | mode =>
    cases hs
    exact ⟨_, rfl, h.base, h.inst, h.place, (sbind_ev hk l _).symm⟩
  | place =>
    cases hs
    have hr := srest_ev hk l "position"
    have hb := sbind_ev hk l "tile_position"
    refine ⟨{ e with place := placeOf (l.rest kw "position") (l.bind kw "tile_position") }, ?_, h.base, h.inst, ?_, h.mode⟩
    · rw [exec]
      cases l.rest kw "position" with
      | none => rfl
      | some o => cases o <;> rfl
    · show placeOf _ _ = placeOf _ _
      rw [hr, hb]
  | ioType =>
    simp only [sexec] at hs
    have ht := srest_ev hk l "type"
    have hi := srest_ev hk l "io_type"
    rw [exec]
    cases hg : l.srest k "type" with
    | present v =>
      simp only [hg] at hs
      rw [hg] at ht
      rw [← ht]
      exact ssetAttr_rep h hs
    | absent =>
      simp only [hg] at hs
      rw [hg] at ht
      split at hs
      · rename_i v hv
        rw [hv] at hi
        rw [← ht, ← hi]
        exact ssetAttr_rep h hs
      · cases hs
    | caller n =>
      simp only [hg] at hs
      rw [hg] at ht
      split at hs
      · rename_i v hv
        rw [hv] at hi
        obtain ⟨e', he, hr⟩ := ssetAttr_rep h hs
        refine ⟨e', ?_, hr⟩
        rw [getD_ev] at he
        rw [← ht, ← hi]
        simp only [SGet.ev] at he ⊢
        cases hn : kw₀ n <;> rw [hn] at he <;> exact he
      · cases hs

theorem sexecAll_rep {w : World} {c : Kind} {kw₀ kw : Kw} {k : SKw} (hk : k.Rep w kw₀ kw) (l : Layer) : ∀ (xs : List Stmt) {e : Ent} {s s' : SEnt},
    s.Rep w c kw₀ e → sexecAll c l k xs s = some s' → ∃ e', execAll w c l kw xs e = .ok e' ∧ s'.Rep w c kw₀ e'
  | [], e, s, s', h, hs => by cases hs; exact ⟨e, rfl, h⟩
  | x :: r, e, s, s', h, hs => by
    simp only [sexecAll, Option.bind_eq_some_iff] at hs
    obtain ⟨s₁, h₁, h₂⟩ := hs
    obtain ⟨e₁, he₁, hr₁⟩ := sexec_rep hk l h h₁
    obtain ⟨e', he', hr'⟩ := sexecAll_rep hk l r hr₁ h₂
    exact ⟨e', by rw [execAll, he₁]; exact he', hr'⟩

def sbuild (k : SKw) : SEnt := ⟨[], [], .absent, .lit (.const "(0, 0)"), .lit none_, k⟩

theorem sbuild_rep {w : World} {c : Kind} {kw₀ kw : Kw} {k : SKw} (hk : k.Rep w kw₀ kw) : (sbuild k).Rep w c kw₀ (build w c kw) :=
  ⟨⟨kw, hk, fun _ => rfl⟩, fun _ => rfl, rfl, rfl⟩

/-- The whole constructor: the name, and the entity. -/
def sinit (c : Kind) : List Layer → SKw → Option (Sym × SEnt)
  | [], k => (sexecAll c entityInit k entityInit.post (sbuild k)).map fun s => (entityInit.sbind k "name", s)
  | l :: r, k => do
    let k' ← l.sup k
    let p ← sinit c r k'
    let s ← sexecAll c l k l.post p.2
    pure (p.1, s)

theorem sinit_rep {w : World} {c : Kind} {kw₀ : Kw} : ∀ (ls : List Layer) {kw : Kw} {k : SKw} {n : Sym} {s : SEnt},
    k.Rep w kw₀ kw → sinit c ls k = some (n, s) →
      (n.ev w kw₀ = .none ∧ initFrom w c ls kw = .error .dataFormat) ∨
      (n.ev w kw₀ ≠ .none ∧ ∃ e, initFrom w c ls kw = .ok e ∧ s.Rep w c kw₀ e)
  | [], kw, k, n, s, hk, h => by
    simp only [sinit, Option.map_eq_some_iff, Prod.mk.injEq] at h
    obtain ⟨s', hs', rfl, rfl⟩ := h
    rw [sbind_ev hk, initFrom, initEntity]
    by_cases hn : entityInit.bind kw "name" = .none
    · exact .inl ⟨hn, by rw [if_pos hn]⟩
    · obtain ⟨e, he, hr⟩ := sexecAll_rep hk entityInit entityInit.post (sbuild_rep (c := c) hk) hs'
      exact .inr ⟨hn, e, by rw [if_neg hn]; exact he, hr⟩
  | l :: r, kw, k, n, s, hk, h => by
    simp only [sinit, Option.bind_eq_bind, Option.bind_eq_some_iff, Option.pure_def, Option.some.injEq, Prod.mk.injEq] at h
    obtain ⟨k', hk', ⟨n', s₁⟩, hp, s₂, hs₂, rfl, rfl⟩ := h
    rcases sinit_rep r (sup_rep hk l hk') hp with ⟨hn, he⟩ | ⟨hn, e, he, hr⟩
    · exact .inl ⟨hn, by rw [initFrom, he]⟩
    · obtain ⟨e', he', hr'⟩ := sexecAll_rep hk l l.post hr hs₂
      exact .inr ⟨hn, e', by rw [initFrom, he]; exact he', hr'⟩

theorem start_rep (w : World) (kw : Kw) : (⟨[], []⟩ : SKw).Rep w kw kw := fun _ => rfl

/-- A field of the new entity that was not assigned. -/
def sfield (c : Kind) (k : SKw) (f : String) : Option Sym :=
  let els : Option Sym := if f ∈ fieldNames c.cls.fresh then some (.new f "default") else none
  if f ∈ ["name", "quality", "entity_number"] ∨ c.key f ∈ ["name", "quality", "entity_number"] then none
  else
    let plain : Option Sym := match entityInit.srest k f with
      | .present s => some (.made f s)
      | .absent => els
      | .caller n => els.map (.pickMade n f)
    match entityInit.srest k (c.key f) with
      | .present s => some (.made f s)
      | .absent => plain
      | .caller n => plain.map (.pickMade n f)

theorem build_root_other (w : World) (c : Kind) (kw : Kw) (f : String)
    (h : ¬(f ∈ ["name", "quality", "entity_number"] ∨ c.key f ∈ ["name", "quality", "entity_number"])) :
    (build w c kw).root f = match entityInit.rest kw (c.key f) with
      | some o => some (w.coerce f o)
      | none => match entityInit.rest kw f with
        | some o => some (w.coerce f o)
        | none => if f ∈ fieldNames c.cls.fresh then some (.new w.call f "default") else none := by
  simp only [List.mem_cons, List.not_mem_nil, or_false, not_or] at h
  obtain ⟨⟨h1, h2, h3⟩, h4, h5, h6⟩ := h
  simp only [build]
  cases entityInit.rest kw (c.key f) with
  | some o => rfl
  | none =>
    simp only [if_neg h4, if_neg h5, if_neg h6]
    cases entityInit.rest kw f with
    | some o => rfl
    | none => simp only [if_neg h1, if_neg h2, if_neg h3]

theorem sfield_ev {w : World} {c : Kind} {kw₀ kw : Kw} {k : SKw} (hk : k.Rep w kw₀ kw) {f : String} {v : Sym} (h : sfield c k f = some v) :
    (build w c kw).root f = some (v.ev w kw₀) := by
  rw [sfield] at h
  split at h
  · cases h
  · rename_i hn
    rw [build_root_other w c kw f hn]
    have h1 := srest_ev hk entityInit (c.key f)
    have h2 := srest_ev hk entityInit f
    have plain_ok : ∀ {v : Sym}, (match entityInit.srest k f with
        | .present s => some (Sym.made f s)
        | .absent => if f ∈ fieldNames c.cls.fresh then some (Sym.new f "default") else none
        | .caller n => (if f ∈ fieldNames c.cls.fresh then some (Sym.new f "default") else none).map (.pickMade n f)) = some v →
        (match entityInit.rest kw f with
        | some o => some (w.coerce f o)
        | none => if f ∈ fieldNames c.cls.fresh then some (.new w.call f "default") else none) = some (v.ev w kw₀) := by
      intro v hv
      rw [← h2]
      cases hg : entityInit.srest k f with
      | present s => simp only [hg, Option.some.injEq] at hv; subst hv; rfl
      | absent =>
        simp only [hg] at hv
        split at hv
        · rename_i hm; cases hv; simp only [SGet.ev, if_pos hm]; rfl
        · cases hv
      | caller n =>
        simp only [hg, Option.map_eq_some_iff] at hv
        obtain ⟨u, hu, rfl⟩ := hv
        split at hu
        · rename_i hm
          cases hu
          simp only [SGet.ev, Sym.ev]
          cases kw₀ n <;> simp [hm]
        · cases hu
    rw [← h1]
    cases hg : entityInit.srest k (c.key f) with
    | present s => simp only [hg, Option.some.injEq] at h; subst h; rfl
    | absent =>
      simp only [hg] at h
      exact plain_ok h
    | caller n =>
      simp only [hg, Option.map_eq_some_iff] at h
      obtain ⟨u, hu, rfl⟩ := h
      simp only [SGet.ev, Sym.ev]
      cases kw₀ n with
      | some o => rfl
      | none => exact plain_ok hu

/-- The number of the entity. -/
def snumber (c : Kind) (k : SKw) : Option Sym :=
  if c.key "entity_number" = "entity_number" then
    match entityInit.srest k "entity_number" with
    | .caller n => some (.pickMade n "entity_number" (.made "entity_number" (.lit (.const "0"))))
    | _ => none
  else none

theorem snumber_ev {w : World} {c : Kind} {kw₀ kw : Kw} {k : SKw} (hk : k.Rep w kw₀ kw) {v : Sym} (h : snumber c k = some v) :
    (build w c kw).root "entity_number" = some (v.ev w kw₀) := by
  rw [snumber] at h
  split at h
  · rename_i hn
    have h1 := srest_ev hk entityInit "entity_number"
    split at h
    · rename_i n hg
      cases h
      rw [hg] at h1
      simp only [build, hn, Sym.ev]
      rw [← h1]
      simp only [SGet.ev]
      cases kw₀ n <;> rfl
    · cases h
  · cases h

/-- A field of the finished entity. -/
def SEnt.field (c : Kind) (s : SEnt) (f : String) : Option Sym :=
  match s.fields.lookup f with
  | some v => some v
  | none => if f = "entity_number" then snumber c s.base else sfield c s.base f

theorem field_ev {w : World} {c : Kind} {kw₀ : Kw} {e : Ent} {s : SEnt} (h : s.Rep w c kw₀ e) {f : String} {v : Sym} (hv : s.field c f = some v) :
    e.root f = some (v.ev w kw₀) := by
  obtain ⟨kwE, hE, hroot⟩ := h.base
  rw [hroot f]
  rw [SEnt.field] at hv
  cases hl : s.fields.lookup f with
  | some u => simp only [hl, Option.some.injEq] at hv; subst hv; rfl
  | none =>
    simp only [hl] at hv
    split at hv
    · rename_i hf
      subst hf
      exact snumber_ev hE hv
    · exact sfield_ev hE hv

/-- What becomes of a value on its way into a field. -/
inductive Form where
  | raw
  | conv
  | orNew (t : String)
  | orConst (t : String)
  | orOwn (a : String)
  | convNew
  deriving DecidableEq, Repr

def Form.apply (w : World) (f : String) (o : Obj) : Form → Obj
  | .raw => o
  | .conv => w.coerce f o
  | .orNew t => Ctor.orElse o (.new w.call f t)
  | .orConst t => Ctor.orElse o (.const t)
  | .orOwn a => Ctor.orElse o (w.own a)
  | .convNew => w.coerce f (Ctor.orElse o (.new w.call f "{}"))

/-- The form of an expression as a function of the keyword `key`, or of the literal `d`, when the keywords in `skip` are not given. -/
def strip (key : Option String) (d : Option Obj) (skip : List String) (f : String) : Sym → Option Form
  | .lit o => if d = some o then some .raw else none
  | .new _ _ => none
  | .own _ => none
  | .pick k s => if key = some k then some .raw else if k ∈ skip then strip key d skip f s else none
  | .pickMade k g s => if key = some k then (if g = f then some .conv else none) else if k ∈ skip then strip key d skip f s else none
  | .orElse s (.new g t) => if g = f then (strip key d skip f s).bind fun x => if x = .raw then some (.orNew t) else none else none
  | .orElse s (.lit (.const t)) => (strip key d skip f s).bind fun x => if x = .raw then some (.orConst t) else none
  | .orElse s (.own a) => (strip key d skip f s).bind fun x => if x = .raw then some (.orOwn a) else none
  | .orElse _ _ => none
  | .made g s => if g = f then (strip key d skip f s).bind fun x =>
      if x = .raw then some .conv else if x = .orNew "{}" then some .convNew else none else none
  | .typeOr k s => if k ∈ skip then strip key d skip f s else none

/-- The value meant by `key` and `d`. -/
def Means (kw : Kw) (key : Option String) (d : Option Obj) (skip : List String) (o : Obj) : Prop :=
  (∀ k, key = some k → kw k = some o) ∧ (∀ x, d = some x → x = o) ∧ ∀ k ∈ skip, kw k = none

theorem strip_ev {w : World} {kw : Kw} {key : Option String} {d : Option Obj} {skip : List String} {o : Obj} (hm : Means kw key d skip o) (f : String) :
    ∀ (v : Sym) {x : Form}, strip key d skip f v = some x → v.ev w kw = x.apply w f o
  | .lit q, x, h => by
    simp only [strip] at h
    split at h
    · cases h; exact hm.2.1 _ (by assumption)
    · cases h
  | .new _ _, x, h => by simp [strip] at h
  | .own _, x, h => by simp [strip] at h
  | .pick k s, x, h => by
    simp only [strip] at h
    split at h
    · rename_i hk
      cases h
      simp only [Sym.ev, hm.1 k hk]; rfl
    · split at h
      · rename_i _ hk
        simp only [Sym.ev, hm.2.2 k hk]
        exact strip_ev hm f s h
      · cases h
  | .pickMade k g s, x, h => by
    simp only [strip] at h
    split at h
    · rename_i hk
      split at h
      · rename_i hg
        subst hg
        cases h
        simp only [Sym.ev, hm.1 k hk]; rfl
      · cases h
    · split at h
      · rename_i _ hk
        simp only [Sym.ev, hm.2.2 k hk]
        exact strip_ev hm f s h
      · cases h
  | .orElse s (.new g t), x, h => by
    simp only [strip] at h
    split at h
    · rename_i hg
      subst hg
      rw [Option.bind_eq_some_iff] at h
      obtain ⟨y, hy, h⟩ := h
      have := strip_ev (w := w) hm g s hy
      split at h
      · rename_i hr
        subst hr
        cases h
        simp only [Sym.ev, this]; rfl
      · cases h
    · cases h
  | .orElse s (.lit (.const t)), x, h => by
    simp only [strip] at h
    rw [Option.bind_eq_some_iff] at h
    obtain ⟨y, hy, h⟩ := h
    have := strip_ev (w := w) hm f s hy
    split at h
    · rename_i hr; subst hr; cases h; simp only [Sym.ev, this]; rfl
    · cases h
  | .orElse s (.own a), x, h => by
    simp only [strip] at h
    rw [Option.bind_eq_some_iff] at h
    obtain ⟨y, hy, h⟩ := h
    have := strip_ev (w := w) hm f s hy
    split at h
    · rename_i hr; subst hr; cases h; simp only [Sym.ev, this]; rfl
    · cases h
  | .orElse s (.lit .none), x, h => by simp [strip] at h
  | .orElse s (.lit (.given _)), x, h => by simp [strip] at h
  | .orElse s (.lit (.shared _ _ _)), x, h => by simp [strip] at h
  | .orElse s (.lit (.new _ _ _)), x, h => by simp [strip] at h
  | .orElse s (.lit (.made _ _)), x, h => by simp [strip] at h
  | .orElse s (.pick _ _), x, h => by simp [strip] at h
  | .orElse s (.pickMade _ _ _), x, h => by simp [strip] at h
  | .orElse s (.orElse _ _), x, h => by simp [strip] at h
  | .orElse s (.made _ _), x, h => by simp [strip] at h
  | .orElse s (.typeOr _ _), x, h => by simp [strip] at h
  | .made g s, x, h => by
    simp only [strip] at h
    split at h
    · rename_i hg
      subst hg
      rw [Option.bind_eq_some_iff] at h
      obtain ⟨y, hy, h⟩ := h
      have := strip_ev (w := w) hm g s hy
      split at h
      · rename_i hr; subst hr; cases h; simp only [Sym.ev, this]; rfl
      · split at h
        · rename_i hr; subst hr; cases h; simp only [Sym.ev, this]; rfl
        · cases h
    · cases h
  | .typeOr k s, x, h => by
    simp only [strip] at h
    split at h
    · rename_i hk
      simp only [Sym.ev, hm.2.2 k hk]
      exact strip_ev hm f s h
    · cases h

/-- Whether an expression depends on no keywords but those in `skip`. -/
def closed (skip : List String) : Sym → Bool
  | .lit _ | .new _ _ | .own _ => true
  | .pick k s | .pickMade k _ s | .typeOr k s => decide (k ∈ skip) && closed skip s
  | .orElse s d => closed skip s && closed skip d
  | .made _ s => closed skip s

theorem closed_ev {w : World} {kw kw' : Kw} {skip : List String} (h : ∀ k ∈ skip, kw k = kw' k) :
    ∀ (v : Sym), closed skip v = true → v.ev w kw = v.ev w kw'
  | .lit _, _ => rfl
  | .new _ _, _ => rfl
  | .own _, _ => rfl
  | .pick k s, hc => by
    simp only [closed, Bool.and_eq_true, decide_eq_true_eq] at hc
    simp only [Sym.ev, h k hc.1, closed_ev h s hc.2]
  | .pickMade k f s, hc => by
    simp only [closed, Bool.and_eq_true, decide_eq_true_eq] at hc
    simp only [Sym.ev, h k hc.1, closed_ev h s hc.2]
  | .typeOr k s, hc => by
    simp only [closed, Bool.and_eq_true, decide_eq_true_eq] at hc
    simp only [Sym.ev, h k hc.1, closed_ev h s hc.2]
  | .orElse s d, hc => by
    simp only [closed, Bool.and_eq_true] at hc
    simp only [Sym.ev, closed_ev h s hc.1, closed_ev h d hc.2]
  | .made f s, hc => by
    simp only [closed] at hc
    simp only [Sym.ev, closed_ev h s hc]

end Ctor
end Draftsman
