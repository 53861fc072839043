import Verif.Model.BpString
import Verif.Props.RoundTrip
import Verif.Props.Json
/-
C100: blueprint strings that were exported are loaded into a blueprint that exports the same string.
-/
namespace Draftsman
namespace BpString

open Json RoundTrip

variable {F : Type}

/-! ### Dictionaries -/

theorem get_append (key : String) (a b : Fields F) : get key (a ++ b) = (get key a).or (get key b) := by
  induction a with
  | nil => rfl
  | cons x a ih =>
    obtain ⟨k, d⟩ := x
    simp only [List.cons_append, get]
    by_cases h : k = key.toList
    · simp [h]
    · simp [h, ih]

theorem get_none {key : String} {a : Fields F} (h : key.toList ∉ a.map Prod.fst) : get key a = none := by
  induction a with
  | nil => rfl
  | cons x a ih =>
    obtain ⟨k, d⟩ := x
    simp only [List.map_cons, List.mem_cons, not_or] at h
    rw [get, if_neg (fun e => h.1 e.symm), ih h.2]

theorem get_entry_self (key : String) (o : Option (Doc F)) : get key (entry key o) = o := by
  cases o <;> simp [entry, get]

theorem get_entry_ne {key key' : String} (h : key'.toList ≠ key.toList) (o : Option (Doc F)) : get key (entry key' o) = none := by
  cases o <;> simp only [entry, get]
  rw [if_neg h]

theorem get_mem {key : String} {a : Fields F} {d : Doc F} (h : get key a = some d) : (key.toList, d) ∈ a := by
  induction a with
  | nil => cases h
  | cons x a ih =>
    obtain ⟨k, e⟩ := x
    rw [get] at h
    by_cases hk : k = key.toList
    · rw [if_pos hk] at h
      rw [hk, Option.some.inj h]
      exact List.mem_cons_self
    · rw [if_neg hk] at h
      exact List.mem_cons_of_mem _ (ih h)

theorem entry_keys (key : String) (o : Option (Doc F)) : ((entry key o).map Prod.fst).Sublist [key.toList] := by
  cases o <;> simp [entry]

theorem properPairs_iff (l : Fields F) : properPairs l ↔ ∀ x ∈ l, x.2.Proper := by
  induction l with
  | nil => simp [properPairs]
  | cons x l ih => obtain ⟨k, d⟩ := x; simp [properPairs, ih]

theorem properList_iff (l : List (Doc F)) : properList l ↔ ∀ x ∈ l, x.Proper := by
  induction l with
  | nil => simp [properList]
  | cons x l ih => simp [properList, ih]

theorem entry_proper (key : String) (o : Option (Doc F)) (h : ∀ d, o = some d → d.Proper) : ∀ x ∈ entry key o, x.2.Proper := by
  cases o with
  | none => intro x hx; cases hx
  | some d =>
    intro x hx
    rw [entry, List.mem_singleton] at hx
    rw [hx]
    exact h d rfl

/-! ### Hypotheses -/

/-- Entries that could be those of a Python dictionary, none of them with one of the names `names`. -/
structure Fine (names : List (List Char)) (l : Fields F) : Prop where
  once : (l.map Prod.fst).Nodup
  proper : ∀ x ∈ l, x.2.Proper
  other : ∀ n ∈ names, n ∉ l.map Prod.fst

/-- `v` is read as it is written. -/
def Exact (w : Writing F) (r : Reading F) (v : Vec) : Prop := r.num (w.num v.x) = .ok v.x ∧ r.num (w.num v.y) = .ok v.y

/-- What is written of tiles, schedules and coordinates is a document. -/
structure Written (w : Writing F) : Prop where
  num : ∀ q, (w.num q).Proper
  tile : ∀ n, (w.tile n).Proper
  sched : ∀ n d, w.sched n = some d → d.Proper

/-- Coordinates, tiles and schedules in the dictionary are read as they are written, and the entries of entities do not collide with number and position. -/
structure Legible (w : Writing F) (r : Reading F) (d : Dictionary (Fields F)) : Prop where
  contents : ∀ e ∈ d.ents, Fine ["position".toList, "entity_number".toList] e.2.1 ∧ Exact w r e.2.2
  tiles : ∀ t ∈ d.tiles.getD [], r.tile (w.tile t.1) = .ok t.1 ∧ Exact w r t.2
  scheds : ∀ s ∈ d.schedules.getD [], r.sched (w.sched s.rest) = .ok s.rest
  snap : ∀ v, d.snap = some v → Exact w r v
  rel : ∀ v, d.rel = some v → Exact w r v

/-- The attributes are read as they are exported, and the unknown keys are no known ones. -/
structure Sane (r : Reading F) (b : Whole F) : Prop where
  attrs : ∀ n ∈ attrNames, ∀ d, b.attrs n = some d → d.Proper ∧ r.attr n d = .ok (some d)
  extra : Fine ["blueprint".toList, "index".toList] b.extra

/-! ### Reading what was written -/

theorem mapM_back {α : Type} (f : Doc F → Except PyErr α) (g : α → Doc F) (l : List α) (h : ∀ x ∈ l, f (g x) = .ok x) : (l.map g).mapM f = .ok l := by
  induction l with
  | nil => rfl
  | cons x l ih =>
    rw [List.map_cons, List.mapM_cons, h x List.mem_cons_self, ih fun y hy => h y (List.mem_cons_of_mem _ hy)]
    rfl

theorem readVec_back {w : Writing F} {r : Reading F} {v : Vec} (h : Exact w r v) : readVec r (vecDoc w v) = .ok v := by
  simp [vecDoc, readVec, get, h.1, h.2, bind, Except.bind]

theorem readNat_back (n : Nat) : readNat (.int n : Doc F) = .ok n := by
  simp [readNat]

theorem filter_self {names : List (List Char)} {l : Fields F} (h : ∀ n ∈ names, n ∉ l.map Prod.fst) : l.filter (fun x => decide (x.1 ∉ names)) = l := by
  rw [List.filter_eq_self]
  intro x hx
  simp only [decide_eq_true_eq]
  exact fun hm => h _ hm (List.mem_map_of_mem hx)

theorem readEntity_back {w : Writing F} {r : Reading F} {e : Nat × Fields F × Vec} (h : Fine ["position".toList, "entity_number".toList] e.2.1)
    (hx : Exact w r e.2.2) : readEntity r (entityDoc w e) = .ok e := by
  obtain ⟨n, l, v⟩ := e
  have h1 : get "position" l = none := get_none (h.other _ (by simp))
  have h2 : get "entity_number" l = none := get_none (h.other _ (by simp))
  have h3 : l.filter (fun x => decide (x.1 ≠ "position".toList ∧ x.1 ≠ "entity_number".toList)) = l := by
    rw [List.filter_eq_self]
    intro x hx
    simp only [decide_eq_true_eq]
    have hk : x.1 ∈ l.map Prod.fst := List.mem_map_of_mem hx
    exact ⟨fun e => h.other x.1 (by rw [e]; exact List.mem_cons_self) hk,
      fun e => h.other x.1 (by rw [e]; exact List.mem_cons_of_mem _ List.mem_cons_self) hk⟩
  have h4 : readVec r (vecDoc w v) = .ok v := readVec_back hx
  have h5 : get "position" [("position".toList, vecDoc w v), ("entity_number".toList, .int n)] = some (vecDoc w v) := by rw [get, if_pos rfl]
  have h6 : get "entity_number" [("position".toList, vecDoc w v), ("entity_number".toList, .int n)] = some (.int n : Doc F) := by
    rw [get, if_neg (by decide), get, if_pos rfl]
  have h7 : [("position".toList, vecDoc w v), ("entity_number".toList, (.int n : Doc F))].filter
      (fun x => decide (x.1 ≠ "position".toList ∧ x.1 ≠ "entity_number".toList)) = [] := by
    rw [List.filter_eq_nil_iff]
    intro x hx
    simp only [List.mem_cons, List.not_mem_nil, or_false] at hx
    rw [decide_eq_true_eq]
    rcases hx with rfl | rfl
    · exact fun h => h.1 rfl
    · exact fun h => h.2 rfl
  simp only [entityDoc, readEntity]
  rw [get_append, h1, get_append, h2, Option.none_or, Option.none_or, h5, h6, List.filter_append, h3, h7, List.append_nil]
  simp only [readKey, h4, bind, Except.bind, Option.elim, readNumber, Int.toNat_natCast]

theorem readTile_back {w : Writing F} {r : Reading F} {t : Nat × Vec} (h : r.tile (w.tile t.1) = .ok t.1) (hx : Exact w r t.2) :
    readTile r (tileDoc w t) = .ok t := by
  have h4 : readVec r (vecDoc w t.2) = .ok t.2 := readVec_back hx
  simp [tileDoc, readTile, get, h, h4, bind, Except.bind]

theorem readSched_back {w : Writing F} {r : Reading F} {s : Sched} (h : r.sched (w.sched s.rest) = .ok s.rest) : readSched r (schedDoc w s) = .ok s := by
  have h1 : get "schedule" (("locomotives".toList, .arr (s.locos.map fun k : Nat => .int k)) :: entry "schedule" (w.sched s.rest)) = w.sched s.rest := by
    rw [get, if_neg (by decide), get_entry_self]
  have h2 : get "locomotives" (("locomotives".toList, .arr (s.locos.map fun k : Nat => .int k)) :: entry "schedule" (w.sched s.rest)) =
      some (.arr (s.locos.map fun k : Nat => .int k)) := by
    rw [get, if_pos rfl]
  have h3 : (s.locos.map fun k : Nat => (.int k : Doc F)).mapM readNat = .ok s.locos := mapM_back _ _ _ fun x _ => readNat_back x
  simp only [schedDoc, readSched, h1, h2, readKey, readList]
  simp [h3, h, bind, Except.bind]

theorem readWire_back (w : Wire) : readWire (wireDoc w : Doc F) = .ok w := by
  simp [readWire, wireDoc, readNat_back, bind, Except.bind]

theorem readKey_list {α : Type} (f : Doc F → Except PyErr α) (g : α → Doc F) (o : Option (List α)) (h : ∀ x ∈ o.getD [], f (g x) = .ok x) :
    readKey (readList f) (o.map fun l => .arr (l.map g)) = .ok o := by
  cases o with
  | none => rfl
  | some l =>
    have := mapM_back f g l h
    simp [readKey, readList, this, bind, Except.bind]

theorem readKey_vec {w : Writing F} {r : Reading F} (o : Option Vec) (h : ∀ v, o = some v → Exact w r v) : readKey (readVec r) (o.map (vecDoc w)) = .ok o := by
  cases o with
  | none => rfl
  | some v => simp [readKey, readVec_back (h v rfl), bind, Except.bind]

theorem entry_mem {key : String} {o : Option (Doc F)} {x : List Char × Doc F} (h : x ∈ entry key o) : x.1 = key.toList ∧ o = some x.2 := by
  cases o with
  | none => cases h
  | some d =>
    rw [entry, List.mem_singleton] at h
    rw [h]
    exact ⟨rfl, rfl⟩

theorem get_parts (ps : List (String × Option (Doc F))) (h : (ps.map fun p => p.1.toList).Nodup) (key : String) (o : Option (Doc F)) (hp : (key, o) ∈ ps) :
    get key (ps.flatMap fun p => entry p.1 p.2) = o := by
  induction ps with
  | nil => cases hp
  | cons q ps ih =>
    rw [List.map_cons, List.nodup_cons] at h
    rw [List.flatMap_cons, get_append]
    rcases List.mem_cons.1 hp with rfl | hp
    · rw [get_entry_self, get_none, Option.or_none]
      intro hm
      obtain ⟨x, hx, hk⟩ := List.mem_map.1 hm
      obtain ⟨p, hq, he⟩ := List.mem_flatMap.1 hx
      exact h.1 (List.mem_map.2 ⟨p, hq, by rw [← (entry_mem he).1, hk]⟩)
    · rw [get_entry_ne, Option.none_or, ih h.2 hp]
      intro he
      exact h.1 (List.mem_map.2 ⟨_, hp, he.symm⟩)

theorem parts_keys (w : Writing F) (attrs : String → Option (Doc F)) (d : Dictionary (Fields F)) : (parts w attrs d).map (fun p => p.1.toList) = known.map String.toList := rfl

theorem known_nodup : (known.map String.toList).Nodup := by decide +kernel

theorem get_body (w : Writing F) (attrs : String → Option (Doc F)) (d : Dictionary (Fields F)) (key : String) (o : Option (Doc F)) (h : (key, o) ∈ parts w attrs d) :
    get key (body w attrs d) = o := get_parts _ (by rw [parts_keys]; exact known_nodup) key o h

theorem get_attr (w : Writing F) (attrs : String → Option (Doc F)) (d : Dictionary (Fields F)) (n : String) (h : n ∈ attrNames) : get n (body w attrs d) = attrs n := by
  apply get_body
  simp only [attrNames, List.mem_cons, List.not_mem_nil, or_false] at h
  rcases h with rfl | rfl | rfl | rfl | rfl | rfl | rfl <;> simp only [parts, List.mem_cons, Prod.mk.injEq, true_or, or_true]

theorem body_known (w : Writing F) (attrs : String → Option (Doc F)) (d : Dictionary (Fields F)) : ∀ x ∈ body w attrs d, x.1 ∈ known.map String.toList := by
  intro x hx
  obtain ⟨p, hp, he⟩ := List.mem_flatMap.1 hx
  rw [← parts_keys w attrs d, (entry_mem he).1]
  exact List.mem_map.2 ⟨p, hp, rfl⟩

theorem body_unknown {w : Writing F} {attrs : String → Option (Doc F)} {d : Dictionary (Fields F)} {key : String} (h : key.toList ∉ known.map String.toList) :
    get key (body w attrs d) = none := by
  apply get_none
  intro hm
  obtain ⟨x, hx, hk⟩ := List.mem_map.1 hm
  exact h (hk ▸ body_known w attrs d x hx)

/-- What is exported of the attributes after loading. -/
def again (r : Reading F) (attrs : String → Option (Doc F)) (n : String) : Option (Doc F) :=
  if n = "version" then some ((attrs n).getD r.version) else attrs n

theorem readAttr_back {r : Reading F} {attrs : String → Option (Doc F)} {n : String} (h : ∀ d, attrs n = some d → r.attr n d = .ok (some d)) :
    readAttr r n (attrs n) = .ok (again r attrs n) := by
  rw [again]
  cases hn : attrs n with
  | none => rfl
  | some d => rw [readAttr, h d hn]; simp

/-- What is read of an exported body is what was exported, and the version of the game in the place of a missing one. -/
theorem readBody_back {w : Writing F} {r : Reading F} {attrs : String → Option (Doc F)} {d : Dictionary (Fields F)}
    (ha : ∀ n ∈ attrNames, ∀ d, attrs n = some d → r.attr n d = .ok (some d)) (h : Legible w r d) :
    ∃ x, readBody r (body w attrs d) = .ok x ∧ x.dict = d ∧ x.extra = [] ∧ ∀ n ∈ attrNames, x.attrs n = again r attrs n := by
  have g := get_body w attrs d
  have h1 := g "snap-to-grid" (d.snap.map (vecDoc w)) (by simp only [parts, List.mem_cons, true_or, or_true])
  have h2 := g "position-relative-to-grid" (d.rel.map (vecDoc w)) (by simp only [parts, List.mem_cons, true_or, or_true])
  have h3 := g "entities" (d.entities.map fun l => .arr (l.map (entityDoc w))) (by simp only [parts, List.mem_cons, true_or, or_true])
  have h4 := g "tiles" (d.tiles.map fun l => .arr (l.map (tileDoc w))) (by simp only [parts, List.mem_cons, true_or, or_true])
  have h5 := g "schedules" (d.schedules.map fun l => .arr (l.map (schedDoc w))) (by simp only [parts, List.mem_cons, true_or, or_true])
  have h6 := g "wires" (d.wires.map fun l => .arr (l.map wireDoc)) (by simp only [parts, List.mem_cons, true_or, or_true])
  have hf : (body w attrs d).filter (fun x => decide (x.1 ∉ known.map String.toList)) = [] := by
    rw [List.filter_eq_nil_iff]
    intro x hx
    rw [decide_eq_true_eq]
    exact fun hn => hn (body_known w attrs d x hx)
  have hr : ∀ n ∈ attrNames, readAttr r n (get n (body w attrs d)) = .ok (again r attrs n) := by
    intro n hn
    rw [get_attr w attrs d n hn]
    exact readAttr_back (ha n hn)
  have hm : (attrNames.mapM fun n => readAttr r n (get n (body w attrs d))) = .ok (attrNames.map (again r attrs)) := by
    rw [mapM_ok_map]
    exact hr
  refine ⟨⟨fun n => (readAttr r n (get n (body w attrs d))).toOption.getD none, [], d⟩, ?_, rfl, rfl, fun n hn => ?_⟩
  · rw [readBody, hm, h1, h2, h3, h4, h5, h6, readKey_vec _ h.snap, readKey_vec _ h.rel,
      readKey_list _ _ _ fun e he => readEntity_back (h.contents e he).1 (h.contents e he).2,
      readKey_list _ _ _ fun t ht => readTile_back (h.tiles t ht).1 (h.tiles t ht).2,
      readKey_list _ _ _ fun s hs => readSched_back (h.scheds s hs),
      readKey_list _ _ _ fun w _ => readWire_back w, hf, body_unknown (by decide +kernel)]
    rfl
  · show (readAttr r n (get n (body w attrs d))).toOption.getD none = _
    rw [hr n hn]
    rfl

/-! ### Documents -/

theorem vecDoc_proper {w : Writing F} (hw : Written w) (v : Vec) : (vecDoc w v).Proper := by
  rw [vecDoc, Doc.Proper]
  refine ⟨by simp only [List.map_cons, List.map_nil]; decide, ?_⟩
  simp only [properPairs, and_true]
  exact ⟨hw.num _, hw.num _⟩

theorem int_proper (n : Int) : (.int n : Doc F).Proper := by
  rw [Doc.Proper.eq_def]
  trivial

theorem entityDoc_proper {w : Writing F} (hw : Written w) {e : Nat × Fields F × Vec} (h : Fine ["position".toList, "entity_number".toList] e.2.1) :
    (entityDoc w e).Proper := by
  rw [entityDoc, Doc.Proper, properPairs_iff]
  constructor
  · rw [List.map_append, List.nodup_append]
    refine ⟨h.once, by simp only [List.map_cons, List.map_nil]; decide, fun a ha b hb hab => ?_⟩
    exact h.other b (by simpa using hb) (hab ▸ ha)
  · intro x hx
    rcases List.mem_append.1 hx with hx | hx
    · exact h.proper x hx
    · simp only [List.mem_cons, List.not_mem_nil, or_false] at hx
      rcases hx with rfl | rfl
      · exact vecDoc_proper hw _
      · exact int_proper _

theorem tileDoc_proper {w : Writing F} (hw : Written w) (t : Nat × Vec) : (tileDoc w t).Proper := by
  rw [tileDoc, Doc.Proper]
  refine ⟨by simp only [List.map_cons, List.map_nil]; decide, ?_⟩
  simp only [properPairs, and_true]
  exact ⟨hw.tile _, vecDoc_proper hw _⟩

theorem arr_proper (l : List (Doc F)) (h : ∀ x ∈ l, x.Proper) : (Doc.arr l).Proper := by
  rw [Doc.Proper]
  exact (properList_iff l).2 h

theorem schedDoc_proper {w : Writing F} (hw : Written w) (s : Sched) : (schedDoc w s).Proper := by
  rw [schedDoc, Doc.Proper, properPairs_iff]
  constructor
  · rw [List.map_cons]
    refine List.Sublist.nodup (List.Sublist.cons_cons _ (entry_keys _ _)) (by dsimp only; decide)
  · intro x hx
    rcases List.mem_cons.1 hx with rfl | hx
    · refine arr_proper _ fun y hy => ?_
      obtain ⟨k, -, rfl⟩ := List.mem_map.1 hy
      exact int_proper _
    · exact entry_proper _ _ (hw.sched _) x hx

theorem wireDoc_proper (w : Wire) : (wireDoc w : Doc F).Proper := by
  refine arr_proper _ fun y hy => ?_
  simp only [List.mem_cons, List.not_mem_nil, or_false] at hy
  rcases hy with rfl | rfl | rfl | rfl <;> exact int_proper _

theorem body_proper {w : Writing F} {r : Reading F} (hw : Written w) {attrs : String → Option (Doc F)}
    (ha : ∀ n ∈ attrNames, ∀ d, attrs n = some d → d.Proper) {d : Dictionary (Fields F)} (h : Legible w r d) :
    (Doc.obj (body w attrs d)).Proper := by
  have hl : ∀ (α : Type) (g : α → Doc F) (o : Option (List α)), (∀ x ∈ o.getD [], (g x).Proper) → ∀ e, o.map (fun l => Doc.arr (l.map g)) = some e → e.Proper := by
    intro α g o ho e he
    cases o with
    | none => cases he
    | some l =>
      rw [← Option.some.inj he]
      refine arr_proper _ fun y hy => ?_
      obtain ⟨x, hx, rfl⟩ := List.mem_map.1 hy
      exact ho x hx
  have hv : ∀ (o : Option Vec) e, o.map (vecDoc w) = some e → e.Proper := by
    intro o e he
    cases o with
    | none => cases he
    | some v => rw [← Option.some.inj he]; exact vecDoc_proper hw v
  rw [Doc.Proper, properPairs_iff]
  constructor
  · have : ∀ ps : List (String × Option (Doc F)), ((ps.flatMap fun p => entry p.1 p.2).map Prod.fst).Sublist (ps.map fun p => p.1.toList) := by
      intro ps
      induction ps with
      | nil => simp
      | cons p ps ih =>
        rw [List.flatMap_cons, List.map_append, List.map_cons]
        exact (entry_keys p.1 p.2).append ih
    exact (this _).nodup (by rw [parts_keys]; exact known_nodup)
  · intro x hx
    obtain ⟨p, hp, he⟩ := List.mem_flatMap.1 hx
    have ho := (entry_mem he).2
    simp only [parts, List.mem_cons, List.not_mem_nil, or_false] at hp
    rcases hp with rfl | rfl | rfl | rfl | rfl | rfl | rfl | rfl | rfl | rfl | rfl | rfl | rfl | rfl
    · rw [← Option.some.inj ho, Doc.Proper.eq_def]; trivial
    · exact ha "label" (by decide) _ ho
    · exact ha "label_color" (by decide) _ ho
    · exact ha "description" (by decide) _ ho
    · exact ha "icons" (by decide) _ ho
    · exact ha "version" (by decide) _ ho
    · exact hv _ _ ho
    · exact ha "absolute-snapping" (by decide) _ ho
    · exact hv _ _ ho
    · exact ha "stock_connections" (by decide) _ ho
    · exact hl _ _ _ (fun e he => entityDoc_proper hw (h.contents e he).1) _ ho
    · exact hl _ _ _ (fun t _ => tileDoc_proper hw t) _ ho
    · exact hl _ _ _ (fun s _ => schedDoc_proper hw s) _ ho
    · exact hl _ _ _ (fun s _ => wireDoc_proper s) _ ho

theorem toDoc_proper {w : Writing F} {r : Reading F} (hw : Written w) {b : Whole F} (hb : Sane r b) {d : Dictionary (Fields F)} (h : Legible w r d) :
    (toDoc w b.attrs b.index b.extra d).Proper := by
  rw [toDoc, Doc.Proper, properPairs_iff]
  have hs : ((b.extra.filter fun x => !isNull x.2).map Prod.fst).Sublist (b.extra.map Prod.fst) := List.filter_sublist.map _
  constructor
  · rw [List.map_cons, List.map_append]
    refine List.Sublist.nodup ((((entry_keys _ _).append hs)).cons_cons _) ?_
    dsimp only
    rw [List.singleton_append, List.nodup_cons, List.nodup_cons, List.mem_cons, not_or]
    exact ⟨⟨by decide, hb.extra.other _ (by decide)⟩, hb.extra.other _ (by decide), hb.extra.once⟩
  · intro x hx
    rcases List.mem_cons.1 hx with rfl | hx
    · exact body_proper hw (fun n hn d hd => (hb.attrs n hn d hd).1) h
    · rcases List.mem_append.1 hx with hx | hx
      · refine entry_proper _ _ (fun d hd => ?_) x hx
        cases hi : b.index with
        | none => rw [hi] at hd; cases hd
        | some i => rw [hi] at hd; rw [← Option.some.inj hd]; exact int_proper _
      · exact hb.extra.proper x (List.mem_of_mem_filter hx)

/-- What is loaded of an exported body and an index. -/
theorem loadWhole_back {w : Writing F} {r : Reading F} (key : Fields F → Vec → ℕ) (start : ℕ) {b : Whole F} (hb : Sane r b) {d : Dictionary (Fields F)} (h : Legible w r d)
    {f : Full (Fields F)} (hf : load key start d = .ok f) (index : Option ℕ) :
    ∃ b', loadWhole r key start (body w b.attrs d, index.map fun i : Nat => .int i) = .ok b' ∧ b'.full = f ∧ b'.index = index ∧ b'.extra = [] ∧
      ∀ n ∈ attrNames, b'.attrs n = again r b.attrs n := by
  obtain ⟨x, h2, h3, h4, h5⟩ := readBody_back (w := w) (attrs := b.attrs) (fun n hn d hd => (hb.attrs n hn d hd).2) h
  have hi : readKey readNat ((index.map fun i : Nat => (.int i : Doc F)).filter fun x => !isNull x) = .ok index := by
    cases index with
    | none => rfl
    | some i =>
      show readKey readNat (some (.int i : Doc F)) = _
      simp [readKey, readNat_back, bind, Except.bind]
  refine ⟨⟨f, x.attrs, index, x.extra⟩, ?_, rfl, rfl, h4, h5⟩
  simp only [loadWhole, bind, Except.bind]
  rw [hi]
  dsimp only
  rw [h2]
  dsimp only
  rw [h3, hf]

theorem arguments_toDoc {w : Writing F} {attrs : String → Option (Doc F)} {extra : Fields F} (he : "index".toList ∉ extra.map Prod.fst) (d : Dictionary (Fields F)) (index : Option Nat) :
    arguments "blueprint" (toDoc w attrs index extra d) = .ok (body w attrs d, index.map fun i : Nat => .int i) := by
  have hr : (root (toDoc w attrs index extra d)).has "blueprint" = .ok true := by
    simp [toDoc, root, Codec.Root.has]
  rw [arguments, hr]
  have h1 : get "blueprint" (("blueprint".toList, .obj (body w attrs d)) :: (entry "index" (index.map fun i : Nat => .int i) ++ extra.filter fun x => !isNull x.2)) =
      some (.obj (body w attrs d)) := by
    rw [get, if_pos rfl]
  have h2 : get "index" (("blueprint".toList, .obj (body w attrs d)) :: (entry "index" (index.map fun i : Nat => .int i) ++ extra.filter fun x => !isNull x.2)) =
      index.map fun i : Nat => .int i := by
    rw [get, if_neg (by decide), get_append, get_entry_self, get_none, Option.or_none]
    intro hm
    obtain ⟨x, hx, hk⟩ := List.mem_map.1 hm
    exact he (List.mem_map.2 ⟨x, List.mem_of_mem_filter hx, hk⟩)
  show fetch "blueprint" (toDoc w attrs index extra d) = _
  rw [toDoc, fetch, h1, h2, passed, body_unknown (key := "self") (by decide +kernel), body_unknown (key := "index") (by decide +kernel),
    body_unknown (key := "validate") (by decide +kernel)]
  rfl

/-! ### C100 -/

section strings

variable {repr : F → List Char} {read : List Char → F} (hf : Floats repr read) {compress : List (Fin 256) → List (Fin 256)}
  {decompress : List (Fin 256) → Except PyErr (List (Fin 256))} (hz : ∀ b, decompress (compress b) = .ok b)
  {w : Writing F} (hw : Written w) {r : Reading F} (key : Fields F → Vec → ℕ) (start : ℕ)

include hf hz hw

/-- C100: an exported string is loaded, and what is loaded is the exported dictionary with its attributes and its index.  Unknown keys are not, and a
missing version becomes that of the game. -/
theorem C100_loads (b : Whole F) (hb : Sane r b) (d : Dictionary (Fields F)) (hd : b.full.toDict = .ok d) (h : Legible w r d) :
    ∃ s b', toString (codecs repr read compress decompress) w b = .ok s ∧
      loadFromString (codecs repr read compress decompress) r key start s = .ok b' ∧
      load key start d = .ok b'.full ∧ b'.index = b.index ∧ b'.extra = [] ∧
      ∀ n ∈ attrNames, b'.attrs n = if n = "version" then some ((b.attrs n).getD r.version) else b.attrs n := by
  obtain ⟨f, h1, -⟩ := C96_stable key start b.full d hd
  obtain ⟨b', h2, h3, h4, h5, h6⟩ := loadWhole_back key start hb h h1 b.index
  refine ⟨Codec.jsonToString (codecs repr read compress decompress) (toDoc w b.attrs b.index b.extra d), b', ?_, ?_, h3 ▸ h1, h4, h5, h6⟩
  · rw [toString, hd]
    rfl
  · rw [loadFromString, C03_real repr read hf compress decompress hz _ (toDoc_proper hw hb h)]
    simp only [bind, Except.bind]
    rw [arguments_toDoc (hb.extra.other _ (by decide))]
    exact h2

omit hf hz hw in
theorem body_congr (w : Writing F) {a a' : String → Option (Doc F)} (h : ∀ n ∈ attrNames, a n = a' n) (d : Dictionary (Fields F)) : body w a d = body w a' d := by
  rw [body, body, parts, parts, h "label" (by decide), h "label_color" (by decide), h "description" (by decide), h "icons" (by decide), h "version" (by decide),
    h "absolute-snapping" (by decide), h "stock_connections" (by decide)]

/-- C100: exporting the loaded blueprint gives the same string, if no two of the entities look alike, it has a version and no unknown keys. -/
theorem C100_same (b : Whole F) (hb : Sane r b) (hv : b.attrs "version" ≠ none) (he : b.extra = []) (d : Dictionary (Fields F)) (hd : b.full.toDict = .ok d)
    (h : Legible w r d) (ha : d.Apart key) :
    ∃ s b', toString (codecs repr read compress decompress) w b = .ok s ∧
      loadFromString (codecs repr read compress decompress) r key start s = .ok b' ∧ toString (codecs repr read compress decompress) w b' = .ok s := by
  obtain ⟨s, b', h1, h2, h3, h4, h5, h6⟩ := C100_loads hf hz hw key start b hb d hd h
  obtain ⟨f, h7, h8⟩ := C96_apart key start b.full d hd ha
  have hb : f = b'.full := by rw [h3] at h7; exact (Except.ok.inj h7).symm
  refine ⟨s, b', h1, h2, ?_⟩
  have hc : body w b'.attrs d = body w b.attrs d := by
    apply body_congr
    intro n hn
    rw [h6 n hn]
    by_cases e : n = "version"
    · rw [if_pos e, e]
      cases hx : b.attrs "version" with
      | none => exact absurd hx hv
      | some x => rfl
    · rw [if_neg e]
  rw [← h1, toString, toString, hd, ← hb, h8, h4, h5, he]
  simp only [bind, Except.bind, toDoc, hc]

omit hf hz hw in
/-- What is exported after loading can be read as well, and stays the same. -/
theorem loaded_legible {b : Full (Fields F)} {d : Dictionary (Fields F)} (hd : b.toDict = .ok d) (h : Legible w r d) {f : Full (Fields F)} (hf : load key start d = .ok f)
    (start' : ℕ) : ∃ d' f', f.toDict = .ok d' ∧ Legible w r d' ∧ load key start' d' = .ok f' ∧ f'.toDict = .ok d' := by
  obtain ⟨f', d', f'', g1, g2, g3, g4⟩ := C96_settles key start b d hd start'
  have hx : f' = f := by rw [hf] at g1; exact (Except.ok.inj g1).symm
  subst hx
  obtain ⟨x, d2, k1, k2, k3, k4, k5, k6, k7, -⟩ := C96_again key start b d hd
  have hx : x = f' := by rw [hf] at k1; exact (Except.ok.inj k1).symm
  subst hx
  have hdd : d2 = d' := by rw [k2] at g2; exact Except.ok.inj g2
  subst hdd
  refine ⟨d2, f'', g2, ?_, g3, g4⟩
  refine ⟨fun e he => h.contents e ?_, fun t ht => h.tiles t (k4 ▸ ht), fun s hs => ?_, fun v hv => h.snap v (k5 ▸ hv), fun v hv => h.rel v (k6 ▸ hv)⟩
  · rwa [Dictionary.ents, ← k3]
  · obtain ⟨s0, m0, -, m2⟩ := forall₂_right k7 hs
    rw [m2]
    exact h.scheds s0 m0

omit hf hz hw in
theorem loaded_sane {b b' : Whole F} (hb : Sane r b) (hv : r.version.Proper ∧ r.attr "version" r.version = .ok (some r.version)) (h5 : b'.extra = [])
    (h6 : ∀ n ∈ attrNames, b'.attrs n = again r b.attrs n) : Sane r b' := by
  refine ⟨fun n hn e he => ?_, ?_⟩
  · rw [h6 n hn, again] at he
    by_cases hnv : n = "version"
    · rw [if_pos hnv] at he
      cases hbn : b.attrs n with
      | none =>
        rw [hbn] at he
        rw [← Option.some.inj he, hnv]
        exact hv
      | some e' =>
        rw [hbn] at he
        rw [← Option.some.inj he]
        exact hb.attrs n hn _ hbn
    · rw [if_neg hnv] at he
      exact hb.attrs n hn e he
  · rw [h5]
    exact ⟨List.nodup_nil, nofun, fun _ _ => nofun⟩

/-- C100: whatever looks alike, and whatever there was of versions and unknown keys, from the second time on the string stays the same. -/
theorem C100_settles (b : Whole F) (hb : Sane r b) (hv : r.version.Proper ∧ r.attr "version" r.version = .ok (some r.version)) (d : Dictionary (Fields F))
    (hd : b.full.toDict = .ok d) (h : Legible w r d) (start' : ℕ) :
    ∃ s b' s' b'', toString (codecs repr read compress decompress) w b = .ok s ∧
      loadFromString (codecs repr read compress decompress) r key start s = .ok b' ∧ toString (codecs repr read compress decompress) w b' = .ok s' ∧
      loadFromString (codecs repr read compress decompress) r key start' s' = .ok b'' ∧ toString (codecs repr read compress decompress) w b'' = .ok s' := by
  obtain ⟨s, b', h1, h2, h3, h4, h5, h6⟩ := C100_loads hf hz hw key start b hb d hd h
  obtain ⟨d2, f'', g2, hl, g3, g4⟩ := loaded_legible key start hd h h3 start'
  have hb' : Sane r b' := loaded_sane hb hv h5 h6
  obtain ⟨s', b'', l1, l2, l3, l4, l5, l6⟩ := C100_loads hf hz hw key start' b' hb' d2 g2 hl
  refine ⟨s, b', s', b'', h1, h2, l1, l2, ?_⟩
  have hx : f'' = b''.full := by rw [l3] at g3; exact (Except.ok.inj g3).symm
  have hc : body w b''.attrs d2 = body w b'.attrs d2 := by
    apply body_congr
    intro n hn
    rw [l6 n hn, h6 n hn]
    by_cases e : n = "version"
    · rw [if_pos e, if_pos e]; rfl
    · rw [if_neg e, if_neg e]
  rw [← l1, toString, toString, g2, ← hx, g4, l4, l5, h5]
  simp only [bind, Except.bind, toDoc, hc]

end strings

/-! ### What is refused -/

theorem has_obj (kind : String) (l : Fields F) : (root (.obj l)).has kind = .ok (get kind l).isSome := by
  show Except.ok ((l.map fun x => String.ofList x.1).contains kind) = _
  congr 1
  induction l with
  | nil => rfl
  | cons x l ih =>
    obtain ⟨k, d⟩ := x
    rw [List.map_cons, List.contains_cons, get, ih]
    by_cases h : k = kind.toList
    · rw [if_pos h]
      simp [h]
    · rw [if_neg h, beq_eq_false_iff_ne.2, Bool.false_or]
      rintro rfl
      exact h (by simp)

/-- C57 for what Python's `json` reads: a document has the root key exactly if it is one of its keys. -/
theorem C57_root (kind : String) (l : Fields F) : (root (.obj l)).has kind = .ok (decide (kind.toList ∈ l.map Prod.fst)) := by
  rw [has_obj]
  congr 1
  rw [Bool.eq_iff_iff, decide_eq_true_eq]
  constructor
  · intro h
    obtain ⟨d, hd⟩ := Option.isSome_iff_exists.1 h
    exact List.mem_map.2 ⟨_, get_mem hd, rfl⟩
  · intro h
    by_contra hn
    rw [Bool.not_eq_true, Option.isSome_eq_false_iff, Option.isNone_iff_eq_none] at hn
    induction l with
    | nil => simp at h
    | cons x l ih =>
      obtain ⟨k, d⟩ := x
      rw [get] at hn
      by_cases hk : k = kind.toList
      · rw [if_pos hk] at hn; cases hn
      · rw [if_neg hk] at hn
        rcases List.mem_cons.1 h with h | h
        · exact hk h.symm
        · exact ih h hn

/-- C100: which documents are passed to `setup`, and with which arguments. -/
theorem C100_arguments (kind : String) (d : Doc F) (b : Fields F) (i : Option (Doc F)) :
    arguments kind d = .ok (b, i) ↔ ∃ l, d = .obj l ∧ get kind l = some (.obj b) ∧ i = get "index" l ∧
      ∀ name ∈ ["self", "index", "validate"], get name b = none := by
  constructor
  · intro h
    rw [arguments] at h
    have hf : fetch kind d = .ok (b, i) := by
      cases hr : (root d).has kind with
      | error e => rw [hr] at h; cases h
      | ok x =>
        rw [hr] at h
        cases x with
        | true => exact h
        | false => cases h
    cases d with
    | obj l =>
      rw [fetch] at hf
      cases hg : get kind l with
      | none => rw [hg, passed] at hf; cases hf; exact nofun
      | some e =>
        rw [hg] at hf
        cases e with
        | obj b' =>
          rw [passed] at hf
          by_cases hc : ((get "self" b').isSome || (get "index" b').isSome || (get "validate" b').isSome) = true
          · rw [if_pos hc] at hf; cases hf
          · rw [if_neg hc] at hf
            cases hf
            simp only [Bool.or_eq_true, not_or, Bool.not_eq_true, Option.isSome_eq_false_iff, Option.isNone_iff_eq_none] at hc
            refine ⟨l, rfl, hg, rfl, ?_⟩
            intro name hn
            simp only [List.mem_cons, List.not_mem_nil, or_false] at hn
            rcases hn with rfl | rfl | rfl
            · exact hc.1.1
            · exact hc.1.2
            · exact hc.2
        | _ => cases hf
    | _ => cases hf
  · rintro ⟨l, rfl, h1, rfl, h2⟩
    rw [arguments, has_obj, h1]
    show fetch kind (.obj l) = _
    rw [fetch, h1, passed, h2 "self" (by simp), h2 "index" (by simp), h2 "validate" (by simp)]
    rfl

/-- C100: a string that cannot be decoded is malformed, and a dictionary that has other keys is of the wrong type. -/
theorem C100_refused (k : Codec.Codecs (Doc F) (List (Fin 256))) (r : Reading F) (key : Fields F → Vec → ℕ) (start : ℕ) (s : List Char) :
    (∀ e, Codec.stringToJson k s = .error e → loadFromString k r key start s = .error .malformedBlueprintString) ∧
    (∀ l, Codec.stringToJson k s = .ok (.obj l) → "blueprint".toList ∉ l.map Prod.fst → l ≠ [] →
      loadFromString k r key start s = .error .incorrectBlueprintType) := by
  constructor
  · intro e he
    have : e = .malformedBlueprintString := by
      rw [Codec.stringToJson] at he
      split at he
      · cases he
      · cases he; rfl
    rw [loadFromString, he, this]
    rfl
  · intro l hl hk hn
    rw [loadFromString, hl]
    have ha : arguments "blueprint" (Doc.obj l) = .error .incorrectBlueprintType := by
      rw [arguments, has_obj, get_none hk]
      cases l with
      | nil => exact absurd rfl hn
      | cons x l => rfl
    simp only [bind, Except.bind]
    rw [ha]

/-- C100: a string that holds a dictionary with a value of another kind under the key, or with a key `"index"`, `"self"` or `"validate"` in it, is a
`TypeError`. -/
theorem C100_typeError (k : Codec.Codecs (Doc F) (List (Fin 256))) (r : Reading F) (key : Fields F → Vec → ℕ) (start : ℕ) (s : List Char) (l : Fields F)
    (h : Codec.stringToJson k s = .ok (.obj l)) (e : Doc F) (he : get "blueprint" l = some e)
    (hb : ∀ b, e = .obj b → ∃ name ∈ ["self", "index", "validate"], get name b ≠ none) :
    loadFromString k r key start s = .error .typeError := by
  have ha : arguments "blueprint" (Doc.obj l) = .error .typeError := by
    rw [arguments, has_obj, he]
    show fetch "blueprint" (.obj l) = _
    rw [fetch, he]
    cases e with
    | obj b =>
      obtain ⟨name, hn, hg⟩ := hb b rfl
      rw [passed, if_pos]
      simp only [Bool.or_eq_true, Option.isSome_iff_ne_none]
      simp only [List.mem_cons, List.not_mem_nil, or_false] at hn
      rcases hn with rfl | rfl | rfl
      · exact Or.inl (Or.inl hg)
      · exact Or.inl (Or.inr hg)
      · exact Or.inr hg
    | _ => rfl
  rw [loadFromString, h]
  simp only [bind, Except.bind]
  rw [ha]

/-! ### Examples -/

/-- Whole coordinates are integers, halves are floats. -/
def exWriting : Writing Nat where
  num q := if q.den = 1 then .int q.num else .float (q.num.natAbs / 2)
  tile n := .str (if n = 1 then "concrete" else "landfill").toList
  sched n := if n = 0 then none else some (.int n)

@[inherit_doc exWriting] def exReading : Reading Nat where
  attr _ d := .ok (if isNull d then none else some d)
  version := .int 9
  num
    | .int n => .ok n
    | .float n => .ok (n + 1 / 2)
    | _ => .error .typeError
  tile
    | .str s => if s = "concrete".toList then .ok 1 else .ok 2
    | _ => .error .typeError
  sched
    | none => .ok 0
    | some (.int n) => .ok n.toNat
    | _ => .error .typeError

theorem exWriting_written : Written exWriting := by
  refine ⟨fun q => ?_, fun n => ?_, fun n d h => ?_⟩
  · show Doc.Proper (if _ then _ else _)
    by_cases h : q.den = 1
    · rw [if_pos h]; exact int_proper _
    · rw [if_neg h, Doc.Proper.eq_def]; trivial
  · show Doc.Proper (.str _)
    rw [Doc.Proper.eq_def]; trivial
  · have : (if n = 0 then none else some (.int n)) = some d := h
    by_cases hn : n = 0
    · rw [if_pos hn] at this; cases this
    · rw [if_neg hn] at this; cases this; exact int_proper _

/-- Two belts and a chest: the second belt is like the first if it is put where the first is. -/
def exFields (u : ℕ) : Fields Nat :=
  if u = 1 then [("name".toList, .str "wooden-chest".toList), ("bar".toList, .int 3)] else [("name".toList, .str "transport-belt".toList)]

/-- Attributes: a label and perhaps a version. -/
def exAttrs (version : Option (Doc Nat)) (n : String) : Option (Doc Nat) :=
  if n = "label" then some (.str "é".toList) else if n = "version" then version else none

@[inherit_doc exFields] def exWhole (third : Vec) (version : Option (Doc Nat)) (extra : Fields Nat) : Whole Nat where
  full := { (exBp third) with
    bp := { (exBp third).bp with heap := fun u => if u = 0 then ⟨.blueprint, ⟨0, 0⟩, none, [1, 2, 3]⟩ else ⟨.entity, if u = 1 then ⟨3 / 2, 1⟩ else if u = 2 then ⟨3, 3⟩ else third, some 0, []⟩ }
    content := exFields }
  attrs := exAttrs version
  index := some 4
  extra := extra

/-- The kind and the place in one number. -/
def exLook (c : Fields Nat) (v : Vec) : ℕ := exKey c.length v

def exDictionary (third : Vec) : Dictionary (Fields Nat) := ⟨some [(1, exFields 1, ⟨1 / 2, 1⟩), (2, exFields 2, ⟨2, 3⟩), (3, exFields 3, third)], some [(1, ⟨0, 1⟩)],
  some [⟨[3], 5⟩], some [⟨1, 1, 3, 1⟩, ⟨1, 1, 2, 1⟩], none, some ⟨2, 0⟩⟩

theorem exFields_fine (u : ℕ) : Fine ["position".toList, "entity_number".toList] (exFields u) := by
  by_cases h : u = 1
  · rw [exFields, if_pos h]
    refine ⟨by decide +kernel, ?_, by decide +kernel⟩
    intro x hx
    simp only [List.mem_cons, List.not_mem_nil, or_false] at hx
    rcases hx with rfl | rfl <;> (rw [Doc.Proper.eq_def]; trivial)
  · rw [exFields, if_neg h]
    refine ⟨by decide +kernel, ?_, by decide +kernel⟩
    intro x hx
    simp only [List.mem_cons, List.not_mem_nil, or_false] at hx
    rcases hx with rfl
    rw [Doc.Proper.eq_def]; trivial

theorem exWhole_sane (third : Vec) (version : Option (Doc Nat)) (hv : version = none ∨ version = some (.int 7)) (extra : Fields Nat)
    (he : extra = [] ∨ extra = [("foo".toList, .int 1)]) : Sane exReading (exWhole third version extra) := by
  constructor
  · intro n hn d hd
    have hd : exAttrs version n = some d := hd
    have : d = .str "é".toList ∨ d = .int 7 := by
      rw [exAttrs] at hd
      by_cases h1 : n = "label"
      · rw [if_pos h1] at hd; exact .inl (Option.some.inj hd).symm
      · rw [if_neg h1] at hd
        by_cases h2 : n = "version"
        · rw [if_pos h2] at hd
          rcases hv with rfl | rfl
          · cases hd
          · exact .inr (Option.some.inj hd).symm
        · rw [if_neg h2] at hd; cases hd
    rcases this with rfl | rfl
    · exact ⟨by rw [Doc.Proper.eq_def]; trivial, rfl⟩
    · exact ⟨int_proper _, rfl⟩
  · show Fine _ extra
    rcases he with rfl | rfl
    · exact ⟨List.nodup_nil, nofun, fun _ _ => nofun⟩
    · refine ⟨by decide +kernel, ?_, by decide +kernel⟩
      intro x hx
      rw [List.mem_singleton] at hx
      rw [hx]
      exact int_proper _

theorem exWhole_toDict {third v : Vec} {version : Option (Doc Nat)} {extra : Fields Nat} (h : (exWhole third version extra).full.bp.toDict.toOption = some ⟨some [(1, 1, ⟨1 / 2, 1⟩), (2, 2, ⟨2, 3⟩), (3, 3, v)], some [(1, ⟨0, 1⟩)],
    some [⟨[3], 5⟩], some [⟨1, 1, 3, 1⟩, ⟨1, 1, 2, 1⟩], none, some ⟨2, 0⟩⟩) : (exWhole third version extra).full.toDict = .ok (exDictionary v) := by
  rw [Full.toDict]
  cases hx : (exWhole third version extra).full.bp.toDict with
  | error e => rw [hx] at h; cases h
  | ok x =>
    rw [hx] at h
    rw [Option.some.inj h]
    rfl

theorem exDictionary_legible {v : Vec} (hv : Exact exWriting exReading v) : Legible exWriting exReading (exDictionary v) := by
  have e : ∀ x y : ℚ, (exReading.num (exWriting.num x)).toOption = some x → (exReading.num (exWriting.num y)).toOption = some y → Exact exWriting exReading ⟨x, y⟩ := by
    have : ∀ z : ℚ, (exReading.num (exWriting.num z)).toOption = some z → exReading.num (exWriting.num z) = .ok z := by
      intro z hz
      cases h : exReading.num (exWriting.num z) with
      | error e => rw [h] at hz; cases hz
      | ok q => rw [h] at hz; exact congrArg Except.ok (Option.some.inj hz)
    exact fun x y hx hy => ⟨this x hx, this y hy⟩
  refine ⟨?_, ?_, ?_, nofun, ?_⟩
  · intro x hx
    have : x ∈ [(1, exFields 1, (⟨1 / 2, 1⟩ : Vec)), (2, exFields 2, ⟨2, 3⟩), (3, exFields 3, v)] := hx
    simp only [List.mem_cons, List.not_mem_nil, or_false] at this
    rcases this with rfl | rfl | rfl
    · exact ⟨exFields_fine 1, e _ _ (by decide +kernel) (by decide +kernel)⟩
    · exact ⟨exFields_fine 2, e _ _ (by decide +kernel) (by decide +kernel)⟩
    · exact ⟨exFields_fine 3, hv⟩
  · intro x hx
    have : x ∈ [(1, (⟨0, 1⟩ : Vec))] := hx
    simp only [List.mem_cons, List.not_mem_nil, or_false] at this
    rw [this]
    exact ⟨rfl, e _ _ (by decide +kernel) (by decide +kernel)⟩
  · intro x hx
    have : x ∈ [(⟨[3], 5⟩ : Sched)] := hx
    simp only [List.mem_cons, List.not_mem_nil, or_false] at this
    rw [this]
    rfl
  · intro x hx
    rw [← Option.some.inj (show some (⟨2, 0⟩ : Vec) = some x from hx)]
    exact e _ _ (by decide +kernel) (by decide +kernel)

theorem ex_num (n : ℤ) : exReading.num (exWriting.num n) = .ok (n : ℚ) := by
  show exReading.num (if (n : ℚ).den = 1 then .int (n : ℚ).num else .float ((n : ℚ).num.natAbs / 2)) = _
  rw [if_pos (Rat.den_intCast n), Rat.num_intCast]
  rfl

theorem ex_exact (a b : ℤ) : Exact exWriting exReading ⟨a, b⟩ := ⟨ex_num a, ex_num b⟩

/-- The codecs of the examples. -/
abbrev exCodecs : Codec.Codecs (Doc Nat) (List (Fin 256)) := codecs halfRepr halfRead id .ok

theorem exApart : (exDictionary ⟨4, 5⟩).Apart exLook := by
  have h : ∀ i : Fin 3, ∀ j : Fin 3, exLook ((exDictionary ⟨4, 5⟩).ents[i]'i.2).2.1 ((exDictionary ⟨4, 5⟩).ents[i]'i.2).2.2 =
      exLook ((exDictionary ⟨4, 5⟩).ents[j]'j.2).2.1 ((exDictionary ⟨4, 5⟩).ents[j]'j.2).2.2 → i = j := by
    decide +kernel
  intro i j hi hj he
  exact congrArg Fin.val (h ⟨i, hi⟩ ⟨j, hj⟩ he)

/-- C100_loads, C100_same, C100_settles -/
example : ∃ s b', toString exCodecs exWriting (exWhole ⟨5, 5⟩ (some (.int 7)) []) = .ok s ∧ loadFromString exCodecs exReading exLook 7 s = .ok b' ∧
    toString exCodecs exWriting b' = .ok s :=
  C100_same half_floats (fun _ => rfl) exWriting_written exLook 7 _ (exWhole_sane ⟨5, 5⟩ (some (.int 7)) (.inr rfl) [] (.inl rfl)) nofun rfl (exDictionary ⟨4, 5⟩)
    (exWhole_toDict (by decide +kernel)) (exDictionary_legible (ex_exact 4 5)) exApart
example : (exReading.version.Proper ∧ exReading.attr "version" exReading.version = .ok (some exReading.version)) := ⟨int_proper 9, rfl⟩
/-- The text inside the string. -/
example : dumps halfRepr (toDoc exWriting (exAttrs (some (.int 7))) (some 4) [("foo".toList, .int 1)] (exDictionary ⟨4, 5⟩)) =
    ("{\"blueprint\":{\"item\":\"blueprint\",\"label\":\"\\u00e9\",\"version\":7,\"position-relative-to-grid\":{\"x\":2,\"y\":0},\"entities\":[" ++
    "{\"name\":\"wooden-chest\",\"bar\":3,\"position\":{\"x\":0.5,\"y\":1},\"entity_number\":1}," ++
    "{\"name\":\"transport-belt\",\"position\":{\"x\":2,\"y\":3},\"entity_number\":2}," ++
    "{\"name\":\"transport-belt\",\"position\":{\"x\":4,\"y\":5},\"entity_number\":3}]," ++
    "\"tiles\":[{\"name\":\"concrete\",\"position\":{\"x\":0,\"y\":1}}],\"schedules\":[{\"locomotives\":[3],\"schedule\":5}]," ++
    "\"wires\":[[1,1,3,1],[1,1,2,1]]},\"index\":4,\"foo\":1}").toList := by decide +kernel

theorem string_inj {d d' : Doc Nat} (h : Codec.jsonToString exCodecs d = Codec.jsonToString exCodecs d') : dumps halfRepr d = dumps halfRepr d' := by
  have := congrArg (fun s : List Char => b64decode (s.drop 1)) h
  simp only [Codec.jsonToString, List.drop_succ_cons, List.drop_zero] at this
  have hb : encode (dumps halfRepr d) = encode (dumps halfRepr d') := Except.ok.inj ((C03_base64 _).symm.trans (this.trans (C03_base64 _)))
  exact Except.ok.inj ((decode_encode _ (dumps_ascii half_floats _)).symm.trans ((congrArg decode hb).trans (decode_encode _ (dumps_ascii half_floats _))))

/-- C100: without the hypothesis that no two entities look alike the string may be another one: ids are not exported, so that the wires and schedules of
the second of two like entities go to the first. -/
theorem C100_same_refuted : ¬ ∀ (b : Whole ℕ) (s : List Char) (b' : Whole ℕ), Sane exReading b → b.attrs "version" ≠ none → b.extra = [] →
    toString exCodecs exWriting b = .ok s → loadFromString exCodecs exReading exLook 7 s = .ok b' → toString exCodecs exWriting b' = .ok s := by
  intro h
  have hd : (exWhole ⟨3, 3⟩ (some (.int 7)) []).full.toDict = .ok (exDictionary ⟨2, 3⟩) := exWhole_toDict (by decide +kernel)
  have hs := exWhole_sane ⟨3, 3⟩ (some (.int 7)) (.inr rfl) [] (.inl rfl)
  obtain ⟨s, b', h1, h2, h3, h4, h5, h6⟩ := C100_loads half_floats (compress := id) (decompress := .ok) (fun _ => rfl) exWriting_written exLook 7 _ hs
    (exDictionary ⟨2, 3⟩) hd (exDictionary_legible (ex_exact 2 3))
  have h7 := h _ s b' hs nofun rfl h1 h2
  have hn : (match (exWhole ⟨3, 3⟩ (some (.int 7)) []).full.toDict, load exLook 7 (exDictionary ⟨2, 3⟩) with
    | .ok d, .ok f => match f.toDict with
      | .ok d' => decide (dumps halfRepr (toDoc exWriting (exAttrs (some (.int 7))) (some 4) [] d) = dumps halfRepr (toDoc exWriting (exAttrs (some (.int 7))) (some 4) [] d'))
      | _ => true
    | _, _ => true) = false := by decide +kernel
  rw [hd, h3] at hn
  dsimp only at hn
  rw [toString] at h7
  cases hx : b'.full.toDict with
  | error e => rw [hx] at h7; cases h7
  | ok d' =>
    rw [hx] at hn h7
    rw [toString, hd] at h1
    rw [h4, h5] at h7
    have he := string_inj (Except.ok.inj (h7.trans h1.symm))
    have hb : body exWriting b'.attrs d' = body exWriting (exAttrs (some (.int 7))) d' := by
      apply body_congr
      intro n hn
      rw [h6 n hn]
      by_cases e : n = "version"
      · rw [if_pos e, e]; rfl
      · rw [if_neg e]; rfl
    rw [toDoc, hb] at he
    exact absurd he.symm (of_decide_eq_false hn)

/-- C100: a blueprint without a version does not stay so: the version of the game is in the string the next time. -/
theorem C100_version_refuted : ¬ ∀ (b : Whole ℕ) (s : List Char) (b' : Whole ℕ), Sane exReading b → b.extra = [] →
    toString exCodecs exWriting b = .ok s → loadFromString exCodecs exReading exLook 7 s = .ok b' → b'.attrs "version" = b.attrs "version" := by
  intro h
  have hs := exWhole_sane ⟨5, 5⟩ none (.inl rfl) [] (.inl rfl)
  obtain ⟨s, b', h1, h2, h3, h4, h5, h6⟩ := C100_loads half_floats (compress := id) (decompress := .ok) (fun _ => rfl) exWriting_written exLook 7 _ hs
    (exDictionary ⟨4, 5⟩) (exWhole_toDict (by decide +kernel)) (exDictionary_legible (ex_exact 4 5))
  have h7 := h _ s b' hs rfl h1 h2
  rw [h6 "version" (by decide)] at h7
  cases h7

/-- A document with an unknown key in the blueprint. -/
def foreignBody : Fields Nat := [("item".toList, .str "blueprint".toList), ("version".toList, .int 7), ("foo".toList, .int 1)]
@[inherit_doc foreignBody] def foreign : Doc Nat := .obj [("blueprint".toList, .obj foreignBody)]

theorem foreign_proper : foreign.Proper := by
  simp only [foreign, foreignBody, Doc.Proper, properPairs, and_true]
  decide +kernel

theorem load_steps {k : Codec.Codecs (Doc Nat) (List (Fin 256))} {s : List Char} {d : Doc Nat} {a : Fields Nat} {x : Read Nat} {f : Full (Fields Nat)}
    (h1 : Codec.stringToJson k s = .ok d) (h2 : arguments "blueprint" d = .ok (a, none)) (h3 : readBody exReading a = .ok x)
    (h4 : load exLook 7 x.dict = .ok f) : loadFromString k exReading exLook 7 s = .ok ⟨f, x.attrs, none, x.extra⟩ := by
  simp only [loadFromString, loadWhole, bind, Except.bind, h1, h2, h3, h4, Option.filter_none, readKey]

/-- C100: an unknown key in a blueprint is exported beside the blueprint, where it is not looked for, so that it is lost the next time. -/
theorem C100_unknown_refuted : ¬ ∀ (s : List Char) (b b' : Whole ℕ) (s' : List Char), loadFromString exCodecs exReading exLook 7 s = .ok b →
    toString exCodecs exWriting b = .ok s' → loadFromString exCodecs exReading exLook 7 s' = .ok b' → b'.extra.map Prod.fst = b.extra.map Prod.fst := by
  intro h
  have hf : Codec.stringToJson exCodecs (Codec.jsonToString exCodecs foreign) = .ok foreign := C03_real _ _ half_floats _ _ (fun _ => rfl) _ foreign_proper
  have ha : arguments "blueprint" foreign = .ok (foreignBody, none) := rfl
  have hr : readBody exReading foreignBody = .ok ⟨fun n => (readAttr exReading n (get n foreignBody)).toOption.getD none, [("foo".toList, .int 1)],
      ⟨none, none, none, none, none, none⟩⟩ := rfl
  obtain ⟨f, hl⟩ : ∃ f : Full (Fields Nat), load exLook 7 (⟨none, none, none, none, none, none⟩ : Dictionary (Fields Nat)) = .ok f := ⟨_, rfl⟩
  have hd : f.toDict = .ok ⟨none, none, none, none, none, none⟩ := by
    cases hl
    rfl
  have hb : loadFromString exCodecs exReading exLook 7 (Codec.jsonToString exCodecs foreign) =
      .ok ⟨f, fun n => (readAttr exReading n (get n foreignBody)).toOption.getD none, none, [("foo".toList, .int 1)]⟩ := by
    exact load_steps hf ha hr hl
  have hs : Sane exReading ⟨f, fun n => (readAttr exReading n (get n foreignBody)).toOption.getD none, none, [("foo".toList, .int 1)]⟩ := by
    refine ⟨?_, (exWhole_sane ⟨5, 5⟩ none (.inl rfl) [("foo".toList, .int 1)] (.inr rfl)).extra⟩
    intro n hn x hx
    have : n = "version" ∨ (readAttr exReading n (get n foreignBody)).toOption.getD none = none := by
      have : ∀ n ∈ attrNames, n = "version" ∨ ((readAttr exReading n (get n foreignBody)).toOption.getD none).isNone := by decide +kernel
      exact (this n hn).imp_right Option.isNone_iff_eq_none.mp
    rcases this with rfl | hno
    · cases Option.some.inj (hx.symm.trans (rfl : _ = some (Doc.int 7)))
      exact ⟨int_proper 7, rfl⟩
    · exact absurd (hx.symm.trans hno) nofun
  obtain ⟨s', b', h1, h2, -, -, h5, -⟩ := C100_loads half_floats (compress := id) (decompress := .ok) (fun _ => rfl) exWriting_written exLook 7
    _ hs _ hd ⟨nofun, nofun, nofun, nofun, nofun⟩
  have h7 := h _ _ b' s' hb h1 h2
  rw [h5] at h7
  cases h7

/-- The string of `{}`. -/
def emptyString : List Char := Codec.jsonToString exCodecs (.obj [])

/-- C100: not every string that is no blueprint is reported as the documentation says: for the string of `{}` the error message is made of a key that does
not exist, and the result is a `StopIteration`. -/
theorem C100_documented_refuted : ¬ ∀ s e, loadFromString exCodecs exReading exLook 7 s = .error e →
    (∀ d, Codec.stringToJson exCodecs s = .ok d → ∀ l, d = .obj l → get "blueprint" l = none) → e = .malformedBlueprintString ∨ e = .incorrectBlueprintType := by
  intro h
  have h1 : Codec.stringToJson exCodecs emptyString = .ok (.obj []) := C03_real _ _ half_floats _ _ (fun _ => rfl) _ (by rw [Doc.Proper]; exact ⟨List.nodup_nil, trivial⟩)
  have h2 : loadFromString exCodecs exReading exLook 7 emptyString = .error .stopIteration := by
    rw [loadFromString, h1]
    rfl
  rcases h _ _ h2 (fun d hd l hl => by rw [h1] at hd; cases hd; cases hl; rfl) with h | h <;> cases h

/-- C100_refused, C100_typeError, C100_arguments, C57_root -/
example : loadFromString exCodecs exReading exLook 7 "0e".toList = .error .malformedBlueprintString :=
  (C100_refused exCodecs exReading exLook 7 "0e".toList).1 .malformedBlueprintString rfl

/-- A document that can be decoded. -/
theorem ex_decoded (l : Fields Nat) (h : (Doc.obj l).Proper) : Codec.stringToJson exCodecs (Codec.jsonToString exCodecs (.obj l)) = .ok (.obj l) :=
  C03_real _ _ half_floats _ _ (fun _ => rfl) _ h

example : loadFromString exCodecs exReading exLook 7 (Codec.jsonToString exCodecs (.obj [("blueprint_book".toList, .null)])) = .error .incorrectBlueprintType :=
  (C100_refused exCodecs exReading exLook 7 _).2 _ (ex_decoded _ (by simp only [Doc.Proper, properPairs, and_true]; decide)) (by decide) nofun
example : loadFromString exCodecs exReading exLook 7 (Codec.jsonToString exCodecs (.obj [("blueprint".toList, .obj [("index".toList, .int 1)])])) = .error .typeError := by
  refine C100_typeError exCodecs exReading exLook 7 _ _ (ex_decoded _ (by simp only [Doc.Proper, properPairs, and_true]; decide)) (.obj [("index".toList, .int 1)]) rfl ?_
  intro b hb
  cases hb
  exact ⟨"index", by simp, by rw [get, if_pos rfl]; exact nofun⟩
example : arguments "blueprint" (toDoc exWriting (exAttrs none) none [] (exDictionary ⟨2, 3⟩)) = .ok (body exWriting (exAttrs none) (exDictionary ⟨2, 3⟩), none) :=
  (C100_arguments _ _ _ _).2 ⟨_, rfl, rfl, rfl, by
    intro name hn
    simp only [List.mem_cons, List.not_mem_nil, or_false] at hn
    rcases hn with rfl | rfl | rfl <;> exact get_none (by decide +kernel)⟩

end BpString
end Draftsman
