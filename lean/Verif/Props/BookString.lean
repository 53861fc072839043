import Verif.Model.BookString
import Verif.Props.BpString
import Verif.Props.Codec
/-
C101: strings of books, whatever they contain, are loaded into a book that exports the same string.
-/
namespace Draftsman
namespace BookString

open Json BpString RoundTrip

variable {F : Type}

/-! ### Hypotheses -/

/-- The attributes are read as they are exported, and the unknown keys are none of those by which the class is found. -/
structure Tidy (o : Setting F) (k : Kind) (s : Shell F) : Prop where
  attrs : ∀ n ∈ names k, ∀ d, s.attrs n = some d → d.Proper ∧ o.attr k n d = .ok (some d)
  extra : Fine ["blueprint".toList, "deconstruction_planner".toList, "upgrade_planner".toList, "blueprint_book".toList, "index".toList] s.extra

mutual
/-- What is needed of all blueprints, planners and books in a book, however deep: blueprints can be exported, and everything is read as it is written. -/
def Good (w : Writing F) (r : Reading F) (o : Setting F) : Node F → Prop
  | .blueprint b => Sane r b ∧
    Fine ["blueprint".toList, "deconstruction_planner".toList, "upgrade_planner".toList, "blueprint_book".toList, "index".toList] b.extra ∧
    ∃ d, b.full.toDict = .ok d ∧ Legible w r d
  | .planner u s => Tidy o (plannerKind u) s
  | .book s ms => Tidy o .blueprintBook s ∧ Goods w r o ms
@[inherit_doc Good] def Goods (w : Writing F) (r : Reading F) (o : Setting F) : List (Node F) → Prop
  | [] => True
  | m :: ms => Good w r o m ∧ Goods w r o ms
end

mutual
/-- What is needed besides for the same string: no unknown keys, no attribute missing that would get a value when loading, and no two entities of a blueprint that look
alike (or, generally, as in C96, a dictionary that is exported again after it was loaded). -/
def Strict (o : Setting F) (key : Fields F → Vec → ℕ) (start : ℕ) : Node F → Prop
  | .blueprint b => b.extra = [] ∧ b.attrs "version" ≠ none ∧ ∃ d f, b.full.toDict = .ok d ∧ load key start d = .ok f ∧ f.toDict = .ok d
  | .planner u s => s.extra = [] ∧ ∀ n ∈ names (plannerKind u), s.attrs n = none → o.absent (plannerKind u) n = none
  | .book s ms => (s.extra = [] ∧ ∀ n ∈ names .blueprintBook, s.attrs n = none → o.absent .blueprintBook n = none) ∧ Stricts o key start ms
@[inherit_doc Strict] def Stricts (o : Setting F) (key : Fields F → Vec → ℕ) (start : ℕ) : List (Node F) → Prop
  | [] => True
  | m :: ms => Strict o key start m ∧ Stricts o key start ms
end

/-- What an attribute is exported as after loading. -/
def kept (o : Setting F) (k : Kind) (attrs : String → Option (Doc F)) (n : String) : Option (Doc F) := (attrs n).or (o.absent k n)

/-- A book or planner, apart from its members, after loading. -/
structure Kept (o : Setting F) (k : Kind) (s : Shell F) (i : Option ℕ) (s' : Shell F) : Prop where
  attrs : ∀ n ∈ names k, s'.attrs n = kept o k s.attrs n
  index : s'.index = i
  extra : s'.extra = []

mutual
/-- `n'` is `n` with the index `i` as it comes out of its dictionary: of the same class, with the same attributes, without the unknown keys, with the entities, tiles, schedules and wires
that C96 speaks of, and with the same members in the same order; a member without an index has its place for one. -/
def Back (r : Reading F) (o : Setting F) (key : Fields F → Vec → ℕ) (start : ℕ) : Node F → Option ℕ → Node F → Prop
  | .blueprint b, i, .blueprint b' => (∃ d, b.full.toDict = .ok d ∧ load key start d = .ok b'.full) ∧ b'.index = i ∧ b'.extra = [] ∧
    ∀ n ∈ attrNames, b'.attrs n = if n = "version" then some ((b.attrs n).getD r.version) else b.attrs n
  | .planner u s, i, .planner u' s' => u' = u ∧ Kept o (plannerKind u) s i s'
  | .book s ms, i, .book s' ms' => Kept o .blueprintBook s i s' ∧ Backs r o key start 0 ms ms'
  | _, _, _ => False
@[inherit_doc Back] def Backs (r : Reading F) (o : Setting F) (key : Fields F → Vec → ℕ) (start : ℕ) : ℕ → List (Node F) → List (Node F) → Prop
  | _, [], [] => True
  | i, m :: ms, m' :: ms' => Back r o key start m (some (m.index.getD i)) m' ∧ Backs r o key start (i + 1) ms ms'
  | _, _, _ => False
end

/-! ### Documents with a root key -/

/-- The form of all exported documents. -/
def rootDoc (k : Kind) (body : Fields F) (index : Option ℕ) (extra : Fields F) : Doc F :=
  .obj (((rootKey k).toList, .obj body) :: (entry "index" (index.map fun i : Nat => .int i) ++ extra.filter fun x => !isNull x.2))

/-- No entry is named like an argument that is passed besides. -/
structure Clean (k : Kind) (body : Fields F) : Prop where
  self : get "self" body = none
  index : get "index" body = none
  validate : get "validate" body = none
  proper : (Doc.obj body).Proper

/-- The keys by which the class is found. -/
abbrev roots : List (List Char) :=
  ["blueprint".toList, "deconstruction_planner".toList, "upgrade_planner".toList, "blueprint_book".toList, "index".toList]

theorem get_filter_none {key : String} {l : Fields F} (p : List Char × Doc F → Bool) (h : key.toList ∉ l.map Prod.fst) : get key (l.filter p) = none := by
  apply get_none
  intro hm
  obtain ⟨x, hx, hk⟩ := List.mem_map.1 hm
  exact h (List.mem_map.2 ⟨x, List.mem_of_mem_filter hx, hk⟩)

theorem rootKey_mem (k : Kind) : (rootKey k).toList ∈ roots ∧ (rootKey k).toList ≠ "index".toList := by
  cases k <;> decide +kernel

theorem rootKey_inj {k k' : Kind} (h : (rootKey k).toList = (rootKey k').toList) : k = k' := by
  revert h
  cases k <;> cases k' <;> decide +kernel

/-- The entries of the document, with or without a number that was put in. -/
def entries (k : Kind) (body : Fields F) (index : Option ℕ) (extra : Fields F) (last : Fields F) : Fields F :=
  ((rootKey k).toList, .obj body) :: (entry "index" (index.map fun i : Nat => .int i) ++ extra.filter fun x => !isNull x.2) ++ last

theorem get_entries {k k' : Kind} {body : Fields F} {index : Option ℕ} {extra : Fields F} (he : Fine roots extra) (j : Option ℕ) :
    get (rootKey k') (entries k body index extra (entry "index" (j.map fun i : Nat => .int i))) = if k' = k then some (.obj body) else none := by
  rw [entries, List.cons_append, BpString.get]
  by_cases h : k' = k
  · rw [h, if_pos rfl, if_pos rfl]
  · rw [if_neg (fun e => h (rootKey_inj e).symm), if_neg h, get_append, get_append, get_entry_ne (rootKey_mem k').2.symm, get_entry_ne (rootKey_mem k').2.symm,
      get_filter_none _ (he.other _ (rootKey_mem k').1)]
    rfl

theorem get_entries_index {k : Kind} {body : Fields F} {index : Option ℕ} {extra : Fields F} (he : Fine roots extra) (j : Option ℕ) :
    get "index" (entries k body index extra (entry "index" (j.map fun i : Nat => .int i))) = (index.or j).map fun i : Nat => .int i := by
  rw [entries, List.cons_append, BpString.get, if_neg (rootKey_mem k).2, get_append, get_append, get_entry_self, get_entry_self,
    get_filter_none _ (he.other _ (by decide +kernel))]
  cases index <;> cases j <;> rfl

theorem rootDoc_eq (k : Kind) (body : Fields F) (index : Option ℕ) (extra : Fields F) : rootDoc k body index extra = .obj (entries k body index extra []) := by
  rw [entries, List.append_nil]
  rfl

/-- The number that a member gets in its book. -/
theorem number_rootDoc (i : ℕ) (k : Kind) (body : Fields F) (index : Option ℕ) {extra : Fields F} (he : Fine roots extra) :
    number i (rootDoc k body index extra) = .obj (entries k body index extra (entry "index" ((if index = none then some i else none).map fun i : Nat => .int i))) := by
  have h := get_entries_index (k := k) (body := body) (index := index) he none
  rw [rootDoc_eq, number]
  change get "index" (entries k body index extra []) = _ at h
  rw [h]
  cases index with
  | none =>
    rw [if_neg (by simp), if_pos rfl, entries, entries, List.append_nil]
    rfl
  | some j =>
    rw [if_pos (by simp), if_neg (by simp)]
    rfl

theorem fine_nil {names : List (List Char)} : Fine names ([] : Fields F) := ⟨List.nodup_nil, nofun, fun _ _ => nofun⟩

theorem number_same (i j : ℕ) (k : Kind) (body : Fields F) : number i (rootDoc k body (some j) []) = rootDoc k body (some j) [] := by
  rw [number_rootDoc i k body (some j) fine_nil, rootDoc_eq]
  rfl

theorem number_plain (i : ℕ) (k : Kind) (body : Fields F) (index : Option ℕ) : number i (rootDoc k body index []) = rootDoc k body (some (index.getD i)) [] := by
  rw [number_rootDoc i k body index fine_nil, rootDoc_eq]
  cases index <;> rfl

theorem passed_clean {k : Kind} {body : Fields F} (h : Clean k body) (x : Option (Doc F)) : passed x (some (.obj body)) = .ok (body, x) := by
  rw [passed, h.self, h.index, h.validate]
  rfl

theorem fetch_entries {k : Kind} {body : Fields F} (h : Clean k body) {index : Option ℕ} {extra : Fields F} (he : Fine roots extra) (j : Option ℕ) :
    fetch (rootKey k) (.obj (entries k body index extra (entry "index" (j.map fun i : Nat => .int i)))) = .ok (body, (index.or j).map fun i : Nat => .int i) := by
  rw [fetch, get_entries he, if_pos rfl, get_entries_index he, passed_clean h]

theorem split_entries {k : Kind} {body : Fields F} (h : Clean k body) {index : Option ℕ} {extra : Fields F} (he : Fine roots extra) (j : Option ℕ) :
    split (.obj (entries k body index extra (entry "index" (j.map fun i : Nat => .int i)))) = .ok (k, body, (index.or j).map fun i : Nat => .int i) := by
  have g := fun k' => get_entries (k := k) (k' := k') (body := body) (index := index) he j
  have f := fetch_entries h (index := index) he j
  have g1 := g .blueprint
  have g2 := g .deconstructionPlanner
  have g3 := g .upgradePlanner
  have g4 := g .blueprintBook
  simp only [rootKey] at g1 g2 g3 g4
  rw [split, g1, g2, g3, g4]
  cases k <;> simp only [rootKey] at f <;> simp only [reduceCtorEq, if_true, if_false, Option.isSome_some, Option.isSome_none, Bool.false_eq_true] <;> rw [f] <;> rfl

theorem entries_proper {k : Kind} {body : Fields F} (h : Clean k body) {index : Option ℕ} {extra : Fields F} (he : Fine roots extra) (j : Option ℕ)
    (hj : index = none ∨ j = none) : (Doc.obj (entries k body index extra (entry "index" (j.map fun i : Nat => .int i)))).Proper := by
  have hs : ((extra.filter fun x => !isNull x.2).map Prod.fst).Sublist (extra.map Prod.fst) := List.filter_sublist.map _
  have hi : ∀ o : Option ℕ, ∀ x ∈ entry "index" (o.map fun i : Nat => (.int i : Doc F)), x.2.Proper := by
    intro o
    refine entry_proper _ _ fun d hd => ?_
    cases o with
    | none => cases hd
    | some i => rw [← Option.some.inj hd]; exact int_proper _
  have hr : (rootKey k).toList ∉ extra.map Prod.fst := he.other _ (rootKey_mem k).1
  have hx : "index".toList ∉ extra.map Prod.fst := he.other _ (by decide +kernel)
  rw [Doc.Proper, properPairs_iff]
  constructor
  · rw [entries, List.map_append, List.map_cons, List.map_append]
    rcases hj with rfl | rfl
    · show ((rootKey k).toList :: List.map Prod.fst (extra.filter fun x => !isNull x.2) ++ _).Nodup
      refine List.Sublist.nodup ((hs.cons_cons _).append (entry_keys "index" _)) ?_
      rw [List.nodup_append, List.nodup_cons]
      refine ⟨⟨hr, he.once⟩, List.nodup_singleton _, fun a ha b hb hab => ?_⟩
      rw [List.mem_singleton] at hb
      rw [hab, hb] at ha
      rcases List.mem_cons.1 ha with ha | ha
      · exact (rootKey_mem k).2 ha.symm
      · exact hx ha
    · show (_ ++ []).Nodup
      rw [List.append_nil]
      refine List.Sublist.nodup ((((entry_keys "index" _).append hs)).cons_cons _) ?_
      rw [List.singleton_append, List.nodup_cons, List.nodup_cons, List.mem_cons, not_or]
      exact ⟨⟨(rootKey_mem k).2, hr⟩, hx, he.once⟩
  · intro x hm
    rw [entries, List.cons_append] at hm
    rcases List.mem_cons.1 hm with rfl | hm
    · exact h.proper
    · rcases List.mem_append.1 hm with hm | hm
      · rcases List.mem_append.1 hm with hm | hm
        · exact hi _ x hm
        · exact he.proper x (List.mem_of_mem_filter hm)
      · exact hi _ x hm

/-! ### Books and planners apart from the members -/

/-- All keys that are written. -/
def allKeys (k : Kind) : List String := "item" :: names k ++ ["blueprints"]

theorem allKeys_nodup (k : Kind) : ((allKeys k).map String.toList).Nodup := by
  cases k <;> decide +kernel

theorem get_shell {k : Kind} {attrs : String → Option (Doc F)} {members : Option (Doc F)} {key : String} {x : Option (Doc F)}
    (h : (key, x) ∈ (("item", some (.str (itemName k).toList)) :: ((names k).map fun n => (n, attrs n)) ++ [("blueprints", members)])) :
    get key (shellBody k attrs members) = x := by
  apply get_parts _ _ key x h
  have := allKeys_nodup k
  rw [allKeys, List.map_append, List.map_cons] at this
  rw [List.map_append, List.map_cons, List.map_map]
  exact this

theorem shell_keys {k : Kind} {attrs : String → Option (Doc F)} {members : Option (Doc F)} {x : List Char × Doc F} (h : x ∈ shellBody k attrs members) :
    (x.1 = "item".toList ∧ x.2 = .str (itemName k).toList) ∨ (∃ n ∈ names k, x.1 = n.toList ∧ attrs n = some x.2) ∨ (x.1 = "blueprints".toList ∧ members = some x.2) := by
  obtain ⟨p, hp, he⟩ := List.mem_flatMap.1 h
  obtain ⟨h1, h2⟩ := entry_mem he
  rcases List.mem_append.1 hp with hp | hp
  · rcases List.mem_cons.1 hp with rfl | hp
    · exact .inl ⟨h1, (Option.some.inj h2).symm⟩
    · obtain ⟨n, hn, rfl⟩ := List.mem_map.1 hp
      exact .inr (.inl ⟨n, hn, h1, h2⟩)
  · rw [List.mem_singleton] at hp
    subst hp
    exact .inr (.inr ⟨h1, h2⟩)

theorem shell_unknown {k : Kind} {attrs : String → Option (Doc F)} {members : Option (Doc F)} {key : String} (h : key.toList ∉ (allKeys k).map String.toList) :
    get key (shellBody k attrs members) = none := by
  apply get_none
  intro hm
  obtain ⟨x, hx, hk⟩ := List.mem_map.1 hm
  refine h (hk ▸ ?_)
  rw [allKeys, List.map_append, List.map_cons]
  rcases shell_keys hx with ⟨h, -⟩ | ⟨n, hn, h, -⟩ | ⟨h, -⟩ <;> rw [h]
  · exact List.mem_cons_self
  · exact List.mem_append_left _ (List.mem_cons_of_mem _ (List.mem_map_of_mem hn))
  · exact List.mem_append_right _ (List.mem_singleton.2 rfl)

theorem shell_clean {k : Kind} (hk : k ≠ .blueprint) {o : Setting F} {s : Shell F} (h : Tidy o k s) {members : Option (Doc F)} (hm : ∀ d, members = some d → d.Proper) :
    Clean k (shellBody k s.attrs members) := by
  refine ⟨shell_unknown ?_, shell_unknown ?_, shell_unknown ?_, ?_⟩
  · cases k <;> decide +kernel
  · cases k <;> decide +kernel
  · cases k <;> decide +kernel
  · rw [Doc.Proper, properPairs_iff]
    constructor
    · have : ∀ ps : List (String × Option (Doc F)), ((ps.flatMap fun p => entry p.1 p.2).map Prod.fst).Sublist (ps.map fun p => p.1.toList) := by
        intro ps
        induction ps with
        | nil => simp
        | cons p ps ih =>
          rw [List.flatMap_cons, List.map_append, List.map_cons]
          exact (entry_keys p.1 p.2).append ih
      refine (this _).nodup ?_
      have := allKeys_nodup k
      rw [allKeys, List.map_append, List.map_cons] at this
      rw [List.map_append, List.map_cons, List.map_map]
      exact this
    · intro x hx
      rcases shell_keys hx with ⟨-, h'⟩ | ⟨n, hn, -, h'⟩ | ⟨-, h'⟩
      · rw [h', Doc.Proper.eq_def]; trivial
      · exact (h.attrs n hn _ h').1
      · exact hm _ h'

theorem setShell_back {k : Kind} (hk : k ≠ .blueprint) {o : Setting F} {s : Shell F} (h : Tidy o k s) {members : Option (Doc F)} (hm : k ≠ .blueprintBook → members = none)
    (i : Option ℕ) : ∃ s', setShell o k (shellBody k s.attrs members) (i.map fun i : Nat => .int i) = .ok s' ∧ Kept o k s i s' := by
  have hi : readKey readNat ((i.map fun i : Nat => (.int i : Doc F)).filter fun x => !isNull x) = .ok i := by
    cases i with
    | none => rfl
    | some i =>
      show readKey readNat (some (.int i : Doc F)) = _
      simp [readKey, readNat_back, bind, Except.bind]
  have hr : ∀ n ∈ names k, setAttr o k n (get n (shellBody k s.attrs members)) = .ok (kept o k s.attrs n) := by
    intro n hn
    rw [get_shell (List.mem_append_left _ (List.mem_cons_of_mem _ (List.mem_map.2 ⟨n, hn, rfl⟩))), kept]
    cases hx : s.attrs n with
    | none => rfl
    | some d => exact (h.attrs n hn d hx).2
  have ha : ((names k).mapM fun n => setAttr o k n (get n (shellBody k s.attrs members))) = .ok ((names k).map (kept o k s.attrs)) := by
    rw [mapM_ok_map]
    exact hr
  have hx : (shellBody k s.attrs members).filter (fun x => decide (x.1 ∉ (knownKeys k).map String.toList)) = [] := by
    rw [List.filter_eq_nil_iff]
    intro x hx
    rw [decide_eq_true_eq]
    intro hn
    apply hn
    rw [knownKeys, List.map_append, List.map_cons]
    rcases shell_keys hx with ⟨h, -⟩ | ⟨n, hn, h, -⟩ | ⟨h, h'⟩ <;> rw [h]
    · exact List.mem_cons_self
    · exact List.mem_append_left _ (List.mem_cons_of_mem _ (List.mem_map_of_mem hn))
    · by_cases hb : k = .blueprintBook
      · rw [if_pos hb]
        exact List.mem_append_right _ (List.mem_singleton.2 rfl)
      · rw [hm hb] at h'; cases h'
  have hroot : get (rootKey k) (shellBody k s.attrs members) = none := by
    apply shell_unknown
    revert hk
    cases k <;> decide +kernel
  refine ⟨⟨fun n => (setAttr o k n (get n (shellBody k s.attrs members))).toOption.getD none, i, []⟩, ?_, fun n hn => ?_, rfl, rfl⟩
  · simp only [setShell, bind, Except.bind]
    rw [ha]
    dsimp only
    rw [hi]
    dsimp only
    rw [hroot, hx]
    rfl
  · show (setAttr o k n (get n (shellBody k s.attrs members))).toOption.getD none = _
    rw [hr n hn]
    rfl

/-! ### Members -/

theorem attach_mapM {α β : Type} (f : α → Except PyErr β) (l : List α) : (l.attach.mapM fun m => f m.1) = l.mapM f := by
  conv_rhs => rw [← List.attach_map_subtype_val l]
  rw [List.mapM_map]
  rfl

theorem build_book (r : Reading F) (o : Setting F) (key : Fields F → Vec → ℕ) (start : ℕ) (a : Fields F) (index : Option (Doc F)) :
    build r o key start .blueprintBook a index = (do
      let s ← setShell o .blueprintBook a index
      match elementsError a with
      | some e => .error e
      | none =>
        let ms ← (elements a).mapM (member r o key start)
        .ok (.book s ms)) := by
  have hm : (elements a).mapM (member r o key start) = (elements a).attach.mapM fun m => match _ : split m.1 with
      | .error e => .error e
      | .ok (k', a', i') => build r o key start k' a' i' := by
    rw [← attach_mapM]
    congr
    funext m
    rw [member]
    split
    · rename_i h
      rw [h]
      rfl
    · rename_i h
      rw [h]
      rfl
  rw [build, hm]
  congr 1

theorem elements_shell {attrs : String → Option (Doc F)} (ds : List (Doc F)) :
    elements (shellBody .blueprintBook attrs (membersDoc ds)) = ds ∧ elementsError (shellBody .blueprintBook attrs (membersDoc ds)) = none := by
  have : get "blueprints" (shellBody .blueprintBook attrs (membersDoc ds)) = membersDoc ds :=
    get_shell (List.mem_append_right _ (List.mem_singleton.2 rfl))
  rw [elements, elementsError, this]
  cases ds <;> exact ⟨rfl, rfl⟩

/-- The body of an exported document. -/
def Body (w : Writing F) (r : Reading F) (o : Setting F) (key : Fields F → Vec → ℕ) (start : ℕ) (n : Node F) (extra : Fields F) (body : Fields F) : Prop :=
  toDoc w n = .ok (rootDoc n.kind body n.index extra) ∧ Fine roots extra ∧ Clean n.kind body ∧
    ∀ i : Option ℕ, ∃ n', build r o key start n.kind body (i.map fun i : Nat => .int i) = .ok n' ∧ Back r o key start n i n'

variable {w : Writing F} {r : Reading F} {o : Setting F} (key : Fields F → Vec → ℕ) (start : ℕ)

mutual
theorem node_back (hw : Written w) : ∀ n : Node F, Good w r o n → ∃ extra body, Body w r o key start n extra body
  | .blueprint b, h => by
    rw [Good] at h
    obtain ⟨h1, h2, d, h3, h4⟩ := h
    obtain ⟨f, hf, -⟩ := C96_stable key start b.full d h3
    refine ⟨b.extra, body w b.attrs d, ?_, h2, ⟨body_unknown (by decide +kernel), body_unknown (by decide +kernel), body_unknown (by decide +kernel),
      body_proper hw (fun n hn d hd => (h1.attrs n hn d hd).1) h4⟩, fun i => ?_⟩
    · rw [toDoc, h3]
      rfl
    · obtain ⟨b', g1, g2, g3, g4, g5⟩ := loadWhole_back key start h1 h4 hf i
      refine ⟨.blueprint b', ?_, ?_⟩
      · show build r o key start .blueprint _ _ = _
        rw [build, g1]
        rfl
      · rw [Back]
        exact ⟨⟨d, h3, g2 ▸ hf⟩, g3, g4, g5⟩
  | .planner u s, h => by
    rw [Good] at h
    have hk : plannerKind u ≠ .blueprint ∧ plannerKind u ≠ .blueprintBook := by cases u <;> decide
    refine ⟨s.extra, shellBody (plannerKind u) s.attrs none, ?_, h.extra, shell_clean hk.1 h nofun, fun i => ?_⟩
    · rw [toDoc]
      rfl
    · obtain ⟨s', g1, g2⟩ := setShell_back hk.1 h (members := none) (fun _ => rfl) i
      refine ⟨.planner u s', ?_, ?_⟩
      · cases u
        · show build r o key start .deconstructionPlanner _ _ = _
          rw [build]
          change setShell o .deconstructionPlanner _ _ = _ at g1
          show (setShell o .deconstructionPlanner _ _).map _ = _
          rw [show shellBody (plannerKind false) s.attrs none = shellBody .deconstructionPlanner s.attrs none from rfl] at *
          rw [g1]
          rfl
        · show build r o key start .upgradePlanner _ _ = _
          rw [build]
          change setShell o .upgradePlanner _ _ = _ at g1
          rw [show shellBody (plannerKind true) s.attrs none = shellBody .upgradePlanner s.attrs none from rfl] at *
          rw [g1]
          rfl
      · rw [Back]
        exact ⟨rfl, g2⟩
  | .book s ms, h => by
    rw [Good] at h
    obtain ⟨ds, g1, g2, ms', g3, g4⟩ := nodes_back hw ms h.2 0
    refine ⟨s.extra, shellBody .blueprintBook s.attrs (membersDoc ds), ?_, h.1.extra, shell_clean (by decide) h.1 ?_, fun i => ?_⟩
    · rw [toDoc, g1]
      rfl
    · intro d hd
      cases ds with
      | nil => cases hd
      | cons x ds => rw [← Option.some.inj hd]; exact arr_proper _ g2
    · obtain ⟨s', k1, k2⟩ := setShell_back (by decide) h.1 (members := membersDoc ds) (fun h => absurd rfl h) i
      refine ⟨.book s' ms', ?_, ?_⟩
      · show build r o key start .blueprintBook _ _ = _
        rw [build_book, k1]
        simp only [bind, Except.bind]
        rw [(elements_shell ds).1, (elements_shell ds).2]
        dsimp only
        rw [g3]
      · rw [Back]
        exact ⟨k2, g4⟩
theorem nodes_back (hw : Written w) : ∀ ms : List (Node F), Goods w r o ms → ∀ i : ℕ, ∃ ds, toDocs w i ms = .ok ds ∧ (∀ d ∈ ds, d.Proper) ∧
    ∃ ms', ds.mapM (member r o key start) = .ok ms' ∧ Backs r o key start i ms ms'
  | [], _, i => ⟨[], by rw [toDocs], nofun, [], rfl, by rw [Backs]; trivial⟩
  | m :: ms, h, i => by
    rw [Goods] at h
    obtain ⟨extra, body, g1, g2, g3, g4⟩ := node_back hw m h.1
    obtain ⟨ds, k1, k2, ms', k3, k4⟩ := nodes_back hw ms h.2 (i + 1)
    obtain ⟨m', l1, l2⟩ := g4 (some (m.index.getD i))
    have hn := number_rootDoc i m.kind body m.index g2
    have hi : m.index.or (if m.index = none then some i else none) = some (m.index.getD i) := by cases m.index <;> rfl
    refine ⟨number i (rootDoc m.kind body m.index extra) :: ds, ?_, ?_, m' :: ms', ?_, ?_⟩
    · rw [toDocs, g1, k1]
      rfl
    · intro d hd
      rcases List.mem_cons.1 hd with rfl | hd
      · rw [hn]
        refine entries_proper g3 g2 _ ?_
        cases m.index
        · exact .inl rfl
        · exact .inr rfl
      · exact k2 d hd
    · have hm : member r o key start (number i (rootDoc m.kind body m.index extra)) = .ok m' := by
        rw [member, hn, split_entries g3 g2, hi]
        exact l1
      rw [List.mapM_cons, hm, k3]
      rfl
    · rw [Backs]
      exact ⟨l2, k4⟩
end

/-! ### The same document -/

theorem kept_body {k : Kind} {s s' : Shell F} {i : Option ℕ} (h : Kept o k s i s') (hn : ∀ n ∈ names k, s.attrs n = none → o.absent k n = none) (members : Option (Doc F)) :
    shellDoc k s' members = rootDoc k (shellBody k s.attrs members) i [] := by
  have : (names k).map (fun n => (n, s'.attrs n)) = (names k).map fun n => (n, s.attrs n) := by
    apply List.map_congr_left
    intro n hm
    rw [h.attrs n hm, kept]
    cases hx : s.attrs n with
    | none => rw [hn n hm hx]; rfl
    | some d => rfl
  rw [shellDoc, shellBody, this, h.index, h.extra]
  rfl

mutual
theorem node_same : ∀ (n : Node F) (i : Option ℕ) (n' : Node F) (d : Doc F), Back r o key start n i n' → Strict o key start n → toDoc w n = .ok d →
    ∃ body, d = rootDoc n.kind body n.index [] ∧ toDoc w n' = .ok (rootDoc n.kind body i [])
  | .blueprint b, i, n', d, h, hs, hd => by
    cases n' with
    | blueprint b' =>
      rw [Back] at h
      rw [Strict] at hs
      obtain ⟨⟨x, h1, h2⟩, h3, h4, h5⟩ := h
      obtain ⟨g1, g2, y, f, g3, g4, g5⟩ := hs
      have hxy : y = x := by rw [h1] at g3; exact (Except.ok.inj g3).symm
      subst hxy
      have hf : f = b'.full := by rw [h2] at g4; exact (Except.ok.inj g4).symm
      have hc : body w b'.attrs y = body w b.attrs y := by
        apply body_congr
        intro n hn
        rw [h5 n hn]
        by_cases e : n = "version"
        · rw [if_pos e, e]
          cases hx : b.attrs "version" with
          | none => exact absurd hx g2
          | some x => rfl
        · rw [if_neg e]
      rw [toDoc, h1] at hd
      refine ⟨body w b.attrs y, ?_, ?_⟩
      · rw [← Except.ok.inj hd, BpString.toDoc, g1]
        rfl
      · rw [toDoc, ← hf, g5]
        simp only [bind, Except.bind, BpString.toDoc]
        rw [hc, h3, h4]
        rfl
    | planner u s => exact absurd h (by simp only [Back, not_false_eq_true])
    | book s ms => exact absurd h (by simp only [Back, not_false_eq_true])
  | .planner u s, i, n', d, h, hs, hd => by
    cases n' with
    | blueprint b' => exact absurd h (by simp only [Back, not_false_eq_true])
    | planner u' s' =>
      rw [Back] at h
      rw [Strict] at hs
      obtain ⟨rfl, h⟩ := h
      rw [toDoc] at hd
      refine ⟨shellBody (plannerKind u') s.attrs none, ?_, ?_⟩
      · rw [← Except.ok.inj hd, shellDoc, hs.1]
        rfl
      · rw [toDoc, kept_body h hs.2]
        rfl
    | book s ms => exact absurd h (by simp only [Back, not_false_eq_true])
  | .book s ms, i, n', d, h, hs, hd => by
    cases n' with
    | blueprint b' => exact absurd h (by simp only [Back, not_false_eq_true])
    | planner u' s' => exact absurd h (by simp only [Back, not_false_eq_true])
    | book s' ms' =>
      rw [Back] at h
      rw [Strict] at hs
      rw [toDoc] at hd
      cases hds : toDocs w 0 ms with
      | error e => rw [hds] at hd; cases hd
      | ok ds =>
        rw [hds] at hd
        refine ⟨shellBody .blueprintBook s.attrs (membersDoc ds), ?_, ?_⟩
        · rw [← Except.ok.inj hd, shellDoc, hs.1.1]
          rfl
        · rw [toDoc, nodes_same ms 0 ms' ds h.2 hs.2 hds]
          show Except.ok _ = _
          rw [kept_body h.1 hs.1.2]
          rfl
theorem nodes_same : ∀ (ms : List (Node F)) (i : ℕ) (ms' : List (Node F)) (ds : List (Doc F)), Backs r o key start i ms ms' → Stricts o key start ms →
    toDocs w i ms = .ok ds → toDocs w i ms' = .ok ds
  | [], i, ms', ds, h, _, hd => by
    cases ms' with
    | nil => exact hd
    | cons m' ms' => exact absurd h (by simp only [Backs, not_false_eq_true])
  | m :: ms, i, ms', ds, h, hs, hd => by
    cases ms' with
    | nil => exact absurd h (by simp only [Backs, not_false_eq_true])
    | cons m' ms' =>
      rw [Backs] at h
      rw [Stricts] at hs
      rw [toDocs] at hd
      cases hx : toDoc w m with
      | error e => rw [hx] at hd; cases hd
      | ok d =>
        rw [hx] at hd
        cases hy : toDocs w (i + 1) ms with
        | error e => rw [hy] at hd; cases hd
        | ok ds' =>
          rw [hy] at hd
          obtain ⟨body, h1, h2⟩ := node_same m _ m' d h.1 hs.1 hx
          rw [toDocs, h2, nodes_same ms (i + 1) ms' ds' h.2 hs.2 hy, ← Except.ok.inj hd]
          show Except.ok _ = Except.ok _
          rw [h1, number_same, number_plain]
end

/-- What is put in for missing keys is read as it is exported. -/
def Settled (r : Reading F) (o : Setting F) : Prop :=
  (r.version.Proper ∧ r.attr "version" r.version = .ok (some r.version)) ∧ ∀ k n d, o.absent k n = some d → d.Proper ∧ o.attr k n d = .ok (some d)

theorem kept_tidy (ho : Settled r o) {k : Kind} {s s' : Shell F} {i : Option ℕ} (hs : Tidy o k s) (h : Kept o k s i s') :
    Tidy o k s' ∧ s'.extra = [] ∧ ∀ n ∈ names k, s'.attrs n = none → o.absent k n = none := by
  refine ⟨⟨fun n hn d hd => ?_, by rw [h.extra]; exact fine_nil⟩, h.extra, fun n hn hd => ?_⟩
  · rw [h.attrs n hn, kept] at hd
    cases hx : s.attrs n with
    | none => rw [hx, Option.none_or] at hd; exact ho.2 _ _ _ hd
    | some e => rw [hx] at hd; exact hs.attrs n hn d (hx.trans hd)
  · rw [h.attrs n hn, kept] at hd
    exact (Option.or_eq_none_iff.1 hd).2

mutual
theorem node_settled (ho : Settled r o) : ∀ (n : Node F) (i : Option ℕ) (n' : Node F), Back r o key start n i n' → Good w r o n →
    Good w r o n' ∧ Strict o key start n' ∧ n'.index = i
  | .blueprint b, i, n', h, hg => by
    cases n' with
    | blueprint b' =>
      rw [Back] at h
      rw [Good] at hg
      obtain ⟨⟨x, h1, h2⟩, h3, h4, h5⟩ := h
      obtain ⟨g1, g2, y, g3, g4⟩ := hg
      have hxy : y = x := by rw [h1] at g3; exact (Except.ok.inj g3).symm
      subst hxy
      obtain ⟨d', f', k1, k2, k3, k4⟩ := loaded_legible key start g3 g4 h2 start
      rw [Good, Strict]
      refine ⟨⟨loaded_sane g1 ho.1 h4 h5, by rw [h4]; exact fine_nil, d', k1, k2⟩, ⟨h4, ?_, d', f', k1, k3, k4⟩, h3⟩
      rw [h5 "version" (by decide +kernel), if_pos rfl]
      exact nofun
    | planner u s => exact absurd h (by simp only [Back, not_false_eq_true])
    | book s ms => exact absurd h (by simp only [Back, not_false_eq_true])
  | .planner u s, i, n', h, hg => by
    cases n' with
    | blueprint b' => exact absurd h (by simp only [Back, not_false_eq_true])
    | planner u' s' =>
      rw [Back] at h
      rw [Good] at hg
      obtain ⟨rfl, h⟩ := h
      obtain ⟨h1, h2, h3⟩ := kept_tidy ho hg h
      rw [Good, Strict]
      exact ⟨h1, ⟨h2, h3⟩, h.index⟩
    | book s ms => exact absurd h (by simp only [Back, not_false_eq_true])
  | .book s ms, i, n', h, hg => by
    cases n' with
    | blueprint b' => exact absurd h (by simp only [Back, not_false_eq_true])
    | planner u' s' => exact absurd h (by simp only [Back, not_false_eq_true])
    | book s' ms' =>
      rw [Back] at h
      rw [Good] at hg
      obtain ⟨h1, h2, h3⟩ := kept_tidy ho hg.1 h.1
      obtain ⟨h4, h5⟩ := nodes_settled ho ms 0 ms' h.2 hg.2
      rw [Good, Strict]
      exact ⟨⟨h1, h4⟩, ⟨⟨h2, h3⟩, h5⟩, h.1.index⟩
theorem nodes_settled (ho : Settled r o) : ∀ (ms : List (Node F)) (i : ℕ) (ms' : List (Node F)), Backs r o key start i ms ms' → Goods w r o ms →
    Goods w r o ms' ∧ Stricts o key start ms'
  | [], i, ms', h, _ => by
    cases ms' with
    | nil => rw [Goods, Stricts]; exact ⟨trivial, trivial⟩
    | cons m' ms' => exact absurd h (by simp only [Backs, not_false_eq_true])
  | m :: ms, i, ms', h, hg => by
    cases ms' with
    | nil => exact absurd h (by simp only [Backs, not_false_eq_true])
    | cons m' ms' =>
      rw [Backs] at h
      rw [Goods] at hg
      obtain ⟨h1, h2, -⟩ := node_settled ho m _ m' h.1 hg.1
      obtain ⟨h3, h4⟩ := nodes_settled ho ms (i + 1) ms' h.2 hg.2
      rw [Goods, Stricts]
      exact ⟨⟨h1, h3⟩, h2, h4⟩
end

/-! ### C101 -/

/-! ### The keys of the format -/

/-- The keys of planners and books in the game's format, apart from `item` and the members. -/
def formatKeys : Kind → List String
  | .blueprint => []
  | .deconstructionPlanner => ["label", "settings", "version"]
  | .upgradePlanner => ["label", "settings", "version"]
  | .blueprintBook => ["label", "label_color", "description", "icons", "version", "active_index"]

theorem formatKeys_names {k : Kind} {n : String} (h : n ∈ formatKeys k) : n ∈ names k := by
  have : ∀ k, ∀ n ∈ formatKeys k, n ∈ names k := by
    intro k
    cases k <;> decide +kernel
  exact this k n h

theorem mapM_ok_mem {α β : Type} {f : α → Except PyErr β} {l : List α} {r : List β} (h : l.mapM f = .ok r) {a : α} (ha : a ∈ l) : ∃ b, f a = .ok b := by
  rw [mapM_ok_iff] at h
  induction h with
  | nil => cases ha
  | cons h _ ih =>
    rcases List.mem_cons.1 ha with rfl | ha
    · exact ⟨_, h⟩
    · exact ih ha

theorem setShell_attrs {k : Kind} {o : Setting F} {a : Fields F} {index : Option (Doc F)} {s : Shell F} (h : setShell o k a index = .ok s) {n : String} (hn : n ∈ names k) :
    setAttr o k n (get n a) = .ok (s.attrs n) := by
  simp only [setShell, bind, Except.bind] at h
  cases hm : (names k).mapM fun n => setAttr o k n (get n a) with
  | error e => rw [hm] at h; cases h
  | ok xs =>
    rw [hm] at h
    dsimp only at h
    cases hi : readKey readNat (index.filter fun x => !isNull x) with
    | error e => rw [hi] at h; cases h
    | ok i =>
      rw [hi] at h
      dsimp only at h
      by_cases hr : (get (rootKey k) a).isSome = true
      · rw [if_pos hr] at h; cases h
      · rw [if_neg hr] at h
        cases h
        obtain ⟨x, hx⟩ := mapM_ok_mem hm hn
        dsimp only at hx ⊢
        rw [hx]
        rfl

theorem shell_exported {k : Kind} {o : Setting F} {a : Fields F} {index : Option (Doc F)} {s : Shell F} (h : setShell o k a index = .ok s) {n : String} (hn : n ∈ names k)
    (members : Option (Doc F)) : ∃ body rest, shellDoc k s members = .obj (((rootKey k).toList, .obj body) :: rest) ∧ (∀ v, get n a = some v → o.attr k n v = .ok (get n body)) ∧
      (get n a = none → get n body = o.absent k n) := by
  refine ⟨_, _, rfl, ?_⟩
  rw [get_shell (List.mem_append_left _ (List.mem_cons_of_mem _ (List.mem_map.2 ⟨n, hn, rfl⟩)))]
  have := setShell_attrs h hn
  constructor
  · intro v hv
    rw [hv] at this
    exact this
  · intro hv
    rw [hv] at this
    exact (Except.ok.inj this).symm

/-- C101: every key of the format is taken from the dictionary that is loaded, and exported as what its assignment made of it. -/
theorem C101_attributes {k : Kind} {a : Fields F} {index : Option (Doc F)} {n : Node F} (hb : build r o key start k a index = .ok n) {d : Doc F}
    (hd : toDoc w n = .ok d) {name : String} (hn : name ∈ formatKeys k) :
    ∃ body rest, d = .obj (((rootKey k).toList, .obj body) :: rest) ∧ (∀ v, get name a = some v → o.attr k name v = .ok (get name body)) ∧
      (get name a = none → get name body = o.absent k name) := by
  have hn' := formatKeys_names hn
  cases k with
  | blueprint => cases hn
  | blueprintBook =>
    rw [build_book] at hb
    cases hs : setShell o .blueprintBook a index with
    | error e => rw [hs] at hb; cases hb
    | ok s =>
      rw [hs] at hb
      simp only [bind, Except.bind] at hb
      cases he : elementsError a with
      | some e => rw [he] at hb; cases hb
      | none =>
        rw [he] at hb
        dsimp only at hb
        cases hm : (elements a).mapM (member r o key start) with
        | error e => rw [hm] at hb; cases hb
        | ok ms =>
          rw [hm] at hb
          cases hb
          simp only [toDoc, bind, Except.bind] at hd
          cases ht : toDocs w 0 ms with
          | error e => rw [ht] at hd; cases hd
          | ok ds =>
            rw [ht] at hd
            cases hd
            exact shell_exported hs hn' _
  | deconstructionPlanner =>
    rw [build] at hb
    cases hs : setShell o .deconstructionPlanner a index with
    | error e => rw [hs] at hb; cases hb
    | ok s =>
      rw [hs] at hb
      cases hb
      rw [toDoc] at hd
      cases hd
      exact shell_exported hs hn' _
  | upgradePlanner =>
    rw [build] at hb
    cases hs : setShell o .upgradePlanner a index with
    | error e => rw [hs] at hb; cases hb
    | ok s =>
      rw [hs] at hb
      cases hb
      rw [toDoc] at hd
      cases hd
      exact shell_exported hs hn' _

section strings

variable {repr : F → List Char} {read : List Char → F} (hf : Floats repr read) {compress : List (Fin 256) → List (Fin 256)}
  {decompress : List (Fin 256) → Except PyErr (List (Fin 256))} (hz : ∀ b, decompress (compress b) = .ok b) (hw : Written w)

theorem fromJson_root {k : Kind} {body : Fields F} {index : Option ℕ} {extra : Fields F} (he : Fine roots extra) :
    Codec.fromJson (root (rootDoc k body index extra)) = .ok k := by
  have g := fun k' => get_entries (k := k) (k' := k') (body := body) (index := index) he none
  have g1 := g .blueprint
  have g2 := g .deconstructionPlanner
  have g3 := g .upgradePlanner
  have g4 := g .blueprintBook
  rw [rootDoc_eq]
  change get "blueprint" (entries k body index extra []) = _ at g1
  change get "deconstruction_planner" (entries k body index extra []) = _ at g2
  change get "upgrade_planner" (entries k body index extra []) = _ at g3
  change get "blueprint_book" (entries k body index extra []) = _ at g4
  rw [Codec.fromJson, has_obj, has_obj, has_obj, has_obj, g1, g2, g3, g4]
  cases k <;> rfl

include hf hz hw

/-- C101: an exported string is loaded by `get_blueprintable_from_string`, and what is loaded is of the same class, with the same attributes, index and members, however deep. -/
theorem C101_loads (n : Node F) (h : Good w r o n) :
    ∃ s n', toString (codecs repr read compress decompress) w n = .ok s ∧ fromString (codecs repr read compress decompress) r o key start s = .ok n' ∧
      Back r o key start n n.index n' := by
  obtain ⟨extra, body, h1, h2, h3, h4⟩ := node_back key start hw n h
  obtain ⟨n', h5, h6⟩ := h4 n.index
  have hp : (rootDoc n.kind body n.index extra).Proper := by
    rw [rootDoc_eq]
    exact entries_proper h3 h2 none (.inr rfl)
  refine ⟨Codec.jsonToString (codecs repr read compress decompress) (rootDoc n.kind body n.index extra), n', ?_, ?_, h6⟩
  · rw [toString, h1]
    rfl
  · have hc : construct (codecs repr read compress decompress) r o key start n.kind (rootDoc n.kind body n.index extra) = .ok n' := by
      rw [rootDoc_eq, construct]
      have := fetch_entries h3 (index := n.index) h2 none
      change fetch _ (.obj (entries n.kind body n.index extra [])) = _ at this
      rw [this, Option.or_none]
      exact h5
    simp only [fromString, bind, Except.bind]
    rw [C03_real repr read hf compress decompress hz _ hp]
    dsimp only
    rw [fromJson_root h2]
    exact hc

/-- C101: exporting what was loaded gives the same string. -/
theorem C101_same (n : Node F) (h : Good w r o n) (hs : Strict o key start n) :
    ∃ s n', toString (codecs repr read compress decompress) w n = .ok s ∧ fromString (codecs repr read compress decompress) r o key start s = .ok n' ∧
      toString (codecs repr read compress decompress) w n' = .ok s := by
  obtain ⟨s, n', h1, h2, h3⟩ := C101_loads key start hf hz hw n h
  refine ⟨s, n', h1, h2, ?_⟩
  rw [toString] at h1 ⊢
  cases hd : toDoc w n with
  | error e => rw [hd] at h1; cases h1
  | ok d =>
    rw [hd] at h1
    obtain ⟨body, h4, h5⟩ := node_same key start n _ n' d h3 hs hd
    rw [h5, ← h1, h4]

/-- C101: from the second time on the string stays the same for all. -/
theorem C101_settles (ho : Settled r o) (n : Node F) (h : Good w r o n) :
    ∃ s n' s' n'', toString (codecs repr read compress decompress) w n = .ok s ∧ fromString (codecs repr read compress decompress) r o key start s = .ok n' ∧
      toString (codecs repr read compress decompress) w n' = .ok s' ∧ fromString (codecs repr read compress decompress) r o key start s' = .ok n'' ∧
      toString (codecs repr read compress decompress) w n'' = .ok s' := by
  obtain ⟨s, n', h1, h2, h3⟩ := C101_loads key start hf hz hw n h
  obtain ⟨h4, h5, -⟩ := node_settled key start ho n _ n' h3 h
  obtain ⟨s', n'', h6, h7, h8⟩ := C101_same key start hf hz hw n' h4 h5
  exact ⟨s, n', s', n'', h1, h2, h6, h7, h8⟩

/-- C101: the constructors and `load_from_string` accept exactly the strings of their own class. -/
theorem C101_class (n : Node F) (h : Good w r o n) (kind : Kind) :
    ∃ s n', toString (codecs repr read compress decompress) w n = .ok s ∧ fromString (codecs repr read compress decompress) r o key start s = .ok n' ∧
      construct (codecs repr read compress decompress) r o key start kind (.str s) = if kind = n.kind then .ok n' else .error .incorrectBlueprintType := by
  obtain ⟨extra, body, h1, h2, h3, h4⟩ := node_back key start hw n h
  obtain ⟨s, n', g1, g2, -⟩ := C101_loads key start hf hz hw n h
  refine ⟨s, n', g1, g2, ?_⟩
  have hp : (rootDoc n.kind body n.index extra).Proper := by
    rw [rootDoc_eq]
    exact entries_proper h3 h2 none (.inr rfl)
  rw [toString, h1] at g1
  have hs : Codec.stringToJson (codecs repr read compress decompress) s = .ok (rootDoc n.kind body n.index extra) := by
    rw [← Except.ok.inj g1]
    exact C03_real repr read hf compress decompress hz _ hp
  have hg := get_entries (k := n.kind) (k' := kind) (body := body) (index := n.index) h2 none
  change get _ (entries n.kind body n.index extra []) = _ at hg
  have hx := fetch_entries h3 (index := n.index) h2 none
  change fetch _ (.obj (entries n.kind body n.index extra [])) = _ at hx
  have ha : arguments (rootKey kind) (rootDoc n.kind body n.index extra) =
      if kind = n.kind then .ok (body, n.index.map fun i : Nat => .int i) else .error .incorrectBlueprintType := by
    rw [rootDoc_eq, arguments, has_obj, hg]
    by_cases hk : kind = n.kind
    · rw [if_pos hk, if_pos hk]
      simp only [bind, Except.bind, Option.isSome_some, if_true]
      rw [hk, hx, Option.or_none]
    · rw [if_neg hk, if_neg hk]
      rfl
  simp only [fromString, bind, Except.bind] at g2
  rw [hs] at g2
  dsimp only at g2
  rw [fromJson_root h2] at g2
  dsimp only at g2
  rw [rootDoc_eq, construct, hx] at g2
  rw [construct, hs]
  simp only [bind, Except.bind] at g2 ⊢
  rw [ha]
  by_cases hk : kind = n.kind
  · rw [if_pos hk, if_pos hk, ← g2, hk, Option.or_none]
  · rw [if_neg hk, if_neg hk]

end strings

/-! ### Examples -/

/-- Everything is kept; missing versions become 9. -/
def exSetting : Setting Nat where
  attr _ _ d := .ok (some d)
  absent _ n := if n = "version" then some (.int 9) else none

/-- A label and a version. -/
def exShell (index : Option ℕ) : Shell Nat := ⟨exAttrs (some (.int 7)), index, []⟩

/-- A book with a blueprint, an upgrade planner at place 6, a book with a planner in it and an empty book. -/
def exBook : Node Nat :=
  .book (exShell none) [.blueprint (exWhole ⟨5, 5⟩ (some (.int 7)) []), .planner true (exShell (some 6)), .book (exShell none) [.planner false (exShell none)],
    .book (exShell none) []]

theorem exShell_tidy (k : Kind) (index : Option ℕ) : Tidy exSetting k (exShell index) := by
  refine ⟨fun n hn d hd => ⟨?_, rfl⟩, fine_nil⟩
  have hd : exAttrs (some (.int 7)) n = some d := hd
  rw [exAttrs] at hd
  by_cases h1 : n = "label"
  · rw [if_pos h1] at hd
    rw [← Option.some.inj hd, Doc.Proper.eq_def]
    trivial
  · rw [if_neg h1] at hd
    by_cases h2 : n = "version"
    · rw [if_pos h2] at hd; rw [← Option.some.inj hd]; exact int_proper _
    · rw [if_neg h2] at hd; cases hd

theorem exShell_strict (k : Kind) (index : Option ℕ) : (exShell index).extra = [] ∧ ∀ n ∈ names k, (exShell index).attrs n = none → exSetting.absent k n = none := by
  refine ⟨rfl, fun n _ h => ?_⟩
  show (if n = "version" then _ else _) = none
  rw [if_neg]
  rintro rfl
  cases h

theorem exBook_good : Good exWriting exReading exSetting exBook := by
  simp only [exBook, Good, Goods]
  refine ⟨exShell_tidy _ _, ⟨exWhole_sane ⟨5, 5⟩ _ (.inr rfl) [] (.inl rfl), fine_nil, exDictionary ⟨4, 5⟩, exWhole_toDict (by decide +kernel), exDictionary_legible (ex_exact 4 5)⟩,
    exShell_tidy _ _, ⟨exShell_tidy _ _, exShell_tidy _ _, trivial⟩, ⟨exShell_tidy _ _, trivial⟩, trivial⟩

theorem exBook_strict : Strict exSetting exLook 7 exBook := by
  simp only [exBook, Strict, Stricts]
  have hd : (exWhole ⟨5, 5⟩ (some (.int 7)) []).full.toDict = .ok (exDictionary ⟨4, 5⟩) := exWhole_toDict (by decide +kernel)
  obtain ⟨f, h1, h2⟩ := C96_apart exLook 7 _ _ hd exApart
  exact ⟨exShell_strict _ _, ⟨rfl, nofun, exDictionary ⟨4, 5⟩, f, hd, h1, h2⟩, exShell_strict _ _, ⟨exShell_strict _ _, exShell_strict _ _, trivial⟩, ⟨exShell_strict _ _, trivial⟩, trivial⟩

/-- C101_loads, C101_same, C101_settles, C101_class -/
example : ∃ s n', toString exCodecs exWriting exBook = .ok s ∧ fromString exCodecs exReading exSetting exLook 7 s = .ok n' ∧ toString exCodecs exWriting n' = .ok s :=
  C101_same exLook 7 half_floats (fun _ => rfl) exWriting_written exBook exBook_good exBook_strict
example : Settled exReading exSetting := by
  refine ⟨⟨int_proper 9, rfl⟩, fun k n d h => ?_⟩
  have h : (if n = "version" then some (.int 9) else none) = some d := h
  by_cases hn : n = "version"
  · rw [if_pos hn] at h; rw [← Option.some.inj h]; exact ⟨int_proper 9, rfl⟩
  · rw [if_neg hn] at h; cases h
/-- The text inside the string of a book with an upgrade planner at place 6 and an inner book. -/
example : ((toDoc exWriting (.book (exShell none) [.planner true (exShell (some 6)), .book (exShell none) [.planner false (exShell none)], .book (exShell none) []])).toOption.map
    (dumps halfRepr)) =
    some ("{\"blueprint_book\":{\"item\":\"blueprint-book\",\"label\":\"\\u00e9\",\"version\":7,\"blueprints\":[" ++
      "{\"upgrade_planner\":{\"item\":\"upgrade-planner\",\"label\":\"\\u00e9\",\"version\":7},\"index\":6}," ++
      "{\"blueprint_book\":{\"item\":\"blueprint-book\",\"label\":\"\\u00e9\",\"version\":7,\"blueprints\":[" ++
      "{\"deconstruction_planner\":{\"item\":\"deconstruction-planner\",\"label\":\"\\u00e9\",\"version\":7},\"index\":0}]},\"index\":1}," ++
      "{\"blueprint_book\":{\"item\":\"blueprint-book\",\"label\":\"\\u00e9\",\"version\":7},\"index\":2}]}}").toList := by decide +kernel

/-- C101_attributes: settings of a planner and the active index of a book -/
example : (∃ n, build exReading exSetting exLook 7 .upgradePlanner [("settings".toList, .obj [])] none = .ok n) ∧ "settings" ∈ formatKeys .upgradePlanner ∧
    (∃ n, build exReading exSetting exLook 7 .blueprintBook [("active_index".toList, .int 3)] none = .ok n) ∧ "active_index" ∈ formatKeys .blueprintBook := by
  refine ⟨⟨_, by rw [build]; rfl⟩, by decide +kernel, ⟨_, by rw [build_book]; rfl⟩, by decide +kernel⟩

/-- A book with an unknown key `"blueprint"` in it, and what is exported after loading it. -/
def disguisedBody : Fields Nat := [("item".toList, .str "blueprint-book".toList), ("version".toList, .int 7), ("blueprint".toList, .obj [])]
@[inherit_doc disguisedBody] def disguised : Doc Nat := .obj [("blueprint_book".toList, .obj disguisedBody)]
@[inherit_doc disguisedBody] def revealed : Doc Nat :=
  .obj [("blueprint_book".toList, .obj [("item".toList, .str "blueprint-book".toList), ("version".toList, .int 7)]), ("blueprint".toList, .obj [])]
@[inherit_doc disguisedBody] def disguisedShell : Shell Nat :=
  ⟨fun n => (setAttr exSetting .blueprintBook n (get n disguisedBody)).toOption.getD none, none, [("blueprint".toList, .obj [])]⟩

theorem from_steps {d : Doc Nat} (hp : d.Proper) {l a : Fields Nat} {i : Option (Doc Nat)} {k : Kind} (hl : d = .obj l) (hk : Codec.fromJson (root d) = .ok k)
    (hf : fetch (rootKey k) d = .ok (a, i)) {n : Node Nat} (hb : build exReading exSetting exLook 7 k a i = .ok n) :
    fromString exCodecs exReading exSetting exLook 7 (Codec.jsonToString exCodecs d) = .ok n := by
  have hs : Codec.stringToJson exCodecs (Codec.jsonToString exCodecs d) = .ok d := C03_real _ _ half_floats _ _ (fun _ => rfl) _ hp
  have hc : construct exCodecs exReading exSetting exLook 7 k d = .ok n := by
    rw [hl] at hf ⊢
    rw [construct, hf]
    exact hb
  simp only [fromString, bind, Except.bind, hs, hk]
  exact hc

/-- C101: without the hypothesis that no unknown key is named like a class, a book may become a blueprint: unknown keys in it are exported beside it, and
`"blueprint"` is looked for first. -/
theorem C101_kind_refuted : ¬ ∀ (s : List Char) (n n' : Node ℕ) (s' : List Char), fromString exCodecs exReading exSetting exLook 7 s = .ok n →
    toString exCodecs exWriting n = .ok s' → fromString exCodecs exReading exSetting exLook 7 s' = .ok n' → n'.kind = n.kind := by
  intro h
  have hp : disguised.Proper := by
    simp only [disguised, disguisedBody, Doc.Proper, properPairs, and_true]
    decide +kernel
  have hp' : revealed.Proper := by
    simp only [revealed, Doc.Proper, properPairs, and_true]
    decide +kernel
  have h1 : build exReading exSetting exLook 7 .blueprintBook disguisedBody none = .ok (.book disguisedShell []) := by
    rw [build_book]
    rfl
  have h2 : toDoc exWriting (.book disguisedShell []) = .ok revealed := by
    rw [toDoc, toDocs]
    rfl
  obtain ⟨b, h3⟩ : ∃ b, build exReading exSetting exLook 7 .blueprint [] none = .ok (.blueprint b) := by
    rw [build]
    exact ⟨_, rfl⟩
  have := h _ _ _ _ (from_steps hp rfl rfl rfl h1) (by rw [toString, h2]; rfl) (from_steps hp' rfl rfl rfl h3)
  cases this

end BookString
end Draftsman
