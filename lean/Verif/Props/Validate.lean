import Verif.Model.Validate
/-
C85: validating a blueprint, a planner or a book reports on everything in it.
-/
namespace Draftsman
namespace Validate
open ValResult (Issue Result iadd)

variable {F D T B S : Type}

/-! ### The claim in plain terms -/

/-- The objects that validation reports on: an entity, the ids in a list of entities, a tile, and a blueprint (with its size), planner or book. -/
inductive Part (F D T B : Type) where
  | entity (e : Ent F D)
  | ids (l : List (Option String))
  | tile (t : T)
  | own (b : B) (size : Nat × Nat)

mutual
/-- All parts of a member of a list, from the outside in. -/
def Node.parts : Node F D → List (Part F D T B)
  | .entity _ e => [.entity e]
  | .group _ l => .ids (l.map Node.id) :: nodesParts l
def nodesParts : List (Node F D) → List (Part F D T B)
  | [] => []
  | n :: l => n.parts ++ nodesParts l
end

mutual
/-- All parts of a blueprint, planner or book, from the outside in: itself, then its entities, its tiles, its members.
The schedules are not among them (`C85_schedules_refuted`). -/
def Thing.parts : Thing F D T B S → List (Part F D T B)
  | .blueprint b size es ts _ => .own b size :: .ids (es.map Node.id) :: (nodesParts es ++ ts.map .tile)
  | .planner b => [.own b (0, 0)]
  | .book b l => .own b (0, 0) :: thingsParts l
def thingsParts : List (Thing F D T B S) → List (Part F D T B)
  | [] => []
  | t :: l => t.parts ++ thingsParts l
end

/-- The report that comes from a run of pydantic. -/
def said {X : Type} : Run X → Except PyErr Result
  | .error x => .error x
  | .ok (.ok _, ws) => .ok ⟨[], ws⟩
  | .ok (.error i, ws) => .ok ⟨[i], ws⟩

/-- What there is to say about one part in a mode. -/
def Part.report (w : World F D T B S) (m : ValidationMode) : Part F D T B → Except PyErr Result
  | .entity e => said (w.entity m e.root e.facing)
  | .ids l => .ok ⟨if (l.filterMap id).Nodup then [] else [⟨"DataFormatError", ["Cannot have two entities with the same id"]⟩], []⟩
  | .tile t => said (w.tile m t)
  | .own b size => match w.own m b with
    | .ok (.ok _, _) => if (m = .strict ∨ m = .pedantic) ∧ (size.1 > 10000 ∨ size.2 > 10000) then .error .draftsmanError else said (w.own m b)
    | _ => said (w.own m b)

/-- Reports put together. -/
def together (l : List Result) : Result := ⟨l.flatMap (·.errors), l.flatMap (·.warnings)⟩

/-- The first exception, or all reports put together. -/
def reports (w : World F D T B S) (m : ValidationMode) (ps : List (Part F D T B)) : Except PyErr Result :=
  (ps.mapM (Part.report w m)).map together

/-- Entities after validation: the fields converted if they are valid, the direction as it was. -/
def settled (w : World F D T B S) (m : ValidationMode) (e : Ent F D) : Ent F D :=
  match w.entity m e.root e.facing with
  | .ok (.ok (r, _), _) => { e with root := r }
  | _ => e

/-- The data of a book after validation. -/
def bound (w : World F D T B S) (m : ValidationMode) (b : B) : B :=
  match w.own m b with
  | .ok (.ok b', _) => b'
  | _ => b

mutual
/-- The same tree with its entities changed. -/
def Node.map (f : Ent F D → Ent F D) : Node F D → Node F D
  | .entity i e => .entity i (f e)
  | .group i l => .group i (nodesMap f l)
def nodesMap (f : Ent F D → Ent F D) : List (Node F D) → List (Node F D)
  | [] => []
  | n :: l => n.map f :: nodesMap f l
end

mutual
/-- The same tree with its entities and the data of books changed. -/
def Thing.map (f : Ent F D → Ent F D) (g : B → B) : Thing F D T B S → Thing F D T B S
  | .blueprint b size es ts ss => .blueprint b size (nodesMap f es) ts ss
  | .planner b => .planner b
  | .book b l => .book (g b) (thingsMap f g l)
def thingsMap (f : Ent F D → Ent F D) (g : B → B) : List (Thing F D T B S) → List (Thing F D T B S)
  | [] => []
  | t :: l => t.map f g :: thingsMap f g l
end

/-! ### Lemmas -/

theorem mapM_append_ex {α β ε : Type} (f : α → Except ε β) (a b : List α) :
    (a ++ b).mapM f = match a.mapM f with
      | .error x => .error x
      | .ok r => match b.mapM f with
        | .error x => .error x
        | .ok s => .ok (r ++ s) := by
  rw [List.mapM_append]
  cases a.mapM f with
  | error x => rfl
  | ok r => cases b.mapM f <;> rfl

theorem together_append (a b : List Result) : together (a ++ b) = iadd (together a) (together b) := by
  simp [together, iadd]

theorem reports_append (w : World F D T B S) (m : ValidationMode) (a b : List (Part F D T B)) :
    reports w m (a ++ b) = match reports w m a with
      | .error x => .error x
      | .ok r => (reports w m b).map (iadd r) := by
  rw [reports, mapM_append_ex, reports, reports]
  cases a.mapM (Part.report w m) with
  | error x => rfl
  | ok r => cases b.mapM (Part.report w m) with
    | error x => rfl
    | ok s => simp only [Except.map, together_append]

theorem iadd_empty (r : Result) : iadd r ⟨[], []⟩ = r := by cases r; simp [iadd]

theorem empty_iadd (r : Result) : iadd ⟨[], []⟩ r = r := by cases r; simp [iadd]

theorem iadd_assoc (a b c : Result) : iadd (iadd a b) c = iadd a (iadd b c) := by simp [iadd]

theorem reports_nil (w : World F D T B S) (m : ValidationMode) : reports w m [] = .ok ⟨[], []⟩ := rfl

theorem reports_one (w : World F D T B S) (m : ValidationMode) (p : Part F D T B) : reports w m [p] = p.report w m := by
  rw [reports, List.mapM_cons, List.mapM_nil]
  cases p.report w m with
  | error x => rfl
  | ok r => cases r; simp [bind, Except.bind, pure, Except.pure, Except.map, together]

theorem reports_cons (w : World F D T B S) (m : ValidationMode) (p : Part F D T B) (l : List (Part F D T B)) :
    reports w m (p :: l) = match p.report w m with
      | .error x => .error x
      | .ok r => (reports w m l).map (iadd r) := by
  rw [← List.singleton_append, reports_append, reports_one]

theorem distinct_iff : ∀ (l : List (Option String)) (known : List String),
    distinct known l = true ↔ (l.filterMap id).Nodup ∧ ∀ i ∈ l.filterMap id, i ∉ known
  | [], known => by simp [distinct]
  | none :: r, known => by
    rw [distinct, distinct_iff r known]
    simp
  | some i :: r, known => by
    rw [distinct]
    simp only [List.filterMap_cons, id_eq, List.nodup_cons, List.mem_cons, forall_eq_or_imp]
    by_cases h : i ∈ known
    · simp [h]
    · rw [if_neg h, distinct_iff r (i :: known)]
      constructor
      · rintro ⟨h1, h2⟩
        exact ⟨⟨fun hm => h2 i hm (by simp), h1⟩, h, fun j hj hk => h2 j hj (by simp [hk])⟩
      · rintro ⟨⟨h1, h2⟩, h3, h4⟩
        refine ⟨h2, fun j hj hm => ?_⟩
        rcases List.mem_cons.1 hm with rfl | hm
        · exact h1 hj
        · exact h4 j hj hm

theorem ids_report (w : World F D T B S) (m : ValidationMode) (l : List (Option String)) :
    Part.report w m (.ids l) = .ok ⟨if distinct [] l then [] else [duplicate], []⟩ := by
  have h := distinct_iff l []
  simp only [List.not_mem_nil, not_false_eq_true, implies_true, and_true] at h
  rw [Part.report]
  by_cases hd : (l.filterMap id).Nodup
  · rw [if_pos hd, if_pos (h.2 hd)]
  · rw [if_neg hd, if_neg (fun hc => hd (h.1 hc))]
    rfl

theorem entity_spec (w : World F D T B S) {m : ValidationMode} {force : Bool} (hs : skip m force = false) (e : Ent F D) :
    validateEntity w m force e = (settled w m e, Part.report w m (.entity e)) := by
  rw [validateEntity, settled, Part.report, if_neg (by simp [hs])]
  cases w.entity m e.root e.facing with
  | error x => rfl
  | ok r => obtain ⟨r, ws⟩ := r; cases r <;> rfl

theorem tile_spec (w : World F D T B S) {m : ValidationMode} {force : Bool} (hs : skip m force = false) (t : T) :
    validateTile w m force t = Part.report w m (.tile t) := by
  rw [validateTile, Part.report, if_neg (by simp [hs])]
  cases w.tile m t with
  | error x => rfl
  | ok r => obtain ⟨r, ws⟩ := r; cases r <;> rfl

theorem tiles_spec (w : World F D T B S) {m : ValidationMode} {force : Bool} (hs : skip m force = false) :
    ∀ l : List T, validateTiles w m force l = reports w m (l.map .tile)
  | [] => rfl
  | t :: l => by
    rw [validateTiles, tile_spec w hs, tiles_spec w hs l, List.map_cons, reports_cons]
    cases Part.report w m (.tile t) <;> rfl

theorem large_iff (m : ValidationMode) (size : Nat × Nat) :
    tooLarge m size = true ↔ (m = .strict ∨ m = .pedantic) ∧ (size.1 > 10000 ∨ size.2 > 10000) := by
  cases m <;> simp [tooLarge, ValidationMode.le, ValidationMode.gt, ValidationMode.index]

theorem own_spec (w : World F D T B S) {m : ValidationMode} {force : Bool} (hs : skip m force = false) (size : Nat × Nat) (b : B) :
    validateOwn w m force (tooLarge m size) b = Part.report w m (.own b size) := by
  rw [validateOwn, Part.report, if_neg (by simp [hs])]
  cases h : w.own m b with
  | error x => rfl
  | ok r =>
    obtain ⟨r, ws⟩ := r
    cases r with
    | error i => rfl
    | ok b' =>
      simp only [said]
      have hl := large_iff m size
      by_cases hp : (m = .strict ∨ m = .pedantic) ∧ (size.1 > 10000 ∨ size.2 > 10000)
      · rw [if_pos hp, hl.2 hp]; rfl
      · rw [if_neg hp, if_neg (fun hc => hp (hl.1 hc))]

theorem own_small (w : World F D T B S) {m : ValidationMode} {force : Bool} (hs : skip m force = false) (b : B) :
    validateOwn w m force false b = Part.report w m (.own b (0, 0)) := by
  have : tooLarge m (0, 0) = false := by simp [tooLarge]
  rw [← own_spec w hs (0, 0) b, this]

mutual
theorem node_spec (w : World F D T B S) {m : ValidationMode} {force : Bool} (hs : skip m force = false) : ∀ n : Node F D,
    (validateNode w m force n).2 = reports w m n.parts ∧ ((validateNode w m force n).2.isOk = true → (validateNode w m force n).1 = n.map (settled w m))
  | .entity i e => by
    rw [validateNode, entity_spec w hs, Node.parts, reports_one, Node.map]
    exact ⟨rfl, fun _ => rfl⟩
  | .group i l => by
    obtain ⟨h1, h2⟩ := nodes_spec w hs l
    rw [validateNode, if_neg (by simp [hs]), Node.parts, reports_cons, ids_report, Node.map]
    refine ⟨?_, ?_⟩
    · simp only [h1]
    · intro h
      simp only at h ⊢
      rw [h2]
      cases hr : (validateNodes w m force l).2 with
      | error x => rw [hr] at h; cases h
      | ok r => rfl
theorem nodes_spec (w : World F D T B S) {m : ValidationMode} {force : Bool} (hs : skip m force = false) : ∀ l : List (Node F D),
    (validateNodes w m force l).2 = reports w m (nodesParts l) ∧
      ((validateNodes w m force l).2.isOk = true → (validateNodes w m force l).1 = nodesMap (settled w m) l)
  | [] => by
    rw [validateNodes, nodesParts, nodesMap]
    exact ⟨rfl, fun _ => rfl⟩
  | n :: l => by
    obtain ⟨h1, h2⟩ := node_spec w hs n
    obtain ⟨h3, h4⟩ := nodes_spec w hs l
    rw [validateNodes, nodesParts, nodesMap, reports_append, ← h1, ← h3]
    cases ha : validateNode w m force n with
    | mk n' a =>
      rw [ha] at h2
      cases a with
      | error x => exact ⟨rfl, fun h => nomatch h⟩
      | ok a =>
        cases hb : validateNodes w m force l with
        | mk l' b =>
          rw [hb] at h4
          cases b with
          | error x => exact ⟨rfl, fun h => nomatch h⟩
          | ok b =>
            refine ⟨rfl, fun _ => ?_⟩
            have e1 := h2 rfl
            have e2 := h4 rfl
            simp only at e1 e2 ⊢
            rw [e1, e2]
end

theorem entities_spec (w : World F D T B S) {m : ValidationMode} {force : Bool} (hs : skip m force = false) (l : List (Node F D)) :
    (validateEntities w m force l).2 = reports w m (.ids (l.map Node.id) :: nodesParts l) ∧
      ((validateEntities w m force l).2.isOk = true → (validateEntities w m force l).1 = nodesMap (settled w m) l) := by
  obtain ⟨h1, h2⟩ := nodes_spec w hs l
  rw [validateEntities, if_neg (by simp [hs]), reports_cons, ids_report]
  refine ⟨?_, ?_⟩
  · simp only [h1]
  · intro h
    simp only at h ⊢
    rw [h2]
    cases hr : (validateNodes w m force l).2 with
    | error x => rw [hr] at h; cases h
    | ok r => rfl

mutual
theorem thing_spec (w : World F D T B S) {m : ValidationMode} {force : Bool} (hs : skip m force = false) : ∀ t : Thing F D T B S,
    (validateThing w m force t).2 = reports w m t.parts ∧
      ((validateThing w m force t).2.isOk = true → (validateThing w m force t).1 = t.map (settled w m) (bound w m))
  | .blueprint b size es ts ss => by
    obtain ⟨h1, h2⟩ := entities_spec w hs es
    rw [validateThing, Thing.parts, Thing.map, reports_cons, ← own_spec w hs, ← List.cons_append, reports_append, ← h1, ← tiles_spec w hs]
    cases ho : validateOwn w m force (tooLarge m size) b with
    | error x => exact ⟨rfl, fun h => nomatch h⟩
    | ok a =>
      cases he : validateEntities w m force es with
      | mk es' c =>
        rw [he] at h2
        cases c with
        | error x => exact ⟨rfl, fun h => nomatch h⟩
        | ok c =>
          have e1 := h2 rfl
          simp only at e1 ⊢
          rw [e1]
          refine ⟨?_, fun _ => rfl⟩
          cases validateTiles w m force ts with
          | error x => rfl
          | ok d => simp only [Except.map, iadd_assoc]
  | .planner b => by
    rw [validateThing, Thing.parts, Thing.map, reports_one, own_small w hs]
    exact ⟨rfl, fun _ => rfl⟩
  | .book b l => by
    obtain ⟨h1, h2⟩ := things_spec w hs l
    rw [validateThing, if_neg (by simp [hs]), Thing.parts, Thing.map, reports_cons, Part.report, bound]
    cases ho : w.own m b with
    | error x => exact ⟨rfl, fun h => nomatch h⟩
    | ok r =>
      obtain ⟨r, ws⟩ := r
      cases r with
      | error i =>
        simp only [said, ← h1]
        refine ⟨trivial, ?_⟩
        intro h
        rw [h2]
        cases hr : (validateThings w m force l).2 with
        | error x => rw [hr] at h; cases h
        | ok r => rfl
      | ok b' =>
        simp only [said, ← h1, gt_iff_lt, Nat.not_lt_zero, or_self, and_false, if_false]
        refine ⟨trivial, ?_⟩
        intro h
        rw [h2]
        cases hr : (validateThings w m force l).2 with
        | error x => rw [hr] at h; cases h
        | ok r => rfl
theorem things_spec (w : World F D T B S) {m : ValidationMode} {force : Bool} (hs : skip m force = false) : ∀ l : List (Thing F D T B S),
    (validateThings w m force l).2 = reports w m (thingsParts l) ∧
      ((validateThings w m force l).2.isOk = true → (validateThings w m force l).1 = thingsMap (settled w m) (bound w m) l)
  | [] => by
    rw [validateThings, thingsParts, thingsMap]
    exact ⟨rfl, fun _ => rfl⟩
  | t :: l => by
    obtain ⟨h1, h2⟩ := thing_spec w hs t
    obtain ⟨h3, h4⟩ := things_spec w hs l
    rw [validateThings, thingsParts, thingsMap, reports_append, ← h1, ← h3]
    cases ha : validateThing w m force t with
    | mk n' a =>
      rw [ha] at h2
      cases a with
      | error x => exact ⟨rfl, fun h => nomatch h⟩
      | ok a =>
        cases hb : validateThings w m force l with
        | mk l' b =>
          rw [hb] at h4
          cases b with
          | error x => exact ⟨rfl, fun h => nomatch h⟩
          | ok b =>
            refine ⟨rfl, fun _ => ?_⟩
            have e1 := h2 rfl
            have e2 := h4 rfl
            simp only at e1 e2 ⊢
            rw [e1, e2]
end

/-! ### Validation reports everything -/

/-- Data of the examples: entities, tiles, blueprints are numbers, directions are strings.  Negative numbers are invalid, 7 is converted to 8
with a warning unless the mode is MINIMUM or less, 13 raises a `TypeError`. -/
def sample : World Int String Int Int Int :=
  let check (m : ValidationMode) (x : Int) : Run Int :=
    if x = 13 then .error .typeError
    else if x < 0 then .ok (.error ⟨"DataFormatError", ["negative"]⟩, [])
    else if x = 7 then .ok (.ok 8, if m.le .minimum then [] else [⟨"Warning", ["seven"]⟩])
    else .ok (.ok x, [])
  { entity := fun m x d => match check m x with
      | .error e => .error e
      | .ok (.error i, ws) => .ok (.error i, ws)
      | .ok (.ok y, ws) => .ok (.ok (y, d ++ "!"), ws)
    tile := check, schedule := check, own := check }

/-- A book that contains a blueprint with a group, tiles and a schedule, and a planner. -/
def library : Thing Int String Int Int Int :=
  .book 7 [.blueprint 1 (5, 5) [.entity (some "a") ⟨-1, "n"⟩, .group none [.entity none ⟨7, "e"⟩, .entity (some "a") ⟨3, "e"⟩]] [2, -2] [-5],
    .planner (-3)]

/-- With the mode NONE nothing is reported and nothing changes, unless validation is forced. -/
theorem C85_none (w : World F D T B S) (t : Thing F D T B S) : validateThing w .none false t = (t, .ok ⟨[], []⟩) := by
  have hs : skip .none false = true := rfl
  have hn : ∀ ts : List T, validateTiles w .none false ts = .ok ⟨[], []⟩ := by
    intro ts
    induction ts with
    | nil => rfl
    | cons a r ih => rw [validateTiles, ih, validateTile, if_pos hs]; rfl
  cases t with
  | blueprint b size es ts ss =>
    rw [validateThing, validateOwn, if_pos hs, validateEntities, if_pos hs, hn]
    rfl
  | planner b => rw [validateThing, validateOwn, if_pos hs]
  | book b l => rw [validateThing, if_pos hs]

example : validateThing sample .none false library = (library, .ok ⟨[], []⟩) ∧ (validateThing sample .none true library).2 ≠ .ok ⟨[], []⟩ :=
  ⟨C85_none _ _, by decide +kernel⟩

/-- C85: the same for an entity, a tile or a schedule on its own. -/
theorem C85_parts_none (w : World F D T B S) (e : Ent F D) (t : T) (s : S) :
    validateEntity w .none false e = (e, .ok ⟨[], []⟩) ∧ validateTile w .none false t = .ok ⟨[], []⟩ ∧ validateSchedule w .none false s = (s, .ok ⟨[], []⟩) :=
  ⟨if_pos rfl, if_pos rfl, if_pos rfl⟩

/-- C85: otherwise an entity, a tile or a schedule on its own reports what its format has to say about it, and only an entity or a schedule without errors
is changed, to what the format has made of it. -/
theorem C85_parts (w : World F D T B S) (m : ValidationMode) (force : Bool) (h : m ≠ .none ∨ force = true) (e : Ent F D) (t : T) (s : S) :
    (∀ x, w.entity m e.root e.facing = .error x → validateEntity w m force e = (e, .error x)) ∧
    (∀ i ws, w.entity m e.root e.facing = .ok (.error i, ws) → validateEntity w m force e = (e, .ok ⟨[i], ws⟩)) ∧
    (∀ r ws, w.entity m e.root e.facing = .ok (.ok r, ws) → validateEntity w m force e = (⟨r.1, e.facing⟩, .ok ⟨[], ws⟩)) ∧
    (∀ x, w.tile m t = .error x → validateTile w m force t = .error x) ∧
    (∀ i ws, w.tile m t = .ok (.error i, ws) → validateTile w m force t = .ok ⟨[i], ws⟩) ∧
    (∀ r ws, w.tile m t = .ok (.ok r, ws) → validateTile w m force t = .ok ⟨[], ws⟩) ∧
    (∀ x, w.schedule m s = .error x → validateSchedule w m force s = (s, .error x)) ∧
    (∀ i ws, w.schedule m s = .ok (.error i, ws) → validateSchedule w m force s = (s, .ok ⟨[i], ws⟩)) ∧
    (∀ r ws, w.schedule m s = .ok (.ok r, ws) → validateSchedule w m force s = (r, .ok ⟨[], ws⟩)) := by
  have hs : ¬ skip m force = true := by rcases h with h | h <;> simp [skip, h]
  refine ⟨fun x hx => ?_, fun i ws hx => ?_, fun r ws hx => ?_, fun x hx => ?_, fun i ws hx => ?_, fun r ws hx => ?_, fun x hx => ?_, fun i ws hx => ?_, fun r ws hx => ?_⟩
  all_goals first
    | rw [validateEntity, if_neg hs, hx]
    | rw [validateTile, if_neg hs, hx]
    | rw [validateSchedule, if_neg hs, hx]

example : (validateSchedule sample .strict false (-5)).2 = .ok ⟨[⟨"DataFormatError", ["negative"]⟩], []⟩ := by decide +kernel

/-- Otherwise the result lists what there is to say about every part of the object, however deeply nested, in order and without repetition;
if a part raises an exception, the first one of those is raised instead. -/
theorem C85_complete_partial (w : World F D T B S) (m : ValidationMode) (force : Bool) (h : m ≠ .none ∨ force = true) (t : Thing F D T B S) :
    (validateThing w m force t).2 = reports w m t.parts := by
  refine (thing_spec w ?_ t).1
  rcases h with h | h <;> simp [skip, h]

example : (validateThing sample .strict false library).2 =
    .ok ⟨[⟨"DataFormatError", ["negative"]⟩, ⟨"DataFormatError", ["negative"]⟩, ⟨"DataFormatError", ["negative"]⟩],
      [⟨"Warning", ["seven"]⟩, ⟨"Warning", ["seven"]⟩]⟩ := by
  rw [C85_complete_partial _ _ _ (.inl (by decide))]
  decide +kernel

theorem reports_ok {w : World F D T B S} {m : ValidationMode} : ∀ {l : List (Part F D T B)} {r : Result}, reports w m l = .ok r →
    (∀ p ∈ l, ∃ q, p.report w m = .ok q) ∧
    (∀ i, i ∈ r.errors ↔ ∃ p ∈ l, ∃ q, p.report w m = .ok q ∧ i ∈ q.errors) ∧
    (∀ i, i ∈ r.warnings ↔ ∃ p ∈ l, ∃ q, p.report w m = .ok q ∧ i ∈ q.warnings)
  | [], r, h => by
    rw [reports_nil] at h
    cases h
    simp
  | p :: l, r, h => by
    rw [reports_cons] at h
    cases hp : p.report w m with
    | error x => rw [hp] at h; cases h
    | ok q =>
      rw [hp] at h
      cases hl : reports w m l with
      | error x => rw [hl] at h; cases h
      | ok s =>
        rw [hl] at h
        obtain ⟨h1, h2, h3⟩ := reports_ok hl
        simp only [Except.map, Except.ok.injEq] at h
        subst h
        simp only [List.mem_cons, forall_eq_or_imp, exists_eq_or_imp, hp, Except.ok.injEq, exists_eq_left', iadd, List.mem_append, h2, h3]
        exact ⟨⟨⟨q, rfl⟩, h1⟩, fun _ => trivial, fun _ => trivial⟩

/-- So an object is found free of errors exactly if none of its parts has any, and the same holds for warnings. -/
theorem C85_clean (w : World F D T B S) (m : ValidationMode) (force : Bool) (h : m ≠ .none ∨ force = true) (t : Thing F D T B S) (r : Result)
    (hr : (validateThing w m force t).2 = .ok r) :
    (r.errors = [] ↔ ∀ p ∈ t.parts, ∃ q, p.report w m = .ok q ∧ q.errors = []) ∧
    (r.warnings = [] ↔ ∀ p ∈ t.parts, ∃ q, p.report w m = .ok q ∧ q.warnings = []) := by
  rw [C85_complete_partial w m force h] at hr
  obtain ⟨h1, h2, h3⟩ := reports_ok hr
  refine ⟨⟨fun he p hp => ?_, fun ha => ?_⟩, ⟨fun he p hp => ?_, fun ha => ?_⟩⟩
  · obtain ⟨q, hq⟩ := h1 p hp
    refine ⟨q, hq, List.eq_nil_iff_forall_not_mem.2 fun i hi => ?_⟩
    have := (h2 i).2 ⟨p, hp, q, hq, hi⟩
    rw [he] at this
    cases this
  · refine List.eq_nil_iff_forall_not_mem.2 fun i hi => ?_
    obtain ⟨p, hp, q, hq, hi⟩ := (h2 i).1 hi
    obtain ⟨q', hq', he⟩ := ha p hp
    rw [hq] at hq'
    cases hq'
    rw [he] at hi
    cases hi
  · obtain ⟨q, hq⟩ := h1 p hp
    refine ⟨q, hq, List.eq_nil_iff_forall_not_mem.2 fun i hi => ?_⟩
    have := (h3 i).2 ⟨p, hp, q, hq, hi⟩
    rw [he] at this
    cases this
  · refine List.eq_nil_iff_forall_not_mem.2 fun i hi => ?_
    obtain ⟨p, hp, q, hq, hi⟩ := (h3 i).1 hi
    obtain ⟨q', hq', he⟩ := ha p hp
    rw [hq] at hq'
    cases hq'
    rw [he] at hi
    cases hi

example : (validateThing sample .minimum false (.blueprint 1 (5, 5) [.entity (some "a") ⟨7, "n"⟩] [2] [-5])).2 = .ok ⟨[], []⟩ := by decide +kernel

theorem reports_error {w : World F D T B S} {m : ValidationMode} : ∀ {l : List (Part F D T B)} {x : PyErr}, reports w m l = .error x ↔
    ∃ a p b, l = a ++ p :: b ∧ (∀ q ∈ a, ∃ r, q.report w m = .ok r) ∧ p.report w m = .error x
  | [], x => by simp [reports_nil]
  | p :: l, x => by
    rw [reports_cons]
    constructor
    · intro h
      cases hp : p.report w m with
      | error y =>
        rw [hp] at h
        cases h
        exact ⟨[], p, l, rfl, by simp, hp⟩
      | ok r =>
        rw [hp] at h
        cases hl : reports w m l with
        | ok s => rw [hl] at h; cases h
        | error y =>
          rw [hl] at h
          cases h
          obtain ⟨a, q, b, e, h1, h2⟩ := reports_error.1 hl
          exact ⟨p :: a, q, b, by rw [e]; rfl, by simpa [hp] using h1, h2⟩
    · rintro ⟨a, q, b, e, h1, h2⟩
      cases a with
      | nil =>
        cases e
        rw [h2]
      | cons c a =>
        cases e
        obtain ⟨r, hr⟩ := h1 p (List.mem_cons_self)
        have := reports_error.2 ⟨a, q, b, rfl, fun y hy => h1 y (by simp [hy]), h2⟩
        simp only [hr]
        exact congrArg (Except.map (iadd r)) this

/-- An exception is that of the first part which raises one; validation returns a result exactly if no part raises. -/
theorem C85_raises (w : World F D T B S) (m : ValidationMode) (force : Bool) (h : m ≠ .none ∨ force = true) (t : Thing F D T B S) (x : PyErr) :
    (validateThing w m force t).2 = .error x ↔
      ∃ a p b, t.parts = a ++ p :: b ∧ (∀ q ∈ a, ∃ r, q.report w m = .ok r) ∧ p.report w m = .error x := by
  rw [C85_complete_partial w m force h]
  exact reports_error

example : (validateThing sample .strict false (.book 1 [.planner (-1), .planner 13])).2 = .error .typeError := by decide +kernel

/-- `force` is only of importance with the mode NONE. -/
theorem C85_force (w : World F D T B S) (m : ValidationMode) (hm : m ≠ .none) (f g : Bool) (t : Thing F D T B S) :
    (validateThing w m f t).2 = (validateThing w m g t).2 := by
  rw [C85_complete_partial w m f (.inl hm), C85_complete_partial w m g (.inl hm)]

example : ValidationMode.minimum ≠ ValidationMode.none := by decide

/-- A mode can be given as one of four strings; any other string is a `ValueError`, and nothing is changed. -/
theorem C85_mode (w : World F D T B S) (s : String) (force : Bool) (t : Thing F D T B S) :
    (∀ m, (s, m) ∈ [("none", ValidationMode.none), ("minimum", .minimum), ("strict", .strict), ("pedantic", .pedantic)] →
      validateAs w s force t = validateThing w m force t) ∧
    (s ∉ ["none", "minimum", "strict", "pedantic"] → validateAs w s force t = (t, .error .valueError)) := by
  refine ⟨fun m h => ?_, fun h => ?_⟩
  · simp only [List.mem_cons, Prod.mk.injEq, List.not_mem_nil, or_false] at h
    rcases h with ⟨rfl, rfl⟩ | ⟨rfl, rfl⟩ | ⟨rfl, rfl⟩ | ⟨rfl, rfl⟩ <;> rfl
  · simp only [List.mem_cons, List.not_mem_nil, or_false, not_or] at h
    obtain ⟨h1, h2, h3, h4⟩ := h
    rw [validateAs, modeOf, if_neg h1, if_neg h2, if_neg h3, if_neg h4]

example : validateAs sample "Strict" false library = (library, .error .valueError) :=
  (C85_mode sample "Strict" false library).2 (by decide)

/-! ### What validation does to the object -/

/-- If a result is returned, the object is as before, except that the fields of valid entities, at any depth, and the data of valid books are
converted.  Ids, directions, tiles, schedules, blueprints and planners stay as they were. -/
theorem C85_after_partial (w : World F D T B S) (m : ValidationMode) (force : Bool) (h : m ≠ .none ∨ force = true) (t : Thing F D T B S) (r : Result)
    (hr : (validateThing w m force t).2 = .ok r) : (validateThing w m force t).1 = t.map (settled w m) (bound w m) := by
  refine (thing_spec w ?_ t).2 (by rw [hr]; rfl)
  rcases h with h | h <;> simp [skip, h]

example : (validateThing sample .strict false library).1 =
    .book 8 [.blueprint 1 (5, 5) [.entity (some "a") ⟨-1, "n"⟩, .group none [.entity none ⟨8, "e"⟩, .entity (some "a") ⟨3, "e"⟩]] [2, -2] [-5],
      .planner (-3)] := by
  rw [C85_after_partial sample .strict false (.inl (by decide)) library _ (by rw [C85_complete_partial _ _ _ (.inl (by decide))]; rfl)]
  rfl

mutual
theorem node_fixed {f : Ent F D → Ent F D} (hf : ∀ e, f (f e) = f e) : ∀ n : Node F D, (n.map f).map f = n.map f
  | .entity i e => by rw [Node.map, Node.map, hf]
  | .group i l => by rw [Node.map, Node.map, nodes_fixed hf l]
theorem nodes_fixed {f : Ent F D → Ent F D} (hf : ∀ e, f (f e) = f e) : ∀ l : List (Node F D), nodesMap f (nodesMap f l) = nodesMap f l
  | [] => by rw [nodesMap, nodesMap]
  | n :: l => by rw [nodesMap, nodesMap, node_fixed hf n, nodes_fixed hf l]
end

mutual
theorem thing_fixed {f : Ent F D → Ent F D} {g : B → B} (hf : ∀ e, f (f e) = f e) (hg : ∀ b, g (g b) = g b) :
    ∀ t : Thing F D T B S, (t.map f g).map f g = t.map f g
  | .blueprint b size es ts ss => by rw [Thing.map, Thing.map, nodes_fixed hf es]
  | .planner b => by rw [Thing.map, Thing.map]
  | .book b l => by rw [Thing.map, Thing.map, hg, things_fixed hf hg l]
theorem things_fixed {f : Ent F D → Ent F D} {g : B → B} (hf : ∀ e, f (f e) = f e) (hg : ∀ b, g (g b) = g b) :
    ∀ l : List (Thing F D T B S), thingsMap f g (thingsMap f g l) = thingsMap f g l
  | [] => by rw [thingsMap, thingsMap]
  | t :: l => by rw [thingsMap, thingsMap, thing_fixed hf hg t, things_fixed hf hg l]
end

theorem node_id (f : Ent F D → Ent F D) (n : Node F D) : (n.map f).id = n.id := by cases n <;> simp [Node.map, Node.id]

theorem nodes_ids (f : Ent F D → Ent F D) : ∀ l : List (Node F D), (nodesMap f l).map Node.id = l.map Node.id
  | [] => by rw [nodesMap]
  | n :: l => by rw [nodesMap, List.map_cons, List.map_cons, node_id, nodes_ids f l]

/-- The second part has the same errors as the first. -/
def Same (w : World F D T B S) (m : ValidationMode) (p p' : Part F D T B) : Prop :=
  ∀ q, p.report w m = .ok q → ∃ q', p'.report w m = .ok q' ∧ q'.errors = q.errors

theorem same_refl (w : World F D T B S) (m : ValidationMode) (p : Part F D T B) : Same w m p p := fun q h => ⟨q, h, rfl⟩

theorem same_list (w : World F D T B S) (m : ValidationMode) : ∀ l : List (Part F D T B), List.Forall₂ (Same w m) l l
  | [] => .nil
  | p :: l => .cons (same_refl w m p) (same_list w m l)

/-- Formats accept what they have converted themselves, and leave it alone. -/
def Stable (w : World F D T B S) (m : ValidationMode) : Prop :=
  (∀ f d r d' ws, w.entity m f d = .ok (.ok (r, d'), ws) → ∃ d'' ws', w.entity m r d = .ok (.ok (r, d''), ws')) ∧
  (∀ b b' ws, w.own m b = .ok (.ok b', ws) → ∃ ws', w.own m b' = .ok (.ok b', ws'))

theorem same_entity {w : World F D T B S} {m : ValidationMode} (hw : Stable w m) (e : Ent F D) :
    Same w m (.entity e) (.entity (settled w m e)) ∧ settled w m (settled w m e) = settled w m e := by
  cases h : w.entity m e.root e.facing with
  | error x =>
    have : settled w m e = e := by rw [settled, h]
    rw [this]
    exact ⟨same_refl _ _ _, this⟩
  | ok r =>
    obtain ⟨r, ws⟩ := r
    cases r with
    | error i =>
      have : settled w m e = e := by rw [settled, h]
      rw [this]
      exact ⟨same_refl _ _ _, this⟩
    | ok r =>
      obtain ⟨r, d'⟩ := r
      have hs : settled w m e = { e with root := r } := by rw [settled, h]
      obtain ⟨d'', ws', h'⟩ := hw.1 _ _ _ _ _ h
      rw [hs]
      refine ⟨fun q hq => ?_, ?_⟩
      · rw [Part.report, h] at hq
        cases hq
        refine ⟨⟨[], ws'⟩, ?_, rfl⟩
        rw [Part.report]
        simp only [h']
        rfl
      · rw [settled]
        simp only [h']

theorem same_own {w : World F D T B S} {m : ValidationMode} (hw : Stable w m) (b : B) :
    Same w m (.own b (0, 0)) (.own (bound w m b) (0, 0)) ∧ bound w m (bound w m b) = bound w m b := by
  cases h : w.own m b with
  | error x =>
    have : bound w m b = b := by rw [bound, h]
    rw [this]
    exact ⟨same_refl _ _ _, this⟩
  | ok r =>
    obtain ⟨r, ws⟩ := r
    cases r with
    | error i =>
      have : bound w m b = b := by rw [bound, h]
      rw [this]
      exact ⟨same_refl _ _ _, this⟩
    | ok b' =>
      have hs : bound w m b = b' := by rw [bound, h]
      obtain ⟨ws', h'⟩ := hw.2 _ _ _ h
      rw [hs]
      refine ⟨fun q hq => ?_, ?_⟩
      · simp only [Part.report, h, gt_iff_lt, Nat.not_lt_zero, or_self, and_false, if_false, said] at hq
        cases hq
        refine ⟨⟨[], ws'⟩, ?_, rfl⟩
        simp only [Part.report, h', gt_iff_lt, Nat.not_lt_zero, or_self, and_false, if_false, said]
      · rw [bound]
        simp only [h']

theorem forall₂_append {α β : Type} {R : α → β → Prop} : ∀ {a : List α} {b : List β} {c : List α} {d : List β},
    List.Forall₂ R a b → List.Forall₂ R c d → List.Forall₂ R (a ++ c) (b ++ d)
  | _, _, _, _, .nil, h => h
  | _, _, _, _, .cons h t, h' => .cons h (forall₂_append t h')

mutual
theorem node_same {w : World F D T B S} {m : ValidationMode} (hw : Stable w m) : ∀ n : Node F D,
    List.Forall₂ (Same w m) n.parts (n.map (settled w m)).parts
  | .entity i e => by
    rw [Node.map, Node.parts, Node.parts]
    exact .cons (same_entity hw e).1 .nil
  | .group i l => by
    rw [Node.map, Node.parts, Node.parts, nodes_ids]
    exact .cons (same_refl _ _ _) (nodes_same hw l)
theorem nodes_same {w : World F D T B S} {m : ValidationMode} (hw : Stable w m) : ∀ l : List (Node F D),
    List.Forall₂ (Same w m) (nodesParts l) (nodesParts (nodesMap (settled w m) l))
  | [] => by
    rw [nodesMap, nodesParts]
    exact .nil
  | n :: l => by
    rw [nodesMap, nodesParts, nodesParts]
    exact forall₂_append (node_same hw n) (nodes_same hw l)
end

mutual
theorem thing_same {w : World F D T B S} {m : ValidationMode} (hw : Stable w m) : ∀ t : Thing F D T B S,
    List.Forall₂ (Same w m) t.parts (t.map (settled w m) (bound w m)).parts
  | .blueprint b size es ts ss => by
    rw [Thing.map, Thing.parts, Thing.parts, nodes_ids]
    exact .cons (same_refl _ _ _) (.cons (same_refl _ _ _) (forall₂_append (nodes_same hw es) (same_list _ _ _)))
  | .planner b => by
    rw [Thing.map, Thing.parts]
    exact same_list _ _ _
  | .book b l => by
    rw [Thing.map, Thing.parts, Thing.parts]
    exact .cons (same_own hw b).1 (things_same hw l)
theorem things_same {w : World F D T B S} {m : ValidationMode} (hw : Stable w m) : ∀ l : List (Thing F D T B S),
    List.Forall₂ (Same w m) (thingsParts l) (thingsParts (thingsMap (settled w m) (bound w m) l))
  | [] => by
    rw [thingsMap, thingsParts]
    exact .nil
  | t :: l => by
    rw [thingsMap, thingsParts, thingsParts]
    exact forall₂_append (thing_same hw t) (things_same hw l)
end

theorem reports_same {w : World F D T B S} {m : ValidationMode} : ∀ {l l' : List (Part F D T B)}, List.Forall₂ (Same w m) l l' →
    ∀ r, reports w m l = .ok r → ∃ r', reports w m l' = .ok r' ∧ r'.errors = r.errors
  | _, _, .nil, r, h => ⟨r, h, rfl⟩
  | _, _, .cons (a := p) (b := p') hp ht, r, h => by
    rw [reports_cons] at h ⊢
    cases h1 : p.report w m with
    | error x => rw [h1] at h; cases h
    | ok q =>
      rw [h1] at h
      rename_i l1 l2
      cases h2 : reports w m l1 with
      | error x => rw [h2] at h; cases h
      | ok s =>
        rw [h2] at h
        cases h
        obtain ⟨q', e1, e2⟩ := hp q h1
        obtain ⟨s', e3, e4⟩ := reports_same ht s h2
        refine ⟨iadd q' s', ?_, ?_⟩
        · rw [e1, e3]; rfl
        · simp [iadd, e2, e4]

/-- Validating a second time gives the same errors and changes nothing more, for formats that accept what they have converted. -/
theorem C85_again (w : World F D T B S) (m : ValidationMode) (force : Bool) (hw : Stable w m) (t : Thing F D T B S) (r : Result)
    (hr : (validateThing w m force t).2 = .ok r) :
    (validateThing w m force (validateThing w m force t).1).1 = (validateThing w m force t).1 ∧
    ∃ r', (validateThing w m force (validateThing w m force t).1).2 = .ok r' ∧ r'.errors = r.errors := by
  by_cases h : m ≠ .none ∨ force = true
  · have e := C85_after_partial w m force h t r hr
    have hr' := hr
    rw [C85_complete_partial w m force h] at hr'
    obtain ⟨r', h1, h2⟩ := reports_same (thing_same hw t) r hr'
    rw [← e, ← C85_complete_partial w m force h] at h1
    refine ⟨?_, r', h1, h2⟩
    rw [C85_after_partial w m force h _ r' h1, e]
    exact thing_fixed (fun x => (same_entity hw x).2) (fun b => (same_own hw b).2) t
  · simp only [not_or, not_not, Bool.not_eq_true] at h
    obtain ⟨rfl, rfl⟩ := h
    rw [C85_none] at hr ⊢
    exact ⟨by rw [C85_none], r, by rw [C85_none]; exact hr, rfl⟩

theorem sample_stable (m : ValidationMode) : Stable sample m := by
  refine ⟨fun f d r d' ws h => ?_, fun b b' ws h => ?_⟩
  · simp only [sample] at h ⊢
    by_cases h1 : f = 13
    · simp [h1] at h
    · by_cases h2 : f < 0
      · simp [h1, h2] at h
      · by_cases h3 : f = 7
        · simp [h3] at h
          obtain ⟨⟨rfl, _⟩, _⟩ := h
          simp
        · simp [h1, h2, h3] at h
          obtain ⟨⟨rfl, _⟩, _⟩ := h
          simp [h1, h2, h3]
  · simp only [sample] at h ⊢
    by_cases h1 : b = 13
    · simp [h1] at h
    · by_cases h2 : b < 0
      · simp [h1, h2] at h
      · by_cases h3 : b = 7
        · simp [h3] at h
          obtain ⟨rfl, _⟩ := h
          simp
        · simp [h1, h2, h3] at h
          obtain ⟨rfl, _⟩ := h
          simp [h1, h2, h3]

example : ∃ r, (validateThing sample .strict false library).2 = .ok r ∧ r.errors.length = 3 ∧ Stable sample .strict :=
  ⟨⟨[⟨"DataFormatError", ["negative"]⟩, ⟨"DataFormatError", ["negative"]⟩, ⟨"DataFormatError", ["negative"]⟩],
      [⟨"Warning", ["seven"]⟩, ⟨"Warning", ["seven"]⟩]⟩, by decide +kernel, rfl, sample_stable _⟩

/-- If no format gives warnings in the mode MINIMUM, validating gives none there, and a blueprint of any size is accepted. -/
theorem C85_minimum (w : World F D T B S) (he : ∀ f d r ws, w.entity .minimum f d = .ok (r, ws) → ws = [])
    (ht : ∀ t r ws, w.tile .minimum t = .ok (r, ws) → ws = []) (ho : ∀ b r ws, w.own .minimum b = .ok (r, ws) → ws = [])
    (force : Bool) (t : Thing F D T B S) (r : Result) (hr : (validateThing w .minimum force t).2 = .ok r) : r.warnings = [] := by
  refine (C85_clean w .minimum force (.inl (by decide)) t r hr).2.2 fun p hp => ?_
  rw [C85_complete_partial w .minimum force (.inl (by decide))] at hr
  obtain ⟨q, hq⟩ := (reports_ok hr).1 p hp
  refine ⟨q, hq, ?_⟩
  have key : ∀ {X : Type} (x : Run X), (∀ a ws, x = .ok (a, ws) → ws = []) → said x = .ok q → q.warnings = [] := by
    intro X x hx h
    match x, hx, h with
    | .error _, _, h => cases h
    | .ok (.ok a, ws), hx, h => cases h; exact hx _ _ rfl
    | .ok (.error a, ws), hx, h => cases h; exact hx _ _ rfl
  cases p with
  | entity e => exact key _ (he _ _) hq
  | ids l => rw [Part.report] at hq; cases hq; rfl
  | tile t => exact key _ (ht _) hq
  | own b size =>
    simp only [Part.report] at hq
    refine key _ (ho b) ?_
    rw [← hq]
    cases w.own .minimum b with
    | error x => rfl
    | ok a => obtain ⟨a, ws⟩ := a; cases a <;> simp

/-- Only blueprints of more than 10000 tiles, in the modes STRICT and PEDANTIC, are refused because of their size. -/
theorem C85_size (w : World F D T B S) (m : ValidationMode) (b : B) (size : Nat × Nat) (hm : m = .none ∨ m = .minimum ∨ size.1 ≤ 10000 ∧ size.2 ≤ 10000) :
    Part.report w m (.own b size) = said (w.own m b) := by
  rw [Part.report]
  have : ¬((m = .strict ∨ m = .pedantic) ∧ (size.1 > 10000 ∨ size.2 > 10000)) := by
    rintro ⟨h1, h2⟩
    rcases hm with rfl | rfl | hm
    · simp at h1
    · simp at h1
    · omega
  cases w.own m b with
  | error x => rfl
  | ok a => obtain ⟨a, ws⟩ := a; cases a <;> simp [this]

example : (validateThing sample .minimum false (.blueprint 7 (20000, 1) [.entity none ⟨7, "n"⟩] [7] [])).2 = .ok ⟨[], []⟩ := by decide +kernel

/-- C85: the size of a blueprint is also looked at when its index is set: with strict or pedantic assignments that raises if the blueprint is larger than 10000
tiles, and then only; the index is stored in any case, unless it is refused itself. -/
theorem C85_index {V : Type} (check : V → Except PyErr V) (m : ValidationMode) (size : Nat × Nat) (old new : V) :
    (m = .none → setIndex check m size old new = (new, none)) ∧
    (m ≠ .none → ∀ x, check new = .error x → setIndex check m size old new = (old, some x)) ∧
    (m ≠ .none → ∀ v, check new = .ok v → (setIndex check m size old new).1 = v ∧
      ((setIndex check m size old new).2 = none ↔ m = .minimum ∨ size.1 ≤ 10000 ∧ size.2 ≤ 10000) ∧
      ((setIndex check m size old new).2 = some .draftsmanError ↔ m ≠ .minimum ∧ (10000 < size.1 ∨ 10000 < size.2))) := by
  refine ⟨fun h => by simp [setIndex, h], fun h x hx => by simp [setIndex, h, hx], fun h v hv => ?_⟩
  simp only [setIndex, if_neg h, hv, true_and]
  have hs : tooLarge m size = true ↔ m ≠ .minimum ∧ (10000 < size.1 ∨ 10000 < size.2) := by
    cases m with
    | none => exact absurd rfl h
    | minimum =>
      have hle : ValidationMode.le .minimum .minimum = true := by decide
      simp [tooLarge, hle]
    | strict =>
      have hle : ValidationMode.le .strict .minimum = false := by decide
      simp [tooLarge, hle]
    | pedantic =>
      have hle : ValidationMode.le .pedantic .minimum = false := by decide
      simp [tooLarge, hle]
  by_cases hl : tooLarge m size = true
  · have := hs.1 hl
    rw [if_pos hl]
    constructor
    · simp only [reduceCtorEq, false_iff]
      rintro (h1 | h1)
      · exact this.1 h1
      · omega
    · simpa using this
  · rw [if_neg hl]
    have hn := mt hs.2 hl
    constructor
    · simp only [true_iff]
      by_cases h1 : m = .minimum
      · exact .inl h1
      · refine .inr ?_
        simp only [ne_eq, h1, not_false_eq_true, true_and] at hn
        omega
    · simpa using hn

example : setIndex (fun v : Int => if 0 ≤ v ∧ v < 65536 then .ok v else .error .dataFormat) .strict (10001, 1) 3 4 = (4, some .draftsmanError) ∧
    setIndex (fun v : Int => if 0 ≤ v ∧ v < 65536 then .ok v else .error .dataFormat) .strict (10000, 1) 3 (-1) = (3, some .dataFormat) := by decide

/-- C85: an assignment to `index` that raises can change it. -/
theorem C85_index_refuted : ¬ ∀ (check : Int → Except PyErr Int) (m : ValidationMode) (size : Nat × Nat) (old new : Int),
    (setIndex check m size old new).2 ≠ none → (setIndex check m size old new).1 = old := by
  intro h
  have := h .ok .strict (10001, 1) 3 4 (by decide)
  revert this
  decide

/-- The loop over the ids of a list ends without an error exactly if no id occurs twice; entities without an id do not count. -/
theorem C85_ids (l : List (Option String)) : distinct [] l = true ↔ ∀ i : String, l.count (some i) ≤ 1 := by
  have hc : ∀ (l : List (Option String)) (i : String), (l.filterMap id).count i = l.count (some i) := by
    intro l i
    induction l with
    | nil => rfl
    | cons a r ih =>
      cases a with
      | none => rw [List.filterMap_cons_none rfl, ih, List.count_cons_of_ne (by simp)]
      | some j => rw [List.filterMap_cons_some (f := id) (a := some j) (b := j) rfl, List.count_cons, List.count_cons, ih]; simp
  rw [distinct_iff]
  simp only [List.not_mem_nil, not_false_eq_true, implies_true, and_true, List.nodup_iff_count, hc]

example : (validateThing sample .minimum false (.blueprint 1 (2, 2) [.entity (some "a") ⟨1, "n"⟩, .entity none ⟨1, "n"⟩, .entity (some "a") ⟨1, "n"⟩] [] [])).2 =
    .ok ⟨[⟨"DataFormatError", ["Cannot have two entities with the same id"]⟩], []⟩ := by decide +kernel

/-! ### What is not so -/

/-- Claim: "validating a blueprint also validates its schedules".  Refuted: `Blueprint.validate` (blueprint.py:1028-1045) validates the entities and
tiles and never looks at the schedules, although `Schedule.validate` exists; a blueprint with a schedule that is invalid is reported as valid. -/
theorem C85_schedules_refuted :
    ¬∀ (w : World Int String Int Int Int) (m : ValidationMode) (b : Int) (ss : List Int) (r : Result), m ≠ .none →
      (validateThing w m false (.blueprint b (1, 1) [] [] ss)).2 = .ok r → r.errors = [] →
      ∀ s ∈ ss, ∃ q, (validateSchedule w m false s).2 = .ok q ∧ q.errors = [] := by
  intro h
  obtain ⟨q, h1, h2⟩ := h sample .strict 1 [-5] ⟨[], []⟩ (by decide) (by decide +kernel) rfl (-5) (by simp)
  have e : (validateSchedule sample .strict false (-5)).2 = .ok ⟨[⟨"DataFormatError", ["negative"]⟩], []⟩ := by decide +kernel
  rw [e] at h1
  cases h1
  cases h2

/-- Claim: "`validate` collects errors and returns them, and does not raise".  Refuted: a blueprint that is too large raises an
`UnreasonablySizedBlueprintError`, since that is a `DraftsmanError` and no `ValueError` (error.py:56, blueprint.py:442); the errors of the other
blueprints of the same book are lost. -/
theorem C85_raises_refuted :
    ¬∀ (w : World Int String Int Int Int) (m : ValidationMode) (t : Thing Int String Int Int Int),
      (∀ m b, ∃ a, w.own m b = .ok a) → (∀ m f d, ∃ a, w.entity m f d = .ok a) → (∀ m t, ∃ a, w.tile m t = .ok a) →
      ∃ r, (validateThing w m false t).2 = .ok r := by
  intro h
  obtain ⟨r, hr⟩ := h
    { entity := fun _ f d => .ok (.ok (f, d), []), tile := fun _ t => .ok (.ok t, []), schedule := fun _ s => .ok (.ok s, [])
      own := fun _ b => .ok (if b < 0 then .error ⟨"DataFormatError", ["negative"]⟩ else .ok b, []) } .strict
    (.book 1 [.planner (-1), .blueprint 2 (10001, 3) [] [] []]) (fun _ _ => ⟨_, rfl⟩) (fun _ _ _ => ⟨_, rfl⟩) (fun _ _ => ⟨_, rfl⟩)
  have e : ∀ {a b : Except PyErr Result}, a = b → a.isOk = b.isOk := fun h => by rw [h]
  have := (e hr).trans (b := (Except.ok r : Except PyErr Result).isOk) (c := true) rfl
  revert this
  clear hr e h r
  decide +kernel

/-- Claim: "`validate` coerces the data to their proper form".  Refuted for directions and orientations, which are put back as they were
(entity.py:731-735), and for tiles and blueprints, whose converted data are thrown away (tile.py:280, blueprintable.py:514): validating an
object that converts gives no errors and leaves them unconverted. -/
theorem C85_coerce_refuted :
    (¬∀ (w : World Int String Int Int Int) (e : Ent Int String) (r : Int × String) (ws : List Issue), w.entity .strict e.root e.facing = .ok (.ok r, ws) →
      (validateEntity w .strict false e).1 = ⟨r.1, r.2⟩) ∧
    (¬∀ (w : World Int String Int Int Int) (b b' : Int) (ws : List Issue), w.own .strict b = .ok (.ok b', ws) →
      (validateThing w .strict false (.planner b)).1 = .planner b') := by
  refine ⟨fun h => ?_, fun h => ?_⟩
  · have := h sample ⟨7, "n"⟩ (8, "n!") [⟨"Warning", ["seven"]⟩] (by decide +kernel)
    have := congrArg Ent.facing this
    revert this
    decide +kernel
  · have := h sample 7 8 [⟨"Warning", ["seven"]⟩] (by decide +kernel)
    simp [validateThing] at this

end Validate
end Draftsman
