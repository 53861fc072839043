import Verif.Model.AreaArg
import Verif.Props.Search
/-
C128: what can be given as the area of a search.
-/
namespace Draftsman
namespace AreaArg

/-- The box that an argument stands for: itself, or the corners that its first four entries are. -/
inductive Means : Arg → AABB → Prop
  | box (b : AABB) : Means (.box b) b
  | seq (x1 y1 x2 y2 : ℚ) (l : List Arg) : Means (.seq (.num x1 :: .num y1 :: .num x2 :: .num y2 :: l)) ⟨⟨x1, y1⟩, ⟨x2, y2⟩, 0⟩
  | dict (x1 y1 x2 y2 : ℚ) (l : List (Int × Arg)) (h0 : l.find? (fun p => p.1 == 0) = some (0, .num x1)) (h1 : l.find? (fun p => p.1 == 1) = some (1, .num y1))
      (h2 : l.find? (fun p => p.1 == 2) = some (2, .num x2)) (h3 : l.find? (fun p => p.1 == 3) = some (3, .num y2)) :
      Means (.dict l) ⟨⟨x1, y1⟩, ⟨x2, y2⟩, 0⟩

theorem number_ok {v : Arg} {q : ℚ} : number v = .ok q ↔ v = .num q := by
  cases v <;> simp [number]

theorem four_ok {v : Arg} {a b c d : Arg} : four v = .ok (a, b, c, d) ↔ item v 0 = .ok a ∧ item v 1 = .ok b ∧ item v 2 = .ok c ∧ item v 3 = .ok d := by
  simp only [four, bind, Except.bind]
  cases item v 0 with
  | error e => simp
  | ok x =>
    cases item v 1 with
    | error e => simp
    | ok y =>
      cases item v 2 with
      | error e => simp
      | ok z => cases item v 3 <;> simp

theorem solid_made {a b c d : Arg} {r : AABB} : solid (.made a b c d) = .ok r ↔
    ∃ x1 y1 x2 y2, a = .num x1 ∧ b = .num y1 ∧ c = .num x2 ∧ d = .num y2 ∧ r = ⟨⟨x1, y1⟩, ⟨x2, y2⟩, 0⟩ := by
  simp only [solid, bind, Except.bind]
  constructor
  · intro h
    cases ha : number a with
    | error e => rw [ha] at h; cases h
    | ok x1 =>
      cases hb : number b with
      | error e => rw [ha, hb] at h; cases h
      | ok y1 =>
        cases hc : number c with
        | error e => rw [ha, hb, hc] at h; cases h
        | ok x2 =>
          cases hd : number d with
          | error e => rw [ha, hb, hc, hd] at h; cases h
          | ok y2 =>
            rw [ha, hb, hc, hd] at h
            cases h
            exact ⟨x1, y1, x2, y2, number_ok.mp ha, number_ok.mp hb, number_ok.mp hc, number_ok.mp hd, rfl⟩
  · rintro ⟨x1, y1, x2, y2, rfl, rfl, rfl, rfl, rfl⟩
    rfl

theorem read_other {v : Arg} (hv : ∀ b, v ≠ .box b) (b : AABB) : read v = .ok b ↔
    ∃ x1 y1 x2 y2, item v 0 = .ok (.num x1) ∧ item v 1 = .ok (.num y1) ∧ item v 2 = .ok (.num x2) ∧ item v 3 = .ok (.num y2) ∧ b = ⟨⟨x1, y1⟩, ⟨x2, y2⟩, 0⟩ := by
  have hf : ∀ r, fromOther v = .ok r ↔ ∃ a b c d, four v = .ok (a, b, c, d) ∧ r = .made a b c d := by
    intro r
    have hr : fromOther v = (match four v with
      | .ok (a, b, c, d) => .ok (.made a b c d)
      | .error .indexError => .error .typeError
      | .error e => .error e) := by
      cases v <;> first | exact absurd rfl (hv _) | rfl
    rw [hr]
    cases h4 : four v with
    | error e => cases e <;> simp
    | ok p =>
      obtain ⟨a, b, c, d⟩ := p
      simp only [Except.ok.injEq, Prod.mk.injEq]
      constructor
      · rintro rfl
        exact ⟨a, b, c, d, ⟨rfl, rfl, rfl, rfl⟩, rfl⟩
      · rintro ⟨_, _, _, _, ⟨rfl, rfl, rfl, rfl⟩, rfl⟩
        rfl
  simp only [read, bind, Except.bind]
  constructor
  · intro h
    cases hr : fromOther v with
    | error e => rw [hr] at h; cases h
    | ok r =>
      rw [hr] at h
      obtain ⟨a, b', c, d, h4, rfl⟩ := (hf r).mp hr
      obtain ⟨x1, y1, x2, y2, rfl, rfl, rfl, rfl, rfl⟩ := solid_made.mp h
      obtain ⟨g0, g1, g2, g3⟩ := four_ok.mp h4
      exact ⟨x1, y1, x2, y2, g0, g1, g2, g3, rfl⟩
  · rintro ⟨x1, y1, x2, y2, g0, g1, g2, g3, rfl⟩
    rw [(hf _).mpr ⟨_, _, _, _, four_ok.mpr ⟨g0, g1, g2, g3⟩, rfl⟩]
    rfl

theorem dict_item {l : List (Int × Arg)} {i : ℕ} {x : Arg} : item (.dict l) i = .ok x ↔ l.find? (fun p => p.1 == (i : Int)) = some ((i : Int), x) := by
  simp only [item]
  cases h : l.find? (fun p => p.1 == (i : Int)) with
  | none => simp
  | some p =>
    have h1 := List.find?_some h
    obtain ⟨k, y⟩ := p
    have h2 : k = (i : Int) := by simpa using h1
    subst h2
    simp

/-- An argument is read as a box exactly if it stands for it: a box, or something whose first four entries are numbers. -/
theorem C128_area (v : Arg) (b : AABB) : read v = .ok b ↔ Means v b := by
  cases v with
  | box c =>
    constructor
    · intro h
      have h' : c = b := by simpa [read, fromOther, solid, bind, Except.bind] using h
      rw [← h']
      exact .box c
    · intro h
      cases h
      rfl
  | none =>
    rw [read_other (by simp)]
    constructor
    · rintro ⟨_, _, _, _, h, -⟩; cases h
    · intro h; cases h
  | num q =>
    rw [read_other (by simp)]
    constructor
    · rintro ⟨_, _, _, _, h, -⟩; cases h
    · intro h; cases h
  | text s =>
    rw [read_other (by simp)]
    constructor
    · rintro ⟨_, _, _, _, h, -⟩
      simp only [item] at h
      cases h0 : s[0]? with
      | none => rw [h0] at h; cases h
      | some c => rw [h0] at h; cases h
    · intro h; cases h
  | seq l =>
    rw [read_other (by simp)]
    constructor
    · rintro ⟨x1, y1, x2, y2, g0, g1, g2, g3, rfl⟩
      rcases l with _ | ⟨a, _ | ⟨b, _ | ⟨c, _ | ⟨d, l⟩⟩⟩⟩ <;> simp [item] at g0 g1 g2 g3
      subst g0 g1 g2 g3
      exact .seq ..
    · intro h
      cases h with
      | seq x1 y1 x2 y2 l => exact ⟨x1, y1, x2, y2, rfl, rfl, rfl, rfl, rfl⟩
  | dict l =>
    rw [read_other (by simp)]
    simp only [dict_item]
    constructor
    · rintro ⟨x1, y1, x2, y2, g0, g1, g2, g3, rfl⟩
      exact .dict x1 y1 x2 y2 l g0 g1 g2 g3
    · intro h
      cases h with
      | dict x1 y1 x2 y2 _ g0 g1 g2 g3 => exact ⟨x1, y1, x2, y2, g0, g1, g2, g3, rfl⟩

theorem item_error {v : Arg} {i : ℕ} {e : PyErr} (h : item v i = .error e) :
    e = .indexError ∨ e = .typeError ∨ e = .keyError ∧ ∃ l, v = .dict l ∧ ∀ p ∈ l, p.1 ≠ (i : Int) := by
  cases v with
  | none => cases h; simp
  | num q => cases h; simp
  | box b => cases h; simp
  | text s =>
    simp only [item] at h
    cases h0 : s[i]? with
    | none => rw [h0] at h; cases h; simp
    | some c => rw [h0] at h; cases h
  | seq l =>
    simp only [item] at h
    cases h0 : l[i]? with
    | none => rw [h0] at h; cases h; simp
    | some c => rw [h0] at h; cases h
  | dict l =>
    simp only [item] at h
    cases h0 : l.find? (fun p => p.1 == (i : Int)) with
    | none =>
      rw [h0] at h
      cases h
      refine Or.inr (Or.inr ⟨rfl, l, rfl, fun p hp => ?_⟩)
      have := List.find?_eq_none.mp h0 p hp
      simpa using this
    | some c => rw [h0] at h; cases h

/-- What is refused is refused with `TypeError`, but for a mapping without one of the keys, which is a `KeyError`. -/
theorem C128_refused {v : Arg} {e : PyErr} (h : read v = .error e) :
    e = .typeError ∨ e = .keyError ∧ ∃ l, v = .dict l ∧ ∃ i : ℕ, i < 4 ∧ ∀ p ∈ l, p.1 ≠ (i : Int) := by
  have hnum : ∀ {a : Arg} {e : PyErr}, number a = .error e → e = .typeError := by
    intro a e h
    cases a <;> cases h <;> rfl
  have hfour : ∀ {e : PyErr}, four v = .error e → ∃ i, i < 4 ∧ item v i = .error e := by
    intro e h
    simp only [four, bind, Except.bind] at h
    cases h0 : item v 0 with
    | error e0 => rw [h0] at h; cases h; exact ⟨0, by omega, h0⟩
    | ok x =>
      cases h1 : item v 1 with
      | error e0 => rw [h0, h1] at h; cases h; exact ⟨1, by omega, h1⟩
      | ok y =>
        cases h2 : item v 2 with
        | error e0 => rw [h0, h1, h2] at h; cases h; exact ⟨2, by omega, h2⟩
        | ok z =>
          cases h3 : item v 3 with
          | error e0 => rw [h0, h1, h2, h3] at h; cases h; exact ⟨3, by omega, h3⟩
          | ok t => rw [h0, h1, h2, h3] at h; cases h
  have hsolid : ∀ {r : Raw} {e : PyErr}, solid r = .error e → e = .typeError := by
    intro r e h
    cases r with
    | given b => cases h
    | made a b c d =>
      simp only [solid, bind, Except.bind] at h
      cases ha : number a with
      | error e0 => rw [ha] at h; cases h; exact hnum ha
      | ok x =>
        cases hb : number b with
        | error e0 => rw [ha, hb] at h; cases h; exact hnum hb
        | ok y =>
          cases hc : number c with
          | error e0 => rw [ha, hb, hc] at h; cases h; exact hnum hc
          | ok z =>
            cases hd : number d with
            | error e0 => rw [ha, hb, hc, hd] at h; cases h; exact hnum hd
            | ok t => rw [ha, hb, hc, hd] at h; cases h
  simp only [read, bind, Except.bind] at h
  cases hr : fromOther v with
  | ok r => rw [hr] at h; exact Or.inl (hsolid h)
  | error e0 =>
    rw [hr] at h
    cases h
    cases hv : four v with
    | ok p =>
      obtain ⟨a, b, c, d⟩ := p
      cases v <;> simp only [fromOther, hv] at hr <;> cases hr
    | error e1 =>
      have he : e = .typeError ∨ e = e1 ∧ e1 ≠ .indexError := by
        cases v with
        | box b => cases hr
        | _ =>
          simp only [fromOther, hv] at hr
          cases e1 <;> first | (cases hr; exact Or.inl rfl) | (cases hr; exact Or.inr ⟨rfl, by simp⟩)
      rcases he with he | ⟨rfl, hne⟩
      · exact Or.inl he
      · obtain ⟨i, hi, h4⟩ := hfour hv
        rcases item_error h4 with h5 | h5 | ⟨h5, l, h6, h7⟩
        · exact absurd h5 hne
        · exact Or.inl h5
        · exact Or.inr ⟨h5, l, h6, i, hi, h7⟩

/-- A search in four numbers finds members that overlap the box with these corners, each once, and all that overlap it by a thousandth; with the box the same. -/
theorem C128_found (cs : ℕ) (hcs : 0 < cs) (ops : List SOp) (h : ToldApart ops) (hw : WellPlaced ops) (top : List STree) {v : Arg} {b : AABB} (hv : Means v b)
    (hb : b.Proper) (hp : b.position = 0) : ∃ l : List SItem, find cs (SOp.run cs ops) top v = .ok (l.map .leaf) ∧ find cs (SOp.run cs ops) top (.box b) = .ok (l.map .leaf) ∧
      l.Nodup ∧ (∀ x ∈ l, x ∈ SOp.members ops ∧ ∃ a ∈ x.box, ∃ p, a.HasStrictly p ∧ b.HasStrictly p) ∧
      ∀ x ∈ SOp.members ops, ∀ a ∈ x.box, max a.topLeft.x b.topLeft.x ≤ min a.botRight.x b.botRight.x - 1/1000 →
        max a.topLeft.y b.topLeft.y ≤ min a.botRight.y b.botRight.y - 1/1000 → x ∈ l := by
  have hn : v.isNone = false := by cases hv <;> rfl
  refine ⟨(SOp.run cs ops).getInAabb cs b, ?_, rfl, (C13_only cs ops h hw b hb).2, (C13_only cs ops h hw b hb).1, fun x hx a ha hX hY => ?_⟩
  · rw [find, hn, (C128_area v b).mpr hv]
    rfl
  · exact C13_all_partial cs hcs ops h hw b hp x hx a ha hX hY

/-- What is refused is refused by the searches, and nothing but `None` stands for everywhere. -/
theorem C128_raises (cs : ℕ) (m : SMap) (top : List STree) (attr : SItem → SAttr) (a : SArgs) (ha : a.position = none) {v : Arg} (hv : v ≠ .none) {e : PyErr} :
    (find cs m top v = .error e ↔ read v = .error e) ∧ (filtered cs m top attr a v = .error e ↔ read v = .error e) := by
  have hn : v.isNone = false := by cases v <;> first | rfl | exact absurd rfl hv
  rw [find, filtered, hn, ha]
  cases hr : read v <;> simp

/-- The two searches agree in an area, and refuse the same arguments. -/
theorem C128_searches (cs : ℕ) (m : SMap) (top : List STree) (attr : SItem → SAttr) (v : Arg) (hv' : v ≠ .none) :
    find cs m top v = (filtered cs m top attr ⟨none, none, none, none, none, none, false, none⟩ v).map (List.map STree.leaf) := by
  have hv : v.isNone = false := by cases v <;> first | rfl | exact absurd rfl hv'
  rw [find, filtered, hv]
  cases hr : read v with
  | error e => rfl
  | ok b =>
    simp only [Option.isSome_none, Bool.or_false, if_false, Bool.false_eq_true, Except.map, Except.ok.injEq]
    rw [findEntities_unlimited _ _ _ _ _ rfl]
    have hall : ∀ l : List SItem, l.filter (fun x => (SArgs.test ⟨none, none, some b, none, none, none, false, none⟩ (attr x)) != false) = l := by
      intro l
      rw [List.filter_eq_self]
      intro x _
      rfl
    rw [hall]
    rfl

/-- Without an area the first gives the members of the collection, the second all entities in it; they agree if the collection holds no groups. -/
theorem C128_all_partial (cs : ℕ) (m : SMap) (attr : SItem → SAttr) (l : List SItem) :
    find cs m (l.map .leaf) .none = .ok (l.map .leaf) ∧
    filtered cs m (l.map .leaf) attr ⟨none, none, none, none, none, none, false, none⟩ .none = .ok l := by
  refine ⟨rfl, ?_⟩
  have hl : allLeaves (l.map .leaf) = l := by
    induction l with
    | nil => rfl
    | cons x l ih => rw [List.map_cons, allLeaves, leaves, ih]; rfl
  rw [filtered]
  simp only [Arg.isNone, Bool.or_true, if_true, Except.ok.injEq]
  rw [findEntities_unlimited _ _ _ _ _ rfl, hl]
  simp only [SArgs.region]
  rw [List.filter_eq_self]
  intro x _
  rfl

/-- A position takes precedence: the area is not even read. -/
theorem C128_precedence (cs : ℕ) (m : SMap) (top : List STree) (attr : SItem → SAttr) (a : SArgs) (p : Vec) (ha : a.position = some p) (v : Arg) :
    ∃ l, filtered cs m top attr a v = .ok l ∧ ∀ w, filtered cs m top attr a w = .ok l := by
  refine ⟨findEntities { a with area := none } cs m (allLeaves top) attr, ?_, fun w => ?_⟩ <;>
  · rw [filtered, ha]; rfl

/-- An area of the type that is documented, `tuple[PrimitiveVector, PrimitiveVector]`, is refused: two points, whatever they are. -/
theorem C128_pair_refuted (p q : Arg) : read (.seq [p, q]) = .error .typeError := rfl

/-- Without an area `find_entities` does not find the entities in groups that it finds in an area. -/
theorem C128_all_refuted :
    let x : SItem := ⟨1, 1, ⟨1/2, 1/2⟩, some ⟨⟨0, 0⟩, ⟨1, 1⟩, 0⟩⟩
    find 8 (STree.addAll 8 [] [.group [.leaf x]]) [.group [.leaf x]] .none = .ok [.group [.leaf x]] ∧
    find 8 (STree.addAll 8 [] [.group [.leaf x]]) [.group [.leaf x]] (.seq [.num (-9), .num (-9), .num 9, .num 9]) = .ok [.leaf x] ∧
    filtered 8 (STree.addAll 8 [] [.group [.leaf x]]) [.group [.leaf x]] (fun _ => ⟨"a", "b", none⟩) ⟨none, none, none, none, none, none, false, none⟩ .none =
      .ok [x] := by
  refine ⟨rfl, ?_, rfl⟩
  have h : SMap.getInAabb 8 (STree.addAll 8 [] [.group [.leaf ⟨1, 1, ⟨1/2, 1/2⟩, some ⟨⟨0, 0⟩, ⟨1, 1⟩, 0⟩⟩]]) ⟨⟨-9, -9⟩, ⟨9, 9⟩, 0⟩ =
      [⟨1, 1, ⟨1/2, 1/2⟩, some ⟨⟨0, 0⟩, ⟨1, 1⟩, 0⟩⟩] := by decide +kernel
  show Except.ok (List.map STree.leaf (SMap.getInAabb 8 _ ⟨⟨-9, -9⟩, ⟨9, 9⟩, 0⟩)) = _
  rw [h]
  rfl

/-- What is read and what is refused. -/
example : Means (.seq [.num 1, .num 2, .num 3, .num 4, .text ['a']]) ⟨⟨1, 2⟩, ⟨3, 4⟩, 0⟩ ∧ read (.seq [.num 1, .num 2, .num 3]) = .error .typeError ∧
    read (.seq [.num 1, .num 2, .num 3, .none]) = .error .typeError ∧ read (.dict [(0, .num 1)]) = .error .keyError ∧ read (.num 5) = .error .typeError ∧
    read (.text ['1', '2', '3', '4']) = .error .typeError := ⟨.seq .., rfl, rfl, rfl, rfl, rfl⟩

/-- A mapping can be an area. -/
example : Means (.dict [(3, .num 4), (0, .num 1), (1, .num 2), (2, .num 3)]) ⟨⟨1, 2⟩, ⟨3, 4⟩, 0⟩ := .dict 1 2 3 4 _ rfl rfl rfl rfl

/-- A program with a member and an area that overlaps it. -/
example : ToldApart [.add (beltAt 0 0)] ∧ (⟨⟨1/2, 0⟩, ⟨3, 3⟩, 0⟩ : AABB).Proper ∧
    max (0 : ℚ) (1/2) ≤ min 1 3 - 1/1000 := by
  refine ⟨?_, ⟨by decide +kernel, by decide +kernel⟩, by decide +kernel⟩
  unfold ToldApart; decide +kernel

end AreaArg
end Draftsman
