import Verif.Proof.NestMap
import Verif.Props.SpatialHash
/-
C122: searches of a blueprint find what is in its groups, where it is.
-/
namespace Draftsman.NestMap

/-! ## Specification -/

/-- The object is `g` or in its list, or in the list of a collection that is. -/
inductive Inside (o : Nat → Obj) (g : Nat) : Nat → Prop
  | self : Inside o g g
  | step {i p : Nat} : (o i).parent = some p → (o i).listed = true → Inside o g p → Inside o g i

/-- The place of an object: positions count from the parent. -/
inductive At (o : Nat → Obj) : Nat → Vec → Prop
  | top {i : Nat} : (o i).parent = none → At o i (o i).pos
  | step {i p : Nat} {v : Vec} : (o i).parent = some p → At o p v → At o i (v + (o i).pos)

/-- The box of an entity at `v`, without `m` on the right and at the bottom, is around the point. -/
def Around (b : AABB) (v : Vec) (m : ℚ) (q : Vec) : Prop :=
  (b.topLeft.x + v.x ≤ q.x ∧ q.x ≤ b.botRight.x + v.x - m) ∧ (b.topLeft.y + v.y ≤ q.y ∧ q.y ≤ b.botRight.y + v.y - m)

/-- Calls that leave the groups of the blueprint alone: they act on the blueprint or on what is not in it, and the blueprint is
not translated while there is a group in its list. -/
def Safe (s : State) : Event → Prop
  | .leaf c _ _ => Inside s.obj 0 c → c = 0
  | .copy c _ => Inside s.obj 0 c → c = 0
  | .delete i => Inside s.obj 0 i → (s.obj i).parent = some 0
  | .translate c _ => Inside s.obj 0 c → c = 0 ∧ ∀ i, (s.obj i).parent = some 0 → (s.obj i).listed = true → (s.obj i).box ≠ none
  | .turn c _ _ => Inside s.obj 0 c → c = 0
  | .group _ => True
  | .move _ _ => True

/-- A history of such calls. -/
def SafeRun (es : List Event) : Prop := ∀ pre e post, es = pre ++ e :: post → Safe (run pre) e

/-! ## Proofs -/

theorem inside_iff {o : Nat → Obj} (h : Dec o) {g : Nat} : ∀ i, Inside o g i ↔ below o g i = true := by
  intro i
  constructor
  · intro hi
    induction hi with
    | self => exact below_self o g
    | @step i p hp hl _ ih =>
      by_cases hg : i = g
      · subst hg; exact below_self o i
      · rw [below_some h hp hg, hl, ih]; rfl
  · induction i using Nat.strong_induction_on with
    | _ i ih =>
      intro hb
      by_cases hg : i = g
      · subst hg; exact .self
      obtain ⟨p, hp, hl, hb'⟩ := below_true h hb hg
      exact .step hp hl (ih p (h i p hp) hb')

theorem at_iff {o : Nat → Obj} (h : Dec o) : ∀ i v, At o i v ↔ v = world o i := by
  intro i v
  constructor
  · intro hi
    induction hi with
    | top hp => rw [world_none hp]
    | step hp _ ih => rw [world_some h hp, ih]
  · rintro rfl
    induction i using Nat.strong_induction_on with
    | _ i ih =>
      cases hp : (o i).parent with
      | none => rw [world_none hp]; exact .top hp
      | some p => rw [world_some h hp]; exact .step hp (ih p (h i p hp))

theorem not_inside {s : State} (h : Ok s) {i : Nat} (hn : ¬ Inside s.obj 0 i) : below s.obj 0 i = false := by
  cases hb : below s.obj 0 i with
  | false => rfl
  | true => exact absurd ((inside_iff h.dec i).2 hb) hn

theorem step_exact {s : State} (h : Ok s) (hx : Exact s) {e : Event} (hs : Safe s e) : Exact (step s e) := by
  cases e with
  | leaf c pos box =>
    simp only [step]; split
    · rename_i hc
      refine appendLeaf_exact h hx hc.1 hc.2 ?_ pos box
      by_cases hi : Inside s.obj 0 c
      · exact .inl (hs hi)
      · exact .inr (not_inside h hi)
    · exact hx
  | group pos => exact newGroup_exact h hx pos
  | copy c g =>
    simp only [step]; split
    · rename_i hc
      refine appendGroup_exact h hx hc.1 hc.2.1 hc.2.2.1 hc.2.2.2.1 ?_
      by_cases hi : Inside s.obj 0 c
      · exact .inl (hs hi)
      · exact .inr (not_inside h hi)
    · exact hx
  | delete i =>
    simp only [step]; split
    · rename_i hc
      refine delete_exact h hx hc.2 ?_
      by_cases hi : Inside s.obj 0 i
      · exact .inl (hs hi)
      · exact .inr (not_inside h hi)
    · exact hx
  | move g pos => exact move_exact h hx g pos
  | translate c v =>
    simp only [step]; split
    · refine members_exact h hx _ _ ?_
      by_cases hi : Inside s.obj 0 c
      · exact .inl (hs hi)
      · exact .inr (not_inside h hi)
    · exact hx
  | turn c f b =>
    simp only [step]; split
    · refine turn_exact h hx f b ?_
      by_cases hi : Inside s.obj 0 c
      · exact .inl (hs hi)
      · exact .inr (not_inside h hi)
    · exact hx

theorem safe_exact (es : List Event) (hs : SafeRun es) : Exact (run es) := by
  induction es using List.reverseRecOn with
  | nil => exact empty_exact
  | append_singleton es e ih =>
    have h1 := ih (fun pre e' post he => hs pre e' (post ++ [e]) (by rw [he]; simp))
    have h2 := hs es e [] rfl
    show Exact ((es ++ [e]).foldl step empty)
    rw [List.foldl_append]
    exact step_exact (run_ok es) h1 h2

theorem mem_find {s : State} {q : Vec} {i : Nat} :
    i ∈ find s q ↔ (mapCoords 8 q, i) ∈ s.map ∧ ∃ b, (s.obj i).box = some b ∧ Around b (world s.obj i) 0 q := by
  have key : ∀ i, (match worldBox s.obj i with
      | none => false
      | some b => pointInAabb q b) = true ↔ ∃ b, (s.obj i).box = some b ∧ Around b (world s.obj i) 0 q := by
    intro i
    unfold worldBox
    cases hb : (s.obj i).box with
    | none => simp
    | some b =>
      simp only [Option.map_some, Option.some.injEq, exists_eq_left', Around, pointInAabb, AABB.worldTopLeft, AABB.worldBotRight, Bool.and_eq_true,
        decide_eq_true_eq, ge_iff_le, sub_zero]
      have hx : ∀ a c : Vec, (a + c).x = a.x + c.x := fun _ _ => rfl
      have hy : ∀ a c : Vec, (a + c).y = a.y + c.y := fun _ _ => rfl
      have h0 : (0 : Vec).x = 0 := rfl
      have h0' : (0 : Vec).y = 0 := rfl
      simp only [hx, hy, h0, h0', add_zero, decide_eq_true_eq]
  unfold find
  rw [List.mem_map]
  constructor
  · rintro ⟨⟨k, j⟩, he, rfl⟩
    rw [List.mem_filter, Bool.and_eq_true, decide_eq_true_eq] at he
    obtain ⟨h1, h2, h3⟩ := he
    simp only at h2
    subst h2
    exact ⟨h1, (key j).1 h3⟩
  · rintro ⟨h1, h2⟩
    refine ⟨(mapCoords 8 q, i), ?_, rfl⟩
    rw [List.mem_filter, Bool.and_eq_true, decide_eq_true_eq]
    exact ⟨h1, rfl, (key i).2 h2⟩

/-! ## C122 -/

/-- A search finds entities of the blueprint only, directly or in groups, that are around the point, each once.  Missing for
the full claim: calls on groups that are in the blueprint, see the refutations. -/
theorem C122_only_partial (es : List Event) (hs : SafeRun es) (q : Vec) : (find (run es) q).Nodup ∧
    ∀ i ∈ find (run es) q, Inside (run es).obj 0 i ∧
      ∃ b v, ((run es).obj i).box = some b ∧ At (run es).obj i v ∧ Around b v 0 q := by
  have h := run_ok es
  have hx := safe_exact es hs
  refine ⟨?_, fun i hi => ?_⟩
  · unfold find
    refine List.Nodup.map_on ?_ (hx.nodup.filter _)
    rintro ⟨k, i⟩ hk ⟨k', i'⟩ hk' rfl
    rw [List.mem_filter, Bool.and_eq_true, decide_eq_true_eq] at hk hk'
    rw [show k = mapCoords 8 q from hk.2.1, show k' = mapCoords 8 q from hk'.2.1]
  · obtain ⟨h1, b, hb, ha⟩ := mem_find.1 hi
    exact ⟨(inside_iff h.dec i).2 ((hx.mem _).1 h1).1, b, _, hb, (at_iff h.dec i _).2 rfl, ha⟩

/-- A search finds every entity of the blueprint, directly or in groups, that is around the point (less a thousandth on the right
and at the bottom, see C14).  Missing for the full claim: calls on groups that are in the blueprint, see the refutations. -/
theorem C122_all_partial (es : List Event) (hs : SafeRun es) (q : Vec) (i : Nat) (hi : Inside (run es).obj 0 i) (b : AABB) (v : Vec)
    (hb : ((run es).obj i).box = some b) (hv : At (run es).obj i v) (hq : Around b v (1/1000) q) : i ∈ find (run es) q := by
  have h := run_ok es
  have hx := safe_exact es hs
  obtain rfl := (at_iff h.dec i v).1 hv
  obtain ⟨⟨h1, h2⟩, h3, h4⟩ := hq
  rw [mem_find, hx.mem]
  refine ⟨⟨(inside_iff h.dec i).1 hi, ?_⟩, b, hb, ⟨by linarith, by linarith⟩, by linarith, by linarith⟩
  simp only [worldBox, hb, Option.map_some]
  rw [mem_cellsFromAabb (by omega)]
  have a1 := (le_floor_div (cs := 8) (by omega) q.x _).1 le_rfl
  have a2 := (floor_div_le (cs := 8) (by omega) q.x _).1 le_rfl
  have a3 := (le_floor_div (cs := 8) (by omega) q.y _).1 le_rfl
  have a4 := (floor_div_le (cs := 8) (by omega) q.y _).1 le_rfl
  have hx' : ∀ a c : Vec, (a + c).x = a.x + c.x := fun _ _ => rfl
  have hy' : ∀ a c : Vec, (a + c).y = a.y + c.y := fun _ _ => rfl
  refine ⟨⟨?_, ?_⟩, ?_, ?_⟩ <;> simp only [mapCoords, hx', hy'] <;> linarith

/-- Appending a group that stands alone puts a copy of everything in it into the blueprint, at the same places, and leaves every
other object as it is. -/
theorem C122_copy (es : List Event) (g : Nat) (hg : g < (run es).next) (hgb : ((run es).obj g).box = none) (hg0 : g ≠ 0)
    (hp : ((run es).obj g).parent = none) :
    (∀ i v, Inside (run es).obj g i → At (run es).obj i v → ∃ j, (run es).next ≤ j ∧ Inside (run (es ++ [.copy 0 g])).obj 0 j ∧
      At (run (es ++ [.copy 0 g])).obj j v ∧ ((run (es ++ [.copy 0 g])).obj j).box = ((run es).obj i).box) ∧
    ∀ i, i < (run es).next → (run (es ++ [.copy 0 g])).obj i = (run es).obj i := by
  have h := run_ok es
  have hn := h.next
  have hr : run (es ++ [.copy 0 g]) = appendGroup (run es) 0 g := by
    show (es ++ [Event.copy 0 g]).foldl step empty = _
    rw [List.foldl_append]
    show step (run es) (.copy 0 g) = _
    simp only [step]
    rw [if_pos ⟨hn, by rw [h.root], hg, hgb, hg0⟩]
  rw [hr]
  generalize hS : run es = s at *
  have hd : Dec (copyObj s g (some 0)) := copy_dec h hg (fun c hc => by simp only [Option.some.injEq] at hc; omega)
  refine ⟨fun i v hi hv => ?_, fun i hi => copyObj_old hi⟩
  have hb := (inside_iff h.dec i).1 hi
  have hle := below_le h.dec i hb
  have hlt : i < s.next := by
    by_contra hc
    have hf := h.fresh i (by omega)
    rw [below_none (by rw [hf]; rfl) (by omega)] at hb
    cases hb
  obtain rfl := (at_iff h.dec i v).1 hv
  have htop : below (copyObj s g (some 0)) 0 s.next = true := by
    rw [below_some hd (p := 0) (by rw [copyObj_top hg]) (by omega), copyObj_top hg, below_self]; rfl
  refine ⟨s.next + (i - g), by omega, (inside_iff hd _).2 ?_, (at_iff hd _ _).2 ?_, ?_⟩
  · rw [copy_below h hg (fun c hc => by simp only [Option.some.injEq] at hc; omega) (by omega) (i - g) (by omega), htop,
      show g + (i - g) = i by omega, hb]; rfl
  · rw [← copy_world h hg (i - g) (by omega)]
    have hd0 : Dec (copyObj s g none) := copy_dec h hg (fun c hc => by simp at hc)
    clear hi hv htop
    induction i using Nat.strong_induction_on with
    | _ i ih =>
      by_cases hig : i = g
      · subst hig
        rw [Nat.sub_self, Nat.add_zero, world_none hp, world_none (by rw [copyObj_top hg]), copyObj_top hg]
      · obtain ⟨p, hp', hl, hb'⟩ := below_true h.dec hb hig
        have hpl := h.dec i p hp'
        have hple := below_le h.dec p hb'
        have hin := copyObj_in (s := s) (g := g) (up := none) (k := i - g) (by omega) (by omega) (by rw [show g + (i - g) = i by omega]; exact hb)
        rw [show g + (i - g) = i by omega, hp', Option.map_some] at hin
        rw [world_some h.dec hp', world_some hd0 (p := s.next + (p - g)) (by rw [hin]; simp; omega), hin,
          ih p hpl hb' hple (by omega)]
  · show (copyObj s g (some 0) (s.next + (i - g))).box = _
    by_cases hig : i = g
    · subst hig; rw [Nat.sub_self, Nat.add_zero, copyObj_top hg]
    · rw [copyObj_in (by omega) (by omega) (by rw [show g + (i - g) = i by omega]; exact hb), show g + (i - g) = i by omega]

/-- Deleting a member of the blueprint takes out it and all that is in it, and nothing else; what stays is where it was. -/
theorem C122_delete (es : List Event) (i : Nat) (hi : ((run es).obj i).parent = some 0) (hl : ((run es).obj i).listed = true) (j : Nat) :
    (Inside (run (es ++ [.delete i])).obj 0 j ↔ Inside (run es).obj 0 j ∧ ¬ Inside (run es).obj i j) ∧
    ∀ v, At (run (es ++ [.delete i])).obj j v ↔ At (run es).obj j v := by
  have h := run_ok es
  have hlt : i < (run es).next := by
    by_contra hc
    rw [h.fresh i (by omega)] at hl; cases hl
  have hr : run (es ++ [.delete i]) = delete (run es) i := by
    show (es ++ [Event.delete i]).foldl step empty = _
    rw [List.foldl_append]
    show step (run es) (.delete i) = _
    simp only [step]
    rw [if_pos ⟨hlt, by rw [hi]; simp⟩]
  rw [hr]
  have hne : ((run es).obj i).parent ≠ none := by rw [hi]; simp
  have hk := delete_ok h hne
  refine ⟨?_, fun v => ?_⟩
  · rw [inside_iff hk.dec, inside_iff h.dec, inside_iff h.dec, delete_below h hne hl, Bool.and_eq_true, Bool.not_eq_true', Bool.not_eq_true]
  · rw [at_iff hk.dec, at_iff h.dec, world_congr h.dec hk.dec j (fun _ _ => ⟨delete_same.1, delete_same.2.1⟩)]

/-- An entity appended to a group that is in the blueprint is in the blueprint, but no search of the blueprint finds it: the list
of the group adds it to the map of the group. -/
theorem C122_nested_refuted (es : List Event) (c : Nat) (hc : Inside (run es).obj 0 c) (hc0 : c ≠ 0) (hb : ((run es).obj c).box = none)
    (pos : Vec) (box : AABB) :
    ((run (es ++ [.leaf c pos box])).obj (run es).next).box = some box ∧
    Inside (run (es ++ [.leaf c pos box])).obj 0 (run es).next ∧ ∀ q, (run es).next ∉ find (run (es ++ [.leaf c pos box])) q := by
  have h := run_ok es
  have hlt := h.below_lt ((inside_iff h.dec c).1 hc)
  have hr : run (es ++ [.leaf c pos box]) = appendLeaf (run es) c pos box := by
    show (es ++ [Event.leaf c pos box]).foldl step empty = _
    rw [List.foldl_append]
    show step (run es) (.leaf c pos box) = _
    simp only [step]
    rw [if_pos ⟨hlt, hb⟩]
  rw [hr]
  have hk := appendLeaf_ok h hlt hb pos box
  refine ⟨by rw [appendLeaf_obj, if_pos rfl], (inside_iff hk.dec _).2 ?_, fun q hq => ?_⟩
  · rw [(appendLeaf_new h hlt hb pos box).1, ← inside_iff h.dec]; exact hc
  · have := (mem_find.1 hq).1
    rw [show (appendLeaf (run es) c pos box).map = (run es).map by simp [appendLeaf, hc0]] at this
    have := h.reg _ this
    simp only at this; omega

/-- What is taken out of a group that is in the blueprint is no longer in the blueprint, but every search of the blueprint goes on
as before: what was found there is still found. -/
theorem C122_ghost_refuted (es : List Event) (i p : Nat) (hp : ((run es).obj i).parent = some p) (hp0 : p ≠ 0)
    (hl : ((run es).obj i).listed = true) :
    ¬ Inside (run (es ++ [.delete i])).obj 0 i ∧ ∀ q, find (run (es ++ [.delete i])) q = find (run es) q := by
  have h := run_ok es
  have hlt : i < (run es).next := by
    by_contra hc
    rw [h.fresh i (by omega)] at hl; cases hl
  have hne : ((run es).obj i).parent ≠ none := by rw [hp]; simp
  have hr : run (es ++ [.delete i]) = delete (run es) i := by
    show (es ++ [Event.delete i]).foldl step empty = _
    rw [List.foldl_append]
    show step (run es) (.delete i) = _
    simp only [step]
    rw [if_pos ⟨hlt, hne⟩]
  rw [hr]
  refine ⟨fun hin => ?_, fun q => ?_⟩
  · rw [inside_iff (delete_ok h hne).dec, delete_below h hne hl, below_self] at hin
    simp at hin
  · have hm : (delete (run es) i).map = (run es).map := by simp [delete, hl, hp, hp0]
    unfold find
    simp only [hm, delete_world h hne]

/-- A chest of one tile. -/
def chest : AABB := { topLeft := ⟨-7/20, -7/20⟩, botRight := ⟨7/20, 7/20⟩ }

/-- A group with a chest, appended to a blueprint: the chest in the blueprint is object 4. -/
def grouped : List Event := [.group ⟨2, 0⟩, .leaf 1 ⟨1/2, 1/2⟩ chest, .copy 0 1]

/-- Moving a blueprint with a group in it, or moving a group that is in a blueprint, moves the entities of the group, but the map of
the blueprint keeps them where they were: they are found neither there nor where they are. -/
theorem C122_translate_refuted : ∀ c ∈ [0, 3],
    Inside (run (grouped ++ [.translate c ⟨100, 0⟩])).obj 0 4 ∧ At (run (grouped ++ [.translate c ⟨100, 0⟩])).obj 4 ⟨205/2, 1/2⟩ ∧
      find (run (grouped ++ [.translate c ⟨100, 0⟩])) ⟨205/2, 1/2⟩ = [] ∧ find (run grouped) ⟨5/2, 1/2⟩ = [4] ∧
      find (run (grouped ++ [.translate c ⟨100, 0⟩])) ⟨5/2, 1/2⟩ = [] := by
  intro c hc
  rw [inside_iff (run_ok _).dec, at_iff (run_ok _).dec]
  revert c
  decide +kernel

theorem foldl_alter_obj (c : Nat) (f : Vec → Vec) (b : Nat → AABB → AABB) (i : Nat) : ∀ (l : List Nat) (s : State), l.Nodup →
    (l.foldl (alter c f b) s).obj i =
      if i ∈ l then { s.obj i with pos := f (s.obj i).pos, box := (s.obj i).box.map (b i) } else s.obj i := by
  intro l
  induction l with
  | nil => intro s _; simp
  | cons j l ih =>
    intro s hn
    rw [List.foldl_cons, ih _ (List.nodup_cons.1 hn).2, alter_obj]
    by_cases hij : i = j
    · subst hij
      rw [if_neg (List.nodup_cons.1 hn).1, if_pos (by simp)]
      simp [repos]
    · rw [repos_pos hij]; simp [hij]

theorem members_obj {s : State} (h : Ok s) (c : Nat) (f : Vec → Vec) (b : Nat → AABB → AABB) (i : Nat) :
    ((members s c).foldl (alter c f b) s).obj i =
      if (s.obj i).parent = some c ∧ (s.obj i).listed = true then
        { s.obj i with pos := f (s.obj i).pos, box := (s.obj i).box.map (b i) }
      else s.obj i := by
  rw [foldl_alter_obj c f b i (members s c) s ((List.nodup_range (n := s.next)).filter _)]
  by_cases hc : (s.obj i).parent = some c ∧ (s.obj i).listed = true
  · have hlt : i < s.next := by
      by_contra hc'
      rw [h.fresh i (by omega)] at hc; cases hc.2
    rw [if_pos (mem_members.2 ⟨hlt, hc.2, hc.1⟩), if_pos hc]
  · rw [if_neg (fun hm => hc ⟨(mem_members.1 hm).2.2, (mem_members.1 hm).2.1⟩), if_neg hc]

/-- A successful rotation or flip of a collection applies the given change to the positions and boxes of exactly its members. -/
theorem C122_turn (es : List Event) (c : Nat) (hc : c < (run es).next) (hcb : ((run es).obj c).box = none) (f : Vec → Vec)
    (b : Nat → AABB → AABB)
    (hb : ∀ i, ((run es).obj i).parent = some c → ((run es).obj i).listed = true → ((run es).obj i).box ≠ none) (i : Nat) :
    (run (es ++ [.turn c f b])).obj i =
      if ((run es).obj i).parent = some c ∧ ((run es).obj i).listed = true then
        { (run es).obj i with pos := f ((run es).obj i).pos, box := ((run es).obj i).box.map (b i) }
      else (run es).obj i := by
  have h := run_ok es
  have hr : run (es ++ [.turn c f b]) = (members (run es) c).foldl (alter c f b) (run es) := by
    show (es ++ [Event.turn c f b]).foldl step empty = _
    rw [List.foldl_append]
    show step (run es) (.turn c f b) = _
    simp only [step]
    rw [if_pos ⟨hc, hcb⟩, turn, if_pos]
    rw [List.all_eq_true]
    intro j hj
    obtain ⟨-, h2, h3⟩ := mem_members.1 hj
    exact Option.isSome_iff_ne_none.2 (hb j h3 h2)
  rw [hr]
  exact members_obj h c f b i

/-- A translation of a collection, in a blueprint or not, moves exactly its members, entities and groups, and once. -/
theorem C122_translate (es : List Event) (c : Nat) (hc : c < (run es).next) (hcb : ((run es).obj c).box = none) (v : Vec) (i : Nat) :
    (run (es ++ [.translate c v])).obj i =
      if ((run es).obj i).parent = some c ∧ ((run es).obj i).listed = true then
        { (run es).obj i with pos := ((run es).obj i).pos + v }
      else (run es).obj i := by
  have h := run_ok es
  have hr : run (es ++ [.translate c v]) = (members (run es) c).foldl (alter c (fun p => p + v) fun _ b => b) (run es) := by
    show (es ++ [Event.translate c v]).foldl step empty = _
    rw [List.foldl_append]
    show step (run es) (.translate c v) = _
    simp only [step]
    rw [if_pos ⟨hc, hcb⟩, translate]
  rw [hr, members_obj h]
  split
  · simp
  · rfl

/-- The position of a group is changed while it stands alone, and nothing else; with a parent it is refused. -/
theorem C122_move (es : List Event) (g : Nat) (hg : g < (run es).next) (hg0 : g ≠ 0) (hgb : ((run es).obj g).box = none) (pos : Vec) (i : Nat) :
    (run (es ++ [.move g pos])).obj i =
      if i = g ∧ ((run es).obj g).parent = none then { (run es).obj i with pos } else (run es).obj i := by
  have hr : run (es ++ [.move g pos]) = move (run es) g pos := by
    show (es ++ [Event.move g pos]).foldl step empty = _
    rw [List.foldl_append]; rfl
  rw [hr, move]
  by_cases hp : ((run es).obj g).parent = none
  · rw [if_pos ⟨hp, hgb, hg0, hg⟩]
    by_cases hi : i = g <;> simp [hi, hp]
  · rw [if_neg (fun h => hp h.1), if_neg (fun h => hp h.2)]

/-! ## Concrete cases -/

/-- A quarter turn of a chest and of what is as wide as two chests. -/
def turned : List Event :=
  [.leaf 0 ⟨21/2, 1/2⟩ chest, .leaf 0 ⟨1, 7/2⟩ { topLeft := ⟨-17/20, -7/20⟩, botRight := ⟨17/20, 7/20⟩ },
   .turn 0 (fun p => ⟨-p.y, p.x⟩) fun _ a => { topLeft := ⟨a.topLeft.y, a.topLeft.x⟩, botRight := ⟨a.botRight.y, a.botRight.x⟩ }]

example : find (run turned) ⟨-1/2, 21/2⟩ = [1] ∧ find (run turned) ⟨-7/2, 8/5⟩ = [2] ∧ find (run turned) ⟨21/2, 1/2⟩ = [] ∧
    ∀ i < 3, ((run turned).obj i).parent = some 0 → ((run turned).obj i).box ≠ none := by decide +kernel

/-- The group may be moved and emptied while it stands alone, and the copies appended and deleted; then the blueprint moved. -/
def longer : List Event :=
  grouped ++ [.move 1 ⟨20, 0⟩, .leaf 1 ⟨3/2, 1/2⟩ chest, .translate 1 ⟨0, 1⟩, .copy 0 1, .leaf 0 ⟨9/2, 1/2⟩ chest, .delete 3, .delete 5]

/-- `Safe`, computed. -/
def safeB (s : State) : Event → Bool
  | .leaf c _ _ => c == 0 || !below s.obj 0 c
  | .copy c _ => c == 0 || !below s.obj 0 c
  | .delete i => decide ((s.obj i).parent = some 0) || !below s.obj 0 i
  | .translate c _ => (c == 0 && (List.range s.next).all fun i => !decide ((s.obj i).parent = some 0) || !(s.obj i).listed || (s.obj i).box.isSome) ||
      !below s.obj 0 c
  | .turn c _ _ => c == 0 || !below s.obj 0 c
  | .group _ => true
  | .move _ _ => true

theorem safe_of_safeB {s : State} (h : Ok s) (e : Event) (hs : safeB s e = true) : Safe s e := by
  cases e with
  | leaf c pos box =>
    intro hi; rw [inside_iff h.dec] at hi
    simpa [safeB, hi] using hs
  | copy c g =>
    intro hi; rw [inside_iff h.dec] at hi
    simpa [safeB, hi] using hs
  | delete i =>
    intro hi; rw [inside_iff h.dec] at hi
    simpa [safeB, hi] using hs
  | translate c v =>
    intro hi; rw [inside_iff h.dec] at hi
    simp only [safeB, hi, Bool.not_true, Bool.or_false, Bool.and_eq_true, beq_iff_eq, List.all_eq_true, List.mem_range] at hs
    refine ⟨hs.1, fun i hp hl hb => ?_⟩
    have hlt : i < s.next := by
      by_contra hc
      rw [h.fresh i (by omega)] at hl; cases hl
    have := hs.2 i hlt
    simp [hp, hl, hb] at this
  | turn c f b =>
    intro hi; rw [inside_iff h.dec] at hi
    simpa [safeB, hi] using hs
  | group _ => trivial
  | move _ _ => trivial

theorem safeRun_of (es : List Event) (hs : ∀ k (hk : k < es.length), safeB (run (es.take k)) es[k] = true) : SafeRun es := by
  rintro pre e post rfl
  refine safe_of_safeB (run_ok _) e ?_
  have := hs pre.length (by simp)
  simpa using this

example : SafeRun grouped := safeRun_of _ (by decide +kernel)

example : SafeRun turned := safeRun_of _ (by decide +kernel)

example : SafeRun longer := safeRun_of _ (by decide +kernel)

example : SafeRun [.leaf 0 ⟨1/2, 1/2⟩ chest, .translate 0 ⟨8, 0⟩] := safeRun_of _ (by decide +kernel)

/-- An entity may be appended to the copy of the group that is in the blueprint, or deleted there, though not safely. -/
example : Inside (run grouped).obj 0 3 ∧ ((run grouped).obj 3).box = none ∧ ((run grouped).obj 4).parent = some 3 ∧
    ((run grouped).obj 4).listed = true ∧ ((run grouped).obj 1).parent = none ∧ ¬ Safe (run grouped) (.leaf 3 ⟨1/2, 1/2⟩ chest) := by
  have h3 : Inside (run grouped).obj 0 3 := (inside_iff (run_ok _).dec 3).2 (by decide +kernel)
  exact ⟨h3, by decide +kernel, by decide +kernel, by decide +kernel, by decide +kernel, fun h => absurd (h h3) (by decide)⟩

example : (run longer).next = 12 ∧ find (run longer) ⟨41/2, 3/2⟩ = [7] ∧ find (run longer) ⟨9/2, 1/2⟩ = [11] ∧ find (run longer) ⟨5/2, 1/2⟩ = [] := by
  decide +kernel

example : find (run [.leaf 0 ⟨1/2, 1/2⟩ chest, .translate 0 ⟨8, 0⟩]) ⟨17/2, 1/2⟩ = [1] := by decide +kernel

end Draftsman.NestMap
