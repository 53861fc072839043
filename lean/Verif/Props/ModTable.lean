import Verif.Model.ModTable
import Verif.Model.ModLoad
import Mathlib.Data.List.Basic
import Mathlib.Data.List.Forall2
import Mathlib.Order.Lattice
import Mathlib.Order.Nat
/-! C110: the table of mods printed by `draftsman list`. -/
namespace Draftsman
namespace ModTable

/-- Where a version stands among those of its mod. -/
inductive Pos where
  | first | middle | last
  deriving DecidableEq, Repr

/-- The versions after the first. -/
def others : List Mod → List (Pos × Mod)
  | [] => []
  | [m] => [(.last, m)]
  | m :: r => (.middle, m) :: others r

/-- All versions in the order of the table. -/
def listed : List (Str × List Mod) → List (Pos × Mod)
  | [] => []
  | (_, []) :: t => listed t
  | (_, m :: r) :: t => ((.first, m) :: others r) ++ listed t

/-- The text as it is, or if it is longer than the limit the beginning of it and three dots. -/
def Shown (limit : Nat) (s cell : Str) : Prop :=
  (s.length ≤ limit → cell = s) ∧ (limit < s.length → ∃ a b, s = a ++ b ∧ cell = a ++ ['.', '.', '.'] ∧ cell.length = limit)

/-- The column with the name: the name in the first line of a mod, and an arrow of the same length in the others, of at least two characters. -/
def NameCell (p : Pos) (m : Mod) (w : Nat) (cell : Str) : Prop :=
  cell.length = w ∧ match p with
  | .first => ∃ t k, Shown 50 m.name t ∧ cell = t ++ List.replicate k ' '
  | .middle => ∃ t k, cell = '├' :: t ++ '>' :: List.replicate k ' ' ∧ (∀ c ∈ t, c = '─') ∧ t.length + 2 = max m.name.length 2
  | .last => ∃ t k, cell = '└' :: t ++ '>' :: List.replicate k ' ' ∧ (∀ c ∈ t, c = '─') ∧ t.length + 2 = max m.name.length 2

/-- The column with the version, a hyphen if there is none. -/
def VersionCell (m : Mod) (v : Nat) (cell : Str) : Prop :=
  cell.length = v ∧ ∃ t k, (m.version ≠ [] → Shown 30 m.version t) ∧ (m.version = [] → t = ['-']) ∧ cell = List.replicate k ' ' ++ t

/-- Whether the version is marked. -/
def Used (p : Pos) (m : Mod) : Prop := p = .first ∧ m.enabled = true

instance (p : Pos) (m : Mod) : Decidable (Used p m) := inferInstanceAs (Decidable (_ ∧ _))

/-- A line of the short table. -/
def ShortLine (w v : Nat) (x : Pos × Mod) (line : Str) : Prop :=
  ∃ n s, NameCell x.1 x.2 w n ∧ VersionCell x.2 v s ∧
    line = (if Used x.1 x.2 then '✓' else ' ') :: ' ' :: (if x.2.archive then ['(', 'z', 'i', 'p', ')'] else ['(', 'd', 'i', 'r', ')']) ++
      ' ' :: n ++ [' ', ' ', ' ', ' '] ++ s

/-- Five cells with bars between. -/
def Cells (w v : Nat) (a b c : Char) (on kind name version location line : Str) : Prop :=
  on.length = 3 ∧ kind.length = 5 ∧ name.length = w ∧ version.length = v ∧
    line = on ++ [a, b, c] ++ kind ++ [a, b, c] ++ name ++ [a, b, c] ++ version ++ [a, b, c] ++ location

/-- A line of the long table. -/
def LongLine (w v l : Nat) (x : Pos × Mod) (line : Str) : Prop :=
  ∃ n s t, NameCell x.1 x.2 w n ∧ VersionCell x.2 v s ∧ Shown 100 x.2.location t ∧ t.length ≤ l ∧
    Cells w v ' ' '┃' ' ' [' ', if Used x.1 x.2 then '✓' else ' ', ' ']
      (if x.2.archive then ['(', 'z', 'i', 'p', ')'] else ['(', 'd', 'i', 'r', ')']) n s t line

/-- Every version is listed under its own name. -/
def Keyed (mods : Mods) : Prop := ∀ p ∈ mods, ∀ m ∈ p.2, m.name = p.1

/-- Mods of several versions have names of at most fifty characters. -/
def Short (mods : Mods) : Prop := ∀ p ∈ mods, 2 ≤ p.2.length → p.1.length ≤ 50

/-! ### Lengths -/

theorem foldl_max_le (l : List Nat) (n : Nat) : n ≤ l.foldl max n ∧ ∀ x ∈ l, x ≤ l.foldl max n := by
  induction l generalizing n with
  | nil => exact ⟨Nat.le_refl _, by simp⟩
  | cons a r ih =>
    obtain ⟨h1, h2⟩ := ih (max n a)
    refine ⟨Nat.le_trans (Nat.le_max_left _ _) h1, ?_⟩
    intro x hx
    rcases List.mem_cons.1 hx with rfl | hx
    · exact Nat.le_trans (Nat.le_max_right _ _) h1
    · exact h2 x hx

theorem maxOf_le {l : List Nat} {a : Nat} (h : maxOf l = .ok a) : ∀ x ∈ l, x ≤ a := by
  cases l with
  | nil => simp [maxOf] at h
  | cons n r =>
    simp only [maxOf, Except.ok.injEq] at h
    subst h
    intro x hx
    rcases List.mem_cons.1 hx with rfl | hx
    · exact (foldl_max_le r x).1
    · exact (foldl_max_le r n).2 x hx

theorem maxOf_ok {l : List Nat} (h : l ≠ []) : ∃ a, maxOf l = .ok a := by
  cases l with
  | nil => exact absurd rfl h
  | cons n r => exact ⟨_, rfl⟩

/-- What the widths of the columns are good for. -/
structure Good (mods : Mods) (w : Widths) : Prop where
  name4 : 4 ≤ w.name
  name50 : w.name ≤ 50
  name : ∀ p ∈ mods, p.1.length ≤ w.name ∨ w.name = 50
  version7 : 7 ≤ w.version
  version30 : w.version ≤ 30
  version : ∀ m ∈ versions mods, m.version.length ≤ w.version ∨ w.version = 30
  location8 : 8 ≤ w.location
  location100 : w.location ≤ 100
  location : ∀ m ∈ versions mods, m.location.length ≤ w.location ∨ w.location = 100

theorem clamp_cases {a n b x : Nat} (hab : a ≤ b) (h : x ≤ n) : x ≤ clamp a n b ∨ clamp a n b = b := by
  unfold clamp
  omega

theorem clamp_bounds {a n b : Nat} (hab : a ≤ b) : a ≤ clamp a n b ∧ clamp a n b ≤ b := by
  unfold clamp
  omega

theorem widths_good {mods : Mods} {w : Widths} (h : widths mods = .ok w) : Good mods w := by
  unfold widths at h
  split at h
  · cases h
  · rename_i a ha
    split at h
    · cases h
    · rename_i b hb
      split at h
      · cases h
      · rename_i c hc
        cases h
        refine ⟨(clamp_bounds (by omega)).1, (clamp_bounds (by omega)).2, ?_, (clamp_bounds (by omega)).1, (clamp_bounds (by omega)).2, ?_,
          (clamp_bounds (by omega)).1, (clamp_bounds (by omega)).2, ?_⟩
        · intro p hp
          exact clamp_cases (by omega) (maxOf_le ha _ (List.mem_map.2 ⟨p, hp, rfl⟩))
        · intro m hm
          exact clamp_cases (by omega) (maxOf_le hb _ (List.mem_map.2 ⟨m, hm, rfl⟩))
        · intro m hm
          exact clamp_cases (by omega) (maxOf_le hc _ (List.mem_map.2 ⟨m, hm, rfl⟩))

theorem truncate_length {s : Str} {n : Nat} (h : 3 ≤ n) : (truncate s n).length ≤ n := by
  unfold truncate
  split
  · simp
    omega
  · omega

theorem truncate_shown {s : Str} {n limit : Nat} (h3 : 3 ≤ n) (hn : n ≤ limit) (h : s.length ≤ n ∨ n = limit) : Shown limit s (truncate s n) := by
  constructor
  · intro hs
    unfold truncate
    rw [if_neg (by omega)]
  · intro hs
    have : n = limit := by omega
    subst this
    refine ⟨s.take (n - 3), s.drop (n - 3), (List.take_append_drop _ _).symm, ?_, ?_⟩
    · unfold truncate
      rw [if_pos hs]
      rfl
    · unfold truncate
      rw [if_pos hs]
      simp
      omega

theorem left_length {s : Str} {n : Nat} (h : s.length ≤ n) : (left s n).length = n := by
  simp [left]
  omega

theorem right_length {s : Str} {n : Nat} (h : s.length ≤ n) : (right s n).length = n := by
  simp [right]
  omega

/-! ### Cells -/

theorem versionCell {mods : Mods} {w : Widths} (g : Good mods w) {m : Mod} (hm : m ∈ versions mods) :
    VersionCell m w.version (right (printedVersion w m) w.version) := by
  have h7 := g.version7
  refine ⟨right_length ?_, printedVersion w m, w.version - (printedVersion w m).length, ?_, ?_, rfl⟩
  · unfold printedVersion
    split
    · simp; omega
    · exact truncate_length (by omega)
  · intro h
    unfold printedVersion
    rw [if_neg h]
    exact truncate_shown (by omega) g.version30 (g.version m hm)
  · intro h
    unfold printedVersion
    rw [if_pos h]

theorem nameCell_first {mods : Mods} {w : Widths} (g : Good mods w) {p : Str × List Mod} (hp : p ∈ mods) {m : Mod} (hk : m.name = p.1) (n : Nat) :
    NameCell .first m w.name (left (printedName w p.1 n 0 m) w.name) := by
  have h4 := g.name4
  have e : printedName w p.1 n 0 m = truncate m.name w.name := by simp [printedName]
  rw [e]
  refine ⟨left_length (truncate_length (by omega)), truncate m.name w.name, _, ?_, rfl⟩
  refine truncate_shown (by omega) g.name50 ?_
  rw [hk]
  exact g.name p hp

/-- The position of the `i`-th of `n` versions. -/
def posOf (n i : Nat) : Pos := if i = 0 then .first else if i + 1 = n then .last else .middle

theorem arrow_length {c : Char} {key : Str} : (c :: List.replicate (key.length - 2) '─' ++ ['>']).length = max key.length 2 := by
  simp
  omega

theorem nameCell {mods : Mods} {w : Widths} (g : Good mods w) (hs : Short mods) {p : Str × List Mod} (hp : p ∈ mods) {m : Mod} (hk : m.name = p.1)
    {i : Nat} (hi : i < p.2.length) : NameCell (posOf p.2.length i) m w.name (left (printedName w p.1 p.2.length i m) w.name) := by
  by_cases h0 : i = 0
  · subst h0
    exact nameCell_first g hp hk _
  · have h4 := g.name4
    have h50 := g.name50
    have hw : p.1.length ≤ w.name := by
      rcases g.name p hp with h | h
      · exact h
      · rw [h]
        exact hs p hp (by omega)
    have hlen : (printedName w p.1 p.2.length i m).length ≤ w.name := by
      unfold printedName
      rw [if_neg h0, arrow_length]
      omega
    refine ⟨left_length hlen, ?_⟩
    by_cases h1 : i + 1 = p.2.length
    · simp only [posOf, if_neg h0, if_pos h1, printedName, left]
      refine ⟨List.replicate (p.1.length - 2) '─', w.name - (p.1.length - 2 + 1 + 1), by simp [List.append_assoc], ?_, ?_⟩
      · intro c hc
        exact (List.mem_replicate.1 hc).2
      · rw [hk, List.length_replicate]
        omega
    · simp only [posOf, if_neg h0, if_neg h1, printedName, left]
      refine ⟨List.replicate (p.1.length - 2) '─', w.name - (p.1.length - 2 + 1 + 1), by simp [List.append_assoc], ?_, ?_⟩
      · intro c hc
        exact (List.mem_replicate.1 hc).2
      · rw [hk, List.length_replicate]
        omega

/-! ### Lines -/

theorem mem_versions {mods : Mods} {p : Str × List Mod} (hp : p ∈ mods) {m : Mod} (hm : m ∈ p.2) : m ∈ versions mods :=
  List.mem_flatMap.2 ⟨p, hp, hm⟩

theorem used_posOf {n i : Nat} {m : Mod} : Used (posOf n i) m ↔ (m.enabled = true ∧ i = 0) := by
  unfold Used posOf
  by_cases h0 : i = 0
  · simp [h0]
  · by_cases h1 : i + 1 = n <;> simp [h0, h1]

theorem shortRow_line {mods : Mods} {w : Widths} (g : Good mods w) (hs : Short mods) (hk : Keyed mods) {p : Str × List Mod} (hp : p ∈ mods) {m : Mod}
    (hm : m ∈ p.2) {i : Nat} (hi : i < p.2.length) :
    ShortLine w.name w.version (posOf p.2.length i, m) (shortRow w p.1 p.2.length i m) := by
  refine ⟨_, _, nameCell g hs hp (hk p hp m hm) hi, versionCell g (mem_versions hp hm), ?_⟩
  simp only [used_posOf, shortRow, printedKind]
  by_cases h : m.enabled = true ∧ i = 0 <;> by_cases ha : m.archive = true <;> simp [h, ha]

theorem longRow_line {mods : Mods} {w : Widths} (g : Good mods w) (hs : Short mods) (hk : Keyed mods) {p : Str × List Mod} (hp : p ∈ mods) {m : Mod}
    (hm : m ∈ p.2) {i : Nat} (hi : i < p.2.length) :
    LongLine w.name w.version w.location (posOf p.2.length i, m) (longRow w p.1 p.2.length i m) := by
  have h8 := g.location8
  have hn := nameCell g hs hp (hk p hp m hm) hi
  have hv := versionCell g (mem_versions hp hm)
  refine ⟨_, _, truncate m.location w.location, hn, hv, truncate_shown (by omega) g.location100 (g.location m (mem_versions hp hm)),
    truncate_length (by omega), rfl, ?_, hn.1, hv.1, ?_⟩
  · by_cases ha : m.archive = true <;> simp [ha]
  · simp only [used_posOf, longRow, printedKind, bar]
    by_cases h : m.enabled = true ∧ i = 0 <;> by_cases ha : m.archive = true <;> simp [h, ha]

/-- The lines of the versions from the `i`-th. -/
theorem rowsFrom_forall {R : Pos × Mod → Str → Prop} {row : Nat → Mod → Str} (n : Nat) :
    ∀ (l : List Mod) (i : Nat), 1 ≤ i → i + l.length = n → (∀ j m, m ∈ l → i ≤ j → j < n → R (posOf n j, m) (row j m)) →
      List.Forall₂ R (others l) (rowsFrom row i l)
  | [], _, _, _, _ => .nil
  | [m], i, hi, hn, h => by
    have e : i + 1 = n := hn
    have := h i m (by simp) (Nat.le_refl _) (by omega)
    rw [posOf, if_neg (by omega), if_pos e] at this
    exact .cons this .nil
  | m :: m' :: r, i, hi, hn, h => by
    have hn' : i + (r.length + 2) = n := hn
    have := h i m (by simp) (Nat.le_refl _) (by omega)
    rw [posOf, if_neg (by omega), if_neg (by omega)] at this
    refine .cons this (rowsFrom_forall n (m' :: r) (i + 1) (by omega) (by simp; omega) ?_)
    intro j x hx hj hjn
    exact h j x (List.mem_cons_of_mem _ hx) (by omega) hjn

theorem rowsFrom_forall0 {R : Pos × Mod → Str → Prop} {row : Nat → Mod → Str} (k : Str) (t : List (Str × List Mod)) (l : List Mod)
    (h : ∀ j m, m ∈ l → j < l.length → R (posOf l.length j, m) (row j m)) {ls : List Str} (ht : List.Forall₂ R (listed t) ls) :
    List.Forall₂ R (listed ((k, l) :: t)) (rowsFrom row 0 l ++ ls) := by
  cases l with
  | nil => exact ht
  | cons m r =>
    have h0 := h 0 m (by simp) (by simp)
    rw [posOf, if_pos rfl] at h0
    refine .cons h0 (List.rel_append (rowsFrom_forall (r.length + 1) r 1 (Nat.le_refl _) (by omega) ?_) ht)
    intro j x hx _ hj
    exact h j x (List.mem_cons_of_mem _ hx) hj

theorem rows_forall {R : Pos × Mod → Str → Prop} {row : Str → Nat → Nat → Mod → Str} : ∀ (mods : List (Str × List Mod)),
    (∀ p ∈ mods, ∀ j m, m ∈ p.2 → j < p.2.length → R (posOf p.2.length j, m) (row p.1 p.2.length j m)) →
      List.Forall₂ R (listed mods) (rows row mods)
  | [], _ => .nil
  | (k, l) :: t, h => by
    have ih := rows_forall t fun p hp => h p (List.mem_cons_of_mem _ hp)
    exact rowsFrom_forall0 k t l (h (k, l) (by simp)) ih

theorem type_eq : left "type".toList 5 = ['t', 'y', 'p', 'e', ' '] := by decide +kernel

theorem name_eq (n : Nat) : left "name".toList n = ['n', 'a', 'm', 'e'] ++ List.replicate (n - 4) ' ' := rfl

theorem version_eq (n : Nat) : left "version".toList n = ['v', 'e', 'r', 's', 'i', 'o', 'n'] ++ List.replicate (n - 7) ' ' := rfl

theorem header_eq (w : Widths) : header w = ['o', 'n', '?'] ++ [' ', '┃', ' '] ++ ['t', 'y', 'p', 'e', ' '] ++ [' ', '┃', ' '] ++
    (['n', 'a', 'm', 'e'] ++ List.replicate (w.name - 4) ' ') ++ [' ', '┃', ' '] ++
    (['v', 'e', 'r', 's', 'i', 'o', 'n'] ++ List.replicate (w.version - 7) ' ') ++ [' ', '┃', ' '] ++ ['l', 'o', 'c', 'a', 't', 'i', 'o', 'n'] := by
  unfold header
  rw [type_eq, name_eq, version_eq]
  have e1 : "on?".toList = ['o', 'n', '?'] := by decide +kernel
  have e5 : "location".toList = ['l', 'o', 'c', 'a', 't', 'i', 'o', 'n'] := by decide +kernel
  have e6 : bar = [' ', '┃', ' '] := by decide +kernel
  rw [e1, e5, e6]

/-! ### The table -/

/-- The short table has one line for every version, in order, in columns of the same width: the mark just for the first version of a mod, if the mod
is enabled; the kind; the name, shortened if it has more than fifty characters, or an arrow; and the version, shortened if it has more than thirty.
Not proved because it is false: that this also holds of mods of several versions whose name has more than fifty characters, see
`C110_wide_refuted`. -/
theorem C110_short_partial {mods : Mods} (hk : Keyed mods) (hs : Short mods) {lines : List Str} (h : display false mods = .ok lines) :
    ∃ w v, List.Forall₂ (ShortLine w v) (listed mods) lines := by
  unfold display at h
  split at h
  · cases h
  · rename_i w hw
    cases h
    have g := widths_good hw
    exact ⟨w.name, w.version, rows_forall mods fun p hp j m hm hj => shortRow_line g hs hk hp hm hj⟩

/-- The long table has in addition a line of titles and a rule, with bars at the same places, and the rule reaches to the end of every line. -/
theorem C110_long_partial {mods : Mods} (hk : Keyed mods) (hs : Short mods) {lines : List Str} (h : display true mods = .ok lines) :
    ∃ w v l title rule rest, lines = title :: rule :: rest ∧
      (∃ a b c, Cells w v ' ' '┃' ' ' ['o', 'n', '?'] ['t', 'y', 'p', 'e', ' '] (['n', 'a', 'm', 'e'] ++ List.replicate a ' ')
        (['v', 'e', 'r', 's', 'i', 'o', 'n'] ++ List.replicate b ' ') c title ∧ c = ['l', 'o', 'c', 'a', 't', 'i', 'o', 'n'] ∧ c.length ≤ l) ∧
      (∃ a b c d e, Cells w v '━' '╋' '━' a b c d e rule ∧ e.length = l ∧ ∀ x ∈ a ++ b ++ c ++ d ++ e, x = '━') ∧
      List.Forall₂ (LongLine w v l) (listed mods) rest := by
  unfold display at h
  split at h
  · cases h
  · rename_i w hw
    cases h
    have g := widths_good hw
    have h4 := g.name4
    have h7 := g.version7
    refine ⟨w.name, w.version, w.location, header w, rule w, rows (longRow w) mods, rfl, ?_, ?_,
      rows_forall mods fun p hp j m hm hj => longRow_line g hs hk hp hm hj⟩
    · refine ⟨w.name - 4, w.version - 7, ['l', 'o', 'c', 'a', 't', 'i', 'o', 'n'], ⟨rfl, rfl, ?_, ?_, ?_⟩, rfl, g.location8⟩
      · rw [List.length_append, List.length_replicate]
        show 4 + _ = _
        omega
      · rw [List.length_append, List.length_replicate]
        show 7 + _ = _
        omega
      · exact header_eq w
    · refine ⟨List.replicate 3 '━', List.replicate 5 '━', List.replicate w.name '━', List.replicate w.version '━', List.replicate w.location '━',
        ⟨List.length_replicate, List.length_replicate, List.length_replicate, List.length_replicate, rfl⟩,
        List.length_replicate, ?_⟩
      intro x hx
      simp only [List.mem_append, List.mem_replicate] at hx
      rcases hx with (((h | h) | h) | h) | h <;> exact h.2

/-! ### The marks -/

/-- The version is marked in the line of the short table. -/
def marked : Str → Bool
  | '✓' :: _ => true
  | _ => false

/-- The version is marked in the line of the long table. -/
def markedLong : Str → Bool
  | _ :: '✓' :: _ => true
  | _ => false

theorem filter_zip {R : Pos × Mod → Str → Prop} {f : Str → Bool} (hf : ∀ x line, R x line → (f line = true ↔ Used x.1 x.2)) :
    ∀ {l : List (Pos × Mod)} {lines : List Str}, List.Forall₂ R l lines →
      ((l.zip lines).filter (fun q => f q.2)).map (·.1.2) = (l.filter fun x => decide (Used x.1 x.2)).map (·.2)
  | _, _, .nil => rfl
  | _, _, .cons (a := a) (b := b) h t => by
    have ih := filter_zip hf t
    by_cases hu : Used a.1 a.2
    · rw [List.zip_cons_cons, List.filter_cons_of_pos (by simpa using (hf a b h).2 hu), List.filter_cons_of_pos (by simpa using hu), List.map_cons,
        List.map_cons, ih]
    · have : ¬ f b = true := fun x => hu ((hf a b h).1 x)
      rw [List.zip_cons_cons, List.filter_cons_of_neg (by simpa using this), List.filter_cons_of_neg (by simpa using hu), ih]

theorem others_unused : ∀ l : List Mod, (others l).filter (fun x => decide (Used x.1 x.2)) = []
  | [] => rfl
  | [m] => by simp [others, Used]
  | m :: m' :: r => by
    have ih := others_unused (m' :: r)
    rw [others, List.filter_cons_of_neg (by simp [Used]), ih]
    simp

theorem select_used : ∀ {mods : Mods} {sel : Dict Str Mod}, ModLoad.select Mod.enabled mods = .ok sel →
    ((listed mods).filter fun x => decide (Used x.1 x.2)).map (·.2) = sel.map (·.2)
  | [], _, h => by
    cases h
    rfl
  | (_, []) :: _, _, h => by cases h
  | (n, m :: r) :: t, sel, h => by
    rw [ModLoad.select] at h
    cases ht : ModLoad.select Mod.enabled t with
    | error e => rw [ht] at h; cases h
    | ok st =>
      rw [ht] at h
      have ih := select_used ht
      simp only [Except.map, Except.ok.injEq] at h
      subst h
      rw [listed, List.filter_append, List.map_append, ih]
      by_cases he : m.enabled = true
      · rw [List.filter_cons_of_pos (by simp [Used, he]), others_unused, if_pos he]
        rfl
      · rw [List.filter_cons_of_neg (by simp [Used, he]), others_unused, if_neg he]
        rfl

/-- The versions marked in the short table are those that will be loaded, in their order. -/
theorem C110_loaded {mods : Mods} (hk : Keyed mods) (hs : Short mods) {sel : Dict Str Mod} (hsel : ModLoad.select Mod.enabled mods = .ok sel)
    {lines : List Str} (h : display false mods = .ok lines) :
    (((listed mods).zip lines).filter fun q => marked q.2).map (·.1.2) = sel.map (·.2) := by
  obtain ⟨w, v, hl⟩ := C110_short_partial hk hs h
  rw [← select_used hsel]
  refine filter_zip ?_ hl
  rintro x line ⟨n, s, _, _, rfl⟩
  by_cases hu : Used x.1 x.2 <;> simp [hu, marked]

/-- So are those in the long table, below the titles and the rule. -/
theorem C110_loaded_long {mods : Mods} (hk : Keyed mods) (hs : Short mods) {sel : Dict Str Mod} (hsel : ModLoad.select Mod.enabled mods = .ok sel)
    {lines : List Str} (h : display true mods = .ok lines) :
    (((listed mods).zip (lines.drop 2)).filter fun q => markedLong q.2).map (·.1.2) = sel.map (·.2) := by
  obtain ⟨w, v, l, title, rule, rest, rfl, _, _, hl⟩ := C110_long_partial hk hs h
  rw [← select_used hsel]
  refine filter_zip ?_ hl
  rintro x line ⟨n, s, t, _, _, _, _, _, _, _, _, rfl⟩
  by_cases hu : Used x.1 x.2 <;> simp [hu, markedLong]

/-- The table is printed if there is any version of any mod. -/
theorem C110_printed {mods : Mods} (h : versions mods ≠ []) (verbose : Bool) : ∃ lines, display verbose mods = .ok lines := by
  have hm : mods ≠ [] := by
    rintro rfl
    exact h rfl
  obtain ⟨a, ha⟩ := maxOf_ok (l := mods.map (·.1.length)) (by simpa using hm)
  obtain ⟨b, hb⟩ := maxOf_ok (l := (versions mods).map (·.version.length)) (by simpa using h)
  obtain ⟨c, hc⟩ := maxOf_ok (l := (versions mods).map (·.location.length)) (by simpa using h)
  unfold display widths
  rw [ha, hb, hc]
  exact ⟨_, rfl⟩

/-- Not proved because it is false: that the table is printed if no mods are found.  Then `max` has nothing to choose from. -/
theorem C110_empty_refuted : ¬ ∀ (verbose : Bool) (mods : Mods), ∃ lines, display verbose mods = .ok lines := by
  intro h
  obtain ⟨l, hl⟩ := h false []
  cases hl

/-- A mod of two versions whose name has sixty characters, and the game itself. -/
def wide : Mods :=
  [("base".toList, [⟨"base".toList, "2.0.28".toList, "data/base".toList, false, true⟩]),
   (List.replicate 60 'x', [⟨List.replicate 60 'x', "1.1.0".toList, "mods/a".toList, false, true⟩,
     ⟨List.replicate 60 'x', "1.0.0".toList, "mods/b.zip".toList, true, true⟩])]

/-- Not proved because it is false: that all lines of the short table have the same length.  The arrow for a further version is as long as the name,
also where the name itself is shortened. -/
theorem C110_wide_refuted : ¬ ∀ (mods : Mods), Keyed mods → ∀ lines, display false mods = .ok lines → ∀ a ∈ lines, ∀ b ∈ lines, a.length = b.length := by
  intro h
  have hk : Keyed wide := by
    unfold Keyed
    decide +kernel
  cases hd : display false wide with
  | error e => exact absurd hd (by
      have : (match display false wide with | .ok _ => true | .error _ => false) = true := by decide +kernel
      intro hd
      rw [hd] at this
      cases this)
  | ok lines =>
    have h' := h wide hk lines hd
    have : (match display false wide with
      | .ok l => l.any (fun a => l.any fun b => decide (a.length ≠ b.length))
      | .error _ => false) = true := by decide +kernel
    rw [hd] at this
    simp only [List.any_eq_true, decide_eq_true_eq] at this
    obtain ⟨a, ha, b, hb, hne⟩ := this
    exact hne (h' a ha b hb)

/-- The core without a version, the game, and a mod of three versions that is not enabled. -/
def sample : Mods :=
  [("core".toList, [⟨"core".toList, [], "data/core".toList, false, true⟩]),
   ("base".toList, [⟨"base".toList, "2.0.28".toList, "data/base".toList, false, true⟩]),
   ("flib".toList, [⟨"flib".toList, "0.15.0".toList, "mods/flib".toList, false, false⟩,
     ⟨"flib".toList, "0.14.2".toList, "mods/flib_0.14.2.zip".toList, true, false⟩, ⟨"flib".toList, "0.9".toList, "mods/flib_0.9.zip".toList, true, false⟩])]

/-- The hypotheses hold of `sample`, and this is its table. -/
example : Keyed sample ∧ Short sample ∧
    (match display false sample with | .ok l => l.map String.ofList | .error _ => []) =
      ["✓ (dir) core          -", "✓ (dir) base     2.0.28", "  (dir) flib     0.15.0", "  (zip) ├──>     0.14.2", "  (zip) └──>        0.9"] := by
  unfold Keyed Short
  decide +kernel

end ModTable
end Draftsman
