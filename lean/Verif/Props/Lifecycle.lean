import Verif.Model.Lifecycle
import Mathlib.Tactic.SplitIfs
import Mathlib.Data.List.Nodup
import Mathlib.Data.List.ProdSigma

namespace Draftsman
namespace Lifecycle

variable {σ : Type}

/-! ## C94: the stages of loading -/

/-- `MOD_DIR` is where the mod at the top of the stack is, and there is one. -/
def Lua.Steady (s : Lua σ) : Prop := ∃ m, s.tree.head? = some m ∧ s.modDir = some m.location

/-- Two states that agree in the path and the mods. -/
def Lua.Same (s t : Lua σ) : Prop := t.path = s.path ∧ t.tree = s.tree ∧ t.modDir = s.modDir

theorem Lua.Same.refl (s : Lua σ) : s.Same s := ⟨rfl, rfl, rfl⟩

theorem Lua.Same.trans {s t u : Lua σ} (h : s.Same t) (k : t.Same u) : s.Same u := ⟨k.1.trans h.1, k.2.1.trans h.2.1, k.2.2.trans h.2.2⟩

theorem Lua.Same.steady {s t : Lua σ} (h : s.Same t) (hs : s.Steady) : t.Steady := by
  obtain ⟨m, h1, h2⟩ := hs
  exact ⟨m, by rw [h.2.1, h1], by rw [h.2.2, h2]⟩

theorem addFolder_spec {s s1 : Lua σ} {norm : Str} {a : Bool} (h : addFolder s norm a = .ok s1) :
    ∃ p, s1.path = p :: s.path ∧ s1.tree = s.tree ∧ s1.modDir = s.modDir ∧ s1.loaded = s.loaded ∧ s1.data = s.data := by
  unfold addFolder at h
  split at h
  · split_ifs at h
    · cases h; exact ⟨_, rfl, rfl, rfl, rfl, rfl⟩
    · split at h
      · cases h; exact ⟨_, rfl, rfl, rfl, rfl, rfl⟩
      · cases h
  · split_ifs at h
    cases h
    exact ⟨_, rfl, rfl, rfl, rfl, rfl⟩

theorem finish_spec {s t : Lua σ} {c : Bool} (h : finish s c = .ok t) :
    t.path = s.path.tail ∧ t.loaded = s.loaded ∧ t.data = s.data ∧ t.file = s.file ∧
    (c = false → t.tree = s.tree ∧ t.modDir = s.modDir) ∧
    (c = true → t.tree = s.tree.tail ∧ t.modDir = t.tree.head?.map Mod.location) := by
  simp only [finish, bind, Except.bind] at h
  cases hr : s.removePath with
  | error e => rw [hr] at h; cases h
  | ok s1 =>
    rw [hr] at h
    simp only at h
    unfold Lua.removePath at hr
    split at hr
    · rename_i x p r hp
      cases hr
      cases c with
      | false =>
        simp only [leave, Bool.false_eq_true, if_false, Except.ok.injEq] at h
        cases h
        refine ⟨by simp [hp], rfl, rfl, rfl, fun _ => ⟨rfl, rfl⟩, nofun⟩
      | true =>
        simp only [leave, if_true] at h
        unfold Lua.pop at h
        split at h
        · rename_i y m r' ht
          cases h
          simp only at ht
          exact ⟨by simp [hp], rfl, rfl, rfl, nofun, fun _ => ⟨by simp [ht], by simp⟩⟩
        · cases h
    · cases hr

theorem enter_spec (w : World σ) (s : Lua σ) (n : Str) :
    (enter w s n).1.path = s.path ∧ (enter w s n).1.loaded = s.loaded ∧ (enter w s n).1.data = s.data ∧ (enter w s n).1.file = s.file ∧
    ((enter w s n).2 = false → (enter w s n).1 = s) ∧ ((enter w s n).2 = true → (enter w s n).1.tree.tail = s.tree) := by
  unfold enter
  split
  · split_ifs
    · simp
    · simp [Lua.push]
  · simp

theorem enter_steady (w : World σ) {s : Lua σ} (n : Str) (hs : s.Steady) : (enter w s n).1.Steady := by
  unfold enter
  split
  · split_ifs
    · exact hs
    · exact ⟨_, rfl, rfl⟩
  · exact hs

/-- `require` leaves path and mods as they were and forgets no module. -/
theorem require_same {w : World σ} {run : Lua σ → Script σ → Option (Except Err (Lua σ))}
    (hrun : ∀ s x t, s.Steady → run s x = some (.ok t) → s.Same t ∧ ∀ n ∈ s.loaded, n ∈ t.loaded)
    {s t : Lua σ} {n : Str} (hs : s.Steady) (h : requireWith w run s n = some (.ok t)) : s.Same t ∧ ∀ k ∈ n :: s.loaded, k ∈ t.loaded := by
  unfold requireWith at h
  split at h
  · cases h
  · rename_i norm a hn
    split at h
    · cases h
    · rename_i s1 ha
      obtain ⟨p, p1, p2, p3, p4, -⟩ := addFolder_spec ha
      obtain ⟨e1, e2, -, -, e3, e4⟩ := enter_spec w s n
      have hst : s1.Steady := by
        obtain ⟨m, a, b⟩ := enter_steady w n hs
        exact ⟨m, by rw [p2]; exact a, by rw [p3]; exact b⟩
      have key : ∀ s2 : Lua σ, s1.Same s2 → (∀ k ∈ n :: s1.loaded, k ∈ s2.loaded) → finish s2 (enter w s n).2 = .ok t → s.Same t ∧ ∀ k ∈ n :: s.loaded, k ∈ t.loaded := by
        intro s2 h2 h3 hf
        obtain ⟨f1, f2, -, -, f3, f4⟩ := finish_spec hf
        have hp : t.path = s.path := by rw [f1, h2.1, p1, e1]; rfl
        have hl : ∀ k ∈ n :: s.loaded, k ∈ t.loaded := by
          intro k hk
          rw [f2]
          apply h3
          rw [p4, e2]
          exact hk
        cases hc : (enter w s n).2 with
        | false =>
          have := e3 hc
          exact ⟨⟨hp, by rw [(f3 hc).1, h2.2.1, p2, this], by rw [(f3 hc).2, h2.2.2, p3, this]⟩, hl⟩
        | true =>
          have ht : t.tree = s.tree := by rw [(f4 hc).1, h2.2.1, p2, e4 hc]
          obtain ⟨m, a, b⟩ := hs
          exact ⟨⟨hp, ht, by rw [(f4 hc).2, ht, a, b]; rfl⟩, hl⟩
      split_ifs at h with hm
      · refine key s1 (.refl _) ?_ (Option.some.inj h)
        intro k hk
        rcases List.mem_cons.1 hk with rfl | hk
        · exact hm
        · exact hk
      · split at h
        · cases h
        · split at h
          · cases h
          · cases h
          · rename_i x hx s2 hr
            obtain ⟨h1, h2⟩ := hrun _ _ _ hst hr
            refine key { s2 with loaded := n :: s2.loaded } ⟨h1.1, h1.2.1, h1.2.2⟩ ?_ (Option.some.inj h)
            intro k hk
            rcases List.mem_cons.1 hk with rfl | hk
            · exact List.mem_cons_self
            · exact List.mem_cons_of_mem _ (h2 _ hk)

theorem execWith_same {req : Lua σ → Str → Option (Except Err (Lua σ))}
    (hreq : ∀ s n t, s.Steady → req s n = some (.ok t) → s.Same t ∧ ∀ k ∈ n :: s.loaded, k ∈ t.loaded)
    (x : Script σ) (s t : Lua σ) (hs : s.Steady) (h : execWith req s x = some (.ok t)) : s.Same t ∧ ∀ n ∈ s.loaded, n ∈ t.loaded := by
  induction x generalizing s with
  | ret =>
    simp only [execWith, Option.some.injEq, Except.ok.injEq] at h
    subst h
    exact ⟨.refl _, fun _ h => h⟩
  | node f q k ih =>
    rw [execWith] at h
    split at h
    · cases h
    · rename_i d hd
      have h0 : s.Same { s with data := d } := ⟨rfl, rfl, rfl⟩
      split at h
      · obtain ⟨a, b⟩ := ih _ _ (h0.steady hs) h
        exact ⟨h0.trans a, b⟩
      · split at h
        · cases h
        · cases h
        · rename_i n hn s' hr
          obtain ⟨a, b⟩ := hreq _ _ _ (h0.steady hs) hr
          obtain ⟨a', b'⟩ := ih _ _ (a.steady (h0.steady hs)) h
          exact ⟨(h0.trans a).trans a', fun m hm => b' _ (b _ (List.mem_cons_of_mem _ hm))⟩

/-- C94: whatever a file does, and whatever is required on the way, path and current mod are afterwards what they were before, and every module
that was loaded still is. -/
theorem C94_balanced (w : World σ) (fuel : Nat) (x : Script σ) (s t : Lua σ) (hs : s.Steady) (h : exec w fuel s x = some (.ok t)) :
    t.path = s.path ∧ t.tree = s.tree ∧ t.modDir = s.modDir ∧ ∀ n ∈ s.loaded, n ∈ t.loaded := by
  induction fuel generalizing s t x with
  | zero => cases h
  | succ k ih =>
    have := execWith_same (req := requireWith w (exec w k)) (fun s n t hs h => require_same (fun s x t hs h => by
      have := ih x s t hs h
      exact ⟨⟨this.1, this.2.1, this.2.2.1⟩, this.2.2.2⟩) hs h) x s t hs h
    exact ⟨this.1.1, this.1.2.1, this.1.2.2, this.2⟩

/-! ### The order of the files -/

/-- Specification: the files of the stages in order, for every stage those of the mods in load order. -/
def plan (stages : List Str) (order : List Mod) : List (Mod × Str) :=
  stages.flatMap fun st => (order.filter fun m => st ∈ m.stages).map fun m => (m, st)

/-- What was run. -/
def ran (l : List (Entry σ)) : List (Mod × Str) := l.map fun e => (e.mod, e.stage)

theorem runMods_ran (w : World σ) (fuel : Nat) (base : List Str) (wipe : Bool) (stage : Str) (order : List Mod) (s : Lua σ) :
    (ran (runMods w fuel base wipe stage order s).1 <+: plan [stage] order) ∧
    (∀ t, (runMods w fuel base wipe stage order s).2 = some (.ok t) → ran (runMods w fuel base wipe stage order s).1 = plan [stage] order) := by
  induction order generalizing s with
  | nil => simp [runMods, plan, ran]
  | cons m r ih =>
    have hp : plan [stage] (m :: r) = (if stage ∈ m.stages then [(m, stage)] else []) ++ plan [stage] r := by
      simp only [plan, List.flatMap_cons, List.flatMap_nil, List.append_nil, List.filter_cons, decide_eq_true_eq]
      split_ifs <;> simp
    rw [hp, runMods]
    split_ifs with hs
    · split
      · exact ⟨by simp [ran], nofun⟩
      · split
        · exact ⟨by simp [ran], nofun⟩
        · exact ⟨by simp [ran], nofun⟩
        · rename_i s' _
          obtain ⟨a, b⟩ := ih (s'.cleanUp wipe)
          refine ⟨?_, ?_⟩
          · simpa [ran] using a
          · intro t ht
            simpa [ran] using b t ht
    · simp only [List.nil_append]
      exact ih (s.setPath base)

theorem plan_cons (st : Str) (stages : List Str) (order : List Mod) : plan (st :: stages) order = plan [st] order ++ plan stages order := by
  simp [plan]

theorem runStages_ran (w : World σ) (fuel : Nat) (base : List Str) (wipe : Bool) (order : List Mod) (stages : List Str) (s : Lua σ) :
    (ran (runStages w fuel base wipe order stages s).1 <+: plan stages order) ∧
    (∀ t, (runStages w fuel base wipe order stages s).2 = some (.ok t) → ran (runStages w fuel base wipe order stages s).1 = plan stages order) := by
  induction stages generalizing s with
  | nil => simp [runStages, plan, ran]
  | cons st r ih =>
    obtain ⟨a, b⟩ := runMods_ran w fuel base wipe st order s
    rw [plan_cons, runStages]
    split
    · rename_i l s' hr
      rw [hr] at a b
      obtain ⟨a', b'⟩ := ih s'
      have hl : ran l = plan [st] order := b s' rfl
      refine ⟨?_, ?_⟩
      · simp only [ran, List.map_append] at *
        rw [hl]
        exact (List.prefix_append_right_inj _).2 a'
      · intro t ht
        simp only [ran, List.map_append] at *
        rw [hl, b' t ht]
    · rename_i x hx
      refine ⟨a.trans (List.prefix_append _ _), ?_⟩
      intro t ht
      exact (hx _ t (Prod.ext rfl ht)).elim

/-- C94: loading runs the files of the three stages for settings, then those of the three stages for data; in every stage each mod that has such a
file, in load order.  If it fails, it has run the beginning of that list. -/
theorem C94_order (w : World σ) (fuel : Nat) (base : List Str) (order : List Mod) (convert : Lua σ → Except Err (Lua σ)) (s : Lua σ) :
    let files := plan ["settings.lua".toList, "settings-updates.lua".toList, "settings-final-fixes.lua".toList, "data.lua".toList, "data-updates.lua".toList,
      "data-final-fixes.lua".toList] order
    (ran (lifecycle w fuel base order convert s).1 <+: files) ∧
    (∀ t, (lifecycle w fuel base order convert s).2 = some (.ok t) → ran (lifecycle w fuel base order convert s).1 = files) := by
  intro files
  have hf : files = plan settingsStages order ++ plan dataStages order := by simp [files, plan, settingsStages, dataStages]
  obtain ⟨a, b⟩ := runStages_ran w fuel base false order settingsStages s
  rw [hf, lifecycle]
  split
  · rename_i l s' hr
    rw [hr] at a b
    have hl : ran l = plan settingsStages order := b s' rfl
    split
    · exact ⟨by rw [hl]; exact List.prefix_append _ _, nofun⟩
    · rename_i s'' hc
      obtain ⟨a', b'⟩ := runStages_ran w fuel base true order dataStages s''
      refine ⟨?_, ?_⟩
      · simp only [ran, List.map_append] at *
        rw [hl]
        exact (List.prefix_append_right_inj _).2 a'
      · intro t ht
        simp only [ran, List.map_append] at *
        rw [hl, b' t ht]
  · rename_i x hx
    refine ⟨a.trans (List.prefix_append _ _), ?_⟩
    intro t ht
    exact (hx _ t (Prod.ext rfl ht)).elim

theorem plan_mem {stages : List Str} {order : List Mod} {m : Mod} {st : Str} : (m, st) ∈ plan stages order ↔ st ∈ stages ∧ m ∈ order ∧ st ∈ m.stages := by
  simp only [plan, List.mem_flatMap, List.mem_map, List.mem_filter, decide_eq_true_eq, Prod.mk.injEq]
  constructor
  · rintro ⟨s, h1, x, ⟨h2, h3⟩, rfl, rfl⟩
    exact ⟨h1, h2, h3⟩
  · rintro ⟨h1, h2, h3⟩
    exact ⟨st, h1, m, ⟨h2, h3⟩, rfl, rfl⟩

theorem plan_nodup {stages : List Str} {order : List Mod} (h1 : stages.Nodup) (h2 : order.Nodup) : (plan stages order).Nodup := by
  unfold plan
  rw [List.nodup_flatMap]
  refine ⟨?_, ?_⟩
  · intro st _
    exact (h2.filter _).map fun a b h => (Prod.mk.inj h).1
  · refine h1.imp ?_
    intro a b hab x hx hy
    simp only [List.mem_map] at hx hy
    obtain ⟨m, -, rfl⟩ := hx
    obtain ⟨m', -, h⟩ := hy
    exact hab (Prod.mk.inj h).2.symm

/-- C94: no file is run twice, and none that its mod does not have; a load that succeeds has run every one of them. -/
theorem C94_once (w : World σ) (fuel : Nat) (base : List Str) (order : List Mod) (ho : order.Nodup) (convert : Lua σ → Except Err (Lua σ)) (s : Lua σ) :
    (ran (lifecycle w fuel base order convert s).1).Nodup ∧
    (∀ e ∈ (lifecycle w fuel base order convert s).1, e.mod ∈ order ∧ e.stage ∈ e.mod.stages) ∧
    (∀ t, (lifecycle w fuel base order convert s).2 = some (.ok t) → ∀ m ∈ order, ∀ st ∈ m.stages, st ∈ settingsStages ++ dataStages →
      ∃ e ∈ (lifecycle w fuel base order convert s).1, e.mod = m ∧ e.stage = st) := by
  obtain ⟨a, b⟩ := C94_order w fuel base order convert s
  refine ⟨?_, ?_, ?_⟩
  · exact (plan_nodup (by decide) ho).sublist a.sublist
  · intro e he
    have : (e.mod, e.stage) ∈ ran (lifecycle w fuel base order convert s).1 := List.mem_map.2 ⟨e, he, rfl⟩
    exact (plan_mem.1 (a.subset this)).2
  · intro t ht m hm st hst hs
    have : (m, st) ∈ ran (lifecycle w fuel base order convert s).1 := by
      rw [b t ht]
      exact plan_mem.2 ⟨by simpa [settingsStages, dataStages] using hs, hm, hst⟩
    obtain ⟨e, he, h⟩ := List.mem_map.1 this
    exact ⟨e, he, (Prod.mk.inj h).1, (Prod.mk.inj h).2⟩

/-! ### The state in which files are run -/

/-- Specification: the state in which the file of a stage is to be run. -/
def Entry.Proper (base : List Str) (e : Entry σ) : Prop :=
  e.start.path = (e.mod.location ++ "/?.lua".toList) :: base ∧ e.start.tree.head? = some e.mod ∧ e.start.modDir = some e.mod.location ∧
  e.start.file = e.mod.location ++ "/".toList ++ e.stage

theorem begin_proper (base : List Str) (m : Mod) (stage : Str) (s : Lua σ) : Entry.Proper base ⟨m, stage, begin base m stage s⟩ := by
  simp [Entry.Proper, begin, Lua.push, Lua.addPath, Lua.setPath]

theorem runMods_proper (w : World σ) (fuel : Nat) (base : List Str) (wipe : Bool) (stage : Str) (order : List Mod) (s : Lua σ) :
    (∀ e ∈ (runMods w fuel base wipe stage order s).1, e.Proper base) ∧
    (∀ e ∈ (runMods w fuel base wipe stage order s).1.tail, e.start.loaded = []) ∧
    (∀ e ∈ (runMods w fuel base wipe stage order s).1.head?, e.start.loaded = s.loaded) ∧
    (∀ t, (runMods w fuel base wipe stage order s).2 = some (.ok t) →
      ((runMods w fuel base wipe stage order s).1 = [] → t.loaded = s.loaded) ∧ ((runMods w fuel base wipe stage order s).1 ≠ [] → t.loaded = [])) := by
  induction order generalizing s with
  | nil => simp [runMods]
  | cons m r ih =>
    have hb : (begin base m stage s).loaded = s.loaded := rfl
    rw [runMods]
    by_cases hs : stage ∈ m.stages
    · rw [if_pos hs]
      rcases hg : getFile w m stage with e | x
      · simp
      · simp only
        rcases hx : exec w fuel (begin base m stage s) x with _ | e | s'
        · simpa [hb] using begin_proper base m stage s
        · simpa [hb] using begin_proper base m stage s
        · simp only
          obtain ⟨a, b, c, d⟩ := ih (s'.cleanUp wipe)
          have hl : (s'.cleanUp wipe).loaded = [] := by unfold Lua.cleanUp; split_ifs <;> rfl
          rw [hl] at c d
          refine ⟨?_, ?_, ?_, ?_⟩
          · intro e he
            rcases List.mem_cons.1 he with rfl | he
            · exact begin_proper base m stage s
            · exact a e he
          · intro e he
            simp only [List.tail_cons] at he
            cases hr : (runMods w fuel base wipe stage r (s'.cleanUp wipe)).1 with
            | nil => rw [hr] at he; cases he
            | cons x y =>
              rw [hr] at he b c
              rcases List.mem_cons.1 he with rfl | he
              · exact c e (by simp)
              · exact b e he
          · simp [hb]
          · intro t ht
            obtain ⟨d1, d2⟩ := d t ht
            refine ⟨nofun, fun _ => ?_⟩
            by_cases hz : (runMods w fuel base wipe stage r (s'.cleanUp wipe)).1 = []
            · exact d1 hz
            · exact d2 hz
    · rw [if_neg hs]
      exact ih (s.setPath base)

/-- C94: every file is run with the folder of its mod and the base folders on the path and nothing else, and with its mod as the current mod. -/
theorem C94_environment (w : World σ) (fuel : Nat) (base : List Str) (order : List Mod) (convert : Lua σ → Except Err (Lua σ)) (s : Lua σ) :
    ∀ e ∈ (lifecycle w fuel base order convert s).1, e.Proper base := by
  have key : ∀ wipe stages s, ∀ e ∈ (runStages w fuel base wipe order stages s).1, e.Proper base := by
    intro wipe stages
    induction stages with
    | nil => simp [runStages]
    | cons st r ih =>
      intro s
      have h1 := (runMods_proper w fuel base wipe st order s).1
      rw [runStages]
      split
      · rename_i l s' hr
        rw [hr] at h1
        intro e he
        rcases List.mem_append.1 he with he | he
        · exact h1 e he
        · exact ih s' e he
      · exact h1
  rw [lifecycle]
  have h1 := key false settingsStages s
  split
  · rename_i l s' hr
    rw [hr] at h1
    split
    · exact h1
    · intro e he
      rcases List.mem_append.1 he with he | he
      · exact h1 e he
      · exact key _ _ _ e he
  · exact h1

/-- C94: no module loaded for one file is there when another file of these stages is run: but for the first, every file starts with nothing loaded. -/
theorem C94_unloaded (w : World σ) (fuel : Nat) (base : List Str) (wipe : Bool) (order : List Mod) (stages : List Str) (s : Lua σ) :
    (∀ e ∈ (runStages w fuel base wipe order stages s).1.tail, e.start.loaded = []) ∧
    (∀ e ∈ (runStages w fuel base wipe order stages s).1.head?, e.start.loaded = s.loaded) := by
  induction stages generalizing s with
  | nil => simp [runStages]
  | cons st r ih =>
    obtain ⟨-, b, c, d⟩ := runMods_proper w fuel base wipe st order s
    rw [runStages]
    split
    · rename_i l s' hr
      rw [hr] at b c d
      obtain ⟨b', c'⟩ := ih s'
      have h := d s' rfl
      cases l with
      | nil =>
        rw [h.1 rfl] at c'
        exact ⟨b', c'⟩
      | cons x y =>
        rw [h.2 (by simp)] at c'
        refine ⟨?_, by simpa using c⟩
        intro e he
        simp only [List.cons_append, List.tail_cons, List.mem_append] at he
        rcases he with he | he
        · exact b e he
        · cases hx : (runStages w fuel base wipe order r s').1 with
          | nil => rw [hx] at he; cases he
          | cons x y =>
            rw [hx] at b' c' he
            rcases List.mem_cons.1 he with rfl | he
            · exact c' e (by simp)
            · exact b' e he
    · exact ⟨b, c⟩

/-! ### The stack of mods -/

theorem runMods_alone (w : World σ) (fuel : Nat) (base : List Str) (stage : Str) (order : List Mod) (s : Lua σ) (hs : s.tree = []) :
    (∀ e ∈ (runMods w fuel base true stage order s).1, e.start.tree = [e.mod]) ∧ ∀ t, (runMods w fuel base true stage order s).2 = some (.ok t) → t.tree = [] := by
  induction order generalizing s with
  | nil =>
    refine ⟨by simp [runMods], fun t ht => ?_⟩
    cases ht
    exact hs
  | cons m r ih =>
    have hb : (begin base m stage s).tree = [m] := by simp [begin, Lua.push, Lua.addPath, Lua.setPath, hs]
    rw [runMods]
    by_cases h : stage ∈ m.stages
    · rw [if_pos h]
      rcases hg : getFile w m stage with e | x
      · simp
      · simp only
        rcases hx : exec w fuel (begin base m stage s) x with _ | e | s'
        · simpa using hb
        · simpa using hb
        · obtain ⟨a, b⟩ := ih (s'.cleanUp true) rfl
          refine ⟨?_, b⟩
          intro e he
          rcases List.mem_cons.1 he with rfl | he
          · exact hb
          · exact a e he
    · rw [if_neg h]
      exact ih _ hs

/-- C94: in the data stages no mod but the one whose file is run is on the stack, if none was there before (after the settings stages the files'
mods all are). -/
theorem C94_alone (w : World σ) (fuel : Nat) (base : List Str) (order : List Mod) (stages : List Str) (s : Lua σ) (hs : s.tree = []) :
    (∀ e ∈ (runStages w fuel base true order stages s).1, e.start.tree = [e.mod]) ∧ ∀ t, (runStages w fuel base true order stages s).2 = some (.ok t) → t.tree = [] := by
  induction stages generalizing s with
  | nil =>
    refine ⟨by simp [runStages], fun t ht => ?_⟩
    cases ht
    exact hs
  | cons st r ih =>
    obtain ⟨a, b⟩ := runMods_alone w fuel base st order s hs
    rw [runStages]
    split
    · rename_i l s' hr
      rw [hr] at a b
      obtain ⟨c, d⟩ := ih s' (b s' rfl)
      refine ⟨?_, d⟩
      intro e he
      rcases List.mem_append.1 he with he | he
      · exact a e he
      · exact c e he
    · exact ⟨a, b⟩

/-! ### Archives -/

theorem runMods_folder (w : World σ) (fuel : Nat) (base : List Str) (wipe : Bool) (stage : Str) (order : List Mod) (s : Lua σ) :
    ∀ e ∈ (runMods w fuel base wipe stage order s).1, e.mod.archive = false := by
  induction order generalizing s with
  | nil => simp [runMods]
  | cons m r ih =>
    rw [runMods]
    by_cases hs : stage ∈ m.stages
    · rw [if_pos hs]
      rcases hg : getFile w m stage with e | x
      · simp
      · have hm : m.archive = false := by
          unfold getFile at hg
          by_contra h
          rw [if_pos (by simpa using h)] at hg
          cases hg
        simp only
        rcases hx : exec w fuel (begin base m stage s) x with _ | e | s'
        · simpa using hm
        · simpa using hm
        · intro e he
          rcases List.mem_cons.1 he with rfl | he
          · exact hm
          · exact ih _ e he
    · rw [if_neg hs]
      exact ih _

theorem runStages_folder (w : World σ) (fuel : Nat) (base : List Str) (wipe : Bool) (order : List Mod) (stages : List Str) (s : Lua σ) :
    ∀ e ∈ (runStages w fuel base wipe order stages s).1, e.mod.archive = false := by
  induction stages generalizing s with
  | nil => simp [runStages]
  | cons st r ih =>
    have h1 := runMods_folder w fuel base wipe st order s
    rw [runStages]
    split
    · rename_i l s' hr
      rw [hr] at h1
      intro e he
      rcases List.mem_append.1 he with he | he
      · exact h1 e he
      · exact ih s' e he
    · exact h1

/-- C94: no file in an archive is ever run: if one of the mods is an archive and has a file for one of the stages, loading fails. -/
theorem C94_archive (w : World σ) (fuel : Nat) (base : List Str) (order : List Mod) (convert : Lua σ → Except Err (Lua σ)) (s : Lua σ) :
    (∀ e ∈ (lifecycle w fuel base order convert s).1, e.mod.archive = false) ∧
    ∀ m ∈ order, m.archive = true → ∀ st ∈ m.stages, st ∈ settingsStages ++ dataStages → ∀ t, (lifecycle w fuel base order convert s).2 ≠ some (.ok t) := by
  have h1 : ∀ e ∈ (lifecycle w fuel base order convert s).1, e.mod.archive = false := by
    have h1 := runStages_folder w fuel base false order settingsStages s
    rw [lifecycle]
    split
    · rename_i l s' hr
      rw [hr] at h1
      split
      · exact h1
      · intro e he
        rcases List.mem_append.1 he with he | he
        · exact h1 e he
        · exact runStages_folder _ _ _ _ _ _ _ e he
    · exact h1
  refine ⟨h1, ?_⟩
  intro m hm ha st hst hs t ht
  have := (C94_order w fuel base order convert s).2 t ht
  have hin : (m, st) ∈ ran (lifecycle w fuel base order convert s).1 := by
    rw [this]
    exact plan_mem.2 ⟨by simpa [settingsStages, dataStages] using hs, hm, hst⟩
  obtain ⟨e, he, h⟩ := List.mem_map.1 hin
  have := h1 e he
  rw [(Prod.mk.inj h).1, ha] at this
  cases this

/-! ### Where modules are looked for -/

theorem upTo_append {c : Char} {a b : Str} (hb : c ∉ b) (ha : a ≠ []) : upTo c (a ++ c :: b) = some a := by
  unfold upTo
  have : (a ++ c :: b).reverse.dropWhile (· != c) = c :: a.reverse := by
    simp only [List.reverse_append, List.reverse_cons, List.append_assoc, List.cons_append, List.nil_append]
    rw [List.dropWhile_append_of_pos (by intro x hx; simp only [bne_iff_ne]; rintro rfl; exact hb (by simpa using hx))]
    simp
  rw [this]
  cases hr : a.reverse with
  | nil => exact absurd (by simpa using hr) ha
  | cons d r =>
    simp only
    rw [← hr, List.reverse_reverse]

theorem upTo_none {c : Char} {s : Str} (h : upTo c s = none) : c ∉ s ∨ ∃ r, s = c :: r ∧ c ∉ r := by
  unfold upTo at h
  by_cases hc : c ∈ s
  · right
    obtain ⟨l, r, rfl, hr⟩ := List.eq_append_cons_of_mem (by simpa using hc : c ∈ s.reverse) |> fun ⟨a, b, h1, h2⟩ => (⟨b.reverse, a.reverse, by
      have := congrArg List.reverse h1; simpa using this, by simpa using h2⟩ : ∃ l r, s = l ++ c :: r ∧ c ∉ r)
    have : (l ++ c :: r).reverse.dropWhile (· != c) = c :: l.reverse := by
      simp only [List.reverse_append, List.reverse_cons, List.append_assoc, List.cons_append, List.nil_append]
      rw [List.dropWhile_append_of_pos (by intro x hx; simp only [bne_iff_ne]; rintro rfl; exact hr (by simpa using hx))]
      simp
    rw [this] at h
    cases hl : l.reverse with
    | nil =>
      have : l = [] := by simpa using hl
      subst this
      exact ⟨r, rfl, hr⟩
    | cons d t => rw [hl] at h; cases h
  · exact .inl hc

/-- The folder of `CURRENT_FILE`, but for slashes at its end, is `d`. -/
def Lua.Inside (d : Str) (s : Lua σ) : Prop := ∃ k, parent s.file = some (d ++ List.replicate k '/')

theorem addFolder_inside {d : Str} (hd : d ≠ []) {s s1 : Lua σ} {norm : Str} {a : Bool} (hs : s.Inside d) (h : addFolder s norm a = .ok s1) : s1.Inside d := by
  unfold addFolder at h
  split at h
  · split_ifs at h
    · cases h; exact hs
    · split at h
      · cases h; exact hs
      · cases h
  · rename_i hn
    split_ifs at h
    cases h
    obtain ⟨k, hk⟩ := hs
    have hu : upTo '/' norm = none := by
      unfold parent at hn
      split at hn
      · cases hn
      · assumption
    simp only [Lua.Inside, hk, Option.getD_some]
    rcases upTo_none hu with h1 | ⟨r, rfl, h1⟩
    · exact ⟨k, by rw [parent, upTo_append h1 (by simp [hd])]⟩
    · refine ⟨k + 1, ?_⟩
      have : d ++ List.replicate k '/' ++ '/' :: '/' :: r = (d ++ List.replicate (k + 1) '/') ++ '/' :: r := by
        rw [List.replicate_succ']
        simp
      rw [this, parent, upTo_append h1 (by simp [hd])]

theorem require_inside {w : World σ} {d : Str} (hd : d ≠ []) {run : Lua σ → Script σ → Option (Except Err (Lua σ))}
    (hrun : ∀ s x t, s.Inside d → run s x = some (.ok t) → t.Inside d) {s t : Lua σ} {n : Str} (hs : s.Inside d)
    (h : requireWith w run s n = some (.ok t)) : t.Inside d := by
  unfold requireWith at h
  split at h
  · cases h
  · split at h
    · cases h
    · rename_i s1 ha
      have hs1 : s1.Inside d := addFolder_inside hd (s := (enter w s n).1) (by unfold Lua.Inside; rw [(enter_spec w s n).2.2.2.1]; exact hs) ha
      have key : ∀ s2 : Lua σ, s2.Inside d → finish s2 (enter w s n).2 = .ok t → t.Inside d := by
        intro s2 h2 hf
        unfold Lua.Inside
        rw [(finish_spec hf).2.2.2.1]
        exact h2
      split_ifs at h
      · exact key s1 hs1 (Option.some.inj h)
      · split at h
        · cases h
        · split at h
          · cases h
          · cases h
          · rename_i s2 hr
            exact key { s2 with loaded := n :: s2.loaded } (show Lua.Inside d s2 from hrun _ _ _ hs1 hr) (Option.some.inj h)

theorem exec_inside (w : World σ) {d : Str} (hd : d ≠ []) (fuel : Nat) (x : Script σ) (s t : Lua σ) (hs : s.Inside d) (h : exec w fuel s x = some (.ok t)) :
    t.Inside d := by
  induction fuel generalizing s t x with
  | zero => cases h
  | succ k ih =>
    rw [exec] at h
    induction x generalizing s with
    | ret =>
      simp only [execWith, Option.some.injEq, Except.ok.injEq] at h
      subst h
      exact hs
    | node f q g ihx =>
      rw [execWith] at h
      split at h
      · cases h
      · rename_i d' _
        split at h
        · exact ihx _ { s with data := d' } hs h
        · split at h
          · cases h
          · cases h
          · rename_i s' hr
            exact ihx _ s' (require_inside hd (fun s x t hs h => ih x s t hs h) (s := { s with data := d' }) hs hr) h

/-- C94: the folder a module without a folder of its own is looked for in is that of the mod whose stage is run, whatever was required before and
whichever file requires it (`C94_neighbour_refuted`, `C94_other_refuted`). -/
theorem C94_folder (w : World σ) (fuel : Nat) (base : List Str) (m : Mod) (hm : m.location ≠ []) (stage : Str) (hst : '/' ∉ stage) (s t : Lua σ) (x : Script σ)
    (h : exec w fuel (begin base m stage s) x = some (.ok t)) : ∃ k, parent t.file = some (m.location ++ List.replicate k '/') :=
  exec_inside w hm fuel x _ t ⟨0, by
    have : (begin base m stage s).file = m.location ++ '/' :: stage := rfl
    rw [this, parent, upTo_append hst hm]
    simp⟩ h

theorem fillIn_plain {d n : Str} (hd : '?' ∉ d) : fillIn (d ++ "/?.lua".toList) n = d ++ "/".toList ++ n ++ ".lua".toList := by
  have : ∀ d : Str, '?' ∉ d → d.flatMap (fun c => if c = '?' then n else [c]) = d := by
    intro d hd
    induction d with
    | nil => rfl
    | cons c r ih =>
      simp only [List.mem_cons, not_or] at hd
      rw [List.flatMap_cons, if_neg (Ne.symm hd.1), ih hd.2]
      rfl
  unfold fillIn
  rw [List.flatMap_append, this d hd]
  simp

theorem stripLua_none {s : Str} (h : s.drop (s.length - 3) ≠ "lua".toList) : stripLua s = s := by
  rw [stripLua, if_neg (fun x => h x.2)]

/-- C94: a module of the mod itself may be written with dots or slashes, with a slash in front and with `.lua` at the end (if its name does not end in
`lua`, `C94_suffix_refuted`). -/
theorem C94_spelling (w : World σ) (j : Str) (hd : '.' ∉ j) (hb : '\\' ∉ j) (hs : j.head? ≠ some '/') (hm : modName j = none) (hl : j.drop (j.length - 3) ≠ "lua".toList) :
    normalize w j = .ok (j, false) ∧ normalize w (j.map fun c => if c = '/' then '.' else c) = .ok (j, false) ∧
    normalize w ('/' :: j) = .ok (j, false) ∧ normalize w (j ++ ".lua".toList) = .ok (j, false) := by
  have hstrip : stripSlash j = j := by
    unfold stripSlash
    split
    · exact absurd rfl hs
    · rfl
  have hid : (j.map fun c => if c = '.' then '/' else c) = j := by
    conv_rhs => rw [← List.map_id j]
    refine List.map_congr_left fun c hc => ?_
    rw [if_neg (fun h : c = '.' => hd (h ▸ hc)), id]
  have hdots : dotsToSlashes j = j := by
    unfold dotsToSlashes
    split_ifs
    · exact hid
    · rfl
  have done : ∀ x, stripSlash (dotsToSlashes (stripLua x)) = j → normalize w x = .ok (j, false) := by
    intro x hx
    unfold normalize
    simp only [hx, hm]
  refine ⟨done _ ?_, done _ ?_, done _ ?_, done _ ?_⟩
  · rw [stripLua_none hl, hdots, hstrip]
  · rw [stripLua_none]
    · have h1 : (j.map fun c => if c = '/' then '.' else c).all (fun c => c != '/' && c != '\\') = true := by
        rw [List.all_eq_true]
        intro c hc
        obtain ⟨x, hx, rfl⟩ := List.mem_map.1 hc
        by_cases h : x = '/'
        · simp [h]
        · simp only [h, if_false, Bool.and_eq_true, bne_iff_ne, ne_eq, not_false_eq_true, true_and]
          rintro rfl
          exact hb hx
      rw [dotsToSlashes, if_pos h1, List.map_map]
      have : (j.map ((fun c => if c = '.' then '/' else c) ∘ fun c => if c = '/' then '.' else c)) = j := by
        rw [List.map_congr_left (g := id) ?_]
        · simp
        · intro c hc
          by_cases h : c = '/'
          · simp [h]
          · have : c ≠ '.' := fun h => hd (h ▸ hc)
            simp [h, this]
      rw [this, hstrip]
    · intro h
      apply hl
      rw [List.length_map, ← List.map_drop] at h
      have hg : ∀ c d : Char, d ≠ '.' → (if c = '/' then '.' else c) = d → c = d := by
        intro c d hd h
        by_cases hc : c = '/'
        · rw [if_pos hc] at h; exact absurd h.symm hd
        · rwa [if_neg hc] at h
      generalize j.drop (j.length - 3) = t at h
      match t, h with
      | [a, b, c], h =>
        simp only [List.map_cons, List.map_nil] at h
        have h' : [if a = '/' then '.' else a, if b = '/' then '.' else b, if c = '/' then '.' else c] = ['l', 'u', 'a'] := h
        simp only [List.cons.injEq, and_true] at h'
        rw [hg a 'l' (by decide) h'.1, hg b 'u' (by decide) h'.2.1, hg c 'a' (by decide) h'.2.2]
        rfl
      | [], h => exact absurd (congrArg List.length h) (by simp)
      | [a], h => exact absurd (congrArg List.length h) (by simp)
      | [a, b], h => exact absurd (congrArg List.length h) (by simp)
      | a :: b :: c :: d :: r, h => exact absurd (congrArg List.length h) (by simp)
  · rw [stripLua_none]
    · have : dotsToSlashes ('/' :: j) = '/' :: j := by rw [dotsToSlashes, if_neg (by simp)]
      rw [this]
      rfl
    · intro h
      apply hl
      by_cases h3 : 3 ≤ j.length
      · have : ('/' :: j).length - 3 = (j.length - 3) + 1 := by simp only [List.length_cons]; omega
        rwa [this, List.drop_succ_cons] at h
      · have h0 : ('/' :: j).length - 3 = 0 := by simp only [List.length_cons]; omega
        rw [h0, List.drop_zero] at h
        have := (List.cons.inj h).1
        exact absurd this (by decide)
  · have : stripLua (j ++ ".lua".toList) = j := by
      have hlen : (j ++ ".lua".toList).length = j.length + 4 := by simp
      rw [stripLua, if_pos]
      · rw [hlen]; simp
      · refine ⟨by omega, ?_⟩
        have e1 : (j ++ ".lua".toList).length - 3 = j.length + 1 := by omega
        rw [e1, List.drop_append]
        simp
    rw [this, hdots, hstrip]

/-- The file of the first template that has one is taken. -/
theorem search_first {w : World σ} {s : Lua σ} {norm : Str} (hsub : substituted norm = false) (hm : ∀ m, s.tree.head? = some m → m.archive = false)
    {l r : List Str} {t : Str} (hp : s.path = l ++ t :: r) (hl : ∀ t ∈ l, w.files (fillIn t norm) = none) {x : Script σ} (hx : w.files (fillIn t norm) = some x) :
    search w s norm = .ok x := by
  have h1 : (s.tree.head?.map Mod.archive).getD false = false := by
    cases h : s.tree.head? with
    | none => rfl
    | some m => simpa using hm m h
  have h2 : s.path.findSome? (fun t => w.files (fillIn t norm)) = some x := by
    rw [hp, List.findSome?_append, List.findSome?_eq_none_iff.2 hl]
    simp [hx]
  simp only [search, hsub, h1, h2, Bool.false_eq_true, if_false]

theorem begin_parent {base : List Str} {m : Mod} (hm : m.location ≠ []) {stage : Str} (hst : '/' ∉ stage) {s : Lua σ} :
    parent (begin base m stage s).file = some m.location := by
  have : (begin base m stage s).file = m.location ++ '/' :: stage := rfl
  rw [this, parent, upTo_append hst hm]

/-- C94: a module without folder that is not loaded yet and is required by the file of a stage: if the mod is no archive and has a file with that
name, it is that file that is run.  Not so for other files than that of the stage (`C94_neighbour_refuted`, `C94_other_refuted`), in a folder
`graphics` or `sound` (`C94_sound_refuted`), and the name may be cut (`C94_suffix_refuted`). -/
theorem C94_own_partial (w : World σ) (run : Lua σ → Script σ → Option (Except Err (Lua σ))) (base : List Str) (m : Mod) (hm : m.location ≠ []) (hq : '?' ∉ m.location)
    (ha : m.archive = false) (stage : Str) (hst : '/' ∉ stage) (s : Lua σ) (name : Str) (hn : name ∉ s.loaded) (hmod : modName name = none)
    (norm : Str) (hnorm : normalize w name = .ok (norm, false)) (hp : parent norm = none) (hsub : substituted norm = false) (x : Script σ)
    (hx : w.files (m.location ++ "/".toList ++ norm ++ ".lua".toList) = some x) :
    ∃ s1, s1.data = s.data ∧ requireWith w run (begin base m stage s) name =
      match run s1 x with
      | none => none
      | some (.error e) => some (.error e)
      | some (.ok s2) => some (finish { s2 with loaded := name :: s2.loaded } false) := by
  have he : enter w (begin base m stage s) name = (begin base m stage s, false) := by simp [enter, hmod]
  refine ⟨{ (begin base m stage s).addPath (m.location ++ "/?.lua".toList) with file := m.location ++ '/' :: norm }, rfl, ?_⟩
  unfold requireWith
  rw [hnorm]
  simp only [he, addFolder, hp, begin_parent hm hst, Option.getD_some, Bool.false_eq_true, if_false]
  rw [if_neg (by exact hn)]
  rw [search_first (l := []) (r := (begin base m stage s).path) (t := m.location ++ "/?.lua".toList) hsub
    (by rintro m' ⟨⟩; exact ha) rfl (by simp) (by rw [fillIn_plain hq]; exact hx)]
  dsimp only
  generalize run _ x = r
  rcases r with _ | _ | _ <;> rfl

/-- C94: the same for a module in a folder of the mod, if the mod does not have the folder twice, one in the other, with a file of that name
(`C94_nested_refuted`). -/
theorem C94_dir_partial (w : World σ) (run : Lua σ → Script σ → Option (Except Err (Lua σ))) (base : List Str) (m : Mod) (hq : '?' ∉ m.location)
    (ha : m.archive = false) (stage : Str) (s : Lua σ) (name : Str) (hn : name ∉ s.loaded) (hmod : modName name = none)
    (norm p : Str) (hnorm : normalize w name = .ok (norm, false)) (hp : parent norm = some p) (hpq : '?' ∉ p) (hsub : substituted norm = false) (x : Script σ)
    (htwice : w.files (m.location ++ "/".toList ++ p ++ "/".toList ++ norm ++ ".lua".toList) = none)
    (hx : w.files (m.location ++ "/".toList ++ norm ++ ".lua".toList) = some x) :
    ∃ s1, s1.data = s.data ∧ requireWith w run (begin base m stage s) name =
      match run s1 x with
      | none => none
      | some (.error e) => some (.error e)
      | some (.ok s2) => some (finish { s2 with loaded := name :: s2.loaded } false) := by
  have he : enter w (begin base m stage s) name = (begin base m stage s, false) := by simp [enter, hmod]
  refine ⟨(begin base m stage s).addPath (m.location ++ '/' :: p ++ "/?.lua".toList), rfl, ?_⟩
  have hd : (begin base m stage s).modDir = some m.location := rfl
  unfold requireWith
  rw [hnorm]
  simp only [he, addFolder, hp, hd, Bool.false_eq_true, if_false]
  rw [if_neg (by exact hn)]
  rw [search_first (l := [m.location ++ '/' :: p ++ "/?.lua".toList]) (r := base) (t := m.location ++ "/?.lua".toList) hsub
    (by rintro m' ⟨⟩; exact ha) rfl
    (by
      intro t ht
      rw [List.mem_singleton.1 ht, fillIn_plain (by simp [hq, hpq])]
      simpa using htwice)
    (by rw [fillIn_plain hq]; exact hx)]
  dsimp only
  generalize run _ x = r
  rcases r with _ | _ | _ <;> rfl

theorem nameHere_marker {n r : Str} (h0 : n ≠ []) (hn : ∀ c ∈ n, isName c = true) (hr : r.head?.all (fun c => !isName c) = true) :
    nameHere (marker n ++ r) = some n := by
  have h1 : marker n ++ r = '_' :: '_' :: (n ++ '_' :: '_' :: r) := by simp [marker]
  have hrun : (n ++ '_' :: '_' :: r).takeWhile isName = n ++ ['_', '_'] := by
    rw [List.takeWhile_append_of_pos hn]
    congr 1
    have : r.takeWhile isName = [] := by
      cases r with
      | nil => rfl
      | cons c t =>
        simp only [List.head?_cons, Option.all_some, Bool.not_eq_eq_eq_not, Bool.not_true] at hr
        simp [hr]
    simp [isName, this]
  rw [h1]
  unfold nameHere
  simp only [hrun]
  have hlen : (n ++ ['_', '_']).length = n.length + 1 + 1 := by simp
  rw [hlen, List.range_succ, List.range_succ]
  have hd : (n ++ ['_', '_']).drop (n.length + 1) = ['_'] := by
    rw [List.drop_append]
    simp
  have hp : 1 ≤ n.length := List.length_pos_iff.2 h0
  simp [hd, hp]

theorem replaceAll_id {a b : Str} (k : Nat) (s : Str) (h : occurs a s = false) : replaceAll a b k s = s := by
  induction s generalizing k with
  | nil => cases k <;> rfl
  | cons c r ih =>
    cases k with
    | zero => rfl
    | succ k =>
      simp only [occurs, Bool.or_eq_false_iff] at h
      rw [replaceAll, if_neg (by simp [h.1]), ih k h.2]

theorem occurs_marker {n r : Str} (h : occurs "__".toList r = false) : occurs (marker n) r = false := by
  induction r with
  | nil => simp [occurs, marker]
  | cons c r ih =>
    simp only [occurs, Bool.or_eq_false_iff] at h ⊢
    refine ⟨?_, ih h.2⟩
    by_contra hc
    have h1 : marker n <+: c :: r := List.isPrefixOf_iff_prefix.1 (by simpa using hc)
    have h2 : "__".toList <+: c :: r := List.IsPrefix.trans ⟨n ++ "__".toList, by simp [marker]⟩ h1
    rw [List.isPrefixOf_iff_prefix.2 h2] at h
    exact absurd h.1 (by simp)

theorem normalize_marker (w : World σ) {n rest : Str} (h0 : n ≠ []) (hn : ∀ c ∈ n, isName c = true) (hcb : n ≠ "core".toList ∧ n ≠ "base".toList) {m : Mod}
    (hm : w.mod n = some m) (hrest : occurs "__".toList rest = false) (hlua : stripLua (marker n ++ '/' :: rest) = marker n ++ '/' :: rest) :
    modName (marker n ++ '/' :: rest) = some n ∧ normalize w (marker n ++ '/' :: rest) = .ok (m.location ++ '/' :: rest, true) := by
  have h1 : nameHere (marker n ++ '/' :: rest) = some n := nameHere_marker h0 hn (by simp [isName])
  have hc : marker n ++ '/' :: rest = '_' :: ('_' :: (n ++ "__".toList ++ '/' :: rest)) := by simp [marker]
  have h2 : modName (marker n ++ '/' :: rest) = some n := by
    rw [hc] at h1 ⊢
    rw [modName, h1]
  refine ⟨h2, ?_⟩
  have h3 : stripSlash (dotsToSlashes (stripLua (marker n ++ '/' :: rest))) = marker n ++ '/' :: rest := by
    rw [hlua, dotsToSlashes, if_neg (by simp), hc]
    rfl
  unfold normalize
  simp only [h3, h2]
  rw [if_neg (not_or.2 hcb), hm]
  simp only
  have hlen : (marker n ++ '/' :: rest).length = ('_' :: (n ++ "__".toList ++ '/' :: rest)).length + 1 := by simp [marker]
  rw [hlen]
  conv => lhs; rw [hc]
  rw [replaceAll, if_pos, ← hc, List.drop_append, List.drop_length, Nat.sub_self, List.drop_zero, List.nil_append]
  · rw [replaceAll_id]
    have := occurs_marker (n := n) hrest
    rw [occurs, this, Bool.or_false]
    simp [marker, List.isPrefixOf]
  · rw [← hc]
    exact List.isPrefixOf_iff_prefix.2 ⟨_, rfl⟩

/-- C94: a file of another mod, named by `__mod__/…`, is run if it is not loaded yet, if the mod is neither `core` nor `base` nor an archive, and
if its whole path does not exist once more inside its folder or that of the mod whose stage is run.  See `C94_base_refuted`. -/
theorem C94_absolute_partial (w : World σ) (run : Lua σ → Script σ → Option (Except Err (Lua σ))) (r : List Str) (m : Mod) (hq : '?' ∉ m.location)
    (stage : Str) (s : Lua σ) (n rest : Str) (h0 : n ≠ []) (hn : ∀ c ∈ n, isName c = true) (hcb : n ≠ "core".toList ∧ n ≠ "base".toList) (m' : Mod)
    (hm : w.mod n = some m') (ha : m'.archive = false) (hrest : occurs "__".toList rest = false) (hlua : stripLua (marker n ++ '/' :: rest) = marker n ++ '/' :: rest)
    (hload : marker n ++ '/' :: rest ∉ s.loaded) (hsub : substituted (m'.location ++ '/' :: rest) = false) (p : Str) (hp : parent (m'.location ++ '/' :: rest) = some p)
    (hpq : '?' ∉ p) (x : Script σ) (hx : w.files (m'.location ++ '/' :: rest ++ ".lua".toList) = some x)
    (h1 : w.files (p ++ "/".toList ++ (m'.location ++ '/' :: rest) ++ ".lua".toList) = none)
    (h2 : w.files (m.location ++ "/".toList ++ (m'.location ++ '/' :: rest) ++ ".lua".toList) = none) :
    ∃ s1 c, s1.data = s.data ∧ s1.tree.head? = some m' ∧ requireWith w run (begin ("?.lua".toList :: r) m stage s) (marker n ++ '/' :: rest) =
      match run s1 x with
      | none => none
      | some (.error e) => some (.error e)
      | some (.ok s2) => some (finish { s2 with loaded := (marker n ++ '/' :: rest) :: s2.loaded } c) := by
  obtain ⟨hmn, hnorm⟩ := normalize_marker w h0 hn hcb hm hrest hlua
  obtain ⟨e1, e2, e3⟩ : (enter w (begin ("?.lua".toList :: r) m stage s) (marker n ++ '/' :: rest)).1.path = (m.location ++ "/?.lua".toList) :: "?.lua".toList :: r ∧
      (enter w (begin ("?.lua".toList :: r) m stage s) (marker n ++ '/' :: rest)).1.tree.head? = some m' ∧
      (enter w (begin ("?.lua".toList :: r) m stage s) (marker n ++ '/' :: rest)).1.loaded = s.loaded := by
    rw [enter, hmn]
    simp only [Option.bind_some, hm]
    split_ifs with hh
    · exact ⟨rfl, hh, rfl⟩
    · exact ⟨rfl, rfl, rfl⟩
  have e4 := (enter_spec w (begin ("?.lua".toList :: r) m stage s) (marker n ++ '/' :: rest)).2.2.1
  unfold requireWith
  rw [hnorm]
  simp only [addFolder, hp, if_true]
  refine ⟨(enter w (begin ("?.lua".toList :: r) m stage s) (marker n ++ '/' :: rest)).1.addPath (p ++ "/?.lua".toList), (enter w (begin ("?.lua".toList :: r) m stage s) (marker n ++ '/' :: rest)).2, ?_, e2, ?_⟩
  · exact e4
  rw [if_neg (by exact e3 ▸ hload)]
  rw [search_first (l := [p ++ "/?.lua".toList, m.location ++ "/?.lua".toList]) (r := r) (t := "?.lua".toList) hsub
    (by intro m1 hm1; exact (Option.some.inj (e2.symm.trans hm1)) ▸ ha) (by rw [Lua.addPath, e1]; rfl)
    (by
      intro t ht
      simp only [List.mem_cons, List.not_mem_nil, or_false] at ht
      rcases ht with rfl | rfl
      · rw [fillIn_plain hpq]; exact h1
      · rw [fillIn_plain hq]; exact h2)
    (by
      have : fillIn "?.lua".toList (m'.location ++ '/' :: rest) = m'.location ++ '/' :: rest ++ ".lua".toList := by simp [fillIn]
      rw [this]; exact hx)]
  dsimp only
  generalize run _ x = r
  rcases r with _ | _ | _ <;> rfl

/-- C94: a file of an archive, named by `__mod__/…`, cannot be required: unless it is loaded already or replaced by a dummy, loading fails. -/
theorem C94_archive_module (w : World σ) (run : Lua σ → Script σ → Option (Except Err (Lua σ))) (s : Lua σ) (n rest : Str) (h0 : n ≠ []) (hn : ∀ c ∈ n, isName c = true)
    (hcb : n ≠ "core".toList ∧ n ≠ "base".toList) (m : Mod) (hm : w.mod n = some m) (ha : m.archive = true) (hrest : occurs "__".toList rest = false)
    (hlua : stripLua (marker n ++ '/' :: rest) = marker n ++ '/' :: rest) (hload : marker n ++ '/' :: rest ∉ s.loaded) (hsub : substituted (m.location ++ '/' :: rest) = false)
    (p : Str) (hp : parent (m.location ++ '/' :: rest) = some p) : requireWith w run s (marker n ++ '/' :: rest) = some (.error .attribute) := by
  obtain ⟨hmn, hnorm⟩ := normalize_marker w h0 hn hcb hm hrest hlua
  have e2 : (enter w s (marker n ++ '/' :: rest)).1.tree.head? = some m := by
    rw [enter, hmn]
    simp only [Option.bind_some, hm]
    split_ifs with hh
    · exact hh
    · rfl
  have e3 := (enter_spec w s (marker n ++ '/' :: rest)).2.1
  unfold requireWith
  rw [hnorm]
  simp only [addFolder, hp, if_true]
  rw [if_neg (by exact e3 ▸ hload)]
  have : search w ((enter w s (marker n ++ '/' :: rest)).1.addPath (p ++ "/?.lua".toList)) (m.location ++ '/' :: rest) = .error .attribute := by
    have e4 : ((enter w s (marker n ++ '/' :: rest)).1.addPath (p ++ "/?.lua".toList)).tree.head? = some m := e2
    rw [search, hsub, e4]
    simp [ha]
  rw [this]

/-- C94: a file of a mod that is not there cannot be required, whatever is loaded. -/
theorem C94_unknown (w : World σ) (run : Lua σ → Script σ → Option (Except Err (Lua σ))) (s : Lua σ) (n rest : Str) (h0 : n ≠ []) (hn : ∀ c ∈ n, isName c = true)
    (hcb : n ≠ "core".toList ∧ n ≠ "base".toList) (hm : ∀ m ∈ w.mods, m.name ≠ n) (hlua : rest.drop (rest.length - 3) ≠ "lua".toList) :
    requireWith w run s (marker n ++ '/' :: rest) = some (.error .lua) := by
  have h1 : nameHere (marker n ++ '/' :: rest) = some n := nameHere_marker h0 hn (by simp [isName])
  have hc : marker n ++ '/' :: rest = '_' :: ('_' :: (n ++ "__".toList ++ '/' :: rest)) := by simp [marker]
  have h2 : modName (marker n ++ '/' :: rest) = some n := by
    rw [hc] at h1 ⊢
    rw [modName, h1]
  have hl : stripLua (marker n ++ '/' :: rest) = marker n ++ '/' :: rest := by
    apply stripLua_none
    by_cases h3 : 3 ≤ rest.length
    · have e1 : (marker n ++ '/' :: rest).length - 3 = (marker n).length + ((rest.length - 3) + 1) := by simp only [List.length_append, List.length_cons]; omega
      rw [e1, List.drop_append, List.drop_eq_nil_of_le (by omega), List.nil_append, Nat.add_sub_cancel_left, List.drop_succ_cons]
      exact hlua
    · intro h
      have : '/' ∈ (marker n ++ '/' :: rest).drop ((marker n ++ '/' :: rest).length - 3) := by
        rw [List.drop_append]
        refine List.mem_append_right _ ?_
        have : (marker n ++ '/' :: rest).length - 3 - (marker n).length = 0 := by simp only [List.length_append, List.length_cons]; omega
        rw [this]
        simp
      rw [h] at this
      exact absurd this (by decide)
  have h3 : stripSlash (dotsToSlashes (stripLua (marker n ++ '/' :: rest))) = marker n ++ '/' :: rest := by
    rw [hl, dotsToSlashes, if_neg (by simp), hc]
    rfl
  have hw : w.mod n = none := by
    rw [World.mod, List.find?_eq_none]
    intro m h
    simpa using hm m h
  have : normalize w (marker n ++ '/' :: rest) = .error .lua := by
    unfold normalize
    simp only [h3, h2]
    rw [if_neg (not_or.2 hcb), hw]
  unfold requireWith
  rw [this]

/-! ### What the files do -/

/-- Specification: the files are those of the mods for the stages, each is run on what the one before has left, and the last leaves `d'`. -/
def Leaves (w : World σ) (fuel : Nat) : List (Entry σ) → σ → σ → Prop
  | [], d, d' => d = d'
  | e :: l, d, d' => e.start.data = d ∧ ∃ x t, w.files (e.mod.location ++ "/".toList ++ e.stage) = some x ∧ exec w fuel e.start x = some (.ok t) ∧ Leaves w fuel l t.data d'

theorem Leaves.append {w : World σ} {fuel : Nat} {l l' : List (Entry σ)} {a b c : σ} (h : Leaves w fuel l a b) (h' : Leaves w fuel l' b c) : Leaves w fuel (l ++ l') a c := by
  induction l generalizing a with
  | nil => cases h; exact h'
  | cons e l ih =>
    obtain ⟨h1, x, t, h2, h3, h4⟩ := h
    exact ⟨h1, x, t, h2, h3, ih h4⟩

theorem runMods_leaves (w : World σ) (fuel : Nat) (base : List Str) (wipe : Bool) (stage : Str) (order : List Mod) (s t : Lua σ)
    (h : (runMods w fuel base wipe stage order s).2 = some (.ok t)) : Leaves w fuel (runMods w fuel base wipe stage order s).1 s.data t.data := by
  induction order generalizing s with
  | nil => cases h; exact rfl
  | cons m r ih =>
    rw [runMods] at h ⊢
    by_cases hs : stage ∈ m.stages
    · rw [if_pos hs] at h ⊢
      rcases hg : getFile w m stage with e | x <;> rw [hg] at h
      · cases h
      · simp only at h ⊢
        rcases hx : exec w fuel (begin base m stage s) x with _ | e | s' <;> rw [hx] at h
        · cases h
        · cases h
        · simp only at h ⊢
          have hf : w.files (m.location ++ "/".toList ++ stage) = some x := by
            unfold getFile at hg
            split at hg
            · cases hg
            · have e1 : m.location ++ "/".toList ++ stage = m.location ++ '/' :: stage := by simp
              rw [e1]
              split at hg
              · cases hg; assumption
              · cases hg
          have hd : (s'.cleanUp wipe).data = s'.data := by unfold Lua.cleanUp; split_ifs <;> rfl
          exact ⟨rfl, x, s', hf, hx, hd ▸ ih _ h⟩
    · rw [if_neg hs] at h ⊢
      exact ih (s.setPath base) h

theorem runStages_leaves (w : World σ) (fuel : Nat) (base : List Str) (wipe : Bool) (order : List Mod) (stages : List Str) (s t : Lua σ)
    (h : (runStages w fuel base wipe order stages s).2 = some (.ok t)) : Leaves w fuel (runStages w fuel base wipe order stages s).1 s.data t.data := by
  induction stages generalizing s with
  | nil => cases h; exact rfl
  | cons st r ih =>
    have h1 := runMods_leaves w fuel base wipe st order s
    rw [runStages] at h ⊢
    split at h
    · rename_i l s' hr
      rw [hr] at h1
      exact (h1 s' rfl).append (ih s' h)
    · rename_i x hx
      exact (hx _ t (Prod.ext rfl h)).elim

/-- C94: what loading leaves in the tables is what the files leave that are run one after another on what was there before, first those of the settings
stages, then, after the settings are converted, those of the data stages. -/
theorem C94_effect (w : World σ) (fuel : Nat) (base : List Str) (order : List Mod) (convert : Lua σ → Except Err (Lua σ)) (s t : Lua σ)
    (h : (lifecycle w fuel base order convert s).2 = some (.ok t)) :
    ∃ l l' u u', (lifecycle w fuel base order convert s).1 = l ++ l' ∧ Leaves w fuel l s.data u.data ∧ convert u = .ok u' ∧ Leaves w fuel l' u'.data t.data := by
  have h1 := runStages_leaves w fuel base false order settingsStages s
  rw [lifecycle] at h ⊢
  split at h
  · rename_i l s' hr
    rw [hr] at h1
    split at h
    · cases h
    · rename_i s'' hc
      exact ⟨l, _, s', s'', rfl, h1 s' rfl, hc, runStages_leaves w fuel base true order dataStages s'' t h⟩
  · rename_i x hx
    exact (hx _ t (Prod.ext rfl h)).elim

/-! ### Settings -/

/-- C94: the types of settings: two of the three have a second name. -/
theorem C94_types (s : String) (t : Tab) : tabOf s = some t ↔ (s, t) ∈ [("startup", Tab.startup), ("runtime-global", .global), ("global", .global), ("runtime-per-user", .player),
    ("player", .player)] := by
  unfold tabOf
  by_cases h1 : s = "startup"
  · subst h1; cases t <;> decide
  by_cases h2 : s = "runtime-global"
  · subst h2; cases t <;> decide
  by_cases h3 : s = "global"
  · subst h3; cases t <;> decide
  by_cases h4 : s = "runtime-per-user"
  · subst h4; cases t <;> decide
  by_cases h5 : s = "player"
  · subst h5; cases t <;> decide
  simp [h1, h2, h3, h4, h5]

/-- What is declared, in the order in which it is entered. -/
def declared {V : Type} (l : List (String × Setting V)) (tab : Tab) (n : String) : Option V :=
  (l.reverse.find? fun x => tabOf x.2.ty == some tab && x.1 == n).map fun x => x.2.dflt

/-- The last value the file gives for a setting. -/
def given {V : Type} (u : List (String × List (String × Option V))) (tab : Tab) (n : String) : Option V :=
  ((u.flatMap fun x => x.2.map fun y => (x.1, y)).reverse.find? fun x => tabOf x.1 == some tab && x.2.1 == n).bind fun x => x.2.2

theorem setSettings_spec {V : Type} (l : List (String × Setting V)) (t : Values V) :
    ((∃ t', setSettings l t = .ok t') ↔ ∀ x ∈ l, (tabOf x.2.ty).isSome) ∧
    ∀ t', setSettings l t = .ok t' → ∀ tab n, t' tab n = (declared l tab n).or (t tab n) := by
  induction l generalizing t with
  | nil => exact ⟨by simp [setSettings], by simp [setSettings, declared]⟩
  | cons x r ih =>
    obtain ⟨n, x⟩ := x
    rw [setSettings]
    cases h : tabOf x.ty with
    | none => simp [h]
    | some tab =>
      simp only [List.mem_cons, forall_eq_or_imp, h, Option.isSome_some, true_and]
      refine ⟨(ih _).1, ?_⟩
      intro t' ht tab' n'
      rw [(ih _).2 t' ht tab' n']
      unfold declared
      rw [List.reverse_cons, List.find?_append]
      cases hf : r.reverse.find? (fun x => tabOf x.2.ty == some tab' && x.1 == n') with
      | some y => simp
      | none =>
        simp only [Option.map_none, Option.none_or, List.find?_cons, h, List.find?_nil, Values.put]
        by_cases hc : tab' = tab ∧ n' = n
        · obtain ⟨rfl, rfl⟩ := hc
          simp
        · rw [if_neg hc]
          have : (some tab == some tab' && n == n') = false := by
            by_contra hb
            simp only [Bool.not_eq_false, Bool.and_eq_true, beq_iff_eq, Option.some.injEq] at hb
            exact hc ⟨hb.1.symm, hb.2.symm⟩
          rw [this]
          rfl

theorem setSettings_append {V : Type} (l r : List (String × Setting V)) (t : Values V) :
    setSettings (l ++ r) t = match setSettings l t with
      | .ok t' => setSettings r t'
      | .error e => .error e := by
  induction l generalizing t with
  | nil => rfl
  | cons x l ih =>
    obtain ⟨n, x⟩ := x
    rw [List.cons_append, setSettings, setSettings]
    cases tabOf x.ty with
    | none => rfl
    | some tab => exact ih _

theorem convertSettings_flatten {V : Type} (l : List (List (String × Setting V))) (t : Values V) : convertSettings l t = setSettings l.flatten t := by
  induction l generalizing t with
  | nil => rfl
  | cons x r ih =>
    rw [convertSettings, List.flatten_cons, setSettings_append]
    cases setSettings x t with
    | error e => rfl
    | ok t' => exact ih t'

/-- The settings in the file, in order. -/
def entries {V : Type} (u : List (String × List (String × Option V))) : List (String × String × Option V) := u.flatMap fun x => x.2.map fun y => (x.1, y)

/-- `overwrite`, over the settings in order. -/
def over {V : Type} : List (String × String × Option V) → Values V → Except Err (Values V)
  | [], t => .ok t
  | (ty, n, v) :: r, t => match tabOf ty with
    | none => .error .type
    | some tab => match t tab n with
      | none => over r t
      | some _ => match v with
        | some v => over r (t.put tab n v)
        | none => .error .key

theorem over_append {V : Type} (l r : List (String × String × Option V)) (t : Values V) :
    over (l ++ r) t = match over l t with
      | .ok t' => over r t'
      | .error e => .error e := by
  induction l generalizing t with
  | nil => rfl
  | cons x l ih =>
    obtain ⟨ty, n, v⟩ := x
    rw [List.cons_append, over, over]
    cases tabOf ty with
    | none => rfl
    | some tab =>
      simp only
      cases t tab n with
      | none => exact ih _
      | some d => cases v with
        | none => rfl
        | some v => exact ih _

theorem overwriteIn_eq {V : Type} {ty : String} {tab : Tab} (h : tabOf ty = some tab) (l : List (String × Option V)) (t : Values V) :
    overwriteIn tab l t = over (l.map fun y => (ty, y)) t := by
  induction l generalizing t with
  | nil => rfl
  | cons x l ih =>
    obtain ⟨n, v⟩ := x
    rw [overwriteIn.eq_def, List.map_cons, over.eq_def]
    simp only [h]
    cases t tab n with
    | none => exact ih _
    | some d => cases v with
      | none => rfl
      | some v => exact ih _

theorem overwrite_eq {V : Type} (u : List (String × List (String × Option V))) (t : Values V) : overwrite u t = over (entries u) t := by
  induction u generalizing t with
  | nil => rfl
  | cons x r ih =>
    obtain ⟨ty, l⟩ := x
    have he : entries ((ty, l) :: r) = (l.map fun y => (ty, y)) ++ entries r := by simp [entries]
    rw [overwrite.eq_def, he, over_append]
    simp only
    cases h : tabOf ty with
    | some tab =>
      simp only
      rw [overwriteIn_eq h]
      cases over (l.map fun y => (ty, y)) t with
      | error e => rfl
      | ok t' => exact ih t'
    | none =>
      cases l with
      | nil => exact ih t
      | cons y l => simp [over, h]

theorem over_spec {V : Type} (l : List (String × String × Option V)) (t : Values V) :
    ((∃ t', over l t = .ok t') ↔ ∀ x ∈ l, ∃ tab, tabOf x.1 = some tab ∧ ((t tab x.2.1).isSome → x.2.2.isSome)) ∧
    ∀ t', over l t = .ok t' → ∀ tab n,
      t' tab n = (t tab n).map fun d => ((l.reverse.find? fun x => tabOf x.1 == some tab && x.2.1 == n).bind fun x => x.2.2).getD d := by
  induction l generalizing t with
  | nil => refine ⟨by simp [over], ?_⟩; rintro t' ⟨⟩ tab' n; simp
  | cons x r ih =>
    obtain ⟨ty, n, v⟩ := x
    rw [over.eq_def]
    simp only [List.mem_cons, forall_eq_or_imp]
    cases h : tabOf ty with
    | none => simp
    | some tab =>
      simp only [Option.some.injEq, exists_eq_left']
      have last : ∀ (d : V) (tab' : Tab) (n' : String), ¬(tab' = tab ∧ n' = n) →
          ((r.reverse ++ [(ty, n, v)]).find? fun x => tabOf x.1 == some tab' && x.2.1 == n') = r.reverse.find? fun x => tabOf x.1 == some tab' && x.2.1 == n' := by
        intro d tab' n' hc
        have : (some tab == some tab' && n == n') = false := by
          by_contra hb
          simp only [Bool.not_eq_false, Bool.and_eq_true, beq_iff_eq, Option.some.injEq] at hb
          exact hc ⟨hb.1.symm, hb.2.symm⟩
        rw [List.find?_append, List.find?_cons, h, this]
        simp
      cases ht : t tab n with
      | none =>
        simp only [Option.isSome_none, Bool.false_eq_true, false_imp_iff, true_and]
        refine ⟨(ih t).1, ?_⟩
        intro t' h' tab' n'
        rw [(ih t).2 t' h' tab' n', List.reverse_cons]
        by_cases hc : tab' = tab ∧ n' = n
        · obtain ⟨rfl, rfl⟩ := hc
          rw [ht]; rfl
        · cases t tab' n' with
          | none => rfl
          | some d => rw [Option.map_some, Option.map_some, last d tab' n' hc]
      | some d =>
        cases v with
        | none => simp
        | some v =>
          have hput : ∀ tab' n', ((t.put tab n v) tab' n').isSome = (t tab' n').isSome := by
            intro tab' n'
            unfold Values.put
            by_cases hn : tab' = tab ∧ n' = n
            · obtain ⟨rfl, rfl⟩ := hn; simp [ht]
            · simp [hn]
          simp only [Option.isSome_some, imp_true_iff, true_and]
          have hiff := (ih (t.put tab n v)).1
          simp only [hput] at hiff
          refine ⟨hiff, ?_⟩
          intro t' h' tab' n'
          rw [(ih _).2 t' h' tab' n', List.reverse_cons]
          by_cases hc : tab' = tab ∧ n' = n
          · obtain ⟨rfl, rfl⟩ := hc
            have hp : (t.put tab' n' v) tab' n' = some v := by simp [Values.put]
            rw [hp, ht, List.find?_append, Option.map_some, Option.map_some]
            congr 1
            cases hf : r.reverse.find? (fun x => tabOf x.1 == some tab' && x.2.1 == n') with
            | none => simp [h]
            | some y =>
              have hy := List.find?_some hf
              simp only [Bool.and_eq_true, beq_iff_eq] at hy
              obtain ⟨tb, htb, hs⟩ := hiff.1 ⟨t', h'⟩ y (by simpa using List.mem_of_find?_eq_some hf)
              rw [hy.1, Option.some.injEq] at htb
              subst htb
              rw [hy.2, ht] at hs
              obtain ⟨z, hz⟩ := Option.isSome_iff_exists.1 (hs rfl)
              simp [hz]
          · have hp : (t.put tab n v) tab' n' = t tab' n' := by simp [Values.put, hc]
            rw [hp]
            cases t tab' n' with
            | none => rfl
            | some d => rw [Option.map_some, Option.map_some, last d tab' n' hc]

/-- C94: the settings mods see in the data stage: what was declared, and nothing else; with the value the file of the user gives for it (the last, if
several), else with the default. -/
theorem C94_settings {V : Type} (kinds : List (List (String × Setting V))) (user : Option (List (String × List (String × Option V)))) (t : Values V)
    (h : finalSettings kinds user = .ok t) (tab : Tab) (n : String) :
    t tab n = (declared kinds.flatten tab n).map fun d => (given (user.getD []) tab n).getD d := by
  simp only [finalSettings, bind, Except.bind, convertSettings_flatten] at h
  cases hs : setSettings kinds.flatten (fun _ _ => (none : Option V)) with
  | error e => rw [hs] at h; cases h
  | ok t0 =>
    rw [hs] at h
    have h0 := (setSettings_spec kinds.flatten (fun _ _ => (none : Option V))).2 t0 hs tab n
    simp only [Option.or_none] at h0
    cases user with
    | none =>
      cases h
      rw [h0]
      cases declared kinds.flatten tab n <;> simp [given]
    | some u =>
      simp only [overwrite_eq] at h
      rw [(over_spec _ t0).2 t h tab n, h0]
      rfl

/-- C94: and just when that works: all declared settings have one of the known types, all those in the file too, and those in the file that are
declared have a value. -/
theorem C94_settings_ok {V : Type} (kinds : List (List (String × Setting V))) (user : Option (List (String × List (String × Option V)))) :
    (∃ t, finalSettings kinds user = .ok t) ↔
    (∀ l ∈ kinds, ∀ x ∈ l, (tabOf x.2.ty).isSome) ∧
    ∀ l ∈ user.getD [], ∀ x ∈ l.2, ∃ tab, tabOf l.1 = some tab ∧ ((declared kinds.flatten tab x.1).isSome → x.2.isSome) := by
  simp only [finalSettings, bind, Except.bind, convertSettings_flatten]
  have h1 := (setSettings_spec kinds.flatten (fun _ _ => (none : Option V))).1
  have hfl : (∀ x ∈ kinds.flatten, (tabOf x.2.ty).isSome) ↔ ∀ l ∈ kinds, ∀ x ∈ l, (tabOf x.2.ty).isSome := by
    simp only [List.mem_flatten, forall_exists_index, and_imp]
    exact ⟨fun h l hl x hx => h x l hl hx, fun h x l hl hx => h l hl x hx⟩
  rw [hfl] at h1
  cases hs : setSettings kinds.flatten (fun _ _ => (none : Option V)) with
  | error e =>
    rw [hs] at h1
    have : ¬ ∀ l ∈ kinds, ∀ x ∈ l, (tabOf x.2.ty).isSome := fun h => by
      obtain ⟨t, ht⟩ := h1.2 h
      cases ht
    simp only [this, false_and, iff_false]
    rintro ⟨t, ht⟩
    cases ht
  | ok t0 =>
    have h0 := (setSettings_spec kinds.flatten (fun _ _ => (none : Option V))).2 t0 hs
    simp only [Option.or_none] at h0
    rw [hs] at h1
    have : ∀ l ∈ kinds, ∀ x ∈ l, (tabOf x.2.ty).isSome := h1.1 ⟨t0, rfl⟩
    rw [and_iff_right this]
    cases user with
    | none => simp
    | some u =>
      simp only [overwrite_eq, Option.getD_some]
      rw [(over_spec _ t0).1]
      simp only [h0, entries, List.mem_flatMap, List.mem_map]
      constructor
      · intro h l hl x hx
        exact h (l.1, x) ⟨l, hl, x, hx, rfl⟩
      · rintro h x ⟨l, hl, y, hy, rfl⟩
        exact h l hl y hy

/-! ### Examples -/

/-- A script that adds a number to a list. -/
def say (n : Nat) : Script (List Nat) := .node (fun l => some (l ++ [n])) (fun _ => none) fun _ => .ret

/-- A script that requires a module. -/
def req (name : String) : Script (List Nat) := .node some (fun _ => some name.toList) fun _ => .ret

/-- A script that requires two modules. -/
def req2 (a b : String) : Script (List Nat) := .node some (fun _ => some a.toList) fun _ => req b

/-- Files and mods. -/
def world (files : List (String × Script (List Nat))) (mods : List Mod) : World (List Nat) :=
  ⟨fun p => (files.find? fun f => f.1.toList == p).map Prod.snd, mods⟩

/-- At the beginning. -/
def fresh : Lua (List Nat) := ⟨[], ["?.lua".toList, "/core/?.lua".toList], [], [], none, []⟩

/-- The list at the end, if there is an end without error. -/
def outcome (r : Option (Except Err (Lua (List Nat)))) : Option (List Nat) := match r with
  | some (.ok t) => some t.data
  | _ => none

/-- Two mods, the second of which uses the first. -/
def modA : Mod := ⟨"A".toList, "/m/A".toList, false, ["settings.lua".toList, "data.lua".toList]⟩

@[inherit_doc modA] def modB : Mod := ⟨"B".toList, "/m/B".toList, false, ["data.lua".toList, "data-final-fixes.lua".toList]⟩

/-- The file of the data stage of a mod is run. -/
def runData (w : World (List Nat)) (m : Mod) (x : Script (List Nat)) : Option (List Nat) := outcome (exec w 6 (begin fresh.path m "data.lua".toList fresh) x)

/-- A world with both. -/
def both : World (List Nat) := world [("/m/A/settings.lua", say 1), ("/m/A/data.lua", req "lib.x"), ("/m/A/lib/x.lua", say 2), ("/m/B/data.lua", req2 "y" "__A__/lib/x"),
  ("/m/B/y.lua", say 3), ("/m/B/data-final-fixes.lua", say 4)] [modA, modB]

/-- C94_order, C94_once, C94_environment, C94_unloaded: all files in order, the module of the other mod a second time. -/
example : outcome (lifecycle both 6 fresh.path [modA, modB] .ok fresh).2 = some [1, 2, 3, 2, 4] := by decide +kernel
example : ran (lifecycle both 6 fresh.path [modA, modB] .ok fresh).1 =
    [(modA, "settings.lua".toList), (modA, "data.lua".toList), (modB, "data.lua".toList), (modB, "data-final-fixes.lua".toList)] := by decide +kernel
/-- C94_balanced, C94_folder: path and mods are as before though two modules of another mod were required. -/
example : ∃ t, exec both 6 (begin fresh.path modB "data.lua".toList fresh) (req2 "y" "__A__/lib/x") = some (.ok t) ∧ t.data = [3, 2] ∧
    t.path = ["/m/B/?.lua".toList, "?.lua".toList, "/core/?.lua".toList] ∧ t.tree = [modB] ∧ parent t.file = some "/m/B".toList :=
  ⟨_, rfl, by decide +kernel, by decide +kernel, by decide +kernel, by decide +kernel⟩
/-- C94_archive, C94_archive_module: the archive has no stage of its own, but is used. -/
example : requireWith (world [] [{ modA with archive := true }]) (fun s _ => some (.ok s)) fresh "__A__/lib/x".toList = some (.error .attribute) :=
  C94_archive_module _ _ _ "A".toList "lib/x".toList (by decide) (by decide) (by decide) _ rfl rfl (by decide) (by decide) (by decide) (by decide) "/m/A/lib".toList (by decide)
/-- C94_alone -/
example := C94_alone both 6 fresh.path [modA, modB] dataStages fresh rfl
example : (runStages both 6 fresh.path true [modA, modB] dataStages fresh).1.map (fun e => e.start.tree) = [[modA], [modB], [modB]] := by decide +kernel
/-- C94_effect -/
example : ∃ t, (lifecycle both 6 fresh.path [modA, modB] .ok fresh).2 = some (.ok t) ∧ t.data = [1, 2, 3, 2, 4] := ⟨_, rfl, by decide +kernel⟩
/-- C94_types -/
example : tabOf "player" = some .player := (C94_types _ _).2 (by decide)
/-- C94_unknown -/
example : requireWith both (fun s _ => some (.ok s)) fresh "__C__/lib/x".toList = some (.error .lua) :=
  C94_unknown both _ _ "C".toList "lib/x".toList (by decide) (by decide) (by decide) (by simp [both, world, modA, modB]) (by decide)
/-- C94_spelling -/
example : normalize both "lib.sub.x".toList = .ok ("lib/sub/x".toList, false) ∧ normalize both "/lib/sub/x".toList = .ok ("lib/sub/x".toList, false) :=
  have h := C94_spelling both "lib/sub/x".toList (by decide) (by decide) (by decide) (by decide) (by decide)
  ⟨h.2.1, h.2.2.1⟩
/-- C94_own_partial -/
example := C94_own_partial both (fun s _ => some (.ok s)) fresh.path modB (by decide) (by decide) rfl "data.lua".toList (by decide) fresh "y".toList
  (by decide) (by decide) "y".toList (by decide +kernel) (by decide) (by decide) (say 3) rfl
/-- C94_dir_partial -/
example := C94_dir_partial both (fun s _ => some (.ok s)) fresh.path modA (by decide) rfl "data.lua".toList fresh "lib.x".toList
  (by decide) (by decide) "lib/x".toList "lib".toList rfl (by decide) (by decide) (by decide) (say 2) rfl rfl
/-- C94_absolute_partial -/
example := C94_absolute_partial both (fun s _ => some (.ok s)) ["/core/?.lua".toList] modB (by decide)
  "data.lua".toList fresh "A".toList "lib/x".toList (by decide) (by decide) (by decide) modA rfl rfl (by decide) (by decide) (by decide) (by decide)
  "/m/A/lib".toList (by decide) (by decide) (say 2) rfl rfl rfl
/-- C94_settings: a value of the user, a default, and a setting nobody declared. -/
example : ∃ t, finalSettings [[("x", ⟨"startup", 1⟩), ("y", ⟨"startup", 2⟩)], [("z", ⟨"runtime-global", 3⟩)]]
    (some [("startup", [("x", some 10), ("w", none)]), ("runtime-global", [])]) = .ok t ∧ t .startup "x" = some 10 ∧ t .startup "y" = some 2 ∧ t .startup "w" = none ∧ t .global "z" = some 3 :=
  ⟨_, rfl, rfl, rfl, rfl, rfl⟩
/-- C94_settings_ok: a setting of the user without value, and one of an unknown type. -/
example : ¬ ∃ t, finalSettings [[("x", ⟨"startup", 1⟩)]] (some [("startup", [("x", none)])]) = .ok t := by
  rw [C94_settings_ok]; decide
example : ¬ ∃ t, finalSettings [[("x", ⟨"startup", 1⟩)]] (some [("mine", [("x", some 1)])]) = .ok t := by
  rw [C94_settings_ok]; decide

/-! ### What does not hold -/

/-- C94: a mod in an archive is not loaded like one in a folder: with a single mod, a zip file with an empty `data.lua`, loading fails, because
`Mod.get_file` reads an attribute that does not exist. -/
theorem C94_archive_refuted : ¬ ∀ (w : World (List Nat)) (m : Mod), (∀ st ∈ m.stages, w.files (m.location ++ '/' :: st) = some .ret) →
    outcome (lifecycle w 6 fresh.path [m] .ok fresh).2 = some [] := by
  intro h
  have := h (world [("/m/A.zip/data.lua", .ret)] []) ⟨"A".toList, "/m/A.zip".toList, true, ["data.lua".toList]⟩ (by intro st hst; rw [List.mem_singleton.1 hst]; rfl)
  exact absurd this (by decide +kernel)

/-- C94: a module whose name ends in `lua` after some character is not found: the pattern that should cut off `.lua` cuts off `_lua` as well, so
with `require("my_lua")` the file `my_lua.lua` is not run. -/
theorem C94_suffix_refuted : ¬ ∀ (w : World (List Nat)) (name : String), (∀ c ∈ name.toList, isName c = true) → modName name.toList = none →
    w.files (modA.location ++ "/".toList ++ name.toList ++ ".lua".toList) = some (say 1) → runData w modA (req name) = some [1] := by
  intro h
  exact absurd (h (world [("/m/A/my_lua.lua", say 1)] [modA]) "my_lua" (by decide) (by decide) rfl) (by decide +kernel)

/-- C94: a module in a folder `sound` or `graphics` of a mod is not run, though its file is there: a dummy takes its place. -/
theorem C94_sound_refuted : ¬ ∀ (w : World (List Nat)) (folder name : String), (∀ c ∈ folder.toList ++ name.toList, c.isAlpha = true) →
    stripLua (folder ++ "/" ++ name).toList = (folder ++ "/" ++ name).toList →
    w.files (modA.location ++ "/".toList ++ (folder ++ "/" ++ name).toList ++ ".lua".toList) = some (say 1) → runData w modA (req (folder ++ "/" ++ name)) = some [1] := by
  intro h
  exact absurd (h (world [("/m/A/sound/horn.lua", say 1)] [modA]) "sound" "horn" (by decide) (by decide) rfl) (by decide +kernel)

/-- C94: "get directory of current file": a file that requires a module without folder does not get the one beside it, but one in the folder of the
mod: `CURRENT_FILE` is not changed for modules with folders. -/
theorem C94_neighbour_refuted : ¬ ∀ w : World (List Nat), w.files "/m/A/lib/a.lua".toList = some (req "b") → w.files "/m/A/lib/b.lua".toList = some (say 1) →
    runData w modA (req "lib.a") = some [1] := by
  intro h
  exact absurd (h (world [("/m/A/lib/a.lua", req "b"), ("/m/A/lib/b.lua", say 1), ("/m/A/b.lua", say 2)] [modA]) rfl rfl) (by decide +kernel)

/-- C94: "Stack of mods keeping track of where to require files": a file of mod `B` that is required by mod `A` and itself requires a module gets the
file of mod `A`, if both have one. -/
theorem C94_other_refuted : ¬ ∀ w : World (List Nat), w.mods = [modA, modB] → w.files "/m/B/lib.lua".toList = some (req "util") →
    w.files "/m/B/util.lua".toList = some (say 1) → runData w modA (req "__B__/lib") = some [1] := by
  intro h
  exact absurd (h (world [("/m/B/lib.lua", req "util"), ("/m/B/util.lua", say 1), ("/m/A/util.lua", say 2)] [modA, modB]) rfl rfl rfl) (by decide +kernel)

/-- C94: a file can be run more than once for one stage of a mod: what is loaded is kept by the name as written, not by the file. -/
theorem C94_twice_refuted : ¬ ∀ (w : World (List Nat)) (a b : String), normalize w a.toList = normalize w b.toList → w.files "/m/A/lib/x.lua".toList = some (say 1) →
    runData w modA (req2 a b) = some [1] := by
  intro h
  exact absurd (h (world [("/m/A/lib/x.lua", say 1)] [modA]) "lib.x" "lib/x" (by decide +kernel) rfl) (by decide +kernel)

/-- C94: a module in a folder is not always looked for from the folder of the mod: `require("a.b")` runs `a/a/b.lua` instead of `a/b.lua`. -/
theorem C94_nested_refuted : ¬ ∀ w : World (List Nat), w.files "/m/A/a/b.lua".toList = some (say 1) → runData w modA (req "a.b") = some [1] := by
  intro h
  exact absurd (h (world [("/m/A/a/b.lua", say 1), ("/m/A/a/a/b.lua", say 2)] [modA]) rfl) (by decide +kernel)

/-- C94: files of the mod `base` named by `__base__/…` are not those of the mod at the path of the game that was given, but are looked for in a folder
`factorio-data` of the working directory. -/
theorem C94_base_refuted : ¬ ∀ (w : World (List Nat)) (m : Mod), w.mod "base".toList = some m → m.archive = false → '?' ∉ m.location →
    w.files (m.location ++ "/x.lua".toList) = some (say 1) → runData w modA (req "__base__/x") = some [1] := by
  intro h
  exact absurd (h (world [("/game/base/x.lua", say 1)] [modA, ⟨"base".toList, "/game/base".toList, false, []⟩]) _ rfl rfl (by decide) rfl) (by decide +kernel)

end Lifecycle
end Draftsman
