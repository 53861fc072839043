import Verif.Model.NestTable
import Verif.Model.Slots
/-
C102: leaving out defaults inside nested settings loses nothing.
-/
namespace Draftsman
namespace Nested

/-! ### What is claimed -/

/-- All values of a list. -/
def Vals.All (p : Val → Bool) : Vals → Bool
  | .nil => true
  | .cons v r => p v && r.All p

/-- The names and keys of fields. -/
def Fields.names : Fields → List String
  | .nil => []
  | .cons i _ r => i.name :: i.key :: r.names

/-- The keys of a dictionary. -/
def Obj.keys : Obj → List String
  | .nil => []
  | .cons k _ r => k :: r.keys

mutual
/-- A value that can be in a validated model: fields that may not be `None` are not, and no other key has the name of a field. -/
def fits : Shape → Val → Bool
  | .plain, .raw d => decide (d ≠ .null)
  | .list s, .list l => l.All (fits s)
  | .model keep fs, .model vs x => fitsFields fs vs && x.keys.all (fun k => !fs.names.contains k) && (keep || decide (x = .nil))
  | _, _ => false
/-- The same for the fields of a model. -/
def fitsFields : Fields → Vals → Bool
  | .nil, .nil => true
  | .cons i s r, .cons v vs => ((decide (v = .none) && i.opt) || fits s v) && fitsFields r vs
  | _, _ => false
end

mutual
/-- Nothing in the value is lost: no field is `None` unless that is its default, fields that are never exported have their defaults, and no other key is
`None`. -/
def settled : Shape → Val → Bool
  | .list s, .list l => l.All (settled s)
  | .model _ fs, .model vs x => settledFields fs vs && decide (x.compact = x)
  | _, _ => true
/-- The same for the fields of a model. -/
def settledFields : Fields → Vals → Bool
  | .cons i s r, .cons v vs => (decide (i.dflt = some v) || (!i.hide && decide (v ≠ .none) && settled s v)) && settledFields r vs
  | _, _ => true
end

mutual
/-- What holds of all models in the table: no name or key is that of another field, and defaults are values that fit and are settled. -/
def sound : Shape → Bool
  | .plain => true
  | .list s => sound s
  | .model _ fs => soundFields fs
/-- The same for the fields of a model. -/
def soundFields : Fields → Bool
  | .nil => true
  | .cons i s r => !r.names.contains i.name && !r.names.contains i.key && (match i.dflt with
      | some d => (decide (d = .none) && i.opt) || (fits s d && settled s d)
      | none => !i.hide) && sound s && soundFields r
end

/-- The table is as said. -/
theorem models_sound : models.all (fun m => sound m.2) = true := by decide +kernel

/-! ### What reading makes of what was exported -/

/-- The values of a list, one by one. -/
def Vals.revive (f : Val → Except PyErr Val) : Vals → Except PyErr Vals
  | .nil => .ok .nil
  | .cons v r => match f v with
    | .error e => .error e
    | .ok w => match r.revive f with
      | .error e => .error e
      | .ok ws => .ok (.cons w ws)

mutual
/-- A value after export and reading: what was left out has its default. -/
def revive : Shape → Val → Except PyErr Val
  | .plain, v => .ok v
  | .list s, .list l => match l.revive (revive s) with
    | .error e => .error e
    | .ok ws => .ok (.list ws)
  | .model _ fs, .model vs x => match reviveFields fs vs with
    | .error e => .error e
    | .ok ws => .ok (.model ws x.compact)
  | _, _ => .error .dataFormat
/-- The fields of a model after export and reading. -/
def reviveFields : Fields → Vals → Except PyErr Vals
  | .nil, .nil => .ok .nil
  | .cons i s r, .cons v vs =>
    match (if leftOut i v then (match i.dflt with | some d => .ok d | none => .error .dataFormat) else revive s v) with
    | .error e => .error e
    | .ok w => match reviveFields r vs with
      | .error e => .error e
      | .ok ws => .ok (.cons w ws)
  | _, _ => .error .dataFormat
end

theorem get_compact {k : String} : ∀ {x : Obj}, x.get k = none → x.compact.get k = none
  | .nil, _ => rfl
  | .cons k' d r, h => by
    rw [Obj.get] at h
    by_cases hk : k' = k
    · rw [if_pos hk] at h; cases h
    · rw [if_neg hk] at h
      rw [Obj.compact]
      split
      · exact get_compact h
      · rw [Obj.get, if_neg hk]; exact get_compact h

theorem get_keys {k : String} : ∀ {x : Obj}, k ∉ x.keys → x.get k = none
  | .nil, _ => rfl
  | .cons k' d r, h => by
    simp only [Obj.keys, List.mem_cons, not_or] at h
    rw [Obj.get, if_neg (Ne.symm h.1)]
    exact get_keys h.2

/-- A key that is none of the fields' comes from the rest. -/
theorem get_dumpFields {k : String} : ∀ {fs : Fields} {vs : Vals} {x : Obj}, k ∉ fs.names → (dumpFields fs vs x).get k = x.compact.get k
  | .nil, vs, x, _ => by rw [dumpFields]; intros; contradiction
  | .cons i s r, .nil, x, _ => by rw [dumpFields]; intros; contradiction
  | .cons i s r, .cons v vs, x, h => by
    simp only [Fields.names, List.mem_cons, not_or] at h
    rw [dumpFields]
    split
    · exact get_dumpFields h.2.2
    · rw [Obj.get, if_neg (Ne.symm h.2.1)]
      exact get_dumpFields h.2.2

theorem fetch_congr {i : Info} {o o' : Obj} (h1 : o.get i.key = o'.get i.key) (h2 : o.get i.name = o'.get i.name) : fetch i o = fetch i o' := by
  unfold fetch; rw [h1, h2]

theorem loadFields_congr : ∀ {fs : Fields} {o o' : Obj}, (∀ k ∈ fs.names, o.get k = o'.get k) → loadFields fs o = loadFields fs o'
  | .nil, _, _, _ => by rw [loadFields, loadFields]
  | .cons i s r, o, o', h => by
    rw [loadFields, loadFields, fetch_congr (h i.key (by simp [Fields.names])) (h i.name (by simp [Fields.names])),
      loadFields_congr (fs := r) (fun k hk => h k (by simp [Fields.names, hk]))]

theorem docs_load {s : Shape} (h : ∀ v, fits s v = true → load s (dump s v) = revive s v) : ∀ {l : Vals}, l.All (fits s) = true →
    (l.dump (dump s)).load (load s) = l.revive (revive s)
  | .nil, _ => rfl
  | .cons v r, hl => by
    simp only [Vals.All, Bool.and_eq_true] at hl
    rw [Vals.dump, Docs.load, Vals.revive, h v hl.1, docs_load h hl.2]
    cases revive s v <;> rfl

theorem dump_not_null {s : Shape} {v : Val} (h : fits s v = true) : dump s v ≠ .null := by
  cases s <;> cases v <;> simp_all [fits, dump]

theorem used_names {k : String} {o : Obj} : ∀ {fs : Fields}, used k o fs = true → k ∈ fs.names
  | .nil, h => by simp [used] at h
  | .cons i s r, h => by
    simp only [used, Bool.or_eq_true, decide_eq_true_eq] at h
    rcases h with h | h
    · split at h <;> simp [Fields.names, h]
    · simp [Fields.names, used_names h]

theorem without_none {p : String → Bool} : ∀ {x : Obj}, (∀ k ∈ x.keys, p k = false) → x.without p = x
  | .nil, _ => rfl
  | .cons k d r, h => by
    rw [Obj.without, h k (by simp [Obj.keys])]
    simp only [Bool.false_eq_true, if_false]
    rw [without_none fun k hk => h k (by simp [Obj.keys, hk])]

theorem keys_compact : ∀ {x : Obj} {k : String}, k ∈ x.compact.keys → k ∈ x.keys
  | .nil, _, h => h
  | .cons k' d r, k, h => by
    rw [Obj.compact] at h
    split at h
    · exact List.mem_cons_of_mem _ (keys_compact h)
    · simp only [Obj.keys, List.mem_cons] at h ⊢
      exact h.imp_right keys_compact

/-- The keys that were written for fields are all taken, so the other keys are those that were there. -/
theorem without_dumpFields {p : String → Bool} : ∀ {fs : Fields} {vs : Vals} {x : Obj}, (∀ k ∈ x.keys, p k = false) →
    (∀ k d, (dumpFields fs vs x).get k = some d → k ∈ fs.names → p k = true) →
    (dumpFields fs vs x).without p = x.compact
  | .nil, vs, x, hx, _ => by
    rw [dumpFields]
    · exact without_none fun k hk => hx k (keys_compact hk)
    · intros; contradiction
  | .cons i s r, .nil, x, hx, _ => by
    rw [dumpFields]
    · exact without_none fun k hk => hx k (keys_compact hk)
    · intros; contradiction
  | .cons i s r, .cons v vs, x, hx, hp => by
    rw [dumpFields] at hp ⊢
    by_cases hl : leftOut i v
    · rw [if_pos hl] at hp ⊢
      exact without_dumpFields hx fun k d hd hk => hp k d hd (by simp [Fields.names, hk])
    · rw [if_neg hl] at hp ⊢
      have hi : p i.key = true := hp i.key (dump s v) (by simp [Obj.get]) (by simp [Fields.names])
      rw [Obj.without, hi, if_pos rfl]
      refine without_dumpFields hx fun k d hd hk => ?_
      by_cases e : i.key = k
      · rw [← e]; exact hi
      · exact hp k d (by rw [Obj.get, if_neg e]; exact hd) (by simp [Fields.names, hk])

/-- A key that was written is the key of a field or was another key. -/
theorem used_dumpFields {k : String} {d : Doc} {o : Obj} (ho : (o.get k).isSome = true) : ∀ {fs : Fields} {vs : Vals} {x : Obj}, (dumpFields fs vs x).get k = some d →
    x.get k = none → used k o fs = true
  | .nil, vs, x, h, hx => by
    rw [dumpFields, get_compact hx] at h
    · cases h
    · intros; contradiction
  | .cons i s r, .nil, x, h, hx => by
    rw [dumpFields, get_compact hx] at h
    · cases h
    · intros; contradiction
  | .cons i s r, .cons v vs, x, h, hx => by
    rw [dumpFields] at h
    rw [used]
    by_cases e : i.key = k
    · rw [e, if_pos ho]; simp
    · split at h
      · rw [used_dumpFields ho h hx, Bool.or_true]
      · rw [Obj.get, if_neg e] at h
        rw [used_dumpFields ho h hx, Bool.or_true]

theorem get_mem {k : String} {fs : Fields} {x : Obj} (h : x.keys.all (fun k => !fs.names.contains k) = true) (hk : k ∈ fs.names) : x.get k = none :=
  get_keys fun hx => by simpa [hk] using List.all_eq_true.mp h k hx

mutual
/-- Reading what was exported gives the value with the defaults for what was left out. -/
theorem load_dump : ∀ (s : Shape) (v : Val), sound s = true → fits s v = true → load s (dump s v) = revive s v
  | .plain, .none, _, h => by simp [fits] at h
  | .plain, .raw d, _, h => by
    simp only [fits, decide_eq_true_eq] at h
    rw [dump, load, revive]
    exact h
  | .plain, .list _, _, h => by simp [fits] at h
  | .plain, .model _ _, _, h => by simp [fits] at h
  | .list s, .list l, hs, h => by
    rw [sound] at hs
    rw [fits] at h
    rw [dump, load, revive, docs_load (fun v hv => load_dump s v hs hv) h]
    cases l.revive (revive s) <;> rfl
  | .list _, .none, _, h => by simp [fits] at h
  | .list _, .raw _, _, h => by simp [fits] at h
  | .list _, .model _ _, _, h => by simp [fits] at h
  | .model keep fs, .model vs x, hs, h => by
    rw [sound] at hs
    simp only [fits, Bool.and_eq_true] at h
    have hx : ∀ k ∈ fs.names, x.get k = none := fun k hk => get_mem h.1.2 hk
    have e : (if keep then (dumpFields fs vs x).without (fun k => used k (dumpFields fs vs x) fs) else .nil) = x.compact := by
      cases keep with
      | true =>
        rw [if_pos rfl]
        refine without_dumpFields (fun k hk => ?_) fun k d hd hk => used_dumpFields (by rw [hd]; rfl) hd (hx k hk)
        refine Bool.eq_false_iff.mpr fun hu => ?_
        simpa [used_names hu] using List.all_eq_true.mp h.1.2 k hk
      | false =>
        have : x = .nil := by simpa using h.2
        rw [this]; rfl
    rw [dump, load, revive, loadFields_dump fs vs x hs h.1.1 hx, e]
    cases reviveFields fs vs <;> rfl
  | .model _ _, .none, _, h => by simp [fits] at h
  | .model _ _, .raw _, _, h => by simp [fits] at h
  | .model _ _, .list _, _, h => by simp [fits] at h
/-- The same for the fields of a model. -/
theorem loadFields_dump : ∀ (fs : Fields) (vs : Vals) (x : Obj), soundFields fs = true → fitsFields fs vs = true → (∀ k ∈ fs.names, x.get k = none) →
    loadFields fs (dumpFields fs vs x) = reviveFields fs vs
  | .nil, .nil, _, _, _, _ => by rw [loadFields, reviveFields]
  | .nil, .cons _ _, _, _, h, _ => by simp [fitsFields] at h
  | .cons _ _ _, .nil, _, _, h, _ => by simp [fitsFields] at h
  | .cons i s r, .cons v vs, x, hs, h, hx => by
    simp only [soundFields, Bool.and_eq_true, Bool.not_eq_true', List.contains_eq_mem, decide_eq_false_iff_not] at hs
    simp only [fitsFields, Bool.and_eq_true, Bool.or_eq_true, decide_eq_true_eq] at h
    have hk := hx i.key (by simp [Fields.names])
    have hn := hx i.name (by simp [Fields.names])
    have ih := loadFields_dump r vs x hs.2 h.2 fun k hk => hx k (by simp [Fields.names, hk])
    rw [loadFields, reviveFields, dumpFields]
    by_cases hl : leftOut i v = true
    · rw [if_pos hl, if_pos hl, fetch, get_dumpFields hs.1.1.1.2, get_compact hk, get_dumpFields hs.1.1.1.1, get_compact hn, ih, loadField]
      rfl
    · rw [if_neg hl, if_neg hl, fetch, Obj.get, if_pos rfl]
      have hv : fits s v = true := by
        rcases h.1 with h1 | h1
        · exact absurd (by simp [leftOut, h1.1]) hl
        · exact h1
      rw [loadField, load_dump s v hs.1.2 hv, loadFields_congr (o' := dumpFields r vs x), ih]
      · cases revive s v <;> rfl
      · intro k hk'
        rw [Obj.get, if_neg]
        rintro rfl
        exact hs.1.1.1.2 hk'
      · exact dump_not_null hv
end

/-! ### Which values come back as they were -/

theorem vals_revive_same {s : Shape} (h : ∀ v, fits s v = true → (revive s v = .ok v ↔ settled s v = true)) : ∀ {l : Vals}, l.All (fits s) = true →
    (l.revive (revive s) = .ok l ↔ l.All (settled s) = true)
  | .nil, _ => by simp [Vals.revive, Vals.All]
  | .cons v r, hl => by
    simp only [Vals.All, Bool.and_eq_true] at hl ⊢
    have h1 := h v hl.1
    have h2 := vals_revive_same h hl.2
    rw [Vals.revive, ← h1, ← h2]
    cases revive s v <;> cases r.revive (revive s) <;> simp

mutual
theorem revive_same : ∀ (s : Shape) (v : Val), fits s v = true → (revive s v = .ok v ↔ settled s v = true)
  | .plain, v, _ => by simp [revive, settled]
  | .list s, .list l, h => by
    rw [fits] at h
    rw [settled, ← vals_revive_same (fun v hv => revive_same s v hv) h, revive]
    cases l.revive (revive s) <;> simp
  | .list _, .none, h => by simp [fits] at h
  | .list _, .raw _, h => by simp [fits] at h
  | .list _, .model _ _, h => by simp [fits] at h
  | .model keep fs, .model vs x, h => by
    simp only [fits, Bool.and_eq_true] at h
    rw [settled, Bool.and_eq_true, ← reviveFields_same fs vs h.1.1, revive, decide_eq_true_eq]
    cases reviveFields fs vs <;> simp
  | .model _ _, .none, h => by simp [fits] at h
  | .model _ _, .raw _, h => by simp [fits] at h
  | .model _ _, .list _, h => by simp [fits] at h
theorem reviveFields_same : ∀ (fs : Fields) (vs : Vals), fitsFields fs vs = true → (reviveFields fs vs = .ok vs ↔ settledFields fs vs = true)
  | .nil, .nil, _ => by simp [reviveFields, settledFields]
  | .nil, .cons _ _, h => by simp [fitsFields] at h
  | .cons _ _ _, .nil, h => by simp [fitsFields] at h
  | .cons i s r, .cons v vs, h => by
    simp only [fitsFields, Bool.and_eq_true, Bool.or_eq_true, decide_eq_true_eq] at h
    have ih := reviveFields_same r vs h.2
    rw [settledFields, Bool.and_eq_true, ← ih, reviveFields]
    by_cases hl : leftOut i v = true
    · rw [if_pos hl]
      have : (decide (i.dflt = some v) || (!i.hide && decide (v ≠ .none) && settled s v)) = decide (i.dflt = some v) := by
        simp only [leftOut, Bool.or_eq_true, decide_eq_true_eq] at hl
        rcases hl with (hl | hl) | hl <;> simp [hl]
      rw [this]
      cases i.dflt with
      | none => simp
      | some d => cases reviveFields r vs <;> simp
    · rw [if_neg hl]
      have hv : fits s v = true := by
        rcases h.1 with h1 | h1
        · exact absurd (by simp [leftOut, h1.1]) hl
        · exact h1
      simp only [leftOut, Bool.or_eq_true, decide_eq_true_eq, not_or] at hl
      have : (decide (i.dflt = some v) || (!i.hide && decide (v ≠ .none) && settled s v)) = settled s v := by simp [hl]
      rw [this, ← revive_same s v hv]
      cases revive s v <;> cases reviveFields r vs <;> simp
end

/-- **C102**: a model comes back as it was from being exported and read exactly if no field is `None` that has another default, no field that is never exported
differs from its default, and no other key is `None`, at all depths. -/
theorem C102_back_partial (s : Shape) (v : Val) (hs : sound s = true) (hv : fits s v = true) : load s (dump s v) = .ok v ↔ settled s v = true := by
  rw [load_dump s v hs hv, revive_same s v hv]

/-! ### Which values cannot be read -/

/-- Any value of a list. -/
def Vals.Any (p : Val → Bool) : Vals → Bool
  | .nil => false
  | .cons v r => p v || r.Any p

mutual
/-- A field without default is `None` somewhere in what is exported. -/
def lacks : Shape → Val → Bool
  | .list s, .list l => l.Any (lacks s)
  | .model _ fs, .model vs _ => lacksField fs vs
  | _, _ => false
/-- The same for the fields of a model. -/
def lacksField : Fields → Vals → Bool
  | .cons i s r, .cons v vs => (decide (v = .none) && i.dflt.isNone) || (decide (i.dflt ≠ some v) && !i.hide && lacks s v) || lacksField r vs
  | _, _ => false
end

theorem vals_revive_lacks {s : Shape} (h : ∀ v, fits s v = true → if lacks s v then revive s v = .error .dataFormat else ∃ w, revive s v = .ok w) :
    ∀ {l : Vals}, l.All (fits s) = true → if l.Any (lacks s) then l.revive (revive s) = .error .dataFormat else ∃ w, l.revive (revive s) = .ok w
  | .nil, _ => by simp [Vals.revive, Vals.Any]
  | .cons v r, hl => by
    simp only [Vals.All, Bool.and_eq_true] at hl
    have h1 := h v hl.1
    have h2 := vals_revive_lacks h hl.2
    rw [Vals.revive, Vals.Any]
    cases e1 : lacks s v <;> cases e2 : r.Any (lacks s) <;> simp only [e1, e2, if_true, Bool.false_eq_true, if_false] at h1 h2 <;>
      simp only [Bool.or_true, Bool.or_false, if_true, Bool.false_eq_true, if_false]
    · obtain ⟨w, hw⟩ := h1; obtain ⟨ws, hws⟩ := h2
      exact ⟨_, by rw [hw, hws]⟩
    · obtain ⟨w, hw⟩ := h1
      rw [hw, h2]
    · rw [h1]
    · rw [h1]

mutual
theorem revive_lacks : ∀ (s : Shape) (v : Val), sound s = true → fits s v = true → if lacks s v then revive s v = .error .dataFormat else ∃ w, revive s v = .ok w
  | .plain, v, _, _ => by simp [revive, lacks]
  | .list s, .list l, hs, h => by
    rw [sound] at hs
    rw [fits] at h
    have := vals_revive_lacks (fun v hv => revive_lacks s v hs hv) h
    rw [lacks, revive]
    split <;> rename_i e <;> simp only [e, if_true, Bool.false_eq_true, if_false] at this
    · rw [this]
    · obtain ⟨w, hw⟩ := this
      exact ⟨_, by rw [hw]⟩
  | .list _, .none, _, h => by simp [fits] at h
  | .list _, .raw _, _, h => by simp [fits] at h
  | .list _, .model _ _, _, h => by simp [fits] at h
  | .model keep fs, .model vs x, hs, h => by
    rw [sound] at hs
    simp only [fits, Bool.and_eq_true] at h
    have := reviveFields_lacks fs vs hs h.1.1
    rw [lacks, revive]
    split <;> rename_i e <;> simp only [e, if_true, Bool.false_eq_true, if_false] at this
    · rw [this]
    · obtain ⟨w, hw⟩ := this
      exact ⟨_, by rw [hw]⟩
  | .model _ _, .none, _, h => by simp [fits] at h
  | .model _ _, .raw _, _, h => by simp [fits] at h
  | .model _ _, .list _, _, h => by simp [fits] at h
theorem reviveFields_lacks : ∀ (fs : Fields) (vs : Vals), soundFields fs = true → fitsFields fs vs = true →
    if lacksField fs vs then reviveFields fs vs = .error .dataFormat else ∃ w, reviveFields fs vs = .ok w
  | .nil, .nil, _, _ => by simp [reviveFields, lacksField]
  | .nil, .cons _ _, _, h => by simp [fitsFields] at h
  | .cons _ _ _, .nil, _, h => by simp [fitsFields] at h
  | .cons i s r, .cons v vs, hs, h => by
    simp only [soundFields, Bool.and_eq_true] at hs
    simp only [fitsFields, Bool.and_eq_true, Bool.or_eq_true, decide_eq_true_eq] at h
    have ih := reviveFields_lacks r vs hs.2 h.2
    have key : if (decide (v = .none) && i.dflt.isNone) || (decide (i.dflt ≠ some v) && !i.hide && lacks s v) then
        (if leftOut i v then (match i.dflt with | some d => .ok d | none => .error .dataFormat) else revive s v) = .error .dataFormat
        else ∃ w, (if leftOut i v then (match i.dflt with | some d => Except.ok d | none => .error .dataFormat) else revive s v) = .ok w := by
      by_cases hl : leftOut i v = true
      · simp only [if_pos hl]
        cases hd : i.dflt with
        | none =>
          have hh : i.hide = false := by simpa [hd] using hs.1.1.2
          have : v = .none := by simpa [leftOut, hh, hd] using hl
          simp [this]
        | some d =>
          have hn : lacks s .none = false := by cases s <;> rfl
          have : (decide (some d ≠ some v) && !i.hide && lacks s v) = false := by
            simp only [leftOut, hd, Bool.or_eq_true, decide_eq_true_eq] at hl
            rcases hl with (hl | hl) | hl <;> simp [hl, hn]
          rw [this]; simp
      · simp only [if_neg hl]
        have hv : fits s v = true := by
          rcases h.1 with h1 | h1
          · exact absurd (by simp [leftOut, h1.1]) hl
          · exact h1
        simp only [leftOut, Bool.or_eq_true, decide_eq_true_eq, not_or] at hl
        have := revive_lacks s v hs.1.2 hv
        simpa [hl] using this
    rw [lacksField, reviveFields]
    generalize (if leftOut i v then (match i.dflt with | some d => Except.ok d | none => .error .dataFormat) else revive s v) = m at key ⊢
    cases e1 : (decide (v = .none) && i.dflt.isNone) || (decide (i.dflt ≠ some v) && !i.hide && lacks s v) <;> cases e2 : lacksField r vs <;>
      simp only [e1, e2, if_true, Bool.false_eq_true, if_false] at key ih <;>
      simp only [Bool.or_true, Bool.or_false, if_true, Bool.false_eq_true, if_false]
    · obtain ⟨w, hw⟩ := key; obtain ⟨ws, hws⟩ := ih
      exact ⟨_, by rw [hw, hws]⟩
    · obtain ⟨w, hw⟩ := key
      rw [hw, ih]
    · rw [key]
    · rw [key]
end

/-- **C102**: what is exported cannot be read exactly if a field without default is `None` in it. -/
theorem C102_fails (s : Shape) (v : Val) (hs : sound s = true) (hv : fits s v = true) :
    (lacks s v = true → load s (dump s v) = .error .dataFormat) ∧ (lacks s v = false → ∃ w, load s (dump s v) = .ok w) := by
  have := revive_lacks s v hs hv
  rw [load_dump s v hs hv]
  cases h : lacks s v <;> simp only [h, if_true, Bool.false_eq_true, if_false] at this <;> simp [this]

/-! ### Values that are given survive -/

/-- A step towards a value: a field, an item of a list, or another key. -/
inductive Step where
  | field (name : String)
  | item (n : Nat)
  | key (k : String)

/-- An item of a list. -/
def Vals.nth : Vals → Nat → Option Val
  | .nil, _ => none
  | .cons v _, 0 => some v
  | .cons _ r, n + 1 => r.nth n

mutual
/-- The value of a setting that is exported. -/
def setting : Shape → Val → List Step → Option Doc
  | .plain, .raw d, [] => some d
  | .list s, .list l, .item n :: p => match l.nth n with
    | some v => setting s v p
    | none => none
  | .model _ fs, .model vs _, .field n :: p => settingOf fs vs n p
  | .model _ _, .model _ x, [.key k] => x.get k
  | _, _, _ => none
/-- The same from a field on. -/
def settingOf : Fields → Vals → String → List Step → Option Doc
  | .cons i s r, .cons v vs, n, p => if i.name = n then (if i.hide then none else setting s v p) else settingOf r vs n p
  | _, _, _, _ => none
end

theorem get_compact_some {k : String} {d : Doc} (hd : d ≠ .null) : ∀ {x : Obj}, x.get k = some d → x.compact.get k = some d
  | .nil, h => h
  | .cons k' e r, h => by
    rw [Obj.get] at h
    rw [Obj.compact]
    by_cases hk : k' = k
    · rw [if_pos hk] at h
      cases h
      rw [if_neg hd, Obj.get, if_pos hk]
    · rw [if_neg hk] at h
      split
      · exact get_compact_some hd h
      · rw [Obj.get, if_neg hk]; exact get_compact_some hd h

theorem nth_revive {f : Val → Except PyErr Val} {v : Val} : ∀ {l ws : Vals} {n : Nat}, l.revive f = .ok ws → l.nth n = some v → ∃ w, f v = .ok w ∧ ws.nth n = some w
  | .nil, _, _, _, h => by simp [Vals.nth] at h
  | .cons u r, ws, n, hr, h => by
    rw [Vals.revive] at hr
    cases e : f u with
    | error _ => rw [e] at hr; cases hr
    | ok w =>
      rw [e] at hr
      cases e2 : r.revive f with
      | error _ => rw [e2] at hr; cases hr
      | ok ws' =>
        rw [e2] at hr
        cases hr
        cases n with
        | zero => simp only [Vals.nth, Option.some.injEq] at h; subst h; exact ⟨w, e, rfl⟩
        | succ n => simp only [Vals.nth] at h ⊢; exact nth_revive e2 h

mutual
theorem setting_revive {d : Doc} (hd : d ≠ .null) : ∀ (s : Shape) (v w : Val) (p : List Step), revive s v = .ok w → setting s v p = some d → setting s w p = some d
  | .plain, v, w, p, h, hp => by rw [revive] at h; cases h; exact hp
  | .list s, .none, _, _, h, _ => by simp [revive] at h
  | .list s, .raw _, _, _, h, _ => by simp [revive] at h
  | .list s, .model _ _, _, _, h, _ => by simp [revive] at h
  | .list s, .list l, w, p, h, hp => by
    rw [revive] at h
    cases e : l.revive (revive s) with
    | error _ => rw [e] at h; cases h
    | ok ws =>
      rw [e] at h
      cases h
      cases p with
      | nil => simp [setting] at hp
      | cons t p =>
        cases t with
        | field _ => simp [setting] at hp
        | key _ => simp [setting] at hp
        | item n =>
          rw [setting] at hp ⊢
          cases e2 : l.nth n with
          | none => rw [e2] at hp; cases hp
          | some v =>
            rw [e2] at hp
            obtain ⟨u, hu, hn⟩ := nth_revive e e2
            rw [hn]
            exact setting_revive hd s v u p hu hp
  | .model _ _, .none, _, _, h, _ => by simp [revive] at h
  | .model _ _, .raw _, _, _, h, _ => by simp [revive] at h
  | .model _ _, .list _, _, _, h, _ => by simp [revive] at h
  | .model keep fs, .model vs x, w, p, h, hp => by
    rw [revive] at h
    cases e : reviveFields fs vs with
    | error _ => rw [e] at h; cases h
    | ok ws =>
      rw [e] at h
      cases h
      cases p with
      | nil => simp [setting] at hp
      | cons t p =>
        cases t with
        | field n =>
          rw [setting] at hp ⊢
          exact settingOf_revive hd fs vs ws n p e hp
        | item _ => simp [setting] at hp
        | key k =>
          cases p with
          | nil => rw [setting] at hp ⊢; exact get_compact_some hd hp
          | cons _ _ => simp [setting] at hp
theorem settingOf_revive {d : Doc} (hd : d ≠ .null) : ∀ (fs : Fields) (vs ws : Vals) (n : String) (p : List Step), reviveFields fs vs = .ok ws →
    settingOf fs vs n p = some d → settingOf fs ws n p = some d
  | .nil, vs, ws, n, p, h, hp => by simp [settingOf] at hp
  | .cons _ _ _, .nil, ws, n, p, h, hp => by simp [settingOf] at hp
  | .cons i s r, .cons v vs, ws, n, p, h, hp => by
    rw [reviveFields] at h
    rw [settingOf] at hp
    cases e : (if leftOut i v then (match i.dflt with | some d => Except.ok d | none => .error .dataFormat) else revive s v) with
    | error _ => rw [e] at h; cases h
    | ok w =>
      rw [e] at h
      cases e2 : reviveFields r vs with
      | error _ => rw [e2] at h; cases h
      | ok ws' =>
        rw [e2] at h
        cases h
        rw [settingOf]
        by_cases hn : i.name = n
        · rw [if_pos hn] at hp ⊢
          cases hh : i.hide with
          | true => simp [hh] at hp
          | false =>
            simp only [hh, Bool.false_eq_true, if_false] at hp ⊢
            by_cases hl : leftOut i v = true
            · rw [if_pos hl] at e
              simp only [leftOut, hh, Bool.false_or, Bool.or_eq_true, decide_eq_true_eq] at hl
              rcases hl with hl | hl
              · rw [hl] at hp
                cases s <;> simp [setting] at hp
              · rw [hl] at e
                cases e
                exact hp
            · rw [if_neg hl] at e
              exact setting_revive hd s v w p e hp
        · rw [if_neg hn] at hp ⊢
          exact settingOf_revive hd r vs ws' n p e2 hp
end

/-- **C102**: every setting that has a value other than `None` and is not in a field that is never exported has the same value after exporting and reading, at
all depths, whatever else is lost. -/
theorem C102_kept (s : Shape) (v w : Val) (p : List Step) (d : Doc) (hs : sound s = true) (hv : fits s v = true) (h : load s (dump s v) = .ok w)
    (hp : setting s v p = some d) (hd : d ≠ .null) : setting s w p = some d := by
  rw [load_dump s v hs hv] at h
  exact setting_revive hd s v w p h hp

/-! ### Exporting and reading again changes nothing any more -/

theorem compact_compact : ∀ (x : Obj), x.compact.compact = x.compact
  | .nil => rfl
  | .cons k d r => by
    rw [Obj.compact]
    split
    · exact compact_compact r
    · rename_i h
      rw [Obj.compact, if_neg h, compact_compact r]

theorem vals_settles {s : Shape} (h : ∀ v w, fits s v = true → revive s v = .ok w → fits s w = true ∧ settled s w = true) : ∀ {l ws : Vals},
    l.All (fits s) = true → l.revive (revive s) = .ok ws → ws.All (fits s) = true ∧ ws.All (settled s) = true
  | .nil, ws, _, hr => by rw [Vals.revive] at hr; cases hr; exact ⟨rfl, rfl⟩
  | .cons u r, ws, hl, hr => by
    simp only [Vals.All, Bool.and_eq_true] at hl
    rw [Vals.revive] at hr
    cases e : revive s u with
    | error _ => rw [e] at hr; cases hr
    | ok w =>
      rw [e] at hr
      cases e2 : r.revive (revive s) with
      | error _ => rw [e2] at hr; cases hr
      | ok ws' =>
        rw [e2] at hr
        cases hr
        have h1 := h u w hl.1 e
        have h2 := vals_settles h hl.2 e2
        simp [Vals.All, h1, h2]

mutual
theorem settles : ∀ (s : Shape) (v w : Val), sound s = true → fits s v = true → revive s v = .ok w → fits s w = true ∧ settled s w = true
  | .plain, v, w, _, hv, h => by rw [revive] at h; cases h; exact ⟨hv, by simp [settled]⟩
  | .list s, .none, _, _, _, h => by simp [revive] at h
  | .list s, .raw _, _, _, _, h => by simp [revive] at h
  | .list s, .model _ _, _, _, _, h => by simp [revive] at h
  | .list s, .list l, w, hs, hv, h => by
    rw [sound] at hs
    rw [fits] at hv
    rw [revive] at h
    cases e : l.revive (revive s) with
    | error _ => rw [e] at h; cases h
    | ok ws =>
      rw [e] at h
      cases h
      rw [fits, settled]
      exact vals_settles (fun v w hv h => settles s v w hs hv h) hv e
  | .model _ _, .none, _, _, _, h => by simp [revive] at h
  | .model _ _, .raw _, _, _, _, h => by simp [revive] at h
  | .model _ _, .list _, _, _, _, h => by simp [revive] at h
  | .model keep fs, .model vs x, w, hs, hv, h => by
    rw [sound] at hs
    simp only [fits, Bool.and_eq_true] at hv
    rw [revive] at h
    cases e : reviveFields fs vs with
    | error _ => rw [e] at h; cases h
    | ok ws =>
      rw [e] at h
      cases h
      have ih := settlesFields fs vs ws hs hv.1.1 e
      refine ⟨?_, by rw [settled, ih.2, compact_compact]; simp⟩
      rw [fits, ih.1, Bool.true_and, Bool.and_eq_true]
      constructor
      · exact List.all_eq_true.mpr fun k hk => List.all_eq_true.mp hv.1.2 k (keys_compact hk)
      · cases keep with
        | true => rfl
        | false =>
          have : x = .nil := by simpa using hv.2
          rw [this]; rfl
theorem settlesFields : ∀ (fs : Fields) (vs ws : Vals), soundFields fs = true → fitsFields fs vs = true → reviveFields fs vs = .ok ws →
    fitsFields fs ws = true ∧ settledFields fs ws = true
  | .nil, .nil, ws, _, _, h => by rw [reviveFields] at h; cases h; simp [fitsFields, settledFields]
  | .nil, .cons _ _, ws, _, h, _ => by simp [fitsFields] at h
  | .cons _ _ _, .nil, ws, _, h, _ => by simp [fitsFields] at h
  | .cons i s r, .cons v vs, ws, hs, hv, h => by
    simp only [soundFields, Bool.and_eq_true] at hs
    simp only [fitsFields, Bool.and_eq_true, Bool.or_eq_true, decide_eq_true_eq] at hv
    rw [reviveFields] at h
    cases e : (if leftOut i v then (match i.dflt with | some d => Except.ok d | none => .error .dataFormat) else revive s v) with
    | error _ => rw [e] at h; cases h
    | ok w =>
      rw [e] at h
      cases e2 : reviveFields r vs with
      | error _ => rw [e2] at h; cases h
      | ok ws' =>
        rw [e2] at h
        cases h
        have ih := settlesFields r vs ws' hs.2 hv.2 e2
        rw [fitsFields, settledFields, ih.1, ih.2, Bool.and_true, Bool.and_true]
        by_cases hl : leftOut i v = true
        · rw [if_pos hl] at e
          cases hd : i.dflt with
          | none => rw [hd] at e; cases e
          | some d =>
            rw [hd] at e
            cases e
            have := hs.1.1.2
            simp only [hd, Bool.or_eq_true, Bool.and_eq_true, decide_eq_true_eq] at this
            rcases this with this | this <;> simp [this]
        · rw [if_neg hl] at e
          have hf : fits s v = true := by
            rcases hv.1 with h1 | h1
            · exact absurd (by simp [leftOut, h1.1]) hl
            · exact h1
          have := settles s v w hs.1.2 hf e
          simp only [leftOut, Bool.or_eq_true, decide_eq_true_eq, not_or] at hl
          have hn : w ≠ .none := by
            rintro rfl
            cases s <;> simp [fits] at this
          simp [this, hl, hn]
end

/-- **C102**: what was read comes back as it was from being exported and read another time. -/
theorem C102_again (s : Shape) (v w : Val) (hs : sound s = true) (hv : fits s v = true) (h : load s (dump s v) = .ok w) : load s (dump s w) = .ok w := by
  rw [load_dump s v hs hv] at h
  have := settles s v w hs hv h
  exact (C102_back_partial s w hs this.1).mpr this.2

/-! ### Fields can be given under their names -/

/-- The declarations of fields. -/
def Fields.infos : Fields → List Info
  | .nil => []
  | .cons i _ r => i :: r.infos

/-- The key a field with this name is exported under; other keys are what they are. -/
def Fields.toKey : Fields → String → String
  | .nil, k => k
  | .cons i _ r, k => if k = i.name then i.key else r.toKey k

/-- A dictionary with other keys. -/
def Obj.rename (f : String → String) : Obj → Obj
  | .nil => .nil
  | .cons k d r => .cons (f k) d (r.rename f)

theorem infos_names : ∀ {fs : Fields} {i : Info}, i ∈ fs.infos → i.name ∈ fs.names ∧ i.key ∈ fs.names
  | .nil, _, h => by simp [Fields.infos] at h
  | .cons j _ r, i, h => by
    simp only [Fields.infos, List.mem_cons] at h
    simp only [Fields.names, List.mem_cons]
    rcases h with rfl | h
    · simp
    · simp [infos_names h]

theorem toKey_other {k : String} : ∀ {fs : Fields}, k ∉ fs.names → fs.toKey k = k
  | .nil, _ => rfl
  | .cons i _ r, h => by
    simp only [Fields.names, List.mem_cons, not_or] at h
    rw [Fields.toKey, if_neg h.1, toKey_other h.2.2]

theorem toKey_cases {k : String} : ∀ {fs : Fields}, soundFields fs = true → k ∈ fs.names → ∃ i ∈ fs.infos, (k = i.name ∨ k = i.key) ∧ fs.toKey k = i.key
  | .nil, _, h => by simp [Fields.names] at h
  | .cons i _ r, hs, h => by
    simp only [soundFields, Bool.and_eq_true, Bool.not_eq_true', List.contains_eq_mem, decide_eq_false_iff_not] at hs
    simp only [Fields.infos, Fields.toKey, List.mem_cons]
    by_cases h1 : k = i.name
    · exact ⟨i, .inl rfl, .inl h1, if_pos h1⟩
    · rw [if_neg h1]
      by_cases h2 : k = i.key
      · exact ⟨i, .inl rfl, .inr h2, by rw [h2]; exact toKey_other hs.1.1.1.2⟩
      · have : k ∈ r.names := by simpa [Fields.names, h1, h2] using h
        obtain ⟨j, hj, h3, h4⟩ := toKey_cases hs.2 this
        exact ⟨j, .inr hj, h3, h4⟩

/-- No two fields have a name or key in common. -/
theorem infos_apart : ∀ {fs : Fields}, soundFields fs = true → ∀ {i j : Info}, i ∈ fs.infos → j ∈ fs.infos → ∀ k, (k = i.name ∨ k = i.key) → (k = j.name ∨ k = j.key) → i.key = j.key
  | .nil, _, _, _, h, _, _, _, _ => by simp [Fields.infos] at h
  | .cons l _ r, hs, i, j, hi, hj, k, h1, h2 => by
    simp only [soundFields, Bool.and_eq_true, Bool.not_eq_true', List.contains_eq_mem, decide_eq_false_iff_not] at hs
    simp only [Fields.infos, List.mem_cons] at hi hj
    rcases hi with rfl | hi <;> rcases hj with rfl | hj
    · rfl
    · exfalso
      have := infos_names hj
      rcases h1 with rfl | rfl <;> rcases h2 with h2 | h2
      · exact hs.1.1.1.1 (h2 ▸ this.1)
      · exact hs.1.1.1.1 (h2 ▸ this.2)
      · exact hs.1.1.1.2 (h2 ▸ this.1)
      · exact hs.1.1.1.2 (h2 ▸ this.2)
    · exfalso
      have := infos_names hi
      rcases h2 with rfl | rfl <;> rcases h1 with h1 | h1
      · exact hs.1.1.1.1 (h1 ▸ this.1)
      · exact hs.1.1.1.1 (h1 ▸ this.2)
      · exact hs.1.1.1.2 (h1 ▸ this.1)
      · exact hs.1.1.1.2 (h1 ▸ this.2)
    · exact infos_apart hs.2 hi hj k h1 h2

theorem toKey_info {fs : Fields} (hs : soundFields fs = true) {i : Info} (hi : i ∈ fs.infos) (k : String) : fs.toKey k = i.key ↔ k = i.name ∨ k = i.key := by
  by_cases hk : k ∈ fs.names
  · obtain ⟨j, hj, h1, h2⟩ := toKey_cases hs hk
    rw [h2]
    constructor
    · intro h
      have e : i.key = j.key := h.symm
      rcases h1 with rfl | rfl
      · -- `k` is the name of `j`, whose key is that of `i`
        exact infos_name hs hi hj e
      · exact .inr h
    · intro h
      exact (infos_apart hs hi hj k h h1).symm
  · rw [toKey_other hk]
    constructor
    · exact .inr
    · rintro (rfl | h)
      · exact absurd (infos_names hi).1 hk
      · exact h
where
  infos_name : ∀ {fs : Fields}, soundFields fs = true → ∀ {i j : Info}, i ∈ fs.infos → j ∈ fs.infos → i.key = j.key → j.name = i.name ∨ j.name = i.key
    | .nil, _, _, _, h, _, _ => by simp [Fields.infos] at h
    | .cons l _ r, hs, i, j, hi, hj, e => by
      simp only [soundFields, Bool.and_eq_true, Bool.not_eq_true', List.contains_eq_mem, decide_eq_false_iff_not] at hs
      simp only [Fields.infos, List.mem_cons] at hi hj
      rcases hi with rfl | hi <;> rcases hj with rfl | hj
      · exact .inl rfl
      · exact absurd (e ▸ (infos_names hj).2) hs.1.1.1.2
      · exact absurd (e ▸ (infos_names hi).2) hs.1.1.1.2
      · exact infos_name hs.2 hi hj e

theorem toKey_name {fs : Fields} (hs : soundFields fs = true) {i : Info} (hi : i ∈ fs.infos) {k : String} (h : fs.toKey k = i.name) : i.name = i.key := by
  by_cases hk : k ∈ fs.names
  · obtain ⟨j, hj, -, h2⟩ := toKey_cases hs hk
    rw [h2] at h
    rw [← h]
    exact (infos_apart hs hi hj i.name (.inl rfl) (.inr h.symm)).symm
  · rw [toKey_other hk] at h
    exact absurd (h ▸ (infos_names hi).1) hk

theorem get_rename {f : String → String} {a b c : String} (h : ∀ k, f k = c ↔ k = a ∨ k = b) : ∀ {o : Obj},
    (∀ k ∈ o.keys, ∀ l ∈ o.keys, f k = f l → k = l) → (o.rename f).get c = match o.get b with | some d => some d | none => o.get a
  | .nil, _ => rfl
  | .cons k d r, ho => by
    have ih := get_rename h (o := r) fun k hk l hl => ho k (by simp [Obj.keys, hk]) l (by simp [Obj.keys, hl])
    rw [Obj.rename, Obj.get, Obj.get, Obj.get]
    by_cases hb : k = b
    · rw [if_pos ((h k).mpr (.inr hb)), if_pos hb]
    · rw [if_neg hb]
      by_cases ha : k = a
      · rw [if_pos ((h k).mpr (.inl ha)), if_pos ha]
        have : r.get b = none := get_keys fun hr => hb (ho k (by simp [Obj.keys]) b (by simp [Obj.keys, hr])
          (((h k).mpr (.inl ha)).trans ((h b).mpr (.inr rfl)).symm))
        rw [this]
      · rw [if_neg (by rw [h]; simp [ha, hb]), if_neg ha]
        exact ih

theorem get_rename_none {f : String → String} {c : String} : ∀ {o : Obj}, (∀ k ∈ o.keys, f k ≠ c) → (o.rename f).get c = none
  | .nil, _ => rfl
  | .cons k d r, h => by
    rw [Obj.rename, Obj.get, if_neg (h k (by simp [Obj.keys]))]
    exact get_rename_none fun k hk => h k (by simp [Obj.keys, hk])

theorem loadFields_fetch {o o' : Obj} : ∀ {fs : Fields}, (∀ i ∈ fs.infos, fetch i o = fetch i o') → loadFields fs o = loadFields fs o'
  | .nil, _ => by rw [loadFields, loadFields]
  | .cons i s r, h => by
    rw [loadFields, loadFields, h i (by simp [Fields.infos]), loadFields_fetch fun j hj => h j (by simp [Fields.infos, hj])]

theorem used_infos {k : String} {o : Obj} : ∀ {fs : Fields}, used k o fs = true ↔ ∃ i ∈ fs.infos, k = if (o.get i.key).isSome then i.key else i.name
  | .nil => by simp [used, Fields.infos]
  | .cons i s r => by simp only [used, Bool.or_eq_true, decide_eq_true_eq, used_infos (fs := r), Fields.infos, List.mem_cons, exists_eq_or_imp]

theorem without_rename {f : String → String} {p q : String → Bool} : ∀ {o : Obj}, (∀ k ∈ o.keys, p (f k) = q k ∧ (q k = false → f k = k)) →
    (o.rename f).without p = o.without q
  | .nil, _ => rfl
  | .cons k d r, h => by
    have ih := without_rename (o := r) fun k hk => h k (by simp [Obj.keys, hk])
    have hk := h k (by simp [Obj.keys])
    rw [Obj.rename, Obj.without, Obj.without, hk.1, ih]
    cases e : q k with
    | true => rfl
    | false => rw [hk.2 e]

/-- **C102**: in what is read a field can be given under its name instead of the key it is exported under, e.g. `from_` instead of `from`, as long as it is not given
under both. -/
theorem C102_names (keep : Bool) (fs : Fields) (o : Obj) (hs : soundFields fs = true) (ho : ∀ k ∈ o.keys, ∀ l ∈ o.keys, fs.toKey k = fs.toKey l → k = l) :
    load (.model keep fs) (.obj (o.rename fs.toKey)) = load (.model keep fs) (.obj o) := by
  have hf : ∀ i ∈ fs.infos, fetch i (o.rename fs.toKey) = fetch i o ∧ (o.rename fs.toKey).get i.key = fetch i o := by
    intro i hi
    have h1 := get_rename (toKey_info hs hi) ho
    have h1' : (o.rename fs.toKey).get i.key = fetch i o := h1
    refine ⟨?_, h1'⟩
    rw [fetch, h1']
    cases hd : fetch i o with
    | some d => rfl
    | none =>
      show (o.rename fs.toKey).get i.name = none
      by_cases hn : i.name = i.key
      · rw [hn, h1', hd]
      · exact get_rename_none fun k _ h => hn (toKey_name hs hi h)
  have hw : (o.rename fs.toKey).without (fun k => used k (o.rename fs.toKey) fs) = o.without (fun k => used k o fs) := by
    apply without_rename
    intro k hk
    by_cases hn : k ∈ fs.names
    · obtain ⟨i, hi, h1, h2⟩ := toKey_cases hs hn
      have hg : (o.get k).isSome = true := get_isSome hk
      have hu : used k o fs = true := by
        refine used_infos.mpr ⟨i, hi, ?_⟩
        by_cases hkey : k = i.key
        · rw [← hkey, if_pos hg]
        · have hname : k = i.name := h1.resolve_right hkey
          have : o.get i.key = none := get_keys fun hx => hkey (ho k hk i.key hx (h2.trans ((toKey_info hs hi i.key).mpr (.inr rfl)).symm))
          rw [this, hname]; rfl
      refine ⟨?_, fun h => by rw [hu] at h; cases h⟩
      show used (fs.toKey k) (o.rename fs.toKey) fs = used k o fs
      rw [hu, h2]
      refine used_infos.mpr ⟨i, hi, ?_⟩
      have : (fetch i o).isSome = true := by
        rw [fetch]
        cases he : o.get i.key with
        | some d => rfl
        | none =>
          rcases h1 with h1 | h1
          · rw [← h1]; exact hg
          · rw [h1, he] at hg; cases hg
      rw [(hf i hi).2, if_pos this]
    · rw [toKey_other hn]
      refine ⟨?_, fun _ => rfl⟩
      have e1 : used k (o.rename fs.toKey) fs = false := Bool.eq_false_iff.mpr fun h => hn (used_names h)
      have e2 : used k o fs = false := Bool.eq_false_iff.mpr fun h => hn (used_names h)
      rw [e1, e2]
  rw [load, load, loadFields_fetch fun i hi => (hf i hi).1, hw]
where
  get_isSome {k : String} : ∀ {o : Obj}, k ∈ o.keys → (o.get k).isSome = true
    | .nil, h => by simp [Obj.keys] at h
    | .cons k' d r, h => by
      rw [Obj.get]
      by_cases e : k' = k
      · rw [if_pos e]; rfl
      · rw [if_neg e]
        exact get_isSome (by simpa [Obj.keys, Ne.symm e] using h)

example : load mapper (.obj (.cons "from_" (.obj (.cons "name" (.atom "'a'") .nil)) (.cons "index" (.atom "0") .nil))) =
    load mapper (.obj (.cons "from" (.obj (.cons "name" (.atom "'a'") .nil)) (.cons "index" (.atom "0") .nil))) := by decide +kernel

/-! ### Empty control behaviors -/

/-- **C102**: that an empty control behavior is deleted from what is exported makes no difference for reading, whatever the control behavior is, if its default
is what an empty dictionary is read as. -/
theorem C102_control (s : Shape) (dflt v : Val) (h : load s (.obj .nil) = .ok dflt) :
    loadField (controlField dflt) (load s) (tidy (exported (controlField dflt) s v)) = loadField (controlField dflt) (load s) (exported (controlField dflt) s v) := by
  cases e : exported (controlField dflt) s v with
  | none => rfl
  | some d =>
    cases d with
    | obj l =>
      cases l with
      | nil =>
        simp only [tidy, loadField, h]
        rfl
      | cons _ _ _ => rfl
    | _ => rfl

/-- The models that are control behaviors. -/
def controls : List Shape := (models.filter fun m => ".ControlBehavior".toList.isSuffixOf m.1.toList).map (·.2)

example : controls.length = 34 := by decide +kernel

/-- **C102**: an empty dictionary can be read as every control behavior there is, which is then exported as an empty dictionary. -/
theorem C102_empty : ∀ s ∈ controls, ∃ v, load s (.obj .nil) = .ok v ∧ dump s v = .obj .nil := by
  have h : controls.all (fun s => match load s (.obj .nil) with | .ok v => decide (dump s v = .obj .nil) | .error _ => false) = true := by decide +kernel
  intro s hs
  have := List.all_eq_true.mp h s hs
  cases e : load s (.obj .nil) with
  | error _ => simp [e] at this
  | ok v => exact ⟨v, rfl, by simpa [e] using this⟩

/-- The models that need a value, with the fields that have no default. -/
def needy : List (String × List String) := [
  ("FloatPosition", ["x", "y"]), ("SignalID", ["name"]), ("TargetID", ["index", "name"]), ("ItemSpecification.InventoryLocation", ["inventory", "stack"]),
  ("ItemRequest", ["id", "items"]), ("EquipmentGridMixin.Format.EquipmentComponent.EquipmentID", ["name"]), ("IntPosition", ["x", "y"]),
  ("EquipmentGridMixin.Format.EquipmentComponent", ["equipment", "position"]), ("AsteroidChunkID", ["index", "name"]),
  ("SignalFilter", ["index", "name", "count"]), ("Section", ["index"]), ("ItemFilter", ["index", "name"]),
  ("InfinityContainer.Format.InfinitySettings.InfinityFilter", ["index", "name"]), ("Color", ["r", "g", "b"]), ("Icon", ["signal", "index"]),
  ("EntityFilter", ["name", "index"]), ("TileFilter", ["name", "index"]), ("MapperID", ["name", "type"]), ("Mapper", ["index"])]

/-- The names of the fields without a default. -/
def Fields.needed : Fields → List String
  | .nil => []
  | .cons i _ r => if i.dflt.isNone then i.name :: r.needed else r.needed

theorem loadFields_needed : ∀ fs : Fields, fs.needed ≠ [] ↔ ∃ e, loadFields fs .nil = .error e
  | .nil => by simp [Fields.needed, loadFields]
  | .cons ⟨n, k, o, none, h⟩ s r => by
    simp [Fields.needed, loadFields, fetch, Obj.get, loadField]
  | .cons ⟨n, k, o, some v, h⟩ s r => by
    simp only [Fields.needed, Option.isNone_some, Bool.false_eq_true, if_false, loadFields_needed r]
    simp only [loadFields, fetch, Obj.get, loadField]
    cases loadFields r .nil <;> simp

/-- **C102**: which models cannot do without a value, and for what: all others can be read from nothing. -/
theorem C102_required : ∀ m ∈ models, ∃ keep fs, m.2 = .model keep fs ∧
    ((∃ e, load m.2 (.obj .nil) = .error e) ↔ ∃ l, (m.1, l) ∈ needy) ∧ ∀ l, (m.1, l) ∈ needy → fs.needed = l := by
  have h : models.all (fun m => match m.2 with
      | .model _ fs => (decide (fs.needed ≠ []) == needy.any (fun x => decide (x.1 = m.1))) && needy.all (fun x => decide (x.1 = m.1 → fs.needed = x.2))
      | _ => false) = true := by decide +kernel
  intro m hm
  have := List.all_eq_true.mp h m hm
  rcases e : m.2 with _ | s | ⟨keep, fs⟩ <;> rw [e] at this <;> dsimp only at this
  · cases this
  · cases this
  · rw [Bool.and_eq_true, beq_iff_eq, List.all_eq_true] at this
    refine ⟨keep, fs, rfl, ?_, ?_⟩
    · have h1 : (∃ e, load (.model keep fs) (.obj .nil) = .error e) ↔ ∃ e, loadFields fs .nil = .error e := by
        simp only [load]
        cases loadFields fs .nil <;> simp
      rw [h1, ← loadFields_needed, ← decide_eq_true_iff (p := fs.needed ≠ []), this.1, List.any_eq_true]
      constructor
      · rintro ⟨⟨a, l⟩, hx, hy⟩
        exact ⟨l, (of_decide_eq_true hy : a = m.1) ▸ hx⟩
      · rintro ⟨l, hl⟩
        exact ⟨_, hl, by simp⟩
    · intro l hl
      exact of_decide_eq_true (this.2 _ hl) rfl

/-- **C102**: a signal can be given by its name alone, and is then an item of normal quality. -/
theorem C102_short (n : String) : load signalID (.obj (.cons "name" (.atom n) .nil)) =
    .ok (.model (.of [.raw (.atom n), .raw (.atom "'item'"), .raw (.atom "'normal'")]) .nil) := by
  rfl

/-! ### Cases -/

/-- A string as it is exported. -/
abbrev str (t : String) : Val := .raw (.atom ("'" ++ t ++ "'"))

/-- The condition "signal-A > 10" of an accumulator's kind of signal. -/
def someCondition : Val :=
  .model (.of [.model (.of [str "signal-A", str "virtual", str "normal"]) .nil, networkSpecificationDefault, str ">", .raw (.atom "10"), .none,
    .model (.of [.raw (.atom "False"), .raw (.atom "True")]) (.cons "note" (.atom "1") .nil)]) .nil

example : sound condition = true ∧ fits condition someCondition = true ∧ settled condition someCondition = true ∧ lacks condition someCondition = false := by decide +kernel

example : dump condition someCondition = .obj (.cons "first_signal" (.obj (.cons "name" (.atom "'signal-A'") (.cons "type" (.atom "'virtual'") .nil)))
    (.cons "comparator" (.atom "'>'") (.cons "constant" (.atom "10") (.cons "second_signal_networks" (.obj (.cons "red" (.atom "False") (.cons "note" (.atom "1") .nil))) .nil)))) := by
  decide +kernel

example : load condition (dump condition someCondition) = .ok someCondition := (C102_back_partial _ _ (by decide +kernel) (by decide +kernel)).mpr (by decide +kernel)

example : setting condition someCondition [.field "second_signal_networks", .field "red"] = some (.atom "False") ∧
    setting condition someCondition [.field "second_signal_networks", .key "note"] = some (.atom "1") := by decide +kernel

/-- A condition that says `None` for its network. -/
def blankNetwork : Val :=
  .model (.of [.none, .model (.of [.none, .raw (.atom "True")]) .nil, str "<", .raw (.atom "0"), .none, networkSpecificationDefault]) .nil

example : fits condition blankNetwork = true ∧ settled condition blankNetwork = false ∧ lacks condition blankNetwork = false := by decide +kernel

example : load condition (dump condition blankNetwork) = .ok conditionDefault ∧ load condition (dump condition conditionDefault) = .ok conditionDefault := by decide +kernel

/-- **C102** is refuted for second exports: `NetworkSpecification(red=None)` in a condition is exported as an empty dictionary, and once that has been read, as nothing
at all. -/
theorem C102_twice_refuted : ¬ ∀ s v w, sound s = true → fits s v = true → load s (dump s v) = .ok w → dump s w = dump s v := fun h =>
  absurd (h condition blankNetwork conditionDefault (by decide +kernel) (by decide +kernel) (by decide +kernel)) (by decide +kernel)

/-- A signal filter as a model.  `set_signal` gives `"="` as comparator and no maximum. -/
def ofSig (f : Slots.Sig) : Val :=
  .model (.of [.raw (.atom (toString f.index)), str f.name, (match f.type with | some t => str t | none => .none), str f.quality, str "=", .raw (.atom (toString f.count)), .none]) .nil

/-- A signal section as a model. -/
def ofSection (l : List Slots.Sig) : Val := .model (.of [.raw (.atom "1"), .list (.of (l.map ofSig)), .none]) .nil

/-- **C102** is refuted for signals that are set without saying their type: `section.set_signal(0, "signal-A", 5)` accepts the signal with the type `None`, which is
not exported, and what is read has the type "item". -/
theorem C102_signal_refuted : ∃ l w, Slots.setSignal (some []) 0 (some "signal-A") 5 "normal" none = (some l, none) ∧ fits signalSection (ofSection l) = true ∧
    load signalSection (dump signalSection (ofSection l)) = .ok w ∧ setting signalSection (ofSection l) [.field "filters", .item 0, .field "type"] = none ∧
    setting signalSection w [.field "filters", .item 0, .field "type"] = some (.atom "'item'") :=
  ⟨[⟨1, "signal-A", none, "normal", 5⟩],
    .model (.of [.raw (.atom "1"), .list (.of [.model (.of [.raw (.atom "1"), str "signal-A", str "item", str "normal", str "=", .raw (.atom "5"), .none]) .nil]), .none]) .nil,
    by decide +kernel, by decide +kernel, by decide +kernel, by decide +kernel, by decide +kernel⟩

/-- **C102** is refuted for filters without an index: `EntityFilter(name="steel-chest", index=None)` is accepted, but what is exported cannot be read, as the index has
no default. -/
theorem C102_filter_refuted : ∃ v, fits entityFilter v = true ∧ load entityFilter (dump entityFilter v) = .error .dataFormat :=
  ⟨.model (.of [str "steel-chest", .none]) .nil, by decide +kernel, (C102_fails _ _ (by decide +kernel) (by decide +kernel)).1 (by decide +kernel)⟩

/-- **C102** is refuted for the names of instruments and notes, which are never exported: `instrument_name="bass"` and `note_name="C5"` are gone. -/
theorem C102_hidden_refuted : ∃ v w, fits programmableSpeakerControlBehaviorCircuitParameters v = true ∧
    load programmableSpeakerControlBehaviorCircuitParameters (dump programmableSpeakerControlBehaviorCircuitParameters v) = .ok w ∧ v ≠ w :=
  ⟨.model (.of [.raw (.atom "False"), .raw (.atom "5"), str "bass", .raw (.atom "30"), str "C5"]) .nil,
    .model (.of [.raw (.atom "False"), .raw (.atom "5"), .none, .raw (.atom "30"), .none]) .nil, by decide +kernel, by decide +kernel, by decide +kernel⟩

/-- **C102** is refuted for keys that are no fields in the control behaviors of belts and of three logistic chests: they are not kept when a dictionary is read. -/
theorem C102_keys_refuted : ∃ o v, load transportBeltControlBehavior (.obj o) = .ok v ∧ o.get "speed" = some (.atom "2") ∧ dump transportBeltControlBehavior v = .obj .nil :=
  ⟨.cons "speed" (.atom "2") .nil, transportBeltControlBehaviorDefault, by decide +kernel, by decide +kernel, by decide +kernel⟩

/-- **C102** is refuted for conditions that are removed: `circuit_condition = None` in the control behavior of a wall is the default condition after exporting and
reading. -/
theorem C102_none_refuted : ∃ v w, fits wallControlBehavior v = true ∧ load wallControlBehavior (dump wallControlBehavior v) = .ok w ∧ v ≠ w ∧ w = wallControlBehaviorDefault :=
  ⟨.model (.of [.raw (.atom "False"), .raw (.atom "False"), .none, .raw (.atom "True"), .raw (.atom "False"), .none]) .nil, wallControlBehaviorDefault, by decide +kernel, by decide +kernel, by decide +kernel, rfl⟩

end Nested
end Draftsman
