import Verif.Model.Dict
import Mathlib.Data.List.Basic
/- Lemmas about association-list dictionaries. -/
namespace Draftsman
namespace Dict
variable {K V : Type} [DecidableEq K]

@[simp] theorem get?_nil (k : K) : get? ([] : Dict K V) k = none := rfl

theorem get?_set (d : Dict K V) (k j : K) (v : V) : (d.set k v).get? j = if k = j then some v else d.get? j := by
  induction d with
  | nil => simp [set, get?]
  | cons p r ih =>
    obtain ⟨a, b⟩ := p
    by_cases h : a = k
    · subst h; by_cases h2 : a = j <;> simp [set, get?, h2]
    · by_cases h2 : a = j
      · subst h2; simp [set, get?, h, Ne.symm h]
      · simp [set, get?, h, h2, ih]

theorem get?_isSome (d : Dict K V) (k : K) : (d.get? k).isSome ↔ k ∈ d.keys := by
  induction d with
  | nil => simp [get?, keys]
  | cons p r ih =>
    obtain ⟨a, b⟩ := p
    by_cases h : a = k
    · simp [get?, keys, h]
    · have h' : ¬ k = a := fun h' => h h'.symm
      simp only [keys] at ih
      simp [get?, keys, h, h', ih]

theorem get?_eq_none (d : Dict K V) (k : K) : d.get? k = none ↔ k ∉ d.keys := by
  rw [← get?_isSome]; cases d.get? k <;> simp

omit [DecidableEq K] in
@[simp] theorem keys_nil : keys ([] : Dict K V) = [] := rfl
omit [DecidableEq K] in
@[simp] theorem keys_cons (p : K × V) (r : Dict K V) : keys (p :: r) = p.1 :: keys r := rfl

theorem keys_set (d : Dict K V) (k : K) (v : V) : (d.set k v).keys = if k ∈ d.keys then d.keys else d.keys ++ [k] := by
  induction d with
  | nil => simp [set]
  | cons p r ih =>
    obtain ⟨a, b⟩ := p
    by_cases h : a = k
    · subst h; simp [set]
    · have h' : ¬ k = a := fun h' => h h'.symm
      by_cases hk : k ∈ keys r
      · rw [if_pos hk] at ih
        rw [if_pos (by simp [hk])]
        simp [set, h, ih]
      · rw [if_neg hk] at ih
        rw [if_neg (by simp [h', hk])]
        simp [set, h, ih]

theorem nodup_set {d : Dict K V} (h : d.keys.Nodup) (k : K) (v : V) : (d.set k v).keys.Nodup := by
  rw [keys_set]; split_ifs with hk
  · exact h
  · rw [List.nodup_append]; refine ⟨h, by simp, ?_⟩
    intro a ha b hb hab
    simp at hb; subst hb; subst hab; exact hk ha

theorem keys_del (d : Dict K V) (k : K) : (d.del k).keys = d.keys.erase k := by
  induction d with
  | nil => simp [del, keys]
  | cons p r ih =>
    obtain ⟨a, b⟩ := p
    simp only [keys] at ih ⊢
    by_cases h : a = k
    · subst h; simp [del]
    · simp [del, h, ih]

theorem keys_del_sublist (d : Dict K V) (k : K) : (d.del k).keys.Sublist d.keys := by
  rw [keys_del]; exact List.erase_sublist

theorem nodup_del {d : Dict K V} (h : d.keys.Nodup) (k : K) : (d.del k).keys.Nodup := by
  rw [keys_del]; exact h.erase k

theorem get?_del {d : Dict K V} (h : d.keys.Nodup) (k j : K) : (d.del k).get? j = if k = j then none else d.get? j := by
  induction d with
  | nil => simp [del, get?]
  | cons p r ih =>
    obtain ⟨a, b⟩ := p
    have h' : a ∉ keys r ∧ (keys r).Nodup := by simpa [keys] using h
    by_cases hak : a = k
    · subst hak
      by_cases haj : a = j
      · subst haj; simp [del, (get?_eq_none _ _).2 h'.1]
      · simp [del, get?, haj]
    · by_cases haj : a = j
      · subst haj; simp [del, get?, hak, Ne.symm hak]
      · simp [del, get?, hak, haj, ih h'.2]

/-- Two dictionaries with the same keys in the same order and the same values are equal. -/
theorem ext_of_keys {d e : Dict K V} (hd : d.keys.Nodup) (hk : d.keys = e.keys) (hv : ∀ k, d.get? k = e.get? k) : d = e := by
  induction d generalizing e with
  | nil => cases e with
    | nil => rfl
    | cons p r => simp [keys] at hk
  | cons p r ih =>
    cases e with
    | nil => simp [keys] at hk
    | cons q s =>
      obtain ⟨a, b⟩ := p
      obtain ⟨a', b'⟩ := q
      have hk' : a = a' ∧ keys r = keys s := by simpa [keys] using hk
      obtain ⟨rfl, hrs⟩ := hk'
      have hd' : a ∉ keys r ∧ (keys r).Nodup := by simpa [keys] using hd
      have hb : b = b' := by have := hv a; simpa [get?] using this
      subst hb
      rw [ih hd'.2 hrs]
      intro k
      by_cases hka : a = k
      · subst hka
        rw [(get?_eq_none _ _).2 hd'.1, (get?_eq_none _ _).2 (hrs ▸ hd'.1)]
      · have := hv k; simpa [get?, hka] using this

theorem set_get_self {d : Dict K V} {k : K} {v : V} (hk : d.get? k = some v) : d.set k v = d := by
  induction d with
  | nil => simp [get?] at hk
  | cons p r ih =>
    obtain ⟨a, b⟩ := p
    by_cases h : a = k
    · simp [get?, h] at hk; simp [set, h, hk]
    · simp [get?, h] at hk; simp [set, h, ih hk]

theorem set_set (d : Dict K V) (k : K) (v w : V) : (d.set k v).set k w = d.set k w := by
  induction d with
  | nil => simp [set]
  | cons p r ih =>
    obtain ⟨a, b⟩ := p
    by_cases h : a = k
    · simp [set, h]
    · simp [set, h, ih]

theorem del_set_new {d : Dict K V} {k : K} (v : V) (hk : k ∉ d.keys) : (d.set k v).del k = d := by
  induction d with
  | nil => simp [set, del]
  | cons p r ih =>
    obtain ⟨a, b⟩ := p
    have hk' : ¬ k = a ∧ k ∉ keys r := by simpa [keys] using hk
    have : ¬ a = k := fun h => hk'.1 h.symm
    simp [set, del, this, ih hk'.2]

theorem get?_of_mem {d : Dict K V} (h : d.keys.Nodup) {p : K × V} (hp : p ∈ d) : d.get? p.1 = some p.2 := by
  induction d with
  | nil => cases hp
  | cons q r ih =>
    simp only [keys, List.map_cons, List.nodup_cons] at h
    rcases List.mem_cons.1 hp with rfl | hp
    · simp [Dict.get?]
    · have : q.1 ≠ p.1 := by
        intro e
        exact h.1 (e ▸ List.mem_map_of_mem (f := (·.1)) hp)
      rw [show q :: r = (q.1, q.2) :: r from rfl, Dict.get?, if_neg this]
      exact ih h.2 hp

theorem mem_of_get? {d : Dict K V} {k : K} {v : V} (h : d.get? k = some v) : (k, v) ∈ d := by
  induction d with
  | nil => cases h
  | cons q r ih =>
    rw [show q :: r = (q.1, q.2) :: r from rfl, Dict.get?] at h
    split at h
    · rename_i e
      cases h
      rw [← e]
      exact List.mem_cons_self
    · exact List.mem_cons_of_mem _ (ih h)

end Dict
end Draftsman
