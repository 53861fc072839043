import Mathlib.Tactic.Linarith
import Mathlib.Tactic.Ring
import Mathlib.Tactic.NormNum
import Verif.Model.Transform
import Verif.Proof.Round
namespace Draftsman

/-- `e` facing `d` with the footprint the setters choose for it. -/
def PEnt.turned (e : PEnt) (d : Int) : PEnt :=
  match e.turning with
  | .fourWay => { e with
      dir := some d
      w := if d = 4 ∨ d = 12 then e.sh else e.sw
      h := if d = 4 ∨ d = 12 then e.sw else e.sh }
  | .eightWay => { e with
      dir := some d
      w := if d = 2 ∨ d = 3 ∨ d = 6 ∨ d = 7 then e.sh else e.sw
      h := if d = 2 ∨ d = 3 ∨ d = 6 ∨ d = 7 then e.sw else e.sh }
  | _ => e

/-- `e` at position `p`, with the tile position the setter chooses for it. -/
def PEnt.placed (e : PEnt) (p : Vec) : PEnt :=
  match e.turning with
  | .group => { e with pos := p }
  | _ => { e with pos := p, tile := ⟨pyRound (p.x - e.w / 2), pyRound (p.y - e.h / 2)⟩ }

namespace PEnt

theorem setPosition_free (e : PEnt) (v : PosArg) (h : e.held = false) :
    e.setPosition v = .ok (e.placed v.toFloat) := by
  unfold setPosition placed
  rw [if_neg (by simp [h])]
  cases e.turning <;> rfl

theorem checkDirection_valid (t : Turning) (m : ValidationMode) (v : Int) (h0 : 0 ≤ v) (h1 : v < 16)
    (h4 : t = .fourWay → v % 4 = 0) : checkDirection t m (some v) = .ok (some v) := by
  unfold checkDirection
  split
  · simp only
    rw [if_pos ⟨h0, h1⟩]
    split
    · rename_i h
      have := h4 h.1
      rw [show v / 4 * 4 = v by omega]
    · rfl
  · rfl

theorem checkDirection_invalid (t : Turning) (m : ValidationMode) (v : Int) (hm : m.truthy = true)
    (hv : ¬ (0 ≤ v ∧ v < 16)) : checkDirection t m (some v) = .error .dataFormat := by
  unfold checkDirection
  rw [if_pos hm]
  simp only
  rw [if_neg hv]

/-- The setters change only direction, footprint, position and tile position. -/
theorem setDirection_then_place (e : PEnt) (v : Int) (h0 : 0 ≤ v) (h1 : v < 16)
    (ht : e.turning = .fourWay ∨ e.turning = .eightWay) (h4 : e.turning = .fourWay → v % 4 = 0)
    (hh : e.held = false) :
    ∃ e', e.setDirection (some v) = .ok e' ∧ e'.held = false ∧ ∀ p, e'.placed p = (e.turned v).placed p := by
  rcases ht with ht | ht
  · have hc := checkDirection_valid .fourWay e.mode v h0 h1 (fun _ => h4 ht)
    simp only [setDirection, ht, setDirection4, hc, bind, Except.bind, pure, Except.pure, turned]
    simp only [Option.some.injEq]
    obtain ⟨nw, hnw⟩ : ∃ nw, nw = if v = 4 ∨ v = 12 then e.sh else e.sw := ⟨_, rfl⟩
    obtain ⟨nh, hnh⟩ : ∃ nh, nh = if v = 4 ∨ v = 12 then e.sw else e.sh := ⟨_, rfl⟩
    rw [← hnw, ← hnh]
    by_cases hcond : nw ≠ nh ∧ e.w ≠ nw ∧ e.h ≠ nh
    · rw [if_pos hcond]; exact ⟨_, rfl, hh, fun p => rfl⟩
    · rw [if_neg hcond]; exact ⟨_, rfl, hh, fun p => rfl⟩
  · have hc := checkDirection_valid .eightWay e.mode v h0 h1 (by simp)
    simp only [setDirection, ht, setDirection8, hc, bind, Except.bind, pure, Except.pure, turned]
    simp only [Option.some.injEq]
    exact ⟨_, rfl, hh, fun p => rfl⟩

theorem setDirection_invalid (e : PEnt) (v : Int) (hm : e.mode.truthy = true) (hv : ¬ (0 ≤ v ∧ v < 16))
    (ht : e.turning = .fourWay ∨ e.turning = .eightWay) : e.setDirection (some v) = .error .dataFormat := by
  rcases ht with ht | ht
  · simp [setDirection, ht, setDirection4, checkDirection_invalid .fourWay e.mode v hm hv, bind, Except.bind]
  · simp [setDirection, ht, setDirection8, checkDirection_invalid .eightWay e.mode v hm hv, bind, Except.bind]

end PEnt

theorem eachEntity_all {step : PEnt → Except PyErr PEnt} {f : PEnt → PEnt} :
    ∀ {es : List PEnt}, (∀ e ∈ es, step { e with held := false } = .ok (f e)) →
      eachEntity step es = (es.map (fun e => { f e with held := true }), none)
  | [], _ => rfl
  | e :: es, h => by
    simp only [eachEntity, h e (by simp), List.map_cons]
    rw [eachEntity_all (es := es) (fun x hx => h x (by simp [hx]))]

theorem eachEntity_error {step : PEnt → Except PyErr PEnt} :
    ∀ {es : List PEnt} {r : List PEnt}, eachEntity step es = (r, none) →
      ∀ e ∈ es, ∃ e', step { e with held := false } = .ok e'
  | [], _, _ => by simp
  | e :: es, r, h => by
    simp only [eachEntity] at h
    cases hs : step { e with held := false } with
    | error err => simp [hs] at h
    | ok e' =>
      simp only [hs, Prod.mk.injEq] at h
      intro x hx
      rcases List.mem_cons.1 hx with rfl | hx
      · exact ⟨e', hs⟩
      · exact eachEntity_error (es := es) (r := (eachEntity step es).1) (Prod.ext rfl h.2) x hx

theorem transformWith_all {step : PEnt → Except PyErr PEnt} {f : PEnt → PEnt} {g : PTile → PTile} {l : Layout}
    (h : ∀ e ∈ l.entities, step { e with held := false } = .ok (f e)) :
    transformWith step g l = (⟨l.entities.map (fun e => { f e with held := true }), l.tiles.map g⟩, none) := by
  unfold transformWith
  rw [eachEntity_all h]

theorem transformWith_ok {step : PEnt → Except PyErr PEnt} {g : PTile → PTile} {l l' : Layout}
    (h : transformWith step g l = (l', none)) : ∀ e ∈ l.entities, ∃ e', step { e with held := false } = .ok e' := by
  unfold transformWith at h
  split at h
  · simp at h
  · rename_i es hes
    exact eachEntity_error hes

theorem pyTrunc_int (n : ℤ) : pyTrunc (n : ℚ) = n := by unfold pyTrunc; split <;> simp

end Draftsman
