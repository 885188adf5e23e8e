import Verif.Models.Coefficients

/-! # C107: the coefficient container -/

namespace Coefficients

/-- the last value assigned to the attribute `key` -/
def lastSet (key : String) : List Op → Option Val
  | [] => none
  | op :: h => match lastSet key h with
    | some v => some v
    | none => match op with
      | .setAttr k v => if k = key then some v else none
      | _ => none

theorem after_data (c : Obj) (h : List Op) : (c.after h).data = c.data := by
  induction h generalizing c with
  | nil => rfl
  | cons op h ih =>
    cases op with
    | setItem k v => exact ih c
    | delItem k => exact ih c
    | setAttr k v => exact ih _

theorem after_attrs (c : Obj) (h : List Op) (key : String) :
    (c.after h).attrs.get? key = (lastSet key h <|> c.attrs.get? key) := by
  induction h generalizing c with
  | nil => rfl
  | cons op h ih =>
    cases op with
    | setItem k v =>
      have : (c.after (.setItem k v :: h)) = c.after h := rfl
      rw [this, ih]; simp only [lastSet]; cases lastSet key h <;> rfl
    | delItem k =>
      have : (c.after (.delItem k :: h)) = c.after h := rfl
      rw [this, ih]; simp only [lastSet]; cases lastSet key h <;> rfl
    | setAttr k v =>
      have : (c.after (.setAttr k v :: h)) = Obj.after { c with attrs := c.attrs.set k v } h := rfl
      rw [this, ih]
      simp only [lastSet]
      cases lastSet key h with
      | some w => rfl
      | none =>
        by_cases hk : k = key
        · simp [hk, Dict.get?_set]
        · simp [hk, Dict.get?_set, Ne.symm hk]

/-- After any history of attempts to change a container made from keywords `kwds`, the mapping it
presents is the one it was made with: every item, the length, the iteration order, membership and
`get`. -/
theorem C107_mapping (kwds : Dict) (h : List Op) :
    let c := (init kwds).after h
    c.len = kwds.length ∧ c.iter = kwds.keys ∧
    ∀ k, (c.contains k = true ↔ k ∈ kwds.keys) ∧
      (∀ v, (c.getItem k).res = .ok v ↔ kwds.get? k = some v) ∧
      (k ∉ kwds.keys → (c.getItem k).res = .error (.keyError k)) ∧
      (∀ d, c.get k d = (kwds.get? k).getD d) := by
  intro c
  have hd : c.data = kwds := after_data _ _
  refine ⟨by rw [Obj.len, hd], by rw [Obj.iter, hd], fun k => ?_⟩
  have hi : c.getItem k = match kwds.get? k with
      | some v => pure v
      | none => Py.raise (.keyError k) := by rw [Obj.getItem, hd]; cases kwds.get? k <;> rfl
  have hn := Dict.get?_eq_none_iff kwds k
  refine ⟨?_, fun v => ?_, fun hk => ?_, fun d => ?_⟩
  · rw [Obj.contains, hi]
    cases hg : kwds.get? k with
    | none => simpa [hg] using hn.1 hg
    | some v =>
      have : k ∈ kwds.keys := by by_contra hc; rw [hn.2 hc] at hg; cases hg
      simp [this]
  · rw [hi]
    cases kwds.get? k <;> simp [Py.raise]
  · rw [hi, hn.2 hk]; rfl
  · rw [Obj.get, hi]
    cases kwds.get? k <;> rfl

/-- Attribute access on a container nobody has assigned to: every coefficient whose name is not
taken by the class is read by attribute as by item; a missing name raises `KeyError`, so
`hasattr` raises instead of answering `False`; and a coefficient whose name the class has
(`get`, `keys`, `items`, `values`) cannot be read by attribute at all. -/
theorem C107_attribute (kwds : Dict) (k : String) (hd : k ≠ "_data") :
    let c := init kwds
    (k ∉ classAttrs → ∀ v, kwds.get? k = some v →
      (c.getAttr k).res = .ok (.val v) ∧ (c.getItem k).res = .ok v) ∧
    (k ∉ classAttrs → k ∉ kwds.keys →
      (c.getAttr k).res = .error (.keyError k) ∧ (c.hasattr k).res = .error (.keyError k)) ∧
    (k ∈ classAttrs → (c.getAttr k).res = .ok (.cls k)) := by
  intro c
  have h0 : c.attrs.get? k = none := rfl
  refine ⟨fun hc v hv => ?_, fun hc hk => ?_, fun hc => ?_⟩
  · have h1 : c.getItem k = pure v := by simp only [Obj.getItem, c, init, hv]
    refine ⟨?_, by rw [h1]; rfl⟩
    rw [Obj.getAttr, if_neg hd, h0]
    simp only
    rw [if_neg hc, h1]; rfl
  · have h1 : c.getItem k = Py.raise (.keyError k) := by
      simp only [Obj.getItem, c, init, (Dict.get?_eq_none_iff _ _).2 hk]
    have h2 : (c.getAttr k).res = .error (.keyError k) := by
      rw [Obj.getAttr, if_neg hd, h0]
      simp only
      rw [if_neg hc, h1]; rfl
    refine ⟨h2, ?_⟩
    rw [Obj.hasattr, h2]; rfl
  · rw [Obj.getAttr, if_neg hd, h0]
    simp only
    rw [if_pos hc]; rfl

/-- "Read-only" stops at attribute assignment: after any history, the attribute `k` is the last
value assigned to it, if any was, while the item `k` is still the original coefficient. -/
theorem C107_shadowed (kwds : Dict) (h : List Op) (k : String) (v w : Val) (hd : k ≠ "_data")
    (hl : lastSet k h = some w) (hk : kwds.get? k = some v) :
    (((init kwds).after h).getAttr k).res = .ok (.val w) ∧
    (((init kwds).after h).getItem k).res = .ok v := by
  constructor
  · rw [Obj.getAttr, if_neg hd, after_attrs, hl]; rfl
  · rw [Obj.getItem, after_data]
    simp only [init, hk]; rfl

/-- the coefficients `pga` of AbrahamsonBhasin2020 after an assignment `c.a_1 = 5`: the attribute
is 5, the item 4.77 -/
example : lastSet "a_1" [.setItem "a_1" (.num 1), .setAttr "a_1" (.num 5), .delItem "a_2"]
      = some (.num 5) ∧
    Dict.get? [("a_1", .num 4.77), ("a_2", .num 0.738)] "a_1" = some (.num 4.77) := by
  constructor <;> simp [lastSet, Dict.get?]

example : "a_1" ∉ classAttrs ∧ "get" ∈ classAttrs ∧
    "v_s30" ∉ Dict.keys [("a_1", .num 4.77), ("a_2", .num 0.738)] := by
  refine ⟨by decide +kernel, by decide +kernel, by simp [Dict.keys]⟩

end Coefficients
