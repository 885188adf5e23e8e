import Verif.Py

/-!
# `Scenario` (src/pygmm/model.py lines 14-144)

A `Scenario` is a `collections.UserDict`.  Its state is the `data` dictionary
plus any other instance attributes that were assigned (`s.width = 3`), which
Python finds before `__getattr__` is consulted.
-/

/-- A Python dict with string keys, in insertion order. -/
abbrev Dict := List (String × Val)

namespace Dict

/-- `d[k]` if present -/
def get? : Dict → String → Option Val
  | [], _ => none
  | (k', v) :: d, k => if k' = k then some v else get? d k

/-- `d[k] = v`: overwrite in place, or append -/
def set : Dict → String → Val → Dict
  | [], k, v => [(k, v)]
  | (k', v') :: d, k, v => if k' = k then (k', v) :: d else (k', v') :: set d k v

/-- `d.update(kwds)` (`MutableMapping.update`: one assignment per item) -/
def update (d : Dict) (kwds : Dict) : Dict :=
  kwds.foldl (fun d kv => d.set kv.1 kv.2) d

/-- `d.keys()` -/
def keys (d : Dict) : List String := d.map Prod.fst

/-- A dictionary of keyword arguments or dict items: Python never repeats a key. -/
def WF (d : Dict) : Prop := d.keys.Nodup

theorem get?_set (d : Dict) (k k' : String) (v : Val) :
    (d.set k v).get? k' = if k = k' then some v else d.get? k' := by
  induction d with
  | nil => simp [set, get?]
  | cons kv d ih =>
    obtain ⟨a, b⟩ := kv
    by_cases h : a = k
    · subst h; by_cases h2 : a = k' <;> simp [set, get?, h2]
    · by_cases h2 : a = k'
      · subst h2; simp [set, get?, h, Ne.symm h]
      · simp [set, get?, h, h2, ih]

theorem keys_set_of_mem {d : Dict} {k : String} (v : Val) (h : k ∈ d.keys) :
    (d.set k v).keys = d.keys := by
  induction d with
  | nil => simp [keys] at h
  | cons kv d ih =>
    obtain ⟨a, b⟩ := kv
    by_cases h1 : a = k
    · simp [set, keys, h1]
    · have : k ∈ keys d := by
        simp only [keys, List.map_cons, List.mem_cons] at h
        rcases h with h | h
        · exact absurd h.symm h1
        · exact h
      have := ih this
      simp only [keys] at this
      simp [set, keys, h1, this]

theorem keys_set_of_not_mem {d : Dict} {k : String} (v : Val) (h : k ∉ d.keys) :
    (d.set k v).keys = d.keys ++ [k] := by
  induction d with
  | nil => simp [keys, set]
  | cons kv d ih =>
    obtain ⟨a, b⟩ := kv
    simp only [keys, List.map_cons, List.mem_cons, not_or] at h
    have h1 : a ≠ k := fun e => h.1 e.symm
    have := ih h.2
    simp only [keys] at this
    simp [set, keys, h1, this]

theorem mem_keys_set (d : Dict) (k k' : String) (v : Val) :
    k' ∈ (d.set k v).keys ↔ k' = k ∨ k' ∈ d.keys := by
  by_cases h : k ∈ d.keys
  · rw [keys_set_of_mem v h]
    constructor
    · exact Or.inr
    · rintro (rfl | h'); exacts [h, h']
  · rw [keys_set_of_not_mem v h]; simp; tauto

theorem mem_keys_iff (d : Dict) (k : String) : k ∈ d.keys ↔ ∃ v, d.get? k = some v := by
  induction d with
  | nil => simp [keys, get?]
  | cons kv d ih =>
    obtain ⟨a, b⟩ := kv
    by_cases h : a = k
    · simp [keys, get?, h]
    · simp only [keys] at ih
      have h' : ¬ k = a := fun e => h e.symm
      simp only [keys, List.map_cons, List.mem_cons, get?, h, if_false, h', false_or]
      exact ih

theorem get?_eq_none_iff (d : Dict) (k : String) : d.get? k = none ↔ k ∉ d.keys := by
  rw [mem_keys_iff]; cases d.get? k <;> simp

@[simp] theorem update_nil (d : Dict) : d.update [] = d := rfl
@[simp] theorem update_cons (d : Dict) (kv : String × Val) (kw : Dict) :
    d.update (kv :: kw) = (d.set kv.1 kv.2).update kw := rfl

theorem mem_keys_update (d kw : Dict) (k : String) :
    k ∈ (d.update kw).keys ↔ k ∈ kw.keys ∨ k ∈ d.keys := by
  induction kw generalizing d with
  | nil => simp [keys]
  | cons kv kw ih =>
    rw [update_cons, ih, mem_keys_set]
    simp only [keys, List.map_cons, List.mem_cons]; tauto

/-- lookup after `update`, for keyword arguments without repetition -/
theorem get?_update {d kw : Dict} (hkw : kw.WF) (k : String) :
    (d.update kw).get? k = (kw.get? k).or (d.get? k) := by
  induction kw generalizing d with
  | nil => simp [get?]
  | cons kv kw ih =>
    obtain ⟨a, b⟩ := kv
    simp only [WF, keys, List.map_cons, List.nodup_cons] at hkw
    rw [update_cons, ih (by simpa [WF, keys] using hkw.2), get?_set]
    by_cases h : a = k
    · subst h
      have : get? kw a = none := (get?_eq_none_iff _ _).2 hkw.1
      simp [get?, this]
    · simp [get?, h]

/-- updating an empty dict with items that do not repeat keys gives those items -/
theorem update_nil_eq {kw : Dict} (h : kw.WF) : Dict.update [] kw = kw := by
  have key : ∀ (d kw : Dict), (d ++ kw).WF → d.update kw = d ++ kw := by
    intro d kw
    induction kw generalizing d with
    | nil => simp
    | cons kv kw ih =>
      intro h
      have hset : d.set kv.1 kv.2 = d ++ [kv] := by
        have hn : kv.1 ∉ d.keys := by
          simp only [WF, keys, List.map_append, List.map_cons] at h
          have := (List.nodup_append.1 h).2.2
          intro hm
          exact this _ hm _ (by simp) rfl
        clear ih h
        induction d with
        | nil => simp [set]
        | cons x d ihd =>
          obtain ⟨a, b⟩ := x
          simp only [keys, List.map_cons, List.mem_cons, not_or] at hn
          have h1 : a ≠ kv.1 := fun e => hn.1 e.symm
          simp [set, h1, ihd hn.2]
      rw [update_cons, hset, ih]
      · simp
      · simpa using h
  simpa using key [] kw (by simpa using h)

end Dict

/-- State of a `Scenario` object: `data` and the other entries of its instance
`__dict__`. -/
structure Scenario where
  data : Dict
  attrs : Dict := []

namespace Scenario

/-- model.py lines 92-120: `KNOWN_KEYS` -/
def knownKeys : List String :=
  ["depth_1_0", "depth_2_5", "depth_tor", "depth_bor", "depth_bot", "depth_hyp",
   "dip", "dist_crjb", "dist_jb", "dist_epi", "dist_hyp", "dist_rup", "dist_x",
   "dist_y0", "dpp_centered", "event_type", "is_aftershock", "mag", "mechanism",
   "on_hanging_wall", "pga_ref", "region", "site_cond", "tectonic_region",
   "v_s30", "vs_source", "width"]

/-- model.py lines 141-144: `_check_keys` -/
def checkKeys : List String → Py Unit
  | [] => pure ()
  | k :: ks => if k ∈ knownKeys then checkKeys ks else Py.raise (.warning k)

/-- model.py lines 122-125: `Scenario(**kwds)` -/
def init (kwds : Dict) : Py Scenario := do
  let s : Scenario := { data := Dict.update [] kwds }
  checkKeys s.data.keys
  pure s

/-- `s.get(k, None)` (`Mapping.get`, which looks only at `data`) -/
def get (s : Scenario) (k : String) : Val := (s.data.get? k).getD .none

/-- `s[k]` -/
def getItem (s : Scenario) (k : String) : Py Val :=
  match s.data.get? k with
  | some v => pure v
  | none => Py.raise (.keyError k)

/-- model.py lines 127-129: `s.k`, for a name `k` that is not an attribute of the
class (no scenario key is): instance attributes first, then `__getattr__`, which
raises `KeyError` from the dictionary. -/
def getAttr (s : Scenario) (k : String) : Py Val :=
  match s.attrs.get? k with
  | some v => pure v
  | none => s.getItem k

/-- `s[k] = v` (`UserDict.__setitem__`: no key check) -/
def setItem (s : Scenario) (k : String) (v : Val) : Scenario :=
  { s with data := s.data.set k v }

/-- `s.k = v` (plain attribute assignment; `k` other than `data`) -/
def setAttr (s : Scenario) (k : String) (v : Val) : Scenario :=
  { s with attrs := s.attrs.set k v }

/-- `UserDict.copy` for a subclass: `copy.copy(self)` copies the instance
dictionary (with an empty `data`), then `c.update(self)`. -/
def copy (s : Scenario) : Scenario :=
  { data := Dict.update [] s.data, attrs := s.attrs }

/-- model.py lines 135-139: `copy_with` -/
def copyWith (s : Scenario) (kwds : Dict) : Py Scenario := do
  checkKeys kwds.keys
  let other := s.copy
  pure { other with data := other.data.update kwds }

theorem checkKeys_ok_iff (ks : List String) :
    (checkKeys ks).res = .ok () ↔ ∀ k ∈ ks, k ∈ knownKeys := by
  induction ks with
  | nil => simp [checkKeys]
  | cons k ks ih => by_cases h : k ∈ knownKeys <;> simp [checkKeys, h, ih]

theorem checkKeys_log (ks : List String) : (checkKeys ks).log = [] := by
  induction ks with
  | nil => simp [checkKeys]
  | cons k ks ih => by_cases h : k ∈ knownKeys <;> simp [checkKeys, h, ih]

theorem checkKeys_of_all {ks : List String} (h : ∀ k ∈ ks, k ∈ knownKeys) :
    checkKeys ks = pure () :=
  Py.ext (checkKeys_log ks) ((checkKeys_ok_iff ks).2 h)

/-- when the check fails, it names the first unknown key -/
theorem checkKeys_error (ks : List String) (e : PyErr) (h : (checkKeys ks).res = .error e) :
    ∃ pre k post, ks = pre ++ k :: post ∧ (∀ x ∈ pre, x ∈ knownKeys) ∧ k ∉ knownKeys ∧
      e = .warning k := by
  induction ks with
  | nil => simp [checkKeys] at h
  | cons k ks ih =>
    by_cases hk : k ∈ knownKeys
    · simp only [checkKeys, hk, if_true] at h
      obtain ⟨pre, k', post, h1, h2, h3, h4⟩ := ih h
      refine ⟨k :: pre, k', post, by simp [h1], ?_, h3, h4⟩
      intro x hx
      rcases List.mem_cons.1 hx with rfl | hx
      · exact hk
      · exact h2 x hx
    · simp only [checkKeys, hk, if_false, Py.raise_res, Except.error.injEq] at h
      exact ⟨[], k, ks, rfl, by simp, hk, h.symm⟩

end Scenario
