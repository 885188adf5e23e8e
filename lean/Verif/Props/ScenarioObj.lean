import Verif.ScenarioObj
import Verif.Props.Decls
import Verif.Models.C03

set_option linter.unusedSimpArgs false

/-!
# C88, C89: scenarios under Python's object protocols

`Obj.lookup n o k` is `o.k` with `n` Python frames left.
-/

namespace ScenarioObj

theorem lookup_of_slot {n : ℕ} {o : Obj} {k : String} {a : Attr} (h : o.slot k = some a) :
    o.lookup n k = pure a := by
  cases n <;> simp [Obj.lookup, h]

theorem lookup_missing {n : ℕ} {o : Obj} {d : Dict} {k : String} (hd : o.data = some d)
    (hk : k ≠ "data") (ha : k ∉ o.attrs.keys) (hc : k ∉ classAttrs) :
    o.lookup (n + 1) k = match d.get? k with
      | some v => pure (.val v)
      | none => Py.raise (.keyError k) := by
  have hs : o.slot k = none := by
    simp [Obj.slot, hk, (Dict.get?_eq_none_iff _ _).2 ha, hc]
  have hsd : o.slot "data" = some (.dict d) := by simp [Obj.slot, hd]
  rw [Obj.lookup, hs]
  simp only [lookup_of_slot hsd, Py.pure_bind']
  cases d.get? k <;> rfl

end ScenarioObj

open ScenarioObj

/-- Attribute access to a name that is a key gives the value; every other name that Python does not
find in the instance or the class is a `KeyError`, never an `AttributeError`: `getattr(s, k, default)`
and `hasattr(s, k)` raise it instead of answering. -/
theorem C88_getattr_default_raises (s : Scenario) (k : String) (default : ScenarioObj.Attr) (n : ℕ)
    (hk : k ≠ "data") (hkey : k ∉ s.data.keys) (hattr : k ∉ s.attrs.keys)
    (hcls : k ∉ ScenarioObj.classAttrs) :
    ((ofScenario s).getattrD (n + 1) k default).res = .error (.keyError k) ∧
    ((ofScenario s).hasattr (n + 1) k).res = .error (.keyError k) := by
  have h := lookup_missing (n := n) (o := ofScenario s) (d := s.data) rfl hk hattr hcls
  rw [(Dict.get?_eq_none_iff _ _).2 hkey] at h
  simp [Obj.getattrD, Obj.hasattr, h]

/-- Whatever the scenario and the name, `hasattr` never answers `False`. -/
theorem C88_hasattr_never_false (s : Scenario) (k : String) (n : ℕ) :
    ((ofScenario s).hasattr n k).res ≠ .ok false := by
  have key : ((ofScenario s).lookup n k).res ≠ .error .attributeError := by
    cases hs : (ofScenario s).slot k with
    | some a => rw [lookup_of_slot hs]; simp
    | none =>
      cases n with
      | zero => simp [Obj.lookup, hs]
      | succ n =>
        have hsd : (ofScenario s).slot "data" = some (.dict s.data) := by simp [Obj.slot, ofScenario]
        rw [Obj.lookup, hs]
        simp only [lookup_of_slot hsd, Py.pure_bind']
        cases s.data.get? k <;> simp
  unfold Obj.hasattr
  split <;> simp_all

/-- `copy.deepcopy` of a scenario, however it was built, and of any model, raises `KeyError`. -/
theorem C88_deepcopy_raises (s : Scenario) (n : ℕ)
    (hk : "__deepcopy__" ∉ s.data.keys) (ha : "__deepcopy__" ∉ s.attrs.keys) :
    ((ofScenario s).deepcopy (n + 1)).res = .error (.keyError "__deepcopy__") := by
  have h := (C88_getattr_default_raises s "__deepcopy__" (.val .none) n (by decide) hk ha
    (by decide)).1
  exact Py.bind_res_error h _

theorem C88_deepcopy_model_raises {Out : Type} (i : Instance Out) (n : ℕ)
    (hk : "__deepcopy__" ∉ i.scenario.data.keys) (ha : "__deepcopy__" ∉ i.scenario.attrs.keys) :
    (deepcopyModel (n + 1) i).res = .error (.keyError "__deepcopy__") :=
  Py.bind_res_error (C88_deepcopy_raises i.scenario n hk ha) _

/-- A pickled scenario, or model, cannot be restored, however high the recursion limit. -/
theorem C88_unpickle_recurses (s : Scenario) (n : ℕ) :
    ((ofScenario s).unpickle n).res = .error .recursionError := by
  have hdata : ∀ n, (⟨none, []⟩ : Obj).lookup n "data" = Py.raise .recursionError := by
    intro n
    have hs : (⟨none, []⟩ : Obj).slot "data" = none := by simp [Obj.slot]
    induction n with
    | zero => simp [Obj.lookup, hs]
    | succ n ih => rw [Obj.lookup, hs]; simp only [ih, Py.raise_bind]
  have h : (⟨none, []⟩ : Obj).lookup n "__setstate__" = Py.raise .recursionError := by
    have hs : (⟨none, []⟩ : Obj).slot "__setstate__" = none := by
      simp [Obj.slot, Dict.get?, classAttrs]
    cases n with
    | zero => simp [Obj.lookup, hs]
    | succ n => rw [Obj.lookup, hs]; simp only [hdata, Py.raise_bind]
  have h' : ((⟨none, []⟩ : Obj).getattrD n "__setstate__" (.val .none)).res =
      .error .recursionError := by simp [Obj.getattrD, h]
  exact Py.bind_res_error h' _

theorem C88_unpickle_model_recurses {Out : Type} (i : Instance Out) (n : ℕ) :
    (unpickleModel n i).res = .error .recursionError :=
  Py.bind_res_error (C88_unpickle_recurses i.scenario n) _

/-- `repr` succeeds exactly when both `mag` and `dist_jb` are keys; otherwise it raises the `KeyError`
of the first one that is missing. -/
theorem C88_repr (fmt : Val → String) (s : Scenario) :
    (∀ m d, s.data.get? "mag" = some m → s.data.get? "dist_jb" = some d →
      (ScenarioObj.repr fmt s).res = .ok ("<Scenario(mag=" ++ fmt m ++ ", dist_jb=" ++ fmt d ++ ")>")) ∧
    ("mag" ∉ s.data.keys → (ScenarioObj.repr fmt s).res = .error (.keyError "mag")) ∧
    ("mag" ∈ s.data.keys → "dist_jb" ∉ s.data.keys →
      (ScenarioObj.repr fmt s).res = .error (.keyError "dist_jb")) := by
  refine ⟨fun m d hm hd => ?_, fun hm => ?_, fun hm hd => ?_⟩
  · simp [ScenarioObj.repr, Scenario.getItem, hm, hd]
  · simp [ScenarioObj.repr, Scenario.getItem, (Dict.get?_eq_none_iff _ _).2 hm]
  · obtain ⟨m, hm⟩ := (Dict.mem_keys_iff _ _).1 hm
    simp [ScenarioObj.repr, Scenario.getItem, hm, (Dict.get?_eq_none_iff _ _).2 hd]

/-- The classes whose `model.scenario` can be printed. -/
def Spec.printable : List String :=
  ["AbrahamsonSilvaKamai2014", "AkkarSandikkayaBommer2014", "BooreStewartSeyhanAtkinson2014",
   "CampbellBozorgnia2014", "ChiouYoungs2014", "DerrasBardCotton2014", "HermkesKuehnRiggelsen2014"]

/-- `repr(model.scenario)`: for seven of the twenty-two shipped classes it always succeeds, for the
other fifteen it always raises `KeyError('dist_jb')`, whatever scenario the model was built from and
even if that scenario had a `dist_jb`. -/
theorem C88_repr_model {Out : Type} (fmt : Val → String) (name : String) (C : ModelClass Out)
    (hC : (name, C.params) ∈ Decls.all)
    (hfill : ∀ s s', (C.fill s).res = .ok s' → s'.data.keys = s.data.keys)
    (s : Scenario) (m : Instance Out) (h : (C.new s).res = .ok m) :
    (name ∈ Spec.printable → ∃ t, (ScenarioObj.repr fmt m.scenario).res = .ok t) ∧
    (name ∉ Spec.printable →
      (ScenarioObj.repr fmt m.scenario).res = .error (.keyError "dist_jb")) := by
  have hk := C04_scenario_keys C (Spec.shipped_ok hC) hfill s m h
  have key : ∀ c ∈ Decls.all, "mag" ∈ c.2.map Param.name ∧
      ("dist_jb" ∈ c.2.map Param.name ↔ c.1 ∈ Spec.printable) := by decide +kernel
  obtain ⟨hm, hd⟩ := key _ hC
  obtain ⟨r1, -, r3⟩ := C88_repr fmt m.scenario
  rw [← hk] at hm hd
  refine ⟨fun hp => ?_, fun hp => ?_⟩
  · obtain ⟨v, hv⟩ := (Dict.mem_keys_iff _ _).1 hm
    obtain ⟨w, hw⟩ := (Dict.mem_keys_iff _ _).1 (hd.2 hp)
    exact ⟨_, r1 v w hv hw⟩
  · exact r3 hm (fun h => hp (hd.1 h))

-- the hypotheses are met: a Campbell (2003) model, `mag` and `dist_rup` only
example : ("Campbell2003", C03.cls.params) ∈ Decls.all ∧ "Campbell2003" ∉ Spec.printable ∧
    ∃ m, (C03.cls.new ⟨[("mag", .num 7), ("dist_rup", .num 20), ("dist_jb", .num 20)], []⟩).res =
      .ok m := by
  refine ⟨by simp [Decls.all, C03.cls], by decide, ?_⟩
  have h := C03.gives (s := ⟨[("mag", .num 7), ("dist_rup", .num 20), ("dist_jb", .num 20)], []⟩)
    (m := 7) (r := 20) (by simp [Scenario.get, Dict.get?]) (by simp [Scenario.get, Dict.get?])
  obtain ⟨i, hi, -⟩ := h
  exact ⟨i, hi⟩

/-! ## C89: what bypasses the key check -/

/-- The union operators never work: `s | other` and `other | s` raise `TypeError` for every scenario
and every dictionary. -/
theorem C89_union_raises (s : Scenario) (other : Dict) :
    (ScenarioObj.or s other).res = .error .typeError ∧
    (ScenarioObj.ror s other).res = .error .typeError := by
  simp [ScenarioObj.or, ScenarioObj.ror, call]

/-- `update` and `|=` are not checked: they succeed for every dictionary, whatever its keys, and both
give the same result, the last value winning. -/
theorem C89_update_unchecked (s : Scenario) (other : Dict) (h : other.WF) (k : String) :
    (ScenarioObj.update s other).data.get? k =
      (match other.get? k with
        | some v => some v
        | none => s.data.get? k) ∧
    ScenarioObj.ior s other = ScenarioObj.update s other := by
  have e : ∀ (other : Dict) (s : Scenario), ScenarioObj.update s other =
      ScenarioObj.ior s other := by
    intro other
    induction other with
    | nil => intro s; simp [ScenarioObj.update, ScenarioObj.ior]
    | cons kv other ih => intro s; rw [ScenarioObj.update, ih]; simp [ScenarioObj.ior, Scenario.setItem]
  refine ⟨?_, (e other s).symm⟩
  rw [e]
  simp only [ScenarioObj.ior, Dict.get?_update h]
  cases other.get? k <;> rfl

/-- `setdefault` keeps a value that is there, even `None`, and stores the given one otherwise; the key
is not checked. -/
theorem C89_setdefault_unchecked (s : Scenario) (k j : String) (v : Val) :
    (ScenarioObj.setdefault s k v).data.get? j =
      (match s.data.get? j with
        | some w => some w
        | none => if j = k then some v else none) := by
  unfold ScenarioObj.setdefault
  cases hk : s.data.get? k with
  | some w =>
    by_cases hj : j = k
    · subst hj; simp [hk]
    · cases hj' : s.data.get? j <;> simp [hj, hj']
  | none =>
    simp only [Scenario.setItem, Dict.get?_set]
    by_cases hj : j = k
    · subst hj; simp [hk]
    · cases hj' : s.data.get? j <;> simp [hj, Ne.symm hj, hj']

/-- `Scenario.fromkeys` is not checked: it succeeds for every list of names and has exactly those
keys. -/
theorem C89_fromkeys_unchecked (ks : List String) (v : Val) :
    ∃ s, (ScenarioObj.fromkeys ks v).res = .ok s ∧
      ∀ k, s.data.get? k = if k ∈ ks then some v else none := by
  have key : ∀ (ks : List String) (s : Scenario) (k : String),
      (ks.foldl (fun s k => s.setItem k v) s).data.get? k =
        if k ∈ ks then some v else s.data.get? k := by
    intro ks
    induction ks with
    | nil => simp
    | cons a ks ih =>
      intro s k
      rw [List.foldl_cons, ih]
      simp only [Scenario.setItem, Dict.get?_set, List.mem_cons]
      by_cases h1 : k ∈ ks
      · simp [h1]
      · by_cases h2 : a = k
        · simp [h2]
        · simp [h1, h2, Ne.symm h2]
  have h0 : call [] [] = pure ⟨[], []⟩ := by
    simp [call, Scenario.init, Scenario.checkKeys, Dict.keys, Dict.update]
  refine ⟨ks.foldl (fun s k => s.setItem k v) ⟨[], []⟩, ?_, fun k => ?_⟩
  · simp [ScenarioObj.fromkeys, h0]
  · rw [key]; simp [Dict.get?]

/-- An unrecognised key that got in this way survives `copy_with`, which checks only its own
arguments, and is invisible to every model. -/
theorem C89_unknown_key_travels (s t : Scenario) (hs : s.data.WF) (kwds : Dict) (hkw : kwds.WF)
    (k : String) (v : Val) (hk : ¬ Spec.Recognised k) (hv : s.data.get? k = some v)
    (h : (s.copyWith kwds).res = .ok t) :
    t.data.get? k = some v ∧
    ∀ (Out : Type) (name : String) (C : ModelClass Out), (name, C.params) ∈ Decls.all →
      ∀ w, C.new (t.setItem k w) = C.new t := by
  refine ⟨?_, fun Out name C hC w => ?_⟩
  · rw [C02_copy_with_overrides s hs kwds hkw t h k]
    have hall := (C01_copy_with_accepts_iff s kwds).1 ⟨t, h⟩
    cases hg : kwds.get? k with
    | none => exact hv
    | some x => exact absurd (hall k ((Dict.mem_keys_iff _ _).2 ⟨x, hg⟩)) hk
  · apply C04_extra_keys_ignored
    intro p hp he
    have := (C14_declarations_well_formed name C.params hC).2.1 p hp
    rw [he] at this
    exact hk this

-- an unrecognised key gets in, and `copy_with` accepts the scenario
example : ∃ s t, (ScenarioObj.fromkeys ["mag", "foo"] (.num 6)).res = .ok s ∧ s.data.WF ∧
    ¬ Spec.Recognised "foo" ∧ s.data.get? "foo" = some (.num 6) ∧
    (s.copyWith [("mag", .num 7)]).res = .ok t := by
  refine ⟨⟨[("mag", .num 6), ("foo", .num 6)], []⟩, ⟨[("mag", .num 7), ("foo", .num 6)], []⟩, ?_, ?_,
    ?_, ?_, ?_⟩
  · simp [ScenarioObj.fromkeys, call, Scenario.init, Scenario.checkKeys, Dict.keys, Dict.update,
      Scenario.setItem, Dict.set]
  · simp [Dict.WF, Dict.keys]
  · simp [Spec.Recognised, Spec.documentedKeys]
  · simp [Dict.get?]
  · simp [Scenario.copyWith, Scenario.checkKeys, Scenario.knownKeys, Dict.keys, Scenario.copy,
      Dict.update, Dict.set]

-- a missing name
example : ("dip" : String) ≠ "data" ∧ "dip" ∉ (⟨[("mag", .num 6)], []⟩ : Scenario).data.keys ∧
    "dip" ∉ ScenarioObj.classAttrs := by
  refine ⟨by decide, by simp [Dict.keys], by decide⟩
