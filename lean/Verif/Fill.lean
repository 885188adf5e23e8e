import Verif.Compute

/-!
# Completion of missing values

Two idioms of the model classes: `if s.k is None: s.k = f(s)` (Campbell & Bozorgnia 2014:
plain attribute assignment) and `if s.k is None: s["k"] = f(s)` (dictionary assignment).
-/

open Classical in
/-- A category: the checked value is the given one if that is an option, and the default
otherwise.  `f` is any way of looking at it that does not distinguish the default from values
that are not options. -/
theorem Checked.cat_any {ps : List Param} {get : String → Val} {d : Dict} (h : Checked ps get d)
    (hn : (ps.map Param.name).Nodup) {name : String} {r : Bool} {opts : List String} {df : Lit}
    (hp : catP name r opts df ∈ ps) {α : Type} (f : Val → α)
    (hf : ∀ v, (∀ t ∈ opts, v ≠ .str t) → f v = f df.toVal) :
    ∃ w, d.get? name = some w ∧ f w = f (get name) := by
  obtain ⟨w, hw, hd⟩ := Model.checkVals_get hn h hp
  refine ⟨w, hd, ?_⟩
  have hname : (catP name r opts df).name = name := rfl
  rw [hname] at hw
  by_cases hin : ∃ t ∈ opts, get name = .str t
  · obtain ⟨t, ht, hg⟩ := hin
    rw [hg, C07_option_kept _ (opts.map .str) rfl _ (by simp)
      ⟨.str t, List.mem_map_of_mem ht, by simp [Val.pyEq, Lit.toVal]⟩] at hw
    rw [hg]; cases hw; rfl
  · have hin' : ∀ t ∈ opts, get name ≠ .str t := fun t ht e => hin ⟨t, ht, e⟩
    rcases C07_result _ (opts.map .str) rfl _ _ hw with ⟨rfl, -⟩ | hw'
    · rfl
    · rw [hw', hf _ hin']; rfl

open Classical in
/-- what a category is checked to: the given value if it is an option, else the default -/
noncomputable def catVal (opts : List String) (df : Lit) (v : Val) : Val :=
  if ∃ t ∈ opts, v = .str t then v else df.toVal

theorem Checked.cat_val {ps : List Param} {get : String → Val} {d : Dict} (h : Checked ps get d)
    (hn : (ps.map Param.name).Nodup) {name : String} {r : Bool} {opts : List String} {df : Lit}
    (hp : catP name r opts df ∈ ps) : d.get? name = some (catVal opts df (get name)) := by
  obtain ⟨w, hw, hd⟩ := Model.checkVals_get hn h hp
  have hname : (catP name r opts df).name = name := rfl
  rw [hname] at hw hd
  rw [hd, catVal]
  by_cases hin : ∃ t ∈ opts, get name = .str t
  · rw [if_pos hin]
    obtain ⟨t, ht, hg⟩ := hin
    rw [hg, C07_option_kept _ (opts.map .str) rfl _ (by simp)
      ⟨.str t, List.mem_map_of_mem ht, by simp [Val.pyEq, Lit.toVal]⟩] at hw
    rw [hg]; cases hw; rfl
  · rw [if_neg hin]
    rcases C07_result _ (opts.map .str) rfl _ _ hw with ⟨rfl, o, ho, he⟩ | hw'
    · exfalso
      obtain ⟨t, ht, rfl⟩ := List.mem_map.1 ho
      apply hin
      refine ⟨t, ht, ?_⟩
      cases hg : get name <;> simp_all [Val.pyEq, Lit.toVal]
    · rw [hw']; rfl

/-- `if s.k is None: s.k = f(s)` -/
noncomputable def fillAttr (k : String) (f : Scenario → Py F) (s : Scenario) : Py Scenario := do
  let v ← s.getAttr k
  match v with
  | .none => do
    let x ← f s
    pure (s.setAttr k x.toVal)
  | _ => pure s

/-- `if s["k"] is None: s["k"] = f(s)` -/
noncomputable def fillItem (k : String) (f : Scenario → Py F) (s : Scenario) : Py Scenario := do
  let v ← s.getItem k
  match v with
  | .none => do
    let x ← f s
    pure (s.setItem k x.toVal)
  | _ => pure s

/-- `if s.get("k", None) is None: s["k"] = f(s)` -/
noncomputable def fillGet (k : String) (f : Scenario → Py F) (s : Scenario) : Py Scenario :=
  match s.get k with
  | .none => do
    let x ← f s
    pure (s.setItem k x.toVal)
  | _ => pure s

/-- the value an optional input ends up with: the given number, or the stored estimate -/
noncomputable def Val.orEst (o : Option ℝ) (e : F) : Val :=
  match o with
  | .some x => .num x
  | .none => e.toVal

/-- the number it is used as -/
noncomputable def F.orEst (o : Option ℝ) (e : F) : F :=
  match o with
  | some x => F.ofReal x
  | none => e.norm

theorem Val.orEst_toF (o : Option ℝ) (e : F) : (Val.orEst o e).toF = pure (F.orEst o e) := by
  cases o with
  | none => exact F.toVal_toF e
  | some x => rfl

@[simp, fsimp] theorem F.orEst_some (x : ℝ) (e : F) : F.orEst (some x) e = F.ofReal x := rfl
theorem F.orEst_none {e : F} (h : e.ok) : F.orEst none e = e := F.norm_of_ok h
theorem F.orEst_ok {o : Option ℝ} {e : F} (h : o = none → e.ok) : (F.orEst o e).ok := by
  cases o with
  | none => simpa [F.orEst] using h rfl
  | some x => simp
theorem F.orEst_val {o : Option ℝ} {e : F} (h : o = none → e.ok) :
    (F.orEst o e).val = o.getD e.val := by
  cases o with
  | none => rw [F.orEst_none (h rfl)]; rfl
  | some x => simp

/-- the scenario after completing `k` by attribute -/
noncomputable def Scenario.doneAttr (s : Scenario) (k : String) (o : Option ℝ) (e : F) : Scenario :=
  match o with
  | some _ => s
  | none => s.setAttr k e.toVal

/-- the scenario after completing `k` by item -/
noncomputable def Scenario.doneItem (s : Scenario) (k : String) (o : Option ℝ) (e : F) : Scenario :=
  match o with
  | some _ => s
  | none => s.setItem k e.toVal

theorem fillAttr_eq {k : String} {f : Scenario → Py F} {s : Scenario} {o : Option ℝ} {e : F}
    (h : s.getAttr k = pure (Val.ofOpt o)) (hf : o = none → f s = pure e) :
    fillAttr k f s = pure (s.doneAttr k o e) := by
  cases o with
  | none => simp [fillAttr, h, hf rfl, Val.ofOpt, Scenario.doneAttr]
  | some x => simp [fillAttr, h, Val.ofOpt, Scenario.doneAttr]

theorem Scenario.getItem_of_attrs {s : Scenario} (hs : s.attrs = []) (k : String) :
    s.getItem k = s.getAttr k := by
  simp [Scenario.getAttr, hs, Dict.get?]

theorem fillItem_eq {k : String} {f : Scenario → Py F} {s : Scenario} {o : Option ℝ} {e : F}
    (hs : s.attrs = []) (h : s.getAttr k = pure (Val.ofOpt o)) (hf : o = none → f s = pure e) :
    fillItem k f s = pure (s.doneItem k o e) := by
  rw [← Scenario.getItem_of_attrs hs] at h
  cases o with
  | none => simp [fillItem, h, hf rfl, Val.ofOpt, Scenario.doneItem]
  | some x => simp [fillItem, h, Val.ofOpt, Scenario.doneItem]

theorem Scenario.get_of_getItem {s : Scenario} {k : String} {v : Val} (h : s.getItem k = pure v) :
    s.get k = v := by
  have h := congrArg Py.res h
  unfold Scenario.getItem at h
  unfold Scenario.get
  cases hd : s.data.get? k with
  | none => rw [hd] at h; simp at h
  | some w => rw [hd] at h; simpa using h

theorem fillGet_eq {k : String} {f : Scenario → Py F} {s : Scenario} {o : Option ℝ} {e : F}
    (hs : s.attrs = []) (h : s.getAttr k = pure (Val.ofOpt o)) (hf : o = none → f s = pure e) :
    fillGet k f s = pure (s.doneItem k o e) := by
  rw [← Scenario.getItem_of_attrs hs] at h
  have h := Scenario.get_of_getItem h
  cases o with
  | none => simp [fillGet, h, hf rfl, Val.ofOpt, Scenario.doneItem]
  | some x => simp [fillGet, h, Val.ofOpt, Scenario.doneItem]

/-- A switch (`CategoricalParameter(.., [True, False], False)`) that has been given as `True`
(or as `1`, which compares equal to it) -/
def Val.isOn (v : Val) : Prop := v = .bool true ∨ v = .num 1

open Classical in
/-- A switch: on exactly when given as `True` or `1`; any other value becomes `False`. -/
theorem Checked.flag {ps : List Param} {get : String → Val} {d : Dict} (h : Checked ps get d)
    (hn : (ps.map Param.name).Nodup) {name : String} {r : Bool}
    (hp : boolP name r (.bool false) ∈ ps) :
    ∃ w, d.get? name = some w ∧ w.truthy = decide (get name).isOn := by
  obtain ⟨w, hw, hd⟩ := Model.checkVals_get hn h hp
  refine ⟨w, hd, ?_⟩
  have hname : (boolP name r (.bool false)).name = name := rfl
  rw [hname] at hw
  generalize hv : get name = v at hw ⊢
  by_cases hin : v.isIn [.bool true, .bool false]
  · have hne : v ≠ .none := by
      rintro rfl
      obtain ⟨o, ho, he⟩ := hin
      simp only [List.mem_cons, List.not_mem_nil, or_false] at ho
      rcases ho with rfl | rfl <;> simp [Val.pyEq, Lit.toVal] at he
    rw [C07_option_kept _ [.bool true, .bool false] rfl _ hne hin] at hw
    have hwv : v = w := Except.ok.inj hw
    subst hwv
    obtain ⟨o, ho, he⟩ := hin
    simp only [List.mem_cons, List.not_mem_nil, or_false] at ho
    cases v with
    | none => exact absurd rfl hne
    | num x =>
      rcases ho with rfl | rfl <;> simp only [Val.pyEq, Lit.toVal, Val.boolNum] at he <;> subst he <;>
        simp [Val.truthy, Val.isOn]
    | nan => rcases ho with rfl | rfl <;> simp [Val.pyEq, Lit.toVal] at he
    | bool b => simp [Val.truthy, Val.isOn]
    | str t => rcases ho with rfl | rfl <;> simp [Val.pyEq, Lit.toVal] at he
  · have hw' : w = .bool false := by
      rcases C07_result _ [.bool true, .bool false] rfl _ _ hw with ⟨-, h⟩ | h
      · exact absurd h hin
      · rw [h]; rfl
    subst hw'
    have : ¬ v.isOn := by
      rintro (rfl | rfl)
      · exact hin ⟨.bool true, by simp, by simp [Val.pyEq, Lit.toVal]⟩
      · exact hin ⟨.bool true, by simp, by simp [Val.pyEq, Lit.toVal, Val.boolNum]⟩
    simp [Val.truthy, this]

namespace Scenario

theorem getAttr_setAttr (s : Scenario) (k k' : String) (v : Val) :
    (s.setAttr k v).getAttr k' = if k = k' then pure v else s.getAttr k' := by
  unfold getAttr setAttr getItem
  rw [Dict.get?_set]
  by_cases h : k = k' <;> simp [h]

theorem doneAttr_self {s : Scenario} {k : String} {o : Option ℝ} {e : F}
    (h : s.getAttr k = pure (Val.ofOpt o)) : (s.doneAttr k o e).getAttr k = pure (Val.orEst o e) := by
  cases o with
  | none => simp [doneAttr, getAttr_setAttr, Val.orEst]
  | some x => simpa [doneAttr, Val.orEst, Val.ofOpt] using h

theorem doneAttr_other {s : Scenario} {k k' : String} {o : Option ℝ} {e : F} (h : k ≠ k') :
    (s.doneAttr k o e).getAttr k' = s.getAttr k' := by
  cases o with
  | none => simp [doneAttr, getAttr_setAttr, h]
  | some x => rfl

theorem doneAttr_data (s : Scenario) (k : String) (o : Option ℝ) (e : F) :
    (s.doneAttr k o e).data = s.data := by cases o <;> rfl

theorem getAttr_setItem {s : Scenario} (hs : s.attrs = []) (k k' : String) (v : Val) :
    (s.setItem k v).getAttr k' = if k = k' then pure v else s.getAttr k' := by
  unfold getAttr setItem getItem
  simp only [hs, Dict.get?]
  rw [Dict.get?_set]
  by_cases h : k = k' <;> simp [h]

theorem doneItem_attrs (s : Scenario) (k : String) (o : Option ℝ) (e : F) :
    (s.doneItem k o e).attrs = s.attrs := by cases o <;> rfl

theorem doneItem_self {s : Scenario} (hs : s.attrs = []) {k : String} {o : Option ℝ} {e : F}
    (h : s.getAttr k = pure (Val.ofOpt o)) : (s.doneItem k o e).getAttr k = pure (Val.orEst o e) := by
  cases o with
  | none => simp [doneItem, getAttr_setItem hs, Val.orEst]
  | some x => simpa [doneItem, Val.orEst, Val.ofOpt] using h

theorem doneItem_other {s : Scenario} (hs : s.attrs = []) {k k' : String} {o : Option ℝ} {e : F}
    (h : k ≠ k') : (s.doneItem k o e).getAttr k' = s.getAttr k' := by
  cases o with
  | none => simp [doneItem, getAttr_setItem hs, h]
  | some x => rfl

theorem num_of_attr {s : Scenario} {k : String} {v : Val} {x : F} (h : s.getAttr k = pure v)
    (hv : v.toF = pure x) : s.num k = pure x := by simp [num, h, hv]

theorem num_of_num {s : Scenario} {k : String} {x : ℝ} (h : s.getAttr k = pure (.num x)) :
    s.num k = pure (F.ofReal x) := num_of_attr h rfl

theorem optNum_attr {s : Scenario} {k : String} {o : Option ℝ} (h : s.getAttr k = pure (Val.ofOpt o)) :
    s.optNum k = pure (o.map F.ofReal) := by
  cases o <;> simp [optNum, h, Val.ofOpt, Val.toF]

theorem num_of_est {s : Scenario} {k : String} {o : Option ℝ} {e : F}
    (h : s.getAttr k = pure (Val.orEst o e)) : s.num k = pure (F.orEst o e) :=
  num_of_attr h (Val.orEst_toF o e)

end Scenario

/-- What a successful completion by attribute has done. -/
theorem fillAttr_ok {k : String} {f : Scenario → Py F} {s s' : Scenario}
    (h : (fillAttr k f s).res = .ok s') :
    s'.data = s.data ∧ (∀ k', k' ≠ k → s'.attrs.get? k' = s.attrs.get? k') ∧
    ((s.getAttr k).res = .ok .none → ∃ v, v ≠ .none ∧ s'.attrs.get? k = some v) ∧
    (∀ v, v ≠ .none → (s.getAttr k).res = .ok v → s' = s) := by
  unfold fillAttr at h
  rw [Py.bind_ok_iff] at h
  obtain ⟨v, hv, h⟩ := h
  by_cases hn : v = .none
  · subst hn
    simp only at h
    rw [Py.bind_ok_iff] at h
    obtain ⟨x, -, h⟩ := h
    simp only [Py.pure_res, Except.ok.injEq] at h
    subst h
    refine ⟨rfl, ?_, ?_, ?_⟩
    · intro k' hk'
      simp only [Scenario.setAttr, Dict.get?_set, if_neg (Ne.symm hk')]
    · intro _
      exact ⟨x.toVal, F.toVal_ne_none x, by simp [Scenario.setAttr, Dict.get?_set]⟩
    · intro w hw hw'
      rw [hv] at hw'; cases hw'; exact absurd rfl hw
  · have : s' = s := by
      cases v <;> simp_all
    subst this
    refine ⟨rfl, fun _ _ => rfl, ?_, fun _ _ _ => rfl⟩
    intro hv'
    rw [hv] at hv'; cases hv'; exact absurd rfl hn

/-- Construction of a class with completion. -/
theorem built_of {Out : Type} {C : ModelClass Out} (hC : ParamsOk C.params) (s : Scenario)
    (hpass : ∀ p ∈ C.params, Passes s p) (P : Scenario → Prop) (o : Out)
    (hfill : ∀ d, Checked C.params s.get d → ∃ t, (C.fill ⟨d, []⟩).res = .ok t ∧ P t ∧
      (C.compute t).res = .ok o) :
    ∃ inst, (C.new s).res = .ok inst ∧ inst.out = o ∧ P inst.scenario := by
  obtain ⟨d, hd⟩ := C05_checks_pass (ps := C.params) s hpass
  obtain ⟨t, ht, hP, ho⟩ := hfill d hd
  refine ⟨⟨t, o⟩, ?_, rfl, hP⟩
  rw [ModelClass.new, ModelClass.newFrom_eq C hC, Py.bind_res_ok hd, Py.bind_res_ok ht,
    Py.bind_res_ok ho]
  rfl

/-- Construction of a class with completion fails with `e` when the checks pass and the
computation on the completed scenario raises `e`. -/
theorem fails_of_fill {Out : Type} {C : ModelClass Out} (hC : ParamsOk C.params) (s : Scenario)
    (e : PyErr) (hpass : ∀ p ∈ C.params, Passes s p)
    (hfill : ∀ d, Checked C.params s.get d → ∃ t, (C.fill ⟨d, []⟩).res = .ok t ∧
      (C.compute t).res = .error e) : (C.new s).res = .error e := by
  obtain ⟨d, hd⟩ := C05_checks_pass (ps := C.params) s hpass
  obtain ⟨t, ht, ho⟩ := hfill d hd
  rw [ModelClass.new, ModelClass.newFrom_eq C hC, Py.bind_res_ok hd, Py.bind_res_ok ht]
  exact Py.bind_res_error ho _
