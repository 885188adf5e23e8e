import Verif.Props.Framework
import Verif.Fill
import Verif.Models.ASK14
import Verif.Models.CY14
import Verif.Models.BA19
import Verif.Models.CB14
import Verif.Models.BSSA14
import Verif.Props.Decls
import Verif.Props.BA19
import Verif.Props.CY14
import Verif.Props.ASK14
import Verif.Props.CB14
import Verif.Props.BSSA14
set_option linter.unusedSimpArgs false

/-!
# C10 for the classes that complete their scenario

`Props/Framework` has C10 for the inherited `_check_inputs`.  Five classes add to it: CB14 and
BSSA14 leave the dictionary alone (attributes, notices), ASK14, CY14 and BA19 write estimates into
it.  In both cases the second construction ends with the same scenario and predictions.
-/

namespace Rebuild

/-- the checks accept a dictionary unchanged if each parameter accepts its value unchanged -/
theorem checkVals_self {ps : List Param} {get : String → Val} {d : Dict}
    (hk : d.keys = ps.map Param.name) (hn : (ps.map Param.name).Nodup)
    (hg : ∀ k v, d.get? k = some v → get k = v)
    (hc : ∀ p ∈ ps, (p.check (get p.name)).res = .ok (get p.name)) :
    (Model.checkVals ps get).res = .ok d := by
  induction ps generalizing d with
  | nil =>
    have : d = [] := by simpa [Dict.keys] using hk
    subst this; rfl
  | cons p ps ih =>
    cases d with
    | nil => simp [Dict.keys] at hk
    | cons kv d =>
      obtain ⟨k, v⟩ := kv
      simp only [Dict.keys, List.map_cons, List.cons.injEq] at hk
      obtain ⟨rfl, hk⟩ := hk
      simp only [List.map_cons, List.nodup_cons] at hn
      have hv : get p.name = v := hg _ _ (by simp [Dict.get?])
      have ht : (Model.checkVals ps get).res = .ok d := by
        apply ih hk hn.2
        · intro k w hw
          apply hg
          have : p.name ≠ k := by
            rintro rfl
            apply hn.1
            rw [← hk]
            exact (Dict.mem_keys_iff d _).2 ⟨w, hw⟩
          simp [Dict.get?, this, hw]
        · intro q hq; exact hc q (by simp [hq])
      have hh := hc p (by simp)
      rw [hv] at hh
      simp only [Model.checkVals, Py.bind_ok_iff, hv]
      exact ⟨v, hh, d, ht, rfl⟩

/-- a required value that passed the check is kept, unless it is a category given as something
else than its options -/
theorem required_kept {p : Param} {v w : Val} (h : (p.check v).res = .ok w)
    (hr : p.required = true)
    (hcat : ∀ opts, p.kind = .categorical opts → v.isIn opts) : w ≠ .none := by
  have hv : v ≠ .none := by
    rintro rfl
    rw [Param.check_none_required hr] at h; cases h
  cases hk : p.kind with
  | categorical opts =>
    rw [C07_option_kept p opts hk v hv (hcat opts hk)] at h
    cases h; exact hv
  | numeric mn mx =>
    by_cases hc : v.comparable
    · obtain ⟨l, hl⟩ := Param.check_numeric_comparable hk hc
      rw [hl] at h; cases h; exact hv
    · have hs : ∃ t, v = .str t := by
        cases v <;> simp [Val.comparable] at hc hv ⊢
      obtain ⟨t, rfl⟩ := hs
      unfold Param.check at h
      rw [Param.baseCheck_of_ne hv, Py.pure_bind', hk] at h
      cases mn <;> cases mx <;> simp [Param.below, Param.above] at h
      exact h ▸ hv

/-- every required category of `s` is given as one of its options -/
def Valid (ps : List Param) (s : Scenario) : Prop :=
  ∀ p ∈ ps, p.required = true → ∀ opts, p.kind = .categorical opts → (s.get p.name).isIn opts

/-- what the rebuild needs of the additional part of `_check_inputs`: it adds no key, changes only
missing values (`None`) of the names `K`, to numbers, and run on its own result changes nothing -/
structure Completing (ps : List Param) (K : List String) (g : Scenario → Py Scenario) : Prop where
  keys : ∀ s s', s.data.keys = ps.map Param.name → s.attrs = [] → (g s).res = .ok s' →
    s'.data.keys = s.data.keys
  vals : ∀ s s', s.data.keys = ps.map Param.name → s.attrs = [] → (g s).res = .ok s' → ∀ k,
    s'.data.get? k = s.data.get? k ∨
      k ∈ K ∧ s.data.get? k = some .none ∧ ∃ x : F, s'.data.get? k = some x.toVal
  again : ∀ s s', s.data.keys = ps.map Param.name → s.attrs = [] → (g s).res = .ok s' →
    (g ⟨s'.data, []⟩).res = .ok s'

theorem toVal_comparable (x : F) : x.toVal.comparable := by
  unfold F.toVal; split <;> trivial

/-- rebuilding a class whose `_check_inputs` completes the scenario -/
theorem rebuild {Out : Type} (C : ModelClass Out) (hC : ParamsOk C.params) (K : List String)
    (hK : ∀ p ∈ C.params, p.name ∈ K → ∃ mn mx, p.kind = .numeric mn mx)
    (hfill : Completing C.params K C.fill) (s : Scenario) (m : Instance Out)
    (h : (C.new s).res = .ok m) (hval : Valid C.params s) :
    (C.new m.scenario).res = .ok m := by
  rw [ModelClass.new, ModelClass.newFrom_eq C hC] at h
  simp only [Py.bind_ok_iff, Py.pure_res, Except.ok.injEq] at h
  obtain ⟨d, hd, s', hs', out, hout, rfl⟩ := h
  have hdk := Model.checkVals_keys hd
  have hk := hfill.keys ⟨d, []⟩ s' hdk rfl hs'
  have hv := hfill.vals ⟨d, []⟩ s' hdk rfl hs'
  have hag := hfill.again ⟨d, []⟩ s' hdk rfl hs'
  have h2 : (Model.checkVals C.params s'.get).res = .ok s'.data := by
    apply checkVals_self (hk.trans hdk) hC.1
    · intro k w hw; simp [Scenario.get, hw]
    · intro p hp
      obtain ⟨v, hcv, hdv⟩ := Model.checkVals_get hC.1 hd hp
      rcases hv p.name with he | ⟨hkK, -, x, hx⟩
      · have hg : s'.get p.name = v := by simp [Scenario.get, he, hdv]
        rw [hg]
        apply C10_check_idempotent p _ v hcv
        intro hr
        exact required_kept hcv hr fun opts ho => hval p hp hr opts ho
      · have hg : s'.get p.name = x.toVal := by simp [Scenario.get, hx]
        rw [hg]
        obtain ⟨mn, mx, hkind⟩ := hK p hp hkK
        obtain ⟨l, hl⟩ := Param.check_numeric_comparable hkind (toVal_comparable x)
        rw [hl]
  rw [ModelClass.new, ModelClass.newFrom_eq C hC, Py.bind_res_ok h2, Py.bind_res_ok hag,
    Py.bind_res_ok hout]
  rfl

/-- a part that only sets attributes or gives notices -/
theorem completing_of_data {ps : List Param} {g : Scenario → Py Scenario}
    (hg : ∀ s s', (g s).res = .ok s' → s'.data = s.data) : Completing ps [] g where
  keys s s' _ _ h := by rw [hg s s' h]
  vals s s' _ _ h k := .inl (by rw [hg s s' h])
  again s s' _ ha h := by
    rw [hg s s' h, ← ha]; exact h

theorem fillAttr_data {k : String} {f : Scenario → Py F} {s s' : Scenario}
    (h : (fillAttr k f s).res = .ok s') : s'.data = s.data := by
  simp only [fillAttr, Py.bind_ok_iff] at h
  obtain ⟨v, -, h⟩ := h
  cases v <;> simp only [Py.bind_ok_iff, Py.pure_res, Except.ok.injEq] at h
  · obtain ⟨x, -, rfl⟩ := h; rfl
  all_goals rw [← h]

/-- what one completing assignment does -/
theorem fillItem_cases {k : String} {f : Scenario → Py F} {s s' : Scenario}
    (h : (fillItem k f s).res = .ok s') :
    (s' = s ∧ ∃ v, s.data.get? k = some v ∧ v ≠ .none) ∨
      (s.data.get? k = some .none ∧ ∃ x : F, s' = s.setItem k x.toVal) := by
  simp only [fillItem, Py.bind_ok_iff] at h
  obtain ⟨v, hv, h⟩ := h
  have hv' : s.data.get? k = some v := by
    unfold Scenario.getItem at hv
    split at hv <;> simp_all
  cases v <;> simp only [Py.bind_ok_iff, Py.pure_res, Except.ok.injEq] at h
  · obtain ⟨x, -, rfl⟩ := h
    exact .inr ⟨hv', x, rfl⟩
  all_goals exact .inl ⟨h.symm, _, hv', by simp⟩

theorem fillItem_stable {k : String} {f : Scenario → Py F} {s : Scenario} {v : Val}
    (hv : s.data.get? k = some v) (hn : v ≠ .none) : (fillItem k f s).res = .ok s := by
  have : s.getItem k = pure v := by simp [Scenario.getItem, hv]
  unfold fillItem
  rw [this, Py.pure_bind']
  cases v <;> first | exact absurd rfl hn | rfl

theorem fillGet_eq_item {k : String} {f : Scenario → Py F} {s : Scenario}
    (hk : k ∈ s.data.keys) : fillGet k f s = fillItem k f s := by
  obtain ⟨v, hv⟩ := (Dict.mem_keys_iff _ _).1 hk
  have h1 : s.getItem k = pure v := by simp [Scenario.getItem, hv]
  have h2 : s.get k = v := by simp [Scenario.get, hv]
  unfold fillItem fillGet
  rw [h1, h2, Py.pure_bind']

/-- the completed value is a number or `nan`, and in place -/
theorem fillItem_keeps {k : String} {f : Scenario → Py F} {s s' : Scenario}
    (h : (fillItem k f s).res = .ok s') :
    s'.attrs = s.attrs ∧ s'.data.keys = s.data.keys ∧
      (∀ j, s'.data.get? j = s.data.get? j ∨
        j = k ∧ s.data.get? j = some .none ∧ ∃ x : F, s'.data.get? j = some x.toVal) ∧
      ∃ v, s'.data.get? k = some v ∧ v ≠ .none := by
  rcases fillItem_cases h with ⟨rfl, v, hv, hn⟩ | ⟨hv, x, rfl⟩
  · exact ⟨rfl, rfl, fun _ => .inl rfl, v, hv, hn⟩
  · refine ⟨rfl, Dict.keys_set_of_mem _ ((Dict.mem_keys_iff _ _).2 ⟨_, hv⟩), ?_, x.toVal, ?_,
      F.toVal_ne_none x⟩
    · intro j
      simp only [Scenario.setItem, Dict.get?_set]
      by_cases hj : j = k
      · subst hj; right; exact ⟨rfl, hv, x, by simp⟩
      · left; simp [hj, Ne.symm hj]
    · simp [Scenario.setItem, Dict.get?_set]

theorem completing_one (ps : List Param) (k : String) (f : Scenario → Py F) :
    Completing ps [k] (fillItem k f) where
  keys s s' _ _ h := (fillItem_keeps h).2.1
  vals s s' _ _ h j := by
    rcases (fillItem_keeps h).2.2.1 j with h | ⟨rfl, h'⟩
    · exact .inl h
    · exact .inr ⟨by simp, h'⟩
  again s s' _ ha h := by
    obtain ⟨h1, -, -, v, hv, hn⟩ := fillItem_keeps h
    have : (⟨s'.data, []⟩ : Scenario) = s' := by
      cases s'; simp only at h1 ⊢; rw [h1, ha]
    rw [this]
    exact fillItem_stable hv hn

theorem completing_two (ps : List Param) (k l : String) (hkl : k ≠ l) (f g : Scenario → Py F) :
    Completing ps [k, l] (fun s => do
      let s ← fillItem k f s
      fillItem l g s) where
  keys s s' _ _ h := by
    simp only [Py.bind_ok_iff] at h
    obtain ⟨t, h1, h2⟩ := h
    exact (fillItem_keeps h2).2.1.trans (fillItem_keeps h1).2.1
  vals s s' _ _ h j := by
    simp only [Py.bind_ok_iff] at h
    obtain ⟨t, h1, h2⟩ := h
    rcases (fillItem_keeps h2).2.2.1 j with e2 | ⟨rfl, e2, hx⟩
    · rw [e2]
      rcases (fillItem_keeps h1).2.2.1 j with h | ⟨rfl, h⟩
      · exact .inl h
      · exact .inr ⟨by simp, h⟩
    · rcases (fillItem_keeps h1).2.2.1 j with h | ⟨h, -⟩
      · exact .inr ⟨by simp, by rw [← h]; exact e2, hx⟩
      · exact absurd h.symm hkl
  again s s' _ ha h := by
    simp only [Py.bind_ok_iff] at h ⊢
    obtain ⟨t, h1, h2⟩ := h
    obtain ⟨a1, -, -, v, hv, hn⟩ := fillItem_keeps h1
    obtain ⟨a2, -, c2, w, hw, hwn⟩ := fillItem_keeps h2
    have he : (⟨s'.data, []⟩ : Scenario) = s' := by
      cases s'; simp only at a2 ⊢; rw [a2, a1, ha]
    rw [he]
    refine ⟨s', ?_, fillItem_stable hw hwn⟩
    rcases c2 k with h | ⟨h, -⟩
    · exact fillItem_stable (h.trans hv) hn
    · exact absurd h hkl

/-- the notice of Chiou & Youngs reads two values that are not completed -/
theorem magNotice_congr {s t : Scenario} (h1 : s.getAttr "mechanism" = t.getAttr "mechanism")
    (h2 : s.getAttr "mag" = t.getAttr "mag") : CY14.magNotice s = CY14.magNotice t := by
  unfold CY14.magNotice
  rw [h1, h2]

theorem completing_cy14 : Completing Decls.cy14 ["depth_tor", "depth_1_0"] CY14.fill := by
  have hmem1 : "depth_tor" ∈ Decls.cy14.map Param.name := by decide
  have hmem2 : "depth_1_0" ∈ Decls.cy14.map Param.name := by decide
  have key : ∀ s s', s.data.keys = Decls.cy14.map Param.name →
      ((CY14.fill s).res = .ok s' ↔ (CY14.magNotice s).res = .ok () ∧
        ((fun s => do
          let s ← fillItem "depth_tor" CY14.estDepthTor s
          fillItem "depth_1_0" CY14.estDepth10 s : Scenario → Py Scenario) s).res = .ok s') := by
    intro s s' hk
    have e1 : fillGet "depth_tor" CY14.estDepthTor s = fillItem "depth_tor" CY14.estDepthTor s :=
      fillGet_eq_item (hk ▸ hmem1)
    simp only [CY14.fill, Py.bind_ok_iff, e1]
    constructor
    · rintro ⟨⟨⟩, hm, t, ht, hl⟩
      refine ⟨hm, t, ht, ?_⟩
      rwa [fillGet_eq_item (by rw [(fillItem_keeps ht).2.1, hk]; exact hmem2)] at hl
    · rintro ⟨hm, t, ht, hl⟩
      refine ⟨(), hm, t, ht, ?_⟩
      rwa [fillGet_eq_item (by rw [(fillItem_keeps ht).2.1, hk]; exact hmem2)]
  have two := completing_two Decls.cy14 "depth_tor" "depth_1_0" (by decide) CY14.estDepthTor
    CY14.estDepth10
  refine ⟨fun s s' hk ha h => two.keys s s' hk ha ((key s s' hk).1 h).2,
    fun s s' hk ha h => two.vals s s' hk ha ((key s s' hk).1 h).2, fun s s' hk ha h => ?_⟩
  obtain ⟨hm, h⟩ := (key s s' hk).1 h
  have hk' : s'.data.keys = Decls.cy14.map Param.name := (two.keys s s' hk ha h).trans hk
  rw [key ⟨s'.data, []⟩ s' hk']
  refine ⟨?_, two.again s s' hk ha h⟩
  rw [← hm]
  congr 1
  have hv := two.vals s s' hk ha h
  apply magNotice_congr
  · rcases hv "mechanism" with h | ⟨h, -⟩
    · simp only [Scenario.getAttr, Dict.get?, ha, Scenario.getItem, h]
    · simp at h
  · rcases hv "mag" with h | ⟨h, -⟩
    · simp only [Scenario.getAttr, Dict.get?, ha, Scenario.getItem, h]
    · simp at h

end Rebuild

open Rebuild

/-- Campbell & Bozorgnia (2014) -/
theorem C10_rebuild_cb14 (s : Scenario) (m : Instance CB14.Out) (h : (CB14.cls.new s).res = .ok m)
    (hval : Valid Decls.cb14 s) :
    (CB14.cls.new m.scenario).res = .ok m := by
  refine rebuild CB14.cls (by decide) [] (by simp) (completing_of_data ?_) s m h hval
  intro s s' h
  simp only [CB14.cls, CB14.fill, Py.bind_ok_iff] at h
  obtain ⟨-, -, -, -, -, -, a, ha, b, hb, c, hc, d, hd, he⟩ := h
  rw [fillAttr_data he, fillAttr_data hd, fillAttr_data hc, fillAttr_data hb, fillAttr_data ha]

/-- Boore, Stewart, Seyhan & Atkinson (2014) -/
theorem C10_rebuild_bssa14 (s : Scenario) (m : Instance BSSA14.Out)
    (h : (BSSA14.cls.new s).res = .ok m)
    (hval : Valid Decls.bssa14 s) :
    (BSSA14.cls.new m.scenario).res = .ok m := by
  refine rebuild BSSA14.cls (by decide) [] (by simp) (completing_of_data ?_) s m h hval
  intro s s' h
  simp only [BSSA14.cls, Py.bind_ok_iff, Py.pure_res, Except.ok.injEq] at h
  obtain ⟨-, -, rfl⟩ := h
  rfl

/-- Abrahamson, Silva & Kamai (2014) -/
theorem C10_rebuild_ask14 (s : Scenario) (m : Instance ASK14.Out)
    (h : (ASK14.cls.new s).res = .ok m)
    (hval : Valid Decls.ask14 s) :
    (ASK14.cls.new m.scenario).res = .ok m := by
  refine rebuild ASK14.cls (by decide) ["width", "depth_tor"] ?_
    (completing_two _ "width" "depth_tor" (by decide) _ _) s m h hval
  simp [ASK14.cls, Decls.ask14, numP, catP, boolP]

/-- Chiou & Youngs (2014) -/
theorem C10_rebuild_cy14 (s : Scenario) (m : Instance CY14.Out)
    (h : (CY14.cls.new s).res = .ok m)
    (hval : Valid Decls.cy14 s) :
    (CY14.cls.new m.scenario).res = .ok m := by
  refine rebuild CY14.cls (by decide) ["depth_tor", "depth_1_0"] ?_ completing_cy14 s m h hval
  simp [CY14.cls, Decls.cy14, numP, catP, boolP]

/-- Bayless & Abrahamson (2019) -/
theorem C10_rebuild_ba19 (s : Scenario) (m : Instance BA19.Out)
    (h : (BA19.cls.new s).res = .ok m)
    (hval : Valid Decls.ba19 s) :
    (BA19.cls.new m.scenario).res = .ok m := by
  refine rebuild BA19.cls (by decide) ["depth_1_0"] ?_ (completing_one _ _ _) s m h hval
  simp [BA19.cls, Decls.ba19, numP, catP, boolP]

/-- any class with the inherited `_check_inputs` -/
theorem C10_rebuild_valid {Out : Type} (C : ModelClass Out) (hC : ParamsOk C.params)
    (hfill : ∀ s, C.fill s = pure s) (s : Scenario) (m : Instance Out)
    (h : (C.new s).res = .ok m) (hval : Valid C.params s) : (C.new m.scenario).res = .ok m :=
  rebuild C hC [] (by simp) (completing_of_data fun s s' h => by
    rw [hfill] at h; simp at h; rw [h]) s m h hval

/-- a BA19 scenario without depth to 1 km/s: completed once, kept by the rebuild -/
example : ∃ m, (BA19.cls.new (BA19.sample 20 7 250 3 .none "SS")).res = .ok m ∧
    (BA19.cls.new m.scenario).res = .ok m := by
  obtain ⟨m, hm, -⟩ := BA19.built (BA19.sample_source 20 7 250 3 none "SS")
  refine ⟨m, hm, C10_rebuild_ba19 _ m hm ?_⟩
  simp [Valid, Decls.ba19, numP, catP]

example : ∃ m, (CY14.cls.new (CY14.exS CY14.exG "italy")).res = .ok m ∧
    (CY14.cls.new m.scenario).res = .ok m := by
  obtain ⟨m, hm, -⟩ := CY14.built (CY14.ex_source CY14.exG rfl rfl rfl "italy")
  refine ⟨m, hm, C10_rebuild_cy14 _ m hm ?_⟩
  simp [Valid, Decls.cy14, numP, catP, boolP, CY14.exS, Scenario.get, Dict.get?, Val.isIn, Val.pyEq,
    Lit.toVal]

example : ∃ m, (ASK14.cls.new (ASK14.exS ASK14.exG "italy" true)).res = .ok m ∧
    (ASK14.cls.new m.scenario).res = .ok m := by
  obtain ⟨m, hm, -⟩ := ASK14.built (ASK14.ex_source ASK14.exG rfl rfl rfl rfl "italy" true)
    (fun _ => by simp [ASK14.exG])
  refine ⟨m, hm, C10_rebuild_ask14 _ m hm ?_⟩
  simp [Valid, Decls.ask14, numP, catP, boolP, ASK14.exS, Scenario.get, Dict.get?, Val.isIn, Val.pyEq,
    Lit.toVal]

example : ∃ m, (CB14.cls.new (CB14.exS 20)).res = .ok m ∧ (CB14.cls.new m.scenario).res = .ok m := by
  obtain ⟨m, hm, -⟩ := CB14.built (CB14.ex_source 20) (by norm_num [CB14.exG])
  refine ⟨m, hm, C10_rebuild_cb14 _ m hm ?_⟩
  simp [Valid, Decls.cb14, numP, catP, boolP, CB14.exS, Scenario.get, Dict.get?, Val.isIn, Val.pyEq,
    Lit.toVal]

example : ∃ m, (BSSA14.cls.new (BSSA14.exS BSSA14.exG "japan")).res = .ok m ∧
    (BSSA14.cls.new m.scenario).res = .ok m := by
  obtain ⟨m, hm, -⟩ := BSSA14.gives (BSSA14.ex_source BSSA14.exG "japan")
  refine ⟨m, hm, C10_rebuild_bssa14 _ m hm ?_⟩
  simp [Valid, Decls.bssa14, numP, catP, boolP, BSSA14.exS, Scenario.get, Dict.get?, Val.isIn, Val.pyEq,
    Lit.toVal]
