import Verif.Models.CB14
import Verif.Bounds
import Mathlib.Analysis.SpecialFunctions.Pow.Continuity

/-! # C15, C18, C50, C51, C64: Campbell & Bozorgnia (2014) -/

open Bounds

set_option linter.unusedSimpArgs false

/-! ## C15 -/

namespace CB14

theorem ok_params : ParamsOk cls.params := by change ParamsOk Decls.cb14; decide +kernel
theorem nodup : (Decls.cb14.map Param.name).Nodup := by decide +kernel

/-- the keys `_check_inputs` completes -/
def completed : List String := ["depth_2_5", "depth_tor", "width", "depth_bor", "depth_hyp"]

/-- state of the completion after some of its keys -/
def Filled (d : Dict) (done : List String) (s : Scenario) : Prop :=
  s.data = d ∧ (∀ k, k ∉ done → s.attrs.get? k = none) ∧
  ∀ k ∈ done, (d.get? k = some .none → ∃ v, v ≠ .none ∧ s.attrs.get? k = some v) ∧
    (∀ v, v ≠ .none → d.get? k = some v → s.attrs.get? k = none)

theorem Filled.step {d : Dict} {done : List String} {s s' : Scenario} {k : String}
    {f : Scenario → Py F} (hs : Filled d done s) (hk : k ∉ done)
    (h : (fillAttr k f s).res = .ok s') : Filled d (k :: done) s' := by
  obtain ⟨h1, h2, h3⟩ := hs
  obtain ⟨g1, g2, g3, g4⟩ := fillAttr_ok h
  have hatt : ∀ v, d.get? k = some v → (s.getAttr k).res = .ok v := by
    intro v hv
    simp [Scenario.getAttr, h2 k hk, Scenario.getItem, h1, hv]
  refine ⟨g1.trans h1, ?_, ?_⟩
  · intro k' hk'
    simp only [List.mem_cons, not_or] at hk'
    rw [g2 k' hk'.1, h2 k' hk'.2]
  · intro k' hk'
    by_cases hkk : k' = k
    · subst hkk
      refine ⟨fun hn => g3 (hatt _ hn), fun v hv hd => ?_⟩
      rw [g4 v hv (hatt v hd)]
      exact h2 k' hk
    · have : k' ∈ done := by simpa [hkk] using hk'
      rw [g2 k' hkk]
      exact h3 k' this

theorem fill_ok {d : Dict} {t : Scenario} (h : (fill ⟨d, []⟩).res = .ok t) :
    Filled d completed t := by
  simp only [fill, Py.bind_ok_iff] at h
  obtain ⟨_, -, _, -, _, -, s1, h1, s2, h2, s3, h3, s4, h4, h5⟩ := h
  have f0 : Filled d [] ⟨d, []⟩ := ⟨rfl, fun k _ => rfl, by simp⟩
  have f1 := f0.step (by decide) h1
  have f2 := f1.step (by decide) h2
  have f3 := f2.step (by decide) h3
  have f4 := f3.step (by decide) h4
  have f5 := f4.step (by decide) h5
  obtain ⟨a, b, c⟩ := f5
  have e : ∀ k, k ∈ completed ↔ k ∈ ["depth_hyp", "depth_bor", "width", "depth_tor", "depth_2_5"] := by
    intro k; simp only [completed, List.mem_cons, List.not_mem_nil, or_false]; tauto
  exact ⟨a, fun k hk => b k (by rwa [← e]), fun k hk => c k (by rwa [← e])⟩

/-- a constructed model: checked dictionary, completed scenario, outputs -/
theorem new_ok {s : Scenario} {inst : Instance Out} (h : (cls.new s).res = .ok inst) :
    ∃ d, Checked cls.params s.get d ∧ (fill ⟨d, []⟩).res = .ok inst.scenario ∧
      (cls.compute inst.scenario).res = .ok inst.out := by
  rw [ModelClass.new, ModelClass.newFrom_eq cls ok_params] at h
  simp only [Py.bind_ok_iff, Py.pure_res, Except.ok.injEq] at h
  obtain ⟨d, hd, t, ht, o, ho, rfl⟩ := h
  exact ⟨d, hd, ht, ho⟩

theorem completed_optional {k : String} (hk : k ∈ completed) :
    ∃ mn mx, numP k false mn mx .none ∈ Decls.cb14 := by
  simp only [completed, List.mem_cons, List.not_mem_nil, or_false] at hk
  rcases hk with rfl | rfl | rfl | rfl | rfl
  · exact ⟨_, _, by mem_tac⟩
  · exact ⟨_, _, by mem_tac⟩
  · exact ⟨_, _, by mem_tac⟩
  · exact ⟨_, _, by mem_tac⟩
  · exact ⟨_, _, by mem_tac⟩

end CB14

/-- However the model was built: a key that was left out still reads `None` by subscription,
while the attribute of the same name holds the estimate; and after overriding that key with
`copy_with` the subscription reads the override but the attribute still reads the old
estimate. -/
theorem C15_estimates_are_attributes (s : Scenario) (m : Instance CB14.Out)
    (h : (CB14.cls.new s).res = .ok m) (k : String)
    (hk : k ∈ ["depth_2_5", "depth_tor", "width", "depth_bor", "depth_hyp"])
    (hmissing : s.get k = .none) :
    m.scenario.getItem k = pure .none ∧
    ∃ estimate, estimate ≠ Val.none ∧ m.scenario.getAttr k = pure estimate ∧
      ∀ (w : Val), ∃ t, (m.scenario.copyWith [(k, w)]).res = .ok t ∧
        t.getItem k = pure w ∧ t.getAttr k = pure estimate := by
  obtain ⟨d, hd, hf, -⟩ := CB14.new_ok h
  obtain ⟨f1, -, f3⟩ := CB14.fill_ok hf
  obtain ⟨mn, mx, hp⟩ := CB14.completed_optional hk
  have hdk : d.get? k = some .none := Checked.absent hd CB14.nodup hp hmissing
  obtain ⟨v, hv, hvk⟩ := (f3 k hk).1 hdk
  refine ⟨by simp [Scenario.getItem, f1, hdk], v, hv, by simp [Scenario.getAttr, hvk], ?_⟩
  intro w
  have hkn : ∀ x ∈ Dict.keys [(k, w)], x ∈ Scenario.knownKeys := by
    simp only [CB14.completed, List.mem_cons, List.not_mem_nil, or_false] at hk
    intro x hx
    simp only [Dict.keys, List.map_cons, List.map_nil, List.mem_singleton] at hx
    subst hx
    rcases hk with rfl | rfl | rfl | rfl | rfl <;> decide
  refine ⟨_, by rw [Scenario.copyWith, Scenario.checkKeys_of_all hkn, Py.pure_bind']; rfl, ?_, ?_⟩
  · simp [Scenario.getItem, Dict.get?_set]
  · simp [Scenario.getAttr, Scenario.copy, hvk]

/-- A value that was given is the same by attribute and by subscription, and an override by
`copy_with` is seen by both. -/
theorem C15_given_values (s : Scenario) (m : Instance CB14.Out)
    (h : (CB14.cls.new s).res = .ok m) (k : String)
    (hk : k ∈ ["depth_2_5", "depth_tor", "width", "depth_bor", "depth_hyp"]) (x : ℝ)
    (hgiven : s.get k = .num x) :
    m.scenario.getItem k = pure (.num x) ∧ m.scenario.getAttr k = pure (.num x) ∧
    ∀ (w : Val), ∃ t, (m.scenario.copyWith [(k, w)]).res = .ok t ∧
        t.getItem k = pure w ∧ t.getAttr k = pure w := by
  obtain ⟨d, hd, hf, -⟩ := CB14.new_ok h
  obtain ⟨f1, -, f3⟩ := CB14.fill_ok hf
  obtain ⟨mn, mx, hp⟩ := CB14.completed_optional hk
  have hdk : d.get? k = some (.num x) := Checked.num hd CB14.nodup hp hgiven
  have hvk := (f3 k hk).2 _ (by simp) hdk
  refine ⟨by simp [Scenario.getItem, f1, hdk], by simp [Scenario.getAttr, hvk, Scenario.getItem, f1, hdk], ?_⟩
  intro w
  have hkn : ∀ x ∈ Dict.keys [(k, w)], x ∈ Scenario.knownKeys := by
    simp only [List.mem_cons, List.not_mem_nil, or_false] at hk
    intro x hx
    simp only [Dict.keys, List.map_cons, List.map_nil, List.mem_singleton] at hx
    subst hx
    rcases hk with rfl | rfl | rfl | rfl | rfl <;> decide
  refine ⟨_, by rw [Scenario.copyWith, Scenario.checkKeys_of_all hkn, Py.pure_bind']; rfl, ?_, ?_⟩
  · simp [Scenario.getItem, Dict.get?_set]
  · simp [Scenario.getAttr, Scenario.copy, hvk, Scenario.getItem, Dict.get?_set]

namespace CB14

/-! ## Numeric scenarios -/

/-- numeric inputs of a scenario -/
structure Given where
  mag : ℝ
  rup : ℝ
  jb : ℝ
  x : ℝ
  dip : ℝ
  v : ℝ
  bot : Option ℝ := none
  z1 : Option ℝ := none
  z25 : Option ℝ := none
  bor : Option ℝ := none
  hyp : Option ℝ := none
  tor : Option ℝ := none
  width : Option ℝ := none

/-- `s` holds these numbers (anything as region, anything but nothing as mechanism) -/
structure Source (s : Scenario) (g : Given) : Prop where
  mag : s.get "mag" = .num g.mag
  rup : s.get "dist_rup" = .num g.rup
  jb : s.get "dist_jb" = .num g.jb
  x : s.get "dist_x" = .num g.x
  dip : s.get "dip" = .num g.dip
  v : s.get "v_s30" = .num g.v
  bot : s.get "depth_bot" = Val.ofOpt g.bot
  z1 : s.get "depth_1_0" = Val.ofOpt g.z1
  z25 : s.get "depth_2_5" = Val.ofOpt g.z25
  bor : s.get "depth_bor" = Val.ofOpt g.bor
  hyp : s.get "depth_hyp" = Val.ofOpt g.hyp
  tor : s.get "depth_tor" = Val.ofOpt g.tor
  width : s.get "width" = Val.ofOpt g.width
  mech : s.get "mechanism" ≠ .none

noncomputable section

/-- the value used for each input that may be left out -/
def Given.effZ25 (g : Given) (reg : Reg) : F :=
  F.orEst g.z25 (depth25OfVs (F.ofReal g.v) (reg = .japan))
@[inherit_doc Given.effZ25]
def Given.effTor (g : Given) (mech : Mech) : F :=
  F.orEst g.tor (CY14.calcDepthTor (F.ofReal g.mag) (mech = .rs))
@[inherit_doc Given.effZ25]
def Given.effWidth (g : Given) (mech : Mech) : F :=
  F.orEst g.width (calcWidth (F.ofReal g.mag) (F.ofReal g.dip) (g.effTor mech)
    (F.ofReal (g.bot.getD ((15 : ℚ) : ℝ))))
@[inherit_doc Given.effZ25]
def Given.effBor (g : Given) (mech : Mech) : F :=
  F.orEst g.bor (calcDepthBor (g.effTor mech) (F.ofReal g.dip) (g.effWidth mech))
@[inherit_doc Given.effZ25]
def Given.effHyp (g : Given) (mech : Mech) : F :=
  F.orEst g.hyp (calcDepthHyp (F.ofReal g.mag) (F.ofReal g.dip) (g.effTor mech) (g.effBor mech))

/-- the inputs of the formulas -/
def Given.toIn (g : Given) (mech : Mech) (reg : Reg) : In where
  mag := F.ofReal g.mag
  rup := F.ofReal g.rup
  jb := F.ofReal g.jb
  x := F.ofReal g.x
  dip := F.ofReal g.dip
  width := g.effWidth mech
  tor := g.effTor mech
  hyp := g.effHyp mech
  z25 := g.effZ25 reg
  v := F.ofReal g.v
  mech := mech
  reg := reg

end

theorem mechOf_rs (v : Val) : v.isStr "RS" = decide (mechOf v = .rs) := by
  unfold mechOf
  by_cases h : v.isStr "RS" <;> by_cases h2 : v.isStr "NS" <;> simp [h, h2]

theorem regOf_japan (v : Val) : v.isStr "japan" = decide (regOf v = .japan) := by
  unfold regOf
  by_cases h : v.isStr "japan" <;> by_cases h2 : v.isStr "italy" <;> simp [h, h2]

theorem mechOf_other {v : Val} (h : ∀ t ∈ ["SS", "NS", "RS"], v ≠ .str t) :
    mechOf v = mechOf Lit.none.toVal := by
  simp only [List.mem_cons, List.not_mem_nil, or_false, forall_eq_or_imp, forall_eq] at h
  simp [mechOf, Val.isStr, h, Lit.toVal]

theorem regOf_other {v : Val}
    (h : ∀ t ∈ ["global", "california", "japan", "italy", "china"], v ≠ .str t) :
    regOf v = regOf (Lit.str "global").toVal := by
  simp only [List.mem_cons, List.not_mem_nil, or_false, forall_eq_or_imp, forall_eq] at h
  simp [regOf, Val.isStr, h, Lit.toVal]

theorem magNotice_ok {s : Scenario} {v : Val} {m : ℝ} (hv : s.getAttr "mechanism" = pure v)
    (hm : s.getAttr "mag" = pure (.num m)) (mech : String) (limit : ℝ) :
    (magNotice mech limit s).res = .ok () := by
  unfold magNotice
  rw [hv, Py.pure_bind']
  by_cases h : v.isStr mech
  · simp only [h, if_true, hm, Py.pure_bind', Val.gt_num]
    split <;> rfl
  · simp [h]

theorem passes {s : Scenario} {g : Given} (h : Source s g) : ∀ p ∈ cls.params, Passes s p := by
  simp only [cls, Decls.cb14, List.forall_mem_cons]
  refine ⟨pass_opt h.z1, pass_opt h.z25, pass_opt h.bor, pass_opt_default h.bot, pass_opt h.hyp,
    pass_opt h.tor, pass_num h.dip, pass_num h.jb, pass_num h.rup, pass_num h.x, pass_num h.mag,
    pass_num h.v, pass_opt h.width, pass_cat_opt, ⟨fun _ => h.mech, not_cannotCompare_cat _⟩,
    fun _ h => by simp at h⟩

/-- Construction from a numeric scenario succeeds; the outputs are those of the formulas at
the completed inputs, and the completed values are the instance's attributes. -/
theorem built {s : Scenario} {g : Given} (h : Source s g) (hv0 : g.v ≠ 0) :
    let mech := mechOf (s.get "mechanism")
    let reg := regOf (s.get "region")
    ∃ inst, (cls.new s).res = .ok inst ∧ inst.out = out (g.toIn mech reg) ∧
      inst.scenario.num "depth_2_5" = pure (g.effZ25 reg) ∧
      inst.scenario.num "depth_tor" = pure (g.effTor mech) ∧
      inst.scenario.num "width" = pure (g.effWidth mech) ∧
      inst.scenario.num "depth_bor" = pure (g.effBor mech) ∧
      inst.scenario.num "depth_hyp" = pure (g.effHyp mech) := by
  intro mech reg
  apply built_of ok_params s (passes h) (fun t => t.num "depth_2_5" = pure (g.effZ25 reg) ∧
      t.num "depth_tor" = pure (g.effTor mech) ∧ t.num "width" = pure (g.effWidth mech) ∧
      t.num "depth_bor" = pure (g.effBor mech) ∧ t.num "depth_hyp" = pure (g.effHyp mech))
  intro d hd
  have hn := nodup
  have a1 := Scenario.getAttr_of (Checked.num hd hn (name := "mag") (by mem_tac) h.mag)
  have a2 := Scenario.getAttr_of (Checked.num hd hn (name := "dist_rup") (by mem_tac) h.rup)
  have a3 := Scenario.getAttr_of (Checked.num hd hn (name := "dist_jb") (by mem_tac) h.jb)
  have a4 := Scenario.getAttr_of (Checked.num hd hn (name := "dist_x") (by mem_tac) h.x)
  have a5 := Scenario.getAttr_of (Checked.num hd hn (name := "dip") (by mem_tac) h.dip)
  have a6 := Scenario.getAttr_of (Checked.num hd hn (name := "v_s30") (by mem_tac) h.v)
  have b1 := Scenario.getAttr_of (Checked.opt_default hd hn (name := "depth_bot") (by mem_tac) h.bot)
  have b2 := Scenario.getAttr_of (Checked.opt hd hn (name := "depth_1_0") (by mem_tac) h.z1)
  have b3 := Scenario.getAttr_of (Checked.opt hd hn (name := "depth_2_5") (by mem_tac) h.z25)
  have b4 := Scenario.getAttr_of (Checked.opt hd hn (name := "depth_bor") (by mem_tac) h.bor)
  have b5 := Scenario.getAttr_of (Checked.opt hd hn (name := "depth_hyp") (by mem_tac) h.hyp)
  have b6 := Scenario.getAttr_of (Checked.opt hd hn (name := "depth_tor") (by mem_tac) h.tor)
  have b7 := Scenario.getAttr_of (Checked.opt hd hn (name := "width") (by mem_tac) h.width)
  obtain ⟨w1, c1, e1⟩ := Checked.cat_any hd hn (name := "mechanism") (by mem_tac) mechOf
    (fun _ => mechOf_other)
  obtain ⟨w2, c2, e2⟩ := Checked.cat_any hd hn (name := "region") (by mem_tac) regOf
    (fun _ => regOf_other)
  replace c1 := Scenario.getAttr_of c1
  replace c2 := Scenario.getAttr_of c2
  set s0 : Scenario := ⟨d, []⟩
  have f1 : fillAttr "depth_2_5" estDepth25 s0 = pure (s0.doneAttr "depth_2_5" g.z25
      (depth25OfVs (F.ofReal g.v) (reg = .japan))) := by
    apply fillAttr_eq b3
    intro _
    simp only [estDepth25, a6, b2, c2, Py.pure_bind', calcDepth25, Val.truthy, hv0, ne_eq,
      not_false_eq_true, decide_true, if_true, Val.toF, regOf_japan, e2]
    rfl
  set s1 := s0.doneAttr "depth_2_5" g.z25 (depth25OfVs (F.ofReal g.v) (reg = .japan))
  have f2 : fillAttr "depth_tor" estDepthTor s1 = pure (s1.doneAttr "depth_tor" g.tor
      (CY14.calcDepthTor (F.ofReal g.mag) (mech = .rs))) := by
    apply fillAttr_eq
    · rw [Scenario.doneAttr_other (by decide), b6]
    intro _
    have m1 : s1.num "mag" = pure (F.ofReal g.mag) := by
      apply Scenario.num_of_num; rw [Scenario.doneAttr_other (by decide), a1]
    have m2 : s1.getAttr "mechanism" = pure w1 := by
      rw [Scenario.doneAttr_other (by decide), c1]
    simp only [estDepthTor, m1, m2, Py.pure_bind', mechOf_rs, e1]
    rfl
  set s2 := s1.doneAttr "depth_tor" g.tor (CY14.calcDepthTor (F.ofReal g.mag) (mech = .rs))
  have t2 : s2.num "depth_tor" = pure (g.effTor mech) := by
    apply Scenario.num_of_est
    apply Scenario.doneAttr_self
    rw [Scenario.doneAttr_other (by decide), b6]
  have f3 : fillAttr "width" estWidth s2 = pure (s2.doneAttr "width" g.width
      (calcWidth (F.ofReal g.mag) (F.ofReal g.dip) (g.effTor mech)
        (F.ofReal (g.bot.getD ((15 : ℚ) : ℝ))))) := by
    apply fillAttr_eq
    · rw [Scenario.doneAttr_other (by decide), Scenario.doneAttr_other (by decide), b7]
    intro _
    have m1 : s2.num "mag" = pure (F.ofReal g.mag) := by
      apply Scenario.num_of_num
      rw [Scenario.doneAttr_other (by decide), Scenario.doneAttr_other (by decide), a1]
    have m2 : s2.num "dip" = pure (F.ofReal g.dip) := by
      apply Scenario.num_of_num
      rw [Scenario.doneAttr_other (by decide), Scenario.doneAttr_other (by decide), a5]
    have m3 : s2.num "depth_bot" = pure (F.ofReal (g.bot.getD ((15 : ℚ) : ℝ))) := by
      apply Scenario.num_of_num
      rw [Scenario.doneAttr_other (by decide), Scenario.doneAttr_other (by decide), b1]
    simp only [estWidth, m1, m2, m3, t2, Py.pure_bind']
  set s3 := s2.doneAttr "width" g.width (calcWidth (F.ofReal g.mag) (F.ofReal g.dip) (g.effTor mech)
        (F.ofReal (g.bot.getD ((15 : ℚ) : ℝ))))
  have n3 : ∀ k, "width" ≠ k → s3.getAttr k = s2.getAttr k := fun k hk => Scenario.doneAttr_other hk
  have n2 : ∀ k, "depth_tor" ≠ k → s2.getAttr k = s1.getAttr k := fun k hk => Scenario.doneAttr_other hk
  have n1 : ∀ k, "depth_2_5" ≠ k → s1.getAttr k = s0.getAttr k := fun k hk => Scenario.doneAttr_other hk
  have t3 : s3.num "width" = pure (g.effWidth mech) := by
    apply Scenario.num_of_est
    apply Scenario.doneAttr_self
    rw [n2 _ (by decide), n1 _ (by decide), b7]
  have f4 : fillAttr "depth_bor" estDepthBor s3 = pure (s3.doneAttr "depth_bor" g.bor
      (calcDepthBor (g.effTor mech) (F.ofReal g.dip) (g.effWidth mech))) := by
    apply fillAttr_eq
    · rw [n3 _ (by decide), n2 _ (by decide), n1 _ (by decide), b4]
    intro _
    have m1 : s3.num "depth_tor" = pure (g.effTor mech) := by
      rw [Scenario.num, n3 _ (by decide)]; exact t2
    have m2 : s3.num "dip" = pure (F.ofReal g.dip) := by
      apply Scenario.num_of_num
      rw [n3 _ (by decide), n2 _ (by decide), n1 _ (by decide), a5]
    simp only [estDepthBor, m1, m2, t3, Py.pure_bind']
  set s4 := s3.doneAttr "depth_bor" g.bor
      (calcDepthBor (g.effTor mech) (F.ofReal g.dip) (g.effWidth mech))
  have n4 : ∀ k, "depth_bor" ≠ k → s4.getAttr k = s3.getAttr k := fun k hk => Scenario.doneAttr_other hk
  have t4 : s4.num "depth_bor" = pure (g.effBor mech) := by
    apply Scenario.num_of_est
    apply Scenario.doneAttr_self
    rw [n3 _ (by decide), n2 _ (by decide), n1 _ (by decide), b4]
  have f5 : fillAttr "depth_hyp" estDepthHyp s4 = pure (s4.doneAttr "depth_hyp" g.hyp
      (calcDepthHyp (F.ofReal g.mag) (F.ofReal g.dip) (g.effTor mech) (g.effBor mech))) := by
    apply fillAttr_eq
    · rw [n4 _ (by decide), n3 _ (by decide), n2 _ (by decide), n1 _ (by decide), b5]
    intro _
    have m1 : s4.num "depth_tor" = pure (g.effTor mech) := by
      rw [Scenario.num, n4 _ (by decide), n3 _ (by decide)]; exact t2
    have m2 : s4.num "dip" = pure (F.ofReal g.dip) := by
      apply Scenario.num_of_num
      rw [n4 _ (by decide), n3 _ (by decide), n2 _ (by decide), n1 _ (by decide), a5]
    have m3 : s4.num "mag" = pure (F.ofReal g.mag) := by
      apply Scenario.num_of_num
      rw [n4 _ (by decide), n3 _ (by decide), n2 _ (by decide), n1 _ (by decide), a1]
    simp only [estDepthHyp, m1, m2, m3, t4, Py.pure_bind']
  set s5 := s4.doneAttr "depth_hyp" g.hyp
      (calcDepthHyp (F.ofReal g.mag) (F.ofReal g.dip) (g.effTor mech) (g.effBor mech))
  have n5 : ∀ k, "depth_hyp" ≠ k → s5.getAttr k = s4.getAttr k := fun k hk => Scenario.doneAttr_other hk
  have q5 : s5.num "depth_hyp" = pure (g.effHyp mech) := by
    apply Scenario.num_of_est
    apply Scenario.doneAttr_self
    rw [n4 _ (by decide), n3 _ (by decide), n2 _ (by decide), n1 _ (by decide), b5]
  have q4 : s5.num "depth_bor" = pure (g.effBor mech) := by
    rw [Scenario.num, n5 _ (by decide)]; exact t4
  have q3 : s5.num "width" = pure (g.effWidth mech) := by
    rw [Scenario.num, n5 _ (by decide), n4 _ (by decide)]; exact t3
  have q2 : s5.num "depth_tor" = pure (g.effTor mech) := by
    rw [Scenario.num, n5 _ (by decide), n4 _ (by decide), n3 _ (by decide)]; exact t2
  have q1 : s5.num "depth_2_5" = pure (g.effZ25 reg) := by
    apply Scenario.num_of_est
    rw [n5 _ (by decide), n4 _ (by decide), n3 _ (by decide), n2 _ (by decide)]
    exact Scenario.doneAttr_self b3
  have nn : ∀ k, k ∉ completed → s5.getAttr k = s0.getAttr k := by
    intro k hk
    simp only [completed, List.mem_cons, List.not_mem_nil, or_false, not_or] at hk
    rw [n5 _ (Ne.symm hk.2.2.2.2), n4 _ (Ne.symm hk.2.2.2.1), n3 _ (Ne.symm hk.2.2.1),
      n2 _ (Ne.symm hk.2.1), n1 _ (Ne.symm hk.1)]
  refine ⟨s5, ?_, ⟨q1, q2, q3, q4, q5⟩, ?_⟩
  · simp only [cls, fill, Py.bind_res_ok (magNotice_ok c1 a1 _ _), f1, f2, f3, f4, f5, Py.pure_bind',
      Py.pure_res]
  · have r1 := Scenario.num_of_num ((nn "mag" (by decide)).trans a1)
    have r2 := Scenario.num_of_num ((nn "dist_rup" (by decide)).trans a2)
    have r3 := Scenario.num_of_num ((nn "dist_jb" (by decide)).trans a3)
    have r4 := Scenario.num_of_num ((nn "dist_x" (by decide)).trans a4)
    have r5 := Scenario.num_of_num ((nn "dip" (by decide)).trans a5)
    have r6 := Scenario.num_of_num ((nn "v_s30" (by decide)).trans a6)
    have r7 := (nn "mechanism" (by decide)).trans c1
    have r8 := (nn "region" (by decide)).trans c2
    simp only [cls, r1, r2, r3, r4, r5, r6, r7, r8, q1, q2, q3, q5, Py.pure_bind', Py.pure_res, e1, e2]
    rfl

theorem gives {s : Scenario} {g : Given} (h : Source s g) (hv0 : g.v ≠ 0) :
    Gives cls s (out (g.toIn (mechOf (s.get "mechanism")) (regOf (s.get "region")))) := by
  obtain ⟨inst, h1, h2, -⟩ := built h hv0
  exact ⟨inst, h1, h2⟩

end CB14

/-! ## C18 -/

/-- Every region value other than "japan" and "italy" -- "china", "global", "california", an
unknown name, nothing at all -- gives the same medians, standard deviations, tau and phi. -/
theorem C18_regions (s s' : Scenario) (g : CB14.Given) (hv : g.v ≠ 0)
    (h : CB14.Source s g) (h' : CB14.Source s' g)
    (hm : s.get "mechanism" = s'.get "mechanism")
    (hr1 : s.get "region" ≠ .str "japan") (hr2 : s.get "region" ≠ .str "italy")
    (hr1' : s'.get "region" ≠ .str "japan") (hr2' : s'.get "region" ≠ .str "italy") :
    ∃ o, Gives CB14.cls s o ∧ Gives CB14.cls s' o := by
  have e : CB14.regOf (s.get "region") = CB14.regOf (s'.get "region") := by
    simp [CB14.regOf, Val.isStr, hr1, hr2, hr1', hr2']
  refine ⟨_, CB14.gives h hv, ?_⟩
  rw [hm, e]
  exact CB14.gives h' hv

/-- The shipped coefficient file does contain different anelastic coefficients for China, in
most rows (they are never read). -/
theorem C18_china_coefficients_differ :
    ((CB14.table.filter fun c => c.dc_20ch ≠ c.dc_20ca).length = 16) := by decide +kernel

namespace CB14

theorem pgaRow_mem : pgaRow ∈ table := by
  show table[21]'(by decide +kernel) ∈ table
  exact List.getElem_mem _

theorem pgaRef_eq (i : In) : pgaRef i = F.exp (lnResp pgaRow i none 1100) := rfl

theorem table_length : table.length = 23 := by decide +kernel

/-- facts about the coefficient rows -/
theorem row_facts : ∀ c ∈ table, 0 < c.k_1 ∧ c.k_1 < 1100 ∧ 0 < c.c_7 ∧
    (0 ≤ c.rho_lnPGAlnY ∧ c.rho_lnPGAlnY ≤ 1) ∧ 0 < c.phi_lnAF ∧ c.phi_lnAF ≤ c.phi_1 ∧
    c.phi_lnAF ≤ c.phi_2 ∧ 0 < c.tau_1 ∧ 0 < c.tau_2 ∧ 0 < c.c_6 ∧ c.c_5 + c.c_6 * 8.5 < 0 ∧
    c.c_20 + c.dc_20ca ≤ 0 ∧ c.c_20 + c.dc_20jp ≤ 0 ∧ c.k_2 ≤ 0 := by decide +kernel

/-! ### The formulas apart from the site term -/

noncomputable section

/-- everything but the site term -/
def rest (c : Row) (i : In) : F :=
  fMag c i.mag + fDis c i.mag i.rup + fFlt c i.mag i.mech + fHng c i + fHyp c i.mag i.hyp +
    fDip c i.mag i.dip + fAtn c i.rup i.reg

theorem lnResp_val (c : Row) (i : In) (p : Option F) (v : F) :
    (lnResp c i p v).val = (rest c i).val + (siteTerm c p v i.z25 (i.reg = .japan)).val := by
  simp only [lnResp, rest, F.val_add]; ring

theorem lnResp_ok {c : Row} {i : In} {p : Option F} {v : F} (h1 : (rest c i).ok)
    (h2 : (siteTerm c p v i.z25 (i.reg = .japan)).ok) : (lnResp c i p v).ok := by
  simp only [lnResp, rest, F.ok_add] at *
  tauto

/-- the numbers of the scenario for which the hanging-wall and completion formulas divide by
no zero -/
structure Regular (g : Given) (mech : Mech) : Prop where
  /-- the width is given, or the dip lies between 0 and 180 degrees -/
  dip : g.width = none → 0 < g.dip ∧ g.dip < 180
  /-- on the hanging wall the normalising distances do not vanish -/
  hw : 0 ≤ g.x → (g.x ≤ (g.effWidth mech).val * Real.cos (g.dip * (Real.pi / 180)) →
      (g.effWidth mech).val * Real.cos (g.dip * (Real.pi / 180)) ≠ 0) ∧
    ((g.effWidth mech).val * Real.cos (g.dip * (Real.pi / 180)) < g.x →
      62 * g.mag - 350 - (g.effWidth mech).val * Real.cos (g.dip * (Real.pi / 180)) ≠ 0)

theorem sin_ne {d : ℝ} (h0 : 0 < d) (h : d < 180) : Real.sin (d * (Real.pi / 180)) ≠ 0 := by
  have hpi := Real.pi_pos
  apply (Real.sin_pos_of_pos_of_lt_pi (by positivity) _).ne'
  have : d * (Real.pi / 180) < 180 * (Real.pi / 180) := by
    apply mul_lt_mul_of_pos_right h; positivity
  linarith

theorem calcDepthTor_ok (m : ℝ) (b : Bool) : (CY14.calcDepthTor (F.ofReal m) b).ok := by
  cases b <;> simp [CY14.calcDepthTor]

theorem effTor_ok (g : Given) (mech : Mech) : (g.effTor mech).ok :=
  F.orEst_ok fun _ => calcDepthTor_ok _ _

theorem effWidth_ok {g : Given} {mech : Mech} (h : Regular g mech) : (g.effWidth mech).ok := by
  refine F.orEst_ok fun hn => ?_
  obtain ⟨h1, h2⟩ := h.dip hn
  have hs := sin_ne h1 h2
  simp only [calcWidth, fsimp, effTor_ok]
  have : (0 : ℝ) < (10 : ℝ) ^ ((g.mag - 4.07) / 0.98) := Real.rpow_pos_of_pos (by norm_num) _
  exact ⟨⟨⟨by norm_num, Or.inl (by norm_num)⟩, this.le⟩, hs⟩

theorem effBor_ok {g : Given} {mech : Mech} (h : Regular g mech) : (g.effBor mech).ok := by
  refine F.orEst_ok fun hn => ?_
  simp only [calcDepthBor, fsimp, effTor_ok, effWidth_ok h]

theorem effHyp_ok {g : Given} {mech : Mech} (h : Regular g mech) : (g.effHyp mech).ok := by
  refine F.orEst_ok fun hn => ?_
  simp only [calcDepthHyp, fsimp, effTor_ok, effBor_ok h, true_and, and_true]
  split_ifs <;> first | done | trivial | linarith

theorem effZ25_ok {g : Given} (hv : 0 < g.v) (reg : Reg) : (g.effZ25 reg).ok := by
  refine F.orEst_ok fun hn => ?_
  unfold depth25OfVs
  split <;> simp [hv]

theorem rest_ok {c : Row} (hc : c ∈ table) {g : Given} {mech : Mech} (h : Regular g mech)
    (reg : Reg) : (rest c (g.toIn mech reg)).ok := by
  obtain ⟨-, -, h7, -⟩ := row_facts c hc
  have h7' : (0 : ℝ) < c.c_7 := by exact_mod_cast h7
  have hd : 0 < Real.sqrt (g.rup ^ 2 + (c.c_7 : ℝ) ^ 2) := Real.sqrt_pos.2 (by positivity)
  have hfl : (fFlt c (F.ofReal g.mag) mech).ok := by cases mech <;> simp [fFlt]
  have hat : (fAtn c (F.ofReal g.rup) reg).ok := by cases reg <;> simp [fAtn]
  have hrx : (fHngRx c (F.ofReal g.mag) (F.ofReal g.x) (F.ofReal g.dip) (g.effWidth mech)).ok := by
    simp only [fHngRx, fsimp, effWidth_ok h]
    by_cases hx : g.x < 0
    · rw [if_pos hx]; trivial
    · rw [if_neg hx]
      obtain ⟨h1, h2⟩ := h.hw (not_lt.1 hx)
      by_cases hx1 : g.x ≤ (g.effWidth mech).val * Real.cos (g.dip * (Real.pi / 180))
      · simp only [hx1, if_true]; exact h1 hx1
      · simp only [hx1, if_false]; exact h2 (not_le.1 hx1)
  have hrr : (fHngRrup (F.ofReal g.rup) (F.ofReal g.jb)).ok := by
    simp only [fHngRrup, fsimp]
    by_cases hr : g.rup = 0
    · rw [if_pos hr]; trivial
    · rw [if_neg hr]; exact hr
  have hmm : (fHngM c (F.ofReal g.mag)).ok := by
    simp only [fHngM, fsimp, ite_self]
  have hzz : (fHngZ (g.effTor mech)).ok := by
    simp only [fHngZ, fsimp, effTor_ok, ite_self]
  have hhw : (fHng c (g.toIn mech reg)).ok := by
    simp only [fHng, Given.toIn, F.ok_mul, hrx, hrr, hmm, hzz]
    simp only [fsimp]
    norm_num
  have hma : (fMag c (F.ofReal g.mag)).ok := by
    simp only [fMag, fsimp, ite_self]
  have hdi : (fDis c (F.ofReal g.mag) (F.ofReal g.rup)).ok := by
    simp only [fDis, fsimp]
    exact ⟨by positivity, hd⟩
  have hhy : (fHyp c (F.ofReal g.mag) (g.effHyp mech)).ok := by simp [fHyp, effHyp_ok h]
  have hdp : (fDip c (F.ofReal g.mag) (F.ofReal g.dip)).ok := by simp [fDip]
  exact ⟨⟨⟨⟨⟨⟨hma, hdi⟩, hfl⟩, hhw⟩, hhy⟩, hdp⟩, hat⟩

/-! ### Site term -/

/-- site response, real closed form -/
def siteR (c : Row) (v p : ℝ) : ℝ :=
  if v ≤ c.k_1 then c.c_11 * Real.log (v / c.k_1) + c.k_2 *
    (Real.log (p + 1.88 * (v / c.k_1) ^ (1.18 : ℝ)) - Real.log (p + 1.88))
  else (c.c_11 + c.k_2 * 1.18) * Real.log (v / c.k_1)

/-- Japan's correction -/
def jpR (c : Row) (v : ℝ) : ℝ :=
  if v ≤ 200 then (c.c_12 + c.k_2 * 1.18) * (Real.log (v / c.k_1) - Real.log (200 / c.k_1))
  else (c.c_13 + c.k_2 * 1.18) * Real.log (v / c.k_1)

/-- basin response -/
def sedR (c : Row) (z : ℝ) (japan : Bool) : ℝ :=
  if z ≤ 1 then c.c_14 * (z - 1) + (if japan then c.c_15 * (z - 1) else 0)
  else if z ≤ 3 then 0
  else c.c_16 * c.k_3 * Real.exp (-0.75) * (1 - Real.exp (-0.25 * (z - 3)))

/-- the whole site term at the surface -/
def surfR (c : Row) (v p z : ℝ) (japan : Bool) : ℝ :=
  siteR c v p + (if japan then jpR c v else 0) + sedR c z japan

theorem siteTerm_val (c : Row) (p : F) (v : ℝ) (z : F) (japan : Bool) :
    (siteTerm c (some p) (F.ofReal v) z japan).val = surfR c v p.val z.val japan := by
  cases japan <;> simp [siteTerm, fSite, fSiteJp, fSed, surfR, siteR, jpR, sedR]

theorem fSed_ok (c : Row) {z : F} (hz : z.ok) (japan : Bool) : (fSed c z japan).ok := by
  simp only [fSed, fsimp, hz]
  split
  · cases japan <;> simp [hz]
  · split <;> trivial

theorem siteTerm_ok {c : Row} (hc : c ∈ table) {p z : F} (hp : p.ok) (hp0 : 0 < p.val) {v : ℝ}
    (hv : 0 < v) (hz : z.ok) (japan : Bool) : (siteTerm c (some p) (F.ofReal v) z japan).ok := by
  obtain ⟨hk, -⟩ := row_facts c hc
  have hk' : (0 : ℝ) < c.k_1 := by exact_mod_cast hk
  have h3 : 0 < v / (c.k_1 : ℝ) := div_pos hv hk'
  have h4 := Real.rpow_pos_of_pos h3 (1.18 : ℝ)
  have h1 : (fSite c (some p) (F.ofReal v)).ok := by
    simp only [fSite, fsimp, hp]
    split
    · exact ⟨⟨hk'.ne', h3⟩, ⟨⟨hk'.ne', Or.inl h3⟩, by positivity⟩, by linarith⟩
    · exact ⟨hk'.ne', h3⟩
  have h2 : (fSiteJp c (F.ofReal v)).ok := by
    simp only [fSiteJp, fsimp]
    split
    · exact ⟨⟨hk'.ne', h3⟩, hk'.ne', by positivity⟩
    · exact ⟨hk'.ne', h3⟩
  cases japan
  · simp only [siteTerm, F.ok_add, h1, fSed_ok c hz]; simp
  · simp only [siteTerm, F.ok_add, h1, fSed_ok c hz]; simpa using h2

/-- the reference pass: it does not depend on the scenario's site at all -/
theorem siteTerm_ref {c : Row} (hc : c ∈ table) (z : F) (japan : Bool) :
    (siteTerm c none 1100 z japan).ok := by
  obtain ⟨hk, hk2, -⟩ := row_facts c hc
  have hk' : (0 : ℝ) < c.k_1 := by exact_mod_cast hk
  have hk2' : (c.k_1 : ℝ) < 1100 := by exact_mod_cast hk2
  have h3 : 0 < 1100 / (c.k_1 : ℝ) := by positivity
  have h1 : (fSite c none 1100).ok := by
    simp only [fSite, fsimp]
    rw [if_neg (not_le.2 hk2')]
    exact ⟨hk'.ne', h3⟩
  have h2 : (fSiteJp c 1100).ok := by
    simp only [fSiteJp, fsimp]
    rw [if_neg (by norm_num)]
    exact ⟨hk'.ne', h3⟩
  have h4 : (depth25OfVs 1100 japan).ok := by
    cases japan <;> simp [depth25OfVs]
  cases japan
  · simp only [siteTerm, F.ok_add, h1, fSed_ok c h4]; simp
  · simp only [siteTerm, F.ok_add, h1, fSed_ok c h4]; simpa using h2

theorem siteTerm_ref_z (c : Row) (v z z' : F) (japan : Bool) :
    siteTerm c none v z japan = siteTerm c none v z' japan := rfl

theorem pgaRef_ok {g : Given} {mech : Mech} (h : Regular g mech) (reg : Reg) :
    (pgaRef (g.toIn mech reg)).ok := by
  rw [pgaRef_eq, F.ok_exp]
  exact lnResp_ok (rest_ok pgaRow_mem h reg) (siteTerm_ref pgaRow_mem _ _)

theorem pgaRef_pos (i : In) : 0 < (pgaRef i).val := by
  rw [pgaRef_eq, F.val_exp]; exact Real.exp_pos _

/-- the median is defined -/
theorem resp_ok {c : Row} (hc : c ∈ table) {g : Given} {mech : Mech} (h : Regular g mech)
    (hv : 0 < g.v) (reg : Reg) :
    (lnResp c (g.toIn mech reg) (some (pgaRef (g.toIn mech reg))) (F.ofReal g.v)).ok :=
  lnResp_ok (rest_ok hc h reg) (siteTerm_ok hc (pgaRef_ok h reg) (pgaRef_pos _) hv (effZ25_ok hv reg) _)

theorem resp_val (c : Row) (g : Given) (mech : Mech) (reg : Reg) :
    (lnResp c (g.toIn mech reg) (some (pgaRef (g.toIn mech reg))) (F.ofReal g.v)).val =
      (rest c (g.toIn mech reg)).val + surfR c g.v (pgaRef (g.toIn mech reg)).val
        (g.effZ25 reg).val (reg = .japan) := by
  rw [lnResp_val, siteTerm_val]
  rfl

theorem out_resp (i : In) {k : ℕ} (hk : k < table.length) :
    (out i).gmm.lnResp.getD k F.nan = lnResp (table[k]'hk) i (some (pgaRef i)) i.v := by
  simp only [out, List.getD_eq_getElem?_getD, List.getElem?_map, List.getElem?_eq_getElem hk,
    Option.map_some, Option.getD_some]

end
end CB14

namespace CB14
noncomputable section

/-! ### Standard deviation -/

theorem tauY_pos {c : Row} (hc : c ∈ table) (m : ℝ) : (tauY c (F.ofReal m)).ok ∧
    0 < (tauY c (F.ofReal m)).val := by
  obtain ⟨-, -, -, -, -, -, -, h1, h2, -⟩ := row_facts c hc
  have h1' : (0 : ℝ) < c.tau_1 := by exact_mod_cast h1
  have h2' : (0 : ℝ) < c.tau_2 := by exact_mod_cast h2
  refine ⟨by simp [tauY], ?_⟩
  simp only [tauY, fsimp]
  have a0 : 0 ≤ min (max (5.5 - m) 0) 1 := le_min (le_max_right _ _) (by norm_num)
  have a1 : min (max (5.5 - m) 0) 1 ≤ 1 := min_le_right _ _
  generalize min (max (5.5 - m) 0) 1 = t at *
  rcases eq_or_lt_of_le a1 with rfl | hlt
  · linarith
  · nlinarith

theorem phiY_ge {c : Row} (hc : c ∈ table) (m : ℝ) : (phiY c (F.ofReal m)).ok ∧
    (c.phi_lnAF : ℝ) ≤ (phiY c (F.ofReal m)).val := by
  obtain ⟨-, -, -, -, h0, h1, h2, -⟩ := row_facts c hc
  have h1' : (c.phi_lnAF : ℝ) ≤ c.phi_1 := by exact_mod_cast h1
  have h2' : (c.phi_lnAF : ℝ) ≤ c.phi_2 := by exact_mod_cast h2
  refine ⟨by simp [phiY], ?_⟩
  simp only [phiY, fsimp]
  have a0 : 0 ≤ min (max (5.5 - m) 0) 1 := le_min (le_max_right _ _) (by norm_num)
  have a1 : min (max (5.5 - m) 0) 1 ≤ 1 := min_le_right _ _
  generalize min (max (5.5 - m) 0) 1 = t at *
  nlinarith

theorem alpha_ok {c : Row} (hc : c ∈ table) {p : F} (hp : p.ok) (hp0 : 0 < p.val) {v : ℝ} (hv : 0 < v) :
    (alpha c p (F.ofReal v)).ok := by
  obtain ⟨hk, -⟩ := row_facts c hc
  have hk' : (0 : ℝ) < c.k_1 := by exact_mod_cast hk
  have h3 : 0 < v / (c.k_1 : ℝ) := div_pos hv hk'
  have h4 := Real.rpow_pos_of_pos h3 (1.18 : ℝ)
  simp only [alpha, fsimp, hp]
  split
  · exact ⟨⟨⟨hk'.ne', Or.inl h3⟩, by positivity⟩, by positivity⟩
  · trivial

theorem quad_nonneg {a t q ρ : ℝ} (h0 : 0 ≤ ρ) (h1 : ρ ≤ 1) :
    0 ≤ t ^ 2 + a ^ 2 * q ^ 2 + 2 * a * ρ * t * q := by
  have : t ^ 2 + a ^ 2 * q ^ 2 + 2 * a * ρ * t * q = (t + a * q * ρ) ^ 2 + (a * q) ^ 2 * (1 - ρ ^ 2) := by
    ring
  rw [this]
  have h2 : ρ ^ 2 ≤ 1 := by nlinarith
  have : 0 ≤ (a * q) ^ 2 * (1 - ρ ^ 2) := mul_nonneg (sq_nonneg _) (by linarith)
  positivity

/-- tau, phi and sigma of a row -/
theorem std_facts {c : Row} (hc : c ∈ table) (m : ℝ) {p : F} (hp : p.ok) (hp0 : 0 < p.val) {v : ℝ}
    (hv : 0 < v) :
    (tau c (F.ofReal m) p (F.ofReal v)).ok ∧ 0 ≤ (tau c (F.ofReal m) p (F.ofReal v)).val ∧
    (phi c (F.ofReal m) p (F.ofReal v)).ok ∧
    (c.phi_lnAF : ℝ) ≤ (phi c (F.ofReal m) p (F.ofReal v)).val ∧
    (lnStd c (F.ofReal m) p (F.ofReal v)).ok ∧
    (lnStd c (F.ofReal m) p (F.ofReal v)).val ^ 2 =
      (tau c (F.ofReal m) p (F.ofReal v)).val ^ 2 + (phi c (F.ofReal m) p (F.ofReal v)).val ^ 2 := by
  obtain ⟨-, -, -, ⟨r0, r1⟩, haf, -⟩ := row_facts c hc
  have r0' : (0 : ℝ) ≤ c.rho_lnPGAlnY := by exact_mod_cast r0
  have r1' : (c.rho_lnPGAlnY : ℝ) ≤ 1 := by exact_mod_cast r1
  have haf' : (0 : ℝ) < c.phi_lnAF := by exact_mod_cast haf
  have ha := alpha_ok hc hp hp0 hv
  have ht := tauY_pos hc m
  have htp := tauY_pos pgaRow_mem m
  have hf := phiY_ge hc m
  have hfp := phiY_ge pgaRow_mem m
  have hafp : (0 : ℝ) < pgaRow.phi_lnAF := by
    obtain ⟨-, -, -, -, h, -⟩ := row_facts _ pgaRow_mem
    exact_mod_cast h
  have g1 : 0 ≤ (phiY pgaRow (F.ofReal m)).val ^ 2 - (pgaRow.phi_lnAF : ℝ) ^ 2 := by nlinarith [hfp.2]
  have g2 : 0 ≤ (phiY c (F.ofReal m)).val ^ 2 - (c.phi_lnAF : ℝ) ^ 2 := by nlinarith [hf.2]
  have q1 := quad_nonneg (a := (alpha c p (F.ofReal v)).val) (t := (tauY c (F.ofReal m)).val)
    (q := (tauY pgaRow (F.ofReal m)).val) r0' r1'
  have q2 := quad_nonneg (a := (alpha c p (F.ofReal v)).val)
    (t := Real.sqrt ((phiY c (F.ofReal m)).val ^ 2 - (c.phi_lnAF : ℝ) ^ 2))
    (q := Real.sqrt ((phiY pgaRow (F.ofReal m)).val ^ 2 - (pgaRow.phi_lnAF : ℝ) ^ 2)) r0' r1'
  rw [Real.sq_sqrt g1] at q2
  have ok1 : (tau c (F.ofReal m) p (F.ofReal v)).ok := by
    simp only [tau, fsimp, ha, ht.1, htp.1]
    exact q1
  have v1 : 0 ≤ (tau c (F.ofReal m) p (F.ofReal v)).val := by
    simp only [tau, fsimp]; exact Real.sqrt_nonneg _
  have ok2 : (phi c (F.ofReal m) p (F.ofReal v)).ok := by
    simp only [phi, fsimp, ha, hf.1, hfp.1, g1, g2]
    nlinarith [sq_nonneg (c.phi_lnAF : ℝ)]
  have v2 : (c.phi_lnAF : ℝ) ≤ (phi c (F.ofReal m) p (F.ofReal v)).val := by
    simp only [phi, fsimp]
    apply Real.le_sqrt_of_sq_le
    nlinarith
  refine ⟨ok1, v1, ok2, v2, ?_, ?_⟩
  · simp only [lnStd, fsimp, ok1, ok2]; positivity
  · simp only [lnStd, fsimp]
    rw [Real.sq_sqrt (by positivity)]; ring

/-- on sites at least as stiff as the row's `k_1` the site does not enter -/
theorem std_rock {c : Row} (hc : c ∈ table) (m : ℝ) (p : F) {v : ℝ} (hv : (c.k_1 : ℝ) ≤ v) :
    (tau c (F.ofReal m) p (F.ofReal v)).val = (tauY c (F.ofReal m)).val ∧
    (phi c (F.ofReal m) p (F.ofReal v)).val = (phiY c (F.ofReal m)).val := by
  have ha : (alpha c p (F.ofReal v)).val = 0 := by
    simp only [alpha, fsimp]; rw [if_neg (not_lt.2 hv)]
  have ht := tauY_pos hc m
  have hf := phiY_ge hc m
  obtain ⟨-, -, -, -, haf, -⟩ := row_facts c hc
  have haf' : (0 : ℝ) < c.phi_lnAF := by exact_mod_cast haf
  have g2 : 0 ≤ (phiY c (F.ofReal m)).val ^ 2 - (c.phi_lnAF : ℝ) ^ 2 := by nlinarith [hf.2]
  refine ⟨?_, ?_⟩
  · simp only [tau, fsimp, ha]
    rw [show (tauY c (F.ofReal m)).val ^ 2 + 0 ^ 2 * (tauY pgaRow (F.ofReal m)).val ^ 2 +
      2 * 0 * (c.rho_lnPGAlnY : ℝ) * (tauY c (F.ofReal m)).val * (tauY pgaRow (F.ofReal m)).val =
      (tauY c (F.ofReal m)).val ^ 2 by ring, Real.sqrt_sq ht.2.le]
  · simp only [phi, fsimp, ha, Real.sq_sqrt g2]
    rw [show ∀ a b d e f : ℝ, a - b + b + 0 ^ 2 * d + 2 * 0 * e * f * (Real.sqrt d) = a by
      intros; ring, Real.sqrt_sq (by linarith [hf.2])]

end
end CB14

/-- tau, phi and the total standard deviation are defined in every row; phi is never below
the row's site-amplification part, tau is not negative, and the squares add up. -/
theorem C50_std (s : Scenario) (g : CB14.Given) (h : CB14.Source s g) (hv : 0 < g.v)
    (hreg : CB14.Regular g (CB14.mechOf (s.get "mechanism"))) :
    ∃ o sd, Gives CB14.cls s o ∧ o.gmm.lnStd = some sd ∧
      sd.length = 23 ∧ o.tau.length = 23 ∧ o.phi.length = 23 ∧
      ∀ i, (hi : i < CB14.table.length) →
        (sd.getD i F.nan).ok ∧ (o.tau.getD i F.nan).ok ∧ (o.phi.getD i F.nan).ok ∧
        0 ≤ (o.tau.getD i F.nan).val ∧
        0 < (CB14.table[i]'hi).phi_lnAF ∧
        ((CB14.table[i]'hi).phi_lnAF : ℝ) ≤ (o.phi.getD i F.nan).val ∧
        (sd.getD i F.nan).val ^ 2 = (o.tau.getD i F.nan).val ^ 2 + (o.phi.getD i F.nan).val ^ 2 ∧
        0 < (sd.getD i F.nan).val := by
  refine ⟨_, _, CB14.gives h hv.ne', rfl, ?_, ?_, ?_, ?_⟩
  · simp [CB14.table_length]
  · simp [CB14.out, CB14.table_length]
  · simp [CB14.out, CB14.table_length]
  · intro i hi
    have hc : CB14.table[i]'hi ∈ CB14.table := List.getElem_mem _
    have hp := CB14.pgaRef_ok hreg (CB14.regOf (s.get "region"))
    obtain ⟨f1, f2, f3, f4, f5, f6⟩ := CB14.std_facts hc g.mag hp (CB14.pgaRef_pos _) hv
    obtain ⟨-, -, -, -, haf, -⟩ := CB14.row_facts _ hc
    have haf' : (0 : ℝ) < (CB14.table[i]'hi).phi_lnAF := by exact_mod_cast haf
    simp only [CB14.out, List.getD_eq_getElem?_getD, List.getElem?_map,
      List.getElem?_eq_getElem hi, Option.map_some, Option.getD_some]
    refine ⟨f5, f1, f3, f2, haf, f4, f6, ?_⟩
    have hs : 0 ≤ (CB14.lnStd (CB14.table[i]'hi) (F.ofReal g.mag) (CB14.pgaRef (g.toIn
        (CB14.mechOf (s.get "mechanism")) (CB14.regOf (s.get "region")))) (F.ofReal g.v)).val := by
      simp only [CB14.lnStd, fsimp]; exact Real.sqrt_nonneg _
    rcases eq_or_lt_of_le hs with h0 | h0
    · rw [← h0] at f6
      nlinarith
    · exact h0

/-- Taper of the magnitude-dependent standard deviations: the small-magnitude value up to
magnitude 4.5, the large-magnitude value from 5.5. -/
noncomputable def CB14.spec_taper (small large m : ℝ) : ℝ :=
  if m ≤ 4.5 then small else if m < 5.5 then large + (small - large) * (5.5 - m) else large

/-- On rock (v_s30 ≥ 1100 m/s) tau and phi depend on the magnitude alone. -/
theorem C50_rock (s : Scenario) (g : CB14.Given) (h : CB14.Source s g) (hv : 1100 ≤ g.v) :
    ∃ o, Gives CB14.cls s o ∧ ∀ i, (hi : i < CB14.table.length) →
      let c := CB14.table[i]'hi
      (o.tau.getD i F.nan).val = CB14.spec_taper c.tau_1 c.tau_2 g.mag ∧
      (o.phi.getD i F.nan).val = CB14.spec_taper c.phi_1 c.phi_2 g.mag := by
  refine ⟨_, CB14.gives h (by linarith), ?_⟩
  intro i hi c
  have hc : CB14.table[i]'hi ∈ CB14.table := List.getElem_mem _
  obtain ⟨-, hk, -⟩ := CB14.row_facts _ hc
  have hk' : ((CB14.table[i]'hi).k_1 : ℝ) < 1100 := by exact_mod_cast hk
  obtain ⟨e1, e2⟩ := CB14.std_rock hc g.mag (CB14.pgaRef (g.toIn
        (CB14.mechOf (s.get "mechanism")) (CB14.regOf (s.get "region")))) (v := g.v) (by linarith)
  have key : ∀ a b : ℝ, b + (a - b) * min (max (5.5 - g.mag) 0) 1 = CB14.spec_taper a b g.mag := by
    intro a b
    unfold CB14.spec_taper
    split
    · rw [max_eq_left (by linarith), min_eq_right (by linarith)]; ring
    · split
      · rw [max_eq_left (by linarith), min_eq_left (by linarith)]
      · rw [max_eq_right (by linarith), min_eq_left (by norm_num)]; ring
  simp only [CB14.out, List.getD_eq_getElem?_getD, List.getElem?_map,
    List.getElem?_eq_getElem hi, Option.map_some, Option.getD_some]
  refine ⟨e1.trans ?_, e2.trans ?_⟩
  · simp only [CB14.tauY, fsimp]; exact key _ _
  · simp only [CB14.phiY, fsimp]; exact key _ _

/-! ## C51 -/

namespace CB14
noncomputable section

theorem siteR_eq {c : Row} (hc : c ∈ table) {v : ℝ} (p : ℝ) (hv : 0 < v) :
    siteR c v p = c.c_11 * Real.log (v / c.k_1) + c.k_2 *
      (Real.log (p + 1.88 * (min v c.k_1 / c.k_1) ^ (1.18 : ℝ)) - Real.log (p + 1.88)) +
      c.k_2 * 1.18 * Real.log (max v c.k_1 / c.k_1) := by
  obtain ⟨hk, -⟩ := row_facts c hc
  have hk' : (0 : ℝ) < c.k_1 := by exact_mod_cast hk
  unfold siteR
  split
  · rename_i h
    rw [min_eq_left h, max_eq_right h, div_self hk'.ne', Real.log_one]; ring
  · rename_i h
    rw [min_eq_right (not_le.1 h).le, max_eq_left (not_le.1 h).le, div_self hk'.ne', Real.one_rpow]
    ring

theorem sedR_eq (c : Row) (z : ℝ) (japan : Bool) :
    sedR c z japan = (c.c_14 + (if japan then (c.c_15 : ℝ) else 0)) * (min z 1 - 1) +
      c.c_16 * c.k_3 * Real.exp (-0.75) * (1 - Real.exp (-0.25 * (max z 3 - 3))) := by
  unfold sedR
  by_cases h1 : z ≤ 1
  · rw [if_pos h1, min_eq_left h1, max_eq_right (by linarith)]
    cases japan <;> simp <;> ring
  · by_cases h3 : z ≤ 3
    · rw [if_neg h1, if_pos h3, min_eq_right (by linarith), max_eq_right h3]; simp
    · rw [if_neg h1, if_neg h3, min_eq_right (by linarith), max_eq_left (by linarith)]; ring

theorem sedR_continuous (c : Row) (japan : Bool) : Continuous fun z => sedR c z japan := by
  simp only [sedR_eq]
  fun_prop

theorem siteR_continuousOn {c : Row} (hc : c ∈ table) {p : ℝ} (hp : 0 < p) :
    ContinuousOn (fun v => siteR c v p) (Set.Ioi 0) := by
  obtain ⟨hk, -⟩ := row_facts c hc
  have hk' : (0 : ℝ) < c.k_1 := by exact_mod_cast hk
  refine ContinuousOn.congr ?_ (fun v hv => siteR_eq hc p hv)
  have h1 : ContinuousOn (fun v : ℝ => Real.log (v / c.k_1)) (Set.Ioi 0) := by
    apply ContinuousOn.log (by fun_prop)
    intro v hv
    have : (0 : ℝ) < v := hv
    positivity
  have h2 : ContinuousOn (fun v : ℝ => Real.log (p + 1.88 * (min v c.k_1 / c.k_1) ^ (1.18 : ℝ)))
      (Set.Ioi 0) := by
    apply ContinuousOn.log
    · refine continuousOn_const.add (continuousOn_const.mul ?_)
      apply ContinuousOn.rpow_const
      · fun_prop
      · intro v hv; right; norm_num
    · intro v hv
      have : (0 : ℝ) < min v c.k_1 / c.k_1 := div_pos (lt_min hv hk') hk'
      have := Real.rpow_pos_of_pos this (1.18 : ℝ)
      positivity
  have h3 : ContinuousOn (fun v : ℝ => Real.log (max v c.k_1 / c.k_1)) (Set.Ioi 0) := by
    apply ContinuousOn.log (by fun_prop)
    intro v hv
    have : (0 : ℝ) < max v c.k_1 := lt_max_of_lt_right hk'
    positivity
  exact ((continuousOn_const.mul h1).add (continuousOn_const.mul (h2.sub continuousOn_const))).add
    (continuousOn_const.mul h3)

/-- the basin depth used, as a function of the velocity -/
theorem effZ25_val (g : Given) {v : ℝ} (hv : 0 < v) (reg : Reg) :
    ({ g with v := v }.effZ25 reg).val = g.z25.getD
      (if reg = .japan then Real.exp (5.359 - 1.102 * Real.log v)
        else Real.exp (7.089 - 1.144 * Real.log v)) := by
  unfold Given.effZ25
  rw [F.orEst_val]
  · unfold depth25OfVs
    by_cases h : reg = .japan <;> simp [h]
  · intro _
    unfold depth25OfVs
    split <;> simp [hv]

theorem effZ25_continuousOn (g : Given) (reg : Reg) :
    ContinuousOn (fun v => ({ g with v := v }.effZ25 reg).val) (Set.Ioi 0) := by
  refine ContinuousOn.congr ?_ (fun v hv => effZ25_val g hv reg)
  cases g.z25 with
  | some z => simp only [Option.getD_some]; exact continuousOn_const
  | none =>
    have hl : ContinuousOn (fun v : ℝ => Real.log v) (Set.Ioi 0) :=
      ContinuousOn.log continuousOn_id fun v hv => (ne_of_gt hv)
    simp only [Option.getD_none]
    split
    · exact (continuousOn_const.sub (continuousOn_const.mul hl)).rexp
    · exact (continuousOn_const.sub (continuousOn_const.mul hl)).rexp

theorem resp_val_v (c : Row) (g : Given) (mech : Mech) (reg : Reg) (v : ℝ) :
    (lnResp c ({ g with v := v }.toIn mech reg) (some (pgaRef ({ g with v := v }.toIn mech reg)))
      (F.ofReal v)).val = (rest c (g.toIn mech reg)).val +
        surfR c v (pgaRef (g.toIn mech reg)).val ({ g with v := v }.effZ25 reg).val (reg = .japan) :=
  resp_val c { g with v := v } mech reg

theorem jpR_continuousOn {c : Row} (hc : c ∈ table) :
    ContinuousOn (fun v => jpR c v) (Set.Ioi 0 \ {200}) := by
  obtain ⟨hk, -⟩ := row_facts c hc
  have hk' : (0 : ℝ) < c.k_1 := by exact_mod_cast hk
  have hl : ∀ v : ℝ, 0 < v → ContinuousAt (fun v : ℝ => Real.log (v / c.k_1)) v := by
    intro v hv
    apply ContinuousAt.log (by fun_prop)
    positivity
  intro v hv
  apply ContinuousAt.continuousWithinAt
  have hv0 : 0 < v := hv.1
  have hv2 : v ≠ 200 := hv.2
  rcases lt_or_gt_of_ne hv2 with h | h
  · have : (fun v => jpR c v) =ᶠ[nhds v] fun v => (c.c_12 + c.k_2 * 1.18) *
        (Real.log (v / c.k_1) - Real.log (200 / c.k_1)) := by
      filter_upwards [Iio_mem_nhds h] with w hw
      simp only [jpR, if_pos (le_of_lt (show w < 200 from hw))]
    exact (continuousAt_const.mul ((hl v hv0).sub continuousAt_const)).congr this.symm
  · have : (fun v => jpR c v) =ᶠ[nhds v] fun v => (c.c_13 + c.k_2 * 1.18) *
        (Real.log (v / c.k_1)) := by
      filter_upwards [Ioi_mem_nhds h] with w hw
      simp only [jpR, if_neg (not_le.2 (show 200 < w from hw))]
    exact (continuousAt_const.mul (hl v hv0)).congr this.symm

theorem jpR_left {c : Row} (hc : c ∈ table) :
    Filter.Tendsto (jpR c) (nhdsWithin 200 (Set.Iio 200)) (nhds (jpR c 200)) := by
  obtain ⟨hk, -⟩ := row_facts c hc
  have hk' : (0 : ℝ) < c.k_1 := by exact_mod_cast hk
  have hl : ContinuousAt (fun v : ℝ => Real.log (v / c.k_1)) 200 := by
    apply ContinuousAt.log (by fun_prop)
    positivity
  have hg : ContinuousAt (fun v : ℝ => (c.c_12 + c.k_2 * 1.18) *
      (Real.log (v / c.k_1) - Real.log (200 / c.k_1))) 200 :=
    continuousAt_const.mul (hl.sub continuousAt_const)
  have := tendsto_left (f := jpR c) hg (fun v hv => by simp only [jpR, if_pos (le_of_lt hv)])
  rwa [show jpR c 200 = (c.c_12 + c.k_2 * 1.18) *
      (Real.log (200 / c.k_1) - Real.log (200 / c.k_1)) by simp [jpR]]

theorem jpR_right {c : Row} (hc : c ∈ table) :
    Filter.Tendsto (jpR c) (nhdsWithin 200 (Set.Ioi 200))
      (nhds (jpR c 200 + (c.c_13 + 1.18 * c.k_2) * Real.log (200 / c.k_1))) := by
  obtain ⟨hk, -⟩ := row_facts c hc
  have hk' : (0 : ℝ) < c.k_1 := by exact_mod_cast hk
  have hl : ContinuousAt (fun v : ℝ => Real.log (v / c.k_1)) 200 := by
    apply ContinuousAt.log (by fun_prop)
    positivity
  have hg : ContinuousAt (fun v : ℝ => (c.c_13 + c.k_2 * 1.18) * Real.log (v / c.k_1)) 200 :=
    continuousAt_const.mul hl
  have := tendsto_right (f := jpR c) hg (fun v hv => by simp only [jpR, if_neg (not_le.2 hv)])
  rwa [show jpR c 200 + (c.c_13 + 1.18 * c.k_2) * Real.log (200 / c.k_1) =
    (c.c_13 + c.k_2 * 1.18) * Real.log (200 / c.k_1) by simp only [jpR, le_refl, if_true]; ring]

end
end CB14

/-- Everywhere except Japan the median of every row is continuous in v_s30 > 0 -- in
particular at the row's k_1 -- whether the basin depth is given or estimated from v_s30. -/
theorem C51_continuous_in_vs30 (S : ℝ → Scenario) (g : CB14.Given) (mech region : Val)
    (hS : ∀ v, CB14.Source (S v) { g with v := v })
    (hm : ∀ v, (S v).get "mechanism" = mech) (hr : ∀ v, (S v).get "region" = region)
    (hj : region ≠ .str "japan") :
    ∃ O : ℝ → CB14.Out, (∀ v, 0 < v → Gives CB14.cls (S v) (O v)) ∧
      ∀ i, i < 23 → ContinuousOn (fun v => (O v).gmm.resp i) (Set.Ioi 0) := by
  refine ⟨fun v => CB14.out ({ g with v := v }.toIn (CB14.mechOf mech) (CB14.regOf region)), ?_, ?_⟩
  · intro v hv
    have := CB14.gives (hS v) hv.ne'
    rwa [hm, hr] at this
  · intro i hi
    rw [← CB14.table_length] at hi
    have hc : CB14.table[i]'hi ∈ CB14.table := List.getElem_mem _
    have hreg : CB14.regOf region ≠ .japan := by
      have := CB14.regOf_japan region
      simp [Val.isStr, hj] at this
      exact this
    simp only [GmmOut.resp, CB14.out_resp _ hi]
    have e := fun v => CB14.resp_val_v (CB14.table[i]'hi) g (CB14.mechOf mech) (CB14.regOf region) v
    simp only [CB14.surfR, hreg, decide_false] at e
    refine ContinuousOn.congr (f := fun v => _) ?_ (fun v _ => e v)
    refine continuousOn_const.add ((ContinuousOn.add ?_ ?_).add ?_)
    · exact CB14.siteR_continuousOn hc (CB14.pgaRef_pos _)
    · simp only [Bool.false_eq_true, if_false]; exact continuousOn_const
    · exact (CB14.sedR_continuous _ _).comp_continuousOn (CB14.effZ25_continuousOn g _)

/-- In Japan the median is continuous in v_s30 except at 200 m/s, where it is continuous from
the left and jumps by (c_13 + 1.18 k_2) ln(200 / k_1) on the right. -/
theorem C51_japan_jump (S : ℝ → Scenario) (g : CB14.Given) (mech : Val)
    (hS : ∀ v, CB14.Source (S v) { g with v := v })
    (hm : ∀ v, (S v).get "mechanism" = mech) (hr : ∀ v, (S v).get "region" = .str "japan") :
    ∃ O : ℝ → CB14.Out, (∀ v, 0 < v → Gives CB14.cls (S v) (O v)) ∧
      ∀ i, (hi : i < CB14.table.length) →
        let c := CB14.table[i]'hi
        ContinuousOn (fun v => (O v).gmm.resp i) (Set.Ioi 0 \ {200}) ∧
        Filter.Tendsto (fun v => (O v).gmm.resp i) (nhdsWithin 200 (Set.Iio 200))
          (nhds ((O 200).gmm.resp i)) ∧
        Filter.Tendsto (fun v => (O v).gmm.resp i) (nhdsWithin 200 (Set.Ioi 200))
          (nhds ((O 200).gmm.resp i + (c.c_13 + 1.18 * c.k_2) * Real.log (200 / c.k_1))) := by
  refine ⟨fun v => CB14.out ({ g with v := v }.toIn (CB14.mechOf mech) .japan), ?_, ?_⟩
  · intro v hv
    have := CB14.gives (hS v) hv.ne'
    rw [hm, hr] at this
    simpa [CB14.regOf] using this
  · intro i hi
    have hc : CB14.table[i]'hi ∈ CB14.table := List.getElem_mem _
    have hk' : (0 : ℝ) < (CB14.table[i]'hi).k_1 := by
      obtain ⟨hk, -⟩ := CB14.row_facts _ hc; exact_mod_cast hk
    simp only [GmmOut.resp, CB14.out_resp _ hi]
    have e := fun v => CB14.resp_val_v (CB14.table[i]'hi) g (CB14.mechOf mech) .japan v
    simp only [CB14.surfR, decide_true, if_true] at e
    have cs := CB14.siteR_continuousOn hc (CB14.pgaRef_pos (g.toIn (CB14.mechOf mech) .japan))
    have cz : ContinuousOn (fun v => CB14.sedR (CB14.table[i]'hi) ({ g with v := v }.effZ25 .japan).val true)
        (Set.Ioi 0) :=
      (CB14.sedR_continuous _ _).comp_continuousOn (CB14.effZ25_continuousOn g _)
    have h200 : (Set.Ioi (0 : ℝ)) ∈ nhds (200 : ℝ) := Ioi_mem_nhds (by norm_num)
    have base : ContinuousAt (fun v => (CB14.rest (CB14.table[i]'hi) (g.toIn (CB14.mechOf mech) .japan)).val +
        CB14.siteR (CB14.table[i]'hi) v (CB14.pgaRef (g.toIn (CB14.mechOf mech) .japan)).val +
        CB14.sedR (CB14.table[i]'hi) ({ g with v := v }.effZ25 .japan).val true) 200 :=
      (continuousAt_const.add (cs.continuousAt h200)).add (cz.continuousAt h200)
    have e200 : (CB14.lnResp (CB14.table[i]'hi) ({ g with v := 200 }.toIn (CB14.mechOf mech) .japan)
          (some (CB14.pgaRef ({ g with v := 200 }.toIn (CB14.mechOf mech) .japan)))
          ({ g with v := 200 }.toIn (CB14.mechOf mech) .japan).v).val = _ := e 200
    refine ⟨?_, ?_, ?_⟩
    · refine ContinuousOn.congr (f := fun v => _) ?_ (fun v _ => e v)
      exact continuousOn_const.add (((cs.mono Set.sdiff_subset).add (CB14.jpR_continuousOn hc)).add
        (cz.mono Set.sdiff_subset))
    · rw [e200]
      have := (base.tendsto.mono_left (nhdsWithin_le_nhds (s := Set.Iio 200))).add (CB14.jpR_left hc)
      refine (this.congr fun v => ?_).trans (le_of_eq ?_)
      · refine Eq.trans ?_ (e v).symm; ring
      · congr 1; ring
    · rw [e200]
      have := (base.tendsto.mono_left (nhdsWithin_le_nhds (s := Set.Ioi 200))).add (CB14.jpR_right hc)
      refine (this.congr fun v => ?_).trans (le_of_eq ?_)
      · refine Eq.trans ?_ (e v).symm; ring
      · congr 1; ring

/-- In every region the median is continuous in a given depth to 2.5 km/s, in particular at 1
and 3 km. -/
theorem C51_continuous_in_depth (S : ℝ → Scenario) (g : CB14.Given) (mech region : Val)
    (hv : 0 < g.v) (hS : ∀ z, CB14.Source (S z) { g with z25 := some z })
    (hm : ∀ v, (S v).get "mechanism" = mech) (hr : ∀ v, (S v).get "region" = region) :
    ∃ O : ℝ → CB14.Out, (∀ z, Gives CB14.cls (S z) (O z)) ∧
      ∀ i, i < 23 → Continuous (fun z => (O z).gmm.resp i) := by
  refine ⟨fun z => CB14.out ({ g with z25 := some z }.toIn (CB14.mechOf mech) (CB14.regOf region)), ?_, ?_⟩
  · intro z
    have := CB14.gives (hS z) hv.ne'
    rwa [hm, hr] at this
  · intro i hi
    rw [← CB14.table_length] at hi
    simp only [GmmOut.resp, CB14.out_resp _ hi]
    have e : ∀ z, (CB14.lnResp (CB14.table[i]'hi) ({ g with z25 := some z }.toIn (CB14.mechOf mech)
        (CB14.regOf region)) (some (CB14.pgaRef ({ g with z25 := some z }.toIn (CB14.mechOf mech)
        (CB14.regOf region)))) (F.ofReal g.v)).val =
        (CB14.rest (CB14.table[i]'hi) (g.toIn (CB14.mechOf mech) (CB14.regOf region))).val +
        CB14.surfR (CB14.table[i]'hi) g.v (CB14.pgaRef (g.toIn (CB14.mechOf mech) (CB14.regOf region))).val
          z (CB14.regOf region = .japan) := fun z =>
      CB14.resp_val (CB14.table[i]'hi) { g with z25 := some z } (CB14.mechOf mech) (CB14.regOf region)
    refine Continuous.congr ?_ (fun z => (e z).symm)
    simp only [CB14.surfR]
    exact continuous_const.add (continuous_const.add (CB14.sedR_continuous _ _))

namespace CB14
noncomputable section

theorem fMag_val (c : Row) (m : ℝ) : (fMag c (F.ofReal m)).val =
    c.c_0 + c.c_1 * m + (c.c_2 * max (m - 4.5) 0 + c.c_3 * max (m - 5.5) 0 + c.c_4 * max (m - 6.5) 0) := by
  simp only [fMag, fsimp]
  by_cases h1 : 4.5 < m
  · by_cases h2 : 5.5 < m
    · by_cases h3 : 6.5 < m
      · rw [if_pos h1, if_pos h2, if_pos h3, max_eq_left (by linarith), max_eq_left (by linarith),
          max_eq_left (by linarith)]; ring
      · rw [if_pos h1, if_pos h2, if_neg h3, max_eq_left (by linarith), max_eq_left (by linarith),
          max_eq_right (by linarith)]; ring
    · rw [if_pos h1, if_neg h2, max_eq_left (by linarith), max_eq_right (by linarith),
          max_eq_right (by linarith)]; ring
  · rw [if_neg h1, max_eq_right (by linarith), max_eq_right (by linarith),
          max_eq_right (by linarith)]; ring

theorem fHngM_val (c : Row) (m : ℝ) : (fHngM c (F.ofReal m)).val =
    min (max (m - 5.5) 0) 1 * (1 + c.a_2 * (m - 6.5)) := by
  simp only [fHngM, fsimp]
  by_cases h1 : m ≤ 5.5
  · rw [if_pos h1, max_eq_right (by linarith), min_eq_left (by norm_num)]; ring
  · rw [if_neg h1, max_eq_left (by linarith)]

/-- magnitudes at which the hanging-wall term is defined -/
def magSet (x w dip : ℝ) : Set ℝ :=
  {m | x ≤ w * Real.cos (dip * (Real.pi / 180)) ∨ x < 0 ∨
    62 * m - 350 ≠ w * Real.cos (dip * (Real.pi / 180))}

theorem fHngRx_continuousOn (c : Row) (x w dip : ℝ) :
    ContinuousOn (fun m => (fHngRx c (F.ofReal m) (F.ofReal x) (F.ofReal dip) (F.ofReal w)).val)
      (magSet x w dip) := by
  simp only [fHngRx, fsimp]
  by_cases h0 : x < 0
  · simp only [h0, if_true]; exact continuousOn_const
  · by_cases h1 : x ≤ w * Real.cos (dip * (Real.pi / 180))
    · simp only [h0, h1, if_true, if_false]; exact continuousOn_const
    · simp only [h0, h1, if_false]
      have hd : ContinuousOn (fun m : ℝ => (x - w * Real.cos (dip * (Real.pi / 180))) /
          (62 * m - 350 - w * Real.cos (dip * (Real.pi / 180)))) (magSet x w dip) := by
        apply ContinuousOn.div continuousOn_const (by fun_prop)
        intro m hm
        simp only [magSet, Set.mem_setOf_eq, h0, h1, false_or] at hm
        exact sub_ne_zero.2 hm
      exact ContinuousOn.sup continuousOn_const ((continuousOn_const.add (continuousOn_const.mul hd)).add
        (continuousOn_const.mul (hd.pow 2)))

theorem rest_continuousOn (c : Row) (g : Given) (w tor hyp : ℝ) (hw : g.width = some w)
    (ht : g.tor = some tor) (hh : g.hyp = some hyp) (mech : Mech) (reg : Reg) :
    ContinuousOn (fun m => (rest c ({ g with mag := m }.toIn mech reg)).val) (magSet g.x w g.dip) := by
  simp only [rest, F.val_add]
  have e1 : ∀ m, ({ g with mag := m }.effWidth mech) = F.ofReal w := by
    intro m; simp only [Given.effWidth, hw]; rfl
  have e2 : ∀ m, ({ g with mag := m }.effTor mech) = F.ofReal tor := by
    intro m; simp only [Given.effTor, ht]; rfl
  have e3 : ∀ m, ({ g with mag := m }.effHyp mech) = F.ofReal hyp := by
    intro m; simp only [Given.effHyp, hh]; rfl
  simp only [Given.toIn, e1, e2, e3]
  have hm : Continuous fun m => (fMag c (F.ofReal m)).val := by
    simp only [fMag_val]; fun_prop
  have hd : Continuous fun m => (fDis c (F.ofReal m) (F.ofReal g.rup)).val := by
    simp only [fDis, fsimp]; fun_prop
  have hf : Continuous fun m => (fFlt c (F.ofReal m) mech).val := by
    cases mech <;> simp only [fFlt, fsimp] <;> fun_prop
  have hhm : Continuous fun m => (fHngM c (F.ofReal m)).val := by
    simp only [fHngM_val]; fun_prop
  have hy : Continuous fun m => (fHyp c (F.ofReal m) (F.ofReal hyp)).val := by
    simp only [fHyp, fsimp]; fun_prop
  have hp : Continuous fun m => (fDip c (F.ofReal m) (F.ofReal g.dip)).val := by
    simp only [fDip, fsimp]; fun_prop
  have hx := fHngRx_continuousOn c g.x w g.dip
  refine (((((hm.continuousOn.add hd.continuousOn).add hf.continuousOn).add ?_).add
    hy.continuousOn).add hp.continuousOn).add continuousOn_const
  simp only [fHng, F.val_mul]
  exact ((((continuousOn_const.mul hx).mul continuousOn_const).mul hhm.continuousOn).mul
    continuousOn_const).mul continuousOn_const

theorem siteR_continuousOn_p {c : Row} (hc : c ∈ table) {v : ℝ} (hv : 0 < v) :
    ContinuousOn (fun p => siteR c v p) (Set.Ioi 0) := by
  obtain ⟨hk, -⟩ := row_facts c hc
  have hk' : (0 : ℝ) < c.k_1 := by exact_mod_cast hk
  have h3 : 0 < v / (c.k_1 : ℝ) := div_pos hv hk'
  have h4 := Real.rpow_pos_of_pos h3 (1.18 : ℝ)
  unfold siteR
  split
  · refine continuousOn_const.add (continuousOn_const.mul (ContinuousOn.sub ?_ ?_))
    · apply ContinuousOn.log (by fun_prop)
      intro p hp
      have : (0 : ℝ) < p := hp
      positivity
    · apply ContinuousOn.log (by fun_prop)
      intro p hp
      have : (0 : ℝ) < p := hp
      positivity
  · exact continuousOn_const

end
end CB14

/-- With the depths and the width given, the median of every row is continuous in magnitude --
at 4.5, 5.5 and 6.5 in particular -- wherever it is defined: for a site on the hanging wall
beyond the surface projection (width·cos dip < dist_x) the magnitude at which 62·mag - 350 equals
that projection is excluded. -/
theorem C51_continuous_in_mag (S : ℝ → Scenario) (g : CB14.Given) (w tor hyp : ℝ) (mech region : Val)
    (hw : g.width = some w) (ht : g.tor = some tor) (hh : g.hyp = some hyp) (hv : 0 < g.v)
    (hS : ∀ m, CB14.Source (S m) { g with mag := m })
    (hm : ∀ v, (S v).get "mechanism" = mech) (hr : ∀ v, (S v).get "region" = region) :
    ∃ O : ℝ → CB14.Out, (∀ m, Gives CB14.cls (S m) (O m)) ∧
      ∀ i, i < 23 → ContinuousOn (fun m => (O m).gmm.resp i)
        {m | g.x ≤ w * Real.cos (g.dip * (Real.pi / 180)) ∨ g.x < 0 ∨
          62 * m - 350 ≠ w * Real.cos (g.dip * (Real.pi / 180))} := by
  refine ⟨fun m => CB14.out ({ g with mag := m }.toIn (CB14.mechOf mech) (CB14.regOf region)), ?_, ?_⟩
  · intro m
    have := CB14.gives (hS m) hv.ne'
    rwa [hm, hr] at this
  · intro i hi
    rw [← CB14.table_length] at hi
    have hc : CB14.table[i]'hi ∈ CB14.table := List.getElem_mem _
    simp only [GmmOut.resp, CB14.out_resp _ hi]
    have e : ∀ m, (CB14.lnResp (CB14.table[i]'hi) ({ g with mag := m }.toIn (CB14.mechOf mech)
        (CB14.regOf region)) (some (CB14.pgaRef ({ g with mag := m }.toIn (CB14.mechOf mech)
        (CB14.regOf region)))) (F.ofReal g.v)).val = _ := fun m =>
      CB14.resp_val (CB14.table[i]'hi) { g with mag := m } (CB14.mechOf mech) (CB14.regOf region)
    refine ContinuousOn.congr (f := fun m => _) ?_ (fun m _ => e m)
    refine (CB14.rest_continuousOn _ g w tor hyp hw ht hh _ _).add ?_
    simp only [CB14.surfR]
    refine ContinuousOn.add (ContinuousOn.add ?_ continuousOn_const) ?_
    rotate_left
    · exact show ContinuousOn (fun _ : ℝ => CB14.sedR (CB14.table[i]'hi) (g.effZ25 (CB14.regOf region)).val
        (decide (CB14.regOf region = CB14.Reg.japan))) _ from continuousOn_const
    have hp : ContinuousOn (fun m => (CB14.pgaRef ({ g with mag := m }.toIn (CB14.mechOf mech)
        (CB14.regOf region))).val) (CB14.magSet g.x w g.dip) := by
      simp only [CB14.pgaRef_eq, F.val_exp, CB14.lnResp_val]
      refine ContinuousOn.rexp ((CB14.rest_continuousOn _ g w tor hyp hw ht hh _ _).add ?_)
      exact show ContinuousOn (fun _ : ℝ => (CB14.siteTerm CB14.pgaRow none 1100 0
        (CB14.regOf region = .japan)).val) _ from continuousOn_const
    exact ContinuousOn.comp (g := fun p : ℝ => CB14.siteR (CB14.table[i]'hi) g.v p) (t := Set.Ioi 0)
      (CB14.siteR_continuousOn_p hc hv) hp (fun m _ => CB14.pgaRef_pos _)

/-! ## C64 -/

namespace CB14
noncomputable section

/-- the anelastic coefficient of a region -/
def anel (c : Row) : Reg → ℚ
  | .japan => c.c_20 + c.dc_20jp
  | .italy => c.c_20 + c.dc_20jp
  | .other => c.c_20 + c.dc_20ca

/-- the part of the median that depends on distance -/
def D (c : Row) (m r : ℝ) (reg : Reg) : ℝ :=
  (c.c_5 + c.c_6 * m) * Real.log (Real.sqrt (r ^ 2 + (c.c_7 : ℝ) ^ 2)) + anel c reg * max (r - 80) 0

theorem rest_D (c : Row) (g : Given) (hx : g.x < 0) (mech : Mech) (reg : Reg) (r r' : ℝ) :
    (rest c ({ g with rup := r' }.toIn mech reg)).val - (rest c ({ g with rup := r }.toIn mech reg)).val =
      D c g.mag r' reg - D c g.mag r reg := by
  have e : ∀ r, (fHng c ({ g with rup := r }.toIn mech reg)).val = 0 := by
    intro r
    simp only [fHng, fHngRx, Given.toIn, fsimp, hx, if_true]
    ring
  have e2 : ∀ r, (fAtn c (F.ofReal r) reg).val = anel c reg * max (r - 80) 0 := by
    intro r; cases reg <;> simp [fAtn, anel]
  simp only [rest, F.val_add, e]
  simp only [Given.toIn, e2, D]
  simp only [fDis, fsimp]
  have w : ∀ r, ({ g with rup := r }.effHyp mech) = g.effHyp mech := fun _ => rfl
  simp only [w]
  ring

theorem half_log {r c : ℝ} (hc : 0 < c) :
    Real.log (Real.sqrt (r ^ 2 + c ^ 2)) = Real.log (r ^ 2 + c ^ 2) / 2 :=
  Real.log_sqrt (by positivity)

/-- `log (t + a)` against `λ log (t + b)` -/
theorem log_compare {t t' a b l : ℝ} (ht : 0 ≤ t) (htt : t ≤ t') (ha : 0 < a) (hb : 0 < b)
    (hl1 : l ≤ 1) (hl : l * a ≤ b) :
    l * (Real.log (t' + b) - Real.log (t + b)) ≤ Real.log (t' + a) - Real.log (t + a) := by
  set f : ℝ → ℝ := fun t => Real.log (t + a) - l * Real.log (t + b)
  have hd : ∀ t, 0 ≤ t → HasDerivAt f (1 / (t + a) - l * (1 / (t + b))) t := by
    intro t ht
    exact (((hasDerivAt_id t).add_const a).log (by simp only [id]; positivity)).sub
      ((((hasDerivAt_id t).add_const b).log (by simp only [id]; positivity)).const_mul l)
  have hm : MonotoneOn f (Set.Ici 0) := by
    apply monotoneOn_of_deriv_nonneg (convex_Ici 0)
    · intro t ht; exact (hd t ht).continuousAt.continuousWithinAt
    · intro t ht
      rw [interior_Ici] at ht
      exact (hd t (le_of_lt ht)).differentiableAt.differentiableWithinAt
    · intro t ht
      rw [interior_Ici] at ht
      have ht' : 0 < t := ht
      rw [(hd t ht'.le).deriv, sub_nonneg, mul_one_div, div_le_div_iff₀ (by positivity) (by positivity)]
      nlinarith
  have := hm (Set.mem_Ici.2 ht) (Set.mem_Ici.2 (ht.trans htt)) htt
  simp only [f] at this
  linarith

theorem D_drop {c : Row} (hc : c ∈ table) {m r r' : ℝ} (hm : m ≤ 8.5) (hr : 0 ≤ r) (hrr : r < r')
    (reg : Reg) : D c m r' reg < D c m r reg := by
  obtain ⟨-, -, h7, -, -, -, -, -, -, h6, h5, ha1, ha2, -⟩ := row_facts c hc
  have h7' : (0 : ℝ) < c.c_7 := by exact_mod_cast h7
  have h6' : (0 : ℝ) < c.c_6 := by exact_mod_cast h6
  have h5' : (c.c_5 : ℝ) + c.c_6 * 8.5 < 0 := by
    have : ((c.c_5 + c.c_6 * 8.5 : ℚ) : ℝ) < 0 := by exact_mod_cast h5
    push_cast at this; exact this
  have han : (anel c reg : ℝ) ≤ 0 := by
    have : anel c reg ≤ 0 := by cases reg <;> simp only [anel] <;> assumption
    exact_mod_cast this
  unfold D
  rw [half_log h7', half_log h7']
  have hl : Real.log (r ^ 2 + (c.c_7 : ℝ) ^ 2) < Real.log (r' ^ 2 + (c.c_7 : ℝ) ^ 2) :=
    Real.log_lt_log (by positivity) (by nlinarith)
  have hs : (c.c_5 : ℝ) + c.c_6 * m < 0 := by nlinarith
  have hmx : max (r - 80) 0 ≤ max (r' - 80) 0 := max_le_max (by linarith) le_rfl
  nlinarith

/-- the reference motion apart from the site constant of the reference condition -/
theorem pgaRef_rest (g : Given) (mech : Mech) (reg : Reg) :
    (pgaRef (g.toIn mech reg)).val = Real.exp ((rest pgaRow (g.toIn mech reg)).val +
      (siteTerm pgaRow none 1100 0 (reg = .japan)).val) := by
  rw [pgaRef_eq, F.val_exp, lnResp_val]; rfl

/-- the PGA row -/
theorem pgaRow_facts : pgaRow.k_1 = 865 ∧ pgaRow.k_2 = -1.186 := by decide +kernel

/-- `n`/100 is a lower bound for the square root of `(400/k_1)^1.18` that makes the nonlinear
site term of this row weaker than its distance dependence (`lam` compares the rows' pseudo
depths) -/
def goodRow (c : Row) (n : ℕ) : Prop :=
  let s : ℚ := n / 100
  let q : ℚ := -c.k_2 * ((1 - s) / (1 + s))
  let lam : ℚ := min 1 (pgaRow.c_7 ^ 2 / c.c_7 ^ 2)
  s ^ 100 ≤ (400 / c.k_1) ^ 59 ∧ q * pgaRow.c_6 ≤ c.c_6 * lam ∧
  q * -(pgaRow.c_5 + pgaRow.c_6 * 8.5) < -(c.c_5 + c.c_6 * 8.5) * lam ∧
  q * -(pgaRow.c_20 + pgaRow.dc_20ca) ≤ -(c.c_20 + c.dc_20ca) ∧
  q * -(pgaRow.c_20 + pgaRow.dc_20jp) ≤ -(c.c_20 + c.dc_20jp)

instance (c : Row) (n : ℕ) : Decidable (goodRow c n) := by unfold goodRow; infer_instance

theorem rows_good : ∀ c ∈ table, 400 < c.k_1 →
    ∃ n ∈ [55, 56, 57, 59, 62, 68, 74, 79, 86, 92, 98], goodRow c n := by decide +kernel

/-- the exponential form of the nonlinear site term -/
theorem site_slope {k v s : ℝ} (hk : 0 < k) (hs0 : 0 ≤ s) {v0 : ℝ} (hv0 : 0 < v0) (hv : v0 ≤ v)
    (hs : s ^ 100 ≤ (v0 / k) ^ 59) {x x' : ℝ} (hx : x' ≤ x) (hs1 : s ≤ 1) :
    (Real.log (Real.exp x + 1.88 * (v / k) ^ (1.18 : ℝ)) - Real.log (Real.exp x + 1.88)) -
      (Real.log (Real.exp x' + 1.88 * (v / k) ^ (1.18 : ℝ)) - Real.log (Real.exp x' + 1.88)) ≤
      (1 - s) / (1 + s) * (x - x') := by
  have hρ : s ^ 2 ≤ (v / k) ^ (1.18 : ℝ) := by
    have h1 : s ^ 2 ≤ (v0 / k) ^ (1.18 : ℝ) := by
      have e : (1.18 : ℝ) = ((59 : ℕ) : ℝ) / ((50 : ℕ) : ℝ) := by norm_num
      rw [e]
      apply le_rpow_of (by positivity) (by positivity) 59 50 (by norm_num)
      rw [← pow_mul]; exact hs
    refine h1.trans (Real.rpow_le_rpow (by positivity) ?_ (by norm_num))
    gcongr
  refine log_ratio_slope hx (by norm_num) hs0 hρ (div_nonneg (by linarith) (by linarith)) ?_
  rw [div_mul_cancel₀ _ (by positivity)]

/-- on rock the site term does not depend on the reference motion -/
theorem siteR_rock {c : Row} {v : ℝ} (h : (c.k_1 : ℝ) < v) (p p' : ℝ) : siteR c v p = siteR c v p' := by
  simp only [siteR, if_neg (not_le.2 h)]

/-- the surface value of one row under two reference motions -/
theorem surf_drop {c : Row} (hc : c ∈ table) {s v0 v : ℝ} (hv0 : 0 < v0) (hv : v0 ≤ v) (hs0 : 0 ≤ s)
    (hs1 : s ≤ 1) (hs : s ^ 100 ≤ (v0 / c.k_1) ^ 59) {x x' y y' z : ℝ} (hx : x' ≤ x) (japan : Bool)
    (hy : y' - y + -(c.k_2 : ℝ) * ((1 - s) / (1 + s)) * (x - x') < 0) :
    y' + surfR c v (Real.exp x') z japan < y + surfR c v (Real.exp x) z japan := by
  obtain ⟨hk, -, -, -, -, -, -, -, -, -, -, -, -, hk2⟩ := row_facts c hc
  have hk' : (0 : ℝ) < c.k_1 := by exact_mod_cast hk
  have hk2' : (c.k_2 : ℝ) ≤ 0 := by exact_mod_cast hk2
  have hκ : 0 ≤ (1 - s) / (1 + s) := div_nonneg (by linarith) (by linarith)
  have := site_slope hk' hs0 hv0 hv hs hx hs1
  unfold surfR
  by_cases h : v ≤ c.k_1
  · simp only [siteR, if_pos h]
    nlinarith
  · rw [siteR_rock (not_le.1 h) _ (Real.exp x)]
    nlinarith [mul_nonneg hκ (sub_nonneg.2 hx)]

/-- all rows, v_s30 ≥ 400: the row's own drop beats the amplified drop of the reference PGA -/
theorem row_beats {c : Row} (hc : c ∈ table) {n : ℕ} (hn : goodRow c n) (hk2 : c.k_2 ≤ 0)
    (hn1 : n ≤ 100) {m r r' : ℝ}
    (hm : m ≤ 8.5) (hr : 0 ≤ r) (hrr : r < r') (reg : Reg) :
    D c m r' reg - D c m r reg + -(c.k_2 : ℝ) * ((1 - (n / 100 : ℝ)) / (1 + (n / 100 : ℝ))) *
      (D pgaRow m r reg - D pgaRow m r' reg) < 0 := by
  obtain ⟨-, h6, h5, h1, h2⟩ := hn
  obtain ⟨-, -, h7, -⟩ := row_facts c hc
  obtain ⟨-, -, h7p, -⟩ := row_facts _ pgaRow_mem
  have h7' : (0 : ℝ) < c.c_7 := by exact_mod_cast h7
  have h7p' : (0 : ℝ) < pgaRow.c_7 := by exact_mod_cast h7p
  set s : ℚ := n / 100
  set q : ℚ := -c.k_2 * ((1 - s) / (1 + s)) with hq
  set lam : ℚ := min 1 (pgaRow.c_7 ^ 2 / c.c_7 ^ 2) with hlam
  have hs1 : s ≤ 1 := by
    simp only [s]
    rw [div_le_one (by norm_num)]
    exact_mod_cast hn1
  have hs0 : 0 ≤ s := by simp only [s]; positivity
  have hq0 : 0 ≤ q := by
    rw [hq]
    exact mul_nonneg (by linarith) (div_nonneg (by linarith) (by linarith))
  have eq1 : -(c.k_2 : ℝ) * ((1 - (n / 100 : ℝ)) / (1 + (n / 100 : ℝ))) = (q : ℝ) := by
    rw [hq]; simp only [s]; push_cast; ring
  rw [eq1]
  have hq0' : (0 : ℝ) ≤ q := by exact_mod_cast hq0
  have hl1 : (lam : ℝ) ≤ 1 := by
    have : lam ≤ 1 := min_le_left _ _
    exact_mod_cast this
  have hl2 : (lam : ℝ) * (c.c_7 : ℝ) ^ 2 ≤ (pgaRow.c_7 : ℝ) ^ 2 := by
    have : lam * c.c_7 ^ 2 ≤ pgaRow.c_7 ^ 2 := by
      have : lam ≤ pgaRow.c_7 ^ 2 / c.c_7 ^ 2 := min_le_right _ _
      rwa [le_div_iff₀ (by positivity)] at this
    exact_mod_cast this
  have hlog := log_compare (t := r ^ 2) (t' := r' ^ 2) (a := (c.c_7 : ℝ) ^ 2)
    (b := (pgaRow.c_7 : ℝ) ^ 2) (l := lam) (by positivity) (by nlinarith) (by positivity)
    (by positivity) hl1 hl2
  have hlp : 0 < Real.log (r' ^ 2 + (pgaRow.c_7 : ℝ) ^ 2) - Real.log (r ^ 2 + (pgaRow.c_7 : ℝ) ^ 2) :=
    sub_pos.2 (Real.log_lt_log (by positivity) (by nlinarith))
  have h6' : (q : ℝ) * pgaRow.c_6 ≤ c.c_6 * lam := by exact_mod_cast h6
  have h5' : (q : ℝ) * -(pgaRow.c_5 + pgaRow.c_6 * 8.5) < -(c.c_5 + c.c_6 * 8.5) * lam := by
    have : ((q * -(pgaRow.c_5 + pgaRow.c_6 * 8.5) : ℚ) : ℝ) < ((-(c.c_5 + c.c_6 * 8.5) * lam : ℚ) : ℝ) := by
      exact_mod_cast h5
    push_cast at this; exact this
  have han : (q : ℝ) * -(anel pgaRow reg) ≤ -(anel c reg) := by
    have : q * -(anel pgaRow reg) ≤ -(anel c reg) := by
      cases reg <;> simp only [anel] <;> assumption
    exact_mod_cast this
  have hA : (q : ℝ) * -(pgaRow.c_5 + pgaRow.c_6 * m) < -(c.c_5 + c.c_6 * m) * lam := by nlinarith
  have hAc : 0 < -((c.c_5 : ℝ) + c.c_6 * m) := by
    obtain ⟨-, -, -, -, -, -, -, -, -, g6, g5, -⟩ := row_facts c hc
    have g6' : (0 : ℝ) < c.c_6 := by exact_mod_cast g6
    have g5' : (c.c_5 : ℝ) + c.c_6 * 8.5 < 0 := by
      have : ((c.c_5 + c.c_6 * 8.5 : ℚ) : ℝ) < 0 := by exact_mod_cast g5
      push_cast at this; exact this
    nlinarith
  have hmx : 0 ≤ max (r' - 80) 0 - max (r - 80) 0 := sub_nonneg.2 (max_le_max (by linarith) le_rfl)
  unfold D
  rw [half_log h7', half_log h7', half_log h7p', half_log h7p']
  set Lp := Real.log (r' ^ 2 + (pgaRow.c_7 : ℝ) ^ 2) - Real.log (r ^ 2 + (pgaRow.c_7 : ℝ) ^ 2)
  set Lc := Real.log (r' ^ 2 + (c.c_7 : ℝ) ^ 2) - Real.log (r ^ 2 + (c.c_7 : ℝ) ^ 2)
  set M := max (r' - 80) 0 - max (r - 80) 0
  have k1 := mul_le_mul_of_nonneg_left hlog hAc.le
  have k2 := mul_lt_mul_of_pos_right hA hlp
  have k3 := mul_le_mul_of_nonneg_right han hmx
  have e : ∀ a b a' b' : ℝ, a' + b' - (a + b) = (a' - a) + (b' - b) := by intros; ring
  simp only [Lp, Lc, M] at *
  nlinarith

end
end CB14

/-- Footwall (dist_x < 0), magnitude at most 8.5: the median of every row strictly decreases
with dist_rup on sites with v_s30 ≥ 400 m/s, soil nonlinearity included. -/
theorem C64_attenuates (s s' : Scenario) (g : CB14.Given) (r' : ℝ) (h : CB14.Source s g)
    (h' : CB14.Source s' { g with rup := r' }) (hm : s.get "mechanism" = s'.get "mechanism")
    (hr : s.get "region" = s'.get "region")
    (hreg : CB14.Regular g (CB14.mechOf (s.get "mechanism")))
    (hx : g.x < 0) (hmag : g.mag ≤ 8.5) (hv : 400 ≤ g.v) (hr0 : 0 ≤ g.rup) (hrr : g.rup < r') :
    ∃ o o', Gives CB14.cls s o ∧ Gives CB14.cls s' o' ∧
      List.Forall₂ F.Drops o.gmm.lnResp o'.gmm.lnResp := by
  have hv0 : 0 < g.v := by linarith
  refine ⟨_, _, CB14.gives h hv0.ne', CB14.gives h' hv0.ne', ?_⟩
  rw [← hm, ← hr]
  set mech := CB14.mechOf (s.get "mechanism")
  set reg := CB14.regOf (s.get "region")
  have hreg' : CB14.Regular { g with rup := r' } mech := ⟨hreg.dip, hreg.hw⟩
  simp only [CB14.out]
  refine forall₂_map fun c hc => ⟨CB14.resp_ok hc hreg hv0 reg, CB14.resp_ok hc hreg' hv0 reg, ?_⟩
  have e1 := CB14.resp_val c g mech reg
  have e2 := CB14.resp_val c { g with rup := r' } mech reg
  refine lt_of_eq_of_lt e2 (lt_of_lt_of_eq ?_ e1.symm)
  have d1 := CB14.rest_D c g hx mech reg g.rup r'
  have d2 := CB14.rest_D CB14.pgaRow g hx mech reg g.rup r'
  have hD := CB14.D_drop hc hmag hr0 hrr reg
  have hDp := CB14.D_drop CB14.pgaRow_mem hmag hr0 hrr reg
  rw [CB14.pgaRef_rest, CB14.pgaRef_rest]
  have ez : { g with rup := r' }.effZ25 reg = g.effZ25 reg := rfl
  rw [ez]
  obtain ⟨hk, -, -, -, -, -, -, -, -, -, -, -, -, hk2⟩ := CB14.row_facts c hc
  have hk' : (0 : ℝ) < c.k_1 := by exact_mod_cast hk
  by_cases hk4 : 400 < c.k_1
  · obtain ⟨n, hn, hg⟩ := CB14.rows_good c hc hk4
    have hn1 : n ≤ 100 := by
      simp only [List.mem_cons, List.not_mem_nil, or_false] at hn
      omega
    have hb := CB14.row_beats hc hg hk2 hn1 hmag hr0 hrr reg
    have hs : ((n : ℝ) / 100) ^ 100 ≤ (400 / (c.k_1 : ℝ)) ^ 59 := by
      have : (((n : ℚ) / 100 : ℚ) : ℝ) ^ 100 ≤ ((400 / c.k_1 : ℚ) : ℝ) ^ 59 := by exact_mod_cast hg.1
      push_cast at this; exact this
    refine CB14.surf_drop hc (s := (n : ℝ) / 100) (by norm_num) hv (by positivity) ?_ hs ?_ _ ?_
    · rw [div_le_one (by norm_num)]; exact_mod_cast hn1
    · linarith
    · have d2' : (CB14.rest CB14.pgaRow (g.toIn mech reg)).val +
          (CB14.siteTerm CB14.pgaRow none 1100 0 (reg = .japan)).val -
          ((CB14.rest CB14.pgaRow ({ g with rup := r' }.toIn mech reg)).val +
          (CB14.siteTerm CB14.pgaRow none 1100 0 (reg = .japan)).val) =
          CB14.D CB14.pgaRow g.mag g.rup reg - CB14.D CB14.pgaRow g.mag r' reg := by linarith
      rw [d1, d2']
      exact hb
  · have hk4' : (c.k_1 : ℝ) ≤ g.v := by
      have : (c.k_1 : ℝ) ≤ 400 := by exact_mod_cast not_lt.1 hk4
      linarith
    refine CB14.surf_drop hc (s := 1) (v0 := c.k_1) hk' hk4' (by norm_num) (by norm_num)
      (by rw [div_self hk'.ne']; norm_num) ?_ _ ?_
    · linarith
    · rw [d1]; norm_num; linarith

/-- PGA (the row with period 0) strictly decreases with dist_rup on the footwall for every
v_s30 ≥ 150 m/s. -/
theorem C64_attenuates_pga (s s' : Scenario) (g : CB14.Given) (r' : ℝ) (h : CB14.Source s g)
    (h' : CB14.Source s' { g with rup := r' }) (hm : s.get "mechanism" = s'.get "mechanism")
    (hr : s.get "region" = s'.get "region")
    (hreg : CB14.Regular g (CB14.mechOf (s.get "mechanism")))
    (hx : g.x < 0) (hmag : g.mag ≤ 8.5) (hv : 150 ≤ g.v) (hr0 : 0 ≤ g.rup) (hrr : g.rup < r') :
    ∃ o o', Gives CB14.cls s o ∧ Gives CB14.cls s' o' ∧
      F.Drops (o.gmm.lnResp.getD 21 F.nan) (o'.gmm.lnResp.getD 21 F.nan) := by
  have hv0 : 0 < g.v := by linarith
  refine ⟨_, _, CB14.gives h hv0.ne', CB14.gives h' hv0.ne', ?_⟩
  rw [← hm, ← hr]
  set mech := CB14.mechOf (s.get "mechanism")
  set reg := CB14.regOf (s.get "region")
  have hreg' : CB14.Regular { g with rup := r' } mech := ⟨hreg.dip, hreg.hw⟩
  have hc := CB14.pgaRow_mem
  refine ⟨CB14.resp_ok hc hreg hv0 reg, CB14.resp_ok hc hreg' hv0 reg, ?_⟩
  have e1 := CB14.resp_val CB14.pgaRow g mech reg
  have e2 := CB14.resp_val CB14.pgaRow { g with rup := r' } mech reg
  refine lt_of_eq_of_lt e2 (lt_of_lt_of_eq ?_ e1.symm)
  have d2 := CB14.rest_D CB14.pgaRow g hx mech reg g.rup r'
  have hDp := CB14.D_drop CB14.pgaRow_mem hmag hr0 hrr reg
  rw [CB14.pgaRef_rest, CB14.pgaRef_rest]
  have ez : { g with rup := r' }.effZ25 reg = g.effZ25 reg := rfl
  rw [ez]
  obtain ⟨p1, p2⟩ := CB14.pgaRow_facts
  refine CB14.surf_drop hc (s := 0.35) (by norm_num) hv (by norm_num) (by norm_num)
    (by rw [p1]; norm_num) (by linarith) _ ?_
  rw [p2]
  push_cast
  nlinarith

/-! ## C46 (this class) -/

/-- The reference pass with `pga_ref = nan` never reaches the result: every median is defined
for every regular scenario with positive velocity. -/
theorem C46_cb14_defined (s : Scenario) (g : CB14.Given) (h : CB14.Source s g) (hv : 0 < g.v)
    (hreg : CB14.Regular g (CB14.mechOf (s.get "mechanism"))) :
    ∃ o, Gives CB14.cls s o ∧ o.gmm.lnResp.length = 23 ∧ ∀ y ∈ o.gmm.lnResp, y.ok := by
  refine ⟨_, CB14.gives h hv.ne', by simp [CB14.out, CB14.table_length], ?_⟩
  intro y hy
  simp only [CB14.out, List.mem_map] at hy
  obtain ⟨c, hc, rfl⟩ := hy
  exact CB14.resp_ok hc hreg hv _

/-! ## The hypotheses are met -/

namespace CB14

/-- the rupture extends downwards if it starts above the bottom of the crust -/
theorem extent_pos {g : Given} {mech : Mech} (h0 : 0 < g.dip) (h1 : g.dip < 180)
    (hb : (g.effTor mech).val < g.bot.getD ((15 : ℚ) : ℝ)) (hbor : g.bor = none)
    (hw : ∀ w, g.width = some w → 0 < w) : (g.effTor mech).val < (g.effBor mech).val := by
  have hpi := Real.pi_pos
  have hs : 0 < Real.sin (g.dip * (Real.pi / 180)) := by
    apply Real.sin_pos_of_pos_of_lt_pi (by positivity)
    have : g.dip * (Real.pi / 180) < 180 * (Real.pi / 180) := by
      apply mul_lt_mul_of_pos_right h1; positivity
    linarith
  have hW : 0 < (g.effWidth mech).val ∧ (g.effWidth mech).ok := by
    unfold Given.effWidth
    cases hgw : g.width with
    | some w => simpa using hw w hgw
    | none =>
      have ok : (calcWidth (F.ofReal g.mag) (F.ofReal g.dip) (g.effTor mech)
          (F.ofReal (g.bot.getD ((15 : ℚ) : ℝ)))).ok := by
        simp only [calcWidth, fsimp, effTor_ok]
        have : (0 : ℝ) < (10 : ℝ) ^ ((g.mag - 4.07) / 0.98) := Real.rpow_pos_of_pos (by norm_num) _
        exact ⟨⟨⟨by norm_num, Or.inl (by norm_num)⟩, this.le⟩, hs.ne'⟩
      rw [F.orEst_none ok]
      refine ⟨?_, ok⟩
      simp only [calcWidth, fsimp]
      exact lt_min (Real.sqrt_pos.2 (Real.rpow_pos_of_pos (by norm_num) _))
        (div_pos (by linarith) hs)
  have ok : (calcDepthBor (g.effTor mech) (F.ofReal g.dip) (g.effWidth mech)).ok := by
    simp only [calcDepthBor, fsimp, effTor_ok, hW.2]
  unfold Given.effBor
  rw [hbor, F.orEst_none ok]
  simp only [calcDepthBor, fsimp]
  nlinarith [mul_pos hW.1 hs]

/-- Footwall sites are regular as soon as the dip is a dip. -/
theorem Regular.footwall {g : Given} {mech : Mech} (hx : g.x < 0) (h0 : 0 < g.dip) (h1 : g.dip < 180) :
    Regular g mech :=
  ⟨fun _ => ⟨h0, h1⟩, fun h => absurd hx (not_lt.2 h)⟩

/-- a strike-slip scenario with everything optional left out -/
noncomputable def exG : Given := { mag := 6.5, rup := 20, jb := 20, x := -20, dip := 90, v := 760 }
@[inherit_doc exG]
noncomputable def exS (r : ℝ) : Scenario :=
  ⟨[("mag", .num 6.5), ("dist_rup", .num r), ("dist_jb", .num 20), ("dist_x", .num (-20)),
    ("dip", .num 90), ("v_s30", .num 760), ("mechanism", .str "SS"), ("region", .str "china")], []⟩

theorem ex_source (r : ℝ) : Source (exS r) { exG with rup := r } := by
  constructor <;> simp [exS, exG, Scenario.get, Dict.get?, Val.ofOpt]

theorem ex_regular (r : ℝ) : Regular { exG with rup := r } (mechOf ((exS r).get "mechanism")) :=
  Regular.footwall (by norm_num [exG]) (by norm_num [exG]) (by norm_num [exG])

theorem ex_extent (r : ℝ) : (({ exG with rup := r } : Given).effTor (mechOf ((exS r).get "mechanism"))).val <
    (({ exG with rup := r } : Given).effBor (mechOf ((exS r).get "mechanism"))).val := by
  have hm : mechOf ((exS r).get "mechanism") = .other := by
    simp [exS, Scenario.get, Dict.get?, mechOf]
  rw [hm]
  refine extent_pos (by norm_num [exG]) (by norm_num [exG]) ?_ rfl
    (by simp [exG])
  have hn : ({ exG with rup := r } : Given).tor = none := rfl
  unfold Given.effTor
  rw [hn, F.orEst_none (calcDepthTor_ok _ _)]
  simp only [CY14.calcDepthTor, fsimp, exG, reduceCtorEq, decide_false, Bool.false_eq_true, Option.getD_none]
  rw [max_eq_left (by norm_num), max_eq_left (by norm_num)]
  norm_num

end CB14

example : ∃ o, Gives CB14.cls (CB14.exS 20) o ∧ o.gmm.lnResp.length = 23 ∧ ∀ y ∈ o.gmm.lnResp, y.ok :=
  C46_cb14_defined _ _ (CB14.ex_source 20) (by norm_num [CB14.exG]) (CB14.ex_regular 20)

example : ∃ o o', Gives CB14.cls (CB14.exS 20) o ∧ Gives CB14.cls (CB14.exS 50) o' ∧
    List.Forall₂ F.Drops o.gmm.lnResp o'.gmm.lnResp :=
  C64_attenuates _ _ { CB14.exG with rup := 20 } 50 (CB14.ex_source 20) (CB14.ex_source 50) rfl rfl (CB14.ex_regular 20)
    (by norm_num [CB14.exG]) (by norm_num [CB14.exG]) (by norm_num [CB14.exG]) (by norm_num)
    (by norm_num)

/-- the estimates of this scenario are attributes only -/
example : ∃ m, (CB14.cls.new (CB14.exS 20)).res = .ok m ∧ m.scenario.getItem "width" = pure .none ∧
    ∃ e, e ≠ Val.none ∧ m.scenario.getAttr "width" = pure e := by
  obtain ⟨m, hm, -⟩ := CB14.built (CB14.ex_source 20) (by norm_num [CB14.exG])
  have := C15_estimates_are_attributes _ m hm "width" (by simp)
    (by simp [CB14.exS, Scenario.get, Dict.get?])
  exact ⟨m, hm, this.1, this.2.choose, this.2.choose_spec.1, this.2.choose_spec.2.1⟩
