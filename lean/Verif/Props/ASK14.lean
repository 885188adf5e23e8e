import Verif.Models.ASK14
import Verif.Bounds
import Verif.Props.Estimators
import Mathlib.Analysis.SpecialFunctions.Pow.Continuity

/-! # C43, C44, C45, C46, C66, C67, C68: Abrahamson, Silva & Kamai (2014) -/

open Bounds

set_option linter.unusedSimpArgs false

namespace ASK14

theorem ok_params : ParamsOk cls.params := by change ParamsOk Decls.ask14; decide +kernel
theorem nodup : (Decls.ask14.map Param.name).Nodup := by decide +kernel

/-- numeric inputs of a scenario -/
structure Given where
  mag : ℝ
  rup : ℝ
  jb : ℝ
  dip : ℝ
  v : ℝ
  x : Option ℝ := none
  y0 : Option ℝ := none
  width : Option ℝ := none
  tor : Option ℝ := none
  z1 : Option ℝ := none
  crjb : Option ℝ := none

/-- `s` holds these numbers, some mechanism (and anything as region, vs_source, is_aftershock,
on_hanging_wall) -/
structure Source (s : Scenario) (g : Given) : Prop where
  mag : s.get "mag" = .num g.mag
  rup : s.get "dist_rup" = .num g.rup
  jb : s.get "dist_jb" = .num g.jb
  dip : s.get "dip" = .num g.dip
  v : s.get "v_s30" = .num g.v
  x : s.get "dist_x" = Val.ofOpt g.x
  y0 : s.get "dist_y0" = Val.ofOpt g.y0
  width : s.get "width" = Val.ofOpt g.width
  tor : s.get "depth_tor" = Val.ofOpt g.tor
  z1 : s.get "depth_1_0" = Val.ofOpt g.z1
  crjb : s.get "dist_crjb" = Val.ofOpt g.crjb
  mech : s.get "mechanism" ≠ .none

/-- the values that are not numbers, as the formulas distinguish them -/
structure Kind where
  mech : Mech
  reg : Reg
  hw : Bool
  aftershock : Bool
  measured : Bool

noncomputable section

open Classical in
/-- read off a scenario; an unknown mechanism counts as strike-slip, an unknown region as
global, an unknown source of the velocity as measured -/
def kindOf (s : Scenario) : Kind where
  mech := mechOf (s.get "mechanism")
  reg := regOf (s.get "region")
  hw := decide (s.get "on_hanging_wall").isOn
  aftershock := decide (s.get "is_aftershock").isOn
  measured := !(s.get "vs_source").isStr "inferred"

/-- the values used for the inputs that may be left out -/
def Given.effWidth (g : Given) : F := F.orEst g.width (calcWidth (F.ofReal g.mag) (F.ofReal g.dip))
@[inherit_doc Given.effWidth]
def Given.effTor (g : Given) : F := F.orEst g.tor (calcDepthTor (F.ofReal g.mag))

/-- the inputs of the formulas -/
def Given.toIn (g : Given) (k : Kind) : In where
  mag := F.ofReal g.mag
  rup := F.ofReal g.rup
  jb := F.ofReal g.jb
  x := if k.hw then F.ofReal (g.x.getD 0) else 0
  y0 := g.y0.map F.ofReal
  dip := F.ofReal g.dip
  width := g.effWidth
  tor := g.effTor
  z1 := g.z1.map F.ofReal
  crjb := F.ofReal (g.crjb.getD ((15 : ℚ) : ℝ))
  v := F.ofReal g.v
  mech := k.mech
  reg := k.reg
  hw := k.hw
  aftershock := k.aftershock
  measured := k.measured

end

theorem mechOf_cat (v : Val) : mechOf (catVal ["SS", "NS", "RS"] .none v) = mechOf v := by
  unfold catVal
  split
  · rfl
  · rename_i h
    simp only [List.mem_cons, List.not_mem_nil, or_false, exists_eq_or_imp, exists_eq_left, not_or] at h
    simp [mechOf, Val.isStr, h, Lit.toVal]

theorem regOf_cat (v : Val) :
    regOf (catVal ["global", "california", "china", "italy", "japan", "taiwan"] (.str "global") v) =
      regOf v := by
  unfold catVal
  split
  · rfl
  · rename_i h
    simp only [List.mem_cons, List.not_mem_nil, or_false, exists_eq_or_imp, exists_eq_left, not_or] at h
    simp [regOf, Val.isStr, h, Lit.toVal]

theorem measured_cat (v : Val) :
    (catVal ["measured", "inferred"] (.str "measured") v).isStr "measured" = !v.isStr "inferred" := by
  unfold catVal
  split
  · rename_i h
    simp only [List.mem_cons, List.not_mem_nil, or_false, exists_eq_or_imp, exists_eq_left] at h
    rcases h with rfl | rfl <;> simp
  · rename_i h
    simp only [List.mem_cons, List.not_mem_nil, or_false, exists_eq_or_imp, exists_eq_left, not_or] at h
    simp [Val.isStr, h, Lit.toVal]

theorem passes {s : Scenario} {g : Given} (h : Source s g) : ∀ p ∈ cls.params, Passes s p := by
  simp only [cls, Decls.ask14, List.forall_mem_cons]
  refine ⟨pass_num h.rup, pass_num h.jb, pass_num h.mag, pass_num h.v, pass_opt h.z1, pass_opt h.tor,
    pass_num h.dip, pass_opt_default h.crjb, pass_opt h.x, pass_opt h.y0, pass_opt h.width,
    ⟨fun _ => h.mech, not_cannotCompare_cat _⟩, pass_cat_opt, pass_cat_opt, pass_bool_opt,
    pass_bool_opt, fun _ h => by simp at h⟩

/-- The checked and completed scenario: what the formulas read from it. -/
theorem filled {s : Scenario} {g : Given} (h : Source s g) {d : Dict}
    (hd : Checked cls.params s.get d) :
    ∃ t : Scenario, (cls.fill ⟨d, []⟩).res = .ok t ∧
      t.num "width" = pure g.effWidth ∧ t.num "depth_tor" = pure g.effTor ∧
      (cls.compute t).res = (if (kindOf s).hw ∧ g.x = none then .error .typeError
        else .ok (out (g.toIn (kindOf s)))) := by
  have hn := nodup
  have a1 := Scenario.getAttr_of (Checked.num hd hn (name := "mag") (by mem_tac) h.mag)
  have a2 := Scenario.getAttr_of (Checked.num hd hn (name := "dist_rup") (by mem_tac) h.rup)
  have a3 := Scenario.getAttr_of (Checked.num hd hn (name := "dist_jb") (by mem_tac) h.jb)
  have a5 := Scenario.getAttr_of (Checked.num hd hn (name := "dip") (by mem_tac) h.dip)
  have a6 := Scenario.getAttr_of (Checked.num hd hn (name := "v_s30") (by mem_tac) h.v)
  have b1 := Scenario.getAttr_of (Checked.opt_default hd hn (name := "dist_crjb") (by mem_tac) h.crjb)
  have b2 := Scenario.getAttr_of (Checked.opt hd hn (name := "depth_1_0") (by mem_tac) h.z1)
  have b3 := Scenario.getAttr_of (Checked.opt hd hn (name := "depth_tor") (by mem_tac) h.tor)
  have b4 := Scenario.getAttr_of (Checked.opt hd hn (name := "width") (by mem_tac) h.width)
  have b5 := Scenario.getAttr_of (Checked.opt hd hn (name := "dist_x") (by mem_tac) h.x)
  have b6 := Scenario.getAttr_of (Checked.opt hd hn (name := "dist_y0") (by mem_tac) h.y0)
  have c1 := Scenario.getAttr_of (Checked.cat_val hd hn (name := "mechanism") (by mem_tac))
  have c2 := Scenario.getAttr_of (Checked.cat_val hd hn (name := "region") (by mem_tac))
  have c3 := Scenario.getAttr_of (Checked.cat_val hd hn (name := "vs_source") (by mem_tac))
  obtain ⟨w4, c4, e4⟩ := Checked.flag hd hn (name := "on_hanging_wall") (by mem_tac)
  replace c4 := Scenario.getAttr_of c4
  obtain ⟨w5, c5, e5⟩ := Checked.flag hd hn (name := "is_aftershock") (by mem_tac)
  replace c5 := Scenario.getAttr_of c5
  set s0 : Scenario := ⟨d, []⟩
  have f1 : fillItem "width" estWidth s0 = pure (s0.doneItem "width" g.width
      (calcWidth (F.ofReal g.mag) (F.ofReal g.dip))) := by
    apply fillItem_eq rfl b4
    intro _
    simp only [estWidth, Scenario.num_of_num a1, Scenario.num_of_num a5, Py.pure_bind']
  set s1 := s0.doneItem "width" g.width (calcWidth (F.ofReal g.mag) (F.ofReal g.dip))
  have at1 : s1.attrs = [] := Scenario.doneItem_attrs _ _ _ _
  have n1 : ∀ k, "width" ≠ k → s1.getAttr k = s0.getAttr k :=
    fun k hk => Scenario.doneItem_other rfl hk
  have f2 : fillItem "depth_tor" estDepthTor s1 = pure (s1.doneItem "depth_tor" g.tor
      (calcDepthTor (F.ofReal g.mag))) := by
    apply fillItem_eq at1
    · rw [n1 _ (by decide), b3]
    intro _
    have m1 : s1.num "mag" = pure (F.ofReal g.mag) := by
      apply Scenario.num_of_num; rw [n1 _ (by decide), a1]
    simp only [estDepthTor, m1, Py.pure_bind']
  set s2 := s1.doneItem "depth_tor" g.tor (calcDepthTor (F.ofReal g.mag))
  have n2 : ∀ k, "depth_tor" ≠ k → s2.getAttr k = s1.getAttr k :=
    fun k hk => Scenario.doneItem_other at1 hk
  have q1 : s2.num "width" = pure g.effWidth := by
    apply Scenario.num_of_est
    rw [n2 _ (by decide)]
    exact Scenario.doneItem_self rfl b4
  have q2 : s2.num "depth_tor" = pure g.effTor := by
    apply Scenario.num_of_est
    apply Scenario.doneItem_self at1
    rw [n1 _ (by decide), b3]
  refine ⟨s2, ?_, q1, q2, ?_⟩
  · simp only [cls, fill, f1, f2, Py.pure_bind', Py.pure_res]
  · have nn : ∀ k, "depth_tor" ≠ k → "width" ≠ k → s2.getAttr k = s0.getAttr k :=
      fun k h1 h2 => (n2 k h1).trans (n1 k h2)
    have r1 := Scenario.num_of_num ((nn "mag" (by decide) (by decide)).trans a1)
    have r2 := Scenario.num_of_num ((nn "dist_rup" (by decide) (by decide)).trans a2)
    have r3 := Scenario.num_of_num ((nn "dist_jb" (by decide) (by decide)).trans a3)
    have r5 := Scenario.num_of_num ((nn "dip" (by decide) (by decide)).trans a5)
    have r6 := Scenario.num_of_num ((nn "v_s30" (by decide) (by decide)).trans a6)
    have r7 := (nn "mechanism" (by decide) (by decide)).trans c1
    have r8 := (nn "region" (by decide) (by decide)).trans c2
    have r9 := (nn "vs_source" (by decide) (by decide)).trans c3
    have r10 := (nn "on_hanging_wall" (by decide) (by decide)).trans c4
    have r11 := (nn "is_aftershock" (by decide) (by decide)).trans c5
    have r12 := Scenario.num_of_num ((nn "dist_crjb" (by decide) (by decide)).trans b1)
    have r13 : s2.optNum "dist_y0" = pure (g.y0.map F.ofReal) :=
      Scenario.optNum_attr ((nn "dist_y0" (by decide) (by decide)).trans b6)
    have r14 : s2.optNum "depth_1_0" = pure (g.z1.map F.ofReal) :=
      Scenario.optNum_attr ((nn "depth_1_0" (by decide) (by decide)).trans b2)
    have r15 := (nn "dist_x" (by decide) (by decide)).trans b5
    have e4' : w4.truthy = (kindOf s).hw := e4
    have e5' : w5.truthy = (kindOf s).aftershock := e5
    simp only [cls, r1, r2, r3, r5, r6, r7, r8, r9, r10, r11, r12, r13, r14, q1, q2, Py.pure_bind',
      mechOf_cat, regOf_cat, measured_cat, e4', e5']
    cases hh : (kindOf s).hw with
    | false =>
      simp only [readX, Bool.false_eq_true, if_false, Py.pure_bind', Py.pure_res, false_and,
        Given.toIn, hh]
      rfl
    | true =>
      cases hx : g.x with
      | none =>
        rw [hx] at r15
        simp [readX, Scenario.num, r15, Val.ofOpt, Val.toF]
      | some x =>
        rw [hx] at r15
        have r16 := Scenario.num_of_num r15
        simp only [readX, r16, if_true, Py.pure_bind', Py.pure_res, true_and, reduceCtorEq, if_false,
          Given.toIn, hh, hx, Option.getD_some]
        rfl

/-- Construction from a numeric scenario succeeds; the outputs are those of the formulas at
the completed inputs, and the completed values are stored under their keys. -/
theorem built {s : Scenario} {g : Given} (h : Source s g) (hx : (kindOf s).hw → g.x ≠ none) :
    ∃ inst, (cls.new s).res = .ok inst ∧ inst.out = out (g.toIn (kindOf s)) ∧
      inst.scenario.num "width" = pure g.effWidth ∧
      inst.scenario.num "depth_tor" = pure g.effTor := by
  apply built_of ok_params s (passes h) (fun t => t.num "width" = pure g.effWidth ∧
      t.num "depth_tor" = pure g.effTor)
  intro d hd
  obtain ⟨t, h1, h2, h3, h4⟩ := filled h hd
  refine ⟨t, h1, ⟨h2, h3⟩, ?_⟩
  rw [h4, if_neg]
  rintro ⟨a, b⟩
  exact hx a b

theorem gives {s : Scenario} {g : Given} (h : Source s g) (hx : (kindOf s).hw → g.x ≠ none) :
    Gives cls s (out (g.toIn (kindOf s))) := by
  obtain ⟨inst, h1, h2, -⟩ := built h hx
  exact ⟨inst, h1, h2⟩

end ASK14

namespace ASK14

/-! ### The coefficient rows -/

theorem table_length : table.length = 24 := by decide +kernel

/-- facts about the coefficient rows -/
theorem row_facts : ∀ c ∈ table, 180 < c.v_lin ∧ c.v_lin ≤ 960 ∧ (c.v_lin ≤ 800 ∨ c.period ≤ 0.5) ∧
    c.b ≤ 0 ∧ 0 < c.c ∧ c.n = 1.5 ∧ c.c4 = 4.5 ∧ c.m2 = 5 ∧ c.m2 < c.m1 ∧ 0 ≤ c.a3 ∧
    c.a2 + c.a3 * (8.5 - c.m1) < 0 ∧ c.a17 ≤ 0 ∧ c.a17 + c.a25 ≤ 0 ∧ c.a17 + c.a28 ≤ 0 ∧
    c.a17 + c.a29 ≤ 0 := by decide +kernel

/-- `s = n/100` bounds the nonlinearity from 180 m/s on -/
def nlGood (c : Row) (n : ℕ) : Prop :=
  ((n : ℚ) / 100) ^ 4 * c.v_lin ^ 3 ≤ 180 ^ 3 ∧ -c.b * (1 - (n : ℚ) / 100) < 1 + (n : ℚ) / 100 ∧ n ≤ 100

instance (c : Row) (n : ℕ) : Decidable (nlGood c n) := by unfold nlGood; infer_instance

theorem rows_nl : ∀ c ∈ table, ∃ n ∈ List.range 101, nlGood c n := by decide +kernel

/-! ### Velocities -/

noncomputable section

/-- the largest velocity the site term distinguishes -/
def v1R (c : Row) : ℝ := (v1 c).val

/-- `vs_ratio` -/
def ratioR (c : Row) (v : ℝ) : ℝ := min v (v1R c) / c.v_lin

end

theorem clip_period (c : Row) : 0.5 ≤ min (max (c.period : ℝ) 0.5) 3 ∧ min (max (c.period : ℝ) 0.5) 3 ≤ 3 :=
  ⟨le_min (le_max_right _ _) (by norm_num), min_le_right _ _⟩

theorem v1_ok (c : Row) : (v1 c).ok := by
  simp only [v1, fsimp]
  have := (clip_period c).1
  exact ⟨⟨by norm_num, div_pos (by linarith) (by norm_num)⟩, by norm_num⟩

theorem v1R_eq (c : Row) : v1R c = Real.exp (-0.35 * Real.log (min (max (c.period : ℝ) 0.5) 3 / 0.5) +
    Real.log 1500) := by simp only [v1R, v1, fsimp]

theorem v1R_ge (c : Row) : 800 ≤ v1R c := by
  obtain ⟨h1, h2⟩ := clip_period c
  set p := min (max (c.period : ℝ) 0.5) 3
  rw [v1R_eq, Real.exp_add, Real.exp_log (by norm_num)]
  change 800 ≤ Real.exp (-0.35 * Real.log (p / 0.5)) * 1500
  have hl : Real.log (p / 0.5) ≤ Real.log 6 := Real.log_le_log (by positivity) (by
    rw [div_le_iff₀ (by norm_num)]; linarith)
  have h6 : Real.log 6 * 7 ≤ Real.log (15 / 8) * 20 := by
    have : Real.log (6 ^ 7) ≤ Real.log ((15 / 8) ^ 20) := Real.log_le_log (by positivity) (by norm_num)
    rw [Real.log_pow, Real.log_pow] at this
    push_cast at this; linarith
  have : Real.exp (-Real.log (15 / 8)) ≤ Real.exp (-0.35 * Real.log (p / 0.5)) := by
    apply Real.exp_le_exp.2
    linarith
  rw [Real.exp_neg, Real.exp_log (by norm_num)] at this
  linarith

theorem v1R_short {c : Row} (h : c.period ≤ 0.5) : v1R c = 1500 := by
  have h' : (c.period : ℝ) ≤ 0.5 := by
    have : ((c.period : ℚ) : ℝ) ≤ ((0.5 : ℚ) : ℝ) := by exact_mod_cast h
    norm_num at this ⊢; exact this
  rw [v1R_eq, max_eq_right h', min_eq_left (by norm_num), div_self (by norm_num), Real.log_one]
  rw [mul_zero, zero_add, Real.exp_log (by norm_num)]

theorem vlin_pos {c : Row} (hc : c ∈ table) : (180 : ℝ) < c.v_lin ∧ (c.v_lin : ℝ) ≤ 960 ∧
    (c.v_lin : ℝ) ≤ v1R c := by
  obtain ⟨h1, h2, h3, -⟩ := row_facts c hc
  refine ⟨by exact_mod_cast h1, by exact_mod_cast h2, ?_⟩
  rcases h3 with h3 | h3
  · have : (c.v_lin : ℝ) ≤ 800 := by exact_mod_cast h3
    linarith [v1R_ge c]
  · rw [v1R_short h3]
    have : (c.v_lin : ℝ) ≤ 960 := by exact_mod_cast h2
    linarith

theorem ratio_val (c : Row) (v : F) : (ratio c v).val = ratioR c v.val := by
  simp only [ratio, ratioR, v1R, fsimp]

theorem ratio_ok {c : Row} (hc : c ∈ table) (v : ℝ) : (ratio c (F.ofReal v)).ok := by
  have := (vlin_pos hc).1
  simp only [ratio, fsimp, v1_ok]
  linarith

theorem ratioR_pos {c : Row} (hc : c ∈ table) {v : ℝ} (hv : 0 < v) : 0 < ratioR c v := by
  have h1 := vlin_pos hc
  have h2 := v1R_ge c
  exact div_pos (lt_min hv (by linarith)) (by linarith)

theorem ratioR_lt {c : Row} (hc : c ∈ table) {v : ℝ} : ratioR c v < 1 ↔ v < c.v_lin := by
  obtain ⟨h1, h2, h3⟩ := vlin_pos hc
  unfold ratioR
  rw [div_lt_one (by linarith), min_lt_iff]
  constructor
  · rintro (h | h)
    · exact h
    · linarith
  · exact Or.inl

theorem ratioR_small {c : Row} (hc : c ∈ table) {v : ℝ} (hv : v < c.v_lin) : ratioR c v = v / c.v_lin := by
  obtain ⟨h1, h2, h3⟩ := vlin_pos hc
  unfold ratioR
  rw [min_eq_left (by linarith)]

/-! ### The site term -/

noncomputable section

open Classical in
/-- the site amplification as a function of the log reference motion -/
def f5R (c : Row) (v x : ℝ) : ℝ :=
  if ratioR c v < 1 then
    c.a10 * Real.log (ratioR c v) - c.b * Real.log (Real.exp x + c.c) +
      c.b * Real.log (Real.exp x + c.c * ratioR c v ^ (1.5 : ℝ))
  else (c.a10 + (c.b : ℝ) * c.n) * Real.log (ratioR c v)

end

theorem n_val {c : Row} (hc : c ∈ table) : (c.n : ℝ) = 1.5 := by
  obtain ⟨-, -, -, -, -, hn, -⟩ := row_facts c hc
  rw [hn]; norm_num

theorem f5_val {c : Row} (hc : c ∈ table) (x : F) (v : ℝ) :
    (f5 c (F.exp x) (F.ofReal v)).val = f5R c v x.val := by
  simp only [f5, f5R, fsimp, ratio_val, n_val hc]

theorem f5_ok {c : Row} (hc : c ∈ table) {x : F} (hx : x.ok) {v : ℝ} (hv : 0 < v) :
    (f5 c (F.exp x) (F.ofReal v)).ok := by
  obtain ⟨-, -, -, -, h5, -⟩ := row_facts c hc
  have h5' : (0 : ℝ) < c.c := by exact_mod_cast h5
  have hp := ratioR_pos hc hv
  have hr := ratio_ok hc v
  simp only [f5, fsimp, ratio_val, hr, hx, hp]
  split
  · exact ⟨by positivity, Or.inl trivial, by positivity⟩
  · trivial

/-- the reference pass: the NaN is never selected -/
theorem f5_ref {c : Row} (hc : c ∈ table) :
    (f5 c F.nan vRef).ok ∧
      (f5 c F.nan vRef).val = (c.a10 + (c.b : ℝ) * c.n) * Real.log (ratioR c 1180) := by
  obtain ⟨h1, h2, h3⟩ := vlin_pos hc
  have hn : ¬ ratioR c 1180 < 1 := by rw [ratioR_lt hc]; linarith
  have hp := ratioR_pos hc (v := 1180) (by norm_num)
  have hr : (ratio c vRef).ok := by
    simp only [ratio, vRef, fsimp, v1_ok]
    linarith
  have hv : (ratio c vRef).val = ratioR c 1180 := by rw [ratio_val]; simp only [vRef, fsimp]
  simp only [f5, fsimp, hr, hv, hn, hp]

theorem f10_ref (c : Row) (z1 : Option ℝ) (j : Bool) :
    (f10 c vRef (z1.map F.ofReal) j).ok ∧ (f10 c vRef (z1.map F.ofReal) j).val = 0 := by
  cases z1 <;> simp [f10, vRef]

theorem calcDepth10_facts {v : ℝ} (hv : 0 ≤ v) (b : Bool) : (calcDepth10 (F.ofReal v) b).ok ∧
    0 < (calcDepth10 (F.ofReal v) b).val := by
  cases b
  · exact (C59_depth_1_0 (fun v => calcDepth10 v false) (by simp)).1 v hv
  · exact (C59_depth_1_0 (fun v => calcDepth10 v true) (by simp)).1 v hv

theorem interpF_ok {l : List (ℝ × F)} (hs : Interp.Sorted l) (hl : l ≠ []) (hok : ∀ p ∈ l, p.2.ok) (v : ℝ) :
    (npInterpF l (F.ofReal v)).ok := ⟨trivial, Interp.ok_of l v hs hl hok⟩

theorem basinSlope_ok (c : Row) (v : ℝ) : (basinSlope c (F.ofReal v)).ok := by
  apply interpF_ok
  · simp [Interp.Sorted]; norm_num
  · simp
  · simp

theorem f13_ok (c : Row) (v : ℝ) : (f13 c (F.ofReal v)).ok := by
  apply interpF_ok
  · simp [Interp.Sorted]; norm_num
  · simp
  · simp

theorem f10_ok (c : Row) {v : ℝ} (hv : 0 < v) {z1 : Option ℝ} (hz : ∀ z, z1 = some z → -0.01 < z) (j : Bool) :
    (f10 c (F.ofReal v) (z1.map F.ofReal) j).ok := by
  cases z1 with
  | none => simp [f10]
  | some z =>
    have hz' := hz z rfl
    obtain ⟨d1, d2⟩ := calcDepth10_facts hv.le j
    simp only [f10, Option.map_some, fsimp, vRef, basinSlope_ok, d1]
    split
    · trivial
    · refine ⟨?_, ?_⟩
      · linarith
      · apply div_pos <;> norm_num at hz' ⊢ <;> linarith

theorem freg_ok {c : Row} (hc : c ∈ table) {v : ℝ} (hv : 0 < v) (r : ℝ) (reg : Reg) :
    (freg c (F.ofReal v) (F.ofReal r) reg).ok := by
  cases reg
  · simp only [freg, fsimp, ratio_ok hc, ratio_val]
    exact ratioR_pos hc hv
  · simp [freg]
  · simp only [freg, fsimp, f13_ok]
  · simp [freg]

/-! ### The source and path terms -/

noncomputable section

/-- everything but the regional and site terms -/
def baseF (c : Row) (i : In) : F :=
  f1 c i.mag i.rup + (if i.hw then f4 c i else 0) + f6 c i.tor + fMech c i.mag i.mech + f11 c i

end

/-- on the hanging wall: `dist_x` given, a dip between 0 and 90 degrees and a positive width -/
def Given.HwOk (g : Given) (k : Kind) : Prop :=
  k.hw → g.x ≠ none ∧ 0 < g.dip ∧ g.dip < 90 ∧ ∀ w, g.width = some w → 0 < w

theorem effTor_ok (g : Given) : g.effTor.ok := F.orEst_ok fun _ => (calcDepthTor_val _).1

theorem effWidth_facts {g : Given} {k : Kind} (h : g.HwOk k) (hk : k.hw) :
    g.effWidth.ok ∧ 0 < g.effWidth.val := by
  obtain ⟨-, h0, h1, hw⟩ := h hk
  obtain ⟨w1, w2, -⟩ := C59_width_ask14 g.mag g.dip h0 (by linarith)
  unfold Given.effWidth
  cases hg : g.width with
  | none => rw [F.orEst_none w1]; exact ⟨w1, w2⟩
  | some w => exact ⟨by simp, hw w hg⟩

/-- horizontal extent of the rupture -/
theorem r1_pos {g : Given} {k : Kind} (h : g.HwOk k) (hk : k.hw) :
    0 < g.effWidth.val * Real.cos (g.dip * (Real.pi / 180)) := by
  obtain ⟨-, h0, h1, -⟩ := h hk
  refine mul_pos (effWidth_facts h hk).2 (Real.cos_pos_of_mem_Ioo ⟨?_, ?_⟩)
  · have := Real.pi_pos
    have : 0 < g.dip * (Real.pi / 180) := by positivity
    linarith
  · have := Real.pi_pos
    nlinarith

theorem tan20 : Real.cos (20 * (Real.pi / 180)) ≠ 0 := by
  have := Real.pi_pos
  exact (Real.cos_pos_of_mem_Ioo ⟨by linarith, by linarith⟩).ne'

theorem f4_ok (c : Row) {g : Given} {k : Kind} (h : g.HwOk k) (hk : k.hw) : (f4 c (g.toIn k)).ok := by
  have hr := r1_pos h hk
  have hw := (effWidth_facts h hk).1
  have a1 : (t1 (F.ofReal g.dip)).ok := by simp [t1]
  have a2 : (t2 (F.ofReal g.mag)).ok := by simp [t2]
  have a3 : (t3 (F.ofReal (g.x.getD 0)) g.effWidth (F.ofReal g.dip)).ok := by
    simp only [t3, fsimp, hw]
    split
    · exact hr.ne'
    · split
      · linarith
      · trivial
  have a4 : (t4 g.effTor).ok := by
    simp only [t4, fsimp, effTor_ok]; norm_num
  have a5 : (t5 (F.ofReal (g.x.getD 0)) (F.ofReal g.jb) (g.y0.map F.ofReal)).ok := by
    cases g.y0 with
    | none => simp [t5]
    | some y =>
      simp only [t5, Option.map_some, fsimp]
      exact ⟨tan20, by norm_num⟩
  simp only [f4, Given.toIn, hk, if_true, F.ok_mul]
  exact ⟨⟨⟨⟨⟨trivial, a1⟩, a2⟩, a3⟩, a4⟩, a5⟩

theorem depth_sq_pos {c : Row} (hc : c ∈ table) (m : ℝ) :
    1 ≤ (c.c4 : ℝ) - ((c.c4 : ℝ) - 1) * min (max (5 - m) 0) 1 := by
  obtain ⟨-, -, -, -, -, -, h4, -⟩ := row_facts c hc
  have h4' : (c.c4 : ℝ) = 4.5 := by rw [h4]; norm_num
  have : min (max (5 - m) 0) (1 : ℝ) ≤ 1 := min_le_right _ _
  rw [h4']; norm_num; linarith

theorem dist_facts {c : Row} (hc : c ∈ table) (m r : ℝ) :
    (dist c (F.ofReal m) (F.ofReal r)).ok ∧ 0 < (dist c (F.ofReal m) (F.ofReal r)).val := by
  have h := depth_sq_pos hc m
  simp only [dist, fsimp]
  exact ⟨by positivity, Real.sqrt_pos.2 (by positivity)⟩

theorem f1_ok {c : Row} (hc : c ∈ table) (m r : ℝ) : (f1 c (F.ofReal m) (F.ofReal r)).ok := by
  obtain ⟨h1, h2⟩ := dist_facts hc m r
  simp only [f1, fsimp, h1, h2]
  split
  · trivial
  · split <;> trivial

theorem base_ok {c : Row} (hc : c ∈ table) {g : Given} {k : Kind} (h : g.HwOk k) :
    (baseF c (g.toIn k)).ok := by
  have b1 := f1_ok hc g.mag g.rup
  have b2 : (if k.hw then f4 c (g.toIn k) else 0 : F).ok := by
    split
    · exact f4_ok c h (by assumption)
    · simp
  have b3 : (f6 c g.effTor).ok := by simp [f6, effTor_ok]
  have b4 : (fMech c (F.ofReal g.mag) k.mech).ok := by cases k.mech <;> simp [fMech]
  have b5 : (f11 c (g.toIn k)).ok := by
    unfold f11
    split <;> simp [Given.toIn]
  exact ⟨⟨⟨⟨b1, b2⟩, b3⟩, b4⟩, b5⟩

theorem ref_ok {c : Row} (hc : c ∈ table) {g : Given} {k : Kind} (h : g.HwOk k) :
    (lnRespAt c (g.toIn k) vRef F.nan).ok :=
  ⟨⟨base_ok hc h, freg_ok hc (v := 1180) (by norm_num) g.rup k.reg⟩,
    ⟨(f5_ref hc).1, (f10_ref c g.z1 _).1⟩⟩

theorem resp_ok {c : Row} (hc : c ∈ table) {g : Given} {k : Kind} (h : g.HwOk k) (hv : 0 < g.v)
    (hz : ∀ z, g.z1 = some z → -0.01 < z) : (lnResp c (g.toIn k)).ok :=
  ⟨⟨base_ok hc h, freg_ok hc hv g.rup k.reg⟩, ⟨f5_ok hc (ref_ok hc h) hv, f10_ok c hv hz _⟩⟩

noncomputable section

/-- log reference motion -/
def refR (c : Row) (g : Given) (k : Kind) : ℝ :=
  (baseF c (g.toIn k)).val + (freg c vRef (F.ofReal g.rup) k.reg).val +
    (c.a10 + (c.b : ℝ) * c.n) * Real.log (ratioR c 1180)

end

theorem ref_val {c : Row} (hc : c ∈ table) (g : Given) (k : Kind) :
    (lnRespAt c (g.toIn k) vRef F.nan).val = refR c g k := by
  have h1 := (f5_ref hc).2
  have h2 := (f10_ref c g.z1 (decide (k.reg = .japan))).2
  have h0 : (lnRespAt c (g.toIn k) vRef F.nan).val = (baseF c (g.toIn k)).val +
      (freg c vRef (F.ofReal g.rup) k.reg).val + ((f5 c F.nan vRef).val +
      (f10 c vRef (g.z1.map F.ofReal) (decide (k.reg = .japan))).val) := rfl
  rw [h0, h1, h2]
  unfold refR
  ring

theorem resp_val {c : Row} (hc : c ∈ table) (g : Given) (k : Kind) :
    (lnResp c (g.toIn k)).val = (baseF c (g.toIn k)).val +
      (freg c (F.ofReal g.v) (F.ofReal g.rup) k.reg).val + f5R c g.v (refR c g k) +
      (f10 c (F.ofReal g.v) (g.z1.map F.ofReal) (k.reg = .japan)).val := by
  have h1 := f5_val hc (lnRespAt c (g.toIn k) vRef F.nan) g.v
  rw [ref_val hc] at h1
  have h0 : (lnResp c (g.toIn k)).val = (baseF c (g.toIn k)).val +
      (freg c (F.ofReal g.v) (F.ofReal g.rup) k.reg).val +
      ((f5 c (F.exp (lnRespAt c (g.toIn k) vRef F.nan)) (F.ofReal g.v)).val +
      (f10 c (F.ofReal g.v) (g.z1.map F.ofReal) (k.reg = .japan)).val) := rfl
  rw [h0, h1]
  ring

end ASK14

namespace ASK14

/-! ### Nonlinearity -/

/-- the certificate for a row, over the reals: `s ^ 2` bounds the strength of the nonlinearity
from 180 m/s on -/
theorem nl_bound {c : Row} (hc : c ∈ table) : ∃ s : ℝ, 0 ≤ s ∧ s ≤ 1 ∧
    (∀ v : ℝ, 180 ≤ v → s ^ 2 ≤ (v / c.v_lin) ^ (1.5 : ℝ)) ∧ -(c.b : ℝ) * (1 - s) < 1 + s := by
  obtain ⟨n, -, h1, h2, h3⟩ := rows_nl c hc
  have hl := (vlin_pos hc).1
  have hl0 : (0 : ℝ) < c.v_lin := by linarith
  have h3' : (n : ℝ) ≤ 100 := by exact_mod_cast h3
  refine ⟨(n : ℝ) / 100, by positivity, by linarith, ?_, ?_⟩
  rotate_left
  · have : ((-c.b * (1 - (n : ℚ) / 100) : ℚ) : ℝ) < ((1 + (n : ℚ) / 100 : ℚ) : ℝ) := by exact_mod_cast h2
    push_cast at this; exact this
  intro v hv
  have e : (1.5 : ℝ) = ((3 : ℕ) : ℝ) / ((2 : ℕ) : ℝ) := by norm_num
  rw [e]
  apply le_rpow_of (by positivity) (by positivity) 3 2 (by norm_num)
  have h1' : ((n : ℝ) / 100) ^ 4 * (c.v_lin : ℝ) ^ 3 ≤ 180 ^ 3 := by
    have : ((((n : ℚ) / 100) ^ 4 * c.v_lin ^ 3 : ℚ) : ℝ) ≤ ((180 ^ 3 : ℚ) : ℝ) := by exact_mod_cast h1
    push_cast at this; exact this
  rw [div_pow v, le_div_iff₀ (by positivity)]
  calc (((n : ℝ) / 100) ^ 2) ^ 2 * (c.v_lin : ℝ) ^ 3 = ((n : ℝ) / 100) ^ 4 * (c.v_lin : ℝ) ^ 3 := by ring
    _ ≤ 180 ^ 3 := h1'
    _ ≤ v ^ 3 := by gcongr

theorem f5R_slope {c : Row} (hc : c ∈ table) {v : ℝ} (hv : 180 ≤ v) {x' x : ℝ} (h : x' < x) :
    f5R c v x' - f5R c v x < x - x' := by
  unfold f5R
  split
  · rename_i hlt
    have hvl := (ratioR_lt hc).1 hlt
    rw [ratioR_small hc hvl]
    obtain ⟨s, s0, s1, hs, hb⟩ := nl_bound hc
    obtain ⟨-, -, -, hb0, h5, -⟩ := row_facts c hc
    have hb0' : (c.b : ℝ) ≤ 0 := by exact_mod_cast hb0
    have h5' : (0 : ℝ) < c.c := by exact_mod_cast h5
    have hκ : 1 - s ≤ (1 - s) / (1 + s) * (1 + s) := by
      rw [div_mul_cancel₀ _ (by positivity)]
    have hk0 : 0 ≤ (1 - s) / (1 + s) := div_nonneg (by linarith) (by linarith)
    have hk1 : -(c.b : ℝ) * ((1 - s) / (1 + s)) < 1 := by
      rw [mul_div_assoc', div_lt_one (by positivity)]; exact hb
    have := log_ratio_slope h.le h5' s0 (hs v hv) hk0 hκ
    nlinarith
  · linarith

/-- anelastic coefficient of a region -/
def areg (c : Row) : Reg → ℚ
  | .taiwan => c.a25
  | .china => c.a28
  | .japan => c.a29
  | .other => 0

theorem f1_drop {c : Row} (hc : c ∈ table) {m r r' : ℝ} (hm : m ≤ 8.5) (hr : 0 ≤ r) (hrr : r < r')
    (reg : Reg) :
    (f1 c (F.ofReal m) (F.ofReal r')).val + areg c reg * r' <
      (f1 c (F.ofReal m) (F.ofReal r)).val + areg c reg * r := by
  obtain ⟨-, -, -, -, -, -, -, h2, h21, h3, hs, g0, g1, g2, g3⟩ := row_facts c hc
  have h3' : (0 : ℝ) ≤ c.a3 := by exact_mod_cast h3
  have h21' : (c.m2 : ℝ) < c.m1 := by exact_mod_cast h21
  have h2' : (c.m2 : ℝ) = 5 := by rw [h2]; norm_num
  have hs' : (c.a2 : ℝ) + c.a3 * (8.5 - c.m1) < 0 := by
    have : ((c.a2 + c.a3 * (8.5 - c.m1) : ℚ) : ℝ) < ((0 : ℚ) : ℝ) := by exact_mod_cast hs
    push_cast at this; norm_num at this ⊢; linarith
  have hg : ((c.a17 : ℝ) + areg c reg) ≤ 0 := by
    have : (c.a17 + areg c reg : ℚ) ≤ 0 := by cases reg <;> simp [areg] <;> assumption
    exact_mod_cast this
  have hl : Real.log (dist c (F.ofReal m) (F.ofReal r)).val < Real.log (dist c (F.ofReal m) (F.ofReal r')).val := by
    apply Real.log_lt_log (dist_facts hc m r).2
    simp only [dist, fsimp]
    apply Real.sqrt_lt_sqrt (by positivity)
    nlinarith
  have ha : ((c.a17 : ℝ) + areg c reg) * r' ≤ ((c.a17 : ℝ) + areg c reg) * r :=
    mul_le_mul_of_nonpos_left hrr.le hg
  simp only [f1, fsimp]
  split
  · have : (c.a2 : ℝ) + c.a3 * ((c.m2 : ℝ) - c.m1) < 0 := by nlinarith
    nlinarith
  · have : (c.a2 : ℝ) + c.a3 * (m - c.m1) < 0 := by nlinarith
    nlinarith

theorem freg_split (c : Row) (v : F) (r : ℝ) (reg : Reg) :
    (freg c v (F.ofReal r) reg).val = (freg c v (F.ofReal 0) reg).val + areg c reg * r := by
  cases reg <;> simp [freg, areg]

theorem base_split (c : Row) (g : Given) (k : Kind) (r : ℝ) :
    (baseF c (({ g with rup := r } : Given).toIn k)).val =
      (f1 c (F.ofReal g.mag) (F.ofReal r)).val + ((baseF c (g.toIn k)).val -
        (f1 c (F.ofReal g.mag) (F.ofReal g.rup)).val) := by
  have e : ∀ g' : Given, (baseF c (g'.toIn k)).val = (f1 c (F.ofReal g'.mag) (F.ofReal g'.rup)).val +
      (if k.hw then f4 c (g'.toIn k) else 0).val + (f6 c g'.effTor).val +
      (fMech c (F.ofReal g'.mag) k.mech).val + (f11 c (g'.toIn k)).val := fun g' => rfl
  rw [e, e]
  have e1 : f4 c (({ g with rup := r } : Given).toIn k) = f4 c (g.toIn k) := rfl
  have e2 : f11 c (({ g with rup := r } : Given).toIn k) = f11 c (g.toIn k) := rfl
  have e3 : ({ g with rup := r } : Given).effTor = g.effTor := rfl
  rw [e1, e2, e3]
  ring

theorem resp_drop {c : Row} (hc : c ∈ table) (g : Given) (k : Kind) {r' : ℝ} (hm : g.mag ≤ 8.5)
    (hv : 180 ≤ g.v) (hr : 0 ≤ g.rup) (hrr : g.rup < r') :
    (lnResp c (({ g with rup := r' } : Given).toIn k)).val < (lnResp c (g.toIn k)).val := by
  have hd := f1_drop hc hm hr hrr k.reg
  rw [resp_val hc, resp_val hc]
  have eb := base_split c g k r'
  have e1 := freg_split c (F.ofReal g.v) r' k.reg
  have e2 := freg_split c (F.ofReal g.v) g.rup k.reg
  have e3 := freg_split c vRef r' k.reg
  have e4 := freg_split c vRef g.rup k.reg
  have hx : refR c { g with rup := r' } k = refR c g k - ((f1 c (F.ofReal g.mag) (F.ofReal g.rup)).val +
      areg c k.reg * g.rup - ((f1 c (F.ofReal g.mag) (F.ofReal r')).val + areg c k.reg * r')) := by
    unfold refR
    simp only [eb, e3, e4]
    ring
  have hlt : refR c { g with rup := r' } k < refR c g k := by rw [hx]; linarith
  have hs := f5R_slope hc hv hlt
  simp only [eb, e1, e2]
  rw [hx] at hs ⊢
  linarith

end ASK14

/-- For `v_s30` from 180 m/s and magnitude up to 8.5, every spectral ordinate, PGA and PGV
strictly decreases when only `dist_rup` grows: in every region, on or off the hanging wall, with
given or estimated width and depths, including the nonlinear site response. -/
theorem C43_attenuates (s s' : Scenario) (g : ASK14.Given) (r' : ℝ) (h : ASK14.Source s g)
    (h' : ASK14.Source s' { g with rup := r' })
    (hk : ∀ k ∈ ["mechanism", "region", "vs_source", "is_aftershock", "on_hanging_wall"],
      s'.get k = s.get k)
    (hw : (s.get "on_hanging_wall").isOn → g.x ≠ none ∧ 0 < g.dip ∧ g.dip < 90 ∧
      ∀ w, g.width = some w → 0 < w)
    (hz : ∀ z, g.z1 = some z → -0.01 < z)
    (hm : g.mag ≤ 8.5) (hv : 180 ≤ g.v) (hr : 0 ≤ g.rup) (hrr : g.rup < r') :
    ∃ o o', Gives ASK14.cls s o ∧ Gives ASK14.cls s' o' ∧ o.gmm.lnResp.length = 24 ∧
      List.Forall₂ F.Drops o.gmm.lnResp o'.gmm.lnResp := by
  have ek : ASK14.kindOf s' = ASK14.kindOf s := by
    simp only [List.forall_mem_cons] at hk
    obtain ⟨k1, k2, k3, k4, k5, -⟩ := hk
    simp [ASK14.kindOf, k1, k2, k3, k4, k5]
  have hok : g.HwOk (ASK14.kindOf s) := by
    intro hh
    exact hw (by simpa [ASK14.kindOf] using hh)
  have hok' : ({ g with rup := r' } : ASK14.Given).HwOk (ASK14.kindOf s) := hok
  refine ⟨_, _, ASK14.gives h fun e => (hok e).1, ASK14.gives h' fun e => (hok (ek ▸ e)).1, ?_, ?_⟩
  · simp [ASK14.out, ASK14.table_length]
  rw [ek]
  simp only [ASK14.out]
  exact forall₂_map fun c hc => ⟨ASK14.resp_ok hc hok (by linarith) hz,
    ASK14.resp_ok hc hok' (by linarith) hz, ASK14.resp_drop hc g _ hm hv hr hrr⟩

/-- The reference motion computed with `np.nan` in place of the reference motion, and every
prediction and standard deviation derived from it, is a defined number: for every scenario
with positive `v_s30` (and a proper geometry, on the hanging wall). -/
theorem C46_ask14_defined (s : Scenario) (g : ASK14.Given) (h : ASK14.Source s g)
    (hw : (s.get "on_hanging_wall").isOn → g.x ≠ none ∧ 0 < g.dip ∧ g.dip < 90 ∧
      ∀ w, g.width = some w → 0 < w)
    (hz : ∀ z, g.z1 = some z → -0.01 < z) (hv : 0 < g.v) :
    (∀ c ∈ ASK14.table, (ASK14.refMotion c (g.toIn (ASK14.kindOf s))).ok) ∧
    ∃ o, Gives ASK14.cls s o ∧ o.gmm.lnResp.length = 24 ∧ ∀ y ∈ o.gmm.lnResp, y.ok := by
  have hok : g.HwOk (ASK14.kindOf s) := by
    intro hh
    exact hw (by simpa [ASK14.kindOf] using hh)
  refine ⟨fun c hc => ASK14.ref_ok hc hok, _, ASK14.gives h fun e => (hok e).1, ?_, ?_⟩
  · simp [ASK14.out, ASK14.table_length]
  · intro y hy
    simp only [ASK14.out, List.mem_map] at hy
    obtain ⟨c, hc, rfl⟩ := hy
    exact ASK14.resp_ok hc hok hv hz

/-- On the hanging wall without `dist_x` the construction raises TypeError: the parameter is
declared optional, so no check reports it. -/
theorem C66_hanging_wall_needs_dist_x (s : Scenario) (g : ASK14.Given) (h : ASK14.Source s g)
    (hon : (s.get "on_hanging_wall").isOn) (hx : g.x = none) :
    (ASK14.cls.new s).res = .error .typeError := by
  apply fails_of_fill ASK14.ok_params s _ (ASK14.passes h)
  intro d hd
  obtain ⟨t, h1, -, -, h4⟩ := ASK14.filled h hd
  refine ⟨t, h1, ?_⟩
  rw [h4, if_pos]
  exact ⟨by simpa [ASK14.kindOf] using hon, hx⟩

/-- Off the hanging wall, `dist_x` and `dist_y0` are not looked at. -/
theorem C66_off_hanging_wall (s s' : Scenario) (g : ASK14.Given) (x' y' : Option ℝ)
    (h : ASK14.Source s g) (h' : ASK14.Source s' { g with x := x', y0 := y' })
    (hk : ∀ k ∈ ["mechanism", "region", "vs_source", "is_aftershock"], s'.get k = s.get k)
    (hoff : ¬ (s.get "on_hanging_wall").isOn) (hoff' : ¬ (s'.get "on_hanging_wall").isOn) :
    ∃ o, Gives ASK14.cls s o ∧ Gives ASK14.cls s' o := by
  have e1 : (ASK14.kindOf s).hw = false := by simpa [ASK14.kindOf] using hoff
  have e2 : ASK14.kindOf s' = ASK14.kindOf s := by
    simp only [List.forall_mem_cons] at hk
    obtain ⟨k1, k2, k3, k4, -⟩ := hk
    simp [ASK14.kindOf, k1, k2, k3, k4, hoff, hoff']
  have g1 := ASK14.gives h (by simp [e1])
  have g2 := ASK14.gives h' (by simp [e2, e1])
  refine ⟨_, g1, ?_⟩
  rw [e2] at g2
  convert g2 using 1
  generalize ASK14.kindOf s = k at e1
  have hi : ({ g with x := x', y0 := y' } : ASK14.Given).toIn k =
      { g.toIn k with y0 := y'.map F.ofReal } := by
    simp only [ASK14.Given.toIn, e1]
    rfl
  rw [hi]
  have hr : ∀ c, ASK14.refMotion c { g.toIn k with y0 := y'.map F.ofReal } = ASK14.refMotion c (g.toIn k) := by
    intro c
    simp only [ASK14.refMotion, ASK14.lnRespAt, ASK14.Given.toIn, e1]
    rfl
  simp only [ASK14.out, ASK14.lnResp, ASK14.lnStd, ASK14.phi, ASK14.tau, ASK14.deriv, ASK14.phiB,
    ASK14.tauB, ASK14.phiAl, hr]
  simp only [ASK14.lnRespAt, ASK14.Given.toIn, e1]
  rfl

namespace ASK14

/-! ### Continuity -/

noncomputable section

open Classical in
/-- the taper with the distance from the top edge, in units of the horizontal extent -/
def T3 (u : ℝ) : ℝ :=
  if u < 1 then 0.25 + 1.5 * u + -0.75 * u ^ 2 else if u < 3 then 1 - (u - 1) / 2 else 0

end

theorem T3_continuous : Continuous T3 := by
  have e : T3 = fun u : ℝ => if 1 ≤ u then (if 3 ≤ u then 0 else 1 - (u - 1) / 2)
      else 0.25 + 1.5 * u + -0.75 * u ^ 2 := by
    funext u
    unfold T3
    by_cases h1 : u < 1
    · simp [h1, not_le.2 h1]
    · by_cases h3 : u < 3
      · simp [h1, not_lt.1 h1, h3, not_le.2 h3]
      · simp [h1, not_lt.1 h1, h3, not_lt.1 h3]
  rw [e]
  refine Continuous.if_le (Continuous.if_le continuous_const (by fun_prop) continuous_const continuous_id ?_)
    (by fun_prop) continuous_const continuous_id ?_
  · intro u hu
    have hu : 3 = u := hu
    subst hu; norm_num
  · intro u hu
    have hu : 1 = u := hu
    subst hu; norm_num

theorem t3_val (x : ℝ) (w : F) (dip : ℝ) (h : 0 < w.val * Real.cos (dip * (Real.pi / 180))) :
    (t3 (F.ofReal x) w (F.ofReal dip)).val = T3 (x / (w.val * Real.cos (dip * (Real.pi / 180)))) := by
  simp only [t3, fsimp, T3]
  set r := w.val * Real.cos (dip * (Real.pi / 180))
  have e1 : x < r ↔ x / r < 1 := (div_lt_one h).symm
  have e2 : x < 3 * r ↔ x / r < 3 := by rw [div_lt_iff₀ h]
  simp only [e1, e2]
  have e3 : (x - r) / (3 * r - r) = (x / r - 1) / 2 := by field_simp; ring
  rw [e3]

theorem t2_continuous : Continuous fun m : ℝ => (t2 (F.ofReal m)).val := by
  have e : (fun m : ℝ => (t2 (F.ofReal m)).val) = fun m : ℝ => if m ≤ 5.5 then 0 else
      if 6.5 ≤ m then 1 + 0.2 * (m - 6.5) else 1 + 0.2 * (m - 6.5) - (1 - 0.2) * (m - 6.5) ^ 2 := by
    funext m
    simp only [t2, fsimp]
    by_cases h1 : m ≤ 5.5
    · simp only [h1, if_true]
    · by_cases h2 : m < 6.5
      · simp only [h1, h2, not_le.2 h2, if_true, if_false]
      · simp only [h1, h2, not_lt.1 h2, if_true, if_false]
  rw [e]
  refine Continuous.if_le continuous_const (Continuous.if_le (by fun_prop) (by fun_prop) continuous_const
    continuous_id ?_) continuous_id continuous_const ?_
  · intro u hu
    have hu : 6.5 = u := hu
    subst hu; norm_num
  · intro u hu
    have hu : u = 5.5 := hu
    subst hu; norm_num

theorem f1_continuous {c : Row} (hc : c ∈ table) (r : ℝ) :
    Continuous fun m : ℝ => (f1 c (F.ofReal m) (F.ofReal r)).val := by
  obtain ⟨-, -, -, -, -, -, -, h2, h21, -⟩ := row_facts c hc
  have h21' : (c.m2 : ℝ) < c.m1 := by exact_mod_cast h21
  have hl : Continuous fun m : ℝ => Real.log (dist c (F.ofReal m) (F.ofReal r)).val := by
    apply Continuous.log _ fun m => (dist_facts hc m r).2.ne'
    simp only [dist, fsimp]
    fun_prop
  simp only [f1, fsimp]
  refine Continuous.if_le (by fun_prop) (Continuous.add (by fun_prop) (Continuous.if_le (by fun_prop) (by fun_prop)
    continuous_id continuous_const ?_)) continuous_id continuous_const ?_
  · intro m hm
    have hm : m = c.m1 := hm
    subst hm; ring
  · intro m hm
    have hm : m = c.m2 := hm
    subst hm
    rw [if_pos h21'.le]
    ring

theorem effTor_continuous (g : Given) :
    Continuous fun m : ℝ => ({ g with mag := m } : Given).effTor.val := by
  unfold Given.effTor
  cases g.tor with
  | some t => exact show Continuous (fun _ : ℝ => t) from continuous_const
  | none =>
    have e : (fun m : ℝ => (F.orEst none (calcDepthTor (F.ofReal m))).val) =
        fun m : ℝ => 7.8 * (7.2 - min (max m 5) 7.2) / 2.2 := by
      funext m
      rw [F.orEst_none (calcDepthTor_val m).1, (calcDepthTor_val m).2]
    change Continuous (fun m : ℝ => (F.orEst none (calcDepthTor (F.ofReal m))).val)
    rw [e]
    fun_prop

theorem effWidth_continuous {g : Given} (h0 : 0 < g.dip) (h1 : g.dip < 90) :
    Continuous fun m : ℝ => ({ g with mag := m } : Given).effWidth.val := by
  unfold Given.effWidth
  cases g.width with
  | some t => exact show Continuous (fun _ : ℝ => t) from continuous_const
  | none =>
    have e : (fun m : ℝ => (F.orEst none (calcWidth (F.ofReal m) (F.ofReal g.dip))).val) =
        fun m : ℝ => (calcWidth (F.ofReal m) (F.ofReal g.dip)).val := by
      funext m
      rw [F.orEst_none (C59_width_ask14 m g.dip h0 (by linarith)).1]
    change Continuous (fun m : ℝ => (F.orEst none (calcWidth (F.ofReal m) (F.ofReal g.dip))).val)
    rw [e]
    simp only [calcWidth, fsimp]
    refine Continuous.min continuous_const ?_
    exact Continuous.rpow continuous_const (by fun_prop) (fun m => Or.inl (by norm_num))

theorem base_val (c : Row) (g : Given) (k : Kind) : (baseF c (g.toIn k)).val =
    (f1 c (F.ofReal g.mag) (F.ofReal g.rup)).val +
      (if k.hw then c.a13 * (t1 (F.ofReal g.dip)).val * (t2 (F.ofReal g.mag)).val *
        (t3 (F.ofReal (g.x.getD 0)) g.effWidth (F.ofReal g.dip)).val * (t4 g.effTor).val *
        (t5 (F.ofReal (g.x.getD 0)) (F.ofReal g.jb) (g.y0.map F.ofReal)).val else 0) +
      (f6 c g.effTor).val + (fMech c (F.ofReal g.mag) k.mech).val + (f11 c (g.toIn k)).val := by
  have e : (baseF c (g.toIn k)).val = (f1 c (F.ofReal g.mag) (F.ofReal g.rup)).val +
      (if k.hw then f4 c (g.toIn k) else 0).val + (f6 c g.effTor).val +
      (fMech c (F.ofReal g.mag) k.mech).val + (f11 c (g.toIn k)).val := rfl
  rw [e]
  by_cases hk : k.hw
  · simp only [hk, if_true, f4, Given.toIn, fsimp]
  · simp only [hk, Bool.false_eq_true, if_false, F.val_zero]

theorem base_continuous {c : Row} (hc : c ∈ table) {g : Given} {k : Kind} (h : g.HwOk k) :
    Continuous fun m : ℝ => (baseF c (({ g with mag := m } : Given).toIn k)).val := by
  simp only [base_val]
  have k1 := f1_continuous hc g.rup
  have k2 := effTor_continuous g
  have k6 : Continuous fun m : ℝ => (f6 c ({ g with mag := m } : Given).effTor).val := by
    simp only [f6, fsimp]; fun_prop
  have k7 : Continuous fun m : ℝ => (fMech c (F.ofReal m) k.mech).val := by
    cases k.mech <;> simp only [fMech, fsimp] <;> fun_prop
  have k8 : Continuous fun m : ℝ => (f11 c (({ g with mag := m } : Given).toIn k)).val := by
    have : (fun m : ℝ => (f11 c (({ g with mag := m } : Given).toIn k)).val) =
      fun _ => (f11 c (g.toIn k)).val := rfl
    rw [this]; exact continuous_const
  refine (((k1.add ?_).add k6).add k7).add k8
  by_cases hk : k.hw
  · simp only [hk, if_true]
    obtain ⟨-, h0, h1, -⟩ := h hk
    have hp : ∀ m : ℝ, 0 < ({ g with mag := m } : Given).effWidth.val * Real.cos (g.dip * (Real.pi / 180)) :=
      fun m => r1_pos (g := { g with mag := m }) (k := k) h hk
    simp only [t3_val _ _ _ (hp _)]
    have k3 : Continuous fun m : ℝ => T3 (g.x.getD 0 /
        (({ g with mag := m } : Given).effWidth.val * Real.cos (g.dip * (Real.pi / 180)))) :=
      T3_continuous.comp (Continuous.div continuous_const ((effWidth_continuous h0 h1).mul continuous_const)
        fun m => (hp m).ne')
    have k4 : Continuous fun m : ℝ => (t4 ({ g with mag := m } : Given).effTor).val := by
      simp only [t4, fsimp]; fun_prop
    exact ((((continuous_const.mul t2_continuous).mul k3).mul k4).mul continuous_const)
  · simp only [hk, Bool.false_eq_true, if_false]; exact continuous_const

theorem base_continuous_x {c : Row} {g : Given} {k : Kind}
    (h : k.hw → 0 < g.effWidth.val * Real.cos (g.dip * (Real.pi / 180))) :
    Continuous fun x : ℝ => (baseF c (({ g with x := some x } : Given).toIn k)).val := by
  simp only [base_val]
  have w1 : ∀ x : ℝ, ({ g with x := some x } : Given).effWidth = g.effWidth := fun _ => rfl
  have w2 : ∀ x : ℝ, ({ g with x := some x } : Given).effTor = g.effTor := fun _ => rfl
  simp only [w1, w2]
  have k8 : Continuous fun x : ℝ => (f11 c (({ g with x := some x } : Given).toIn k)).val := by
    have : (fun x : ℝ => (f11 c (({ g with x := some x } : Given).toIn k)).val) =
      fun _ => (f11 c (g.toIn k)).val := rfl
    rw [this]; exact continuous_const
  refine (((continuous_const.add ?_).add continuous_const).add continuous_const).add k8
  by_cases hk : k.hw
  · simp only [hk, if_true, Option.getD_some]
    have hp := h hk
    simp only [t3_val _ _ _ hp]
    have k3 : Continuous fun x : ℝ => T3 (x / (g.effWidth.val * Real.cos (g.dip * (Real.pi / 180)))) :=
      T3_continuous.comp (continuous_id.div_const _)
    have k5 : Continuous fun x : ℝ => (t5 (F.ofReal x) (F.ofReal g.jb) (g.y0.map F.ofReal)).val := by
      cases g.y0 <;> simp only [t5, Option.map_some, Option.map_none, fsimp] <;> fun_prop
    exact (((continuous_const.mul k3).mul continuous_const).mul k5)
  · simp only [hk, Bool.false_eq_true, if_false]; exact continuous_const

theorem f5R_continuous {c : Row} (hc : c ∈ table) {v : ℝ} (hv : 0 < v) : Continuous (f5R c v) := by
  obtain ⟨-, -, -, -, h5, -⟩ := row_facts c hc
  have h5' : (0 : ℝ) < c.c := by exact_mod_cast h5
  have hp := ratioR_pos hc hv
  unfold f5R
  by_cases h : ratioR c v < 1
  · simp only [h, if_true]
    have a1 : Continuous fun x : ℝ => Real.log (Real.exp x + c.c) :=
      Continuous.log (by fun_prop) fun x => by positivity
    have a2 : Continuous fun x : ℝ => Real.log (Real.exp x + c.c * ratioR c v ^ (1.5 : ℝ)) :=
      Continuous.log (by fun_prop) fun x => by positivity
    fun_prop
  · simp only [h, if_false]; exact continuous_const

theorem out_resp (i : In) {k : ℕ} (hk : k < table.length) :
    (out i).gmm.resp k = (lnResp (table[k]'hk) i).val := by
  simp only [GmmOut.resp, out, List.getD_eq_getElem?_getD, List.getElem?_map,
    List.getElem?_eq_getElem hk, Option.map_some, Option.getD_some]

theorem out_all_ok {g : Given} {k : Kind} (h : g.HwOk k) (hv : 0 < g.v)
    (hz : ∀ z, g.z1 = some z → -0.01 < z) : ∀ y ∈ (out (g.toIn k)).gmm.lnResp, y.ok := by
  intro y hy
  simp only [out, List.mem_map] at hy
  obtain ⟨c, hc, rfl⟩ := hy
  exact resp_ok hc h hv hz

end ASK14

/-- All predictions are defined and continuous functions of the magnitude -- in particular at the
hinges m1 and m2 of the magnitude scaling, at the magnitudes 5.5 and 6.5 of the hanging-wall
taper, and through the estimated width and depth. -/
theorem C44_continuous_in_mag (S : ℝ → Scenario) (g : ASK14.Given) (k : ASK14.Kind)
    (hS : ∀ m, ASK14.Source (S m) { g with mag := m }) (hk : ∀ m, ASK14.kindOf (S m) = k)
    (hw : k.hw → g.x ≠ none ∧ 0 < g.dip ∧ g.dip < 90 ∧ ∀ w, g.width = some w → 0 < w)
    (hz : ∀ z, g.z1 = some z → -0.01 < z) (hv : 0 < g.v) :
    ∃ O : ℝ → ASK14.Out, (∀ m, Gives ASK14.cls (S m) (O m) ∧ ∀ y ∈ (O m).gmm.lnResp, y.ok) ∧
      ∀ i, i < 24 → Continuous (fun m => (O m).gmm.resp i) := by
  have hok : ∀ m, ({ g with mag := m } : ASK14.Given).HwOk k := fun m => hw
  refine ⟨fun m => ASK14.out (({ g with mag := m } : ASK14.Given).toIn k), fun m => ⟨?_, ?_⟩, ?_⟩
  · have := ASK14.gives (hS m) (by rw [hk]; exact fun e => (hw e).1)
    rwa [hk m] at this
  · exact ASK14.out_all_ok (hok m) hv hz
  · intro i hi
    rw [← ASK14.table_length] at hi
    have hc : ASK14.table[i]'hi ∈ ASK14.table := List.getElem_mem _
    simp only [ASK14.out_resp _ hi, ASK14.resp_val hc, ASK14.refR]
    have hb := ASK14.base_continuous hc (g := g) (k := k) hw
    exact ((hb.add continuous_const).add ((ASK14.f5R_continuous hc hv).comp
      ((hb.add continuous_const).add continuous_const))).add continuous_const

/-- All predictions are continuous in `dist_x`: the hanging-wall taper agrees from both sides at
the edge of the rupture's projection and at three times that distance. -/
theorem C44_continuous_in_dist_x (S : ℝ → Scenario) (g : ASK14.Given) (k : ASK14.Kind)
    (hS : ∀ x, ASK14.Source (S x) { g with x := some x }) (hk : ∀ x, ASK14.kindOf (S x) = k)
    (hw : k.hw → 0 < g.dip ∧ g.dip < 90 ∧ ∀ w, g.width = some w → 0 < w)
    (hz : ∀ z, g.z1 = some z → -0.01 < z) (hv : 0 < g.v) :
    ∃ O : ℝ → ASK14.Out, (∀ x, Gives ASK14.cls (S x) (O x) ∧ ∀ y ∈ (O x).gmm.lnResp, y.ok) ∧
      ∀ i, i < 24 → Continuous (fun x => (O x).gmm.resp i) := by
  have hok : ∀ x, ({ g with x := some x } : ASK14.Given).HwOk k := fun x e => ⟨by simp, hw e⟩
  refine ⟨fun x => ASK14.out (({ g with x := some x } : ASK14.Given).toIn k), fun x => ⟨?_, ?_⟩, ?_⟩
  · have := ASK14.gives (hS x) (by simp)
    rwa [hk x] at this
  · exact ASK14.out_all_ok (hok x) hv hz
  · intro i hi
    rw [← ASK14.table_length] at hi
    have hc : ASK14.table[i]'hi ∈ ASK14.table := List.getElem_mem _
    simp only [ASK14.out_resp _ hi, ASK14.resp_val hc, ASK14.refR]
    have hb := ASK14.base_continuous_x (c := ASK14.table[i]'hi) (g := g) (k := k)
      (fun e => ASK14.r1_pos (g := { g with x := some 0 }) (hok 0) e)
    exact ((hb.add continuous_const).add ((ASK14.f5R_continuous hc hv).comp
      ((hb.add continuous_const).add continuous_const))).add continuous_const

namespace ASK14

/-! ### Standard deviations -/

theorem std_row_facts : ∀ c ∈ table, 0 < c.s3 ∧ c.s3 ≤ 0.47 ∧ 0 < c.s4 ∧ c.s4 ≤ 0.47 ∧
    0 ≤ c.s1m ∧ c.s1m ≤ 0.81 ∧ 0 ≤ c.s2m ∧ c.s2m ≤ 0.81 ∧ 0 ≤ c.s1e ∧ c.s1e ≤ 0.81 ∧
    0 ≤ c.s2e ∧ c.s2e ≤ 0.81 ∧ 0 ≤ c.s5 ∧ c.s5 ≤ 0.81 ∧ 0 ≤ c.s6 ∧ c.s6 ≤ 0.81 := by decide +kernel

/-- a taper between two values stays between bounds of both -/
theorem taper_mem {a b lo hi t : ℝ} (ha : lo ≤ a) (ha' : a ≤ hi) (hb : lo ≤ b) (hb' : b ≤ hi) :
    lo ≤ a + (b - a) * min (max t 0) 1 ∧ a + (b - a) * min (max t 0) 1 ≤ hi := by
  have h0 : 0 ≤ min (max t 0) (1 : ℝ) := le_min (le_max_right _ _) (by norm_num)
  have h1 : min (max t 0) (1 : ℝ) ≤ 1 := min_le_right _ _
  constructor <;> nlinarith

theorem phiAl_facts {c : Row} (hc : c ∈ table) (g : Given) (k : Kind) :
    (phiAl c (g.toIn k)).ok ∧ 0 ≤ (phiAl c (g.toIn k)).val ∧ (phiAl c (g.toIn k)).val ≤ 0.81 := by
  obtain ⟨-, -, -, -, m0, m1, m2, m3, e0, e1, e2, e3, j0, j1, j2, j3⟩ := std_row_facts c hc
  have cast : ∀ q : ℚ, q ≤ 0.81 → (q : ℝ) ≤ 0.81 := by
    intro q hq
    have : ((q : ℚ) : ℝ) ≤ ((0.81 : ℚ) : ℝ) := by exact_mod_cast hq
    norm_num at this ⊢; exact this
  have cast0 : ∀ q : ℚ, 0 ≤ q → (0 : ℝ) ≤ q := by intro q hq; exact_mod_cast hq
  unfold phiAl
  split
  · refine ⟨by simp [Given.toIn], ?_⟩
    simp only [Given.toIn, fsimp]
    exact taper_mem (cast0 _ j0) (cast _ j1) (cast0 _ j2) (cast _ j3)
  · split
    · refine ⟨by simp [Given.toIn], ?_⟩
      simp only [Given.toIn, fsimp]
      exact taper_mem (cast0 _ m0) (cast _ m1) (cast0 _ m2) (cast _ m3)
    · refine ⟨by simp [Given.toIn], ?_⟩
      simp only [Given.toIn, fsimp]
      exact taper_mem (cast0 _ e0) (cast _ e1) (cast0 _ e2) (cast _ e3)

theorem tauB_facts {c : Row} (hc : c ∈ table) (g : Given) (k : Kind) :
    (tauB c (g.toIn k)).ok ∧ 0 < (tauB c (g.toIn k)).val ∧ (tauB c (g.toIn k)).val ≤ 0.47 := by
  obtain ⟨a0, a1, b0, b1, -⟩ := std_row_facts c hc
  have cast : ∀ q : ℚ, q ≤ 0.47 → (q : ℝ) ≤ 0.47 := by
    intro q hq
    have : ((q : ℚ) : ℝ) ≤ ((0.47 : ℚ) : ℝ) := by exact_mod_cast hq
    norm_num at this ⊢; exact this
  have a0' : (0 : ℝ) < c.s3 := by exact_mod_cast a0
  have b0' : (0 : ℝ) < c.s4 := by exact_mod_cast b0
  refine ⟨by simp [tauB, Given.toIn], ?_⟩
  simp only [tauB, Given.toIn, fsimp]
  have h1 := taper_mem (t := (g.mag - 5) / 2) (min_le_left (c.s3 : ℝ) c.s4) (cast _ a1) (min_le_right (c.s3 : ℝ) c.s4) (cast _ b1)
  exact ⟨lt_of_lt_of_le (lt_min a0' b0') h1.1, h1.2⟩

theorem phiB_facts {c : Row} (hc : c ∈ table) (g : Given) (k : Kind) :
    (phiB c (g.toIn k)).ok ∧ (phiB c (g.toIn k)).val ^ 2 = max ((phiAl c (g.toIn k)).val ^ 2 - 0.4 ^ 2) 0 := by
  obtain ⟨h1, -⟩ := phiAl_facts hc g k
  simp only [phiB, fsimp, h1]
  exact ⟨le_max_right _ _, Real.sq_sqrt (le_max_right _ _)⟩

/-- the reference motion is positive -/
theorem ref_pos (c : Row) (i : In) : 0 < (refMotion c i).val := by
  simp only [refMotion, fsimp]; exact Real.exp_pos _

/-- the derivative of the amplification: non-positive, and above -1 from 180 m/s -/
theorem deriv_facts {c : Row} (hc : c ∈ table) {g : Given} {k : Kind} (h : g.HwOk k) (hv : 0 < g.v) :
    (deriv c (g.toIn k)).ok ∧ (deriv c (g.toIn k)).val ≤ 0 ∧
      (180 ≤ g.v → -1 < (deriv c (g.toIn k)).val) ∧
      ((c.v_lin : ℝ) ≤ g.v → (deriv c (g.toIn k)).val = 0) := by
  obtain ⟨-, -, -, hb, h5, -⟩ := row_facts c hc
  have hb' : (c.b : ℝ) ≤ 0 := by exact_mod_cast hb
  have h5' : (0 : ℝ) < c.c := by exact_mod_cast h5
  have hl := (vlin_pos hc).1
  have hl0 : (0 : ℝ) < c.v_lin := by linarith
  have hr : (refMotion c (g.toIn k)).ok := ref_ok hc h
  have hp := ref_pos c (g.toIn k)
  unfold deriv
  set y := refMotion c (g.toIn k)
  have hρ : 0 < (g.v / c.v_lin) ^ (1.5 : ℝ) := by positivity
  refine ⟨?_, ?_, ?_, ?_⟩
  · simp only [fsimp, Given.toIn, hr, n_val hc]
    split
    · trivial
    · exact ⟨by positivity, ⟨hl0.ne', Or.inl (by positivity)⟩, by positivity⟩
  · simp only [fsimp, Given.toIn, n_val hc]
    split
    · exact le_rfl
    · rename_i hlt
      have hlt' : g.v / c.v_lin < 1 := (div_lt_one hl0).2 (not_le.1 hlt)
      have hρ1 : (g.v / c.v_lin) ^ (1.5 : ℝ) ≤ 1 := Real.rpow_le_one (by positivity) hlt'.le (by norm_num)
      set ρ := (g.v / c.v_lin) ^ (1.5 : ℝ)
      have : y.val / (y.val + c.c) ≤ y.val / (y.val + c.c * ρ) := by
        apply div_le_div_of_nonneg_left hp.le (by positivity)
        nlinarith
      have e1 : -(c.b : ℝ) * y.val / (y.val + c.c) = -c.b * (y.val / (y.val + c.c)) := by ring
      have e2 : (c.b : ℝ) * y.val / (y.val + c.c * ρ) = c.b * (y.val / (y.val + c.c * ρ)) := by ring
      rw [e1, e2]
      nlinarith
  · intro hv180
    simp only [fsimp, Given.toIn, n_val hc]
    split
    · norm_num
    · rename_i hlt
      obtain ⟨s, s0, s1, hs, hbs⟩ := nl_bound hc
      have hs' := hs g.v hv180
      set ρ := (g.v / c.v_lin) ^ (1.5 : ℝ)
      -- y/(y+cρ) - y/(y+c) ≤ (1-s)/(1+s)
      have key : y.val / (y.val + c.c * ρ) - y.val / (y.val + c.c) ≤ (1 - s) / (1 + s) := by
        have h1 : y.val / (y.val + c.c * ρ) ≤ y.val / (y.val + c.c * s ^ 2) := by
          rcases eq_or_lt_of_le s0 with hs0 | hs0
          · rw [← hs0]
            simp only [ne_eq, OfNat.ofNat_ne_zero, not_false_eq_true, zero_pow, mul_zero, add_zero,
              div_self hp.ne']
            rw [div_le_one (by positivity)]
            nlinarith [mul_pos h5' hρ]
          · apply div_le_div_of_nonneg_left hp.le (by positivity)
            nlinarith
        have h2 : y.val / (y.val + c.c * s ^ 2) - y.val / (y.val + c.c) ≤ (1 - s) / (1 + s) := by
          have p1 : 0 < y.val + c.c * s ^ 2 := by positivity
          have p2 : 0 < y.val + c.c := by positivity
          rw [div_sub_div _ _ p1.ne' p2.ne', div_le_div_iff₀ (by positivity) (by positivity)]
          have : 0 ≤ (1 - s) * (y.val - c.c * s) ^ 2 := mul_nonneg (by linarith) (sq_nonneg _)
          nlinarith
        linarith
      have e1 : -(c.b : ℝ) * y.val / (y.val + c.c) = -c.b * (y.val / (y.val + c.c)) := by ring
      have e2 : (c.b : ℝ) * y.val / (y.val + c.c * ρ) = c.b * (y.val / (y.val + c.c * ρ)) := by ring
      rw [e1, e2]
      have hk1 : -(c.b : ℝ) * ((1 - s) / (1 + s)) < 1 := by
        rw [mul_div_assoc', div_lt_one (by positivity)]; exact hbs
      nlinarith
  · intro hge
    simp only [fsimp, Given.toIn]
    rw [if_pos hge]

theorem std_facts {c : Row} (hc : c ∈ table) {g : Given} {k : Kind} (h : g.HwOk k) (hv : 0 < g.v) :
    (lnStd c (g.toIn k)).ok ∧ (tau c (g.toIn k)).ok ∧ (phi c (g.toIn k)).ok ∧
    (lnStd c (g.toIn k)).val ^ 2 = (tau c (g.toIn k)).val ^ 2 + (phi c (g.toIn k)).val ^ 2 ∧
    0.4 ≤ (phi c (g.toIn k)).val ∧ 0.4 ≤ (lnStd c (g.toIn k)).val ∧
    (180 ≤ g.v → 0 < (tau c (g.toIn k)).val ∧ (tau c (g.toIn k)).val ≤ 0.47 ∧
      (phi c (g.toIn k)).val ≤ 0.81 ∧ (lnStd c (g.toIn k)).val ≤ 0.94) := by
  obtain ⟨d1, d2, d3, -⟩ := deriv_facts hc h hv
  obtain ⟨a1, a2, a3⟩ := phiAl_facts hc g k
  obtain ⟨t1, t2, t3⟩ := tauB_facts hc g k
  obtain ⟨p1, p2⟩ := phiB_facts hc g k
  have ht : (tau c (g.toIn k)).ok := ⟨t1, trivial, d1⟩
  have hphi0 : 0 ≤ (phiB c (g.toIn k)).val ^ 2 * (1 + (deriv c (g.toIn k)).val) ^ 2 := by positivity
  have hpok : (phi c (g.toIn k)).ok := by
    simp only [phi, fsimp, p1, d1]
    positivity
  have hpv : (phi c (g.toIn k)).val = Real.sqrt ((phiB c (g.toIn k)).val ^ 2 *
      (1 + (deriv c (g.toIn k)).val) ^ 2 + 0.4 ^ 2) := by simp only [phi, fsimp]
  have hp4 : 0.4 ≤ (phi c (g.toIn k)).val := by
    rw [hpv]
    apply Real.le_sqrt_of_sq_le
    linarith
  have hsv : (lnStd c (g.toIn k)).val = Real.sqrt ((phi c (g.toIn k)).val ^ 2 + (tau c (g.toIn k)).val ^ 2) := by
    simp only [lnStd, fsimp]
  have hsok : (lnStd c (g.toIn k)).ok := by
    simp only [lnStd, fsimp, hpok, ht]
    positivity
  refine ⟨hsok, ht, hpok, ?_, hp4, ?_, ?_⟩
  · rw [hsv, Real.sq_sqrt (by positivity)]; ring
  · rw [hsv]
    apply Real.le_sqrt_of_sq_le
    nlinarith [sq_nonneg (tau c (g.toIn k)).val]
  · intro hv180
    have d3' := d3 hv180
    have htv : (tau c (g.toIn k)).val = (tauB c (g.toIn k)).val * (1 + (deriv c (g.toIn k)).val) := by
      simp only [tau, fsimp]
    have q1 : 0 < (tau c (g.toIn k)).val := by rw [htv]; exact mul_pos t2 (by linarith)
    have q2 : (tau c (g.toIn k)).val ≤ 0.47 := by rw [htv]; nlinarith
    have hd : (1 + (deriv c (g.toIn k)).val) ^ 2 ≤ 1 := by nlinarith
    have hq : (phiB c (g.toIn k)).val ^ 2 * (1 + (deriv c (g.toIn k)).val) ^ 2 + 0.4 ^ 2 ≤ 0.81 ^ 2 := by
      have : (phiB c (g.toIn k)).val ^ 2 * (1 + (deriv c (g.toIn k)).val) ^ 2 ≤ (phiB c (g.toIn k)).val ^ 2 := by
        nlinarith [sq_nonneg (phiB c (g.toIn k)).val]
      have h3 : (phiB c (g.toIn k)).val ^ 2 ≤ 0.81 ^ 2 - 0.4 ^ 2 := by
        rw [p2]
        apply max_le _ (by norm_num)
        have : (phiAl c (g.toIn k)).val ^ 2 ≤ 0.81 ^ 2 := by gcongr
        linarith
      linarith
    have q3 : (phi c (g.toIn k)).val ≤ 0.81 := by
      rw [hpv]
      exact Real.sqrt_le_iff.2 ⟨by norm_num, hq⟩
    refine ⟨q1, q2, q3, ?_⟩
    rw [hsv]
    apply Real.sqrt_le_iff.2 ⟨by norm_num, ?_⟩
    have : (phi c (g.toIn k)).val ^ 2 ≤ 0.81 ^ 2 := by
      have : 0 ≤ (phi c (g.toIn k)).val := by linarith
      gcongr
    have : (tau c (g.toIn k)).val ^ 2 ≤ 0.47 ^ 2 := by gcongr
    norm_num at *
    linarith

end ASK14

/-- Standard deviations: for every positive `v_s30` they are defined, total squared is tau
squared plus phi squared, and phi and the total are at least 0.4.  From 180 m/s on tau is
positive and at most 0.47, phi at most 0.81 and the total at most 0.94. -/
theorem C45_std (s : Scenario) (g : ASK14.Given) (h : ASK14.Source s g)
    (hw : (s.get "on_hanging_wall").isOn → g.x ≠ none ∧ 0 < g.dip ∧ g.dip < 90 ∧
      ∀ w, g.width = some w → 0 < w) (hv : 0 < g.v) :
    ∃ o sd, Gives ASK14.cls s o ∧ o.gmm.lnStd = some sd ∧
      sd.length = 24 ∧ o.tau.length = 24 ∧ o.phi.length = 24 ∧
      ∀ i, i < 24 →
        (sd.getD i F.nan).ok ∧ (o.tau.getD i F.nan).ok ∧ (o.phi.getD i F.nan).ok ∧
        (sd.getD i F.nan).val ^ 2 = (o.tau.getD i F.nan).val ^ 2 + (o.phi.getD i F.nan).val ^ 2 ∧
        0.4 ≤ (o.phi.getD i F.nan).val ∧ 0.4 ≤ (sd.getD i F.nan).val ∧
        (180 ≤ g.v → 0 < (o.tau.getD i F.nan).val ∧ (o.tau.getD i F.nan).val ≤ 0.47 ∧
          (o.phi.getD i F.nan).val ≤ 0.81 ∧ (sd.getD i F.nan).val ≤ 0.94) := by
  have hok : g.HwOk (ASK14.kindOf s) := by
    intro hh
    exact hw (by simpa [ASK14.kindOf] using hh)
  refine ⟨_, _, ASK14.gives h fun e => (hok e).1, rfl, by simp [ASK14.table_length],
    by simp [ASK14.out, ASK14.table_length], by simp [ASK14.out, ASK14.table_length], ?_⟩
  intro i hi
  rw [← ASK14.table_length] at hi
  have := ASK14.std_facts (List.getElem_mem hi) hok hv
  simp only [ASK14.out, List.getD_eq_getElem?_getD, List.getElem?_map,
      List.getElem?_eq_getElem hi, Option.map_some, Option.getD_some]
  exact this

namespace ASK14

theorem basin_default (c : Row) {v : ℝ} (hv : 0 < v) (j : Bool) :
    (f10 c (F.ofReal v) (some (F.ofReal (calcDepth10 (F.ofReal v) j).val)) j).val = 0 := by
  obtain ⟨-, d2⟩ := calcDepth10_facts hv.le j
  simp only [f10, fsimp]
  split
  · rfl
  · rw [div_self (by positivity), Real.log_one, mul_zero]

end ASK14

/-- Leaving `depth_1_0` out is the same as giving the value of `calc_depth_1_0` at the site. -/
theorem C67_default_basin (s s' : Scenario) (g : ASK14.Given) (h : ASK14.Source s g) (hz : g.z1 = none)
    (h' : ASK14.Source s' { g with z1 := some (ASK14.calcDepth10 (F.ofReal g.v) ((s.get "region").isStr "japan")).val })
    (hk : ∀ k ∈ ["mechanism", "region", "vs_source", "is_aftershock", "on_hanging_wall"],
      s'.get k = s.get k)
    (hw : (s.get "on_hanging_wall").isOn → g.x ≠ none ∧ 0 < g.dip ∧ g.dip < 90 ∧
      ∀ w, g.width = some w → 0 < w) (hv : 0 < g.v) :
    ∃ o o', Gives ASK14.cls s o ∧ Gives ASK14.cls s' o' ∧ o.gmm.lnResp.length = 24 ∧
      List.Forall₂ F.Same o.gmm.lnResp o'.gmm.lnResp ∧ o.gmm.lnStd = o'.gmm.lnStd := by
  have ek : ASK14.kindOf s' = ASK14.kindOf s := by
    simp only [List.forall_mem_cons] at hk
    obtain ⟨k1, k2, k3, k4, k5, -⟩ := hk
    simp [ASK14.kindOf, k1, k2, k3, k4, k5]
  have hok : g.HwOk (ASK14.kindOf s) := by
    intro hh
    exact hw (by simpa [ASK14.kindOf] using hh)
  have ej : (s.get "region").isStr "japan" = decide ((ASK14.kindOf s).reg = .japan) := by
    simp only [ASK14.kindOf, ASK14.regOf]
    by_cases h1 : s.get "region" = .str "taiwan"
    · simp [h1]
    by_cases h2 : s.get "region" = .str "china"
    · simp [h2]
    by_cases h3 : s.get "region" = .str "japan"
    · simp [h3]
    · simp [Val.isStr, h1, h2, h3]
  have g1 := ASK14.gives h fun e => (hok e).1
  have g2 := ASK14.gives h' fun e => (hok (ek ▸ e)).1
  rw [ek] at g2
  rw [ej] at g2
  generalize ASK14.kindOf s = k at g1 g2 hok
  set z := (ASK14.calcDepth10 (F.ofReal g.v) (decide (k.reg = .japan))).val
  have hz0 : 0 < z := (ASK14.calcDepth10_facts hv.le _).2
  have hok' : ({ g with z1 := some z } : ASK14.Given).HwOk k := hok
  have er : ∀ c ∈ ASK14.table, ASK14.refMotion c (({ g with z1 := some z } : ASK14.Given).toIn k) =
      ASK14.refMotion c (g.toIn k) := by
    intro c hc
    have o1 : (ASK14.refMotion c (({ g with z1 := some z } : ASK14.Given).toIn k)).ok := ASK14.ref_ok hc hok'
    have o2 : (ASK14.refMotion c (g.toIn k)).ok := ASK14.ref_ok hc hok
    ext
    · simp only [ASK14.refMotion, F.val_exp, ASK14.ref_val hc]
      rfl
    · simp [o1, o2]
  refine ⟨_, _, g1, g2, by simp [ASK14.out, ASK14.table_length], ?_, ?_⟩
  · simp only [ASK14.out]
    refine forall₂_map fun c hc => ⟨ASK14.resp_ok hc hok hv (by simp [hz]),
      ASK14.resp_ok hc hok' hv (fun z' e => ?_), ?_⟩
    · simp only [Option.some.injEq] at e; rw [← e]; norm_num; linarith
    · rw [ASK14.resp_val hc, ASK14.resp_val hc]
      have e1 := ASK14.basin_default c hv (decide (k.reg = .japan))
      simp only [Option.map_some, z, hz, Option.map_none]
      rw [e1]
      simp only [ASK14.f10, F.val_zero]
      rfl
  · simp only [ASK14.out, Option.some.injEq]
    apply List.map_congr_left
    intro c hc
    simp only [ASK14.lnStd, ASK14.phi, ASK14.tau, ASK14.deriv, ASK14.phiB, ASK14.phiAl, ASK14.tauB, er c hc]
    rfl

/-- The region matters only as taiwan, china or japan: any two other values (global, california,
italy, a misspelt name, nothing) give identical results. -/
theorem C67_regions (s s' : Scenario) (g : ASK14.Given) (h : ASK14.Source s g) (h' : ASK14.Source s' g)
    (hk : ∀ k ∈ ["mechanism", "vs_source", "is_aftershock", "on_hanging_wall"], s'.get k = s.get k)
    (hx : (s.get "on_hanging_wall").isOn → g.x ≠ none)
    (hr : ∀ t ∈ ["taiwan", "china", "japan"], s.get "region" ≠ .str t)
    (hr' : ∀ t ∈ ["taiwan", "china", "japan"], s'.get "region" ≠ .str t) :
    ∃ o, Gives ASK14.cls s o ∧ Gives ASK14.cls s' o := by
  have ek : ASK14.kindOf s' = ASK14.kindOf s := by
    simp only [List.forall_mem_cons] at hk hr hr'
    obtain ⟨k1, k2, k3, k4, -⟩ := hk
    obtain ⟨r1, r2, r3, -⟩ := hr
    obtain ⟨r1', r2', r3', -⟩ := hr'
    simp [ASK14.kindOf, k1, k2, k3, k4, ASK14.regOf, Val.isStr, r1, r2, r3, r1', r2', r3']
  have hh : (ASK14.kindOf s).hw → g.x ≠ none := fun e => hx (by simpa [ASK14.kindOf] using e)
  refine ⟨_, ASK14.gives h hh, ?_⟩
  have := ASK14.gives h' (ek ▸ hh)
  rwa [ek] at this

namespace ASK14

/-! ### Dependence on the site velocity -/

theorem ratioR_continuous (c : Row) : Continuous (ratioR c) := by
  unfold ratioR; fun_prop

theorem f5R_eq {c : Row} (hc : c ∈ table) {v : ℝ} (x : ℝ) : f5R c v x =
    c.a10 * Real.log (ratioR c v) - c.b * Real.log (Real.exp x + c.c) +
      c.b * Real.log (Real.exp x + c.c * min (ratioR c v) 1 ^ (1.5 : ℝ)) +
      (c.b : ℝ) * c.n * Real.log (max (ratioR c v) 1) := by
  unfold f5R
  split
  · rename_i h
    rw [min_eq_left h.le, max_eq_right h.le, Real.log_one]; ring
  · rename_i h
    have h := not_lt.1 h
    rw [min_eq_right h, max_eq_left h, Real.one_rpow, mul_one]; ring

theorem f5R_continuousOn {c : Row} (hc : c ∈ table) (x : ℝ) :
    ContinuousOn (fun v => f5R c v x) (Set.Ioi 0) := by
  obtain ⟨-, -, -, -, h5, -⟩ := row_facts c hc
  have h5' : (0 : ℝ) < c.c := by exact_mod_cast h5
  simp only [f5R_eq hc]
  have hr := (ratioR_continuous c).continuousOn (s := Set.Ioi 0)
  have hp : ∀ v ∈ Set.Ioi (0 : ℝ), 0 < ratioR c v := fun v hv => ratioR_pos hc hv
  have a1 : ContinuousOn (fun v => Real.log (ratioR c v)) (Set.Ioi 0) := hr.log fun v hv => (hp v hv).ne'
  have a2 : ContinuousOn (fun v => Real.log (Real.exp x + c.c * min (ratioR c v) 1 ^ (1.5 : ℝ))) (Set.Ioi 0) := by
    apply ContinuousOn.log
    · exact continuousOn_const.add (continuousOn_const.mul (ContinuousOn.rpow
        (ContinuousOn.inf hr continuousOn_const) continuousOn_const
        fun v hv => Or.inr (by norm_num)))
    · intro v hv
      have : 0 ≤ min (ratioR c v) 1 := le_min (hp v hv).le (by norm_num)
      positivity
  have a3 : ContinuousOn (fun v => Real.log (max (ratioR c v) 1)) (Set.Ioi 0) := by
    apply ContinuousOn.log (ContinuousOn.sup hr continuousOn_const)
    intro v hv
    exact (lt_of_lt_of_le one_pos (le_max_right _ _)).ne'
  exact (((continuousOn_const.mul a1).sub continuousOn_const).add (continuousOn_const.mul a2)).add
    (continuousOn_const.mul a3)

theorem interpF_continuous {l : List (ℝ × F)} (hs : Interp.Sorted l) :
    Continuous fun v : ℝ => (npInterpF l (F.ofReal v)).val := by
  have e : (fun v : ℝ => (npInterpF l (F.ofReal v)).val) = interpR (l.map fun p => (p.1, p.2.val)) := by
    funext v
    simp only [npInterpF, F.val_mk, F.val_ofReal, Interp.val_eq]
  rw [e]
  apply Interp.continuous
  unfold Interp.Sorted at *
  rw [List.pairwise_map]
  exact hs

theorem freg_continuousOn {c : Row} (hc : c ∈ table) (r : ℝ) (reg : Reg) :
    ContinuousOn (fun v : ℝ => (freg c (F.ofReal v) (F.ofReal r) reg).val) (Set.Ioi 0) := by
  cases reg
  · simp only [freg, fsimp, ratio_val]
    exact (continuousOn_const.mul ((ratioR_continuous c).continuousOn.log
      fun v hv => (ratioR_pos hc hv).ne')).add continuousOn_const
  · exact show ContinuousOn (fun _ : ℝ => (freg c (F.ofReal 0) (F.ofReal r) .china).val) _ from continuousOn_const
  · simp only [freg, fsimp]
    refine ContinuousOn.add (Continuous.continuousOn ?_) continuousOn_const
    apply interpF_continuous
    simp [Interp.Sorted]; norm_num
  · exact show ContinuousOn (fun _ : ℝ => (freg c (F.ofReal 0) (F.ofReal r) .other).val) _ from continuousOn_const

theorem calcDepth10_continuousOn (j : Bool) :
    ContinuousOn (fun v : ℝ => (calcDepth10 (F.ofReal v) j).val) (Set.Ioi 0) := by
  cases j
  · simp only [calcDepth10, depth10, Bool.false_eq_true, if_false, fsimp]
    refine ContinuousOn.div_const (ContinuousOn.rexp (continuousOn_const.mul (ContinuousOn.log ?_ ?_))) _
    · fun_prop
    · intro v hv
      positivity
  · simp only [calcDepth10, depth10, if_true, fsimp]
    refine ContinuousOn.div_const (ContinuousOn.rexp (continuousOn_const.mul (ContinuousOn.log ?_ ?_))) _
    · fun_prop
    · intro v hv
      positivity

noncomputable section

/-- the basin term away from the reference velocity -/
def basinR (c : Row) (z v : ℝ) (j : Bool) : ℝ :=
  (basinSlope c (F.ofReal v)).val * Real.log ((z + 0.01) / ((calcDepth10 (F.ofReal v) j).val + 0.01))

end

theorem basinR_continuousOn (c : Row) {z : ℝ} (hz : -0.01 < z) (j : Bool) :
    ContinuousOn (fun v => basinR c z v j) (Set.Ioi 0) := by
  unfold basinR
  refine ContinuousOn.mul (Continuous.continuousOn ?_) (ContinuousOn.log (continuousOn_const.div
    ((calcDepth10_continuousOn j).add continuousOn_const) ?_) ?_)
  · apply interpF_continuous
    simp [Interp.Sorted]; norm_num
  · intro v hv
    have := (calcDepth10_facts (le_of_lt hv) j).2
    positivity
  · intro v hv
    have := (calcDepth10_facts (le_of_lt hv) j).2
    have : 0 < z + 0.01 := by linarith
    positivity

theorem f10_off (c : Row) (z : ℝ) {v : ℝ} (hv : v ≠ 1180) (j : Bool) :
    (f10 c (F.ofReal v) (some (F.ofReal z)) j).val = basinR c z v j := by
  simp only [f10, vRef, fsimp, basinR, if_neg hv]

theorem f10_at (c : Row) (z : ℝ) (j : Bool) :
    (f10 c (F.ofReal 1180) (some (F.ofReal z)) j).val = 0 := by
  simp only [f10, vRef, fsimp]

theorem basinSlope_ref (c : Row) : (basinSlope c (F.ofReal 1180)).val = c.a46 := by
  simp only [basinSlope, npInterpF, Interp.val_eq, F.val_mk, F.val_ofReal, List.map_cons, List.map_nil]
  norm_num [interpR]

/-- everything but the basin term, as a function of the velocity -/
theorem site_continuousOn {c : Row} (hc : c ∈ table) (g : Given) (k : Kind) :
    ContinuousOn (fun v : ℝ => (baseF c (g.toIn k)).val +
      (freg c (F.ofReal v) (F.ofReal g.rup) k.reg).val + f5R c v (refR c g k)) (Set.Ioi 0) :=
  (continuousOn_const.add (freg_continuousOn hc _ _)).add (f5R_continuousOn hc _)

theorem resp_val_v {c : Row} (hc : c ∈ table) (g : Given) (k : Kind) (v : ℝ) :
    (lnResp c (({ g with v := v } : Given).toIn k)).val = (baseF c (g.toIn k)).val +
      (freg c (F.ofReal v) (F.ofReal g.rup) k.reg).val + f5R c v (refR c g k) +
      (f10 c (F.ofReal v) (g.z1.map F.ofReal) (k.reg = .japan)).val := by
  rw [resp_val hc]; rfl

end ASK14

/-- With `depth_1_0` left out, every prediction is a continuous function of `v_s30 > 0`. -/
theorem C68_continuous_in_vs30 (S : ℝ → Scenario) (g : ASK14.Given) (k : ASK14.Kind)
    (hS : ∀ v, ASK14.Source (S v) { g with v := v }) (hk : ∀ v, ASK14.kindOf (S v) = k)
    (hw : k.hw → g.x ≠ none ∧ 0 < g.dip ∧ g.dip < 90 ∧ ∀ w, g.width = some w → 0 < w)
    (hz : g.z1 = none) :
    ∃ O : ℝ → ASK14.Out, (∀ v, Gives ASK14.cls (S v) (O v)) ∧
      (∀ v, 0 < v → ∀ y ∈ (O v).gmm.lnResp, y.ok) ∧
      ∀ i, i < 24 → ContinuousOn (fun v => (O v).gmm.resp i) (Set.Ioi 0) := by
  have hok : ∀ v, ({ g with v := v } : ASK14.Given).HwOk k := fun v => hw
  refine ⟨fun v => ASK14.out (({ g with v := v } : ASK14.Given).toIn k), fun v => ?_, fun v hv => ?_, ?_⟩
  · have := ASK14.gives (hS v) (by rw [hk]; exact fun e => (hw e).1)
    rwa [hk v] at this
  · exact ASK14.out_all_ok (hok v) hv (by simp [hz])
  · intro i hi
    rw [← ASK14.table_length] at hi
    have hc : ASK14.table[i]'hi ∈ ASK14.table := List.getElem_mem _
    simp only [ASK14.out_resp _ hi]
    refine ContinuousOn.congr (ASK14.site_continuousOn hc g k) fun v _ => ?_
    rw [ASK14.resp_val_v hc, hz]
    simp [ASK14.f10]

/-- With `depth_1_0` given, every prediction is continuous except at the single velocity
1180 m/s, where the basin term is dropped: as `v_s30` approaches 1180 m/s the prediction tends
to the one at 1180 m/s plus `a46 ln((depth_1_0 + 0.01) / (average depth + 0.01))`.  Unless the
depth is exactly the average, this is a different number at every period but 0.25 s. -/
theorem C68_isolated_jump_at_1180 (S : ℝ → Scenario) (g : ASK14.Given) (k : ASK14.Kind) (z : ℝ)
    (hS : ∀ v, ASK14.Source (S v) { g with v := v }) (hk : ∀ v, ASK14.kindOf (S v) = k)
    (hw : k.hw → g.x ≠ none ∧ 0 < g.dip ∧ g.dip < 90 ∧ ∀ w, g.width = some w → 0 < w)
    (hz : g.z1 = some z) (hz0 : -0.01 < z) :
    ∃ O : ℝ → ASK14.Out, (∀ v, Gives ASK14.cls (S v) (O v)) ∧
      (∀ v, 0 < v → ∀ y ∈ (O v).gmm.lnResp, y.ok) ∧
      ∀ i (hi : i < ASK14.table.length), ContinuousOn (fun v => (O v).gmm.resp i) (Set.Ioi 0 \ {1180}) ∧
        Filter.Tendsto (fun v => (O v).gmm.resp i) (nhdsWithin 1180 {1180}ᶜ)
          (nhds ((O 1180).gmm.resp i + (ASK14.table[i]'hi).a46 *
            Real.log ((z + 0.01) / ((ASK14.calcDepth10 1180 (k.reg = .japan)).val + 0.01)))) ∧
        (z ≠ (ASK14.calcDepth10 1180 (k.reg = .japan)).val → (ASK14.table[i]'hi).period ≠ 0.25 →
          ((ASK14.table[i]'hi).a46 : ℝ) *
            Real.log ((z + 0.01) / ((ASK14.calcDepth10 1180 (k.reg = .japan)).val + 0.01)) ≠ 0) := by
  have hok : ∀ v, ({ g with v := v } : ASK14.Given).HwOk k := fun v => hw
  refine ⟨fun v => ASK14.out (({ g with v := v } : ASK14.Given).toIn k), fun v => ?_, fun v hv => ?_, ?_⟩
  · have := ASK14.gives (hS v) (by rw [hk]; exact fun e => (hw e).1)
    rwa [hk v] at this
  · exact ASK14.out_all_ok (hok v) hv (fun z' e => by simp only [hz, Option.some.injEq] at e; rw [← e]; exact hz0)
  · intro i hi
    have hc : ASK14.table[i]'hi ∈ ASK14.table := List.getElem_mem _
    simp only [ASK14.out_resp _ hi]
    simp only [ASK14.resp_val_v hc]
    rw [hz]
    simp only [Option.map_some]
    set c := ASK14.table[i]'hi
    set j : Bool := decide (k.reg = .japan)
    have h1180 : ASK14.calcDepth10 1180 j = ASK14.calcDepth10 (F.ofReal 1180) j := rfl
    have hA := ASK14.site_continuousOn hc g k
    have hB := ASK14.basinR_continuousOn c hz0 j
    have e : ∀ v ∈ ({1180} : Set ℝ)ᶜ, (ASK14.f10 c (F.ofReal v) (some (F.ofReal z)) j).val =
        ASK14.basinR c z v j := fun v hv => ASK14.f10_off c z hv j
    refine ⟨?_, ?_, ?_⟩
    · refine (ContinuousOn.mono (hA.add hB) Set.sdiff_subset).congr fun v hv => ?_
      exact congrArg _ (e v hv.2)
    · have hat : ContinuousAt (fun v => (ASK14.baseF c (g.toIn k)).val +
          (ASK14.freg c (F.ofReal v) (F.ofReal g.rup) k.reg).val + ASK14.f5R c v (ASK14.refR c g k) +
          ASK14.basinR c z v j) 1180 := (hA.add hB).continuousAt (Ioi_mem_nhds (by norm_num))
      have := hat.tendsto.mono_left (nhdsWithin_le_nhds (s := {1180}ᶜ))
      rw [ASK14.f10_at, add_zero]
      have hb : ASK14.basinR c z 1180 j = c.a46 * Real.log ((z + 0.01) / ((ASK14.calcDepth10 1180 j).val + 0.01)) := by
        unfold ASK14.basinR
        rw [ASK14.basinSlope_ref, h1180]
      rw [hb] at this
      refine this.congr' ?_
      filter_upwards [self_mem_nhdsWithin] with v hv
      rw [e v hv]
    · intro hne hper
      have hd := (ASK14.calcDepth10_facts (v := 1180) (by norm_num) j).2
      rw [← h1180] at hd
      have ha : ∀ c ∈ ASK14.table, c.period ≠ 0.25 → c.a46 ≠ 0 := by decide +kernel
      have ha' : (c.a46 : ℝ) ≠ 0 := by exact_mod_cast ha c hc hper
      refine mul_ne_zero ha' ?_
      have hzp : 0 < z + 0.01 := by linarith
      apply Real.log_ne_zero_of_pos_of_ne_one (by positivity)
      rw [ne_eq, div_eq_one_iff_eq (by positivity)]
      intro h
      exact hne (by linarith)

/-! ### Instances -/

namespace ASK14

/-- a strike-slip scenario with everything optional left out -/
noncomputable def exG : Given := { mag := 6.5, rup := 20, jb := 20, dip := 60, v := 300, x := some 8 }
@[inherit_doc exG]
noncomputable def exS (g : Given) (region : String) (hw : Bool) : Scenario :=
  ⟨[("mag", .num g.mag), ("dist_rup", .num g.rup), ("dist_jb", .num g.jb), ("dist_x", Val.ofOpt g.x),
    ("dip", .num g.dip), ("v_s30", .num g.v), ("depth_1_0", Val.ofOpt g.z1), ("mechanism", .str "RS"),
    ("region", .str region), ("on_hanging_wall", .bool hw)], []⟩

theorem ex_source (g : Given) (h1 : g.y0 = none) (h2 : g.width = none) (h3 : g.tor = none)
    (h4 : g.crjb = none) (region : String) (hw : Bool) : Source (exS g region hw) g := by
  constructor <;> simp [exS, Scenario.get, Dict.get?, Val.ofOpt, h1, h2, h3, h4]

theorem ex_kind (g g' : Given) (region : String) (hw : Bool) :
    kindOf (exS g region hw) = kindOf (exS g' region hw) := by
  simp [kindOf, exS, Scenario.get, Dict.get?] <;> exact ⟨by congr, by congr⟩

end ASK14

example : ∃ o o', Gives ASK14.cls (ASK14.exS ASK14.exG "japan" true) o ∧
    Gives ASK14.cls (ASK14.exS { ASK14.exG with rup := 50 } "japan" true) o' ∧
    o.gmm.lnResp.length = 24 ∧ List.Forall₂ F.Drops o.gmm.lnResp o'.gmm.lnResp :=
  C43_attenuates _ _ ASK14.exG 50 (ASK14.ex_source _ rfl rfl rfl rfl _ _) (ASK14.ex_source _ rfl rfl rfl rfl _ _)
    (by simp [ASK14.exS, Scenario.get, Dict.get?])
    (fun _ => ⟨by simp [ASK14.exG], by norm_num [ASK14.exG], by norm_num [ASK14.exG], by simp [ASK14.exG]⟩)
    (by simp [ASK14.exG]) (by norm_num [ASK14.exG]) (by norm_num [ASK14.exG]) (by norm_num [ASK14.exG])
    (by norm_num [ASK14.exG])

example : ∃ O : ℝ → ASK14.Out, ∀ m, Gives ASK14.cls (ASK14.exS { ASK14.exG with mag := m } "taiwan" true) (O m) := by
  obtain ⟨O, h, -⟩ := C44_continuous_in_mag (fun m => ASK14.exS { ASK14.exG with mag := m } "taiwan" true) ASK14.exG
    (ASK14.kindOf (ASK14.exS ASK14.exG "taiwan" true)) (fun m => ASK14.ex_source _ rfl rfl rfl rfl _ _)
    (fun m => ASK14.ex_kind _ _ _ _)
    (fun _ => ⟨by simp [ASK14.exG], by norm_num [ASK14.exG], by norm_num [ASK14.exG], by simp [ASK14.exG]⟩)
    (by simp [ASK14.exG]) (by norm_num [ASK14.exG])
  exact ⟨O, fun m => (h m).1⟩

example : ∃ O : ℝ → ASK14.Out, ∀ x, Gives ASK14.cls (ASK14.exS { ASK14.exG with x := some x } "china" true) (O x) := by
  obtain ⟨O, h, -⟩ := C44_continuous_in_dist_x (fun x => ASK14.exS { ASK14.exG with x := some x } "china" true)
    ASK14.exG
    (ASK14.kindOf (ASK14.exS ASK14.exG "china" true)) (fun m => ASK14.ex_source _ rfl rfl rfl rfl _ _)
    (fun m => ASK14.ex_kind _ _ _ _)
    (fun _ => ⟨by norm_num [ASK14.exG], by norm_num [ASK14.exG], by simp [ASK14.exG]⟩)
    (by simp [ASK14.exG]) (by norm_num [ASK14.exG])
  exact ⟨O, fun m => (h m).1⟩

example : ∃ o sd, Gives ASK14.cls (ASK14.exS ASK14.exG "global" false) o ∧ o.gmm.lnStd = some sd ∧ sd.length = 24 := by
  obtain ⟨o, sd, h1, h2, h3, -⟩ := C45_std _ _ (ASK14.ex_source ASK14.exG rfl rfl rfl rfl "global" false)
    (by simp [ASK14.exS, Scenario.get, Dict.get?, Val.isOn]) (by norm_num [ASK14.exG])
  exact ⟨o, sd, h1, h2, h3⟩

example : ∃ o, Gives ASK14.cls (ASK14.exS ASK14.exG "italy" true) o := by
  obtain ⟨-, o, h, -⟩ := C46_ask14_defined _ _ (ASK14.ex_source ASK14.exG rfl rfl rfl rfl "italy" true)
    (fun _ => ⟨by simp [ASK14.exG], by norm_num [ASK14.exG], by norm_num [ASK14.exG], by simp [ASK14.exG]⟩)
    (by simp [ASK14.exG]) (by norm_num [ASK14.exG])
  exact ⟨o, h⟩

example : (ASK14.cls.new (ASK14.exS { ASK14.exG with x := none } "italy" true)).res = .error .typeError :=
  C66_hanging_wall_needs_dist_x _ _ (ASK14.ex_source { ASK14.exG with x := none } rfl rfl rfl rfl "italy" true)
    (by simp [ASK14.exS, Scenario.get, Dict.get?, Val.isOn]) rfl

example : ∃ o, Gives ASK14.cls (ASK14.exS ASK14.exG "italy" false) o ∧
    Gives ASK14.cls (ASK14.exS { ASK14.exG with x := none } "italy" false) o :=
  C66_off_hanging_wall _ _ ASK14.exG none none (ASK14.ex_source _ rfl rfl rfl rfl _ _)
    (ASK14.ex_source _ rfl rfl rfl rfl _ _) (by simp [ASK14.exS, Scenario.get, Dict.get?])
    (by simp [ASK14.exS, Scenario.get, Dict.get?, Val.isOn])
    (by simp [ASK14.exS, Scenario.get, Dict.get?, Val.isOn])

example : ∃ o, Gives ASK14.cls (ASK14.exS ASK14.exG "italy" false) o ∧
    Gives ASK14.cls (ASK14.exS ASK14.exG "califronia" false) o :=
  C67_regions _ _ ASK14.exG (ASK14.ex_source _ rfl rfl rfl rfl _ _) (ASK14.ex_source _ rfl rfl rfl rfl _ _)
    (by simp [ASK14.exS, Scenario.get, Dict.get?]) (by simp [ASK14.exG])
    (by simp [ASK14.exS, Scenario.get, Dict.get?]) (by simp [ASK14.exS, Scenario.get, Dict.get?])

example : ∃ o o', Gives ASK14.cls (ASK14.exS ASK14.exG "japan" false) o ∧
    Gives ASK14.cls (ASK14.exS { ASK14.exG with z1 := some (ASK14.calcDepth10 (F.ofReal ASK14.exG.v)
      (((ASK14.exS ASK14.exG "japan" false).get "region").isStr "japan")).val } "japan" false) o' ∧
    o.gmm.lnResp.length = 24 ∧
    List.Forall₂ F.Same o.gmm.lnResp o'.gmm.lnResp ∧ o.gmm.lnStd = o'.gmm.lnStd :=
  C67_default_basin _ _ ASK14.exG (ASK14.ex_source _ rfl rfl rfl rfl _ _) rfl (ASK14.ex_source _ rfl rfl rfl rfl _ _)
    (by simp [ASK14.exS, Scenario.get, Dict.get?]) (by simp [ASK14.exS, Scenario.get, Dict.get?, Val.isOn])
    (by norm_num [ASK14.exG])

example : ∃ O : ℝ → ASK14.Out, ∀ v, Gives ASK14.cls (ASK14.exS { ASK14.exG with v := v } "japan" false) (O v) := by
  obtain ⟨O, h, -⟩ := C68_continuous_in_vs30 (fun v => ASK14.exS { ASK14.exG with v := v } "japan" false)
    ASK14.exG (ASK14.kindOf (ASK14.exS ASK14.exG "japan" false)) (fun m => ASK14.ex_source _ rfl rfl rfl rfl _ _)
    (fun m => ASK14.ex_kind _ _ _ _) (by simp [ASK14.kindOf, ASK14.exS, Scenario.get, Dict.get?, Val.isOn]) rfl
  exact ⟨O, h⟩

example : ∃ O : ℝ → ASK14.Out, ∀ v,
    Gives ASK14.cls (ASK14.exS { ASK14.exG with z1 := some 0.5, v := v } "japan" false) (O v) := by
  obtain ⟨O, h, -⟩ := C68_isolated_jump_at_1180
    (fun v => ASK14.exS { ASK14.exG with z1 := some 0.5, v := v } "japan" false)
    { ASK14.exG with z1 := some 0.5 } (ASK14.kindOf (ASK14.exS ASK14.exG "japan" false)) 0.5
    (fun m => ASK14.ex_source _ rfl rfl rfl rfl _ _)
    (fun m => ASK14.ex_kind _ _ _ _) (by simp [ASK14.kindOf, ASK14.exS, Scenario.get, Dict.get?, Val.isOn]) rfl
    (by norm_num)
  exact ⟨O, h⟩
