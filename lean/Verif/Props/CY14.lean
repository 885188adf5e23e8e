import Verif.Models.CY14
import Verif.Bounds
import Verif.Props.Estimators
import Mathlib.Analysis.SpecialFunctions.Pow.Continuity

/-! # C47, C48, C49, C65: Chiou & Youngs (2014) -/

open Bounds

set_option linter.unusedSimpArgs false

namespace CY14

theorem ok_params : ParamsOk cls.params := by change ParamsOk Decls.cy14; decide +kernel
theorem nodup : (Decls.cy14.map Param.name).Nodup := by decide +kernel

/-- numeric inputs of a scenario -/
structure Given where
  mag : ℝ
  rup : ℝ
  jb : ℝ
  x : ℝ
  dip : ℝ
  v : ℝ
  tor : Option ℝ := none
  z1 : Option ℝ := none
  dpp : Option ℝ := none

/-- `s` holds these numbers (and anything as mechanism, region, vs_source, on_hanging_wall) -/
structure Source (s : Scenario) (g : Given) : Prop where
  mag : s.get "mag" = .num g.mag
  rup : s.get "dist_rup" = .num g.rup
  jb : s.get "dist_jb" = .num g.jb
  x : s.get "dist_x" = .num g.x
  dip : s.get "dip" = .num g.dip
  v : s.get "v_s30" = .num g.v
  tor : s.get "depth_tor" = Val.ofOpt g.tor
  z1 : s.get "depth_1_0" = Val.ofOpt g.z1
  dpp : s.get "dpp_centered" = Val.ofOpt g.dpp

/-- the values that are not numbers, as the formulas distinguish them -/
structure Kind where
  mech : Mech
  reg : Reg
  hw : Bool
  measured : Bool

noncomputable section

open Classical in
/-- read off a scenario; an unknown mechanism counts as "U", an unknown region as california,
an unknown source of the velocity as measured -/
def kindOf (s : Scenario) : Kind where
  mech := mechOf (s.get "mechanism")
  reg := regOf (s.get "region")
  hw := decide (s.get "on_hanging_wall").isOn
  measured := !(s.get "vs_source").isStr "inferred"

/-- the values used for the inputs that may be left out -/
def Given.effTor (g : Given) (k : Kind) : F :=
  F.orEst g.tor (calcDepthTor (F.ofReal g.mag) (k.mech = .rs))
@[inherit_doc Given.effTor]
def Given.effZ1 (g : Given) (k : Kind) : F :=
  F.orEst g.z1 (calcDepth10 (F.ofReal g.v) (k.reg = .japan))

/-- the inputs of the formulas -/
def Given.toIn (g : Given) (k : Kind) : In where
  mag := F.ofReal g.mag
  rup := F.ofReal g.rup
  jb := F.ofReal g.jb
  x := F.ofReal g.x
  dip := F.ofReal g.dip
  tor := g.effTor k
  z1 := g.effZ1 k
  dpp := F.ofReal (g.dpp.getD ((0 : ℚ) : ℝ))
  v := F.ofReal g.v
  mech := k.mech
  reg := k.reg
  hw := k.hw
  measured := k.measured

end

theorem mechOf_rs (v : Val) : v.isStr "RS" = decide (mechOf v = .rs) := by
  unfold mechOf
  by_cases h : v.isStr "RS" <;> by_cases h2 : v.isStr "NS" <;> simp [h, h2]

theorem regOf_japan (v : Val) : v.isStr "japan" = decide (regOf v = .japan) := by
  unfold regOf
  by_cases h : v.isStr "japan" <;> by_cases h2 : v.isStr "italy" <;> by_cases h3 : v.isStr "china" <;>
    simp [h, h2, h3]

theorem mechOf_cat (v : Val) : mechOf (catVal ["U", "SS", "NS", "RS"] (.str "U") v) = mechOf v := by
  unfold catVal
  split
  · rfl
  · rename_i h
    simp only [List.mem_cons, List.not_mem_nil, or_false, exists_eq_or_imp, exists_eq_left, not_or] at h
    simp [mechOf, Val.isStr, h, Lit.toVal]

theorem regOf_cat (v : Val) :
    regOf (catVal ["california", "china", "italy", "japan"] (.str "california") v) = regOf v := by
  unfold catVal
  split
  · rfl
  · rename_i h
    simp only [List.mem_cons, List.not_mem_nil, or_false, exists_eq_or_imp, exists_eq_left, not_or] at h
    simp [regOf, Val.isStr, h, Lit.toVal]

theorem measured_cat (v : Val) :
    (catVal ["measured", "inferred"] (.str "measured") v).isStr "measured" = !v.isStr "inferred" := by
  unfold catVal
  split
  · rename_i h
    simp only [List.mem_cons, List.not_mem_nil, or_false, exists_eq_or_imp, exists_eq_left] at h
    rcases h with rfl | rfl <;> simp
  · rename_i h
    simp only [List.mem_cons, List.not_mem_nil, or_false, exists_eq_or_imp, exists_eq_left, not_or] at h
    simp [Val.isStr, h, Lit.toVal]

theorem magNotice_ok {s : Scenario} {v : Val} {m : ℝ} (hv : s.getAttr "mechanism" = pure v)
    (hm : s.getAttr "mag" = pure (.num m)) : (magNotice s).res = .ok () := by
  unfold magNotice
  rw [hv, Py.pure_bind', hm, Py.pure_bind']
  simp only [Val.lt, Val.gt, Py.pure_bind']
  split <;> split <;> rfl

theorem passes {s : Scenario} {g : Given} (h : Source s g) : ∀ p ∈ cls.params, Passes s p := by
  simp only [cls, Decls.cy14, List.forall_mem_cons]
  refine ⟨pass_num h.rup, pass_num h.x, pass_num h.jb, pass_num h.mag, pass_num h.v, pass_opt h.tor,
    pass_opt h.z1, pass_opt_default h.dpp, pass_num h.dip, pass_cat_opt, pass_bool_opt, pass_cat_opt,
    pass_cat_opt, fun _ h => by simp at h⟩

/-- Construction from a numeric scenario succeeds; the outputs are those of the formulas at
the completed inputs, and the completed values are stored under their keys. -/
theorem built {s : Scenario} {g : Given} (h : Source s g) :
    ∃ inst, (cls.new s).res = .ok inst ∧ inst.out = out (g.toIn (kindOf s)) ∧
      inst.scenario.num "depth_tor" = pure (g.effTor (kindOf s)) ∧
      inst.scenario.num "depth_1_0" = pure (g.effZ1 (kindOf s)) := by
  apply built_of ok_params s (passes h) (fun t => t.num "depth_tor" = pure (g.effTor (kindOf s)) ∧
      t.num "depth_1_0" = pure (g.effZ1 (kindOf s)))
  intro d hd
  have hn := nodup
  have a1 := Scenario.getAttr_of (Checked.num hd hn (name := "mag") (by mem_tac) h.mag)
  have a2 := Scenario.getAttr_of (Checked.num hd hn (name := "dist_rup") (by mem_tac) h.rup)
  have a3 := Scenario.getAttr_of (Checked.num hd hn (name := "dist_jb") (by mem_tac) h.jb)
  have a4 := Scenario.getAttr_of (Checked.num hd hn (name := "dist_x") (by mem_tac) h.x)
  have a5 := Scenario.getAttr_of (Checked.num hd hn (name := "dip") (by mem_tac) h.dip)
  have a6 := Scenario.getAttr_of (Checked.num hd hn (name := "v_s30") (by mem_tac) h.v)
  have b1 := Scenario.getAttr_of (Checked.opt_default hd hn (name := "dpp_centered") (by mem_tac) h.dpp)
  have b2 := Scenario.getAttr_of (Checked.opt hd hn (name := "depth_1_0") (by mem_tac) h.z1)
  have b3 := Scenario.getAttr_of (Checked.opt hd hn (name := "depth_tor") (by mem_tac) h.tor)
  have c1 := Scenario.getAttr_of (Checked.cat_val hd hn (name := "mechanism") (by mem_tac))
  have c2 := Scenario.getAttr_of (Checked.cat_val hd hn (name := "region") (by mem_tac))
  have c3 := Scenario.getAttr_of (Checked.cat_val hd hn (name := "vs_source") (by mem_tac))
  obtain ⟨w4, c4, e4⟩ := Checked.flag hd hn (name := "on_hanging_wall") (by mem_tac)
  replace c4 := Scenario.getAttr_of c4
  set s0 : Scenario := ⟨d, []⟩
  have f1 : fillGet "depth_tor" estDepthTor s0 = pure (s0.doneItem "depth_tor" g.tor
      (calcDepthTor (F.ofReal g.mag) ((kindOf s).mech = .rs))) := by
    apply fillGet_eq rfl b3
    intro _
    simp only [estDepthTor, Scenario.num_of_num a1, c1, Py.pure_bind', mechOf_rs, mechOf_cat]
    rfl
  set s1 := s0.doneItem "depth_tor" g.tor (calcDepthTor (F.ofReal g.mag) ((kindOf s).mech = .rs))
  have at1 : s1.attrs = [] := Scenario.doneItem_attrs _ _ _ _
  have n1 : ∀ k, "depth_tor" ≠ k → s1.getAttr k = s0.getAttr k :=
    fun k hk => Scenario.doneItem_other rfl hk
  have f2 : fillGet "depth_1_0" estDepth10 s1 = pure (s1.doneItem "depth_1_0" g.z1
      (calcDepth10 (F.ofReal g.v) ((kindOf s).reg = .japan))) := by
    apply fillGet_eq at1
    · rw [n1 _ (by decide), b2]
    intro _
    have m1 : s1.num "v_s30" = pure (F.ofReal g.v) := by
      apply Scenario.num_of_num; rw [n1 _ (by decide), a6]
    have m2 := (n1 "region" (by decide)).trans c2
    simp only [estDepth10, m1, m2, Py.pure_bind', regOf_japan, regOf_cat]
    rfl
  set s2 := s1.doneItem "depth_1_0" g.z1 (calcDepth10 (F.ofReal g.v) ((kindOf s).reg = .japan))
  have n2 : ∀ k, "depth_1_0" ≠ k → s2.getAttr k = s1.getAttr k :=
    fun k hk => Scenario.doneItem_other at1 hk
  have q1 : s2.num "depth_tor" = pure (g.effTor (kindOf s)) := by
    apply Scenario.num_of_est
    rw [n2 _ (by decide)]
    exact Scenario.doneItem_self rfl b3
  have q2 : s2.num "depth_1_0" = pure (g.effZ1 (kindOf s)) := by
    apply Scenario.num_of_est
    apply Scenario.doneItem_self at1
    rw [n1 _ (by decide), b2]
  refine ⟨s2, ?_, ⟨q1, q2⟩, ?_⟩
  · simp only [cls, fill, Py.bind_res_ok (magNotice_ok c1 a1), f1, f2, Py.pure_bind', Py.pure_res]
  · have nn : ∀ k, "depth_1_0" ≠ k → "depth_tor" ≠ k → s2.getAttr k = s0.getAttr k :=
      fun k h1 h2 => (n2 k h1).trans (n1 k h2)
    have r1 := Scenario.num_of_num ((nn "mag" (by decide) (by decide)).trans a1)
    have r2 := Scenario.num_of_num ((nn "dist_rup" (by decide) (by decide)).trans a2)
    have r3 := Scenario.num_of_num ((nn "dist_jb" (by decide) (by decide)).trans a3)
    have r4 := Scenario.num_of_num ((nn "dist_x" (by decide) (by decide)).trans a4)
    have r5 := Scenario.num_of_num ((nn "dip" (by decide) (by decide)).trans a5)
    have r6 := Scenario.num_of_num ((nn "v_s30" (by decide) (by decide)).trans a6)
    have r7 := (nn "mechanism" (by decide) (by decide)).trans c1
    have r8 := (nn "region" (by decide) (by decide)).trans c2
    have r9 := (nn "vs_source" (by decide) (by decide)).trans c3
    have r10 := (nn "on_hanging_wall" (by decide) (by decide)).trans c4
    have r11 := Scenario.num_of_num ((nn "dpp_centered" (by decide) (by decide)).trans b1)
    simp only [cls, r1, r2, r3, r4, r5, r6, r7, r8, r9, r10, r11, q1, q2, Py.pure_bind', Py.pure_res,
      mechOf_cat, regOf_cat, measured_cat, e4]
    rfl

theorem gives {s : Scenario} {g : Given} (h : Source s g) :
    Gives cls s (out (g.toIn (kindOf s))) := by
  obtain ⟨inst, h1, h2, -⟩ := built h
  exact ⟨inst, h1, h2⟩

/-! ### The coefficient rows -/

/-- facts about the coefficient rows -/
theorem row_facts : ∀ c ∈ table, c.c_4 = -2.1 ∧ c.c_4a = -0.5 ∧ c.c_rb = 50 ∧ 0 < c.c_n ∧ 0 < c.c_5 ∧
    0 < c.c_9b ∧ 0 < c.phi_4 ∧ 0 < c.phi_6 ∧ 0 < c.phi_6jp ∧ 0 ≤ c.c_8 ∧ c.phi_2 ≤ 0 ∧ c.phi_3 < 0 ∧
    c.c_gamma1 < 0 ∧ c.c_gamma2 < 0 ∧ 1 < c.gamma_ji ∧ 0 ≤ c.gamma_c := by decide +kernel

theorem std_row_facts : ∀ c ∈ table, 0 < c.tau_1 ∧ 0 < c.tau_2 ∧ 0 < c.sigma_1 ∧ 0 < c.sigma_2 ∧
    0 < c.sigma_2jp ∧ 0 < c.sigma_3 := by decide +kernel

/-- the fictitious depth stays below 64 km up to magnitude 8.5 -/
theorem depth_facts : ∀ c ∈ table, 0 ≤ c.c_6 ∧ c.c_hm ≤ 8.5 ∧ c.c_6 * (8.5 - c.c_hm) ≤ 8 ∧
    c.c_5 * ((expHi (c.c_6 * (8.5 - c.c_hm)) + 1) / 2) < 64 := by decide +kernel

/-- the nonlinearity is weaker than proportional from 180 m/s on -/
theorem nl_facts : ∀ c ∈ table, -180 * c.phi_3 ≤ 8 ∧ -c.phi_2 * expHi (-180 * c.phi_3) < 1 := by
  decide +kernel

/-! ### The reference motion -/

theorem coshMag_ok (m : ℝ) : (coshMag (F.ofReal m)).ok ∧ 0 < (coshMag (F.ofReal m)).val := by
  simp only [coshMag, fsimp]
  exact Real.cosh_pos _

theorem calcDepthTor_ok (m : ℝ) (b : Bool) : (calcDepthTor (F.ofReal m) b).ok := by
  cases b <;> simp [calcDepthTor]

theorem calcDepth10_ok {v : ℝ} (hv : 0 < v) (b : Bool) : (calcDepth10 (F.ofReal v) b).ok := by
  cases b
  · exact ((C59_depth_1_0 (fun v => calcDepth10 v false) (by simp)).1 v hv.le).1
  · exact ((C59_depth_1_0 (fun v => calcDepth10 v true) (by simp)).1 v hv.le).1

theorem effTor_ok (g : Given) (k : Kind) : (g.effTor k).ok := F.orEst_ok fun _ => calcDepthTor_ok _ _

theorem effZ1_ok {g : Given} (hv : 0 < g.v) (k : Kind) : (g.effZ1 k).ok :=
  F.orEst_ok fun _ => calcDepth10_ok hv _

/-- the fictitious depth -/
noncomputable def H (c : Row) (m : ℝ) : ℝ := c.c_5 * Real.cosh (c.c_6 * max (m - c.c_hm) 0)

theorem H_pos {c : Row} (hc : c ∈ table) (m : ℝ) : 0 < H c m := by
  obtain ⟨-, -, -, -, h5, -⟩ := row_facts c hc
  have h5' : (0 : ℝ) < c.c_5 := by exact_mod_cast h5
  exact mul_pos h5' (Real.cosh_pos _)

theorem H_lt {c : Row} (hc : c ∈ table) {m : ℝ} (hm : m ≤ 8.5) : H c m < 64 := by
  obtain ⟨-, -, -, -, h5, -⟩ := row_facts c hc
  obtain ⟨h6, hh, h8, h64⟩ := depth_facts c hc
  have h5' : (0 : ℝ) < c.c_5 := by exact_mod_cast h5
  have h6' : (0 : ℝ) ≤ c.c_6 := by exact_mod_cast h6
  have hh' : (c.c_hm : ℝ) ≤ 8.5 := by
    have : ((c.c_hm : ℚ) : ℝ) ≤ ((8.5 : ℚ) : ℝ) := by exact_mod_cast hh
    norm_num at this ⊢; exact this
  have hq0 : (0 : ℚ) ≤ c.c_6 * (8.5 - c.c_hm) := mul_nonneg h6 (by linarith)
  have hle := le_expHi hq0 h8
  set q : ℚ := c.c_6 * (8.5 - c.c_hm)
  have hqv : (q : ℝ) = c.c_6 * (8.5 - c.c_hm) := by simp only [q]; push_cast; norm_num
  have ht : (c.c_6 : ℝ) * max (m - c.c_hm) 0 ≤ q := by
    rw [hqv]
    apply mul_le_mul_of_nonneg_left _ h6'
    exact max_le (by linarith) (by linarith)
  have ht0 : 0 ≤ (c.c_6 : ℝ) * max (m - c.c_hm) 0 := mul_nonneg h6' (le_max_right _ _)
  have h64' : (c.c_5 : ℝ) * ((expHi q + 1) / 2) < 64 := by exact_mod_cast h64
  refine lt_of_le_of_lt ?_ h64'
  unfold H
  apply mul_le_mul_of_nonneg_left _ h5'.le
  rw [Real.cosh_eq]
  have e1 : Real.exp ((c.c_6 : ℝ) * max (m - c.c_hm) 0) ≤ expHi q :=
    (Real.exp_le_exp.2 ht).trans hle
  have e2 : Real.exp (-((c.c_6 : ℝ) * max (m - c.c_hm) 0)) ≤ 1 :=
    Real.exp_le_one_iff.2 (by linarith)
  linarith

noncomputable section

/-- anelastic slope per km -/
def gam (c : Row) (m : ℝ) (reg : Reg) : ℝ :=
  (scale c (F.ofReal m) reg).val * (c.c_gamma1 + c.c_gamma2 / Real.cosh (max (m - c.c_gamma3) 0))

/-- strength of the directivity term -/
def dirFac (c : Row) (m dpp : ℝ) : ℝ :=
  c.c_8 * min (max (m - 5.5) 0 / 0.8) 1 * Real.exp (-c.c_8a * (m - c.c_8b) ^ 2) * dpp

/-- everything that depends on the distance, away from the hanging wall -/
def distR (c : Row) (m r dpp : ℝ) (reg : Reg) : ℝ :=
  c.c_4 * Real.log (r + H c m) + ((c.c_4a : ℝ) - c.c_4) * Real.log (Real.sqrt (r ^ 2 + (c.c_rb : ℝ) ^ 2)) +
    gam c m reg * r + dirFac c m dpp * max (1 - max (r - 40) 0 / 30) 0

/-- everything else -/
def baseF (c : Row) (i : In) : F :=
  c.c_1 + fFlt c i.mag i.mech + fMag c i.mag + fTor c i.mag i.tor i.mech + fDip c i.mag i.dip

end

theorem scale_ok (c : Row) (m : ℝ) (reg : Reg) : (scale c (F.ofReal m) reg).ok := by
  cases reg <;> simp [scale]

theorem lnRef_val (c : Row) (g : Given) (k : Kind) :
    (lnRef c (g.toIn k)).val = (baseF c (g.toIn k)).val +
      distR c g.mag g.rup (g.dpp.getD 0) k.reg + (fHng c (g.toIn k)).val := by
  simp only [lnRef, baseF, F.val_add]
  have : (fDist c (F.ofReal g.mag) (F.ofReal g.rup)).val + (fAtn c (F.ofReal g.mag) (F.ofReal g.rup) k.reg).val
      + (fDir c (F.ofReal g.mag) (F.ofReal g.rup) (F.ofReal (g.dpp.getD ((0 : ℚ) : ℝ)))).val =
      distR c g.mag g.rup (g.dpp.getD 0) k.reg := by
    simp only [fDist, fAtn, fDir, distR, gam, dirFac, H, fsimp, Rat.cast_zero]
    ring
  simp only [Given.toIn] at *
  linarith

theorem base_ok {c : Row} (hc : c ∈ table) (g : Given) (k : Kind) : (baseF c (g.toIn k)).ok := by
  obtain ⟨-, -, -, hn, -⟩ := row_facts c hc
  have hn' : (0 : ℝ) < c.c_n := by exact_mod_cast hn
  have h1 : (fFlt c (F.ofReal g.mag) k.mech).ok := by
    have := coshMag_ok g.mag
    cases k.mech <;> simp [fFlt, this.1, this.2.ne']
  have h2 : (fMag c (F.ofReal g.mag)).ok := by
    simp only [fMag, fsimp]
    exact ⟨hn'.ne', by positivity⟩
  have h3 : (fTor c (F.ofReal g.mag) (g.effTor k) k.mech).ok := by
    have := coshMag_ok g.mag
    simp [fTor, this.1, this.2.ne', effTor_ok, calcDepthTor_ok]
  have h4 : (fDip c (F.ofReal g.mag) (F.ofReal g.dip)).ok := by
    have := coshMag_ok g.mag
    simp [fDip, this.1, this.2.ne']
  exact ⟨⟨⟨⟨trivial, h1⟩, h2⟩, h3⟩, h4⟩

theorem fHng_ok {c : Row} (hc : c ∈ table) {g : Given} (hr : 0 ≤ g.rup) (k : Kind) :
    (fHng c (g.toIn k)).ok := by
  obtain ⟨-, -, -, -, -, h9, -⟩ := row_facts c hc
  have h9' : (0 : ℝ) < c.c_9b := by exact_mod_cast h9
  unfold fHng
  split
  · simp only [Given.toIn, fsimp, effTor_ok]
    exact ⟨h9'.ne', by positivity, by positivity⟩
  · simp

theorem lnRef_ok {c : Row} (hc : c ∈ table) {g : Given} (hr : 0 ≤ g.rup) (k : Kind) :
    (lnRef c (g.toIn k)).ok := by
  obtain ⟨-, -, hrb, -⟩ := row_facts c hc
  have hrb' : (c.c_rb : ℝ) = 50 := by rw [hrb]; norm_num
  have h0 := base_ok hc g k
  have h1 : (fDist c (F.ofReal g.mag) (F.ofReal g.rup)).ok := by
    simp only [fDist, fsimp, hrb']
    have := H_pos hc g.mag
    unfold H at this
    exact ⟨by linarith, by positivity, Real.sqrt_pos.2 (by positivity)⟩
  have h2 : (fAtn c (F.ofReal g.mag) (F.ofReal g.rup) k.reg).ok := by
    simp only [fAtn, fsimp, scale_ok]
    exact (Real.cosh_pos _).ne'
  have h3 : (fDir c (F.ofReal g.mag) (F.ofReal g.rup) (F.ofReal (g.dpp.getD ((0 : ℚ) : ℝ)))).ok := by
    simp only [fDir, fsimp]
    norm_num
  exact ⟨⟨⟨⟨h0, h1⟩, h2⟩, h3⟩, fHng_ok hc hr k⟩

theorem scale_nonneg {c : Row} (hc : c ∈ table) (m : ℝ) (reg : Reg) :
    0 ≤ (scale c (F.ofReal m) reg).val := by
  obtain ⟨-, -, -, -, -, -, -, -, -, -, -, -, -, -, hj, hch⟩ := row_facts c hc
  have hj' : (0 : ℝ) ≤ c.gamma_ji := by
    have : (1 : ℝ) < c.gamma_ji := by exact_mod_cast hj
    linarith
  have hch' : (0 : ℝ) ≤ c.gamma_c := by exact_mod_cast hch
  cases reg <;> simp only [scale, fsimp]
  · split
    · split
      · exact hj'
      · norm_num
    · norm_num
  · split
    · split
      · exact hj'
      · norm_num
    · norm_num
  · exact hch'
  · norm_num

theorem gam_inner {c : Row} (hc : c ∈ table) (m : ℝ) :
    (c.c_gamma1 : ℝ) + c.c_gamma2 / Real.cosh (max (m - c.c_gamma3) 0) < 0 := by
  obtain ⟨-, -, -, -, -, -, -, -, -, -, -, -, h1, h2, -⟩ := row_facts c hc
  have h1' : (c.c_gamma1 : ℝ) < 0 := by exact_mod_cast h1
  have h2' : (c.c_gamma2 : ℝ) < 0 := by exact_mod_cast h2
  have := div_neg_of_neg_of_pos h2' (Real.cosh_pos (max (m - c.c_gamma3) 0))
  linarith

theorem gam_nonpos {c : Row} (hc : c ∈ table) (m : ℝ) (reg : Reg) : gam c m reg ≤ 0 :=
  mul_nonpos_of_nonneg_of_nonpos (scale_nonneg hc m reg) (gam_inner hc m).le

theorem half_log {r : ℝ} : Real.log (Real.sqrt (r ^ 2 + 50 ^ 2)) = Real.log (r ^ 2 + 50 ^ 2) / 2 := by
  rw [Real.log_sqrt (by positivity)]

/-- geometric spreading decreases when the fictitious depth is below 64 km -/
theorem spread_anti {h : ℝ} (h0 : 0 < h) (h64 : h < 64) :
    StrictAntiOn (fun r => -2.1 * Real.log (r + h) + 1.6 * (Real.log (r ^ 2 + 50 ^ 2) / 2)) (Set.Ici (0 : ℝ)) := by
  have hd : ∀ r, 0 ≤ r → HasDerivAt (fun r => -2.1 * Real.log (r + h) + 1.6 * (Real.log (r ^ 2 + 50 ^ 2) / 2))
      (-2.1 * (1 / (r + h)) + 1.6 * ((2 * r / (r ^ 2 + 50 ^ 2)) / 2)) r := by
    intro r hr
    have h1 : r + h ≠ 0 := by positivity
    have h2 : r ^ 2 + 50 ^ 2 ≠ 0 := by positivity
    have hq : HasDerivAt (fun r : ℝ => r ^ 2 + 50 ^ 2) (2 * r) r := by
      simpa using (hasDerivAt_pow 2 r).add_const ((50 : ℝ) ^ 2)
    exact ((((hasDerivAt_id r).add_const h).log h1).const_mul _).add (((hq.log h2).div_const 2).const_mul _)
  apply strictAntiOn_of_deriv_neg (convex_Ici 0)
  · intro r hr; exact (hd r hr).continuousAt.continuousWithinAt
  · intro r hr
    rw [interior_Ici] at hr
    have hr' : (0 : ℝ) < r := hr
    rw [(hd r hr'.le).deriv]
    have e : -2.1 * (1 / (r + h)) + 1.6 * ((2 * r / (r ^ 2 + 50 ^ 2)) / 2) =
        -(0.5 * r ^ 2 - 1.6 * h * r + 5250) / ((r + h) * (r ^ 2 + 50 ^ 2)) := by
      have h1 : r + h ≠ 0 := by positivity
      have h2 : r ^ 2 + 50 ^ 2 ≠ 0 := by positivity
      field_simp
      ring
    rw [e]
    apply div_neg_of_neg_of_pos _ (by positivity)
    nlinarith [sq_nonneg (r - 1.6 * h), mul_pos hr' h0, sq_nonneg (r - 102.4)]

theorem distR_anti {c : Row} (hc : c ∈ table) {m dpp r r' : ℝ} (hm : m ≤ 8.5) (hd : 0 ≤ dpp)
    (hr : 0 ≤ r) (hrr : r < r') (reg : Reg) : distR c m r' dpp reg < distR c m r dpp reg := by
  obtain ⟨e4, e4a, erb, -, -, -, -, -, -, h8, -⟩ := row_facts c hc
  have e4' : (c.c_4 : ℝ) = -2.1 := by rw [e4]; norm_num
  have e4a' : (c.c_4a : ℝ) = -0.5 := by rw [e4a]; norm_num
  have erb' : (c.c_rb : ℝ) = 50 := by rw [erb]; norm_num
  have h8' : (0 : ℝ) ≤ c.c_8 := by exact_mod_cast h8
  have hs := spread_anti (H_pos hc m) (H_lt hc hm) (Set.mem_Ici.2 hr) (Set.mem_Ici.2 (hr.trans hrr.le)) hrr
  have hg := mul_le_mul_of_nonpos_left hrr.le (gam_nonpos hc m reg)
  have hF : 0 ≤ dirFac c m dpp := by
    unfold dirFac
    have : 0 ≤ min (max (m - 5.5) 0 / 0.8) (1 : ℝ) :=
      le_min (div_nonneg (le_max_right _ _) (by norm_num)) (by norm_num)
    positivity
  have ht : max (1 - max (r' - 40) 0 / 30) 0 ≤ max (1 - max (r - 40) 0 / 30) (0 : ℝ) := by
    have : max (r - 40) 0 ≤ max (r' - 40) (0 : ℝ) := max_le_max (by linarith) le_rfl
    exact max_le_max (by linarith) le_rfl
  have hT := mul_le_mul_of_nonneg_left ht hF
  simp only [distR, e4', e4a', erb', half_log]
  norm_num at hs ⊢
  linarith

/-! ### The site term -/

/-- slope of the nonlinear term -/
noncomputable def bR (c : Row) (v : ℝ) : ℝ :=
  c.phi_2 * (Real.exp (c.phi_3 * (min v 1130 - 360)) - Real.exp (c.phi_3 * (1130 - 360)))

theorem bNl_val (c : Row) (v : ℝ) : (bNl c (F.ofReal v)).ok ∧ (bNl c (F.ofReal v)).val = bR c v := by
  simp only [bNl, bR, fsimp]

theorem bR_nonpos {c : Row} (hc : c ∈ table) (v : ℝ) : bR c v ≤ 0 := by
  obtain ⟨-, -, -, -, -, -, -, -, -, -, h2, h3, -⟩ := row_facts c hc
  have h2' : (c.phi_2 : ℝ) ≤ 0 := by exact_mod_cast h2
  have h3' : (c.phi_3 : ℝ) < 0 := by exact_mod_cast h3
  apply mul_nonpos_of_nonpos_of_nonneg h2'
  rw [sub_nonneg]
  apply Real.exp_le_exp.2
  apply mul_le_mul_of_nonpos_left _ h3'.le
  linarith [min_le_right v (1130 : ℝ)]

theorem bR_gt {c : Row} (hc : c ∈ table) {v : ℝ} (hv : 180 ≤ v) : -1 < bR c v := by
  obtain ⟨-, -, -, -, -, -, -, -, -, -, h2, h3, -⟩ := row_facts c hc
  obtain ⟨n1, n2⟩ := nl_facts c hc
  have h2' : (c.phi_2 : ℝ) ≤ 0 := by exact_mod_cast h2
  have h3' : (c.phi_3 : ℝ) < 0 := by exact_mod_cast h3
  have hq0 : (0 : ℚ) ≤ -180 * c.phi_3 := by linarith
  have hle := le_expHi hq0 n1
  have n2' : -(c.phi_2 : ℝ) * (expHi (-180 * c.phi_3) : ℚ) < 1 := by exact_mod_cast n2
  have hmin : (180 : ℝ) ≤ min v 1130 := le_min hv (by norm_num)
  have e1 : Real.exp (c.phi_3 * (min v 1130 - 360)) ≤ (expHi (-180 * c.phi_3) : ℚ) := by
    refine le_trans (Real.exp_le_exp.2 ?_) hle
    push_cast
    nlinarith
  have e2 := Real.exp_pos ((c.phi_3 : ℝ) * (1130 - 360))
  unfold bR
  nlinarith

theorem bR_rock (c : Row) {v : ℝ} (hv : 1130 ≤ v) : bR c v = 0 := by
  simp [bR, min_eq_right hv]

noncomputable section

/-- the parts of the site term that do not depend on the motion -/
def siteConst (c : Row) (v z1 : ℝ) (japan : Bool) : ℝ :=
  (if japan then (c.phi_1jp : ℝ) else c.phi_1) * min (Real.log (v / 1130)) 0 +
  (if japan then (c.phi_5jp : ℝ) else c.phi_5) *
    (1 - Real.exp (-(1000 * (z1 - (calcDepth10 (F.ofReal v) japan).val)) /
      (if japan then (c.phi_6jp : ℝ) else c.phi_6)))

theorem siteTerm_val (c : Row) (x : F) (v : ℝ) (z1 : F) (japan : Bool) :
    (siteTerm c (F.exp x) (F.ofReal v) z1 japan).val = siteConst c v z1.val japan +
      bR c v * Real.log ((Real.exp x.val + c.phi_4) / c.phi_4) := by
  simp only [siteTerm, F.val_add, F.val_mul, (bNl_val c v).2, siteConst]
  cases japan <;> simp only [fsimp, Real.log_exp, if_true, Bool.false_eq_true, if_false] <;> ring

theorem siteTerm_ok {c : Row} (hc : c ∈ table) {x z1 : F} (hx : x.ok) (hz : z1.ok) {v : ℝ} (hv : 0 < v)
    (japan : Bool) : (siteTerm c (F.exp x) (F.ofReal v) z1 japan).ok := by
  obtain ⟨-, -, -, -, -, -, h4, h6, h6j, -⟩ := row_facts c hc
  have h4' : (0 : ℝ) < c.phi_4 := by exact_mod_cast h4
  have h6' : (0 : ℝ) < c.phi_6 := by exact_mod_cast h6
  have h6j' : (0 : ℝ) < c.phi_6jp := by exact_mod_cast h6j
  have hd := calcDepth10_ok hv japan
  have hv' : 0 < v / 1130 := by positivity
  cases japan <;>
    simp only [siteTerm, fsimp, bNl_val, hd, hx, hz, if_true, Bool.false_eq_true, if_false, Real.log_exp]
  · exact ⟨⟨⟨by norm_num, hv'⟩, ⟨Real.exp_pos _, h4'.ne'⟩, by positivity⟩, h6'.ne'⟩
  · exact ⟨⟨⟨by norm_num, hv'⟩, ⟨Real.exp_pos _, h4'.ne'⟩, by positivity⟩, h6j'.ne'⟩

/-- the log response as a function of the log reference motion -/
def respR (c : Row) (v z1 : ℝ) (japan : Bool) (x : ℝ) : ℝ :=
  x + (siteConst c v z1 japan + bR c v * Real.log ((Real.exp x + c.phi_4) / c.phi_4))

theorem lnResp_val (c : Row) (g : Given) (k : Kind) :
    (lnResp c (g.toIn k)).val =
      respR c g.v (g.effZ1 k).val (k.reg = .japan) (lnRef c (g.toIn k)).val := by
  exact congrArg ((lnRef c (g.toIn k)).val + ·)
    (siteTerm_val c (lnRef c (g.toIn k)) g.v (g.effZ1 k) (k.reg = .japan))

theorem lnResp_ok {c : Row} (hc : c ∈ table) {g : Given} (hr : 0 ≤ g.rup) (hv : 0 < g.v) (k : Kind) :
    (lnResp c (g.toIn k)).ok :=
  ⟨lnRef_ok hc hr k, siteTerm_ok hc (lnRef_ok hc hr k) (effZ1_ok hv k) hv _⟩

theorem respR_strictMono {c : Row} (hc : c ∈ table) {v : ℝ} (hv : 180 ≤ v) (z1 : ℝ) (japan : Bool) :
    StrictMono (respR c v z1 japan) := by
  obtain ⟨-, -, -, -, -, -, h4, -⟩ := row_facts c hc
  have h4' : (0 : ℝ) < c.phi_4 := by exact_mod_cast h4
  intro x' x h
  obtain ⟨l1, l2⟩ := log_exp_add h.le h4'.le
  have b1 := bR_nonpos hc v
  have b2 := bR_gt hc hv
  unfold respR
  rw [Real.log_div (by positivity) h4'.ne', Real.log_div (by positivity) h4'.ne']
  nlinarith

end

end CY14

/-- Away from the hanging wall, with no or non-negative directivity, up to magnitude 8.5 and
for `v_s30` from 180 m/s: every spectral ordinate, PGA and PGV strictly decreases when only
`dist_rup` grows -- in every region, for every mechanism, with given or estimated depths, and
including the nonlinear site response. -/
theorem C47_attenuates (s s' : Scenario) (g : CY14.Given) (r' : ℝ) (h : CY14.Source s g)
    (h' : CY14.Source s' { g with rup := r' })
    (hmech : s'.get "mechanism" = s.get "mechanism") (hreg : s'.get "region" = s.get "region")
    (hsrc : s'.get "vs_source" = s.get "vs_source")
    (hhw : ¬ (s.get "on_hanging_wall").isOn) (hhw' : ¬ (s'.get "on_hanging_wall").isOn)
    (hm : g.mag ≤ 8.5) (hv : 180 ≤ g.v) (hdpp : ∀ d, g.dpp = some d → 0 ≤ d)
    (hr : 0 ≤ g.rup) (hrr : g.rup < r') :
    ∃ o o', Gives CY14.cls s o ∧ Gives CY14.cls s' o' ∧
      List.Forall₂ F.Drops o.gmm.lnResp o'.gmm.lnResp := by
  have ek : CY14.kindOf s' = CY14.kindOf s := by
    simp [CY14.kindOf, hmech, hreg, hsrc, hhw, hhw']
  have hkw : (CY14.kindOf s).hw = false := by simp [CY14.kindOf, hhw]
  have hv0 : 0 < g.v := by linarith
  refine ⟨_, _, CY14.gives h, CY14.gives h', ?_⟩
  rw [ek]
  generalize CY14.kindOf s = k at hkw
  simp only [CY14.out]
  refine forall₂_map fun c hc => ⟨CY14.lnResp_ok hc hr hv0 k,
    CY14.lnResp_ok hc (g := { g with rup := r' }) (hr.trans hrr.le) hv0 k, ?_⟩
  rw [CY14.lnResp_val, CY14.lnResp_val]
  apply CY14.respR_strictMono hc hv
  rw [CY14.lnRef_val, CY14.lnRef_val]
  have hd : 0 ≤ g.dpp.getD 0 := by
    cases hdd : g.dpp with
    | none => simp
    | some d => simpa using hdpp d hdd
  have := CY14.distR_anti hc (m := g.mag) (dpp := g.dpp.getD 0) hm hd hr hrr k.reg
  have e1 : CY14.baseF c ((({ g with rup := r' } : CY14.Given)).toIn k) = CY14.baseF c (g.toIn k) := rfl
  have e2 : ∀ g : CY14.Given, (CY14.fHng c (g.toIn k)).val = 0 := by
    intro g
    simp [CY14.fHng, CY14.Given.toIn, hkw]
  rw [e1, e2, e2]
  simp only [add_zero]
  linarith

/-! ## C48 -/

/-- `calc_site_term` at the reference condition -- `v_s30` of at least 1130 m/s and the
model's own depth for that velocity and region -- is exactly zero in every row, for every
positive reference motion. -/
theorem C48_site_term_zero (resp : List F) (hr : ∀ y ∈ resp, y.ok ∧ 0 < y.val) (v : ℝ) (hv : 1130 ≤ v)
    (region : Val) :
    ∀ t ∈ CY14.calcSiteTerm resp (F.ofReal v)
      (CY14.calcDepth10 (F.ofReal v) (region.isStr "japan")) region, t.ok ∧ t.val = 0 := by
  intro t ht
  unfold CY14.calcSiteTerm at ht
  obtain ⟨i, hi, rfl⟩ := List.getElem_of_mem ht
  rw [List.getElem_zipWith]
  have hi1 : i < CY14.table.length := lt_of_lt_of_le hi (by simp)
  have hi2 : i < resp.length := lt_of_lt_of_le hi (by simp)
  have hc : CY14.table[i] ∈ CY14.table := List.getElem_mem _
  obtain ⟨ho, hp⟩ := hr _ (List.getElem_mem hi2)
  set y := resp[i]
  have hv0 : 0 < v := by linarith
  have hy : CY14.siteTerm CY14.table[i] y (F.ofReal v)
      (CY14.calcDepth10 (F.ofReal v) (region.isStr "japan")) (region.isStr "japan") =
      CY14.siteTerm CY14.table[i] (F.exp (F.log y)) (F.ofReal v)
      (CY14.calcDepth10 (F.ofReal v) (region.isStr "japan")) (region.isStr "japan") := by
    have : F.exp (F.log y) = y := by
      ext
      · simp only [fsimp]; exact Real.exp_log hp
      · simp only [fsimp, ho, hp]
    rw [this]
  rw [hy]
  refine ⟨CY14.siteTerm_ok hc (x := F.log y) ⟨ho, hp⟩ (CY14.calcDepth10_ok hv0 _) hv0 _, ?_⟩
  rw [CY14.siteTerm_val, CY14.bR_rock _ hv]
  have hl : 0 ≤ Real.log (v / 1130) := Real.log_nonneg (by rw [le_div_iff₀ (by norm_num)]; linarith)
  simp [CY14.siteConst, min_eq_right hl]

namespace CY14

theorem effZ1_val_none {g : Given} (hz : g.z1 = none) (hv : 0 < g.v) (k : Kind) :
    (g.effZ1 k).val = (calcDepth10 (F.ofReal g.v) (k.reg = .japan)).val := by
  unfold Given.effZ1
  rw [hz, F.orEst_none (calcDepth10_ok hv _)]

theorem respR_rock (c : Row) {v : ℝ} (hv : 1130 ≤ v) (japan : Bool) (x : ℝ) :
    respR c v (calcDepth10 (F.ofReal v) japan).val japan x = x := by
  have hl : 0 ≤ Real.log (v / 1130) := Real.log_nonneg (by rw [le_div_iff₀ (by norm_num)]; linarith)
  simp [respR, bR_rock c hv, siteConst, min_eq_right hl]

end CY14

/-- So, with the basin depth left out, every prediction -- medians and standard deviations --
is the same for all velocities from 1130 m/s on: it is the reference motion. -/
theorem C48_reference (s s' : Scenario) (g : CY14.Given) (v' : ℝ) (h : CY14.Source s g)
    (h' : CY14.Source s' { g with v := v' })
    (hmech : s'.get "mechanism" = s.get "mechanism") (hreg : s'.get "region" = s.get "region")
    (hsrc : s'.get "vs_source" = s.get "vs_source")
    (hhw : s'.get "on_hanging_wall" = s.get "on_hanging_wall")
    (hz : g.z1 = none) (hr : 0 ≤ g.rup) (hv : 1130 ≤ g.v) (hv' : 1130 ≤ v') :
    ∃ o o' sd sd', Gives CY14.cls s o ∧ Gives CY14.cls s' o' ∧
      List.Forall₂ F.Same o.gmm.lnResp o'.gmm.lnResp ∧
      o.gmm.lnStd = some sd ∧ o'.gmm.lnStd = some sd' ∧ sd = sd' ∧
      o.tau = o'.tau ∧ o.phi = o'.phi := by
  have ek : CY14.kindOf s' = CY14.kindOf s := by
    simp [CY14.kindOf, hmech, hreg, hsrc, hhw]
  have h1 := CY14.gives h
  have h2 := CY14.gives h'
  rw [ek] at h2
  generalize CY14.kindOf s = k at h1 h2
  have hv0 : 0 < g.v := by linarith
  have hv0' : 0 < v' := by linarith
  have er : ∀ c, CY14.lnRef c (({ g with v := v' } : CY14.Given).toIn k) = CY14.lnRef c (g.toIn k) :=
    fun c => rfl
  have en : ∀ c, CY14.nl0 c (({ g with v := v' } : CY14.Given).toIn k) = CY14.nl0 c (g.toIn k) := by
    intro c
    unfold CY14.nl0
    rw [er]
    have : CY14.bNl c (F.ofReal v') = CY14.bNl c (F.ofReal g.v) := by
      ext
      · rw [(CY14.bNl_val c v').2, (CY14.bNl_val c g.v).2, CY14.bR_rock c hv, CY14.bR_rock c hv']
      · rw [iff_true_right (CY14.bNl_val c g.v).1]; exact (CY14.bNl_val c v').1
    exact congrArg (· * _) this
  refine ⟨_, _, _, _, h1, h2, ?_, rfl, rfl, ?_, ?_, ?_⟩
  · simp only [CY14.out]
    refine forall₂_map fun c hc => ⟨CY14.lnResp_ok hc hr hv0 k,
      CY14.lnResp_ok hc (g := { g with v := v' }) hr hv0' k, ?_⟩
    rw [CY14.lnResp_val, CY14.lnResp_val, CY14.effZ1_val_none hz hv0,
      CY14.effZ1_val_none (g := { g with v := v' }) hz hv0', er, CY14.respR_rock c hv]
    exact CY14.respR_rock c hv' _ _
  · apply List.map_congr_left
    intro c _
    simp only [CY14.lnStd, CY14.phi, en]
    rfl
  · simp only [CY14.out]
    apply List.map_congr_left
    intro c _
    simp only [CY14.tau, en]
    rfl
  · simp only [CY14.out]
    apply List.map_congr_left
    intro c _
    simp only [CY14.phi, en]
    rfl

/-! ## C49 -/

namespace CY14

theorem clipped_mem (m : ℝ) : 0 ≤ min (max m 5) 6.5 - (5 : ℝ) ∧ min (max m 5) 6.5 - (5 : ℝ) ≤ 1.5 := by
  constructor
  · have : (5 : ℝ) ≤ min (max m 5) 6.5 := le_min (le_max_right _ _) (by norm_num)
    linarith
  · have : min (max m 5) 6.5 ≤ (6.5 : ℝ) := min_le_right _ _
    linarith

/-- between the small- and large-magnitude values -/
theorem taper_pos {a b t : ℝ} (ha : 0 < a) (hb : 0 < b) (h0 : 0 ≤ t) (h1 : t ≤ 1.5) :
    0 < a + (b - a) / 1.5 * t := by
  have e : a + (b - a) / 1.5 * t = a * (1 - t / 1.5) + b * (t / 1.5) := by ring
  have h2 : 0 ≤ t / 1.5 := by positivity
  have h3 : t / 1.5 ≤ 1 := by rw [div_le_one (by norm_num)]; exact h1
  rw [e]
  rcases eq_or_lt_of_le h2 with h | h
  · rw [← h]; simpa using ha
  · have := mul_pos hb h
    have := mul_nonneg ha.le (by linarith : (0 : ℝ) ≤ 1 - t / 1.5)
    linarith

theorem nl0_facts {c : Row} (hc : c ∈ table) {g : Given} (hr : 0 ≤ g.rup) (k : Kind) :
    (nl0 c (g.toIn k)).ok ∧ (180 ≤ g.v → -1 < (nl0 c (g.toIn k)).val) ∧
    (1130 ≤ g.v → (nl0 c (g.toIn k)).val = 0) := by
  obtain ⟨-, -, -, -, -, -, h4, -⟩ := row_facts c hc
  have h4' : (0 : ℝ) < c.phi_4 := by exact_mod_cast h4
  have ev : (nl0 c (g.toIn k)).val = bR c g.v * (Real.exp (lnRef c (g.toIn k)).val /
      (Real.exp (lnRef c (g.toIn k)).val + c.phi_4)) := by
    simp only [nl0, F.val_mul, F.val_div, F.val_add, F.val_exp, F.val_mk]
    rw [show (g.toIn k).v = F.ofReal g.v from rfl, (bNl_val c g.v).2]
  refine ⟨?_, fun hv => ?_, fun hv => ?_⟩
  · have := lnRef_ok hc hr k
    refine ⟨(bNl_val c g.v).1, this, ⟨this, trivial⟩, ?_⟩
    simp only [fsimp]
    positivity
  · rw [ev]
    have b1 := bR_nonpos hc g.v
    have b2 := bR_gt hc hv
    have e := Real.exp_pos (lnRef c (g.toIn k)).val
    have q0 : 0 ≤ Real.exp (lnRef c (g.toIn k)).val / (Real.exp (lnRef c (g.toIn k)).val + c.phi_4) := by
      positivity
    have q1 : Real.exp (lnRef c (g.toIn k)).val / (Real.exp (lnRef c (g.toIn k)).val + c.phi_4) ≤ 1 := by
      rw [div_le_one (by positivity)]; linarith
    nlinarith
  · rw [ev, bR_rock c hv, zero_mul]

theorem std_facts {c : Row} (hc : c ∈ table) {g : Given} (hr : 0 ≤ g.rup) (k : Kind) :
    let i := g.toIn k
    (lnStd c i).ok ∧ (tau c i).ok ∧ (phi c i).ok ∧ 0 < (phi c i).val ∧ 0 ≤ (tau c i).val ∧
    (180 ≤ g.v → 0 < (tau c i).val) ∧ 0 < (lnStd c i).val ∧
    (lnStd c i).val ^ 2 = (tau c i).val ^ 2 + (phi c i).val ^ 2 := by
  intro i
  obtain ⟨t1, t2, s1, s2, s2j, s3⟩ := std_row_facts c hc
  have t1' : (0 : ℝ) < c.tau_1 := by exact_mod_cast t1
  have t2' : (0 : ℝ) < c.tau_2 := by exact_mod_cast t2
  have s1' : (0 : ℝ) < c.sigma_1 := by exact_mod_cast s1
  have s2' : (0 : ℝ) < c.sigma_2 := by exact_mod_cast s2
  have s2j' : (0 : ℝ) < c.sigma_2jp := by exact_mod_cast s2j
  have s3' : (0 : ℝ) < c.sigma_3 := by exact_mod_cast s3
  obtain ⟨n1, n2, -⟩ := nl0_facts hc hr k
  obtain ⟨m0, m1⟩ := clipped_mem g.mag
  have hcl : (clippedMag i.mag).ok ∧ (clippedMag i.mag).val = min (max g.mag 5) 6.5 - 5 := by
    simp only [clippedMag, i, Given.toIn, fsimp]
  have ht : (tauMag c i.mag).ok ∧ 0 < (tauMag c i.mag).val := by
    simp only [tauMag, fsimp, hcl.1, hcl.2]
    exact ⟨by norm_num, taper_pos t1' t2' m0 m1⟩
  have hs : ∀ b : Prop, [Decidable b] → (0 : ℝ) < (if b then (c.sigma_2jp : ℝ) else c.sigma_2) := by
    intro b _; split <;> assumption
  have hphi : (phi c i).ok ∧ 0 < (phi c i).val := by
    simp only [phi, fsimp, hcl.1, hcl.2, n1]
    have hq : 0 < (c.sigma_3 : ℝ) * (1 - if k.measured = true then 1 else 0) +
        0.7 * (if k.measured = true then 1 else 0) + (1 + (nl0 c (g.toIn k)).val) ^ 2 := by
      split
      · nlinarith [sq_nonneg (1 + (nl0 c (g.toIn k)).val)]
      · nlinarith [sq_nonneg (1 + (nl0 c (g.toIn k)).val)]
    constructor
    · simp only [ite_self, true_and, and_true]
      exact ⟨by norm_num, n1, hq.le⟩
    · exact mul_pos (taper_pos s1' (hs _) m0 m1) (Real.sqrt_pos.2 hq)
  have htau : (tau c i).ok ∧ 0 ≤ (tau c i).val := by
    simp only [tau, fsimp, ht.1, n1]
    exact ⟨⟨n1, by positivity⟩, Real.sqrt_nonneg _⟩
  have hsd : (lnStd c i).ok := by
    simp only [lnStd, fsimp, ht.1, n1, hphi.1]
    exact ⟨n1, by positivity⟩
  have hsq : (lnStd c i).val ^ 2 = (tau c i).val ^ 2 + (phi c i).val ^ 2 := by
    simp only [lnStd, tau, F.val_sqrt, F.val_add]
    rw [Real.sq_sqrt (by simp only [fsimp]; positivity), Real.sq_sqrt (by simp only [fsimp]; positivity)]
    simp only [fsimp]
  refine ⟨hsd, htau.1, hphi.1, hphi.2, htau.2, fun hv => ?_, ?_, hsq⟩
  · have h1 : 0 < 1 + (nl0 c (g.toIn k)).val := by linarith [n2 hv]
    simp only [tau, fsimp]
    apply Real.sqrt_pos.2
    have := ht.2
    positivity
  · have h0 : 0 ≤ (lnStd c i).val := by simp only [lnStd, F.val_sqrt]; exact Real.sqrt_nonneg _
    rcases eq_or_lt_of_le h0 with h | h
    · rw [← h] at hsq
      have := hphi.2
      nlinarith [sq_nonneg (tau c i).val]
    · exact h

theorem table_length : table.length = 26 := by decide +kernel

end CY14

/-- For every distance, magnitude, region, mechanism, depth and velocity: the total standard
deviation, `tau` and `phi` of every row are defined, the total and `phi` are positive, `tau`
is not negative (positive from 180 m/s on) and sigma² = tau² + phi². -/
theorem C49_std (s : Scenario) (g : CY14.Given) (h : CY14.Source s g) (hr : 0 ≤ g.rup) :
    ∃ o sd, Gives CY14.cls s o ∧ o.gmm.lnStd = some sd ∧
      sd.length = 26 ∧ o.tau.length = 26 ∧ o.phi.length = 26 ∧
      ∀ i, i < 26 →
        (sd.getD i F.nan).ok ∧ (o.tau.getD i F.nan).ok ∧ (o.phi.getD i F.nan).ok ∧
        0 < (sd.getD i F.nan).val ∧ 0 < (o.phi.getD i F.nan).val ∧ 0 ≤ (o.tau.getD i F.nan).val ∧
        (180 ≤ g.v → 0 < (o.tau.getD i F.nan).val) ∧
        (sd.getD i F.nan).val ^ 2 = (o.tau.getD i F.nan).val ^ 2 + (o.phi.getD i F.nan).val ^ 2 := by
  refine ⟨_, _, CY14.gives h, rfl, by simp [CY14.table_length], by simp [CY14.out, CY14.table_length],
    by simp [CY14.out, CY14.table_length], ?_⟩
  intro i hi
  rw [← CY14.table_length] at hi
  obtain ⟨f1, f2, f3, f4, f5, f6, f7, f8⟩ :=
    CY14.std_facts (List.getElem_mem hi) hr (CY14.kindOf s)
  simp only [CY14.out, List.getD_eq_getElem?_getD, List.getElem?_map,
      List.getElem?_eq_getElem hi, Option.map_some, Option.getD_some]
  exact ⟨f1, f2, f3, f7, f4, f5, f6, f8⟩

/-- On rock (v_s30 of at least 1130 m/s) the standard deviations depend on the scenario only
through the clipped magnitude, the region (japan or not) and how v_s30 was obtained: they are
the same for all magnitudes up to 5, and for all magnitudes from 6.5 on, at all distances. -/
theorem C49_rock_plateaus (s s' : Scenario) (g g' : CY14.Given) (h : CY14.Source s g)
    (h' : CY14.Source s' g')
    (hreg : s'.get "region" = s.get "region") (hsrc : s'.get "vs_source" = s.get "vs_source")
    (hr : 0 ≤ g.rup) (hr' : 0 ≤ g'.rup) (hv : 1130 ≤ g.v) (hv' : 1130 ≤ g'.v)
    (hm : (g.mag ≤ 5 ∧ g'.mag ≤ 5) ∨ (6.5 ≤ g.mag ∧ 6.5 ≤ g'.mag) ∨ g.mag = g'.mag) :
    ∃ o o' sd sd', Gives CY14.cls s o ∧ Gives CY14.cls s' o' ∧
      o.gmm.lnStd = some sd ∧ o'.gmm.lnStd = some sd' ∧
      List.Forall₂ F.Same sd sd' ∧ List.Forall₂ F.Same o.tau o'.tau ∧
      List.Forall₂ F.Same o.phi o'.phi := by
  have hcl : min (max g'.mag 5) 6.5 = min (max g.mag 5) (6.5 : ℝ) := by
    rcases hm with ⟨a, b⟩ | ⟨a, b⟩ | a
    · rw [max_eq_right a, max_eq_right b]
    · rw [max_eq_left (by linarith), max_eq_left (by linarith), min_eq_right a, min_eq_right b]
    · rw [a]
  have e1 : (CY14.kindOf s').reg = (CY14.kindOf s).reg := by simp [CY14.kindOf, hreg]
  have e2 : (CY14.kindOf s').measured = (CY14.kindOf s).measured := by simp [CY14.kindOf, hsrc]
  refine ⟨_, _, _, _, CY14.gives h, CY14.gives h', rfl, rfl, ?_, ?_, ?_⟩
  all_goals
    try simp only [CY14.out]
    refine forall₂_map fun c hc => ?_
    obtain ⟨f1, f2, f3, -⟩ := CY14.std_facts hc hr (CY14.kindOf s)
    obtain ⟨f1', f2', f3', -⟩ := CY14.std_facts hc hr' (CY14.kindOf s')
    obtain ⟨-, -, n⟩ := CY14.nl0_facts hc hr (CY14.kindOf s)
    obtain ⟨-, -, n'⟩ := CY14.nl0_facts hc hr' (CY14.kindOf s')
    refine ⟨by assumption, by assumption, ?_⟩
    simp only [CY14.lnStd, CY14.tau, CY14.phi, CY14.tauMag, CY14.clippedMag, fsimp, n hv, n' hv']
    simp only [CY14.Given.toIn, fsimp, hcl, e1, e2]
    try (by_cases hj : (CY14.kindOf s).reg = .japan <;> by_cases hq : (CY14.kindOf s).measured = true <;>
      simp only [hj, hq, if_true, if_false])

/-! ## C65 -/

namespace CY14

theorem coshMag_continuous : Continuous fun m : ℝ => (coshMag (F.ofReal m)).val := by
  simp only [coshMag, fsimp]
  exact Real.continuous_cosh.comp (by fun_prop)

theorem calcDepthTor_continuous (b : Bool) : Continuous fun m : ℝ => (calcDepthTor (F.ofReal m) b).val := by
  cases b <;> simp only [calcDepthTor, fsimp, Bool.false_eq_true] <;> fun_prop

theorem effTor_continuous (g : Given) (k : Kind) :
    Continuous fun m : ℝ => (({ g with mag := m } : Given).effTor k).val := by
  have e : ∀ m : ℝ, (({ g with mag := m } : Given).effTor k).val =
      g.tor.getD (calcDepthTor (F.ofReal m) (k.mech = .rs)).val := fun m =>
    F.orEst_val fun _ => calcDepthTor_ok _ _
  simp only [e]
  cases g.tor with
  | none => exact calcDepthTor_continuous _
  | some x => exact continuous_const

theorem base_continuous {c : Row} (g : Given) (k : Kind) :
    Continuous fun m : ℝ => (baseF c (({ g with mag := m } : Given).toIn k)).val := by
  have hc1 := coshMag_continuous
  have hne : ∀ m : ℝ, (coshMag (F.ofReal m)).val ≠ 0 := fun m => (coshMag_ok m).2.ne'
  have hdiv : ∀ a : ℝ, Continuous fun m : ℝ => a / (coshMag (F.ofReal m)).val :=
    fun a => continuous_const.div hc1 hne
  have h1 : Continuous fun m : ℝ => (fFlt c (F.ofReal m) k.mech).val := by
    cases k.mech <;> simp only [fFlt, fsimp]
    · exact continuous_const.add (hdiv _)
    · exact continuous_const.add (hdiv _)
    · exact continuous_const
  have h2 : Continuous fun m : ℝ => (fMag c (F.ofReal m)).val := by
    simp only [fMag, fsimp]
    have : Continuous fun m : ℝ => Real.log (1 + Real.exp (c.c_n * ((c.c_m : ℝ) - m))) :=
      Continuous.log (by fun_prop) (fun m => by positivity)
    fun_prop
  have h3 : Continuous fun m : ℝ => (fTor c (F.ofReal m) (({ g with mag := m } : Given).effTor k) k.mech).val := by
    simp only [fTor, fsimp]
    exact (continuous_const.add (hdiv _)).mul ((effTor_continuous g k).sub (calcDepthTor_continuous _))
  have h4 : Continuous fun m : ℝ => (fDip c (F.ofReal m) (F.ofReal g.dip)).val := by
    simp only [fDip, fsimp]
    exact (continuous_const.add (hdiv _)).mul continuous_const
  exact (((continuous_const.add h1).add h2).add h3).add h4

theorem H_continuous (c : Row) : Continuous (H c) := by
  unfold H
  exact continuous_const.mul (Real.continuous_cosh.comp (by fun_prop))

/-- the unscaled anelastic slope -/
noncomputable def gam0 (c : Row) (m : ℝ) : ℝ :=
  c.c_gamma1 + c.c_gamma2 / Real.cosh (max (m - c.c_gamma3) 0)

theorem gam0_continuous (c : Row) : Continuous (gam0 c) := by
  unfold gam0
  refine continuous_const.add (continuous_const.div (Real.continuous_cosh.comp (by fun_prop)) fun m => ?_)
  exact (Real.cosh_pos _).ne'

/-- the distance-dependent part without the anelastic term -/
noncomputable def dist0 (c : Row) (m r dpp : ℝ) : ℝ :=
  c.c_4 * Real.log (r + H c m) + ((c.c_4a : ℝ) - c.c_4) * Real.log (Real.sqrt (r ^ 2 + (c.c_rb : ℝ) ^ 2)) +
    dirFac c m dpp * max (1 - max (r - 40) 0 / 30) 0

theorem distR_split (c : Row) (m r dpp : ℝ) (reg : Reg) :
    distR c m r dpp reg = dist0 c m r dpp + (scale c (F.ofReal m) reg).val * gam0 c m * r := by
  unfold distR dist0 gam gam0; ring

theorem dist0_continuous {c : Row} (hc : c ∈ table) {r : ℝ} (hr : 0 ≤ r) (dpp : ℝ) :
    Continuous fun m => dist0 c m r dpp := by
  unfold dist0 dirFac
  have h1 : Continuous fun m => Real.log (r + H c m) :=
    Continuous.log (continuous_const.add (H_continuous c)) fun m => by
      have := H_pos hc m; positivity
  fun_prop

theorem fHng_continuous {c : Row} (g : Given) (k : Kind) :
    Continuous fun m : ℝ => (fHng c (({ g with mag := m } : Given).toIn k)).val := by
  cases hk : k.hw
  · simp only [fHng, Given.toIn, hk, Bool.false_eq_true, if_false]
    exact continuous_const
  · simp only [fHng, Given.toIn, hk, if_true, fsimp]
    have := effTor_continuous g k
    exact continuous_const.mul (continuous_const.sub
      ((Real.continuous_sqrt.comp (continuous_const.add (this.pow 2))).div_const _))

theorem respR_continuous {c : Row} (hc : c ∈ table) (v z1 : ℝ) (japan : Bool) :
    Continuous (respR c v z1 japan) := by
  obtain ⟨-, -, -, -, -, -, h4, -⟩ := row_facts c hc
  have h4' : (0 : ℝ) < c.phi_4 := by exact_mod_cast h4
  unfold respR
  have : Continuous fun x : ℝ => Real.log ((Real.exp x + c.phi_4) / c.phi_4) :=
    Continuous.log (by fun_prop) fun x => by positivity
  fun_prop

/-- the reference motion with the regional factor replaced by a constant -/
noncomputable def refK (c : Row) (g : Given) (k : Kind) (a m : ℝ) : ℝ :=
  (baseF c (({ g with mag := m } : Given).toIn k)).val + (dist0 c m g.rup (g.dpp.getD 0) +
    a * gam0 c m * g.rup) + (fHng c (({ g with mag := m } : Given).toIn k)).val

theorem refK_continuous {c : Row} (hc : c ∈ table) {g : Given} (hr : 0 ≤ g.rup) (k : Kind) (a : ℝ) :
    Continuous (refK c g k a) :=
  ((base_continuous g k).add ((dist0_continuous hc hr _).add
    ((continuous_const.mul (gam0_continuous c)).mul continuous_const))).add (fHng_continuous g k)

theorem resp_refK (c : Row) (g : Given) (k : Kind) (m a : ℝ)
    (ha : (scale c (F.ofReal m) k.reg).val = a) :
    (lnResp c (({ g with mag := m } : Given).toIn k)).val =
      respR c g.v (g.effZ1 k).val (k.reg = .japan) (refK c g k a m) := by
  rw [lnResp_val, lnRef_val, distR_split, ha]
  rfl

theorem out_resp (i : In) {k : ℕ} (hk : k < table.length) :
    (out i).gmm.resp k = (lnResp (table[k]'hk) i).val := by
  simp only [GmmOut.resp, out, List.getD_eq_getElem?_getD, List.getElem?_map,
    List.getElem?_eq_getElem hk, Option.map_some, Option.getD_some]

end CY14

/-- Outside Japan and Italy every median is a continuous function of the magnitude, with given
or estimated depths, on or off the hanging wall. -/
theorem C65_continuous_in_mag (S : ℝ → Scenario) (g : CY14.Given) (k : CY14.Kind)
    (hS : ∀ m, CY14.Source (S m) { g with mag := m }) (hk : ∀ m, CY14.kindOf (S m) = k)
    (hj : k.reg ≠ .japan) (hi : k.reg ≠ .italy) (hr : 0 ≤ g.rup) :
    ∃ O : ℝ → CY14.Out, (∀ m, Gives CY14.cls (S m) (O m)) ∧
      ∀ i, i < 26 → Continuous (fun m => (O m).gmm.resp i) := by
  refine ⟨fun m => CY14.out (({ g with mag := m } : CY14.Given).toIn k), fun m => ?_, ?_⟩
  · have := CY14.gives (hS m)
    rwa [hk m] at this
  · intro i hi'
    rw [← CY14.table_length] at hi'
    have hc : CY14.table[i]'hi' ∈ CY14.table := List.getElem_mem _
    simp only [CY14.out_resp _ hi']
    obtain ⟨a, ha⟩ : ∃ a, ∀ m : ℝ, (CY14.scale (CY14.table[i]'hi') (F.ofReal m) k.reg).val = a := by
      cases hq : k.reg with
      | japan => exact absurd hq hj
      | italy => exact absurd hq hi
      | china => exact ⟨_, fun m => rfl⟩
      | other => exact ⟨_, fun m => rfl⟩
    simp only [CY14.resp_refK _ g k _ a (ha _)]
    exact (CY14.respR_continuous hc _ _ _).comp (CY14.refK_continuous hc hr k a)

/-- In Japan and Italy the median is continuous in the magnitude except at 6 and 6.9: just above
6 it drops, and at 6.9 it rises back, strictly, at every period and every distance greater than
zero (for v_s30 from 180 m/s). -/
theorem C65_japan_italy_jumps (S : ℝ → Scenario) (g : CY14.Given) (k : CY14.Kind)
    (hS : ∀ m, CY14.Source (S m) { g with mag := m }) (hk : ∀ m, CY14.kindOf (S m) = k)
    (hji : k.reg = .japan ∨ k.reg = .italy) (hr : 0 < g.rup) (hv : 180 ≤ g.v) :
    ∃ O : ℝ → CY14.Out, (∀ m, Gives CY14.cls (S m) (O m)) ∧ ∀ i, i < 26 →
      ContinuousOn (fun m => (O m).gmm.resp i) {6, 6.9}ᶜ ∧
      (Filter.Tendsto (fun m => (O m).gmm.resp i) (nhdsWithin 6 (Set.Iio 6))
        (nhds ((O 6).gmm.resp i))) ∧
      (∃ L, Filter.Tendsto (fun m => (O m).gmm.resp i) (nhdsWithin 6 (Set.Ioi 6)) (nhds L) ∧
        L < (O 6).gmm.resp i) ∧
      (Filter.Tendsto (fun m => (O m).gmm.resp i) (nhdsWithin 6.9 (Set.Ioi 6.9))
        (nhds ((O 6.9).gmm.resp i))) ∧
      (∃ L, Filter.Tendsto (fun m => (O m).gmm.resp i) (nhdsWithin 6.9 (Set.Iio 6.9)) (nhds L) ∧
        L < (O 6.9).gmm.resp i) := by
  refine ⟨fun m => CY14.out (({ g with mag := m } : CY14.Given).toIn k), fun m => ?_, ?_⟩
  · have := CY14.gives (hS m)
    rwa [hk m] at this
  · intro i hi'
    rw [← CY14.table_length] at hi'
    have hc : CY14.table[i]'hi' ∈ CY14.table := List.getElem_mem _
    simp only [CY14.out_resp _ hi']
    set c := CY14.table[i]'hi'
    have sc : ∀ m : ℝ, (CY14.scale c (F.ofReal m) k.reg).val =
        if 6 < m then (if m < 6.9 then (c.gamma_ji : ℝ) else 1) else 1 := by
      intro m
      rcases hji with h | h <;> rw [h] <;> simp only [CY14.scale, fsimp]
    have lo : ∀ m : ℝ, m ≤ 6 → (CY14.lnResp c (({ g with mag := m } : CY14.Given).toIn k)).val =
        CY14.respR c g.v (g.effZ1 k).val (k.reg = .japan) (CY14.refK c g k 1 m) := fun m hm =>
      CY14.resp_refK c g k m 1 (by rw [sc, if_neg (not_lt.2 hm)])
    have mid : ∀ m : ℝ, 6 < m → m < 6.9 → (CY14.lnResp c (({ g with mag := m } : CY14.Given).toIn k)).val =
        CY14.respR c g.v (g.effZ1 k).val (k.reg = .japan) (CY14.refK c g k c.gamma_ji m) := fun m h1 h2 =>
      CY14.resp_refK c g k m _ (by rw [sc, if_pos h1, if_pos h2])
    have hi : ∀ m : ℝ, 6.9 ≤ m → (CY14.lnResp c (({ g with mag := m } : CY14.Given).toIn k)).val =
        CY14.respR c g.v (g.effZ1 k).val (k.reg = .japan) (CY14.refK c g k 1 m) := fun m hm =>
      CY14.resp_refK c g k m 1 (by rw [sc, if_pos (by norm_num at hm ⊢; linarith), if_neg (not_lt.2 hm)])
    have cont : ∀ a, Continuous fun m => CY14.respR c g.v (g.effZ1 k).val (k.reg = .japan) (CY14.refK c g k a m) :=
      fun a => (CY14.respR_continuous hc _ _ _).comp (CY14.refK_continuous hc hr.le k a)
    have jump : ∀ m, CY14.refK c g k c.gamma_ji m < CY14.refK c g k 1 m := by
      intro m
      obtain ⟨-, -, -, -, -, -, -, -, -, -, -, -, -, -, hg, -⟩ := CY14.row_facts c hc
      have hg' : (1 : ℝ) < c.gamma_ji := by exact_mod_cast hg
      have h0 : CY14.gam0 c m < 0 := CY14.gam_inner hc m
      have : (c.gamma_ji : ℝ) * CY14.gam0 c m * g.rup < 1 * CY14.gam0 c m * g.rup := by
        have := mul_lt_mul_of_neg_right hg' h0
        exact mul_lt_mul_of_pos_right this hr
      unfold CY14.refK
      linarith
    have mono := CY14.respR_strictMono hc hv (g.effZ1 k).val (k.reg = .japan)
    have nhds_mid : ∀ a b x : ℝ, a < x → x < b → Set.Ioo a b ∈ nhds x := fun a b x h1 h2 => Ioo_mem_nhds h1 h2
    refine ⟨?_, ?_, ?_, ?_, ?_⟩
    · intro m hm
      apply ContinuousAt.continuousWithinAt
      simp only [Set.mem_compl_iff, Set.mem_insert_iff, Set.mem_singleton_iff, not_or] at hm
      rcases lt_or_gt_of_ne hm.1 with h6 | h6
      · refine ((cont 1).continuousAt).congr ?_
        filter_upwards [Iio_mem_nhds h6] with x hx using (lo x (le_of_lt hx)).symm
      · rcases lt_or_gt_of_ne hm.2 with h7 | h7
        · refine ((cont c.gamma_ji).continuousAt).congr ?_
          filter_upwards [Ioo_mem_nhds h6 h7] with x hx using (mid x hx.1 hx.2).symm
        · refine ((cont 1).continuousAt).congr ?_
          filter_upwards [Ioi_mem_nhds h7] with x hx using (hi x (le_of_lt hx)).symm
    · rw [lo 6 le_rfl]
      exact tendsto_left (cont 1).continuousAt fun x hx => lo x hx.le
    · refine ⟨CY14.respR c g.v (g.effZ1 k).val (k.reg = .japan) (CY14.refK c g k c.gamma_ji 6),
        ?_, by rw [lo 6 le_rfl]; exact mono (jump 6)⟩
      · refine (((cont c.gamma_ji).continuousAt).tendsto.mono_left nhdsWithin_le_nhds).congr' ?_
        have : Set.Iio (6.9 : ℝ) ∈ nhdsWithin 6 (Set.Ioi 6) :=
          mem_nhdsWithin_of_mem_nhds (Iio_mem_nhds (by norm_num))
        filter_upwards [self_mem_nhdsWithin, this] with x h1 h2 using (mid x h1 h2).symm
    · rw [hi 6.9 le_rfl]
      exact tendsto_right (cont 1).continuousAt fun x hx => hi x hx.le
    · refine ⟨CY14.respR c g.v (g.effZ1 k).val (k.reg = .japan) (CY14.refK c g k c.gamma_ji 6.9),
        ?_, by rw [hi 6.9 le_rfl]; exact mono (jump 6.9)⟩
      · refine (((cont c.gamma_ji).continuousAt).tendsto.mono_left nhdsWithin_le_nhds).congr' ?_
        have : Set.Ioi (6 : ℝ) ∈ nhdsWithin 6.9 (Set.Iio 6.9) :=
          mem_nhdsWithin_of_mem_nhds (Ioi_mem_nhds (by norm_num))
        filter_upwards [self_mem_nhdsWithin, this] with x h1 h2 using (mid x h2 h1).symm

/-! ### Instances -/

namespace CY14

/-- a strike-slip scenario with everything optional left out -/
noncomputable def exG : Given := { mag := 6.5, rup := 20, jb := 20, x := -20, dip := 90, v := 760 }
@[inherit_doc exG]
noncomputable def exS (g : Given) (region : String) : Scenario :=
  ⟨[("mag", .num g.mag), ("dist_rup", .num g.rup), ("dist_jb", .num g.jb), ("dist_x", .num g.x),
    ("dip", .num g.dip), ("v_s30", .num g.v), ("mechanism", .str "SS"), ("region", .str region)], []⟩

theorem ex_source (g : Given) (h1 : g.tor = none) (h2 : g.z1 = none) (h3 : g.dpp = none) (region : String) :
    Source (exS g region) g := by
  constructor <;> simp [exS, Scenario.get, Dict.get?, Val.ofOpt, h1, h2, h3]

end CY14

example : ∃ o o', Gives CY14.cls (CY14.exS CY14.exG "italy") o ∧
    Gives CY14.cls (CY14.exS { CY14.exG with rup := 50 } "italy") o' ∧
    List.Forall₂ F.Drops o.gmm.lnResp o'.gmm.lnResp :=
  C47_attenuates _ _ CY14.exG 50 (CY14.ex_source _ rfl rfl rfl _) (CY14.ex_source _ rfl rfl rfl _)
    rfl rfl rfl (by simp [CY14.exS, Scenario.get, Dict.get?, Val.isOn])
    (by simp [CY14.exS, Scenario.get, Dict.get?, Val.isOn]) (by norm_num [CY14.exG])
    (by norm_num [CY14.exG]) (by simp [CY14.exG]) (by norm_num [CY14.exG]) (by norm_num [CY14.exG])

example : ∃ o o' sd sd', Gives CY14.cls (CY14.exS { CY14.exG with v := 1200 } "japan") o ∧
    Gives CY14.cls (CY14.exS { CY14.exG with v := 1500 } "japan") o' ∧
    List.Forall₂ F.Same o.gmm.lnResp o'.gmm.lnResp ∧
    o.gmm.lnStd = some sd ∧ o'.gmm.lnStd = some sd' ∧ sd = sd' ∧ o.tau = o'.tau ∧ o.phi = o'.phi :=
  C48_reference _ _ { CY14.exG with v := 1200 } 1500 (CY14.ex_source _ rfl rfl rfl _)
    (CY14.ex_source _ rfl rfl rfl _) rfl rfl rfl rfl rfl (by norm_num [CY14.exG]) (by norm_num) (by norm_num)

example : ∃ o sd, Gives CY14.cls (CY14.exS CY14.exG "china") o ∧ o.gmm.lnStd = some sd ∧ sd.length = 26 := by
  obtain ⟨o, sd, h1, h2, h3, -⟩ := C49_std _ _ (CY14.ex_source CY14.exG rfl rfl rfl "china")
    (by norm_num [CY14.exG])
  exact ⟨o, sd, h1, h2, h3⟩

example : ∃ O : ℝ → CY14.Out, ∀ m, Gives CY14.cls (CY14.exS { CY14.exG with mag := m } "italy") (O m) := by
  obtain ⟨O, h, -⟩ := C65_japan_italy_jumps (fun m => CY14.exS { CY14.exG with mag := m } "italy") CY14.exG
    (CY14.kindOf (CY14.exS CY14.exG "italy")) (fun m => CY14.ex_source _ rfl rfl rfl _) (fun m => rfl)
    (Or.inr (by simp [CY14.kindOf, CY14.exS, Scenario.get, Dict.get?, CY14.regOf]))
    (by norm_num [CY14.exG]) (by norm_num [CY14.exG])
  exact ⟨O, h⟩
