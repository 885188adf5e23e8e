import Verif.Models.BSSA14
import Verif.Bounds
import Verif.Props.Estimators
import Mathlib.Analysis.SpecialFunctions.Pow.Continuity

/-! # C19, C46, C52, C69: Boore, Stewart, Seyhan & Atkinson (2014) -/

open Bounds

set_option linter.unusedSimpArgs false

namespace BSSA14

theorem ok_params : ParamsOk cls.params := by change ParamsOk Decls.bssa14; decide +kernel
theorem nodup : (Decls.bssa14.map Param.name).Nodup := by decide +kernel

/-- numeric inputs of a scenario -/
structure Given where
  mag : ℝ
  jb : ℝ
  v : ℝ
  z1 : Option ℝ := none

/-- `s` holds these numbers (and anything as mechanism and region) -/
structure Source (s : Scenario) (g : Given) : Prop where
  mag : s.get "mag" = .num g.mag
  jb : s.get "dist_jb" = .num g.jb
  v : s.get "v_s30" = .num g.v
  z1 : s.get "depth_1_0" = Val.ofOpt g.z1

noncomputable section

/-- the inputs of the formulas -/
def Given.toIn (g : Given) (mech : Mech) (reg : Reg) : In where
  mag := F.ofReal g.mag
  jb := F.ofReal g.jb
  v := F.ofReal g.v
  z1 := g.z1.map F.ofReal
  mech := mech
  reg := reg
  japanBasin := false

end

theorem mechOf_cat (v : Val) : mechOf (catVal ["U", "SS", "NS", "RS"] (.str "U") v) = mechOf v := by
  unfold catVal
  split
  · rfl
  · rename_i h
    simp only [List.mem_cons, List.not_mem_nil, or_false, exists_eq_or_imp, exists_eq_left, not_or] at h
    simp [mechOf, Val.isStr, h, Lit.toVal]

theorem regOf_cat (v : Val) :
    regOf (catVal ["global", "california", "china", "italy", "japan", "new_zealand", "taiwan", "turkey"]
      (.str "global") v) = regOf v := by
  unfold catVal
  split
  · rfl
  · rename_i h
    simp only [List.mem_cons, List.not_mem_nil, or_false, exists_eq_or_imp, exists_eq_left, not_or] at h
    simp [regOf, Val.isStr, h, Lit.toVal]

theorem regOf_not_ct {v : Val} (h1 : v ≠ .str "china") (h2 : v ≠ .str "turkey") :
    regOf v = .italyJapan ∨ regOf v = .other := by
  have a1 : v.isStr "china" = false := by simp [Val.isStr, h1]
  have a2 : v.isStr "turkey" = false := by simp [Val.isStr, h2]
  unfold regOf
  rw [a1, a2]
  cases v.isStr "italy" <;> cases v.isStr "japan" <;> simp

theorem notice_ok (lo hi m : ℝ) : (notice lo hi (.num m)).res = .ok () := by
  unfold notice
  simp only [Val.lt, Val.gt, Py.pure_bind']
  split <;> rfl

theorem magNotice_ok {s : Scenario} {v : Val} {m : ℝ} (hv : s.getAttr "mechanism" = pure v)
    (hm : s.getAttr "mag" = pure (.num m)) : (magNotice s).res = .ok () := by
  unfold magNotice
  rw [hv, Py.pure_bind', hm, Py.pure_bind']
  split
  · exact notice_ok _ _ _
  split
  · exact notice_ok _ _ _
  · rfl

theorem passes {s : Scenario} {g : Given} (h : Source s g) : ∀ p ∈ cls.params, Passes s p := by
  simp only [cls, Decls.bssa14, List.forall_mem_cons]
  refine ⟨pass_num h.mag, pass_opt h.z1, pass_num h.jb, pass_num h.v, pass_cat_opt, pass_cat_opt,
    fun _ h => by simp at h⟩

/-- Construction from a numeric scenario succeeds with the outputs of the formulas. -/
theorem gives {s : Scenario} {g : Given} (h : Source s g) :
    Gives cls s (out (g.toIn (mechOf (s.get "mechanism")) (regOf (s.get "region")))) := by
  obtain ⟨inst, h1, h2, -⟩ := built_of ok_params s (passes h) (fun _ => True)
    (out (g.toIn (mechOf (s.get "mechanism")) (regOf (s.get "region")))) (by
    intro d hd
    have hn := nodup
    have a1 := Scenario.getAttr_of (Checked.num hd hn (name := "mag") (by mem_tac) h.mag)
    have a2 := Scenario.getAttr_of (Checked.num hd hn (name := "dist_jb") (by mem_tac) h.jb)
    have a3 := Scenario.getAttr_of (Checked.num hd hn (name := "v_s30") (by mem_tac) h.v)
    have b1 := Scenario.getAttr_of (Checked.opt hd hn (name := "depth_1_0") (by mem_tac) h.z1)
    have c1 := Scenario.getAttr_of (Checked.cat_val hd hn (name := "mechanism") (by mem_tac))
    have c2 := Scenario.getAttr_of (Checked.cat_val hd hn (name := "region") (by mem_tac))
    refine ⟨⟨d, []⟩, ?_, trivial, ?_⟩
    · simp only [cls, Py.bind_res_ok (magNotice_ok c1 a1), Py.pure_res]
    · have e : (Val.ofOpt g.z1).isStr "japan" = false := by cases g.z1 <;> simp [Val.ofOpt]
      simp only [cls, Scenario.num_of_num a1, Scenario.num_of_num a2, Scenario.num_of_num a3,
        Scenario.optNum_attr b1, b1, c1, c2, Py.pure_bind', Py.pure_res, mechOf_cat, regOf_cat, e]
      rfl)
  exact ⟨inst, h1, h2⟩

/-! ### The coefficient rows -/

theorem table_length : table.length = 107 := by decide +kernel

/-- facts about the coefficient rows -/
theorem row_facts : ∀ c ∈ table, c.R_ref = 1 ∧ c.M_ref = 4.5 ∧ c.V_ref = 760 ∧ c.f_1 = 0 ∧ c.f_3 = 0.1 ∧
    0 < c.h ∧ c.f_5 < 0 ∧ c.V_1 = 225 ∧ c.V_2 = 300 ∧ 0 < c.R_1 ∧ c.R_1 < c.R_2 ∧ 760 ≤ c.V_c := by
  decide +kernel

theorem basin_facts : ∀ c ∈ table, 0.65 ≤ c.period → 0 < c.f_6 ∧ 0 < c.f_7 ∧ c.f_7 ≤ 0.65 * c.f_6 := by
  decide +kernel

/-- the row of the peak ground acceleration -/
def pgaRow : Row := table[1]'(by rw [table_length]; norm_num)

theorem pgaRow_mem : pgaRow ∈ table := List.getElem_mem _

theorem pgaRef_eq (i : In) : pgaRef i = F.exp (lnResp pgaRow i none) := by
  have h : 1 < table.length := by rw [table_length]; norm_num
  simp only [pgaRef, List.getD_eq_getElem?_getD, List.getElem?_map, List.getElem?_eq_getElem h,
    Option.map_some, Option.getD_some, pgaRow]

theorem casts {c : Row} (hc : c ∈ table) : (c.R_ref : ℝ) = 1 ∧ (c.M_ref : ℝ) = 4.5 ∧ (c.V_ref : ℝ) = 760 ∧
    (c.f_1 : ℝ) = 0 ∧ (c.f_3 : ℝ) = 0.1 ∧ (0 : ℝ) < c.h ∧ (c.f_5 : ℝ) < 0 ∧ (c.V_1 : ℝ) = 225 ∧
    (c.V_2 : ℝ) = 300 ∧ (0 : ℝ) < c.R_1 ∧ (c.R_1 : ℝ) < c.R_2 ∧ (760 : ℝ) ≤ c.V_c := by
  obtain ⟨h1, h2, h3, h4, h5, h6, h7, h8, h9, h10, h11, h12⟩ := row_facts c hc
  refine ⟨by rw [h1]; norm_num, by rw [h2]; norm_num, by rw [h3]; norm_num, by rw [h4]; norm_num,
    by rw [h5]; norm_num, by exact_mod_cast h6, by exact_mod_cast h7, by rw [h8]; norm_num,
    by rw [h9]; norm_num, by exact_mod_cast h10, by exact_mod_cast h11, by exact_mod_cast h12⟩

/-! ### Values of the formulas -/

noncomputable section

/-- effective distance -/
def D (c : Row) (r : ℝ) : ℝ := Real.sqrt (r ^ 2 + (c.h : ℝ) ^ 2)

/-- the event term -/
def eventR (c : Row) (m : ℝ) (mech : Mech) : ℝ :=
  (event0 c mech).val + if m ≤ c.M_h then c.e_4 * (m - c.M_h) + c.e_5 * (m - c.M_h) ^ 2 else c.e_6 * (m - c.M_h)

/-- the path term -/
def pathR (c : Row) (m r : ℝ) (reg : Reg) : ℝ :=
  (c.c_1 + c.c_2 * (m - 4.5)) * Real.log (D c r) + (c.c_3 + dc3 c reg) * (D c r - 1)

/-- logarithm of the reference peak acceleration -/
def refR (m r : ℝ) (mech : Mech) (reg : Reg) : ℝ := eventR pgaRow m mech + pathR pgaRow m r reg

/-- strength of the nonlinearity -/
def f2R (c : Row) (v : ℝ) : ℝ :=
  c.f_4 * (Real.exp (c.f_5 * (min v 760 - 360)) - Real.exp (c.f_5 * (760 - 360)))

/-- the basin term -/
def basinR (c : Row) (v : ℝ) (z1 : Option ℝ) : ℝ :=
  if 0.65 ≤ c.period then
    min (c.f_6 * (z1.elim 0 fun z => z - (CY14.calcDepth10 (F.ofReal v) false).val)) c.f_7
  else 0

end

theorem depth_facts {v : ℝ} (hv : 0 ≤ v) :
    (CY14.calcDepth10 (F.ofReal v) false).ok ∧ 0 < (CY14.calcDepth10 (F.ofReal v) false).val :=
  (C59_depth_1_0 (fun v => CY14.calcDepth10 v false) (by simp)).1 v hv

theorem D_pos {c : Row} (hc : c ∈ table) (r : ℝ) : 0 < D c r := by
  obtain ⟨-, -, -, -, -, h, -⟩ := casts hc
  exact Real.sqrt_pos.2 (by positivity)

theorem event_facts (c : Row) (m : ℝ) (mech : Mech) :
    (event c (F.ofReal m) mech).ok ∧ (event c (F.ofReal m) mech).val = eventR c m mech := by
  have h0 : (event0 c mech).ok := by cases mech <;> simp [event0]
  constructor
  · simp only [event, fsimp, h0]
    simp
  · simp only [event, eventR, fsimp]

theorem path_facts {c : Row} (hc : c ∈ table) (m r : ℝ) (reg : Reg) :
    (path c (F.ofReal m) (F.ofReal r) reg).ok ∧
      (path c (F.ofReal m) (F.ofReal r) reg).val = pathR c m r reg := by
  obtain ⟨h1, h2, -⟩ := casts hc
  have hD := D_pos hc r
  unfold D at hD
  constructor
  · simp only [path, dist, fsimp, h1, div_one]
    exact ⟨⟨⟨by positivity, by norm_num⟩, hD⟩, by positivity⟩
  · simp only [path, dist, pathR, D, fsimp, h1, h2, div_one]

theorem base_facts {c : Row} (hc : c ∈ table) (g : Given) (mech : Mech) (reg : Reg) :
    (lnResp c (g.toIn mech reg) none).ok ∧ (lnResp c (g.toIn mech reg) none).val =
      eventR c g.mag mech + pathR c g.mag g.jb reg := by
  have h1 := event_facts c g.mag mech
  have h2 := path_facts hc g.mag g.jb reg
  constructor
  · simp only [lnResp, Given.toIn, fsimp, h1.1, h2.1]
  · simp only [lnResp, Given.toIn, fsimp, h1.2, h2.2, add_zero]

theorem pgaRef_facts (g : Given) (mech : Mech) (reg : Reg) :
    (pgaRef (g.toIn mech reg)).ok ∧ (pgaRef (g.toIn mech reg)).val = Real.exp (refR g.mag g.jb mech reg) := by
  have h := base_facts pgaRow_mem g mech reg
  rw [pgaRef_eq]
  refine ⟨by simp only [fsimp, h.1], by simp only [fsimp, h.2]; rfl⟩

theorem fDz1_facts (c : Row) {v : ℝ} (hv : 0 < v) (z1 : Option ℝ) :
    (fDz1 c (F.ofReal v) (z1.map F.ofReal) false).ok ∧
    (fDz1 c (F.ofReal v) (z1.map F.ofReal) false).val = basinR c v z1 := by
  obtain ⟨h1, h2⟩ := depth_facts hv.le
  unfold fDz1 basinR
  by_cases hp : 0.65 ≤ c.period
  · rw [if_pos hp, if_pos hp]
    cases z1 with
    | none => simp
    | some z => simp [h1, h2, Real.exp_log h2]
  · rw [if_neg hp, if_neg hp]
    simp

theorem siteTerm_facts {c : Row} (hc : c ∈ table) {p : F} (hp : p.ok) {v : ℝ} (hv : 0 < v)
    (hp0 : 0 < p.val) (z1 : Option ℝ) :
    (siteTerm c p (F.ofReal v) (z1.map F.ofReal) false).ok ∧
    (siteTerm c p (F.ofReal v) (z1.map F.ofReal) false).val =
      c.c * Real.log (min v c.V_c / 760) + f2R c v * Real.log ((p.val + 0.1) / 0.1) + basinR c v z1 := by
  obtain ⟨-, -, h3, h4, h5, -, -, -, -, -, -, h12⟩ := casts hc
  have hb := fDz1_facts c hv z1
  have hm : 0 < min v (c.V_c : ℝ) := lt_min hv (by linarith)
  constructor
  · simp only [siteTerm, fLin, fNl, f2, fsimp, hb.1, hp, h3, h5]
    have : 0 < min v (c.V_c : ℝ) / 760 := by positivity
    exact ⟨⟨by norm_num, this⟩, by norm_num, by positivity⟩
  · simp only [siteTerm, fLin, fNl, f2, f2R, fsimp, hb.2, h3, h4, h5, zero_add]

/-- every prediction, in closed form -/
theorem resp_facts {c : Row} (hc : c ∈ table) (g : Given) (hv : 0 < g.v) (mech : Mech) (reg : Reg) :
    (lnResp c (g.toIn mech reg) (some (pgaRef (g.toIn mech reg)))).ok ∧
    (lnResp c (g.toIn mech reg) (some (pgaRef (g.toIn mech reg)))).val =
      eventR c g.mag mech + pathR c g.mag g.jb reg + (c.c * Real.log (min g.v c.V_c / 760) +
        f2R c g.v * Real.log ((Real.exp (refR g.mag g.jb mech reg) + 0.1) / 0.1) + basinR c g.v g.z1) := by
  have h1 := event_facts c g.mag mech
  have h2 := path_facts hc g.mag g.jb reg
  have h3 := pgaRef_facts g mech reg
  have h4 := siteTerm_facts hc h3.1 hv (by rw [h3.2]; exact Real.exp_pos _) g.z1
  rw [h3.2] at h4
  generalize pgaRef (g.toIn mech reg) = p at h4
  constructor
  · have := h4.1
    simp only [lnResp, Given.toIn, fsimp, h1.1, h2.1]; simp only [this, and_self]
  · have := h4.2
    simp only [lnResp, Given.toIn, fsimp, h1.2, h2.2]; rw [this]

theorem out_resp (i : In) {k : ℕ} (hk : k < table.length) :
    (out i).gmm.resp k = (lnResp (table[k]'hk) i (some (pgaRef i))).val := by
  simp only [GmmOut.resp, out, List.getD_eq_getElem?_getD, List.getElem?_map,
    List.getElem?_eq_getElem hk, Option.map_some, Option.getD_some]

theorem out_ok (g : Given) (hv : 0 < g.v) (mech : Mech) (reg : Reg) :
    ∀ y ∈ (out (g.toIn mech reg)).gmm.lnResp, y.ok := by
  intro y hy
  simp only [out, List.mem_map] at hy
  obtain ⟨c, hc, rfl⟩ := hy
  exact (resp_facts hc g hv mech reg).1

/-! ### Attenuation -/

/-- rational certificate: the slope of the path term of row `c`, less `q` times that of the
reference acceleration, is negative for effective distances up to `d` and velocities from `v0` -/
def attGood (c : Row) (reg : Reg) (d v0 : ℚ) : Prop :=
  let p := pgaRow
  let q := max 0 (-c.f_4) * expHi (-c.f_5 * (360 - v0))
  let k := max 1 (c.h / p.h);
  -c.f_5 * (360 - v0) ≤ 8 ∧
  ∀ m ∈ [(3 : ℚ), 8.5], ∀ x ∈ [0, d],
    c.c_1 + c.c_2 * (m - 4.5) + (c.c_3 + dc3 c reg) * x +
      q * (-(p.c_1 + p.c_2 * (m - 4.5)) * k ^ 2 - (p.c_3 + dc3 p reg) * k * x) < 0

instance (c : Row) (reg : Reg) (d v0 : ℚ) : Decidable (attGood c reg d v0) := by
  unfold attGood; infer_instance

theorem rows_global : ∀ c ∈ table, attGood c .other 300.2 250 := by decide +kernel
theorem rows_ij : ∀ c ∈ table, attGood c .italyJapan 300.2 250 := by decide +kernel
theorem rows_ct : ∀ c ∈ table, attGood c .chinaTurkey 100.5 250 := by decide +kernel
theorem row_pga : ∀ reg ∈ [Reg.chinaTurkey, .italyJapan, .other], attGood pgaRow reg 300.2 150 := by
  decide +kernel
/-- the reference acceleration itself attenuates -/
theorem pga_slopes : ∀ reg ∈ [Reg.chinaTurkey, .italyJapan, .other], pgaRow.c_3 + dc3 pgaRow reg < 0 ∧
    pgaRow.c_1 + pgaRow.c_2 * (3 - 4.5) < 0 ∧ pgaRow.c_1 + pgaRow.c_2 * (8.5 - 4.5) < 0 := by
  decide +kernel
theorem h_bound : ∀ c ∈ table, c.h ≤ 9.7 := by decide +kernel

theorem D_le {c : Row} (hc : c ∈ table) {r a b : ℝ} (h0 : 0 ≤ r) (hr : r ≤ a) (hb : 0 ≤ b)
    (hab : a ^ 2 + 9.7 ^ 2 ≤ b ^ 2) : D c r ≤ b := by
  obtain ⟨-, -, -, -, -, h, -⟩ := casts hc
  have hh : (c.h : ℝ) ≤ 9.7 := by
    have : ((c.h : ℚ) : ℝ) ≤ ((9.7 : ℚ) : ℝ) := by exact_mod_cast h_bound c hc
    push_cast at this; norm_num at this ⊢; exact this
  unfold D
  rw [Real.sqrt_le_left hb]
  nlinarith

theorem D_deriv {c : Row} (hc : c ∈ table) (r : ℝ) : HasDerivAt (D c) (r / D c r) r := by
  have hD := D_pos hc r
  have hq : HasDerivAt (fun r : ℝ => r ^ 2 + (c.h : ℝ) ^ 2) (2 * r) r := by
    simpa using (hasDerivAt_pow 2 r).add_const ((c.h : ℝ) ^ 2)
  have hne : r ^ 2 + (c.h : ℝ) ^ 2 ≠ 0 := by
    obtain ⟨-, -, -, -, -, h, -⟩ := casts hc
    positivity
  have := hq.sqrt hne
  refine this.congr_deriv ?_
  change 2 * r / (2 * D c r) = r / D c r
  field_simp

theorem path_deriv {c : Row} (hc : c ∈ table) (m : ℝ) (reg : Reg) (r : ℝ) :
    HasDerivAt (fun r => pathR c m r reg)
      (r / D c r ^ 2 * (c.c_1 + c.c_2 * (m - 4.5) + (c.c_3 + dc3 c reg) * D c r)) r := by
  have hD := D_pos hc r
  have h1 := D_deriv hc r
  have h2 := ((h1.log hD.ne').const_mul ((c.c_1 : ℝ) + c.c_2 * (m - 4.5))).add
    ((h1.sub_const 1).const_mul ((c.c_3 : ℝ) + dc3 c reg))
  refine h2.congr_deriv ?_
  field_simp

/-- distance ratio between two rows -/
theorem D_ratio {c p : Row} (hc : c ∈ table) (hp : p ∈ table) (r : ℝ) {k : ℝ} (h1 : 1 ≤ k)
    (hk : (c.h : ℝ) / p.h ≤ k) : D c r ≤ k * D p r := by
  obtain ⟨-, -, -, -, -, hh, -⟩ := casts hc
  obtain ⟨-, -, -, -, -, hh', -⟩ := casts hp
  rw [div_le_iff₀ hh'] at hk
  unfold D
  rw [Real.sqrt_le_left (by positivity), mul_pow, Real.sq_sqrt (by positivity)]
  have : 1 ≤ k ^ 2 := by nlinarith
  have h2 : (c.h : ℝ) ^ 2 ≤ k ^ 2 * (p.h : ℝ) ^ 2 := by
    rw [← mul_pow]; exact pow_le_pow_left₀ hh.le hk 2
  nlinarith [mul_le_mul_of_nonneg_right this (sq_nonneg r)]

theorem reg_mem (reg : Reg) : reg ∈ [Reg.chinaTurkey, .italyJapan, .other] := by cases reg <;> simp

theorem pga_neg {m : ℝ} (hm : m ∈ Set.Icc (3 : ℝ) 8.5) (reg : Reg) :
    (pgaRow.c_1 : ℝ) + pgaRow.c_2 * (m - 4.5) < 0 ∧ (pgaRow.c_3 : ℝ) + dc3 pgaRow reg < 0 := by
  obtain ⟨h1, h2, h3⟩ := pga_slopes reg (reg_mem reg)
  have h1' : (pgaRow.c_3 : ℝ) + dc3 pgaRow reg < 0 := by exact_mod_cast h1
  have h2' : ((pgaRow.c_1 + pgaRow.c_2 * (3 - 4.5) : ℚ) : ℝ) < ((0 : ℚ) : ℝ) := by exact_mod_cast h2
  have h3' : ((pgaRow.c_1 + pgaRow.c_2 * (8.5 - 4.5) : ℚ) : ℝ) < ((0 : ℚ) : ℝ) := by exact_mod_cast h3
  push_cast at h2' h3'
  refine ⟨?_, h1'⟩
  have := linear_neg (p := (pgaRow.c_1 : ℝ) - 4.5 * pgaRow.c_2) (q := pgaRow.c_2) hm
    (by norm_num at h2' ⊢; linarith) (by norm_num at h3' ⊢; linarith)
  linarith

theorem pga_drop {m : ℝ} (hm : m ∈ Set.Icc (3 : ℝ) 8.5) (reg : Reg) {r r' : ℝ} (h0 : 0 ≤ r) (h : r < r') :
    pathR pgaRow m r' reg < pathR pgaRow m r reg := by
  obtain ⟨h1, h2⟩ := pga_neg hm reg
  refine strictAntiOn_Icc (fun x _ => path_deriv pgaRow_mem m reg x) (fun x hx => ?_)
    (Set.left_mem_Icc.2 h.le) (Set.right_mem_Icc.2 h.le) h
  have hD := D_pos pgaRow_mem x
  have hx0 : 0 < x := lt_of_le_of_lt h0 hx.1
  refine mul_neg_of_pos_of_neg (by positivity) ?_
  nlinarith [mul_pos_of_neg_of_neg h2 (neg_neg_of_pos hD)]

theorem att_drop {c : Row} (hc : c ∈ table) {reg : Reg} {d v0 : ℚ} (hv0 : v0 ≤ 360) (hg : attGood c reg d v0)
    {m : ℝ} (hm : m ∈ Set.Icc (3 : ℝ) 8.5) {r r' a : ℝ} (h0 : 0 ≤ r) (h : r < r') (hr' : r' ≤ a)
    (hd : (0 : ℝ) ≤ d) (had : a ^ 2 + 9.7 ^ 2 ≤ (d : ℝ) ^ 2) :
    ∃ q : ℝ, 0 ≤ q ∧ max 0 (-c.f_4 : ℝ) * Real.exp (-c.f_5 * (360 - v0)) ≤ q ∧
      pathR c m r' reg - pathR c m r reg + q * (pathR pgaRow m r reg - pathR pgaRow m r' reg) < 0 := by
  obtain ⟨hg8, hg⟩ := hg
  have hf5 : c.f_5 < 0 := (row_facts c hc).2.2.2.2.2.2.1
  have hx0 : 0 ≤ -c.f_5 * (360 - v0) := mul_nonneg (by linarith) (by linarith)
  have he := le_expHi hx0 hg8
  have hepos : (0 : ℝ) ≤ expHi (-c.f_5 * (360 - v0)) := (Real.exp_pos _).le.trans he
  set qq : ℚ := max 0 (-c.f_4) * expHi (-c.f_5 * (360 - v0)) with hqq
  set k : ℚ := max 1 (c.h / pgaRow.h) with hk
  have hq : (qq : ℝ) = max 0 (-c.f_4 : ℝ) * expHi (-c.f_5 * (360 - v0)) := by
    rw [hqq]; push_cast; ring
  have hq0 : (0 : ℝ) ≤ qq := by rw [hq]; exact mul_nonneg (le_max_left _ _) hepos
  refine ⟨qq, hq0, ?_, ?_⟩
  · rw [hq]
    apply mul_le_mul_of_nonneg_left _ (le_max_left _ _)
    push_cast at he
    exact he
  have hk1 : (1 : ℝ) ≤ k := by
    have : (1 : ℚ) ≤ k := le_max_left _ _
    exact_mod_cast this
  have hkh : (c.h : ℝ) / pgaRow.h ≤ k := by
    have : c.h / pgaRow.h ≤ k := le_max_right _ _
    exact_mod_cast this
  have hall : ∀ m ∈ Set.Icc (3 : ℝ) 8.5, ∀ x ∈ Set.Icc (0 : ℝ) d,
      (c.c_1 : ℝ) + c.c_2 * (m - 4.5) + (c.c_3 + dc3 c reg) * x +
      qq * (-((pgaRow.c_1 : ℝ) + pgaRow.c_2 * (m - 4.5)) * k ^ 2 - (pgaRow.c_3 + dc3 pgaRow reg) * k * x) < 0 := by
    have corner : ∀ m ∈ [(3 : ℚ), 8.5], ∀ x ∈ [0, d],
      (c.c_1 : ℝ) + c.c_2 * ((m : ℝ) - 4.5) + (c.c_3 + dc3 c reg) * x +
      qq * (-((pgaRow.c_1 : ℝ) + pgaRow.c_2 * ((m : ℝ) - 4.5)) * k ^ 2 - (pgaRow.c_3 + dc3 pgaRow reg) * k * x) < 0 := by
      intro m hm x hx
      have h1 : ((c.c_1 + c.c_2 * (m - 4.5) + (c.c_3 + dc3 c reg) * x +
        qq * (-(pgaRow.c_1 + pgaRow.c_2 * (m - 4.5)) * k ^ 2 - (pgaRow.c_3 + dc3 pgaRow reg) * k * x) : ℚ) : ℝ)
        < ((0 : ℚ) : ℝ) := by exact_mod_cast hg m hm x hx
      push_cast at h1
      norm_num at h1 ⊢
      exact h1
    have edge : ∀ m ∈ [(3 : ℚ), 8.5], ∀ x ∈ Set.Icc (0 : ℝ) d,
      (c.c_1 : ℝ) + c.c_2 * ((m : ℝ) - 4.5) + (c.c_3 + dc3 c reg) * x +
      qq * (-((pgaRow.c_1 : ℝ) + pgaRow.c_2 * ((m : ℝ) - 4.5)) * k ^ 2 - (pgaRow.c_3 + dc3 pgaRow reg) * k * x) < 0 := by
      intro m hm x hx
      have c1 := corner m hm 0 (by simp)
      have c2 := corner m hm d (by simp)
      push_cast at c1
      have := linear_neg (p := (c.c_1 : ℝ) + c.c_2 * ((m : ℝ) - 4.5) +
        qq * (-((pgaRow.c_1 : ℝ) + pgaRow.c_2 * ((m : ℝ) - 4.5)) * k ^ 2))
        (q := (c.c_3 : ℝ) + dc3 c reg - qq * ((pgaRow.c_3 + dc3 pgaRow reg) * k)) hx
        (by linarith) (by linarith)
      linarith
    intro m hm x hx
    have e1 := edge 3 (by simp) x hx
    have e2 := edge 8.5 (by simp) x hx
    have := linear_neg (p := (c.c_1 : ℝ) - 4.5 * c.c_2 + (c.c_3 + dc3 c reg) * x +
        qq * (-((pgaRow.c_1 : ℝ) - 4.5 * pgaRow.c_2) * k ^ 2 - (pgaRow.c_3 + dc3 pgaRow reg) * k * x))
        (q := (c.c_2 : ℝ) - qq * (pgaRow.c_2 * k ^ 2)) hm
        (by push_cast at e1; linarith) (by norm_num at e2 ⊢; linarith)
    linarith
  have hanti : StrictAntiOn (fun r => pathR c m r reg - qq * pathR pgaRow m r reg) (Set.Icc r r') := by
    refine strictAntiOn_Icc (fun x _ => (path_deriv hc m reg x).sub
      ((path_deriv pgaRow_mem m reg x).const_mul (qq : ℝ))) (fun x hx => ?_)
    have hx0 : 0 < x := lt_of_le_of_lt h0 hx.1
    have hD := D_pos hc x
    have hP := D_pos pgaRow_mem x
    have hDd : D c x ≤ d := D_le hc hx0.le (hx.2.le.trans hr') hd had
    have hkD := D_ratio hc pgaRow_mem x hk1 hkh
    obtain ⟨p1, p2⟩ := pga_neg hm reg
    have hmain := hall m hm (D c x) ⟨hD.le, hDd⟩
    set A := (c.c_1 : ℝ) + c.c_2 * (m - 4.5)
    set B := (c.c_3 : ℝ) + dc3 c reg
    set A' := (pgaRow.c_1 : ℝ) + pgaRow.c_2 * (m - 4.5)
    set B' := (pgaRow.c_3 : ℝ) + dc3 pgaRow reg
    set X := D c x
    set Y := D pgaRow x
    have hxy : X / Y ≤ k := by rw [div_le_iff₀ hP]; exact hkD
    have hxy0 : 0 < X / Y := by positivity
    have hsq : (X / Y) ^ 2 ≤ (k : ℝ) ^ 2 := pow_le_pow_left₀ hxy0.le hxy 2
    have e : x / X ^ 2 * (A + B * X) - qq * (x / Y ^ 2 * (A' + B' * Y)) =
        x / X ^ 2 * (A + B * X + qq * (-A' * (X / Y) ^ 2 - B' * (X / Y) * X)) := by
      field_simp
      ring
    rw [e]
    refine mul_neg_of_pos_of_neg (by positivity) (lt_of_le_of_lt ?_ hmain)
    have t1 : -A' * (X / Y) ^ 2 ≤ -A' * (k : ℝ) ^ 2 := mul_le_mul_of_nonneg_left hsq (by linarith)
    have t2 : -B' * (X / Y) * X ≤ -B' * (k : ℝ) * X :=
      mul_le_mul_of_nonneg_right (mul_le_mul_of_nonneg_left hxy (by linarith)) hD.le
    have := mul_le_mul_of_nonneg_left (add_le_add t1 t2) hq0
    linarith
  have := hanti (Set.left_mem_Icc.2 h.le) (Set.right_mem_Icc.2 h.le) h
  simp only at this
  linarith

theorem f2_bound {c : Row} (hc : c ∈ table) {v0 : ℚ} (h7 : v0 ≤ 760) {v : ℝ} (hv : (v0 : ℝ) ≤ v) :
    -f2R c v ≤ max 0 (-c.f_4 : ℝ) * Real.exp (-c.f_5 * (360 - v0)) := by
  obtain ⟨-, -, -, -, -, -, h5, -⟩ := casts hc
  have h7' : (v0 : ℝ) ≤ 760 := by exact_mod_cast h7
  have hm : (v0 : ℝ) ≤ min v 760 := le_min hv h7'
  have hm' : min v 760 ≤ (760 : ℝ) := min_le_right _ _
  have e1 : Real.exp (c.f_5 * (min v 760 - 360)) ≤ Real.exp (-c.f_5 * (360 - v0)) := by
    apply Real.exp_le_exp.2; nlinarith
  have e2 : Real.exp ((c.f_5 : ℝ) * (760 - 360)) ≤ Real.exp (c.f_5 * (min v 760 - 360)) := by
    apply Real.exp_le_exp.2; nlinarith
  have e3 := Real.exp_pos ((c.f_5 : ℝ) * (760 - 360))
  have hx : 0 ≤ Real.exp (c.f_5 * (min v 760 - 360)) - Real.exp ((c.f_5 : ℝ) * (760 - 360)) := by linarith
  unfold f2R
  calc -((c.f_4 : ℝ) * (Real.exp (c.f_5 * (min v 760 - 360)) - Real.exp (c.f_5 * (760 - 360))))
      = (-c.f_4 : ℝ) * (Real.exp (c.f_5 * (min v 760 - 360)) - Real.exp (c.f_5 * (760 - 360))) := by ring
    _ ≤ max 0 (-c.f_4 : ℝ) * (Real.exp (c.f_5 * (min v 760 - 360)) - Real.exp (c.f_5 * (760 - 360))) :=
        mul_le_mul_of_nonneg_right (le_max_right _ _) hx
    _ ≤ _ := mul_le_mul_of_nonneg_left (by linarith) (le_max_left _ _)

theorem resp_drop {c : Row} (hc : c ∈ table) {reg : Reg} {d v0 : ℚ} (hv0 : 0 < v0) (hv3 : v0 ≤ 360)
    (hg : attGood c reg d v0) (g : Given) (mech : Mech) (hm : g.mag ∈ Set.Icc (3 : ℝ) 8.5) {r' a : ℝ}
    (h0 : 0 ≤ g.jb) (h : g.jb < r') (hr' : r' ≤ a) (hd : (0 : ℝ) ≤ d) (had : a ^ 2 + 9.7 ^ 2 ≤ (d : ℝ) ^ 2)
    (hv : (v0 : ℝ) ≤ g.v) :
    F.Drops (lnResp c (g.toIn mech reg) (some (pgaRef (g.toIn mech reg))))
      (lnResp c (({ g with jb := r' } : Given).toIn mech reg)
        (some (pgaRef (({ g with jb := r' } : Given).toIn mech reg)))) := by
  have hv00 : (0 : ℝ) < v0 := by exact_mod_cast hv0
  have hvp : 0 < g.v := lt_of_lt_of_le hv00 hv
  obtain ⟨a1, a2⟩ := resp_facts hc g hvp mech reg
  obtain ⟨b1, b2⟩ := resp_facts hc { g with jb := r' } hvp mech reg
  refine ⟨a1, b1, ?_⟩
  rw [a2, b2]
  simp only
  obtain ⟨q, hq0, hq, hlt⟩ := att_drop hc hv3 hg hm h0 h hr' hd had
  have hf := (f2_bound hc (by linarith) hv).trans hq
  have hp := pga_drop hm reg h0 h
  have hL := log_exp_add (x' := refR g.mag r' mech reg) (x := refR g.mag g.jb mech reg) (k := 0.1)
    (by unfold refR; linarith) (by norm_num)
  have n1 : ∀ x : ℝ, Real.exp x + 0.1 ≠ 0 := fun x => by have := Real.exp_pos x; positivity
  rw [Real.log_div (n1 _) (by norm_num), Real.log_div (n1 _) (by norm_num)]
  set L := Real.log (Real.exp (refR g.mag g.jb mech reg) + 0.1)
  set L' := Real.log (Real.exp (refR g.mag r' mech reg) + 0.1)
  have e : refR g.mag g.jb mech reg - refR g.mag r' mech reg =
      pathR pgaRow g.mag g.jb reg - pathR pgaRow g.mag r' reg := by unfold refR; ring
  rw [e] at hL
  have t1 : -f2R c g.v * (L - L') ≤ q * (L - L') := mul_le_mul_of_nonneg_right hf hL.1
  have t2 := mul_le_mul_of_nonneg_left hL.2 hq0
  nlinarith

end BSSA14

/-- Attenuation with `dist_jb` from 0 to 300 km, for magnitudes 3 to 8.5 and any mechanism and
basin depth.  PGA (row 1) strictly decreases in every region from `v_s30` 150 m/s on.  From
250 m/s on all 107 ordinates (PGV, PGA, PSA) strictly decrease for every region but china and
turkey, and for those two up to 100 km. -/
theorem C52_attenuates (s s' : Scenario) (g : BSSA14.Given) (r' : ℝ) (h : BSSA14.Source s g)
    (h' : BSSA14.Source s' { g with jb := r' })
    (hk : ∀ k ∈ ["mechanism", "region"], s'.get k = s.get k)
    (hm : g.mag ∈ Set.Icc (3 : ℝ) 8.5) (h0 : 0 ≤ g.jb) (hr : g.jb < r') (hr' : r' ≤ 300) (hv : 150 ≤ g.v) :
    ∃ o o', Gives BSSA14.cls s o ∧ Gives BSSA14.cls s' o' ∧ o.gmm.lnResp.length = 107 ∧
      F.Drops (o.gmm.lnResp.getD 1 F.nan) (o'.gmm.lnResp.getD 1 F.nan) ∧
      (250 ≤ g.v → (s.get "region" ≠ .str "china" ∧ s.get "region" ≠ .str "turkey" ∨ r' ≤ 100) →
        List.Forall₂ F.Drops o.gmm.lnResp o'.gmm.lnResp) := by
  have e1 : s'.get "mechanism" = s.get "mechanism" := hk _ (by simp)
  have e2 : s'.get "region" = s.get "region" := hk _ (by simp)
  have g1 := BSSA14.gives h
  have g2 := BSSA14.gives h'
  rw [e1, e2] at g2
  refine ⟨_, _, g1, g2, by simp [BSSA14.out, BSSA14.table_length], ?_, ?_⟩
  · have hi : 1 < BSSA14.table.length := by rw [BSSA14.table_length]; norm_num
    simp only [BSSA14.out, List.getD_eq_getElem?_getD, List.getElem?_map,
      List.getElem?_eq_getElem hi, Option.map_some, Option.getD_some]
    exact BSSA14.resp_drop BSSA14.pgaRow_mem (by norm_num) (by norm_num) (BSSA14.row_pga _ (BSSA14.reg_mem _))
      g _ hm h0 hr hr' (by norm_num) (by norm_num) (by norm_num; exact hv)
  · intro hv2 hreg
    simp only [BSSA14.out]
    refine forall₂_map fun c hc => ?_
    rcases hreg with ⟨n1, n2⟩ | h100
    · have hne : BSSA14.regOf (s.get "region") = .italyJapan ∨ BSSA14.regOf (s.get "region") = .other := by
        exact BSSA14.regOf_not_ct n1 n2
      rcases hne with e | e <;> rw [e]
      · exact BSSA14.resp_drop hc (by norm_num) (by norm_num) (BSSA14.rows_ij c hc)
          g _ hm h0 hr hr' (by norm_num) (by norm_num) (by norm_num; exact hv2)
      · exact BSSA14.resp_drop hc (by norm_num) (by norm_num) (BSSA14.rows_global c hc)
          g _ hm h0 hr hr' (by norm_num) (by norm_num) (by norm_num; exact hv2)
    · generalize BSSA14.regOf (s.get "region") = reg
      cases reg
      · exact BSSA14.resp_drop hc (by norm_num) (by norm_num) (BSSA14.rows_ct c hc)
          g _ hm h0 hr h100 (by norm_num) (by norm_num) (by norm_num; exact hv2)
      · exact BSSA14.resp_drop hc (by norm_num) (by norm_num) (BSSA14.rows_ij c hc)
          g _ hm h0 hr hr' (by norm_num) (by norm_num) (by norm_num; exact hv2)
      · exact BSSA14.resp_drop hc (by norm_num) (by norm_num) (BSSA14.rows_global c hc)
          g _ hm h0 hr hr' (by norm_num) (by norm_num) (by norm_num; exact hv2)

namespace BSSA14

/-- the 10 s row -/
def lastRow : Row := table[106]'(by rw [table_length]; norm_num)

theorem lastRow_mem : lastRow ∈ table := List.getElem_mem _

/-- far from a large earthquake its path term rises with distance under the china/turkey
adjustment -/
theorem last_slope : lastRow.period = 10 ∧ 0 < lastRow.c_3 + dc3 lastRow .chinaTurkey ∧
    ∀ m ∈ [(8 : ℚ), 8.5], 0 < lastRow.c_1 + lastRow.c_2 * (m - 4.5) +
      (lastRow.c_3 + dc3 lastRow .chinaTurkey) * 265 := by decide +kernel

theorem last_rise {m : ℝ} (hm : m ∈ Set.Icc (8 : ℝ) 8.5) {r r' : ℝ} (h0 : 265 ≤ r) (h : r < r') :
    pathR lastRow m r .chinaTurkey < pathR lastRow m r' .chinaTurkey := by
  obtain ⟨-, hb, hc⟩ := last_slope
  have hb' : (0 : ℝ) < lastRow.c_3 + dc3 lastRow .chinaTurkey := by exact_mod_cast hb
  have c1 : ((0 : ℚ) : ℝ) < ((lastRow.c_1 + lastRow.c_2 * (8 - 4.5) +
      (lastRow.c_3 + dc3 lastRow .chinaTurkey) * 265 : ℚ) : ℝ) := by exact_mod_cast hc 8 (by simp)
  have c2 : ((0 : ℚ) : ℝ) < ((lastRow.c_1 + lastRow.c_2 * (8.5 - 4.5) +
      (lastRow.c_3 + dc3 lastRow .chinaTurkey) * 265 : ℚ) : ℝ) := by exact_mod_cast hc 8.5 (by simp)
  push_cast at c1 c2
  have hlin := linear_pos (p := (lastRow.c_1 : ℝ) - 4.5 * lastRow.c_2 +
      (lastRow.c_3 + dc3 lastRow .chinaTurkey) * 265) (q := lastRow.c_2) hm
    (by norm_num at c1 ⊢; linarith) (by norm_num at c2 ⊢; linarith)
  refine strictMonoOn_Icc (fun x _ => path_deriv lastRow_mem m .chinaTurkey x) (fun x hx => ?_)
    (Set.left_mem_Icc.2 h.le) (Set.right_mem_Icc.2 h.le) h
  have hD := D_pos lastRow_mem x
  have hx0 : 265 < x := lt_of_le_of_lt h0 hx.1
  have hDx : 265 ≤ D lastRow x := by
    refine hx0.le.trans (Real.le_sqrt_of_sq_le ?_)
    have := sq_nonneg (lastRow.h : ℝ)
    linarith
  refine mul_pos (by positivity) ?_
  nlinarith [mul_le_mul_of_nonneg_left hDx hb'.le]

theorem f2R_rock (c : Row) {v : ℝ} (hv : 760 ≤ v) : f2R c v = 0 := by
  unfold f2R
  rw [min_eq_right hv, sub_self, mul_zero]

end BSSA14

/-- In china and turkey the 10 s ordinate (the last row) does not attenuate: on rock, for
magnitudes 8 to 8.5, it strictly increases with `dist_jb` from 265 km on. -/
theorem C52_china_turkey_rises (s s' : Scenario) (g : BSSA14.Given) (r' : ℝ) (h : BSSA14.Source s g)
    (h' : BSSA14.Source s' { g with jb := r' }) (hk : s'.get "mechanism" = s.get "mechanism")
    (hreg : s.get "region" = .str "china" ∨ s.get "region" = .str "turkey")
    (hreg' : s'.get "region" = .str "china" ∨ s'.get "region" = .str "turkey")
    (hm : g.mag ∈ Set.Icc (8 : ℝ) 8.5) (h0 : 265 ≤ g.jb) (hr : g.jb < r') (hv : 760 ≤ g.v) :
    ∃ o o', Gives BSSA14.cls s o ∧ Gives BSSA14.cls s' o' ∧
      F.Drops (o'.gmm.lnResp.getD 106 F.nan) (o.gmm.lnResp.getD 106 F.nan) := by
  have e : ∀ v : Val, (v = .str "china" ∨ v = .str "turkey") → BSSA14.regOf v = .chinaTurkey := by
    rintro v (rfl | rfl) <;> simp [BSSA14.regOf]
  have g1 := BSSA14.gives h
  have g2 := BSSA14.gives h'
  rw [e _ hreg] at g1
  rw [e _ hreg', hk] at g2
  refine ⟨_, _, g1, g2, ?_⟩
  have hi : 106 < BSSA14.table.length := by rw [BSSA14.table_length]; norm_num
  simp only [BSSA14.out, List.getD_eq_getElem?_getD, List.getElem?_map,
    List.getElem?_eq_getElem hi, Option.map_some, Option.getD_some]
  obtain ⟨a1, a2⟩ := BSSA14.resp_facts BSSA14.lastRow_mem g (by linarith)
    (BSSA14.mechOf (s.get "mechanism")) .chinaTurkey
  obtain ⟨b1, b2⟩ := BSSA14.resp_facts BSSA14.lastRow_mem { g with jb := r' } (by simp only; linarith)
    (BSSA14.mechOf (s.get "mechanism")) .chinaTurkey
  refine ⟨b1, a1, ?_⟩
  change (BSSA14.lnResp BSSA14.lastRow _ _).val < (BSSA14.lnResp BSSA14.lastRow _ _).val
  rw [a2, b2]
  simp only [BSSA14.f2R_rock _ hv]
  have := BSSA14.last_rise hm h0 hr
  linarith

/-! ### Continuity -/

namespace BSSA14

theorem eventR_continuous (c : Row) (mech : Mech) : Continuous fun m => eventR c m mech := by
  unfold eventR
  refine continuous_const.add (Continuous.if_le (by fun_prop) (by fun_prop) continuous_id continuous_const ?_)
  intro m hm
  have : m = c.M_h := hm
  rw [this]; ring

theorem D_continuous (c : Row) : Continuous (D c) := by unfold D; fun_prop

theorem pathR_continuous {c : Row} (hc : c ∈ table) (m : ℝ) (reg : Reg) :
    Continuous fun r => pathR c m r reg := by
  unfold pathR
  have hD := D_continuous c
  exact (continuous_const.mul (hD.log fun r => (D_pos hc r).ne')).add (continuous_const.mul (hD.sub continuous_const))

theorem pathR_continuous_mag (c : Row) (r : ℝ) (reg : Reg) : Continuous fun m => pathR c m r reg := by
  unfold pathR; fun_prop

theorem logref_continuous : Continuous fun x : ℝ => Real.log ((Real.exp x + 0.1) / 0.1) := by
  refine Continuous.log (by fun_prop) fun x => ?_
  have := Real.exp_pos x
  positivity

theorem depth_continuousOn :
    ContinuousOn (fun v : ℝ => (CY14.calcDepth10 (F.ofReal v) false).val) (Set.Ioi 0) := by
  simp only [CY14.calcDepth10, depth10, Bool.false_eq_true, if_false, fsimp]
  refine ContinuousOn.div_const (ContinuousOn.rexp (continuousOn_const.mul (ContinuousOn.log ?_ ?_))) _
  · fun_prop
  · intro v hv
    positivity

theorem basinR_continuousOn (c : Row) (z1 : Option ℝ) :
    ContinuousOn (fun v => basinR c v z1) (Set.Ioi 0) := by
  unfold basinR
  by_cases hp : 0.65 ≤ c.period
  · simp only [if_pos hp]
    cases z1 with
    | none => exact show ContinuousOn (fun _ : ℝ => min ((c.f_6 : ℝ) * 0) c.f_7) _ from continuousOn_const
    | some z =>
      exact ContinuousOn.inf (continuousOn_const.mul (continuousOn_const.sub depth_continuousOn)) continuousOn_const
  · simp only [if_neg hp]; exact continuousOn_const

theorem site_continuousOn {c : Row} (hc : c ∈ table) (x : ℝ) (z1 : Option ℝ) :
    ContinuousOn (fun v : ℝ => c.c * Real.log (min v c.V_c / 760) + f2R c v * x + basinR c v z1) (Set.Ioi 0) := by
  obtain ⟨-, -, -, -, -, -, -, -, -, -, -, h12⟩ := casts hc
  refine ((continuousOn_const.mul (ContinuousOn.log (by fun_prop) fun v hv => ?_)).add ?_).add
    (basinR_continuousOn c z1)
  · have hv' : (0 : ℝ) < v := hv
    have : 0 < min v (c.V_c : ℝ) := lt_min hv' (by linarith)
    positivity
  · unfold f2R; fun_prop

end BSSA14

/-- All predictions are defined and continuous in the magnitude (in particular at the hinge
magnitude M_h), in `dist_jb`, and in `v_s30` on the positive half line. -/
theorem C52_continuous (S : ℝ → ℝ → ℝ → Scenario) (z1 : Option ℝ) (mech reg : Val)
    (hS : ∀ m r v, BSSA14.Source (S m r v) { mag := m, jb := r, v := v, z1 := z1 })
    (hm : ∀ m r v, (S m r v).get "mechanism" = mech) (hr : ∀ m r v, (S m r v).get "region" = reg) :
    ∃ O : ℝ → ℝ → ℝ → BSSA14.Out,
      (∀ m r v, Gives BSSA14.cls (S m r v) (O m r v)) ∧
      (∀ m r v, 0 < v → (O m r v).gmm.lnResp.length = 107 ∧ ∀ y ∈ (O m r v).gmm.lnResp, y.ok) ∧
      ∀ i, i < 107 →
        (∀ r v, 0 < v → Continuous fun m => (O m r v).gmm.resp i) ∧
        (∀ m v, 0 < v → Continuous fun r => (O m r v).gmm.resp i) ∧
        (∀ m r, ContinuousOn (fun v => (O m r v).gmm.resp i) (Set.Ioi 0)) := by
  refine ⟨fun m r v => BSSA14.out (({ mag := m, jb := r, v := v, z1 := z1 } : BSSA14.Given).toIn
    (BSSA14.mechOf mech) (BSSA14.regOf reg)), fun m r v => ?_, fun m r v hv => ⟨?_, ?_⟩, fun i hi => ?_⟩
  · have := BSSA14.gives (hS m r v)
    rwa [hm, hr] at this
  · simp [BSSA14.out, BSSA14.table_length]
  · exact BSSA14.out_ok _ hv _ _
  rw [← BSSA14.table_length] at hi
  have hc : BSSA14.table[i]'hi ∈ BSSA14.table := List.getElem_mem _
  simp only [BSSA14.out_resp _ hi]
  refine ⟨fun r v hv => ?_, fun m v hv => ?_, fun m r => ?_⟩
  · simp only [(BSSA14.resp_facts hc ⟨_, _, _, _⟩ hv _ _).2]
    exact ((BSSA14.eventR_continuous _ _).add (BSSA14.pathR_continuous_mag _ _ _)).add
      ((continuous_const.add (continuous_const.mul (BSSA14.logref_continuous.comp
        ((BSSA14.eventR_continuous _ _).add (BSSA14.pathR_continuous_mag _ _ _))))).add continuous_const)
  · simp only [(BSSA14.resp_facts hc ⟨_, _, _, _⟩ hv _ _).2]
    exact (continuous_const.add (BSSA14.pathR_continuous hc _ _)).add
      ((continuous_const.add (continuous_const.mul (BSSA14.logref_continuous.comp
        (continuous_const.add (BSSA14.pathR_continuous BSSA14.pgaRow_mem _ _))))).add continuous_const)
  · refine ContinuousOn.congr ((continuousOn_const (c := BSSA14.eventR (BSSA14.table[i]'hi) m (BSSA14.mechOf mech) +
      BSSA14.pathR (BSSA14.table[i]'hi) m r (BSSA14.regOf reg))).add (BSSA14.site_continuousOn hc
        (Real.log ((Real.exp (BSSA14.refR m r (BSSA14.mechOf mech) (BSSA14.regOf reg)) + 0.1) / 0.1)) z1)) fun v hv => ?_
    exact (BSSA14.resp_facts hc ⟨_, _, _, _⟩ hv _ _).2

/-! ### Standard deviations -/

namespace BSSA14

theorem std_row_facts : ∀ c ∈ table, 0.21 ≤ c.tau_1 ∧ c.tau_1 ≤ 0.543 ∧ 0.21 ≤ c.tau_2 ∧ c.tau_2 ≤ 0.543 ∧
    0.505 ≤ c.phi_1 - c.dphi_V + 0.08 ∧ 0 ≤ c.dphi_V ∧ 0 ≤ c.dphi_R ∧
    0.4 ≤ c.phi_1 - c.dphi_V ∧ 0.4 ≤ c.phi_2 - c.dphi_V ∧ c.phi_1 + c.dphi_R ≤ 0.85 ∧
    c.phi_2 + c.dphi_R ≤ 0.85 := by decide +kernel

theorem clip_mem (x lo hi : ℝ) (h : lo ≤ hi) : lo ≤ min (max x lo) hi ∧ min (max x lo) hi ≤ hi :=
  ⟨le_min (le_max_right _ _) h, min_le_right _ _⟩

theorem mix {a b lo hi t : ℝ} (ha : lo ≤ a) (ha' : a ≤ hi) (hb : lo ≤ b) (hb' : b ≤ hi)
    (h0 : 0 ≤ t) (h1 : t ≤ 1) : lo ≤ a + (b - a) * t ∧ a + (b - a) * t ≤ hi := by
  constructor <;> nlinarith

theorem std_facts {c : Row} (hc : c ∈ table) (g : Given) (hv : 0 < g.v) (mech : Mech) (reg : Reg) :
    (lnStd c (g.toIn mech reg)).ok ∧ (tau c (g.toIn mech reg)).ok ∧ (phi c (g.toIn mech reg)).ok ∧
    (lnStd c (g.toIn mech reg)).val ^ 2 = (tau c (g.toIn mech reg)).val ^ 2 + (phi c (g.toIn mech reg)).val ^ 2 ∧
    0 ≤ (lnStd c (g.toIn mech reg)).val ∧
    0.21 ≤ (tau c (g.toIn mech reg)).val ∧ (tau c (g.toIn mech reg)).val ≤ 0.543 ∧
    0.4 ≤ (phi c (g.toIn mech reg)).val ∧ (phi c (g.toIn mech reg)).val ≤ 0.85 := by
  obtain ⟨-, -, -, -, -, -, -, h8, h9, h10, h11, -⟩ := casts hc
  obtain ⟨t1, t2, t3, t4, -, v0, r0, p1, p2, p3, p4⟩ := std_row_facts c hc
  have hR2 : (0 : ℝ) < c.R_2 := h10.trans h11
  have hlr : Real.log ((c.R_2 : ℝ) / c.R_1) ≠ 0 := by
    apply (Real.log_pos _).ne'
    rwa [lt_div_iff₀ h10, one_mul]
  have hlv : Real.log ((300 : ℝ) / 225) ≠ 0 := (Real.log_pos (by norm_num)).ne'
  have hmax : 0 < max g.jb 0.1 := lt_of_lt_of_le (by norm_num) (le_max_right _ _)
  have okt : (tau c (g.toIn mech reg)).ok := by simp only [tau, Given.toIn, fsimp]
  have okp : (phi c (g.toIn mech reg)).ok := by
    simp only [phi, Given.toIn, fsimp, h8, h9]
    have q1 : 0 < (300 : ℝ) / g.v := by positivity
    have q2 : 0 < max g.jb 0.1 / (c.R_1 : ℝ) := by positivity
    have q3 : 0 < (c.R_2 : ℝ) / c.R_1 := by positivity
    exact ⟨⟨⟨hv.ne', q1⟩, ⟨by norm_num, by norm_num⟩, hlv⟩, ⟨h10.ne', q2⟩, ⟨h10.ne', q3⟩, hlr⟩
  have hcm := clip_mem g.mag 4.5 5.5 (by norm_num)
  have c0 : 0 ≤ min (max g.mag 4.5) 5.5 - 4.5 := by linarith [hcm.1]
  have c1 : min (max g.mag 4.5) 5.5 - 4.5 ≤ 1 := by linarith [hcm.2]
  have vt : (tau c (g.toIn mech reg)).val = (c.tau_1 : ℝ) + ((c.tau_2 : ℝ) - c.tau_1) * (min (max g.mag 4.5) 5.5 - 4.5) := by
    simp only [tau, Given.toIn, fsimp]
  obtain ⟨x, y, hx0, hx1, hy0, hy1, vp⟩ : ∃ x y : ℝ, 0 ≤ x ∧ x ≤ 1 ∧ 0 ≤ y ∧ y ≤ 1 ∧ (phi c (g.toIn mech reg)).val =
      (c.phi_1 : ℝ) + ((c.phi_2 : ℝ) - c.phi_1) * (min (max g.mag 4.5) 5.5 - 4.5) - c.dphi_V * x + c.dphi_R * y := by
    have h1 := clip_mem (Real.log ((c.V_2 : ℝ) / g.v) / Real.log ((c.V_2 : ℝ) / c.V_1)) 0 1 (by norm_num)
    have h2 := clip_mem (Real.log (max g.jb 0.1 / (c.R_1 : ℝ)) / Real.log ((c.R_2 : ℝ) / c.R_1)) 0 1 (by norm_num)
    refine ⟨_, _, h1.1, h1.2, h2.1, h2.2, ?_⟩
    simp only [phi, Given.toIn, fsimp]
  have cast : ∀ {a b : ℚ}, a ≤ b → (a : ℝ) ≤ b := fun h => by exact_mod_cast h
  have t1' := cast t1; have t2' := cast t2; have t3' := cast t3; have t4' := cast t4
  have v0' := cast v0; have r0' := cast r0; have p1' := cast p1; have p2' := cast p2
  have p3' := cast p3; have p4' := cast p4
  push_cast at t1' t2' t3' t4' v0' r0' p1' p2' p3' p4'
  have mt := mix (lo := 0.21) (hi := 0.543) (by norm_num at t1' ⊢; exact t1') (by norm_num at t2' ⊢; exact t2')
    (by norm_num at t3' ⊢; exact t3') (by norm_num at t4' ⊢; exact t4') c0 c1
  have mp := mix (lo := 0.4 + c.dphi_V) (hi := 0.85 - c.dphi_R) (a := c.phi_1) (b := c.phi_2)
    (by norm_num at p1' ⊢; linarith) (by norm_num at p3' ⊢; linarith)
    (by norm_num at p2' ⊢; linarith) (by norm_num at p4' ⊢; linarith) c0 c1
  have e1 : 0.4 ≤ (phi c (g.toIn mech reg)).val := by
    rw [vp]; nlinarith [mul_le_mul_of_nonneg_left hx1 v0', mul_nonneg r0' hy0, mp.1]
  have e2 : (phi c (g.toIn mech reg)).val ≤ 0.85 := by
    rw [vp]; nlinarith [mul_le_mul_of_nonneg_left hy1 r0', mul_nonneg v0' hx0, mp.2]
  rw [← vt] at mt
  have sq : 0 ≤ (phi c (g.toIn mech reg)).val ^ 2 + (tau c (g.toIn mech reg)).val ^ 2 := by positivity
  refine ⟨?_, okt, okp, ?_, ?_, mt.1, mt.2, e1, e2⟩
  · simp only [lnStd, fsimp, okt, okp]; exact sq
  · simp only [lnStd, fsimp]; rw [Real.sq_sqrt sq]; ring
  · simp only [lnStd, fsimp]; exact Real.sqrt_nonneg _

end BSSA14

/-- Standard deviations, for every scenario with positive `v_s30`: defined, total squared is tau
squared plus phi squared, tau between 0.21 and 0.543 and phi between 0.4 and 0.85. -/
theorem C52_std (s : Scenario) (g : BSSA14.Given) (h : BSSA14.Source s g) (hv : 0 < g.v) :
    ∃ o sd, Gives BSSA14.cls s o ∧ o.gmm.lnStd = some sd ∧
      sd.length = 107 ∧ o.tau.length = 107 ∧ o.phi.length = 107 ∧
      ∀ i, i < 107 →
        (sd.getD i F.nan).ok ∧ (o.tau.getD i F.nan).ok ∧ (o.phi.getD i F.nan).ok ∧
        (sd.getD i F.nan).val ^ 2 = (o.tau.getD i F.nan).val ^ 2 + (o.phi.getD i F.nan).val ^ 2 ∧
        0 ≤ (sd.getD i F.nan).val ∧
        0.21 ≤ (o.tau.getD i F.nan).val ∧ (o.tau.getD i F.nan).val ≤ 0.543 ∧
        0.4 ≤ (o.phi.getD i F.nan).val ∧ (o.phi.getD i F.nan).val ≤ 0.85 := by
  refine ⟨_, _, BSSA14.gives h, rfl, by simp [BSSA14.table_length],
    by simp [BSSA14.out, BSSA14.table_length], by simp [BSSA14.out, BSSA14.table_length], ?_⟩
  intro i hi
  rw [← BSSA14.table_length] at hi
  have := BSSA14.std_facts (List.getElem_mem hi) g hv (BSSA14.mechOf (s.get "mechanism"))
    (BSSA14.regOf (s.get "region"))
  simp only [BSSA14.out, List.getD_eq_getElem?_getD, List.getElem?_map,
      List.getElem?_eq_getElem hi, Option.map_some, Option.getD_some]
  exact this

/-- Magnitude and distance effects on the standard deviations: tau depends on the magnitude only,
neither standard deviation on mechanism, region or `depth_1_0`, and below magnitude 4.5, above
5.5, below the distance R_1 of every row (78 km) and from 300 m/s on nothing changes. -/
theorem C52_std_plateaus (s s' : Scenario) (g g' : BSSA14.Given) (h : BSSA14.Source s g)
    (h' : BSSA14.Source s' g')
    (hm : g.mag = g'.mag ∨ (g.mag ≤ 4.5 ∧ g'.mag ≤ 4.5) ∨ (5.5 ≤ g.mag ∧ 5.5 ≤ g'.mag)) :
    ∃ o o', Gives BSSA14.cls s o ∧ Gives BSSA14.cls s' o' ∧ o.tau.length = 107 ∧
      List.Forall₂ F.Same o.tau o'.tau ∧
      (0 < g.v → 0 < g'.v → (g.v = g'.v ∨ (300 ≤ g.v ∧ 300 ≤ g'.v) ∨ (g.v ≤ 225 ∧ g'.v ≤ 225)) →
        (g.jb = g'.jb ∨ (g.jb ≤ 78 ∧ g'.jb ≤ 78) ∨ (272 ≤ g.jb ∧ 272 ≤ g'.jb)) →
        List.Forall₂ F.Same o.phi o'.phi) := by
  have hrow : ∀ c ∈ BSSA14.table, 78 ≤ c.R_1 ∧ c.R_2 ≤ 272 := by decide +kernel
  have em : min (max g'.mag 4.5) 5.5 = min (max g.mag 4.5) 5.5 := by
    rcases hm with e | ⟨a, b⟩ | ⟨a, b⟩
    · rw [e]
    · rw [max_eq_right a, max_eq_right b]
    · rw [min_eq_right (a.trans (le_max_left _ _)), min_eq_right (b.trans (le_max_left _ _))]
  refine ⟨_, _, BSSA14.gives h, BSSA14.gives h', by simp [BSSA14.out, BSSA14.table_length], ?_, ?_⟩
  · simp only [BSSA14.out]
    refine forall₂_map fun c _ => ⟨?_, ?_, ?_⟩
    · simp only [BSSA14.tau, BSSA14.Given.toIn, fsimp]
    · simp only [BSSA14.tau, BSSA14.Given.toIn, fsimp]
    · simp only [BSSA14.tau, BSSA14.Given.toIn, fsimp, em]
  · intro v0 v0' hv hr
    simp only [BSSA14.out]
    refine forall₂_map fun c hc => ⟨(BSSA14.std_facts hc g v0 _ _).2.2.1,
      (BSSA14.std_facts hc g' v0' _ _).2.2.1, ?_⟩
    obtain ⟨-, -, -, -, -, -, -, h8, h9, h10, h11, -⟩ := BSSA14.casts hc
    obtain ⟨q1, q2⟩ := hrow c hc
    have q1' : (78 : ℝ) ≤ c.R_1 := by exact_mod_cast q1
    have q2' : (c.R_2 : ℝ) ≤ 272 := by exact_mod_cast q2
    have hlr : 0 < Real.log ((c.R_2 : ℝ) / c.R_1) := by
      apply Real.log_pos
      rwa [lt_div_iff₀ h10, one_mul]
    have hlv : 0 < Real.log ((300 : ℝ) / 225) := Real.log_pos (by norm_num)
    have ev : min (max (Real.log (300 / g'.v) / Real.log (300 / 225)) 0) 1 =
        min (max (Real.log (300 / g.v) / Real.log (300 / 225)) 0) 1 := by
      rcases hv with e | ⟨a, b⟩ | ⟨a, b⟩
      · rw [e]
      · have z : ∀ v : ℝ, 300 ≤ v → max (Real.log (300 / v) / Real.log (300 / 225)) 0 = 0 := by
          intro v hv
          apply max_eq_right
          apply div_nonpos_of_nonpos_of_nonneg _ hlv.le
          apply Real.log_nonpos (by positivity)
          rw [div_le_one (by linarith)]; exact hv
        rw [z _ a, z _ b]
      · have z : ∀ v : ℝ, 0 < v → v ≤ 225 → 1 ≤ max (Real.log (300 / v) / Real.log (300 / 225)) 0 := by
          intro v hv0 hv
          refine le_trans ?_ (le_max_left _ _)
          rw [le_div_iff₀ hlv, one_mul]
          apply Real.log_le_log (by norm_num)
          gcongr
        rw [min_eq_right (z _ v0 a), min_eq_right (z _ v0' b)]
    have er : min (max (Real.log (max g'.jb 0.1 / (c.R_1 : ℝ)) / Real.log ((c.R_2 : ℝ) / c.R_1)) 0) 1 =
        min (max (Real.log (max g.jb 0.1 / (c.R_1 : ℝ)) / Real.log ((c.R_2 : ℝ) / c.R_1)) 0) 1 := by
      rcases hr with e | ⟨a, b⟩ | ⟨a, b⟩
      · rw [e]
      · have z : ∀ r : ℝ, r ≤ 78 → max (Real.log (max r 0.1 / (c.R_1 : ℝ)) / Real.log ((c.R_2 : ℝ) / c.R_1)) 0 = 0 := by
          intro r hr
          have hp : 0 < max r 0.1 := lt_of_lt_of_le (by norm_num) (le_max_right _ _)
          apply max_eq_right
          apply div_nonpos_of_nonpos_of_nonneg _ hlr.le
          apply Real.log_nonpos (by positivity)
          rw [div_le_one h10]
          exact max_le (by linarith) (by norm_num; linarith)
        rw [z _ a, z _ b]
      · have z : ∀ r : ℝ, 272 ≤ r → 1 ≤ max (Real.log (max r 0.1 / (c.R_1 : ℝ)) / Real.log ((c.R_2 : ℝ) / c.R_1)) 0 := by
          intro r hr
          refine le_trans ?_ (le_max_left _ _)
          rw [le_div_iff₀ hlr, one_mul]
          apply Real.log_le_log (div_pos (h10.trans h11) h10)
          have : (c.R_2 : ℝ) ≤ max r 0.1 := by linarith [le_max_left r 0.1]
          gcongr
        rw [min_eq_right (z _ a), min_eq_right (z _ b)]
    simp only [BSSA14.phi, BSSA14.Given.toIn, fsimp, em, h8, h9, ev, er]

/-- The region matters only as {china, turkey}, {italy, japan} or anything else.  In particular
italy and japan give identical results for every scenario (the Japanese basin model is never
used, although the documented table lists it), and new_zealand is treated like california
(the table puts it with italy). -/
theorem C19_regions (s s' : Scenario) (g : BSSA14.Given) (h : BSSA14.Source s g) (h' : BSSA14.Source s' g)
    (hm : s'.get "mechanism" = s.get "mechanism")
    (hr : (s.get "region" ∈ [Val.str "china", .str "turkey"] ∧ s'.get "region" ∈ [Val.str "china", .str "turkey"]) ∨
      (s.get "region" ∈ [Val.str "italy", .str "japan"] ∧ s'.get "region" ∈ [Val.str "italy", .str "japan"]) ∨
      (s.get "region" ∉ [Val.str "china", .str "turkey", .str "italy", .str "japan"] ∧
        s'.get "region" ∉ [Val.str "china", .str "turkey", .str "italy", .str "japan"])) :
    ∃ o, Gives BSSA14.cls s o ∧ Gives BSSA14.cls s' o := by
  have key : BSSA14.regOf (s'.get "region") = BSSA14.regOf (s.get "region") := by
    rcases hr with ⟨a, b⟩ | ⟨a, b⟩ | ⟨a, b⟩
    · simp only [List.mem_cons, List.not_mem_nil, or_false] at a b
      rcases a with a | a <;> rcases b with b | b <;> rw [a, b] <;> simp [BSSA14.regOf]
    · simp only [List.mem_cons, List.not_mem_nil, or_false] at a b
      rcases a with a | a <;> rcases b with b | b <;> rw [a, b] <;> simp [BSSA14.regOf]
    · simp only [List.mem_cons, List.not_mem_nil, or_false, not_or] at a b
      simp [BSSA14.regOf, Val.isStr, a, b]
  have g1 := BSSA14.gives h
  have g2 := BSSA14.gives h'
  rw [key, hm] at g2
  exact ⟨_, g1, g2⟩

/-- The reference acceleration, computed with `np.nan` in place of the reference acceleration, and
every prediction derived from it is a defined number: for every scenario with positive `v_s30`,
whatever the distance (also zero or negative). -/
theorem C46_bssa14_defined (s : Scenario) (g : BSSA14.Given) (h : BSSA14.Source s g) (hv : 0 < g.v) :
    (BSSA14.pgaRef (g.toIn (BSSA14.mechOf (s.get "mechanism")) (BSSA14.regOf (s.get "region")))).ok ∧
    ∃ o, Gives BSSA14.cls s o ∧ o.gmm.lnResp.length = 107 ∧ ∀ y ∈ o.gmm.lnResp, y.ok :=
  ⟨(BSSA14.pgaRef_facts g _ _).1, _, BSSA14.gives h, by simp [BSSA14.out, BSSA14.table_length],
    BSSA14.out_ok g hv _ _⟩

namespace BSSA14

theorem out_phi_z (g : Given) (z : Option ℝ) (mech : Mech) (reg : Reg) :
    (out (({ g with z1 := z } : Given).toIn mech reg)).gmm.lnStd = (out (g.toIn mech reg)).gmm.lnStd := rfl

end BSSA14

/-- The basin term of the predictions.  Changing `depth_1_0` from `z` to `z' ≥ z` never changes
PGV, PGA and the ordinates below 0.65 s, nor any standard deviation; at 0.65 s and above it does
not lower the prediction, it strictly raises it while `z'` is at most 0.438 km above the average
depth, and it changes nothing once `z` is 0.65 km above the average depth.  The average depth is
Chiou and Youngs' California estimate in every region. -/
theorem C69_basin (s s' : Scenario) (g : BSSA14.Given) (z z' : ℝ) (h : BSSA14.Source s { g with z1 := some z })
    (h' : BSSA14.Source s' { g with z1 := some z' })
    (hk : ∀ k ∈ ["mechanism", "region"], s'.get k = s.get k) (hv : 0 < g.v) (hz : z ≤ z') :
    ∃ o o', Gives BSSA14.cls s o ∧ Gives BSSA14.cls s' o' ∧ o.gmm.lnStd = o'.gmm.lnStd ∧
      o.gmm.lnResp.length = 107 ∧
      List.Forall₂ F.NotAbove o'.gmm.lnResp o.gmm.lnResp ∧
      ∀ i (hi : i < BSSA14.table.length),
        ((BSSA14.table[i]'hi).period < 0.65 ∨ (CY14.calcDepth10 (F.ofReal g.v) false).val + 0.65 ≤ z →
          F.Same (o.gmm.lnResp.getD i F.nan) (o'.gmm.lnResp.getD i F.nan)) ∧
        (0.65 ≤ (BSSA14.table[i]'hi).period → z < z' → z' ≤ (CY14.calcDepth10 (F.ofReal g.v) false).val + 0.438 →
          F.Drops (o'.gmm.lnResp.getD i F.nan) (o.gmm.lnResp.getD i F.nan)) := by
  have e1 : s'.get "mechanism" = s.get "mechanism" := hk _ (by simp)
  have e2 : s'.get "region" = s.get "region" := hk _ (by simp)
  have g1 := BSSA14.gives h
  have g2 := BSSA14.gives h'
  rw [e1, e2] at g2
  generalize BSSA14.mechOf (s.get "mechanism") = mech at g1 g2
  generalize BSSA14.regOf (s.get "region") = reg at g1 g2
  have low : ∀ c ∈ BSSA14.table, 0.65 ≤ c.period → 0.438 * c.f_6 < c.f_7 := by decide +kernel
  set A := (CY14.calcDepth10 (F.ofReal g.v) false).val with hA
  refine ⟨_, _, g1, g2, rfl, by simp [BSSA14.out, BSSA14.table_length], ?_, ?_⟩
  · simp only [BSSA14.out]
    refine forall₂_map fun c hc => ?_
    obtain ⟨a1, a2⟩ := BSSA14.resp_facts hc { g with z1 := some z } hv mech reg
    obtain ⟨b1, b2⟩ := BSSA14.resp_facts hc { g with z1 := some z' } hv mech reg
    refine ⟨b1, a1, ?_⟩
    rw [a2, b2]
    have : BSSA14.basinR c g.v (some z) ≤ BSSA14.basinR c g.v (some z') := by
      unfold BSSA14.basinR
      by_cases hp : 0.65 ≤ c.period
      · rw [if_pos hp, if_pos hp]
        have h6 : (0 : ℝ) < c.f_6 := by exact_mod_cast (BSSA14.basin_facts c hc hp).1
        apply min_le_min_right
        exact mul_le_mul_of_nonneg_left (by simp only [Option.elim_some]; linarith) h6.le
      · rw [if_neg hp, if_neg hp]
    simp only
    linarith
  · intro i hi
    have hc : BSSA14.table[i]'hi ∈ BSSA14.table := List.getElem_mem _
    simp only [BSSA14.out, List.getD_eq_getElem?_getD, List.getElem?_map,
      List.getElem?_eq_getElem hi, Option.map_some, Option.getD_some]
    obtain ⟨a1, a2⟩ := BSSA14.resp_facts hc { g with z1 := some z } hv mech reg
    obtain ⟨b1, b2⟩ := BSSA14.resp_facts hc { g with z1 := some z' } hv mech reg
    generalize BSSA14.table[i]'hi = c at hc a1 a2 b1 b2 ⊢
    constructor
    · intro hcase
      refine ⟨a1, b1, ?_⟩
      rw [a2, b2]
      have : BSSA14.basinR c g.v (some z') = BSSA14.basinR c g.v (some z) := by
        unfold BSSA14.basinR
        by_cases hp : 0.65 ≤ c.period
        · rw [if_pos hp, if_pos hp]
          have hz65 : A + 0.65 ≤ z := hcase.resolve_left (by linarith)
          obtain ⟨f6, f7, f67⟩ := BSSA14.basin_facts c hc hp
          have h6 : (0 : ℝ) < c.f_6 := by exact_mod_cast f6
          have h67 : ((c.f_7 : ℚ) : ℝ) ≤ ((0.65 * c.f_6 : ℚ) : ℝ) := by exact_mod_cast f67
          push_cast at h67
          have sat : ∀ x : ℝ, A + 0.65 ≤ x → min ((c.f_6 : ℝ) * (x - A)) c.f_7 = c.f_7 := by
            intro x hx
            apply min_eq_right
            norm_num at h67 hx
            nlinarith
          simp only [Option.elim_some]
          rw [sat z hz65, sat z' (by linarith)]
        · rw [if_neg hp, if_neg hp]
      simp only [this]
    · intro hp hlt hle
      refine ⟨b1, a1, ?_⟩
      rw [a2, b2]
      have : BSSA14.basinR c g.v (some z) < BSSA14.basinR c g.v (some z') := by
        unfold BSSA14.basinR
        rw [if_pos hp, if_pos hp]
        obtain ⟨f6, f7, -⟩ := BSSA14.basin_facts c hc hp
        have h6 : (0 : ℝ) < c.f_6 := by exact_mod_cast f6
        have hl : ((0.438 * c.f_6 : ℚ) : ℝ) < ((c.f_7 : ℚ) : ℝ) := by exact_mod_cast low c hc hp
        push_cast at hl
        have sat : ∀ x : ℝ, x ≤ A + 0.438 → min ((c.f_6 : ℝ) * (x - A)) c.f_7 = (c.f_6 : ℝ) * (x - A) := by
          intro x hx
          apply min_eq_left
          norm_num at hl hx
          nlinarith
        simp only [Option.elim_some]
        rw [sat z (by linarith), sat z' hle]
        exact mul_lt_mul_of_pos_left (by linarith) h6
      simp only
      linarith

/-- Leaving `depth_1_0` out is the same as giving the average depth: Chiou and Youngs' California
estimate at the site, in every region. -/
theorem C69_default_basin (s s' : Scenario) (g : BSSA14.Given) (h : BSSA14.Source s { g with z1 := none })
    (h' : BSSA14.Source s' { g with z1 := some (CY14.calcDepth10 (F.ofReal g.v) false).val })
    (hk : ∀ k ∈ ["mechanism", "region"], s'.get k = s.get k) (hv : 0 < g.v) :
    ∃ o o', Gives BSSA14.cls s o ∧ Gives BSSA14.cls s' o' ∧ o.gmm.lnStd = o'.gmm.lnStd ∧
      o.gmm.lnResp.length = 107 ∧ List.Forall₂ F.Same o.gmm.lnResp o'.gmm.lnResp := by
  have e1 : s'.get "mechanism" = s.get "mechanism" := hk _ (by simp)
  have e2 : s'.get "region" = s.get "region" := hk _ (by simp)
  have g1 := BSSA14.gives h
  have g2 := BSSA14.gives h'
  rw [e1, e2] at g2
  refine ⟨_, _, g1, g2, rfl, by simp [BSSA14.out, BSSA14.table_length], ?_⟩
  simp only [BSSA14.out]
  refine forall₂_map fun c hc => ?_
  obtain ⟨a1, a2⟩ := BSSA14.resp_facts hc { g with z1 := none } hv (BSSA14.mechOf (s.get "mechanism"))
    (BSSA14.regOf (s.get "region"))
  obtain ⟨b1, b2⟩ := BSSA14.resp_facts hc { g with z1 := some (CY14.calcDepth10 (F.ofReal g.v) false).val } hv
    (BSSA14.mechOf (s.get "mechanism")) (BSSA14.regOf (s.get "region"))
  refine ⟨a1, b1, ?_⟩
  rw [a2, b2]
  simp only [BSSA14.basinR, Option.elim_some, Option.elim_none, sub_self]

/-! ### Instances -/

namespace BSSA14

/-- a scenario -/
noncomputable def exG : Given := { mag := 6.5, jb := 20, v := 300, z1 := some 0.3 }
@[inherit_doc exG]
noncomputable def exS (g : Given) (region : String) : Scenario :=
  ⟨[("mag", .num g.mag), ("dist_jb", .num g.jb), ("v_s30", .num g.v), ("depth_1_0", Val.ofOpt g.z1),
    ("mechanism", .str "SS"), ("region", .str region)], []⟩

theorem ex_source (g : Given) (region : String) : Source (exS g region) g := by
  constructor <;> simp [exS, Scenario.get, Dict.get?]

end BSSA14

example : ∃ o o', Gives BSSA14.cls (BSSA14.exS BSSA14.exG "japan") o ∧
    Gives BSSA14.cls (BSSA14.exS { BSSA14.exG with jb := 50 } "japan") o' ∧
    List.Forall₂ F.Drops o.gmm.lnResp o'.gmm.lnResp := by
  obtain ⟨o, o', h1, h2, -, -, h⟩ := C52_attenuates _ _ BSSA14.exG 50 (BSSA14.ex_source _ "japan")
    (BSSA14.ex_source _ "japan") (by simp [BSSA14.exS, Scenario.get, Dict.get?])
    (by norm_num [BSSA14.exG]) (by norm_num [BSSA14.exG]) (by norm_num [BSSA14.exG]) (by norm_num)
    (by norm_num [BSSA14.exG])
  exact ⟨o, o', h1, h2, h (by norm_num [BSSA14.exG]) (Or.inl (by simp [BSSA14.exS, Scenario.get, Dict.get?]))⟩

example : ∃ o o', Gives BSSA14.cls (BSSA14.exS ⟨8, 270, 760, none⟩ "china") o ∧
    Gives BSSA14.cls (BSSA14.exS ⟨8, 290, 760, none⟩ "turkey") o' ∧
    F.Drops (o'.gmm.lnResp.getD 106 F.nan) (o.gmm.lnResp.getD 106 F.nan) :=
  C52_china_turkey_rises _ _ ⟨8, 270, 760, none⟩ 290 (BSSA14.ex_source _ _) (BSSA14.ex_source _ _)
    (by simp [BSSA14.exS, Scenario.get, Dict.get?]) (by simp [BSSA14.exS, Scenario.get, Dict.get?])
    (by simp [BSSA14.exS, Scenario.get, Dict.get?]) (by norm_num) (by norm_num) (by norm_num) (by norm_num)

example : ∃ O : ℝ → ℝ → ℝ → BSSA14.Out, ∀ m r v, Gives BSSA14.cls (BSSA14.exS ⟨m, r, v, none⟩ "italy") (O m r v) := by
  obtain ⟨O, h, -⟩ := C52_continuous (fun m r v => BSSA14.exS ⟨m, r, v, none⟩ "italy") none (.str "SS")
    (.str "italy") (fun m r v => BSSA14.ex_source _ _) (by simp [BSSA14.exS, Scenario.get, Dict.get?])
    (by simp [BSSA14.exS, Scenario.get, Dict.get?])
  exact ⟨O, h⟩

example : ∃ o sd, Gives BSSA14.cls (BSSA14.exS BSSA14.exG "global") o ∧ o.gmm.lnStd = some sd ∧ sd.length = 107 := by
  obtain ⟨o, sd, h1, h2, h3, -⟩ := C52_std _ _ (BSSA14.ex_source BSSA14.exG "global") (by norm_num [BSSA14.exG])
  exact ⟨o, sd, h1, h2, h3⟩

example : ∃ o o', Gives BSSA14.cls (BSSA14.exS ⟨4, 20, 400, none⟩ "global") o ∧
    Gives BSSA14.cls (BSSA14.exS ⟨4.2, 30, 700, some 1⟩ "china") o' ∧ List.Forall₂ F.Same o.phi o'.phi := by
  obtain ⟨o, o', h1, h2, -, -, h3⟩ := C52_std_plateaus _ _ _ _ (BSSA14.ex_source ⟨4, 20, 400, none⟩ "global")
    (BSSA14.ex_source ⟨4.2, 30, 700, some 1⟩ "china") (Or.inr (Or.inl (by norm_num)))
  exact ⟨o, o', h1, h2, h3 (by norm_num) (by norm_num) (Or.inr (Or.inl (by norm_num))) (Or.inr (Or.inl (by norm_num)))⟩

example : ∃ o, Gives BSSA14.cls (BSSA14.exS BSSA14.exG "italy") o ∧ Gives BSSA14.cls (BSSA14.exS BSSA14.exG "japan") o :=
  C19_regions _ _ _ (BSSA14.ex_source BSSA14.exG "italy") (BSSA14.ex_source BSSA14.exG "japan")
    (by simp [BSSA14.exS, Scenario.get, Dict.get?]) (by simp [BSSA14.exS, Scenario.get, Dict.get?])

example : ∃ o, Gives BSSA14.cls (BSSA14.exS BSSA14.exG "misspelt") o :=
  let ⟨_, o, h, _⟩ := C46_bssa14_defined _ _ (BSSA14.ex_source BSSA14.exG "misspelt") (by norm_num [BSSA14.exG])
  ⟨o, h⟩

example : ∃ o o', Gives BSSA14.cls (BSSA14.exS { BSSA14.exG with z1 := some 0.1 } "japan") o ∧
    Gives BSSA14.cls (BSSA14.exS { BSSA14.exG with z1 := some 0.2 } "japan") o' ∧
    List.Forall₂ F.NotAbove o'.gmm.lnResp o.gmm.lnResp := by
  obtain ⟨o, o', h1, h2, -, -, h, -⟩ := C69_basin _ _ BSSA14.exG 0.1 0.2 (BSSA14.ex_source _ "japan")
    (BSSA14.ex_source _ "japan") (by simp [BSSA14.exS, Scenario.get, Dict.get?]) (by norm_num [BSSA14.exG])
    (by norm_num)
  exact ⟨o, o', h1, h2, h⟩

example : ∃ o o', Gives BSSA14.cls (BSSA14.exS { BSSA14.exG with z1 := none } "japan") o ∧
    Gives BSSA14.cls (BSSA14.exS { BSSA14.exG with z1 := some (CY14.calcDepth10 (F.ofReal 300) false).val } "japan") o' ∧
    o.gmm.lnStd = o'.gmm.lnStd ∧
    o.gmm.lnResp.length = 107 ∧ List.Forall₂ F.Same o.gmm.lnResp o'.gmm.lnResp :=
  C69_default_basin _ _ BSSA14.exG (BSSA14.ex_source _ "japan") (BSSA14.ex_source _ "japan")
    (by simp [BSSA14.exS, Scenario.get, Dict.get?]) (by norm_num [BSSA14.exG])
