import Verif.Models.SiteTerms
import Verif.Props.ASK14
import Verif.Props.BSSA14
import Verif.Props.CB14
import Verif.Props.CY14

/-! # C93: the public site-term functions -/

open Bounds

set_option linter.unusedSimpArgs false

/-- the sum of two spectra, ordinate by ordinate -/
noncomputable def spectrumAdd (a b : List F) : List F := List.zipWith (· + ·) a b
/-- the difference of two spectra, ordinate by ordinate -/
noncomputable def spectrumSub (a b : List F) : List F := List.zipWith (· - ·) a b

theorem zipWith_map_map {α β : Type} (f g : α → F) (op : F → F → β) (l : List α) :
    List.zipWith op (l.map f) (l.map g) = l.map fun a => op (f a) (g a) := by
  induction l <;> simp [*]

theorem zipWith_self_map {α : Type} (f : α → F) (op : α → F → F) (l : List α) :
    List.zipWith op l (l.map f) = l.map fun a => op a (f a) := by
  induction l <;> simp [*]

theorem broadcast_eq {n : ℕ} {l : List F} (h : l.length = n) : broadcast n l = pure l := by
  simp [broadcast, h]

/-! ## BSSA14 -/

/-- Two steps with the public interface give the model: the spectrum of the same scenario at
760 m/s without basin depth, plus `calc_site_term` of its peak acceleration at the velocity and
depth wanted -- with the default region whatever the scenario's region, as the constructor never
passes the region on. -/
theorem C93_bssa14_two_steps (s s0 : Scenario) (g : BSSA14.Given) (h : BSSA14.Source s g)
    (h0 : BSSA14.Source s0 { g with v := 760, z1 := none })
    (hm : s0.get "mechanism" = s.get "mechanism") (hr : s0.get "region" = s.get "region") (hv : 0 < g.v) :
    ∃ o o0 t, Gives BSSA14.cls s o ∧ Gives BSSA14.cls s0 o0 ∧
      BSSA14.calcSiteTerm (some (F.exp (o0.gmm.lnResp.getD 1 F.nan))) (F.ofReal g.v) (g.z1.map F.ofReal)
        = pure t ∧ t.length = 107 ∧
      List.Forall₂ F.Same o.gmm.lnResp (spectrumAdd o0.gmm.lnResp t) := by
  have g1 := BSSA14.gives h
  have g0 := BSSA14.gives h0
  rw [hm, hr] at g0
  refine ⟨_, _, _, g1, g0, rfl, by simp [BSSA14.table_length], ?_⟩
  set mech := BSSA14.mechOf (s.get "mechanism")
  set reg := BSSA14.regOf (s.get "region")
  have base : ∀ c ∈ BSSA14.table, _ := fun c hc =>
    BSSA14.resp_facts hc { g with v := 760, z1 := none } (by norm_num) mech reg
  have zero : ∀ c ∈ BSSA14.table, (BSSA14.lnResp c (({ g with v := 760, z1 := none } : BSSA14.Given).toIn mech reg)
      (some (BSSA14.pgaRef (({ g with v := 760, z1 := none } : BSSA14.Given).toIn mech reg)))).val =
      BSSA14.eventR c g.mag mech + BSSA14.pathR c g.mag g.jb reg := by
    intro c hc
    rw [(base c hc).2]
    obtain ⟨-, -, -, -, -, -, -, -, -, -, -, h12⟩ := BSSA14.casts hc
    have hb : BSSA14.basinR c 760 none = 0 := by
      unfold BSSA14.basinR
      split
      · rename_i hp
        have h7 : (0 : ℝ) < c.f_7 := by exact_mod_cast (BSSA14.basin_facts c hc hp).2.1
        simp [h7.le]
      · rfl
    simp only [hb, BSSA14.f2R, min_self]
    rw [min_eq_left h12]
    simp
  have hp : (BSSA14.out (({ g with v := 760, z1 := none } : BSSA14.Given).toIn mech reg)).gmm.lnResp.getD 1 F.nan =
      BSSA14.lnResp BSSA14.pgaRow (({ g with v := 760, z1 := none } : BSSA14.Given).toIn mech reg)
      (some (BSSA14.pgaRef (({ g with v := 760, z1 := none } : BSSA14.Given).toIn mech reg))) := by
    have hi : 1 < BSSA14.table.length := by rw [BSSA14.table_length]; norm_num
    simp only [BSSA14.out, List.getD_eq_getElem?_getD, List.getElem?_map, List.getElem?_eq_getElem hi,
      Option.map_some, Option.getD_some, BSSA14.pgaRow]
  rw [hp]
  simp only [BSSA14.out, spectrumAdd, zipWith_map_map, Option.getD_some]
  refine forall₂_map fun c hc => ?_
  obtain ⟨a1, a2⟩ := BSSA14.resp_facts hc g hv mech reg
  have hpm := BSSA14.pgaRow_mem
  have hs := BSSA14.siteTerm_facts hc (p := F.exp (BSSA14.lnResp BSSA14.pgaRow
    (({ g with v := 760, z1 := none } : BSSA14.Given).toIn mech reg)
    (some (BSSA14.pgaRef (({ g with v := 760, z1 := none } : BSSA14.Given).toIn mech reg)))))
    (by simp only [F.ok_exp]; exact (base _ hpm).1) hv (by simp only [F.val_exp]; exact Real.exp_pos _) g.z1
  have hj : Val.isStr (.str "california") "japan" = false := by simp [Val.isStr]
  simp only [hj]
  refine ⟨a1, ⟨(base c hc).1, hs.1⟩, ?_⟩
  rw [F.val_add, zero c hc, hs.2, a2, F.val_exp, zero _ hpm]
  rfl

/-- The documentation says that no site term is applied for `nan`; the function returns `nan` at
all 107 periods. -/
theorem C93_bssa14_nan (v : F) (z1 : Option F) (region : Val) :
    ∃ t, BSSA14.calcSiteTerm none v z1 region = pure t ∧ t.length = 107 ∧ ∀ y ∈ t, ¬ y.ok := by
  refine ⟨_, rfl, by simp [BSSA14.table_length], ?_⟩
  intro y hy
  simp only [List.mem_map] at hy
  obtain ⟨c, -, rfl⟩ := hy
  simp [BSSA14.siteTerm, BSSA14.fNl, F.nan, fsimp]

namespace BSSA14

/-- where the table's nonlinear coefficient has the wrong sign -/
theorem hardening : ∀ c ∈ table, (0 < c.f_4 ↔ 5.5 ≤ c.period ∧ c.period ≤ 7) := by decide +kernel

theorem f2_sign {c : Row} (hc : c ∈ table) (v : ℝ) :
    0 ≤ Real.exp (c.f_5 * (min v 760 - 360)) - Real.exp (c.f_5 * (760 - 360)) := by
  obtain ⟨-, -, -, -, -, -, h5, -⟩ := casts hc
  rw [sub_nonneg, Real.exp_le_exp]
  have := min_le_right v 760
  nlinarith

theorem site_region {c : Row} (hc : c ∈ table) {p p' : ℝ} (hp : 0 < p) (hp' : 0 < p') {v : ℝ} (hv : 0 < v)
    (z1 : Option ℝ) (japan : Bool) :
    (siteTerm c (F.ofReal p) (F.ofReal v) (z1.map F.ofReal) japan).ok ∧
    (siteTerm c (F.ofReal p') (F.ofReal v) (z1.map F.ofReal) japan).val -
      (siteTerm c (F.ofReal p) (F.ofReal v) (z1.map F.ofReal) japan).val =
      f2R c v * (Real.log ((p' + 0.1) / 0.1) - Real.log ((p + 0.1) / 0.1)) := by
  obtain ⟨-, -, h3, h4, h5, -, -, -, -, -, -, h12⟩ := casts hc
  have hm : 0 < min v (c.V_c : ℝ) := lt_min hv (by linarith)
  have hd : (CY14.calcDepth10 (F.ofReal v) japan).ok ∧ 0 < (CY14.calcDepth10 (F.ofReal v) japan).val := by
    cases japan
    · exact depth_facts hv.le
    · exact (C59_depth_1_0 (fun v => CY14.calcDepth10 v true) (by simp)).1 v hv.le
  have hb : (fDz1 c (F.ofReal v) (z1.map F.ofReal) japan).ok := by
    unfold fDz1
    by_cases hper : 0.65 ≤ c.period
    · rw [if_pos hper]; cases z1 <;> simp [hd]
    · rw [if_neg hper]; simp
  constructor
  · simp only [siteTerm, fLin, fNl, f2, fsimp, hb, h3, h5]
    have : 0 < min v (c.V_c : ℝ) / 760 := by positivity
    exact ⟨⟨by norm_num, this⟩, by norm_num, by positivity⟩
  · simp only [siteTerm, fLin, fNl, f2, f2R, fsimp, h3, h4, h5, zero_add]
    ring

end BSSA14

/-- A stronger reference motion never raises the site term, except between 5.5 and 7 s where the
coefficient table makes it never lower it; from 760 m/s on it makes no difference. -/
theorem C93_bssa14_softens (p p' v : ℝ) (z1 : Option ℝ) (region : Val) (hp : 0 < p) (hpp : p ≤ p') (hv : 0 < v) :
    ∃ t t', BSSA14.calcSiteTerm (some (F.ofReal p)) (F.ofReal v) (z1.map F.ofReal) region = pure t ∧
      BSSA14.calcSiteTerm (some (F.ofReal p')) (F.ofReal v) (z1.map F.ofReal) region = pure t' ∧
      t.length = 107 ∧ t'.length = 107 ∧ (760 ≤ v → List.Forall₂ F.Same t t') ∧
      ∀ i (hi : i < BSSA14.table.length),
        (¬ (5.5 ≤ (BSSA14.table[i]'hi).period ∧ (BSSA14.table[i]'hi).period ≤ 7) →
          F.NotAbove (t.getD i F.nan) (t'.getD i F.nan)) ∧
        (5.5 ≤ (BSSA14.table[i]'hi).period ∧ (BSSA14.table[i]'hi).period ≤ 7 → p < p' → v < 760 →
          F.Drops (t'.getD i F.nan) (t.getD i F.nan)) := by
  refine ⟨_, _, rfl, rfl, by simp [BSSA14.table_length], by simp [BSSA14.table_length], ?_, ?_⟩
  · intro h7
    refine forall₂_map fun c hc => ?_
    obtain ⟨a1, a2⟩ := BSSA14.site_region hc hp (hp.trans_le hpp) hv z1 (region.isStr "japan")
    obtain ⟨b1, -⟩ := BSSA14.site_region hc (hp.trans_le hpp) hp hv z1 (region.isStr "japan")
    refine ⟨a1, b1, ?_⟩
    have : BSSA14.f2R c v = 0 := by simp [BSSA14.f2R, min_eq_right h7]
    rw [this] at a2
    simp only [Option.getD_some]
    linarith
  · intro i hi
    have hc : BSSA14.table[i]'hi ∈ BSSA14.table := List.getElem_mem _
    simp only [List.getD_eq_getElem?_getD, List.getElem?_map, List.getElem?_eq_getElem hi,
      Option.map_some, Option.getD_some]
    set c := BSSA14.table[i]'hi
    obtain ⟨a1, a2⟩ := BSSA14.site_region hc hp (hp.trans_le hpp) hv z1 (region.isStr "japan")
    obtain ⟨b1, -⟩ := BSSA14.site_region hc (hp.trans_le hpp) hp hv z1 (region.isStr "japan")
    have hs := BSSA14.f2_sign hc v
    constructor
    · intro hper
      have h4 : (c.f_4 : ℝ) ≤ 0 := by exact_mod_cast not_lt.1 (mt (BSSA14.hardening c hc).1 hper)
      have hf : BSSA14.f2R c v ≤ 0 := mul_nonpos_of_nonpos_of_nonneg h4 hs
      have hl : Real.log ((p + 0.1) / 0.1) ≤ Real.log ((p' + 0.1) / 0.1) :=
        Real.log_le_log (by positivity) (by gcongr)
      refine ⟨a1, b1, ?_⟩
      have := mul_nonpos_of_nonpos_of_nonneg hf (sub_nonneg.2 hl)
      linarith
    · intro hper hlt hv7
      have h4 : (0 : ℝ) < c.f_4 := by exact_mod_cast (BSSA14.hardening c hc).2 hper
      obtain ⟨-, -, -, -, -, -, h5, -⟩ := BSSA14.casts hc
      have hs' : 0 < Real.exp (c.f_5 * (min v 760 - 360)) - Real.exp (c.f_5 * (760 - 360)) := by
        rw [sub_pos, Real.exp_lt_exp, min_eq_left hv7.le]
        nlinarith
      have hl : Real.log ((p + 0.1) / 0.1) < Real.log ((p' + 0.1) / 0.1) :=
        Real.log_lt_log (by positivity) (by gcongr)
      refine ⟨b1, a1, ?_⟩
      have := mul_pos (mul_pos h4 hs') (sub_pos.2 hl)
      simp only [BSSA14.f2R] at a2
      linarith

example := C93_bssa14_softens 0.1 0.5 250 (some 0.5) (.str "japan") (by norm_num) (by norm_num) (by norm_num)
example := C93_bssa14_nan (F.ofReal 300) none (.str "california")
example := C93_bssa14_two_steps
  ⟨[("mag", .num 7), ("dist_jb", .num 10), ("v_s30", .num 300), ("depth_1_0", .num 0.4)], []⟩
  ⟨[("mag", .num 7), ("dist_jb", .num 10), ("v_s30", .num 760)], []⟩
  { mag := 7, jb := 10, v := 300, z1 := some 0.4 }
  (by constructor <;> simp [Scenario.get, Dict.get?, Val.ofOpt])
  (by constructor <;> simp [Scenario.get, Dict.get?, Val.ofOpt]) rfl rfl (by norm_num)

/-! ## Lists of reference motions -/

theorem forall₂_zipWith {α β : Type} {P : β → β → Prop} {R : F → F → Prop} {f : α → β → F} {l : List α}
    {ys ys' : List β} (h : List.Forall₂ P ys ys')
    (H : ∀ a ∈ l, ∀ y y', P y y' → R (f a y) (f a y')) :
    List.Forall₂ R (List.zipWith f l ys) (List.zipWith f l ys') := by
  induction h generalizing l with
  | nil => cases l <;> simp
  | cons h1 _ ih =>
    cases l with
    | nil => simp
    | cons a l =>
      simp only [List.zipWith_cons_cons, List.forall₂_cons]
      exact ⟨H a (by simp) _ _ h1, ih fun a ha => H a (by simp [ha])⟩

theorem ofReal_exp_log {y : ℝ} (hy : 0 < y) : F.ofReal y = F.exp (F.ofReal (Real.log y)) := by
  ext <;> simp [Real.exp_log hy]

/-- a weaker and a stronger reference motion, period by period -/
def Stronger (ys ys' : List ℝ) : Prop := List.Forall₂ (fun y y' => 0 < y ∧ y ≤ y') ys ys'

theorem log_ratio_mono {p p' a b : ℝ} (hp : 0 < p) (hpp : p ≤ p') (ha : 0 ≤ a) (hab : a ≤ b) :
    Real.log (p + a) - Real.log (p + b) ≤ Real.log (p' + a) - Real.log (p' + b) := by
  have h : Real.log ((p + a) * (p' + b)) ≤ Real.log ((p' + a) * (p + b)) :=
    Real.log_le_log (mul_pos (by linarith) (by linarith)) (by nlinarith)
  rw [Real.log_mul (by linarith) (by linarith), Real.log_mul (by linarith) (by linarith)] at h
  linarith

/-! ## CY14 -/

/-- Two steps with the public interface give the model: the spectrum of the same scenario at
1130 m/s with the depth left out, plus `calc_site_term` of that spectrum (not of its logarithm) at
the velocity and depth wanted. -/
theorem C93_cy14_two_steps (s s0 : Scenario) (g : CY14.Given) (z : ℝ) (h : CY14.Source s g)
    (hz : g.z1 = some z) (h0 : CY14.Source s0 { g with v := 1130, z1 := none })
    (hk : ∀ k ∈ ["mechanism", "region", "on_hanging_wall", "vs_source"], s0.get k = s.get k)
    (hr : 0 ≤ g.rup) (hv : 0 < g.v) :
    ∃ o o0 t, Gives CY14.cls s o ∧ Gives CY14.cls s0 o0 ∧
      CY14.calcSiteTermOf (o0.gmm.lnResp.map F.exp) (F.ofReal g.v) (some (F.ofReal z)) (s.get "region")
        = pure t ∧ t.length = 26 ∧
      List.Forall₂ F.Same o.gmm.lnResp (spectrumAdd o0.gmm.lnResp t) := by
  have ek : CY14.kindOf s0 = CY14.kindOf s := by
    simp only [List.forall_mem_cons, List.not_mem_nil, false_imp_iff, implies_true, and_true] at hk
    simp [CY14.kindOf, hk]
  have g0 := CY14.gives h0
  rw [ek] at g0
  refine ⟨_, _, CY14.calcSiteTerm (((CY14.out (({ g with v := 1130, z1 := none } : CY14.Given).toIn
      (CY14.kindOf s))).gmm.lnResp).map F.exp) (F.ofReal g.v) (F.ofReal z) (s.get "region"),
      CY14.gives h, g0, ?_, ?_, ?_⟩
  · unfold CY14.calcSiteTermOf
    rw [broadcast_eq (by simp [CY14.out])]
    rfl
  · simp [CY14.calcSiteTerm, CY14.out, CY14.table_length]
  simp only [CY14.calcSiteTerm, CY14.out, List.map_map]
  rw [zipWith_self_map, spectrumAdd, zipWith_map_map]
  refine forall₂_map fun c hc => ?_
  have ej : (s.get "region").isStr "japan" = decide ((CY14.kindOf s).reg = .japan) := CY14.regOf_japan _
  rw [ej]
  set k := CY14.kindOf s
  have hok0 := CY14.lnResp_ok hc (g := { g with v := 1130, z1 := none }) hr (by norm_num) k
  have ev : (CY14.lnResp c (({ g with v := 1130, z1 := none } : CY14.Given).toIn k)).val =
      (CY14.lnRef c (g.toIn k)).val := by
    rw [CY14.lnResp_val]
    have e := CY14.effZ1_val_none (g := { g with v := 1130, z1 := none }) rfl (by norm_num) k
    rw [e]
    exact CY14.respR_rock c le_rfl _ _
  refine ⟨CY14.lnResp_ok hc hr hv k, ⟨hok0, CY14.siteTerm_ok hc hok0 trivial hv _⟩, ?_⟩
  simp only [Function.comp, F.val_add]
  rw [CY14.siteTerm_val, ev, CY14.lnResp_val]
  have : (g.effZ1 k).val = z := by simp [CY14.Given.effZ1, hz]
  rw [this]
  rfl

/-- A stronger reference motion never raises the site term, in any row, region or depth; from
1130 m/s on it makes no difference. -/
theorem C93_cy14_softens (ys ys' : List ℝ) (v z : ℝ) (region : Val) (hy : Stronger ys ys')
    (hl : ys.length = 26) (hv : 0 < v) :
    ∃ t t', CY14.calcSiteTermOf (ys.map F.ofReal) (F.ofReal v) (some (F.ofReal z)) region = pure t ∧
      CY14.calcSiteTermOf (ys'.map F.ofReal) (F.ofReal v) (some (F.ofReal z)) region = pure t' ∧
      t.length = 26 ∧ List.Forall₂ F.NotAbove t t' ∧ (1130 ≤ v → List.Forall₂ F.Same t t') := by
  have hl' : ys'.length = 26 := hl ▸ hy.length_eq.symm
  have e : ∀ l : List ℝ, l.length = 26 → CY14.calcSiteTermOf (l.map F.ofReal) (F.ofReal v) (some (F.ofReal z)) region
      = pure (List.zipWith (fun c y => CY14.siteTerm c (F.ofReal y) (F.ofReal v) (F.ofReal z)
        (region.isStr "japan")) CY14.table l) := by
    intro l hl
    unfold CY14.calcSiteTermOf
    rw [broadcast_eq (by simp [hl, CY14.table_length]), Py.pure_bind']
    simp only [CY14.calcSiteTerm, List.zipWith_map_right]
  refine ⟨_, _, e ys hl, e ys' hl', by simp [hl, CY14.table_length], ?_, ?_⟩
  · refine forall₂_zipWith hy fun c hc y y' ⟨h1, h2⟩ => ?_
    rw [ofReal_exp_log h1, ofReal_exp_log (h1.trans_le h2)]
    refine ⟨CY14.siteTerm_ok hc trivial trivial hv _, CY14.siteTerm_ok hc trivial trivial hv _, ?_⟩
    rw [CY14.siteTerm_val, CY14.siteTerm_val]
    simp only [F.val_ofReal, Real.exp_log h1, Real.exp_log (h1.trans_le h2)]
    obtain ⟨-, -, -, -, -, -, h4, -⟩ := CY14.row_facts c hc
    have h4' : (0 : ℝ) < c.phi_4 := by exact_mod_cast h4
    have hlog : Real.log ((y + c.phi_4) / c.phi_4) ≤ Real.log ((y' + c.phi_4) / c.phi_4) :=
      Real.log_le_log (by positivity) (by gcongr)
    have := mul_le_mul_of_nonpos_left hlog (CY14.bR_nonpos hc v)
    linarith
  · intro hv'
    refine forall₂_zipWith hy fun c hc y y' ⟨h1, h2⟩ => ?_
    rw [ofReal_exp_log h1, ofReal_exp_log (h1.trans_le h2)]
    refine ⟨CY14.siteTerm_ok hc trivial trivial hv _, CY14.siteTerm_ok hc trivial trivial hv _, ?_⟩
    rw [CY14.siteTerm_val, CY14.siteTerm_val, CY14.bR_rock c hv']
    simp

/-- The documentation asks for the logarithm of the reference motion.  Taken literally this fails:
wherever the logarithm is not positive (motions up to 1 g) the term is undefined. -/
theorem C93_cy14_log_argument (ys : List ℝ) (v z : F) (region : Val) (hl : ys.length = 26) :
    ∃ t, CY14.calcSiteTermOf (ys.map F.ofReal) v (some z) region = pure t ∧ t.length = 26 ∧
      ∀ i (hi : i < 26), ys[i]'(hl ▸ hi) ≤ 0 → ¬ (t.getD i F.nan).ok := by
  refine ⟨List.zipWith (fun c y => CY14.siteTerm c (F.ofReal y) v z (region.isStr "japan")) CY14.table ys,
    ?_, ?_, ?_⟩
  · unfold CY14.calcSiteTermOf
    rw [broadcast_eq (by simp [hl, CY14.table_length]), Py.pure_bind']
    simp only [CY14.calcSiteTerm, List.zipWith_map_right]
  · simp [hl, CY14.table_length]
  · intro i hi hy
    have h1 : i < CY14.table.length := by rw [CY14.table_length]; exact hi
    have h2 : i < ys.length := hl ▸ hi
    rw [List.getD_eq_getElem?_getD, List.getElem?_zipWith_eq_some.2 ⟨_, _, List.getElem?_eq_getElem h1,
      List.getElem?_eq_getElem h2, rfl⟩, Option.getD_some]
    simp only [CY14.siteTerm, fsimp, not_and, not_lt.2 hy]
    tauto

/-- Leaving the depth out, which the scenario allows, is an error here. -/
theorem C93_cy14_needs_depth (resp : List F) (v : F) (region : Val) (hl : resp.length = 26) :
    (CY14.calcSiteTermOf resp v none region).res = .error .typeError := by
  unfold CY14.calcSiteTermOf
  rw [broadcast_eq (by simp [hl, CY14.table_length]), Py.pure_bind']
  rfl

/-! ## CB14 -/

/-- Two steps with the public interface give the model: the spectrum of the same scenario at
1100 m/s with the depth left out, plus `calc_site_term` of its peak acceleration at the velocity
and depth wanted, minus the term of the reference condition (`nan` as reference). -/
theorem C93_cb14_two_steps (s s0 : Scenario) (g : CB14.Given) (z : ℝ) (h : CB14.Source s g)
    (hz : g.z25 = some z) (h0 : CB14.Source s0 { g with v := 1100, z25 := none })
    (hm : s0.get "mechanism" = s.get "mechanism") (hr : s0.get "region" = s.get "region")
    (hreg : CB14.Regular g (CB14.mechOf (s.get "mechanism"))) (hv : 0 < g.v) :
    ∃ o o0 t t0, Gives CB14.cls s o ∧ Gives CB14.cls s0 o0 ∧
      CB14.calcSiteTerm (some (F.exp (o0.gmm.lnResp.getD 21 F.nan))) (F.ofReal g.v) (some (F.ofReal z))
        (s.get "region") = pure t ∧
      CB14.calcSiteTerm none (F.ofReal 1100) none (s.get "region") = pure t0 ∧
      t.length = 23 ∧ t0.length = 23 ∧
      List.Forall₂ F.Same o.gmm.lnResp (spectrumSub (spectrumAdd o0.gmm.lnResp t) t0) := by
  have g1 := CB14.gives h hv.ne'
  have G0 := CB14.gives h0 (by norm_num)
  rw [hm, hr] at G0
  refine ⟨_, _, _, _, g1, G0, rfl, rfl, by simp [CB14.table_length], by simp [CB14.table_length], ?_⟩
  rw [CB14.regOf_japan]
  set mech := CB14.mechOf (s.get "mechanism")
  set reg := CB14.regOf (s.get "region")
  set g0 : CB14.Given := { g with v := 1100, z25 := none } with hg0
  have hreg0 : CB14.Regular g0 mech := ⟨hreg.dip, hreg.hw⟩
  have ep : CB14.pgaRef (g0.toIn mech reg) = CB14.pgaRef (g.toIn mech reg) := rfl
  have rock : ∀ c ∈ CB14.table, (CB14.siteTerm c (some (CB14.pgaRef (g0.toIn mech reg))) (F.ofReal 1100)
      (g0.effZ25 reg) (reg = .japan)).val = (CB14.siteTerm c none (F.ofReal 1100) F.nan (reg = .japan)).val := by
    intro c hc
    obtain ⟨-, hk2, -⟩ := CB14.row_facts c hc
    have hk2' : (c.k_1 : ℝ) < 1100 := by exact_mod_cast hk2
    have e : g0.effZ25 reg = CB14.depth25OfVs (F.ofReal 1100) (reg = .japan) := by
      have : (CB14.depth25OfVs (F.ofReal 1100) (decide (reg = .japan))).ok := by
        cases (decide (reg = .japan)) <;> simp [CB14.depth25OfVs]
      exact F.orEst_none this
    rw [e]
    simp only [CB14.siteTerm, CB14.fSite, fsimp, if_neg (not_le.2 hk2')]
  have base : ∀ c ∈ CB14.table, (CB14.lnResp c (g0.toIn mech reg) (some (CB14.pgaRef (g0.toIn mech reg)))
      (F.ofReal 1100)).ok ∧ (CB14.lnResp c (g0.toIn mech reg) (some (CB14.pgaRef (g0.toIn mech reg)))
      (F.ofReal 1100)).val = (CB14.rest c (g.toIn mech reg)).val +
        (CB14.siteTerm c none (F.ofReal 1100) F.nan (reg = .japan)).val := by
    intro c hc
    refine ⟨CB14.resp_ok hc hreg0 (by norm_num [hg0]) reg, ?_⟩
    rw [CB14.lnResp_val, ← rock c hc]
    rfl
  have hp : F.exp ((CB14.out (g0.toIn mech reg)).gmm.lnResp.getD 21 F.nan) = CB14.pgaRef (g.toIn mech reg) := by
    rw [CB14.out_resp _ (k := 21) (by rw [CB14.table_length]; norm_num)]
    have hpm : CB14.pgaRow ∈ CB14.table := CB14.pgaRow_mem
    obtain ⟨b1, b2⟩ := base _ hpm
    have q1 := CB14.pgaRef_ok hreg reg
    apply F.ext
    · rw [F.val_exp, CB14.pgaRef_eq (g.toIn mech reg), F.val_exp, CB14.lnResp_val CB14.pgaRow]
      exact congrArg Real.exp b2
    · simp only [F.ok_exp, q1, iff_true, eq_iff_iff]
      exact b1
  rw [hp]
  simp only [CB14.out, spectrumAdd, spectrumSub, zipWith_map_map]
  refine forall₂_map fun c hc => ?_
  obtain ⟨b1, b2⟩ := base c hc
  have ez : g.effZ25 reg = F.ofReal z := by simp [CB14.Given.effZ25, hz]
  refine ⟨CB14.resp_ok hc hreg hv reg, ⟨⟨b1, CB14.siteTerm_ok hc (CB14.pgaRef_ok hreg reg)
    (CB14.pgaRef_pos _) hv trivial _⟩, CB14.siteTerm_ref hc _ _⟩, ?_⟩
  rw [F.val_sub, F.val_add]
  symm
  have e1 := b2
  have e2 : (CB14.lnResp c (g.toIn mech reg) (some (CB14.pgaRef (g.toIn mech reg))) (F.ofReal g.v)).val =
      (CB14.rest c (g.toIn mech reg)).val + (CB14.siteTerm c (some (CB14.pgaRef (g.toIn mech reg))) (F.ofReal g.v)
        (F.ofReal z) (reg = .japan)).val := by
    rw [CB14.lnResp_val, ← ez]; rfl
  change (CB14.lnResp c (g.toIn mech reg) (some (CB14.pgaRef (g.toIn mech reg))) (F.ofReal g.v)).val =
    (CB14.lnResp c (g0.toIn mech reg) (some (CB14.pgaRef (g0.toIn mech reg))) (F.ofReal 1100)).val +
    (CB14.siteTerm c (some (CB14.pgaRef (g.toIn mech reg))) (F.ofReal g.v) (F.ofReal z) (reg = .japan)).val -
    (CB14.siteTerm c none (F.ofReal 1100) F.nan (reg = .japan)).val
  rw [e1, e2]
  ring

/-- A stronger reference motion never raises the site term, in any row, region or depth. -/
theorem C93_cb14_softens (p p' v z : ℝ) (region : Val) (hp : 0 < p) (hpp : p ≤ p') (hv : 0 < v) :
    ∃ t t', CB14.calcSiteTerm (some (F.ofReal p)) (F.ofReal v) (some (F.ofReal z)) region = pure t ∧
      CB14.calcSiteTerm (some (F.ofReal p')) (F.ofReal v) (some (F.ofReal z)) region = pure t' ∧
      t.length = 23 ∧ List.Forall₂ F.NotAbove t t' ∧
      (1100 ≤ v → List.Forall₂ F.Same t t') := by
  refine ⟨_, _, rfl, rfl, by simp [CB14.table_length], ?_, ?_⟩
  · refine forall₂_map fun c hc => ⟨CB14.siteTerm_ok hc trivial hp hv trivial _,
      CB14.siteTerm_ok hc trivial (hp.trans_le hpp) hv trivial _, ?_⟩
    rw [CB14.siteTerm_val, CB14.siteTerm_val]
    simp only [CB14.surfR, F.val_ofReal, Option.getD_some]
    obtain ⟨hk, -, -, -, -, -, -, -, -, -, -, -, -, hk2⟩ := CB14.row_facts c hc
    have hk' : (0 : ℝ) < c.k_1 := by exact_mod_cast hk
    have hk2' : (c.k_2 : ℝ) ≤ 0 := by exact_mod_cast hk2
    have : CB14.siteR c v p' ≤ CB14.siteR c v p := by
      unfold CB14.siteR
      split
      · rename_i hle
        have hr0 : 0 ≤ v / (c.k_1 : ℝ) := by positivity
        have hr1 : v / (c.k_1 : ℝ) ≤ 1 := (div_le_one hk').2 hle
        have h1 : (v / (c.k_1 : ℝ)) ^ (1.18 : ℝ) ≤ 1 := Real.rpow_le_one hr0 hr1 (by norm_num)
        have h0 : 0 ≤ (v / (c.k_1 : ℝ)) ^ (1.18 : ℝ) := by positivity
        have := log_ratio_mono hp hpp (a := 1.88 * (v / (c.k_1 : ℝ)) ^ (1.18 : ℝ)) (b := 1.88)
          (by positivity) (by linarith)
        have := mul_le_mul_of_nonpos_left this hk2'
        linarith
      · exact le_rfl
    linarith
  · intro h11
    refine forall₂_map fun c hc => ⟨CB14.siteTerm_ok hc trivial hp hv trivial _,
      CB14.siteTerm_ok hc trivial (hp.trans_le hpp) hv trivial _, ?_⟩
    obtain ⟨-, hk2, -⟩ := CB14.row_facts c hc
    have hk2' : (c.k_1 : ℝ) < 1100 := by exact_mod_cast hk2
    rw [CB14.siteTerm_val, CB14.siteTerm_val]
    simp only [CB14.surfR, F.val_ofReal, CB14.siteR_rock (c := c) (v := v) (by linarith) p p']

/-- Leaving the depth out is an error, except with `nan` as reference. -/
theorem C93_cb14_needs_depth (p v : F) (region : Val) :
    (CB14.calcSiteTerm (some p) v none region).res = .error .typeError := rfl

/-! ## ASK14 -/

namespace ASK14

theorem siteTerm_facts {c : Row} (hc : c ∈ table) {x : F} (hx : x.ok) {v : ℝ} (hv : 0 < v) {z1 : Option ℝ}
    (hz : ∀ z, z1 = some z → -0.01 < z) (j : Bool) :
    (siteTerm c (F.exp x) (F.ofReal v) (z1.map F.ofReal) j).ok ∧
    (siteTerm c (F.exp x) (F.ofReal v) (z1.map F.ofReal) j).val =
      f5R c v x.val + (f10 c (F.ofReal v) (z1.map F.ofReal) j).val :=
  ⟨⟨f5_ok hc hx hv, f10_ok c hv hz j⟩, by rw [siteTerm, F.val_add, f5_val hc]⟩

theorem f5R_softens {c : Row} (hc : c ∈ table) {v x x' : ℝ} (hv : 0 < v) (hx : x ≤ x') :
    f5R c v x' ≤ f5R c v x := by
  obtain ⟨-, -, -, hb, h5, -⟩ := row_facts c hc
  have h5' : (0 : ℝ) < c.c := by exact_mod_cast h5
  have hb' : (c.b : ℝ) ≤ 0 := by exact_mod_cast hb
  have hp := ratioR_pos hc hv
  unfold f5R
  split
  · rename_i h1
    have h1' : ratioR c v ^ (1.5 : ℝ) ≤ 1 := Real.rpow_le_one hp.le h1.le (by norm_num)
    have h0 : 0 ≤ ratioR c v ^ (1.5 : ℝ) := by positivity
    have := log_ratio_mono (Real.exp_pos x) (Real.exp_le_exp.2 hx) (a := c.c * ratioR c v ^ (1.5 : ℝ))
      (b := c.c) (by positivity) (by nlinarith)
    have := mul_le_mul_of_nonpos_left this hb'
    linarith
  · exact le_rfl

theorem f5R_rock {c : Row} (hc : c ∈ table) {v : ℝ} (hv : 960 ≤ v) (x x' : ℝ) : f5R c v x = f5R c v x' := by
  have h : ¬ ratioR c v < 1 := by rw [ratioR_lt hc]; linarith [(vlin_pos hc).2.1]
  simp [f5R, h]

end ASK14

/-- A stronger reference motion never raises the site term, in any row, region or depth. -/
theorem C93_ask14_softens (ys ys' : List ℝ) (v : ℝ) (z1 : Option ℝ) (region : Val) (hy : Stronger ys ys')
    (hl : ys.length = 24) (hv : 0 < v) (hz : ∀ z, z1 = some z → -0.01 < z) :
    ∃ t t', ASK14.calcSiteTermOf (ys.map F.ofReal) (F.ofReal v) (z1.map F.ofReal) region = pure t ∧
      ASK14.calcSiteTermOf (ys'.map F.ofReal) (F.ofReal v) (z1.map F.ofReal) region = pure t' ∧
      t.length = 24 ∧ List.Forall₂ F.NotAbove t t' ∧ (960 ≤ v → List.Forall₂ F.Same t t') := by
  have hl' : ys'.length = 24 := hl ▸ hy.length_eq.symm
  have e : ∀ l : List ℝ, l.length = 24 → ASK14.calcSiteTermOf (l.map F.ofReal) (F.ofReal v) (z1.map F.ofReal) region
      = pure (List.zipWith (fun c y => ASK14.siteTerm c (F.ofReal y) (F.ofReal v) (z1.map F.ofReal)
        (region.isStr "japan")) ASK14.table l) := by
    intro l hl
    unfold ASK14.calcSiteTermOf
    rw [broadcast_eq (by simp [hl, ASK14.table_length]), Py.pure_bind']
    simp only [List.zipWith_map_right]
  refine ⟨_, _, e ys hl, e ys' hl', by simp [hl, ASK14.table_length], ?_, ?_⟩
  · refine forall₂_zipWith hy fun c hc y y' ⟨h1, h2⟩ => ?_
    rw [ofReal_exp_log h1, ofReal_exp_log (h1.trans_le h2)]
    obtain ⟨a1, a2⟩ := ASK14.siteTerm_facts hc (x := F.ofReal (Real.log y)) trivial hv hz (region.isStr "japan")
    obtain ⟨b1, b2⟩ := ASK14.siteTerm_facts hc (x := F.ofReal (Real.log y')) trivial hv hz (region.isStr "japan")
    refine ⟨a1, b1, ?_⟩
    rw [a2, b2]
    have := ASK14.f5R_softens hc hv (Real.log_le_log h1 h2)
    simp only [F.val_ofReal]
    linarith
  · intro hv'
    refine forall₂_zipWith hy fun c hc y y' ⟨h1, h2⟩ => ?_
    rw [ofReal_exp_log h1, ofReal_exp_log (h1.trans_le h2)]
    obtain ⟨a1, a2⟩ := ASK14.siteTerm_facts hc (x := F.ofReal (Real.log y)) trivial hv hz (region.isStr "japan")
    obtain ⟨b1, b2⟩ := ASK14.siteTerm_facts hc (x := F.ofReal (Real.log y')) trivial hv hz (region.isStr "japan")
    refine ⟨a1, b1, ?_⟩
    rw [a2, b2, ASK14.f5R_rock hc hv' _ (F.ofReal (Real.log y)).val]

/-- Two steps with the public interface give the model, outside Taiwan and Japan (whose regional
velocity terms are not part of `calc_site_term`): the spectrum of the same scenario at 1180 m/s,
plus `calc_site_term` of that spectrum at the velocity wanted, minus `calc_site_term` at
1180 m/s. -/
theorem C93_ask14_two_steps (s s0 : Scenario) (g : ASK14.Given) (h : ASK14.Source s g)
    (h0 : ASK14.Source s0 { g with v := 1180 })
    (hk : ∀ k ∈ ["mechanism", "region", "on_hanging_wall", "vs_source", "is_aftershock"], s0.get k = s.get k)
    (hreg : s.get "region" ≠ .str "taiwan" ∧ s.get "region" ≠ .str "japan")
    (hw : (s.get "on_hanging_wall").isOn → g.x ≠ none ∧ 0 < g.dip ∧ g.dip < 90 ∧ ∀ w, g.width = some w → 0 < w)
    (hz : ∀ z, g.z1 = some z → -0.01 < z) (hv : 0 < g.v) :
    ∃ o o0 t t0, Gives ASK14.cls s o ∧ Gives ASK14.cls s0 o0 ∧
      ASK14.calcSiteTermOf (o0.gmm.lnResp.map F.exp) (F.ofReal g.v) (g.z1.map F.ofReal) (s.get "region") = pure t ∧
      ASK14.calcSiteTermOf (o0.gmm.lnResp.map F.exp) (F.ofReal 1180) (g.z1.map F.ofReal) (s.get "region") = pure t0 ∧
      t.length = 24 ∧ t0.length = 24 ∧
      List.Forall₂ F.Same o.gmm.lnResp (spectrumSub (spectrumAdd o0.gmm.lnResp t) t0) := by
  simp only [List.forall_mem_cons, List.not_mem_nil, false_imp_iff, implies_true, and_true] at hk
  obtain ⟨k1, k2, k3, k4, k5⟩ := hk
  have ek : ASK14.kindOf s0 = ASK14.kindOf s := by simp [ASK14.kindOf, k1, k2, k3, k4, k5]
  have hhw : g.HwOk (ASK14.kindOf s) := by
    intro hk
    exact hw (by simpa [ASK14.kindOf] using hk)
  have g0 := ASK14.gives h0 (by rw [ek]; exact fun hk => (hhw hk).1)
  rw [ek] at g0
  have e : ∀ v : ℝ, ASK14.calcSiteTermOf ((ASK14.out (({ g with v := 1180 } : ASK14.Given).toIn
      (ASK14.kindOf s))).gmm.lnResp.map F.exp) (F.ofReal v) (g.z1.map F.ofReal) (s.get "region") =
      pure (ASK14.table.map fun c => ASK14.siteTerm c (F.exp (ASK14.lnResp c (({ g with v := 1180 } : ASK14.Given).toIn
      (ASK14.kindOf s)))) (F.ofReal v) (g.z1.map F.ofReal) ((s.get "region").isStr "japan")) := by
    intro v
    unfold ASK14.calcSiteTermOf
    rw [broadcast_eq (by simp [ASK14.out]), Py.pure_bind']
    simp only [ASK14.out, List.map_map, zipWith_self_map, Function.comp]
  refine ⟨_, _, _, _, ASK14.gives h fun hk => (hhw hk).1, g0, e g.v, e 1180, by simp [ASK14.table_length],
    by simp [ASK14.table_length], ?_⟩
  have ej : (s.get "region").isStr "japan" = decide ((ASK14.kindOf s).reg = .japan) := by
    simp only [ASK14.kindOf, ASK14.regOf]
    by_cases h : (s.get "region").isStr "taiwan" <;> by_cases h2 : (s.get "region").isStr "china" <;>
      by_cases h3 : (s.get "region").isStr "japan" <;> simp_all [Val.isStr]
  rw [ej]
  have hfr : ∀ (c : ASK14.Row) (v w r : F), ASK14.freg c v r (ASK14.kindOf s).reg = ASK14.freg c w r (ASK14.kindOf s).reg := by
    intro c v w r
    have h1 : (ASK14.kindOf s).reg ≠ .taiwan := by
      simp only [ASK14.kindOf, ASK14.regOf]
      split
      · rename_i hh; exact absurd (by simpa [Val.isStr] using hh) hreg.1
      · split
        · simp
        · split <;> simp
    have h2 : (ASK14.kindOf s).reg ≠ .japan := by
      simp only [ASK14.kindOf, ASK14.regOf]
      split
      · simp
      · split
        · simp
        · split
          · rename_i hh; exact absurd (by simpa [Val.isStr] using hh) hreg.2
          · simp
    cases hh : (ASK14.kindOf s).reg <;> simp_all [ASK14.freg]
  generalize ASK14.kindOf s = k at *
  simp only [ASK14.out, spectrumAdd, spectrumSub, zipWith_map_map]
  refine forall₂_map fun c hc => ?_
  have hz0 : ∀ z, ({ g with v := 1180 } : ASK14.Given).z1 = some z → -0.01 < z := hz
  have q0 := ASK14.resp_ok hc (g := { g with v := 1180 }) (k := k) hhw (by norm_num) hz0
  obtain ⟨a1, a2⟩ := ASK14.siteTerm_facts hc q0 hv hz (decide (k.reg = .japan))
  obtain ⟨b1, b2⟩ := ASK14.siteTerm_facts hc q0 (v := 1180) (by norm_num) hz (decide (k.reg = .japan))
  refine ⟨ASK14.resp_ok hc hhw hv hz, ⟨⟨q0, a1⟩, b1⟩, ?_⟩
  have er : ASK14.refR c { g with v := 1180 } k = ASK14.refR c g k := rfl
  have v0 := ASK14.resp_val hc { g with v := 1180 } k
  have v1 := ASK14.resp_val hc g k
  have f0 := (ASK14.f10_ref c g.z1 (decide (k.reg = .japan))).2
  have fn : ASK14.f5R c 1180 (ASK14.refR c g k) = (c.a10 + (c.b : ℝ) * c.n) * Real.log (ASK14.ratioR c 1180) := by
    have hn : ¬ ASK14.ratioR c 1180 < 1 := by
      rw [ASK14.ratioR_lt hc]; linarith [(ASK14.vlin_pos hc).2.1]
    simp [ASK14.f5R, hn]
  have eb : ASK14.baseF c (({ g with v := 1180 } : ASK14.Given).toIn k) = ASK14.baseF c (g.toIn k) := rfl
  have ex : (ASK14.lnResp c (({ g with v := 1180 } : ASK14.Given).toIn k)).val = ASK14.refR c g k := by
    rw [v0, eb, er]
    simp only []
    rw [fn, hfr c (F.ofReal 1180) ASK14.vRef, ASK14.refR]
    change _ + (ASK14.f10 c ASK14.vRef _ _).val = _
    rw [f0]; ring
  rw [F.val_sub, F.val_add, a2, b2, v1, ex]
  have f0' : (ASK14.f10 c (F.ofReal 1180) (g.z1.map F.ofReal) (decide (k.reg = .japan))).val = 0 := f0
  rw [f0', fn, ASK14.refR, hfr c (F.ofReal g.v) ASK14.vRef]
  ring

/-! ## Instances -/

example := C93_cy14_softens (List.replicate 26 0.1) (List.replicate 26 0.5) 300 0.4 (.str "japan")
  (by simp [Stronger, List.replicate]; norm_num) (by simp) (by norm_num)
example := C93_cy14_log_argument (List.replicate 26 (-2)) (F.ofReal 300) (F.ofReal 0.4) (.str "japan") (by simp)
example := C93_cy14_needs_depth (List.replicate 26 (F.ofReal 0.3)) (F.ofReal 300) (.str "japan") (by simp)
example := C93_cb14_softens 0.1 0.5 250 1.5 (.str "japan") (by norm_num) (by norm_num) (by norm_num)
example := C93_cb14_needs_depth (F.ofReal 0.2) (F.ofReal 300) (.str "japan")
example := C93_ask14_softens (List.replicate 24 0.1) (List.replicate 24 0.5) 300 (some 0.4) (.str "japan")
  (by simp [Stronger, List.replicate]; norm_num) (by simp) (by norm_num) (by simp; norm_num)
example := C93_ask14_two_steps (ASK14.exS ASK14.exG "china" true) (ASK14.exS { ASK14.exG with v := 1180 } "china" true)
  ASK14.exG (ASK14.ex_source _ rfl rfl rfl rfl _ _) (ASK14.ex_source _ rfl rfl rfl rfl _ _)
  (by simp [ASK14.exS, Scenario.get, Dict.get?]) (by simp [ASK14.exS, Scenario.get, Dict.get?])
  (fun _ => ⟨by simp [ASK14.exG], by norm_num [ASK14.exG], by norm_num [ASK14.exG], by simp [ASK14.exG]⟩)
  (by simp [ASK14.exG]) (by norm_num [ASK14.exG])
example := C93_cy14_two_steps
  ⟨[("mag", .num 7), ("dist_rup", .num 12), ("dist_jb", .num 10), ("dist_x", .num 9), ("dip", .num 60),
    ("v_s30", .num 300), ("depth_1_0", .num 0.4), ("region", .str "japan"), ("on_hanging_wall", .bool true)], []⟩
  ⟨[("mag", .num 7), ("dist_rup", .num 12), ("dist_jb", .num 10), ("dist_x", .num 9), ("dip", .num 60),
    ("v_s30", .num 1130), ("region", .str "japan"), ("on_hanging_wall", .bool true)], []⟩
  { mag := 7, rup := 12, jb := 10, x := 9, dip := 60, v := 300, z1 := some 0.4 } 0.4
  (by constructor <;> simp [Scenario.get, Dict.get?, Val.ofOpt]) rfl
  (by constructor <;> simp [Scenario.get, Dict.get?, Val.ofOpt]) (by simp [Scenario.get, Dict.get?])
  (by norm_num) (by norm_num)
example := C93_cb14_two_steps
  ⟨[("mag", .num 7), ("dist_rup", .num 12), ("dist_jb", .num 10), ("dist_x", .num (-9)), ("dip", .num 60),
    ("v_s30", .num 300), ("depth_2_5", .num 2), ("depth_hyp", .num 8), ("mechanism", .str "RS")], []⟩
  ⟨[("mag", .num 7), ("dist_rup", .num 12), ("dist_jb", .num 10), ("dist_x", .num (-9)), ("dip", .num 60),
    ("v_s30", .num 1100), ("depth_hyp", .num 8), ("mechanism", .str "RS")], []⟩
  { mag := 7, rup := 12, jb := 10, x := -9, dip := 60, v := 300, z25 := some 2, hyp := some 8 } 2
  (by constructor <;> simp [Scenario.get, Dict.get?, Val.ofOpt]) rfl
  (by constructor <;> simp [Scenario.get, Dict.get?, Val.ofOpt]) rfl rfl
  ⟨fun _ => by norm_num, fun h => by norm_num at h⟩ (by norm_num)
