import Verif.Cont
import Verif.Props.CY14
import Verif.Props.ASK14
import Verif.Props.BSSA14
import Verif.Props.CB14
import Verif.Props.I14
import Verif.Props.Irrelevant

/-! # C115: predictions depend continuously on all numeric inputs at once -/

open Filter Topology
open Bounds

set_option linter.unusedSimpArgs false

variable {X : Type*} [TopologicalSpace X]

namespace CY14

/-- every numeric input moves continuously -/
structure InCont (i : X → In) (x₀ : X) : Prop where
  mag : F.CA (fun x => (i x).mag) x₀
  rup : F.CA (fun x => (i x).rup) x₀
  jb : F.CA (fun x => (i x).jb) x₀
  x : F.CA (fun x => (i x).x) x₀
  dip : F.CA (fun x => (i x).dip) x₀
  tor : F.CA (fun x => (i x).tor) x₀
  z1 : F.CA (fun x => (i x).z1) x₀
  dpp : F.CA (fun x => (i x).dpp) x₀
  v : F.CA (fun x => (i x).v) x₀
  mech : ∀ x, (i x).mech = (i x₀).mech
  reg : ∀ x, (i x).reg = (i x₀).reg
  hw : ∀ x, (i x).hw = (i x₀).hw
  measured : ∀ x, (i x).measured = (i x₀).measured

theorem coshMag_CA {m : X → F} {x₀ : X} (hm : F.CA m x₀) : F.CA (fun x => coshMag (m x)) x₀ := by
  unfold coshMag; fcont

theorem calcDepthTor_CA {m : X → F} {x₀ : X} (hm : F.CA m x₀) (b : Bool) :
    F.CA (fun x => calcDepthTor (m x) b) x₀ := by
  unfold calcDepthTor; cases b <;> simp only [Bool.false_eq_true, if_true, if_false] <;> fcont

theorem calcDepth10_CA {m : X → F} {x₀ : X} (hm : F.CA m x₀) (b : Bool) :
    F.CA (fun x => calcDepth10 (m x) b) x₀ := by
  unfold calcDepth10 depth10; cases b <;> simp only [Bool.false_eq_true, if_true, if_false] <;> fcont

theorem scale_CA (c : Row) {m : X → F} {x₀ : X} (hm : F.CA m x₀) (r : Reg)
    (h : r = .japan ∨ r = .italy → (m x₀).val ≠ 6 ∧ (m x₀).val ≠ 6.9) :
    F.CA (fun x => scale c (m x) r) x₀ := by
  unfold scale
  cases r
  · obtain ⟨h1, h2⟩ := h (Or.inl rfl)
    dsimp only
    fcont
    · intro _ _ _ e; exact absurd e (by simpa [fsimp] using h2)
    · intro _ _ _ e; exact absurd e.symm (by simpa [fsimp] using h1)
  · obtain ⟨h1, h2⟩ := h (Or.inr rfl)
    dsimp only
    fcont
    · intro _ _ _ e; exact absurd e (by simpa [fsimp] using h2)
    · intro _ _ _ e; exact absurd e.symm (by simpa [fsimp] using h1)
  all_goals fcont

theorem lnRef_CA (c : Row) {i : X → In} {x₀ : X} (h : InCont i x₀)
    (hj : (i x₀).reg = .japan ∨ (i x₀).reg = .italy → (i x₀).mag.val ≠ 6 ∧ (i x₀).mag.val ≠ 6.9) :
    F.CA (fun x => lnRef c (i x)) x₀ := by
  have ⟨h1, h2, h3, h4, h5, h6, h7, h8, h9, e1, e2, e3, e4⟩ := h
  have hs := scale_CA c h1 (i x₀).reg hj
  have hc := coshMag_CA h1
  have ht := fun b => calcDepthTor_CA h1 b
  unfold lnRef fFlt fTor fDip fMag fDist fAtn fDir fHng
  simp only [e1, e2, e3]
  cases (i x₀).mech <;> cases (i x₀).hw <;> simp only [Bool.false_eq_true, if_true, if_false] <;> fcont <;> exact ht _

theorem bNl_CA (c : Row) {v : X → F} {x₀ : X} (hv : F.CA v x₀) : F.CA (fun x => bNl c (v x)) x₀ := by
  unfold bNl; fcont

theorem siteTerm_CA (c : Row) {y v z1 : X → F} {x₀ : X} (hy : F.CA y x₀) (hv : F.CA v x₀)
    (hz : F.CA z1 x₀) (b : Bool) : F.CA (fun x => siteTerm c (y x) (v x) (z1 x) b) x₀ := by
  have h1 := bNl_CA c hv
  have h2 := calcDepth10_CA hv b
  unfold siteTerm
  dsimp only
  fcont

theorem lnResp_CA (c : Row) {i : X → In} {x₀ : X} (h : InCont i x₀)
    (hj : (i x₀).reg = .japan ∨ (i x₀).reg = .italy → (i x₀).mag.val ≠ 6 ∧ (i x₀).mag.val ≠ 6.9) :
    F.CA (fun x => lnResp c (i x)) x₀ := by
  have h1 := lnRef_CA c h hj
  have h2 := siteTerm_CA c (F.CA.exp h1) h.v h.z1 ((i x₀).reg = .japan)
  unfold lnResp
  simp only [h.reg]
  fcont

theorem nl0_CA (c : Row) {i : X → In} {x₀ : X} (h : InCont i x₀)
    (hj : (i x₀).reg = .japan ∨ (i x₀).reg = .italy → (i x₀).mag.val ≠ 6 ∧ (i x₀).mag.val ≠ 6.9) :
    F.CA (fun x => nl0 c (i x)) x₀ := by
  have h1 := lnRef_CA c h hj
  have h2 := bNl_CA c h.v
  unfold nl0
  fcont

theorem std_CA (c : Row) {i : X → In} {x₀ : X} (h : InCont i x₀)
    (hj : (i x₀).reg = .japan ∨ (i x₀).reg = .italy → (i x₀).mag.val ≠ 6 ∧ (i x₀).mag.val ≠ 6.9) :
    F.CA (fun x => phi c (i x)) x₀ ∧ F.CA (fun x => tau c (i x)) x₀ ∧ F.CA (fun x => lnStd c (i x)) x₀ := by
  have h1 := nl0_CA c h hj
  have hm := h.mag
  have h2 : F.CA (fun x => phi c (i x)) x₀ := by
    unfold phi clippedMag
    simp only [h.reg, h.measured]
    fcont
  have h3 : F.CA (fun x => tauMag c (i x).mag) x₀ := by
    unfold tauMag clippedMag
    fcont
  refine ⟨h2, ?_, ?_⟩
  · unfold tau; fcont
  · unfold lnStd; fcont

theorem depth10_ok {a b v : F} (ha : a.ok) (hb : b.ok) (hp : 0 < b.val) (hv : v.ok) {n : ℕ} (hn : Even n) :
    (depth10 a b n v).ok := by
  have h1 : 0 < b.val ^ n := pow_pos hp n
  have h2 : 0 ≤ v.val ^ n := hn.pow_nonneg _
  have h3 : (0 : ℝ) < 1360 ^ n := by positivity
  simp only [depth10, fsimp, ha, hb, hv, true_and, and_true]
  refine ⟨⟨by linarith, ?_⟩, by norm_num⟩
  rw [lt_div_iff₀ (by linarith)]; linarith

theorem calcDepth10_ok' {v : F} (hv : v.ok) (b : Bool) : (calcDepth10 v b).ok := by
  unfold calcDepth10
  split
  · exact depth10_ok (by simp) (by simp) (by norm_num [fsimp]) hv (by decide)
  · exact depth10_ok (by simp) (by simp) (by norm_num [fsimp]) hv (by decide)

theorem regOf_ji {v : Val} (h : regOf v = .japan ∨ regOf v = .italy) :
    v = .str "japan" ∨ v = .str "italy" := by
  unfold regOf at h
  by_cases a : v.isStr "japan"
  · exact Or.inl (by simpa [Val.isStr] using a)
  by_cases b : v.isStr "italy"
  · exact Or.inr (by simpa [Val.isStr] using b)
  by_cases c : v.isStr "china" <;> simp [a, b, c] at h

/-- the formulas' inputs of a family of scenarios -/
theorem family {ks : List String} {S : X → Scenario} {x₀ : X} {g₀ : Given} (h : Varies ks S x₀)
    (h0 : Source (S x₀) g₀)
    (hks : ∀ k ∈ ["mechanism", "region", "on_hanging_wall", "vs_source"], k ∉ ks) :
    ∃ g : X → Given, g x₀ = g₀ ∧ (∀ x, Gives cls (S x) (out ((g x).toIn (kindOf (S x₀))))) ∧
      InCont (fun x => (g x).toIn (kindOf (S x₀))) x₀ := by
  obtain ⟨mag, e1, f1, c1⟩ := h.num h0.mag
  obtain ⟨rup, e2, f2, c2⟩ := h.num h0.rup
  obtain ⟨jb, e3, f3, c3⟩ := h.num h0.jb
  obtain ⟨x', e4, f4, c4⟩ := h.num h0.x
  obtain ⟨dip, e5, f5, c5⟩ := h.num h0.dip
  obtain ⟨v, e6, f6, c6⟩ := h.num h0.v
  obtain ⟨tor, e7, f7, c7⟩ := h.opt h0.tor
  obtain ⟨z1, e8, f8, c8⟩ := h.opt h0.z1
  obtain ⟨dpp, e9, f9, c9⟩ := h.opt h0.dpp
  have hk : ∀ x, kindOf (S x) = kindOf (S x₀) := fun x => by
    unfold kindOf
    rw [h.fixed _ (hks "mechanism" (by simp)), h.fixed _ (hks "region" (by simp)),
      h.fixed _ (hks "on_hanging_wall" (by simp)), h.fixed _ (hks "vs_source" (by simp))]
  refine ⟨fun x => ⟨mag x, rup x, jb x, x' x, dip x, v x, tor x, z1 x, dpp x⟩, ?_, fun x => ?_, ?_⟩
  · dsimp only; rw [f1, f2, f3, f4, f5, f6, f7, f8, f9]
  · rw [← hk x]
    exact gives ⟨e1 x, e2 x, e3 x, e4 x, e5 x, e6 x, e7 x, e8 x, e9 x⟩
  · have m := F.CA.ofReal c1
    have vv := F.CA.ofReal c6
    exact
      { mag := m
        rup := F.CA.ofReal c2
        jb := F.CA.ofReal c3
        x := F.CA.ofReal c4
        dip := F.CA.ofReal c5
        tor := F.CA.orEst c7 (calcDepthTor_CA m _) fun _ => Eventually.of_forall fun x => calcDepthTor_ok _ _
        z1 := F.CA.orEst c8 (calcDepth10_CA vv _) fun _ => Eventually.of_forall fun x => calcDepth10_ok' trivial _
        dpp := F.CA.ofReal (c9.getD _)
        v := vv
        mech := fun _ => rfl
        reg := fun _ => rfl
        hw := fun _ => rfl
        measured := fun _ => rfl }

end CY14

/-- Chiou & Youngs (2014): every ordinate of the median and of the standard deviations is a
continuous function of all the numeric inputs together (given or estimated), at every point where
it is defined; the only exceptions are magnitudes 6 and 6.9 in Japan and Italy. -/
theorem C115_cy14 {ks : List String} {S : X → Scenario} {x₀ : X} {g₀ : CY14.Given} {O : X → CY14.Out}
    (h : Varies ks S x₀) (h0 : CY14.Source (S x₀) g₀)
    (hks : ∀ k ∈ ["mechanism", "region", "on_hanging_wall", "vs_source"], k ∉ ks)
    (hO : ∀ x, Gives CY14.cls (S x) (O x))
    (hj : (S x₀).get "region" = .str "japan" ∨ (S x₀).get "region" = .str "italy" →
      g₀.mag ≠ 6 ∧ g₀.mag ≠ 6.9) :
    ContinuousEntries (fun x => (O x).gmm.lnResp) x₀ ∧
      ContinuousEntries (fun x => (O x).gmm.lnStd.getD []) x₀ ∧
      ContinuousEntries (fun x => (O x).tau) x₀ ∧ ContinuousEntries (fun x => (O x).phi) x₀ := by
  obtain ⟨g, hg, h1, h2⟩ := CY14.family h h0 hks
  obtain rfl : O = fun x => CY14.out ((g x).toIn (CY14.kindOf (S x₀))) :=
    funext fun x => (hO x).unique (h1 x)
  have hj' : (CY14.kindOf (S x₀)).reg = .japan ∨ (CY14.kindOf (S x₀)).reg = .italy →
      ((g x₀).toIn (CY14.kindOf (S x₀))).mag.val ≠ 6 ∧ ((g x₀).toIn (CY14.kindOf (S x₀))).mag.val ≠ 6.9 := by
    rw [hg]
    intro hr
    refine hj ?_
    exact CY14.regOf_ji hr
  exact ⟨.map _ (fun c x => CY14.lnResp c _) fun c _ => CY14.lnResp_CA c h2 hj',
    .map _ (fun c x => CY14.lnStd c _) fun c _ => (CY14.std_CA c h2 hj').2.2,
    .map _ (fun c x => CY14.tau c _) fun c _ => (CY14.std_CA c h2 hj').2.1,
    .map _ (fun c x => CY14.phi c _) fun c _ => (CY14.std_CA c h2 hj').1⟩

namespace ASK14

theorem dist_CA (c : Row) {m r : X → F} {x₀ : X} (hm : F.CA m x₀) (hr : F.CA r x₀) :
    F.CA (fun x => dist c (m x) (r x)) x₀ := by
  unfold dist; fcont

theorem f1_CA {c : Row} (hc : c ∈ table) {m r : X → F} {x₀ : X} (hm : F.CA m x₀) (hr : F.CA r x₀) :
    F.CA (fun x => f1 c (m x) (r x)) x₀ := by
  have hd := dist_CA c hm hr
  have h12 : (c.m2 : ℝ) ≤ c.m1 := by
    have : ∀ c ∈ table, c.m2 ≤ c.m1 := by decide +kernel
    exact_mod_cast this c hc
  unfold f1
  fcont
  · intro _ _ _ e
    simp only [fsimp] at *
    simp only [e]
    simp_all
  · intro _ _ h e
    simp only [fsimp] at *
    have h12' : (m x₀).val ≤ c.m1 := by rw [e]; exact h12
    simp only [if_pos h12']
    refine ⟨by simp_all, by rw [e]; ring⟩

theorem t2_CA {m : X → F} {x₀ : X} (hm : F.CA m x₀) : F.CA (fun x => t2 (m x)) x₀ := by
  unfold t2
  fcont
  · intro _ _ _ e
    simp only [fsimp] at *
    simp only [e]
    norm_num; assumption
  · intro _ _ _ e
    simp only [fsimp] at *
    rw [if_pos (by rw [e]; norm_num), if_pos (by rw [e]; norm_num), e]
    norm_num; assumption

theorem t3_CA {y w d : X → F} {x₀ : X} (hy : F.CA y x₀) (hw : F.CA w x₀) (hd : F.CA d x₀)
    (hp : 0 < (w x₀).val * Real.cos ((d x₀).val * (Real.pi / 180))) :
    F.CA (fun x => t3 (y x) (w x) (d x)) x₀ := by
  unfold t3
  dsimp only
  fcont
  · intro o1 o2 _ e
    simp only [fsimp] at *
    generalize (w x₀).val * Real.cos ((d x₀).val * (Real.pi / 180)) = R at *
    have h3 : 3 * R - R ≠ 0 := by linarith
    refine ⟨⟨⟨o1, o2⟩, o2, h3⟩, ?_⟩
    rw [e, div_self h3]; norm_num
  · intro o1 o2 _ e
    simp only [fsimp] at *
    generalize (w x₀).val * Real.cos ((d x₀).val * (Real.pi / 180)) = R at *
    simp only [e, if_pos (show R < 3 * R by linarith)]
    refine ⟨by simp_all; linarith, ?_⟩
    rw [div_self hp.ne', sub_self, zero_div]; norm_num

theorem calcDepthTor_CA {m : X → F} {x₀ : X} (hm : F.CA m x₀) : F.CA (fun x => calcDepthTor (m x)) x₀ := by
  unfold calcDepthTor
  exact F.CA.npInterpF (by simp [Interp.Sorted]; norm_num) hm

theorem calcWidth_CA {m d : X → F} {x₀ : X} (hm : F.CA m x₀) (hd : F.CA d x₀) :
    F.CA (fun x => calcWidth (m x) (d x)) x₀ := by
  unfold calcWidth; fcont

theorem ratio_CA (c : Row) {v : X → F} {x₀ : X} (hv : F.CA v x₀) : F.CA (fun x => ratio c (v x)) x₀ := by
  unfold ratio; fcont

theorem freg_CA (c : Row) {v r : X → F} {x₀ : X} (hv : F.CA v x₀) (hr : F.CA r x₀) (reg : Reg) :
    F.CA (fun x => freg c (v x) (r x) reg) x₀ := by
  have h1 := ratio_CA c hv
  unfold freg
  cases reg <;> dsimp only <;> fcont
  unfold f13
  exact F.CA.npInterpF (by simp [Interp.Sorted]; norm_num) hv

theorem basinSlope_CA (c : Row) {v : X → F} {x₀ : X} (hv : F.CA v x₀) :
    F.CA (fun x => basinSlope c (v x)) x₀ := by
  unfold basinSlope
  exact F.CA.npInterpF (by simp [Interp.Sorted]; norm_num) hv

theorem calcDepth10_CA {v : X → F} {x₀ : X} (hv : F.CA v x₀) (b : Bool) :
    F.CA (fun x => calcDepth10 (v x) b) x₀ := by
  unfold calcDepth10 depth10; cases b <;> simp only [Bool.false_eq_true, if_true, if_false] <;> fcont

theorem f10_CA (c : Row) {v : X → F} {z : X → Option ℝ} {x₀ : X} (hv : F.CA v x₀) (hz : OptCont z x₀)
    (h : z x₀ ≠ none → (v x₀).val ≠ 1180) (b : Bool) :
    F.CA (fun x => f10 c (v x) ((z x).map F.ofReal) b) x₀ := by
  rcases hz with hz | ⟨g, hz, hg⟩
  · simp only [hz, Option.map_none]; exact F.CA.const _
  · simp only [hz, Option.map_some]
    have h1 := basinSlope_CA c hv
    have h2 := calcDepth10_CA hv b
    have h3 := F.CA.ofReal hg
    refine F.CA.iteEq hv (F.CA.const _) ?_ ?_
    · fcont
    · have := h (by rw [hz]; simp)
      simpa [vRef, fsimp] using this

theorem f5_CA (c : Row) {y v : X → F} {x₀ : X} (hy : F.CA y x₀) (hv : F.CA v x₀)
    (ho : (y x₀).ok) (hp : 0 < (y x₀).val + c.c) : F.CA (fun x => f5 c (y x) (v x)) x₀ := by
  have h1 := ratio_CA c hv
  unfold f5
  fcont
  intro _ _ h e
  simp only [fsimp] at *
  simp only [e, Real.one_rpow, mul_one, Real.log_one, mul_zero]
  refine ⟨by simp_all, by ring⟩

/-- every numeric input moves continuously; on the hanging wall the rupture has an extent -/
structure InCont (i : X → In) (x₀ : X) : Prop where
  mag : F.CA (fun x => (i x).mag) x₀
  rup : F.CA (fun x => (i x).rup) x₀
  jb : F.CA (fun x => (i x).jb) x₀
  x : F.CA (fun x => (i x).x) x₀
  dip : F.CA (fun x => (i x).dip) x₀
  width : F.CA (fun x => (i x).width) x₀
  tor : F.CA (fun x => (i x).tor) x₀
  crjb : F.CA (fun x => (i x).crjb) x₀
  v : F.CA (fun x => (i x).v) x₀
  y0 : ∃ o, OptCont o x₀ ∧ ∀ x, (i x).y0 = (o x).map F.ofReal
  z1 : ∃ o, OptCont o x₀ ∧ (o x₀ ≠ none → (i x₀).v.val ≠ 1180) ∧ ∀ x, (i x).z1 = (o x).map F.ofReal
  mech : ∀ x, (i x).mech = (i x₀).mech
  reg : ∀ x, (i x).reg = (i x₀).reg
  hw : ∀ x, (i x).hw = (i x₀).hw
  aftershock : ∀ x, (i x).aftershock = (i x₀).aftershock
  measured : ∀ x, (i x).measured = (i x₀).measured
  extent : (i x₀).hw → 0 < (i x₀).width.val * Real.cos ((i x₀).dip.val * (Real.pi / 180))

theorem t5_CA {y r : X → F} {z : X → Option ℝ} {x₀ : X} (hy : F.CA y x₀) (hr : F.CA r x₀) (hz : OptCont z x₀) :
    F.CA (fun x => t5 (y x) (r x) ((z x).map F.ofReal)) x₀ := by
  rcases hz with hz | ⟨g, hz, hg⟩
  · simp only [hz, Option.map_none]; unfold t5; dsimp only; fcont
  · have := F.CA.ofReal hg
    simp only [hz, Option.map_some]; unfold t5; dsimp only; fcont

theorem base_CA {c : Row} (hc : c ∈ table) {i : X → In} {x₀ : X} (h : InCont i x₀) :
    F.CA (fun x => baseF c (i x)) x₀ := by
  obtain ⟨h1, h2, h3, h4, h5, h6, h7, h8, h9, ⟨o, ho, ho'⟩, -, e1, e2, e3, e4, e5, e6⟩ := h
  have k1 := f1_CA hc h1 h2
  have k2 := t2_CA h1
  have k5 := t5_CA h4 h3 ho
  unfold baseF f6 fMech f11
  simp only [e1, e2, e3, e4]
  have k4 : F.CA (fun x => if (i x₀).hw then f4 c (i x) else 0) x₀ := by
    by_cases hw : (i x₀).hw
    · have k3 := t3_CA h4 h6 h5 (e6 hw)
      simp only [hw, if_true]
      unfold f4 t1 t4
      simp only [ho']
      fcont
    · simp only [hw]; exact F.CA.const _
  cases (i x₀).mech <;> dsimp only <;> fcont

theorem ref_CA {c : Row} (hc : c ∈ table) {i : X → In} {x₀ : X} (h : InCont i x₀) :
    F.CA (fun x => refMotion c (i x)) x₀ := by
  have h1 := base_CA hc h
  have h2 := freg_CA c (F.CA.const vRef) h.rup (i x₀).reg
  have h3 : F.CA (fun x => siteTerm c F.nan vRef (i x).z1 (decide ((i x₀).reg = .japan))) x₀ := by
    obtain ⟨o, -, -, ho⟩ := h.z1
    intro _
    simp only [siteTerm, ho, F.val_add, (f10_ref c _ _).2]
    exact continuousAt_const
  have e : ∀ x, refMotion c (i x) = F.exp (baseF c (i x) + freg c vRef (i x).rup (i x₀).reg +
      siteTerm c F.nan vRef (i x).z1 (decide ((i x₀).reg = .japan))) := fun x => by
    rw [← h.reg x]; rfl
  simp only [e]
  fcont

theorem lnResp_CA {c : Row} (hc : c ∈ table) {i : X → In} {x₀ : X} (h : InCont i x₀)
    (hr : (refMotion c (i x₀)).ok) : F.CA (fun x => lnResp c (i x)) x₀ := by
  have h1 := base_CA hc h
  have h2 := freg_CA c h.v h.rup (i x₀).reg
  have hp : 0 < (refMotion c (i x₀)).val + c.c := by
    have e : 0 < (refMotion c (i x₀)).val := Real.exp_pos _
    have : (0 : ℝ) < c.c := by exact_mod_cast (row_facts c hc).2.2.2.2.1
    linarith
  have h3 := f5_CA c (ref_CA hc h) h.v hr hp
  have h4 : F.CA (fun x => f10 c (i x).v (i x).z1 (decide ((i x₀).reg = .japan))) x₀ := by
    obtain ⟨o, ho, ho', e⟩ := h.z1
    simp only [e]
    exact f10_CA c h.v ho ho' _
  have e : ∀ x, lnResp c (i x) = baseF c (i x) + freg c (i x).v (i x).rup (i x₀).reg +
      (f5 c (refMotion c (i x)) (i x).v + f10 c (i x).v (i x).z1 (decide ((i x₀).reg = .japan))) :=
    fun x => by rw [← h.reg x]; rfl
  simp only [e]
  fcont

theorem deriv_CA {c : Row} (hc : c ∈ table) {i : X → In} {x₀ : X} (h : InCont i x₀)
    (hr : (refMotion c (i x₀)).ok) : F.CA (fun x => deriv c (i x)) x₀ := by
  have h1 := ref_CA hc h
  have h2 := h.v
  have hp : 0 < (refMotion c (i x₀)).val + c.c := by
    have e : 0 < (refMotion c (i x₀)).val := Real.exp_pos _
    have : (0 : ℝ) < c.c := by exact_mod_cast (row_facts c hc).2.2.2.2.1
    linarith
  have hv : (0 : ℝ) < c.v_lin := lt_trans (by norm_num) (vlin_pos hc).1
  unfold deriv
  fcont
  intro o1 o2 o3 e
  simp only [fsimp] at *
  simp only [← e, div_self hv.ne', Real.one_rpow, mul_one]
  refine ⟨?_, by ring⟩
  have := hp.ne'
  have := hv.ne'
  simp_all

theorem std_CA {c : Row} (hc : c ∈ table) {i : X → In} {x₀ : X} (h : InCont i x₀)
    (hr : (refMotion c (i x₀)).ok) :
    F.CA (fun x => phi c (i x)) x₀ ∧ F.CA (fun x => tau c (i x)) x₀ ∧ F.CA (fun x => lnStd c (i x)) x₀ := by
  have h1 := deriv_CA hc h hr
  have hm := h.mag
  have hd := h.rup
  have h2 : F.CA (fun x => phi c (i x)) x₀ := by
    unfold phi phiB phiAl
    simp only [h.reg, h.measured]
    fcont
  have h3 : F.CA (fun x => tau c (i x)) x₀ := by
    unfold tau tauB
    fcont
  exact ⟨h2, h3, by unfold lnStd; fcont⟩

/-- the formulas' inputs of a family of scenarios -/
theorem family {ks : List String} {S : X → Scenario} {x₀ : X} {g₀ : Given} (h : Varies ks S x₀)
    (h0 : Source (S x₀) g₀) (hw : g₀.HwOk (kindOf (S x₀))) (hz : g₀.z1 ≠ none → g₀.v ≠ 1180)
    (hks : ∀ k ∈ ["mechanism", "region", "on_hanging_wall", "vs_source", "is_aftershock"], k ∉ ks) :
    ∃ g : X → Given, g x₀ = g₀ ∧ (∀ x, Gives cls (S x) (out ((g x).toIn (kindOf (S x₀))))) ∧
      InCont (fun x => (g x).toIn (kindOf (S x₀))) x₀ := by
  obtain ⟨mag, e1, f1, c1⟩ := h.num h0.mag
  obtain ⟨rup, e2, f2, c2⟩ := h.num h0.rup
  obtain ⟨jb, e3, f3, c3⟩ := h.num h0.jb
  obtain ⟨dip, e5, f5, c5⟩ := h.num h0.dip
  obtain ⟨v, e6, f6, c6⟩ := h.num h0.v
  obtain ⟨x', e4, f4, c4⟩ := h.opt h0.x
  obtain ⟨y0, e10, f10, c10⟩ := h.opt h0.y0
  obtain ⟨width, e11, f11, c11⟩ := h.opt h0.width
  obtain ⟨tor, e7, f7, c7⟩ := h.opt h0.tor
  obtain ⟨z1, e8, f8, c8⟩ := h.opt h0.z1
  obtain ⟨crjb, e9, f9, c9⟩ := h.opt h0.crjb
  have hk : ∀ x, kindOf (S x) = kindOf (S x₀) := fun x => by
    unfold kindOf
    rw [h.fixed _ (hks "mechanism" (by simp)), h.fixed _ (hks "region" (by simp)),
      h.fixed _ (hks "on_hanging_wall" (by simp)), h.fixed _ (hks "vs_source" (by simp)),
      h.fixed _ (hks "is_aftershock" (by simp))]
  have hx : (kindOf (S x₀)).hw → ∀ x, x' x ≠ none := fun hh => by
    have := (hw hh).1
    rw [← f4] at this
    rcases c4 with c4 | ⟨g, c4, -⟩
    · exact absurd (c4 x₀) this
    · intro x; rw [c4]; simp
  have hg : (⟨mag x₀, rup x₀, jb x₀, dip x₀, v x₀, x' x₀, y0 x₀, width x₀, tor x₀, z1 x₀, crjb x₀⟩ : Given) = g₀ := by
    rw [f1, f2, f3, f4, f5, f6, f7, f8, f9, f10, f11]
  refine ⟨fun x => ⟨mag x, rup x, jb x, dip x, v x, x' x, y0 x, width x, tor x, z1 x, crjb x⟩, hg, fun x => ?_, ?_⟩
  · rw [← hk x]
    refine gives ⟨e1 x, e2 x, e3 x, e5 x, e6 x, e4 x, e10 x, e11 x, e7 x, e8 x, e9 x, ?_⟩ ?_
    · rw [h.fixed _ (hks "mechanism" (by simp))]; exact h0.mech
    · rw [hk x]; exact fun hh => hx hh x
  · have m := F.CA.ofReal c1
    have vv := F.CA.ofReal c6
    have dd := F.CA.ofReal c5
    exact
      { mag := m
        rup := F.CA.ofReal c2
        jb := F.CA.ofReal c3
        x := by
          dsimp only [Given.toIn]
          exact F.CA.ite (F.CA.ofReal (c4.getD _)) (F.CA.const _)
        dip := dd
        width := F.CA.orEst c11 (calcWidth_CA m dd) fun ho => by
          have hs' : ContinuousAt (fun x => Real.sin (dip x * (Real.pi / 180))) x₀ :=
            Real.continuous_sin.continuousAt.comp (c5.mul_const _)
          have hne : Real.sin (dip x₀ * (Real.pi / 180)) ≠ 0 := by
            simp only [calcWidth, fsimp] at ho
            exact ho.1
          filter_upwards [hs'.eventually_ne hne] with x hx
          simp only [calcWidth, fsimp]
          exact ⟨hx, by norm_num⟩
        tor := F.CA.orEst c7 (calcDepthTor_CA m) fun _ => Eventually.of_forall fun x => (calcDepthTor_val _).1
        crjb := F.CA.ofReal (c9.getD _)
        v := vv
        y0 := ⟨y0, c10, fun _ => rfl⟩
        z1 := ⟨z1, c8, by rw [f8]; simpa [Given.toIn, f6] using hz, fun _ => rfl⟩
        mech := fun _ => rfl
        reg := fun _ => rfl
        hw := fun _ => rfl
        aftershock := fun _ => rfl
        measured := fun _ => rfl
        extent := fun hh => by
          have := r1_pos (k := kindOf (S x₀)) hw hh
          rw [← hg] at this
          exact this }

end ASK14

/-- Abrahamson, Silva & Kamai (2014): every ordinate of the median and of the standard deviations
is a continuous function of all the numeric inputs together (given or estimated), where it is
defined; the only exception is v_s30 = 1180 m/s with a given `depth_1_0`. -/
theorem C115_ask14 {ks : List String} {S : X → Scenario} {x₀ : X} {g₀ : ASK14.Given} {O : X → ASK14.Out}
    (h : Varies ks S x₀) (h0 : ASK14.Source (S x₀) g₀)
    (hks : ∀ k ∈ ["mechanism", "region", "on_hanging_wall", "vs_source", "is_aftershock"], k ∉ ks)
    (hw : (S x₀).get "on_hanging_wall" |>.isOn → g₀.x ≠ none ∧ 0 < g₀.dip ∧ g₀.dip < 90 ∧
      ∀ w, g₀.width = some w → 0 < w)
    (hz : g₀.z1 ≠ none → g₀.v ≠ 1180)
    (hO : ∀ x, Gives ASK14.cls (S x) (O x)) :
    ContinuousEntries (fun x => (O x).gmm.lnResp) x₀ ∧
      ContinuousEntries (fun x => (O x).gmm.lnStd.getD []) x₀ ∧
      ContinuousEntries (fun x => (O x).tau) x₀ ∧ ContinuousEntries (fun x => (O x).phi) x₀ := by
  have hw' : g₀.HwOk (ASK14.kindOf (S x₀)) := fun hh => hw (by simpa [ASK14.kindOf] using hh)
  obtain ⟨g, hg, h1, h2⟩ := ASK14.family h h0 hw' hz hks
  obtain rfl : O = fun x => ASK14.out ((g x).toIn (ASK14.kindOf (S x₀))) :=
    funext fun x => (hO x).unique (h1 x)
  have hr : ∀ c ∈ ASK14.table, (ASK14.refMotion c ((g x₀).toIn (ASK14.kindOf (S x₀)))).ok := fun c hc => by
    rw [hg]; exact ASK14.ref_ok hc hw'
  exact ⟨.map _ (fun c x => ASK14.lnResp c _) fun c hc => ASK14.lnResp_CA hc h2 (hr c hc),
    .map _ (fun c x => ASK14.lnStd c _) fun c hc => (ASK14.std_CA hc h2 (hr c hc)).2.2,
    .map _ (fun c x => ASK14.tau c _) fun c hc => (ASK14.std_CA hc h2 (hr c hc)).2.1,
    .map _ (fun c x => ASK14.phi c _) fun c hc => (ASK14.std_CA hc h2 (hr c hc)).1⟩

namespace BSSA14

/-- every numeric input moves continuously -/
structure InCont (i : X → In) (x₀ : X) : Prop where
  mag : F.CA (fun x => (i x).mag) x₀
  jb : F.CA (fun x => (i x).jb) x₀
  v : F.CA (fun x => (i x).v) x₀
  z1 : ∃ o, OptCont o x₀ ∧ ∀ x, (i x).z1 = (o x).map F.ofReal
  mech : ∀ x, (i x).mech = (i x₀).mech
  reg : ∀ x, (i x).reg = (i x₀).reg
  japanBasin : ∀ x, (i x).japanBasin = (i x₀).japanBasin

theorem base_CA (c : Row) {i : X → In} {x₀ : X} (h : InCont i x₀) :
    F.CA (fun x => event c (i x).mag (i x).mech + path c (i x).mag (i x).jb (i x).reg) x₀ := by
  have h1 := h.mag
  have h2 := h.jb
  simp only [h.mech, h.reg]
  unfold event path dist
  fcont
  intro o1 o2 o3 e
  simp only [fsimp] at *
  rw [e]
  refine ⟨by simp_all, by ring⟩

theorem pgaRef_CA {i : X → In} {x₀ : X} (h : InCont i x₀) : F.CA (fun x => pgaRef (i x)) x₀ := by
  have h1 := base_CA pgaRow h
  simp only [pgaRef_eq]
  unfold lnResp
  dsimp only
  fcont

theorem lnResp_CA (c : Row) {i : X → In} {x₀ : X} (h : InCont i x₀) :
    F.CA (fun x => lnResp c (i x) (some (pgaRef (i x)))) x₀ := by
  have h1 := base_CA c h
  have h2 := pgaRef_CA h
  have h3 := h.v
  obtain ⟨o, ho, e⟩ := h.z1
  have h4 : F.CA (fun x => fDz1 c (i x).v (i x).z1 (i x₀).japanBasin) x₀ := by
    simp only [e]
    have h5 := CY14.calcDepth10_CA h3 (i x₀).japanBasin
    unfold fDz1
    rcases ho with ho | ⟨g, ho, hg⟩
    · simp only [ho, Option.map_none]; exact F.CA.const _
    · have := F.CA.ofReal hg
      simp only [ho, Option.map_some]
      fcont
  unfold lnResp siteTerm fLin fNl f2
  simp only [h.japanBasin]
  fcont

theorem std_CA (c : Row) {i : X → In} {x₀ : X} (h : InCont i x₀) :
    F.CA (fun x => phi c (i x)) x₀ ∧ F.CA (fun x => tau c (i x)) x₀ ∧ F.CA (fun x => lnStd c (i x)) x₀ := by
  have hm := h.mag
  have hj := h.jb
  have hv := h.v
  have h2 : F.CA (fun x => phi c (i x)) x₀ := by unfold phi; fcont
  have h3 : F.CA (fun x => tau c (i x)) x₀ := by unfold tau; fcont
  exact ⟨h2, h3, by unfold lnStd; fcont⟩

end BSSA14

/-- Boore, Stewart, Seyhan & Atkinson (2014): every ordinate of the median and of the standard
deviations is a continuous function of all the numeric inputs together, wherever it is defined. -/
theorem C115_bssa14 {ks : List String} {S : X → Scenario} {x₀ : X} {g₀ : BSSA14.Given} {O : X → BSSA14.Out}
    (h : Varies ks S x₀) (h0 : BSSA14.Source (S x₀) g₀) (hks : ∀ k ∈ ["mechanism", "region"], k ∉ ks)
    (hO : ∀ x, Gives BSSA14.cls (S x) (O x)) :
    ContinuousEntries (fun x => (O x).gmm.lnResp) x₀ ∧
      ContinuousEntries (fun x => (O x).gmm.lnStd.getD []) x₀ ∧
      ContinuousEntries (fun x => (O x).tau) x₀ ∧ ContinuousEntries (fun x => (O x).phi) x₀ := by
  obtain ⟨mag, e1, -, c1⟩ := h.num h0.mag
  obtain ⟨jb, e2, -, c2⟩ := h.num h0.jb
  obtain ⟨v, e3, -, c3⟩ := h.num h0.v
  obtain ⟨z1, e4, -, c4⟩ := h.opt h0.z1
  obtain rfl : O = fun x => BSSA14.out ((⟨mag x, jb x, v x, z1 x⟩ : BSSA14.Given).toIn
      (BSSA14.mechOf ((S x₀).get "mechanism")) (BSSA14.regOf ((S x₀).get "region"))) := by
    funext x
    rw [← h.fixed _ (hks "mechanism" (by simp)) x, ← h.fixed _ (hks "region" (by simp)) x]
    exact (hO x).unique (BSSA14.gives ⟨e1 x, e2 x, e3 x, e4 x⟩)
  have hi : BSSA14.InCont (fun x => (⟨mag x, jb x, v x, z1 x⟩ : BSSA14.Given).toIn
      (BSSA14.mechOf ((S x₀).get "mechanism")) (BSSA14.regOf ((S x₀).get "region"))) x₀ :=
    ⟨F.CA.ofReal c1, F.CA.ofReal c2, F.CA.ofReal c3, ⟨z1, c4, fun _ => rfl⟩, fun _ => rfl, fun _ => rfl,
      fun _ => rfl⟩
  exact ⟨.map _ (fun c x => BSSA14.lnResp c _ (some (BSSA14.pgaRef _))) fun c _ => BSSA14.lnResp_CA c hi,
    .map _ (fun c x => BSSA14.lnStd c _) fun c _ => (BSSA14.std_CA c hi).2.2,
    .map _ (fun c x => BSSA14.tau c _) fun c _ => (BSSA14.std_CA c hi).2.1,
    .map _ (fun c x => BSSA14.phi c _) fun c _ => (BSSA14.std_CA c hi).1⟩

/-- Idriss (2014): every ordinate of the median is a continuous function of magnitude, distance and
v_s30 together except at magnitude 6.75, where the coefficient table changes; the standard
deviation everywhere. -/
theorem C115_i14 {ks : List String} {S : X → Scenario} {x₀ : X} {m₀ R₀ v₀ : ℝ} {mech : String} {O : X → GmmOut}
    (h : Varies ks S x₀) (hm : (S x₀).get "mag" = .num m₀) (hR : (S x₀).get "dist_rup" = .num R₀)
    (hv : (S x₀).get "v_s30" = .num v₀) (hmech : (S x₀).get "mechanism" = .str mech)
    (hks : "mechanism" ∉ ks) (hO : ∀ x, Gives I14.cls (S x) (O x)) :
    (m₀ ≠ 6.75 → ContinuousEntries (fun x => (O x).lnResp) x₀) ∧
      ContinuousEntries (fun x => (O x).lnStd.getD []) x₀ := by
  obtain ⟨mag, e1, f1, c1⟩ := h.num hm
  obtain ⟨R, e2, -, c2⟩ := h.num hR
  obtain ⟨v, e3, -, c3⟩ := h.num hv
  obtain rfl : O = fun x => I14.out (F.ofReal (mag x)) (F.ofReal (R x)) (F.ofReal (v x)) (mech = "RS") := by
    funext x
    exact (hO x).unique (I14.gives (S x) (e1 x) (e2 x) (e3 x) ((h.fixed _ hks x).trans hmech))
  have g1 := F.CA.ofReal c1
  have g2 := F.CA.ofReal c2
  have g3 := F.CA.ofReal c3
  constructor
  · intro hne
    have hev : ∀ᶠ x in 𝓝 x₀, I14.coeff (F.ofReal (mag x)) = I14.coeff (F.ofReal m₀) := by
      rcases lt_or_gt_of_ne hne with hl | hl
      · filter_upwards [c1.eventually_lt continuousAt_const (f1 ▸ hl)] with x hx
        have hx' : mag x < 6.75 := hx
        have a : (F.ofReal (mag x)).val ≤ 6.75 := hx'.le
        have b : (F.ofReal m₀).val ≤ 6.75 := hl.le
        simp only [I14.coeff, if_pos a, if_pos b]
      · filter_upwards [continuousAt_const.eventually_lt c1 (f1 ▸ hl)] with x hx
        have a : ¬ (F.ofReal (mag x)).val ≤ 6.75 := not_le.2 hx
        have b : ¬ (F.ofReal m₀).val ≤ 6.75 := not_le.2 hl
        simp only [I14.coeff, if_neg a, if_neg b]
    have key : ∀ i, F.CA (fun x => ((I14.coeff (F.ofReal m₀)).map fun c =>
        I14.lnResp c (F.ofReal (mag x)) (F.ofReal (R x)) (F.ofReal (v x)) (mech = "RS")).getD i F.nan) x₀ :=
      CA_getD _ _ fun c _ => by unfold I14.lnResp; dsimp only; fcont
    intro i
    refine F.CA.spec fun ho => ?_
    refine (key i ?_).congr ?_
    · simpa only [I14.out, f1] using ho
    · filter_upwards [hev] with x hx
      simp only [I14.out, hx]
  · exact ContinuousEntries.map I14.small (fun c x => I14.lnStd c.period (F.ofReal (mag x))) fun c _ => by
      unfold I14.lnStd; fcont

/-! ### The hypotheses are met: families that vary magnitude and distance together -/

theorem ex_family_cy14 (x₀ : ℝ × ℝ) :
    Varies ["mag", "dist_rup"] (fun x : ℝ × ℝ => CY14.exS { CY14.exG with mag := x.1, rup := x.2 } "china") x₀ where
  fixed := fun k hk x => by
    simp only [List.mem_cons, List.not_mem_nil, or_false, not_or] at hk
    simp [CY14.exS, CY14.exG, Scenario.get, Dict.get?, hk.1, hk.2, eq_comm (b := k)]
  moving := by
    simp only [List.forall_mem_cons]
    exact ⟨⟨fun x => x.1, fun x => by simp [CY14.exS, Scenario.get, Dict.get?], continuous_fst.continuousAt⟩,
      ⟨fun x => x.2, fun x => by simp [CY14.exS, Scenario.get, Dict.get?], continuous_snd.continuousAt⟩,
      fun _ h => by simp at h⟩

/-- at magnitude 6.5 and 20 km -/
example : ∃ O : ℝ × ℝ → CY14.Out, ContinuousEntries (fun x => (O x).gmm.lnResp) ((6.5 : ℝ), (20 : ℝ)) := by
  refine ⟨_, (C115_cy14 (ex_family_cy14 _) (CY14.ex_source _ rfl rfl rfl _) ?_
    (fun x => CY14.gives (CY14.ex_source _ rfl rfl rfl _)) ?_).1⟩
  · simp
  · simp [CY14.exS, Scenario.get, Dict.get?]

example : ∃ O : ℝ × ℝ → ASK14.Out, ContinuousEntries (fun x => (O x).gmm.lnResp) ((6.5 : ℝ), (20 : ℝ)) := by
  have hv : Varies ["mag", "dist_rup"] (fun x : ℝ × ℝ => ASK14.exS { ASK14.exG with mag := x.1, rup := x.2 } "japan" true)
      ((6.5 : ℝ), (20 : ℝ)) :=
    { fixed := fun k hk x => by
        simp only [List.mem_cons, List.not_mem_nil, or_false, not_or] at hk
        simp [ASK14.exS, ASK14.exG, Scenario.get, Dict.get?, hk.1, hk.2, eq_comm (b := k)]
      moving := by
        simp only [List.forall_mem_cons]
        exact ⟨⟨fun x => x.1, fun x => by simp [ASK14.exS, Scenario.get, Dict.get?], continuous_fst.continuousAt⟩,
          ⟨fun x => x.2, fun x => by simp [ASK14.exS, Scenario.get, Dict.get?], continuous_snd.continuousAt⟩,
          fun _ h => by simp at h⟩ }
  refine ⟨_, (C115_ask14 hv (ASK14.ex_source _ rfl rfl rfl rfl _ _) (by simp)
    (fun _ => ⟨by simp [ASK14.exG], by norm_num [ASK14.exG], by norm_num [ASK14.exG], by simp [ASK14.exG]⟩)
    (by simp [ASK14.exG]) (fun x => ASK14.gives (ASK14.ex_source _ rfl rfl rfl rfl _ _)
      (fun _ => by simp [ASK14.exG]))).1⟩

example : ∃ O : ℝ × ℝ → BSSA14.Out, ContinuousEntries (fun x => (O x).gmm.lnResp) ((6.5 : ℝ), (20 : ℝ)) := by
  have hv : Varies ["mag", "dist_jb"] (fun x : ℝ × ℝ => BSSA14.exS { BSSA14.exG with mag := x.1, jb := x.2 } "japan")
      ((6.5 : ℝ), (20 : ℝ)) :=
    { fixed := fun k hk x => by
        simp only [List.mem_cons, List.not_mem_nil, or_false, not_or] at hk
        simp [BSSA14.exS, BSSA14.exG, Scenario.get, Dict.get?, hk.1, hk.2, eq_comm (b := k)]
      moving := by
        simp only [List.forall_mem_cons]
        exact ⟨⟨fun x => x.1, fun x => by simp [BSSA14.exS, Scenario.get, Dict.get?], continuous_fst.continuousAt⟩,
          ⟨fun x => x.2, fun x => by simp [BSSA14.exS, Scenario.get, Dict.get?], continuous_snd.continuousAt⟩,
          fun _ h => by simp at h⟩ }
  exact ⟨_, (C115_bssa14 hv (BSSA14.ex_source _ _) (by simp) (fun x => BSSA14.gives (BSSA14.ex_source _ _))).1⟩

example : ∃ O : ℝ × ℝ → GmmOut, ContinuousEntries (fun x => (O x).lnResp) ((6.5 : ℝ), (20 : ℝ)) := by
  have hv : Varies ["mag", "dist_rup"] (fun x : ℝ × ℝ => (⟨[("mag", .num x.1), ("dist_rup", .num x.2),
      ("v_s30", .num 760), ("mechanism", .str "RS")], []⟩ : Scenario)) ((6.5 : ℝ), (20 : ℝ)) :=
    { fixed := fun k hk x => by
        simp only [List.mem_cons, List.not_mem_nil, or_false, not_or] at hk
        simp [Scenario.get, Dict.get?, hk.1, hk.2, eq_comm (b := k)]
      moving := by
        simp only [List.forall_mem_cons]
        exact ⟨⟨fun x => x.1, fun x => by simp [Scenario.get, Dict.get?], continuous_fst.continuousAt⟩,
          ⟨fun x => x.2, fun x => by simp [Scenario.get, Dict.get?], continuous_snd.continuousAt⟩,
          fun _ h => by simp at h⟩ }
  have ex : ∀ x : ℝ × ℝ, _ := fun x => I14.gives (⟨[("mag", .num x.1), ("dist_rup", .num x.2),
      ("v_s30", .num 760), ("mechanism", .str "RS")], []⟩ : Scenario) (m := x.1) (r := x.2) (v := 760) (t := "RS")
      (by simp [Scenario.get, Dict.get?]) (by simp [Scenario.get, Dict.get?]) (by simp [Scenario.get, Dict.get?])
      (by simp [Scenario.get, Dict.get?])
  exact ⟨_, (C115_i14 hv (m₀ := 6.5) (R₀ := 20) (v₀ := 760) (mech := "RS") (by simp [Scenario.get, Dict.get?])
    (by simp [Scenario.get, Dict.get?]) (by simp [Scenario.get, Dict.get?]) (by simp [Scenario.get, Dict.get?])
    (by simp) ex).1 (by norm_num)⟩
