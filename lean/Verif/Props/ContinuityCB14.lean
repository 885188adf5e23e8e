import Verif.Props.Continuity

/-! # C115: predictions depend continuously on all numeric inputs at once (continued) -/

open Filter Topology
open Bounds

set_option linter.unusedSimpArgs false

variable {X : Type*} [TopologicalSpace X]

namespace CB14

/-- every numeric input moves continuously -/
structure InCont (i : X → In) (x₀ : X) : Prop where
  mag : F.CA (fun x => (i x).mag) x₀
  rup : F.CA (fun x => (i x).rup) x₀
  jb : F.CA (fun x => (i x).jb) x₀
  x : F.CA (fun x => (i x).x) x₀
  dip : F.CA (fun x => (i x).dip) x₀
  width : F.CA (fun x => (i x).width) x₀
  tor : F.CA (fun x => (i x).tor) x₀
  hyp : F.CA (fun x => (i x).hyp) x₀
  z25 : F.CA (fun x => (i x).z25) x₀
  v : F.CA (fun x => (i x).v) x₀
  mech : ∀ x, (i x).mech = (i x₀).mech
  reg : ∀ x, (i x).reg = (i x₀).reg

/-- where the hanging-wall term is continuous -/
def HngCont (c : Row) (i : In) : Prop :=
  i.mag.val < 5.5 ∨ i.x.val < 0 ∨ 16.66 < i.tor.val ∨
    (i.x.val ≠ 0 ∧ i.rup.val ≠ 0 ∧ i.tor.val ≠ 16.66 ∧
      (i.x.val = i.width.val * Real.cos (i.dip.val * (Real.pi / 180)) →
        c.h_1 + c.h_2 + c.h_3 = 1 ∧ 62 * i.mag.val - 350 ≠ i.x.val))

theorem fMag_CA (c : Row) {m : X → F} {x₀ : X} (hm : F.CA m x₀) : F.CA (fun x => fMag c (m x)) x₀ := by
  unfold fMag
  fcont
  all_goals
    intro o1 o2 o3 e
    simp only [fsimp] at *
    rw [← e]
    norm_num
    simp_all

theorem fHngM_CA (c : Row) {m : X → F} {x₀ : X} (hm : F.CA m x₀) : F.CA (fun x => fHngM c (m x)) x₀ := by
  unfold fHngM
  fcont
  intro o1 o2 o3 e
  simp only [fsimp] at *
  rw [e]
  norm_num
  simp_all

theorem fHngRx_CA {c : Row} (hc : c ∈ table) {m y d w : X → F} {x₀ : X} (hm : F.CA m x₀) (hy : F.CA y x₀)
    (hd : F.CA d x₀) (hw : F.CA w x₀) (h0 : (y x₀).val ≠ 0)
    (h1 : (y x₀).val = (w x₀).val * Real.cos ((d x₀).val * (Real.pi / 180)) →
      c.h_1 + c.h_2 + c.h_3 = 1 ∧ 62 * (m x₀).val - 350 ≠ (y x₀).val) (ho : (m x₀).ok) :
    F.CA (fun x => fHngRx c (m x) (y x) (d x) (w x)) x₀ := by
  have h4 : (c.h_4 : ℝ) = 1 := by
    have : ∀ c ∈ table, c.h_4 = 1 := by decide +kernel
    exact_mod_cast this c hc
  unfold fHngRx
  dsimp only
  fcont
  · intro o1 o2 o3 e
    simp only [fsimp] at *
    obtain ⟨hs, h2⟩ := h1 e
    generalize (w x₀).val * Real.cos ((d x₀).val * (Real.pi / 180)) = R at *
    have h2' : 62 * (m x₀).val - 350 - R ≠ 0 := by rw [← e]; exact sub_ne_zero.2 h2
    have hs' : (c.h_1 : ℝ) + c.h_2 + c.h_3 = 1 := by exact_mod_cast hs
    have hR : R ≠ 0 := by rw [← e]; exact h0
    refine ⟨by simp_all, ?_⟩
    rw [e, sub_self, zero_div, div_self hR, h4]
    norm_num
    linarith
  · intro o1 o2 o3 e
    simp only [fsimp] at e
    exact absurd e h0

theorem fHng_CA {c : Row} (hc : c ∈ table) {i : X → In} {x₀ : X} (h : InCont i x₀) (hh : HngCont c (i x₀)) :
    F.CA (fun x => fHng c (i x)) x₀ := by
  intro ho
  have om : (i x₀).mag.ok := by simp only [fHng, fHngM, fsimp] at ho; tauto
  have oy : (i x₀).x.ok := by simp only [fHng, fHngRx, fsimp] at ho; tauto
  have ot : (i x₀).tor.ok := by simp only [fHng, fHngZ, fsimp] at ho; tauto
  rcases hh with hh | hh | hh | ⟨n1, n2, n3, n4⟩
  · refine (continuousAt_const (y := (0 : ℝ))).congr ?_
    filter_upwards [(h.mag om).eventually_lt continuousAt_const hh] with x hx
    simp only [fHng, fHngM, fsimp]
    rw [if_pos hx.le]; ring
  · refine (continuousAt_const (y := (0 : ℝ))).congr ?_
    filter_upwards [(h.x oy).eventually_lt continuousAt_const hh] with x hx
    simp only [fHng, fHngRx, fsimp]
    rw [if_pos hx]; ring
  · refine (continuousAt_const (y := (0 : ℝ))).congr ?_
    filter_upwards [continuousAt_const.eventually_lt (h.tor ot) hh] with x hx
    simp only [fHng, fHngZ, fsimp]
    rw [if_pos hx]; ring
  · have k1 := fHngRx_CA hc h.mag h.x h.dip h.width n1 n4 om
    have k2 := fHngM_CA c h.mag
    have k3 : F.CA (fun x => fHngZ (i x).tor) x₀ := by
      have := h.tor
      unfold fHngZ
      fcont
      intro _ _ _ e
      exact absurd e.symm (by simpa [fsimp] using n3)
    have k4 : F.CA (fun x => fHngRrup (i x).rup (i x).jb) x₀ := by
      have h1 := h.rup
      have h2 := h.jb
      refine F.CA.iteEq h1 (F.CA.const _) ?_ (by simpa [fsimp] using n2)
      fcont
    have k5 := h.dip
    have : F.CA (fun x => fHng c (i x)) x₀ := by
      unfold fHng
      fcont
    exact this ho

theorem rest_CA {c : Row} (hc : c ∈ table) {i : X → In} {x₀ : X} (h : InCont i x₀) (hh : HngCont c (i x₀)) :
    F.CA (fun x => rest c (i x)) x₀ := by
  have k1 := fHng_CA hc h hh
  have k2 := fMag_CA c h.mag
  have hm := h.mag
  have hr := h.rup
  have hd := h.dip
  have hp := h.hyp
  unfold rest fDis fFlt fHyp fDip fAtn
  simp only [h.mech, h.reg]
  cases (i x₀).mech <;> dsimp only <;> fcont

theorem fSed_CA (c : Row) {z : X → F} {x₀ : X} (hz : F.CA z x₀) (b : Bool) :
    F.CA (fun x => fSed c (z x) b) x₀ := by
  unfold fSed
  cases b <;> simp only [Bool.false_eq_true, if_true, if_false]
  all_goals
    fcont
    · intro o1 o2 o3 e
      simp only [fsimp] at *
      rw [e]; norm_num; simp_all
    · intro o1 o2 o3 e
      simp only [fsimp] at *
      rw [e]; norm_num; simp_all

theorem fSite_CA {c : Row} (hc : c ∈ table) {p v : X → F} {x₀ : X} (hp : F.CA p x₀) (hv : F.CA v x₀)
    : F.CA (fun x => fSite c (some (p x)) (v x)) x₀ := by
  have hk : (0 : ℝ) < c.k_1 := by exact_mod_cast (row_facts c hc).1
  unfold fSite
  dsimp only
  fcont
  intro o1 o2 o3 e
  simp only [fsimp] at *
  rw [e, div_self hk.ne', Real.one_rpow, Real.log_one, mul_one]
  refine ⟨by simp_all, by ring⟩

theorem fSiteJp_CA (c : Row) {v : X → F} {x₀ : X} (hv : F.CA v x₀) (h : (v x₀).val ≠ 200) :
    F.CA (fun x => fSiteJp c (v x)) x₀ := by
  unfold fSiteJp
  dsimp only
  fcont
  intro o1 o2 o3 e
  exact absurd e (by simpa [fsimp] using h)

theorem pgaRef_CA {i : X → In} {x₀ : X} (h : InCont i x₀) (hh : HngCont pgaRow (i x₀)) :
    F.CA (fun x => pgaRef (i x)) x₀ := by
  have h1 := rest_CA pgaRow_mem h hh
  have e : ∀ x, (pgaRef (i x)).val = Real.exp ((rest pgaRow (i x)).val +
      (siteTerm pgaRow none 1100 0 (decide ((i x₀).reg = .japan))).val) := fun x => by
    rw [pgaRef_eq, F.val_exp, lnResp_val, h.reg]; rfl
  intro ho
  simp only [e]
  have : (rest pgaRow (i x₀)).ok := by
    dsimp only at ho
    rw [pgaRef_eq, F.ok_exp] at ho
    simp only [lnResp, rest, F.ok_add] at *
    tauto
  exact ((h1 this).add continuousAt_const).rexp

theorem lnResp_CA {c : Row} (hc : c ∈ table) {i : X → In} {x₀ : X} (h : InCont i x₀)
    (hh : HngCont c (i x₀)) (hp : HngCont pgaRow (i x₀))
    (hv : (i x₀).reg = .japan → (i x₀).v.val ≠ 200) :
    F.CA (fun x => lnResp c (i x) (some (pgaRef (i x))) (i x).v) x₀ := by
  have h1 := rest_CA hc h hh
  have h2 := fSite_CA hc (pgaRef_CA h hp) h.v
  have h3 := fSed_CA c h.z25 (decide ((i x₀).reg = .japan))
  have h4 : F.CA (fun x => if decide ((i x₀).reg = .japan) then fSiteJp c (i x).v else 0) x₀ := by
    by_cases hj : (i x₀).reg = .japan
    · simp only [hj, decide_true, if_true]; exact fSiteJp_CA c h.v (hv hj)
    · simp only [hj, decide_false, Bool.false_eq_true, if_false]; exact F.CA.const _
  have hs : F.CA (fun x => siteTerm c (some (pgaRef (i x))) (i x).v (i x).z25 (decide ((i x₀).reg = .japan))) x₀ := by
    unfold siteTerm
    dsimp only
    fcont
  intro hok
  have e : ∀ x, (lnResp c (i x) (some (pgaRef (i x))) (i x).v).val = (rest c (i x)).val +
      (siteTerm c (some (pgaRef (i x))) (i x).v (i x).z25 (decide ((i x₀).reg = .japan))).val := fun x => by
    rw [lnResp_val, h.reg]
  simp only [e]
  have o1 : (rest c (i x₀)).ok := by
    simp only [lnResp, rest, F.ok_add] at *; tauto
  have o2 : (siteTerm c (some (pgaRef (i x₀))) (i x₀).v (i x₀).z25 (decide ((i x₀).reg = .japan))).ok := by
    simp only [lnResp, F.ok_add] at hok; exact hok.1.1.1.2
  exact (h1 o1).add (hs o2)

theorem alpha_CA {c : Row} (hc : c ∈ table) {p v : X → F} {x₀ : X} (hp : F.CA p x₀) (hv : F.CA v x₀)
    (ho : (p x₀).ok) (hpos : 0 < (p x₀).val) : F.CA (fun x => alpha c (p x) (v x)) x₀ := by
  have hk : (0 : ℝ) < c.k_1 := by exact_mod_cast (row_facts c hc).1
  unfold alpha
  fcont
  intro o1 o2 o3 e
  simp only [fsimp] at *
  rw [e, div_self hk.ne', Real.one_rpow]
  have : (p x₀).val + 1.88 ≠ 0 := by linarith
  refine ⟨?_, by ring⟩
  have := hk.ne'
  simp_all

theorem std_CA {c : Row} (hc : c ∈ table) {i : X → In} {x₀ : X} (h : InCont i x₀)
    (hp : HngCont pgaRow (i x₀)) (ho : (pgaRef (i x₀)).ok) :
    F.CA (fun x => phi c (i x).mag (pgaRef (i x)) (i x).v) x₀ ∧
      F.CA (fun x => tau c (i x).mag (pgaRef (i x)) (i x).v) x₀ ∧
      F.CA (fun x => lnStd c (i x).mag (pgaRef (i x)) (i x).v) x₀ := by
  have h1 := alpha_CA hc (pgaRef_CA h hp) h.v ho (pgaRef_pos _)
  have hm := h.mag
  have h2 : F.CA (fun x => phi c (i x).mag (pgaRef (i x)) (i x).v) x₀ := by
    unfold phi phiY; dsimp only; fcont
  have h3 : F.CA (fun x => tau c (i x).mag (pgaRef (i x)) (i x).v) x₀ := by
    unfold tau tauY; dsimp only; fcont
  exact ⟨h2, h3, by unfold lnStd; fcont⟩

/-- the formulas' inputs of a family of scenarios -/
theorem family {ks : List String} {S : X → Scenario} {x₀ : X} {g₀ : Given} (h : Varies ks S x₀)
    (h0 : Source (S x₀) g₀) (hv : ∀ x y, (S x).get "v_s30" = .num y → y ≠ 0)
    (hks : ∀ k ∈ ["mechanism", "region"], k ∉ ks)
    (hext : g₀.hyp = none → (g₀.effTor (mechOf ((S x₀).get "mechanism"))).val ≠
      (g₀.effBor (mechOf ((S x₀).get "mechanism"))).val) :
    ∃ g : X → Given, g x₀ = g₀ ∧ (∀ x, Gives cls (S x) (out ((g x).toIn (mechOf ((S x₀).get "mechanism"))
      (regOf ((S x₀).get "region"))))) ∧
      InCont (fun x => (g x).toIn (mechOf ((S x₀).get "mechanism")) (regOf ((S x₀).get "region"))) x₀ := by
  obtain ⟨mag, e1, f1, c1⟩ := h.num h0.mag
  obtain ⟨rup, e2, f2, c2⟩ := h.num h0.rup
  obtain ⟨jb, e3, f3, c3⟩ := h.num h0.jb
  obtain ⟨x', e4, f4, c4⟩ := h.num h0.x
  obtain ⟨dip, e5, f5, c5⟩ := h.num h0.dip
  obtain ⟨v, e6, f6, c6⟩ := h.num h0.v
  obtain ⟨bot, e7, f7, c7⟩ := h.opt h0.bot
  obtain ⟨z1, e8, f8, c8⟩ := h.opt h0.z1
  obtain ⟨z25, e9, f9, c9⟩ := h.opt h0.z25
  obtain ⟨bor, e10, f10, c10⟩ := h.opt h0.bor
  obtain ⟨hyp, e11, f11, c11⟩ := h.opt h0.hyp
  obtain ⟨tor, e12, f12, c12⟩ := h.opt h0.tor
  obtain ⟨width, e13, f13, c13⟩ := h.opt h0.width
  have hm : ∀ x, (S x).get "mechanism" = (S x₀).get "mechanism" := h.fixed _ (hks "mechanism" (by simp))
  have hg : ∀ x, (S x).get "region" = (S x₀).get "region" := h.fixed _ (hks "region" (by simp))
  have eg : (⟨mag x₀, rup x₀, jb x₀, x' x₀, dip x₀, v x₀, bot x₀, z1 x₀, z25 x₀, bor x₀, hyp x₀, tor x₀,
    width x₀⟩ : Given) = g₀ := by
    rw [f1, f2, f3, f4, f5, f6, f7, f8, f9, f10, f11, f12, f13]
  refine ⟨fun x => ⟨mag x, rup x, jb x, x' x, dip x, v x, bot x, z1 x, z25 x, bor x, hyp x, tor x, width x⟩,
    eg, fun x => ?_, ?_⟩
  · rw [← hm x, ← hg x]
    refine gives ⟨e1 x, e2 x, e3 x, e4 x, e5 x, e6 x, e7 x, e8 x, e9 x, e10 x, e11 x, e12 x, e13 x, ?_⟩
      (hv x _ (e6 x))
    rw [hm x]; exact h0.mech
  · generalize mechOf ((S x₀).get "mechanism") = mech at *
    have m := F.CA.ofReal c1
    have vv := F.CA.ofReal c6
    have dd := F.CA.ofReal c5
    have bb := F.CA.ofReal (c7.getD ((15 : ℚ) : ℝ))
    have t : F.CA (fun x => F.orEst (tor x) (CY14.calcDepthTor (F.ofReal (mag x)) (decide (mech = .rs)))) x₀ :=
      F.CA.orEst c12 (CY14.calcDepthTor_CA m _) fun _ => Eventually.of_forall fun x => calcDepthTor_ok _ _
    have tok : ∀ x, (F.orEst (tor x) (CY14.calcDepthTor (F.ofReal (mag x)) (decide (mech = .rs)))).ok :=
      fun x => F.orEst_ok fun _ => calcDepthTor_ok _ _
    generalize ht : (fun x => F.orEst (tor x) (CY14.calcDepthTor (F.ofReal (mag x)) (decide (mech = .rs)))) = T at t
    have ht' : ∀ x, F.orEst (tor x) (CY14.calcDepthTor (F.ofReal (mag x)) (decide (mech = .rs))) = T x :=
      fun x => congrFun ht x
    simp only [ht'] at tok
    have we : F.CA (fun x => calcWidth (F.ofReal (mag x)) (F.ofReal (dip x)) (T x)
        (F.ofReal ((bot x).getD ((15 : ℚ) : ℝ)))) x₀ := by
      unfold calcWidth; fcont
    have weo : (calcWidth (F.ofReal (mag x₀)) (F.ofReal (dip x₀)) (T x₀)
        (F.ofReal ((bot x₀).getD ((15 : ℚ) : ℝ)))).ok → ∀ᶠ x in 𝓝 x₀, (calcWidth (F.ofReal (mag x))
          (F.ofReal (dip x)) (T x) (F.ofReal ((bot x).getD ((15 : ℚ) : ℝ)))).ok := fun ho => by
      have hs' : ContinuousAt (fun x => Real.sin (dip x * (Real.pi / 180))) x₀ :=
        Real.continuous_sin.continuousAt.comp (c5.mul_const _)
      have hne : Real.sin (dip x₀ * (Real.pi / 180)) ≠ 0 := by
        simp only [calcWidth, fsimp] at ho
        tauto
      filter_upwards [hs'.eventually_ne hne] with x hx
      have p : (0 : ℝ) < 10 ^ ((mag x - 4.07) / 0.98) := Real.rpow_pos_of_pos (by norm_num) _
      simp only [calcWidth, fsimp, tok]
      refine ⟨⟨⟨by norm_num, by norm_num⟩, p.le⟩, hx⟩
    have w := F.CA.orEst c13 we weo
    have wo := OptCont.orEst_ok (e := fun x => calcWidth (F.ofReal (mag x)) (F.ofReal (dip x)) (T x)
        (F.ofReal ((bot x).getD ((15 : ℚ) : ℝ)))) c13 weo
    generalize hW : (fun x => F.orEst (width x) (calcWidth (F.ofReal (mag x)) (F.ofReal (dip x)) (T x)
        (F.ofReal ((bot x).getD ((15 : ℚ) : ℝ))))) = W at w
    have hW' : ∀ x, F.orEst (width x) (calcWidth (F.ofReal (mag x)) (F.ofReal (dip x)) (T x)
        (F.ofReal ((bot x).getD ((15 : ℚ) : ℝ)))) = W x := fun x => congrFun hW x
    simp only [hW'] at wo
    have be : F.CA (fun x => calcDepthBor (T x) (F.ofReal (dip x)) (W x)) x₀ := by
      unfold calcDepthBor; fcont
    have beo : (calcDepthBor (T x₀) (F.ofReal (dip x₀)) (W x₀)).ok →
        ∀ᶠ x in 𝓝 x₀, (calcDepthBor (T x) (F.ofReal (dip x)) (W x)).ok := fun ho => by
      simp only [calcDepthBor, fsimp, tok] at ho ⊢
      simpa using wo (by simpa using ho)
    have b := F.CA.orEst c10 be beo
    have bo := OptCont.orEst_ok (e := fun x => calcDepthBor (T x) (F.ofReal (dip x)) (W x)) c10 beo
    generalize hB : (fun x => F.orEst (bor x) (calcDepthBor (T x) (F.ofReal (dip x)) (W x))) = B at b
    have hB' : ∀ x, F.orEst (bor x) (calcDepthBor (T x) (F.ofReal (dip x)) (W x)) = B x := fun x => congrFun hB x
    simp only [hB'] at bo
    have y : F.CA (fun x => F.orEst (hyp x) (calcDepthHyp (F.ofReal (mag x)) (F.ofReal (dip x)) (T x) (B x))) x₀ := by
      rcases id c11 with hn | ⟨g, hs, hg⟩
      · have hne : (T x₀).val ≠ (B x₀).val := by
          have := hext (by rw [← eg]; exact hn x₀)
          rw [← eg] at this
          simpa only [Given.effBor, Given.effWidth, Given.effTor, ht', hW', hB'] using this
        have he : F.CA (fun x => calcDepthHyp (F.ofReal (mag x)) (F.ofReal (dip x)) (T x) (B x)) x₀ := by
          unfold calcDepthHyp
          dsimp only
          fcont
          all_goals
            intro _ _ _ e
            simp only [fsimp] at e
            exact absurd (by linarith) hne
        refine F.CA.orEst c11 he fun ho => ?_
        simp only [calcDepthHyp, fsimp, tok, true_and, and_true] at ho ⊢
        have hb := b ho.1
        have htt := t (tok x₀)
        have hd : ContinuousAt (fun x => (B x).val - (T x).val) x₀ := hb.sub htt
        filter_upwards [bo ho.1] with x k1
        refine ⟨k1, ?_⟩
        split_ifs
        · exact ⟨k1, by linarith⟩
        · exact ⟨k1, trivial⟩
        · exact ⟨k1, trivial⟩
      · simp only [hs, F.orEst_some]
        exact F.CA.ofReal hg
    exact
      { mag := m
        rup := F.CA.ofReal c2
        jb := F.CA.ofReal c3
        x := F.CA.ofReal c4
        dip := dd
        width := by simpa only [Given.toIn, Given.effWidth, Given.effTor, ht', hW'] using w
        tor := by simpa only [Given.toIn, Given.effTor, ht'] using t
        hyp := by simpa only [Given.toIn, Given.effHyp, Given.effBor, Given.effWidth, Given.effTor, ht', hW', hB'] using y
        z25 := by
          refine F.CA.orEst c9 ?_ fun ho => ?_
          · unfold depth25OfVs; fcont
          · have hv0 : 0 < v x₀ := by
              unfold depth25OfVs at ho
              split at ho <;> simpa [fsimp] using ho
            filter_upwards [continuousAt_const.eventually_lt c6 hv0] with x hx
            unfold depth25OfVs
            split <;> simpa [fsimp] using hx
        v := vv
        mech := fun _ => rfl
        reg := fun _ => rfl }

end CB14

/-- Campbell & Bozorgnia (2014): every ordinate of the median and of the standard deviations is a
continuous function of all the numeric inputs together (given or estimated), where it is defined.
The exceptions: v_s30 = 200 m/s in Japan; with an estimated hypocentre, a rupture without vertical
extent; and, from magnitude 5.5 on the hanging wall with the top
of the rupture above 16.66 km, the points with `dist_x = 0`, `dist_rup = 0` or the top at 16.66 km
itself, and the end of the horizontal projection of the rupture if `R2 = 62 M - 350` equals it, or
at the four ordinates (0.01, 0.05, 0.3 and 0.5 s) whose coefficients do not add up to one. -/
theorem C115_cb14 {ks : List String} {S : X → Scenario} {x₀ : X} {g₀ : CB14.Given} {O : X → CB14.Out}
    {mech : CB14.Mech} (hmech : CB14.mechOf ((S x₀).get "mechanism") = mech)
    (h : Varies ks S x₀) (h0 : CB14.Source (S x₀) g₀) (hks : ∀ k ∈ ["mechanism", "region"], k ∉ ks)
    (hv : ∀ x y, (S x).get "v_s30" = .num y → y ≠ 0)
    (hr : CB14.Regular g₀ mech)
    (hext : g₀.hyp = none → (g₀.effTor mech).val ≠ (g₀.effBor mech).val)
    (hj : (S x₀).get "region" = .str "japan" → g₀.v ≠ 200)
    (hw : g₀.mag < 5.5 ∨ g₀.x < 0 ∨ 16.66 < (g₀.effTor mech).val ∨
      (g₀.x ≠ 0 ∧ g₀.rup ≠ 0 ∧ (g₀.effTor mech).val ≠ 16.66 ∧
        (g₀.x = (g₀.effWidth mech).val * Real.cos (g₀.dip * (Real.pi / 180)) → 62 * g₀.mag - 350 ≠ g₀.x)))
    (hO : ∀ x, Gives CB14.cls (S x) (O x)) :
    (∀ i, ((i = 0 ∨ i = 3 ∨ i = 9 ∨ i = 11) →
        g₀.mag < 5.5 ∨ g₀.x < 0 ∨ 16.66 < (g₀.effTor mech).val ∨
          g₀.x ≠ (g₀.effWidth mech).val * Real.cos (g₀.dip * (Real.pi / 180))) →
      ContinuousNumber (fun x => (O x).gmm.lnResp.getD i F.nan) x₀) ∧
      ContinuousEntries (fun x => (O x).gmm.lnStd.getD []) x₀ ∧
      ContinuousEntries (fun x => (O x).tau) x₀ ∧ ContinuousEntries (fun x => (O x).phi) x₀ := by
  obtain ⟨g, hg, h1, h2⟩ := CB14.family h h0 hv hks (hmech ▸ hext)
  rw [hmech] at h2
  obtain rfl : O = fun x => CB14.out ((g x).toIn mech (CB14.regOf ((S x₀).get "region"))) :=
    funext fun x => (hO x).unique (hmech ▸ h1 x)
  have hp : CB14.HngCont CB14.pgaRow ((g x₀).toIn mech (CB14.regOf ((S x₀).get "region"))) := by
    rw [hg]
    rcases hw with hw | hw | hw | ⟨n1, n2, n3, n4⟩
    · exact Or.inl hw
    · exact Or.inr (Or.inl hw)
    · exact Or.inr (Or.inr (Or.inl hw))
    · exact Or.inr (Or.inr (Or.inr ⟨n1, n2, n3, fun e => ⟨by decide +kernel, n4 e⟩⟩))
  have ho : (CB14.pgaRef ((g x₀).toIn mech (CB14.regOf ((S x₀).get "region")))).ok := by
    rw [hg]; exact CB14.pgaRef_ok hr _
  refine ⟨fun i hi => F.CA.spec ?_, .map _ (fun c x => CB14.lnStd c _ (CB14.pgaRef _) _) fun c hc => (CB14.std_CA hc h2 hp ho).2.2,
    .map _ (fun c x => CB14.tau c _ (CB14.pgaRef _) _) fun c hc => (CB14.std_CA hc h2 hp ho).2.1,
    .map _ (fun c x => CB14.phi c _ (CB14.pgaRef _) _) fun c hc => (CB14.std_CA hc h2 hp ho).1⟩
  simp only [CB14.out, List.getD_eq_getElem?_getD, List.getElem?_map]
  cases hc : CB14.table[i]? with
  | none => exact F.CA.const _
  | some c =>
    have hcm := List.mem_of_getElem? hc
    refine CB14.lnResp_CA hcm h2 ?_ hp ?_
    · rw [hg]
      rcases hw with hw | hw | hw | ⟨n1, n2, n3, n4⟩
      · exact Or.inl hw
      · exact Or.inr (Or.inl hw)
      · exact Or.inr (Or.inr (Or.inl hw))
      · by_cases hi' : i = 0 ∨ i = 3 ∨ i = 9 ∨ i = 11
        · rcases hi hi' with k | k | k | k
          · exact Or.inl k
          · exact Or.inr (Or.inl k)
          · exact Or.inr (Or.inr (Or.inl k))
          · exact Or.inr (Or.inr (Or.inr ⟨n1, n2, n3, fun e => absurd e k⟩))
        · refine Or.inr (Or.inr (Or.inr ⟨n1, n2, n3, fun e => ⟨?_, n4 e⟩⟩))
          have hl : i < 23 := by
            rw [← CB14.table_length]
            exact (List.getElem?_eq_some_iff.1 hc).1
          have key : ∀ j : Fin 23, ¬ (j.val = 0 ∨ j.val = 3 ∨ j.val = 9 ∨ j.val = 11) →
              ∀ c : CB14.Row, c ∈ CB14.table[j.val]? → c.h_1 + c.h_2 + c.h_3 = 1 := by decide +kernel
          exact key ⟨i, hl⟩ hi' c hc
    · rw [hg]
      intro hreg
      refine hj ?_
      change CB14.regOf ((S x₀).get "region") = .japan at hreg
      have := CB14.regOf_japan ((S x₀).get "region")
      rw [hreg] at this
      simpa [Val.isStr] using this

/-- the hypotheses are met: distance varies around 20 km -/
example : ∃ O : ℝ → CB14.Out, (∀ i, ContinuousNumber (fun r => (O r).gmm.lnResp.getD i F.nan) 20) ∧
    ContinuousEntries (fun r => (O r).tau) 20 := by
  have hv : Varies ["dist_rup"] CB14.exS 20 :=
    { fixed := fun k hk x => by
        simp only [List.mem_cons, List.not_mem_nil, or_false] at hk
        simp [CB14.exS, Scenario.get, Dict.get?, hk, eq_comm (b := k)]
      moving := by
        simp only [List.forall_mem_cons]
        exact ⟨⟨fun x => x, fun x => by simp [CB14.exS, Scenario.get, Dict.get?], continuous_id.continuousAt⟩,
          fun _ h => by simp at h⟩ }
  obtain ⟨h1, -, h3, -⟩ := C115_cb14 rfl hv (CB14.ex_source 20) (by simp)
    (fun x y h => by simp [CB14.exS, Scenario.get, Dict.get?] at h; rw [← h]; norm_num) (CB14.ex_regular 20)
    (fun _ => (CB14.ex_extent 20).ne)
    (by simp [CB14.exS, Scenario.get, Dict.get?]) (Or.inr (Or.inl (by norm_num [CB14.exG])))
    (fun x => CB14.gives (CB14.ex_source x) (by norm_num [CB14.exG]))
  exact ⟨_, fun i => h1 i fun _ => Or.inr (Or.inl (by norm_num [CB14.exG])), h3⟩
