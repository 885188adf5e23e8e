import Verif.Props.Irrelevant
import Verif.Props.BSSA14
import Verif.Props.AKB14
import Verif.Props.BA19

/-!
# C109: stiff sites

Two scenarios that agree on every key but `v_s30`, at stiff sites: where the prediction falls with the
velocity, and from where on it does not change at all.
-/

set_option linter.unusedSimpArgs false

theorem zipWith_congr_mem {α β γ : Type} (f g : α → β → γ) : ∀ (l : List α) (m : List β),
    (∀ a ∈ l, ∀ b, f a b = g a b) → List.zipWith f l m = List.zipWith g l m
  | [], _, _ => by simp
  | _ :: _, [], _ => by simp
  | a :: l, b :: m, h => by
    rw [List.zipWith_cons_cons, List.zipWith_cons_cons, h a (by simp), zipWith_congr_mem f g l m
      fun x hx y => h x (by simp [hx]) y]

/-! ## ASK14 -/

namespace ASK14

theorem given_agree {s t : Scenario} {g g' : Given} (h : Source s g) (h' : Source t g')
    (hst : AgreeExcept ["v_s30"] s t) : g' = { g with v := g'.v } := by
  cases g; cases g'
  simp only [Given.mk.injEq]
  exact ⟨hst.num h.mag h'.mag, hst.num h.rup h'.rup, hst.num h.jb h'.jb, hst.num h.dip h'.dip, trivial,
    hst.opt h.x h'.x, hst.opt h.y0 h'.y0, hst.opt h.width h'.width, hst.opt h.tor h'.tor,
    hst.opt h.z1 h'.z1, hst.opt h.crjb h'.crjb⟩

theorem v1R_le (c : Row) : v1R c ≤ 1500 := by
  obtain ⟨h1, h2⟩ := clip_period c
  rw [v1R_eq, Real.exp_add, Real.exp_log (by norm_num)]
  have : Real.exp (-0.35 * Real.log (min (max (c.period : ℝ) 0.5) 3 / 0.5)) ≤ 1 := by
    rw [Real.exp_le_one_iff]
    have : 0 ≤ Real.log (min (max (c.period : ℝ) 0.5) 3 / 0.5) :=
      Real.log_nonneg ((one_le_div (by norm_num)).2 h1)
    linarith
  linarith

theorem ratio_top (c : Row) {v v' : ℝ} (hv : 1500 ≤ v) (hv' : 1500 ≤ v') :
    ratio c (F.ofReal v') = ratio c (F.ofReal v) := by
  have h := v1R_le c
  ext
  · rw [ratio_val, ratio_val]
    simp only [F.val_ofReal]
    unfold ratioR
    rw [min_eq_right (by linarith), min_eq_right (by linarith)]
  · simp [ratio]

theorem f13_top (c : Row) {v v' : ℝ} (hv : 1500 ≤ v) (hv' : 1500 ≤ v') :
    f13 c (F.ofReal v') = f13 c (F.ofReal v) := by
  have key : ∀ x : ℝ, 1500 ≤ x → f13 c (F.ofReal x) = ⟨(c.a42 : F).val, True ∧ (c.a42 : F).ok⟩ := by
    intro x hx
    unfold f13 npInterpF
    simp only [F.val_ofReal, F.ok_ofReal, npInterp]
    rw [if_neg (by linarith), if_neg (by linarith), if_neg (by linarith), if_neg (by linarith),
      if_neg (by linarith), if_neg (by linarith), if_neg (by linarith), if_neg (by linarith),
      if_neg (by linarith), if_neg (by linarith), if_neg (by linarith), if_neg (by linarith)]
  rw [key v hv, key v' hv']

theorem std_stiff {g : Given} (k : Kind) {v' : ℝ} (hv : 960 ≤ g.v) (hv' : 960 ≤ v') :
    ∀ c ∈ table, lnStd c (({ g with v := v' } : Given).toIn k) = lnStd c (g.toIn k) ∧
      tau c (({ g with v := v' } : Given).toIn k) = tau c (g.toIn k) ∧
      phi c (({ g with v := v' } : Given).toIn k) = phi c (g.toIn k) := by
  set j := ({ g with v := v' } : Given).toIn k
  intro c hc
  have e3 : deriv c j = deriv c (g.toIn k) := by
    have h1 := (vlin_pos hc).2.1
    have key : ∀ i : In, i.v.ok → (c.v_lin : ℝ) ≤ i.v.val → deriv c i = 0 := by
      intro i hi hl
      ext
      · simp only [deriv, F.val_iteLe, fsimp, hl, if_true]
      · simp only [deriv, fsimp, hl, hi, if_true]
    rw [key j trivial (by change _ ≤ v'; linarith), key (g.toIn k) trivial (by change _ ≤ g.v; linarith)]
  have e4 : tau c j = tau c (g.toIn k) := by unfold tau; rw [e3]; rfl
  have e5 : phi c j = phi c (g.toIn k) := by unfold phi; rw [e3]; rfl
  exact ⟨by unfold lnStd; rw [e4, e5], e4, e5⟩

theorem out_top {g : Given} (k : Kind) {v' : ℝ} (hz : g.z1 = none) (hv : 1500 ≤ g.v) (hv' : 1500 ≤ v') :
    out (({ g with v := v' } : Given).toIn k) = out (g.toIn k) := by
  have hs := std_stiff (g := g) k (v' := v') (by linarith) (by linarith)
  set j := ({ g with v := v' } : Given).toIn k
  have er : ∀ c, refMotion c j = refMotion c (g.toIn k) := fun c => rfl
  have hsite : ∀ c ref, siteTerm c ref (F.ofReal v') none (k.reg = .japan) =
      siteTerm c ref (F.ofReal g.v) none (k.reg = .japan) := by
    intro c ref
    unfold siteTerm f5 f10
    rw [ratio_top c hv hv']
  have hreg : ∀ c, freg c (F.ofReal v') (F.ofReal g.rup) k.reg = freg c (F.ofReal g.v) (F.ofReal g.rup) k.reg := by
    intro c
    unfold freg
    rw [ratio_top c hv hv', f13_top c hv hv']
  have e1 : ∀ c, lnResp c j = lnResp c (g.toIn k) := by
    intro c
    have l : ∀ i : In, lnResp c i = f1 c i.mag i.rup + (if i.hw then f4 c i else 0) + f6 c i.tor +
        fMech c i.mag i.mech + f11 c i + freg c i.v i.rup i.reg +
        siteTerm c (refMotion c i) i.v i.z1 (i.reg = .japan) := fun i => rfl
    rw [l, l, er]
    change _ + freg c (F.ofReal v') (F.ofReal g.rup) k.reg +
        siteTerm c _ (F.ofReal v') (g.z1.map F.ofReal) (k.reg = .japan) =
      _ + freg c (F.ofReal g.v) (F.ofReal g.rup) k.reg +
        siteTerm c _ (F.ofReal g.v) (g.z1.map F.ofReal) (k.reg = .japan)
    rw [hreg, hz, Option.map_none, hsite]
    rfl
  unfold out
  rw [List.map_congr_left fun c hc => e1 c, List.map_congr_left fun c hc => (hs c hc).1,
    List.map_congr_left fun c hc => (hs c hc).2.1, List.map_congr_left fun c hc => (hs c hc).2.2]

theorem rock_rows : ∀ c ∈ table, c.a10 + c.b * c.n ≤ (-0.47 : ℚ) := by decide +kernel

theorem resp_stiff {c : Row} (hc : c ∈ table) {g : Given} {k : Kind} (hk : g.HwOk k) {v' : ℝ} (hz : g.z1 = none)
    (hr : k.reg = .other ∨ k.reg = .china) (hv : 960 ≤ g.v) (hvv : g.v < v') :
    F.NotAbove (lnResp c (g.toIn k)) (lnResp c (({ g with v := v' } : Given).toIn k)) ∧
    (c.period ≤ 0.5 → g.v < 1500 →
      F.Drops (lnResp c (g.toIn k)) (lnResp c (({ g with v := v' } : Given).toIn k))) := by
  obtain ⟨h1, h2, h3⟩ := vlin_pos hc
  have hq : (c.a10 : ℝ) + c.b * c.n < 0 := by
    have q := rock_rows c hc
    have : ((c.a10 + c.b * c.n : ℚ) : ℝ) ≤ ((-0.47 : ℚ) : ℝ) := by exact_mod_cast q
    push_cast at this
    norm_num at this
    linarith
  have o1 : (lnResp c (g.toIn k)).ok := resp_ok hc hk (by linarith) (by simp [hz])
  have o2 : (lnResp c (({ g with v := v' } : Given).toIn k)).ok :=
    resp_ok (g := { g with v := v' }) hc hk (by change 0 < v'; linarith) (by simp [hz])
  have e1 := resp_val hc g k
  have e2 := resp_val hc { g with v := v' } k
  have z1 : (f10 c (F.ofReal g.v) (g.z1.map F.ofReal) (k.reg = .japan)).val = 0 := by rw [hz]; simp [f10]
  have z2 : (f10 c (F.ofReal v') (({ g with v := v' } : Given).z1.map F.ofReal) (k.reg = .japan)).val = 0 := by
    change (f10 c (F.ofReal v') (g.z1.map F.ofReal) (k.reg = .japan)).val = 0
    rw [hz]; simp [f10]
  rw [z1] at e1
  rw [z2] at e2
  have hreg : freg c (F.ofReal v') (F.ofReal g.rup) k.reg = freg c (F.ofReal g.v) (F.ofReal g.rup) k.reg := by
    rcases hr with hr | hr <;> rw [hr] <;> rfl
  have hbase : baseF c (({ g with v := v' } : Given).toIn k) = baseF c (g.toIn k) := rfl
  have hf : ∀ x y : ℝ, 960 ≤ x → f5R c x y = ((c.a10 : ℝ) + c.b * c.n) * Real.log (ratioR c x) := by
    intro x y hx
    unfold f5R
    rw [if_neg]
    rw [ratioR_lt hc]; linarith
  have hle : Real.log (ratioR c g.v) ≤ Real.log (ratioR c v') := by
    apply Real.log_le_log (ratioR_pos hc (by linarith))
    unfold ratioR
    exact div_le_div_of_nonneg_right (min_le_min_right _ hvv.le) (by linarith)
  rw [hf _ _ hv] at e1
  rw [hf _ _ (by change 960 ≤ v'; linarith)] at e2
  rw [hreg, hbase] at e2
  refine ⟨⟨o1, o2, ?_⟩, fun hp h15 => ⟨o1, o2, ?_⟩⟩
  · have := mul_le_mul_of_nonpos_left hle hq.le
    linarith
  · have hlt : Real.log (ratioR c g.v) < Real.log (ratioR c v') := by
      apply Real.log_lt_log (ratioR_pos hc (by linarith))
      unfold ratioR
      rw [v1R_short hp, min_eq_left h15.le]
      exact div_lt_div_of_pos_right (lt_min hvv h15) (by linarith)
    have := mul_lt_mul_of_neg_left hlt hq
    linarith

end ASK14

/-- ASK14 without `depth_1_0`: from 1500 m/s on the velocity has no influence, in any region, on or off
the hanging wall. -/
theorem C109_ask14_saturates (s t : Scenario) (g g' : ASK14.Given) (h : ASK14.Source s g)
    (h' : ASK14.Source t g') (hst : AgreeExcept ["v_s30"] s t)
    (hx : (s.get "on_hanging_wall").isOn → g.x ≠ none) (hz : g.z1 = none) (hv : 1500 ≤ g.v)
    (hv' : 1500 ≤ g'.v) :
    ∃ o, Gives ASK14.cls s o ∧ Gives ASK14.cls t o := by
  have hk : ASK14.kindOf t = ASK14.kindOf s := ASK14.kindOf_agree hst (by decide)
  have e := ASK14.given_agree h h' hst
  rw [← ASK14.hw_iff] at hx
  refine ⟨_, ASK14.gives h hx, ?_⟩
  have := ASK14.gives h' (by rw [hk, hst.opt h.x h'.x]; exact hx)
  rw [hk, e, ASK14.out_top _ hz hv hv'] at this
  exact this

/-- ASK14 without `depth_1_0`, outside Japan and Taiwan: from 960 m/s on a stiffer site has the same
standard deviations, no ordinate is higher, and those up to 0.5 s (the table gives PGA and PGV the
periods 0 and -1) are strictly lower as long as the softer site is below 1500 m/s. -/
theorem C109_ask14_stiff (s t : Scenario) (g g' : ASK14.Given) (h : ASK14.Source s g)
    (h' : ASK14.Source t g') (hst : AgreeExcept ["v_s30"] s t) (hk0 : g.HwOk (ASK14.kindOf s))
    (hr : s.get "region" ≠ .str "japan" ∧ s.get "region" ≠ .str "taiwan") (hz : g.z1 = none) (hv : 960 ≤ g.v)
    (hvv : g.v < g'.v) :
    ∃ o o', Gives ASK14.cls s o ∧ Gives ASK14.cls t o' ∧ o'.gmm.lnStd = o.gmm.lnStd ∧ o'.tau = o.tau ∧
      o'.phi = o.phi ∧ o.gmm.lnResp.length = 24 ∧ List.Forall₂ F.NotAbove o.gmm.lnResp o'.gmm.lnResp ∧
      (g.v < 1500 → ∀ (i : ℕ) (c : ASK14.Row), ASK14.table[i]? = some c → c.period ≤ 0.5 →
        F.Drops (o.gmm.lnResp.getD i F.nan) (o'.gmm.lnResp.getD i F.nan)) := by
  have hk : ASK14.kindOf t = ASK14.kindOf s := ASK14.kindOf_agree hst (by decide)
  have e := ASK14.given_agree h h' hst
  have hx : (ASK14.kindOf s).hw = true → g.x ≠ none := fun q => (hk0 q).1
  have h1 := ASK14.gives h hx
  have h2 := ASK14.gives h' (by rw [hk, hst.opt h.x h'.x]; exact hx)
  rw [hk, e] at h2
  have hreg : (ASK14.kindOf s).reg = .other ∨ (ASK14.kindOf s).reg = .china := by
    simp only [ASK14.kindOf, ASK14.regOf, Val.isStr, hr.1, hr.2, decide_false]
    by_cases q : s.get "region" = .str "china" <;> simp [q]
  have hs := ASK14.std_stiff (g := g) (ASK14.kindOf s) (v' := g'.v) hv (by linarith)
  refine ⟨_, _, h1, h2, ?_, ?_, ?_, ?_, ?_, ?_⟩
  · simp only [ASK14.out]
    rw [List.map_congr_left fun c hc => (hs c hc).1]
  · simp only [ASK14.out]
    rw [List.map_congr_left fun c hc => (hs c hc).2.1]
  · simp only [ASK14.out]
    rw [List.map_congr_left fun c hc => (hs c hc).2.2]
  · simp only [ASK14.out]
    rw [List.length_map, ASK14.table_length]
  · simp only [ASK14.out]
    exact forall₂_map fun c hc => (ASK14.resp_stiff hc hk0 hz hreg hv hvv).1
  · intro h15 i c hi hp
    simp only [ASK14.out, List.getD_eq_getElem?_getD, List.getElem?_map, hi, Option.map_some,
      Option.getD_some]
    exact (ASK14.resp_stiff (List.mem_of_getElem? hi) hk0 hz hreg hv hvv).2 hp h15

/-! ## CY14 -/

namespace CY14

theorem given_agree {s t : Scenario} {g g' : Given} (h : Source s g) (h' : Source t g')
    (hst : AgreeExcept ["v_s30"] s t) : g' = { g with v := g'.v } := by
  cases g; cases g'
  simp only [Given.mk.injEq]
  exact ⟨hst.num h.mag h'.mag, hst.num h.rup h'.rup, hst.num h.jb h'.jb, hst.num h.x h'.x,
    hst.num h.dip h'.dip, trivial, hst.opt h.tor h'.tor, hst.opt h.z1 h'.z1, hst.opt h.dpp h'.dpp⟩

theorem bNl_top (c : Row) {v : ℝ} (hv : 1130 ≤ v) : bNl c (F.ofReal v) = 0 := by
  ext
  · simp only [bNl, fsimp]
    rw [min_eq_right hv]
    ring
  · simp [bNl]

theorem site_top (c : Row) (resp : F) {v : ℝ} (hv : 1130 ≤ v) (b : Bool) :
    (siteTerm c resp (F.ofReal v) (calcDepth10 (F.ofReal v) b) b).val = 0 ∧
    ((siteTerm c resp (F.ofReal v) (calcDepth10 (F.ofReal v) b) b).ok ↔
      (siteTerm c resp (F.ofReal 1130) (calcDepth10 (F.ofReal 1130) b) b).ok) := by
  have hd : ∀ x : ℝ, 1130 ≤ x → (calcDepth10 (F.ofReal x) b).ok := fun x hx => by
    have := calcDepth10_ok (v := x) (by linarith) b
    exact this
  constructor
  · unfold siteTerm
    rw [bNl_top c hv]
    simp only [fsimp]
    rw [min_eq_right (Real.log_nonneg (by rw [le_div_iff₀ (by norm_num)]; linarith))]
    simp
  · unfold siteTerm
    rw [bNl_top c hv, bNl_top c le_rfl]
    simp only [fsimp, hd v hv, hd 1130 le_rfl]
    have : 0 < v / 1130 := by positivity
    simp [this]

end CY14

/-- CY14 without `depth_1_0`: from 1130 m/s on the velocity has no influence on anything, in any region,
on or off the hanging wall. -/
theorem C109_cy14_saturates (s t : Scenario) (g g' : CY14.Given) (h : CY14.Source s g)
    (h' : CY14.Source t g') (hst : AgreeExcept ["v_s30"] s t) (hz : g.z1 = none) (hv : 1130 ≤ g.v)
    (hv' : 1130 ≤ g'.v) :
    ∃ o, Gives CY14.cls s o ∧ Gives CY14.cls t o := by
  have hk : CY14.kindOf t = CY14.kindOf s := CY14.kindOf_agree hst (by decide)
  have e := CY14.given_agree h h' hst
  refine ⟨_, CY14.gives h, ?_⟩
  have := CY14.gives h'
  rw [hk, e] at this
  suffices hh : CY14.out (({ g with v := g'.v } : CY14.Given).toIn (CY14.kindOf s)) =
      CY14.out (g.toIn (CY14.kindOf s)) by rwa [hh] at this
  generalize CY14.kindOf s = k
  generalize g'.v = v' at hv'
  set j := ({ g with v := v' } : CY14.Given).toIn k
  have zj : j.z1 = CY14.calcDepth10 (F.ofReal v') (k.reg = .japan) := by
    change F.orEst g.z1 _ = _
    rw [hz, F.orEst_none (CY14.calcDepth10_ok (by linarith) _)]
  have zi : (g.toIn k).z1 = CY14.calcDepth10 (F.ofReal g.v) (k.reg = .japan) := by
    change F.orEst g.z1 _ = _
    rw [hz, F.orEst_none (CY14.calcDepth10_ok (by linarith) _)]
  have e0 : ∀ c, CY14.lnRef c j = CY14.lnRef c (g.toIn k) := fun c => rfl
  have e1 : ∀ c, CY14.lnResp c j = CY14.lnResp c (g.toIn k) := by
    intro c
    unfold CY14.lnResp
    rw [e0, zj, zi]
    obtain ⟨a1, a2⟩ := CY14.site_top c (F.exp (CY14.lnRef c (g.toIn k))) hv (k.reg = .japan)
    obtain ⟨b1, b2⟩ := CY14.site_top c (F.exp (CY14.lnRef c (g.toIn k))) hv' (k.reg = .japan)
    congr 1
    ext
    · exact b1.trans a1.symm
    · exact b2.trans a2.symm
  have e3 : ∀ c, CY14.nl0 c j = CY14.nl0 c (g.toIn k) := by
    intro c
    unfold CY14.nl0
    rw [e0, show CY14.bNl c j.v = 0 from CY14.bNl_top c hv', show CY14.bNl c (g.toIn k).v = 0 from CY14.bNl_top c hv]
  have e4 : ∀ c, CY14.tau c j = CY14.tau c (g.toIn k) := fun c => by unfold CY14.tau; rw [e3]; rfl
  have e5 : ∀ c, CY14.phi c j = CY14.phi c (g.toIn k) := fun c => by unfold CY14.phi; rw [e3]; rfl
  have e6 : ∀ c, CY14.lnStd c j = CY14.lnStd c (g.toIn k) := fun c => by
    unfold CY14.lnStd; rw [e3, e5]; rfl
  unfold CY14.out
  simp only [e1, e4, e5, e6]

/-! ## BSSA14 -/

namespace BSSA14

theorem given_agree {s t : Scenario} {g g' : Given} (h : Source s g) (h' : Source t g')
    (hst : AgreeExcept ["v_s30"] s t) : g' = { g with v := g'.v } := by
  cases g; cases g'
  simp only [Given.mk.injEq]
  exact ⟨hst.num h.mag h'.mag, hst.num h.jb h'.jb, trivial, hst.opt h.z1 h'.z1⟩

theorem rock_rows : ∀ c ∈ table, c.c < 0 ∧ c.V_c ≤ 1503.35 := by decide +kernel

/-- the standard deviations do not depend on the velocity from 300 m/s on -/
theorem std_stiff {c : Row} (hc : c ∈ table) (g : Given) (mech : Mech) (reg : Reg) {v' : ℝ} (hv : 300 ≤ g.v)
    (hv' : 300 ≤ v') : phi c (({ g with v := v' } : Given).toIn mech reg) = phi c (g.toIn mech reg) := by
  obtain ⟨-, -, -, -, -, -, -, h8, h9, -⟩ := casts hc
  have hl : 0 < Real.log ((300 : ℝ) / 225) := Real.log_pos (by norm_num)
  have key : ∀ x : ℝ, 300 ≤ x → F.clip (F.log (c.V_2 / F.ofReal x) / F.log ((c.V_2 : F) / c.V_1)) 0 1 = 0 := by
    intro x hx
    have hx0 : 0 < 300 / x := by positivity
    have : Real.log (300 / x) ≤ 0 := Real.log_nonpos hx0.le (by rw [div_le_one (by linarith)]; exact hx)
    ext
    · simp only [fsimp, h8, h9]
      rw [max_eq_right (div_nonpos_of_nonpos_of_nonneg this hl.le)]
      norm_num
    · simp only [fsimp, h8, h9]
      simp only [iff_true]
      refine ⟨⟨by linarith, hx0⟩, ⟨by norm_num, by norm_num⟩, hl.ne'⟩
  unfold phi
  rw [show (({ g with v := v' } : Given).toIn mech reg).v = F.ofReal v' from rfl,
    show (g.toIn mech reg).v = F.ofReal g.v from rfl, key _ hv, key _ hv']
  rfl

theorem out_top (g : Given) (mech : Mech) (reg : Reg) {v' : ℝ} (hz : g.z1 = none) (hv : 1503.35 ≤ g.v)
    (hv' : 1503.35 ≤ v') : out (({ g with v := v' } : Given).toIn mech reg) = out (g.toIn mech reg) := by
  set j := ({ g with v := v' } : Given).toIn mech reg
  have hp : pgaRef j = pgaRef (g.toIn mech reg) := rfl
  have e1 : ∀ c ∈ table, lnResp c j (some (pgaRef j)) = lnResp c (g.toIn mech reg) (some (pgaRef (g.toIn mech reg))) := by
    intro c hc
    have a := resp_facts hc g (by linarith) mech reg
    have b := resp_facts hc { g with v := v' } (by change 0 < v'; linarith) mech reg
    have hV : (c.V_c : ℝ) ≤ 1503.35 := by
      have : ((c.V_c : ℚ) : ℝ) ≤ ((1503.35 : ℚ) : ℝ) := by exact_mod_cast (rock_rows c hc).2
      push_cast at this
      exact this
    ext
    · refine b.2.trans (Eq.trans ?_ a.2.symm)
      simp only [f2R, basinR, hz]
      rw [min_eq_right (a := v') (by linarith), min_eq_right (a := g.v) (by linarith),
        min_eq_right (a := v') (b := 760) (by linarith), min_eq_right (a := g.v) (b := 760) (by linarith)]
      simp only [Option.elim_none]
    · exact iff_of_true b.1 a.1
  have e2 : ∀ c ∈ table, phi c j = phi c (g.toIn mech reg) := fun c hc =>
    std_stiff hc g mech reg (by linarith) (by linarith)
  have e3 : ∀ c, tau c j = tau c (g.toIn mech reg) := fun c => rfl
  have e4 : ∀ c ∈ table, lnStd c j = lnStd c (g.toIn mech reg) := fun c hc => by
    unfold lnStd; rw [e2 c hc, e3]
  unfold out
  rw [List.map_congr_left e1, List.map_congr_left e4, List.map_congr_left fun c _ => e3 c,
    List.map_congr_left e2]

end BSSA14

/-- BSSA14 without `depth_1_0`: from 1503.35 m/s on the velocity has no influence. -/
theorem C109_bssa14_saturates (s t : Scenario) (g g' : BSSA14.Given) (h : BSSA14.Source s g)
    (h' : BSSA14.Source t g') (hst : AgreeExcept ["v_s30"] s t) (hz : g.z1 = none) (hv : 1503.35 ≤ g.v)
    (hv' : 1503.35 ≤ g'.v) :
    ∃ o, Gives BSSA14.cls s o ∧ Gives BSSA14.cls t o := by
  have e := BSSA14.given_agree h h' hst
  refine ⟨_, BSSA14.gives h, ?_⟩
  have := BSSA14.gives h'
  rw [hst "mechanism" (by decide), hst "region" (by decide), e, BSSA14.out_top _ _ _ hz hv hv'] at this
  exact this

/-- BSSA14 without `depth_1_0`: from 760 m/s on a stiffer site has the same standard deviations and no
higher ordinate, and a strictly lower one where the softer site is below the limiting velocity of the
ordinate (760.81 to 1503.35 m/s). -/
theorem C109_bssa14_stiff (s t : Scenario) (g g' : BSSA14.Given) (h : BSSA14.Source s g)
    (h' : BSSA14.Source t g') (hst : AgreeExcept ["v_s30"] s t) (hz : g.z1 = none) (hv : 760 ≤ g.v)
    (hvv : g.v < g'.v) :
    ∃ o o', Gives BSSA14.cls s o ∧ Gives BSSA14.cls t o' ∧ o'.gmm.lnStd = o.gmm.lnStd ∧ o'.tau = o.tau ∧
      o'.phi = o.phi ∧ o.gmm.lnResp.length = 107 ∧ List.Forall₂ F.NotAbove o.gmm.lnResp o'.gmm.lnResp ∧
      ∀ (i : ℕ) (c : BSSA14.Row), BSSA14.table[i]? = some c → g.v < c.V_c →
        F.Drops (o.gmm.lnResp.getD i F.nan) (o'.gmm.lnResp.getD i F.nan) := by
  have e := BSSA14.given_agree h h' hst
  have h2 := BSSA14.gives h'
  rw [hst "mechanism" (by decide), hst "region" (by decide), e] at h2
  have e2 := fun (c : BSSA14.Row) (hc : c ∈ BSSA14.table) => BSSA14.std_stiff hc g
    (BSSA14.mechOf (s.get "mechanism")) (BSSA14.regOf (s.get "region")) (v' := g'.v) (by linarith) (by linarith)
  have e4 : ∀ c ∈ BSSA14.table, BSSA14.lnStd c (({ g with v := g'.v } : BSSA14.Given).toIn
      (BSSA14.mechOf (s.get "mechanism")) (BSSA14.regOf (s.get "region"))) = BSSA14.lnStd c (g.toIn
      (BSSA14.mechOf (s.get "mechanism")) (BSSA14.regOf (s.get "region"))) := fun c hc => by
    unfold BSSA14.lnStd; rw [e2 c hc]; rfl
  have key : ∀ c ∈ BSSA14.table, let i := g.toIn (BSSA14.mechOf (s.get "mechanism")) (BSSA14.regOf (s.get "region"))
      let j := ({ g with v := g'.v } : BSSA14.Given).toIn (BSSA14.mechOf (s.get "mechanism"))
        (BSSA14.regOf (s.get "region"))
      F.NotAbove (BSSA14.lnResp c i (some (BSSA14.pgaRef i))) (BSSA14.lnResp c j (some (BSSA14.pgaRef j))) ∧
      (g.v < c.V_c →
        F.Drops (BSSA14.lnResp c i (some (BSSA14.pgaRef i))) (BSSA14.lnResp c j (some (BSSA14.pgaRef j)))) := by
    intro c hc i j
    have a := BSSA14.resp_facts hc g (by linarith) (BSSA14.mechOf (s.get "mechanism"))
      (BSSA14.regOf (s.get "region"))
    have b := BSSA14.resp_facts hc { g with v := g'.v } (by change 0 < g'.v; linarith)
      (BSSA14.mechOf (s.get "mechanism")) (BSSA14.regOf (s.get "region"))
    have hV := (BSSA14.casts hc).2.2.2.2.2.2.2.2.2.2.2
    have hneg : (c.c : ℝ) < 0 := by exact_mod_cast (BSSA14.rock_rows c hc).1
    have f1 : BSSA14.f2R c g'.v = BSSA14.f2R c g.v := by
      unfold BSSA14.f2R
      rw [min_eq_right (a := g'.v) (by linarith), min_eq_right (a := g.v) (by linarith)]
    have f2 : BSSA14.basinR c g'.v g.z1 = BSSA14.basinR c g.v g.z1 := by
      rw [hz]; rfl
    have b2 := b.2
    simp only [f1, f2] at b2
    refine ⟨⟨a.1, b.1, ?_⟩, fun hlt => ⟨a.1, b.1, ?_⟩⟩
    · have : Real.log (min g.v c.V_c / 760) ≤ Real.log (min g'.v c.V_c / 760) := by
        apply Real.log_le_log
        · exact div_pos (lt_min (by linarith) (by linarith)) (by norm_num)
        · exact div_le_div_of_nonneg_right (min_le_min_right _ hvv.le) (by norm_num)
      have := mul_le_mul_of_nonpos_left this hneg.le
      rw [b2, a.2]
      linarith
    · have : Real.log (min g.v c.V_c / 760) < Real.log (min g'.v c.V_c / 760) := by
        apply Real.log_lt_log
        · exact div_pos (lt_min (by linarith) (by linarith)) (by norm_num)
        · rw [min_eq_left hlt.le]
          exact div_lt_div_of_pos_right (lt_min hvv hlt) (by norm_num)
      have := mul_lt_mul_of_neg_left this hneg
      rw [b2, a.2]
      linarith
  refine ⟨_, _, BSSA14.gives h, h2, ?_, rfl, ?_, ?_, ?_, ?_⟩
  · simp only [BSSA14.out]
    rw [List.map_congr_left e4]
  · simp only [BSSA14.out]
    rw [List.map_congr_left e2]
  · simp only [BSSA14.out]
    rw [List.length_map, BSSA14.table_length]
  · simp only [BSSA14.out]
    exact forall₂_map fun c hc => (key c hc).1
  · intro i c hi hlt
    simp only [BSSA14.out, List.getD_eq_getElem?_getD, List.getElem?_map, hi, Option.map_some,
      Option.getD_some]
    exact (key c (List.mem_of_getElem? hi)).2 hlt

/-! ## AKB14 -/

namespace AKB14

theorem vcon : ∀ tbl ∈ tables, ∀ c ∈ tbl, c.v_con = 1000 ∧ c.b_1 < 0 := by decide +kernel

theorem site_top {tbl : List Row} (ht : tbl ∈ tables) {c : Row} (hc : c ∈ tbl) {v v' : ℝ} (hv : 1000 ≤ v)
    (hv' : 1000 ≤ v') (p : F) : site c (F.ofReal v') p = site c (F.ofReal v) p := by
  have key : ∀ x : ℝ, 1000 ≤ x → site c (F.ofReal x) p = c.b_1 * F.log (F.ofReal 1000 / 750) := by
    intro x hx
    have h := (vcon tbl ht c hc).1
    have h' : (c.v_con : ℝ) = 1000 := by rw [h]; norm_num
    ext
    · simp only [site, fsimp, h']
      rw [if_neg (by linarith), min_eq_right hx]
    · simp only [site, fsimp, h']
      rw [if_neg (by linarith), min_eq_right hx]
  rw [key v hv, key v' hv']

end AKB14

/-- AKB14: from 1000 m/s on the velocity has no influence, whichever distance is given. -/
theorem C109_akb14_saturates (s s' : Scenario) (m v v' : ℝ) (t : String) (a b c : Option ℝ)
    (hm : s.get "mag" = .num m) (hv : s.get "v_s30" = .num v) (ht : s.get "mechanism" = .str t)
    (ha : s.get "dist_jb" = Val.ofOpt a) (hb : s.get "dist_hyp" = Val.ofOpt b)
    (hc : s.get "dist_epi" = Val.ofOpt c) (hst : AgreeExcept ["v_s30"] s s') (hv' : s'.get "v_s30" = .num v')
    (hd : ¬ (a = none ∧ b = none ∧ c = none)) (h1 : 1000 ≤ v) (h2 : 1000 ≤ v') :
    ∃ o, Gives AKB14.cls s o ∧ Gives AKB14.cls s' o := by
  obtain ⟨p, hp⟩ : ∃ p, AKB14.spec a b c = some p := by
    cases a <;> cases b <;> cases c <;> simp_all [AKB14.spec]
  have htb := AKB14.spec_table hp
  refine ⟨_, AKB14.gives s hm hv ht ha hb hc hp, ?_⟩
  have := AKB14.gives s' ((hst _ (by decide)).trans hm) hv' ((hst _ (by decide)).trans ht)
    ((hst _ (by decide)).trans ha) ((hst _ (by decide)).trans hb) ((hst _ (by decide)).trans hc) hp
  suffices e : AKB14.out p.2 (F.ofReal m) (F.ofReal p.1) (F.ofReal v') (AKB14.mechFor t) =
      AKB14.out p.2 (F.ofReal m) (F.ofReal p.1) (F.ofReal v) (AKB14.mechFor t) by rwa [e] at this
  unfold AKB14.out
  rw [List.map_congr_left fun c hc => by rw [AKB14.site_top htb hc h1 h2]]

/-- AKB14: from 750 to 1000 m/s a stiffer site has strictly lower ordinates and the same standard
deviations. -/
theorem C109_akb14_stiff (s s' : Scenario) (m v v' : ℝ) (t : String) (a b c : Option ℝ)
    (hm : s.get "mag" = .num m) (hv : s.get "v_s30" = .num v) (ht : s.get "mechanism" = .str t)
    (ha : s.get "dist_jb" = Val.ofOpt a) (hb : s.get "dist_hyp" = Val.ofOpt b)
    (hc : s.get "dist_epi" = Val.ofOpt c) (hst : AgreeExcept ["v_s30"] s s') (hv' : s'.get "v_s30" = .num v')
    (hd : ¬ (a = none ∧ b = none ∧ c = none)) (h1 : 750 ≤ v) (h2 : v < 1000) (h3 : v < v') :
    ∃ o o', Gives AKB14.cls s o ∧ Gives AKB14.cls s' o' ∧ o'.lnStd = o.lnStd ∧ o.lnResp.length = 64 ∧
      List.Forall₂ F.Drops o.lnResp o'.lnResp := by
  obtain ⟨p, hp⟩ : ∃ p, AKB14.spec a b c = some p := by
    cases a <;> cases b <;> cases c <;> simp_all [AKB14.spec]
  have htb := AKB14.spec_table hp
  obtain ⟨hl, r, hr⟩ := AKB14.head_facts _ htb
  have hrm : r ∈ p.2 := List.mem_of_head? hr
  refine ⟨_, _, AKB14.gives s hm hv ht ha hb hc hp,
    AKB14.gives s' ((hst _ (by decide)).trans hm) hv' ((hst _ (by decide)).trans ht)
    ((hst _ (by decide)).trans ha) ((hst _ (by decide)).trans hb) ((hst _ (by decide)).trans hc) hp, rfl,
    ?_, ?_⟩
  · simp only [AKB14.out]
    rw [List.length_map, hl]
  simp only [AKB14.out, AKB14.pgaRef_eq hr]
  apply forall₂_map
  intro q hq
  have o1 := AKB14.lnRef_ok htb hq m p.1 (AKB14.mechFor t)
  have o2 := AKB14.lnRef_ok htb hrm m p.1 (AKB14.mechFor t)
  have hneg : (q.b_1 : ℝ) < 0 := by exact_mod_cast (AKB14.vcon _ htb q hq).2
  refine ⟨⟨o1, AKB14.site_ok htb hq (by linarith) o2⟩, ⟨o1, AKB14.site_ok htb hq (by linarith) o2⟩, ?_⟩
  simp only [F.val_add, AKB14.site_val htb hq (v := v) (by linarith), AKB14.site_val htb hq (v := v') (by linarith),
    AKB14.S]
  rw [min_eq_right (a := v) (b := 750) h1, min_eq_right (a := v') (b := 750) (by linarith), min_eq_left h2.le]
  have : Real.log (v / 750) < Real.log (min v' 1000 / 750) := by
    apply Real.log_lt_log (by positivity)
    exact div_lt_div_of_pos_right (lt_min h3 h2) (by norm_num)
  have := mul_lt_mul_of_neg_left this hneg
  linarith

/-! ## AGA16 and CoppersmithBommer -/

namespace AGA16

theorem vlin_top : ∀ c ∈ table, c.v_lin ≤ (1085.7 : ℚ) := by decide +kernel
theorem cop_vlin_top : ∀ c ∈ CoppersmithBommer.table, c.v_lin ≤ (1085.7 : ℚ) := by decide +kernel

theorem site_top (vLin b n c t12 : ℚ) (h : vLin ≤ (1085.7 : ℚ)) {v v' : ℝ} (hv : 1085.7 ≤ v)
    (hv' : 1085.7 ≤ v') (p : Option F) :
    fSite vLin b n c t12 (F.ofReal v') p = fSite vLin b n c t12 (F.ofReal v) p := by
  have h' : (vLin : ℝ) ≤ 1085.7 := by
    have : (vLin : ℝ) ≤ ((1085.7 : ℚ) : ℝ) := by exact_mod_cast h
    push_cast at this
    exact this
  cases p with
  | none => rfl
  | some p =>
    have key : ∀ x : ℝ, 1085.7 ≤ x → fSite vLin b n c t12 (F.ofReal x) (some p) =
        (t12 + b * n) * F.log (F.ofReal 1000 / vLin) := by
      intro x hx
      ext
      · simp only [fSite, fsimp]
        rw [if_neg (by linarith), min_eq_right (a := x) (by linarith)]
      · simp only [fSite, fsimp]
        rw [if_neg (by linarith), min_eq_right (a := x) (by linarith)]
    rw [key v hv, key v' hv']

end AGA16

/-- AGA16: from 1085.7 m/s on the velocity has no influence, for every event type, region and
adjustment. -/
theorem C109_aga16_saturates (s s' : Scenario) (m v v' d z0 : ℝ) (e : String) (r : Option String)
    (rup hyp z : Option ℝ) (a : AGA16.Adjust) (c4 sc : ℝ) (adj : List F)
    (h : AGA16.Source s m v e r rup hyp z) (h' : AGA16.Source s' m v' e r rup hyp z)
    (hd : (if AGA16.evFor e = .intraslab then hyp else rup) = some d)
    (hz : AGA16.evFor e = .intraslab → z = some z0)
    (hev : r = some "backarc" → AGA16.evFor e ≠ .other)
    (ha : AGA16.adjust (AGA16.table.map (·.period)) (AGA16.evFor e) a = pure adj)
    (hv : 1085.7 ≤ v) (hv' : 1085.7 ≤ v') :
    ∃ o, Gives (AGA16.cls a c4 sc) s o ∧ Gives (AGA16.cls a c4 sc) s' o := by
  refine ⟨_, AGA16.gives h hd hz hev c4 sc ha, ?_⟩
  have := AGA16.gives h' hd hz hev c4 sc ha
  suffices q : AGA16.out adj (AGA16.input m v' d e r z0 sc) = AGA16.out adj (AGA16.input m v d e r z0 sc) by
    rwa [q] at this
  have e1 : ∀ p, ∀ c ∈ AGA16.table, ∀ x, AGA16.lnResp c x (AGA16.input m v' d e r z0 sc) p =
      AGA16.lnResp c x (AGA16.input m v d e r z0 sc) p := by
    intro p c hc x
    have := AGA16.site_top c.v_lin c.b c.n c.c c.t_12 (AGA16.vlin_top c hc) hv hv' p
    unfold AGA16.lnResp
    rw [show (AGA16.input m v' d e r z0 sc).vs30 = F.ofReal v' from rfl,
      show (AGA16.input m v d e r z0 sc).vs30 = F.ofReal v from rfl, this]
    rfl
  have e2 : ∀ (p : Option F) (l : List F), List.zipWith (fun c x => AGA16.lnResp c x
      (AGA16.input m v' d e r z0 sc) p) AGA16.table l = List.zipWith (fun c x => AGA16.lnResp c x
      (AGA16.input m v d e r z0 sc) p) AGA16.table l := by
    intro p l
    exact zipWith_congr_mem _ _ _ _ (e1 p)
  have e3 : AGA16.pgaRef adj (AGA16.input m v' d e r z0 sc) = AGA16.pgaRef adj (AGA16.input m v d e r z0 sc) := by
    unfold AGA16.pgaRef
    rw [e2]
  unfold AGA16.out
  rw [e3, e2]

/-- CoppersmithBommer: from 1085.7 m/s on the velocity has no influence. -/
theorem C109_coppersmith_saturates (s s' : Scenario) (m v v' d : ℝ) (e : String) (sc : ℝ)
    (hm : s.get "mag" = .num m) (hd : s.get "dist_rup" = .num d) (hv : s.get "v_s30" = .num v)
    (he : s.get "event_type" = .str e) (hst : AgreeExcept ["v_s30"] s s') (hv' : s'.get "v_s30" = .num v')
    (h1 : 1085.7 ≤ v) (h2 : 1085.7 ≤ v') :
    ∃ o, Gives (CoppersmithBommer.cls sc) s o ∧ Gives (CoppersmithBommer.cls sc) s' o := by
  refine ⟨_, CoppersmithBommer.gives s hm hd hv he sc, ?_⟩
  have := CoppersmithBommer.gives s' ((hst _ (by decide)).trans hm) ((hst _ (by decide)).trans hd) hv'
    ((hst _ (by decide)).trans he) sc
  have e1 : ∀ p, ∀ c ∈ CoppersmithBommer.table, ∀ x, CoppersmithBommer.lnResp c x (F.ofReal m) (F.ofReal d)
      (F.ofReal v') (F.ofReal sc) p =
      CoppersmithBommer.lnResp c x (F.ofReal m) (F.ofReal d) (F.ofReal v) (F.ofReal sc) p := by
    intro p c hc x
    have := AGA16.site_top c.v_lin c.b c.n c.c c.t_12 (AGA16.cop_vlin_top c hc) h1 h2 p
    unfold CoppersmithBommer.lnResp
    rw [this]
  have e3 : ∀ l, CoppersmithBommer.pgaRef l (F.ofReal m) (F.ofReal d) (F.ofReal v') (F.ofReal sc) =
      CoppersmithBommer.pgaRef l (F.ofReal m) (F.ofReal d) (F.ofReal v) (F.ofReal sc) := by
    intro l
    unfold CoppersmithBommer.pgaRef
    rw [zipWith_congr_mem _ _ _ _ (e1 none)]
  have e4 : ∀ l, CoppersmithBommer.out l (F.ofReal m) (F.ofReal d) (F.ofReal v') (F.ofReal sc) =
      CoppersmithBommer.out l (F.ofReal m) (F.ofReal d) (F.ofReal v) (F.ofReal sc) := by
    intro l
    unfold CoppersmithBommer.out
    rw [e3, zipWith_congr_mem _ _ _ _ (e1 _)]
  rwa [e4] at this

/-! ## BA19 -/

/-- BA19 without `depth_1_0`: from 1000 m/s on the velocity has no influence below 24 Hz; beyond, where the
spectrum is extrapolated, a stiffer site has strictly larger amplitudes. -/
theorem C109_ba19 (s t : Scenario) (g g' : BA19.Given) (h : BA19.Source s g) (h' : BA19.Source t g')
    (hg : g.Ok) (hg' : g'.Ok) (hst : AgreeExcept ["v_s30"] s t) (hz : g.z1 = none) (hv : 1000 ≤ g.v)
    (hvv : g.v < g'.v) :
    ∃ o o', Gives BA19.cls s o ∧ Gives BA19.cls t o' ∧ o.lnEas.length = 301 ∧ o'.lnEas.length = 301 ∧
      o'.lnStd = o.lnStd ∧
      ∀ (k : ℕ) (c : BA19.Row), BA19.table[k]? = some c →
        (k ≤ 238 → F.Same (o.lnEas.getD k F.nan) (o'.lnEas.getD k F.nan)) ∧
        (238 < k → F.Drops (o'.lnEas.getD k F.nan) (o.lnEas.getD k F.nan)) := by
  have hz' : g'.z1 = none := by rw [hst.opt h.z1 h'.z1, hz]
  have h24 : ∀ k : Fin BA19.table.length, k.val ≤ 238 → (BA19.table[k]).freq_hz < 24 := by decide +kernel
  have h24' : ∀ k : Fin BA19.table.length, 238 < k.val → ∀ j : Fin BA19.table.length, j.val = 238 →
    (BA19.table[j]).freq_hz < (BA19.table[k]).freq_hz := by decide +kernel
  obtain ⟨o, o', g1, g2, hlow⟩ := C42_linear_on_rock s t g g' h h' hg hg' (hst _ (by decide)).symm
    (hst.num h.rup h'.rup).symm (hst.num h.mag h'.mag).symm (hst.num h.tor h'.tor).symm hz hz'
    (by linarith) (by linarith)
  obtain ⟨o1, g3, l1, k1, f1⟩ := C42_high_frequency s g h hg
  obtain ⟨o2, g4, l2, k2, f2⟩ := C42_high_frequency t g' h' hg'
  obtain rfl := g1.unique g3
  obtain rfl := g2.unique g4
  have hstd : o'.lnStd = o.lnStd := by
    rw [g1.unique (BA19.gives h), g2.unique (BA19.gives h')]
    simp only [BA19.out, BA19.Given.toIn, hst.num h.mag h'.mag]
  have same : ∀ (k : ℕ) (c : BA19.Row), BA19.table[k]? = some c → k ≤ 238 →
      F.Same (o.lnEas.getD k F.nan) (o'.lnEas.getD k F.nan) := by
    intro k c hk hle
    obtain ⟨hlt, hc⟩ := List.getElem?_eq_some_iff.1 hk
    have hf := h24 ⟨k, hlt⟩ hle
    rw [Fin.getElem_fin, hc] at hf
    obtain ⟨a1, a2, a3⟩ := hlow k c hk hf
    refine ⟨a1, a2, ?_⟩
    rw [a3, min_eq_right hv, min_eq_right (by linarith)]
    simp
  refine ⟨o, o', g1, g2, l1, l2, hstd, fun k c hk => ⟨same k c hk, fun hlt => ?_⟩⟩
  obtain ⟨hkl, hc⟩ := List.getElem?_eq_some_iff.1 hk
  have h238 : 238 < BA19.table.length := lt_trans hlt hkl
  have hc0 : BA19.table[238]? = some (BA19.table[238]) := List.getElem?_eq_getElem h238
  have hf := h24' ⟨k, hkl⟩ hlt ⟨238, h238⟩ rfl
  simp only [Fin.getElem_fin] at hf
  rw [hc] at hf
  have hf' : ((BA19.table[238]).freq_hz : ℝ) < c.freq_hz := by exact_mod_cast hf
  obtain ⟨b1, b2⟩ := f1 238 k _ c le_rfl hlt hc0 hk
  obtain ⟨d1, d2⟩ := f2 238 k _ c le_rfl hlt hc0 hk
  refine ⟨d1.2.1, b1.2.1, ?_⟩
  rw [b2, d2, (same 238 _ hc0 le_rfl).2.2]
  have hexp : Real.exp (-0.4 * Real.log (g'.v / 760) - 3.5) < Real.exp (-0.4 * Real.log (g.v / 760) - 3.5) := by
    apply Real.exp_lt_exp.2
    have : Real.log (g.v / 760) < Real.log (g'.v / 760) :=
      Real.log_lt_log (by positivity) (div_lt_div_of_pos_right hvv (by norm_num))
    linarith
  have := mul_lt_mul_of_pos_right (mul_lt_mul_of_pos_left hexp Real.pi_pos) (sub_pos.2 hf')
  linarith

/-! ## CB14 -/

namespace CB14

theorem given_agree {s t : Scenario} {g g' : Given} (h : Source s g) (h' : Source t g')
    (hst : AgreeExcept ["v_s30"] s t) : g' = { g with v := g'.v } := by
  cases g; cases g'
  simp only [Given.mk.injEq]
  exact ⟨hst.num h.mag h'.mag, hst.num h.rup h'.rup, hst.num h.jb h'.jb, hst.num h.x h'.x,
    hst.num h.dip h'.dip, trivial, hst.opt h.bot h'.bot, hst.opt h.z1 h'.z1, hst.opt h.z25 h'.z25,
    hst.opt h.bor h'.bor, hst.opt h.hyp h'.hyp, hst.opt h.tor h'.tor, hst.opt h.width h'.width⟩

theorem rock_rows : ∀ c ∈ table, c.k_1 ≤ 1086 ∧ c.c_11 + c.k_2 * 1.18 ≤ (-0.139 : ℚ) ∧
    c.c_11 + c.c_13 + 2 * (c.k_2 * 1.18) ≤ (-0.164 : ℚ) := by decide +kernel

theorem resp_stiff {c : Row} (hc : c ∈ table) {g : Given} {mech : Mech} (hr : Regular g mech) (reg : Reg)
    (hz : g.z25 ≠ none) {v' : ℝ} (hv : 1086 < g.v) (hvv : g.v < v') :
    let i := g.toIn mech reg
    let j := ({ g with v := v' } : Given).toIn mech reg
    (lnResp c i (some (pgaRef i)) i.v).ok ∧ (lnResp c j (some (pgaRef j)) j.v).ok ∧
      (lnResp c j (some (pgaRef j)) j.v).val ≤ (lnResp c i (some (pgaRef i)) i.v).val - 0.138 * Real.log (v' / g.v) := by
  intro i j
  obtain ⟨q1, q2, q3⟩ := rock_rows c hc
  have k1 : (c.k_1 : ℝ) ≤ 1086 := by exact_mod_cast q1
  have k0 : (0 : ℝ) < c.k_1 := by exact_mod_cast (row_facts c hc).1
  have r1 : (c.c_11 : ℝ) + c.k_2 * 1.18 ≤ -0.139 := by
    have : ((c.c_11 + c.k_2 * 1.18 : ℚ) : ℝ) ≤ ((-0.139 : ℚ) : ℝ) := by exact_mod_cast q2
    push_cast at this
    exact this
  have r2 : (c.c_11 : ℝ) + c.c_13 + 2 * (c.k_2 * 1.18) ≤ -0.164 := by
    have : ((c.c_11 + c.c_13 + 2 * (c.k_2 * 1.18) : ℚ) : ℝ) ≤ ((-0.164 : ℚ) : ℝ) := by exact_mod_cast q3
    push_cast at this
    exact this
  have hr' : Regular { g with v := v' } mech := ⟨hr.dip, hr.hw⟩
  refine ⟨resp_ok hc hr (by linarith) reg, resp_ok (g := { g with v := v' }) hc hr' (by change 0 < v'; linarith) reg, ?_⟩
  have e1 := resp_val c g mech reg
  have e2 := resp_val c { g with v := v' } mech reg
  change (lnResp c j (some (pgaRef j)) j.v).val = _ at e2
  change (lnResp c i (some (pgaRef i)) i.v).val = _ at e1
  rw [e1, e2]
  have hrest : rest c j = rest c i := rfl
  have hzz : ({ g with v := v' } : Given).effZ25 reg = g.effZ25 reg := by
    obtain ⟨z, hz⟩ := Option.ne_none_iff_exists'.1 hz
    simp only [Given.effZ25, hz, F.orEst]
  rw [hzz]
  change (rest c j).val + _ ≤ (rest c i).val + _ - _
  rw [hrest]
  have p1 : 0 < g.v := by linarith
  have p2 : 0 < v' := by linarith
  have hlog : Real.log (v' / c.k_1) = Real.log (g.v / c.k_1) + Real.log (v' / g.v) := by
    rw [← Real.log_mul (by positivity) (by positivity)]
    congr 1
    field_simp
  have hpos : 0 < Real.log (v' / g.v) := Real.log_pos (by rw [lt_div_iff₀ (by linarith)]; linarith)
  unfold surfR siteR jpR
  simp only
  rw [if_neg (show ¬ v' ≤ (c.k_1 : ℝ) by linarith), if_neg (show ¬ g.v ≤ (c.k_1 : ℝ) by linarith),
    if_neg (show ¬ v' ≤ 200 by linarith), if_neg (show ¬ g.v ≤ 200 by linarith), hlog]
  have m1 := mul_le_mul_of_nonneg_right r1 hpos.le
  have m2 := mul_le_mul_of_nonneg_right r2 hpos.le
  by_cases hj : reg = .japan
  · simp only [hj, decide_true, if_true]
    linarith
  · simp only [hj, decide_false, Bool.false_eq_true, if_false]
    linarith

theorem alpha_stiff (c : Row) (p : F) {v : ℝ} (hv : (c.k_1 : ℝ) ≤ v) : alpha c p (F.ofReal v) = 0 := by
  ext
  · simp only [alpha, fsimp]; rw [if_neg (not_lt.2 hv)]
  · simp only [alpha, fsimp]
    rw [if_neg (not_lt.2 hv)]

end CB14

/-- CB14 never saturates: with `depth_2_5` given, beyond 1086 m/s a stiffer site has strictly lower
ordinates however high the velocity, in every region -- by at least 0.138 times the logarithm of the ratio
of the velocities -- and the same standard deviations. -/
theorem C109_cb14_stiff (s t : Scenario) (g g' : CB14.Given) (h : CB14.Source s g) (h' : CB14.Source t g')
    (hst : AgreeExcept ["v_s30"] s t) (hr : CB14.Regular g (CB14.mechOf (s.get "mechanism")))
    (hz : g.z25 ≠ none) (hv : 1100 ≤ g.v) (hvv : g.v < g'.v) :
    ∃ o o', Gives CB14.cls s o ∧ Gives CB14.cls t o' ∧ o'.gmm.lnStd = o.gmm.lnStd ∧ o'.tau = o.tau ∧
      o'.phi = o.phi ∧ o.gmm.lnResp.length = 23 ∧
      List.Forall₂ (fun y y' => y.ok ∧ y'.ok ∧ y'.val ≤ y.val - 0.138 * Real.log (g'.v / g.v))
        o.gmm.lnResp o'.gmm.lnResp := by
  have e := CB14.given_agree h h' hst
  have h2 := CB14.gives h' (by linarith)
  rw [hst "mechanism" (by decide), hst "region" (by decide), e] at h2
  have key := fun (c : CB14.Row) (hc : c ∈ CB14.table) => CB14.resp_stiff hc hr
    (CB14.regOf (s.get "region")) hz (v' := g'.v) (by linarith) hvv
  have k0 : ∀ c ∈ CB14.table, (c.k_1 : ℝ) ≤ 1086 := fun c hc => by exact_mod_cast (CB14.rock_rows c hc).1
  have al : ∀ c ∈ CB14.table, ∀ p p' : F,
      CB14.alpha c p' (F.ofReal g'.v) = CB14.alpha c p (F.ofReal g.v) := fun c hc p p' => by
    rw [CB14.alpha_stiff c p' (by linarith [k0 c hc]), CB14.alpha_stiff c p (by linarith [k0 c hc])]
  have ta : ∀ c ∈ CB14.table, ∀ p p' m : F, CB14.tau c m p' (F.ofReal g'.v) =
      CB14.tau c m p (F.ofReal g.v) := fun c hc p p' m => by
    unfold CB14.tau
    rw [al c hc p p']
  have ph : ∀ c ∈ CB14.table, ∀ p p' m : F, CB14.phi c m p' (F.ofReal g'.v) =
      CB14.phi c m p (F.ofReal g.v) := fun c hc p p' m => by
    unfold CB14.phi
    rw [al c hc p p']
  have sd : ∀ c ∈ CB14.table, ∀ p p' m : F, CB14.lnStd c m p' (F.ofReal g'.v) =
      CB14.lnStd c m p (F.ofReal g.v) := fun c hc p p' m => by
    unfold CB14.lnStd
    rw [ta c hc p p', ph c hc p p']
  refine ⟨_, _, CB14.gives h (by linarith), h2, ?_, ?_, ?_, ?_, ?_⟩
  · simp only [CB14.out, Option.some.injEq]
    exact List.map_congr_left fun c hc => sd c hc _ _ _
  · simp only [CB14.out]
    exact List.map_congr_left fun c hc => ta c hc _ _ _
  · simp only [CB14.out]
    exact List.map_congr_left fun c hc => ph c hc _ _ _
  · simp only [CB14.out]
    rw [List.length_map, CB14.table_length]
  · simp only [CB14.out]
    exact forall₂_map fun c hc => key c hc

/-! ## Cases that meet the hypotheses -/

/-- one site of velocity `v` for every model above -/
noncomputable def exRock (v : ℝ) : Scenario :=
  ⟨[("v_s30", .num v), ("mag", .num 6.5), ("dist_rup", .num 20), ("dist_jb", .num 18), ("dist_x", .num (-18)),
    ("dip", .num 60), ("mechanism", .str "SS"), ("depth_2_5", .num 1), ("depth_hyp", .num 9),
    ("depth_tor", .num 2), ("width", .num 12), ("depth_bor", .num 14), ("event_type", .str "interface")], []⟩

theorem exRock_agree (v v' : ℝ) : AgreeExcept ["v_s30"] (exRock v) (exRock v') := by
  unfold exRock
  refine agreeExcept_cons (by decide) ?_
  exact agreeExcept_refl _ _

theorem exRock_ask14 (v : ℝ) : ASK14.Source (exRock v)
    { mag := 6.5, rup := 20, jb := 18, dip := 60, v := v, x := some (-18), tor := some 2, width := some 12 } := by
  constructor <;> simp [exRock, Scenario.get, Dict.get?, Val.ofOpt]

theorem exRock_cy14 (v : ℝ) : CY14.Source (exRock v)
    { mag := 6.5, rup := 20, jb := 18, x := -18, dip := 60, v := v, tor := some 2 } := by
  constructor <;> simp [exRock, Scenario.get, Dict.get?, Val.ofOpt]

theorem exRock_bssa14 (v : ℝ) : BSSA14.Source (exRock v) { mag := 6.5, jb := 18, v := v } := by
  constructor <;> simp [exRock, Scenario.get, Dict.get?, Val.ofOpt]

theorem exRock_ba19 (v : ℝ) : BA19.Source (exRock v) { mag := 6.5, rup := 20, tor := 2, v := v } := by
  constructor <;> simp [exRock, Scenario.get, Dict.get?, Val.ofOpt]

theorem exRock_cb14 (v : ℝ) : CB14.Source (exRock v)
    { mag := 6.5, rup := 20, jb := 18, x := -18, dip := 60, v := v, z25 := some 1, hyp := some 9, tor := some 2,
      width := some 12, bor := some 14 } := by
  constructor <;> simp [exRock, Scenario.get, Dict.get?, Val.ofOpt]

example := C109_ask14_saturates (exRock 1600) (exRock 3000) _ _ (exRock_ask14 _) (exRock_ask14 _)
  (exRock_agree _ _) (by simp) rfl (by norm_num) (by norm_num)

example := C109_ask14_stiff (exRock 960) (exRock 1200) _ _ (exRock_ask14 _) (exRock_ask14 _) (exRock_agree _ _)
  (by
    intro _
    refine ⟨by simp, by norm_num, by norm_num, fun w hw => ?_⟩
    simp only [Option.some.injEq] at hw
    rw [← hw]; norm_num)
  (by simp [exRock, Scenario.get, Dict.get?]) rfl (by norm_num) (by norm_num)

example := C109_cy14_saturates (exRock 1200) (exRock 3000) _ _ (exRock_cy14 _) (exRock_cy14 _)
  (exRock_agree _ _) rfl (by norm_num) (by norm_num)

example := C109_bssa14_saturates (exRock 1600) (exRock 3000) _ _ (exRock_bssa14 _) (exRock_bssa14 _)
  (exRock_agree _ _) rfl (by norm_num) (by norm_num)

example := C109_bssa14_stiff (exRock 760) (exRock 1200) _ _ (exRock_bssa14 _) (exRock_bssa14 _)
  (exRock_agree _ _) rfl (by norm_num) (by norm_num)

example := C109_akb14_saturates (exRock 1200) (exRock 3000) 6.5 1200 3000 "SS" (some 18) none none
  (by simp [exRock, Scenario.get, Dict.get?]) (by simp [exRock, Scenario.get, Dict.get?])
  (by simp [exRock, Scenario.get, Dict.get?]) (by simp [exRock, Scenario.get, Dict.get?, Val.ofOpt])
  (by simp [exRock, Scenario.get, Dict.get?, Val.ofOpt]) (by simp [exRock, Scenario.get, Dict.get?, Val.ofOpt])
  (exRock_agree _ _) (by simp [exRock, Scenario.get, Dict.get?]) (by simp) (by norm_num) (by norm_num)

example := C109_akb14_stiff (exRock 750) (exRock 900) 6.5 750 900 "SS" (some 18) none none
  (by simp [exRock, Scenario.get, Dict.get?]) (by simp [exRock, Scenario.get, Dict.get?])
  (by simp [exRock, Scenario.get, Dict.get?]) (by simp [exRock, Scenario.get, Dict.get?, Val.ofOpt])
  (by simp [exRock, Scenario.get, Dict.get?, Val.ofOpt]) (by simp [exRock, Scenario.get, Dict.get?, Val.ofOpt])
  (exRock_agree _ _) (by simp [exRock, Scenario.get, Dict.get?]) (by simp) (by norm_num) (by norm_num) (by norm_num)

theorem exRock_aga16 (v : ℝ) : AGA16.Source (exRock v) 6.5 v "interface" none (some 20) none (some 9) := by
  constructor <;> simp [exRock, Scenario.get, Dict.get?, Val.ofOpt]

example := C109_aga16_saturates (exRock 1200) (exRock 3000) 6.5 1200 3000 20 9 "interface" none (some 20) none
  (some 9) (.scalar 0.2) 10 1 _ (exRock_aga16 _) (exRock_aga16 _) (by rw [if_neg (by decide)]) (fun _ => rfl)
  (by simp) rfl (by norm_num) (by norm_num)

example := C109_coppersmith_saturates (exRock 1200) (exRock 3000) 6.5 1200 3000 20 "interface" 1
  (by simp [exRock, Scenario.get, Dict.get?]) (by simp [exRock, Scenario.get, Dict.get?])
  (by simp [exRock, Scenario.get, Dict.get?]) (by simp [exRock, Scenario.get, Dict.get?])
  (exRock_agree _ _) (by simp [exRock, Scenario.get, Dict.get?]) (by norm_num) (by norm_num)

example := C109_ba19 (exRock 1200) (exRock 3000) _ _ (exRock_ba19 _) (exRock_ba19 _)
  ⟨by norm_num, by norm_num, by simp⟩ ⟨by norm_num, by norm_num, by simp⟩ (exRock_agree _ _) rfl (by norm_num)
  (by norm_num)

example := C109_cb14_stiff (exRock 1200) (exRock 3000) _ _ (exRock_cb14 _) (exRock_cb14 _) (exRock_agree _ _)
  ⟨fun h => by simp at h, fun h => by norm_num at h⟩ (by simp) (by norm_num) (by norm_num)
