import Verif.Props.HangingWall
import Verif.Props.AGA16

/-!
# C108: inputs that do not matter

Two scenarios that agree on every key but some, where the formulas say that those keys have no
influence: the two models predict the same.
-/

set_option linter.unusedSimpArgs false

/-- the scenarios agree on every key that is not listed -/
def AgreeExcept (ks : List String) (s t : Scenario) : Prop := ∀ k, k ∉ ks → t.get k = s.get k

theorem AgreeExcept.num {ks : List String} {s t : Scenario} (h : AgreeExcept ks s t) {k : String} {x y : ℝ}
    (hs : s.get k = .num x) (ht : t.get k = .num y) (hk : k ∉ ks := by decide) : y = x := by
  have := h k hk
  rw [hs, ht] at this
  simpa using this

theorem AgreeExcept.opt {ks : List String} {s t : Scenario} (h : AgreeExcept ks s t) {k : String}
    {x y : Option ℝ} (hs : s.get k = Val.ofOpt x) (ht : t.get k = Val.ofOpt y) (hk : k ∉ ks := by decide) :
    y = x := by
  have := h k hk
  rw [hs, ht] at this
  cases x <;> cases y <;> simp_all [Val.ofOpt]

/-! ## ASK14 -/

namespace ASK14

/-- the formulas see the inputs of the hanging-wall and aftershock terms there only -/
theorem out_congr {i j : In} (h1 : j.mag = i.mag) (h2 : j.rup = i.rup) (h3 : ∀ c, f6 c j.tor = f6 c i.tor) (h4 : j.z1 = i.z1)
    (h5 : j.v = i.v) (h6 : j.mech = i.mech) (h7 : j.reg = i.reg) (h8 : j.measured = i.measured)
    (hw : ∀ c, (if j.hw then f4 c j else 0) = (if i.hw then f4 c i else 0))
    (ha : ∀ c, f11 c j = f11 c i) : out j = out i := by
  have e0 : ∀ c v ref, lnRespAt c j v ref = lnRespAt c i v ref := by
    intro c v ref
    unfold lnRespAt
    rw [h1, h2, h3, h4, h6, h7, hw, ha]
  have e1 : ∀ c, refMotion c j = refMotion c i := fun c => by unfold refMotion; rw [e0]
  have e2 : ∀ c, lnResp c j = lnResp c i := fun c => by unfold lnResp; rw [e0, e1, h5]
  have e3 : ∀ c, deriv c j = deriv c i := fun c => by unfold deriv; rw [e1, h5]
  have e4 : ∀ c, tau c j = tau c i := fun c => by unfold tau tauB; rw [e3, h1]
  have e5 : ∀ c, phi c j = phi c i := fun c => by unfold phi phiB phiAl; rw [e3, h1, h2, h7, h8]
  have e6 : ∀ c, lnStd c j = lnStd c i := fun c => by unfold lnStd; rw [e4, e5]
  unfold out
  simp only [e2, e4, e5, e6]

theorem kindOf_agree {ks : List String} {s t : Scenario} (h : AgreeExcept ks s t)
    (hk : ∀ k ∈ ["mechanism", "region", "on_hanging_wall", "is_aftershock", "vs_source"], k ∉ ks) :
    kindOf t = kindOf s := by
  unfold kindOf
  rw [h _ (hk "mechanism" (by simp)), h _ (hk "region" (by simp)), h _ (hk "on_hanging_wall" (by simp)),
    h _ (hk "is_aftershock" (by simp)), h _ (hk "vs_source" (by simp))]

theorem hw_iff (s : Scenario) : (kindOf s).hw = true ↔ (s.get "on_hanging_wall").isOn := by simp [kindOf]
theorem aft_iff (s : Scenario) : (kindOf s).aftershock = true ↔ (s.get "is_aftershock").isOn := by simp [kindOf]

end ASK14

/-- ASK14 off the hanging wall: `dist_jb`, `dist_x`, `dist_y0`, `dip` and `width` have no influence. -/
theorem C108_ask14_off_hanging_wall (s t : Scenario) (g g' : ASK14.Given) (h : ASK14.Source s g)
    (h' : ASK14.Source t g') (hst : AgreeExcept ["dist_jb", "dist_x", "dist_y0", "dip", "width"] s t)
    (hw : ¬ (s.get "on_hanging_wall").isOn) :
    ∃ o, Gives ASK14.cls s o ∧ Gives ASK14.cls t o := by
  have hk : ASK14.kindOf t = ASK14.kindOf s := ASK14.kindOf_agree hst (by decide)
  rw [← ASK14.hw_iff, Bool.not_eq_true] at hw
  have hw' : (ASK14.kindOf t).hw = false := by rw [hk, hw]
  refine ⟨_, ASK14.gives h (by simp [hw]), ?_⟩
  have := ASK14.gives h' (by simp [hw'])
  rwa [ASK14.out_congr (i := g.toIn (ASK14.kindOf s)) (j := g'.toIn (ASK14.kindOf t))] at this
  all_goals simp only [ASK14.Given.toIn, ASK14.Given.effTor, hst.num h.mag h'.mag, hst.num h.rup h'.rup,
    hst.num h.v h'.v, hst.opt h.tor h'.tor, hst.opt h.z1 h'.z1, hst.opt h.crjb h'.crjb, hk, hw, ASK14.f11]
  all_goals simp

/-- ASK14, not an aftershock: `dist_crjb` has no influence. -/
theorem C108_ask14_main_shock (s t : Scenario) (g g' : ASK14.Given) (h : ASK14.Source s g)
    (h' : ASK14.Source t g') (hst : AgreeExcept ["dist_crjb"] s t)
    (hx : (s.get "on_hanging_wall").isOn → g.x ≠ none) (ha : ¬ (s.get "is_aftershock").isOn) :
    ∃ o, Gives ASK14.cls s o ∧ Gives ASK14.cls t o := by
  have hk : ASK14.kindOf t = ASK14.kindOf s := ASK14.kindOf_agree hst (by decide)
  rw [← ASK14.aft_iff, Bool.not_eq_true] at ha
  rw [← ASK14.hw_iff] at hx
  refine ⟨_, ASK14.gives h hx, ?_⟩
  have := ASK14.gives h' (by rw [hk, hst.opt h.x h'.x]; exact hx)
  rwa [ASK14.out_congr (i := g.toIn (ASK14.kindOf s)) (j := g'.toIn (ASK14.kindOf t))] at this
  all_goals simp only [ASK14.Given.toIn, ASK14.Given.effTor, ASK14.Given.effWidth, hst.num h.mag h'.mag,
    hst.num h.rup h'.rup, hst.num h.v h'.v, hst.num h.jb h'.jb, hst.num h.dip h'.dip, hst.opt h.tor h'.tor,
    hst.opt h.z1 h'.z1, hst.opt h.x h'.x, hst.opt h.y0 h'.y0, hst.opt h.width h'.width, hk, ha, ASK14.f11,
    ASK14.f4]
  all_goals simp

/-- ASK14 with `dist_y0` given: `dist_jb` has no influence. -/
theorem C108_ask14_y0_given (s t : Scenario) (g g' : ASK14.Given) (h : ASK14.Source s g)
    (h' : ASK14.Source t g') (hst : AgreeExcept ["dist_jb"] s t) (hy : g.y0 ≠ none)
    (hx : (s.get "on_hanging_wall").isOn → g.x ≠ none) :
    ∃ o, Gives ASK14.cls s o ∧ Gives ASK14.cls t o := by
  have hk : ASK14.kindOf t = ASK14.kindOf s := ASK14.kindOf_agree hst (by decide)
  rw [← ASK14.hw_iff] at hx
  obtain ⟨y, hy⟩ := Option.ne_none_iff_exists'.mp hy
  refine ⟨_, ASK14.gives h hx, ?_⟩
  have := ASK14.gives h' (by rw [hk, hst.opt h.x h'.x]; exact hx)
  rwa [ASK14.out_congr (i := g.toIn (ASK14.kindOf s)) (j := g'.toIn (ASK14.kindOf t))] at this
  all_goals simp only [ASK14.Given.toIn, ASK14.Given.effTor, ASK14.Given.effWidth, hst.num h.mag h'.mag,
    hst.num h.rup h'.rup, hst.num h.v h'.v, hst.num h.dip h'.dip, hst.opt h.tor h'.tor,
    hst.opt h.z1 h'.z1, hst.opt h.x h'.x, hst.opt h.y0 h'.y0, hst.opt h.width h'.width, hk, ASK14.f11,
    hst.opt h.crjb h'.crjb, ASK14.f4, hy, Option.map_some, ASK14.t5]
  all_goals simp

/-! ## CY14 -/

namespace CY14

theorem out_congr {i j : In} (h1 : j.mag = i.mag) (h2 : j.rup = i.rup) (h3 : j.tor = i.tor) (h4 : j.z1 = i.z1)
    (h5 : j.v = i.v) (h6 : j.mech = i.mech) (h7 : j.reg = i.reg) (h8 : j.measured = i.measured)
    (h9 : j.dip = i.dip) (hw : ∀ c, fHng c j = fHng c i)
    (hd : ∀ c, fDir c i.mag i.rup j.dpp = fDir c i.mag i.rup i.dpp) : out j = out i := by
  have e0 : ∀ c, lnRef c j = lnRef c i := by
    intro c
    unfold lnRef
    rw [h1, h2, h3, h6, h7, h9, hw, hd]
  have e1 : ∀ c, lnResp c j = lnResp c i := fun c => by unfold lnResp; rw [e0, h4, h5, h7]
  have e3 : ∀ c, nl0 c j = nl0 c i := fun c => by unfold nl0; rw [e0, h5]
  have e4 : ∀ c, tau c j = tau c i := fun c => by unfold tau; rw [e3, h1]
  have e5 : ∀ c, phi c j = phi c i := fun c => by unfold phi; rw [e3, h1, h7, h8]
  have e6 : ∀ c, lnStd c j = lnStd c i := fun c => by unfold lnStd; rw [e3, e5, h1]
  unfold out
  simp only [e1, e4, e5, e6]

theorem kindOf_agree {ks : List String} {s t : Scenario} (h : AgreeExcept ks s t)
    (hk : ∀ k ∈ ["mechanism", "region", "on_hanging_wall", "vs_source"], k ∉ ks) :
    kindOf t = kindOf s := by
  unfold kindOf
  rw [h _ (hk "mechanism" (by simp)), h _ (hk "region" (by simp)), h _ (hk "on_hanging_wall" (by simp)),
    h _ (hk "vs_source" (by simp))]

theorem hw_iff (s : Scenario) : (kindOf s).hw = true ↔ (s.get "on_hanging_wall").isOn := by simp [kindOf]

/-- no directivity for small or distant earthquakes -/
theorem dir_zero (c : Row) (m r dpp : ℝ) (h : m ≤ 5.5 ∨ 70 ≤ r) :
    fDir c (F.ofReal m) (F.ofReal r) (F.ofReal dpp) = 0 := by
  have hz : (fDir c (F.ofReal m) (F.ofReal r) (F.ofReal dpp)).val = 0 := by
    simp only [fDir, fsimp]
    rcases h with h | h
    · rw [show max (m - 5.5) 0 = 0 from max_eq_right (by linarith)]
      norm_num
    · rw [show max (1 - max (r - 40) 0 / 30) 0 = 0 from max_eq_right (by
        have := le_max_left (r - 40) 0
        linarith)]
      norm_num
  ext
  · rw [hz]; simp
  · simp [fDir]; norm_num

end CY14

/-- CY14 off the hanging wall: `dist_jb` and `dist_x` have no influence. -/
theorem C108_cy14_off_hanging_wall (s t : Scenario) (g g' : CY14.Given) (h : CY14.Source s g)
    (h' : CY14.Source t g') (hst : AgreeExcept ["dist_jb", "dist_x"] s t)
    (hw : ¬ (s.get "on_hanging_wall").isOn) :
    ∃ o, Gives CY14.cls s o ∧ Gives CY14.cls t o := by
  have hk : CY14.kindOf t = CY14.kindOf s := CY14.kindOf_agree hst (by decide)
  rw [← CY14.hw_iff, Bool.not_eq_true] at hw
  refine ⟨_, CY14.gives h, ?_⟩
  have := CY14.gives h'
  rwa [CY14.out_congr (i := g.toIn (CY14.kindOf s)) (j := g'.toIn (CY14.kindOf t))] at this
  all_goals simp only [CY14.Given.toIn, CY14.Given.effTor, CY14.Given.effZ1, hst.num h.mag h'.mag,
    hst.num h.rup h'.rup, hst.num h.dip h'.dip,
    hst.num h.v h'.v, hst.opt h.tor h'.tor, hst.opt h.z1 h'.z1, hst.opt h.dpp h'.dpp, hk, hw, CY14.fHng]
  all_goals simp

/-- CY14: the directivity parameter `dpp_centered` has no influence up to magnitude 5.5, nor from
70 km on. -/
theorem C108_cy14_directivity (s t : Scenario) (g g' : CY14.Given) (h : CY14.Source s g)
    (h' : CY14.Source t g') (hst : AgreeExcept ["dpp_centered"] s t) (hm : g.mag ≤ 5.5 ∨ 70 ≤ g.rup) :
    ∃ o, Gives CY14.cls s o ∧ Gives CY14.cls t o := by
  have hk : CY14.kindOf t = CY14.kindOf s := CY14.kindOf_agree hst (by decide)
  refine ⟨_, CY14.gives h, ?_⟩
  have := CY14.gives h'
  rwa [CY14.out_congr (i := g.toIn (CY14.kindOf s)) (j := g'.toIn (CY14.kindOf t))] at this
  all_goals simp only [CY14.Given.toIn, CY14.Given.effTor, CY14.Given.effZ1, hst.num h.mag h'.mag,
    hst.num h.rup h'.rup, hst.num h.dip h'.dip, hst.num h.jb h'.jb, hst.num h.x h'.x,
    hst.num h.v h'.v, hst.opt h.tor h'.tor, hst.opt h.z1 h'.z1, hk, CY14.fHng, CY14.dir_zero _ _ _ _ hm]
  all_goals intros; first | rfl | trivial

/-! ## CB14 -/

namespace CB14

theorem out_congr {i j : In} (h1 : j.mag = i.mag) (h2 : j.rup = i.rup) (h3 : j.hyp = i.hyp) (h4 : j.z25 = i.z25)
    (h5 : j.v = i.v) (h6 : j.mech = i.mech) (h7 : j.reg = i.reg) (hw : ∀ c, fHng c j = fHng c i)
    (hd : ∀ c, fDip c i.mag j.dip = fDip c i.mag i.dip) : out j = out i := by
  have e0 : ∀ c p v, lnResp c j p v = lnResp c i p v := by
    intro c p v
    unfold lnResp
    rw [h1, h2, h3, h4, h6, h7, hw, hd]
  have e1 : pgaRef j = pgaRef i := by unfold pgaRef; simp only [e0]
  unfold out
  simp only [e0, e1, h1, h5]

theorem fHng_foot (c : Row) (g : Given) (mech : Mech) (reg : Reg) (hx : g.x < 0) :
    fHng c (g.toIn mech reg) = 0 := by
  have h := effTor_ok g mech
  ext
  · simp [fHng, Given.toIn, fHngRx, hx]
  · have h0 : ∀ a : ℝ, g.rup ≠ a → a = 0 → g.rup ≠ 0 := by rintro a h rfl; exact h
    simp [fHng, Given.toIn, fHngRx, fHngRrup, fHngM, fHngZ, hx, h]

theorem fDip_zero (c : Row) (m dip : ℝ) (hm : 5.5 ≤ m) : fDip c (F.ofReal m) (F.ofReal dip) = 0 := by
  ext
  · simp only [fDip, fsimp]
    rw [show max (5.5 - m) 0 = 0 from max_eq_right (by linarith)]
    norm_num
  · simp [fDip]

end CB14

/-- CB14 on the footwall (`dist_x < 0`) with the hypocentral depth given: `dist_jb`, how far into the
footwall the site is, `depth_tor`, `depth_bot`, `depth_bor`, `width` and `depth_1_0` have no influence. -/
theorem C108_cb14_footwall (s t : Scenario) (g g' : CB14.Given) (h : CB14.Source s g)
    (h' : CB14.Source t g')
    (hst : AgreeExcept ["dist_jb", "dist_x", "depth_tor", "depth_bot", "depth_bor", "width", "depth_1_0"] s t)
    (hx : g.x < 0) (hx' : g'.x < 0) (hh : g.hyp ≠ none) (hv : g.v ≠ 0) :
    ∃ o, Gives CB14.cls s o ∧ Gives CB14.cls t o := by
  obtain ⟨y, hy⟩ := Option.ne_none_iff_exists'.mp hh
  have hm := hst "mechanism" (by decide)
  have hr := hst "region" (by decide)
  refine ⟨_, CB14.gives h hv, ?_⟩
  have := CB14.gives h' (by rwa [hst.num h.v h'.v])
  rw [hm, hr] at this
  rwa [CB14.out_congr (i := g.toIn (CB14.mechOf (s.get "mechanism")) (CB14.regOf (s.get "region")))
    (j := g'.toIn (CB14.mechOf (s.get "mechanism")) (CB14.regOf (s.get "region")))] at this
  case hw => intro c; rw [CB14.fHng_foot _ _ _ _ hx, CB14.fHng_foot _ _ _ _ hx']
  all_goals simp only [CB14.Given.toIn, CB14.Given.effHyp, CB14.Given.effZ25, hst.num h.mag h'.mag,
    hst.num h.rup h'.rup, hst.num h.dip h'.dip, hst.num h.v h'.v, hst.opt h.hyp h'.hyp, hy, F.orEst,
    hst.opt h.z25 h'.z25]
  all_goals simp

/-- CB14 on the footwall from magnitude 5.5 on: the dip has no influence either. -/
theorem C108_cb14_footwall_dip (s t : Scenario) (g g' : CB14.Given) (h : CB14.Source s g)
    (h' : CB14.Source t g')
    (hst : AgreeExcept ["dip", "dist_jb", "dist_x", "depth_tor", "depth_bot", "depth_bor", "width", "depth_1_0"] s t)
    (hx : g.x < 0) (hx' : g'.x < 0) (hh : g.hyp ≠ none) (hv : g.v ≠ 0) (hm : 5.5 ≤ g.mag) :
    ∃ o, Gives CB14.cls s o ∧ Gives CB14.cls t o := by
  obtain ⟨y, hy⟩ := Option.ne_none_iff_exists'.mp hh
  have hme := hst "mechanism" (by decide)
  have hr := hst "region" (by decide)
  refine ⟨_, CB14.gives h hv, ?_⟩
  have := CB14.gives h' (by rwa [hst.num h.v h'.v])
  rw [hme, hr] at this
  rwa [CB14.out_congr (i := g.toIn (CB14.mechOf (s.get "mechanism")) (CB14.regOf (s.get "region")))
    (j := g'.toIn (CB14.mechOf (s.get "mechanism")) (CB14.regOf (s.get "region")))] at this
  case hw => intro c; rw [CB14.fHng_foot _ _ _ _ hx, CB14.fHng_foot _ _ _ _ hx']
  all_goals simp only [CB14.Given.toIn, CB14.Given.effHyp, CB14.Given.effZ25, hst.num h.mag h'.mag,
    hst.num h.rup h'.rup, hst.num h.v h'.v, hst.opt h.hyp h'.hyp, hy, F.orEst,
    hst.opt h.z25 h'.z25, CB14.fDip_zero _ _ _ hm]
  all_goals simp

/-- CB14 never uses `depth_1_0`, even where it estimates the depth to 2.5 km/s. -/
theorem C108_cb14_depth_1_0 (s t : Scenario) (g g' : CB14.Given) (h : CB14.Source s g)
    (h' : CB14.Source t g') (hst : AgreeExcept ["depth_1_0"] s t) (hv : g.v ≠ 0) :
    ∃ o, Gives CB14.cls s o ∧ Gives CB14.cls t o := by
  have hme := hst "mechanism" (by decide)
  have hr := hst "region" (by decide)
  refine ⟨_, CB14.gives h hv, ?_⟩
  have := CB14.gives h' (by rwa [hst.num h.v h'.v])
  rw [hme, hr] at this
  have e : g' = { g with z1 := g'.z1 } := by
    rw [show g = { g' with z1 := g.z1 } from ?_]
    cases g; cases g'
    simp only [CB14.Given.mk.injEq]
    exact ⟨(hst.num h.mag h'.mag).symm, (hst.num h.rup h'.rup).symm, (hst.num h.jb h'.jb).symm,
      (hst.num h.x h'.x).symm, (hst.num h.dip h'.dip).symm, (hst.num h.v h'.v).symm,
      (hst.opt h.bot h'.bot).symm, trivial, (hst.opt h.z25 h'.z25).symm, (hst.opt h.bor h'.bor).symm,
      (hst.opt h.hyp h'.hyp).symm, (hst.opt h.tor h'.tor).symm, (hst.opt h.width h'.width).symm⟩
  rw [e] at this
  exact this

/-! ## AGA16 -/

/-- AGA16 for an event that is not intraslab: `dist_hyp` and `depth_hyp` have no influence. -/
theorem C108_aga16_interface (s t : Scenario) (m v d : ℝ) (e : String) (r : Option String)
    (hyp z hyp' z' : Option ℝ) (h : AGA16.Source s m v e r (some d) hyp z)
    (h' : AGA16.Source t m v e r (some d) hyp' z') (he : e ≠ "intraslab")
    (hev : r = some "backarc" → e = "interface") (a : AGA16.Adjust) (c4 sc : ℝ)
    (ha : ∀ l, a = .array l → l.length = 23) :
    ∃ o, Gives (AGA16.cls a c4 sc) s o ∧ Gives (AGA16.cls a c4 sc) t o := by
  have e1 : AGA16.evFor e ≠ .intraslab := by
    unfold AGA16.evFor
    rw [if_neg he]
    split <;> decide
  have hev' : r = some "backarc" → AGA16.evFor e ≠ .other := by
    intro hb
    rw [hev hb]
    decide
  obtain ⟨adj, hadj⟩ : ∃ adj, AGA16.adjust (AGA16.table.map (·.period)) (AGA16.evFor e) a = pure adj := by
    cases a with
    | default => exact ⟨_, rfl⟩
    | scalar x => exact ⟨_, rfl⟩
    | array l =>
      refine ⟨l.map F.ofReal, ?_⟩
      simp only [AGA16.adjust]
      rw [if_pos (by rw [ha l rfl, List.length_map]; rfl)]
  exact ⟨_, AGA16.gives (z0 := 0) h (by rw [if_neg e1]) (fun hh => absurd hh e1) hev' c4 sc hadj,
    AGA16.gives (z0 := 0) h' (by rw [if_neg e1]) (fun hh => absurd hh e1) hev' c4 sc hadj⟩

/-- AGA16 for an intraslab event: `dist_rup` has no influence. -/
theorem C108_aga16_intraslab (s t : Scenario) (m v d z : ℝ) (r : Option String)
    (rup rup' : Option ℝ) (h : AGA16.Source s m v "intraslab" r rup (some d) (some z))
    (h' : AGA16.Source t m v "intraslab" r rup' (some d) (some z)) (a : AGA16.Adjust) (c4 sc : ℝ)
    (ha : ∀ l, a = .array l → l.length = 23) :
    ∃ o, Gives (AGA16.cls a c4 sc) s o ∧ Gives (AGA16.cls a c4 sc) t o := by
  obtain ⟨adj, hadj⟩ : ∃ adj, AGA16.adjust (AGA16.table.map (·.period)) (AGA16.evFor "intraslab") a = pure adj := by
    cases a with
    | default => exact ⟨_, rfl⟩
    | scalar x => exact ⟨_, rfl⟩
    | array l =>
      refine ⟨l.map F.ofReal, ?_⟩
      simp only [AGA16.adjust]
      rw [if_pos (by rw [ha l rfl, List.length_map]; rfl)]
  exact ⟨_, AGA16.gives h rfl (fun _ => rfl) (fun _ => by decide) c4 sc hadj,
    AGA16.gives h' rfl (fun _ => rfl) (fun _ => by decide) c4 sc hadj⟩

/-! ## Cases that meet the hypotheses -/

theorem agreeExcept_cons {ks : List String} {d d' : Dict} {k : String} {v v' : Val} (hk : k ∈ ks)
    (h : AgreeExcept ks ⟨d, []⟩ ⟨d', []⟩) : AgreeExcept ks ⟨(k, v) :: d, []⟩ ⟨(k, v') :: d', []⟩ := by
  intro q hq
  have hne : k ≠ q := fun e => hq (e ▸ hk)
  have := h q hq
  simp only [Scenario.get, Dict.get?] at this ⊢
  simpa [hne] using this

theorem agreeExcept_refl (ks : List String) (s : Scenario) : AgreeExcept ks s s := fun _ _ => rfl

namespace ASK14

/-- a site off the hanging wall of a main shock, with the distances of the hanging-wall term first -/
noncomputable def exI (jb x y0 dip w crjb : ℝ) : Scenario :=
  ⟨[("dist_jb", .num jb), ("dist_x", .num x), ("dist_y0", .num y0), ("dip", .num dip), ("width", .num w),
    ("dist_crjb", .num crjb), ("mag", .num 6.5), ("dist_rup", .num 20), ("v_s30", .num 300),
    ("mechanism", .str "SS")], []⟩
@[inherit_doc exI]
noncomputable def exIG (jb x y0 dip w crjb : ℝ) : Given :=
  { mag := 6.5, rup := 20, jb := jb, dip := dip, v := 300, x := some x, y0 := some y0, width := some w,
    crjb := some crjb }

theorem exI_source (jb x y0 dip w crjb : ℝ) : Source (exI jb x y0 dip w crjb) (exIG jb x y0 dip w crjb) := by
  constructor <;> simp [exI, exIG, Scenario.get, Dict.get?, Val.ofOpt]

theorem exI_off (jb x y0 dip w crjb : ℝ) : ¬ ((exI jb x y0 dip w crjb).get "on_hanging_wall").isOn := by
  simp [exI, Scenario.get, Dict.get?, Val.isOn]

theorem exI_main (jb x y0 dip w crjb : ℝ) : ¬ ((exI jb x y0 dip w crjb).get "is_aftershock").isOn := by
  simp [exI, Scenario.get, Dict.get?, Val.isOn]

end ASK14

example := C108_ask14_off_hanging_wall (ASK14.exI 18 5 1 60 12 20) (ASK14.exI 0 (-3) 7 30 8 20) _ _
  (ASK14.exI_source ..) (ASK14.exI_source ..)
  (by unfold ASK14.exI; iterate 5 refine agreeExcept_cons (by decide) ?_
      exact agreeExcept_refl _ _) (ASK14.exI_off _ _ _ _ _ _)

example := C108_ask14_main_shock (ASK14.exI 18 5 1 60 12 20) (ASK14.exI 18 5 1 60 12 3) _ _
  (ASK14.exI_source ..) (ASK14.exI_source ..)
  (by
    intro k hk
    simp only [List.mem_cons, List.not_mem_nil, or_false] at hk
    simp [ASK14.exI, Scenario.get, Dict.get?, Ne.symm hk])
  (by simp [ASK14.exIG]) (ASK14.exI_main _ _ _ _ _ _)

example := C108_ask14_y0_given (ASK14.exI 18 5 1 60 12 20) (ASK14.exI 3 5 1 60 12 20) _ _
  (ASK14.exI_source ..) (ASK14.exI_source ..)
  (by unfold ASK14.exI; refine agreeExcept_cons (by decide) ?_
      exact agreeExcept_refl _ _) (by simp [ASK14.exIG]) (by simp [ASK14.exIG])

namespace CY14

/-- a site off the hanging wall -/
noncomputable def exI (jb x dpp : ℝ) : Scenario :=
  ⟨[("dist_jb", .num jb), ("dist_x", .num x), ("dpp_centered", .num dpp), ("mag", .num 6.5),
    ("dist_rup", .num 80), ("dip", .num 60), ("v_s30", .num 300)], []⟩
@[inherit_doc exI]
noncomputable def exIG (jb x dpp : ℝ) : Given :=
  { mag := 6.5, rup := 80, jb := jb, x := x, dip := 60, v := 300, dpp := some dpp }

theorem exI_source (jb x dpp : ℝ) : Source (exI jb x dpp) (exIG jb x dpp) := by
  constructor <;> simp [exI, exIG, Scenario.get, Dict.get?, Val.ofOpt]

end CY14

example := C108_cy14_off_hanging_wall (CY14.exI 18 5 1) (CY14.exI 0 (-3) 1) _ _
  (CY14.exI_source ..) (CY14.exI_source ..)
  (by unfold CY14.exI; iterate 2 refine agreeExcept_cons (by decide) ?_
      exact agreeExcept_refl _ _) (by simp [CY14.exI, Scenario.get, Dict.get?, Val.isOn])

example := C108_cy14_directivity (CY14.exI 18 5 1) (CY14.exI 18 5 (-2)) _ _
  (CY14.exI_source ..) (CY14.exI_source ..)
  (by
    intro k hk
    simp only [List.mem_cons, List.not_mem_nil, or_false] at hk
    simp [CY14.exI, Scenario.get, Dict.get?, Ne.symm hk])
  (by norm_num [CY14.exIG])

namespace CB14

/-- a site on the footwall -/
noncomputable def exI (dip jb x tor bot bor w z1 : ℝ) : Scenario :=
  ⟨[("dip", .num dip), ("dist_jb", .num jb), ("dist_x", .num x), ("depth_tor", .num tor), ("depth_bot", .num bot),
    ("depth_bor", .num bor), ("width", .num w), ("depth_1_0", .num z1), ("mag", .num 6.5),
    ("dist_rup", .num 20), ("v_s30", .num 300), ("depth_hyp", .num 9), ("mechanism", .str "SS")], []⟩
@[inherit_doc exI]
noncomputable def exIG (dip jb x tor bot bor w z1 : ℝ) : Given :=
  { mag := 6.5, rup := 20, jb := jb, x := x, dip := dip, v := 300, tor := some tor, bot := some bot,
    bor := some bor, width := some w, z1 := some z1, hyp := some 9 }

theorem exI_source (dip jb x tor bot bor w z1 : ℝ) :
    Source (exI dip jb x tor bot bor w z1) (exIG dip jb x tor bot bor w z1) := by
  constructor <;> simp [exI, exIG, Scenario.get, Dict.get?, Val.ofOpt]

end CB14

example := C108_cb14_footwall_dip (CB14.exI 60 18 (-5) 1 15 10 12 0.3) (CB14.exI 30 10 (-9) 2 20 8 15 0.1) _ _
  (CB14.exI_source ..) (CB14.exI_source ..)
  (by unfold CB14.exI; iterate 8 refine agreeExcept_cons (by decide) ?_
      exact agreeExcept_refl _ _) (by norm_num [CB14.exIG]) (by norm_num [CB14.exIG]) (by simp [CB14.exIG])
  (by norm_num [CB14.exIG]) (by norm_num [CB14.exIG])

example := C108_cb14_footwall (CB14.exI 60 18 (-5) 1 15 10 12 0.3) (CB14.exI 60 10 (-9) 2 20 8 15 0.1) _ _
  (CB14.exI_source ..) (CB14.exI_source ..)
  (by
    intro k hk
    simp only [List.mem_cons, List.not_mem_nil, or_false, not_or, ← ne_eq] at hk
    obtain ⟨h1, h2, h3, h4, h5, h6, h7⟩ := hk
    simp [CB14.exI, Scenario.get, Dict.get?, h1.symm, h2.symm, h3.symm, h4.symm, h5.symm, h6.symm, h7.symm])
  (by norm_num [CB14.exIG]) (by norm_num [CB14.exIG]) (by simp [CB14.exIG])
  (by norm_num [CB14.exIG])

example := C108_cb14_depth_1_0 (CB14.exI 60 18 (-5) 1 15 10 12 0.3) (CB14.exI 60 18 (-5) 1 15 10 12 0.1) _ _
  (CB14.exI_source ..) (CB14.exI_source ..)
  (by
    intro k hk
    simp only [List.mem_cons, List.not_mem_nil, or_false] at hk
    simp [CB14.exI, Scenario.get, Dict.get?, Ne.symm hk])
  (by norm_num [CB14.exIG])

namespace AGA16

/-- an event with all distances given -/
noncomputable def exI (e : String) (rup hyp z : ℝ) : Scenario :=
  ⟨[("mag", .num 7), ("v_s30", .num 300), ("event_type", .str e), ("dist_rup", .num rup),
    ("dist_hyp", .num hyp), ("depth_hyp", .num z)], []⟩

theorem exI_source (e : String) (rup hyp z : ℝ) :
    Source (exI e rup hyp z) 7 300 e none (some rup) (some hyp) (some z) := by
  constructor <;> simp [exI, Scenario.get, Dict.get?, Val.ofOpt]

end AGA16

example := C108_aga16_interface (AGA16.exI "interface" 100 110 20) (AGA16.exI "interface" 100 150 30) _ _ _ _ _ _ _ _ _
  (AGA16.exI_source ..) (AGA16.exI_source ..) (by decide) (by simp) .default 0 1 (by simp)

example := C108_aga16_intraslab (AGA16.exI "intraslab" 100 110 20) (AGA16.exI "intraslab" 90 110 20) _ _ _ _ _ _ _
  (AGA16.exI_source ..) (AGA16.exI_source ..) .default 0 1 (by simp)
