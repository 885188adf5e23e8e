import Verif.Props.Rock

/-!
# C114: the regions of the NGA-West2 models attenuate differently

Two scenarios that differ in the region only.
-/

set_option linter.unusedSimpArgs false
set_option maxHeartbeats 800000

/-! ## CY14 -/

namespace CY14

theorem source_agree {s t : Scenario} {g : Given} (h : Source s g) (hst : AgreeExcept ["region"] s t) :
    Source t g where
  mag := (hst _ (by decide)).trans h.mag
  rup := (hst _ (by decide)).trans h.rup
  jb := (hst _ (by decide)).trans h.jb
  x := (hst _ (by decide)).trans h.x
  dip := (hst _ (by decide)).trans h.dip
  v := (hst _ (by decide)).trans h.v
  tor := (hst _ (by decide)).trans h.tor
  z1 := (hst _ (by decide)).trans h.z1
  dpp := (hst _ (by decide)).trans h.dpp

theorem kind_region {s t : Scenario} (hst : AgreeExcept ["region"] s t) :
    kindOf t = { kindOf s with reg := regOf (t.get "region") } := by
  simp [kindOf, hst "mechanism" (by decide), hst "on_hanging_wall" (by decide),
    hst "vs_source" (by decide)]

/-- the reference motions of two regions differ by the anelastic term -/
theorem lnRef_region (c : Row) (g : Given) (k : Kind) (reg : Reg) :
    (lnRef c (g.toIn { k with reg := reg })).val - (lnRef c (g.toIn k)).val
      = (gam c g.mag reg - gam c g.mag k.reg) * g.rup := by
  rw [lnRef_val, lnRef_val]
  have e1 : baseF c (g.toIn { k with reg := reg }) = baseF c (g.toIn k) := rfl
  have e2 : fHng c (g.toIn { k with reg := reg }) = fHng c (g.toIn k) := rfl
  rw [e1, e2]
  simp only [distR]
  ring

/-- two regions with the same site term -/
theorem resp_region {c : Row} (hc : c ∈ table) {g : Given} {k : Kind} {reg : Reg} (hr : 0 < g.rup)
    (hv : 180 ≤ g.v) (h1 : k.reg ≠ .japan) (h2 : reg ≠ .japan)
    (hg : gam c g.mag reg < gam c g.mag k.reg) :
    F.Drops (lnResp c (g.toIn k)) (lnResp c (g.toIn { k with reg := reg })) := by
  refine ⟨lnResp_ok hc hr.le (by linarith) _, lnResp_ok hc hr.le (by linarith) _, ?_⟩
  rw [lnResp_val, lnResp_val]
  have e : g.effZ1 { k with reg := reg } = g.effZ1 k := by
    simp [Given.effZ1, h1, h2]
  rw [e]
  simp only [h1, h2, decide_false]
  apply respR_strictMono hc hv
  have := lnRef_region c g k reg
  have hneg : (gam c g.mag reg - gam c g.mag k.reg) * g.rup < 0 :=
    mul_neg_of_neg_of_pos (by linarith) hr
  linarith

theorem scale_other (c : Row) (m : ℝ) : (scale c (F.ofReal m) .other).val = 1 := by simp [scale]

theorem china_facts : ∀ c ∈ table, c.gamma_c < 1 := by decide +kernel

end CY14

/-- **Chiou & Youngs 2014, Italy**: between magnitude 6 and 6.9 every ordinate is lower in Italy
than in a region without an adjustment, on every site from 180 m/s on; at any other magnitude the
two regions give identical results. -/
theorem C114_cy14_italy (s t : Scenario) (g : CY14.Given) (h : CY14.Source s g)
    (hst : AgreeExcept ["region"] s t) (hs : ∀ r ∈ ["japan", "italy", "china"], s.get "region" ≠ .str r)
    (ht : t.get "region" = .str "italy") :
    ∃ o o', Gives CY14.cls s o ∧ Gives CY14.cls t o' ∧
      (6 < g.mag ∧ g.mag < 6.9 → 180 ≤ g.v → 0 < g.rup →
        List.Forall₂ F.Drops o.gmm.lnResp o'.gmm.lnResp) ∧
      (¬ (6 < g.mag ∧ g.mag < 6.9) → o.gmm.lnResp = o'.gmm.lnResp) := by
  have hk := CY14.kind_region hst
  have r2 : CY14.regOf (t.get "region") = .italy := by rw [ht]; simp [CY14.regOf]
  have r1 : (CY14.kindOf s).reg = .other := by
    simp only [List.forall_mem_cons] at hs
    simp [CY14.kindOf, CY14.regOf, Val.isStr, hs.1, hs.2.1, hs.2.2.1]
  rw [r2] at hk
  refine ⟨_, _, CY14.gives h, CY14.gives (CY14.source_agree h hst), ?_, ?_⟩
  · rintro ⟨m1, m2⟩ hv hr
    rw [hk]
    simp only [CY14.out]
    refine forall₂_map fun c hc => CY14.resp_region hc hr hv (by simp [r1]) (by simp) ?_
    have hj : (1 : ℝ) < c.gamma_ji := by
      exact_mod_cast (CY14.row_facts c hc).2.2.2.2.2.2.2.2.2.2.2.2.2.2.1
    have hn := CY14.gam_inner hc g.mag
    have e : (CY14.scale c (F.ofReal g.mag) .italy).val = c.gamma_ji := by
      simp only [CY14.scale, fsimp]
      rw [if_pos m1, if_pos m2]
    rw [r1]
    simp only [CY14.gam, e, CY14.scale_other]
    nlinarith
  · intro hm
    rw [hk]
    simp only [CY14.out]
    apply List.map_congr_left
    intro c _
    have e : CY14.scale c (F.ofReal g.mag) .italy = CY14.scale c (F.ofReal g.mag) .other := by
      ext
      · simp only [CY14.scale, fsimp]
        by_cases a : 6 < g.mag
        · rw [if_pos a, if_neg fun b => hm ⟨a, b⟩]
        · rw [if_neg a]
      · simp only [CY14.scale, fsimp, ite_self]
    have e2 : g.effZ1 { CY14.kindOf s with reg := .italy } = g.effZ1 (CY14.kindOf s) := by
      simp [CY14.Given.effZ1, r1]
    simp only [CY14.lnResp, CY14.lnRef, CY14.Given.toIn, CY14.fAtn, e, e2, r1]
    rfl

/-- **Chiou & Youngs 2014, China**: every ordinate is higher in China than in a region without an
adjustment, at every magnitude, on every site from 180 m/s on. -/
theorem C114_cy14_china (s t : Scenario) (g : CY14.Given) (h : CY14.Source s g)
    (hst : AgreeExcept ["region"] s t) (hs : ∀ r ∈ ["japan", "italy", "china"], s.get "region" ≠ .str r)
    (ht : t.get "region" = .str "china") (hv : 180 ≤ g.v) (hr : 0 < g.rup) :
    ∃ o o', Gives CY14.cls s o ∧ Gives CY14.cls t o' ∧
      List.Forall₂ F.Drops o'.gmm.lnResp o.gmm.lnResp := by
  have hk := CY14.kind_region hst
  have r2 : CY14.regOf (t.get "region") = .china := by rw [ht]; simp [CY14.regOf]
  have r1 : (CY14.kindOf s).reg = .other := by
    simp only [List.forall_mem_cons] at hs
    simp [CY14.kindOf, CY14.regOf, Val.isStr, hs.1, hs.2.1, hs.2.2.1]
  rw [r2] at hk
  refine ⟨_, _, CY14.gives h, CY14.gives (CY14.source_agree h hst), ?_⟩
  have hk' : CY14.kindOf s = { CY14.kindOf t with reg := .other } := by
    rw [hk, ← r1]
  rw [hk']
  have r3 : (CY14.kindOf t).reg = .china := r2
  simp only [CY14.out]
  refine forall₂_map fun c hc => CY14.resp_region hc hr hv (by simp [r3]) (by simp) ?_
  have hj : (c.gamma_c : ℝ) < 1 := by exact_mod_cast CY14.china_facts c hc
  have hn := CY14.gam_inner hc g.mag
  have e : (CY14.scale c (F.ofReal g.mag) .china).val = c.gamma_c := by simp only [CY14.scale, fsimp]
  rw [r3]
  simp only [CY14.gam, e, CY14.scale_other]
  nlinarith

/-! ## BSSA14 -/

namespace BSSA14

theorem source_agree {s t : Scenario} {g : Given} (h : Source s g) (hst : AgreeExcept ["region"] s t) :
    Source t g where
  mag := (hst _ (by decide)).trans h.mag
  jb := (hst _ (by decide)).trans h.jb
  v := (hst _ (by decide)).trans h.v
  z1 := (hst _ (by decide)).trans h.z1

theorem region_rows : ∀ c ∈ table, 4 < c.h ∧ c.dc_3global = 0 ∧ 0 < c.dc_3ct := by decide +kernel

theorem D_gt {c : Row} (hc : c ∈ table) (r : ℝ) : 1 < D c r := by
  have h : (4 : ℝ) < c.h := by exact_mod_cast (region_rows c hc).1
  unfold D
  rw [show (1 : ℝ) = Real.sqrt 1 by simp]
  apply Real.sqrt_lt_sqrt (by norm_num)
  nlinarith [sq_nonneg r]

/-- at the reference velocity and above, two regions differ by the anelastic term -/
theorem resp_region {c : Row} (hc : c ∈ table) {g : Given} (hv : 760 ≤ g.v) (mech : Mech) (reg reg' : Reg) :
    let i := g.toIn mech reg
    let j := g.toIn mech reg'
    (lnResp c i (some (pgaRef i))).ok ∧ (lnResp c j (some (pgaRef j))).ok ∧
      (lnResp c j (some (pgaRef j))).val - (lnResp c i (some (pgaRef i))).val =
        ((dc3 c reg' : ℝ) - dc3 c reg) * (D c g.jb - 1) := by
  intro i j
  have h1 := resp_facts hc g (by linarith) mech reg
  have h2 := resp_facts hc g (by linarith) mech reg'
  refine ⟨h1.1, h2.1, ?_⟩
  rw [h1.2, h2.2, f2R_rock c hv]
  simp only [pathR]
  ring

theorem regOf_other {v : Val} (h : v ∉ [Val.str "china", .str "turkey", .str "italy", .str "japan"]) :
    regOf v = .other := by
  simp only [List.mem_cons, List.not_mem_nil, or_false, not_or] at h
  simp [regOf, Val.isStr, h]

end BSSA14

/-- **Boore et al. 2014, China and Turkey**: on sites from 760 m/s on every ordinate is higher than
in the regions without an adjustment, by `dc_3ct` times the effective distance less 1 km, in natural
logarithm. -/
theorem C114_bssa14_china (s t : Scenario) (g : BSSA14.Given) (h : BSSA14.Source s g)
    (hst : AgreeExcept ["region"] s t)
    (hs : s.get "region" ∉ [Val.str "china", .str "turkey", .str "italy", .str "japan"])
    (ht : t.get "region" ∈ [Val.str "china", .str "turkey"]) (hv : 760 ≤ g.v) :
    ∃ o o', Gives BSSA14.cls s o ∧ Gives BSSA14.cls t o' ∧
      List.Forall₂ F.Drops o'.gmm.lnResp o.gmm.lnResp ∧
      ∀ (i : ℕ) (c : BSSA14.Row), BSSA14.table[i]? = some c →
        (o'.gmm.lnResp.getD i F.nan).val - (o.gmm.lnResp.getD i F.nan).val =
          c.dc_3ct * (Real.sqrt (g.jb ^ 2 + (c.h : ℝ) ^ 2) - 1) := by
  have r1 := BSSA14.regOf_other hs
  have r2 : BSSA14.regOf (t.get "region") = .chinaTurkey := by
    simp only [List.mem_cons, List.not_mem_nil, or_false] at ht
    rcases ht with e | e <;> rw [e] <;> simp [BSSA14.regOf]
  have g1 := BSSA14.gives h
  have g2 := BSSA14.gives (BSSA14.source_agree h hst)
  rw [hst "mechanism" (by decide), r2] at g2
  rw [r1] at g1
  refine ⟨_, _, g1, g2, ?_, ?_⟩
  · simp only [BSSA14.out]
    refine forall₂_map fun c hc => ?_
    obtain ⟨a, b, e⟩ := BSSA14.resp_region hc hv (BSSA14.mechOf (s.get "mechanism")) .other .chinaTurkey
    obtain ⟨-, z, p⟩ := BSSA14.region_rows c hc
    refine ⟨b, a, ?_⟩
    have p' : (0 : ℝ) < c.dc_3ct := by exact_mod_cast p
    have hD := BSSA14.D_gt hc g.jb
    simp only [BSSA14.dc3, z, Rat.cast_zero, sub_zero] at e
    have := mul_pos p' (sub_pos.2 hD)
    linarith
  · intro i c hi
    have hc : c ∈ BSSA14.table := List.mem_of_getElem? hi
    obtain ⟨-, -, e⟩ := BSSA14.resp_region hc hv (BSSA14.mechOf (s.get "mechanism")) .other .chinaTurkey
    obtain ⟨-, z, -⟩ := BSSA14.region_rows c hc
    simp only [BSSA14.dc3, z, Rat.cast_zero, sub_zero] at e
    simp only [BSSA14.out, List.getD_eq_getElem?_getD, List.getElem?_map, hi, Option.map_some, Option.getD_some]
    exact e

/-- **Boore et al. 2014, Italy and Japan**: on sites from 760 m/s on the ordinates differ from those
of the regions without an adjustment by `dc_3ij` times the effective distance less 1 km: lower up to
a period of 6.5 s (with PGA and PGV), higher at the seven periods from 7 s on. -/
theorem C114_bssa14_italy (s t : Scenario) (g : BSSA14.Given) (h : BSSA14.Source s g)
    (hst : AgreeExcept ["region"] s t)
    (hs : s.get "region" ∉ [Val.str "china", .str "turkey", .str "italy", .str "japan"])
    (ht : t.get "region" ∈ [Val.str "italy", .str "japan"]) (hv : 760 ≤ g.v) :
    ∃ o o', Gives BSSA14.cls s o ∧ Gives BSSA14.cls t o' ∧
      ∀ (i : ℕ) (c : BSSA14.Row), BSSA14.table[i]? = some c →
        (o'.gmm.lnResp.getD i F.nan).val - (o.gmm.lnResp.getD i F.nan).val =
          c.dc_3ij * (Real.sqrt (g.jb ^ 2 + (c.h : ℝ) ^ 2) - 1) ∧
        (c.period < 7 → F.Drops (o.gmm.lnResp.getD i F.nan) (o'.gmm.lnResp.getD i F.nan)) ∧
        (7 ≤ c.period → F.Drops (o'.gmm.lnResp.getD i F.nan) (o.gmm.lnResp.getD i F.nan)) := by
  have r1 := BSSA14.regOf_other hs
  have r2 : BSSA14.regOf (t.get "region") = .italyJapan := by
    simp only [List.mem_cons, List.not_mem_nil, or_false] at ht
    rcases ht with e | e <;> rw [e] <;> simp [BSSA14.regOf]
  have g1 := BSSA14.gives h
  have g2 := BSSA14.gives (BSSA14.source_agree h hst)
  rw [hst "mechanism" (by decide), r2] at g2
  rw [r1] at g1
  refine ⟨_, _, g1, g2, ?_⟩
  intro i c hi
  have hc : c ∈ BSSA14.table := List.mem_of_getElem? hi
  obtain ⟨a, b, e⟩ := BSSA14.resp_region hc hv (BSSA14.mechOf (s.get "mechanism")) .other .italyJapan
  obtain ⟨-, z, -⟩ := BSSA14.region_rows c hc
  simp only [BSSA14.dc3, z, Rat.cast_zero, sub_zero] at e
  have hD := sub_pos.2 (BSSA14.D_gt hc g.jb)
  have sg : (c.period < 7 → c.dc_3ij < 0) ∧ (7 ≤ c.period → 0 < c.dc_3ij) := by
    have : ∀ c ∈ BSSA14.table, (c.period < 7 → c.dc_3ij < 0) ∧ (7 ≤ c.period → 0 < c.dc_3ij) := by
      decide +kernel
    exact this c hc
  simp only [BSSA14.out, List.getD_eq_getElem?_getD, List.getElem?_map, hi, Option.map_some, Option.getD_some]
  refine ⟨e, fun hp => ⟨a, b, ?_⟩, fun hp => ⟨b, a, ?_⟩⟩
  · have : (c.dc_3ij : ℝ) < 0 := by exact_mod_cast sg.1 hp
    have := mul_neg_of_neg_of_pos this hD
    linarith
  · have : (0 : ℝ) < c.dc_3ij := by exact_mod_cast sg.2 hp
    have := mul_pos this hD
    linarith

/-! ## CB14 -/

namespace CB14

theorem source_agree {s t : Scenario} {g : Given} (h : Source s g) (hst : AgreeExcept ["region"] s t) :
    Source t g where
  mag := (hst _ (by decide)).trans h.mag
  rup := (hst _ (by decide)).trans h.rup
  jb := (hst _ (by decide)).trans h.jb
  x := (hst _ (by decide)).trans h.x
  dip := (hst _ (by decide)).trans h.dip
  v := (hst _ (by decide)).trans h.v
  bot := (hst _ (by decide)).trans h.bot
  z1 := (hst _ (by decide)).trans h.z1
  z25 := (hst _ (by decide)).trans h.z25
  bor := (hst _ (by decide)).trans h.bor
  hyp := (hst _ (by decide)).trans h.hyp
  tor := (hst _ (by decide)).trans h.tor
  width := (hst _ (by decide)).trans h.width
  mech := by rw [hst _ (by decide)]; exact h.mech

theorem region_rows : ∀ c ∈ table, c.dc_20ca = 0 ∧ (c.period < 3 → c.dc_20jp < 0) ∧
    (3 ≤ c.period → c.dc_20jp = 0) := by decide +kernel

theorem rest_region (c : Row) (g : Given) (mech : Mech) :
    (rest c (g.toIn mech .italy)).val - (rest c (g.toIn mech .other)).val
      = ((c.dc_20jp : ℝ) - c.dc_20ca) * max (g.rup - 80) 0 := by
  have e1 : fHng c (g.toIn mech .italy) = fHng c (g.toIn mech .other) := rfl
  simp only [rest, F.val_add, e1]
  simp only [Given.toIn, fAtn, fsimp]
  ring

/-- above the velocity where the site response becomes linear, Italy and the other regions differ by
the anelastic term -/
theorem resp_region {c : Row} (hc : c ∈ table) {g : Given} {mech : Mech} (hr : Regular g mech) (hv : 1086 < g.v) :
    let i := g.toIn mech .other
    let j := g.toIn mech .italy
    (lnResp c i (some (pgaRef i)) i.v).ok ∧ (lnResp c j (some (pgaRef j)) j.v).ok ∧
      (lnResp c j (some (pgaRef j)) j.v).val - (lnResp c i (some (pgaRef i)) i.v).val =
        c.dc_20jp * max (g.rup - 80) 0 := by
  intro i j
  have k1 : (c.k_1 : ℝ) ≤ 1086 := by exact_mod_cast (rock_rows c hc).1
  refine ⟨resp_ok hc hr (by linarith) _, resp_ok hc hr (by linarith) _, ?_⟩
  have e1 := resp_val c g mech .other
  have e2 := resp_val c g mech .italy
  change (lnResp c j (some (pgaRef j)) j.v).val = _ at e2
  change (lnResp c i (some (pgaRef i)) i.v).val = _ at e1
  have hz : g.effZ25 .italy = g.effZ25 .other := rfl
  have := rest_region c g mech
  rw [(region_rows c hc).1, Rat.cast_zero, sub_zero] at this
  rw [e1, e2, hz]
  unfold surfR siteR
  simp only [reduceCtorEq, decide_false]
  rw [if_neg (show ¬ g.v ≤ (c.k_1 : ℝ) by linarith), if_neg (show ¬ g.v ≤ (c.k_1 : ℝ) by linarith)]
  linarith

/-- within 80 km Italy is like any other region, on every site -/
theorem out_near (g : Given) (mech : Mech) (h : g.rup ≤ 80) :
    out (g.toIn mech .italy) = out (g.toIn mech .other) := by
  have e0 : ∀ c : Row, fAtn c (F.ofReal g.rup) .italy = fAtn c (F.ofReal g.rup) .other := by
    intro c
    ext
    · simp only [fAtn, fsimp, max_eq_right (show g.rup - 80 ≤ 0 by linarith), mul_zero]
    · simp only [fAtn, fsimp]
  have e1 : ∀ (c : Row) (p : Option F) (v : F), lnResp c (g.toIn mech .italy) p v = lnResp c (g.toIn mech .other) p v := by
    intro c p v
    have hz : g.effZ25 .italy = g.effZ25 .other := rfl
    simp only [lnResp, Given.toIn, e0, hz]
    rfl
  have e2 : pgaRef (g.toIn mech .italy) = pgaRef (g.toIn mech .other) := by
    rw [pgaRef_eq, pgaRef_eq, e1]
  simp only [out, e1, e2]
  rfl

end CB14

/-- **Campbell & Bozorgnia 2014, Italy**: up to 80 km from the rupture Italy gives the same results
as every region without an adjustment, on every site. -/
theorem C114_cb14_near (s t : Scenario) (g : CB14.Given) (h : CB14.Source s g)
    (hst : AgreeExcept ["region"] s t)
    (hs : s.get "region" ≠ .str "japan" ∧ s.get "region" ≠ .str "italy")
    (ht : t.get "region" = .str "italy") (hv : g.v ≠ 0) (hr : g.rup ≤ 80) :
    ∃ o, Gives CB14.cls s o ∧ Gives CB14.cls t o := by
  have r1 : CB14.regOf (s.get "region") = .other := by simp [CB14.regOf, Val.isStr, hs.1, hs.2]
  have r2 : CB14.regOf (t.get "region") = .italy := by rw [ht]; simp [CB14.regOf]
  have g1 := CB14.gives h hv
  have g2 := CB14.gives (CB14.source_agree h hst) hv
  rw [hst "mechanism" (by decide), r2, CB14.out_near g _ hr] at g2
  rw [r1] at g1
  exact ⟨_, g1, g2⟩

/-- Beyond 80 km, on sites above 1086 m/s, Italy is lower by `dc_20jp` per km: at every period below
3 s, PGA and PGV; from 3 s on there is no difference. -/
theorem C114_cb14_far (s t : Scenario) (g : CB14.Given) (h : CB14.Source s g)
    (hst : AgreeExcept ["region"] s t)
    (hs : s.get "region" ≠ .str "japan" ∧ s.get "region" ≠ .str "italy")
    (ht : t.get "region" = .str "italy") (hreg : CB14.Regular g (CB14.mechOf (s.get "mechanism")))
    (hv : 1086 < g.v) (hr : 80 < g.rup) :
    ∃ o o', Gives CB14.cls s o ∧ Gives CB14.cls t o' ∧
      ∀ (i : ℕ) (c : CB14.Row), CB14.table[i]? = some c →
        (o'.gmm.lnResp.getD i F.nan).val - (o.gmm.lnResp.getD i F.nan).val = c.dc_20jp * (g.rup - 80) ∧
        (c.period < 3 → F.Drops (o.gmm.lnResp.getD i F.nan) (o'.gmm.lnResp.getD i F.nan)) ∧
        (3 ≤ c.period → F.Same (o.gmm.lnResp.getD i F.nan) (o'.gmm.lnResp.getD i F.nan)) := by
  have r1 : CB14.regOf (s.get "region") = .other := by simp [CB14.regOf, Val.isStr, hs.1, hs.2]
  have r2 : CB14.regOf (t.get "region") = .italy := by rw [ht]; simp [CB14.regOf]
  have hv0 : g.v ≠ 0 := by linarith
  have g1 := CB14.gives h hv0
  have g2 := CB14.gives (CB14.source_agree h hst) hv0
  rw [hst "mechanism" (by decide), r2] at g2
  rw [r1] at g1
  refine ⟨_, _, g1, g2, ?_⟩
  intro i c hi
  have hc : c ∈ CB14.table := List.mem_of_getElem? hi
  obtain ⟨a, b, e⟩ := CB14.resp_region hc hreg hv
  obtain ⟨-, p, q⟩ := CB14.region_rows c hc
  rw [max_eq_left (by linarith : (0 : ℝ) ≤ g.rup - 80)] at e
  have hD : 0 < g.rup - 80 := by linarith
  simp only [CB14.out, List.getD_eq_getElem?_getD, List.getElem?_map, hi, Option.map_some, Option.getD_some]
  refine ⟨e, fun hp => ⟨a, b, ?_⟩, fun hp => ⟨a, b, ?_⟩⟩
  · have : (c.dc_20jp : ℝ) < 0 := by exact_mod_cast p hp
    have := mul_neg_of_neg_of_pos this hD
    linarith
  · rw [q hp, Rat.cast_zero, zero_mul] at e
    linarith

/-! ## ASK14 -/

namespace ASK14

theorem source_agree {s t : Scenario} {g : Given} (h : Source s g) (hst : AgreeExcept ["region"] s t) :
    Source t g where
  mag := (hst _ (by decide)).trans h.mag
  rup := (hst _ (by decide)).trans h.rup
  jb := (hst _ (by decide)).trans h.jb
  dip := (hst _ (by decide)).trans h.dip
  v := (hst _ (by decide)).trans h.v
  x := (hst _ (by decide)).trans h.x
  y0 := (hst _ (by decide)).trans h.y0
  width := (hst _ (by decide)).trans h.width
  tor := (hst _ (by decide)).trans h.tor
  z1 := (hst _ (by decide)).trans h.z1
  crjb := (hst _ (by decide)).trans h.crjb
  mech := by rw [hst _ (by decide)]; exact h.mech

theorem kind_region {s t : Scenario} (hst : AgreeExcept ["region"] s t) :
    kindOf t = { kindOf s with reg := regOf (t.get "region") } := by
  simp [kindOf, hst "mechanism" (by decide), hst "on_hanging_wall" (by decide),
    hst "vs_source" (by decide), hst "is_aftershock" (by decide)]

theorem region_rows : ∀ c ∈ table, (c.period < 3 → 0 < c.a28 ∧ c.a25 < 0) ∧ (3 ≤ c.period → c.a28 = 0 ∧ c.a25 = 0) ∧
    c.a29 < 0 := by decide +kernel

/-- on stiff sites the nonlinear term does not involve the reference motion -/
theorem f5R_stiff {c : Row} (hc : c ∈ table) {v : ℝ} (hv : 960 ≤ v) (x y : ℝ) : f5R c v x = f5R c v y := by
  obtain ⟨h1, h2, h3⟩ := vlin_pos hc
  have : 1 ≤ ratioR c v := by
    unfold ratioR
    rw [le_div_iff₀ (by linarith), one_mul]
    exact le_min (by linarith) h3
  simp only [f5R, if_neg (not_lt.2 this)]

theorem resp_china {c : Row} (hc : c ∈ table) {g : Given} {k : Kind} (hk : g.HwOk k) (hr : k.reg = .other)
    (hv : 960 ≤ g.v) (hz : ∀ z, g.z1 = some z → -0.01 < z) :
    (lnResp c (g.toIn k)).ok ∧ (lnResp c (g.toIn { k with reg := .china })).ok ∧
      (lnResp c (g.toIn { k with reg := .china })).val - (lnResp c (g.toIn k)).val = c.a28 * g.rup := by
  have hk' : g.HwOk { k with reg := .china } := hk
  refine ⟨resp_ok hc hk (by linarith) hz, resp_ok hc hk' (by linarith) hz, ?_⟩
  rw [resp_val hc, resp_val hc, f5R_stiff hc hv _ (refR c g k)]
  have e1 : baseF c (g.toIn { k with reg := .china }) = baseF c (g.toIn k) := rfl
  rw [e1, hr]
  simp only [freg, fsimp, reduceCtorEq, decide_false]
  ring

end ASK14

/-- **Abrahamson et al. 2014, China**: on sites from 960 m/s on China is higher than the regions
without an adjustment by `a28` per km: at every period below 3 s, PGA and PGV; from 3 s on there is
no difference. -/
theorem C114_ask14_china (s t : Scenario) (g : ASK14.Given) (h : ASK14.Source s g)
    (hst : AgreeExcept ["region"] s t) (hk : g.HwOk (ASK14.kindOf s))
    (hs : ∀ r ∈ ["taiwan", "china", "japan"], s.get "region" ≠ .str r)
    (ht : t.get "region" = .str "china") (hv : 960 ≤ g.v) (hr : 0 < g.rup)
    (hz : ∀ z, g.z1 = some z → -0.01 < z) :
    ∃ o o', Gives ASK14.cls s o ∧ Gives ASK14.cls t o' ∧
      ∀ (i : ℕ) (c : ASK14.Row), ASK14.table[i]? = some c →
        (o'.gmm.lnResp.getD i F.nan).val - (o.gmm.lnResp.getD i F.nan).val = c.a28 * g.rup ∧
        (c.period < 3 → F.Drops (o'.gmm.lnResp.getD i F.nan) (o.gmm.lnResp.getD i F.nan)) ∧
        (3 ≤ c.period → F.Same (o.gmm.lnResp.getD i F.nan) (o'.gmm.lnResp.getD i F.nan)) := by
  have hkr := ASK14.kind_region hst
  have r2 : ASK14.regOf (t.get "region") = .china := by rw [ht]; simp [ASK14.regOf]
  have r1 : (ASK14.kindOf s).reg = .other := by
    simp only [List.forall_mem_cons] at hs
    simp [ASK14.kindOf, ASK14.regOf, Val.isStr, hs.1, hs.2.1, hs.2.2.1]
  rw [r2] at hkr
  have hx : (ASK14.kindOf s).hw = true → g.x ≠ none := fun q => (hk q).1
  have g1 := ASK14.gives h hx
  have g2 := ASK14.gives (ASK14.source_agree h hst) (by rw [hkr]; exact hx)
  rw [hkr] at g2
  refine ⟨_, _, g1, g2, ?_⟩
  intro i c hi
  have hc : c ∈ ASK14.table := List.mem_of_getElem? hi
  obtain ⟨a, b, e⟩ := ASK14.resp_china hc hk r1 hv hz
  obtain ⟨p, q, -⟩ := ASK14.region_rows c hc
  simp only [ASK14.out, List.getD_eq_getElem?_getD, List.getElem?_map, hi, Option.map_some, Option.getD_some]
  refine ⟨e, fun hp => ⟨b, a, ?_⟩, fun hp => ⟨a, b, ?_⟩⟩
  · have : (0 : ℝ) < c.a28 := by exact_mod_cast (p hp).1
    have := mul_pos this hr
    linarith
  · rw [(q hp).1, Rat.cast_zero, zero_mul] at e
    linarith

namespace ASK14

/-- the anelastic coefficient that the model adds for a region of this name -/
def extra (c : Row) (name : String) : ℚ :=
  if name = "taiwan" then c.a25 else if name = "china" then c.a28 else if name = "japan" then c.a29 else 0

theorem extra_freg {c : Row} {name : String} (v r r' : ℝ) :
    (freg c (F.ofReal v) (F.ofReal r') (regOf (.str name))).val -
      (freg c (F.ofReal v) (F.ofReal r) (regOf (.str name))).val = extra c name * (r' - r) := by
  unfold extra regOf
  by_cases h1 : name = "taiwan"
  · subst h1; simp [freg]; ring
  · by_cases h2 : name = "china"
    · subst h2; simp [freg]; ring
    · by_cases h3 : name = "japan"
      · subst h3; simp [freg]; ring
      · simp [freg, Val.isStr, h1, h2, h3]

end ASK14

/-- **Abrahamson et al. 2014, every region**: on sites from 960 m/s on, the natural logarithm of the
ratio between a region and one without an adjustment changes with the distance by a constant per km:
`a25` for Taiwan, `a28` for China, `a29` for Japan, 0 otherwise. -/
theorem C114_ask14_distance (S T : ℝ → Scenario) (g : ASK14.Given) (name : String)
    (h : ∀ r, ASK14.Source (S r) { g with rup := r })
    (hST : ∀ r, AgreeExcept ["region"] (S r) (T r)) (hSS : ∀ r r', AgreeExcept ["dist_rup"] (S r) (S r'))
    (hk : ∀ r, ({ g with rup := r } : ASK14.Given).HwOk (ASK14.kindOf (S r)))
    (hs : ∀ r, ∀ n ∈ ["taiwan", "china", "japan"], (S r).get "region" ≠ .str n)
    (ht : ∀ r, (T r).get "region" = .str name) (hv : 960 ≤ g.v) :
    ∃ o o' : ℝ → ASK14.Out, (∀ r, Gives ASK14.cls (S r) (o r) ∧ Gives ASK14.cls (T r) (o' r)) ∧
      ∀ (i : ℕ) (c : ASK14.Row), ASK14.table[i]? = some c → ∀ r r' : ℝ,
        (((o' r').gmm.lnResp.getD i F.nan).val - ((o r').gmm.lnResp.getD i F.nan).val) -
          (((o' r).gmm.lnResp.getD i F.nan).val - ((o r).gmm.lnResp.getD i F.nan).val)
          = ASK14.extra c name * (r' - r) := by
  have hkk : ∀ r, ASK14.kindOf (S r) = ASK14.kindOf (S 0) := fun r =>
    ASK14.kindOf_agree (hSS 0 r) (by decide)
  set k := ASK14.kindOf (S 0) with hk0
  have r1 : k.reg = .other := by
    have := hs 0
    simp only [List.forall_mem_cons] at this
    simp [hk0, ASK14.kindOf, ASK14.regOf, Val.isStr, this.1, this.2.1, this.2.2.1]
  have hkr : ∀ r, ASK14.kindOf (T r) = { k with reg := ASK14.regOf (.str name) } := fun r => by
    rw [ASK14.kind_region (hST r), hkk, ht]
  refine ⟨fun r => ASK14.out (({ g with rup := r } : ASK14.Given).toIn k),
    fun r => ASK14.out (({ g with rup := r } : ASK14.Given).toIn { k with reg := ASK14.regOf (.str name) }),
    fun r => ?_, ?_⟩
  · have hx : k.hw = true → g.x ≠ none := fun q => (hk r (by rw [hkk]; exact q)).1
    have g1 := ASK14.gives (h r) (by rw [hkk]; exact hx)
    have g2 := ASK14.gives (ASK14.source_agree (h r) (hST r)) (by rw [hkr]; exact hx)
    rw [hkk] at g1
    rw [hkr] at g2
    exact ⟨g1, g2⟩
  · intro i c hi r r'
    have hc : c ∈ ASK14.table := List.mem_of_getElem? hi
    simp only [ASK14.out, List.getD_eq_getElem?_getD, List.getElem?_map, hi, Option.map_some, Option.getD_some]
    rw [ASK14.resp_val hc, ASK14.resp_val hc, ASK14.resp_val hc, ASK14.resp_val hc]
    have e1 : ∀ r, ASK14.baseF c (({ g with rup := r } : ASK14.Given).toIn { k with reg := ASK14.regOf (.str name) })
        = ASK14.baseF c (({ g with rup := r } : ASK14.Given).toIn k) := fun _ => rfl
    have e2 := ASK14.extra_freg (c := c) (name := name) g.v r r'
    have e3 : ∀ v r : F, (ASK14.freg c v r .other).val = 0 := fun _ _ => by simp [ASK14.freg]
    rw [e1, e1, r1]
    obtain ⟨K, hK⟩ : ∃ K, ∀ x, ASK14.f5R c g.v x = K := ⟨_, fun x => ASK14.f5R_stiff hc hv x 0⟩
    simp only [e3, hK]
    linarith

/-! ## Cases that meet the hypotheses -/

/-- a strike-slip event seen from a stiff site of velocity `v` at distance `r` -/
noncomputable def exReg (region : String) (r v : ℝ) : Scenario :=
  ⟨[("region", .str region), ("dist_rup", .num r), ("v_s30", .num v), ("mag", .num 6.5), ("dist_jb", .num 95),
    ("dist_x", .num (-95)), ("dip", .num 60), ("mechanism", .str "SS"), ("depth_2_5", .num 1),
    ("depth_hyp", .num 9), ("depth_tor", .num 2), ("width", .num 12), ("depth_bor", .num 14)], []⟩

theorem exReg_agree (a b : String) (r v : ℝ) : AgreeExcept ["region"] (exReg a r v) (exReg b r v) := by
  unfold exReg
  refine agreeExcept_cons (by decide) ?_
  exact agreeExcept_refl _ _

theorem exReg_dist (a : String) (r r' v : ℝ) : AgreeExcept ["dist_rup"] (exReg a r v) (exReg a r' v) := by
  intro k hk
  simp only [List.mem_cons, List.not_mem_nil, or_false] at hk
  have : ¬ "dist_rup" = k := fun e => hk e.symm
  simp [exReg, Scenario.get, Dict.get?, this]

theorem exReg_region (a : String) (r v : ℝ) : (exReg a r v).get "region" = .str a := by
  simp [exReg, Scenario.get, Dict.get?]

theorem exReg_cy14 (a : String) (r v : ℝ) : CY14.Source (exReg a r v)
    { mag := 6.5, rup := r, jb := 95, x := -95, dip := 60, v := v, tor := some 2 } := by
  constructor <;> simp [exReg, Scenario.get, Dict.get?, Val.ofOpt]

theorem exReg_bssa14 (a : String) (r v : ℝ) : BSSA14.Source (exReg a r v) { mag := 6.5, jb := 95, v := v } := by
  constructor <;> simp [exReg, Scenario.get, Dict.get?, Val.ofOpt]

theorem exReg_cb14 (a : String) (r v : ℝ) : CB14.Source (exReg a r v)
    { mag := 6.5, rup := r, jb := 95, x := -95, dip := 60, v := v, z25 := some 1, hyp := some 9, tor := some 2,
      width := some 12, bor := some 14 } := by
  constructor <;> simp [exReg, Scenario.get, Dict.get?, Val.ofOpt]

theorem exReg_ask14 (a : String) (r v : ℝ) : ASK14.Source (exReg a r v)
    { mag := 6.5, rup := r, jb := 95, dip := 60, v := v, x := some (-95), tor := some 2, width := some 12 } := by
  constructor <;> simp [exReg, Scenario.get, Dict.get?, Val.ofOpt]

/-- Italy at magnitude 6.5, on soft soil -/
example : ∃ o o', Gives CY14.cls (exReg "california" 100 200) o ∧ Gives CY14.cls (exReg "italy" 100 200) o' ∧
    List.Forall₂ F.Drops o.gmm.lnResp o'.gmm.lnResp := by
  obtain ⟨o, o', h1, h2, h, -⟩ := C114_cy14_italy (exReg "california" 100 200) (exReg "italy" 100 200) _
    (exReg_cy14 _ _ _) (exReg_agree _ _ _ _) (by rw [exReg_region]; simp) (exReg_region _ _ _)
  exact ⟨o, o', h1, h2, h ⟨by norm_num, by norm_num⟩ (by norm_num) (by norm_num)⟩

example := C114_cy14_china (exReg "california" 100 200) (exReg "china" 100 200) _
  (exReg_cy14 _ _ _) (exReg_agree _ _ _ _) (by rw [exReg_region]; simp) (exReg_region _ _ _) (by norm_num)
  (by norm_num)

example := C114_bssa14_china (exReg "california" 100 760) (exReg "turkey" 100 760) _
  (exReg_bssa14 _ _ _) (exReg_agree _ _ _ _) (by rw [exReg_region]; simp) (by rw [exReg_region]; simp) (by norm_num)

example := C114_bssa14_italy (exReg "california" 100 760) (exReg "italy" 100 760) _
  (exReg_bssa14 _ _ _) (exReg_agree _ _ _ _) (by rw [exReg_region]; simp) (by rw [exReg_region]; simp) (by norm_num)

example := C114_cb14_near (exReg "california" 80 300) (exReg "italy" 80 300) _
  (exReg_cb14 _ _ _) (exReg_agree _ _ _ _) (by rw [exReg_region]; simp) (exReg_region _ _ _) (by norm_num) (by norm_num)

example := C114_cb14_far (exReg "california" 100 1200) (exReg "italy" 100 1200) _
  (exReg_cb14 _ _ _) (exReg_agree _ _ _ _) (by rw [exReg_region]; simp) (exReg_region _ _ _)
  ⟨fun h => by simp at h, fun h => by norm_num at h⟩ (by norm_num) (by norm_num)

theorem exReg_hwOk (a : String) (r v : ℝ) :
    ({ mag := 6.5, rup := r, jb := 95, dip := 60, v := v, x := some (-95), tor := some 2, width := some 12 } :
      ASK14.Given).HwOk (ASK14.kindOf (exReg a r v)) := by
  intro _
  refine ⟨by simp, by norm_num, by norm_num, fun w hw => ?_⟩
  simp only [Option.some.injEq] at hw
  rw [← hw]; norm_num

example := C114_ask14_china (exReg "california" 100 1000) (exReg "china" 100 1000) _
  (exReg_ask14 _ _ _) (exReg_agree _ _ _ _) (exReg_hwOk _ _ _) (by rw [exReg_region]; simp) (exReg_region _ _ _)
  (by norm_num) (by norm_num) (by simp)

/-- Japan and California -/
example := C114_ask14_distance (fun r => exReg "california" r 1000) (fun r => exReg "japan" r 1000)
  { mag := 6.5, rup := 0, jb := 95, dip := 60, v := 1000, x := some (-95), tor := some 2, width := some 12 } "japan"
  (fun r => exReg_ask14 _ r _) (fun _ => exReg_agree _ _ _ _) (fun _ _ => exReg_dist _ _ _ _)
  (fun r => exReg_hwOk _ r _) (fun r => by rw [exReg_region]; simp) (fun _ => exReg_region _ _ _) (by norm_num)
