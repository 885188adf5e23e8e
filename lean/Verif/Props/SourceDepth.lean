import Verif.Props.Mechanism
import Verif.Props.CB14Mag
import Verif.Props.Rock


/-!
# C110: the depth of the source and the dip

Two scenarios that agree on every key but the depth to the top of the rupture (ASK14, CY14), the depth of the
hypocentre (CB14) or the dip (CY14, CB14).
-/

set_option linter.unusedSimpArgs false

theorem F.drops_getD {α : Type} {l : List α} {f f' : α → F} {i : ℕ} {c : α} (hc : l[i]? = some c)
    (h : F.Drops (f c) (f' c)) : F.Drops ((l.map f).getD i F.nan) ((l.map f').getD i F.nan) := by
  simpa only [List.getD_eq_getElem?_getD, List.getElem?_map, hc, Option.map_some, Option.getD_some] using h

/-! ## ASK14 -/

namespace ASK14

theorem tor_rows : ∀ c ∈ table, (c.period ≤ 4 → 0 < c.a15) ∧ (5 ≤ c.period → c.a15 < 0) := by decide +kernel

/-- raising the source term raises the ordinate, although the soil becomes more nonlinear -/
theorem resp_of_base {c : Row} (hc : c ∈ table) {g g' : Given} (k : Kind) (hr : g'.rup = g.rup) (hv : g'.v = g.v)
    (hz : g'.z1 = g.z1) (h180 : 180 ≤ g.v) (hb : (baseF c (g.toIn k)).val < (baseF c (g'.toIn k)).val) :
    (lnResp c (g.toIn k)).val < (lnResp c (g'.toIn k)).val := by
  have hx : refR c g k < refR c g' k := by
    unfold refR; rw [hr]; linarith
  have hd : refR c g' k - refR c g k = (baseF c (g'.toIn k)).val - (baseF c (g.toIn k)).val := by
    unfold refR; rw [hr]; ring
  have hs := f5R_slope hc h180 hx
  rw [resp_val hc, resp_val hc, hr, hv, hz]
  linarith

theorem given_tor {s t : Scenario} {g g' : Given} (h : Source s g) (h' : Source t g')
    (hst : AgreeExcept ["depth_tor"] s t) : g' = { g with tor := g'.tor } := by
  cases g; cases g'
  simp only [Given.mk.injEq]
  exact ⟨hst.num h.mag h'.mag, hst.num h.rup h'.rup, hst.num h.jb h'.jb, hst.num h.dip h'.dip, hst.num h.v h'.v,
    hst.opt h.x h'.x, hst.opt h.y0 h'.y0, hst.opt h.width h'.width, trivial, hst.opt h.z1 h'.z1,
    hst.opt h.crjb h'.crjb⟩

theorem base_tor (c : Row) (g : Given) (k : Kind) (hw : k.hw = false) {z z' : ℝ} (ht : g.tor = some z) :
    (baseF c ({ g with tor := some z' }.toIn k)).val = (baseF c (g.toIn k)).val +
      c.a15 * (min (max (z' / 20) 0) 1 - min (max (z / 20) 0) 1) := by
  have e1 : (g.toIn k).tor = F.ofReal z := by simp only [Given.toIn, Given.effTor, ht, F.orEst_some]
  have e2 : (({ g with tor := some z' } : Given).toIn k).tor = F.ofReal z' := by
    simp only [Given.toIn, Given.effTor, F.orEst_some]
  have e3 : (f11 c ({ g with tor := some z' }.toIn k)) = f11 c (g.toIn k) := rfl
  have hw1 : (g.toIn k).hw = false := hw
  have hw2 : (({ g with tor := some z' } : Given).toIn k).hw = false := hw
  unfold baseF
  rw [e1, e2, e3, hw1, hw2]
  simp only [f6, Bool.false_eq_true, if_false, fsimp]
  change (f1 c (F.ofReal g.mag) (F.ofReal g.rup)).val + _ + _ + (fMech c (F.ofReal g.mag) k.mech).val + _ =
    (f1 c (F.ofReal g.mag) (F.ofReal g.rup)).val + _ + _ + (fMech c (F.ofReal g.mag) k.mech).val + _ + _
  push_cast
  ring

theorem t4_deep {z : ℝ} (h : 20 ≤ z) : t4 (F.ofReal z) = 0 := by
  ext
  · simp only [t4, fsimp]
    rw [max_eq_right (by nlinarith)]
    norm_num
  · simp [t4]

theorem f6_deep (c : Row) {z : ℝ} (h : 20 ≤ z) : f6 c (F.ofReal z) = F.ofReal c.a15 := by
  ext
  · simp only [f6, fsimp]
    rw [max_eq_left (by positivity), min_eq_right (by linarith)]
    push_cast
    ring
  · simp [f6]

end ASK14

/-- ASK14 off the hanging wall: lowering the top of the rupture within the upper 20 km strictly raises PGA, PGV
and every ordinate up to 4 s, and strictly lowers the ordinates from 5 s on. -/
theorem C110_ask14_deeper (s t : Scenario) (g g' : ASK14.Given) (z z' : ℝ) (h : ASK14.Source s g)
    (h' : ASK14.Source t g') (hst : AgreeExcept ["depth_tor"] s t) (hw : ¬ (s.get "on_hanging_wall").isOn)
    (ht : g.tor = some z) (ht' : g'.tor = some z') (h0 : 0 ≤ z) (hzz : z < z') (h20 : z < 20)
    (hv : 180 ≤ g.v) (hz1 : ∀ z, g.z1 = some z → -0.01 < z) :
    ∃ o o', Gives ASK14.cls s o ∧ Gives ASK14.cls t o' ∧
      ∀ (i : ℕ) (c : ASK14.Row), ASK14.table[i]? = some c →
        (c.period ≤ 4 → F.Drops (o'.gmm.lnResp.getD i F.nan) (o.gmm.lnResp.getD i F.nan)) ∧
        (5 ≤ c.period → F.Drops (o.gmm.lnResp.getD i F.nan) (o'.gmm.lnResp.getD i F.nan)) := by
  have hk : ASK14.kindOf t = ASK14.kindOf s := ASK14.kindOf_agree hst (by decide)
  rw [← ASK14.hw_iff, Bool.not_eq_true] at hw
  have e := ASK14.given_tor h h' hst
  rw [ht'] at e
  have g2 := ASK14.gives h' (by simp [hk, hw])
  rw [hk, e] at g2
  have hv0 : 0 < g.v := by linarith
  refine ⟨_, _, ASK14.gives h (by simp [hw]), g2, fun i c hi => ?_⟩
  have hc : c ∈ ASK14.table := List.mem_of_getElem? hi
  have ok1 : (ASK14.lnResp c (g.toIn (ASK14.kindOf s))).ok := ASK14.resp_ok hc (fun e => by simp [hw] at e) hv0 hz1
  have ok2 : (ASK14.lnResp c ({ g with tor := some z' }.toIn (ASK14.kindOf s))).ok :=
    ASK14.resp_ok hc (fun e => by simp [hw] at e) hv0 hz1
  obtain ⟨p1, p2⟩ := ASK14.tor_rows c hc
  have hb := ASK14.base_tor c g (ASK14.kindOf s) hw (z' := z') ht
  have hlt : 0 < min (max (z' / 20) 0) 1 - min (max (z / 20) 0) 1 := by
    rw [max_eq_left (a := z' / 20) (div_nonneg (by linarith) (by norm_num)),
      max_eq_left (a := z / 20) (div_nonneg (by linarith) (by norm_num)), min_eq_left (a := z / 20) (by linarith), sub_pos]
    exact lt_min (by linarith) (by linarith)
  simp only [ASK14.out]
  refine ⟨fun hp => F.drops_getD hi ⟨ok2, ok1, ?_⟩, fun hp => F.drops_getD hi ⟨ok1, ok2, ?_⟩⟩
  · have ha : (0 : ℝ) < c.a15 := by exact_mod_cast p1 hp
    refine ASK14.resp_of_base hc _ rfl rfl rfl hv ?_
    have := mul_pos ha hlt
    linarith
  · have ha : (c.a15 : ℝ) < 0 := by exact_mod_cast p2 hp
    refine ASK14.resp_of_base (g' := g) hc _ rfl rfl rfl hv ?_
    have := mul_neg_of_neg_of_pos ha hlt
    linarith

/-- From 20 km on the depth of the top has no influence, on either wall. -/
theorem C110_ask14_deep (s t : Scenario) (g g' : ASK14.Given) (z z' : ℝ) (h : ASK14.Source s g)
    (h' : ASK14.Source t g') (hst : AgreeExcept ["depth_tor"] s t)
    (hx : (s.get "on_hanging_wall").isOn → g.x ≠ none)
    (ht : g.tor = some z) (ht' : g'.tor = some z') (h0 : 20 ≤ z) (h0' : 20 ≤ z') :
    ∃ o, Gives ASK14.cls s o ∧ Gives ASK14.cls t o := by
  have hk : ASK14.kindOf t = ASK14.kindOf s := ASK14.kindOf_agree hst (by decide)
  rw [← ASK14.hw_iff] at hx
  have e := ASK14.given_tor h h' hst
  rw [ht'] at e
  refine ⟨_, ASK14.gives h hx, ?_⟩
  have g2 := ASK14.gives h' (by rw [hk, e]; exact hx)
  rw [hk, e] at g2
  have e1 : (g.toIn (ASK14.kindOf s)).tor = F.ofReal z := by
    simp only [ASK14.Given.toIn, ASK14.Given.effTor, ht, F.orEst_some]
  have e2 : (({ g with tor := some z' } : ASK14.Given).toIn (ASK14.kindOf s)).tor = F.ofReal z' := by
    simp only [ASK14.Given.toIn, ASK14.Given.effTor, F.orEst_some]
  have q4 : ASK14.t4 (F.ofReal z') = ASK14.t4 (F.ofReal z) := by
    rw [ASK14.t4_deep h0, ASK14.t4_deep h0']
  rwa [ASK14.out_congr (i := g.toIn (ASK14.kindOf s))
    (j := ({ g with tor := some z' } : ASK14.Given).toIn (ASK14.kindOf s)) rfl rfl
    (fun c => by rw [e1, e2, ASK14.f6_deep c h0, ASK14.f6_deep c h0']) rfl rfl rfl rfl rfl
    (fun c => by
      unfold ASK14.f4
      rw [e1, e2, q4]
      rfl) (fun _ => rfl)] at g2

/-! ## CY14 -/

namespace CY14

theorem tor_rows : ∀ c ∈ table, (c.period ≤ 0.5 → 0 < c.c_7 ∧ 0 < c.c_7 + c.c_7b) ∧
    (0.75 ≤ c.period → c.c_7 + c.c_7b < 0) ∧ -(100 * c.c_7) < c.c_7b := by decide +kernel

theorem dip_rows : ∀ c ∈ table, c.c_11 = 0 ∧ c.c_11b < 0 := by decide +kernel

theorem given_tor {s t : Scenario} {g g' : Given} (h : Source s g) (h' : Source t g')
    (hst : AgreeExcept ["depth_tor"] s t) : g' = { g with tor := g'.tor } := by
  cases g; cases g'
  simp only [Given.mk.injEq]
  exact ⟨hst.num h.mag h'.mag, hst.num h.rup h'.rup, hst.num h.jb h'.jb, hst.num h.x h'.x, hst.num h.dip h'.dip,
    hst.num h.v h'.v, trivial, hst.opt h.z1 h'.z1, hst.opt h.dpp h'.dpp⟩

theorem given_dip {s t : Scenario} {g g' : Given} (h : Source s g) (h' : Source t g')
    (hst : AgreeExcept ["dip"] s t) : g' = { g with dip := g'.dip } := by
  cases g; cases g'
  simp only [Given.mk.injEq]
  exact ⟨hst.num h.mag h'.mag, hst.num h.rup h'.rup, hst.num h.jb h'.jb, hst.num h.x h'.x, trivial,
    hst.num h.v h'.v, hst.opt h.tor h'.tor, hst.opt h.z1 h'.z1, hst.opt h.dpp h'.dpp⟩

theorem hng_off (c : Row) {i : In} (h : i.hw = false) : (fHng c i).val = 0 := by
  simp [fHng, h]

theorem ref_tor (c : Row) (g : Given) (k : Kind) (hw : k.hw = false) {z z' : ℝ} (ht : g.tor = some z) :
    (lnRef c ({ g with tor := some z' }.toIn k)).val = (lnRef c (g.toIn k)).val +
      (c.c_7 + c.c_7b / (coshMag (F.ofReal g.mag)).val) * (z' - z) := by
  rw [lnRef_val, lnRef_val, hng_off c (i := g.toIn k) hw,
    hng_off c (i := ({ g with tor := some z' } : Given).toIn k) hw]
  have e1 : (baseF c (g.toIn k)).val = c.c_1 + (fFlt c (F.ofReal g.mag) k.mech).val +
      (fMag c (F.ofReal g.mag)).val + (fTor c (F.ofReal g.mag) (g.effTor k) k.mech).val +
      (fDip c (F.ofReal g.mag) (F.ofReal g.dip)).val := rfl
  have e2 : (baseF c ({ g with tor := some z' }.toIn k)).val = c.c_1 + (fFlt c (F.ofReal g.mag) k.mech).val +
      (fMag c (F.ofReal g.mag)).val + (fTor c (F.ofReal g.mag) (({ g with tor := some z' } : Given).effTor k) k.mech).val +
      (fDip c (F.ofReal g.mag) (F.ofReal g.dip)).val := rfl
  have e3 : g.effTor k = F.ofReal z := by simp only [Given.effTor, ht, F.orEst_some]
  have e4 : ({ g with tor := some z' } : Given).effTor k = F.ofReal z' := by simp only [Given.effTor, F.orEst_some]
  rw [e1, e2, e3, e4]
  simp only [fTor, fsimp]
  ring

theorem ref_dip (c : Row) (g : Given) (k : Kind) (hw : k.hw = false) (d' : ℝ) :
    (lnRef c ({ g with dip := d' }.toIn k)).val = (lnRef c (g.toIn k)).val +
      (c.c_11 + c.c_11b / (coshMag (F.ofReal g.mag)).val) *
        (Real.cos (d' * (Real.pi / 180)) ^ 2 - Real.cos (g.dip * (Real.pi / 180)) ^ 2) := by
  rw [lnRef_val, lnRef_val, hng_off c (i := g.toIn k) hw,
    hng_off c (i := ({ g with dip := d' } : Given).toIn k) hw]
  have e1 : ∀ d : ℝ, (baseF c ({ g with dip := d }.toIn k)).val = c.c_1 + (fFlt c (F.ofReal g.mag) k.mech).val +
      (fMag c (F.ofReal g.mag)).val + (fTor c (F.ofReal g.mag) (g.effTor k) k.mech).val +
      (fDip c (F.ofReal g.mag) (F.ofReal d)).val := fun _ => rfl
  have e2 := e1 g.dip
  change (baseF c (g.toIn k)).val = _ at e2
  rw [e1, e2]
  simp only [fDip, fsimp]
  ring

/-- from magnitude 7.5 on the hyperbolic cosine is beyond 100 -/
theorem cosh_huge {m : ℝ} (h : 7.5 ≤ m) : 100 < (coshMag (F.ofReal m)).val := by
  simp only [coshMag, fsimp]
  rw [max_eq_left (by linarith)]
  have h6 : (6 : ℝ) ≤ 2 * (m - 4.5) := by linarith
  have h1 : (200 : ℝ) < (Bounds.expLo 6 : ℚ) := by exact_mod_cast (by decide +kernel : (200 : ℚ) < Bounds.expLo 6)
  have h2 := Bounds.expLo_le (q := 6) (by norm_num)
  rw [Rat.cast_ofNat] at h2
  have h4 : Real.exp 6 ≤ Real.exp (2 * (m - 4.5)) := Real.exp_le_exp.2 h6
  rw [Real.cosh_eq]
  have := Real.exp_pos (-(2 * (m - 4.5)))
  linarith

theorem cosh_ge_one (m : ℝ) : 1 ≤ (coshMag (F.ofReal m)).val := by
  simp only [coshMag, fsimp]
  exact Real.one_le_cosh _

end CY14

/-- CY14 off the hanging wall: lowering the top of the rupture strictly raises PGA, PGV and every ordinate up to
0.5 s at every magnitude; from magnitude 7.5 on it raises all 26 ordinates; up to magnitude 4.5 it strictly lowers
the ordinates from 0.75 s on. -/
theorem C110_cy14_deeper (s t : Scenario) (g g' : CY14.Given) (z z' : ℝ) (h : CY14.Source s g)
    (h' : CY14.Source t g') (hst : AgreeExcept ["depth_tor"] s t) (hw : ¬ (s.get "on_hanging_wall").isOn)
    (ht : g.tor = some z) (ht' : g'.tor = some z') (hzz : z < z') (hr : 0 ≤ g.rup) (hv : 180 ≤ g.v) :
    ∃ o o', Gives CY14.cls s o ∧ Gives CY14.cls t o' ∧
      ∀ (i : ℕ) (c : CY14.Row), CY14.table[i]? = some c →
        (c.period ≤ 0.5 ∨ 7.5 ≤ g.mag → F.Drops (o'.gmm.lnResp.getD i F.nan) (o.gmm.lnResp.getD i F.nan)) ∧
        (0.75 ≤ c.period ∧ g.mag ≤ 4.5 → F.Drops (o.gmm.lnResp.getD i F.nan) (o'.gmm.lnResp.getD i F.nan)) := by
  have hk : CY14.kindOf t = CY14.kindOf s := CY14.kindOf_agree hst (by decide)
  rw [← CY14.hw_iff, Bool.not_eq_true] at hw
  have e := CY14.given_tor h h' hst
  rw [ht'] at e
  have g2 := CY14.gives h'
  rw [hk, e] at g2
  have hv0 : 0 < g.v := by linarith
  refine ⟨_, _, CY14.gives h, g2, fun i c hi => ?_⟩
  have hc : c ∈ CY14.table := List.mem_of_getElem? hi
  have ok1 : (CY14.lnResp c (g.toIn (CY14.kindOf s))).ok := CY14.lnResp_ok hc hr hv0 _
  have ok2 : (CY14.lnResp c ({ g with tor := some z' }.toIn (CY14.kindOf s))).ok :=
    CY14.lnResp_ok (g := { g with tor := some z' }) hc hr hv0 _
  obtain ⟨p1, p2, p3⟩ := CY14.tor_rows c hc
  have p3' : -(100 * (c.c_7 : ℝ)) < c.c_7b := by exact_mod_cast p3
  have hb := CY14.ref_tor c g (CY14.kindOf s) hw (z' := z') ht
  have hC := CY14.cosh_ge_one g.mag
  have hdz : 0 < z' - z := sub_pos.2 hzz
  have v1 := CY14.lnResp_val c g (CY14.kindOf s)
  have v2 := CY14.lnResp_val c { g with tor := some z' } (CY14.kindOf s)
  have hmono := CY14.respR_strictMono hc hv (g.effZ1 (CY14.kindOf s)).val (decide ((CY14.kindOf s).reg = .japan))
  simp only [CY14.out]
  refine ⟨fun hp => F.drops_getD hi ⟨ok2, ok1, ?_⟩, fun hp => F.drops_getD hi ⟨ok1, ok2, ?_⟩⟩
  · rw [v1, v2]
    refine hmono ?_
    have hpos : 0 < (c.c_7 : ℝ) + c.c_7b / (CY14.coshMag (F.ofReal g.mag)).val := by
      have hC0 : 0 < (CY14.coshMag (F.ofReal g.mag)).val := by linarith
      rw [← mul_lt_mul_iff_left₀ hC0, zero_mul, add_mul, div_mul_cancel₀ _ hC0.ne']
      rcases hp with hp | hp
      · have a1 : (0 : ℝ) < c.c_7 := by exact_mod_cast (p1 hp).1
        have a2 : (0 : ℝ) < c.c_7 + c.c_7b := by exact_mod_cast (p1 hp).2
        have := mul_le_mul_of_nonneg_left hC a1.le
        linarith
      · have a1 : (0 : ℝ) < c.c_7 := by exact_mod_cast (by decide +kernel : ∀ c ∈ CY14.table, 0 < c.c_7) c hc
        have := mul_lt_mul_of_pos_left (CY14.cosh_huge hp) a1
        linarith
    have := mul_pos hpos hdz
    linarith
  · rw [v1, v2]
    refine hmono ?_
    have a2 : (c.c_7 : ℝ) + c.c_7b < 0 := by exact_mod_cast p2 hp.1
    rw [CY14.cosh_small hp.2, div_one] at hb
    have := mul_neg_of_neg_of_pos a2 hdz
    linarith

/-- CY14 off the hanging wall: a steeper fault (within 0 to 90 degrees) has strictly larger ordinates. -/
theorem C110_cy14_dip (s t : Scenario) (g g' : CY14.Given) (h : CY14.Source s g)
    (h' : CY14.Source t g') (hst : AgreeExcept ["dip"] s t) (hw : ¬ (s.get "on_hanging_wall").isOn)
    (h0 : 0 ≤ g.dip) (hdd : g.dip < g'.dip) (h90 : g'.dip ≤ 90) (hr : 0 ≤ g.rup) (hv : 180 ≤ g.v) :
    ∃ o o', Gives CY14.cls s o ∧ Gives CY14.cls t o' ∧ o.gmm.lnResp.length = 26 ∧
      List.Forall₂ F.Drops o'.gmm.lnResp o.gmm.lnResp := by
  have hk : CY14.kindOf t = CY14.kindOf s := CY14.kindOf_agree hst (by decide)
  rw [← CY14.hw_iff, Bool.not_eq_true] at hw
  have e := CY14.given_dip h h' hst
  have g2 := CY14.gives h'
  rw [hk, e] at g2
  have hv0 : 0 < g.v := by linarith
  refine ⟨_, _, CY14.gives h, g2, by simp [CY14.out, CY14.table_length], ?_⟩
  simp only [CY14.out]
  refine forall₂_map fun c hc => ⟨CY14.lnResp_ok (g := { g with dip := g'.dip }) hc hr hv0 _,
    CY14.lnResp_ok hc hr hv0 _, ?_⟩
  have hb := CY14.ref_dip c g (CY14.kindOf s) hw g'.dip
  have v1 := CY14.lnResp_val c g (CY14.kindOf s)
  have v2 := CY14.lnResp_val c { g with dip := g'.dip } (CY14.kindOf s)
  have hmono := CY14.respR_strictMono hc hv (g.effZ1 (CY14.kindOf s)).val (decide ((CY14.kindOf s).reg = .japan))
  rw [v1, v2]
  refine hmono ?_
  obtain ⟨q1, q2⟩ := CY14.dip_rows c hc
  have q2' : (c.c_11b : ℝ) < 0 := by exact_mod_cast q2
  have hC := CY14.cosh_ge_one g.mag
  have hcos : Real.cos (g'.dip * (Real.pi / 180)) < Real.cos (g.dip * (Real.pi / 180)) := by
    apply Real.cos_lt_cos_of_nonneg_of_le_pi
    · positivity
    · have := mul_le_mul_of_nonneg_right h90 (by positivity : (0:ℝ) ≤ Real.pi / 180)
      linarith [Real.pi_pos]
    · exact mul_lt_mul_of_pos_right hdd (by positivity)
  have hc0 : 0 ≤ Real.cos (g'.dip * (Real.pi / 180)) := by
    apply Real.cos_nonneg_of_neg_pi_div_two_le_of_le
    · have : 0 ≤ g'.dip * (Real.pi / 180) := mul_nonneg (by linarith) (by positivity)
      linarith [Real.pi_pos]
    · have := mul_le_mul_of_nonneg_right h90 (by positivity : (0:ℝ) ≤ Real.pi / 180)
      linarith [Real.pi_pos]
  have hsq := pow_lt_pow_left₀ hcos hc0 (n := 2) (by norm_num)
  rw [q1, Rat.cast_zero, zero_add] at hb
  have := mul_pos_of_neg_of_neg (div_neg_of_neg_of_pos q2' (by linarith : 0 < (CY14.coshMag (F.ofReal g.mag)).val))
    (sub_neg.2 hsq)
  linarith

/-! ## CB14 -/

namespace CB14

theorem hyp_rows : ∀ c ∈ table, 0 < c.c_18 ∧ (c.period ≤ 0.5 → 0 < c.c_17) ∧
    (0.75 ≤ c.period ∧ c.period ≤ 7.5 → c.c_17 < 0) ∧ 0 < c.c_19 := by decide +kernel

theorem given_hyp {s t : Scenario} {g g' : Given} (h : Source s g) (h' : Source t g')
    (hst : AgreeExcept ["depth_hyp"] s t) : g' = { g with hyp := g'.hyp } := by
  cases g; cases g'
  simp only [Given.mk.injEq]
  exact ⟨hst.num h.mag h'.mag, hst.num h.rup h'.rup, hst.num h.jb h'.jb, hst.num h.x h'.x, hst.num h.dip h'.dip,
    hst.num h.v h'.v, hst.opt h.bot h'.bot, hst.opt h.z1 h'.z1, hst.opt h.z25 h'.z25, hst.opt h.bor h'.bor,
    trivial, hst.opt h.tor h'.tor, hst.opt h.width h'.width⟩

theorem given_dip {s t : Scenario} {g g' : Given} (h : Source s g) (h' : Source t g')
    (hst : AgreeExcept ["dip"] s t) : g' = { g with dip := g'.dip } := by
  cases g; cases g'
  simp only [Given.mk.injEq]
  exact ⟨hst.num h.mag h'.mag, hst.num h.rup h'.rup, hst.num h.jb h'.jb, hst.num h.x h'.x, trivial,
    hst.num h.v h'.v, hst.opt h.bot h'.bot, hst.opt h.z1 h'.z1, hst.opt h.z25 h'.z25, hst.opt h.bor h'.bor,
    hst.opt h.hyp h'.hyp, hst.opt h.tor h'.tor, hst.opt h.width h'.width⟩

theorem rest_hyp (c : Row) (g : Given) {z : ℝ} (hz : g.hyp = some z) (mech : Mech) (reg : Reg) (z' : ℝ) :
    (rest c (({ g with hyp := some z' } : Given).toIn mech reg)).val = (rest c (g.toIn mech reg)).val +
      (c.c_17 + (c.c_18 - c.c_17) * min (max (g.mag - 5.5) 0) 1) *
        (min (max (z' - 7) 0) 13 - min (max (z - 7) 0) 13) := by
  have e1 : ∀ y : ℝ, ({ g with hyp := some y } : Given).effHyp mech = F.ofReal y := fun y => by
    simp only [Given.effHyp, F.orEst_some]
  have e3 : ∀ y : ℝ, (rest c (({ g with hyp := some y } : Given).toIn mech reg)).val =
      (fMag c (F.ofReal g.mag)).val + (fDis c (F.ofReal g.mag) (F.ofReal g.rup)).val +
      (fFlt c (F.ofReal g.mag) mech).val + (fHng c (g.toIn mech reg)).val +
      (fHyp c (F.ofReal g.mag) (({ g with hyp := some y } : Given).effHyp mech)).val +
      (fDip c (F.ofReal g.mag) (F.ofReal g.dip)).val + (fAtn c (F.ofReal g.rup) reg).val := fun y => rfl
  have e4 := e3 z
  have hg : ({ g with hyp := some z } : Given) = g := by rw [← hz]
  have e5 : g.effHyp mech = F.ofReal z := by simp only [Given.effHyp, hz, F.orEst_some]
  rw [hg] at e4
  rw [e3 z', e4, e1, e5]
  simp only [fHyp, fsimp]
  push_cast
  ring

theorem rest_dip (c : Row) (g : Given) (hx : g.x < 0) {z : ℝ} (hz : g.hyp = some z) (mech : Mech) (reg : Reg)
    (d' : ℝ) :
    (rest c (({ g with dip := d' } : Given).toIn mech reg)).val = (rest c (g.toIn mech reg)).val +
      c.c_19 * min (max (5.5 - g.mag) 0) 1 * (d' - g.dip) := by
  have e1 : ∀ d : ℝ, ({ g with dip := d } : Given).effHyp mech = F.ofReal z := fun d => by
    simp only [Given.effHyp, hz, F.orEst_some]
  have e2 : ∀ d : ℝ, (fHng c (({ g with dip := d } : Given).toIn mech reg)).val = 0 := fun d => by
    simp only [fHng, fHngRx, Given.toIn, fsimp, hx, if_true]; ring
  have e3 : ∀ d : ℝ, (rest c (({ g with dip := d } : Given).toIn mech reg)).val =
      (fMag c (F.ofReal g.mag)).val + (fDis c (F.ofReal g.mag) (F.ofReal g.rup)).val +
      (fFlt c (F.ofReal g.mag) mech).val + (fHng c (({ g with dip := d } : Given).toIn mech reg)).val +
      (fHyp c (F.ofReal g.mag) (({ g with dip := d } : Given).effHyp mech)).val +
      (fDip c (F.ofReal g.mag) (F.ofReal d)).val + (fAtn c (F.ofReal g.rup) reg).val := fun d => rfl
  have e4 := e3 g.dip
  change (rest c (g.toIn mech reg)).val = _ at e4
  rw [e3 d', e4, e1, e1, e2, e2]
  simp only [fDip, fsimp]
  push_cast
  ring

/-- on rock an ordinate moves with its own source term -/
theorem resp_of_rest {c : Row} (hc : c ∈ table) {g g' : Given} (mech : Mech) (reg : Reg) (hv : g'.v = g.v)
    (hz : g'.effZ25 reg = g.effZ25 reg) (h : 1100 ≤ g.v)
    (hb : (rest c (g.toIn mech reg)).val < (rest c (g'.toIn mech reg)).val) :
    (lnResp c (g.toIn mech reg) (some (pgaRef (g.toIn mech reg))) (F.ofReal g.v)).val <
      (lnResp c (g'.toIn mech reg) (some (pgaRef (g'.toIn mech reg))) (F.ofReal g'.v)).val := by
  have hk : (c.k_1 : ℝ) < g.v := by
    have : (c.k_1 : ℝ) ≤ 1086 := by exact_mod_cast (rock_rows c hc).1
    linarith
  rw [resp_val, resp_val, hv, hz]
  have := siteR_rock hk (pgaRef (g.toIn mech reg)).val (pgaRef (g'.toIn mech reg)).val
  simp only [surfR, this]
  linarith

/-- PGA moves with its source term on every site of at least 150 m/s -/
theorem pga_of_rest {g g' : Given} (mech : Mech) (reg : Reg) (hv : g'.v = g.v)
    (hz : g'.effZ25 reg = g.effZ25 reg) (h : 150 ≤ g.v)
    (hb : (rest pgaRow (g.toIn mech reg)).val < (rest pgaRow (g'.toIn mech reg)).val) :
    (lnResp pgaRow (g.toIn mech reg) (some (pgaRef (g.toIn mech reg))) (F.ofReal g.v)).val <
      (lnResp pgaRow (g'.toIn mech reg) (some (pgaRef (g'.toIn mech reg))) (F.ofReal g'.v)).val := by
  rw [resp_val, resp_val, hv, hz, pgaRef_rest, pgaRef_rest]
  obtain ⟨p1, p2⟩ := pgaRow_facts
  refine surf_drop pgaRow_mem (s := 0.35) (by norm_num) h (by norm_num) (by norm_num)
    (by rw [p1]; norm_num) (by linarith) _ ?_
  rw [p2]
  push_cast
  linarith

end CB14

/-- CB14 on rock: lowering the hypocentre within 7 to 20 km strictly raises every ordinate from magnitude 6.5 on;
up to magnitude 5.5 it raises PGA, PGV and the ordinates up to 0.5 s and strictly lowers those from 0.75 to
7.5 s. -/
theorem C110_cb14_deeper (s t : Scenario) (g g' : CB14.Given) (z z' : ℝ) (h : CB14.Source s g)
    (h' : CB14.Source t g') (hst : AgreeExcept ["depth_hyp"] s t)
    (hr : CB14.Regular g (CB14.mechOf (s.get "mechanism"))) (hz : g.hyp = some z) (hz' : g'.hyp = some z')
    (h7 : 7 ≤ z) (hzz : z < z') (h20 : z < 20) (hv : 1100 ≤ g.v) :
    ∃ o o', Gives CB14.cls s o ∧ Gives CB14.cls t o' ∧
      ∀ (i : ℕ) (c : CB14.Row), CB14.table[i]? = some c →
        (6.5 ≤ g.mag ∨ (c.period ≤ 0.5 ∧ g.mag ≤ 5.5) →
          F.Drops (o'.gmm.lnResp.getD i F.nan) (o.gmm.lnResp.getD i F.nan)) ∧
        (0.75 ≤ c.period ∧ c.period ≤ 7.5 ∧ g.mag ≤ 5.5 →
          F.Drops (o.gmm.lnResp.getD i F.nan) (o'.gmm.lnResp.getD i F.nan)) := by
  have e := CB14.given_hyp h h' hst
  rw [hz'] at e
  have hv0 : 0 < g.v := by linarith
  have g2 := CB14.gives h' (by rw [e]; exact hv0.ne')
  rw [hst "mechanism" (by decide), hst "region" (by decide), e] at g2
  set mech := CB14.mechOf (s.get "mechanism")
  set reg := CB14.regOf (s.get "region")
  have hr' : CB14.Regular { g with hyp := some z' } mech := ⟨hr.dip, hr.hw⟩
  have hd : 0 < min (max (z' - 7) 0) 13 - min (max (z - 7) 0) 13 := by
    rw [max_eq_left (a := z - 7) (by linarith), max_eq_left (a := z' - 7) (by linarith),
      min_eq_left (a := z - 7) (by linarith), sub_pos]
    exact lt_min (by linarith) (by linarith)
  refine ⟨_, _, CB14.gives h hv0.ne', g2, fun i c hi => ?_⟩
  have hc : c ∈ CB14.table := List.mem_of_getElem? hi
  obtain ⟨q1, q2, q3, -⟩ := CB14.hyp_rows c hc
  have q1' : (0 : ℝ) < c.c_18 := by exact_mod_cast q1
  have hb := CB14.rest_hyp c g hz mech reg z'
  have ok1 := CB14.resp_ok hc hr hv0 reg
  have ok2 := CB14.resp_ok (g := { g with hyp := some z' }) hc hr' hv0 reg
  simp only [CB14.out]
  refine ⟨fun hp => F.drops_getD hi ⟨ok2, ok1, ?_⟩, fun hp => F.drops_getD hi ⟨ok1, ok2, ?_⟩⟩
  · refine CB14.resp_of_rest (g' := { g with hyp := some z' }) hc mech reg rfl rfl hv ?_
    rcases hp with hm | ⟨hp, hm⟩
    · rw [max_eq_left (a := g.mag - 5.5) (by linarith), min_eq_right (a := g.mag - 5.5) (by linarith)] at hb
      have := mul_pos q1' hd
      linarith
    · have q2' : (0 : ℝ) < c.c_17 := by exact_mod_cast q2 hp
      rw [max_eq_right (a := g.mag - 5.5) (by linarith), min_eq_left (a := (0 : ℝ)) (by norm_num)] at hb
      have := mul_pos q2' hd
      linarith
  · refine CB14.resp_of_rest (g := { g with hyp := some z' }) (g' := g) hc mech reg rfl rfl hv ?_
    have q3' : (c.c_17 : ℝ) < 0 := by exact_mod_cast q3 ⟨hp.1, hp.2.1⟩
    rw [max_eq_right (a := g.mag - 5.5) (by linarith [hp.2.2]), min_eq_left (a := (0 : ℝ)) (by norm_num)] at hb
    have := mul_neg_of_neg_of_pos q3' hd
    linarith

/-- On every site of at least 150 m/s, at every magnitude, the deeper hypocentre strictly raises PGA. -/
theorem C110_cb14_deeper_pga (s t : Scenario) (g g' : CB14.Given) (z z' : ℝ) (h : CB14.Source s g)
    (h' : CB14.Source t g') (hst : AgreeExcept ["depth_hyp"] s t)
    (hr : CB14.Regular g (CB14.mechOf (s.get "mechanism"))) (hz : g.hyp = some z) (hz' : g'.hyp = some z')
    (h7 : 7 ≤ z) (hzz : z < z') (h20 : z < 20) (hv : 150 ≤ g.v) :
    ∃ o o', Gives CB14.cls s o ∧ Gives CB14.cls t o' ∧
      F.Drops (o'.gmm.lnResp.getD 21 F.nan) (o.gmm.lnResp.getD 21 F.nan) := by
  have e := CB14.given_hyp h h' hst
  rw [hz'] at e
  have hv0 : 0 < g.v := by linarith
  have g2 := CB14.gives h' (by rw [e]; exact hv0.ne')
  rw [hst "mechanism" (by decide), hst "region" (by decide), e] at g2
  set mech := CB14.mechOf (s.get "mechanism")
  set reg := CB14.regOf (s.get "region")
  have hr' : CB14.Regular { g with hyp := some z' } mech := ⟨hr.dip, hr.hw⟩
  have hd : 0 < min (max (z' - 7) 0) 13 - min (max (z - 7) 0) 13 := by
    rw [max_eq_left (a := z - 7) (by linarith), max_eq_left (a := z' - 7) (by linarith),
      min_eq_left (a := z - 7) (by linarith), sub_pos]
    exact lt_min (by linarith) (by linarith)
  refine ⟨_, _, CB14.gives h hv0.ne', g2, ?_⟩
  have hc := CB14.pgaRow_mem
  have hb := CB14.rest_hyp CB14.pgaRow g hz mech reg z'
  refine ⟨CB14.resp_ok (g := { g with hyp := some z' }) hc hr' hv0 reg, CB14.resp_ok hc hr hv0 reg, ?_⟩
  refine CB14.pga_of_rest (g' := { g with hyp := some z' }) mech reg rfl rfl hv ?_
  have q1 : (0 : ℝ) < CB14.pgaRow.c_17 := by exact_mod_cast (by decide +kernel : (0 : ℚ) < CB14.pgaRow.c_17)
  have q2 : (0 : ℝ) < CB14.pgaRow.c_18 := by exact_mod_cast (by decide +kernel : (0 : ℚ) < CB14.pgaRow.c_18)
  have a0 : 0 ≤ min (max (g.mag - 5.5) 0) 1 := le_min (le_max_right _ _) (by norm_num)
  have a1 : min (max (g.mag - 5.5) 0) 1 ≤ 1 := min_le_right _ _
  generalize min (max (g.mag - 5.5) 0) 1 = a at *
  have hpos : 0 < (CB14.pgaRow.c_17 : ℝ) + (CB14.pgaRow.c_18 - CB14.pgaRow.c_17) * a := by
    have b1 := mul_nonneg q1.le (sub_nonneg.2 a1)
    have b2 := mul_nonneg q2.le a0
    rcases eq_or_lt_of_le a0 with h | h
    · rw [← h]; linarith
    · have := mul_pos q2 h
      linarith
  have := mul_pos hpos hd
  linarith

/-- CB14: hypocentres above 7 km are all the same, and so are those below 20 km. -/
theorem C110_cb14_shallow_or_deep (s t : Scenario) (g g' : CB14.Given) (z z' : ℝ) (h : CB14.Source s g)
    (h' : CB14.Source t g') (hst : AgreeExcept ["depth_hyp"] s t) (hz : g.hyp = some z) (hz' : g'.hyp = some z')
    (hv : g.v ≠ 0) (hzz : (z ≤ 7 ∧ z' ≤ 7) ∨ (20 ≤ z ∧ 20 ≤ z')) :
    ∃ o, Gives CB14.cls s o ∧ Gives CB14.cls t o := by
  have e := CB14.given_hyp h h' hst
  rw [hz'] at e
  have g2 := CB14.gives h' (by rw [e]; exact hv)
  rw [hst "mechanism" (by decide), hst "region" (by decide), e] at g2
  refine ⟨_, CB14.gives h hv, ?_⟩
  set mech := CB14.mechOf (s.get "mechanism")
  set reg := CB14.regOf (s.get "region")
  have e1 : ∀ y : ℝ, ({ g with hyp := some y } : CB14.Given).effHyp mech = F.ofReal y := fun y => by
    simp only [CB14.Given.effHyp, F.orEst_some]
  have e5 : g.effHyp mech = F.ofReal z := by simp only [CB14.Given.effHyp, hz, F.orEst_some]
  have key : ∀ c m, CB14.fHyp c m (({ g with hyp := some z' } : CB14.Given).effHyp mech) =
      CB14.fHyp c m (g.effHyp mech) := by
    intro c m
    rw [e1, e5]
    ext
    · simp only [CB14.fHyp, fsimp]
      push_cast
      rcases hzz with ⟨a, b⟩ | ⟨a, b⟩
      · rw [max_eq_right (a := z' - 7) (by linarith), max_eq_right (a := z - 7) (by linarith)]
      · rw [max_eq_left (a := z' - 7) (by linarith), max_eq_left (a := z - 7) (by linarith),
          min_eq_right (a := z' - 7) (by linarith), min_eq_right (a := z - 7) (by linarith)]
    · simp [CB14.fHyp]
  have e0 : ∀ c p v, CB14.lnResp c (({ g with hyp := some z' } : CB14.Given).toIn mech reg) p v =
      CB14.lnResp c (g.toIn mech reg) p v := by
    intro c p v
    have k := key c (F.ofReal g.mag)
    unfold CB14.lnResp
    change _ + CB14.fHyp c (F.ofReal g.mag) (({ g with hyp := some z' } : CB14.Given).effHyp mech) + _ + _ = _
    rw [k]
    rfl
  have e2 : CB14.pgaRef (({ g with hyp := some z' } : CB14.Given).toIn mech reg) = CB14.pgaRef (g.toIn mech reg) := by
    unfold CB14.pgaRef; simp only [e0]
  have e3 : CB14.out (({ g with hyp := some z' } : CB14.Given).toIn mech reg) = CB14.out (g.toIn mech reg) := by
    unfold CB14.out
    simp only [e0, e2]
    rfl
  rwa [e3] at g2

/-- CB14 on the footwall below magnitude 5.5: a steeper fault strictly raises every ordinate on rock, and PGA on
every site of at least 150 m/s.  (From 5.5 on the dip does not matter there, C108.) -/
theorem C110_cb14_dip (s t : Scenario) (g g' : CB14.Given) (z : ℝ) (h : CB14.Source s g)
    (h' : CB14.Source t g') (hst : AgreeExcept ["dip"] s t) (hx : g.x < 0) (hz : g.hyp = some z)
    (h0 : 0 < g.dip) (hdd : g.dip < g'.dip) (h90 : g'.dip ≤ 90) (hm : g.mag < 5.5) (hv : 150 ≤ g.v) :
    ∃ o o', Gives CB14.cls s o ∧ Gives CB14.cls t o' ∧ o.gmm.lnResp.length = 23 ∧
      F.Drops (o'.gmm.lnResp.getD 21 F.nan) (o.gmm.lnResp.getD 21 F.nan) ∧
      (1100 ≤ g.v → List.Forall₂ F.Drops o'.gmm.lnResp o.gmm.lnResp) := by
  have e := CB14.given_dip h h' hst
  have hv0 : 0 < g.v := by linarith
  have g2 := CB14.gives h' (by rw [e]; exact hv0.ne')
  rw [hst "mechanism" (by decide), hst "region" (by decide), e] at g2
  set mech := CB14.mechOf (s.get "mechanism")
  set reg := CB14.regOf (s.get "region")
  have hr : CB14.Regular g mech := .given hx ⟨h0, by linarith⟩ hz
  have hr' : CB14.Regular { g with dip := g'.dip } mech :=
    .given (g := { g with dip := g'.dip }) hx ⟨by change 0 < g'.dip; linarith, h90⟩ hz
  have hb : ∀ c ∈ CB14.table, (CB14.rest c (g.toIn mech reg)).val <
      (CB14.rest c (({ g with dip := g'.dip } : CB14.Given).toIn mech reg)).val := fun c hc => by
    rw [CB14.rest_dip c g hx hz mech reg g'.dip]
    have q : (0 : ℝ) < c.c_19 := by exact_mod_cast (CB14.hyp_rows c hc).2.2.2
    have : 0 < min (max (5.5 - g.mag) 0) 1 := lt_min (lt_max_of_lt_left (by linarith)) (by norm_num)
    have := mul_pos (mul_pos q this) (sub_pos.2 hdd)
    linarith
  refine ⟨_, _, CB14.gives h hv0.ne', g2, by simp [CB14.out, CB14.table_length], ?_, fun h11 => ?_⟩
  · have hc := CB14.pgaRow_mem
    refine ⟨CB14.resp_ok (g := { g with dip := g'.dip }) hc hr' hv0 reg, CB14.resp_ok hc hr hv0 reg, ?_⟩
    exact CB14.pga_of_rest (g' := { g with dip := g'.dip }) mech reg rfl rfl hv (hb _ hc)
  · simp only [CB14.out]
    exact forall₂_map fun c hc => ⟨CB14.resp_ok (g := { g with dip := g'.dip }) hc hr' hv0 reg,
      CB14.resp_ok hc hr hv0 reg,
      CB14.resp_of_rest (g' := { g with dip := g'.dip }) hc mech reg rfl rfl h11 (hb c hc)⟩

/-! ## AGA16 -/

namespace AGA16

theorem depth_rows : ∀ c ∈ table, (c.period ≤ 5 → 0 < c.t_11) ∧ (6 ≤ c.period → c.t_11 < 0) := by decide +kernel

theorem A_depth (c : Row) (adj m z z' : ℝ) :
    A c .intraslab adj m z' = A c .intraslab adj m z + c.t_11 * (min z' 120 - min z 120) := by
  simp only [A, if_true]
  ring

end AGA16

/-- AbrahamsonGregorAddo2016, intraslab event: lowering the hypocentre above 120 km strictly raises PGA on every
site of at least 150 m/s; on rock it strictly raises every ordinate up to 5 s and strictly lowers those from 6 s on. -/
theorem C110_aga16_deeper (s s' : Scenario) (m v d z z' : ℝ) (r : Option String) (rup : Option ℝ)
    (a : AGA16.Adjust) (c4 sc : ℝ) (h : AGA16.Source s m v "intraslab" r rup (some d) (some z))
    (h' : AGA16.Source s' m v "intraslab" r rup (some d) (some z')) (ha : ∀ l, a = .array l → l.length = 23)
    (hd : 0 ≤ d) (hzz : z < z') (h120 : z < 120) (hv : 150 ≤ v) :
    ∃ o o', Gives (AGA16.cls a c4 sc) s o ∧ Gives (AGA16.cls a c4 sc) s' o' ∧
      F.Drops (o'.gmm.lnResp.getD 0 F.nan) (o.gmm.lnResp.getD 0 F.nan) ∧
      (1100 ≤ v → ∀ (k : ℕ) (c : AGA16.Row), AGA16.table[k]? = some c →
        (c.period ≤ 5 → F.Drops (o'.gmm.lnResp.getD k F.nan) (o.gmm.lnResp.getD k F.nan)) ∧
        (6 ≤ c.period → F.Drops (o.gmm.lnResp.getD k F.nan) (o'.gmm.lnResp.getD k F.nan))) := by
  obtain ⟨adj, hadj⟩ : ∃ adj, AGA16.adjust (AGA16.table.map (·.period)) (AGA16.evFor "intraslab") a = pure adj := by
    cases a with
    | default => exact ⟨_, rfl⟩
    | scalar x => exact ⟨_, rfl⟩
    | array l =>
      refine ⟨l.map F.ofReal, ?_⟩
      simp only [AGA16.adjust]
      rw [if_pos (by rw [ha l rfl, List.length_map]; rfl)]
  have hv0 : 0 < v := by linarith
  have hmin : 0 < min z' 120 - min z 120 := by
    rw [min_eq_left h120.le, sub_pos]
    exact lt_min hzz h120
  have hev : AGA16.evFor "intraslab" = .intraslab := rfl
  obtain ⟨hl, hok⟩ := AGA16.adjust_ok hadj
  refine ⟨_, _, AGA16.gives h rfl (fun _ => rfl) (fun _ => by decide) c4 sc hadj,
    AGA16.gives h' rfl (fun _ => rfl) (fun _ => by decide) c4 sc hadj, ?_, ?_⟩
  · obtain ⟨r0, hr0, hh, hvl, hb⟩ := AGA16.head_eq
    match adj, hl with
    | a0 :: adj, _ =>
    rw [AGA16.head_resp hh, AGA16.head_resp hh]
    obtain ⟨-, -, -, h4, -, h5, -⟩ := AGA16.row_facts r0 hr0
    have ha0 := hok a0 (by simp)
    obtain ⟨hr1, hr2⟩ := AGA16.fSite_ref (b := r0.b) (n := r0.n) (c := r0.c) (t12 := r0.t_12)
      (v := F.ofReal v) (by rw [hvl]; norm_num : r0.v_lin ≤ 1000) h5
    have q0 := AGA16.lnResp_ok hr0 ha0 m v hd "intraslab" r z sc (p := none) hr1
    have q1 := AGA16.lnResp_ok hr0 ha0 m v hd "intraslab" r z' sc (p := none) hr1
    refine ⟨AGA16.lnResp_ok hr0 ha0 m v hd _ r z' sc (AGA16.fSite_ok h5 (by rw [h4]; norm_num) hv0 q1),
      AGA16.lnResp_ok hr0 ha0 m v hd _ r z sc (AGA16.fSite_ok h5 (by rw [h4]; norm_num) hv0 q0), ?_⟩
    have w0 := AGA16.lnResp_val r0 a0 m v d "intraslab" r z sc none
    have w1 := AGA16.lnResp_val r0 a0 m v d "intraslab" r z' sc none
    rw [AGA16.lnResp_val, AGA16.lnResp_val, AGA16.fSite_val, AGA16.fSite_val]
    have hp : (r0.period : ℚ) ≤ 5 := by
      have : ∀ c, AGA16.table.head? = some c → c.period ≤ 5 := by decide +kernel
      exact this r0 hh
    have ht : (0 : ℝ) < r0.t_11 := by exact_mod_cast (AGA16.depth_rows r0 hr0).1 hp
    have hA := AGA16.A_depth r0 a0.val m z z'
    have hpos := mul_pos ht hmin
    rw [hev] at w0 w1 ⊢
    have := AGA16.pga_surface hr0 hvl hb hv (x' := (AGA16.lnResp r0 a0 (AGA16.input m v d "intraslab" r z sc) none).val)
      (x := (AGA16.lnResp r0 a0 (AGA16.input m v d "intraslab" r z' sc) none).val) (by rw [w0, w1]; linarith)
    linarith
  · intro h11 k c hk
    have hc : c ∈ AGA16.table := List.mem_of_getElem? hk
    obtain ⟨hkl, hcc⟩ := List.getElem?_eq_some_iff.1 hk
    have hkl' : k < 23 := hkl
    obtain ⟨y0, hy0, hy⟩ := AGA16.ref_ok hl hok m v hd "intraslab" r z sc
    obtain ⟨y1, hy1, hy'⟩ := AGA16.ref_ok hl hok m v hd "intraslab" r z' sc
    have hcc' : (AGA16.table[k]'hkl') = c := hcc
    have e1 := AGA16.getD_out hl (AGA16.input m v d "intraslab" r z sc) hkl'
    have e2 := AGA16.getD_out hl (AGA16.input m v d "intraslab" r z' sc) hkl'
    rw [hcc', hy] at e1
    rw [hcc', hy'] at e2
    have hx := hok (adj[k]'(by omega)) (List.getElem_mem _)
    obtain ⟨-, -, -, h4, -, h5, h6, -⟩ := AGA16.row_facts c hc
    have h6' : (c.v_lin : ℝ) < 1100 := by exact_mod_cast h6
    have hs : ∀ x, AGA16.siteR c.v_lin c.b c.n c.c c.t_12 v x = AGA16.siteR c.v_lin c.b c.n c.c c.t_12 v 0 := by
      intro x
      simp only [AGA16.siteR, if_neg (not_lt.2 (by linarith : (c.v_lin : ℝ) ≤ v))]
    have o1 := AGA16.lnResp_ok hc hx m v hd "intraslab" r z sc (AGA16.fSite_ok h5 (by rw [h4]; norm_num) hv0 hy0)
    have o2 := AGA16.lnResp_ok hc hx m v hd "intraslab" r z' sc (AGA16.fSite_ok h5 (by rw [h4]; norm_num) hv0 hy1)
    have hA := AGA16.A_depth c (adj[k]'(by omega)).val m z z'
    have v1 := AGA16.lnResp_val c (adj[k]'(by omega)) m v d "intraslab" r z sc (some (F.exp y0))
    have v2 := AGA16.lnResp_val c (adj[k]'(by omega)) m v d "intraslab" r z' sc (some (F.exp y1))
    rw [AGA16.fSite_val, hs y0.val, hev] at v1
    rw [AGA16.fSite_val, hs y1.val, hev] at v2
    refine ⟨fun hp => ?_, fun hp => ?_⟩
    · have ht : (0 : ℝ) < c.t_11 := by exact_mod_cast (AGA16.depth_rows c hc).1 hp
      have hpos := mul_pos ht hmin
      refine ⟨by rw [e2]; exact o2, by rw [e1]; exact o1, ?_⟩
      rw [e1, e2, v1, v2]
      linarith
    · have ht : (c.t_11 : ℝ) < 0 := by exact_mod_cast (AGA16.depth_rows c hc).2 hp
      have hneg := mul_neg_of_neg_of_pos ht hmin
      refine ⟨by rw [e1]; exact o1, by rw [e2]; exact o2, ?_⟩
      rw [e1, e2, v1, v2]
      linarith

/-- Intraslab hypocentres from 120 km on are all the same. -/
theorem C110_aga16_deep (s s' : Scenario) (m v d z z' : ℝ) (r : Option String) (rup : Option ℝ)
    (a : AGA16.Adjust) (c4 sc : ℝ) (h : AGA16.Source s m v "intraslab" r rup (some d) (some z))
    (h' : AGA16.Source s' m v "intraslab" r rup (some d) (some z')) (ha : ∀ l, a = .array l → l.length = 23)
    (hz : 120 ≤ z) (hz' : 120 ≤ z') :
    ∃ o, Gives (AGA16.cls a c4 sc) s o ∧ Gives (AGA16.cls a c4 sc) s' o := by
  obtain ⟨adj, hadj⟩ : ∃ adj, AGA16.adjust (AGA16.table.map (·.period)) (AGA16.evFor "intraslab") a = pure adj := by
    cases a with
    | default => exact ⟨_, rfl⟩
    | scalar x => exact ⟨_, rfl⟩
    | array l =>
      refine ⟨l.map F.ofReal, ?_⟩
      simp only [AGA16.adjust]
      rw [if_pos (by rw [ha l rfl, List.length_map]; rfl)]
  refine ⟨_, AGA16.gives h rfl (fun _ => rfl) (fun _ => by decide) c4 sc hadj, ?_⟩
  have g2 := AGA16.gives h' rfl (fun _ => rfl) (fun _ => by decide) c4 sc hadj
  have e0 : ∀ c x p, AGA16.lnResp c x (AGA16.input m v d "intraslab" r z' sc) p =
      AGA16.lnResp c x (AGA16.input m v d "intraslab" r z sc) p := by
    intro c x p
    have k : AGA16.fDepth c (F.ofReal z') = AGA16.fDepth c (F.ofReal z) := by
      ext
      · simp only [AGA16.fDepth, fsimp]
        rw [min_eq_right (by exact_mod_cast hz'), min_eq_right (by exact_mod_cast hz)]
      · simp [AGA16.fDepth]
    unfold AGA16.lnResp
    simp only [AGA16.input, show AGA16.evFor "intraslab" = .intraslab from rfl, if_true, k]
  have e1 : AGA16.pgaRef adj (AGA16.input m v d "intraslab" r z' sc) =
      AGA16.pgaRef adj (AGA16.input m v d "intraslab" r z sc) := by
    unfold AGA16.pgaRef
    simp only [e0]
  have e2 : AGA16.out adj (AGA16.input m v d "intraslab" r z' sc) =
      AGA16.out adj (AGA16.input m v d "intraslab" r z sc) := by
    unfold AGA16.out
    simp only [e0, e1]
  rwa [e2] at g2

/-! ## Cases that meet the hypotheses -/

/-- a source of the given depths and dip, and a site of velocity `v` -/
noncomputable def exSource (tor hyp dip m v : ℝ) : Scenario :=
  ⟨[("depth_tor", .num tor), ("depth_hyp", .num hyp), ("dip", .num dip), ("mag", .num m), ("v_s30", .num v),
    ("dist_rup", .num 30), ("dist_jb", .num 28), ("dist_x", .num (-28)), ("mechanism", .str "SS")], []⟩

theorem exSource_ask14 (tor hyp dip m v : ℝ) : ASK14.Source (exSource tor hyp dip m v)
    { mag := m, rup := 30, jb := 28, dip := dip, v := v, x := some (-28), tor := some tor } := by
  constructor <;> simp [exSource, Scenario.get, Dict.get?, Val.ofOpt]

theorem exSource_cy14 (tor hyp dip m v : ℝ) : CY14.Source (exSource tor hyp dip m v)
    { mag := m, rup := 30, jb := 28, x := -28, dip := dip, v := v, tor := some tor } := by
  constructor <;> simp [exSource, Scenario.get, Dict.get?, Val.ofOpt]

theorem exSource_cb14 (tor hyp dip m v : ℝ) : CB14.Source (exSource tor hyp dip m v)
    { mag := m, rup := 30, jb := 28, x := -28, dip := dip, v := v, hyp := some hyp, tor := some tor } := by
  constructor <;> simp [exSource, Scenario.get, Dict.get?, Val.ofOpt]

theorem exSource_off (tor hyp dip m v : ℝ) : ¬ ((exSource tor hyp dip m v).get "on_hanging_wall").isOn := by
  simp [exSource, Scenario.get, Dict.get?, Val.isOn]

theorem exSource_tor (tor tor' hyp dip m v : ℝ) :
    AgreeExcept ["depth_tor"] (exSource tor hyp dip m v) (exSource tor' hyp dip m v) := by
  unfold exSource
  exact agreeExcept_cons (by decide) (agreeExcept_refl _ _)

theorem exSource_hyp (tor hyp hyp' dip m v : ℝ) :
    AgreeExcept ["depth_hyp"] (exSource tor hyp dip m v) (exSource tor hyp' dip m v) := by
  intro k hk
  simp only [List.mem_cons, List.not_mem_nil, or_false] at hk
  simp [exSource, Scenario.get, Dict.get?, Ne.symm hk]

theorem exSource_dip (tor hyp dip dip' m v : ℝ) :
    AgreeExcept ["dip"] (exSource tor hyp dip m v) (exSource tor hyp dip' m v) := by
  intro k hk
  simp only [List.mem_cons, List.not_mem_nil, or_false] at hk
  simp [exSource, Scenario.get, Dict.get?, Ne.symm hk]

example := C110_ask14_deeper (exSource 2 9 60 6.5 300) (exSource 8 9 60 6.5 300) _ _ 2 8
  (exSource_ask14 _ _ _ _ _) (exSource_ask14 _ _ _ _ _) (exSource_tor _ _ _ _ _ _) (exSource_off _ _ _ _ _) rfl rfl
  (by norm_num) (by norm_num) (by norm_num) (by norm_num) (by simp)

example := C110_ask14_deep (exSource 21 9 60 6.5 300) (exSource 25 9 60 6.5 300) _ _ 21 25
  (exSource_ask14 _ _ _ _ _) (exSource_ask14 _ _ _ _ _) (exSource_tor _ _ _ _ _ _) (by simp) rfl rfl
  (by norm_num) (by norm_num)

example := C110_cy14_deeper (exSource 2 9 60 7.5 300) (exSource 8 9 60 7.5 300) _ _ 2 8
  (exSource_cy14 _ _ _ _ _) (exSource_cy14 _ _ _ _ _) (exSource_tor _ _ _ _ _ _) (exSource_off _ _ _ _ _) rfl rfl
  (by norm_num) (by norm_num) (by norm_num)

example := C110_cy14_dip (exSource 2 9 30 6.5 300) (exSource 2 9 60 6.5 300) _ _
  (exSource_cy14 _ _ _ _ _) (exSource_cy14 _ _ _ _ _) (exSource_dip _ _ _ _ _ _) (exSource_off _ _ _ _ _)
  (by norm_num) (by norm_num) (by norm_num) (by norm_num) (by norm_num)

example := C110_cb14_deeper (exSource 2 9 60 6.5 1200) (exSource 2 12 60 6.5 1200) _ _ 9 12
  (exSource_cb14 _ _ _ _ _) (exSource_cb14 _ _ _ _ _) (exSource_hyp _ _ _ _ _ _)
  (.given (by norm_num) (by norm_num) rfl) rfl rfl (by norm_num) (by norm_num) (by norm_num) (by norm_num)

example := C110_cb14_deeper_pga (exSource 2 9 60 6.5 200) (exSource 2 12 60 6.5 200) _ _ 9 12
  (exSource_cb14 _ _ _ _ _) (exSource_cb14 _ _ _ _ _) (exSource_hyp _ _ _ _ _ _)
  (.given (by norm_num) (by norm_num) rfl) rfl rfl (by norm_num) (by norm_num) (by norm_num) (by norm_num)

example := C110_cb14_shallow_or_deep (exSource 2 3 60 6.5 200) (exSource 2 5 60 6.5 200) _ _ 3 5
  (exSource_cb14 _ _ _ _ _) (exSource_cb14 _ _ _ _ _) (exSource_hyp _ _ _ _ _ _) rfl rfl (by norm_num)
  (by norm_num)

example := C110_cb14_dip (exSource 2 9 30 5 200) (exSource 2 9 60 5 200) _ _ 9
  (exSource_cb14 _ _ _ _ _) (exSource_cb14 _ _ _ _ _) (exSource_dip _ _ _ _ _ _) (by norm_num) rfl
  (by norm_num) (by norm_num) (by norm_num) (by norm_num) (by norm_num)

/-- an intraslab event of depth `z` -/
noncomputable def exSlab (z v : ℝ) : Scenario :=
  ⟨[("depth_hyp", .num z), ("v_s30", .num v), ("mag", .num 7), ("dist_hyp", .num 150),
    ("event_type", .str "intraslab")], []⟩

theorem exSlab_source (z v : ℝ) : AGA16.Source (exSlab z v) 7 v "intraslab" none none (some 150) (some z) := by
  constructor <;> simp [exSlab, Scenario.get, Dict.get?, Val.ofOpt]

example := C110_aga16_deeper (exSlab 60 300) (exSlab 90 300) 7 300 150 60 90 none none .default 10 1
  (exSlab_source _ _) (exSlab_source _ _) (by simp) (by norm_num) (by norm_num) (by norm_num) (by norm_num)

example := C110_aga16_deep (exSlab 130 300) (exSlab 150 300) 7 300 150 130 150 none none .default 10 1
  (exSlab_source _ _) (exSlab_source _ _) (by simp) (by norm_num) (by norm_num)
