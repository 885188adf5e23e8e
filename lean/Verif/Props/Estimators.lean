import Verif.Props.CB14

/-! # C59: default estimators of depths and widths -/

open Bounds

set_option linter.unusedSimpArgs false

namespace Est

/-- the common form decreases, is positive, and is 1 m at 1360 m/s -/
theorem depth10_facts {slope r : ℝ} {p : ℕ} (hs : slope < 0) (hr : 0 < r) (hp : p ≠ 0)
    {f : F} (hf : f.ok) (hfv : f.val = slope) {g : F} (hg : g.ok) (hgv : g.val = r) :
    (∀ v : ℝ, 0 ≤ v → (depth10 f g p (F.ofReal v)).ok ∧ 0 < (depth10 f g p (F.ofReal v)).val) ∧
    StrictAntiOn (fun v => (depth10 f g p (F.ofReal v)).val) (Set.Ici 0) ∧
    (depth10 f g p (F.ofReal 1360)).val = 0.001 := by
  have hD : (0 : ℝ) < 1360 ^ p + r ^ p := by positivity
  refine ⟨fun v hv => ⟨?_, ?_⟩, ?_, ?_⟩
  · have : 0 < (v ^ p + r ^ p) / (1360 ^ p + r ^ p) := by positivity
    simp only [depth10, fsimp, hf, hg, hgv]
    exact ⟨⟨hD.ne', this⟩, by norm_num⟩
  · simp only [depth10, fsimp]; positivity
  · intro v hv v' hv' h
    simp only [depth10, fsimp, hfv, hgv]
    have hv0 : (0 : ℝ) ≤ v := hv
    have h1 : v ^ p < v' ^ p := pow_lt_pow_left₀ h hv0 hp
    have h2 : (v ^ p + r ^ p) / (1360 ^ p + r ^ p) < (v' ^ p + r ^ p) / (1360 ^ p + r ^ p) := by
      gcongr
    have h3 : 0 < (v ^ p + r ^ p) / (1360 ^ p + r ^ p) := by positivity
    have h4 := Real.log_lt_log h3 h2
    have h5 : Real.exp (slope * Real.log ((v' ^ p + r ^ p) / (1360 ^ p + r ^ p))) <
        Real.exp (slope * Real.log ((v ^ p + r ^ p) / (1360 ^ p + r ^ p))) := by
      apply Real.exp_lt_exp.2; nlinarith
    linarith
  · simp only [depth10, fsimp, hgv]
    rw [div_self hD.ne', Real.log_one]; norm_num

end Est

/-- The estimated depth to 1 km/s: defined and positive for every velocity ≥ 0, strictly
decreasing in the velocity, and exactly 1 m at 1360 m/s -- for ChiouYoungs2014,
AbrahamsonSilvaKamai2014 (both regional forms) and BaylessAbrahamson2019. -/
theorem C59_depth_1_0 (f : F → F)
    (hf : f ∈ [fun v => CY14.calcDepth10 v true, fun v => CY14.calcDepth10 v false,
      fun v => ASK14.calcDepth10 v true, fun v => ASK14.calcDepth10 v false, BA19.calcDepth10]) :
    (∀ v : ℝ, 0 ≤ v → (f (F.ofReal v)).ok ∧ 0 < (f (F.ofReal v)).val) ∧
    StrictAntiOn (fun v => (f (F.ofReal v)).val) (Set.Ici 0) ∧
    (f (F.ofReal 1360)).val = 0.001 := by
  simp only [List.mem_cons, List.not_mem_nil, or_false] at hf
  rcases hf with rfl | rfl | rfl | rfl | rfl
  · exact Est.depth10_facts (slope := -5.23 / 2) (r := 412.39) (by norm_num) (by norm_num) (by norm_num)
      (by simp) (by simp) (by simp) (by simp)
  · exact Est.depth10_facts (slope := -7.15 / 4) (r := 570.94) (by norm_num) (by norm_num) (by norm_num)
      (by simp) (by simp) (by simp) (by simp)
  · exact Est.depth10_facts (slope := -5.23 / 2) (r := 412) (by norm_num) (by norm_num) (by norm_num)
      (by simp) (by simp) (by simp) (by simp)
  · exact Est.depth10_facts (slope := -7.67 / 4) (r := 610) (by norm_num) (by norm_num) (by norm_num)
      (by simp) (by simp) (by simp) (by simp)
  · exact Est.depth10_facts (slope := -7.67 / 4) (r := 610) (by norm_num) (by norm_num) (by norm_num)
      (by simp) (by simp) (by simp) (by simp)

/-- ChiouYoungs2014's depth to the top of the rupture (also used by CampbellBozorgnia2014):
defined for every magnitude, between 0 and 7.4 km, not increasing with magnitude, and zero
from magnitude 8.06 on. -/
theorem C59_depth_tor_cy14 (reverse : Bool) :
    (∀ m : ℝ, (CY14.calcDepthTor (F.ofReal m) reverse).ok ∧
      0 ≤ (CY14.calcDepthTor (F.ofReal m) reverse).val ∧
      (CY14.calcDepthTor (F.ofReal m) reverse).val < 7.4) ∧
    Antitone (fun m => (CY14.calcDepthTor (F.ofReal m) reverse).val) ∧
    ∀ m : ℝ, 8.06 ≤ m → (CY14.calcDepthTor (F.ofReal m) reverse).val = 0 := by
  refine ⟨fun m => ⟨CB14.calcDepthTor_ok _ _, ?_, ?_⟩, ?_, ?_⟩
  · simp only [CY14.calcDepthTor, fsimp]; positivity
  · cases reverse <;> simp only [CY14.calcDepthTor, fsimp, Bool.false_eq_true]
    · have h1 : 0 ≤ max (m - 4.970) 0 := le_max_right _ _
      have h2 : max (2.673 - 1.136 * max (m - 4.970) 0) 0 ≤ 2.673 := max_le (by linarith) (by norm_num)
      have h3 : 0 ≤ max (2.673 - 1.136 * max (m - 4.970) 0) 0 := le_max_right _ _
      nlinarith
    · have h1 : 0 ≤ max (m - 5.849) 0 := le_max_right _ _
      have h2 : max (2.704 - 1.226 * max (m - 5.849) 0) 0 ≤ 2.704 := max_le (by linarith) (by norm_num)
      have h3 : 0 ≤ max (2.704 - 1.226 * max (m - 5.849) 0) 0 := le_max_right _ _
      nlinarith
  · intro m m' h
    cases reverse <;> simp only [CY14.calcDepthTor, fsimp, Bool.false_eq_true]
    · have h1 : max (m - 4.970) 0 ≤ max (m' - 4.970) 0 := max_le_max (by linarith) le_rfl
      gcongr
    · have h1 : max (m - 5.849) 0 ≤ max (m' - 5.849) 0 := max_le_max (by linarith) le_rfl
      gcongr
  · intro m hm
    cases reverse <;> simp only [CY14.calcDepthTor, fsimp, Bool.false_eq_true]
    · rw [max_eq_left (by linarith : (0 : ℝ) ≤ m - 4.970), max_eq_right (by linarith)]; norm_num
    · rw [max_eq_left (by linarith : (0 : ℝ) ≤ m - 5.849), max_eq_right (by linarith)]; norm_num

namespace ASK14

theorem calcDepthTor_val (m : ℝ) : (calcDepthTor (F.ofReal m)).ok ∧
    (calcDepthTor (F.ofReal m)).val = 7.8 * (7.2 - min (max m 5) 7.2) / 2.2 := by
  simp only [calcDepthTor, npInterpF, npInterp, fsimp]
  constructor
  · split
    · trivial
    · split
      · norm_num
      · trivial
  · split
    · rename_i h
      rw [max_eq_right h, min_eq_left (by norm_num)]; norm_num
    · rename_i h
      split
      · rename_i h2
        rw [max_eq_left (by linarith), min_eq_left h2.le]; ring
      · rename_i h2
        rw [max_eq_left (by linarith), min_eq_right (by linarith)]; norm_num

end ASK14

/-- AbrahamsonSilvaKamai2014's depth to the top of the rupture: 7.8 km up to magnitude 5, zero
from magnitude 7.2, linear in between; not increasing. -/
theorem C59_depth_tor_ask14 :
    (∀ m : ℝ, (ASK14.calcDepthTor (F.ofReal m)).ok ∧ 0 ≤ (ASK14.calcDepthTor (F.ofReal m)).val ∧
      (ASK14.calcDepthTor (F.ofReal m)).val ≤ 7.8) ∧
    Antitone (fun m => (ASK14.calcDepthTor (F.ofReal m)).val) ∧
    (∀ m : ℝ, m ≤ 5 → (ASK14.calcDepthTor (F.ofReal m)).val = 7.8) ∧
    (∀ m : ℝ, 7.2 ≤ m → (ASK14.calcDepthTor (F.ofReal m)).val = 0) := by
  have e := fun m => (ASK14.calcDepthTor_val m).2
  simp only [e]
  refine ⟨fun m => ⟨(ASK14.calcDepthTor_val m).1, ?_, ?_⟩, ?_, ?_, ?_⟩
  · have : min (max m 5) 7.2 ≤ (7.2 : ℝ) := min_le_right _ _
    apply div_nonneg _ (by norm_num)
    nlinarith
  · have : (5 : ℝ) ≤ min (max m 5) 7.2 := le_min (le_max_right _ _) (by norm_num)
    rw [div_le_iff₀ (by norm_num)]
    nlinarith
  · intro m m' h
    have : min (max m 5) 7.2 ≤ min (max m' 5) (7.2 : ℝ) := min_le_min (max_le_max h le_rfl) le_rfl
    show 7.8 * (7.2 - min (max m' 5) 7.2) / 2.2 ≤ 7.8 * (7.2 - min (max m 5) (7.2 : ℝ)) / 2.2
    gcongr
  · intro m hm
    rw [max_eq_right hm, min_eq_left (by norm_num)]; norm_num
  · intro m hm
    rw [max_eq_left (by linarith), min_eq_right hm]; norm_num

/-- CampbellBozorgnia2014's depth to 2.5 km/s from the velocity: defined, positive and strictly
decreasing for positive velocities, in both regional forms; the depth to 1 km/s is then not
looked at. -/
theorem C59_depth_2_5_of_velocity (region z : Val) :
    (∀ v : ℝ, 0 < v → ∃ y, CB14.calcDepth25 (.num v) region z = pure y ∧ y.ok ∧ 0 < y.val) ∧
    ∀ v v' : ℝ, 0 < v → v < v' → ∀ y y', CB14.calcDepth25 (.num v) region z = pure y →
      CB14.calcDepth25 (.num v') region z = pure y' → y'.val < y.val := by
  have hinj : ∀ {x y : F}, (pure x : Py F) = pure y → x = y := by
    intro x y hxy
    have := congrArg Py.res hxy
    simpa using this
  have e : ∀ v : ℝ, 0 < v → CB14.calcDepth25 (.num v) region z =
      pure (CB14.depth25OfVs (F.ofReal v) (region.isStr "japan")) := by
    intro v hv
    simp [CB14.calcDepth25, Val.truthy, hv.ne', Val.toF]
  refine ⟨fun v hv => ⟨_, e v hv, ?_, ?_⟩, ?_⟩
  · unfold CB14.depth25OfVs; split <;> simp [hv]
  · unfold CB14.depth25OfVs; split <;> simp only [fsimp] <;> positivity
  · intro v v' hv hvv y y' h1 h2
    rw [e v hv] at h1
    rw [e v' (hv.trans hvv)] at h2
    have h1 := hinj h1
    have h2 := hinj h2
    subst h1; subst h2
    have := Real.log_lt_log hv hvv
    unfold CB14.depth25OfVs
    split <;> simp only [fsimp] <;> apply Real.exp_lt_exp.2 <;> nlinarith

/-- From the depth to 1 km/s (no velocity given) the estimate *decreases* as that depth grows:
deeper basins are estimated shallower.  With neither, NotImplementedError. -/
theorem C59_depth_2_5_of_depth (region v : Val) (hv : v = .none ∨ v = .num 0) :
    (∀ z z' : ℝ, 0 < z → z < z' → ∃ y y', CB14.calcDepth25 v region (.num z) = pure y ∧
      CB14.calcDepth25 v region (.num z') = pure y' ∧ y.ok ∧ y'.ok ∧ y'.val < y.val) ∧
    CB14.calcDepth25 v region .none = Py.raise .notImplemented := by
  have hn : v.truthy = false := by rcases hv with rfl | rfl <;> simp [Val.truthy]
  refine ⟨?_, by simp only [CB14.calcDepth25, hn]; simp [Val.truthy]⟩
  intro z z' hz hzz
  have e : ∀ z : ℝ, 0 < z → CB14.calcDepth25 v region (.num z) =
      pure (CB14.depth25OfZ1 (F.ofReal z) (region.isStr "japan")) := by
    intro z hz
    simp only [CB14.calcDepth25, hn]
    simp [Val.truthy, hz.ne', Val.toF]
  refine ⟨_, _, e z hz, e z' (hz.trans hzz), ?_, ?_, ?_⟩
  · unfold CB14.depth25OfZ1; split <;> simp [hz]
  · unfold CB14.depth25OfZ1; split <;> simp [hz.trans hzz]
  · have := Real.log_lt_log hz hzz
    unfold CB14.depth25OfZ1
    split <;> simp only [fsimp] <;> apply Real.exp_lt_exp.2 <;> nlinarith

namespace CB14

theorem sin_pos' {d : ℝ} (h0 : 0 < d) (h : d < 180) : 0 < Real.sin (d * (Real.pi / 180)) := by
  have hpi := Real.pi_pos
  apply Real.sin_pos_of_pos_of_lt_pi (by positivity)
  have : d * (Real.pi / 180) < 180 * (Real.pi / 180) := by
    apply mul_lt_mul_of_pos_right h; positivity
  linarith

end CB14

/-- CampbellBozorgnia2014's fault geometry: for a dip between 0 and 180 degrees and a rupture
that starts above the bottom of the crust, the estimated width is defined and positive and does
not decrease with magnitude; the bottom of the rupture lies below its top and not below the
bottom of the crust; and the estimated hypocentre lies strictly between top and bottom, in the
upper nine tenths. -/
theorem C59_geometry_cb14 (m dip tor bot : ℝ) (h0 : 0 < dip) (h1 : dip < 180) (hb : tor < bot) :
    let w := CB14.calcWidth (F.ofReal m) (F.ofReal dip) (F.ofReal tor) (F.ofReal bot)
    let bor := CB14.calcDepthBor (F.ofReal tor) (F.ofReal dip) w
    let hyp := CB14.calcDepthHyp (F.ofReal m) (F.ofReal dip) (F.ofReal tor) bor
    w.ok ∧ 0 < w.val ∧ bor.ok ∧ tor < bor.val ∧ bor.val ≤ bot ∧
    hyp.ok ∧ tor < hyp.val ∧ hyp.val ≤ tor + 0.9 * (bor.val - tor) ∧ hyp.val < bor.val ∧
    ∀ m', m ≤ m' → w.val ≤ (CB14.calcWidth (F.ofReal m') (F.ofReal dip) (F.ofReal tor) (F.ofReal bot)).val := by
  intro w bor hyp
  have hs := CB14.sin_pos' h0 h1
  have h10 : ∀ m : ℝ, (0 : ℝ) < (10 : ℝ) ^ ((m - 4.07) / 0.98) := fun m =>
    Real.rpow_pos_of_pos (by norm_num) _
  have hwok : w.ok := by
    simp only [w, CB14.calcWidth, fsimp]
    exact ⟨⟨⟨by norm_num, Or.inl (by norm_num)⟩, (h10 m).le⟩, hs.ne'⟩
  have hw : 0 < w.val := by
    simp only [w, CB14.calcWidth, fsimp]
    exact lt_min (Real.sqrt_pos.2 (h10 m)) (div_pos (by linarith) hs)
  have hw2 : w.val ≤ (bot - tor) / Real.sin (dip * (Real.pi / 180)) := by
    simp only [w, CB14.calcWidth, fsimp]; exact min_le_right _ _
  have hbok : bor.ok := by simp only [bor, CB14.calcDepthBor, fsimp, hwok]
  have hbv : bor.val = tor + w.val * Real.sin (dip * (Real.pi / 180)) := by
    simp only [bor, CB14.calcDepthBor, fsimp]
  have hb1 : tor < bor.val := by rw [hbv]; nlinarith [mul_pos hw hs]
  have hb2 : bor.val ≤ bot := by
    rw [hbv]
    rw [le_div_iff₀ hs] at hw2
    linarith
  have hhok : hyp.ok := by
    have hpos : 0 < bor.val - tor := by linarith
    simp only [hyp, CB14.calcDepthHyp, fsimp, hbok, hpos, if_true]
    simp; linarith
  have hhv : hyp.val = tor + Real.exp (min (min (-4.317 + 0.984 * m) 2.325 + min (0.0445 * (dip - 40)) 0)
    (Real.log (0.9 * (bor.val - tor)))) := by
    have hpos : 0 < bor.val - tor := by linarith
    simp only [hyp, CB14.calcDepthHyp, fsimp, hpos, if_true]
  have hh2 : hyp.val ≤ tor + 0.9 * (bor.val - tor) := by
    rw [hhv]
    have h9 : 0 < 0.9 * (bor.val - tor) := by nlinarith
    have := Real.exp_le_exp.2 (min_le_right (min (-4.317 + 0.984 * m) 2.325 + min (0.0445 * (dip - 40)) 0)
      (Real.log (0.9 * (bor.val - tor))))
    rw [Real.exp_log h9] at this
    linarith
  refine ⟨hwok, hw, hbok, hb1, hb2, hhok, ?_, hh2, by linarith, ?_⟩
  · rw [hhv]; linarith [Real.exp_pos (min (min (-4.317 + 0.984 * m) 2.325 + min (0.0445 * (dip - 40)) 0)
      (Real.log (0.9 * (bor.val - tor))))]
  · intro m' hm'
    simp only [w, CB14.calcWidth, fsimp]
    refine min_le_min (Real.sqrt_le_sqrt ?_) le_rfl
    apply Real.rpow_le_rpow_of_exponent_le (by norm_num)
    gcongr

/-- AbrahamsonSilvaKamai2014's width: defined and positive for a dip between 0 and 180 degrees,
not decreasing with magnitude, and never deeper than 18 km measured down dip. -/
theorem C59_width_ask14 (m dip : ℝ) (h0 : 0 < dip) (h1 : dip < 180) :
    let w := ASK14.calcWidth (F.ofReal m) (F.ofReal dip)
    w.ok ∧ 0 < w.val ∧ w.val * Real.sin (dip * (Real.pi / 180)) ≤ 18 ∧
    ∀ m', m ≤ m' → w.val ≤ (ASK14.calcWidth (F.ofReal m') (F.ofReal dip)).val := by
  intro w
  have hs := CB14.sin_pos' h0 h1
  refine ⟨?_, ?_, ?_, ?_⟩
  · simp only [w, ASK14.calcWidth, fsimp]
    exact ⟨hs.ne', Or.inl (by norm_num)⟩
  · simp only [w, ASK14.calcWidth, fsimp]
    exact lt_min (div_pos (by norm_num) hs) (Real.rpow_pos_of_pos (by norm_num) _)
  · have : w.val ≤ 18 / Real.sin (dip * (Real.pi / 180)) := by
      simp only [w, ASK14.calcWidth, fsimp]; exact min_le_left _ _
    rwa [le_div_iff₀ hs] at this
  · intro m' hm'
    simp only [w, ASK14.calcWidth, fsimp]
    refine min_le_min le_rfl ?_
    apply Real.rpow_le_rpow_of_exponent_le (by norm_num)
    gcongr

/-- The values a CampbellBozorgnia2014 model with no depth given completes itself with:
0 ≤ depth_tor < depth_hyp < depth_bor ≤ 15 km, as read from the model's scenario. -/
theorem C59_completed_cb14 (s : Scenario) (g : CB14.Given) (h : CB14.Source s g) (hv : g.v ≠ 0)
    (h0 : 0 < g.dip) (h1 : g.dip < 180) (hbot : g.bot = none) (hbor : g.bor = none)
    (hhyp : g.hyp = none) (htor : g.tor = none) (hw : g.width = none) :
    ∃ inst tor hyp bor, (CB14.cls.new s).res = .ok inst ∧
      inst.scenario.num "depth_tor" = pure tor ∧ inst.scenario.num "depth_hyp" = pure hyp ∧
      inst.scenario.num "depth_bor" = pure bor ∧ tor.ok ∧ hyp.ok ∧ bor.ok ∧
      0 ≤ tor.val ∧ tor.val < hyp.val ∧ hyp.val < bor.val ∧ bor.val ≤ 15 := by
  obtain ⟨inst, a1, -, -, a2, a3, a4, a5⟩ := CB14.built h hv
  set mech := CB14.mechOf (s.get "mechanism")
  have et : g.effTor mech = CY14.calcDepthTor (F.ofReal g.mag) (mech = .rs) := by
    unfold CB14.Given.effTor; rw [htor]; exact F.orEst_none (CB14.calcDepthTor_ok _ _)
  obtain ⟨t1, -, -⟩ := C59_depth_tor_cy14 (mech = .rs)
  obtain ⟨t1, t2, t3⟩ := t1 g.mag
  have et' : g.effTor mech = F.ofReal (g.effTor mech).val := by
    ext
    · rfl
    · simp [CB14.effTor_ok]
  have hg := C59_geometry_cb14 g.mag g.dip (g.effTor mech).val 15 h0 h1 (by rw [et]; linarith)
  simp only [← et'] at hg
  obtain ⟨w1, -, b1, b2, b3, y1, y2, -, y3, -⟩ := hg
  have e15 : g.bot.getD ((15 : ℚ) : ℝ) = 15 := by rw [hbot]; norm_num
  have ew : g.effWidth mech = CB14.calcWidth (F.ofReal g.mag) (F.ofReal g.dip) (g.effTor mech) (F.ofReal 15) := by
    unfold CB14.Given.effWidth; rw [hw, e15]; exact F.orEst_none w1
  have eb : g.effBor mech = CB14.calcDepthBor (g.effTor mech) (F.ofReal g.dip) (g.effWidth mech) := by
    unfold CB14.Given.effBor; rw [hbor, ew]; exact F.orEst_none b1
  have ey : g.effHyp mech = CB14.calcDepthHyp (F.ofReal g.mag) (F.ofReal g.dip) (g.effTor mech) (g.effBor mech) := by
    unfold CB14.Given.effHyp; rw [hhyp, eb, ew]; exact F.orEst_none y1
  refine ⟨inst, _, _, _, a1, a2, a5, a4, CB14.effTor_ok _ _, ?_, ?_, ?_, ?_, ?_, ?_⟩
  · rw [ey, eb, ew]; exact y1
  · rw [eb, ew]; exact b1
  · rw [et]; exact t2
  · rw [ey, eb, ew]; exact y2
  · rw [ey, eb, ew]; exact y3
  · rw [eb, ew]; exact b3

example : ∃ inst tor hyp bor, (CB14.cls.new (CB14.exS 20)).res = .ok inst ∧
      inst.scenario.num "depth_tor" = pure tor ∧ inst.scenario.num "depth_hyp" = pure hyp ∧
      inst.scenario.num "depth_bor" = pure bor ∧ tor.ok ∧ hyp.ok ∧ bor.ok ∧
      0 ≤ tor.val ∧ tor.val < hyp.val ∧ hyp.val < bor.val ∧ bor.val ≤ 15 :=
  C59_completed_cb14 _ _ (CB14.ex_source 20) (by norm_num [CB14.exG]) (by norm_num [CB14.exG])
    (by norm_num [CB14.exG]) rfl rfl rfl rfl rfl
