import Verif.Props.VsSource
import Verif.Props.BSSA14
import Verif.Props.CB14Mag

/-! # C103: standard deviations against magnitude, distance and velocity -/

open Bounds

set_option linter.unusedSimpArgs false
set_option maxHeartbeats 800000

/-- a clipped magnitude follows the magnitude -/
theorem clip_le {m m' lo hi : ℝ} (h : m ≤ m') : min (max m lo) hi ≤ min (max m' lo) hi :=
  min_le_min_right _ (max_le_max_right _ h)

theorem clip_lt {m m' lo hi : ℝ} (h : m < m') (h1 : m < hi) (h2 : lo < m') (h3 : lo < hi) :
    min (max m lo) hi < min (max m' lo) hi := by
  apply lt_min
  · exact min_lt_of_left_lt (max_lt (lt_max_of_lt_left h) (lt_max_of_lt_left h2))
  · exact min_lt_of_left_lt (max_lt h1 h3)

/-- a sum of squares of two straight lines that still falls at the end of the range -/
theorem two_sq_lt {a b p q t t' : ℝ} (h : b * (a + b) + q * (p + q) < 0) (ht : t < t') (h0 : 0 ≤ t) (h1 : t' ≤ 1) :
    (a + b * t') ^ 2 + (p + q * t') ^ 2 < (a + b * t) ^ 2 + (p + q * t) ^ 2 := by
  have e : (a + b * t') ^ 2 + (p + q * t') ^ 2 - ((a + b * t) ^ 2 + (p + q * t) ^ 2) =
      (t' - t) * (2 * (b * (a + b) + q * (p + q)) - (b ^ 2 + q ^ 2) * (2 - t - t')) := by ring
  have := mul_nonneg (show 0 ≤ b ^ 2 + q ^ 2 by positivity) (show 0 ≤ 2 - t - t' by linarith)
  have := mul_neg_of_pos_of_neg (show 0 < t' - t by linarith)
    (show 2 * (b * (a + b) + q * (p + q)) - (b ^ 2 + q ^ 2) * (2 - t - t') < 0 by linarith)
  linarith

theorem ends_lt {a1 a2 b1 b2 V R z : ℝ} (h1 : a2 ^ 2 + (b2 - V) ^ 2 < a1 ^ 2 + (b1 - V) ^ 2)
    (h2 : a2 ^ 2 + (b2 + R) ^ 2 < a1 ^ 2 + (b1 + R) ^ 2) (l1 : -V ≤ z) (l2 : z ≤ R) :
    a2 ^ 2 + (b2 + z) ^ 2 < a1 ^ 2 + (b1 + z) ^ 2 := by
  rcases le_total 0 (b2 - b1) with q | q
  · have := mul_le_mul_of_nonneg_left l2 q
    linarith
  · have := mul_le_mul_of_nonpos_left l1 q
    linarith

namespace BSSA14

theorem mag_rows : ∀ i : Fin table.length,
    (i.val < 24 ∨ 37 ≤ i.val → table[i].tau_2 < table[i].tau_1) ∧
    (24 ≤ i.val → i.val < 37 → table[i].tau_1 < table[i].tau_2) ∧
    (i.val < 60 → table[i].phi_2 < table[i].phi_1) ∧
    (60 ≤ i.val → table[i].phi_1 < table[i].phi_2) ∧
    (i.val < 97 → (table[i].tau_2 - table[i].tau_1) * table[i].tau_2 +
      (table[i].phi_2 - table[i].phi_1) * (table[i].phi_2 - table[i].dphi_V) < 0 ∧
      (table[i].tau_2 - table[i].tau_1) * table[i].tau_2 +
      (table[i].phi_2 - table[i].phi_1) * (table[i].phi_2 + table[i].dphi_R) < 0) ∧
    (table[i].tau_2 ^ 2 + (table[i].phi_2 - table[i].dphi_V) ^ 2 <
      table[i].tau_1 ^ 2 + (table[i].phi_1 - table[i].dphi_V) ^ 2 ∧
     table[i].tau_2 ^ 2 + (table[i].phi_2 + table[i].dphi_R) ^ 2 <
      table[i].tau_1 ^ 2 + (table[i].phi_1 + table[i].dphi_R) ^ 2) ∧
    0 ≤ table[i].dphi_V ∧ (i.val < 84 → 0 < table[i].dphi_V) ∧ (84 ≤ i.val → table[i].dphi_V = 0) ∧
    0 < table[i].dphi_R ∧ 78 < table[i].R_1 ∧ table[i].R_1 < 131 ∧ 190 < table[i].R_2 ∧ table[i].R_2 ≤ 272 ∧
    table[i].V_1 = 225 ∧ table[i].V_2 = 300 := by
  decide +kernel

/-- the velocity part of `phi` -/
noncomputable def velX (v : ℝ) : ℝ := min (max (Real.log (300 / v) / Real.log (300 / 225)) 0) 1
/-- the distance part of `phi` -/
noncomputable def distX (c : Row) (r : ℝ) : ℝ :=
  min (max (Real.log (max r 0.1 / c.R_1) / Real.log ((c.R_2 : ℝ) / c.R_1)) 0) 1

theorem tau_val (c : Row) (g : Given) (mech : Mech) (reg : Reg) :
    (tau c (g.toIn mech reg)).val =
      (c.tau_1 : ℝ) + ((c.tau_2 : ℝ) - c.tau_1) * (min (max g.mag 4.5) 5.5 - 4.5) := by
  simp only [tau, Given.toIn, fsimp]

theorem phi_val {c : Row} (h1 : c.V_1 = 225) (h2 : c.V_2 = 300) (g : Given) (mech : Mech) (reg : Reg) :
    (phi c (g.toIn mech reg)).val =
      (c.phi_1 : ℝ) + ((c.phi_2 : ℝ) - c.phi_1) * (min (max g.mag 4.5) 5.5 - 4.5) - c.dphi_V * velX g.v +
        c.dphi_R * distX c g.jb := by
  simp only [phi, Given.toIn, fsimp, velX, distX, h1, h2]
  push_cast
  rfl

theorem velX_mem (v : ℝ) : 0 ≤ velX v ∧ velX v ≤ 1 := clip_mem _ 0 1 (by norm_num)
theorem distX_mem (c : Row) (v : ℝ) : 0 ≤ distX c v ∧ distX c v ≤ 1 := clip_mem _ 0 1 (by norm_num)

end BSSA14

/-- **C103 (BSSA14, magnitude).** Two scenarios with the same velocity and distance (mechanism, region and
basin depth may differ) and growing magnitude.  `tau` falls at the periods with index below 24 or from 37
on and rises between; `phi` falls at the first 60 ordinates and rises at the others; the total falls at
the first 97 — all strictly as soon as the magnitudes are not on the same plateau (below 4.5 or above
5.5).  From one plateau to the other the total falls at every ordinate. -/
theorem C103_bssa14_magnitude (s s' : Scenario) (g g' : BSSA14.Given) (h : BSSA14.Source s g)
    (h' : BSSA14.Source s' g') (hv : 0 < g.v) (ev : g'.v = g.v) (er : g'.jb = g.jb) (hm : g.mag < g'.mag) :
    ∃ o o' sd sd', Gives BSSA14.cls s o ∧ Gives BSSA14.cls s' o' ∧ o.gmm.lnStd = some sd ∧ o'.gmm.lnStd = some sd' ∧
      sd.length = 107 ∧ ∀ i < 107,
        (g.mag < 5.5 → 4.5 < g'.mag →
          (i < 24 ∨ 37 ≤ i → F.Drops (o.tau.getD i F.nan) (o'.tau.getD i F.nan)) ∧
          (24 ≤ i → i < 37 → F.Drops (o'.tau.getD i F.nan) (o.tau.getD i F.nan)) ∧
          (i < 60 → F.Drops (o.phi.getD i F.nan) (o'.phi.getD i F.nan)) ∧
          (60 ≤ i → F.Drops (o'.phi.getD i F.nan) (o.phi.getD i F.nan)) ∧
          (i < 97 → F.Drops (sd.getD i F.nan) (sd'.getD i F.nan))) ∧
        (g.mag ≤ 4.5 → 5.5 ≤ g'.mag → F.Drops (sd.getD i F.nan) (sd'.getD i F.nan)) := by
  refine ⟨_, _, _, _, BSSA14.gives h, BSSA14.gives h', rfl, rfl, by rw [List.length_map, BSSA14.table_length], ?_⟩
  intro i hi
  rw [← BSSA14.table_length] at hi
  obtain ⟨r1, r2, r3, r4, r5, ⟨r6, r7⟩, v0, -, -, d0, -, -, -, -, q1, q2⟩ := BSSA14.mag_rows ⟨i, hi⟩
  simp only [Fin.getElem_fin] at r1 r2 r3 r4 r5 r6 r7 v0 d0 q1 q2
  have hc : BSSA14.table[i] ∈ BSSA14.table := List.getElem_mem hi
  obtain ⟨o1, o2, o3, o4, o5, o6, -, o7, -⟩ := BSSA14.std_facts hc g hv
    (BSSA14.mechOf (s.get "mechanism")) (BSSA14.regOf (s.get "region"))
  obtain ⟨p1, p2, p3, p4, p5, p6, -, p7, -⟩ := BSSA14.std_facts hc g' (by rw [ev]; exact hv)
    (BSSA14.mechOf (s'.get "mechanism")) (BSSA14.regOf (s'.get "region"))
  simp only [BSSA14.out, getD_row _ _ hi]
  simp only [F.Drops, o1, o2, o3, p1, p2, p3, true_and]
  have vx := BSSA14.velX_mem g.v
  have dx := BSSA14.distX_mem BSSA14.table[i] g.jb
  have et := BSSA14.tau_val BSSA14.table[i] g (BSSA14.mechOf (s.get "mechanism")) (BSSA14.regOf (s.get "region"))
  have et' := BSSA14.tau_val BSSA14.table[i] g' (BSSA14.mechOf (s'.get "mechanism")) (BSSA14.regOf (s'.get "region"))
  have ep := BSSA14.phi_val q1 q2 g (BSSA14.mechOf (s.get "mechanism")) (BSSA14.regOf (s.get "region"))
  have ep' := BSSA14.phi_val q1 q2 g' (BSSA14.mechOf (s'.get "mechanism")) (BSSA14.regOf (s'.get "region"))
  rw [ev, er] at ep'
  have cm := BSSA14.clip_mem g.mag 4.5 5.5 (by norm_num)
  have cm' := BSSA14.clip_mem g'.mag 4.5 5.5 (by norm_num)
  have lt : g.mag < 5.5 → 4.5 < g'.mag → min (max g.mag 4.5) 5.5 < min (max g'.mag 4.5) 5.5 :=
    fun a b => clip_lt hm a b (by norm_num)
  have lo : g.mag ≤ 4.5 → min (max g.mag 4.5) (5.5 : ℝ) = 4.5 := fun a => by
    rw [max_eq_right a]; norm_num
  have hi' : 5.5 ≤ g'.mag → min (max g'.mag 4.5) (5.5 : ℝ) = 5.5 := fun a => min_eq_right (le_max_of_le_left a)
  generalize min (max g.mag 4.5) (5.5 : ℝ) = t at *
  generalize min (max g'.mag 4.5) (5.5 : ℝ) = t' at *
  generalize BSSA14.velX g.v = x at *
  generalize BSSA14.distX BSSA14.table[i] g.jb = y at *
  have lin : ∀ (a b : ℝ), b < a → t < t' → a + (b - a) * (t' - 4.5) < a + (b - a) * (t - 4.5) := fun a b w w' => by
    have := mul_lt_mul_of_neg_left (show t - 4.5 < t' - 4.5 by linarith) (show b - a < 0 by linarith)
    linarith
  have lin' : ∀ (a b : ℝ), a < b → t < t' → a + (b - a) * (t - 4.5) < a + (b - a) * (t' - 4.5) := fun a b w w' => by
    have := mul_lt_mul_of_pos_left (show t - 4.5 < t' - 4.5 by linarith) (show 0 < b - a by linarith)
    linarith
  have v0' : (0 : ℝ) ≤ BSSA14.table[i].dphi_V := by exact_mod_cast v0
  have d0' : (0 : ℝ) < BSSA14.table[i].dphi_R := by exact_mod_cast d0
  have cx := mul_le_mul_of_nonneg_left vx.2 v0'
  have cx0 := mul_nonneg v0' vx.1
  have cy := mul_le_mul_of_nonneg_left dx.2 d0'.le
  have cy0 := mul_nonneg d0'.le dx.1
  refine ⟨fun a b => ⟨fun w => ?_, fun w w' => ?_, fun w => ?_, fun w => ?_, fun w => ?_⟩, fun a b => ?_⟩
  · have := lin BSSA14.table[i].tau_1 BSSA14.table[i].tau_2 (by exact_mod_cast r1 w) (lt a b)
    linarith
  · have := lin' BSSA14.table[i].tau_1 BSSA14.table[i].tau_2 (by exact_mod_cast r2 w w') (lt a b)
    linarith
  · have := lin BSSA14.table[i].phi_1 BSSA14.table[i].phi_2 (by exact_mod_cast r3 w) (lt a b)
    linarith
  · have := lin' BSSA14.table[i].phi_1 BSSA14.table[i].phi_2 (by exact_mod_cast r4 w) (lt a b)
    linarith
  · apply lt_of_pow_lt_pow_left₀ 2 o5
    rw [p4, o4, et, et', ep, ep']
    obtain ⟨k1, k2⟩ := r5 w
    have k1' : (BSSA14.table[i].tau_2 - BSSA14.table[i].tau_1 : ℝ) * BSSA14.table[i].tau_2 +
      (BSSA14.table[i].phi_2 - BSSA14.table[i].phi_1) * (BSSA14.table[i].phi_2 - BSSA14.table[i].dphi_V) < 0 := by
      exact_mod_cast k1
    have k2' : (BSSA14.table[i].tau_2 - BSSA14.table[i].tau_1 : ℝ) * BSSA14.table[i].tau_2 +
      (BSSA14.table[i].phi_2 - BSSA14.table[i].phi_1) * (BSSA14.table[i].phi_2 + BSSA14.table[i].dphi_R) < 0 := by
      exact_mod_cast k2
    generalize (BSSA14.table[i].tau_1 : ℝ) = a1 at *
    generalize (BSSA14.table[i].tau_2 : ℝ) = a2 at *
    generalize (BSSA14.table[i].phi_1 : ℝ) = b1 at *
    generalize (BSSA14.table[i].phi_2 : ℝ) = b2 at *
    generalize (BSSA14.table[i].dphi_V : ℝ) = V at *
    generalize (BSSA14.table[i].dphi_R : ℝ) = R at *
    have := two_sq_lt (a := a1) (b := a2 - a1) (p := b1 - V * x + R * y) (q := b2 - b1) (t := t - 4.5) (t' := t' - 4.5)
      (by
        rcases le_total 0 (b2 - b1) with z | z
        · have := mul_le_mul_of_nonneg_left (show b2 - V * x + R * y ≤ b2 + R by linarith) z
          linarith
        · have := mul_le_mul_of_nonpos_left (show b2 - V ≤ b2 - V * x + R * y by linarith) z
          linarith) (by linarith [lt a b]) (by linarith) (by linarith)
    have e : ∀ u, b1 + (b2 - b1) * (u - 4.5) - V * x + R * y = b1 - V * x + R * y + (b2 - b1) * (u - 4.5) := fun u => by ring
    rw [e, e]; exact this
  · apply lt_of_pow_lt_pow_left₀ 2 o5
    rw [p4, o4, et, et', ep, ep', lo a, hi' b]
    have k1' : (BSSA14.table[i].tau_2 : ℝ) ^ 2 + ((BSSA14.table[i].phi_2 : ℝ) - BSSA14.table[i].dphi_V) ^ 2 <
      (BSSA14.table[i].tau_1 : ℝ) ^ 2 + ((BSSA14.table[i].phi_1 : ℝ) - BSSA14.table[i].dphi_V) ^ 2 := by
      exact_mod_cast r6
    have k2' : (BSSA14.table[i].tau_2 : ℝ) ^ 2 + ((BSSA14.table[i].phi_2 : ℝ) + BSSA14.table[i].dphi_R) ^ 2 <
      (BSSA14.table[i].tau_1 : ℝ) ^ 2 + ((BSSA14.table[i].phi_1 : ℝ) + BSSA14.table[i].dphi_R) ^ 2 := by
      exact_mod_cast r7
    generalize (BSSA14.table[i].tau_1 : ℝ) = a1 at *
    generalize (BSSA14.table[i].tau_2 : ℝ) = a2 at *
    generalize (BSSA14.table[i].phi_1 : ℝ) = b1 at *
    generalize (BSSA14.table[i].phi_2 : ℝ) = b2 at *
    generalize (BSSA14.table[i].dphi_V : ℝ) = V at *
    generalize (BSSA14.table[i].dphi_R : ℝ) = R at *
    have e1 : a1 + (a2 - a1) * (5.5 - 4.5) = a2 := by ring
    have e2 : a1 + (a2 - a1) * (4.5 - 4.5) = a1 := by ring
    have e3 : b1 + (b2 - b1) * (5.5 - 4.5) - V * x + R * y = b2 + (R * y - V * x) := by ring
    have e4 : b1 + (b2 - b1) * (4.5 - 4.5) - V * x + R * y = b1 + (R * y - V * x) := by ring
    rw [e1, e2, e3, e4]
    exact ends_lt k1' k2' (by linarith) (by linarith)

/-- **C103 (BSSA14, distance and velocity).** Same magnitude; a larger distance or a larger velocity (both
may grow) never lowers `phi` nor the total standard deviation, and leaves `tau`.  It raises both strictly
at every ordinate if the distances lie on different sides of some distance between 131 and 190 km or —
for the ordinates with index below 84 — if the velocities lie on different sides of some value between
225 and 300 m/s. -/
theorem C103_bssa14_site (s s' : Scenario) (g g' : BSSA14.Given) (h : BSSA14.Source s g)
    (h' : BSSA14.Source s' g') (hv : 0 < g.v) (em : g'.mag = g.mag) (ev : g.v ≤ g'.v) (er : g.jb ≤ g'.jb) :
    ∃ o o' sd sd', Gives BSSA14.cls s o ∧ Gives BSSA14.cls s' o' ∧ o.gmm.lnStd = some sd ∧ o'.gmm.lnStd = some sd' ∧
      sd.length = 107 ∧ ∀ i < 107,
        F.Same (o.tau.getD i F.nan) (o'.tau.getD i F.nan) ∧
        F.NotAbove (o'.phi.getD i F.nan) (o.phi.getD i F.nan) ∧
        F.NotAbove (sd'.getD i F.nan) (sd.getD i F.nan) ∧
        ((g.jb < g'.jb ∧ g.jb ≤ 190 ∧ 131 ≤ g'.jb) ∨ (i < 84 ∧ g.v < g'.v ∧ g.v < 300 ∧ 225 < g'.v) →
          F.Drops (o'.phi.getD i F.nan) (o.phi.getD i F.nan) ∧
          F.Drops (sd'.getD i F.nan) (sd.getD i F.nan)) := by
  refine ⟨_, _, _, _, BSSA14.gives h, BSSA14.gives h', rfl, rfl, by rw [List.length_map, BSSA14.table_length], ?_⟩
  intro i hi
  rw [← BSSA14.table_length] at hi
  obtain ⟨-, -, -, -, -, -, v0, v1, v2, d0, s1, s2, s3, s4, q1, q2⟩ := BSSA14.mag_rows ⟨i, hi⟩
  simp only [Fin.getElem_fin] at v0 v1 v2 d0 s1 s2 s3 s4 q1 q2
  have hc : BSSA14.table[i] ∈ BSSA14.table := List.getElem_mem hi
  have hv' : 0 < g'.v := hv.trans_le ev
  obtain ⟨o1, o2, o3, o4, o5, o6, -, o7, -⟩ := BSSA14.std_facts hc g hv
    (BSSA14.mechOf (s.get "mechanism")) (BSSA14.regOf (s.get "region"))
  obtain ⟨p1, p2, p3, p4, p5, p6, -, p7, -⟩ := BSSA14.std_facts hc g' hv'
    (BSSA14.mechOf (s'.get "mechanism")) (BSSA14.regOf (s'.get "region"))
  simp only [BSSA14.out, getD_row _ _ hi]
  simp only [F.Drops, F.Same, F.NotAbove, o1, o2, o3, p1, p2, p3, true_and]
  have et := BSSA14.tau_val BSSA14.table[i] g (BSSA14.mechOf (s.get "mechanism")) (BSSA14.regOf (s.get "region"))
  have et' := BSSA14.tau_val BSSA14.table[i] g' (BSSA14.mechOf (s'.get "mechanism")) (BSSA14.regOf (s'.get "region"))
  have ep := BSSA14.phi_val q1 q2 g (BSSA14.mechOf (s.get "mechanism")) (BSSA14.regOf (s.get "region"))
  have ep' := BSSA14.phi_val q1 q2 g' (BSSA14.mechOf (s'.get "mechanism")) (BSSA14.regOf (s'.get "region"))
  rw [em] at et' ep'
  have v0' : (0 : ℝ) ≤ BSSA14.table[i].dphi_V := by exact_mod_cast v0
  have d0' : (0 : ℝ) < BSSA14.table[i].dphi_R := by exact_mod_cast d0
  have s1' : ((78 : ℚ) : ℝ) < BSSA14.table[i].R_1 := by exact_mod_cast s1
  have s2' : (BSSA14.table[i].R_1 : ℝ) < ((131 : ℚ) : ℝ) := by exact_mod_cast s2
  have s3' : ((190 : ℚ) : ℝ) < BSSA14.table[i].R_2 := by exact_mod_cast s3
  push_cast at s1' s2' s3'
  have hlv : 0 < Real.log ((300 : ℝ) / 225) := Real.log_pos (by norm_num)
  have hlr : 0 < Real.log ((BSSA14.table[i].R_2 : ℝ) / BSSA14.table[i].R_1) :=
    Real.log_pos (by rw [lt_div_iff₀ (by linarith)]; linarith)
  have X : BSSA14.velX g'.v ≤ BSSA14.velX g.v :=
    clip_le (div_le_div_of_nonneg_right (Real.log_le_log (by positivity) (by
      apply div_le_div_of_nonneg_left (by norm_num) hv ev)) hlv.le)
  have X' : g.v < g'.v → g.v < 300 → 225 < g'.v → BSSA14.velX g'.v < BSSA14.velX g.v := fun a b c =>
    clip_lt (div_lt_div_of_pos_right (Real.log_lt_log (by positivity) (by
      apply div_lt_div_of_pos_left (by norm_num) hv a)) hlv)
      (by rw [div_lt_one hlv]; exact Real.log_lt_log (by positivity) (by
            apply div_lt_div_of_pos_left (by norm_num) (by norm_num) c))
      (div_pos (Real.log_pos (by rw [lt_div_iff₀ hv]; linarith)) hlv) (by norm_num)
  have mx : ∀ r : ℝ, 0 < max r 0.1 := fun r => lt_max_of_lt_right (by norm_num)
  have R0 : (0 : ℝ) < BSSA14.table[i].R_1 := by linarith
  have Y : BSSA14.distX BSSA14.table[i] g.jb ≤ BSSA14.distX BSSA14.table[i] g'.jb :=
    clip_le (div_le_div_of_nonneg_right (Real.log_le_log (div_pos (mx _) R0) (by
      apply div_le_div_of_nonneg_right (max_le_max_right _ er) R0.le)) hlr.le)
  have Y' : g.jb < g'.jb → g.jb ≤ 190 → 131 ≤ g'.jb →
      BSSA14.distX BSSA14.table[i] g.jb < BSSA14.distX BSSA14.table[i] g'.jb := fun a b c => by
    have e : max g'.jb 0.1 = g'.jb := max_eq_left (by linarith)
    have l : max g.jb 0.1 < max g'.jb 0.1 := by rw [e]; exact max_lt a (by linarith)
    refine clip_lt (div_lt_div_of_pos_right (Real.log_lt_log (div_pos (mx _) R0)
      (div_lt_div_of_pos_right l R0)) hlr) ?_ ?_ (by norm_num)
    · rw [div_lt_one hlr]
      exact Real.log_lt_log (div_pos (mx _) R0) (div_lt_div_of_pos_right (max_lt (by linarith) (by linarith)) R0)
    · refine div_pos (Real.log_pos ?_) hlr
      rw [lt_div_iff₀ R0, e]; linarith
  generalize BSSA14.velX g.v = x at *
  generalize BSSA14.distX BSSA14.table[i] g.jb = y at *
  generalize BSSA14.velX g'.v = x' at *
  generalize BSSA14.distX BSSA14.table[i] g'.jb = y' at *
  have m1 := mul_le_mul_of_nonneg_left X v0'
  have m2 := mul_le_mul_of_nonneg_left Y d0'.le
  have le : (BSSA14.phi BSSA14.table[i] (g.toIn (BSSA14.mechOf (s.get "mechanism")) (BSSA14.regOf (s.get "region")))).val ≤
    (BSSA14.phi BSSA14.table[i] (g'.toIn (BSSA14.mechOf (s'.get "mechanism")) (BSSA14.regOf (s'.get "region")))).val := by
    rw [ep, ep']; linarith
  refine ⟨by rw [et, et'], le, ?_, fun w => ?_⟩
  · refine (pow_le_pow_iff_left₀ o5 p5 (n := 2) (by norm_num)).1 ?_
    rw [p4, o4, et, et']
    have := pow_le_pow_left₀ (by linarith) le 2
    linarith
  · have lt : (BSSA14.phi BSSA14.table[i] (g.toIn (BSSA14.mechOf (s.get "mechanism")) (BSSA14.regOf (s.get "region")))).val <
      (BSSA14.phi BSSA14.table[i] (g'.toIn (BSSA14.mechOf (s'.get "mechanism")) (BSSA14.regOf (s'.get "region")))).val := by
      rw [ep, ep']
      rcases w with ⟨a, b, c⟩ | ⟨a, b, c, d⟩
      · have := mul_lt_mul_of_pos_left (Y' a b c) d0'
        linarith
      · have v1' : ((0 : ℚ) : ℝ) < BSSA14.table[i].dphi_V := by exact_mod_cast v1 a
        push_cast at v1'
        have := mul_lt_mul_of_pos_left (X' b c d) v1'
        linarith
    exact ⟨lt, std_lt o5 p5 (by linarith) o4 (by rw [p4, et, et']) lt⟩

/-- a straight line between two values -/
theorem line_lt {a b t t' : ℝ} (h : b < a) (ht : t < t') : a + (b - a) * t' < a + (b - a) * t := by
  have := mul_lt_mul_of_neg_left ht (show b - a < 0 by linarith)
  linarith

theorem line_gt {a b t t' : ℝ} (h : a < b) (ht : t < t') : a + (b - a) * t < a + (b - a) * t' := by
  have := mul_lt_mul_of_pos_left ht (show 0 < b - a by linarith)
  linarith

theorem line_le {a b t t' : ℝ} (h : b ≤ a) (ht : t ≤ t') : a + (b - a) * t' ≤ a + (b - a) * t := by
  have := mul_le_mul_of_nonpos_left ht (show b - a ≤ 0 by linarith)
  linarith

theorem line_ge {a b t t' : ℝ} (h : a ≤ b) (ht : t ≤ t') : a + (b - a) * t ≤ a + (b - a) * t' := by
  have := mul_le_mul_of_nonneg_left ht (show 0 ≤ b - a by linarith)
  linarith

/-- a total standard deviation follows its parts -/
theorem std_le {a b c d t u : ℝ} (ha : 0 ≤ a) (hb : 0 ≤ b) (hc : 0 ≤ c) (ht : 0 ≤ t) (h1 : a ^ 2 = t ^ 2 + c ^ 2)
    (h2 : b ^ 2 = u ^ 2 + d ^ 2) (h : c ≤ d) (h' : t ≤ u) : a ≤ b := by
  refine (pow_le_pow_iff_left₀ ha hb (n := 2) (by norm_num)).1 ?_
  rw [h1, h2]
  have := pow_le_pow_left₀ hc h 2
  have := pow_le_pow_left₀ ht h' 2
  linarith

theorem std_lt_left {a b c d t u : ℝ} (hb : 0 ≤ b) (hc : 0 ≤ c) (ht : 0 ≤ t) (h1 : a ^ 2 = t ^ 2 + c ^ 2)
    (h2 : b ^ 2 = u ^ 2 + d ^ 2) (h : c ≤ d) (h' : t < u) : a < b := by
  apply lt_of_pow_lt_pow_left₀ 2 hb
  rw [h1, h2]
  have := pow_le_pow_left₀ hc h 2
  have := pow_lt_pow_left₀ h' ht (n := 2) (by norm_num)
  linarith

/-! ### CY14 -/

namespace CY14

theorem mag_rows : ∀ i : Fin table.length, table[i].tau_2 < table[i].tau_1 ∧ table[i].sigma_2 ≤ table[i].sigma_1 ∧
    (i.val < 18 ∨ 24 ≤ i.val → table[i].sigma_2 < table[i].sigma_1) ∧
    (18 ≤ i.val → i.val < 24 → table[i].sigma_2 = table[i].sigma_1) ∧
    (i.val ≠ 7 → (i.val < 15 ∨ 21 ≤ i.val) → table[i].sigma_2jp < table[i].sigma_1) ∧
    ((i.val = 7 ∨ 15 ≤ i.val ∧ i.val < 21) → table[i].sigma_1 < table[i].sigma_2jp) ∧ 0 < table[i].tau_2 ∧
    0 < table[i].sigma_3 := by
  decide +kernel

/-- the standard deviations on rock -/
theorem std_rock {c : Row} (hc : c ∈ table) {g : Given} (hr : 0 ≤ g.rup) (hv : 1130 ≤ g.v) (k : Kind) :
    (tau c (g.toIn k)).val = √((c.tau_1 + ((c.tau_2 : ℝ) - c.tau_1) * ((min (max g.mag 5) 6.5 - 5) / 1.5)) ^ 2) ∧
    (phi c (g.toIn k)).val = (c.sigma_1 + ((if k.reg = .japan then (c.sigma_2jp : ℝ) else c.sigma_2) - c.sigma_1) *
      ((min (max g.mag 5) 6.5 - 5) / 1.5)) * √(if k.measured then 1.7 else c.sigma_3 + 1) := by
  obtain ⟨-, -, n⟩ := nl0_facts hc hr k
  constructor
  · simp only [tau, tauMag, clippedMag, fsimp, n hv]
    simp only [Given.toIn, fsimp]
    congr 1; ring
  · simp only [phi, clippedMag, fsimp, n hv]
    by_cases hj : k.reg = .japan <;> by_cases hm : k.measured = true <;>
      simp only [Given.toIn, fsimp, hj, hm, if_true, if_false, Bool.false_eq_true] <;>
      (congr 1 <;> first | ring | (congr 1; ring))

end CY14

/-- **C103 (CY14).** Two rock scenarios (1130 m/s or more; everything else may differ) in the same region
and with the same source of the velocity, the second of larger magnitude, the two not on the same plateau
(5 or less, 6.5 or more).  `tau` falls strictly at every ordinate.  Outside Japan `phi` falls strictly below
0.75 s (index 18), for PGA and PGV, and stays at the other periods, and the total falls strictly everywhere.
In Japan `phi` rises at the ordinates with index 7 and 15 to 20 and falls, like the total, at the others. -/
theorem C103_cy14 (s s' : Scenario) (g g' : CY14.Given) (h : CY14.Source s g) (h' : CY14.Source s' g')
    (hreg : s'.get "region" = s.get "region") (hsrc : s'.get "vs_source" = s.get "vs_source")
    (hr : 0 ≤ g.rup) (hr' : 0 ≤ g'.rup) (hv : 1130 ≤ g.v) (hv' : 1130 ≤ g'.v)
    (hm : g.mag < g'.mag) (hm1 : g.mag < 6.5) (hm2 : 5 < g'.mag) :
    ∃ o o' sd sd', Gives CY14.cls s o ∧ Gives CY14.cls s' o' ∧ o.gmm.lnStd = some sd ∧ o'.gmm.lnStd = some sd' ∧
      sd.length = 26 ∧ ∀ i < 26,
        F.Drops (o.tau.getD i F.nan) (o'.tau.getD i F.nan) ∧
        (s.get "region" ≠ .str "japan" →
          (i < 18 ∨ 24 ≤ i → F.Drops (o.phi.getD i F.nan) (o'.phi.getD i F.nan)) ∧
          (18 ≤ i → i < 24 → F.Same (o.phi.getD i F.nan) (o'.phi.getD i F.nan)) ∧
          F.Drops (sd.getD i F.nan) (sd'.getD i F.nan)) ∧
        (s.get "region" = .str "japan" →
          (i = 7 ∨ 15 ≤ i ∧ i < 21 → F.Drops (o'.phi.getD i F.nan) (o.phi.getD i F.nan)) ∧
          (i ≠ 7 → i < 15 ∨ 21 ≤ i → F.Drops (o.phi.getD i F.nan) (o'.phi.getD i F.nan) ∧
            F.Drops (sd.getD i F.nan) (sd'.getD i F.nan))) := by
  have e1 : (CY14.kindOf s').reg = (CY14.kindOf s).reg := by simp [CY14.kindOf, hreg]
  have e2 : (CY14.kindOf s').measured = (CY14.kindOf s).measured := by simp [CY14.kindOf, hsrc]
  have hj : (CY14.kindOf s).reg = .japan ↔ s.get "region" = .str "japan" := by
    have := CY14.regOf_japan (s.get "region")
    simp only [Val.isStr] at this
    simpa [CY14.kindOf] using (decide_eq_decide.1 this).symm
  refine ⟨_, _, _, _, CY14.gives h, CY14.gives h', rfl, rfl, by rw [List.length_map, CY14.table_length], ?_⟩
  intro i hi
  rw [← CY14.table_length] at hi
  have hc : CY14.table[i] ∈ CY14.table := List.getElem_mem hi
  obtain ⟨r1, r2, r3, r4, r5, r6, r7, r8⟩ := CY14.mag_rows ⟨i, hi⟩
  simp only [Fin.getElem_fin] at r1 r2 r3 r4 r5 r6 r7 r8
  obtain ⟨a1, a2, a3, a4, a5, -, a6, a7⟩ := CY14.std_facts hc hr (CY14.kindOf s)
  obtain ⟨b1, b2, b3, b4, b5, -, b6, b7⟩ := CY14.std_facts hc hr' (CY14.kindOf s')
  obtain ⟨t1, p1⟩ := CY14.std_rock hc hr hv (CY14.kindOf s)
  obtain ⟨t2, p2⟩ := CY14.std_rock hc hr' hv' (CY14.kindOf s')
  rw [e1, e2] at p2
  simp only [CY14.out, getD_row _ _ hi]
  simp only [F.Drops, F.Same, a1, a2, a3, b1, b2, b3, true_and]
  have lt : (min (max g.mag 5) (6.5 : ℝ) - 5) / 1.5 < (min (max g'.mag 5) (6.5 : ℝ) - 5) / 1.5 :=
    div_lt_div_of_pos_right (by linarith [clip_lt hm hm1 hm2 (by norm_num : (5 : ℝ) < 6.5)]) (by norm_num)
  have c1 : (min (max g'.mag 5) (6.5 : ℝ) - 5) / 1.5 ≤ 1 := by
    rw [div_le_one (by norm_num)]; linarith [min_le_right (max g'.mag 5) (6.5 : ℝ)]
  have c0 : 0 ≤ (min (max g'.mag 5) (6.5 : ℝ) - 5) / 1.5 :=
    div_nonneg (by linarith [le_min (le_max_right g'.mag 5) (by norm_num : (5 : ℝ) ≤ 6.5)]) (by norm_num)
  generalize (min (max g.mag 5) (6.5 : ℝ) - 5) / 1.5 = t at *
  generalize (min (max g'.mag 5) (6.5 : ℝ) - 5) / 1.5 = t' at *
  have r1' : (CY14.table[i].tau_2 : ℝ) < CY14.table[i].tau_1 := by exact_mod_cast r1
  have r7' : (0 : ℝ) < CY14.table[i].tau_2 := by exact_mod_cast r7
  have r8' : (0 : ℝ) < CY14.table[i].sigma_3 := by exact_mod_cast r8
  have T : (CY14.tau CY14.table[i] (g'.toIn (CY14.kindOf s'))).val <
      (CY14.tau CY14.table[i] (g.toIn (CY14.kindOf s))).val := by
    rw [t1, t2]
    have l := line_lt r1' lt
    have p : 0 < (CY14.table[i].tau_1 : ℝ) + ((CY14.table[i].tau_2 : ℝ) - CY14.table[i].tau_1) * t' := by
      have := mul_le_mul_of_nonpos_left c1 (show (CY14.table[i].tau_2 : ℝ) - CY14.table[i].tau_1 ≤ 0 by linarith)
      linarith
    rw [Real.sqrt_sq p.le, Real.sqrt_sq (by linarith)]
    exact l
  have S : (0 : ℝ) < √(if (CY14.kindOf s).measured then 1.7 else (CY14.table[i].sigma_3 : ℝ) + 1) := by
    apply Real.sqrt_pos.2
    split
    · norm_num
    · linarith
  generalize √(if (CY14.kindOf s).measured then 1.7 else (CY14.table[i].sigma_3 : ℝ) + 1) = S0 at *
  refine ⟨T, fun w => ?_, fun w => ?_⟩
  · rw [if_neg (mt hj.1 w)] at p1 p2
    have r2' : (CY14.table[i].sigma_2 : ℝ) ≤ CY14.table[i].sigma_1 := by exact_mod_cast r2
    refine ⟨fun q => ?_, fun q q' => ?_, ?_⟩
    · rw [p1, p2]
      exact mul_lt_mul_of_pos_right (line_lt (by exact_mod_cast r3 q) lt) S
    · rw [p1, p2, r4 q q']; ring
    · refine std_lt_left a6.le b4.le b5 b7 a7 ?_ T
      rw [p1, p2]
      exact mul_le_mul_of_nonneg_right (line_le r2' lt.le) S.le
  · rw [if_pos (hj.2 w)] at p1 p2
    refine ⟨fun q => ?_, fun q q' => ?_⟩
    · rw [p1, p2]
      exact mul_lt_mul_of_pos_right (line_gt (by exact_mod_cast r6 q) lt) S
    · have P : (CY14.phi CY14.table[i] (g'.toIn (CY14.kindOf s'))).val <
          (CY14.phi CY14.table[i] (g.toIn (CY14.kindOf s))).val := by
        rw [p1, p2]
        exact mul_lt_mul_of_pos_right (line_lt (by exact_mod_cast r5 q q') lt) S
      exact ⟨P, std_lt_left a6.le b4.le b5 b7 a7 P.le T⟩

/-! ### ASK14 -/

namespace ASK14

theorem mag_rows : ∀ i : Fin table.length, 0.4 < table[i].s1e ∧ 0.4 < table[i].s2e ∧ 0.4 < table[i].s5 ∧
    0.4 < table[i].s6 ∧
    (i.val ≠ 23 → table[i].s4 < table[i].s3) ∧ (i.val = 23 → table[i].s4 = table[i].s3) ∧
    (i.val < 13 ∨ 22 ≤ i.val → table[i].s2e < table[i].s1e ∧ table[i].s2m < table[i].s1m) ∧
    (13 ≤ i.val → i.val < 22 → table[i].s1e < table[i].s2e ∧ table[i].s1m < table[i].s2m) ∧
    (i.val < 12 ∨ i.val = 22 → table[i].s5 < table[i].s6) ∧
    (12 ≤ i.val → i.val ≠ 22 → table[i].s6 < table[i].s5) := by
  decide +kernel

/-- `phi` moves with `phiAl` -/
theorem phi_le {c : Row} (hc : c ∈ table) {g g' : Given} {k k' : Kind}
    (e : (deriv c (g'.toIn k')).val = (deriv c (g.toIn k)).val)
    (h : (phiAl c (g.toIn k)).val ≤ (phiAl c (g'.toIn k')).val) :
    (phi c (g.toIn k)).val ≤ (phi c (g'.toIn k')).val := by
  obtain ⟨-, p⟩ := phiB_facts hc g k
  obtain ⟨-, p'⟩ := phiB_facts hc g' k'
  obtain ⟨-, a, -⟩ := phiAl_facts hc g k
  have q : (phiB c (g.toIn k)).val ^ 2 ≤ (phiB c (g'.toIn k')).val ^ 2 := by
    rw [p, p']
    exact max_le_max_right _ (by linarith [pow_le_pow_left₀ a h 2])
  have hv : ∀ (g : Given) (k : Kind), (phi c (g.toIn k)).val = Real.sqrt ((phiB c (g.toIn k)).val ^ 2 *
      (1 + (deriv c (g.toIn k)).val) ^ 2 + 0.4 ^ 2) := fun g k => by simp only [phi, fsimp]
  rw [hv, hv, e]
  apply Real.sqrt_le_sqrt
  have := mul_le_mul_of_nonneg_right q (sq_nonneg (1 + (deriv c (g.toIn k)).val))
  linarith

theorem phiAl_val (c : Row) (g : Given) (k : Kind) : (phiAl c (g.toIn k)).val =
    if k.reg = .japan then c.s5 + ((c.s6 : ℝ) - c.s5) * min (max ((g.rup - 30) / 50) 0) 1
    else if k.measured then c.s1m + ((c.s2m : ℝ) - c.s1m) * min (max ((g.mag - 4) / 2) 0) 1
    else c.s1e + ((c.s2e : ℝ) - c.s1e) * min (max ((g.mag - 4) / 2) 0) 1 := by
  by_cases hj : k.reg = .japan <;> by_cases hm : k.measured = true <;>
    simp only [phiAl, Given.toIn, fsimp, hj, hm, if_true, if_false, Bool.false_eq_true]

theorem reg_japan (s : Scenario) : (kindOf s).reg = .japan ↔ s.get "region" = .str "japan" := by
  simp only [kindOf, regOf]
  by_cases h1 : s.get "region" = .str "taiwan"
  · simp [h1]
  by_cases h2 : s.get "region" = .str "china"
  · simp [h2]
  by_cases h3 : s.get "region" = .str "japan"
  · simp [h3]
  · simp [Val.isStr, h1, h2, h3]

/-- what the hanging-wall term needs -/
def HangOk (s : Scenario) (g : Given) : Prop :=
  (s.get "on_hanging_wall").isOn → g.x ≠ none ∧ 0 < g.dip ∧ g.dip < 90 ∧ ∀ w, g.width = some w → 0 < w

theorem HangOk.ok {s : Scenario} {g : Given} (h : HangOk s g) : g.HwOk (kindOf s) := fun hh =>
  h (by simpa [kindOf] using hh)

end ASK14

/-- **C103 (ASK14, magnitude).** Two rock scenarios (960 m/s or more; everything else may differ) outside
Japan and with the same source of the velocity, the second of larger magnitude.  `tau` falls at every
period and PGA, strictly unless both are 5 or less or both 7 or more, and is the same for PGV.  `phi` never
rises at the first 13 periods, PGA and PGV and never falls at the other nine; with an inferred velocity it
does so strictly unless both magnitudes are 4 or less or both 6 or more.  The total never rises at the first
13 periods, PGA and PGV. -/
theorem C103_ask14_magnitude (s s' : Scenario) (g g' : ASK14.Given) (h : ASK14.Source s g) (h' : ASK14.Source s' g')
    (hw : ASK14.HangOk s g) (hw' : ASK14.HangOk s' g') (hsrc : s'.get "vs_source" = s.get "vs_source")
    (hj : s.get "region" ≠ .str "japan") (hj' : s'.get "region" ≠ .str "japan")
    (hv : 960 ≤ g.v) (hv' : 960 ≤ g'.v) (hm : g.mag < g'.mag) :
    ∃ o o' sd sd', Gives ASK14.cls s o ∧ Gives ASK14.cls s' o' ∧ o.gmm.lnStd = some sd ∧ o'.gmm.lnStd = some sd' ∧
      sd.length = 24 ∧ ∀ i < 24,
        F.NotAbove (o.tau.getD i F.nan) (o'.tau.getD i F.nan) ∧
        (i ≠ 23 → g.mag < 7 → 5 < g'.mag → F.Drops (o.tau.getD i F.nan) (o'.tau.getD i F.nan)) ∧
        (i = 23 → F.Same (o.tau.getD i F.nan) (o'.tau.getD i F.nan)) ∧
        (i < 13 ∨ 22 ≤ i → F.NotAbove (o.phi.getD i F.nan) (o'.phi.getD i F.nan) ∧
          F.NotAbove (sd.getD i F.nan) (sd'.getD i F.nan)) ∧
        (13 ≤ i → i < 22 → F.NotAbove (o'.phi.getD i F.nan) (o.phi.getD i F.nan)) ∧
        (s.get "vs_source" = .str "inferred" → g.mag < 6 → 4 < g'.mag →
          (i < 13 ∨ 22 ≤ i → F.Drops (o.phi.getD i F.nan) (o'.phi.getD i F.nan) ∧
            F.Drops (sd.getD i F.nan) (sd'.getD i F.nan)) ∧
          (13 ≤ i → i < 22 → F.Drops (o'.phi.getD i F.nan) (o.phi.getD i F.nan))) := by
  have e2 : (ASK14.kindOf s').measured = (ASK14.kindOf s).measured := by simp [ASK14.kindOf, hsrc]
  have e3 : s.get "vs_source" = .str "inferred" → (ASK14.kindOf s).measured = false := fun w => by simp [ASK14.kindOf, w]
  refine ⟨_, _, _, _, ASK14.gives h fun e => (hw.ok e).1, ASK14.gives h' fun e => (hw'.ok e).1, rfl, rfl,
    by rw [List.length_map, ASK14.table_length], ?_⟩
  intro i hi
  rw [← ASK14.table_length] at hi
  have hc : ASK14.table[i] ∈ ASK14.table := List.getElem_mem hi
  obtain ⟨q1, q2, -, -, q3, q4, q5, q6, -, -⟩ := ASK14.mag_rows ⟨i, hi⟩
  simp only [Fin.getElem_fin] at q1 q2 q3 q4 q5 q6
  obtain ⟨a1, a2, a3, a4, a5, a6, a7⟩ := ASK14.std_facts hc hw.ok (show 0 < g.v by linarith)
  obtain ⟨b1, b2, b3, b4, b5, b6, b7⟩ := ASK14.std_facts hc hw'.ok (show 0 < g'.v by linarith)
  obtain ⟨-, -, -, d⟩ := ASK14.deriv_facts hc hw.ok (show 0 < g.v by linarith)
  obtain ⟨-, -, -, d'⟩ := ASK14.deriv_facts hc hw'.ok (show 0 < g'.v by linarith)
  have hl := (ASK14.vlin_pos hc).2.1
  have d0 := d (by linarith)
  have d1 := d' (by linarith)
  have t0 := (a7 (by linarith)).1
  have t0' := (b7 (by linarith)).1
  have P := ASK14.phiAl_val ASK14.table[i] g (ASK14.kindOf s)
  have P' := ASK14.phiAl_val ASK14.table[i] g' (ASK14.kindOf s')
  rw [if_neg (mt (ASK14.reg_japan s).1 hj)] at P
  rw [if_neg (mt (ASK14.reg_japan s').1 hj'), e2] at P'
  have T : (ASK14.tau ASK14.table[i] (g.toIn (ASK14.kindOf s))).val =
      ASK14.table[i].s3 + ((ASK14.table[i].s4 : ℝ) - ASK14.table[i].s3) * min (max ((g.mag - 5) / 2) 0) 1 := by
    simp only [ASK14.tau, fsimp, d0, add_zero, mul_one, ASK14.tauB]
    simp only [ASK14.Given.toIn, fsimp]
  have T' : (ASK14.tau ASK14.table[i] (g'.toIn (ASK14.kindOf s'))).val =
      ASK14.table[i].s3 + ((ASK14.table[i].s4 : ℝ) - ASK14.table[i].s3) * min (max ((g'.mag - 5) / 2) 0) 1 := by
    simp only [ASK14.tau, fsimp, d1, add_zero, mul_one, ASK14.tauB]
    simp only [ASK14.Given.toIn, fsimp]
  have u1 : min (max ((g.mag - 5) / 2) 0) 1 ≤ min (max ((g'.mag - 5) / 2) 0) (1 : ℝ) := clip_le (by linarith)
  have u2 : g.mag < 7 → 5 < g'.mag → min (max ((g.mag - 5) / 2) 0) 1 < min (max ((g'.mag - 5) / 2) 0) (1 : ℝ) :=
    fun a b => clip_lt (by linarith) (by linarith) (by linarith) (by norm_num)
  have w1 : min (max ((g.mag - 4) / 2) 0) 1 ≤ min (max ((g'.mag - 4) / 2) 0) (1 : ℝ) := clip_le (by linarith)
  have w2 : g.mag < 6 → 4 < g'.mag → min (max ((g.mag - 4) / 2) 0) 1 < min (max ((g'.mag - 4) / 2) 0) (1 : ℝ) :=
    fun a b => clip_lt (by linarith) (by linarith) (by linarith) (by norm_num)
  have w3 := ASK14.clip01 ((g.mag - 4) / 2)
  have w4 := ASK14.clip01 ((g'.mag - 4) / 2)
  generalize min (max ((g.mag - 5) / 2) 0) (1 : ℝ) = t at *
  generalize min (max ((g'.mag - 5) / 2) 0) (1 : ℝ) = t' at *
  generalize min (max ((g.mag - 4) / 2) 0) (1 : ℝ) = w at *
  generalize min (max ((g'.mag - 4) / 2) 0) (1 : ℝ) = w' at *
  have q4' : (ASK14.table[i].s4 : ℝ) ≤ ASK14.table[i].s3 := by
    by_cases z : i = 23
    · rw [q4 z]
    · have : (ASK14.table[i].s4 : ℝ) < ASK14.table[i].s3 := by exact_mod_cast q3 z
      exact this.le
  have TT : (ASK14.tau ASK14.table[i] (g'.toIn (ASK14.kindOf s'))).val ≤
      (ASK14.tau ASK14.table[i] (g.toIn (ASK14.kindOf s))).val := by
    rw [T, T']; exact line_le q4' u1
  have dn : i < 13 ∨ 22 ≤ i → (ASK14.phiAl ASK14.table[i] (g'.toIn (ASK14.kindOf s'))).val ≤
      (ASK14.phiAl ASK14.table[i] (g.toIn (ASK14.kindOf s))).val := fun z => by
    obtain ⟨x1, x2⟩ := q5 z
    rw [P, P']
    split
    · exact line_le (by exact_mod_cast x2.le) w1
    · exact line_le (by exact_mod_cast x1.le) w1
  have ph : i < 13 ∨ 22 ≤ i → (ASK14.phi ASK14.table[i] (g'.toIn (ASK14.kindOf s'))).val ≤
      (ASK14.phi ASK14.table[i] (g.toIn (ASK14.kindOf s))).val := fun z =>
    ASK14.phi_le hc (by rw [d0, d1]) (dn z)
  have q1' : ((0.4 : ℚ) : ℝ) < ASK14.table[i].s1e := by exact_mod_cast q1
  have q2' : ((0.4 : ℚ) : ℝ) < ASK14.table[i].s2e := by exact_mod_cast q2
  push_cast at q1' q2'
  simp only [ASK14.out, getD_row _ _ hi]
  simp only [F.Drops, F.Same, F.NotAbove, a1, a2, a3, b1, b2, b3, true_and]
  refine ⟨TT, fun z m1 m2 => ?_, fun z => ?_, fun z => ⟨ph z, ?_⟩, fun z z' => ?_, fun inf m1 m2 => ?_⟩
  · rw [T, T']; exact line_lt (by exact_mod_cast q3 z) (u2 m1 m2)
  · rw [T, T', q4 z]; ring
  · exact std_le (by linarith) (by linarith) (by linarith) t0'.le b4 a4 (ph z) TT
  · obtain ⟨x1, x2⟩ := q6 z z'
    refine ASK14.phi_le hc (by rw [d0, d1]) ?_
    rw [P, P']
    split
    · exact line_ge (by exact_mod_cast x2.le) w1
    · exact line_ge (by exact_mod_cast x1.le) w1
  · have em := e3 inf
    rw [em, if_neg (by simp)] at P P'
    have big : ∀ u : ℝ, 0 ≤ u → u ≤ 1 →
        0.4 < (ASK14.table[i].s1e : ℝ) + ((ASK14.table[i].s2e : ℝ) - ASK14.table[i].s1e) * u := fun u u0 u1 => by
      have a := mul_le_mul_of_nonneg_left q1'.le (show 0 ≤ 1 - u by linarith)
      have b := mul_le_mul_of_nonneg_left q2'.le u0
      rcases eq_or_lt_of_le u0 with q | q
      · rw [← q]; linarith
      · have := mul_lt_mul_of_pos_left q2' q
        linarith
    refine ⟨fun z => ?_, fun z z' => ?_⟩
    · have X : (ASK14.phi ASK14.table[i] (g'.toIn (ASK14.kindOf s'))).val <
          (ASK14.phi ASK14.table[i] (g.toIn (ASK14.kindOf s))).val := by
        refine ASK14.phi_lt hc (by rw [d1]; norm_num) (by rw [d0, d1]) (by rw [P]; exact big _ w3.1 w3.2) ?_
        rw [P, P']
        have x1 := (q5 z).1
        exact line_lt (by exact_mod_cast x1) (w2 m1 m2)
      refine ⟨X, ?_⟩
      exact std_lt_left (by linarith) t0'.le (by linarith) (by rw [b4]; ring) (by rw [a4]; ring) TT X
    · refine ASK14.phi_lt hc (by rw [d0]; norm_num) (by rw [d0, d1]) (by rw [P']; exact big _ w4.1 w4.2) ?_
      rw [P, P']
      have x1 := (q6 z z').1
      exact line_gt (by exact_mod_cast x1) (w2 m1 m2)

/-- **C103 (ASK14, Japan).** Two rock scenarios in Japan, of any magnitudes and any sources of the
velocity, the second at a larger distance: `phi` rises at the first 12 periods and PGA and falls at the
others — strictly unless both distances are 30 km or less or both 80 km or more. -/
theorem C103_ask14_japan (s s' : Scenario) (g g' : ASK14.Given) (h : ASK14.Source s g) (h' : ASK14.Source s' g')
    (hw : ASK14.HangOk s g) (hw' : ASK14.HangOk s' g')
    (hj : s.get "region" = .str "japan") (hj' : s'.get "region" = .str "japan")
    (hv : 960 ≤ g.v) (hv' : 960 ≤ g'.v) (hr : g.rup < g'.rup) (hr1 : g.rup < 80) (hr2 : 30 < g'.rup) :
    ∃ o o' sd, Gives ASK14.cls s o ∧ Gives ASK14.cls s' o' ∧ o.gmm.lnStd = some sd ∧
      sd.length = 24 ∧ ∀ i < 24,
        (i < 12 ∨ i = 22 → F.Drops (o'.phi.getD i F.nan) (o.phi.getD i F.nan)) ∧
        (12 ≤ i → i ≠ 22 → F.Drops (o.phi.getD i F.nan) (o'.phi.getD i F.nan)) := by
  refine ⟨_, _, _, ASK14.gives h fun e => (hw.ok e).1, ASK14.gives h' fun e => (hw'.ok e).1, rfl,
    by rw [List.length_map, ASK14.table_length], ?_⟩
  intro i hi
  rw [← ASK14.table_length] at hi
  have hc : ASK14.table[i] ∈ ASK14.table := List.getElem_mem hi
  obtain ⟨-, -, q1, q2, -, -, -, -, q3, q4⟩ := ASK14.mag_rows ⟨i, hi⟩
  simp only [Fin.getElem_fin] at q1 q2 q3 q4
  obtain ⟨-, -, a3, -⟩ := ASK14.std_facts hc hw.ok (show 0 < g.v by linarith)
  obtain ⟨-, -, b3, -⟩ := ASK14.std_facts hc hw'.ok (show 0 < g'.v by linarith)
  obtain ⟨-, -, -, d⟩ := ASK14.deriv_facts hc hw.ok (show 0 < g.v by linarith)
  obtain ⟨-, -, -, d'⟩ := ASK14.deriv_facts hc hw'.ok (show 0 < g'.v by linarith)
  have hl := (ASK14.vlin_pos hc).2.1
  have d0 := d (by linarith)
  have d1 := d' (by linarith)
  have P := ASK14.phiAl_val ASK14.table[i] g (ASK14.kindOf s)
  have P' := ASK14.phiAl_val ASK14.table[i] g' (ASK14.kindOf s')
  rw [if_pos ((ASK14.reg_japan s).2 hj)] at P
  rw [if_pos ((ASK14.reg_japan s').2 hj')] at P'
  have w2 : min (max ((g.rup - 30) / 50) 0) 1 < min (max ((g'.rup - 30) / 50) 0) (1 : ℝ) :=
    clip_lt (by linarith) (by linarith) (by linarith) (by norm_num)
  have w3 := ASK14.clip01 ((g.rup - 30) / 50)
  have w4 := ASK14.clip01 ((g'.rup - 30) / 50)
  generalize min (max ((g.rup - 30) / 50) 0) (1 : ℝ) = w at *
  generalize min (max ((g'.rup - 30) / 50) 0) (1 : ℝ) = w' at *
  have q1' : ((0.4 : ℚ) : ℝ) < ASK14.table[i].s5 := by exact_mod_cast q1
  have q2' : ((0.4 : ℚ) : ℝ) < ASK14.table[i].s6 := by exact_mod_cast q2
  push_cast at q1' q2'
  have big : ∀ u : ℝ, 0 ≤ u → u ≤ 1 →
      0.4 < (ASK14.table[i].s5 : ℝ) + ((ASK14.table[i].s6 : ℝ) - ASK14.table[i].s5) * u := fun u u0 u1 => by
    have a := mul_le_mul_of_nonneg_left q1'.le (show 0 ≤ 1 - u by linarith)
    have b := mul_le_mul_of_nonneg_left q2'.le u0
    rcases eq_or_lt_of_le u0 with q | q
    · rw [← q]; linarith
    · have := mul_lt_mul_of_pos_left q2' q
      linarith
  simp only [ASK14.out, getD_row _ _ hi]
  simp only [F.Drops, a3, b3, true_and]
  refine ⟨fun z => ?_, fun z z' => ?_⟩
  · refine ASK14.phi_lt hc (by rw [d0]; norm_num) (by rw [d0, d1]) (by rw [P']; exact big _ w4.1 w4.2) ?_
    rw [P, P']
    exact line_gt (by exact_mod_cast q3 z) w2
  · refine ASK14.phi_lt hc (by rw [d1]; norm_num) (by rw [d0, d1]) (by rw [P]; exact big _ w3.1 w3.2) ?_
    rw [P, P']
    exact line_lt (by exact_mod_cast q4 z z') w2

/-! ### CB14 -/

namespace CB14

theorem mag_rows : ∀ i : Fin table.length, (i.val ≠ 6 → table[i].tau_2 < table[i].tau_1) ∧
    (i.val = 6 → table[i].tau_1 < table[i].tau_2) ∧
    (i.val < 12 ∨ 21 ≤ i.val → table[i].phi_2 < table[i].phi_1) ∧
    (12 ≤ i.val → i.val < 21 → table[i].phi_1 < table[i].phi_2) ∧
    (i.val < 19 ∨ 21 ≤ i.val → (table[i].tau_2 - table[i].tau_1) * (table[i].tau_1 + (table[i].tau_2 - table[i].tau_1)) +
      (table[i].phi_2 - table[i].phi_1) * (table[i].phi_1 + (table[i].phi_2 - table[i].phi_1)) < 0) := by
  decide +kernel

/-- the taper as a straight line in a clipped magnitude -/
theorem taper_line (a b m : ℝ) : spec_taper a b m = a + (b - a) * min (max (m - 4.5) 0) 1 := by
  unfold spec_taper
  split
  · rw [max_eq_right (by linarith), min_eq_left (by norm_num)]; ring
  · split
    · rw [max_eq_left (by linarith), min_eq_left (by linarith)]; ring
    · rw [max_eq_left (by linarith), min_eq_right (by linarith)]; ring

end CB14

/-- **C103 (CB14).** Two rock scenarios (1100 m/s or more; everything else may differ), the second of
larger magnitude, not both 4.5 or less nor both 5.5 or more.  `tau` falls strictly at every ordinate but
the seventh, where it rises; `phi` falls strictly at the first 12 ordinates, PGA and PGV and rises at the
other nine; the total falls strictly at the first 19, PGA and PGV. -/
theorem C103_cb14 (s s' : Scenario) (g g' : CB14.Given) (h : CB14.Source s g) (h' : CB14.Source s' g')
    (hreg : CB14.Regular g (CB14.mechOf (s.get "mechanism")))
    (hreg' : CB14.Regular g' (CB14.mechOf (s'.get "mechanism")))
    (hv : 1100 ≤ g.v) (hv' : 1100 ≤ g'.v) (hm : g.mag < g'.mag) (hm1 : g.mag < 5.5) (hm2 : 4.5 < g'.mag) :
    ∃ o o' sd sd', Gives CB14.cls s o ∧ Gives CB14.cls s' o' ∧ o.gmm.lnStd = some sd ∧ o'.gmm.lnStd = some sd' ∧
      sd.length = 23 ∧ ∀ i < 23,
        (i ≠ 6 → F.Drops (o.tau.getD i F.nan) (o'.tau.getD i F.nan)) ∧
        (i = 6 → F.Drops (o'.tau.getD i F.nan) (o.tau.getD i F.nan)) ∧
        (i < 12 ∨ 21 ≤ i → F.Drops (o.phi.getD i F.nan) (o'.phi.getD i F.nan)) ∧
        (12 ≤ i → i < 21 → F.Drops (o'.phi.getD i F.nan) (o.phi.getD i F.nan)) ∧
        (i < 19 ∨ 21 ≤ i → F.Drops (sd.getD i F.nan) (sd'.getD i F.nan)) := by
  obtain ⟨o, sd, g1, e1, l1, -, -, f⟩ := C50_std s g h (by linarith) hreg
  obtain ⟨o', sd', g2, e2, l2, -, -, f'⟩ := C50_std s' g' h' (by linarith) hreg'
  obtain ⟨p, g3, r⟩ := C50_rock s g h hv
  obtain ⟨p', g4, r'⟩ := C50_rock s' g' h' hv'
  obtain rfl := g1.unique g3
  obtain rfl := g2.unique g4
  refine ⟨_, _, sd, sd', g1, g2, e1, e2, l1, fun i hi => ?_⟩
  rw [← CB14.table_length] at hi
  obtain ⟨a1, a2, a3, a4, a5, a6, a7, a8⟩ := f i hi
  obtain ⟨b1, b2, b3, b4, -, b6, b7, b8⟩ := f' i hi
  obtain ⟨t1, p1⟩ := r i hi
  obtain ⟨t2, p2⟩ := r' i hi
  obtain ⟨q1, q2, q3, q4, q5⟩ := CB14.mag_rows ⟨i, hi⟩
  simp only [Fin.getElem_fin] at q1 q2 q3 q4 q5
  simp only [F.Drops, a1, a2, a3, b1, b2, b3, true_and]
  rw [CB14.taper_line] at t1 p1 t2 p2
  have lt : min (max (g.mag - 4.5) 0) 1 < min (max (g'.mag - 4.5) 0) (1 : ℝ) :=
    clip_lt (by linarith) (by linarith) (by linarith) (by norm_num)
  have c0 := ASK14.clip01 (g.mag - 4.5)
  have c1 := ASK14.clip01 (g'.mag - 4.5)
  generalize min (max (g.mag - 4.5) 0) (1 : ℝ) = t at *
  generalize min (max (g'.mag - 4.5) 0) (1 : ℝ) = t' at *
  refine ⟨fun w => ?_, fun w => ?_, fun w => ?_, fun w w' => ?_, fun w => ?_⟩
  · rw [t1, t2]; exact line_lt (by exact_mod_cast q1 w) lt
  · rw [t1, t2]; exact line_gt (by exact_mod_cast q2 w) lt
  · rw [p1, p2]; exact line_lt (by exact_mod_cast q3 w) lt
  · rw [p1, p2]; exact line_gt (by exact_mod_cast q4 w w') lt
  · apply lt_of_pow_lt_pow_left₀ 2 a8.le
    rw [b7, a7, t1, t2, p1, p2]
    exact two_sq_lt (by exact_mod_cast q5 w) lt c0.1 c1.2

/-! ### Instances -/

theorem CB14.exM_regular (m r h : ℝ) (mech : CB14.Mech) : CB14.Regular (CB14.exMG m r h) mech where
  dip := fun _ => by norm_num [CB14.exMG]
  hw := fun w => by norm_num [CB14.exMG] at w

example := C103_cb14 (CB14.exM 5 10 9) (CB14.exM 7 30 9) _ _ (CB14.exM_source 5 10 9) (CB14.exM_source 7 30 9)
  (CB14.exM_regular ..) (CB14.exM_regular ..) (by norm_num [CB14.exMG]) (by norm_num [CB14.exMG]) (by norm_num [CB14.exMG])
  (by norm_num [CB14.exMG]) (by norm_num [CB14.exMG])

namespace BSSA14
/-- a scenario with given magnitude, distance and velocity -/
noncomputable def exT (m r v : ℝ) (mech : String) : Scenario :=
  ⟨[("mag", .num m), ("dist_jb", .num r), ("v_s30", .num v), ("mechanism", .str mech)], []⟩
theorem exT_source (m r v : ℝ) (mech : String) : Source (exT m r v mech) ⟨m, r, v, none⟩ := by
  constructor <;> simp [exT, Scenario.get, Dict.get?, Val.ofOpt]
end BSSA14

example := C103_bssa14_magnitude (BSSA14.exT 4 20 400 "SS") (BSSA14.exT 7 20 400 "RS") _ _ (BSSA14.exT_source ..)
  (BSSA14.exT_source ..) (by norm_num) rfl rfl (by norm_num)
example := C103_bssa14_site (BSSA14.exT 6 20 240 "SS") (BSSA14.exT 6 200 400 "RS") _ _ (BSSA14.exT_source ..)
  (BSSA14.exT_source ..) (by norm_num) rfl (by norm_num) (by norm_num)

namespace CY14
/-- a rock scenario with given magnitude, distance and region -/
noncomputable def exT (m r : ℝ) (region : String) : Scenario :=
  ⟨[("mag", .num m), ("dist_rup", .num r), ("dist_jb", .num 18), ("dist_x", .num (-18)), ("dip", .num 60),
    ("v_s30", .num 1200), ("mechanism", .str "SS"), ("region", .str region)], []⟩
theorem exT_source (m r : ℝ) (region : String) : Source (exT m r region)
    { mag := m, rup := r, jb := 18, x := -18, dip := 60, v := 1200 } := by
  constructor <;> simp [exT, Scenario.get, Dict.get?, Val.ofOpt]
end CY14

example := C103_cy14 (CY14.exT 5 20 "japan") (CY14.exT 7 60 "japan") _ _ (CY14.exT_source ..)
  (CY14.exT_source ..) rfl rfl (by norm_num) (by norm_num) (by norm_num) (by norm_num) (by norm_num) (by norm_num)
  (by norm_num)

namespace ASK14
/-- a rock scenario with given magnitude, distance, region and source of the velocity -/
noncomputable def exT (m r : ℝ) (region src : String) : Scenario :=
  ⟨[("mag", .num m), ("dist_rup", .num r), ("dist_jb", .num 18), ("dip", .num 60), ("v_s30", .num 1000),
    ("mechanism", .str "SS"), ("region", .str region), ("vs_source", .str src)], []⟩
theorem exT_source (m r : ℝ) (region src : String) : Source (exT m r region src)
    { exFG with mag := m, rup := r, v := 1000 } := by
  constructor <;> simp [exT, exFG, Scenario.get, Dict.get?, Val.ofOpt]
theorem exT_hang (m r : ℝ) (region src : String) (g : Given) : HangOk (exT m r region src) g := fun h => by
  simp [exT, Scenario.get, Dict.get?, Val.isOn] at h
end ASK14

example := C103_ask14_magnitude (ASK14.exT 5 20 "taiwan" "inferred") (ASK14.exT 7 60 "china" "inferred") _ _
  (ASK14.exT_source ..) (ASK14.exT_source ..) (ASK14.exT_hang _ _ _ _ _) (ASK14.exT_hang _ _ _ _ _) rfl
  (by simp [ASK14.exT, Scenario.get, Dict.get?]) (by simp [ASK14.exT, Scenario.get, Dict.get?])
  (by norm_num) (by norm_num) (by norm_num)
example := C103_ask14_japan (ASK14.exT 5 20 "japan" "inferred") (ASK14.exT 7 60 "japan" "measured") _ _
  (ASK14.exT_source ..) (ASK14.exT_source ..) (ASK14.exT_hang _ _ _ _ _) (ASK14.exT_hang _ _ _ _ _)
  (by simp [ASK14.exT, Scenario.get, Dict.get?]) (by simp [ASK14.exT, Scenario.get, Dict.get?])
  (by norm_num) (by norm_num) (by norm_num) (by norm_num) (by norm_num)
