import Verif.Props.ASK14

/-!
# C94: Abrahamson, Silva & Kamai (2014) and magnitude

Off the hanging wall the reference motion depends on magnitude through the source term (linear up
to magnitude 4, with a growing fictitious depth between 4 and 5, quadratic above), the
style-of-faulting term and, when it is left out, the estimated depth of the rupture.
-/

open Bounds

set_option linter.unusedSimpArgs false

namespace ASK14

/-- coefficient of the style-of-faulting term -/
def flt (c : Row) : Mech → ℚ
  | .rs => c.a11
  | .ns => c.a12
  | .other => 0

/-- the fictitious depth between magnitudes 4 and 5 -/
noncomputable def fict (m : ℝ) : ℝ := 4.5 - 3.5 * min (max (5 - m) 0) 1

/-- the terms that depend on magnitude; `T` is the loss per unit of magnitude from the estimated
depth of the rupture -/
noncomputable def magF (c : Row) (r k T m : ℝ) : ℝ :=
  (f1 c (F.ofReal m) (F.ofReal r)).val + k * min (max (m - 4) 0) 1 - T * min (max m 5) 7.2

/-- the log of the effective distance from magnitude 5 on -/
noncomputable def effL (r : ℝ) : ℝ := Real.log (Real.sqrt (r ^ 2 + 4.5 ^ 2))

theorem mag_row_facts : ∀ c ∈ table, c.a7 = 0 ∧ c.a8 < 0 ∧ 0 < c.a6 ∧ 0 ≤ c.a3 ∧ c.m1 < 8.5 ∧ 5 < c.m1 ∧
    c.a2 + c.a3 * (5 - c.m1) < 0 := by decide +kernel

theorem mag_casts {c : Row} (hc : c ∈ table) : (c.a7 : ℝ) = 0 ∧ (c.a8 : ℝ) < 0 ∧ (0 : ℝ) < c.a6 ∧ (0 : ℝ) ≤ c.a3 ∧
    (c.m1 : ℝ) < 8.5 ∧ 5 < (c.m1 : ℝ) ∧ (c.a2 : ℝ) + c.a3 * (5 - c.m1) < 0 ∧ (c.m2 : ℝ) = 5 ∧ (c.c4 : ℝ) = 4.5 := by
  obtain ⟨h1, h2, h3, h4, h5, h6, h7⟩ := mag_row_facts c hc
  obtain ⟨-, -, -, -, -, -, q1, q2, -⟩ := row_facts c hc
  refine ⟨by exact_mod_cast h1, by exact_mod_cast h2, by exact_mod_cast h3, by exact_mod_cast h4, ?_,
    by exact_mod_cast h6, by exact_mod_cast h7, by exact_mod_cast q2, ?_⟩
  · have : ((c.m1 : ℚ) : ℝ) < ((8.5 : ℚ) : ℝ) := by exact_mod_cast h5
    norm_num at this ⊢; exact this
  · rw [q1]; norm_num

theorem f1_low {c : Row} (hc : c ∈ table) (r : ℝ) {m : ℝ} (hm : m ≤ 5) :
    (f1 c (F.ofReal m) (F.ofReal r)).val = c.a1 + (c.a4 * (5 - c.m1) + c.a8 * (8.5 - 5) ^ 2 + c.a17 * r) +
      c.a6 * (m - 5) + (c.a2 + c.a3 * (5 - c.m1)) * Real.log (Real.sqrt (r ^ 2 + fict m ^ 2)) := by
  obtain ⟨h1, -, -, -, -, -, -, q1, q2⟩ := mag_casts hc
  simp only [f1, dist, fsimp, q1, q2, h1, hm, if_true, fict]
  norm_num
  ring

theorem f1_high {c : Row} (hc : c ∈ table) (r : ℝ) {m : ℝ} (hm : 5 ≤ m) :
    (f1 c (F.ofReal m) (F.ofReal r)).val = c.a1 + c.a17 * r + c.a8 * (8.5 - m) ^ 2 +
      (c.a2 + c.a3 * (m - c.m1)) * effL r + (if m ≤ c.m1 then c.a4 * (m - c.m1) else c.a5 * (m - c.m1)) := by
  obtain ⟨h1, -, -, -, -, h6, -, q1, q2⟩ := mag_casts hc
  have e : (4.5 : ℝ) - (4.5 - 1) * min (max (5 - m) 0) 1 = 4.5 := by
    rw [max_eq_right (by linarith), min_eq_left (by norm_num)]; norm_num
  rcases hm.eq_or_lt with rfl | hm
  · rw [f1_low hc r le_rfl, if_pos h6.le]
    simp only [effL, fict]
    norm_num
    ring
  · simp only [f1, dist, fsimp, q1, q2, not_le.2 hm, if_false, effL, e]
    ring

theorem effL_ge {r : ℝ} {a : ℝ} (ha : 0 ≤ a) (hr : a ≤ r) {q : ℚ} (hq : 0 ≤ q) (h8 : 2 * q ≤ 8)
    (h : (expHi (2 * q) : ℝ) ≤ a ^ 2 + 4.5 ^ 2) : (q : ℝ) ≤ effL r := by
  unfold effL
  rw [Real.log_sqrt (by positivity)]
  have h2 : ((2 * q : ℚ) : ℝ) ≤ Real.log (r ^ 2 + 4.5 ^ 2) := by
    apply le_log_of (by positivity) (by linarith) h8
    refine h.trans ?_
    gcongr
  push_cast at h2
  linarith

/-- above magnitude 5 -/
theorem mono_high {c : Row} (hc : c ∈ table) {r T : ℝ} (k : ℝ)
    (s1 : 0 < c.a3 * effL r + c.a4 - max T 0) (s2 : 0 < c.a3 * effL r + c.a5 - 2.6 * c.a8 - T)
    (s3 : 0 < c.a3 * effL r + c.a5) : StrictMonoOn (magF c r k T) (Set.Icc 5 8.5) := by
  obtain ⟨-, h8, -, h3, h85, h5, -⟩ := mag_casts hc
  set b := max (c.m1 : ℝ) 7.2 with hb
  have hb1 : (c.m1 : ℝ) ≤ b := le_max_left _ _
  have hb2 : (7.2 : ℝ) ≤ b := le_max_right _ _
  have hb3 : b ≤ 8.5 := max_le h85.le (by norm_num)
  have p1 : StrictMonoOn (magF c r k T) (Set.Icc 5 c.m1) := by
    rintro x ⟨hx, hx'⟩ y ⟨hy, hy'⟩ hxy
    simp only [magF, f1_high hc r hx, f1_high hc r hy, if_pos hx', if_pos hy']
    rw [min_eq_right (a := max (x - 4) 0) (le_max_of_le_left (by linarith)),
      min_eq_right (a := max (y - 4) 0) (le_max_of_le_left (by linarith)), max_eq_left hx, max_eq_left hy]
    have t1 : min x 7.2 ≤ min y (7.2 : ℝ) := min_le_min hxy.le le_rfl
    have t2 : min y 7.2 - min x (7.2 : ℝ) ≤ y - x := by
      rcases le_total x 7.2 with h | h
      · rw [min_eq_left h]; linarith [min_le_left y (7.2 : ℝ)]
      · rw [min_eq_right h, min_eq_right (h.trans hxy.le)]; linarith
    have t3 : T * (min y 7.2 - min x (7.2 : ℝ)) ≤ max T 0 * (y - x) :=
      (mul_le_mul_of_nonneg_right (le_max_left T 0) (sub_nonneg.2 t1)).trans
        (mul_le_mul_of_nonneg_left t2 (le_max_right _ _))
    have t4 := mul_pos s1 (sub_pos.2 hxy)
    have t5 : 0 ≤ -(c.a8 : ℝ) * ((y - x) * (17 - x - y)) :=
      mul_nonneg (by linarith) (mul_nonneg (by linarith) (by linarith))
    nlinarith
  have p2 : StrictMonoOn (magF c r k T) (Set.Icc c.m1 b) := by
    rintro x ⟨hx, hx'⟩ y ⟨hy, hy'⟩ hxy
    have hb4 : b = 7.2 := by
      rcases max_choice (c.m1 : ℝ) 7.2 with h | h
      · rw [hb] at hy'; rw [h] at hy'; linarith
      · exact h
    rw [hb4] at hx' hy'
    have e : ∀ m : ℝ, (c.m1 : ℝ) ≤ m → (if m ≤ (c.m1 : ℝ) then c.a4 * (m - c.m1) else c.a5 * (m - c.m1)) =
        c.a5 * (m - c.m1) := by
      intro m hm
      split
      · rename_i h; rw [le_antisymm h hm]; ring
      · rfl
    simp only [magF, f1_high hc r (h5.le.trans hx), f1_high hc r (h5.le.trans hy), e x hx, e y hy]
    rw [min_eq_right (a := max (x - 4) 0) (le_max_of_le_left (by linarith)),
      min_eq_right (a := max (y - 4) 0) (le_max_of_le_left (by linarith)), max_eq_left (a := x) (by linarith),
      max_eq_left (a := y) (by linarith), min_eq_left hx', min_eq_left hy']
    have t4 := mul_pos s2 (sub_pos.2 hxy)
    have t5 : 0 ≤ -(c.a8 : ℝ) * ((y - x) * (14.4 - x - y)) :=
      mul_nonneg (by linarith) (mul_nonneg (by linarith) (by linarith))
    nlinarith
  have p3 : StrictMonoOn (magF c r k T) (Set.Icc b 8.5) := by
    rintro x ⟨hx, hx'⟩ y ⟨hy, hy'⟩ hxy
    have e : ∀ m : ℝ, (c.m1 : ℝ) ≤ m → (if m ≤ (c.m1 : ℝ) then c.a4 * (m - c.m1) else c.a5 * (m - c.m1)) =
        c.a5 * (m - c.m1) := by
      intro m hm
      split
      · rename_i h; rw [le_antisymm h hm]; ring
      · rfl
    simp only [magF, f1_high hc r (m := x) (by linarith), f1_high hc r (m := y) (by linarith),
      e x (hb1.trans hx), e y (hb1.trans hy)]
    rw [min_eq_right (a := max (x - 4) 0) (le_max_of_le_left (by linarith)),
      min_eq_right (a := max (y - 4) 0) (le_max_of_le_left (by linarith)), max_eq_left (a := x) (by linarith),
      max_eq_left (a := y) (by linarith), min_eq_right (a := x) (by linarith), min_eq_right (a := y) (by linarith)]
    have t4 := mul_pos s3 (sub_pos.2 hxy)
    have t5 : 0 ≤ -(c.a8 : ℝ) * ((y - x) * (17 - x - y)) :=
      mul_nonneg (by linarith) (mul_nonneg (by linarith) (by linarith))
    nlinarith
  have u1 := p1.union p2 (isGreatest_Icc h5.le) (isLeast_Icc hb1)
  rw [Set.Icc_union_Icc_eq_Icc h5.le hb1] at u1
  have u2 := u1.union p3 (isGreatest_Icc (h5.le.trans hb1)) (isLeast_Icc hb3)
  rw [Set.Icc_union_Icc_eq_Icc (h5.le.trans hb1) hb3] at u2
  exact u2

/-- below magnitude 5, from 2 km on -/
theorem mono_low {c : Row} (hc : c ∈ table) {r k : ℝ} (T : ℝ) (hr : 2 ≤ r)
    (s : 0 < c.a6 + k + 0.875 * (c.a2 + c.a3 * (5 - c.m1))) :
    StrictMonoOn (magF c r k T) (Set.Iic 5) := by
  obtain ⟨-, -, h6, -, -, -, hA, -⟩ := mag_casts hc
  have p1 : StrictMonoOn (magF c r k T) (Set.Iic 4) := by
    intro x hx y hy hxy
    simp only [Set.mem_Iic] at hx hy
    have e : ∀ m : ℝ, m ≤ 4 → fict m = 1 := by
      intro m hm
      rw [fict, min_eq_right (le_max_of_le_left (by linarith))]; norm_num
    simp only [magF, f1_low hc r (m := x) (by linarith), f1_low hc r (m := y) (by linarith), e x hx, e y hy]
    rw [max_eq_right (a := x - 4) (by linarith), max_eq_right (a := y - 4) (by linarith),
      max_eq_right (a := x) (by linarith), max_eq_right (a := y) (by linarith)]
    have := mul_pos h6 (sub_pos.2 hxy)
    linarith
  have p2 : StrictMonoOn (magF c r k T) (Set.Icc 4 5) := by
    rintro x ⟨hx, hx'⟩ y ⟨hy, hy'⟩ hxy
    have e : ∀ m : ℝ, 4 ≤ m → m ≤ 5 → fict m = 1 + 3.5 * (m - 4) := by
      intro m hm hm'
      rw [fict, max_eq_left (by linarith), min_eq_left (by linarith)]; ring
    simp only [magF, f1_low hc r (m := x) (by linarith), f1_low hc r (m := y) (by linarith), e x hx hx', e y hy hy']
    rw [max_eq_left (a := x - 4) (by linarith), max_eq_left (a := y - 4) (by linarith),
      max_eq_right (a := x) (by linarith), max_eq_right (a := y) (by linarith),
      min_eq_left (a := x - 4) (by linarith), min_eq_left (a := y - 4) (by linarith)]
    rw [Real.log_sqrt (by positivity), Real.log_sqrt (by positivity)]
    set u := 1 + 3.5 * (x - 4) with hu
    set w := 1 + 3.5 * (y - 4) with hw
    have hux : 1 ≤ u := by rw [hu]; linarith
    have huw : u ≤ w := by rw [hu, hw]; linarith
    have hd : w - u = 3.5 * (y - x) := by rw [hu, hw]; ring
    have key : Real.log (r ^ 2 + w ^ 2) - Real.log (r ^ 2 + u ^ 2) ≤ (w - u) / 2 := by
      have mono : AntitoneOn (fun t : ℝ => Real.log (r ^ 2 + t ^ 2) - t / 2) (Set.Icc u w) := by
        have hdv : ∀ t : ℝ, HasDerivAt (fun t : ℝ => Real.log (r ^ 2 + t ^ 2) - t / 2)
            (2 * t / (r ^ 2 + t ^ 2) - 1 / 2) t := by
          intro t
          have hq : HasDerivAt (fun t : ℝ => r ^ 2 + t ^ 2) (2 * t) t := by
            simpa using (hasDerivAt_pow 2 t).const_add (r ^ 2)
          exact (hq.log (by positivity)).sub ((hasDerivAt_id t).div_const 2)
        apply antitoneOn_of_deriv_nonpos (convex_Icc u w)
        · intro t _; exact (hdv t).continuousAt.continuousWithinAt
        · intro t _; exact (hdv t).differentiableAt.differentiableWithinAt
        · intro t ht
          rw [(hdv t).deriv, sub_nonpos, div_le_div_iff₀ (by positivity) (by norm_num)]
          nlinarith [sq_nonneg (t - 2)]
      have := mono (Set.left_mem_Icc.2 huw) (Set.right_mem_Icc.2 huw) huw
      simp only at this
      linarith
    have t1 := mul_le_mul_of_nonpos_left key hA.le
    have t2 := mul_pos s (sub_pos.2 hxy)
    rw [hd] at t1
    linarith
  have u := p1.union p2 isGreatest_Iic (isLeast_Icc (by norm_num))
  rwa [Set.Iic_union_Icc_eq_Iic (by norm_num)] at u

/-- how the reference motion off the hanging wall depends on magnitude -/
noncomputable def torLoss (c : Row) (g : Given) : ℝ := if g.tor = none then c.a15 * (7.8 / 2.2 / 20) else 0

theorem base_mag {c : Row} (g : Given) (k : Kind) (hk : k.hw = false) (m' : ℝ) :
    (baseF c (({ g with mag := m' } : Given).toIn k)).val - (baseF c (g.toIn k)).val =
      magF c g.rup (flt c k.mech) (torLoss c g) m' - magF c g.rup (flt c k.mech) (torLoss c g) g.mag := by
  have hm : ∀ m, (fMech c (F.ofReal m) k.mech).val = flt c k.mech * min (max (m - 4) 0) 1 := by
    intro m
    cases k.mech <;> simp [fMech, flt]
  have ht : ∀ m m', (f6 c ({ g with mag := m' } : Given).effTor).val - (f6 c ({ g with mag := m } : Given).effTor).val =
      -(torLoss c g * min (max m' 5) 7.2) + torLoss c g * min (max m 5) 7.2 := by
    intro m m'
    cases h : g.tor with
    | some t => simp [Given.effTor, torLoss, h]
    | none =>
      have e : ∀ m, (f6 c ({ g with mag := m } : Given).effTor).val =
          c.a15 * (7.8 * (7.2 - min (max m 5) 7.2) / 2.2 / 20) := by
        intro m
        obtain ⟨c1, c2⟩ := calcDepthTor_val m
        have e0 : ({ g with mag := m } : Given).effTor = calcDepthTor (F.ofReal m) := by
          unfold Given.effTor
          simp only [h]
          exact F.orEst_none c1
        have l1 : (5 : ℝ) ≤ min (max m 5) 7.2 := le_min (le_max_right _ _) (by norm_num)
        have l2 : min (max m 5) 7.2 ≤ (7.2 : ℝ) := min_le_right _ _
        rw [e0]
        simp only [f6, fsimp, c2]
        rw [max_eq_left, min_eq_left]
        · rw [div_div, div_le_iff₀ (by norm_num)]; linarith
        · apply div_nonneg _ (by norm_num)
          apply div_nonneg _ (by norm_num)
          linarith
      simp only [h] at e
      rw [e, e]
      simp only [torLoss, h, if_true]
      ring
  have h11 : f11 c (({ g with mag := m' } : Given).toIn k) = f11 c (g.toIn k) := rfl
  have e1 := base_val c { g with mag := m' } k
  have e2 := base_val c g k
  have e3 := ht g.mag m'
  have e4 : ({ g with mag := g.mag } : Given) = g := rfl
  rw [e4] at e3
  rw [e1, e2]
  simp only [hk, Bool.false_eq_true, if_false, h11, hm, magF]
  linarith

/-- the site response preserves the order of the reference motions -/
theorem resp_grows {c : Row} (hc : c ∈ table) (g : Given) (k : Kind) (hk : k.hw = false) {m' : ℝ} (hv : 180 ≤ g.v)
    (h : magF c g.rup (flt c k.mech) (torLoss c g) g.mag < magF c g.rup (flt c k.mech) (torLoss c g) m') :
    (lnResp c (g.toIn k)).val < (lnResp c (({ g with mag := m' } : Given).toIn k)).val := by
  have hb := base_mag (c := c) g k hk m'
  rw [resp_val hc, resp_val hc]
  have hx : refR c { g with mag := m' } k = refR c g k +
      ((baseF c (({ g with mag := m' } : Given).toIn k)).val - (baseF c (g.toIn k)).val) := by
    unfold refR; ring
  have hlt : refR c g k < refR c { g with mag := m' } k := by rw [hx]; linarith
  have hs := f5R_slope hc hv hlt
  simp only
  linarith

/-! ### Numbers -/

theorem slope_low : ∀ c ∈ table, ∀ k ∈ [c.a11, c.a12, 0],
    0 < c.a6 + k + 0.875 * (c.a2 + c.a3 * (5 - c.m1)) := by decide +kernel

theorem slope_given : ∀ c ∈ table, 0 < c.a3 * 1.5 + c.a4 ∧ 0 < c.a3 * 1.5 + c.a5 := by decide +kernel

theorem slope_default : ∀ c ∈ table, 0 < c.a3 * 2.11 + c.a4 - c.a15 * (7.8 / 2.2 / 20) ∧
    0 < c.a3 * 2.11 + c.a5 - 2.6 * c.a8 - c.a15 * (7.8 / 2.2 / 20) := by decide +kernel

theorem falls_close_row : ∀ c ∈ table, ∀ k ∈ [c.a11, c.a12, 0],
    (c.a6 + k) * 0.1 + (c.a2 + c.a3 * (5 - c.m1)) * 0.2525 < 0 := by decide +kernel

theorem falls_default_row : ∀ c ∈ table, 0 ≤ c.period → c.period ≤ 0.25 → c.m1 = 6.75 ∧
    c.a8 * (1.3 ^ 2 - 1.75 ^ 2) + 0.45 * (c.a3 * 1.69 + c.a5 - c.a15 * (7.8 / 2.2 / 20)) < 0 := by decide +kernel

theorem flt_mem (c : Row) (mech : Mech) : flt c mech ∈ [c.a11, c.a12, 0] := by cases mech <;> simp [flt]

theorem exp_numbers : expHi (2 * 1.5) ≤ 4.5 ^ 2 ∧ expHi (2 * 2.11) ≤ 7 ^ 2 + 4.5 ^ 2 ∧
    expHi 0.505 ≤ 2.0725 / 1.25 ∧ 3 ^ 2 + 4.5 ^ 2 ≤ expLo 3.38 := by decide +kernel

theorem effL_any (r : ℝ) : (1.5 : ℝ) ≤ effL r := by
  have h : effL r = effL |r| := by simp [effL]
  rw [h]
  have := effL_ge (r := |r|) (a := 0) le_rfl (abs_nonneg r) (q := 1.5) (by norm_num) (by norm_num) (by
    have := exp_numbers.1
    have h2 : ((expHi (2 * 1.5) : ℚ) : ℝ) ≤ ((4.5 ^ 2 : ℚ) : ℝ) := by exact_mod_cast this
    push_cast at h2
    norm_num at h2 ⊢; exact h2)
  norm_num at this ⊢; exact this

theorem effL_far {r : ℝ} (hr : 7 ≤ r) : (2.11 : ℝ) ≤ effL r := by
  have := effL_ge (r := r) (a := 7) (by norm_num) hr (q := 2.11) (by norm_num) (by norm_num) (by
    have := exp_numbers.2.1
    have h2 : ((expHi (2 * 2.11) : ℚ) : ℝ) ≤ ((7 ^ 2 + 4.5 ^ 2 : ℚ) : ℝ) := by exact_mod_cast this
    push_cast at h2
    norm_num at h2 ⊢; exact h2)
  norm_num at this ⊢; exact this

theorem effL_close {r : ℝ} (h0 : 0 ≤ r) (hr : r ≤ 3) : effL r ≤ 1.69 := by
  unfold effL
  rw [Real.log_sqrt (by positivity)]
  have h : Real.log (r ^ 2 + 4.5 ^ 2) ≤ ((3.38 : ℚ) : ℝ) := by
    apply log_le_of (by positivity) (by norm_num)
    have := exp_numbers.2.2.2
    have h2 : ((3 ^ 2 + 4.5 ^ 2 : ℚ) : ℝ) ≤ ((expLo 3.38 : ℚ) : ℝ) := by exact_mod_cast this
    refine le_trans ?_ h2
    push_cast
    have : r ^ 2 ≤ 3 ^ 2 := by gcongr
    norm_num at this ⊢; linarith
  have e : ((3.38 : ℚ) : ℝ) = 3.38 := by norm_num
  rw [e] at h
  linarith

theorem grows_given {c : Row} (hc : c ∈ table) (g : Given) (mech : Mech) {m' : ℝ} (ht : g.tor ≠ none)
    (hm : g.mag < m') (hm' : m' ≤ 8.5) (hr : 5 ≤ g.mag ∨ 2 ≤ g.rup) :
    magF c g.rup (flt c mech) (torLoss c g) g.mag < magF c g.rup (flt c mech) (torLoss c g) m' := by
  have hT : torLoss c g = 0 := by simp [torLoss, ht]
  rw [hT]
  obtain ⟨-, h8, -, h3, -⟩ := mag_casts hc
  obtain ⟨q1, q2⟩ := slope_given c hc
  have q1' : (0 : ℝ) < c.a3 * 1.5 + c.a4 := by
    have : (0 : ℝ) < ((c.a3 * 1.5 + c.a4 : ℚ) : ℝ) := by exact_mod_cast q1
    push_cast at this; norm_num at this ⊢; exact this
  have q2' : (0 : ℝ) < c.a3 * 1.5 + c.a5 := by
    have : (0 : ℝ) < ((c.a3 * 1.5 + c.a5 : ℚ) : ℝ) := by exact_mod_cast q2
    push_cast at this; norm_num at this ⊢; exact this
  have hL := mul_le_mul_of_nonneg_left (effL_any g.rup) h3
  have high := mono_high hc (r := g.rup) (T := 0) (flt c mech) (by rw [max_self]; linarith) (by linarith) (by linarith)
  rcases le_total 5 g.mag with h5 | h5
  · exact high ⟨h5, by linarith⟩ ⟨by linarith, hm'⟩ hm
  · have low : StrictMonoOn (magF c g.rup (flt c mech) 0) (Set.Iic 5) ∨ g.mag = 5 := by
      rcases hr with h | h
      · exact Or.inr (le_antisymm h5 h)
      · refine Or.inl (mono_low hc 0 h ?_)
        have := slope_low c hc _ (flt_mem c mech)
        have h2 : (0 : ℝ) < ((c.a6 + flt c mech + 0.875 * (c.a2 + c.a3 * (5 - c.m1)) : ℚ) : ℝ) := by exact_mod_cast this
        push_cast at h2; norm_num at h2 ⊢; exact h2
    rcases low with low | h
    · have u := low.union high isGreatest_Iic (isLeast_Icc (by norm_num))
      rw [Set.Iic_union_Icc_eq_Iic (by norm_num)] at u
      exact u (Set.mem_Iic.2 (by linarith)) (Set.mem_Iic.2 hm') hm
    · exact high ⟨h.ge, by linarith⟩ ⟨by linarith, hm'⟩ hm

theorem grows_default {c : Row} (hc : c ∈ table) (g : Given) (mech : Mech) {m' : ℝ} (ht : g.tor = none)
    (hm : g.mag < m') (hm' : m' ≤ 8.5) (hr : 7 ≤ g.rup) :
    magF c g.rup (flt c mech) (torLoss c g) g.mag < magF c g.rup (flt c mech) (torLoss c g) m' := by
  have hT : torLoss c g = c.a15 * (7.8 / 2.2 / 20) := by simp [torLoss, ht]
  rw [hT]
  obtain ⟨-, h8, -, h3, -⟩ := mag_casts hc
  obtain ⟨q1, q2⟩ := slope_default c hc
  obtain ⟨q3, q4⟩ := slope_given c hc
  have q1' : (0 : ℝ) < c.a3 * 2.11 + c.a4 - c.a15 * (7.8 / 2.2 / 20) := by
    have : (0 : ℝ) < ((c.a3 * 2.11 + c.a4 - c.a15 * (7.8 / 2.2 / 20) : ℚ) : ℝ) := by exact_mod_cast q1
    push_cast at this; norm_num at this ⊢; exact this
  have q2' : (0 : ℝ) < c.a3 * 2.11 + c.a5 - 2.6 * c.a8 - c.a15 * (7.8 / 2.2 / 20) := by
    have : (0 : ℝ) < ((c.a3 * 2.11 + c.a5 - 2.6 * c.a8 - c.a15 * (7.8 / 2.2 / 20) : ℚ) : ℝ) := by exact_mod_cast q2
    push_cast at this; norm_num at this ⊢; exact this
  have q3' : (0 : ℝ) < c.a3 * 1.5 + c.a4 := by
    have : (0 : ℝ) < ((c.a3 * 1.5 + c.a4 : ℚ) : ℝ) := by exact_mod_cast q3
    push_cast at this; norm_num at this ⊢; exact this
  have q4' : (0 : ℝ) < c.a3 * 1.5 + c.a5 := by
    have : (0 : ℝ) < ((c.a3 * 1.5 + c.a5 : ℚ) : ℝ) := by exact_mod_cast q4
    push_cast at this; norm_num at this ⊢; exact this
  have hL := mul_le_mul_of_nonneg_left (effL_far hr) h3
  have hL' := mul_le_mul_of_nonneg_left (effL_any g.rup) h3
  have high := mono_high hc (r := g.rup) (T := c.a15 * (7.8 / 2.2 / 20)) (flt c mech) (by
    rcases max_choice ((c.a15 : ℝ) * (7.8 / 2.2 / 20)) 0 with h | h <;> rw [h] <;> linarith) (by linarith) (by linarith)
  have low := mono_low hc (r := g.rup) (k := flt c mech) (c.a15 * (7.8 / 2.2 / 20)) (by linarith) (by
    have := slope_low c hc _ (flt_mem c mech)
    have h2 : (0 : ℝ) < ((c.a6 + flt c mech + 0.875 * (c.a2 + c.a3 * (5 - c.m1)) : ℚ) : ℝ) := by exact_mod_cast this
    push_cast at h2; norm_num at h2 ⊢; exact h2)
  have u := low.union high isGreatest_Iic (isLeast_Icc (by norm_num))
  rw [Set.Iic_union_Icc_eq_Iic (by norm_num)] at u
  exact u (Set.mem_Iic.2 (by linarith)) (Set.mem_Iic.2 hm') hm

theorem falls_default {c : Row} (hc : c ∈ table) (g : Given) (mech : Mech) (ht : g.tor = none) (h0 : 0 ≤ g.rup)
    (hr : g.rup ≤ 3) (p0 : 0 ≤ c.period) (p1 : c.period ≤ 0.25) :
    magF c g.rup (flt c mech) (torLoss c g) 7.2 < magF c g.rup (flt c mech) (torLoss c g) 6.75 := by
  have hT : torLoss c g = c.a15 * (7.8 / 2.2 / 20) := by simp [torLoss, ht]
  rw [hT]
  obtain ⟨-, -, -, h3, -⟩ := mag_casts hc
  obtain ⟨e1, q⟩ := falls_default_row c hc p0 p1
  have e1' : (c.m1 : ℝ) = 6.75 := by rw [e1]; norm_num
  have q' : (c.a8 : ℝ) * (1.3 ^ 2 - 1.75 ^ 2) + 0.45 * (c.a3 * 1.69 + c.a5 - c.a15 * (7.8 / 2.2 / 20)) < 0 := by
    have : ((c.a8 * (1.3 ^ 2 - 1.75 ^ 2) + 0.45 * (c.a3 * 1.69 + c.a5 - c.a15 * (7.8 / 2.2 / 20)) : ℚ) : ℝ) < 0 := by
      exact_mod_cast q
    push_cast at this; norm_num at this ⊢; exact this
  have hL := mul_le_mul_of_nonneg_left (effL_close h0 hr) h3
  simp only [magF, f1_high hc g.rup (m := 7.2) (by norm_num), f1_high hc g.rup (m := 6.75) (by norm_num), e1']
  generalize effL g.rup = L at *
  norm_num at q' hL ⊢
  linarith

theorem falls_close {c : Row} (hc : c ∈ table) (g : Given) (mech : Mech) (h0 : 0 ≤ g.rup) (hr : g.rup ≤ 0.5) :
    magF c g.rup (flt c mech) (torLoss c g) 4.1 < magF c g.rup (flt c mech) (torLoss c g) 4 := by
  obtain ⟨-, -, -, -, -, -, hA, -⟩ := mag_casts hc
  have q := falls_close_row c hc _ (flt_mem c mech)
  have q' : ((c.a6 : ℝ) + flt c mech) * 0.1 + (c.a2 + c.a3 * (5 - c.m1)) * 0.2525 < 0 := by
    have : (((c.a6 + flt c mech) * 0.1 + (c.a2 + c.a3 * (5 - c.m1)) * 0.2525 : ℚ) : ℝ) < 0 := by exact_mod_cast q
    push_cast at this; norm_num at this ⊢; exact this
  have f4 : fict 4 = 1 := by norm_num [fict]
  have f41 : fict 4.1 = 1.35 := by norm_num [fict]
  simp only [magF, f1_low hc g.rup (m := 4.1) (by norm_num), f1_low hc g.rup (m := 4) (by norm_num), f4, f41]
  rw [Real.log_sqrt (by positivity), Real.log_sqrt (by positivity)]
  have key : (0.505 : ℝ) ≤ Real.log (g.rup ^ 2 + 1.35 ^ 2) - Real.log (g.rup ^ 2 + 1 ^ 2) := by
    rw [← Real.log_div (by positivity) (by positivity)]
    have : ((0.505 : ℚ) : ℝ) ≤ Real.log ((g.rup ^ 2 + 1.35 ^ 2) / (g.rup ^ 2 + 1 ^ 2)) := by
      apply le_log_of (by positivity) (by norm_num) (by norm_num)
      have := exp_numbers.2.2.1
      have h2 : ((expHi 0.505 : ℚ) : ℝ) ≤ ((2.0725 / 1.25 : ℚ) : ℝ) := by exact_mod_cast this
      refine h2.trans ?_
      rw [le_div_iff₀ (by positivity)]
      have : g.rup ^ 2 ≤ 0.5 ^ 2 := by gcongr
      push_cast
      norm_num at this ⊢
      linarith
    norm_num at this ⊢; exact this
  generalize Real.log (g.rup ^ 2 + 1.35 ^ 2) = A at *
  generalize Real.log (g.rup ^ 2 + 1 ^ 2) = B at *
  have := mul_le_mul_of_nonpos_left key hA.le
  norm_num at q' this ⊢
  linarith

end ASK14

/-- the five entries besides the numbers, the same in two scenarios off the hanging wall -/
def ASK14.SameRest (s s' : Scenario) : Prop :=
  (∀ k ∈ ["mechanism", "region", "vs_source", "is_aftershock"], s'.get k = s.get k) ∧
    ¬ (s.get "on_hanging_wall").isOn ∧ ¬ (s'.get "on_hanging_wall").isOn

theorem ASK14.mag_step {s s' : Scenario} {g : ASK14.Given} {m' : ℝ} (h : ASK14.Source s g)
    (h' : ASK14.Source s' { g with mag := m' }) (hk : ASK14.SameRest s s')
    (hz : ∀ z, g.z1 = some z → -0.01 < z) (hv : 180 ≤ g.v) :
    ∃ k : ASK14.Kind, Gives ASK14.cls s (ASK14.out (g.toIn k)) ∧
      Gives ASK14.cls s' (ASK14.out (({ g with mag := m' } : ASK14.Given).toIn k)) ∧ k.hw = false ∧
      ∀ c ∈ ASK14.table, (ASK14.lnResp c (g.toIn k)).ok ∧
        (ASK14.lnResp c (({ g with mag := m' } : ASK14.Given).toIn k)).ok := by
  obtain ⟨hk, w1, w2⟩ := hk
  have ek : ASK14.kindOf s' = ASK14.kindOf s := by
    simp only [List.forall_mem_cons] at hk
    obtain ⟨k1, k2, k3, k4, -⟩ := hk
    simp [ASK14.kindOf, k1, k2, k3, k4, w1, w2]
  have hw : (ASK14.kindOf s).hw = false := by simp [ASK14.kindOf, w1]
  have g1 := ASK14.gives h (by simp [hw])
  have g2 := ASK14.gives h' (by simp [ek, hw])
  rw [ek] at g2
  have ok : ∀ g : ASK14.Given, g.HwOk (ASK14.kindOf s) := fun g e => by simp [hw] at e
  exact ⟨_, g1, g2, hw, fun c hc => ⟨ASK14.resp_ok hc (ok _) (by linarith) hz,
    ASK14.resp_ok hc (ok _) (by simpa using by linarith) hz⟩⟩

/-- Off the hanging wall and with a given depth of the rupture, every one of the 24 ordinates grows
strictly with magnitude up to 8.5, on every site from 180 m/s on including the nonlinear site
response: from magnitude 5 on at every distance, and from any magnitude beyond 2 km. -/
theorem C94_grows (s s' : Scenario) (g : ASK14.Given) (m' : ℝ) (h : ASK14.Source s g)
    (h' : ASK14.Source s' { g with mag := m' }) (hk : ASK14.SameRest s s')
    (hz : ∀ z, g.z1 = some z → -0.01 < z) (hv : 180 ≤ g.v) (ht : g.tor ≠ none)
    (hm : g.mag < m') (hm' : m' ≤ 8.5) (hr : 5 ≤ g.mag ∨ 2 ≤ g.rup) :
    ∃ o o', Gives ASK14.cls s o ∧ Gives ASK14.cls s' o' ∧ o.gmm.lnResp.length = 24 ∧
      List.Forall₂ F.Drops o'.gmm.lnResp o.gmm.lnResp := by
  obtain ⟨k, g1, g2, hw, ok⟩ := ASK14.mag_step h h' hk hz hv
  refine ⟨_, _, g1, g2, by simp [ASK14.out, ASK14.table_length], ?_⟩
  simp only [ASK14.out]
  refine forall₂_map fun c hc => ⟨(ok c hc).2, (ok c hc).1,
    ASK14.resp_grows hc g k hw hv (ASK14.grows_given hc g k.mech ht hm hm' hr)⟩

/-- With the depth left to the model's estimate, which falls with magnitude, the same holds beyond
7 km. -/
theorem C94_grows_default_depth (s s' : Scenario) (g : ASK14.Given) (m' : ℝ) (h : ASK14.Source s g)
    (h' : ASK14.Source s' { g with mag := m' }) (hk : ASK14.SameRest s s')
    (hz : ∀ z, g.z1 = some z → -0.01 < z) (hv : 180 ≤ g.v) (ht : g.tor = none)
    (hm : g.mag < m') (hm' : m' ≤ 8.5) (hr : 7 ≤ g.rup) :
    ∃ o o', Gives ASK14.cls s o ∧ Gives ASK14.cls s' o' ∧ o.gmm.lnResp.length = 24 ∧
      List.Forall₂ F.Drops o'.gmm.lnResp o.gmm.lnResp := by
  obtain ⟨k, g1, g2, hw, ok⟩ := ASK14.mag_step h h' hk hz hv
  refine ⟨_, _, g1, g2, by simp [ASK14.out, ASK14.table_length], ?_⟩
  simp only [ASK14.out]
  refine forall₂_map fun c hc => ⟨(ok c hc).2, (ok c hc).1,
    ASK14.resp_grows hc g k hw hv (ASK14.grows_default hc g k.mech ht hm hm' hr)⟩

/-- But within 3 km the estimated depth makes the larger earthquake weaker: from magnitude 6.75 to
7.2 every ordinate with a period of at most 0.25 s, and PGA (period 0), strictly falls. -/
theorem C94_default_depth_falls (s s' : Scenario) (g : ASK14.Given) (h : ASK14.Source s { g with mag := 6.75 })
    (h' : ASK14.Source s' { g with mag := 7.2 }) (hk : ASK14.SameRest s s')
    (hz : ∀ z, g.z1 = some z → -0.01 < z) (hv : 180 ≤ g.v) (ht : g.tor = none)
    (h0 : 0 ≤ g.rup) (hr : g.rup ≤ 3) :
    ∃ o o', Gives ASK14.cls s o ∧ Gives ASK14.cls s' o' ∧
      ∀ i (hi : i < ASK14.table.length), 0 ≤ (ASK14.table[i]'hi).period → (ASK14.table[i]'hi).period ≤ 0.25 →
        F.Drops (o.gmm.lnResp.getD i F.nan) (o'.gmm.lnResp.getD i F.nan) := by
  obtain ⟨k, g1, g2, hw, ok⟩ := ASK14.mag_step (g := { g with mag := 6.75 }) (m' := 7.2) h h' hk hz hv
  refine ⟨_, _, g1, g2, fun i hi p0 p1 => ?_⟩
  have hc : ASK14.table[i]'hi ∈ ASK14.table := List.getElem_mem _
  simp only [ASK14.out, List.getD_eq_getElem?_getD, List.getElem?_map, List.getElem?_eq_getElem hi,
    Option.map_some, Option.getD_some]
  refine ⟨(ok _ hc).1, (ok _ hc).2, ?_⟩
  exact ASK14.resp_grows hc { g with mag := 7.2 } k hw hv (m' := 6.75)
    (ASK14.falls_default hc { g with mag := 7.2 } k.mech ht h0 hr p0 p1)

/-- And within half a kilometre, with given or estimated depth, every ordinate strictly falls from
magnitude 4 to 4.1: there the fictitious depth grows faster than the source. -/
theorem C94_small_events_fall (s s' : Scenario) (g : ASK14.Given) (h : ASK14.Source s { g with mag := 4 })
    (h' : ASK14.Source s' { g with mag := 4.1 }) (hk : ASK14.SameRest s s')
    (hz : ∀ z, g.z1 = some z → -0.01 < z) (hv : 180 ≤ g.v) (h0 : 0 ≤ g.rup) (hr : g.rup ≤ 0.5) :
    ∃ o o', Gives ASK14.cls s o ∧ Gives ASK14.cls s' o' ∧ o.gmm.lnResp.length = 24 ∧
      List.Forall₂ F.Drops o.gmm.lnResp o'.gmm.lnResp := by
  obtain ⟨k, g1, g2, hw, ok⟩ := ASK14.mag_step (g := { g with mag := 4 }) (m' := 4.1) h h' hk hz hv
  refine ⟨_, _, g1, g2, by simp [ASK14.out, ASK14.table_length], ?_⟩
  simp only [ASK14.out]
  refine forall₂_map fun c hc => ⟨(ok c hc).1, (ok c hc).2,
    ASK14.resp_grows hc { g with mag := 4.1 } k hw hv (m' := 4)
      (ASK14.falls_close hc { g with mag := 4.1 } k.mech h0 hr)⟩

/-! ### Instances -/

namespace ASK14

/-- a normal-faulting scenario on soft soil in Japan -/
noncomputable def exM (m r : ℝ) (tor : Val) : Scenario :=
  ⟨[("mag", .num m), ("dist_rup", .num r), ("dist_jb", .num 2), ("dip", .num 60), ("v_s30", .num 250),
    ("depth_tor", tor), ("mechanism", .str "NS"), ("region", .str "japan")], []⟩
@[inherit_doc exM]
noncomputable def exMG (m r : ℝ) (tor : Option ℝ) : Given :=
  { mag := m, rup := r, jb := 2, dip := 60, v := 250, tor := tor }

theorem exM_source (m r : ℝ) (tor : Option ℝ) : Source (exM m r (Val.ofOpt tor)) (exMG m r tor) := by
  constructor <;> simp [exM, exMG, Scenario.get, Dict.get?, Val.ofOpt]

theorem exM_rest (m m' r : ℝ) (t t' : Val) : SameRest (exM m r t) (exM m' r t') := by
  simp [SameRest, exM, Scenario.get, Dict.get?, Val.isOn]

end ASK14

example := C94_grows (ASK14.exM 5 0 (.num 1)) (ASK14.exM 8 0 (.num 1)) (ASK14.exMG 5 0 (some 1)) 8
  (ASK14.exM_source 5 0 (some 1)) (ASK14.exM_source 8 0 (some 1)) (ASK14.exM_rest _ _ _ _ _) (by simp [ASK14.exMG])
  (by norm_num [ASK14.exMG]) (by simp [ASK14.exMG]) (by norm_num [ASK14.exMG]) (by norm_num)
  (by norm_num [ASK14.exMG])
example := C94_grows (ASK14.exM 3 2 (.num 1)) (ASK14.exM 8 2 (.num 1)) (ASK14.exMG 3 2 (some 1)) 8
  (ASK14.exM_source 3 2 (some 1)) (ASK14.exM_source 8 2 (some 1)) (ASK14.exM_rest _ _ _ _ _) (by simp [ASK14.exMG])
  (by norm_num [ASK14.exMG]) (by simp [ASK14.exMG]) (by norm_num [ASK14.exMG]) (by norm_num)
  (by norm_num [ASK14.exMG])
example := C94_grows_default_depth (ASK14.exM 3 7 .none) (ASK14.exM 8.5 7 .none) (ASK14.exMG 3 7 none) 8.5
  (ASK14.exM_source 3 7 none) (ASK14.exM_source 8.5 7 none) (ASK14.exM_rest _ _ _ _ _) (by simp [ASK14.exMG])
  (by norm_num [ASK14.exMG]) (by simp [ASK14.exMG]) (by norm_num [ASK14.exMG]) (by norm_num)
  (by norm_num [ASK14.exMG])
example := C94_default_depth_falls (ASK14.exM 6.75 3 .none) (ASK14.exM 7.2 3 .none) (ASK14.exMG 0 3 none)
  (ASK14.exM_source 6.75 3 none) (ASK14.exM_source 7.2 3 none) (ASK14.exM_rest _ _ _ _ _) (by simp [ASK14.exMG])
  (by norm_num [ASK14.exMG]) (by simp [ASK14.exMG]) (by norm_num [ASK14.exMG]) (by norm_num [ASK14.exMG])
example := C94_small_events_fall (ASK14.exM 4 0.5 .none) (ASK14.exM 4.1 0.5 .none) (ASK14.exMG 0 0.5 none)
  (ASK14.exM_source 4 0.5 none) (ASK14.exM_source 4.1 0.5 none) (ASK14.exM_rest _ _ _ _ _) (by simp [ASK14.exMG])
  (by norm_num [ASK14.exMG]) (by norm_num [ASK14.exMG]) (by norm_num [ASK14.exMG])
