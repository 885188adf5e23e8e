import Verif.Props.Pea11

/-!
# C83, C84: Pezeshk, Zandieh & Tavakoli (2011) against magnitude and distance
-/

open Bounds

set_option linter.unusedSimpArgs false

namespace Pea11

/-- log10 of the effective distance, cut at 70 km -/
noncomputable def near (d : ℝ) : ℝ := min (Real.logb 10 d) (Real.logb 10 70)
/-- the part of it between 70 and 140 km -/
noncomputable def mid (d : ℝ) : ℝ := max (min (Real.logb 10 (d / 70)) (Real.logb 10 (140 / 70))) 0
/-- the part of it beyond 140 km -/
noncomputable def far (d : ℝ) : ℝ := max (Real.logb 10 (d / 140)) 0

/-- the effective distance -/
noncomputable def eff (c : Row) (R : ℝ) : ℝ := √(R ^ 2 + (c.c_11 : ℝ) ^ 2)

theorem val_eq (c : Row) (m R : ℝ) : (lnResp c (F.ofReal m) (F.ofReal R)).val =
    Real.log 10 * ((c.c_1 + c.c_2 * m + c.c_3 * m ^ 2) + (c.c_4 + c.c_5 * m) * near (eff c R) +
      (c.c_6 + c.c_7 * m) * mid (eff c R) + (c.c_8 + c.c_9 * m) * far (eff c R) +
      c.c_10 * eff c R) := lnResp_val c m R

theorem log10_pos : 0 < Real.log 10 := Real.log_pos (by norm_num)

theorem lg_mono {a b : ℝ} (ha : 0 < a) (h : a ≤ b) : Real.logb 10 a ≤ Real.logb 10 b :=
  Real.logb_le_logb_of_le (by norm_num) ha h

/-- `k/n ≤ log10 x` from `10^k ≤ x^n` -/
theorem le_lg {x : ℝ} (hx : 0 < x) {k n : ℕ} (hn : 0 < n) (h : (10 : ℝ) ^ k ≤ x ^ n) :
    (k : ℝ) / n ≤ Real.logb 10 x := by
  have h1 := lg_mono (by positivity) h
  rw [Real.logb_pow, Real.logb_pow, Real.logb_self_eq_one (by norm_num)] at h1
  rw [div_le_iff₀ (by positivity)]
  linarith

/-- `log10 x ≤ k/n` from `x^n ≤ 10^k` -/
theorem lg_le {x : ℝ} (hx : 0 < x) {k n : ℕ} (hn : 0 < n) (h : x ^ n ≤ (10 : ℝ) ^ k) :
    Real.logb 10 x ≤ (k : ℝ) / n := by
  have h1 := lg_mono (by positivity) h
  rw [Real.logb_pow, Real.logb_pow, Real.logb_self_eq_one (by norm_num)] at h1
  rw [le_div_iff₀ (by positivity)]
  linarith

theorem lg70 : 1.84 ≤ Real.logb 10 70 := by
  have := le_lg (x := 70) (by norm_num) (k := 46) (n := 25) (by norm_num) (by norm_num)
  norm_num at this ⊢; linarith

theorem lg2 : Real.logb 10 (140 / 70) ≤ 0.302 := by
  have := lg_le (x := 2) (by norm_num) (k := 19) (n := 63) (by norm_num) (by norm_num)
  norm_num at this ⊢; linarith

/-- signs, and secant slopes in magnitude: at 13 km and beyond up to M 8, and at any distance up
to M 6.5.  `s` is the sum of the two magnitudes. -/
theorem mag_facts : ∀ c ∈ table, c.c_3 < 0 ∧ 0 < c.c_5 ∧ c.c_7 < 0 ∧ 0 < c.c_9 ∧
    0 < c.c_2 + c.c_3 * 16 + c.c_5 * 1.15 ∧
    0 < c.c_2 + c.c_3 * 16 + c.c_5 * 1.84 + c.c_7 * 0.302 ∧
    10 ^ 23 ≤ (13 ^ 2 + c.c_11 ^ 2) ^ 10 ∧
    ∃ k ∈ [(38 : ℕ), 39, 40, 41, 42, 43], 10 ^ k ≤ c.c_11 ^ 50 ∧
      0 < c.c_2 + c.c_3 * 13 + c.c_5 * (k / 50 : ℚ) := by decide +kernel

theorem eff_pos {c : Row} (hc : c ∈ table) (R : ℝ) : 0 < eff c R := Real.sqrt_pos.2 (dist_pos hc R)

theorem grows {c : Row} (hc : c ∈ table) {m m' R : ℝ} (hmm : m < m')
    (h : m' ≤ 6.5 ∨ 13 ≤ R ∧ m' ≤ 8) :
    (lnResp c (F.ofReal m) (F.ofReal R)).val < (lnResp c (F.ofReal m') (F.ofReal R)).val := by
  obtain ⟨q3, q5, q7, q9, qa, qb, qd, k, -, qk, qs⟩ := mag_facts c hc
  have h3 : (c.c_3 : ℝ) < 0 := by exact_mod_cast q3
  have h5 : (0 : ℝ) < c.c_5 := by exact_mod_cast q5
  have h7 : (c.c_7 : ℝ) < 0 := by exact_mod_cast q7
  have h9 : (0 : ℝ) < c.c_9 := by exact_mod_cast q9
  have ha : (0 : ℝ) < ((c.c_2 + c.c_3 * 16 + c.c_5 * 1.15 : ℚ) : ℝ) := by exact_mod_cast qa
  have hb : (0 : ℝ) < ((c.c_2 + c.c_3 * 16 + c.c_5 * 1.84 + c.c_7 * 0.302 : ℚ) : ℝ) := by
    exact_mod_cast qb
  have hs : (0 : ℝ) < ((c.c_2 + c.c_3 * 13 + c.c_5 * (k / 50 : ℚ) : ℚ) : ℝ) := by exact_mod_cast qs
  push_cast at ha hb hs
  have hd := eff_pos hc R
  rw [val_eq, val_eq]
  apply mul_lt_mul_of_pos_left _ log10_pos
  set d := eff c R with hdd
  have hmid0 : 0 ≤ mid d := le_max_right _ _
  have hfar0 : 0 ≤ far d := le_max_right _ _
  have hmid1 : mid d ≤ 0.302 := max_le ((min_le_right _ _).trans lg2) (by norm_num)
  have l70 := lg70
  have hs16 : m + m' ≤ 16 := by rcases h with h | h <;> linarith
  suffices hk : 0 < c.c_2 + c.c_3 * (m + m') + c.c_5 * near d + c.c_7 * mid d + c.c_9 * far d by
    have := mul_pos hk (sub_pos.2 hmm)
    nlinarith
  have e9 : 0 ≤ c.c_9 * far d := mul_nonneg h9.le hfar0
  have e3 := mul_le_mul_of_nonpos_left hs16 h3.le
  rcases le_total d 70 with h70 | h70
  · have n : near d = Real.logb 10 d := min_eq_left (lg_mono hd h70)
    have mz : mid d = 0 := by
      apply max_eq_right
      apply (min_le_left _ _).trans
      rw [Real.logb_nonpos_iff (by norm_num) (by positivity), div_le_one (by norm_num)]
      exact h70
    rw [n, mz]
    rcases h with h | ⟨hR, h8⟩
    · have l : (k : ℝ) / 50 ≤ Real.logb 10 d := by
        have hk50 : (10 : ℝ) ^ k ≤ (c.c_11 : ℝ) ^ 50 := by exact_mod_cast qk
        have h11 : (0 : ℝ) < c.c_11 := by exact_mod_cast (row_facts c hc).1
        have := le_lg h11 (n := 50) (by norm_num) hk50
        have h1 : (c.c_11 : ℝ) ≤ d := Real.le_sqrt_of_sq_le (by nlinarith [sq_nonneg R])
        have := lg_mono h11 h1
        push_cast at *
        linarith
      have e5 := mul_le_mul_of_nonneg_left l h5.le
      have e3' := mul_le_mul_of_nonpos_left (by linarith : m + m' ≤ 13) h3.le
      linarith
    · have l : 1.15 ≤ Real.logb 10 d := by
        have hq : ((10 : ℝ)) ^ 23 ≤ (13 ^ 2 + (c.c_11 : ℝ) ^ 2) ^ 10 := by exact_mod_cast qd
        have h1 : (13 : ℝ) ^ 2 + (c.c_11 : ℝ) ^ 2 ≤ d ^ 2 := by
          rw [hdd, eff, Real.sq_sqrt (dist_pos hc R).le]; nlinarith
        have h2 : (10 : ℝ) ^ 23 ≤ d ^ 20 := by
          calc _ ≤ _ := hq
            _ ≤ (d ^ 2) ^ 10 := by gcongr
            _ = _ := by ring
        have := le_lg hd (n := 20) (by norm_num) h2
        norm_num at this ⊢; linarith
      have e5 := mul_le_mul_of_nonneg_left l h5.le
      linarith
  · have n : near d = Real.logb 10 70 := min_eq_right (lg_mono (by norm_num) h70)
    rw [n]
    have e5 := mul_le_mul_of_nonneg_left l70 h5.le
    have e7 := mul_le_mul_of_nonpos_left hmid1 h7.le
    linarith

end Pea11

/-- Every ordinate strictly grows with magnitude: up to M 6.5 at every distance, and up to M 8
(the top of the advertised range) from 13 km on. -/
theorem C83_grows_with_magnitude (s s' : Scenario) (m m' R : ℝ) (hmm : m < m')
    (h : m' ≤ 6.5 ∨ 13 ≤ R ∧ m' ≤ 8) (hm : s.get "mag" = .num m) (hm' : s'.get "mag" = .num m')
    (hr : s.get "dist_rup" = .num R) (hr' : s'.get "dist_rup" = .num R) :
    ∃ o o', Gives Pea11.cls s o ∧ Gives Pea11.cls s' o' ∧ o.lnResp.length = 23 ∧
      List.Forall₂ F.Drops o'.lnResp o.lnResp := by
  refine ⟨_, _, Pea11.gives s hm hr, Pea11.gives s' hm' hr', by simp [Pea11.out, Pea11.table], ?_⟩
  simp only [Pea11.out]
  exact forall₂_map (l := Pea11.table) fun c hc =>
    ⟨Pea11.lnResp_ok hc .., Pea11.lnResp_ok hc .., Pea11.grows hc hmm h⟩

/-- Close to a large event it is false: at zero distance PGA (ordinate 0) strictly decreases
with magnitude from M 6.8 on. -/
theorem C83_oversaturates (s s' : Scenario) (m m' : ℝ) (h : 6.8 ≤ m) (hmm : m < m')
    (hm : s.get "mag" = .num m) (hm' : s'.get "mag" = .num m')
    (hr : s.get "dist_rup" = .num 0) (hr' : s'.get "dist_rup" = .num 0) :
    ∃ o o', Gives Pea11.cls s o ∧ Gives Pea11.cls s' o' ∧
      F.Drops (o.lnResp.getD 0 F.nan) (o'.lnResp.getD 0 F.nan) := by
  refine ⟨_, _, Pea11.gives s hm hr, Pea11.gives s' hm' hr', ?_⟩
  obtain ⟨c, hc⟩ : ∃ c, Pea11.table[0]? = some c := ⟨_, rfl⟩
  have hf : ∀ c : Pea11.Row, c ∈ Pea11.table[0]? → c.c_3 < (0 : ℚ) ∧ 0 < c.c_5 ∧
      c.c_11 < (10 : ℚ) ∧ c.c_11 ^ 40 ≤ 10 ^ 33 ∧
      c.c_2 + c.c_3 * 13.6 + c.c_5 * 0.825 < (0 : ℚ) := by decide +kernel
  obtain ⟨q3, q5, q10, q11, qs⟩ := hf c hc
  have hmem : c ∈ Pea11.table := List.mem_of_getElem? hc
  simp only [Pea11.out, List.getD_eq_getElem?_getD, List.getElem?_map, hc, Option.map_some,
    Option.getD_some]
  refine ⟨Pea11.lnResp_ok hmem .., Pea11.lnResp_ok hmem .., ?_⟩
  have h11 : (0 : ℝ) < c.c_11 := by exact_mod_cast (Pea11.row_facts c hmem).1
  have h10 : (c.c_11 : ℝ) < 10 := by exact_mod_cast q10
  have h3 : (c.c_3 : ℝ) < 0 := by exact_mod_cast q3
  have h5 : (0 : ℝ) < c.c_5 := by exact_mod_cast q5
  have hs : ((c.c_2 + c.c_3 * 13.6 + c.c_5 * 0.825 : ℚ) : ℝ) < 0 := by exact_mod_cast qs
  push_cast at hs
  rw [Pea11.val_eq, Pea11.val_eq]
  apply mul_lt_mul_of_pos_left _ Pea11.log10_pos
  have hd : Pea11.eff c 0 = c.c_11 := by
    rw [Pea11.eff]; rw [show (0 : ℝ) ^ 2 + (c.c_11 : ℝ) ^ 2 = (c.c_11 : ℝ) ^ 2 by ring]
    exact Real.sqrt_sq h11.le
  rw [hd]
  have n : Pea11.near c.c_11 = Real.logb 10 c.c_11 := min_eq_left (Pea11.lg_mono h11 (by linarith))
  have mz : Pea11.mid c.c_11 = 0 := by
    apply max_eq_right
    apply (min_le_left _ _).trans
    rw [Real.logb_nonpos_iff (by norm_num) (by positivity), div_le_one (by norm_num)]
    linarith
  have fz : Pea11.far c.c_11 = 0 := by
    apply max_eq_right
    rw [Real.logb_nonpos_iff (by norm_num) (by positivity), div_le_one (by norm_num)]
    linarith
  have l : Real.logb 10 (c.c_11 : ℝ) ≤ 0.825 := by
    have := Pea11.lg_le h11 (k := 33) (n := 40) (by norm_num) (by exact_mod_cast q11)
    norm_num at this ⊢; linarith
  rw [n, mz, fz]
  have e5 := mul_le_mul_of_nonneg_left l h5.le
  have e3 := mul_le_mul_of_nonpos_left (by linarith : 13.6 ≤ m + m') h3.le
  have hk : c.c_2 + c.c_3 * (m + m') + c.c_5 * Real.logb 10 (c.c_11 : ℝ) < 0 := by linarith
  have := mul_neg_of_neg_of_pos hk (sub_pos.2 hmm)
  nlinarith

namespace Pea11

/-- signs of the distance slopes at both ends of the magnitude range -/
theorem dist_facts : ∀ c ∈ table, c.c_10 < 0 ∧ c.c_11 ≤ 7.4 ∧
    ∀ m ∈ [(5 : ℚ), 8], c.c_4 + c.c_5 * m < 0 ∧ c.c_8 + c.c_9 * m < 0 ∧
      (c.period ≤ 0.05 → c.c_6 + c.c_7 * m < 0) ∧
      (1 ≤ c.period → 0 < c.c_6 + c.c_7 * m + c.c_10 * 131.3 * 2.303) := by decide +kernel

theorem eff_mono (c : Row) {R R' : ℝ} (hR : 0 ≤ R) (h : R < R') : eff c R < eff c R' :=
  Real.sqrt_lt_sqrt (by positivity) (by nlinarith)

theorem near_mono {d d' : ℝ} (h0 : 0 < d) (h : d ≤ d') : near d ≤ near d' :=
  min_le_min_right _ (lg_mono h0 h)

theorem mid_mono {d d' : ℝ} (h0 : 0 < d) (h : d ≤ d') : mid d ≤ mid d' :=
  max_le_max_right _ (min_le_min_right _ (lg_mono (by positivity) (by gcongr)))

theorem far_mono {d d' : ℝ} (h0 : 0 < d) (h : d ≤ d') : far d ≤ far d' :=
  max_le_max_right _ (lg_mono (by positivity) (by gcongr))

theorem mid_low {d : ℝ} (h0 : 0 < d) (h : d ≤ 70) : mid d = 0 := by
  apply max_eq_right
  apply (min_le_left _ _).trans
  rw [Real.logb_nonpos_iff (by norm_num) (by positivity), div_le_one (by norm_num)]
  exact h

theorem mid_high {d : ℝ} (h : 140 ≤ d) : mid d = Real.logb 10 (140 / 70) := by
  have : Real.logb 10 (140 / 70) ≤ Real.logb 10 (d / 70) := lg_mono (by norm_num) (by gcongr)
  rw [mid, min_eq_right this, max_eq_left]
  exact Real.logb_nonneg (by norm_num) (by norm_num)

theorem slopes {c : Row} (hc : c ∈ table) {m : ℝ} (h5 : 5 ≤ m) (h8 : m ≤ 8) :
    (c.c_10 : ℝ) < 0 ∧ (c.c_4 : ℝ) + c.c_5 * m < 0 ∧ (c.c_8 : ℝ) + c.c_9 * m < 0 ∧
      (c.period ≤ 0.05 → (c.c_6 : ℝ) + c.c_7 * m < 0) ∧
      (1 ≤ c.period → 0 < (c.c_6 : ℝ) + c.c_7 * m + c.c_10 * 131.3 * 2.303) := by
  obtain ⟨q10, -, q⟩ := dist_facts c hc
  obtain ⟨a1, a2, a3, a4⟩ := q 5 (by simp)
  obtain ⟨b1, b2, b3, b4⟩ := q 8 (by simp)
  refine ⟨by exact_mod_cast q10, linear_neg ⟨h5, h8⟩ (by exact_mod_cast a1) (by exact_mod_cast b1),
    linear_neg ⟨h5, h8⟩ (by exact_mod_cast a2) (by exact_mod_cast b2), fun hp =>
    linear_neg ⟨h5, h8⟩ (by exact_mod_cast a3 hp) (by exact_mod_cast b3 hp), fun hp => ?_⟩
  have a := a4 hp
  have b := b4 hp
  have a' : (0 : ℝ) < ((c.c_6 + c.c_7 * 5 + c.c_10 * 131.3 * 2.303 : ℚ) : ℝ) := by exact_mod_cast a
  have b' : (0 : ℝ) < ((c.c_6 + c.c_7 * 8 + c.c_10 * 131.3 * 2.303 : ℚ) : ℝ) := by exact_mod_cast b
  push_cast at a' b'
  have := linear_pos (p := (c.c_6 : ℝ) + c.c_10 * 131.3 * 2.303) (q := c.c_7) ⟨h5, h8⟩
    (by linarith) (by linarith)
  linarith

theorem drops {c : Row} (hc : c ∈ table) {m R R' : ℝ} (h5 : 5 ≤ m) (h8 : m ≤ 8) (hR : 0 ≤ R)
    (h : R < R') (hcase : R' ≤ 69 ∨ 140 ≤ R ∨ c.period ≤ 0.05) :
    (lnResp c (F.ofReal m) (F.ofReal R')).val < (lnResp c (F.ofReal m) (F.ofReal R)).val := by
  obtain ⟨s10, s4, s8, s6, -⟩ := slopes hc h5 h8
  have hd := eff_pos hc R
  have hdd := eff_mono c hR h
  have e1 := mul_le_mul_of_nonpos_left (near_mono hd hdd.le) s4.le
  have e3 := mul_le_mul_of_nonpos_left (far_mono hd hdd.le) s8.le
  have e4 := mul_lt_mul_of_neg_left hdd s10
  have e2 : ((c.c_6 : ℝ) + c.c_7 * m) * mid (eff c R') ≤ (c.c_6 + c.c_7 * m) * mid (eff c R) := by
    rcases hcase with hc1 | hc1 | hc1
    · have : eff c R' ≤ 70 := by
        have q : (c.c_11 : ℝ) ≤ 7.4 := by
          have := (dist_facts c hc).2.1
          have : (c.c_11 : ℝ) ≤ ((7.4 : ℚ) : ℝ) := by exact_mod_cast this
          push_cast at this; exact this
        have h11 : (0 : ℝ) < c.c_11 := by exact_mod_cast (row_facts c hc).1
        rw [eff, Real.sqrt_le_left (by norm_num)]
        nlinarith
      rw [mid_low hd (hdd.le.trans this), mid_low (hd.trans hdd) this]
    · have h1 : 140 ≤ eff c R := Real.le_sqrt_of_sq_le (by nlinarith [sq_nonneg (c.c_11 : ℝ)])
      rw [mid_high h1, mid_high (h1.trans hdd.le)]
    · exact mul_le_mul_of_nonpos_left (mid_mono hd hdd.le) (s6 hc1).le
  rw [val_eq, val_eq]
  apply mul_lt_mul_of_pos_left _ log10_pos
  linarith

theorem rises {c : Row} (hc : c ∈ table) {m R R' : ℝ} (h5 : 5 ≤ m) (h8 : m ≤ 8) (hR : 70 ≤ R)
    (h : R < R') (hR' : R' ≤ 131) (hp : 1 ≤ c.period) :
    (lnResp c (F.ofReal m) (F.ofReal R)).val < (lnResp c (F.ofReal m) (F.ofReal R')).val := by
  obtain ⟨s10, -, -, -, s6⟩ := slopes hc h5 h8
  have s6 := s6 hp
  have hdd := eff_mono c (by linarith) h
  have h70 : 70 ≤ eff c R := Real.le_sqrt_of_sq_le (by nlinarith [sq_nonneg (c.c_11 : ℝ)])
  have h131 : eff c R' ≤ 131.3 := by
    have q : (c.c_11 : ℝ) ≤ 7.4 := by
      have := (dist_facts c hc).2.1
      have : (c.c_11 : ℝ) ≤ ((7.4 : ℚ) : ℝ) := by exact_mod_cast this
      push_cast at this; exact this
    have h11 : (0 : ℝ) < c.c_11 := by exact_mod_cast (row_facts c hc).1
    rw [eff, Real.sqrt_le_left (by norm_num)]
    nlinarith
  have hl10 : Real.log 10 ≤ 2.303 := by
    have := log_le_of (x := 10) (q := 2.303) (by norm_num) (by norm_num) (by
      have : (10 : ℚ) ≤ expLo 2.303 := by decide +kernel
      exact_mod_cast this)
    push_cast at this; exact this
  have l0 := log10_pos
  have hmid : ∀ d : ℝ, 70 ≤ d → d ≤ 131.3 → mid d = Real.logb 10 (d / 70) := by
    intro d h1 h2
    rw [mid, min_eq_left (lg_mono (by positivity) (by gcongr; linarith)), max_eq_left]
    exact Real.logb_nonneg (by norm_num) (by rw [le_div_iff₀ (by norm_num)]; linarith)
  have hnear : ∀ d : ℝ, 70 ≤ d → near d = Real.logb 10 70 := fun d h1 =>
    min_eq_right (lg_mono (by norm_num) h1)
  have hfar : ∀ d : ℝ, 70 ≤ d → d ≤ 131.3 → far d = 0 := by
    intro d h1 h2
    apply max_eq_right
    rw [Real.logb_nonpos_iff (by norm_num) (by positivity), div_le_one (by norm_num)]
    linarith
  rw [val_eq, val_eq]
  apply mul_lt_mul_of_pos_left _ l0
  set d := eff c R
  set d' := eff c R'
  rw [hmid d h70 (by linarith), hmid d' (by linarith) h131, hnear d h70, hnear d' (by linarith),
    hfar d h70 (by linarith), hfar d' (by linarith) h131]
  have hd : 0 < d := by linarith
  have hd' : 0 < d' := by linarith
  have key : (d' - d) / (131.3 * 2.303) ≤ Real.logb 10 (d' / 70) - Real.logb 10 (d / 70) := by
    rw [Real.logb_div hd'.ne' (by norm_num), Real.logb_div hd.ne' (by norm_num)]
    simp only [Real.logb]
    have k1 : (d' - d) / d' ≤ Real.log d' - Real.log d := by
      have := Real.one_sub_inv_le_log_of_pos (div_pos hd' hd)
      rw [Real.log_div hd'.ne' hd.ne', inv_div] at this
      have e : (d' - d) / d' = 1 - d / d' := by field_simp
      linarith
    have k2 : (d' - d) / 131.3 ≤ (d' - d) / d' :=
      div_le_div_of_nonneg_left (by linarith) hd' h131
    have k3 : (d' - d) / (131.3 * 2.303) ≤ (Real.log d' - Real.log d) / Real.log 10 := by
      rw [← div_div]
      exact div_le_div₀ (by have : 0 ≤ (d' - d) / d' := div_nonneg (by linarith) hd'.le
                            linarith) (k2.trans k1) l0 hl10
    calc _ ≤ _ := k3
      _ = _ := by ring
  have pos6 : 0 < (c.c_6 : ℝ) + c.c_7 * m := by nlinarith
  have k := mul_le_mul_of_nonneg_left key pos6.le
  have hδ : 0 < d' - d := by linarith
  have k' : -(c.c_10 : ℝ) * (d' - d) < (c.c_6 + c.c_7 * m) * ((d' - d) / (131.3 * 2.303)) := by
    rw [← mul_div_assoc, lt_div_iff₀ (by norm_num)]
    nlinarith [mul_pos s6 hδ]
  linarith

end Pea11

/-- Every ordinate strictly drops with distance within 69 km and beyond 140 km; those up to
T = 0.05 s (PGA among them) drop at every distance.  Magnitudes 5 to 8, as advertised. -/
theorem C84_attenuates (s s' : Scenario) (m R R' : ℝ) (h5 : 5 ≤ m) (h8 : m ≤ 8) (hR : 0 ≤ R)
    (h : R < R') (hm : s.get "mag" = .num m) (hm' : s'.get "mag" = .num m)
    (hr : s.get "dist_rup" = .num R) (hr' : s'.get "dist_rup" = .num R') :
    ∃ o o', Gives Pea11.cls s o ∧ Gives Pea11.cls s' o' ∧ o.lnResp.length = 23 ∧
      (R' ≤ 69 ∨ 140 ≤ R → List.Forall₂ F.Drops o.lnResp o'.lnResp) ∧
      List.Forall₂ F.Drops (o.lnResp.take 6) (o'.lnResp.take 6) := by
  refine ⟨_, _, Pea11.gives s hm hr, Pea11.gives s' hm' hr', by simp [Pea11.out, Pea11.table], ?_, ?_⟩
  · intro hc
    simp only [Pea11.out]
    exact forall₂_map (l := Pea11.table) fun c hc' =>
      ⟨Pea11.lnResp_ok hc' .., Pea11.lnResp_ok hc' .., Pea11.drops hc' h5 h8 hR h
        (hc.elim .inl (.inr ∘ .inl))⟩
  · simp only [Pea11.out, ← List.map_take]
    refine forall₂_map (l := Pea11.table.take 6) fun c hc' => ?_
    have hmem := List.mem_of_mem_take hc'
    have hf : ∀ c ∈ Pea11.table.take 6, c.period ≤ (0.05 : ℚ) := by decide +kernel
    exact ⟨Pea11.lnResp_ok hmem .., Pea11.lnResp_ok hmem .., Pea11.drops hmem h5 h8 hR h
      (.inr (.inr (hf c hc')))⟩

/-- Between 70 and 131 km the model does not attenuate: all eight ordinates with T of 1 s and
more strictly rise with distance, for every magnitude from 5 to 8. -/
theorem C84_rises_between_hinges (s s' : Scenario) (m R R' : ℝ) (h5 : 5 ≤ m) (h8 : m ≤ 8)
    (hR : 70 ≤ R) (h : R < R') (hR' : R' ≤ 131) (hm : s.get "mag" = .num m)
    (hm' : s'.get "mag" = .num m) (hr : s.get "dist_rup" = .num R)
    (hr' : s'.get "dist_rup" = .num R') :
    ∃ o o', Gives Pea11.cls s o ∧ Gives Pea11.cls s' o' ∧ (o.lnResp.drop 15).length = 8 ∧
      List.Forall₂ F.Drops (o'.lnResp.drop 15) (o.lnResp.drop 15) := by
  refine ⟨_, _, Pea11.gives s hm hr, Pea11.gives s' hm' hr', by simp [Pea11.out, Pea11.table], ?_⟩
  simp only [Pea11.out, ← List.map_drop]
  refine forall₂_map (l := Pea11.table.drop 15) fun c hc' => ?_
  have hmem := List.mem_of_mem_drop hc'
  have hf : ∀ c ∈ Pea11.table.drop 15, (1 : ℚ) ≤ c.period := by decide +kernel
  exact ⟨Pea11.lnResp_ok hmem .., Pea11.lnResp_ok hmem .., Pea11.rises hmem h5 h8 hR h hR'
    (hf c hc')⟩

example : ∃ o o', Gives Pea11.cls ⟨[("mag", .num 7), ("dist_rup", .num 20)], []⟩ o ∧
    Gives Pea11.cls ⟨[("mag", .num 8), ("dist_rup", .num 20)], []⟩ o' ∧ o.lnResp.length = 23 ∧
      List.Forall₂ F.Drops o'.lnResp o.lnResp :=
  C83_grows_with_magnitude _ _ 7 8 20 (by norm_num) (.inr (by norm_num)) rfl rfl rfl rfl

example : ∃ o o', Gives Pea11.cls ⟨[("mag", .num 7), ("dist_rup", .num 0)], []⟩ o ∧
    Gives Pea11.cls ⟨[("mag", .num 8), ("dist_rup", .num 0)], []⟩ o' ∧
      F.Drops (o.lnResp.getD 0 F.nan) (o'.lnResp.getD 0 F.nan) :=
  C83_oversaturates _ _ 7 8 (by norm_num) (by norm_num) rfl rfl rfl rfl

example : ∃ o o', Gives Pea11.cls ⟨[("mag", .num 7), ("dist_rup", .num 80)], []⟩ o ∧
    Gives Pea11.cls ⟨[("mag", .num 7), ("dist_rup", .num 120)], []⟩ o' ∧
      (o.lnResp.drop 15).length = 8 ∧
      List.Forall₂ F.Drops (o'.lnResp.drop 15) (o.lnResp.drop 15) :=
  C84_rises_between_hinges _ _ 7 80 120 (by norm_num) (by norm_num) (by norm_num) (by norm_num)
    (by norm_num) rfl rfl rfl rfl
