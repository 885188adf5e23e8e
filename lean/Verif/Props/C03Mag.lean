import Verif.Props.C03

/-!
# C82: Campbell (2003) and magnitude
-/

open Bounds

set_option linter.unusedSimpArgs false

namespace C03

/-- secant slope over magnitudes whose sum is at most 16 -/
theorem mag_facts : ∀ c ∈ table, c.c_3 < 0 ∧ 0 ≤ c.c_6 ∧
    0 < c.c_2 - c.c_3 * (17 - 16) + c.c_4 * c.c_8 := by decide +kernel

/-- near-source saturation: the logarithm of the effective distance grows by at most the growth
of the logarithm of its saturation term -/
theorem log_sat {R h h' : ℝ} (hh : 0 < h) (hhh : h ≤ h') :
    Real.log √(R ^ 2 + h' ^ 2) - Real.log √(R ^ 2 + h ^ 2) ≤ Real.log h' - Real.log h := by
  have hh' : 0 < h' := hh.trans_le hhh
  have p : 0 < R ^ 2 + h ^ 2 := by positivity
  have p' : 0 < R ^ 2 + h' ^ 2 := by positivity
  rw [Real.log_sqrt p.le, Real.log_sqrt p'.le]
  have : Real.log ((R ^ 2 + h' ^ 2) * h ^ 2) ≤ Real.log ((R ^ 2 + h ^ 2) * h' ^ 2) := by
    apply Real.log_le_log (by positivity)
    have : h ^ 2 ≤ h' ^ 2 := by gcongr
    nlinarith [mul_le_mul_of_nonneg_left this (sq_nonneg R)]
  rw [Real.log_mul p'.ne' (by positivity), Real.log_mul p.ne' (by positivity), Real.log_pow,
    Real.log_pow] at this
  push_cast at this
  linarith

theorem grows {c : Row} (hc : c ∈ table) {m m' R : ℝ} (hmm : m < m') (h8 : m' ≤ 8) (hR : 0 ≤ R) :
    (lnResp c (F.ofReal m) (F.ofReal R)).val < (lnResp c (F.ofReal m') (F.ofReal R)).val := by
  obtain ⟨⟨q4, q7, q8, -, -⟩, -⟩ := row_facts c hc
  obtain ⟨q3, q6, qs⟩ := mag_facts c hc
  have h4 : (c.c_4 : ℝ) < 0 := by exact_mod_cast q4
  have h7 : (0 : ℝ) < c.c_7 := by exact_mod_cast q7
  have h8' : (0 : ℝ) < c.c_8 := by exact_mod_cast q8
  have h3 : (c.c_3 : ℝ) < 0 := by exact_mod_cast q3
  have h6 : (0 : ℝ) ≤ c.c_6 := by exact_mod_cast q6
  have hs : (0 : ℝ) < ((c.c_2 - c.c_3 * (17 - 16) + c.c_4 * c.c_8 : ℚ) : ℝ) := by exact_mod_cast qs
  push_cast at hs
  have hsat := log_sat (R := R) (h := c.c_7 * Real.exp (c.c_8 * m))
    (h' := c.c_7 * Real.exp (c.c_8 * m')) (by positivity) (by gcongr)
  rw [Real.log_mul h7.ne' (Real.exp_ne_zero _), Real.log_mul h7.ne' (Real.exp_ne_zero _),
    Real.log_exp, Real.log_exp] at hsat
  have k1 := mul_le_mul_of_nonpos_left hsat h4.le
  have k2 := mul_pos hs (sub_pos.2 hmm)
  have k3 : 0 ≤ (c.c_6 : ℝ) * (m' - m) * R := by
    have := sub_pos.2 hmm; positivity
  have k4 : 0 ≤ -(c.c_3 : ℝ) * ((m' - m) * (16 - m - m')) :=
    mul_nonneg (by linarith) (mul_nonneg (by linarith) (by linarith))
  simp only [lnResp_val]
  nlinarith

end C03

/-- Up to M 8 every ordinate strictly grows with magnitude, at every distance. -/
theorem C82_grows_with_magnitude (s s' : Scenario) (m m' R : ℝ) (hmm : m < m') (h8 : m' ≤ 8)
    (hR : 0 ≤ R) (hm : s.get "mag" = .num m) (hm' : s'.get "mag" = .num m')
    (hr : s.get "dist_rup" = .num R) (hr' : s'.get "dist_rup" = .num R) :
    ∃ o o', Gives C03.cls s o ∧ Gives C03.cls s' o' ∧ o.lnResp.length = 16 ∧
      List.Forall₂ F.Drops o'.lnResp o.lnResp := by
  refine ⟨_, _, C03.gives s hm hr, C03.gives s' hm' hr', by simp [C03.out, C03.table], ?_⟩
  simp only [C03.out]
  exact forall₂_map (l := C03.table) fun c hc =>
    ⟨C03.lnResp_ok hc .., C03.lnResp_ok hc .., C03.grows hc hmm h8 hR⟩

/-- The bound is nearly sharp: at zero distance the ordinate at T = 0.15 s (index 6) strictly
decreases with magnitude from M 8.11 on, which lies inside the advertised range 5.0 - 8.2. -/
theorem C82_oversaturates (s s' : Scenario) (m m' : ℝ) (h : 8.11 ≤ m) (hmm : m < m')
    (hm : s.get "mag" = .num m) (hm' : s'.get "mag" = .num m')
    (hr : s.get "dist_rup" = .num 0) (hr' : s'.get "dist_rup" = .num 0) :
    ∃ o o', Gives C03.cls s o ∧ Gives C03.cls s' o' ∧
      F.Drops (o.lnResp.getD 6 F.nan) (o'.lnResp.getD 6 F.nan) := by
  refine ⟨_, _, C03.gives s hm hr, C03.gives s' hm' hr', ?_⟩
  obtain ⟨c, hc⟩ : ∃ c, C03.table[6]? = some c := ⟨_, rfl⟩
  have hf : ∀ c : C03.Row, c ∈ C03.table[6]? → c.period = (0.15 : ℚ) ∧ c.c_3 < (0 : ℚ) ∧
      c.c_2 - c.c_3 * (17 - 16.22) + c.c_4 * c.c_8 < (0 : ℚ) := by decide +kernel
  obtain ⟨-, q3, qs⟩ := hf c hc
  have hmem : c ∈ C03.table := List.mem_of_getElem? hc
  simp only [C03.out, List.getD_eq_getElem?_getD, List.getElem?_map, hc, Option.map_some,
    Option.getD_some]
  refine ⟨C03.lnResp_ok hmem .., C03.lnResp_ok hmem .., ?_⟩
  have h7 : (0 : ℝ) < c.c_7 := by exact_mod_cast (C03.row_facts c hmem).1.2.1
  have h3 : (c.c_3 : ℝ) < 0 := by exact_mod_cast q3
  have hs : ((c.c_2 - c.c_3 * (17 - 16.22) + c.c_4 * c.c_8 : ℚ) : ℝ) < 0 := by exact_mod_cast qs
  push_cast at hs
  have e : ∀ x : ℝ, Real.log √((0 : ℝ) ^ 2 + (c.c_7 * Real.exp (c.c_8 * x)) ^ 2) =
      Real.log c.c_7 + c.c_8 * x := by
    intro x
    rw [show (0 : ℝ) ^ 2 + (c.c_7 * Real.exp (c.c_8 * x)) ^ 2 = (c.c_7 * Real.exp (c.c_8 * x)) ^ 2 by
      ring, Real.sqrt_sq (by positivity), Real.log_mul h7.ne' (Real.exp_ne_zero _), Real.log_exp]
  simp only [C03.lnResp_val, e]
  have k2 := mul_neg_of_neg_of_pos hs (sub_pos.2 hmm)
  have k4 : 0 ≤ -(c.c_3 : ℝ) * ((m' - m) * (m + m' - 16.22)) :=
    mul_nonneg (by linarith) (mul_nonneg (by linarith) (by linarith))
  norm_num
  nlinarith

example : ∃ o o', Gives C03.cls ⟨[("mag", .num 7), ("dist_rup", .num 0)], []⟩ o ∧
    Gives C03.cls ⟨[("mag", .num 8), ("dist_rup", .num 0)], []⟩ o' ∧ o.lnResp.length = 16 ∧
      List.Forall₂ F.Drops o'.lnResp o.lnResp :=
  C82_grows_with_magnitude _ _ 7 8 0 (by norm_num) (by norm_num) (by norm_num) rfl rfl rfl rfl

example : ∃ o o', Gives C03.cls ⟨[("mag", .num 8.15), ("dist_rup", .num 0)], []⟩ o ∧
    Gives C03.cls ⟨[("mag", .num 8.2), ("dist_rup", .num 0)], []⟩ o' ∧
      F.Drops (o.lnResp.getD 6 F.nan) (o'.lnResp.getD 6 F.nan) :=
  C82_oversaturates _ _ 8.15 8.2 (by norm_num) (by norm_num) rfl rfl rfl rfl
