import Verif.Models.C03
import Verif.Bounds

/-! # C54: Campbell (2003) -/

open Bounds

set_option linter.unusedSimpArgs false

namespace C03

/-- the inequalities between coefficients that the proofs use, evaluated on every row -/
theorem row_facts : ∀ c ∈ table,
    (c.c_4 < 0 ∧ 0 < c.c_7 ∧ 0 < c.c_8 ∧ c.c_7 * expHi (c.c_8 * 8.2) ≤ 24 ∧ c.c_8 * 8.2 ≤ 8) ∧
    ((∀ k ∈ [c.c_5 + c.c_6 * 5, c.c_5 + c.c_6 * 8.2],
      c.c_4 + k * (70 + 24 ^ 2) < 0 ∧
      (∀ R ∈ [(70 : ℚ), 130], c.c_4 + (k * R + c.c_9) * (1 + 24 ^ 2 / 70 ^ 2) < 0) ∧
      (∀ R ∈ [(130 : ℚ), 1000],
        c.c_4 + (k * R + (c.c_9 + c.c_10)) * (1 + 24 ^ 2 / 130 ^ 2) < 0))) := by
  decide +kernel

/-- the row formula as a real function of distance, for given magnitude; `g` is the
coefficient of `log R` in force -/
theorem deriv_form (c4 k g h C : ℝ) (hh : 0 < h) {R : ℝ} (hR : 0 < R) :
    HasDerivAt (fun r => c4 * Real.log (Real.sqrt (r ^ 2 + h ^ 2)) + k * r + g * Real.log r + C)
      (c4 * (R / (R ^ 2 + h ^ 2)) + k + g / R) R := by
  have hpos : 0 < R ^ 2 + h ^ 2 := by positivity
  have e : (fun r : ℝ => c4 * Real.log (Real.sqrt (r ^ 2 + h ^ 2)) + k * r + g * Real.log r + C) =
      fun r => c4 * (Real.log (r ^ 2 + h ^ 2) / 2) + k * r + g * Real.log r + C := by
    funext r; rw [Real.log_sqrt (by positivity)]
  rw [e]
  have h1 : HasDerivAt (fun r : ℝ => r ^ 2 + h ^ 2) (2 * R) R := by
    simpa using (hasDerivAt_pow 2 R).add_const (h ^ 2)
  have h2 := (h1.log hpos.ne').div_const 2
  have h3 := (((h2.const_mul c4).add ((hasDerivAt_id R).const_mul k)).add
    ((Real.hasDerivAt_log hR.ne').const_mul g)).add_const C
  refine h3.congr_deriv ?_
  simp only [mul_one]
  field_simp

/-- negativity of the slope from a bound at the near end of a segment -/
theorem slope_neg {c4 k g h a R : ℝ} (hc4 : c4 < 0) (ha : 0 < a) (haR : a ≤ R) (hh : 0 ≤ h)
    (hH : h ≤ 24) (hcond : c4 + (k * R + g) * (1 + 24 ^ 2 / a ^ 2) < 0) :
    c4 * (R / (R ^ 2 + h ^ 2)) + k + g / R < 0 := by
  have hR : 0 < R := lt_of_lt_of_le ha haR
  have hpos : 0 < R ^ 2 + h ^ 2 := by positivity
  have e : c4 * (R / (R ^ 2 + h ^ 2)) + k + g / R =
      (c4 * R ^ 2 + (k * R + g) * (R ^ 2 + h ^ 2)) / (R * (R ^ 2 + h ^ 2)) := by
    field_simp; ring
  rw [e]
  apply div_neg_of_neg_of_pos _ (by positivity)
  rcases le_total (k * R + g) 0 with hneg | hnn
  · have h1 : c4 * R ^ 2 < 0 := mul_neg_of_neg_of_pos hc4 (by positivity)
    have h2 : (k * R + g) * (R ^ 2 + h ^ 2) ≤ 0 := mul_nonpos_of_nonpos_of_nonneg hneg hpos.le
    linarith
  · have h1 : R ^ 2 + h ^ 2 ≤ R ^ 2 * (1 + 24 ^ 2 / a ^ 2) := by
      have : h ^ 2 ≤ 24 ^ 2 := by nlinarith
      have h3 : a ^ 2 ≤ R ^ 2 := by nlinarith
      have h4 : (24 : ℝ) ^ 2 ≤ R ^ 2 * (24 ^ 2 / a ^ 2) := by
        rw [mul_div_assoc', le_div_iff₀ (by positivity)]
        nlinarith
      nlinarith
    have h2 := mul_le_mul_of_nonneg_left h1 hnn
    nlinarith [mul_neg_of_neg_of_pos hcond (by positivity : (0 : ℝ) < R ^ 2)]

/-- between 1 and 70 km -/
theorem slope_neg_near {c4 k h R : ℝ} (hc4 : c4 < 0) (h1 : 1 ≤ R) (h70 : R ≤ 70) (hh : 0 ≤ h)
    (hH : h ≤ 24) (hcond : c4 + k * (70 + 24 ^ 2) < 0) :
    c4 * (R / (R ^ 2 + h ^ 2)) + k + 0 / R < 0 := by
  have hR : 0 < R := by linarith
  have hpos : 0 < R ^ 2 + h ^ 2 := by positivity
  have e : c4 * (R / (R ^ 2 + h ^ 2)) + k + 0 / R =
      (c4 * R + k * (R ^ 2 + h ^ 2)) / (R ^ 2 + h ^ 2) := by
    field_simp; ring
  rw [e]
  apply div_neg_of_neg_of_pos _ hpos
  rcases le_total k 0 with hneg | hnn
  · nlinarith [mul_neg_of_neg_of_pos hc4 hR, mul_nonpos_of_nonpos_of_nonneg hneg hpos.le]
  · have : R ^ 2 + h ^ 2 ≤ R * (70 + 24 ^ 2) := by nlinarith
    nlinarith [mul_le_mul_of_nonneg_left this hnn, mul_neg_of_neg_of_pos hcond hR]

/-- value of the row formula at a positive distance -/
theorem lnResp_val (c : Row) (m R : ℝ) :
    (lnResp c (F.ofReal m) (F.ofReal R)).val =
      (c.c_1 + (c.c_2 * m + c.c_3 * (8.5 - m) ^ 2)) +
      (c.c_4 * Real.log (Real.sqrt (R ^ 2 + (c.c_7 * Real.exp (c.c_8 * m)) ^ 2)) +
        (c.c_5 + c.c_6 * m) * R) +
      (if R ≤ 70 then 0 else if 130 < R then
          c.c_9 * (Real.log R - Real.log 70) + c.c_10 * (Real.log R - Real.log 130)
        else c.c_9 * (Real.log R - Real.log 70)) := by
  simp [lnResp, f1, f2, f3]

theorem lnResp_ok {c : Row} (hc : c ∈ table) (m R : ℝ) :
    (lnResp c (F.ofReal m) (F.ofReal R)).ok := by
  have h7 : (0 : ℝ) < c.c_7 := by exact_mod_cast (row_facts c hc).1.2.1
  have hp : 0 < R ^ 2 + (c.c_7 * Real.exp (c.c_8 * m)) ^ 2 := by positivity
  simp only [lnResp, f1, f2, f3, F.ok_add, F.ok_mul, F.ok_sub, F.ok_npow, F.ok_log, F.ok_sqrt,
    F.ok_exp, F.ok_iteLe, F.ok_iteLt, F.ok_ofReal, F.ok_mk, F.val_ofReal, F.val_sqrt, F.val_add,
    F.val_npow, F.val_mul, F.val_exp, F.val_mk, F.ok_ofNat, F.ok_ofScientific, F.val_ofNat,
    F.ok_zero, true_and, and_true]
  refine ⟨⟨hp.le, Real.sqrt_pos.2 hp⟩, ?_⟩
  split
  · trivial
  · rename_i h
    have : 0 < R := by linarith [not_le.1 h]
    split <;> norm_num [this]

/-- One row: strictly decreasing in distance from 1 to 1000 km. -/
theorem lnResp_strictAnti {c : Row} (hc : c ∈ table) {m : ℝ} (hm : m ∈ Set.Icc (5 : ℝ) 8.2) :
    StrictAntiOn (fun R => (lnResp c (F.ofReal m) (F.ofReal R)).val) (Set.Icc 1 1000) := by
  obtain ⟨⟨q4, q7, q8, qH, q88⟩, qk⟩ := row_facts c hc
  have h4 : (c.c_4 : ℝ) < 0 := by exact_mod_cast q4
  have h7 : (0 : ℝ) < c.c_7 := by exact_mod_cast q7
  have h8 : (0 : ℝ) < c.c_8 := by exact_mod_cast q8
  set h : ℝ := c.c_7 * Real.exp (c.c_8 * m) with hh
  have hpos : 0 < h := by positivity
  have hH : h ≤ 24 := by
    have e1 : Real.exp (c.c_8 * m) ≤ Real.exp ((c.c_8 * 8.2 : ℚ) : ℝ) := by
      apply Real.exp_le_exp.2
      push_cast
      exact mul_le_mul_of_nonneg_left (by norm_num at hm ⊢; exact hm.2) h8.le
    have e2 := le_expHi (q := c.c_8 * 8.2) (by positivity) q88
    have e3 : ((c.c_7 * expHi (c.c_8 * 8.2) : ℚ) : ℝ) ≤ ((24 : ℚ) : ℝ) := by exact_mod_cast qH
    push_cast at e3
    push_cast at e2
    have e1' : Real.exp (c.c_8 * m) ≤ Real.exp (c.c_8 * 8.2) := by
      refine e1.trans (le_of_eq ?_); push_cast; rfl
    calc h ≤ c.c_7 * Real.exp (c.c_8 * 8.2) := mul_le_mul_of_nonneg_left e1' h7.le
      _ ≤ c.c_7 * expHi (c.c_8 * 8.2) := mul_le_mul_of_nonneg_left e2 h7.le
      _ ≤ 24 := e3
  set k : ℝ := c.c_5 + c.c_6 * m with hk
  obtain ⟨⟨qa1, qa2, qa3⟩, ⟨qb1, qb2, qb3⟩⟩ :
      (c.c_4 + (c.c_5 + c.c_6 * 5) * (70 + 24 ^ 2) < 0 ∧
        (∀ R ∈ [(70 : ℚ), 130],
          c.c_4 + ((c.c_5 + c.c_6 * 5) * R + c.c_9) * (1 + 24 ^ 2 / 70 ^ 2) < 0) ∧
        (∀ R ∈ [(130 : ℚ), 1000],
          c.c_4 + ((c.c_5 + c.c_6 * 5) * R + (c.c_9 + c.c_10)) * (1 + 24 ^ 2 / 130 ^ 2) < 0)) ∧
      (c.c_4 + (c.c_5 + c.c_6 * 8.2) * (70 + 24 ^ 2) < 0 ∧
        (∀ R ∈ [(70 : ℚ), 130],
          c.c_4 + ((c.c_5 + c.c_6 * 8.2) * R + c.c_9) * (1 + 24 ^ 2 / 70 ^ 2) < 0) ∧
        (∀ R ∈ [(130 : ℚ), 1000],
          c.c_4 + ((c.c_5 + c.c_6 * 8.2) * R + (c.c_9 + c.c_10)) * (1 + 24 ^ 2 / 130 ^ 2) < 0)) :=
    ⟨qk _ (by simp), qk _ (by simp)⟩
  -- the rational corner inequalities over ℝ
  have cast2 : ∀ (M R g a : ℚ),
      c.c_4 + ((c.c_5 + c.c_6 * M) * R + g) * (1 + 24 ^ 2 / a ^ 2) < 0 →
      (c.c_4 : ℝ) + ((c.c_5 + c.c_6 * (M : ℝ)) * R + g) * (1 + 24 ^ 2 / (a : ℝ) ^ 2) < 0 := by
    intro M R g a hq; exact_mod_cast hq
  have corner : ∀ (g a : ℚ) (lo hi : ℚ) (_ : ∀ R ∈ [lo, hi],
        c.c_4 + ((c.c_5 + c.c_6 * 5) * R + g) * (1 + 24 ^ 2 / a ^ 2) < 0)
      (_ : ∀ R ∈ [lo, hi],
        c.c_4 + ((c.c_5 + c.c_6 * 8.2) * R + g) * (1 + 24 ^ 2 / a ^ 2) < 0)
      (R : ℝ) (_ : R ∈ Set.Icc (lo : ℝ) hi),
      (c.c_4 : ℝ) + (k * R + g) * (1 + 24 ^ 2 / (a : ℝ) ^ 2) < 0 := by
    intro g a lo hi ha hb R hR
    have key : ∀ M : ℚ, (∀ R ∈ [lo, hi],
        c.c_4 + ((c.c_5 + c.c_6 * M) * R + g) * (1 + 24 ^ 2 / a ^ 2) < 0) →
        (c.c_4 : ℝ) + ((c.c_5 + c.c_6 * (M : ℝ)) * R + g) * (1 + 24 ^ 2 / (a : ℝ) ^ 2) < 0 := by
      intro M hM
      have e1 := cast2 M lo g a (hM lo (by simp))
      have e2 := cast2 M hi g a (hM hi (by simp))
      have := linear_neg (p := (c.c_4 : ℝ) + g * (1 + 24 ^ 2 / (a : ℝ) ^ 2))
        (q := (c.c_5 + c.c_6 * (M : ℝ)) * (1 + 24 ^ 2 / (a : ℝ) ^ 2)) hR (by linarith) (by linarith)
      linarith
    have e1 := key 5 ha
    have e2 := key 8.2 hb
    push_cast at e1 e2
    have := linear_neg (p := (c.c_4 : ℝ) + (c.c_5 * R + g) * (1 + 24 ^ 2 / (a : ℝ) ^ 2))
      (q := c.c_6 * R * (1 + 24 ^ 2 / (a : ℝ) ^ 2)) hm (by linarith) (by linarith)
    rw [hk]; linarith
  have cond1 : (c.c_4 : ℝ) + k * (70 + 24 ^ 2) < 0 := by
    have e1 : (c.c_4 : ℝ) + (c.c_5 + c.c_6 * 5) * (70 + 24 ^ 2) < 0 := by exact_mod_cast qa1
    have e2 : (c.c_4 : ℝ) + (c.c_5 + c.c_6 * ((8.2 : ℚ) : ℝ)) * (70 + 24 ^ 2) < 0 := by
      exact_mod_cast qb1
    push_cast at e2
    have := linear_neg (p := (c.c_4 : ℝ) + c.c_5 * (70 + 24 ^ 2))
      (q := c.c_6 * (70 + 24 ^ 2)) hm (by linarith) (by linarith)
    rw [hk]; linarith
  -- segment by segment
  set A : ℝ := c.c_1 + (c.c_2 * m + c.c_3 * (8.5 - m) ^ 2) with hA
  have s1 : StrictAntiOn (fun R => (lnResp c (F.ofReal m) (F.ofReal R)).val) (Set.Icc 1 70) := by
    have := strictAntiOn_Icc (a := 1) (b := 70)
      (fun x hx => deriv_form (c.c_4 : ℝ) k 0 h A hpos (R := x) (by linarith [hx.1]))
      (fun x hx => slope_neg_near h4 hx.1.le hx.2.le hpos.le hH cond1)
    refine this.congr ?_
    intro x hx
    simp only [lnResp_val, if_pos hx.2, ← hh, ← hk, ← hA]; ring
  have s2 : StrictAntiOn (fun R => (lnResp c (F.ofReal m) (F.ofReal R)).val) (Set.Icc 70 130) := by
    have := strictAntiOn_Icc (a := 70) (b := 130)
      (fun x hx => deriv_form (c.c_4 : ℝ) k c.c_9 h (A - c.c_9 * Real.log 70) hpos (R := x)
        (by linarith [hx.1]))
      (fun x hx => slope_neg (a := 70) h4 (by norm_num) hx.1.le hpos.le hH
        (by
          have := corner c.c_9 70 70 130 qa2 qb2 x
            (by push_cast; exact ⟨hx.1.le, hx.2.le⟩)
          push_cast at this; exact this))
    refine this.congr ?_
    intro x hx
    simp only [lnResp_val, ← hh, ← hk, ← hA, not_lt.2 hx.2, if_false]
    rcases eq_or_lt_of_le hx.1 with rfl | hlt
    · simp; ring
    · simp only [not_le.2 hlt, if_false]; ring
  have s3 : StrictAntiOn (fun R => (lnResp c (F.ofReal m) (F.ofReal R)).val)
      (Set.Icc 130 1000) := by
    have := strictAntiOn_Icc (a := 130) (b := 1000)
      (fun x hx => deriv_form (c.c_4 : ℝ) k (c.c_9 + c.c_10) h
        (A - c.c_9 * Real.log 70 - c.c_10 * Real.log 130) hpos (R := x) (by linarith [hx.1]))
      (fun x hx => slope_neg (a := 130) h4 (by norm_num) hx.1.le hpos.le hH
        (by
          have := corner (c.c_9 + c.c_10) 130 130 1000 qa3 qb3 x
            (by push_cast; exact ⟨hx.1.le, hx.2.le⟩)
          push_cast at this; exact this))
    refine this.congr ?_
    intro x hx
    have h70 : ¬ x ≤ 70 := by linarith [hx.1]
    simp only [lnResp_val, ← hh, ← hk, ← hA, h70, if_false]
    rcases eq_or_lt_of_le hx.1 with rfl | hlt
    · simp; ring
    · simp only [hlt, if_true]; ring
  exact glue s1 (glue s2 s3 (by norm_num) (by norm_num)) (by norm_num) (by norm_num)

end C03

/-- Campbell2003: for two scenarios with the same magnitude in [5, 8.2] and distances
`1 ≤ R < R' ≤ 1000` km, both models can be built and at every period the farther one has
a strictly smaller, defined log response. -/
theorem C54_attenuates (s t : Scenario) (m R R' : ℝ) (hm1 : 5 ≤ m) (hm2 : m ≤ 8.2)
    (hR : 1 ≤ R) (hRR : R < R') (hR' : R' ≤ 1000)
    (hsm : s.get "mag" = .num m) (hsr : s.get "dist_rup" = .num R)
    (htm : t.get "mag" = .num m) (htr : t.get "dist_rup" = .num R') :
    ∃ a b, Gives C03.cls s a ∧ Gives C03.cls t b ∧ a.lnResp.length = 16 ∧
      List.Forall₂ F.Drops a.lnResp b.lnResp := by
  refine ⟨_, _, C03.gives s hsm hsr, C03.gives t htm htr, by simp [C03.out, C03.table], ?_⟩
  simp only [C03.out]
  refine forall₂_map (l := C03.table) fun c hc => ?_
  exact ⟨C03.lnResp_ok hc m _, C03.lnResp_ok hc m _,
    C03.lnResp_strictAnti hc ⟨hm1, hm2⟩ ⟨hR, by linarith⟩ ⟨by linarith, hR'⟩ hRR⟩

/-- one row is continuous in distance -/
theorem C03.row_continuous (c : C03.Row) (hc : c ∈ C03.table) (m : ℝ) :
    ContinuousOn (fun R => (C03.lnResp c (F.ofReal m) (F.ofReal R)).val) (Set.Ioi 0) := by
  have h7 : (0 : ℝ) < c.c_7 := by exact_mod_cast (C03.row_facts c hc).1.2.1
  have e : ∀ R ∈ Set.Ioi (0 : ℝ), (C03.lnResp c (F.ofReal m) (F.ofReal R)).val =
      (c.c_1 + (c.c_2 * m + c.c_3 * (8.5 - m) ^ 2)) +
      (c.c_4 * Real.log (Real.sqrt (R ^ 2 + (c.c_7 * Real.exp (c.c_8 * m)) ^ 2)) +
        (c.c_5 + c.c_6 * m) * R) +
      (c.c_9 * (Real.log (max R 70) - Real.log 70) +
        c.c_10 * (Real.log (max R 130) - Real.log 130)) := by
    intro R _
    rw [C03.lnResp_val]
    congr 1
    split
    · rename_i h; simp [max_eq_right h, max_eq_right (h.trans (by norm_num : (70 : ℝ) ≤ 130))]
    · rename_i h
      split
      · rename_i h2; simp [max_eq_left (not_le.1 h).le, max_eq_left h2.le]
      · rename_i h2; simp [max_eq_left (not_le.1 h).le, max_eq_right (not_lt.1 h2)]
  refine ContinuousOn.congr ?_ e
  have hp : ∀ R : ℝ, 0 < R ^ 2 + (c.c_7 * Real.exp (c.c_8 * m)) ^ 2 := fun R => by positivity
  apply Continuous.continuousOn
  have c1 : Continuous fun R : ℝ =>
      Real.log (Real.sqrt (R ^ 2 + (c.c_7 * Real.exp (c.c_8 * m)) ^ 2)) :=
    Continuous.log (by fun_prop) fun R => (Real.sqrt_pos.2 (hp R)).ne'
  have c2 : Continuous fun R : ℝ => Real.log (max R 70) :=
    Continuous.log (by fun_prop) fun R => (lt_of_lt_of_le (by norm_num) (le_max_right R 70)).ne'
  have c3 : Continuous fun R : ℝ => Real.log (max R 130) :=
    Continuous.log (by fun_prop) fun R => (lt_of_lt_of_le (by norm_num) (le_max_right R 130)).ne'
  fun_prop

/-- At every period and every magnitude the prediction is a continuous function of `dist_rup` over the
positive distances, in particular across the hinges of the geometric attenuation at 70 and 130 km. -/
theorem C54_continuous_in_distance (S : ℝ → Scenario) (m : ℝ) (hm : ∀ R, (S R).get "mag" = .num m)
    (hr : ∀ R, (S R).get "dist_rup" = .num R) :
    ∃ O : ℝ → GmmOut, (∀ R, Gives C03.cls (S R) (O R) ∧ (O R).lnResp.length = 16) ∧
      ∀ i < 16, ContinuousOn (fun R => ((O R).lnResp.getD i F.nan).val) (Set.Ioi 0) := by
  refine ⟨_, fun R => ⟨C03.gives (S R) (hm R) (hr R), by simp [C03.out, C03.table]⟩, fun i hi => ?_⟩
  have hi' : i < C03.table.length := by simpa [C03.table] using hi
  simp only [C03.out, List.getD_eq_getElem?_getD, List.getElem?_map, List.getElem?_eq_getElem hi',
    Option.map_some, Option.getD_some]
  exact C03.row_continuous _ (List.getElem_mem _) m

namespace C03

theorem std_facts : ∀ c ∈ table, c.c_12 < 0 ∧ 0 < c.c_11 + c.c_12 * 7.16 ∧ 0 < c.c_13 ∧
    c.c_11 + c.c_12 * 7.16 - c.c_13 ≤ 0.00101 ∧ -0.00101 ≤ c.c_11 + c.c_12 * 7.16 - c.c_13 := by
  decide +kernel

theorem std_facts_real {c : Row} (hc : c ∈ table) : (c.c_12 : ℝ) < 0 ∧
    0 < (c.c_11 : ℝ) + c.c_12 * 7.16 ∧ (0 : ℝ) < c.c_13 ∧
    (c.c_11 : ℝ) + c.c_12 * 7.16 - c.c_13 ≤ 0.00101 ∧
    -0.00101 ≤ (c.c_11 : ℝ) + c.c_12 * 7.16 - c.c_13 := by
  obtain ⟨k1, k2, k3, k4, k5⟩ := std_facts c hc
  have r2 : (0 : ℝ) < ((c.c_11 + c.c_12 * 7.16 : ℚ) : ℝ) := by exact_mod_cast k2
  have r4 : ((c.c_11 + c.c_12 * 7.16 - c.c_13 : ℚ) : ℝ) ≤ ((0.00101 : ℚ) : ℝ) := by
    exact_mod_cast k4
  have r5 : ((-0.00101 : ℚ) : ℝ) ≤ ((c.c_11 + c.c_12 * 7.16 - c.c_13 : ℚ) : ℝ) := by
    exact_mod_cast k5
  push_cast at r2 r4 r5
  exact ⟨by exact_mod_cast k1, r2, by exact_mod_cast k3, r4, r5⟩

end C03

/-- Standard deviations: for every scenario with numeric magnitude and distance
(whatever their size) they exist at all 16 periods, are defined and positive. -/
theorem C54_std_positive (s : Scenario) (m R : ℝ)
    (hm : s.get "mag" = .num m) (hr : s.get "dist_rup" = .num R) :
    ∃ o sd, Gives C03.cls s o ∧ o.lnStd = some sd ∧ sd.length = 16 ∧ F.AllPos sd := by
  refine ⟨_, _, C03.gives s hm hr, rfl, by simp [C03.table], ?_⟩
  intro y hy
  obtain ⟨c, hc, rfl⟩ := List.mem_map.1 hy
  obtain ⟨r1, r2, r3, -, -⟩ := C03.std_facts_real hc
  refine ⟨by simp [C03.lnStd], ?_⟩
  simp only [C03.lnStd, fsimp]
  split
  · rename_i h; nlinarith
  · exact r3

open Filter Topology in
/-- the jump of one row -/
theorem C03.row_std_jump (c : C03.Row) (hc : c ∈ C03.table) :
    ∃ L, Tendsto (fun m => (C03.lnStd c (F.ofReal m)).val) (𝓝[<] 7.16) (𝓝 L) ∧
      |L - (C03.lnStd c (F.ofReal 7.16)).val| ≤ 0.00101 := by
  obtain ⟨r1, r2, r3, r4, r5⟩ := C03.std_facts_real hc
  refine ⟨c.c_11 + c.c_12 * 7.16, tendsto_left (g := fun m => c.c_11 + c.c_12 * m)
    (by fun_prop) ?_, ?_⟩
  · intro x hx; simp [C03.lnStd, hx]
  · simp only [C03.lnStd, fsimp, lt_irrefl]
    rw [abs_le]
    constructor <;> linarith

open Filter Topology in
/-- The standard deviation jumps by at most 0.00101 at M 7.16: its limit from the left
and its value differ by no more, at every period. -/
theorem C54_std_jump (S : ℝ → Scenario) (R : ℝ) (hm : ∀ m, (S m).get "mag" = .num m)
    (hr : ∀ m, (S m).get "dist_rup" = .num R) :
    ∃ (O : ℝ → GmmOut) (sd : ℝ → List F), (∀ m, Gives C03.cls (S m) (O m) ∧ (O m).lnStd = some (sd m)) ∧
      ∀ i < 16, ∃ L, Tendsto (fun m => ((sd m).getD i F.nan).val) (𝓝[<] 7.16) (𝓝 L) ∧
        |L - ((sd 7.16).getD i F.nan).val| ≤ 0.00101 := by
  refine ⟨_, _, fun m => ⟨C03.gives (S m) (hm m) (hr m), rfl⟩, fun i hi => ?_⟩
  have hi' : i < C03.table.length := by simpa [C03.table] using hi
  simp only [List.getD_eq_getElem?_getD, List.getElem?_map, List.getElem?_eq_getElem hi',
    Option.map_some, Option.getD_some]
  exact C03.row_std_jump _ (List.getElem_mem _)

/-- a family of scenarios for the two theorems above -/
example : (∀ R : ℝ, (⟨[("mag", .num 6.5), ("dist_rup", .num R)], []⟩ : Scenario).get "dist_rup" = .num R) ∧
    ∀ m : ℝ, (⟨[("mag", .num m), ("dist_rup", .num 20)], []⟩ : Scenario).get "mag" = .num m :=
  ⟨fun _ => by simp [Scenario.get, Dict.get?], fun _ => by simp [Scenario.get, Dict.get?]⟩

/-- the hypotheses are met: two scenarios at M 6.5, 20 km and 200 km -/
example : ∃ a b, Gives C03.cls ⟨[("mag", .num 6.5), ("dist_rup", .num 20)], []⟩ a ∧
    Gives C03.cls ⟨[("mag", .num 6.5), ("dist_rup", .num 200)], []⟩ b ∧
    List.Forall₂ F.Drops a.lnResp b.lnResp := by
  obtain ⟨a, b, h1, h2, -, h3⟩ := C54_attenuates
    ⟨[("mag", .num 6.5), ("dist_rup", .num 20)], []⟩
    ⟨[("mag", .num 6.5), ("dist_rup", .num 200)], []⟩ 6.5 20 200
    (by norm_num) (by norm_num) (by norm_num) (by norm_num) (by norm_num)
    (by simp [Scenario.get, Dict.get?]) (by simp [Scenario.get, Dict.get?])
    (by simp [Scenario.get, Dict.get?]) (by simp [Scenario.get, Dict.get?])
  exact ⟨a, b, h1, h2, h3⟩
