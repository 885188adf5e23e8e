import Verif.Props.TP05
import Verif.Props.C03
import Verif.Saturate

/-!
# C85, C86: Tavakoli & Pezeshk (2005) against distance and magnitude
-/

open Bounds

set_option linter.unusedSimpArgs false

namespace TP05

/-- the saturation distance -/
noncomputable def sat (c : Row) (m : ℝ) : ℝ :=
  -(c.c_5 : ℝ) * Real.exp (c.c_6 * m + c.c_7 * (8.5 - m) ^ (2.5 : ℝ))

/-- distance hinges at 70 and 130 km -/
noncomputable def geo (c : Row) (R : ℝ) : ℝ :=
  c.c_10 * Real.log (max R 70 / 70) + c.c_11 * Real.log (max R 130 / 130)

theorem val_eq (c : Row) (m R : ℝ) : (lnResp c (F.ofReal m) (F.ofReal R)).val =
    (c.c_1 + c.c_2 * m + c.c_3 * (8.5 - m) ^ (2.5 : ℝ)) +
    (c.c_9 * Real.log (R + 4.5) + geo c R) +
    ((c.c_4 + c.c_13 * m) * Real.log √(R ^ 2 + sat c m ^ 2) +
      (c.c_8 + c.c_12 * m) * √(R ^ 2 + sat c m ^ 2)) := by
  have e : (c.c_5 * Real.exp (c.c_6 * m + c.c_7 * (8.5 - m) ^ (2.5 : ℝ))) ^ 2 = sat c m ^ 2 := by
    unfold sat; ring
  simp only [lnResp, f1, f2, f3, distR, fsimp]
  rw [e]
  have g : (if 130 < R then (if 70 < R then c.c_9 * Real.log (R + 4.5) + c.c_10 * Real.log (R / 70)
        else c.c_9 * Real.log (R + 4.5)) + c.c_11 * Real.log (R / 130)
      else if 70 < R then c.c_9 * Real.log (R + 4.5) + c.c_10 * Real.log (R / 70)
        else c.c_9 * Real.log (R + 4.5)) = c.c_9 * Real.log (R + 4.5) + geo c R := by
    unfold geo
    split_ifs with h1 h2 h2
    · rw [max_eq_left h1.le, max_eq_left h2.le]; ring
    · exfalso; linarith
    · rw [max_eq_right (not_lt.1 h1), max_eq_left h2.le]; norm_num
    · rw [max_eq_right (not_lt.1 h1), max_eq_right (not_lt.1 h2)]; norm_num
  rw [g]

/-- rational upper bound of the saturation distance, up to M 8.5 -/
def satHi (c : Row) : ℚ := -c.c_5 * expHi (c.c_6 * 8.5)

/-- signs -/
theorem sign_facts : ∀ c ∈ table, c.c_5 < 0 ∧ 0 < c.c_6 ∧ c.c_6 * 8.5 ≤ 8 ∧ 0 ≤ c.c_12 ∧
    0 ≤ c.c_13 ∧ c.c_4 + c.c_13 * 8.5 < 0 ∧ c.c_8 + c.c_12 * 8.5 < 0 ∧
    (∀ u ∈ [(0 : ℚ), 16.4], 0 ≤ c.c_6 - c.c_7 * u) ∧ 0 < satHi c ∧
    1 ≤ -c.c_5 * (1 + (c.c_6 * 5 - 23 * max (-c.c_7) 0)) := by
  decide +kernel

/-- the same over the reals -/
theorem signs {c : Row} (hc : c ∈ table) : (c.c_5 : ℝ) < 0 ∧ (0 : ℝ) < c.c_6 ∧
    (0 : ℝ) ≤ c.c_12 ∧ (0 : ℝ) ≤ c.c_13 ∧ (c.c_4 : ℝ) + c.c_13 * 8.5 < 0 ∧
    (c.c_8 : ℝ) + c.c_12 * 8.5 < 0 ∧ (c.c_7 : ℝ) * 16.4 ≤ c.c_6 := by
  obtain ⟨q5, q6, -, q12, q13, q4, q8, q7, -⟩ := sign_facts c hc
  have q7 := q7 16.4 (by simp)
  refine ⟨by exact_mod_cast q5, by exact_mod_cast q6, by exact_mod_cast q12,
    by exact_mod_cast q13, ?_, ?_, ?_⟩
  · have : ((c.c_4 + c.c_13 * 8.5 : ℚ) : ℝ) < 0 := by exact_mod_cast q4
    push_cast at this; exact this
  · have : ((c.c_8 + c.c_12 * 8.5 : ℚ) : ℝ) < 0 := by exact_mod_cast q8
    push_cast at this; exact this
  · have : (0 : ℝ) ≤ ((c.c_6 - c.c_7 * 16.4 : ℚ) : ℝ) := by exact_mod_cast q7
    push_cast at this; linarith

theorem sat_pos {c : Row} (hc : c ∈ table) (m : ℝ) : 0 < sat c m :=
  mul_pos (by linarith [(signs hc).1]) (Real.exp_pos _)

/-- secant slope of `(8.5 - m)^2.5` -/
theorem secant {m m' : ℝ} (h5 : 5 ≤ m) (h : m ≤ m') (h8 : m' ≤ 8.5) :
    0 ≤ (8.5 - m) ^ (2.5 : ℝ) - (8.5 - m') ^ (2.5 : ℝ) ∧
      (8.5 - m) ^ (2.5 : ℝ) - (8.5 - m') ^ (2.5 : ℝ) ≤ 16.4 * (m' - m) := by
  obtain ⟨h1, h2⟩ := Saturate.five_half_secant (x := 8.5 - m) (x' := 8.5 - m') (A := 1.871)
    (by linarith) (by linarith) (by norm_num) (by norm_num; linarith)
  refine ⟨h1, h2.trans ?_⟩
  have : (8.5 - m - (8.5 - m')) = m' - m := by ring
  rw [this]
  exact mul_le_mul_of_nonneg_right (by norm_num) (by linarith)

/-- growth of the logarithm of the saturation distance -/
theorem log_sat {c : Row} (hc : c ∈ table) (m m' : ℝ) : Real.log (sat c m') - Real.log (sat c m) =
    c.c_6 * (m' - m) - c.c_7 * ((8.5 - m) ^ (2.5 : ℝ) - (8.5 - m') ^ (2.5 : ℝ)) := by
  have h5 : -(c.c_5 : ℝ) ≠ 0 := by linarith [(signs hc).1]
  unfold sat
  rw [Real.log_mul h5 (Real.exp_ne_zero _), Real.log_mul h5 (Real.exp_ne_zero _), Real.log_exp,
    Real.log_exp]
  ring

theorem sat_mono {c : Row} (hc : c ∈ table) {m m' : ℝ} (h5 : 5 ≤ m) (h : m ≤ m') (h8 : m' ≤ 8.5) :
    sat c m ≤ sat c m' := by
  rw [← Real.log_le_log_iff (sat_pos hc m) (sat_pos hc m')]
  have h1 := log_sat hc m m'
  obtain ⟨h2, h3⟩ := secant h5 h h8
  obtain ⟨-, s6, -, -, -, -, s7⟩ := signs hc
  have : c.c_7 * ((8.5 - m) ^ (2.5 : ℝ) - (8.5 - m') ^ (2.5 : ℝ)) ≤ c.c_6 * (m' - m) := by
    rcases le_total 0 (c.c_7 : ℝ) with h7 | h7
    · calc _ ≤ (c.c_7 : ℝ) * (16.4 * (m' - m)) := mul_le_mul_of_nonneg_left h3 h7
        _ = (c.c_7 * 16.4) * (m' - m) := by ring
        _ ≤ _ := mul_le_mul_of_nonneg_right s7 (by linarith)
    · have := mul_nonneg s6.le (sub_nonneg.2 h)
      have := mul_nonpos_of_nonpos_of_nonneg h7 h2
      linarith
  linarith

theorem sat_le {c : Row} (hc : c ∈ table) {m : ℝ} (h5 : 5 ≤ m) (h8 : m ≤ 8.5) :
    sat c m ≤ satHi c := by
  obtain ⟨q5, q6, q8, -⟩ := sign_facts c hc
  refine (sat_mono hc h5 h8 le_rfl).trans ?_
  have h5' : (c.c_5 : ℝ) < 0 := (signs hc).1
  have := le_expHi (q := c.c_6 * 8.5) (by positivity) q8
  unfold sat satHi
  push_cast at this ⊢
  rw [show (8.5 : ℝ) - 8.5 = 0 by norm_num, Real.zero_rpow (by norm_num), mul_zero, add_zero]
  exact mul_le_mul_of_nonneg_left this (by linarith)

/-! ### distance -/

theorem dist_facts : ∀ c ∈ table,
    c.c_9 * (1 + satHi c ^ 2) < -5.5 * (c.c_4 + c.c_13 * 8.5) ∧ c.c_9 < 1 ∧
    c.c_4 + c.c_13 * 8.5 < -1 ∧
    (c.period ≤ 0.1 → (c.c_4 + c.c_13 * 8.5) * (70 ^ 2 / (70 ^ 2 + satHi c ^ 2)) + max c.c_9 0 +
      c.c_10 < 0) ∧
    (c.c_4 + c.c_13 * 8.5) * (130 ^ 2 / (130 ^ 2 + satHi c ^ 2)) + max c.c_9 0 +
      (c.c_10 + c.c_11) < 0 ∧
    (3 ≤ c.period → 0 < c.c_4 + c.c_13 * 5 + 130 * (c.c_8 + c.c_12 * 5) + c.c_10 + min c.c_9 0) := by
  decide +kernel

/-- `log (R + 4.5)` grows, by no more than `log R` -/
theorem log_shift {R R' : ℝ} (hR : 0 < R) (h : R ≤ R') :
    0 ≤ Real.log (R' + 4.5) - Real.log (R + 4.5) ∧
      Real.log (R' + 4.5) - Real.log (R + 4.5) ≤ Real.log R' - Real.log R := by
  have hR' := hR.trans_le h
  constructor
  · have := Real.log_le_log (by linarith : 0 < R + 4.5) (by linarith : R + 4.5 ≤ R' + 4.5)
    linarith
  · have := Real.log_le_log (x := (R' + 4.5) * R) (y := (R + 4.5) * R') (by positivity) (by nlinarith)
    rw [Real.log_mul (by linarith) hR.ne', Real.log_mul (by linarith) hR'.ne'] at this
    linarith

/-- the term `d` of the distance function drops -/
theorem lin_drops {c : Row} (hc : c ∈ table) {m R R' : ℝ} (h8 : m ≤ 8.5) (hR : 0 ≤ R)
    (h : R ≤ R') : (c.c_8 + c.c_12 * m) * √(R' ^ 2 + sat c m ^ 2) ≤
      (c.c_8 + c.c_12 * m) * √(R ^ 2 + sat c m ^ 2) := by
  obtain ⟨-, -, s12, -, -, s8, -⟩ := signs hc
  apply mul_le_mul_of_nonpos_left (Real.sqrt_le_sqrt (by gcongr))
  nlinarith

theorem a_le {c : Row} (hc : c ∈ table) {m : ℝ} (h8 : m ≤ 8.5) :
    (c.c_4 : ℝ) + c.c_13 * m ≤ c.c_4 + c.c_13 * 8.5 := by
  obtain ⟨-, -, -, s13, -⟩ := signs hc
  nlinarith

/-- within 70 km -/
theorem near_drops {c : Row} (hc : c ∈ table) {m R R' : ℝ} (h5 : 5 ≤ m) (h8 : m ≤ 8.5)
    (hR : 1 ≤ R) (h : R < R') (h70 : R' ≤ 70) :
    (lnResp c (F.ofReal m) (F.ofReal R')).val < (lnResp c (F.ofReal m) (F.ofReal R)).val := by
  obtain ⟨q9, q91, q4, -⟩ := dist_facts c hc
  have k9 : ((c.c_9 * (1 + satHi c ^ 2) : ℚ) : ℝ) < ((-5.5 * (c.c_4 + c.c_13 * 8.5) : ℚ) : ℝ) := by
    exact_mod_cast q9
  have k4 : ((c.c_4 + c.c_13 * 8.5 : ℚ) : ℝ) < ((-1 : ℚ) : ℝ) := by exact_mod_cast q4
  have k91 : (c.c_9 : ℝ) < 1 := by exact_mod_cast q91
  push_cast at k9 k4
  have ha := a_le hc h8
  have hsp := sat_pos hc m
  have hsat := sat_le hc h5 h8
  have hlin := lin_drops hc h8 (by linarith) h.le
  have hgeo : geo c R' = geo c R := by
    unfold geo
    rw [max_eq_right h70, max_eq_right (h.le.trans h70), max_eq_right (by linarith : R' ≤ 130),
      max_eq_right (by linarith : R ≤ 130)]
  set a : ℝ := c.c_4 + c.c_13 * m with had
  set s := sat c m with hs
  have hanti : StrictAntiOn (fun r => a * Real.log √(r ^ 2 + s ^ 2) + c.c_9 * Real.log (r + 4.5))
      (Set.Icc 1 70) := by
    apply strictAntiOn_Icc (f' := fun r => a * (r / (r ^ 2 + s ^ 2)) + c.c_9 / (r + 4.5))
    · intro r hr
      have hr1 : 1 ≤ r := hr.1
      have h1 := C03.deriv_form a 0 0 s 0 hsp (R := r) (by linarith)
      have h2 : HasDerivAt (fun r : ℝ => c.c_9 * Real.log (r + 4.5)) (c.c_9 * (1 / (r + 4.5))) r := by
        have := ((hasDerivAt_id r).add_const 4.5).log (by simp; linarith)
        exact this.const_mul _
      have h3 := h1.add h2
      simp only [zero_mul, add_zero, zero_div] at h3
      exact h3.congr_deriv (by ring)
    · intro r hr
      have hr1 : 1 < r := hr.1
      have p1 : 0 < r ^ 2 + s ^ 2 := by positivity
      have p2 : 0 < r + 4.5 := by linarith
      have e : a * (r / (r ^ 2 + s ^ 2)) + c.c_9 / (r + 4.5) =
          (a * (r * (r + 4.5)) + c.c_9 * (r ^ 2 + s ^ 2)) / ((r ^ 2 + s ^ 2) * (r + 4.5)) := by
        field_simp
      show a * (r / (r ^ 2 + s ^ 2)) + c.c_9 / (r + 4.5) < 0
      rw [e]
      apply div_neg_of_neg_of_pos _ (by positivity)
      have ha1 : a ≤ -1 := by linarith
      have hss : s ^ 2 ≤ (satHi c : ℝ) ^ 2 := by gcongr
      rcases le_total 0 (c.c_9 : ℝ) with h9 | h9
      · have t1 : (a + c.c_9) * (r ^ 2 - 1) ≤ 0 :=
          mul_nonpos_of_nonpos_of_nonneg (by linarith) (by nlinarith)
        have t2 : 4.5 * a * (r - 1) ≤ 0 :=
          mul_nonpos_of_nonpos_of_nonneg (by linarith) (by linarith)
        have t3 := mul_le_mul_of_nonneg_left hss h9
        linarith
      · have t1 : a * (r * (r + 4.5)) < 0 := mul_neg_of_neg_of_pos (by linarith) (by positivity)
        have t2 : (c.c_9 : ℝ) * (r ^ 2 + s ^ 2) ≤ 0 := mul_nonpos_of_nonpos_of_nonneg h9 p1.le
        linarith
  have key := hanti ⟨hR, h.le.trans h70⟩ ⟨hR.trans h.le, h70⟩ h
  simp only at key
  rw [val_eq, val_eq, hgeo]
  linarith

/-- beyond a hinge at `q` km, with geometric slope `g` there -/
theorem hinge_drops {c : Row} (hc : c ∈ table) {m R R' q g : ℝ} (h5 : 5 ≤ m) (h8 : m ≤ 8.5)
    (hq : 0 < q) (hR : q ≤ R) (h : R < R')
    (hf : ((c.c_4 : ℝ) + c.c_13 * 8.5) * (q ^ 2 / (q ^ 2 + (satHi c : ℝ) ^ 2)) + max (c.c_9 : ℝ) 0 +
      g < 0)
    (hgeo : geo c R' - geo c R = g * (Real.log R' - Real.log R)) :
    (lnResp c (F.ofReal m) (F.ofReal R')).val < (lnResp c (F.ofReal m) (F.ofReal R)).val := by
  have ha := a_le hc h8
  have hsp := sat_pos hc m
  have hsat := sat_le hc h5 h8
  have hR0 : 0 < R := by linarith
  have hlin := lin_drops hc h8 hR0.le h.le
  obtain ⟨l1, l2⟩ := log_shift hR0 h.le
  have hl : 0 < Real.log R' - Real.log R := sub_pos.2 (Real.log_lt_log hR0 h)
  set ρ : ℝ := q ^ 2 / (q ^ 2 + (satHi c : ℝ) ^ 2) with hρ
  have hρ0 : 0 ≤ ρ := by positivity
  have hsh : ρ * (sat c m ^ 2 + R ^ 2) ≤ R ^ 2 := by
    rw [hρ, div_mul_eq_mul_div, div_le_iff₀ (by positivity)]
    have e1 : sat c m ^ 2 ≤ (satHi c : ℝ) ^ 2 := by gcongr
    have e2 : q ^ 2 ≤ R ^ 2 := by gcongr
    nlinarith [mul_le_mul e1 e2 (by positivity) (by positivity)]
  have hlow := Saturate.lower (k := sat c m) hR0 h.le hsh
  rw [add_comm (sat c m ^ 2), add_comm (sat c m ^ 2)] at hlow
  have hal : (c.c_4 : ℝ) + c.c_13 * m < 0 := by linarith [(signs hc).2.2.2.2.1]
  have t1 := mul_le_mul_of_nonpos_left hlow hal.le
  have t2 : (c.c_4 + c.c_13 * m) * (ρ * (Real.log R' - Real.log R)) ≤
      (c.c_4 + c.c_13 * 8.5) * (ρ * (Real.log R' - Real.log R)) :=
    mul_le_mul_of_nonneg_right ha (by positivity)
  have t3 : c.c_9 * (Real.log (R' + 4.5) - Real.log (R + 4.5)) ≤
      max (c.c_9 : ℝ) 0 * (Real.log R' - Real.log R) :=
    calc _ ≤ max (c.c_9 : ℝ) 0 * (Real.log (R' + 4.5) - Real.log (R + 4.5)) :=
          mul_le_mul_of_nonneg_right (le_max_left _ _) l1
      _ ≤ _ := mul_le_mul_of_nonneg_left l2 (le_max_right _ _)
  have t4 := mul_neg_of_neg_of_pos hf hl
  rw [val_eq, val_eq]
  linarith

theorem geo_mid (c : Row) {R R' : ℝ} (hR : 70 ≤ R) (h : R ≤ R') (h' : R' ≤ 130) :
    geo c R' - geo c R = c.c_10 * (Real.log R' - Real.log R) := by
  unfold geo
  rw [max_eq_left hR, max_eq_left (hR.trans h), max_eq_right h', max_eq_right (h.trans h'),
    Real.log_div (x := R') (by linarith) (by norm_num),
    Real.log_div (x := R) (by linarith) (by norm_num)]
  ring

theorem geo_far (c : Row) {R R' : ℝ} (hR : 130 ≤ R) (h : R ≤ R') :
    geo c R' - geo c R = (c.c_10 + c.c_11) * (Real.log R' - Real.log R) := by
  unfold geo
  rw [max_eq_left hR, max_eq_left (hR.trans h), max_eq_left (by linarith : 70 ≤ R),
    max_eq_left (by linarith : 70 ≤ R'), Real.log_div (by linarith) (by norm_num),
    Real.log_div (by linarith) (by norm_num), Real.log_div (by linarith) (by norm_num),
    Real.log_div (by linarith) (by norm_num)]
  ring

theorem far_drops {c : Row} (hc : c ∈ table) {m R R' : ℝ} (h5 : 5 ≤ m) (h8 : m ≤ 8.5)
    (hR : 130 ≤ R) (h : R < R') :
    (lnResp c (F.ofReal m) (F.ofReal R')).val < (lnResp c (F.ofReal m) (F.ofReal R)).val := by
  obtain ⟨-, -, -, -, q, -⟩ := dist_facts c hc
  refine hinge_drops hc h5 h8 (q := 130) (by norm_num) hR h ?_ (geo_far c hR h.le)
  have : (((c.c_4 + c.c_13 * 8.5) * (130 ^ 2 / (130 ^ 2 + satHi c ^ 2)) + max c.c_9 0 +
      (c.c_10 + c.c_11) : ℚ) : ℝ) < 0 := by exact_mod_cast q
  push_cast at this
  exact this

theorem mid_drops {c : Row} (hc : c ∈ table) {m R R' : ℝ} (h5 : 5 ≤ m) (h8 : m ≤ 8.5)
    (hR : 70 ≤ R) (h : R < R') (h' : R' ≤ 130) (hp : c.period ≤ 0.1) :
    (lnResp c (F.ofReal m) (F.ofReal R')).val < (lnResp c (F.ofReal m) (F.ofReal R)).val := by
  obtain ⟨-, -, -, q, -, -⟩ := dist_facts c hc
  refine hinge_drops hc h5 h8 (q := 70) (by norm_num) hR h ?_ (geo_mid c hR h.le h')
  have : (((c.c_4 + c.c_13 * 8.5) * (70 ^ 2 / (70 ^ 2 + satHi c ^ 2)) + max c.c_9 0 +
      c.c_10 : ℚ) : ℝ) < 0 := by exact_mod_cast q hp
  push_cast at this
  exact this

/-- the short periods drop everywhere -/
theorem short_drops {c : Row} (hc : c ∈ table) {m R R' : ℝ} (h5 : 5 ≤ m) (h8 : m ≤ 8.5)
    (hR : 1 ≤ R) (h : R < R') (hp : c.period ≤ 0.1) :
    (lnResp c (F.ofReal m) (F.ofReal R')).val < (lnResp c (F.ofReal m) (F.ofReal R)).val := by
  have n : ∀ {a b : ℝ}, 1 ≤ a → a ≤ b → b ≤ 70 → (lnResp c (F.ofReal m) (F.ofReal b)).val ≤
      (lnResp c (F.ofReal m) (F.ofReal a)).val := fun h1 h2 h3 => by
    rcases h2.lt_or_eq with h2 | rfl
    · exact (near_drops hc h5 h8 h1 h2 h3).le
    · exact le_rfl
  have md : ∀ {a b : ℝ}, 70 ≤ a → a ≤ b → b ≤ 130 → (lnResp c (F.ofReal m) (F.ofReal b)).val ≤
      (lnResp c (F.ofReal m) (F.ofReal a)).val := fun h1 h2 h3 => by
    rcases h2.lt_or_eq with h2 | rfl
    · exact (mid_drops hc h5 h8 h1 h2 h3 hp).le
    · exact le_rfl
  rcases le_or_gt R' 70 with c1 | c1
  · exact near_drops hc h5 h8 hR h c1
  rcases le_or_gt R 70 with c2 | c2
  · have i1 := n hR c2 le_rfl
    rcases le_or_gt R' 130 with c3 | c3
    · exact (mid_drops hc h5 h8 le_rfl c1 c3 hp).trans_le i1
    · exact (far_drops hc h5 h8 le_rfl c3).trans_le ((md le_rfl (by norm_num) le_rfl).trans i1)
  · rcases le_or_gt R' 130 with c3 | c3
    · exact mid_drops hc h5 h8 c2.le h c3 hp
    · rcases le_or_gt R 130 with c4 | c4
      · exact (far_drops hc h5 h8 le_rfl c3).trans_le (md c2.le c4 le_rfl)
      · exact far_drops hc h5 h8 c4.le h

/-- the two longest periods rise between the hinges -/
theorem mid_rises {c : Row} (hc : c ∈ table) {m R R' : ℝ} (h5 : 5 ≤ m) (h8 : m ≤ 8.5)
    (hR : 70 ≤ R) (h : R < R') (h' : R' ≤ 130) (hp : 3 ≤ c.period) :
    (lnResp c (F.ofReal m) (F.ofReal R)).val < (lnResp c (F.ofReal m) (F.ofReal R')).val := by
  obtain ⟨-, -, -, -, -, q⟩ := dist_facts c hc
  have k : (0 : ℝ) < ((c.c_4 + c.c_13 * 5 + 130 * (c.c_8 + c.c_12 * 5) + c.c_10 +
      min c.c_9 0 : ℚ) : ℝ) := by exact_mod_cast q hp
  push_cast at k
  obtain ⟨-, -, s12, s13, s4, s8, -⟩ := signs hc
  have hR0 : 0 < R := by linarith
  have hsp := sat_pos hc m
  obtain ⟨l1, l2⟩ := log_shift hR0 h.le
  have hl : 0 < Real.log R' - Real.log R := sub_pos.2 (Real.log_lt_log hR0 h)
  have hg := geo_mid c hR h.le h'
  have a0 : (c.c_4 : ℝ) + c.c_13 * m < 0 := by nlinarith
  have b0 : (c.c_8 : ℝ) + c.c_12 * m < 0 := by nlinarith
  have u1 := Saturate.upper (k := sat c m) (ρ := 1) hR0 h.le (by nlinarith [sq_nonneg (sat c m)])
  have u2 := Saturate.sqrt_sub_le (k := sat c m) hR0.le h.le
  have u3 := Saturate.sub_le_mul_log hR0 h.le
  have u4 := mul_le_mul_of_nonneg_right h' hl.le
  rw [add_comm (sat c m ^ 2), add_comm (sat c m ^ 2)] at u1 u2
  have t1 := mul_le_mul_of_nonpos_left u1 a0.le
  have t2 := mul_le_mul_of_nonpos_left (u2.trans (u3.trans u4)) b0.le
  have t3 : min (c.c_9 : ℝ) 0 * (Real.log R' - Real.log R) ≤
      c.c_9 * (Real.log (R' + 4.5) - Real.log (R + 4.5)) :=
    calc _ ≤ min (c.c_9 : ℝ) 0 * (Real.log (R' + 4.5) - Real.log (R + 4.5)) :=
          mul_le_mul_of_nonpos_left l2 (min_le_right _ _)
      _ ≤ _ := mul_le_mul_of_nonneg_right (min_le_left _ _) l1
  have t4 : 0 ≤ c.c_13 * (m - 5) * (Real.log R' - Real.log R) :=
    mul_nonneg (mul_nonneg s13 (by linarith)) hl.le
  have t5 : 0 ≤ 130 * (c.c_12 * (m - 5) * (Real.log R' - Real.log R)) :=
    mul_nonneg (by norm_num) (mul_nonneg (mul_nonneg s12 (by linarith)) hl.le)
  have t6 := mul_pos k hl
  rw [val_eq, val_eq]
  nlinarith

end TP05

/-- Every ordinate strictly drops with distance from 1 to 70 km and beyond 130 km, and the four
shortest periods (PGA among them) drop at every distance from 1 km on; magnitudes 5 to 8.5. -/
theorem C85_attenuates (s s' : Scenario) (m R R' : ℝ) (h5 : 5 ≤ m) (h8 : m ≤ 8.5) (hR : 1 ≤ R)
    (h : R < R') (hm : s.get "mag" = .num m) (hm' : s'.get "mag" = .num m)
    (hr : s.get "dist_rup" = .num R) (hr' : s'.get "dist_rup" = .num R') :
    ∃ o o', Gives TP05.cls s o ∧ Gives TP05.cls s' o' ∧ o.lnResp.length = 14 ∧
      (R' ≤ 70 ∨ 130 ≤ R → List.Forall₂ F.Drops o.lnResp o'.lnResp) ∧
      List.Forall₂ F.Drops (o.lnResp.take 4) (o'.lnResp.take 4) := by
  refine ⟨_, _, TP05.gives s hm hr, TP05.gives s' hm' hr', by simp [TP05.out, TP05.table], ?_, ?_⟩
  · intro hcase
    simp only [TP05.out]
    refine forall₂_map (l := TP05.table) fun c hc =>
      ⟨(TP05.lnResp_ok_iff hc ..).2 ⟨h8, by linarith⟩, (TP05.lnResp_ok_iff hc ..).2 ⟨h8, by linarith⟩, ?_⟩
    rcases hcase with h1 | h1
    · exact TP05.near_drops hc h5 h8 hR h h1
    · exact TP05.far_drops hc h5 h8 h1 h
  · simp only [TP05.out, ← List.map_take]
    refine forall₂_map (l := TP05.table.take 4) fun c hc' => ?_
    have hc := List.mem_of_mem_take hc'
    have hf : ∀ c ∈ TP05.table.take 4, c.period ≤ (0.1 : ℚ) := by decide +kernel
    exact ⟨(TP05.lnResp_ok_iff hc ..).2 ⟨h8, by linarith⟩,
      (TP05.lnResp_ok_iff hc ..).2 ⟨h8, by linarith⟩, TP05.short_drops hc h5 h8 hR h (hf c hc')⟩

/-- Between the hinges at 70 and 130 km the ordinates at T = 3 s and 4 s strictly rise with
distance, for every magnitude. -/
theorem C85_rises_between_hinges (s s' : Scenario) (m R R' : ℝ) (h5 : 5 ≤ m) (h8 : m ≤ 8.5)
    (hR : 70 ≤ R) (h : R < R') (hR' : R' ≤ 130) (hm : s.get "mag" = .num m)
    (hm' : s'.get "mag" = .num m) (hr : s.get "dist_rup" = .num R)
    (hr' : s'.get "dist_rup" = .num R') :
    ∃ o o', Gives TP05.cls s o ∧ Gives TP05.cls s' o' ∧ (o.lnResp.drop 12).length = 2 ∧
      List.Forall₂ F.Drops (o'.lnResp.drop 12) (o.lnResp.drop 12) := by
  refine ⟨_, _, TP05.gives s hm hr, TP05.gives s' hm' hr', by simp [TP05.out, TP05.table], ?_⟩
  simp only [TP05.out, ← List.map_drop]
  refine forall₂_map (l := TP05.table.drop 12) fun c hc' => ?_
  have hc := List.mem_of_mem_drop hc'
  have hf : ∀ c ∈ TP05.table.drop 12, (3 : ℚ) ≤ c.period := by decide +kernel
  exact ⟨(TP05.lnResp_ok_iff hc ..).2 ⟨h8, by linarith⟩,
    (TP05.lnResp_ok_iff hc ..).2 ⟨h8, by linarith⟩, TP05.mid_rises hc h5 h8 hR h hR' (hf c hc')⟩

example : ∃ o o', Gives TP05.cls ⟨[("mag", .num 7), ("dist_rup", .num 80)], []⟩ o ∧
    Gives TP05.cls ⟨[("mag", .num 7), ("dist_rup", .num 120)], []⟩ o' ∧
      (o.lnResp.drop 12).length = 2 ∧
      List.Forall₂ F.Drops (o'.lnResp.drop 12) (o.lnResp.drop 12) :=
  C85_rises_between_hinges _ _ 7 80 120 (by norm_num) (by norm_num) (by norm_num) (by norm_num)
    (by norm_num) rfl rfl rfl rfl

namespace TP05

/-! ### magnitude -/

/-- rational upper bound of the saturation distance, up to M 7 -/
def satHi7 (c : Row) : ℚ := -c.c_5 * expHi (c.c_6 * 7 + max c.c_7 0 * 2.76)

/-- lower bounds of the secant slope in magnitude: beyond 25 km up to M 8.5, and at any distance
up to M 7; `u` is the secant slope of `(8.5 - m)^2.5` -/
theorem mag_facts : ∀ c ∈ table, 0 ≤ c.c_6 * 7 + max c.c_7 0 * 2.76 ∧
    c.c_6 * 7 + max c.c_7 0 * 2.76 ≤ 8 ∧ 0 < satHi7 c ∧
    (∀ u ∈ [(0 : ℚ), 16.4], 0 < c.c_2 - c.c_3 * u +
      ((c.c_4 + c.c_13 * 5) * (satHi c ^ 2 / (25 ^ 2 + satHi c ^ 2)) + (c.c_8 + c.c_12 * 5) * satHi c) *
        (c.c_6 - c.c_7 * u)) ∧
    (∀ u ∈ [(4.59 : ℚ), 16.4], 0 < c.c_2 - c.c_3 * u +
      ((c.c_4 + c.c_13 * 5) * 1 + (c.c_8 + c.c_12 * 5) * satHi7 c) * (c.c_6 - c.c_7 * u)) := by
  decide +kernel

theorem sat_ge_one {c : Row} (hc : c ∈ table) {m : ℝ} (h5 : 5 ≤ m) (h8 : m ≤ 8.5) :
    1 ≤ sat c m := by
  refine le_trans ?_ (sat_mono hc le_rfl h5 h8)
  obtain ⟨-, -, -, -, -, -, -, -, -, q⟩ := sign_facts c hc
  have k : ((1 : ℚ) : ℝ) ≤ ((-c.c_5 * (1 + (c.c_6 * 5 - 23 * max (-c.c_7) 0)) : ℚ) : ℝ) := by
    exact_mod_cast q
  push_cast at k
  have h5' : (0 : ℝ) < -c.c_5 := by linarith [(signs hc).1]
  have hx : (8.5 - 5 : ℝ) ^ (2.5 : ℝ) ≤ 23 := by
    rw [Saturate.rpow_five_half (by norm_num)]
    have : √(8.5 - 5 : ℝ) ≤ 1.871 := by rw [Real.sqrt_le_left (by norm_num)]; norm_num
    calc _ ≤ (1.871 : ℝ) ^ 5 := by gcongr
      _ ≤ _ := by norm_num
  have hx0 : 0 ≤ (8.5 - 5 : ℝ) ^ (2.5 : ℝ) := Real.rpow_nonneg (by norm_num) _
  have e : -(23 * max (-(c.c_7 : ℝ)) 0) ≤ c.c_7 * (8.5 - 5) ^ (2.5 : ℝ) := by
    rcases le_total 0 (c.c_7 : ℝ) with h | h
    · rw [max_eq_right (by linarith)]; nlinarith
    · rw [max_eq_left (by linarith)]; nlinarith
  unfold sat
  refine k.trans (mul_le_mul_of_nonneg_left ?_ h5'.le)
  have := Real.add_one_le_exp (c.c_6 * 5 + c.c_7 * (8.5 - 5 : ℝ) ^ (2.5 : ℝ))
  linarith

theorem sat_le7 {c : Row} (hc : c ∈ table) {m : ℝ} (h5 : 5 ≤ m) (h7 : m ≤ 7) :
    sat c m ≤ satHi7 c := by
  obtain ⟨q0, q8, -⟩ := mag_facts c hc
  refine (sat_mono hc h5 h7 (by norm_num)).trans ?_
  have h5' : (0 : ℝ) < -c.c_5 := by linarith [(signs hc).1]
  have hk := le_expHi q0 q8
  have hx : (8.5 - 7 : ℝ) ^ (2.5 : ℝ) ≤ 2.76 := by
    rw [Saturate.rpow_five_half (by norm_num)]
    have : √(8.5 - 7 : ℝ) ≤ 1.2248 := by rw [Real.sqrt_le_left (by norm_num)]; norm_num
    calc _ ≤ (1.2248 : ℝ) ^ 5 := by gcongr
      _ ≤ _ := by norm_num
  have hx0 : 0 ≤ (8.5 - 7 : ℝ) ^ (2.5 : ℝ) := Real.rpow_nonneg (by norm_num) _
  unfold sat satHi7
  push_cast at hk ⊢
  refine mul_le_mul_of_nonneg_left (le_trans (Real.exp_le_exp.2 ?_) hk) h5'.le
  have : (c.c_7 : ℝ) * (8.5 - 7) ^ (2.5 : ℝ) ≤ max (c.c_7 : ℝ) 0 * 2.76 :=
    calc _ ≤ max (c.c_7 : ℝ) 0 * (8.5 - 7) ^ (2.5 : ℝ) :=
          mul_le_mul_of_nonneg_right (le_max_left _ _) hx0
      _ ≤ _ := mul_le_mul_of_nonneg_left hx (le_max_right _ _)
  linarith

/-- growth from bounds on the share `ρ` and size `H` of the saturation distance -/
theorem grows_of {c : Row} (hc : c ∈ table) {m m' R ρ H u₀ : ℝ} (h5 : 5 ≤ m) (hmm : m < m')
    (h8 : m' ≤ 8.5) (hρ0 : 0 ≤ ρ) (hρ : sat c m' ^ 2 ≤ ρ * (R ^ 2 + sat c m' ^ 2))
    (hH : sat c m' ≤ H)
    (hu : u₀ * (m' - m) ≤ (8.5 - m) ^ (2.5 : ℝ) - (8.5 - m') ^ (2.5 : ℝ))
    (f0 : 0 < c.c_2 - c.c_3 * u₀ +
      ((c.c_4 + c.c_13 * 5) * ρ + (c.c_8 + c.c_12 * 5) * H) * (c.c_6 - c.c_7 * u₀))
    (f1 : 0 < c.c_2 - c.c_3 * 16.4 +
      ((c.c_4 + c.c_13 * 5) * ρ + (c.c_8 + c.c_12 * 5) * H) * (c.c_6 - c.c_7 * 16.4)) :
    (lnResp c (F.ofReal m) (F.ofReal R)).val < (lnResp c (F.ofReal m') (F.ofReal R)).val := by
  obtain ⟨-, s6, s12, s13, s4, s8, s7⟩ := signs hc
  obtain ⟨p0, p1⟩ := secant h5 hmm.le h8
  have hδ : 0 < m' - m := by linarith
  have hsp := sat_pos hc m
  have hsp' := sat_pos hc m'
  have hmono := sat_mono hc h5 hmm.le h8
  have he := log_sat hc m m'
  have he0 : 0 ≤ Real.log (sat c m') - Real.log (sat c m) :=
    sub_nonneg.2 (Real.log_le_log hsp hmono)
  have u1 := Saturate.upper (k := R) hsp hmono hρ
  have u2 := Saturate.sqrt_sub_le (k := R) hsp.le hmono
  have u3 := Saturate.sub_le_mul_log hsp hmono
  have u4 := mul_le_mul_of_nonneg_right hH he0
  set P := (8.5 - m) ^ (2.5 : ℝ) - (8.5 - m') ^ (2.5 : ℝ) with hP
  set e := Real.log (sat c m') - Real.log (sat c m) with hee
  have a0 : (c.c_4 : ℝ) + c.c_13 * m < 0 := by
    have := mul_le_mul_of_nonneg_left (by linarith : m ≤ 8.5) s13; linarith
  have b0 : (c.c_8 : ℝ) + c.c_12 * m < 0 := by
    have := mul_le_mul_of_nonneg_left (by linarith : m ≤ 8.5) s12; linarith
  have t1 := mul_le_mul_of_nonpos_left u1 a0.le
  have t2 := mul_le_mul_of_nonpos_left (u2.trans (u3.trans u4)) b0.le
  have hd1 : 1 ≤ √(R ^ 2 + sat c m' ^ 2) := by
    apply Real.le_sqrt_of_sq_le
    have := sat_ge_one hc (h5.trans hmm.le) h8
    nlinarith [sq_nonneg R]
  have t3 : 0 ≤ c.c_13 * (m' - m) * Real.log √(R ^ 2 + sat c m' ^ 2) :=
    mul_nonneg (mul_nonneg s13 hδ.le) (Real.log_nonneg hd1)
  have t4 : 0 ≤ c.c_12 * (m' - m) * √(R ^ 2 + sat c m' ^ 2) :=
    mul_nonneg (mul_nonneg s12 hδ.le) (Real.sqrt_nonneg _)
  have hH0 : 0 ≤ H := hsp'.le.trans hH
  set K : ℝ := (c.c_4 + c.c_13 * 5) * ρ + (c.c_8 + c.c_12 * 5) * H with hK
  have t5 : K * e ≤ ((c.c_4 + c.c_13 * m) * ρ + (c.c_8 + c.c_12 * m) * H) * e := by
    apply mul_le_mul_of_nonneg_right _ he0
    have i1 : (c.c_4 + c.c_13 * 5) * ρ ≤ (c.c_4 + c.c_13 * m) * ρ :=
      mul_le_mul_of_nonneg_right (by
        have := mul_le_mul_of_nonneg_left h5 s13; linarith) hρ0
    have i2 : (c.c_8 + c.c_12 * 5) * H ≤ (c.c_8 + c.c_12 * m) * H :=
      mul_le_mul_of_nonneg_right (by
        have := mul_le_mul_of_nonneg_left h5 s12; linarith) hH0
    linarith
  -- `P` lies between `u₀ δ` and `16.4 δ`, and the bound is linear in it
  have t6 : 0 < c.c_2 * (m' - m) + K * c.c_6 * (m' - m) + (-c.c_3 - K * c.c_7) * P := by
    apply linear_pos (a := u₀ * (m' - m)) (b := 16.4 * (m' - m)) ⟨hu, p1⟩
    · have := mul_pos f0 hδ
      linarith [show (c.c_2 - c.c_3 * u₀ + K * (c.c_6 - c.c_7 * u₀)) * (m' - m) =
        c.c_2 * (m' - m) + K * c.c_6 * (m' - m) + (-c.c_3 - K * c.c_7) * (u₀ * (m' - m)) by ring]
    · have := mul_pos f1 hδ
      linarith [show (c.c_2 - c.c_3 * 16.4 + K * (c.c_6 - c.c_7 * 16.4)) * (m' - m) =
        c.c_2 * (m' - m) + K * c.c_6 * (m' - m) + (-c.c_3 - K * c.c_7) * (16.4 * (m' - m)) by ring]
  rw [val_eq, val_eq]
  have e1 : K * e = K * c.c_6 * (m' - m) - K * c.c_7 * P := by rw [he]; ring
  have e2 : c.c_3 * (8.5 - m') ^ (2.5 : ℝ) = c.c_3 * (8.5 - m) ^ (2.5 : ℝ) - c.c_3 * P := by
    rw [hP]; ring
  rw [e2]
  clear_value K P e
  linarith

theorem grows {c : Row} (hc : c ∈ table) {m m' R : ℝ} (h5 : 5 ≤ m) (hmm : m < m')
    (h : m' ≤ 7 ∨ 25 ≤ R ∧ m' ≤ 8.5) :
    (lnResp c (F.ofReal m) (F.ofReal R)).val < (lnResp c (F.ofReal m') (F.ofReal R)).val := by
  obtain ⟨-, -, q7, qa, qb⟩ := mag_facts c hc
  rcases h with h | ⟨hR, h8⟩
  · have f0 := qb 4.59 (by simp)
    have f1 := qb 16.4 (by simp)
    have g0 : (0 : ℝ) < ((c.c_2 - c.c_3 * 4.59 +
      ((c.c_4 + c.c_13 * 5) * 1 + (c.c_8 + c.c_12 * 5) * satHi7 c) * (c.c_6 - c.c_7 * 4.59) : ℚ) : ℝ) := by
      exact_mod_cast f0
    have g1 : (0 : ℝ) < ((c.c_2 - c.c_3 * 16.4 +
      ((c.c_4 + c.c_13 * 5) * 1 + (c.c_8 + c.c_12 * 5) * satHi7 c) * (c.c_6 - c.c_7 * 16.4) : ℚ) : ℝ) := by
      exact_mod_cast f1
    push_cast at g0 g1
    refine grows_of hc (ρ := 1) (u₀ := 4.59) h5 hmm (by linarith) zero_le_one
      (by nlinarith [sq_nonneg R]) (sat_le7 hc (h5.trans hmm.le) h) ?_ g0 g1
    have := Saturate.five_half_secant_ge (x := 8.5 - m) (x' := 8.5 - m') (B := 1.2247)
      (by linarith) (by norm_num) (by norm_num; linarith)
    refine le_trans ?_ this
    rw [show (8.5 - m - (8.5 - m')) = m' - m by ring]
    exact mul_le_mul_of_nonneg_right (by norm_num) (by linarith)
  · have f0 := qa 0 (by simp)
    have f1 := qa 16.4 (by simp)
    have g0 : (0 : ℝ) < ((c.c_2 - c.c_3 * 0 +
      ((c.c_4 + c.c_13 * 5) * (satHi c ^ 2 / (25 ^ 2 + satHi c ^ 2)) + (c.c_8 + c.c_12 * 5) * satHi c) *
        (c.c_6 - c.c_7 * 0) : ℚ) : ℝ) := by exact_mod_cast f0
    have g1 : (0 : ℝ) < ((c.c_2 - c.c_3 * 16.4 +
      ((c.c_4 + c.c_13 * 5) * (satHi c ^ 2 / (25 ^ 2 + satHi c ^ 2)) + (c.c_8 + c.c_12 * 5) * satHi c) *
        (c.c_6 - c.c_7 * 16.4) : ℚ) : ℝ) := by exact_mod_cast f1
    push_cast at g0 g1
    have hs := sat_le hc (h5.trans hmm.le) h8
    have hsp := sat_pos hc m'
    refine grows_of hc (ρ := (satHi c : ℝ) ^ 2 / (25 ^ 2 + (satHi c : ℝ) ^ 2)) (u₀ := 0) h5 hmm h8
      (by positivity) ?_ hs ?_ g0 g1
    · rw [div_mul_eq_mul_div, le_div_iff₀ (by positivity)]
      have e1 : sat c m' ^ 2 ≤ (satHi c : ℝ) ^ 2 := by gcongr
      have e2 : (25 : ℝ) ^ 2 ≤ R ^ 2 := by gcongr
      nlinarith [mul_le_mul e1 e2 (by positivity) (by positivity)]
    · rw [zero_mul]; exact (secant h5 hmm.le h8).1

end TP05

/-- Every ordinate strictly grows with magnitude from M 5: up to M 7 at every distance, and
beyond 25 km up to M 8.5 (past which nothing is defined, see C55). -/
theorem C86_grows_with_magnitude (s s' : Scenario) (m m' R : ℝ) (h5 : 5 ≤ m) (hmm : m < m')
    (hR : 0 ≤ R) (h : m' ≤ 7 ∨ 25 ≤ R ∧ m' ≤ 8.5) (hm : s.get "mag" = .num m)
    (hm' : s'.get "mag" = .num m') (hr : s.get "dist_rup" = .num R)
    (hr' : s'.get "dist_rup" = .num R) :
    ∃ o o', Gives TP05.cls s o ∧ Gives TP05.cls s' o' ∧ o.lnResp.length = 14 ∧
      List.Forall₂ F.Drops o'.lnResp o.lnResp := by
  refine ⟨_, _, TP05.gives s hm hr, TP05.gives s' hm' hr', by simp [TP05.out, TP05.table], ?_⟩
  have h8 : m' ≤ 8.5 := by rcases h with h | h <;> linarith
  simp only [TP05.out]
  exact forall₂_map (l := TP05.table) fun c hc =>
    ⟨(TP05.lnResp_ok_iff hc ..).2 ⟨h8, by linarith⟩,
      (TP05.lnResp_ok_iff hc ..).2 ⟨by linarith, by linarith⟩, TP05.grows hc h5 hmm h⟩

/-- Above a large event it is false: at zero distance PGA (ordinate 0) strictly decreases with
magnitude from M 7.5 on. -/
theorem C86_oversaturates (s s' : Scenario) (m m' : ℝ) (h : 7.5 ≤ m) (hmm : m < m')
    (h8 : m' ≤ 8.5) (hm : s.get "mag" = .num m) (hm' : s'.get "mag" = .num m')
    (hr : s.get "dist_rup" = .num 0) (hr' : s'.get "dist_rup" = .num 0) :
    ∃ o o', Gives TP05.cls s o ∧ Gives TP05.cls s' o' ∧
      F.Drops (o.lnResp.getD 0 F.nan) (o'.lnResp.getD 0 F.nan) := by
  refine ⟨_, _, TP05.gives s hm hr, TP05.gives s' hm' hr', ?_⟩
  obtain ⟨c, hc⟩ : ∃ c, TP05.table[0]? = some c := ⟨_, rfl⟩
  have hf : ∀ c : TP05.Row, c ∈ TP05.table[0]? → c.c_3 ≤ (0 : ℚ) ∧ c.c_7 ≤ (0 : ℚ) ∧
      c.c_2 - c.c_3 * 2.5 + (c.c_4 + c.c_13 * 8.5) * c.c_6 + c.c_13 * TP05.satHi c +
        c.c_12 * TP05.satHi c < (0 : ℚ) := by decide +kernel
  obtain ⟨q3, q7, qs⟩ := hf c hc
  have hmem : c ∈ TP05.table := List.mem_of_getElem? hc
  simp only [TP05.out, List.getD_eq_getElem?_getD, List.getElem?_map, hc, Option.map_some,
    Option.getD_some]
  refine ⟨(TP05.lnResp_ok_iff hmem ..).2 ⟨by linarith, by norm_num⟩,
    (TP05.lnResp_ok_iff hmem ..).2 ⟨by linarith, by norm_num⟩, ?_⟩
  have h3 : (c.c_3 : ℝ) ≤ 0 := by exact_mod_cast q3
  have h7 : (c.c_7 : ℝ) ≤ 0 := by exact_mod_cast q7
  have hs : ((c.c_2 - c.c_3 * 2.5 + (c.c_4 + c.c_13 * 8.5) * c.c_6 + c.c_13 * TP05.satHi c +
        c.c_12 * TP05.satHi c : ℚ) : ℝ) < 0 := by exact_mod_cast qs
  push_cast at hs
  obtain ⟨-, s6, s12, s13, s4, s8, s7⟩ := TP05.signs hmem
  have hδ : 0 < m' - m := by linarith
  have hsp := TP05.sat_pos hmem m
  have hsp' := TP05.sat_pos hmem m'
  have hmono := TP05.sat_mono hmem (by linarith) hmm.le h8
  have hle := TP05.sat_le hmem (by linarith : 5 ≤ m) (by linarith)
  have he := TP05.log_sat hmem m m'
  obtain ⟨p0, p1⟩ := Saturate.five_half_secant (x := 8.5 - m) (x' := 8.5 - m') (A := 1)
    (by linarith) (by linarith) (by norm_num) (by norm_num; linarith)
  rw [show (8.5 - m - (8.5 - m')) = m' - m by ring] at p1
  rw [TP05.val_eq, TP05.val_eq]
  have e : ∀ x : ℝ, √((0 : ℝ) ^ 2 + TP05.sat c x ^ 2) = TP05.sat c x := by
    intro x
    rw [show (0 : ℝ) ^ 2 + TP05.sat c x ^ 2 = TP05.sat c x ^ 2 by ring,
      Real.sqrt_sq (TP05.sat_pos hmem x).le]
  rw [e, e]
  have hlog : Real.log (TP05.sat c m) ≤ TP05.satHi c := by
    have := Real.log_le_sub_one_of_pos hsp
    linarith
  set P := (8.5 - m) ^ (2.5 : ℝ) - (8.5 - m') ^ (2.5 : ℝ) with hP
  have e2 : (c.c_3 : ℝ) * (8.5 - m') ^ (2.5 : ℝ) = c.c_3 * (8.5 - m) ^ (2.5 : ℝ) - c.c_3 * P := by
    rw [hP]; ring
  rw [e2]
  have i1 : (c.c_6 : ℝ) * (m' - m) ≤ Real.log (TP05.sat c m') - Real.log (TP05.sat c m) := by
    rw [he]
    have := mul_nonpos_of_nonpos_of_nonneg h7 p0
    linarith
  have a0 : (c.c_4 : ℝ) + c.c_13 * m' ≤ c.c_4 + c.c_13 * 8.5 := by nlinarith
  have b0 : (c.c_8 : ℝ) + c.c_12 * m' ≤ 0 := by nlinarith
  have t1 := mul_le_mul_of_nonpos_left i1 (a0.trans s4.le)
  have t1' := mul_le_mul_of_nonneg_right a0 (mul_nonneg s6.le hδ.le)
  have t2 := mul_nonpos_of_nonpos_of_nonneg b0 (sub_nonneg.2 hmono)
  have t3 := mul_le_mul_of_nonneg_left hlog (mul_nonneg s13 hδ.le)
  have t4 := mul_le_mul_of_nonneg_left hle (mul_nonneg s12 hδ.le)
  have t5 := mul_le_mul_of_nonneg_left p1 (neg_nonneg.2 h3)
  have t6 := mul_neg_of_neg_of_pos hs hδ
  nlinarith

example : ∃ o o', Gives TP05.cls ⟨[("mag", .num 7), ("dist_rup", .num 30)], []⟩ o ∧
    Gives TP05.cls ⟨[("mag", .num 8), ("dist_rup", .num 30)], []⟩ o' ∧ o.lnResp.length = 14 ∧
      List.Forall₂ F.Drops o'.lnResp o.lnResp :=
  C86_grows_with_magnitude _ _ 7 8 30 (by norm_num) (by norm_num) (by norm_num)
    (.inr (by norm_num)) rfl rfl rfl rfl

example : ∃ o o', Gives TP05.cls ⟨[("mag", .num 7.5), ("dist_rup", .num 0)], []⟩ o ∧
    Gives TP05.cls ⟨[("mag", .num 8), ("dist_rup", .num 0)], []⟩ o' ∧
      F.Drops (o.lnResp.getD 0 F.nan) (o'.lnResp.getD 0 F.nan) :=
  C86_oversaturates _ _ 7.5 8 (by norm_num) (by norm_num) (by norm_num) rfl rfl rfl rfl
