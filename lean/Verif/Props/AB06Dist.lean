import Verif.Props.AB06

/-!
# C79: Atkinson & Boore (2006) attenuates, except on soft soil
-/

open Bounds

set_option linter.unusedSimpArgs false

namespace AB06

/-- the part of the log distance below 10 km -/
noncomputable def near (R : ℝ) : ℝ := min (Real.logb 10 R) 1
/-- the part between 10 and 70 km -/
noncomputable def mid (R : ℝ) : ℝ := max (min (Real.logb 10 R) (Real.logb 10 70) - 1) 0
/-- the part beyond 140 km -/
noncomputable def far (R : ℝ) : ℝ := max (Real.logb 10 (R / 140)) 0

theorem logb_mono {a b : ℝ} (ha : 0 < a) (h : a ≤ b) : Real.logb 10 a ≤ Real.logb 10 b :=
  Real.logb_le_logb_of_le (by norm_num) ha h

theorem one_le_logb70 : 1 ≤ Real.logb 10 70 := by
  rw [Real.le_logb_iff_rpow_le (by norm_num) (by norm_num)]; norm_num

theorem specRef_eq (c : Row) (m : ℝ) {R : ℝ} (hR : 0 < R) : specRef c m R =
    c.c_1 + c.c_2 * m + c.c_3 * m ^ 2 + (c.c_4 + c.c_5 * m) + (
      ((c.c_4 + c.c_5 * m) - (c.c_8 + c.c_9 * m)) * (near R - 1) + (c.c_4 + c.c_5 * m) * mid R +
      (c.c_6 + c.c_7 * m) * far R + c.c_10 * R) := by
  have h1 : Real.logb 10 (10 / R) = 1 - Real.logb 10 R := by
    rw [Real.logb_div (by norm_num) hR.ne', Real.logb_self_eq_one (by norm_num)]
  have h70 := one_le_logb70
  unfold specRef near mid far
  rw [h1]
  rcases le_total (Real.logb 10 R) 1 with h | h
  · rw [min_eq_left (h.trans h70), min_eq_left h, max_eq_left (a := 1 - Real.logb 10 R) (by linarith),
      max_eq_right (a := Real.logb 10 R - 1) (by linarith)]
    ring
  · rw [min_eq_right h, max_eq_right (a := 1 - Real.logb 10 R) (by linarith),
      max_eq_left (a := min (Real.logb 10 R) (Real.logb 10 70) - 1) (by
        have : 1 ≤ min (Real.logb 10 R) (Real.logb 10 70) := le_min h h70
        linarith)]
    ring

theorem near_mono {R R' : ℝ} (hR : 0 < R) (h : R ≤ R') : near R ≤ near R' :=
  min_le_min_right _ (logb_mono hR h)
theorem mid_mono {R R' : ℝ} (hR : 0 < R) (h : R ≤ R') : mid R ≤ mid R' :=
  max_le_max_right _ (sub_le_sub_right (min_le_min_right _ (logb_mono hR h)) _)
theorem far_mono {R R' : ℝ} (hR : 0 < R) (h : R ≤ R') : far R ≤ far R' :=
  max_le_max_right _ (logb_mono (by positivity) (by gcongr))

/-- the largest size of the nonlinear slope from 250 m/s on -/
def bMax : ℚ := 0.195

/-- the four distance slopes of a row minus `k` times those of PGA on B/C are negative at a
magnitude -/
def slopesNeg (P c : Row) (k m : ℚ) : Prop :=
  ((c.c_4 + c.c_5 * m) - (c.c_8 + c.c_9 * m)) - k * ((P.c_4 + P.c_5 * m) - (P.c_8 + P.c_9 * m)) < 0 ∧
  (c.c_4 + c.c_5 * m) - k * (P.c_4 + P.c_5 * m) < 0 ∧
  (c.c_6 + c.c_7 * m) - k * (P.c_6 + P.c_7 * m) < 0 ∧
  c.c_10 - k * P.c_10 < 0
instance (P c : Row) (k m : ℚ) : Decidable (slopesNeg P c k m) := by unfold slopesNeg; infer_instance

/-- the PGA row -/
def pgaRow : Row := bc[2]'(by decide)

theorem rock_slopes : ∀ c ∈ rock, slopesNeg pgaRow c 0 4 ∧ slopesNeg pgaRow c 0 8.5 := by decide +kernel
theorem bc_slopes : ∀ c ∈ bc, slopesNeg pgaRow c 0 4 ∧ slopesNeg pgaRow c 0 8.5 ∧
    slopesNeg pgaRow c bMax 4 ∧ slopesNeg pgaRow c bMax 8.5 := by decide +kernel
theorem site_bounds : ∀ c ∈ site, c.b_1 ≤ c.b_2 ∧ c.b_2 ≤ 0 ∧ -bMax ≤ c.b_2 ∧
    -bMax ≤ (c.b_1 - c.b_2) * 0.36 := by decide +kernel

/-- change of a row's log with distance, net of `k` times the change of log PGA -/
theorem specRef_drop {c : Row} {k : ℚ} {m R R' : ℝ} (hm : m ∈ Set.Icc (4 : ℝ) 8.5)
    (h4 : slopesNeg pgaRow c k 4) (h8 : slopesNeg pgaRow c k 8.5) (hR : 0 < R) (h : R < R') :
    (specRef c m R' - specRef c m R) - k * (specRef pgaRow m R' - specRef pgaRow m R) < 0 := by
  have e : (specRef c m R' - specRef c m R) - k * (specRef pgaRow m R' - specRef pgaRow m R) =
      (((c.c_4 + c.c_5 * m) - (c.c_8 + c.c_9 * m)) -
        k * ((pgaRow.c_4 + pgaRow.c_5 * m) - (pgaRow.c_8 + pgaRow.c_9 * m))) * (near R' - near R) +
      ((c.c_4 + c.c_5 * m) - k * (pgaRow.c_4 + pgaRow.c_5 * m)) * (mid R' - mid R) +
      ((c.c_6 + c.c_7 * m) - k * (pgaRow.c_6 + pgaRow.c_7 * m)) * (far R' - far R) +
      (c.c_10 - k * pgaRow.c_10) * (R' - R) := by
    rw [specRef_eq c m hR, specRef_eq c m (hR.trans h), specRef_eq pgaRow m hR,
      specRef_eq pgaRow m (hR.trans h)]
    ring
  have n1 := sub_nonneg.2 (near_mono hR h.le)
  have n2 := sub_nonneg.2 (mid_mono hR h.le)
  have n3 := sub_nonneg.2 (far_mono hR h.le)
  have n4 := sub_pos.2 h
  have lin : ∀ p q : ℚ, p + q * 4 < 0 → p + q * 8.5 < 0 → (p : ℝ) + q * m < 0 := by
    intro p q ha hb
    apply linear_neg hm
    · exact_mod_cast ha
    · have : ((p + q * 8.5 : ℚ) : ℝ) < 0 := by exact_mod_cast hb
      push_cast at this; exact this
  obtain ⟨a1, a2, a3, a4⟩ := h4
  obtain ⟨b1, b2, b3, -⟩ := h8
  have s1 := lin ((c.c_4 - c.c_8) - k * (pgaRow.c_4 - pgaRow.c_8))
    ((c.c_5 - c.c_9) - k * (pgaRow.c_5 - pgaRow.c_9)) (by linarith) (by linarith)
  have s2 := lin (c.c_4 - k * pgaRow.c_4) (c.c_5 - k * pgaRow.c_5) (by linarith) (by linarith)
  have s3 := lin (c.c_6 - k * pgaRow.c_6) (c.c_7 - k * pgaRow.c_7) (by linarith) (by linarith)
  have s4 : ((c.c_10 - k * pgaRow.c_10 : ℚ) : ℝ) < 0 := by exact_mod_cast a4
  push_cast at s1 s2 s3 s4
  rw [e]
  have u1 : (((c.c_4 + c.c_5 * m) - (c.c_8 + c.c_9 * m)) -
        k * ((pgaRow.c_4 + pgaRow.c_5 * m) - (pgaRow.c_8 + pgaRow.c_9 * m))) * (near R' - near R) ≤ 0 :=
    mul_nonpos_of_nonpos_of_nonneg (by linarith) n1
  have u2 : ((c.c_4 + c.c_5 * m) - k * (pgaRow.c_4 + pgaRow.c_5 * m)) * (mid R' - mid R) ≤ 0 :=
    mul_nonpos_of_nonpos_of_nonneg (by linarith) n2
  have u3 : ((c.c_6 + c.c_7 * m) - k * (pgaRow.c_6 + pgaRow.c_7 * m)) * (far R' - far R) ≤ 0 :=
    mul_nonpos_of_nonpos_of_nonneg (by linarith) n3
  have u4 : (c.c_10 - k * pgaRow.c_10) * (R' - R) < 0 := mul_neg_of_neg_of_pos s4 n4
  linarith

theorem specLnRef_sub (c : Row) (m R R' : ℝ) :
    specLnRef c m R' - specLnRef c m R = Real.log 10 * (specRef c m R' - specRef c m R) := by
  unfold specLnRef; ring

theorem log10_pos : 0 < Real.log 10 := Real.log_pos (by norm_num)

theorem specLnRef_drop {c : Row} {k : ℚ} {m R R' : ℝ} (hm : m ∈ Set.Icc (4 : ℝ) 8.5)
    (h4 : slopesNeg pgaRow c k 4) (h8 : slopesNeg pgaRow c k 8.5) (hR : 0 < R) (h : R < R') :
    (specLnRef c m R' - specLnRef c m R) - k * (specLnRef pgaRow m R' - specLnRef pgaRow m R) < 0 := by
  rw [specLnRef_sub, specLnRef_sub]
  have := mul_neg_of_pos_of_neg log10_pos (specRef_drop hm h4 h8 hR h)
  linarith

/-- the nonlinear slope from 250 m/s on -/
theorem specBnl_bounds {c : SiteRow} (hc : c ∈ site) {v : ℝ} (hv : 250 ≤ v) :
    -(bMax : ℝ) ≤ specBnl c v ∧ specBnl c v ≤ 0 := by
  obtain ⟨h1, h2, h3, h4⟩ := site_bounds c hc
  have h1' : (c.b_1 : ℝ) ≤ c.b_2 := by exact_mod_cast h1
  have h2' : (c.b_2 : ℝ) ≤ 0 := by exact_mod_cast h2
  have h3' : -(bMax : ℝ) ≤ c.b_2 := by exact_mod_cast h3
  have h4' : ((-bMax : ℚ) : ℝ) ≤ (((c.b_1 - c.b_2) * 0.36 : ℚ) : ℝ) := by exact_mod_cast h4
  push_cast at h4'
  have hb : (0 : ℝ) ≤ bMax := by norm_num [bMax]
  unfold specBnl
  rw [if_neg (by linarith)]
  split_ifs with h300 h760
  · have d : Real.log (180 / 300) < 0 := Real.log_neg (by norm_num) (by norm_num)
    have n : Real.log (v / 300) ≤ 0 := Real.log_nonpos (by linarith) (by linarith)
    have hr0 : 0 ≤ Real.log (v / 300) / Real.log (180 / 300) := div_nonneg_of_nonpos n d.le
    have hr1 : Real.log (v / 300) / Real.log (180 / 300) ≤ 0.36 := by
      rw [div_le_iff_of_neg d]
      have g : Real.log (250 / 300) ≤ Real.log (v / 300) :=
        Real.log_le_log (by norm_num) (by linarith)
      have e : 0.36 * Real.log (180 / 300) ≤ Real.log (250 / 300) := by
        have : Real.log ((180 / 300 : ℝ) ^ 9) ≤ Real.log ((250 / 300 : ℝ) ^ 25) :=
          Real.log_le_log (by norm_num) (by norm_num)
        rw [Real.log_pow, Real.log_pow] at this
        norm_num at this ⊢; linarith
      linarith
    rw [mul_div_assoc]
    constructor
    · nlinarith
    · nlinarith
  · have d : Real.log (300 / 760) < 0 := Real.log_neg (by norm_num) (by norm_num)
    have n : Real.log (v / 760) ≤ 0 := Real.log_nonpos (by linarith) (by linarith)
    have hr0 : 0 ≤ Real.log (v / 760) / Real.log (300 / 760) := div_nonneg_of_nonpos n d.le
    have hr1 : Real.log (v / 760) / Real.log (300 / 760) ≤ 1 := by
      rw [div_le_one_of_neg d]
      exact Real.log_le_log (by norm_num) (by push Not at h300; linarith)
    rw [mul_div_assoc]
    constructor
    · nlinarith
    · nlinarith
  · exact ⟨by linarith, le_rfl⟩

/-- change of the log of the capped reference acceleration -/
theorem log_max_sub {m R R' : ℝ} (h : specLnRef pgaRow m R' ≤ specLnRef pgaRow m R) :
    let d := Real.log (max (specPga m R') 60 / 100) - Real.log (max (specPga m R) 60 / 100)
    specLnRef pgaRow m R' - specLnRef pgaRow m R ≤ d ∧ d ≤ 0 := by
  have p : ∀ r, specPga m r = 980.665 * Real.exp (specLnRef pgaRow m r) := fun r => rfl
  have hpos : ∀ r, 0 < max (specPga m r) 60 := fun r => lt_max_of_lt_right (by norm_num)
  have hle : specPga m R' ≤ specPga m R := by
    rw [p, p]; gcongr
  intro d
  have hd : d = Real.log (max (specPga m R') 60) - Real.log (max (specPga m R) 60) := by
    simp only [d]
    rw [Real.log_div (hpos _).ne' (by norm_num), Real.log_div (hpos _).ne' (by norm_num)]; ring
  rw [hd]
  constructor
  · have : max (specPga m R) 60 ≤
        max (specPga m R') 60 * Real.exp (specLnRef pgaRow m R - specLnRef pgaRow m R') := by
      have e1 : 1 ≤ Real.exp (specLnRef pgaRow m R - specLnRef pgaRow m R') :=
        Real.one_le_exp (by linarith)
      apply max_le
      · have : specPga m R = specPga m R' * Real.exp (specLnRef pgaRow m R - specLnRef pgaRow m R') := by
          rw [p, p, mul_assoc, ← Real.exp_add]; congr 2; ring
        rw [this]
        exact mul_le_mul_of_nonneg_right (le_max_left _ _) (by positivity)
      · calc (60 : ℝ) ≤ max (specPga m R') 60 := le_max_right _ _
          _ ≤ _ := le_mul_of_one_le_right (hpos _).le e1
    have h2 := Real.log_le_log (hpos R) this
    rw [Real.log_mul (hpos _).ne' (Real.exp_pos _).ne', Real.log_exp] at h2
    linarith
  · have := Real.log_le_log (hpos R') (max_le_max_right 60 hle)
    linarith

/-- the site term changes by the interpolated slope times the change of the log acceleration -/
theorem site_sub (T : ℚ) (v m R R' : ℝ) :
    interpR (site.map fun q => ((q.period : ℝ), specSite q v (specPga m R'))) T -
      interpR (site.map fun q => ((q.period : ℝ), specSite q v (specPga m R))) T =
    (Real.log (max (specPga m R') 60 / 100) - Real.log (max (specPga m R) 60 / 100)) *
      interpR (site.map fun q => ((q.period : ℝ), specBnl q v)) T := by
  rw [Interp.sub, ← Interp.smul]
  congr 1
  apply List.map_congr_left
  intro c _
  simp only [specSite]
  congr 1; ring

theorem drop_bc {c : Row} (hc : c ∈ bc) {m R R' v : ℝ} (hm : m ∈ Set.Icc (4 : ℝ) 8.5) (hR : 0 < R)
    (h : R < R') (hv : 250 ≤ v) :
    specLnRef c m R' + interpR (site.map fun q => ((q.period : ℝ), specSite q v (specPga m R'))) c.period <
    specLnRef c m R + interpR (site.map fun q => ((q.period : ℝ), specSite q v (specPga m R))) c.period := by
  obtain ⟨-, -, k4, k8⟩ := bc_slopes c hc
  obtain ⟨p4, p8, -⟩ := bc_slopes pgaRow (by unfold pgaRow; exact List.getElem_mem _)
  have hP := specLnRef_drop hm p4 p8 hR h
  have hC := specLnRef_drop hm k4 k8 hR h
  have hS := site_sub c.period v m R R'
  have hb0 : interpR (site.map fun q => ((q.period : ℝ), specBnl q v)) c.period ≤ 0 := by
    apply Interp.le_of (nodes_sorted site_sorted _) (by simp [site])
    intro p hp
    obtain ⟨q, hq, rfl⟩ := List.mem_map.1 hp
    exact (specBnl_bounds hq hv).2
  have hb1 : -(bMax : ℝ) ≤ interpR (site.map fun q => ((q.period : ℝ), specBnl q v)) c.period := by
    apply Interp.ge_of (nodes_sorted site_sorted _) (by simp [site])
    intro p hp
    obtain ⟨q, hq, rfl⟩ := List.mem_map.1 hp
    exact (specBnl_bounds hq hv).1
  have hP' : specLnRef pgaRow m R' - specLnRef pgaRow m R < 0 := by
    simp only [Rat.cast_zero, zero_mul, sub_zero] at hP; exact hP
  obtain ⟨hd1, hd0⟩ := log_max_sub (m := m) (R := R) (R' := R') (by linarith)
  set d := Real.log (max (specPga m R') 60 / 100) - Real.log (max (specPga m R) 60 / 100)
  set b := interpR (site.map fun q => ((q.period : ℝ), specBnl q v)) c.period
  have : d * b ≤ -((specLnRef pgaRow m R' - specLnRef pgaRow m R) * bMax) := by
    have hbm : (0 : ℝ) ≤ bMax := by norm_num [bMax]
    nlinarith
  linarith

/-- the stress correction never lowers the motion -/
theorem stress_nonneg (T : ℚ) (m : ℝ) : 0 ≤ interpR (sf.map fun q => ((q.period : ℝ), specStress q m)) T := by
  apply Interp.ge_of (nodes_sorted sf_facts.1 _) (by simp [sf])
  intro p hp
  obtain ⟨q, hq, rfl⟩ := List.mem_map.1 hp
  have hd : (0 : ℚ) ≤ q.delta := (by decide +kernel : ∀ q ∈ sf, (0 : ℚ) ≤ q.delta) q hq
  have hd' : (0 : ℝ) ≤ q.delta := by exact_mod_cast hd
  have hm : (q.m_1 : ℝ) < q.m_h := by exact_mod_cast sf_facts.2 q hq
  simp only [specStress]
  apply mul_nonneg
  · exact le_min (by norm_num) (by positivity)
  · apply le_min
    · linarith
    · have : 0 ≤ (q.delta : ℝ) * max (m - q.m_1) 0 / (q.m_h - q.m_1) :=
        div_nonneg (mul_nonneg hd' (le_max_right _ _)) (by linarith)
      linarith

theorem near_of {R : ℝ} (h : 70 ≤ R) : near R = 1 := by
  unfold near
  apply min_eq_right
  exact one_le_logb70.trans (logb_mono (by norm_num) h)
theorem mid_of {R : ℝ} (h : 70 ≤ R) : mid R = Real.logb 10 70 - 1 := by
  unfold mid
  have := one_le_logb70
  rw [min_eq_right (logb_mono (by norm_num) h), max_eq_left (by linarith)]
theorem far_of {R : ℝ} (h0 : 0 < R) (h : R ≤ 140) : far R = 0 := by
  unfold far
  apply max_eq_right
  exact Real.logb_nonpos (by norm_num) (by positivity) (by linarith)

/-- at magnitude 8 and up to 140 km the reference acceleration is above the cap of 60 cm/s² -/
theorem pga_above {R : ℝ} (h : 70 ≤ R) (h' : R ≤ 140) : 60 < specPga 8 R := by
  have hR : 0 < R := by linarith
  have hl : Real.logb 10 70 ≤ 1.85 := by
    rw [Real.logb, div_le_iff₀ log10_pos]
    have : Real.log ((70 : ℝ) ^ 20) ≤ Real.log ((10 : ℝ) ^ 37) :=
      Real.log_le_log (by norm_num) (by norm_num)
    rw [Real.log_pow, Real.log_pow] at this
    norm_num at this ⊢; linarith
  have hx : 1.8 ≤ specRef pgaRow 8 R := by
    rw [specRef_eq _ _ hR, near_of h, mid_of h, far_of hR h']
    have e : (pgaRow.c_1, pgaRow.c_2, pgaRow.c_3, pgaRow.c_4, pgaRow.c_5, pgaRow.c_10) =
      (0.5233, 0.9686, -0.06196, -2.439, 0.1465, -0.0006304) := by decide +kernel
    simp only [Prod.mk.injEq] at e
    obtain ⟨e1, e2, e3, e4, e5, e6⟩ := e
    rw [e1, e2, e3, e4, e5, e6]
    norm_num
    nlinarith
  have hs := stress_nonneg pgaRow.period 8
  have e : specPga 8 R = Real.exp (Real.log 980.665 + specLnRef pgaRow 8 R) := by
    rw [Real.exp_add, Real.exp_log (by norm_num)]; rfl
  have e2 : Real.log 980.665 + specLnRef pgaRow 8 R = Real.log 10 * (specRef pgaRow 8 R +
      interpR (sf.map fun q => ((q.period : ℝ), specStress q 8)) pgaRow.period) := by
    unfold specLnRef
    have : Real.log 10 * Real.logb 10 980.665 = Real.log 980.665 := by
      rw [Real.logb]; field_simp [log10_pos.ne']
    rw [mul_sub, this]; ring
  rw [e, e2, ← Real.log_lt_iff_lt_exp (by norm_num)]
  have h60 : Real.log 60 < Real.log 10 * 1.8 := by
    have : Real.log ((60 : ℝ) ^ 5) < Real.log ((10 : ℝ) ^ 9) :=
      Real.log_lt_log (by norm_num) (by norm_num)
    rw [Real.log_pow, Real.log_pow] at this
    norm_num at this ⊢; linarith
  have : Real.log 10 * 1.8 ≤ Real.log 10 * (specRef pgaRow 8 R +
      interpR (sf.map fun q => ((q.period : ℝ), specStress q 8)) pgaRow.period) :=
    mul_le_mul_of_nonneg_left (by linarith) log10_pos.le
  linarith

end AB06

open AB06

/-- On hard rock (`v_s30` given as 0) and for every site of 250 m/s or more, all 27 ordinates
strictly decrease with distance, for magnitudes 4 to 8.5 and all positive distances. -/
theorem C79_attenuates (s s' : Scenario) (m R R' v : ℝ) (hm : s.get "mag" = .num m)
    (hr : s.get "dist_rup" = .num R) (hv : s.get "v_s30" = .num v) (hm' : s'.get "mag" = .num m)
    (hr' : s'.get "dist_rup" = .num R') (hv' : s'.get "v_s30" = .num v)
    (h4 : 4 ≤ m) (h8 : m ≤ 8.5) (hR : 0 < R) (h : R < R') (hsite : v = 0 ∨ 250 ≤ v) :
    ∃ o o', Gives cls s o ∧ Gives cls s' o' ∧ o.lnResp.length = 27 ∧
      List.Forall₂ F.Drops o.lnResp o'.lnResp := by
  rcases hsite with rfl | hsite
  · obtain ⟨o, ho, h1⟩ := C21_rock s m R hR hm hr hv
    obtain ⟨o', ho', h2⟩ := C21_rock s' m R' (hR.trans h) hm' hr' hv'
    refine ⟨o, o', ho, ho', h1.length_eq.symm.trans (by decide +kernel), ?_⟩
    rw [List.forall₂_iff_get] at h1 h2 ⊢
    refine ⟨h1.1.symm.trans h2.1, fun i hi hi' => ?_⟩
    have hi0 : i < rock.length := h1.1 ▸ hi
    obtain ⟨a1, a2⟩ := h1.2 i hi0 hi
    obtain ⟨b1, b2⟩ := h2.2 i hi0 hi'
    refine ⟨a1, b1, ?_⟩
    obtain ⟨s4, s8⟩ := rock_slopes _ (List.get_mem rock ⟨i, hi0⟩)
    have := specLnRef_drop ⟨h4, h8⟩ s4 s8 hR h
    simp only [Rat.cast_zero, zero_mul, sub_zero] at this
    rw [a2, b2]; linarith
  · obtain ⟨o, ho, h1⟩ := C21_bc s m R v hR (by linarith) hm hr hv
    obtain ⟨o', ho', h2⟩ := C21_bc s' m R' v (hR.trans h) (by linarith) hm' hr' hv'
    refine ⟨o, o', ho, ho', h1.length_eq.symm.trans (by decide +kernel), ?_⟩
    rw [List.forall₂_iff_get] at h1 h2 ⊢
    refine ⟨h1.1.symm.trans h2.1, fun i hi hi' => ?_⟩
    have hi0 : i < bc.length := h1.1 ▸ hi
    obtain ⟨a1, a2⟩ := h1.2 i hi0 hi
    obtain ⟨b1, b2⟩ := h2.2 i hi0 hi'
    refine ⟨a1, b1, ?_⟩
    rw [a2, b2]
    exact drop_bc (List.get_mem bc ⟨i, hi0⟩) ⟨h4, h8⟩ hR h hsite

example := C79_attenuates
  ⟨[("mag", .num 7), ("dist_rup", .num 20), ("v_s30", .num 400)], []⟩
  ⟨[("mag", .num 7), ("dist_rup", .num 90), ("v_s30", .num 400)], []⟩ 7 20 90 400
  (by simp [Scenario.get, Dict.get?]) (by simp [Scenario.get, Dict.get?]) (by simp [Scenario.get, Dict.get?])
  (by simp [Scenario.get, Dict.get?]) (by simp [Scenario.get, Dict.get?]) (by simp [Scenario.get, Dict.get?])
  (by norm_num) (by norm_num) (by norm_num) (by norm_num) (Or.inr (by norm_num))

/-- On soft soil (at most 180 m/s) it does not: at magnitude 8 the predicted peak ground displacement
(the first ordinate) strictly increases with distance from 70 to 140 km, because the nonlinear site
reduction is driven by the reference PGA, which attenuates faster. -/
theorem C79_soft_soil_rises (s s' : Scenario) (R R' v : ℝ) (hm : s.get "mag" = .num 8)
    (hr : s.get "dist_rup" = .num R) (hv : s.get "v_s30" = .num v) (hm' : s'.get "mag" = .num 8)
    (hr' : s'.get "dist_rup" = .num R') (hv' : s'.get "v_s30" = .num v)
    (hR : 70 ≤ R) (h : R < R') (hR' : R' ≤ 140) (hv0 : 0 < v) (hv1 : v ≤ 180) :
    ∃ o o', Gives cls s o ∧ Gives cls s' o' ∧
      F.Drops (o'.lnResp.getD 0 F.nan) (o.lnResp.getD 0 F.nan) := by
  obtain ⟨o, ho, h1⟩ := C21_bc s 8 R v (by linarith) hv0 hm hr hv
  obtain ⟨o', ho', h2⟩ := C21_bc s' 8 R' v (by linarith) hv0 hm' hr' hv'
  refine ⟨o, o', ho, ho', ?_⟩
  obtain ⟨c, t, hbc⟩ : ∃ c t, bc = c :: t := ⟨_, _, rfl⟩
  rw [hbc] at h1 h2
  obtain ⟨y, l, ⟨a1, a2⟩, -, e1⟩ := List.forall₂_cons_left_iff.1 h1
  obtain ⟨y', l', ⟨b1, b2⟩, -, e2⟩ := List.forall₂_cons_left_iff.1 h2
  rw [e1, e2]
  refine ⟨b1, a1, ?_⟩
  simp only [List.getD_cons_zero]
  rw [a2, b2]
  have hc : c = bc[0]'(by decide) := (List.getElem_of_eq hbc (i := 0) (by decide)).symm
  have hS := site_sub c.period v 8 R R'
  have hp : (c.period, c.c_10, pgaRow.c_10) = (-2, -0.0002337, -0.0006304) := by
    rw [hc]; decide +kernel
  simp only [Prod.mk.injEq] at hp
  obtain ⟨hp1, hp2, hp3⟩ := hp
  have hb : interpR (site.map fun q => ((q.period : ℝ), specBnl q v)) (c.period : ℝ) = -0.495 := by
    obtain ⟨q, r, t', hq⟩ : ∃ q r t', site = q :: r :: t' := ⟨_, _, _, rfl⟩
    have hq0 : q = site[0]'(by decide) := (List.getElem_of_eq hq (i := 0) (by decide)).symm
    have hqv : (q.period, q.b_1) = (-1, -0.495) := by rw [hq0]; decide +kernel
    simp only [Prod.mk.injEq] at hqv
    rw [hq]
    simp only [List.map_cons, interpR]
    rw [if_pos (by rw [hp1, hqv.1]; norm_num)]
    simp only [specBnl, if_pos hv1, hqv.2]
    norm_num
  have pm : ∀ r, 70 ≤ r → r ≤ 140 → Real.log (max (specPga 8 r) 60 / 100) =
      Real.log 980.665 + specLnRef pgaRow 8 r - Real.log 100 := by
    intro r h1 h2
    have := pga_above h1 h2
    rw [max_eq_left this.le, Real.log_div (by positivity) (by norm_num)]
    congr 1
    have e : specPga 8 r = 980.665 * Real.exp (specLnRef pgaRow 8 r) := rfl
    rw [e, Real.log_mul (by norm_num) (Real.exp_pos _).ne', Real.log_exp]
  rw [hb, pm R hR (by linarith), pm R' (by linarith) hR'] at hS
  have dl : ∀ c : Row, specLnRef c 8 R' - specLnRef c 8 R = Real.log 10 * (c.c_10 * (R' - R)) := by
    intro c
    rw [specLnRef_sub, specRef_eq c 8 (by linarith), specRef_eq c 8 (by linarith : 0 < R),
      near_of hR, near_of (by linarith : 70 ≤ R'), mid_of hR, mid_of (by linarith : 70 ≤ R'),
      far_of (by linarith) hR', far_of (by linarith) (by linarith : R ≤ 140)]
    ring
  have d1 := dl c
  have d2 := dl pgaRow
  rw [hp2] at d1
  rw [hp3] at d2
  have hpos : 0 < Real.log 10 * (R' - R) := mul_pos log10_pos (by linarith)
  norm_num at d1 d2 hS ⊢
  nlinarith

example := C79_soft_soil_rises
  ⟨[("mag", .num 8), ("dist_rup", .num 80), ("v_s30", .num 160)], []⟩
  ⟨[("mag", .num 8), ("dist_rup", .num 130), ("v_s30", .num 160)], []⟩ 80 130 160
  (by simp [Scenario.get, Dict.get?]) (by simp [Scenario.get, Dict.get?]) (by simp [Scenario.get, Dict.get?])
  (by simp [Scenario.get, Dict.get?]) (by simp [Scenario.get, Dict.get?]) (by simp [Scenario.get, Dict.get?])
  (by norm_num) (by norm_num) (by norm_num) (by norm_num) (by norm_num)
