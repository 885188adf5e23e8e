import Verif.Props.Stafford

/-! # C38 (asymmetry), C75, C76: ranges of the Stafford (2017) correlations -/

open Bounds

set_option linter.unusedSimpArgs false

namespace Stafford

/-! ### The pieces on real numbers -/

noncomputable def etaAR (f : ℝ) : ℝ := sigR f 0.7606 0.2993 1.5837 * (1 + sigR f (-0.5094) 24.579 2.3518)

noncomputable def gammaAR (f : ℝ) : ℝ :=
  0.9515 + min f 10 / (min f 10 + 1.4802 * (1 - min f 10 / 10)) * 1.2752
    + -0.3361 * Real.log (max f 10 / 10) ^ 2

noncomputable def etaSR (f : ℝ) : ℝ :=
  0.1126 * Real.log (max (min f 4) 0.25 / 0.25) + -0.1068 * Real.log (max f 4 / 4)

noncomputable def gammaSR (f : ℝ) : ℝ :=
  -0.6968 + sigR f (-0.2963) 0.3326 5.0078 + sigR f 0.5703 2.3973 3.5779

theorem etaA_val (f : ℝ) : (etaA (F.ofReal f)).val = etaAR f := by
  simp only [etaA, etaAR, fsimp, sigmoid_val]

theorem gammaA_val (f : ℝ) : (gammaA (F.ofReal f)).val = gammaAR f := by
  simp only [gammaA, gammaAR, fsimp]
  norm_num

theorem etaS_val (f : ℝ) : (etaS (F.ofReal f)).val = etaSR f := by
  simp only [etaS, etaSR, fsimp]
  norm_num

theorem gammaS_val (f : ℝ) : (gammaS (F.ofReal f)).val = gammaSR f := by
  simp only [gammaS, gammaSR, fsimp, sigmoid_val]

theorem etaA_ok {f : ℝ} (h : 0 < f) : (etaA (F.ofReal f)).ok := by
  unfold etaA
  rw [F.ok_mul, F.ok_add]
  refine ⟨sigmoid_ok ?_ ?_ ?_ ?_ ?_ ?_, ?_, sigmoid_ok ?_ ?_ ?_ ?_ ?_ ?_⟩
  all_goals simp only [fsimp]
  all_goals first | exact h | norm_num

theorem gammaS_ok {f : ℝ} (h : 0 < f) : (gammaS (F.ofReal f)).ok := by
  unfold gammaS
  rw [F.ok_add, F.ok_add]
  refine ⟨⟨?_, sigmoid_ok ?_ ?_ ?_ ?_ ?_ ?_⟩, sigmoid_ok ?_ ?_ ?_ ?_ ?_ ?_⟩
  all_goals simp only [fsimp]
  all_goals first | exact h | norm_num

theorem etaS_ok (f : ℝ) : (etaS (F.ofReal f)).ok := by
  have h1 : (0 : ℝ) < max (min f 4.0) 0.25 := lt_of_lt_of_le (by norm_num) (le_max_right _ _)
  have h2 : (0 : ℝ) < max f 4.0 := lt_of_lt_of_le (by norm_num) (le_max_right _ _)
  simp only [etaS, fsimp]
  exact ⟨⟨by norm_num, by positivity⟩, by norm_num, by positivity⟩

theorem s_den {f : ℝ} (h : 0 < f) : 0 < min f 10 + 1.4802 * (1 - min f 10 / 10) := by
  have h1 : 0 < min f 10 := lt_min h (by norm_num)
  have h2 : min f 10 ≤ 10 := min_le_right _ _
  nlinarith

theorem gammaA_ok {f : ℝ} (h : 0 < f) : (gammaA (F.ofReal f)).ok := by
  have h2 : (0 : ℝ) < max f 10.0 := lt_of_lt_of_le (by norm_num) (le_max_right _ _)
  have := s_den h
  have e : (10.0 : ℝ) = 10 := by norm_num
  simp only [gammaA, fsimp]
  rw [e] at *
  refine ⟨⟨by norm_num, this.ne'⟩, by norm_num, by positivity⟩

theorem etaAR_range (f : ℝ) : 0 < etaAR f ∧ etaAR f < 0.7606 := by
  obtain ⟨h1, h2⟩ := sigR_pos (f := f) (a0 := 0.7606) (a1 := 0.2993) (a2 := 1.5837) (by norm_num)
  obtain ⟨h3, h4⟩ := sigR_neg (f := f) (a0 := -0.5094) (a1 := 24.579) (a2 := 2.3518) (by norm_num)
  unfold etaAR
  constructor
  · apply mul_pos h1; linarith
  · nlinarith

theorem gammaAR_range {f : ℝ} (h : 0 < f) (h10 : f ≤ 10) : 0.9515 < gammaAR f ∧ gammaAR f < 2.3 := by
  have hd := s_den h
  unfold gammaAR
  rw [min_eq_left h10, max_eq_right h10] at *
  have e : Real.log ((10 : ℝ) / 10) = 0 := by norm_num
  rw [e]
  have h1 : 0 < f / (f + 1.4802 * (1 - f / 10)) := div_pos h hd
  have h2 : f / (f + 1.4802 * (1 - f / 10)) ≤ 1 := by
    rw [div_le_one hd]; nlinarith
  constructor <;> nlinarith

theorem gammaSR_range (f : ℝ) : -1 < gammaSR f ∧ gammaSR f < -0.1265 := by
  obtain ⟨h1, h2⟩ := sigR_pos (f := f) (a0 := 0.5703) (a1 := 2.3973) (a2 := 3.5779) (by norm_num)
  obtain ⟨h3, h4⟩ := sigR_neg (f := f) (a0 := -0.2963) (a1 := 0.3326) (a2 := 5.0078) (by norm_num)
  unfold gammaSR
  constructor <;> linarith

theorem log16 : (2.772 : ℝ) ≤ Real.log 16 ∧ Real.log 16 ≤ 2.7726 := by
  constructor
  · have := le_log_of (x := 16) (q := 2.772) (by norm_num) (by norm_num) (by norm_num)
      (by norm_num [expHi, taylor])
    push_cast at this; norm_num at this ⊢; linarith
  · have := log_le_of (x := 16) (q := 2.7726) (by norm_num) (by norm_num) (by norm_num [expLo, taylor])
    push_cast at this; norm_num at this ⊢; linarith

theorem log185 : Real.log 18.5 ≤ 2.9178 := by
  have := log_le_of (x := 18.5) (q := 2.9178) (by norm_num) (by norm_num) (by norm_num [expLo, taylor])
  push_cast at this; norm_num at this ⊢; linarith

theorem etaSR_range {f : ℝ} (h : f ≤ 74) : 0 ≤ etaSR f ∧ etaSR f < 0.3123 := by
  obtain ⟨l1, l2⟩ := log16
  unfold etaSR
  rcases le_total f 4 with h4 | h4
  · rw [min_eq_left h4, max_eq_right (a := f) h4]
    have e : Real.log ((4 : ℝ) / 4) = 0 := by norm_num
    rw [e]
    have h1 : (0.25 : ℝ) ≤ max f 0.25 := le_max_right _ _
    have h2 : max f 0.25 ≤ 4 := max_le h4 (by norm_num)
    have h3 : 0 ≤ Real.log (max f 0.25 / 0.25) := Real.log_nonneg (by
      rw [le_div_iff₀ (by norm_num)]; linarith)
    have h5 : Real.log (max f 0.25 / 0.25) ≤ Real.log 16 := Real.log_le_log (by positivity) (by
      rw [div_le_iff₀ (by norm_num)]; norm_num; exact h4)
    constructor <;> linarith
  · rw [min_eq_right h4, max_eq_left (a := f) h4]
    have e : max (4 : ℝ) 0.25 / 0.25 = 16 := by norm_num
    rw [e]
    have h1 : 0 ≤ Real.log (f / 4) := Real.log_nonneg (by rw [le_div_iff₀ (by norm_num)]; linarith)
    have h2 : Real.log (f / 4) ≤ Real.log 18.5 := Real.log_le_log (by linarith) (by
      rw [div_le_iff₀ (by norm_num)]; linarith)
    have := log185
    constructor <;> linarith

/-- the shared formula on numbers, for the smaller frequency first -/
theorem nugget_val {e g : F → F} {f k : ℝ} (h : f ≤ k) :
    (nuggetCorrelation e g (F.ofReal f) (F.ofReal k)).val =
      (1 - (e (F.ofReal f)).val) * Real.exp ((g (F.ofReal f)).val * Real.log (k / f)) *
        (1 - Real.exp (-50.0 * Real.log (k / f))) := by
  have : F.min (F.ofReal f) (F.ofReal k) = F.ofReal f := by
    ext <;> simp only [fsimp, min_eq_left h]
  have h' : F.max (F.ofReal f) (F.ofReal k) = F.ofReal k := by
    ext <;> simp only [fsimp, max_eq_right h]
  simp only [nuggetCorrelation, this, h']
  simp only [fsimp]

theorem nugget_ok {e g : F → F} {f k : ℝ} (h0 : 0 < f) (h : f ≤ k) (he : (e (F.ofReal f)).ok)
    (hg : (g (F.ofReal f)).ok) : (nuggetCorrelation e g (F.ofReal f) (F.ofReal k)).ok := by
  have : F.min (F.ofReal f) (F.ofReal k) = F.ofReal f := by
    ext <;> simp only [fsimp, min_eq_left h]
  have h' : F.max (F.ofReal f) (F.ofReal k) = F.ofReal k := by
    ext <;> simp only [fsimp, max_eq_right h]
  simp only [nuggetCorrelation, this, h']
  have hk : 0 < k / f := div_pos (lt_of_lt_of_le h0 h) h0
  simp only [fsimp, he, hg, true_and, and_true, hk, h0.ne', ne_eq, not_false_eq_true]

theorem log_ge_zero {f g : ℝ} (h0 : 0 < f) (h : f ≤ g) : 0 ≤ Real.log (g / f) :=
  Real.log_nonneg (by rw [le_div_iff₀ h0]; linarith)

/-- the last factor -/
theorem nug_range {L : ℝ} (h : 0 ≤ L) : 0 ≤ 1 - Real.exp (-50.0 * L) ∧ 1 - Real.exp (-50.0 * L) < 1 ∧
    1 - Real.exp (-50.0 * L) ≤ 50 * L := by
  have h1 : Real.exp (-50.0 * L) ≤ 1 := Real.exp_le_one_iff.2 (by norm_num; linarith)
  have h2 := Real.exp_pos (-50.0 * L)
  have h3 := Real.add_one_le_exp (-50.0 * L)
  refine ⟨by linarith, by linarith, ?_⟩
  norm_num at h3 ⊢
  linarith

end Stafford

open Stafford in
/-- C75, Stafford `within_event_correlation`: the value is no correlation.  For every frequency from
1e-6 to 10 Hz and every frequency at least ten times as large it is above 2. -/
theorem C75_above_two (f g : ℝ) (h0 : 1e-6 ≤ f) (h10 : f ≤ 10) (hg : 10 * f ≤ g) :
    (withinEvent f g).ok ∧ 2 < (withinEvent f g).val ∧
      (withinEvent g f).ok ∧ 2 < (withinEvent g f).val := by
  have hf : 0 < f := lt_of_lt_of_le (by norm_num) h0
  have hfg : f ≤ g := by linarith
  have n1 : ¬ IsClose f g := by
    unfold IsClose
    rw [abs_of_nonpos (by linarith), abs_of_pos (by linarith)]
    norm_num at h0 ⊢; linarith
  have n2 : ¬ IsClose g f := by
    unfold IsClose
    rw [abs_of_nonneg (by linarith), abs_of_pos (by linarith)]
    norm_num at h0 ⊢; linarith
  have sy : withinEvent g f = withinEvent f g := withinEvent_symm ⟨fun h => absurd h n2, fun h => absurd h n1⟩
  rw [sy]
  suffices h : (withinEvent f g).ok ∧ 2 < (withinEvent f g).val from ⟨h.1, h.2, h.1, h.2⟩
  unfold withinEvent
  rw [if_neg n1]
  refine ⟨nugget_ok hf hfg (etaA_ok hf) (gammaA_ok hf), ?_⟩
  rw [nugget_val hfg, etaA_val, gammaA_val]
  obtain ⟨e1, e2⟩ := etaAR_range f
  obtain ⟨g1, g2⟩ := gammaAR_range hf h10
  have l10 : (2.3 : ℝ) ≤ Real.log (g / f) := by
    have h1 := le_log_of (x := 10) (q := 2.3) (by norm_num) (by norm_num) (by norm_num)
      (by norm_num [expHi, taylor])
    have h2 : Real.log 10 ≤ Real.log (g / f) :=
      Real.log_le_log (by norm_num) (by rw [le_div_iff₀ hf]; linarith)
    push_cast at h1; norm_num at h1 ⊢; linarith
  have hE : (8.88 : ℝ) ≤ Real.exp (gammaAR f * Real.log (g / f)) := by
    have h1 := expLo_le (q := 2.188) (by norm_num)
    have h2 : (8.88 : ℝ) ≤ ((expLo 2.188 : ℚ) : ℝ) := by
      have : (8.88 : ℚ) ≤ expLo 2.188 := by norm_num [expLo, taylor]
      have := (Rat.cast_le (K := ℝ)).2 this
      push_cast at this; norm_num at this ⊢; linarith
    refine h2.trans (h1.trans (Real.exp_le_exp.2 ?_))
    push_cast
    nlinarith
  have hN : (0.99 : ℝ) ≤ 1 - Real.exp (-50.0 * Real.log (g / f)) := by
    have h1 : Real.exp (-50.0 * Real.log (g / f)) ≤ 1 / (1 + 50 * Real.log (g / f)) := by
      have : Real.exp (-50.0 * Real.log (g / f)) = (Real.exp (50 * Real.log (g / f)))⁻¹ := by
        rw [← Real.exp_neg]; norm_num
      rw [this, one_div]
      apply inv_anti₀ (by linarith)
      have := Real.add_one_le_exp (50 * Real.log (g / f))
      linarith
    have h2 : 1 / (1 + 50 * Real.log (g / f)) ≤ 0.01 := by
      rw [div_le_iff₀ (by linarith)]; linarith
    linarith
  have : (0.2394 : ℝ) ≤ 1 - etaAR f := by linarith
  calc (2 : ℝ) < 0.2394 * 8.88 * 0.99 := by norm_num
    _ ≤ _ := by gcongr

namespace Stafford

theorem sigmaE_range {f : ℝ} : 0.5 < (sigmaE (F.ofReal f)).val ∧ (sigmaE (F.ofReal f)).val < 1.3934 := by
  simp only [sigmaE, fsimp, sigmoid_val]
  obtain ⟨h1, h2⟩ := sigR_pos (f := f) (a0 := 0.5177) (a1 := 16.357) (a2 := 1.4689) (by norm_num)
  obtain ⟨h3, h4⟩ := sigR_neg (f := f) (a0 := -0.3309) (a1 := 0.5871) (a2 := 5.4264) (by norm_num)
  constructor <;> linarith

theorem sigmaS_range {f : ℝ} : 0.4 < (sigmaS (F.ofReal f)).val ∧ (sigmaS (F.ofReal f)).val < 0.9807 := by
  simp only [sigmaS, fsimp, sigmoid_val]
  obtain ⟨h1, h2⟩ := sigR_pos (f := f) (a0 := 0.3640) (a1 := 13.457) (a2 := 2.2497) (by norm_num)
  obtain ⟨h3, h4⟩ := sigR_neg (f := f) (a0 := -0.1495) (a1 := 0.7248) (a2 := 3.6985) (by norm_num)
  constructor <;> linarith

theorem sigmaA_lo {f : ℝ} : 0.726 ≤ (sigmaA (F.ofReal f)).val := by
  simp only [sigmaA, fsimp]
  nlinarith [sq_nonneg (Real.log (max f 5.0 / 5.0))]

theorem sigmaA_hi {f : ℝ} (h : f ≤ 100) : (sigmaA (F.ofReal f)).val ≤ 1.0213 := by
  simp only [sigmaA, fsimp]
  have h5 : (5 : ℝ) ≤ max f 5.0 := by have := le_max_right f 5.0; norm_num at this ⊢
  have h1 : max f 5.0 / 5.0 ≤ 20 := by
    rw [div_le_iff₀ (by norm_num)]; norm_num; exact h
  have h2 : Real.log 20 ≤ 3 := by
    have := log_le_of (x := 20) (q := 3) (by norm_num) (by norm_num) (by norm_num [expLo, taylor])
    push_cast at this; linarith
  have h3 : Real.log (max f 5.0 / 5.0) ≤ 3 :=
    (Real.log_le_log (by positivity) h1).trans h2
  have h4 : 0 ≤ Real.log (max f 5.0 / 5.0) := Real.log_nonneg (by
    rw [le_div_iff₀ (by norm_num)]; norm_num)
  nlinarith

theorem exp_val_pos (x : F) : 0 < (F.exp x).val := by simp only [fsimp]; exact Real.exp_pos _

theorem betweenEvent_pos (a b m : F) : 0 < (betweenEvent a b m).val := by
  unfold betweenEvent; exact exp_val_pos _

theorem site_nonneg {f g : ℝ} (hf : 0 < f) (h : f ≤ 74) (hg : f ≤ g) :
    0 ≤ (nuggetCorrelation etaS gammaS (F.ofReal f) (F.ofReal g)).val ∧
    (nuggetCorrelation etaS gammaS (F.ofReal f) (F.ofReal g)).val < 1 := by
  rw [nugget_val hg, etaS_val, gammaS_val]
  obtain ⟨e1, e2⟩ := etaSR_range h
  obtain ⟨g1, g2⟩ := gammaSR_range f
  have hL := log_ge_zero hf hg
  obtain ⟨n1, n2, -⟩ := nug_range hL
  have hE : Real.exp (gammaSR f * Real.log (g / f)) ≤ 1 := Real.exp_le_one_iff.2 (by nlinarith)
  have hE' := Real.exp_pos (gammaSR f * Real.log (g / f))
  have h1 : 0 ≤ 1 - etaSR f := by linarith
  constructor
  · positivity
  · have : (1 - etaSR f) * Real.exp (gammaSR f * Real.log (g / f)) ≤ 1 := by nlinarith
    have h0 : 0 ≤ (1 - etaSR f) * Real.exp (gammaSR f * Real.log (g / f)) := by positivity
    nlinarith

end Stafford

namespace Stafford

/-- `cov` with the default standard deviations -/
theorem cov_default (freqs : List ℝ) (mag : ℝ) : ∃ c, cov freqs none none none mag = pure c ∧
    ∀ i j, i < freqs.length → j < freqs.length → at' c i j =
      covEntry freqs (computeVariances freqs) mag i j := by
  refine ⟨_, by
    unfold cov
    simp only [variances, computeVariances, List.length_map]
    rw [if_neg (by simp)], fun i j hi hj => ?_⟩
  rw [entry_of _ hi hj]
  rfl

theorem covEntry_default {freqs : List ℝ} {mag : ℝ} {i j : ℕ} (hi : i < freqs.length) (hj : j < freqs.length) :
    (covEntry freqs (computeVariances freqs) mag i j).val =
      (betweenEvent (F.ofReal (freqs.getD i 0)) (F.ofReal (freqs.getD j 0)) (F.ofReal mag)).val *
          (sigmaE (F.ofReal (freqs.getD i 0))).val * (sigmaE (F.ofReal (freqs.getD j 0))).val
        + (betweenSite (freqs.getD i 0) (freqs.getD j 0)).val *
          (sigmaS (F.ofReal (freqs.getD i 0))).val * (sigmaS (F.ofReal (freqs.getD j 0))).val
        + (withinEvent (freqs.getD i 0) (freqs.getD j 0)).val *
          (sigmaA (F.ofReal (freqs.getD i 0))).val * (sigmaA (F.ofReal (freqs.getD j 0))).val := by
  simp only [covEntry, computeVariances, map_getD hi, map_getD hj, fsimp]

theorem not_close_of_ratio {f g : ℝ} (h0 : 1e-6 ≤ f) (hg : 10 * f ≤ g) : ¬ IsClose f g ∧ ¬ IsClose g f := by
  have hf : 0 < f := lt_of_lt_of_le (by norm_num) h0
  unfold IsClose
  constructor
  · rw [abs_of_nonpos (by linarith), abs_of_pos (by linarith)]
    norm_num at h0 ⊢; linarith
  · rw [abs_of_nonneg (by linarith), abs_of_pos (by linarith)]
    norm_num at h0 ⊢; linarith

/-- the within-event value a factor 100 apart -/
theorem within_hundred {f : ℝ} (h0 : 1e-6 ≤ f) (h10 : f ≤ 10) : 18 < (withinEvent f (100 * f)).val := by
  have hf : 0 < f := lt_of_lt_of_le (by norm_num) h0
  unfold withinEvent
  rw [if_neg (not_close_of_ratio h0 (by linarith)).1, nugget_val (by linarith), etaA_val, gammaA_val]
  obtain ⟨e1, e2⟩ := etaAR_range f
  obtain ⟨g1, g2⟩ := gammaAR_range hf h10
  have e : 100 * f / f = 100 := by field_simp
  rw [e]
  have l100 : (4.605 : ℝ) ≤ Real.log 100 := by
    have h1 := le_log_of (x := 100) (q := 4.605) (by norm_num) (by norm_num) (by norm_num)
      (by norm_num [expHi, taylor])
    push_cast at h1; norm_num at h1 ⊢; linarith
  have hE : (79 : ℝ) ≤ Real.exp (gammaAR f * Real.log 100) := by
    have h1 := expLo_le (q := 4.38) (by norm_num)
    have h2 : (79 : ℝ) ≤ ((expLo 4.38 : ℚ) : ℝ) := by
      have : (79 : ℚ) ≤ expLo 4.38 := by norm_num [expLo, taylor]
      have := (Rat.cast_le (K := ℝ)).2 this
      push_cast at this; linarith
    refine h2.trans (h1.trans (Real.exp_le_exp.2 ?_))
    push_cast
    nlinarith
  have hN : (0.99 : ℝ) ≤ 1 - Real.exp (-50.0 * Real.log 100) := by
    have h1 : Real.exp (-50.0 * Real.log 100) ≤ 1 / (1 + 50 * Real.log 100) := by
      have : Real.exp (-50.0 * Real.log 100) = (Real.exp (50 * Real.log 100))⁻¹ := by
        rw [← Real.exp_neg]; norm_num
      rw [this, one_div]
      apply inv_anti₀ (by linarith)
      have := Real.add_one_le_exp (50 * Real.log 100)
      linarith
    have h2 : 1 / (1 + 50 * Real.log 100) ≤ 0.01 := by
      rw [div_le_iff₀ (by linarith)]; linarith
    linarith
  have : (0.2394 : ℝ) ≤ 1 - etaAR f := by linarith
  calc (18 : ℝ) < 0.2394 * 79 * 0.99 := by norm_num
    _ ≤ _ := by gcongr

end Stafford

open Stafford in
/-- C75: `Stafford2017.cor` of two frequencies a factor 100 apart has, for every lower frequency from
1e-6 to 1 Hz and every magnitude, an off-diagonal "correlation" above 2. -/
theorem C75_cor (f mag : ℝ) (h0 : 1e-6 ≤ f) (h1 : f ≤ 1) :
    ∃ r, cor [f, 100 * f] none none none mag = pure r ∧ 2 < (at' r 0 1).val := by
  have hf : 0 < f := lt_of_lt_of_le (by norm_num) h0
  obtain ⟨c, hc, hd⟩ := cov_default [f, 100 * f] mag
  refine ⟨_, by unfold cor; rw [hc, Py.pure_bind'], ?_⟩
  rw [entry_of _ (by simp) (by simp)]
  beta_reduce
  rw [hd 0 1 (by simp) (by simp), hd 0 0 (by simp) (by simp), hd 1 1 (by simp) (by simp)]
  simp only [fsimp]
  rw [covEntry_default (by simp) (by simp), covEntry_default (by simp) (by simp),
    covEntry_default (by simp) (by simp)]
  simp only [List.getD_cons_zero, List.getD_cons_succ]
  rw [(betweenEvent_diag hf).2, (betweenEvent_diag (f := 100 * f) (by linarith)).2, (within_diag _).2,
    (within_diag _).2, (site_diag _).2, (site_diag _).2]
  have hE := betweenEvent_pos (F.ofReal f) (F.ofReal (100 * f)) (F.ofReal mag)
  have hS : 0 ≤ (betweenSite f (100 * f)).val := by
    unfold betweenSite
    rw [if_neg (not_close_of_ratio h0 (by linarith)).1]
    exact (site_nonneg hf (by linarith) (by linarith)).1
  have hA := within_hundred h0 (by linarith)
  obtain ⟨a1, a2⟩ := sigmaE_range (f := f)
  obtain ⟨b1, b2⟩ := sigmaE_range (f := 100 * f)
  obtain ⟨a3, a4⟩ := sigmaS_range (f := f)
  obtain ⟨b3, b4⟩ := sigmaS_range (f := 100 * f)
  have a5 := sigmaA_lo (f := f)
  have b5 := sigmaA_lo (f := 100 * f)
  have a6 := sigmaA_hi (f := f) (by linarith)
  have b6 := sigmaA_hi (f := 100 * f) (by linarith)
  generalize (sigmaE (F.ofReal f)).val = x1 at *
  generalize (sigmaE (F.ofReal (100 * f))).val = x2 at *
  generalize (sigmaS (F.ofReal f)).val = y1 at *
  generalize (sigmaS (F.ofReal (100 * f))).val = y2 at *
  generalize (sigmaA (F.ofReal f)).val = z1 at *
  generalize (sigmaA (F.ofReal (100 * f))).val = z2 at *
  generalize (betweenEvent (F.ofReal f) (F.ofReal (100 * f)) (F.ofReal mag)).val = r1 at *
  generalize (betweenSite f (100 * f)).val = r2 at *
  generalize (withinEvent f (100 * f)).val = r3 at *
  have d1 : 1 * x1 * x1 + 1 * y1 * y1 + 1 * z1 * z1 ≤ 2 ^ 2 := by nlinarith
  have d2 : 1 * x2 * x2 + 1 * y2 * y2 + 1 * z2 * z2 ≤ 2 ^ 2 := by nlinarith
  have p1 : 0 < 1 * x1 * x1 + 1 * y1 * y1 + 1 * z1 * z1 := by nlinarith
  have p2 : 0 < 1 * x2 * x2 + 1 * y2 * y2 + 1 * z2 * z2 := by nlinarith
  have s1 := Real.sqrt_le_sqrt d1
  have s2 := Real.sqrt_le_sqrt d2
  rw [Real.sqrt_sq (by norm_num)] at s1 s2
  have q1 := Real.sqrt_pos.2 p1
  have q2 := Real.sqrt_pos.2 p2
  rw [lt_div_iff₀ (mul_pos q1 q2)]
  have m : √(1 * x1 * x1 + 1 * y1 * y1 + 1 * z1 * z1) * √(1 * x2 * x2 + 1 * y2 * y2 + 1 * z2 * z2) ≤ 2 * 2 :=
    mul_le_mul s1 s2 q2.le (by norm_num)
  have t1 : 0 ≤ r1 * x1 * x2 := by
    have : 0 < x1 := by linarith
    have : 0 < x2 := by linarith
    positivity
  have t2 : 0 ≤ r2 * y1 * y2 := by
    have : 0 < y1 := by linarith
    have : 0 < y2 := by linarith
    positivity
  have t3 : 18 * 0.726 * 0.726 ≤ r3 * z1 * z2 := by gcongr
  norm_num at t3
  linarith

open Stafford in
/-- C38 fails without its condition: numpy's closeness test is relative to its second argument, so in
the band `1e-8 + 1e-5 f < g - f <= 1e-8 + 1e-5 g` it holds one way only, and then the covariance of
`[f, g]` (default sigmas, any magnitude) is larger at (0, 1) than at (1, 0). -/
theorem C38_asymmetric (f g mag : ℝ) (h0 : 0.01 ≤ f) (h1 : f ≤ 10) (hlo : 1e-8 + 1e-5 * f < g - f)
    (hhi : g - f ≤ 1e-8 + 1e-5 * g) :
    ∃ c, cov [f, g] none none none mag = pure c ∧ (at' c 1 0).val < (at' c 0 1).val := by
  have hf : 0 < f := lt_of_lt_of_le (by norm_num) h0
  have hfg : f ≤ g := by linarith [show (0 : ℝ) ≤ 1e-8 + 1e-5 * f by positivity]
  have n1 : IsClose f g := by
    unfold IsClose
    rw [abs_of_nonpos (by linarith), abs_of_pos (by linarith)]; linarith
  have n2 : ¬ IsClose g f := by
    unfold IsClose
    rw [abs_of_nonneg (by linarith), abs_of_pos (by linarith)]; linarith
  obtain ⟨c, hc, hd⟩ := cov_default [f, g] mag
  refine ⟨c, hc, ?_⟩
  rw [hd 0 1 (by simp) (by simp), hd 1 0 (by simp) (by simp), covEntry_default (by simp) (by simp),
    covEntry_default (by simp) (by simp)]
  simp only [List.getD_cons_zero, List.getD_cons_succ]
  rw [betweenEvent_symm (F.ofReal g)]
  have wA : (withinEvent f g).val = 1 := by
    unfold withinEvent; rw [if_pos n1]; simp only [fsimp]; norm_num
  have wS : (betweenSite f g).val = 1 := by
    unfold betweenSite; rw [if_pos n1]; simp only [fsimp]; norm_num
  have vS : (betweenSite g f).val < 1 := by
    unfold betweenSite; rw [if_neg n2, nugget_symm]
    exact (site_nonneg hf (by linarith) hfg).2
  have vA : (withinEvent g f).val < 1 := by
    unfold withinEvent; rw [if_neg n2, nugget_symm, nugget_val hfg, etaA_val, gammaA_val]
    obtain ⟨e1, e2⟩ := etaAR_range f
    obtain ⟨g1, g2⟩ := gammaAR_range hf h1
    have hL := log_ge_zero hf hfg
    have hr : g / f ≤ 1.00002 := by
      rw [div_le_iff₀ hf]; norm_num at hhi h0 ⊢; linarith
    have hL' : Real.log (g / f) ≤ 0.00002 := by
      have := Real.log_le_sub_one_of_pos (div_pos (lt_of_lt_of_le hf hfg) hf)
      linarith
    obtain ⟨m1, -, m2⟩ := nug_range hL
    have hE : Real.exp (gammaAR f * Real.log (g / f)) ≤ Real.exp 1 :=
      Real.exp_le_exp.2 (by nlinarith)
    have hE1 : Real.exp 1 ≤ 3 := by
      have h2 := le_expHi (q := 1) (by norm_num) (by norm_num)
      have h3 : expHi 1 ≤ 3 := by norm_num [expHi, taylor]
      have h4 := (Rat.cast_le (K := ℝ)).2 h3
      push_cast at h2 h4; linarith
    have hE0 := Real.exp_pos (gammaAR f * Real.log (g / f))
    calc (1 - etaAR f) * Real.exp (gammaAR f * Real.log (g / f)) * (1 - Real.exp (-50.0 * Real.log (g / f)))
        ≤ 1 * 3 * 0.001 := by gcongr <;> linarith
      _ < 1 := by norm_num
  rw [wA, wS]
  obtain ⟨a1, -⟩ := sigmaE_range (f := f)
  obtain ⟨b1, -⟩ := sigmaE_range (f := g)
  obtain ⟨a3, -⟩ := sigmaS_range (f := f)
  obtain ⟨b3, -⟩ := sigmaS_range (f := g)
  have a5 := sigmaA_lo (f := f)
  have b5 := sigmaA_lo (f := g)
  have p1 : 0 < (sigmaS (F.ofReal f)).val * (sigmaS (F.ofReal g)).val := mul_pos (by linarith) (by linarith)
  have p2 : 0 < (sigmaA (F.ofReal f)).val * (sigmaA (F.ofReal g)).val := mul_pos (by linarith) (by linarith)
  nlinarith [mul_lt_mul_of_pos_right vS p1, mul_lt_mul_of_pos_right vA p2]

example : ∃ f g : ℝ, 0.01 ≤ f ∧ f ≤ 10 ∧ 1e-8 + 1e-5 * f < g - f ∧ g - f ≤ 1e-8 + 1e-5 * g :=
  ⟨1, 1.00001001005, by norm_num, by norm_num, by norm_num, by norm_num⟩

open Stafford in
/-- C76, `between_event_correlation`: for positive frequencies whose smaller one is at most 1000 Hz and
a magnitude up to 9 the value is defined and in (0, 1]; it is 1 exactly when the two frequencies are
equal, and does not depend on their order. -/
theorem C76_event (f g mag : ℝ) (hf : 0 < f) (hfg : f ≤ g) (h : f ≤ 1000) (hm : mag ≤ 9) :
    betweenEvent (F.ofReal f) (F.ofReal g) (F.ofReal mag) = betweenEvent (F.ofReal g) (F.ofReal f) (F.ofReal mag) ∧
    (betweenEvent (F.ofReal f) (F.ofReal g) (F.ofReal mag)).ok ∧
    0 < (betweenEvent (F.ofReal f) (F.ofReal g) (F.ofReal mag)).val ∧
    (betweenEvent (F.ofReal f) (F.ofReal g) (F.ofReal mag)).val ≤ 1 ∧
    ((betweenEvent (F.ofReal f) (F.ofReal g) (F.ofReal mag)).val = 1 ↔ f = g) := by
  refine ⟨betweenEvent_symm _ _ _, ?_⟩
  have hc : (0 : ℝ) < (10 : ℝ) ^ (2.181 - 0.496 * mag) := Real.rpow_pos_of_pos (by norm_num) _
  have hc' : (1 / 1000 : ℝ) ≤ (10 : ℝ) ^ (2.181 - 0.496 * mag) := by
    calc (1 / 1000 : ℝ) = (10 : ℝ) ^ (-3 : ℝ) := by
          rw [show (-3 : ℝ) = ((-3 : ℤ) : ℝ) by norm_num, Real.rpow_intCast]; norm_num
      _ ≤ _ := Real.rpow_le_rpow_of_exponent_le (by norm_num) (by norm_num at hm ⊢; linarith)
  have hmin : F.min (F.ofReal f) (F.ofReal g) = F.ofReal f := by
    ext <;> simp only [fsimp, min_eq_left hfg]
  have hmax : F.max (F.ofReal f) (F.ofReal g) = F.ofReal g := by
    ext <;> simp only [fsimp, max_eq_right hfg]
  have hg : 0 < g := by linarith
  set c := (10 : ℝ) ^ (2.181 - 0.496 * mag) with hcd
  have ha : 0 < f / c := div_pos hf hc
  have hb : 0 < g / c := div_pos hg hc
  have hx : 0 < f / c / c := div_pos ha hc
  have hx' : f / c / c ≤ 1e9 := by
    rw [div_le_iff₀ hc, div_le_iff₀ hc]
    nlinarith
  have hba : g / c / (f / c) = g / f := by field_simp
  have hL := log_ge_zero hf hfg
  have hv : (betweenEvent (F.ofReal f) (F.ofReal g) (F.ofReal mag)).val =
      Real.exp ((-0.4690 + sigR (f / c / c) 0.1275 0.7793 3.0324 + 0.0106 * Real.log (f / c / c / 0.7793)) * (f / c) *
        Real.log (g / f)) := by
    simp only [betweenEvent, hmin, hmax]
    simp only [gammaE, cornerFrequency, fsimp, sigmoid_val, ← hcd, hba]
  have hneg : -0.4690 + sigR (f / c / c) 0.1275 0.7793 3.0324 + 0.0106 * Real.log (f / c / c / 0.7793) < 0 := by
    obtain ⟨s1, s2⟩ := sigR_pos (f := f / c / c) (a0 := 0.1275) (a1 := 0.7793) (a2 := 3.0324) (by norm_num)
    have : Real.log (f / c / c / 0.7793) ≤ 24 := by
      have h1 : Real.log (f / c / c / 0.7793) ≤ Real.log (2000 ^ 3) := Real.log_le_log (by positivity) (by
        rw [div_le_iff₀ (by norm_num)]; norm_num at hx' ⊢; linarith)
      have h2 := log_le_of (x := 2000) (q := 7.7) (by norm_num) (by norm_num) (by norm_num [expLo, taylor])
      rw [Real.log_pow] at h1
      push_cast at h1 h2; linarith
    linarith
  refine ⟨?_, ?_, ?_, ?_⟩
  · simp only [betweenEvent, hmin, hmax]
    have hs : (sigmoid (F.ofReal f / cornerFrequency (F.ofReal mag) / cornerFrequency (F.ofReal mag))
        0.1275 0.7793 3.0324).ok := by
      apply sigmoid_ok <;> simp only [cornerFrequency, fsimp, ← hcd]
      · norm_num; exact hc.ne'
      · exact hx
      · norm_num
    simp only [gammaE, fsimp, hs]
    simp only [cornerFrequency, fsimp, ← hcd, hc.ne', ha.ne', hba]
    norm_num
    exact ⟨⟨⟨hc.ne', hx⟩, hc.ne'⟩, ⟨hc.ne', hf.ne', hc.ne'⟩, div_pos hg hf⟩
  · rw [hv]; exact Real.exp_pos _
  · rw [hv]; apply Real.exp_le_one_iff.2
    have := mul_neg_of_neg_of_pos hneg ha
    nlinarith
  · rw [hv, Real.exp_eq_one_iff, mul_eq_zero, mul_eq_zero]
    constructor
    · rintro ((h1 | h1) | h1)
      · exact absurd h1 hneg.ne
      · exact absurd h1 ha.ne'
      · have : g / f = 1 := Real.eq_one_of_pos_of_log_eq_zero (div_pos hg hf) h1
        field_simp at this; linarith
    · rintro rfl
      right; rw [div_self hf.ne', Real.log_one]

open Stafford Classical in
/-- C76, `between_site_correlation`: for positive frequencies whose smaller one is at most 74 Hz the
value is defined and in [0, 1], whatever the order; it is below 1 unless the frequencies are close. -/
theorem C76_site (f g : ℝ) (hf : 0 < f) (hfg : f ≤ g) (h : f ≤ 74) :
    (betweenSite f g).ok ∧ (betweenSite g f).ok ∧
    0 ≤ (betweenSite f g).val ∧ (betweenSite f g).val ≤ 1 ∧
    0 ≤ (betweenSite g f).val ∧ (betweenSite g f).val ≤ 1 ∧
    (1e-8 + 1e-5 * g < g - f → (betweenSite f g).val < 1 ∧ betweenSite g f = betweenSite f g) := by
  have hg : 0 < g := by linarith
  have h1 : (1.0 : F).ok ∧ (1.0 : F).val = 1 := by
    simp only [fsimp]; norm_num
  have hn := nugget_ok hf hfg (etaS_ok f) (gammaS_ok hf)
  obtain ⟨r1, r2⟩ := site_nonneg hf h hfg
  have key : ∀ p : Prop, ∀ _ : Decidable p, (if p then (1.0 : F) else nuggetCorrelation etaS gammaS (F.ofReal f)
      (F.ofReal g)).ok ∧ 0 ≤ (if p then (1.0 : F) else nuggetCorrelation etaS gammaS (F.ofReal f)
      (F.ofReal g)).val ∧ (if p then (1.0 : F) else nuggetCorrelation etaS gammaS (F.ofReal f)
      (F.ofReal g)).val ≤ 1 := by
    intro p _
    split
    · exact ⟨h1.1, by rw [h1.2]; norm_num, h1.2.le⟩
    · exact ⟨hn, r1, r2.le⟩
  have e : betweenSite g f = if IsClose g f then (1.0 : F) else nuggetCorrelation etaS gammaS (F.ofReal f)
      (F.ofReal g) := by
    unfold betweenSite; rw [nugget_symm]
  refine ⟨(key _ _).1, by rw [e]; exact (key _ _).1, (key _ _).2.1, (key _ _).2.2, by rw [e]; exact (key _ _).2.1,
    by rw [e]; exact (key _ _).2.2, fun hb => ?_⟩
  have n1 : ¬ IsClose f g := by
    unfold IsClose
    rw [abs_of_nonpos (by linarith), abs_of_pos (by linarith)]; linarith
  have n2 : ¬ IsClose g f := by
    unfold IsClose
    rw [abs_of_nonneg (by linarith), abs_of_pos (by linarith)]; nlinarith
  refine ⟨?_, betweenSite_symm ⟨fun h => absurd h n2, fun h => absurd h n1⟩⟩
  unfold betweenSite; rw [if_neg n1]; exact r2

example : ∃ f g mag : ℝ, 0 < f ∧ f ≤ g ∧ f ≤ 74 ∧ mag ≤ 9 ∧ 1e-8 + 1e-5 * g < g - f ∧ 1e-6 ≤ f ∧ f ≤ 1 ∧ 10 * f ≤ g :=
  ⟨1, 20, 6, by norm_num, by norm_num, by norm_num, by norm_num, by norm_num, by norm_num, by norm_num, by norm_num⟩
