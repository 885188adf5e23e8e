import Verif.Models.BJ08
import Verif.Bounds
import Verif.Compute
import Mathlib.Analysis.SpecialFunctions.Trigonometric.Bounds
import Mathlib.Analysis.Real.Pi.Bounds

/-! # C34, C35: the correlation model and the conditional mean spectrum of Baker and Jayaram (2008) -/

open Bounds

set_option linter.unusedSimpArgs false

namespace BJ08

theorem map_get {α β : Type} {l : List α} {i : ℕ} {p : α} (h : l[i]? = some p) (f : α → β) :
    (l.map f)[i]? = some (f p) := by rw [List.getElem?_map, h, Option.map_some]

/-! ### The formulas on real numbers -/

/-- the argument of the sine of `c_1` -/
noncomputable def argR (a b : ℝ) : ℝ := 0.366 * Real.log (b / max a 0.109)

noncomputable def c1R (a b : ℝ) : ℝ := 1 - Real.sin (argR a b)

noncomputable def kR (b : ℝ) : ℝ := 1 - 1 / (1 + Real.exp (100 * min b 0.2 - 5))

noncomputable def c2R (a b : ℝ) : ℝ := 1 - 0.105 * kR b * (b - a) / (b - 0.0099)

noncomputable def c4R (a b : ℝ) : ℝ :=
  c1R a b + 0.5 * (Real.sqrt (c1R a b) - c1R a b) * (1 + Real.cos (Real.pi * a / 0.109))

theorem c1_val (a b : ℝ) : (c1 (F.ofReal a) (F.ofReal b)).val = c1R a b := by
  simp only [c1, c1R, argR, fsimp, Real.cos_pi_div_two_sub]

theorem c1_ok {a b : ℝ} (h : 0 < b) : (c1 (F.ofReal a) (F.ofReal b)).ok := by
  have h1 : (0 : ℝ) < max a 0.109 := lt_of_lt_of_le (by norm_num) (le_max_right _ _)
  simp only [c1, fsimp]
  exact ⟨by norm_num, h1.ne', div_pos h h1⟩

theorem c2_val {a b : ℝ} (h : b < 0.2) : (c2 (F.ofReal a) (F.ofReal b)).val = c2R a b := by
  simp only [c2, c2R, kR, fsimp, if_pos h]

theorem c2_ok {a b : ℝ} (h : b < 0.2) (h' : b ≠ 0.0099) : (c2 (F.ofReal a) (F.ofReal b)).ok := by
  have : (0 : ℝ) < 1 + Real.exp (100 * min b 0.2 - 5) := by positivity
  simp only [c2, fsimp, if_pos h]
  exact ⟨this.ne', sub_ne_zero.2 h'⟩

theorem c1R_nonneg (a b : ℝ) : 0 ≤ c1R a b := by
  have := Real.sin_le_one (argR a b)
  unfold c1R; linarith

theorem c4_val {a b : ℝ} (h : 0.109 ≤ b) : (c4 (F.ofReal a) (F.ofReal b)).val = c4R a b := by
  simp only [c4, c3, c4R, fsimp, if_neg (not_lt.2 h), c1_val]

theorem c4_ok {a b : ℝ} (h : 0.109 ≤ b) : (c4 (F.ofReal a) (F.ofReal b)).ok := by
  have hb : (0 : ℝ) < b := lt_of_lt_of_le (by norm_num) h
  have k := c1_ok (a := a) hb
  simp only [c4, c3, fsimp, if_neg (not_lt.2 h), c1_val, k, c1R_nonneg, true_and, and_true]
  norm_num

/-- the value of the selection -/
noncomputable def selR (a b : ℝ) : ℝ :=
  if b < 0.109 then c2R a b
  else if 0.109 < a then c1R a b
  else if b < 0.2 then min (c2R a b) (c4R a b) else c4R a b

theorem select_val (a b : ℝ) : (select (F.ofReal a) (F.ofReal b)).val = selR a b := by
  simp only [select, selR, fsimp]
  split_ifs with h1 h2 h3
  · exact c2_val (by norm_num at *; linarith)
  · exact c1_val _ _
  · rw [c2_val h3, c4_val (not_lt.1 h1)]
  · exact c4_val (not_lt.1 h1)

theorem select_ok {a b : ℝ} (h : b ≠ 0.0099) : (select (F.ofReal a) (F.ofReal b)).ok := by
  simp only [select, fsimp]
  split_ifs with h1 h2 h3
  · exact c2_ok (by norm_num at *; linarith) h
  · exact c1_ok (lt_of_lt_of_le (by norm_num) (not_lt.1 h1))
  · exact ⟨c2_ok h3 h, c4_ok (not_lt.1 h1)⟩
  · exact c4_ok (not_lt.1 h1)

theorem correl_val (T c : ℝ) : (correl T c).val = selR (min T c) (max T c) := select_val _ _

theorem correl_ok {T c : ℝ} (h : max T c ≠ 0.0099) : (correl T c).ok := by
  have e1 : F.min (F.ofReal T) (F.ofReal c) = F.ofReal (min T c) := by ext <;> simp only [fsimp]
  have e2 : F.max (F.ofReal T) (F.ofReal c) = F.ofReal (max T c) := by ext <;> simp only [fsimp]
  unfold correl
  rw [e1, e2]
  exact select_ok h

theorem correl_symm (T c : ℝ) : correl T c = correl c T := by
  have e1 : F.min (F.ofReal T) (F.ofReal c) = F.min (F.ofReal c) (F.ofReal T) := by
    ext <;> simp only [fsimp, min_comm]
  have e2 : F.max (F.ofReal T) (F.ofReal c) = F.max (F.ofReal c) (F.ofReal T) := by
    ext <;> simp only [fsimp, max_comm]
  unfold correl
  rw [e1, e2]

/-! ### Bounds -/

theorem kR_pos (b : ℝ) : 0 < kR b ∧ kR b < 1 := by
  have e : 0 < Real.exp (100 * min b 0.2 - 5) := Real.exp_pos _
  have : 1 / (1 + Real.exp (100 * min b 0.2 - 5)) < 1 := by
    rw [div_lt_one (by linarith)]; linarith
  have : 0 < 1 / (1 + Real.exp (100 * min b 0.2 - 5)) := by positivity
  unfold kR
  constructor <;> linarith

theorem c2R_bounds {a b : ℝ} (ha : 0.01 ≤ a) (hab : a ≤ b) :
    0.895 ≤ c2R a b ∧ c2R a b ≤ 1 ∧ (a < b → c2R a b < 1) := by
  obtain ⟨k0, k1⟩ := kR_pos b
  have hd : 0 < b - 0.0099 := by norm_num at *; linarith
  have e : 0.105 * kR b * (b - a) / (b - 0.0099) = 0.105 * kR b * ((b - a) / (b - 0.0099)) := by ring
  have q0 : 0 ≤ (b - a) / (b - 0.0099) := div_nonneg (by linarith) hd.le
  have q1 : (b - a) / (b - 0.0099) ≤ 1 := by rw [div_le_one hd]; norm_num at *; linarith
  have r1 : 0.105 * kR b * ((b - a) / (b - 0.0099)) ≤ 0.105 := by
    calc 0.105 * kR b * ((b - a) / (b - 0.0099)) ≤ 0.105 * 1 * 1 := by gcongr
      _ = 0.105 := by norm_num
  have r0 : 0 ≤ 0.105 * kR b * ((b - a) / (b - 0.0099)) := by positivity
  unfold c2R
  rw [e]
  refine ⟨by norm_num at *; linarith, by linarith, fun h => ?_⟩
  have : 0 < (b - a) / (b - 0.0099) := div_pos (by linarith) hd
  have : 0 < 0.105 * kR b * ((b - a) / (b - 0.0099)) := by positivity
  linarith

/-- `c_4` lies between `c_1` and its square root -/
theorem c4R_bounds {a b : ℝ} (h : c1R a b ≤ 1) :
    c1R a b ≤ c4R a b ∧ c4R a b ≤ Real.sqrt (c1R a b) := by
  have h0 := c1R_nonneg a b
  have hs : c1R a b ≤ Real.sqrt (c1R a b) := by
    apply Real.le_sqrt_of_sq_le
    nlinarith
  have l := Real.neg_one_le_cos (Real.pi * a / 0.109)
  have u := Real.cos_le_one (Real.pi * a / 0.109)
  unfold c4R
  set C := Real.cos (Real.pi * a / 0.109)
  norm_num
  constructor <;> nlinarith

theorem arg_pos {a b : ℝ} (ha : a ≤ b) (hb : 0.109 ≤ b) : 0 ≤ argR a b := by
  have h1 : (0 : ℝ) < max a 0.109 := lt_of_lt_of_le (by norm_num) (le_max_right _ _)
  have : 1 ≤ b / max a 0.109 := by rw [le_div_iff₀ h1, one_mul]; exact max_le ha hb
  unfold argR
  exact mul_nonneg (by norm_num) (Real.log_nonneg this)

theorem arg_lt {a b : ℝ} (hb : 0.109 ≤ b) (hb' : b ≤ 500) : argR a b < Real.pi := by
  have h1 : (0.109 : ℝ) ≤ max a 0.109 := le_max_right _ _
  have h0 : (0 : ℝ) < max a 0.109 := lt_of_lt_of_le (by norm_num) h1
  have hbp : 0 < b := lt_of_lt_of_le (by norm_num) hb
  have : b / max a 0.109 ≤ 4600 := by
    rw [div_le_iff₀ h0]
    calc b ≤ 500 := hb'
      _ ≤ 4600 * 0.109 := by norm_num
      _ ≤ 4600 * max a 0.109 := by gcongr
  have hl : Real.log (b / max a 0.109) ≤ Real.log 4600 := Real.log_le_log (by positivity) this
  have h46 : Real.log 4600 ≤ 8.45 := by
    have : (4600 : ℝ) ≤ ((4600 : ℚ) : ℝ) := by norm_num
    have := log_le_of (x := 4600) (q := 8.45) (by norm_num) (by norm_num) (by
      have : (4600 : ℚ) ≤ expLo 8.45 := by decide +kernel
      exact_mod_cast this)
    push_cast at this; norm_num at this ⊢; linarith
  have hpi := Real.pi_gt_d2
  unfold argR
  norm_num at *; linarith

theorem c1R_le {a b : ℝ} (ha : a ≤ b) (hb : 0.109 ≤ b) (hb' : b ≤ 500) : c1R a b ≤ 1 := by
  have := Real.sin_nonneg_of_nonneg_of_le_pi (arg_pos ha hb) (arg_lt (a := a) hb hb').le
  unfold c1R; linarith

theorem c1R_lt {a b : ℝ} (ha : a < b) (hb : 0.109 < b) (hb' : b ≤ 500) : c1R a b < 1 := by
  have h1 : (0 : ℝ) < max a 0.109 := lt_of_lt_of_le (by norm_num) (le_max_right _ _)
  have : 1 < b / max a 0.109 := by rw [lt_div_iff₀ h1, one_mul]; exact max_lt ha hb
  have hp : 0 < argR a b := mul_pos (by norm_num) (Real.log_pos this)
  have := Real.sin_pos_of_pos_of_lt_pi hp (arg_lt (a := a) hb.le hb')
  unfold c1R; linarith

theorem selR_bounds {a b : ℝ} (ha : 0.01 ≤ a) (hab : a ≤ b) (hb : b ≤ 500) :
    0 ≤ selR a b ∧ selR a b ≤ 1 ∧ (a < b → selR a b < 1) := by
  obtain ⟨p0, p1, p2⟩ := c2R_bounds ha hab
  have p0' : 0 ≤ c2R a b := le_trans (by norm_num) p0
  unfold selR
  split_ifs with h1 h2 h3
  · exact ⟨p0', p1, p2⟩
  · exact ⟨c1R_nonneg _ _, c1R_le hab (not_lt.1 h1) hb,
      fun h => c1R_lt h (h2.trans h) hb⟩
  · have q := c1R_le hab (not_lt.1 h1) hb
    obtain ⟨r1, r2⟩ := c4R_bounds q
    exact ⟨le_min p0' ((c1R_nonneg _ _).trans r1), (min_le_left _ _).trans p1,
      fun h => lt_of_le_of_lt (min_le_left _ _) (p2 h)⟩
  · have q := c1R_le hab (not_lt.1 h1) hb
    obtain ⟨r1, r2⟩ := c4R_bounds q
    have hs : Real.sqrt (c1R a b) ≤ 1 := Real.sqrt_le_one.2 q
    refine ⟨(c1R_nonneg _ _).trans r1, r2.trans hs, fun h => lt_of_le_of_lt r2 ?_⟩
    have := c1R_lt h (lt_of_lt_of_le (by norm_num) (not_lt.1 h3)) hb
    rw [Real.sqrt_lt' one_pos]; simpa using this

theorem selR_diag (T : ℝ) : selR T T = 1 := by
  have e2 : c2R T T = 1 := by simp [c2R]
  have e1 : 0.109 ≤ T → c1R T T = 1 := fun h => by
    have hp : (0 : ℝ) < T := lt_of_lt_of_le (by norm_num) h
    simp [c1R, argR, max_eq_left h, div_self hp.ne']
  have e4 : 0.109 ≤ T → c4R T T = 1 := fun h => by simp [c4R, e1 h]
  unfold selR
  split_ifs with h1 h2 h3
  · exact e2
  · exact e1 h2.le
  · rw [e2, e4 (not_lt.1 h1), min_self]
  · exact e4 (not_lt.1 h1)

/-! ### Continuity -/

theorem c1R_le_c2R {a b : ℝ} (ha : 0.109 ≤ a) (hab : a ≤ b) (hb : b ≤ 0.2) : c1R a b ≤ c2R a b := by
  have ha0 : (0 : ℝ) < a := lt_of_lt_of_le (by norm_num) ha
  have hb0 : 0 < b := ha0.trans_le hab
  have hd : (0 : ℝ) < b - 0.0099 := by norm_num at *; linarith
  have hx : 0 < b / a := by positivity
  have h1 : (b - a) / b ≤ Real.log (b / a) := by
    have := Real.one_sub_inv_le_log_of_pos hx
    rwa [inv_div, one_sub_div hb0.ne'] at this
  have h2 : Real.log (b / a) ≤ 1 := by
    have := Real.log_le_sub_one_of_pos hx
    have : b / a ≤ 2 := by rw [div_le_iff₀ ha0]; norm_num at *; linarith
    linarith
  have hq : 0 ≤ (b - a) / b := div_nonneg (by linarith) hb0.le
  have hpi3 := Real.pi_gt_three
  have hpi := Real.pi_lt_d2
  have hs := Real.mul_le_sin (x := 0.366 * Real.log (b / a)) (by norm_num; linarith) (by norm_num; linarith)
  have hp2 : (0.63 : ℝ) ≤ 2 / Real.pi := by
    rw [le_div_iff₀ Real.pi_pos]; norm_num at *; linarith
  have h3 : 0.63 * (0.366 * ((b - a) / b)) ≤ Real.sin (0.366 * Real.log (b / a)) := by
    refine le_trans ?_ hs
    gcongr
  have h4 : 0.105 * kR b * (b - a) / (b - 0.0099) ≤ 0.63 * (0.366 * ((b - a) / b)) := by
    have e1 : 0.105 * kR b * (b - a) / (b - 0.0099) ≤ 0.105 * 1 * (b - a) / (b - 0.0099) := by
      have := (kR_pos b).2.le
      have hba : 0 ≤ b - a := by linarith
      gcongr
    refine e1.trans ?_
    have e2 : 0.63 * (0.366 * ((b - a) / b)) = (b - a) * (0.63 * 0.366 / b) := by ring
    have e3 : 0.105 * 1 * (b - a) / (b - 0.0099) = (b - a) * (0.105 / (b - 0.0099)) := by ring
    rw [e2, e3]
    apply mul_le_mul_of_nonneg_left _ (by linarith)
    rw [div_le_div_iff₀ hd hb0]
    norm_num at *; linarith
  unfold c1R c2R argR
  rw [max_eq_left ha]
  linarith

noncomputable def c1S (a b : ℝ) : ℝ := 1 - Real.sin (0.366 * Real.log (max b 0.109 / max a 0.109))

noncomputable def c4S (a b : ℝ) : ℝ :=
  c1S a b + 0.5 * (Real.sqrt (c1S a b) - c1S a b) * (1 + Real.cos (Real.pi * min a 0.109 / 0.109))

noncomputable def selS (a b : ℝ) : ℝ := if 0.2 ≤ b then c4S a b else min (c2R a b) (c4S a b)

theorem c1S_eq {a b : ℝ} (h : 0.109 ≤ b) : c1S a b = c1R a b := by
  unfold c1S c1R argR; rw [max_eq_left h]

theorem c4S_hi {a b : ℝ} (ha : 0.109 ≤ a) (hab : a ≤ b) : c4S a b = c1R a b := by
  have : Real.cos (Real.pi * 0.109 / 0.109) = -1 := by
    rw [mul_div_assoc, div_self (by norm_num), mul_one, Real.cos_pi]
  unfold c4S
  rw [min_eq_right ha, this, c1S_eq (ha.trans hab)]
  ring

theorem c4S_mid {a b : ℝ} (ha : a ≤ 0.109) (hb : 0.109 ≤ b) : c4S a b = c4R a b := by
  unfold c4S c4R
  rw [min_eq_left ha, c1S_eq hb]

theorem c4S_lo {a b : ℝ} (hab : a ≤ b) (hb : b ≤ 0.109) : c4S a b = 1 := by
  have : c1S a b = 1 := by
    unfold c1S
    rw [max_eq_right hb, max_eq_right (hab.trans hb), div_self (by norm_num)]
    simp
  unfold c4S
  rw [this]; simp

theorem selR_eq {a b : ℝ} (ha : 0.01 ≤ a) (hab : a ≤ b) : selR a b = selS a b := by
  obtain ⟨p0, p1, -⟩ := c2R_bounds ha hab
  unfold selR selS
  by_cases h1 : b < 0.109
  · rw [if_pos h1, if_neg (by norm_num at *; linarith), c4S_lo hab h1.le, min_eq_left p1]
  · rw [if_neg h1]
    have h1' := not_lt.1 h1
    by_cases h2 : 0.109 < a
    · rw [if_pos h2, c4S_hi h2.le hab]
      split_ifs with h3
      · rfl
      · exact (min_eq_right (c1R_le_c2R h2.le hab (not_le.1 h3).le)).symm
    · rw [if_neg h2, c4S_mid (not_lt.1 h2) h1']
      by_cases h3 : b < 0.2
      · rw [if_pos h3, if_neg (not_le.2 h3)]
      · rw [if_neg h3, if_pos (not_lt.1 h3)]

/-- at 0.2 s the branches meet -/
theorem meet {a : ℝ} (ha : 0.01 ≤ a) (h : a ≤ 0.2) : c4S a 0.2 ≤ c2R a 0.2 := by
  rcases le_total 0.109 a with h1 | h1
  · rw [c4S_hi h1 h]; exact c1R_le_c2R h1 h le_rfl
  · obtain ⟨p0, -⟩ := c2R_bounds ha h
    have hb : (0.109 : ℝ) ≤ 0.2 := by norm_num
    rw [c4S_mid h1 hb]
    have q := c1R_le h hb (by norm_num)
    refine (c4R_bounds q).2.trans (le_trans ?_ p0)
    rw [Real.sqrt_le_left (by norm_num)]
    have hy : argR a 0.2 = 0.366 * Real.log (0.2 / 0.109) := by unfold argR; rw [max_eq_right h1]
    have l1 : (0.6 : ℝ) ≤ Real.log (0.2 / 0.109) := by
      have := le_log_of (x := 0.2 / 0.109) (q := 0.6) (by norm_num) (by norm_num) (by norm_num) (by
        have : expHi 0.6 ≤ 200 / 109 := by decide +kernel
        have : ((expHi 0.6 : ℚ) : ℝ) ≤ ((200 / 109 : ℚ) : ℝ) := by exact_mod_cast this
        norm_num at this ⊢; linarith)
      push_cast at this; norm_num at this ⊢; linarith
    have l2 : Real.log (0.2 / 0.109) ≤ 0.9 := by
      have := Real.log_le_sub_one_of_pos (x := 0.2 / 0.109) (by norm_num)
      norm_num at this ⊢; linarith
    have y1 : 0.2196 ≤ argR a 0.2 := by rw [hy]; norm_num at *; linarith
    have y2 : argR a 0.2 ≤ 0.33 := by rw [hy]; norm_num at *; linarith
    have hs := Real.sin_gt_sub_cube (x := argR a 0.2) (lt_of_lt_of_le (by norm_num) y1)
    have hc : argR a 0.2 ^ 3 ≤ 0.33 ^ 2 * argR a 0.2 := by
      have : argR a 0.2 ^ 2 ≤ 0.33 ^ 2 := by
        apply pow_le_pow_left₀ (le_trans (by norm_num) y1) y2
      have y0 : 0 ≤ argR a 0.2 := le_trans (by norm_num) y1
      nlinarith
    unfold c1R
    norm_num at *; linarith

theorem selS_cont (c : ℝ) (hc : 0.01 ≤ c) :
    Continuous fun T => selS (min (max T 0.01) c) (max (max T 0.01) c) := by
  have hlow : ∀ T : ℝ, 0.01 ≤ min (max T 0.01) c := fun T => le_min (le_max_right _ _) hc
  have hle : ∀ T : ℝ, min (max T 0.01) c ≤ max (max T 0.01) c := fun T =>
    (min_le_left _ _).trans (le_max_left _ _)
  have ca : Continuous fun T : ℝ => min (max T 0.01) c := by fun_prop
  have cb : Continuous fun T : ℝ => max (max T 0.01) c := by fun_prop
  have h1 : Continuous fun T : ℝ => c1S (min (max T 0.01) c) (max (max T 0.01) c) := by
    have pos : ∀ x : ℝ, (0 : ℝ) < max x 0.109 := fun x => lt_of_lt_of_le (by norm_num) (le_max_right _ _)
    unfold c1S
    refine continuous_const.sub (Real.continuous_sin.comp (continuous_const.mul (Continuous.log ?_ ?_)))
    · exact (cb.max continuous_const).div (ca.max continuous_const) fun T => (pos _).ne'
    · intro T; exact (div_pos (pos _) (pos _)).ne'
  have h4 : Continuous fun T : ℝ => c4S (min (max T 0.01) c) (max (max T 0.01) c) := by
    unfold c4S
    exact h1.add ((continuous_const.mul (h1.sqrt.sub h1)).mul (continuous_const.add
      (Real.continuous_cos.comp ((continuous_const.mul (ca.min continuous_const)).div_const _))))
  have h2 : Continuous fun T : ℝ => c2R (min (max T 0.01) c) (max (max T 0.01) c) := by
    have hk : Continuous fun T : ℝ => kR (max (max T 0.01) c) := by
      unfold kR
      refine continuous_const.sub (continuous_const.div (continuous_const.add (Real.continuous_exp.comp
        ((continuous_const.mul (cb.min continuous_const)).sub continuous_const))) fun T => ?_)
      have := Real.exp_pos (100 * min (max (max T 0.01) c) 0.2 - 5)
      exact (by linarith : (0 : ℝ) < 1 + Real.exp _).ne'
    unfold c2R
    refine continuous_const.sub ((((continuous_const.mul hk).mul (cb.sub ca))).div
      (cb.sub continuous_const) fun T => ?_)
    have := (hlow T).trans (hle T)
    intro h0
    rw [sub_eq_zero.1 h0] at this
    norm_num at this
  unfold selS
  refine Continuous.if_le h4 (h2.min h4) continuous_const cb ?_
  intro T hT
  have hT' : max (max T 0.01) c = 0.2 := hT.symm
  rw [hT']
  exact (min_eq_right (meet (hlow T) (hT' ▸ hle T))).symm

end BJ08

/-! ### The properties -/

open BJ08 in
/-- BJ08: the correlation is symmetric: the entry for period `T` conditioned on `c` is the entry for
period `c` conditioned on `T`, for all real periods; there is one entry per period, in order. -/
theorem C34_symmetric (ps qs : List ℝ) (c T : ℝ) (i j : ℕ) (h : ps[i]? = some T) (h' : qs[j]? = some c) :
    (calcCorrels ps c)[i]? = (calcCorrels qs T)[j]? ∧ (calcCorrels ps c).length = ps.length ∧
      ∃ y, (calcCorrels ps c)[i]? = some y := by
  refine ⟨?_, by simp [calcCorrels], ?_⟩
  · simp only [calcCorrels, List.getElem?_map, h, h', Option.map_some, correl_symm T c]
  · exact ⟨_, map_get h _⟩

open BJ08 in
/-- BJ08: at the conditioning period the correlation is exactly one, for every real period other
than 0.0099 s (where the code divides zero by zero). -/
theorem C34_unit (ps : List ℝ) (T : ℝ) (i : ℕ) (h : ps[i]? = some T) (hT : T ≠ 0.0099) :
    ∃ y, (calcCorrels ps T)[i]? = some y ∧ y.ok ∧ y.val = 1 := by
  refine ⟨correl T T, map_get h _,
    correl_ok (by simpa using hT), ?_⟩
  rw [correl_val, min_self, max_self, selR_diag]

open BJ08 in
/-- BJ08: for all pairs of periods from 0.01 s to 500 s the correlation is defined and lies in
[0, 1], and it is one only when the periods coincide. -/
theorem C34_range (ps : List ℝ) (T c : ℝ) (i : ℕ) (h : ps[i]? = some T) (hT : 0.01 ≤ T) (hT' : T ≤ 500)
    (hc : 0.01 ≤ c) (hc' : c ≤ 500) :
    ∃ y, (calcCorrels ps c)[i]? = some y ∧ y.ok ∧ 0 ≤ y.val ∧ y.val ≤ 1 ∧ (y.val = 1 ↔ T = c) := by
  have hm : (0.01 : ℝ) ≤ min T c := le_min hT hc
  have hM : max T c ≤ 500 := max_le hT' hc'
  have hle : min T c ≤ max T c := (min_le_left _ _).trans (le_max_left _ _)
  obtain ⟨a, b, d⟩ := selR_bounds hm hle hM
  refine ⟨correl T c, map_get h _,
    correl_ok ?_, ?_⟩
  · have := hm.trans hle
    intro e
    rw [e] at this
    norm_num at this
  · rw [correl_val]
    refine ⟨a, b, fun e => ?_, ?_⟩
    · by_contra hne
      exact (d (min_lt_max.2 hne)).ne e
    · rintro rfl
      rw [min_self, max_self, selR_diag]

open BJ08 in
/-- BJ08: for a fixed conditioning period of at least 0.01 s the correlation is a continuous function
of the period from 0.01 s on: the branches at 0.109 s and 0.2 s meet. -/
theorem C34_continuous (c : ℝ) (hc : 0.01 ≤ c) :
    ∃ R : ℝ → ℝ, ContinuousOn R (Set.Ici 0.01) ∧ ∀ T, 0.01 ≤ T →
      ∃ y, calcCorrels [T] c = [y] ∧ y.ok ∧ y.val = R T := by
  refine ⟨fun T => selS (min (max T 0.01) c) (max (max T 0.01) c), (selS_cont c hc).continuousOn, ?_⟩
  intro T hT
  refine ⟨correl T c, rfl, correl_ok ?_, ?_⟩
  · intro e
    have : (0.01 : ℝ) ≤ max T c := hT.trans (le_max_left _ _)
    rw [e] at this; norm_num at this
  · rw [correl_val]
    simp only [max_eq_left hT]
    exact selR_eq (le_min hT hc) ((min_le_left _ _).trans (le_max_left _ _))

open BJ08 in
/-- BJ08: above 0.109 s the correlation depends on the ratio of the periods only; it strictly
decreases with the ratio up to 73, but strictly increases again from a ratio of 73.2 to one of 5000:
two periods far apart are given a larger correlation than two that are nearer. -/
theorem C34_shape (c T T' : ℝ) (hc : 0.109 < c) (hT : c ≤ T) (hTT : T < T') :
    ∃ y y', calcCorrels [T] c = [y] ∧ calcCorrels [T'] c = [y'] ∧ y.ok ∧ y'.ok ∧
      (T' ≤ 73 * c → y'.val < y.val) ∧ (73.2 * c ≤ T → T' ≤ 5000 * c → y.val < y'.val) ∧
      (∀ d z, 0.109 < d → calcCorrels [T * d / c] d = [z] → z.val = y.val) := by
  have hc0 : (0 : ℝ) < c := lt_trans (by norm_num) hc
  have key : ∀ {d S : ℝ}, 0.109 < d → d ≤ S → (correl S d).val = 1 - Real.sin (0.366 * Real.log (S / d)) := by
    intro d S hd hS
    rw [correl_val, min_eq_right hS, max_eq_left hS]
    unfold selR
    rw [if_neg (not_lt.2 (hd.le.trans hS)), if_pos hd]
    unfold c1R argR
    rw [max_eq_left hd.le]
  have ok : ∀ {d S : ℝ}, 0.109 < d → d ≤ S → (correl S d).ok := by
    intro d S hd hS
    refine correl_ok ?_
    rw [max_eq_left hS]
    intro e
    rw [e] at hS
    norm_num at *; linarith
  refine ⟨correl T c, correl T' c, rfl, rfl, ok hc hT, ok hc (hT.trans hTT.le), ?_, ?_, ?_⟩
  all_goals have hT0 : 0 < T := hc0.trans_le hT
  all_goals have h1 : 1 ≤ T / c := by rw [le_div_iff₀ hc0]; linarith
  all_goals have h2 : T / c < T' / c := div_lt_div_of_pos_right hTT hc0
  all_goals have hl0 : 0 ≤ Real.log (T / c) := Real.log_nonneg h1
  all_goals have hl : Real.log (T / c) < Real.log (T' / c) := Real.log_lt_log (by linarith) h2
  all_goals have hp1 := Real.pi_gt_d4
  all_goals have hp2 := Real.pi_lt_d4
  · intro h
    rw [key hc hT, key hc (hT.trans hTT.le)]
    have hu : Real.log (T' / c) ≤ 4.2912 := by
      have h3 : T' / c ≤ 73 := by rw [div_le_iff₀ hc0]; exact h
      have := Real.log_le_log (by linarith) h3
      have h73 := log_le_of (x := 73) (q := 4.2912) (by norm_num) (by norm_num) (by
        have : (73 : ℚ) ≤ expLo 4.2912 := by decide +kernel
        exact_mod_cast this)
      push_cast at h73; norm_num at h73 ⊢; linarith
    have := Real.strictMonoOn_sin
      (show 0.366 * Real.log (T / c) ∈ Set.Icc (-(Real.pi / 2)) (Real.pi / 2) by
        constructor <;> norm_num at * <;> linarith)
      (show 0.366 * Real.log (T' / c) ∈ Set.Icc (-(Real.pi / 2)) (Real.pi / 2) by
        constructor <;> norm_num at * <;> linarith)
      (mul_lt_mul_of_pos_left hl (by norm_num))
    linarith
  · intro hlo hhi
    rw [key hc hT, key hc (hT.trans hTT.le)]
    have hg : 4.2921 ≤ Real.log (T / c) := by
      have h3 : 73.2 ≤ T / c := by rw [le_div_iff₀ hc0]; exact hlo
      have := Real.log_le_log (by norm_num) h3
      have h73 := le_log_of (x := 73.2) (q := 4.2921) (by norm_num) (by norm_num) (by norm_num) (by
        have : expHi 4.2921 ≤ 73.2 := by decide +kernel
        have : ((expHi 4.2921 : ℚ) : ℝ) ≤ ((73.2 : ℚ) : ℝ) := by exact_mod_cast this
        norm_num at this ⊢; linarith)
      push_cast at h73; norm_num at h73 this ⊢; linarith
    have hu : Real.log (T' / c) ≤ 8.53 := by
      have h3 : T' / c ≤ 5000 := by rw [div_le_iff₀ hc0]; exact hhi
      have := Real.log_le_log (by linarith) h3
      have h73 := log_le_of (x := 5000) (q := 8.53) (by norm_num) (by norm_num) (by
        have : (5000 : ℚ) ≤ expLo 8.53 := by decide +kernel
        exact_mod_cast this)
      push_cast at h73; norm_num at h73 ⊢; linarith
    have e : ∀ x : ℝ, Real.sin x = Real.sin (Real.pi - x) := fun x => (Real.sin_pi_sub x).symm
    rw [e (0.366 * Real.log (T / c)), e (0.366 * Real.log (T' / c))]
    have := Real.strictMonoOn_sin
      (show Real.pi - 0.366 * Real.log (T' / c) ∈ Set.Icc (-(Real.pi / 2)) (Real.pi / 2) by
        constructor <;> norm_num at * <;> linarith)
      (show Real.pi - 0.366 * Real.log (T / c) ∈ Set.Icc (-(Real.pi / 2)) (Real.pi / 2) by
        constructor <;> norm_num at * <;> linarith)
      (by have := mul_lt_mul_of_pos_left hl (show (0 : ℝ) < 0.366 by norm_num); linarith)
    linarith
  · intro d z hd hz
    have hd0 : (0 : ℝ) < d := lt_trans (by norm_num) hd
    have hz' : z = correl (T * d / c) d := by
      simpa [calcCorrels] using hz.symm
    have hS : d ≤ T * d / c := by
      rw [le_div_iff₀ hc0]; nlinarith
    rw [hz', key hd hS, key hc hT]
    congr 4
    field_simp

example : ∃ ps : List ℝ, ps[1]? = some (0.5 : ℝ) ∧ (0.5 : ℝ) ≠ 0.0099 := ⟨[0.1, 0.5], by simp, by norm_num⟩

example : ∃ c T T' : ℝ, 0.109 < c ∧ c ≤ T ∧ T < T' ∧ 73.2 * c ≤ T ∧ T' ≤ 5000 * c :=
  ⟨0.11, 9, 10, by norm_num⟩

open BJ08 in
/-- the spectrum a caller passes: increasing periods, positive standard deviations -/
structure BJ08.Spectrum (l : List Point) : Prop where
  sorted : l.Pairwise fun p q => p.period < q.period
  std : ∀ p ∈ l, 0 < p.lnStd

namespace BJ08

theorem calcCms_of {l : List Point} (h : l ≠ []) (c x : ℝ) :
    calcCms l c x = pure (l.map fun p =>
      (F.ofReal p.lnPsa + F.ofReal p.lnStd * correl p.period c * epsilon l c x,
       F.sqrt (F.ofReal p.lnStd ^ 2 * (1 - correl p.period c ^ 2)))) := by
  unfold calcCms
  rw [if_neg (by simpa using h)]

theorem nodes_sorted {l : List Point} (h : Spectrum l) (f : Point → F) :
    Interp.Sorted (l.map fun p => (p.period, f p)) := by
  unfold Interp.Sorted
  rw [List.pairwise_map]
  exact h.sorted

theorem interp_ok {l : List Point} (h : Spectrum l) (hl : l ≠ []) (f : Point → ℝ) (c : ℝ) :
    (npInterp (l.map fun p => (p.period, F.ofReal (f p))) c).ok :=
  Interp.ok_of _ _ (nodes_sorted h _) (by simpa using hl) (by
    intro p hp
    obtain ⟨q, -, rfl⟩ := List.mem_map.1 hp
    trivial)

theorem interp_val {l : List Point} (f : Point → ℝ) (c : ℝ) :
    (npInterp (l.map fun p => (p.period, F.ofReal (f p))) c).val =
      interpR (l.map fun p => (p.period, f p)) c := by
  rw [Interp.val_eq, List.map_map]
  rfl

theorem interp_node {l : List Point} (h : Spectrum l) {p : Point} (hp : p ∈ l) (f : Point → ℝ) :
    (npInterp (l.map fun p => (p.period, F.ofReal (f p))) p.period).val = f p := by
  rw [interp_val]
  refine Interp.node _ (p.period, f p) ?_ (List.mem_map.2 ⟨p, hp, rfl⟩)
  unfold Interp.Sorted
  rw [List.pairwise_map]
  exact h.sorted

theorem interp_std_pos {l : List Point} (h : Spectrum l) (hl : l ≠ []) (c : ℝ) :
    0 < (npInterp (l.map fun p => (p.period, F.ofReal p.lnStd)) c).val := by
  rw [interp_val]
  refine Interp.pos_of ?_ (by simpa using hl) ?_
  · unfold Interp.Sorted
    rw [List.pairwise_map]
    exact h.sorted
  · intro p hp
    obtain ⟨q, hq, rfl⟩ := List.mem_map.1 hp
    exact h.std q hq

theorem epsilon_ok {l : List Point} (h : Spectrum l) (hl : l ≠ []) (c x : ℝ) : (epsilon l c x).ok := by
  have k1 := interp_ok h hl Point.lnPsa c
  have k2 := interp_ok h hl Point.lnStd c
  have k3 := (interp_std_pos h hl c).ne'
  simp only [epsilon, fsimp]
  exact ⟨k1, k2, k3⟩

/-- an example spectrum -/
def exSpectrum : List Point := [⟨0.1, -1, 0.6⟩, ⟨0.5, -1.5, 0.65⟩, ⟨1, -2, 0.7⟩]

theorem exSpectrum_ok : Spectrum exSpectrum := by
  constructor
  · simp [exSpectrum]; norm_num
  · simp [exSpectrum]; norm_num

end BJ08

open BJ08 in
/-- BJ08: conditioned on one of its own periods, the conditional mean spectrum has at that period
exactly the conditioning value, with standard deviation zero. -/
theorem C35_passes_through (l : List Point) (h : Spectrum l) (p : Point) (i : ℕ) (hi : l[i]? = some p)
    (hp : p.period ≠ 0.0099) (x : ℝ) :
    ∃ o, calcCms l p.period x = pure o ∧ o.length = l.length ∧
      ∃ m s : F, o[i]? = some (m, s) ∧ m.ok ∧ s.ok ∧ m.val = x ∧ s.val = 0 := by
  have hm : p ∈ l := List.mem_of_getElem? hi
  have hl : l ≠ [] := by rintro rfl; simp at hm
  refine ⟨_, calcCms_of hl _ _, by simp, _, _, map_get hi _,
    ?_, ?_, ?_, ?_⟩
  · have k1 := epsilon_ok h hl p.period x
    have k2 : (correl p.period p.period).ok := correl_ok (by simpa using hp)
    simp only [fsimp, k1, k2]
  · have k2 : (correl p.period p.period).ok := correl_ok (by simpa using hp)
    simp only [fsimp, k2, correl_val, min_self, max_self, selR_diag]
    norm_num
  · have e := (h.std p hm).ne'
    simp only [fsimp, epsilon, correl_val, min_self, max_self, selR_diag, interp_node h hm Point.lnPsa,
      interp_node h hm Point.lnStd]
    field_simp
    ring
  · simp only [fsimp, correl_val, min_self, max_self, selR_diag]
    norm_num

open BJ08 in
/-- BJ08: for periods from 0.01 s to 500 s and any conditioning period in that range (in the list or
not), every conditional value is defined; the conditional standard deviation is never larger than the
original one, never negative, and it vanishes only at the conditioning period. -/
theorem C35_never_widens (l : List Point) (h : Spectrum l) (hl : l ≠ [])
    (hr : ∀ p ∈ l, 0.01 ≤ p.period ∧ p.period ≤ 500) (c x : ℝ) (hc : 0.01 ≤ c) (hc' : c ≤ 500) :
    ∃ o, calcCms l c x = pure o ∧ o.length = l.length ∧
      ∀ (i : ℕ) (p : Point), l[i]? = some p → ∃ m s : F, o[i]? = some (m, s) ∧ m.ok ∧ s.ok ∧ 0 ≤ s.val ∧
        s.val ≤ p.lnStd ∧ (s.val = 0 ↔ p.period = c) := by
  refine ⟨_, calcCms_of hl _ _, by simp, fun i p hi =>
    ⟨_, _, map_get hi _, ?_⟩⟩
  have hm : p ∈ l := List.mem_of_getElem? hi
  obtain ⟨y, hy, k2, y0, y1, y2⟩ := C34_range [p.period] p.period c 0 rfl (hr p hm).1 (hr p hm).2 hc hc'
  have hy' : y = correl p.period c := by simpa [calcCorrels] using hy.symm
  rw [hy'] at k2 y0 y1 y2
  set ρ := correl p.period c
  have k1 := epsilon_ok h hl c x
  have hs := h.std p hm
  have hq : 0 ≤ 1 - ρ.val ^ 2 := by nlinarith
  refine ⟨by simp only [fsimp, k1, k2], ?_, ?_, ?_, ?_⟩
  · simp only [fsimp, k2, true_and]; positivity
  · simp only [fsimp]; positivity
  · simp only [fsimp]
    rw [Real.sqrt_le_left hs.le]
    nlinarith [sq_nonneg ρ.val, sq_nonneg p.lnStd, mul_nonneg (sq_nonneg ρ.val) (sq_nonneg p.lnStd)]
  · simp only [fsimp]
    rw [Real.sqrt_eq_zero (by positivity), ← y2]
    constructor
    · intro e
      rcases mul_eq_zero.1 e with e | e
      · exact absurd e (by positivity)
      · nlinarith
    · intro e; rw [e]; ring

open BJ08 in
/-- BJ08: conditioning on the value the spectrum already has (by interpolation) at the conditioning
period leaves the medians unchanged; a higher target raises and a lower target lowers every median
whose correlation is positive, and the standard deviations do not depend on the target. -/
theorem C35_target (l : List Point) (h : Spectrum l) (hl : l ≠ [])
    (hr : ∀ p ∈ l, 0.01 ≤ p.period ∧ p.period ≤ 500) (c : ℝ) (hc : 0.01 ≤ c) (hc' : c ≤ 500) :
    ∃ x₀ : ℝ, (∀ p ∈ l, p.period = c → x₀ = p.lnPsa) ∧ ∃ o₀, calcCms l c x₀ = pure o₀ ∧
      (∀ (i : ℕ) (p : Point), l[i]? = some p → ∃ m s : F, o₀[i]? = some (m, s) ∧ m.ok ∧ m.val = p.lnPsa) ∧
      ∀ x o, calcCms l c x = pure o → ∀ (i : ℕ) (p : Point), l[i]? = some p → ∃ m s m' s' : F,
        o₀[i]? = some (m, s) ∧ o[i]? = some (m', s') ∧ s' = s ∧
        (0 < (correl p.period c).val → ((x₀ < x ↔ m.val < m'.val) ∧ (x < x₀ ↔ m'.val < m.val))) := by
  have k2 : ∀ p ∈ l, (correl p.period c).ok := fun p hp => by
    obtain ⟨y, hy, k, -⟩ := C34_range [p.period] p.period c 0 rfl (hr p hp).1 (hr p hp).2 hc hc'
    have hy' : y = correl p.period c := by simpa [calcCorrels] using hy.symm
    exact hy' ▸ k
  have pos := interp_std_pos h hl c
  refine ⟨(npInterp (l.map fun p => (p.period, F.ofReal p.lnPsa)) c).val, ?_, _, calcCms_of hl _ _, ?_, ?_⟩
  · rintro p hp rfl
    exact interp_node h hp Point.lnPsa
  · intro i p hi
    have hm := List.mem_of_getElem? hi
    refine ⟨_, _, map_get hi _, ?_, ?_⟩
    · have k1 := epsilon_ok h hl c (npInterp (l.map fun p => (p.period, F.ofReal p.lnPsa)) c).val
      simp only [fsimp, k1, k2 p hm]
    · simp only [fsimp, epsilon, sub_self, zero_div, mul_zero, add_zero]
  · intro x o ho i p hi
    have hm := List.mem_of_getElem? hi
    rw [calcCms_of hl] at ho
    have ho' := congrArg Py.res ho
    simp only [Py.pure_res, Except.ok.injEq] at ho'
    subst ho'
    refine ⟨_, _, _, _, map_get hi _,
      map_get hi _, rfl, fun hρ => ?_⟩
    have hs := h.std p hm
    simp only [fsimp, epsilon, sub_self, zero_div, mul_zero, add_zero]
    set x₀ := (npInterp (l.map fun p => (p.period, F.ofReal p.lnPsa)) c).val
    set D := (npInterp (l.map fun p => (p.period, F.ofReal p.lnStd)) c).val
    have hK : 0 < p.lnStd * (correl p.period c).val := by positivity
    constructor
    · constructor
      · intro hx
        have : 0 < p.lnStd * (correl p.period c).val * ((x - x₀) / D) :=
          mul_pos hK (div_pos (by linarith) pos)
        linarith
      · intro hx
        by_contra hn
        have : p.lnStd * (correl p.period c).val * ((x - x₀) / D) ≤ 0 :=
          mul_nonpos_of_nonneg_of_nonpos hK.le (div_nonpos_of_nonpos_of_nonneg (by linarith) pos.le)
        linarith
    · constructor
      · intro hx
        have : p.lnStd * (correl p.period c).val * ((x - x₀) / D) < 0 :=
          mul_neg_of_pos_of_neg hK (div_neg_of_neg_of_pos (by linarith) pos)
        linarith
      · intro hx
        by_contra hn
        have : 0 ≤ p.lnStd * (correl p.period c).val * ((x - x₀) / D) :=
          mul_nonneg hK.le (div_nonneg (by linarith) pos.le)
        linarith

/-- BJ08: an empty spectrum is refused with `ValueError`, for every conditioning period. -/
theorem C35_empty (c x : ℝ) : ∃ t, BJ08.calcCms [] c x = Py.raise (.valueError t) := ⟨_, rfl⟩

example : BJ08.Spectrum BJ08.exSpectrum ∧ BJ08.exSpectrum ≠ [] ∧
    (∀ p ∈ BJ08.exSpectrum, 0.01 ≤ p.period ∧ p.period ≤ 500) ∧ BJ08.exSpectrum[1]? = some ⟨0.5, -1.5, 0.65⟩ := by
  refine ⟨BJ08.exSpectrum_ok, by simp [BJ08.exSpectrum], ?_, rfl⟩
  simp [BJ08.exSpectrum]; norm_num
