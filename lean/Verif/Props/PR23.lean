import Verif.Models.PR23
import Verif.Props.Durations
import Verif.Bounds
import Mathlib.Analysis.SpecialFunctions.Pow.Continuity

/-! # C28, C29, C72: Pinilla-Ramos et al. (2023) -/

open Bounds Filter Topology

set_option linter.unusedSimpArgs false

/-! ### General facts -/

/-- the nearest entry of a table in steps of 0.05 -/
theorem argmin_grid {n a k : ℕ} {e : ℝ} {l : List F} (hl : l.length = n)
    (h : ∀ j < n, (l.getD j F.nan).val = |((j : ℝ) + a) / 20 - e|) (hk : k < n)
    (he : |((k : ℝ) + a) / 20 - e| < 1 / 40) : argmin l = k := by
  apply argmin_eq (hl ▸ hk)
  intro j hj hne
  rw [hl] at hj
  rw [h j hj, h k hk]
  have h1 : (1 : ℝ) / 20 ≤ |((j : ℝ) + a) / 20 - ((k : ℝ) + a) / 20| := by
    have : ((j : ℝ) + a) / 20 - ((k : ℝ) + a) / 20 = ((j : ℝ) - k) / 20 := by ring
    rw [this, abs_div]
    have h20 : |(20 : ℝ)| = 20 := by norm_num
    rw [h20]
    have : (1 : ℝ) ≤ |(j : ℝ) - k| := by
      have hz : (1 : ℤ) ≤ |(j : ℤ) - k| := Int.one_le_abs (by omega)
      exact_mod_cast hz
    linarith
  have h2 := abs_sub_le (((j : ℝ) + a) / 20) e (((k : ℝ) + a) / 20)
  rw [abs_sub_comm e] at h2
  linarith

/-- `(M ** n - sigma) ** (1 / n) < M < (M ** n + sigma) ** (1 / n)` -/
theorem power_band {M sg n : ℝ} (hn : 0 < n) (hM : 0 < M) (hs : 0 < sg) (hlt : sg < M ^ n) :
    0 < (M ^ n - sg) ^ (1 / n) ∧ (M ^ n - sg) ^ (1 / n) < M ∧ M < (M ^ n + sg) ^ (1 / n) := by
  have hp : 0 < 1 / n := by positivity
  have e : (M ^ n) ^ (1 / n) = M := by
    rw [← Real.rpow_mul hM.le, mul_one_div_cancel hn.ne', Real.rpow_one]
  have hMn : 0 < M ^ n := Real.rpow_pos_of_pos hM n
  refine ⟨Real.rpow_pos_of_pos (by linarith) _, ?_, ?_⟩
  · conv_rhs => rw [← e]
    exact Real.rpow_lt_rpow (by linarith) (by linarith) hp
  · conv_lhs => rw [← e]
    exact Real.rpow_lt_rpow hMn.le (by linarith) hp

namespace PR23

/-! ### The formulas on real numbers -/

abbrev inp (m r v : ℝ) : In := ⟨F.ofReal m, F.ofReal r, F.ofReal v⟩

noncomputable def c2R (r : ℝ) : ℝ :=
  if r ≤ 10 then 0.41 + 0.0045 * r
  else if r ≤ 42 then 0.455 + 0.085 * (r - 10) / 32 else 0.54 + 0.035 * (r - 42) / 158

theorem c2_val (m r v : ℝ) : (c2 (inp m r v)).val = c2R r := by
  simp only [c2, inp, c2R, fsimp]
  split_ifs <;> first | (exfalso; linarith) | (norm_num; try ring)

theorem c2_ok (m r v : ℝ) : (c2 (inp m r v)).ok := by
  simp only [c2, inp, fsimp]
  split_ifs <;> norm_num

theorem c2R_mono {r r' : ℝ} (h : r ≤ r') : c2R r ≤ c2R r' := by
  unfold c2R
  split_ifs <;> norm_num <;> linarith

theorem c2R_ge {r : ℝ} (h : 0 ≤ r) : 0.41 ≤ c2R r := by
  unfold c2R
  split_ifs <;> norm_num at * <;> linarith

noncomputable def sourceR (m r : ℝ) : ℝ :=
  3.655 * (10 : ℝ) ^ ((m - 6.75) * if m < 6.75 then 0.515 else c2R r)

theorem source_val' (m r v : ℝ) : (source (inp m r v)).val = sourceR m r := by
  have h := c2_val m r v
  simp only [source, sourceR, fsimp, h]
  split_ifs with h1 h2 h2
  · exact absurd h1 (not_lt.2 h2)
  · ring
  · ring
  · exact absurd (not_lt.1 h1) h2

theorem source_ok (m r v : ℝ) : (source (inp m r v)).ok := by
  have h := c2_ok m r v
  simp only [source, fsimp]
  split_ifs <;> simp [h]

theorem sourceR_pos (m r : ℝ) : 0 < sourceR m r :=
  mul_pos (by norm_num) (Real.rpow_pos_of_pos (by norm_num) _)

theorem sourceR_mag {m m' r : ℝ} (hr : 0 ≤ r) (h : m < m') : sourceR m r < sourceR m' r := by
  have hc := c2R_ge hr
  unfold sourceR
  refine mul_lt_mul_of_pos_left ?_ (by norm_num)
  apply Real.rpow_lt_rpow_of_exponent_lt (by norm_num)
  norm_num at hc
  split_ifs with h1 h2 h2
  · linarith
  · have : 0 ≤ (m' - 6.75) * c2R r := mul_nonneg (by linarith) (by linarith)
    linarith
  · exact absurd (h.trans h2) h1
  · exact mul_lt_mul_of_pos_right (by linarith) (by linarith)

theorem sourceR_dist {m r r' : ℝ} (h : r ≤ r') : sourceR m r ≤ sourceR m r' := by
  unfold sourceR
  refine mul_le_mul_of_nonneg_left ?_ (by norm_num)
  apply Real.rpow_le_rpow_of_exponent_le (by norm_num)
  split_ifs with h1
  · exact le_rfl
  · exact mul_le_mul_of_nonneg_left (c2R_mono h) (by linarith)

noncomputable def pathR (r : ℝ) : ℝ :=
  0.041 * r + if r < 44 then 0.063 * r
    else if r < 130 then 0.063 * 44 + 0.034 * (r - 44)
    else 0.063 * 44 + 0.034 * (130 - 44) + 0.083 * (r - 130)

theorem path_val (m r v : ℝ) : (path (inp m r v)).val = pathR r := by
  simp only [path, pathR, fsimp]
  split_ifs <;> first | (exfalso; linarith) | (norm_num; try ring)

theorem path_ok (m r v : ℝ) : (path (inp m r v)).ok := by
  simp only [path, fsimp]
  split_ifs <;> norm_num

theorem pathR_lt {r r' : ℝ} (h : r < r') : pathR r < pathR r' := by
  unfold pathR
  split_ifs <;> norm_num <;> linarith

theorem pathR_nonneg {r : ℝ} (h : 0 ≤ r) : 0 ≤ pathR r := by
  unfold pathR
  split_ifs <;> norm_num at * <;> linarith

noncomputable def sgR (v : ℝ) : ℝ :=
  if v < 200 then 1.11
  else if v < 275 then 0.565 + 0.545 * ((Real.log 275 - Real.log v) / (Real.log 275 - Real.log 200))
  else if v < 1900 then 0.565
  else if v < 2000 then 0.565 * ((Real.log 2000 - Real.log v) / (Real.log 2000 - Real.log 1900))
  else 0

theorem log_lt {a b : ℝ} (ha : 0 < a) (h : a < b) : 0 < Real.log b - Real.log a :=
  sub_pos.2 (Real.log_lt_log ha h)

theorem sg_val (m r v : ℝ) : (sigmaVs30 (inp m r v)).val = sgR v := by
  have e : (2000 : ℝ) * 0.95 = 1900 := by norm_num
  simp only [sigmaVs30, sgR, fsimp, e]
  split_ifs <;> first | (exfalso; linarith) | (norm_num; try ring)

theorem sg_ok (m r : ℝ) {v : ℝ} (hv : 0 < v) : (sigmaVs30 (inp m r v)).ok := by
  have e : (2000 : ℝ) * 0.95 = 1900 := by norm_num
  have h1 := (log_lt (a := 1900) (b := 2000) (by norm_num) (by norm_num)).ne'
  have h2 := (log_lt (a := 200) (b := 275) (by norm_num) (by norm_num)).ne'
  simp only [sigmaVs30, fsimp, e]
  split_ifs <;> norm_num [hv, h1, h2]

theorem sgR_anti {v v' : ℝ} (hv : 0 < v) (h : v ≤ v') : sgR v' ≤ sgR v := by
  have h1 := log_lt (a := 1900) (b := 2000) (by norm_num) (by norm_num)
  have h2 := log_lt (a := 200) (b := 275) (by norm_num) (by norm_num)
  have hl := Real.log_le_log hv h
  have A : ∀ x : ℝ, 200 ≤ x → x ≤ 275 →
      0 ≤ (Real.log 275 - Real.log x) / (Real.log 275 - Real.log 200) ∧
      (Real.log 275 - Real.log x) / (Real.log 275 - Real.log 200) ≤ 1 := by
    intro x ha hb
    have la := Real.log_le_log (by norm_num) ha
    have lb := Real.log_le_log (by linarith) hb
    exact ⟨div_nonneg (by linarith) h2.le, (div_le_one h2).2 (by linarith)⟩
  have B : ∀ x : ℝ, 1900 ≤ x → x ≤ 2000 →
      0 ≤ (Real.log 2000 - Real.log x) / (Real.log 2000 - Real.log 1900) ∧
      (Real.log 2000 - Real.log x) / (Real.log 2000 - Real.log 1900) ≤ 1 := by
    intro x ha hb
    have la := Real.log_le_log (by norm_num) ha
    have lb := Real.log_le_log (by linarith) hb
    exact ⟨div_nonneg (by linarith) h1.le, (div_le_one h1).2 (by linarith)⟩
  have C : (Real.log 275 - Real.log v') / (Real.log 275 - Real.log 200) ≤
      (Real.log 275 - Real.log v) / (Real.log 275 - Real.log 200) :=
    div_le_div_of_nonneg_right (by linarith) h2.le
  have D : (Real.log 2000 - Real.log v') / (Real.log 2000 - Real.log 1900) ≤
      (Real.log 2000 - Real.log v) / (Real.log 2000 - Real.log 1900) :=
    div_le_div_of_nonneg_right (by linarith) h1.le
  unfold sgR
  split_ifs <;> first
    | (exfalso; linarith)
    | (norm_num; done)
    | (have := A v (by linarith) (by linarith); have := A v' (by linarith) (by linarith)
       norm_num at *; linarith)
    | (have := B v (by linarith) (by linarith); have := B v' (by linarith) (by linarith)
       norm_num at *; linarith)
    | (have := A v' (by linarith) (by linarith); norm_num at *; linarith)
    | (have := A v (by linarith) (by linarith); have := B v' (by linarith) (by linarith)
       norm_num at *; linarith)
    | (have := A v (by linarith) (by linarith); norm_num at *; linarith)
    | (have := B v' (by linarith) (by linarith); norm_num at *; linarith)
    | (have := B v (by linarith) (by linarith); norm_num at *; linarith)

noncomputable def siteR (v : ℝ) : ℝ := -0.619 * Real.log (v / 2000) * Real.exp (0.278 * sgR v)

theorem site_val (m r v : ℝ) : (site (inp m r v)).val = siteR v := by
  have h := sg_val m r v
  simp only [site, siteR, fsimp, h]

theorem site_ok (m r : ℝ) {v : ℝ} (hv : 0 < v) : (site (inp m r v)).ok := by
  have h := sg_ok m r hv
  simp only [site, fsimp]
  exact ⟨⟨by norm_num, by positivity⟩, h⟩

theorem siteR_nonneg {v : ℝ} (hv : 0 < v) (h : v ≤ 2000) : 0 ≤ siteR v := by
  have : Real.log (v / 2000) ≤ 0 := Real.log_nonpos (by positivity) (by linarith)
  have := Real.exp_pos (0.278 * sgR v)
  unfold siteR
  apply mul_nonneg _ this.le
  nlinarith

theorem siteR_anti {v v' : ℝ} (hv : 0 < v) (h : v < v') : siteR v' < siteR v := by
  have hv' : 0 < v' := hv.trans h
  have hl : Real.log (v / 2000) < Real.log (v' / 2000) :=
    Real.log_lt_log (by positivity) (by linarith)
  have he : Real.exp (0.278 * sgR v') ≤ Real.exp (0.278 * sgR v) := by
    rw [Real.exp_le_exp]
    exact mul_le_mul_of_nonneg_left (sgR_anti hv h.le) (by norm_num)
  have p := Real.exp_pos (0.278 * sgR v)
  have p' := Real.exp_pos (0.278 * sgR v')
  unfold siteR
  by_cases h2 : v' ≤ 2000
  · have l0 : Real.log (v' / 2000) ≤ 0 := Real.log_nonpos (by positivity) (by linarith)
    calc -0.619 * Real.log (v' / 2000) * Real.exp (0.278 * sgR v')
        ≤ -0.619 * Real.log (v' / 2000) * Real.exp (0.278 * sgR v) :=
          mul_le_mul_of_nonneg_left he (by nlinarith)
      _ < _ := mul_lt_mul_of_pos_right (by nlinarith) p
  · have l1 : 0 < Real.log (v' / 2000) := Real.log_pos (by linarith)
    by_cases h3 : v < 2000
    · have l0 : Real.log (v / 2000) < 0 := Real.log_neg (by positivity) (by linarith)
      have a1 : -0.619 * Real.log (v' / 2000) * Real.exp (0.278 * sgR v') < 0 :=
        mul_neg_of_neg_of_pos (by nlinarith) p'
      have a2 : 0 < -0.619 * Real.log (v / 2000) * Real.exp (0.278 * sgR v) :=
        mul_pos (by nlinarith) p
      linarith
    · have e1 : sgR v = 0 := by
        unfold sgR
        rw [if_neg (by linarith), if_neg (by linarith), if_neg (by linarith), if_neg h3]
      have e2 : sgR v' = 0 := by
        unfold sgR
        rw [if_neg (by linarith), if_neg (by linarith), if_neg (by linarith), if_neg (by linarith)]
      rw [e1, e2]
      simp only [mul_zero, Real.exp_zero, mul_one]
      nlinarith

noncomputable def medR (m r v : ℝ) : ℝ := sourceR m r + pathR r + siteR v

theorem median_val (m r v : ℝ) : (median (inp m r v)).val = medR m r v := by
  simp only [median, medR, fsimp, source_val', path_val, site_val]

theorem median_ok (m r : ℝ) {v : ℝ} (hv : 0 < v) : (median (inp m r v)).ok := by
  simp only [median, fsimp]
  exact ⟨⟨source_ok m r v, path_ok m r v⟩, site_ok m r hv⟩

theorem medR_pos {m r v : ℝ} (hr : 0 ≤ r) (hv : 0 < v) (hv' : v ≤ 2000) : 0 < medR m r v := by
  have := sourceR_pos m r
  have := pathR_nonneg hr
  have := siteR_nonneg hv hv'
  unfold medR; linarith

noncomputable def svR (v : ℝ) : ℝ := min (0.0206 * (200 / v) ^ (2.401 : ℝ)) 0.0419

noncomputable def sigmaR (m r v : ℝ) : ℝ :=
  0.537 + -0.093 * (r / 100) + 0.0278 * (r / 100) ^ 2 + -0.0372 * m + 0.00179 * m ^ 2 + svR v

theorem sigma_val (m r v : ℝ) : (sigma (inp m r v)).val = sigmaR m r v := by
  simp only [sigma, sigmaR, svR, fsimp]

theorem sigma_ok (m r : ℝ) {v : ℝ} (hv : 0 < v) : (sigma (inp m r v)).ok := by
  have : 0 < 200 / v := by positivity
  simp only [sigma, fsimp]
  norm_num [this, hv.ne']

theorem svR_bounds {v : ℝ} (hv : 0 < v) : 0 < svR v ∧ svR v ≤ 0.0419 := by
  have : 0 < (200 / v) ^ (2.401 : ℝ) := Real.rpow_pos_of_pos (by positivity) _
  exact ⟨lt_min (by positivity) (by norm_num), min_le_right _ _⟩

/-- the standard deviation within the limits -/
theorem sigmaR_bounds {m r v : ℝ} (hm : 4 ≤ m) (hm' : m ≤ 8) (hr : 0 ≤ r) (hr' : r ≤ 300)
    (hv : 0 < v) : 0.27 < sigmaR m r v ∧ sigmaR m r v < 0.459 := by
  obtain ⟨a, b⟩ := svR_bounds hv
  unfold sigmaR
  norm_num at b ⊢
  constructor
  · nlinarith [sq_nonneg (r / 100 - 1.67), sq_nonneg (m - 8)]
  · nlinarith [mul_nonneg hr (sub_nonneg.2 hr'), mul_nonneg (sub_nonneg.2 hm) (sub_nonneg.2 hm')]

/-- the median within the limits -/
theorem medR_ge {m r v : ℝ} (hm : 4 ≤ m) (hr : 0 ≤ r) (hv : 0 < v) (hv' : v ≤ 2000) :
    0.115 ≤ medR m r v := by
  have h0 : sourceR 4 r ≤ sourceR m r := by
    rcases eq_or_lt_of_le hm with rfl | h
    · exact le_rfl
    · exact (sourceR_mag hr h).le
  have h1 : (0.0316 : ℝ) ≤ (10 : ℝ) ^ ((4 - 6.75) * 0.515 : ℝ) := by
    have e : (10 : ℝ) ^ (-(3 / 2) : ℝ) ≤ (10 : ℝ) ^ ((4 - 6.75) * 0.515 : ℝ) :=
      Real.rpow_le_rpow_of_exponent_le (by norm_num) (by norm_num)
    refine le_trans ?_ e
    have p : 0 < (10 : ℝ) ^ (-(3 / 2) : ℝ) := Real.rpow_pos_of_pos (by norm_num) _
    have q : ((10 : ℝ) ^ (-(3 / 2) : ℝ)) ^ 2 = 0.001 := by
      rw [← Real.rpow_natCast, ← Real.rpow_mul (by norm_num)]
      norm_num
    nlinarith
  have h2 : 0.115 ≤ sourceR 4 r := by
    unfold sourceR
    rw [if_pos (by norm_num)]
    norm_num at h1 ⊢
    linarith
  have := pathR_nonneg hr
  have := siteR_nonneg hv hv'
  unfold medR; linarith

theorem sigma_lt_median {m r v : ℝ} (hm : 4 ≤ m) (hm' : m ≤ 8) (hr : 0 ≤ r) (hr' : r ≤ 300)
    (hv : 0 < v) (hv' : v ≤ 2000) : sigmaR m r v < medR m r v ^ (0.3 : ℝ) := by
  have h1 := (sigmaR_bounds hm hm' hr hr' hv).2
  have h2 := medR_ge hm hr hv hv'
  refine h1.trans_le ?_
  refine le_trans ?_ (Real.rpow_le_rpow (by norm_num) h2 (by norm_num))
  have p : 0 < (0.115 : ℝ) ^ (0.3 : ℝ) := Real.rpow_pos_of_pos (by norm_num) _
  have q : ((0.115 : ℝ) ^ (0.3 : ℝ)) ^ 10 = 0.115 ^ 3 := by
    rw [← Real.rpow_natCast, ← Real.rpow_mul (by norm_num), ← Real.rpow_natCast]
    norm_num
  refine le_of_pow_le_pow_left₀ (n := 10) (by norm_num) p.le ?_
  rw [q]; norm_num

/-! ### The energy thresholds -/

theorem table_length : table.length = 19 := by decide +kernel

theorem table_energy : ∀ k < 19, (table[k]?).map Row.energy = some ((((k : ℕ) : ℚ) + 1) / 20) := by
  decide +kernel

theorem dist_getD (e : ℝ) {k : ℕ} (h : k < 19) :
    ((table.map fun c => F.abs (c.energy - F.ofReal e)).getD k F.nan).val
      = |((k : ℝ) + (1 : ℕ)) / 20 - e| := by
  have hk : k < table.length := h
  have he : table[k].energy = ((k : ℚ) + 1) / 20 := by
    have := table_energy k h
    rw [List.getElem?_eq_getElem hk] at this
    simpa using this
  simp only [List.getD_eq_getElem?_getD, List.getElem?_map, List.getElem?_eq_getElem hk,
    Option.map_some, Option.getD_some, fsimp]
  rw [he]
  push_cast
  rfl

/-- the row of the table that is used near the `k`-th threshold -/
theorem rowFor_eq {e : ℝ} {k : ℕ} (hk : k < 19) (he : |((k : ℝ) + 1) / 20 - e| < 1 / 40) :
    rowFor e = table[k]? := by
  unfold rowFor
  rw [argmin_grid (n := 19) (a := 1) (k := k) (by rw [List.length_map]; exact table_length)
    (fun j hj => dist_getD e hj) hk (by push_cast; exact he)]

/-- from 0.10 on the first row is not used -/
theorem rowFor_mem {e : ℝ} (he : 0.10 ≤ e) :
    ∃ c ∈ table.drop 1, rowFor e = some c := by
  set l := table.map fun c => F.abs (c.energy - F.ofReal e) with hl
  have hlen : l.length = 19 := by rw [hl, List.length_map]; exact table_length
  have hne : l ≠ [] := by intro h; rw [h] at hlen; simp at hlen
  have h1 : argmin l < 19 := hlen ▸ argmin_lt hne
  have h0 : argmin l ≠ 0 := by
    intro h0
    have hm : l.getD 1 F.nan ∈ l := by
      have : 1 < l.length := by rw [hlen]; norm_num
      rw [List.getD_eq_getElem?_getD, List.getElem?_eq_getElem this]; simp
    have h2 := argmin_le (l := l) _ hm
    rw [h0, hl, dist_getD e (by norm_num), dist_getD e (by norm_num)] at h2
    have e1 : |((0 : ℕ) + (1 : ℕ) : ℝ) / 20 - e| = e - 0.05 := by
      rw [abs_of_nonpos (by norm_num at *; linarith)]; norm_num
    have e2 : |((1 : ℕ) + (1 : ℕ) : ℝ) / 20 - e| = e - 0.10 := by
      rw [abs_of_nonpos (by norm_num at *; linarith)]; norm_num
    rw [e1, e2] at h2
    norm_num at h2
    linarith
  have hk : argmin l < table.length := h1
  refine ⟨table[argmin l], ?_, ?_⟩
  · obtain ⟨j, hj⟩ := Nat.exists_eq_succ_of_ne_zero h0
    rw [List.mem_iff_getElem?]
    refine ⟨j, ?_⟩
    rw [List.getElem?_drop, Nat.add_comm, ← Nat.succ_eq_add_one, ← hj,
      List.getElem?_eq_getElem hk]
  · unfold rowFor
    rw [← hl, List.getElem?_eq_getElem hk]

noncomputable def cR (c : Row) (r v : ℝ) : ℝ :=
  (c.cmed : ℝ) + c.a0 + c.r1x * r + c.v1x * Real.log (v / 2000)

theorem cModel_val (c : Row) (m r v : ℝ) : (cModel c (inp m r v)).val = cR c r v := by
  simp only [cModel, cR, fsimp]

theorem cModel_ok (c : Row) (m r : ℝ) {v : ℝ} (hv : 0 < v) : (cModel c (inp m r v)).ok := by
  have : 0 < v / 2000 := by positivity
  simp only [cModel, fsimp]
  norm_num [this]

theorem log_v {v : ℝ} (hv : 150 ≤ v) (hv' : v ≤ 2000) :
    Real.log (v / 2000) ∈ Set.Icc (-2.591 : ℝ) 0 := by
  constructor
  · have h1 : Real.log (2000 / v) ≤ ((2.591 : ℚ) : ℝ) := by
      apply log_le_of (by positivity) (by norm_num)
      have h2 : 2000 / v ≤ 2000 / 150 := div_le_div_of_nonneg_left (by norm_num) (by norm_num) hv
      have h3 : (2000 / 150 : ℚ) ≤ expLo 2.591 := by decide +kernel
      have h4 : ((2000 / 150 : ℚ) : ℝ) ≤ expLo 2.591 := by exact_mod_cast h3
      push_cast at h4
      linarith
    have e : v / 2000 = (2000 / v)⁻¹ := by rw [inv_div]
    rw [e, Real.log_inv]
    push_cast at h1
    linarith
  · exact Real.log_nonpos (by positivity) (by linarith)

/-- a function linear in distance and in a second variable, positive at the four corners -/
theorem corner_pos {a b c x y R L : ℝ} (hx : x ∈ Set.Icc 0 R) (hy : y ∈ Set.Icc L 0)
    (h1 : 0 < a) (h2 : 0 < a + b * R) (h3 : 0 < a + c * L) (h4 : 0 < a + b * R + c * L) :
    0 < a + b * x + c * y := by
  have e1 : 0 < a + b * x := linear_pos hx (by linarith) h2
  have e2 : 0 < (a + c * L) + b * x := linear_pos hx (by linarith) (by linarith)
  have := linear_pos (p := a + b * x) (q := c) hy (by linarith) (by linarith)
  exact this

theorem row_pos : ∀ c ∈ table.drop 1, 0 < c.cmed + c.a0 ∧ 0 < c.cmed + c.a0 + c.r1x * 300 ∧
    0 < c.cmed + c.a0 + c.v1x * -2.591 ∧ 0 < c.cmed + c.a0 + c.r1x * 300 + c.v1x * -2.591 ∧
    -1 < c.r ∧ c.r < 1 := by decide +kernel

theorem cR_pos {c : Row} (hc : c ∈ table.drop 1) {r v : ℝ} (hr : 0 ≤ r) (hr' : r ≤ 300)
    (hv : 150 ≤ v) (hv' : v ≤ 2000) : 0 < cR c r v := by
  obtain ⟨h1, h2, h3, h4, -, -⟩ := row_pos c hc
  unfold cR
  apply corner_pos (R := 300) ⟨hr, hr'⟩ (log_v hv hv')
  · exact_mod_cast h1
  · exact_mod_cast h2
  · have : ((0 : ℚ) : ℝ) < ((c.cmed + c.a0 + c.v1x * -2.591 : ℚ) : ℝ) := by exact_mod_cast h3
    norm_num at this ⊢; linarith
  · have : ((0 : ℚ) : ℝ) < ((c.cmed + c.a0 + c.r1x * 300 + c.v1x * -2.591 : ℚ) : ℝ) := by
      exact_mod_cast h4
    norm_num at this ⊢; linarith

noncomputable def qR (c : Row) (m r v : ℝ) : ℝ :=
  (cR c r v ^ (0.3 : ℝ) * sigmaR m r v) ^ 2
    + (medR m r v ^ (0.3 : ℝ) * 0.3 * cR c r v ^ (0.3 - 1 : ℝ) * c.stdC) ^ 2
    + 2 * c.r * cR c r v ^ (0.3 : ℝ) * (medR m r v ^ (0.3 : ℝ) * 0.3 * cR c r v ^ (0.3 - 1 : ℝ))
      * sigmaR m r v * c.stdC

theorem sigmaCond_val (c : Row) (m r v : ℝ) :
    (sigmaCond c (inp m r v)).val = Real.sqrt (qR c m r v) := by
  simp only [sigmaCond, fsimp, cModel_val, median_val, sigma_val]
  rfl

theorem quad_pos {x y p : ℝ} (hx : 0 < x) (h1 : -1 < p) (h2 : p < 1) :
    0 < x ^ 2 + y ^ 2 + 2 * p * x * y := by
  have : x ^ 2 + y ^ 2 + 2 * p * x * y = (y + p * x) ^ 2 + (1 - p) * (1 + p) * x ^ 2 := by ring
  rw [this]
  have := mul_pos (mul_pos (sub_pos.2 h2) (by linarith : 0 < 1 + p)) (pow_pos hx 2)
  nlinarith [sq_nonneg (y + p * x)]

theorem qR_pos {c : Row} (hc : c ∈ table.drop 1) {m r v : ℝ} (hm : 4 ≤ m) (hm' : m ≤ 8)
    (hr : 0 ≤ r) (hr' : r ≤ 300) (hv : 150 ≤ v) (hv' : v ≤ 2000) : 0 < qR c m r v := by
  obtain ⟨-, -, -, -, h5, h6⟩ := row_pos c hc
  have hs := (sigmaR_bounds hm hm' hr hr' (by linarith : 0 < v)).1
  have h := quad_pos (x := cR c r v ^ (0.3 : ℝ) * sigmaR m r v)
    (y := medR m r v ^ (0.3 : ℝ) * 0.3 * cR c r v ^ (0.3 - 1 : ℝ) * c.stdC) (p := c.r)
    (mul_pos (Real.rpow_pos_of_pos (cR_pos hc hr hr' hv hv') _) (by norm_num at hs; linarith))
    (by exact_mod_cast h5) (by exact_mod_cast h6)
  unfold qR
  nlinarith [h]

theorem sigmaCond_ok {c : Row} (hc : c ∈ table.drop 1) {m r v : ℝ} (hm : 4 ≤ m) (hm' : m ≤ 8)
    (hr : 0 ≤ r) (hr' : r ≤ 300) (hv : 150 ≤ v) (hv' : v ≤ 2000) :
    (sigmaCond c (inp m r v)).ok := by
  have h1 := cR_pos hc hr hr' hv hv'
  have h2 := medR_pos (m := m) hr (by linarith : 0 < v) hv'
  have h3 := (qR_pos hc hm hm' hr hr' hv hv').le
  have k1 := cModel_ok c m r (by linarith : 0 < v)
  have k2 := median_ok m r (by linarith : 0 < v)
  have k3 := sigma_ok m r (by linarith : 0 < v)
  simp only [sigmaCond, fsimp, cModel_val, median_val, sigma_val]
  unfold qR at h3
  refine ⟨?_, h3⟩
  simp [k1, k2, k3, h1, h2]

theorem band_base (i : In) {e : ℝ} (h : IsClose e 0.75) : band i e = base i := by
  unfold band; rw [if_pos h]

theorem band_cond (i : In) {e : ℝ} (h : ¬ IsClose e 0.75) {c : Row} (hc : rowFor e = some c) :
    band i e = condBand c i := by
  unfold band; rw [if_neg h, hc]

theorem isClose_iff (e : ℝ) : IsClose e 0.75 ↔ |e - 0.75| ≤ 7.51e-6 := by
  unfold IsClose
  have h : |(0.75 : ℝ)| = 0.75 := abs_of_nonneg (by norm_num)
  rw [h]
  norm_num

theorem isClose_self : IsClose 0.75 0.75 := by rw [isClose_iff]; norm_num

end PR23

/-! ### The properties -/

namespace PR23

/-- the caller's scenario gives magnitude, rupture distance and `v_s30` as numbers -/
structure Has (s : Scenario) (m r v : ℝ) : Prop where
  mag : s.get "mag" = .num m
  rup : s.get "dist_rup" = .num r
  v : s.get "v_s30" = .num v

/-- the recommended limits of the class -/
structure InLimits (m r v : ℝ) : Prop where
  mag : 4 ≤ m ∧ m ≤ 8
  rup : 0 ≤ r ∧ r ≤ 300
  v : 150 ≤ v ∧ v ≤ 2000

theorem InLimits.vpos {m r v : ℝ} (h : InLimits m r v) : 0 < v := by linarith [h.v.1]

theorem Has.built {s : Scenario} {m r v : ℝ} (h : Has s m r v) :
    ∃ inst, (cls.new s).res = .ok inst ∧ inst.out = base (inp m r v) ∧
      ∀ e, calcDuration inst.scenario e = pure (band (inp m r v) e) := by
  obtain ⟨i, h1, h2, h3⟩ := PR23.built s h.mag h.rup h.v
  exact ⟨i, h1, by rw [h2, band_base _ isClose_self], h3⟩

theorem Has.gives {s : Scenario} {m r v : ℝ} (h : Has s m r v) :
    Gives cls s (base (inp m r v)) := by
  obtain ⟨i, h1, h2, -⟩ := h.built
  exact ⟨i, h1, h2⟩

/-- an example scenario -/
def exScenario : Scenario :=
  ⟨[("mag", .num 6.5), ("dist_rup", .num 30), ("v_s30", .num 400)], []⟩

theorem exHas : Has exScenario 6.5 30 400 := by
  constructor <;> simp [exScenario, Scenario.get, Dict.get?]

theorem exLimits : InLimits 6.5 30 400 := by constructor <;> norm_num

end PR23

open PR23 in
/-- PR23: within the limits the D5-75 durations are defined and positive, and the median lies
strictly between the minus-sigma and the plus-sigma duration. -/
theorem C29_band (s : Scenario) (m r v : ℝ) (h : Has s m r v) (hl : InLimits m r v) :
    ∃ o, Gives PR23.cls s o ∧ o.median.ok ∧ o.plus.ok ∧ o.minus.ok ∧
      0 < o.minus.val ∧ o.minus.val < o.median.val ∧ o.median.val < o.plus.val := by
  have hv := hl.vpos
  have hM := medR_pos (m := m) hl.rup.1 hv hl.v.2
  have hs := (sigmaR_bounds hl.mag.1 hl.mag.2 hl.rup.1 hl.rup.2 hv).1
  have hs0 : 0 < sigmaR m r v := by norm_num at hs; linarith
  have hlt := sigma_lt_median hl.mag.1 hl.mag.2 hl.rup.1 hl.rup.2 hv hl.v.2
  obtain ⟨b1, b2, b3⟩ := power_band (n := 0.3) (by norm_num) hM hs0 hlt
  have k1 := median_ok m r hv
  have k2 := sigma_ok m r hv
  have hp : 0 < medR m r v ^ (0.3 : ℝ) := Real.rpow_pos_of_pos hM _
  refine ⟨_, h.gives, k1, ?_, ?_, ?_, ?_, ?_⟩
  all_goals simp only [base, fsimp, median_val, sigma_val]
  · simp only [k1, k2, true_and, and_true]
    exact ⟨Or.inl hM, by norm_num, Or.inl (by linarith)⟩
  · simp only [k1, k2, true_and, and_true]
    exact ⟨Or.inl hM, by norm_num, Or.inl (by linarith)⟩
  · exact b1
  · exact b2
  · exact b3

open PR23 in
/-- PR23: at a non-negative distance and a positive velocity the D5-75 median strictly increases
with the magnitude. -/
theorem C29_magnitude (s s' : Scenario) (m m' r v : ℝ) (h : Has s m r v) (h' : Has s' m' r v)
    (hr : 0 ≤ r) (hv : 0 < v) (hm : m < m') :
    ∃ o o', Gives PR23.cls s o ∧ Gives PR23.cls s' o' ∧ F.Drops o'.median o.median := by
  refine ⟨_, _, h.gives, h'.gives, median_ok _ _ hv, median_ok _ _ hv, ?_⟩
  simp only [base, median_val, medR]
  linarith [sourceR_mag hr hm]

open PR23 in
/-- PR23: the D5-75 median strictly increases with the distance, for every magnitude. -/
theorem C29_distance (s s' : Scenario) (m r r' v : ℝ) (h : Has s m r v) (h' : Has s' m r' v)
    (hv : 0 < v) (hr : r < r') :
    ∃ o o', Gives PR23.cls s o ∧ Gives PR23.cls s' o' ∧ F.Drops o'.median o.median := by
  refine ⟨_, _, h.gives, h'.gives, median_ok _ _ hv, median_ok _ _ hv, ?_⟩
  simp only [base, median_val, medR]
  linarith [pathR_lt hr, sourceR_dist (m := m) hr.le]

open PR23 in
/-- PR23: the D5-75 median strictly decreases with `v_s30`, on all positive velocities. -/
theorem C29_site (s s' : Scenario) (m r v v' : ℝ) (h : Has s m r v) (h' : Has s' m r v')
    (hv : 0 < v) (hvv : v < v') :
    ∃ o o', Gives PR23.cls s o ∧ Gives PR23.cls s' o' ∧ F.Drops o.median o'.median := by
  refine ⟨_, _, h.gives, h'.gives, median_ok _ _ hv, median_ok _ _ (hv.trans hvv), ?_⟩
  simp only [base, median_val, medR]
  linarith [siteR_anti hv hvv]

namespace PR23

theorem c2R_cont : Continuous c2R := by
  unfold c2R
  apply Continuous.if_le (by fun_prop) _ continuous_id continuous_const
  · intro x hx; subst hx; norm_num
  · apply Continuous.if_le (by fun_prop) (by fun_prop) continuous_id continuous_const
    intro x hx; subst hx; norm_num

theorem pathR_cont : Continuous pathR := by
  unfold pathR
  refine Continuous.add (by fun_prop) ?_
  have e : (fun r : ℝ => if r < 44 then 0.063 * r
    else if r < 130 then 0.063 * 44 + 0.034 * (r - 44)
    else 0.063 * 44 + 0.034 * (130 - 44) + 0.083 * (r - 130)) =
    fun r : ℝ => if (44 : ℝ) ≤ r then (if (130 : ℝ) ≤ r
      then 0.063 * 44 + 0.034 * (130 - 44) + 0.083 * (r - 130)
      else 0.063 * 44 + 0.034 * (r - 44)) else 0.063 * r := by
    funext r
    split_ifs <;> first | rfl | (exfalso; linarith)
  rw [e]
  apply Continuous.if_le _ (by fun_prop) continuous_const continuous_id
  · intro x hx; subst hx; norm_num
  · apply Continuous.if_le (by fun_prop) (by fun_prop) continuous_const continuous_id
    intro x hx; subst hx; norm_num

theorem sourceR_cont (r : ℝ) : Continuous fun m : ℝ => sourceR m r := by
  have e : (fun m : ℝ => sourceR m r) = fun m : ℝ => if 6.75 ≤ m
      then 3.655 * (10 : ℝ) ^ ((m - 6.75) * c2R r)
      else 3.655 * (10 : ℝ) ^ ((m - 6.75) * 0.515) := by
    funext m
    unfold sourceR
    split_ifs <;> first | rfl | (exfalso; linarith)
  rw [e]
  have h10 : (10 : ℝ) ≠ 0 := by norm_num
  apply Continuous.if_le _ _ continuous_const continuous_id
  · intro x hx; subst hx; simp
  · exact continuous_const.mul (continuous_const.rpow (by fun_prop) fun _ => Or.inl h10)
  · exact continuous_const.mul (continuous_const.rpow (by fun_prop) fun _ => Or.inl h10)

theorem sourceR_cont' (m : ℝ) : Continuous fun r : ℝ => sourceR m r := by
  unfold sourceR
  have h10 : (10 : ℝ) ≠ 0 := by norm_num
  refine continuous_const.mul (continuous_const.rpow ?_ fun _ => Or.inl h10)
  split_ifs
  · exact continuous_const
  · exact continuous_const.mul c2R_cont

theorem sgR_eq {v : ℝ} (hv : 0 < v) :
    sgR v = 0.545 * min 1 (max 0 ((Real.log 275 - Real.log v) / (Real.log 275 - Real.log 200)))
      + 0.565 * min 1 (max 0 ((Real.log 2000 - Real.log v) / (Real.log 2000 - Real.log 1900))) := by
  have h1 := log_lt (a := 1900) (b := 2000) (by norm_num) (by norm_num)
  have h2 := log_lt (a := 200) (b := 275) (by norm_num) (by norm_num)
  have hi : ∀ {a b : ℝ}, 0 < a → a < b → v ≤ a →
      min 1 (max 0 ((Real.log b - Real.log v) / (Real.log b - Real.log a))) = 1 := by
    intro a b ha hab hva
    have l := Real.log_le_log hv hva
    have d := log_lt ha hab
    apply min_eq_left
    apply le_max_of_le_right
    rw [one_le_div d]; linarith
  have lo : ∀ {a b : ℝ}, 0 < a → a < b → b ≤ v →
      min 1 (max 0 ((Real.log b - Real.log v) / (Real.log b - Real.log a))) = 0 := by
    intro a b ha hab hva
    have l := Real.log_le_log (ha.trans hab) hva
    have d := log_lt ha hab
    rw [max_eq_left, min_eq_right zero_le_one]
    exact div_nonpos_of_nonpos_of_nonneg (by linarith) d.le
  have mid : ∀ {a b : ℝ}, 0 < a → a < b → a ≤ v → v ≤ b →
      min 1 (max 0 ((Real.log b - Real.log v) / (Real.log b - Real.log a)))
        = (Real.log b - Real.log v) / (Real.log b - Real.log a) := by
    intro a b ha hab hav hvb
    have l := Real.log_le_log ha hav
    have l' := Real.log_le_log hv hvb
    have d := log_lt ha hab
    rw [max_eq_right, min_eq_right]
    · rw [div_le_one d]; linarith
    · exact div_nonneg (by linarith) d.le
  unfold sgR
  split_ifs with a b c d
  · rw [hi (by norm_num) (by norm_num) a.le, hi (by norm_num) (by norm_num) (by linarith)]; norm_num
  · rw [mid (by norm_num) (by norm_num) (not_lt.1 a) b.le, hi (by norm_num) (by norm_num) (by linarith)]
    ring
  · rw [lo (by norm_num) (by norm_num) (not_lt.1 b), hi (by norm_num) (by norm_num) c.le]; norm_num
  · rw [lo (by norm_num) (by norm_num) (by linarith), mid (by norm_num) (by norm_num) (not_lt.1 c) d.le]
    ring
  · rw [lo (by norm_num) (by norm_num) (by linarith), lo (by norm_num) (by norm_num) (not_lt.1 d)]
    norm_num

theorem siteR_cont : ContinuousOn siteR (Set.Ioi 0) := by
  have hlog : ContinuousOn (fun v : ℝ => Real.log v) (Set.Ioi 0) :=
    Real.continuousOn_log.mono fun v (hv : 0 < v) => hv.ne'
  have hlog2 : ContinuousOn (fun v : ℝ => Real.log (v / 2000)) (Set.Ioi 0) :=
    ContinuousOn.log (by fun_prop) fun v (hv : 0 < v) => by positivity
  have hsg : ContinuousOn sgR (Set.Ioi 0) := by
    refine ContinuousOn.congr (f := fun v : ℝ =>
      0.545 * min 1 (max 0 ((Real.log 275 - Real.log v) / (Real.log 275 - Real.log 200)))
      + 0.565 * min 1 (max 0 ((Real.log 2000 - Real.log v) / (Real.log 2000 - Real.log 1900)))) ?_
      fun v (hv : 0 < v) => sgR_eq hv
    refine ContinuousOn.add ?_ ?_
    · exact continuousOn_const.mul (continuousOn_const.inf (continuousOn_const.sup
        ((continuousOn_const.sub hlog).div_const _)))
    · exact continuousOn_const.mul (continuousOn_const.inf (continuousOn_const.sup
        ((continuousOn_const.sub hlog).div_const _)))
  unfold siteR
  exact (continuousOn_const.mul hlog2).mul (Real.continuous_exp.comp_continuousOn
    (continuousOn_const.mul hsg))

end PR23

open PR23 in
/-- PR23: the D5-75 median is continuous in the magnitude, in the distance (also at the hinge
distances 10, 42, 44 and 130 km) and, for positive velocities, in `v_s30` (also at 200, 275, 1900 and
2000 m/s): of any family of scenarios that differ only in that number, the median is a continuous
function of it. -/
theorem C29_continuous (m r v : ℝ) :
    (∀ s : ℝ → Scenario, (∀ x, Has (s x) x r v) →
      ∃ O : ℝ → DurBand, (∀ x, Gives PR23.cls (s x) (O x)) ∧ Continuous fun x => (O x).median.val) ∧
    (∀ s : ℝ → Scenario, (∀ x, Has (s x) m x v) →
      ∃ O : ℝ → DurBand, (∀ x, Gives PR23.cls (s x) (O x)) ∧ Continuous fun x => (O x).median.val) ∧
    (∀ s : ℝ → Scenario, (∀ x, Has (s x) m r x) →
      ∃ O : ℝ → DurBand, (∀ x, Gives PR23.cls (s x) (O x)) ∧
        ContinuousOn (fun x => (O x).median.val) (Set.Ioi 0)) := by
  refine ⟨fun s h => ⟨_, fun x => (h x).gives, ?_⟩, fun s h => ⟨_, fun x => (h x).gives, ?_⟩,
    fun s h => ⟨_, fun x => (h x).gives, ?_⟩⟩
  all_goals simp only [base, median_val, medR]
  · exact ((sourceR_cont r).add continuous_const).add continuous_const
  · exact ((sourceR_cont' m).add pathR_cont).add continuous_const
  · exact continuousOn_const.add siteR_cont

example : ∃ s m r v, PR23.Has s m r v ∧ PR23.InLimits m r v :=
  ⟨_, _, _, _, PR23.exHas, PR23.exLimits⟩

example : ∃ s : ℝ → Scenario, ∀ x, PR23.Has (s x) x 30 400 :=
  ⟨fun x => ⟨[("mag", .num x), ("dist_rup", .num 30), ("v_s30", .num 400)], []⟩, fun x => by
    constructor <;> simp [Scenario.get, Dict.get?]⟩

namespace PR23

theorem forEnergy_ok {inst : Instance DurBand} {i : In}
    (h : ∀ e, calcDuration inst.scenario e = pure (band i e)) {e : ℝ} (h1 : 0.10 ≤ e)
    (h2 : e ≤ 0.95) : durationForEnergy inst e = pure (band i e) := by
  unfold durationForEnergy
  rw [if_neg, h]
  rintro (h | h) <;> linarith

theorem forEnergy_err (inst : Instance DurBand) {e : ℝ} (h : e < 0.10 ∨ 0.95 < e) :
    (durationForEnergy inst e).res = .error (.valueError "energy") := by
  unfold durationForEnergy
  rw [if_pos h]; rfl

/-- the row of the 0.75 threshold -/
def row75 : Row := ⟨0.75, 1, 1, 0, 0, 0, 0⟩

theorem row14 : table[14]? = some row75 := by decide +kernel

theorem cR75 (r v : ℝ) : cR row75 r v = 2 := by
  simp only [cR, row75]; norm_num

end PR23

open PR23 in
/-- PR23: `duration_for_energy(e)` is the stored D5-75 result when `e` is `np.isclose` to 0.75 (at
most 7.51e-6 away); for every other energy nearer to 0.75 than to another threshold it is defined
and the median is exactly twice the D5-75 median.  For every scenario with a positive velocity. -/
theorem C28_bin (s : Scenario) (m r v : ℝ) (h : Has s m r v) (hv : 0 < v) :
    ∃ inst, (PR23.cls.new s).res = .ok inst ∧
      (∀ e : ℝ, |e - 0.75| ≤ 7.51e-6 → (durationForEnergy inst e).res = .ok inst.out) ∧
      (∀ e : ℝ, 7.51e-6 < |e - 0.75| → |e - 0.75| < 0.025 →
        ∃ b, (durationForEnergy inst e).res = .ok b ∧ b.median.ok ∧
          b.median.val = 2 * inst.out.median.val) := by
  obtain ⟨inst, h1, h2, h3⟩ := h.built
  refine ⟨inst, h1, ?_, ?_⟩
  · intro e he
    have := abs_le.1 he
    rw [forEnergy_ok h3 (by norm_num at *; linarith) (by norm_num at *; linarith),
      band_base _ ((isClose_iff e).2 he), h2]
    rfl
  · intro e he he'
    have := abs_lt.1 he'
    rw [forEnergy_ok h3 (by norm_num at *; linarith) (by norm_num at *; linarith),
      band_cond _ (by rw [isClose_iff]; linarith) (c := row75)
        (by rw [rowFor_eq (k := 14) (by norm_num)
              (by rw [abs_sub_comm]; norm_num at he' ⊢; exact he')]; exact row14), h2]
    refine ⟨_, rfl, ?_, ?_⟩
    · simp only [condBand, fsimp]
      exact ⟨cModel_ok _ _ _ hv, median_ok _ _ hv⟩
    · simp only [condBand, base, fsimp, cModel_val, cR75]

open PR23 in
/-- Within the limits the plus-sigma and minus-sigma durations are doubled as well. -/
theorem C28_band_doubled (s : Scenario) (m r v : ℝ) (h : Has s m r v) (hl : InLimits m r v) :
    ∃ inst, (PR23.cls.new s).res = .ok inst ∧
      ∀ e : ℝ, 7.51e-6 < |e - 0.75| → |e - 0.75| < 0.025 →
        ∃ b, (durationForEnergy inst e).res = .ok b ∧ b.plus.ok ∧ b.minus.ok ∧
          b.plus.val = 2 * inst.out.plus.val ∧ b.minus.val = 2 * inst.out.minus.val := by
  obtain ⟨inst, h1, h2, h3⟩ := h.built
  refine ⟨inst, h1, ?_⟩
  have hv := hl.vpos
  have hM := medR_pos (m := m) hl.rup.1 hv hl.v.2
  have hs := (sigmaR_bounds hl.mag.1 hl.mag.2 hl.rup.1 hl.rup.2 hv).1
  have hs0 : 0 < sigmaR m r v := by norm_num at hs; linarith
  have hlt := sigma_lt_median hl.mag.1 hl.mag.2 hl.rup.1 hl.rup.2 hv hl.v.2
  have hp2 : (0 : ℝ) < 2 ^ (0.3 : ℝ) := Real.rpow_pos_of_pos (by norm_num) _
  have hpM := Real.rpow_pos_of_pos hM (0.3 : ℝ)
  have hq : Real.sqrt (qR row75 m r v) = 2 ^ (0.3 : ℝ) * sigmaR m r v := by
    have e : qR row75 m r v = (2 ^ (0.3 : ℝ) * sigmaR m r v) ^ 2 := by
      unfold qR; rw [cR75]; simp [row75]
    rw [e, Real.sqrt_sq (by positivity)]
  have e1 : (2 * medR m r v) ^ (0.3 : ℝ) = 2 ^ (0.3 : ℝ) * medR m r v ^ (0.3 : ℝ) :=
    Real.mul_rpow (by norm_num) hM.le
  have e2 : ((2 : ℝ) ^ (0.3 : ℝ)) ^ ((1 : ℝ) / 0.3) = 2 := by
    rw [← Real.rpow_mul (by norm_num)]; norm_num
  have hc : row75 ∈ table.drop 1 := by decide +kernel
  intro e he he'
  have := abs_lt.1 he'
  rw [forEnergy_ok h3 (by norm_num at *; linarith) (by norm_num at *; linarith),
    band_cond _ (by rw [isClose_iff]; linarith) (c := row75)
      (by rw [rowFor_eq (k := 14) (by norm_num)
            (by rw [abs_sub_comm]; norm_num at he' ⊢; exact he')]; exact row14), h2]
  have k1 := cModel_ok row75 m r hv
  have k2 := median_ok m r hv
  have k3 := sigmaCond_ok hc hl.mag.1 hl.mag.2 hl.rup.1 hl.rup.2 hl.v.1 hl.v.2
  refine ⟨_, rfl, ?_, ?_, ?_, ?_⟩
  all_goals simp only [condBand, base, fsimp, cModel_val, cR75, median_val, sigma_val, sigmaCond_val, hq,
    e1, k1, k2, k3, true_and, and_true]
  · exact ⟨Or.inl (by linarith), by norm_num, Or.inl (by positivity)⟩
  · refine ⟨Or.inl (by linarith), by norm_num, Or.inl ?_⟩
    rw [← mul_sub]; exact mul_pos hp2 (by linarith)
  · rw [← mul_add, Real.mul_rpow hp2.le (by positivity), e2]
  · rw [← mul_sub, Real.mul_rpow hp2.le (by linarith), e2]

example : ∃ e : ℝ, (7.51e-6 : ℝ) < |e - 0.75| ∧ |e - 0.75| < 0.025 :=
  ⟨0.76, by norm_num⟩

/-! ### C72: other energies -/

open PR23 in
/-- PR23: `duration_for_energy` raises `ValueError` exactly for energies outside [0.10, 0.95]; it
reports nothing else and needs no more than a constructed model. -/
theorem C72_range (s : Scenario) (m r v : ℝ) (h : Has s m r v) :
    ∃ inst, (PR23.cls.new s).res = .ok inst ∧ ∀ e : ℝ,
      ((e < 0.10 ∨ 0.95 < e) → ∃ t, (durationForEnergy inst e).res = .error (.valueError t)) ∧
      (¬ (e < 0.10 ∨ 0.95 < e) → ∃ b, durationForEnergy inst e = pure b) := by
  obtain ⟨inst, h1, h2, h3⟩ := h.built
  refine ⟨inst, h1, fun e => ⟨fun he => ⟨_, forEnergy_err inst he⟩, fun he => ?_⟩⟩
  push Not at he
  exact ⟨_, forEnergy_ok h3 he.1 he.2⟩

open PR23 in
/-- PR23: energies nearer to one of the thresholds 0.10, 0.15, ..., 0.95 than to any other give the
result of that threshold; 0.75 is the exception of C28. -/
theorem C72_steps (s : Scenario) (m r v : ℝ) (h : Has s m r v) :
    ∃ inst, (PR23.cls.new s).res = .ok inst ∧ ∀ (j : ℕ) (e : ℝ), 2 ≤ j → j ≤ 19 → j ≠ 15 →
      0.10 ≤ e → e ≤ 0.95 → |e - j / 20| < 0.025 →
      durationForEnergy inst e = durationForEnergy inst (j / 20) := by
  obtain ⟨inst, h1, h2, h3⟩ := h.built
  refine ⟨inst, h1, ?_⟩
  intro j e hj hj' hne he he' hd
  obtain ⟨k, rfl⟩ : ∃ k, j = k + 1 := ⟨j - 1, by omega⟩
  have g1 : (0.10 : ℝ) ≤ ((k + 1 : ℕ) : ℝ) / 20 := by
    have : (2 : ℝ) ≤ ((k + 1 : ℕ) : ℝ) := by exact_mod_cast hj
    norm_num at this ⊢; linarith
  have g2 : ((k + 1 : ℕ) : ℝ) / 20 ≤ 0.95 := by
    have : ((k + 1 : ℕ) : ℝ) ≤ 19 := by exact_mod_cast hj'
    norm_num at this ⊢; linarith
  have g3 : (0.05 : ℝ) ≤ |((k + 1 : ℕ) : ℝ) / 20 - 0.75| := by
    have hz : (1 : ℤ) ≤ |((k + 1 : ℕ) : ℤ) - 15| := Int.one_le_abs (by omega)
    have hr : (1 : ℝ) ≤ |((k + 1 : ℕ) : ℝ) - 15| := by exact_mod_cast hz
    have e1 : ((k + 1 : ℕ) : ℝ) / 20 - 0.75 = (((k + 1 : ℕ) : ℝ) - 15) / 20 := by norm_num; ring
    rw [e1, abs_div]
    norm_num at hr ⊢; linarith
  have hk : k < table.length := by rw [table_length]; omega
  rw [forEnergy_ok h3 he he', forEnergy_ok h3 g1 g2]
  rw [band_cond _ (c := table[k]), band_cond _ (c := table[k])]
  · rw [isClose_iff]; norm_num at g3 ⊢; linarith
  · rw [rowFor_eq (k := k) (by omega) (by push_cast; norm_num), List.getElem?_eq_getElem hk]
  · rw [isClose_iff]
    have t := abs_sub_le (((k + 1 : ℕ) : ℝ) / 20) e 0.75
    rw [abs_sub_comm e] at hd
    norm_num at g3 hd t ⊢; linarith
  · rw [rowFor_eq (k := k) (by omega) (by rw [abs_sub_comm]; push_cast at hd; norm_num at hd ⊢; exact hd),
      List.getElem?_eq_getElem hk]

open PR23 in
/-- PR23: within the limits the median and the plus-sigma duration of every energy of
[0.10, 0.95] are defined and positive, and the plus-sigma duration is longer than the median. -/
theorem C72_plus (s : Scenario) (m r v : ℝ) (h : Has s m r v) (hl : InLimits m r v) :
    ∃ inst, (PR23.cls.new s).res = .ok inst ∧ ∀ e : ℝ, 0.10 ≤ e → e ≤ 0.95 →
      ∃ b, (durationForEnergy inst e).res = .ok b ∧ b.median.ok ∧ b.plus.ok ∧ 0 < b.median.val ∧
        b.median.val < b.plus.val := by
  obtain ⟨inst, h1, h2, h3⟩ := h.built
  refine ⟨inst, h1, fun e he he' => ?_⟩
  rw [forEnergy_ok h3 he he']
  refine ⟨_, rfl, ?_⟩
  by_cases hc : IsClose e 0.75
  · rw [band_base _ hc]
    obtain ⟨o, g, a, b, c, d, e, f⟩ := C29_band s m r v h hl
    have := g.unique h.gives
    subst this
    exact ⟨a, b, d.trans e, f⟩
  · obtain ⟨c, hm, hr⟩ := rowFor_mem he
    rw [band_cond _ hc hr]
    have hv := hl.vpos
    have hM := medR_pos (m := m) hl.rup.1 hv hl.v.2
    have hC := cR_pos hm hl.rup.1 hl.rup.2 hl.v.1 hl.v.2
    have hq := Real.sqrt_pos.2 (qR_pos hm hl.mag.1 hl.mag.2 hl.rup.1 hl.rup.2 hl.v.1 hl.v.2)
    have k1 := cModel_ok c m r hv
    have k2 := median_ok m r hv
    have k3 := sigmaCond_ok hm hl.mag.1 hl.mag.2 hl.rup.1 hl.rup.2 hl.v.1 hl.v.2
    have hX : 0 < cR c r v * medR m r v := mul_pos hC hM
    have hXp := Real.rpow_pos_of_pos hX (0.3 : ℝ)
    simp only [condBand, fsimp, cModel_val, median_val, sigmaCond_val, k1, k2, k3, true_and, and_true]
    refine ⟨⟨Or.inl hX, by norm_num, Or.inl (by linarith)⟩, hX, ?_⟩
    have e : ((cR c r v * medR m r v) ^ (0.3 : ℝ)) ^ ((1 : ℝ) / 0.3) = cR c r v * medR m r v := by
      rw [← Real.rpow_mul hX.le]; norm_num
    conv_lhs => rw [← e]
    exact Real.rpow_lt_rpow hXp.le (by linarith) (by norm_num)

namespace PR23

/-- ratio of the median of threshold `k` to the D5-75 median, as three coefficients -/
def eff (k : ℕ) : ℚ × ℚ × ℚ :=
  if k = 14 then (1, 0, 0) else
  match table[k]? with
  | some c => (c.cmed + c.a0, c.r1x, c.v1x)
  | none => (0, 0, 0)

theorem band_median {k : ℕ} (hk : k < 19) (m r v : ℝ) :
    (band (inp m r v) (((k : ℝ) + 1) / 20)).median.val =
      (((eff k).1 : ℝ) + (eff k).2.1 * r + (eff k).2.2 * Real.log (v / 2000)) * medR m r v := by
  by_cases h : k = 14
  · subst h
    rw [band_base _ (by rw [isClose_iff]; norm_num)]
    simp only [base, median_val, eff]
    simp
  · have g3 : (0.05 : ℝ) ≤ |((k : ℝ) + 1) / 20 - 0.75| := by
      have hz : (1 : ℤ) ≤ |(k : ℤ) - 14| := Int.one_le_abs (by omega)
      have hr : (1 : ℝ) ≤ |(k : ℝ) - 14| := by exact_mod_cast hz
      have e1 : ((k : ℝ) + 1) / 20 - 0.75 = ((k : ℝ) - 14) / 20 := by norm_num; ring
      rw [e1, abs_div]
      norm_num at hr ⊢; linarith
    have hk' : k < table.length := hk
    rw [band_cond _ (c := table[k]) (by rw [isClose_iff]; norm_num at g3 ⊢; linarith)
      (by rw [rowFor_eq (k := k) hk (by norm_num), List.getElem?_eq_getElem hk'])]
    have e : eff k = (table[k].cmed + table[k].a0, table[k].r1x, table[k].v1x) := by
      unfold eff; rw [if_neg h, List.getElem?_eq_getElem hk']
    rw [e]
    simp only [condBand, fsimp, cModel_val, median_val, cR]
    push_cast
    rfl

set_option synthInstance.maxSize 1000 in
theorem eff_step : ∀ j < 19, ∀ k < 19, (1 ≤ j ∧ j < k) →
    0 < (eff k).1 - (eff j).1 ∧ 0 < (eff k).1 - (eff j).1 + ((eff k).2.1 - (eff j).2.1) * 100 ∧
    0 < (eff k).1 - (eff j).1 + ((eff k).2.2 - (eff j).2.2) * -2.591 ∧
    0 < (eff k).1 - (eff j).1 + ((eff k).2.1 - (eff j).2.1) * 100
      + ((eff k).2.2 - (eff j).2.2) * -2.591 := by decide +kernel

end PR23

open PR23 in
/-- PR23: within the limits and up to 100 km the medians D5-10, D5-15, ..., D5-95 strictly increase
with the threshold. -/
theorem C72_increasing (s : Scenario) (m r v : ℝ) (h : Has s m r v) (hl : InLimits m r v)
    (hr : r ≤ 100) :
    ∃ inst, (PR23.cls.new s).res = .ok inst ∧ ∀ j k : ℕ, 2 ≤ j → j < k → k ≤ 19 →
      ∃ b b', (durationForEnergy inst (j / 20)).res = .ok b ∧
        (durationForEnergy inst (k / 20)).res = .ok b' ∧ F.Drops b'.median b.median := by
  obtain ⟨inst, h1, h2, h3⟩ := h.built
  obtain ⟨inst', h1', hp⟩ := C72_plus s m r v h hl
  rw [h1] at h1'; cases h1'
  refine ⟨inst, h1, ?_⟩
  intro j k hj hjk hk
  obtain ⟨j, rfl⟩ : ∃ i, j = i + 1 := ⟨j - 1, by omega⟩
  obtain ⟨k, rfl⟩ : ∃ i, k = i + 1 := ⟨k - 1, by omega⟩
  have rng : ∀ i : ℕ, 2 ≤ i → i ≤ 19 → (0.10 : ℝ) ≤ (i : ℝ) / 20 ∧ (i : ℝ) / 20 ≤ 0.95 := by
    intro i a b
    have a' : (2 : ℝ) ≤ i := by exact_mod_cast a
    have b' : (i : ℝ) ≤ 19 := by exact_mod_cast b
    constructor <;> norm_num <;> linarith
  obtain ⟨a1, a2⟩ := rng (j + 1) (by omega) (by omega)
  obtain ⟨b1, b2⟩ := rng (k + 1) (by omega) (by omega)
  obtain ⟨b, hb, hbo, -, -, -⟩ := hp _ a1 a2
  obtain ⟨b', hb', hbo', -, -, -⟩ := hp _ b1 b2
  refine ⟨b, b', hb, hb', hbo', hbo, ?_⟩
  rw [forEnergy_ok h3 a1 a2] at hb
  rw [forEnergy_ok h3 b1 b2] at hb'
  cases hb; cases hb'
  push_cast
  rw [band_median (by omega), band_median (by omega)]
  refine mul_lt_mul_of_pos_right ?_ (medR_pos hl.rup.1 hl.vpos hl.v.2)
  obtain ⟨e1, e2, e3, e4⟩ := eff_step j (by omega) k (by omega) ⟨by omega, by omega⟩
  have := corner_pos (a := ((eff k).1 : ℝ) - (eff j).1) (b := ((eff k).2.1 : ℝ) - (eff j).2.1)
    (c := ((eff k).2.2 : ℝ) - (eff j).2.2) (R := 100) ⟨hl.rup.1, hr⟩ (log_v hl.v.1 hl.v.2)
    (by exact_mod_cast e1) (by exact_mod_cast e2)
    (by
      have : ((0 : ℚ) : ℝ) < (((eff k).1 - (eff j).1 + ((eff k).2.2 - (eff j).2.2) * -2.591 : ℚ) : ℝ) := by
        exact_mod_cast e3
      norm_num at this ⊢; linarith)
    (by
      have : ((0 : ℚ) : ℝ) < (((eff k).1 - (eff j).1 + ((eff k).2.1 - (eff j).2.1) * 100
          + ((eff k).2.2 - (eff j).2.2) * -2.591 : ℚ) : ℝ) := by
        exact_mod_cast e4
      norm_num at this ⊢; linarith)
  linarith

open PR23 in
/-- PR23: within the limits the median D5-80 is shorter than the median D5-75 exactly when
`0.0003 r + 0.0512 ln(v_s30 / 2000) > 0.069275` (far, hard sites, such as 240 km and 2000 m/s). -/
theorem C72_inversion (s : Scenario) (m r v : ℝ) (h : Has s m r v) (hl : InLimits m r v) :
    ∃ inst, (PR23.cls.new s).res = .ok inst ∧
      ∃ b b', (durationForEnergy inst 0.75).res = .ok b ∧ (durationForEnergy inst 0.8).res = .ok b' ∧
        b.median.ok ∧ b'.median.ok ∧
        (b'.median.val < b.median.val ↔ 0.069275 < 0.0003 * r + 0.0512 * Real.log (v / 2000)) := by
  obtain ⟨inst, h1, h2, h3⟩ := h.built
  obtain ⟨inst', h1', hp⟩ := C72_plus s m r v h hl
  rw [h1] at h1'; cases h1'
  refine ⟨inst, h1, ?_⟩
  obtain ⟨b, hb, hbo, -, -, -⟩ := hp 0.75 (by norm_num) (by norm_num)
  obtain ⟨b', hb', hbo', -, -, -⟩ := hp 0.8 (by norm_num) (by norm_num)
  refine ⟨b, b', hb, hb', hbo, hbo', ?_⟩
  rw [forEnergy_ok h3 (by norm_num) (by norm_num)] at hb hb'
  cases hb; cases hb'
  have e1 : (0.75 : ℝ) = (((14 : ℕ) : ℝ) + 1) / 20 := by norm_num
  have e2 : (0.8 : ℝ) = (((15 : ℕ) : ℝ) + 1) / 20 := by norm_num
  rw [e1, e2, band_median (by norm_num), band_median (by norm_num)]
  have f1 : eff 14 = (1, 0, 0) := by decide +kernel
  have f2 : eff 15 = (1.069275, -0.0003, -0.0512) := by decide +kernel
  rw [f1, f2, mul_lt_mul_iff_left₀ (medR_pos hl.rup.1 hl.vpos hl.v.2)]
  push_cast
  norm_num
  constructor <;> intro h <;> linarith

example : ∃ s, PR23.Has s 6 240 2000 ∧ PR23.InLimits 6 240 2000 ∧
    (0.069275 : ℝ) < 0.0003 * 240 + 0.0512 * Real.log (2000 / 2000) := by
  refine ⟨⟨[("mag", .num 6), ("dist_rup", .num 240), ("v_s30", .num 2000)], []⟩, ?_, ?_, ?_⟩
  · constructor <;> simp [Scenario.get, Dict.get?]
  · constructor <;> norm_num
  · norm_num

namespace PR23

/-- the row of the 0.10 threshold -/
def row10 : Row := ⟨0.10, 0.157, -0.010798, 0.0007, 0.039, 0.156, -0.083⟩

theorem row1 : table[1]? = some row10 := by decide +kernel

theorem cR10_le {r v : ℝ} (hr : r ≤ 0.1) (hv : 0 < v) (hv' : v ≤ 155) : cR row10 r v ≤ 0.0468 := by
  have h1 : ((2.555 : ℚ) : ℝ) ≤ Real.log (2000 / v) := by
    apply le_log_of (by positivity) (by norm_num) (by norm_num)
    have h2 : 2000 / 155 ≤ 2000 / v := div_le_div_of_nonneg_left (by norm_num) hv hv'
    have h3 : expHi 2.555 ≤ (2000 / 155 : ℚ) := by decide +kernel
    have h4 : (expHi 2.555 : ℝ) ≤ ((2000 / 155 : ℚ) : ℝ) := by exact_mod_cast h3
    push_cast at h4
    linarith
  have e : v / 2000 = (2000 / v)⁻¹ := by rw [inv_div]
  unfold cR
  rw [e, Real.log_inv]
  simp only [row10]
  push_cast at h1 ⊢
  norm_num at *
  linarith

theorem medR_le {m r v : ℝ} (hm : m ≤ 8) (hr : 0 ≤ r) (hr' : r ≤ 0.1) (hv : 150 ≤ v)
    (hv' : v ≤ 2000) : medR m r v ≤ 16 := by
  have h0 : sourceR m r ≤ sourceR 8 r := by
    rcases eq_or_lt_of_le hm with rfl | h
    · exact le_rfl
    · exact (sourceR_mag hr h).le
  have h1 : sourceR 8 r ≤ 12.5 := by
    have hc : c2R r ≤ 0.4105 := by
      unfold c2R; rw [if_pos (by linarith)]; norm_num at *; linarith
    have e : (10 : ℝ) ^ ((8 - 6.75) * c2R r) ≤ (10 : ℝ) ^ (0.52 : ℝ) :=
      Real.rpow_le_rpow_of_exponent_le (by norm_num) (by norm_num at *; linarith)
    have q : (10 : ℝ) ^ (0.52 : ℝ) ≤ 3.4 := by
      refine le_of_pow_le_pow_left₀ (n := 25) (by norm_num) (by norm_num) ?_
      rw [← Real.rpow_natCast, ← Real.rpow_mul (by norm_num)]
      have : (0.52 : ℝ) * (25 : ℕ) = ((13 : ℕ) : ℝ) := by norm_num
      rw [this, Real.rpow_natCast]
      norm_num
    unfold sourceR
    rw [if_neg (by norm_num)]
    have := e.trans q
    norm_num at this ⊢; linarith
  have h2 : pathR r ≤ 0.011 := by
    unfold pathR; rw [if_pos (by linarith)]; norm_num at *; linarith
  have h3 : siteR v ≤ 3.3 := by
    have hl := (log_v hv hv').1
    have hl0 := (log_v hv hv').2
    have hs : sgR v ≤ 1.11 := by
      have := sgR_anti (v := 1) (v' := v) (by norm_num) (by linarith)
      have e : sgR 1 = 1.11 := by unfold sgR; rw [if_pos (by norm_num)]
      linarith
    have he : Real.exp (0.278 * sgR v) ≤ 2 := by
      have : Real.exp (0.278 * sgR v) ≤ Real.exp 0.5 := by
        rw [Real.exp_le_exp]; norm_num at *; linarith
      have h5 : Real.exp 0.5 ≤ 2 := by
        have := le_expHi (q := 0.5) (by norm_num) (by norm_num)
        have h6 : expHi 0.5 ≤ 2 := by decide +kernel
        have h7 : (expHi 0.5 : ℝ) ≤ 2 := by exact_mod_cast h6
        push_cast at this
        linarith
      linarith
    unfold siteR
    have hp : 0 ≤ -0.619 * Real.log (v / 2000) := by nlinarith
    calc -0.619 * Real.log (v / 2000) * Real.exp (0.278 * sgR v)
        ≤ -0.619 * Real.log (v / 2000) * 2 := mul_le_mul_of_nonneg_left he hp
      _ ≤ 3.3 := by norm_num at *; linarith
  unfold medR
  norm_num at *; linarith

end PR23

open PR23 in
/-- PR23: inside the recommended limits, for every magnitude, at up to 0.1 km distance and on sites
of 150 to 155 m/s, the minus-sigma duration of D5-10 is undefined: its base is negative, so the code
returns `nan`. -/
theorem C72_minus_undefined (s : Scenario) (m r v : ℝ) (h : Has s m r v) (hl : InLimits m r v)
    (hr : r ≤ 0.1) (hv : v ≤ 155) :
    ∃ inst, (PR23.cls.new s).res = .ok inst ∧
      ∃ b, (durationForEnergy inst 0.10).res = .ok b ∧ b.median.ok ∧ b.plus.ok ∧ ¬ b.minus.ok := by
  obtain ⟨inst, h1, h2, h3⟩ := h.built
  obtain ⟨inst', h1', hp⟩ := C72_plus s m r v h hl
  rw [h1] at h1'; cases h1'
  refine ⟨inst, h1, ?_⟩
  obtain ⟨b, hb, hbo, hbp, -, -⟩ := hp 0.10 (by norm_num) (by norm_num)
  refine ⟨b, hb, hbo, hbp, ?_⟩
  rw [forEnergy_ok h3 (by norm_num) (by norm_num), band_cond _ (by rw [isClose_iff]; norm_num [abs_of_neg])
    (c := row10) (by rw [rowFor_eq (k := 1) (by norm_num) (by norm_num)]; exact row1)] at hb
  cases hb
  have hv0 := hl.vpos
  have hc : row10 ∈ table.drop 1 := by decide +kernel
  have hC := cR_pos hc hl.rup.1 hl.rup.2 hl.v.1 hl.v.2
  have hC' := cR10_le hr hv0 hv
  have hM := medR_pos (m := m) hl.rup.1 hv0 hl.v.2
  have hM' := medR_le hl.mag.2 hl.rup.1 hr hl.v.1 hl.v.2
  have hsg : 0.387 ≤ sigmaR m r v := by
    have sv : 0.034 ≤ svR v := by
      have e1 : (1.29 : ℝ) ≤ 200 / v := by rw [le_div_iff₀ hv0]; norm_num at *; linarith
      have e2 : (200 / v) ^ (2 : ℝ) ≤ (200 / v) ^ (2.401 : ℝ) :=
        Real.rpow_le_rpow_of_exponent_le (by norm_num at e1 ⊢; linarith) (by norm_num)
      rw [Real.rpow_two] at e2
      refine le_min ?_ (by norm_num)
      norm_num at *
      nlinarith
    unfold sigmaR
    have hm := hl.mag
    have := hl.rup.1
    norm_num at *
    nlinarith [sq_nonneg r, mul_nonneg (sub_nonneg.2 hm.2) (sub_nonneg.2 hm.2), hm.2]
  set C := cR row10 r v with hCd
  set M := medR m r v ^ (0.3 : ℝ) with hMd
  set sg := sigmaR m r v
  have hMp : 0 < M := Real.rpow_pos_of_pos hM _
  have hM2 : M ≤ 2.3 := by
    have : M ≤ (16 : ℝ) ^ (0.3 : ℝ) := Real.rpow_le_rpow hM.le hM' (by norm_num)
    refine this.trans ?_
    refine le_of_pow_le_pow_left₀ (n := 10) (by norm_num) (by norm_num) ?_
    rw [← Real.rpow_natCast, ← Real.rpow_mul (by norm_num)]
    have : (0.3 : ℝ) * (10 : ℕ) = ((3 : ℕ) : ℝ) := by norm_num
    rw [this, Real.rpow_natCast]
    norm_num
  have hP : 0 < C ^ (0.3 : ℝ) := Real.rpow_pos_of_pos hC _
  set P := C ^ (0.3 : ℝ)
  have e7 : C ^ (0.3 - 1 : ℝ) = P / C := by rw [Real.rpow_sub_one hC.ne']
  obtain ⟨t, ht, hte⟩ : ∃ t : ℝ, 1 ≤ t ∧ 0.3 * 0.156 = t * C := by
    refine ⟨0.3 * 0.156 / C, ?_, by field_simp⟩
    rw [one_le_div hC]; norm_num at *; linarith
  have hq : qR row10 m r v = P ^ 2 * (sg ^ 2 + (t * M) ^ 2 + 2 * -0.083 * (t * M) * sg) := by
    have e8 : M * 0.3 * (P / C) * ((0.156 : ℚ) : ℝ) = P * (t * M) := by
      have : M * 0.3 * (P / C) * ((0.156 : ℚ) : ℝ) = M * P * (0.3 * 0.156) / C := by
        push_cast; norm_num; ring
      rw [this, hte]; field_simp
    unfold qR
    rw [← hCd, e7]
    simp only [row10]
    have e9 : 2 * (((-0.083 : ℚ)) : ℝ) * P * (M * 0.3 * (P / C)) * sg * ((0.156 : ℚ) : ℝ)
        = 2 * ((-0.083 : ℚ) : ℝ) * P * (M * 0.3 * (P / C) * ((0.156 : ℚ) : ℝ)) * sg := by ring
    change (P * sg) ^ 2 + (M * 0.3 * (P / C) * ((0.156 : ℚ) : ℝ)) ^ 2 + _ = _
    change (P * sg) ^ 2 + (M * 0.3 * (P / C) * ((0.156 : ℚ) : ℝ)) ^ 2
      + 2 * (((-0.083 : ℚ)) : ℝ) * P * (M * 0.3 * (P / C)) * sg * ((0.156 : ℚ) : ℝ) = _
    rw [e9, e8]
    push_cast
    norm_num
    ring
  have key : M ^ 2 < sg ^ 2 + (t * M) ^ 2 + 2 * -0.083 * (t * M) * sg := by
    have a1 : M ≤ t * M := by nlinarith
    norm_num at *
    nlinarith [mul_pos hMp hMp, mul_nonneg (sub_nonneg.2 a1) hMp.le, mul_nonneg (sub_nonneg.2 a1) (sub_nonneg.2 hsg),
      mul_nonneg (sub_nonneg.2 a1) (sub_nonneg.2 a1), mul_nonneg (sub_nonneg.2 hM2) (sub_nonneg.2 hsg)]
  have fin : (C * medR m r v) ^ (0.3 : ℝ) < Real.sqrt (qR row10 m r v) := by
    rw [Real.mul_rpow hC.le hM.le]
    apply Real.lt_sqrt_of_sq_lt
    rw [hq, mul_pow]
    exact mul_lt_mul_of_pos_left key (by positivity)
  intro hk
  simp only [condBand, fsimp, cModel_val, median_val, sigmaCond_val] at hk
  obtain ⟨-, -, hk⟩ := hk
  rcases hk with hk | hk
  · linarith
  · linarith [hk.1]

example : ∃ s, PR23.Has s 7 0 150 ∧ PR23.InLimits 7 0 150 := by
  refine ⟨⟨[("mag", .num 7), ("dist_rup", .num 0), ("v_s30", .num 150)], []⟩, ?_, ?_⟩
  · constructor <;> simp [Scenario.get, Dict.get?]
  · constructor <;> norm_num
