import Verif.Props.Durations

/-! # C100: Afshari & Stewart (2016) against magnitude, velocity, basin depth and mechanism -/

open Bounds

set_option linter.unusedSimpArgs false

namespace AS16
noncomputable section

/-- the exponent of the stress-drop index -/
def expo (c : Row) (k : Mech) (m : ℝ) : ℝ := c.b1 k + c.b2 * (min m c.mag2 - 6) + c.b3 * max (m - c.mag2) 0

/-- log of the source duration above the first corner magnitude -/
def srcLn (c : Row) (k : Mech) (m : ℝ) : ℝ :=
  -Real.log 1.568 + (0.5 * m - 1.65) * Real.log 10 - expo c k m / 3

/-- average basin depth, in km -/
def mu (v : ℝ) : ℝ :=
  Real.exp (-7.15 / 4 * Real.log ((v ^ 4 + 570.94 ^ 4) / (1360 ^ 4 + 570.94 ^ 4))) / 1000

end

theorem source_low {c : Row} (k : Mech) {m : ℝ} (h : m ≤ c.mag1) : (source c k (F.ofReal m)).val = c.b0 k := by
  simp only [source, seismicMoment, fsimp]
  rw [if_pos h, if_neg (not_lt.2 h)]; ring

theorem source_high {c : Row} (k : Mech) {m : ℝ} (h : (c.mag1 : ℝ) < m) :
    (source c k (F.ofReal m)).val = Real.exp (srcLn c k m) := by
  simp only [source, seismicMoment, fsimp]
  rw [if_neg (not_le.2 h), if_pos h, source_val]
  have e : (4.9e6 * 3.2 : ℝ) = Real.exp (Real.log 1.568 + 7 * Real.log 10) := by
    rw [Real.exp_add, Real.exp_log (by norm_num), mul_comm (7 : ℝ), Real.exp_mul, Real.exp_log (by norm_num)]
    norm_num
  rw [zero_mul, zero_add, one_mul, e, ← Real.exp_add, one_div, ← Real.exp_neg]
  congr 1
  simp only [srcLn, expo]
  ring

theorem log10_lo : (2.302585 : ℝ) ≤ Real.log 10 := by
  have := le_log_of (x := 10) (q := 2.302585) (by norm_num) (by norm_num) (by norm_num)
    (by have : expHi 2.302585 ≤ 10 := by decide +kernel
        exact_mod_cast this)
  push_cast at this; linarith

theorem log10_hi : Real.log 10 ≤ (2.302586 : ℝ) := by
  have := log_le_of (x := 10) (q := 2.302586) (by norm_num) (by norm_num)
    (by have : 10 ≤ expLo 2.302586 := by decide +kernel
        exact_mod_cast this)
  push_cast at this; linarith

theorem log1568_lo : (0.4498 : ℝ) ≤ Real.log 1.568 := by
  have := le_log_of (x := 1.568) (q := 0.4498) (by norm_num) (by norm_num) (by norm_num)
    (by have : expHi 0.4498 ≤ 1.568 := by decide +kernel
        have : (expHi 0.4498 : ℝ) ≤ ((1.568 : ℚ) : ℝ) := by exact_mod_cast this
        push_cast at this; linarith)
  push_cast at this; linarith

theorem log1568_hi : Real.log 1.568 ≤ (0.44981 : ℝ) := by
  have := log_le_of (x := 1.568) (q := 0.44981) (by norm_num) (by norm_num)
    (by have : 1.568 ≤ expLo 0.44981 := by decide +kernel
        have : ((1.568 : ℚ) : ℝ) ≤ (expLo 0.44981 : ℝ) := by exact_mod_cast this
        push_cast at this; linarith)
  push_cast at this; linarith

/-- slopes and corners -/
theorem rows2 : ∀ c ∈ table, 0.74 ≤ c.b2 ∧ c.b2 ≤ 0.95 ∧ c.b3 ≤ 0 ∧ 5.2 ≤ c.mag1 ∧ c.mag1 ≤ 5.35 ∧
    7.15 ≤ c.mag2 ∧ c.c4 ≤ -0.2246 ∧ -0.4237 ≤ c.c4 ∧ 0.0005 ≤ c.c5 ∧ c.c5 ≤ 0.0006 := by decide +kernel

theorem srcLn_slope {c : Row} (hc : c ∈ table) (k : Mech) {m m' : ℝ} (h : m ≤ m') :
    0.83 * (m' - m) ≤ srcLn c k m' - srcLn c k m ∧
    (m' ≤ 7.15 → srcLn c k m' - srcLn c k m ≤ 0.91 * (m' - m)) := by
  obtain ⟨h1, h2, h3, -, -, h4, -⟩ := rows2 c hc
  have h1' : ((0.74 : ℚ) : ℝ) ≤ c.b2 := by exact_mod_cast h1
  have h2' : (c.b2 : ℝ) ≤ ((0.95 : ℚ) : ℝ) := by exact_mod_cast h2
  have h3' : (c.b3 : ℝ) ≤ 0 := by exact_mod_cast h3
  have h4' : ((7.15 : ℚ) : ℝ) ≤ c.mag2 := by exact_mod_cast h4
  push_cast at h1' h2' h4'
  have l1 := log10_lo
  have l2 := log10_hi
  generalize Real.log 10 = L at l1 l2
  have hL : srcLn c k m' - srcLn c k m = 0.5 * (m' - m) * Real.log 10 - (expo c k m' - expo c k m) / 3 := by
    simp only [srcLn]; ring
  rw [hL]
  have l1 := log10_lo
  have l2 := log10_hi
  have p1 := mul_le_mul_of_nonneg_left l1 (show 0 ≤ 0.5 * (m' - m) by linarith)
  have p2 := mul_le_mul_of_nonneg_left l2 (show 0 ≤ 0.5 * (m' - m) by linarith)
  have a1 : min m' c.mag2 - min m c.mag2 ≤ m' - m := by
    rcases le_total m (c.mag2 : ℝ) with q | q
    · rw [min_eq_left q]; have := min_le_left m' (c.mag2 : ℝ); linarith
    · rw [min_eq_right q, min_eq_right (q.trans h)]; linarith
  have a2 : min m (c.mag2 : ℝ) ≤ min m' c.mag2 := min_le_min_right _ h
  have a3 : max (m - c.mag2) 0 ≤ max (m' - c.mag2) (0 : ℝ) := max_le_max (by linarith) le_rfl
  have e : expo c k m' - expo c k m = c.b2 * (min m' c.mag2 - min m c.mag2)
      + c.b3 * (max (m' - c.mag2) 0 - max (m - c.mag2) 0) := by simp only [expo]; ring
  rw [e]
  have b1 := mul_le_mul_of_nonneg_right h2' (show 0 ≤ min m' c.mag2 - min m (c.mag2 : ℝ) by linarith)
  have b2 := mul_nonpos_of_nonpos_of_nonneg h3' (show 0 ≤ max (m' - c.mag2) 0 - max (m - c.mag2) (0 : ℝ) by linarith)
  constructor
  · linarith
  · intro hm
    have d1 : min m' (c.mag2 : ℝ) = m' := min_eq_left (by linarith)
    have d2 : min m (c.mag2 : ℝ) = m := min_eq_left (by linarith)
    have d3 : max (m' - c.mag2) (0 : ℝ) = 0 := max_eq_right (by linarith)
    have d4 : max (m - c.mag2) (0 : ℝ) = 0 := max_eq_right (by linarith)
    rw [d1, d2, d3, d4]
    have := mul_le_mul_of_nonneg_right h1' (show 0 ≤ m' - m by linarith)
    linarith

/-- rational version of the source duration just above the corner, times e -/
def edgeLo (c : Row) (k : Mech) : ℚ :=
  expLo (1 - 0.44981 + (0.5 * c.mag1 - 1.65) * 2.302585 - (c.b1 k + c.b2 * (c.mag1 - 6)) / 3)
def edgeHi (c : Row) (k : Mech) : ℚ :=
  expHi (1 - 0.4498 + (0.5 * c.mag1 - 1.65) * 2.302586 - (c.b1 k + c.b2 * (c.mag1 - 6)) / 3)

theorem edge {c : Row} {k : Mech} {lo hi : ℚ}
    (q1 : 0 ≤ 1 - 0.44981 + (0.5 * c.mag1 - 1.65) * 2.302585 - (c.b1 k + c.b2 * (c.mag1 - 6)) / 3)
    (q2 : 1 - 0.4498 + (0.5 * c.mag1 - 1.65) * 2.302586 - (c.b1 k + c.b2 * (c.mag1 - 6)) / 3 ≤ 8)
    (q0 : 1.65 ≤ 0.5 * c.mag1) (q3 : c.mag1 ≤ c.mag2)
    (h1 : lo * c.b0 k * expHi 1 < edgeLo c k) (h2 : edgeHi c k < hi * c.b0 k * expLo 1)
    (hb : 0 ≤ lo * c.b0 k) (hb' : 0 ≤ hi * c.b0 k) :
    lo * c.b0 k < Real.exp (srcLn c k c.mag1) ∧ Real.exp (srcLn c k c.mag1) < hi * c.b0 k := by
  have q3' : (c.mag1 : ℝ) ≤ c.mag2 := by exact_mod_cast q3
  have q0' : ((1.65 : ℚ) : ℝ) ≤ ((0.5 * c.mag1 : ℚ) : ℝ) := by exact_mod_cast q0
  push_cast at q0'
  have e : Real.exp (srcLn c k c.mag1) * Real.exp 1 = Real.exp (1 - Real.log 1.568
      + (0.5 * c.mag1 - 1.65) * Real.log 10 - (c.b1 k + c.b2 * (c.mag1 - 6)) / 3) := by
    rw [← Real.exp_add]; congr 1
    simp only [srcLn, expo, min_eq_left q3', sub_nonpos.2 q3', max_eq_right (sub_nonpos.2 q3')]
    ring
  have a1 := mul_le_mul_of_nonneg_left log10_lo (show 0 ≤ 0.5 * (c.mag1 : ℝ) - 1.65 by linarith)
  have a2 := mul_le_mul_of_nonneg_left log10_hi (show 0 ≤ 0.5 * (c.mag1 : ℝ) - 1.65 by linarith)
  have l1 := log1568_lo
  have l2 := log1568_hi
  have x1 := expLo_le q1
  have x2 := le_expHi (q1.trans (by linarith)) q2
  push_cast at x1 x2
  have y1 : (edgeLo c k : ℝ) ≤ Real.exp (srcLn c k c.mag1) * Real.exp 1 := by
    rw [e]; exact x1.trans (Real.exp_le_exp.2 (by linarith))
  have y2 : Real.exp (srcLn c k c.mag1) * Real.exp 1 ≤ edgeHi c k := by
    rw [e]; exact (Real.exp_le_exp.2 (by linarith)).trans x2
  have g1 : ((lo * c.b0 k * expHi 1 : ℚ) : ℝ) < edgeLo c k := by exact_mod_cast h1
  have g2 : (edgeHi c k : ℝ) < ((hi * c.b0 k * expLo 1 : ℚ) : ℝ) := by exact_mod_cast h2
  push_cast at g1 g2
  have z1 := le_expHi (q := 1) (by norm_num) (by norm_num)
  have z2 := expLo_le (q := 1) (by norm_num)
  push_cast at z1 z2
  have hb1 : (0 : ℝ) ≤ lo * c.b0 k := by exact_mod_cast hb
  have hb2 : (0 : ℝ) ≤ hi * c.b0 k := by exact_mod_cast hb'
  have p := Real.exp_pos 1
  constructor
  · have := mul_le_mul_of_nonneg_left z1 hb1
    exact lt_of_mul_lt_mul_right (by linarith) p.le
  · have := mul_le_mul_of_nonneg_left z2 hb2
    exact lt_of_mul_lt_mul_right (by linarith) p.le

instance : Fintype Mech := ⟨{.none, .ns, .rs, .ss}, by intro k; cases k <;> decide⟩

theorem edge_rows : ∀ i : Fin table.length, ∀ k : Mech,
    0 ≤ 1 - 0.44981 + (0.5 * table[i].mag1 - 1.65) * 2.302585 - (table[i].b1 k + table[i].b2 * (table[i].mag1 - 6)) / 3 ∧
    1 - 0.4498 + (0.5 * table[i].mag1 - 1.65) * 2.302586 - (table[i].b1 k + table[i].b2 * (table[i].mag1 - 6)) / 3 ≤ 8 ∧
    1.65 ≤ 0.5 * table[i].mag1 ∧ table[i].mag1 ≤ table[i].mag2 ∧ 0 ≤ table[i].b0 k ∧
    (i.val < 2 ∨ k ≠ .rs → 0.9996 * table[i].b0 k * expHi 1 < edgeLo table[i] k ∧
      edgeHi table[i] k < 1.0004 * table[i].b0 k * expLo 1) ∧
    (i.val = 2 ∧ k = .rs → 1.139 * table[i].b0 k * expHi 1 < edgeLo table[i] k ∧
      edgeHi table[i] k < 1.14 * table[i].b0 k * expLo 1) := by decide +kernel

theorem edge_at (i : Fin table.length) (k : Mech) :
    (i.val < 2 ∨ k ≠ .rs → 0.9996 * (table[i].b0 k : ℝ) < Real.exp (srcLn table[i] k table[i].mag1) ∧
      Real.exp (srcLn table[i] k table[i].mag1) < 1.0004 * (table[i].b0 k : ℝ)) ∧
    (i.val = 2 ∧ k = .rs → 1.139 * (table[i].b0 k : ℝ) < Real.exp (srcLn table[i] k table[i].mag1) ∧
      Real.exp (srcLn table[i] k table[i].mag1) < 1.14 * (table[i].b0 k : ℝ)) := by
  obtain ⟨h1, h2, h3, h4, h5, h6, h7⟩ := edge_rows i k
  refine ⟨fun h => ?_, fun h => ?_⟩
  · have := edge h1 h2 h3 h4 (h6 h).1 (h6 h).2 (by positivity) (by positivity)
    push_cast at this; exact this
  · have := edge h1 h2 h3 h4 (h7 h).1 (h7 h).2 (by positivity) (by positivity)
    push_cast at this; exact this

theorem mag1_idx : ∀ i : Fin table.length, table[i].mag1 = if i.val = 0 then 5.35 else 5.2 := by decide +kernel

theorem mag1_real (i : Fin table.length) : (table[i].mag1 : ℝ) = if i.val = 0 then 5.35 else 5.2 := by
  rw [mag1_idx i]; split <;> norm_num

/-- how the source duration changes with magnitude -/
theorem source_mag (i : Fin table.length) (k : Mech) {m m' : ℝ} (h : m < m') :
    let S := (source table[i] k (F.ofReal m)).val
    let S' := (source table[i] k (F.ofReal m')).val
    (m' ≤ table[i].mag1 → S' = S) ∧ (table[i].mag1 < m → S < S') ∧
    (i.val < 2 ∨ k ≠ .rs → m ≤ table[i].mag1 → table[i].mag1 < m' →
      0.9996 * S < S' ∧ (m' ≤ 7.15 → S' < 1.0004 * Real.exp (0.91 * (m' - table[i].mag1)) * S)) ∧
    (i.val = 2 ∧ k = .rs → m ≤ table[i].mag1 → table[i].mag1 < m' → 1.139 * S < S' ∧
      (m' ≤ 7.15 → S' < 1.14 * Real.exp (0.91 * (m' - table[i].mag1)) * S)) := by
  have hc : table[i] ∈ table := List.getElem_mem _
  intro S S'
  have up : (table[i].mag1 : ℝ) < m' → Real.exp (srcLn table[i] k table[i].mag1) < S' ∧
      (m' ≤ 7.15 → S' ≤ Real.exp (srcLn table[i] k table[i].mag1) * Real.exp (0.91 * (m' - table[i].mag1))) := by
    intro q
    have := srcLn_slope hc k q.le
    simp only [S', source_high k q, ← Real.exp_add]
    refine ⟨Real.exp_lt_exp.2 (by linarith [this.1]), fun w => Real.exp_le_exp.2 (by linarith [this.2 w])⟩
  refine ⟨fun q => ?_, fun q => ?_, fun q q1 q2 => ?_, fun q q1 q2 => ?_⟩
  · simp only [S, S', source_low k q, source_low k (h.le.trans q)]
  · simp only [S, S', source_high k q, source_high k (q.trans h)]
    exact Real.exp_lt_exp.2 (by linarith [(srcLn_slope hc k h.le).1])
  · obtain ⟨u1, u2⟩ := up q2
    obtain ⟨e1, e2⟩ := (edge_at i k).1 q
    simp only [S, source_low k q1]
    refine ⟨by linarith, fun w => (u2 w).trans_lt ?_⟩
    have := mul_lt_mul_of_pos_right e2 (Real.exp_pos (0.91 * (m' - table[i].mag1)))
    linarith
  · obtain ⟨u1, u2⟩ := up q2
    obtain ⟨e1, e2⟩ := (edge_at i k).2 q
    simp only [S, source_low k q1]
    refine ⟨by linarith, fun w => (u2 w).trans_lt ?_⟩
    have := mul_lt_mul_of_pos_right e2 (Real.exp_pos (0.91 * (m' - table[i].mag1)))
    linarith

/-- a duration as a number -/
theorem dur_val {c : Row} (hc : c ∈ table) (k : Mech) (m : ℝ) {r v : ℝ} (hr : 0 ≤ r) (z : Option ℝ) :
    (F.exp (lnDur c k (F.ofReal m) (F.ofReal r) (F.ofReal v) (z.map F.ofReal) false)).val =
      ((source c k (F.ofReal m)).val + (path c (F.ofReal r)).val) *
        Real.exp (site c (F.ofReal v) (z.map F.ofReal) false).val := by
  have h1 := (source_ok_pos hc k m).2
  have h2 := path_nonneg hc hr
  simp only [lnDur, F.val_exp, F.val_add, F.val_log, Real.exp_add]
  rw [Real.exp_log (by linarith)]

theorem dur_ok {c : Row} (hc : c ∈ table) (k : Mech) (m : ℝ) {r v : ℝ} (hr : 0 ≤ r) (hv : 0 < v) (z : Option ℝ) :
    (F.exp (lnDur c k (F.ofReal m) (F.ofReal r) (F.ofReal v) (z.map F.ofReal) false)).ok := by
  rw [F.ok_exp]; exact lnDur_ok hc k m hr hv z false

/-- how a duration changes with magnitude -/
theorem dur_mag (i : Fin table.length) (k : Mech) {m m' r v : ℝ} (h : m < m') (hr : 0 ≤ r) (z : Option ℝ) :
    let d := (F.exp (lnDur table[i] k (F.ofReal m) (F.ofReal r) (F.ofReal v) (z.map F.ofReal) false)).val
    let d' := (F.exp (lnDur table[i] k (F.ofReal m') (F.ofReal r) (F.ofReal v) (z.map F.ofReal) false)).val
    (m' ≤ table[i].mag1 → d' = d) ∧ (table[i].mag1 < m → d < d') ∧
    (i.val < 2 ∨ k ≠ .rs → m ≤ table[i].mag1 → table[i].mag1 < m' →
      0.9996 * d < d' ∧ (m' ≤ 7.15 → d' < 1.0004 * Real.exp (0.91 * (m' - table[i].mag1)) * d)) ∧
    (i.val = 2 ∧ k = .rs → r = 0 → m ≤ table[i].mag1 → table[i].mag1 < m' → 1.139 * d < d') := by
  have hc : table[i] ∈ table := List.getElem_mem _
  intro d d'
  obtain ⟨h1, h2, h3, h4⟩ := source_mag i k h
  have hp := path_nonneg hc hr
  have hs := (source_ok_pos hc k m).2
  have hE := Real.exp_pos (site table[i] (F.ofReal v) (z.map F.ofReal) false).val
  have hz : r = 0 → (path table[i] (F.ofReal r)).val = 0 := by
    rintro rfl
    simp only [path, fsimp]
    norm_num
  simp only [d, d', dur_val hc k _ hr z]
  generalize (source table[i] k (F.ofReal m)).val = S at *
  generalize (source table[i] k (F.ofReal m')).val = S' at *
  generalize (path table[i] (F.ofReal r)).val = P at *
  generalize Real.exp (site table[i] (F.ofReal v) (z.map F.ofReal) false).val = E at *
  refine ⟨fun q => by rw [h1 q], fun q => mul_lt_mul_of_pos_right (by linarith [h2 q]) hE, fun q q1 q2 => ?_,
    fun q q0 q1 q2 => ?_⟩
  · obtain ⟨g1, g2⟩ := h3 q q1 q2
    refine ⟨?_, fun w => ?_⟩
    · have := mul_lt_mul_of_pos_right (show 0.9996 * (S + P) < S' + P by linarith) hE
      linarith
    · have g := g2 w
      have one : 1 ≤ Real.exp (0.91 * (m' - table[i].mag1)) := Real.one_le_exp (by linarith)
      have o2 := mul_le_mul_of_nonneg_right (show 1 ≤ 1.0004 * Real.exp (0.91 * (m' - table[i].mag1)) by linarith) hp
      have := mul_lt_mul_of_pos_right
        (show S' + P < 1.0004 * Real.exp (0.91 * (m' - table[i].mag1)) * (S + P) by linarith) hE
      linarith
  · have g := (h4 q q1 q2).1
    rw [hz q0]
    have := mul_lt_mul_of_pos_right g hE
    linarith

end AS16

/-- **C100.** Two scenarios that differ in magnitude only.  D5-75 is the same for all magnitudes up
to 5.35 and strictly increases above, D5-95 and D20-80 likewise with 5.2; crossing the corner never
shortens a duration by more than 0.04 % and above it the growth is at most a factor exp(0.91) per unit
(up to 7.15) — except the D20-80 of a reverse fault, which leaps by more than 13.9 % at distance 0. -/
theorem C100_magnitude (s t : Scenario) (m m' r v : ℝ) (z : Option ℝ) (mech : String) (hr : 0 ≤ r) (hv : 0 < v)
    (hmm : m < m')
    (hsm : s.get "mag" = .num m) (hsr : s.get "dist_rup" = .num r) (hsv : s.get "v_s30" = .num v)
    (hsz : s.get "depth_1_0" = Val.ofOpt z) (hst : s.get "mechanism" = .str mech)
    (htm : t.get "mag" = .num m') (htr : t.get "dist_rup" = .num r) (htv : t.get "v_s30" = .num v)
    (htz : t.get "depth_1_0" = Val.ofOpt z) (htt : t.get "mechanism" = .str mech) :
    ∃ o p a b c a' b' c', Gives AS16.cls s o ∧ Gives AS16.cls t p ∧
      o.duration = [a, b, c] ∧ p.duration = [a', b', c'] ∧
      (m' ≤ 5.35 → a'.val = a.val) ∧ (m' ≤ 5.2 → b'.val = b.val ∧ c'.val = c.val) ∧
      (5.35 < m → a.val < a'.val) ∧ (5.2 < m → b.val < b'.val ∧ c.val < c'.val) ∧
      (m ≤ 5.35 → 5.35 < m' → 0.9996 * a.val < a'.val ∧
        (m' ≤ 7.15 → a'.val < 1.0004 * Real.exp (0.91 * (m' - 5.35)) * a.val)) ∧
      (m ≤ 5.2 → 5.2 < m' → 0.9996 * b.val < b'.val ∧
        (m' ≤ 7.15 → b'.val < 1.0004 * Real.exp (0.91 * (m' - 5.2)) * b.val)) ∧
      (m ≤ 5.2 → 5.2 < m' → mech ≠ "RS" → 0.9996 * c.val < c'.val ∧
        (m' ≤ 7.15 → c'.val < 1.0004 * Real.exp (0.91 * (m' - 5.2)) * c.val)) ∧
      (m ≤ 5.2 → 5.2 < m' → mech = "RS" → r = 0 → 1.139 * c.val < c'.val) := by
  have K0 := AS16.dur_mag ⟨0, by decide⟩ (AS16.mechFor mech) (v := v) hmm hr z
  have K1 := AS16.dur_mag ⟨1, by decide⟩ (AS16.mechFor mech) (v := v) hmm hr z
  have K2 := AS16.dur_mag ⟨2, by decide⟩ (AS16.mechFor mech) (v := v) hmm hr z
  have n : mech ≠ "RS" → AS16.mechFor mech ≠ .rs := by
    intro h
    simp only [AS16.mechFor, h, if_false]
    split <;> (try split) <;> simp
  refine ⟨_, _, _, _, _, _, _, _, AS16.gives s hsm hsr hsv hsz hst, AS16.gives t htm htr htv htz htt, rfl, rfl, ?_⟩
  rw [AS16.mag1_real] at K0 K1 K2
  simp only [if_true, one_ne_zero, OfNat.ofNat_ne_zero, if_false] at K0 K1 K2
  refine ⟨K0.1, fun w => ⟨K1.1 w, K2.1 w⟩, K0.2.1, fun w => ⟨K1.2.1 w, K2.2.1 w⟩, K0.2.2.1 (.inl (by norm_num)),
    K1.2.2.1 (.inl (by norm_num)), fun w w' w'' => K2.2.2.1 (.inr (n w'')) w w', ?_⟩
  rintro w w' rfl w''
  exact K2.2.2.2 ⟨trivial, rfl⟩ w'' w w'

namespace AS16

theorem site_none (c : Row) (v : ℝ) : (site c (F.ofReal v) ((none : Option ℝ).map F.ofReal) false).val =
    c.c4 * Real.log (min v 600 / c.vRef) := by
  simp only [site, Option.map_none, fsimp]; ring

theorem site_some (c : Row) (v z : ℝ) : (site c (F.ofReal v) ((some z).map F.ofReal) false).val =
    c.c4 * Real.log (min v 600 / c.vRef) + c.c5 * min (z - mu v) 200 := by
  simp only [site, Option.map_some, calcDepth10, Bool.false_eq_true, fsimp, mu]
  congr 2
  generalize Real.exp _ / 1000 = x
  by_cases h : z - x ≤ 200
  · rw [min_eq_left h]; simp [h]
  · rw [min_eq_right (not_le.1 h).le]; simp [h]

theorem mu_arg_pos (v : ℝ) : 0 < (v ^ 4 + 570.94 ^ 4) / (1360 ^ 4 + 570.94 ^ 4 : ℝ) := by positivity

theorem mu_pos (v : ℝ) : 0 < mu v := by unfold mu; positivity

theorem mu_lt (v : ℝ) : mu v < 0.53 := by
  have h : -Real.log ((v ^ 4 + 570.94 ^ 4) / (1360 ^ 4 + 570.94 ^ 4)) ≤ 3.503 := by
    rw [← Real.log_inv]
    have a : ((v ^ 4 + 570.94 ^ 4) / (1360 ^ 4 + 570.94 ^ 4 : ℝ))⁻¹ ≤ 33.2 := by
      rw [inv_div, div_le_iff₀ (by positivity)]
      have : 0 ≤ v ^ 4 := by positivity
      norm_num; linarith
    have b := log_le_of (x := 33.2) (q := 3.503) (by norm_num) (by norm_num)
      (by have : 33.2 ≤ expLo 3.503 := by decide +kernel
          have : ((33.2 : ℚ) : ℝ) ≤ (expLo 3.503 : ℝ) := by exact_mod_cast this
          push_cast at this; linarith)
    push_cast at b
    exact (Real.log_le_log (inv_pos.2 (mu_arg_pos v)) a).trans (by linarith)
  have e : Real.exp (-7.15 / 4 * Real.log ((v ^ 4 + 570.94 ^ 4) / (1360 ^ 4 + 570.94 ^ 4))) ≤ Real.exp 6.262 :=
    Real.exp_le_exp.2 (by linarith)
  have f := le_expHi (q := 6.262) (by norm_num) (by norm_num)
  have g : expHi 6.262 < 530 := by decide +kernel
  have g' : (expHi 6.262 : ℝ) < 530 := by exact_mod_cast g
  push_cast at f
  simp only [mu]
  linarith

/-- the average depth falls with velocity, slowly -/
theorem mu_slope {v v' : ℝ} (hv : 0 < v) (h : v < v') :
    mu v' < mu v ∧ mu v - mu v' ≤ 3.8 * (Real.log v' - Real.log v) := by
  have hv' := hv.trans h
  have p : v ^ 4 < v' ^ 4 := pow_lt_pow_left₀ h hv.le (by norm_num)
  set x := Real.log ((v ^ 4 + 570.94 ^ 4) / (1360 ^ 4 + 570.94 ^ 4)) with hx
  set y := Real.log ((v' ^ 4 + 570.94 ^ 4) / (1360 ^ 4 + 570.94 ^ 4)) with hy
  have xy : x < y := Real.log_lt_log (mu_arg_pos v)
    (div_lt_div_of_pos_right (by linarith) (by positivity))
  have d : y - x ≤ 4 * (Real.log v' - Real.log v) := by
    rw [hx, hy, ← Real.log_div (mu_arg_pos v').ne' (mu_arg_pos v).ne', ← Real.log_div hv'.ne' hv.ne']
    have : (4 : ℝ) * Real.log (v' / v) = Real.log ((v' / v) ^ 4) := by rw [Real.log_pow]; norm_num
    rw [this]
    refine Real.log_le_log (div_pos (mu_arg_pos v') (mu_arg_pos v)) ?_
    rw [div_div_div_cancel_right₀ (by positivity), div_pow, div_le_div_iff₀ (by positivity) (by positivity)]
    have : 0 < v ^ 4 := by positivity
    nlinarith
  have m1 : mu v' = mu v * Real.exp (-(7.15 / 4 * (y - x))) := by
    simp only [mu, ← hx, ← hy]
    have : Real.exp (-7.15 / 4 * y) = Real.exp (-7.15 / 4 * x) * Real.exp (-(7.15 / 4 * (y - x))) := by
      rw [← Real.exp_add]; congr 1; ring
    rw [this]; ring
  have pm := mu_pos v
  have lm := mu_lt v
  have e1 := Real.add_one_le_exp (-(7.15 / 4 * (y - x)))
  have e2 : Real.exp (-(7.15 / 4 * (y - x))) < 1 := Real.exp_lt_one_iff.2 (by linarith)
  constructor
  · rw [m1]; exact mul_lt_of_lt_one_right pm e2
  · have a : mu v - mu v' ≤ mu v * (7.15 / 4 * (y - x)) := by
      rw [m1]
      have := mul_le_mul_of_nonneg_left e1 pm.le
      linarith
    have b := mul_le_mul_of_nonneg_right lm.le (show 0 ≤ 7.15 / 4 * (y - x) by linarith)
    linarith

theorem c_facts {c : Row} (hc : c ∈ table) : (c.c4 : ℝ) ≤ -0.2246 ∧ (0.0005 : ℝ) ≤ c.c5 ∧ (c.c5 : ℝ) ≤ 0.0006 ∧
    (0 : ℝ) < c.vRef := by
  obtain ⟨-, -, -, -, -, -, h1, -, h2, h3⟩ := rows2 c hc
  obtain ⟨-, -, -, h4, -⟩ := row_facts c hc
  have a : (c.c4 : ℝ) ≤ ((-0.2246 : ℚ) : ℝ) := by exact_mod_cast h1
  have b : ((0.0005 : ℚ) : ℝ) ≤ c.c5 := by exact_mod_cast h2
  have d : (c.c5 : ℝ) ≤ ((0.0006 : ℚ) : ℝ) := by exact_mod_cast h3
  push_cast at a b d
  exact ⟨a, b, d, by exact_mod_cast h4⟩

/-- the site term against the velocity -/
theorem site_v {c : Row} (hc : c ∈ table) {v v' : ℝ} (hv : 0 < v) (h : v < v') (z : Option ℝ) :
    let f := fun v => (site c (F.ofReal v) (z.map F.ofReal) false).val
    (v' ≤ 600 → (∀ x ∈ z, 0 ≤ x ∧ x ≤ 200) → f v' < f v) ∧
    (600 ≤ v → (z = none → f v' = f v) ∧ ((∃ x ∈ z, x ≤ 200) → f v < f v')) := by
  obtain ⟨h4, h5, h6, hR⟩ := c_facts hc
  have hv' := hv.trans h
  obtain ⟨m1, m2⟩ := mu_slope hv h
  intro f
  have L : Real.log v < Real.log v' := Real.log_lt_log hv h
  cases z with
  | none =>
    simp only [f, site_none]
    refine ⟨fun w _ => ?_, fun w => ⟨fun _ => ?_, ?_⟩⟩
    · rw [min_eq_left w, min_eq_left (h.le.trans w), Real.log_div hv'.ne' hR.ne', Real.log_div hv.ne' hR.ne']
      have := mul_lt_mul_of_neg_left L (show (c.c4 : ℝ) < 0 by linarith)
      linarith
    · rw [min_eq_right w, min_eq_right (w.trans h.le)]
    · rintro ⟨x, hx, -⟩; simp at hx
  | some z =>
    have p := mu_pos v
    have p' := mu_pos v'
    simp only [f, site_some]
    refine ⟨fun w hz => ?_, fun w => ⟨fun q => by simp at q, ?_⟩⟩
    · obtain ⟨z0, z1⟩ := hz z rfl
      rw [min_eq_left w, min_eq_left (h.le.trans w), Real.log_div hv'.ne' hR.ne', Real.log_div hv.ne' hR.ne',
        min_eq_left (by linarith), min_eq_left (by linarith)]
      have a := mul_le_mul_of_nonneg_right h4 (show 0 ≤ Real.log v' - Real.log v by linarith)
      have b := mul_le_mul_of_nonneg_right h6 (show 0 ≤ mu v - mu v' by linarith)
      linarith
    · rintro ⟨x, hx, q⟩
      obtain rfl : z = x := by simpa using hx
      rw [min_eq_right w, min_eq_right (w.trans h.le), min_eq_left (by linarith), min_eq_left (by linarith)]
      have := mul_lt_mul_of_pos_left (show z - mu v < z - mu v' by linarith) (show (0 : ℝ) < c.c5 by linarith)
      linarith

/-- a duration moves with its site term -/
theorem dur_site {c : Row} (hc : c ∈ table) (k : Mech) (m : ℝ) {r v v' : ℝ} (hr : 0 ≤ r) (z z' : Option ℝ) :
    let f := (site c (F.ofReal v) (z.map F.ofReal) false).val
    let f' := (site c (F.ofReal v') (z'.map F.ofReal) false).val
    let d := (F.exp (lnDur c k (F.ofReal m) (F.ofReal r) (F.ofReal v) (z.map F.ofReal) false)).val
    let d' := (F.exp (lnDur c k (F.ofReal m) (F.ofReal r) (F.ofReal v') (z'.map F.ofReal) false)).val
    d' = d * Real.exp (f' - f) ∧ 0 < d := by
  intro f f' d d'
  simp only [d, d', f, f', dur_val hc k m hr, Real.exp_sub]
  have h1 := (source_ok_pos hc k m).2
  have h2 := path_nonneg hc hr
  refine ⟨?_, mul_pos (by linarith) (Real.exp_pos _)⟩
  field_simp

theorem dur_lt {c : Row} (hc : c ∈ table) (k : Mech) (m : ℝ) {r v v' : ℝ} (hr : 0 ≤ r) (z z' : Option ℝ)
    (h : (site c (F.ofReal v) (z.map F.ofReal) false).val < (site c (F.ofReal v') (z'.map F.ofReal) false).val) :
    (F.exp (lnDur c k (F.ofReal m) (F.ofReal r) (F.ofReal v) (z.map F.ofReal) false)).val <
    (F.exp (lnDur c k (F.ofReal m) (F.ofReal r) (F.ofReal v') (z'.map F.ofReal) false)).val := by
  obtain ⟨e, p⟩ := dur_site hc k m (v := v) (v' := v') hr z z'
  rw [e]
  exact lt_mul_of_one_lt_right p (Real.one_lt_exp_iff.2 (by linarith))

theorem dur_eq {c : Row} (hc : c ∈ table) (k : Mech) (m : ℝ) {r v v' : ℝ} (hr : 0 ≤ r) (z z' : Option ℝ)
    (h : (site c (F.ofReal v) (z.map F.ofReal) false).val = (site c (F.ofReal v') (z'.map F.ofReal) false).val) :
    (F.exp (lnDur c k (F.ofReal m) (F.ofReal r) (F.ofReal v') (z'.map F.ofReal) false)).val =
    (F.exp (lnDur c k (F.ofReal m) (F.ofReal r) (F.ofReal v) (z.map F.ofReal) false)).val := by
  obtain ⟨e, p⟩ := dur_site hc k m (v := v) (v' := v') hr z z'
  rw [e, h, sub_self, Real.exp_zero, mul_one]

end AS16

/-- **C100.** Two scenarios that differ in `v_s30` only.  Up to 600 m/s a stiffer site strictly shortens
every duration (with or without a basin depth up to 200); above 600 m/s the durations do not change
without a basin depth and strictly lengthen with one. -/
theorem C100_velocity (s t : Scenario) (m r v v' : ℝ) (z : Option ℝ) (mech : String) (hr : 0 ≤ r) (hv : 0 < v)
    (hvv : v < v')
    (hsm : s.get "mag" = .num m) (hsr : s.get "dist_rup" = .num r) (hsv : s.get "v_s30" = .num v)
    (hsz : s.get "depth_1_0" = Val.ofOpt z) (hst : s.get "mechanism" = .str mech)
    (htm : t.get "mag" = .num m) (htr : t.get "dist_rup" = .num r) (htv : t.get "v_s30" = .num v')
    (htz : t.get "depth_1_0" = Val.ofOpt z) (htt : t.get "mechanism" = .str mech) :
    ∃ o p, Gives AS16.cls s o ∧ Gives AS16.cls t p ∧ o.duration.length = 3 ∧
      (v' ≤ 600 → (∀ x ∈ z, 0 ≤ x ∧ x ≤ 200) → List.Forall₂ F.Drops o.duration p.duration) ∧
      (600 ≤ v → z = none → List.Forall₂ F.Same o.duration p.duration) ∧
      (600 ≤ v → (∃ x ∈ z, x ≤ 200) → List.Forall₂ F.Drops p.duration o.duration) := by
  refine ⟨_, _, AS16.gives s hsm hsr hsv hsz hst, AS16.gives t htm htr htv htz htt, rfl, ?_, ?_, ?_⟩
  all_goals
    intro w w'
    simp only [DurOut.duration, AS16.out, List.map_map]
    refine forall₂_map fun c hc => ?_
    have K := AS16.site_v hc hv hvv z
    have k1 := AS16.dur_ok hc (AS16.mechFor mech) m hr hv z
    have k2 := AS16.dur_ok hc (AS16.mechFor mech) m hr (hv.trans hvv) z
  · exact ⟨k1, k2, AS16.dur_lt hc _ _ hr _ _ (K.1 w w')⟩
  · exact ⟨k1, k2, AS16.dur_eq hc _ _ hr _ _ ((K.2 w).1 w').symm⟩
  · exact ⟨k2, k1, AS16.dur_lt hc _ _ hr _ _ ((K.2 w).2 w')⟩

namespace AS16

/-- the site term against the basin depth -/
theorem site_z {c : Row} (hc : c ∈ table) (v : ℝ) {z z' : ℝ} (h : z < z') :
    let f := fun z : Option ℝ => (site c (F.ofReal v) (z.map F.ofReal) false).val
    (z' ≤ 200 → f (some z) < f (some z')) ∧ (200.53 ≤ z → f (some z) = f (some z')) ∧
    (0 ≤ z → z ≤ 5 → -0.000318 < f (some z) - f none ∧ f (some z) - f none ≤ 0.003) ∧
    (200.53 ≤ z → f (some z) - f none = c.c5 * 200) := by
  obtain ⟨h4, h5, h6, hR⟩ := c_facts hc
  have p := mu_pos v
  have q := mu_lt v
  intro f
  simp only [f, site_none, site_some]
  generalize Real.log (min v 600 / c.vRef) = L
  refine ⟨fun w => ?_, fun w => ?_, fun w w' => ?_, fun w => ?_⟩
  · rw [min_eq_left (by linarith), min_eq_left (by linarith)]
    have := mul_lt_mul_of_pos_left (show z - mu v < z' - mu v by linarith) (show (0 : ℝ) < c.c5 by linarith)
    linarith
  · rw [min_eq_right (by linarith), min_eq_right (by linarith)]
  · rw [min_eq_left (by linarith)]
    have a := mul_le_mul_of_nonneg_right h6 p.le
    have b := mul_nonneg (show (0 : ℝ) ≤ c.c5 by linarith) w
    have d := mul_le_mul_of_nonneg_right h6 w
    have e := mul_nonneg (show (0 : ℝ) ≤ c.c5 by linarith) p.le
    constructor <;> linarith
  · rw [min_eq_right (by linarith)]; ring

end AS16

/-- **C100.** Two scenarios that differ in the basin depth `depth_1_0` only.  Up to 200 a deeper
basin strictly lengthens every duration and beyond 200.53 nothing changes.  But the average depth is in
kilometres and the cap is 200: a depth of up to 5 (km) changes the durations by less than 0.31 %, a
depth above 200.53 (metres) by exp(0.12), exp(0.12) and exp(0.1). -/
theorem C100_basin (s t u : Scenario) (m r v z z' : ℝ) (mech : String) (hr : 0 ≤ r) (hv : 0 < v) (hzz : z < z')
    (hsm : s.get "mag" = .num m) (hsr : s.get "dist_rup" = .num r) (hsv : s.get "v_s30" = .num v)
    (hsz : s.get "depth_1_0" = .num z) (hst : s.get "mechanism" = .str mech)
    (htm : t.get "mag" = .num m) (htr : t.get "dist_rup" = .num r) (htv : t.get "v_s30" = .num v)
    (htz : t.get "depth_1_0" = .num z') (htt : t.get "mechanism" = .str mech)
    (hum : u.get "mag" = .num m) (hur : u.get "dist_rup" = .num r) (huv : u.get "v_s30" = .num v)
    (huz : u.get "depth_1_0" = .none) (hut : u.get "mechanism" = .str mech) :
    ∃ o p q, Gives AS16.cls s o ∧ Gives AS16.cls t p ∧ Gives AS16.cls u q ∧ q.duration.length = 3 ∧
      (z' ≤ 200 → List.Forall₂ F.Drops p.duration o.duration) ∧
      (200.53 ≤ z → List.Forall₂ F.Same o.duration p.duration) ∧
      (0 ≤ z → z ≤ 5 →
        List.Forall₂ (fun a b => 0.9996 * b.val < a.val ∧ a.val < 1.0031 * b.val) o.duration q.duration) ∧
      (200.53 ≤ z → ∃ a b c a' b' c', o.duration = [a, b, c] ∧ q.duration = [a', b', c'] ∧
        a.val = a'.val * Real.exp 0.12 ∧ b.val = b'.val * Real.exp 0.12 ∧ c.val = c'.val * Real.exp 0.1) := by
  refine ⟨_, _, _, AS16.gives s hsm hsr hsv (z := some z) hsz hst, AS16.gives t htm htr htv (z := some z') htz htt,
    AS16.gives u hum hur huv (z := none) huz hut, rfl, ?_, ?_, ?_, ?_⟩
  · intro w
    simp only [DurOut.duration, AS16.out, List.map_map]
    refine forall₂_map fun c hc => ?_
    exact ⟨AS16.dur_ok hc _ m hr hv _, AS16.dur_ok hc _ m hr hv _,
      AS16.dur_lt hc _ _ hr _ _ ((AS16.site_z hc v hzz).1 w)⟩
  · intro w
    simp only [DurOut.duration, AS16.out, List.map_map]
    refine forall₂_map fun c hc => ?_
    exact ⟨AS16.dur_ok hc _ m hr hv _, AS16.dur_ok hc _ m hr hv _,
      AS16.dur_eq hc _ _ hr _ _ ((AS16.site_z hc v hzz).2.1 w)⟩
  · intro w w'
    simp only [DurOut.duration, AS16.out, List.map_map]
    refine forall₂_map fun c hc => ?_
    obtain ⟨e, pos⟩ := AS16.dur_site hc (AS16.mechFor mech) m (v := v) (v' := v) hr none (some z)
    obtain ⟨x1, x2⟩ := (AS16.site_z hc v hzz).2.2.1 w w'
    simp only [Function.comp]
    rw [e]
    have g1 := Real.add_one_le_exp ((AS16.site c (F.ofReal v) ((some z).map F.ofReal) false).val -
      (AS16.site c (F.ofReal v) ((none : Option ℝ).map F.ofReal) false).val)
    have g2 := Real.exp_le_exp.2 x2
    have g3 : Real.exp 0.003 < 1.0031 := by
      have f := le_expHi (q := 0.003) (by norm_num) (by norm_num)
      have g : expHi 0.003 < 1.0031 := by decide +kernel
      have g' : (expHi 0.003 : ℝ) < ((1.0031 : ℚ) : ℝ) := by exact_mod_cast g
      push_cast at f g'
      linarith
    constructor
    · rw [mul_comm]; exact mul_lt_mul_of_pos_left (by linarith) pos
    · rw [mul_comm (1.0031 : ℝ)]; exact mul_lt_mul_of_pos_left (by linarith) pos
  · intro w
    have K : ∀ i : Fin AS16.table.length, ∀ e : ℚ, AS16.table[i].c5 * 200 = e →
        (F.exp (AS16.lnDur AS16.table[i] (AS16.mechFor mech) (F.ofReal m) (F.ofReal r) (F.ofReal v)
          ((some z).map F.ofReal) false)).val =
        (F.exp (AS16.lnDur AS16.table[i] (AS16.mechFor mech) (F.ofReal m) (F.ofReal r) (F.ofReal v)
          ((none : Option ℝ).map F.ofReal) false)).val * Real.exp e := by
      intro i e he
      have hc : AS16.table[i] ∈ AS16.table := List.getElem_mem _
      rw [(AS16.dur_site hc (AS16.mechFor mech) m (v := v) (v' := v) hr none (some z)).1,
        (AS16.site_z hc v hzz).2.2.2 w]
      rw [← he]; push_cast; rfl
    have K0 := K ⟨0, by decide⟩ 0.12 (by decide +kernel)
    have K1 := K ⟨1, by decide⟩ 0.12 (by decide +kernel)
    have K2 := K ⟨2, by decide⟩ 0.1 (by decide +kernel)
    push_cast at K0 K1 K2
    exact ⟨_, _, _, _, _, _, rfl, rfl, K0, K1, K2⟩

namespace AS16

/-- one mechanism against another -/
theorem dur_mech {c : Row} (hc : c ∈ table) (k k' : Mech) (m : ℝ) {r v : ℝ} (hr : 0 ≤ r) (z : Option ℝ) :
    let d := fun k => (F.exp (lnDur c k (F.ofReal m) (F.ofReal r) (F.ofReal v) (z.map F.ofReal) false)).val
    (m ≤ c.mag1 → c.b0 k < c.b0 k' → d k < d k') ∧ (c.mag1 < m → c.b1 k' < c.b1 k → d k < d k') ∧
    (c.mag1 < m → c.b1 k' = c.b1 k → d k = d k') := by
  have hE := Real.exp_pos (site c (F.ofReal v) (z.map F.ofReal) false).val
  intro d
  simp only [d, dur_val hc _ m hr z]
  refine ⟨fun w q => ?_, fun w q => ?_, fun w q => ?_⟩
  · rw [source_low k w, source_low k' w]
    have : (c.b0 k : ℝ) < c.b0 k' := by exact_mod_cast q
    exact mul_lt_mul_of_pos_right (by linarith) hE
  · rw [source_high k w, source_high k' w]
    have : (c.b1 k' : ℝ) < c.b1 k := by exact_mod_cast q
    have : Real.exp (srcLn c k m) < Real.exp (srcLn c k' m) := Real.exp_lt_exp.2 (by simp only [srcLn, expo]; linarith)
    exact mul_lt_mul_of_pos_right (by linarith) hE
  · rw [source_high k w, source_high k' w]
    have : (c.b1 k' : ℝ) = c.b1 k := by exact_mod_cast q
    simp only [srcLn, expo, this]

/-- the ratio of the D5-95 and D5-75 source durations -/
theorem ratio_rows : ∀ k : Mech, (1.3 : ℚ) * table[0].b0 k < (0.9996 : ℚ) * table[1].b0 k ∧
    (1.82 : ℚ) ≤ table[0].b1 k - table[1].b1 k := by decide +kernel

theorem log12 : Real.exp 0.05 < (1.2 : ℝ) ∧ (1.2 : ℝ) < Real.exp 0.3 := by
  have f := le_expHi (q := 0.05) (by norm_num) (by norm_num)
  have g : expHi 0.05 < 1.2 := by decide +kernel
  have g' : (expHi 0.05 : ℝ) < ((1.2 : ℚ) : ℝ) := by exact_mod_cast g
  have f1 := expLo_le (q := 0.3) (by norm_num)
  have g1 : 1.2 < expLo 0.3 := by decide +kernel
  have g1' : ((1.2 : ℚ) : ℝ) < (expLo 0.3 : ℝ) := by exact_mod_cast g1
  push_cast at f f1 g' g1'
  constructor <;> linarith

theorem source_ratio (k : Mech) (m : ℝ) :
    (1.2 : ℝ) * (source table[0] k (F.ofReal m)).val < (source table[1] k (F.ofReal m)).val := by
  have h0 : table[0] ∈ table := List.getElem_mem _
  have h1 : table[1] ∈ table := List.getElem_mem _
  have m0 : (table[0].mag1 : ℝ) = 5.35 := by norm_num [table]
  have m1 : (table[1].mag1 : ℝ) = 5.2 := by norm_num [table]
  obtain ⟨r1, r2⟩ := ratio_rows k
  have r1' : (((1.3 : ℚ) * table[0].b0 k : ℚ) : ℝ) < (((0.9996 : ℚ) * table[1].b0 k : ℚ) : ℝ) := by exact_mod_cast r1
  have r2' : ((1.82 : ℚ) : ℝ) ≤ ((table[0].b1 k - table[1].b1 k : ℚ) : ℝ) := by exact_mod_cast r2
  push_cast at r1' r2'
  have b0 := b0_pos h0 k
  have b1 := b0_pos h1 k
  rcases le_or_gt m 5.35 with w | w
  · rw [source_low k (by rw [m0]; exact w)]
    rcases le_or_gt m 5.2 with w' | w'
    · rw [source_low k (by rw [m1]; exact w')]; linarith
    · rw [source_high k (by rw [m1]; exact w')]
      have e := ((edge_at ⟨1, by decide⟩ k).1 (.inl (by norm_num))).1
      have u := (srcLn_slope h1 k (m := table[1].mag1) (m' := m) (by rw [m1]; exact w'.le)).1
      have u' : Real.exp (srcLn table[1] k table[1].mag1) ≤ Real.exp (srcLn table[1] k m) :=
        Real.exp_le_exp.2 (by rw [m1] at u ⊢; linarith)
      have e' : (0.9996 : ℝ) * (table[1].b0 k : ℝ) < Real.exp (srcLn table[1] k table[1].mag1) := e
      linarith
  · rw [source_high k (by rw [m0]; exact w), source_high k (by rw [m1]; linarith)]
    have key : (0.3 : ℝ) ≤ srcLn table[1] k m - srcLn table[0] k m := by
      have : srcLn table[1] k m - srcLn table[0] k m = (expo table[0] k m - expo table[1] k m) / 3 := by
        simp only [srcLn]; ring
      rw [this]
      simp only [expo]
      have e1 : (table[0].b2 : ℝ) = 0.9011 := by norm_num [table]
      have e2 : (table[1].b2 : ℝ) = 0.9443 := by norm_num [table]
      have e3 : (table[0].b3 : ℝ) = -1.684 := by norm_num [table]
      have e4 : (table[1].b3 : ℝ) = -3.911 := by norm_num [table]
      have e5 : (table[0].mag2 : ℝ) = 7.15 := by norm_num [table]
      have e6 : (table[1].mag2 : ℝ) = 7.4 := by norm_num [table]
      rw [e1, e2, e3, e4, e5, e6]
      generalize (table[0].b1 k : ℝ) = x at *
      generalize (table[1].b1 k : ℝ) = y at *
      rcases le_total m 7.15 with q | q
      · rw [min_eq_left q, min_eq_left (by linarith), max_eq_right (by linarith), max_eq_right (by linarith)]
        linarith
      · rw [min_eq_right q, max_eq_left (by linarith)]
        rcases le_total m 7.4 with q' | q'
        · rw [min_eq_left q', max_eq_right (by linarith)]; linarith
        · rw [min_eq_right q', max_eq_left (by linarith)]; linarith
    have p := Real.exp_pos (srcLn table[0] k m)
    have l := log12.2
    have : Real.exp (srcLn table[0] k m) * Real.exp 0.3 ≤ Real.exp (srcLn table[1] k m) := by
      rw [← Real.exp_add]; exact Real.exp_le_exp.2 (by linarith)
    have := mul_lt_mul_of_pos_left l p
    linarith

theorem path_ratio {r : ℝ} (hr : 0 ≤ r) :
    (1.2 : ℝ) * (path table[0] (F.ofReal r)).val ≤ (path table[1] (F.ofReal r)).val := by
  simp only [path, fsimp]
  have e1 : (table[0].c1 : ℝ) = 0.1159 := by norm_num [table]
  have e2 : (table[1].c1 : ℝ) = 0.3165 := by norm_num [table]
  have e3 : (table[0].c2 : ℝ) = 0.1065 := by norm_num [table]
  have e4 : (table[1].c2 : ℝ) = 0.2539 := by norm_num [table]
  have e5 : (table[0].c3 : ℝ) = 0.0682 := by norm_num [table]
  have e6 : (table[1].c3 : ℝ) = 0.0932 := by norm_num [table]
  rw [e1, e2, e3, e4, e5, e6]
  have a1 : 0 ≤ min r 10 := le_min hr (by norm_num)
  have a2 : 0 ≤ max (min r 50 - 10) 0 := le_max_right _ _
  have a3 : 0 ≤ max (r - 50) 0 := le_max_right _ _
  linarith

theorem site_ratio {v : ℝ} (hv : 0 < v) (z : Option ℝ) :
    (site table[0] (F.ofReal v) (z.map F.ofReal) false).val ≤
      (site table[1] (F.ofReal v) (z.map F.ofReal) false).val + 0.05 := by
  have key : (table[0].c4 : ℝ) * Real.log (min v 600 / table[0].vRef) ≤
      table[1].c4 * Real.log (min v 600 / table[1].vRef) + 0.05 := by
    have e1 : (table[0].c4 : ℝ) = -0.2246 := by norm_num [table]
    have e2 : (table[1].c4 : ℝ) = -0.3183 := by norm_num [table]
    have e3 : (table[0].vRef : ℝ) = 368.2 := by norm_num [table]
    have e4 : (table[1].vRef : ℝ) = 369.9 := by norm_num [table]
    rw [e1, e2, e3, e4]
    have hw : 0 < min v 600 := lt_min hv (by norm_num)
    have h6 : min v 600 ≤ 600 := min_le_right _ _
    have a : Real.log (min v 600 / 368.2) ≤ Real.log (600 / 368.2) :=
      Real.log_le_log (by positivity) (by gcongr)
    have b : Real.log (min v 600 / 369.9) ≤ Real.log (min v 600 / 368.2) :=
      Real.log_le_log (by positivity) (by gcongr; norm_num)
    have d := log_le_of (x := 600 / 368.2) (q := 0.49) (by norm_num) (by norm_num)
      (by have : 600 / 368.2 ≤ expLo 0.49 := by decide +kernel
          have : ((600 / 368.2 : ℚ) : ℝ) ≤ (expLo 0.49 : ℝ) := by exact_mod_cast this
          push_cast at this; linarith)
    push_cast at d
    linarith
  have e5 : (table[0].c5 : ℝ) = table[1].c5 := by norm_num [table]
  cases z with
  | none => simp only [site_none]; exact key
  | some z => simp only [site_some, e5]; linarith

end AS16

/-- **C100.** For every scenario D5-75 is shorter than D5-95. -/
theorem C100_order (s : Scenario) (m r v : ℝ) (z : Option ℝ) (mech : String) (hr : 0 ≤ r) (hv : 0 < v)
    (hsm : s.get "mag" = .num m) (hsr : s.get "dist_rup" = .num r) (hsv : s.get "v_s30" = .num v)
    (hsz : s.get "depth_1_0" = Val.ofOpt z) (hst : s.get "mechanism" = .str mech) :
    ∃ o a b c, Gives AS16.cls s o ∧ o.duration = [a, b, c] ∧ F.Drops b a := by
  have h0 : AS16.table[0] ∈ AS16.table := List.getElem_mem _
  have h1 : AS16.table[1] ∈ AS16.table := List.getElem_mem _
  refine ⟨_, _, _, _, AS16.gives s hsm hsr hsv hsz hst, rfl, AS16.dur_ok h1 _ m hr hv z,
    AS16.dur_ok h0 _ m hr hv z, ?_⟩
  have e0 := AS16.dur_val h0 (AS16.mechFor mech) m (v := v) hr z
  have e1 := AS16.dur_val h1 (AS16.mechFor mech) m (v := v) hr z
  refine lt_of_eq_of_lt e0 (lt_of_lt_of_eq ?_ e1.symm)
  have a := AS16.source_ratio (AS16.mechFor mech) m
  have b := AS16.path_ratio hr
  have c := AS16.site_ratio hv z
  have d := (AS16.source_ok_pos h0 (AS16.mechFor mech) m).2
  have e := AS16.path_nonneg h0 hr
  generalize (AS16.source AS16.table[0] (AS16.mechFor mech) (F.ofReal m)).val = S at *
  generalize (AS16.source AS16.table[1] (AS16.mechFor mech) (F.ofReal m)).val = S' at *
  generalize (AS16.path AS16.table[0] (F.ofReal r)).val = P at *
  generalize (AS16.path AS16.table[1] (F.ofReal r)).val = P' at *
  generalize (AS16.site AS16.table[0] (F.ofReal v) (z.map F.ofReal) false).val = x at *
  generalize (AS16.site AS16.table[1] (F.ofReal v) (z.map F.ofReal) false).val = y at *
  have f : Real.exp x ≤ Real.exp y * Real.exp 0.05 := by rw [← Real.exp_add]; exact Real.exp_le_exp.2 c
  have g := mul_lt_mul_of_pos_left AS16.log12.1 (Real.exp_pos y)
  have h := mul_lt_mul_of_pos_left (f.trans_lt g) (show 0 < S + P by linarith)
  have i := mul_lt_mul_of_pos_right (show 1.2 * (S + P) < S' + P' by linarith) (Real.exp_pos y)
  linarith

/-- **C100.** Four scenarios that differ in the mechanism only (`sc "U"` stands for an unknown
mechanism, which is replaced by none).  A reverse fault gives the shortest and a normal fault the longest
durations; strike-slip and unknown lie between, in the other order for D5-95.  Above magnitude 5.2 the
D20-80 of reverse and strike-slip faults coincide. -/
theorem C100_mechanism (sc : String → Scenario) (m r v : ℝ) (z : Option ℝ) (hr : 0 ≤ r) (hv : 0 < v)
    (hs : ∀ k ∈ ["RS", "SS", "U", "NS"], (sc k).get "mag" = .num m ∧ (sc k).get "dist_rup" = .num r ∧
      (sc k).get "v_s30" = .num v ∧ (sc k).get "depth_1_0" = Val.ofOpt z ∧ (sc k).get "mechanism" = .str k) :
    ∃ o : String → DurOut, ∃ a b c : String → F,
      (∀ k ∈ ["RS", "SS", "U", "NS"], Gives AS16.cls (sc k) (o k) ∧ (o k).duration = [a k, b k, c k] ∧
        (a k).ok ∧ (b k).ok ∧ (c k).ok) ∧
      (a "RS").val < (a "SS").val ∧ (a "SS").val < (a "U").val ∧ (a "U").val < (a "NS").val ∧
      (b "RS").val < (b "U").val ∧ (b "U").val < (b "SS").val ∧ (b "SS").val < (b "NS").val ∧
      (m ≤ 5.2 → (c "RS").val < (c "SS").val) ∧ (5.2 < m → (c "RS").val = (c "SS").val) ∧
      (c "SS").val < (c "U").val ∧ (c "U").val < (c "NS").val := by
  have h0 : AS16.table[0] ∈ AS16.table := List.getElem_mem _
  have h1 : AS16.table[1] ∈ AS16.table := List.getElem_mem _
  have h2 : AS16.table[2] ∈ AS16.table := List.getElem_mem _
  have m0 : (AS16.table[0].mag1 : ℝ) = 5.35 := by norm_num [AS16.table]
  have m1 : (AS16.table[1].mag1 : ℝ) = 5.2 := by norm_num [AS16.table]
  have m2 : (AS16.table[2].mag1 : ℝ) = 5.2 := by norm_num [AS16.table]
  have lt : ∀ c : AS16.Row, c ∈ AS16.table → ∀ k k' : AS16.Mech, c.b0 k < c.b0 k' → c.b1 k' < c.b1 k →
      (F.exp (AS16.lnDur c k (F.ofReal m) (F.ofReal r) (F.ofReal v) (z.map F.ofReal) false)).val <
      (F.exp (AS16.lnDur c k' (F.ofReal m) (F.ofReal r) (F.ofReal v) (z.map F.ofReal) false)).val := by
    intro c hc k k' q q'
    rcases le_or_gt m c.mag1 with w | w
    · exact (AS16.dur_mech hc k k' m (v := v) hr z).1 w q
    · exact (AS16.dur_mech hc k k' m (v := v) hr z).2.1 w q'
  have K := AS16.dur_mech h2 .rs .ss m (v := v) hr z
  rw [m2] at K
  refine ⟨fun k => AS16.out (AS16.mechFor k) (F.ofReal m) (F.ofReal r) (F.ofReal v) (z.map F.ofReal) false, _, _, _,
    fun k hk => ⟨AS16.gives _ (hs k hk).1 (hs k hk).2.1 (hs k hk).2.2.1 (hs k hk).2.2.2.1 (hs k hk).2.2.2.2, rfl,
      AS16.dur_ok h0 _ m hr hv z, AS16.dur_ok h1 _ m hr hv z, AS16.dur_ok h2 _ m hr hv z⟩, ?_⟩
  exact ⟨lt _ h0 .rs .ss (by decide +kernel) (by decide +kernel), lt _ h0 .ss .none (by decide +kernel) (by decide +kernel),
    lt _ h0 .none .ns (by decide +kernel) (by decide +kernel),
    lt _ h1 .rs .none (by decide +kernel) (by decide +kernel), lt _ h1 .none .ss (by decide +kernel) (by decide +kernel),
    lt _ h1 .ss .ns (by decide +kernel) (by decide +kernel),
    fun w => K.1 w (by decide +kernel), fun w => K.2.2 w (by decide +kernel),
    lt _ h2 .ss .none (by decide +kernel) (by decide +kernel), lt _ h2 .none .ns (by decide +kernel) (by decide +kernel)⟩

example := C100_magnitude
  ⟨[("mag", .num 5), ("dist_rup", .num 0), ("v_s30", .num 500), ("mechanism", .str "RS")], []⟩
  ⟨[("mag", .num 5.3), ("dist_rup", .num 0), ("v_s30", .num 500), ("mechanism", .str "RS")], []⟩ 5 5.3 0 500 none "RS"
  le_rfl (by norm_num) (by norm_num) rfl rfl rfl rfl rfl rfl rfl rfl rfl rfl
example := C100_velocity
  ⟨[("mag", .num 6), ("dist_rup", .num 5), ("v_s30", .num 700), ("mechanism", .str "SS"), ("depth_1_0", .num 0.3)], []⟩
  ⟨[("mag", .num 6), ("dist_rup", .num 5), ("v_s30", .num 900), ("mechanism", .str "SS"), ("depth_1_0", .num 0.3)], []⟩
  6 5 700 900 (some 0.3) "SS"
  (by norm_num) (by norm_num) (by norm_num) rfl rfl rfl rfl rfl rfl rfl rfl rfl rfl
example := C100_basin
  ⟨[("mag", .num 6), ("dist_rup", .num 5), ("v_s30", .num 700), ("mechanism", .str "SS"), ("depth_1_0", .num 0.3)], []⟩
  ⟨[("mag", .num 6), ("dist_rup", .num 5), ("v_s30", .num 700), ("mechanism", .str "SS"), ("depth_1_0", .num 0.5)], []⟩
  ⟨[("mag", .num 6), ("dist_rup", .num 5), ("v_s30", .num 700), ("mechanism", .str "SS")], []⟩ 6 5 700 0.3 0.5 "SS"
  (by norm_num) (by norm_num) (by norm_num) rfl rfl rfl rfl rfl rfl rfl rfl rfl rfl rfl rfl rfl rfl rfl
example := C100_order
  ⟨[("mag", .num 6), ("dist_rup", .num 5), ("v_s30", .num 700), ("mechanism", .str "SS"), ("depth_1_0", .num 0.3)], []⟩
  6 5 700 (some 0.3) "SS" (by norm_num) (by norm_num) rfl rfl rfl rfl rfl
example := C100_mechanism
  (fun k => ⟨[("mag", .num 6), ("dist_rup", .num 5), ("v_s30", .num 700), ("mechanism", .str k)], []⟩)
  6 5 700 none (by norm_num) (by norm_num) (fun _ _ => ⟨rfl, rfl, rfl, rfl, rfl⟩)
