import Verif.Props.BSSA14
import Mathlib.Analysis.Convex.SpecificFunctions.Basic

/-! # C87: Boore, Stewart, Seyhan & Atkinson (2014) and magnitude -/

open Bounds

set_option linter.unusedSimpArgs false

namespace BSSA14

theorem event_low (c : Row) {m : ℝ} (mech : Mech) (h : m ≤ c.M_h) :
    eventR c m mech = (event0 c mech).val + (c.e_4 * (m - c.M_h) + c.e_5 * (m - c.M_h) ^ 2) := by
  unfold eventR
  rw [if_pos h]

theorem event_high (c : Row) {m : ℝ} (mech : Mech) (h : (c.M_h : ℝ) ≤ m) :
    eventR c m mech = (event0 c mech).val + c.e_6 * (m - c.M_h) := by
  unfold eventR
  split_ifs with h1
  · rw [le_antisymm h1 h]; ring
  · rfl

/-- lower bound of the logarithm of the smallest effective distance of a row -/
def lowLog (h : ℚ) : ℚ := 1.386 + 2 * (h - 4) / (h + 4)

/-- nonlinearity of a row at `v0 ≤ 360` m/s, bounded from above -/
def nonlin (c : Row) (v0 : ℚ) : ℚ := max 0 (-c.f_4) * expHi (-c.f_5 * (360 - v0))

/-- distance part of the slope in magnitude, net of the nonlinear site term -/
def netLog (c : Row) (q : ℚ) : ℚ :=
  (c.c_2 - q * pgaRow.c_2) * lowLog c.h - q * pgaRow.c_2 * max 0 (pgaRow.h / c.h - 1)

/-- rational conditions for a row to grow with magnitude -/
def magGood (c : Row) (q : ℚ) : Prop :=
  0 ≤ c.c_2 - q * pgaRow.c_2 ∧ 5.5 ≤ c.M_h ∧ c.M_h ≤ 8.5 ∧ expHi (lowLog c.h) ≤ c.h ∧ 0 ≤ lowLog c.h ∧
  lowLog c.h ≤ 8 ∧
  (∀ m ∈ [(3 : ℚ), 5.5], 0 < c.e_4 + 2 * c.e_5 * (m - c.M_h) - q * (pgaRow.e_4 + 2 * pgaRow.e_5 * (m - 5.5)) +
    netLog c q) ∧
  (∀ m ∈ [5.5, c.M_h], 0 < c.e_4 + 2 * c.e_5 * (m - c.M_h) - q * pgaRow.e_6 + netLog c q) ∧
  0 < c.e_6 - q * pgaRow.e_6 + netLog c q

instance (c : Row) (q : ℚ) : Decidable (magGood c q) := by unfold magGood; infer_instance

theorem rows_mag : ∀ c ∈ table, magGood c (nonlin c 310) := by decide +kernel
theorem pga_mag : magGood pgaRow 0 ∧ nonlin pgaRow 150 < 1 ∧ pgaRow.M_h = 5.5 ∧ 0 < pgaRow.c_2 := by decide +kernel
theorem nonlin_facts : ∀ c ∈ table, 0 ≤ nonlin c 310 ∧ -c.f_5 * (360 - 310) ≤ 8 ∧ -c.f_5 * (360 - 150) ≤ 8 := by
  decide +kernel

/-- Between two magnitudes the unamplified motion of a row grows by more than `q` times the
growth of the reference acceleration. -/
theorem base_rise {c : Row} (hc : c ∈ table) {q : ℚ} (hq0 : 0 ≤ q) (hg : magGood c q) (mech : Mech) (reg : Reg)
    (r : ℝ) {m m' : ℝ} (h3 : 3 ≤ m) (h : m < m') (h8 : m' ≤ 8.5) :
    q * (refR m' r mech reg - refR m r mech reg) <
      (eventR c m' mech + pathR c m' r reg) - (eventR c m mech + pathR c m r reg) := by
  obtain ⟨g1, g2, g3, g4, g5, g6, g7, g8, g9⟩ := hg
  obtain ⟨-, -, hPM, hPc⟩ := pga_mag
  obtain ⟨-, -, -, -, -, hh, -⟩ := casts hc
  obtain ⟨-, -, -, -, -, hhP, -⟩ := casts pgaRow_mem
  have hD := D_pos hc r
  have hP := D_pos pgaRow_mem r
  have hq0' : (0 : ℝ) ≤ q := by exact_mod_cast hq0
  have hPc' : (0 : ℝ) < pgaRow.c_2 := by exact_mod_cast hPc
  have hPM' : (pgaRow.M_h : ℝ) = 5.5 := by rw [hPM]; norm_num
  have hc2 : (0 : ℝ) ≤ c.c_2 - q * pgaRow.c_2 := by exact_mod_cast g1
  have hlow : (lowLog c.h : ℝ) ≤ Real.log (D c r) := by
    have h1 : (lowLog c.h : ℝ) ≤ Real.log c.h := le_log_of hh g5 g6 (by exact_mod_cast g4)
    refine h1.trans (Real.log_le_log hh ?_)
    unfold D
    exact Real.le_sqrt_of_sq_le (by nlinarith [sq_nonneg r])
  have hk : Real.log (D pgaRow r) ≤ Real.log (D c r) + max 0 (pgaRow.h / c.h - 1 : ℝ) := by
    have h1 := D_ratio pgaRow_mem hc r (k := max 1 ((pgaRow.h : ℝ) / c.h)) (le_max_left _ _) (le_max_right _ _)
    have hk1 : (0 : ℝ) < max 1 ((pgaRow.h : ℝ) / c.h) := lt_of_lt_of_le one_pos (le_max_left _ _)
    have h2 : Real.log (D pgaRow r) ≤ Real.log (max 1 ((pgaRow.h : ℝ) / c.h)) + Real.log (D c r) := by
      rw [← Real.log_mul hk1.ne' hD.ne']
      exact Real.log_le_log hP h1
    have h3 := Real.log_le_sub_one_of_pos hk1
    have h4 : max 1 ((pgaRow.h : ℝ) / c.h) - 1 = max 0 (pgaRow.h / c.h - 1 : ℝ) := by
      rw [← max_sub_sub_right]; norm_num
    linarith
  have hnet : (netLog c q : ℝ) ≤ c.c_2 * Real.log (D c r) - q * (pgaRow.c_2 * Real.log (D pgaRow r)) := by
    unfold netLog
    push_cast
    have t1 := mul_le_mul_of_nonneg_left hlow hc2
    have t2 := mul_le_mul_of_nonneg_left hk (mul_nonneg hq0' hPc'.le)
    push_cast at t1 t2 ⊢
    linarith
  set N : ℝ := c.c_2 * Real.log (D c r) - q * (pgaRow.c_2 * Real.log (D pgaRow r)) with hN
  -- the function whose growth is at stake
  set K : ℝ → ℝ := fun m => eventR c m mech - q * eventR pgaRow m mech + N * m with hK
  have g2' : (5.5 : ℝ) ≤ c.M_h := by
    have : ((5.5 : ℚ) : ℝ) ≤ ((c.M_h : ℚ) : ℝ) := by exact_mod_cast g2
    push_cast at this; norm_num at this ⊢; exact this
  have g3' : (c.M_h : ℝ) ≤ 8.5 := by
    have : ((c.M_h : ℚ) : ℝ) ≤ ((8.5 : ℚ) : ℝ) := by exact_mod_cast g3
    push_cast at this; norm_num at this ⊢; exact this
  have s1 : StrictMonoOn K (Set.Icc 3 5.5) := by
    intro x hx y hy hxy
    have a1 : (0 : ℝ) < ((c.e_4 + 2 * c.e_5 * (3 - c.M_h) - q * (pgaRow.e_4 + 2 * pgaRow.e_5 * (3 - 5.5)) +
      netLog c q : ℚ) : ℝ) := by exact_mod_cast g7 3 (by simp)
    have a2 : (0 : ℝ) < ((c.e_4 + 2 * c.e_5 * (5.5 - c.M_h) - q * (pgaRow.e_4 + 2 * pgaRow.e_5 * (5.5 - 5.5)) +
      netLog c q : ℚ) : ℝ) := by exact_mod_cast g7 5.5 (by simp)
    push_cast at a1 a2
    have hz : (x + y) / 2 ∈ Set.Icc (3 : ℝ) 5.5 := by
      obtain ⟨x1, x2⟩ := hx
      obtain ⟨y1, y2⟩ := hy
      constructor <;> linarith
    have hp := linear_pos (p := (c.e_4 : ℝ) - 2 * c.e_5 * c.M_h - q * (pgaRow.e_4 - 2 * pgaRow.e_5 * 5.5) + N)
      (q := 2 * c.e_5 - q * (2 * pgaRow.e_5)) hz
      (by norm_num at a1 ⊢; linarith) (by norm_num at a2 ⊢; linarith)
    simp only [hK]
    rw [event_low c mech (hx.2.trans g2'), event_low c mech (hy.2.trans g2'),
      event_low pgaRow mech (by rw [hPM']; exact hx.2), event_low pgaRow mech (by rw [hPM']; exact hy.2), hPM']
    have := mul_pos (sub_pos.2 hxy) hp
    linarith
  have s2 : StrictMonoOn K (Set.Icc 5.5 c.M_h) := by
    intro x hx y hy hxy
    have a1 : (0 : ℝ) < ((c.e_4 + 2 * c.e_5 * (5.5 - c.M_h) - q * pgaRow.e_6 + netLog c q : ℚ) : ℝ) := by
      exact_mod_cast g8 5.5 (by simp)
    have a2 : (0 : ℝ) < ((c.e_4 + 2 * c.e_5 * (c.M_h - c.M_h) - q * pgaRow.e_6 + netLog c q : ℚ) : ℝ) := by
      exact_mod_cast g8 c.M_h (by simp)
    push_cast at a1 a2
    have hz : (x + y) / 2 ∈ Set.Icc (5.5 : ℝ) c.M_h := by
      obtain ⟨x1, x2⟩ := hx
      obtain ⟨y1, y2⟩ := hy
      constructor <;> linarith
    have hp := linear_pos (p := (c.e_4 : ℝ) - 2 * c.e_5 * c.M_h - q * pgaRow.e_6 + N)
      (q := 2 * c.e_5) hz (by norm_num at a1 ⊢; linarith) (by linarith)
    simp only [hK]
    rw [event_low c mech hx.2, event_low c mech hy.2,
      event_high pgaRow mech (by rw [hPM']; exact hx.1), event_high pgaRow mech (by rw [hPM']; exact hy.1), hPM']
    have := mul_pos (sub_pos.2 hxy) hp
    linarith
  have s3 : StrictMonoOn K (Set.Icc c.M_h 8.5) := by
    intro x hx y hy hxy
    have a1 : (0 : ℝ) < ((c.e_6 - q * pgaRow.e_6 + netLog c q : ℚ) : ℝ) := by exact_mod_cast g9
    push_cast at a1
    simp only [hK]
    rw [event_high c mech hx.1, event_high c mech hy.1,
      event_high pgaRow mech (by rw [hPM']; exact g2'.trans hx.1),
      event_high pgaRow mech (by rw [hPM']; exact g2'.trans hy.1), hPM']
    have := mul_pos (sub_pos.2 hxy) (lt_of_lt_of_le a1 (add_le_add_right hnet _))
    linarith
  have s12 := s1.union s2 (isGreatest_Icc (by norm_num)) (isLeast_Icc g2')
  rw [Set.Icc_union_Icc_eq_Icc (by norm_num) g2'] at s12
  have s := s12.union s3 (isGreatest_Icc (by linarith)) (isLeast_Icc g3')
  rw [Set.Icc_union_Icc_eq_Icc (by linarith) g3'] at s
  have := s (a := m) (b := m') ⟨h3, by linarith⟩ ⟨by linarith, h8⟩ h
  simp only [hK, hN] at this
  unfold refR pathR
  linarith

/-- the reference acceleration grows with magnitude -/
theorem ref_rise (mech : Mech) (reg : Reg) (r : ℝ) {m m' : ℝ} (h3 : 3 ≤ m) (h : m < m') (h8 : m' ≤ 8.5) :
    refR m r mech reg < refR m' r mech reg := by
  have := base_rise pgaRow_mem le_rfl pga_mag.1 mech reg r h3 h h8
  unfold refR
  push_cast at this
  linarith

theorem le_nonlin {c : Row} (hc : c ∈ table) {v0 : ℚ} (h0 : v0 ≤ 360) (h8 : -c.f_5 * (360 - v0) ≤ 8) {v : ℝ}
    (hv : (v0 : ℝ) ≤ v) : -f2R c v ≤ nonlin c v0 := by
  have hf5 : c.f_5 < 0 := (row_facts c hc).2.2.2.2.2.2.1
  have he := le_expHi (mul_nonneg (by linarith) (by linarith : 0 ≤ 360 - v0)) h8
  refine (f2_bound hc (by linarith) hv).trans ?_
  unfold nonlin
  push_cast at he ⊢
  exact mul_le_mul_of_nonneg_left he (le_max_left _ _)

theorem mag_rise {c : Row} (hc : c ∈ table) {q : ℚ} (hq0 : 0 ≤ q) (mech : Mech) (reg : Reg) (g : Given) (m' : ℝ)
    (hb : q * (refR m' g.jb mech reg - refR g.mag g.jb mech reg) <
      (eventR c m' mech + pathR c m' g.jb reg) - (eventR c g.mag mech + pathR c g.mag g.jb reg))
    (hr : refR g.mag g.jb mech reg < refR m' g.jb mech reg) (hv : 0 < g.v) (hf : -f2R c g.v ≤ q) :
    F.Drops (lnResp c (({ g with mag := m' } : Given).toIn mech reg)
        (some (pgaRef (({ g with mag := m' } : Given).toIn mech reg))))
      (lnResp c (g.toIn mech reg) (some (pgaRef (g.toIn mech reg)))) := by
  have hq0' : (0 : ℝ) ≤ q := by exact_mod_cast hq0
  obtain ⟨a1, a2⟩ := resp_facts hc g hv mech reg
  obtain ⟨b1, b2⟩ := resp_facts hc { g with mag := m' } hv mech reg
  refine ⟨b1, a1, ?_⟩
  rw [a2, b2]
  simp only
  have hL := log_exp_add (x' := refR g.mag g.jb mech reg) (x := refR m' g.jb mech reg) (k := 0.1) hr.le (by norm_num)
  have n1 : ∀ x : ℝ, Real.exp x + 0.1 ≠ 0 := fun x => by have := Real.exp_pos x; positivity
  rw [Real.log_div (n1 _) (by norm_num), Real.log_div (n1 _) (by norm_num)]
  set L := Real.log (Real.exp (refR m' g.jb mech reg) + 0.1)
  set L' := Real.log (Real.exp (refR g.mag g.jb mech reg) + 0.1)
  have t1 : -f2R c g.v * (L - L') ≤ q * (L - L') := mul_le_mul_of_nonneg_right hf hL.1
  have t2 := mul_le_mul_of_nonneg_left hL.2 hq0'
  linarith

end BSSA14

/-- Magnitude, from 3 to 8.5, at any distance, mechanism, region and basin depth.  PGA (row 1)
strictly grows with magnitude from `v_s30` 150 m/s on; from 310 m/s on all 107 ordinates do. -/
theorem C87_grows (s s' : Scenario) (g : BSSA14.Given) (m' : ℝ) (h : BSSA14.Source s g)
    (h' : BSSA14.Source s' { g with mag := m' })
    (hk : ∀ k ∈ ["mechanism", "region"], s'.get k = s.get k)
    (h3 : 3 ≤ g.mag) (hm : g.mag < m') (h8 : m' ≤ 8.5) (hv : 150 ≤ g.v) :
    ∃ o o', Gives BSSA14.cls s o ∧ Gives BSSA14.cls s' o' ∧ o.gmm.lnResp.length = 107 ∧
      F.Drops (o'.gmm.lnResp.getD 1 F.nan) (o.gmm.lnResp.getD 1 F.nan) ∧
      (310 ≤ g.v → List.Forall₂ F.Drops o'.gmm.lnResp o.gmm.lnResp) := by
  have e1 : s'.get "mechanism" = s.get "mechanism" := hk _ (by simp)
  have e2 : s'.get "region" = s.get "region" := hk _ (by simp)
  have g1 := BSSA14.gives h
  have g2 := BSSA14.gives h'
  rw [e1, e2] at g2
  generalize BSSA14.mechOf (s.get "mechanism") = mech at g1 g2
  generalize BSSA14.regOf (s.get "region") = reg at g1 g2
  have hr := BSSA14.ref_rise mech reg g.jb h3 hm h8
  refine ⟨_, _, g1, g2, by simp [BSSA14.out, BSSA14.table_length], ?_, ?_⟩
  · have hi : 1 < BSSA14.table.length := by rw [BSSA14.table_length]; norm_num
    simp only [BSSA14.out, List.getD_eq_getElem?_getD, List.getElem?_map,
      List.getElem?_eq_getElem hi, Option.map_some, Option.getD_some]
    change F.Drops (BSSA14.lnResp BSSA14.pgaRow _ _) (BSSA14.lnResp BSSA14.pgaRow _ _)
    obtain ⟨-, p2, -⟩ := BSSA14.pga_mag
    have p0 : 0 ≤ BSSA14.nonlin BSSA14.pgaRow 150 := by decide +kernel
    have p2' : (BSSA14.nonlin BSSA14.pgaRow 150 : ℝ) < 1 := by exact_mod_cast p2
    refine BSSA14.mag_rise BSSA14.pgaRow_mem p0 mech reg g m' ?_ hr (by linarith)
      (BSSA14.le_nonlin BSSA14.pgaRow_mem (by norm_num) (BSSA14.nonlin_facts _ BSSA14.pgaRow_mem).2.2
        (by norm_num; exact hv))
    have hr' := sub_pos.2 hr
    have := mul_lt_mul_of_pos_right p2' hr'
    simp only [BSSA14.refR] at this ⊢
    linarith
  · intro hv2
    simp only [BSSA14.out]
    refine forall₂_map fun c hc => ?_
    obtain ⟨f1, f2, -⟩ := BSSA14.nonlin_facts c hc
    exact BSSA14.mag_rise hc f1 mech reg g m'
      (BSSA14.base_rise hc f1 (BSSA14.rows_mag c hc) mech reg g.jb h3 hm h8) hr (by linarith)
      (BSSA14.le_nonlin hc (by norm_num) f2 (by norm_num; exact hv2))

namespace BSSA14

/-- `log (exp x + k)` follows `x` at least at the rate `p / (p + k)` once `exp x ≥ p` -/
theorem log_exp_add_ge {x x' k p : ℝ} (h : x ≤ x') (hk : 0 ≤ k) (hp : 0 < p) (hx : p ≤ Real.exp x) :
    p / (p + k) * (x' - x) ≤ Real.log (Real.exp x' + k) - Real.log (Real.exp x + k) := by
  have he := Real.exp_pos x
  have he' := Real.exp_pos x'
  set a := Real.exp x / (Real.exp x + k) with ha
  have hs : 0 < Real.exp x + k := by positivity
  have a0 : 0 ≤ a := by positivity
  have a1 : a ≤ 1 := by rw [ha, div_le_one hs]; linarith
  have hap : p / (p + k) ≤ a := by
    rw [ha, div_le_div_iff₀ (by positivity) hs]
    nlinarith
  have hc := convexOn_exp.2 (Set.mem_univ (x' - x)) (Set.mem_univ (0 : ℝ)) a0 (sub_nonneg.2 a1) (by ring)
  simp only [smul_eq_mul, mul_zero, add_zero, Real.exp_zero, mul_one] at hc
  have e : a * Real.exp (x' - x) + (1 - a) = (Real.exp x' + k) / (Real.exp x + k) := by
    rw [ha, Real.exp_sub]
    field_simp
    ring
  rw [e] at hc
  rw [← Real.log_div (by positivity) (by positivity)]
  have h2 : a * (x' - x) ≤ Real.log ((Real.exp x' + k) / (Real.exp x + k)) :=
    (Real.le_log_iff_exp_le (by positivity)).2 hc
  exact (mul_le_mul_of_nonneg_right hap (by linarith)).trans h2

/-- the 0.133 s row -/
def shortRow : Row := table[32]'(by rw [table_length]; norm_num)

theorem shortRow_mem : shortRow ∈ table := List.getElem_mem _

/-- its coefficients against those of PGA -/
theorem short_facts : shortRow.period = 0.133 ∧ shortRow.M_h ≤ 5.8 ∧ shortRow.h ≤ expLo 1.4587 ∧
    pgaRow.h ≤ expLo 1.5041 ∧ expHi 1.504 ≤ pgaRow.h ∧ 0 < shortRow.c_2 ∧ pgaRow.c_1 + pgaRow.c_2 * 1.3 < 0 ∧
    shortRow.e_6 + shortRow.c_2 * 1.4587 < 0.46 * (pgaRow.e_6 + pgaRow.c_2 * 1.504) ∧
    0.46 < 0.75 * (-shortRow.f_4 * (expLo (-shortRow.f_5 * 160) - 1 / expLo (-shortRow.f_5 * 400))) ∧
    expHi 1.2 * 0.3 ≤ 1 ∧
    (∀ e ∈ [pgaRow.e_0, pgaRow.e_1, pgaRow.e_2, pgaRow.e_3], ∀ reg ∈ [Reg.chinaTurkey, .italyJapan, .other],
      -1.2 ≤ e + pgaRow.e_6 * (5.8 - 5.5) + ((pgaRow.c_1 + pgaRow.c_2 * 1.3) * 1.5041 +
        (pgaRow.c_3 + dc3 pgaRow reg) * (pgaRow.h - 1))) := by
  decide +kernel

theorem D_zero {c : Row} (hc : c ∈ table) : D c 0 = c.h := by
  obtain ⟨-, -, -, -, -, hh, -⟩ := casts hc
  unfold D
  rw [zero_pow (by norm_num), zero_add, Real.sqrt_sq hh.le]

theorem event0_mem (mech : Mech) : ∃ e ∈ [pgaRow.e_0, pgaRow.e_1, pgaRow.e_2, pgaRow.e_3],
    (event0 pgaRow mech).val = (e : ℝ) := by
  cases mech
  · exact ⟨pgaRow.e_1, by simp, rfl⟩
  · exact ⟨pgaRow.e_2, by simp, rfl⟩
  · exact ⟨pgaRow.e_3, by simp, rfl⟩
  · exact ⟨pgaRow.e_0, by simp, rfl⟩

end BSSA14

/-- On soft soil the nonlinear site term overtakes the source: directly above the source
(`dist_jb` 0), for `v_s30` up to 200 m/s, the 0.133 s ordinate (row 32) strictly decreases with
magnitude from 5.8 to 8.5, for every mechanism, region and basin depth. -/
theorem C87_soft_soil_drops (s s' : Scenario) (g : BSSA14.Given) (m' : ℝ) (h : BSSA14.Source s g)
    (h' : BSSA14.Source s' { g with mag := m' })
    (hk : ∀ k ∈ ["mechanism", "region"], s'.get k = s.get k)
    (h0 : g.jb = 0) (h5 : 5.8 ≤ g.mag) (hm : g.mag < m') (h8 : m' ≤ 8.5) (hv0 : 0 < g.v) (hv : g.v ≤ 200) :
    ∃ o o', Gives BSSA14.cls s o ∧ Gives BSSA14.cls s' o' ∧
      (BSSA14.table[32]?.map BSSA14.Row.period) = some 0.133 ∧
      F.Drops (o.gmm.lnResp.getD 32 F.nan) (o'.gmm.lnResp.getD 32 F.nan) := by
  have e1 : s'.get "mechanism" = s.get "mechanism" := hk _ (by simp)
  have e2 : s'.get "region" = s.get "region" := hk _ (by simp)
  have g1 := BSSA14.gives h
  have g2 := BSSA14.gives h'
  rw [e1, e2] at g2
  generalize BSSA14.mechOf (s.get "mechanism") = mech at g1 g2
  generalize BSSA14.regOf (s.get "region") = reg at g1 g2
  refine ⟨_, _, g1, g2, by decide +kernel, ?_⟩
  have hi : 32 < BSSA14.table.length := by rw [BSSA14.table_length]; norm_num
  simp only [BSSA14.out, List.getD_eq_getElem?_getD, List.getElem?_map,
    List.getElem?_eq_getElem hi, Option.map_some, Option.getD_some]
  change F.Drops (BSSA14.lnResp BSSA14.shortRow _ _) (BSSA14.lnResp BSSA14.shortRow _ _)
  obtain ⟨-, q1, q2, q3, q4, q5, q6, q7, q8, q9, q10⟩ := BSSA14.short_facts
  have hc := BSSA14.shortRow_mem
  obtain ⟨a1, a2⟩ := BSSA14.resp_facts hc g hv0 mech reg
  obtain ⟨b1, b2⟩ := BSSA14.resp_facts hc { g with mag := m' } hv0 mech reg
  refine ⟨a1, b1, ?_⟩
  rw [a2, b2]
  simp only
  rw [h0]
  -- the logarithms of the two smallest distances
  obtain ⟨-, -, -, -, -, hh, hf5, -⟩ := BSSA14.casts hc
  obtain ⟨-, -, -, -, -, hhP, -⟩ := BSSA14.casts BSSA14.pgaRow_mem
  have l1 : Real.log BSSA14.shortRow.h ≤ ((1.4587 : ℚ) : ℝ) := log_le_of hh (by norm_num) (by exact_mod_cast q2)
  have l2 : Real.log BSSA14.pgaRow.h ≤ ((1.5041 : ℚ) : ℝ) := log_le_of hhP (by norm_num) (by exact_mod_cast q3)
  have l3 : ((1.504 : ℚ) : ℝ) ≤ Real.log BSSA14.pgaRow.h :=
    le_log_of hhP (by norm_num) (by norm_num) (by exact_mod_cast q4)
  have hPM' : (BSSA14.pgaRow.M_h : ℝ) = 5.5 := by rw [BSSA14.pga_mag.2.2.1]; norm_num
  have hPc : (0 : ℝ) < BSSA14.pgaRow.c_2 := by exact_mod_cast BSSA14.pga_mag.2.2.2
  have hMs : (BSSA14.shortRow.M_h : ℝ) ≤ 5.8 := by
    have : ((BSSA14.shortRow.M_h : ℚ) : ℝ) ≤ ((5.8 : ℚ) : ℝ) := by exact_mod_cast q1
    push_cast at this; norm_num at this ⊢; exact this
  -- the reference acceleration exceeds 0.3 g
  have hr := BSSA14.ref_rise mech reg 0 (by linarith) hm h8
  have hlow : ((-1.2 : ℚ) : ℝ) ≤ BSSA14.refR g.mag 0 mech reg := by
    have h58 : BSSA14.refR 5.8 0 mech reg ≤ BSSA14.refR g.mag 0 mech reg := by
      rcases h5.eq_or_lt with e | e
      · rw [e]
      · exact (BSSA14.ref_rise mech reg 0 (by norm_num) e (by linarith)).le
    refine le_trans ?_ h58
    obtain ⟨e, he, hev⟩ := BSSA14.event0_mem mech
    have := q10 e he reg (BSSA14.reg_mem reg)
    have this' : ((-1.2 : ℚ) : ℝ) ≤ ((e + BSSA14.pgaRow.e_6 * (5.8 - 5.5) + ((BSSA14.pgaRow.c_1 +
        BSSA14.pgaRow.c_2 * 1.3) * 1.5041 + (BSSA14.pgaRow.c_3 + BSSA14.dc3 BSSA14.pgaRow reg) *
        (BSSA14.pgaRow.h - 1)) : ℚ) : ℝ) := by exact_mod_cast this
    refine this'.trans ?_
    unfold BSSA14.refR BSSA14.pathR
    rw [BSSA14.event_high BSSA14.pgaRow mech (by rw [hPM']; norm_num), hev, hPM', BSSA14.D_zero BSSA14.pgaRow_mem]
    have q6' : ((BSSA14.pgaRow.c_1 + BSSA14.pgaRow.c_2 * 1.3 : ℚ) : ℝ) < ((0 : ℚ) : ℝ) := by exact_mod_cast q6
    push_cast at q6' l2 ⊢
    have t := mul_le_mul_of_nonpos_left l2 q6'.le
    norm_num at t ⊢
    linarith
  have hp : (0.3 : ℝ) ≤ Real.exp (BSSA14.refR g.mag 0 mech reg) := by
    have x1 : Real.exp ((1.2 : ℚ) : ℝ) ≤ (expHi 1.2 : ℝ) := le_expHi (by norm_num) (by norm_num)
    have x2 : ((expHi 1.2 * 0.3 : ℚ) : ℝ) ≤ ((1 : ℚ) : ℝ) := by exact_mod_cast q9
    have x3 : Real.exp (-((1.2 : ℚ) : ℝ)) ≤ Real.exp (BSSA14.refR g.mag 0 mech reg) := by
      apply Real.exp_le_exp.2
      refine le_trans (le_of_eq ?_) hlow
      norm_num
    refine le_trans ?_ x3
    rw [Real.exp_neg, le_inv_comm₀ (by norm_num) (Real.exp_pos _)]
    refine x1.trans ?_
    push_cast at x2
    rw [le_inv_comm₀ (by have := Real.exp_pos ((1.2 : ℚ) : ℝ); linarith) (by norm_num)] 
    have y := Real.exp_pos ((1.2 : ℚ) : ℝ)
    rw [← one_div, le_div_iff₀ (by linarith)]
    norm_num at x2 ⊢
    linarith
  -- strength of the nonlinearity
  have hf2 : BSSA14.f2R BSSA14.shortRow g.v * 0.75 ≤ -0.46 := by
    have y1 : (expLo (-BSSA14.shortRow.f_5 * 160) : ℝ) ≤ Real.exp (BSSA14.shortRow.f_5 * (min g.v 760 - 360)) := by
      refine (expLo_le (by
        have : BSSA14.shortRow.f_5 < 0 := (BSSA14.row_facts _ hc).2.2.2.2.2.2.1
        linarith)).trans (Real.exp_le_exp.2 ?_)
      push_cast
      have : min g.v 760 ≤ 200 := (min_le_left _ _).trans hv
      have := mul_le_mul_of_nonpos_left (sub_le_sub_right this 360) hf5.le
      linarith
    have y0 : 0 < expLo (-BSSA14.shortRow.f_5 * 400) := by decide +kernel
    have y2 : Real.exp (BSSA14.shortRow.f_5 * (760 - 360)) ≤ ((1 / expLo (-BSSA14.shortRow.f_5 * 400) : ℚ) : ℝ) := by
      have z := expLo_le (q := -BSSA14.shortRow.f_5 * 400) (by
        have : BSSA14.shortRow.f_5 < 0 := (BSSA14.row_facts _ hc).2.2.2.2.2.2.1
        linarith)
      have y0' : (0 : ℝ) < expLo (-BSSA14.shortRow.f_5 * 400) := by exact_mod_cast y0
      push_cast
      rw [le_div_iff₀ y0']
      have z2 : Real.exp (BSSA14.shortRow.f_5 * (760 - 360)) * Real.exp ((-BSSA14.shortRow.f_5 * 400 : ℚ) : ℝ) = 1 := by
        rw [← Real.exp_add]
        push_cast
        rw [Real.exp_eq_one_iff]
        ring
      have := mul_le_mul_of_nonneg_left z (Real.exp_pos ((BSSA14.shortRow.f_5 : ℝ) * (760 - 360))).le
      linarith
    have q8' : ((0.46 : ℚ) : ℝ) < ((0.75 * (-BSSA14.shortRow.f_4 * (expLo (-BSSA14.shortRow.f_5 * 160) -
      1 / expLo (-BSSA14.shortRow.f_5 * 400))) : ℚ) : ℝ) := by exact_mod_cast q8
    have f4 : BSSA14.shortRow.f_4 < 0 := by decide +kernel
    have f4' : (BSSA14.shortRow.f_4 : ℝ) < 0 := by exact_mod_cast f4
    unfold BSSA14.f2R
    push_cast at q8' y1 y2
    have t := mul_le_mul_of_nonpos_left (sub_le_sub y1 y2) f4'.le
    norm_num at q8' t ⊢
    linarith
  have n1 : ∀ x : ℝ, Real.exp x + 0.1 ≠ 0 := fun x => by have := Real.exp_pos x; positivity
  rw [Real.log_div (n1 _) (by norm_num), Real.log_div (n1 _) (by norm_num)]
  have hL := BSSA14.log_exp_add_ge (k := 0.1) hr.le (by norm_num) (by norm_num) hp
  set L' := Real.log (Real.exp (BSSA14.refR m' 0 mech reg) + 0.1)
  set L := Real.log (Real.exp (BSSA14.refR g.mag 0 mech reg) + 0.1)
  have e34 : (0.3 : ℝ) / (0.3 + 0.1) = 0.75 := by norm_num
  rw [e34] at hL
  have hneg : BSSA14.f2R BSSA14.shortRow g.v ≤ 0 := by linarith
  have t1 := mul_le_mul_of_nonpos_left hL hneg
  have hrd : BSSA14.refR m' 0 mech reg - BSSA14.refR g.mag 0 mech reg =
      (m' - g.mag) * (BSSA14.pgaRow.e_6 + BSSA14.pgaRow.c_2 * Real.log BSSA14.pgaRow.h) := by
    unfold BSSA14.refR BSSA14.pathR
    rw [BSSA14.event_high BSSA14.pgaRow mech (by rw [hPM']; linarith),
      BSSA14.event_high BSSA14.pgaRow mech (by rw [hPM']; linarith), BSSA14.D_zero BSSA14.pgaRow_mem]
    ring
  have hbd : (BSSA14.eventR BSSA14.shortRow m' mech + BSSA14.pathR BSSA14.shortRow m' 0 reg) -
      (BSSA14.eventR BSSA14.shortRow g.mag mech + BSSA14.pathR BSSA14.shortRow g.mag 0 reg) =
      (m' - g.mag) * (BSSA14.shortRow.e_6 + BSSA14.shortRow.c_2 * Real.log BSSA14.shortRow.h) := by
    unfold BSSA14.pathR
    rw [BSSA14.event_high BSSA14.shortRow mech (by linarith), BSSA14.event_high BSSA14.shortRow mech (by linarith),
      BSSA14.D_zero hc]
    ring
  have q7' : ((BSSA14.shortRow.e_6 + BSSA14.shortRow.c_2 * 1.4587 : ℚ) : ℝ) <
      ((0.46 * (BSSA14.pgaRow.e_6 + BSSA14.pgaRow.c_2 * 1.504) : ℚ) : ℝ) := by exact_mod_cast q7
  have q5' : (0 : ℝ) < BSSA14.shortRow.c_2 := by exact_mod_cast q5
  push_cast at q7' l1 l3
  have u1 := mul_le_mul_of_nonneg_left l1 q5'.le
  have u2 := mul_le_mul_of_nonneg_left l3 hPc.le
  have u3 : (BSSA14.shortRow.e_6 : ℝ) + BSSA14.shortRow.c_2 * Real.log BSSA14.shortRow.h <
      0.46 * (BSSA14.pgaRow.e_6 + BSSA14.pgaRow.c_2 * Real.log BSSA14.pgaRow.h) := by
    norm_num at q7' u1 u2 ⊢
    linarith
  have u4 := mul_lt_mul_of_pos_left u3 (sub_pos.2 hm)
  rw [hrd] at t1
  have hrp : 0 < (m' - g.mag) * ((BSSA14.pgaRow.e_6 : ℝ) + BSSA14.pgaRow.c_2 * Real.log BSSA14.pgaRow.h) := by
    rw [← hrd]; linarith
  have t2 := mul_le_mul_of_nonneg_right hf2 hrp.le
  linarith

/-! ### Instances -/

example : ∃ o o', Gives BSSA14.cls (BSSA14.exS ⟨5, 30, 400, none⟩ "italy") o ∧
    Gives BSSA14.cls (BSSA14.exS ⟨7, 30, 400, none⟩ "italy") o' ∧
    List.Forall₂ F.Drops o'.gmm.lnResp o.gmm.lnResp := by
  obtain ⟨o, o', h1, h2, -, -, h⟩ := C87_grows _ _ ⟨5, 30, 400, none⟩ 7 (BSSA14.ex_source _ "italy")
    (BSSA14.ex_source _ "italy") (by simp [BSSA14.exS, Scenario.get, Dict.get?])
    (by norm_num) (by norm_num) (by norm_num) (by norm_num)
  exact ⟨o, o', h1, h2, h (by norm_num)⟩

example : ∃ o o', Gives BSSA14.cls (BSSA14.exS ⟨6, 0, 180, some 0.5⟩ "japan") o ∧
    Gives BSSA14.cls (BSSA14.exS ⟨8, 0, 180, some 0.5⟩ "japan") o' ∧
    F.Drops (o.gmm.lnResp.getD 32 F.nan) (o'.gmm.lnResp.getD 32 F.nan) := by
  obtain ⟨o, o', h1, h2, -, h⟩ := C87_soft_soil_drops _ _ ⟨6, 0, 180, some 0.5⟩ 8 (BSSA14.ex_source _ "japan")
    (BSSA14.ex_source _ "japan") (by simp [BSSA14.exS, Scenario.get, Dict.get?])
    rfl (by norm_num) (by norm_num) (by norm_num) (by norm_num) (by norm_num)
  exact ⟨o, o', h1, h2, h⟩
