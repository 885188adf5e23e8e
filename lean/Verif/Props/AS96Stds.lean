import Verif.Models.AS96Stds
import Verif.Props.Durations
import Verif.InterpSlope

/-! # C99: Abrahamson & Silva (1996) in numbers, and `interp` with standard deviations -/

open Bounds

set_option linter.unusedSimpArgs false

namespace AS96
noncomputable section

/-- the nodes as numbers -/
def nodesR : List (ℝ × ℝ) :=
  [(0.10, 0.843), (0.15, 0.759), (0.20, 0.713), (0.25, 0.691), (0.30, 0.674), (0.35, 0.660),
   (0.40, 0.646), (0.45, 0.636), (0.50, 0.628), (0.55, 0.616), (0.60, 0.605), (0.65, 0.594),
   (0.70, 0.582), (0.75, 0.565), (0.80, 0.545), (0.85, 0.528), (0.90, 0.510), (0.95, 0.493)]

/-- the interpolated standard error -/
def sigma (x : ℝ) : ℝ := interpR nodesR x

end

theorem stdErrs_val (x : ℝ) : (stdErrs (F.ofReal x)).val = sigma x := by
  simp only [stdErrs, npInterpF, Interp.val_eq, F.val_ofReal, stdNodes, List.map_cons, List.map_nil, sigma,
    nodesR, fsimp]

theorem nodes_sorted : Interp.Sorted nodesR := by
  simp only [Interp.Sorted, nodesR, List.pairwise_cons, List.mem_cons, List.not_mem_nil, or_false,
    forall_eq_or_imp, forall_eq, List.Pairwise.nil, and_true, IsEmpty.forall_iff, implies_true]
  norm_num

theorem stdErrs_ok (x : ℝ) : (stdErrs (F.ofReal x)).ok := by
  refine ⟨trivial, Interp.ok_of _ _ ?_ ?_ ?_⟩
  · have := nodes_sorted
    simp only [Interp.Sorted, nodesR, List.pairwise_cons, List.mem_cons, List.not_mem_nil, or_false,
      forall_eq_or_imp, forall_eq, List.Pairwise.nil, and_true, IsEmpty.forall_iff, implies_true] at this
    simp only [Interp.Sorted, stdNodes, List.pairwise_cons, List.mem_cons, List.not_mem_nil, or_false,
      forall_eq_or_imp, forall_eq, List.Pairwise.nil, and_true, IsEmpty.forall_iff, implies_true]
    exact this
  · simp [stdNodes]
  · simp only [stdNodes, List.forall_mem_cons, fsimp]
    simp

theorem sigma_slope_ge {x y : ℝ} (h : x ≤ y) : -1.68 * (y - x) ≤ sigma y - sigma x := by
  refine Interp.slope_ge (by norm_num) nodesR nodes_sorted ?_ h
  simp only [nodesR, Interp.SlopeGe]
  norm_num

theorem sigma_slope_le {x y : ℝ} (h : x ≤ y) (hx : 0.1 ≤ x) (hy : y ≤ 0.95) :
    sigma y - sigma x ≤ -0.16 * (y - x) := by
  refine Interp.slope_le nodesR nodes_sorted ?_ h ⟨(0.10, 0.843), by simp [nodesR], ?_⟩
    ⟨(0.95, 0.493), by simp [nodesR], hy⟩
  · simp only [nodesR, Interp.SlopeLe]
    norm_num
  · norm_num at hx ⊢; exact hx

theorem sigma_node {p : ℝ × ℝ} (h : p ∈ nodesR) : sigma p.1 = p.2 := Interp.node nodesR p nodes_sorted h

theorem log18 : Real.log 18 < 2.8904 := by
  have h1 := log_le_of (x := 18) (q := 2.89038) (by norm_num) (by norm_num) (by
    have : (18 : ℚ) ≤ expLo 2.89038 := by decide +kernel
    exact_mod_cast this)
  push_cast at h1
  linarith

/-- the increment rises by more than 1.68 per unit -/
theorem incr_slope {x y : ℝ} (hx : 0.1 ≤ x) (hxy : x < y) (hy : y ≤ 0.95) :
    1.68 * (y - x) < (calcLnDurIncr (F.ofReal y)).val - (calcLnDurIncr (F.ofReal x)).val := by
  have e : (0.10 : ℝ) = 0.1 := by norm_num
  simp only [calcLnDurIncr, incr, fsimp, e]
  rw [if_neg (not_lt.2 hx), if_neg (show ¬ y < 0.1 by linarith), if_neg (not_lt.2 hy),
    if_neg (show ¬ 0.95 < x by linarith)]
  have hx1 : 0 < 1 - x := by norm_num at *; linarith
  have hy1 : 0 < 1 - y := by norm_num at *; linarith
  have hx0 : 0 < x - 0.05 := by norm_num at *; linarith
  have hy0 : 0 < y - 0.05 := by linarith
  have up : ∀ {w : ℝ}, 0.1 ≤ w → w ≤ 0.95 → Real.log ((w - 0.05) / (1 - w)) ≤ 2.8904 := fun {w} h1 h2 => by
    have a0 : 0 < w - 0.05 := by norm_num at *; linarith
    have a1 : 0 < 1 - w := by norm_num at *; linarith
    refine (Real.log_le_log (div_pos a0 a1) (show (w - 0.05) / (1 - w) ≤ 18 from ?_)).trans log18.le
    rw [div_le_iff₀ a1]; norm_num at *; linarith
  have ux := up hx (by linarith)
  have uy := up (by linarith) hy
  -- the logarithm rises by at least 4/0.95 per unit
  have key : 4 / 0.95 * (y - x) ≤ Real.log ((y - 0.05) / (1 - y)) - Real.log ((x - 0.05) / (1 - x)) := by
    rw [Real.log_div hy0.ne' hy1.ne', Real.log_div hx0.ne' hx1.ne']
    let f : ℝ → ℝ := fun w => Real.log (w - 0.05) - Real.log (1 - w) - 4 / 0.95 * w
    have hm : MonotoneOn f (Set.Icc 0.1 0.95) := by
      apply monotoneOn_of_deriv_nonneg (convex_Icc _ _)
      · apply ContinuousOn.sub
        · apply ContinuousOn.sub
          · exact ContinuousOn.log (by fun_prop) fun w hw => by
              have := hw.1; norm_num at this ⊢; linarith
          · exact ContinuousOn.log (by fun_prop) fun w hw => by
              have := hw.2; norm_num at this ⊢; linarith
        · fun_prop
      · intro w hw
        rw [interior_Icc] at hw
        have a0 : w - 0.05 ≠ 0 := by have := hw.1; norm_num at this ⊢; linarith
        have a1 : 1 - w ≠ 0 := by have := hw.2; norm_num at this ⊢; linarith
        exact ((((differentiableAt_id.sub_const _).log a0).sub ((differentiableAt_id.const_sub _).log a1)).sub
          (differentiableAt_id.const_mul _)).differentiableWithinAt
      · intro w hw
        rw [interior_Icc] at hw
        have a0 : 0 < w - 0.05 := by have := hw.1; norm_num at this ⊢; linarith
        have a1 : 0 < 1 - w := by have := hw.2; norm_num at this ⊢; linarith
        have hd : HasDerivAt f (1 / (w - 0.05) - (-1) / (1 - w) - 4 / 0.95 * 1) w :=
          ((((hasDerivAt_id w).sub_const 0.05).log a0.ne').sub (((hasDerivAt_id w).const_sub 1).log a1.ne')).sub
            ((hasDerivAt_id w).const_mul (4 / 0.95))
        rw [hd.deriv]
        have : 1 / (w - 0.05) - (-1) / (1 - w) - 4 / 0.95 * 1 =
            (0.95 ^ 2 - 4 * ((w - 0.05) * (1 - w))) / (0.95 * ((w - 0.05) * (1 - w))) := by
          field_simp; ring
        rw [this]
        apply div_nonneg _ (by positivity)
        nlinarith [sq_nonneg ((w - 0.05) - (1 - w))]
    have := hm ⟨hx, by linarith⟩ ⟨by linarith, hy⟩ hxy.le
    simp only [f] at this
    linarith
  set a := Real.log ((x - 0.05) / (1 - x))
  set b := Real.log ((y - 0.05) / (1 - y))
  clear_value a b
  have hpos : 0 < y - x := by linarith
  have hba : 0 < b - a := lt_of_lt_of_le (by positivity) key
  have hf : 0.40054 * (b - a) ≤ (0.552 - 0.0262 * (a + b)) * (b - a) :=
    mul_le_mul_of_nonneg_right (by linarith) hba.le
  have : (-0.532 + 0.552 * b - 0.0262 * b ^ 2) - (-0.532 + 0.552 * a - 0.0262 * a ^ 2) =
      (0.552 - 0.0262 * (a + b)) * (b - a) := by ring
  norm_num at this hf key ⊢
  linarith

end AS96

namespace AS96

theorem incr_75 : (0.0083 : ℝ) < (calcLnDurIncr 0.75).val ∧ (calcLnDurIncr 0.75).val < 0.0087 := by
  have hL : (calcLnDurIncr 0.75).val = -0.532 + 0.552 * Real.log 2.8 - 0.0262 * Real.log 2.8 ^ 2 := by
    simp only [calcLnDurIncr, incr, fsimp]
    norm_num
  have l1 : (1.0296 : ℝ) ≤ Real.log 2.8 := by
    have := le_log_of (x := 2.8) (q := 1.0296) (by norm_num) (by norm_num) (by norm_num)
      (by
        have : expHi 1.0296 ≤ (2.8 : ℚ) := by decide +kernel
        have h : ((expHi 1.0296 : ℚ) : ℝ) ≤ ((2.8 : ℚ) : ℝ) := by exact_mod_cast this
        push_cast at h; exact h)
    push_cast at this; exact this
  have l2 : Real.log 2.8 ≤ (1.0297 : ℝ) := by
    have := log_le_of (x := 2.8) (q := 1.0297) (by norm_num) (by norm_num)
      (by
        have : (2.8 : ℚ) ≤ expLo 1.0297 := by decide +kernel
        have h : ((2.8 : ℚ) : ℝ) ≤ ((expLo 1.0297 : ℚ) : ℝ) := by exact_mod_cast this
        push_cast at h; exact h)
    push_cast at this; exact this
  rw [hL]
  constructor <;> nlinarith

/-- factor of every duration -/
theorem factor : (1.0083 : ℝ) < Real.exp (calcLnDurIncr 0.75).val ∧ Real.exp (calcLnDurIncr 0.75).val < 1.0088 := by
  obtain ⟨h1, h2⟩ := incr_75
  constructor
  · have := Real.add_one_lt_exp (x := (calcLnDurIncr 0.75).val) (by linarith)
    linarith
  · refine (Real.exp_lt_exp.2 h2).trans_le ?_
    have := le_expHi (q := 0.0087) (by norm_num) (by norm_num)
    have h : expHi 0.0087 ≤ (1.0088 : ℚ) := by decide +kernel
    have h' : ((expHi 0.0087 : ℚ) : ℝ) ≤ ((1.0088 : ℚ) : ℝ) := by exact_mod_cast h
    push_cast at this h'
    linarith

/-- the duration is linear in the number inside the logarithm -/
theorem dur_val (m r : ℝ) (soil : Bool) : Real.exp (lnDur (F.ofReal m) (F.ofReal r) soil).val =
    Real.exp (calcLnDurIncr 0.75).val *
      ((Real.exp (5.204 + 0.851 * (m - 6)) / (10 : ℝ) ^ (1.5 * m + 16.05)) ^ ((-1 : ℝ) / 3)
        / (4.9e6 * 3.2) + 0.805 * (if soil then 1 else 0) + 0.063 * max (r - 10) 0) := by
  rw [lnDur_val, Real.exp_add, Real.exp_log (arg_pos m r soil)]
  ring

end AS96

/-- AbrahamsonSilva1996 in seconds.  Soil instead of rock adds between 0.811 and 0.813 s to the 5-75 %
duration whatever the magnitude and distance; every kilometre beyond 10 km adds between 0.0635 and 0.0636 s;
on rock within 10 km the duration is multiplied by between 2.38 and 2.383 per unit of magnitude,
and at magnitude 6 it is between 2.53 and 2.55 s.  The reported standard error is 0.55. -/
theorem C99_seconds (s s' : Scenario) (m m' r r' : ℝ) (site site' : String)
    (hm : s.get "mag" = .num m) (hr : s.get "dist_rup" = .num r) (ht : s.get "site_cond" = .str site)
    (hm' : s'.get "mag" = .num m') (hr' : s'.get "dist_rup" = .num r') (ht' : s'.get "site_cond" = .str site') :
    ∃ o o' d d' e, Gives AS96.cls s o ∧ Gives AS96.cls s' o' ∧ o.duration = [d] ∧ o'.duration = [d'] ∧
      o.stdErr = [e] ∧ e.ok ∧ e.val = 0.55 ∧
      (m' = m → r' = r → site = "rock" → site' = "soil" → 0.811 < d'.val - d.val ∧ d'.val - d.val < 0.813) ∧
      (m' = m → site' = site → 10 ≤ r → r < r' →
        0.0635 * (r' - r) < d'.val - d.val ∧ d'.val - d.val < 0.0636 * (r' - r)) ∧
      (m' = m + 1 → site = "rock" → site' = "rock" → r ≤ 10 → r' ≤ 10 →
        2.38 * d.val < d'.val ∧ d'.val < 2.383 * d.val) ∧
      (m = 6 → site = "rock" → r ≤ 10 → 2.53 < d.val ∧ d.val < 2.55) := by
  refine ⟨_, _, _, _, _, AS96.gives s hm hr ht, AS96.gives s' hm' hr' ht', rfl, rfl, rfl, ?_, ?_, ?_, ?_, ?_, ?_⟩
  · simp only [fsimp]
  · simp only [fsimp]
  all_goals simp only [F.val_exp, AS96.dur_val]
  all_goals
    obtain ⟨f1, f2⟩ := AS96.factor
    generalize Real.exp (AS96.calcLnDurIncr 0.75).val = K at f1 f2 ⊢
  · rintro rfl rfl rfl rfl
    rw [if_pos (by simp), if_neg (by simp)]
    generalize (_ : ℝ) / (4.9e6 * 3.2) = A
    constructor <;> nlinarith
  · rintro rfl rfl h10 hrr
    rw [max_eq_left (by linarith), max_eq_left (by linarith)]
    generalize (_ : ℝ) / (4.9e6 * 3.2) = A
    have e : ∀ B : ℝ, K * (A + B + 0.063 * (r' - 10)) - K * (A + B + 0.063 * (r - 10)) = 0.063 * K * (r' - r) :=
      fun B => by ring
    rw [e]
    have : 0 < r' - r := by linarith
    constructor
    · exact mul_lt_mul_of_pos_right (by linarith) this
    · exact mul_lt_mul_of_pos_right (by linarith) this
  · rintro rfl rfl rfl h1 h2
    rw [if_neg (by simp), max_eq_right (by linarith), max_eq_right (by linarith)]
    simp only [source_val, mul_zero, add_zero]
    have e : Real.exp ((5.204 + 0.851 * (m + 1 - 6) - (1.5 * (m + 1) + 16.05) * Real.log 10) * (-1 / 3)) =
        Real.exp ((5.204 + 0.851 * (m - 6) - (1.5 * m + 16.05) * Real.log 10) * (-1 / 3)) *
          Real.exp (0.5 * Real.log 10 - 0.851 / 3) := by
      rw [← Real.exp_add]; congr 1; ring
    rw [e]
    generalize hE : Real.exp ((5.204 + 0.851 * (m - 6) - (1.5 * m + 16.05) * Real.log 10) * (-1 / 3)) = E
    have hpos : 0 < E := hE ▸ Real.exp_pos _
    have g1 : (2.38 : ℝ) < Real.exp (0.5 * Real.log 10 - 0.851 / 3) := by
      have h := expLo_le (q := 0.8675) (by norm_num)
      have q : (2.38 : ℚ) < expLo 0.8675 := by decide +kernel
      have q' : ((2.38 : ℚ) : ℝ) < ((expLo 0.8675 : ℚ) : ℝ) := by exact_mod_cast q
      push_cast at h q'
      have := Real.exp_le_exp.2 (show (0.8675 : ℝ) ≤ 0.5 * Real.log 10 - 0.851 / 3 by
        have := log_ten_gt; linarith)
      linarith
    have g2 : Real.exp (0.5 * Real.log 10 - 0.851 / 3) < 2.383 := by
      have h := le_expHi (q := 0.8677) (by norm_num) (by norm_num)
      have q : expHi 0.8677 < (2.383 : ℚ) := by decide +kernel
      have q' : ((expHi 0.8677 : ℚ) : ℝ) < ((2.383 : ℚ) : ℝ) := by exact_mod_cast q
      push_cast at h q'
      have := Real.exp_le_exp.2 (show 0.5 * Real.log 10 - 0.851 / 3 ≤ (0.8677 : ℝ) by
        have := log_ten_lt; linarith)
      linarith
    have hK : 0 < K := by linarith
    have hKE : 0 < K * (E / (4.9e6 * 3.2)) := by positivity
    have h1 := mul_lt_mul_of_pos_left g1 hKE
    have h2 := mul_lt_mul_of_pos_left g2 hKE
    constructor
    · calc _ = K * (E / (4.9e6 * 3.2)) * 2.38 := by ring
        _ < _ := h1
        _ = _ := by ring
    · calc _ = K * (E / (4.9e6 * 3.2)) * Real.exp (0.5 * Real.log 10 - 0.851 / 3) := by ring
        _ < _ := h2
        _ = _ := by ring
  · rintro rfl rfl h1
    rw [if_neg (by simp), max_eq_right (by linarith)]
    simp only [source_val, mul_zero, add_zero]
    have lo := log_ten_gt
    have hi := log_ten_lt
    have g1 : (39400000 : ℝ) < Real.exp ((5.204 + 0.851 * (6 - 6) - (1.5 * 6 + 16.05) * Real.log 10) * (-1 / 3)) := by
      have h := expLo_le (q := 2.1864) (by norm_num)
      have q : (39400000 : ℚ) < expLo 2.1864 ^ 8 ∧ 0 ≤ expLo 2.1864 := by decide +kernel
      have q' : ((39400000 : ℚ) : ℝ) < ((expLo 2.1864 ^ 8 : ℚ) : ℝ) := by exact_mod_cast q.1
      have q0 : (0 : ℝ) ≤ ((expLo 2.1864 : ℚ) : ℝ) := by exact_mod_cast q.2
      have hp := pow_le_pow_left₀ q0 h 8
      rw [← Real.exp_nat_mul] at hp
      push_cast at hp q'
      have := Real.exp_le_exp.2 (show 8 * 2.1864 ≤
        (5.204 + 0.851 * (6 - 6) - (1.5 * 6 + 16.05) * Real.log 10) * (-1 / 3) by linarith)
      linarith
    have g2 : Real.exp ((5.204 + 0.851 * (6 - 6) - (1.5 * 6 + 16.05) * Real.log 10) * (-1 / 3)) < 39530000 := by
      have h := le_expHi (q := 2.18651) (by norm_num) (by norm_num)
      have q : expHi 2.18651 ^ 8 < (39530000 : ℚ) := by decide +kernel
      have q' : ((expHi 2.18651 ^ 8 : ℚ) : ℝ) < ((39530000 : ℚ) : ℝ) := by exact_mod_cast q
      have hp := pow_le_pow_left₀ (Real.exp_pos _).le h 8
      rw [← Real.exp_nat_mul] at hp
      push_cast at hp q'
      have := Real.exp_le_exp.2 (show
        (5.204 + 0.851 * (6 - 6) - (1.5 * 6 + 16.05) * Real.log 10) * (-1 / 3) ≤ 8 * 2.18651 by linarith)
      linarith
    generalize Real.exp ((5.204 + 0.851 * (6 - 6) - (1.5 * 6 + 16.05) * Real.log 10) * (-1 / 3)) = E at g1 g2 ⊢
    have a1 := mul_lt_mul'' f1 g1 (by norm_num) (by norm_num)
    have a2 := mul_lt_mul'' f2 g2 (by linarith) (by linarith)
    have e : K * (E / (4.9e6 * 3.2)) = K * E / 15680000 := by ring
    rw [e]
    constructor
    · rw [lt_div_iff₀ (by norm_num)]; linarith
    · rw [div_lt_iff₀ (by norm_num)]; linarith

/-! ### `interp` with standard deviations -/

namespace AS96

theorem full_mem (ld : F) (mem : Arrays) (a : NiasArg) (ks : StdsArg) :
    (interpFull ld mem a ks).1 = (interpArr ld mem a).1 := by
  cases ks <;> rfl

theorem full_rows (ld : F) (mem : Arrays) (a : NiasArg) (ks : List ℝ) :
    (interpFull ld mem a (.list ks)).2 = .ok (.rows (ks.map fun k =>
      (((asarray mem a).1.getD (asarray mem a).2 []).map maskCell).map fun c =>
        F.exp (ld + incr c.toF + F.ofReal k * stdErrs c.toF))) := by
  have e : ∀ l : List Cell, (l.map maskCell).map maskCell = l.map maskCell := map_maskCell_idem
  have g : (maskArr (maskArr (asarray mem a).1 (asarray mem a).2) (asarray mem a).2).getD (asarray mem a).2 [] =
      ((asarray mem a).1.getD (asarray mem a).2 []).map maskCell := by
    rw [maskArr_idem]
    unfold maskArr
    simp only [List.getD_eq_getElem?_getD, List.getElem?_modify_eq]
    cases (asarray mem a).1[(asarray mem a).2]? <;> simp
  simp only [interpFull, calcIncrArr, g]
  congr 2
  refine List.map_congr_left fun k _ => ?_
  rw [List.map_map, List.zipWith_map, List.zipWith_self, List.map_map]
  rfl

/-- one entry of the result -/
theorem entry (ld : F) (hld : ld.ok) (k : ℝ) (x : Cell) :
    ((F.exp (ld + incr (maskCell x).toF + F.ofReal k * stdErrs (maskCell x).toF)).ok ↔
      ∃ v, x = some v ∧ 0.1 ≤ v ∧ v ≤ 0.95) ∧
    ∀ v, x = some v → 0.1 ≤ v → v ≤ 0.95 →
      (F.exp (ld + incr (maskCell x).toF + F.ofReal k * stdErrs (maskCell x).toF)).val =
        (interp ld (F.ofReal v)).val * Real.exp (k * sigma v) := by
  have e10 : (0.10 : ℝ) = 0.1 := by norm_num
  have inn : ∀ v : ℝ, 0.1 ≤ v → v ≤ 0.95 → calcLnDurIncr (F.ofReal v) = incr (F.ofReal v) := fun v h1 h2 => by
    ext
    · simp only [calcLnDurIncr, F.val_iteLt, fsimp, e10]
      rw [if_neg (not_lt.2 h1), if_neg (not_lt.2 h2)]
    · have := (calcLnDurIncr_ok_iff v).2 ⟨h1, h2⟩
      refine ⟨fun _ => ?_, fun _ => this⟩
      simp only [calcLnDurIncr, F.ok_iteLt, fsimp, e10] at this
      rw [if_neg (not_lt.2 h1), if_neg (not_lt.2 h2)] at this
      simpa [incr, fsimp] using this
  refine ⟨⟨fun h => ?_, ?_⟩, ?_⟩
  · cases x with
    | none => simp [maskCell, Cell.toF, incr, fsimp] at h
    | some v =>
      by_cases hv : v < 0.10 ∨ 0.95 < v
      · simp [maskCell, hv, Cell.toF, incr, fsimp] at h
      · rw [not_or, not_lt, not_lt] at hv
        exact ⟨v, rfl, by rw [← e10]; exact hv.1, hv.2⟩
  · rintro ⟨v, rfl, h1, h2⟩
    have hv : ¬ (v < 0.10 ∨ 0.95 < v) := by
      rw [not_or, not_lt, not_lt, e10]; exact ⟨h1, h2⟩
    simp only [maskCell, if_neg hv, Cell.toF, F.ok_exp, F.ok_add, F.ok_mul, stdErrs_ok, ← inn v h1 h2]
    exact ⟨⟨hld, (calcLnDurIncr_ok_iff v).2 ⟨h1, h2⟩⟩, trivial, trivial⟩
  · rintro v rfl h1 h2
    have hv : ¬ (v < 0.10 ∨ 0.95 < v) := by
      rw [not_or, not_lt, not_lt, e10]; exact ⟨h1, h2⟩
    simp only [maskCell, if_neg hv, Cell.toF, F.val_exp, F.val_add, F.val_mul, stdErrs_val, interp, inn v h1 h2,
      F.val_ofReal, Real.exp_add]

end AS96

/-- specification of the interpolated standard error: continuous and strictly decreasing from 0.843
at 10 % to 0.493 at 95 % of the Arias intensity, 0.628 at 50 % and 0.565 at 75 % -/
structure Spec.As96Sigma (σ : ℝ → ℝ) : Prop where
  cont : Continuous σ
  anti : StrictAntiOn σ (Set.Icc 0.1 0.95)
  first : σ 0.1 = 0.843
  mid : σ 0.5 = 0.628
  std : σ 0.75 = 0.565
  last : σ 0.95 = 0.493

theorem AS96.sigma_spec : Spec.As96Sigma AS96.sigma where
  cont := Interp.continuous _ AS96.nodes_sorted
  anti := fun x hx y hy h => by
    have := AS96.sigma_slope_le h.le hx.1 hy.2
    linarith
  first := by
    have := AS96.sigma_node (p := (0.10, 0.843)) (by simp [AS96.nodesR])
    norm_num at this ⊢; exact this
  mid := by
    have := AS96.sigma_node (p := (0.50, 0.628)) (by simp [AS96.nodesR])
    norm_num at this ⊢; exact this
  std := AS96.sigma_node (p := (0.75, 0.565)) (by simp [AS96.nodesR])
  last := AS96.sigma_node (p := (0.95, 0.493)) (by simp [AS96.nodesR])

/-- `interp(nias, stds)` with the caller's array of thresholds and a list of numbers of standard
deviations: one row per number, one column per threshold.  An entry is defined exactly if the
threshold is within [0.1, 0.95]; it then is `interp` without `stds` times exp(k σ(threshold)), with one function σ for
all models, arrays and numbers. -/
theorem C99_interp_stds : ∃ σ : ℝ → ℝ, Spec.As96Sigma σ ∧
    ∀ (ld : F), ld.ok → ∀ (mem : AS96.Arrays) (ref : ℕ) (l : List (Option ℝ)) (ks : List ℝ), mem[ref]? = some l →
      ∃ rows, (AS96.interpFull ld mem (.arr ref) (.list ks)).2 = .ok (.rows rows) ∧
        List.Forall₂ (fun k row => List.Forall₂ (fun x (y : F) =>
          (y.ok ↔ ∃ v, x = some v ∧ 0.1 ≤ v ∧ v ≤ 0.95) ∧
          ∀ v, x = some v → 0.1 ≤ v → v ≤ 0.95 →
            y.val = (AS96.interp ld (F.ofReal v)).val * Real.exp (k * σ v)) l row) ks rows := by
  refine ⟨AS96.sigma, AS96.sigma_spec, fun ld hld mem ref l ks h => ⟨_, AS96.full_rows ld mem (.arr ref) ks, ?_⟩⟩
  have e : (AS96.asarray mem (.arr ref)).1.getD (AS96.asarray mem (.arr ref)).2 [] = l := by
    simp [AS96.asarray, List.getD_eq_getElem?_getD, h]
  rw [e]
  rw [List.forall₂_map_right_iff]
  refine List.forall₂_same.2 fun k _ => ?_
  rw [List.map_map, List.forall₂_map_right_iff]
  exact List.forall₂_same.2 fun x _ => AS96.entry ld hld k x

/-- Passing `stds` has the same effect on the caller's arrays as leaving it out, also when it is a
number: that raises `IndexError`, and the array of thresholds is already overwritten. -/
theorem C99_caller_arrays (ld : F) (mem : AS96.Arrays) (a : AS96.NiasArg) (ks : AS96.StdsArg) :
    (AS96.interpFull ld mem a ks).1 = (AS96.interpArr ld mem a).1 ∧
    (∀ k, ks = .scalar k → (AS96.interpFull ld mem a ks).2 = .error .indexError) ∧
    (ks = .none → (AS96.interpFull ld mem a ks).2 = .ok (.flat (AS96.interpArr ld mem a).2)) := by
  refine ⟨AS96.full_mem ld mem a ks, ?_, ?_⟩
  · rintro k rfl; rfl
  · rintro rfl
    simp only [AS96.interpFull, AS96.interpArr, List.map_map]
    rfl

/-- The row of a number of standard deviations of at most 1 (so also every negative one) is strictly
increasing in the threshold, for a model built from any scenario. -/
theorem C99_increasing (s : Scenario) (m r : ℝ) (site : String)
    (hm : s.get "mag" = .num m) (hr : s.get "dist_rup" = .num r) (ht : s.get "site_cond" = .str site)
    (k x y : ℝ) (hk : k ≤ 1) (hx : 0.1 ≤ x) (hxy : x < y) (hy : y ≤ 0.95) :
    ∃ o ld d e, Gives AS96.cls s o ∧ o.lnDur = [ld] ∧
      (AS96.interpFull ld [[some x, some y]] (.arr 0) (.list [k])).2 = .ok (.rows [[d, e]]) ∧ F.Drops e d := by
  have hld := AS96.lnDur_ok m r (decide (site = "soil"))
  have h1 := AS96.entry _ hld k (some x)
  have h2 := AS96.entry _ hld k (some y)
  refine ⟨_, _, _, _, AS96.gives s hm hr ht, rfl, AS96.full_rows _ _ _ _, h2.1.2 ⟨y, rfl, by linarith, hy⟩,
    h1.1.2 ⟨x, rfl, hx, by linarith⟩, ?_⟩
  rw [h1.2 x rfl hx (by linarith), h2.2 y rfl (by linarith) hy]
  simp only [AS96.interp, F.val_exp, F.val_add, ← Real.exp_add]
  apply Real.exp_lt_exp.2
  have a := AS96.incr_slope hx hxy hy
  have b := AS96.sigma_slope_ge hxy.le
  have c := AS96.sigma_slope_le hxy.le hx hy
  by_cases h0 : 0 ≤ k
  · have : -1.68 * (y - x) ≤ k * (AS96.sigma y - AS96.sigma x) := by
      have n : AS96.sigma y - AS96.sigma x ≤ 0 := by nlinarith
      nlinarith
    linarith
  · have : 0 ≤ k * (AS96.sigma y - AS96.sigma x) :=
      mul_nonneg_of_nonpos_of_nonpos (not_le.1 h0).le (by nlinarith)
    nlinarith

example := C99_seconds
  ⟨[("mag", .num 6), ("dist_rup", .num 5), ("site_cond", .str "rock")], []⟩
  ⟨[("mag", .num 7), ("dist_rup", .num 8), ("site_cond", .str "rock")], []⟩ 6 7 5 8 "rock" "rock" rfl rfl rfl rfl rfl rfl
example : (AS96.interpFull (F.ofReal 1) [[some 0.5, some 2, none]] (.arr 0) (.scalar 1)).2 = .error .indexError :=
  (C99_caller_arrays _ _ _ _).2.1 1 rfl
example := C99_increasing ⟨[("mag", .num 6), ("dist_rup", .num 5), ("site_cond", .str "rock")], []⟩ 6 5 "rock"
  rfl rfl rfl 1 0.1 0.95 le_rfl le_rfl (by norm_num) le_rfl
