import Verif.Props.GA11
import Verif.Props.HangingWall

/-! # C104: Gülerce & Abrahamson (2011), what moves the V/H ratio -/

open Bounds

set_option linter.unusedSimpArgs false

namespace GA11

/-- the five inputs -/
structure Holds (s : Scenario) (m r v p : ℝ) (t : String) : Prop where
  mag : s.get "mag" = .num m
  rup : s.get "dist_rup" = .num r
  vs : s.get "v_s30" = .num v
  pga : s.get "pga_ref" = .num p
  mech : s.get "mechanism" = .str t

/-- m/s, by ordinate: up to here the velocity counts … -/
def satLo : List ℚ := [1500, 862, 1500, 1500, 1500, 1500, 1500, 1500, 1500, 1500, 1500, 1500, 1500, 1500, 1500,
  1083, 861, 764, 702, 700, 700, 700, 700, 700]
/-- … and from here on it does not -/
def satHi : List ℚ := [1500, 862, 1500, 1500, 1500, 1500, 1500, 1500, 1500, 1500, 1500, 1500, 1500, 1500, 1500,
  1084, 863, 765, 703, 700, 700, 700, 700, 700]

/-- reverse faulting against strike slip, by ordinate -/
def rsShift : List ℚ := [-0.105, 0.05, -0.105, -0.105, -0.14, -0.16, -0.136, -0.019, 0, 0, 0, 0, 0, 0, 0, 0, 0,
  0.029, 0.05, 0.079, 0.1, 0.1, 0.1, 0.1]
/-- normal faulting against strike slip, by ordinate -/
def nsShift : List ℚ := [0, 0.15, 0, 0, 0, 0, 0, 0, 0.017, 0.04, 0.057, 0.072, 0.08, 0.097, 0.11, 0.133, 0.15, 0.15,
  0.15, 0.15, 0.15, 0.15, 0.15, 0.15]

theorem table_len : table.length = 24 := rfl

theorem val_split (c : Row) (m r v p : F) (t : Mech) :
    (lnRatio c m r v p t).val = (f1 c m r).val + (f5 c v p).val + (fMech c t).val := by
  simp only [lnRatio, fsimp]

theorem v1_exp {T a b : ℝ} {q r : ℚ} (hq : 0 ≤ q) (hr : 0 ≤ r) (hr8 : r ≤ 8) {x : ℝ} (h1 : (q : ℝ) ≤ x) (h2 : x ≤ r)
    (ha : a ≤ expLo q) (hb : (expHi r : ℝ) ≤ b) : a ≤ Real.exp x ∧ Real.exp x ≤ b :=
  ⟨ha.trans ((expLo_le hq).trans (Real.exp_le_exp.2 h1)), ((Real.exp_le_exp.2 h2).trans (le_expHi hr hr8)).trans hb⟩

theorem v1_15 : 1083 ≤ (v1 0.75).val ∧ (v1 0.75).val ≤ 1084 := by
  have l1 := le_log_of (x := 0.75 / 0.21) (q := 1.2728) (by norm_num) (by norm_num) (by norm_num)
    (by norm_num [expHi, taylor])
  have l2 := log_le_of (x := 0.75 / 0.21) (q := 1.2731) (by norm_num) (by norm_num) (by norm_num [expLo, taylor])
  push_cast at l1 l2
  have e : (v1 0.75).val = Real.exp (8 - 0.795 * Real.log (0.75 / 0.21)) := by
    rw [v1, if_neg (by norm_num), if_neg (by norm_num), if_pos (by norm_num)]
    simp only [fsimp]
    rw [max_eq_right (by norm_num)]
    norm_num
  rw [e]
  refine v1_exp (T := 0) (q := 6.9878) (r := 6.9882) (by norm_num) (by norm_num) (by norm_num) ?_ ?_ ?_ ?_
  · push_cast; linarith
  · push_cast; linarith
  · norm_num [expLo, taylor]
  · norm_num [expHi, taylor]

theorem v1_16 : 861 ≤ (v1 1).val ∧ (v1 1).val ≤ 863 := by
  have l1 := le_log_of (x := 1 / 0.21) (q := 1.5606) (by norm_num) (by norm_num) (by norm_num)
    (by norm_num [expHi, taylor])
  have l2 := log_le_of (x := 1 / 0.21) (q := 1.5607) (by norm_num) (by norm_num) (by norm_num [expLo, taylor])
  push_cast at l1 l2
  have e : (v1 1).val = Real.exp (8 - 0.795 * Real.log (1 / 0.21)) := by
    rw [v1, if_neg (by norm_num), if_neg (by norm_num), if_pos (by norm_num)]
    simp only [fsimp]
    rw [max_eq_right (by norm_num)]
    norm_num
  rw [e]
  refine v1_exp (T := 0) (q := 6.7592) (r := 6.7594) (by norm_num) (by norm_num) (by norm_num) ?_ ?_ ?_ ?_
  · push_cast; linarith
  · push_cast; linarith
  · norm_num [expLo, taylor]
  · norm_num [expHi, taylor]

theorem v1_17 : 764 ≤ (v1 1.5).val ∧ (v1 1.5).val ≤ 765 := by
  have l1 := le_log_of (x := 1.5) (q := 0.4054) (by norm_num) (by norm_num) (by norm_num)
    (by norm_num [expHi, taylor])
  have l2 := log_le_of (x := 1.5) (q := 0.4055) (by norm_num) (by norm_num) (by norm_num [expLo, taylor])
  push_cast at l1 l2
  have e : (v1 1.5).val = Real.exp (6.76 - 0.297 * Real.log 1.5) := by
    rw [v1, if_neg (by norm_num), if_neg (by norm_num), if_neg (by norm_num), if_pos (by norm_num)]
    simp only [fsimp]
    rw [max_eq_right (by norm_num)]
    norm_num
  rw [e]
  refine v1_exp (T := 0) (q := 6.6395) (r := 6.6397) (by norm_num) (by norm_num) (by norm_num) ?_ ?_ ?_ ?_
  · push_cast; linarith
  · push_cast; linarith
  · norm_num [expLo, taylor]
  · norm_num [expHi, taylor]

theorem v1_18 : 702 ≤ (v1 2).val ∧ (v1 2).val ≤ 703 := by
  have l1 := le_log_of (x := 2) (q := 0.6931) (by norm_num) (by norm_num) (by norm_num)
    (by norm_num [expHi, taylor])
  have l2 := log_le_of (x := 2) (q := 0.6932) (by norm_num) (by norm_num) (by norm_num [expLo, taylor])
  push_cast at l1 l2
  have e : (v1 2).val = Real.exp (6.76 - 0.297 * Real.log 2) := by
    rw [v1, if_neg (by norm_num), if_neg (by norm_num), if_neg (by norm_num), if_pos (by norm_num)]
    simp only [fsimp]
    rw [max_eq_right (by norm_num)]
    norm_num
  rw [e]
  refine v1_exp (T := 0) (q := 6.5541) (r := 6.5542) (by norm_num) (by norm_num) (by norm_num) ?_ ?_ ?_ ?_
  · push_cast; linarith
  · push_cast; linarith
  · norm_num [expLo, taylor]
  · norm_num [expHi, taylor]

theorem v1_bounds (i : Fin table.length) :
    satLo.getD i.val 0 ≤ (v1 table[i].period).val ∧ (v1 table[i].period).val ≤ satHi.getD i.val 0 ∧
      (table[i].v_lin : ℝ) ≤ satLo.getD i.val 0 := by
  have b : ∀ i : Fin table.length, table[i].v_lin ≤ satLo.getD i.val 0 := by decide +kernel
  have a : ∀ x : ℝ, ∀ T : ℚ, (v1 T).val = x → x ≤ (v1 T).val ∧ (v1 T).val ≤ x := fun x T h => ⟨h.ge, h.le⟩
  have c1 : ∀ T : ℚ, T < 0 → (v1 T).val = 862 := fun T h => by rw [v1, if_pos h]; simp
  have c2 : ∀ T : ℚ, ¬ T < 0 → T ≤ 0.5 → (v1 T).val = 1500 := fun T h h' => by rw [v1, if_neg h, if_pos h']; simp
  have c3 : ∀ T : ℚ, 2 < T → T ≤ 10 → (v1 T).val = 700 := fun T h h' => by
    rw [v1, if_neg (by linarith), if_neg (by norm_num; linarith), if_neg (by linarith), if_neg (by linarith), if_pos h']
    simp
  rw [← and_assoc]
  constructor
  · fin_cases i
    · exact a _ _ (c2 _ (by decide +kernel) (by decide +kernel))
    · exact a _ _ (c1 _ (by decide +kernel))
    all_goals first
      | exact a _ _ (c2 _ (by decide +kernel) (by decide +kernel))
      | exact v1_15
      | exact v1_16
      | exact v1_17
      | exact v1_18
      | exact a _ _ (c3 _ (by decide +kernel) (by decide +kernel))
  · exact_mod_cast b i

/-- m/s, by ordinate: from here on the site response is linear -/
def linV : List ℚ := [865.1, 400, 865.1, 865.1, 898.6, 994.5, 1053.5, 1085.7, 1032.5, 877.6, 748.2, 639, 587.1, 503,
  456.6, 410.5, 400, 400, 400, 400, 400, 400, 400, 400]

theorem lin_eq (i : Fin table.length) : (table[i].v_lin : ℝ) = (linV.getD i.val 0 : ℚ) := by
  have : ∀ i : Fin table.length, table[i].v_lin = linV.getD i.val 0 := by decide +kernel
  rw [this i]

theorem rs_eq (i : Fin table.length) : (table[i].a6 : ℝ) = (rsShift.getD i.val 0 : ℚ) := by
  have : ∀ i : Fin table.length, table[i].a6 = rsShift.getD i.val 0 := by decide +kernel
  rw [this i]

theorem ns_eq (i : Fin table.length) : (table[i].a7 : ℝ) = (nsShift.getD i.val 0 : ℚ) := by
  have : ∀ i : Fin table.length, table[i].a7 = nsShift.getD i.val 0 := by decide +kernel
  rw [this i]

theorem more_rows : ∀ i : Fin table.length, 0 < table[i].a10 - table[i].b * table[i].n ∧ table[i].n = 1.18 ∧
    table[i].c = 1.88 ∧ table[i].c4 = 10 ∧ table[i].c1 = 6.75 ∧ table[i].a3 = 0.0147 ∧ table[i].a4 = 0.0334 ∧
    table[i].a5 = -0.034 ∧ table[i].b ≤ 0 ∧ (i.val < 19 → table[i].b < 0) ∧ (19 ≤ i.val → table[i].b = 0) ∧
    (i.val < 10 → i.val ≠ 1 → table[i].a2 ≤ -0.069) ∧ (13 ≤ i.val ∨ i.val = 1 → 0.057 ≤ table[i].a2) ∧
    (10 ≤ i.val → 0.002 ≤ table[i].a2) ∧ (i.val < 13 → i.val ≠ 1 → table[i].a8 ≤ 0.006) := by
  decide +kernel

/-- the site term where it is linear -/
theorem f5_stiff {c : Row} {v p : ℝ} (h : (c.v_lin : ℝ) ≤ min v (v1 c.period).val) :
    (f5 c (F.ofReal v) (F.ofReal p)).val = (c.a10 - c.b * c.n) * Real.log (min v (v1 c.period).val / c.v_lin) := by
  simp only [f5, fsimp]
  rw [if_neg (not_lt.2 h)]; ring

/-- the site term where it is not -/
theorem f5_soft {c : Row} {v p : ℝ} (h : min v (v1 c.period).val < c.v_lin) :
    (f5 c (F.ofReal v) (F.ofReal p)).val = c.a10 * Real.log (min v (v1 c.period).val / c.v_lin) -
      (-c.b * Real.log (p + c.c) + c.b * Real.log (p + c.c * (min v (v1 c.period).val / c.v_lin) ^ (c.n : ℝ))) := by
  simp only [f5, fsimp]
  rw [if_pos h]

theorem Holds.gives {s : Scenario} {m r v p : ℝ} {t : String} (h : Holds s m r v p t) :
    Gives cls s (out (F.ofReal m) (F.ofReal r) (F.ofReal v) (F.ofReal p) (mechFor t)) :=
  GA11.gives s h.mag h.rup h.vs h.pga h.mech

end GA11

/-- **C104 (velocity).** Two scenarios that differ in `v_s30` only.  From the saturation velocity of the
ordinate on (1500 m/s up to 0.5 s and for PGA, 862 for PGV, 1083.5, 862, 764.8 and 702.1 at 0.75, 1, 1.5
and 2 s, 700 beyond) the ratio does not change; below it and above the velocity where the site response
becomes linear it strictly grows. -/
theorem C104_velocity (s s' : Scenario) (m r v v' p : ℝ) (t : String) (h : GA11.Holds s m r v p t)
    (h' : GA11.Holds s' m r v' p t) (hp : 0 ≤ p) :
    ∃ o o', Gives GA11.cls s o ∧ Gives GA11.cls s' o' ∧ o.lnRatio.length = 24 ∧ ∀ i < 24,
      (GA11.satHi.getD i 0 ≤ v → GA11.satHi.getD i 0 ≤ v' →
        F.Same (o.lnRatio.getD i F.nan) (o'.lnRatio.getD i F.nan)) ∧
      (GA11.linV.getD i 0 ≤ v → v < v' → v ≤ GA11.satLo.getD i 0 →
        F.NotAbove (o'.lnRatio.getD i F.nan) (o.lnRatio.getD i F.nan) ∧
        (v' ≤ GA11.satLo.getD i 0 → F.Drops (o'.lnRatio.getD i F.nan) (o.lnRatio.getD i F.nan))) := by
  refine ⟨_, _, h.gives, h'.gives, by simp only [GA11.out, List.length_map]; rfl, fun i hi => ?_⟩
  rw [← GA11.table_len] at hi
  have hc : GA11.table[i] ∈ GA11.table := List.getElem_mem hi
  obtain ⟨l1, l2, l3⟩ := GA11.v1_bounds ⟨i, hi⟩
  have l4 := GA11.lin_eq ⟨i, hi⟩
  obtain ⟨q1, -⟩ := GA11.more_rows ⟨i, hi⟩
  simp only [Fin.getElem_fin] at l1 l2 l3 l4 q1
  have q1' : (0 : ℝ) < (GA11.table[i].a10 : ℝ) - GA11.table[i].b * GA11.table[i].n := by exact_mod_cast q1
  have l0 : (0 : ℝ) < GA11.table[i].v_lin := by
    have := (GA11.row_facts _ hc).1
    exact_mod_cast this
  simp only [GA11.out, getD_row _ _ hi]
  refine ⟨fun a b => ?_, fun a b c => ?_⟩
  · have ok := GA11.lnRatio_ok hc m r (v := v) (p := p) (by linarith) hp (GA11.mechFor t)
    have ok' := GA11.lnRatio_ok hc m r (v := v') (p := p) (by linarith) hp (GA11.mechFor t)
    refine ⟨ok, ok', ?_⟩
    have e : min v (GA11.v1 GA11.table[i].period).val = min v' (GA11.v1 GA11.table[i].period).val := by
      rw [min_eq_right (by linarith), min_eq_right (by linarith)]
    rw [GA11.val_split, GA11.val_split, GA11.f5_stiff (le_min (by linarith) (by linarith)),
      GA11.f5_stiff (le_min (by linarith) (by linarith)), e]
  · have ok := GA11.lnRatio_ok hc m r (v := v) (p := p) (by linarith) hp (GA11.mechFor t)
    have ok' := GA11.lnRatio_ok hc m r (v := v') (p := p) (by linarith) hp (GA11.mechFor t)
    simp only [F.NotAbove, F.Drops, ok, ok', true_and]
    rw [GA11.val_split, GA11.val_split, GA11.f5_stiff (v := v) (le_min (by linarith) (by linarith)),
      GA11.f5_stiff (v := v') (le_min (by linarith) (by linarith))]
    have e1 : min v (GA11.v1 GA11.table[i].period).val = v := min_eq_left (by linarith)
    rw [e1]
    refine ⟨?_, fun d => ?_⟩
    · have := Real.log_le_log (show 0 < v / GA11.table[i].v_lin from div_pos (by linarith) l0)
        (div_le_div_of_nonneg_right (show v ≤ min v' (GA11.v1 GA11.table[i].period).val from
          le_min b.le (by linarith)) l0.le)
      have := mul_le_mul_of_nonneg_left this q1'.le
      linarith
    · have e2 : min v' (GA11.v1 GA11.table[i].period).val = v' := min_eq_left (by linarith)
      rw [e2]
      have := Real.log_lt_log (show 0 < v / GA11.table[i].v_lin from div_pos (by linarith) l0)
        (div_lt_div_of_pos_right b l0)
      have := mul_lt_mul_of_pos_left this q1'
      linarith

/-- **C104 (reference acceleration).** Two scenarios that differ in `pga_ref` only, the second stronger.
Where the site response is linear (from the velocity `linV` of the ordinate on) and from 3 s on the ratio
does not change; everywhere else it strictly grows — non-linear soil weakens the horizontal motion. -/
theorem C104_reference (s s' : Scenario) (m r v p p' : ℝ) (t : String) (h : GA11.Holds s m r v p t)
    (h' : GA11.Holds s' m r v p' t) (hv : 0 < v) (hp : 0 ≤ p) (hpp : p < p') :
    ∃ o o', Gives GA11.cls s o ∧ Gives GA11.cls s' o' ∧ o.lnRatio.length = 24 ∧ ∀ i < 24,
      (GA11.linV.getD i 0 ≤ v ∨ 19 ≤ i → F.Same (o.lnRatio.getD i F.nan) (o'.lnRatio.getD i F.nan)) ∧
      (v < GA11.linV.getD i 0 → i < 19 → F.Drops (o'.lnRatio.getD i F.nan) (o.lnRatio.getD i F.nan)) := by
  refine ⟨_, _, h.gives, h'.gives, by simp only [GA11.out, List.length_map]; rfl, fun i hi => ?_⟩
  rw [← GA11.table_len] at hi
  have hc : GA11.table[i] ∈ GA11.table := List.getElem_mem hi
  obtain ⟨l1, l2, l3⟩ := GA11.v1_bounds ⟨i, hi⟩
  have l4 := GA11.lin_eq ⟨i, hi⟩
  obtain ⟨-, n1, n2, -, -, -, -, -, b0, b1, b2, -⟩ := GA11.more_rows ⟨i, hi⟩
  simp only [Fin.getElem_fin] at l1 l2 l3 l4 n1 n2 b0 b1 b2
  have l0 : (0 : ℝ) < GA11.table[i].v_lin := by
    have := (GA11.row_facts _ hc).1
    exact_mod_cast this
  have hp' : 0 ≤ p' := hp.trans hpp.le
  have ok := GA11.lnRatio_ok hc m r hv hp (GA11.mechFor t)
  have ok' := GA11.lnRatio_ok hc m r hv hp' (GA11.mechFor t)
  simp only [GA11.out, getD_row _ _ hi]
  simp only [F.Same, F.Drops, ok, ok', true_and]
  rw [GA11.val_split, GA11.val_split]
  refine ⟨fun w => ?_, fun w w' => ?_⟩
  · by_cases q : (GA11.table[i].v_lin : ℝ) ≤ min v (GA11.v1 GA11.table[i].period).val
    · rw [GA11.f5_stiff q, GA11.f5_stiff q]
    · have : ¬ GA11.linV.getD i 0 ≤ v := fun z => q (le_min (by linarith) (by linarith))
      have i19 := w.resolve_left this
      rw [GA11.f5_soft (not_le.1 q), GA11.f5_soft (not_le.1 q), b2 i19]
      push_cast; ring
  · have lt : min v (GA11.v1 GA11.table[i].period).val < GA11.table[i].v_lin := min_lt_of_left_lt (by linarith)
    have x0 : 0 < min v (GA11.v1 GA11.table[i].period).val := lt_min hv (by linarith)
    rw [GA11.f5_soft lt, GA11.f5_soft lt, n1, n2]
    have ρ1 : (min v (GA11.v1 GA11.table[i].period).val / GA11.table[i].v_lin) ^ (((1.18 : ℚ)) : ℝ) < 1 :=
      Real.rpow_lt_one (div_pos x0 l0).le ((div_lt_one l0).2 lt) (by norm_num)
    have ρ0 : 0 < (min v (GA11.v1 GA11.table[i].period).val / GA11.table[i].v_lin) ^ (((1.18 : ℚ)) : ℝ) :=
      Real.rpow_pos_of_pos (div_pos x0 l0) _
    generalize (min v (GA11.v1 GA11.table[i].period).val / GA11.table[i].v_lin) ^ (((1.18 : ℚ)) : ℝ) = ρ at *
    have b1' : (GA11.table[i].b : ℝ) < 0 := by exact_mod_cast b1 w'
    push_cast
    have key : Real.log (p' + 1.88) - Real.log (p' + 1.88 * ρ) < Real.log (p + 1.88) - Real.log (p + 1.88 * ρ) := by
      rw [← Real.log_div (by positivity) (by positivity), ← Real.log_div (by positivity) (by positivity)]
      apply Real.log_lt_log (by positivity)
      rw [div_lt_div_iff₀ (by positivity) (by positivity)]
      have := mul_pos (sub_pos.2 hpp) (sub_pos.2 ρ1)
      linarith
    have := mul_lt_mul_of_neg_left key b1'
    linarith

/-- **C104 (mechanism).** Reverse and normal faulting shift the ratio by constants: by `rsShift` and
`nsShift` of the ordinate, against any other mechanism, in every scenario. -/
theorem C104_mechanism (s s₁ s₂ : Scenario) (m r v p : ℝ) (t : String) (ht : t ≠ "RS") (ht' : t ≠ "NS")
    (h : GA11.Holds s m r v p t) (h₁ : GA11.Holds s₁ m r v p "RS") (h₂ : GA11.Holds s₂ m r v p "NS")
    (hv : 0 < v) (hp : 0 ≤ p) :
    ∃ o o₁ o₂, Gives GA11.cls s o ∧ Gives GA11.cls s₁ o₁ ∧ Gives GA11.cls s₂ o₂ ∧ o.lnRatio.length = 24 ∧ ∀ i < 24,
      (o.lnRatio.getD i F.nan).ok ∧ (o₁.lnRatio.getD i F.nan).ok ∧ (o₂.lnRatio.getD i F.nan).ok ∧
      (o₁.lnRatio.getD i F.nan).val = (o.lnRatio.getD i F.nan).val + GA11.rsShift.getD i 0 ∧
      (o₂.lnRatio.getD i F.nan).val = (o.lnRatio.getD i F.nan).val + GA11.nsShift.getD i 0 := by
  refine ⟨_, _, _, h.gives, h₁.gives, h₂.gives, by simp only [GA11.out, List.length_map]; rfl, fun i hi => ?_⟩
  rw [← GA11.table_len] at hi
  have hc : GA11.table[i] ∈ GA11.table := List.getElem_mem hi
  simp only [GA11.out, getD_row _ _ hi]
  refine ⟨GA11.lnRatio_ok hc m r hv hp _, GA11.lnRatio_ok hc m r hv hp _, GA11.lnRatio_ok hc m r hv hp _, ?_, ?_⟩
  · have e := GA11.rs_eq ⟨i, hi⟩
    simp only [Fin.getElem_fin] at e
    rw [GA11.val_split, GA11.val_split, ← e]
    simp [GA11.mechFor, ht, ht', GA11.fMech]
  · have e := GA11.ns_eq ⟨i, hi⟩
    simp only [Fin.getElem_fin] at e
    rw [GA11.val_split, GA11.val_split, ← e]
    simp [GA11.mechFor, ht, ht', GA11.fMech]

/-- **C104 (distance).** Two scenarios that differ in the distance only.  Up to magnitude 8.5 the ratio falls
with distance for PGA and the periods up to 0.15 s; from magnitude 3 on it rises for PGV and from 0.4 s;
from magnitude 6.75 on it rises at 0.2, 0.26 and 0.3 s too. -/
theorem C104_distance (s s' : Scenario) (m r r' v p : ℝ) (t : String) (h : GA11.Holds s m r v p t)
    (h' : GA11.Holds s' m r' v p t) (hv : 0 < v) (hp : 0 ≤ p) (hr : 0 ≤ r) (hrr : r < r') :
    ∃ o o', Gives GA11.cls s o ∧ Gives GA11.cls s' o' ∧ o.lnRatio.length = 24 ∧ ∀ i < 24,
      (i < 10 → i ≠ 1 → m ≤ 8.5 → F.Drops (o.lnRatio.getD i F.nan) (o'.lnRatio.getD i F.nan)) ∧
      (13 ≤ i ∨ i = 1 → 3 ≤ m → F.Drops (o'.lnRatio.getD i F.nan) (o.lnRatio.getD i F.nan)) ∧
      (10 ≤ i → 6.75 ≤ m → F.Drops (o'.lnRatio.getD i F.nan) (o.lnRatio.getD i F.nan)) := by
  refine ⟨_, _, h.gives, h'.gives, by simp only [GA11.out, List.length_map]; rfl, fun i hi => ?_⟩
  rw [← GA11.table_len] at hi
  have hc : GA11.table[i] ∈ GA11.table := List.getElem_mem hi
  obtain ⟨-, -, -, c4, c1, a3, -, -, -, -, -, k1, k2, k3, -⟩ := GA11.more_rows ⟨i, hi⟩
  simp only [Fin.getElem_fin] at c4 c1 a3 k1 k2 k3
  have ok := GA11.lnRatio_ok hc m r hv hp (GA11.mechFor t)
  have ok' := GA11.lnRatio_ok hc m r' hv hp (GA11.mechFor t)
  simp only [GA11.out, getD_row _ _ hi]
  simp only [F.Drops, ok, ok', true_and]
  rw [GA11.val_split, GA11.val_split]
  have L : Real.log (√(r ^ 2 + 10 ^ 2)) < Real.log (√(r' ^ 2 + 10 ^ 2)) := by
    apply Real.log_lt_log (Real.sqrt_pos.2 (by positivity))
    apply Real.sqrt_lt_sqrt (by positivity)
    have := pow_lt_pow_left₀ hrr hr (n := 2) (by norm_num)
    linarith
  have c4' : (GA11.table[i].c4 : ℝ) = 10 := by rw [c4]; norm_num
  have c1' : (GA11.table[i].c1 : ℝ) = 6.75 := by rw [c1]; norm_num
  have a3' : (GA11.table[i].a3 : ℝ) = 0.0147 := by rw [a3]; norm_num
  simp only [GA11.f1, fsimp, c4', c1', a3']
  generalize Real.log (√(r ^ 2 + 10 ^ 2)) = l at *
  generalize Real.log (√(r' ^ 2 + 10 ^ 2)) = l' at *
  generalize (if m < 6.75 then (GA11.table[i].a4 : ℝ) * (m - 6.75) else GA11.table[i].a5 * (m - 6.75)) = z at *
  refine ⟨fun w w' u => ?_, fun w u => ?_, fun w u => ?_⟩
  · have k : (GA11.table[i].a2 : ℝ) ≤ ((-0.069 : ℚ) : ℝ) := by exact_mod_cast k1 w w'
    push_cast at k
    have := mul_lt_mul_of_neg_left L (show (GA11.table[i].a2 : ℝ) + 0.0147 * (m - 6.75) < 0 by linarith)
    linarith
  · have k : ((0.057 : ℚ) : ℝ) ≤ (GA11.table[i].a2 : ℝ) := by exact_mod_cast k2 w
    push_cast at k
    have := mul_lt_mul_of_pos_left L (show 0 < (GA11.table[i].a2 : ℝ) + 0.0147 * (m - 6.75) by linarith)
    linarith
  · have k : ((0.002 : ℚ) : ℝ) ≤ (GA11.table[i].a2 : ℝ) := by exact_mod_cast k3 w
    push_cast at k
    have := mul_lt_mul_of_pos_left L (show 0 < (GA11.table[i].a2 : ℝ) + 0.0147 * (m - 6.75) by linarith)
    linarith

namespace GA11

theorem log10_lo : (2.3025 : ℝ) ≤ Real.log 10 := by
  have := le_log_of (x := 10) (q := 2.3025) (by norm_num) (by norm_num) (by norm_num) (by norm_num [expHi, taylor])
  push_cast at this
  exact this

theorem log10_hi : Real.log 10 ≤ (2.3026 : ℝ) := by
  have := log_le_of (x := 10) (q := 2.3026) (by norm_num) (by norm_num) (by norm_num [expLo, taylor])
  push_cast at this
  exact this

end GA11

/-- **C104 (magnitude).** Two scenarios that differ in the magnitude only (3 or more).  For PGA and up to
0.3 s the ratio grows with magnitude up to 6.75 at every distance, and up to 8.5 from 50 km on. -/
theorem C104_magnitude (s s' : Scenario) (m m' r v p : ℝ) (t : String) (h : GA11.Holds s m r v p t)
    (h' : GA11.Holds s' m' r v p t) (hv : 0 < v) (hp : 0 ≤ p) (hm : 3 ≤ m) (hmm : m < m')
    (hr : (0 ≤ r ∧ m' ≤ 6.75) ∨ (50 ≤ r ∧ m' ≤ 8.5)) :
    ∃ o o', Gives GA11.cls s o ∧ Gives GA11.cls s' o' ∧ o.lnRatio.length = 24 ∧ ∀ i < 13, i ≠ 1 →
      F.Drops (o'.lnRatio.getD i F.nan) (o.lnRatio.getD i F.nan) := by
  refine ⟨_, _, h.gives, h'.gives, by simp only [GA11.out, List.length_map]; rfl, fun i hi i1 => ?_⟩
  have hi' : i < GA11.table.length := by rw [GA11.table_len]; omega
  have hc : GA11.table[i] ∈ GA11.table := List.getElem_mem hi'
  obtain ⟨-, -, -, c4, c1, a3, a4, a5, -, -, -, -, -, -, k⟩ := GA11.more_rows ⟨i, hi'⟩
  simp only [Fin.getElem_fin] at c4 c1 a3 a4 a5 k
  have ok := GA11.lnRatio_ok hc m r hv hp (GA11.mechFor t)
  have ok' := GA11.lnRatio_ok hc m' r hv hp (GA11.mechFor t)
  simp only [GA11.out, getD_row _ _ hi']
  simp only [F.Drops, ok, ok', true_and]
  rw [GA11.val_split, GA11.val_split]
  have c4' : (GA11.table[i].c4 : ℝ) = 10 := by rw [c4]; norm_num
  have c1' : (GA11.table[i].c1 : ℝ) = 6.75 := by rw [c1]; norm_num
  have a3' : (GA11.table[i].a3 : ℝ) = 0.0147 := by rw [a3]; norm_num
  have a4' : (GA11.table[i].a4 : ℝ) = 0.0334 := by rw [a4]; norm_num
  have a5' : (GA11.table[i].a5 : ℝ) = -0.034 := by rw [a5]; norm_num
  have k' : (GA11.table[i].a8 : ℝ) ≤ ((0.006 : ℚ) : ℝ) := by exact_mod_cast k hi i1
  push_cast at k'
  simp only [GA11.f1, fsimp, c4', c1', a3', a4', a5']
  have L : 2.3025 ≤ Real.log (√(r ^ 2 + 10 ^ 2)) := by
    refine GA11.log10_lo.trans (Real.log_le_log (by norm_num) ?_)
    apply Real.le_sqrt_of_sq_le
    nlinarith [sq_nonneg r]
  have L' : 50 ≤ r → 3.9 ≤ Real.log (√(r ^ 2 + 10 ^ 2)) := fun w => by
    have := le_log_of (x := 50) (q := 3.9) (by norm_num) (by norm_num) (by norm_num) (by norm_num [expHi, taylor])
    push_cast at this
    refine this.trans (Real.log_le_log (by norm_num) ?_)
    apply Real.le_sqrt_of_sq_le
    nlinarith
  generalize Real.log (√(r ^ 2 + 10 ^ 2)) = l at *
  have A : (GA11.table[i].a8 : ℝ) * ((8.5 - m) ^ 2 - (8.5 - m') ^ 2) ≤ 0.006 * ((m' - m) * (17 - m - m')) := by
    have : 0 ≤ (m' - m) * (17 - m - m') := by
      apply mul_nonneg (by linarith)
      rcases hr with ⟨-, w⟩ | ⟨-, w⟩ <;> linarith
    have e : (8.5 - m) ^ 2 - (8.5 - m') ^ 2 = (m' - m) * (17 - m - m') := by ring
    rw [e]
    exact mul_le_mul_of_nonneg_right k' this
  have E : 0.0147 * (m' - 6.75) * l - 0.0147 * (m - 6.75) * l = 0.0147 * ((m' - m) * l) := by ring
  rcases hr with ⟨-, w⟩ | ⟨w, w'⟩
  · have z : (if m' < 6.75 then (0.0334 : ℝ) * (m' - 6.75) else -0.034 * (m' - 6.75)) = 0.0334 * (m' - 6.75) := by
      split
      · rfl
      · have : m' = 6.75 := by linarith
        rw [this]; norm_num
    rw [z, if_pos (by linarith)]
    have B := mul_le_mul_of_nonneg_left L (show 0 ≤ m' - m by linarith)
    have C := mul_lt_mul_of_pos_left (show 17 - m - m' < 11 by linarith) (show 0 < m' - m by linarith)
    linarith
  · have B := mul_le_mul_of_nonneg_left (L' w) (show 0 ≤ m' - m by linarith)
    have q : ∀ x y : ℝ, x < y → y ≤ 6.75 ∨ 6.75 ≤ x → y ≤ 8.5 → 3 ≤ x → 0.006 * ((y - x) * (17 - x - y)) <
        0.0147 * ((y - x) * 3.9) + ((if y < 6.75 then (0.0334 : ℝ) * (y - 6.75) else -0.034 * (y - 6.75)) -
        (if x < 6.75 then (0.0334 : ℝ) * (x - 6.75) else -0.034 * (x - 6.75))) := by
      intro x y hxy ho hy hx
      rcases ho with o | o
      · have z : (if y < 6.75 then (0.0334 : ℝ) * (y - 6.75) else -0.034 * (y - 6.75)) = 0.0334 * (y - 6.75) := by
          split
          · rfl
          · have : y = 6.75 := by linarith
            rw [this]; norm_num
        rw [z, if_pos (by linarith)]
        have C := mul_lt_mul_of_pos_left (show 17 - x - y < 11 by linarith) (show 0 < y - x by linarith)
        linarith
      · rw [if_neg (by linarith), if_neg (by linarith)]
        have C := mul_lt_mul_of_pos_left (show 17 - x - y < 3.5 by linarith) (show 0 < y - x by linarith)
        linarith
    have Q : 0.006 * ((m' - m) * (17 - m - m')) <
        0.0147 * ((m' - m) * 3.9) + ((if m' < 6.75 then (0.0334 : ℝ) * (m' - 6.75) else -0.034 * (m' - 6.75)) -
        (if m < 6.75 then (0.0334 : ℝ) * (m - 6.75) else -0.034 * (m - 6.75))) := by
      by_cases c : m' ≤ 6.75
      · exact q m m' hmm (Or.inl c) w' hm
      · by_cases d : 6.75 ≤ m
        · exact q m m' hmm (Or.inr d) w' hm
        · have x1 := q m 6.75 (by linarith) (Or.inl le_rfl) (by norm_num) hm
          have x2 := q 6.75 m' (by linarith) (Or.inr le_rfl) w' (by norm_num)
          have e1 : (m' - m) * (17 - m - m') = (6.75 - m) * (17 - m - 6.75) + (m' - 6.75) * (17 - 6.75 - m') := by ring
          rw [e1]
          linarith
    generalize (if m' < 6.75 then (0.0334 : ℝ) * (m' - 6.75) else -0.034 * (m' - 6.75)) = y at *
    generalize (if m < 6.75 then (0.0334 : ℝ) * (m - 6.75) else -0.034 * (m - 6.75)) = x at *
    linarith

/-- **C104 (value).** On stiff rock (1500 m/s or more) at the fault a strike-slip event of magnitude 6.75
has a V/H ratio of the peak acceleration between 0.881 and 0.882, whatever the reference acceleration. -/
theorem C104_value (s : Scenario) (v p : ℝ) (t : String) (ht : t ≠ "RS") (ht' : t ≠ "NS")
    (h : GA11.Holds s 6.75 0 v p t) (hv : 1500 ≤ v) (hp : 0 ≤ p) :
    ∃ o, Gives GA11.cls s o ∧ (o.lnRatio.getD 0 F.nan).ok ∧
      0.881 < Real.exp (o.lnRatio.getD 0 F.nan).val ∧ Real.exp (o.lnRatio.getD 0 F.nan).val < 0.882 := by
  refine ⟨_, h.gives, ?_⟩
  have hi : 0 < GA11.table.length := by rw [GA11.table_len]; omega
  have hc : GA11.table[0] ∈ GA11.table := List.getElem_mem hi
  simp only [GA11.out, getD_row _ _ hi]
  refine ⟨GA11.lnRatio_ok hc _ _ (by linarith) hp _, ?_⟩
  obtain ⟨l1, l2, l3⟩ := GA11.v1_bounds ⟨0, hi⟩
  simp only [Fin.getElem_fin, GA11.satLo, GA11.satHi, List.getD_cons_zero] at l1 l2 l3
  have e1 : (GA11.v1 GA11.table[0].period).val = 1500 := le_antisymm l2 l1
  rw [GA11.val_split, GA11.f5_stiff (by rw [e1]; exact le_min (by linarith) l3), e1, min_eq_right hv]
  have e2 : (GA11.fMech GA11.table[0] (GA11.mechFor t)).val = 0 := by simp [GA11.mechFor, ht, ht', GA11.fMech]
  have e3 : (GA11.f1 GA11.table[0] (F.ofReal 6.75) (F.ofReal 0)).val = 0.14 + 0.003 * 1.75 ^ 2 - 0.16 * Real.log 10 := by
    simp only [GA11.f1, fsimp, GA11.table, List.getElem_cons_zero]
    have : √((0 : ℝ) ^ 2 + ((10 : ℚ) : ℝ) ^ 2) = 10 := by
      rw [show (0 : ℝ) ^ 2 + ((10 : ℚ) : ℝ) ^ 2 = 10 ^ 2 by norm_num]
      exact Real.sqrt_sq (by norm_num)
    rw [this]
    push_cast
    rw [if_neg (by norm_num)]
    ring
  have e4 : ((GA11.table[0].a10 : ℝ) - GA11.table[0].b * GA11.table[0].n) * Real.log ((1500 : ℝ) / GA11.table[0].v_lin) =
      0.16948 * Real.log ((1500 : ℝ) / 865.1) := by
    simp only [GA11.table, List.getElem_cons_zero]
    push_cast
    norm_num
  rw [e2, e3, e4]
  have b1 := le_log_of (x := 1500 / 865.1) (q := 0.5503) (by norm_num) (by norm_num) (by norm_num)
    (by norm_num [expHi, taylor])
  have b2 := log_le_of (x := 1500 / 865.1) (q := 0.5504) (by norm_num) (by norm_num) (by norm_num [expLo, taylor])
  push_cast at b1 b2
  have d1 := GA11.log10_lo
  have d2 := GA11.log10_hi
  generalize Real.log 10 = l at *
  generalize Real.log ((1500 : ℝ) / 865.1) = k at *
  constructor
  · have x := le_expHi (q := 0.12598) (by norm_num) (by norm_num)
    have y : (0.881 : ℝ) < Real.exp (-((0.12598 : ℚ) : ℝ)) := by
      rw [Real.exp_neg, lt_inv_comm₀ (by norm_num) (Real.exp_pos _)]
      refine lt_of_le_of_lt x ?_
      norm_num [expHi, taylor]
    refine y.trans_le (Real.exp_le_exp.2 ?_)
    push_cast
    linarith
  · have x := expLo_le (q := 0.12592) (by norm_num)
    have y : Real.exp (-((0.12592 : ℚ) : ℝ)) < (0.882 : ℝ) := by
      rw [Real.exp_neg, inv_lt_comm₀ (Real.exp_pos _) (by norm_num)]
      refine lt_of_lt_of_le ?_ x
      norm_num [expLo, taylor]
    refine lt_of_le_of_lt (Real.exp_le_exp.2 ?_) y
    push_cast
    linarith

/-! ### Instances -/

namespace GA11
/-- a scenario with these inputs -/
noncomputable def exH (m r v p : ℝ) (t : String) : Scenario :=
  ⟨[("mag", .num m), ("dist_rup", .num r), ("v_s30", .num v), ("pga_ref", .num p), ("mechanism", .str t)], []⟩
theorem exH_holds (m r v p : ℝ) (t : String) : Holds (exH m r v p t) m r v p t := by
  constructor <;> simp [exH, Scenario.get, Dict.get?]
end GA11

example := C104_velocity _ _ 6 20 1090 1200 0.2 "SS" (GA11.exH_holds ..) (GA11.exH_holds ..) (by norm_num)
example := C104_reference _ _ 6 20 300 0.1 0.3 "SS" (GA11.exH_holds ..) (GA11.exH_holds ..) (by norm_num) (by norm_num)
  (by norm_num)
example := C104_mechanism _ _ _ 6 20 300 0.1 "SS" (by decide) (by decide) (GA11.exH_holds ..) (GA11.exH_holds ..)
  (GA11.exH_holds ..) (by norm_num) (by norm_num)
example := C104_distance _ _ 7 10 60 300 0.1 "SS" (GA11.exH_holds ..) (GA11.exH_holds ..) (by norm_num) (by norm_num)
  (by norm_num) (by norm_num)
example := C104_magnitude _ _ 5 8 60 300 0.1 "SS" (GA11.exH_holds ..) (GA11.exH_holds ..) (by norm_num) (by norm_num)
  (by norm_num) (by norm_num) (Or.inr ⟨by norm_num, by norm_num⟩)
example := C104_value _ 1600 0.1 "SS" (by decide) (by decide) (GA11.exH_holds ..) (by norm_num) (by norm_num)
