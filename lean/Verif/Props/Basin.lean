import Verif.Props.Mechanism

/-! # C98: depth of the basin in CY14, CB14 and ASK14 -/

open Bounds

set_option linter.unusedSimpArgs false

/-! ## CY14 -/

namespace CY14

theorem basin_rows : ∀ i : Fin table.length, (i.val < 12 ∨ i.val = 24 → (table[i]).phi_5 = 0) ∧
    (12 ≤ i.val → i.val ≠ 24 → 0 < (table[i]).phi_5) ∧ 0 < (table[i]).phi_5jp ∧ 0 < (table[i]).phi_6 ∧
    0 < (table[i]).phi_6jp ∧ (table[i]).phi_5 ≤ 0.33 ∧ (table[i]).phi_5jp ≤ 1.464 := by decide +kernel

/-- everything but the numbers -/
def SameKind (s s' : Scenario) : Prop :=
  ∀ k ∈ ["mechanism", "region", "vs_source", "on_hanging_wall"], s'.get k = s.get k

theorem SameKind.eq {s s' : Scenario} (h : SameKind s s') : kindOf s' = kindOf s := by
  simp only [SameKind, List.forall_mem_cons] at h
  obtain ⟨k1, k2, k3, k4, -⟩ := h
  simp [kindOf, k1, k2, k3, k4]

/-- the change of an ordinate between two depths -/
theorem resp_z (c : Row) (g : Given) (k : Kind) (z z' : ℝ) :
    (lnResp c ({ g with z1 := some z' }.toIn k)).val - (lnResp c ({ g with z1 := some z }.toIn k)).val =
      (if k.reg = .japan then (c.phi_5jp : ℝ) else c.phi_5) *
        (Real.exp (-(1000 * (z - (calcDepth10 (F.ofReal g.v) (k.reg = .japan)).val)) /
            (if k.reg = .japan then (c.phi_6jp : ℝ) else c.phi_6)) -
          Real.exp (-(1000 * (z' - (calcDepth10 (F.ofReal g.v) (k.reg = .japan)).val)) /
            (if k.reg = .japan then (c.phi_6jp : ℝ) else c.phi_6))) := by
  rw [lnResp_val, lnResp_val]
  have e : ∀ w, (lnRef c ({ g with z1 := some w }.toIn k)) = lnRef c (g.toIn k) := fun _ => rfl
  have ez : ∀ w, (({ g with z1 := some w } : Given).effZ1 k).val = w := fun w => by
    simp [Given.effZ1, F.orEst]
  rw [e, e, ez, ez]
  simp only [respR, siteConst]
  by_cases hj : k.reg = .japan
  · simp only [hj, decide_true, if_true]; ring
  · simp only [hj, decide_false, if_false, Bool.false_eq_true]; ring

end CY14

/-- Chiou & Youngs (2014): a deeper basin, everything else equal.  In Japan every ordinate is
strictly higher.  In any other region ordinates up to 0.25 s and PGA (the first 12 and the one at
position 24) do not change and all others (0.3 s and longer, PGV) are strictly higher.  Standard
deviations do not change.  Beyond the average depth for the site's velocity the gain stays below 0.33
(1.464 in Japan), however deep the basin. -/
theorem C98_cy14 (s s' : Scenario) (g : CY14.Given) (z z' : ℝ) (hz : z < z')
    (h : CY14.Source s { g with z1 := some z }) (h' : CY14.Source s' { g with z1 := some z' })
    (hk : CY14.SameKind s s') (hr : 0 ≤ g.rup) (hv : 0 < g.v) :
    ∃ o o', Gives CY14.cls s o ∧ Gives CY14.cls s' o' ∧ o.gmm.lnResp.length = 26 ∧
      o'.gmm.lnStd = o.gmm.lnStd ∧ o'.tau = o.tau ∧ o'.phi = o.phi ∧
      ∀ i < 26,
        (s.get "region" = .str "japan" → F.Drops (o'.gmm.lnResp.getD i F.nan) (o.gmm.lnResp.getD i F.nan) ∧
          ((CY14.calcDepth10 (F.ofReal g.v) true).val ≤ z → o'.gmm.resp i < o.gmm.resp i + 1.464)) ∧
        (s.get "region" ≠ .str "japan" →
          (i < 12 ∨ i = 24 → F.Same (o.gmm.lnResp.getD i F.nan) (o'.gmm.lnResp.getD i F.nan)) ∧
          (12 ≤ i → i ≠ 24 → F.Drops (o'.gmm.lnResp.getD i F.nan) (o.gmm.lnResp.getD i F.nan) ∧
            ((CY14.calcDepth10 (F.ofReal g.v) false).val ≤ z → o'.gmm.resp i < o.gmm.resp i + 0.33))) := by
  have g1 := CY14.gives h
  have g2 := CY14.gives h'
  rw [hk.eq] at g2
  have ej : s.get "region" = .str "japan" ↔ (CY14.kindOf s).reg = .japan := by
    have := CY14.regOf_japan (s.get "region")
    simp only [Val.isStr, decide_eq_decide] at this
    exact this
  rw [ej, ne_eq, ej]
  generalize CY14.kindOf s = k at *
  refine ⟨_, _, g1, g2, by simp [CY14.out, CY14.table_length], rfl, rfl, rfl, fun i hi => ?_⟩
  have hi' : i < CY14.table.length := by rw [CY14.table_length]; exact hi
  have hc : CY14.table[i] ∈ CY14.table := List.getElem_mem hi'
  obtain ⟨q1, q2, q3, q4, q5, q6, q7⟩ := CY14.basin_rows ⟨i, hi'⟩
  simp only [Fin.getElem_fin] at q1 q2 q3 q4 q5 q6 q7
  have ok : ∀ w, (CY14.lnResp CY14.table[i] (({ g with z1 := some w } : CY14.Given).toIn k)).ok := fun w =>
    CY14.lnResp_ok hc (g := { g with z1 := some w }) hr hv k
  have hd := CY14.resp_z CY14.table[i] g k z z'
  simp only [GmmOut.resp, CY14.out, getD_row _ _ hi']
  set c := CY14.table[i]
  clear_value c
  have lt : ∀ {d p : ℝ}, 0 < p → Real.exp (-(1000 * (z' - d)) / p) < Real.exp (-(1000 * (z - d)) / p) :=
    fun {d p} hp => Real.exp_lt_exp.2 (div_lt_div_of_pos_right (by linarith) hp)
  have le1 : ∀ {d p : ℝ}, 0 < p → d ≤ z → Real.exp (-(1000 * (z - d)) / p) ≤ 1 := fun {d p} hp hdz =>
    Real.exp_le_one_iff.2 (div_nonpos_of_nonpos_of_nonneg (by linarith) hp.le)
  refine ⟨fun hj => ?_, fun hj => ?_⟩
  · have p5 : (0 : ℝ) < c.phi_5jp := by exact_mod_cast q3
    have p6 : (0 : ℝ) < c.phi_6jp := by exact_mod_cast q5
    have p7 : (c.phi_5jp : ℝ) ≤ 1.464 := by
      have : (c.phi_5jp : ℝ) ≤ ((1.464 : ℚ) : ℝ) := by exact_mod_cast q7
      norm_num at this ⊢; exact this
    simp only [hj, if_true, decide_true] at hd
    refine ⟨⟨ok _, ok _, ?_⟩, fun hdz => ?_⟩
    · have := mul_pos p5 (sub_pos.2 (lt (d := (CY14.calcDepth10 (F.ofReal g.v) true).val) p6))
      linarith
    · have h1 := le1 p6 hdz
      have h2 := Real.exp_pos (-(1000 * (z' - (CY14.calcDepth10 (F.ofReal g.v) true).val)) / (c.phi_6jp : ℝ))
      have := mul_lt_mul_of_pos_left (sub_lt_self
        (Real.exp (-(1000 * (z - (CY14.calcDepth10 (F.ofReal g.v) true).val)) / (c.phi_6jp : ℝ))) h2) p5
      have := mul_le_mul_of_nonneg_left h1 p5.le
      linarith
  · simp only [hj, if_false, decide_false] at hd
    refine ⟨fun hlow => ⟨ok _, ok _, ?_⟩, fun h12 h24 => ?_⟩
    · have := q1 hlow
      rw [this] at hd
      simp only [Rat.cast_zero, zero_mul] at hd
      linarith
    · have p5 : (0 : ℝ) < c.phi_5 := by exact_mod_cast q2 h12 h24
      have p6 : (0 : ℝ) < c.phi_6 := by exact_mod_cast q4
      have p7 : (c.phi_5 : ℝ) ≤ 0.33 := by
        have : (c.phi_5 : ℝ) ≤ ((0.33 : ℚ) : ℝ) := by exact_mod_cast q6
        norm_num at this ⊢; exact this
      refine ⟨⟨ok _, ok _, ?_⟩, fun hdz => ?_⟩
      · have := mul_pos p5 (sub_pos.2 (lt (d := (CY14.calcDepth10 (F.ofReal g.v) false).val) p6))
        linarith
      · have h1 := le1 p6 hdz
        have h2 := Real.exp_pos (-(1000 * (z' - (CY14.calcDepth10 (F.ofReal g.v) false).val)) / (c.phi_6 : ℝ))
        have := mul_lt_mul_of_pos_left (sub_lt_self
          (Real.exp (-(1000 * (z - (CY14.calcDepth10 (F.ofReal g.v) false).val)) / (c.phi_6 : ℝ))) h2) p5
        have := mul_le_mul_of_nonneg_left h1 p5.le
        linarith

/-! ## CB14 -/

namespace CB14

theorem basin_rows : ∀ i : Fin table.length,
    (i.val < 6 ∨ i.val = 21 → (table[i]).c_14 < 0) ∧ (6 ≤ i.val → i.val ≠ 21 → 0 < (table[i]).c_14) ∧
    (i.val < 9 ∨ i.val = 21 → (table[i]).c_14 + (table[i]).c_15 < 0) ∧
    (9 ≤ i.val → i.val ≠ 21 → 0 < (table[i]).c_14 + (table[i]).c_15) ∧
    0 < (table[i]).c_16 * (table[i]).k_3 := by decide +kernel

theorem sedR_shallow (c : Row) {z z' : ℝ} (h : z < z') (h1 : z' ≤ 1) (j : Bool) :
    sedR c z' j - sedR c z j = (c.c_14 + if j then (c.c_15 : ℝ) else 0) * (z' - z) := by
  unfold sedR
  rw [if_pos h1, if_pos (show z ≤ 1 by linarith)]
  cases j <;> simp <;> ring

theorem sedR_flat (c : Row) {z : ℝ} (h : 1 ≤ z) (h1 : z ≤ 3) (j : Bool) : sedR c z j = 0 := by
  unfold sedR
  rcases h.eq_or_lt with rfl | h
  · simp
  · rw [if_neg (not_le.2 h), if_pos h1]

theorem sedR_deep (c : Row) {z : ℝ} (h : 3 ≤ z) (j : Bool) :
    sedR c z j = c.c_16 * c.k_3 * Real.exp (-0.75) * (1 - Real.exp (-0.25 * (z - 3))) := by
  unfold sedR
  rcases h.eq_or_lt with rfl | h
  · norm_num
  · rw [if_neg (by linarith), if_neg (not_le.2 h)]

theorem sedR_strict {c : Row} (h16 : (0 : ℝ) < c.c_16 * c.k_3) {z z' : ℝ} (h : 3 ≤ z) (hz : z < z') (j : Bool) :
    sedR c z j < sedR c z' j := by
  rw [sedR_deep c h, sedR_deep c (by linarith)]
  have h1 : Real.exp (-0.25 * (z' - 3)) < Real.exp (-0.25 * (z - 3)) := Real.exp_lt_exp.2 (by linarith)
  have h2 := mul_pos h16 (Real.exp_pos (-0.75))
  have := mul_lt_mul_of_pos_left (sub_lt_sub_left h1 1) h2
  exact this

end CB14

/-- Campbell & Bozorgnia (2014): a deeper basin, everything else equal.  Up to 1 km, deepening the
basin strictly lowers the ordinates up to 0.1 s and PGA and strictly raises the others (in Japan the limit is 0.25 s
instead of 0.1 s); between 1 and 3 km the depth has no effect; from 3 km on every ordinate strictly
rises.  Standard deviations do not change. -/
theorem C98_cb14 (s s' : Scenario) (g : CB14.Given) (z z' : ℝ) (hz : z < z')
    (h : CB14.Source s { g with z25 := some z }) (h' : CB14.Source s' { g with z25 := some z' })
    (hm : s'.get "mechanism" = s.get "mechanism") (hr : s'.get "region" = s.get "region")
    (hreg : CB14.Regular g (CB14.mechOf (s.get "mechanism"))) (hv : 0 < g.v) :
    ∃ o o', Gives CB14.cls s o ∧ Gives CB14.cls s' o' ∧ o.gmm.lnResp.length = 23 ∧
      o'.gmm.lnStd = o.gmm.lnStd ∧ o'.tau = o.tau ∧ o'.phi = o.phi ∧
      (1 ≤ z → z' ≤ 3 → List.Forall₂ F.Same o.gmm.lnResp o'.gmm.lnResp) ∧
      (3 ≤ z → List.Forall₂ F.Drops o'.gmm.lnResp o.gmm.lnResp) ∧
      (z' ≤ 1 → ∀ i < 23,
        (s.get "region" ≠ .str "japan" →
          (i < 6 ∨ i = 21 → F.Drops (o.gmm.lnResp.getD i F.nan) (o'.gmm.lnResp.getD i F.nan)) ∧
          (6 ≤ i → i ≠ 21 → F.Drops (o'.gmm.lnResp.getD i F.nan) (o.gmm.lnResp.getD i F.nan))) ∧
        (s.get "region" = .str "japan" →
          (i < 9 ∨ i = 21 → F.Drops (o.gmm.lnResp.getD i F.nan) (o'.gmm.lnResp.getD i F.nan)) ∧
          (9 ≤ i → i ≠ 21 → F.Drops (o'.gmm.lnResp.getD i F.nan) (o.gmm.lnResp.getD i F.nan)))) := by
  have g1 := CB14.gives h hv.ne'
  have g2 := CB14.gives h' hv.ne'
  rw [hm, hr] at g2
  have ej : s.get "region" = .str "japan" ↔ CB14.regOf (s.get "region") = .japan := by
    unfold CB14.regOf
    by_cases h1 : s.get "region" = .str "japan"
    · simp [h1]
    · by_cases h2 : s.get "region" = .str "italy" <;> simp [Val.isStr, h1, h2]
  rw [ne_eq, ej]
  generalize CB14.regOf (s.get "region") = reg at *
  generalize CB14.mechOf (s.get "mechanism") = mech at *
  have ok : ∀ c ∈ CB14.table, ∀ w, (CB14.lnResp c (({ g with z25 := some w } : CB14.Given).toIn mech reg)
      (some (CB14.pgaRef (({ g with z25 := some w } : CB14.Given).toIn mech reg))) (F.ofReal g.v)).ok := fun c hc w =>
    CB14.resp_ok hc (g := { g with z25 := some w }) ⟨hreg.1, hreg.2⟩ hv reg
  have val : ∀ c, ∀ w, (CB14.lnResp c (({ g with z25 := some w } : CB14.Given).toIn mech reg)
      (some (CB14.pgaRef (({ g with z25 := some w } : CB14.Given).toIn mech reg))) (F.ofReal g.v)).val =
      (CB14.rest c (g.toIn mech reg)).val + (CB14.siteR c g.v (CB14.pgaRef (g.toIn mech reg)).val +
        (if decide (reg = .japan) then CB14.jpR c g.v else 0) + CB14.sedR c w (reg = .japan)) := fun c w =>
      CB14.resp_val c { g with z25 := some w } mech reg
  refine ⟨_, _, g1, g2, by simp [CB14.out, CB14.table_length], rfl, rfl, rfl, fun h1 h3 => ?_, fun h3 => ?_,
    fun h1 i hi => ?_⟩
  · simp only [CB14.out]
    refine forall₂_map fun c hc => ⟨ok c hc _, ok c hc _, ?_⟩
    refine (val c z').trans ?_
    refine Eq.trans ?_ (val c z).symm
    rw [CB14.sedR_flat c h1 (by linarith), CB14.sedR_flat c (by linarith) h3]
  · simp only [CB14.out]
    refine forall₂_map fun c hc => ⟨ok c hc _, ok c hc _, ?_⟩
    refine (val c z).trans_lt ?_
    refine lt_of_lt_of_eq ?_ (val c z').symm
    obtain ⟨i, hi, rfl⟩ := List.getElem_of_mem hc
    have := (CB14.basin_rows ⟨i, hi⟩).2.2.2.2
    simp only [Fin.getElem_fin] at this
    have := CB14.sedR_strict (c := CB14.table[i]) (by exact_mod_cast this) h3 hz (reg = .japan)
    linarith
  · have hi' : i < CB14.table.length := by rw [CB14.table_length]; exact hi
    have hc : CB14.table[i] ∈ CB14.table := List.getElem_mem hi'
    obtain ⟨q1, q2, q3, q4, -⟩ := CB14.basin_rows ⟨i, hi'⟩
    simp only [Fin.getElem_fin] at q1 q2 q3 q4
    simp only [CB14.out, getD_row _ _ hi']
    have e := CB14.sedR_shallow CB14.table[i] hz h1 (reg = .japan)
    have v1 := val CB14.table[i] z
    have v2 := val CB14.table[i] z'
    have hp : 0 < z' - z := by linarith
    generalize CB14.sedR CB14.table[i] z' (decide (reg = .japan)) = S' at e v2
    generalize CB14.sedR CB14.table[i] z (decide (reg = .japan)) = S at e v1
    refine ⟨fun hj => ⟨fun hh => ⟨ok _ hc _, ok _ hc _, ?_⟩, fun hh hh' => ⟨ok _ hc _, ok _ hc _, ?_⟩⟩,
      fun hj => ⟨fun hh => ⟨ok _ hc _, ok _ hc _, ?_⟩, fun hh hh' => ⟨ok _ hc _, ok _ hc _, ?_⟩⟩⟩
    all_goals
      simp only [hj, decide_true, decide_false, if_true, if_false, Bool.false_eq_true, add_zero] at e
      clear ok val
    · have a : ((CB14.table[i]).c_14 : ℝ) < 0 := by exact_mod_cast q1 hh
      have := mul_neg_of_neg_of_pos a hp
      refine v2.trans_lt (lt_of_lt_of_eq ?_ v1.symm); linarith
    · have a : (0 : ℝ) < (CB14.table[i]).c_14 := by exact_mod_cast q2 hh hh'
      have := mul_pos a hp
      refine v1.trans_lt (lt_of_lt_of_eq ?_ v2.symm); linarith
    · have a : ((CB14.table[i]).c_14 : ℝ) + (CB14.table[i]).c_15 < 0 := by exact_mod_cast q3 hh
      have := mul_neg_of_neg_of_pos a hp
      refine v2.trans_lt (lt_of_lt_of_eq ?_ v1.symm); linarith
    · have a : (0 : ℝ) < (CB14.table[i]).c_14 + (CB14.table[i]).c_15 := by exact_mod_cast q4 hh hh'
      have := mul_pos a hp
      refine v1.trans_lt (lt_of_lt_of_eq ?_ v2.symm); linarith

/-! ## ASK14 -/

namespace ASK14

/-- sign pattern of the slope's nodes -/
theorem basin_rows : ∀ i : Fin table.length,
    (i.val < 9 ∨ i.val = 22 → 0 < (table[i]).a43 ∧ 0 < (table[i]).a44 ∧ (table[i]).a45 = 0) ∧
    (i.val < 8 ∨ i.val = 22 → (table[i]).a46 < 0) ∧ (i.val = 8 → (table[i]).a46 = 0) ∧
    (9 ≤ i.val → i.val ≠ 22 → 0 < (table[i]).a43 ∧ 0 < (table[i]).a44 ∧ 0 < (table[i]).a45 ∧ 0 < (table[i]).a46) := by
  decide +kernel

/-- everything but the numbers -/
def SameKind (s s' : Scenario) : Prop :=
  ∀ k ∈ ["mechanism", "region", "vs_source", "is_aftershock", "on_hanging_wall"], s'.get k = s.get k

theorem SameKind.eq {s s' : Scenario} (h : SameKind s s') : kindOf s' = kindOf s := by
  simp only [SameKind, List.forall_mem_cons] at h
  obtain ⟨k1, k2, k3, k4, k5, -⟩ := h
  simp [kindOf, k1, k2, k3, k4, k5]

noncomputable section

/-- slope of the basin term -/
def slopeR (c : Row) (v : ℝ) : ℝ :=
  interpR [(150, (c.a43 : ℝ)), (250, (c.a44 : ℝ)), (400, (c.a45 : ℝ)), (700, (c.a46 : ℝ))] v

end

theorem slope_val (c : Row) (v : ℝ) : (basinSlope c (F.ofReal v)).val = slopeR c v := by
  simp only [basinSlope, npInterpF, Interp.val_eq, F.val_ofReal, List.map_cons, List.map_nil, slopeR, fsimp]

theorem basin_pos {c : Row} (h1 : 0 < c.a43) (h2 : 0 < c.a44) (h3 : 0 < c.a45) (h4 : 0 < c.a46) (v : ℝ) :
    0 < slopeR c v := by
  apply Interp.pos_of
  · simp [Interp.Sorted]; norm_num
  · simp
  · simp only [List.forall_mem_cons]
    exact ⟨by exact_mod_cast h1, by exact_mod_cast h2, by exact_mod_cast h3, by exact_mod_cast h4, by simp⟩

theorem basin_low {c : Row} (h1 : 0 < c.a43) (h2 : 0 < c.a44) (h3 : c.a45 = 0) {v : ℝ} (hv : v < 400) :
    0 < slopeR c v := by
  have r1 : (0 : ℝ) < c.a43 := by exact_mod_cast h1
  have r2 : (0 : ℝ) < c.a44 := by exact_mod_cast h2
  unfold slopeR
  unfold interpR
  split
  · exact r1
  rename_i g1
  split
  · rename_i g2
    have : ((c.a44 : ℝ) - c.a43) / (250 - 150) * (v - 150) + c.a43 =
        (c.a43 * (250 - v) + c.a44 * (v - 150)) / 100 := by ring
    rw [this]
    have a1 := mul_pos r1 (sub_pos.2 g2)
    have a2 := mul_pos r2 (sub_pos.2 (not_le.1 g1))
    linarith
  rename_i g2
  unfold interpR
  split
  · exact r2
  rename_i g3
  rw [h3]
  have : (((0 : ℚ) : ℝ) - c.a44) / (400 - 250) * (v - 250) + c.a44 = c.a44 * (400 - v) / 150 := by
    push_cast; ring
  rw [this]
  have := mul_pos r2 (sub_pos.2 hv)
  linarith

theorem basin_high {c : Row} (h3 : c.a45 = 0) {v : ℝ} (hv : 400 ≤ v) :
    slopeR c v = c.a46 * (min ((v - 400) / 300) 1) := by
  unfold slopeR
  unfold interpR
  rw [if_neg (by linarith), if_neg (by linarith)]
  unfold interpR
  rw [if_neg (by linarith), if_neg (by linarith)]
  unfold interpR
  rw [h3]
  split
  · rename_i g
    have : v = 400 := le_antisymm g hv
    subst this
    norm_num
  split
  · rename_i g
    rw [min_eq_left (by rw [div_le_one (by norm_num)]; linarith)]
    push_cast; ring
  · rename_i g
    unfold interpR
    rw [min_eq_right (by rw [le_div_iff₀ (by norm_num)]; linarith)]
    ring

/-- the change of an ordinate between two depths -/
theorem resp_z {c : Row} (hc : c ∈ table) (g : Given) (k : Kind) {z z' : ℝ} (hz : -0.01 < z) (hz' : -0.01 < z')
    (hv : 0 < g.v) :
    (lnResp c ({ g with z1 := some z' }.toIn k)).val - (lnResp c ({ g with z1 := some z }.toIn k)).val =
      if g.v = 1180 then 0 else slopeR c g.v * (Real.log (z' + 0.01) - Real.log (z + 0.01)) := by
  rw [resp_val hc, resp_val hc]
  have e1 : ∀ w, baseF c (({ g with z1 := some w } : Given).toIn k) = baseF c (g.toIn k) := fun _ => rfl
  have e2 : ∀ w, refR c { g with z1 := some w } k = refR c g k := fun _ => rfl
  have d := (calcDepth10_facts hv.le (decide (k.reg = .japan))).2
  rw [e1, e1, e2, e2]
  have f : ∀ w, -0.01 < w → (f10 c (F.ofReal g.v) ((some w).map F.ofReal) (decide (k.reg = .japan))).val =
      if g.v = 1180 then 0 else slopeR c g.v * (Real.log (w + 0.01) -
        Real.log ((calcDepth10 (F.ofReal g.v) (decide (k.reg = .japan))).val + 0.01)) := fun w hw => by
    simp only [f10, Option.map_some, fsimp, vRef, slope_val]
    by_cases h : g.v = 1180
    · simp only [h, if_true]
    · simp only [h, if_false]
      rw [Real.log_div (by norm_num at hw ⊢; linarith) (by linarith)]
  rw [f z hz, f z' hz']
  split <;> ring

end ASK14

/-- Abrahamson et al. (2014): a deeper basin, everything else equal.  At exactly 1180 m/s nothing
changes.  At any other velocity the ordinates from 0.3 s to 10 s and PGV are strictly higher; those
up to 0.25 s and PGA are strictly higher below 400 m/s and unchanged at 400 m/s; above 400 m/s those up to
0.2 s and PGA are strictly *lower* and the one at 0.25 s unchanged.  Standard deviations do not
change. -/
theorem C98_ask14 (s s' : Scenario) (g : ASK14.Given) (z z' : ℝ) (hz0 : -0.01 < z) (hz : z < z')
    (h : ASK14.Source s { g with z1 := some z }) (h' : ASK14.Source s' { g with z1 := some z' })
    (hk : ASK14.SameKind s s')
    (hw : (s.get "on_hanging_wall").isOn → g.x ≠ none ∧ 0 < g.dip ∧ g.dip < 90 ∧
      ∀ w, g.width = some w → 0 < w) (hv : 0 < g.v) :
    ∃ o o', Gives ASK14.cls s o ∧ Gives ASK14.cls s' o' ∧ o.gmm.lnResp.length = 24 ∧
      o'.gmm.lnStd = o.gmm.lnStd ∧
      (g.v = 1180 → List.Forall₂ F.Same o.gmm.lnResp o'.gmm.lnResp) ∧
      (g.v ≠ 1180 → ∀ i < 24,
        (9 ≤ i → i ≠ 22 → F.Drops (o'.gmm.lnResp.getD i F.nan) (o.gmm.lnResp.getD i F.nan)) ∧
        (i < 9 ∨ i = 22 →
          (g.v < 400 → F.Drops (o'.gmm.lnResp.getD i F.nan) (o.gmm.lnResp.getD i F.nan)) ∧
          (g.v = 400 → F.Same (o.gmm.lnResp.getD i F.nan) (o'.gmm.lnResp.getD i F.nan)) ∧
          (400 < g.v → (i ≠ 8 → F.Drops (o.gmm.lnResp.getD i F.nan) (o'.gmm.lnResp.getD i F.nan)) ∧
            (i = 8 → F.Same (o.gmm.lnResp.getD i F.nan) (o'.gmm.lnResp.getD i F.nan))))) := by
  have hok : g.HwOk (ASK14.kindOf s) := fun hh => hw (by simpa [ASK14.kindOf] using hh)
  have g1 := ASK14.gives h fun e => (hok e).1
  have g2 := ASK14.gives h' fun e => (hok (hk.eq ▸ e)).1
  rw [hk.eq] at g2
  generalize ASK14.kindOf s = k at g1 g2 hok
  have hz1 : -0.01 < z' := by linarith
  have hokz : ∀ w, ({ g with z1 := some w } : ASK14.Given).HwOk k := fun _ => hok
  have ok : ∀ c ∈ ASK14.table, ∀ w, -0.01 < w → (ASK14.lnResp c (({ g with z1 := some w } : ASK14.Given).toIn k)).ok :=
    fun c hc w hw => ASK14.resp_ok hc (hokz w) hv fun z'' e => by
      simp only [Option.some.injEq] at e; rw [← e]; exact hw
  have er : ∀ c ∈ ASK14.table, ASK14.refMotion c (({ g with z1 := some z' } : ASK14.Given).toIn k) =
      ASK14.refMotion c (({ g with z1 := some z } : ASK14.Given).toIn k) := by
    intro c hc
    have o1 : (ASK14.refMotion c (({ g with z1 := some z' } : ASK14.Given).toIn k)).ok := ASK14.ref_ok hc (hokz _)
    have o2 : (ASK14.refMotion c (({ g with z1 := some z } : ASK14.Given).toIn k)).ok := ASK14.ref_ok hc (hokz _)
    ext
    · simp only [ASK14.refMotion, F.val_exp, ASK14.ref_val hc]
      rfl
    · simp [o1, o2]
  have hl : 0 < Real.log (z' + 0.01) - Real.log (z + 0.01) :=
    sub_pos.2 (Real.log_lt_log (by norm_num at hz0 ⊢; linarith) (by linarith))
  refine ⟨_, _, g1, g2, by simp [ASK14.out, ASK14.table_length], ?_, fun he => ?_, fun he i hi => ?_⟩
  · simp only [ASK14.out, Option.some.injEq]
    apply List.map_congr_left
    intro c hc
    simp only [ASK14.lnStd, ASK14.phi, ASK14.tau, ASK14.deriv, ASK14.phiB, ASK14.phiAl, ASK14.tauB, er c hc]
    rfl
  · simp only [ASK14.out]
    refine forall₂_map fun c hc => ⟨ok c hc _ hz0, ok c hc _ hz1, ?_⟩
    have := ASK14.resp_z hc g k hz0 hz1 hv
    rw [if_pos he] at this
    linarith
  · have hi' : i < ASK14.table.length := by rw [ASK14.table_length]; exact hi
    have hc : ASK14.table[i] ∈ ASK14.table := List.getElem_mem hi'
    obtain ⟨q1, q2, q3, q4⟩ := ASK14.basin_rows ⟨i, hi'⟩
    simp only [Fin.getElem_fin] at q1 q2 q3 q4
    have hd := ASK14.resp_z hc g k hz0 hz1 hv
    rw [if_neg he] at hd
    simp only [ASK14.out, getD_row _ _ hi']
    have o1 := ok _ hc _ hz0
    have o2 := ok _ hc _ hz1
    refine ⟨fun h9 h22 => ⟨o2, o1, ?_⟩, fun hlow => ⟨fun h4 => ⟨o2, o1, ?_⟩, fun h4 => ⟨o1, o2, ?_⟩,
      fun h4 => ⟨fun h8 => ⟨o1, o2, ?_⟩, fun h8 => ⟨o1, o2, ?_⟩⟩⟩⟩
    · obtain ⟨a1, a2, a3, a4⟩ := q4 h9 h22
      have := mul_pos (ASK14.basin_pos a1 a2 a3 a4 g.v) hl
      linarith
    · obtain ⟨a1, a2, a3⟩ := q1 hlow
      have := mul_pos (ASK14.basin_low a1 a2 a3 h4) hl
      linarith
    · rw [ASK14.basin_high (q1 hlow).2.2 h4.ge] at hd
      rw [show min ((g.v - 400) / 300) 1 = 0 by rw [h4]; norm_num] at hd
      simp only [mul_zero, zero_mul] at hd
      linarith
    · rw [ASK14.basin_high (q1 hlow).2.2 h4.le] at hd
      have a : ((ASK14.table[i]).a46 : ℝ) < 0 := by exact_mod_cast q2 (by omega)
      have b : 0 < min ((g.v - 400) / 300) 1 := lt_min (by linarith) (by norm_num)
      have := mul_neg_of_neg_of_pos (mul_neg_of_neg_of_pos a b) hl
      linarith
    · rw [ASK14.basin_high (q1 hlow).2.2 h4.le, q3 h8] at hd
      simp only [Rat.cast_zero, zero_mul] at hd
      linarith

/-! ### Instances -/

namespace CY14

/-- a scenario on soil with a given basin depth -/
noncomputable def exB (region : String) (z : ℝ) : Scenario :=
  ⟨[("mag", .num 6.5), ("dist_rup", .num 20), ("dist_jb", .num 18), ("dist_x", .num (-18)), ("dip", .num 60),
    ("v_s30", .num 300), ("depth_1_0", .num z), ("mechanism", .str "SS"), ("region", .str region)], []⟩

theorem exB_source (region : String) (z : ℝ) : Source (exB region z) { exFG with z1 := some z } := by
  constructor <;> simp [exB, exFG, Scenario.get, Dict.get?, Val.ofOpt]

theorem exB_same (region : String) (z z' : ℝ) : SameKind (exB region z) (exB region z') := by
  intro k hk
  simp only [List.mem_cons, List.not_mem_nil, or_false] at hk
  rcases hk with rfl | rfl | rfl | rfl <;> simp [exB, Scenario.get, Dict.get?]

end CY14

example := C98_cy14 (CY14.exB "japan" 0.1) (CY14.exB "japan" 2) CY14.exFG 0.1 2 (by norm_num) (CY14.exB_source _ _)
  (CY14.exB_source _ _) (CY14.exB_same _ _ _) (by norm_num [CY14.exFG]) (by norm_num [CY14.exFG])

namespace CB14

/-- a scenario with a given basin depth -/
noncomputable def exB (region : String) (z : ℝ) : Scenario :=
  ⟨[("mag", .num 6), ("dist_rup", .num 6), ("dist_jb", .num 5), ("dist_x", .num (-5)), ("dip", .num 60),
    ("width", .num 10), ("depth_tor", .num 1), ("depth_hyp", .num 8), ("v_s30", .num 300), ("depth_2_5", .num z),
    ("mechanism", .str "SS"), ("region", .str region)], []⟩

theorem exB_source (region : String) (z : ℝ) : Source (exB region z) { exFG 300 with z25 := some z } := by
  constructor <;> simp [exB, exFG, Scenario.get, Dict.get?, Val.ofOpt]

end CB14

example := C98_cb14 (CB14.exB "japan" 0.1) (CB14.exB "japan" 1) (CB14.exFG 300) 0.1 1 (by norm_num) (CB14.exB_source _ _)
  (CB14.exB_source _ _) rfl rfl (by
    rw [show CB14.mechOf ((CB14.exB "japan" 0.1).get "mechanism") = .other by
      simp [CB14.exB, Scenario.get, Dict.get?, CB14.mechOf]]
    exact CB14.exF_regular 300) (by norm_num [CB14.exFG])

namespace ASK14

/-- a scenario with a given basin depth -/
noncomputable def exB (z : ℝ) : Scenario :=
  ⟨[("mag", .num 6.5), ("dist_rup", .num 20), ("dist_jb", .num 18), ("dip", .num 60), ("v_s30", .num 300),
    ("depth_1_0", .num z), ("mechanism", .str "SS"), ("region", .str "california")], []⟩

theorem exB_source (z : ℝ) : Source (exB z) { exFG with z1 := some z } := by
  constructor <;> simp [exB, exFG, Scenario.get, Dict.get?, Val.ofOpt]

theorem exB_same (z z' : ℝ) : SameKind (exB z) (exB z') := by
  intro k hk
  simp only [List.mem_cons, List.not_mem_nil, or_false] at hk
  rcases hk with rfl | rfl | rfl | rfl | rfl <;> simp [exB, Scenario.get, Dict.get?]

end ASK14

example := C98_ask14 (ASK14.exB 0.1) (ASK14.exB 2) ASK14.exFG 0.1 2 (by norm_num) (by norm_num) (ASK14.exB_source _)
  (ASK14.exB_source _) (ASK14.exB_same _ _)
  (fun h => by simp [ASK14.exB, Scenario.get, Dict.get?, Val.isOn] at h) (by norm_num [ASK14.exFG])
