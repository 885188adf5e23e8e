import Verif.Props.Basin

/-! # C102: a measured instead of an inferred velocity -/

open Bounds

set_option linter.unusedSimpArgs false

/-- a total standard deviation follows the part that changes -/
theorem std_lt {a b c d t : ℝ} (ha : 0 ≤ a) (hb : 0 ≤ b) (hc : 0 ≤ c) (h1 : a ^ 2 = t ^ 2 + c ^ 2)
    (h2 : b ^ 2 = t ^ 2 + d ^ 2) (h : c < d) : a < b := by
  apply lt_of_pow_lt_pow_left₀ 2 hb
  rw [h1, h2]
  have := pow_lt_pow_left₀ h hc (n := 2) (by norm_num)
  linarith

namespace ASK14

theorem src_rows : ∀ i : Fin table.length, 0.4 < table[i].s1e ∧ 0.4 < table[i].s2e ∧
    0 < table[i].s1m ∧ 0 < table[i].s2m ∧
    table[i].s1m < table[i].s1e ∧ table[i].s2m ≤ table[i].s2e ∧ (i.val ≠ 23 → table[i].s2m < table[i].s2e) ∧
    (i.val = 23 → table[i].s2m = table[i].s2e) := by decide +kernel

/-- everything but the source of the velocity -/
def SameButSource (s s' : Scenario) : Prop :=
  ∀ k ∈ ["mechanism", "region", "is_aftershock", "on_hanging_wall"], s'.get k = s.get k

theorem SameButSource.eq {s s' : Scenario} (h : SameButSource s s') (h1 : s.get "vs_source" = .str "inferred")
    (h2 : s'.get "vs_source" ≠ .str "inferred") :
    kindOf s = { kindOf s with measured := false } ∧ kindOf s' = { kindOf s with measured := true } := by
  simp only [SameButSource, List.forall_mem_cons] at h
  obtain ⟨k1, k2, k3, k4, -⟩ := h
  have : (s'.get "vs_source").isStr "inferred" = false := by
    rw [Bool.eq_false_iff]; intro e; exact h2 (by simpa [Val.isStr] using e)
  constructor <;> simp [kindOf, k1, k2, k3, k4, h1, this]

theorem clip01 (x : ℝ) : 0 ≤ min (max x 0) (1 : ℝ) ∧ min (max x 0) (1 : ℝ) ≤ 1 :=
  ⟨le_min (le_max_right _ _) zero_le_one, min_le_right _ _⟩

/-- `phi` moves with `phiAl` -/
theorem phi_lt {c : Row} (hc : c ∈ table) {g g' : Given} {k k' : Kind}
    (hd : 0 < (1 + (deriv c (g.toIn k)).val)) (e : (deriv c (g'.toIn k')).val = (deriv c (g.toIn k)).val)
    (h4 : 0.4 < (phiAl c (g'.toIn k')).val)
    (h : (phiAl c (g.toIn k)).val < (phiAl c (g'.toIn k')).val) :
    (phi c (g.toIn k)).val < (phi c (g'.toIn k')).val := by
  obtain ⟨-, p⟩ := phiB_facts hc g k
  obtain ⟨-, p'⟩ := phiB_facts hc g' k'
  obtain ⟨-, a, -⟩ := phiAl_facts hc g k
  have q : (phiB c (g.toIn k)).val ^ 2 < (phiB c (g'.toIn k')).val ^ 2 := by
    rw [p, p', max_lt_iff]
    have := pow_lt_pow_left₀ h a (n := 2) (by norm_num)
    have h42 : (0.4 : ℝ) ^ 2 < (phiAl c (g'.toIn k')).val ^ 2 := pow_lt_pow_left₀ h4 (by norm_num) (by norm_num)
    exact ⟨lt_max_of_lt_left (by linarith), lt_max_of_lt_left (by linarith)⟩
  have hv : ∀ (g : Given) (k : Kind), (phi c (g.toIn k)).val = Real.sqrt ((phiB c (g.toIn k)).val ^ 2 *
      (1 + (deriv c (g.toIn k)).val) ^ 2 + 0.4 ^ 2) := fun g k => by simp only [phi, fsimp]
  rw [hv, hv, e]
  apply Real.sqrt_lt_sqrt (by positivity)
  have := mul_lt_mul_of_pos_right q (show 0 < (1 + (deriv c (g.toIn k)).val) ^ 2 by positivity)
  linarith

/-- the two values of `phiAl` -/
theorem phiAl_src (i : Fin table.length) (g : Given) (k : Kind) (hj : k.reg ≠ .japan) :
    0.4 < (phiAl table[i] (g.toIn { k with measured := false })).val ∧
    (i.val ≠ 23 ∨ g.mag < 6 → (phiAl table[i] (g.toIn { k with measured := true })).val <
      (phiAl table[i] (g.toIn { k with measured := false })).val) ∧
    (i.val = 23 → 6 ≤ g.mag → (phiAl table[i] (g.toIn { k with measured := true })).val =
      (phiAl table[i] (g.toIn { k with measured := false })).val) := by
  obtain ⟨h1, h2, -, -, h3, h4, h5, h6⟩ := src_rows i
  have h1' : ((0.4 : ℚ) : ℝ) < table[i].s1e := by exact_mod_cast h1
  have h2' : ((0.4 : ℚ) : ℝ) < table[i].s2e := by exact_mod_cast h2
  have h3' : (table[i].s1m : ℝ) < table[i].s1e := by exact_mod_cast h3
  have h4' : (table[i].s2m : ℝ) ≤ table[i].s2e := by exact_mod_cast h4
  have h5' : i.val ≠ 23 → (table[i].s2m : ℝ) < table[i].s2e := fun w => by exact_mod_cast h5 w
  have h6' : i.val = 23 → (table[i].s2m : ℝ) = table[i].s2e := fun w => by rw [h6 w]
  push_cast at h1' h2'
  have hr : (g.toIn { k with measured := true }).reg ≠ .japan := hj
  have hr' : (g.toIn { k with measured := false }).reg ≠ .japan := hj
  have em : (phiAl table[i] (g.toIn { k with measured := true })).val = table[i].s1m +
      (table[i].s2m - table[i].s1m) * min (max ((g.mag - 4) / 2) 0) 1 := by
    unfold phiAl
    rw [if_neg hr, if_pos (show (g.toIn { k with measured := true }).measured = true from rfl)]
    simp only [Given.toIn, fsimp]
  have ee : (phiAl table[i] (g.toIn { k with measured := false })).val = table[i].s1e +
      (table[i].s2e - table[i].s1e) * min (max ((g.mag - 4) / 2) 0) 1 := by
    unfold phiAl
    rw [if_neg hr', if_neg (by simp [Given.toIn])]
    simp only [Given.toIn, fsimp]
  rw [em, ee]
  obtain ⟨t0, t1⟩ := clip01 ((g.mag - 4) / 2)
  have tlt : g.mag < 6 → min (max ((g.mag - 4) / 2) 0) (1 : ℝ) < 1 := fun w =>
    min_lt_of_left_lt (max_lt (by linarith) (by norm_num))
  have teq : 6 ≤ g.mag → min (max ((g.mag - 4) / 2) 0) (1 : ℝ) = 1 := fun w =>
    min_eq_right (le_max_of_le_left (by linarith))
  generalize min (max ((g.mag - 4) / 2) 0) (1 : ℝ) = t at *
  have key : ∀ a b : ℝ, a + (b - a) * t = (1 - t) * a + t * b := fun a b => by ring
  rw [key, key]
  refine ⟨?_, fun w => ?_, fun w w' => ?_⟩
  · have a := mul_le_mul_of_nonneg_left h1'.le (show 0 ≤ 1 - t by linarith)
    have b := mul_le_mul_of_nonneg_left h2'.le t0
    rcases eq_or_lt_of_le t0 with q | q
    · rw [← q]; linarith
    · have := mul_lt_mul_of_pos_left h2' q
      linarith
  · have a := mul_le_mul_of_nonneg_left h3'.le (show 0 ≤ 1 - t by linarith)
    have b := mul_le_mul_of_nonneg_left h4' t0
    rcases w with w | w
    · rcases eq_or_lt_of_le t0 with q | q
      · rw [← q]; linarith
      · have := mul_lt_mul_of_pos_left (h5' w) q
        linarith
    · have := mul_lt_mul_of_pos_left h3' (show 0 < 1 - t by linarith [tlt w])
      linarith
  · rw [teq w', h6' w]; ring

end ASK14

/-- **C102 (ASK14).** Two scenarios that differ only in `vs_source`: `"inferred"` against measured (any
other value, also none).  Medians and `tau` are the same.  In Japan nothing changes; elsewhere the
measured velocity strictly lowers `phi` and the total standard deviation at every period
(`v_s30` from 180 m/s) — except PGV from magnitude 6 on, which stays. -/
theorem C102_ask14 (s s' : Scenario) (g : ASK14.Given) (h : ASK14.Source s g) (h' : ASK14.Source s' g)
    (hk : ASK14.SameButSource s s') (h1 : s.get "vs_source" = .str "inferred")
    (h2 : s'.get "vs_source" ≠ .str "inferred")
    (hw : (s.get "on_hanging_wall").isOn → g.x ≠ none ∧ 0 < g.dip ∧ g.dip < 90 ∧
      ∀ w, g.width = some w → 0 < w) (hv : 180 ≤ g.v) :
    ∃ o o' sd sd', Gives ASK14.cls s o ∧ Gives ASK14.cls s' o' ∧ o.gmm.lnStd = some sd ∧ o'.gmm.lnStd = some sd' ∧
      sd.length = 24 ∧ o'.gmm.lnResp = o.gmm.lnResp ∧ o'.tau = o.tau ∧
      (s.get "region" = .str "japan" → sd' = sd ∧ o'.phi = o.phi) ∧
      (s.get "region" ≠ .str "japan" → ∀ i < 24,
        (i ≠ 23 ∨ g.mag < 6 → F.Drops (sd.getD i F.nan) (sd'.getD i F.nan) ∧
          F.Drops (o.phi.getD i F.nan) (o'.phi.getD i F.nan)) ∧
        (i = 23 → 6 ≤ g.mag → F.Same (sd.getD i F.nan) (sd'.getD i F.nan))) := by
  obtain ⟨e1, e2⟩ := hk.eq h1 h2
  have hok : g.HwOk (ASK14.kindOf s) := by
    intro hh
    exact hw (by simpa [ASK14.kindOf] using hh)
  have g1 := ASK14.gives h fun e => (hok e).1
  have ehw : (ASK14.kindOf s').hw = (ASK14.kindOf s).hw := by rw [e2]
  have g2 := ASK14.gives h' fun e => (hok (ehw ▸ e)).1
  have hreg : (ASK14.kindOf s).reg = .japan ↔ s.get "region" = .str "japan" := by
    simp only [ASK14.kindOf, ASK14.regOf]
    by_cases h1 : s.get "region" = .str "taiwan"
    · simp [h1]
    by_cases h2 : s.get "region" = .str "china"
    · simp [h2]
    by_cases h3 : s.get "region" = .str "japan"
    · simp [h3]
    · simp [Val.isStr, h1, h2, h3]
  rw [e1] at g1
  rw [e2] at g2
  generalize ASK14.kindOf s = k at *
  have hv0 : 0 < g.v := by linarith
  have hok1 : g.HwOk { k with measured := false } := hok
  have hok2 : g.HwOk { k with measured := true } := hok
  refine ⟨_, _, _, _, g1, g2, rfl, rfl, by rw [List.length_map, ASK14.table_length], rfl, rfl, fun w => ?_, fun w i hi => ?_⟩
  · have hj : k.reg = .japan := hreg.2 w
    have ep : ∀ c, ASK14.phiAl c (g.toIn { k with measured := true }) =
        ASK14.phiAl c (g.toIn { k with measured := false }) := by
      intro c
      unfold ASK14.phiAl
      rw [if_pos (show (g.toIn { k with measured := true }).reg = .japan from hj),
        if_pos (show (g.toIn { k with measured := false }).reg = .japan from hj)]
      rfl
    have eb : ∀ c, ASK14.phi c (g.toIn { k with measured := true }) =
        ASK14.phi c (g.toIn { k with measured := false }) := by
      intro c
      simp only [ASK14.phi, ASK14.phiB, ep]; rfl
    constructor
    · refine List.map_congr_left fun c _ => ?_
      simp only [ASK14.lnStd, eb]; rfl
    · exact List.map_congr_left fun c _ => eb c
  · have hj : k.reg ≠ .japan := fun q => w (hreg.1 q)
    rw [← ASK14.table_length] at hi
    have hc : ASK14.table[i] ∈ ASK14.table := List.getElem_mem hi
    obtain ⟨a1, a2, a3, a4, a5, -, a6⟩ := ASK14.std_facts hc hok1 hv0
    obtain ⟨b1, b2, b3, b4, b5, b6, -⟩ := ASK14.std_facts hc hok2 hv0
    obtain ⟨p1, p2, p3⟩ := ASK14.phiAl_src ⟨i, hi⟩ g k hj
    obtain ⟨-, -, d3, -⟩ := ASK14.deriv_facts hc hok2 hv0
    simp only [ASK14.out, getD_row _ _ hi]
    simp only [Fin.getElem_fin] at p1 p2 p3
    refine ⟨fun q => ?_, fun q q' => ⟨a1, b1, ?_⟩⟩
    · have hphi := ASK14.phi_lt hc (g := g) (g' := g) (k := { k with measured := true })
        (k' := { k with measured := false }) (by linarith [d3 hv]) rfl p1 (p2 q)
      refine ⟨⟨a1, b1, ?_⟩, a3, b3, hphi⟩
      exact std_lt (by linarith) (by simp only [ASK14.lnStd, F.val_sqrt]; exact Real.sqrt_nonneg _)
        (by linarith) b4 a4 hphi
    · have : (ASK14.phiB ASK14.table[i] (g.toIn { k with measured := true })).val =
          (ASK14.phiB ASK14.table[i] (g.toIn { k with measured := false })).val := by
        simp only [ASK14.phiB, fsimp, p3 q q']
      have hphi : (ASK14.phi ASK14.table[i] (g.toIn { k with measured := true })).val =
          (ASK14.phi ASK14.table[i] (g.toIn { k with measured := false })).val := by
        simp only [ASK14.phi, fsimp, this]; rfl
      simp only [ASK14.lnStd, fsimp, hphi]; rfl

namespace CY14

theorem src_rows : ∀ i : Fin table.length, 0.7 ≤ table[i].sigma_3 ∧
    (i.val < 21 ∨ 24 ≤ i.val → 0.7 < table[i].sigma_3) ∧
    (21 ≤ i.val → i.val < 24 → table[i].sigma_3 = 0.7) := by decide +kernel

/-- everything but the source of the velocity -/
def SameButSource (s s' : Scenario) : Prop :=
  ∀ k ∈ ["mechanism", "region", "on_hanging_wall"], s'.get k = s.get k

theorem SameButSource.eq {s s' : Scenario} (h : SameButSource s s') (h1 : s.get "vs_source" = .str "inferred")
    (h2 : s'.get "vs_source" ≠ .str "inferred") :
    kindOf s = { kindOf s with measured := false } ∧ kindOf s' = { kindOf s with measured := true } := by
  simp only [SameButSource, List.forall_mem_cons] at h
  obtain ⟨k1, k2, k3, -⟩ := h
  have : (s'.get "vs_source").isStr "inferred" = false := by
    rw [Bool.eq_false_iff]; intro e; exact h2 (by simpa [Val.isStr] using e)
  constructor <;> simp [kindOf, k1, k2, k3, h1, this]

/-- `phi` of the two sources -/
theorem phi_src (i : Fin table.length) {g : Given} (hr : 0 ≤ g.rup) (k : Kind) :
    (i.val < 21 ∨ 24 ≤ i.val → (phi table[i] (g.toIn { k with measured := true })).val <
      (phi table[i] (g.toIn { k with measured := false })).val) ∧
    (21 ≤ i.val → i.val < 24 → (phi table[i] (g.toIn { k with measured := true })).val =
      (phi table[i] (g.toIn { k with measured := false })).val) := by
  have hc : table[i] ∈ table := List.getElem_mem _
  obtain ⟨h1, h2, h3⟩ := src_rows i
  obtain ⟨-, -, -, p1, -⟩ := std_facts hc hr { k with measured := true }
  obtain ⟨-, -, -, p2, -⟩ := std_facts hc hr { k with measured := false }
  have e : ∀ b, (phi table[i] (g.toIn { k with measured := b })).val =
      (table[i].sigma_1 + ((if k.reg = .japan then (table[i].sigma_2jp : ℝ) else table[i].sigma_2) - table[i].sigma_1) / 1.5
        * (min (max g.mag 5) 6.5 - 5)) *
      √(table[i].sigma_3 * (1 - if b then 1 else 0) + 0.7 * (if b then 1 else 0) +
        (1 + (nl0 table[i] (g.toIn k)).val) ^ 2) := by
    intro b
    have : nl0 table[i] (g.toIn { k with measured := b }) = nl0 table[i] (g.toIn k) := rfl
    simp only [phi, this]
    by_cases hj : k.reg = .japan <;> cases b <;> simp only [clippedMag, Given.toIn, fsimp, hj, if_true, if_false,
      Bool.false_eq_true]
  rw [e] at p1 p2 ⊢
  rw [e]
  simp only [if_true, if_false, Bool.false_eq_true, sub_self, mul_zero, zero_add, sub_zero, mul_one, add_zero] at *
  have hA := pos_of_mul_pos_left p2 (Real.sqrt_nonneg _)
  generalize (nl0 table[i] (g.toIn k)).val = n at *
  refine ⟨fun w => ?_, fun w w' => ?_⟩
  · have q : ((0.7 : ℚ) : ℝ) < table[i].sigma_3 := by exact_mod_cast h2 w
    push_cast at q
    exact mul_lt_mul_of_pos_left (Real.sqrt_lt_sqrt (by positivity) (by linarith)) hA
  · have q : (table[i].sigma_3 : ℝ) = ((0.7 : ℚ) : ℝ) := by exact_mod_cast h3 w w'
    push_cast at q
    rw [q]

end CY14

/-- **C102 (CY14).** Likewise: medians and `tau` do not change, and a measured velocity strictly lowers
`phi` and the total standard deviation at every period below 5 s, PGA and PGV, in every region and for
every velocity; at 5, 7.5 and 10 s they are the same. -/
theorem C102_cy14 (s s' : Scenario) (g : CY14.Given) (h : CY14.Source s g) (h' : CY14.Source s' g)
    (hk : CY14.SameButSource s s') (h1 : s.get "vs_source" = .str "inferred")
    (h2 : s'.get "vs_source" ≠ .str "inferred") (hr : 0 ≤ g.rup) :
    ∃ o o' sd sd', Gives CY14.cls s o ∧ Gives CY14.cls s' o' ∧ o.gmm.lnStd = some sd ∧ o'.gmm.lnStd = some sd' ∧
      sd.length = 26 ∧ o'.gmm.lnResp = o.gmm.lnResp ∧ o'.tau = o.tau ∧
      ∀ i < 26,
        (i < 21 ∨ 24 ≤ i → F.Drops (sd.getD i F.nan) (sd'.getD i F.nan) ∧
          F.Drops (o.phi.getD i F.nan) (o'.phi.getD i F.nan)) ∧
        (21 ≤ i → i < 24 → F.Same (sd.getD i F.nan) (sd'.getD i F.nan) ∧
          F.Same (o.phi.getD i F.nan) (o'.phi.getD i F.nan)) := by
  obtain ⟨e1, e2⟩ := hk.eq h1 h2
  have g1 := CY14.gives h
  have g2 := CY14.gives h'
  rw [e1] at g1
  rw [e2] at g2
  generalize CY14.kindOf s = k at *
  refine ⟨_, _, _, _, g1, g2, rfl, rfl, by rw [List.length_map, CY14.table_length], rfl, rfl, fun i hi => ?_⟩
  rw [← CY14.table_length] at hi
  have hc : CY14.table[i] ∈ CY14.table := List.getElem_mem hi
  obtain ⟨a1, a2, a3, a4, a5, -, a6, a7⟩ := CY14.std_facts hc hr { k with measured := false }
  obtain ⟨b1, b2, b3, b4, b5, -, b6, b7⟩ := CY14.std_facts hc hr { k with measured := true }
  obtain ⟨p1, p2⟩ := CY14.phi_src ⟨i, hi⟩ hr k
  simp only [CY14.out, getD_row _ _ hi]
  simp only [Fin.getElem_fin] at p1 p2
  refine ⟨fun q => ⟨⟨a1, b1, std_lt b6.le a6.le b4.le b7 a7 (p1 q)⟩, a3, b3, p1 q⟩,
    fun q q' => ⟨⟨a1, b1, ?_⟩, a3, b3, p2 q q'⟩⟩
  have := p2 q q'
  simp only [CY14.lnStd, fsimp, this]; rfl

/-! ### Instances -/

namespace CY14

/-- a scenario on soil with a given source of the velocity -/
noncomputable def exV (src : Val) : Scenario :=
  ⟨[("mag", .num 6.5), ("dist_rup", .num 20), ("dist_jb", .num 18), ("dist_x", .num (-18)), ("dip", .num 60),
    ("v_s30", .num 300), ("depth_1_0", .num 0.1), ("mechanism", .str "SS"), ("vs_source", src)], []⟩

theorem exV_source (src : Val) : Source (exV src) { exFG with z1 := some 0.1 } := by
  constructor <;> simp [exV, exFG, Scenario.get, Dict.get?, Val.ofOpt]

theorem exV_same (z z' : Val) : SameButSource (exV z) (exV z') := by
  intro k hk
  simp only [List.mem_cons, List.not_mem_nil, or_false] at hk
  rcases hk with rfl | rfl | rfl <;> simp [exV, Scenario.get, Dict.get?]

end CY14

example := C102_cy14 (CY14.exV (.str "inferred")) (CY14.exV (.str "measured")) { CY14.exFG with z1 := some 0.1 }
  (CY14.exV_source _) (CY14.exV_source _) (CY14.exV_same _ _) rfl (by simp [CY14.exV, Scenario.get, Dict.get?])
  (by norm_num [CY14.exFG])

namespace ASK14

/-- a scenario with a given source of the velocity -/
noncomputable def exV (src : Val) : Scenario :=
  ⟨[("mag", .num 6.5), ("dist_rup", .num 20), ("dist_jb", .num 18), ("dip", .num 60), ("v_s30", .num 300),
    ("depth_1_0", .num 0.1), ("mechanism", .str "SS"), ("region", .str "california"), ("vs_source", src)], []⟩

theorem exV_source (src : Val) : Source (exV src) { exFG with z1 := some 0.1 } := by
  constructor <;> simp [exV, exFG, Scenario.get, Dict.get?, Val.ofOpt]

theorem exV_same (z z' : Val) : SameButSource (exV z) (exV z') := by
  intro k hk
  simp only [List.mem_cons, List.not_mem_nil, or_false] at hk
  rcases hk with rfl | rfl | rfl | rfl <;> simp [exV, Scenario.get, Dict.get?]

end ASK14

example := C102_ask14 (ASK14.exV (.str "inferred")) (ASK14.exV .none) { ASK14.exFG with z1 := some 0.1 }
  (ASK14.exV_source _) (ASK14.exV_source _) (ASK14.exV_same _ _) rfl (by simp [ASK14.exV, Scenario.get, Dict.get?])
  (fun h => by simp [ASK14.exV, Scenario.get, Dict.get?, Val.isOn] at h) (by norm_num [ASK14.exFG])
