import Verif.Props.ASK14Mag
import Verif.Props.CY14Mag
import Verif.Props.CB14Mag

/-!
# C96: the hanging wall

What changes when only the side of the rupture changes: the flag `on_hanging_wall` of ASK14 and
CY14, the sign of `dist_x` of CB14.
-/

open Bounds

set_option linter.unusedSimpArgs false

/-- one ordinate of a spectrum computed row by row -/
theorem getD_row {α : Type} (f : α → F) (l : List α) {i : ℕ} (hi : i < l.length) :
    (l.map f).getD i F.nan = f l[i] := by
  simp only [List.getD_eq_getElem?_getD, List.getElem?_map, List.getElem?_eq_getElem hi,
    Option.map_some, Option.getD_some]

/-! ## ASK14 -/

namespace ASK14

theorem hw_rows : ∀ c ∈ table, 0 ≤ c.a13 ∧ (c.period ≤ 3 → 0 < c.a13) := by decide +kernel

theorem T3_nonneg {u : ℝ} (h : 0 ≤ u) : 0 ≤ T3 u ∧ (u < 3 → 0 < T3 u) := by
  unfold T3
  split
  · rename_i h1
    have : 0 < 0.25 + 1.5 * u + -0.75 * u ^ 2 := by nlinarith
    exact ⟨this.le, fun _ => this⟩
  · split
    · rename_i h3
      have : 0 < 1 - (u - 1) / 2 := by linarith
      exact ⟨this.le, fun _ => this⟩
    · rename_i h3
      exact ⟨le_rfl, fun h => absurd h h3⟩

theorem t2_nonneg (m : ℝ) : 0 ≤ (t2 (F.ofReal m)).val ∧ (5.5 < m → 0 < (t2 (F.ofReal m)).val) := by
  simp only [t2, fsimp]
  split
  · exact ⟨le_rfl, fun h => absurd h (by linarith)⟩
  · split
    · have : 0 < 1 + 0.2 * (m - 6.5) - (1 - 0.2) * (m - 6.5) ^ 2 := by nlinarith
      exact ⟨this.le, fun _ => this⟩
    · have : 0 < 1 + 0.2 * (m - 6.5) := by nlinarith
      exact ⟨this.le, fun _ => this⟩

theorem clip_nonneg (x : ℝ) : 0 ≤ min (max x 0) 1 ∧ (0 < x → 0 < min (max x 0) 1) :=
  ⟨le_min (le_max_right _ _) zero_le_one, fun h => lt_min (lt_max_of_lt_left h) one_pos⟩

/-- the hanging-wall term -/
noncomputable def hngR (c : Row) (g : Given) : ℝ :=
  c.a13 * (t1 (F.ofReal g.dip)).val * (t2 (F.ofReal g.mag)).val *
    (t3 (F.ofReal (g.x.getD 0)) g.effWidth (F.ofReal g.dip)).val * (t4 g.effTor).val *
    (t5 (F.ofReal (g.x.getD 0)) (F.ofReal g.jb) (g.y0.map F.ofReal)).val

/-- horizontal extent of the rupture, with the model's own width if it is left out -/
noncomputable def Given.extent (g : Given) : ℝ := g.effWidth.val * Real.cos (g.dip * (Real.pi / 180))

theorem hng_nonneg {c : Row} (hc : c ∈ table) {g : Given} {x : ℝ} (hgx : g.x = some x) (hx : 0 ≤ x)
    (hd : g.dip < 90) (hr : 0 < g.extent) : 0 ≤ hngR c g ∧
      (c.period ≤ 3 → 5.5 < g.mag → x < 3 * g.extent → g.effTor.val ^ 2 < 100 → g.y0 = none → g.jb < 30 →
        0 < hngR c g) := by
  obtain ⟨h13, h13p⟩ := hw_rows c hc
  have q13 : (0 : ℝ) ≤ c.a13 := by exact_mod_cast h13
  have p1 : 0 < (t1 (F.ofReal g.dip)).val := by
    simp only [t1, fsimp]
    exact div_pos (lt_min (by linarith) (by norm_num)) (by norm_num)
  obtain ⟨p2, p2'⟩ := t2_nonneg g.mag
  have e3 := t3_val x g.effWidth g.dip hr
  obtain ⟨p3, p3'⟩ := T3_nonneg (u := x / g.extent) (div_nonneg hx hr.le)
  have e4 : (t4 g.effTor).val = min (max (1 - g.effTor.val ^ 2 / 100) 0) 1 := by simp only [t4, fsimp]
  obtain ⟨p4, p4'⟩ := clip_nonneg (1 - g.effTor.val ^ 2 / 100)
  have p5 : 0 ≤ (t5 (F.ofReal (g.x.getD 0)) (F.ofReal g.jb) (g.y0.map F.ofReal)).val := by
    cases g.y0 with
    | none => simp only [t5, Option.map_none, fsimp]; exact (clip_nonneg _).1
    | some y => simp only [t5, Option.map_some, fsimp]; exact (clip_nonneg _).1
  unfold hngR
  simp only [hgx, Option.getD_some] at p5 ⊢
  rw [e3, e4]
  have e3' : x / (g.effWidth.val * Real.cos (g.dip * (Real.pi / 180))) = x / g.extent := rfl
  rw [e3']
  refine ⟨by positivity, fun hp hm hx3 ht hy hj => ?_⟩
  have q13' : (0 : ℝ) < c.a13 := by exact_mod_cast h13p hp
  have p2' := p2' hm
  have p3' := p3' (by rw [div_lt_iff₀ hr]; linarith)
  have p4' := p4' (by rw [sub_pos, div_lt_one (by norm_num)]; exact ht)
  have p5' : 0 < (t5 (F.ofReal x) (F.ofReal g.jb) (g.y0.map F.ofReal)).val := by
    rw [hy]
    simp only [t5, Option.map_none, fsimp]
    exact (clip_nonneg _).2 (by linarith)
  positivity

/-- the site response preserves the order of the motions -/
theorem resp_hw {c : Row} (hc : c ∈ table) (g : Given) (k : Kind) (hv : 180 ≤ g.v) :
    (0 ≤ hngR c g → (lnResp c (g.toIn { k with hw := false })).val ≤
      (lnResp c (g.toIn { k with hw := true })).val) ∧
    (0 < hngR c g → (lnResp c (g.toIn { k with hw := false })).val <
      (lnResp c (g.toIn { k with hw := true })).val) := by
  have hb : (baseF c (g.toIn { k with hw := true })).val =
      (baseF c (g.toIn { k with hw := false })).val + hngR c g := by
    rw [base_val, base_val]
    have e : f11 c (g.toIn { k with hw := true }) = f11 c (g.toIn { k with hw := false }) := rfl
    rw [e]
    simp only [if_true, Bool.false_eq_true, if_false, hngR]
    ring
  have hx : refR c g { k with hw := true } = refR c g { k with hw := false } + hngR c g := by
    unfold refR
    rw [hb]; ring
  have key : 0 < hngR c g → (lnResp c (g.toIn { k with hw := false })).val <
      (lnResp c (g.toIn { k with hw := true })).val := by
    intro h
    have hs := f5R_slope hc hv (x' := refR c g { k with hw := false }) (x := refR c g { k with hw := true })
      (by linarith)
    rw [resp_val hc, resp_val hc]
    linarith
  refine ⟨fun h => ?_, key⟩
  rcases h.eq_or_lt with h0 | h0
  · rw [resp_val hc, resp_val hc, hx, hb, ← h0]
    simp
  · exact (key h0).le

end ASK14

/-- the entries of a scenario besides the numbers and `on_hanging_wall` -/
def ASK14.SameSide (s s' : Scenario) : Prop :=
  (∀ k ∈ ["mechanism", "region", "vs_source", "is_aftershock"], s'.get k = s.get k) ∧
    ¬ (s.get "on_hanging_wall").isOn ∧ (s'.get "on_hanging_wall").isOn

theorem ASK14.SameSide.kinds {s s' : Scenario} (h : ASK14.SameSide s s') :
    ∃ k : ASK14.Kind, ASK14.kindOf s = { k with hw := false } ∧ ASK14.kindOf s' = { k with hw := true } := by
  obtain ⟨hk, w1, w2⟩ := h
  simp only [List.forall_mem_cons] at hk
  obtain ⟨k1, k2, k3, k4, -⟩ := hk
  exact ⟨ASK14.kindOf s, by simp [ASK14.kindOf, w1], by simp [ASK14.kindOf, k1, k2, k3, k4, w2]⟩

/-- Abrahamson et al. (2014): setting `on_hanging_wall` for a site on the down-dip side
(`dist_x ≥ 0`) of a dipping rupture lowers no ordinate, on any site from 180 m/s on including the
nonlinear site response, with or without `dist_y0`; and it strictly raises every ordinate up to a
period of 3 s, PGA and PGV when the magnitude exceeds 5.5, the rupture is less than 10 km deep, the
site is less than 30 km from its surface projection and closer to its top edge than three times its
horizontal extent. -/
theorem C96_ask14 (s s' : Scenario) (g : ASK14.Given) (x : ℝ) (h : ASK14.Source s g)
    (h' : ASK14.Source s' g) (hk : ASK14.SameSide s s') (hgx : g.x = some x) (hx : 0 ≤ x)
    (hd : 0 < g.dip ∧ g.dip < 90) (hw : ∀ w, g.width = some w → 0 < w)
    (hz : ∀ z, g.z1 = some z → -0.01 < z) (hv : 180 ≤ g.v) :
    ∃ o o', Gives ASK14.cls s o ∧ Gives ASK14.cls s' o' ∧ o.gmm.lnResp.length = 24 ∧
      List.Forall₂ F.NotAbove o'.gmm.lnResp o.gmm.lnResp ∧
      (5.5 < g.mag → x < 3 * g.extent → g.effTor.val ^ 2 < 100 → g.y0 = none → g.jb < 30 →
        ∀ i, (hi : i < ASK14.table.length) → ASK14.table[i].period ≤ 3 →
          F.Drops (o'.gmm.lnResp.getD i F.nan) (o.gmm.lnResp.getD i F.nan)) := by
  obtain ⟨k, e1, e2⟩ := hk.kinds
  have g1 := ASK14.gives h (by simp [e1])
  have g2 := ASK14.gives h' (by simp [e2, hgx])
  rw [e1] at g1
  rw [e2] at g2
  have ok1 : g.HwOk { k with hw := false } := fun e => by simp at e
  have ok2 : g.HwOk { k with hw := true } := fun _ => ⟨by simp [hgx], hd.1, hd.2, hw⟩
  have hr : 0 < g.extent := ASK14.r1_pos ok2 rfl
  have hv0 : 0 < g.v := by linarith
  have ok : ∀ c ∈ ASK14.table, (ASK14.lnResp c (g.toIn { k with hw := true })).ok ∧
      (ASK14.lnResp c (g.toIn { k with hw := false })).ok := fun c hc =>
    ⟨ASK14.resp_ok hc ok2 hv0 hz, ASK14.resp_ok hc ok1 hv0 hz⟩
  refine ⟨_, _, g1, g2, by simp [ASK14.out, ASK14.table_length], ?_, ?_⟩
  · simp only [ASK14.out]
    exact forall₂_map fun c hc => ⟨(ok c hc).1, (ok c hc).2,
      (ASK14.resp_hw hc g k hv).1 (ASK14.hng_nonneg hc hgx hx hd.2 hr).1⟩
  · intro hm hx3 ht hy hj i hi hp
    have hc : ASK14.table[i] ∈ ASK14.table := List.getElem_mem hi
    simp only [ASK14.out, getD_row _ _ hi]
    exact ⟨(ok _ hc).1, (ok _ hc).2, (ASK14.resp_hw hc g k hv).2
      ((ASK14.hng_nonneg hc hgx hx hd.2 hr).2 hp hm hx3 ht hy hj)⟩

/-! ## CY14 -/

namespace CY14

theorem hw_rows : ∀ c ∈ table, 0 ≤ c.c_9 ∧ 0 < c.c_9a ∧ c.c_9a ≤ 1 ∧ 0 < c.c_9b ∧ (c.period ≤ 4 → 0 < c.c_9) := by
  decide +kernel

/-- the part of the hanging-wall term that is never negative -/
noncomputable def hngA (c : Row) (g : Given) : ℝ :=
  c.c_9 * Real.cos (g.dip * (Real.pi / 180)) * (c.c_9a + (1 - c.c_9a) * Real.tanh (g.x / c.c_9b))

/-- the part that depends on the distances -/
noncomputable def Given.hngB (g : Given) (k : Kind) : ℝ :=
  1 - Real.sqrt (g.jb ^ 2 + (g.effTor k).val ^ 2) / (g.rup + 1)

theorem fHng_val (c : Row) (g : Given) (k : Kind) (hk : k.hw = true) :
    (fHng c (g.toIn k)).val = hngA c g * g.hngB k := by
  unfold fHng
  rw [if_pos (by simpa [Given.toIn] using hk)]
  simp only [Given.toIn, fsimp, hngA, Given.hngB]

theorem hngA_nonneg {c : Row} (hc : c ∈ table) {g : Given} (hx : 0 ≤ g.x) (hd : 0 ≤ g.dip) (hd' : g.dip ≤ 90) :
    0 ≤ hngA c g ∧ (c.period ≤ 4 → g.dip < 90 → 0 < hngA c g) := by
  obtain ⟨h9, h9a, h9a', h9b, h9p⟩ := hw_rows c hc
  have q9 : (0 : ℝ) ≤ c.c_9 := by exact_mod_cast h9
  have q9a : (0 : ℝ) < c.c_9a := by exact_mod_cast h9a
  have q9a' : (c.c_9a : ℝ) ≤ 1 := by exact_mod_cast h9a'
  have q9b : (0 : ℝ) < c.c_9b := by exact_mod_cast h9b
  have hth := tanh_nonneg (div_nonneg hx q9b.le)
  have h2 : 0 < (c.c_9a : ℝ) + (1 - c.c_9a) * Real.tanh (g.x / c.c_9b) :=
    add_pos_of_pos_of_nonneg q9a (mul_nonneg (by linarith) hth)
  have hpi := Real.pi_pos
  have hcos : 0 ≤ Real.cos (g.dip * (Real.pi / 180)) := by
    apply Real.cos_nonneg_of_neg_pi_div_two_le_of_le <;> nlinarith
  refine ⟨mul_nonneg (mul_nonneg q9 hcos) h2.le, fun hp hd'' => ?_⟩
  have q9p : (0 : ℝ) < c.c_9 := by exact_mod_cast h9p hp
  have hcos' : 0 < Real.cos (g.dip * (Real.pi / 180)) := by
    apply Real.cos_pos_of_mem_Ioo
    constructor <;> nlinarith
  exact mul_pos (mul_pos q9p hcos') h2

theorem resp_hw {c : Row} (hc : c ∈ table) (g : Given) (k : Kind) (hv : 180 ≤ g.v) (p : ℝ)
    (hp : hngA c g * g.hngB k = p) :
    (0 ≤ p → (lnResp c (g.toIn { k with hw := false })).val ≤ (lnResp c (g.toIn { k with hw := true })).val) ∧
    (0 < p → (lnResp c (g.toIn { k with hw := false })).val < (lnResp c (g.toIn { k with hw := true })).val) ∧
    (p < 0 → (lnResp c (g.toIn { k with hw := true })).val < (lnResp c (g.toIn { k with hw := false })).val) := by
  have e1 := fHng_val c g { k with hw := true } rfl
  have e1' : hngA c g * g.hngB { k with hw := true } = p := hp
  have e2 : (fHng c (g.toIn { k with hw := false })).val = 0 := by simp [fHng, Given.toIn]
  have ez : ∀ b, g.effZ1 { k with hw := b } = g.effZ1 k := fun _ => rfl
  have eb : baseF c (g.toIn { k with hw := true }) = baseF c (g.toIn { k with hw := false }) := rfl
  have er : (lnRef c (g.toIn { k with hw := true })).val = (lnRef c (g.toIn { k with hw := false })).val + p := by
    rw [lnRef_val, lnRef_val, e1, e1', e2, eb]; ring
  rw [lnResp_val, lnResp_val, er, ez, ez]
  have m := respR_strictMono hc hv (g.effZ1 k).val (k.reg = .japan)
  exact ⟨fun h => m.monotone (by linarith), fun h => m (by linarith), fun h => m (by linarith)⟩

end CY14

/-- the entries of a scenario besides the numbers and `on_hanging_wall` -/
def CY14.SameSide (s s' : Scenario) : Prop :=
  (∀ k ∈ ["mechanism", "region", "vs_source"], s'.get k = s.get k) ∧
    ¬ (s.get "on_hanging_wall").isOn ∧ (s'.get "on_hanging_wall").isOn

theorem CY14.SameSide.kinds {s s' : Scenario} (h : CY14.SameSide s s') :
    CY14.kindOf s = { CY14.kindOf s with hw := false } ∧ CY14.kindOf s' = { CY14.kindOf s with hw := true } := by
  obtain ⟨hk, w1, w2⟩ := h
  simp only [List.forall_mem_cons] at hk
  obtain ⟨k1, k2, k3, -⟩ := hk
  exact ⟨by simp [CY14.kindOf, w1], by simp [CY14.kindOf, k1, k2, k3, w2]⟩

/-- Chiou & Youngs (2014): what setting `on_hanging_wall` does depends on the distances alone.
If the depth of the top of the rupture (given or estimated) and `dist_jb` are compatible with
`dist_rup`, up to 1 km, no ordinate is lowered, and every ordinate up to a period of 4 s, PGA and
PGV is strictly raised for a dipping rupture.  If they are not, every one of those ordinates is
strictly lowered. -/
theorem C96_cy14 (s s' : Scenario) (g : CY14.Given) (h : CY14.Source s g) (h' : CY14.Source s' g)
    (hk : CY14.SameSide s s') (hx : 0 ≤ g.x) (hd : 0 ≤ g.dip ∧ g.dip ≤ 90) (hr : 0 ≤ g.rup) (hv : 180 ≤ g.v) :
    ∃ o o', Gives CY14.cls s o ∧ Gives CY14.cls s' o' ∧ o.gmm.lnResp.length = 26 ∧
      (Real.sqrt (g.jb ^ 2 + (g.effTor (CY14.kindOf s)).val ^ 2) ≤ g.rup + 1 →
        List.Forall₂ F.NotAbove o'.gmm.lnResp o.gmm.lnResp) ∧
      ∀ i, (hi : i < CY14.table.length) → CY14.table[i].period ≤ 4 → g.dip < 90 →
        (Real.sqrt (g.jb ^ 2 + (g.effTor (CY14.kindOf s)).val ^ 2) < g.rup + 1 →
          F.Drops (o'.gmm.lnResp.getD i F.nan) (o.gmm.lnResp.getD i F.nan)) ∧
        (g.rup + 1 < Real.sqrt (g.jb ^ 2 + (g.effTor (CY14.kindOf s)).val ^ 2) →
          F.Drops (o.gmm.lnResp.getD i F.nan) (o'.gmm.lnResp.getD i F.nan)) := by
  obtain ⟨e1, e2⟩ := hk.kinds
  have g1 := CY14.gives h
  have g2 := CY14.gives h'
  rw [e1] at g1
  rw [e2] at g2
  set k := CY14.kindOf s
  have hv0 : 0 < g.v := by linarith
  have hr1 : 0 < g.rup + 1 := by linarith
  have ok : ∀ c ∈ CY14.table, (CY14.lnResp c (g.toIn { k with hw := true })).ok ∧
      (CY14.lnResp c (g.toIn { k with hw := false })).ok := fun c hc =>
    ⟨CY14.lnResp_ok hc hr hv0 _, CY14.lnResp_ok hc hr hv0 _⟩
  refine ⟨_, _, g1, g2, by simp [CY14.out, CY14.table_length], ?_, ?_⟩
  · intro hs
    simp only [CY14.out]
    refine forall₂_map fun c hc => ⟨(ok c hc).1, (ok c hc).2, (CY14.resp_hw hc g k hv _ rfl).1 ?_⟩
    refine mul_nonneg (CY14.hngA_nonneg hc hx hd.1 hd.2).1 ?_
    unfold CY14.Given.hngB
    rw [sub_nonneg, div_le_one hr1]
    exact hs
  · intro i hi hp hd'
    have hc : CY14.table[i] ∈ CY14.table := List.getElem_mem hi
    have hA := (CY14.hngA_nonneg hc hx hd.1 hd.2).2 hp hd'
    obtain ⟨-, r2, r3⟩ := CY14.resp_hw hc g k hv _ rfl
    simp only [CY14.out, getD_row _ _ hi]
    refine ⟨fun hs => ⟨(ok _ hc).1, (ok _ hc).2, r2 (mul_pos hA ?_)⟩,
      fun hs => ⟨(ok _ hc).2, (ok _ hc).1, r3 (mul_neg_of_pos_of_neg hA ?_)⟩⟩
    · unfold CY14.Given.hngB
      rw [sub_pos, div_lt_one hr1]
      exact hs
    · unfold CY14.Given.hngB
      rw [sub_neg, one_lt_div hr1]
      exact hs

/-! ## CB14 -/

namespace CB14

/-- factors of the hanging-wall term that do not depend on the period -/
noncomputable def Given.common (g : Given) (mech : Mech) : ℝ :=
  (fHngRrup (F.ofReal g.rup) (F.ofReal g.jb)).val * (fHngZ (g.effTor mech)).val * ((90 - g.dip) / 45)

/-- horizontal extent of the rupture -/
noncomputable def Given.extent (g : Given) (mech : Mech) : ℝ :=
  (g.effWidth mech).val * Real.cos (g.dip * (Real.pi / 180))

/-- the factor that depends on `dist_x` -/
noncomputable def rxR (c : Row) (m x r1 : ℝ) : ℝ :=
  if x < 0 then 0 else if x ≤ r1 then c.h_1 + c.h_2 * (x / r1) + c.h_3 * (x / r1) ^ 2
  else max 0 (c.h_4 + c.h_5 * ((x - r1) / (62 * m - 350 - r1)) + c.h_6 * ((x - r1) / (62 * m - 350 - r1)) ^ 2)

/-- the factor that depends on magnitude -/
noncomputable def mgR (c : Row) (m : ℝ) : ℝ :=
  if m ≤ 5.5 then 0 else min (m - 5.5) 1 * (1 + c.a_2 * (m - 6.5))

/-- the hanging-wall term -/
noncomputable def hngR (c : Row) (g : Given) (mech : Mech) : ℝ :=
  c.c_10 * rxR c g.mag g.x (g.extent mech) * mgR c g.mag * g.common mech

theorem hng_val (c : Row) (g : Given) (mech : Mech) (reg : Reg) :
    (fHng c (g.toIn mech reg)).val = hngR c g mech := by
  have e1 : (fHngRx c (F.ofReal g.mag) (F.ofReal g.x) (F.ofReal g.dip) (g.effWidth mech)).val =
      rxR c g.mag g.x (g.extent mech) := by
    simp only [fHngRx, rxR, Given.extent, fsimp]
    by_cases h1 : g.x < 0 <;> by_cases h2 : g.x ≤ (g.effWidth mech).val * Real.cos (g.dip * (Real.pi / 180)) <;>
      simp only [h1, h2, if_true, if_false]
  have e2 : (fHngM c (F.ofReal g.mag)).val = mgR c g.mag := by
    simp only [fHngM, mgR, fsimp]
  simp only [fHng, hngR, Given.common, Given.toIn, F.val_mul, e1, e2]
  simp only [fsimp]
  ring

/-- moving the site changes only the hanging-wall term -/
theorem rest_x (c : Row) (g : Given) (hx : g.x < 0) (mech : Mech) (reg : Reg) (x : ℝ) :
    (rest c ({ g with x := x }.toIn mech reg)).val = (rest c (g.toIn mech reg)).val +
      hngR c { g with x := x } mech := by
  have h1 := hng_val c g mech reg
  have h2 := hng_val c { g with x := x } mech reg
  have h0 : hngR c g mech = 0 := by
    simp only [hngR, rxR, hx, if_true]; ring
  have e : ∀ g' : Given, (rest c (g'.toIn mech reg)).val = (fMag c (F.ofReal g'.mag)).val +
      (fDis c (F.ofReal g'.mag) (F.ofReal g'.rup)).val + (fFlt c (F.ofReal g'.mag) mech).val +
      (fHng c (g'.toIn mech reg)).val + (fHyp c (F.ofReal g'.mag) (g'.effHyp mech)).val +
      (fDip c (F.ofReal g'.mag) (F.ofReal g'.dip)).val + (fAtn c (F.ofReal g'.rup) reg).val := fun g' => rfl
  rw [e, e, h1, h2, h0]
  have e3 : ({ g with x := x } : Given).effHyp mech = g.effHyp mech := rfl
  rw [e3]
  ring

theorem hw_rows : ∀ c ∈ table, 0 ≤ c.c_10 ∧ (c.period ≤ 4 → 0 < c.c_10) ∧ 0 < c.h_1 ∧ 0 < c.h_1 + c.h_2 / 2 ∧
    0 < c.h_1 + c.h_2 + c.h_3 ∧ 0 ≤ c.a_2 ∧ c.a_2 < 1 := by decide +kernel

/-- a quadratic with positive Bernstein coefficients is positive on the unit interval -/
theorem quad_pos {a b d u : ℝ} (h0 : 0 < a) (h1 : 0 < a + b / 2) (h2 : 0 < a + b + d) (hu : 0 ≤ u) (hu1 : u ≤ 1) :
    0 < a + b * u + d * u ^ 2 := by
  have e : a + b * u + d * u ^ 2 = a * (1 - u) ^ 2 + (a + b / 2) * (2 * u * (1 - u)) + (a + b + d) * u ^ 2 := by ring
  rw [e]
  have hv : 0 ≤ 1 - u := by linarith
  have t1 : 0 ≤ (a + b / 2) * (2 * u * (1 - u)) := by positivity
  rcases hu.eq_or_lt with rfl | hu0
  · norm_num; exact h0
  · have : 0 < (a + b + d) * u ^ 2 := by positivity
    have : 0 ≤ a * (1 - u) ^ 2 := by positivity
    linarith

theorem above_pos {c : Row} (hc : c ∈ table) (m : ℝ) {x r1 : ℝ} (hx : 0 ≤ x) (hr : x ≤ r1) (h0 : r1 ≠ 0) :
    0 < rxR c m x r1 := by
  obtain ⟨-, -, h1, h2, h3, -⟩ := hw_rows c hc
  have hr1 : 0 < r1 := lt_of_le_of_ne (hx.trans hr) h0.symm
  have q1 : (0 : ℝ) < c.h_1 := by exact_mod_cast h1
  have q2 : (0 : ℝ) < c.h_1 + c.h_2 / 2 := by
    have : (0 : ℝ) < ((c.h_1 + c.h_2 / 2 : ℚ) : ℝ) := by exact_mod_cast h2
    push_cast at this; exact this
  have q3 : (0 : ℝ) < c.h_1 + c.h_2 + c.h_3 := by exact_mod_cast h3
  simp only [rxR, not_lt.2 hx, if_false, hr, if_true]
  exact quad_pos q1 q2 q3 (div_nonneg hx hr1.le) ((div_le_one hr1).2 hr)

theorem rx_nonneg {c : Row} (hc : c ∈ table) (m : ℝ) {x r1 : ℝ} (h0 : 0 ≤ x → x ≤ r1 → r1 ≠ 0) :
    0 ≤ rxR c m x r1 := by
  by_cases hx : x < 0
  · simp [rxR, hx]
  · by_cases hr : x ≤ r1
    · exact (above_pos hc m (not_lt.1 hx) hr (h0 (not_lt.1 hx) hr)).le
    · simp only [rxR, hx, hr, if_false]
      exact le_max_left _ _

theorem mg_nonneg {c : Row} (hc : c ∈ table) (m : ℝ) : 0 ≤ mgR c m ∧ (5.5 < m → 0 < mgR c m) := by
  obtain ⟨-, -, -, -, -, h2, h3⟩ := hw_rows c hc
  have q2 : (0 : ℝ) ≤ c.a_2 := by exact_mod_cast h2
  have q3 : (c.a_2 : ℝ) < 1 := by exact_mod_cast h3
  unfold mgR
  split
  · exact ⟨le_rfl, fun h => absurd h (by linarith)⟩
  · rename_i h
    have hm : 5.5 < m := not_le.1 h
    have : 0 < min (m - 5.5) 1 * (1 + (c.a_2 : ℝ) * (m - 6.5)) := by
      refine mul_pos (lt_min (by linarith) one_pos) ?_
      nlinarith
    exact ⟨this.le, fun _ => this⟩

theorem common_nonneg {g : Given} {mech : Mech} (hr : 0 ≤ g.rup) (hj : g.jb ≤ g.rup) (hd : g.dip ≤ 90) :
    0 ≤ g.common mech ∧ (g.jb < g.rup → g.dip < 90 → (g.effTor mech).val ≤ 16.66 → 0 < g.common mech) := by
  have h1 : 0 ≤ (fHngRrup (F.ofReal g.rup) (F.ofReal g.jb)).val := by
    simp only [fHngRrup, fsimp]
    split
    · norm_num
    · exact div_nonneg (by linarith) hr
  have h2 : 0 ≤ (fHngZ (g.effTor mech)).val := by
    simp only [fHngZ, fsimp]
    split
    · exact le_rfl
    · rename_i h
      have := not_lt.1 h
      norm_num at this ⊢
      linarith
  unfold Given.common
  refine ⟨mul_nonneg (mul_nonneg h1 h2) (by linarith), fun hj' hd' ht => mul_pos (mul_pos ?_ ?_) (by linarith)⟩
  · simp only [fHngRrup, fsimp]
    split
    · norm_num
    · rename_i h
      exact div_pos (by linarith) (lt_of_le_of_ne hr (Ne.symm h))
  · simp only [fHngZ, fsimp]
    rw [if_neg (by linarith)]
    norm_num at ht ⊢
    linarith

theorem hng_nonneg {c : Row} (hc : c ∈ table) {g : Given} {mech : Mech} (hreg : Regular g mech) (hr : 0 ≤ g.rup)
    (hj : g.jb ≤ g.rup) (hd : g.dip ≤ 90) : 0 ≤ hngR c g mech := by
  obtain ⟨h10, -⟩ := hw_rows c hc
  have q10 : (0 : ℝ) ≤ c.c_10 := by exact_mod_cast h10
  exact mul_nonneg (mul_nonneg (mul_nonneg q10 (rx_nonneg hc _ fun h h' => (hreg.hw h).1 h'))
    (mg_nonneg hc _).1) (common_nonneg hr hj hd).1

/-- `surf_drop` with equality allowed -/
theorem surf_le {c : Row} (hc : c ∈ table) {s v0 v : ℝ} (hv0 : 0 < v0) (hv : v0 ≤ v) (hs0 : 0 ≤ s)
    (hs1 : s ≤ 1) (hs : s ^ 100 ≤ (v0 / c.k_1) ^ 59) {x x' y y' z : ℝ} (hx : x' ≤ x) (japan : Bool)
    (hy : y' - y + -(c.k_2 : ℝ) * ((1 - s) / (1 + s)) * (x - x') ≤ 0) :
    y' + surfR c v (Real.exp x') z japan ≤ y + surfR c v (Real.exp x) z japan := by
  refine le_of_forall_pos_lt_add fun ε hε => ?_
  have := surf_drop hc (y := y + ε) (y' := y') (z := z) hv0 hv hs0 hs1 hs hx japan (by linarith)
  linarith

/-- above the rupture, a row of short period against the amplified reference PGA -/
theorem above_good : ∀ c ∈ table, 400 < c.k_1 →
    ∃ n ∈ ([55, 56, 57, 59, 62, 68, 74, 79, 86, 92, 98] : List ℕ), ((n : ℚ) / 100) ^ 100 ≤ (400 / c.k_1) ^ 59 ∧
    2 * (-c.k_2 * ((1 - (n : ℚ) / 100) / (1 + (n : ℚ) / 100))) * (pgaRow.c_10 * (1 - pgaRow.a_2)) <
      c.c_10 * (1 - c.a_2) ∧
    2 * (-c.k_2 * ((1 - (n : ℚ) / 100) / (1 + (n : ℚ) / 100))) * (pgaRow.c_10 * pgaRow.a_2) < c.c_10 * c.a_2 ∧
    0 < 2 * c.h_1 - pgaRow.h_1 ∧ 0 < (2 * c.h_1 - pgaRow.h_1) + (2 * c.h_2 - pgaRow.h_2) / 2 ∧
    0 < (2 * c.h_1 - pgaRow.h_1) + (2 * c.h_2 - pgaRow.h_2) + (2 * c.h_3 - pgaRow.h_3) := by decide +kernel

end CB14

/-- Campbell & Bozorgnia (2014): the side of the rupture is the sign of `dist_x`.  Moving a site
from the up-dip side (`dist_x < 0`) to the down-dip side, with `dist_jb ≤ dist_rup`, lowers no
ordinate on rock (`v_s30` from 1100 m/s). -/
theorem C96_cb14_rock (s s' : Scenario) (g : CB14.Given) (x : ℝ) (hs : CB14.Source s g)
    (hs' : CB14.Source s' { g with x := x }) (hm : s'.get "mechanism" = s.get "mechanism")
    (hr : s'.get "region" = s.get "region") (hx : g.x < 0)
    (hreg : CB14.Regular g (CB14.mechOf (s.get "mechanism")))
    (hreg' : CB14.Regular { g with x := x } (CB14.mechOf (s.get "mechanism")))
    (hr0 : 0 ≤ g.rup) (hj : g.jb ≤ g.rup) (hd : g.dip ≤ 90) (hv : 1100 ≤ g.v) :
    ∃ o o', Gives CB14.cls s o ∧ Gives CB14.cls s' o' ∧ o.gmm.lnResp.length = 23 ∧
      List.Forall₂ F.NotAbove o'.gmm.lnResp o.gmm.lnResp := by
  have hv0 : 0 < g.v := by linarith
  refine ⟨_, _, CB14.gives hs hv0.ne', CB14.gives hs' hv0.ne', by simp [CB14.out, CB14.table_length], ?_⟩
  rw [hm, hr]
  set mech := CB14.mechOf (s.get "mechanism")
  set reg := CB14.regOf (s.get "region")
  simp only [CB14.out]
  refine forall₂_map fun c hc => ⟨CB14.resp_ok hc hreg' hv0 reg, CB14.resp_ok hc hreg hv0 reg, ?_⟩
  have e1 := CB14.resp_val c g mech reg
  have e2 := CB14.resp_val c { g with x := x } mech reg
  refine le_of_eq_of_le e1 (le_of_le_of_eq ?_ e2.symm)
  have d1 := CB14.rest_x c g hx mech reg x
  have k1 := CB14.hng_nonneg hc hreg' hr0 hj hd
  have ez : { g with x := x }.effZ25 reg = g.effZ25 reg := rfl
  rw [ez]
  have hk : (c.k_1 : ℝ) < g.v := by
    have : (c.k_1 : ℝ) < 1100 := by exact_mod_cast (CB14.row_facts c hc).2.1
    linarith
  have hq : ∀ p, CB14.siteR c g.v p = CB14.siteR c g.v 1 := fun p => CB14.siteR_rock hk p 1
  simp only [CB14.surfR, hq]
  linarith

/-- The same for PGA on every site from 150 m/s on; and PGA is strictly raised above the rupture
(`dist_x` not beyond its horizontal extent) when the magnitude exceeds 5.5, the rupture dips, its
top is not deeper than 16.66 km and `dist_jb < dist_rup`. -/
theorem C96_cb14_pga (s s' : Scenario) (g : CB14.Given) (x : ℝ) (hs : CB14.Source s g)
    (hs' : CB14.Source s' { g with x := x }) (hm : s'.get "mechanism" = s.get "mechanism")
    (hr : s'.get "region" = s.get "region") (hx : g.x < 0)
    (hreg : CB14.Regular g (CB14.mechOf (s.get "mechanism")))
    (hreg' : CB14.Regular { g with x := x } (CB14.mechOf (s.get "mechanism")))
    (hr0 : 0 ≤ g.rup) (hj : g.jb ≤ g.rup) (hd : g.dip ≤ 90) (hv : 150 ≤ g.v) :
    ∃ o o', Gives CB14.cls s o ∧ Gives CB14.cls s' o' ∧
      F.NotAbove (o'.gmm.lnResp.getD 21 F.nan) (o.gmm.lnResp.getD 21 F.nan) ∧
      (0 ≤ x → x ≤ g.extent (CB14.mechOf (s.get "mechanism")) → 5.5 < g.mag → g.jb < g.rup → g.dip < 90 →
        (g.effTor (CB14.mechOf (s.get "mechanism"))).val ≤ 16.66 →
        F.Drops (o'.gmm.lnResp.getD 21 F.nan) (o.gmm.lnResp.getD 21 F.nan)) := by
  have hv0 : 0 < g.v := by linarith
  refine ⟨_, _, CB14.gives hs hv0.ne', CB14.gives hs' hv0.ne', ?_⟩
  rw [hm, hr]
  set mech := CB14.mechOf (s.get "mechanism")
  set reg := CB14.regOf (s.get "region")
  have hc := CB14.pgaRow_mem
  have ok1 := CB14.resp_ok hc hreg' hv0 reg
  have ok2 := CB14.resp_ok hc hreg hv0 reg
  have e1 := CB14.resp_val CB14.pgaRow g mech reg
  have e2 := CB14.resp_val CB14.pgaRow { g with x := x } mech reg
  have d1 := CB14.rest_x CB14.pgaRow g hx mech reg x
  have k1 := CB14.hng_nonneg hc hreg' hr0 hj hd
  have ez : { g with x := x }.effZ25 reg = g.effZ25 reg := rfl
  rw [CB14.pgaRef_rest] at e1 e2
  rw [ez] at e2
  obtain ⟨p1, p2⟩ := CB14.pgaRow_facts
  refine ⟨⟨ok1, ok2, ?_⟩, ?_⟩
  · refine le_of_eq_of_le e1 (le_of_le_of_eq ?_ e2.symm)
    refine CB14.surf_le hc (s := 0.35) (by norm_num) hv (by norm_num) (by norm_num)
      (by rw [p1]; norm_num) (by linarith) _ ?_
    rw [p2]
    push_cast
    linarith
  · intro hx0 hxr hm5 hj' hd' ht
    refine ⟨ok1, ok2, ?_⟩
    refine lt_of_eq_of_lt e1 (lt_of_lt_of_eq ?_ e2.symm)
    have kp : 0 < CB14.hngR CB14.pgaRow { g with x := x } mech := by
      have a0 : 0 < CB14.rxR CB14.pgaRow g.mag x (g.extent mech) :=
        CB14.above_pos hc _ hx0 hxr ((hreg'.hw hx0).1 hxr)
      have a1 := (CB14.mg_nonneg hc g.mag).2 hm5
      have a2 := (CB14.common_nonneg (mech := mech) hr0 hj hd).2 hj' hd' ht
      have q10 : (0 : ℝ) < CB14.pgaRow.c_10 := by
        exact_mod_cast (CB14.hw_rows _ hc).2.1 (by decide +kernel)
      exact mul_pos (mul_pos (mul_pos q10 a0) a1) a2
    refine CB14.surf_drop hc (s := 0.35) (by norm_num) hv (by norm_num) (by norm_num)
      (by rw [p1]; norm_num) (by linarith) _ ?_
    rw [p2]
    push_cast
    linarith

/-- Above the rupture no ordinate is lowered on any site from 400 m/s on, soil nonlinearity
included. -/
theorem C96_cb14_above (s s' : Scenario) (g : CB14.Given) (x : ℝ) (hs : CB14.Source s g)
    (hs' : CB14.Source s' { g with x := x }) (hm : s'.get "mechanism" = s.get "mechanism")
    (hr : s'.get "region" = s.get "region") (hx : g.x < 0)
    (hreg : CB14.Regular g (CB14.mechOf (s.get "mechanism")))
    (hreg' : CB14.Regular { g with x := x } (CB14.mechOf (s.get "mechanism")))
    (hx0 : 0 ≤ x) (hxr : x ≤ g.extent (CB14.mechOf (s.get "mechanism")))
    (hr0 : 0 ≤ g.rup) (hj : g.jb ≤ g.rup) (hd : g.dip ≤ 90) (hv : 400 ≤ g.v) :
    ∃ o o', Gives CB14.cls s o ∧ Gives CB14.cls s' o' ∧ o.gmm.lnResp.length = 23 ∧
      List.Forall₂ F.NotAbove o'.gmm.lnResp o.gmm.lnResp := by
  have hv0 : 0 < g.v := by linarith
  refine ⟨_, _, CB14.gives hs hv0.ne', CB14.gives hs' hv0.ne', by simp [CB14.out, CB14.table_length], ?_⟩
  rw [hm, hr]
  set mech := CB14.mechOf (s.get "mechanism")
  set reg := CB14.regOf (s.get "region")
  simp only [CB14.out]
  refine forall₂_map fun c hc => ⟨CB14.resp_ok hc hreg' hv0 reg, CB14.resp_ok hc hreg hv0 reg, ?_⟩
  have e1 := CB14.resp_val c g mech reg
  have e2 := CB14.resp_val c { g with x := x } mech reg
  refine le_of_eq_of_le e1 (le_of_le_of_eq ?_ e2.symm)
  have d1 := CB14.rest_x c g hx mech reg x
  have d2 := CB14.rest_x CB14.pgaRow g hx mech reg x
  have k1 := CB14.hng_nonneg hc hreg' hr0 hj hd
  have k2 := CB14.hng_nonneg CB14.pgaRow_mem hreg' hr0 hj hd
  rw [CB14.pgaRef_rest, CB14.pgaRef_rest]
  have ez : { g with x := x }.effZ25 reg = g.effZ25 reg := rfl
  rw [ez]
  have hk' : (0 : ℝ) < c.k_1 := by exact_mod_cast (CB14.row_facts c hc).1
  by_cases hk4 : 400 < c.k_1
  · obtain ⟨n, hn, hs, a1, a2, b0, b1, b2⟩ := CB14.above_good c hc hk4
    have hn1 : n ≤ 100 := by
      simp only [List.mem_cons, List.not_mem_nil, or_false] at hn
      omega
    have hsn : ((n : ℝ) / 100) ^ 100 ≤ (400 / (c.k_1 : ℝ)) ^ 59 := by
      have : (((n : ℚ) / 100 : ℚ) : ℝ) ^ 100 ≤ ((400 / c.k_1 : ℚ) : ℝ) ^ 59 := by exact_mod_cast hs
      push_cast at this; exact this
    have hk2 : c.k_2 ≤ 0 := (CB14.row_facts c hc).2.2.2.2.2.2.2.2.2.2.2.2.2
    have hs1 : (n : ℚ) / 100 ≤ 1 := by
      rw [div_le_one (by norm_num)]
      exact_mod_cast hn1
    refine CB14.surf_le hc (s := (n : ℝ) / 100) (by norm_num) hv (by positivity) ?_ hsn ?_ _ ?_
    · rw [div_le_one (by norm_num)]; exact_mod_cast hn1
    · linarith
    · have eS : ∀ A B S : ℝ, A + S - (B + S) = A - B := fun A B S => by ring
      have key : -(c.k_2 : ℝ) * ((1 - (n : ℝ) / 100) / (1 + (n : ℝ) / 100)) *
          CB14.hngR CB14.pgaRow { g with x := x } mech ≤ CB14.hngR c { g with x := x } mech := by
        set q : ℚ := -c.k_2 * ((1 - (n : ℚ) / 100) / (1 + (n : ℚ) / 100)) with hq
        have eq1 : -(c.k_2 : ℝ) * ((1 - (n / 100 : ℝ)) / (1 + (n / 100 : ℝ))) = (q : ℝ) := by
          rw [hq]; push_cast; ring
        have hq0 : (0 : ℝ) ≤ q := by
          have : 0 ≤ q := by
            rw [hq]
            exact mul_nonneg (by linarith) (div_nonneg (by linarith) (by positivity))
          exact_mod_cast this
        rw [eq1]
        clear_value q
        have hr1 : 0 < g.extent mech := lt_of_le_of_ne (hx0.trans hxr) ((hreg'.hw hx0).1 hxr).symm
        have hu0 : 0 ≤ x / g.extent mech := div_nonneg hx0 hr1.le
        have hu1 : x / g.extent mech ≤ 1 := (div_le_one hr1).2 hxr
        have qb0 : (0 : ℝ) < 2 * c.h_1 - CB14.pgaRow.h_1 := by exact_mod_cast b0
        have qb1 : (0 : ℝ) < (2 * c.h_1 - CB14.pgaRow.h_1) + (2 * c.h_2 - CB14.pgaRow.h_2) / 2 := by
          have : (0 : ℝ) < (((2 * c.h_1 - CB14.pgaRow.h_1) + (2 * c.h_2 - CB14.pgaRow.h_2) / 2 : ℚ) : ℝ) := by
            exact_mod_cast b1
          push_cast at this; exact this
        have qb2 : (0 : ℝ) < (2 * c.h_1 - CB14.pgaRow.h_1) + (2 * c.h_2 - CB14.pgaRow.h_2) +
            (2 * c.h_3 - CB14.pgaRow.h_3) := by exact_mod_cast b2
        have hrx : ∀ c : CB14.Row, CB14.rxR c g.mag x (g.extent mech) =
            c.h_1 + c.h_2 * (x / g.extent mech) + c.h_3 * (x / g.extent mech) ^ 2 := fun c => by
          simp only [CB14.rxR, not_lt.2 hx0, if_false, hxr, if_true]
        have hquad := CB14.quad_pos qb0 qb1 qb2 hu0 hu1
        have hR : CB14.rxR CB14.pgaRow g.mag x (g.extent mech) ≤ 2 * CB14.rxR c g.mag x (g.extent mech) := by
          rw [hrx, hrx]; linarith
        have hRp : 0 ≤ CB14.rxR c g.mag x (g.extent mech) :=
          (CB14.above_pos hc _ hx0 hxr hr1.ne').le
        have hK := (CB14.common_nonneg (mech := mech) hr0 hj hd).1
        have qa1 : 2 * (q : ℝ) * (CB14.pgaRow.c_10 * (1 - CB14.pgaRow.a_2)) < c.c_10 * (1 - c.a_2) := by
          exact_mod_cast a1
        have qa2 : 2 * (q : ℝ) * (CB14.pgaRow.c_10 * CB14.pgaRow.a_2) < c.c_10 * c.a_2 := by exact_mod_cast a2
        have hM : 2 * (q : ℝ) * (CB14.pgaRow.c_10 * CB14.mgR CB14.pgaRow g.mag) ≤ c.c_10 * CB14.mgR c g.mag := by
          unfold CB14.mgR
          split
          · simp
          · rename_i h5
            have h5' : 0 ≤ g.mag - 5.5 := by linarith [not_le.1 h5]
            have hmin : 0 ≤ min (g.mag - 5.5) 1 := le_min h5' zero_le_one
            have l : 2 * (q : ℝ) * (CB14.pgaRow.c_10 * (1 + CB14.pgaRow.a_2 * (g.mag - 6.5))) ≤
                c.c_10 * (1 + c.a_2 * (g.mag - 6.5)) := by
              have := mul_le_mul_of_nonneg_right qa2.le h5'
              linarith
            have := mul_le_mul_of_nonneg_left l hmin
            linarith
        have q10 : (0 : ℝ) ≤ CB14.pgaRow.c_10 := by exact_mod_cast (CB14.hw_rows _ CB14.pgaRow_mem).1
        have hmp := (CB14.mg_nonneg CB14.pgaRow_mem g.mag).1
        have t1 : (q : ℝ) * (CB14.pgaRow.c_10 * CB14.rxR CB14.pgaRow g.mag x (g.extent mech) *
            CB14.mgR CB14.pgaRow g.mag) ≤ c.c_10 * CB14.rxR c g.mag x (g.extent mech) * CB14.mgR c g.mag := by
          have u1 := mul_le_mul_of_nonneg_left hR (mul_nonneg hq0 (mul_nonneg q10 hmp))
          have u2 := mul_le_mul_of_nonneg_right hM hRp
          linarith
        have := mul_le_mul_of_nonneg_right t1 hK
        have f : ∀ c : CB14.Row, CB14.hngR c { g with x := x } mech = c.c_10 *
          CB14.rxR c g.mag x (g.extent mech) * CB14.mgR c g.mag * g.common mech := fun _ => rfl
        rw [f, f]
        linarith
      rw [eS, d1, d2]
      linarith
  · have hk4' : (c.k_1 : ℝ) ≤ g.v := by
      have : (c.k_1 : ℝ) ≤ 400 := by exact_mod_cast not_lt.1 hk4
      linarith
    refine CB14.surf_le hc (s := 1) (v0 := c.k_1) hk' hk4' (by norm_num) (by norm_num)
      (by rw [div_self hk'.ne']; norm_num) ?_ _ ?_
    · linarith
    · norm_num; linarith

namespace CB14

/-- the row of 0.5 s -/
def halfSec : Row := table[11]'(by rw [table_length]; norm_num)

theorem halfSec_mem : halfSec ∈ table := List.getElem_mem _

theorem halfSec_facts : halfSec.period = 0.5 ∧ halfSec.k_1 = 457 ∧ halfSec.k_2 < 0 ∧ halfSec.h_4 = 1 ∧
    halfSec.h_5 = -0.407 ∧ halfSec.h_6 = -0.281 ∧ pgaRow.h_4 = 1 ∧ pgaRow.h_5 = -0.337 ∧
    pgaRow.h_6 = -0.27 ∧ 0 < pgaRow.c_10 := by decide +kernel

/-- on soil a stronger reference motion is amplified less -/
theorem siteR_anti {c : Row} (hk : 0 < c.k_1) (hk2 : c.k_2 < 0) {v p p' : ℝ} (hv : 0 < v) (hvk : v < c.k_1)
    (hp : 0 < p) (hpp : p < p') : siteR c v p' < siteR c v p := by
  have hk' : (0 : ℝ) < c.k_1 := by exact_mod_cast hk
  have hk2' : (c.k_2 : ℝ) < 0 := by exact_mod_cast hk2
  have hr0 : 0 < v / c.k_1 := div_pos hv hk'
  have hr1 : v / c.k_1 < 1 := (div_lt_one hk').2 hvk
  have ha : (v / c.k_1) ^ (1.18 : ℝ) < 1 := Real.rpow_lt_one hr0.le hr1 (by norm_num)
  have ha0 : 0 < (v / c.k_1) ^ (1.18 : ℝ) := Real.rpow_pos_of_pos hr0 _
  simp only [siteR, hvk.le, if_true]
  set a := (v / c.k_1) ^ (1.18 : ℝ)
  clear_value a
  have key : Real.log (p + 1.88 * a) - Real.log (p + 1.88) < Real.log (p' + 1.88 * a) - Real.log (p' + 1.88) := by
    rw [← Real.log_div (by positivity) (by positivity), ← Real.log_div (by linarith) (by linarith)]
    apply Real.log_lt_log (by positivity)
    rw [div_lt_div_iff₀ (by positivity) (by linarith)]
    nlinarith
  nlinarith

end CB14

/-- Beyond the rupture the taper of the reference PGA ends later than that of other periods: with
`dist_x` in that strip, on any site below 457 m/s, moving to the hanging wall strictly *lowers* the
ordinate of 0.5 s. -/
theorem C96_cb14_beyond_lowers (s s' : Scenario) (g : CB14.Given) (x : ℝ) (hs : CB14.Source s g)
    (hs' : CB14.Source s' { g with x := x }) (hm : s'.get "mechanism" = s.get "mechanism")
    (hr : s'.get "region" = s.get "region") (hx : g.x < 0)
    (hreg : CB14.Regular g (CB14.mechOf (s.get "mechanism")))
    (hreg' : CB14.Regular { g with x := x } (CB14.mechOf (s.get "mechanism")))
    (hx0 : 0 ≤ x) (hxr : g.extent (CB14.mechOf (s.get "mechanism")) < x)
    (hu : 1.3 ≤ (x - g.extent (CB14.mechOf (s.get "mechanism"))) /
      (62 * g.mag - 350 - g.extent (CB14.mechOf (s.get "mechanism"))))
    (hu' : (x - g.extent (CB14.mechOf (s.get "mechanism"))) /
      (62 * g.mag - 350 - g.extent (CB14.mechOf (s.get "mechanism"))) ≤ 1.39)
    (hm5 : 5.5 < g.mag) (hr0 : 0 ≤ g.rup) (hj : g.jb < g.rup) (hd : g.dip < 90)
    (ht : (g.effTor (CB14.mechOf (s.get "mechanism"))).val ≤ 16.66) (hv : 0 < g.v) (hv' : g.v < 457) :
    ∃ o o', Gives CB14.cls s o ∧ Gives CB14.cls s' o' ∧
      F.Drops (o.gmm.lnResp.getD 11 F.nan) (o'.gmm.lnResp.getD 11 F.nan) := by
  refine ⟨_, _, CB14.gives hs hv.ne', CB14.gives hs' hv.ne', ?_⟩
  rw [hm, hr]
  set mech := CB14.mechOf (s.get "mechanism")
  set reg := CB14.regOf (s.get "region")
  have hc := CB14.halfSec_mem
  refine ⟨CB14.resp_ok hc hreg hv reg, CB14.resp_ok hc hreg' hv reg, ?_⟩
  have e1 := CB14.resp_val CB14.halfSec g mech reg
  have e2 := CB14.resp_val CB14.halfSec { g with x := x } mech reg
  refine lt_of_eq_of_lt e2 (lt_of_lt_of_eq ?_ e1.symm)
  have d1 := CB14.rest_x CB14.halfSec g hx mech reg x
  have d2 := CB14.rest_x CB14.pgaRow g hx mech reg x
  obtain ⟨-, f1, f2, f4, f5, f6, p4, p5, p6, p10⟩ := CB14.halfSec_facts
  have hrx : ∀ c : CB14.Row, CB14.rxR c g.mag x (g.extent mech) = max 0 (c.h_4 + c.h_5 * ((x - g.extent mech) /
      (62 * g.mag - 350 - g.extent mech)) + c.h_6 * ((x - g.extent mech) / (62 * g.mag - 350 - g.extent mech)) ^ 2) :=
    fun c => by simp only [CB14.rxR, not_lt.2 hx0, if_false, not_le.2 hxr]
  have r1 := hrx CB14.halfSec
  have r2 := hrx CB14.pgaRow
  rw [f4, f5, f6] at r1
  rw [p4, p5, p6] at r2
  set u := (x - g.extent mech) / (62 * g.mag - 350 - g.extent mech)
  clear_value u
  push_cast at r1 r2
  have z1 : CB14.hngR CB14.halfSec { g with x := x } mech = 0 := by
    have e : CB14.hngR CB14.halfSec { g with x := x } mech = CB14.halfSec.c_10 *
      CB14.rxR CB14.halfSec g.mag x (g.extent mech) * CB14.mgR CB14.halfSec g.mag * g.common mech := rfl
    rw [e, r1, max_eq_left (by nlinarith)]
    ring
  have z2 : 0 < CB14.hngR CB14.pgaRow { g with x := x } mech := by
    have e : CB14.hngR CB14.pgaRow { g with x := x } mech = CB14.pgaRow.c_10 *
      CB14.rxR CB14.pgaRow g.mag x (g.extent mech) * CB14.mgR CB14.pgaRow g.mag * g.common mech := rfl
    rw [e]
    have q10 : (0 : ℝ) < CB14.pgaRow.c_10 := by exact_mod_cast p10
    refine mul_pos (mul_pos (mul_pos q10 ?_) ((CB14.mg_nonneg CB14.pgaRow_mem _).2 hm5))
      ((CB14.common_nonneg hr0 hj.le hd.le).2 hj hd ht)
    rw [r2]
    exact lt_max_of_lt_right (by nlinarith)
  have ez : { g with x := x }.effZ25 reg = g.effZ25 reg := rfl
  rw [ez, d1, z1, CB14.pgaRef_rest, CB14.pgaRef_rest, d2]
  have hvk : g.v < (CB14.halfSec.k_1 : ℝ) := by rw [f1]; exact_mod_cast hv'
  have := CB14.siteR_anti (c := CB14.halfSec) (by rw [f1]; norm_num) f2 hv hvk
    (p := Real.exp ((CB14.rest CB14.pgaRow (g.toIn mech reg)).val +
      (CB14.siteTerm CB14.pgaRow none 1100 0 (reg = .japan)).val))
    (p' := Real.exp ((CB14.rest CB14.pgaRow (g.toIn mech reg)).val +
      CB14.hngR CB14.pgaRow { g with x := x } mech + (CB14.siteTerm CB14.pgaRow none 1100 0 (reg = .japan)).val))
    (Real.exp_pos _) (Real.exp_lt_exp.2 (by linarith))
  unfold CB14.surfR
  linarith

/-! ### Instances -/

namespace ASK14

/-- a reverse-faulting scenario with the site 5 km down dip of the top edge -/
noncomputable def exH (hw : Bool) : Scenario :=
  ⟨[("mag", .num 7), ("dist_rup", .num 6), ("dist_jb", .num 0), ("dist_x", .num 5), ("dip", .num 60),
    ("width", .num 15), ("depth_tor", .num 1), ("v_s30", .num 300), ("mechanism", .str "RS"),
    ("region", .str "california"), ("on_hanging_wall", .bool hw)], []⟩
@[inherit_doc exH]
noncomputable def exHG : Given :=
  { mag := 7, rup := 6, jb := 0, dip := 60, v := 300, x := some 5, width := some 15, tor := some 1 }

theorem exH_source (hw : Bool) : Source (exH hw) exHG := by
  constructor <;> simp [exH, exHG, Scenario.get, Dict.get?, Val.ofOpt]

theorem cos60 : Real.cos (60 * (Real.pi / 180)) = 1 / 2 := by
  rw [show 60 * (Real.pi / 180) = Real.pi / 3 by ring, Real.cos_pi_div_three]

theorem exH_extent : exHG.extent = 7.5 := by
  simp only [Given.extent, Given.effWidth, exHG, F.orEst_some, F.val_ofReal, cos60]
  norm_num

end ASK14

/-- both parts of the theorem apply -/
example : ∃ o o', Gives ASK14.cls (ASK14.exH false) o ∧ Gives ASK14.cls (ASK14.exH true) o' ∧
    F.Drops (o'.gmm.lnResp.getD 22 F.nan) (o.gmm.lnResp.getD 22 F.nan) := by
  obtain ⟨o, o', g1, g2, -, -, h⟩ := C96_ask14 (ASK14.exH false) (ASK14.exH true) ASK14.exHG 5
    (ASK14.exH_source false) (ASK14.exH_source true)
    (by simp [ASK14.SameSide, ASK14.exH, Scenario.get, Dict.get?, Val.isOn]) rfl (by norm_num)
    (by norm_num [ASK14.exHG]) (by intro w hw; simp [ASK14.exHG] at hw; linarith)
    (by simp [ASK14.exHG]) (by norm_num [ASK14.exHG])
  refine ⟨o, o', g1, g2, h (by norm_num [ASK14.exHG]) (by rw [ASK14.exH_extent]; norm_num) ?_ rfl
    (by norm_num [ASK14.exHG]) 22 (by rw [ASK14.table_length]; norm_num) (by decide +kernel)⟩
  simp only [ASK14.Given.effTor, ASK14.exHG, F.orEst_some, F.val_ofReal]
  norm_num

namespace CY14

/-- a reverse-faulting scenario; `jb` distinguishes compatible from incompatible distances -/
noncomputable def exH (jb : ℝ) (hw : Bool) : Scenario :=
  ⟨[("mag", .num 7), ("dist_rup", .num 6), ("dist_jb", .num jb), ("dist_x", .num 5), ("dip", .num 60),
    ("depth_tor", .num 1), ("v_s30", .num 300), ("mechanism", .str "RS"),
    ("region", .str "california"), ("on_hanging_wall", .bool hw)], []⟩
@[inherit_doc exH]
noncomputable def exHG (jb : ℝ) : Given :=
  { mag := 7, rup := 6, jb := jb, x := 5, dip := 60, v := 300, tor := some 1 }

theorem exH_source (jb : ℝ) (hw : Bool) : Source (exH jb hw) (exHG jb) := by
  constructor <;> simp [exH, exHG, Scenario.get, Dict.get?, Val.ofOpt]

end CY14

namespace CY14

theorem exH_side (jb : ℝ) : SameSide (exH jb false) (exH jb true) := by
  refine ⟨?_, by simp [exH, Scenario.get, Dict.get?, Val.isOn], by simp [exH, Scenario.get, Dict.get?, Val.isOn]⟩
  intro k hk
  simp only [List.mem_cons, List.not_mem_nil, or_false] at hk
  rcases hk with rfl | rfl | rfl <;> simp [exH, Scenario.get, Dict.get?]

theorem pga24 : ∃ h : 24 < table.length, table[24].period ≤ 4 := ⟨by rw [table_length]; norm_num, by decide +kernel⟩

end CY14

/-- the distances agree -/
example : ∃ o o', Gives CY14.cls (CY14.exH 0 false) o ∧ Gives CY14.cls (CY14.exH 0 true) o' ∧
      F.Drops (o'.gmm.lnResp.getD 24 F.nan) (o.gmm.lnResp.getD 24 F.nan) := by
  obtain ⟨o, o', g1, g2, -, -, h⟩ := C96_cy14 (CY14.exH 0 false) (CY14.exH 0 true) (CY14.exHG 0)
    (CY14.exH_source 0 false) (CY14.exH_source 0 true) (CY14.exH_side 0) (by norm_num [CY14.exHG])
    (by norm_num [CY14.exHG]) (by norm_num [CY14.exHG]) (by norm_num [CY14.exHG])
  obtain ⟨p1, p2⟩ := CY14.pga24
  refine ⟨o, o', g1, g2, (h 24 p1 p2 (by norm_num [CY14.exHG])).1 ?_⟩
  simp only [CY14.Given.effTor, CY14.exHG, F.orEst_some, F.val_ofReal]
  norm_num

/-- they do not -/
example : ∃ o o', Gives CY14.cls (CY14.exH 8 false) o ∧ Gives CY14.cls (CY14.exH 8 true) o' ∧
      F.Drops (o.gmm.lnResp.getD 24 F.nan) (o'.gmm.lnResp.getD 24 F.nan) := by
  obtain ⟨o, o', g1, g2, -, -, h⟩ := C96_cy14 (CY14.exH 8 false) (CY14.exH 8 true) (CY14.exHG 8)
    (CY14.exH_source 8 false) (CY14.exH_source 8 true) (CY14.exH_side 8) (by norm_num [CY14.exHG])
    (by norm_num [CY14.exHG]) (by norm_num [CY14.exHG]) (by norm_num [CY14.exHG])
  obtain ⟨p1, p2⟩ := CY14.pga24
  refine ⟨o, o', g1, g2, (h 24 p1 p2 (by norm_num [CY14.exHG])).2 ?_⟩
  simp only [CY14.Given.effTor, CY14.exHG, F.orEst_some, F.val_ofReal]
  apply Real.lt_sqrt_of_sq_lt
  norm_num

namespace CB14

/-- a reverse-faulting scenario of magnitude 6 with everything about the rupture given -/
noncomputable def exH (x : ℝ) : Scenario :=
  ⟨[("mag", .num 6), ("dist_rup", .num 6), ("dist_jb", .num 0), ("dist_x", .num x), ("dip", .num 60),
    ("width", .num 10), ("depth_tor", .num 1), ("depth_hyp", .num 8), ("v_s30", .num 420),
    ("mechanism", .str "RS"), ("region", .str "california")], []⟩
@[inherit_doc exH]
noncomputable def exHG (x : ℝ) : Given :=
  { mag := 6, rup := 6, jb := 0, x := x, dip := 60, v := 420, width := some 10, tor := some 1, hyp := some 8 }

theorem exH_source (x : ℝ) : Source (exH x) (exHG x) := by
  constructor <;> simp [exH, exHG, Scenario.get, Dict.get?, Val.ofOpt]

theorem exH_extent (x : ℝ) (mech : Mech) : (exHG x).extent mech = 5 := by
  simp only [Given.extent, Given.effWidth, exHG, F.orEst_some, F.val_ofReal, ASK14.cos60]
  norm_num

theorem exH_tor (x : ℝ) (mech : Mech) : ((exHG x).effTor mech).val = 1 := by
  simp only [Given.effTor, exHG, F.orEst_some, F.val_ofReal]

theorem exH_regular (x : ℝ) (mech : Mech) : Regular (exHG x) mech := by
  refine ⟨fun e => by simp [exHG] at e, fun _ => ⟨fun _ => ?_, fun _ => ?_⟩⟩
  · have := exH_extent x mech
    unfold Given.extent at this
    rw [this]; norm_num
  · have := exH_extent x mech
    unfold Given.extent at this
    rw [this]; norm_num [exHG]

end CB14

example := C96_cb14_above (CB14.exH (-3)) (CB14.exH 3) (CB14.exHG (-3)) 3 (CB14.exH_source _) (CB14.exH_source _)
  rfl rfl (by norm_num [CB14.exHG]) (CB14.exH_regular _ _) (CB14.exH_regular 3 _) (by norm_num)
  (by rw [CB14.exH_extent]; norm_num) (by norm_num [CB14.exHG]) (by norm_num [CB14.exHG])
  (by norm_num [CB14.exHG]) (by norm_num [CB14.exHG])
example : ∃ o o', Gives CB14.cls (CB14.exH (-3)) o ∧ Gives CB14.cls (CB14.exH 3) o' ∧
    F.Drops (o'.gmm.lnResp.getD 21 F.nan) (o.gmm.lnResp.getD 21 F.nan) := by
  obtain ⟨o, o', g1, g2, -, h⟩ := C96_cb14_pga (CB14.exH (-3)) (CB14.exH 3) (CB14.exHG (-3)) 3
    (CB14.exH_source _) (CB14.exH_source _)
    rfl rfl (by norm_num [CB14.exHG]) (CB14.exH_regular _ _) (CB14.exH_regular 3 _)
    (by norm_num [CB14.exHG]) (by norm_num [CB14.exHG]) (by norm_num [CB14.exHG]) (by norm_num [CB14.exHG])
  exact ⟨o, o', g1, g2, h (by norm_num) (by rw [CB14.exH_extent]; norm_num) (by norm_num [CB14.exHG])
    (by norm_num [CB14.exHG]) (by norm_num [CB14.exHG]) (by rw [CB14.exH_tor]; norm_num)⟩
/-- 27.8 km down dip of the top edge -/
example := C96_cb14_beyond_lowers (CB14.exH (-3)) (CB14.exH 27.8) (CB14.exHG (-3)) 27.8 (CB14.exH_source _)
  (CB14.exH_source _)
  rfl rfl (by norm_num [CB14.exHG]) (CB14.exH_regular _ _) (CB14.exH_regular 27.8 _) (by norm_num)
  (by rw [CB14.exH_extent]; norm_num) (by rw [CB14.exH_extent]; norm_num [CB14.exHG])
  (by rw [CB14.exH_extent]; norm_num [CB14.exHG]) (by norm_num [CB14.exHG]) (by norm_num [CB14.exHG])
  (by norm_num [CB14.exHG]) (by norm_num [CB14.exHG]) (by rw [CB14.exH_tor]; norm_num)
  (by norm_num [CB14.exHG]) (by norm_num [CB14.exHG])
