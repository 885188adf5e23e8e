import Verif.Props.HangingWall
import Verif.Props.BSSA14Mag
import Verif.Props.I14
import Verif.Props.AKB14Mag

/-!
# C97: the style of faulting

What changes when only `mechanism` changes.
-/

open Bounds

set_option linter.unusedSimpArgs false

/-! ## ASK14 -/

namespace ASK14

theorem mech_rows : ∀ c ∈ table, c.a11 = 0 ∧ c.a12 < 0 := by decide +kernel

theorem base_mech (c : Row) (g : Given) (k : Kind) (mech : Mech) :
    (baseF c (g.toIn { k with mech := mech })).val = (baseF c (g.toIn { k with mech := .other })).val +
      (fMech c (F.ofReal g.mag) mech).val := by
  rw [base_val, base_val]
  have e : f11 c (g.toIn { k with mech := mech }) = f11 c (g.toIn { k with mech := .other }) := rfl
  rw [e]
  simp only [fMech, fsimp]
  ring

theorem fMech_rs {c : Row} (hc : c ∈ table) (m : F) (hm : m.ok) : fMech c m .rs = fMech c m .other := by
  have h := (mech_rows c hc).1
  ext
  · simp [fMech, h]
  · simp [fMech, hm]

theorem out_rs (g : Given) (k : Kind) :
    out (g.toIn { k with mech := .rs }) = out (g.toIn { k with mech := .other }) := by
  have e0 : ∀ c ∈ table, ∀ v ref, lnRespAt c (g.toIn { k with mech := .rs }) v ref =
      lnRespAt c (g.toIn { k with mech := .other }) v ref := by
    intro c hc v ref
    have := fMech_rs hc (F.ofReal g.mag) trivial
    have e : lnRespAt c (g.toIn { k with mech := .rs }) v ref =
      f1 c (F.ofReal g.mag) (F.ofReal g.rup) + (if k.hw then f4 c (g.toIn { k with mech := .other }) else 0) +
        f6 c g.effTor + fMech c (F.ofReal g.mag) .rs + f11 c (g.toIn { k with mech := .other }) +
        freg c v (F.ofReal g.rup) k.reg + siteTerm c ref v (g.z1.map F.ofReal) (k.reg = .japan) := rfl
    rw [e, this]
    rfl
  have e1 : ∀ c ∈ table, refMotion c (g.toIn { k with mech := .rs }) =
      refMotion c (g.toIn { k with mech := .other }) := fun c hc => by
    unfold refMotion; rw [e0 c hc]
  have e2 : ∀ c ∈ table, deriv c (g.toIn { k with mech := .rs }) =
      deriv c (g.toIn { k with mech := .other }) := fun c hc => by
    unfold deriv; rw [e1 c hc]; rfl
  have e3 : ∀ c ∈ table, tau c (g.toIn { k with mech := .rs }) =
      tau c (g.toIn { k with mech := .other }) := fun c hc => by
    unfold tau; rw [e2 c hc]; rfl
  have e4 : ∀ c ∈ table, phi c (g.toIn { k with mech := .rs }) =
      phi c (g.toIn { k with mech := .other }) := fun c hc => by
    unfold phi; rw [e2 c hc]; rfl
  unfold out
  congr 1
  · congr 1
    · exact List.map_congr_left fun c hc => by unfold lnResp; rw [e0 c hc, e1 c hc]; rfl
    · congr 1
      exact List.map_congr_left fun c hc => by unfold lnStd; rw [e3 c hc, e4 c hc]
  · exact List.map_congr_left e3
  · exact List.map_congr_left e4

theorem resp_ns {c : Row} (hc : c ∈ table) (g : Given) (k : Kind) (hv : 180 ≤ g.v) (hm : 4 < g.mag) :
    (lnResp c (g.toIn { k with mech := .ns })).val < (lnResp c (g.toIn { k with mech := .other })).val := by
  have hb := base_mech c g k .ns
  have h12 : (c.a12 : ℝ) < 0 := by exact_mod_cast (mech_rows c hc).2
  have hneg : (fMech c (F.ofReal g.mag) .ns).val < 0 := by
    simp only [fMech, fsimp, zero_add]
    exact mul_neg_of_neg_of_pos h12 (lt_min (lt_max_of_lt_left (by linarith)) one_pos)
  have hx : refR c g { k with mech := .ns } = refR c g { k with mech := .other } +
      (fMech c (F.ofReal g.mag) .ns).val := by
    unfold refR; rw [hb]; ring
  have hs := f5R_slope hc hv (x' := refR c g { k with mech := .ns }) (x := refR c g { k with mech := .other })
    (by linarith)
  rw [resp_val hc, resp_val hc]
  linarith

theorem resp_ns_small {c : Row} (hc : c ∈ table) (g : Given) (k : Kind) (hm : g.mag ≤ 4) :
    (lnResp c (g.toIn { k with mech := .ns })).val = (lnResp c (g.toIn { k with mech := .other })).val := by
  have hb := base_mech c g k .ns
  have h0 : (fMech c (F.ofReal g.mag) .ns).val = 0 := by
    simp only [fMech, fsimp, zero_add]
    rw [max_eq_right (by linarith)]
    simp
  have hx : refR c g { k with mech := .ns } = refR c g { k with mech := .other } := by
    unfold refR; rw [hb, h0]; ring
  rw [resp_val hc, resp_val hc, hx, hb, h0, add_zero]

/-- the entries of a scenario besides the numbers and `mechanism` -/
def SameMech (s s' : Scenario) : Prop :=
  ∀ k ∈ ["region", "vs_source", "is_aftershock", "on_hanging_wall"], s'.get k = s.get k

theorem SameMech.kind {s s' : Scenario} (h : SameMech s s') :
    kindOf s' = { kindOf s with mech := mechOf (s'.get "mechanism") } := by
  simp only [SameMech, List.forall_mem_cons] at h
  obtain ⟨k1, k2, k3, k4, -⟩ := h
  simp [kindOf, k1, k2, k3, k4]

theorem mech_str (s : Scenario) {t : String} (h : s.get "mechanism" = .str t) (k : Kind)
    (hk : kindOf s = k) : k = { k with mech := mechOf (.str t) } := by
  subst hk
  rw [← h]; rfl

end ASK14

/-- Abrahamson et al. (2014): reverse and strike-slip faulting are not distinguished.  Two
scenarios that differ only in having "RS" or "SS" as `mechanism` give the same predictions and the
same standard deviations. -/
theorem C97_ask14_reverse (s s' : Scenario) (g : ASK14.Given) (h : ASK14.Source s g) (h' : ASK14.Source s' g)
    (hm : s.get "mechanism" = .str "SS") (hm' : s'.get "mechanism" = .str "RS") (hk : ASK14.SameMech s s')
    (hx : (s.get "on_hanging_wall").isOn → g.x ≠ none) :
    ∃ o, Gives ASK14.cls s o ∧ Gives ASK14.cls s' o := by
  have hhw : (ASK14.kindOf s).hw → g.x ≠ none := fun e => hx (by simpa [ASK14.kindOf] using e)
  have g1 := ASK14.gives h hhw
  have g2 := ASK14.gives h' (by rw [hk.kind]; exact hhw)
  rw [hk.kind, hm', show ASK14.mechOf (.str "RS") = .rs by simp [ASK14.mechOf], ASK14.out_rs] at g2
  rw [ASK14.mech_str s hm _ rfl, show ASK14.mechOf (.str "SS") = .other by simp [ASK14.mechOf]] at g1
  exact ⟨_, g1, g2⟩

/-- Normal faulting: above magnitude 4 every ordinate is strictly below that of strike-slip
faulting, on any site from 180 m/s on; up to magnitude 4 the two are equal on every site. -/
theorem C97_ask14_normal (s s' : Scenario) (g : ASK14.Given) (h : ASK14.Source s g) (h' : ASK14.Source s' g)
    (hm : s.get "mechanism" = .str "SS") (hm' : s'.get "mechanism" = .str "NS") (hk : ASK14.SameMech s s')
    (hw : (s.get "on_hanging_wall").isOn → g.x ≠ none ∧ 0 < g.dip ∧ g.dip < 90 ∧ ∀ w, g.width = some w → 0 < w)
    (hz : ∀ z, g.z1 = some z → -0.01 < z) (hv : 0 < g.v) :
    ∃ o o', Gives ASK14.cls s o ∧ Gives ASK14.cls s' o' ∧ o.gmm.lnResp.length = 24 ∧
      (4 < g.mag → 180 ≤ g.v → List.Forall₂ F.Drops o.gmm.lnResp o'.gmm.lnResp) ∧
      (g.mag ≤ 4 → List.Forall₂ F.Same o.gmm.lnResp o'.gmm.lnResp) := by
  have hok : g.HwOk (ASK14.kindOf s) := fun e => hw (by simpa [ASK14.kindOf] using e)
  have g1 := ASK14.gives h fun e => (hok e).1
  have g2 := ASK14.gives h' (by rw [hk.kind]; exact fun e => (hok e).1)
  rw [hk.kind, hm', show ASK14.mechOf (.str "NS") = .ns by simp [ASK14.mechOf]] at g2
  rw [ASK14.mech_str s hm _ rfl, show ASK14.mechOf (.str "SS") = .other by simp [ASK14.mechOf]] at g1
  set k := ASK14.kindOf s
  have ok : ∀ c ∈ ASK14.table, ∀ mech, (ASK14.lnResp c (g.toIn { k with mech := mech })).ok :=
    fun c hc mech => ASK14.resp_ok hc (fun e => hok e) hv hz
  refine ⟨_, _, g1, g2, by simp [ASK14.out, ASK14.table_length], fun h4 h180 => ?_, fun h4 => ?_⟩
  · simp only [ASK14.out]
    exact forall₂_map fun c hc => ⟨ok c hc _, ok c hc _, ASK14.resp_ns hc g k h180 h4⟩
  · simp only [ASK14.out]
    exact forall₂_map fun c hc => ⟨ok c hc _, ok c hc _, ASK14.resp_ns_small hc g k h4⟩

/-! ## CY14 -/

namespace CY14

theorem mech_rows : ∀ c ∈ table, c.c_1c = -c.c_1a ∧ c.c_1d = -c.c_1b ∧ 0 < c.c_1a ∧ c.c_1b < 0 := by
  decide +kernel

/-- the style-of-faulting coefficient -/
def flt (c : Row) : Mech → ℚ
  | .rs => c.c_1a
  | .ns => c.c_1b
  | .other => 0

theorem fFlt_val {c : Row} (hc : c ∈ table) (m : ℝ) (mech : Mech) :
    (fFlt c (F.ofReal m) mech).val = flt c mech * (1 - 1 / (coshMag (F.ofReal m)).val) := by
  obtain ⟨h1, h2, -⟩ := mech_rows c hc
  cases mech <;> simp only [fFlt, flt, fsimp, h1, h2] <;> push_cast <;> ring

theorem cosh_small {m : ℝ} (h : m ≤ 4.5) : (coshMag (F.ofReal m)).val = 1 := by
  simp only [coshMag, fsimp]
  rw [max_eq_right (by linarith)]
  simp

theorem cosh_large {m : ℝ} (h : 4.5 < m) : 1 < (coshMag (F.ofReal m)).val := by
  simp only [coshMag, fsimp]
  rw [Real.one_lt_cosh, max_eq_left (by linarith)]
  intro h0
  linarith

/-- the mechanism enters through its own term only when the depth of the rupture is left out and
the site is off the hanging wall -/
theorem ref_mech {c : Row} (hc : c ∈ table) (g : Given) (k : Kind) (mech : Mech)
    (h : mech = .rs → g.tor = none ∧ k.hw = false) :
    (lnRef c (g.toIn { k with mech := mech })).val = (lnRef c (g.toIn { k with mech := .other })).val +
      flt c mech * (1 - 1 / (coshMag (F.ofReal g.mag)).val) := by
  have e1 : (fHng c (g.toIn { k with mech := mech })).val = (fHng c (g.toIn { k with mech := .other })).val := by
    by_cases hr : mech = .rs
    · simp [fHng, Given.toIn, (h hr).2]
    · cases mech with
      | rs => exact absurd rfl hr
      | ns => rfl
      | other => rfl
  have e2 : (fTor c (F.ofReal g.mag) (g.effTor { k with mech := mech }) mech).val =
      (fTor c (F.ofReal g.mag) (g.effTor { k with mech := .other }) .other).val := by
    by_cases hr : mech = .rs
    · have z : ∀ mech, (fTor c (F.ofReal g.mag) (g.effTor { k with mech := mech }) mech).val = 0 := by
        intro mech
        simp only [fTor, Given.effTor, (h hr).1, F.orEst_none (calcDepthTor_ok _ _), F.val_mul, F.val_sub, sub_self, mul_zero]
      rw [z, z]
    · cases mech with
      | rs => exact absurd rfl hr
      | ns => rfl
      | other => rfl
  have e3 : ∀ mech, (baseF c (g.toIn { k with mech := mech })).val = c.c_1 + (fFlt c (F.ofReal g.mag) mech).val +
      (fMag c (F.ofReal g.mag)).val + (fTor c (F.ofReal g.mag) (g.effTor { k with mech := mech }) mech).val +
      (fDip c (F.ofReal g.mag) (F.ofReal g.dip)).val := fun _ => rfl
  rw [lnRef_val, lnRef_val, e1, e3, e3, e2, fFlt_val hc, fFlt_val hc]
  simp only [flt]
  push_cast
  ring

/-- the entries of a scenario besides the numbers and `mechanism` -/
def SameMech (s s' : Scenario) : Prop :=
  ∀ k ∈ ["region", "vs_source", "on_hanging_wall"], s'.get k = s.get k

theorem SameMech.kind {s s' : Scenario} (h : SameMech s s') :
    kindOf s' = { kindOf s with mech := mechOf (s'.get "mechanism") } := by
  simp only [SameMech, List.forall_mem_cons] at h
  obtain ⟨k1, k2, k3, -⟩ := h
  simp [kindOf, k1, k2, k3]

theorem mech_str (s : Scenario) {t : String} (h : s.get "mechanism" = .str t) (k : Kind)
    (hk : kindOf s = k) : k = { k with mech := mechOf (.str t) } := by
  subst hk
  rw [← h]; rfl

theorem resp_mech {c : Row} (hc : c ∈ table) (g : Given) (k : Kind) (mech : Mech)
    (h : mech = .rs → g.tor = none ∧ k.hw = false) :
    (g.mag ≤ 4.5 → (lnResp c (g.toIn { k with mech := mech })).val =
      (lnResp c (g.toIn { k with mech := .other })).val) ∧
    (4.5 < g.mag → 180 ≤ g.v → mech = .rs → (lnResp c (g.toIn { k with mech := .other })).val <
      (lnResp c (g.toIn { k with mech := mech })).val) ∧
    (4.5 < g.mag → 180 ≤ g.v → mech = .ns → (lnResp c (g.toIn { k with mech := mech })).val <
      (lnResp c (g.toIn { k with mech := .other })).val) := by
  obtain ⟨-, -, ha, hb⟩ := mech_rows c hc
  have ha' : (0 : ℝ) < c.c_1a := by exact_mod_cast ha
  have hb' : (c.c_1b : ℝ) < 0 := by exact_mod_cast hb
  have er := ref_mech hc g k mech h
  have ez : ∀ mech, g.effZ1 { k with mech := mech } = g.effZ1 k := fun _ => rfl
  have hpos : 4.5 < g.mag → 0 < 1 - 1 / (coshMag (F.ofReal g.mag)).val := fun hm => by
    have := cosh_large hm
    rw [sub_pos, div_lt_one (by linarith)]
    exact this
  rw [lnResp_val, lnResp_val, ez mech, ez .other, er]
  refine ⟨fun hm => ?_, fun hm hv e => ?_, fun hm hv e => ?_⟩
  · rw [cosh_small hm]; norm_num
  · subst e
    refine respR_strictMono hc hv _ _ ?_
    have := mul_pos ha' (hpos hm)
    simp only [flt]
    linarith
  · subst e
    refine respR_strictMono hc hv _ _ ?_
    have := mul_neg_of_neg_of_pos hb' (hpos hm)
    simp only [flt]
    linarith

end CY14

/-- Chiou & Youngs (2014): above magnitude 4.5, on any site from 180 m/s on, every ordinate of
normal faulting is strictly below that of strike-slip faulting, on either side of the rupture; up
to magnitude 4.5 they are equal on every site. -/
theorem C97_cy14_normal (s s' : Scenario) (g : CY14.Given) (h : CY14.Source s g) (h' : CY14.Source s' g)
    (hm : s.get "mechanism" = .str "SS") (hm' : s'.get "mechanism" = .str "NS") (hk : CY14.SameMech s s')
    (hr : 0 ≤ g.rup) (hv : 0 < g.v) :
    ∃ o o', Gives CY14.cls s o ∧ Gives CY14.cls s' o' ∧ o.gmm.lnResp.length = 26 ∧
      (4.5 < g.mag → 180 ≤ g.v → List.Forall₂ F.Drops o.gmm.lnResp o'.gmm.lnResp) ∧
      (g.mag ≤ 4.5 → List.Forall₂ F.Same o.gmm.lnResp o'.gmm.lnResp) := by
  have g1 := CY14.gives h
  have g2 := CY14.gives h'
  rw [hk.kind, hm', show CY14.mechOf (.str "NS") = .ns by simp [CY14.mechOf]] at g2
  rw [CY14.mech_str s hm _ rfl, show CY14.mechOf (.str "SS") = .other by simp [CY14.mechOf]] at g1
  set k := CY14.kindOf s
  refine ⟨_, _, g1, g2, by simp [CY14.out, CY14.table_length], fun h4 h180 => ?_, fun h4 => ?_⟩
  · simp only [CY14.out]
    exact forall₂_map fun c hc => ⟨CY14.lnResp_ok hc hr hv _, CY14.lnResp_ok hc hr hv _,
      (CY14.resp_mech hc g k .ns (by simp)).2.2 h4 h180 rfl⟩
  · simp only [CY14.out]
    exact forall₂_map fun c hc => ⟨CY14.lnResp_ok hc hr hv _, CY14.lnResp_ok hc hr hv _,
      (CY14.resp_mech hc g k .ns (by simp)).1 h4⟩

/-- Reverse faulting, with `depth_tor` left out and the site off the hanging wall: above magnitude
4.5, on any site from 180 m/s on, every ordinate is strictly above that of strike-slip faulting;
up to magnitude 4.5 they are equal on every site. -/
theorem C97_cy14_reverse (s s' : Scenario) (g : CY14.Given) (h : CY14.Source s g) (h' : CY14.Source s' g)
    (hm : s.get "mechanism" = .str "SS") (hm' : s'.get "mechanism" = .str "RS") (hk : CY14.SameMech s s')
    (ht : g.tor = none) (hw : ¬ (s.get "on_hanging_wall").isOn) (hr : 0 ≤ g.rup) (hv : 0 < g.v) :
    ∃ o o', Gives CY14.cls s o ∧ Gives CY14.cls s' o' ∧ o.gmm.lnResp.length = 26 ∧
      (4.5 < g.mag → 180 ≤ g.v → List.Forall₂ F.Drops o'.gmm.lnResp o.gmm.lnResp) ∧
      (g.mag ≤ 4.5 → List.Forall₂ F.Same o.gmm.lnResp o'.gmm.lnResp) := by
  have g1 := CY14.gives h
  have g2 := CY14.gives h'
  rw [hk.kind, hm', show CY14.mechOf (.str "RS") = .rs by simp [CY14.mechOf]] at g2
  rw [CY14.mech_str s hm _ rfl, show CY14.mechOf (.str "SS") = .other by simp [CY14.mechOf]] at g1
  have hw' : (CY14.kindOf s).hw = false := by simp [CY14.kindOf, hw]
  set k := CY14.kindOf s
  refine ⟨_, _, g1, g2, by simp [CY14.out, CY14.table_length], fun h4 h180 => ?_, fun h4 => ?_⟩
  · simp only [CY14.out]
    exact forall₂_map fun c hc => ⟨CY14.lnResp_ok hc hr hv _, CY14.lnResp_ok hc hr hv _,
      (CY14.resp_mech hc g k .rs (fun _ => ⟨ht, hw'⟩)).2.1 h4 h180 rfl⟩
  · simp only [CY14.out]
    exact forall₂_map fun c hc => ⟨CY14.lnResp_ok hc hr hv _, CY14.lnResp_ok hc hr hv _,
      (CY14.resp_mech hc g k .rs (fun _ => ⟨ht, hw'⟩)).1 h4⟩

/-! ## CB14 -/

namespace CB14

theorem mech_rows : ∀ c ∈ table, c.c_8 = 0 ∧ c.c_9 ≤ 0 ∧ (c.period ≤ 2 → c.c_9 < 0) := by decide +kernel

/-- normal faulting of a row of short period against the amplified reference PGA -/
theorem normal_good : ∀ c ∈ table, 400 < c.k_1 →
    ∃ n ∈ ([55, 56, 57, 59, 62, 68, 74, 79, 86, 92, 98] : List ℕ), ((n : ℚ) / 100) ^ 100 ≤ (400 / c.k_1) ^ 59 ∧
    -c.k_2 * ((1 - (n : ℚ) / 100) / (1 + (n : ℚ) / 100)) * -pgaRow.c_9 < -c.c_9 := by decide +kernel

theorem rest_ns (c : Row) (g : Given) (reg : Reg) :
    (rest c (g.toIn .ns reg)).val = (rest c (g.toIn .other reg)).val +
      c.c_9 * min (max (g.mag - 4.5) 0) 1 := by
  have e : ∀ mech : Mech, mech ≠ .rs → (rest c (g.toIn mech reg)).val = (fMag c (F.ofReal g.mag)).val +
      (fDis c (F.ofReal g.mag) (F.ofReal g.rup)).val + (fFlt c (F.ofReal g.mag) mech).val +
      (fHng c (g.toIn .other reg)).val + (fHyp c (F.ofReal g.mag) (g.effHyp .other)).val +
      (fDip c (F.ofReal g.mag) (F.ofReal g.dip)).val + (fAtn c (F.ofReal g.rup) reg).val := by
    intro mech hr
    cases mech with
    | rs => exact absurd rfl hr
    | ns => rfl
    | other => rfl
  rw [e _ (by simp), e _ (by simp)]
  simp only [fFlt, fsimp]
  ring

/-- `Regular` does not depend on the mechanism as long as it is not reverse -/
theorem Regular.ns {g : Given} (h : Regular g .other) : Regular g .ns := ⟨h.1, h.2⟩

end CB14

namespace CB14

theorem fFlt_rs {c : Row} (hc : c ∈ table) (m : F) (hm : m.ok) : fFlt c m .rs = fFlt c m .other := by
  have h := (mech_rows c hc).1
  ext
  · simp [fFlt, h]
  · simp [fFlt, hm]

theorem out_rs (g : Given) (reg : Reg) {t : ℝ} (ht : g.tor = some t) :
    out (g.toIn .rs reg) = out (g.toIn .other reg) := by
  have eT : g.effTor .rs = g.effTor .other := by simp only [Given.effTor, ht, F.orEst_some]
  have eW : g.effWidth .rs = g.effWidth .other := by simp only [Given.effWidth, eT]
  have eB : g.effBor .rs = g.effBor .other := by simp only [Given.effBor, eT, eW]
  have eH : g.effHyp .rs = g.effHyp .other := by simp only [Given.effHyp, eT, eB]
  have ei : g.toIn .rs reg = { g.toIn .other reg with mech := .rs } := by
    simp only [Given.toIn, eT, eW, eH]
  have e0 : ∀ c ∈ table, ∀ p v, lnResp c (g.toIn .rs reg) p v = lnResp c (g.toIn .other reg) p v := by
    intro c hc p v
    have := fFlt_rs hc (F.ofReal g.mag) trivial
    rw [ei]
    have e : lnResp c { g.toIn .other reg with mech := .rs } p v =
      fMag c (F.ofReal g.mag) + fDis c (F.ofReal g.mag) (F.ofReal g.rup) + fFlt c (F.ofReal g.mag) .rs +
        fHng c (g.toIn .other reg) + siteTerm c p v (g.effZ25 reg) (reg = .japan) +
        fHyp c (F.ofReal g.mag) (g.effHyp .other) + fDip c (F.ofReal g.mag) (F.ofReal g.dip) +
        fAtn c (F.ofReal g.rup) reg := rfl
    rw [e, this]
    rfl
  have e1 : pgaRef (g.toIn .rs reg) = pgaRef (g.toIn .other reg) := by
    unfold pgaRef
    rw [List.map_congr_left fun c hc => e0 c hc none 1100]
  unfold out
  rw [e1]
  congr 2
  exact List.map_congr_left fun c hc => e0 c hc _ _

end CB14

/-- Campbell & Bozorgnia (2014): with the depth of the rupture given, reverse and strike-slip
faulting are not distinguished: the predictions and the standard deviations are the same. -/
theorem C97_cb14_reverse (s s' : Scenario) (g : CB14.Given) (hs : CB14.Source s g) (hs' : CB14.Source s' g)
    (hm : s.get "mechanism" = .str "SS") (hm' : s'.get "mechanism" = .str "RS")
    (hr : s'.get "region" = s.get "region") (ht : g.tor ≠ none) (hv : g.v ≠ 0) :
    ∃ o, Gives CB14.cls s o ∧ Gives CB14.cls s' o := by
  have g1 := CB14.gives hs hv
  have g2 := CB14.gives hs' hv
  obtain ⟨t, ht⟩ := Option.ne_none_iff_exists'.1 ht
  rw [hm, show CB14.mechOf (.str "SS") = .other by simp [CB14.mechOf]] at g1
  rw [hm', hr, show CB14.mechOf (.str "RS") = .rs by simp [CB14.mechOf], CB14.out_rs g _ ht] at g2
  exact ⟨_, g1, g2⟩

/-- Normal faulting on rock (`v_s30` from 1100 m/s): no ordinate is above that of strike-slip
faulting, and above magnitude 4.5 every ordinate up to a period of 2 s, PGA and PGV is strictly
below. -/
theorem C97_cb14_normal_rock (s s' : Scenario) (g : CB14.Given) (hs : CB14.Source s g) (hs' : CB14.Source s' g)
    (hm : s.get "mechanism" = .str "SS") (hm' : s'.get "mechanism" = .str "NS")
    (hr : s'.get "region" = s.get "region") (hreg : CB14.Regular g .other) (hv : 1100 ≤ g.v) :
    ∃ o o', Gives CB14.cls s o ∧ Gives CB14.cls s' o' ∧ o.gmm.lnResp.length = 23 ∧
      List.Forall₂ F.NotAbove o.gmm.lnResp o'.gmm.lnResp ∧
      (4.5 < g.mag → ∀ i, (hi : i < CB14.table.length) → CB14.table[i].period ≤ 2 →
        F.Drops (o.gmm.lnResp.getD i F.nan) (o'.gmm.lnResp.getD i F.nan)) := by
  have hv0 : 0 < g.v := by linarith
  have g1 := CB14.gives hs hv0.ne'
  have g2 := CB14.gives hs' hv0.ne'
  rw [hm, show CB14.mechOf (.str "SS") = .other by simp [CB14.mechOf]] at g1
  rw [hm', hr, show CB14.mechOf (.str "NS") = .ns by simp [CB14.mechOf]] at g2
  set reg := CB14.regOf (s.get "region")
  have ev : ∀ c ∈ CB14.table,
      (CB14.lnResp c (g.toIn .ns reg) (some (CB14.pgaRef (g.toIn .ns reg))) (F.ofReal g.v)).val =
      (CB14.lnResp c (g.toIn .other reg) (some (CB14.pgaRef (g.toIn .other reg))) (F.ofReal g.v)).val +
        c.c_9 * min (max (g.mag - 4.5) 0) 1 := by
    intro c hc
    rw [CB14.resp_val, CB14.resp_val, CB14.rest_ns]
    have hk : (c.k_1 : ℝ) < g.v := by
      have : (c.k_1 : ℝ) < 1100 := by exact_mod_cast (CB14.row_facts c hc).2.1
      linarith
    have hq : ∀ p, CB14.siteR c g.v p = CB14.siteR c g.v 1 := fun p => CB14.siteR_rock hk p 1
    simp only [CB14.surfR, hq]
    ring
  refine ⟨_, _, g1, g2, by simp [CB14.out, CB14.table_length], ?_, ?_⟩
  · simp only [CB14.out]
    refine forall₂_map fun c hc => ⟨CB14.resp_ok hc hreg hv0 reg, CB14.resp_ok hc hreg.ns hv0 reg, ?_⟩
    refine le_of_eq_of_le (ev c hc) ?_
    have h9 : (c.c_9 : ℝ) ≤ 0 := by exact_mod_cast (CB14.mech_rows c hc).2.1
    have : (0 : ℝ) ≤ min (max (g.mag - 4.5) 0) 1 := le_min (le_max_right _ _) zero_le_one
    have := mul_nonpos_of_nonpos_of_nonneg h9 this
    exact add_le_of_nonpos_right this
  · intro h4 i hi hp
    have hc : CB14.table[i] ∈ CB14.table := List.getElem_mem hi
    simp only [CB14.out, getD_row _ _ hi]
    refine ⟨CB14.resp_ok hc hreg hv0 reg, CB14.resp_ok hc hreg.ns hv0 reg, ?_⟩
    refine lt_of_eq_of_lt (ev _ hc) ?_
    have h9 : (CB14.table[i].c_9 : ℝ) < 0 := by exact_mod_cast (CB14.mech_rows _ hc).2.2 hp
    have : (0 : ℝ) < min (max (g.mag - 4.5) 0) 1 := lt_min (lt_max_of_lt_left (by linarith)) one_pos
    have := mul_neg_of_neg_of_pos h9 this
    exact add_lt_of_neg_right _ this

/-- PGA of normal faulting is strictly below that of strike-slip faulting above magnitude 4.5 on
every site from 150 m/s on; and from 400 m/s on no ordinate is above. -/
theorem C97_cb14_normal (s s' : Scenario) (g : CB14.Given) (hs : CB14.Source s g) (hs' : CB14.Source s' g)
    (hm : s.get "mechanism" = .str "SS") (hm' : s'.get "mechanism" = .str "NS")
    (hr : s'.get "region" = s.get "region") (hreg : CB14.Regular g .other) (hv : 150 ≤ g.v) :
    ∃ o o', Gives CB14.cls s o ∧ Gives CB14.cls s' o' ∧ o.gmm.lnResp.length = 23 ∧
      (4.5 < g.mag → F.Drops (o.gmm.lnResp.getD 21 F.nan) (o'.gmm.lnResp.getD 21 F.nan)) ∧
      (400 ≤ g.v → List.Forall₂ F.NotAbove o.gmm.lnResp o'.gmm.lnResp) := by
  have hv0 : 0 < g.v := by linarith
  have g1 := CB14.gives hs hv0.ne'
  have g2 := CB14.gives hs' hv0.ne'
  rw [hm, show CB14.mechOf (.str "SS") = .other by simp [CB14.mechOf]] at g1
  rw [hm', hr, show CB14.mechOf (.str "NS") = .ns by simp [CB14.mechOf]] at g2
  set reg := CB14.regOf (s.get "region")
  have t0 : (0 : ℝ) ≤ min (max (g.mag - 4.5) 0) 1 := le_min (le_max_right _ _) zero_le_one
  have dP := CB14.rest_ns CB14.pgaRow g reg
  have hP : CB14.pgaRow.c_9 < 0 := (CB14.mech_rows _ CB14.pgaRow_mem).2.2 (by decide +kernel)
  have hP' : (CB14.pgaRow.c_9 : ℝ) < 0 := by exact_mod_cast hP
  set τ := min (max (g.mag - 4.5) 0) 1 with hτ
  have hPt := mul_nonpos_of_nonpos_of_nonneg hP'.le t0
  refine ⟨_, _, g1, g2, by simp [CB14.out, CB14.table_length], fun h4 => ?_, fun hv4 => ?_⟩
  · have hc := CB14.pgaRow_mem
    have τ0 : 0 < τ := lt_min (lt_max_of_lt_left (by linarith)) one_pos
    have hPt := mul_neg_of_neg_of_pos hP' τ0
    refine ⟨CB14.resp_ok hc hreg hv0 reg, CB14.resp_ok hc hreg.ns hv0 reg, ?_⟩
    refine lt_of_eq_of_lt (CB14.resp_val CB14.pgaRow g .ns reg)
      (lt_of_lt_of_eq ?_ (CB14.resp_val CB14.pgaRow g .other reg).symm)
    rw [CB14.pgaRef_rest, CB14.pgaRef_rest]
    obtain ⟨p1, p2⟩ := CB14.pgaRow_facts
    refine CB14.surf_drop hc (s := 0.35) (by norm_num) hv (by norm_num) (by norm_num)
      (by rw [p1]; norm_num) (by linarith) _ ?_
    rw [p2, dP]
    push_cast
    clear_value τ
    linarith
  · simp only [CB14.out]
    refine forall₂_map fun c hc => ⟨CB14.resp_ok hc hreg hv0 reg, CB14.resp_ok hc hreg.ns hv0 reg, ?_⟩
    refine le_of_eq_of_le (CB14.resp_val c g .ns reg) (le_of_le_of_eq ?_ (CB14.resp_val c g .other reg).symm)
    rw [CB14.pgaRef_rest, CB14.pgaRef_rest]
    have hk' : (0 : ℝ) < c.k_1 := by exact_mod_cast (CB14.row_facts c hc).1
    have d1 := CB14.rest_ns c g reg
    rw [← hτ] at d1
    have h9 : (c.c_9 : ℝ) ≤ 0 := by exact_mod_cast (CB14.mech_rows c hc).2.1
    clear_value τ
    by_cases hk4 : 400 < c.k_1
    · obtain ⟨n, hn, hsn, hq⟩ := CB14.normal_good c hc hk4
      have hn1 : n ≤ 100 := by
        simp only [List.mem_cons, List.not_mem_nil, or_false] at hn
        omega
      have hsn : ((n : ℝ) / 100) ^ 100 ≤ (400 / (c.k_1 : ℝ)) ^ 59 := by
        have : (((n : ℚ) / 100 : ℚ) : ℝ) ^ 100 ≤ ((400 / c.k_1 : ℚ) : ℝ) ^ 59 := by exact_mod_cast hsn
        push_cast at this; exact this
      have hq' : -(c.k_2 : ℝ) * ((1 - (n : ℝ) / 100) / (1 + (n : ℝ) / 100)) * -CB14.pgaRow.c_9 < -c.c_9 := by
        have : ((-c.k_2 * ((1 - (n : ℚ) / 100) / (1 + (n : ℚ) / 100)) * -CB14.pgaRow.c_9 : ℚ) : ℝ) <
            ((-c.c_9 : ℚ) : ℝ) := by exact_mod_cast hq
        push_cast at this; exact this
      refine CB14.surf_le hc (s := (n : ℝ) / 100) (by norm_num) hv4 (by positivity) ?_ hsn ?_ _ ?_
      · rw [div_le_one (by norm_num)]; exact_mod_cast hn1
      · linarith
      · rw [d1, dP]
        have := mul_le_mul_of_nonneg_right hq'.le t0
        linarith
    · have hk4' : (c.k_1 : ℝ) ≤ g.v := by
        have : (c.k_1 : ℝ) ≤ 400 := by exact_mod_cast not_lt.1 hk4
        linarith
      refine CB14.surf_le hc (s := 1) (v0 := c.k_1) hk' hk4' (by norm_num) (by norm_num)
        (by rw [div_self hk'.ne']; norm_num) ?_ _ ?_
      · linarith
      · rw [d1, dP]
        have := mul_nonpos_of_nonpos_of_nonneg h9 t0
        norm_num
        linarith

namespace CB14

theorem long_rows : ∀ c ∈ table, 3 ≤ c.period → c.c_9 = 0 ∧ c.k_2 = 0 := by decide +kernel

theorem siteR_linear {c : Row} (h : c.k_2 = 0) (v p p' : ℝ) : siteR c v p = siteR c v p' := by
  unfold siteR
  rw [h]
  simp

end CB14

/-- From 3 s on neither the style of faulting nor the reference PGA that drives the soil
nonlinearity enters: normal faulting has the ordinates of strike-slip faulting on every site. -/
theorem C97_cb14_long_periods (s s' : Scenario) (g : CB14.Given) (hs : CB14.Source s g) (hs' : CB14.Source s' g)
    (hm : s.get "mechanism" = .str "SS") (hm' : s'.get "mechanism" = .str "NS")
    (hr : s'.get "region" = s.get "region") (hreg : CB14.Regular g .other) (hv : 0 < g.v) :
    ∃ o o', Gives CB14.cls s o ∧ Gives CB14.cls s' o' ∧
      ∀ i, (hi : i < CB14.table.length) → 3 ≤ CB14.table[i].period →
        F.Same (o.gmm.lnResp.getD i F.nan) (o'.gmm.lnResp.getD i F.nan) := by
  have g1 := CB14.gives hs hv.ne'
  have g2 := CB14.gives hs' hv.ne'
  rw [hm, show CB14.mechOf (.str "SS") = .other by simp [CB14.mechOf]] at g1
  rw [hm', hr, show CB14.mechOf (.str "NS") = .ns by simp [CB14.mechOf]] at g2
  set reg := CB14.regOf (s.get "region")
  refine ⟨_, _, g1, g2, fun i hi hp => ?_⟩
  have hc : CB14.table[i] ∈ CB14.table := List.getElem_mem hi
  simp only [CB14.out, getD_row _ _ hi]
  refine ⟨CB14.resp_ok hc hreg hv reg, CB14.resp_ok hc hreg.ns hv reg, ?_⟩
  obtain ⟨h9, h2⟩ := CB14.long_rows _ hc hp
  refine (CB14.resp_val _ g .ns reg).trans (Eq.trans ?_ (CB14.resp_val _ g .other reg).symm)
  rw [CB14.rest_ns, h9]
  unfold CB14.surfR
  rw [CB14.siteR_linear h2 g.v _ (CB14.pgaRef (g.toIn .other reg)).val]
  simp

/-! ## BSSA14 -/

namespace BSSA14

/-- event coefficient of a mechanism -/
def ev (c : Row) : Mech → ℚ
  | .ss => c.e_1
  | .ns => c.e_2
  | .rs => c.e_3
  | .other => c.e_0

theorem event_mech (c : Row) (m : ℝ) (a b : Mech) : eventR c m b - eventR c m a = ev c b - ev c a := by
  have h : ∀ a, (event0 c a).val = ev c a := fun a => by cases a <;> rfl
  unfold eventR
  rw [h, h]; ring

/-- order of two mechanisms at every row, against the amplified reference PGA -/
def Below (a b : Mech) : Prop :=
  ev pgaRow a < ev pgaRow b ∧ ∀ c ∈ table, nonlin c 310 * (ev pgaRow b - ev pgaRow a) < ev c b - ev c a

theorem ns_below_u : Below .ns .other := by unfold Below; decide +kernel
theorem u_below_ss : Below .other .ss := by unfold Below; decide +kernel
theorem pga_order : ev pgaRow .ns < ev pgaRow .other ∧ ev pgaRow .other < ev pgaRow .rs ∧
    ev pgaRow .rs < ev pgaRow .ss := by decide +kernel

theorem mech_rise {c : Row} (hc : c ∈ table) {q : ℚ} (hq0 : 0 ≤ q) (a b : Mech) (reg : Reg) (g : Given)
    (hb : q * (ev pgaRow b - ev pgaRow a) < ev c b - ev c a) (hr : ev pgaRow a < ev pgaRow b)
    (hv : 0 < g.v) (hf : -f2R c g.v ≤ q) :
    F.Drops (lnResp c (g.toIn b reg) (some (pgaRef (g.toIn b reg))))
      (lnResp c (g.toIn a reg) (some (pgaRef (g.toIn a reg)))) := by
  have hq0' : (0 : ℝ) ≤ q := by exact_mod_cast hq0
  have hb' : (q : ℝ) * (ev pgaRow b - ev pgaRow a) < ev c b - ev c a := by exact_mod_cast hb
  have hr' : (ev pgaRow a : ℝ) < ev pgaRow b := by exact_mod_cast hr
  obtain ⟨a1, a2⟩ := resp_facts hc g hv a reg
  obtain ⟨b1, b2⟩ := resp_facts hc g hv b reg
  refine ⟨b1, a1, ?_⟩
  rw [a2, b2]
  have ec := event_mech c g.mag a b
  have eP : refR g.mag g.jb b reg - refR g.mag g.jb a reg = ev pgaRow b - ev pgaRow a := by
    have := event_mech pgaRow g.mag a b
    unfold refR
    linarith
  have hL := log_exp_add (x' := refR g.mag g.jb a reg) (x := refR g.mag g.jb b reg) (k := 0.1) (by linarith)
    (by norm_num)
  have n1 : ∀ x : ℝ, Real.exp x + 0.1 ≠ 0 := fun x => by have := Real.exp_pos x; positivity
  rw [Real.log_div (n1 _) (by norm_num), Real.log_div (n1 _) (by norm_num)]
  set L := Real.log (Real.exp (refR g.mag g.jb b reg) + 0.1)
  set L' := Real.log (Real.exp (refR g.mag g.jb a reg) + 0.1)
  have t1 : -f2R c g.v * (L - L') ≤ q * (L - L') := mul_le_mul_of_nonneg_right hf hL.1
  have t2 := mul_le_mul_of_nonneg_left hL.2 hq0'
  rw [eP] at t2
  linarith

theorem pga_rise (a b : Mech) (reg : Reg) (g : Given) (hr : ev pgaRow a < ev pgaRow b) (hv : 150 ≤ g.v) :
    F.Drops ((out (g.toIn b reg)).gmm.lnResp.getD 1 F.nan) ((out (g.toIn a reg)).gmm.lnResp.getD 1 F.nan) := by
  have hi : 1 < table.length := by rw [table_length]; norm_num
  simp only [out, getD_row _ _ hi]
  change F.Drops (lnResp pgaRow _ _) (lnResp pgaRow _ _)
  obtain ⟨-, p2, -⟩ := pga_mag
  have p0 : 0 ≤ nonlin pgaRow 150 := by decide +kernel
  refine mech_rise pgaRow_mem p0 a b reg g ?_ hr (by linarith)
    (le_nonlin pgaRow_mem (by norm_num) (nonlin_facts _ pgaRow_mem).2.2 (by norm_num; exact hv))
  have := mul_lt_mul_of_pos_right p2 (sub_pos.2 hr)
  linarith

theorem all_rise {a b : Mech} (h : Below a b) (reg : Reg) (g : Given) (hv : 310 ≤ g.v) :
    List.Forall₂ F.Drops (out (g.toIn b reg)).gmm.lnResp (out (g.toIn a reg)).gmm.lnResp := by
  simp only [out]
  refine forall₂_map fun c hc => ?_
  obtain ⟨f1, f2, -⟩ := nonlin_facts c hc
  exact mech_rise hc f1 a b reg g (h.2 c hc) h.1 (by linarith)
    (le_nonlin hc (by norm_num) f2 (by norm_num; exact hv))

end BSSA14

/-- Boore et al. (2014), at any magnitude and distance and in any region: PGA is ordered normal <
unknown < reverse < strike-slip on every site from 150 m/s on, and every ordinate is ordered normal
< unknown < strike-slip on every site from 310 m/s on. -/
theorem C97_bssa14 (sN sU sR sS : Scenario) (g : BSSA14.Given) (hN : BSSA14.Source sN g)
    (hU : BSSA14.Source sU g) (hR : BSSA14.Source sR g) (hS : BSSA14.Source sS g)
    (mN : sN.get "mechanism" = .str "NS") (mU : sU.get "mechanism" = .str "U")
    (mR : sR.get "mechanism" = .str "RS") (mS : sS.get "mechanism" = .str "SS")
    (rN : sN.get "region" = sS.get "region") (rU : sU.get "region" = sS.get "region")
    (rR : sR.get "region" = sS.get "region") (hv : 150 ≤ g.v) :
    ∃ n u r s, Gives BSSA14.cls sN n ∧ Gives BSSA14.cls sU u ∧ Gives BSSA14.cls sR r ∧ Gives BSSA14.cls sS s ∧
      F.Drops (u.gmm.lnResp.getD 1 F.nan) (n.gmm.lnResp.getD 1 F.nan) ∧
      F.Drops (r.gmm.lnResp.getD 1 F.nan) (u.gmm.lnResp.getD 1 F.nan) ∧
      F.Drops (s.gmm.lnResp.getD 1 F.nan) (r.gmm.lnResp.getD 1 F.nan) ∧
      (310 ≤ g.v → s.gmm.lnResp.length = 107 ∧ List.Forall₂ F.Drops u.gmm.lnResp n.gmm.lnResp ∧
        List.Forall₂ F.Drops s.gmm.lnResp u.gmm.lnResp) := by
  have gN := BSSA14.gives hN
  have gU := BSSA14.gives hU
  have gR := BSSA14.gives hR
  have gS := BSSA14.gives hS
  rw [mN, rN, show BSSA14.mechOf (.str "NS") = .ns by simp [BSSA14.mechOf]] at gN
  rw [mU, rU, show BSSA14.mechOf (.str "U") = .other by simp [BSSA14.mechOf]] at gU
  rw [mR, rR, show BSSA14.mechOf (.str "RS") = .rs by simp [BSSA14.mechOf]] at gR
  rw [mS, show BSSA14.mechOf (.str "SS") = .ss by simp [BSSA14.mechOf]] at gS
  obtain ⟨o1, o2, o3⟩ := BSSA14.pga_order
  exact ⟨_, _, _, _, gN, gU, gR, gS, BSSA14.pga_rise _ _ _ g o1 hv, BSSA14.pga_rise _ _ _ g o2 hv,
    BSSA14.pga_rise _ _ _ g o3 hv, fun h3 => ⟨by simp [BSSA14.out, BSSA14.table_length],
      BSSA14.all_rise BSSA14.ns_below_u _ g h3, BSSA14.all_rise BSSA14.u_below_ss _ g h3⟩⟩

/-! ## I14 -/

namespace I14

theorem mech_rows : ∀ c ∈ small ++ large, 0 ≤ c.phi ∧ (c.period < 4 → 0 < c.phi) ∧ (4 ≤ c.period → c.phi = 0) := by
  decide +kernel

theorem coeff_mem {m : F} {c : Row} (h : c ∈ coeff m) : c ∈ small ++ large := by
  unfold coeff at h
  split at h <;> simp [h]

end I14

/-- Idriss (2014): reverse faulting strictly raises every ordinate below 4 s, leaves those from
4 s on unchanged, and leaves the standard deviations unchanged. -/
theorem C97_i14 (s s' : Scenario) (m R v : ℝ) (hR : 0 ≤ R) (hv0 : 0 < v)
    (hm : s.get "mag" = .num m) (hr : s.get "dist_rup" = .num R) (hv : s.get "v_s30" = .num v)
    (ht : s.get "mechanism" = .str "SS")
    (hm' : s'.get "mag" = .num m) (hr' : s'.get "dist_rup" = .num R) (hv' : s'.get "v_s30" = .num v)
    (ht' : s'.get "mechanism" = .str "RS") :
    ∃ o o', Gives I14.cls s o ∧ Gives I14.cls s' o' ∧ o.lnResp.length = 22 ∧ o'.lnStd = o.lnStd ∧
      ∀ i, (hi : i < (I14.coeff (F.ofReal m)).length) →
        ((I14.coeff (F.ofReal m))[i].period < 4 → F.Drops (o'.lnResp.getD i F.nan) (o.lnResp.getD i F.nan)) ∧
        (4 ≤ (I14.coeff (F.ofReal m))[i].period → F.Same (o'.lnResp.getD i F.nan) (o.lnResp.getD i F.nan)) := by
  refine ⟨_, _, I14.gives s hm hr hv ht, I14.gives s' hm' hr' hv' ht', ?_, rfl, ?_⟩
  · simp [I14.out, I14.coeff_length]
  · intro i hi
    have hc := I14.coeff_mem (List.getElem_mem hi)
    simp only [I14.out, getD_row _ _ hi]
    generalize (I14.coeff (F.ofReal m))[i] = c at hc
    obtain ⟨-, p1, p2⟩ := I14.mech_rows c hc
    have e := fun rs => I14.lnResp_val c m R v rs
    refine ⟨fun h => ⟨I14.lnResp_ok c _ hR hv0, I14.lnResp_ok c _ hR hv0, ?_⟩,
      fun h => ⟨I14.lnResp_ok c _ hR hv0, I14.lnResp_ok c _ hR hv0, ?_⟩⟩
    · have : (0 : ℝ) < c.phi := by exact_mod_cast p1 h
      have n : decide ("SS" = "RS") = false := by decide
      rw [e, e, n]
      simp only [Bool.false_eq_true, if_false, if_true, decide_true]
      linarith
    · rw [e, e]; simp [p2 h]

/-! ## AKB14 -/

namespace AKB14

theorem mech_rows : ∀ tbl ∈ tables, ∀ c ∈ tbl, c.a_8 ≤ 0 ∧ -1 < c.b_2 ∧ c.b_2 < 0 := by decide +kernel
theorem mech_drop : ∀ tbl ∈ tables, ∀ c ∈ tbl.drop 17, c.a_8 = 0 := by decide +kernel
theorem mech_take : ∀ tbl ∈ tables, ∀ c ∈ tbl.take 17, c.a_8 < 0 := by decide +kernel

theorem ref_ns {tbl : List Row} (ht : tbl ∈ tables) {c : Row} (hc : c ∈ tbl) (m d : ℝ) :
    (lnRef c (F.ofReal m) (F.ofReal d) .ns).val = (lnRef c (F.ofReal m) (F.ofReal d) .other).val + c.a_8 := by
  rw [lnRef_val ht hc, lnRef_val ht hc]
  simp only [A, fMech, fsimp]
  ring

theorem S_anti {tbl : List Row} (ht : tbl ∈ tables) {c : Row} (hc : c ∈ tbl) {v : ℝ} (hv : 0 < v) (hv' : v < 750)
    {x x' : ℝ} (h : x' < x) : S c v x < S c v x' := by
  have hb : (c.b_2 : ℝ) < 0 := by exact_mod_cast (mech_rows tbl ht c hc).2.2
  have hq : 0 < min v 750 / 750 := div_pos (lt_min hv (by norm_num)) (by norm_num)
  have hq1 : min v 750 / 750 < 1 := by
    rw [div_lt_one (by norm_num)]; exact min_lt_of_left_lt hv'
  have ha0 : 0 < (min v 750 / 750) ^ (3.2 : ℝ) := Real.rpow_pos_of_pos hq _
  have ha1 : (min v 750 / 750) ^ (3.2 : ℝ) < 1 := Real.rpow_lt_one hq.le hq1 (by norm_num)
  unfold S
  set a := (min v 750 / 750) ^ (3.2 : ℝ)
  clear_value a
  have hx := Real.exp_pos x
  have hx' := Real.exp_pos x'
  have hlt := Real.exp_lt_exp.2 h
  have key : Real.log (Real.exp x' + 2.5 * a) - Real.log (Real.exp x' + 2.5) <
      Real.log (Real.exp x + 2.5 * a) - Real.log (Real.exp x + 2.5) := by
    rw [← Real.log_div (by positivity) (by positivity), ← Real.log_div (by positivity) (by positivity)]
    apply Real.log_lt_log (by positivity)
    rw [div_lt_div_iff₀ (by positivity) (by positivity)]
    nlinarith
  have := mul_lt_mul_of_neg_left key hb
  linarith

theorem S_rock (c : Row) {v : ℝ} (hv : 750 ≤ v) (x x' : ℝ) : S c v x = S c v x' := by
  unfold S
  rw [min_eq_right hv]
  norm_num

end AKB14

/-- Akkar et al. (2014), normal against strike-slip faulting, with whichever distance is in force.
The style of faulting enters the first 17 ordinates (PGA, PGV and short periods).  On rock, from
750 m/s on, those are strictly lower and all others are equal.  On soil below 750 m/s PGA is still
strictly lower, but every ordinate after the first 17 is strictly *higher*: the weaker reference
PGA means less nonlinear reduction. -/
theorem C97_akb14_normal (s s' : Scenario) (m v : ℝ) (a b c : Option ℝ) (hv0 : 0 < v)
    (hsome : a.isSome ∨ b.isSome ∨ c.isSome)
    (hm : s.get "mag" = .num m) (hv : s.get "v_s30" = .num v) (ht : s.get "mechanism" = .str "SS")
    (ha : s.get "dist_jb" = Val.ofOpt a) (hb : s.get "dist_hyp" = Val.ofOpt b)
    (hc : s.get "dist_epi" = Val.ofOpt c)
    (hm' : s'.get "mag" = .num m) (hv' : s'.get "v_s30" = .num v) (ht' : s'.get "mechanism" = .str "NS")
    (ha' : s'.get "dist_jb" = Val.ofOpt a) (hb' : s'.get "dist_hyp" = Val.ofOpt b)
    (hc' : s'.get "dist_epi" = Val.ofOpt c) :
    ∃ o o', Gives AKB14.cls s o ∧ Gives AKB14.cls s' o' ∧ o.lnResp.length = 64 ∧
      F.Drops (o.lnResp.getD 0 F.nan) (o'.lnResp.getD 0 F.nan) ∧
      (750 ≤ v → ∀ i < 64, (i < 17 → F.Drops (o.lnResp.getD i F.nan) (o'.lnResp.getD i F.nan)) ∧
        (17 ≤ i → F.Same (o.lnResp.getD i F.nan) (o'.lnResp.getD i F.nan))) ∧
      (v < 750 → ∀ i < 64, 17 ≤ i → F.Drops (o'.lnResp.getD i F.nan) (o.lnResp.getD i F.nan)) := by
  obtain ⟨p, hp⟩ : ∃ p, AKB14.spec a b c = some p := by
    cases a <;> cases b <;> cases c <;> simp_all [AKB14.spec]
  have htab := AKB14.spec_table hp
  obtain ⟨hlen, r, hr⟩ := AKB14.head_facts _ htab
  have hrm : r ∈ p.2 := List.mem_of_mem_head? hr
  refine ⟨_, _, AKB14.gives s hm hv ht ha hb hc hp, AKB14.gives s' hm' hv' ht' ha' hb' hc' hp,
    by simp [AKB14.out, hlen], ?_⟩
  rw [show AKB14.mechFor "SS" = .other by simp [AKB14.mechFor], show AKB14.mechFor "NS" = .ns by simp [AKB14.mechFor]]
  simp only [AKB14.out, AKB14.pgaRef_eq hr]
  have ok : ∀ c ∈ p.2, ∀ mech, (AKB14.lnRef c (F.ofReal m) (F.ofReal p.1) mech +
      AKB14.site c (F.ofReal v) (F.exp (AKB14.lnRef r (F.ofReal m) (F.ofReal p.1) mech))).ok := fun c hc mech =>
    ⟨AKB14.lnRef_ok htab hc .., AKB14.site_ok htab hc hv0 (AKB14.lnRef_ok htab hrm ..)⟩
  have val : ∀ c ∈ p.2, ∀ mech, (AKB14.lnRef c (F.ofReal m) (F.ofReal p.1) mech +
      AKB14.site c (F.ofReal v) (F.exp (AKB14.lnRef r (F.ofReal m) (F.ofReal p.1) mech))).val =
      (AKB14.lnRef c (F.ofReal m) (F.ofReal p.1) mech).val +
        AKB14.S c v (AKB14.lnRef r (F.ofReal m) (F.ofReal p.1) mech).val := fun c hc mech => by
    rw [F.val_add, AKB14.site_val htab hc hv0]
  have h0 : 0 < p.2.length := by rw [hlen]; norm_num
  have er : r = p.2[0] := by
    rw [List.head?_eq_getElem?, List.getElem?_eq_getElem h0] at hr
    exact (Option.some.inj hr).symm
  have hr8 : (r.a_8 : ℝ) < 0 := by
    have : r ∈ p.2.take 17 := by
      rw [er, List.mem_take_iff_getElem]
      exact ⟨0, by rw [hlen]; norm_num, rfl⟩
    exact_mod_cast AKB14.mech_take _ htab r this
  have hlow : (AKB14.lnRef r (F.ofReal m) (F.ofReal p.1) .ns).val <
      (AKB14.lnRef r (F.ofReal m) (F.ofReal p.1) .other).val := by
    rw [AKB14.ref_ns htab hrm]; linarith
  refine ⟨?_, fun h750 i hi => ?_, fun h750 i hi h17 => ?_⟩
  · simp only [getD_row _ _ h0, ← er]
    refine ⟨ok r hrm _, ok r hrm _, ?_⟩
    rw [val r hrm, val r hrm]
    have hs := AKB14.S_change htab hrm hv0 hlow.le
    have hb1 : (-1 : ℝ) < r.b_2 := by exact_mod_cast (AKB14.mech_rows _ htab r hrm).2.1
    have := mul_lt_mul_of_pos_right hb1 (sub_pos.2 hlow)
    linarith
  · have hi' : i < p.2.length := by rw [hlen]; exact hi
    have hci : p.2[i] ∈ p.2 := List.getElem_mem hi'
    simp only [getD_row _ _ hi']
    refine ⟨fun h17 => ⟨ok _ hci _, ok _ hci _, ?_⟩, fun h17 => ⟨ok _ hci _, ok _ hci _, ?_⟩⟩
    · rw [val _ hci, val _ hci, AKB14.S_rock _ h750 _ (AKB14.lnRef r (F.ofReal m) (F.ofReal p.1) .other).val,
        AKB14.ref_ns htab hci]
      have h8 : ((p.2[i]).a_8 : ℝ) < 0 := by
        have : p.2[i] ∈ p.2.take 17 := by
          rw [List.mem_take_iff_getElem]
          exact ⟨i, by rw [hlen]; omega, rfl⟩
        exact_mod_cast AKB14.mech_take _ htab _ this
      linarith
    · rw [val _ hci, val _ hci, AKB14.S_rock _ h750 _ (AKB14.lnRef r (F.ofReal m) (F.ofReal p.1) .other).val,
        AKB14.ref_ns htab hci]
      have : p.2[i] ∈ p.2.drop 17 := by
        rw [List.mem_drop_iff_getElem]
        exact ⟨i - 17, by rw [hlen]; omega, by congr 1; omega⟩
      rw [AKB14.mech_drop _ htab _ this]
      simp
  · have hi' : i < p.2.length := by rw [hlen]; exact hi
    have hci : p.2[i] ∈ p.2 := List.getElem_mem hi'
    simp only [getD_row _ _ hi']
    refine ⟨ok _ hci _, ok _ hci _, ?_⟩
    rw [val _ hci, val _ hci, AKB14.ref_ns htab hci]
    have : p.2[i] ∈ p.2.drop 17 := by
      rw [List.mem_drop_iff_getElem]
      exact ⟨i - 17, by rw [hlen]; omega, by congr 1; omega⟩
    rw [AKB14.mech_drop _ htab _ this]
    have := AKB14.S_anti htab hci hv0 h750 hlow
    push_cast
    linarith

/-! ### Instances -/

namespace ASK14

/-- a strike-slip, normal or reverse scenario on soil -/
noncomputable def exF (mech : String) : Scenario :=
  ⟨[("mag", .num 6.5), ("dist_rup", .num 20), ("dist_jb", .num 18), ("dip", .num 60), ("v_s30", .num 300),
    ("mechanism", .str mech), ("region", .str "california")], []⟩
@[inherit_doc exF]
noncomputable def exFG : Given := { mag := 6.5, rup := 20, jb := 18, dip := 60, v := 300 }

theorem exF_source (mech : String) : Source (exF mech) exFG := by
  constructor <;> simp [exF, exFG, Scenario.get, Dict.get?, Val.ofOpt]

theorem exF_same (a b : String) : SameMech (exF a) (exF b) := by
  intro k hk
  simp only [List.mem_cons, List.not_mem_nil, or_false] at hk
  rcases hk with rfl | rfl | rfl | rfl <;> simp [exF, Scenario.get, Dict.get?]

end ASK14

example := C97_ask14_reverse (ASK14.exF "SS") (ASK14.exF "RS") ASK14.exFG (ASK14.exF_source _)
  (ASK14.exF_source _) rfl rfl (ASK14.exF_same _ _)
  (fun h => by simp [ASK14.exF, Scenario.get, Dict.get?, Val.isOn] at h)
example := C97_ask14_normal (ASK14.exF "SS") (ASK14.exF "NS") ASK14.exFG (ASK14.exF_source _)
  (ASK14.exF_source _) rfl rfl (ASK14.exF_same _ _)
  (fun h => by simp [ASK14.exF, Scenario.get, Dict.get?, Val.isOn] at h) (by simp [ASK14.exFG])
  (by norm_num [ASK14.exFG])

namespace CY14

/-- a strike-slip, normal or reverse scenario on soil -/
noncomputable def exF (mech : String) : Scenario :=
  ⟨[("mag", .num 6.5), ("dist_rup", .num 20), ("dist_jb", .num 18), ("dist_x", .num (-18)), ("dip", .num 60),
    ("v_s30", .num 300), ("mechanism", .str mech), ("region", .str "california")], []⟩
@[inherit_doc exF]
noncomputable def exFG : Given := { mag := 6.5, rup := 20, jb := 18, x := -18, dip := 60, v := 300 }

theorem exF_source (mech : String) : Source (exF mech) exFG := by
  constructor <;> simp [exF, exFG, Scenario.get, Dict.get?, Val.ofOpt]

theorem exF_same (a b : String) : SameMech (exF a) (exF b) := by
  intro k hk
  simp only [List.mem_cons, List.not_mem_nil, or_false] at hk
  rcases hk with rfl | rfl | rfl <;> simp [exF, Scenario.get, Dict.get?]

end CY14

example := C97_cy14_normal (CY14.exF "SS") (CY14.exF "NS") CY14.exFG (CY14.exF_source _) (CY14.exF_source _)
  rfl rfl (CY14.exF_same _ _) (by norm_num [CY14.exFG]) (by norm_num [CY14.exFG])
example := C97_cy14_reverse (CY14.exF "SS") (CY14.exF "RS") CY14.exFG (CY14.exF_source _) (CY14.exF_source _)
  rfl rfl (CY14.exF_same _ _) rfl (by simp [CY14.exF, Scenario.get, Dict.get?, Val.isOn])
  (by norm_num [CY14.exFG]) (by norm_num [CY14.exFG])

namespace CB14

/-- a scenario with everything about the rupture given -/
noncomputable def exF (mech : String) (v : ℝ) : Scenario :=
  ⟨[("mag", .num 6), ("dist_rup", .num 6), ("dist_jb", .num 5), ("dist_x", .num (-5)), ("dip", .num 60),
    ("width", .num 10), ("depth_tor", .num 1), ("depth_hyp", .num 8), ("v_s30", .num v),
    ("mechanism", .str mech), ("region", .str "california")], []⟩
@[inherit_doc exF]
noncomputable def exFG (v : ℝ) : Given :=
  { mag := 6, rup := 6, jb := 5, x := -5, dip := 60, v := v, width := some 10, tor := some 1, hyp := some 8 }

theorem exF_source (mech : String) (v : ℝ) : Source (exF mech v) (exFG v) := by
  constructor <;> simp [exF, exFG, Scenario.get, Dict.get?, Val.ofOpt]

theorem exF_regular (v : ℝ) : Regular (exFG v) .other :=
  ⟨fun e => by simp [exFG] at e, fun h => by norm_num [exFG] at h⟩

end CB14

example := C97_cb14_reverse (CB14.exF "SS" 300) (CB14.exF "RS" 300) (CB14.exFG 300) (CB14.exF_source _ _)
  (CB14.exF_source _ _) rfl rfl rfl (by simp [CB14.exFG]) (by norm_num [CB14.exFG])
example := C97_cb14_normal_rock (CB14.exF "SS" 1200) (CB14.exF "NS" 1200) (CB14.exFG 1200) (CB14.exF_source _ _)
  (CB14.exF_source _ _) rfl rfl rfl (CB14.exF_regular _) (by norm_num [CB14.exFG])
example := C97_cb14_normal (CB14.exF "SS" 450) (CB14.exF "NS" 450) (CB14.exFG 450) (CB14.exF_source _ _)
  (CB14.exF_source _ _) rfl rfl rfl (CB14.exF_regular _) (by norm_num [CB14.exFG])
example := C97_cb14_long_periods (CB14.exF "SS" 200) (CB14.exF "NS" 200) (CB14.exFG 200) (CB14.exF_source _ _)
  (CB14.exF_source _ _) rfl rfl rfl (CB14.exF_regular _) (by norm_num [CB14.exFG])

namespace BSSA14

/-- a scenario on soil -/
noncomputable def exF (mech : String) : Scenario :=
  ⟨[("mag", .num 6), ("dist_jb", .num 10), ("v_s30", .num 320), ("mechanism", .str mech),
    ("region", .str "global")], []⟩
@[inherit_doc exF]
noncomputable def exFG : Given := { mag := 6, jb := 10, v := 320, z1 := none }

theorem exF_source (mech : String) : Source (exF mech) exFG := by
  constructor <;> simp [exF, exFG, Scenario.get, Dict.get?, Val.ofOpt]

end BSSA14

example := C97_bssa14 (BSSA14.exF "NS") (BSSA14.exF "U") (BSSA14.exF "RS") (BSSA14.exF "SS") BSSA14.exFG
  (BSSA14.exF_source _) (BSSA14.exF_source _) (BSSA14.exF_source _) (BSSA14.exF_source _) rfl rfl rfl rfl
  rfl rfl rfl (by norm_num [BSSA14.exFG])
example := C97_i14 ⟨[("mag", .num 7), ("dist_rup", .num 10), ("v_s30", .num 600), ("mechanism", .str "SS")], []⟩
  ⟨[("mag", .num 7), ("dist_rup", .num 10), ("v_s30", .num 600), ("mechanism", .str "RS")], []⟩ 7 10 600
  (by norm_num) (by norm_num) rfl rfl rfl rfl rfl rfl rfl rfl
example := C97_akb14_normal ⟨[("mag", .num 6), ("dist_jb", .num 0), ("v_s30", .num 200), ("mechanism", .str "SS")], []⟩
  ⟨[("mag", .num 6), ("dist_jb", .num 0), ("v_s30", .num 200), ("mechanism", .str "NS")], []⟩ 6 200 (some 0) none
  none (by norm_num) (by simp) rfl rfl rfl rfl rfl rfl rfl rfl rfl rfl rfl rfl

namespace AKB14

theorem rev_take : ∀ tbl ∈ tables, ∀ c ∈ tbl.take 43, 0 < c.a_9 := by decide +kernel
theorem rev_mid : ∀ tbl ∈ tables, ∀ c ∈ (tbl.drop 43).take 8, c.a_9 = 0 := by decide +kernel
theorem rev_drop : ∀ tbl ∈ tables, ∀ c ∈ tbl.drop 51, c.a_9 < 0 := by decide +kernel

theorem ref_rs {tbl : List Row} (ht : tbl ∈ tables) {c : Row} (hc : c ∈ tbl) (m d : ℝ) :
    (lnRef c (F.ofReal m) (F.ofReal d) .rs).val = (lnRef c (F.ofReal m) (F.ofReal d) .other).val + c.a_9 := by
  rw [lnRef_val ht hc, lnRef_val ht hc]
  simp only [A, fMech, fsimp]
  ring

end AKB14

/-- Akkar et al. (2014), reverse against strike-slip faulting, with whichever distance is in force.
PGA is strictly higher on every site.  On rock, from 750 m/s on, the first 43 ordinates (PGA, PGV
and periods short of 1 s) are strictly higher, the next 8 equal and the last 13 strictly lower. On
soil below 750 m/s every ordinate after the first 43 is strictly lower: the stronger reference
PGA means more nonlinear reduction. -/
theorem C97_akb14_reverse (s s' : Scenario) (m v : ℝ) (a b c : Option ℝ) (hv0 : 0 < v)
    (hsome : a.isSome ∨ b.isSome ∨ c.isSome)
    (hm : s.get "mag" = .num m) (hv : s.get "v_s30" = .num v) (ht : s.get "mechanism" = .str "SS")
    (ha : s.get "dist_jb" = Val.ofOpt a) (hb : s.get "dist_hyp" = Val.ofOpt b)
    (hc : s.get "dist_epi" = Val.ofOpt c)
    (hm' : s'.get "mag" = .num m) (hv' : s'.get "v_s30" = .num v) (ht' : s'.get "mechanism" = .str "RS")
    (ha' : s'.get "dist_jb" = Val.ofOpt a) (hb' : s'.get "dist_hyp" = Val.ofOpt b)
    (hc' : s'.get "dist_epi" = Val.ofOpt c) :
    ∃ o o', Gives AKB14.cls s o ∧ Gives AKB14.cls s' o' ∧ o.lnResp.length = 64 ∧
      F.Drops (o'.lnResp.getD 0 F.nan) (o.lnResp.getD 0 F.nan) ∧
      (750 ≤ v → ∀ i < 64, (i < 43 → F.Drops (o'.lnResp.getD i F.nan) (o.lnResp.getD i F.nan)) ∧
        (43 ≤ i → i < 51 → F.Same (o.lnResp.getD i F.nan) (o'.lnResp.getD i F.nan)) ∧
        (51 ≤ i → F.Drops (o.lnResp.getD i F.nan) (o'.lnResp.getD i F.nan))) ∧
      (v < 750 → ∀ i < 64, 43 ≤ i → F.Drops (o.lnResp.getD i F.nan) (o'.lnResp.getD i F.nan)) := by
  obtain ⟨p, hp⟩ : ∃ p, AKB14.spec a b c = some p := by
    cases a <;> cases b <;> cases c <;> simp_all [AKB14.spec]
  have htab := AKB14.spec_table hp
  obtain ⟨hlen, r, hr⟩ := AKB14.head_facts _ htab
  have hrm : r ∈ p.2 := List.mem_of_mem_head? hr
  refine ⟨_, _, AKB14.gives s hm hv ht ha hb hc hp, AKB14.gives s' hm' hv' ht' ha' hb' hc' hp,
    by simp [AKB14.out, hlen], ?_⟩
  rw [show AKB14.mechFor "SS" = .other by simp [AKB14.mechFor], show AKB14.mechFor "RS" = .rs by simp [AKB14.mechFor]]
  simp only [AKB14.out, AKB14.pgaRef_eq hr]
  have ok : ∀ c ∈ p.2, ∀ mech, (AKB14.lnRef c (F.ofReal m) (F.ofReal p.1) mech +
      AKB14.site c (F.ofReal v) (F.exp (AKB14.lnRef r (F.ofReal m) (F.ofReal p.1) mech))).ok := fun c hc mech =>
    ⟨AKB14.lnRef_ok htab hc .., AKB14.site_ok htab hc hv0 (AKB14.lnRef_ok htab hrm ..)⟩
  have val : ∀ c ∈ p.2, ∀ mech, (AKB14.lnRef c (F.ofReal m) (F.ofReal p.1) mech +
      AKB14.site c (F.ofReal v) (F.exp (AKB14.lnRef r (F.ofReal m) (F.ofReal p.1) mech))).val =
      (AKB14.lnRef c (F.ofReal m) (F.ofReal p.1) mech).val +
        AKB14.S c v (AKB14.lnRef r (F.ofReal m) (F.ofReal p.1) mech).val := fun c hc mech => by
    rw [F.val_add, AKB14.site_val htab hc hv0]
  have h0 : 0 < p.2.length := by rw [hlen]; norm_num
  have hin : ∀ {i} (hi : i < p.2.length), i < 43 → (0 : ℝ) < (p.2[i]).a_9 := fun {i} hi h => by
    have : p.2[i] ∈ p.2.take 43 := by
      rw [List.mem_take_iff_getElem]
      exact ⟨i, by rw [hlen]; omega, rfl⟩
    exact_mod_cast AKB14.rev_take _ htab _ this
  have hmid : ∀ {i} (hi : i < p.2.length), 43 ≤ i → i < 51 → ((p.2[i]).a_9 : ℝ) = 0 := fun {i} hi h h' => by
    have : p.2[i] ∈ (p.2.drop 43).take 8 := by
      rw [List.mem_take_iff_getElem]
      exact ⟨i - 43, by rw [List.length_drop, hlen]; omega, by rw [List.getElem_drop]; congr 1; omega⟩
    exact_mod_cast AKB14.rev_mid _ htab _ this
  have hout : ∀ {i} (hi : i < p.2.length), 51 ≤ i → ((p.2[i]).a_9 : ℝ) < 0 := fun {i} hi h => by
    have : p.2[i] ∈ p.2.drop 51 := by
      rw [List.mem_drop_iff_getElem]
      exact ⟨i - 51, by omega, by congr 1; omega⟩
    exact_mod_cast AKB14.rev_drop _ htab _ this
  have er : r = p.2[0] := by
    rw [List.head?_eq_getElem?, List.getElem?_eq_getElem h0] at hr
    exact (Option.some.inj hr).symm
  have hr9 : (0 : ℝ) < r.a_9 := by rw [er]; exact hin h0 (by norm_num)
  have hup : (AKB14.lnRef r (F.ofReal m) (F.ofReal p.1) .other).val <
      (AKB14.lnRef r (F.ofReal m) (F.ofReal p.1) .rs).val := by
    rw [AKB14.ref_rs htab hrm]; linarith
  refine ⟨?_, fun h750 i hi => ?_, fun h750 i hi h43 => ?_⟩
  · simp only [getD_row _ _ h0, ← er]
    refine ⟨ok r hrm _, ok r hrm _, ?_⟩
    rw [val r hrm, val r hrm]
    have hs := AKB14.S_change htab hrm hv0 hup.le
    have hb1 : (-1 : ℝ) < r.b_2 := by exact_mod_cast (AKB14.mech_rows _ htab r hrm).2.1
    have := mul_lt_mul_of_pos_right hb1 (sub_pos.2 hup)
    linarith
  · have hi' : i < p.2.length := by rw [hlen]; exact hi
    have hci : p.2[i] ∈ p.2 := List.getElem_mem hi'
    simp only [getD_row _ _ hi']
    have e : ∀ mech, AKB14.S p.2[i] v (AKB14.lnRef r (F.ofReal m) (F.ofReal p.1) mech).val = AKB14.S p.2[i] v 0 :=
      fun mech => AKB14.S_rock _ h750 _ _
    refine ⟨fun h => ⟨ok _ hci _, ok _ hci _, ?_⟩, fun h h' => ⟨ok _ hci _, ok _ hci _, ?_⟩,
      fun h => ⟨ok _ hci _, ok _ hci _, ?_⟩⟩
    · rw [val _ hci, val _ hci, e, e, AKB14.ref_rs htab hci]
      have := hin hi' h; linarith
    · rw [val _ hci, val _ hci, e, e, AKB14.ref_rs htab hci, hmid hi' h h']; simp
    · rw [val _ hci, val _ hci, e, e, AKB14.ref_rs htab hci]
      have := hout hi' h; linarith
  · have hi' : i < p.2.length := by rw [hlen]; exact hi
    have hci : p.2[i] ∈ p.2 := List.getElem_mem hi'
    simp only [getD_row _ _ hi']
    refine ⟨ok _ hci _, ok _ hci _, ?_⟩
    rw [val _ hci, val _ hci, AKB14.ref_rs htab hci]
    have h9 : ((p.2[i]).a_9 : ℝ) ≤ 0 := by
      by_cases h51 : i < 51
      · exact (hmid hi' h43 h51).le
      · exact (hout hi' (by omega)).le
    have := AKB14.S_anti htab hci hv0 h750 hup
    linarith

example := C97_akb14_reverse ⟨[("mag", .num 6), ("dist_hyp", .num 10), ("v_s30", .num 200), ("mechanism", .str "SS")], []⟩
  ⟨[("mag", .num 6), ("dist_hyp", .num 10), ("v_s30", .num 200), ("mechanism", .str "RS")], []⟩ 6 200 none (some 10)
  none (by norm_num) (by simp) rfl rfl rfl rfl rfl rfl rfl rfl rfl rfl rfl rfl
