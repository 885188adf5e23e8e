import Verif.Props.Rock
import Verif.Props.SiteTerms

/-!
# C111: soft sites: weak motion is amplified, strong motion is deamplified

Two scenarios that agree on every key but `v_s30`, and a third one at the reference velocity of the model.
Whether the softer of the two sites has the higher or the lower ordinate is decided by the predicted
acceleration at the reference site.
-/

set_option linter.unusedSimpArgs false

namespace Soft

/-- The logarithm of the ratio of two shifted numbers against the logarithm of the ratio of the numbers: it is
strictly concave, so the slope at the ends brackets it. -/
theorem log_bracket {p A B : ℝ} (hp : 0 < p) (hA : 0 < A) (hAB : A < B) :
    A / (p + A) * Real.log (B / A) < Real.log ((p + B) / (p + A)) ∧
      Real.log ((p + B) / (p + A)) < B / (p + B) * Real.log (B / A) := by
  have hB : 0 < B := hA.trans hAB
  have hpA : 0 < p + A := by positivity
  have hpB : 0 < p + B := by positivity
  have hc := strictConcaveOn_log_Ioi
  have l1 := Real.log_div hB.ne' hA.ne'
  have l2 := Real.log_div hpB.ne' hpA.ne'
  constructor
  · have := @hc.2 1 (by simp) (B / A) (by simp; positivity) (by
        intro h; rw [eq_comm, div_eq_one_iff_eq hA.ne'] at h; linarith)
      (p / (p + A)) (A / (p + A)) (by positivity) (by positivity) (by field_simp)
    simp only [smul_eq_mul, Real.log_one, mul_zero, zero_add] at this
    refine this.trans_eq (congrArg _ ?_)
    field_simp
  · have := @hc.2 1 (by simp) (A / B) (by simp; positivity) (by
        intro h; rw [eq_comm, div_eq_one_iff_eq hB.ne'] at h; linarith)
      (p / (p + B)) (B / (p + B)) (by positivity) (by positivity) (by field_simp)
    simp only [smul_eq_mul, Real.log_one, mul_zero, zero_add] at this
    have e : p / (p + B) * 1 + B / (p + B) * (A / B) = (p + A) / (p + B) := by field_simp
    rw [e, Real.log_div hpA.ne' hpB.ne', Real.log_div hA.ne' hB.ne'] at this
    rw [l1, l2]
    nlinarith

section
variable {p c n w v v' : ℝ} (hp : 0 < p) (hc : 0 < c) (hn : 0 < n) (hw : 0 < w) (hv : 0 < v) (hvv : v < v')
include hp hc hn hw hv hvv

theorem powers : 0 < c * (v / w) ^ n ∧ c * (v / w) ^ n < c * (v' / w) ^ n ∧
    Real.log (c * (v' / w) ^ n / (c * (v / w) ^ n)) = n * Real.log (v' / v) := by
  have hv' := hv.trans hvv
  have h1 : 0 < (v / w) ^ n := Real.rpow_pos_of_pos (by positivity) _
  have h2 : 0 < (v' / w) ^ n := Real.rpow_pos_of_pos (by positivity) _
  refine ⟨by positivity, mul_lt_mul_of_pos_left (Real.rpow_lt_rpow (by positivity)
    (div_lt_div_of_pos_right hvv hw) hn) hc, ?_⟩
  rw [mul_div_mul_left _ _ hc.ne', Real.log_div h2.ne' h1.ne', Real.log_rpow (by positivity),
    Real.log_rpow (by positivity), Real.log_div hv'.ne' hw.ne', Real.log_div hv.ne' hw.ne',
    Real.log_div hv'.ne' hv.ne']
  ring

/-- the amplification outweighs the non-linear term -/
theorem amplified {a b : ℝ} (hb : 0 < b) (h : a * (p + c * (v / w) ^ n) ≤ b * n * (c * (v / w) ^ n)) :
    a * Real.log (v' / v) < b * (Real.log (p + c * (v' / w) ^ n) - Real.log (p + c * (v / w) ^ n)) := by
  obtain ⟨h1, h2, h3⟩ := powers hp hc hn hw hv hvv
  have hl : 0 < Real.log (v' / v) := Real.log_pos (by rwa [one_lt_div hv])
  have := (log_bracket hp h1 h2).1
  rw [h3, Real.log_div (x := p + _) (by linarith) (by linarith)] at this
  refine lt_of_le_of_lt ?_ (mul_lt_mul_of_pos_left this hb)
  have : a ≤ b * n * (c * (v / w) ^ n) / (p + c * (v / w) ^ n) := by
    rw [le_div_iff₀ (by positivity)]; exact h
  calc _ ≤ b * n * (c * (v / w) ^ n) / (p + c * (v / w) ^ n) * Real.log (v' / v) :=
        mul_le_mul_of_nonneg_right this hl.le
    _ = _ := by ring

/-- the non-linear term outweighs the amplification -/
theorem deamplified {a b : ℝ} (hb : 0 < b) (h : b * n * (c * (v' / w) ^ n) ≤ a * (p + c * (v' / w) ^ n)) :
    b * (Real.log (p + c * (v' / w) ^ n) - Real.log (p + c * (v / w) ^ n)) < a * Real.log (v' / v) := by
  obtain ⟨h1, h2, h3⟩ := powers hp hc hn hw hv hvv
  have hl : 0 < Real.log (v' / v) := Real.log_pos (by rwa [one_lt_div hv])
  have := (log_bracket hp h1 h2).2
  rw [h3, Real.log_div (x := p + _) (by linarith) (by linarith)] at this
  refine lt_of_lt_of_le (mul_lt_mul_of_pos_left this hb) ?_
  have h0 : 0 < p + c * (v' / w) ^ n := by linarith
  have : b * n * (c * (v' / w) ^ n) / (p + c * (v' / w) ^ n) ≤ a := by
    rw [div_le_iff₀ h0]; exact h
  calc _ = b * n * (c * (v' / w) ^ n) / (p + c * (v' / w) ^ n) * Real.log (v' / v) := by ring
    _ ≤ _ := mul_le_mul_of_nonneg_right this hl.le
end

/-- the site term of CB14, ASK14 and AGA16: `p` the reference acceleration, `w` the velocity from which on it
does not matter -/
noncomputable def L (a b c n w p v : ℝ) : ℝ :=
  if v ≤ w then a * Real.log (v / w) + b * (Real.log (p + c * (v / w) ^ n) - Real.log (p + c))
  else (a + b * n) * Real.log (v / w)

theorem L_top {a b c n w p : ℝ} (hw : 0 < w) : L a b c n w p w = 0 := by
  unfold L
  rw [if_pos le_rfl, div_self hw.ne', Real.log_one, Real.one_rpow]
  ring

theorem L_diff {a b c n w p v v' : ℝ} (hw : 0 < w) (hv : 0 < v) (hvv : v < v') (h : v' ≤ w) :
    L a b c n w p v' - L a b c n w p v = a * Real.log (v' / v) - (-b) *
      (Real.log (p + c * (v' / w) ^ n) - Real.log (p + c * (v / w) ^ n)) := by
  have hv' := hv.trans hvv
  unfold L
  rw [if_pos h, if_pos (hvv.le.trans h), Real.log_div hv'.ne' hw.ne', Real.log_div hv.ne' hw.ne',
    Real.log_div hv'.ne' hv.ne']
  ring

theorem L_anti_low {a b c n w p v v' K : ℝ} (hp : 0 < p) (hc : 0 < c) (hn : 0 < n) (hw : 0 < w) (hv : 0 < v)
    (hvv : v < v') (hb : b < 0 ∨ b = 0 ∧ a < 0) (hK : K * a ≤ c * (-b * n - a))
    (hx : a ≤ 0 ∨ p ≤ K * (v / w) ^ n) (h : v' ≤ w) : L a b c n w p v' < L a b c n w p v := by
  have e := L_diff (a := a) (b := b) (c := c) (n := n) (p := p) hw hv hvv h
  have hr : 0 < (v / w) ^ n := Real.rpow_pos_of_pos (by positivity) _
  rcases hb with hb | ⟨hb, ha⟩
  · have := amplified hp hc hn hw hv hvv (a := a) (b := -b) (by linarith) ?_
    · linarith
    · rcases le_or_gt a 0 with h0 | h0
      · have h1 : a * (p + c * (v / w) ^ n) ≤ 0 := mul_nonpos_of_nonpos_of_nonneg h0 (by positivity)
        have h2 : 0 ≤ -b * n * (c * (v / w) ^ n) := mul_nonneg (mul_nonneg (by linarith) hn.le) (by positivity)
        linarith
      · have hx' := hx.resolve_left (by linarith)
        have h1 := mul_le_mul_of_nonneg_left hx' h0.le
        have h2 := mul_le_mul_of_nonneg_right hK hr.le
        linarith
  · have hl : 0 < Real.log (v' / v) := Real.log_pos (by rwa [one_lt_div hv])
    have := mul_neg_of_neg_of_pos ha hl
    rw [hb] at e
    rw [hb]
    linarith

theorem L_anti_high {a b c n w p v v' : ℝ} (hw : 0 < w) (hab : a + b * n < 0) (hv : w ≤ v) (hvv : v < v') :
    L a b c n w p v' < L a b c n w p v := by
  have hvp := hw.trans_le hv
  have hvp' := hvp.trans hvv
  have e : L a b c n w p v = (a + b * n) * Real.log (v / w) := by
    rcases hv.eq_or_lt with rfl | h
    · rw [L_top hw, div_self hw.ne', Real.log_one, mul_zero]
    · unfold L; rw [if_neg (not_le.2 h)]
  have e' : L a b c n w p v' = (a + b * n) * Real.log (v' / w) := by
    unfold L; rw [if_neg (not_le.2 (hv.trans_lt hvv))]
  rw [e, e']
  exact mul_lt_mul_of_neg_left (Real.log_lt_log (by positivity) (div_lt_div_of_pos_right hvv hw)) hab

/-- weak motion: the softer site has the higher ordinate, at all velocities -/
theorem L_anti {a b c n w p v v' K : ℝ} (hp : 0 < p) (hc : 0 < c) (hn : 0 < n) (hw : 0 < w) (hv : 0 < v)
    (hvv : v < v') (hb : b < 0 ∨ b = 0 ∧ a < 0) (hab : a + b * n < 0) (hK : K * a ≤ c * (-b * n - a))
    (hx : a ≤ 0 ∨ p ≤ K * (v / w) ^ n) : L a b c n w p v' < L a b c n w p v := by
  rcases le_or_gt v' w with h | h
  · exact L_anti_low hp hc hn hw hv hvv hb hK hx h
  · rcases le_or_gt w v with h' | h'
    · exact L_anti_high hw hab h' hvv
    · exact (L_anti_high hw hab le_rfl h).trans (L_anti_low hp hc hn hw hv h' hb hK hx le_rfl)

/-- strong motion: the softer site has the lower ordinate -/
theorem L_mono {a b c n w p v v' K : ℝ} (hp : 0 < p) (hc : 0 < c) (hn : 0 < n) (hw : 0 < w) (hv : 0 < v)
    (hvv : v < v') (hb : b < 0) (ha : 0 ≤ a) (hK : c * (-b * n - a) ≤ K * a) (hx : K * (v' / w) ^ n ≤ p)
    (h : v' ≤ w) : L a b c n w p v < L a b c n w p v' := by
  have hv' := hv.trans hvv
  have e := L_diff (a := a) (b := b) (c := c) (n := n) (p := p) hw hv hvv h
  have hr : 0 < (v' / w) ^ n := Real.rpow_pos_of_pos (by positivity) _
  have := deamplified hp hc hn hw hv hvv (a := a) (b := -b) (by linarith) ?_
  · linarith
  · have h1 := mul_le_mul_of_nonneg_left hx ha
    have h2 := mul_le_mul_of_nonneg_right hK hr.le
    linarith

theorem rpow_scale {v w w' n : ℝ} (hv : 0 < v) (hw : 0 < w) (hww : w ≤ w') (hn : 0 < n) :
    (v / w') ^ n ≤ (v / w) ^ n :=
  Real.rpow_le_rpow (div_nonneg hv.le (hw.le.trans hww)) (div_le_div_of_nonneg_left hv.le hw hww) hn.le

end Soft

/-! ## AKB14 -/

namespace AKB14

theorem soft_rows : ∀ tbl ∈ tables, ∀ c ∈ tbl, c.b_2 < 0 ∧
    0.865 * (3.2 * (-c.b_2) + c.b_1) ≤ 2.5 * (-c.b_1) ∧
    (c.period = -1 ∨ 0.65 ≤ c.period → 3.2 * (-c.b_2) + c.b_1 ≤ 0) := by decide +kernel

theorem soft_head : ∀ tbl ∈ tables, ∀ c ∈ tbl.head?, c.period = 0 ∧
    2.08 * (3.2 * (-c.b_2) + c.b_1) ≤ 2.5 * (-c.b_1) ∧
    2.5 * (-c.b_1) ≤ 2.09 * (3.2 * (-c.b_2) + c.b_1) := by decide +kernel

theorem soft_period : ∀ tbl ∈ tables, ∀ i : ℕ, i = 1 ∨ 36 ≤ i → ∀ c : Row, tbl[i]? = some c →
    c.period = -1 ∨ 0.65 ≤ c.period := by
  have h : ∀ tbl ∈ tables, ∀ i : Fin 64, i.val = 1 ∨ 36 ≤ i.val → ∀ c : Row, c ∈ tbl[i.val]? →
      c.period = -1 ∨ 0.65 ≤ c.period := by decide +kernel
  intro tbl ht i hi c hc
  have hl := (head_facts tbl ht).1
  have : i < tbl.length := (List.getElem?_eq_some_iff.1 hc).1
  exact h tbl ht ⟨i, by omega⟩ hi c hc

theorem S_diff (c : Row) (x : ℝ) {v v' : ℝ} (hv : 0 < v) (hvv : v < v') (h : v' ≤ 750) :
    S c v' x - S c v x = (3.2 * (-c.b_2) + c.b_1) * Real.log (v' / v) - (-c.b_2) *
      (Real.log (Real.exp x + 2.5 * (v' / 750) ^ (3.2 : ℝ)) -
        Real.log (Real.exp x + 2.5 * (v / 750) ^ (3.2 : ℝ))) := by
  have hv' := hv.trans hvv
  unfold S
  rw [min_eq_left h, min_eq_left (by linarith : v' ≤ 1000), min_eq_left (by linarith : v ≤ 750),
    min_eq_left (by linarith : v ≤ 1000), Real.log_div hv'.ne' hv.ne', Real.log_div hv'.ne' (by norm_num),
    Real.log_div hv.ne' (by norm_num)]
  ring

theorem S_ref (c : Row) (x : ℝ) : S c 750 x = 0 := by
  unfold S
  rw [min_self, min_eq_left (by norm_num), div_self (by norm_num), Real.log_one, Real.one_rpow]
  ring

theorem S_amp {tbl : List Row} (ht : tbl ∈ tables) {c : Row} (hc : c ∈ tbl) {x : ℝ} {K : ℝ}
    (hK : K * (3.2 * (-c.b_2) + c.b_1) ≤ 2.5 * (-c.b_1)) {v v' : ℝ} (hv : 0 < v) (hvv : v < v') (h : v' ≤ 750)
    (hx : (3.2 * (-c.b_2) + c.b_1 : ℝ) ≤ 0 ∨ Real.exp x ≤ K * (v / 750) ^ (3.2 : ℝ)) :
    S c v' x < S c v x := by
  obtain ⟨hb, -⟩ := soft_rows tbl ht c hc
  have hb' : (c.b_2 : ℝ) < 0 := by exact_mod_cast hb
  have hr : 0 < (v / 750) ^ (3.2 : ℝ) := Real.rpow_pos_of_pos (by positivity) _
  have he := Real.exp_pos x
  have := Soft.amplified he (by norm_num : (0 : ℝ) < 2.5) (by norm_num : (0 : ℝ) < 3.2)
    (by norm_num : (0 : ℝ) < 750) hv hvv (a := 3.2 * (-c.b_2) + c.b_1) (b := -c.b_2) (by linarith) ?_
  · have e := S_diff c x hv hvv h
    linarith
  · rcases le_or_gt (3.2 * (-c.b_2) + c.b_1 : ℝ) 0 with h0 | h0
    · have h1 := mul_nonneg_of_nonpos_of_nonpos h0 h0
      have : (3.2 * (-c.b_2) + c.b_1 : ℝ) * (Real.exp x + 2.5 * (v / 750) ^ (3.2 : ℝ)) ≤ 0 :=
        mul_nonpos_of_nonpos_of_nonneg h0 (by positivity)
      have : 0 ≤ -(c.b_2 : ℝ) * 3.2 * (2.5 * (v / 750) ^ (3.2 : ℝ)) :=
        mul_nonneg (by linarith) (by positivity)
      linarith
    · have hx' := hx.resolve_left (by linarith)
      have h1 := mul_le_mul_of_nonneg_left hx' h0.le
      have h2 := mul_le_mul_of_nonneg_right hK hr.le
      linarith

theorem S_deamp {tbl : List Row} (ht : tbl ∈ tables) {c : Row} (hc : c ∈ tbl) {x : ℝ} {K : ℝ}
    (hK : 2.5 * (-c.b_1) ≤ K * (3.2 * (-c.b_2) + c.b_1)) {v v' : ℝ} (hv : 0 < v) (hvv : v < v') (h : v' ≤ 750)
    (h0 : (0 : ℝ) ≤ 3.2 * (-c.b_2) + c.b_1) (hx : K * (v' / 750) ^ (3.2 : ℝ) ≤ Real.exp x) :
    S c v x < S c v' x := by
  obtain ⟨hb, -⟩ := soft_rows tbl ht c hc
  have hb' : (c.b_2 : ℝ) < 0 := by exact_mod_cast hb
  have hv' := hv.trans hvv
  have hr : 0 < (v' / 750) ^ (3.2 : ℝ) := Real.rpow_pos_of_pos (by positivity) _
  have he := Real.exp_pos x
  have := Soft.deamplified he (by norm_num : (0 : ℝ) < 2.5) (by norm_num : (0 : ℝ) < 3.2)
    (by norm_num : (0 : ℝ) < 750) hv hvv (a := 3.2 * (-c.b_2) + c.b_1) (b := -c.b_2) (by linarith) ?_
  · have e := S_diff c x hv hvv h
    linarith
  · have h1 := mul_le_mul_of_nonneg_left hx h0
    have h2 := mul_le_mul_of_nonneg_right hK hr.le
    linarith

end AKB14

/-- AKB14, sites up to 750 m/s.  `p` is the predicted peak acceleration at 750 m/s.  If `p` is at most
`0.865 (v / 750) ^ 3.2`, every ordinate is strictly higher at the softer site.  The peak velocity and the
ordinates from 0.65 s on are strictly higher at the softer site whatever `p` is.  The peak acceleration is
strictly higher if `p ≤ 2.08 (v / 750) ^ 3.2` and strictly lower if `p ≥ 2.09 (v' / 750) ^ 3.2`. -/
theorem C111_akb14 (s s' s0 : Scenario) (m v v' : ℝ) (t : String) (a b c : Option ℝ)
    (hm : s.get "mag" = .num m) (hv : s.get "v_s30" = .num v) (ht : s.get "mechanism" = .str t)
    (ha : s.get "dist_jb" = Val.ofOpt a) (hb : s.get "dist_hyp" = Val.ofOpt b)
    (hc : s.get "dist_epi" = Val.ofOpt c) (hst : AgreeExcept ["v_s30"] s s') (hv' : s'.get "v_s30" = .num v')
    (hs0 : AgreeExcept ["v_s30"] s s0) (hv0 : s0.get "v_s30" = .num 750)
    (hd : ¬ (a = none ∧ b = none ∧ c = none)) (h1 : 0 < v) (h2 : v < v') (h3 : v' ≤ 750) :
    ∃ o o' o0 p, Gives AKB14.cls s o ∧ Gives AKB14.cls s' o' ∧ Gives AKB14.cls s0 o0 ∧
      p = Real.exp (o0.lnResp.getD 0 F.nan).val ∧
      (p ≤ 0.865 * (v / 750) ^ (3.2 : ℝ) → List.Forall₂ F.Drops o.lnResp o'.lnResp) ∧
      (∀ i, i = 1 ∨ 36 ≤ i → i < 64 → F.Drops (o.lnResp.getD i F.nan) (o'.lnResp.getD i F.nan)) ∧
      (p ≤ 2.08 * (v / 750) ^ (3.2 : ℝ) → F.Drops (o.lnResp.getD 0 F.nan) (o'.lnResp.getD 0 F.nan)) ∧
      (2.09 * (v' / 750) ^ (3.2 : ℝ) ≤ p → F.Drops (o'.lnResp.getD 0 F.nan) (o.lnResp.getD 0 F.nan)) := by
  obtain ⟨p, hp⟩ : ∃ p, AKB14.spec a b c = some p := by
    cases a <;> cases b <;> cases c <;> simp_all [AKB14.spec]
  have htb := AKB14.spec_table hp
  obtain ⟨hl, r, hr⟩ := AKB14.head_facts _ htb
  have hrm : r ∈ p.2 := List.mem_of_head? hr
  have hr0 : p.2[0]? = some r := by rw [← List.head?_eq_getElem?]; exact hr
  have v'0 := h1.trans h2
  refine ⟨_, _, _, _, AKB14.gives s hm hv ht ha hb hc hp,
    AKB14.gives s' ((hst _ (by decide)).trans hm) hv' ((hst _ (by decide)).trans ht)
    ((hst _ (by decide)).trans ha) ((hst _ (by decide)).trans hb) ((hst _ (by decide)).trans hc) hp,
    AKB14.gives s0 ((hs0 _ (by decide)).trans hm) hv0 ((hs0 _ (by decide)).trans ht)
    ((hs0 _ (by decide)).trans ha) ((hs0 _ (by decide)).trans hb) ((hs0 _ (by decide)).trans hc) hp, rfl, ?_⟩
  have key : ∀ q ∈ p.2, ∀ v : ℝ, 0 < v → (AKB14.lnRef q (F.ofReal m) (F.ofReal p.1) (AKB14.mechFor t) +
      AKB14.site q (F.ofReal v) (F.exp (AKB14.lnRef r (F.ofReal m) (F.ofReal p.1) (AKB14.mechFor t)))).ok ∧
      (AKB14.lnRef q (F.ofReal m) (F.ofReal p.1) (AKB14.mechFor t) +
      AKB14.site q (F.ofReal v) (F.exp (AKB14.lnRef r (F.ofReal m) (F.ofReal p.1) (AKB14.mechFor t)))).val =
      (AKB14.lnRef q (F.ofReal m) (F.ofReal p.1) (AKB14.mechFor t)).val +
        AKB14.S q v (AKB14.lnRef r (F.ofReal m) (F.ofReal p.1) (AKB14.mechFor t)).val := by
    intro q hq v hv
    have o1 := AKB14.lnRef_ok htb hq m p.1 (AKB14.mechFor t)
    have o2 := AKB14.lnRef_ok htb hrm m p.1 (AKB14.mechFor t)
    exact ⟨⟨o1, AKB14.site_ok htb hq hv o2⟩, by rw [F.val_add, AKB14.site_val htb hq hv]⟩
  simp only [AKB14.out, AKB14.pgaRef_eq hr, List.getD_eq_getElem?_getD, List.getElem?_map, hr0, Option.map_some,
    Option.getD_some]
  have e0 := (key r hrm 750 (by norm_num)).2
  rw [AKB14.S_ref, add_zero] at e0
  rw [e0]
  have drops : ∀ q ∈ p.2, ∀ K : ℝ, K * (3.2 * (-q.b_2) + q.b_1) ≤ 2.5 * (-q.b_1) →
      ((3.2 * (-q.b_2) + q.b_1 : ℝ) ≤ 0 ∨
        Real.exp (AKB14.lnRef r (F.ofReal m) (F.ofReal p.1) (AKB14.mechFor t)).val ≤
          K * (v / 750) ^ (3.2 : ℝ)) → F.Drops
      (AKB14.lnRef q (F.ofReal m) (F.ofReal p.1) (AKB14.mechFor t) +
      AKB14.site q (F.ofReal v) (F.exp (AKB14.lnRef r (F.ofReal m) (F.ofReal p.1) (AKB14.mechFor t))))
      (AKB14.lnRef q (F.ofReal m) (F.ofReal p.1) (AKB14.mechFor t) +
      AKB14.site q (F.ofReal v') (F.exp (AKB14.lnRef r (F.ofReal m) (F.ofReal p.1) (AKB14.mechFor t)))) := by
    intro q hq K hK hx
    refine ⟨(key q hq v h1).1, (key q hq v' v'0).1, ?_⟩
    rw [(key q hq v h1).2, (key q hq v' v'0).2]
    have := AKB14.S_amp htb hq hK h1 h2 h3 hx
    linarith
  obtain ⟨-, f1, f2⟩ := AKB14.soft_head _ htb r hr
  have f1' : (2.08 : ℝ) * (3.2 * (-r.b_2) + r.b_1) ≤ 2.5 * (-r.b_1) := by
    have := (Rat.cast_le (K := ℝ)).2 f1; push_cast at this; linarith
  have f2' : (2.5 : ℝ) * (-r.b_1) ≤ 2.09 * (3.2 * (-r.b_2) + r.b_1) := by
    have := (Rat.cast_le (K := ℝ)).2 f2; push_cast at this; linarith
  refine ⟨?_, ?_, ?_, ?_⟩
  · intro hx
    apply forall₂_map
    intro q hq
    obtain ⟨-, g1, -⟩ := AKB14.soft_rows _ htb q hq
    exact drops q hq 0.865 (by have := (Rat.cast_le (K := ℝ)).2 g1; push_cast at this; linarith) (.inr hx)
  · intro i hi hi64
    obtain ⟨q, hq⟩ : ∃ q, p.2[i]? = some q := ⟨_, List.getElem?_eq_getElem (by omega)⟩
    have hqm := List.mem_of_getElem? hq
    simp only [hq, Option.map_some, Option.getD_some]
    obtain ⟨-, g1, g2⟩ := AKB14.soft_rows _ htb q hqm
    have : q.period = -1 ∨ 0.65 ≤ q.period := AKB14.soft_period _ htb i hi q hq
    exact drops q hqm 0.865 (by have := (Rat.cast_le (K := ℝ)).2 g1; push_cast at this; linarith) (.inl (by have := (Rat.cast_le (K := ℝ)).2 (g2 this); push_cast at this; linarith))
  · exact fun hx => drops r hrm 2.08 f1' (.inr hx)
  · intro hx
    refine ⟨(key r hrm v' v'0).1, (key r hrm v h1).1, ?_⟩
    rw [(key r hrm v h1).2, (key r hrm v' v'0).2]
    have h0 : (0 : ℝ) ≤ 3.2 * (-r.b_2) + r.b_1 := by
      have : (r.b_1 : ℝ) < 0 := by exact_mod_cast (AKB14.vcon _ htb r hrm).2
      linarith
    have := AKB14.S_deamp htb hrm f2' h1 h2 h3 h0 hx
    linarith

/-! ## CB14 -/

namespace CB14

theorem siteR_L (c : Row) (v p : ℝ) :
    siteR c v p = Soft.L c.c_11 c.k_2 1.88 1.18 c.k_1 p v := rfl

theorem soft_rows : ∀ c ∈ table, (c.k_2 < 0 ∨ c.k_2 = 0 ∧ c.c_11 < 0) ∧ c.c_11 + c.k_2 * 1.18 < 0 ∧
    0.18 * c.c_11 ≤ 1.88 * (-c.k_2 * 1.18 - c.c_11) ∧ (2 ≤ c.period → c.c_11 < 0) := by decide +kernel

theorem soft_pga : pgaRow.k_1 = 865 ∧ pgaRow.k_2 < 0 ∧ 0 < pgaRow.c_11 ∧
    0.533 * pgaRow.c_11 ≤ 1.88 * (-pgaRow.k_2 * 1.18 - pgaRow.c_11) ∧
    1.88 * (-pgaRow.k_2 * 1.18 - pgaRow.c_11) ≤ 0.534 * pgaRow.c_11 := by decide +kernel

theorem soft_period (i : ℕ) (h1 : 15 ≤ i) (h2 : i < 21) (c : Row) (hc : table[i]? = some c) :
    2 ≤ c.period := by
  have h : ∀ i : Fin 21, 15 ≤ i.val → ∀ c : Row, c ∈ table[i.val]? → 2 ≤ c.period := by decide +kernel
  exact h ⟨i, h2⟩ h1 c hc

/-- the acceleration predicted at 1100 m/s with the depth left out is the reference acceleration -/
theorem ref_pga {g : Given} {mech : Mech} (hreg : Regular g mech) (reg : Reg) :
    F.exp ((out (({ g with v := 1100, z25 := none } : Given).toIn mech reg)).gmm.lnResp.getD 21 F.nan) =
      pgaRef (g.toIn mech reg) := by
  set g0 : Given := { g with v := 1100, z25 := none } with hg0
  have hreg0 : Regular g0 mech := ⟨hreg.dip, hreg.hw⟩
  have hpm : pgaRow ∈ table := pgaRow_mem
  have b1 := resp_ok hpm hreg0 (by norm_num [hg0]) reg
  have hk2' : (pgaRow.k_1 : ℝ) < 1100 := by exact_mod_cast (row_facts _ hpm).2.1
  have e : g0.effZ25 reg = depth25OfVs (F.ofReal 1100) (reg = .japan) := by
    have : (depth25OfVs (F.ofReal 1100) (decide (reg = .japan))).ok := by
      cases (decide (reg = .japan)) <;> simp [depth25OfVs]
    exact F.orEst_none this
  have rock : (siteTerm pgaRow (some (pgaRef (g0.toIn mech reg))) (F.ofReal 1100) (g0.effZ25 reg) (reg = .japan)).val =
      (siteTerm pgaRow none (F.ofReal 1100) F.nan (reg = .japan)).val := by
    rw [e]
    simp only [siteTerm, fSite, fsimp, if_neg (not_le.2 hk2')]
  rw [out_resp _ (k := 21) (by rw [table_length]; norm_num)]
  apply F.ext
  · rw [F.val_exp, pgaRef_eq (g.toIn mech reg), F.val_exp, lnResp_val pgaRow]
    refine congrArg Real.exp ?_
    change (lnResp pgaRow (g0.toIn mech reg) (some (pgaRef (g0.toIn mech reg))) (F.ofReal 1100)).val = _
    rw [lnResp_val]
    change (rest pgaRow (g.toIn mech reg)).val + (siteTerm pgaRow (some (pgaRef (g0.toIn mech reg)))
      (F.ofReal 1100) (g0.effZ25 reg) (reg = .japan)).val = _
    rw [rock]
    rfl
  · have q1 := pgaRef_ok hreg reg
    simp only [F.ok_exp, q1, iff_true, eq_iff_iff]
    exact b1

/-- only the site term of the Western United States changes -/
theorem resp_soft {c : Row} (hc : c ∈ table) {g : Given} {mech : Mech} (hr : Regular g mech) {reg : Reg}
    (hz : g.z25 ≠ none) (hj : reg ≠ .japan) {v' : ℝ} (hv : 0 < g.v) (hvv : 0 < v') :
    let i := g.toIn mech reg
    let j := ({ g with v := v' } : Given).toIn mech reg
    (lnResp c i (some (pgaRef i)) i.v).ok ∧ (lnResp c j (some (pgaRef j)) j.v).ok ∧
      (lnResp c j (some (pgaRef j)) j.v).val - (lnResp c i (some (pgaRef i)) i.v).val =
        siteR c v' (pgaRef i).val - siteR c g.v (pgaRef i).val := by
  intro i j
  have hr' : Regular { g with v := v' } mech := ⟨hr.dip, hr.hw⟩
  refine ⟨resp_ok hc hr hv reg, resp_ok (g := { g with v := v' }) hc hr' hvv reg, ?_⟩
  have e1 := resp_val c g mech reg
  have e2 := resp_val c { g with v := v' } mech reg
  change (lnResp c j (some (pgaRef j)) j.v).val = _ at e2
  change (lnResp c i (some (pgaRef i)) i.v).val = _ at e1
  rw [e1, e2]
  have hzz : ({ g with v := v' } : Given).effZ25 reg = g.effZ25 reg := by
    obtain ⟨z, hz⟩ := Option.ne_none_iff_exists'.1 hz
    simp only [Given.effZ25, hz, F.orEst]
  rw [hzz]
  change (rest c i).val + surfR c v' (pgaRef i).val _ _ - ((rest c i).val + _) = _
  unfold surfR
  simp only [hj, decide_false, Bool.false_eq_true, if_false]
  ring

end CB14

/-- CB14 outside Japan, `depth_2_5` given.  `p` is the predicted peak acceleration of the same scenario at
1100 m/s with the depth left out.  If `p ≤ 0.18 (v / 1086) ^ 1.18`, every ordinate is strictly higher at the
softer site, whatever the two velocities are.  The ordinates from 2 s to 10 s are strictly higher at the softer site
whatever `p` is.  The peak acceleration is strictly higher if `p ≤ 0.533 (v / 865) ^ 1.18` and, below 865 m/s,
strictly lower if `p ≥ 0.534 (v' / 865) ^ 1.18`. -/
theorem C111_cb14 (s t s0 : Scenario) (g g' : CB14.Given) (h : CB14.Source s g) (h' : CB14.Source t g')
    (hst : AgreeExcept ["v_s30"] s t) (h0 : CB14.Source s0 { g with v := 1100, z25 := none })
    (hm0 : s0.get "mechanism" = s.get "mechanism") (hr0 : s0.get "region" = s.get "region")
    (hr : CB14.Regular g (CB14.mechOf (s.get "mechanism"))) (hj : s.get "region" ≠ .str "japan")
    (hz : g.z25 ≠ none) (hv : 0 < g.v) (hvv : g.v < g'.v) :
    ∃ o o' o0 p, Gives CB14.cls s o ∧ Gives CB14.cls t o' ∧ Gives CB14.cls s0 o0 ∧
      p = Real.exp (o0.gmm.lnResp.getD 21 F.nan).val ∧
      (p ≤ 0.18 * (g.v / 1086) ^ (1.18 : ℝ) → List.Forall₂ F.Drops o.gmm.lnResp o'.gmm.lnResp) ∧
      (∀ i, 15 ≤ i → i < 21 → F.Drops (o.gmm.lnResp.getD i F.nan) (o'.gmm.lnResp.getD i F.nan)) ∧
      (p ≤ 0.533 * (g.v / 865) ^ (1.18 : ℝ) →
        F.Drops (o.gmm.lnResp.getD 21 F.nan) (o'.gmm.lnResp.getD 21 F.nan)) ∧
      (0.534 * (g'.v / 865) ^ (1.18 : ℝ) ≤ p → g'.v ≤ 865 →
        F.Drops (o'.gmm.lnResp.getD 21 F.nan) (o.gmm.lnResp.getD 21 F.nan)) := by
  have e := CB14.given_agree h h' hst
  have h2 := CB14.gives h' (by linarith)
  rw [hst "mechanism" (by decide), hst "region" (by decide), e] at h2
  have G0 := CB14.gives h0 (by norm_num)
  rw [hm0, hr0] at G0
  have hjr : CB14.regOf (s.get "region") ≠ .japan := by
    have := CB14.regOf_japan (s.get "region")
    simp only [Val.isStr, hj, decide_false] at this
    simpa using this.symm
  refine ⟨_, _, _, _, CB14.gives h hv.ne', h2, G0, rfl, ?_⟩
  have key := fun (c : CB14.Row) (hc : c ∈ CB14.table) => CB14.resp_soft hc hr hz hjr (v' := g'.v) hv (hv.trans hvv)
  have hp := CB14.ref_pga hr (CB14.regOf (s.get "region"))
  have hpv : Real.exp ((CB14.out (({ g with v := 1100, z25 := none } : CB14.Given).toIn
      (CB14.mechOf (s.get "mechanism")) (CB14.regOf (s.get "region")))).gmm.lnResp.getD 21 F.nan).val =
      (CB14.pgaRef (g.toIn (CB14.mechOf (s.get "mechanism")) (CB14.regOf (s.get "region")))).val := by
    rw [← hp]; rfl
  rw [hpv]
  have p0 := CB14.pgaRef_pos (g.toIn (CB14.mechOf (s.get "mechanism")) (CB14.regOf (s.get "region")))
  have drops : ∀ c ∈ CB14.table, ∀ K : ℝ, K * c.c_11 ≤ 1.88 * (-c.k_2 * 1.18 - c.c_11) →
      ((c.c_11 : ℝ) ≤ 0 ∨ (CB14.pgaRef (g.toIn (CB14.mechOf (s.get "mechanism"))
        (CB14.regOf (s.get "region")))).val ≤ K * (g.v / c.k_1) ^ (1.18 : ℝ)) → _ := fun c hc K hK hx => by
    obtain ⟨q1, q2, -⟩ := CB14.soft_rows c hc
    have k0 : (0 : ℝ) < c.k_1 := by exact_mod_cast (CB14.row_facts c hc).1
    obtain ⟨a1, a2, a3⟩ := key c hc
    have := Soft.L_anti (a := c.c_11) (b := c.k_2) (c := 1.88) (n := 1.18) (w := c.k_1) p0 (by norm_num) (by norm_num)
      k0 hv hvv (by exact_mod_cast q1) (by
        have := (Rat.cast_lt (K := ℝ)).2 q2; push_cast at this; linarith) hK hx
    exact (⟨a1, a2, by rw [CB14.siteR_L, CB14.siteR_L] at a3; linarith⟩ : F.Drops _ _)
  obtain ⟨f0, f1, f2, f3, f4⟩ := CB14.soft_pga
  have hpm := CB14.pgaRow_mem
  have f0' : (CB14.pgaRow.k_1 : ℝ) = 865 := by rw [f0]; norm_num
  refine ⟨?_, ?_, ?_, ?_⟩
  · intro hx
    simp only [CB14.out]
    refine forall₂_map fun c hc => ?_
    obtain ⟨-, -, q3, -⟩ := CB14.soft_rows c hc
    have k0 : (0 : ℝ) < c.k_1 := by exact_mod_cast (CB14.row_facts c hc).1
    have k1 : (c.k_1 : ℝ) ≤ 1086 := by exact_mod_cast (CB14.rock_rows c hc).1
    have := Soft.rpow_scale hv k0 k1 (by norm_num : (0 : ℝ) < 1.18)
    exact drops c hc 0.18 (by have := (Rat.cast_le (K := ℝ)).2 q3; push_cast at this; linarith)
      (.inr (by linarith))
  · intro i h1 h2
    have hl : i < CB14.table.length := by rw [CB14.table_length]; omega
    have hi : CB14.table[i]? = some (CB14.table[i]'hl) := List.getElem?_eq_getElem hl
    have hc := List.mem_of_getElem? hi
    obtain ⟨-, -, q3, q4⟩ := CB14.soft_rows _ hc
    have hper := CB14.soft_period i h1 h2 _ hi
    rw [CB14.out_resp _ hl, CB14.out_resp _ hl]
    exact drops _ hc 0.18 (by have := (Rat.cast_le (K := ℝ)).2 q3; push_cast at this; linarith)
      (.inl (by exact_mod_cast (q4 hper).le))
  · intro hx
    rw [CB14.out_resp _ (k := 21) (by rw [CB14.table_length]; norm_num),
      CB14.out_resp _ (k := 21) (by rw [CB14.table_length]; norm_num)]
    exact drops CB14.pgaRow hpm 0.533 (by have := (Rat.cast_le (K := ℝ)).2 f3; push_cast at this; linarith)
      (.inr (by rw [f0']; exact hx))
  · intro hx h865
    rw [CB14.out_resp _ (k := 21) (by rw [CB14.table_length]; norm_num),
      CB14.out_resp _ (k := 21) (by rw [CB14.table_length]; norm_num)]
    obtain ⟨a1, a2, a3⟩ := key _ hpm
    have := Soft.L_mono (a := CB14.pgaRow.c_11) (b := CB14.pgaRow.k_2) (c := 1.88) (n := 1.18) (w := CB14.pgaRow.k_1)
      (K := 0.534) p0 (by norm_num) (by norm_num) (by rw [f0']; norm_num) hv hvv (by exact_mod_cast f1)
      (by exact_mod_cast f2.le) (by have := (Rat.cast_le (K := ℝ)).2 f4; push_cast at this; linarith)
      (by rw [f0']; exact hx) (by rw [f0']; exact h865)
    exact (⟨a2, a1, by rw [CB14.siteR_L, CB14.siteR_L] at a3; exact sub_pos.1 (a3 ▸ sub_pos.2 this)⟩ : F.Drops _ _)

/-! ## ASK14 -/

namespace ASK14

theorem f5R_L {c : Row} (hc : c ∈ table) {v : ℝ} (hv : v ≤ 800) (x : ℝ) :
    f5R c v x = Soft.L c.a10 c.b c.c 1.5 c.v_lin (Real.exp x) v := by
  obtain ⟨h1, h2, h3⟩ := vlin_pos hc
  have h4 := v1R_ge c
  have hq : ratioR c v = v / c.v_lin := by
    unfold ratioR; rw [min_eq_left (by linarith)]
  unfold f5R Soft.L
  by_cases h : v < c.v_lin
  · rw [if_pos ((ratioR_lt hc).2 h), if_pos h.le, hq]; ring
  · rw [if_neg (fun q => h ((ratioR_lt hc).1 q)), hq, n_val hc]
    by_cases h' : v ≤ c.v_lin
    · have : v = c.v_lin := le_antisymm h' (not_lt.1 h)
      rw [if_pos h', this, div_self (by linarith), Real.log_one, Real.one_rpow]
      ring
    · rw [if_neg h']

theorem soft_rows : ∀ c ∈ table, 0 < c.c ∧ (c.b < 0 ∨ c.b = 0 ∧ c.a10 < 0) ∧ c.a10 + c.b * 1.5 < 0 ∧
    0.48 * c.a10 ≤ c.c * (-c.b * 1.5 - c.a10) ∧ (3 ≤ c.period → c.a10 ≤ 0) := by decide +kernel

theorem soft_short : ∀ i : Fin 24, i.val ≤ 13 ∨ i.val = 22 → ∀ c : Row, c ∈ table[i.val]? →
    330 ≤ c.v_lin ∧ c.b < 0 ∧ 0 < c.a10 ∧ c.c * (-c.b * 1.5 - c.a10) ≤ 1.05 * c.a10 := by decide +kernel

theorem soft_long : ∀ i : Fin 24, 16 ≤ i.val ∧ i.val ≤ 21 → ∀ c : Row, c ∈ table[i.val]? → c.a10 ≤ 0 := by
  decide +kernel

theorem soft_pga : ∀ c : Row, c ∈ table[22]? → c.v_lin = 660 ∧
    0.65 * c.a10 ≤ c.c * (-c.b * 1.5 - c.a10) ∧ c.c * (-c.b * 1.5 - c.a10) ≤ 0.6502 * c.a10 := by
  decide +kernel

theorem ref_soft {c : Row} (hc : c ∈ table) {g : Given} {k : Kind}
    (hr : k.reg = .other ∨ k.reg = .china) :
    (lnResp c (({ g with v := 1180 } : Given).toIn k)).val = refR c g k := by
  have er : refR c { g with v := 1180 } k = refR c g k := rfl
  have v0 := resp_val hc { g with v := 1180 } k
  have f0 := (f10_ref c g.z1 (decide (k.reg = .japan))).2
  have fn : f5R c 1180 (refR c g k) = (c.a10 + (c.b : ℝ) * c.n) * Real.log (ratioR c 1180) := by
    have hn : ¬ ratioR c 1180 < 1 := by
      rw [ratioR_lt hc]; linarith [(vlin_pos hc).2.1]
    simp [f5R, hn]
  have eb : baseF c (({ g with v := 1180 } : Given).toIn k) = baseF c (g.toIn k) := rfl
  have hfr : freg c (F.ofReal 1180) (F.ofReal g.rup) k.reg = freg c vRef (F.ofReal g.rup) k.reg := by
    rcases hr with hr | hr <;> rw [hr] <;> rfl
  rw [v0, eb, er]
  simp only []
  rw [fn, hfr, refR]
  change _ + (f10 c vRef _ _).val = _
  rw [f0]; ring

theorem resp_soft {c : Row} (hc : c ∈ table) {g : Given} {k : Kind} (hk : g.HwOk k) {v' : ℝ} (hz : g.z1 = none)
    (hr : k.reg = .other ∨ k.reg = .china) (hv : 0 < g.v) (hv' : 0 < v') :
    (lnResp c (g.toIn k)).ok ∧ (lnResp c (({ g with v := v' } : Given).toIn k)).ok ∧
    (lnResp c (({ g with v := v' } : Given).toIn k)).val - (lnResp c (g.toIn k)).val =
      f5R c v' (refR c g k) - f5R c g.v (refR c g k) := by
  have o1 : (lnResp c (g.toIn k)).ok := resp_ok hc hk hv (by simp [hz])
  have o2 : (lnResp c (({ g with v := v' } : Given).toIn k)).ok :=
    resp_ok (g := { g with v := v' }) hc hk hv' (by simp [hz])
  refine ⟨o1, o2, ?_⟩
  have e1 := resp_val hc g k
  have e2 := resp_val hc { g with v := v' } k
  have z1 : (f10 c (F.ofReal g.v) (g.z1.map F.ofReal) (k.reg = .japan)).val = 0 := by rw [hz]; simp [f10]
  have z2 : (f10 c (F.ofReal v') (({ g with v := v' } : Given).z1.map F.ofReal) (k.reg = .japan)).val = 0 := by
    change (f10 c (F.ofReal v') (g.z1.map F.ofReal) (k.reg = .japan)).val = 0
    rw [hz]; simp [f10]
  have hreg : freg c (F.ofReal v') (F.ofReal g.rup) k.reg = freg c (F.ofReal g.v) (F.ofReal g.rup) k.reg := by
    rcases hr with hr | hr <;> rw [hr] <;> rfl
  have hbase : baseF c (({ g with v := v' } : Given).toIn k) = baseF c (g.toIn k) := rfl
  have er : refR c { g with v := v' } k = refR c g k := rfl
  rw [z1] at e1
  rw [z2, hreg, hbase, er] at e2
  rw [e1, e2]
  ring

end ASK14

/-- ASK14 outside Japan and Taiwan, without `depth_1_0`, sites up to 800 m/s.  `p i` is the predicted ordinate
`i` of the same scenario at 1180 m/s: unlike in the other models, each ordinate is compared with its own
reference motion.  Ordinate `i` is strictly higher at the softer site if `p i ≤ 0.48 (v / 960) ^ 1.5`, and
from 3 s to 10 s whatever `p i` is; up to 1 s, PGA included, and below 330 m/s it is strictly lower if
`p i ≥ 1.05 (v' / 330) ^ 1.5`.  PGA is strictly higher if `p 22 ≤ 0.65 (v / 660) ^ 1.5` and, below 660 m/s, strictly
lower if `p 22 ≥ 0.6502 (v' / 660) ^ 1.5`. -/
theorem C111_ask14 (s t s0 : Scenario) (g g' : ASK14.Given) (h : ASK14.Source s g) (h' : ASK14.Source t g')
    (hst : AgreeExcept ["v_s30"] s t) (h0 : ASK14.Source s0 { g with v := 1180 })
    (hs0 : AgreeExcept ["v_s30"] s s0) (hk0 : g.HwOk (ASK14.kindOf s))
    (hr : s.get "region" ≠ .str "japan" ∧ s.get "region" ≠ .str "taiwan") (hz : g.z1 = none) (hv : 0 < g.v)
    (hvv : g.v < g'.v) (hv8 : g'.v ≤ 800) :
    ∃ o o' o0, ∃ p : ℕ → ℝ, Gives ASK14.cls s o ∧ Gives ASK14.cls t o' ∧ Gives ASK14.cls s0 o0 ∧
      (∀ i, p i = Real.exp (o0.gmm.lnResp.getD i F.nan).val) ∧
      (∀ i, i < 24 → p i ≤ 0.48 * (g.v / 960) ^ (1.5 : ℝ) ∨ 16 ≤ i ∧ i ≤ 21 →
        F.Drops (o.gmm.lnResp.getD i F.nan) (o'.gmm.lnResp.getD i F.nan)) ∧
      (∀ i, i ≤ 13 ∨ i = 22 → 1.05 * (g'.v / 330) ^ (1.5 : ℝ) ≤ p i → g'.v ≤ 330 →
        F.Drops (o'.gmm.lnResp.getD i F.nan) (o.gmm.lnResp.getD i F.nan)) ∧
      (p 22 ≤ 0.65 * (g.v / 660) ^ (1.5 : ℝ) →
        F.Drops (o.gmm.lnResp.getD 22 F.nan) (o'.gmm.lnResp.getD 22 F.nan)) ∧
      (0.6502 * (g'.v / 660) ^ (1.5 : ℝ) ≤ p 22 → g'.v ≤ 660 →
        F.Drops (o'.gmm.lnResp.getD 22 F.nan) (o.gmm.lnResp.getD 22 F.nan)) := by
  have hk : ASK14.kindOf t = ASK14.kindOf s := ASK14.kindOf_agree hst (by decide)
  have hk' : ASK14.kindOf s0 = ASK14.kindOf s := ASK14.kindOf_agree hs0 (by decide)
  have e := ASK14.given_agree h h' hst
  have hx : (ASK14.kindOf s).hw = true → g.x ≠ none := fun q => (hk0 q).1
  have h1 := ASK14.gives h hx
  have h2 := ASK14.gives h' (by rw [hk, hst.opt h.x h'.x]; exact hx)
  have h3 := ASK14.gives h0 (by rw [hk']; exact hx)
  rw [hk, e] at h2
  rw [hk'] at h3
  have hreg : (ASK14.kindOf s).reg = .other ∨ (ASK14.kindOf s).reg = .china := by
    simp only [ASK14.kindOf, ASK14.regOf, Val.isStr, hr.1, hr.2, decide_false]
    by_cases q : s.get "region" = .str "china" <;> simp [q]
  have hv' := hv.trans hvv
  refine ⟨_, _, _, _, h1, h2, h3, fun i => rfl, ?_⟩
  have row : ∀ i, i < 24 → ∃ c, ASK14.table[i]? = some c := fun i hi =>
    ⟨_, List.getElem?_eq_getElem (by rw [ASK14.table_length]; exact hi)⟩
  have at_ : ∀ i c, ASK14.table[i]? = some c → ∀ j : ASK14.In,
      (ASK14.out j).gmm.lnResp.getD i F.nan = ASK14.lnResp c j := by
    intro i c hi j
    simp only [ASK14.out, List.getD_eq_getElem?_getD, List.getElem?_map, hi, Option.map_some, Option.getD_some]
  have amp : ∀ (i : ℕ) (c : ASK14.Row), ASK14.table[i]? = some c → ∀ K : ℝ,
      K * c.a10 ≤ c.c * (-c.b * 1.5 - c.a10) →
      ((c.a10 : ℝ) ≤ 0 ∨ Real.exp (ASK14.refR c g (ASK14.kindOf s)) ≤ K * (g.v / c.v_lin) ^ (1.5 : ℝ)) →
      F.Drops (ASK14.lnResp c (g.toIn (ASK14.kindOf s)))
        (ASK14.lnResp c (({ g with v := g'.v } : ASK14.Given).toIn (ASK14.kindOf s))) := by
    intro i c hi K hK hx
    have hc := List.mem_of_getElem? hi
    obtain ⟨q0, q1, q2, -⟩ := ASK14.soft_rows c hc
    obtain ⟨a1, a2, a3⟩ := ASK14.resp_soft hc hk0 hz hreg hv hv'
    rw [ASK14.f5R_L hc hv8, ASK14.f5R_L hc (hvv.le.trans hv8)] at a3
    have := Soft.L_anti (Real.exp_pos (ASK14.refR c g (ASK14.kindOf s))) (by exact_mod_cast q0)
      (by norm_num : (0 : ℝ) < 1.5) (by linarith [(ASK14.vlin_pos hc).1] : (0 : ℝ) < c.v_lin) hv hvv
      (by exact_mod_cast q1) (by have := (Rat.cast_lt (K := ℝ)).2 q2; push_cast at this; linarith) hK hx
    exact ⟨a1, a2, by linarith⟩
  have deamp : ∀ (i : ℕ) (c : ASK14.Row), ASK14.table[i]? = some c → c.b < 0 → 0 < c.a10 → ∀ K : ℝ,
      c.c * (-c.b * 1.5 - c.a10) ≤ K * c.a10 →
      K * (g'.v / c.v_lin) ^ (1.5 : ℝ) ≤ Real.exp (ASK14.refR c g (ASK14.kindOf s)) → g'.v ≤ c.v_lin →
      F.Drops (ASK14.lnResp c (({ g with v := g'.v } : ASK14.Given).toIn (ASK14.kindOf s)))
        (ASK14.lnResp c (g.toIn (ASK14.kindOf s))) := by
    intro i c hi hb ha K hK hx hl
    have hc := List.mem_of_getElem? hi
    obtain ⟨q0, q1, q2, -⟩ := ASK14.soft_rows c hc
    obtain ⟨a1, a2, a3⟩ := ASK14.resp_soft hc hk0 hz hreg hv hv'
    rw [ASK14.f5R_L hc hv8, ASK14.f5R_L hc (hvv.le.trans hv8)] at a3
    have := Soft.L_mono (Real.exp_pos (ASK14.refR c g (ASK14.kindOf s))) (by exact_mod_cast q0)
      (by norm_num : (0 : ℝ) < 1.5) (by linarith [(ASK14.vlin_pos hc).1] : (0 : ℝ) < c.v_lin) hv hvv
      (by exact_mod_cast hb) (by exact_mod_cast ha.le) hK hx hl
    exact ⟨a2, a1, by linarith⟩
  refine ⟨?_, ?_, ?_, ?_⟩
  · intro i hi hx
    obtain ⟨c, hc⟩ := row i hi
    have hm := List.mem_of_getElem? hc
    obtain ⟨-, -, -, q3, -⟩ := ASK14.soft_rows c hm
    rw [at_ i c hc, at_ i c hc]
    rw [at_ i c hc, ASK14.ref_soft hm hreg] at hx
    refine amp i c hc 0.48 (by have := (Rat.cast_le (K := ℝ)).2 q3; push_cast at this; linarith) ?_
    rcases hx with hx | hx
    · obtain ⟨b1, b2, -⟩ := ASK14.vlin_pos hm
      have := Soft.rpow_scale hv (by linarith : (0 : ℝ) < c.v_lin) b2 (by norm_num : (0 : ℝ) < 1.5)
      exact .inr (by linarith)
    · exact .inl (by exact_mod_cast ASK14.soft_long ⟨i, hi⟩ hx c hc)
  · intro i hi hx hl
    have hi24 : i < 24 := by omega
    obtain ⟨c, hc⟩ := row i hi24
    have hm := List.mem_of_getElem? hc
    obtain ⟨q1, q2, q3, q4⟩ := ASK14.soft_short ⟨i, hi24⟩ hi c hc
    rw [at_ i c hc, at_ i c hc]
    rw [at_ i c hc, ASK14.ref_soft hm hreg] at hx
    have v0 : (330 : ℝ) ≤ c.v_lin := by exact_mod_cast q1
    have := Soft.rpow_scale hv' (by norm_num) v0 (by norm_num : (0 : ℝ) < 1.5)
    exact deamp i c hc q2 q3 1.05 (by have := (Rat.cast_le (K := ℝ)).2 q4; push_cast at this; linarith)
      (by linarith) (by linarith)
  · intro hx
    obtain ⟨c, hc⟩ := row 22 (by norm_num)
    have hm := List.mem_of_getElem? hc
    obtain ⟨q1, q2, -⟩ := ASK14.soft_pga c hc
    have q1' : (c.v_lin : ℝ) = 660 := by rw [q1]; norm_num
    rw [at_ 22 c hc, at_ 22 c hc]
    rw [at_ 22 c hc, ASK14.ref_soft hm hreg] at hx
    exact amp 22 c hc 0.65 (by have := (Rat.cast_le (K := ℝ)).2 q2; push_cast at this; linarith)
      (.inr (by rw [q1']; exact hx))
  · intro hx hl
    obtain ⟨c, hc⟩ := row 22 (by norm_num)
    have hm := List.mem_of_getElem? hc
    obtain ⟨q1, -, q3⟩ := ASK14.soft_pga c hc
    obtain ⟨-, q4, q5, -⟩ := ASK14.soft_short ⟨22, by norm_num⟩ (.inr rfl) c hc
    have q1' : (c.v_lin : ℝ) = 660 := by rw [q1]; norm_num
    rw [at_ 22 c hc, at_ 22 c hc]
    rw [at_ 22 c hc, ASK14.ref_soft hm hreg] at hx
    exact deamp 22 c hc q4 q5 0.6502 (by have := (Rat.cast_le (K := ℝ)).2 q3; push_cast at this; linarith)
      (by rw [q1']; exact hx) (by rw [q1']; exact hl)

/-! ## AGA16 and CoppersmithBommer -/

namespace AGA16

theorem siteR_L {vl b n c t12 : ℚ} (hvl : 0 < vl) {v : ℝ} (hv : v ≤ 1000) (x : ℝ) :
    siteR vl b n c t12 v x = Soft.L t12 b c n vl (Real.exp x) v := by
  have h0 : (0 : ℝ) < vl := by exact_mod_cast hvl
  unfold siteR Soft.L
  rw [min_eq_left hv]
  by_cases h : v < vl
  · rw [if_pos h, if_pos h.le]
  · rw [if_neg h]
    by_cases h' : v ≤ vl
    · have : v = vl := le_antisymm h' (not_lt.1 h)
      rw [if_pos h', this, div_self h0.ne', Real.log_one, Real.one_rpow]
      ring
    · rw [if_neg h']; ring

theorem soft_rows : ∀ c ∈ table, (c.b < 0 ∨ c.b = 0 ∧ c.t_12 < 0) ∧ c.t_12 + c.b * c.n < 0 ∧
    0.32 * c.t_12 ≤ c.c * (-c.b * c.n - c.t_12) ∧ (2 ≤ c.period → c.t_12 ≤ 0) ∧ 0 < c.n ∧ 0 < c.c ∧
    0 < c.v_lin ∧ c.v_lin ≤ 1085.7 ∧ c.n = 1.18 := by decide +kernel

theorem soft_pga : ∀ c ∈ table.head?, c.v_lin = 865.1 ∧ c.b < 0 ∧ 0 < c.t_12 ∧
    0.8 * c.t_12 ≤ c.c * (-c.b * c.n - c.t_12) ∧ c.c * (-c.b * c.n - c.t_12) ≤ 0.805 * c.t_12 := by
  decide +kernel

theorem soft_long : ∀ i : Fin 23, 15 ≤ i.val → ∀ c : Row, c ∈ table[i.val]? → c.t_12 ≤ 0 := by
  decide +kernel

end AGA16

/-- AGA16, sites up to 1000 m/s, every event type, region and adjustment.  `p` is the predicted peak
acceleration of the same scenario at 1000 m/s.  If `p ≤ 0.32 (v / 1085.7) ^ 1.18`, every ordinate is strictly
higher at the softer site.  The ordinates from 2 s on are strictly higher at the softer site whatever `p` is.  The
peak acceleration is strictly higher if `p ≤ 0.8 (v / 865.1) ^ 1.18` and, below 865.1 m/s, strictly lower if
`p ≥ 0.805 (v' / 865.1) ^ 1.18`. -/
theorem C111_aga16 (s s' s0 : Scenario) (m v v' d z0 : ℝ) (e : String) (r : Option String)
    (rup hyp z : Option ℝ) (a : AGA16.Adjust) (c4 sc : ℝ) (adj : List F)
    (h : AGA16.Source s m v e r rup hyp z) (h' : AGA16.Source s' m v' e r rup hyp z)
    (h0 : AGA16.Source s0 m 1000 e r rup hyp z)
    (hd : (if AGA16.evFor e = .intraslab then hyp else rup) = some d)
    (hz : AGA16.evFor e = .intraslab → z = some z0)
    (hev : r = some "backarc" → AGA16.evFor e ≠ .other)
    (ha : AGA16.adjust (AGA16.table.map (·.period)) (AGA16.evFor e) a = pure adj)
    (hd0 : 0 ≤ d) (hv : 0 < v) (hvv : v < v') (hv1 : v' ≤ 1000) :
    ∃ o o' o0 p, Gives (AGA16.cls a c4 sc) s o ∧ Gives (AGA16.cls a c4 sc) s' o' ∧
      Gives (AGA16.cls a c4 sc) s0 o0 ∧ p = Real.exp (o0.gmm.lnResp.getD 0 F.nan).val ∧
      (∀ i, i < 23 → p ≤ 0.32 * (v / 1085.7) ^ (1.18 : ℝ) ∨ 15 ≤ i →
        F.Drops (o.gmm.lnResp.getD i F.nan) (o'.gmm.lnResp.getD i F.nan)) ∧
      (p ≤ 0.8 * (v / 865.1) ^ (1.18 : ℝ) →
        F.Drops (o.gmm.lnResp.getD 0 F.nan) (o'.gmm.lnResp.getD 0 F.nan)) ∧
      (0.805 * (v' / 865.1) ^ (1.18 : ℝ) ≤ p → v' ≤ 865.1 →
        F.Drops (o'.gmm.lnResp.getD 0 F.nan) (o.gmm.lnResp.getD 0 F.nan)) := by
  obtain ⟨hl, hok⟩ := AGA16.adjust_ok ha
  have hv' := hv.trans hvv
  refine ⟨_, _, _, _, AGA16.gives h hd hz hev c4 sc ha, AGA16.gives h' hd hz hev c4 sc ha,
    AGA16.gives h0 hd hz hev c4 sc ha, rfl, ?_⟩
  obtain ⟨r0, hr0, hh, hvl, -⟩ := AGA16.head_eq
  match adj, hl with
  | a0 :: adj, hl =>
  have ok : ∀ w : ℝ, 0 < w → ∀ (i : ℕ), i < 23 →
      ((AGA16.out (a0 :: adj) (AGA16.input m w d e r z0 sc)).lnResp.getD i F.nan).ok := by
    intro w hw i hi
    have hm : (AGA16.table[i]'hi) ∈ AGA16.table := List.getElem_mem _
    obtain ⟨-, -, -, -, -, q6, q7, -⟩ := AGA16.soft_rows _ hm
    rw [AGA16.getD_out hl _ hi]
    obtain ⟨y, hy, hy'⟩ := AGA16.ref_ok hl hok m w hd0 e r z0 sc
    rw [hy']
    exact AGA16.lnResp_ok hm (hok _ (List.getElem_mem _)) m w hd0 e r z0 sc
      (AGA16.fSite_ok q7 q6 hw hy)
  set x := (AGA16.lnResp r0 a0 (AGA16.input m 1000 d e r z0 sc) none).val with hx0
  have val : ∀ w : ℝ, 0 < w → w ≤ 1000 → ∀ (i : ℕ) (hi : i < 23),
      ((AGA16.out (a0 :: adj) (AGA16.input m w d e r z0 sc)).lnResp.getD i F.nan).val =
        AGA16.A (AGA16.table[i]'hi) (AGA16.evFor e) ((a0 :: adj)[i]'(by omega)).val m z0 +
        AGA16.D (AGA16.table[i]'hi) (AGA16.evFor e) (r = some "backarc") m sc d +
        Soft.L (AGA16.table[i]'hi).t_12 (AGA16.table[i]'hi).b (AGA16.table[i]'hi).c 1.18
          (AGA16.table[i]'hi).v_lin (Real.exp x) w := by
    intro w hw hw1 i hi
    have hm : (AGA16.table[i]'hi) ∈ AGA16.table := List.getElem_mem _
    obtain ⟨-, -, -, -, -, -, q7, -, q9⟩ := AGA16.soft_rows _ hm
    rw [AGA16.resp_val hh hl _ _ _ _ _ _ _ hi, AGA16.ref_eq hr0 hvl m w 1000 d e r z0 sc, AGA16.siteR_L q7 hw1]
    have : (((AGA16.table[i]'hi).n : ℚ) : ℝ) = 1.18 := by rw [q9]; norm_num
    rw [this]
  have hp : ((AGA16.out (a0 :: adj) (AGA16.input m 1000 d e r z0 sc)).lnResp.getD 0 F.nan).val = x := by
    rw [AGA16.head_resp hh, AGA16.pga_rock hr0 hvl m le_rfl]
  simp only [hp]
  have amp : ∀ (i : ℕ) (hi : i < 23) (K : ℝ),
      K * (AGA16.table[i]'hi).t_12 ≤ (AGA16.table[i]'hi).c * (-(AGA16.table[i]'hi).b * 1.18 - (AGA16.table[i]'hi).t_12) →
      (((AGA16.table[i]'hi).t_12 : ℝ) ≤ 0 ∨ Real.exp x ≤ K * (v / (AGA16.table[i]'hi).v_lin) ^ (1.18 : ℝ)) →
      F.Drops ((AGA16.out (a0 :: adj) (AGA16.input m v d e r z0 sc)).lnResp.getD i F.nan)
        ((AGA16.out (a0 :: adj) (AGA16.input m v' d e r z0 sc)).lnResp.getD i F.nan) := by
    intro i hi K hK hx
    refine ⟨ok v hv i hi, ok v' hv' i hi, ?_⟩
    rw [val v hv (by linarith) i hi, val v' hv' hv1 i hi]
    have hm : (AGA16.table[i]'hi) ∈ AGA16.table := List.getElem_mem _
    obtain ⟨q1, q2, -, -, -, q6, q7, -, q9⟩ := AGA16.soft_rows _ hm
    have := Soft.L_anti (Real.exp_pos x) (by exact_mod_cast q6) (by norm_num : (0 : ℝ) < 1.18)
      (by exact_mod_cast q7) hv hvv (by exact_mod_cast q1) (by
        rw [q9] at q2
        have := (Rat.cast_lt (K := ℝ)).2 q2; push_cast at this; linarith) hK hx
    linarith
  have i0 : 0 < 23 := by decide
  have hz0 : AGA16.table[0]'i0 = r0 := by
    have := hh
    rw [List.head?_eq_getElem?, List.getElem?_eq_getElem (by decide)] at this
    exact Option.some.inj this
  obtain ⟨f1, f2, f3, f4, f5⟩ := AGA16.soft_pga r0 hh
  obtain ⟨-, -, -, -, -, f6, -, -, f7⟩ := AGA16.soft_rows r0 hr0
  have f1' : (r0.v_lin : ℝ) = 865.1 := by rw [f1]; norm_num
  rw [f7] at f4 f5
  refine ⟨?_, ?_, ?_⟩
  · intro i hi hx
    have hm : (AGA16.table[i]'hi) ∈ AGA16.table := List.getElem_mem _
    obtain ⟨-, -, q3, -, -, -, q7, q8, q9⟩ := AGA16.soft_rows _ hm
    rw [q9] at q3
    refine amp i hi 0.32 (by have := (Rat.cast_le (K := ℝ)).2 q3; push_cast at this; linarith) ?_
    rcases hx with hx | hx
    · have q8' : (((AGA16.table[i]'hi).v_lin : ℚ) : ℝ) ≤ 1085.7 := by
        have := (Rat.cast_le (K := ℝ)).2 q8; push_cast at this; exact this
      have := Soft.rpow_scale hv (by exact_mod_cast q7) q8' (by norm_num : (0 : ℝ) < 1.18)
      exact .inr (by linarith)
    · exact .inl (by exact_mod_cast AGA16.soft_long ⟨i, hi⟩ hx _ (List.getElem?_eq_getElem hi))
  · intro hx
    have hr := amp 0 i0 0.8
    rw [hz0] at hr
    exact hr (by have := (Rat.cast_le (K := ℝ)).2 f4; push_cast at this; linarith)
      (.inr (by rw [f1']; exact hx))
  · intro hx hl8
    refine ⟨ok v' hv' 0 i0, ok v hv 0 i0, ?_⟩
    rw [val v hv (by linarith) 0 i0, val v' hv' hv1 0 i0, hz0]
    have := Soft.L_mono (Real.exp_pos x) (by exact_mod_cast f6 : (0 : ℝ) < r0.c) (by norm_num : (0 : ℝ) < 1.18)
      (by rw [f1']; norm_num : (0 : ℝ) < r0.v_lin) hv hvv (by exact_mod_cast f2 : (r0.b : ℝ) < 0)
      (by exact_mod_cast f3.le : (0 : ℝ) ≤ r0.t_12) (K := 0.805)
      (by have := (Rat.cast_le (K := ℝ)).2 f5; push_cast at this; linarith) (by rw [f1']; exact hx)
      (by rw [f1']; exact hl8)
    linarith

namespace CoppersmithBommer

theorem soft_rows : ∀ c ∈ table, (c.b < 0 ∨ c.b = 0 ∧ c.t_12 < 0) ∧ c.t_12 + c.b * 1.18 < 0 ∧
    0.35 * c.t_12 ≤ c.c * (-c.b * 1.18 - c.t_12) ∧ c.v_lin ≤ 1053.5 := by decide +kernel

theorem soft_pga : ∀ c ∈ table.head?, c.v_lin = 865.1 ∧ c.b < 0 ∧ 0 < c.t_12 ∧
    0.8 * c.t_12 ≤ c.c * (-c.b * 1.18 - c.t_12) ∧ c.c * (-c.b * 1.18 - c.t_12) ≤ 0.805 * c.t_12 := by
  decide +kernel

theorem soft_long : ∀ i : Fin 14, 9 ≤ i.val → ∀ c : Row, c ∈ table[i.val]? → c.t_12 ≤ 0 := by
  decide +kernel

/-- at 1000 m/s the first ordinate is the reference acceleration -/
theorem head_rock {r0 : Row} (hr0 : r0 ∈ table) (hh : table.head? = some r0) (hvl : r0.v_lin = 865.1)
    {a0 : F} {adj : List F} (hl : (a0 :: adj).length = 14) (hok : ∀ x ∈ a0 :: adj, x.ok)
    (m : ℝ) {d : ℝ} (hd : 0 ≤ d) (sc : ℝ) :
    ((out (a0 :: adj) (F.ofReal m) (F.ofReal d) (F.ofReal 1000) (F.ofReal sc)).lnResp.getD 0 F.nan).val =
      A r0 a0.val m + D r0 m sc d + (r0.t_12 + r0.b * r0.n) * Real.log (1000 / r0.v_lin) := by
  have i0 : 0 < 14 := by decide
  have hz0 : table[0]'i0 = r0 := by
    have := hh
    rw [List.head?_eq_getElem?, List.getElem?_eq_getElem (by decide)] at this
    exact Option.some.inj this
  rw [(resp hr0 hh hvl hl hok m hd (by norm_num) sc i0).2, hz0]
  have : ¬ (1000 : ℝ) < (r0.v_lin : ℝ) := by rw [hvl]; push_cast; norm_num
  simp only [AGA16.siteR, if_neg this, min_self, List.getElem_cons_zero]
  ring

end CoppersmithBommer

/-- CoppersmithBommer, sites up to 1000 m/s.  `p` is the predicted first ordinate (0.01 s) of the same scenario at
1000 m/s.  If `p ≤ 0.35 (v / 1053.5) ^ 1.18`, every ordinate is strictly higher at the softer site.  The ordinates
from 2 s on are strictly higher at the softer site whatever `p` is.  The first ordinate is strictly higher if
`p ≤ 0.8 (v / 865.1) ^ 1.18` and, below 865.1 m/s, strictly lower if `p ≥ 0.805 (v' / 865.1) ^ 1.18`. -/
theorem C111_coppersmith (s s' s0 : Scenario) (m v v' d : ℝ) (e : String) (sc : ℝ)
    (hm : s.get "mag" = .num m) (hd : s.get "dist_rup" = .num d) (hv : s.get "v_s30" = .num v)
    (he : s.get "event_type" = .str e) (hst : AgreeExcept ["v_s30"] s s') (hv' : s'.get "v_s30" = .num v')
    (hs0 : AgreeExcept ["v_s30"] s s0) (hv0 : s0.get "v_s30" = .num 1000)
    (hd0 : 0 ≤ d) (h1 : 0 < v) (hvv : v < v') (h2 : v' ≤ 1000) :
    ∃ o o' o0 p, Gives (CoppersmithBommer.cls sc) s o ∧ Gives (CoppersmithBommer.cls sc) s' o' ∧
      Gives (CoppersmithBommer.cls sc) s0 o0 ∧ p = Real.exp (o0.lnResp.getD 0 F.nan).val ∧
      (∀ i, i < 14 → p ≤ 0.35 * (v / 1053.5) ^ (1.18 : ℝ) ∨ 9 ≤ i →
        F.Drops (o.lnResp.getD i F.nan) (o'.lnResp.getD i F.nan)) ∧
      (p ≤ 0.8 * (v / 865.1) ^ (1.18 : ℝ) → F.Drops (o.lnResp.getD 0 F.nan) (o'.lnResp.getD 0 F.nan)) ∧
      (0.805 * (v' / 865.1) ^ (1.18 : ℝ) ≤ p → v' ≤ 865.1 →
        F.Drops (o'.lnResp.getD 0 F.nan) (o.lnResp.getD 0 F.nan)) := by
  have h3 := h1.trans hvv
  refine ⟨_, _, _, _, CoppersmithBommer.gives s hm hd hv he sc,
    CoppersmithBommer.gives s' ((hst _ (by decide)).trans hm) ((hst _ (by decide)).trans hd) hv'
      ((hst _ (by decide)).trans he) sc,
    CoppersmithBommer.gives s0 ((hs0 _ (by decide)).trans hm) ((hs0 _ (by decide)).trans hd) hv0
      ((hs0 _ (by decide)).trans he) sc, rfl, ?_⟩
  obtain ⟨hl, hok⟩ := CoppersmithBommer.adj_ok (AGA16.evFor e)
  obtain ⟨r0, hr0, hh, hvl, -⟩ := CoppersmithBommer.head_eq
  generalize CoppersmithBommer.adj (AGA16.evFor e) = adj at *
  match adj, hl with
  | a0 :: adj, hl =>
  rw [CoppersmithBommer.head_rock hr0 hh hvl hl hok m hd0 sc]
  have res := fun (w : ℝ) (hw : 0 < w) (i : ℕ) (hi : i < 14) =>
    CoppersmithBommer.resp hr0 hh hvl hl hok m hd0 hw sc hi
  generalize CoppersmithBommer.A r0 a0.val m + CoppersmithBommer.D r0 m sc d +
    (r0.t_12 + r0.b * r0.n) * Real.log (1000 / r0.v_lin) = x at *
  have site : ∀ w : ℝ, w ≤ 1000 → ∀ c ∈ CoppersmithBommer.table,
      AGA16.siteR c.v_lin c.b c.n c.c c.t_12 w x = Soft.L c.t_12 c.b c.c 1.18 c.v_lin (Real.exp x) w := by
    intro w hw c hc
    obtain ⟨-, -, -, -, h5, h6, -⟩ := CoppersmithBommer.row_facts c hc
    have : ((c.n : ℚ) : ℝ) = 1.18 := by rw [h5]; norm_num
    rw [AGA16.siteR_L h6 hw, this]
  have amp : ∀ (i : ℕ) (hi : i < 14) (K : ℝ) (c : CoppersmithBommer.Row), CoppersmithBommer.table[i]'hi = c →
      K * c.t_12 ≤ c.c * (-c.b * 1.18 - c.t_12) →
      ((c.t_12 : ℝ) ≤ 0 ∨ Real.exp x ≤ K * (v / c.v_lin) ^ (1.18 : ℝ)) →
      F.Drops ((CoppersmithBommer.out (a0 :: adj) (F.ofReal m) (F.ofReal d) (F.ofReal v) (F.ofReal sc)).lnResp.getD
        i F.nan) ((CoppersmithBommer.out (a0 :: adj) (F.ofReal m) (F.ofReal d) (F.ofReal v')
        (F.ofReal sc)).lnResp.getD i F.nan) := by
    intro i hi K c hcc hK hx
    have hc : c ∈ CoppersmithBommer.table := hcc ▸ List.getElem_mem _
    obtain ⟨a1, a2⟩ := res v h1 i hi
    obtain ⟨b1, b2⟩ := res v' h3 i hi
    refine ⟨a1, b1, ?_⟩
    rw [a2, b2, hcc, site _ h2 c hc, site _ (by linarith) c hc]
    obtain ⟨q1, q2, -⟩ := CoppersmithBommer.soft_rows c hc
    obtain ⟨-, -, -, h4, -, h6, -⟩ := CoppersmithBommer.row_facts c hc
    have := Soft.L_anti (Real.exp_pos x) (by rw [h4]; norm_num : (0 : ℝ) < c.c) (by norm_num : (0 : ℝ) < 1.18)
      (by exact_mod_cast h6) h1 hvv (by exact_mod_cast q1)
      (by have := (Rat.cast_lt (K := ℝ)).2 q2; push_cast at this; linarith) hK hx
    linarith
  have i0 : 0 < 14 := by decide
  have hz0 : CoppersmithBommer.table[0]'i0 = r0 := by
    have := hh
    rw [List.head?_eq_getElem?, List.getElem?_eq_getElem (by decide)] at this
    exact Option.some.inj this
  obtain ⟨f1, f2, f3, f4, f5⟩ := CoppersmithBommer.soft_pga r0 hh
  have f1' : (r0.v_lin : ℝ) = 865.1 := by rw [f1]; norm_num
  refine ⟨?_, ?_, ?_⟩
  · intro i hi hx
    obtain ⟨c, hcc⟩ : ∃ c, CoppersmithBommer.table[i]'hi = c := ⟨_, rfl⟩
    have hc : c ∈ CoppersmithBommer.table := hcc ▸ List.getElem_mem _
    obtain ⟨-, -, q3, q4⟩ := CoppersmithBommer.soft_rows c hc
    obtain ⟨-, -, -, -, -, h6, -⟩ := CoppersmithBommer.row_facts c hc
    refine amp i hi 0.35 c hcc (by have := (Rat.cast_le (K := ℝ)).2 q3; push_cast at this; linarith) ?_
    rcases hx with hx | hx
    · have q4' : ((c.v_lin : ℚ) : ℝ) ≤ 1053.5 := by
        have := (Rat.cast_le (K := ℝ)).2 q4; push_cast at this; exact this
      have := Soft.rpow_scale h1 (by exact_mod_cast h6) q4' (by norm_num : (0 : ℝ) < 1.18)
      exact .inr (by linarith)
    · have := CoppersmithBommer.soft_long ⟨i, hi⟩ hx _ (List.getElem?_eq_getElem hi)
      exact .inl (by exact_mod_cast hcc ▸ this)
  · intro hx
    exact amp 0 i0 0.8 r0 hz0 (by have := (Rat.cast_le (K := ℝ)).2 f4; push_cast at this; linarith)
      (.inr (by rw [f1']; exact hx))
  · intro hx hl8
    obtain ⟨a1, a2⟩ := res v h1 0 i0
    obtain ⟨b1, b2⟩ := res v' h3 0 i0
    obtain ⟨-, -, -, h4, -, h6, -⟩ := CoppersmithBommer.row_facts r0 hr0
    refine ⟨b1, a1, ?_⟩
    rw [a2, b2, hz0, site _ h2 r0 hr0, site _ (by linarith) r0 hr0]
    have := Soft.L_mono (Real.exp_pos x) (by rw [h4]; norm_num : (0 : ℝ) < r0.c) (by norm_num : (0 : ℝ) < 1.18)
      (by rw [f1']; norm_num : (0 : ℝ) < r0.v_lin) h1 hvv (by exact_mod_cast f2 : (r0.b : ℝ) < 0)
      (by exact_mod_cast f3.le : (0 : ℝ) ≤ r0.t_12) (K := 0.805)
      (by have := (Rat.cast_le (K := ℝ)).2 f5; push_cast at this; linarith) (by rw [f1']; exact hx)
      (by rw [f1']; exact hl8)
    linarith

/-! ## The exponential form, of BSSA14 and CY14 -/

namespace Soft

theorem exp_log_mono {A u w : ℝ} (hu : 0 < u) (huw : u < w) (h : ∀ t ∈ Set.Ioo u w, t * Real.exp (-t) ≤ A) :
    Real.exp (-u) - Real.exp (-w) ≤ A * Real.log (w / u) := by
  have hw := hu.trans huw
  have hd : ∀ t : ℝ, 0 < t → HasDerivAt (fun t => A * Real.log t + Real.exp (-t)) (A * t⁻¹ + Real.exp (-t) * -1) t := by
    intro t ht
    exact ((Real.hasDerivAt_log ht.ne').const_mul A).add ((hasDerivAt_neg t).exp)
  have hm : MonotoneOn (fun t => A * Real.log t + Real.exp (-t)) (Set.Icc u w) := by
    refine monotoneOn_of_deriv_nonneg (convex_Icc _ _)
      (fun t ht => (hd t (hu.trans_le ht.1)).continuousAt.continuousWithinAt) ?_ ?_
    · intro t ht
      rw [interior_Icc] at ht
      exact (hd t (hu.trans ht.1)).differentiableAt.differentiableWithinAt
    · intro t ht
      rw [interior_Icc] at ht
      have ht0 := hu.trans ht.1
      rw [(hd t ht0).deriv]
      have := h t ht
      have h2 : Real.exp (-t) ≤ A * t⁻¹ := by
        rw [← div_eq_mul_inv, le_div_iff₀ ht0]; linarith
      linarith
  have := hm (Set.left_mem_Icc.2 huw.le) (Set.right_mem_Icc.2 huw.le) huw.le
  simp only at this
  rw [Real.log_div hw.ne' hu.ne']
  linarith

theorem exp_log_anti {A u w : ℝ} (hu : 0 < u) (huw : u < w) (h : ∀ t ∈ Set.Ioo u w, A ≤ t * Real.exp (-t)) :
    A * Real.log (w / u) ≤ Real.exp (-u) - Real.exp (-w) := by
  have hw := hu.trans huw
  have hd : ∀ t : ℝ, 0 < t → HasDerivAt (fun t => A * Real.log t + Real.exp (-t)) (A * t⁻¹ + Real.exp (-t) * -1) t := by
    intro t ht
    exact ((Real.hasDerivAt_log ht.ne').const_mul A).add ((hasDerivAt_neg t).exp)
  have hm : AntitoneOn (fun t => A * Real.log t + Real.exp (-t)) (Set.Icc u w) := by
    refine antitoneOn_of_deriv_nonpos (convex_Icc _ _)
      (fun t ht => (hd t (hu.trans_le ht.1)).continuousAt.continuousWithinAt) ?_ ?_
    · intro t ht
      rw [interior_Icc] at ht
      exact (hd t (hu.trans ht.1)).differentiableAt.differentiableWithinAt
    · intro t ht
      rw [interior_Icc] at ht
      have ht0 := hu.trans ht.1
      rw [(hd t ht0).deriv]
      have := h t ht
      have h2 : A * t⁻¹ ≤ Real.exp (-t) := by
        rw [← div_eq_mul_inv, div_le_iff₀ ht0]; linarith
      linarith
  have := hm (Set.left_mem_Icc.2 huw.le) (Set.right_mem_Icc.2 huw.le) huw.le
  simp only at this
  rw [Real.log_div hw.ne' hu.ne']
  linarith

theorem mul_exp_neg_le (t : ℝ) : t * Real.exp (-t) ≤ Real.exp (-1) := by
  have h := Real.add_one_le_exp (t - 1)
  have h2 : Real.exp (t - 1) * Real.exp (-t) = Real.exp (-1) := by rw [← Real.exp_add]; ring_nf
  have := mul_le_mul_of_nonneg_right h (Real.exp_pos (-t)).le
  linarith

theorem mul_exp_neg_anti {t W : ℝ} (ht : 1 ≤ t) (h : t ≤ W) : W * Real.exp (-W) ≤ t * Real.exp (-t) := by
  have h1 := Real.add_one_le_exp (W - t)
  have h2 : Real.exp (W - t) * Real.exp (-W) = Real.exp (-t) := by rw [← Real.exp_add]; ring_nf
  have h3 : W ≤ t * Real.exp (W - t) := by
    have := mul_le_mul_of_nonneg_left h1 (by linarith : 0 ≤ t)
    have h4 : 0 ≤ (t - 1) * (W - t) := mul_nonneg (by linarith) (by linarith)
    linarith
  have := mul_le_mul_of_nonneg_right h3 (Real.exp_pos (-W)).le
  rw [mul_assoc, h2] at this
  exact this

/-- the largest logarithm of the shifted motion for which the site term still falls with the velocity, from below -/
def Q (a b k : ℚ) : ℚ := 2.715 * a / (b * Bounds.expHi (360 * k) + 1 / 10000)

/-- weak motion: the linear amplification outweighs the non-linear term -/
theorem exp_amplified {a b k φ P : ℚ} (ha : 0 < a) (hb : 0 ≤ b) (hk : 0 < k) (hk8 : 360 * k ≤ 8) (hφ : 0 < φ)
    (hP : b = 0 ∨ 1 + P / φ ≤ Bounds.expLo (Q a b k)) {p v v' : ℝ} (hp : 0 < p) (hpP : b = 0 ∨ p ≤ P) (hv : 0 < v)
    (hvv : v < v') :
    (b : ℝ) * (Real.exp (-k * (v - 360)) - Real.exp (-k * (v' - 360))) * Real.log ((p + φ) / φ) <
      a * Real.log (v' / v) := by
  have hv' := hv.trans hvv
  have hl : 0 < Real.log (v' / v) := Real.log_pos (by rwa [one_lt_div hv])
  have ha' : (0 : ℝ) < a := by exact_mod_cast ha
  have hb' : (0 : ℝ) ≤ b := by exact_mod_cast hb
  have hk' : (0 : ℝ) < k := by exact_mod_cast hk
  have hφ' : (0 : ℝ) < φ := by exact_mod_cast hφ
  rcases hb.eq_or_lt with rfl | hb0
  · simp only [Rat.cast_zero, zero_mul]
    positivity
  have hP := hP.resolve_left hb0.ne'
  have hpP := hpP.resolve_left hb0.ne'
  have hhi := Bounds.le_expHi (q := 360 * k) (by positivity) hk8
  have hhi0 : (0 : ℝ) < (Bounds.expHi (360 * k) : ℝ) := (Real.exp_pos _).trans_le hhi
  have hhi0q : 0 < Bounds.expHi (360 * k) := by exact_mod_cast hhi0
  have hQ0 : 0 ≤ Q a b k := by unfold Q; positivity
  have hy : 0 < (p + φ) / φ := by positivity
  have hX : Real.log ((p + φ) / φ) ≤ (Q a b k : ℝ) := by
    refine Bounds.log_le_of hy hQ0 ?_
    have h1 : ((1 + P / φ : ℚ) : ℝ) ≤ ((Bounds.expLo (Q a b k) : ℚ) : ℝ) := by exact_mod_cast hP
    push_cast at h1
    have h2 : p / φ ≤ P / (φ : ℝ) := div_le_div_of_nonneg_right hpP hφ'.le
    have h3 : (p + φ) / φ = 1 + p / φ := by field_simp; ring
    linarith
  have hX0 : 0 < Real.log ((p + φ) / φ) := Real.log_pos (by rw [lt_div_iff₀ hφ']; linarith)
  have hd := exp_log_mono (A := Real.exp (-1)) (u := k * v) (w := k * v') (by positivity)
    (mul_lt_mul_of_pos_left hvv hk') (fun t _ => mul_exp_neg_le t)
  rw [mul_div_mul_left _ _ hk'.ne'] at hd
  have e : Real.exp (-k * (v - 360)) - Real.exp (-k * (v' - 360)) =
      Real.exp ((360 * k : ℚ) : ℝ) * (Real.exp (-(k * v)) - Real.exp (-(k * v'))) := by
    rw [mul_sub (Real.exp _), ← Real.exp_add, ← Real.exp_add]
    push_cast
    ring_nf
  have hE : Real.exp (-k * (v - 360)) - Real.exp (-k * (v' - 360)) ≤
      Bounds.expHi (360 * k) * (Real.exp (-1) * Real.log (v' / v)) := by
    rw [e]
    refine (mul_le_mul_of_nonneg_left hd (Real.exp_pos _).le).trans (mul_le_mul_of_nonneg_right hhi ?_)
    exact mul_nonneg (Real.exp_pos _).le hl.le
  have hQ : (b : ℝ) * Bounds.expHi (360 * k) * (Q a b k : ℝ) ≤ 2.715 * a := by
    have h1 : (b * Bounds.expHi (360 * k)) * Q a b k ≤ 2.715 * a := by
      unfold Q
      have h2 : 0 < b * Bounds.expHi (360 * k) + 1 / 10000 := by positivity
      rw [mul_div_assoc', div_le_iff₀ h2]
      have : 0 ≤ 2.715 * a := by positivity
      nlinarith
    have h2 := (Rat.cast_le (K := ℝ)).2 h1
    push_cast at h2
    exact h2
  have he : 2.715 * Real.exp (-1) < 1 := by
    have h1 : (2.715 : ℚ) < Bounds.expLo 1 := by decide +kernel
    have h2 := (Rat.cast_lt (K := ℝ)).2 h1
    have h3 := Bounds.expLo_le (q := 1) (by norm_num)
    push_cast at h2 h3
    rw [Real.exp_neg, ← div_eq_mul_inv, div_lt_one (Real.exp_pos _)]
    linarith
  calc (b : ℝ) * (Real.exp (-k * (v - 360)) - Real.exp (-k * (v' - 360))) * Real.log ((p + φ) / φ)
      ≤ b * (Bounds.expHi (360 * k) * (Real.exp (-1) * Real.log (v' / v))) * (Q a b k : ℝ) := by
        refine mul_le_mul (mul_le_mul_of_nonneg_left hE hb') hX hX0.le ?_
        have : 0 ≤ Real.exp (-1) * Real.log (v' / v) := mul_nonneg (Real.exp_pos _).le hl.le
        positivity
    _ = (b * Bounds.expHi (360 * k) * (Q a b k : ℝ)) * (Real.exp (-1) * Real.log (v' / v)) := by ring
    _ ≤ 2.715 * a * (Real.exp (-1) * Real.log (v' / v)) :=
        mul_le_mul_of_nonneg_right hQ (mul_nonneg (Real.exp_pos _).le hl.le)
    _ = (2.715 * Real.exp (-1)) * (a * Real.log (v' / v)) := by ring
    _ < 1 * (a * Real.log (v' / v)) := mul_lt_mul_of_pos_right he (by positivity)
    _ = _ := one_mul _

/-- strong motion: the non-linear term outweighs the linear amplification -/
theorem exp_deamplified {a b k φ P V q : ℚ} (ha : 0 ≤ a) (hb : 0 < b) (hk : 0 < k) (hφ : 0 < φ)
    (hV : 0 ≤ k * (V - 360)) (hV8 : k * (V - 360) ≤ 8) (hq : 0 ≤ q) (hq8 : q ≤ 8)
    (hP : Bounds.expHi q ≤ 1 + P / φ) (hab : a * Bounds.expHi (k * (V - 360)) < b * (k * V) * q)
    {p v v' : ℝ} (hpP : P ≤ p) (hv : 1 ≤ k * v) (hvv : v < v') (hvV : v' ≤ V) (hp : 0 < p) :
    a * Real.log (v' / v) <
      b * (Real.exp (-k * (v - 360)) - Real.exp (-k * (v' - 360))) * Real.log ((p + φ) / φ) := by
  have hk' : (0 : ℝ) < k := by exact_mod_cast hk
  have hb' : (0 : ℝ) < b := by exact_mod_cast hb
  have hφ' : (0 : ℝ) < φ := by exact_mod_cast hφ
  have hv0 : 0 < v := by
    by_contra h
    have := mul_nonpos_of_nonneg_of_nonpos hk'.le (not_lt.1 h)
    linarith
  have hv' := hv0.trans hvv
  have hl : 0 < Real.log (v' / v) := Real.log_pos (by rwa [one_lt_div hv0])
  have hX : (q : ℝ) ≤ Real.log ((p + φ) / φ) := by
    refine Bounds.le_log_of (by positivity) hq hq8 ?_
    have h1 : ((Bounds.expHi q : ℚ) : ℝ) ≤ ((1 + P / φ : ℚ) : ℝ) := by exact_mod_cast hP
    push_cast at h1
    have h2 : (P : ℝ) / φ ≤ p / φ := div_le_div_of_nonneg_right hpP hφ'.le
    have h3 : (p + φ) / φ = 1 + p / φ := by field_simp; ring
    linarith
  have hkV : (1 : ℝ) ≤ k * V := hv.trans (mul_le_mul_of_nonneg_left (hvv.le.trans hvV) hk'.le)
  have hd := exp_log_anti (A := (k * V : ℝ) * Real.exp (-(k * V))) (u := k * v) (w := k * v') (by positivity)
    (mul_lt_mul_of_pos_left hvv hk') (fun t ht => mul_exp_neg_anti (hv.trans ht.1.le)
      (ht.2.le.trans (mul_le_mul_of_nonneg_left hvV hk'.le)))
  rw [mul_div_mul_left _ _ hk'.ne'] at hd
  have e : Real.exp (-k * (v - 360)) - Real.exp (-k * (v' - 360)) =
      Real.exp (360 * k : ℝ) * (Real.exp (-(k * v)) - Real.exp (-(k * v'))) := by
    rw [mul_sub (Real.exp _), ← Real.exp_add, ← Real.exp_add]
    ring_nf
  have hE : (k * V : ℝ) * Real.exp (-(k * (V - 360))) * Real.log (v' / v) ≤
      Real.exp (-k * (v - 360)) - Real.exp (-k * (v' - 360)) := by
    rw [e]
    refine le_trans (le_of_eq ?_) (mul_le_mul_of_nonneg_left hd (Real.exp_pos _).le)
    have : Real.exp (-(k * (V - 360)) : ℝ) = Real.exp (360 * k) * Real.exp (-(k * V)) := by
      rw [← Real.exp_add]; ring_nf
    rw [this]; ring
  have hhi := Bounds.le_expHi (q := k * (V - 360)) hV hV8
  push_cast at hhi
  have ha' : (0 : ℝ) ≤ a := by exact_mod_cast ha
  have hab' : (a : ℝ) * (Bounds.expHi (k * (V - 360)) : ℝ) < b * (k * V) * q := by exact_mod_cast hab
  have hq' : (0 : ℝ) ≤ q := by exact_mod_cast hq
  have hep := Real.exp_pos (k * (V - 360) : ℝ)
  have hS : (a : ℝ) < b * ((k * V) * Real.exp (-(k * (V - 360)))) * q := by
    rw [Real.exp_neg, ← div_eq_mul_inv]
    have : (b : ℝ) * (k * V / Real.exp (k * (V - 360))) * q = b * (k * V) * q / Real.exp (k * (V - 360)) := by ring
    rw [this, lt_div_iff₀ hep]
    exact lt_of_le_of_lt (mul_le_mul_of_nonneg_left hhi ha') hab'
  calc (a : ℝ) * Real.log (v' / v) < b * ((k * V) * Real.exp (-(k * (V - 360)))) * q * Real.log (v' / v) :=
        mul_lt_mul_of_pos_right hS hl
    _ = b * ((k * V) * Real.exp (-(k * (V - 360))) * Real.log (v' / v)) * q := by ring
    _ ≤ b * (Real.exp (-k * (v - 360)) - Real.exp (-k * (v' - 360))) * q :=
        mul_le_mul_of_nonneg_right (mul_le_mul_of_nonneg_left hE hb'.le) hq'
    _ ≤ _ := mul_le_mul_of_nonneg_left hX (mul_nonneg hb'.le (le_trans (by positivity) hE))

end Soft

/-! ## BSSA14 -/

namespace BSSA14

theorem soft_rows : ∀ c ∈ table, c.c < 0 ∧ c.f_5 < 0 ∧ 360 * (-c.f_5) ≤ 8 ∧
    (max 0 (-c.f_4) = 0 ∨ 1 + 0.087 / 0.1 ≤ Bounds.expLo (Soft.Q (-c.c) (max 0 (-c.f_4)) (-c.f_5))) := by
  decide +kernel

theorem soft_long : ∀ i : Fin 107, 78 ≤ i.val → ∀ c : Row, c ∈ table[i.val]? →
    (max 0 (-c.f_4) = 0 ∨ 1 + 1000 / 0.1 ≤ Bounds.expLo (Soft.Q (-c.c) (max 0 (-c.f_4)) (-c.f_5))) := by
  decide +kernel

theorem soft_pga : pgaRow.c = -0.6 ∧ pgaRow.f_4 = -0.15 ∧ pgaRow.f_5 = -0.00701 ∧
    1 + 0.138 / 0.1 ≤ Bounds.expLo (Soft.Q (-pgaRow.c) (max 0 (-pgaRow.f_4)) (-pgaRow.f_5)) ∧
    Bounds.expHi 1.94 ≤ 1 + 0.6 / 0.1 ∧
    0.6 * Bounds.expHi (0.00701 * (400 - 360)) < 0.15 * (0.00701 * 400) * 1.94 := by decide +kernel

theorem f2R_diff (c : Row) {v v' : ℝ} (h : v ≤ 760) (h' : v' ≤ 760) :
    f2R c v' - f2R c v = -c.f_4 * (Real.exp (c.f_5 * (v - 360)) - Real.exp (c.f_5 * (v' - 360))) := by
  unfold f2R
  rw [min_eq_left h, min_eq_left h']
  ring

theorem resp_soft {c : Row} (hc : c ∈ table) {g : Given} (mech : Mech) (reg : Reg) {v' : ℝ} (hz : g.z1 = none)
    (hv : 0 < g.v) (hv' : 0 < v') (h7 : g.v ≤ 760) (h7' : v' ≤ 760) :
    let i := g.toIn mech reg
    let j := ({ g with v := v' } : Given).toIn mech reg
    (lnResp c i (some (pgaRef i))).ok ∧ (lnResp c j (some (pgaRef j))).ok ∧
    (lnResp c j (some (pgaRef j))).val - (lnResp c i (some (pgaRef i))).val =
      c.c * Real.log (v' / g.v) + -c.f_4 * (Real.exp (c.f_5 * (g.v - 360)) - Real.exp (c.f_5 * (v' - 360))) *
        Real.log ((Real.exp (refR g.mag g.jb mech reg) + 0.1) / 0.1) := by
  intro i j
  have a := resp_facts hc g hv mech reg
  have b := resp_facts hc { g with v := v' } hv' mech reg
  have hV := (casts hc).2.2.2.2.2.2.2.2.2.2.2
  refine ⟨a.1, b.1, ?_⟩
  have f2 : basinR c v' g.z1 = basinR c g.v g.z1 := by rw [hz]; rfl
  have b2 := b.2
  simp only [f2] at b2
  rw [b2, a.2, ← f2R_diff c h7 h7', min_eq_left (h7.trans hV), min_eq_left (h7'.trans hV),
    Real.log_div hv'.ne' (by norm_num), Real.log_div hv.ne' (by norm_num), Real.log_div hv'.ne' hv.ne']
  ring

theorem ref_soft (g : Given) (mech : Mech) (reg : Reg) :
    ((out (({ g with v := 760, z1 := none } : Given).toIn mech reg)).gmm.lnResp.getD 1 F.nan).val =
      refR g.mag g.jb mech reg := by
  have hi : 1 < table.length := by rw [table_length]; norm_num
  have e : (out (({ g with v := 760, z1 := none } : Given).toIn mech reg)).gmm.lnResp.getD 1 F.nan =
      lnResp pgaRow (({ g with v := 760, z1 := none } : Given).toIn mech reg)
      (some (pgaRef (({ g with v := 760, z1 := none } : Given).toIn mech reg))) := by
    simp only [out, List.getD_eq_getElem?_getD, List.getElem?_map, List.getElem?_eq_getElem hi,
      Option.map_some, Option.getD_some, pgaRow]
  have hc := pgaRow_mem
  rw [e, (resp_facts hc { g with v := 760, z1 := none } (by norm_num) mech reg).2]
  obtain ⟨-, -, -, -, -, -, -, -, -, -, -, h12⟩ := casts hc
  have hb : basinR pgaRow 760 none = 0 := by
    unfold basinR
    split
    · rename_i hp
      have h7 : (0 : ℝ) < pgaRow.f_7 := by exact_mod_cast (basin_facts _ hc hp).2.1
      simp [h7.le]
    · rfl
  simp only [hb, f2R, min_self]
  rw [min_eq_left h12, refR]
  simp

end BSSA14

/-- BSSA14 without `depth_1_0`, sites up to 760 m/s.  `p` is the predicted peak acceleration of the same scenario
at 760 m/s.  If `p ≤ 0.087`, every ordinate is strictly higher at the softer site; from 1.9 s on if `p ≤ 1000`.
The peak acceleration is strictly higher if `p ≤ 0.138` and, from 143 to 400 m/s, strictly lower if `p ≥ 0.6`. -/
theorem C111_bssa14 (s t s0 : Scenario) (g g' : BSSA14.Given) (h : BSSA14.Source s g)
    (h' : BSSA14.Source t g') (hst : AgreeExcept ["v_s30"] s t) (h0 : BSSA14.Source s0 { g with v := 760 })
    (hs0 : AgreeExcept ["v_s30"] s s0) (hz : g.z1 = none) (hv : 0 < g.v) (hvv : g.v < g'.v) (hv7 : g'.v ≤ 760) :
    ∃ o o' o0 p, Gives BSSA14.cls s o ∧ Gives BSSA14.cls t o' ∧ Gives BSSA14.cls s0 o0 ∧
      p = Real.exp (o0.gmm.lnResp.getD 1 F.nan).val ∧
      (∀ i, i < 107 → p ≤ 0.087 ∨ 78 ≤ i ∧ p ≤ 1000 →
        F.Drops (o.gmm.lnResp.getD i F.nan) (o'.gmm.lnResp.getD i F.nan)) ∧
      (p ≤ 0.138 → F.Drops (o.gmm.lnResp.getD 1 F.nan) (o'.gmm.lnResp.getD 1 F.nan)) ∧
      (0.6 ≤ p → 143 ≤ g.v → g'.v ≤ 400 →
        F.Drops (o'.gmm.lnResp.getD 1 F.nan) (o.gmm.lnResp.getD 1 F.nan)) := by
  have e := BSSA14.given_agree h h' hst
  have h2 := BSSA14.gives h'
  have h3 := BSSA14.gives h0
  rw [hst "mechanism" (by decide), hst "region" (by decide), e] at h2
  rw [hs0 "mechanism" (by decide), hs0 "region" (by decide)] at h3
  have g0 : ({ g with v := 760 } : BSSA14.Given) = { g with v := 760, z1 := none } := by rw [hz]
  rw [g0] at h3
  have hv' := hv.trans hvv
  refine ⟨_, _, _, _, BSSA14.gives h, h2, h3, rfl, ?_⟩
  rw [BSSA14.ref_soft]
  generalize BSSA14.mechOf (s.get "mechanism") = mech
  generalize BSSA14.regOf (s.get "region") = reg
  have at_ : ∀ i c, BSSA14.table[i]? = some c → ∀ j : BSSA14.In,
      (BSSA14.out j).gmm.lnResp.getD i F.nan = BSSA14.lnResp c j (some (BSSA14.pgaRef j)) := by
    intro i c hi j
    simp only [BSSA14.out, List.getD_eq_getElem?_getD, List.getElem?_map, hi, Option.map_some, Option.getD_some]
  have p0 := Real.exp_pos (BSSA14.refR g.mag g.jb mech reg)
  have amp : ∀ (i : ℕ) (c : BSSA14.Row), BSSA14.table[i]? = some c → ∀ P : ℚ,
      (max 0 (-c.f_4) = 0 ∨ 1 + P / 0.1 ≤ Bounds.expLo (Soft.Q (-c.c) (max 0 (-c.f_4)) (-c.f_5))) →
      Real.exp (BSSA14.refR g.mag g.jb mech reg) ≤ P →
      F.Drops ((BSSA14.out (g.toIn mech reg)).gmm.lnResp.getD i F.nan)
        ((BSSA14.out (({ g with v := g'.v } : BSSA14.Given).toIn mech reg)).gmm.lnResp.getD i F.nan) := by
    intro i c hi P hP hpP
    have hc := List.mem_of_getElem? hi
    obtain ⟨q1, q2, q3, -⟩ := BSSA14.soft_rows c hc
    obtain ⟨a1, a2, a3⟩ := BSSA14.resp_soft hc mech reg hz hv hv' (by linarith) hv7
    rw [at_ i c hi, at_ i c hi]
    refine ⟨a1, a2, ?_⟩
    have := Soft.exp_amplified (a := -c.c) (b := max 0 (-c.f_4)) (k := -c.f_5) (φ := 0.1) (P := P) (by linarith)
      (le_max_left _ _) (by linarith) q3 (by norm_num) hP p0 (.inr hpP) hv hvv
    push_cast at this
    simp only [neg_neg] at this
    have hX0 : 0 < Real.log ((Real.exp (BSSA14.refR g.mag g.jb mech reg) + 0.1) / 0.1) :=
      Real.log_pos (by rw [lt_div_iff₀ (by norm_num)]; linarith)
    have q2' : (c.f_5 : ℝ) < 0 := by exact_mod_cast q2
    have hd : 0 ≤ Real.exp (c.f_5 * (g.v - 360)) - Real.exp (c.f_5 * (g'.v - 360)) := by
      rw [sub_nonneg, Real.exp_le_exp]
      exact mul_le_mul_of_nonpos_left (by linarith) q2'.le
    have hm := mul_le_mul_of_nonneg_right (mul_le_mul_of_nonneg_right (le_max_right 0 (-c.f_4 : ℝ)) hd) hX0.le
    linarith
  have hi : 1 < BSSA14.table.length := by rw [BSSA14.table_length]; norm_num
  have hi1 : BSSA14.table[1]? = some BSSA14.pgaRow := List.getElem?_eq_getElem hi
  obtain ⟨f1, f2, f3, f4, f5, f6⟩ := BSSA14.soft_pga
  refine ⟨?_, ?_, ?_⟩
  · intro i hi hx
    obtain ⟨c, hc⟩ : ∃ c, BSSA14.table[i]? = some c :=
      ⟨_, List.getElem?_eq_getElem (by rw [BSSA14.table_length]; exact hi)⟩
    rcases hx with hx | ⟨hx, hx'⟩
    · exact amp i c hc 0.087 (BSSA14.soft_rows c (List.mem_of_getElem? hc)).2.2.2 (by push_cast; exact hx)
    · exact amp i c hc 1000 (BSSA14.soft_long ⟨i, hi⟩ hx c hc) (by push_cast; exact hx')
  · intro hx
    exact amp 1 _ hi1 0.138 (.inr f4) (by push_cast; exact hx)
  · intro hx h143 h400
    have hc := BSSA14.pgaRow_mem
    obtain ⟨a1, a2, a3⟩ := BSSA14.resp_soft hc mech reg hz hv hv' (by linarith) hv7
    rw [at_ 1 _ hi1, at_ 1 _ hi1]
    refine ⟨a2, a1, ?_⟩
    have := Soft.exp_deamplified (a := 0.6) (b := 0.15) (k := 0.00701) (φ := 0.1) (P := 0.6) (V := 400) (q := 1.94)
      (p := Real.exp (BSSA14.refR g.mag g.jb mech reg)) (by norm_num) (by norm_num) (by norm_num) (by norm_num)
      (by norm_num) (by norm_num) (by norm_num) (by norm_num) f5 f6 (by push_cast; exact hx)
      (by push_cast; linarith) hvv (by push_cast; exact h400) p0
    have e1 : (BSSA14.pgaRow.c : ℝ) = -0.6 := by rw [f1]; norm_num
    have e2 : (BSSA14.pgaRow.f_4 : ℝ) = -0.15 := by rw [f2]; norm_num
    have e3 : (BSSA14.pgaRow.f_5 : ℝ) = -0.00701 := by rw [f3]; norm_num
    rw [e1, e2, e3] at a3
    push_cast at this
    simp only [neg_neg] at a3
    linarith

/-! ## CY14 -/

namespace CY14

theorem soft_rows : ∀ c ∈ table, ∀ a ∈ [c.phi_1, c.phi_1jp], a < 0 ∧ c.phi_2 ≤ 0 ∧ c.phi_3 < 0 ∧ 0 < c.phi_4 ∧
    360 * (-c.phi_3) ≤ 8 ∧ (-c.phi_2 = 0 ∨ 1 + 0.09 / c.phi_4 ≤ Bounds.expLo (Soft.Q (-a) (-c.phi_2) (-c.phi_3))) := by
  decide +kernel

end CY14

namespace CY14

/-- the rows with a larger range of weak motion: PGA, PGV, and 2 s to 10 s -/
def softLimit (i : ℕ) : ℚ := if i = 24 then 0.12 else if i = 25 then 18 else if 18 ≤ i then 1000 else 0.09

theorem soft_limits : ∀ i : Fin 26, ∀ c : Row, c ∈ table[i.val]? → ∀ a ∈ [c.phi_1, c.phi_1jp],
    (-c.phi_2 = 0 ∨ 1 + softLimit i.val / c.phi_4 ≤ Bounds.expLo (Soft.Q (-a) (-c.phi_2) (-c.phi_3))) := by
  decide +kernel

theorem soft_pga : ∀ c : Row, c ∈ table[24]? → c.phi_1 = -0.521 ∧ c.phi_2 = -0.1417 ∧ c.phi_3 = -0.00701 ∧
    c.phi_4 = 0.102151 ∧ Bounds.expHi 1.77 ≤ 1 + 0.5 / 0.102151 ∧
    0.521 * Bounds.expHi (0.00701 * (400 - 360)) < 0.1417 * (0.00701 * 400) * 1.77 := by decide +kernel

theorem resp_soft {c : Row} (hc : c ∈ table) {g : Given} (k : Kind) {v' : ℝ} (hr : 0 ≤ g.rup) (hz : g.z1 = none)
    (hv : 0 < g.v) (hv' : 0 < v') (h1 : g.v ≤ 1130) (h1' : v' ≤ 1130) :
    (lnResp c (g.toIn k)).ok ∧ (lnResp c (({ g with v := v' } : Given).toIn k)).ok ∧
    (lnResp c (({ g with v := v' } : Given).toIn k)).val - (lnResp c (g.toIn k)).val =
      (if k.reg = .japan then (c.phi_1jp : ℝ) else c.phi_1) * Real.log (v' / g.v) +
      -c.phi_2 * (Real.exp (c.phi_3 * (g.v - 360)) - Real.exp (c.phi_3 * (v' - 360))) *
        Real.log ((Real.exp (lnRef c (g.toIn k)).val + c.phi_4) / c.phi_4) := by
  refine ⟨lnResp_ok hc hr hv k, lnResp_ok (g := { g with v := v' }) hc hr hv' k, ?_⟩
  have e0 : lnRef c (({ g with v := v' } : Given).toIn k) = lnRef c (g.toIn k) := rfl
  have key : ∀ w : ℝ, 0 < w → w ≤ 1130 → ∀ x, respR c w (calcDepth10 (F.ofReal w) (k.reg = .japan)).val (k.reg = .japan) x =
      x + ((if k.reg = .japan then (c.phi_1jp : ℝ) else c.phi_1) * (Real.log w - Real.log 1130) +
        c.phi_2 * (Real.exp (c.phi_3 * (w - 360)) - Real.exp (c.phi_3 * (1130 - 360))) *
        Real.log ((Real.exp x + c.phi_4) / c.phi_4)) := by
    intro w hw hw1 x
    unfold respR siteConst bR
    rw [min_eq_left hw1, min_eq_left (Real.log_nonpos (by positivity) (by rw [div_le_one (by norm_num)]; exact hw1)),
      Real.log_div hw.ne' (by norm_num)]
    simp
  rw [lnResp_val, lnResp_val, e0, effZ1_val_none (g := { g with v := v' }) hz hv', effZ1_val_none hz hv]
  simp only []
  rw [key _ hv h1, key _ hv' h1', Real.log_div hv'.ne' hv.ne']
  ring

theorem ref_soft {c : Row} (g : Given) (k : Kind) (hz : g.z1 = none) :
    (lnResp c (({ g with v := 1130 } : Given).toIn k)).val = (lnRef c (g.toIn k)).val := by
  rw [lnResp_val, effZ1_val_none (g := { g with v := 1130 }) hz (by norm_num)]
  exact respR_rock c le_rfl _ _

end CY14

/-- CY14 without `depth_1_0`, sites up to 1130 m/s, every region.  `p i` is the predicted ordinate `i` of the same
scenario at 1130 m/s; each ordinate is compared with its own reference motion.  Ordinate `i` is strictly higher at
the softer site if `p i ≤ 0.09`; for 2 s to 10 s `p i ≤ 1000`, for PGA `p 24 ≤ 0.12` and for PGV
`p 25 ≤ 18` (cm/s) suffice.  Outside Japan, from 143 to 400 m/s, PGA is strictly lower at the softer site if
`p 24 ≥ 0.5`. -/
theorem C111_cy14 (s t s0 : Scenario) (g g' : CY14.Given) (h : CY14.Source s g) (h' : CY14.Source t g')
    (hst : AgreeExcept ["v_s30"] s t) (h0 : CY14.Source s0 { g with v := 1130 }) (hs0 : AgreeExcept ["v_s30"] s s0)
    (hr : 0 ≤ g.rup) (hz : g.z1 = none) (hv : 0 < g.v) (hvv : g.v < g'.v) (hv1 : g'.v ≤ 1130) :
    ∃ o o' o0, ∃ p : ℕ → ℝ, Gives CY14.cls s o ∧ Gives CY14.cls t o' ∧ Gives CY14.cls s0 o0 ∧
      (∀ i, p i = Real.exp (o0.gmm.lnResp.getD i F.nan).val) ∧
      (∀ i, i < 26 → p i ≤ 0.09 ∨ 18 ≤ i ∧ i < 24 ∧ p i ≤ 1000 ∨ i = 24 ∧ p i ≤ 0.12 ∨ i = 25 ∧ p i ≤ 18 →
        F.Drops (o.gmm.lnResp.getD i F.nan) (o'.gmm.lnResp.getD i F.nan)) ∧
      (s.get "region" ≠ .str "japan" → 0.5 ≤ p 24 → 143 ≤ g.v → g'.v ≤ 400 →
        F.Drops (o'.gmm.lnResp.getD 24 F.nan) (o.gmm.lnResp.getD 24 F.nan)) := by
  have hk : CY14.kindOf t = CY14.kindOf s := CY14.kindOf_agree hst (by decide)
  have hk0 : CY14.kindOf s0 = CY14.kindOf s := CY14.kindOf_agree hs0 (by decide)
  have e := CY14.given_agree h h' hst
  have h2 := CY14.gives h'
  have h3 := CY14.gives h0
  rw [hk, e] at h2
  rw [hk0] at h3
  have hv' := hv.trans hvv
  refine ⟨_, _, _, _, CY14.gives h, h2, h3, fun i => rfl, ?_⟩
  have hj : s.get "region" ≠ .str "japan" → (CY14.kindOf s).reg ≠ .japan := by
    intro hne
    have := CY14.regOf_japan (s.get "region")
    simp only [Val.isStr, hne, decide_false] at this
    simpa [CY14.kindOf] using this.symm
  generalize CY14.kindOf s = k at *
  have row : ∀ i, i < 26 → ∃ c, CY14.table[i]? = some c := fun i hi =>
    ⟨_, List.getElem?_eq_getElem (by rw [CY14.table_length]; exact hi)⟩
  have at_ : ∀ i c, CY14.table[i]? = some c → ∀ j : CY14.In,
      (CY14.out j).gmm.lnResp.getD i F.nan = CY14.lnResp c j := by
    intro i c hi j
    simp only [CY14.out, List.getD_eq_getElem?_getD, List.getElem?_map, hi, Option.map_some, Option.getD_some]
  refine ⟨?_, ?_⟩
  · intro i hi hx
    obtain ⟨c, hcc⟩ := row i hi
    have hc := List.mem_of_getElem? hcc
    rw [at_ i c hcc, CY14.ref_soft g k hz] at hx
    rw [at_ i c hcc, at_ i c hcc]
    obtain ⟨a1, a2, a3⟩ := CY14.resp_soft hc k hr hz hv hv' (by linarith) hv1
    refine ⟨a1, a2, ?_⟩
    have p0 := Real.exp_pos (CY14.lnRef c (g.toIn k)).val
    obtain ⟨a, ha, hav⟩ : ∃ a ∈ [c.phi_1, c.phi_1jp],
        (if k.reg = .japan then (c.phi_1jp : ℝ) else c.phi_1) = (a : ℝ) := by
      by_cases hq : k.reg = .japan
      · exact ⟨c.phi_1jp, by simp, by rw [if_pos hq]⟩
      · exact ⟨c.phi_1, by simp, by rw [if_neg hq]⟩
    obtain ⟨q1, q2, q3, q4, q5, q6⟩ := CY14.soft_rows c hc a ha
    have q7 := CY14.soft_limits ⟨i, hi⟩ c hcc a ha
    rw [hav] at a3
    have hfin : ∀ P : ℚ, (-c.phi_2 = 0 ∨ 1 + P / c.phi_4 ≤ Bounds.expLo (Soft.Q (-a) (-c.phi_2) (-c.phi_3))) →
        Real.exp (CY14.lnRef c (g.toIn k)).val ≤ P →
        (CY14.lnResp c (({ g with v := g'.v } : CY14.Given).toIn k)).val < (CY14.lnResp c (g.toIn k)).val := by
      intro P hP hpP
      have := Soft.exp_amplified (a := -a) (b := -c.phi_2) (k := -c.phi_3) (φ := c.phi_4) (P := P) (by linarith)
        (by linarith) (by linarith) q5 q4 hP p0 (.inr hpP) hv hvv
      push_cast at this
      simp only [neg_neg] at this
      linarith
    rcases hx with hx | ⟨i1, i2, hx⟩ | ⟨i1, hx⟩ | ⟨i1, hx⟩
    · exact hfin 0.09 q6 (by push_cast; exact hx)
    · refine hfin 1000 ?_ (by push_cast; exact hx)
      have : CY14.softLimit i = 1000 := by
        unfold CY14.softLimit; rw [if_neg (by omega), if_neg (by omega), if_pos i1]
      rw [← this]; exact q7
    · refine hfin 0.12 ?_ (by push_cast; exact hx)
      have : CY14.softLimit i = 0.12 := by unfold CY14.softLimit; rw [if_pos i1]
      rw [← this]; exact q7
    · refine hfin 18 ?_ (by push_cast; exact hx)
      have : CY14.softLimit i = 18 := by unfold CY14.softLimit; rw [if_neg (by omega), if_pos i1]
      rw [← this]; exact q7
  · intro hne hx h143 h400
    obtain ⟨c, hcc⟩ := row 24 (by norm_num)
    have hc := List.mem_of_getElem? hcc
    rw [at_ 24 c hcc, CY14.ref_soft g k hz] at hx
    rw [at_ 24 c hcc, at_ 24 c hcc]
    obtain ⟨a1, a2, a3⟩ := CY14.resp_soft hc k hr hz hv hv' (by linarith) hv1
    refine ⟨a2, a1, ?_⟩
    rw [if_neg (hj hne)] at a3
    obtain ⟨f1, f2, f3, f4, f5, f6⟩ := CY14.soft_pga c hcc
    have p0 := Real.exp_pos (CY14.lnRef c (g.toIn k)).val
    have := Soft.exp_deamplified (a := 0.521) (b := 0.1417) (k := 0.00701) (φ := 0.102151) (P := 0.5) (V := 400)
      (q := 1.77) (p := Real.exp (CY14.lnRef c (g.toIn k)).val) (by norm_num) (by norm_num) (by norm_num) (by norm_num)
      (by norm_num) (by norm_num) (by norm_num) (by norm_num) f5 f6 (by push_cast; exact hx)
      (by push_cast; linarith) hvv (by push_cast; exact h400) p0
    have e1 : (c.phi_1 : ℝ) = -0.521 := by rw [f1]; norm_num
    have e2 : (c.phi_2 : ℝ) = -0.1417 := by rw [f2]; norm_num
    have e3 : (c.phi_3 : ℝ) = -0.00701 := by rw [f3]; norm_num
    have e4 : (c.phi_4 : ℝ) = 0.102151 := by rw [f4]; norm_num
    rw [e1, e2, e3, e4] at a3
    push_cast at this
    simp only [neg_neg] at a3
    linarith

/-! ### The hypotheses are met -/

example := C111_akb14 (exRock 200) (exRock 400) (exRock 750) 6.5 200 400 "SS" (some 18) none none
  (by simp [exRock, Scenario.get, Dict.get?]) (by simp [exRock, Scenario.get, Dict.get?])
  (by simp [exRock, Scenario.get, Dict.get?]) (by simp [exRock, Scenario.get, Dict.get?, Val.ofOpt])
  (by simp [exRock, Scenario.get, Dict.get?, Val.ofOpt]) (by simp [exRock, Scenario.get, Dict.get?, Val.ofOpt])
  (exRock_agree _ _) (by simp [exRock, Scenario.get, Dict.get?]) (exRock_agree _ _)
  (by simp [exRock, Scenario.get, Dict.get?]) (by simp) (by norm_num) (by norm_num) (by norm_num)

/-- The scenario of `exRock` without a basin depth. -/
noncomputable def exRockNoBasin (v : ℝ) : Scenario :=
  ⟨[("mag", .num 6.5), ("dist_rup", .num 20), ("dist_jb", .num 18), ("dist_x", .num (-18)), ("dip", .num 60),
    ("depth_hyp", .num 9), ("depth_tor", .num 2), ("width", .num 12), ("depth_bor", .num 14),
    ("mechanism", .str "SS"), ("v_s30", .num v)], []⟩

theorem exRockNoBasin_cb14 (v : ℝ) : CB14.Source (exRockNoBasin v)
    { mag := 6.5, rup := 20, jb := 18, x := -18, dip := 60, v := v, z25 := none, hyp := some 9, tor := some 2,
      width := some 12, bor := some 14 } := by
  constructor <;> simp [exRockNoBasin, Scenario.get, Dict.get?, Val.ofOpt]

example := C111_cb14 (exRock 200) (exRock 400) (exRockNoBasin 1100) _ _ (exRock_cb14 _) (exRock_cb14 _)
  (exRock_agree _ _) (exRockNoBasin_cb14 _)
  (by simp [exRock, exRockNoBasin, Scenario.get, Dict.get?]) (by simp [exRock, exRockNoBasin, Scenario.get, Dict.get?])
  ⟨fun h => by simp at h, fun h => by norm_num at h⟩
  (by simp [exRock, Scenario.get, Dict.get?]) (by simp) (by norm_num) (by norm_num)

example := C111_ask14 (exRock 200) (exRock 400) (exRock 1180) _ _ (exRock_ask14 _) (exRock_ask14 _)
  (exRock_agree _ _) (exRock_ask14 _) (exRock_agree _ _)
  (by
    intro _
    refine ⟨by simp, by norm_num, by norm_num, fun w hw => ?_⟩
    simp only [Option.some.injEq] at hw
    rw [← hw]; norm_num)
  (by simp [exRock, Scenario.get, Dict.get?]) rfl (by norm_num) (by norm_num) (by norm_num)

example := C111_aga16 (exRock 200) (exRock 400) (exRock 1000) 6.5 200 400 20 9 "interface" none (some 20) none
  (some 9) (.scalar 0.2) 10 1 _ (exRock_aga16 _) (exRock_aga16 _) (exRock_aga16 _) (by rw [if_neg (by decide)])
  (fun _ => rfl) (by simp) rfl (by norm_num) (by norm_num) (by norm_num) (by norm_num)

example := C111_coppersmith (exRock 200) (exRock 400) (exRock 1000) 6.5 200 400 20 "interface" 1
  (by simp [exRock, Scenario.get, Dict.get?]) (by simp [exRock, Scenario.get, Dict.get?])
  (by simp [exRock, Scenario.get, Dict.get?]) (by simp [exRock, Scenario.get, Dict.get?])
  (exRock_agree _ _) (by simp [exRock, Scenario.get, Dict.get?]) (exRock_agree _ _)
  (by simp [exRock, Scenario.get, Dict.get?]) (by norm_num) (by norm_num) (by norm_num) (by norm_num)

example := C111_bssa14 (exRock 200) (exRock 400) (exRock 760) _ _ (exRock_bssa14 _) (exRock_bssa14 _)
  (exRock_agree _ _) (exRock_bssa14 _) (exRock_agree _ _) rfl (by norm_num) (by norm_num) (by norm_num)

example := C111_cy14 (exRock 200) (exRock 400) (exRock 1130) _ _ (exRock_cy14 _) (exRock_cy14 _)
  (exRock_agree _ _) (exRock_cy14 _) (exRock_agree _ _) (by norm_num) rfl (by norm_num) (by norm_num) (by norm_num)

open Bounds in
/-- The predicted acceleration of `exRock 750`: between 0.06 g and 0.26 g. -/
theorem exRock_akb14_pga {o0 : GmmOut} (h : Gives AKB14.cls (exRock 750) o0) :
    0.06 ≤ Real.exp (o0.lnResp.getD 0 F.nan).val ∧ Real.exp (o0.lnResp.getD 0 F.nan).val ≤ 0.26 := by
  have hp : AKB14.spec (some 18) none none = some ((18 : ℝ), AKB14.jb) := rfl
  have g := AKB14.gives (exRock 750) (m := 6.5) (v := 750) (t := "SS") (a := some 18) (b := none) (c := none)
    (by simp [exRock, Scenario.get, Dict.get?]) (by simp [exRock, Scenario.get, Dict.get?])
    (by simp [exRock, Scenario.get, Dict.get?]) (by simp [exRock, Scenario.get, Dict.get?, Val.ofOpt])
    (by simp [exRock, Scenario.get, Dict.get?, Val.ofOpt]) (by simp [exRock, Scenario.get, Dict.get?, Val.ofOpt]) hp
  rw [h.unique g]
  have htb := AKB14.spec_table hp
  obtain ⟨hl, r, hr⟩ := AKB14.head_facts _ htb
  have hrm : r ∈ AKB14.jb := List.mem_of_head? hr
  have hr0 : AKB14.jb[0]? = some r := by rw [← List.head?_eq_getElem?]; exact hr
  have o1 := AKB14.lnRef_ok htb hrm 6.5 18 (AKB14.mechFor "SS")
  simp only [AKB14.out, AKB14.pgaRef_eq hr, List.getD_eq_getElem?_getD, List.getElem?_map, hr0, Option.map_some,
    Option.getD_some]
  rw [F.val_add, AKB14.site_val htb hrm (by norm_num), AKB14.S_ref, add_zero, AKB14.lnRef_val htb hrm]
  have fr : ∀ c ∈ AKB14.jb.head?, c.a_1 = 1.85329 ∧ c.a_2 = 0.0029 ∧ c.a_3 = -0.02807 ∧ c.a_4 = -1.23452 := by
    decide +kernel
  obtain ⟨f1, f2, f3, f4⟩ := fr r hr
  have hm : (AKB14.fMech r (AKB14.mechFor "SS")).val = 0 := by
    simp [AKB14.mechFor, AKB14.fMech]
  have hL : AKB14.L 18 = Real.log 19.5 := by
    unfold AKB14.L
    congr 1
    rw [show (18 : ℝ) ^ 2 + 7.5 ^ 2 = 19.5 ^ 2 by norm_num, Real.sqrt_sq (by norm_num)]
  have l1 : Real.log 19.5 ≤ (3 : ℚ) := by
    apply log_le_of (by norm_num) (by norm_num)
    have : (19.5 : ℚ) ≤ expLo 3 := by decide +kernel
    have := (Rat.cast_le (K := ℝ)).2 this; push_cast at this; linarith
  have l2 : ((2.9 : ℚ) : ℝ) ≤ Real.log 19.5 := by
    apply le_log_of (by norm_num) (by norm_num) (by norm_num)
    have : expHi 2.9 ≤ (19.5 : ℚ) := by decide +kernel
    have := (Rat.cast_le (K := ℝ)).2 this; push_cast at this; linarith
  push_cast at l1 l2
  unfold AKB14.A
  rw [hm, hL, f1, f2, f3, f4, min_eq_left (by norm_num), max_eq_right (by norm_num)]
  push_cast
  constructor
  · have e1 : Real.exp ((2.4 : ℚ) : ℝ) ≤ _ := le_expHi (q := 2.4) (by norm_num) (by norm_num)
    have e2 : (expHi 2.4 : ℚ) ≤ 16 := by decide +kernel
    have e3 := (Rat.cast_le (K := ℝ)).2 e2
    push_cast at e1 e3
    have : Real.exp (-2.4) ≤ Real.exp (1.85329 + -0.02807 * (8.5 - 6.5) ^ 2 + (0.0029 * (6.5 - 6.75) + r.a_7 * 0) + 0
        + (-1.23452 + 0.2529 * (6.5 - 6.75)) * Real.log 19.5) := Real.exp_le_exp.2 (by linarith)
    have h4 : (1 : ℝ) / 16 ≤ Real.exp (-2.4) := by
      rw [Real.exp_neg, one_div]; exact inv_anti₀ (Real.exp_pos _) (e1.trans e3)
    refine le_trans ?_ (h4.trans this)
    norm_num
  · have e1 := expLo_le (q := 1.5) (by norm_num)
    have e2 : (4 : ℚ) ≤ expLo 1.5 := by decide +kernel
    have e3 := (Rat.cast_le (K := ℝ)).2 e2
    push_cast at e1 e3
    have : Real.exp (1.85329 + -0.02807 * (8.5 - 6.5) ^ 2 + (0.0029 * (6.5 - 6.75) + r.a_7 * 0) + 0
        + (-1.23452 + 0.2529 * (6.5 - 6.75)) * Real.log 19.5) ≤ Real.exp (-1.5) := Real.exp_le_exp.2 (by linarith)
    have h4 : Real.exp (-1.5) ≤ (1 : ℝ) / 4 := by
      rw [Real.exp_neg, one_div]; exact inv_anti₀ (by norm_num) (e3.trans e1)
    refine (this.trans h4).trans ?_
    norm_num

/-- Both regimes occur: for one and the same earthquake, the acceleration at 400 m/s is higher than the one
at 500 m/s, but the one at 150 m/s is lower than the one at 200 m/s. -/
example : ∃ o1 o2 o3 o4, Gives AKB14.cls (exRock 150) o1 ∧ Gives AKB14.cls (exRock 200) o2 ∧
    Gives AKB14.cls (exRock 400) o3 ∧ Gives AKB14.cls (exRock 500) o4 ∧
    F.Drops (o2.lnResp.getD 0 F.nan) (o1.lnResp.getD 0 F.nan) ∧
    F.Drops (o3.lnResp.getD 0 F.nan) (o4.lnResp.getD 0 F.nan) := by
  have T : ∀ v v' : ℝ, 0 < v → v < v' → v' ≤ 750 → _ := fun v v' h1 h2 h3 =>
    C111_akb14 (exRock v) (exRock v') (exRock 750) 6.5 v v' "SS" (some 18) none none
    (by simp [exRock, Scenario.get, Dict.get?]) (by simp [exRock, Scenario.get, Dict.get?])
    (by simp [exRock, Scenario.get, Dict.get?]) (by simp [exRock, Scenario.get, Dict.get?, Val.ofOpt])
    (by simp [exRock, Scenario.get, Dict.get?, Val.ofOpt]) (by simp [exRock, Scenario.get, Dict.get?, Val.ofOpt])
    (exRock_agree _ _) (by simp [exRock, Scenario.get, Dict.get?]) (exRock_agree _ _)
    (by simp [exRock, Scenario.get, Dict.get?]) (by simp) h1 h2 h3
  obtain ⟨o1, o2, o0, p, g1, g2, g0, hp, -, -, -, hd⟩ := T 150 200 (by norm_num) (by norm_num) (by norm_num)
  obtain ⟨o3, o4, o0', p', g3, g4, g0', hp', -, -, hu, -⟩ := T 400 500 (by norm_num) (by norm_num) (by norm_num)
  refine ⟨o1, o2, o3, o4, g1, g2, g3, g4, hd ?_, hu ?_⟩
  · refine le_trans ?_ ((exRock_akb14_pga g0).1.trans_eq hp.symm)
    have : ((200 : ℝ) / 750) ^ (3.2 : ℝ) ≤ (200 / 750) ^ (3 : ℝ) :=
      Real.rpow_le_rpow_of_exponent_ge (by norm_num) (by norm_num) (by norm_num)
    have h3 : ((200 : ℝ) / 750) ^ (3 : ℝ) = (200 / 750) ^ 3 := by norm_cast
    rw [h3] at this
    norm_num at this ⊢
    linarith
  · refine (hp'.trans_le (exRock_akb14_pga g0').2).trans ?_
    have : ((400 : ℝ) / 750) ^ (3.25 : ℝ) ≤ (400 / 750) ^ (3.2 : ℝ) :=
      Real.rpow_le_rpow_of_exponent_ge (by norm_num) (by norm_num) (by norm_num)
    have h4 : (0.125 : ℝ) ≤ (400 / 750) ^ (3.25 : ℝ) := by
      have : ((0.125 : ℝ)) = (0.125 ^ (4 : ℝ)) ^ (0.25 : ℝ) := by
        rw [← Real.rpow_mul (by norm_num)]; norm_num
      rw [this, show (3.25 : ℝ) = 13 * 0.25 by norm_num, Real.rpow_mul (by norm_num)]
      apply Real.rpow_le_rpow (by positivity) _ (by norm_num)
      have a : (0.125 : ℝ) ^ (4 : ℝ) = 0.125 ^ 4 := by norm_cast
      have b : ((400 : ℝ) / 750) ^ (13 : ℝ) = (400 / 750) ^ 13 := by norm_cast
      rw [a, b]; norm_num
    linarith
