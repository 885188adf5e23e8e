import Verif.Props.I14
import Verif.Props.C03
import Verif.Props.Pea11
import Verif.Props.AKB14
import Verif.Props.ASK14
import Verif.Props.DBC14
import Verif.Props.CY14
import Verif.Props.BSSA14
import Verif.Props.Irrelevant

/-!
# C123: what is left far away

Most models fade out: below any level, however low, from some distance on.  The neural network of
Derras et al. does not.
-/

set_option linter.unusedSimpArgs false

/-- all ordinates are numbers below the level -/
def Spec.FallsBelow (K : ℝ) (ys : List F) : Prop := ∀ y ∈ ys, y.ok ∧ y.val < K

open Spec Filter

namespace FarField

/-- a linear loss beats any multiple of the logarithm -/
theorem lin (b : ℝ) {k : ℝ} (hk : k < 0) (h K : ℝ) : ∀ᶠ R : ℝ in atTop, b * Real.log (R + h) + k * R < K := by
  set e := -k / (2 * (|b| + 1)) with he
  have hb : 0 ≤ |b| := abs_nonneg b
  have he0 : 0 < e := div_pos (by linarith) (by positivity)
  have heb : |b| * e ≤ -k / 2 := by
    rw [he, mul_div_assoc', div_le_div_iff₀ (by positivity) (by norm_num)]
    nlinarith
  filter_upwards [eventually_ge_atTop (1 - h), eventually_ge_atTop 0,
    eventually_gt_atTop ((-k / 2 * h + |b| * (-1 - Real.log e) - K) / (-k / 2))] with R h1 h2 h3
  rw [div_lt_iff₀ (by linarith)] at h3
  have hx : 0 < R + h := by linarith
  have hl : Real.log (R + h) ≤ e * (R + h) - 1 - Real.log e := by
    have := Real.log_le_sub_one_of_pos (mul_pos he0 hx)
    rw [Real.log_mul he0.ne' hx.ne'] at this
    linarith
  have hl0 : 0 ≤ Real.log (R + h) := Real.log_nonneg (by linarith)
  have h4 : b * Real.log (R + h) ≤ |b| * Real.log (R + h) := mul_le_mul_of_nonneg_right (le_abs_self b) hl0
  have h5 := mul_le_mul_of_nonneg_left hl hb
  have h6 := mul_le_mul_of_nonneg_right heb hx.le
  nlinarith

/-- a falling logarithm, possibly with a linear loss -/
theorem log {b : ℝ} (hb : b < 0) {k : ℝ} (hk : k ≤ 0) (K : ℝ) : ∀ᶠ R : ℝ in atTop, b * Real.log R + k * R < K := by
  filter_upwards [(Real.tendsto_log_atTop.const_mul_atTop_of_neg hb).eventually_lt_atBot K, eventually_ge_atTop 0] with R h1 h2
  nlinarith [mul_nonpos_of_nonpos_of_nonneg hk h2]

/-- one distance for all rows -/
theorem rows {α : Type} (l : List α) {P : α → ℝ → Prop} (h : ∀ c ∈ l, ∀ᶠ R in atTop, P c R) :
    ∀ᶠ R in atTop, ∀ c ∈ l, P c R := by
  induction l with
  | nil => exact Eventually.of_forall fun R c hc => by cases hc
  | cons a l ih =>
    filter_upwards [h a (List.mem_cons_self ..), ih fun c hc => h c (List.mem_cons_of_mem _ hc)] with R h1 h2 c hc
    rcases List.mem_cons.1 hc with rfl | hc
    · exact h1
    · exact h2 c hc

theorem logsqrt_ge {R H : ℝ} (hR : 0 < R) : Real.log R ≤ Real.log (√(R ^ 2 + H ^ 2)) := by
  apply Real.log_le_log hR
  calc R = √(R ^ 2) := (Real.sqrt_sq hR.le).symm
    _ ≤ _ := Real.sqrt_le_sqrt (by nlinarith [sq_nonneg H])

end FarField

open FarField

/-- Idriss (2014), any magnitude -/
theorem C123_i14 (m v : ℝ) (hv : 0 < v) (mech : String) (K : ℝ) : ∃ R₀ : ℝ, ∀ (s : Scenario) (R : ℝ), R₀ ≤ R →
    s.get "mag" = .num m → s.get "dist_rup" = .num R → s.get "v_s30" = .num v → s.get "mechanism" = .str mech →
    ∃ o, Gives I14.cls s o ∧ o.lnResp.length = 22 ∧ FallsBelow K o.lnResp := by
  obtain ⟨R₀, h⟩ := eventually_atTop.1 ((rows (I14.coeff (F.ofReal m)) (P := fun c R => ∀ rs,
      (I14.lnResp c (F.ofReal m) (F.ofReal R) (F.ofReal v) rs).val < K) fun c hc => by
    obtain ⟨hg, -⟩ := I14.signs hc
    have := fun rs : Bool => lin (-(c.beta_1 + c.beta_2 * m)) hg 10
      (K - ((c.alpha_1 + c.alpha_2 * m + c.alpha_3 * (8.5 - m) ^ 2) + c.epsilon * Real.log v + c.phi * (if rs then 1 else 0)))
    filter_upwards [this true, this false] with R h1 h2 rs
    rw [I14.lnResp_val]
    cases rs
    · linarith
    · linarith).and (eventually_ge_atTop 0))
  refine ⟨R₀, fun s R hR hm hr hvs hx => ⟨_, I14.gives s hm hr hvs hx, by simp [I14.out, I14.coeff_length], ?_⟩⟩
  obtain ⟨h1, h2⟩ := h R hR
  intro y hy
  simp only [I14.out] at hy
  obtain ⟨c, hc, rfl⟩ := List.mem_map.1 hy
  exact ⟨I14.lnResp_ok c _ h2 hv, h1 c hc _⟩

namespace C03

theorem loss_facts : ∀ c ∈ table, 0 ≤ c.c_6 ∧ c.c_5 + c.c_6 * 7.3 < 0 := by decide +kernel

theorem loss {c : Row} (hc : c ∈ table) {m : ℝ} (h8 : m ≤ 7.3) : (c.c_5 : ℝ) + c.c_6 * m < 0 := by
  obtain ⟨h1, h2⟩ := loss_facts c hc
  have h1' : (0 : ℝ) ≤ c.c_6 := by exact_mod_cast h1
  have h2' : (c.c_5 : ℝ) + c.c_6 * 7.3 < 0 := by
    have : ((c.c_5 + c.c_6 * 7.3 : ℚ) : ℝ) < ((0 : ℚ) : ℝ) := by exact_mod_cast h2
    push_cast at this; linarith
  nlinarith

theorem gain_facts : 0 ≤ (table[2]'(by decide +kernel)).c_6 ∧
    0 < (table[2]'(by decide +kernel)).c_5 + (table[2]'(by decide +kernel)).c_6 * 7.4 ∧
    (table[2]'(by decide +kernel)).period = 0.03 := by decide +kernel

end C03

/-- Campbell (2003), magnitudes up to 7.3 -/
theorem C123_c03 (m : ℝ) (h8 : m ≤ 7.3) (K : ℝ) : ∃ R₀ : ℝ, ∀ (s : Scenario) (R : ℝ), R₀ ≤ R →
    s.get "mag" = .num m → s.get "dist_rup" = .num R →
    ∃ o, Gives C03.cls s o ∧ o.lnResp.length = 16 ∧ FallsBelow K o.lnResp := by
  obtain ⟨R₀, h⟩ := eventually_atTop.1 (rows C03.table (P := fun c R => (C03.lnResp c (F.ofReal m) (F.ofReal R)).val < K)
    fun c hc => by
    filter_upwards [lin (c.c_4 + c.c_9 + c.c_10) (C03.loss hc h8) 0
      (K - (c.c_1 + (c.c_2 * m + c.c_3 * (8.5 - m) ^ 2)) + c.c_9 * Real.log 70 + c.c_10 * Real.log 130),
      eventually_gt_atTop 130] with R h1 h2
    rw [C03.lnResp_val, if_neg (by linarith), if_pos h2]
    have hc4 : (c.c_4 : ℝ) < 0 := by exact_mod_cast (C03.row_facts c hc).1.1
    have := mul_le_mul_of_nonpos_left (logsqrt_ge (H := c.c_7 * Real.exp (c.c_8 * m)) (show 0 < R by linarith)) hc4.le
    rw [add_zero] at h1
    nlinarith)
  refine ⟨R₀, fun s R hR hm hr => ⟨_, C03.gives s hm hr, by rw [C03.out, List.length_map]; decide +kernel, ?_⟩⟩
  intro y hy
  simp only [C03.out] at hy
  obtain ⟨c, hc, rfl⟩ := List.mem_map.1 hy
  exact ⟨C03.lnResp_ok hc _ _, h R hR c hc⟩

/-- ... and from magnitude 7.4 on, the ordinate at 0.03 s (the third) grows beyond every bound far
away: the anelastic coefficient `c_5 + c_6 mag` is positive. -/
theorem C123_c03_grows (m : ℝ) (h7 : 7.4 ≤ m) (K : ℝ) : ∃ R₀ : ℝ, ∀ (s : Scenario) (R : ℝ), R₀ ≤ R →
    s.get "mag" = .num m → s.get "dist_rup" = .num R →
    ∃ o, Gives C03.cls s o ∧ (o.lnResp.getD 2 F.nan).ok ∧ K < (o.lnResp.getD 2 F.nan).val := by
  have hi : 2 < C03.table.length := by decide +kernel
  set c := C03.table[2]'hi with hcdef
  have hc : c ∈ C03.table := List.getElem_mem hi
  obtain ⟨g1, g2, -⟩ := C03.gain_facts
  have g1' : (0 : ℝ) ≤ c.c_6 := by exact_mod_cast g1
  have g2' : 0 < (c.c_5 : ℝ) + c.c_6 * 7.4 := by
    have : ((0 : ℚ) : ℝ) < ((c.c_5 + c.c_6 * 7.4 : ℚ) : ℝ) := by exact_mod_cast g2
    push_cast at this; linarith
  have gain : -((c.c_5 : ℝ) + c.c_6 * m) < 0 := by nlinarith
  obtain ⟨R₀, h⟩ := eventually_atTop.1 (show ∀ᶠ R : ℝ in atTop, K < (C03.lnResp c (F.ofReal m) (F.ofReal R)).val by
    filter_upwards [lin (-(c.c_4 + c.c_9 + c.c_10)) gain 0
      (-K + (c.c_1 + (c.c_2 * m + c.c_3 * (8.5 - m) ^ 2)) + c.c_4 * Real.log 2 - c.c_9 * Real.log 70 - c.c_10 * Real.log 130),
      eventually_gt_atTop 130, eventually_ge_atTop (|c.c_7 * Real.exp (c.c_8 * m)|)] with R h1 h2 h3
    rw [C03.lnResp_val, if_neg (by linarith), if_pos h2]
    have hc4 : (c.c_4 : ℝ) < 0 := by exact_mod_cast (C03.row_facts c hc).1.1
    have hR : 0 < R := by linarith
    have : Real.log √(R ^ 2 + (c.c_7 * Real.exp (c.c_8 * m)) ^ 2) ≤ Real.log 2 + Real.log R := by
      rw [← Real.log_mul (by norm_num) hR.ne']
      apply Real.log_le_log (Real.sqrt_pos.2 (by positivity))
      rw [Real.sqrt_le_left (by positivity)]
      have := sq_le_sq' (by linarith [abs_nonneg (c.c_7 * Real.exp (c.c_8 * m))]) h3
      rw [sq_abs] at this
      nlinarith
    have := mul_le_mul_of_nonpos_left this hc4.le
    rw [add_zero] at h1
    nlinarith)
  refine ⟨R₀, fun s R hR hm hr => ⟨_, C03.gives s hm hr, ?_⟩⟩
  simp only [C03.out, List.getD_eq_getElem?_getD, List.getElem?_map, List.getElem?_eq_getElem hi, Option.map_some,
    Option.getD_some]
  exact ⟨C03.lnResp_ok hc _ _, h R hR⟩

namespace Pea11

theorem loss_facts : ∀ c ∈ table, c.c_10 < 0 := by decide +kernel

end Pea11

/-- Pezeshk, Zandieh & Tavakoli (2011), any magnitude -/
theorem C123_pea11 (m : ℝ) (K : ℝ) : ∃ R₀ : ℝ, ∀ (s : Scenario) (R : ℝ), R₀ ≤ R →
    s.get "mag" = .num m → s.get "dist_rup" = .num R →
    ∃ o, Gives Pea11.cls s o ∧ o.lnResp.length = 23 ∧ FallsBelow K o.lnResp := by
  obtain ⟨R₀, h⟩ := eventually_atTop.1 (rows Pea11.table (P := fun c R => (Pea11.lnResp c (F.ofReal m) (F.ofReal R)).val < K)
    fun c hc => by
    have h10 : (c.c_10 : ℝ) < 0 := by exact_mod_cast Pea11.loss_facts c hc
    have hl10 : 0 < Real.log 10 := Real.log_pos (by norm_num)
    have hlim : Tendsto (fun R : ℝ => √(R ^ 2 + (c.c_11 : ℝ) ^ 2)) atTop atTop := by
      refine tendsto_atTop_mono' atTop ?_ tendsto_id
      filter_upwards [eventually_ge_atTop 0] with R hR
      calc id R = √(R ^ 2) := (Real.sqrt_sq hR).symm
        _ ≤ _ := Real.sqrt_le_sqrt (by nlinarith [sq_nonneg (c.c_11 : ℝ)])
    have main := lin (c.c_8 + c.c_9 * m) (mul_neg_of_pos_of_neg hl10 h10) 0
      (K - Real.log 10 * ((c.c_1 + c.c_2 * m + c.c_3 * m ^ 2) + (c.c_4 + c.c_5 * m) * Real.logb 10 70 +
        (c.c_6 + c.c_7 * m) * Real.logb 10 (140 / 70)) + (c.c_8 + c.c_9 * m) * Real.log 140)
    filter_upwards [hlim.eventually main, hlim.eventually (eventually_gt_atTop (140 : ℝ))] with R h1 h2
    rw [Pea11.lnResp_val]
    generalize √(R ^ 2 + (c.c_11 : ℝ) ^ 2) = d at h1 h2 ⊢
    have d0 : (0 : ℝ) < d := by linarith
    have e1 : min (Real.logb 10 d) (Real.logb 10 70) = Real.logb 10 70 :=
      min_eq_right (Real.logb_le_logb_of_le (by norm_num) (by norm_num) (by linarith))
    have e2 : max (min (Real.logb 10 (d / 70)) (Real.logb 10 (140 / 70))) 0 = Real.logb 10 (140 / 70) := by
      rw [min_eq_right (Real.logb_le_logb_of_le (by norm_num) (by norm_num) (by
        rw [div_le_div_iff_of_pos_right (by norm_num)]; linarith)), max_eq_left]
      exact Real.logb_nonneg (by norm_num) (by norm_num)
    have e3 : max (Real.logb 10 (d / 140)) 0 = Real.logb 10 (d / 140) :=
      max_eq_left (Real.logb_nonneg (by norm_num) (by rw [le_div_iff₀ (by norm_num)]; linarith))
    have e4 : Real.log 10 * Real.logb 10 (d / 140) = Real.log d - Real.log 140 := by
      rw [Real.logb, mul_div_cancel₀ _ hl10.ne', Real.log_div d0.ne' (by norm_num)]
    rw [e1, e2, e3]
    rw [add_zero] at h1
    have : Real.log 10 * ((c.c_8 + c.c_9 * m) * Real.logb 10 (d / 140)) = (c.c_8 + c.c_9 * m) * (Real.log d - Real.log 140) := by
      rw [← e4]; ring
    linarith)
  refine ⟨R₀, fun s R hR hm hr => ⟨_, Pea11.gives s hm hr, by rw [Pea11.out, List.length_map]; decide +kernel, ?_⟩⟩
  intro y hy
  simp only [Pea11.out] at hy
  obtain ⟨c, hc, rfl⟩ := List.mem_map.1 hy
  exact ⟨Pea11.lnResp_ok hc _ _, h R hR c hc⟩

/-- Derras, Bard & Cotton (2014) never fades out: however far away, every acceleration stays above
9e-7 g and the velocity above 0.005 cm/s. -/
theorem C123_dbc14_floor (s : Scenario) (m r v z : ℝ) (t : String) (hr : 0 < r) (hv : 0 < v)
    (hsm : s.get "mag" = .num m) (hsr : s.get "dist_jb" = .num r) (hsv : s.get "v_s30" = .num v)
    (hsz : s.get "depth_hyp" = .num z) (hst : s.get "mechanism" = .str t) (hmem : t ∈ ["SS", "NS", "RS"]) :
    ∃ o, Gives DBC14.cls s o ∧ o.lnResp.length = 64 ∧ ∀ i < 64, 9e-7 ≤ Real.exp (o.resp i) := by
  obtain ⟨o, h1, h2, -, ⟨h3, -⟩, h4⟩ := C57_bounded s m r v z t hr hv hsm hsr hsv hsz hst hmem
  refine ⟨o, h1, h2, fun i hi => ?_⟩
  rcases Nat.eq_zero_or_pos i with rfl | h0
  · exact le_trans (by norm_num) h3
  · exact (h4 i h0 hi).1

namespace AKB14

/-- the site term stays bounded however weak the motion -/
theorem S_le {tbl : List Row} (ht : tbl ∈ tables) {c : Row} (hc : c ∈ tbl) {v : ℝ} (hv : 0 < v) (x : ℝ) :
    S c v x ≤ c.b_1 * Real.log (min v 1000 / 750) := by
  obtain ⟨-, -, -, -, -, -, -, hb2, -⟩ := row_facts tbl ht c hc
  have hb2' : (c.b_2 : ℝ) < 0 := by exact_mod_cast hb2
  unfold S
  set q := min v 750 / 750 with hq
  have q0 : 0 < q := div_pos (lt_min hv (by norm_num)) (by norm_num)
  have q1 : q ≤ 1 := by rw [hq, div_le_one (by norm_num)]; exact min_le_right _ _
  have p0 : 0 < q ^ (3.2 : ℝ) := Real.rpow_pos_of_pos q0 _
  have p1 : q ^ (3.2 : ℝ) ≤ 1 := Real.rpow_le_one q0.le q1 (by norm_num)
  have he := Real.exp_pos x
  have key : Real.log (q ^ (3.2 : ℝ)) + Real.log (Real.exp x + 2.5) ≤ Real.log (Real.exp x + 2.5 * q ^ (3.2 : ℝ)) := by
    rw [← Real.log_mul p0.ne' (by positivity)]
    apply Real.log_le_log (by positivity)
    nlinarith
  rw [Real.log_rpow q0] at key
  nlinarith

end AKB14

/-- Akkar, Sandıkkaya & Bommer (2014), magnitudes up to 8.5, on all three distance metrics (`d` is the
first one that is given) -/
theorem C123_akb14 (m v : ℝ) (hv : 0 < v) (h8 : m ≤ 8.5) (mech : String) (K : ℝ) : ∃ R₀ : ℝ, ∀ (s : Scenario) (R : ℝ)
    (b c : Option ℝ), R₀ ≤ R → s.get "mag" = .num m → s.get "v_s30" = .num v → s.get "mechanism" = .str mech →
    ((s.get "dist_jb" = .num R ∧ s.get "dist_hyp" = Val.ofOpt b ∧ s.get "dist_epi" = Val.ofOpt c) ∨
      (s.get "dist_jb" = .none ∧ s.get "dist_hyp" = .num R ∧ s.get "dist_epi" = Val.ofOpt c) ∨
      (s.get "dist_jb" = .none ∧ s.get "dist_hyp" = .none ∧ s.get "dist_epi" = .num R)) →
    ∃ o, Gives AKB14.cls s o ∧ o.lnResp.length = 64 ∧ FallsBelow K o.lnResp := by
  have main : ∀ tbl ∈ AKB14.tables, ∀ᶠ R : ℝ in atTop, ∀ c ∈ tbl, ∀ x : ℝ,
      (AKB14.lnRef c (F.ofReal m) (F.ofReal R) (AKB14.mechFor mech)).val + AKB14.S c v x < K := by
    intro tbl ht
    refine rows tbl fun c hc => ?_
    obtain ⟨-, -, -, -, -, -, -, -, ha, -⟩ := AKB14.row_facts tbl ht c hc
    have ha' : (c.a_4 : ℝ) + 0.2529 * 1.75 < 0 := by
      have : ((c.a_4 + 0.2529 * 1.75 : ℚ) : ℝ) < ((0 : ℚ) : ℝ) := by exact_mod_cast ha
      push_cast at this; linarith
    have hneg : (c.a_4 : ℝ) + 0.2529 * (m - 6.75) < 0 := by linarith
    filter_upwards [log hneg le_rfl (K - AKB14.A c m (AKB14.mechFor mech) - c.b_1 * Real.log (min v 1000 / 750)),
      eventually_gt_atTop 0] with R h1 h2 x
    have e1 := AKB14.S_le ht hc hv x
    have e2 := mul_le_mul_of_nonpos_left (logsqrt_ge (H := 7.5) h2) hneg.le
    rw [AKB14.lnRef_val ht hc]
    unfold AKB14.L
    linarith
  obtain ⟨R₀, h⟩ := eventually_atTop.1 (rows AKB14.tables main)
  have fin : ∀ tbl ∈ AKB14.tables, ∀ R, R₀ ≤ R →
      (AKB14.out tbl (F.ofReal m) (F.ofReal R) (F.ofReal v) (AKB14.mechFor mech)).lnResp.length = 64 ∧
      FallsBelow K (AKB14.out tbl (F.ofReal m) (F.ofReal R) (F.ofReal v) (AKB14.mechFor mech)).lnResp := by
    intro tbl ht R hR
    obtain ⟨hl, r, hr⟩ := AKB14.head_facts _ ht
    refine ⟨by simp only [AKB14.out, List.length_map, hl], ?_⟩
    intro y hy
    simp only [AKB14.out] at hy
    obtain ⟨c, hc, rfl⟩ := List.mem_map.1 hy
    rw [AKB14.pgaRef_eq hr]
    have hrm := List.mem_of_mem_head? hr
    refine ⟨⟨AKB14.lnRef_ok ht hc _ _ _, AKB14.site_ok ht hc hv (AKB14.lnRef_ok ht hrm _ _ _)⟩, ?_⟩
    rw [F.val_add, AKB14.site_val ht hc hv]
    exact h R hR tbl ht c hc _
  refine ⟨R₀, fun s R b c hR hm hvs hx hd => ?_⟩
  rcases hd with ⟨a1, a2, a3⟩ | ⟨a1, a2, a3⟩ | ⟨a1, a2, a3⟩
  · exact ⟨_, AKB14.gives (a := some R) s hm hvs hx a1 a2 a3 rfl, fin _ (by simp [AKB14.tables]) R hR⟩
  · exact ⟨_, AKB14.gives (a := none) (b := some R) s hm hvs hx a1 a2 a3 rfl, fin _ (by simp [AKB14.tables]) R hR⟩
  · exact ⟨_, AKB14.gives (a := none) (b := none) (c := some R) s hm hvs hx a1 a2 a3 rfl, fin _ (by simp [AKB14.tables]) R hR⟩

namespace CY14

theorem source_rup {s t : Scenario} {g : Given} (h : Source s g) (hst : AgreeExcept ["dist_rup"] s t) {R : ℝ}
    (hR : t.get "dist_rup" = .num R) : Source t { g with rup := R } where
  mag := (hst _ (by decide)).trans h.mag
  rup := hR
  jb := (hst _ (by decide)).trans h.jb
  x := (hst _ (by decide)).trans h.x
  dip := (hst _ (by decide)).trans h.dip
  v := (hst _ (by decide)).trans h.v
  tor := (hst _ (by decide)).trans h.tor
  z1 := (hst _ (by decide)).trans h.z1
  dpp := (hst _ (by decide)).trans h.dpp

theorem kind_rup {s t : Scenario} (hst : AgreeExcept ["dist_rup"] s t) : kindOf t = kindOf s := by
  simp [kindOf, hst "mechanism" (by decide), hst "on_hanging_wall" (by decide),
    hst "vs_source" (by decide), hst "region" (by decide)]

/-- the hanging-wall term stays bounded -/
theorem fHng_le (c : Row) (g : Given) (k : Kind) : ∃ B : ℝ, ∀ R : ℝ, 0 ≤ R →
    (fHng c (({ g with rup := R } : Given).toIn k)).val ≤ B := by
  cases hk : k.hw with
  | false => exact ⟨0, fun R hR => by simp [fHng, Given.toIn, hk]⟩
  | true =>
    have e : ∀ R, (fHng c (({ g with rup := R } : Given).toIn k)).val =
        (c.c_9 * Real.cos (g.dip * (Real.pi / 180)) * (c.c_9a + (1 - c.c_9a) * Real.tanh (g.x / c.c_9b))) *
          (1 - √(g.jb ^ 2 + (g.effTor k).val ^ 2) / (R + 1)) := by
      intro R
      have e0 : (({ g with rup := R } : Given).effTor k) = g.effTor k := rfl
      simp only [fHng, Given.toIn, hk, if_true, e0, fsimp]
    generalize (c.c_9 * Real.cos (g.dip * (Real.pi / 180)) * (c.c_9a + (1 - c.c_9a) * Real.tanh (g.x / c.c_9b)) : ℝ) = A at e
    generalize hs : √(g.jb ^ 2 + (g.effTor k).val ^ 2) = q at e
    have q0 : 0 ≤ q := hs ▸ Real.sqrt_nonneg _
    refine ⟨|A| * (1 + q), fun R hR => ?_⟩
    rw [e]
    have h1 : |1 - q / (R + 1)| ≤ 1 + q := by
      have a1 : 0 ≤ q / (R + 1) := div_nonneg q0 (by linarith)
      have a2 : q / (R + 1) ≤ q := div_le_self q0 (by linarith)
      rw [abs_le]; constructor <;> linarith
    calc A * (1 - q / (R + 1)) ≤ |A * (1 - q / (R + 1))| := le_abs_self _
      _ = |A| * |1 - q / (R + 1)| := abs_mul _ _
      _ ≤ _ := mul_le_mul_of_nonneg_left h1 (abs_nonneg _)

end CY14

/-- Chiou & Youngs (2014), any magnitude, on and off the hanging wall, in every region -/
theorem C123_cy14 (s₀ : Scenario) (g : CY14.Given) (h₀ : CY14.Source s₀ g) (hv : 0 < g.v) (K : ℝ) :
    ∃ R₀ : ℝ, ∀ (s : Scenario) (R : ℝ), R₀ ≤ R → AgreeExcept ["dist_rup"] s₀ s → s.get "dist_rup" = .num R →
    ∃ o, Gives CY14.cls s o ∧ o.gmm.lnResp.length = 26 ∧ FallsBelow K o.gmm.lnResp := by
  set k := CY14.kindOf s₀ with hk
  obtain ⟨R₀, h⟩ := eventually_atTop.1 ((rows CY14.table (P := fun c R =>
      (CY14.lnResp c (({ g with rup := R } : CY14.Given).toIn k)).val < K) fun c hc => by
    obtain ⟨q1, q2, q3, -, -, -, h4, -, -, -⟩ := CY14.row_facts c hc
    have q1' : (c.c_4 : ℝ) = -2.1 := by rw [q1]; norm_num
    have q2' : (c.c_4a : ℝ) = -0.5 := by rw [q2]; norm_num
    have q3' : (c.c_rb : ℝ) = 50 := by rw [q3]; norm_num
    have h4' : (0 : ℝ) < c.phi_4 := by exact_mod_cast h4
    obtain ⟨B, hB⟩ := CY14.fHng_le c g k
    have hg := CY14.gam_nonpos hc g.mag k.reg
    have hH := CY14.H_pos hc g.mag
    filter_upwards [log (show (-0.5 : ℝ) < 0 by norm_num) hg (K - (CY14.baseF c (g.toIn k)).val - B - 1.6 * Real.log 2 -
      CY14.siteConst c g.v (g.effZ1 k).val (k.reg = .japan)), eventually_ge_atTop 70] with R h1 h2
    rw [CY14.lnResp_val]
    unfold CY14.respR
    have nl : CY14.bR c g.v * Real.log ((Real.exp (CY14.lnRef c (({ g with rup := R } : CY14.Given).toIn k)).val + c.phi_4) / c.phi_4) ≤ 0 := by
      apply mul_nonpos_of_nonpos_of_nonneg (CY14.bR_nonpos hc g.v)
      apply Real.log_nonneg
      rw [le_div_iff₀ h4']
      linarith [Real.exp_pos (CY14.lnRef c (({ g with rup := R } : CY14.Given).toIn k)).val]
    have e0 : CY14.baseF c (({ g with rup := R } : CY14.Given).toIn k) = CY14.baseF c (g.toIn k) := rfl
    have e1 : (({ g with rup := R } : CY14.Given).effZ1 k) = g.effZ1 k := rfl
    have hd : CY14.distR c g.mag R (g.dpp.getD 0) k.reg ≤ -0.5 * Real.log R + CY14.gam c g.mag k.reg * R + 1.6 * Real.log 2 := by
      unfold CY14.distR
      have z : max (1 - max (R - 40) 0 / 30) 0 = 0 := by
        rw [max_eq_left (by linarith : (0 : ℝ) ≤ R - 40)]
        apply max_eq_right
        have : 1 ≤ (R - 40) / 30 := by rw [le_div_iff₀ (by norm_num)]; linarith
        linarith
      rw [z, q1', q2', q3']
      have l1 : Real.log R ≤ Real.log (R + CY14.H c g.mag) := Real.log_le_log (by linarith) (by linarith)
      have l2 : Real.log √(R ^ 2 + 50 ^ 2) ≤ Real.log 2 + Real.log R := by
        rw [← Real.log_mul (by norm_num) (by linarith)]
        apply Real.log_le_log (Real.sqrt_pos.2 (by positivity))
        rw [Real.sqrt_le_left (by linarith)]
        nlinarith
      generalize Real.log √(R ^ 2 + 50 ^ 2) = a at l2 ⊢
      generalize Real.log (R + CY14.H c g.mag) = b at l1 ⊢
      norm_num
      linarith
    have href := CY14.lnRef_val c ({ g with rup := R } : CY14.Given) k
    rw [e0] at href
    have hb := hB R (by linarith)
    have hd' : CY14.distR c ({ g with rup := R } : CY14.Given).mag ({ g with rup := R } : CY14.Given).rup
      (({ g with rup := R } : CY14.Given).dpp.getD 0) k.reg ≤ -0.5 * Real.log R + CY14.gam c g.mag k.reg * R + 1.6 * Real.log 2 := hd
    rw [e1]
    change (CY14.lnRef c (({ g with rup := R } : CY14.Given).toIn k)).val +
      (CY14.siteConst c g.v (g.effZ1 k).val (k.reg = .japan) + CY14.bR c g.v * _) < K
    linarith).and (eventually_ge_atTop 0))
  refine ⟨R₀, fun s R hR hst hr => ⟨_, CY14.gives (CY14.source_rup h₀ hst hr), ?_, ?_⟩⟩
  · simp only [CY14.out, List.length_map, CY14.table_length]
  · obtain ⟨h1, h2⟩ := h R hR
    intro y hy
    rw [CY14.kind_rup hst, ← hk] at hy
    simp only [CY14.out] at hy
    obtain ⟨c, hc, rfl⟩ := List.mem_map.1 hy
    exact ⟨CY14.lnResp_ok (g := { g with rup := R }) hc h2 hv k, h1 c hc⟩

namespace BSSA14

theorem D_tendsto (c : Row) : Tendsto (D c) atTop atTop := by
  refine tendsto_atTop_mono' atTop ?_ tendsto_id
  filter_upwards [eventually_ge_atTop 0] with R hR
  calc id R = √(R ^ 2) := (Real.sqrt_sq hR).symm
    _ ≤ _ := Real.sqrt_le_sqrt (by nlinarith [sq_nonneg (c.h : ℝ)])

theorem spread_facts : ∀ c ∈ table, 0 ≤ c.c_2 ∧ c.c_1 + c.c_2 * (8.5 - 4.5) < 0 := by decide +kernel

theorem spread_neg {c : Row} (hc : c ∈ table) {m : ℝ} (h8 : m ≤ 8.5) : (c.c_1 : ℝ) + c.c_2 * (m - 4.5) < 0 := by
  obtain ⟨h1, h2⟩ := spread_facts c hc
  have h1' : (0 : ℝ) ≤ c.c_2 := by exact_mod_cast h1
  have h2' : (c.c_1 : ℝ) + c.c_2 * (8.5 - 4.5) < 0 := by
    have : ((c.c_1 + c.c_2 * (8.5 - 4.5) : ℚ) : ℝ) < ((0 : ℚ) : ℝ) := by exact_mod_cast h2
    push_cast at this; linarith
  nlinarith

theorem path_fades {c : Row} (hc : c ∈ table) {m : ℝ} (h8 : m ≤ 8.5) {reg : Reg} (h : c.c_3 + dc3 c reg ≤ 0) (K : ℝ) :
    ∀ᶠ R in atTop, pathR c m R reg < K := by
  have h' : (c.c_3 : ℝ) + dc3 c reg ≤ 0 := by exact_mod_cast h
  filter_upwards [(D_tendsto c).eventually (log (spread_neg hc h8) h' (K + (c.c_3 + dc3 c reg)))] with R h1
  unfold pathR
  linarith

theorem path_grows {c : Row} {m : ℝ} {reg : Reg} (h : 0 < c.c_3 + dc3 c reg) (K : ℝ) :
    ∀ᶠ R in atTop, K < pathR c m R reg := by
  have h' : 0 < (c.c_3 : ℝ) + dc3 c reg := by exact_mod_cast h
  filter_upwards [(D_tendsto c).eventually (lin (-(c.c_1 + c.c_2 * (m - 4.5))) (neg_neg_of_pos h') 0 (-K - (c.c_3 + dc3 c reg)))]
    with R h1
  unfold pathR
  rw [add_zero] at h1
  linarith

/-- far away the nonlinear term is bounded -/
theorem nl_bounded (c : Row) (v m : ℝ) (h8 : m ≤ 8.5) (mech : Mech) (reg : Reg) : ∀ᶠ R : ℝ in atTop,
    |f2R c v * Real.log ((Real.exp (refR m R mech reg) + 0.1) / 0.1)| ≤ |f2R c v| * Real.log 11 := by
  have hp := (pga_slopes reg (by cases reg <;> simp)).1
  filter_upwards [path_fades pgaRow_mem h8 hp.le (-eventR pgaRow m mech)] with R h1
  have hr : refR m R mech reg < 0 := by unfold refR; linarith
  have h2 := Real.exp_pos (refR m R mech reg)
  have h3 : Real.exp (refR m R mech reg) < 1 := by rw [Real.exp_lt_one_iff]; exact hr
  rw [abs_mul]
  apply mul_le_mul_of_nonneg_left _ (abs_nonneg _)
  rw [abs_of_nonneg (Real.log_nonneg (by rw [le_div_iff₀ (by norm_num)]; linarith))]
  apply Real.log_le_log (by positivity)
  rw [div_le_iff₀ (by norm_num)]; linarith

/-- the sum of the terms that do not depend on the distance -/
noncomputable def still (c : Row) (g : Given) (mech : Mech) : ℝ :=
  eventR c g.mag mech + c.c * Real.log (min g.v c.V_c / 760) + basinR c g.v g.z1

theorem row_fades {c : Row} (hc : c ∈ table) (g : Given) (hv : 0 < g.v) (h8 : g.mag ≤ 8.5) (mech : Mech) {reg : Reg}
    (h : c.c_3 + dc3 c reg ≤ 0) (K : ℝ) : ∀ᶠ R : ℝ in atTop,
    (lnResp c (({ g with jb := R } : Given).toIn mech reg) (some (pgaRef (({ g with jb := R } : Given).toIn mech reg)))).val < K := by
  filter_upwards [path_fades hc h8 h (K - still c g mech - |f2R c g.v| * Real.log 11), nl_bounded c g.v g.mag h8 mech reg]
    with R h1 h2
  rw [(resp_facts hc { g with jb := R } hv mech reg).2]
  have := (abs_le.1 h2).2
  unfold still at h1
  change eventR c g.mag mech + pathR c g.mag R reg + (c.c * Real.log (min g.v c.V_c / 760) +
    f2R c g.v * Real.log ((Real.exp (refR g.mag R mech reg) + 0.1) / 0.1) + basinR c g.v g.z1) < K
  linarith

theorem row_grows {c : Row} (hc : c ∈ table) (g : Given) (hv : 0 < g.v) (h8 : g.mag ≤ 8.5) (mech : Mech) {reg : Reg}
    (h : 0 < c.c_3 + dc3 c reg) (K : ℝ) : ∀ᶠ R : ℝ in atTop,
    K < (lnResp c (({ g with jb := R } : Given).toIn mech reg) (some (pgaRef (({ g with jb := R } : Given).toIn mech reg)))).val := by
  filter_upwards [path_grows (c := c) (m := g.mag) h (K - still c g mech + |f2R c g.v| * Real.log 11),
    nl_bounded c g.v g.mag h8 mech reg] with R h1 h2
  rw [(resp_facts hc { g with jb := R } hv mech reg).2]
  have := (abs_le.1 h2).1
  unfold still at h1
  change K < eventR c g.mag mech + pathR c g.mag R reg + (c.c * Real.log (min g.v c.V_c / 760) +
    f2R c g.v * Real.log ((Real.exp (refR g.mag R mech reg) + 0.1) / 0.1) + basinR c g.v g.z1)
  linarith

/-- the ordinates that grow: the peak velocity (first) and periods from 0.65 s in China and Turkey,
periods from 7 s in Italy and Japan -/
theorem sign_facts : ∀ i (hi : i < table.length),
    (table[i].c_3 + dc3 table[i] .other ≤ 0) ∧
    (if i = 0 ∨ 0.65 ≤ table[i].period then 0 < table[i].c_3 + dc3 table[i] .chinaTurkey
      else table[i].c_3 + dc3 table[i] .chinaTurkey ≤ 0) ∧
    (if 7 ≤ table[i].period then 0 < table[i].c_3 + dc3 table[i] .italyJapan
      else table[i].c_3 + dc3 table[i] .italyJapan ≤ 0) := by decide +kernel

theorem source_jb {s t : Scenario} {g : Given} (h : Source s g) (hst : AgreeExcept ["dist_jb"] s t) {R : ℝ}
    (hR : t.get "dist_jb" = .num R) : Source t { g with jb := R } where
  mag := (hst _ (by decide)).trans h.mag
  jb := hR
  v := (hst _ (by decide)).trans h.v
  z1 := (hst _ (by decide)).trans h.z1

theorem far {g : Given} (hv : 0 < g.v) (h8 : g.mag ≤ 8.5) (mech : Mech) (reg : Reg) (G : ℕ → Prop) [DecidablePred G]
    (hs : ∀ i (hi : i < table.length), if G i then 0 < table[i].c_3 + dc3 table[i] reg else table[i].c_3 + dc3 table[i] reg ≤ 0)
    (K : ℝ) : ∀ᶠ R : ℝ in atTop, ∀ i < 107,
      ((out (({ g with jb := R } : Given).toIn mech reg)).gmm.lnResp.getD i F.nan).ok ∧
      (if G i then K < (out (({ g with jb := R } : Given).toIn mech reg)).gmm.resp i
        else (out (({ g with jb := R } : Given).toIn mech reg)).gmm.resp i < K) := by
  have := rows (List.range 107) (P := fun i R =>
    ((out (({ g with jb := R } : Given).toIn mech reg)).gmm.lnResp.getD i F.nan).ok ∧
      (if G i then K < (out (({ g with jb := R } : Given).toIn mech reg)).gmm.resp i
        else (out (({ g with jb := R } : Given).toIn mech reg)).gmm.resp i < K)) fun i hi => by
    have hi' : i < table.length := by rw [table_length]; exact List.mem_range.1 hi
    have hc : table[i] ∈ table := List.getElem_mem hi'
    have hok : ∀ R : ℝ, ((out (({ g with jb := R } : Given).toIn mech reg)).gmm.lnResp.getD i F.nan).ok := by
      intro R
      refine out_ok { g with jb := R } hv mech reg _ ?_
      have hl : i < (out (({ g with jb := R } : Given).toIn mech reg)).gmm.lnResp.length := by
        simp only [out, List.length_map]; exact hi'
      rw [List.getD_eq_getElem?_getD, List.getElem?_eq_getElem hl, Option.getD_some]
      exact List.getElem_mem hl
    have h := hs i hi'
    by_cases hG : G i
    · rw [if_pos hG] at h
      filter_upwards [row_grows hc g hv h8 mech h K] with R h1
      rw [if_pos hG, out_resp _ hi']
      exact ⟨hok R, h1⟩
    · rw [if_neg hG] at h
      filter_upwards [row_fades hc g hv h8 mech h K] with R h1
      rw [if_neg hG, out_resp _ hi']
      exact ⟨hok R, h1⟩
  filter_upwards [this] with R hR i hi
  exact hR i (List.mem_range.2 hi)

end BSSA14

/-- Boore, Stewart, Seyhan & Atkinson (2014), magnitudes up to 8.5: outside China, Turkey, Italy and
Japan everything fades out. -/
theorem C123_bssa14 (s₀ : Scenario) (g : BSSA14.Given) (h₀ : BSSA14.Source s₀ g) (hv : 0 < g.v) (h8 : g.mag ≤ 8.5)
    (hr : ∀ x ∈ ["china", "turkey", "italy", "japan"], s₀.get "region" ≠ .str x) (K : ℝ) :
    ∃ R₀ : ℝ, ∀ (s : Scenario) (R : ℝ), R₀ ≤ R → AgreeExcept ["dist_jb"] s₀ s → s.get "dist_jb" = .num R →
    ∃ o, Gives BSSA14.cls s o ∧ ∀ i < 107, (o.gmm.lnResp.getD i F.nan).ok ∧ o.gmm.resp i < K := by
  obtain ⟨R₀, h⟩ := eventually_atTop.1 (BSSA14.far hv h8 (BSSA14.mechOf (s₀.get "mechanism")) .other (fun _ => False)
    (fun i hi => by rw [if_neg id]; exact (BSSA14.sign_facts i hi).1) K)
  refine ⟨R₀, fun s R hR hst hd => ⟨_, BSSA14.gives (BSSA14.source_jb h₀ hst hd), fun i hi => ?_⟩⟩
  have e : BSSA14.regOf (s.get "region") = .other := by
    rw [hst "region" (by decide)]
    simp only [List.forall_mem_cons] at hr
    simp [BSSA14.regOf, Val.isStr, hr]
  rw [e, hst "mechanism" (by decide)]
  have := h R hR i hi
  rwa [if_neg id] at this

/-- In China and Turkey the peak velocity (the first ordinate) and the accelerations at periods from
0.65 s grow beyond every bound far away; the peak acceleration and shorter periods fade out. -/
theorem C123_bssa14_china (s₀ : Scenario) (g : BSSA14.Given) (h₀ : BSSA14.Source s₀ g) (hv : 0 < g.v) (h8 : g.mag ≤ 8.5)
    (hr : s₀.get "region" = .str "china" ∨ s₀.get "region" = .str "turkey") (K : ℝ) :
    ∃ R₀ : ℝ, ∀ (s : Scenario) (R : ℝ), R₀ ≤ R → AgreeExcept ["dist_jb"] s₀ s → s.get "dist_jb" = .num R →
    ∃ o, Gives BSSA14.cls s o ∧ ∀ i (hi : i < BSSA14.table.length), (o.gmm.lnResp.getD i F.nan).ok ∧
      (i = 0 ∨ 0.65 ≤ BSSA14.table[i].period → K < o.gmm.resp i) ∧
      (i ≠ 0 → BSSA14.table[i].period < 0.65 → o.gmm.resp i < K) := by
  classical
  obtain ⟨R₀, h⟩ := eventually_atTop.1 (BSSA14.far hv h8 (BSSA14.mechOf (s₀.get "mechanism")) .chinaTurkey
    (fun i => i = 0 ∨ ∃ hi : i < BSSA14.table.length, 0.65 ≤ BSSA14.table[i].period)
    (fun i hi => by
      have := (BSSA14.sign_facts i hi).2.1
      simp only [hi, exists_true_left]
      convert this) K)
  refine ⟨R₀, fun s R hR hst hd => ⟨_, BSSA14.gives (BSSA14.source_jb h₀ hst hd), fun i hi => ?_⟩⟩
  have e : BSSA14.regOf (s.get "region") = .chinaTurkey := by
    rw [hst "region" (by decide)]
    rcases hr with hr | hr <;> simp [BSSA14.regOf, Val.isStr, hr]
  rw [e, hst "mechanism" (by decide)]
  obtain ⟨h1, h2⟩ := h R hR i (by rw [BSSA14.table_length] at hi; exact hi)
  simp only [hi, exists_true_left] at h2
  refine ⟨h1, fun a => ?_, fun a b => ?_⟩
  · rwa [if_pos a] at h2
  · rwa [if_neg (by push Not; exact ⟨a, b⟩)] at h2

/-- In Italy and Japan the accelerations at periods from 7 s grow beyond every bound; the rest fades
out. -/
theorem C123_bssa14_japan (s₀ : Scenario) (g : BSSA14.Given) (h₀ : BSSA14.Source s₀ g) (hv : 0 < g.v) (h8 : g.mag ≤ 8.5)
    (hr : s₀.get "region" = .str "italy" ∨ s₀.get "region" = .str "japan") (K : ℝ) :
    ∃ R₀ : ℝ, ∀ (s : Scenario) (R : ℝ), R₀ ≤ R → AgreeExcept ["dist_jb"] s₀ s → s.get "dist_jb" = .num R →
    ∃ o, Gives BSSA14.cls s o ∧ ∀ i (hi : i < BSSA14.table.length), (o.gmm.lnResp.getD i F.nan).ok ∧
      (7 ≤ BSSA14.table[i].period → K < o.gmm.resp i) ∧ (BSSA14.table[i].period < 7 → o.gmm.resp i < K) := by
  classical
  obtain ⟨R₀, h⟩ := eventually_atTop.1 (BSSA14.far hv h8 (BSSA14.mechOf (s₀.get "mechanism")) .italyJapan
    (fun i => ∃ hi : i < BSSA14.table.length, 7 ≤ BSSA14.table[i].period)
    (fun i hi => by
      have := (BSSA14.sign_facts i hi).2.2
      simp only [hi, exists_true_left]
      convert this) K)
  refine ⟨R₀, fun s R hR hst hd => ⟨_, BSSA14.gives (BSSA14.source_jb h₀ hst hd), fun i hi => ?_⟩⟩
  have e : BSSA14.regOf (s.get "region") = .italyJapan := by
    rw [hst "region" (by decide)]
    rcases hr with hr | hr <;> simp [BSSA14.regOf, Val.isStr, hr]
  rw [e, hst "mechanism" (by decide)]
  obtain ⟨h1, h2⟩ := h R hR i (by rw [BSSA14.table_length] at hi; exact hi)
  simp only [hi, exists_true_left] at h2
  refine ⟨h1, fun a => ?_, fun b => ?_⟩
  · rwa [if_pos a] at h2
  · rwa [if_neg (not_le.2 b)] at h2

namespace ASK14

theorem source_rup {s t : Scenario} {g : Given} {R : ℝ} (h : Source s g) (hst : AgreeExcept ["dist_rup"] s t)
    (hR : t.get "dist_rup" = .num R) : Source t { g with rup := R } where
  mag := (hst _ (by decide)).trans h.mag
  rup := hR
  jb := (hst _ (by decide)).trans h.jb
  dip := (hst _ (by decide)).trans h.dip
  v := (hst _ (by decide)).trans h.v
  x := (hst _ (by decide)).trans h.x
  y0 := (hst _ (by decide)).trans h.y0
  width := (hst _ (by decide)).trans h.width
  tor := (hst _ (by decide)).trans h.tor
  z1 := (hst _ (by decide)).trans h.z1
  crjb := (hst _ (by decide)).trans h.crjb
  mech := by rw [hst "mechanism" (by decide)]; exact h.mech

theorem kind_rup {s t : Scenario} (hst : AgreeExcept ["dist_rup"] s t) : kindOf t = kindOf s := by
  simp [kindOf, hst "mechanism" (by decide), hst "on_hanging_wall" (by decide),
    hst "vs_source" (by decide), hst "region" (by decide), hst "is_aftershock" (by decide)]

/-- the site amplification stays bounded -/
theorem f5R_le {c : Row} (hc : c ∈ table) {v : ℝ} (hv : 0 < v) : ∃ B : ℝ, ∀ x, f5R c v x ≤ B := by
  obtain ⟨-, -, -, hb, h5, -⟩ := row_facts c hc
  have h5' : (0 : ℝ) < c.c := by exact_mod_cast h5
  have hb' : (c.b : ℝ) ≤ 0 := by exact_mod_cast hb
  have hp := ratioR_pos hc hv
  unfold f5R
  split
  · rename_i h1
    generalize hq : ratioR c v ^ (1.5 : ℝ) = q
    have q0 : 0 < q := hq ▸ Real.rpow_pos_of_pos hp _
    have q1 : q ≤ 1 := hq ▸ Real.rpow_le_one hp.le h1.le (by norm_num)
    refine ⟨c.a10 * Real.log (ratioR c v) + c.b * Real.log q, fun x => ?_⟩
    have hE := Real.exp_pos x
    have hl : Real.log q + Real.log (Real.exp x + c.c) ≤ Real.log (Real.exp x + c.c * q) := by
      rw [← Real.log_mul q0.ne' (by positivity)]
      apply Real.log_le_log (by positivity)
      nlinarith
    have := mul_le_mul_of_nonpos_left hl hb'
    linarith
  · exact ⟨_, fun x => le_rfl⟩

theorem f1_far {c : Row} (hc : c ∈ table) {m : ℝ} (hm : m ≤ 8.5) (reg : Reg) : ∃ B s g : ℝ, s < 0 ∧ g ≤ 0 ∧
    ∀ R : ℝ, 0 < R → (f1 c (F.ofReal m) (F.ofReal R)).val + areg c reg * R ≤ B + (s * Real.log R + g * R) := by
  obtain ⟨-, -, -, -, -, -, -, h2, h21, h3, hs, g0, g1, g2, g3⟩ := row_facts c hc
  have h3' : (0 : ℝ) ≤ c.a3 := by exact_mod_cast h3
  have h21' : (c.m2 : ℝ) < c.m1 := by exact_mod_cast h21
  have h2' : (c.m2 : ℝ) = 5 := by rw [h2]; norm_num
  have hs' : (c.a2 : ℝ) + c.a3 * (8.5 - c.m1) < 0 := by
    have : ((c.a2 + c.a3 * (8.5 - c.m1) : ℚ) : ℝ) < ((0 : ℚ) : ℝ) := by exact_mod_cast hs
    push_cast at this; norm_num at this ⊢; linarith
  have hg : ((c.a17 : ℝ) + areg c reg) ≤ 0 := by
    have : (c.a17 + areg c reg : ℚ) ≤ 0 := by cases reg <;> simp [areg] <;> assumption
    exact_mod_cast this
  have hl : ∀ R : ℝ, 0 < R → Real.log R ≤ Real.log (dist c (F.ofReal m) (F.ofReal R)).val := by
    intro R hR
    simp only [dist, fsimp]
    exact logsqrt_ge hR
  by_cases hm2 : m ≤ c.m2
  · have hn : (c.a2 : ℝ) + c.a3 * ((c.m2 : ℝ) - c.m1) < 0 := by nlinarith
    refine ⟨(c.a1 : ℝ) + (c.a4 * ((c.m2 : ℝ) - c.m1) + c.a8 * (8.5 - (c.m2 : ℝ)) ^ 2 +
      c.a6 * (m - c.m2) + c.a7 * (m - c.m2) ^ 2), _, _, hn, hg, fun R hR => ?_⟩
    simp only [f1, fsimp, if_pos hm2]
    have := mul_le_mul_of_nonpos_left (hl R hR) hn.le
    linarith
  · have hn : (c.a2 : ℝ) + c.a3 * (m - c.m1) < 0 := by nlinarith
    refine ⟨(c.a1 : ℝ) + (c.a8 * (8.5 - m) ^ 2) + (F.iteLe (F.ofReal m) c.m1 (c.a4 * (F.ofReal m - c.m1))
      (c.a5 * (F.ofReal m - c.m1))).val, _, _, hn, hg, fun R hR => ?_⟩
    simp only [f1, fsimp, if_neg hm2]
    have := mul_le_mul_of_nonpos_left (hl R hR) hn.le
    linarith

end ASK14

/-- Abrahamson, Silva & Kamai (2014), magnitudes up to 8.5, on and off the hanging wall, in every
region -/
theorem C123_ask14 (s₀ : Scenario) (g : ASK14.Given) (h₀ : ASK14.Source s₀ g) (hv : 0 < g.v) (h8 : g.mag ≤ 8.5)
    (hw : (s₀.get "on_hanging_wall").isOn → g.x ≠ none ∧ 0 < g.dip ∧ g.dip < 90 ∧ ∀ w, g.width = some w → 0 < w)
    (hz : ∀ z, g.z1 = some z → -0.01 < z) (K : ℝ) :
    ∃ R₀ : ℝ, ∀ (s : Scenario) (R : ℝ), R₀ ≤ R → AgreeExcept ["dist_rup"] s₀ s → s.get "dist_rup" = .num R →
    ∃ o, Gives ASK14.cls s o ∧ o.gmm.lnResp.length = 24 ∧ FallsBelow K o.gmm.lnResp := by
  set k := ASK14.kindOf s₀ with hk
  have hok : g.HwOk k := fun hh => hw (by simpa [hk, ASK14.kindOf] using hh)
  obtain ⟨R₀, h⟩ := eventually_atTop.1 (rows ASK14.table (P := fun c R =>
      (ASK14.lnResp c (({ g with rup := R } : ASK14.Given).toIn k)).val < K) fun c hc => by
    obtain ⟨B, s, a, hs, ha, hf⟩ := ASK14.f1_far hc h8 k.reg
    obtain ⟨B', hB⟩ := ASK14.f5R_le hc hv
    filter_upwards [log hs ha (K - B - B' - ((ASK14.baseF c (g.toIn k)).val -
        (ASK14.f1 c (F.ofReal g.mag) (F.ofReal g.rup)).val) - (ASK14.freg c (F.ofReal g.v) (F.ofReal 0) k.reg).val -
        (ASK14.f10 c (F.ofReal g.v) (g.z1.map F.ofReal) (k.reg = .japan)).val), eventually_gt_atTop 0] with R h1 h2
    rw [ASK14.resp_val hc, ASK14.base_split c g k R]
    have e := ASK14.freg_split c (F.ofReal g.v) R k.reg
    have b := hB (ASK14.refR c { g with rup := R } k)
    have f := hf R h2
    simp only
    rw [e]
    linarith)
  refine ⟨R₀, fun s R hR hst hr => ?_⟩
  have hek : ASK14.kindOf s = k := ASK14.kind_rup hst
  refine ⟨_, ASK14.gives (ASK14.source_rup h₀ hst hr) fun e => (hok (hek ▸ e)).1, ?_, ?_⟩
  · simp only [ASK14.out, List.length_map, ASK14.table_length]
  · intro y hy
    rw [hek] at hy
    simp only [ASK14.out] at hy
    obtain ⟨c, hc, rfl⟩ := List.mem_map.1 hy
    exact ⟨ASK14.resp_ok hc (g := { g with rup := R }) hok hv hz, h R hR c hc⟩

/-! ### Non-vacuity -/

/-- far enough away the predicted peak acceleration is below a millionth of g -/
example : ∃ R₀ : ℝ, ∀ R ≥ R₀, ∃ o, Gives I14.cls ⟨[("mag", .num 7), ("dist_rup", .num R), ("v_s30", .num 500),
      ("mechanism", .str "RS")], []⟩ o ∧ FallsBelow (Real.log 1e-6) o.lnResp := by
  obtain ⟨R₀, h⟩ := C123_i14 7 500 (by norm_num) "RS" (Real.log 1e-6)
  exact ⟨R₀, fun R hR => by
    obtain ⟨o, h1, -, h2⟩ := h ⟨[("mag", .num 7), ("dist_rup", .num R), ("v_s30", .num 500), ("mechanism", .str "RS")], []⟩
      R hR rfl rfl rfl rfl
    exact ⟨o, h1, h2⟩⟩

example : (∃ R₀ : ℝ, ∀ R ≥ R₀, ∃ o, Gives C03.cls ⟨[("mag", .num 7), ("dist_rup", .num R)], []⟩ o ∧
      FallsBelow (-20) o.lnResp) ∧
    ∃ R₀ : ℝ, ∀ R ≥ R₀, ∃ o, Gives C03.cls ⟨[("mag", .num 8), ("dist_rup", .num R)], []⟩ o ∧ 20 < o.resp 2 := by
  obtain ⟨R₀, h⟩ := C123_c03 7 (by norm_num) (-20)
  obtain ⟨R₁, h'⟩ := C123_c03_grows 8 (by norm_num) 20
  exact ⟨⟨R₀, fun R hR => by
      obtain ⟨o, h1, -, h2⟩ := h ⟨[("mag", .num 7), ("dist_rup", .num R)], []⟩ R hR rfl rfl
      exact ⟨o, h1, h2⟩⟩,
    R₁, fun R hR => by
      obtain ⟨o, h1, h2⟩ := h' ⟨[("mag", .num 8), ("dist_rup", .num R)], []⟩ R hR rfl rfl
      exact ⟨o, h1, h2.2⟩⟩

example : ∃ R₀ : ℝ, ∀ R ≥ R₀, ∃ o, Gives Pea11.cls ⟨[("mag", .num 6), ("dist_rup", .num R)], []⟩ o ∧
    FallsBelow (-20) o.lnResp := by
  obtain ⟨R₀, h⟩ := C123_pea11 6 (-20)
  exact ⟨R₀, fun R hR => by
    obtain ⟨o, h1, -, h2⟩ := h ⟨[("mag", .num 6), ("dist_rup", .num R)], []⟩ R hR rfl rfl
    exact ⟨o, h1, h2⟩⟩

example : ∃ o, Gives DBC14.cls ⟨[("mag", .num 4), ("dist_jb", .num 1e9), ("v_s30", .num 400), ("depth_hyp", .num 10),
    ("mechanism", .str "SS")], []⟩ o ∧ 9e-7 ≤ Real.exp (o.resp 1) := by
  obtain ⟨o, h1, -, h2⟩ := C123_dbc14_floor (m := 4) (r := 1e9) (v := 400) (z := 10) (t := "SS") (hr := by norm_num) (hv := by norm_num)
    (s := ⟨[("mag", .num 4), ("dist_jb", .num 1e9), ("v_s30", .num 400), ("depth_hyp", .num 10),
    ("mechanism", .str "SS")], []⟩) (hsm := rfl) (hsr := rfl) (hsv := rfl) (hsz := rfl) (hst := rfl) (hmem := by simp)
  exact ⟨o, h1, h2 1 (by norm_num)⟩

example : ∃ R₀ : ℝ, ∀ R ≥ R₀, ∃ o, Gives AKB14.cls ⟨[("mag", .num 6), ("dist_epi", .num R), ("v_s30", .num 400),
    ("mechanism", .str "NS")], []⟩ o ∧ FallsBelow (-20) o.lnResp := by
  obtain ⟨R₀, h⟩ := C123_akb14 6 400 (by norm_num) (by norm_num) "NS" (-20)
  exact ⟨R₀, fun R hR => by
    obtain ⟨o, h1, -, h2⟩ := h ⟨[("mag", .num 6), ("dist_epi", .num R), ("v_s30", .num 400),
      ("mechanism", .str "NS")], []⟩ R none none hR rfl rfl rfl (Or.inr (Or.inr ⟨rfl, rfl, rfl⟩))
    exact ⟨o, h1, h2⟩⟩

/-- two scenarios that differ in the distance only agree elsewhere -/
theorem FarField.agree_cy (R : ℝ) (region : String) :
    AgreeExcept ["dist_rup"] (CY14.exS CY14.exG region) (CY14.exS { CY14.exG with rup := R } region) := by
  intro k hk
  have : "dist_rup" ≠ k := fun e => hk (by simp [e])
  simp [CY14.exS, Scenario.get, Dict.get?, List.find?_cons, this]

example : ∃ R₀ : ℝ, ∀ R ≥ R₀, ∃ o, Gives CY14.cls (CY14.exS { CY14.exG with rup := R } "japan") o ∧
    FallsBelow (-20) o.gmm.lnResp := by
  obtain ⟨R₀, h⟩ := C123_cy14 _ _ (CY14.ex_source CY14.exG rfl rfl rfl "japan") (by norm_num [CY14.exG]) (-20)
  exact ⟨R₀, fun R hR => by
    obtain ⟨o, h1, -, h2⟩ := h _ R hR (FarField.agree_cy R "japan") (by simp [CY14.exS, Scenario.get, Dict.get?])
    exact ⟨o, h1, h2⟩⟩

theorem FarField.agree_ask (R : ℝ) (region : String) (hw : Bool) :
    AgreeExcept ["dist_rup"] (ASK14.exS ASK14.exG region hw) (ASK14.exS { ASK14.exG with rup := R } region hw) := by
  intro k hk
  have : "dist_rup" ≠ k := fun e => hk (by simp [e])
  simp [ASK14.exS, Scenario.get, Dict.get?, List.find?_cons, this]

example : ∃ R₀ : ℝ, ∀ R ≥ R₀, ∃ o, Gives ASK14.cls (ASK14.exS { ASK14.exG with rup := R } "china" true) o ∧
    FallsBelow (-20) o.gmm.lnResp := by
  obtain ⟨R₀, h⟩ := C123_ask14 _ _ (ASK14.ex_source ASK14.exG rfl rfl rfl rfl "china" true) (by norm_num [ASK14.exG])
    (by norm_num [ASK14.exG])
    (fun _ => ⟨by simp [ASK14.exG], by norm_num [ASK14.exG], by norm_num [ASK14.exG], by simp [ASK14.exG]⟩)
    (by simp [ASK14.exG]) (-20)
  exact ⟨R₀, fun R hR => by
    obtain ⟨o, h1, -, h2⟩ := h _ R hR (FarField.agree_ask R "china" true) (by simp [ASK14.exS, Scenario.get, Dict.get?])
    exact ⟨o, h1, h2⟩⟩

theorem FarField.agree_bssa (R : ℝ) (region : String) :
    AgreeExcept ["dist_jb"] (BSSA14.exS BSSA14.exG region) (BSSA14.exS { BSSA14.exG with jb := R } region) := by
  intro k hk
  have : "dist_jb" ≠ k := fun e => hk (by simp [e])
  simp [BSSA14.exS, Scenario.get, Dict.get?, List.find?_cons, this]

/-- peak velocity: fades out in California, grows in China, fades out in Japan -/
example : (∃ R₀ : ℝ, ∀ R ≥ R₀, ∃ o, Gives BSSA14.cls (BSSA14.exS { BSSA14.exG with jb := R } "california") o ∧
      o.gmm.resp 0 < -20) ∧
    (∃ R₀ : ℝ, ∀ R ≥ R₀, ∃ o, Gives BSSA14.cls (BSSA14.exS { BSSA14.exG with jb := R } "china") o ∧
      20 < o.gmm.resp 0) ∧
    ∃ R₀ : ℝ, ∀ R ≥ R₀, ∃ o, Gives BSSA14.cls (BSSA14.exS { BSSA14.exG with jb := R } "japan") o ∧
      o.gmm.resp 0 < -20 := by
  have t0 : 0 < BSSA14.table.length := by rw [BSSA14.table_length]; norm_num
  have p0 : (BSSA14.table[0]'(by rw [BSSA14.table_length]; norm_num)).period < 7 := by decide +kernel
  obtain ⟨R₀, h⟩ := C123_bssa14 _ _ (BSSA14.ex_source BSSA14.exG "california") (by norm_num [BSSA14.exG])
    (by norm_num [BSSA14.exG]) (by simp [BSSA14.exS, Scenario.get, Dict.get?]) (-20)
  obtain ⟨R₁, h'⟩ := C123_bssa14_china _ _ (BSSA14.ex_source BSSA14.exG "china") (by norm_num [BSSA14.exG])
    (by norm_num [BSSA14.exG]) (by simp [BSSA14.exS, Scenario.get, Dict.get?]) 20
  obtain ⟨R₂, h''⟩ := C123_bssa14_japan _ _ (BSSA14.ex_source BSSA14.exG "japan") (by norm_num [BSSA14.exG])
    (by norm_num [BSSA14.exG]) (by simp [BSSA14.exS, Scenario.get, Dict.get?]) (-20)
  refine ⟨⟨R₀, fun R hR => ?_⟩, ⟨R₁, fun R hR => ?_⟩, R₂, fun R hR => ?_⟩
  · obtain ⟨o, h1, h2⟩ := h _ R hR (FarField.agree_bssa R _) (by simp [BSSA14.exS, Scenario.get, Dict.get?])
    exact ⟨o, h1, (h2 0 (by norm_num)).2⟩
  · obtain ⟨o, h1, h2⟩ := h' _ R hR (FarField.agree_bssa R _) (by simp [BSSA14.exS, Scenario.get, Dict.get?])
    exact ⟨o, h1, (h2 0 t0).2.1 (Or.inl rfl)⟩
  · obtain ⟨o, h1, h2⟩ := h'' _ R hR (FarField.agree_bssa R _) (by simp [BSSA14.exS, Scenario.get, Dict.get?])
    exact ⟨o, h1, (h2 0 t0).2.2 p0⟩
