import Verif.Props.I14

/-!
# C81: Idriss (2014) and magnitude
-/

open Bounds

set_option linter.unusedSimpArgs false

namespace I14

/-- secant slopes of the rows: `s` is the sum of the two magnitudes -/
theorem small_slope : ∀ c ∈ small, ∀ s ∈ [(6 : ℚ), 13.5],
    0.05 ≤ c.alpha_2 - c.alpha_3 * (17 - s) - c.beta_2 * 2.3 ∧ c.beta_2 < 0 := by decide +kernel

theorem large_slope : ∀ c ∈ large, ∀ s ∈ [(13.5 : ℚ), 17],
    0.05 ≤ c.alpha_2 - c.alpha_3 * (17 - s) - c.beta_2 * 2.3 ∧ c.beta_2 < 0 := by decide +kernel

theorem log10_le {R : ℝ} (hR : 0 ≤ R) : 2.3 ≤ Real.log (R + 10) := by
  have := le_log_of (x := R + 10) (q := 2.3) (by linarith) (by norm_num) (by norm_num)
    (le_trans (b := ((10 : ℚ) : ℝ))
      (by
        have : expHi 2.3 ≤ (10 : ℚ) := by decide +kernel
        exact_mod_cast this)
      (by push_cast; linarith))
  push_cast at this; exact this

theorem log160_ge {R : ℝ} (hR0 : 0 ≤ R) (hR : R ≤ 150) : Real.log (R + 10) ≤ 5.1 := by
  have := log_le_of (x := R + 10) (q := 5.1) (by linarith) (by norm_num)
    (le_trans (b := ((160 : ℚ) : ℝ)) (by push_cast; linarith)
      (by
        have : (160 : ℚ) ≤ expLo 5.1 := by decide +kernel
        exact_mod_cast this))
  push_cast at this; exact this

theorem rise {c : Row} {a b : ℚ} {m m' R v : ℝ} (rs : Bool)
    (hc : ∀ s ∈ [a, b], 0.05 ≤ c.alpha_2 - c.alpha_3 * (17 - s) - c.beta_2 * 2.3 ∧ c.beta_2 < 0)
    (ha : (a : ℝ) ≤ m + m') (hb : m + m' ≤ b) (h : m ≤ m') (hR : 0 ≤ R) :
    0.05 * (m' - m) ≤ (lnResp c (F.ofReal m') (F.ofReal R) (F.ofReal v) rs).val -
      (lnResp c (F.ofReal m) (F.ofReal R) (F.ofReal v) rs).val := by
  obtain ⟨h1, h3⟩ := hc a (by simp)
  obtain ⟨h2, -⟩ := hc b (by simp)
  have h1' : ((0.05 : ℚ) : ℝ) ≤ ((c.alpha_2 - c.alpha_3 * (17 - a) - c.beta_2 * 2.3 : ℚ) : ℝ) := by
    exact_mod_cast h1
  have h2' : ((0.05 : ℚ) : ℝ) ≤ ((c.alpha_2 - c.alpha_3 * (17 - b) - c.beta_2 * 2.3 : ℚ) : ℝ) := by
    exact_mod_cast h2
  have h3' : (c.beta_2 : ℝ) < 0 := by exact_mod_cast h3
  push_cast at h1' h2'
  have hl := log10_le hR
  have u := linear_nonpos (p := 0.05 - (c.alpha_2 - c.alpha_3 * 17 - c.beta_2 * 2.3 : ℝ))
    (q := -c.alpha_3) ⟨ha, hb⟩ (by linarith) (by linarith)
  have w : 0.05 ≤ c.alpha_2 - c.alpha_3 * (17 - (m + m')) - c.beta_2 * Real.log (R + 10) := by
    have := mul_le_mul_of_nonpos_left hl h3'.le
    linarith
  have := mul_le_mul_of_nonneg_right w (sub_nonneg.2 h)
  simp only [lnResp_val]
  nlinarith

end I14

/-- From M 3 to M 8.5, within 150 km, a larger magnitude means a strictly larger response at
every period, if both magnitudes lie on the same side of 6.75 or differ by at least 0.02. -/
theorem C81_grows_with_magnitude (s s' : Scenario) (m m' R v : ℝ) (t : String) (h3 : 3 ≤ m)
    (hmm : m < m') (h8 : m' ≤ 8.5) (hside : m' ≤ 6.75 ∨ 6.75 < m ∨ (m + 0.02 ≤ m' ∧ R ≤ 150))
    (hR : 0 ≤ R) (hv0 : 0 < v)
    (hm : s.get "mag" = .num m) (hm' : s'.get "mag" = .num m')
    (hr : s.get "dist_rup" = .num R) (hr' : s'.get "dist_rup" = .num R)
    (hv : s.get "v_s30" = .num v) (hv' : s'.get "v_s30" = .num v)
    (hx : s.get "mechanism" = .str t) (hx' : s'.get "mechanism" = .str t) :
    ∃ o o', Gives I14.cls s o ∧ Gives I14.cls s' o' ∧ o.lnResp.length = 22 ∧
      List.Forall₂ F.Drops o'.lnResp o.lnResp := by
  refine ⟨_, _, I14.gives s hm hr hv hx, I14.gives s' hm' hr' hv' hx',
    by simp [I14.out, I14.coeff_length], ?_⟩
  simp only [I14.out, I14.coeff, fsimp]
  by_cases a : m ≤ 6.75 <;> by_cases b : m' ≤ 6.75
  · simp only [if_pos a, if_pos b]
    refine forall₂_map fun c hc => ⟨I14.lnResp_ok c _ hR hv0, I14.lnResp_ok c _ hR hv0, ?_⟩
    have := I14.rise (v := v) (decide (t = "RS")) (I14.small_slope c hc) (m := m) (m' := m') (R := R)
      (by push_cast; linarith) (by push_cast; linarith) hmm.le hR
    linarith
  · simp only [if_pos a, if_neg b]
    obtain ⟨hδ, hR'⟩ : m + 0.02 ≤ m' ∧ R ≤ 150 := by
      rcases hside with h | h | h
      · exact absurd h b
      · exact absurd a (not_le.2 h)
      · exact h
    rw [List.forall₂_map_left_iff, List.forall₂_map_right_iff]
    have key : ∀ p ∈ I14.small.zip I14.large,
        F.Drops (I14.lnResp p.2 (F.ofReal m') (F.ofReal R) (F.ofReal v) (t = "RS"))
          (I14.lnResp p.1 (F.ofReal m) (F.ofReal R) (F.ofReal v) (t = "RS")) := by
      intro p hp
      obtain ⟨hp1, hp2⟩ := List.of_mem_zip hp
      refine ⟨I14.lnResp_ok _ _ hR hv0, I14.lnResp_ok _ _ hR hv0, ?_⟩
      have i1 := I14.rise (v := v) (decide (t = "RS")) (I14.small_slope p.1 hp1) (m := m) (m' := 6.75)
        (R := R) (by push_cast; linarith) (by push_cast; linarith) a hR
      have i2 := I14.rise (v := v) (decide (t = "RS")) (I14.large_slope p.2 hp2) (m := 6.75) (m' := m')
        (R := R) (by push_cast; linarith) (by push_cast; linarith) (by linarith) hR
      obtain ⟨L, hL, hj⟩ := I14.hinge p hp R v (decide (t = "RS")) hR hR'
      have : L = (I14.lnResp p.2 (F.ofReal 6.75) (F.ofReal R) (F.ofReal v) (t = "RS")).val := by
        refine tendsto_nhds_unique hL (tendsto_right (g := fun m =>
          (I14.lnResp p.2 (F.ofReal m) (F.ofReal R) (F.ofReal v) (t = "RS")).val) ?_ (fun _ _ => rfl))
        simp only [I14.lnResp_val]; fun_prop
      subst this
      rw [abs_le] at hj
      linarith [hj.1]
    rw [List.forall₂_iff_zip]
    refine ⟨rfl, fun {c' c} hz => ?_⟩
    have hz' : (c, c') ∈ I14.small.zip I14.large := by
      rw [← List.zip_swap, List.mem_map]
      exact ⟨(c', c), hz, rfl⟩
    exact key (c, c') hz'
  · exact absurd (hmm.le.trans b) a
  · simp only [if_neg a, if_neg b]
    refine forall₂_map fun c hc => ⟨I14.lnResp_ok c _ hR hv0, I14.lnResp_ok c _ hR hv0, ?_⟩
    have := I14.rise (v := v) (decide (t = "RS")) (I14.large_slope c hc) (m := m) (m' := m') (R := R)
      (by push_cast; linarith) (by push_cast; linarith) hmm.le hR
    linarith

/-- The gap is needed: at T = 0.75 s (ordinate 13) the exchange of the coefficient table at
M 6.75 makes the response of every slightly larger magnitude strictly smaller, at every
distance up to 150 km. -/
theorem C81_dips_at_hinge (s s' : Scenario) (m' R v : ℝ) (t : String)
    (hmm : 6.75 < m') (h8 : m' ≤ 6.7505) (hR : 0 ≤ R) (hR' : R ≤ 150) (hv0 : 0 < v)
    (hm : s.get "mag" = .num 6.75) (hm' : s'.get "mag" = .num m')
    (hr : s.get "dist_rup" = .num R) (hr' : s'.get "dist_rup" = .num R)
    (hv : s.get "v_s30" = .num v) (hv' : s'.get "v_s30" = .num v)
    (hx : s.get "mechanism" = .str t) (hx' : s'.get "mechanism" = .str t) :
    ∃ o o', Gives I14.cls s o ∧ Gives I14.cls s' o' ∧
      F.Drops (o.lnResp.getD 13 F.nan) (o'.lnResp.getD 13 F.nan) := by
  refine ⟨_, _, I14.gives s hm hr hv hx, I14.gives s' hm' hr' hv' hx', ?_⟩
  have hlt : ¬ m' ≤ 6.75 := not_le.2 hmm
  obtain ⟨a, ha⟩ : ∃ a, I14.small[13]? = some a := ⟨_, rfl⟩
  obtain ⟨b, hb⟩ : ∃ b, I14.large[13]? = some b := ⟨_, rfl⟩
  have hf : ∀ a : I14.Row, a ∈ I14.small[13]? → ∀ b : I14.Row, b ∈ I14.large[13]? → a.period = (0.75 : ℚ) ∧
      a.alpha_3 = b.alpha_3 ∧ a.gamma = b.gamma ∧ a.epsilon = b.epsilon ∧ a.phi = b.phi ∧
      (∀ L ∈ [(2.3 : ℚ), 5.1],
        (b.alpha_1 + b.alpha_2 * 6.75) - (a.alpha_1 + a.alpha_2 * 6.75) -
        ((b.beta_1 + b.beta_2 * 6.75) - (a.beta_1 + a.beta_2 * 6.75)) * L ≤ -0.00036) ∧
      b.alpha_2 - b.beta_2 * 5.1 ≤ (0.53 : ℚ) ∧ b.alpha_3 = (-0.0267 : ℚ) ∧ b.beta_2 < 0 := by decide +kernel
  obtain ⟨-, e1, e2, e3, e4, hj, hs, h3, hb2⟩ := hf a ha b hb
  simp only [I14.out, I14.coeff, fsimp, if_neg hlt, le_refl, if_true, List.getD_eq_getElem?_getD,
    List.getElem?_map, ha, hb, Option.map_some, Option.getD_some]
  refine ⟨I14.lnResp_ok _ _ hR hv0, I14.lnResp_ok _ _ hR hv0, ?_⟩
  simp only [I14.lnResp_val, e1, e2, e3, e4, h3]
  have l1 := I14.log10_le hR
  have l2 := I14.log160_ge hR hR'
  have j1 := hj 2.3 (by simp)
  have j2 := hj 5.1 (by simp)
  have j1' : (((b.alpha_1 + b.alpha_2 * 6.75) - (a.alpha_1 + a.alpha_2 * 6.75) -
        ((b.beta_1 + b.beta_2 * 6.75) - (a.beta_1 + a.beta_2 * 6.75)) * 2.3 : ℚ) : ℝ) ≤
        ((-0.00036 : ℚ) : ℝ) := by exact_mod_cast j1
  have j2' : (((b.alpha_1 + b.alpha_2 * 6.75) - (a.alpha_1 + a.alpha_2 * 6.75) -
        ((b.beta_1 + b.beta_2 * 6.75) - (a.beta_1 + a.beta_2 * 6.75)) * 5.1 : ℚ) : ℝ) ≤
        ((-0.00036 : ℚ) : ℝ) := by exact_mod_cast j2
  have hs' : ((b.alpha_2 - b.beta_2 * 5.1 : ℚ) : ℝ) ≤ ((0.53 : ℚ) : ℝ) := by exact_mod_cast hs
  have hb2' : (b.beta_2 : ℝ) < 0 := by exact_mod_cast hb2
  push_cast at j1' j2' hs' ⊢
  set l := Real.log (R + 10)
  have u := linear_nonpos (p := (b.alpha_1 + b.alpha_2 * 6.75) - (a.alpha_1 + a.alpha_2 * 6.75) + 0.00036)
    (q := -((b.beta_1 + b.beta_2 * 6.75) - (a.beta_1 + a.beta_2 * 6.75) : ℝ)) ⟨l1, l2⟩
    (by linarith) (by linarith)
  have w : (b.alpha_2 - b.beta_2 * l : ℝ) * (m' - 6.75) ≤ 0.53 * 0.0005 := by
    have k1 : (b.alpha_2 - b.beta_2 * l : ℝ) ≤ 0.53 := by nlinarith
    calc _ ≤ 0.53 * (m' - 6.75) := mul_le_mul_of_nonneg_right k1 (by linarith)
      _ ≤ _ := by linarith
  nlinarith

/-- a concrete pair: M 6 and M 7, 10 km -/
example : ∃ o o', Gives I14.cls ⟨[("mag", .num 6), ("dist_rup", .num 10), ("v_s30", .num 500),
      ("mechanism", .str "RS")], []⟩ o ∧
    Gives I14.cls ⟨[("mag", .num 7), ("dist_rup", .num 10), ("v_s30", .num 500),
      ("mechanism", .str "RS")], []⟩ o' ∧ o.lnResp.length = 22 ∧
      List.Forall₂ F.Drops o'.lnResp o.lnResp :=
  C81_grows_with_magnitude _ _ 6 7 10 500 "RS" (by norm_num) (by norm_num) (by norm_num)
    (.inr (.inr (by norm_num))) (by norm_num) (by norm_num) rfl rfl rfl rfl rfl rfl rfl rfl

example : ∃ o o', Gives I14.cls ⟨[("mag", .num 6.75), ("dist_rup", .num 10), ("v_s30", .num 500),
      ("mechanism", .str "RS")], []⟩ o ∧
    Gives I14.cls ⟨[("mag", .num 6.7501), ("dist_rup", .num 10), ("v_s30", .num 500),
      ("mechanism", .str "RS")], []⟩ o' ∧
      F.Drops (o.lnResp.getD 13 F.nan) (o'.lnResp.getD 13 F.nan) :=
  C81_dips_at_hinge _ _ 6.7501 10 500 "RS" (by norm_num) (by norm_num) (by norm_num) (by norm_num)
    (by norm_num) rfl rfl rfl rfl rfl rfl rfl rfl
