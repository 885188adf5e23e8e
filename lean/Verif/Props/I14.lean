import Verif.Models.I14
import Verif.Bounds

/-! # C53: Idriss (2014) -/

open Bounds

set_option linter.unusedSimpArgs false

namespace I14

/-- every row of both tables -/
theorem row_facts : ∀ c ∈ small ++ large, c.gamma < 0 ∧ c.epsilon < 0 := by decide +kernel

theorem small_facts : ∀ c ∈ small, 0 < c.beta_1 + c.beta_2 * 6.75 ∧ c.beta_2 < 0 := by
  decide +kernel

theorem large_facts : ∀ c ∈ large, 0 < c.beta_1 + c.beta_2 * 12 ∧ c.beta_2 < 0 := by
  decide +kernel

/-- small and large rows side by side at M 6.75 -/
theorem hinge_facts : ∀ p ∈ small.zip large,
    p.1.alpha_3 = p.2.alpha_3 ∧ p.1.gamma = p.2.gamma ∧ p.1.epsilon = p.2.epsilon ∧
    p.1.phi = p.2.phi ∧ p.1.period = p.2.period ∧
    ∀ L ∈ [(2.3 : ℚ), 5.1],
      (p.2.alpha_1 + p.2.alpha_2 * 6.75) - (p.1.alpha_1 + p.1.alpha_2 * 6.75) -
        ((p.2.beta_1 + p.2.beta_2 * 6.75) - (p.1.beta_1 + p.1.beta_2 * 6.75)) * L ≤ 0.0006 ∧
      -0.0006 ≤ (p.2.alpha_1 + p.2.alpha_2 * 6.75) - (p.1.alpha_1 + p.1.alpha_2 * 6.75) -
        ((p.2.beta_1 + p.2.beta_2 * 6.75) - (p.1.beta_1 + p.1.beta_2 * 6.75)) * L := by
  decide +kernel

theorem beta_pos {c : Row} {m : ℝ} (hm : m ≤ 12) (hc : c ∈ coeff (F.ofReal m)) :
    0 < (c.beta_1 : ℝ) + c.beta_2 * m := by
  unfold coeff at hc
  simp only [fsimp] at hc
  split at hc
  · rename_i h
    obtain ⟨h1, h2⟩ := small_facts c hc
    have r1 : (0 : ℝ) < ((c.beta_1 + c.beta_2 * 6.75 : ℚ) : ℝ) := by exact_mod_cast h1
    have r2 : (c.beta_2 : ℝ) < 0 := by exact_mod_cast h2
    push_cast at r1
    nlinarith
  · obtain ⟨h1, h2⟩ := large_facts c hc
    have r1 : (0 : ℝ) < ((c.beta_1 + c.beta_2 * 12 : ℚ) : ℝ) := by exact_mod_cast h1
    have r2 : (c.beta_2 : ℝ) < 0 := by exact_mod_cast h2
    push_cast at r1
    nlinarith

theorem signs {c : Row} {m : ℝ} (hc : c ∈ coeff (F.ofReal m)) :
    (c.gamma : ℝ) < 0 ∧ (c.epsilon : ℝ) < 0 := by
  have : c ∈ small ++ large := by
    unfold coeff at hc
    split at hc <;> simp [hc]
  obtain ⟨h1, h2⟩ := row_facts c this
  exact ⟨by exact_mod_cast h1, by exact_mod_cast h2⟩

theorem coeff_length (m : F) : (coeff m).length = 22 := by
  unfold coeff; split <;> rfl

theorem lnResp_ok (c : Row) {m R v : ℝ} (rs : Bool) (hR : 0 ≤ R) (hv : 0 < v) :
    (lnResp c (F.ofReal m) (F.ofReal R) (F.ofReal v) rs).ok := by
  have : 0 < R + 10 := by linarith
  cases rs <;> simp [lnResp, this, hv]

theorem lnResp_val (c : Row) (m R v : ℝ) (rs : Bool) :
    (lnResp c (F.ofReal m) (F.ofReal R) (F.ofReal v) rs).val =
      (c.alpha_1 + c.alpha_2 * m + c.alpha_3 * (8.5 - m) ^ 2) +
      (-(c.beta_1 + c.beta_2 * m) * Real.log (R + 10) + c.gamma * R) +
      c.epsilon * Real.log v + c.phi * (if rs then 1 else 0) := by
  cases rs <;> simp [lnResp]

end I14

/-- Idriss2014: of two scenarios with the same magnitude (at most 12) and mechanism, the
one that is farther away (or equally far) on a stiffer (or equally stiff) site, and
differs in at least one of the two, has a strictly smaller log response at each of the
22 periods.  Distances start at 0 km; v_s30 is any positive number. -/
theorem C53_attenuates (s t : Scenario) (m R R' v v' : ℝ) (mech : String) (hm : m ≤ 12)
    (hR : 0 ≤ R) (hRR : R ≤ R') (hv : 0 < v) (hvv : v ≤ v') (hne : R < R' ∨ v < v')
    (hsm : s.get "mag" = .num m) (htm : t.get "mag" = .num m)
    (hsr : s.get "dist_rup" = .num R) (htr : t.get "dist_rup" = .num R')
    (hsv : s.get "v_s30" = .num v) (htv : t.get "v_s30" = .num v')
    (hsx : s.get "mechanism" = .str mech) (htx : t.get "mechanism" = .str mech) :
    ∃ a b, Gives I14.cls s a ∧ Gives I14.cls t b ∧ a.lnResp.length = 22 ∧
      List.Forall₂ F.Drops a.lnResp b.lnResp := by
  refine ⟨_, _, I14.gives s hsm hsr hsv hsx, I14.gives t htm htr htv htx,
    by simp [I14.out, I14.coeff_length], ?_⟩
  simp only [I14.out]
  refine forall₂_map fun c hc => ?_
  refine ⟨I14.lnResp_ok c _ hR hv, I14.lnResp_ok c _ (by linarith) (by linarith), ?_⟩
  have hb := I14.beta_pos hm hc
  obtain ⟨hg, he⟩ := I14.signs hc
  simp only [I14.lnResp_val]
  have l1 : Real.log (R + 10) ≤ Real.log (R' + 10) := Real.log_le_log (by linarith) (by linarith)
  have l2 : Real.log v ≤ Real.log v' := Real.log_le_log hv hvv
  have e1 := mul_le_mul_of_nonneg_left l1 hb.le
  have e2 := mul_le_mul_of_nonpos_left hRR hg.le
  have e3 := mul_le_mul_of_nonpos_left l2 he.le
  rcases hne with h | h
  · have := mul_lt_mul_of_neg_left h hg
    linarith
  · have := mul_lt_mul_of_neg_left (Real.log_lt_log hv h) he
    linarith

namespace I14

open Filter Topology in
/-- Row by row: the right limit of the large-magnitude formula against the
small-magnitude formula at M 6.75. -/
theorem hinge (p : I14.Row × I14.Row) (hp : p ∈ I14.small.zip I14.large) (R v : ℝ)
    (rs : Bool) (hR : 0 ≤ R) (hR' : R ≤ 150) :
    ∃ L, Tendsto (fun m => (I14.lnResp p.2 (F.ofReal m) (F.ofReal R) (F.ofReal v) rs).val)
        (𝓝[>] 6.75) (𝓝 L) ∧
      |L - (I14.lnResp p.1 (F.ofReal 6.75) (F.ofReal R) (F.ofReal v) rs).val| ≤ 0.0006 := by
  obtain ⟨h1, h2, h3, h4, -, h6⟩ := I14.hinge_facts p hp
  refine ⟨_, tendsto_right (g := fun m =>
    (I14.lnResp p.2 (F.ofReal m) (F.ofReal R) (F.ofReal v) rs).val) ?_ (fun _ _ => rfl), ?_⟩
  · simp only [I14.lnResp_val]; fun_prop
  · simp only [I14.lnResp_val, h1, h2, h3, h4]
    have hl : Real.log (R + 10) ≤ 5.1 := by
      have := log_le_of (x := R + 10) (q := 5.1) (by linarith) (by norm_num)
        (le_trans (b := ((160 : ℚ) : ℝ)) (by push_cast; linarith)
          (by
            have : (160 : ℚ) ≤ expLo 5.1 := by decide +kernel
            exact_mod_cast this))
      push_cast at this; exact this
    have hl0 : 2.3 ≤ Real.log (R + 10) := by
      have := le_log_of (x := R + 10) (q := 2.3) (by linarith) (by norm_num) (by norm_num)
        (le_trans (b := ((10 : ℚ) : ℝ))
          (by
            have : expHi 2.3 ≤ (10 : ℚ) := by decide +kernel
            exact_mod_cast this)
          (by push_cast; linarith))
      push_cast at this; exact this
    set A : ℝ := (p.2.alpha_1 + p.2.alpha_2 * 6.75) - (p.1.alpha_1 + p.1.alpha_2 * 6.75) with hA
    set B : ℝ := (p.2.beta_1 + p.2.beta_2 * 6.75) - (p.1.beta_1 + p.1.beta_2 * 6.75) with hB
    have r : ∀ L ∈ [(2.3 : ℚ), 5.1], A - B * L ≤ 0.0006 ∧ -0.0006 ≤ A - B * L := by
      intro L hL
      obtain ⟨g1, g2⟩ := h6 L hL
      have k1 : (((p.2.alpha_1 + p.2.alpha_2 * 6.75) - (p.1.alpha_1 + p.1.alpha_2 * 6.75) -
        ((p.2.beta_1 + p.2.beta_2 * 6.75) - (p.1.beta_1 + p.1.beta_2 * 6.75)) * L : ℚ) : ℝ)
          ≤ ((0.0006 : ℚ) : ℝ) := by exact_mod_cast g1
      have k2 : ((-0.0006 : ℚ) : ℝ) ≤
        (((p.2.alpha_1 + p.2.alpha_2 * 6.75) - (p.1.alpha_1 + p.1.alpha_2 * 6.75) -
        ((p.2.beta_1 + p.2.beta_2 * 6.75) - (p.1.beta_1 + p.1.beta_2 * 6.75)) * L : ℚ) : ℝ) := by
        exact_mod_cast g2
      push_cast at k1 k2
      exact ⟨k1, k2⟩
    have r1 := r 2.3 (by simp)
    have r2 := r 5.1 (by simp)
    push_cast at r1 r2
    have u1 := linear_nonpos (p := A - 0.0006) (q := -B) ⟨hl0, hl⟩ (by linarith) (by linarith)
    have u2 := linear_nonpos (p := -A - 0.0006) (q := B) ⟨hl0, hl⟩ (by linarith) (by linarith)
    rw [abs_le]
    constructor
    · rw [hA, hB] at u2; linarith
    · rw [hA, hB] at u1; linarith

end I14

open Filter Topology in
/-- Crossing M 6.75 (where the coefficient table is exchanged) moves the log response by
at most 0.0006 at each of the 22 periods, for every distance up to 150 km, v_s30 and
mechanism: the prediction at 6.75 and its limit from above differ by no more.  (By
`I14.gives`, `I14.out` is what the constructor computes.) -/
theorem C53_hinge (R v : ℝ) (rs : Bool) (hR : 0 ≤ R) (hR' : R ≤ 150) (i : ℕ) (hi : i < 22) :
    ∃ L, Tendsto (fun m => (I14.out (F.ofReal m) (F.ofReal R) (F.ofReal v) rs).resp i)
        (𝓝[>] 6.75) (𝓝 L) ∧
      |L - (I14.out (F.ofReal 6.75) (F.ofReal R) (F.ofReal v) rs).resp i| ≤ 0.0006 := by
  have hs : i < I14.small.length := by rw [show I14.small.length = 22 from rfl]; exact hi
  have hl : i < I14.large.length := by rw [show I14.large.length = 22 from rfl]; exact hi
  have hz : i < (I14.small.zip I14.large).length := by
    rw [List.length_zip]; exact lt_min hs hl
  have hmem : (I14.small[i]'hs, I14.large[i]'hl) ∈ I14.small.zip I14.large := by
    have := List.getElem_mem hz
    rwa [List.getElem_zip] at this
  obtain ⟨L, h1, h2⟩ := I14.hinge _ hmem R v rs hR hR'
  refine ⟨L, h1.congr' ?_, ?_⟩
  · filter_upwards [self_mem_nhdsWithin] with m hm
    have : ¬ m ≤ 6.75 := not_le.2 hm
    simp [GmmOut.resp, I14.out, I14.coeff, this, hl]
  · simpa [GmmOut.resp, I14.out, I14.coeff, hs] using h2

/-- Standard deviations: defined, at least 0.6 for every magnitude, and not larger for a
larger magnitude. -/
theorem C53_std (s t : Scenario) (m m' R R' v v' : ℝ) (x x' : String) (hmm : m ≤ m')
    (hsm : s.get "mag" = .num m) (htm : t.get "mag" = .num m')
    (hsr : s.get "dist_rup" = .num R) (htr : t.get "dist_rup" = .num R')
    (hsv : s.get "v_s30" = .num v) (htv : t.get "v_s30" = .num v')
    (hsx : s.get "mechanism" = .str x) (htx : t.get "mechanism" = .str x') :
    ∃ a b sa sb, Gives I14.cls s a ∧ Gives I14.cls t b ∧ a.lnStd = some sa ∧ b.lnStd = some sb ∧
      sa.length = 22 ∧ List.Forall₂ F.NotAbove sa sb ∧ ∀ y ∈ sa, y.ok ∧ 0.6 < y.val := by
  refine ⟨_, _, _, _, I14.gives s hsm hsr hsv hsx, I14.gives t htm htr htv htx, rfl, rfl,
    by simp [I14.small], ?_, ?_⟩
  · refine forall₂_map fun c hc => ⟨?_, ?_, ?_⟩
    · simp [I14.lnStd]; norm_num
    · simp [I14.lnStd]; norm_num
    · simp only [I14.lnStd, fsimp]
      have : min (max m 5) 7.5 ≤ min (max m' 5) 7.5 :=
        min_le_min (max_le_max hmm le_rfl) le_rfl
      linarith
  · intro y hy
    obtain ⟨c, hc, rfl⟩ := List.mem_map.1 hy
    refine ⟨by simp [I14.lnStd]; norm_num, ?_⟩
    simp only [I14.lnStd, fsimp]
    have h1 : min (max m 5) 7.5 ≤ 7.5 := min_le_right _ _
    have h2 : (0.05 : ℝ) ≤ min (max (c.period : ℝ) 0.05) 3 :=
      le_min (le_max_right _ _) (by norm_num)
    have h3 : Real.log 0.05 ≤ Real.log (min (max (c.period : ℝ) 0.05) 3) :=
      Real.log_le_log (by norm_num) h2
    have h4 : -3.1 ≤ Real.log 0.05 := by
      have : Real.log 20 ≤ 3.1 := by
        have := log_le_of (x := 20) (q := 3.1) (by norm_num) (by norm_num) (by
          have : (20 : ℚ) ≤ expLo 3.1 := by decide +kernel
          exact_mod_cast this)
        push_cast at this; exact this
      have e : (0.05 : ℝ) = 20⁻¹ := by norm_num
      rw [e, Real.log_inv]; linarith
    linarith

example : ∃ a b, Gives I14.cls ⟨[("mag", .num 7), ("dist_rup", .num 20), ("v_s30", .num 500),
      ("mechanism", .str "RS")], []⟩ a ∧
    Gives I14.cls ⟨[("mag", .num 7), ("dist_rup", .num 30), ("v_s30", .num 600),
      ("mechanism", .str "RS")], []⟩ b ∧ List.Forall₂ F.Drops a.lnResp b.lnResp := by
  obtain ⟨a, b, h1, h2, -, h3⟩ := C53_attenuates (m := 7) (R := 20) (R' := 30) (v := 500) (v' := 600) (mech := "RS")
    (hm := by norm_num)
    (hR := by norm_num) (hRR := by norm_num) (hv := by norm_num) (hvv := by norm_num)
    (hne := by norm_num)
    (s := ⟨[("mag", .num 7), ("dist_rup", .num 20), ("v_s30", .num 500),
      ("mechanism", .str "RS")], []⟩)
    (t := ⟨[("mag", .num 7), ("dist_rup", .num 30), ("v_s30", .num 600),
      ("mechanism", .str "RS")], []⟩)
    (by simp [Scenario.get, Dict.get?]) (by simp [Scenario.get, Dict.get?])
    (by simp [Scenario.get, Dict.get?]) (by simp [Scenario.get, Dict.get?])
    (by simp [Scenario.get, Dict.get?]) (by simp [Scenario.get, Dict.get?])
    (by simp [Scenario.get, Dict.get?]) (by simp [Scenario.get, Dict.get?])
  exact ⟨a, b, h1, h2, h3⟩
example : (I14.small.zip I14.large).length = 22 := by decide +kernel

namespace I14

theorem log20 : (2.9957 : ℝ) < Real.log 20 ∧ Real.log 20 < 2.9958 := by
  have h1 := log_le_of (x := 20) (q := 2.99575) (by norm_num) (by norm_num) (by
    have : (20 : ℚ) ≤ expLo 2.99575 := by decide +kernel
    exact_mod_cast this)
  have h2 := le_log_of (x := 20) (q := 2.99571) (by norm_num) (by norm_num) (by norm_num) (by
    have : expHi 2.99571 ≤ (20 : ℚ) := by decide +kernel
    exact_mod_cast this)
  push_cast at h1 h2
  exact ⟨by linarith, by linarith⟩

theorem log3 : (1.0986 : ℝ) < Real.log 3 ∧ Real.log 3 < 1.0987 := by
  have h1 := log_le_of (x := 3) (q := 1.09865) (by norm_num) (by norm_num) (by
    have : (3 : ℚ) ≤ expLo 1.09865 := by decide +kernel
    exact_mod_cast this)
  have h2 := le_log_of (x := 3) (q := 1.09861) (by norm_num) (by norm_num) (by norm_num) (by
    have : expHi 1.09861 ≤ (3 : ℚ) := by decide +kernel
    exact_mod_cast this)
  push_cast at h1 h2
  exact ⟨by linarith, by linarith⟩

/-- the first four periods are at most 0.05 s, the last five at least 3 s -/
theorem period_ends : (∀ c ∈ small.take 5, c.period ≤ 0.05) ∧ ∀ c ∈ small.drop 17, 3 ≤ c.period := by
  decide +kernel

end I14

/-- The standard deviations in numbers.  At each of the first five periods (0.01 to 0.05 s) the
standard deviation is between 0.7751 and 0.7752 for magnitudes up to 5 and 0.15 less from
magnitude 7.5 on; at each of the last five (3 to 10 s) it is between 0.9184 and 0.9185, and 0.15 less.
In between it falls by exactly 0.06 per unit of magnitude at each of the 22 periods. -/
theorem C53_std_values (s t : Scenario) (m m' R R' v v' : ℝ) (x x' : String)
    (hsm : s.get "mag" = .num m) (htm : t.get "mag" = .num m')
    (hsr : s.get "dist_rup" = .num R) (htr : t.get "dist_rup" = .num R')
    (hsv : s.get "v_s30" = .num v) (htv : t.get "v_s30" = .num v')
    (hsx : s.get "mechanism" = .str x) (htx : t.get "mechanism" = .str x') :
    ∃ a b sa sb, Gives I14.cls s a ∧ Gives I14.cls t b ∧ a.lnStd = some sa ∧ b.lnStd = some sb ∧
      sa.length = 22 ∧
      (m ≤ 5 → (∀ y ∈ sa.take 5, 0.7751 < y.val ∧ y.val < 0.7752) ∧ ∀ y ∈ sa.drop 17, 0.9184 < y.val ∧ y.val < 0.9185) ∧
      (7.5 ≤ m → (∀ y ∈ sa.take 5, 0.6251 < y.val ∧ y.val < 0.6252) ∧
        ∀ y ∈ sa.drop 17, 0.7684 < y.val ∧ y.val < 0.7685) ∧
      (5 ≤ m → m ≤ 7.5 → 5 ≤ m' → m' ≤ 7.5 →
        List.Forall₂ (fun y y' : F => y'.val = y.val - 0.06 * (m' - m)) sa sb) := by
  have low : ∀ c ∈ I14.small.take 5, min (max (c.period : ℝ) 0.05) 3 = 20⁻¹ := fun c hc => by
    have : (c.period : ℝ) ≤ ((0.05 : ℚ) : ℝ) := by exact_mod_cast I14.period_ends.1 c hc
    push_cast at this
    rw [max_eq_right this, min_eq_left (by norm_num)]; norm_num
  have high : ∀ c ∈ I14.small.drop 17, min (max (c.period : ℝ) 0.05) 3 = 3 := fun c hc => by
    have : (3 : ℝ) ≤ (c.period : ℝ) := by exact_mod_cast I14.period_ends.2 c hc
    rw [max_eq_left (by linarith), min_eq_right this]
  obtain ⟨h1, h2⟩ := I14.log20
  obtain ⟨h3, h4⟩ := I14.log3
  refine ⟨_, _, _, _, I14.gives s hsm hsr hsv hsx, I14.gives t htm htr htv htx, rfl, rfl,
    by simp [I14.small], fun hm => ?_, fun hm => ?_, fun a1 a2 b1 b2 => ?_⟩
  · rw [← List.map_take, ← List.map_drop]
    simp only [List.forall_mem_map]
    refine ⟨fun c hc => ?_, fun c hc => ?_⟩ <;> simp only [I14.lnStd, fsimp]
    · rw [low c hc, Real.log_inv, max_eq_right hm]
      constructor <;> norm_num <;> linarith
    · rw [high c hc, max_eq_right hm]
      constructor <;> norm_num <;> linarith
  · rw [← List.map_take, ← List.map_drop]
    simp only [List.forall_mem_map]
    refine ⟨fun c hc => ?_, fun c hc => ?_⟩ <;> simp only [I14.lnStd, fsimp]
    · rw [low c hc, Real.log_inv, max_eq_left (by linarith), min_eq_right hm]
      constructor <;> linarith
    · rw [high c hc, max_eq_left (by linarith), min_eq_right hm]
      constructor <;> linarith
  · refine forall₂_map fun c hc => ?_
    simp only [I14.lnStd, fsimp]
    rw [max_eq_left a1, max_eq_left b1, min_eq_left a2, min_eq_left b2]
    ring

example := C53_std_values
  ⟨[("mag", .num 5), ("dist_rup", .num 20), ("v_s30", .num 500), ("mechanism", .str "RS")], []⟩
  ⟨[("mag", .num 7), ("dist_rup", .num 30), ("v_s30", .num 600), ("mechanism", .str "SS")], []⟩ 5 7 20 30 500 600
  "RS" "SS" rfl rfl rfl rfl rfl rfl rfl rfl
