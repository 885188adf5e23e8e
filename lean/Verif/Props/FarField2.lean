import Verif.Props.FarField
import Verif.Props.CB14
import Verif.Props.AB06Dist
import Verif.Props.AGA16
import Verif.Props.TP05

/-! # C123, continued: Campbell & Bozorgnia (2014) and the models of other regions -/

set_option linter.unusedSimpArgs false

open Spec Filter FarField

namespace CB14

theorem source_rup {s t : Scenario} {g : Given} {R : ℝ} (h : Source s g) (hst : AgreeExcept ["dist_rup"] s t)
    (hR : t.get "dist_rup" = .num R) : Source t { g with rup := R } where
  mag := (hst _ (by decide)).trans h.mag
  rup := hR
  jb := (hst _ (by decide)).trans h.jb
  x := (hst _ (by decide)).trans h.x
  dip := (hst _ (by decide)).trans h.dip
  v := (hst _ (by decide)).trans h.v
  bot := (hst _ (by decide)).trans h.bot
  z1 := (hst _ (by decide)).trans h.z1
  z25 := (hst _ (by decide)).trans h.z25
  bor := (hst _ (by decide)).trans h.bor
  hyp := (hst _ (by decide)).trans h.hyp
  tor := (hst _ (by decide)).trans h.tor
  width := (hst _ (by decide)).trans h.width
  mech := by rw [hst "mechanism" (by decide)]; exact h.mech

/-- the hanging-wall term stays bounded -/
theorem fHng_le (c : Row) (g : Given) (mech : Mech) (reg : Reg) : ∃ B : ℝ, ∀ R : ℝ, 1 ≤ R →
    (fHng c (({ g with rup := R } : Given).toIn mech reg)).val ≤ B := by
  have e : ∀ R : ℝ, 1 ≤ R → (fHng c (({ g with rup := R } : Given).toIn mech reg)).val =
      (c.c_10 * (fHngRx c (F.ofReal g.mag) (F.ofReal g.x) (F.ofReal g.dip) (g.effWidth mech)).val *
        (fHngM c (F.ofReal g.mag)).val * (fHngZ (g.effTor mech)).val * ((90 - g.dip) / 45)) * (1 - g.jb / R) := by
    intro R hR
    have h0 : R ≠ 0 := by linarith
    have e0 : (({ g with rup := R } : Given).effTor mech) = g.effTor mech := rfl
    have e1 : (({ g with rup := R } : Given).effWidth mech) = g.effWidth mech := rfl
    simp only [fHng, Given.toIn, F.val_mul, e0, e1]
    have e2 : (fHngRrup (F.ofReal R) (F.ofReal g.jb)).val = 1 - g.jb / R := by
      simp only [fHngRrup, fsimp, if_neg h0]
      rw [sub_div, div_self h0]
    rw [e2]
    simp only [fsimp]
    ring
  generalize (c.c_10 * (fHngRx c (F.ofReal g.mag) (F.ofReal g.x) (F.ofReal g.dip) (g.effWidth mech)).val *
        (fHngM c (F.ofReal g.mag)).val * (fHngZ (g.effTor mech)).val * ((90 - g.dip) / 45) : ℝ) = A at e
  refine ⟨|A| * (1 + |g.jb|), fun R hR => ?_⟩
  rw [e R hR]
  have h1 : |1 - g.jb / R| ≤ 1 + |g.jb| := by
    have a2 : |g.jb / R| ≤ |g.jb| := by
      rw [abs_div, abs_of_pos (by linarith : (0 : ℝ) < R)]
      exact div_le_self (abs_nonneg _) hR
    calc |1 - g.jb / R| ≤ |1| + |g.jb / R| := abs_sub _ _
      _ ≤ _ := by rw [abs_one]; linarith
  calc A * (1 - g.jb / R) ≤ |A * (1 - g.jb / R)| := le_abs_self _
    _ = |A| * |1 - g.jb / R| := abs_mul _ _
    _ ≤ _ := mul_le_mul_of_nonneg_left h1 (abs_nonneg _)

/-- everything but the site and hanging-wall terms, split into a constant and the distance term -/
theorem rest_split (c : Row) (g : Given) (mech : Mech) (reg : Reg) (R : ℝ) :
    (rest c (({ g with rup := R } : Given).toIn mech reg)).val =
      (rest c (g.toIn mech reg)).val - (fHng c (g.toIn mech reg)).val - D c g.mag g.rup reg + D c g.mag R reg +
        (fHng c (({ g with rup := R } : Given).toIn mech reg)).val := by
  have e2 : ∀ r, (fAtn c (F.ofReal r) reg).val = anel c reg * max (r - 80) 0 := by
    intro r; cases reg <;> simp [fAtn, anel]
  simp only [rest, F.val_add]
  generalize (fHng c (({ g with rup := R } : Given).toIn mech reg)).val = H
  generalize (fHng c (g.toIn mech reg)).val = H'
  simp only [Given.toIn, e2, D]
  simp only [fDis, fsimp]
  have w : ({ g with rup := R }.effHyp mech) = g.effHyp mech := rfl
  simp only [w]
  ring

/-- the site term stays bounded -/
theorem surfR_le {c : Row} (hc : c ∈ table) {v : ℝ} (hv : 0 < v) (z : ℝ) (j : Bool) : ∃ B : ℝ, ∀ p : ℝ, 0 < p →
    surfR c v p z j ≤ B := by
  obtain ⟨hk, -, -, -, -, -, -, -, -, -, -, -, -, hk2⟩ := row_facts c hc
  have hk' : (0 : ℝ) < c.k_1 := by exact_mod_cast hk
  have hk2' : (c.k_2 : ℝ) ≤ 0 := by exact_mod_cast hk2
  have h3 : 0 < v / (c.k_1 : ℝ) := div_pos hv hk'
  have h4 := Real.rpow_pos_of_pos h3 (1.18 : ℝ)
  unfold surfR siteR
  split
  · rename_i hle
    have h5 : (v / (c.k_1 : ℝ)) ^ (1.18 : ℝ) ≤ 1 :=
      Real.rpow_le_one h3.le (by rw [div_le_one hk']; exact hle) (by norm_num)
    generalize (v / (c.k_1 : ℝ)) ^ (1.18 : ℝ) = q at *
    refine ⟨c.c_11 * Real.log (v / c.k_1) + c.k_2 * Real.log q + (if j then jpR c v else 0) + sedR c z j,
      fun p hp => ?_⟩
    have hl : Real.log q + Real.log (p + 1.88) ≤ Real.log (p + 1.88 * q) := by
      rw [← Real.log_mul h4.ne' (by positivity)]
      apply Real.log_le_log (by positivity)
      nlinarith
    have := mul_le_mul_of_nonpos_left hl hk2'
    linarith
  · exact ⟨_, fun p _ => le_rfl⟩

end CB14

/-- Campbell & Bozorgnia (2014), magnitudes up to 8.5, on and off the hanging wall, in every region -/
theorem C123_cb14 (s₀ : Scenario) (g : CB14.Given) (h₀ : CB14.Source s₀ g) (hv : 0 < g.v) (h8 : g.mag ≤ 8.5)
    (hreg : CB14.Regular g (CB14.mechOf (s₀.get "mechanism"))) (K : ℝ) :
    ∃ R₀ : ℝ, ∀ (s : Scenario) (R : ℝ), R₀ ≤ R → AgreeExcept ["dist_rup"] s₀ s → s.get "dist_rup" = .num R →
    ∃ o, Gives CB14.cls s o ∧ o.gmm.lnResp.length = 23 ∧ FallsBelow K o.gmm.lnResp := by
  set mech := CB14.mechOf (s₀.get "mechanism") with hmech
  set reg := CB14.regOf (s₀.get "region") with hreg'
  obtain ⟨R₀, h⟩ := eventually_atTop.1 (rows CB14.table (P := fun c R =>
      (CB14.lnResp c (({ g with rup := R } : CB14.Given).toIn mech reg)
        (some (CB14.pgaRef (({ g with rup := R } : CB14.Given).toIn mech reg))) (F.ofReal g.v)).val < K) fun c hc => by
    obtain ⟨-, -, h7, -, -, -, -, -, -, h6, h5, ha1, ha2, -⟩ := CB14.row_facts c hc
    have h6' : (0 : ℝ) < c.c_6 := by exact_mod_cast h6
    have h5' : (c.c_5 : ℝ) + c.c_6 * 8.5 < 0 := by
      have : ((c.c_5 + c.c_6 * 8.5 : ℚ) : ℝ) < 0 := by exact_mod_cast h5
      push_cast at this; exact this
    have hs : (c.c_5 : ℝ) + c.c_6 * g.mag < 0 := by nlinarith
    have han : (CB14.anel c reg : ℝ) ≤ 0 := by
      have : CB14.anel c reg ≤ 0 := by cases reg <;> simp only [CB14.anel] <;> assumption
      exact_mod_cast this
    obtain ⟨B, hB⟩ := CB14.fHng_le c g mech reg
    obtain ⟨B', hB'⟩ := CB14.surfR_le hc hv (g.effZ25 reg).val (reg = .japan)
    filter_upwards [log hs le_rfl (K - ((CB14.rest c (g.toIn mech reg)).val - (CB14.fHng c (g.toIn mech reg)).val -
      CB14.D c g.mag g.rup reg) - B - B'), eventually_ge_atTop 1] with R h1 h2
    have e := CB14.resp_val c { g with rup := R } mech reg
    have b' := hB' _ (CB14.pgaRef_pos (({ g with rup := R } : CB14.Given).toIn mech reg))
    have b := hB R h2
    have hD : CB14.D c g.mag R reg ≤ (c.c_5 + c.c_6 * g.mag) * Real.log R := by
      unfold CB14.D
      have l1 : Real.log R ≤ Real.log (√(R ^ 2 + (c.c_7 : ℝ) ^ 2)) := logsqrt_ge (by linarith)
      have l2 := mul_le_mul_of_nonpos_left l1 hs.le
      have l3 := mul_nonpos_of_nonpos_of_nonneg han (le_max_right (R - 80) 0)
      linarith
    have e' := CB14.rest_split c g mech reg R
    refine lt_of_eq_of_lt e ?_
    change _ + CB14.surfR c g.v _ (g.effZ25 reg).val (reg = .japan) < K
    rw [e']
    linarith)
  refine ⟨R₀, fun s R hR hst hr => ⟨_, CB14.gives (CB14.source_rup h₀ hst hr) hv.ne', ?_, ?_⟩⟩
  · simp only [CB14.out, List.length_map]; decide +kernel
  · intro y hy
    rw [hst "mechanism" (by decide), hst "region" (by decide), ← hmech, ← hreg'] at hy
    simp only [CB14.out] at hy
    obtain ⟨c, hc, rfl⟩ := List.mem_map.1 hy
    have hreg2 : CB14.Regular { g with rup := R } mech := ⟨hreg.dip, hreg.hw⟩
    exact ⟨CB14.resp_ok hc hreg2 hv reg, h R hR c hc⟩

example : ∃ R₀ : ℝ, ∀ R ≥ R₀, ∃ o, Gives CB14.cls (CB14.exS R) o ∧ FallsBelow (-20) o.gmm.lnResp := by
  obtain ⟨R₀, h⟩ := C123_cb14 _ _ (CB14.ex_source 20) (by norm_num [CB14.exG]) (by norm_num [CB14.exG])
    (CB14.ex_regular 20) (-20)
  exact ⟨R₀, fun R hR => by
    obtain ⟨o, h1, -, h2⟩ := h (CB14.exS R) R hR (fun k hk => by
      have : "dist_rup" ≠ k := fun e => hk (by simp [e])
      simp [CB14.exS, Scenario.get, Dict.get?, List.find?_cons, this]) (by simp [CB14.exS, Scenario.get, Dict.get?])
    exact ⟨o, h1, h2⟩⟩

/-! ### Tavakoli & Pezeshk (2005) -/

theorem TP05.far_facts : ∀ c ∈ TP05.table, 0 ≤ c.c_12 ∧ c.c_8 + c.c_12 * 8.5 < 0 := by decide +kernel

/-- Tavakoli & Pezeshk (2005), all magnitudes it is defined for -/
theorem C123_tp05 (m : ℝ) (h8 : m ≤ 8.5) (K : ℝ) : ∃ R₀ : ℝ, ∀ (s : Scenario) (R : ℝ), R₀ ≤ R →
    s.get "mag" = .num m → s.get "dist_rup" = .num R →
    ∃ o, Gives TP05.cls s o ∧ o.lnResp.length = 14 ∧ FallsBelow K o.lnResp := by
  obtain ⟨R₀, h⟩ := eventually_atTop.1 ((rows TP05.table (P := fun c R => (TP05.lnResp c (F.ofReal m) (F.ofReal R)).val < K)
    fun c hc => by
      obtain ⟨h12, hk⟩ := TP05.far_facts c hc
      have h12' : (0 : ℝ) ≤ c.c_12 := by exact_mod_cast h12
      have hk' : (c.c_8 : ℝ) + c.c_12 * 8.5 < 0 := by
        have : ((c.c_8 + c.c_12 * 8.5 : ℚ) : ℝ) < 0 := by exact_mod_cast hk
        push_cast at this; exact this
      have hs : (c.c_8 : ℝ) + c.c_12 * m < 0 := by nlinarith
      set H : ℝ := |c.c_5 * Real.exp (c.c_6 * m + c.c_7 * (8.5 - m) ^ (2.5 : ℝ))| with hH
      have H0 : 0 ≤ H := abs_nonneg _
      set A : ℝ := |(c.c_9 : ℝ)| + |(c.c_10 : ℝ)| + |(c.c_11 : ℝ)| + |(c.c_4 : ℝ) + c.c_13 * m| with hA
      filter_upwards [lin A hs (H + 5) (K - (TP05.f1 c (F.ofReal m)).val), eventually_gt_atTop 130] with R h1 h2
      have hL : ∀ (b x : ℝ), 1 ≤ x → x ≤ R + (H + 5) → b * Real.log x ≤ |b| * Real.log (R + (H + 5)) := by
        intro b x hx hxR
        have l0 : 0 ≤ Real.log x := Real.log_nonneg hx
        have l1 : Real.log x ≤ Real.log (R + (H + 5)) := Real.log_le_log (by linarith) hxR
        calc b * Real.log x ≤ |b| * Real.log x := mul_le_mul_of_nonneg_right (le_abs_self b) l0
          _ ≤ _ := mul_le_mul_of_nonneg_left l1 (abs_nonneg b)
      have hd : (TP05.distR c (F.ofReal m) (F.ofReal R)).val = √(R ^ 2 + H ^ 2) := by
        simp only [TP05.distR, fsimp, hH, sq_abs]
      have hd1 : R ≤ √(R ^ 2 + H ^ 2) := by
        calc R = √(R ^ 2) := (Real.sqrt_sq (by linarith)).symm
          _ ≤ _ := Real.sqrt_le_sqrt (by nlinarith [sq_nonneg H])
      have hd2 : √(R ^ 2 + H ^ 2) ≤ R + H := by
        rw [Real.sqrt_le_left (by linarith)]
        nlinarith
      have e : (TP05.lnResp c (F.ofReal m) (F.ofReal R)).val = (TP05.f1 c (F.ofReal m)).val +
          (c.c_9 * Real.log (R + 4.5) + c.c_10 * Real.log (R / 70) + c.c_11 * Real.log (R / 130)) +
          ((c.c_4 + c.c_13 * m) * Real.log √(R ^ 2 + H ^ 2) + (c.c_8 + c.c_12 * m) * √(R ^ 2 + H ^ 2)) := by
        simp only [TP05.lnResp, TP05.f3, F.val_add, F.val_mul, F.val_log, hd]
        simp only [TP05.f2, fsimp, if_pos (show (130 : ℝ) < R from h2), if_pos (show (70 : ℝ) < R by linarith)]
      rw [e]
      have a1 := hL c.c_9 (R + 4.5) (by linarith) (by linarith)
      have a2 := hL c.c_10 (R / 70) (by rw [le_div_iff₀ (by norm_num)]; linarith) (by
        rw [div_le_iff₀ (by norm_num)]; nlinarith)
      have a3 := hL c.c_11 (R / 130) (by rw [le_div_iff₀ (by norm_num)]; linarith) (by
        rw [div_le_iff₀ (by norm_num)]; nlinarith)
      have a4 := hL (c.c_4 + c.c_13 * m) (√(R ^ 2 + H ^ 2)) (by linarith) (by linarith)
      have a5 := mul_le_mul_of_nonpos_left hd1 hs.le
      have ea : A * Real.log (R + (H + 5)) = |(c.c_9 : ℝ)| * Real.log (R + (H + 5)) + |(c.c_10 : ℝ)| * Real.log (R + (H + 5)) +
          |(c.c_11 : ℝ)| * Real.log (R + (H + 5)) + |(c.c_4 : ℝ) + c.c_13 * m| * Real.log (R + (H + 5)) := by
        rw [hA]; ring
      linarith).and (eventually_ge_atTop 0))
  refine ⟨R₀, fun s R hR hm hr => ⟨_, TP05.gives s hm hr, ?_, ?_⟩⟩
  · simp only [TP05.out, List.length_map]; decide +kernel
  · intro y hy
    simp only [TP05.out] at hy
    obtain ⟨c, hc, rfl⟩ := List.mem_map.1 hy
    exact ⟨(TP05.lnResp_ok_iff hc m R).2 ⟨h8, by linarith [(h R hR).2]⟩, (h R hR).1 c hc⟩

example : ∃ R₀ : ℝ, ∀ R ≥ R₀, ∃ o, Gives TP05.cls ⟨[("mag", .num 8), ("dist_rup", .num R)], []⟩ o ∧
    FallsBelow (-20) o.lnResp := by
  obtain ⟨R₀, h⟩ := C123_tp05 8 (by norm_num) (-20)
  exact ⟨R₀, fun R hR => by
    obtain ⟨o, h1, -, h2⟩ := h ⟨[("mag", .num 8), ("dist_rup", .num R)], []⟩ R hR rfl rfl
    exact ⟨o, h1, h2⟩⟩

/-! ### Atkinson & Boore (2006) -/

namespace AB06

theorem anelastic : (∀ c ∈ rock, c.c_10 < 0) ∧ ∀ c ∈ bc, c.c_10 < 0 := by decide +kernel

theorem ref_far {c : Row} (hc : c.c_10 < 0) (m K : ℝ) : ∀ᶠ R : ℝ in atTop, specLnRef c m R < K := by
  have hc' : (c.c_10 : ℝ) < 0 := by exact_mod_cast hc
  have h10 : 0 < Real.log 10 := Real.log_pos (by norm_num)
  have hk : Real.log 10 * (c.c_10 : ℝ) < 0 := mul_neg_of_pos_of_neg h10 hc'
  filter_upwards [lin (c.c_6 + c.c_7 * m) hk 0 (K - Real.log 10 * (c.c_1 + c.c_2 * m + c.c_3 * m ^ 2 +
    (c.c_4 + c.c_5 * m) * Real.logb 10 70 +
    interpR (sf.map fun q => ((q.period : ℝ), specStress q m)) c.period - Real.logb 10 980.665) +
    (c.c_6 + c.c_7 * m) * Real.log 140), eventually_gt_atTop 140] with R h1 h2
  unfold specLnRef specRef
  rw [min_eq_right (logb_mono (by norm_num) (by linarith)),
    max_eq_left (Real.logb_nonneg (by norm_num) (by rw [le_div_iff₀ (by norm_num)]; linarith)),
    max_eq_right (Real.logb_nonpos (by norm_num) (by positivity) (by rw [div_le_iff₀ (by linarith)]; linarith))]
  have e : Real.log 10 * Real.logb 10 (R / 140) = Real.log R - Real.log 140 := by
    rw [Real.logb, Real.log_div (by linarith) (by norm_num)]; field_simp
  rw [add_zero] at h1
  have e2 : Real.log 10 * ((c.c_6 + c.c_7 * m) * Real.logb 10 (R / 140)) =
      (c.c_6 + c.c_7 * m) * Real.log R - (c.c_6 + c.c_7 * m) * Real.log 140 := by
    rw [mul_left_comm, e]; ring
  linarith

end AB06

/-- Atkinson & Boore (2006), any magnitude, on rock and on soil -/
theorem C123_ab06 (m v : ℝ) (hv : 0 ≤ v) (K : ℝ) : ∃ R₀ : ℝ, ∀ (s : Scenario) (R : ℝ), R₀ ≤ R →
    s.get "mag" = .num m → s.get "dist_rup" = .num R → s.get "v_s30" = .num v →
    ∃ o, Gives AB06.cls s o ∧ o.lnResp.length = 27 ∧ FallsBelow K o.lnResp := by
  rcases hv.eq_or_lt with rfl | hv
  · obtain ⟨R₀, h⟩ := eventually_atTop.1 ((rows AB06.rock (P := fun c R => AB06.specLnRef c m R < K)
      fun c hc => AB06.ref_far (AB06.anelastic.1 c hc) m K).and (eventually_gt_atTop 0))
    refine ⟨R₀, fun s R hR hm hr hv => ?_⟩
    obtain ⟨o, h1, h2⟩ := C21_rock s m R (h R hR).2 hm hr hv
    refine ⟨o, h1, h2.length_eq.symm.trans (by decide +kernel), fun y hy => ?_⟩
    obtain ⟨i, hi, rfl⟩ := List.mem_iff_getElem.1 hy
    have := h2.get (by rw [h2.length_eq]; exact hi) hi
    exact ⟨this.1, lt_of_eq_of_lt this.2 ((h R hR).1 _ (List.get_mem ..))⟩
  · obtain ⟨R₀, h⟩ := eventually_atTop.1 (((rows AB06.bc (P := fun c R => AB06.specLnRef c m R +
          interpR (AB06.site.map fun q => ((q.period : ℝ), AB06.specSite q v 0)) c.period < K)
        fun c hc => (AB06.ref_far (AB06.anelastic.2 c hc) m (K -
          interpR (AB06.site.map fun q => ((q.period : ℝ), AB06.specSite q v 0)) c.period)).mono
            fun R hR => by linarith).and
        (AB06.ref_far (AB06.anelastic.2 AB06.pgaRow (List.getElem_mem _)) m (Real.log 0.01))).and
          (eventually_gt_atTop 0))
    refine ⟨R₀, fun s R hR hm hr hv' => ?_⟩
    obtain ⟨⟨q1, q2⟩, q3⟩ := h R hR
    obtain ⟨o, h1, h2⟩ := C21_bc s m R v q3 hv hm hr hv'
    refine ⟨o, h1, h2.length_eq.symm.trans (by decide +kernel), fun y hy => ?_⟩
    obtain ⟨i, hi, rfl⟩ := List.mem_iff_getElem.1 hy
    have := h2.get (by rw [h2.length_eq]; exact hi) hi
    refine ⟨this.1, lt_of_eq_of_lt this.2 ?_⟩
    have hp : AB06.specPga m R ≤ 60 := by
      have e : AB06.specPga m R = 980.665 * Real.exp (AB06.specLnRef AB06.pgaRow m R) := rfl
      have : Real.exp (AB06.specLnRef AB06.pgaRow m R) ≤ 0.01 := by
        rw [← Real.exp_log (show (0 : ℝ) < 0.01 by norm_num)]
        exact Real.exp_le_exp.2 q2.le
      rw [e]; linarith
    have es : ∀ q, AB06.specSite q v (AB06.specPga m R) = AB06.specSite q v 0 := by
      intro q
      simp only [AB06.specSite, max_eq_right hp, max_eq_right (show (0 : ℝ) ≤ 60 by norm_num)]
    simp only [es]
    exact q1 _ (List.get_mem ..)

example : ∃ R₀ : ℝ, ∀ R ≥ R₀, ∃ o, Gives AB06.cls ⟨[("mag", .num 8), ("dist_rup", .num R), ("v_s30", .num 200)], []⟩ o ∧
    FallsBelow (-20) o.lnResp := by
  obtain ⟨R₀, h⟩ := C123_ab06 8 200 (by norm_num) (-20)
  exact ⟨R₀, fun R hR => by
    obtain ⟨o, h1, -, h2⟩ := h ⟨[("mag", .num 8), ("dist_rup", .num R), ("v_s30", .num 200)], []⟩ R hR rfl rfl rfl
    exact ⟨o, h1, h2⟩⟩

/-! ### Abrahamson, Gregor & Addo (2016) and Coppersmith & Bommer (2014) -/

namespace AGA16

/-- the site term stays bounded -/
theorem siteR_le {vl b n c t12 : ℚ} (hvl : 0 < vl) (hc : 0 < c) (hb : b ≤ 0) (hn : 0 ≤ n) {v : ℝ} (hv : 0 < v) :
    ∃ B : ℝ, ∀ x, siteR vl b n c t12 v x ≤ B := by
  have hvl' : (0 : ℝ) < vl := by exact_mod_cast hvl
  have hc' : (0 : ℝ) < c := by exact_mod_cast hc
  have hb' : (b : ℝ) ≤ 0 := by exact_mod_cast hb
  have hn' : (0 : ℝ) ≤ n := by exact_mod_cast hn
  have h3 : 0 < min v 1000 / (vl : ℝ) := div_pos (lt_min hv (by norm_num)) hvl'
  have h4 := Real.rpow_pos_of_pos h3 (n : ℝ)
  unfold siteR
  by_cases h : v < vl
  · simp only [if_pos h]
    have h5 : (min v 1000 / (vl : ℝ)) ^ (n : ℝ) ≤ 1 :=
      Real.rpow_le_one h3.le (by rw [div_le_one hvl']; exact (min_le_left _ _).trans h.le) hn'
    generalize (min v 1000 / (vl : ℝ)) ^ (n : ℝ) = q at *
    refine ⟨t12 * Real.log (min v 1000 / vl) + b * Real.log q, fun x => ?_⟩
    have hE := Real.exp_pos x
    have hl : Real.log q + Real.log (Real.exp x + c) ≤ Real.log (Real.exp x + c * q) := by
      rw [← Real.log_mul h4.ne' (by positivity)]
      apply Real.log_le_log (by positivity)
      nlinarith
    have := mul_le_mul_of_nonpos_left hl hb'
    linarith
  · simp only [if_neg h]
    exact ⟨_, fun x => le_rfl⟩

theorem D_far {c : Row} (hc : c ∈ table) (ev : Ev) (back : Bool) (m : ℝ) {sc : ℝ} (hsc : 0 < sc) (K : ℝ) :
    ∀ᶠ d : ℝ in atTop, D c ev back m sc d < K := by
  obtain ⟨h1, h2, h3, -, -, -, -, h6, -⟩ := row_facts c hc
  have h6' : (c.t_6 : ℝ) < 0 := by exact_mod_cast h6
  have hk : sc * (c.t_6 : ℝ) < 0 := mul_neg_of_pos_of_neg hsc h6'
  have h1' : (c.c_4 : ℝ) = 10 := by rw [h1]; norm_num
  set H : ℝ := 10 * Real.exp (c.t_9 * (m - 6)) with hH
  have H0 : 0 < H := by positivity
  set A : ℝ := |(c.t_2 + c.t_14 * (if ev = .intraslab then 1 else 0) + c.t_3 * (m - 7.8) : ℝ)| with hA
  set B : ℝ := |(c.t_8 : ℝ)| + |(c.t_16 : ℝ)| with hB
  filter_upwards [lin (A + B) hk H (K - |(c.t_7 : ℝ)| - |(c.t_15 : ℝ)|), eventually_gt_atTop 100] with d g1 g2
  have l0 : 0 ≤ Real.log (d + H) := Real.log_nonneg (by linarith)
  have a1 : (c.t_2 + c.t_14 * (if ev = .intraslab then 1 else 0) + c.t_3 * (m - 7.8)) * Real.log (d + H) ≤
      A * Real.log (d + H) := mul_le_mul_of_nonneg_right (le_abs_self _) l0
  have l1 : Real.log (d / 40) ≤ Real.log (d + H) := Real.log_le_log (by positivity) (by
    rw [div_le_iff₀ (by norm_num)]; nlinarith)
  have l2 : 0 ≤ Real.log (d / 40) := Real.log_nonneg (by rw [le_div_iff₀ (by norm_num)]; linarith)
  have hb : ∀ b : ℝ, b * Real.log (d / 40) ≤ |b| * Real.log (d + H) := fun b =>
    (mul_le_mul_of_nonneg_right (le_abs_self b) l2).trans (mul_le_mul_of_nonneg_left l1 (abs_nonneg b))
  have b1 := hb c.t_8
  have b2 := hb c.t_16
  have z1 : 0 ≤ |(c.t_8 : ℝ)| * Real.log (d + H) := mul_nonneg (abs_nonneg _) l0
  have z2 : 0 ≤ |(c.t_16 : ℝ)| * Real.log (d + H) := mul_nonneg (abs_nonneg _) l0
  have e : (A + B) * Real.log (d + H) = A * Real.log (d + H) + |(c.t_8 : ℝ)| * Real.log (d + H) +
      |(c.t_16 : ℝ)| * Real.log (d + H) := by rw [hB]; ring
  have t7 := le_abs_self (c.t_7 : ℝ)
  have t15 := le_abs_self (c.t_15 : ℝ)
  have u7 := abs_nonneg (c.t_7 : ℝ)
  have u15 := abs_nonneg (c.t_15 : ℝ)
  unfold D
  rw [h1', ← hH, max_eq_left (show (85 : ℝ) ≤ d by linarith), max_eq_left g2.le]
  cases back with
  | false => simp only [Bool.false_eq_true, if_false]; linarith
  | true =>
    simp only [if_true]
    split <;> rename_i hev <;> simp only [hev, if_true, if_false] at a1 ⊢ <;> linarith

end AGA16

/-- Abrahamson, Gregor & Addo (2016), any magnitude, event type, region and adjustment, with a positive
`scale_atten`; `d` is the distance the event type uses -/
theorem C123_aga16 (m v z0 : ℝ) (e : String) (r : Option String) (z : Option ℝ) (a : AGA16.Adjust) (c4 sc : ℝ)
    (adj : List F) (hv : 0 < v) (hsc : 0 < sc) (hz : AGA16.evFor e = .intraslab → z = some z0)
    (hev : r = some "backarc" → AGA16.evFor e ≠ .other)
    (ha : AGA16.adjust (AGA16.table.map (·.period)) (AGA16.evFor e) a = pure adj) (K : ℝ) :
    ∃ R₀ : ℝ, ∀ (s : Scenario) (d : ℝ) (rup hyp : Option ℝ), R₀ ≤ d → AGA16.Source s m v e r rup hyp z →
    (if AGA16.evFor e = .intraslab then hyp else rup) = some d →
    ∃ o, Gives (AGA16.cls a c4 sc) s o ∧ o.gmm.lnResp.length = 23 ∧ FallsBelow K o.gmm.lnResp := by
  obtain ⟨hl, hok⟩ := AGA16.adjust_ok ha
  obtain ⟨R₀, h⟩ := eventually_atTop.1 ((rows (AGA16.table.zip adj) (P := fun p d => ∀ y : F,
      (AGA16.lnResp p.1 p.2 (AGA16.input m v d e r z0 sc) (some (F.exp y))).val < K) fun p hp => by
    have hc := (List.of_mem_zip (a := p.1) (b := p.2) hp).1
    obtain ⟨-, -, -, h4, h5, hvl, -, -, -, -, -, -, hb, -⟩ := AGA16.row_facts p.1 hc
    obtain ⟨B, hB⟩ := AGA16.siteR_le (t12 := p.1.t_12) hvl (c := p.1.c) (by rw [h4]; norm_num) hb (n := p.1.n)
      (by rw [h5]; norm_num) hv
    filter_upwards [AGA16.D_far hc (AGA16.evFor e) (decide (r = some "backarc")) m hsc
      (K - B - AGA16.A p.1 (AGA16.evFor e) p.2.val m z0)] with d hd y
    rw [AGA16.lnResp_val, AGA16.fSite_val]
    have := hB y.val
    linarith).and (eventually_ge_atTop 0))
  refine ⟨R₀, fun s d rup hyp hR hs hd => ⟨_, AGA16.gives hs hd hz hev c4 sc ha, ?_, ?_⟩⟩
  · simp only [AGA16.out, List.length_zipWith, hl]; rfl
  · obtain ⟨q1, q2⟩ := h d hR
    obtain ⟨y0, hy0, hy⟩ := AGA16.ref_ok hl hok m v q2 e r z0 sc
    intro y hy'
    simp only [AGA16.out, hy] at hy'
    rw [← List.map_uncurry_zip_eq_zipWith, List.mem_map] at hy'
    obtain ⟨⟨c, x⟩, hcx, rfl⟩ := hy'
    have hc := (List.of_mem_zip hcx).1
    have hx := (List.of_mem_zip hcx).2
    obtain ⟨-, -, -, h4, -, h5, -⟩ := AGA16.row_facts c hc
    exact ⟨AGA16.lnResp_ok hc (hok x hx) m v q2 e r z0 sc (AGA16.fSite_ok h5 (by rw [h4]; norm_num) hv hy0),
      q1 _ hcx y0⟩

example : ∃ R₀ : ℝ, ∀ d ≥ R₀, ∃ o, Gives (AGA16.cls .default 10 1) ⟨[("mag", .num 9), ("v_s30", .num 250),
    ("event_type", .str "intraslab"), ("tectonic_region", .str "backarc"), ("dist_hyp", .num d),
    ("depth_hyp", .num 80)], []⟩ o ∧ FallsBelow (-20) o.gmm.lnResp := by
  obtain ⟨R₀, h⟩ := C123_aga16 9 250 80 "intraslab" (some "backarc") (some 80) .default 10 1 _ (by norm_num)
    (by norm_num) (fun _ => rfl) (by decide) rfl (-20)
  exact ⟨R₀, fun d hd => by
    obtain ⟨o, h1, -, h2⟩ := h _ d none (some d) hd (AGA16.source_example 9 250 d) (if_pos (by decide))
    exact ⟨o, h1, h2⟩⟩

theorem CoppersmithBommer.b_nonpos : ∀ c ∈ CoppersmithBommer.table, c.b ≤ 0 := by decide +kernel

theorem CoppersmithBommer.D_far {c : CoppersmithBommer.Row} (hc : c ∈ CoppersmithBommer.table) (m : ℝ) {sc : ℝ}
    (hsc : 0 < sc) (K : ℝ) : ∀ᶠ d : ℝ in atTop, CoppersmithBommer.D c m sc d < K := by
  obtain ⟨h1, h2, h3, -, -, -, -, h6, -, h16, -⟩ := CoppersmithBommer.row_facts c hc
  have h6' : (c.t_6 : ℝ) < 0 := by exact_mod_cast h6
  have h16' : (c.t_16 : ℝ) ≤ 0 := by exact_mod_cast h16
  have hk : sc * (c.t_6 : ℝ) < 0 := mul_neg_of_pos_of_neg hsc h6'
  filter_upwards [lin (c.t_2 + c.t_3 * (m - 7.8)) hk (c.c_4 * Real.exp (c.t_9 * (m - 6))) K, eventually_gt_atTop 40]
    with d g1 g2
  unfold CoppersmithBommer.D
  rw [max_eq_left g2.le]
  have l2 : 0 ≤ Real.log (d / 40) := Real.log_nonneg (by rw [le_div_iff₀ (by norm_num)]; linarith)
  have := mul_nonpos_of_nonpos_of_nonneg h16' l2
  linarith

/-- Coppersmith & Bommer (2014), any magnitude, with a positive `scale_atten` -/
theorem C123_coppersmith (m v sc : ℝ) (e : String) (hv : 0 < v) (hsc : 0 < sc) (K : ℝ) :
    ∃ R₀ : ℝ, ∀ (s : Scenario) (d : ℝ), R₀ ≤ d → s.get "mag" = .num m → s.get "dist_rup" = .num d →
    s.get "v_s30" = .num v → s.get "event_type" = .str e →
    ∃ o, Gives (CoppersmithBommer.cls sc) s o ∧ ∀ i < 14, (o.lnResp.getD i F.nan).ok ∧ o.resp i < K := by
  obtain ⟨hl, hok⟩ := CoppersmithBommer.adj_ok (AGA16.evFor e)
  obtain ⟨r0, hr0, hh, hvl, -⟩ := CoppersmithBommer.head_eq
  match hadj : CoppersmithBommer.adj (AGA16.evFor e), hl with
  | a0 :: adj, hl' =>
  rw [hadj] at hok
  obtain ⟨R₀, h⟩ := eventually_atTop.1 ((rows (List.finRange 14) (P := fun k d => ∀ x : ℝ,
      CoppersmithBommer.A (CoppersmithBommer.table[k]) ((a0 :: adj)[k.1]'(by omega)).val m +
        CoppersmithBommer.D (CoppersmithBommer.table[k]) m sc d +
      AGA16.siteR (CoppersmithBommer.table[k]).v_lin (CoppersmithBommer.table[k]).b (CoppersmithBommer.table[k]).n
        (CoppersmithBommer.table[k]).c (CoppersmithBommer.table[k]).t_12 v x < K) fun k _ => by
    have hc : CoppersmithBommer.table[k] ∈ CoppersmithBommer.table := List.getElem_mem _
    obtain ⟨-, -, -, h4, h5, hvl, -⟩ := CoppersmithBommer.row_facts _ hc
    obtain ⟨B, hB⟩ := AGA16.siteR_le (t12 := (CoppersmithBommer.table[k]).t_12) hvl (c := (CoppersmithBommer.table[k]).c)
      (by rw [h4]; norm_num) (CoppersmithBommer.b_nonpos _ hc) (n := (CoppersmithBommer.table[k]).n)
      (by rw [h5]; norm_num) hv
    filter_upwards [CoppersmithBommer.D_far hc m hsc (K - B - CoppersmithBommer.A (CoppersmithBommer.table[k])
      ((a0 :: adj)[k.1]'(by omega)).val m)] with d hd x
    have := hB x
    linarith).and (eventually_ge_atTop 0))
  refine ⟨R₀, fun s d hR hm hd hv' he => ⟨_, CoppersmithBommer.gives s hm hd hv' he sc, fun i hi => ?_⟩⟩
  obtain ⟨q1, q2⟩ := h d hR
  rw [hadj]
  obtain ⟨o1, o2⟩ := CoppersmithBommer.resp hr0 hh hvl hl' hok m q2 hv sc hi
  exact ⟨o1, lt_of_eq_of_lt o2 (q1 ⟨i, hi⟩ (List.mem_finRange _) _)⟩

example : ∃ R₀ : ℝ, ∀ d ≥ R₀, ∃ o, Gives (CoppersmithBommer.cls 1) ⟨[("mag", .num 9), ("v_s30", .num 250),
    ("event_type", .str "interface"), ("dist_rup", .num d)], []⟩ o ∧ o.resp 0 < -20 := by
  obtain ⟨R₀, h⟩ := C123_coppersmith 9 250 1 "interface" (by norm_num) (by norm_num) (-20)
  exact ⟨R₀, fun d hd => by
    obtain ⟨o, h1, h2⟩ := h ⟨[("mag", .num 9), ("v_s30", .num 250),
      ("event_type", .str "interface"), ("dist_rup", .num d)], []⟩ d hd rfl rfl rfl rfl
    exact ⟨o, h1, (h2 0 (by norm_num)).2⟩⟩
