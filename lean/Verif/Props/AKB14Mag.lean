import Verif.Props.AKB14

/-!
# C80: Akkar, Sandıkkaya & Bommer (2014) grows with magnitude up to M 8
-/

open Bounds

set_option linter.unusedSimpArgs false

namespace AKB14

/-- every row compared with the first row of its table -/
theorem mag_facts : ∀ tbl ∈ tables, ∀ c ∈ tbl, c.a_2 = 0.0029 ∧ c.a_7 = -0.5096 ∧
    0.00004 < -c.a_3 ∧ ∀ r ∈ tbl.head?, (1 + c.b_2) * 0.00004 < -(c.a_3 + c.b_2 * r.a_3) := by
  decide +kernel

theorem L_ge (d : ℝ) : 2.0149 ≤ L d := by
  have h1 : (2.0149 : ℝ) ≤ Real.log 7.5 := by
    have := le_log_of (x := 7.5) (q := 2.0149) (by norm_num) (by norm_num) (by norm_num) (by
      have : expHi 2.0149 ≤ 7.5 := by decide +kernel
      have : ((expHi 2.0149 : ℚ) : ℝ) ≤ ((7.5 : ℚ) : ℝ) := by exact_mod_cast this
      norm_num at this ⊢; linarith)
    norm_num at this ⊢
    linarith
  unfold L
  refine h1.trans (Real.log_le_log (by norm_num) ?_)
  apply Real.le_sqrt_of_sq_le
  nlinarith [sq_nonneg d]

/-- change of the reference response of one row -/
theorem ref_change (c : Row) (h2 : c.a_2 = 0.0029) (h7 : c.a_7 = -0.5096) (m m' d : ℝ) (mech : Mech) :
    A c m' mech + (c.a_4 + 0.2529 * (m' - 6.75)) * L d -
      (A c m mech + (c.a_4 + 0.2529 * (m - 6.75)) * L d) =
    c.a_3 * ((8.5 - m') ^ 2 - (8.5 - m) ^ 2) +
      ((0.0029 * min (m' - 6.75) 0 - 0.5096 * max (m' - 6.75) 0) -
        (0.0029 * min (m - 6.75) 0 - 0.5096 * max (m - 6.75) 0) + 0.2529 * (m' - m) * L d) := by
  simp only [A, h2, h7]
  push_cast
  ring

theorem grows {tbl : List Row} (ht : tbl ∈ tables) {m m' d v : ℝ} (mech : Mech)
    (hmm : m < m') (hm : m' ≤ 8) (hv : 0 < v) :
    List.Forall₂ F.Drops (out tbl (F.ofReal m') (F.ofReal d) (F.ofReal v) mech).lnResp
      (out tbl (F.ofReal m) (F.ofReal d) (F.ofReal v) mech).lnResp := by
  obtain ⟨-, r, hr⟩ := head_facts _ ht
  have hrm : r ∈ tbl := List.mem_of_mem_head? hr
  simp only [out]
  refine forall₂_map fun c hc => ⟨?_, ?_, ?_⟩
  · rw [pgaRef_eq hr]; exact ⟨lnRef_ok ht hc .., site_ok ht hc hv (lnRef_ok ht hrm ..)⟩
  · rw [pgaRef_eq hr]; exact ⟨lnRef_ok ht hc .., site_ok ht hc hv (lnRef_ok ht hrm ..)⟩
  · rw [pgaRef_eq hr, pgaRef_eq hr, F.val_add, F.val_add, site_val ht hc hv, site_val ht hc hv,
      lnRef_val ht hc, lnRef_val ht hc, lnRef_val ht hrm, lnRef_val ht hrm]
    have hL := L_ge d
    obtain ⟨h2, h7, h3, hf⟩ := mag_facts tbl ht c hc
    obtain ⟨r2, r7, r3, -⟩ := mag_facts tbl ht r hrm
    obtain ⟨-, -, -, -, -, -, hb1, hb2, -⟩ := row_facts tbl ht c hc
    have hf := hf r hr
    have hb1' : (-1 : ℝ) < c.b_2 := by exact_mod_cast hb1
    have hf' : (((1 + c.b_2) * 0.00004 : ℚ) : ℝ) < ((-(c.a_3 + c.b_2 * r.a_3) : ℚ) : ℝ) := by
      exact_mod_cast hf
    have r3' : ((0.00004 : ℚ) : ℝ) < ((-r.a_3 : ℚ) : ℝ) := by exact_mod_cast r3
    push_cast at hf' r3'
    have e1 := ref_change c h2 h7 m m' d mech
    have e2 := ref_change r r2 r7 m m' d mech
    set Q := (8.5 - m') ^ 2 - (8.5 - m) ^ 2 with hQ
    set H := (0.0029 * min (m' - 6.75) 0 - 0.5096 * max (m' - 6.75) 0) -
        (0.0029 * min (m - 6.75) 0 - 0.5096 * max (m - 6.75) 0) + 0.2529 * (m' - m) * L d with hH
    have hQ' : m' - m ≤ -Q := by rw [hQ]; nlinarith
    have hH' : -0.00004 * (m' - m) ≤ H := by
      have : 0.2529 * (m' - m) * 2.0149 ≤ 0.2529 * (m' - m) * L d :=
        mul_le_mul_of_nonneg_left hL (by linarith)
      have h1 : m - 6.75 ≤ m' - 6.75 := by linarith
      rw [hH]
      rcases le_total (m - 6.75) 0 with a | a <;> rcases le_total (m' - 6.75) 0 with b | b
      · rw [min_eq_left a, min_eq_left b, max_eq_right a, max_eq_right b]; linarith
      · rw [min_eq_left a, min_eq_right b, max_eq_right a, max_eq_left b]; linarith
      · rw [min_eq_right a, min_eq_left b, max_eq_left a, max_eq_right b]; linarith
      · rw [min_eq_right a, min_eq_right b, max_eq_left a, max_eq_left b]; linarith
    have hδ : 0 < m' - m := by linarith
    have hup : A r m mech + (r.a_4 + 0.2529 * (m - 6.75)) * L d ≤
        A r m' mech + (r.a_4 + 0.2529 * (m' - 6.75)) * L d := by
      have n1 : 0.00004 * (m' - m) ≤ -r.a_3 * (m' - m) := mul_le_mul_of_nonneg_right r3'.le hδ.le
      have n2 : -r.a_3 * (m' - m) ≤ -r.a_3 * -Q := mul_le_mul_of_nonneg_left hQ' (by linarith)
      linarith
    have hs := S_change ht hc hv hup
    rw [e2] at hs
    have k1 : 0 ≤ -(c.a_3 + c.b_2 * r.a_3 : ℝ) :=
      (mul_nonneg (by linarith) (by norm_num)).trans hf'.le
    have k2 : -(c.a_3 + c.b_2 * r.a_3 : ℝ) * (m' - m) ≤ -(c.a_3 + c.b_2 * r.a_3 : ℝ) * -Q :=
      mul_le_mul_of_nonneg_left hQ' k1
    have k3 : (1 + c.b_2 : ℝ) * (-0.00004 * (m' - m)) ≤ (1 + c.b_2) * H :=
      mul_le_mul_of_nonneg_left hH' (by linarith)
    have k4 := mul_lt_mul_of_pos_right hf' hδ
    linarith

end AKB14

/-- Up to M 8 every one of the 64 ordinates strictly grows with magnitude, whichever distance
metric is in force and at whatever distance, on every site and for every mechanism. -/
theorem C80_grows_with_magnitude (s s' : Scenario) (m m' v : ℝ) (t : String) (a b c : Option ℝ)
    (hmm : m < m') (hm8 : m' ≤ 8) (hv0 : 0 < v) (hsome : a.isSome ∨ b.isSome ∨ c.isSome)
    (hm : s.get "mag" = .num m) (hv : s.get "v_s30" = .num v) (ht : s.get "mechanism" = .str t)
    (ha : s.get "dist_jb" = Val.ofOpt a) (hb : s.get "dist_hyp" = Val.ofOpt b)
    (hc : s.get "dist_epi" = Val.ofOpt c)
    (hm' : s'.get "mag" = .num m') (hv' : s'.get "v_s30" = .num v)
    (ht' : s'.get "mechanism" = .str t) (ha' : s'.get "dist_jb" = Val.ofOpt a)
    (hb' : s'.get "dist_hyp" = Val.ofOpt b) (hc' : s'.get "dist_epi" = Val.ofOpt c) :
    ∃ o o', Gives AKB14.cls s o ∧ Gives AKB14.cls s' o' ∧ o.lnResp.length = 64 ∧
      List.Forall₂ F.Drops o'.lnResp o.lnResp := by
  obtain ⟨p, hp⟩ : ∃ p, AKB14.spec a b c = some p := by
    cases a <;> cases b <;> cases c <;> simp_all [AKB14.spec]
  have htab := AKB14.spec_table hp
  exact ⟨_, _, AKB14.gives s hm hv ht ha hb hc hp, AKB14.gives s' hm' hv' ht' ha' hb' hc' hp,
    by simp [AKB14.out, (AKB14.head_facts _ htab).1], AKB14.grows htab _ hmm hm8 hv0⟩

/-- the hypotheses are met: M 6 and M 7.5 at 0 km on a soft site -/
example : ∃ o o', Gives AKB14.cls ⟨[("mag", .num 6), ("dist_jb", .num 0), ("v_s30", .num 200),
      ("mechanism", .str "NS")], []⟩ o ∧
    Gives AKB14.cls ⟨[("mag", .num 7.5), ("dist_jb", .num 0), ("v_s30", .num 200),
      ("mechanism", .str "NS")], []⟩ o' ∧ o.lnResp.length = 64 ∧
      List.Forall₂ F.Drops o'.lnResp o.lnResp :=
  C80_grows_with_magnitude _ _ 6 7.5 200 "NS" (some 0) none none (by norm_num) (by norm_num)
    (by norm_num) (by simp) rfl rfl rfl rfl rfl rfl rfl rfl rfl rfl rfl rfl
