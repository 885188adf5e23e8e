import Verif.Models.AKB14
import Verif.Bounds
import Mathlib.Analysis.SpecialFunctions.Pow.Continuity

/-! # C23, C61: Akkar, Sandıkkaya & Bommer (2014) -/

open Bounds

set_option linter.unusedSimpArgs false

/-- A Joyner-Boore distance is used whatever the other two distances are: given or not, with
any values, the predictions are the same, and come with the standard deviations of the
Joyner-Boore table. -/
theorem C23_joyner_boore_first (s s' : Scenario) (m v d : ℝ) (t : String) (b c b' c' : Option ℝ)
    (hm : s.get "mag" = .num m) (hv : s.get "v_s30" = .num v) (ht : s.get "mechanism" = .str t)
    (ha : s.get "dist_jb" = .num d) (hb : s.get "dist_hyp" = Val.ofOpt b)
    (hc : s.get "dist_epi" = Val.ofOpt c)
    (hm' : s'.get "mag" = .num m) (hv' : s'.get "v_s30" = .num v)
    (ht' : s'.get "mechanism" = .str t) (ha' : s'.get "dist_jb" = .num d)
    (hb' : s'.get "dist_hyp" = Val.ofOpt b') (hc' : s'.get "dist_epi" = Val.ofOpt c') :
    ∃ o, Gives AKB14.cls s o ∧ Gives AKB14.cls s' o ∧
      o.lnStd = some (AKB14.jb.map fun r => (r.sd_total : F)) :=
  ⟨_, AKB14.gives (a := some d) s hm hv ht ha hb hc rfl,
    AKB14.gives (a := some d) s' hm' hv' ht' ha' hb' hc' rfl, rfl⟩

/-- Without it the hypocentral distance is used, whatever the epicentral one is, with the
hypocentral table. -/
theorem C23_hypocentral_second (s s' : Scenario) (m v d : ℝ) (t : String) (c c' : Option ℝ)
    (hm : s.get "mag" = .num m) (hv : s.get "v_s30" = .num v) (ht : s.get "mechanism" = .str t)
    (ha : s.get "dist_jb" = .none) (hb : s.get "dist_hyp" = .num d)
    (hc : s.get "dist_epi" = Val.ofOpt c)
    (hm' : s'.get "mag" = .num m) (hv' : s'.get "v_s30" = .num v)
    (ht' : s'.get "mechanism" = .str t) (ha' : s'.get "dist_jb" = .none)
    (hb' : s'.get "dist_hyp" = .num d) (hc' : s'.get "dist_epi" = Val.ofOpt c') :
    ∃ o, Gives AKB14.cls s o ∧ Gives AKB14.cls s' o ∧
      o.lnStd = some (AKB14.hyp.map fun r => (r.sd_total : F)) :=
  ⟨_, AKB14.gives (a := none) (b := some d) s hm hv ht ha hb hc rfl,
    AKB14.gives (a := none) (b := some d) s' hm' hv' ht' ha' hb' hc' rfl, rfl⟩

/-- Alone, the epicentral distance is used, with the epicentral table. -/
theorem C23_epicentral_last (s : Scenario) (m v d : ℝ) (t : String)
    (hm : s.get "mag" = .num m) (hv : s.get "v_s30" = .num v) (ht : s.get "mechanism" = .str t)
    (ha : s.get "dist_jb" = .none) (hb : s.get "dist_hyp" = .none)
    (hc : s.get "dist_epi" = .num d) :
    ∃ o, Gives AKB14.cls s o ∧ o.lnStd = some (AKB14.epi.map fun r => (r.sd_total : F)) :=
  ⟨_, AKB14.gives (a := none) (b := none) (c := some d) s hm hv ht ha hb hc rfl, rfl⟩

/-- The three tables have different standard deviation columns but share the
periods, so the metric used shows in the result. -/
theorem C23_tables_differ :
    AKB14.jb.map (·.period) = AKB14.hyp.map (·.period) ∧
    AKB14.jb.map (·.period) = AKB14.epi.map (·.period) ∧
    AKB14.jb.map (·.sd_total) ≠ AKB14.hyp.map (·.sd_total) ∧
    AKB14.jb.map (·.sd_total) ≠ AKB14.epi.map (·.sd_total) ∧
    AKB14.hyp.map (·.sd_total) ≠ AKB14.epi.map (·.sd_total) := by decide +kernel

/-- With no distance at all construction raises NotImplementedError. -/
theorem C23_no_distance (s : Scenario) (m v : ℝ) (t : String)
    (hm : s.get "mag" = .num m) (hv : s.get "v_s30" = .num v) (ht : s.get "mechanism" = .str t)
    (ha : s.get "dist_jb" = .none) (hb : s.get "dist_hyp" = .none)
    (hc : s.get "dist_epi" = .none) :
    (AKB14.cls.new s).res = .error .notImplemented := by
  obtain ⟨h1, h2⟩ := AKB14.passes (a := none) (b := none) (c := none) s hm hv ht ha hb hc
  apply fails_of (by change ParamsOk Decls.akb14; decide +kernel) rfl _ _ h1
  intro d hd
  rw [h2 d hd]; rfl

namespace AKB14

/-- the tables, one per metric -/
def tables : List (List Row) := [jb, hyp, epi]

theorem spec_table {a b c : Option ℝ} {p : ℝ × List Row} (h : spec a b c = some p) :
    p.2 ∈ tables := by
  cases a <;> cases b <;> cases c <;> simp [spec] at h <;> subst h <;> simp [tables]

theorem head_facts : ∀ tbl ∈ tables, tbl.length = 64 ∧ ∃ r, tbl.head? = some r := by
  intro tbl h
  simp only [tables, List.mem_cons, List.not_mem_nil, or_false] at h
  rcases h with rfl | rfl | rfl <;> exact ⟨by decide +kernel, _, rfl⟩

/-- every row of every table, compared with the first row of that table -/
theorem row_facts : ∀ tbl ∈ tables, ∀ c ∈ tbl, c.a_6 = 7.5 ∧ c.c_1 = 6.75 ∧ c.a_5 = 0.2529 ∧
    c.c = 2.5 ∧ c.n = 3.2 ∧ c.v_con = 1000 ∧ -1 < c.b_2 ∧ c.b_2 < 0 ∧
    c.a_4 + 0.2529 * 1.75 < 0 ∧
    ∀ r ∈ tbl.head?, c.a_4 + 0.2529 * 1.75 + c.b_2 * (r.a_4 + 0.2529 * 1.75) < 0 := by
  decide +kernel

theorem sd_facts : ∀ tbl ∈ tables, ∀ c ∈ tbl, 0 < c.sd_total := by decide +kernel

/-- effective distance in the logarithm -/
noncomputable def L (d : ℝ) : ℝ := Real.log √(d ^ 2 + (7.5 : ℝ) ^ 2)

theorem L_mono {d d' : ℝ} (h : 0 ≤ d) (h' : d < d') : L d < L d' := by
  unfold L
  apply Real.log_lt_log (Real.sqrt_pos.2 (by positivity))
  apply Real.sqrt_lt_sqrt (by positivity)
  nlinarith

/-- the reference part without distance -/
noncomputable def A (c : Row) (m : ℝ) (mech : Mech) : ℝ :=
  c.a_1 + c.a_3 * (8.5 - m) ^ 2 + (c.a_2 * min (m - 6.75) 0 + c.a_7 * max (m - 6.75) 0) +
    (fMech c mech).val

theorem fMech_ok (c : Row) (mech : Mech) : (fMech c mech).ok := by
  cases mech <;> simp [fMech]

theorem lnRef_val {tbl : List Row} (ht : tbl ∈ tables) {c : Row} (hc : c ∈ tbl) (m d : ℝ)
    (mech : Mech) : (lnRef c (F.ofReal m) (F.ofReal d) mech).val =
      A c m mech + (c.a_4 + 0.2529 * (m - 6.75)) * L d := by
  obtain ⟨h1, h2, h3, -⟩ := row_facts tbl ht c hc
  simp only [lnRef, fsimp, h1, h2, h3, A, L]
  push_cast
  by_cases h : m ≤ 6.75
  · rw [if_pos h, min_eq_left (by linarith), max_eq_right (by linarith)]; ring
  · rw [if_neg h, min_eq_right (by linarith), max_eq_left (by linarith)]; ring

theorem lnRef_ok {tbl : List Row} (ht : tbl ∈ tables) {c : Row} (hc : c ∈ tbl) (m d : ℝ)
    (mech : Mech) : (lnRef c (F.ofReal m) (F.ofReal d) mech).ok := by
  obtain ⟨h1, h2, h3, -⟩ := row_facts tbl ht c hc
  have := fMech_ok c mech
  simp only [lnRef, fsimp, h1, h2, h3]
  refine ⟨⟨⟨?_, Real.sqrt_pos.2 ?_⟩, by split <;> trivial⟩, this⟩ <;> push_cast <;> positivity

theorem pgaRef_eq {tbl : List Row} {r : Row} (hr : tbl.head? = some r) (m d : F) (mech : Mech) :
    pgaRef tbl m d mech = F.exp (lnRef r m d mech) := by
  cases tbl with
  | nil => simp at hr
  | cons a l => simp at hr; subst hr; simp [pgaRef]

/-- the site term as a function of the logarithm of the reference acceleration, in a form
valid on both sides of 750 m/s -/
noncomputable def S (c : Row) (v x : ℝ) : ℝ :=
  c.b_1 * Real.log (min v 1000 / 750) + c.b_2 *
    (Real.log (Real.exp x + 2.5 * (min v 750 / 750) ^ (3.2 : ℝ)) - Real.log (Real.exp x + 2.5) -
      3.2 * Real.log (min v 750 / 750))

theorem site_val {tbl : List Row} (ht : tbl ∈ tables) {c : Row} (hc : c ∈ tbl) {v : ℝ} (hv : 0 < v)
    (y : F) : (site c (F.ofReal v) (F.exp y)).val = S c v y.val := by
  obtain ⟨-, -, -, h4, h5, h6, -⟩ := row_facts tbl ht c hc
  simp only [site, fsimp, h4, h5, h6, S]
  push_cast
  by_cases h : v ≤ 750
  · rw [if_pos h, min_eq_left h, min_eq_left (by linarith)]
    have hq : 0 < v / 750 := by positivity
    have hq' := Real.rpow_pos_of_pos hq 3.2
    have he := Real.exp_pos y.val
    rw [Real.log_div (x := _ + _) (by positivity) (by positivity),
      Real.log_mul (by positivity) (by positivity), Real.log_rpow hq]
    ring
  · rw [if_neg h, min_eq_right (not_le.1 h).le]
    norm_num

theorem site_ok {tbl : List Row} (ht : tbl ∈ tables) {c : Row} (hc : c ∈ tbl) {v : ℝ} (hv : 0 < v)
    {y : F} (hy : y.ok) : (site c (F.ofReal v) (F.exp y)).ok := by
  obtain ⟨-, -, -, h4, h5, h6, -⟩ := row_facts tbl ht c hc
  simp only [site, fsimp, h4, h5, h6]
  have hq : 0 < v / 750 := by positivity
  have hq' := Real.rpow_pos_of_pos hq ((3.2 : ℚ) : ℝ)
  have he := Real.exp_pos y.val
  have e : (0 : ℝ) < ((2.5 : ℚ) : ℝ) := by norm_num
  have hmin : 0 < min v ((1000 : ℚ) : ℝ) / 750 :=
    div_pos (lt_min hv (by norm_num)) (by norm_num)
  split
  · exact ⟨⟨by norm_num, hq⟩, ⟨⟨hy, ⟨by norm_num, Or.inl hq⟩⟩, ⟨hy, by norm_num, Or.inl hq⟩,
      by positivity⟩, by positivity⟩
  · exact ⟨by norm_num, hmin⟩

theorem S_change {tbl : List Row} (ht : tbl ∈ tables) {c : Row} (hc : c ∈ tbl) {v : ℝ} (hv : 0 < v)
    {x x' : ℝ} (h : x' ≤ x) : S c v x' - S c v x ≤ -c.b_2 * (x - x') := by
  obtain ⟨-, -, -, -, -, -, -, hb, -⟩ := row_facts tbl ht c hc
  have hb' : (c.b_2 : ℝ) < 0 := by exact_mod_cast hb
  have hk : (0 : ℝ) ≤ 2.5 * (min v 750 / 750) ^ (3.2 : ℝ) := by
    have : 0 < min v 750 / 750 := div_pos (lt_min hv (by norm_num)) (by norm_num)
    have := Real.rpow_pos_of_pos this (3.2 : ℝ)
    positivity
  obtain ⟨-, h1⟩ := log_exp_add h hk
  obtain ⟨h2, -⟩ := log_exp_add h (by norm_num : (0 : ℝ) ≤ 2.5)
  simp only [S]
  nlinarith

end AKB14

/-- AKB14 is defined at all 64 rows for every magnitude, every distance (also negative ones),
positive v_s30 and mechanism, with positive standard deviations. -/
theorem C61_defined (s : Scenario) (m v : ℝ) (t : String) (a b c : Option ℝ) (hv0 : 0 < v)
    (hsome : a.isSome ∨ b.isSome ∨ c.isSome)
    (hm : s.get "mag" = .num m) (hv : s.get "v_s30" = .num v) (ht : s.get "mechanism" = .str t)
    (ha : s.get "dist_jb" = Val.ofOpt a) (hb : s.get "dist_hyp" = Val.ofOpt b)
    (hc : s.get "dist_epi" = Val.ofOpt c) :
    ∃ o ss, Gives AKB14.cls s o ∧ o.lnStd = some ss ∧ o.lnResp.length = 64 ∧ ss.length = 64 ∧
      (∀ y ∈ o.lnResp, y.ok) ∧ F.AllPos ss := by
  obtain ⟨p, hp⟩ : ∃ p, AKB14.spec a b c = some p := by
    cases a <;> cases b <;> cases c <;> simp_all [AKB14.spec]
  have htab := AKB14.spec_table hp
  obtain ⟨hl, r, hr⟩ := AKB14.head_facts _ htab
  refine ⟨_, _, AKB14.gives s hm hv ht ha hb hc hp, rfl, by simp [AKB14.out, hl], by simp [hl], ?_, ?_⟩
  · intro y hy
    simp only [AKB14.out, List.mem_map] at hy
    obtain ⟨c, hc, rfl⟩ := hy
    have hrm : r ∈ p.2 := List.mem_of_mem_head? hr
    rw [AKB14.pgaRef_eq hr]
    exact ⟨AKB14.lnRef_ok htab hc .., AKB14.site_ok htab hc hv0 (AKB14.lnRef_ok htab hrm ..)⟩
  · intro y hy
    simp only [List.mem_map] at hy
    obtain ⟨c, hc, rfl⟩ := hy
    have := AKB14.sd_facts _ htab c hc
    simp only [fsimp]
    exact_mod_cast this

namespace AKB14

theorem attenuates {tbl : List Row} (ht : tbl ∈ tables) {m d d' v : ℝ} (mech : Mech)
    (hm : m ≤ 8.5) (hd : 0 ≤ d) (hdd : d < d') (hv : 0 < v) :
    List.Forall₂ F.Drops (out tbl (F.ofReal m) (F.ofReal d) (F.ofReal v) mech).lnResp
      (out tbl (F.ofReal m) (F.ofReal d') (F.ofReal v) mech).lnResp := by
  obtain ⟨-, r, hr⟩ := head_facts _ ht
  have hrm : r ∈ tbl := List.mem_of_mem_head? hr
  simp only [out]
  refine forall₂_map fun c hc => ⟨?_, ?_, ?_⟩
  · rw [pgaRef_eq hr]; exact ⟨lnRef_ok ht hc .., site_ok ht hc hv (lnRef_ok ht hrm ..)⟩
  · rw [pgaRef_eq hr]; exact ⟨lnRef_ok ht hc .., site_ok ht hc hv (lnRef_ok ht hrm ..)⟩
  · rw [pgaRef_eq hr, pgaRef_eq hr, F.val_add, F.val_add, site_val ht hc hv, site_val ht hc hv,
      lnRef_val ht hc, lnRef_val ht hc, lnRef_val ht hrm, lnRef_val ht hrm]
    have hL := L_mono hd hdd
    obtain ⟨-, -, -, -, -, -, hb1, hb2, -, hf⟩ := row_facts tbl ht c hc
    obtain ⟨-, -, -, -, -, -, -, -, hr4, -⟩ := row_facts tbl ht r hrm
    have hf := hf r hr
    have hb1' : (-1 : ℝ) < c.b_2 := by exact_mod_cast hb1
    have hb2' : (c.b_2 : ℝ) < 0 := by exact_mod_cast hb2
    have hr4' : ((r.a_4 + 0.2529 * 1.75 : ℚ) : ℝ) < 0 := by exact_mod_cast hr4
    have hf' : ((c.a_4 + 0.2529 * 1.75 + c.b_2 * (r.a_4 + 0.2529 * 1.75) : ℚ) : ℝ) < 0 := by
      exact_mod_cast hf
    push_cast at hr4' hf'
    have hle : A r m mech + (r.a_4 + 0.2529 * (m - 6.75)) * L d' ≤
        A r m mech + (r.a_4 + 0.2529 * (m - 6.75)) * L d := by
      have : (r.a_4 : ℝ) + 0.2529 * (m - 6.75) < 0 := by linarith
      nlinarith
    have hs := S_change ht hc hv hle
    have hslope : (c.a_4 : ℝ) + 0.2529 * (m - 6.75) +
        c.b_2 * (r.a_4 + 0.2529 * (m - 6.75)) < 0 := by nlinarith
    nlinarith [mul_pos_of_neg_of_neg hslope (sub_neg.2 hL)]

end AKB14

/-- The accelerations (and PGV) strictly decrease with the distance of whichever metric is
used: the Joyner-Boore distance, ... -/
theorem C61_attenuates_jb (s s' : Scenario) (m v d d' : ℝ) (t : String) (b c b' c' : Option ℝ)
    (hmag : m ≤ 8.5) (hd : 0 ≤ d) (hdd : d < d') (hv0 : 0 < v)
    (hm : s.get "mag" = .num m) (hv : s.get "v_s30" = .num v) (ht : s.get "mechanism" = .str t)
    (ha : s.get "dist_jb" = .num d) (hb : s.get "dist_hyp" = Val.ofOpt b)
    (hc : s.get "dist_epi" = Val.ofOpt c)
    (hm' : s'.get "mag" = .num m) (hv' : s'.get "v_s30" = .num v)
    (ht' : s'.get "mechanism" = .str t) (ha' : s'.get "dist_jb" = .num d')
    (hb' : s'.get "dist_hyp" = Val.ofOpt b') (hc' : s'.get "dist_epi" = Val.ofOpt c') :
    ∃ o o', Gives AKB14.cls s o ∧ Gives AKB14.cls s' o' ∧
      List.Forall₂ F.Drops o.lnResp o'.lnResp :=
  ⟨_, _, AKB14.gives (a := some d) s hm hv ht ha hb hc rfl,
    AKB14.gives (a := some d') s' hm' hv' ht' ha' hb' hc' rfl,
    AKB14.attenuates (by simp [AKB14.tables]) _ hmag hd hdd hv0⟩

/-- ... the hypocentral distance, ... -/
theorem C61_attenuates_hyp (s s' : Scenario) (m v d d' : ℝ) (t : String) (c c' : Option ℝ)
    (hmag : m ≤ 8.5) (hd : 0 ≤ d) (hdd : d < d') (hv0 : 0 < v)
    (hm : s.get "mag" = .num m) (hv : s.get "v_s30" = .num v) (ht : s.get "mechanism" = .str t)
    (ha : s.get "dist_jb" = .none) (hb : s.get "dist_hyp" = .num d)
    (hc : s.get "dist_epi" = Val.ofOpt c)
    (hm' : s'.get "mag" = .num m) (hv' : s'.get "v_s30" = .num v)
    (ht' : s'.get "mechanism" = .str t) (ha' : s'.get "dist_jb" = .none)
    (hb' : s'.get "dist_hyp" = .num d') (hc' : s'.get "dist_epi" = Val.ofOpt c') :
    ∃ o o', Gives AKB14.cls s o ∧ Gives AKB14.cls s' o' ∧
      List.Forall₂ F.Drops o.lnResp o'.lnResp :=
  ⟨_, _, AKB14.gives (a := none) (b := some d) s hm hv ht ha hb hc rfl,
    AKB14.gives (a := none) (b := some d') s' hm' hv' ht' ha' hb' hc' rfl,
    AKB14.attenuates (by simp [AKB14.tables]) _ hmag hd hdd hv0⟩

/-- ... and the epicentral distance. -/
theorem C61_attenuates_epi (s s' : Scenario) (m v d d' : ℝ) (t : String)
    (hmag : m ≤ 8.5) (hd : 0 ≤ d) (hdd : d < d') (hv0 : 0 < v)
    (hm : s.get "mag" = .num m) (hv : s.get "v_s30" = .num v) (ht : s.get "mechanism" = .str t)
    (ha : s.get "dist_jb" = .none) (hb : s.get "dist_hyp" = .none)
    (hc : s.get "dist_epi" = .num d)
    (hm' : s'.get "mag" = .num m) (hv' : s'.get "v_s30" = .num v)
    (ht' : s'.get "mechanism" = .str t) (ha' : s'.get "dist_jb" = .none)
    (hb' : s'.get "dist_hyp" = .none) (hc' : s'.get "dist_epi" = .num d') :
    ∃ o o', Gives AKB14.cls s o ∧ Gives AKB14.cls s' o' ∧
      List.Forall₂ F.Drops o.lnResp o'.lnResp :=
  ⟨_, _, AKB14.gives (a := none) (b := none) (c := some d) s hm hv ht ha hb hc rfl,
    AKB14.gives (a := none) (b := none) (c := some d') s' hm' hv' ht' ha' hb' hc' rfl,
    AKB14.attenuates (by simp [AKB14.tables]) _ hmag hd hdd hv0⟩

namespace AKB14

theorem A_cont (c : Row) (mech : Mech) : Continuous fun m => A c m mech := by
  unfold A; fun_prop

theorem S_cont (c : Row) : ContinuousOn (fun q : ℝ × ℝ => S c q.1 q.2) (Set.Ioi 0 ×ˢ Set.univ) := by
  have h1 : ∀ q ∈ Set.Ioi (0 : ℝ) ×ˢ (Set.univ : Set ℝ), 0 < min q.1 750 / 750 := fun q hq =>
    div_pos (lt_min hq.1 (by norm_num)) (by norm_num)
  have h2 : ∀ q ∈ Set.Ioi (0 : ℝ) ×ˢ (Set.univ : Set ℝ), 0 < min q.1 1000 / 750 := fun q hq =>
    div_pos (lt_min hq.1 (by norm_num)) (by norm_num)
  have c1 : ContinuousOn (fun q : ℝ × ℝ => min q.1 750 / 750) (Set.Ioi 0 ×ˢ Set.univ) := by fun_prop
  have c2 : ContinuousOn (fun q : ℝ × ℝ => min q.1 1000 / 750) (Set.Ioi 0 ×ˢ Set.univ) := by fun_prop
  have c3 : ContinuousOn (fun q : ℝ × ℝ => Real.exp q.2) (Set.Ioi 0 ×ˢ Set.univ) := by fun_prop
  have c4 : ContinuousOn (fun q : ℝ × ℝ => (min q.1 750 / 750) ^ (3.2 : ℝ)) (Set.Ioi 0 ×ˢ Set.univ) :=
    c1.rpow continuousOn_const fun q hq => Or.inl (h1 q hq).ne'
  unfold S
  refine (continuousOn_const.mul (c2.log fun q hq => (h2 q hq).ne')).add
    (continuousOn_const.mul (((ContinuousOn.log (c3.add (continuousOn_const.mul c4)) ?_).sub
      (ContinuousOn.log (c3.add continuousOn_const) ?_)).sub
      (continuousOn_const.mul (c1.log fun q hq => (h1 q hq).ne'))))
  · intro q hq
    have := Real.rpow_pos_of_pos (h1 q hq) (3.2 : ℝ)
    have := Real.exp_pos q.2
    show Real.exp q.2 + 2.5 * (min q.1 750 / 750) ^ (3.2 : ℝ) ≠ 0
    positivity
  · intro q hq
    have := Real.exp_pos q.2
    show Real.exp q.2 + 2.5 ≠ 0
    positivity

theorem resp_val {tbl : List Row} (ht : tbl ∈ tables) {r : Row} (hr : tbl.head? = some r) {i : ℕ}
    (hi : i < tbl.length) (m d : ℝ) {v : ℝ} (hv : 0 < v) (mech : Mech) :
    ((out tbl (F.ofReal m) (F.ofReal d) (F.ofReal v) mech).lnResp.getD i F.nan).val =
      A tbl[i] m mech + (tbl[i].a_4 + 0.2529 * (m - 6.75)) * L d +
      S tbl[i] v (A r m mech + (r.a_4 + 0.2529 * (m - 6.75)) * L d) := by
  have hc : tbl[i] ∈ tbl := List.getElem_mem hi
  simp only [out, List.getD_eq_getElem?_getD, List.getElem?_map, List.getElem?_eq_getElem hi,
    Option.map_some, Option.getD_some]
  rw [pgaRef_eq hr, F.val_add, site_val ht hc hv, lnRef_val ht hc,
    lnRef_val ht (List.mem_of_mem_head? hr)]

end AKB14

/-- Predictions are continuous in magnitude (at every magnitude, 6.75 included), ... -/
theorem C61_continuous_mag (S : ℝ → Scenario) (v : ℝ) (t : String) (a b c : Option ℝ) (hv0 : 0 < v)
    (hsome : a.isSome ∨ b.isSome ∨ c.isSome)
    (hm : ∀ m, (S m).get "mag" = .num m) (hv : ∀ m, (S m).get "v_s30" = .num v)
    (ht : ∀ m, (S m).get "mechanism" = .str t)
    (ha : ∀ m, (S m).get "dist_jb" = Val.ofOpt a) (hb : ∀ m, (S m).get "dist_hyp" = Val.ofOpt b)
    (hc : ∀ m, (S m).get "dist_epi" = Val.ofOpt c) :
    ∃ O : ℝ → GmmOut, (∀ m, Gives AKB14.cls (S m) (O m)) ∧
      ∀ i < 64, Continuous fun m => ((O m).lnResp.getD i F.nan).val := by
  obtain ⟨p, hp⟩ : ∃ p, AKB14.spec a b c = some p := by
    cases a <;> cases b <;> cases c <;> simp_all [AKB14.spec]
  have htab := AKB14.spec_table hp
  obtain ⟨hl, r, hr⟩ := AKB14.head_facts _ htab
  refine ⟨_, fun m => AKB14.gives (S m) (hm m) (hv m) (ht m) (ha m) (hb m) (hc m) hp, ?_⟩
  intro i hi
  have hi' : i < p.2.length := by omega
  simp only [AKB14.resp_val htab hr hi' _ _ hv0]
  have c1 := AKB14.A_cont p.2[i] (AKB14.mechFor t)
  have c2 := AKB14.A_cont r (AKB14.mechFor t)
  refine Continuous.add (by fun_prop) ?_
  have hS := AKB14.S_cont p.2[i]
  have := hS.comp_continuous (f := fun m : ℝ => (v, AKB14.A r m (AKB14.mechFor t) +
    (r.a_4 + 0.2529 * (m - 6.75)) * AKB14.L p.1)) (by fun_prop) (fun m => ⟨hv0, trivial⟩)
  exact this

/-- ... and in v_s30 (at every positive velocity, 750 and 1000 m/s included). -/
theorem C61_continuous_vs30 (S : ℝ → Scenario) (m : ℝ) (t : String) (a b c : Option ℝ)
    (hsome : a.isSome ∨ b.isSome ∨ c.isSome)
    (hm : ∀ v, (S v).get "mag" = .num m) (hv : ∀ v, (S v).get "v_s30" = .num v)
    (ht : ∀ v, (S v).get "mechanism" = .str t)
    (ha : ∀ v, (S v).get "dist_jb" = Val.ofOpt a) (hb : ∀ v, (S v).get "dist_hyp" = Val.ofOpt b)
    (hc : ∀ v, (S v).get "dist_epi" = Val.ofOpt c) :
    ∃ O : ℝ → GmmOut, (∀ v, Gives AKB14.cls (S v) (O v)) ∧
      ∀ i < 64, ContinuousOn (fun v => ((O v).lnResp.getD i F.nan).val) (Set.Ioi 0) := by
  obtain ⟨p, hp⟩ : ∃ p, AKB14.spec a b c = some p := by
    cases a <;> cases b <;> cases c <;> simp_all [AKB14.spec]
  have htab := AKB14.spec_table hp
  obtain ⟨hl, r, hr⟩ := AKB14.head_facts _ htab
  refine ⟨_, fun v => AKB14.gives (S v) (hm v) (hv v) (ht v) (ha v) (hb v) (hc v) hp, ?_⟩
  intro i hi
  have hi' : i < p.2.length := by omega
  refine ContinuousOn.congr ?_ fun v hv => AKB14.resp_val htab hr hi' m p.1 hv (AKB14.mechFor t)
  refine ContinuousOn.add continuousOn_const ?_
  have hS := AKB14.S_cont p.2[i]
  exact hS.comp (f := fun v : ℝ => (v, AKB14.A r m (AKB14.mechFor t) +
    (r.a_4 + 0.2529 * (m - 6.75)) * AKB14.L p.1)) (by fun_prop) (fun v hv => ⟨hv, trivial⟩)

example : (AKB14.cls.new ⟨[("mag", .num 6), ("v_s30", .num 500), ("mechanism", .str "SS")], []⟩).res =
    .error .notImplemented :=
  C23_no_distance _ 6 500 "SS" (by simp [Scenario.get, Dict.get?]) (by simp [Scenario.get, Dict.get?])
    (by simp [Scenario.get, Dict.get?]) (by simp [Scenario.get, Dict.get?])
    (by simp [Scenario.get, Dict.get?]) (by simp [Scenario.get, Dict.get?])
example : ∃ o, Gives AKB14.cls ⟨[("mag", .num 6), ("v_s30", .num 500), ("mechanism", .str "SS"),
      ("dist_jb", .num 20), ("dist_hyp", .num 5)], []⟩ o ∧
    Gives AKB14.cls ⟨[("mag", .num 6), ("v_s30", .num 500), ("mechanism", .str "SS"),
      ("dist_jb", .num 20), ("dist_epi", .num 33)], []⟩ o ∧
      o.lnStd = some (AKB14.jb.map fun r => (r.sd_total : F)) :=
  C23_joyner_boore_first _ _ 6 500 20 "SS" (some 5) none none (some 33)
    (by simp [Scenario.get, Dict.get?]) (by simp [Scenario.get, Dict.get?])
    (by simp [Scenario.get, Dict.get?]) (by simp [Scenario.get, Dict.get?])
    (by simp [Scenario.get, Dict.get?, Val.ofOpt]) (by simp [Scenario.get, Dict.get?, Val.ofOpt])
    (by simp [Scenario.get, Dict.get?]) (by simp [Scenario.get, Dict.get?])
    (by simp [Scenario.get, Dict.get?]) (by simp [Scenario.get, Dict.get?])
    (by simp [Scenario.get, Dict.get?, Val.ofOpt]) (by simp [Scenario.get, Dict.get?, Val.ofOpt])
example : ∃ o o', Gives AKB14.cls ⟨[("mag", .num 8), ("v_s30", .num 200), ("mechanism", .str "NS"),
      ("dist_hyp", .num 20)], []⟩ o ∧
    Gives AKB14.cls ⟨[("mag", .num 8), ("v_s30", .num 200), ("mechanism", .str "NS"),
      ("dist_hyp", .num 21)], []⟩ o' ∧ List.Forall₂ F.Drops o.lnResp o'.lnResp :=
  C61_attenuates_hyp _ _ 8 200 20 21 "NS" none none (by norm_num) (by norm_num) (by norm_num)
    (by norm_num) (by simp [Scenario.get, Dict.get?]) (by simp [Scenario.get, Dict.get?])
    (by simp [Scenario.get, Dict.get?]) (by simp [Scenario.get, Dict.get?])
    (by simp [Scenario.get, Dict.get?]) (by simp [Scenario.get, Dict.get?, Val.ofOpt])
    (by simp [Scenario.get, Dict.get?]) (by simp [Scenario.get, Dict.get?])
    (by simp [Scenario.get, Dict.get?]) (by simp [Scenario.get, Dict.get?])
    (by simp [Scenario.get, Dict.get?]) (by simp [Scenario.get, Dict.get?, Val.ofOpt])
