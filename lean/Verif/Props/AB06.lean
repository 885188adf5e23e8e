import Verif.Models.AB06
import Verif.Bounds
import Mathlib.Analysis.SpecialFunctions.Log.Base

/-! # C21, C22: Atkinson & Boore (2006) -/

open Bounds Filter Topology

set_option linter.unusedSimpArgs false

namespace AB06

/-- the published reference equation, log10 of cm/s² -/
noncomputable def specRef (c : Row) (m R : ℝ) : ℝ :=
  c.c_1 + c.c_2 * m + c.c_3 * m ^ 2 + (c.c_4 + c.c_5 * m) * min (Real.logb 10 R) (Real.logb 10 70) +
    (c.c_6 + c.c_7 * m) * max (Real.logb 10 (R / 140)) 0 +
    (c.c_8 + c.c_9 * m) * max (Real.logb 10 (10 / R)) 0 + c.c_10 * R

/-- the stress correction of one row of its table -/
noncomputable def specStress (c : SfRow) (m : ℝ) : ℝ :=
  min 2 ((10 : ℝ) ^ (3.45 - 0.2 * m) / 140) *
    min ((c.delta : ℝ) + 0.05) (0.05 + c.delta * max (m - c.m_1) 0 / (c.m_h - c.m_1))

/-- reference plus stress correction at the row's period, natural log of g -/
noncomputable def specLnRef (c : Row) (m R : ℝ) : ℝ :=
  Real.log 10 * (specRef c m R + interpR (sf.map fun q => ((q.period : ℝ), specStress q m)) c.period -
    Real.logb 10 980.665)

/-- peak acceleration on B/C, cm/s²: the reference equation of the PGA row -/
noncomputable def specPga (m R : ℝ) : ℝ :=
  (980.665 : ℝ) * Real.exp (specLnRef (bc[2]'(by decide)) m R)

/-- the nonlinear slope as the code has it -/
noncomputable def specBnl (c : SiteRow) (v : ℝ) : ℝ :=
  if v ≤ 180 then c.b_1
  else if v ≤ 300 then (c.b_1 - c.b_2) * Real.log (v / 300) / Real.log (180 / 300)
  else if v ≤ 760 then c.b_2 * Real.log (v / 760) / Real.log (300 / 760)
  else 0

theorem periods_agree : bc.map (·.period) = rock.map (·.period) := by decide +kernel

theorem sf_facts : (sf.map (·.period)).Pairwise (· < ·) ∧ ∀ c ∈ sf, c.m_1 < c.m_h := by
  decide +kernel
theorem site_sorted : (site.map (·.period)).Pairwise (· < ·) := by decide +kernel

theorem nodes_sorted {α β : Type} {l : List α} {f : α → ℚ} (h : (l.map f).Pairwise (· < ·)) (g : α → β) :
    Interp.Sorted (l.map fun c => ((f c : ℝ), g c)) := by
  rw [List.pairwise_map] at h
  unfold Interp.Sorted
  rw [List.pairwise_map]
  exact h.imp fun {a b} h => show (f a : ℝ) < f b by exact_mod_cast h

theorem stressNode_ok {c : SfRow} (hc : c ∈ sf) (m : ℝ) : (stressNode c (F.ofReal m)).ok := by
  have h := sf_facts.2 c hc
  have h' : (c.m_1 : ℝ) < c.m_h := by exact_mod_cast h
  simp only [stressNode, fsimp]
  exact ⟨⟨by norm_num, by norm_num⟩, by linarith⟩

theorem stressFactor_val (T : ℚ) (m : ℝ) : (stressFactor T (F.ofReal m)).val =
    interpR (sf.map fun q => ((q.period : ℝ), specStress q m)) T := by
  unfold stressFactor
  rw [Interp.val_eq, List.map_map]
  congr 1
  apply List.map_congr_left
  intro c _
  simp only [Function.comp, stressNode, fsimp, specStress]

theorem stressFactor_ok (T : ℚ) (m : ℝ) : (stressFactor T (F.ofReal m)).ok := by
  apply Interp.ok_of _ _ (nodes_sorted sf_facts.1 _) (by simp [sf])
  intro p hp
  obtain ⟨c, hc, rfl⟩ := List.mem_map.1 hp
  exact stressNode_ok hc m

theorem log10Base_ok (c : Row) (m : ℝ) {R : ℝ} (hR : 0 < R) :
    (log10Base c (F.ofReal m) (F.ofReal R)).ok := by
  have := stressFactor_ok c.period m
  have h1 : 0 < 10 / R := by positivity
  have h2 : 0 < R / 140 := by positivity
  simp only [log10Base, log10Ref, fsimp]
  simp [this, hR, h1, h2, hR.ne']

theorem log10Base_val (c : Row) (m R : ℝ) : (log10Base c (F.ofReal m) (F.ofReal R)).val =
    specRef c m R + interpR (sf.map fun q => ((q.period : ℝ), specStress q m)) c.period := by
  simp only [log10Base, F.val_add, stressFactor_val, log10Ref, specRef, fsimp]

theorem toLn_val (y : F) : (toLn y).val = Real.log 10 * (y.val - Real.logb 10 980.665) := by
  simp only [toLn, fsimp]
  rw [Real.log_rpow (by norm_num)]; ring

theorem toLn_ok {y : F} (h : y.ok) : (toLn y).ok := by
  simp only [toLn, fsimp]
  refine ⟨⟨⟨h, ?_⟩, ?_⟩, ?_⟩
  · norm_num
  · left; norm_num
  · apply Real.rpow_pos_of_pos; norm_num

theorem pgaBc_val (m R : ℝ) : (pgaBc (F.ofReal m) (F.ofReal R)).val =
    (specPga m R) := by
  have e : (bc.map fun c => log10Base c (F.ofReal m) (F.ofReal R)).getD 2 F.nan =
      log10Base (bc[2]'(by decide)) (F.ofReal m) (F.ofReal R) := rfl
  simp only [pgaBc, e, F.val_rpow, F.val_ofNat, log10Base_val, specPga, specLnRef]
  set x := specRef _ m R + _
  rw [mul_sub, Real.exp_sub]
  have h1 : Real.log 10 * Real.logb 10 980.665 = Real.log 980.665 := by
    rw [Real.logb]; field_simp
  rw [h1, Real.exp_log (by norm_num), Real.rpow_def_of_pos (by norm_num)]
  push_cast
  field_simp

theorem pgaBc_ok (m : ℝ) {R : ℝ} (hR : 0 < R) : (pgaBc (F.ofReal m) (F.ofReal R)).ok := by
  have e : (bc.map fun c => log10Base c (F.ofReal m) (F.ofReal R)).getD 2 F.nan =
      log10Base (bc[2]'(by decide)) (F.ofReal m) (F.ofReal R) := rfl
  simp only [pgaBc, e, fsimp]
  exact ⟨log10Base_ok _ m hR, Or.inl (by norm_num)⟩

theorem bNl_val (c : SiteRow) (v : ℝ) : (bNl c (F.ofReal v)).val = specBnl c v := by
  simp only [bNl, fsimp, specBnl]

theorem bNl_ok (c : SiteRow) {v : ℝ} (hv : 0 < v) : (bNl c (F.ofReal v)).ok := by
  have h1 : 0 < v / 300 := by positivity
  have h2 : 0 < v / 760 := by positivity
  have h3 : Real.log (180 / 300) ≠ 0 := (Real.log_neg (by norm_num) (by norm_num)).ne
  have h4 : Real.log (300 / 760) ≠ 0 := (Real.log_neg (by norm_num) (by norm_num)).ne
  simp only [bNl, fsimp]
  split
  · trivial
  · split
    · exact ⟨⟨by norm_num, h1⟩, ⟨by norm_num, by norm_num⟩, h3⟩
    · split
      · exact ⟨⟨by norm_num, h2⟩, ⟨by norm_num, by norm_num⟩, h4⟩
      · trivial

/-- the site term of one row of its table, natural log, `p` the peak acceleration on B/C -/
noncomputable def specSite (c : SiteRow) (v p : ℝ) : ℝ :=
  c.b_lin * Real.log (v / 760) + specBnl c v * Real.log (max p 60 / 100)

theorem log10Site_val (T : ℚ) (v : ℝ) (p : F) : Real.log 10 * (log10Site T (F.ofReal v) p).val =
    interpR (site.map fun c => ((c.period : ℝ), specSite c v p.val)) T := by
  unfold log10Site
  rw [Interp.val_eq, List.map_map, ← Interp.smul]
  congr 1
  apply List.map_congr_left
  intro c _
  simp only [Function.comp, siteNode, F.val_log10, F.val_exp, F.val_add, F.val_mul, bNl_val, fsimp, specSite]
  rw [Real.logb, Real.log_exp]
  have : Real.log 10 ≠ 0 := (Real.log_pos (by norm_num)).ne'
  field_simp

theorem log10Site_ok (T : ℚ) {v : ℝ} {p : F} (hv : 0 < v) (hp : p.ok) :
    (log10Site T (F.ofReal v) p).ok := by
  apply Interp.ok_of _ _ (nodes_sorted site_sorted _) (by simp [site])
  intro q hq
  obtain ⟨c, hc, rfl⟩ := List.mem_map.1 hq
  have h2 : 0 < v / 760 := by positivity
  have h3 : 0 < max p.val 60 / 100 := div_pos (lt_max_of_lt_right (by norm_num)) (by norm_num)
  have := bNl_ok c hv
  simp only [siteNode, fsimp]
  exact ⟨⟨⟨by norm_num, h2⟩, this, ⟨hp, by norm_num⟩, h3⟩, Real.exp_pos _⟩

end AB06

open AB06 in
/-- v_s30 = 0 asks for rock: all 27 predictions are the reference equation with the rock
coefficients, without site term. -/
theorem C21_rock (s : Scenario) (m R : ℝ) (hR : 0 < R) (hm : s.get "mag" = .num m)
    (hr : s.get "dist_rup" = .num R) (hv : s.get "v_s30" = .num 0) :
    ∃ o, Gives cls s o ∧ List.Forall₂ (fun c (y : F) => y.ok ∧ y.val = specLnRef c m R)
      rock o.lnResp := by
  refine ⟨_, gives s hm hr hv, ?_⟩
  simp only [if_true, out]
  rw [List.forall₂_map_right_iff, List.forall₂_same]
  intro c _
  exact ⟨toLn_ok (log10Base_ok c m hR), by rw [toLn_val, log10Base_val]; rfl⟩

open AB06 in
/-- Any other (positive) v_s30, however small, uses the B/C coefficients and adds the site
term, interpolated in its own table of periods. -/
theorem C21_bc (s : Scenario) (m R v : ℝ) (hR : 0 < R) (hv0 : 0 < v) (hm : s.get "mag" = .num m)
    (hr : s.get "dist_rup" = .num R) (hv : s.get "v_s30" = .num v) :
    ∃ o, Gives cls s o ∧ List.Forall₂ (fun c (y : F) => y.ok ∧ y.val = specLnRef c m R +
        interpR (site.map fun q => ((q.period : ℝ), specSite q v
          (specPga m R))) c.period)
      bc o.lnResp := by
  refine ⟨_, gives s hm hr hv, ?_⟩
  simp only [if_neg hv0.ne', out]
  rw [List.forall₂_map_right_iff, List.forall₂_same]
  intro c _
  refine ⟨toLn_ok ⟨log10Base_ok c m hR, log10Site_ok _ hv0 (pgaBc_ok m hR)⟩, ?_⟩
  rw [toLn_val, F.val_add, log10Base_val, ← pgaBc_val, ← log10Site_val, specLnRef]
  ring

open AB06 in
/-- The B/C and rock coefficients differ at every row, so the choice shows; and at the
reference velocity 760 m/s the site term vanishes. -/
theorem C21_760 (s : Scenario) (m R : ℝ) (hR : 0 < R) (hm : s.get "mag" = .num m)
    (hr : s.get "dist_rup" = .num R) (hv : s.get "v_s30" = .num 760) :
    (List.Forall₂ (fun a b : Row => a.period = b.period ∧ a.c_1 ≠ b.c_1) bc rock) ∧
    ∃ o, Gives cls s o ∧ List.Forall₂ (fun c (y : F) => y.ok ∧ y.val = specLnRef c m R)
      bc o.lnResp := by
  constructor
  · decide +kernel
  obtain ⟨o, ho, h⟩ := C21_bc s m R 760 hR (by norm_num) hm hr hv
  refine ⟨o, ho, h.imp ?_⟩
  rintro c y ⟨h1, h2⟩
  refine ⟨h1, ?_⟩
  rw [h2]
  have : (site.map fun q => ((q.period : ℝ), specSite q 760
      (specPga m R))) =
      site.map fun q => ((q.period : ℝ), 0 * (0 : ℝ)) := by
    apply List.map_congr_left
    intro q _
    simp [specSite, specBnl]
    norm_num
  rw [this, Interp.smul _ (fun _ => (0 : ℝ))]
  simp

/-- v_s30 = None is refused with ValueError when magnitude and distance are numbers. -/
theorem C21_none (s : Scenario) (m R : ℝ) (hm : s.get "mag" = .num m)
    (hr : s.get "dist_rup" = .num R) (hv : s.get "v_s30" = .none) :
    (AB06.cls.new s).res = .error (.valueError "v_s30") := by
  have hok : ParamsOk AB06.cls.params := by change ParamsOk Decls.ab06; decide +kernel
  have hmem : numP "v_s30" true ∈ AB06.cls.params := by change _ ∈ Decls.ab06; mem_tac
  obtain ⟨pre, q, post, h1, h2, h3⟩ := C05_missing_required_fails AB06.cls hok s _ hmem rfl hv
  have hlist : AB06.cls.params = [numP "mag" true, numP "dist_rup" true, numP "v_s30" true] := rfl
  rw [hlist] at h1
  have notbad : ∀ {name : String} {x : ℝ}, s.get name = .num x → q = numP name true → False := by
    intro name x hx hq
    subst hq
    have : s.get (numP name true).name = .num x := hx
    rw [this] at h3
    rcases h3 with ⟨a, -, -⟩ | ⟨a, -⟩
    · simp at a
    · simp [Spec.CannotCompare] at a
  match pre, h1, h2 with
  | [], h1, _ => simp at h1; exact (notbad hm h1.1.symm).elim
  | [_], h1, _ => simp at h1; exact (notbad hr h1.2.1.symm).elim
  | [_, _], h1, _ =>
    simp at h1
    obtain ⟨-, -, rfl, -⟩ := h1
    rcases h3 with ⟨-, -, h⟩ | ⟨h, -⟩
    · exact h
    · exact absurd h (by
        have : s.get (numP "v_s30" true).name = .none := hv
        rw [this]; simp [Spec.CannotCompare, numP])
  | _ :: _ :: x :: pre, h1, h2 =>
    simp at h1

namespace AB06

/-- one-sided behaviour of the slope -/
theorem bnl_left_180 (c : SiteRow) : Tendsto (specBnl c) (𝓝[<] 180) (𝓝 c.b_1) :=
  tendsto_left (g := fun _ => (c.b_1 : ℝ)) continuousAt_const fun x hx => by
    simp only [specBnl, if_pos hx.le]

theorem bnl_right_180 (c : SiteRow) : Tendsto (specBnl c) (𝓝[>] 180) (𝓝 (c.b_1 - c.b_2)) := by
  have h3 : Real.log (180 / 300) ≠ 0 := (Real.log_neg (by norm_num) (by norm_num)).ne
  have hg : ContinuousAt (fun v : ℝ => (c.b_1 - c.b_2 : ℝ) * Real.log (v / 300) / Real.log (180 / 300)) 180 := by
    apply ContinuousAt.div_const
    apply ContinuousAt.mul continuousAt_const
    exact (by fun_prop : ContinuousAt (fun v : ℝ => v / 300) 180).log (by norm_num)
  have := hg.tendsto.mono_left (nhdsWithin_le_nhds (s := Set.Ioi 180))
  have e : (c.b_1 - c.b_2 : ℝ) * Real.log (180 / 300) / Real.log (180 / 300) = c.b_1 - c.b_2 := by
    field_simp
  rw [e] at this
  refine this.congr' ?_
  filter_upwards [Ioo_mem_nhdsGT (show (180 : ℝ) < 300 by norm_num)] with x hx
  simp only [specBnl, if_neg (not_le.2 hx.1), if_pos hx.2.le]

theorem bnl_left_300 (c : SiteRow) : Tendsto (specBnl c) (𝓝[<] 300) (𝓝 0) := by
  have hg : ContinuousAt (fun v : ℝ => (c.b_1 - c.b_2 : ℝ) * Real.log (v / 300) / Real.log (180 / 300)) 300 := by
    apply ContinuousAt.div_const
    apply ContinuousAt.mul continuousAt_const
    exact (by fun_prop : ContinuousAt (fun v : ℝ => v / 300) 300).log (by norm_num)
  have := hg.tendsto.mono_left (nhdsWithin_le_nhds (s := Set.Iio 300))
  have e : (c.b_1 - c.b_2 : ℝ) * Real.log (300 / 300) / Real.log (180 / 300) = 0 := by
    simp
  rw [e] at this
  refine this.congr' ?_
  filter_upwards [Ioo_mem_nhdsLT (show (180 : ℝ) < 300 by norm_num)] with x hx
  simp only [specBnl, if_neg (not_le.2 hx.1), if_pos hx.2.le]

theorem bnl_right_300 (c : SiteRow) : Tendsto (specBnl c) (𝓝[>] 300) (𝓝 c.b_2) := by
  have h3 : Real.log (300 / 760) ≠ 0 := (Real.log_neg (by norm_num) (by norm_num)).ne
  have hg : ContinuousAt (fun v : ℝ => (c.b_2 : ℝ) * Real.log (v / 760) / Real.log (300 / 760)) 300 := by
    apply ContinuousAt.div_const
    apply ContinuousAt.mul continuousAt_const
    exact (by fun_prop : ContinuousAt (fun v : ℝ => v / 760) 300).log (by norm_num)
  have := hg.tendsto.mono_left (nhdsWithin_le_nhds (s := Set.Ioi 300))
  have e : (c.b_2 : ℝ) * Real.log (300 / 760) / Real.log (300 / 760) = c.b_2 := by
    field_simp
  rw [e] at this
  refine this.congr' ?_
  filter_upwards [Ioo_mem_nhdsGT (show (300 : ℝ) < 760 by norm_num)] with x hx
  simp only [specBnl, if_neg (not_le.2 (by linarith [hx.1] : (180 : ℝ) < x)),
    if_neg (not_le.2 hx.1), if_pos hx.2.le]

theorem bnl_760 (c : SiteRow) : ContinuousAt (specBnl c) 760 := by
  have h0 : specBnl c 760 = 0 := by simp only [specBnl]; norm_num
  have hg : ContinuousAt (fun v : ℝ => (c.b_2 : ℝ) * Real.log (min v 760 / 760) / Real.log (300 / 760)) 760 := by
    apply ContinuousAt.div_const
    apply ContinuousAt.mul continuousAt_const
    exact (by fun_prop : ContinuousAt (fun v : ℝ => min v 760 / 760) 760).log (by norm_num)
  refine hg.congr ?_
  filter_upwards [Ioi_mem_nhds (show (300 : ℝ) < 760 by norm_num)] with x hx
  have h1 : ¬ x ≤ 300 := not_le.2 hx
  have h2 : ¬ x ≤ 180 := by intro h; apply h1; linarith
  simp only [specBnl, if_neg h1, if_neg h2]
  by_cases h : x ≤ 760
  · rw [if_pos h, min_eq_left h]
  · rw [if_neg h, min_eq_right (not_le.1 h).le]; simp

/-- prediction `i` for a positive velocity, in closed form -/
theorem resp_val {i : ℕ} (hi : i < bc.length) (m R : ℝ) {v : ℝ} (hv : 0 < v) :
    ((out (F.ofReal m) (F.ofReal R) (if v = 0 then none else some (F.ofReal v))).lnResp.getD i F.nan).val =
      specLnRef bc[i] m R + interpR (site.map fun q => ((q.period : ℝ), specSite q v
          (specPga m R))) bc[i].period := by
  simp only [if_neg hv.ne', out, List.getD_eq_getElem?_getD, List.getElem?_map,
    List.getElem?_eq_getElem hi, Option.map_some, Option.getD_some]
  rw [toLn_val, F.val_add, log10Base_val, ← pgaBc_val, ← log10Site_val, specLnRef]
  ring

theorem resp_tendsto {i : ℕ} (hi : i < bc.length) (m R : ℝ) {l : Filter ℝ} {a : ℝ} (ha : 0 < a)
    (hl : l ≤ 𝓝 a) {B : SiteRow → ℝ} (hB : ∀ c, Tendsto (specBnl c) l (𝓝 (B c))) :
    Tendsto (fun v => ((out (F.ofReal m) (F.ofReal R)
      (if v = 0 then none else some (F.ofReal v))).lnResp.getD i F.nan).val) l
      (𝓝 (specLnRef bc[i] m R + interpR (site.map fun q => ((q.period : ℝ),
        q.b_lin * Real.log (a / 760) + B q * Real.log (max (specPga m R) 60 / 100))) bc[i].period)) := by
  have hpos : ∀ᶠ v in l, 0 < v := hl (lt_mem_nhds ha)
  refine Tendsto.congr' (f₁ := fun v => specLnRef bc[i] m R + interpR (site.map fun q =>
      ((q.period : ℝ), specSite q v (specPga m R)))
      bc[i].period) ?_ ?_
  · filter_upwards [hpos] with v hv
    rw [resp_val hi m R hv]
  · refine tendsto_const_nhds.add ?_
    apply Interp.tendsto (fun q : SiteRow => (q.period : ℝ))
    intro c _
    unfold specSite
    refine Tendsto.add (tendsto_const_nhds.mul ?_) ((hB c).mul_const _)
    have : ContinuousAt (fun v : ℝ => Real.log (v / 760)) a :=
      (by fun_prop : ContinuousAt (fun v : ℝ => v / 760) a).log (by positivity)
    exact this.tendsto.mono_left hl

/-- difference of two limits that differ in the slope only -/
theorem limit_diff (T : ℝ) (a G k : ℝ) (B B' : SiteRow → ℝ) (hB : ∀ c, B c - B' c = k * c.b_2) :
    interpR (site.map fun q => ((q.period : ℝ), q.b_lin * a + B q * G)) T -
      interpR (site.map fun q => ((q.period : ℝ), q.b_lin * a + B' q * G)) T =
      k * G * interpR (site.map fun q => ((q.period : ℝ), (q.b_2 : ℝ))) T := by
  rw [Interp.sub (fun q : SiteRow => (q.period : ℝ)), ← Interp.smul (fun q : SiteRow => (q.period : ℝ))]
  congr 1
  apply List.map_congr_left
  intro c _
  have := hB c
  have e : (c.b_lin : ℝ) * a + B c * G - (c.b_lin * a + B' c * G) = (B c - B' c) * G := by ring
  rw [e, this]; congr 1; ring

end AB06

open AB06 in
/-- The predictions jump at v_s30 = 300 m/s and at 180 m/s.  With `pga` the prediction of
PGA at 760 m/s (in g), the one-sided limits of the log prediction at any of the 27 rows
differ by plus, respectively minus, b_2·ln(max(980.665·pga, 60)/100), b_2 interpolated at
that row's period: the missing `+ b_2` of the middle branch. -/
theorem C22_jumps (S : ℝ → Scenario) (m R : ℝ)
    (hm : ∀ v, (S v).get "mag" = .num m) (hr : ∀ v, (S v).get "dist_rup" = .num R)
    (hv : ∀ v, (S v).get "v_s30" = .num v) :
    ∃ O : ℝ → GmmOut, (∀ v, Gives cls (S v) (O v)) ∧
      ∀ i, ∀ hi : i < bc.length, ∀ J, J = Real.log (max (980.665 *
          Real.exp ((O 760).lnResp.getD 2 F.nan).val) 60 / 100) *
          interpR (site.map fun q => ((q.period : ℝ), (q.b_2 : ℝ))) bc[i].period →
      (∃ a b, Tendsto (fun v => ((O v).lnResp.getD i F.nan).val) (𝓝[<] 300) (𝓝 a) ∧
        Tendsto (fun v => ((O v).lnResp.getD i F.nan).val) (𝓝[>] 300) (𝓝 b) ∧ b - a = J) ∧
      (∃ a b, Tendsto (fun v => ((O v).lnResp.getD i F.nan).val) (𝓝[<] 180) (𝓝 a) ∧
        Tendsto (fun v => ((O v).lnResp.getD i F.nan).val) (𝓝[>] 180) (𝓝 b) ∧ b - a = -J) := by
  refine ⟨_, fun v => gives (S v) (hm v) (hr v) (hv v), ?_⟩
  intro i hi J hJ
  have h760 := resp_val (i := 2) (by decide) m R (v := 760) (by norm_num)
  have hz : (site.map fun q => ((q.period : ℝ), specSite q 760
      (specPga m R))) =
      site.map fun q => ((q.period : ℝ), 0 * (0 : ℝ)) := by
    apply List.map_congr_left
    intro q _
    simp [specSite, specBnl]
    norm_num
  rw [hz, Interp.smul _ (fun _ => (0 : ℝ)), zero_mul, add_zero] at h760
  have hJ : J = Real.log (max (specPga m R) 60 / 100) *
      interpR (site.map fun q => ((q.period : ℝ), (q.b_2 : ℝ))) bc[i].period := by
    rw [specPga, ← h760]; exact hJ
  constructor
  · refine ⟨_, _, resp_tendsto hi m R (by norm_num) nhdsWithin_le_nhds bnl_left_300,
      resp_tendsto hi m R (by norm_num) nhdsWithin_le_nhds bnl_right_300, ?_⟩
    rw [add_sub_add_left_eq_sub, limit_diff _ _ _ 1 _ _ (by intro c; ring), hJ]; ring
  · refine ⟨_, _, resp_tendsto hi m R (by norm_num) nhdsWithin_le_nhds bnl_left_180,
      resp_tendsto hi m R (by norm_num) nhdsWithin_le_nhds bnl_right_180, ?_⟩
    rw [add_sub_add_left_eq_sub, limit_diff _ _ _ (-1) _ _ (by intro c; ring), hJ]; ring

open AB06 in
/-- At PGA the jump is real for weak motion: whenever PGA on B/C is at most 60 cm/s², the log
prediction of PGA steps *up* by more than 0.07 when v_s30 passes 300 m/s. -/
theorem C22_jump_pga (S : ℝ → Scenario) (m R : ℝ)
    (hm : ∀ v, (S v).get "mag" = .num m) (hr : ∀ v, (S v).get "dist_rup" = .num R)
    (hv : ∀ v, (S v).get "v_s30" = .num v) :
    ∃ O : ℝ → GmmOut, (∀ v, Gives cls (S v) (O v)) ∧
      (980.665 * Real.exp ((O 760).lnResp.getD 2 F.nan).val ≤ 60 →
      ∃ a b, Tendsto (fun v => ((O v).lnResp.getD 2 F.nan).val) (𝓝[<] 300) (𝓝 a) ∧
        Tendsto (fun v => ((O v).lnResp.getD 2 F.nan).val) (𝓝[>] 300) (𝓝 b) ∧ a + 0.07 < b) := by
  obtain ⟨O, hO, h⟩ := C22_jumps S m R hm hr hv
  refine ⟨O, hO, fun hp => ?_⟩
  obtain ⟨⟨a, b, h1, h2, h3⟩, -⟩ := h 2 (by decide) _ rfl
  refine ⟨a, b, h1, h2, ?_⟩
  rw [max_eq_right hp] at h3
  have hnode := Interp.node (site.map fun q => ((q.period : ℝ), (q.b_2 : ℝ))) (0, -0.144)
    (nodes_sorted site_sorted _) (by simp only [site, List.map_cons, List.mem_cons]; right; left; norm_num)
  have hz : (((bc[2]'(by decide)).period : ℚ) : ℝ) = 0 := by norm_num [bc]
  simp only at hnode
  rw [hz, hnode] at h3
  have hl : Real.log (60 / 100) < -0.5 := by
    have : (60 / 100 : ℝ) = (100 / 60)⁻¹ := by norm_num
    rw [this, Real.log_inv]
    have := le_log_of (x := 100 / 60) (q := 0.51) (by norm_num) (by norm_num) (by norm_num)
      (by
        have : expHi 0.51 ≤ 100 / 60 := by decide +kernel
        have : ((expHi 0.51 : ℚ) : ℝ) ≤ ((100 / 60 : ℚ) : ℝ) := by exact_mod_cast this
        push_cast at this; exact this)
    push_cast at this
    linarith
  nlinarith

open AB06 in
/-- At 760 m/s the predictions are continuous. -/
theorem C22_continuous_760 (S : ℝ → Scenario) (m R : ℝ)
    (hm : ∀ v, (S v).get "mag" = .num m) (hr : ∀ v, (S v).get "dist_rup" = .num R)
    (hv : ∀ v, (S v).get "v_s30" = .num v) :
    ∃ O : ℝ → GmmOut, (∀ v, Gives cls (S v) (O v)) ∧
      ∀ i < 27, ContinuousAt (fun v => ((O v).lnResp.getD i F.nan).val) 760 := by
  refine ⟨_, fun v => gives (S v) (hm v) (hr v) (hv v), ?_⟩
  intro i hi
  have hi' : i < bc.length := hi
  unfold ContinuousAt
  show Tendsto _ _ (𝓝 ((out (F.ofReal m) (F.ofReal R)
    (if (760 : ℝ) = 0 then none else some (F.ofReal 760))).lnResp.getD i F.nan).val)
  rw [resp_val hi' m R (by norm_num)]
  exact resp_tendsto hi' m R (by norm_num) le_rfl fun c => bnl_760 c

example : ∃ o, Gives AB06.cls ⟨[("mag", .num 6), ("dist_rup", .num 20), ("v_s30", .num 0)], []⟩ o ∧
    List.Forall₂ (fun c (y : F) => y.ok ∧ y.val = AB06.specLnRef c 6 20) AB06.rock o.lnResp :=
  C21_rock _ 6 20 (by norm_num) (by simp [Scenario.get, Dict.get?]) (by simp [Scenario.get, Dict.get?])
    (by simp [Scenario.get, Dict.get?])
example : (AB06.cls.new ⟨[("mag", .num 6), ("dist_rup", .num 20), ("v_s30", .none)], []⟩).res =
    .error (.valueError "v_s30") :=
  C21_none _ 6 20 (by simp [Scenario.get, Dict.get?]) (by simp [Scenario.get, Dict.get?])
    (by simp [Scenario.get, Dict.get?])
example : ∃ O : ℝ → GmmOut, (∀ v, Gives AB06.cls
      ⟨[("mag", .num 6), ("dist_rup", .num 20), ("v_s30", .num v)], []⟩ (O v)) ∧
      ∀ i < 27, ContinuousAt (fun v => ((O v).lnResp.getD i F.nan).val) 760 :=
  C22_continuous_760 (fun v => ⟨[("mag", .num 6), ("dist_rup", .num 20), ("v_s30", .num v)], []⟩) 6 20
    (fun v => by simp [Scenario.get, Dict.get?]) (fun v => by simp [Scenario.get, Dict.get?])
    (fun v => by simp [Scenario.get, Dict.get?])
