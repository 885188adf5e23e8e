import Verif.Models.RowKernels13
import Verif.Models.SiteTerms
import Verif.Props.RowPrograms4
import Verif.Props.RowPrograms5

/-! # C124, continued: `calc_site_term` of Boore et al. (2014) and Campbell & Bozorgnia (2014) -/

set_option linter.unusedSimpArgs false
set_option maxHeartbeats 1000000

open Arrays Classical

/-- `calc_site_term` of Boore et al. (2014), for any reference PGA -/
theorem C124_bssa14_site (p : F) (i : BSSA14.In) (region : Val) (hreg : region.isStr "japan" = i.japanBasin) (args : String → Arr) (t : Tables) :
    ∃ y, BSSA14.calcSiteTerm (some p) i.v i.z1 region = pure y ∧
      (call (rowwise .bssa14 BSSA14.table BSSA14.siteKernel).toMeaning bssa14SiteTerm (p, i) args t).values = some [y] := by
  refine ⟨_, rfl, ?_⟩
  unfold Outcome.values
  rw [(call_eq (rowwise .bssa14 BSSA14.table BSSA14.siteKernel) bssa14SiteTerm (by decide +kernel) _ args t).2.2]
  unfold bssa14SiteTerm bssa14Site
  simp only [List.map_cons, List.map_nil]
  rowrun [BSSA14.siteKernel, BSSA14.kernel, hreg]
  refine congrArg some (congrArg (fun x => [x]) ?_)
  refine List.map_congr_left fun c _ => ?_
  have hq : (0.65 : F).val ≤ (c.period : F).val ↔ 0.65 ≤ c.period := by
    have : ((0.65 : ℚ) : ℝ) = 0.65 := by norm_num
    simp only [fsimp]
    rw [← Rat.cast_le (K := ℝ), this]
  have e1 : maskLe 0.65 (c.period : F) = if 0.65 ≤ c.period then 1 else 0 := by
    rw [maskLe_of (by simp only [fsimp]) trivial]
    simp only [hq]
  simp only [BSSA14.siteTerm, BSSA14.fLin, BSSA14.fNl, BSSA14.f2, BSSA14.fDz1, e1]
  by_cases a : 0.65 ≤ c.period
  · simp only [a, if_true, where_one]
    cases i.z1 <;> rfl
  · simp only [a, if_false, where_zero]
    rfl

/-- `calc_site_term` of Campbell & Bozorgnia (2014), for any reference PGA and a basin depth -/
theorem C124_cb14_site (p : F) (i : CB14.In) (hv : i.v.ok) (hz : i.z25.ok) (region : Val)
    (hreg : region.isStr "japan" = decide (i.reg = .japan)) (args : String → Arr) (t : Tables) :
    ∃ y, CB14.calcSiteTerm (some p) i.v (some i.z25) region = pure y ∧
      (call (rowwise .cb14 CB14.table CB14.siteKernel).toMeaning cb14SiteTerm (p, i) args t).values = some [y] := by
  refine ⟨_, rfl, ?_⟩
  unfold Outcome.values
  rw [(call_eq (rowwise .cb14 CB14.table CB14.siteKernel) cb14SiteTerm (by decide +kernel) _ args t).2.2]
  unfold cb14SiteTerm cb14Site
  simp only [List.map_cons, List.map_nil]
  rowrun [CB14.siteKernel, CB14.kernel, hreg]
  refine congrArg some (congrArg (fun x => [x]) ?_)
  refine List.map_congr_left fun c _ => ?_
  have e1 : maskLe i.v (c.k_1 : F) = if i.v.val ≤ c.k_1 then 1 else 0 := maskLe_of hv trivial
  simp only [Option.getD_some]
  rw [CB14.siteTerm, CB14.fSed_split c hz, CB14.fSite_split c _ hv, CB14.fSiteJp_split c hv, e1]
  simp only [decide_eq_true_eq]
  by_cases a : i.v.val ≤ c.k_1 <;> by_cases b : i.reg = .japan <;> by_cases d : i.v.val ≤ 200 <;>
    simp only [a, b, d, if_true, if_false, where_one, where_zero, add_zero_F, add_assoc_F]

/-- a Japanese soft site in a basin -/
example : let i : CB14.In := ⟨F.ofReal 7, F.ofReal 20, F.ofReal 20, F.ofReal 20, F.ofReal 90, F.ofReal 10, F.ofReal 0, F.ofReal 8,
      F.ofReal 3, F.ofReal 180, .other, .japan⟩
    ∃ y, CB14.calcSiteTerm (some (F.ofReal 0.1)) i.v (some i.z25) (.str "japan") = pure y ∧
      (call (rowwise .cb14 CB14.table CB14.siteKernel).toMeaning cb14SiteTerm (F.ofReal 0.1, i) (fun _ => []) (fun _ => [])).values = some [y] := by
  intro i
  exact C124_cb14_site _ i trivial trivial _ (by simp [Val.isStr, i]) _ _

/-- a Californian site without a measured basin -/
example : let i : BSSA14.In := ⟨F.ofReal 7, F.ofReal 20, F.ofReal 300, none, .ss, .other, false⟩
    ∃ y, BSSA14.calcSiteTerm (some (F.ofReal 0.1)) i.v i.z1 (.str "california") = pure y ∧
      (call (rowwise .bssa14 BSSA14.table BSSA14.siteKernel).toMeaning bssa14SiteTerm (F.ofReal 0.1, i) (fun _ => []) (fun _ => [])).values =
        some [y] := by
  intro i
  exact C124_bssa14_site _ i _ (by simp [Val.isStr, i]) _ _
